import Verif.Proofs.Greedy
import Verif.Spec.Graph
import Verif.Props.Pool
/-!
# C04 – C07: graph search
-/

namespace Grann

open Spec (IsGraph Edge Reach KNearest Matches)

/-- Specialisation of the general theorem to the outcome of the filter test. -/
theorem greedy_general {V : Type} (sortF : List Nbr → List Nbr) (hsort : IsStdSort sortF)
    (c : Ctx V) (q : V) (filters : List Label) (L : Nat)
    (adj : Nat → List (List Nat)) (init : List Nat) (d : Nat → F32)
    (hd : ∀ i v, c.data[i]? = some v → d i = c.cmp q v)
    (hsym : ∀ v ∈ c.data, c.cmp v q = c.cmp q v)
    (hL1 : 1 ≤ L) (hL : Spec.ListFits c.data.length L)
    (hlab : filters ≠ [] → c.labels.length = c.data.length)
    (hg : ∀ t, IsGraph c.data.length (adj t))
    (hinit : ∀ i ∈ init, i < c.data.length)
    (P : Nat → Prop) (hP0 : ∀ i ∈ init, P i)
    (hP : ∀ t i j, P i → Edge (adj t) i j → filterAccepts c filters j = .ok true → P j)
    (fuel : Nat) (hf : (c.data.length + 1) * (L + 1) ≤ fuel) :
    ∃ s c0, greedySearchF fuel sortF c q filters L adj init = .ok s ∧
      GInv d L c.data.length (fun i => decide (filterAccepts c filters i = .ok true)) adj P c0 s ∧
      s.ps.cur ≤ s.k ∧
      (s.ps.cur < L → ∀ i ∈ init, i ∈ s.ps.ins) ∧ (init ≠ [] → 1 ≤ s.ps.cur ∧ 1 ≤ c0) ∧
      ((∀ i, i < c.data.length → (d i).IsNum) → KInv d L s.ps) := by
  refine greedySearchF_spec sortF hsort c q filters L adj init d (fun i v h => (hd i v h).symm)
    (fun i v h => ?_) hL1 (by omega) _ P ?_ (fun t => (hg t).len) (fun t => (hg t).edges) hinit hP0 ?_
    fuel hf
  · rw [hsym v (List.mem_of_getElem? h)]; exact (hd i v h).symm
  · intro i hi
    exact filterAcc_all c filters [i] (fun hne j hj => by
      rw [hlab hne]; simp at hj; omega) i (by simp)
  · intro t i nb hPi hnb j hj hacc
    exact hP t i j hPi ⟨nb, hnb, hj⟩ (by simpa using hacc)

theorem answer_eq (s : PoolSt) : s.answer = s.live.map Nbr.pair := rfl

theorem answer_ids (s : PoolSt) : s.answer.map Prod.fst = s.live.map Nbr.id := by
  rw [answer_eq, List.map_map]; rfl

theorem answer_length {d : Nat → F32} {max : Nat} {s : PoolSt} (h : SInv d max s) :
    s.answer.length = s.cur := by
  rw [answer_eq, List.length_map, h.live_length]

/-! ## C04 -/

/-- **C04.** For every family of graphs `adj t` (the graph may change between two reads, as it does
during a build), every query, filter and list of entry points and every list size `L ≥ 1`, the
search has a defined outcome, and its list: holds at most `L` points, each once; only points of the
index; each with its distance to the query; is not empty when there is an entry point; and is sorted
by distance when no distance is NaN.  `hsym` is symmetry of the computed distance: the code evaluates
it with swapped arguments for entry points. -/
theorem C04_graph_search_answer {V : Type} (sortF : List Nbr → List Nbr) (hsort : IsStdSort sortF)
    (c : Ctx V) (q : V) (filters : List Label) (L : Nat)
    (adj : Nat → List (List Nat)) (init : List Nat) (d : Nat → F32)
    (hd : ∀ i v, c.data[i]? = some v → d i = c.cmp q v)
    (hsym : ∀ v ∈ c.data, c.cmp v q = c.cmp q v)
    (hL1 : 1 ≤ L) (hL : Spec.ListFits c.data.length L)
    (hlab : filters ≠ [] → c.labels.length = c.data.length)
    (hg : ∀ t, IsGraph c.data.length (adj t))
    (hinit : ∀ i ∈ init, i < c.data.length) :
    ∃ s, greedySearch sortF c q filters L adj init = .ok s ∧
      (s.ps.answer.map Prod.fst).Nodup ∧
      (∀ x ∈ s.ps.answer, x.1 < c.data.length ∧ x.2 = d x.1) ∧
      s.ps.answer.length ≤ L ∧
      (init ≠ [] → s.ps.answer ≠ []) ∧
      ((∀ i, i < c.data.length → (d i).IsNum) →
        s.ps.answer.Pairwise (fun x y => x.2.le y.2 = true)) := by
  obtain ⟨s, c0, e, hi, _, _, h1, hk⟩ := greedy_general sortF hsort c q filters L adj init d hd hsym hL1
    hL hlab hg hinit (fun _ => True) (fun _ _ => trivial) (fun _ _ _ _ _ _ => trivial)
    _ (Nat.le_refl _)
  refine ⟨s, e, ?_, ?_, ?_, ?_, ?_⟩
  · rw [answer_ids]; exact hi.sinv.nodupIds
  · intro x hx
    obtain ⟨y, hy, rfl⟩ := List.mem_map.1 hx
    exact ⟨hi.insLt _ (hi.sinv.subset y hy), hi.sinv.truth y hy⟩
  · rw [answer_length hi.sinv]; exact hi.sinv.cur_le
  · intro hne h0
    have := (h1 hne).1
    rw [← answer_length hi.sinv, h0] at this
    simp at this
  · intro hn; exact (hk hn).sorted

/-- Five points on a line with squared distances as small integers in float format would do; here the
"vectors" are distances themselves and `cmp` returns the larger of the two, which is symmetric. -/
def exLine : Ctx F32 where
  data := [⟨0x40a00000#32⟩, F32.one, ⟨0x40000000#32⟩, F32.one, ⟨0x40400000#32⟩]
  labels := [[[97]], [[98]], [[97], [98]], [[98]], [[97]]]
  useUniv := false
  univ := []
  cmp := fun a b => if a.lt b then b else a

/-- A graph with a cycle, a self loop, a repeated edge and a point (4) nobody points to. -/
def exGraph : List (List Nat) := [[0, 1, 1, 2], [2], [0, 3], [], [0]]

/-- Hypotheses of C04–C07 hold for `exLine` and `exGraph`, and the search does something: from entry
point 0 with `L = 2` it ends with the two closest points 1 and 3. -/
example : IsGraph exLine.data.length exGraph ∧
    (∀ v ∈ exLine.data, exLine.cmp v F32.zero = exLine.cmp F32.zero v) ∧
    (∀ v ∈ exLine.data, (exLine.cmp F32.zero v).IsNum) ∧
    (do let s ← greedySearch exSort exLine F32.zero [] 2 (fun _ => exGraph) [0]
        pure (s.ps.answer, s.hops, s.ps.cmps) : Res _)
      = .ok ([(1, F32.one), (3, F32.one)], 4, 3) := by decide

/-! ## C05 -/

/-- **C05.** For every family of graphs, query, filter, list of entry points and `L ≥ 1` the search
loop stops: there is one result, obtained with any bound on the number of iterations from
`(n + 1)·(L + 1)` on.  No point is expanded twice; the hop count is the number of expanded points
and, like the number of comparisons, is at most the number of points. -/
theorem C05_terminates {V : Type} (sortF : List Nbr → List Nbr) (hsort : IsStdSort sortF)
    (c : Ctx V) (q : V) (filters : List Label) (L : Nat)
    (adj : Nat → List (List Nat)) (init : List Nat)
    (hsym : ∀ v ∈ c.data, c.cmp v q = c.cmp q v)
    (hL1 : 1 ≤ L) (hL : Spec.ListFits c.data.length L)
    (hlab : filters ≠ [] → c.labels.length = c.data.length)
    (hg : ∀ t, IsGraph c.data.length (adj t))
    (hinit : ∀ i ∈ init, i < c.data.length) :
    ∃ s, (∀ fuel, (c.data.length + 1) * (L + 1) ≤ fuel →
        greedySearchF fuel sortF c q filters L adj init = .ok s) ∧
      (s.expanded.map Nbr.id).Nodup ∧
      (∀ x ∈ s.expanded, x.id < c.data.length) ∧
      s.hops = s.expanded.length ∧ s.hops ≤ c.data.length ∧
      s.ps.cmps ≤ c.data.length ∧
      (init ≠ [] → s.ps.cmps + 1 ≤ c.data.length) := by
  let d : Nat → F32 := fun i => match c.data[i]? with | some v => c.cmp q v | none => F32.zero
  have hd : ∀ i v, c.data[i]? = some v → d i = c.cmp q v := by
    intro i v h; simp only [d, h]
  have key := fun fuel hf => greedy_general sortF hsort c q filters L adj init d hd hsym hL1
    hL hlab hg hinit (fun _ => True) (fun _ _ => trivial) (fun _ _ _ _ _ _ => trivial) fuel hf
  obtain ⟨s, c0, e, hi, _, _, h1, _⟩ := key _ (Nat.le_refl _)
  have hins := ins_length_le hi.sinv.nodupIns hi.insLt
  have hhops := hi.hops_le
  refine ⟨s, ?_, hi.exNodup, ?_, hi.hops, by omega, ?_, ?_⟩
  · intro fuel hf
    exact greedySearchF_mono sortF c q filters L adj init hf e
  · intro x hx
    exact hi.insLt _ (hi.exIns _ (List.mem_map_of_mem hx))
  · have := hi.cmps; omega
  · intro hne
    have := h1 hne
    have := hi.cmps
    omega

example : (do let s ← greedySearchF 1000 exSort exLine F32.zero [[97], [98]] 5 
                (fun t => if t = 1 then [[4], [4], [0, 4], [], []] else exGraph) [2, 2, 1]
              pure (s.expanded.map Nbr.id, s.hops, s.ps.cmps) : Res _)
      = .ok ([1, 2, 4, 0], 4, 2) := by decide

/-! ## C06 -/

/-- **C06.** When the search on a graph `g` returns (no NaN distances): every point of the answer has
been expanded; every out-neighbour of an answer point that passes the filter test is in the answer,
or the answer is full (`L` entries) and none of them is farther than that neighbour; and the answer is
the list of the `L` nearest points of the set `S` of points looked at: `S` consists of points
reachable from the entry points, and contains every filter-passing out-neighbour of every expanded
point. -/
theorem C06_fixed_point {V : Type} (sortF : List Nbr → List Nbr) (hsort : IsStdSort sortF)
    (c : Ctx V) (q : V) (filters : List Label) (L : Nat)
    (g : List (List Nat)) (init : List Nat) (d : Nat → F32)
    (hd : ∀ i v, c.data[i]? = some v → d i = c.cmp q v)
    (hsym : ∀ v ∈ c.data, c.cmp v q = c.cmp q v)
    (hL1 : 1 ≤ L) (hL : Spec.ListFits c.data.length L)
    (hlab : filters ≠ [] → c.labels.length = c.data.length)
    (hg : IsGraph c.data.length g)
    (hinit : ∀ i ∈ init, i < c.data.length)
    (hnum : ∀ i, i < c.data.length → (d i).IsNum) :
    ∃ s, greedySearch sortF c q filters L (fun _ => g) init = .ok s ∧
      (∀ x ∈ s.ps.answer, x.1 ∈ s.expanded.map Nbr.id) ∧
      (∀ x ∈ s.ps.answer, ∀ j, Edge g x.1 j → filterAccepts c filters j = .ok true →
        j ∈ s.ps.answer.map Prod.fst ∨
        (s.ps.answer.length = L ∧ ∀ y ∈ s.ps.answer, y.2.le (d j) = true)) ∧
      ∃ S : Finset Nat, KNearest L S d s.ps.answer ∧
        (∀ x ∈ s.expanded, ∀ j, Edge g x.id j → filterAccepts c filters j = .ok true → j ∈ S) ∧
        (∀ i ∈ S, Reach g (fun j => filterAccepts c filters j = .ok true) init i) ∧
        (∀ x ∈ s.expanded, x.id ∈ S) := by
  obtain ⟨s, c0, e, hi, hk, _, h1, hkn⟩ := greedy_general sortF hsort c q filters L (fun _ => g) init d
    hd hsym hL1 hL hlab (fun _ => hg) hinit
    (Reach g (fun j => filterAccepts c filters j = .ok true) init)
    (fun i hi => Reach.start hi) (fun _ i j hPi he ha => Reach.step hPi he ha)
    _ (Nat.le_refl _)
  have hkn := hkn hnum
  have hallf : ∀ x ∈ s.ps.live, x.flag = false := by
    intro x hx
    apply hi.flagsK
    rw [List.take_of_length_le (by rw [hi.sinv.live_length]; exact hk)]
    exact hx
  have hexp : ∀ x ∈ s.ps.answer, x.1 ∈ s.expanded.map Nbr.id := by
    intro x hx
    obtain ⟨y, hy, rfl⟩ := List.mem_map.1 hx
    exact hi.flagEx y hy (hallf y hy)
  have hclosed : ∀ i ∈ s.expanded.map Nbr.id, ∀ j, Edge g i j →
      filterAccepts c filters j = .ok true → j ∈ s.ps.ins := by
    intro i hi' j hj ha
    obtain ⟨y, hy, rfl⟩ := List.mem_map.1 hi'
    obtain ⟨nb, hnb, hjm⟩ := hj
    obtain ⟨t, ht, hty⟩ := List.getElem_of_mem hy
    exact hi.closed t y (by rw [List.getElem?_eq_getElem ht, hty]) nb hnb j hjm (by simpa using ha)
  refine ⟨s, e, hexp, ?_, s.ps.ins.toFinset, hkn, ?_, ?_, ?_⟩
  · intro x hx j hj ha
    have hjS := hclosed _ (hexp x hx) j hj ha
    by_cases hja : j ∈ s.ps.answer.map Prod.fst
    · exact Or.inl hja
    · right
      have hb := hkn.best j (by simpa using hjS) hja
      refine ⟨?_, hb⟩
      by_contra hlen
      have h2 : s.ps.answer.length = min L s.ps.ins.toFinset.card := hkn.length
      have := hkn.all_of_short (by
        have : (s.ps.live.map Nbr.pair).length = min L s.ps.ins.toFinset.card := h2
        have h3 : (s.ps.live.map Nbr.pair).length ≠ L := hlen
        omega) j (by simpa using hjS)
      exact hja this
  · intro x hx j hj ha
    simpa using hclosed _ (List.mem_map_of_mem hx) j hj ha
  · intro i hi'
    exact hi.reach i (by simpa using hi')
  · intro x hx
    simpa using hi.exIns _ (List.mem_map_of_mem hx)

/-! ## C07 -/

/-- **C07, general form.** If the list size is at least the number of points reachable (along points
passing the filter test) from the entry points, the answer lists exactly the reachable points, and
its first `k` entries are the `k` nearest reachable points, for every `k`. -/
theorem C07_exact_on_filtered_reachable {V : Type} (sortF : List Nbr → List Nbr) (hsort : IsStdSort sortF)
    (c : Ctx V) (q : V) (filters : List Label) (L : Nat)
    (g : List (List Nat)) (init : List Nat) (d : Nat → F32)
    (hd : ∀ i v, c.data[i]? = some v → d i = c.cmp q v)
    (hsym : ∀ v ∈ c.data, c.cmp v q = c.cmp q v)
    (hL1 : 1 ≤ L) (hL : Spec.ListFits c.data.length L)
    (hlab : filters ≠ [] → c.labels.length = c.data.length)
    (hg : IsGraph c.data.length g)
    (hinit : ∀ i ∈ init, i < c.data.length)
    (hnum : ∀ i, i < c.data.length → (d i).IsNum)
    (S : Finset Nat)
    (hS : ∀ i, i ∈ S ↔ Reach g (fun j => filterAccepts c filters j = .ok true) init i)
    (hLS : S.card ≤ L) :
    ∃ s, greedySearch sortF c q filters L (fun _ => g) init = .ok s ∧
      (∀ i, i ∈ s.ps.answer.map Prod.fst ↔ i ∈ S) ∧
      ∀ k, k ≤ L → KNearest k S d (s.ps.answer.take k) := by
  obtain ⟨s, c0, e, hi, hk, hini, h1, hkn⟩ := greedy_general sortF hsort c q filters L (fun _ => g) init d
    hd hsym hL1 hL hlab (fun _ => hg) hinit
    (Reach g (fun j => filterAccepts c filters j = .ok true) init)
    (fun i hi => Reach.start hi) (fun _ i j hPi he ha => Reach.step hPi he ha)
    _ (Nat.le_refl _)
  have hkn : KNearest L s.ps.ins.toFinset d s.ps.answer := hkn hnum
  have hsub : s.ps.ins.toFinset ⊆ S := by
    intro i hi'
    rw [hS]; exact hi.reach i (by simpa using hi')
  have hcard := Finset.card_le_card hsub
  have hall : ∀ i ∈ s.ps.ins.toFinset, i ∈ s.ps.answer.map Prod.fst := by
    have hlen : (s.ps.answer.map Prod.fst).toFinset.card = s.ps.ins.toFinset.card := by
      rw [List.toFinset_card_of_nodup hkn.nodup, List.length_map, hkn.length]; omega
    have hs2 : (s.ps.answer.map Prod.fst).toFinset ⊆ s.ps.ins.toFinset := by
      intro i hi'
      obtain ⟨x, hx, rfl⟩ := List.mem_map.1 (List.mem_toFinset.1 hi')
      exact (hkn.mem x hx).1
    have := Finset.eq_of_subset_of_card_le hs2 (by omega)
    intro i hi'
    rw [← this] at hi'
    exact List.mem_toFinset.1 hi'
  have hallf : ∀ x ∈ s.ps.live, x.flag = false := by
    intro x hx
    apply hi.flagsK
    rw [List.take_of_length_le (by rw [hi.sinv.live_length]; exact hk)]
    exact hx
  have heq : s.ps.ins.toFinset = S := by
    by_cases hc : s.ps.cur < L
    · refine Finset.Subset.antisymm hsub (fun i hiS => ?_)
      rw [hS] at hiS
      induction hiS with
      | start h => simpa using hini hc _ h
      | @step i j hr hE hok ih =>
        have hia := hall i ih
        rw [answer_ids] at hia
        obtain ⟨x, hx, rfl⟩ := List.mem_map.1 hia
        have hxe := hi.flagEx x hx (hallf x hx)
        obtain ⟨y, hy, hyx⟩ := List.mem_map.1 hxe
        obtain ⟨t, ht, hty⟩ := List.getElem_of_mem hy
        obtain ⟨nb, hnb, hjm⟩ := hE
        have := hi.closed t y (by rw [List.getElem?_eq_getElem ht, hty]) nb (by rw [hyx]; exact hnb)
          j hjm (by simpa using hok)
        simpa using this
    · apply Finset.eq_of_subset_of_card_le hsub
      have h2 := answer_length hi.sinv
      have h3 := hkn.length
      omega
  refine ⟨s, e, ?_, ?_⟩
  · intro i
    constructor
    · intro hi'
      obtain ⟨x, hx, rfl⟩ := List.mem_map.1 hi'
      rw [← heq]; exact (hkn.mem x hx).1
    · intro hi'; exact hall i (by rw [heq]; exact hi')
  · intro k hk'
    rw [heq] at hkn
    exact hkn.take hk'

/-- **C07.** With `L` at least the number of points, an unfiltered search returns exactly the points
reachable from the entry points; its first `k` results are the `k` nearest reachable points. -/
theorem C07_exact_on_reachable {V : Type} (sortF : List Nbr → List Nbr) (hsort : IsStdSort sortF)
    (c : Ctx V) (q : V) (L : Nat)
    (g : List (List Nat)) (init : List Nat) (d : Nat → F32)
    (hd : ∀ i v, c.data[i]? = some v → d i = c.cmp q v)
    (hsym : ∀ v ∈ c.data, c.cmp v q = c.cmp q v)
    (hL1 : 1 ≤ L) (hL : Spec.ListFits c.data.length L) (hLn : c.data.length ≤ L)
    (hg : IsGraph c.data.length g)
    (hinit : ∀ i ∈ init, i < c.data.length)
    (hnum : ∀ i, i < c.data.length → (d i).IsNum) :
    ∃ s, greedySearch sortF c q [] L (fun _ => g) init = .ok s ∧
      (∀ i, i ∈ s.ps.answer.map Prod.fst ↔ Reach g (fun _ => True) init i) ∧
      ∀ k, k ≤ L → ∀ S : Finset Nat, (∀ i, i ∈ S ↔ Reach g (fun _ => True) init i) →
        KNearest k S d (s.ps.answer.take k) := by
  classical
  have hacc : (fun j => filterAccepts c [] j = .ok true) = (fun _ => True) := by
    funext j; simp [filterAccepts]
  have hlt : ∀ i, Reach g (fun _ => True) init i → i < c.data.length := by
    intro i h
    induction h with
    | start h => exact hinit _ h
    | step _ hE _ _ =>
      obtain ⟨nb, hnb, hj⟩ := hE
      exact hg.edges nb (List.mem_of_getElem? hnb) _ hj
  let S0 : Finset Nat := (Finset.range c.data.length).filter (fun i => Reach g (fun _ => True) init i)
  have hS0 : ∀ i, i ∈ S0 ↔ Reach g (fun _ => True) init i := by
    intro i
    simp only [S0, Finset.mem_filter, Finset.mem_range]
    exact ⟨fun h => h.2, fun h => ⟨hlt i h, h⟩⟩
  obtain ⟨s, e, h1, h2⟩ := C07_exact_on_filtered_reachable sortF hsort c q [] L g init d hd hsym hL1 hL
    (by simp) hg hinit hnum S0 (by rw [hacc]; exact hS0) (by
      have := Finset.card_filter_le (Finset.range c.data.length)
        (fun i => Reach g (fun _ => True) init i)
      rw [Finset.card_range] at this
      exact Nat.le_trans this hLn)
  refine ⟨s, e, fun i => (h1 i).trans (hS0 i), ?_⟩
  intro k hk S hS
  have : S = S0 := by ext i; rw [hS, hS0]
  rw [this]; exact h2 k hk

/-- With `L = 5` the search from point 0 lists all reachable points (not 4), by distance. -/
example : (do let s ← greedySearch exSort exLine F32.zero [] 5 (fun _ => exGraph) [0]
              pure s.ps.answer : Res _)
      = .ok [(1, F32.one), (3, F32.one), (2, ⟨0x40000000#32⟩), (0, ⟨0x40a00000#32⟩)] := by decide

/-! ## The theorems applied to the examples -/

/-- The distances of `exLine` to the query. -/
def exLineD (i : Nat) : F32 := exLine.cmp F32.zero (exLine.data.getD i F32.zero)

theorem exLineD_eq : ∀ i v, exLine.data[i]? = some v → exLineD i = exLine.cmp F32.zero v := by
  intro i v h; simp [exLineD, List.getD, h]

/-- C04 with a graph that changes while the search runs, a filter and three entry points. -/
example := C04_graph_search_answer exSort exSort_isStdSort exLine F32.zero [[97], [98]] 5
  (fun t => if t = 1 then [[4], [4], [0, 4], [], []] else exGraph) [2, 2, 1] exLineD exLineD_eq
  (by decide) (by decide) (by decide) (by decide) (by intro t; split <;> decide) (by decide)

example := C05_terminates exSort exSort_isStdSort exLine F32.zero [[97], [98]] 5
  (fun t => if t = 1 then [[4], [4], [0, 4], [], []] else exGraph) [2, 2, 1]
  (by decide) (by decide) (by decide) (by decide) (by intro t; split <;> decide) (by decide)

/-- C06 with a list that is too short for all points, filtered. -/
example := C06_fixed_point exSort exSort_isStdSort exLine F32.zero [[98]] 2 exGraph [0] exLineD exLineD_eq
  (by decide) (by decide) (by decide) (by decide) (by decide) (by decide) (by decide)

/-- C07 with a filter: from point 0 the points carrying "b" that are reached are 1, 2 and 3. -/
example := C07_exact_on_filtered_reachable exSort exSort_isStdSort exLine F32.zero [[98]] 4 exGraph [0]
  exLineD exLineD_eq (by decide) (by decide) (by decide) (by decide) (by decide) (by decide) (by decide)
  {0, 1, 2, 3} (by
    intro i
    constructor
    · intro h
      have h0 : Spec.Reach exGraph (fun j => filterAccepts exLine [[98]] j = .ok true) [0] 0 :=
        .start (by decide)
      have h1 : Spec.Reach exGraph (fun j => filterAccepts exLine [[98]] j = .ok true) [0] 1 :=
        .step h0 ⟨_, rfl, by decide⟩ (by decide)
      have h2 : Spec.Reach exGraph (fun j => filterAccepts exLine [[98]] j = .ok true) [0] 2 :=
        .step h0 ⟨_, rfl, by decide⟩ (by decide)
      have h3 : Spec.Reach exGraph (fun j => filterAccepts exLine [[98]] j = .ok true) [0] 3 :=
        .step h2 ⟨_, rfl, by decide⟩ (by decide)
      simp only [Finset.mem_insert, Finset.mem_singleton] at h
      rcases h with rfl | rfl | rfl | rfl <;> assumption
    · intro h
      induction h with
      | start h => simp at h; subst h; decide
      | step _ e _ ih =>
        obtain ⟨nb, h1, h2⟩ := e
        simp only [Finset.mem_insert, Finset.mem_singleton] at ih
        rcases ih with rfl | rfl | rfl | rfl <;>
          (simp [exGraph] at h1; subst h1; simp at h2 ⊢; try omega)) (by decide)

example := C07_exact_on_reachable exSort exSort_isStdSort exLine F32.zero 5 exGraph [0] exLineD exLineD_eq
  (by decide) (by decide) (by decide) (by decide) (by decide) (by decide) (by decide)

end Grann
