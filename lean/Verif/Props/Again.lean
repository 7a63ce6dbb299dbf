import Verif.Model.Again
import Verif.Props.Ivf
import Verif.Props.RelNG
import Verif.Props.Build
import Verif.Props.Persist
import Verif.Props.Lsh
import Verif.Props.LshFile
/-!
# C75 — building or loading into an object that is not new
-/

namespace Grann

open _root_.Spec (KNearest Matches)

/-! ## IVF -/

theorem resizeLists_length (n : Nat) (l : List (List Nat)) : (resizeLists n l).length = n := by
  unfold resizeLists
  rw [List.length_append, List.length_take, List.length_replicate]; omega

theorem resizeLists_getD (n : Nat) (l : List (List Nat)) (c : Nat) :
    (resizeLists n l).getD c [] = (l.take n).getD c [] := by
  unfold resizeLists
  by_cases h : c < (l.take n).length
  · simp [List.getD, List.getElem?_append_left h]
  · rw [List.getD, List.getElem?_append_right (by omega), List.getElem?_replicate]
    simp only [List.getD]
    rw [List.getElem?_eq_none (l := l.take n) (by omega)]
    split <;> rfl

theorem ivfBuildAgain_new (nc : Nat) (pops : List F32 → List Nat)
    (sched : Nat → List (Nat × Nat) → List (Nat × Nat)) (rows : List (List F32)) :
    ivfBuildAgain nc pops sched rows [] = ivfBuildLists nc pops sched rows := by
  unfold ivfBuildAgain ivfBuildLists
  have : resizeLists nc [] = List.replicate nc [] := by simp [resizeLists]
  rw [this]
  cases closestCenters 1000000 nc 1 pops sched rows (List.replicate rows.length 0)
    (some (List.replicate nc [])) <;> rfl

/-- **C75 (IVF), what happens.** Building an IVF index again appends: each list holds what it held, if it
still exists after the resize, together with what a build of a new object would put into it. -/
theorem C75_ivf_build_again (nc : Nat) (hnc : 1 ≤ nc) (pops : List F32 → List Nat)
    (hpops : IsPopOrder pops)
    (sched : Nat → List (Nat × Nat) → List (Nat × Nat)) (hsched : ∀ b l, (sched b l).Perm l)
    (rows : List (List F32)) (hn : 1 ≤ rows.length)
    (hrows : ∀ row ∈ rows, row.length = nc ∧ ∀ x ∈ row, x.IsNum)
    (hfin : ∀ row ∈ rows, ∃ x ∈ row, x.lt F32.fmax = true) (inv0 : List (List Nat)) :
    ∃ fresh inv, ivfBuildLists nc pops sched rows = .ok fresh ∧ ivfBuildAgain nc pops sched rows inv0 = .ok inv ∧
      inv.length = nc ∧ fresh.length = nc ∧
      ∀ c, (inv.getD c []).Perm ((inv0.take nc).getD c [] ++ fresh.getD c []) := by
  have hp : ∀ row ∈ rows, _ := fun row hr =>
    pick_spec hpops (hrows row hr).1 hnc (hrows row hr).2 (fun _ => hfin row hr)
  have gen : ∀ i0 : List (List Nat), ∃ inv, ivfBuildAgain nc pops sched rows i0 = .ok inv ∧ inv.length = nc ∧
      ∀ c, (inv.getD c []).Perm ((i0.take nc).getD c [] ++
        ((allPush 1 pops rows).filter (fun p => p.1 == c)).map Prod.snd) := by
    intro i0
    obtain ⟨inv', e, _, h2⟩ := closestCenters_spec (maxBlk := 1000000) (nc := nc) (k := 1) (pops := pops)
      hsched (rows := rows) (out0 := List.replicate rows.length 0)
      (inv0 := some (resizeLists nc i0)) (by decide) hn hnc (fun r hr => (hp r hr).1)
      (fun r hr => (hp r hr).2.1) (by intro i h; cases h; rw [resizeLists_length]) (by simp)
    obtain ⟨inv, hi, hil, hperm⟩ := h2 _ rfl
    rw [resizeLists_length] at hil
    refine ⟨inv, ?_, hil, ?_⟩
    · unfold ivfBuildAgain
      rw [e]
      simp only [Res.ok_bind]
      rw [hi]
    · intro c
      have := hperm c
      rwa [resizeLists_getD] at this
  obtain ⟨fresh, e1, l1, p1⟩ := gen []
  obtain ⟨inv, e2, l2, p2⟩ := gen inv0
  rw [ivfBuildAgain_new] at e1
  refine ⟨fresh, inv, e1, e2, l2, l1, ?_⟩
  intro c
  have := p1 c
  simp only [List.take_nil, List.getD_nil, List.nil_append] at this
  exact (p2 c).trans ((List.Perm.refl _).append this.symm)

theorem flatten_getD (inv : List (List Nat)) :
    inv.flatten = (List.range inv.length).flatMap (fun c => inv.getD c []) := by
  rw [List.flatMap_def]
  congr 1
  apply List.ext_getElem
  · simp
  · intro i h1 h2; simp [List.getD, List.getElem?_eq_getElem h1]

theorem flatMap_append_perm {α β : Type} (f g : α → List β) : ∀ l : List α,
    (l.flatMap (fun c => f c ++ g c)).Perm (l.flatMap f ++ l.flatMap g) := by
  intro l
  induction l with
  | nil => simp
  | cons a l ih =>
    simp only [List.flatMap_cons]
    refine ((List.Perm.refl _).append ih).trans ?_
    rw [List.append_assoc, List.append_assoc]
    refine (List.Perm.refl _).append ?_
    rw [← List.append_assoc, ← List.append_assoc]
    exact List.perm_append_comm.append (List.Perm.refl _)

/-- **C75 (IVF), refuted.** After two builds with the same number of clusters (whatever the centres and the
order of the appends in each) the lists hold every point twice, so they are not a partition (C14 fails). -/
theorem C75_ivf_stored_twice (nc : Nat) (hnc : 1 ≤ nc) (pops : List F32 → List Nat)
    (hpops : IsPopOrder pops)
    (sched : Nat → List (Nat × Nat) → List (Nat × Nat)) (hsched : ∀ b l, (sched b l).Perm l)
    (rows : List (List F32)) (hn : 1 ≤ rows.length)
    (hrows : ∀ row ∈ rows, row.length = nc ∧ ∀ x ∈ row, x.IsNum)
    (hfin : ∀ row ∈ rows, ∃ x ∈ row, x.lt F32.fmax = true) (inv0 : List (List Nat))
    (h0 : inv0.length ≤ nc) (hinv0 : inv0.flatten.Perm (List.range rows.length)) :
    ∃ inv, ivfBuildAgain nc pops sched rows inv0 = .ok inv ∧
      inv.flatten.Perm (List.range rows.length ++ List.range rows.length) ∧
      ¬ inv.flatten.Perm (List.range rows.length) := by
  obtain ⟨fresh, inv, e1, e2, l2, l1, hc⟩ := C75_ivf_build_again nc hnc pops hpops sched hsched rows hn hrows
    hfin inv0
  obtain ⟨fresh', e1', _, hf, _⟩ := C14_inverted_lists_partition nc hnc pops hpops sched hsched rows hn hrows
    hfin
  rw [e1] at e1'
  cases e1'
  have hp : inv.flatten.Perm (List.range rows.length ++ List.range rows.length) := by
    rw [flatten_getD inv, l2]
    refine (List.Perm.flatMap_left _ (fun c _ => hc c)).trans ?_
    refine (flatMap_append_perm _ _ _).trans ?_
    refine List.Perm.append ?_ ?_
    · rw [List.take_of_length_le h0]
      refine List.Perm.trans (List.Perm.of_eq ?_) hinv0
      have : (List.range nc).flatMap (fun c => inv0.getD c []) = (resizeLists nc inv0).flatten := by
        rw [flatten_getD, resizeLists_length]
        congr 1
        funext c
        rw [resizeLists_getD, List.take_of_length_le h0]
      rw [this]
      unfold resizeLists
      rw [List.take_of_length_le h0, List.flatten_append]
      simp
    · rw [← l1, ← flatten_getD]; exact hf
  refine ⟨inv, e2, hp, ?_⟩
  intro h
  have h1 := hp.length_eq
  have h2 := h.length_eq
  simp only [List.length_append, List.length_range] at h1 h2
  omega

/-- **C75 (IVF), what remains true.** After the second build a search of all clusters is still exact: the
scan skips a point that it has seen. -/
theorem C75_ivf_still_exact {V : Type} (pops : List F32 → List Nat) (hpops : IsPopOrder pops) (ix : Ivf V)
    (hlists : ix.inv.length = ix.nc)
    (hpart : ix.inv.flatten.Perm (List.range ix.ctx.data.length ++ List.range ix.ctx.data.length))
    (q : V) (d : Nat → F32) (hdist : ix.Dist q d) (filters : List Label)
    (hlab : filters ≠ [] → ix.ctx.labels.length = ix.ctx.data.length)
    (hsf : SortedL filters) (hsl : ∀ l ∈ ix.ctx.labels, SortedL l)
    (rc : Nat) (hrc1 : 1 ≤ rc) (hrc : rc ≤ 2 ^ 31)
    (ind : List Nat) (dst : List F32) (hind : rc ≤ ind.length) (hdst : rc ≤ dst.length) :
    ∃ (ids ind' : List Nat) (dst' : List F32), ivfSearch pops ix q rc ix.nc ind (some dst) filters
        = .ok (ind', some dst', ids.length) ∧
      ind'.take ids.length = ids ∧ dst'.take ids.length = ids.map d ∧
      KNearest rc ((Finset.range ix.ctx.data.length).filter
        (fun i => Matches ix.ctx.useUniv ix.ctx.univ filters (ix.ctx.labels.getD i []))) d
        (ids.map (fun i => (i, d i))) :=
  ivf_all_clusters pops hpops ix hlists (fun i => by rw [hpart.mem_iff]; simp) q d hdist filters
    hlab hsf hsl rc hrc1 (.of_le hrc) ind dst hind hdst

example : ivfBuildLists 2 exPops (fun _ l => l)
      [[F32.zero, F32.one], [F32.one, F32.zero], [F32.one, F32.one]] = .ok [[0, 2], [1]] ∧
    ivfBuildAgain 2 exPops (fun _ l => l)
      [[F32.one, F32.zero], [F32.one, F32.zero], [F32.zero, F32.one]] [[0, 2], [1]] =
        .ok [[0, 2, 2], [1, 0, 1]] := by decide

/-! ## Searching a graph with redundant entries -/

theorem procOne_ins {V : Type} {c : Ctx V} {q : V} {filters : List Label} {max : Nat} {s s' : PoolSt}
    {id : Nat} (h : procOne c q filters max s id = .ok s') :
    (∀ i ∈ s.ins, i ∈ s'.ins) ∧ (filterAccepts c filters id = .ok false ∨
      (filterAccepts c filters id = .ok true ∧ id ∈ s'.ins)) := by
  unfold procOne at h
  obtain ⟨b, hb, h⟩ := Res.bind_eq_ok.1 h
  cases b with
  | false => cases h; exact ⟨fun _ h => h, Or.inl hb⟩
  | true =>
    rw [if_neg (by simp)] at h
    by_cases hc : s.ins.contains id = true
    · rw [if_pos hc] at h
      cases h
      exact ⟨fun _ h => h, Or.inr ⟨hb, by simpa using hc⟩⟩
    · rw [if_neg hc] at h
      obtain ⟨v, _, h⟩ := Res.bind_eq_ok.1 h
      have fin : ∀ (skip : Bool),
        (if skip then (.ok { s with ins := id :: s.ins, cmps := s.cmps + 1 } : Res PoolSt)
         else do
          let (pool', r) ← insertIntoPool s.pool s.cur ⟨id, c.cmp q v, true⟩
          .ok { s with
            ins := id :: s.ins, cmps := s.cmps + 1
            pool := pool'
            cur := if s.cur < max then s.cur + 1 else s.cur
            best := if r < s.best then r else s.best }) = .ok s' →
          s'.ins = id :: s.ins := by
        intro skip h
        split at h
        · cases h; rfl
        · obtain ⟨⟨p, r⟩, h1, h⟩ := Res.bind_eq_ok.1 h
          cases h; rfl
      have key : s'.ins = id :: s.ins := by
        dsimp only at h
        by_cases hc : s.cur > 0
        · rw [if_pos hc] at h
          obtain ⟨l, _, h⟩ := Res.bind_eq_ok.1 h
          obtain ⟨b', _, h⟩ := Res.bind_eq_ok.1 h
          exact fin b' h
        · rw [if_neg hc] at h
          obtain ⟨b', _, h⟩ := Res.bind_eq_ok.1 h
          exact fin b' h
      rw [key]
      exact ⟨fun i hi => by simp [hi], Or.inr ⟨hb, by simp⟩⟩

theorem foldlM_procOne_ins {V : Type} {c : Ctx V} {q : V} {filters : List Label} {max : Nat} :
    ∀ {cands : List Nat} {s s' : PoolSt}, cands.foldlM (procOne c q filters max) s = .ok s' →
    (∀ i ∈ s.ins, i ∈ s'.ins) ∧ ∀ i ∈ cands, filterAccepts c filters i = .ok false ∨
      (filterAccepts c filters i = .ok true ∧ i ∈ s'.ins) := by
  intro cands
  induction cands with
  | nil => intro s s' h; cases h; exact ⟨fun _ h => h, by simp⟩
  | cons a as ih =>
    intro s s' h
    rw [List.foldlM_cons] at h
    obtain ⟨s1, h1, h⟩ := Res.bind_eq_ok.1 h
    obtain ⟨m1, a1⟩ := procOne_ins h1
    obtain ⟨m2, a2⟩ := ih h
    refine ⟨fun i hi => m2 i (m1 i hi), ?_⟩
    intro i hi
    rcases List.mem_cons.1 hi with rfl | hi
    · exact a1.imp id (fun h => ⟨h.1, m2 _ h.2⟩)
    · exact a2 i hi

theorem foldlM_procOne_skip {V : Type} {c : Ctx V} {q : V} {filters : List Label} {max : Nat} {s : PoolSt} :
    ∀ (cands : List Nat), (∀ i ∈ cands, filterAccepts c filters i = .ok false ∨
      (filterAccepts c filters i = .ok true ∧ i ∈ s.ins)) →
    cands.foldlM (procOne c q filters max) s = .ok s := by
  intro cands
  induction cands with
  | nil => intro _; rfl
  | cons a as ih =>
    intro h
    have h1 : procOne c q filters max s a = .ok s := by
      unfold procOne
      rcases h a (by simp) with h | ⟨h, hi⟩
      · rw [h]; rfl
      · rw [h, Res.ok_bind, if_neg (by simp), if_pos (by simpa using hi)]
    rw [List.foldlM_cons, h1, Res.ok_bind]
    exact ih (fun i hi => h i (by simp [hi]))

/-- Candidates that occur earlier in the list have no effect. -/
theorem procCands_redundant {V : Type} (c : Ctx V) (q : V) (filters : List Label) (max : Nat) (s : PoolSt)
    (a b : List Nat) (h : ∀ i ∈ b, i ∈ a) :
    procCands c q filters max s (a ++ b) = procCands c q filters max s a := by
  unfold procCands
  rw [List.foldlM_append]
  cases h1 : a.foldlM (procOne c q filters max) { s with best := max } with
  | error e => rfl
  | ok s1 =>
    rw [Res.ok_bind]
    exact foldlM_procOne_skip b (fun i hi => (foldlM_procOne_ins h1).2 i (h i hi))

/-- `g2` has the lists of `g1`, with some entries repeated at the end. -/
def Redundant (g1 g2 : List (List Nat)) : Prop :=
  List.Forall₂ (fun a b => ∃ r, b = a ++ r ∧ ∀ i ∈ r, i ∈ a) g1 g2

theorem greedyIter_redundant {V : Type} (c : Ctx V) (q : V) (filters : List Label) (L : Nat)
    {g1 g2 : List (List Nat)} (h : Redundant g1 g2) (s : GSt) :
    greedyIter c q filters L g2 s = greedyIter c q filters L g1 s := by
  unfold greedyIter
  have hlen := h.length_eq
  cases h0 : rd s.ps.pool s.k with
  | error e => rfl
  | ok x =>
    simp only [Res.ok_bind]
    split
    · cases wr s.ps.pool s.k { x with flag := false } with
      | error e => rfl
      | ok p =>
        simp only [Res.ok_bind]
        by_cases hx : x.id < g1.length
        · rw [rd_ok hx, rd_ok (show x.id < g2.length by omega)]
          simp only [Res.ok_bind]
          obtain ⟨r, hr, hm⟩ := List.Forall₂.get h (i := x.id) hx (by omega)
          simp only [List.get_eq_getElem] at hr hm
          rw [hr, procCands_redundant _ _ _ _ _ _ _ hm]
        · rw [rd_ub (by omega), rd_ub (by omega)]
    · rfl

theorem greedyLoop_redundant {V : Type} (c : Ctx V) (q : V) (filters : List Label) (L : Nat)
    {g1 g2 : List (List Nat)} (h : Redundant g1 g2) : ∀ (fuel : Nat) (s : GSt),
    greedyLoop c q filters L (fun _ => g2) fuel s = greedyLoop c q filters L (fun _ => g1) fuel s := by
  intro fuel
  induction fuel with
  | zero => intro s; rfl
  | succ fuel ih =>
    intro s
    unfold greedyLoop
    split
    · rw [greedyIter_redundant c q filters L h]
      cases greedyIter c q filters L g1 s with
      | error e => rfl
      | ok s1 => exact ih s1
    · rfl

/-- Repeated entries at the end of adjacency lists have no effect on a search. -/
theorem graphSearch_redundant {V : Type} (sortF : List Nbr → List Nbr) (ix : GIdx V) (g2 : List (List Nat))
    (h : Redundant ix.graph g2) (q : V) (filters : List Label) (init : List Nat) (rc L : Nat)
    (ind : List Nat) (dst : List F32) :
    graphSearch sortF { ix with graph := g2 } q filters init rc L ind dst =
      graphSearch sortF ix q filters init rc L ind dst := by
  have e : greedySearch sortF ix.ctx q filters L (fun _ => g2) init =
      greedySearch sortF ix.ctx q filters L (fun _ => ix.graph) init := by
    unfold greedySearch greedySearchF
    cases greedyStart sortF ix.ctx q L init with
    | error e => rfl
    | ok s => exact greedyLoop_redundant ix.ctx q filters L h _ s
  unfold graphSearch
  rw [e]

/-! ## RelativeNG -/

theorem rngNode_old {V : Type} (sortF : List Nbr → List Nbr) (c : Ctx V) (div : F32 → F32 → F32) (loc : Nat)
    (old nb : List Nat) (h : rngNode sortF c div loc [] = .ok nb) :
    rngNode sortF c div loc old = .ok (old ++ nb) := by
  unfold rngNode at h ⊢
  split at h
  · cases h
  · rename_i hc
    rw [if_neg hc]
    obtain ⟨pool, hp, h⟩ := Res.bind_eq_ok.1 h
    obtain ⟨pruned, hq, h⟩ := Res.bind_eq_ok.1 h
    cases h
    rw [hp, Res.ok_bind, hq]
    rfl

/-- **C75 (RelativeNG), what happens.** Building again appends the new list of each point to the list it
has.  `g` is the graph that a new object would get. -/
theorem C75_relng_build_again {V : Type} (sortF : List Nbr → List Nbr) (c : Ctx V) (div : F32 → F32 → F32)
    (g : List (List Nat)) (hg : rngGraph sortF c div (List.replicate c.data.length []) = .ok g)
    (g0 : List (List Nat)) :
    rngBuildAgain sortF c div g0 = .ok (List.zipWith (· ++ ·) (resizeLists c.data.length g0) g) := by
  unfold rngBuildAgain rngGraph
  unfold rngGraph at hg
  have hr := resizeLists_length c.data.length g0
  generalize resizeLists c.data.length g0 = l at hr ⊢
  have key : ∀ (l : List (List Nat)) (k : Nat) (g : List (List Nat)),
      ((List.replicate l.length ([] : List Nat)).zipIdx k).mapM (fun p => rngNode sortF c div p.2 p.1) = .ok g →
      (l.zipIdx k).mapM (fun p => rngNode sortF c div p.2 p.1) = .ok (List.zipWith (· ++ ·) l g) := by
    intro l
    induction l with
    | nil => intro k g h; cases h; rfl
    | cons a l ih =>
      intro k g h
      rw [List.length_cons, List.replicate_succ, List.zipIdx_cons, List.mapM_cons] at h
      obtain ⟨nb, h1, h⟩ := Res.bind_eq_ok.1 h
      obtain ⟨g', h2, h⟩ := Res.bind_eq_ok.1 h
      cases h
      rw [List.zipIdx_cons, List.mapM_cons, rngNode_old _ _ _ _ _ _ h1, Res.ok_bind, ih _ _ h2]
      rfl
  exact key l 0 g (by rw [hr]; exact hg)

/-- **C75 (RelativeNG), refuted.** Whatever the data set of at least 10 points: after a second build every
list is its old self written twice, so every point has repeated out-neighbours (C24 fails).  Searches are not
affected. -/
theorem C75_relng_built_twice {V : Type} (sortF : List Nbr → List Nbr) (hsort : IsStdSort sortF)
    (c : Ctx V) (div : F32 → F32 → F32) (D : Nat → Nat → F32) (hD : c.IsDist D)
    (hn : 10 ≤ c.data.length) (hn' : c.data.length < 4294967296) :
    ∃ g, rngGraph sortF c div (List.replicate c.data.length []) = .ok g ∧
      rngBuildAgain sortF c div g = .ok (g.map (fun nb => nb ++ nb)) ∧
      (∀ nb ∈ g, nb ≠ [] ∧ nb.Nodup ∧ ¬ (nb ++ nb).Nodup) ∧
      ∀ (tags : List Nat) (start : Nat) (q : V) (rc L : Nat) (ind : List Nat) (dst : List F32)
        (filters : List Label),
        rngSearch sortF ⟨c, tags, g.map (fun nb => nb ++ nb), start, []⟩ q rc L ind dst filters =
          rngSearch sortF ⟨c, tags, g, start, []⟩ q rc L ind dst filters := by
  obtain ⟨g, e, hg, hs⟩ := C27_relative_neighbourhood_graph sortF hsort c div D hD hn hn'
  refine ⟨g, e, ?_, ?_, ?_⟩
  · rw [C75_relng_build_again sortF c div g e g]
    have : resizeLists c.data.length g = g := by
      unfold resizeLists
      rw [List.take_of_length_le (by rw [hg.len]), hg.len, Nat.sub_self]
      simp
    rw [this]
    congr 1
    clear * -
    induction g with
    | nil => rfl
    | cons a g ih => simp
  · intro nb hnb
    obtain ⟨v, hv⟩ := List.getElem?_of_mem hnb
    obtain ⟨hnd, hvn, hocc, _⟩ := hs v nb hv
    have hne : nb ≠ [] := by
      rintro rfl
      by_cases h : v = 0
      · obtain ⟨x, hx, _⟩ := hocc 1 (by omega) (by omega) (by simp)
        simp at hx
      · obtain ⟨x, hx, _⟩ := hocc 0 (by omega) (by omega) (by simp)
        simp at hx
    refine ⟨hne, hnd, ?_⟩
    intro h2
    obtain ⟨x, hx⟩ := List.exists_mem_of_ne_nil _ hne
    exact (List.nodup_append.1 h2).2.2 x hx x hx rfl
  · intro tags start q rc L ind dst filters
    unfold rngSearch
    have hr : Redundant g (g.map (fun nb => nb ++ nb)) := by
      unfold Redundant
      clear * -
      induction g with
      | nil => exact .nil
      | cons a g ih => exact .cons ⟨a, rfl, fun i h => h⟩ ih
    exact graphSearch_redundant sortF ⟨c, tags, g, start, []⟩ _ hr q [] [start] rc L ind dst

/-! ## Loading a graph into an object that has one -/

/-- A candidate that is added to the list is a point of the data set: its vector has been read. -/
theorem foldlM_procOne_lt {V : Type} {c : Ctx V} {q : V} {filters : List Label} {max : Nat} :
    ∀ {cands : List Nat} {s s' : PoolSt}, cands.foldlM (procOne c q filters max) s = .ok s' →
    (∀ x ∈ s.pool, x.id < c.data.length) → ∀ x ∈ s'.pool, x.id < c.data.length := by
  intro cands
  induction cands with
  | nil => intro s s' h hs; cases h; exact hs
  | cons a as ih =>
    intro s s' h hs
    rw [List.foldlM_cons] at h
    obtain ⟨s1, h1, h⟩ := Res.bind_eq_ok.1 h
    refine ih h ?_
    by_cases ha : a < c.data.length
    · intro x hx
      rcases procOne_mem h1 x hx with h2 | h2
      · exact hs x h2
      · rw [h2]; exact ha
    · unfold procOne at h1
      obtain ⟨b, _, h1⟩ := Res.bind_eq_ok.1 h1
      split at h1
      · cases h1; exact hs
      · split at h1
        · cases h1; exact hs
        · dsimp only at h1
          rw [rd_ub (by omega)] at h1
          cases h1

theorem greedyIter_lt {V : Type} {c : Ctx V} {q : V} {filters : List Label} {L : Nat}
    {g : List (List Nat)} {s s' : GSt} (h : greedyIter c q filters L g s = .ok s')
    (hs : ∀ x ∈ s.ps.pool, x.id < c.data.length) : ∀ x ∈ s'.ps.pool, x.id < c.data.length := by
  unfold greedyIter at h
  obtain ⟨x, hx, h⟩ := Res.bind_eq_ok.1 h
  have hxl := hs x (List.mem_of_getElem? (rd_eq_ok_iff.1 hx))
  split at h
  · obtain ⟨p, hp, h⟩ := Res.bind_eq_ok.1 h
    obtain ⟨des, hdes, h⟩ := Res.bind_eq_ok.1 h
    obtain ⟨ps, hps, h⟩ := Res.bind_eq_ok.1 h
    cases h
    refine foldlM_procOne_lt hps ?_
    intro y hy
    rcases wr_mem hp y hy with h2 | h2
    · exact hs y h2
    · rw [h2]; exact hxl
  · cases h; exact hs

/-- A search reads only the lists of points of the data set. -/
theorem greedyLoop_agree {V : Type} (c : Ctx V) (q : V) (filters : List Label) (L : Nat)
    {g1 g2 : List (List Nat)} (h : ∀ i < c.data.length, g1[i]? = g2[i]?) : ∀ (fuel : Nat) (s : GSt),
    (∀ x ∈ s.ps.pool, x.id < c.data.length) →
    greedyLoop c q filters L (fun _ => g2) fuel s = greedyLoop c q filters L (fun _ => g1) fuel s := by
  intro fuel
  induction fuel with
  | zero => intro s _; rfl
  | succ fuel ih =>
    intro s hs
    unfold greedyLoop
    split
    · have e : greedyIter c q filters L g2 s = greedyIter c q filters L g1 s := by
        unfold greedyIter
        cases h0 : rd s.ps.pool s.k with
        | error e => rfl
        | ok x =>
          have hxl := hs x (List.mem_of_getElem? (rd_eq_ok_iff.1 h0))
          have hr : rd g2 x.id = rd g1 x.id := by
            unfold rd; rw [h _ hxl]
          simp only [Res.ok_bind]
          rw [hr]
      rw [e]
      cases h1 : greedyIter c q filters L g1 s with
      | error e => rfl
      | ok s1 => exact ih s1 (greedyIter_lt h1 hs)
    · rfl

theorem greedyStart_lt {V : Type} {sortF : List Nbr → List Nbr} (hsort : IsStdSort sortF) {c : Ctx V} {q : V}
    {L : Nat} {init : List Nat} {s : GSt} (h : greedyStart sortF c q L init = .ok s)
    (hi : ∀ i ∈ init, i < c.data.length) (hn : 1 ≤ c.data.length) :
    ∀ x ∈ s.ps.pool, x.id < c.data.length := by
  unfold greedyStart at h
  obtain ⟨s1, h3, h2⟩ := Res.bind_eq_ok.1 h
  cases h2
  have h1 := initLoop_mem h3 hi (by
    intro x hx
    simp [resizePool] at hx
    rw [hx.2]; exact hn)
  intro x hx
  rcases List.mem_append.1 hx with hx | hx
  · exact h1 x (List.mem_of_mem_take ((hsort.perm _).mem_iff.1 hx))
  · exact h1 x (List.mem_of_mem_drop hx)

theorem graphSearch_agree {V : Type} (sortF : List Nbr → List Nbr) (hsort : IsStdSort sortF) (ix : GIdx V)
    (hn : 1 ≤ ix.ctx.data.length) (g2 : List (List Nat))
    (h : ∀ i < ix.ctx.data.length, ix.graph[i]? = g2[i]?) (q : V) (filters : List Label) (init : List Nat)
    (hi : ∀ i ∈ init, i < ix.ctx.data.length) (rc L : Nat) (ind : List Nat) (dst : List F32) :
    graphSearch sortF { ix with graph := g2 } q filters init rc L ind dst =
      graphSearch sortF ix q filters init rc L ind dst := by
  have e : greedySearch sortF ix.ctx q filters L (fun _ => g2) init =
      greedySearch sortF ix.ctx q filters L (fun _ => ix.graph) init := by
    unfold greedySearch greedySearchF
    cases h0 : greedyStart sortF ix.ctx q L init with
    | error e => rfl
    | ok s => exact greedyLoop_agree ix.ctx q filters L h _ s (greedyStart_lt hsort h0 hi hn)
  unfold graphSearch
  rw [e]

theorem loadLabels_graph (sortL : List Label → List Label) (file : Option Bytes) (o : IdxObj)
    (g : List (List Nat)) :
    loadLabels sortL file { o with graph := g } =
      (loadLabels sortL file o).map (fun o' => { o' with graph := g }) := by
  unfold loadLabels
  cases file with
  | none => rfl
  | some b =>
    dsimp only
    cases parseLabels sortL (some b) o.labels o.seen o.n <;> rfl

/-- The first part of `load` does not look at the graph. -/
theorem loadBase_graph {P : Type} (sortL : List Label → List Label) (j : Junk) (es : Nat) (nm : Part → P)
    (fs : FS P) (o0 : IdxObj) (g : List (List Nat)) :
    loadBase sortL j es nm fs { o0 with graph := g } =
      (loadBase sortL j es nm fs o0).map (fun o' => { o' with graph := g }) := by
  unfold loadBase
  cases loadAligned es (fs (nm .data)) j.h1 j.h2 j.mem with
  | error e => rfl
  | ok r =>
    obtain ⟨n, dim, adim, data⟩ := r
    simp only [Res.ok_bind]
    cases loadBin 4 (fs (nm .tags)) j.t1 j.t2 j.mem with
    | error e => rfl
    | ok r =>
      obtain ⟨nt, dt, tags⟩ := r
      simp only [Res.ok_bind]
      split
      · rfl
      · obtain ⟨o1, ho1⟩ : ∃ o1 : IdxObj, o1 = { o0 with
            n := n, dim := dim, adim := adim, data := data, tags := un32s (nt * dt) tags } := ⟨_, rfl⟩
        have hl := loadLabels_graph sortL (fs (nm .labels)) o1 g
        rw [ho1] at hl
        rw [hl, ← ho1]
        cases loadLabels sortL (fs (nm .labels)) o1 with
        | error e => rfl
        | ok o' =>
          show Except.ok _ = Except.ok _
          congr 1
          unfold loadUniv
          cases fs (nm .univ) <;> rfl

variable {P : Type} [DecidableEq P]

/-- **C75 (graphs), what happens.** A graph index without labels is saved and then loaded into an object that
has a graph `o0.graph` already: data, tags, entry point are replaced, but the lists read are appended to
those present.  A message about the number of points is printed if there were any; there is no exception. -/
theorem C75_load_graph_again (nm : Part → P) (hnm : Function.Injective nm)
    (fs : FS P) (es : Nat) (o : IdxObj) (rows : List Bytes) (hs : Saveable es o rows)
    (sortL : List Label → List Label) (hsort : IsStrSort sortL) (j : Junk) (hj : j.WF)
    (o0 : IdxObj) (h0 : IsFresh { o0 with graph := [] }) (fuel : Nat) (hf : o.n < fuel) :
    ∃ ops seen, rngSave es nm o = .ok ops ∧ rngLoad sortL j fuel es nm (runOps ops fs) o0 =
      .ok ({ o with seen := seen, medoids := [], graph := o0.graph ++ o.graph },
        (o0.graph ++ o.graph).length != o.n) := by
  obtain ⟨ops, hsv, hb, hg, _⟩ := rngSave_holds nm hnm hs fs
  obtain ⟨seen, hl⟩ := loadBase_holds sortL hsort j hj nm hs.toBaseSaveable _ hb _ h0
  have hl' := loadBase_graph sortL j es nm (runOps ops fs) { o0 with graph := [] } o0.graph
  rw [hl] at hl'
  refine ⟨ops, seen, hsv, ?_⟩
  unfold rngLoad
  rw [show o0 = { ({ o0 with graph := [] } : IdxObj) with graph := o0.graph } from rfl, hl']
  obtain ⟨-, -, -, -, g1, g2, g3, gk⟩ := hj
  have hll : (Spec.graphFile o.maxDeg o.start o.graph).length = 16 + (encNodes o.graph).length := by
    rw [graphFile_eq]; simp; omega
  have hlg := loadGraph_cut gk g1 g2 g3 hs.maxDeg hs.start o.graph hs.graph_fits o0.graph o.n
    (Spec.graphFile o.maxDeg o.start o.graph).length (by omega) fuel (by rw [hs.graph_len]; exact hf)
  rw [List.take_length, cutGraph_full _ hs.graph_fits _ (by omega)] at hlg
  show loadGraphInto j fuel nm (runOps ops fs) _ = _
  unfold loadGraphInto
  rw [hg]
  dsimp only
  rw [hlg]
  rfl

/-- **C75 (graphs), refuted.** If the object had at least as many lists as the index loaded has points, every
search uses the old graph together with the new vectors, tags and entry point: the graph just loaded is never
read. -/
theorem C75_old_graph_used (nm : Part → P) (hnm : Function.Injective nm)
    (fs : FS P) (es : Nat) (o : IdxObj) (rows : List Bytes) (hs : Saveable es o rows)
    (sortL : List Label → List Label) (hsort : IsStrSort sortL) (j : Junk) (hj : j.WF)
    (o0 : IdxObj) (h0 : IsFresh { o0 with graph := [] }) (fuel : Nat) (hf : o.n < fuel)
    (hlen : o.n ≤ o0.graph.length) (hstart : o.start < o.n) (sortF : List Nbr → List Nbr)
    (hsF : IsStdSort sortF) :
    ∃ ops o' b, rngSave es nm o = .ok ops ∧ rngLoad sortL j fuel es nm (runOps ops fs) o0 = .ok (o', b) ∧
      ∀ cmp q rc L ind dst filters, rngSearch sortF (o'.view es cmp) q rc L ind dst filters =
        rngSearch sortF (({ o with graph := o0.graph.take o.n } : IdxObj).view es cmp) q rc L ind dst
          filters := by
  obtain ⟨ops, seen, e1, e2⟩ := C75_load_graph_again nm hnm fs es o rows hs sortL hsort j hj o0 h0 fuel hf
  refine ⟨ops, _, _, e1, e2, ?_⟩
  intro cmp q rc L ind dst filters
  have hlenv : (({ o with graph := o0.graph.take o.n } : IdxObj).view es cmp).ctx.data.length = o.n := by
    simp [IdxObj.view, IdxObj.rows]
  exact graphSearch_agree sortF hsF (({ o with graph := o0.graph.take o.n } : IdxObj).view es cmp)
    (by rw [hlenv]; omega) (o0.graph ++ o.graph) (by
      intro i hi
      rw [hlenv] at hi
      show (o0.graph.take o.n)[i]? = _
      rw [List.getElem?_append_left (by omega), List.getElem?_take_of_lt hi]) q [] [o.start]
    (by rw [hlenv]; simpa using hstart) rc L ind dst

theorem foldlM_procOne_bad {V : Type} (c : Ctx V) (q : V) (L : Nat) (d : Nat → F32)
    (hd : ∀ i v, c.data[i]? = some v → c.cmp q v = d i) (hL : L ≤ 2147483648) :
    ∀ (nb : List Nat) (s : PoolSt), SInv d L s → 1 ≤ s.cur → (∀ i ∈ s.ins, i < c.data.length) →
    (∃ i ∈ nb, c.data.length ≤ i) → nb.foldlM (procOne c q [] L) s = .error .ub := by
  intro nb
  induction nb with
  | nil => intro s _ _ _ h; obtain ⟨i, hi, _⟩ := h; simp at hi
  | cons a as ih =>
    intro s hs hc hins h
    rw [List.foldlM_cons]
    by_cases ha : a < c.data.length
    · obtain ⟨s', e, hstep⟩ := procOne_step c q [] L s a d hd hs (fun _ => hs.cur_le.trans (by omega)) ha true rfl (by omega)
      rw [e, Res.ok_bind]
      have hins' : ∀ i ∈ s'.ins, i < c.data.length := by
        cases hstep with
        | reject _ => exact hins
        | skip _ _ _ _ _ => intro i hi; rcases List.mem_cons.1 hi with rfl | hi; exacts [ha, hins i hi]
        | ins _ _ _ _ _ _ _ h2 =>
          rw [h2]
          intro i hi; rcases List.mem_cons.1 hi with rfl | hi; exacts [ha, hins i hi]
      refine ih s' (ProcStep.sinv hs hstep) ?_ hins' ?_
      · have := (ProcStep.cur_mono hs hstep).1
        omega
      · obtain ⟨i, hi, hib⟩ := h
        rcases List.mem_cons.1 hi with rfl | hi
        · omega
        · exact ⟨i, hi, hib⟩
    · have : procOne c q [] L s a = .error .ub := by
        have hni : ¬ s.ins.contains a = true := by
          intro hc'
          exact ha (hins a (by simpa using hc'))
        unfold procOne
        rw [show filterAccepts c [] a = .ok true from rfl, Res.ok_bind, if_neg (by simp), if_neg hni]
        dsimp only
        rw [rd_ub (by omega)]
        rfl
      rw [this]
      rfl

/-- A search of a graph whose list for the entry point names a point that does not exist reads outside the
data set. -/
theorem graphSearch_bad_edge {V : Type} (sortF : List Nbr → List Nbr) (hsort : IsStdSort sortF) (ix : GIdx V)
    (start : Nat) (hstart : start < ix.ctx.data.length) (q : V)
    (hsym : ∀ v ∈ ix.ctx.data, ix.ctx.cmp v q = ix.ctx.cmp q v)
    (nb : List Nat) (hnb : ix.graph[start]? = some nb) (hbad : ∃ i ∈ nb, ix.ctx.data.length ≤ i)
    (rc L : Nat) (hL1 : 1 ≤ L) (hL : L ≤ 2 ^ 31) (ind : List Nat) (dst : List F32) :
    graphSearch sortF ix q [] [start] rc L ind dst = .error .ub := by
  obtain ⟨c, hc⟩ : ∃ c, c = ix.ctx := ⟨_, rfl⟩
  rw [← hc] at hstart hsym hbad
  obtain ⟨v, hv⟩ : ∃ v, c.data[start]? = some v := ⟨_, List.getElem?_eq_getElem hstart⟩
  obtain ⟨x0, hx0⟩ : ∃ x0 : Nbr, x0 = ⟨start, c.cmp v q, true⟩ := ⟨_, rfl⟩
  have hu : u32 (L + 1) = L + 1 := Nat.mod_eq_of_lt (by omega)
  have hs0 : greedyStart sortF c q L [start] =
      .ok ⟨⟨x0 :: List.replicate L Nbr.dflt, 1, [start], 0, L⟩, 0, 0, []⟩ := by
    have hi : initLoop c q L [start] ⟨resizePool [] (u32 (L + 1)), 0, [], 0, L⟩ =
        .ok ⟨x0 :: List.replicate L Nbr.dflt, 1, [start], 0, L⟩ := by
      unfold initLoop
      rw [rd_eq_ok_iff.mpr hv, Res.ok_bind, if_neg (by simp), wr_ok (by simp [resizePool, hu])]
      simp only [Res.ok_bind, Nat.zero_add]
      have : (resizePool [] (u32 (L + 1))).set 0 ⟨start, c.cmp v q, true⟩ =
          x0 :: List.replicate L Nbr.dflt := by
        rw [hu, hx0]; simp [resizePool, List.replicate_succ]
      rw [this]
      split
      · rfl
      · rfl
    unfold greedyStart
    rw [hi, Res.ok_bind]
    have hp := (hsort.perm [x0])
    rw [List.perm_singleton] at hp
    simp [hp]
  have hd : ∀ i w, c.data[i]? = some w → c.cmp q w = (fun i : Nat => (c.data[i]?.elim F32.zero (c.cmp q ·))) i := by
    intro i w h
    simp [h]
  have hg : greedySearch sortF c q [] L (fun _ => ix.graph) [start] = .error .ub := by
    unfold greedySearch greedySearchF
    rw [hs0, Res.ok_bind]
    obtain ⟨fuel, hfuel⟩ : ∃ f, (c.data.length + 1) * (L + 1) = f + 1 :=
      ⟨(c.data.length + 1) * (L + 1) - 1, by
        have : 0 < (c.data.length + 1) * (L + 1) := Nat.mul_pos (by omega) (by omega)
        omega⟩
    rw [hfuel]
    unfold greedyLoop
    rw [if_pos (by simp)]
    have hit : greedyIter c q [] L ix.graph ⟨⟨x0 :: List.replicate L Nbr.dflt, 1, [start], 0, L⟩, 0, 0, []⟩ =
        .error .ub := by
      unfold greedyIter
      rw [show rd (x0 :: List.replicate L Nbr.dflt) 0 = .ok x0 from rfl, Res.ok_bind, if_pos (by rw [hx0]), wr_ok (by simp), Res.ok_bind,
        show rd ix.graph x0.id = .ok nb from rd_eq_ok_iff.mpr (by rw [hx0]; exact hnb), Res.ok_bind]
      unfold procCands
      rw [foldlM_procOne_bad c q L _ hd (by omega) nb _ ?_ (Nat.le_refl 1) (by simpa using hstart) hbad]
      · rfl
      · constructor
        · simp
        · exact hL1
        · simp
        · simp [PoolSt.live]
        · simp [PoolSt.live, hx0]
        · simp only [PoolSt.live, List.set_cons_zero, List.take_succ_cons, List.take_zero, List.mem_singleton]
          rintro y rfl
          rw [hx0]
          simp [hv, hsym v (List.mem_of_getElem? hv)]
    rw [hit]
    rfl
  unfold graphSearch
  rw [← hc, hg]
  rfl

/-- **C75 (graphs), refuted, with a wild read.** If in addition the old list of the new entry point names a
point that the new index does not have (it was larger), every search reads outside the vectors. -/
theorem C75_old_graph_unsafe (nm : Part → P) (hnm : Function.Injective nm)
    (fs : FS P) (es : Nat) (o : IdxObj) (rows : List Bytes) (hs : Saveable es o rows)
    (sortL : List Label → List Label) (hsort : IsStrSort sortL) (j : Junk) (hj : j.WF)
    (o0 : IdxObj) (h0 : IsFresh { o0 with graph := [] }) (fuel : Nat) (hf : o.n < fuel)
    (hstart : o.start < o.n) (nb : List Nat) (hnb : o0.graph[o.start]? = some nb) (hbad : ∃ i ∈ nb, o.n ≤ i)
    (sortF : List Nbr → List Nbr) (hsF : IsStdSort sortF) :
    ∃ ops o' b, rngSave es nm o = .ok ops ∧ rngLoad sortL j fuel es nm (runOps ops fs) o0 = .ok (o', b) ∧
      ∀ cmp q rc L ind dst filters, (∀ v, cmp v q = cmp q v) → 1 ≤ L → L ≤ 2 ^ 31 →
        rngSearch sortF (o'.view es cmp) q rc L ind dst filters = .error .ub := by
  obtain ⟨ops, seen, e1, e2⟩ := C75_load_graph_again nm hnm fs es o rows hs sortL hsort j hj o0 h0 fuel hf
  refine ⟨ops, _, _, e1, e2, ?_⟩
  intro cmp q rc L ind dst filters hsym hL1 hL
  obtain ⟨o', ho'⟩ : ∃ o' : IdxObj, o' = { o with seen := seen, medoids := [], graph := o0.graph ++ o.graph } :=
    ⟨_, rfl⟩
  rw [← ho']
  have hlenv : (o'.view es cmp).ctx.data.length = o.n := by
    rw [ho']; simp [IdxObj.view, IdxObj.rows]
  have hst : (o'.view es cmp).start = o.start := by rw [ho']; rfl
  unfold rngSearch
  rw [hst]
  refine graphSearch_bad_edge sortF hsF (o'.view es cmp) o.start (by rw [hlenv]; exact hstart) q
    (fun v _ => hsym v) nb ?_ (by rw [hlenv]; exact hbad) rc L hL1 hL ind dst
  rw [ho']
  show (o0.graph ++ o.graph)[o.start]? = _
  rw [List.getElem?_append_left (List.getElem?_eq_some_iff.1 hnb).1]
  exact hnb

/-! ## Labels -/

/-- A label file that parses in a new object is refused by an object that has labels. -/
theorem parseLabels_again (sortL : List Label → List Label) (b : Bytes) (n : Nat)
    (r : List (List Label) × List Label) (h : parseLabels sortL (some b) [] [] n = .ok r)
    (pts0 : List (List Label)) (seen0 : List Label) (h0 : pts0 ≠ []) :
    parseLabels sortL (some b) pts0 seen0 n = .error .exit := by
  unfold parseLabels at h ⊢
  rw [Option.getD_some] at h ⊢
  by_cases hne : [] ∈ pieces 10 b
  · rw [parseLines_exit sortL _ _ _ hne]; rfl
  · have hne' : ∀ l ∈ pieces 10 b, l ≠ [] := fun l hl hx => hne (hx ▸ hl)
    rw [parseLines_ok sortL _ _ _ hne', Res.ok_bind] at h
    rw [parseLines_ok sortL _ _ _ hne', Res.ok_bind]
    have hpos := List.length_pos_of_ne_nil h0
    split at h
    · cases h
    · rename_i hl
      simp only [List.nil_append, List.length_map, not_not] at hl
      rw [if_pos]
      simp only [List.length_append, List.length_map]
      omega

/-- **C75 (labels), refuted.** An index with labels is saved and loaded into an object that has labels: the
program ends. -/
theorem C75_load_labels_again (nm : Part → P) (hnm : Function.Injective nm)
    (fs : FS P) (es : Nat) (o : IdxObj) (rows : List Bytes) (hs : Saveable es o rows)
    (sortL : List Label → List Label) (hsort : IsStrSort sortL) (j : Junk) (hj : j.WF)
    (hlab : o.filtered = true) (o0 : IdxObj) (h0 : o0.labels ≠ []) (fuel : Nat) :
    ∃ ops, rngSave es nm o = .ok ops ∧ rngLoad sortL j fuel es nm (runOps ops fs) o0 = .error .exit := by
  obtain ⟨ops, hsv, hb, hg, _⟩ := rngSave_holds nm hnm hs fs
  refine ⟨ops, hsv, ?_⟩
  have hsb := hs.toBaseSaveable
  obtain ⟨j1, j2, j3, j4, -⟩ := hj
  have hsz := hsb.size
  have hn := hsb.n_lt
  have hd := loadAligned_ok (es := es) (d := o.dim) hsb.matrix (by rw [hsb.rows_n]; exact hn) hsb.dim_lt
    (by rw [hsb.rows_n]; omega) (by rw [hsb.rows_n]; exact aligned_size_lt (by omega)) j1 j2 j.mem
  rw [hsb.rows_n, ← hsb.adim, ← hsb.data] at hd
  have ht := loadBin_ok (es := 4) (n := o.n) (d := 1) (data := le32s o.tags) hn (by omega)
    (by rw [le32s_length, hsb.tags_len]; omega) (by omega) j3 j4 j.mem
  obtain ⟨hl, hln, -, -⟩ := hsb.labelled hlab
  obtain ⟨seen, hp⟩ := parseLabels_saved sortL hsort o.labels hl
  rw [hln] at hp
  unfold rngLoad loadBase
  rw [hb.data, hd, Res.ok_bind]
  dsimp only
  rw [hb.tags, ht, Res.ok_bind]
  dsimp only
  rw [if_neg (by simp), hb.labels, if_pos hlab]
  unfold loadLabels
  dsimp only
  rw [parseLabels_again sortL _ _ _ hp o0.labels o0.seen h0]
  rfl

/-- **C75 (labels), refuted.** An index without labels is saved and loaded into an object that has labels:
the object keeps the old labels, and goes on filtering by them. -/
theorem C75_stale_labels (nm : Part → P) (hnm : Function.Injective nm)
    (fs : FS P) (es : Nat) (o : IdxObj) (rows : List Bytes) (hs : Saveable es o rows)
    (sortL : List Label → List Label) (j : Junk) (hj : j.WF)
    (hlab : o.filtered = false) (o0 : IdxObj) (h0 : o0.graph = []) (fuel : Nat) (hf : o.n < fuel) :
    ∃ ops, rngSave es nm o = .ok ops ∧ rngLoad sortL j fuel es nm (runOps ops fs) o0 =
      .ok ({ o with labels := o0.labels, seen := o0.seen, filtered := o0.filtered, useUniv := o0.useUniv,
                    univ := o0.univ, medoids := o0.medoids }, false) := by
  obtain ⟨ops, hsv, hb, hg, _⟩ := rngSave_holds nm hnm hs fs
  refine ⟨ops, hsv, ?_⟩
  have hsb := hs.toBaseSaveable
  have hj' := hj
  obtain ⟨j1, j2, j3, j4, -⟩ := hj
  have hsz := hsb.size
  have hn := hsb.n_lt
  have hd := loadAligned_ok (es := es) (d := o.dim) hsb.matrix (by rw [hsb.rows_n]; exact hn) hsb.dim_lt
    (by rw [hsb.rows_n]; omega) (by rw [hsb.rows_n]; exact aligned_size_lt (by omega)) j1 j2 j.mem
  rw [hsb.rows_n, ← hsb.adim, ← hsb.data] at hd
  have ht := loadBin_ok (es := 4) (n := o.n) (d := 1) (data := le32s o.tags) hn (by omega)
    (by rw [le32s_length, hsb.tags_len]; omega) (by omega) j3 j4 j.mem
  have hun : un32s (o.n * 1) (le32s o.tags) = o.tags := by
    have := un32s_le32s o.tags hsb.tags_lt []
    rw [List.append_nil, hsb.tags_len] at this
    rw [Nat.mul_one]; exact this
  unfold rngLoad loadBase
  rw [hb.data, hd, Res.ok_bind]
  dsimp only
  rw [hb.tags, ht, Res.ok_bind]
  dsimp only
  rw [if_neg (by simp), hb.labels, hb.univ, hun, if_neg (by rw [hlab]; simp), if_neg (by rw [hlab]; simp)]
  simp only [loadLabels, loadUniv, Res.ok_bind]
  exact loadGraphInto_full j hj' nm hs (runOps ops fs) hg { o0 with
    n := o.n, dim := o.dim, adim := o.adim, data := o.data, tags := o.tags } h0 rfl fuel hf

/-! ## LSH -/

/-- **C75 (LSH), what happens.** Building an LSH index again keeps the tables there are and adds new ones;
the points are entered into all of them, so the tables that were there hold every point a second time. -/
theorem C75_lsh_build_again {H V : Type} (dot : H → V → F32) (data : List V) (tags : List Nat)
    (htags : data.length ≤ tags.length) (size1 : Nat) (hsize1 : size1 ≤ 64) (hps1 : List (List H))
    (hh1 : ∀ h ∈ hps1, h.length = size1) (size2 : Nat) (hsize2 : size2 ≤ 64) (hps2 : List (List H))
    (hh2 : ∀ h ∈ hps2, h.length = size2) :
    ∃ ts1 fresh ts, lshBuild dot data tags size1 hps1 = .ok ts1 ∧ lshBuild dot data tags size2 hps2 = .ok fresh ∧
      lshBuildAgain dot data tags size2 hps2 ts1 = .ok (ts ++ fresh) ∧
      List.Forall₂ (fun old new => new.hps = old.hps ∧ new.size = old.size ∧
        ∀ key, new.buckets.get key = old.buckets.get key ++ old.buckets.get key) ts1 ts := by
  obtain ⟨ts1, e1, hF⟩ := lshBuild_spec dot data tags htags size1 hsize1 hps1 hh1
  obtain ⟨fresh, e2, _⟩ := lshBuild_spec dot data tags htags size2 hsize2 hps2 hh2
  have h2 : hps2.mapM (fun h => if size2 > 64 then (.error .exit : Res (HTable H))
      else .ok ⟨h, size2, []⟩) = .ok (hps2.map (fun h => ⟨h, size2, []⟩)) :=
    mapM_eq_map _ _ _ (fun h _ => by rw [if_neg (by omega)])
  have hold : ∀ t ∈ ts1, t.OK ∧ ∀ key, t.buckets.get key =
      ((data.zipIdx.filter (fun p => hashOf dot t.hps p.1 == key)).map (fun p => tags.getD p.2 0)) := by
    clear e1 hh1
    induction hF with
    | nil => simp
    | cons h _ ih =>
      intro t ht
      rcases List.mem_cons.1 ht with rfl | ht
      · obtain ⟨a, b, _, d⟩ := h
        refine ⟨a, fun key => ?_⟩
        rw [b]; exact d key
      · exact ih t ht
  obtain ⟨ts, e3, hR⟩ := mapM_ok_of_forall (f := lshFill dot data tags)
    (R := fun old new => new.hps = old.hps ∧ new.size = old.size ∧
        ∀ key, new.buckets.get key = old.buckets.get key ++ old.buckets.get key) ts1 (by
      intro t ht
      obtain ⟨ok, hg⟩ := hold t ht
      obtain ⟨t', e, _, a, b, d⟩ := lshFill_spec dot data tags htags t ok
      refine ⟨t', e, a, b, fun key => ?_⟩
      rw [d key, ← hg key])
  refine ⟨ts1, fresh, ts, e1, e2, ?_, hR⟩
  unfold lshBuild at e2
  rw [h2, Res.ok_bind] at e2
  unfold lshBuildAgain
  rw [h2, Res.ok_bind, List.mapM_append, e3, Res.ok_bind, e2]
  rfl

/-- **C75 (LSH), refuted.** `num_tables` is the number given to the last build.  If that is at most the number
of tables there were, saving and loading gives back only tables of the earlier build: none of the tables just
built survives. -/
theorem C75_lsh_new_tables_lost (nm : Part → P) (hnm : Function.Injective nm) (p : P) (hp : ∀ x, p ≠ nm x)
    (fs : FS P) (es : Nat) (o : LshObj) (rows : List Bytes) (hs : LshSaveable es o rows)
    (old new : List (HTable Bytes)) (hts : o.tables = old ++ new) (hnum : o.numTables = new.length)
    (hle : new.length ≤ old.length)
    (sortL : List Label → List Label) (hsort : IsStrSort sortL) (j : Junk) (hj : j.WF) (jl : LshJunk)
    (hjl : jl.WF) (o0 : LshObj) (h0 : IsFresh o0.base) :
    ∃ ops o', lshSave es nm p o = .ok ops ∧ lshLoad sortL j jl es nm p (runOps ops fs) o0 = .ok o' ∧
      o'.tables = (old.take new.length).map HTable.full := by
  obtain ⟨ops, seen, e1, e2⟩ := lshSave_load nm hnm p hp fs es o rows hs sortL hsort j hj jl hjl o0 h0
  refine ⟨ops, _, e1, e2, ?_⟩
  dsimp only
  rw [hts, hnum, List.take_append_of_le_length hle]

/-! ## Examples -/

/-- Ten points on a line: a second build of the exact graph gives every edge twice. -/
example : rngBuildAgain exSort exRng exDiv1
    [[1, 3], [0, 2], [4, 1], [5, 0], [2, 6], [3, 7], [4, 8], [9, 5], [6], [7, 5]] =
      .ok [[1, 3, 1, 3], [0, 2, 0, 2], [4, 1, 4, 1], [5, 0, 5, 0], [2, 6, 2, 6], [3, 7, 3, 7], [4, 8, 4, 8],
        [9, 5, 9, 5], [6, 6], [7, 5, 7, 5]] := by
  decide +kernel

/-- **C75 for Vamana.** `build` appends the candidates it keeps to the lists the object has
(src/vamana.cpp:102-134 resizes `_out_nbrs` and clears nothing): after a second sequential build of the ten
points on a line with `R = 20` almost every edge is there twice. The properties of the built graph that hold
from any starting lists, such as C22 and C23, hold here too. -/
theorem C75_vamana_built_twice :
    (do let g ← buildGraph (exVam exPts10 20) (seqSched 10 40)
        let s ← runSched (exVam exPts10 20) (seqSched 10 80) (BSt.start g)
        if s.Finished then cleanup (exVam exPts10 20) s.adj else .error .loop : Res _) =
      .ok [[1, 3, 1, 3], [0, 0, 2, 0, 2], [1, 4, 4, 1], [0, 5, 5, 0], [2, 6, 2, 6], [3, 7, 9, 3, 7],
        [4, 8, 4, 8], [5, 9, 9, 5], [6, 6], [7, 5, 7, 5]] := by
  decide +kernel

/-- An object holding a graph of three points loads an index of two points: the old lists come first. -/
example : ∃ ops seen, rngSave 1 id exObjPlain = .ok ops ∧
    rngLoad exStrSort exJunk 5 1 id (runOps ops (fun _ => none)) { IdxObj.fresh with graph := [[1, 2], [0], [0]] } =
      .ok ({ exObjPlain with seen := seen, medoids := [], graph := [[1, 2], [0], [0], [1], []] }, true) :=
  C75_load_graph_again id (fun _ _ h => h) (fun _ => none) 1 exObjPlain _ exObjPlain_saveable exStrSort
    exStrSort_isStrSort exJunk exJunk_WF { IdxObj.fresh with graph := [[1, 2], [0], [0]] } fresh_isFresh 5
    (by decide)

/-- The old lists mention point 2, which the new index does not have: every search is undefined. -/
example : ∃ ops o' b, rngSave 1 id exObjPlain = .ok ops ∧
    rngLoad exStrSort exJunk 5 1 id (runOps ops (fun _ => none)) { IdxObj.fresh with graph := [[1, 2], [0], [0]] } =
      .ok (o', b) ∧
    ∀ cmp q rc L ind dst filters, (∀ v, cmp v q = cmp q v) → 1 ≤ L → L ≤ 2 ^ 31 →
      rngSearch exSort (o'.view 1 cmp) q rc L ind dst filters = .error .ub :=
  C75_old_graph_unsafe id (fun _ _ h => h) (fun _ => none) 1 exObjPlain _ exObjPlain_saveable exStrSort
    exStrSort_isStrSort exJunk exJunk_WF { IdxObj.fresh with graph := [[1, 2], [0], [0]] } fresh_isFresh 5
    (by decide) (by decide) [1, 2] rfl ⟨2, by decide, by decide⟩ exSort exSort_isStdSort

/-- The old lists are valid for the new index, but are not its own. -/
example : ∃ ops o' b, rngSave 1 id exObjPlain = .ok ops ∧
    rngLoad exStrSort exJunk 5 1 id (runOps ops (fun _ => none)) { IdxObj.fresh with graph := [[], [0]] } =
      .ok (o', b) ∧
    ∀ cmp q rc L ind dst filters, rngSearch exSort (o'.view 1 cmp) q rc L ind dst filters =
      rngSearch exSort (({ exObjPlain with graph := [[], [0]] } : IdxObj).view 1 cmp) q rc L ind dst filters :=
  C75_old_graph_used id (fun _ _ h => h) (fun _ => none) 1 exObjPlain _ exObjPlain_saveable exStrSort
    exStrSort_isStrSort exJunk exJunk_WF { IdxObj.fresh with graph := [[], [0]] } fresh_isFresh 5
    (by decide) (by decide) (by decide) exSort exSort_isStdSort

/-- A labelled index loaded into an object that has labels: the program ends. -/
example : ∃ ops, rngSave 1 id exObj = .ok ops ∧
    rngLoad exStrSort exJunk 5 1 id (runOps ops (fun _ => none)) exObj = .error .exit :=
  C75_load_labels_again id (fun _ _ h => h) (fun _ => none) 1 exObj _ exObj_saveable exStrSort
    exStrSort_isStrSort exJunk exJunk_WF rfl exObj (by decide) 5

/-- An index without labels loaded into an object that has labels keeps them. -/
example : ∃ ops, rngSave 1 id exObjPlain = .ok ops ∧
    rngLoad exStrSort exJunk 5 1 id (runOps ops (fun _ => none)) { IdxObj.fresh with labels := [[[97]]] } =
      .ok ({ exObjPlain with labels := [[[97]]], seen := [], filtered := false, useUniv := IdxObj.fresh.useUniv,
                             univ := IdxObj.fresh.univ, medoids := IdxObj.fresh.medoids }, false) :=
  C75_stale_labels id (fun _ _ h => h) (fun _ => none) 1 exObjPlain _ exObjPlain_saveable exStrSort
    exJunk exJunk_WF rfl { IdxObj.fresh with labels := [[[97]]] } rfl 5 (by decide)

/-- One table of one plane, then a build with one table of two planes: the first table holds its only point
twice. -/
example : lshBuildAgain exDot [F32.one] [0] 2 [[false, true]] [⟨[true], 1, [(1, [0])]⟩] =
    .ok [⟨[true], 1, [(1, [0, 0])]⟩, ⟨[false, true], 2, [(2, [0])]⟩] := by
  decide +kernel

/-! ## The theorems applied to the examples -/

example := C75_ivf_build_again 2 (by decide) exPops exPops_isPopOrder (fun _ l => l) (fun _ _ => .refl _)
  [[F32.one, F32.zero], [F32.one, F32.zero], [F32.zero, F32.one]] (by decide) (by decide) (by decide) [[0, 2], [1], [5]]

example := C75_ivf_stored_twice 2 (by decide) exPops exPops_isPopOrder (fun _ l => l) (fun _ _ => .refl _)
  [[F32.one, F32.zero], [F32.one, F32.zero], [F32.zero, F32.one]] (by decide) (by decide) (by decide) [[0, 2], [1]]
  (by decide) (by decide)

example := C75_relng_build_again exSort exRng exDiv1
  [[1, 3], [0, 2], [4, 1], [5, 0], [2, 6], [3, 7], [4, 8], [9, 5], [6], [7, 5]] (by decide +kernel) [[5], [6, 7]]

example := C75_relng_built_twice exSort exSort_isStdSort exRng exDiv1 _ exRng_isDist (by decide) (by decide)

example := C75_lsh_build_again exDot [F32.one, F32.zero] [0, 1] (by decide) 1 (by decide) [[true]] (by decide) 2 (by decide)
  [[false, true]] (by decide)

/-- The inverted index of `exIvf` built twice: the nearest point is found once. -/
example := C75_ivf_still_exact exPops exPops_isPopOrder { exIvf with inv := [[0, 1, 1, 0], [2, 2]] } rfl (by decide) F32.zero exIvfD
  ⟨exIvf_dist.eq, exIvf_dist.fin, exIvf_dist.row, exIvf_dist.rowNum, exIvf_dist.rowFin⟩ [[98]] (by decide) (by decide) (by decide)
  2 (by decide) (by decide) [9, 9] [F32.nan, F32.nan] (by decide) (by decide)

/-- Two tables, of which the header announces one: the second one is lost. -/
example : LshSaveable 1 ⟨exObjPlain, 1, 1, [exLshTable, { exLshTable with buckets := [(0, [1])] }]⟩ [[1, 2, 3], [4, 5, 6]] := by
  refine ⟨exObjPlain_saveable.toBaseSaveable, by decide, by decide, by decide, fun _ => ⟨by decide, ?_⟩⟩
  intro t ht
  rcases List.mem_pair.1 ht with rfl | rfl
  all_goals refine ⟨rfl, rfl, ?_, ?_, ?_, ?_, ?_, ?_⟩ <;> decide

example := fun h => C75_lsh_new_tables_lost some (Option.some_injective _) none exNames (fun _ => none) 1
  ⟨exObjPlain, 1, 1, [exLshTable] ++ [{ exLshTable with buckets := [(0, [1])] }]⟩ [[1, 2, 3], [4, 5, 6]] h [exLshTable]
  [{ exLshTable with buckets := [(0, [1])] }] rfl rfl (by decide) exStrSort exStrSort_isStrSort exJunk exJunk_WF exLshJunk
  ⟨rfl, rfl⟩ ⟨IdxObj.fresh, 0, 0, []⟩ fresh_isFresh

end Grann
