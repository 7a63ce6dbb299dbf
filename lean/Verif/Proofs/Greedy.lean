import Verif.Model.Greedy
import Verif.Proofs.PoolInv
import Verif.Proofs.Sort

namespace Grann

/-! ## More about batches -/

theorem ProcStep.prefix_eq {d : Nat → F32} {max : Nat} {s s' : PoolSt} {id : Nat} {acc : Bool}
    (hs : SInv d max s) (h : ProcStep d max s id acc s') :
    s'.best ≤ s.best ∧ ∀ j, j ≤ s'.best → s'.live.take j = s.live.take j := by
  cases h with
  | reject h => exact ⟨Nat.le_refl _, fun _ _ => rfl⟩
  | skip => exact ⟨Nat.le_refl _, fun _ _ => rfl⟩
  | ins hacc hin _ r hr hpool hcur hins hcmps hbest hord =>
    refine ⟨by omega, fun j hj => ?_⟩
    rw [ProcStep.live hs hr hpool hcur]
    have hll := hs.live_length
    have := hs.cur_le
    rw [List.take_take, List.take_append_of_le_length (by rw [List.length_take]; omega),
      List.take_take]
    congr 1
    omega

theorem ProcStep.mem_live {d : Nat → F32} {max : Nat} {s s' : PoolSt} {id : Nat} {acc : Bool}
    (hs : SInv d max s) (h : ProcStep d max s id acc s') :
    ∀ x ∈ s'.live, x ∈ s.live ∨ (x.flag = true ∧ x.id = id ∧ id ∉ s.ins) := by
  cases h with
  | reject h => exact fun x hx => Or.inl hx
  | skip => exact fun x hx => Or.inl hx
  | ins hacc hin _ r hr hpool hcur hins hcmps hbest hord =>
    intro x hx
    rw [ProcStep.live hs hr hpool hcur] at hx
    have := (Spec.take_cons_drop_perm s.live (⟨id, d id, true⟩ : Nbr) r).mem_iff.1
      (List.mem_of_mem_take hx)
    rcases List.mem_cons.1 this with rfl | h
    · exact Or.inr ⟨rfl, rfl, hin⟩
    · exact Or.inl h

theorem ProcSteps.prefix_eq {d : Nat → F32} {max : Nat} {acc : Nat → Bool} {s s' : PoolSt}
    {cands : List Nat} (h : ProcSteps d max acc s cands s') :
    s'.best ≤ s.best ∧ ∀ j, j ≤ s'.best → s'.live.take j = s.live.take j := by
  induction h with
  | nil => exact ⟨Nat.le_refl _, fun _ _ => rfl⟩
  | @cons s s1 s2 id ids hs h t ih =>
    have := h.prefix_eq hs
    exact ⟨by omega, fun j hj => by rw [ih.2 j hj, this.2 j (by omega)]⟩

theorem ProcSteps.mem_live {d : Nat → F32} {max : Nat} {acc : Nat → Bool} {s s' : PoolSt}
    {cands : List Nat} (h : ProcSteps d max acc s cands s') :
    ∀ x ∈ s'.live, x ∈ s.live ∨ (x.flag = true ∧ x.id ∉ s.ins) := by
  induction h with
  | nil => exact fun x hx => Or.inl hx
  | @cons s s1 s2 id ids hs h t ih =>
    intro x hx
    rcases ih x hx with h1 | ⟨h1, h2⟩
    · rcases h.mem_live hs x h1 with h3 | ⟨h3, h4, h5⟩
      · exact Or.inl h3
      · exact Or.inr ⟨h3, h4 ▸ h5⟩
    · refine Or.inr ⟨h1, fun hm => h2 ?_⟩
      rw [h.ins_eq, mem_addAccepted]
      exact Or.inl hm

/-! ## Initialisation -/

/-- What the loop over the entry points guarantees. -/
structure InitInv (d : Nat → F32) (L : Nat) (init : List Nat) (s : PoolSt) : Prop where
  sinv : SInv d L s
  cur_eq : s.cur = s.ins.length
  flags : ∀ x ∈ s.live, x.flag = true
  ids : ∀ i ∈ s.ins, i ∈ init
  cmps : s.cmps = 0

theorem initLoop_spec {V : Type} (c : Ctx V) (q : V) (L : Nat) (d : Nat → F32)
    (hd : ∀ i v, c.data[i]? = some v → c.cmp v q = d i) (init0 : List Nat) :
    ∀ (init : List Nat) (s : PoolSt), InitInv d L init0 s → (∀ i ∈ init, i ∈ init0) → s.cur < L →
    (∀ i ∈ init, i < c.data.length) →
    ∃ s', initLoop c q L init s = .ok s' ∧ InitInv d L init0 s' ∧ s.cur ≤ s'.cur ∧
      (∀ i ∈ s.ins, i ∈ s'.ins) ∧
      (s'.cur < L → ∀ i ∈ init, i ∈ s'.ins) ∧ (init ≠ [] → 1 ≤ s'.cur) := by
  intro init
  induction init with
  | nil =>
    intro s hs _ _ _
    exact ⟨s, rfl, hs, Nat.le_refl _, fun _ h => h, by simp, by simp⟩
  | cons id ids ih =>
    intro s hs hsub hcur hin
    have hid : id < c.data.length := hin id (by simp)
    unfold initLoop
    rw [rd_ok hid]
    simp only [Res.ok_bind]
    by_cases hc : id ∈ s.ins
    · rw [if_pos (by simpa using hc)]
      rw [if_neg (by omega)]
      obtain ⟨s', e, h1, h2, h3, h4, h5⟩ := ih s hs (fun i hi => hsub i (by simp [hi])) hcur
        (fun i hi => hin i (by simp [hi]))
      refine ⟨s', e, h1, h2, h3, ?_, ?_⟩
      · intro hl i hi
        rcases List.mem_cons.1 hi with rfl | hi
        · exact h3 _ hc
        · exact h4 hl i hi
      · intro _
        have : 0 < s.ins.length := List.length_pos_of_mem hc
        have := hs.cur_eq
        omega
    · rw [if_neg (by simpa using hc)]
      have hcl : s.cur < s.pool.length := by rw [hs.sinv.len]; omega
      rw [wr_ok hcl]
      simp only [Res.ok_bind]
      have hdd : c.cmp c.data[id] q = d id := hd id _ (List.getElem?_eq_getElem hid)
      rw [hdd]
      let s1 : PoolSt := { s with pool := s.pool.set s.cur ⟨id, d id, true⟩, cur := s.cur + 1,
                                  ins := id :: s.ins }
      have hlive : s1.live = s.live ++ [⟨id, d id, true⟩] := by
        show (s.pool.set s.cur ⟨id, d id, true⟩).take (s.cur + 1) = s.pool.take s.cur ++ _
        rw [List.take_add_one, List.getElem?_set_self hcl, List.take_set_of_le (Nat.le_refl _)]
        rfl
      have hs1 : InitInv d L init0 s1 := by
        refine ⟨⟨?_, ?_, ?_, ?_, ?_, ?_⟩, ?_, ?_, ?_, hs.cmps⟩
        · show (s.pool.set _ _).length = _
          rw [List.length_set, hs.sinv.len]
        · show s.cur + 1 ≤ L; omega
        · exact List.nodup_cons.2 ⟨hc, hs.sinv.nodupIns⟩
        · rw [hlive, List.map_append]
          rw [List.nodup_append]
          refine ⟨hs.sinv.nodupIds, by simp, ?_⟩
          intro a ha b hb
          simp at hb
          subst hb
          obtain ⟨x, hx, rfl⟩ := List.mem_map.1 ha
          intro he
          exact hc (he ▸ hs.sinv.subset x hx)
        · intro x hx
          rw [hlive] at hx
          rcases List.mem_append.1 hx with h | h
          · exact List.mem_cons_of_mem _ (hs.sinv.subset x h)
          · simp at h; subst h; exact List.mem_cons_self
        · intro x hx
          rw [hlive] at hx
          rcases List.mem_append.1 hx with h | h
          · exact hs.sinv.truth x h
          · simp at h; subst h; rfl
        · show s.cur + 1 = (id :: s.ins).length
          rw [List.length_cons, hs.cur_eq]
        · intro x hx
          rw [hlive] at hx
          rcases List.mem_append.1 hx with h | h
          · exact hs.flags x h
          · simp at h; subst h; rfl
        · intro i hi
          rcases List.mem_cons.1 hi with rfl | hi
          · exact hsub _ (by simp)
          · exact hs.ids i hi
      by_cases hL : s.cur + 1 = L
      · rw [if_pos hL]
        refine ⟨s1, rfl, hs1, Nat.le_succ _, fun i hi => List.mem_cons_of_mem _ hi, ?_, ?_⟩
        · intro h; exact absurd h (by show ¬ (s.cur + 1 < L); omega)
        · intro _; show 1 ≤ s.cur + 1; omega
      · rw [if_neg hL]
        obtain ⟨s', e, h1, h2, h3, h4, _⟩ := ih s1 hs1 (fun i hi => hsub i (by simp [hi]))
          (by show s.cur + 1 < L; omega) (fun i hi => hin i (by simp [hi]))
        have h2 : s.cur + 1 ≤ s'.cur := h2
        refine ⟨s', e, h1, by omega, fun i hi => h3 i (List.mem_cons_of_mem _ hi), ?_,
          fun _ => by omega⟩
        intro hl i hi
        rcases List.mem_cons.1 hi with rfl | hi
        · exact h3 _ List.mem_cons_self
        · exact h4 hl i hi

/-- The starting pool of the greedy search. -/
def startPool (L : Nat) : PoolSt := ⟨resizePool [] (u32 (L + 1)), 0, [], 0, L⟩

theorem startPool_inv (d : Nat → F32) (L : Nat) (hL : L < 2 ^ 32 - 1) (init : List Nat) :
    InitInv d L init (startPool L) := by
  have : u32 (L + 1) = L + 1 := by unfold u32; omega
  have hl : (startPool L).live = [] := by simp [startPool, PoolSt.live]
  refine ⟨⟨?_, Nat.zero_le _, List.nodup_nil, ?_, ?_, ?_⟩, rfl, ?_, ?_, rfl⟩
  · simp [startPool, resizePool, this]
  · rw [hl]; simp
  · rw [hl]; simp
  · rw [hl]; simp
  · rw [hl]; simp
  · simp [startPool]

/-- Sorting the first `l` entries. -/
theorem sortedStart {sortF : List Nbr → List Nbr} (hsort : IsStdSort sortF) {d : Nat → F32} {L : Nat}
    {init : List Nat} {s : PoolSt} (h : InitInv d L init s) :
    let s' : PoolSt := { s with pool := sortF (s.pool.take s.cur) ++ s.pool.drop s.cur }
    InitInv d L init s' ∧ ((∀ i ∈ s.ins, (d i).IsNum) → KInv d L s') := by
  intro s'
  have hp : (sortF s.live).Perm s.live := hsort.perm _
  have hlen : (sortF s.live).length = s.cur := by rw [hp.length_eq, h.sinv.live_length]
  have hlive : s'.live = sortF s.live := by
    show (sortF s.live ++ s.pool.drop s.cur).take s.cur = _
    rw [List.take_append_of_le_length (by omega), List.take_of_length_le (by omega)]
  have hinv : InitInv d L init s' := by
    refine ⟨⟨?_, h.sinv.cur_le, h.sinv.nodupIns, ?_, ?_, ?_⟩, h.cur_eq, ?_, h.ids, h.cmps⟩
    · show (sortF s.live ++ s.pool.drop s.cur).length = L + 1
      rw [List.length_append, hlen, List.length_drop, h.sinv.len]
      have := h.sinv.cur_le
      omega
    · rw [hlive, (hp.map Nbr.id).nodup_iff]; exact h.sinv.nodupIds
    · intro x hx; rw [hlive] at hx; exact h.sinv.subset x (hp.mem_iff.1 hx)
    · intro x hx; rw [hlive] at hx; exact h.sinv.truth x (hp.mem_iff.1 hx)
    · intro x hx; rw [hlive] at hx; exact h.flags x (hp.mem_iff.1 hx)
  refine ⟨hinv, fun hnum => ?_⟩
  have hs := hsort.sorted s.live (fun x hx => by
    rw [h.sinv.truth x hx]; exact hnum _ (h.sinv.subset x hx))
  have hsub : (s'.live.map Nbr.id).toFinset ⊆ s.ins.toFinset := by
    intro i hi
    simp only [List.mem_toFinset, List.mem_map] at hi ⊢
    obtain ⟨x, hx, rfl⟩ := hi
    exact hinv.sinv.subset x hx
  have hc1 : (s'.live.map Nbr.id).toFinset.card = s.cur := by
    rw [List.toFinset_card_of_nodup hinv.sinv.nodupIds, List.length_map, hinv.sinv.live_length]
  have hc2 : s.ins.toFinset.card = s.cur := by
    rw [List.toFinset_card_of_nodup h.sinv.nodupIns, h.cur_eq]
  have heq := Finset.eq_of_subset_of_card_le hsub (by omega)
  have hmap : (s'.live.map Nbr.pair).map Prod.fst = s'.live.map Nbr.id := by
    rw [List.map_map]; rfl
  unfold KInv
  refine ⟨?_, ?_, ?_, ?_, ?_⟩
  · rw [List.pairwise_map, hlive]; exact hs
  · rw [hmap]; exact hinv.sinv.nodupIds
  · intro x hx
    obtain ⟨y, hy, rfl⟩ := List.mem_map.1 hx
    exact ⟨List.mem_toFinset.2 (hinv.sinv.subset y hy), hinv.sinv.truth y hy⟩
  · rw [List.length_map, hinv.sinv.live_length]
    show s.cur = min L s.ins.toFinset.card
    have := h.sinv.cur_le
    omega
  · intro i hi hni
    exfalso
    apply hni
    rw [hmap]
    have : i ∈ (s'.live.map Nbr.id).toFinset := by rw [heq]; exact hi
    simpa using this

/-! ## Main loop -/

/-- Invariant of the main loop. `n` points, `acc` the outcome of the filter test, `P` any property
of points that holds for the entry points and is inherited along accepted edges, `c0` the number of
entry points used. -/
structure GInv (d : Nat → F32) (L n : Nat) (acc : Nat → Bool) (adj : Nat → List (List Nat))
    (P : Nat → Prop) (c0 : Nat) (s : GSt) : Prop where
  sinv : SInv d L s.ps
  insLt : ∀ i ∈ s.ps.ins, i < n
  kle : s.k ≤ s.ps.cur
  flagsK : ∀ x ∈ s.ps.live.take s.k, x.flag = false
  hops : s.hops = s.expanded.length
  exNodup : (s.expanded.map Nbr.id).Nodup
  exIns : ∀ i ∈ s.expanded.map Nbr.id, i ∈ s.ps.ins
  flagEx : ∀ x ∈ s.ps.live, x.flag = false → x.id ∈ s.expanded.map Nbr.id
  exFlag : ∀ x ∈ s.ps.live, x.flag = true → x.id ∉ s.expanded.map Nbr.id
  exDist : ∀ x ∈ s.expanded, x.dist = d x.id
  closed : ∀ t y, s.expanded[t]? = some y → ∀ nb, (adj t)[y.id]? = some nb →
    ∀ j ∈ nb, acc j = true → j ∈ s.ps.ins
  reach : ∀ i ∈ s.ps.ins, P i
  cmps : s.ps.cmps + c0 = s.ps.ins.length

theorem GInv.hops_le {d : Nat → F32} {L n : Nat} {acc : Nat → Bool} {adj : Nat → List (List Nat)}
    {P : Nat → Prop} {c0 : Nat} {s : GSt} (h : GInv d L n acc adj P c0 s) : s.hops ≤ s.ps.ins.length := by
  rw [h.hops]
  have := (h.exNodup.subperm h.exIns).length_le
  simpa using this

theorem ins_length_le {ins : List Nat} {n : Nat} (hn : ins.Nodup) (h : ∀ i ∈ ins, i < n) :
    ins.length ≤ n := by
  have := (hn.subperm (l₂ := List.range n) (fun i hi => by simpa using h i hi)).length_le
  simpa using this

/-- Clearing the flag of the entry at position `k`. -/
theorem clearFlag_live (s : PoolSt) (k : Nat) (x : Nbr) (_hk : k < s.cur) :
    ({ s with pool := s.pool.set k { x with flag := false } } : PoolSt).live
      = s.live.set k { x with flag := false } := by
  show (s.pool.set k _).take s.cur = _
  rw [List.take_set]
  rfl

theorem ProcStep.mem_pool {d : Nat → F32} {max : Nat} {s s' : PoolSt} {id : Nat} {acc : Bool}
    (h : ProcStep d max s id acc s') : ∀ x ∈ s'.pool, x ∈ s.pool ∨ x.id = id := by
  cases h with
  | reject h => exact fun x hx => Or.inl hx
  | skip => exact fun x hx => Or.inl hx
  | ins hacc hin _ r hr hpool hcur hins hcmps hbest hord =>
    intro x hx
    rw [hpool] at hx
    rcases List.mem_append.1 hx with h | h
    · rcases List.mem_append.1 h with h | h
      · exact Or.inl (List.mem_of_mem_take (List.mem_of_mem_take h))
      · rcases List.mem_cons.1 h with rfl | h
        · exact Or.inr rfl
        · exact Or.inl (List.mem_of_mem_take (List.mem_of_mem_drop h))
    · exact Or.inl (List.mem_of_mem_drop h)

theorem ProcSteps.mem_pool {d : Nat → F32} {max : Nat} {acc : Nat → Bool} {s s' : PoolSt}
    {cands : List Nat} (h : ProcSteps d max acc s cands s') :
    ∀ x ∈ s'.pool, x ∈ s.pool ∨ x.id ∈ cands := by
  induction h with
  | nil => exact fun x hx => Or.inl hx
  | @cons s s1 s2 id ids hs h t ih =>
    intro x hx
    rcases ih x hx with h1 | h1
    · rcases h.mem_pool x h1 with h2 | h2
      · exact Or.inl h2
      · exact Or.inr (by rw [h2]; simp)
    · exact Or.inr (List.mem_cons_of_mem _ h1)

/-- One iteration keeps the invariant and makes progress. -/
theorem greedyIter_spec {V : Type} (c : Ctx V) (q : V) (filters : List Label) (L : Nat)
    (adj : Nat → List (List Nat)) (G : List (List Nat)) (d : Nat → F32)
    (hd : ∀ i v, c.data[i]? = some v → c.cmp q v = d i)
    (hL : Spec.ListFits c.data.length L) (acc : Nat → Bool) (P : Nat → Prop) (c0 : Nat)
    (hacc : ∀ i, i < c.data.length → filterAccepts c filters i = .ok (acc i))
    (hadj : G.length = c.data.length)
    (hnb : ∀ nb ∈ G, ∀ j ∈ nb, j < c.data.length)
    (hP : ∀ i nb, P i → G[i]? = some nb → ∀ j ∈ nb, acc j = true → P j)
    (s : GSt) (hs : GInv d L c.data.length acc adj P c0 s) (hk : s.k < s.ps.cur) (hG : G = adj s.hops) :
    ∃ s', greedyIter c q filters L G s = .ok s' ∧ GInv d L c.data.length acc adj P c0 s' ∧
      (c.data.length - s'.hops) * (L + 1) + (L - s'.k) < (c.data.length - s.hops) * (L + 1) + (L - s.k) ∧
      s.ps.cur ≤ s'.ps.cur ∧ (∀ i ∈ s.ps.ins, i ∈ s'.ps.ins) ∧
      ((∀ i, i < c.data.length → (d i).IsNum) → KInv d L s.ps → KInv d L s'.ps) ∧
      ((∀ x ∈ s.ps.pool, x.id < c.data.length) → ∀ x ∈ s'.ps.pool, x.id < c.data.length) := by
  unfold greedyIter
  have hcl := hs.sinv.cur_le
  have hkp : s.k < s.ps.pool.length := by rw [hs.sinv.len]; omega
  rw [rd_ok hkp]
  simp only [Res.ok_bind]
  have hll := hs.sinv.live_length
  have hkl : s.k < s.ps.live.length := by omega
  have hxl : s.ps.live[s.k] = s.ps.pool[s.k] := by
    simp [PoolSt.live]
  set x := s.ps.pool[s.k] with hx
  have hxm : x ∈ s.ps.live := by rw [← hxl]; exact List.getElem_mem _
  by_cases hfl : x.flag = true
  · rw [if_pos hfl]
    rw [wr_ok hkp]
    simp only [Res.ok_bind]
    have hxn : x.id < c.data.length := hs.insLt _ (hs.sinv.subset x hxm)
    rw [rd_ok (show x.id < G.length by rw [hadj]; exact hxn)]
    simp only [Res.ok_bind]
    set nb := G[x.id]'(by rw [hadj]; exact hxn) with hnbdef
    have hnbm : nb ∈ G := List.getElem_mem _
    have hnbs : G[x.id]? = some nb := List.getElem?_eq_getElem _
    let p1 : PoolSt := { s.ps with pool := s.ps.pool.set s.k { x with flag := false } }
    have hp1live : p1.live = s.ps.live.set s.k { x with flag := false } :=
      clearFlag_live s.ps s.k x hk
    have hids : p1.live.map Nbr.id = s.ps.live.map Nbr.id := by
      rw [hp1live, List.map_set]
      apply List.ext_getElem (by simp)
      intro i h1 h2
      rw [List.getElem_set]
      split
      · subst_vars; simp [hxl]
      · rfl
    have hpairs : p1.live.map Nbr.pair = s.ps.live.map Nbr.pair := by
      rw [hp1live, List.map_set]
      apply List.ext_getElem (by simp)
      intro i h1 h2
      rw [List.getElem_set]
      split
      · subst_vars; simp [hxl, Nbr.pair]
      · rfl
    have hp1mem : ∀ y ∈ p1.live, y = { x with flag := false } ∨ (y ∈ s.ps.live ∧ y.id ≠ x.id) := by
      intro y hy
      rw [hp1live] at hy
      obtain ⟨i, hi, rfl⟩ := List.getElem_of_mem hy
      rw [List.length_set] at hi
      by_cases hik : s.k = i
      · left; rw [List.getElem_set]; simp [hik]
      · right
        rw [List.getElem_set, if_neg hik]
        refine ⟨List.getElem_mem _, fun he => ?_⟩
        have := hs.sinv.nodupIds
        rw [List.nodup_iff_injective_getElem] at this
        have h2 := @this ⟨i, by simpa using hi⟩ ⟨s.k, by simpa using hkl⟩
          (by simp [he, hxl])
        simp at h2
        exact hik h2.symm
    have hp1s : SInv d L p1 := by
      refine ⟨?_, hs.sinv.cur_le, hs.sinv.nodupIns, ?_, ?_, ?_⟩
      · show (s.ps.pool.set _ _).length = _
        rw [List.length_set, hs.sinv.len]
      · rw [hids]; exact hs.sinv.nodupIds
      · intro y hy
        rcases hp1mem y hy with rfl | ⟨h, _⟩
        · exact hs.sinv.subset x hxm
        · exact hs.sinv.subset y h
      · intro y hy
        rcases hp1mem y hy with rfl | ⟨h, _⟩
        · exact hs.sinv.truth x hxm
        · exact hs.sinv.truth y h
    obtain ⟨p2, e2, st⟩ := foldl_procOne c q filters L d hd hL acc nb { p1 with best := L }
      (hp1s.reset L) hs.insLt (fun i hi => hnb nb hnbm i hi)
      (fun i hi => hacc i (hnb nb hnbm i hi)) (by
        intro h0
        have : s.ps.cur = 0 := h0
        omega)
    have e2' : procCands c q filters L p1 nb = .ok p2 := e2
    rw [e2']
    simp only [Res.ok_bind]
    have hp2 := st.sinv (hp1s.reset L)
    have hpre := st.prefix_eq
    have hmono : s.ps.cur ≤ p2.cur := st.cur_mono
    have hinsEq : p2.ins = addAccepted acc s.ps.ins nb := st.ins_eq
    have hinsMono : ∀ i ∈ s.ps.ins, i ∈ p2.ins := by
      intro i hi; rw [hinsEq, mem_addAccepted]; exact Or.inl hi
    have hmemlive := st.mem_live
    have hxnew : x.id ∉ s.expanded.map Nbr.id := hs.exFlag x hxm hfl
    set k' := if p2.best ≤ s.k then p2.best else s.k + 1 with hk'
    have hs' : GInv d L c.data.length acc adj P c0
        ⟨p2, k', s.hops + 1, s.expanded ++ [{ x with flag := false }]⟩ := by
      refine ⟨hp2, ?_, ?_, ?_, ?_, ?_, ?_, ?_, ?_, ?_, ?_, ?_, ?_⟩
      · intro i hi
        have hi : i ∈ p2.ins := hi
        rw [hinsEq, mem_addAccepted] at hi
        rcases hi with hi | ⟨hi, _⟩
        · exact hs.insLt i hi
        · exact hnb nb hnbm i hi
      · show k' ≤ p2.cur
        rw [hk']; split <;> omega
      · intro y hy
        have hy : y ∈ p2.live.take k' := hy
        have hk'b : k' ≤ p2.best := by rw [hk']; split <;> omega
        rw [hpre.2 k' hk'b] at hy
        have hy : y ∈ p1.live.take k' := hy
        rw [hp1live] at hy
        obtain ⟨i, hi, rfl⟩ := List.getElem_of_mem hy
        rw [List.length_take, List.length_set] at hi
        rw [List.getElem_take, List.getElem_set]
        split
        · rfl
        · rename_i hne
          have hik : i < s.k := by
            have : k' ≤ s.k + 1 := by rw [hk']; split <;> omega
            omega
          apply hs.flagsK
          rw [List.mem_iff_getElem]
          exact ⟨i, by rw [List.length_take]; omega, by simp⟩
      · show s.hops + 1 = (s.expanded ++ [{ x with flag := false }]).length
        rw [List.length_append, hs.hops]; rfl
      · show ((s.expanded ++ [{ x with flag := false }]).map Nbr.id).Nodup
        rw [List.map_append, List.nodup_append]
        refine ⟨hs.exNodup, by simp, ?_⟩
        intro a ha b hb
        simp at hb; subst hb
        intro he; subst he; exact hxnew ha
      · intro i hi
        have hi : i ∈ (s.expanded ++ [{ x with flag := false }]).map Nbr.id := hi
        rw [List.map_append] at hi
        rcases List.mem_append.1 hi with hi | hi
        · exact hinsMono _ (hs.exIns i hi)
        · simp at hi; subst hi
          exact hinsMono _ (hs.sinv.subset x hxm)
      · intro y hy hyf
        show y.id ∈ (s.expanded ++ [{ x with flag := false }]).map Nbr.id
        rw [List.map_append]
        rcases hmemlive y hy with h | ⟨h, _⟩
        · rcases hp1mem y h with rfl | ⟨h, _⟩
          · simp
          · exact List.mem_append_left _ (hs.flagEx y h hyf)
        · rw [h] at hyf; simp at hyf
      · intro y hy hyf
        show y.id ∉ (s.expanded ++ [{ x with flag := false }]).map Nbr.id
        rw [List.map_append, List.mem_append]
        rintro (hm | hm)
        · rcases hmemlive y hy with h | ⟨_, h⟩
          · rcases hp1mem y h with rfl | ⟨h, _⟩
            · simp at hyf
            · exact hs.exFlag y h hyf hm
          · exact h (hs.exIns _ hm)
        · simp at hm
          rcases hmemlive y hy with h | ⟨_, h⟩
          · rcases hp1mem y h with rfl | ⟨_, h⟩
            · simp at hyf
            · exact h hm
          · exact h (hm ▸ hs.sinv.subset x hxm)
      · intro y hy
        rcases List.mem_append.1 hy with h | h
        · exact hs.exDist y h
        · simp at h; subst h
          exact hs.sinv.truth x hxm
      · intro t y hy nb' hnb' j hj ha
        replace hy : (s.expanded ++ [{ x with flag := false }])[t]? = some y := hy
        rcases Nat.lt_or_ge t s.expanded.length with ht | ht
        · rw [List.getElem?_append_left ht] at hy
          exact hinsMono _ (hs.closed t y hy nb' hnb' j hj ha)
        · rw [List.getElem?_append_right ht] at hy
          have ht0 : t - s.expanded.length = 0 := by
            by_contra hne
            rw [List.getElem?_eq_none (by simp; omega)] at hy
            simp at hy
          rw [ht0] at hy
          simp at hy
          have hte : t = s.hops := by rw [hs.hops]; omega
          subst hte
          rw [← hy] at hnb'
          have : nb' = nb := by
            have hnb' : G[x.id]? = some nb' := by rw [hG]; exact hnb'
            rw [hnbs] at hnb'; simpa using hnb'.symm
          subst this
          show j ∈ p2.ins
          rw [hinsEq, mem_addAccepted]
          exact Or.inr ⟨hj, ha⟩
      · intro i hi
        have hi : i ∈ p2.ins := hi
        rw [hinsEq, mem_addAccepted] at hi
        rcases hi with hi | ⟨hi, ha⟩
        · exact hs.reach i hi
        · exact hP x.id nb (hs.reach _ (hs.sinv.subset x hxm)) hnbs i hi ha
      · have h1 : p2.cmps + s.ps.ins.length = s.ps.cmps + p2.ins.length := st.cmps
        have h2 := hs.cmps
        show p2.cmps + c0 = p2.ins.length
        omega
    have hhops : s.hops + 1 ≤ c.data.length := by
      have h1 := hs'.hops_le
      have h2 := ins_length_le hp2.nodupIns hs'.insLt
      have h1 : s.hops + 1 ≤ p2.ins.length := h1
      omega
    refine ⟨_, rfl, hs', ?_, hmono, hinsMono, ?_, ?_⟩
    · show (c.data.length - (s.hops + 1)) * (L + 1) + (L - k') < _
      have : c.data.length - s.hops = (c.data.length - (s.hops + 1)) + 1 := by omega
      rw [this, Nat.add_mul]
      omega
    · intro hnum hkinv
      refine st.kinv ?_ ?_ ?_
      · show Spec.KNearest L p1.ins.toFinset d (p1.live.map Nbr.pair)
        rw [hpairs]; exact hkinv
      · intro i hi; exact hnum i (hs.insLt i hi)
      · intro i hi _; exact hnum i (hnb nb hnbm i hi)
    · intro hpool y hy
      rcases st.mem_pool y hy with h | h
      · have h : y ∈ s.ps.pool.set s.k { x with flag := false } := h
        rcases List.mem_or_eq_of_mem_set h with h | h
        · exact hpool y h
        · rw [h]; exact hxn
      · exact hnb nb hnbm _ h
  · rw [if_neg hfl]
    have hs' : GInv d L c.data.length acc adj P c0 { s with k := s.k + 1 } := by
      refine ⟨hs.sinv, hs.insLt, hk, ?_, hs.hops, hs.exNodup, hs.exIns, hs.flagEx, hs.exFlag,
        hs.exDist, hs.closed, hs.reach, hs.cmps⟩
      intro y hy
      have hy : y ∈ s.ps.live.take (s.k + 1) := hy
      rw [List.take_add_one, List.getElem?_eq_getElem hkl] at hy
      rcases List.mem_append.1 hy with h | h
      · exact hs.flagsK y h
      · simp at h; subst h
        rw [hxl]; simpa using hfl
    refine ⟨_, rfl, hs', ?_, Nat.le_refl _, fun _ h => h, fun _ h => h, fun h => h⟩
    show (c.data.length - s.hops) * (L + 1) + (L - (s.k + 1)) < _
    omega

theorem greedyLoop_spec {V : Type} (c : Ctx V) (q : V) (filters : List Label) (L : Nat)
    (adj : Nat → List (List Nat)) (d : Nat → F32)
    (hd : ∀ i v, c.data[i]? = some v → c.cmp q v = d i)
    (hL : Spec.ListFits c.data.length L) (acc : Nat → Bool) (P : Nat → Prop) (c0 : Nat)
    (hacc : ∀ i, i < c.data.length → filterAccepts c filters i = .ok (acc i))
    (hadj : ∀ t, (adj t).length = c.data.length)
    (hnb : ∀ t, ∀ nb ∈ adj t, ∀ j ∈ nb, j < c.data.length)
    (hP : ∀ t i nb, P i → (adj t)[i]? = some nb → ∀ j ∈ nb, acc j = true → P j) :
    ∀ (fuel : Nat) (s : GSt), GInv d L c.data.length acc adj P c0 s →
    (c.data.length - s.hops) * (L + 1) + (L - s.k) ≤ fuel →
    ∃ s', greedyLoop c q filters L adj fuel s = .ok s' ∧ GInv d L c.data.length acc adj P c0 s' ∧
      s'.ps.cur ≤ s'.k ∧ s.ps.cur ≤ s'.ps.cur ∧ (∀ i ∈ s.ps.ins, i ∈ s'.ps.ins) ∧
      ((∀ i, i < c.data.length → (d i).IsNum) → KInv d L s.ps → KInv d L s'.ps) := by
  intro fuel
  induction fuel with
  | zero =>
    intro s hs hf
    unfold greedyLoop
    have h1 := hs.sinv.cur_le
    rw [if_neg (by omega)]
    exact ⟨s, rfl, hs, by omega, Nat.le_refl _, fun _ h => h, fun _ h => h⟩
  | succ fuel ih =>
    intro s hs hf
    unfold greedyLoop
    by_cases hk : s.k < s.ps.cur
    · rw [if_pos hk]
      obtain ⟨s1, e1, g1, g2, g3, g4, g5, _⟩ := greedyIter_spec c q filters L adj (adj s.hops) d hd hL acc P
        c0 hacc (hadj _) (hnb _) (hP _) s hs hk rfl
      rw [e1]
      obtain ⟨s', e, h1, h2, h3, h4, h5⟩ := ih s1 g1 (by omega)
      exact ⟨s', e, h1, h2, by omega, fun i hi => h4 i (g4 i hi), fun hn hki => h5 hn (g5 hn hki)⟩
    · rw [if_neg hk]
      exact ⟨s, rfl, hs, by omega, Nat.le_refl _, fun _ h => h, fun _ h => h⟩

theorem initLoop_mem_pool {V : Type} (c : Ctx V) (q : V) (L : Nat) : ∀ (init : List Nat) (s s' : PoolSt),
    initLoop c q L init s = .ok s' → ∀ x ∈ s'.pool, x ∈ s.pool ∨ x.id ∈ init := by
  intro init
  induction init with
  | nil => intro s s' h x hx; simp [initLoop] at h; subst h; exact Or.inl hx
  | cons id ids ih =>
    intro s s' h x hx
    unfold initLoop at h
    obtain ⟨v, _, h⟩ := Res.bind_eq_ok.1 h
    have fin : ∀ s1 : PoolSt, (∀ x ∈ s1.pool, x ∈ s.pool ∨ x.id ∈ id :: ids) →
        (if s1.cur = L then .ok s1 else initLoop c q L ids s1) = Except.ok s' →
        x ∈ s.pool ∨ x.id ∈ id :: ids := by
      intro s1 hs1 h
      by_cases hl : s1.cur = L
      · rw [if_pos hl] at h; cases h; exact hs1 x hx
      · rw [if_neg hl] at h
        rcases ih s1 s' h x hx with h' | h'
        · exact hs1 x h'
        · exact Or.inr (List.mem_cons_of_mem _ h')
    dsimp only at h
    by_cases hc : s.ins.contains id = true
    · rw [if_pos hc] at h
      exact fin s (fun y hy => Or.inl hy) h
    · rw [if_neg hc] at h
      obtain ⟨p, hp, h⟩ := Res.bind_eq_ok.1 h
      refine fin _ ?_ h
      intro y hy
      unfold wr at hp
      split at hp
      · cases hp
        rcases List.mem_or_eq_of_mem_set hy with h | h
        · exact Or.inl h
        · right; rw [h]; simp
      · cases hp

/-- The state in which the main loop starts. -/
theorem greedyStart_spec {V : Type} (sortF : List Nbr → List Nbr) (hsort : IsStdSort sortF)
    (c : Ctx V) (q : V) (L : Nat)
    (adj : Nat → List (List Nat)) (init : List Nat) (d : Nat → F32)
    (hd2 : ∀ i v, c.data[i]? = some v → c.cmp v q = d i)
    (hL1 : 1 ≤ L) (hL : Spec.ListFits c.data.length L) (acc : Nat → Bool) (P : Nat → Prop)
    (hinit : ∀ i ∈ init, i < c.data.length)
    (hP0 : ∀ i ∈ init, P i) :
    ∃ s, greedyStart sortF c q L init = .ok s ∧ s.hops = 0 ∧ s.k = 0 ∧
      GInv d L c.data.length acc adj P s.ps.ins.length s ∧
      (s.ps.cur < L → ∀ i ∈ init, i ∈ s.ps.ins) ∧ (init ≠ [] → 1 ≤ s.ps.cur) ∧
      s.ps.cur = s.ps.ins.length ∧
      ((∀ i, i < c.data.length → (d i).IsNum) → KInv d L s.ps) ∧
      (1 ≤ c.data.length → ∀ x ∈ s.ps.pool, x.id < c.data.length) := by
  obtain ⟨s0, e0, h0, _, _, h4, h5⟩ := initLoop_spec c q L d hd2 init init (startPool L)
    (startPool_inv d L hL.1 init) (fun i h => h) (by show 0 < L; omega) hinit
  obtain ⟨hi1, hk1⟩ := sortedStart hsort h0
  set s1 : PoolSt := { s0 with pool := sortF (s0.pool.take s0.cur) ++ s0.pool.drop s0.cur } with hs1
  have hg : GInv d L c.data.length acc adj P s0.ins.length ⟨s1, 0, 0, []⟩ := by
    refine ⟨hi1.sinv, fun i hi => hinit i (hi1.ids i hi), Nat.zero_le _, by simp, rfl, by simp, by simp,
      ?_, by simp, by simp, by simp, fun i hi => hP0 i (hi1.ids i hi), ?_⟩
    · intro x hx hxf
      rw [hi1.flags x hx] at hxf
      simp at hxf
    · show s0.cmps + s0.ins.length = s0.ins.length
      rw [h0.cmps]; omega
  refine ⟨⟨s1, 0, 0, []⟩, ?_, rfl, rfl, hg, h4, h5, h0.cur_eq, ?_, ?_⟩
  · unfold greedyStart
    show (initLoop c q L init (startPool L) >>= _) = _
    rw [e0]
    rfl
  · intro hnum
    exact hk1 (fun i hi => hnum i (hinit i (h0.ids i hi)))
  · intro hn x hx
    have hx : x ∈ sortF (s0.pool.take s0.cur) ++ s0.pool.drop s0.cur := hx
    have hx0 : x ∈ s0.pool := by
      rcases List.mem_append.1 hx with h | h
      · exact List.mem_of_mem_take ((hsort.perm _).mem_iff.1 h)
      · exact List.mem_of_mem_drop h
    rcases initLoop_mem_pool c q L init _ _ e0 x hx0 with h | h
    · have : x ∈ List.replicate (u32 (L + 1)) Nbr.dflt := by
        simpa [startPool, resizePool] using h
      rw [List.eq_of_mem_replicate this]
      exact hn
    · exact hinit _ h

/-- The greedy search as a whole. -/
theorem greedySearchF_spec {V : Type} (sortF : List Nbr → List Nbr) (hsort : IsStdSort sortF)
    (c : Ctx V) (q : V) (filters : List Label) (L : Nat)
    (adj : Nat → List (List Nat)) (init : List Nat) (d : Nat → F32)
    (hd : ∀ i v, c.data[i]? = some v → c.cmp q v = d i)
    (hd2 : ∀ i v, c.data[i]? = some v → c.cmp v q = d i)
    (hL1 : 1 ≤ L) (hL : Spec.ListFits c.data.length L) (acc : Nat → Bool) (P : Nat → Prop)
    (hacc : ∀ i, i < c.data.length → filterAccepts c filters i = .ok (acc i))
    (hadj : ∀ t, (adj t).length = c.data.length)
    (hnb : ∀ t, ∀ nb ∈ adj t, ∀ j ∈ nb, j < c.data.length)
    (hinit : ∀ i ∈ init, i < c.data.length)
    (hP0 : ∀ i ∈ init, P i)
    (hP : ∀ t i nb, P i → (adj t)[i]? = some nb → ∀ j ∈ nb, acc j = true → P j)
    (fuel : Nat) (hf : (c.data.length + 1) * (L + 1) ≤ fuel) :
    ∃ s c0, greedySearchF fuel sortF c q filters L adj init = .ok s ∧
      GInv d L c.data.length acc adj P c0 s ∧ s.ps.cur ≤ s.k ∧
      (s.ps.cur < L → ∀ i ∈ init, i ∈ s.ps.ins) ∧ (init ≠ [] → 1 ≤ s.ps.cur ∧ 1 ≤ c0) ∧
      ((∀ i, i < c.data.length → (d i).IsNum) → KInv d L s.ps) := by
  obtain ⟨s0, e0, hh0, hk0, hg, h4, h5, h6, h7, _⟩ := greedyStart_spec sortF hsort c q L adj init d hd2 hL1 hL
    acc P hinit hP0
  obtain ⟨s, e, g1, g2, g3, g4, g5⟩ := greedyLoop_spec c q filters L adj d hd hL acc P
    s0.ps.ins.length hacc hadj hnb hP fuel s0 hg (by
      rw [hh0, hk0]
      rw [Nat.add_mul] at hf
      simp only [Nat.sub_zero]
      omega)
  refine ⟨s, s0.ps.ins.length, ?_, g1, g2, ?_, ?_, ?_⟩
  · unfold greedySearchF
    rw [e0]
    exact e
  · intro hlt i hi
    exact g4 i (h4 (by omega) i hi)
  · intro hne
    have := h5 hne
    omega
  · intro hnum
    exact g5 hnum (h7 hnum)

/-! ## The iteration bound is irrelevant once large enough -/

theorem greedyLoop_mono {V : Type} (c : Ctx V) (q : V) (filters : List Label) (L : Nat)
    (adj : Nat → List (List Nat)) : ∀ (f f' : Nat) (s r : GSt), f ≤ f' →
    greedyLoop c q filters L adj f s = .ok r → greedyLoop c q filters L adj f' s = .ok r := by
  intro f
  induction f with
  | zero =>
    intro f' s r _ h
    have hk : ¬ s.k < s.ps.cur := by
      intro hk
      simp [greedyLoop, hk] at h
    simp [greedyLoop, hk] at h
    subst h
    cases f' <;> simp [greedyLoop, hk]
  | succ f ih =>
    intro f' s r hf h
    obtain ⟨f', rfl⟩ : ∃ g, f' = g + 1 := ⟨f' - 1, by omega⟩
    unfold greedyLoop at h ⊢
    by_cases hk : s.k < s.ps.cur
    · rw [if_pos hk] at h ⊢
      obtain ⟨x, hx, h⟩ := Res.bind_eq_ok.1 h
      rw [hx]
      exact ih f' _ r (by omega) h
    · rw [if_neg hk] at h ⊢
      exact h

theorem greedySearchF_mono {V : Type} (sortF : List Nbr → List Nbr) (c : Ctx V) (q : V)
    (filters : List Label) (L : Nat) (adj : Nat → List (List Nat)) (init : List Nat) {f f' : Nat}
    {r : GSt} (hf : f ≤ f') (h : greedySearchF f sortF c q filters L adj init = .ok r) :
    greedySearchF f' sortF c q filters L adj init = .ok r := by
  unfold greedySearchF at h ⊢
  obtain ⟨s, hs, h⟩ := Res.bind_eq_ok.1 h
  rw [hs]
  exact greedyLoop_mono c q filters L adj f f' _ r hf h

end Grann
