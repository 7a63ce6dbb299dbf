import Verif.Proofs.Pool
import Verif.Proofs.Labels0
import Verif.Proofs.KNearest

namespace Grann

/-- The part of the pool in use. -/
def PoolSt.live (s : PoolSt) : List Nbr := s.pool.take s.cur

def Nbr.pair (x : Nbr) : Nat × F32 := (x.id, x.dist)

/-- Structural invariant of a candidate pool of capacity `max`; holds whatever the distances. -/
structure SInv (d : Nat → F32) (max : Nat) (s : PoolSt) : Prop where
  len : s.pool.length = max + 1
  cur_le : s.cur ≤ max
  nodupIns : s.ins.Nodup
  nodupIds : (s.live.map Nbr.id).Nodup
  subset : ∀ x ∈ s.live, x.id ∈ s.ins
  truth : ∀ x ∈ s.live, x.dist = d x.id

theorem SInv.live_length {d : Nat → F32} {max : Nat} {s : PoolSt} (h : SInv d max s) :
    s.live.length = s.cur := by
  unfold PoolSt.live
  rw [List.length_take, h.len]
  have := h.cur_le
  omega

/-- The pool is the live part, one more slot, and the rest. -/
theorem SInv.split {d : Nat → F32} {max : Nat} {s : PoolSt} (h : SInv d max s) :
    ∃ x, s.pool = s.live ++ x :: s.pool.drop (s.cur + 1) := by
  have hc : s.cur < s.pool.length := by rw [h.len]; have := h.cur_le; omega
  refine ⟨s.pool[s.cur], ?_⟩
  unfold PoolSt.live
  rw [← List.drop_eq_getElem_cons hc, List.take_append_drop]

/-- What one iteration of the candidate loop does. -/
inductive ProcStep (d : Nat → F32) (max : Nat) (s : PoolSt) (id : Nat) (acc : Bool) :
    PoolSt → Prop
  | reject (h : acc = false ∨ id ∈ s.ins) : ProcStep d max s id acc s
  | skip (hacc : acc = true) (hin : id ∉ s.ins) (hc : s.cur = max) (h1 : 1 ≤ s.cur)
      (hl : ∃ x ∈ s.live.getLast?, x.dist.le (d id) = true) :
      ProcStep d max s id acc { s with ins := id :: s.ins, cmps := s.cmps + 1 }
  | ins (hacc : acc = true) (hin : id ∉ s.ins) (s' : PoolSt) (r : Nat) (hr : r ≤ s.cur)
      (hpool : s'.pool = s.live.take r ++ ⟨id, d id, true⟩ :: s.live.drop r ++
        s.pool.drop (s.cur + 1))
      (hcur : s'.cur = min max (s.cur + 1)) (hins : s'.ins = id :: s.ins)
      (hcmps : s'.cmps = s.cmps + 1) (hbest : s'.best = min r s.best)
      (hord : SortedD s.live → (∀ y ∈ s.live, y.dist.IsNum) → (d id).IsNum →
        (∀ y ∈ s.live.take r, y.dist.le (d id) = true) ∧
        (∀ y ∈ s.live.drop r, (d id).le y.dist = true)) :
      ProcStep d max s id acc s'

theorem procOne_step {V : Type} (c : Ctx V) (q : V) (filters : List Label) (max : Nat) (s : PoolSt)
    (id : Nat) (d : Nat → F32) (hd : ∀ i v, c.data[i]? = some v → c.cmp q v = d i)
    (hs : SInv d max s) (hcur2 : id ∉ s.ins → s.cur ≤ 2147483649)
    (hid : id < c.data.length) (acc : Bool) (hacc : filterAccepts c filters id = .ok acc)
    (hzero : s.cur = 0 → 1 ≤ max ∧ ∃ x ∈ s.pool.head?, (d id).lt x.dist = true) :
    ∃ s', procOne c q filters max s id = .ok s' ∧ ProcStep d max s id acc s' := by
  unfold procOne
  rw [hacc]
  simp only [Res.ok_bind]
  cases acc with
  | false => exact ⟨s, by simp, .reject (Or.inl rfl)⟩
  | true =>
    simp only [Bool.not_true, Bool.false_eq_true, if_false]
    by_cases hin : id ∈ s.ins
    · rw [if_pos (by simpa using hin)]
      exact ⟨s, rfl, .reject (Or.inr hin)⟩
    · rw [if_neg (by simpa using hin)]
      rw [rd_ok hid]
      simp only [Res.ok_bind]
      have hdist : c.cmp q c.data[id] = d id := hd id _ (List.getElem?_eq_getElem hid)
      rw [hdist]
      obtain ⟨x, hx⟩ := hs.split
      have hll := hs.live_length
      by_cases hc0 : s.cur = 0
      · -- empty pool
        obtain ⟨hm1, hz⟩ := hzero hc0
        have hl0 : s.live = [] := List.eq_nil_of_length_eq_zero (by omega)
        have hx2 : s.pool = x :: s.pool.drop (s.cur + 1) := by
          have := hx; rw [hl0] at this; simpa using this
        have hz' : (d id).lt x.dist = true := by
          rw [hx2] at hz; simpa using hz
        have hi := insertIntoPool_zero x (s.pool.drop (s.cur + 1)) ⟨id, d id, true⟩ hz'
        rw [← hx2, ← hc0] at hi
        simp only [hc0, gt_iff_lt, Nat.lt_irrefl, if_false]
        rw [hc0] at hi
        rw [hi]
        simp only [Res.ok_bind]
        refine ⟨_, rfl, ?_⟩
        refine .ins rfl hin _ 0 (Nat.zero_le _) ?_ ?_ rfl rfl ?_ ?_
        · simp [hl0, hc0]
        · simp only [hc0]; rw [if_pos (by omega)]; omega
        · simp only []; split <;> omega
        · intro _ _ _; simp [hl0]
      · have hcpos : 1 ≤ s.cur := by omega
        have hlast : s.cur - 1 < s.pool.length := by rw [hs.len]; have := hs.cur_le; omega
        simp only [gt_iff_lt, show 0 < s.cur by omega, if_true]
        rw [rd_ok hlast]
        simp only [Res.ok_bind]
        have hlastlive : s.live.getLast? = some (s.pool[s.cur - 1]) := by
          rw [List.getLast?_eq_getElem?, hll]
          unfold PoolSt.live
          rw [List.getElem?_take_of_lt (by omega), List.getElem?_eq_getElem hlast]
        by_cases hskip : ((s.pool[s.cur - 1]).dist.le (d id) && s.cur == max) = true
        · rw [if_pos hskip]
          refine ⟨_, rfl, .skip rfl hin ?_ hcpos ⟨_, hlastlive, ?_⟩⟩
          · simp at hskip; exact hskip.2
          · simp at hskip; exact hskip.1
        · rw [if_neg hskip]
          have hcl := hs.cur_le
          have hcur2 := hcur2 hin
          rcases insertIntoPool_cases s.live x (s.pool.drop (s.cur + 1)) ⟨id, d id, true⟩
            (by omega) (by omega) with ⟨_, y, hy, hyid⟩ | ⟨r, hr, he, hord⟩
          · have hyid : y.id = id := hyid
            exact absurd (hyid ▸ hs.subset y hy) hin
          · rw [← hx, hll] at he
            rw [he]
            simp only [Res.ok_bind]
            refine ⟨_, rfl, .ins rfl hin _ r (by omega) rfl ?_ rfl rfl ?_ ?_⟩
            · simp only []; split <;> omega
            · simp only []; split <;> omega
            · intro h1 h2 h3
              have := hord h1 h2 h3
              exact ⟨this.1, this.2.1⟩

theorem take_take_app {P rest : List Nbr} {nn : Nbr} {max r : Nat} (hP : P.length ≤ max)
    (hr : r ≤ P.length) :
    (P.take r ++ nn :: P.drop r ++ rest).take (min max (P.length + 1))
      = (P.take r ++ nn :: P.drop r).take max := by
  have hlen : (P.take r ++ nn :: P.drop r).length = P.length + 1 := by simp; omega
  rw [List.take_append_of_le_length (by omega)]
  rcases Nat.lt_or_ge P.length max with h | h
  · rw [Nat.min_eq_right (by omega), List.take_of_length_le (Nat.le_of_eq hlen),
      List.take_of_length_le (i := max) (l := P.take r ++ nn :: P.drop r) (by rw [hlen]; omega)]
  · rw [Nat.min_eq_left (by omega)]

theorem ProcStep.live {d : Nat → F32} {max : Nat} {s s' : PoolSt} {id : Nat}
    (hs : SInv d max s) {r : Nat} (hr : r ≤ s.cur)
    (hpool : s'.pool = s.live.take r ++ ⟨id, d id, true⟩ :: s.live.drop r ++
        s.pool.drop (s.cur + 1))
    (hcur : s'.cur = min max (s.cur + 1)) :
    s'.live = (s.live.take r ++ ⟨id, d id, true⟩ :: s.live.drop r).take max := by
  have hll := hs.live_length
  have := hs.cur_le
  have h := take_take_app (P := s.live) (rest := s.pool.drop (s.cur + 1)) (nn := ⟨id, d id, true⟩)
    (max := max) (r := r) (by omega) (by omega)
  unfold PoolSt.live at h ⊢
  rw [hpool, hcur]
  unfold PoolSt.live
  rw [← h]
  unfold PoolSt.live at hll
  rw [hll]

/-- The structural invariant is kept. -/
theorem ProcStep.sinv {d : Nat → F32} {max : Nat} {s s' : PoolSt} {id : Nat} {acc : Bool}
    (hs : SInv d max s) (h : ProcStep d max s id acc s') : SInv d max s' := by
  cases h with
  | reject h => exact hs
  | skip hacc hin hc h1 hl =>
    exact ⟨hs.len, hs.cur_le, List.nodup_cons.2 ⟨hin, hs.nodupIns⟩, hs.nodupIds,
      fun x hx => List.mem_cons_of_mem _ (hs.subset x hx), hs.truth⟩
  | ins hacc hin _ r hr hpool hcur hins hcmps hbest hord =>
    have hlive := ProcStep.live hs hr hpool hcur
    have hll := hs.live_length
    have hperm : (s.live.take r ++ (⟨id, d id, true⟩ : Nbr) :: s.live.drop r).Perm
        (⟨id, d id, true⟩ :: s.live) := Spec.take_cons_drop_perm _ _ _
    have hmem : ∀ x ∈ s'.live, x = ⟨id, d id, true⟩ ∨ x ∈ s.live := by
      intro x hx
      rw [hlive] at hx
      simpa using hperm.mem_iff.1 (List.mem_of_mem_take hx)
    refine ⟨?_, by omega, ?_, ?_, ?_, ?_⟩
    · rw [hpool]
      simp only [List.length_append, List.length_cons, List.length_take, List.length_drop, hll,
        hs.len]
      have := hs.cur_le
      omega
    · rw [hins]; exact List.nodup_cons.2 ⟨hin, hs.nodupIns⟩
    · rw [hlive, List.map_take]
      refine List.Nodup.sublist (List.take_sublist _ _) ?_
      rw [(hperm.map Nbr.id).nodup_iff, List.map_cons, List.nodup_cons]
      refine ⟨?_, hs.nodupIds⟩
      intro hm
      obtain ⟨y, hy, hye⟩ := List.mem_map.1 hm
      exact hin (by simpa [hye] using hs.subset y hy)
    · intro x hx
      rw [hins]
      rcases hmem x hx with rfl | hx
      · simp
      · exact List.mem_cons_of_mem _ (hs.subset x hx)
    · intro x hx
      rcases hmem x hx with rfl | hx
      · rfl
      · exact hs.truth x hx

/-- Ordering invariant: the live part is the best-`max` selection of all points accepted so far. -/
def KInv (d : Nat → F32) (max : Nat) (s : PoolSt) : Prop :=
  Spec.KNearest max s.ins.toFinset d (s.live.map Nbr.pair)

theorem KInv.sortedD {d : Nat → F32} {max : Nat} {s : PoolSt} (h : KInv d max s) :
    SortedD s.live := by
  have := h.sorted
  rw [List.pairwise_map] at this
  exact this

theorem ProcStep.kinv {d : Nat → F32} {max : Nat} {s s' : PoolSt} {id : Nat} {acc : Bool}
    (hs : SInv d max s) (hk : KInv d max s) (hnum : ∀ i ∈ s.ins, (d i).IsNum) (hid : (d id).IsNum)
    (h : ProcStep d max s id acc s') : KInv d max s' := by
  have hsort := hk.sortedD
  cases h with
  | reject h => exact hk
  | skip hacc hin hc h1 hl =>
    unfold KInv
    rw [show ({ s with ins := id :: s.ins, cmps := s.cmps + 1 } : PoolSt).live = s.live from rfl]
    simp only [List.toFinset_cons]
    refine Spec.KNearest.skip hk (by simp [hs.live_length, hc]) id (by simpa using hin) ?_
    intro x hx
    obtain ⟨y, hy, rfl⟩ := List.mem_map.1 hx
    obtain ⟨z, hz, hzle⟩ := hl
    obtain ⟨i, hi, rfl⟩ := List.getElem_of_mem hy
    have hz' : s.live[s.live.length - 1]? = some z := by
      rw [← List.getLast?_eq_getElem?]; exact hz
    obtain ⟨hlt, he⟩ := List.getElem?_eq_some_iff.1 hz'
    rcases Nat.lt_or_ge i (s.live.length - 1) with h | h
    · have := hsort.le h hlt
      rw [he] at this
      exact F32.le_trans this hzle
    · have : i = s.live.length - 1 := by omega
      subst this
      rw [he]; exact hzle
  | ins hacc hin _ r hr hpool hcur hins hcmps hbest hord =>
    have hlive := ProcStep.live hs hr hpool hcur
    have hll := hs.live_length
    obtain ⟨hb, ha⟩ := hord hsort
      (fun y hy => by rw [hs.truth y hy]; exact hnum _ (hs.subset y hy)) hid
    unfold KInv
    rw [hlive, hins]
    have := Spec.KNearest.insertAt hk id (by simpa using hin) r (by simp [hll, hr])
      (by
        intro x hx
        rw [← List.map_take] at hx
        obtain ⟨y, hy, rfl⟩ := List.mem_map.1 hx
        exact hb y hy)
      (by
        intro x hx
        rw [← List.map_drop] at hx
        obtain ⟨y, hy, rfl⟩ := List.mem_map.1 hx
        exact ha y hy)
    simpa [List.map_take, List.map_drop, List.toFinset_cons, Nbr.pair] using this

/-! ## Folding over a batch -/

/-- The accepted, not yet seen candidates are added to `ins` in order. -/
def addAccepted (acc : Nat → Bool) (ins : List Nat) (cands : List Nat) : List Nat :=
  cands.foldl (fun ins id => if acc id && !ins.contains id then id :: ins else ins) ins

theorem mem_addAccepted (acc : Nat → Bool) (cands : List Nat) : ∀ (ins : List Nat) (i : Nat),
    i ∈ addAccepted acc ins cands ↔ i ∈ ins ∨ (i ∈ cands ∧ acc i = true) := by
  induction cands with
  | nil => intro ins i; simp [addAccepted]
  | cons a as ih =>
    intro ins i
    show i ∈ addAccepted acc _ as ↔ _
    rw [ih]
    beta_reduce
    by_cases h : (acc a && !ins.contains a) = true
    · rw [if_pos h]
      simp at h
      simp only [List.mem_cons]
      constructor
      · rintro ((rfl | h') | h')
        · exact Or.inr ⟨Or.inl rfl, h.1⟩
        · exact Or.inl h'
        · exact Or.inr ⟨Or.inr h'.1, h'.2⟩
      · rintro (h' | ⟨rfl | h', h2⟩)
        · exact Or.inl (Or.inr h')
        · exact Or.inl (Or.inl rfl)
        · exact Or.inr ⟨h', h2⟩
    · rw [if_neg h]
      simp at h
      simp only [List.mem_cons]
      constructor
      · rintro (h' | h')
        · exact Or.inl h'
        · exact Or.inr ⟨Or.inr h'.1, h'.2⟩
      · rintro (h' | ⟨rfl | h', h2⟩)
        · exact Or.inl h'
        · exact Or.inl (h h2)
        · exact Or.inr ⟨h', h2⟩

theorem ProcStep.ins_eq {d : Nat → F32} {max : Nat} {s s' : PoolSt} {id : Nat} {acc : Nat → Bool}
    (h : ProcStep d max s id (acc id) s') : s'.ins = addAccepted acc s.ins [id] := by
  cases h with
  | reject h =>
    simp only [addAccepted, List.foldl_cons, List.foldl_nil]
    rw [if_neg]
    simp; rcases h with h | h
    · simp [h]
    · intro _; exact h
  | skip hacc hin => simp [addAccepted, hacc, hin]
  | ins hacc hin _ r hr hpool hcur hins => simp [addAccepted, hacc, hin, hins]

/-- Non-emptiness is kept. -/
theorem ProcStep.cur_mono {d : Nat → F32} {max : Nat} {s s' : PoolSt} {id : Nat} {acc : Bool}
    (hs : SInv d max s)
    (h : ProcStep d max s id acc s') : s.cur ≤ s'.cur ∧ (1 ≤ max → s'.cur = 0 → s' = s) := by
  have := hs.cur_le
  cases h with
  | reject h => exact ⟨Nat.le_refl _, fun _ _ => rfl⟩
  | skip hacc hin hc h1 hl =>
    refine ⟨Nat.le_refl _, ?_⟩
    intro _ h; simp only [] at h; omega
  | ins hacc hin _ r hr hpool hcur hins hcmps hbest hord =>
    exact ⟨by omega, fun _ _ => by omega⟩

/-- Step relation iterated over a batch. -/
inductive ProcSteps (d : Nat → F32) (max : Nat) (acc : Nat → Bool) : PoolSt → List Nat → PoolSt → Prop
  | nil (s) : ProcSteps d max acc s [] s
  | cons {s s1 s2 id ids} (h1 : SInv d max s) (h : ProcStep d max s id (acc id) s1)
      (t : ProcSteps d max acc s1 ids s2) : ProcSteps d max acc s (id :: ids) s2

theorem SInv.cur_fits {d : Nat → F32} {max n : Nat} {s : PoolSt} (h : SInv d max s) (hfit : Spec.ListFits n max)
    (hlt : ∀ i ∈ s.ins, i < n) {id : Nat} (hid : id < n) (hin : id ∉ s.ins) : s.cur ≤ 2147483649 := by
  rcases hfit.2 with h1 | h1
  · exact h.cur_le.trans h1
  · have hnd : (id :: s.live.map Nbr.id).Nodup := List.nodup_cons.2 ⟨fun hi => by
      obtain ⟨x, hx, rfl⟩ := List.mem_map.1 hi
      exact hin (h.subset x hx), h.nodupIds⟩
    have h2 := (hnd.subperm (l₂ := List.range n) (fun i hi => by
      rcases List.mem_cons.1 hi with rfl | hi
      · simpa using hid
      · obtain ⟨x, hx, rfl⟩ := List.mem_map.1 hi
        simpa using hlt _ (h.subset x hx))).length_le
    rw [List.length_cons, List.length_map, h.live_length, List.length_range] at h2
    omega

theorem foldl_procOne {V : Type} (c : Ctx V) (q : V) (filters : List Label) (max : Nat)
    (d : Nat → F32) (hd : ∀ i v, c.data[i]? = some v → c.cmp q v = d i)
    (hfit : Spec.ListFits c.data.length max) (acc : Nat → Bool) :
    ∀ (cands : List Nat) (s : PoolSt), SInv d max s → (∀ i ∈ s.ins, i < c.data.length) →
    (∀ id ∈ cands, id < c.data.length) → (∀ id ∈ cands, filterAccepts c filters id = .ok (acc id)) →
    (s.cur = 0 → 1 ≤ max ∧ s.ins = [] ∧
      ∃ x ∈ s.pool.head?, ∀ id, cands.find? acc = some id → (d id).lt x.dist = true) →
    ∃ s', cands.foldlM (procOne c q filters max) s = .ok s' ∧ ProcSteps d max acc s cands s' := by
  intro cands
  induction cands with
  | nil => intro s hs _ _ _ _; exact ⟨s, rfl, .nil s⟩
  | cons id ids ih =>
    intro s hs hlt hin hacc hz
    have hone : ∃ s1, procOne c q filters max s id = .ok s1 ∧ ProcStep d max s id (acc id) s1 := by
      by_cases ha : acc id = true
      · refine procOne_step c q filters max s id d hd hs (hs.cur_fits hfit hlt (hin id (by simp))) (hin id (by simp)) (acc id)
          (hacc id (by simp)) ?_
        intro h0
        obtain ⟨hm, _, x, hx, hxl⟩ := hz h0
        exact ⟨hm, x, hx, hxl id (by simp [ha])⟩
      · have ha : acc id = false := by simpa using ha
        refine ⟨s, ?_, .reject (Or.inl ha)⟩
        unfold procOne
        rw [hacc id (by simp), ha]
        rfl
    obtain ⟨s1, e1, st⟩ := hone
    have hs1 := st.sinv hs
    have hcm := st.cur_mono hs
    obtain ⟨s2, e2, st2⟩ := ih s1 hs1 (by
        intro i hi
        rw [st.ins_eq, mem_addAccepted] at hi
        rcases hi with hi | hi
        · exact hlt i hi
        · have := List.mem_singleton.1 hi.1; subst this; exact hin _ (by simp)) (fun i hi => hin i (by simp [hi]))
      (fun i hi => hacc i (by simp [hi])) (by
        intro h0
        have h0' : s.cur = 0 := by omega
        obtain ⟨hm, hi, x, hx, hxl⟩ := hz h0'
        have hss := hcm.2 hm h0
        subst hss
        refine ⟨hm, hi, x, hx, fun i hi' => hxl i ?_⟩
        have : acc id = false := by
          by_contra ha
          have he := st.ins_eq (acc := acc)
          have hm : id ∈ addAccepted acc s1.ins [id] := by
            rw [mem_addAccepted]; exact Or.inr ⟨by simp, by simpa using ha⟩
          rw [← he, hi] at hm
          simp at hm
        simp [this, hi'])
    refine ⟨s2, ?_, .cons hs st st2⟩
    rw [List.foldlM_cons, e1]
    exact e2

theorem ProcSteps.zero {d : Nat → F32} {max : Nat} {acc : Nat → Bool} {s s' : PoolSt}
    {cands : List Nat} (h : ProcSteps d max acc s cands s') (hm : 1 ≤ max) (h0 : s'.cur = 0) :
    s' = s := by
  induction h with
  | nil => rfl
  | @cons s s1 s2 id ids hs h t ih =>
    have hcm := h.cur_mono hs
    have := ih h0
    subst this
    exact hcm.2 hm h0

theorem ProcSteps.sinv {d : Nat → F32} {max : Nat} {acc : Nat → Bool} {s s' : PoolSt}
    {cands : List Nat} (h : ProcSteps d max acc s cands s') (hs : SInv d max s) : SInv d max s' := by
  induction h with
  | nil => exact hs
  | cons _ h t ih => exact ih (h.sinv hs)

theorem ProcSteps.ins_eq {d : Nat → F32} {max : Nat} {acc : Nat → Bool} {s s' : PoolSt}
    {cands : List Nat} (h : ProcSteps d max acc s cands s') :
    s'.ins = addAccepted acc s.ins cands := by
  induction h with
  | nil => rfl
  | @cons s s1 s2 id ids _ h t ih =>
    rw [ih, h.ins_eq]; rfl

theorem ProcSteps.cmps {d : Nat → F32} {max : Nat} {acc : Nat → Bool} {s s' : PoolSt}
    {cands : List Nat} (h : ProcSteps d max acc s cands s') :
    s'.cmps + s.ins.length = s.cmps + s'.ins.length := by
  induction h with
  | nil => rfl
  | @cons s s1 s2 id ids _ h t ih =>
    cases h with
    | reject h => exact ih
    | skip => simp only [List.length_cons] at ih; omega
    | ins hacc hin _ r hr hpool hcur hins hcmps hbest hord =>
      rw [hins, hcmps, List.length_cons] at ih; omega

theorem ProcSteps.cur_mono {d : Nat → F32} {max : Nat} {acc : Nat → Bool} {s s' : PoolSt}
    {cands : List Nat} (h : ProcSteps d max acc s cands s') : s.cur ≤ s'.cur := by
  induction h with
  | nil => exact Nat.le_refl _
  | cons hs h t ih => exact Nat.le_trans (h.cur_mono hs).1 ih

theorem ProcSteps.kinv {d : Nat → F32} {max : Nat} {acc : Nat → Bool} {s s' : PoolSt}
    {cands : List Nat} (h : ProcSteps d max acc s cands s') (hk : KInv d max s)
    (hnum : ∀ i ∈ s.ins, (d i).IsNum) (hc : ∀ i ∈ cands, acc i = true → (d i).IsNum) :
    KInv d max s' := by
  induction h with
  | nil => exact hk
  | @cons s s1 s2 id ids hs h t ih =>
    have hk1 : KInv d max s1 := by
      by_cases ha : acc id = true
      · exact h.kinv hs hk hnum (hc id (by simp) ha)
      · cases h with
        | reject h => exact hk
        | skip hacc => exact absurd hacc ha
        | ins hacc => exact absurd hacc ha
    refine ih hk1 ?_ (fun i hi => hc i (by simp [hi]))
    intro i hi
    rw [h.ins_eq, mem_addAccepted] at hi
    rcases hi with hi | ⟨hi, ha⟩
    · exact hnum i hi
    · simp at hi; subst hi
      exact hc i (by simp) ha

theorem freshPool_sinv (d : Nat → F32) (max : Nat) : SInv d max (freshPool max) where
  len := by simp [freshPool]
  cur_le := Nat.zero_le _
  nodupIns := List.nodup_nil
  nodupIds := by simp [freshPool, PoolSt.live]
  subset := by simp [freshPool, PoolSt.live]
  truth := by simp [freshPool, PoolSt.live]

theorem freshPool_kinv (d : Nat → F32) (max : Nat) : KInv d max (freshPool max) := by
  unfold KInv
  simpa [freshPool, PoolSt.live] using Spec.KNearest.empty max d


/-- Resetting `best` changes nothing else. -/
theorem SInv.reset {d : Nat → F32} {max : Nat} {s : PoolSt} (h : SInv d max s) (b : Nat) :
    SInv d max { s with best := b } := ⟨h.len, h.cur_le, h.nodupIns, h.nodupIds, h.subset, h.truth⟩

theorem addAccepted_append (acc : Nat → Bool) (ins a b : List Nat) :
    addAccepted acc ins (a ++ b) = addAccepted acc (addAccepted acc ins a) b := by
  simp [addAccepted, List.foldl_append]

/-- Several batches into one pool. -/
theorem procBatches_spec {V : Type} (c : Ctx V) (q : V) (filters : List Label) (max : Nat)
    (d : Nat → F32) (hd : ∀ i v, c.data[i]? = some v → c.cmp q v = d i)
    (hmax : 1 ≤ max) (hfit : Spec.ListFits c.data.length max) (acc : Nat → Bool) :
    ∀ (batches : List (List Nat)) (s : PoolSt), SInv d max s → (∀ i ∈ s.ins, i < c.data.length) →
    (∀ id ∈ batches.flatten, id < c.data.length) →
    (∀ id ∈ batches.flatten, filterAccepts c filters id = .ok (acc id)) →
    (s.cur = 0 → s.ins = [] ∧
      ∃ x ∈ s.pool.head?, ∀ id, batches.flatten.find? acc = some id → (d id).lt x.dist = true) →
    ∃ s', batches.foldlM (procCands c q filters max) s = .ok s' ∧ SInv d max s' ∧
      s'.ins = addAccepted acc s.ins batches.flatten ∧
      s'.cmps + s.ins.length = s.cmps + s'.ins.length ∧
      (KInv d max s → (∀ i ∈ s.ins, (d i).IsNum) →
        (∀ i ∈ batches.flatten, acc i = true → (d i).IsNum) → KInv d max s') := by
  intro batches
  induction batches with
  | nil => intro s hs _ _ _ _; exact ⟨s, rfl, hs, rfl, rfl, fun h _ _ => h⟩
  | cons b bs ih =>
    intro s hs hlt hin hacc hz
    obtain ⟨s1, e1, st⟩ := foldl_procOne c q filters max d hd hfit acc b { s with best := max }
      (hs.reset max) hlt (fun i hi => hin i (by simp [hi])) (fun i hi => hacc i (by simp [hi])) (by
        intro h0
        obtain ⟨h1, x, hx, hl⟩ := hz h0
        refine ⟨hmax, h1, x, hx, fun i hi => hl i ?_⟩
        rw [List.flatten_cons, List.find?_append, hi]; rfl)
    have hs1 := st.sinv (hs.reset max)
    obtain ⟨s2, e2, hs2, hi2, hc2, hk2⟩ := ih s1 hs1 (by
        intro i hi
        rw [st.ins_eq, mem_addAccepted] at hi
        rcases hi with hi | hi
        · exact hlt i hi
        · exact hin _ (by simp [hi.1])) (fun i hi => hin i (by simp at hi ⊢; tauto))
      (fun i hi => hacc i (by simp at hi ⊢; tauto)) (by
        intro h0
        have hz' := st.zero hmax h0
        have h0' : s.cur = 0 := by rw [hz'] at h0; exact h0
        obtain ⟨h1, x, hx, hl⟩ := hz h0'
        rw [hz']
        refine ⟨h1, x, hx, fun i hi => hl i ?_⟩
        have hnone : b.find? acc = none := by
          rw [List.find?_eq_none]
          intro j hj ha
          have := st.ins_eq
          rw [hz'] at this
          have hm : j ∈ addAccepted acc s.ins b := by rw [mem_addAccepted]; exact Or.inr ⟨hj, ha⟩
          rw [show s.ins = addAccepted acc s.ins b from this] at h1
          rw [h1] at hm; simp at hm
        rw [List.flatten_cons, List.find?_append, hnone, hi]; rfl)
    refine ⟨s2, ?_, hs2, ?_, ?_, ?_⟩
    · rw [List.foldlM_cons]
      show (procCands c q filters max s b >>= _) = _
      unfold procCands
      rw [e1]; exact e2
    · rw [hi2, st.ins_eq, List.flatten_cons, addAccepted_append]
    · have := st.cmps
      simp only [] at this
      omega
    · intro hk hn hn2
      refine hk2 (st.kinv hk hn (fun i hi => hn2 i (by simp [hi]))) ?_
        (fun i hi => hn2 i (by simp at hi ⊢; tauto))
      intro i hi
      rw [st.ins_eq, mem_addAccepted] at hi
      rcases hi with hi | ⟨hi, ha⟩
      · exact hn i hi
      · exact hn2 i (by simp [hi]) ha

end Grann
