import Verif.Model.Recall
import Verif.Proofs.Centers
import Verif.Proofs.Ivf
import Verif.Proofs.MapM
import Mathlib.Data.Finset.Card
import Mathlib.Data.Finset.Dedup
import Mathlib.Algebra.BigOperators.Group.List.Basic
import Mathlib.Algebra.Order.BigOperators.Group.List
/-!
# C45: recall
-/

namespace Grann

/-- Entry `x` of a ground-truth row counts for recall at `k`: it is among the first `k`, or it is tied (with
everything in between) with number `k` in distance. -/
def Spec.Counted (row : List Nat) (dists : Option (List F32)) (k x : Nat) : Prop :=
  ∃ j, row[j]? = some x ∧ (j < k ∨ ∃ ds, dists = some ds ∧ ∀ j', k - 1 ≤ j' → j' ≤ j →
    ∃ a b, ds[j']? = some a ∧ ds[k - 1]? = some b ∧ a.le b = true ∧ b.le a = true)

/-- Row `i` of a matrix with rows of length `d`. -/
def Spec.row {α : Type} (m : List α) (d i : Nat) : List α := (m.drop (d * i)).take d

/-! ## Sets -/

theorem mem_setInsert (x : Nat) (s : List Nat) (y : Nat) : y ∈ setInsert x s ↔ y = x ∨ y ∈ s := by
  induction s with
  | nil => simp [setInsert]
  | cons z s ih =>
    unfold setInsert
    split
    · simp
    · split
      · rename_i h; subst h; simp
      · simp only [List.mem_cons, ih]; tauto

theorem setInsert_sorted (x : Nat) (s : List Nat) (h : s.Pairwise (· < ·)) : (setInsert x s).Pairwise (· < ·) := by
  induction s with
  | nil => simp [setInsert]
  | cons z s ih =>
    rw [List.pairwise_cons] at h
    unfold setInsert
    split
    · rename_i hx
      refine List.pairwise_cons.2 ⟨?_, List.pairwise_cons.2 h⟩
      intro y hy
      rcases List.mem_cons.1 hy with rfl | hy
      · exact hx
      · have := h.1 y hy; omega
    · split
      · exact List.pairwise_cons.2 h
      · refine List.pairwise_cons.2 ⟨?_, ih h.2⟩
        intro y hy
        rcases (mem_setInsert x s y).1 hy with rfl | hy
        · omega
        · exact h.1 y hy

theorem setOf_spec (l : List Nat) : (setOf l).Pairwise (· < ·) ∧ ∀ x, x ∈ setOf l ↔ x ∈ l := by
  suffices ∀ (l s : List Nat), s.Pairwise (· < ·) →
      (l.foldl (fun s x => setInsert x s) s).Pairwise (· < ·) ∧
        ∀ x, x ∈ l.foldl (fun s x => setInsert x s) s ↔ x ∈ s ∨ x ∈ l by
    obtain ⟨h1, h2⟩ := this l [] List.Pairwise.nil
    exact ⟨h1, fun x => by rw [setOf, h2]; simp⟩
  intro l
  induction l with
  | nil => intro s hs; exact ⟨hs, by simp⟩
  | cons y l ih =>
    intro s hs
    obtain ⟨h1, h2⟩ := ih (setInsert y s) (setInsert_sorted y s hs)
    refine ⟨h1, fun x => ?_⟩
    rw [List.foldl_cons, h2, mem_setInsert, List.mem_cons]; tauto

theorem setOf_nodup (l : List Nat) : (setOf l).Nodup :=
  (setOf_spec l).1.imp (fun h => Nat.ne_of_lt h)

theorem setOf_toFinset (l : List Nat) : (setOf l).toFinset = l.toFinset := by
  ext x; simp [(setOf_spec l).2]

/-- The count is the size of the intersection. -/
theorem hits_setOf (g r : List Nat) : hits (setOf g) (setOf r) = (g.toFinset ∩ r.toFinset).card := by
  unfold hits
  rw [List.countP_eq_length_filter, ← List.toFinset_card_of_nodup ((setOf_nodup g).filter _)]
  congr 1
  ext x
  simp [(setOf_spec g).2, (setOf_spec r).2]

theorem hits_le (g r : List Nat) (k : Nat) (hr : r.length = k) :
    hits (setOf g) (setOf r) ≤ k ∧ (hits (setOf g) (setOf r) = k ↔ r.Nodup ∧ ∀ x ∈ r, x ∈ g) := by
  rw [hits_setOf]
  have h1 : (g.toFinset ∩ r.toFinset).card ≤ r.toFinset.card := Finset.card_le_card Finset.inter_subset_right
  have h2 : r.toFinset.card ≤ r.length := List.toFinset_card_le r
  refine ⟨by omega, ?_, ?_⟩
  · intro h
    have h3 : r.toFinset.card = r.length := by omega
    refine ⟨?_, ?_⟩
    · rw [List.card_toFinset] at h3
      have := List.dedup_sublist r
      exact List.dedup_eq_self.1 (this.eq_of_length h3)
    · have h4 : g.toFinset ∩ r.toFinset = r.toFinset :=
        Finset.eq_of_subset_of_card_le Finset.inter_subset_right (by omega)
      intro x hx
      have : x ∈ g.toFinset ∩ r.toFinset := by rw [h4]; simpa using hx
      simpa using (Finset.mem_inter.1 this).1
  · rintro ⟨hn, hs⟩
    have h4 : g.toFinset ∩ r.toFinset = r.toFinset := by
      apply Finset.inter_eq_right.2
      intro x hx
      simpa using hs x (by simpa using hx)
    rw [h4, List.toFinset_card_of_nodup hn, hr]

/-! ## Ties -/

theorem tieLoop_spec (d : List F32) (base dimGs last : Nat) (hd : base + dimGs ≤ d.length)
    (hlast : last < dimGs) :
    ∀ (fuel t : Nat), t ≤ dimGs → dimGs - t < fuel → ∃ T, tieLoop d base dimGs last fuel t = .ok T ∧
      t ≤ T ∧ T ≤ dimGs ∧
      (∀ j, t ≤ j → j < T → ∃ a b, d[base + j]? = some a ∧ d[base + last]? = some b ∧ a.ceq b = true) ∧
      (T < dimGs → ∃ a b, d[base + T]? = some a ∧ d[base + last]? = some b ∧ a.ceq b = false) := by
  intro fuel
  induction fuel with
  | zero => intro t _ h; omega
  | succ fuel ih =>
    intro t ht hf
    unfold tieLoop
    by_cases htd : t < dimGs
    · have h1 : base + t < d.length := by omega
      have h2 : base + last < d.length := by omega
      rw [if_pos htd, rd_ok h1, Res.ok_bind, rd_ok h2, Res.ok_bind]
      by_cases hc : (d[base + t]).ceq (d[base + last]) = true
      · rw [if_pos hc]
        obtain ⟨T, e, a1, a2, a3, a4⟩ := ih (t + 1) (by omega) (by omega)
        refine ⟨T, e, by omega, a2, ?_, a4⟩
        intro j hj hjT
        by_cases hjt : j = t
        · subst hjt
          exact ⟨_, _, List.getElem?_eq_getElem h1, List.getElem?_eq_getElem h2, hc⟩
        · exact a3 j (by omega) hjT
      · rw [if_neg hc]
        refine ⟨t, rfl, Nat.le_refl _, ht, fun j h1 h2 => by omega, fun _ => ?_⟩
        exact ⟨_, _, List.getElem?_eq_getElem h1, List.getElem?_eq_getElem h2, by simpa using hc⟩
    · rw [if_neg htd]
      exact ⟨t, rfl, Nat.le_refl _, ht, fun j h1 h2 => by omega, fun h => absurd h htd⟩

theorem row_get {α : Type} (m : List α) (d i j : Nat) (hj : j < d) : (Spec.row m d i)[j]? = m[d * i + j]? := by
  unfold Spec.row
  rw [List.getElem?_take_of_lt hj, List.getElem?_drop]

/-- Well-formed input of `calculate_recall`: matrices with `nq` rows, `1 ≤ recall_at` not above their
widths, and no NaN where ties are looked for. -/
structure RecallInput (nq : Nat) (gold : List Nat) (dists : Option (List F32)) (dimGs : Nat)
    (ours : List Nat) (dimOr k : Nat) : Prop where
  gold : gold.length = dimGs * nq
  ours : ours.length = dimOr * nq
  dists : ∀ d, dists = some d → d.length = dimGs * nq ∧
    ∀ i, i < nq → ∃ x, (Spec.row d dimGs i)[k - 1]? = some x ∧ x.IsNum
  pos : 1 ≤ k
  gs : k ≤ dimGs
  or : k ≤ dimOr
  lt : dimGs < 4294967296

theorem row_le {d nq i : Nat} (hi : i < nq) : d * i + d ≤ d * nq := by
  have : d * (i + 1) ≤ d * nq := Nat.mul_le_mul_left _ hi
  rw [Nat.mul_add, Nat.mul_one] at this; exact this

theorem F32.ceq_self {x : F32} (h : x.IsNum) : x.ceq x = true := by
  unfold F32.IsNum at h
  unfold F32.ceq F32.le
  cases hx : x.key with
  | none => exact absurd hx h
  | some v => simp

open Classical in
/-- The entries of ground-truth row `i` that count for recall at `k`. -/
noncomputable def Spec.countedSet (gold : List Nat) (dists : Option (List F32)) (dimGs k i : Nat) : Finset Nat :=
  (Spec.row gold dimGs i).toFinset.filter
    (fun x => Spec.Counted (Spec.row gold dimGs i) (dists.map (fun d => Spec.row d dimGs i)) k x)

open Classical in
theorem mem_countedSet {gold : List Nat} {dists : Option (List F32)} {dimGs k i x : Nat} :
    x ∈ Spec.countedSet gold dists dimGs k i ↔
      Spec.Counted (Spec.row gold dimGs i) (dists.map (fun d => Spec.row d dimGs i)) k x := by
  unfold Spec.countedSet
  rw [Finset.mem_filter, List.mem_toFinset]
  constructor
  · exact fun h => h.2
  · intro h
    refine ⟨?_, h⟩
    obtain ⟨j, hj, _⟩ := h
    exact List.mem_of_getElem? hj

theorem recallRow_ok {nq : Nat} {gold : List Nat} {dists : Option (List F32)} {dimGs : Nat}
    {ours : List Nat} {dimOr k : Nat} (h : RecallInput nq gold dists dimGs ours dimOr k) {i : Nat} (hi : i < nq) :
    ∃ c, recallRow gold dists dimGs ours dimOr k i = .ok c ∧ c ≤ k ∧
      (c = k ↔ ((Spec.row ours dimOr i).take k).Nodup ∧
        ∀ x ∈ (Spec.row ours dimOr i).take k,
          Spec.Counted (Spec.row gold dimGs i) (dists.map (fun d => Spec.row d dimGs i)) k x) ∧
      c = (Spec.countedSet gold dists dimGs k i ∩ ((Spec.row ours dimOr i).take k).toFinset).card := by
  have hgl := row_le (d := dimGs) hi
  have hol := row_le (d := dimOr) hi
  have hpos := h.pos
  have hgs := h.gs
  have hor := h.or
  have hlt := h.lt
  have hg := h.gold
  have ho := h.ours
  obtain ⟨T, hT, hTd, hmem⟩ : ∃ T, tieBreaker dists (dimGs * i) dimGs k = .ok T ∧ T ≤ dimGs ∧
      ∀ x, x ∈ (gold.drop (dimGs * i)).take T ↔
        Spec.Counted (Spec.row gold dimGs i) (dists.map (fun d => Spec.row d dimGs i)) k x := by
    have mem_take : ∀ T, T ≤ dimGs → ∀ x, x ∈ (gold.drop (dimGs * i)).take T ↔
        ∃ j, j < T ∧ (Spec.row gold dimGs i)[j]? = some x := by
      intro T hT x
      rw [List.mem_iff_getElem?]
      constructor
      · rintro ⟨j, hj⟩
        have hjT : j < T := by
          by_contra hc
          rw [List.getElem?_take_eq_none (by omega)] at hj; cases hj
        refine ⟨j, hjT, ?_⟩
        rw [row_get _ _ _ _ (by omega)]
        rw [List.getElem?_take_of_lt hjT, List.getElem?_drop] at hj
        exact hj
      · rintro ⟨j, hjT, hj⟩
        refine ⟨j, ?_⟩
        rw [row_get _ _ _ _ (by omega)] at hj
        rw [List.getElem?_take_of_lt hjT, List.getElem?_drop]; exact hj
    cases hd : dists with
    | none =>
      refine ⟨k, rfl, hgs, fun x => ?_⟩
      rw [mem_take k hgs]
      unfold Spec.Counted
      constructor
      · rintro ⟨j, h1, h2⟩; exact ⟨j, h2, Or.inl h1⟩
      · rintro ⟨j, h1, h2 | ⟨ds, h2, -⟩⟩
        · exact ⟨j, h2, h1⟩
        · cases h2
    | some d =>
      obtain ⟨hdl, hnum⟩ := h.dists d hd
      have hlast : u32 (k + 4294967295) = k - 1 := by unfold u32; omega
      obtain ⟨T, e, a1, a2, a3, a4⟩ := tieLoop_spec d (dimGs * i) dimGs (k - 1) (by omega) (by omega)
        (dimGs + 1) (k - 1) (by omega) (by omega)
      obtain ⟨z, hz, hzn⟩ := hnum i hi
      rw [row_get _ _ _ _ (by omega)] at hz
      have hTk : k ≤ T := by
        by_contra hc
        have : T = k - 1 := by omega
        subst this
        obtain ⟨a, b, ha, hb, hab⟩ := a4 (by omega)
        rw [ha] at hb hz
        cases hb
        cases hz
        rw [F32.ceq_self hzn] at hab; cases hab
      refine ⟨T, by unfold tieBreaker; dsimp only; rw [hlast]; exact e, a2, fun x => ?_⟩
      rw [mem_take T a2]
      unfold Spec.Counted
      constructor
      · rintro ⟨j, h1, h2⟩
        refine ⟨j, h2, ?_⟩
        by_cases hjk : j < k
        · exact Or.inl hjk
        · right
          refine ⟨_, rfl, ?_⟩
          intro j' hj1 hj2
          obtain ⟨a, b, ha, hb, hab⟩ := a3 j' hj1 (by omega)
          refine ⟨a, b, ?_, ?_, ?_⟩
          · rw [row_get _ _ _ _ (by omega)]; exact ha
          · rw [row_get _ _ _ _ (by omega)]; exact hb
          · unfold F32.ceq at hab; simpa using hab
      · rintro ⟨j, h1, h2⟩
        refine ⟨j, ?_, h1⟩
        rcases h2 with h2 | ⟨ds, hds, h2⟩
        · omega
        · by_contra hc
          have hjd : j < dimGs := by
            by_contra hcd
            have : (Spec.row gold dimGs i)[j]? = none := by
              unfold Spec.row; apply List.getElem?_take_eq_none; omega
            rw [this] at h1; cases h1
          obtain ⟨a, b, ha, hb, hab⟩ := a4 (by omega)
          simp only [Option.map_some, Option.some.injEq] at hds
          subst hds
          obtain ⟨a', b', ha', hb', hab'⟩ := h2 T (by omega) (by omega)
          rw [row_get _ _ _ _ (by omega), ha] at ha'
          rw [row_get _ _ _ _ (by omega), hb] at hb'
          cases ha'; cases hb'
          unfold F32.ceq at hab
          rw [hab'.1, hab'.2] at hab; cases hab
  have hres : (Spec.row ours dimOr i).take k = (ours.drop (dimOr * i)).take k := by
    unfold Spec.row; rw [List.take_take, Nat.min_eq_left hor]
  have hrl : ((ours.drop (dimOr * i)).take k).length = k := by
    rw [List.length_take, List.length_drop]; omega
  have := hits_le ((gold.drop (dimGs * i)).take T) ((ours.drop (dimOr * i)).take k) k hrl
  refine ⟨_, ?_, this.1, ?_, ?_⟩
  · unfold recallRow
    rw [hT, Res.ok_bind, rdList_ok _ _ _ (by omega), Res.ok_bind, rdList_ok _ _ _ (by omega), Res.ok_bind]
  · rw [this.2, hres]
    constructor
    · rintro ⟨h1, h2⟩; exact ⟨h1, fun x hx => (hmem x).1 (h2 x hx)⟩
    · rintro ⟨h1, h2⟩; exact ⟨h1, fun x hx => (hmem x).2 (h2 x hx)⟩
  · rw [hits_setOf, hres]
    congr 2
    ext x
    rw [List.mem_toFinset, hmem, mem_countedSet]

theorem sum_le_mul (l : List Nat) (k : Nat) (h : ∀ x ∈ l, x ≤ k) :
    l.sum ≤ l.length * k ∧ (l.sum = l.length * k ↔ ∀ x ∈ l, x = k) := by
  induction l with
  | nil => simp
  | cons x l ih =>
    obtain ⟨h1, h2⟩ := ih (fun y hy => h y (by simp [hy]))
    have hx := h x (by simp)
    rw [List.sum_cons, List.length_cons, Nat.add_mul, Nat.one_mul]
    refine ⟨by omega, ?_, ?_⟩
    · intro he
      have : l.sum = l.length * k := by omega
      have hxk : x = k := by omega
      intro y hy
      rcases List.mem_cons.1 hy with rfl | hy
      · exact hxk
      · exact h2.1 this y hy
    · intro he
      have := h2.2 (fun y hy => he y (by simp [hy]))
      have := he x (by simp)
      omega

/-- **C45, exact part.** The number of hits is at most `recall_at` per query, so that the recall (hits per
query and position, times 100) lies between 0 and 100, and it is 100 exactly if for every query the first
`recall_at` answers are distinct and count as true neighbours. -/
theorem C45_hits_partial (nq : Nat) (gold : List Nat) (dists : Option (List F32)) (dimGs : Nat)
    (ours : List Nat) (dimOr k : Nat) (h : RecallInput nq gold dists dimGs ours dimOr k) :
    ∃ t, recallTotal nq gold dists dimGs ours dimOr k = .ok t ∧ t ≤ nq * k ∧
      (t = nq * k ↔ ∀ i, i < nq → ((Spec.row ours dimOr i).take k).Nodup ∧
        ∀ x ∈ (Spec.row ours dimOr i).take k,
          Spec.Counted (Spec.row gold dimGs i) (dists.map (fun d => Spec.row d dimGs i)) k x) := by
  obtain ⟨rows, hrows, hF⟩ := mapM_ok_of_forall (f := recallRow gold dists dimGs ours dimOr k)
    (R := fun i c => c ≤ k ∧ (c = k ↔ ((Spec.row ours dimOr i).take k).Nodup ∧
        ∀ x ∈ (Spec.row ours dimOr i).take k,
          Spec.Counted (Spec.row gold dimGs i) (dists.map (fun d => Spec.row d dimGs i)) k x))
    (List.range nq) (fun i hi => by
      obtain ⟨c, h1, h2, h3, -⟩ := recallRow_ok h (List.mem_range.1 hi)
      exact ⟨c, h1, h2, h3⟩)
  have hlen : rows.length = nq := by rw [← hF.length_eq]; simp
  have hget : ∀ i (hi : i < nq), rows[i]'(by omega) ≤ k ∧ (rows[i]'(by omega) = k ↔
      ((Spec.row ours dimOr i).take k).Nodup ∧ ∀ x ∈ (Spec.row ours dimOr i).take k,
        Spec.Counted (Spec.row gold dimGs i) (dists.map (fun d => Spec.row d dimGs i)) k x) := by
    intro i hi
    have := (List.forall₂_iff_get.mp hF).2 i (by simpa using hi) (by omega)
    simpa using this
  have hsum := sum_le_mul rows k (by
    intro x hx
    obtain ⟨i, hi, rfl⟩ := List.getElem_of_mem hx
    exact (hget i (by omega)).1)
  rw [hlen] at hsum
  refine ⟨rows.sum, by unfold recallTotal; rw [hrows, Res.ok_bind], hsum.1, hsum.2.trans ?_⟩
  constructor
  · intro ha i hi
    exact (hget i hi).2.1 (ha _ (List.getElem_mem _))
  · intro ha x hx
    obtain ⟨i, hi, rfl⟩ := List.getElem_of_mem hx
    exact (hget i (by omega)).2.2 (ha i (by omega))

/-- **C45, exact part.** The number of hits is the number of different answers that count as true neighbours, summed
over the queries. -/
theorem C45_count_partial (nq : Nat) (gold : List Nat) (dists : Option (List F32)) (dimGs : Nat)
    (ours : List Nat) (dimOr k : Nat) (h : RecallInput nq gold dists dimGs ours dimOr k) :
    recallTotal nq gold dists dimGs ours dimOr k = .ok ((List.range nq).map (fun i =>
      (Spec.countedSet gold dists dimGs k i ∩ ((Spec.row ours dimOr i).take k).toFinset).card)).sum := by
  unfold recallTotal
  rw [mapM_eq_map (recallRow gold dists dimGs ours dimOr k) (fun i =>
      (Spec.countedSet gold dists dimGs k i ∩ ((Spec.row ours dimOr i).take k).toFinset).card) (List.range nq) (fun i hi => by
    obtain ⟨c, h1, -, -, h3⟩ := recallRow_ok h (List.mem_range.1 hi)
    rw [h1, h3]), Res.ok_bind]

/-! ## The returned number -/

theorem fval_mul (a b : Nat × Nat) : fval (a.1 * b.1, a.2 * b.2) = fval a * fval b := by
  unfold fval; push_cast; rw [mul_div_mul_comm]

/-- **C45, returned value.** The number returned differs from the recall by at most 4 parts in 2^53; in
particular it is not negative and at most 100 + 2^-44. -/
theorem C45_value_partial (nq : Nat) (gold : List Nat) (dists : Option (List F32)) (dimGs : Nat)
    (ours : List Nat) (dimOr k : Nat) (h : RecallInput nq gold dists dimGs ours dimOr k) (hnq : 0 < nq) :
    ∃ t v, recallTotal nq gold dists dimGs ours dimOr k = .ok t ∧
      calculateRecall nq gold dists dimGs ours dimOr k = .ok v ∧
      |fval v - 100 * t / (nq * k)| ≤ 100 * t / (nq * k) * (4 / 2 ^ 53) ∧
      0 ≤ fval v ∧ fval v ≤ 100 + 1 / 2 ^ 44 := by
  obtain ⟨t, ht, hle, -⟩ := C45_hits_partial nq gold dists dimGs ours dimOr k h
  have hk := h.pos
  have hnq' : (0 : ℚ) < nq := by exact_mod_cast hnq
  have hk' : (0 : ℚ) < k := by exact_mod_cast hk
  refine ⟨t, recallValue t nq k, ht, by unfold calculateRecall; rw [ht, Res.ok_bind], ?_⟩
  have key : |fval (recallValue t nq k) - 100 * t / (nq * k)| ≤ 100 * t / (nq * k) * (4 / 2 ^ 53) := by
    unfold recallValue dmul
    obtain ⟨a, ha⟩ : ∃ a, a = ddiv (t, 1) (nq, 1) := ⟨_, rfl⟩
    obtain ⟨b, hb⟩ : ∃ b, b = ddiv (100, 1) (k, 1) := ⟨_, rfl⟩
    rw [← ha, ← hb]
    have ea : |fval a - t / nq| ≤ t / nq * (1 / 2) ^ 53 := by
      have := roundBin_err 53 (by norm_num) (t * 1, 1 * nq) (by simpa using hnq)
      rw [ha]; unfold ddiv
      have e : fval (t * 1, 1 * nq) = (t : ℚ) / nq := by unfold fval; simp
      rw [e] at this; exact this
    have eb : |fval b - 100 / k| ≤ 100 / k * (1 / 2) ^ 53 := by
      have := roundBin_err 53 (by norm_num) (100 * 1, 1 * k) (by show 0 < 1 * k; omega)
      rw [hb]; unfold ddiv
      have e : fval (100 * 1, 1 * k) = (100 : ℚ) / k := by unfold fval; simp
      rw [e] at this; exact this
    have hden : 0 < a.2 * b.2 := by
      rw [ha, hb]; exact Nat.mul_pos (roundBin_den_pos _ _) (roundBin_den_pos _ _)
    have ec := roundBin_err 53 (by norm_num) (a.1 * b.1, a.2 * b.2) hden
    rw [fval_mul] at ec
    generalize fval (roundBin 53 (a.1 * b.1, a.2 * b.2)) = v at *
    have h0 : (100 : ℚ) * t / (nq * k) = t / nq * (100 / k) := by field_simp
    rw [h0]
    have hx0 : (0 : ℚ) ≤ t / nq := by positivity
    have hy0 : (0 : ℚ) ≤ 100 / k := by positivity
    generalize (t : ℚ) / nq = x at *
    generalize (100 : ℚ) / k = y at *
    generalize fval a = p at *
    generalize fval b = q at *
    rw [abs_le] at *
    obtain ⟨a1, a2⟩ := ea
    obtain ⟨b1, b2⟩ := eb
    obtain ⟨c1, c2⟩ := ec
    have hp : 0 ≤ p := by nlinarith
    have hq : 0 ≤ q := by nlinarith
    have u1 : p ≤ x * (1 + (1 / 2) ^ 53) := by linarith
    have u2 : q ≤ y * (1 + (1 / 2) ^ 53) := by linarith
    have l1 : x * (1 - (1 / 2) ^ 53) ≤ p := by linarith
    have l2 : y * (1 - (1 / 2) ^ 53) ≤ q := by linarith
    have upq : p * q ≤ x * (1 + (1 / 2) ^ 53) * (y * (1 + (1 / 2) ^ 53)) := mul_le_mul u1 u2 hq (by positivity)
    have lpq : x * (1 - (1 / 2) ^ 53) * (y * (1 - (1 / 2) ^ 53)) ≤ p * q :=
      mul_le_mul l1 l2 (mul_nonneg hy0 (by norm_num)) hp
    have hxy : 0 ≤ x * y := mul_nonneg hx0 hy0
    constructor
    · have : p * q * (1 - (1 / 2) ^ 53) ≤ v := by linarith
      have h2 : x * (1 - (1 / 2) ^ 53) * (y * (1 - (1 / 2) ^ 53)) * (1 - (1 / 2) ^ 53) ≤ v :=
        le_trans (mul_le_mul_of_nonneg_right lpq (by norm_num)) this
      have h3 : x * (1 - (1 / 2 : ℚ) ^ 53) * (y * (1 - (1 / 2) ^ 53)) * (1 - (1 / 2) ^ 53) =
          x * y * (1 - (1 / 2) ^ 53) ^ 3 := by ring
      rw [h3] at h2
      have h4 : x * y * (1 - 4 / 2 ^ 53) ≤ x * y * (1 - (1 / 2) ^ 53) ^ 3 :=
        mul_le_mul_of_nonneg_left (by norm_num) hxy
      linarith
    · have : v ≤ p * q * (1 + (1 / 2) ^ 53) := by linarith
      have h2 : v ≤ x * (1 + (1 / 2) ^ 53) * (y * (1 + (1 / 2) ^ 53)) * (1 + (1 / 2) ^ 53) :=
        le_trans this (mul_le_mul_of_nonneg_right upq (by norm_num))
      have h3 : x * (1 + (1 / 2 : ℚ) ^ 53) * (y * (1 + (1 / 2) ^ 53)) * (1 + (1 / 2) ^ 53) =
          x * y * (1 + (1 / 2) ^ 53) ^ 3 := by ring
      rw [h3] at h2
      have h4 : x * y * (1 + (1 / 2) ^ 53) ^ 3 ≤ x * y * (1 + 4 / 2 ^ 53) :=
        mul_le_mul_of_nonneg_left (by norm_num) hxy
      linarith
  refine ⟨key, fval_nonneg _, ?_⟩
  have h100 : (100 : ℚ) * t / (nq * k) ≤ 100 := by
    rw [div_le_iff₀ (by positivity)]
    have : (t : ℚ) ≤ nq * k := by exact_mod_cast hle
    linarith
  rw [abs_le] at key
  have : (100 : ℚ) * t / (nq * k) * (4 / 2 ^ 53) ≤ 100 * (4 / 2 ^ 53) := by gcongr
  have h2 : (100 : ℚ) * (4 / 2 ^ 53) ≤ 1 / 2 ^ 44 := by norm_num
  linarith [key.2]

/-- **C45 is false for the returned `double`.** With one query and eleven answers that are the eleven true
neighbours, more than 100 is returned; with 97 it is less than 100. -/
theorem C45_not_100 :
    (∃ v, calculateRecall 1 (List.range 11) none 11 (List.range 11) 11 11 = .ok v ∧ 100 < fval v) ∧
    (∃ v, calculateRecall 1 (List.range 97) none 97 (List.range 97) 97 97 = .ok v ∧ fval v < 100) := by
  exact ⟨⟨(7036874417766401, 70368744177664), by decide +kernel, by unfold fval; norm_num⟩,
    ⟨(7036874417766399, 70368744177664), by decide +kernel, by unfold fval; norm_num⟩⟩

/-- Two queries, three true neighbours each with distances 0, 1, 1, recall at 2: the tied third neighbour
counts. -/
def exDists : List F32 := [F32.zero, F32.one, F32.one, F32.zero, F32.one, F32.one]

theorem exRecall_input : RecallInput 2 [5, 6, 7, 1, 2, 3] (some exDists) 3 [7, 5, 1, 9] 2 2 := by
  refine ⟨rfl, rfl, ?_, by decide, by decide, by decide, by decide⟩
  intro d hd
  simp only [Option.some.injEq] at hd
  subst hd
  refine ⟨rfl, ?_⟩
  intro i hi
  refine ⟨F32.one, ?_, by decide⟩
  have : i = 0 ∨ i = 1 := by omega
  rcases this with rfl | rfl <;> decide

example : recallTotal 2 [5, 6, 7, 1, 2, 3] (some exDists) 3 [7, 5, 1, 9] 2 2 = .ok 3 := by decide

example : ∃ t, recallTotal 2 [5, 6, 7, 1, 2, 3] (some exDists) 3 [7, 5, 1, 9] 2 2 = .ok t ∧ t ≤ 2 * 2 := by
  obtain ⟨t, h1, h2, -⟩ := C45_hits_partial _ _ _ _ _ _ _ exRecall_input
  exact ⟨t, h1, h2⟩

/-- `recall_at = 0` with distances reads 4294967295 entries of the first row. -/
theorem C45_recall_at_zero (nq : Nat) (hnq : 0 < nq) (gold : List Nat) (d : List F32) (dimGs : Nat)
    (hg : gold.length < 4294967295) (hd : dimGs < 4294967296) (ours : List Nat) (dimOr : Nat) :
    calculateRecall nq gold (some d) dimGs ours dimOr 0 = .error .ub := by
  obtain ⟨N, hT, hN⟩ : ∃ N, tieBreaker (some d) (dimGs * 0) dimGs 0 = .ok N ∧ gold.length < N := by
    obtain ⟨N, hN⟩ : ∃ N, N = u32 (0 + 4294967295) := ⟨_, rfl⟩
    have hN' : N = 4294967295 := by rw [hN]; unfold u32; omega
    refine ⟨N, ?_, by omega⟩
    unfold tieBreaker
    dsimp only
    rw [← hN, tieLoop, if_neg (by omega)]
  have hub : ∀ (cnt off : Nat), gold.length < off + cnt → off ≤ gold.length → rdList gold off cnt = .error .ub := by
    intro cnt
    induction cnt with
    | zero => intro off h1 h2; omega
    | succ cnt ih =>
      intro off h1 h2
      unfold rdList
      by_cases h : off < gold.length
      · rw [rd_ok h, Res.ok_bind, ih (off + 1) (by omega) (by omega)]; rfl
      · rw [rd_ub (by omega)]; rfl
  have hrow : recallRow gold (some d) dimGs ours dimOr 0 0 = .error .ub := by
    unfold recallRow
    rw [hT, Res.ok_bind, hub _ _ (by omega) (by omega)]; rfl
  obtain ⟨m, rfl⟩ : ∃ m, nq = m + 1 := ⟨nq - 1, by omega⟩
  unfold calculateRecall recallTotal
  rw [List.range_succ_eq_map, List.mapM_cons, hrow]
  rfl

/-! ## C64: range search -/

theorem rangeRow_bound (g r : List Nat) (hg : g.length < 4294967296) :
    0 < (rangeRow g r).2 ∧ fval (rangeRow g r) ≤ 100 := by
  unfold rangeRow
  dsimp only
  split
  · rename_i h0
    have hc : hits (setOf g) (setOf r) ≤ (setOf g).length := by
      unfold hits; exact List.countP_le_length
    have hsl : (setOf g).length ≤ g.length := by
      rw [← List.toFinset_card_of_nodup (setOf_nodup g), setOf_toFinset]; exact List.toFinset_card_le g
    refine ⟨roundBin_den_pos _ _, ?_⟩
    generalize hits (setOf g) (setOf r) = c at *
    generalize (setOf g).length = m at *
    have h100 : fval (roundBin 53 (100 * c, 1)) ≤ (100 * c : Nat) :=
      roundBin_le 53 _ one_pos _ (by
        have : (2 : Nat) ^ 53 = 9007199254740992 := by norm_num
        omega) (by simp [fval])
    have hden := roundBin_den_pos 53 (100 * c, 1)
    unfold ddiv
    apply roundBin_le 53 _ _ 100 (by norm_num)
    · generalize roundBin 53 (100 * c, 1) = p at *
      have hmq : (0 : ℚ) < m := by exact_mod_cast (by omega : 0 < m)
      have e : fval (p.1 * 1, p.2 * m) = fval p / m := by
        unfold fval; push_cast; rw [mul_one, div_div]
      rw [e, div_le_iff₀ hmq]
      have : ((100 * c : Nat) : ℚ) ≤ 100 * m := by push_cast; exact_mod_cast (by omega : 100 * c ≤ 100 * m)
      push_cast at *
      linarith
    · exact Nat.mul_pos hden (by omega)
  · exact ⟨one_pos, by simp [fval]⟩

/-- **C64.** The range search recall is between 0 and 100, including all rounding. -/
theorem C64_range_recall (nq : Nat) (hnq : 0 < nq) (hn : nq < 4294967296) (gt res : List (List Nat))
    (hg : nq ≤ gt.length) (hr : nq ≤ res.length) (hlen : ∀ g ∈ gt, g.length < 4294967296) :
    ∃ v, rangeRecall nq gt res = .ok v ∧ 0 ≤ fval v ∧ fval v ≤ 100 := by
  have hrow := rangeRow_bound
  obtain ⟨rows, hrows, hF⟩ := mapM_ok_of_forall (f := fun i => do
      let g ← rd gt i
      let r ← rd res i
      (.ok (rangeRow g r) : Res (Nat × Nat)))
    (R := fun _ v => 0 < v.2 ∧ fval v ≤ 100) (List.range nq) (fun i hi => by
      have hi' := List.mem_range.1 hi
      exact ⟨_, by rw [rd_ok (by omega), Res.ok_bind, rd_ok (by omega), Res.ok_bind],
        hrow _ _ (hlen _ (List.getElem_mem _))⟩)
  have hl : rows.length = nq := by rw [← hF.length_eq]; simp
  have hall : ∀ v ∈ rows, 0 < v.2 ∧ fval v ≤ 100 := by
    intro v hv
    obtain ⟨i, hi, rfl⟩ := List.getElem_of_mem hv
    exact (List.forall₂_iff_get.mp hF).2 i (by simpa [hl] using hi) hi
  have hsum : ∀ (l : List (Nat × Nat)) (s : Nat × Nat) (m : Nat), (∀ v ∈ l, 0 < v.2 ∧ fval v ≤ 100) → 0 < s.2 →
      fval s ≤ (100 * m : Nat) → m + l.length < 4294967296 → 0 < (l.foldl dadd s).2 ∧
        fval (l.foldl dadd s) ≤ (100 * (m + l.length) : Nat) := by
    intro l
    induction l with
    | nil => intro s m _ h2 h3 _; exact ⟨h2, h3⟩
    | cons v l ih =>
      intro s m h1 h2 h3 h4
      rw [List.foldl_cons]
      obtain ⟨hv2, hv⟩ := h1 v (by simp)
      simp only [List.length_cons] at h4 ⊢
      have := ih (dadd s v) (m + 1) (fun x hx => h1 x (by simp [hx])) (roundBin_den_pos _ _) (by
        unfold dadd
        apply roundBin_le 53 _ (Nat.mul_pos h2 hv2) _ (by
          have : (2 : Nat) ^ 53 = 9007199254740992 := by norm_num
          omega)
        have e : fval (s.1 * v.2 + v.1 * s.2, s.2 * v.2) = fval s + fval v := by
          have a1 : (s.2 : ℚ) ≠ 0 := by exact_mod_cast (by omega : s.2 ≠ 0)
          have a2 : (v.2 : ℚ) ≠ 0 := by exact_mod_cast (by omega : v.2 ≠ 0)
          unfold fval; push_cast; field_simp
        rw [e]
        push_cast at *
        linarith) (by omega)
      rw [show m + (l.length + 1) = m + 1 + l.length by omega]
      exact this
  obtain ⟨hd, hs⟩ := hsum rows (0, 1) 0 hall one_pos (by simp [fval]) (by omega)
  refine ⟨_, by unfold rangeRecall; rw [hrows, Res.ok_bind], fval_nonneg _, ?_⟩
  unfold ddiv
  apply roundBin_le 53 _ (Nat.mul_pos hd hnq) 100 (by norm_num)
  rw [Nat.zero_add, hl] at hs
  generalize rows.foldl dadd (0, 1) = p at *
  have hmq : (0 : ℚ) < nq := by exact_mod_cast hnq
  have e : fval (p.1 * 1, p.2 * nq) = fval p / nq := by
    unfold fval; push_cast; rw [mul_one, div_div]
  rw [e, div_le_iff₀ hmq]
  push_cast at *
  linarith

example : ∃ v, rangeRecall 2 [[1, 2, 3], []] [[3, 1, 1], [4]] = .ok v ∧ 0 ≤ fval v ∧ fval v ≤ 100 :=
  C64_range_recall 2 (by decide) (by decide) _ _ (by decide) (by decide) (by decide)

/-- The percentage of the true answers found for one query; 100 if there are none. -/
def Spec.rangeFound (g r : List Nat) : ℚ :=
  if g = [] then 100 else 100 * (g.toFinset ∩ r.toFinset).card / g.toFinset.card

theorem rangeFound_bounds (g r : List Nat) : 0 ≤ Spec.rangeFound g r ∧ Spec.rangeFound g r ≤ 100 := by
  unfold Spec.rangeFound
  split
  · norm_num
  · rename_i h
    have hc : 0 < g.toFinset.card := Finset.card_pos.mpr (by
      obtain ⟨x, hx⟩ := List.exists_mem_of_ne_nil g h
      exact ⟨x, List.mem_toFinset.mpr hx⟩)
    have hq : (0 : ℚ) < g.toFinset.card := by exact_mod_cast hc
    have hle : ((g.toFinset ∩ r.toFinset).card : ℚ) ≤ g.toFinset.card := by
      exact_mod_cast Finset.card_le_card Finset.inter_subset_left
    refine ⟨by positivity, ?_⟩
    rw [div_le_iff₀ hq]
    linarith

theorem rangeRow_value (g r : List Nat) (hg : g.length < 4294967296) : 0 < (rangeRow g r).2 ∧
    |fval (rangeRow g r) - Spec.rangeFound g r| ≤ 100 / 2 ^ 53 := by
  have hlen : (setOf g).length = g.toFinset.card := by
    rw [← List.toFinset_card_of_nodup (setOf_nodup g), setOf_toFinset]
  have hb := (rangeFound_bounds g r).2
  have hh := hits_setOf g r
  have hci : (g.toFinset ∩ r.toFinset).card ≤ g.toFinset.card := Finset.card_le_card Finset.inter_subset_left
  have hcl : g.toFinset.card ≤ g.length := List.toFinset_card_le g
  unfold rangeRow
  dsimp only
  rw [hlen, hh]
  unfold Spec.rangeFound at *
  by_cases h : g = []
  · subst h
    simp [fval]
    positivity
  · have hc : 0 < g.toFinset.card := Finset.card_pos.mpr (by
      obtain ⟨x, hx⟩ := List.exists_mem_of_ne_nil g h
      exact ⟨x, List.mem_toFinset.mpr hx⟩)
    rw [if_neg h] at *
    rw [if_pos (by omega)]
    generalize (g.toFinset ∩ r.toFinset).card = c at *
    generalize g.toFinset.card = m at *
    have hq : (0 : ℚ) < m := by exact_mod_cast hc
    refine ⟨roundBin_den_pos _ _, ?_⟩
    have e100 : fval (roundBin 53 (100 * c, 1)) = 100 * c := by
      have h2 : (2 : Nat) ^ 53 = 9007199254740992 := by norm_num
      have h1 := roundBin_le 53 (100 * c, 1) one_pos (100 * c) (by omega) (by simp [fval])
      have h3 := roundBin_ge 53 (100 * c, 1) one_pos (100 * c) (by
        have : fval (100 * c, 1) = ((100 * c : Nat) : ℚ) := by simp [fval]
        rw [this]
        exact_mod_cast (by omega : 100 * c < 2 ^ 53)) (by simp [fval])
      push_cast at h1 h3
      linarith
    have hden := roundBin_den_pos 53 (100 * c, 1)
    generalize roundBin 53 (100 * c, 1) = p at *
    unfold ddiv
    have e : fval (p.1 * 1, p.2 * m) = 100 * c / m := by
      rw [← e100]; unfold fval; push_cast; rw [mul_one, div_div]
    have herr := roundBin_err 53 (by norm_num) (p.1 * 1, p.2 * m) (Nat.mul_pos hden hc)
    rw [e] at herr
    dsimp only
    refine herr.trans ?_
    have : ((1 : ℚ) / 2) ^ 53 = 1 / 2 ^ 53 := by rw [div_pow, one_pow]
    rw [this, mul_one_div]
    gcongr

theorem rangeSum_value : ∀ (l : List ((Nat × Nat) × ℚ)) (s : Nat × Nat) (x : ℚ) (m : Nat),
    (∀ v ∈ l, 0 < v.1.2 ∧ |fval v.1 - v.2| ≤ 100 / 2 ^ 53 ∧ fval v.1 ≤ 100) → 0 < s.2 → fval s ≤ (100 * m : Nat) →
    |fval s - x| ≤ 100 * m * (m + 2) / 2 ^ 53 → m + l.length < 4294967296 →
    0 < ((l.map Prod.fst).foldl dadd s).2 ∧ fval ((l.map Prod.fst).foldl dadd s) ≤ (100 * (m + l.length) : Nat) ∧
      |fval ((l.map Prod.fst).foldl dadd s) - (x + (l.map Prod.snd).sum)| ≤
        100 * (m + l.length) * (m + l.length + 2) / 2 ^ 53 := by
  intro l
  induction l with
  | nil =>
    intro s x m _ h2 h3 h4 _
    push_cast at h3
    simpa using ⟨h2, h3, h4⟩
  | cons v l ih =>
    intro s x m h1 h2 h3 h4 h5
    obtain ⟨hv2, hve, hv⟩ := h1 v (by simp)
    simp only [List.length_cons] at h5
    have e : fval (s.1 * v.1.2 + v.1.1 * s.2, s.2 * v.1.2) = fval s + fval v.1 := by
      have a1 : (s.2 : ℚ) ≠ 0 := by exact_mod_cast (by omega : s.2 ≠ 0)
      have a2 : (v.1.2 : ℚ) ≠ 0 := by exact_mod_cast (by omega : v.1.2 ≠ 0)
      unfold fval; push_cast; field_simp
    have hle : fval (dadd s v.1) ≤ (100 * (m + 1) : Nat) := by
      unfold dadd
      apply roundBin_le 53 _ (Nat.mul_pos h2 hv2) _ (by
        have : (2 : Nat) ^ 53 = 9007199254740992 := by norm_num
        omega)
      rw [e]
      push_cast at *
      linarith
    have herr : |fval (dadd s v.1) - (fval s + fval v.1)| ≤ 100 * (m + 1) / 2 ^ 53 := by
      have := roundBin_err 53 (by norm_num) (s.1 * v.1.2 + v.1.1 * s.2, s.2 * v.1.2) (Nat.mul_pos h2 hv2)
      rw [e] at this
      refine this.trans ?_
      have h : ((1 : ℚ) / 2) ^ 53 = 1 / 2 ^ 53 := by rw [div_pow, one_pow]
      rw [h, mul_one_div]
      push_cast at h3
      gcongr
      linarith
    have hx : |fval (dadd s v.1) - (x + v.2)| ≤ 100 * ((m + 1 : Nat) : ℚ) * ((m + 1 : Nat) + 2) / 2 ^ 53 := by
      rw [abs_le] at *
      push_cast
      have hm : (0 : ℚ) ≤ m := by positivity
      constructor <;> nlinarith
    have := ih (dadd s v.1) (x + v.2) (m + 1) (fun y hy => h1 y (by simp [hy])) (roundBin_den_pos _ _) hle hx (by omega)
    simp only [List.map_cons, List.foldl_cons, List.sum_cons, List.length_cons]
    rw [show m + (l.length + 1) = m + 1 + l.length by omega, ← add_assoc x]
    refine ⟨this.1, this.2.1, this.2.2.trans (le_of_eq ?_)⟩
    push_cast
    ring

/-- **C64.** The range search recall is the mean over the queries of the percentage of the true answers that were found
(100 for queries without true answers), up to the rounding of the computation. -/
theorem C64_range_value (nq : Nat) (hnq : 0 < nq) (hn : nq < 4294967296) (gt res : List (List Nat))
    (hg : nq = gt.length) (hr : nq = res.length) (hlen : ∀ g ∈ gt, g.length < 4294967296) :
    ∃ v, rangeRecall nq gt res = .ok v ∧
      |fval v - (List.zipWith Spec.rangeFound gt res).sum / nq| ≤ 100 * (nq + 3) / 2 ^ 53 := by
  have hm : (List.range nq).mapM (fun i => do
      let g ← rd gt i
      let r ← rd res i
      (.ok (rangeRow g r) : Res (Nat × Nat))) = .ok (List.zipWith rangeRow gt res) := by
    have := mapM_eq_map (f := fun i => do
      let g ← rd gt i
      let r ← rd res i
      (.ok (rangeRow g r) : Res (Nat × Nat))) (g := fun i => rangeRow (gt.getD i []) (res.getD i []))
      (l := List.range nq) (fun i hi => by
        have hi' := List.mem_range.1 hi
        rw [rd_ok (by omega), Res.ok_bind, rd_ok (by omega), Res.ok_bind, List.getD_eq_getElem?_getD,
          List.getElem?_eq_getElem (by omega), List.getD_eq_getElem?_getD, List.getElem?_eq_getElem (by omega)]
        rfl)
    rw [this]
    congr 1
    apply List.ext_getElem
    · simp; omega
    · intro i h1 h2
      simp at h1 h2
      simp [List.getD_eq_getElem?_getD, List.getElem?_eq_getElem (show i < gt.length by omega),
        List.getElem?_eq_getElem (show i < res.length by omega)]
  obtain ⟨L, hL⟩ : ∃ L, L = List.zipWith (fun g r => (rangeRow g r, Spec.rangeFound g r)) gt res := ⟨_, rfl⟩
  have l1 : L.map Prod.fst = List.zipWith rangeRow gt res := by rw [hL, List.map_zipWith]
  have l2 : L.map Prod.snd = List.zipWith Spec.rangeFound gt res := by rw [hL, List.map_zipWith]
  have l3 : L.length = nq := by rw [hL, List.length_zipWith]; omega
  have hall : ∀ v ∈ L, 0 < v.1.2 ∧ |fval v.1 - v.2| ≤ 100 / 2 ^ 53 ∧ fval v.1 ≤ 100 := by
    intro v hv
    rw [hL] at hv
    obtain ⟨i, hi, rfl⟩ := List.getElem_of_mem hv
    rw [List.length_zipWith] at hi
    rw [List.getElem_zipWith]
    have hgl := hlen _ (List.getElem_mem (show i < gt.length by omega))
    obtain ⟨a, b⟩ := rangeRow_value gt[i] res[i] hgl
    refine ⟨a, b, ?_⟩
    exact (rangeRow_bound gt[i] res[i] hgl).2
  obtain ⟨hd, hs, he⟩ := rangeSum_value L (0, 1) 0 0 hall one_pos (by simp [fval]) (by simp [fval]) (by omega)
  rw [l1, l3, l2] at he
  rw [l1] at hd
  rw [l1, l3] at hs
  simp only [Nat.cast_zero, zero_add] at he
  refine ⟨_, by unfold rangeRecall; rw [hm, Res.ok_bind], ?_⟩
  generalize (List.zipWith rangeRow gt res).foldl dadd (0, 1) = p at *
  generalize (List.zipWith Spec.rangeFound gt res).sum = X at *
  have hmq : (0 : ℚ) < nq := by exact_mod_cast hnq
  have e : fval (p.1 * 1, p.2 * nq) = fval p / nq := by
    unfold fval; push_cast; rw [mul_one, div_div]
  have herr := roundBin_err 53 (by norm_num) (p.1 * 1, p.2 * nq) (Nat.mul_pos hd hnq)
  rw [e] at herr
  unfold ddiv
  dsimp only
  have h1 : fval p / nq ≤ 100 := by
    rw [div_le_iff₀ hmq]
    rw [Nat.zero_add] at hs
    push_cast at hs
    linarith
  have h2 : fval p / nq * (1 / 2) ^ 53 ≤ 100 / 2 ^ 53 := by
    have h : ((1 : ℚ) / 2) ^ 53 = 1 / 2 ^ 53 := by rw [div_pow, one_pow]
    rw [h, mul_one_div]
    gcongr
  have h3 : |fval p / nq - X / nq| ≤ 100 * (nq + 2) / 2 ^ 53 := by
    rw [← sub_div, abs_div, abs_of_pos hmq, div_le_iff₀ hmq]
    refine he.trans (le_of_eq ?_)
    ring
  have h4 := herr.trans h2
  have h5 := abs_add_le (fval (roundBin 53 (p.1 * 1, p.2 * nq)) - fval p / nq) (fval p / nq - X / nq)
  rw [sub_add_sub_cancel] at h5
  refine h5.trans ((add_le_add h4 h3).trans (le_of_eq ?_))
  ring

example := C64_range_value 2 (by decide) (by decide) [[1, 2, 3], []] [[3, 1, 1], [4]] (by decide) (by decide) (by decide)

/-! ## The theorems applied to the examples -/

example := C45_count_partial _ _ _ _ _ _ _ exRecall_input
example := C45_value_partial _ _ _ _ _ _ _ exRecall_input (by decide)
example := C45_recall_at_zero 1 (by decide) [5, 6] [F32.zero, F32.one] 2 (by decide) (by decide) [5, 6] 2

end Grann
