import Verif.Model.GroundTruth
import Verif.Proofs.MapM
import Verif.Proofs.Ivf
import Verif.Spec.Search
import Mathlib.Data.List.Basic
import Mathlib.Data.List.Nodup
import Mathlib.Data.Finset.Range
import Mathlib.Data.Finset.Card

namespace Grann

/-- The contents of the queue: `k` nearest of `S`, in any order. -/
structure HeapOf (k : Nat) (S : Finset Nat) (d : Nat → F32) (h : List (Nat × F32)) : Prop where
  nodup : (h.map Prod.fst).Nodup
  mem : ∀ x ∈ h, x.1 ∈ S ∧ x.2 = d x.1
  length : h.length = k
  best : ∀ i ∈ S, i ∉ h.map Prod.fst → ∀ x ∈ h, x.2.le (d i) = true

theorem eraseIdx_perm {α : Type} : ∀ (l : List α) (i : Nat) (h : i < l.length), l.Perm (l[i] :: l.eraseIdx i)
  | [], _, h => absurd h (by simp)
  | a :: l, 0, _ => List.Perm.refl _
  | a :: l, i + 1, h => by
    simp only [List.getElem_cons_succ, List.eraseIdx_cons_succ]
    exact ((eraseIdx_perm l i (by simpa using h)).cons a).trans (List.Perm.swap _ _ _)

theorem HeapOf.step {k : Nat} {S : Finset Nat} {d : Nat → F32} {h : List (Nat × F32)} (hh : HeapOf k S d h)
    (hk : 0 < k) (hd : ∀ i, (d i).IsNum) {pick : Nat → List (Nat × F32) → Nat} (hp : IsHeapPick pick)
    {p : Nat} (hpS : p ∉ S) (t : Nat) :
    ∃ x, rd h (pick t h) = .ok x ∧ ∃ h', heapTrim pick k t (if (d p).lt x.2 then h ++ [(p, d p)] else h) = .ok h' ∧
      HeapOf k (insert p S) d h' := by
  have hnum : ∀ x ∈ h, x.2.IsNum := fun x hx => by rw [(hh.mem x hx).2]; exact hd _
  have hne : h ≠ [] := by intro e; have := hh.length; rw [e] at this; simp at this; omega
  obtain ⟨hi, hmax⟩ := hp t h hne hnum
  refine ⟨h[pick t h], rd_ok hi, ?_⟩
  have htop : h[pick t h] ∈ h := List.getElem_mem _
  by_cases hlt : (d p).lt (h[pick t h]).2 = true
  · rw [if_pos hlt]
    have hne2 : h ++ [(p, d p)] ≠ [] := by simp
    have hnum2 : ∀ x ∈ h ++ [(p, d p)], x.2.IsNum := by
      intro x hx
      rcases List.mem_append.mp hx with hx | hx
      · exact hnum x hx
      · rw [List.mem_singleton.mp hx]; exact hd p
    obtain ⟨hi2, hmax2⟩ := hp t _ hne2 hnum2
    have hlen := hh.length
    have htrim : k < (h ++ [(p, d p)]).length := by simp [hlen]
    refine ⟨(h ++ [(p, d p)]).eraseIdx (pick t (h ++ [(p, d p)])), ?_, ?_⟩
    · unfold heapTrim
      rw [if_pos htrim, rd_ok hi2]; rfl
    · have hperm := eraseIdx_perm _ _ hi2
      generalize hm : (h ++ [(p, d p)])[pick t (h ++ [(p, d p)])] = m at *
      generalize he : (h ++ [(p, d p)]).eraseIdx (pick t (h ++ [(p, d p)])) = e at *
      have hpfst : p ∉ h.map Prod.fst := by
        intro hc
        obtain ⟨y, hy, e⟩ := List.mem_map.mp hc
        rw [← e] at hpS
        exact hpS (hh.mem y hy).1
      have hnod : ((h ++ [(p, d p)]).map Prod.fst).Nodup := by
        rw [List.map_append, List.nodup_append]
        refine ⟨hh.nodup, by simp, ?_⟩
        intro a ha b hb
        simp at hb
        subst hb
        intro e; exact hpfst (e ▸ ha)
      have hnod2 := (hperm.map Prod.fst).nodup_iff.mp hnod
      rw [List.map_cons, List.nodup_cons] at hnod2
      have hmem2 : ∀ x ∈ h ++ [(p, d p)], x.1 ∈ insert p S ∧ x.2 = d x.1 := by
        intro x hx
        rcases List.mem_append.mp hx with hx | hx
        · exact ⟨Finset.mem_insert_of_mem (hh.mem x hx).1, (hh.mem x hx).2⟩
        · rw [List.mem_singleton.mp hx]; exact ⟨Finset.mem_insert_self _ _, rfl⟩
      have hin : ∀ x ∈ e, x ∈ h ++ [(p, d p)] := fun x hx => hperm.mem_iff.mpr (by simp [hx])
      refine ⟨hnod2.2, fun x hx => hmem2 x (hin x hx), ?_, ?_⟩
      · have := hperm.length_eq
        rw [List.length_append, List.length_cons] at this
        simp at this
        omega
      · intro i hi' hni x hx
        have hxin := hin x hx
        by_cases him : i = m.1
        · have hmm : m ∈ h ++ [(p, d p)] := hperm.mem_iff.mpr (by simp)
          have := hmax2 x hxin
          rw [(hmem2 m hmm).2] at this
          rw [him]; exact this
        · -- `i` is neither the new point nor in the queue before
          have hni2 : i ∉ (h ++ [(p, d p)]).map Prod.fst := by
            intro hc
            have := (hperm.map Prod.fst).mem_iff.mp hc
            rw [List.map_cons, List.mem_cons] at this
            rcases this with h1 | h1
            · exact him h1
            · exact hni h1
          rw [List.map_append, List.mem_append] at hni2
          have hni3 : i ∉ h.map Prod.fst := fun hc => hni2 (.inl hc)
          have hip : i ≠ p := fun hc => hni2 (.inr (by simp [hc]))
          have hiS : i ∈ S := by
            rcases Finset.mem_insert.mp hi' with h1 | h1
            · exact absurd h1 hip
            · exact h1
          rcases List.mem_append.mp hxin with hx | hx
          · exact hh.best i hiS hni3 x hx
          · rw [List.mem_singleton.mp hx]
            exact F32.le_trans (F32.le_of_lt hlt) (hh.best i hiS hni3 _ htop)
  · rw [if_neg hlt]
    refine ⟨h, ?_, ?_⟩
    · unfold heapTrim
      rw [if_neg (by have := hh.length; omega)]
    · have hle : (h[pick t h]).2.le (d p) = true := by
        apply F32.le_of_not_lt (hd p) (hnum _ htop)
        simpa using hlt
      refine ⟨hh.nodup, fun x hx => ⟨Finset.mem_insert_of_mem (hh.mem x hx).1, (hh.mem x hx).2⟩, hh.length, ?_⟩
      intro i hi' hni x hx
      rcases Finset.mem_insert.mp hi' with rfl | h1
      · exact F32.le_trans (hmax x hx) hle
      · exact hh.best i h1 hni x hx

theorem knnLoop_spec {k : Nat} {d : Nat → F32} (hk : 0 < k) (hd : ∀ i, (d i).IsNum)
    {pick : Nat → List (Nat × F32) → Nat} (hp : IsHeapPick pick) {col : Nat → Res F32} : ∀ (todo p : Nat) (h : List (Nat × F32)),
    (∀ i, i < p + todo → col i = .ok (d i)) → HeapOf k (Finset.range p) d h →
    ∃ h', knnLoop pick col k todo p h = .ok h' ∧ HeapOf k (Finset.range (p + todo)) d h' := by
  intro todo
  induction todo with
  | zero => intro p h _ hh; exact ⟨h, rfl, hh⟩
  | succ todo ih =>
    intro p h hc hh
    obtain ⟨x, e1, h', e2, hh'⟩ := hh.step hk hd hp (p := p) (by simp) p
    rw [show insert p (Finset.range p) = Finset.range (p + 1) from Finset.range_add_one.symm] at hh'
    obtain ⟨h'', e3, hh''⟩ := ih (p + 1) h' (fun i hi => hc i (by omega)) hh'
    refine ⟨h'', ?_, by rw [show p + (todo + 1) = p + 1 + todo by omega]; exact hh''⟩
    unfold knnLoop
    rw [e1, Res.ok_bind, hc p (by omega), Res.ok_bind, e2, Res.ok_bind, e3]

theorem knnInit_spec {k : Nat} {d : Nat → F32} {col : Nat → Res F32} (hc : ∀ i, i < k → col i = .ok (d i)) :
    ∃ h, knnInit col k = .ok h ∧ HeapOf k (Finset.range k) d h := by
  refine ⟨(List.range k).map (fun i => (i, d i)), ?_, ?_, ?_, by simp, ?_⟩
  · unfold knnInit
    apply mapM_eq_map
    intro i hi
    rw [hc i (List.mem_range.mp hi)]; rfl
  · rw [List.map_map]
    have : (Prod.fst ∘ fun i => (i, d i)) = id := by funext i; rfl
    rw [this, List.map_id]; exact List.nodup_range
  · intro x hx
    obtain ⟨i, hi, rfl⟩ := List.mem_map.mp hx
    exact ⟨Finset.mem_range.mpr (List.mem_range.mp hi), rfl⟩
  · intro i hi hni
    exfalso
    apply hni
    rw [List.map_map]
    exact List.mem_map.mpr ⟨i, List.mem_range.mpr (Finset.mem_range.mp hi), rfl⟩

theorem knnOut_spec {pick : Nat → List (Nat × F32) → Nat} (hp : IsHeapPick pick) (np : Nat) : ∀ (l : Nat) (h : List (Nat × F32)),
    h.length = l → (∀ x ∈ h, x.2.IsNum) →
    ∃ o, knnOut pick np l h = .ok o ∧ o.Perm h ∧ o.Pairwise (fun x y => x.2.le y.2 = true) := by
  intro l
  induction l with
  | zero =>
    intro h hl _
    have : h = [] := by simpa using hl
    subst this
    exact ⟨[], rfl, List.Perm.refl _, List.Pairwise.nil⟩
  | succ l ih =>
    intro h hl hn
    obtain ⟨hi, hmax⟩ := hp (np + l) h (by intro e; rw [e] at hl; simp at hl) hn
    have hperm := eraseIdx_perm h _ hi
    obtain ⟨o, e, op, os⟩ := ih (h.eraseIdx (pick (np + l) h)) (by
        have := hperm.length_eq; simp at this; omega)
      (fun x hx => hn x (hperm.mem_iff.mpr (by simp [hx])))
    refine ⟨o ++ [h[pick (np + l) h]], ?_, ?_, ?_⟩
    · unfold knnOut
      rw [rd_ok hi, Res.ok_bind, e]; rfl
    · exact (List.perm_append_comm.trans (op.cons _)).trans hperm.symm
    · rw [List.pairwise_append]
      refine ⟨os, by simp, ?_⟩
      intro x hx y hy
      rw [List.mem_singleton.mp hy]
      exact hmax x (hperm.mem_iff.mpr (by simp [op.mem_iff.mp hx]))

/-- One query: the `k` nearest of the part. -/
theorem knnRow_spec {k np : Nat} {d : Nat → F32} (hk : 0 < k) (hkn : k ≤ np) (hd : ∀ i, (d i).IsNum)
    {pick : Nat → List (Nat × F32) → Nat} (hp : IsHeapPick pick) {col : Nat → Res F32}
    (hc : ∀ i, i < np → col i = .ok (d i)) :
    ∃ o, knnRow pick k np col = .ok o ∧ Spec.KNearest k (Finset.range np) d o := by
  obtain ⟨h, e1, hh⟩ := knnInit_spec (k := k) (d := d) (col := col) (fun i hi => hc i (by omega))
  obtain ⟨h', e2, hh'⟩ := knnLoop_spec hk hd hp (np - k) k h (fun i hi => hc i (by omega)) hh
  rw [show k + (np - k) = np by omega] at hh'
  obtain ⟨o, e3, op, os⟩ := knnOut_spec hp np k h' hh'.length (fun x hx => by rw [(hh'.mem x hx).2]; exact hd _)
  refine ⟨o, ?_, os, ?_, ?_, ?_, ?_⟩
  · unfold knnRow
    rw [e1, Res.ok_bind, e2, Res.ok_bind, e3]
  · exact (op.map Prod.fst).nodup_iff.mpr hh'.nodup
  · intro x hx; exact hh'.mem x (op.mem_iff.mp hx)
  · rw [op.length_eq, hh'.length, Finset.card_range]; omega
  · intro i hi hni x hx
    exact hh'.best i hi (fun hc => hni ((op.map Prod.fst).mem_iff.mpr hc)) x (op.mem_iff.mp hx)

theorem distMatrix_length (D : Nat → Nat → F32) (np qb qe : Nat) (old : List F32)
    (h : (qe - qb) * np ≤ old.length) : (distMatrix D np qb qe old).length = old.length := by
  unfold distMatrix
  have : ((List.range' qb (qe - qb)).flatMap fun q => (List.range np).map (D q)).length = (qe - qb) * np := by
    rw [List.length_flatMap]
    simp [List.map_const']
  rw [List.length_append, this, List.length_drop]
  omega

theorem flatMap_rows_getElem? (f : Nat → List F32) (np : Nat) (hf : ∀ q, (f q).length = np) : ∀ (c b : Nat) (r : List F32) (q p : Nat),
    b ≤ q → q < b + c → p < np → (((List.range' b c).flatMap f) ++ r)[p + (q - b) * np]? = (f q)[p]? := by
  intro c
  induction c with
  | zero => intro b r q p h1 h2; omega
  | succ c ih =>
    intro b r q p h1 h2 h3
    rw [List.range'_succ, List.flatMap_cons, List.append_assoc]
    by_cases hb : q = b
    · subst hb
      rw [Nat.sub_self, Nat.zero_mul, Nat.add_zero, List.getElem?_append_left (by rw [hf]; exact h3)]; rfl
    · have h4 : (q - b) * np = np + (q - (b + 1)) * np := by
        rw [show q - b = (q - (b + 1)) + 1 by omega, Nat.succ_mul, Nat.add_comm]
      rw [List.getElem?_append_right (by rw [hf, h4]; omega), hf, h4,
        show p + (np + (q - (b + 1)) * np) - np = p + (q - (b + 1)) * np by omega]
      exact ih (b + 1) r q p (by omega) (by omega) h3

theorem knnBatches_spec {k np nq : Nat} (hk : 0 < k) (hkn : k ≤ np) {D : Nat → Nat → F32}
    (hD : ∀ q i, (D q i).IsNum) {pick : Nat → Nat → List (Nat × F32) → Nat} (hp : ∀ q, IsHeapPick (pick q)) :
    ∀ (todo b : Nat) (dm : List F32), todo = (nq + 511) / 512 - b → dm.length = 512 * np →
    ∃ rows, knnBatches pick k np nq D todo b dm = .ok rows ∧ rows.length = nq - b * 512 ∧
      ∀ i row, rows[i]? = some row → Spec.KNearest k (Finset.range np) (D (b * 512 + i)) row := by
  intro todo
  induction todo with
  | zero =>
    intro b dm h0 _
    refine ⟨[], rfl, ?_, by simp⟩
    simp; omega
  | succ todo ih =>
    intro b dm h0 hl
    have hqe : ∃ qe, (if nq < (b + 1) * 512 then nq else (b + 1) * 512) = qe ∧ qe = min nq ((b + 1) * 512) := by
      refine ⟨_, rfl, ?_⟩
      split <;> omega
    obtain ⟨qe, hqe1, hqe2⟩ := hqe
    have hle : (qe - b * 512) * np ≤ dm.length := by
      rw [hl]; exact Nat.mul_le_mul_right _ (by omega)
    have hl' := distMatrix_length D np (b * 512) qe dm hle
    have hrows := mapM_ok (fun q => knnRow (pick q) k np (fun p => rd (distMatrix D np (b * 512) qe dm) (p + (q - b * 512) * np)))
      (List.range' (b * 512) (qe - b * 512))
    have hcol : ∀ q, b * 512 ≤ q → q < qe → ∃ o, knnRow (pick q) k np
        (fun p => rd (distMatrix D np (b * 512) qe dm) (p + (q - b * 512) * np)) = .ok o ∧
        Spec.KNearest k (Finset.range np) (D q) o := by
      intro q h1 h2
      apply knnRow_spec hk hkn (hD q) (hp q)
      intro i hi
      rw [rd_eq_ok_iff]
      unfold distMatrix
      rw [flatMap_rows_getElem? (fun q => (List.range np).map (D q)) np (by simp) _ _ _ q i h1 (by omega) hi]
      simp [hi]
    obtain ⟨rows, e1, l1, s1⟩ := hrows (by
      intro q hq
      rw [List.mem_range'_1] at hq
      obtain ⟨o, e, _⟩ := hcol q hq.1 (by omega)
      exact ⟨o, e⟩)
    obtain ⟨rest, e2, l2, s2⟩ := ih (b + 1) (distMatrix D np (b * 512) qe dm) (by omega) (by rw [hl', hl])
    rw [List.length_range'] at l1
    refine ⟨rows ++ rest, ?_, ?_, ?_⟩
    · unfold knnBatches
      dsimp only
      rw [hqe1, e1, Res.ok_bind, e2, Res.ok_bind]
    · rw [List.length_append, l1, l2]; omega
    · intro i row hi
      by_cases hir : i < rows.length
      · rw [List.getElem?_append_left hir] at hi
        obtain ⟨y, hy, e⟩ := s1 i (b * 512 + i) (by
          rw [List.getElem?_range' (by omega)]; simp)
        rw [hi] at hy
        obtain ⟨o, e', ho⟩ := hcol (b * 512 + i) (by omega) (by omega)
        rw [e'] at e
        injection e with e
        injection hy with hy
        rw [hy, ← e]; exact ho
      · rw [List.getElem?_append_right (by omega)] at hi
        have hlt : i - rows.length < rest.length := by
          by_contra hc
          rw [List.getElem?_eq_none (by omega)] at hi
          exact absurd hi (by simp)
        have := s2 _ _ hi
        rw [show (b + 1) * 512 + (i - rows.length) = b * 512 + i by omega] at this
        exact this

/-- `exact_knn` gives every query its `k` nearest points. -/
theorem exactKnn_spec {k np nq : Nat} (hk : 0 < k) (hkn : k ≤ np) {D : Nat → Nat → F32}
    (hD : ∀ q i, (D q i).IsNum) {pick : Nat → Nat → List (Nat × F32) → Nat} (hp : ∀ q, IsHeapPick (pick q))
    (junk : Nat → F32) :
    ∃ rows, exactKnn pick k np nq D junk = .ok rows ∧ rows.length = nq ∧
      ∀ i row, rows[i]? = some row → Spec.KNearest k (Finset.range np) (D i) row := by
  obtain ⟨rows, e, l, s⟩ := knnBatches_spec (nq := nq) hk hkn hD hp ((nq + 511) / 512) 0
    ((List.range (512 * np)).map junk) (by omega) (by simp)
  refine ⟨rows, e, by omega, ?_⟩
  intro i row hi
  have := s i row hi
  rw [Nat.zero_mul, Nat.zero_add] at this
  exact this

/-- Partial results of the points in `S`: every entry is true, and every point of `S` that is missing has
`k` entries at least as close. -/
structure Merged (k : Nat) (S : Finset Nat) (d : Nat → F32) (l : List (Nat × F32)) : Prop where
  nodup : (l.map Prod.fst).Nodup
  mem : ∀ x ∈ l, x.1 ∈ S ∧ x.2 = d x.1
  enough : ∀ i ∈ S, i ∉ l.map Prod.fst → k ≤ l.countP (fun x => x.2.le (d i))

theorem Merged.mono {k k' : Nat} {S : Finset Nat} {d : Nat → F32} {l : List (Nat × F32)} (h : Merged k S d l)
    (hk : k' ≤ k) : Merged k' S d l :=
  ⟨h.nodup, h.mem, fun i hi hni => Nat.le_trans hk (h.enough i hi hni)⟩

theorem Merged.add {k s np : Nat} {d : Nat → F32} {l row : List (Nat × F32)} (h : Merged k (Finset.range s) d l)
    (hk : k ≤ np) (hr : Spec.KNearest k (Finset.range np) (fun i => d (s + i)) row) (hsn : s + np ≤ 4294967296) :
    Merged k (Finset.range (s + np)) d (l ++ row.map (fun x => (u32 (x.1 + s), x.2))) := by
  have hrow : ∀ x ∈ row, u32 (x.1 + s) = s + x.1 ∧ x.1 < np := by
    intro x hx
    have := Finset.mem_range.mp (hr.mem x hx).1
    refine ⟨?_, this⟩
    unfold u32; omega
  have hfst : (row.map (fun x => (u32 (x.1 + s), x.2))).map Prod.fst = (row.map Prod.fst).map (fun i => s + i) := by
    rw [List.map_map, List.map_map]
    apply List.map_congr_left
    intro x hx
    exact (hrow x hx).1
  refine ⟨?_, ?_, ?_⟩
  · rw [List.map_append, hfst, List.nodup_append]
    refine ⟨h.nodup, hr.nodup.map (fun a b e => by simpa using e), ?_⟩
    intro a ha b hb
    obtain ⟨x, hx, rfl⟩ := List.mem_map.mp ha
    obtain ⟨y, hy, rfl⟩ := List.mem_map.mp hb
    have := Finset.mem_range.mp (h.mem x hx).1
    omega
  · intro x hx
    rcases List.mem_append.mp hx with hx | hx
    · have := Finset.mem_range.mp (h.mem x hx).1
      exact ⟨Finset.mem_range.mpr (by omega), (h.mem x hx).2⟩
    · obtain ⟨y, hy, rfl⟩ := List.mem_map.mp hx
      obtain ⟨e, hlt⟩ := hrow y hy
      refine ⟨Finset.mem_range.mpr (by show u32 (y.1 + s) < _; omega), ?_⟩
      show y.2 = d (u32 (y.1 + s))
      rw [e]; exact (hr.mem y hy).2
  · intro i hi hni
    rw [List.map_append, List.mem_append] at hni
    rw [List.countP_append]
    by_cases his : i < s
    · have := h.enough i (Finset.mem_range.mpr his) (fun hc => hni (.inl hc))
      omega
    · obtain ⟨j, rfl⟩ : ∃ j, i = s + j := ⟨i - s, by omega⟩
      have hj : j < np := by have := Finset.mem_range.mp hi; omega
      have hnr : j ∉ row.map Prod.fst := by
        intro hc
        apply hni
        right
        rw [hfst]
        exact List.mem_map.mpr ⟨j, hc, rfl⟩
      have hb := hr.best j (Finset.mem_range.mpr hj) hnr
      have hc : (row.map (fun x => (u32 (x.1 + s), x.2))).countP (fun x => x.2.le (d (s + j))) = row.length := by
        rw [List.countP_eq_length.mpr, List.length_map]
        intro x hx
        obtain ⟨y, hy, rfl⟩ := List.mem_map.mp hx
        exact hb y hy
      have hl := hr.length
      rw [Finset.card_range] at hl
      omega

theorem Merged.length_le {k n : Nat} {d : Nat → F32} {l : List (Nat × F32)} (h : Merged k (Finset.range n) d l)
    (hk : k ≤ n) : k ≤ l.length := by
  by_contra hc
  have hex : ∃ i ∈ Finset.range n, i ∉ l.map Prod.fst := by
    by_contra hall
    push Not at hall
    have hsub : Finset.range n ⊆ (l.map Prod.fst).toFinset := fun i hi => by simpa using hall i hi
    have := Finset.card_le_card hsub
    rw [Finset.card_range] at this
    have h2 := List.toFinset_card_le (l.map Prod.fst)
    rw [List.length_map] at h2
    omega
  obtain ⟨i, hi, hni⟩ := hex
  have := h.enough i hi hni
  have h2 : l.countP (fun x => x.2.le (d i)) ≤ l.length := List.countP_le_length
  omega

/-- The first `k` of the sorted partial results are the `k` nearest. -/
theorem Merged.take {k n : Nat} {d : Nat → F32} {l : List (Nat × F32)} (h : Merged k (Finset.range n) d l)
    (hk : k ≤ n) (hd : ∀ i, (d i).IsNum) {sortP : List (Nat × F32) → List (Nat × F32)} (hs : IsPairSort sortP) :
    ∃ o, gtTake sortP k l = .ok o ∧ Spec.KNearest k (Finset.range n) d o := by
  have hperm := hs.perm l
  have hsort := hs.sorted l (fun x hx => by rw [(h.mem x hx).2]; exact hd _)
  have hlen : k ≤ (sortP l).length := by rw [hperm.length_eq]; exact h.length_le hk
  generalize hq : sortP l = Q at *
  refine ⟨Q.take k, ?_, ?_, ?_, ?_, ?_, ?_⟩
  · unfold gtTake
    rw [hq, mapM_eq_map _ (fun j => Q.getD j (0, F32.zero))]
    · congr 1
      apply List.ext_getElem?
      intro i
      by_cases hi : i < k
      · rw [List.getElem?_map, List.getElem?_range hi, List.getElem?_take_of_lt hi]
        simp [List.getD_eq_getElem?_getD, List.getElem?_eq_getElem (by omega : i < Q.length)]
      · rw [List.getElem?_eq_none (by simp; omega), List.getElem?_eq_none (by simp; omega)]
    · intro j hj
      rw [List.mem_range] at hj
      rw [rd_ok (by omega)]
      simp [List.getD_eq_getElem?_getD, List.getElem?_eq_getElem (by omega : j < Q.length)]
  · exact hsort.sublist (List.take_sublist _ _)
  · have : (Q.map Prod.fst).Nodup := (hperm.map Prod.fst).nodup_iff.mpr h.nodup
    exact (this.sublist ((List.take_sublist _ _).map _))
  · intro x hx
    exact h.mem x (hperm.mem_iff.mp (List.mem_of_mem_take hx))
  · rw [List.length_take, Finset.card_range]; omega
  · intro i hi hni x hx
    obtain ⟨a, ha, rfl⟩ := List.mem_iff_getElem.mp hx
    rw [List.getElem_take]
    rw [List.length_take] at ha
    have haQ : a < Q.length := by omega
    by_cases hiQ : i ∈ Q.map Prod.fst
    · obtain ⟨y, hy, rfl⟩ := List.mem_map.mp hiQ
      rw [← (h.mem y (hperm.mem_iff.mp hy)).2]
      rw [← List.take_append_drop k Q] at hsort hy
      rw [List.pairwise_append] at hsort
      rcases List.mem_append.mp hy with hy | hy
      · exact absurd (List.mem_map_of_mem hy) hni
      · have := hsort.2.2 _ hx y hy
        rw [List.getElem_take] at this
        exact this
    · have hen := h.enough i hi (fun hc => hiQ ((hperm.map Prod.fst).mem_iff.mpr hc))
      rw [← hperm.countP_eq] at hen
      rw [← List.take_append_drop a Q, List.countP_append] at hen
      have h1 : (Q.take a).countP (fun x => x.2.le (d i)) ≤ (Q.take a).length := List.countP_le_length
      rw [List.length_take] at h1
      have h2 : 0 < (Q.drop a).countP (fun x => x.2.le (d i)) := by omega
      obtain ⟨y, hy, hyd⟩ := List.countP_pos_iff.mp h2
      rw [List.drop_eq_getElem_cons haQ] at hy
      rcases List.mem_cons.mp hy with rfl | hy
      · exact hyd
      · have hs2 := hsort.sublist (List.drop_sublist a Q)
        rw [List.drop_eq_getElem_cons haQ, List.pairwise_cons] at hs2
        exact F32.le_trans (hs2.1 y hy) hyd

/-- The number of points of the last part. -/
theorem partLen_eq {P n p : Nat} (hP : 0 < P) (hp : p < numParts P n) :
    partLen P n p = (if p + 1 = numParts P n then (if n % P = 0 then P else n % P) else P) ∧
      p * P + partLen P n p = (if p + 1 = numParts P n then n else (p + 1) * P) ∧ 0 < partLen P n p := by
  have hdm := Nat.div_add_mod n P
  have hml := Nat.mod_lt n hP
  unfold partLen
  unfold numParts at *
  rw [Nat.add_mul, Nat.one_mul]
  by_cases h0 : n % P = 0
  · rw [if_pos h0] at *
    have hle : p * P + P ≤ n := by
      calc p * P + P = (p + 1) * P := by rw [Nat.add_mul, Nat.one_mul]
        _ ≤ n / P * P := Nat.mul_le_mul_right _ hp
        _ ≤ n := Nat.div_mul_le_self _ _
    split
    · rename_i he
      have : p * P + P = n := by
        have : (p + 1) * P = n / P * P := by rw [he]
        rw [Nat.add_mul, Nat.one_mul, Nat.mul_comm (n / P)] at this
        omega
      omega
    · omega
  · rw [if_neg h0] at *
    split
    · rename_i he
      have he' : p = n / P := by omega
      have : p * P + n % P = n := by rw [he', Nat.mul_comm]; exact hdm
      omega
    · have hle : p * P + P ≤ n := by
        calc p * P + P = (p + 1) * P := by rw [Nat.add_mul, Nat.one_mul]
          _ ≤ n / P * P := Nat.mul_le_mul_right _ (by omega)
          _ ≤ n := Nat.div_mul_le_self _ _
      omega

theorem gtParts_spec {clamp : Bool} {P n nq : Nat} (hP : 0 < P) (hn : n ≤ 4294967296) {D : Nat → Nat → F32}
    (hD : ∀ q i, (D q i).IsNum) {pick : Nat → Nat → Nat → List (Nat × F32) → Nat}
    (hp : ∀ p q, IsHeapPick (pick p q)) (junk : Nat → Nat → F32) (last : Nat)
    (hlast : last = if n % P = 0 then P else n % P) :
    ∀ (todo p k : Nat) (results : List (List (Nat × F32))), p + todo = numParts P n → 0 < k →
    (clamp = false → k ≤ last) → results.length = nq →
    (∀ i res, results[i]? = some res → Merged k (Finset.range (if todo = 0 then n else p * P)) (D i) res) →
    ∃ results', gtParts clamp pick P n nq D junk todo p k results = .ok (if todo = 0 then k else min last k, results') ∧
      results'.length = nq ∧
      ∀ i res, results'[i]? = some res → Merged (if todo = 0 then k else min last k) (Finset.range n) (D i) res := by
  have hlP : last ≤ P := by
    rw [hlast]; split
    · omega
    · exact (Nat.mod_lt _ hP).le
  have hl0 : 0 < last := by rw [hlast]; split <;> omega
  intro todo
  induction todo with
  | zero =>
    intro p k results _ _ _ hlen hm
    exact ⟨results, by simp [gtParts], hlen, by simpa using hm⟩
  | succ todo ih =>
    intro p k results hpt hk hcl hlen hm
    obtain ⟨h1, h2, h3⟩ := partLen_eq (n := n) hP (by omega : p < numParts P n)
    rw [← hlast] at h1
    have hple : last ≤ partLen P n p := by rw [h1]; split <;> omega
    obtain ⟨k1, hk1⟩ : ∃ k1, (if clamp = true then min (partLen P n p) k else k) = k1 := ⟨_, rfl⟩
    have hk1le : k1 ≤ k ∧ k1 ≤ partLen P n p ∧ 0 < k1 := by
      rw [← hk1]
      cases clamp with
      | true => rw [if_pos rfl]; omega
      | false => have := hcl rfl; rw [if_neg (by simp)]; omega
    obtain ⟨rows, e1, l1, s1⟩ := exactKnn_spec (nq := nq) hk1le.2.2 hk1le.2.1
      (fun q i => hD q (p * P + i)) (hp p) (junk p)
    have hend : p * P + partLen P n p ≤ n := by
      rw [h2]; split
      · exact Nat.le_refl _
      · unfold partLen at h1
        rename_i hne
        rw [if_neg hne] at h1
        rw [Nat.add_mul, Nat.one_mul]
        omega
    have hadd : ∀ i res, (addRows (p * P) results rows)[i]? = some res →
        Merged k1 (Finset.range (if todo = 0 then n else (p + 1) * P)) (D i) res := by
      intro i res hi
      unfold addRows at hi
      rw [List.getElem?_zipWith] at hi
      obtain ⟨a, ha⟩ : ∃ a, results[i]? = some a := by
        cases h : results[i]? with
        | none => rw [h] at hi; simp at hi
        | some a => exact ⟨a, rfl⟩
      obtain ⟨b, hb⟩ : ∃ b, rows[i]? = some b := by
        cases h : rows[i]? with
        | none => rw [h, ha] at hi; simp at hi
        | some a => exact ⟨a, rfl⟩
      rw [ha, hb] at hi
      injection hi with hi
      rw [← hi]
      have hm' := hm i a ha
      rw [if_neg (by omega)] at hm'
      have := (hm'.mono hk1le.1).add hk1le.2.1 (s1 i b hb) (by omega)
      rw [h2] at this
      have hc : (p + 1 = numParts P n) = (todo = 0) := by
        apply propext; constructor <;> intro <;> omega
      rw [show (if todo = 0 then n else (p + 1) * P) = if p + 1 = numParts P n then n else (p + 1) * P by
        by_cases ht : todo = 0
        · rw [if_pos ht, if_pos (by omega)]
        · rw [if_neg ht, if_neg (by omega)]]
      exact this
    obtain ⟨results', e2, l2, s2⟩ := ih (p + 1) k1 (addRows (p * P) results rows) (by omega) hk1le.2.2
      (fun hc => by have := hcl hc; rw [hc] at hk1; simp at hk1; omega)
      (by unfold addRows; rw [List.length_zipWith, hlen, l1]; omega) hadd
    have hK : (if todo = 0 then k1 else min last k1) = min last k := by
      rw [← hk1]
      by_cases ht : todo = 0
      · rw [if_pos ht]
        rw [if_pos (by omega)] at h1
        cases clamp with
        | true => rw [if_pos rfl, h1]
        | false => have := hcl rfl; rw [if_neg (by simp)]; omega
      · rw [if_neg ht]
        rw [if_neg (by omega)] at h1
        cases clamp with
        | true => rw [if_pos rfl, h1]; omega
        | false => rw [if_neg (by simp)]
    rw [hK] at e2 s2
    refine ⟨results', ?_, l2, ?_⟩
    · unfold gtParts
      dsimp only
      rw [hk1, e1, Res.ok_bind, e2, if_neg (by omega)]
    · rw [if_neg (by omega)]; exact s2

end Grann
