import Verif.Model.Medoid
import Verif.Proofs.MapM
import Verif.Basic.ExFloat
/-!
# C59 — the entry point (and C26 for empty data)
-/

namespace Grann

theorem minLoop_spec : ∀ (ds : List F32) (pre : List F32) (idx : Nat) (m : F32), pre[idx]? = some m →
    (∀ x ∈ pre, x.IsNum) → (∀ x ∈ ds, x.IsNum) →
    (∀ (i : Nat) (x : F32), pre[i]? = some x → m.le x = true) → (∀ (i : Nat) (x : F32), i < idx → pre[i]? = some x → m.lt x = true) →
    ∃ m', (pre ++ ds)[minLoop ds pre.length idx m]? = some m' ∧
      (∀ (i : Nat) (x : F32), (pre ++ ds)[i]? = some x → m'.le x = true) ∧
      (∀ (i : Nat) (x : F32), i < minLoop ds pre.length idx m → (pre ++ ds)[i]? = some x → m'.lt x = true) := by
  intro ds
  induction ds with
  | nil =>
    intro pre idx m h1 _ _ h3 h4
    exact ⟨m, by simpa [minLoop] using h1, by simpa [minLoop] using h3, by simpa [minLoop] using h4⟩
  | cons d ds ih =>
    intro pre idx m h1 hp hd h3 h4
    have hmn : m.IsNum := hp m (List.mem_of_getElem? h1)
    have hdn : d.IsNum := hd d (by simp)
    have hsplit : pre ++ d :: ds = (pre ++ [d]) ++ ds := by simp
    have hpre : ∀ x ∈ pre ++ [d], x.IsNum := by
      intro x hx
      rcases List.mem_append.1 hx with hx | hx
      · exact hp x hx
      · simp at hx; subst hx; exact hdn
    have hidx : idx < pre.length := (List.getElem?_eq_some_iff.1 h1).1
    have hget : ∀ (i : Nat) (x : F32), (pre ++ [d])[i]? = some x → pre[i]? = some x ∨ (i = pre.length ∧ x = d) := by
      intro i x hx
      rw [List.getElem?_append] at hx
      split at hx
      · exact Or.inl hx
      · rename_i hi
        have hi0 : i - pre.length = 0 := by
          by_contra hc
          rw [List.getElem?_eq_none (by simp; omega)] at hx
          cases hx
        rw [hi0] at hx
        simp at hx
        exact Or.inr ⟨by omega, hx.symm⟩
    unfold minLoop
    rw [hsplit]
    by_cases hlt : d.lt m = true
    · rw [if_pos hlt]
      have := ih (pre ++ [d]) pre.length d (by simp) hpre (fun x hx => hd x (by simp [hx]))
        (by
          intro i x hx
          rcases hget i x hx with hx | ⟨_, rfl⟩
          · exact F32.le_of_lt (F32.lt_of_lt_of_le hlt (h3 i x hx))
          · exact F32.le_refl hdn)
        (by
          intro i x hi hx
          rcases hget i x hx with hx | ⟨hc, _⟩
          · exact F32.lt_of_lt_of_le hlt (h3 i x hx)
          · omega)
      simpa using this
    · rw [if_neg hlt]
      have hmd : m.le d = true := F32.le_of_not_lt hdn hmn (by simpa using hlt)
      have := ih (pre ++ [d]) idx m (by rw [List.getElem?_append_left hidx]; exact h1) hpre
        (fun x hx => hd x (by simp [hx]))
        (by
          intro i x hx
          rcases hget i x hx with hx | ⟨_, rfl⟩
          · exact h3 i x hx
          · exact hmd)
        (by
          intro i x hi hx
          rcases hget i x hx with hx | ⟨hc, _⟩
          · exact h4 i x hi hx
          · omega)
      simpa using this

theorem minLoop_lt : ∀ (ds : List F32) (i idx : Nat) (m : F32), idx < i →
    minLoop ds i idx m < i + ds.length := by
  intro ds
  induction ds with
  | nil => intro i idx m h; simpa [minLoop] using h
  | cons d ds ih =>
    intro i idx m h
    unfold minLoop
    rw [List.length_cons]
    split
    · have := ih (i + 1) i d (by omega); omega
    · have := ih (i + 1) idx m (by omega); omega

/-- The computed centre: coordinate `j` is the sum of the `j`-th coordinates in order of the points,
divided by their number. -/
def centerOf {T : Type} [Inhabited T] (o : MedoidOps T) (data : List (List T)) (dim : Nat) : List F32 :=
  (List.range dim).map (fun j =>
    o.divN (data.foldl (fun acc v => o.addT acc (v.getD j default)) F32.zero) data.length)

/-- The computed distance of a point to the centre. -/
def distOf {T : Type} [Inhabited T] (o : MedoidOps T) (center : List F32) (v : List T) : F32 :=
  (List.range center.length).foldl
    (fun acc j => o.add acc (o.sqDiff (center.getD j F32.zero) (v.getD j default))) F32.zero

theorem medoid_eq {T : Type} [Inhabited T] (o : MedoidOps T) (data : List (List T)) (dim : Nat)
    (hdim : ∀ v ∈ data, dim ≤ v.length) :
    medoid o data dim = minIndex (data.map (distOf o (centerOf o data dim))) := by
  have hc : centroid o data dim = .ok (centerOf o data dim) := by
    unfold centroid centerOf
    refine mapM_eq_map _ _ _ ?_
    intro j hj
    have hj : j < dim := by simpa using hj
    rw [foldlM_ok (g := fun acc v => o.addT acc (v.getD j default))]
    · rfl
    · intro b v hv
      have := hdim v hv
      rw [rd_ok (show j < v.length by omega)]
      simp [List.getD, List.getElem?_eq_getElem (show j < v.length by omega)]
  have hlen : (centerOf o data dim).length = dim := by simp [centerOf]
  unfold medoid
  rw [hc, Res.ok_bind, mapM_eq_map _ (distOf o (centerOf o data dim))]
  · rfl
  · intro v hv
    have := hdim v hv
    unfold distToCenter distOf
    refine foldlM_ok _ _ _ _ ?_
    intro b j hj
    have hj : j < (centerOf o data dim).length := by simpa using hj
    rw [rd_ok hj, rd_ok (show j < v.length by omega)]
    simp [List.getD, List.getElem?_eq_getElem hj, List.getElem?_eq_getElem (show j < v.length by omega)]

/-- **C59.** For every non-empty data set (points with at least `dim` coordinates) the entry point is an
indexed point; and if no computed distance is NaN, it is the first of the points whose computed distance
to the computed centre is smallest. -/
theorem C59_entry_point {T : Type} [Inhabited T] (o : MedoidOps T) (data : List (List T)) (dim : Nat)
    (hne : data ≠ []) (hdim : ∀ v ∈ data, dim ≤ v.length) :
    ∃ m, medoid o data dim = .ok m ∧ m < data.length ∧
      ((∀ v ∈ data, (distOf o (centerOf o data dim) v).IsNum) →
        ∃ v, data[m]? = some v ∧
        (∀ w ∈ data, (distOf o (centerOf o data dim) v).le (distOf o (centerOf o data dim) w) = true) ∧
        ∀ (i : Nat) (w : List T), i < m → data[i]? = some w →
          (distOf o (centerOf o data dim) v).lt (distOf o (centerOf o data dim) w) = true) := by
  rw [medoid_eq o data dim hdim]
  generalize hf : distOf o (centerOf o data dim) = f
  cases data with
  | nil => exact absurd rfl hne
  | cons v0 vs =>
    refine ⟨minLoop (vs.map f) 1 0 (f v0), rfl, ?_, ?_⟩
    · have := minLoop_lt (vs.map f) 1 0 (f v0) (by omega)
      simpa [Nat.add_comm] using this
    · intro hnum
      obtain ⟨m', h1, h2, h3⟩ := minLoop_spec (vs.map f) [f v0] 0 (f v0) rfl
        (by simpa using hnum v0 (by simp))
        (by
          intro x hx
          obtain ⟨v, hv, rfl⟩ := List.mem_map.1 hx
          exact hnum v (by simp [hv]))
        (by
          intro i x hx
          cases i with
          | zero => simp at hx; subst hx; exact F32.le_refl (hnum v0 (by simp))
          | succ i => simp at hx)
        (by intro i x hi; omega)
      have hmap : [f v0] ++ vs.map f = (v0 :: vs).map f := rfl
      rw [hmap] at h1 h2 h3
      rw [List.getElem?_map] at h1
      obtain ⟨v, hv, rfl⟩ := Option.map_eq_some_iff.1 h1
      refine ⟨v, hv, ?_, ?_⟩
      · intro w hw
        obtain ⟨i, hi⟩ := List.getElem?_of_mem hw
        exact h2 i (f w) (by rw [List.getElem?_map, hi]; rfl)
      · intro i w hi hw
        exact h3 i (f w) hi (by rw [List.getElem?_map, hw]; rfl)

/-- **C26, refuted for empty data.** With no points the computation of the entry point reads
`distances[0]` of an empty array. -/
theorem C26_empty_data_unsafe {T : Type} (o : MedoidOps T) (dim : Nat) : medoid o [] dim = .error .ub := by
  unfold medoid
  have : ∃ c, centroid o ([] : List (List T)) dim = .ok c :=
    ⟨_, mapM_eq_map _ (fun _ => o.divN F32.zero 0) _ (fun _ _ => rfl)⟩
  obtain ⟨c, hc⟩ := this
  rw [hc]
  rfl

/-- Integer arithmetic for an example: sums as numbers, quotient rounded down. -/
def exMedOps : MedoidOps Nat where
  addT := fun a x => ⟨a.bits + BitVec.ofNat 32 x⟩
  divN := fun a n => ⟨BitVec.ofNat 32 (a.bits.toNat / n)⟩
  sqDiff := fun c x => exNat ((c.bits.toNat - x + (x - c.bits.toNat)) ^ 2)
  add := fun a b => if a = F32.zero then b else a

example : medoid exMedOps [[1], [9], [4], [6], [5]] 1 = .ok 4 ∧
    medoid exMedOps [[1], [9], [6], [4]] 1 = .ok 2 ∧
    (∀ v ∈ [[1], [9], [4], [6], [5]],
      (distOf exMedOps (centerOf exMedOps [[1], [9], [4], [6], [5]] 1) v).IsNum) := by decide +kernel

/-! ## The theorems applied to the examples -/

example := C59_entry_point exMedOps [[1], [9], [4], [6], [5]] 1 (by decide) (by decide)

example : medoid exMedOps [] 3 = .error .ub := C26_empty_data_unsafe exMedOps 3

end Grann
