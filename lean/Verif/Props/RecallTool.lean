import Verif.Model.RecallTool
import Verif.Props.Recall
import Verif.Props.Truthset
/-!
# C45: the recall tool
-/

namespace Grann

theorem unle4_lt (b : Bytes) (h : b.length ≤ 4) : unle b < 4294967296 := by
  have := unle_lt b
  calc unle b < 256 ^ b.length := this
    _ ≤ 256 ^ 4 := Nat.pow_le_pow_right (by omega) h
    _ = _ := by norm_num

theorem truth_sizes {f : Bytes} {T : Truth} (h : Spec.truth f = .ok T) : T.ids.length = T.dim * T.npts ∧ T.dim < 4294967296 ∧
    T.npts < 4294967296 ∧ ∀ d, T.dists = some d → d.length = T.dim * T.npts := by
  have hd : unle ((f.drop 4).take 4) < 4294967296 := unle4_lt _ (by rw [List.length_take]; omega)
  have hn : unle (f.take 4) < 4294967296 := unle4_lt _ (by rw [List.length_take]; omega)
  unfold Spec.truth at h
  dsimp only at h
  split at h
  · injection h with h; subst h
    exact ⟨by simp [Spec.words, Nat.mul_comm], hd, hn, by simp⟩
  · split at h
    · injection h with h; subst h
      refine ⟨by simp [Spec.words, Nat.mul_comm], hd, hn, ?_⟩
      intro d hd'
      injection hd' with hd'; subst hd'
      simp [Spec.words, Nat.mul_comm]
    · cases h

/-- **C45 (the tool).** Given two ground-truth files, the tool prints the recall of the second with respect to the first: 100 times the
number of different counted answers, divided by the number of queries and `recall_at`, up to 4 parts in 2^53. -/
theorem C45_tool_partial (f g : Bytes) (hf : f.length < 9223372036854775808) (hg : g.length < 9223372036854775808) (j1 j2 : TruthJunk)
    (hj1 : j1.npts.length = 4 ∧ j1.dim.length = 4) (hj2 : j2.npts.length = 4 ∧ j2.dim.length = 4) {G O : Truth}
    (hG : Spec.truth f = .ok G) (hO : Spec.truth g = .ok O) (k : Nat) (hk : 1 ≤ k) (hkG : k ≤ G.dim) (hkO : k ≤ O.dim)
    (hn : G.npts = O.npts) (h0 : 0 < G.npts)
    (hnum : ∀ d, G.dists = some d → ∀ i < G.npts, ∃ x, (Spec.row d G.dim i)[k - 1]? = some x ∧ x.IsNum) :
    ∃ v, recallTool (some f) (some g) j1 j2 k = .ok (some v) ∧
      |fval v - 100 * (((List.range G.npts).map (fun i =>
        (Spec.countedSet G.ids G.dists G.dim k i ∩ ((Spec.row O.ids O.dim i).take k).toFinset).card)).sum : ℕ) / (G.npts * k)| ≤
      100 * (((List.range G.npts).map (fun i =>
        (Spec.countedSet G.ids G.dists G.dim k i ∩ ((Spec.row O.ids O.dim i).take k).toFinset).card)).sum : ℕ) / (G.npts * k) *
        (4 / 2 ^ 53) ∧ 0 ≤ fval v ∧ fval v ≤ 100 + 1 / 2 ^ 44 := by
  obtain ⟨a1, a2, -, a4⟩ := truth_sizes hG
  obtain ⟨b1, -, -, -⟩ := truth_sizes hO
  have hin : RecallInput G.npts G.ids G.dists G.dim O.ids O.dim k :=
    ⟨a1, by rw [hn]; exact b1, fun d hd => ⟨a4 d hd, hnum d hd⟩, hk, hkG, hkO, a2⟩
  obtain ⟨t, v, h1, h2, h3, h4, h5⟩ := C45_value_partial _ _ _ _ _ _ _ hin h0
  have hc := C45_count_partial _ _ _ _ _ _ _ hin
  rw [h1] at hc
  injection hc with hc
  refine ⟨v, ?_, hc ▸ h3, h4, h5⟩
  unfold recallTool
  rw [C46_load f hf j1 hj1.1 hj1.2, hG, Res.ok_bind, C46_load g hg j2 hj2.1 hj2.2, hO, Res.ok_bind, if_neg (by omega), if_neg (by omega), h2]
  rfl

/-- **C45 (the tool, other cases).** Files with different numbers of queries or too few columns give the message, files that are no
ground truth end the program. -/
theorem C45_tool_rejects (f g : Bytes) (hf : f.length < 9223372036854775808) (hg : g.length < 9223372036854775808) (j1 j2 : TruthJunk)
    (hj1 : j1.npts.length = 4 ∧ j1.dim.length = 4) (hj2 : j2.npts.length = 4 ∧ j2.dim.length = 4) (k : Nat) :
    (∀ G O, Spec.truth f = .ok G → Spec.truth g = .ok O → (G.npts ≠ O.npts ∨ G.dim < k ∨ O.dim < k) →
      recallTool (some f) (some g) j1 j2 k = .ok none) ∧
    (Spec.truth f = .error .throw → recallTool (some f) (some g) j1 j2 k = .error .throw) ∧
    (∀ G, Spec.truth f = .ok G → Spec.truth g = .error .throw → recallTool (some f) (some g) j1 j2 k = .error .throw) := by
  have e1 := C46_load f hf j1 hj1.1 hj1.2
  have e2 := C46_load g hg j2 hj2.1 hj2.2
  unfold recallTool
  rw [e1, e2]
  refine ⟨?_, ?_, ?_⟩
  · intro G O hG hO h
    rw [hG, hO, Res.ok_bind, Res.ok_bind]
    by_cases hn : G.npts = O.npts
    · rw [if_neg (by simpa using hn), if_pos (by omega)]
    · rw [if_pos hn]
  · intro h; rw [h]; rfl
  · intro G hG h; rw [hG, h]; rfl

/-- **C45 (the tool, `recall_at` 0).** The number 0 is not rejected; with a first file that has distances the tool reads outside the
array. -/
theorem C45_tool_zero (f g : Bytes) (hf : f.length < 4294967296) (hg : g.length < 9223372036854775808) (j1 j2 : TruthJunk)
    (hj1 : j1.npts.length = 4 ∧ j1.dim.length = 4) (hj2 : j2.npts.length = 4 ∧ j2.dim.length = 4) {G O : Truth} {d : List F32}
    (hG : Spec.truth f = .ok G) (hO : Spec.truth g = .ok O) (hn : G.npts = O.npts) (h0 : 0 < G.npts) (hd : G.dists = some d) :
    recallTool (some f) (some g) j1 j2 0 = .error .ub := by
  obtain ⟨a1, a2, -, a4⟩ := truth_sizes hG
  have hlen : G.ids.length < 4294967295 := by
    have h := hG
    unfold Spec.truth at h
    dsimp only at h
    split at h
    · injection h with h; subst h; simp at hd
    · split at h
      · rename_i hl
        injection h with h; subst h
        simp only [Spec.words, List.length_map, List.length_range]
        omega
      · cases h
  unfold recallTool
  rw [C46_load f (by omega) j1 hj1.1 hj1.2, hG, Res.ok_bind, C46_load g hg j2 hj2.1 hj2.2, hO, Res.ok_bind, if_neg (by omega),
    if_neg (by omega), hd, C45_recall_at_zero _ h0 _ _ _ hlen a2]
  rfl

/-- Uninitialised memory. -/
def exToolJunk : TruthJunk := ⟨fun _ => 7, [1, 2, 3, 4], [5, 6, 7, 8], fun _ => 9, fun _ => 3⟩

/-- One query: the true neighbours 5 and 6, and the answers 6 and 9. -/
example : Spec.truth [1, 0, 0, 0, 2, 0, 0, 0, 5, 0, 0, 0, 6, 0, 0, 0] = .ok ⟨1, 2, [5, 6], none⟩ ∧
    Spec.truth [1, 0, 0, 0, 2, 0, 0, 0, 6, 0, 0, 0, 9, 0, 0, 0] = .ok ⟨1, 2, [6, 9], none⟩ := by decide +kernel

/-- The recall at 2 is 50. -/
example : ∃ v, recallTool (some [1, 0, 0, 0, 2, 0, 0, 0, 5, 0, 0, 0, 6, 0, 0, 0]) (some [1, 0, 0, 0, 2, 0, 0, 0, 6, 0, 0, 0, 9, 0, 0, 0])
    exToolJunk exToolJunk 2 = .ok (some v) ∧ 0 ≤ fval v ∧ fval v ≤ 100 + 1 / 2 ^ 44 := by
  obtain ⟨v, h1, -, h2, h3⟩ := C45_tool_partial [1, 0, 0, 0, 2, 0, 0, 0, 5, 0, 0, 0, 6, 0, 0, 0]
    [1, 0, 0, 0, 2, 0, 0, 0, 6, 0, 0, 0, 9, 0, 0, 0] (by decide) (by decide) exToolJunk exToolJunk ⟨rfl, rfl⟩ ⟨rfl, rfl⟩
    (G := ⟨1, 2, [5, 6], none⟩) (O := ⟨1, 2, [6, 9], none⟩) (by decide +kernel) (by decide +kernel) 2 (by decide) (by decide) (by decide)
    rfl (by decide) (by simp)
  exact ⟨v, h1, h2, h3⟩

/-- A first file with distances for `C45_tool_zero`. -/
example : recallTool (some [1, 0, 0, 0, 1, 0, 0, 0, 5, 0, 0, 0, 0, 0, 0, 0]) (some [1, 0, 0, 0, 1, 0, 0, 0, 6, 0, 0, 0])
    exToolJunk exToolJunk 0 = .error .ub :=
  C45_tool_zero _ _ (by decide) (by decide) exToolJunk exToolJunk ⟨rfl, rfl⟩ ⟨rfl, rfl⟩
    (G := ⟨1, 1, [5], some [F32.ofWord 0]⟩) (O := ⟨1, 1, [6], none⟩) (by decide +kernel) (by decide +kernel) rfl (by decide) rfl

/-! ## The theorems applied to the examples -/

/-- Two columns, recall at 3. -/
example : recallTool (some [1, 0, 0, 0, 2, 0, 0, 0, 5, 0, 0, 0, 6, 0, 0, 0]) (some [1, 0, 0, 0, 2, 0, 0, 0, 6, 0, 0, 0, 9, 0, 0, 0])
    exToolJunk exToolJunk 3 = .ok none :=
  (C45_tool_rejects _ _ (by decide) (by decide) exToolJunk exToolJunk ⟨rfl, rfl⟩ ⟨rfl, rfl⟩ 3).1
    ⟨1, 2, [5, 6], none⟩ ⟨1, 2, [6, 9], none⟩ (by decide +kernel) (by decide +kernel) (by decide)

end Grann
