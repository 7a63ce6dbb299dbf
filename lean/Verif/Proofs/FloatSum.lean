import Verif.Proofs.FloatArith
import Verif.Spec.Search
/-!
# Sums of products of floats
-/

namespace Grann

open Spec

theorem sqDistVal_nonneg (a b : List F32) : 0 ≤ sqDistVal a b := by
  unfold sqDistVal
  induction a generalizing b with
  | nil => simp
  | cons x a ih =>
    cases b with
    | nil => simp
    | cons y b =>
      simp only [List.zipWith_cons_cons, List.sum_cons]
      have := ih b
      positivity

/-- The terms of a sum that a tree evaluates, in order. -/
theorem total_sums {T : SumTree} {n : Nat} (hT : T.Sums n) (g : F32 → F32 → ℚ) {a b : List F32} (ha : a.length = n) (hb : b.length = n) :
    T.total (fun i => g (a.getD i F32.zero) (b.getD i F32.zero)) = (List.zipWith g a b).sum := by
  unfold SumTree.total
  rw [(hT.map _).sum_eq]
  congr 1
  apply List.ext_getElem
  · simp [ha, hb]
  · intro i h1 h2
    simp at h1 h2
    simp [List.getD, List.getElem?_eq_getElem (by omega : i < a.length), List.getElem?_eq_getElem (by omega : i < b.length)]

theorem rd_getD_zero {a : List F32} {i : Nat} (h : i < a.length) : rd a i = .ok (a.getD i F32.zero) := by
  unfold rd
  simp [List.getD, List.getElem?_eq_getElem h]

theorem mem_getD {a : List F32} {i : Nat} (h : i < a.length) : a.getD i F32.zero ∈ a := by
  simp [List.getD, List.getElem?_eq_getElem h]

theorem l2_term (ftz : Bool) {a b : List F32} {i : Nat} (ha : ∀ x ∈ a, Spec.Finite x) (hb : ∀ x ∈ b, Spec.Finite x) (hia : i < a.length) (hib : i < b.length)
    (hlt : |value (a.getD i F32.zero) - value (b.getD i F32.zero)| < ovf) :
    SumTree.TermOk (l2Factor ftz a b) 2 (if ftz then 2 ^ (-252 : Int) else 0) i ((value (a.getD i F32.zero) - value (b.getD i F32.zero)) ^ 2) := by
  refine ⟨_, _, by unfold l2Factor; rw [rd_getD_zero hia, rd_getD_zero hib]; rfl, ?_⟩
  obtain ⟨h1, h2⟩ := sub_err ftz (ha _ (mem_getD hia)) (hb _ (mem_getD hib)) hlt
  refine ⟨h1, h1, ?_⟩
  generalize value (a.getD i F32.zero) - value (b.getD i F32.zero) = δ at *
  generalize value (F32.sub ftz (a.getD i F32.zero) (b.getD i F32.zero)) = d at *
  have hu0 : (0 : ℚ) < ulp24 := by unfold ulp24; positivity
  rcases h2 with ⟨rfl, h2, rfl⟩ | h2
  · rw [if_pos rfl, mul_zero, zero_sub, abs_neg]
    have h3 : |δ ^ 2| ≤ 2 ^ (-252 : Int) := by
      rw [abs_pow]
      calc |δ| ^ 2 ≤ (2 ^ (-126 : Int)) ^ 2 := by gcongr
        _ = 2 ^ (-252 : Int) := by norm_num
    have : 0 ≤ ((1 + ulp24) ^ 2 - 1) * |δ ^ 2| := by
      have : 0 ≤ (1 + ulp24) ^ 2 - 1 := by nlinarith
      positivity
    linarith
  · have e : d * d - δ ^ 2 = (d - δ) * (d + δ) := by ring
    have h3 : |d + δ| ≤ (2 + ulp24) * |δ| := by
      rw [show d + δ = (d - δ) + (δ + δ) by ring]
      have := abs_add_le (d - δ) (δ + δ)
      have := abs_add_le δ δ
      linarith
    have h4 : |d * d - δ ^ 2| ≤ (|δ| * ulp24) * ((2 + ulp24) * |δ|) := by
      rw [e, abs_mul]; gcongr
    rw [abs_pow]
    have h5 : (|δ| * ulp24) * ((2 + ulp24) * |δ|) = ((1 + ulp24) ^ 2 - 1) * |δ| ^ 2 := by ring
    have h6 : (0 : ℚ) ≤ if ftz then 2 ^ (-252 : Int) else 0 := by split <;> positivity
    linarith

theorem ulp24_def : ulp24 = 2 ^ (-24 : Int) := rfl

theorem ovf_gt : (2 : ℚ) ^ (127 : Int) < ovf := by unfold ovf; norm_num

theorem sq_lt_ovf {δ : ℚ} (h : δ ^ 2 < ovf) : |δ| < ovf := by
  by_contra hc
  have h1 : (1 : ℚ) ≤ ovf := by unfold ovf; norm_num
  have h2 := not_lt.1 hc
  have : ovf ≤ |δ| ^ 2 := by nlinarith
  rw [sq_abs] at this
  linarith

theorem l2_sum_mem {T : SumTree} {n : Nat} (hT : T.Sums n) {a b : List F32} (ha : a.length = n) (hb : b.length = n) {i : Nat} (hi : i < n) :
    (value (a.getD i F32.zero) - value (b.getD i F32.zero)) ^ 2 ≤ sqDistVal a b := by
  rw [show sqDistVal a b = T.total (fun i => (value (a.getD i F32.zero) - value (b.getD i F32.zero)) ^ 2) from
    (total_sums hT (fun x y => (value x - value y) ^ 2) ha hb).symm]
  unfold SumTree.total
  apply List.single_le_sum
  · intro x hx
    obtain ⟨j, _, rfl⟩ := List.mem_map.1 hx
    positivity
  · exact List.mem_map.2 ⟨i, hT.mem_iff.2 (List.mem_range.2 hi), rfl⟩

/-! ### Signs, symmetry, padding -/

/-- Results of operations on nonnegative numbers: nonnegative or infinite, and not subnormal if such results are flushed. -/
def Clean (ftz : Bool) (x : F32) : Prop := x.sign = false ∧ x.mag ≤ 2139095040 ∧ (ftz = true → x.mag = 0 ∨ 8388608 ≤ x.mag)

theorem clean_zero (ftz : Bool) : Clean ftz F32.zero := ⟨by decide, by decide, fun _ => Or.inl (by decide)⟩

theorem units_nonneg {x : F32} (h : x.sign = false) : 0 ≤ x.units := by
  unfold F32.units
  rw [h]
  simp only [Bool.false_eq_true, if_false]
  exact Int.natCast_nonneg _

theorem units_sq (x : F32) : 0 ≤ x.units * x.units := mul_self_nonneg _

theorem units_mul {x y : F32} (h : x.sign = y.sign) : 0 ≤ x.units * y.units := by
  unfold F32.units
  dsimp only
  rw [h]
  split
  · rw [neg_mul_neg]; positivity
  · positivity

/-- Results that are not flushed are not subnormal. -/
theorem nearestBits_normal {n d : Nat} (hn : 0 < n) (hd : 0 < d) (h : 2 ^ (-126 : Int) - 2 ^ (-151 : Int) ≤ fval (n, d)) : 8388608 ≤ nearestBits n d := by
  by_contra hc
  have hlt : nearestBits n d ≤ 8388607 := by omega
  have h1 := magnitude_strictMono.monotone hlt
  have e1 : magnitude 8388607 = 8388607 * 2 ^ (-149 : Int) := by norm_num [magnitude]
  have e2 : value (F32.pack false 8388608) = 8388608 * 2 ^ (-149 : Int) := by
    rw [pack_value _ (by norm_num)]; norm_num [magnitude]
  have h2 := (nearestBits_nearest hn hd (F32.pack false 8388608)).1
  rw [e2] at h2
  rw [e1] at h1
  generalize magnitude (nearestBits n d) = v at *
  generalize fval (n, d) = q at *
  have h3 : (8388607 : ℚ) * 2 ^ (-149 : Int) < q := lt_of_lt_of_le (by norm_num) h
  rw [abs_of_nonpos (by linarith)] at h2
  rcases le_or_gt q (8388608 * 2 ^ (-149 : Int)) with h4 | h4
  · rw [abs_of_nonneg (by linarith)] at h2
    have : (8388607 : ℚ) * 2 ^ (-149 : Int) < 2 * (2 ^ (-126 : Int) - 2 ^ (-151 : Int)) - 8388608 * 2 ^ (-149 : Int) := by norm_num
    linarith
  · rw [abs_of_nonpos (by linarith)] at h2
    have : (8388607 : ℚ) * 2 ^ (-149 : Int) < 8388608 * 2 ^ (-149 : Int) := by norm_num
    linarith

theorem round_clean (ftz : Bool) {n : Int} {k : Nat} (h : 0 ≤ n) : Clean ftz (F32.round ftz false n k) := by
  refine ⟨round_nonneg ftz h, round_mag_le _ _ _ _, ?_⟩
  intro hf
  by_cases hn : n = 0
  · subst hn
    left
    rw [round_zero, pack_mag _ (by norm_num)]
  · rw [round_mag]
    by_cases hc : n.natAbs * 2 ^ 151 < 33554431 * 2 ^ k
    · left
      rw [hf, decide_eq_true hc, Bool.and_true, if_pos rfl]
    · right
      rw [decide_eq_false hc, Bool.and_false, if_neg Bool.false_ne_true]
      refine le_min (nearestBits_normal (by omega) (by positivity) ?_) (by norm_num)
      rw [fval_exact]
      exact flush_ge hc

theorem inf_clean (ftz : Bool) : Clean ftz (F32.pack false 2139095040) :=
  ⟨pack_sign _ (by norm_num), by rw [pack_mag _ (by norm_num)], fun _ => Or.inr (by rw [pack_mag _ (by norm_num)]; norm_num)⟩

theorem clean_not_nan {ftz : Bool} {x : F32} (h : Clean ftz x) : x.isNan = false := by
  unfold F32.isNan; rw [decide_eq_false_iff_not]; have := h.2.1; omega

theorem finite_of_not_inf {x : F32} (h1 : x.mag ≤ 2139095040) (h2 : x.isInf = false) : Spec.Finite x := by
  unfold F32.isInf at h2
  rw [decide_eq_false_iff_not] at h2
  rw [finite_mag]
  omega

theorem add_clean (ftz : Bool) {x y : F32} (hx : Clean ftz x) (hy : Clean ftz y) : Clean ftz (F32.add ftz x y) := by
  unfold F32.add
  rw [clean_not_nan hx, clean_not_nan hy, hx.1, hy.1]
  simp only [Bool.or_false, Bool.false_eq_true, if_false, bne_self_eq_false, Bool.and_false]
  split
  · exact hx
  · split
    · exact hy
    · exact round_clean ftz (add_nonneg (units_nonneg hx.1) (units_nonneg hy.1))

theorem sq_clean (ftz : Bool) {d : F32} (hd : d.isNan = false) : Clean ftz (F32.mul ftz d d) := by
  unfold F32.mul
  rw [hd]
  simp only [Bool.or_false, Bool.false_eq_true, if_false, bne_self_eq_false, Bool.or_self]
  split
  · rename_i h
    rw [if_neg]
    · exact inf_clean ftz
    · unfold F32.isInf at h
      rw [decide_eq_true_iff] at h
      omega
  · exact round_clean ftz (units_sq d)

theorem fma_clean (ftz : Bool) {d z : F32} (hd : d.isNan = false) (hz : Clean ftz z) : Clean ftz (F32.fma ftz d d z) := by
  unfold F32.fma
  rw [hd, clean_not_nan hz, hz.1]
  simp only [Bool.or_false, Bool.false_eq_true, if_false, bne_self_eq_false, Bool.or_self, Bool.and_false]
  split
  · rename_i h
    rw [if_neg]
    · exact inf_clean ftz
    · unfold F32.isInf at h
      rw [decide_eq_true_iff] at h
      omega
  · split
    · exact hz
    · exact round_clean ftz (add_nonneg (units_sq d) (mul_nonneg (units_nonneg hz.1) (by positivity)))

theorem sub_not_nan (ftz : Bool) {x y : F32} (hx : Spec.Finite x) (hy : Spec.Finite y) : (F32.sub ftz x y).isNan = false := by
  unfold F32.sub F32.isNan
  rw [add_eq ftz hx (neg_finite hy), decide_eq_false_iff_not]
  have := round_mag_le ftz (x.sign && y.neg.sign) (x.units + y.neg.units) 149
  omega

theorem eval_term_ok {ftz : Bool} {f : Nat → Res (F32 × F32)} {i : Nat} {d e : F32} (h : f i = .ok (d, e)) :
    (SumTree.term i).eval ftz f = .ok (F32.mul ftz d e) := by
  simp only [SumTree.eval, h]; rfl

theorem eval_add_ok {ftz : Bool} {f : Nat → Res (F32 × F32)} {l r : SumTree} {x y : F32} (hl : l.eval ftz f = .ok x) (hr : r.eval ftz f = .ok y) :
    (SumTree.add l r).eval ftz f = .ok (F32.add ftz x y) := by
  simp only [SumTree.eval, hl, hr]; rfl

theorem eval_fma_ok {ftz : Bool} {f : Nat → Res (F32 × F32)} {i : Nat} {t : SumTree} {d e z : F32} (h : f i = .ok (d, e)) (hz : t.eval ftz f = .ok z) :
    (SumTree.fma i t).eval ftz f = .ok (F32.fma ftz d e z) := by
  simp only [SumTree.eval, h, hz]; rfl
/-- Evaluation with factors that are equal numbers. -/
theorem eval_clean (ftz : Bool) (f : Nat → Res (F32 × F32)) : ∀ T : SumTree, (∀ i ∈ T.leaves, ∃ d, f i = .ok (d, d) ∧ d.isNan = false) →
    ∃ r, T.eval ftz f = .ok r ∧ Clean ftz r := by
  intro T
  induction T with
  | init => exact fun _ => ⟨_, rfl, clean_zero ftz⟩
  | term i =>
    intro h
    obtain ⟨d, e, hd⟩ := h i (by simp [SumTree.leaves])
    exact ⟨_, eval_term_ok e, sq_clean ftz hd⟩
  | add l r ihl ihr =>
    intro h
    obtain ⟨x, ex, hx⟩ := ihl (fun i hi => h i (by simp [SumTree.leaves, hi]))
    obtain ⟨y, ey, hy⟩ := ihr (fun i hi => h i (by simp [SumTree.leaves, hi]))
    exact ⟨_, eval_add_ok ex ey, add_clean ftz hx hy⟩
  | fma i t ih =>
    intro h
    obtain ⟨d, e, hd⟩ := h i (by simp [SumTree.leaves])
    obtain ⟨z, ez, hz⟩ := ih (fun i hi => h i (by simp [SumTree.leaves, hi]))
    exact ⟨_, eval_fma_ok e ez, fma_clean ftz hd hz⟩

theorem l2Factor_ok (ftz : Bool) {a b : List F32} {i : Nat} (hfa : ∀ x ∈ a, Spec.Finite x) (hfb : ∀ x ∈ b, Spec.Finite x) (ha : i < a.length) (hb : i < b.length) :
    ∃ d, l2Factor ftz a b i = .ok (d, d) ∧ d.isNan = false := by
  refine ⟨_, by unfold l2Factor; rw [rd_getD_zero ha, rd_getD_zero hb]; rfl, ?_⟩
  exact sub_not_nan ftz (hfa _ (mem_getD ha)) (hfb _ (mem_getD hb))

theorem clean_le {ftz : Bool} {r : F32} (h : Clean ftz r) : F32.zero.le r = true := by
  obtain ⟨h1, h2, _⟩ := h
  unfold F32.sign at h1
  rw [decide_eq_false_iff_not] at h1
  unfold F32.mag at h2
  unfold F32.le F32.key
  dsimp only
  rw [if_neg (by decide), if_pos (by decide), if_neg (by omega), if_pos (by omega)]
  apply decide_eq_true
  rw [show F32.zero.bits.toNat = 0 by rfl]
  exact Int.natCast_nonneg _

theorem units_natAbs (x : F32) : x.units.natAbs = if x.mag / 8388608 = 0 then x.mag else (8388608 + x.mag % 8388608) * 2 ^ (x.mag / 8388608 - 1) := by
  unfold F32.units
  dsimp only
  split
  · rw [Int.natAbs_neg, Int.natAbs_natCast]
  · rw [Int.natAbs_natCast]

theorem units_sq_congr {x y : F32} (h : x.mag = y.mag) : x.units * x.units = y.units * y.units := by
  have : x.units.natAbs = y.units.natAbs := by rw [units_natAbs, units_natAbs, h]
  rw [← Int.natAbs_mul_self (a := x.units), ← Int.natAbs_mul_self (a := y.units), this]

theorem sq_congr (ftz : Bool) {x y : F32} (h : x.mag = y.mag) : F32.mul ftz x x = F32.mul ftz y y := by
  unfold F32.mul F32.isNan F32.isInf
  rw [h, units_sq_congr h]
  simp

theorem fma_congr (ftz : Bool) {x y : F32} (h : x.mag = y.mag) (z : F32) : F32.fma ftz x x z = F32.fma ftz y y z := by
  unfold F32.fma F32.isNan F32.isInf
  rw [h, units_sq_congr h]
  simp

theorem sub_mag_comm (ftz : Bool) (x y : F32) : (F32.sub ftz x y).mag = (F32.sub ftz y x).mag := by
  unfold F32.sub F32.add F32.isNan F32.isInf
  rw [neg_mag, neg_mag, neg_sign, neg_sign, units_neg, units_neg]
  by_cases h1 : 2139095040 < x.mag
  · simp [h1]
  by_cases h2 : 2139095040 < y.mag
  · simp [h2]
  by_cases h3 : x.mag = 2139095040 <;> by_cases h4 : y.mag = 2139095040
  · simp [h3, h4]
    cases x.sign <;> cases y.sign <;> simp [h3, h4, neg_mag]
  · simp [h1, h2, h3, h4, neg_mag]
  · simp [h1, h2, h3, h4, neg_mag]
  · simp only [h1, h2, h3, h4, decide_false, Bool.or_self, Bool.false_eq_true, if_false]
    rw [round_mag, round_mag, show y.units + -x.units = -(x.units + -y.units) by ring, Int.natAbs_neg]

theorem eval_congr (ftz : Bool) (f g : Nat → Res (F32 × F32)) : ∀ T : SumTree,
    (∀ i ∈ T.leaves, ∃ d e, f i = .ok (d, d) ∧ g i = .ok (e, e) ∧ d.mag = e.mag) → ∃ r, T.eval ftz f = .ok r ∧ T.eval ftz g = .ok r := by
  intro T
  induction T with
  | init => exact fun _ => ⟨_, rfl, rfl⟩
  | term i =>
    intro h
    obtain ⟨d, e, h1, h2, h3⟩ := h i (by simp [SumTree.leaves])
    exact ⟨_, eval_term_ok h1, by rw [sq_congr ftz h3]; exact eval_term_ok h2⟩
  | add l r ihl ihr =>
    intro h
    obtain ⟨x, h1, h2⟩ := ihl (fun i hi => h i (by simp [SumTree.leaves, hi]))
    obtain ⟨y, h3, h4⟩ := ihr (fun i hi => h i (by simp [SumTree.leaves, hi]))
    exact ⟨_, eval_add_ok h1 h3, eval_add_ok h2 h4⟩
  | fma i t ih =>
    intro h
    obtain ⟨d, e, h1, h2, h3⟩ := h i (by simp [SumTree.leaves])
    obtain ⟨z, h4, h5⟩ := ih (fun i hi => h i (by simp [SumTree.leaves, hi]))
    exact ⟨_, eval_fma_ok h1 h4, by rw [fma_congr ftz h3]; exact eval_fma_ok h2 h5⟩

theorem add_zero_zero (ftz : Bool) : F32.add ftz F32.zero F32.zero = F32.zero := by
  unfold F32.add
  rw [show F32.zero.isNan = false by decide, show F32.zero.isInf = false by decide, show F32.zero.sign = false by decide,
    show F32.zero.units = 0 by decide]
  simp only [Bool.or_self, Bool.false_eq_true, if_false, Bool.and_self, add_zero]
  rw [round_zero]
  decide

theorem eval_zero (ftz : Bool) (f : Nat → Res (F32 × F32)) : ∀ T : SumTree,
    (∀ i ∈ T.leaves, ∃ d, f i = .ok (d, d) ∧ F32.mul ftz d d = F32.zero ∧ F32.fma ftz d d F32.zero = F32.zero) → T.eval ftz f = .ok F32.zero := by
  intro T
  induction T with
  | init => exact fun _ => rfl
  | term i =>
    intro h
    obtain ⟨d, h1, h2, h3⟩ := h i (by simp [SumTree.leaves])
    rw [eval_term_ok h1, h2]
  | add l r ihl ihr =>
    intro h
    rw [eval_add_ok (ihl (fun i hi => h i (by simp [SumTree.leaves, hi]))) (ihr (fun i hi => h i (by simp [SumTree.leaves, hi]))), add_zero_zero]
  | fma i t ih =>
    intro h
    obtain ⟨d, h1, h2, h3⟩ := h i (by simp [SumTree.leaves])
    rw [eval_fma_ok h1 (ih (fun i hi => h i (by simp [SumTree.leaves, hi]))), h3]

theorem nearestBits_zero {n d : Nat} (hd : 0 < d) (h : fval (n, d) < 2 ^ (-150 : Int)) : nearestBits n d = 0 := by
  by_cases hn : n = 0
  · subst hn; unfold nearestBits; rw [if_pos rfl]
  have hn : 0 < n := by omega
  have ht : 0 < fval (n, d) := fval_pos hn hd
  have h2 := (nearestBits_nearest hn hd F32.zero).1
  have e : value F32.zero = 0 := by norm_num [value, F32.zero, magnitude]
  rw [e, zero_sub, abs_neg, abs_of_pos ht] at h2
  have h3 := (abs_le.1 h2).2
  have e1 : magnitude 1 = 2 ^ (-149 : Int) := by norm_num [magnitude]
  have e2 : (2 : ℚ) ^ (-149 : Int) = 2 * 2 ^ (-150 : Int) := by norm_num
  have : magnitude (nearestBits n d) < magnitude 1 := by rw [e1, e2]; linarith
  have := magnitude_strictMono.lt_iff_lt.1 this
  omega

theorem round_tiny (ftz : Bool) {n : Int} {k : Nat} (h0 : 0 ≤ n) (h : (n : ℚ) / 2 ^ k < 2 ^ (-150 : Int)) : F32.round ftz false n k = F32.zero := by
  have hs := round_nonneg ftz (k := k) h0
  have hm : (F32.round ftz false n k).mag = 0 := by
    rw [round_mag]
    split
    · rfl
    · rw [nearestBits_zero (by positivity) (by rw [fval_exact, abs_of_nonneg (by positivity)]; exact h)]
      rfl
  rw [← pack_self (F32.round ftz false n k), hs, hm]
  decide

/-! ### Padding -/

theorem nearestBits_self {n d m : Nat} (hn : 0 < n) (hd : 0 < d) (hm : m < 2139095040) (h : fval (n, d) = magnitude m) : nearestBits n d = m := by
  have h1 := (nearestBits_nearest hn hd (F32.pack false m)).1
  rw [pack_value _ (by omega), h] at h1
  simp only [Bool.false_eq_true, if_false, one_mul, sub_self, abs_zero] at h1
  have h2 := abs_nonpos_iff.1 h1
  exact magnitude_strictMono.injective (by linarith)

/-- A number that is not subnormal if those are flushed, is the result of rounding itself. -/
theorem round_val (ftz : Bool) {z : F32} (hz : Clean ftz z) (hf : Spec.Finite z) {n : Int} {k : Nat} (hn : 0 ≤ n) (hval : (n : ℚ) / 2 ^ k = value z) :
    F32.round ftz false n k = z := by
  have hs : (F32.round ftz false n k).sign = z.sign := by
    rw [hz.1]; exact round_nonneg ftz hn
  have hvm : value z = magnitude z.mag := by rw [value_pack, hz.1]; simp
  have hm : (F32.round ftz false n k).mag = z.mag := by
    rw [round_mag]
    by_cases h0 : z.mag = 0
    · have hn0 : n = 0 := by
        have e : (n : ℚ) / 2 ^ k = 0 := by rw [hval, hvm, h0, magnitude_zero]
        rcases div_eq_zero_iff.1 e with e | e
        · exact_mod_cast e
        · exact absurd e (by positivity)
      rw [hn0, h0]
      split
      · rfl
      · simp [nearestBits]
    · have hne : n ≠ 0 := by
        rintro rfl
        rw [Int.cast_zero, zero_div, hvm, ← magnitude_zero] at hval
        exact h0 (magnitude_strictMono.injective hval.symm)
      have hnp : 0 < n.natAbs := by omega
      have hfv : fval (n.natAbs, 2 ^ k) = magnitude z.mag := by
        rw [fval_exact, hval, hvm, abs_of_nonneg]
        rw [← magnitude_zero]
        exact magnitude_strictMono.monotone (Nat.zero_le _)
      rw [if_neg, nearestBits_self hnp (by positivity) (finite_mag.1 hf) hfv]
      · exact min_eq_left hz.2.1
      · intro hc
        rw [Bool.and_eq_true, decide_eq_true_iff] at hc
        have hl := flush_lt hc.2
        rw [hval, hvm] at hl
        rcases hz.2.2 hc.1 with h | h
        · exact h0 h
        · have := magnitude_strictMono.monotone h
          have e : magnitude 8388608 = 2 ^ (-126 : Int) := by norm_num [magnitude]
          rw [e] at this
          exact absurd hl (not_lt.2 (this.trans (le_abs_self _)))
  rw [← pack_self (F32.round ftz false n k), hs, hm, pack_self]

theorem value_zero' : value F32.zero = 0 := by norm_num [value, F32.zero, magnitude]

theorem round_self (ftz : Bool) {z : F32} (hz : Clean ftz z) (hf : Spec.Finite z) : F32.round ftz false (z.units * 2 ^ 149) 298 = z := by
  refine round_val ftz hz hf (mul_nonneg (units_nonneg hz.1) (by positivity)) ?_
  have := exact_fma F32.zero F32.zero z
  rw [show F32.zero.units = 0 by decide, zero_mul, zero_add] at this
  rw [this, value_zero']
  ring

theorem add_zero_left (ftz : Bool) {z : F32} (hz : Clean ftz z) : F32.add ftz F32.zero z = z := by
  unfold F32.add
  rw [show F32.zero.isNan = false by decide, clean_not_nan hz, show F32.zero.isInf = false by decide, show F32.zero.units = 0 by decide,
    show F32.zero.sign = false by decide]
  simp only [Bool.or_self, Bool.false_eq_true, if_false, Bool.false_and, zero_add]
  by_cases hi : z.isInf = true
  · rw [if_pos hi]
  · rw [if_neg hi]
    refine round_val ftz hz (finite_of_not_inf hz.2.1 (by simpa using hi)) (units_nonneg hz.1) ?_
    have := exact_add F32.zero z
    rw [show F32.zero.units = 0 by decide, zero_add] at this
    rw [this, value_zero', zero_add]

theorem add_comm_F32 (ftz : Bool) {x y : F32} (hx : Clean ftz x) (hy : Clean ftz y) : F32.add ftz x y = F32.add ftz y x := by
  unfold F32.add
  rw [clean_not_nan hx, clean_not_nan hy, hx.1, hy.1, Int.add_comm]
  simp only [Bool.or_self, Bool.false_eq_true, if_false, bne_self_eq_false, Bool.and_false]
  have e : ∀ z : F32, Clean ftz z → z.isInf = true → z = F32.pack false 2139095040 := by
    intro z hz hi
    unfold F32.isInf at hi
    rw [decide_eq_true_iff] at hi
    rw [← pack_self z, hz.1, hi]
  by_cases h1 : x.isInf = true <;> by_cases h2 : y.isInf = true
  · rw [if_pos h1, if_pos h2, e x hx h1, e y hy h2]
  · rw [if_pos h1, if_neg h2, if_pos h1]
  · rw [if_neg h1, if_pos h2, if_pos h2]
  · rw [if_neg h1, if_neg h2, if_neg h2, if_neg h1]

theorem fma_zero (ftz : Bool) {z : F32} (hz : Clean ftz z) : F32.fma ftz F32.zero F32.zero z = z := by
  unfold F32.fma
  rw [show F32.zero.isNan = false by decide, clean_not_nan hz, show F32.zero.isInf = false by decide, show F32.zero.units = 0 by decide]
  simp only [Bool.or_self, Bool.false_eq_true, if_false, bne_self_eq_false, Bool.false_and, zero_mul, zero_add]
  by_cases hi : z.isInf = true
  · rw [if_pos hi]
  · rw [if_neg hi]
    exact round_self ftz hz (finite_of_not_inf hz.2.1 (by simpa using hi))

theorem mul_zero_zero (ftz : Bool) : F32.mul ftz F32.zero F32.zero = F32.zero := by
  unfold F32.mul
  rw [show F32.zero.isNan = false by decide, show F32.zero.isInf = false by decide, show F32.zero.units = 0 by decide]
  simp only [Bool.or_self, Bool.false_eq_true, if_false, bne_self_eq_false, zero_mul]
  rw [round_zero]
  decide

theorem sub_zero_zero (ftz : Bool) : F32.sub ftz F32.zero F32.zero = F32.zero := by
  unfold F32.sub F32.add
  rw [show F32.zero.isNan = false by decide, show F32.zero.isInf = false by decide, show F32.zero.units = 0 by decide,
    show F32.zero.neg.isNan = false by decide, show F32.zero.neg.isInf = false by decide, show F32.zero.neg.units = 0 by decide,
    show F32.zero.sign = false by decide]
  simp only [Bool.or_self, Bool.false_eq_true, if_false, Bool.false_and, add_zero]
  rw [round_zero]
  decide

/-- The order of evaluation that is left if the products from `n` on are taken out. -/
def SumTree.prune (n : Nat) : SumTree → SumTree
  | init => init
  | term i => if i < n then term i else init
  | add l r => add (l.prune n) (r.prune n)
  | fma i t => if i < n then fma i (t.prune n) else t.prune n

theorem prune_leaves (n : Nat) (T : SumTree) : (T.prune n).leaves = T.leaves.filter (· < n) := by
  induction T with
  | init => rfl
  | term i =>
    unfold SumTree.prune
    by_cases h : i < n <;> simp [SumTree.leaves, h]
  | add l r ihl ihr => simp [SumTree.prune, SumTree.leaves, ihl, ihr]
  | fma i t ih =>
    unfold SumTree.prune
    by_cases h : i < n <;> simp [SumTree.leaves, h, ih]

theorem prune_sums {T : SumTree} {n m : Nat} (hT : T.Sums (n + m)) : (T.prune n).Sums n := by
  unfold SumTree.Sums
  rw [prune_leaves]
  refine (hT.filter _).trans ?_
  rw [List.range_add, List.filter_append, List.filter_eq_self.2 (by intro x hx; simpa using hx), List.filter_eq_nil_iff.2 (by
    intro x hx
    obtain ⟨y, _, rfl⟩ := List.mem_map.1 hx
    simp), List.append_nil]

/-- Numbers of additions one after the other cannot grow. -/
theorem prune_height (n : Nat) (T : SumTree) : (T.prune n).height ≤ T.height := by
  induction T with
  | init => exact Nat.le_refl _
  | term i => unfold SumTree.prune; split <;> simp [SumTree.height]
  | add l r ihl ihr => simp only [SumTree.prune, SumTree.height]; omega
  | fma i t ih =>
    unfold SumTree.prune
    split <;> simp only [SumTree.height] <;> omega

/-- Finite factors of the same sign. -/
theorem mul_clean (ftz : Bool) {x y : F32} (hx : Spec.Finite x) (hy : Spec.Finite y) (hs : x.sign = y.sign) : Clean ftz (F32.mul ftz x y) := by
  rw [mul_eq ftz hx hy, hs, bne_self_eq_false]
  exact round_clean ftz (units_mul hs)

theorem fma_clean_mul (ftz : Bool) {x y z : F32} (hx : Spec.Finite x) (hy : Spec.Finite y) (hs : x.sign = y.sign) (hz : Clean ftz z) :
    Clean ftz (F32.fma ftz x y z) := by
  by_cases hi : z.isInf = true
  · unfold F32.fma
    rw [not_nan hx, not_nan hy, not_inf hx, not_inf hy, clean_not_nan hz, hi]
    simpa using hz
  · rw [fma_eq ftz hx hy (finite_of_not_inf hz.2.1 (by simpa using hi)), hs, bne_self_eq_false, Bool.false_and]
    exact round_clean ftz (add_nonneg (units_mul hs) (mul_nonneg (units_nonneg hz.1) (by positivity)))

/-- A product whose sum with other ones is not negative. -/
def CleanTerm (ftz : Bool) (p : F32 × F32) : Prop :=
  Clean ftz (F32.mul ftz p.1 p.2) ∧ ∀ z, Clean ftz z → Clean ftz (F32.fma ftz p.1 p.2 z)

theorem sq_term (ftz : Bool) {d : F32} (hd : d.isNan = false) : CleanTerm ftz (d, d) := ⟨sq_clean ftz hd, fun _ => fma_clean ftz hd⟩

theorem mul_term (ftz : Bool) {x y : F32} (hx : Spec.Finite x) (hy : Spec.Finite y) (hs : x.sign = y.sign) : CleanTerm ftz (x, y) :=
  ⟨mul_clean ftz hx hy hs, fun _ => fma_clean_mul ftz hx hy hs⟩

theorem eval_prune (ftz : Bool) (f g : Nat → Res (F32 × F32)) (n : Nat) : ∀ T : SumTree,
    (∀ i ∈ T.leaves, i < n → ∃ p, f i = .ok p ∧ g i = .ok p ∧ CleanTerm ftz p) →
    (∀ i ∈ T.leaves, ¬ i < n → f i = .ok (F32.zero, F32.zero)) →
    ∃ r, T.eval ftz f = .ok r ∧ (T.prune n).eval ftz g = .ok r ∧ Clean ftz r := by
  intro T
  induction T with
  | init => exact fun _ _ => ⟨_, rfl, rfl, clean_zero ftz⟩
  | term i =>
    intro h1 h2
    by_cases hi : i < n
    · obtain ⟨⟨x, y⟩, e1, e2, hd⟩ := h1 i (by simp [SumTree.leaves]) hi
      refine ⟨_, eval_term_ok e1, ?_, hd.1⟩
      rw [SumTree.prune, if_pos hi]
      exact eval_term_ok e2
    · refine ⟨F32.zero, ?_, ?_, clean_zero ftz⟩
      · rw [eval_term_ok (h2 i (by simp [SumTree.leaves]) hi), mul_zero_zero]
      · rw [SumTree.prune, if_neg hi]; rfl
  | add l r ihl ihr =>
    intro h1 h2
    obtain ⟨x, ex, ex', hx⟩ := ihl (fun i hi => h1 i (by simp [SumTree.leaves, hi])) (fun i hi => h2 i (by simp [SumTree.leaves, hi]))
    obtain ⟨y, ey, ey', hy⟩ := ihr (fun i hi => h1 i (by simp [SumTree.leaves, hi])) (fun i hi => h2 i (by simp [SumTree.leaves, hi]))
    exact ⟨_, eval_add_ok ex ey, eval_add_ok ex' ey', add_clean ftz hx hy⟩
  | fma i t ih =>
    intro h1 h2
    obtain ⟨z, ez, ez', hz⟩ := ih (fun i hi => h1 i (by simp [SumTree.leaves, hi])) (fun i hi => h2 i (by simp [SumTree.leaves, hi]))
    by_cases hi : i < n
    · obtain ⟨⟨x, y⟩, e1, e2, hd⟩ := h1 i (by simp [SumTree.leaves]) hi
      refine ⟨_, eval_fma_ok e1 ez, ?_, hd.2 z hz⟩
      rw [SumTree.prune, if_pos hi]
      exact eval_fma_ok e2 ez'
    · refine ⟨z, ?_, ?_, hz⟩
      · rw [eval_fma_ok (h2 i (by simp [SumTree.leaves]) hi) ez, fma_zero ftz hz]
      · rw [SumTree.prune, if_neg hi]; exact ez'


/-! ### Bounds in simple form -/

theorem pow_le_linear {k : Nat} (h : k ≤ 2 ^ 23) : (1 + 2 ^ (-24 : Int) : ℚ) ^ k ≤ 1 + k * 2 ^ (-23 : Int) := by
  induction k with
  | zero => simp
  | succ k ih =>
    have ih := ih (by omega)
    have e : (2 : ℚ) ^ (-23 : Int) = 2 * 2 ^ (-24 : Int) := by norm_num
    have hk : (k : ℚ) * 2 ^ (-23 : Int) ≤ 1 := by
      have : (k : ℚ) ≤ 2 ^ 23 := by exact_mod_cast (by omega : k ≤ 2 ^ 23)
      have h1 : (2 : ℚ) ^ (23 : Nat) * 2 ^ (-23 : Int) = 1 := by norm_num
      calc (k : ℚ) * 2 ^ (-23 : Int) ≤ 2 ^ 23 * 2 ^ (-23 : Int) := by gcongr
        _ = 1 := h1
    have hu : (0 : ℚ) < 2 ^ (-24 : Int) := by positivity
    rw [pow_succ, Nat.cast_succ]
    rw [e] at ih hk ⊢
    generalize (2 : ℚ) ^ (-24 : Int) = u at *
    have h2 : (1 + u) ^ k * (1 + u) ≤ (1 + k * (2 * u)) * (1 + u) := mul_le_mul_of_nonneg_right ih (by linarith)
    have h3 : (k : ℚ) * (2 * u) * u ≤ 1 * u := mul_le_mul_of_nonneg_right hk hu.le
    nlinarith

theorem l2Bound_le (ftz : Bool) {T : SumTree} (hh : T.height + 3 ≤ 2 ^ 23) (a b : List F32) : l2Bound ftz T a b ≤ sqDistVal a b + l2Err ftz T a b := by
  unfold l2Bound l2Err
  have h1 := pow_le_linear hh
  have h2 := pow_le_linear (show T.height ≤ 2 ^ 23 by omega)
  have h3 := sqDistVal_nonneg a b
  have h4 : (T.height : ℚ) * 2 ^ (-23 : Int) ≤ 1 := by
    have : (T.height : ℚ) ≤ 2 ^ 23 := by exact_mod_cast (by omega : T.height ≤ 2 ^ 23)
    calc (T.height : ℚ) * 2 ^ (-23 : Int) ≤ 2 ^ 23 * 2 ^ (-23 : Int) := by gcongr
      _ = 1 := by norm_num
  have h5 : (if ftz then 2 ^ (-124 : Int) else 2 ^ (-148 : Int) : ℚ) = (if ftz then 2 ^ (-125 : Int) else 2 ^ (-149 : Int)) * 2 := by
    cases ftz <;> norm_num
  have h6 : (0 : ℚ) ≤ if ftz then 2 ^ (-125 : Int) else 2 ^ (-149 : Int) := by split <;> positivity
  rw [h5]
  push_cast at h1
  generalize (if ftz then 2 ^ (-125 : Int) else 2 ^ (-149 : Int) : ℚ) = κ at *
  have h7 : (T.ops : ℚ) * κ * (1 + 2 ^ (-24 : Int)) ^ T.height ≤ T.ops * κ * 2 :=
    mul_le_mul_of_nonneg_left (by linarith) (by positivity)
  have h8 := mul_le_mul_of_nonneg_right h1 h3
  have h9 : (T.ops : ℚ) * κ * 2 = T.ops * (κ * 2) := by ring
  have h10 : (1 + ((T.height : ℚ) + 3) * 2 ^ (-23 : Int)) * sqDistVal a b = sqDistVal a b + ((T.height : ℚ) + 3) * 2 ^ (-23 : Int) * sqDistVal a b := by ring
  linarith

theorem l2Err_nonneg (ftz : Bool) (T : SumTree) (a b : List F32) : 0 ≤ l2Err ftz T a b := by
  unfold l2Err
  have := sqDistVal_nonneg a b
  have h6 : (0 : ℚ) ≤ if ftz then 2 ^ (-124 : Int) else 2 ^ (-148 : Int) := by split <;> positivity
  positivity

theorem l2Bound_small (ftz : Bool) {T : SumTree} {n : Nat} {a b : List F32} (h : L2Ok ftz T n a b) : l2Bound ftz T a b ≤ 2 ^ 127 := by
  refine (l2Bound_le ftz h.height a b).trans ?_
  unfold l2Err
  have h1 : ((T.height : ℚ) + 3) * 2 ^ (-23 : Int) ≤ 1 := by
    have : (T.height : ℚ) + 3 ≤ 2 ^ 23 := by exact_mod_cast h.height
    calc ((T.height : ℚ) + 3) * 2 ^ (-23 : Int) ≤ 2 ^ 23 * 2 ^ (-23 : Int) := by gcongr
      _ = 1 := by norm_num
  have h2 := mul_le_mul_of_nonneg_right h1 (sqDistVal_nonneg a b)
  have h3 : (T.ops : ℚ) * (if ftz then 2 ^ (-124 : Int) else 2 ^ (-148 : Int)) ≤ 2 ^ 100 * 1 := by
    have : (T.ops : ℚ) ≤ 2 ^ 100 := by exact_mod_cast h.ops
    have : (if ftz then 2 ^ (-124 : Int) else 2 ^ (-148 : Int) : ℚ) ≤ 1 := by split <;> norm_num
    have : (0 : ℚ) ≤ (if ftz then 2 ^ (-124 : Int) else 2 ^ (-148 : Int) : ℚ) := by split <;> positivity
    gcongr
  have h4 := h.dist
  have h5 : (2 : ℚ) ^ 125 + 1 * 2 ^ 125 + 2 ^ 100 * 1 ≤ 2 ^ 127 := by norm_num
  linarith

/-! ### Operands -/

theorem daz_plain {ftz : Bool} {x : F32} (h : Plain ftz x) : F32.daz ftz x = x := by
  unfold F32.daz
  split
  · rename_i hc
    rw [Bool.and_eq_true, decide_eq_true_iff] at hc
    have hm : x.mag = 0 := by
      rcases h.2 hc.1 with h1 | h1
      · rw [value_pack] at h1
        have h2 : magnitude x.mag = magnitude 0 := by
          rw [magnitude_zero]
          revert h1
          split <;> intro h1 <;> linarith
        exact magnitude_strictMono.injective h2
      · exfalso
        rw [abs_value, show x.bits.toNat % 2147483648 = x.mag from rfl] at h1
        have e : magnitude 8388608 = 2 ^ (-126 : Int) := by norm_num [magnitude]
        rw [← e] at h1
        have := magnitude_strictMono.le_iff_le.1 h1
        omega
    rw [← hm, pack_self]
  · rfl

theorem map_daz {ftz : Bool} {a : List F32} (h : ∀ x ∈ a, Plain ftz x) : a.map (F32.daz ftz) = a := by
  rw [List.map_congr_left (fun x hx => daz_plain (h x hx)), List.map_id']

theorem daz_finite (ftz : Bool) {x : F32} (h : Spec.Finite x) : Spec.Finite (F32.daz ftz x) := by
  unfold F32.daz
  split
  · rw [finite_mag, pack_mag _ (by norm_num)]; norm_num
  · exact h

/-- The operations never give a tiny number if such are flushed, so reading tiny operands as zero concerns the data only. -/
theorem round_not_tiny (s : Bool) (n : Int) (k : Nat) : (F32.round true s n k).mag = 0 ∨ 8388608 ≤ (F32.round true s n k).mag := by
  by_cases hn : n = 0
  · subst hn
    left
    rw [round_zero, pack_mag _ (by norm_num)]
  · rw [round_mag]
    by_cases hc : n.natAbs * 2 ^ 151 < 33554431 * 2 ^ k
    · left
      rw [decide_eq_true hc, Bool.and_true, if_pos rfl]
    · right
      rw [decide_eq_false hc, Bool.and_false, if_neg Bool.false_ne_true]
      refine le_min (nearestBits_normal (by omega) (by positivity) ?_) (by norm_num)
      rw [fval_exact]
      exact flush_ge hc

theorem l2F32_plain {ftz : Bool} (T : SumTree) {a b : List F32} (ha : ∀ x ∈ a, Plain ftz x) (hb : ∀ x ∈ b, Plain ftz x) :
    l2F32 ftz T a b = T.eval ftz (l2Factor ftz a b) := by
  unfold l2F32
  rw [map_daz ha, map_daz hb]

theorem dotF32_plain {ftz : Bool} (T : SumTree) {a b : List F32} (ha : ∀ x ∈ a, Plain ftz x) (hb : ∀ x ∈ b, Plain ftz x) :
    dotF32 ftz T a b = T.eval ftz (dotFactor a b) := by
  unfold dotF32
  rw [map_daz ha, map_daz hb]

/-- Right answers for computed distances are right up to the errors of these. -/
theorem closeNearest {k : Nat} {S : Finset Nat} {d : Nat → F32} {D E : Nat → ℚ} {out : List (Nat × F32)} (hK : _root_.Spec.KNearest k S d out)
    (h : ∀ i ∈ S, Spec.Finite (d i) ∧ |value (d i) - D i| ≤ E i) : CloseNearest k S D E out := by
  have hle : ∀ i ∈ S, ∀ j ∈ S, (d i).le (d j) = true → D i ≤ D j + E i + E j := by
    intro i hi j hj hij
    obtain ⟨f1, h1⟩ := h i hi
    obtain ⟨f2, h2⟩ := h j hj
    rw [le_iff_value f1 f2] at hij
    have := (abs_le.1 h1).1
    have := (abs_le.1 h2).2
    linarith
  refine ⟨hK.nodup, hK.length, fun x hx => ⟨(hK.mem x hx).1, ?_⟩, ?_, ?_⟩
  · rw [(hK.mem x hx).2]
    exact (h _ (hK.mem x hx).1).2
  · refine hK.sorted.imp_of_mem (fun {x y} hx hy hxy => ?_)
    rw [(hK.mem x hx).2, (hK.mem y hy).2] at hxy
    exact hle _ (hK.mem x hx).1 _ (hK.mem y hy).1 hxy
  · intro i hi hni x hx
    have := hK.best i hi hni x hx
    rw [(hK.mem x hx).2] at this
    exact hle _ (hK.mem x hx).1 _ hi this

theorem absDot_nonneg (a b : List F32) : 0 ≤ absDotVal a b := by
  unfold absDotVal
  induction a generalizing b with
  | nil => simp
  | cons x a ih =>
    cases b with
    | nil => simp
    | cons y b =>
      simp only [List.zipWith_cons_cons, List.sum_cons]
      have := ih b
      positivity

theorem dotErr_nonneg (ftz : Bool) (T : SumTree) (a b : List F32) : 0 ≤ dotErr ftz T a b := by
  unfold dotErr
  have := absDot_nonneg a b
  have h6 : (0 : ℚ) ≤ if ftz then 2 ^ (-125 : Int) else 2 ^ (-149 : Int) := by split <;> positivity
  positivity

theorem dotBound_le (ftz : Bool) {T : SumTree} (hh : T.height + 1 ≤ 2 ^ 23) (a b : List F32) :
    (1 + 2 ^ (-24 : Int)) ^ (T.height + 1) * absDotVal a b + T.ops * tiny ftz * (1 + 2 ^ (-24 : Int)) ^ T.height ≤ absDotVal a b + dotErr ftz T a b := by
  unfold dotErr
  have h1 := pow_le_linear hh
  have h2 := pow_le_linear (show T.height ≤ 2 ^ 23 by omega)
  have h3 := absDot_nonneg a b
  have h4 : (T.height : ℚ) * 2 ^ (-23 : Int) ≤ 1 := by
    have : (T.height : ℚ) ≤ 2 ^ 23 := by exact_mod_cast (by omega : T.height ≤ 2 ^ 23)
    calc (T.height : ℚ) * 2 ^ (-23 : Int) ≤ 2 ^ 23 * 2 ^ (-23 : Int) := by gcongr
      _ = 1 := by norm_num
  have h5 : (if ftz then 2 ^ (-125 : Int) else 2 ^ (-149 : Int) : ℚ) = tiny ftz * 2 := by
    unfold tiny
    cases ftz <;> norm_num
  have h6 := (tiny_pos ftz).le
  rw [h5]
  push_cast at h1
  generalize tiny ftz = κ at *
  have h7 : (T.ops : ℚ) * κ * (1 + 2 ^ (-24 : Int)) ^ T.height ≤ T.ops * κ * 2 :=
    mul_le_mul_of_nonneg_left (by linarith) (by positivity)
  have h8 := mul_le_mul_of_nonneg_right h1 h3
  have h9 : (T.ops : ℚ) * κ * 2 = T.ops * (κ * 2) := by ring
  have h10 : (1 + ((T.height : ℚ) + 1) * 2 ^ (-23 : Int)) * absDotVal a b = absDotVal a b + ((T.height : ℚ) + 1) * 2 ^ (-23 : Int) * absDotVal a b := by ring
  linarith

theorem dotErr_le (ftz : Bool) {T : SumTree} (hh : T.height + 1 ≤ 2 ^ 23) (ho : T.ops ≤ 2 ^ 100) (a b : List F32) :
    dotErr ftz T a b ≤ absDotVal a b + 2 ^ 100 := by
  unfold dotErr
  have h1 : ((T.height : ℚ) + 1) * 2 ^ (-23 : Int) ≤ 1 := by
    have : (T.height : ℚ) + 1 ≤ 2 ^ 23 := by exact_mod_cast hh
    calc ((T.height : ℚ) + 1) * 2 ^ (-23 : Int) ≤ 2 ^ 23 * 2 ^ (-23 : Int) := by gcongr
      _ = 1 := by norm_num
  have h2 := mul_le_mul_of_nonneg_right h1 (absDot_nonneg a b)
  have h3 : (T.ops : ℚ) * (if ftz then 2 ^ (-125 : Int) else 2 ^ (-149 : Int)) ≤ 2 ^ 100 * 1 := by
    have : (T.ops : ℚ) ≤ 2 ^ 100 := by exact_mod_cast ho
    have : (if ftz then 2 ^ (-125 : Int) else 2 ^ (-149 : Int) : ℚ) ≤ 1 := by split <;> norm_num
    have : (0 : ℚ) ≤ (if ftz then 2 ^ (-125 : Int) else 2 ^ (-149 : Int) : ℚ) := by split <;> positivity
    gcongr
  linarith

end Grann
