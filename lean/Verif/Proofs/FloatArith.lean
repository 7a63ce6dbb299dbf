import Verif.Spec.FloatSum
import Verif.Proofs.FloatOrder
import Mathlib.Algebra.Order.Ring.Abs
/-!
# Rounding of the results of `float` operations
-/

namespace Grann

/-- Half a unit in the last place, relatively. -/
def ulp24 : ℚ := 2 ^ (-24 : Int)

/-- The absolute error where the relative one is not bounded. -/
def tiny (ftz : Bool) : ℚ := if ftz then 2 ^ (-126 : Int) else 2 ^ (-150 : Int)

theorem tiny_pos (ftz : Bool) : 0 < tiny ftz := by unfold tiny; split <;> positivity

theorem mag_lt (x : F32) : x.mag < 2147483648 := Nat.mod_lt _ (by norm_num)

theorem pack_toNat (s : Bool) {m : Nat} (h : m < 2147483648) : (F32.pack s m).bits.toNat = m + if s then 2147483648 else 0 := by
  unfold F32.pack
  rw [BitVec.toNat_ofNat]
  apply Nat.mod_eq_of_lt
  split <;> omega

theorem pack_mag (s : Bool) {m : Nat} (h : m < 2147483648) : (F32.pack s m).mag = m := by
  unfold F32.mag
  rw [pack_toNat s h]
  split <;> omega

theorem pack_sign (s : Bool) {m : Nat} (h : m < 2147483648) : (F32.pack s m).sign = s := by
  unfold F32.sign
  rw [pack_toNat s h]
  cases s
  · simp; omega
  · simp

theorem pack_value (s : Bool) {m : Nat} (h : m < 2147483648) : Spec.value (F32.pack s m) = (if s then -1 else 1) * Spec.magnitude m := by
  rw [value_sign, show (F32.pack s m).bits.toNat % 2147483648 = m from pack_mag s h]
  congr 1
  have := pack_sign s h
  unfold F32.sign at this
  cases s
  · rw [if_neg (by simpa using this)]; simp
  · rw [if_pos (by simpa using this)]; simp

theorem pack_self (x : F32) : F32.pack x.sign x.mag = x := by
  have h := pack_toNat x.sign (mag_lt x)
  have e : (F32.pack x.sign x.mag).bits.toNat = x.bits.toNat := by
    rw [h]
    have := x.bits.isLt
    unfold F32.sign F32.mag
    by_cases hc : 2147483648 ≤ x.bits.toNat
    · simp [hc]; omega
    · simp [hc]; omega
  cases x
  unfold F32.pack at *
  congr 1
  exact BitVec.eq_of_toNat_eq e

theorem value_pack (x : F32) : Spec.value x = (if x.sign then -1 else 1) * Spec.magnitude x.mag := by
  conv_lhs => rw [← pack_self x]
  exact pack_value _ (mag_lt x)

/-- The value in units of 2^-149. -/
theorem value_units (x : F32) : Spec.value x = x.units * 2 ^ (-149 : Int) := by
  rw [value_pack]
  have : Spec.magnitude x.mag = ((if x.mag / 8388608 = 0 then x.mag else (8388608 + x.mag % 8388608) * 2 ^ (x.mag / 8388608 - 1) : Nat) : ℚ) * 2 ^ (-149 : Int) := by
    unfold Spec.magnitude
    split
    · rfl
    · rename_i h
      obtain ⟨e, he⟩ : ∃ e, x.mag / 8388608 = e + 1 := ⟨x.mag / 8388608 - 1, by omega⟩
      rw [he, show ((e + 1 : Nat) : Int) - 150 = (e : Int) + -149 by push_cast; ring, zpow_add₀ (by norm_num), zpow_natCast]
      push_cast
      ring
  rw [this]
  unfold F32.units
  dsimp only
  generalize (if x.mag / 8388608 = 0 then x.mag else (8388608 + x.mag % 8388608) * 2 ^ (x.mag / 8388608 - 1) : Nat) = u
  split
  · push_cast; ring
  · push_cast; ring

theorem finite_mag {x : F32} : Spec.Finite x ↔ x.mag < 2139095040 := Iff.rfl

theorem neg_value (x : F32) : Spec.value x.neg = -Spec.value x := by
  unfold F32.neg
  rw [pack_value _ (mag_lt x), value_pack]
  cases x.sign <;> simp

theorem neg_mag (x : F32) : x.neg.mag = x.mag := pack_mag _ (mag_lt x)

theorem neg_sign (x : F32) : x.neg.sign = !x.sign := pack_sign _ (mag_lt x)

theorem neg_finite {x : F32} (h : Spec.Finite x) : Spec.Finite x.neg := by
  rw [finite_mag, neg_mag]; exact h

theorem units_neg (x : F32) : x.neg.units = -x.units := by
  unfold F32.units
  rw [neg_mag, neg_sign]
  cases x.sign <;> simp

theorem not_nan {x : F32} (h : Spec.Finite x) : x.isNan = false := by
  unfold F32.isNan; rw [decide_eq_false_iff_not]; rw [finite_mag] at h; omega

theorem not_inf {x : F32} (h : Spec.Finite x) : x.isInf = false := by
  unfold F32.isInf; rw [decide_eq_false_iff_not]; rw [finite_mag] at h; omega

/-- The error of rounding is half a unit in the last place. -/
theorem nearestBits_half {n d : Nat} (hn : 0 < n) (hd : 0 < d) :
    |Spec.magnitude (nearestBits n d) - fval (n, d)| ≤ 1 / 2 * 2 ^ ulpExp n d := by
  have hp := scale_den_pos (n := n) hd (-ulpExp n d)
  have her := divRound_err (scale 2 n d (-ulpExp n d)).1 (scale 2 n d (-ulpExp n d)).2 hp
  have hs := ulps_scaled (n := n) (d := d)
  rw [Prod.mk.eta, hs, show divRound (scale 2 n d (-ulpExp n d)).1 (scale 2 n d (-ulpExp n d)).2 = ulps n d from rfl] at her
  rw [magnitude_nearestBits hn hd]
  have hq0 : (0 : ℚ) < 2 ^ ulpExp n d := by positivity
  have e : (ulps n d : ℚ) * 2 ^ ulpExp n d - fval (n, d) = (ulps n d - fval (n, d) * 2 ^ (-ulpExp n d)) * 2 ^ ulpExp n d := by
    rw [sub_mul, mul_assoc, ← zpow_add₀ (by norm_num)]; simp
  rw [e, abs_mul, abs_of_pos hq0]
  gcongr

/-- The error of rounding, for all magnitudes. -/
theorem nearestBits_err2 {n d : Nat} (hn : 0 < n) (hd : 0 < d) :
    |Spec.magnitude (nearestBits n d) - fval (n, d)| ≤ fval (n, d) * ulp24 + 2 ^ (-150 : Int) := by
  have ht : 0 < fval (n, d) := fval_pos hn hd
  rcases lt_or_ge (fval (n, d)) (2 ^ (-126 : Int)) with h | h
  · have hb := binExp_le hn hd
    have h1 := two_zpow_lt (lt_of_le_of_lt hb h)
    have hu : ulpExp n d = -149 := by unfold ulpExp; omega
    have := nearestBits_half hn hd
    rw [hu] at this
    have e : (1 : ℚ) / 2 * 2 ^ (-149 : Int) = 2 ^ (-150 : Int) := by norm_num
    rw [e] at this
    have : 0 ≤ fval (n, d) * ulp24 := by unfold ulp24; positivity
    linarith
  · have := nearestBits_err hn hd h
    have h2 : (0 : ℚ) < 2 ^ (-150 : Int) := by positivity
    unfold ulp24
    linarith

/-- Numbers in the range of subnormal floats that are multiples of 2^-149 are not rounded. -/
theorem nearestBits_exact {n d z : Nat} (hn : 0 < n) (hd : 0 < d) (hz : fval (n, d) = z * 2 ^ (-149 : Int)) (hs : z < 8388608) :
    nearestBits n d = z := by
  have h := (nearestBits_nearest hn hd ⟨BitVec.ofNat 32 z⟩).1
  have hv : Spec.value ⟨BitVec.ofNat 32 z⟩ = fval (n, d) := by
    have e : (BitVec.ofNat 32 z).toNat = z := by rw [BitVec.toNat_ofNat]; exact Nat.mod_eq_of_lt (by omega)
    unfold Spec.value
    rw [e, if_pos (by omega), hz]
    unfold Spec.magnitude
    rw [if_pos (by omega)]
  rw [hv, sub_self, abs_zero] at h
  have h0 := abs_eq_zero.1 (le_antisymm h (abs_nonneg _))
  have h1 : Spec.magnitude (nearestBits n d) = Spec.magnitude z := by
    rw [sub_eq_zero.1 h0, hz]
    unfold Spec.magnitude
    rw [if_pos (by omega)]
  exact magnitude_strictMono.injective h1

theorem fval_exact (n : Int) (k : Nat) : fval (n.natAbs, 2 ^ k) = |(n : ℚ) / 2 ^ k| := by
  unfold fval
  rw [abs_div, abs_of_pos (by positivity : (0 : ℚ) < 2 ^ k)]
  congr 1
  · rw [Nat.cast_natAbs, Int.cast_abs]
  · push_cast; rfl

theorem round_zero (ftz s : Bool) (k : Nat) : F32.round ftz s 0 k = F32.pack s 0 := by
  unfold F32.round
  rw [if_pos rfl]
  congr 1
  have : nearestBits 0 (2 ^ k) = 0 := by unfold nearestBits; rw [if_pos rfl]
  simp [this]

theorem round_mag (ftz s : Bool) (n : Int) (k : Nat) : (F32.round ftz s n k).mag =
    if ftz && decide (n.natAbs * 2 ^ 151 < 33554431 * 2 ^ k) then 0 else min (nearestBits n.natAbs (2 ^ k)) 2139095040 := by
  unfold F32.round
  apply pack_mag
  split <;> omega

theorem round_mag_le (ftz s : Bool) (n : Int) (k : Nat) : (F32.round ftz s n k).mag ≤ 2139095040 := by
  rw [round_mag]
  split <;> omega

theorem round_sign (ftz s : Bool) (n : Int) (k : Nat) : (F32.round ftz s n k).sign = if n = 0 then s else decide (n < 0) := by
  unfold F32.round
  apply pack_sign
  split <;> omega

/-- Flushing happens below 2^-126. -/
theorem flush_lt {n : Int} {k : Nat} (h : n.natAbs * 2 ^ 151 < 33554431 * 2 ^ k) : |(n : ℚ) / 2 ^ k| < 2 ^ (-126 : Int) := by
  rw [← fval_exact]
  unfold fval
  have hk : (0 : ℚ) < 2 ^ k := by positivity
  push_cast
  rw [div_lt_iff₀ hk]
  have h1 : (n.natAbs : ℚ) * 2 ^ 151 < 33554431 * 2 ^ k := by exact_mod_cast h
  have h2 : (2 : ℚ) ^ (-126 : Int) = 33554432 / 2 ^ 151 := by norm_num
  rw [h2, div_mul_eq_mul_div, lt_div_iff₀ (by positivity)]
  nlinarith

theorem flush_ge {n : Int} {k : Nat} (h : ¬ n.natAbs * 2 ^ 151 < 33554431 * 2 ^ k) : 2 ^ (-126 : Int) - 2 ^ (-151 : Int) ≤ |(n : ℚ) / 2 ^ k| := by
  rw [← fval_exact]
  unfold fval
  have hk : (0 : ℚ) < 2 ^ k := by positivity
  push_cast
  rw [le_div_iff₀ hk]
  have h1 : (33554431 : ℚ) * 2 ^ k ≤ (n.natAbs : ℚ) * 2 ^ 151 := by exact_mod_cast not_lt.1 h
  have h2 : (2 : ℚ) ^ (-126 : Int) - 2 ^ (-151 : Int) = 33554431 / 2 ^ 151 := by norm_num
  rw [h2, div_mul_eq_mul_div, div_le_iff₀ (by positivity)]
  exact h1

/-- The value of a result that is not flushed and does not overflow. -/
theorem round_value (ftz s : Bool) {n : Int} {k : Nat} (hn : n ≠ 0) (hf : (ftz && decide (n.natAbs * 2 ^ 151 < 33554431 * 2 ^ k)) = false)
    (h : |(n : ℚ) / 2 ^ k| < ovf) :
    (F32.round ftz s n k).mag = nearestBits n.natAbs (2 ^ k) ∧
    |Spec.value (F32.round ftz s n k) - (n : ℚ) / 2 ^ k| = |Spec.magnitude (nearestBits n.natAbs (2 ^ k)) - fval (n.natAbs, 2 ^ k)| := by
  have hm := round_mag ftz s n k
  have hs := round_sign ftz s n k
  rw [if_neg (by simpa using hf)] at hm
  rw [if_neg hn] at hs
  have hlt : nearestBits n.natAbs (2 ^ k) < 2139095040 :=
    nearestBits_lt (by omega) (by positivity) (by rw [fval_exact]; exact h)
  rw [min_eq_left hlt.le] at hm
  refine ⟨hm, ?_⟩
  rw [value_pack, hm, hs, fval_exact]
  have hk : (0 : ℚ) < 2 ^ k := by positivity
  rcases lt_or_gt_of_ne hn with h0 | h0
  · have : (n : ℚ) / 2 ^ k < 0 := div_neg_of_neg_of_pos (by exact_mod_cast h0) hk
    rw [abs_of_neg this]
    simp only [h0, decide_true, if_true]
    rw [← abs_neg]
    congr 1
    ring
  · have : 0 < (n : ℚ) / 2 ^ k := div_pos (by exact_mod_cast h0) hk
    rw [abs_of_pos this]
    simp only [show ¬ n < 0 by omega, decide_false]
    congr 1
    simp

/-- Results below the limit are finite. -/
theorem round_finite (ftz s : Bool) {n : Int} {k : Nat} (h : |(n : ℚ) / 2 ^ k| < ovf) : Spec.Finite (F32.round ftz s n k) := by
  rw [finite_mag]
  by_cases hn : n = 0
  · subst hn
    rw [round_zero, pack_mag _ (by norm_num)]
    norm_num
  · by_cases hf : (ftz && decide (n.natAbs * 2 ^ 151 < 33554431 * 2 ^ k)) = true
    · rw [round_mag, if_pos hf]; norm_num
    · rw [(round_value ftz s hn (by simpa using hf) h).1]
      exact nearestBits_lt (by omega) (by positivity) (by rw [fval_exact]; exact h)

theorem magnitude_flushed {x : F32} (h : x.mag = 0) : Spec.value x = 0 := by
  rw [value_pack, h, magnitude_zero, mul_zero]

/-- The error of an operation. -/
theorem round_err (ftz s : Bool) {n : Int} {k : Nat} (h : |(n : ℚ) / 2 ^ k| < ovf) :
    |Spec.value (F32.round ftz s n k) - (n : ℚ) / 2 ^ k| ≤ |(n : ℚ) / 2 ^ k| * ulp24 + tiny ftz := by
  have hu : (0 : ℚ) ≤ ulp24 := by unfold ulp24; positivity
  have h0 := abs_nonneg ((n : ℚ) / 2 ^ k)
  by_cases hn : n = 0
  · subst hn
    rw [round_zero, magnitude_flushed (pack_mag _ (by norm_num))]
    have := tiny_pos ftz
    simp
    exact this.le
  · by_cases hf : (ftz && decide (n.natAbs * 2 ^ 151 < 33554431 * 2 ^ k)) = true
    · have hm := round_mag ftz s n k
      rw [if_pos hf] at hm
      rw [magnitude_flushed hm, zero_sub, abs_neg]
      rw [Bool.and_eq_true, decide_eq_true_iff] at hf
      have h1 := flush_lt hf.2
      unfold tiny
      rw [if_pos hf.1]
      nlinarith
    · rw [(round_value ftz s hn (by simpa using hf) h).2, ← fval_exact]
      have := nearestBits_err2 (n := n.natAbs) (d := 2 ^ k) (by omega) (by positivity)
      have h2 : (2 : ℚ) ^ (-150 : Int) ≤ tiny ftz := by
        unfold tiny
        split
        · exact zpow_le_zpow_right₀ (by norm_num) (by norm_num)
        · exact le_rfl
      linarith

/-- The error of additions and subtractions: exact unless relatively small, but for flushing. -/
theorem round_sum (ftz s : Bool) {n : Int} (h : |(n : ℚ) / 2 ^ 149| < ovf) :
    (ftz = true ∧ |(n : ℚ) / 2 ^ 149| < 2 ^ (-126 : Int) ∧ Spec.value (F32.round ftz s n 149) = 0) ∨
    |Spec.value (F32.round ftz s n 149) - (n : ℚ) / 2 ^ 149| ≤ |(n : ℚ) / 2 ^ 149| * ulp24 := by
  have hu : (0 : ℚ) ≤ ulp24 := by unfold ulp24; positivity
  by_cases hn : n = 0
  · subst hn
    right
    rw [round_zero, magnitude_flushed (pack_mag _ (by norm_num))]
    simp
  · by_cases hf : (ftz && decide (n.natAbs * 2 ^ 151 < 33554431 * 2 ^ 149)) = true
    · have hm := round_mag ftz s n 149
      rw [if_pos hf] at hm
      rw [Bool.and_eq_true, decide_eq_true_iff] at hf
      have h1 := flush_lt hf.2
      exact Or.inl ⟨hf.1, h1, magnitude_flushed hm⟩
    · right
      rw [(round_value ftz s hn (by simpa using hf) h).2, ← fval_exact]
      rcases lt_or_ge (fval (n.natAbs, 2 ^ 149)) (2 ^ (-126 : Int)) with h1 | h1
      · have hz : fval (n.natAbs, 2 ^ 149) = n.natAbs * 2 ^ (-149 : Int) := by
          unfold fval
          push_cast
          rw [zpow_neg, div_eq_mul_inv]
          norm_num
        have hlt : n.natAbs < 8388608 := by
          rw [hz] at h1
          have e : (2 : ℚ) ^ (-126 : Int) = 8388608 * 2 ^ (-149 : Int) := by norm_num
          rw [e] at h1
          exact_mod_cast lt_of_mul_lt_mul_right h1 (by positivity)
        rw [nearestBits_exact (by omega) (by positivity) hz hlt, hz]
        unfold Spec.magnitude
        rw [if_pos (by omega), sub_self, abs_zero]
        positivity
      · exact nearestBits_err (by omega) (by positivity) h1

/-- Results from the limit on are infinite. -/
theorem round_inf (ftz s : Bool) {n : Int} {k : Nat} (h : ovf ≤ |(n : ℚ) / 2 ^ k|) : (F32.round ftz s n k).mag = 2139095040 := by
  have hn : n ≠ 0 := by
    rintro rfl
    unfold ovf at h
    norm_num at h
  have hf : ¬ (n.natAbs * 2 ^ 151 < 33554431 * 2 ^ k) := by
    intro hf
    have h1 := flush_lt hf
    unfold ovf at h
    norm_num at h h1
    linarith
  rw [round_mag, decide_eq_false hf, Bool.and_false, if_neg Bool.false_ne_true]
  exact min_eq_right (nearestBits_ge (by omega) (by positivity) (by rw [fval_exact]; exact h))

/-- The sign of a result. -/
theorem round_nonneg (ftz : Bool) {n : Int} {k : Nat} (h : 0 ≤ n) : (F32.round ftz false n k).sign = false := by
  rw [round_sign]
  split
  · rfl
  · simp; omega

theorem exact_add (x y : F32) : ((x.units + y.units : Int) : ℚ) / 2 ^ 149 = Spec.value x + Spec.value y := by
  rw [value_units, value_units, ← add_mul, zpow_neg, ← div_eq_mul_inv]
  push_cast
  norm_num

theorem exact_mul (x y : F32) : ((x.units * y.units : Int) : ℚ) / 2 ^ 298 = Spec.value x * Spec.value y := by
  rw [value_units, value_units, show (2 : ℚ) ^ 298 = 2 ^ 149 * 2 ^ 149 by rw [← pow_add], zpow_neg, show (149 : Int) = ((149 : Nat) : Int) from rfl, zpow_natCast]
  have h : (2 : ℚ) ^ 149 ≠ 0 := by positivity
  push_cast
  generalize (2 : ℚ) ^ 149 = a at *
  field_simp

theorem exact_fma (x y z : F32) : ((x.units * y.units + z.units * 2 ^ 149 : Int) : ℚ) / 2 ^ 298 = Spec.value x * Spec.value y + Spec.value z := by
  rw [value_units, value_units, value_units, show (2 : ℚ) ^ 298 = 2 ^ 149 * 2 ^ 149 by rw [← pow_add], zpow_neg, show (149 : Int) = ((149 : Nat) : Int) from rfl, zpow_natCast]
  have h : (2 : ℚ) ^ 149 ≠ 0 := by positivity
  rw [Int.cast_add, Int.cast_mul, Int.cast_mul, Int.cast_pow, Int.cast_ofNat]
  generalize (2 : ℚ) ^ 149 = a at *
  field_simp

theorem add_eq (ftz : Bool) {x y : F32} (hx : Spec.Finite x) (hy : Spec.Finite y) :
    F32.add ftz x y = F32.round ftz (x.sign && y.sign) (x.units + y.units) 149 := by
  unfold F32.add
  simp [not_nan hx, not_nan hy, not_inf hx, not_inf hy]

theorem mul_eq (ftz : Bool) {x y : F32} (hx : Spec.Finite x) (hy : Spec.Finite y) :
    F32.mul ftz x y = F32.round ftz (x.sign != y.sign) (x.units * y.units) 298 := by
  unfold F32.mul
  simp [not_nan hx, not_nan hy, not_inf hx, not_inf hy]

theorem fma_eq (ftz : Bool) {x y z : F32} (hx : Spec.Finite x) (hy : Spec.Finite y) (hz : Spec.Finite z) :
    F32.fma ftz x y z = F32.round ftz ((x.sign != y.sign) && z.sign) (x.units * y.units + z.units * 2 ^ 149) 298 := by
  unfold F32.fma
  simp [not_nan hx, not_nan hy, not_inf hx, not_inf hy, not_nan hz, not_inf hz]

/-- Addition: finite below the limit, with a small error. -/
theorem add_err (ftz : Bool) {x y : F32} (hx : Spec.Finite x) (hy : Spec.Finite y) (h : |Spec.value x + Spec.value y| < ovf) :
    Spec.Finite (F32.add ftz x y) ∧
    |Spec.value (F32.add ftz x y) - (Spec.value x + Spec.value y)| ≤ |Spec.value x + Spec.value y| * ulp24 + tiny ftz := by
  rw [add_eq ftz hx hy]
  rw [← exact_add] at h ⊢
  exact ⟨round_finite _ _ h, round_err _ _ h⟩

/-- Multiplication. -/
theorem mul_err (ftz : Bool) {x y : F32} (hx : Spec.Finite x) (hy : Spec.Finite y) (h : |Spec.value x * Spec.value y| < ovf) :
    Spec.Finite (F32.mul ftz x y) ∧
    |Spec.value (F32.mul ftz x y) - Spec.value x * Spec.value y| ≤ |Spec.value x * Spec.value y| * ulp24 + tiny ftz := by
  rw [mul_eq ftz hx hy]
  rw [← exact_mul] at h ⊢
  exact ⟨round_finite _ _ h, round_err _ _ h⟩

/-- Fused multiply-add. -/
theorem fma_err (ftz : Bool) {x y z : F32} (hx : Spec.Finite x) (hy : Spec.Finite y) (hz : Spec.Finite z)
    (h : |Spec.value x * Spec.value y + Spec.value z| < ovf) :
    Spec.Finite (F32.fma ftz x y z) ∧
    |Spec.value (F32.fma ftz x y z) - (Spec.value x * Spec.value y + Spec.value z)| ≤
      |Spec.value x * Spec.value y + Spec.value z| * ulp24 + tiny ftz := by
  rw [fma_eq ftz hx hy hz]
  rw [← exact_fma] at h ⊢
  exact ⟨round_finite _ _ h, round_err _ _ h⟩

/-- Subtraction: relative error only, but for flushing. -/
theorem sub_err (ftz : Bool) {x y : F32} (hx : Spec.Finite x) (hy : Spec.Finite y) (h : |Spec.value x - Spec.value y| < ovf) :
    Spec.Finite (F32.sub ftz x y) ∧
    ((ftz = true ∧ |Spec.value x - Spec.value y| < 2 ^ (-126 : Int) ∧ Spec.value (F32.sub ftz x y) = 0) ∨
     |Spec.value (F32.sub ftz x y) - (Spec.value x - Spec.value y)| ≤ |Spec.value x - Spec.value y| * ulp24) := by
  unfold F32.sub
  rw [add_eq ftz hx (neg_finite hy)]
  have e := exact_add x y.neg
  rw [neg_value, ← sub_eq_add_neg] at e
  rw [← e] at h ⊢
  exact ⟨round_finite _ _ h, round_sum _ _ h⟩

namespace SumTree

/-- The exact sum, and the sum of the absolute values. -/
def total (p : Nat → ℚ) (T : SumTree) : ℚ := (T.leaves.map p).sum

theorem total_abs_nonneg (p : Nat → ℚ) (T : SumTree) : 0 ≤ T.total (fun i => |p i|) := by
  unfold total
  apply List.sum_nonneg
  intro x hx
  obtain ⟨i, _, rfl⟩ := List.mem_map.1 hx
  exact abs_nonneg _

/-- The factors of a product are close to the intended ones. -/
def TermOk (f : Nat → Res (F32 × F32)) (c : Nat) (ζ : ℚ) (i : Nat) (p : ℚ) : Prop :=
  ∃ x y, f i = .ok (x, y) ∧ Spec.Finite x ∧ Spec.Finite y ∧
    |Spec.value x * Spec.value y - p| ≤ ((1 + ulp24) ^ c - 1) * |p| + ζ

/-- A bound for everything computed. -/
def bound (p : Nat → ℚ) (c : Nat) (κ : ℚ) (T : SumTree) : ℚ :=
  (1 + ulp24) ^ (T.height + c + 1) * T.total (fun i => |p i|) + T.ops * κ * (1 + ulp24) ^ T.height

theorem near_abs {v S A X : ℚ} (h : |v - S| ≤ X - A) (hS : |S| ≤ A) : |v| ≤ X := by
  have := abs_sub_abs_le_abs_sub v S
  linarith

theorem total_abs_le (p : Nat → ℚ) (T : SumTree) : |T.total p| ≤ T.total (fun i => |p i|) := by
  unfold total
  induction T.leaves with
  | nil => simp
  | cons a l ih =>
    simp only [List.map_cons, List.sum_cons]
    exact le_trans (abs_add_le _ _) (by linarith)

/-- Every way of evaluating a sum gives the exact sum up to a relative error for each addition. -/
theorem eval_err (ftz : Bool) (f : Nat → Res (F32 × F32)) (p : Nat → ℚ) (c : Nat) (ζ κ : ℚ) (hζ : 0 ≤ ζ) (hκ : tiny ftz + 2 * ζ ≤ κ) :
    ∀ T : SumTree, (∀ i ∈ T.leaves, TermOk f c ζ i (p i)) → T.bound p c κ < ovf →
      ∃ r, T.eval ftz f = .ok r ∧ Spec.Finite r ∧
        |Spec.value r - T.total p| ≤ T.bound p c κ - T.total (fun i => |p i|) := by
  have hu0 : (0 : ℚ) < ulp24 := by unfold ulp24; positivity
  have hu1 : ulp24 ≤ 1 := by unfold ulp24; norm_num
  have htiny := tiny_pos ftz
  have hκ0 : 0 < κ := by linarith
  generalize hw : 1 + ulp24 = w at *
  have hw1 : 1 ≤ w := by rw [← hw]; linarith
  have hw0 : 0 < w := by linarith
  intro T
  induction T with
  | init =>
    intro _ _
    refine ⟨F32.zero, rfl, by unfold Spec.Finite; decide, ?_⟩
    have : Spec.value F32.zero = 0 := by norm_num [Spec.value, F32.zero, Spec.magnitude]
    rw [this]
    simp [bound, total, leaves, ops]
  | term i =>
    intro ht hb
    obtain ⟨x, y, e, hx, hy, herr⟩ := ht i (by simp [leaves])
    unfold bound at hb ⊢
    simp only [height, ops, total, leaves, List.map_cons, List.map_nil, List.sum_cons, List.sum_nil, add_zero, zero_add, pow_zero, mul_one, Nat.cast_one, one_mul] at hb ⊢
    rw [hw] at herr hb ⊢
    have hpw : 1 ≤ w ^ c := one_le_pow₀ hw1
    have hp0 := abs_nonneg (p i)
    have hX : |Spec.value x * Spec.value y| ≤ w ^ c * |p i| + ζ := near_abs (S := p i) (A := |p i|) (by linarith) le_rfl
    have hcw : w ^ c * |p i| ≤ w ^ (c + 1) * |p i| := by
      rw [pow_succ]; have : 0 ≤ w ^ c * |p i| := by positivity
      nlinarith
    obtain ⟨h1, h2⟩ := mul_err ftz hx hy (by linarith)
    refine ⟨_, by simp only [eval, e]; rfl, h1, ?_⟩
    have h3 := abs_sub_le (Spec.value (F32.mul ftz x y)) (Spec.value x * Spec.value y) (p i)
    have h4 : |Spec.value x * Spec.value y| * ulp24 ≤ (w ^ c * |p i| + ζ) * ulp24 := by gcongr
    have h5 : w ^ (c + 1) * |p i| = w ^ c * |p i| + w ^ c * |p i| * ulp24 := by rw [pow_succ, ← hw]; ring
    have h6 : ζ * ulp24 ≤ ζ := by nlinarith
    rw [h5]
    linarith
  | add l r ihl ihr =>
    intro ht hb
    have htl := fun i hi => ht i (by simp only [leaves, List.mem_append]; exact Or.inl hi)
    have htr := fun i hi => ht i (by simp only [leaves, List.mem_append]; exact Or.inr hi)
    have etot : ∀ q : Nat → ℚ, (add l r).total q = l.total q + r.total q := by
      intro q; simp [total, leaves]
    unfold bound at hb ⊢ ihl ihr
    simp only [height, ops, etot] at hb ⊢
    rw [hw] at hb ⊢ ihl ihr
    have hAl := total_abs_nonneg p l
    have hAr := total_abs_nonneg p r
    have hSl := total_abs_le p l
    have hSr := total_abs_le p r
    generalize l.total (fun i => |p i|) = Al at *
    generalize r.total (fun i => |p i|) = Ar at *
    generalize l.total p = Sl at *
    generalize r.total p = Sr at *
    push_cast at hb ⊢
    have hol : (0 : ℚ) ≤ l.ops := Nat.cast_nonneg _
    have hor : (0 : ℚ) ≤ r.ops := Nat.cast_nonneg _
    generalize (l.ops : ℚ) = ol at *
    generalize (r.ops : ℚ) = or' at *
    obtain ⟨m, hm⟩ : ∃ m, max l.height r.height = m := ⟨_, rfl⟩
    rw [hm] at hb ⊢
    have hml : l.height ≤ m := by omega
    have hmr : r.height ≤ m := by omega
    have e1 : w ^ (l.height + c + 1) ≤ w ^ (m + c + 1) := pow_le_pow_right₀ hw1 (by omega)
    have e2 : w ^ (r.height + c + 1) ≤ w ^ (m + c + 1) := pow_le_pow_right₀ hw1 (by omega)
    have e3 : w ^ l.height ≤ w ^ m := pow_le_pow_right₀ hw1 hml
    have e4 : w ^ r.height ≤ w ^ m := pow_le_pow_right₀ hw1 hmr
    have e5 : w ^ (m + 1 + c + 1) = w * w ^ (m + c + 1) := by rw [← pow_succ']; congr 1; omega
    have e6 : w ^ (m + 1) = w * w ^ m := by rw [← pow_succ']
    rw [e5, e6] at hb ⊢
    have hP : 1 ≤ w ^ (m + c + 1) := one_le_pow₀ hw1
    have hQ : 1 ≤ w ^ m := one_le_pow₀ hw1
    have bl : w ^ (l.height + c + 1) * Al + ol * κ * w ^ l.height ≤ w ^ (m + c + 1) * Al + ol * κ * w ^ m := by gcongr
    have br : w ^ (r.height + c + 1) * Ar + or' * κ * w ^ r.height ≤ w ^ (m + c + 1) * Ar + or' * κ * w ^ m := by gcongr
    generalize w ^ (m + c + 1) = P at *
    generalize w ^ m = Q at *
    have hX0l : 0 ≤ P * Al + ol * κ * Q := by positivity
    have hX0r : 0 ≤ P * Ar + or' * κ * Q := by positivity
    have hbX : w * P * (Al + Ar) + (ol + or' + 1) * κ * (w * Q) = w * ((P * Al + ol * κ * Q) + (P * Ar + or' * κ * Q)) + κ * (w * Q) := by ring
    rw [hbX] at hb ⊢
    generalize P * Al + ol * κ * Q = Xl at *
    generalize P * Ar + or' * κ * Q = Xr at *
    have hwQ : 1 ≤ w * Q := by nlinarith
    have hκw : κ ≤ κ * (w * Q) := by nlinarith
    have hwX : Xl + Xr ≤ w * (Xl + Xr) := by nlinarith
    obtain ⟨a, ea, fa, da⟩ := ihl htl (by linarith)
    obtain ⟨b, eb, fb, db⟩ := ihr htr (by linarith)
    have da' := le_trans da (sub_le_sub_right bl _)
    have db' := le_trans db (sub_le_sub_right br _)
    have na := near_abs da' hSl
    have nb := near_abs db' hSr
    have nab := abs_add_le (Spec.value a) (Spec.value b)
    obtain ⟨h1, h2⟩ := add_err ftz fa fb (by linarith)
    refine ⟨_, by simp only [eval, ea, eb]; rfl, h1, ?_⟩
    have h3 := abs_sub_le (Spec.value (F32.add ftz a b)) (Spec.value a + Spec.value b) (Sl + Sr)
    have h4 : |Spec.value a + Spec.value b - (Sl + Sr)| ≤ |Spec.value a - Sl| + |Spec.value b - Sr| := by
      rw [show Spec.value a + Spec.value b - (Sl + Sr) = (Spec.value a - Sl) + (Spec.value b - Sr) by ring]
      exact abs_add_le _ _
    have h5 : |Spec.value a + Spec.value b| * ulp24 ≤ (Xl + Xr) * ulp24 := by gcongr; linarith
    have h6 : w * (Xl + Xr) = (Xl + Xr) + (Xl + Xr) * ulp24 := by rw [← hw]; ring
    rw [h6]
    linarith
  | fma i t ih =>
    intro ht hb
    obtain ⟨x, y, e, hx, hy, herr⟩ := ht i (by simp [leaves])
    have htt := fun j hj => ht j (by simp only [leaves, List.mem_cons]; exact Or.inr hj)
    have etot : ∀ q : Nat → ℚ, (fma i t).total q = q i + t.total q := by
      intro q; simp [total, leaves]
    unfold bound at hb ⊢ ih
    simp only [height, ops, etot] at hb ⊢
    rw [hw] at hb ⊢ ih herr
    have hA := total_abs_nonneg p t
    have hS := total_abs_le p t
    generalize t.total (fun i => |p i|) = A at *
    generalize t.total p = S at *
    push_cast at hb ⊢
    have ho : (0 : ℚ) ≤ t.ops := Nat.cast_nonneg _
    generalize (t.ops : ℚ) = o at *
    generalize hm : t.height = m at *
    have e5 : w ^ (m + 1 + c + 1) = w * w ^ (m + c + 1) := by rw [← pow_succ']; congr 1; omega
    have e6 : w ^ (m + 1) = w * w ^ m := by rw [← pow_succ']
    rw [e5, e6] at hb ⊢
    have hPc : w ^ c ≤ w ^ (m + c + 1) := pow_le_pow_right₀ hw1 (by omega)
    have hP : 1 ≤ w ^ (m + c + 1) := one_le_pow₀ hw1
    have hQ : 1 ≤ w ^ m := one_le_pow₀ hw1
    have hC : 1 ≤ w ^ c := one_le_pow₀ hw1
    have hp0 := abs_nonneg (p i)
    have hcw : w ^ c * |p i| ≤ w ^ (m + c + 1) * |p i| := by gcongr
    have hX : |Spec.value x * Spec.value y| ≤ w ^ (m + c + 1) * |p i| + ζ := near_abs (S := p i) (A := |p i|) (by linarith) le_rfl
    generalize w ^ (m + c + 1) = P at *
    generalize w ^ m = Q at *
    have hX0 : 0 ≤ P * A + o * κ * Q := by positivity
    have hp1 : 0 ≤ P * |p i| := by positivity
    have hbX : w * P * (|p i| + A) + (o + 1) * κ * (w * Q) = w * (P * |p i| + (P * A + o * κ * Q)) + κ * (w * Q) := by ring
    rw [hbX] at hb ⊢
    generalize P * A + o * κ * Q = X at *
    have hwQ : 1 ≤ w * Q := by nlinarith
    have hκw : κ ≤ κ * (w * Q) := by nlinarith
    have hwX : P * |p i| + X ≤ w * (P * |p i| + X) := by nlinarith
    obtain ⟨z, ez, fz, dz⟩ := ih htt (by linarith)
    have nz := near_abs dz hS
    have nab := abs_add_le (Spec.value x * Spec.value y) (Spec.value z)
    obtain ⟨h1, h2⟩ := fma_err ftz hx hy fz (by linarith)
    refine ⟨_, by simp only [eval, e, ez]; rfl, h1, ?_⟩
    have h3 := abs_sub_le (Spec.value (F32.fma ftz x y z)) (Spec.value x * Spec.value y + Spec.value z) (p i + S)
    have h4 : |Spec.value x * Spec.value y + Spec.value z - (p i + S)| ≤ |Spec.value x * Spec.value y - p i| + |Spec.value z - S| := by
      rw [show Spec.value x * Spec.value y + Spec.value z - (p i + S) = (Spec.value x * Spec.value y - p i) + (Spec.value z - S) by ring]
      exact abs_add_le _ _
    have h5 : |Spec.value x * Spec.value y + Spec.value z| * ulp24 ≤ (P * |p i| + ζ + X) * ulp24 := by gcongr; linarith
    have h6 : w * (P * |p i| + X) = (P * |p i| + X) + (P * |p i| + X) * ulp24 := by rw [← hw]; ring
    have h7 : ζ * ulp24 ≤ ζ := by nlinarith
    have h8 : (P * |p i| + ζ + X) * ulp24 = (P * |p i| + X) * ulp24 + ζ * ulp24 := by ring
    rw [h6]
    linarith

end SumTree

end Grann
