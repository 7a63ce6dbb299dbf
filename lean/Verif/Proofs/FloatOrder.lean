import Verif.Proofs.FloatPrint
/-!
# Comparison of floats is comparison of their values
-/

namespace Grann

/-- The place of a finite float in the order. -/
theorem key_finite {x : F32} (h : Spec.Finite x) :
    x.key = some (if x.bits.toNat < 2147483648 then ((x.bits.toNat % 2147483648 : Nat) : Int) else -((x.bits.toNat % 2147483648 : Nat) : Int)) := by
  unfold Spec.Finite at h
  unfold F32.key
  dsimp only
  rw [if_neg (by omega)]
  split <;> rfl

theorem value_key {x y : F32} {a b : Int}
    (ha : a = if x.bits.toNat < 2147483648 then ((x.bits.toNat % 2147483648 : Nat) : Int) else -((x.bits.toNat % 2147483648 : Nat) : Int))
    (hb : b = if y.bits.toNat < 2147483648 then ((y.bits.toNat % 2147483648 : Nat) : Int) else -((y.bits.toNat % 2147483648 : Nat) : Int)) :
    a < b ↔ Spec.value x < Spec.value y := by
  rw [value_sign, value_sign]
  generalize x.bits.toNat % 2147483648 = m at *
  generalize y.bits.toNat % 2147483648 = n at *
  have hm : 0 ≤ Spec.magnitude m := magnitude_nonneg m
  have hn : 0 ≤ Spec.magnitude n := magnitude_nonneg n
  have hlt : ∀ i j, Spec.magnitude i < Spec.magnitude j ↔ i < j := fun i j => magnitude_strictMono.lt_iff_lt
  have hpos : ∀ i, 0 < Spec.magnitude i ↔ 0 < i := fun i => by rw [← magnitude_zero, hlt]
  by_cases h1 : x.bits.toNat < 2147483648 <;> by_cases h2 : y.bits.toNat < 2147483648
  · rw [if_pos h1] at ha
    rw [if_pos h2] at hb
    rw [if_neg (by omega), if_neg (by omega), one_mul, one_mul, hlt]
    omega
  · rw [if_pos h1] at ha
    rw [if_neg h2] at hb
    rw [if_neg (by omega), if_pos (by omega)]
    constructor
    · intro h; omega
    · intro h; linarith
  · rw [if_neg h1] at ha
    rw [if_pos h2] at hb
    rw [if_pos (by omega), if_neg (by omega)]
    constructor
    · intro h
      rcases (show 0 < m ∨ 0 < n by omega) with h | h
      · have := (hpos m).2 h; linarith
      · have := (hpos n).2 h; linarith
    · intro h
      by_contra hc
      have e1 : m = 0 := by omega
      have e2 : n = 0 := by omega
      rw [e1, e2, magnitude_zero] at h
      norm_num at h
  · rw [if_neg h1] at ha
    rw [if_neg h2] at hb
    rw [if_pos (by omega), if_pos (by omega), neg_one_mul, neg_one_mul, neg_lt_neg_iff, hlt]
    omega

/-- Finite floats compare as their values do. -/
theorem lt_iff_value {x y : F32} (hx : Spec.Finite x) (hy : Spec.Finite y) : x.lt y = true ↔ Spec.value x < Spec.value y := by
  unfold F32.lt
  rw [key_finite hx, key_finite hy]
  dsimp only
  rw [decide_eq_true_iff]
  exact value_key rfl rfl

theorem le_iff_value {x y : F32} (hx : Spec.Finite x) (hy : Spec.Finite y) : x.le y = true ↔ Spec.value x ≤ Spec.value y := by
  rw [← not_lt, ← lt_iff_value hy hx]
  unfold F32.lt F32.le
  rw [key_finite hx, key_finite hy]
  dsimp only
  rw [decide_eq_true_iff, decide_eq_true_iff, not_lt]

end Grann
