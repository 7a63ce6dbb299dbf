import Mathlib.Data.Rat.Floor
import Mathlib.Algebra.Order.Field.Basic
import Mathlib.Algebra.Order.Field.Power
import Mathlib.Tactic.Positivity
import Mathlib.Tactic.Linarith
import Mathlib.Tactic.FieldSimp
/-!
# Rounding to binary floating-point numbers

Positive numbers are fractions, given by numerator and denominator.  The range of the exponent is not
limited: overflow and underflow are excluded by the magnitudes in the places where this is used, or handled
there.
-/

namespace Grann

/-- Quotient rounded to the nearest integer, ties to even. -/
def divRound (a b : Nat) : Nat :=
  let q := a / b
  let r := a % b
  if 2 * r < b then q else if b < 2 * r then q + 1 else if q % 2 = 0 then q else q + 1

/-- `x * base ^ k` for an integer `k`, as numerator and denominator. -/
def scale (base : Nat) (num den : Nat) (k : Int) : Nat × Nat :=
  if 0 ≤ k then (num * base ^ k.toNat, den) else (num, den * base ^ (-k).toNat)

/-- The exponent of the binary representation: the largest `e` with `2 ^ e ≤ num / den`. -/
def binExp (num den : Nat) : Int :=
  let k : Int := (Nat.log2 num : Int) - Nat.log2 den
  let p := scale 2 den 1 k
  if num * p.2 < p.1 then k - 1 else k

/-- The nearest number with `prec` significant binary digits, ties to even. -/
def roundBin (prec : Nat) (x : Nat × Nat) : Nat × Nat :=
  if x.1 = 0 then (0, 1)
  else
    let q := binExp x.1 x.2 - (prec - 1 : Nat)
    let r := scale 2 x.1 x.2 (-q)
    scale 2 (divRound r.1 r.2) 1 q

/-- The value of a fraction. -/
def fval (x : Nat × Nat) : ℚ := (x.1 : ℚ) / (x.2 : ℚ)

theorem scale_val (n d : Nat) (k : Int) : fval (scale 2 n d k) = fval (n, d) * (2 : ℚ) ^ k := by
  unfold scale fval
  split
  · rename_i h
    obtain ⟨m, rfl⟩ := Int.eq_ofNat_of_zero_le h
    simp only [Int.toNat_natCast, zpow_natCast, Nat.cast_mul, Nat.cast_pow, Nat.cast_ofNat]
    ring
  · rename_i h
    obtain ⟨m, hm⟩ := Int.eq_ofNat_of_zero_le (by omega : 0 ≤ -k)
    have hk : k = -(m : Int) := by omega
    subst hk
    simp only [neg_neg, Int.toNat_natCast, zpow_neg, zpow_natCast, Nat.cast_mul, Nat.cast_pow, Nat.cast_ofNat]
    field_simp

theorem scale_den_pos {n d : Nat} (hd : 0 < d) (k : Int) : 0 < (scale 2 n d k).2 := by
  unfold scale
  split
  · exact hd
  · positivity

theorem scale_num_pos {n d : Nat} (hn : 0 < n) (k : Int) : 0 < (scale 2 n d k).1 := by
  unfold scale
  split
  · show 0 < n * 2 ^ k.toNat; positivity
  · exact hn

/-- Rounding to an integer moves a number by at most one half. -/
theorem divRound_err (a b : Nat) (hb : 0 < b) : |(divRound a b : ℚ) - fval (a, b)| ≤ 1 / 2 := by
  have hq : (a : ℚ) = (b : ℚ) * (a / b : Nat) + (a % b : Nat) := by exact_mod_cast (Nat.div_add_mod a b).symm
  have hbq : (0 : ℚ) < b := by exact_mod_cast hb
  have hr : a % b < b := Nat.mod_lt _ hb
  have hv : fval (a, b) = (a / b : Nat) + ((a % b : Nat) : ℚ) / b := by
    unfold fval; rw [hq]; field_simp
  rw [hv]
  have h0 : (0 : ℚ) ≤ ((a % b : Nat) : ℚ) / b := by positivity
  have h1 : ((a % b : Nat) : ℚ) / b < 1 := by rw [div_lt_one hbq]; exact_mod_cast hr
  unfold divRound
  dsimp only
  have up : ∀ {x : ℚ}, b ≤ 2 * (a % b) → x = ((a / b + 1 : Nat) : ℚ) →
      |x - (((a / b : Nat) : ℚ) + ((a % b : Nat) : ℚ) / b)| ≤ 1 / 2 := by
    rintro x h rfl
    have : (1 : ℚ) / 2 ≤ ((a % b : Nat) : ℚ) / b := by
      rw [le_div_iff₀ hbq]
      have : (b : ℚ) ≤ 2 * (a % b : Nat) := by exact_mod_cast h
      linarith
    rw [abs_le]; push_cast; constructor <;> linarith
  have dn : 2 * (a % b) ≤ b → |((a / b : Nat) : ℚ) - (((a / b : Nat) : ℚ) + ((a % b : Nat) : ℚ) / b)| ≤ 1 / 2 := by
    intro h
    have : ((a % b : Nat) : ℚ) / b ≤ 1 / 2 := by
      rw [div_le_iff₀ hbq]
      have : (2 : ℚ) * (a % b : Nat) ≤ b := by exact_mod_cast h
      linarith
    rw [abs_le]; constructor <;> linarith
  split
  · exact dn (by omega)
  · split
    · exact up (by omega) rfl
    · split
      · exact dn (by omega)
      · exact up (by omega) rfl

theorem binExp_le {n d : Nat} (hn : 0 < n) (hd : 0 < d) : (2 : ℚ) ^ binExp n d ≤ fval (n, d) := by
  have hdq : (0 : ℚ) < d := by exact_mod_cast hd
  have hnq : (0 : ℚ) < n := by exact_mod_cast hn
  unfold binExp
  dsimp only
  have hp := scale_val d 1 ((Nat.log2 n : Int) - Nat.log2 d)
  have hp2 := scale_den_pos (n := d) (d := 1) one_pos ((Nat.log2 n : Int) - Nat.log2 d)
  generalize scale 2 d 1 ((Nat.log2 n : Int) - Nat.log2 d) = p at *
  have hp2q : (0 : ℚ) < p.2 := by exact_mod_cast hp2
  have hp' : (p.1 : ℚ) = p.2 * (d * 2 ^ ((Nat.log2 n : Int) - Nat.log2 d)) := by
    unfold fval at hp
    field_simp at hp
    rw [← mul_assoc]
    simpa using hp
  split
  · -- `2 ^ log2 n ≤ n` and `d < 2 ^ (log2 d + 1)`
    have h1 : 2 ^ Nat.log2 n ≤ n := Nat.log2_self_le (by omega)
    have h2 : d < 2 ^ (Nat.log2 d + 1) := Nat.lt_log2_self
    have h1q : (2 : ℚ) ^ (Nat.log2 n : Int) ≤ n := by rw [zpow_natCast]; exact_mod_cast h1
    have h2q : (d : ℚ) ≤ (2 : ℚ) ^ ((Nat.log2 d : Int) + 1) := by
      have : (d : ℚ) ≤ (2 : ℚ) ^ (Nat.log2 d + 1) := by exact_mod_cast h2.le
      rw [← zpow_natCast] at this; push_cast at this; exact this
    unfold fval
    rw [le_div_iff₀ hdq]
    calc (2 : ℚ) ^ ((Nat.log2 n : Int) - Nat.log2 d - 1) * d
        ≤ (2 : ℚ) ^ ((Nat.log2 n : Int) - Nat.log2 d - 1) * (2 : ℚ) ^ ((Nat.log2 d : Int) + 1) := by gcongr
      _ = (2 : ℚ) ^ (Nat.log2 n : Int) := by rw [← zpow_add₀ (by norm_num)]; congr 1; ring
      _ ≤ n := h1q
  · rename_i h
    have h' : (p.1 : ℚ) ≤ n * p.2 := by exact_mod_cast Nat.le_of_not_lt h
    unfold fval
    rw [le_div_iff₀ hdq]
    rw [hp'] at h'
    have : (p.2 : ℚ) * (2 ^ ((Nat.log2 n : Int) - Nat.log2 d) * d) ≤ p.2 * n := by linarith
    exact le_of_mul_le_mul_left this hp2q

/-- Rounding to `prec` binary digits changes a number by at most one part in `2 ^ prec`. -/
theorem roundBin_err (prec : Nat) (hprec : 0 < prec) (x : Nat × Nat) (hx : 0 < x.2) :
    |fval (roundBin prec x) - fval x| ≤ fval x * (1 / 2) ^ prec := by
  obtain ⟨n, d⟩ := x
  unfold roundBin
  dsimp only at *
  split
  · rename_i h
    rw [h]; simp [fval]
  · rename_i h
    have hn : 0 < n := by omega
    obtain ⟨q, hq⟩ : ∃ q, q = binExp n d - (prec - 1 : Nat) := ⟨_, rfl⟩
    rw [← hq, scale_val]
    have hr := scale_val n d (-q)
    have hr2 := scale_den_pos (n := n) hx (-q)
    generalize scale 2 n d (-q) = r at *
    have he := divRound_err r.1 r.2 hr2
    have e1 : fval (divRound r.1 r.2, 1) = divRound r.1 r.2 := by simp [fval]
    have e2 : fval (n, d) = fval (r.1, r.2) * 2 ^ q := by
      rw [show (r.1, r.2) = r from rfl, hr, mul_assoc, ← zpow_add₀ (by norm_num)]; simp
    rw [e1, e2, ← sub_mul, abs_mul, abs_of_pos (by positivity : (0 : ℚ) < 2 ^ q)]
    have hb := binExp_le hn hx
    have h3 : (2 : ℚ) ^ q * (1 / 2) ≤ fval (n, d) * (1 / 2) ^ prec := by
      have : (2 : ℚ) ^ q * (1 / 2) = 2 ^ binExp n d * (1 / 2) ^ prec := by
        rw [hq, zpow_sub₀ (by norm_num), zpow_natCast]
        obtain ⟨m, rfl⟩ : ∃ m, prec = m + 1 := ⟨prec - 1, by omega⟩
        simp only [Nat.add_sub_cancel, pow_succ, one_div, inv_pow]
        field_simp
      rw [this]; gcongr
    calc |(divRound r.1 r.2 : ℚ) - fval (r.1, r.2)| * 2 ^ q ≤ 1 / 2 * 2 ^ q := by gcongr
      _ = 2 ^ q * (1 / 2) := by ring
      _ ≤ _ := by rw [e2] at h3; exact h3

theorem roundBin_den_pos (prec : Nat) (x : Nat × Nat) : 0 < (roundBin prec x).2 := by
  unfold roundBin
  split
  · decide
  · exact scale_den_pos one_pos _

theorem fval_nonneg (x : Nat × Nat) : 0 ≤ fval x := by unfold fval; positivity

theorem divRound_le {a b m : Nat} (hb : 0 < b) (h : a ≤ m * b) : divRound a b ≤ m := by
  have h1 := Nat.div_add_mod a b
  have h2 := Nat.mod_lt a hb
  have h3 : a / b ≤ m := by rw [Nat.div_le_iff_le_mul_add_pred hb]; nlinarith
  unfold divRound
  dsimp only
  by_cases he : a / b = m
  · have : a % b = 0 := by
      have : b * (a / b) = m * b := by rw [he]; ring
      omega
    rw [if_pos (by omega)]; omega
  · split
    · omega
    · split
      · omega
      · split <;> omega

/-- Rounding does not pass an integer that is itself representable. -/
theorem roundBin_le (prec : Nat) (x : Nat × Nat) (hx : 0 < x.2) (m : Nat) (hm : m < 2 ^ prec)
    (h : fval x ≤ m) : fval (roundBin prec x) ≤ m := by
  obtain ⟨n, d⟩ := x
  unfold roundBin
  dsimp only at *
  split
  · simp [fval]
  · rename_i h0
    have hn : 0 < n := by omega
    obtain ⟨q, hq⟩ : ∃ q, q = binExp n d - (prec - 1 : Nat) := ⟨_, rfl⟩
    have hb := binExp_le hn hx
    have hq0 : q ≤ 0 := by
      by_contra hc
      have h1 : (prec : Int) ≤ binExp n d := by omega
      have h2 : (2 : ℚ) ^ (prec : Int) ≤ (2 : ℚ) ^ binExp n d := zpow_le_zpow_right₀ (by norm_num) h1
      have h3 : (m : ℚ) < 2 ^ prec := by exact_mod_cast hm
      rw [zpow_natCast] at h2
      linarith
    rw [← hq, scale_val]
    obtain ⟨k, hk⟩ := Int.eq_ofNat_of_zero_le (by omega : 0 ≤ -q)
    have hr : scale 2 n d (-q) = (n * 2 ^ k, d) := by
      unfold scale
      rw [if_pos (by omega)]
      have : (-q).toNat = k := by omega
      rw [this]
    rw [hr]
    dsimp only
    have h4 : n ≤ m * d := by
      unfold fval at h
      rw [div_le_iff₀ (by exact_mod_cast hx)] at h
      exact_mod_cast h
    have h5 : divRound (n * 2 ^ k) d ≤ m * 2 ^ k := by
      apply divRound_le hx
      calc n * 2 ^ k ≤ m * d * 2 ^ k := Nat.mul_le_mul_right _ h4
        _ = m * 2 ^ k * d := by ring
    have h6 : (divRound (n * 2 ^ k) d : ℚ) ≤ m * 2 ^ k := by exact_mod_cast h5
    have e1 : fval (divRound (n * 2 ^ k) d, 1) = divRound (n * 2 ^ k) d := by simp [fval]
    have hqk : q = -(k : Int) := by omega
    rw [e1, hqk, zpow_neg, zpow_natCast]
    rw [mul_inv_le_iff₀ (by positivity)]
    exact h6

theorem divRound_ge {a b m : Nat} (hb : 0 < b) (h : m * b ≤ a) : m ≤ divRound a b := by
  have h3 : m ≤ a / b := (Nat.le_div_iff_mul_le hb).mpr h
  unfold divRound
  dsimp only
  split
  · omega
  · split
    · omega
    · split <;> omega

/-- Rounding does not pass an integer that is itself representable. -/
theorem roundBin_ge (prec : Nat) (x : Nat × Nat) (hx : 0 < x.2) (m : Nat) (hm : fval x < 2 ^ prec)
    (h : m ≤ fval x) : m ≤ fval (roundBin prec x) := by
  obtain ⟨n, d⟩ := x
  unfold roundBin
  dsimp only at *
  split
  · rename_i h0
    subst h0
    simp only [fval, Nat.cast_zero, zero_div] at h ⊢
    exact h
  · rename_i h0
    have hn : 0 < n := by omega
    obtain ⟨q, hq⟩ : ∃ q, q = binExp n d - (prec - 1 : Nat) := ⟨_, rfl⟩
    have hb := binExp_le hn hx
    have hq0 : q ≤ 0 := by
      by_contra hc
      have h1 : (prec : Int) ≤ binExp n d := by omega
      have h2 : (2 : ℚ) ^ (prec : Int) ≤ (2 : ℚ) ^ binExp n d := zpow_le_zpow_right₀ (by norm_num) h1
      rw [zpow_natCast] at h2
      linarith
    rw [← hq, scale_val]
    obtain ⟨k, hk⟩ := Int.eq_ofNat_of_zero_le (by omega : 0 ≤ -q)
    have hr : scale 2 n d (-q) = (n * 2 ^ k, d) := by
      unfold scale
      rw [if_pos (by omega)]
      have : (-q).toNat = k := by omega
      rw [this]
    rw [hr]
    dsimp only
    have h4 : m * d ≤ n := by
      unfold fval at h
      rw [le_div_iff₀ (by exact_mod_cast hx)] at h
      exact_mod_cast h
    have h5 : m * 2 ^ k ≤ divRound (n * 2 ^ k) d := by
      apply divRound_ge hx
      calc m * 2 ^ k * d = m * d * 2 ^ k := by ring
        _ ≤ n * 2 ^ k := Nat.mul_le_mul_right _ h4
    have h6 : (m * 2 ^ k : ℚ) ≤ divRound (n * 2 ^ k) d := by exact_mod_cast h5
    have e1 : fval (divRound (n * 2 ^ k) d, 1) = divRound (n * 2 ^ k) d := by simp [fval]
    have hqk : q = -(k : Int) := by omega
    rw [e1, hqk, zpow_neg, zpow_natCast]
    rw [le_mul_inv_iff₀ (by positivity)]
    exact h6

end Grann
