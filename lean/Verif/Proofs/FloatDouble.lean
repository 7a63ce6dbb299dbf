import Verif.Model.FloatKmeans
import Verif.Props.FloatCmp
/-!
# Errors of the arithmetic of `double`s, and of means
-/

namespace Grann

open _root_.Grann.Spec _root_.Spec

/-- One part in 2^53. -/
local notation "ulp53" => (1 / 9007199254740992 : ℚ)

theorem binExp_big {n d : Nat} (hd : 0 < d) (h : 9007199254740992 * d ≤ n) : 52 < binExp n d := by
  have hn : 0 < n := by omega
  by_contra hc
  have hlt := binExp_lt hn hd
  have hdq : (0 : ℚ) < d := by exact_mod_cast hd
  have h1 : (9007199254740992 : ℚ) ≤ fval (n, d) := by
    unfold fval
    rw [le_div_iff₀ hdq]
    exact_mod_cast h
  have h2 : (2 : ℚ) ^ (binExp n d + 1) ≤ 2 ^ (53 : Int) := zpow_le_zpow_right₀ (by norm_num) (by omega)
  have h3 : (2 : ℚ) ^ (53 : Int) = 9007199254740992 := by norm_num
  linarith

theorem roundBin_den {n d : Nat} (hd : 0 < d) (h : 9007199254740992 * d ≤ n) : (roundBin 53 (n, d)).2 = 1 := by
  have hb := binExp_big hd h
  unfold roundBin
  dsimp only
  rw [if_neg (by omega)]
  unfold scale
  rw [if_pos (by omega)]

/-- The magnitude of a rounded number. -/
theorem D64.mag_err {n d : Nat} (hd : 0 < d) :
    |((if n < 9007199254740992 * d then divRound n d else (roundBin 53 (n, d)).1 : Nat) : ℚ) - fval (n, d)| ≤ fval (n, d) * ulp53 + 1 / 2 := by
  have h0 : 0 ≤ fval (n, d) := by unfold fval; positivity
  split
  · have := divRound_err n d hd
    have : 0 ≤ fval (n, d) * ulp53 := by positivity
    linarith
  · rename_i h
    have h1 := roundBin_err 53 (by norm_num) (n, d) hd
    have h2 : fval (roundBin 53 (n, d)) = (roundBin 53 (n, d)).1 := by
      unfold fval
      rw [roundBin_den hd (by omega)]
      simp
    rw [h2] at h1
    have h3 : ((1 : ℚ) / 2) ^ 53 = ulp53 := by norm_num
    rw [h3] at h1
    exact h1.trans (le_add_of_nonneg_right (by norm_num))

theorem D64.round_err (ftz : Bool) (n : Int) {d : Nat} (hd : 0 < d) :
    |(D64.round ftz n d : ℚ) - (n : ℚ) / d| ≤ |(n : ℚ) / d| * ulp53 + 4503599627370496 := by
  have habs : |(n : ℚ) / d| = fval (n.natAbs, d) := by
    unfold fval
    rw [abs_div, abs_of_pos (by exact_mod_cast hd : (0 : ℚ) < d), Nat.cast_natAbs, Int.cast_abs]
  have key : ∀ m : Nat, |(m : ℚ) - fval (n.natAbs, d)| ≤ fval (n.natAbs, d) * ulp53 + 4503599627370496 →
      |((if n < 0 then -(m : Int) else m : Int) : ℚ) - (n : ℚ) / d| ≤ |(n : ℚ) / d| * ulp53 + 4503599627370496 := by
    intro m hm
    rw [← habs] at hm
    have hdq : (0 : ℚ) < d := by exact_mod_cast hd
    split
    · rename_i hn
      have hn' : (n : ℚ) / d ≤ 0 := div_nonpos_of_nonpos_of_nonneg (by exact_mod_cast hn.le) hdq.le
      rw [abs_of_nonpos hn'] at hm ⊢
      push_cast
      rw [← abs_neg]
      convert hm using 2
      ring
    · rename_i hn
      have hn' : 0 ≤ (n : ℚ) / d := div_nonneg (by exact_mod_cast (not_lt.1 hn)) hdq.le
      rw [abs_of_nonneg hn'] at hm ⊢
      exact_mod_cast hm
  unfold D64.round
  dsimp only
  apply key
  have hm := D64.mag_err (n := n.natAbs) hd
  have h0 : 0 ≤ fval (n.natAbs, d) := by unfold fval; positivity
  generalize (if n.natAbs < 9007199254740992 * d then divRound n.natAbs d else (roundBin 53 (n.natAbs, d)).1) = m at *
  split
  · rename_i hc
    rw [Bool.and_eq_true, decide_eq_true_eq] at hc
    have hlt : (m : ℚ) ≤ 4503599627370495 := by exact_mod_cast (by omega : m ≤ 4503599627370495)
    have h1 := (abs_le.1 hm).1
    rw [Nat.cast_zero, zero_sub, abs_neg, abs_of_nonneg h0]
    linarith
  · linarith

/-- The number a `double` stands for. -/
def dvalue (a : Int) : ℚ := (a : ℚ) / 2 ^ 1074

/-- The error for tiny numbers: 2^-1022. -/
def dtiny : ℚ := 4503599627370496 / 2 ^ 1074

theorem dtiny_pos : 0 < dtiny := by unfold dtiny; positivity

theorem dtiny_le : dtiny ≤ 1 / 2 ^ 200 := by
  unfold dtiny
  rw [show (2 : ℚ) ^ 1074 = 2 ^ 52 * (2 ^ 200 * 2 ^ 200 * 2 ^ 200 * 2 ^ 200 * 2 ^ 222) from by simp only [← pow_add]]
  rw [div_le_div_iff₀ (by positivity) (by positivity), one_mul]
  have h52 : (4503599627370496 : ℚ) = 2 ^ 52 := by norm_num
  rw [h52]
  refine mul_le_mul_of_nonneg_left ?_ (by positivity)
  have k1 : (1 : ℚ) ≤ 2 ^ 200 := one_le_pow₀ (by norm_num)
  have k2 : (1 : ℚ) ≤ 2 ^ 222 := one_le_pow₀ (by norm_num)
  calc (2 : ℚ) ^ 200 = 2 ^ 200 * 1 * 1 * 1 * 1 := by norm_num
    _ ≤ _ := by gcongr

theorem dvalue_err (ftz : Bool) (n : Int) {d : Nat} (hd : 0 < d) :
    |dvalue (D64.round ftz n d) - (n : ℚ) / d / 2 ^ 1074| ≤ |(n : ℚ) / d / 2 ^ 1074| * ulp53 + dtiny := by
  have h := D64.round_err ftz n hd
  unfold dvalue dtiny
  have hp : (0 : ℚ) < 2 ^ 1074 := by positivity
  generalize (2 : ℚ) ^ 1074 = A at *
  rw [← sub_div, abs_div, abs_div, abs_of_pos hp, div_mul_eq_mul_div, ← add_div]
  gcongr

theorem dadd_err (ftz : Bool) (a b : Int) :
    |dvalue (D64.round ftz (a + b) 1) - (dvalue a + dvalue b)| ≤ |dvalue a + dvalue b| * ulp53 + dtiny := by
  have h := dvalue_err ftz (a + b) one_pos
  have e : (((a + b : Int) : ℚ)) / ((1 : Nat) : ℚ) / 2 ^ 1074 = dvalue a + dvalue b := by
    unfold dvalue
    rw [Int.cast_add, Nat.cast_one, div_one, add_div]
  rwa [e] at h

theorem ddivn_err (ftz : Bool) (a : Int) {n : Nat} (hn : 0 < n) :
    |dvalue (D64.round ftz a n) - dvalue a / n| ≤ |dvalue a / n| * ulp53 + dtiny := by
  have h := dvalue_err ftz a hn
  have e : (a : ℚ) / n / 2 ^ 1074 = dvalue a / n := by unfold dvalue; rw [div_right_comm]
  rwa [e] at h

theorem dinv_err (ftz : Bool) {n : Nat} (hn : 0 < n) :
    |dvalue (D64.round ftz (2 ^ 1074) n) - 1 / n| ≤ |(1 : ℚ) / n| * ulp53 + dtiny := by
  have h := dvalue_err ftz (2 ^ 1074) hn
  have e : ((2 ^ 1074 : Int) : ℚ) / n / 2 ^ 1074 = 1 / n := by
    have hp : (2 : ℚ) ^ 1074 ≠ 0 := by positivity
    rw [Int.cast_pow, Int.cast_ofNat]
    generalize (2 : ℚ) ^ 1074 = A at *
    rw [div_right_comm, div_self hp]
  rwa [e] at h

theorem dmul_err (ftz : Bool) (a b : Int) :
    |dvalue (D64.round ftz (a * b) (2 ^ 1074)) - dvalue a * dvalue b| ≤ |dvalue a * dvalue b| * ulp53 + dtiny := by
  have h := dvalue_err ftz (a * b) (Nat.two_pow_pos 1074)
  have e : ((a * b : Int) : ℚ) / ((2 ^ 1074 : Nat) : ℚ) / 2 ^ 1074 = dvalue a * dvalue b := by
    unfold dvalue
    rw [Int.cast_mul, Nat.cast_pow, Nat.cast_ofNat]
    generalize (2 : ℚ) ^ 1074 = A at *
    rw [div_mul_div_comm, div_div]
  rwa [e] at h

/-- A `float` as `double` keeps its value. -/
theorem ofF32_value (ftz : Bool) {x : F32} (hx : Spec.Finite x) :
    D64.ofF32 ftz x = some ((x.daz ftz).units * 2 ^ 925) ∧ dvalue ((x.daz ftz).units * 2 ^ 925) = value (x.daz ftz) := by
  constructor
  · unfold D64.ofF32
    rw [if_pos (finite_mag.1 hx)]
  · unfold dvalue
    rw [value_units, Int.cast_mul, Int.cast_pow, Int.cast_ofNat, zpow_neg, show (149 : Int) = ((149 : Nat) : Int) from rfl, zpow_natCast,
      show (2 : ℚ) ^ 1074 = 2 ^ 925 * 2 ^ 149 from by rw [← pow_add]]
    have h1 : (2 : ℚ) ^ 925 ≠ 0 := by positivity
    generalize (2 : ℚ) ^ 925 = A at *
    generalize (2 : ℚ) ^ 149 = B at *
    rw [mul_comm A B, mul_div_mul_right _ _ h1, div_eq_mul_inv]

/-- The sum as `double`. -/
def sumF32 (ftz : Bool) (xs : List F32) : D64 := xs.foldl (fun s x => D64.add ftz s (D64.ofF32 ftz x)) (some 0)

/-- The bounds for a sum of up to 2^23 numbers of size at most `B`. -/
theorem sum_arith {B s x S t u N k : ℚ} (hB : 1 ≤ B) (hu : u = ulp53) (hN : N = 8388608) (ht : t ≤ B * u) (hk : k + 1 ≤ N)
    (hs : |s - S| ≤ k * (3 * N * B * u)) (hS : |S| ≤ k * B) (hx : |x| ≤ B) :
    |s + x| * u + t ≤ 3 * N * B * u := by
  have h1 : k * (3 * N * B * u) ≤ B := by
    have : k * (3 * N * B * u) ≤ N * (3 * N * B * u) := by
      apply mul_le_mul_of_nonneg_right (by linarith)
      rw [hu, hN]; positivity
    refine this.trans ?_
    rw [hu, hN]
    linarith
  have h2 : |s + x| ≤ N * B + B := by
    have e : s + x = (s - S) + S + x := by ring
    rw [e]
    have a1 := abs_add_three (s - S) S x
    have : (k + 1) * B ≤ N * B := mul_le_mul_of_nonneg_right hk (by linarith)
    linarith
  have h3 : |s + x| * u ≤ (N * B + B) * u := mul_le_mul_of_nonneg_right h2 (by rw [hu]; norm_num)
  rw [hu, hN] at *
  linarith

theorem sum_err (ftz : Bool) {B : ℚ} (hB : 1 ≤ B) : ∀ (xs : List F32) (s : Int) (S : ℚ) (k : Nat), k + xs.length ≤ 8388608 →
    (∀ x ∈ xs, Spec.Finite x ∧ |value x| ≤ B) → |dvalue s - S| ≤ k * (3 * 8388608 * B * ulp53) → |S| ≤ k * B →
    ∃ s', xs.foldl (fun s x => D64.add ftz s (D64.ofF32 ftz x)) (some s) = some s' ∧
      |dvalue s' - (S + (xs.map (fun x => value (x.daz ftz))).sum)| ≤ (k + xs.length : Nat) * (3 * 8388608 * B * ulp53) ∧
      |S + (xs.map (fun x => value (x.daz ftz))).sum| ≤ (k + xs.length : Nat) * B := by
  intro xs
  induction xs with
  | nil => intro s S k _ _ h1 h2; exact ⟨s, rfl, by simpa using h1, by simpa using h2⟩
  | cons x xs ih =>
    intro s S k hk hx h1 h2
    obtain ⟨hf, hb⟩ := hx x (by simp)
    obtain ⟨e1, e2⟩ := ofF32_value ftz hf
    have hb' : |value (x.daz ftz)| ≤ B := (daz_value ftz x).trans hb
    have hkq : (k : ℚ) + 1 ≤ 8388608 := by
      have : k + 1 ≤ 8388608 := by rw [List.length_cons] at hk; omega
      exact_mod_cast this
    have ht : dtiny ≤ B * ulp53 := by
      have h1 : dtiny ≤ ulp53 := dtiny_le.trans (by norm_num)
      have h2 : ulp53 ≤ B * ulp53 := le_mul_of_one_le_left (by norm_num) hB
      exact h1.trans h2
    have hstep := sum_arith (x := value (x.daz ftz)) hB rfl rfl ht hkq h1 h2 hb'
    have herr := dadd_err ftz s ((x.daz ftz).units * 2 ^ 925)
    rw [e2] at herr
    have hcur := herr.trans hstep
    obtain ⟨s', e, h3, h4⟩ := ih (D64.round ftz (s + (x.daz ftz).units * 2 ^ 925) 1) (S + value (x.daz ftz)) (k + 1)
      (by rw [List.length_cons] at hk; omega) (fun y hy => hx y (by simp [hy]))
      (by
        have e : dvalue (D64.round ftz (s + (x.daz ftz).units * 2 ^ 925) 1) - (S + value (x.daz ftz)) =
          (dvalue (D64.round ftz (s + (x.daz ftz).units * 2 ^ 925) 1) - (dvalue s + value (x.daz ftz))) + (dvalue s - S) := by ring
        rw [e]
        refine (abs_add_le _ _).trans ?_
        push_cast
        linarith)
      (by
        refine (abs_add_le _ _).trans ?_
        push_cast
        linarith)
    refine ⟨s', ?_, ?_, ?_⟩
    · rw [List.foldl_cons, e1]
      exact e
    · rw [List.map_cons, List.sum_cons, ← add_assoc, List.length_cons, show k + (xs.length + 1) = k + 1 + xs.length by omega]
      exact h3
    · rw [List.map_cons, List.sum_cons, ← add_assoc, List.length_cons, show k + (xs.length + 1) = k + 1 + xs.length by omega]
      exact h4

/-! ## Means -/

/-- Division by a count, directly or by way of the reciprocal. -/
theorem quot_err (ftz recip : Bool) {B S : ℚ} (hB : 1 ≤ B) {s : Int} {n : Nat} (hn0 : 0 < n) (hn : n ≤ 8388608)
    (hs : |dvalue s - S| ≤ n * (3 * 8388608 * B * ulp53)) (hS : |S| ≤ n * B) :
    ∃ d, (if recip then D64.mul ftz (some s) (D64.inv ftz n) else D64.divNat ftz (some s) n) = some d ∧
      |dvalue d - S / n| ≤ B / 268435456 := by
  have hnq : (0 : ℚ) < n := by exact_mod_cast hn0
  have hnq1 : (1 : ℚ) ≤ n := by exact_mod_cast hn0
  have hnq2 : (n : ℚ) ≤ 8388608 := by exact_mod_cast hn
  have htn : dtiny ≤ B * (ulp53 / 1000000000) := by
    refine dtiny_le.trans (le_trans ?_ (mul_le_mul_of_nonneg_right hB (by norm_num)))
    norm_num
  have ht0 := dtiny_pos
  have hq1 : |dvalue s / n - S / n| ≤ 3 * 8388608 * B * ulp53 := by
    rw [← sub_div, abs_div, abs_of_pos hnq, div_le_iff₀ hnq]
    linarith
  have hq2 : |S / n| ≤ B := by
    rw [abs_div, abs_of_pos hnq, div_le_iff₀ hnq]
    linarith
  have hq3 : |dvalue s / n| ≤ 2 * B := by
    have e : dvalue s / n = (dvalue s / n - S / n) + S / n := by ring
    rw [e]
    have := abs_add_le (dvalue s / n - S / n) (S / n)
    linarith
  have hs3 : |dvalue s| ≤ 2 * B * 8388608 := by
    rw [abs_div, abs_of_pos hnq, div_le_iff₀ hnq] at hq3
    have : 2 * B * n ≤ 2 * B * 8388608 := mul_le_mul_of_nonneg_left hnq2 (by linarith)
    linarith
  have hq4 : |dvalue s / n| * ulp53 ≤ 2 * B * ulp53 := mul_le_mul_of_nonneg_right hq3 (by norm_num)
  cases recip
  · rw [if_neg (by simp)]
    refine ⟨D64.round ftz s n, ?_, ?_⟩
    · unfold D64.divNat
      rw [if_neg (by omega)]
      rfl
    · have h := abs_le.1 (ddivn_err ftz s hn0)
      have h' := abs_le.1 hq1
      refine abs_le.2 ⟨by linarith, by linarith⟩
  · rw [if_pos rfl]
    refine ⟨D64.round ftz (s * D64.round ftz (2 ^ 1074) n) (2 ^ 1074), ?_, ?_⟩
    · unfold D64.inv D64.mul
      rw [if_neg (by omega)]
      rfl
    · have hi := dinv_err ftz hn0
      have hm := dmul_err ftz s (D64.round ftz (2 ^ 1074) n)
      generalize dvalue (D64.round ftz (s * D64.round ftz (2 ^ 1074) n) (2 ^ 1074)) = d at *
      generalize dvalue (D64.round ftz (2 ^ 1074) n) = i at *
      have hsi : |dvalue s * i - dvalue s / n| ≤ 2 * B * ulp53 + B * ulp53 := by
        have e : dvalue s * i - dvalue s / n = dvalue s * (i - 1 / n) := by ring
        rw [e, abs_mul]
        have h1 : |dvalue s| * |i - 1 / n| ≤ |dvalue s| * (|(1 : ℚ) / n| * ulp53 + dtiny) := mul_le_mul_of_nonneg_left hi (abs_nonneg _)
        have h2 : |dvalue s| * (|(1 : ℚ) / n| * ulp53 + dtiny) = |dvalue s / n| * ulp53 + |dvalue s| * dtiny := by
          have : |dvalue s / n| = |dvalue s| * |(1 : ℚ) / n| := by rw [← abs_mul]; congr 1; ring
          rw [this]
          ring
        have h3 : |dvalue s| * dtiny ≤ 2 * B * 8388608 * (1 / 2 ^ 200) := mul_le_mul hs3 dtiny_le ht0.le (by linarith)
        have h4 : 2 * B * 8388608 * (1 / 2 ^ 200) ≤ B * ulp53 := by
          have : 2 * B * 8388608 * (1 / 2 ^ 200) = B * (2 * 8388608 * (1 / 2 ^ 200)) := by ring
          rw [this]
          exact mul_le_mul_of_nonneg_left (by norm_num) (by linarith)
        linarith
      have hsi2 : |dvalue s * i| ≤ 3 * B := by
        have e : dvalue s * i = (dvalue s * i - dvalue s / n) + dvalue s / n := by ring
        rw [e]
        have := abs_add_le (dvalue s * i - dvalue s / n) (dvalue s / n)
        linarith
      have hsi3 : |dvalue s * i| * ulp53 ≤ 3 * B * ulp53 := mul_le_mul_of_nonneg_right hsi2 (by norm_num)
      have a1 := abs_le.1 hm
      have a2 := abs_le.1 hsi
      have a3 := abs_le.1 hq1
      refine abs_le.2 ⟨by linarith, by linarith⟩

/-- No number of this format is just above a power of two. -/
theorem float_gap {y : F32} {k : Nat} (h : |value y| < 2 ^ k * (1 + 2 ^ (-23 : Int))) : |value y| ≤ 2 ^ k := by
  have hv : |value y| = magnitude y.mag := by
    rw [value_pack]
    have := magnitude_nonneg y.mag
    cases y.sign
    · rw [if_neg (by simp), one_mul, abs_of_nonneg this]
    · rw [if_pos rfl, neg_one_mul, abs_neg, abs_of_nonneg this]
  have h0 : magnitude ((127 + k) * 8388608) = 2 ^ k := by
    unfold magnitude
    rw [if_neg (by omega), show (127 + k) * 8388608 % 8388608 = 0 by omega, show (127 + k) * 8388608 / 8388608 = 127 + k by omega]
    push_cast
    rw [show (127 : Int) + k - 150 = k + (-23) by ring, zpow_add₀ (by norm_num), zpow_natCast]
    norm_num
    ring
  have h1 : magnitude ((127 + k) * 8388608 + 1) = 2 ^ k * (1 + 2 ^ (-23 : Int)) := by
    unfold magnitude
    rw [if_neg (by omega), show ((127 + k) * 8388608 + 1) % 8388608 = 1 by omega, show ((127 + k) * 8388608 + 1) / 8388608 = 127 + k by omega]
    push_cast
    rw [show (127 : Int) + k - 150 = k + (-23) by ring, zpow_add₀ (by norm_num), zpow_natCast]
    norm_num
    ring
  rw [hv] at h ⊢
  rw [← h1] at h
  rw [← h0]
  have := magnitude_strictMono.lt_iff_lt.1 h
  exact magnitude_strictMono.monotone (by omega)

/-- Reading a tiny number as zero. -/
theorem daz_diff (ftz : Bool) (x : F32) : |value (F32.daz ftz x) - value x| ≤ 2 ^ (-126 : Int) := by
  unfold F32.daz
  split
  · rename_i hc
    have h0 : value (F32.pack x.sign 0) = 0 := by cases x.sign <;> decide +kernel
    have hm : x.mag < 8388608 := by
      rw [Bool.and_eq_true, decide_eq_true_eq] at hc
      exact hc.2
    have hv : |value x| = magnitude x.mag := by
      rw [value_pack]
      have := magnitude_nonneg x.mag
      cases x.sign
      · rw [if_neg (by simp), one_mul, abs_of_nonneg this]
      · rw [if_pos rfl, neg_one_mul, abs_neg, abs_of_nonneg this]
    rw [h0, zero_sub, abs_neg, hv]
    have h1 : magnitude 8388608 = 2 ^ (-126 : Int) := by norm_num [magnitude]
    rw [← h1]
    exact magnitude_strictMono.monotone hm.le
  · rw [sub_self, abs_zero]
    positivity

/-- The mean of up to 2^23 numbers of size at most 2^k: of the same size, and close to the exact mean. -/
theorem mean_float (A : KmArith) {k : Nat} (hk : k ≤ 120) {xs : List F32} (h0 : xs ≠ []) (hn : xs.length ≤ 8388608)
    (hx : ∀ x ∈ xs, Spec.Finite x ∧ |value x| ≤ 2 ^ k) :
    Spec.Finite (meanF32 A (sumF32 A.ftz xs) xs.length) ∧ |value (meanF32 A (sumF32 A.ftz xs) xs.length)| ≤ 2 ^ k ∧
      |value (meanF32 A (sumF32 A.ftz xs) xs.length) - (xs.map value).sum / xs.length| ≤ 2 ^ k * 2 ^ (-23 : Int) := by
  have hB : (1 : ℚ) ≤ 2 ^ k := one_le_pow₀ (by norm_num)
  have hB2 : (2 : ℚ) ^ k ≤ 2 ^ 120 := pow_le_pow_right₀ (by norm_num) hk
  have hn0 : 0 < xs.length := List.length_pos_iff.2 h0
  have hnq : (0 : ℚ) < xs.length := by exact_mod_cast hn0
  obtain ⟨s, e, h1, h2⟩ := sum_err A.ftz hB xs 0 0 0 (by omega) hx (by unfold dvalue; simp) (by simp)
  rw [zero_add, Nat.zero_add] at h1 h2
  obtain ⟨d, e2, h3⟩ := quot_err A.ftz A.recip hB hn0 hn h1 h2
  have hm2 : |(xs.map (fun x => value (x.daz A.ftz))).sum / xs.length| ≤ 2 ^ k := by
    rw [abs_div, abs_of_pos hnq, div_le_iff₀ hnq]
    linarith
  have hdz : |(xs.map (fun x => value (x.daz A.ftz))).sum / xs.length - (xs.map value).sum / xs.length| ≤ 2 ^ (-126 : Int) := by
    rw [← sub_div, abs_div, abs_of_pos hnq, div_le_iff₀ hnq]
    clear h0 hn hx hn0 hnq e h1 h2 e2 h3 hm2
    induction xs with
    | nil => simp
    | cons x xs ih =>
      rw [List.map_cons, List.sum_cons, List.map_cons, List.sum_cons, List.length_cons]
      have e : value (x.daz A.ftz) + (xs.map (fun x => value (x.daz A.ftz))).sum - (value x + (xs.map value).sum) =
        (value (x.daz A.ftz) - value x) + ((xs.map (fun x => value (x.daz A.ftz))).sum - (xs.map value).sum) := by ring
      rw [e]
      refine (abs_add_le _ _).trans ?_
      have := daz_diff A.ftz x
      push_cast
      linarith
  have em : meanF32 A (sumF32 A.ftz xs) xs.length = F32.round A.ftz false d 1074 := by
    unfold meanF32 sumF32
    rw [e, e2]
    rfl
  rw [em]
  generalize (xs.map (fun x => value (x.daz A.ftz))).sum / (xs.length : ℚ) = M at *
  generalize (xs.map value).sum / (xs.length : ℚ) = M' at *
  have b1 := abs_le.1 h3
  have b2 := abs_le.1 hm2
  have hd : |dvalue d| ≤ 2 ^ k * (1 + 1 / 268435456) := abs_le.2 ⟨by linarith, by linarith⟩
  have hlt : |(d : ℚ) / 2 ^ 1074| < ovf := by
    refine lt_of_le_of_lt hd ?_
    have : (2 : ℚ) ^ k * (1 + 1 / 268435456) ≤ 2 ^ 120 * (1 + 1 / 268435456) := mul_le_mul_of_nonneg_right hB2 (by norm_num)
    refine lt_of_le_of_lt this ?_
    unfold ovf
    norm_num
  have hr := round_err A.ftz false hlt
  have hf := round_finite A.ftz false hlt
  have hdu : |dvalue d| * ulp24 ≤ 2 ^ k * (1 + 1 / 268435456) * ulp24 := mul_le_mul_of_nonneg_right hd (by unfold ulp24; positivity)
  have hr2 : |value (F32.round A.ftz false d 1074) - dvalue d| ≤ 2 ^ k * (1 + 1 / 268435456) * ulp24 + tiny A.ftz := hr.trans (by
    unfold dvalue at hdu
    linarith)
  have hu : ulp24 = 1 / 16777216 := by unfold ulp24; norm_num
  have ht : tiny A.ftz ≤ 2 ^ k * (1 / 2 ^ 100) := by
    refine le_trans ?_ (mul_le_mul_of_nonneg_right hB (by norm_num))
    unfold tiny
    cases A.ftz <;> norm_num
  have ht2 : (2 : ℚ) ^ (-126 : Int) ≤ 2 ^ k * (1 / 2 ^ 100) := by
    refine le_trans ?_ (mul_le_mul_of_nonneg_right hB (by norm_num))
    norm_num
  rw [hu] at hr2
  have b3 := abs_le.1 hr2
  have b4 := abs_le.1 hdz
  have e23 : (2 : ℚ) ^ (-23 : Int) = 1 / 8388608 := by norm_num
  have e126 : ∀ z : ℚ, z ≤ 2 ^ k * (1 / 2 ^ 100) → z ≤ 2 ^ k * (1 / 1000000000000) := by
    intro z hz
    exact hz.trans (mul_le_mul_of_nonneg_left (by norm_num) (by linarith))
  have ht' := e126 _ ht
  have ht2' := e126 _ ht2
  clear ht ht2 e126 hdu hr hlt hr2 hdz
  generalize (2 : ℚ) ^ (-126 : Int) = z at *
  refine ⟨hf, float_gap ?_, ?_⟩
  · rw [e23]
    refine abs_lt.2 ⟨by linarith, by linarith⟩
  · rw [e23]
    exact abs_le.2 ⟨by linarith, by linarith⟩

end Grann
