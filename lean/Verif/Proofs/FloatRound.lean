import Verif.Spec.Float
import Verif.Basic.RoundNear
import Verif.Model.FloatText
/-!
# Rounding to `float`
-/

namespace Grann

theorem fval_pos {x : Nat × Nat} (h1 : 0 < x.1) (h2 : 0 < x.2) : 0 < fval x := by
  unfold fval
  have : (0 : ℚ) < x.1 := by exact_mod_cast h1
  have : (0 : ℚ) < x.2 := by exact_mod_cast h2
  positivity

/-- Powers of two are ordered like their exponents. -/
theorem two_zpow_lt {a b : Int} (h : (2 : ℚ) ^ a < 2 ^ b) : a < b := (zpow_lt_zpow_iff_right₀ (by norm_num)).1 h

theorem binExp_unique {n d : Nat} (hn : 0 < n) (hd : 0 < d) {e : Int} (h1 : (2 : ℚ) ^ e ≤ fval (n, d))
    (h2 : fval (n, d) < 2 ^ (e + 1)) : binExp n d = e := by
  have a := two_zpow_lt (lt_of_le_of_lt h1 (binExp_lt hn hd))
  have b := two_zpow_lt (lt_of_le_of_lt (binExp_le hn hd) h2)
  omega

/-- No integer is nearer to a fraction than the rounded one; if another one is equally near, the rounded one is even. -/
theorem divRound_nearest (a b : Nat) (hb : 0 < b) (z : Int) :
    |(divRound a b : ℚ) - fval (a, b)| ≤ |(z : ℚ) - fval (a, b)| ∧
      (z ≠ divRound a b → |(divRound a b : ℚ) - fval (a, b)| = |(z : ℚ) - fval (a, b)| → divRound a b % 2 = 0) := by
  have he := divRound_err a b hb
  by_cases hz : z = divRound a b
  · subst hz
    exact ⟨by simp, fun h => absurd rfl h⟩
  have hd : (1 : ℚ) ≤ |(z : ℚ) - divRound a b| := by
    have : (1 : Int) ≤ |z - divRound a b| := Int.one_le_abs (by omega)
    exact_mod_cast this
  have htri : |(z : ℚ) - divRound a b| ≤ |(z : ℚ) - fval (a, b)| + |(divRound a b : ℚ) - fval (a, b)| := by
    have := abs_sub_le (z : ℚ) (fval (a, b)) (divRound a b)
    rw [abs_sub_comm (fval (a, b)) (divRound a b : ℚ)] at this
    exact this
  refine ⟨by linarith, fun _ heq => ?_⟩
  have hhalf : |(divRound a b : ℚ) - fval (a, b)| = 1 / 2 := by linarith
  -- in a tie the remainder is half the divisor
  have hbq : (0 : ℚ) < b := by exact_mod_cast hb
  have hq : (a : ℚ) = (b : ℚ) * (a / b : Nat) + (a % b : Nat) := by exact_mod_cast (Nat.div_add_mod a b).symm
  have hv : fval (a, b) = (a / b : Nat) + ((a % b : Nat) : ℚ) / b := by
    unfold fval; rw [hq]; field_simp
  have hrb := Nat.mod_lt a hb
  rw [hv] at hhalf
  have key : 2 * (a % b) = b := by
    unfold divRound at hhalf
    dsimp only at hhalf
    have h0 : (0 : ℚ) ≤ ((a % b : Nat) : ℚ) / b := by positivity
    split at hhalf
    · rename_i h
      rw [sub_add_cancel_left, abs_neg, abs_of_nonneg h0, div_eq_iff hbq.ne'] at hhalf
      have : (2 * (a % b : Nat) : ℚ) = b := by linarith
      exact_mod_cast this
    · split at hhalf
      · rename_i h1 h
        have e : ((a / b + 1 : Nat) : ℚ) - ((a / b : Nat) + ((a % b : Nat) : ℚ) / b) = 1 - ((a % b : Nat) : ℚ) / b := by push_cast; ring
        have h1' : ((a % b : Nat) : ℚ) / b < 1 := by rw [div_lt_one hbq]; exact_mod_cast hrb
        rw [e, abs_of_nonneg (by linarith)] at hhalf
        have : ((a % b : Nat) : ℚ) / b = 1 / 2 := by linarith
        rw [div_eq_iff hbq.ne'] at this
        have : (2 * (a % b : Nat) : ℚ) = b := by linarith
        exact_mod_cast this
      · rename_i h1 h2; omega
  unfold divRound
  dsimp only
  rw [if_neg (by omega), if_neg (by omega)]
  split <;> omega

/-- The rounded integer depends on the value of the fraction only. -/
theorem divRound_congr {a b a' b' : Nat} (hb : 0 < b) (hb' : 0 < b') (h : fval (a, b) = fval (a', b')) : divRound a b = divRound a' b' := by
  by_contra hne
  obtain ⟨h1, h2⟩ := divRound_nearest a b hb (divRound a' b')
  obtain ⟨h3, h4⟩ := divRound_nearest a' b' hb' (divRound a b)
  rw [← h] at h3 h4
  simp only [Int.cast_natCast] at h1 h2 h3 h4
  have heq := le_antisymm h1 h3
  have p1 := h2 (by omega) heq
  have p2 := h4 (by omega) heq.symm
  -- two even integers at the same distance at most one half
  have he := divRound_err a b hb
  have he' := divRound_err a' b' hb'
  rw [← h] at he'
  have h5 : |(divRound a b : ℚ) - divRound a' b'| ≤ 1 := by
    have := abs_sub_le (divRound a b : ℚ) (fval (a, b)) (divRound a' b')
    rw [abs_sub_comm (fval (a, b)) (divRound a' b' : ℚ)] at this
    linarith
  have h6 : |((divRound a b : Int) - divRound a' b')| ≤ 1 := by exact_mod_cast h5
  rw [abs_le] at h6
  omega

/-- The unit in the last place for the rounding of a fraction. -/
def ulpExp (n d : Nat) : Int := max (binExp n d - 23) (-149)

/-- The rounded number in units in the last place. -/
def ulps (n d : Nat) : Nat := divRound (scale 2 n d (-ulpExp n d)).1 (scale 2 n d (-ulpExp n d)).2

theorem nearestBits_eq {n d : Nat} (hn : 0 < n) : nearestBits n d = (ulpExp n d + 149).toNat * 8388608 + ulps n d := by
  unfold nearestBits
  rw [if_neg (by omega)]
  rfl

theorem ulps_scaled {n d : Nat} : fval (scale 2 n d (-ulpExp n d)) = fval (n, d) * 2 ^ (-ulpExp n d) := scale_val _ _ _

theorem ulps_le {n d : Nat} (hn : 0 < n) (hd : 0 < d) : ulps n d ≤ 16777216 := by
  unfold ulps
  refine divRound_le (scale_den_pos hd _) ?_
  have h := ulps_scaled (n := n) (d := d)
  have hb := binExp_lt hn hd
  have hp := scale_den_pos (n := n) hd (-ulpExp n d)
  generalize scale 2 n d (-ulpExp n d) = r at *
  have hpq : (0 : ℚ) < r.2 := by exact_mod_cast hp
  have h1 : fval r < 16777216 := by
    rw [h]
    calc fval (n, d) * 2 ^ (-ulpExp n d) < 2 ^ (binExp n d + 1) * 2 ^ (-ulpExp n d) := by gcongr
      _ = 2 ^ (binExp n d + 1 - ulpExp n d) := by rw [← zpow_add₀ (by norm_num)]; rfl
      _ ≤ 2 ^ (24 : Int) := zpow_le_zpow_right₀ (by norm_num) (by unfold ulpExp; omega)
      _ = 16777216 := by norm_num
  unfold fval at h1
  rw [div_lt_iff₀ hpq] at h1
  exact_mod_cast h1.le

theorem ulps_ge {n d : Nat} (hn : 0 < n) (hd : 0 < d) (hu : -149 < ulpExp n d) : 8388608 ≤ ulps n d := by
  unfold ulps
  refine divRound_ge (scale_den_pos hd _) ?_
  have h := ulps_scaled (n := n) (d := d)
  have hb := binExp_le hn hd
  have hp := scale_den_pos (n := n) hd (-ulpExp n d)
  generalize scale 2 n d (-ulpExp n d) = r at *
  have hpq : (0 : ℚ) < r.2 := by exact_mod_cast hp
  have h1 : 8388608 ≤ fval r := by
    rw [h]
    calc (8388608 : ℚ) = 2 ^ (23 : Int) := by norm_num
      _ ≤ 2 ^ (binExp n d - ulpExp n d) := zpow_le_zpow_right₀ (by norm_num) (by unfold ulpExp at *; omega)
      _ = 2 ^ binExp n d * 2 ^ (-ulpExp n d) := by rw [← zpow_add₀ (by norm_num)]; rfl
      _ ≤ fval (n, d) * 2 ^ (-ulpExp n d) := by gcongr
  unfold fval at h1
  rw [le_div_iff₀ hpq] at h1
  exact_mod_cast h1

/-- The value of the rounded number. -/
theorem magnitude_nearestBits {n d : Nat} (hn : 0 < n) (hd : 0 < d) :
    Spec.magnitude (nearestBits n d) = ulps n d * 2 ^ ulpExp n d := by
  have hle := ulps_le hn hd
  have hge := ulps_ge hn hd
  have hq : -149 ≤ ulpExp n d := by unfold ulpExp; omega
  rw [nearestBits_eq hn]
  generalize ulps n d = r at *
  generalize ulpExp n d = q at *
  obtain ⟨k, hk⟩ := Int.eq_ofNat_of_zero_le (by omega : 0 ≤ q + 149)
  have hqk : q = (k : Int) - 149 := by omega
  subst hqk
  rw [show ((k : Int) - 149 + 149).toNat = k by omega]
  unfold Spec.magnitude
  rcases Nat.lt_or_ge r 8388608 with h | h
  · have hk0 : k = 0 := by
      by_contra hc
      have := hge (by omega)
      omega
    subst hk0
    rw [if_pos (by omega)]
    simp
  · rw [if_neg (by omega)]
    rcases Nat.lt_or_ge r 16777216 with h' | h'
    · rw [show (k * 8388608 + r) / 8388608 = k + 1 by omega, show 8388608 + (k * 8388608 + r) % 8388608 = r by omega]
      push_cast
      congr 2
      ring
    · have : r = 16777216 := by omega
      subst this
      rw [show (k * 8388608 + 16777216) / 8388608 = k + 2 by omega, show 8388608 + (k * 8388608 + 16777216) % 8388608 = 8388608 by omega]
      push_cast
      rw [show ((k : Int) + 2 - 150) = ((k : Int) - 149) + 1 by ring, zpow_add₀ (by norm_num)]
      ring

theorem magnitude_nonneg (b : Nat) : 0 ≤ Spec.magnitude b := by
  unfold Spec.magnitude
  split <;> positivity

/-- Every float is a multiple of a given unit or small. -/
theorem magnitude_grid (b : Nat) (q : Int) (hq : -149 ≤ q) :
    (∃ z : Nat, Spec.magnitude b = z * 2 ^ q) ∨ Spec.magnitude b < 2 ^ (q + 23) ∧ -149 < q := by
  unfold Spec.magnitude
  split
  · rename_i h
    rcases Int.lt_or_le (-149) q with h1 | h1
    · refine Or.inr ⟨?_, h1⟩
      have hb : (b : ℚ) < 2 ^ (23 : Int) := by
        have : b < 8388608 := by omega
        have : (b : ℚ) < 8388608 := by exact_mod_cast this
        norm_num; linarith
      calc (b : ℚ) * 2 ^ (-149 : Int) < 2 ^ (23 : Int) * 2 ^ (-149 : Int) := by gcongr
        _ = 2 ^ (-126 : Int) := by rw [← zpow_add₀ (by norm_num)]; rfl
        _ ≤ 2 ^ (q + 23) := zpow_le_zpow_right₀ (by norm_num) (by omega)
    · have : q = -149 := by omega
      subst this
      exact Or.inl ⟨b, rfl⟩
  · rename_i h
    obtain ⟨e, he⟩ : ∃ e : Int, e = ((b / 8388608 : Nat) : Int) - 150 := ⟨_, rfl⟩
    rw [← he]
    have hm : 8388608 + b % 8388608 < 16777216 := by omega
    generalize 8388608 + b % 8388608 = m at *
    rcases Int.lt_or_le e q with h1 | h1
    · refine Or.inr ⟨?_, by omega⟩
      have hmq : (m : ℚ) < 2 ^ (24 : Int) := by
        have : (m : ℚ) < 16777216 := by exact_mod_cast hm
        norm_num; linarith
      calc (m : ℚ) * 2 ^ e < 2 ^ (24 : Int) * 2 ^ e := by gcongr
        _ = 2 ^ (24 + e) := by rw [← zpow_add₀ (by norm_num)]
        _ ≤ 2 ^ (q + 23) := zpow_le_zpow_right₀ (by norm_num) (by omega)
    · obtain ⟨k, hk⟩ := Int.eq_ofNat_of_zero_le (by omega : 0 ≤ e - q)
      refine Or.inl ⟨m * 2 ^ k, ?_⟩
      rw [show e = (k : Int) + q by omega, zpow_add₀ (by norm_num), zpow_natCast]
      push_cast
      ring

/-- Correct rounding of positive fractions, among all floats of both signs. -/
theorem nearestBits_nearest {n d : Nat} (hn : 0 < n) (hd : 0 < d) (y : F32) :
    |Spec.magnitude (nearestBits n d) - fval (n, d)| ≤ |Spec.value y - fval (n, d)| ∧
      (Spec.value y ≠ Spec.magnitude (nearestBits n d) →
        |Spec.magnitude (nearestBits n d) - fval (n, d)| = |Spec.value y - fval (n, d)| → nearestBits n d % 2 = 0) := by
  have ht : 0 < fval (n, d) := fval_pos hn hd
  have hb := binExp_le hn hd
  have hq : -149 ≤ ulpExp n d := by unfold ulpExp; omega
  have hs := ulps_scaled (n := n) (d := d)
  have hp := scale_den_pos (n := n) hd (-ulpExp n d)
  have hdr := divRound_nearest (scale 2 n d (-ulpExp n d)).1 (scale 2 n d (-ulpExp n d)).2 hp
  rw [show ((scale 2 n d (-ulpExp n d)).1, (scale 2 n d (-ulpExp n d)).2) = scale 2 n d (-ulpExp n d) from rfl, hs] at hdr
  rw [show divRound (scale 2 n d (-ulpExp n d)).1 (scale 2 n d (-ulpExp n d)).2 = ulps n d from rfl] at hdr
  rw [magnitude_nearestBits hn hd]
  have hpar : nearestBits n d % 2 = ulps n d % 2 := by rw [nearestBits_eq hn]; omega
  rw [hpar]
  have hu : ulpExp n d = binExp n d - 23 ∨ ulpExp n d = -149 := by unfold ulpExp; omega
  generalize ulps n d = r at *
  generalize hqe : ulpExp n d = q at *
  generalize fval (n, d) = t at *
  have hq0 : (0 : ℚ) < 2 ^ q := by positivity
  -- distances in units
  have hunit : ∀ z : ℚ, |z * 2 ^ q - t| = |z - t * 2 ^ (-q)| * 2 ^ q := by
    intro z
    have : z * 2 ^ q - t = (z - t * 2 ^ (-q)) * 2 ^ q := by
      rw [sub_mul, mul_assoc, ← zpow_add₀ (by norm_num)]; simp
    rw [this, abs_mul, abs_of_pos hq0]
  have hgrid : ∀ z : Int, Spec.value y = z * 2 ^ q →
      |(r : ℚ) * 2 ^ q - t| ≤ |Spec.value y - t| ∧
      (Spec.value y ≠ r * 2 ^ q → |(r : ℚ) * 2 ^ q - t| = |Spec.value y - t| → r % 2 = 0) := by
    intro z hz
    obtain ⟨a, b⟩ := hdr z
    rw [hz, hunit, hunit]
    refine ⟨by gcongr, fun hne heq => b ?_ (mul_right_cancel₀ hq0.ne' heq)⟩
    rintro rfl
    exact hne (by simp)
  have hpos : ∀ b : Nat, Spec.value y = Spec.magnitude b → |(r : ℚ) * 2 ^ q - t| ≤ |Spec.value y - t| ∧
      (Spec.value y ≠ r * 2 ^ q → |(r : ℚ) * 2 ^ q - t| = |Spec.value y - t| → r % 2 = 0) := by
    intro b hyb
    rcases magnitude_grid b q hq with ⟨z, hz⟩ | ⟨hlt, hq'⟩
    · exact hgrid z (by rw [hyb, hz]; simp)
    · have he : q = binExp n d - 23 := by omega
      rw [he, show binExp n d - 23 + 23 = binExp n d by ring] at hlt
      have h1 := (hdr 8388608).1
      have h2 : |(r : ℚ) * 2 ^ q - t| ≤ |(8388608 : ℚ) * 2 ^ q - t| := by
        rw [hunit, hunit]
        have : |(r : ℚ) - t * 2 ^ (-q)| ≤ |(8388608 : ℚ) - t * 2 ^ (-q)| := by simpa using h1
        gcongr
      have h3 : (8388608 : ℚ) * 2 ^ q = 2 ^ binExp n d := by
        rw [show (8388608 : ℚ) = 2 ^ (23 : Int) by norm_num, ← zpow_add₀ (by norm_num)]
        congr 1; omega
      rw [h3] at h2
      generalize (2 : ℚ) ^ binExp n d = P at hlt hb h2
      rw [abs_of_nonpos (by linarith : P - t ≤ 0)] at h2
      have h4 : |Spec.value y - t| = t - Spec.magnitude b := by rw [hyb, abs_of_nonpos (by linarith : Spec.magnitude b - t ≤ 0)]; ring
      rw [h4]
      exact ⟨by linarith, fun _ h => by linarith⟩
  unfold Spec.value
  by_cases hy : y.bits.toNat < 2147483648
  · have := hpos y.bits.toNat (by unfold Spec.value; rw [if_pos hy])
    unfold Spec.value at this
    exact this
  · rw [if_neg hy]
    have hm := magnitude_nonneg (y.bits.toNat - 2147483648)
    have h0 := (hdr 0).1
    have h2 : |(r : ℚ) * 2 ^ q - t| ≤ |(0 : ℚ) * 2 ^ q - t| := by
      rw [hunit, hunit]
      have : |(r : ℚ) - t * 2 ^ (-q)| ≤ |(0 : ℚ) - t * 2 ^ (-q)| := by simpa using h0
      gcongr
    rw [zero_mul, zero_sub, abs_neg, abs_of_pos ht] at h2
    have h4 : |-Spec.magnitude (y.bits.toNat - 2147483648) - t| = Spec.magnitude (y.bits.toNat - 2147483648) + t := by
      rw [abs_of_nonpos (by linarith)]; ring
    rw [h4]
    refine ⟨by linarith, fun hne heq => ?_⟩
    have hm0 : Spec.magnitude (y.bits.toNat - 2147483648) = 0 := by linarith
    have := (hdr 0).2
    rw [hm0] at hne heq
    refine this ?_ ?_
    · intro h
      apply hne
      have : r = 0 := by exact_mod_cast h.symm
      rw [this]; simp
    · rw [hunit] at heq
      have e2 : (0 : ℚ) + t = |((0 : Int) : ℚ) - t * 2 ^ (-q)| * 2 ^ q := by
        rw [← hunit]; simp [abs_of_pos ht]
      rw [e2] at heq
      exact mul_right_cancel₀ hq0.ne' heq

/-- Rounding gives a finite float up to half a unit above the largest one. -/
theorem nearestBits_lt {n d : Nat} (hn : 0 < n) (hd : 0 < d) (h : fval (n, d) < 33554431 * 2 ^ (103 : Int)) : nearestBits n d < 2139095040 := by
  have hle := ulps_le hn hd
  have hb := binExp_le hn hd
  have he : binExp n d < 128 := by
    refine two_zpow_lt (lt_of_le_of_lt hb (lt_trans h ?_))
    rw [show ((128 : Int)) = 25 + 103 by norm_num, zpow_add₀ (by norm_num)]
    gcongr
    norm_num
  rw [nearestBits_eq hn]
  rcases Int.lt_or_le (ulpExp n d) 104 with h1 | h1
  · omega
  · have hu : ulpExp n d = 104 := by unfold ulpExp at *; omega
    have hs := ulps_scaled (n := n) (d := d)
    have hp := scale_den_pos (n := n) hd (-ulpExp n d)
    have her := divRound_err (scale 2 n d (-ulpExp n d)).1 (scale 2 n d (-ulpExp n d)).2 hp
    rw [show ((scale 2 n d (-ulpExp n d)).1, (scale 2 n d (-ulpExp n d)).2) = scale 2 n d (-ulpExp n d) from rfl, hs,
      show divRound (scale 2 n d (-ulpExp n d)).1 (scale 2 n d (-ulpExp n d)).2 = ulps n d from rfl, hu, abs_le] at her
    have h2 : fval (n, d) * 2 ^ (-104 : Int) < 16777216 - 1 / 2 := by
      calc fval (n, d) * 2 ^ (-104 : Int) < 33554431 * 2 ^ (103 : Int) * 2 ^ (-104 : Int) := by gcongr
        _ = 16777216 - 1 / 2 := by norm_num
    have h3 : (ulps n d : ℚ) < 16777216 := by linarith [her.2]
    have h4 : ulps n d < 16777216 := by exact_mod_cast h3
    omega

/-- The rounded float depends on the value of the fraction only. -/
theorem nearestBits_congr {n d n' d' : Nat} (hn : 0 < n) (hd : 0 < d) (hn' : 0 < n') (hd' : 0 < d') (h : fval (n, d) = fval (n', d')) :
    nearestBits n d = nearestBits n' d' := by
  have hb : binExp n d = binExp n' d' := binExp_unique hn hd (by rw [h]; exact binExp_le hn' hd') (by rw [h]; exact binExp_lt hn' hd')
  have hu : ulpExp n d = ulpExp n' d' := by unfold ulpExp; rw [hb]
  rw [nearestBits_eq hn, nearestBits_eq hn', hu]
  congr 1
  unfold ulps
  refine divRound_congr (scale_den_pos hd _) (scale_den_pos hd' _) ?_
  rw [Prod.mk.eta, Prod.mk.eta, scale_val, scale_val, h, hu]

/-- Numbers from 2^-126 on are rounded by at most one part in 2^24. -/
theorem nearestBits_err {n d : Nat} (hn : 0 < n) (hd : 0 < d) (h : 2 ^ (-126 : Int) ≤ fval (n, d)) :
    |Spec.magnitude (nearestBits n d) - fval (n, d)| ≤ fval (n, d) * 2 ^ (-24 : Int) := by
  have hb := binExp_le hn hd
  have he : -126 ≤ binExp n d := by
    have := two_zpow_lt (lt_of_le_of_lt h (binExp_lt hn hd))
    omega
  have hu : ulpExp n d = binExp n d - 23 := by unfold ulpExp; omega
  have hs := ulps_scaled (n := n) (d := d)
  have hp := scale_den_pos (n := n) hd (-ulpExp n d)
  have her := divRound_err (scale 2 n d (-ulpExp n d)).1 (scale 2 n d (-ulpExp n d)).2 hp
  rw [Prod.mk.eta, hs, show divRound (scale 2 n d (-ulpExp n d)).1 (scale 2 n d (-ulpExp n d)).2 = ulps n d from rfl] at her
  rw [magnitude_nearestBits hn hd]
  have hq0 : (0 : ℚ) < 2 ^ ulpExp n d := by positivity
  have e : (ulps n d : ℚ) * 2 ^ ulpExp n d - fval (n, d) = (ulps n d - fval (n, d) * 2 ^ (-ulpExp n d)) * 2 ^ ulpExp n d := by
    rw [sub_mul, mul_assoc, ← zpow_add₀ (by norm_num)]; simp
  rw [e, abs_mul, abs_of_pos hq0]
  calc |(ulps n d : ℚ) - fval (n, d) * 2 ^ (-ulpExp n d)| * 2 ^ ulpExp n d ≤ 1 / 2 * 2 ^ ulpExp n d := by gcongr
    _ = 2 ^ binExp n d * 2 ^ (-24 : Int) := by
      rw [hu, show binExp n d - 23 = binExp n d + (-24) + 1 by ring, zpow_add₀ (by norm_num), zpow_add₀ (by norm_num)]
      norm_num
      ring
    _ ≤ _ := by gcongr

end Grann
