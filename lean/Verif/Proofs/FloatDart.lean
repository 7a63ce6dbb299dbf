import Verif.Model.FloatKmeans
import Verif.Basic.RoundNear
import Verif.Proofs.FloatDouble
/-!
# Sums of `double`s, and a number below their sum
-/

namespace Grann

/-- The magnitude of a rounded number. -/
def D64.mag (n d : Nat) : Nat := if n < 9007199254740992 * d then divRound n d else (roundBin 53 (n, d)).1

/-- Numbers from 2^53 units on are rounded to a multiple of a power of two. -/
theorem mag_big {n d : Nat} (hd : 0 < d) (h : 9007199254740992 * d ≤ n) :
    ∃ e, 1 ≤ e ∧ 4503599627370496 * 2 ^ e * d ≤ n ∧ n < 9007199254740992 * 2 ^ e * d ∧ D64.mag n d = divRound n (d * 2 ^ e) * 2 ^ e := by
  have hn : 0 < n := by omega
  have hb := binExp_big hd h
  have hdq : (0 : ℚ) < d := by exact_mod_cast hd
  obtain ⟨e, he⟩ := Int.eq_ofNat_of_zero_le (by omega : 0 ≤ binExp n d - 52)
  have hbe : binExp n d = (e : Int) + 52 := by omega
  have h1 := binExp_le hn hd
  have h2 := binExp_lt hn hd
  unfold fval at h1 h2
  rw [le_div_iff₀ hdq] at h1
  rw [div_lt_iff₀ hdq] at h2
  dsimp only at h1 h2
  rw [hbe, zpow_add₀ (by norm_num), zpow_natCast] at h1
  rw [hbe, zpow_add₀ (by norm_num), zpow_add₀ (by norm_num), zpow_natCast] at h2
  have e52 : (2 : ℚ) ^ (52 : Int) = 4503599627370496 := by norm_num
  have e1 : (2 : ℚ) ^ (1 : Int) = 2 := by norm_num
  rw [e52] at h1 h2
  rw [e1] at h2
  refine ⟨e, by omega, ?_, ?_, ?_⟩
  · have : ((4503599627370496 * 2 ^ e * d : Nat) : ℚ) ≤ n := by push_cast; linarith
    exact_mod_cast this
  · have : (n : ℚ) < ((9007199254740992 * 2 ^ e * d : Nat) : ℚ) := by push_cast; linarith
    exact_mod_cast this
  · unfold D64.mag
    rw [if_neg (by omega)]
    unfold roundBin
    dsimp only
    rw [if_neg (by omega)]
    have hq : binExp n d - ((53 - 1 : Nat) : Int) = e := by rw [hbe]; norm_num
    rw [hq]
    unfold scale
    rw [if_pos (by omega : (0 : Int) ≤ e), if_neg (by omega : ¬ (0 : Int) ≤ -e)]
    dsimp only
    rw [neg_neg, Int.toNat_natCast]

theorem mag_le {n d c k : Nat} (hd : 0 < d) (hc : c < 9007199254740992) (h : n ≤ c * 2 ^ k * d) : D64.mag n d ≤ c * 2 ^ k := by
  by_cases hs : n < 9007199254740992 * d
  · unfold D64.mag
    rw [if_pos hs]
    exact divRound_le hd h
  · obtain ⟨e, he, h1, h2, hm⟩ := mag_big hd (not_lt.1 hs)
    rw [hm]
    have hke : e ≤ k := by
      by_contra hlt
      obtain ⟨j, rfl⟩ : ∃ j, e = k + 1 + j := ⟨e - k - 1, by omega⟩
      have h3 := h1.trans h
      have h4 := Nat.le_of_mul_le_mul_right h3 hd
      rw [pow_add, pow_succ] at h4
      have h5 : 4503599627370496 * (2 ^ k * 2 * 2 ^ j) = (9007199254740992 * 2 ^ j) * 2 ^ k := by ring
      rw [h5] at h4
      have h6 := Nat.le_of_mul_le_mul_right h4 (Nat.two_pow_pos k)
      have := Nat.one_le_two_pow (n := j)
      omega
    obtain ⟨j, rfl⟩ : ∃ j, k = e + j := ⟨k - e, by omega⟩
    have : divRound n (d * 2 ^ e) ≤ c * 2 ^ j := by
      apply divRound_le (by positivity)
      refine h.trans (le_of_eq ?_)
      rw [pow_add]
      ring
    calc divRound n (d * 2 ^ e) * 2 ^ e ≤ c * 2 ^ j * 2 ^ e := Nat.mul_le_mul_right _ this
      _ = _ := by rw [pow_add]; ring

theorem mag_ge {n d c k : Nat} (hd : 0 < d) (hc : c ≤ 9007199254740992) (h : c * 2 ^ k * d ≤ n) : c * 2 ^ k ≤ D64.mag n d := by
  by_cases hs : n < 9007199254740992 * d
  · unfold D64.mag
    rw [if_pos hs]
    exact divRound_ge hd h
  · obtain ⟨e, he, h1, h2, hm⟩ := mag_big hd (not_lt.1 hs)
    rw [hm]
    by_cases hke : e ≤ k
    · obtain ⟨j, rfl⟩ : ∃ j, k = e + j := ⟨k - e, by omega⟩
      have : c * 2 ^ j ≤ divRound n (d * 2 ^ e) := by
        apply divRound_ge (by positivity)
        refine (le_of_eq ?_).trans h
        rw [pow_add]
        ring
      calc c * 2 ^ (e + j) = c * 2 ^ j * 2 ^ e := by rw [pow_add]; ring
        _ ≤ _ := Nat.mul_le_mul_right _ this
    · obtain ⟨j, rfl⟩ : ∃ j, e = k + 1 + j := ⟨e - k - 1, by omega⟩
      have h3 : 4503599627370496 ≤ divRound n (d * 2 ^ (k + 1 + j)) := by
        apply divRound_ge (by positivity)
        refine (le_of_eq ?_).trans h1
        ring
      calc c * 2 ^ k ≤ 9007199254740992 * 2 ^ k := Nat.mul_le_mul_right _ hc
        _ = 4503599627370496 * 2 ^ (k + 1) * 1 := by rw [pow_succ]; ring
        _ ≤ 4503599627370496 * 2 ^ (k + 1) * 2 ^ j := Nat.mul_le_mul_left _ Nat.one_le_two_pow
        _ = 4503599627370496 * 2 ^ (k + 1 + j) := by rw [pow_add _ (k + 1) j]; ring
        _ ≤ _ := Nat.mul_le_mul_right _ h3

/-- A number of units that a `double` can have. -/
def Rep (s : Nat) : Prop := ∃ c k, c < 9007199254740992 ∧ s = c * 2 ^ k

theorem rep_zero : Rep 0 := ⟨0, 0, by decide, rfl⟩

theorem rep_top (k : Nat) : Rep (9007199254740992 * 2 ^ k) := ⟨4503599627370496, k + 1, by decide, by rw [pow_succ]; ring⟩

theorem mag_rep {n d : Nat} (hd : 0 < d) : Rep (D64.mag n d) := by
  by_cases hs : n < 9007199254740992 * d
  · have h : D64.mag n d ≤ 9007199254740992 := by
      unfold D64.mag
      rw [if_pos hs]
      exact divRound_le hd hs.le
    rcases Nat.lt_or_eq_of_le h with h | h
    · exact ⟨_, 0, h, by rw [pow_zero, mul_one]⟩
    · rw [h]
      have := rep_top 0
      rwa [pow_zero, mul_one] at this
  · obtain ⟨e, he, h1, h2, hm⟩ := mag_big hd (not_lt.1 hs)
    have h : divRound n (d * 2 ^ e) ≤ 9007199254740992 := by
      apply divRound_le (by positivity)
      refine h2.le.trans (le_of_eq ?_)
      ring
    rw [hm]
    rcases Nat.lt_or_eq_of_le h with h | h
    · exact ⟨_, e, h, rfl⟩
    · rw [h]
      exact rep_top e

/-- What can be represented is not changed. -/
theorem mag_self {s : Nat} (h : Rep s) : D64.mag s 1 = s := by
  obtain ⟨c, k, hc, rfl⟩ := h
  exact le_antisymm (mag_le one_pos hc (by omega)) (mag_ge one_pos hc.le (by omega))

theorem mag_mono {s n d : Nat} (hd : 0 < d) (h : Rep s) (hn : s * d ≤ n) : s ≤ D64.mag n d := by
  obtain ⟨c, k, hc, rfl⟩ := h
  exact mag_ge hd hc.le hn

/-- From 2^60 units on, a number times at most 1 - 2^-53 is rounded to a smaller one. -/
theorem mag_less {s τ : Nat} (h : Rep s) (hs : 2 ^ 60 ≤ s) (hτ : τ + 2 ^ 1021 ≤ 2 ^ 1074) : D64.mag (τ * s) (2 ^ 1074) < s := by
  -- the number normalised
  obtain ⟨c, e, hc1, hc2, rfl⟩ : ∃ c e, 4503599627370496 ≤ c ∧ c < 9007199254740992 ∧ s = c * 2 ^ e := by
    obtain ⟨c, k, hc, rfl⟩ := h
    have hc0 : c ≠ 0 := by
      rintro rfl
      rw [Nat.zero_mul] at hs
      exact absurd hs (by norm_num)
    have hl := Nat.log2_self_le hc0
    have hl' := Nat.lt_log2_self (n := c)
    have hlc : c.log2 ≤ 52 := by
      by_contra hgt
      have : 2 ^ 53 ≤ 2 ^ c.log2 := Nat.pow_le_pow_right (by decide) (by omega)
      norm_num at this
      omega
    obtain ⟨j, hj⟩ : ∃ j, c.log2 + j = 52 := ⟨52 - c.log2, by omega⟩
    have hup : c * 2 ^ j < 9007199254740992 := by
      calc c * 2 ^ j < 2 ^ (c.log2 + 1) * 2 ^ j := Nat.mul_lt_mul_of_pos_right hl' (Nat.two_pow_pos j)
        _ = 2 ^ (c.log2 + j) * 2 := by rw [pow_succ, pow_add]; ring
        _ = _ := by rw [hj]; norm_num
    have hlo : 4503599627370496 ≤ c * 2 ^ j := by
      calc 4503599627370496 = 2 ^ (c.log2 + j) := by rw [hj]; norm_num
        _ = 2 ^ c.log2 * 2 ^ j := pow_add ..
        _ ≤ _ := Nat.mul_le_mul_right _ hl
    have hjk : j ≤ k := by
      by_contra hgt
      obtain ⟨m, rfl⟩ : ∃ m, j = k + 1 + m := ⟨j - k - 1, by omega⟩
      have : c * 2 ^ k ≤ c * 2 ^ (k + 1 + m) := Nat.mul_le_mul_left _ (Nat.pow_le_pow_right (by decide) (by omega))
      norm_num at hs
      omega
    refine ⟨c * 2 ^ j, k - j, hlo, hup, ?_⟩
    rw [Nat.mul_assoc, ← pow_add]
    congr 2
    omega
  have he : 1 ≤ e := by
    by_contra h0
    have : e = 0 := by omega
    subst this
    norm_num at hs
    omega
  have h53 : 2 ^ 1074 = 9007199254740992 * 2 ^ 1021 := by
    rw [show (9007199254740992 : Nat) = 2 ^ 53 from by norm_num, ← pow_add]
  rw [h53] at hτ
  have hτ' : τ ≤ 9007199254740991 * 2 ^ 1021 := by
    generalize 2 ^ 1021 = U at *
    omega
  have hU : 0 < 2 ^ 1021 := Nat.two_pow_pos 1021
  rw [h53]
  generalize 2 ^ 1021 = U at *
  have hE := Nat.two_pow_pos e
  have hprod : τ * (c * 2 ^ e) ≤ 9007199254740991 * U * (c * 2 ^ e) := Nat.mul_le_mul_right _ hτ'
  have hD : 0 < 9007199254740992 * U := by omega
  by_cases hmin : c = 4503599627370496
  · subst hmin
    obtain ⟨f, rfl⟩ : ∃ f, e = f + 1 := ⟨e - 1, by omega⟩
    have hF := Nat.two_pow_pos f
    have := mag_le (n := τ * (4503599627370496 * 2 ^ (f + 1))) (c := 9007199254740991) (k := f) hD (by decide) (by
      refine hprod.trans (le_of_eq ?_)
      rw [pow_succ]
      ring)
    refine lt_of_le_of_lt this ?_
    rw [pow_succ]
    omega
  · have hgt : 4503599627370496 < c := by omega
    have hlast : (c - 1) * 2 ^ e < c * 2 ^ e := Nat.mul_lt_mul_of_pos_right (by omega) hE
    refine lt_of_le_of_lt ?_ hlast
    by_cases hle : τ * (c * 2 ^ e) ≤ (c - 1) * 2 ^ e * (9007199254740992 * U)
    · exact mag_le hD (by omega) hle
    · rw [not_le] at hle
      have hbig : 9007199254740992 * (9007199254740992 * U) ≤ τ * (c * 2 ^ e) := by
        refine le_trans ?_ hle.le
        apply Nat.mul_le_mul_right
        obtain ⟨f, rfl⟩ : ∃ f, e = f + 1 := ⟨e - 1, by omega⟩
        have hF := Nat.one_le_two_pow (n := f)
        calc 9007199254740992 = 4503599627370496 * (1 * 2) := by norm_num
          _ ≤ (c - 1) * 2 ^ (f + 1) := by
            rw [pow_succ]
            exact Nat.mul_le_mul (by omega) (Nat.mul_le_mul_right _ hF)
      obtain ⟨e', he', h1, h2, hm⟩ := mag_big hD hbig
      have hup : τ * (c * 2 ^ e) < 9007199254740992 * 2 ^ e * (9007199254740992 * U) := by
        refine lt_of_le_of_lt hprod ?_
        have : 9007199254740991 * U * (c * 2 ^ e) ≤ 9007199254740991 * U * (9007199254740992 * 2 ^ e) :=
          Nat.mul_le_mul_left _ (Nat.mul_le_mul_right _ hc2.le)
        refine lt_of_le_of_lt this ?_
        have e1 : 9007199254740991 * U * (9007199254740992 * 2 ^ e) = 9007199254740991 * (9007199254740992 * (U * 2 ^ e)) := by ring
        have e2 : 9007199254740992 * 2 ^ e * (9007199254740992 * U) = 9007199254740992 * (9007199254740992 * (U * 2 ^ e)) := by ring
        have h0 : 0 < U * 2 ^ e := Nat.mul_pos hU hE
        rw [e1, e2]
        generalize U * 2 ^ e = w at h0
        omega
      have hlo : 4503599627370496 * 2 ^ e * (9007199254740992 * U) ≤ τ * (c * 2 ^ e) := by
        refine le_trans ?_ hle.le
        exact Nat.mul_le_mul_right _ (Nat.mul_le_mul_right _ (by omega))
      have hee : e' = e := by
        rcases Nat.lt_trichotomy e' e with h | h | h
        · exfalso
          obtain ⟨j, rfl⟩ : ∃ j, e = e' + 1 + j := ⟨e - e' - 1, by omega⟩
          have h3 := lt_of_le_of_lt hlo h2
          have h4 := Nat.lt_of_mul_lt_mul_right h3
          rw [pow_add, pow_succ] at h4
          have h5 : 2 ^ e' * 1 ≤ 2 ^ e' * 2 ^ j := Nat.mul_le_mul_left _ Nat.one_le_two_pow
          have h6 : 2 ^ e' * 2 * 2 ^ j = 2 * (2 ^ e' * 2 ^ j) := by ring
          omega
        · exact h
        · exfalso
          obtain ⟨j, rfl⟩ : ∃ j, e' = e + 1 + j := ⟨e' - e - 1, by omega⟩
          have h3 := lt_of_le_of_lt h1 hup
          have h4 := Nat.lt_of_mul_lt_mul_right h3
          rw [pow_add, pow_succ] at h4
          have h5 : 2 ^ e * 1 ≤ 2 ^ e * 2 ^ j := Nat.mul_le_mul_left _ Nat.one_le_two_pow
          have h6 : 2 ^ e * 2 * 2 ^ j = 2 * (2 ^ e * 2 ^ j) := by ring
          omega
      subst hee
      rw [hm]
      apply Nat.mul_le_mul_right
      apply divRound_near (Nat.mul_pos hD hE)
      obtain ⟨b, rfl⟩ : ∃ b, c = b + 1 := ⟨c - 1, by omega⟩
      rw [Nat.add_sub_cancel]
      have h0 : 0 < U * 2 ^ e' := Nat.mul_pos hU hE
      have h5 : 2 * (9007199254740991 * U * ((b + 1) * 2 ^ e')) = 2 * 9007199254740991 * (b + 1) * (U * 2 ^ e') := by ring
      have h6 : (2 * b + 1) * (9007199254740992 * U * 2 ^ e') = (2 * b + 1) * 9007199254740992 * (U * 2 ^ e') := by ring
      refine lt_of_le_of_lt (Nat.mul_le_mul_left 2 hprod) ?_
      rw [h5, h6]
      apply Nat.mul_lt_mul_of_pos_right _ h0
      omega

theorem round_nat (ftz : Bool) (n d : Nat) :
    D64.round ftz (n : Int) d = ((if ftz && decide (D64.mag n d < 4503599627370496) then 0 else D64.mag n d : Nat) : Int) := by
  unfold D64.round
  dsimp only
  rw [if_neg (by omega), Int.natAbs_natCast]
  rfl

end Grann
