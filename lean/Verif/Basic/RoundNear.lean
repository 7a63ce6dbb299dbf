import Verif.Basic.Round
/-!
# Rounding numbers close to an integer
-/

namespace Grann

theorem binExp_lt {n d : Nat} (hn : 0 < n) (hd : 0 < d) : fval (n, d) < (2 : ℚ) ^ (binExp n d + 1) := by
  have hdq : (0 : ℚ) < d := by exact_mod_cast hd
  have hnq : (0 : ℚ) < n := by exact_mod_cast hn
  unfold binExp
  dsimp only
  have hp := scale_val d 1 ((Nat.log2 n : Int) - Nat.log2 d)
  have hp2 := scale_den_pos (n := d) (d := 1) one_pos ((Nat.log2 n : Int) - Nat.log2 d)
  generalize scale 2 d 1 ((Nat.log2 n : Int) - Nat.log2 d) = p at *
  have hp2q : (0 : ℚ) < p.2 := by exact_mod_cast hp2
  have hp' : (p.1 : ℚ) = p.2 * (d * 2 ^ ((Nat.log2 n : Int) - Nat.log2 d)) := by
    unfold fval at hp
    field_simp at hp
    rw [← mul_assoc]
    simpa using hp
  split
  · rename_i h
    have h' : (n : ℚ) * p.2 < p.1 := by exact_mod_cast h
    unfold fval
    rw [div_lt_iff₀ hdq]
    rw [hp'] at h'
    rw [show (Nat.log2 n : Int) - Nat.log2 d - 1 + 1 = Nat.log2 n - Nat.log2 d by ring]
    have : (p.2 : ℚ) * n < p.2 * (2 ^ ((Nat.log2 n : Int) - Nat.log2 d) * d) := by linarith
    exact lt_of_mul_lt_mul_left this hp2q.le
  · have h1 : 2 ^ Nat.log2 d ≤ d := Nat.log2_self_le (by omega)
    have h2 : n < 2 ^ (Nat.log2 n + 1) := Nat.lt_log2_self
    have h1q : (2 : ℚ) ^ (Nat.log2 d : Int) ≤ d := by rw [zpow_natCast]; exact_mod_cast h1
    have h2q : (n : ℚ) < (2 : ℚ) ^ ((Nat.log2 n : Int) + 1) := by
      have : (n : ℚ) < (2 : ℚ) ^ (Nat.log2 n + 1) := by exact_mod_cast h2
      rw [← zpow_natCast] at this; push_cast at this; exact this
    unfold fval
    rw [div_lt_iff₀ hdq]
    calc (n : ℚ) < (2 : ℚ) ^ ((Nat.log2 n : Int) + 1) := h2q
      _ = (2 : ℚ) ^ ((Nat.log2 n : Int) - Nat.log2 d + 1) * (2 : ℚ) ^ (Nat.log2 d : Int) := by
          rw [← zpow_add₀ (by norm_num)]; congr 1; ring
      _ ≤ (2 : ℚ) ^ ((Nat.log2 n : Int) - Nat.log2 d + 1) * d := by gcongr

theorem divRound_near {a b m : Nat} (hb : 0 < b) (h : 2 * a < (2 * m + 1) * b) : divRound a b ≤ m := by
  have hdm := Nat.div_add_mod a b
  have hr := Nat.mod_lt a hb
  unfold divRound
  dsimp only
  have h3 : a / b ≤ m := by
    by_contra hc
    have : (m + 1) * b ≤ a := (Nat.le_div_iff_mul_le hb).1 (by omega)
    nlinarith
  have hup : b ≤ 2 * (a % b) → a / b + 1 ≤ m := by
    intro h'
    by_contra hc
    have he : a / b = m := by omega
    rw [he] at hdm
    nlinarith
  split
  · exact h3
  · split
    · exact hup (by omega)
    · split
      · exact h3
      · exact hup (by omega)

/-- A number that exceeds an integer by less than half a unit in the last place is rounded down to it. -/
theorem roundBin_near (prec : Nat) (hprec0 : 0 < prec) (x : Nat × Nat) (hx : 0 < x.2) (m : Nat) (hm : fval x < 2 ^ prec)
    (h : (fval x - m) * 2 ^ (prec + 1) < fval x) : fval (roundBin prec x) ≤ m := by
  obtain ⟨n, d⟩ := x
  unfold roundBin
  dsimp only at *
  split
  · simp [fval]
  · rename_i h0
    have hn : 0 < n := by omega
    obtain ⟨q, hq⟩ : ∃ q, q = binExp n d - (prec - 1 : Nat) := ⟨_, rfl⟩
    have hb := binExp_le hn hx
    have hb' := binExp_lt hn hx
    have he : binExp n d < prec := by
      by_contra hc
      have h2 : (2 : ℚ) ^ (prec : Int) ≤ (2 : ℚ) ^ binExp n d := zpow_le_zpow_right₀ (by norm_num) (by omega)
      rw [zpow_natCast] at h2
      linarith
    have hq0 : q ≤ 0 := by omega
    rw [← hq, scale_val]
    obtain ⟨k, hk⟩ := Int.eq_ofNat_of_zero_le (by omega : 0 ≤ -q)
    have hr : scale 2 n d (-q) = (n * 2 ^ k, d) := by
      unfold scale
      rw [if_pos (by omega)]
      have : (-q).toNat = k := by omega
      rw [this]
    rw [hr]
    dsimp only
    have hdq : (0 : ℚ) < d := by exact_mod_cast hx
    have hkp : (k : Int) + binExp n d + 1 = prec := by omega
    have h5 : divRound (n * 2 ^ k) d ≤ m * 2 ^ k := by
      apply divRound_near hx
      by_cases hle : fval (n, d) ≤ m
      · have h4 : n ≤ m * d := by
          unfold fval at hle
          rw [div_le_iff₀ hdq] at hle
          exact_mod_cast hle
        have : n * 2 ^ k ≤ m * 2 ^ k * d := by
          calc n * 2 ^ k ≤ m * d * 2 ^ k := Nat.mul_le_mul_right _ h4
            _ = m * 2 ^ k * d := by ring
        nlinarith
      · have hpos : 0 < fval (n, d) - m := by linarith [lt_of_not_ge hle]
        have hprec : (2 : ℚ) ^ (k + 1) * 2 ^ (binExp n d + 1) ≤ 2 ^ (prec + 1) := by
          rw [← zpow_natCast, ← zpow_add₀ (by norm_num), ← zpow_natCast]
          apply zpow_le_zpow_right₀ (by norm_num)
          push_cast
          rw [← hkp]
          ring_nf
          omega
        have h6 : (fval (n, d) - m) * 2 ^ (k + 1) < 1 := by
          have hB : (0 : ℚ) < 2 ^ (binExp n d + 1) := by positivity
          have h7 : (fval (n, d) - m) * ((2 : ℚ) ^ (k + 1) * 2 ^ (binExp n d + 1)) < 2 ^ (binExp n d + 1) :=
            calc _ ≤ (fval (n, d) - m) * 2 ^ (prec + 1) := by gcongr
              _ < fval (n, d) := h
              _ < _ := hb'
          by_contra hc
          have hc' : 1 ≤ (fval (n, d) - m) * 2 ^ (k + 1) := not_lt.1 hc
          nlinarith
        have h8 : (2 * (n * 2 ^ k) : ℚ) < (2 * (m * 2 ^ k) + 1) * d := by
          unfold fval at h6
          dsimp only at h6
          have : ((n : ℚ) / d - m) * 2 ^ (k + 1) * d < 1 * d := by gcongr
          rw [sub_mul, sub_mul] at this
          have e1 : (n : ℚ) / d * 2 ^ (k + 1) * d = n * 2 ^ (k + 1) := by field_simp
          rw [e1, pow_succ] at this
          linarith
        exact_mod_cast h8
    have h6 : (divRound (n * 2 ^ k) d : ℚ) ≤ m * 2 ^ k := by exact_mod_cast h5
    have e1 : fval (divRound (n * 2 ^ k) d, 1) = divRound (n * 2 ^ k) d := by simp [fval]
    have hqk : q = -(k : Int) := by omega
    rw [e1, hqk, zpow_neg, zpow_natCast]
    rw [mul_inv_le_iff₀ (by positivity)]
    exact h6

end Grann
