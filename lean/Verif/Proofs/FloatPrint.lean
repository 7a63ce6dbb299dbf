import Verif.Proofs.FloatText
import Mathlib.Data.Int.Log
import Mathlib.Data.List.TakeWhile
/-!
# The text of a float
-/

namespace Grann

theorem fval_frac (x : F32) : fval x.frac = Spec.magnitude (x.bits.toNat % 2147483648) := by
  unfold F32.frac Spec.magnitude
  dsimp only
  split
  · rename_i h
    rw [scale_val, Nat.mod_eq_of_lt (by omega : x.bits.toNat % 2147483648 < 8388608)]
    simp [fval]
  · rw [scale_val, Nat.add_comm]
    simp [fval]

theorem frac_den_pos (x : F32) : 0 < x.frac.2 := by
  unfold F32.frac
  dsimp only
  split <;> exact scale_den_pos one_pos _

theorem frac_num_pos (x : F32) (h : x.bits.toNat % 2147483648 ≠ 0) : 0 < x.frac.1 := by
  unfold F32.frac
  dsimp only
  split
  · exact scale_num_pos (by omega) _
  · exact scale_num_pos (by omega) _

theorem magnitude_pos {b : Nat} (h : 0 < b) : (2 : ℚ) ^ (-149 : Int) ≤ Spec.magnitude b := by
  unfold Spec.magnitude
  split
  · have : (1 : ℚ) ≤ b := by exact_mod_cast h
    calc (2 : ℚ) ^ (-149 : Int) = 1 * 2 ^ (-149 : Int) := (one_mul _).symm
      _ ≤ _ := by gcongr
  · rename_i h0
    have h1 : (1 : ℚ) ≤ ((8388608 + b % 8388608 : Nat) : ℚ) := by exact_mod_cast (by omega : 1 ≤ 8388608 + b % 8388608)
    calc (2 : ℚ) ^ (-149 : Int) = 1 * 2 ^ (-149 : Int) := (one_mul _).symm
      _ ≤ ((8388608 + b % 8388608 : Nat) : ℚ) * 2 ^ (-149 : Int) := by gcongr
      _ ≤ _ := by
        gcongr
        · norm_num
        · omega

theorem magnitude_normal {b : Nat} (h : 8388608 ≤ b) : (2 : ℚ) ^ (-126 : Int) ≤ Spec.magnitude b := by
  unfold Spec.magnitude
  rw [if_neg (by omega)]
  have h1 : (2 : ℚ) ^ (23 : Int) ≤ ((8388608 + b % 8388608 : Nat) : ℚ) := by
    have : (8388608 : ℚ) ≤ ((8388608 + b % 8388608 : Nat) : ℚ) := by exact_mod_cast (by omega : 8388608 ≤ 8388608 + b % 8388608)
    calc (2 : ℚ) ^ (23 : Int) = 8388608 := by norm_num
      _ ≤ _ := this
  calc (2 : ℚ) ^ (-126 : Int) = 2 ^ (23 : Int) * 2 ^ (-149 : Int) := by norm_num
    _ ≤ ((8388608 + b % 8388608 : Nat) : ℚ) * 2 ^ (-149 : Int) := by gcongr
    _ ≤ _ := by
      gcongr
      · norm_num
      · omega

theorem magnitude_le {b : Nat} (h : b < 2139095040) : Spec.magnitude b ≤ 16777215 * (2 : ℚ) ^ (104 : Int) := by
  unfold Spec.magnitude
  split
  · have : (b : ℚ) ≤ 16777215 := by exact_mod_cast (by omega : b ≤ 16777215)
    calc (b : ℚ) * 2 ^ (-149 : Int) ≤ 16777215 * 2 ^ (-149 : Int) := by gcongr
      _ ≤ _ := by gcongr <;> norm_num
  · have : ((8388608 + b % 8388608 : Nat) : ℚ) ≤ 16777215 := by exact_mod_cast (by omega : 8388608 + b % 8388608 ≤ 16777215)
    calc ((8388608 + b % 8388608 : Nat) : ℚ) * 2 ^ ((b / 8388608 : Nat) - 150 : Int)
        ≤ 16777215 * 2 ^ ((b / 8388608 : Nat) - 150 : Int) := by gcongr
      _ ≤ _ := by
        gcongr
        · norm_num
        · omega

theorem ten_zpow_lt {a b : Int} (h : (10 : ℚ) ^ a < 10 ^ b) : a < b := (zpow_lt_zpow_iff_right₀ (by norm_num)).1 h

theorem decExp_eq {n d : Nat} (hd : 0 < d) {K : Int} (h1 : (10 : ℚ) ^ K ≤ fval (n, d)) (h2 : fval (n, d) < 10 ^ (K + 1)) :
    ∀ (fuel : Nat) (k : Int), K ≤ k → k - K < fuel → decExp n d fuel k = K := by
  have hdq : (0 : ℚ) < d := by exact_mod_cast hd
  intro fuel
  induction fuel with
  | zero => intro k h3 h4; omega
  | succ fuel ih =>
    intro k h3 h4
    rw [decExp]
    have hs := scale10_int d k
    have hp := scale10_den_pos (n := d) one_pos k
    generalize scale 10 d 1 k = p at *
    have hpq : (0 : ℚ) < p.2 := by exact_mod_cast hp
    have hp1 : (p.1 : ℚ) = d * 10 ^ k * p.2 := by
      unfold fval at hs
      rwa [div_eq_iff hpq.ne'] at hs
    have hiff : p.1 ≤ n * p.2 ↔ (10 : ℚ) ^ k ≤ fval (n, d) := by
      unfold fval
      rw [le_div_iff₀ hdq]
      constructor
      · intro h
        have : (p.1 : ℚ) ≤ n * p.2 := by exact_mod_cast h
        rw [hp1] at this
        have := le_of_mul_le_mul_right this hpq
        linarith
      · intro h
        have : (p.1 : ℚ) ≤ n * p.2 := by
          rw [hp1]
          have : (d : ℚ) * 10 ^ k ≤ n := by linarith
          gcongr
        exact_mod_cast this
    by_cases hk : k = K
    · subst hk
      rw [if_pos (hiff.2 h1)]
    · rw [if_neg, ih (k - 1) (by omega) (by omega)]
      intro h
      have := ten_zpow_lt (lt_of_le_of_lt (hiff.1 h) h2)
      omega

/-- The decimal exponent of a float. -/
theorem exists_decExp {b : Nat} (h0 : 0 < b) (h : b < 2139095040) :
    ∃ K : Int, (10 : ℚ) ^ K ≤ Spec.magnitude b ∧ Spec.magnitude b < 10 ^ (K + 1) ∧ -45 ≤ K ∧ K ≤ 38 := by
  have hp := magnitude_pos h0
  have hl := magnitude_le h
  have hpos : 0 < Spec.magnitude b := lt_of_lt_of_le (by positivity) hp
  refine ⟨Int.log 10 (Spec.magnitude b), ?_, ?_, ?_, ?_⟩
  · exact_mod_cast Int.zpow_log_le_self (by norm_num) hpos
  · exact_mod_cast Int.lt_zpow_succ_log_self (b := 10) (by norm_num) (Spec.magnitude b)
  · have h1 : (10 : ℚ) ^ (-45 : Int) < 10 ^ (Int.log 10 (Spec.magnitude b) + 1) := by
      refine lt_of_lt_of_le ?_ (le_trans hp (by exact_mod_cast (Int.lt_zpow_succ_log_self (by norm_num) (Spec.magnitude b)).le))
      norm_num
    have := ten_zpow_lt h1
    omega
  · have h1 : (10 : ℚ) ^ (Int.log 10 (Spec.magnitude b)) < 10 ^ (39 : Int) := by
      refine lt_of_le_of_lt (le_trans (by exact_mod_cast Int.zpow_log_le_self (by norm_num) hpos) hl) ?_
      norm_num
    have := ten_zpow_lt h1
    omega

/-- Six digits. -/
def sixDigits (x : F32) (K : Int) : Nat := divRound (scale 10 x.frac.1 x.frac.2 (5 - K)).1 (scale 10 x.frac.1 x.frac.2 (5 - K)).2

/-- The sign in a text. -/
def signText (x : F32) : Bytes := if 2147483648 ≤ x.bits.toNat then [45] else []

theorem text_eq (x : F32) (h0 : x.bits.toNat % 2147483648 ≠ 0) (hf : Spec.Finite x) {K : Int}
    (h1 : (10 : ℚ) ^ K ≤ Spec.magnitude (x.bits.toNat % 2147483648)) (h2 : Spec.magnitude (x.bits.toNat % 2147483648) < 10 ^ (K + 1))
    (h3 : -45 ≤ K) (h4 : K ≤ 38) :
    x.text = signText x ++ (if sixDigits x K = 1000000 then layoutG 100000 (K + 1) else layoutG (sixDigits x K) K) := by
  unfold Spec.Finite at hf
  have he : decExp x.frac.1 x.frac.2 100 40 = K :=
    decExp_eq (frac_den_pos x) (by rw [Prod.mk.eta, fval_frac]; exact h1) (by rw [Prod.mk.eta, fval_frac]; exact h2) 100 40 (by omega) (by omega)
  unfold F32.text signText sixDigits
  dsimp only
  rw [if_neg (by omega : ¬ 2139095040 < x.bits.toNat % 2147483648),
    if_neg (by omega : ¬ x.bits.toNat % 2147483648 = 2139095040), if_neg h0, he]

theorem sixDigits_scaled (x : F32) (K : Int) :
    fval (scale 10 x.frac.1 x.frac.2 (5 - K)) = Spec.magnitude (x.bits.toNat % 2147483648) * 10 ^ (5 - K) := by
  rw [scale10_val, Prod.mk.eta, fval_frac]

theorem sixDigits_err (x : F32) (K : Int) :
    |(sixDigits x K : ℚ) - Spec.magnitude (x.bits.toNat % 2147483648) * 10 ^ (5 - K)| ≤ 1 / 2 := by
  have := divRound_err (scale 10 x.frac.1 x.frac.2 (5 - K)).1 (scale 10 x.frac.1 x.frac.2 (5 - K)).2 (scale10_den_pos (frac_den_pos x) _)
  rw [Prod.mk.eta, sixDigits_scaled] at this
  exact this

theorem sixDigits_range (x : F32) {K : Int} (h1 : (10 : ℚ) ^ K ≤ Spec.magnitude (x.bits.toNat % 2147483648))
    (h2 : Spec.magnitude (x.bits.toNat % 2147483648) < 10 ^ (K + 1)) : 100000 ≤ sixDigits x K ∧ sixDigits x K ≤ 1000000 := by
  have hs := sixDigits_scaled x K
  have hp := scale10_den_pos (n := x.frac.1) (frac_den_pos x) (5 - K)
  unfold sixDigits
  generalize scale 10 x.frac.1 x.frac.2 (5 - K) = p at *
  have hpq : (0 : ℚ) < p.2 := by exact_mod_cast hp
  have a1 : (100000 : ℚ) ≤ fval p := by
    rw [hs]
    calc (100000 : ℚ) = 10 ^ K * 10 ^ (5 - K) := by rw [← zpow_add₀ (by norm_num)]; norm_num
      _ ≤ _ := by gcongr
  have a2 : fval p ≤ 1000000 := by
    rw [hs]
    calc Spec.magnitude (x.bits.toNat % 2147483648) * 10 ^ (5 - K) ≤ 10 ^ (K + 1) * 10 ^ (5 - K) := by gcongr
      _ = 1000000 := by
        rw [← zpow_add₀ (by norm_num), show K + 1 + (5 - K) = 6 by omega]
        norm_num
  unfold fval at a1 a2
  rw [le_div_iff₀ hpq] at a1
  rw [div_le_iff₀ hpq] at a2
  exact ⟨divRound_ge hp (by exact_mod_cast a1), divRound_le hp (by exact_mod_cast a2)⟩

/-! ## Layout -/

theorem decimal_length : ∀ (n k x : Nat), n < k → 10 ^ n ≤ x → x < 10 ^ (n + 1) → (decimal k x).length = n + 1 := by
  intro n
  induction n with
  | zero =>
    intro k x hk h1 h2
    obtain ⟨k, rfl⟩ : ∃ m, k = m + 1 := ⟨k - 1, by omega⟩
    rw [decimal, if_pos (by omega)]; rfl
  | succ n ih =>
    intro k x hk h1 h2
    obtain ⟨k, rfl⟩ : ∃ m, k = m + 1 := ⟨k - 1, by omega⟩
    have h10 : 10 ≤ x := by
      rw [Nat.pow_succ] at h1
      have := Nat.one_le_pow n 10 (by omega)
      omega
    rw [decimal, if_neg (by omega), List.length_append, ih k (x / 10) (by omega)]
    · rfl
    · rw [Nat.pow_succ] at h1; omega
    · rw [Nat.pow_succ] at h2; omega

theorem stripZeros_eq (b : Bytes) : ∃ z, b = stripZeros b ++ List.replicate z 48 := by
  unfold stripZeros
  have h := List.takeWhile_append_dropWhile (p := (· = 48)) (l := b.reverse)
  refine ⟨(b.reverse.takeWhile (· = 48)).length, ?_⟩
  have h2 : b.reverse.takeWhile (fun c => decide (c = 48)) = List.replicate (b.reverse.takeWhile (fun c => decide (c = 48))).length 48 := by
    rw [List.eq_replicate_iff]
    exact ⟨rfl, fun c hc => by simpa using List.mem_takeWhile_imp hc⟩
  calc b = b.reverse.reverse := (List.reverse_reverse b).symm
    _ = (b.reverse.takeWhile (· = 48) ++ b.reverse.dropWhile (· = 48)).reverse := by rw [h]
    _ = _ := by
      rw [List.reverse_append]
      congr 1
      conv_lhs => rw [h2]
      rw [List.reverse_replicate]

theorem stripZeros_digits {b : Bytes} (h : Digits b) : Digits (stripZeros b) := by
  obtain ⟨z, hz⟩ := stripZeros_eq b
  intro c hc
  refine h c ?_
  rw [hz]
  exact List.mem_append_left _ hc

/-- Stripping zeros and the point does not change the value. -/
theorem withPoint_frac (a : Bytes) {b : Bytes} (hb : Digits b) :
    ∃ f b', withPoint a b = a ++ f ∧ FracText f b' ∧ (digitsVal (a ++ b') : ℚ) * 10 ^ (-(b'.length : Int)) = digitsVal (a ++ b) * 10 ^ (-(b.length : Int)) := by
  obtain ⟨z, hz⟩ := stripZeros_eq b
  have hval : (digitsVal (a ++ stripZeros b) : ℚ) * 10 ^ (-((stripZeros b).length : Int)) = digitsVal (a ++ b) * 10 ^ (-(b.length : Int)) := by
    conv_rhs => rw [hz]
    rw [← List.append_assoc, digitsVal_append (a ++ stripZeros b), digitsVal_zeros, List.length_append, List.length_replicate]
    push_cast
    rw [neg_add, zpow_add₀ (by norm_num), zpow_neg (10 : ℚ) (z : Int), zpow_natCast (10 : ℚ) z]
    field_simp
    ring
  unfold withPoint
  by_cases h : (stripZeros b).isEmpty
  · rw [if_pos h]
    have h0 : stripZeros b = [] := List.isEmpty_iff.1 h
    rw [h0] at hval
    exact ⟨[], [], by simp, .none, hval⟩
  · rw [if_neg h]
    exact ⟨46 :: stripZeros b, stripZeros b, by simp, .point _ (stripZeros_digits hb), hval⟩

/-- The text of six digits and an exponent is a decimal number with this value. -/
theorem layoutG_dec {s : Bytes} {neg : Bool} (hs : SignText s neg) {D : Nat} (h1 : 100000 ≤ D) (h2 : D < 1000000) {X : Int} (hX : X.natAbs < 100) :
    ∃ a b k, DecText (s ++ layoutG D X) neg a b k ∧ (digitsVal (a ++ b) : ℚ) * 10 ^ (k - b.length) = D * 10 ^ (X - 5) := by
  have hlen : (decimal 20 D).length = 6 := decimal_length 5 20 D (by omega) h1 h2
  obtain ⟨hdig, -, hval⟩ := decimal_digits 20 D (by omega) (by omega)
  have hval : digitsVal (decimal 20 D) = D := hval
  have hD : Digits (decimal 20 D) := hdig
  unfold layoutG
  dsimp only
  generalize decimal 20 D = ds at *
  have htake : ∀ i, Digits (ds.take i) := fun i c hc => hD c (List.mem_of_mem_take hc)
  have hdrop : ∀ i, Digits (ds.drop i) := fun i c hc => hD c (List.mem_of_mem_drop hc)
  have htne : ∀ i, ds.take (i + 1) ≠ [] := by
    intro i h
    have := congrArg List.length h
    rw [List.length_take, hlen] at this
    simp at this
  by_cases c1 : X < -4 ∨ 6 ≤ X
  · rw [if_pos c1]
    obtain ⟨f, b', hw, hf, hv⟩ := withPoint_frac (ds.take 1) (hdrop 1)
    rw [List.take_append_drop, hval, List.length_drop, hlen] at hv
    obtain ⟨e1, e2, e3⟩ : (if (decimal 20 X.natAbs).length < 2 then 48 :: decimal 20 X.natAbs else decimal 20 X.natAbs) ≠ [] ∧
        Digits (if (decimal 20 X.natAbs).length < 2 then 48 :: decimal 20 X.natAbs else decimal 20 X.natAbs) ∧
        digitsVal (if (decimal 20 X.natAbs).length < 2 then 48 :: decimal 20 X.natAbs else decimal 20 X.natAbs) = X.natAbs := by
      obtain ⟨g1, g2, g3⟩ := decimal_digits 20 X.natAbs (by omega) (by omega)
      have g3 : digitsVal (decimal 20 X.natAbs) = X.natAbs := g3
      split
      · refine ⟨by simp, ?_, ?_⟩
        · intro c hc
          rcases List.mem_cons.1 hc with rfl | hc
          · rfl
          · exact g1 c hc
        · rw [show (48 : UInt8) :: decimal 20 X.natAbs = [48] ++ decimal 20 X.natAbs from rfl, digitsVal_append, g3]
          simp [digitsVal]
      · exact ⟨g2, g1, g3⟩
    generalize (if (decimal 20 X.natAbs).length < 2 then 48 :: decimal 20 X.natAbs else decimal 20 X.natAbs) = ex at *
    refine ⟨ds.take 1, b', X, ⟨⟨s, f, [101, if X < 0 then 45 else 43] ++ ex, ?_, hs, hf, ?_⟩, htake 1, .inl (htne 0)⟩, ?_⟩
    · rw [hw]; simp
    · by_cases hn : X < 0
      · rw [if_pos hn]
        have := ExpText.exp 101 [45] ex true (.inl rfl) .minus e1 e2
        rw [e3, if_pos rfl, show -(X.natAbs : Int) = X by omega] at this
        exact this
      · rw [if_neg hn]
        have := ExpText.exp 101 [43] ex false (.inl rfl) .plus e1 e2
        rw [e3, if_neg Bool.false_ne_true, show (X.natAbs : Int) = X by omega] at this
        exact this
    · rw [sub_eq_neg_add, zpow_add₀ (by norm_num), ← mul_assoc, hv, mul_assoc, ← zpow_add₀ (by norm_num)]
      congr 2
      push_cast
      ring
  · rw [if_neg c1]
    by_cases c2 : 0 ≤ X
    · rw [if_pos c2]
      obtain ⟨f, b', hw, hf, hv⟩ := withPoint_frac (ds.take (X.toNat + 1)) (hdrop (X.toNat + 1))
      rw [List.take_append_drop, hval, List.length_drop, hlen] at hv
      refine ⟨ds.take (X.toNat + 1), b', 0, ⟨⟨s, f, [], ?_, hs, hf, .none⟩, htake _, .inl (htne _)⟩, ?_⟩
      · rw [hw]; simp
      · rw [zero_sub, hv]
        congr 2
        omega
    · rw [if_neg c2]
      have hb : Digits (List.replicate ((-X).toNat - 1) 48 ++ ds) := by
        intro c hc
        rcases List.mem_append.1 hc with hc | hc
        · rw [(List.mem_replicate.1 hc).2]; rfl
        · exact hD c hc
      obtain ⟨f, b', hw, hf, hv⟩ := withPoint_frac [48] hb
      rw [digitsVal_append, digitsVal_append, digitsVal_append (List.replicate _ _), digitsVal_zeros, hval, List.length_append, List.length_replicate, hlen] at hv
      refine ⟨[48], b', 0, ⟨⟨s, f, [], ?_, hs, hf, .none⟩, ?_, .inl (by simp)⟩, ?_⟩
      · rw [hw]; simp
      · intro c hc
        rw [List.mem_singleton.1 hc]; rfl
      · rw [zero_sub, digitsVal_append, hv]
        have h0 : digitsVal [48] = 0 := rfl
        rw [h0, Nat.zero_mul, Nat.zero_mul, Nat.zero_add, Nat.zero_add]
        congr 2
        omega

/-! ## Order and uniqueness -/

theorem magnitude_succ (b : Nat) : Spec.magnitude b < Spec.magnitude (b + 1) := by
  unfold Spec.magnitude
  by_cases h1 : (b + 1) / 8388608 = 0
  · rw [if_pos (by omega), if_pos h1]
    gcongr
    norm_num
  · rw [if_neg h1]
    by_cases h2 : b / 8388608 = 0
    · have hb : b = 8388607 := by omega
      rw [if_pos h2, hb]
      norm_num
    · rw [if_neg h2]
      by_cases h3 : (b + 1) / 8388608 = b / 8388608
      · rw [h3]
        have : (8388608 + b % 8388608 : Nat) < (8388608 + (b + 1) % 8388608 : Nat) := by omega
        gcongr
      · have h4 : (b + 1) / 8388608 = b / 8388608 + 1 := by omega
        have h5 : (b + 1) % 8388608 = 0 := by omega
        have h6 : b % 8388608 = 8388607 := by omega
        rw [h4, h5, h6]
        generalize b / 8388608 = e
        have : (0 : ℚ) < 2 ^ ((e : Int) - 150) := by positivity
        push_cast
        rw [show (e : Int) + 1 - 150 = (e : Int) - 150 + 1 by ring, zpow_add₀ (by norm_num), zpow_one]
        linarith

theorem magnitude_strictMono : StrictMono Spec.magnitude := strictMono_nat_of_lt_succ magnitude_succ

theorem magnitude_zero : Spec.magnitude 0 = 0 := by norm_num [Spec.magnitude]

/-- The absolute value of a float. -/
theorem abs_value (x : F32) : |Spec.value x| = Spec.magnitude (x.bits.toNat % 2147483648) := by
  have hlt := x.bits.isLt
  unfold Spec.value
  split
  · rw [abs_of_nonneg (magnitude_nonneg _), Nat.mod_eq_of_lt (by omega)]
  · rw [abs_neg, abs_of_nonneg (magnitude_nonneg _), show x.bits.toNat % 2147483648 = x.bits.toNat - 2147483648 by omega]

theorem value_sign (x : F32) : Spec.value x = (if 2147483648 ≤ x.bits.toNat then -1 else 1) * Spec.magnitude (x.bits.toNat % 2147483648) := by
  have hlt := x.bits.isLt
  unfold Spec.value
  by_cases h : x.bits.toNat < 2147483648
  · rw [if_pos h, if_neg (by omega), one_mul, Nat.mod_eq_of_lt h]
  · rw [if_neg h, if_pos (by omega), neg_one_mul, show x.bits.toNat % 2147483648 = x.bits.toNat - 2147483648 by omega]

theorem value_inj {x y : F32} (hx : Spec.value x ≠ 0) (h : Spec.value x = Spec.value y) : x = y := by
  have h1 := abs_value x
  rw [h, abs_value y] at h1
  have h2 := magnitude_strictMono.injective h1
  rw [value_sign, value_sign, h2] at h
  rw [value_sign] at hx
  have hm : Spec.magnitude (x.bits.toNat % 2147483648) ≠ 0 := right_ne_zero_of_mul hx
  have h3 := mul_right_cancel₀ hm h
  have h4 : x.bits.toNat = y.bits.toNat := by
    have hlx := x.bits.isLt
    have hly := y.bits.isLt
    split at h3 <;> split at h3
    · omega
    · norm_num at h3
    · norm_num at h3
    · omega
  cases x; cases y
  congr 1
  exact BitVec.eq_of_toNat_eq h4

/-- Rounding has one result. -/
theorem nearest_unique {t : ℚ} {x y : F32} (hx : Spec.Nearest t x) (hy : Spec.Nearest t y) : Spec.value x = Spec.value y := by
  by_contra hne
  wlog hlt : Spec.value x < Spec.value y generalizing x y with H
  · exact H hy hx (fun h => hne h.symm) (lt_of_le_of_ne (not_lt.1 hlt) (fun h => hne h.symm))
  have hd := le_antisymm (hx.2 y hy.1).1 (hy.2 x hx.1).1
  have ex := (hx.2 y hy.1).2 (fun h => hne h.symm) hd
  have ey := (hy.2 x hx.1).2 hne hd.symm
  have hxt : Spec.value x < t := by
    by_contra h
    rw [abs_of_nonneg (by linarith : 0 ≤ Spec.value x - t), abs_of_nonneg (by linarith : 0 ≤ Spec.value y - t)] at hd
    exact hne (by linarith)
  have hyt : t < Spec.value y := by
    by_contra h
    rw [abs_of_neg (by linarith : Spec.value x - t < 0), abs_of_nonpos (by linarith : Spec.value y - t ≤ 0)] at hd
    exact hne (by linarith)
  have hbetween : ∀ z, Spec.Finite z → Spec.value x < Spec.value z → Spec.value z < Spec.value y → False := by
    intro z hz h1 h2
    have h3 := (hx.2 z hz).1
    have h4 := (hy.2 z hz).1
    rw [abs_of_neg (by linarith : Spec.value x - t < 0)] at h3
    rw [abs_of_pos (by linarith : 0 < Spec.value y - t)] at h4
    rcases le_total (Spec.value z) t with h | h
    · rw [abs_of_nonpos (by linarith : Spec.value z - t ≤ 0)] at h3
      linarith
    · rw [abs_of_nonneg (by linarith : 0 ≤ Spec.value z - t)] at h4
      linarith
  have fx := hx.1
  have fy := hy.1
  have ax := abs_value x
  have ay := abs_value y
  unfold Spec.Finite at fx fy
  rcases le_or_gt 0 (Spec.value x) with h0 | h0
  · rw [abs_of_nonneg h0] at ax
    rw [abs_of_nonneg (by linarith)] at ay
    have hb := hlt
    rw [ax, ay] at hb
    have hb := magnitude_strictMono.lt_iff_lt.1 hb
    obtain ⟨v1, v2, -⟩ := value_ofNat (m := x.bits.toNat % 2147483648 + 1) (by omega) false
    rw [if_neg Bool.false_ne_true, if_neg Bool.false_ne_true, one_mul] at v1
    rw [if_neg Bool.false_ne_true] at v2
    refine hbetween _ v2 ?_ ?_
    · rw [v1, ax]; exact magnitude_succ _
    · rw [v1, ay]; exact magnitude_strictMono (by omega)
  · rcases le_or_gt (Spec.value y) 0 with h1 | h1
    · rw [abs_of_neg h0] at ax
      rw [abs_of_nonpos h1] at ay
      have hb : -Spec.value y < -Spec.value x := by linarith
      rw [ax, ay] at hb
      have hb := magnitude_strictMono.lt_iff_lt.1 hb
      obtain ⟨v1, v2, -⟩ := value_ofNat (m := y.bits.toNat % 2147483648 + 1) (by omega) true
      rw [if_pos rfl, if_pos rfl, neg_one_mul] at v1
      rw [if_pos rfl] at v2
      refine hbetween _ v2 ?_ ?_
      · have := magnitude_strictMono (show y.bits.toNat % 2147483648 + 1 < x.bits.toNat % 2147483648 by omega)
        rw [v1]; linarith
      · have := magnitude_succ (y.bits.toNat % 2147483648)
        rw [v1]; linarith
    · obtain ⟨v1, v2, -⟩ := value_ofNat (m := 0) (by omega) false
      rw [if_neg Bool.false_ne_true, if_neg Bool.false_ne_true, one_mul, magnitude_zero] at v1
      rw [if_neg Bool.false_ne_true] at v2
      exact hbetween _ v2 (by rw [v1]; exact h0) (by rw [v1]; exact h1)

/-! ## Printing -/

/-- No multiple of the unit is nearer than the six digits. -/
theorem sixDigits_nearest (x : F32) (K : Int) (z : Int) :
    |(sixDigits x K : ℚ) * 10 ^ (K - 5) - Spec.magnitude (x.bits.toNat % 2147483648)| ≤
      |(z : ℚ) * 10 ^ (K - 5) - Spec.magnitude (x.bits.toNat % 2147483648)| := by
  have h := (divRound_nearest (scale 10 x.frac.1 x.frac.2 (5 - K)).1 (scale 10 x.frac.1 x.frac.2 (5 - K)).2 (scale10_den_pos (frac_den_pos x) _) z).1
  rw [Prod.mk.eta, sixDigits_scaled] at h
  change |(sixDigits x K : ℚ) - _| ≤ _ at h
  generalize Spec.magnitude (x.bits.toNat % 2147483648) = v at *
  have hv : v = v * 10 ^ (5 - K) * 10 ^ (K - 5) := by
    rw [mul_assoc, ← zpow_add₀ (by norm_num), show 5 - K + (K - 5) = 0 by ring, zpow_zero, mul_one]
  have hp : (0 : ℚ) < 10 ^ (K - 5) := by positivity
  have hmul : ∀ q : ℚ, |q * 10 ^ (K - 5) - v| = |q - v * 10 ^ (5 - K)| * 10 ^ (K - 5) := by
    intro q
    conv_lhs => rw [hv]
    rw [← sub_mul, abs_mul, abs_of_pos hp]
  rw [hmul, hmul]
  gcongr

theorem sixDigits_six (x : F32) {K : Int} (h1 : (10 : ℚ) ^ K ≤ Spec.magnitude (x.bits.toNat % 2147483648)) {u : ℚ} (hu : Spec.SixDigit u) :
    |(sixDigits x K : ℚ) * 10 ^ (K - 5) - Spec.magnitude (x.bits.toNat % 2147483648)| ≤ |u - Spec.magnitude (x.bits.toNat % 2147483648)| := by
  have hz := sixDigits_nearest x K
  generalize Spec.magnitude (x.bits.toNat % 2147483648) = v at *
  generalize |(sixDigits x K : ℚ) * 10 ^ (K - 5) - v| = E at *
  have hv : 0 < v := lt_of_lt_of_le (by positivity) h1
  obtain ⟨m, Y, hm, hmu⟩ := hu
  rcases le_or_gt u 0 with h0 | h0
  · have := hz 0
    rw [Int.cast_zero, zero_mul, zero_sub, abs_neg, abs_of_pos hv] at this
    rw [abs_of_neg (by linarith : u - v < 0)]
    linarith
  · rw [abs_of_pos h0] at hmu
    rcases le_or_gt (K - 5) Y with hY | hY
    · have := hz (m * 10 ^ (Y - (K - 5)).toNat)
      have he : ((m * 10 ^ (Y - (K - 5)).toNat : Int) : ℚ) * 10 ^ (K - 5) = u := by
        rw [hmu]
        push_cast
        rw [← zpow_natCast, mul_assoc, ← zpow_add₀ (by norm_num)]
        congr 2
        omega
      rwa [he] at this
    · have := hz 100000
      have he : ((100000 : Int) : ℚ) * 10 ^ (K - 5) = 10 ^ K := by
        rw [show K = 5 + (K - 5) by ring, zpow_add₀ (by norm_num)]
        norm_num
      rw [he, abs_of_nonpos (by linarith : (10 : ℚ) ^ K - v ≤ 0)] at this
      have hu : u ≤ 10 ^ K := by
        rw [hmu]
        have hm' : (m : ℚ) ≤ 10 ^ (6 : Int) := by
          have : (m : ℚ) ≤ 1000000 := by exact_mod_cast hm.le
          norm_num
          linarith
        calc (m : ℚ) * 10 ^ Y ≤ 10 ^ (6 : Int) * 10 ^ Y := by gcongr
          _ = 10 ^ (6 + Y) := (zpow_add₀ (by norm_num) _ _).symm
          _ ≤ 10 ^ K := zpow_le_zpow_right₀ (by norm_num) (by omega)
      rw [abs_of_nonpos (by linarith : u - v ≤ 0)]
      linarith

/-- What is printed for a float other than zero: six digits and an exponent. -/
theorem text_six (x : F32) (h0 : x.bits.toNat % 2147483648 ≠ 0) (hf : Spec.Finite x) :
    ∃ (D : Nat) (X : Int), x.text = signText x ++ layoutG D X ∧ 100000 ≤ D ∧ D < 1000000 ∧ X.natAbs < 100 ∧
      (∀ u, Spec.SixDigit u → |(D : ℚ) * 10 ^ (X - 5) - Spec.magnitude (x.bits.toNat % 2147483648)| ≤ |u - Spec.magnitude (x.bits.toNat % 2147483648)|) ∧
      |(D : ℚ) * 10 ^ (X - 5) - Spec.magnitude (x.bits.toNat % 2147483648)| ≤ Spec.magnitude (x.bits.toNat % 2147483648) * (5 / 1000000) ∧
      (D : ℚ) * 10 ^ (X - 5) < 33554431 * 2 ^ (103 : Int) := by
  obtain ⟨K, h1, h2, h3, h4⟩ := exists_decExp (Nat.pos_of_ne_zero h0) hf
  have ht := text_eq x h0 hf h1 h2 h3 h4
  obtain ⟨r1, r2⟩ := sixDigits_range x h1 h2
  have hsix := fun u (hu : Spec.SixDigit u) => sixDigits_six x h1 hu
  have herr := sixDigits_err x K
  have hle := magnitude_le hf
  generalize Spec.magnitude (x.bits.toNat % 2147483648) = v at *
  generalize sixDigits x K = d at *
  have hv : v = v * 10 ^ (5 - K) * 10 ^ (K - 5) := by
    rw [mul_assoc, ← zpow_add₀ (by norm_num), show 5 - K + (K - 5) = 0 by ring, zpow_zero, mul_one]
  have hp : (0 : ℚ) < 10 ^ (K - 5) := by positivity
  have hrel : |(d : ℚ) * 10 ^ (K - 5) - v| ≤ v * (5 / 1000000) := by
    have hmul : |(d : ℚ) * 10 ^ (K - 5) - v| = |(d : ℚ) - v * 10 ^ (5 - K)| * 10 ^ (K - 5) := by
      conv_lhs => rw [hv]
      rw [← sub_mul, abs_mul, abs_of_pos hp]
    rw [hmul]
    have : (10 : ℚ) ^ K = 100000 * 10 ^ (K - 5) := by
      rw [show K = 5 + (K - 5) by ring, zpow_add₀ (by norm_num)]
      norm_num
    rw [this] at h1
    calc |(d : ℚ) - v * 10 ^ (5 - K)| * 10 ^ (K - 5) ≤ 1 / 2 * 10 ^ (K - 5) := by gcongr
      _ ≤ _ := by linarith
  have hmax : (d : ℚ) * 10 ^ (K - 5) < 33554431 * 2 ^ (103 : Int) := by
    rcases eq_or_lt_of_le h4 with rfl | h4
    · have hd : d ≤ 340282 := by
        have a := (abs_le.1 herr).2
        have b : v * 10 ^ ((5 : Int) - 38) ≤ 16777215 * 2 ^ (104 : Int) * 10 ^ ((5 : Int) - 38) := by gcongr
        have c : (16777215 : ℚ) * 2 ^ (104 : Int) * 10 ^ ((5 : Int) - 38) < 340282 + 2 / 5 := by norm_num
        have : (d : ℚ) < 340283 := by linarith
        have : d < 340283 := by exact_mod_cast this
        omega
      have hd : (d : ℚ) ≤ 340282 := by exact_mod_cast hd
      calc (d : ℚ) * 10 ^ ((38 : Int) - 5) ≤ 340282 * 10 ^ ((38 : Int) - 5) := by gcongr
        _ < _ := by norm_num
    · have hd : (d : ℚ) ≤ 1000000 := by exact_mod_cast r2
      calc (d : ℚ) * 10 ^ (K - 5) ≤ 1000000 * 10 ^ (K - 5) := by gcongr
        _ ≤ 1000000 * 10 ^ ((37 : Int) - 5) := by
          gcongr
          · norm_num
          · omega
        _ < _ := by norm_num
  by_cases hd : d = 1000000
  · rw [if_pos hd] at ht
    have he : ((100000 : Nat) : ℚ) * 10 ^ (K + 1 - 5) = d * 10 ^ (K - 5) := by
      rw [hd, show K + 1 - 5 = 1 + (K - 5) by ring, zpow_add₀ (by norm_num)]
      push_cast
      ring
    refine ⟨100000, K + 1, ht, by omega, by omega, by omega, ?_, ?_, ?_⟩ <;> rw [he] <;> assumption
  · rw [if_neg hd] at ht
    exact ⟨d, K, ht, r1, by omega, by omega, hsix, hrel, hmax⟩

end Grann
