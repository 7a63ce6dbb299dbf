import Verif.Proofs.FloatPrint
import Verif.Props.Params
/-!
# C44: parameters of type `float`
-/

namespace Grann

/-- Numbers of six digits are far apart. -/
theorem six_eq {D : Nat} (h1 : 100000 ≤ D) (h2 : D < 1000000) {e : Int} {u : ℚ} (hu : Spec.SixDigit u) (hu0 : 0 ≤ u)
    (h : |u - D * 10 ^ e| ≤ D * 10 ^ e * 2 ^ (-21 : Int)) : u = D * 10 ^ e := by
  obtain ⟨m, Y, hm, hmu⟩ := hu
  rw [abs_of_nonneg hu0] at hmu
  have hp : (0 : ℚ) < 10 ^ e := by positivity
  have h1q : (100000 : ℚ) ≤ D := by exact_mod_cast h1
  have h2q : (D : ℚ) < 1000000 := by exact_mod_cast h2
  have h21 : (2 : ℚ) ^ (-21 : Int) = 1 / 2097152 := by norm_num
  rw [h21] at h
  rcases le_or_gt e Y with hY | hY
  · have he : u = ((m * 10 ^ (Y - e).toNat : Nat) : ℚ) * 10 ^ e := by
      rw [hmu]
      push_cast
      rw [← zpow_natCast, mul_assoc, ← zpow_add₀ (by norm_num)]
      congr 2
      omega
    generalize m * 10 ^ (Y - e).toNat = z at *
    subst he
    rw [← sub_mul, abs_mul, abs_of_pos hp, mul_assoc, mul_comm ((10 : ℚ) ^ e) (1 / 2097152), ← mul_assoc] at h
    have h3 := le_of_mul_le_mul_right h hp
    have h4 : |(z : ℚ) - D| < 1 := by linarith
    have h5 : |(z : Int) - D| < 1 := by exact_mod_cast h4
    have h6 : (z : Int) = D := by
      have := abs_lt.1 h5
      omega
    have h7 : z = D := by exact_mod_cast h6
    rw [h7]
  · exfalso
    have hm' : (m : ℚ) ≤ 999999 := by exact_mod_cast (by omega : m ≤ 999999)
    have hu : u ≤ 999999 * 10 ^ (e - 1) := by
      rw [hmu]
      gcongr
      · norm_num
      · omega
    rw [zpow_sub₀ (by norm_num), zpow_one] at hu
    have h3 := (abs_le.1 h).1
    generalize (10 : ℚ) ^ e = p at *
    have h4 : 100000 * p ≤ D * p := by gcongr
    linarith

/-- **C44 (floats), reading.** A decimal number in text (sign, digits, fraction, exponent) is read as the nearest `float`, ties to the
even one, with the sign of the text; from half a unit above the largest `float` on the conversion throws. -/
theorem C44_float_read {t : Bytes} {neg : Bool} {a b : Bytes} {k : Int} (h : DecText t neg a b k) :
    ((digitsVal (a ++ b) : ℚ) * 10 ^ (k - b.length) < 33554431 * 2 ^ (103 : Int) →
      ∃ x, toF32 t = .ok x ∧ Spec.Nearest ((if neg then -1 else 1) * (digitsVal (a ++ b) * 10 ^ (k - b.length))) x ∧
        (2147483648 ≤ x.bits.toNat ↔ neg = true)) ∧
    (33554431 * 2 ^ (103 : Int) ≤ (digitsVal (a ++ b) : ℚ) * 10 ^ (k - b.length) → toF32 t = .error .runtimeError) := by
  rw [toF32_dec h]
  exact ⟨roundDec_nearest neg _ _, roundDec_large neg _ _⟩

theorem signText_sign (x : F32) : SignText (signText x) (decide (2147483648 ≤ x.bits.toNat)) := by
  unfold signText
  split
  · rename_i h
    rw [decide_eq_true h]
    exact .minus
  · rename_i h
    rw [decide_eq_false h]
    exact .none

/-- Printing and reading of a float other than zero. -/
theorem text_read (x : F32) (h0 : x.bits.toNat % 2147483648 ≠ 0) (hf : Spec.Finite x) :
    ∃ (D : Nat) (e : Int) (y : F32), 100000 ≤ D ∧ D < 1000000 ∧
      (∀ u, Spec.SixDigit u → |(D : ℚ) * 10 ^ e - Spec.magnitude (x.bits.toNat % 2147483648)| ≤ |u - Spec.magnitude (x.bits.toNat % 2147483648)|) ∧
      |(D : ℚ) * 10 ^ e - Spec.magnitude (x.bits.toNat % 2147483648)| ≤ Spec.magnitude (x.bits.toNat % 2147483648) * (5 / 1000000) ∧
      (D : ℚ) * 10 ^ e < 33554431 * 2 ^ (103 : Int) ∧ toF32 x.text = .ok y ∧
      Spec.Nearest ((if 2147483648 ≤ x.bits.toNat then -1 else 1) * (D * 10 ^ e)) y ∧ (2147483648 ≤ y.bits.toNat ↔ 2147483648 ≤ x.bits.toNat) := by
  obtain ⟨D, X, ht, d1, d2, hX, hsix, hrel, hmax⟩ := text_six x h0 hf
  obtain ⟨a, b, k, hdec, hval⟩ := layoutG_dec (signText_sign x) d1 d2 hX
  rw [← ht] at hdec
  obtain ⟨y, hy, hn, hs⟩ := (C44_float_read hdec).1 (by rw [hval]; exact hmax)
  rw [hval] at hn
  refine ⟨D, X - 5, y, d1, d2, hsix, hrel, hmax, hy, ?_, ?_⟩
  · simpa using hn
  · simpa using hs

theorem sixDigit_neg {u : ℚ} (h : Spec.SixDigit u) : Spec.SixDigit (-u) := by
  obtain ⟨m, k, hm, hu⟩ := h
  exact ⟨m, k, hm, by rw [abs_neg, hu]⟩

/-- **C44 (floats).** Every finite `float` that was set is read back as the `float` nearest to a number of six digits that is nearest to
the value set; the sign is kept, and the relative error is at most 10⁻⁵. -/
theorem C44_float_get (x : F32) (hf : Spec.Finite x) :
    ∃ (t : ℚ) (y : F32), Spec.NearestSix (Spec.value x) t ∧ toF32 x.text = .ok y ∧ Spec.Nearest t y ∧
      (2147483648 ≤ y.bits.toNat ↔ 2147483648 ≤ x.bits.toNat) ∧ |Spec.value y - Spec.value x| ≤ |Spec.value x| / 100000 := by
  by_cases h0 : x.bits.toNat % 2147483648 = 0
  · have hv : Spec.value x = 0 := by rw [value_sign, h0, magnitude_zero, mul_zero]
    refine ⟨0, x, ⟨⟨0, 0, by omega, by simp⟩, fun u _ => by rw [hv]; simp⟩, ?_, ⟨hf, fun y _ => ?_⟩, Iff.rfl, by rw [hv]; simp⟩
    · have hlt := x.bits.isLt
      have : x = ⟨0x00000000#32⟩ ∨ x = ⟨0x80000000#32⟩ := by
        have : x.bits.toNat = 0 ∨ x.bits.toNat = 2147483648 := by omega
        cases x
        rcases this with h | h
        · exact .inl (congrArg _ (BitVec.eq_of_toNat_eq h))
        · exact .inr (congrArg _ (BitVec.eq_of_toNat_eq h))
      rcases this with rfl | rfl <;> decide +kernel
    · rw [hv]
      refine ⟨by simp, fun _ _ => by omega⟩
  · obtain ⟨D, e, y, -, d2, hsix, hrel, -, hy, hn, hs⟩ := text_read x h0 hf
    have hv := value_sign x
    have hav := abs_value x
    have hm := magnitude_nonneg (x.bits.toNat % 2147483648)
    have hnear : |Spec.value y - (if 2147483648 ≤ x.bits.toNat then -1 else 1) * ((D : ℚ) * 10 ^ e)| ≤
        |Spec.value x - (if 2147483648 ≤ x.bits.toNat then -1 else 1) * ((D : ℚ) * 10 ^ e)| := (hn.2 x hf).1
    have hp : (0 : ℚ) ≤ D * 10 ^ e := by positivity
    have hd6 : Spec.SixDigit ((D : ℚ) * 10 ^ e) := ⟨D, e, d2, abs_of_nonneg hp⟩
    rw [hav]
    generalize Spec.magnitude (x.bits.toNat % 2147483648) = v at *
    generalize (D : ℚ) * 10 ^ e = T at *
    refine ⟨_, y, ⟨?_, ?_⟩, hy, hn, hs, ?_⟩
    · split
      · rw [neg_one_mul]; exact sixDigit_neg hd6
      · rw [one_mul]; exact hd6
    · intro u hu
      rw [hv]
      split
      · have := hsix (-u) (sixDigit_neg hu)
        rw [← abs_neg, ← abs_neg (u - _)]
        rw [show -(-1 * T - -1 * v) = T - v by ring, show -(u - -1 * v) = -u - v by ring]
        exact this
      · rw [one_mul, one_mul]
        exact hsix u hu
    · have hxt : |Spec.value x - (if 2147483648 ≤ x.bits.toNat then -1 else 1) * T| = |T - v| := by
        rw [hv]
        split
        · rw [show -1 * v - -1 * T = T - v by ring]
        · rw [one_mul, one_mul, abs_sub_comm]
      calc |Spec.value y - Spec.value x| ≤ _ := abs_sub_le _ _ _
        _ ≤ |T - v| + |T - v| := add_le_add (le_trans hnear hxt.le) (by rw [abs_sub_comm]; exact hxt.le)
        _ ≤ _ := by linarith

/-- The error of rounding to `float`. -/
theorem nearest_err {t : ℚ} (h1 : 2 ^ (-126 : Int) ≤ |t|) (h2 : |t| < 33554431 * 2 ^ (103 : Int)) {x : F32} (hx : Spec.Nearest t x) :
    |Spec.value x - t| ≤ |t| * 2 ^ (-24 : Int) := by
  have htpos : 0 < |t| := lt_of_lt_of_le (by positivity) h1
  have hfr : |t| = fval (t.num.natAbs, t.den) := by
    unfold fval
    rw [Nat.cast_natAbs, Int.cast_abs]
    conv_lhs => rw [← Rat.num_div_den t, abs_div]
    simp
  have p1 : 0 < t.num.natAbs := by
    rw [Int.natAbs_pos, Ne, Rat.num_eq_zero]
    exact abs_pos.1 htpos
  have p2 := t.den_pos
  have e1 := nearestBits_err p1 p2 (by rw [← hfr]; exact h1)
  have e2 := nearestBits_lt p1 p2 (by rw [← hfr]; exact h2)
  rw [← hfr] at e1
  generalize nearestBits t.num.natAbs t.den = m at *
  rcases le_total 0 t with h0 | h0
  · obtain ⟨v1, v2, -⟩ := value_ofNat e2 false
    have := (hx.2 _ v2).1
    rw [v1, if_neg Bool.false_ne_true, one_mul] at this
    rw [abs_of_nonneg h0] at e1 ⊢
    linarith
  · obtain ⟨v1, v2, -⟩ := value_ofNat e2 true
    have := (hx.2 _ v2).1
    rw [v1, if_pos rfl, neg_one_mul] at this
    rw [abs_of_nonpos h0] at e1 ⊢
    rw [← abs_neg (-Spec.magnitude m - t), show -(-Spec.magnitude m - t) = Spec.magnitude m - -t by ring] at this
    linarith

/-- A `float` near a number of six digits is printed as this number. -/
theorem text_back {t : ℚ} (ht : Spec.SixDigit t) (ht0 : t ≠ 0) {x : F32} (hf : Spec.Finite x) (herr : |Spec.value x - t| ≤ |t| * 2 ^ (-23 : Int)) :
    ∃ y, toF32 x.text = .ok y ∧ Spec.Nearest t y := by
  have htpos : 0 < |t| := abs_pos.2 ht0
  have h23 : (2 : ℚ) ^ (-23 : Int) = 1 / 8388608 := by norm_num
  rw [h23] at herr
  have hvpos : 0 < |Spec.value x| := by
    have := abs_sub_abs_le_abs_sub t (Spec.value x)
    rw [abs_sub_comm] at this
    linarith
  have h0 : x.bits.toNat % 2147483648 ≠ 0 := by
    intro h
    rw [abs_value, h, magnitude_zero] at hvpos
    exact lt_irrefl _ hvpos
  obtain ⟨D, e, y, d1, d2, hsix, hrel, -, hy, hn, hs⟩ := text_read x h0 hf
  have habs : Spec.SixDigit |t| := by
    obtain ⟨n, Y, hn, hn'⟩ := ht
    exact ⟨n, Y, hn, by rw [abs_abs, hn']⟩
  have hclose := hsix _ habs
  rw [← abs_value] at hclose
  have hdist : abs (|t| - |Spec.value x|) ≤ |t| / 8388608 := by
    refine le_trans (abs_abs_sub_abs_le t (Spec.value x)) ?_
    rw [abs_sub_comm]
    linarith
  have hT : |t| = D * 10 ^ e := by
    refine six_eq d1 d2 habs htpos.le ?_
    have a1 := abs_sub_le |t| |Spec.value x| ((D : ℚ) * 10 ^ e)
    rw [abs_sub_comm |Spec.value x|] at a1
    have a2 : |t| - D * 10 ^ e ≤ abs (|t| - D * 10 ^ e) := le_abs_self _
    rw [show (2 : ℚ) ^ (-21 : Int) = 1 / 2097152 by norm_num]
    generalize (D : ℚ) * 10 ^ e = T at *
    linarith
  have hsign : (if 2147483648 ≤ x.bits.toNat then -1 else 1) * (D * 10 ^ e) = t := by
    rw [← hT]
    have hv := value_sign x
    have hm := abs_value x
    rcases le_total 0 t with ht0 | ht0
    · rw [abs_of_nonneg ht0] at *
      rw [if_neg, one_mul]
      intro hneg
      rw [if_pos hneg, ← hm] at hv
      have := (abs_le.1 herr).1
      linarith
    · rw [abs_of_nonpos ht0] at *
      rw [if_pos, neg_one_mul, neg_neg]
      by_contra hneg
      rw [if_neg hneg, ← hm] at hv
      have := (abs_le.1 herr).2
      linarith
  rw [hsign] at hn
  exact ⟨y, hy, hn⟩

/-- **C44 (floats), values of up to six digits.** A `float` that is the rounded value of a number of six digits in the normal range is
read back unchanged. -/
theorem C44_float_exact {t : ℚ} (ht : Spec.SixDigit t) (h1 : 2 ^ (-126 : Int) ≤ |t|) (h2 : |t| < 33554431 * 2 ^ (103 : Int)) {x : F32}
    (hx : Spec.Nearest t x) : toF32 x.text = .ok x := by
  have htpos : 0 < |t| := lt_of_lt_of_le (by positivity) h1
  have herr := nearest_err h1 h2 hx
  have h24 : (2 : ℚ) ^ (-24 : Int) = 1 / 16777216 := by norm_num
  have h23 : (2 : ℚ) ^ (-23 : Int) = 1 / 8388608 := by norm_num
  rw [h24] at herr
  obtain ⟨y, hy, hn⟩ := text_back ht (abs_pos.1 htpos) hx.1 (by rw [h23]; linarith)
  rw [hy]
  congr 1
  refine value_inj ?_ (nearest_unique hn hx)
  rw [nearest_unique hn hx]
  intro h
  rw [h, zero_sub, abs_neg] at herr
  linarith

/-- **C44 (floats), a second time.** What was read back is read back unchanged when it is set again. -/
theorem C44_float_again {x y : F32} (hf : Spec.Finite x) (hx : 2 ^ (-125 : Int) ≤ |Spec.value x|) (hy : toF32 x.text = .ok y) :
    toF32 y.text = .ok y := by
  have h0 : x.bits.toNat % 2147483648 ≠ 0 := by
    intro h
    rw [abs_value, h, magnitude_zero] at hx
    norm_num at hx
  obtain ⟨D, e, y', d1, d2, -, hrel, hmax, hy', hn, -⟩ := text_read x h0 hf
  rw [hy] at hy'
  injection hy' with hy'
  subst hy'
  have hp : (0 : ℚ) ≤ D * 10 ^ e := by positivity
  have habs : |(if 2147483648 ≤ x.bits.toNat then -1 else 1) * ((D : ℚ) * 10 ^ e)| = D * 10 ^ e := by
    split
    · rw [neg_one_mul, abs_neg, abs_of_nonneg hp]
    · rw [one_mul, abs_of_nonneg hp]
  refine C44_float_exact ⟨D, e, d2, habs⟩ ?_ ?_ hn
  · rw [habs]
    rw [← abs_value] at hrel
    have := (abs_le.1 hrel).1
    have h125 : (2 : ℚ) ^ (-125 : Int) = 2 * 2 ^ (-126 : Int) := by norm_num
    rw [h125] at hx
    have hpp : (0 : ℚ) < 2 ^ (-126 : Int) := by positivity
    linarith
  · rw [habs]; exact hmax

/-- **C44 (floats), the object.** After any calls of `Set` on a new object, `Get<float>` reads the text of the value last set, with and
without a default. -/
theorem C44_float_last (calls : List (Bytes × ParamVal)) (name : Bytes) (v : F32)
    (hl : Spec.lastSet name calls = some (.text v.text)) (hf : Spec.Finite v) (dflt : F32) :
    ∃ (t : ℚ) (y : F32), Spec.NearestSix (Spec.value v) t ∧ Spec.Nearest t y ∧
      (2147483648 ≤ y.bits.toNat ↔ 2147483648 ≤ v.bits.toNat) ∧ |Spec.value y - Spec.value v| ≤ |Spec.value v| / 100000 ∧
      (calls.foldl Params.set Params.new).get toF32 name = .ok y ∧ (calls.foldl Params.set Params.new).getD toF32 name dflt = .ok y := by
  obtain ⟨t, y, h1, h2, h3, h4, h5⟩ := C44_float_get v hf
  have h : (calls.foldl Params.set Params.new).get toF32 name = .ok y := by
    unfold Params.get
    rw [Params.lookup_sets, hl]
    exact h2
  exact ⟨t, y, h1, h3, h4, h5, h, by unfold Params.getD; rw [h]⟩

/-- **C44 (floats), not finite.** Infinities and NaNs that were set cannot be read. -/
theorem C44_float_not_finite (x : F32) (hf : ¬ Spec.Finite x) : toF32 x.text = .error .runtimeError := by
  unfold Spec.Finite at hf
  unfold F32.text
  dsimp only
  by_cases h : 2139095040 < x.bits.toNat % 2147483648
  · rw [if_pos h]
    split <;> decide +kernel
  · rw [if_neg h, if_pos (by omega : x.bits.toNat % 2147483648 = 2139095040)]
    split <;> decide +kernel

instance (l : Bytes) : Decidable (Digits l) := inferInstanceAs (Decidable (∀ c ∈ l, isDigit c = true))

/-- `1.2` is a decimal number ... -/
theorem dec_1_2 : DecText (ascii "1.2") false [49] [50] 0 :=
  ⟨⟨[], [46, 50], [], by decide, .none, .point [50] (by decide), .none⟩, by decide, .inl (by decide)⟩

/-- ... and so is `-12.5e+03`. -/
example : DecText (ascii "-12.5e+03") true [49, 50] [53] 3 := by
  have := ExpText.exp 101 [43] [48, 51] false (.inl rfl) .plus (by decide) (by decide)
  exact ⟨⟨[45], [46, 53], [101, 43, 48, 51], by decide, .minus, .point [53] (by decide), this⟩, by decide, .inl (by decide)⟩

example : toF32 (ascii "-12.5e+03") = .ok ⟨0xc6435000#32⟩ ∧ toF32 (ascii "1.5E1") = .ok ⟨0x41700000#32⟩ ∧
    toF32 (ascii "3.40282357e38") = .error .runtimeError ∧ toF32 (ascii "3.40282356e38") = .ok ⟨0x7f7fffff#32⟩ := by decide +kernel

theorem nearest_1_2 : Spec.Nearest (6 / 5) ⟨0x3f99999a#32⟩ := by
  have hd : digitsVal ([49] ++ [50]) = 12 := by decide
  obtain ⟨x, h1, h2, -⟩ := (C44_float_read dec_1_2).1 (by rw [hd]; norm_num)
  have h3 : toF32 (ascii "1.2") = .ok ⟨0x3f99999a#32⟩ := by decide +kernel
  rw [h3] at h1
  injection h1 with h1
  rw [← h1, hd] at h2
  norm_num at h2
  exact h2

/-- The value 1.2 given for alpha in the documentation is kept. -/
example : toF32 (F32.text ⟨0x3f99999a#32⟩) = .ok ⟨0x3f99999a#32⟩ :=
  C44_float_exact ⟨12, -1, by omega, by norm_num [abs_of_pos]⟩ (by norm_num [abs_of_pos]) (by norm_num [abs_of_pos]) nearest_1_2

/-- Halves are rounded to the even digit (100000.5 and 100001.5), and 999999.5 gets another digit. -/
example : ([0x47c35040#32, 0x47c350c0#32, 0x497423f8#32] : List (BitVec 32)).map (fun b => F32.text ⟨b⟩) =
    [ascii "100000", ascii "100002", ascii "1e+06"] := by decide +kernel

example : ∃ (t : ℚ) (y : F32), Spec.NearestSix (Spec.value ⟨0x3f800001#32⟩) t ∧ Spec.Nearest t y ∧
    ([(ascii "alpha", .text (F32.text ⟨0x3f800001#32⟩))].foldl Params.set Params.new).get toF32 (ascii "alpha") = .ok y := by
  obtain ⟨t, y, h1, h2, -, -, h3, -⟩ := C44_float_last [(ascii "alpha", .text (F32.text ⟨0x3f800001#32⟩))] (ascii "alpha") ⟨0x3f800001#32⟩ (by rfl)
    (by unfold Spec.Finite; decide) F32.one
  exact ⟨t, y, h1, h2, h3⟩

example : 2 ^ (-125 : Int) ≤ |Spec.value ⟨0x4b800000#32⟩| := by
  rw [abs_value]
  norm_num [Spec.magnitude]

example : ¬ Spec.Finite ⟨0x7f800000#32⟩ := by unfold Spec.Finite; decide

/-! ## The theorems applied to examples -/

example := C44_float_read dec_1_2

/-- A value with more than six digits. -/
example := C44_float_get ⟨0x3f800001#32⟩ (by unfold Spec.Finite; decide)

/-- 16777216 is stored as 1.67772e+07 and read as 16777200. -/
example : toF32 (F32.text ⟨0x4b7ffff0#32⟩) = .ok ⟨0x4b7ffff0#32⟩ :=
  C44_float_again (x := ⟨0x4b800000#32⟩) (by unfold Spec.Finite; decide)
    (by rw [abs_value]; norm_num [Spec.magnitude]) (by decide +kernel)

example : toF32 (F32.text ⟨0x7f800000#32⟩) = .error .runtimeError :=
  C44_float_not_finite _ (by unfold Spec.Finite; decide)

end Grann
