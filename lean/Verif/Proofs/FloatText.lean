import Verif.Proofs.FloatRound
import Verif.Props.LabelFile
/-!
# Texts of floats
-/

namespace Grann

/-- Digits only. -/
def Digits (l : Bytes) : Prop := ∀ c ∈ l, isDigit c = true

theorem digitsVal_foldl (l : Bytes) (x : Nat) :
    l.foldl (fun a c => 10 * a + (c.toNat - 48)) x = x * 10 ^ l.length + digitsVal l := by
  induction l generalizing x with
  | nil => simp [digitsVal]
  | cons c l ih =>
    unfold digitsVal
    rw [List.foldl_cons, List.foldl_cons, ih, ih (10 * 0 + _), List.length_cons, Nat.pow_succ]
    ring

theorem digitsVal_append (a b : Bytes) : digitsVal (a ++ b) = digitsVal a * 10 ^ b.length + digitsVal b := by
  unfold digitsVal
  rw [List.foldl_append, digitsVal_foldl]
  rfl

theorem digitsVal_zeros (k : Nat) : digitsVal (List.replicate k 48) = 0 := by
  induction k with
  | zero => rfl
  | succ k ih =>
    rw [List.replicate_succ, show (48 : UInt8) :: List.replicate k 48 = [48] ++ List.replicate k 48 from rfl, digitsVal_append, ih]
    simp [digitsVal]

/-- The sign of a number. -/
inductive SignText : Bytes → Bool → Prop
  | none : SignText [] false
  | plus : SignText [43] false
  | minus : SignText [45] true

/-- The fractional part: nothing, or a point and digits. -/
inductive FracText : Bytes → Bytes → Prop
  | none : FracText [] []
  | point (b : Bytes) : Digits b → FracText (46 :: b) b

/-- The exponent: nothing, or a letter, a sign and digits. -/
inductive ExpText : Bytes → Int → Prop
  | none : ExpText [] 0
  | exp (c : UInt8) (s u : Bytes) (neg : Bool) : c = 101 ∨ c = 69 → SignText s neg → u ≠ [] → Digits u →
      ExpText (c :: (s ++ u)) (if neg then -(digitsVal u : Int) else digitsVal u)

/-- A decimal number in text: sign, digits, fractional part and exponent. -/
structure DecText (t : Bytes) (neg : Bool) (a b : Bytes) (k : Int) : Prop where
  parts : ∃ s f e, t = s ++ (a ++ (f ++ e)) ∧ SignText s neg ∧ FracText f b ∧ ExpText e k
  digits : Digits a
  some : a ≠ [] ∨ b ≠ []

theorem digit_ne {c : UInt8} (h : isDigit c = true) : c ≠ 43 ∧ c ≠ 45 ∧ c ≠ 46 ∧ c ≠ 101 ∧ c ≠ 69 ∧ isSpace c = false := by
  have := isDigit_not h
  refine ⟨this.2.1, this.2.2.1, ?_, ?_, ?_, this.1⟩ <;> (rintro rfl; revert h; decide)

theorem dropWhile_head {p : UInt8 → Bool} {l : Bytes} (h : ∀ c, l.head? = some c → p c = false) : l.dropWhile p = l := by
  cases l with
  | nil => rfl
  | cons c l => rw [List.dropWhile_cons, h c rfl]; rfl

theorem takeWhile_head {p : UInt8 → Bool} {l : Bytes} (h : ∀ c, l.head? = some c → p c = false) : l.takeWhile p = [] := by
  cases l with
  | nil => rfl
  | cons c l => rw [List.takeWhile_cons, h c rfl]; rfl

theorem takeWhile_digits {a r : Bytes} (ha : Digits a) (hr : ∀ c, r.head? = some c → isDigit c = false) :
    (a ++ r).takeWhile isDigit = a ∧ (a ++ r).dropWhile isDigit = r := by
  rw [List.takeWhile_append_of_pos ha, List.dropWhile_append_of_pos ha, takeWhile_head hr, dropWhile_head hr, List.append_nil]
  exact ⟨rfl, rfl⟩

theorem expPart_ok {e : Bytes} {k : Int} (h : ExpText e k) : expPart e = some k := by
  cases h with
  | none => rfl
  | exp c s u neg hc hs hu hd =>
    have hu' : u.isEmpty = false := by cases u with
      | nil => exact absurd rfl hu
      | cons => rfl
    have hall : u.all isDigit = true := List.all_eq_true.2 hd
    have hc' : decide (c ≠ 101 ∧ c ≠ 69) = false := by
      rcases hc with rfl | rfl <;> decide
    unfold expPart
    dsimp only
    cases hs with
    | none =>
      obtain ⟨x, v, rfl⟩ : ∃ x v, u = x :: v := by
        cases u with
        | nil => exact absurd rfl hu
        | cons x v => exact ⟨x, v, rfl⟩
      have hx := digit_ne (hd x (by simp))
      have h1 : ¬ (some x = some (43 : UInt8) ∨ some x = some (45 : UInt8)) := by simp [hx.1, hx.2.1]
      have h2 : ¬ some x = some (45 : UInt8) := by simp [hx.2.1]
      rw [List.nil_append, List.head?_cons, if_neg h1, hc', hu', hall, if_neg (by simp), if_neg h2, if_neg (by simp)]
    | plus =>
      rw [List.cons_append, List.nil_append, List.head?_cons, if_pos (Or.inl rfl), List.drop_succ_cons, List.drop_zero, hc', hu', hall, if_neg (by simp),
        if_neg (by decide), if_neg (by simp)]
    | minus =>
      rw [List.cons_append, List.nil_append, List.head?_cons, if_pos (Or.inr rfl), List.drop_succ_cons, List.drop_zero, hc', hu', hall, if_neg (by simp),
        if_pos rfl, if_pos rfl]

/-- What `toF32` makes of a decimal number. -/
def roundDec (neg : Bool) (n : Nat) (k : Int) : Except PErr F32 :=
  if 2139095040 ≤ nearestBits (scale 10 n 1 k).1 (scale 10 n 1 k).2 then .error .runtimeError
  else .ok ⟨BitVec.ofNat 32 (nearestBits (scale 10 n 1 k).1 (scale 10 n 1 k).2 + if neg then 2147483648 else 0)⟩

theorem expText_head {e : Bytes} {k : Int} (h : ExpText e k) : ∀ c, e.head? = some c → isDigit c = false ∧ c ≠ 46 := by
  intro c hc
  cases h with
  | none => cases hc
  | exp c' s u neg hc' _ _ _ =>
    cases hc
    rcases hc' with rfl | rfl <;> decide

/-- Reading a decimal number. -/
theorem toF32_dec {t : Bytes} {neg : Bool} {a b : Bytes} {k : Int} (h : DecText t neg a b k) :
    toF32 t = roundDec neg (digitsVal (a ++ b)) (k - b.length) := by
  obtain ⟨⟨s, f, e, rfl, hs, hf, he⟩, ha, hne⟩ := h
  have hfe : ∀ c, (f ++ e).head? = some c → isDigit c = false := by
    intro c hc
    cases hf with
    | none => exact (expText_head he c (by simpa using hc)).1
    | point b hb => cases hc; decide
  have hfirst : ∀ c, (a ++ (f ++ e)).head? = some c → c ≠ 43 ∧ c ≠ 45 ∧ isSpace c = false := by
    intro c hc
    cases a with
    | cons x a =>
      cases hc
      have := digit_ne (ha _ (List.mem_cons_self ..))
      exact ⟨this.1, this.2.1, this.2.2.2.2.2⟩
    | nil =>
      cases hf with
      | none => simp at hne
      | point b hb => cases hc; decide
  -- after the sign
  have hu : ∃ t', (s ++ (a ++ (f ++ e))).dropWhile isSpace = t' ∧ (t'.head? = some 45 ↔ neg = true) ∧
      (if t'.head? = some 43 ∨ t'.head? = some 45 then t'.drop 1 else t') = a ++ (f ++ e) := by
    refine ⟨s ++ (a ++ (f ++ e)), ?_⟩
    cases hs with
    | none =>
      rw [List.nil_append]
      refine ⟨dropWhile_head (fun c hc => (hfirst c hc).2.2), ?_, ?_⟩
      · constructor
        · intro h; exact absurd rfl (hfirst _ h).2.1
        · intro h; cases h
      · rw [if_neg]
        rintro (h | h)
        · exact (hfirst _ h).1 rfl
        · exact (hfirst _ h).2.1 rfl
    | plus => exact ⟨rfl, by simp, by simp⟩
    | minus => exact ⟨rfl, by simp, by simp⟩
  obtain ⟨t', e1, e2, e3⟩ := hu
  unfold toF32 roundDec
  dsimp only
  rw [e1, e3, (takeWhile_digits ha hfe).1, (takeWhile_digits ha hfe).2]
  have hcond : (a.isEmpty && b.isEmpty) = false := by
    rcases hne with h | h
    · cases a with
      | nil => exact absurd rfl h
      | cons => rfl
    · cases b with
      | nil => exact absurd rfl h
      | cons => simp
  have hneg : (if t'.head? = some 45 then 2147483648 else 0) = (if neg = true then 2147483648 else 0) := if_congr e2 rfl rfl
  have hb : (if (f ++ e).head? = some 46 then ((f ++ e).drop 1).takeWhile isDigit else []) = b ∧
      (if (f ++ e).head? = some 46 then ((f ++ e).drop 1).dropWhile isDigit else f ++ e) = e := by
    have hed := fun c hc => (expText_head he c hc).1
    cases hf with
    | none =>
      rw [List.nil_append]
      have : e.head? ≠ some 46 := fun h => (expText_head he _ h).2 rfl
      rw [if_neg this, if_neg this]
      exact ⟨rfl, rfl⟩
    | point b hbd =>
      rw [List.cons_append, List.head?_cons, if_pos rfl, if_pos rfl, List.drop_succ_cons, List.drop_zero]
      exact takeWhile_digits hbd hed
  rw [hb.1, hb.2, hcond, if_neg (by simp), expPart_ok he]
  dsimp only
  rw [hneg]

theorem scale10_val (n d : Nat) (k : Int) : fval (scale 10 n d k) = fval (n, d) * (10 : ℚ) ^ k := by
  unfold scale fval
  split
  · rename_i h
    obtain ⟨m, rfl⟩ := Int.eq_ofNat_of_zero_le h
    simp only [Int.toNat_natCast, zpow_natCast, Nat.cast_mul, Nat.cast_pow, Nat.cast_ofNat]
    ring
  · rename_i h
    obtain ⟨m, hm⟩ := Int.eq_ofNat_of_zero_le (by omega : 0 ≤ -k)
    have hk : k = -(m : Int) := by omega
    subst hk
    simp only [neg_neg, Int.toNat_natCast, zpow_neg, zpow_natCast, Nat.cast_mul, Nat.cast_pow, Nat.cast_ofNat]
    field_simp

theorem scale10_den_pos {n d : Nat} (hd : 0 < d) (k : Int) : 0 < (scale 10 n d k).2 := by
  unfold scale
  split
  · exact hd
  · positivity

theorem scale10_num_pos {n d : Nat} (hn : 0 < n) (k : Int) : 0 < (scale 10 n d k).1 := by
  unfold scale
  split
  · show 0 < n * 10 ^ k.toNat; positivity
  · exact hn

theorem scale10_int (n : Nat) (k : Int) : fval (scale 10 n 1 k) = n * (10 : ℚ) ^ k := by
  rw [scale10_val]; simp [fval]

/-- Above the largest float by half a unit or more there is no float. -/
theorem nearestBits_ge {n d : Nat} (hn : 0 < n) (hd : 0 < d) (h : 33554431 * 2 ^ (103 : Int) ≤ fval (n, d)) : 2139095040 ≤ nearestBits n d := by
  have hge := ulps_ge hn hd
  have he : 127 ≤ binExp n d := by
    have h1 : (2 : ℚ) ^ (127 : Int) < 2 ^ (binExp n d + 1) := by
      refine lt_of_lt_of_le ?_ (le_trans h (binExp_lt hn hd).le)
      norm_num
    have := two_zpow_lt h1
    omega
  have hu : ulpExp n d = binExp n d - 23 := by unfold ulpExp; omega
  rw [nearestBits_eq hn]
  have hge := hge (by omega)
  rcases Int.lt_or_le 127 (binExp n d) with h1 | h1
  · omega
  · have hu : ulpExp n d = 104 := by omega
    have hs := ulps_scaled (n := n) (d := d)
    have hp := scale_den_pos (n := n) hd (-ulpExp n d)
    have hdr := divRound_nearest (scale 2 n d (-ulpExp n d)).1 (scale 2 n d (-ulpExp n d)).2 hp 16777216
    rw [Prod.mk.eta, hs, show divRound (scale 2 n d (-ulpExp n d)).1 (scale 2 n d (-ulpExp n d)).2 = ulps n d from rfl, hu] at hdr
    have h2 : 16777216 - 1 / 2 ≤ fval (n, d) * 2 ^ (-104 : Int) := by
      calc (16777216 : ℚ) - 1 / 2 = 33554431 * 2 ^ (103 : Int) * 2 ^ (-104 : Int) := by norm_num
        _ ≤ _ := by gcongr
    have h3 : ulps n d = 16777216 := by
      have hle := ulps_le hn hd
      by_contra hne
      have hlt : ulps n d ≤ 16777215 := by omega
      have hltq : (ulps n d : ℚ) ≤ 16777215 := by exact_mod_cast hlt
      have hlt2 : fval (n, d) * 2 ^ (-104 : Int) < 16777216 := by
        have := binExp_lt hn hd
        rw [show binExp n d = 127 by omega] at this
        calc fval (n, d) * 2 ^ (-104 : Int) < 2 ^ (127 + 1 : Int) * 2 ^ (-104 : Int) := by gcongr
          _ = 16777216 := by norm_num
      generalize fval (n, d) * 2 ^ (-104 : Int) = y at *
      obtain ⟨d1, d2⟩ := hdr
      have a1 : |(ulps n d : ℚ) - y| = y - ulps n d := by rw [abs_of_nonpos (by linarith)]; ring
      have a2 : |((16777216 : Int) : ℚ) - y| = 16777216 - y := by
        rw [abs_of_nonneg (by push_cast; linarith)]; push_cast; rfl
      rw [a1, a2] at d1 d2
      have : (ulps n d : ℚ) = 16777215 := by linarith
      have hv : ulps n d = 16777215 := by exact_mod_cast this
      have := d2 (by omega) (by linarith)
      omega
    omega

/-- The value of a float given by magnitude and sign. -/
theorem value_ofNat {m : Nat} (hm : m < 2139095040) (neg : Bool) :
    Spec.value ⟨BitVec.ofNat 32 (m + if neg then 2147483648 else 0)⟩ = (if neg then -1 else 1) * Spec.magnitude m ∧
      Spec.Finite ⟨BitVec.ofNat 32 (m + if neg then 2147483648 else 0)⟩ ∧
      (BitVec.ofNat 32 (m + if neg then 2147483648 else 0)).toNat % 2 = m % 2 := by
  unfold Spec.value Spec.Finite
  dsimp only
  rw [BitVec.toNat_ofNat]
  cases neg
  · rw [if_neg Bool.false_ne_true, if_neg Bool.false_ne_true, Nat.add_zero, Nat.mod_eq_of_lt (by omega), if_pos (by omega)]
    exact ⟨(one_mul _).symm, by omega, rfl⟩
  · rw [if_pos rfl, Nat.mod_eq_of_lt (by omega), if_neg (by omega), if_pos rfl, Nat.add_sub_cancel]
    exact ⟨by ring, by omega, by omega⟩

theorem value_neg (y : F32) : ∃ y', Spec.value y' = -Spec.value y ∧ (Spec.Finite y → Spec.Finite y') := by
  have hlt := y.bits.isLt
  by_cases h : y.bits.toNat < 2147483648
  · refine ⟨⟨BitVec.ofNat 32 (y.bits.toNat + 2147483648)⟩, ?_⟩
    unfold Spec.value Spec.Finite
    dsimp only
    rw [BitVec.toNat_ofNat, Nat.mod_eq_of_lt (by omega), if_neg (by omega), if_pos h, Nat.add_sub_cancel]
    exact ⟨rfl, fun h => by omega⟩
  · refine ⟨⟨BitVec.ofNat 32 (y.bits.toNat - 2147483648)⟩, ?_⟩
    unfold Spec.value Spec.Finite
    dsimp only
    rw [BitVec.toNat_ofNat, Nat.mod_eq_of_lt (by omega), if_pos (by omega), if_neg h]
    exact ⟨by ring, fun h => by omega⟩

/-- Rounding fractions is correct. -/
theorem nearestBits_float (neg : Bool) {n d : Nat} (hd : 0 < d) (h : fval (n, d) < 33554431 * 2 ^ (103 : Int)) :
    nearestBits n d < 2139095040 ∧
      Spec.Nearest ((if neg then -1 else 1) * fval (n, d)) ⟨BitVec.ofNat 32 (nearestBits n d + if neg then 2147483648 else 0)⟩ ∧
      (2147483648 ≤ (BitVec.ofNat 32 (nearestBits n d + if neg then 2147483648 else 0)).toNat ↔ neg = true) := by
  have key : ∃ m, nearestBits n d = m ∧ m < 2139095040 ∧ ∀ y,
      |Spec.magnitude m - fval (n, d)| ≤ |Spec.value y - fval (n, d)| ∧
      (Spec.value y ≠ Spec.magnitude m → |Spec.magnitude m - fval (n, d)| = |Spec.value y - fval (n, d)| → m % 2 = 0) := by
    refine ⟨_, rfl, ?_⟩
    rcases Nat.eq_zero_or_pos n with rfl | hn
    · have hv : fval (0, d) = 0 := by simp [fval]
      rw [hv, show nearestBits 0 d = 0 from rfl]
      refine ⟨by decide, fun y => ?_⟩
      rw [show Spec.magnitude 0 = 0 by unfold Spec.magnitude; simp]
      exact ⟨by simp, fun _ _ => rfl⟩
    · exact ⟨nearestBits_lt hn hd h, fun y => nearestBits_nearest hn hd y⟩
  obtain ⟨m, hm, hlt, hy⟩ := key
  generalize fval (n, d) = t at *
  rw [hm]
  obtain ⟨v1, v2, v3⟩ := value_ofNat hlt neg
  refine ⟨hlt, ⟨v2, fun y _ => ?_⟩, ?_⟩
  · rw [v1, v3]
    cases neg
    · simpa using hy y
    · obtain ⟨y', h1, -⟩ := value_neg y
      have := hy y'
      rw [h1] at this
      have e1 : ∀ a : ℚ, |-a - t| = |a - -t| := fun a => by rw [← abs_neg]; ring_nf
      rw [e1] at this
      have e2 : |-1 * Spec.magnitude m - -1 * t| = |Spec.magnitude m - t| := by rw [← abs_neg]; ring_nf
      simp only [if_true]
      rw [e2, show (-1 : ℚ) * t = -t by ring]
      refine ⟨this.1, fun hne => this.2 (fun h => hne ?_)⟩
      linarith
  · rw [BitVec.toNat_ofNat]
    cases neg
    · simp; omega
    · simp; omega

/-- Rounding decimal numbers is correct. -/
theorem roundDec_nearest (neg : Bool) (n : Nat) (k : Int) (h : (n : ℚ) * 10 ^ k < 33554431 * 2 ^ (103 : Int)) :
    ∃ x, roundDec neg n k = .ok x ∧ Spec.Nearest ((if neg then -1 else 1) * (n * 10 ^ k)) x ∧ (2147483648 ≤ x.bits.toNat ↔ neg = true) := by
  unfold roundDec
  have hd := scale10_den_pos (n := n) one_pos k
  rw [← scale10_int] at h ⊢
  obtain ⟨h1, h2, h3⟩ := nearestBits_float neg hd (n := (scale 10 n 1 k).1) (by rw [Prod.mk.eta]; exact h)
  rw [if_neg (by omega)]
  exact ⟨_, rfl, h2, h3⟩

/-- Decimal numbers that are too large are rejected. -/
theorem roundDec_large (neg : Bool) (n : Nat) (k : Int) (h : 33554431 * 2 ^ (103 : Int) ≤ (n : ℚ) * 10 ^ k) : roundDec neg n k = .error .runtimeError := by
  have hn : 0 < n := by
    rcases Nat.eq_zero_or_pos n with rfl | hn
    · norm_num at h
    · exact hn
  unfold roundDec
  rw [← scale10_int] at h
  rw [if_pos (nearestBits_ge (scale10_num_pos hn k) (scale10_den_pos one_pos k) (by rw [Prod.mk.eta]; exact h))]

/-- Decimal numbers of the same value are read alike. -/
theorem roundDec_congr (neg : Bool) {n n' : Nat} {k k' : Int} (hn : 0 < n) (hn' : 0 < n') (h : (n : ℚ) * 10 ^ k = n' * 10 ^ k') :
    roundDec neg n k = roundDec neg n' k' := by
  unfold roundDec
  rw [nearestBits_congr (scale10_num_pos hn k) (scale10_den_pos one_pos k) (scale10_num_pos hn' k') (scale10_den_pos one_pos k')
    (by rw [Prod.mk.eta, Prod.mk.eta, scale10_int, scale10_int, h])]

end Grann
