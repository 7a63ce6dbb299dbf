import Verif.Proofs.FloatText
import Verif.Model.CommandLine
/-!
# `atoi` and `atof`
-/

namespace Grann

/-- Rounding to 53 digits is correct. -/
theorem roundBin_nearest {n d : Nat} (hd : 0 < d) : Spec.NearestDouble (fval (n, d)) (fval (roundBin 53 (n, d))) := by
  rcases Nat.eq_zero_or_pos n with rfl | hn
  · have h0 : fval (0, d) = 0 := by simp [fval]
    have h1 : fval (roundBin 53 (0, d)) = 0 := by simp [roundBin, fval]
    rw [h0, h1]
    refine ⟨⟨0, 0, by norm_num, by simp⟩, fun e _ => ⟨by simp, fun hne h => ?_⟩⟩
    simp only [sub_zero, abs_zero] at h
    exact absurd (abs_eq_zero.1 h.symm) hne
  have hb := binExp_le hn hd
  have hb' := binExp_lt hn hd
  have hround : fval (roundBin 53 (n, d)) = divRound (scale 2 n d (-(binExp n d - 52))).1 (scale 2 n d (-(binExp n d - 52))).2 * 2 ^ (binExp n d - 52) := by
    unfold roundBin
    dsimp only
    rw [if_neg (by omega), scale_val]
    simp [fval]
  rw [hround]
  have hs := scale_val n d (-(binExp n d - 52))
  have hp := scale_den_pos (n := n) hd (-(binExp n d - 52))
  generalize scale 2 n d (-(binExp n d - 52)) = r at *
  have hdr := divRound_nearest r.1 r.2 hp
  rw [Prod.mk.eta, hs] at hdr
  have hpq : (0 : ℚ) < r.2 := by exact_mod_cast hp
  obtain ⟨q, hq⟩ : ∃ q, q = binExp n d - 52 := ⟨_, rfl⟩
  rw [← hq] at hs hdr ⊢
  generalize fval (n, d) = t at *
  have hbq : binExp n d = q + 52 := by omega
  rw [hbq] at hb hb'
  have hm1 : 2 ^ 52 ≤ divRound r.1 r.2 := by
    refine divRound_ge hp ?_
    have h1 : (2 ^ 52 : ℚ) ≤ fval r := by
      rw [hs]
      calc (2 ^ 52 : ℚ) = 2 ^ (q + 52) * 2 ^ (-q) := by
            rw [← zpow_add₀ (by norm_num), show q + 52 + -q = ((52 : Nat) : Int) by push_cast; ring, zpow_natCast]
        _ ≤ t * 2 ^ (-q) := by gcongr
    unfold fval at h1
    rw [le_div_iff₀ hpq] at h1
    exact_mod_cast h1
  have hm2 : divRound r.1 r.2 ≤ 2 ^ 53 := by
    refine divRound_le hp ?_
    have h1 : fval r ≤ (2 ^ 53 : ℚ) := by
      rw [hs]
      calc t * 2 ^ (-q) ≤ 2 ^ (q + 52 + 1) * 2 ^ (-q) := by gcongr
        _ = 2 ^ 53 := by
            rw [← zpow_add₀ (by norm_num), show q + 52 + 1 + -q = ((53 : Nat) : Int) by push_cast; ring, zpow_natCast]
    unfold fval at h1
    rw [div_le_iff₀ hpq] at h1
    exact_mod_cast h1
  generalize divRound r.1 r.2 = m at *
  have hq0 : (0 : ℚ) < 2 ^ q := by positivity
  have hunit : ∀ z : ℚ, |z * 2 ^ q - t| = |z - t * 2 ^ (-q)| * 2 ^ q := by
    intro z
    have : z * 2 ^ q - t = (z - t * 2 ^ (-q)) * 2 ^ q := by
      rw [sub_mul, mul_assoc, ← zpow_add₀ (by norm_num)]; simp
    rw [this, abs_mul, abs_of_pos hq0]
  have htie : m % 2 = 0 → ∃ (m' : Nat) (k : Int), m' % 2 = 0 ∧ 2 ^ 52 ≤ m' ∧ m' ≤ 2 ^ 53 ∧ (m : ℚ) * 2 ^ q = m' * 2 ^ k :=
    fun h => ⟨m, q, h, hm1, hm2, rfl⟩
  constructor
  · rcases Nat.lt_or_ge m (2 ^ 53) with h | h
    · exact ⟨m, q, h, rfl⟩
    · refine ⟨2 ^ 52, q + 1, by norm_num, ?_⟩
      have : m = 2 ^ 53 := by omega
      subst this
      rw [zpow_add₀ (by norm_num)]
      push_cast
      ring
  · rintro e ⟨z, k, hz, rfl⟩
    rcases Int.lt_or_le k q with hk | hk
    · -- small numbers are below the power of two
      have h52 := (hdr (2 ^ 52 : Nat)).1
      have hle : |(m : ℚ) * 2 ^ q - t| ≤ |(2 ^ 52 : ℚ) * 2 ^ q - t| := by
        rw [hunit, hunit]
        have : |(m : ℚ) - t * 2 ^ (-q)| ≤ |(2 ^ 52 : ℚ) - t * 2 ^ (-q)| := by push_cast at h52; exact h52
        gcongr
      have hP : (2 ^ 52 : ℚ) * 2 ^ q = 2 ^ (q + 52) := by
        rw [zpow_add₀ (by norm_num), mul_comm]
        norm_cast
      have hzP : (z : ℚ) * 2 ^ k < 2 ^ (q + 52) := by
        have hzq : (z : ℚ) < 2 ^ 53 := by exact_mod_cast hz
        calc (z : ℚ) * 2 ^ k < 2 ^ 53 * 2 ^ k := by gcongr
          _ = 2 ^ (53 + k) := by rw [zpow_add₀ (by norm_num)]; norm_cast
          _ ≤ 2 ^ (q + 52) := zpow_le_zpow_right₀ (by norm_num) (by omega)
      rw [hP] at hle
      generalize (2 : ℚ) ^ (q + 52) = P at *
      rw [abs_of_nonpos (by linarith : P - t ≤ 0)] at hle
      rw [abs_of_nonpos (by linarith : (z : ℚ) * 2 ^ k - t ≤ 0)]
      exact ⟨by linarith, fun _ h => by linarith⟩
    · obtain ⟨j, hj⟩ := Int.eq_ofNat_of_zero_le (by omega : 0 ≤ k - q)
      have hz' : (z : ℚ) * 2 ^ k = ((z * 2 ^ j : Nat) : ℚ) * 2 ^ q := by
        rw [show k = (j : Int) + q by omega, zpow_add₀ (by norm_num), zpow_natCast]
        push_cast
        ring
      obtain ⟨h1, h2⟩ := hdr (z * 2 ^ j : Nat)
      rw [Int.cast_natCast] at h1 h2
      rw [hz', hunit, hunit]
      refine ⟨by gcongr, fun hne heq => htie (h2 ?_ (mul_right_cancel₀ hq0.ne' heq))⟩
      intro h
      apply hne
      have : z * 2 ^ j = m := by exact_mod_cast h
      rw [this]

/-- A nonnegative number of type `double` as `float`. -/
theorem doubleToFloat_nearest (neg : Bool) (x : Nat × Nat) (hx : 0 < x.2) :
    (fval (roundBin 53 x) < 33554431 * 2 ^ (103 : Int) →
      Spec.Nearest ((if neg then -1 else 1) * fval (roundBin 53 x)) (doubleToFloat neg x) ∧
      (2147483648 ≤ (doubleToFloat neg x).bits.toNat ↔ neg = true)) ∧
    (33554431 * 2 ^ (103 : Int) ≤ fval (roundBin 53 x) →
      doubleToFloat neg x = ⟨if neg then 0xff800000#32 else 0x7f800000#32⟩) := by
  have hd := roundBin_den_pos 53 x
  unfold doubleToFloat
  dsimp only
  generalize roundBin 53 x = y at *
  constructor
  · intro h
    obtain ⟨h1, h2, h3⟩ := nearestBits_float neg (n := y.1) hd (by rw [Prod.mk.eta]; exact h)
    rw [Nat.min_eq_left (by omega)]
    exact ⟨h2, h3⟩
  · intro h
    have hn : 0 < y.1 := by
      rcases Nat.eq_zero_or_pos y.1 with h0 | h0
      · unfold fval at h
        rw [h0] at h
        norm_num at h
      · exact h0
    have := nearestBits_ge hn hd (by rw [Prod.mk.eta]; exact h)
    rw [Nat.min_eq_right this]
    cases neg <;> rfl

theorem atofExp_ok {e : Bytes} {k : Int} (h : ExpText e k) : atofExp 101 e = k := by
  cases h with
  | none => rfl
  | exp c s u neg hc hs hu hd =>
    have hl : lower c = 101 := by rcases hc with rfl | rfl <;> decide
    have htw : u.takeWhile isDigit = u := by
      have := (takeWhile_digits (r := []) hd (by simp)).1
      rwa [List.append_nil] at this
    unfold atofExp
    dsimp only
    rw [List.head?_cons, Option.map_some, hl, List.drop_succ_cons, List.drop_zero]
    cases hs with
    | none =>
      obtain ⟨x, v, rfl⟩ : ∃ x v, u = x :: v := by
        cases u with
        | nil => exact absurd rfl hu
        | cons x v => exact ⟨x, v, rfl⟩
      have hx := digit_ne (hd x (by simp))
      have hsg : signOf (x :: v) = [] := by
        unfold signOf
        rw [if_neg]
        simp [hx.1, hx.2.1]
      rw [List.nil_append, hsg, List.length_nil, List.drop_zero, htw, if_pos ⟨rfl, hu⟩, if_neg (by simp), if_neg (by simp)]
    | plus =>
      rw [show signOf ([43] ++ u) = [43] from rfl, show List.drop ([43] : Bytes).length ([43] ++ u) = u from rfl, htw, if_pos ⟨rfl, hu⟩, if_neg (by decide),
        if_neg (by simp)]
    | minus =>
      rw [show signOf ([45] ++ u) = [45] from rfl, show List.drop ([45] : Bytes).length ([45] ++ u) = u from rfl, htw, if_pos ⟨rfl, hu⟩, if_pos rfl, if_pos rfl]

theorem lower_digit {c : UInt8} (h : isDigit c = true) : lower c = c := by
  unfold isDigit at h
  unfold lower
  rw [if_neg]
  simp only [Bool.and_eq_true, decide_eq_true_eq] at h
  rintro ⟨h1, -⟩
  have := UInt8.le_trans h1 h.2
  revert this
  decide

/-- Skipping white space and sign. -/
theorem skip_sign {w s u : Bytes} {neg : Bool} (hw : ∀ c ∈ w, isSpace c = true) (hs : SignText s neg)
    (hu : s = [] → ∀ c, u.head? = some c → c ≠ 43 ∧ c ≠ 45 ∧ isSpace c = false) :
    (w ++ (s ++ u)).dropWhile isSpace = s ++ u ∧ (decide ((s ++ u).head? = some 45)) = neg ∧ (s ++ u).drop (signOf (s ++ u)).length = u := by
  rw [List.dropWhile_append_of_pos hw]
  cases hs with
  | none =>
    have hu := hu rfl
    rw [List.nil_append]
    have h1 : u.head? ≠ some 45 := fun h => (hu _ h).2.1 rfl
    have h2 : u.head? ≠ some 43 := fun h => (hu _ h).1 rfl
    refine ⟨dropWhile_head (fun c hc => (hu c hc).2.2), by simp [h1], ?_⟩
    unfold signOf
    rw [if_neg (by simp [h1, h2])]
    rfl
  | plus => exact ⟨rfl, by simp, rfl⟩
  | minus => exact ⟨rfl, by simp, rfl⟩

/-- The parts of a decimal number behind white space. -/
theorem dec_parts {t w : Bytes} (hw : ∀ c ∈ w, isSpace c = true) {neg : Bool} {a b : Bytes} {k : Int} (h : DecText t neg a b k) :
    ∃ v u r, (w ++ t).dropWhile isSpace = v ∧ decide (v.head? = some 45) = neg ∧ v.drop (signOf v).length = u ∧
      (u.map lower).take 3 ≠ ascii "inf" ∧ (u.map lower).take 3 ≠ ascii "nan" ∧ (u.map lower).take 2 ≠ ascii "0x" ∧
      u.takeWhile isDigit = a ∧ u.dropWhile isDigit = r ∧ (if r.head? = some 46 then (r.drop 1).takeWhile isDigit else []) = b ∧
      atofExp 101 (if r.head? = some 46 then (r.drop 1).dropWhile isDigit else r) = k ∧ (a.isEmpty && b.isEmpty) = false := by
  obtain ⟨⟨s, f, e, rfl, hs, hf, he⟩, ha, hne⟩ := h
  have hfe : ∀ c, (f ++ e).head? = some c → isDigit c = false ∧ (c = 46 ∨ c = 101 ∨ c = 69) := by
    intro c hc
    cases hf with
    | none =>
      rw [List.nil_append] at hc
      refine ⟨(expText_head he c hc).1, ?_⟩
      cases he with
      | none => cases hc
      | exp c' s u neg hc' _ _ _ => cases hc; exact .inr hc'
    | point b hb => cases hc; exact ⟨by decide, .inl rfl⟩
  have hfirst : ∀ c, (a ++ (f ++ e)).head? = some c → isDigit c = true ∨ c = 46 := by
    intro c hc
    cases a with
    | cons x a =>
      cases hc
      exact .inl (ha _ (List.mem_cons_self ..))
    | nil =>
      cases hf with
      | none => simp at hne
      | point b hb => cases hc; exact .inr rfl
  obtain ⟨e1, e2, e3⟩ := skip_sign (u := a ++ (f ++ e)) hw hs (fun _ c hc => by
    rcases hfirst c hc with h | rfl
    · have := digit_ne h
      exact ⟨this.1, this.2.1, this.2.2.2.2.2⟩
    · decide)
  have hhead : ∀ c, ((a ++ (f ++ e)).map lower).head? = some c → isDigit c = true ∨ c = 46 := by
    intro c hc
    rw [List.head?_map, Option.map_eq_some_iff] at hc
    obtain ⟨d, hd, rfl⟩ := hc
    rcases hfirst d hd with h | rfl
    · rw [lower_digit h]; exact .inl h
    · exact .inr (by decide)
  have hword : ∀ (x : UInt8) (y : Bytes) (i : Nat), isDigit x = false ∧ x ≠ 46 → ((a ++ (f ++ e)).map lower).take (i + 1) ≠ x :: y := by
    intro x y i hx hc
    have : ((a ++ (f ++ e)).map lower).head? = some x := by
      have := congrArg List.head? hc
      rwa [List.head?_take, if_neg (by omega), List.head?_cons] at this
    rcases hhead _ this with h | h
    · rw [hx.1] at h; cases h
    · exact hx.2 h
  have hhex : ((a ++ (f ++ e)).map lower).take 2 ≠ ascii "0x" := by
    intro hc
    have hc : ((a ++ (f ++ e)).map lower).take 2 = [48, 120] := hc
    have h1 : ((a ++ (f ++ e)).map lower)[1]? = some 120 := by
      have := congrArg (fun l => l[1]?) hc
      simp only [List.getElem?_take] at this
      simpa using this
    have h0 : ((a ++ (f ++ e)).map lower).head? = some 48 := by
      have := congrArg List.head? hc
      rwa [List.head?_take, if_neg (by omega), List.head?_cons] at this
    rw [List.getElem?_map, Option.map_eq_some_iff] at h1
    obtain ⟨c, hc1, hc2⟩ := h1
    rcases a with _ | ⟨x, _ | ⟨y, a⟩⟩
    · cases hf with
      | none => simp at hne
      | point b hb =>
        rw [List.nil_append, List.cons_append, List.map_cons, List.head?_cons] at h0
        revert h0; decide
    · have : (f ++ e).head? = some c := by
        rw [List.head?_eq_getElem?]
        simpa using hc1
      rcases (hfe c this).2 with rfl | rfl | rfl <;> (revert hc2; decide)
    · have hcy : c = y := by simpa using hc1.symm
      subst hcy
      have hd := ha c (by simp)
      rw [lower_digit hd] at hc2
      subst hc2
      revert hd; decide
  have hinf : ((a ++ (f ++ e)).map lower).take 3 ≠ ascii "inf" := hword 105 [110, 102] 2 (by decide)
  have hnan : ((a ++ (f ++ e)).map lower).take 3 ≠ ascii "nan" := hword 110 [97, 110] 2 (by decide)
  have hfe' := fun c hc => (hfe c hc).1
  have hcond : (a.isEmpty && b.isEmpty) = false := by
    rcases hne with h | h
    · cases a with
      | nil => exact absurd rfl h
      | cons => rfl
    · cases b with
      | nil => exact absurd rfl h
      | cons => simp
  have hb : (if (f ++ e).head? = some 46 then ((f ++ e).drop 1).takeWhile isDigit else []) = b ∧
      (if (f ++ e).head? = some 46 then ((f ++ e).drop 1).dropWhile isDigit else f ++ e) = e := by
    have hed := fun c hc => (expText_head he c hc).1
    cases hf with
    | none =>
      rw [List.nil_append]
      have : e.head? ≠ some 46 := fun h => (expText_head he _ h).2 rfl
      rw [if_neg this, if_neg this]
      exact ⟨rfl, rfl⟩
    | point b hbd =>
      rw [List.cons_append, List.head?_cons, if_pos rfl, if_pos rfl, List.drop_succ_cons, List.drop_zero]
      exact takeWhile_digits hbd hed
  exact ⟨_, _, _, e1, e2, e3, hinf, hnan, hhex, (takeWhile_digits ha hfe').1, (takeWhile_digits ha hfe').2, hb.1, by rw [hb.2]; exact atofExp_ok he, hcond⟩

/-- `atof` of a decimal number behind white space. -/
theorem atof_dec {t w : Bytes} (hw : ∀ c ∈ w, isSpace c = true) {neg : Bool} {a b : Bytes} {k : Int} (h : DecText t neg a b k) :
    atof (w ++ t) = doubleToFloat neg (scale 10 (digitsVal (a ++ b)) 1 (k - b.length)) := by
  obtain ⟨v, u, r, e1, e2, e3, hinf, hnan, hhex, h1, h2, h3, h4, h5⟩ := dec_parts hw h
  unfold atof
  dsimp only
  rw [e1, e3, e2, if_neg hinf, if_neg hnan, if_neg hhex]
  unfold atofDec
  dsimp only
  rw [h1, h2, h3, h4, h5, if_neg (by simp)]

/-- `atoi` of a number behind white space. -/
theorem atoi_eq {w s ds rest : Bytes} {neg : Bool} (hw : ∀ c ∈ w, isSpace c = true) (hs : SignText s neg) (hd : Digits ds)
    (hr : ∀ c, rest.head? = some c → isDigit c = false)
    (hn : s = [] → ds = [] → ∀ c, rest.head? = some c → c ≠ 43 ∧ c ≠ 45 ∧ isSpace c = false) :
    atoi (w ++ (s ++ (ds ++ rest))) = (if -2147483648 ≤ (if neg then -(digitsVal ds : Int) else digitsVal ds) ∧
      (if neg then -(digitsVal ds : Int) else digitsVal ds) ≤ 2147483647 then .ok (if neg then -(digitsVal ds : Int) else digitsVal ds) else .error .ub) := by
  obtain ⟨e1, e2, e3⟩ := skip_sign (u := ds ++ rest) hw hs (by
    intro h c hc
    cases ds with
    | nil => exact hn h rfl c hc
    | cons x ds =>
      cases hc
      have := digit_ne (hd c (by simp))
      exact ⟨this.1, this.2.1, this.2.2.2.2.2⟩)
  unfold atoi
  dsimp only
  rw [e1, e3, (takeWhile_digits hd hr).1]
  have : (if (s ++ (ds ++ rest)).head? = some 45 then -(digitsVal ds : Int) else digitsVal ds) = if neg then -(digitsVal ds : Int) else digitsVal ds := by
    rw [← e2]
    by_cases h : (s ++ (ds ++ rest)).head? = some 45 <;> simp [h]
  rw [this]

end Grann
