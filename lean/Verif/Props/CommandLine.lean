import Verif.Model.CommandLine
import Verif.Spec.CommandLine
import Verif.Proofs.Atof
import Verif.Props.FloatText
import Verif.Props.Params
/-!
# C83: the programs do what the command line says
-/

namespace Grann

/-! ## Numbers -/

theorem numText_exists (t : Bytes) : ∃ v, Spec.NumText t v := by
  obtain ⟨u, hu⟩ : ∃ u, u = t.dropWhile isSpace := ⟨_, rfl⟩
  have hhead : ∀ c, u.head? = some c → isSpace c = false := by
    intro c hc
    rw [hu] at hc
    have := List.head?_dropWhile_not isSpace t
    rw [hc] at this
    simpa using this
  obtain ⟨s, neg, u', e, hs, hs'⟩ : ∃ s neg u', u = s ++ u' ∧ SignText s neg ∧ (s = [] → ∀ c, u'.head? = some c → c ≠ 43 ∧ c ≠ 45) := by
    cases u with
    | nil => exact ⟨[], false, [], rfl, .none, by simp⟩
    | cons c u =>
      by_cases h1 : c = 43
      · exact ⟨[43], false, u, by rw [h1]; rfl, .plus, by simp⟩
      by_cases h2 : c = 45
      · exact ⟨[45], true, u, by rw [h2]; rfl, .minus, by simp⟩
      · exact ⟨[], false, c :: u, rfl, .none, by rintro - d hd; cases hd; exact ⟨h1, h2⟩⟩
  refine ⟨_, t.takeWhile isSpace, s, u'.takeWhile isDigit, u'.dropWhile isDigit, neg, ?_, ?_, hs, ?_, ?_, ?_, rfl⟩
  · rw [List.takeWhile_append_dropWhile, ← e, hu, List.takeWhile_append_dropWhile]
  · exact fun c hc => List.mem_takeWhile_imp hc
  · exact fun c hc => List.mem_takeWhile_imp hc
  · intro c hc
    have := List.head?_dropWhile_not isDigit u'
    rw [hc] at this
    simpa using this
  · intro h1 h2 c hc
    have hu' : u'.dropWhile isDigit = u' := by
      have := List.takeWhile_append_dropWhile (p := isDigit) (l := u')
      rwa [h2, List.nil_append] at this
    rw [hu'] at hc
    refine ⟨(hs' h1 c hc).1, (hs' h1 c hc).2, hhead c ?_⟩
    rw [e, h1, List.nil_append, hc]

theorem atoi_num {t : Bytes} {v : Int} (h : Spec.NumText t v) : atoi t = if -2147483648 ≤ v ∧ v ≤ 2147483647 then .ok v else .error .ub := by
  obtain ⟨w, s, ds, rest, neg, rfl, hw, hs, hd, hr, hn, rfl⟩ := h
  rw [atoi_eq hw hs hd hr hn]
  cases neg
  · simp
  · simp

theorem isInt_iff {v : Int} : Spec.IsInt v ↔ -2147483648 ≤ v ∧ v ≤ 2147483647 := by
  unfold Spec.IsInt
  norm_num
  omega

/-- **C83 (numbers).** Every text has exactly one number at its beginning, and `atoi` gives it if it fits into an `int`. -/
theorem C83_atoi (t : Bytes) : ∃ v, Spec.NumText t v ∧ (∀ v', Spec.NumText t v' → v' = v) ∧
    (Spec.IsInt v → atoi t = .ok v) ∧ (¬ Spec.IsInt v → atoi t = .error .ub) := by
  obtain ⟨v, hv⟩ := numText_exists t
  have e := atoi_num hv
  have hu : ∀ v', Spec.NumText t v' → v' = v := by
    rintro v' ⟨w', s', ds', rest', neg', rfl, hw', hs', hd', hr', hn', rfl⟩
    obtain ⟨w, s, ds, rest, neg, he, hw, hs, hd, hr, hn, rfl⟩ := hv
    obtain ⟨a1, a2, a3⟩ := skip_sign (u := ds' ++ rest') hw' hs' (by
      intro h c hc
      cases hds : ds' with
      | nil =>
        rw [hds] at hc
        exact hn' h hds c hc
      | cons x l =>
        rw [hds] at hc
        cases hc
        have := digit_ne (hd' c (by rw [hds]; simp))
        exact ⟨this.1, this.2.1, this.2.2.2.2.2⟩)
    obtain ⟨b1, b2, b3⟩ := skip_sign (u := ds ++ rest) hw hs (by
      intro h c hc
      cases hds : ds with
      | nil =>
        rw [hds] at hc
        exact hn h hds c hc
      | cons x l =>
        rw [hds] at hc
        cases hc
        have := digit_ne (hd c (by rw [hds]; simp))
        exact ⟨this.1, this.2.1, this.2.2.2.2.2⟩)
    rw [he, b1] at a1
    rw [← a1] at a2 a3
    rw [b3] at a3
    rw [b2] at a2
    have hds : ds = ds' := by
      rw [← (takeWhile_digits hd hr).1, ← (takeWhile_digits hd' hr').1, a3]
    rw [a2, hds]
  refine ⟨v, hv, hu, fun h => ?_, fun h => ?_⟩
  · rw [e, if_pos (isInt_iff.1 h)]
  · rw [e, if_neg (mt isInt_iff.2 h)]

theorem atoi_ok_iff {t : Bytes} {v : Int} : atoi t = .ok v ↔ Spec.NumText t v ∧ Spec.IsInt v := by
  obtain ⟨x, h1, h2, h3, h4⟩ := C83_atoi t
  constructor
  · intro h
    by_cases hx : Spec.IsInt x
    · rw [h3 hx] at h
      injection h with h
      subst h
      exact ⟨h1, hx⟩
    · rw [h4 hx] at h
      cases h
  · rintro ⟨h5, h6⟩
    have := h2 v h5
    subst this
    exact h3 h6

theorem atoi_err {t : Bytes} {e : Err} (h : atoi t = .error e) : e = .ub := by
  obtain ⟨x, h1, h2, h3, h4⟩ := C83_atoi t
  by_cases hx : Spec.IsInt x
  · rw [h3 hx] at h
    cases h
  · rw [h4 hx] at h
    cases h
    rfl

theorem wrap32_eq {v : Int} (h : Spec.IsInt v) : (wrap32 v : Int) = Spec.unsigned 32 v := by
  rw [isInt_iff] at h
  unfold wrap32 Spec.unsigned
  split <;> omega

theorem wrap64_eq {v : Int} (h : Spec.IsInt v) : (wrap64 v : Int) = Spec.unsigned 64 v := by
  rw [isInt_iff] at h
  unfold wrap64 Spec.unsigned
  split <;> omega

/-- A number written in decimal is that number, with or without a minus. -/
theorem C83_decimal (n : Nat) (hn : n < 10 ^ 20) :
    Spec.NumText (decimal 20 n) n ∧ Spec.NumText (45 :: decimal 20 n) (-n) := by
  obtain ⟨h1, h2, h3⟩ := decimal_digits 20 n hn (by omega)
  have hv : digitsVal (decimal 20 n) = n := h3
  constructor
  · refine ⟨[], [], decimal 20 n, [], false, by simp, by simp, .none, h1, by simp, by simp, ?_⟩
    rw [hv]
    simp
  · refine ⟨[], [45], decimal 20 n, [], true, by simp, by simp, .minus, h1, by simp, by simp, ?_⟩
    rw [hv]
    simp

example : Spec.NumText (ascii " -12 clusters") (-12) ∧ Spec.NumText (ascii "x12") 0 ∧ atoi (ascii "2147483647") = .ok 2147483647 ∧
    atoi (ascii "2147483648") = .error .ub ∧ atoi (ascii "- 5") = .ok 0 ∧ atoi [] = .ok 0 ∧ wrap32 (-1) = 4294967295 :=
  ⟨(atoi_ok_iff.1 (by decide +kernel)).1, (atoi_ok_iff.1 (by decide +kernel)).1, by decide +kernel, by decide +kernel, by decide +kernel,
    by decide +kernel, by decide +kernel⟩

/-! ## Floats -/

/-- **C83 (floats).** A decimal number on the command line is first rounded to 53 binary digits, then to a float, each time correctly; too large numbers
become infinite. -/
theorem C83_atof {w t : Bytes} (hw : ∀ c ∈ w, isSpace c = true) {neg : Bool} {a b : Bytes} {k : Int} (h : DecText t neg a b k) :
    ∃ d, Spec.NearestDouble (digitsVal (a ++ b) * 10 ^ (k - b.length)) d ∧
      (d < 33554431 * 2 ^ (103 : Int) → Spec.Nearest ((if neg then -1 else 1) * d) (atof (w ++ t)) ∧
        (2147483648 ≤ (atof (w ++ t)).bits.toNat ↔ neg = true)) ∧
      (33554431 * 2 ^ (103 : Int) ≤ d → atof (w ++ t) = ⟨if neg then 0xff800000#32 else 0x7f800000#32⟩) := by
  rw [atof_dec hw h]
  have hp := scale10_den_pos (n := digitsVal (a ++ b)) Nat.one_pos (k - b.length)
  have hv := scale10_val (digitsVal (a ++ b)) 1 (k - b.length)
  obtain ⟨h1, h2⟩ := doubleToFloat_nearest neg _ hp
  refine ⟨_, ?_, h1, h2⟩
  have := roundBin_nearest (n := (scale 10 (digitsVal (a ++ b)) 1 (k - b.length)).1) hp
  rw [Prod.mk.eta, hv] at this
  simpa [fval] using this

/-- **C83 (alpha).** A decimal number of up to six digits on the command line, in the normal range: what the build works with after `atof`, `Set` and `Get` is
exactly the float nearest to that number, although it is rounded four times on the way. -/
theorem C83_alpha {w t : Bytes} (hw : ∀ c ∈ w, isSpace c = true) {neg : Bool} {a b : Bytes} {k : Int} (h : DecText t neg a b k)
    (h6 : Spec.SixDigit (digitsVal (a ++ b) * 10 ^ (k - b.length))) (h1 : 2 ^ (-126 : Int) ≤ (digitsVal (a ++ b) : ℚ) * 10 ^ (k - b.length))
    (h2 : (digitsVal (a ++ b) : ℚ) * 10 ^ (k - b.length) ≤ 34 * 10 ^ 37) :
    ∃ y, toF32 (atof (w ++ t)).text = .ok y ∧ Spec.Nearest ((if neg then -1 else 1) * (digitsVal (a ++ b) * 10 ^ (k - b.length))) y := by
  have hp := scale10_den_pos (n := digitsVal (a ++ b)) Nat.one_pos (k - b.length)
  have hv := scale10_int (digitsVal (a ++ b)) (k - b.length)
  have hatof := atof_dec hw h
  obtain ⟨g1, -⟩ := doubleToFloat_nearest neg _ hp
  rw [← hatof] at g1
  have herr := roundBin_err 53 (by omega) _ hp
  have hnear := roundBin_nearest (n := (scale 10 (digitsVal (a ++ b)) 1 (k - b.length)).1) hp
  rw [Prod.mk.eta] at hnear
  rw [hv] at herr hnear
  generalize fval (roundBin 53 (scale 10 (digitsVal (a ++ b)) 1 (k - b.length))) = d at *
  generalize (digitsVal (a ++ b) : ℚ) * 10 ^ (k - b.length) = T at *
  have hT : 0 < T := lt_of_lt_of_le (by positivity) h1
  have hsg : |(if neg then -1 else 1 : ℚ)| = 1 := by cases neg <;> simp
  have hd1 : 2 ^ (-126 : Int) ≤ d := by
    have := (hnear.2 (2 ^ (-126 : Int)) ⟨1, -126, by norm_num, by simp⟩).1
    rw [abs_of_nonpos (by linarith : (2 : ℚ) ^ (-126 : Int) - T ≤ 0)] at this
    have := neg_le_of_abs_le this
    linarith
  have hd0 : 0 < d := lt_of_lt_of_le (by positivity) hd1
  have hd2 : d ≤ T + T * (1 / 2) ^ 53 := by
    have := le_of_abs_le herr
    linarith
  have hd3 : d < 33554431 * 2 ^ (103 : Int) := by
    refine lt_of_le_of_lt hd2 ?_
    norm_num at h2 ⊢
    linarith
  have g1 := (g1 hd3).1
  have habs : ∀ z : ℚ, |(if neg then -1 else 1 : ℚ) * z| = |z| := by intro z; rw [abs_mul, hsg, one_mul]
  have g2 := nearest_err (by rw [habs, abs_of_pos hd0]; exact hd1) (by rw [habs, abs_of_pos hd0]; exact hd3) g1
  rw [habs, abs_of_pos hd0] at g2
  refine text_back ?_ ?_ g1.1 ?_
  · obtain ⟨m, j, hm, hj⟩ := h6
    exact ⟨m, j, hm, by rw [habs]; exact hj⟩
  · rw [← abs_pos, habs, abs_of_pos hT]
    exact hT
  · rw [habs, abs_of_pos hT]
    have e1 : |(if neg then -1 else 1 : ℚ) * d - (if neg then -1 else 1 : ℚ) * T| ≤ T * (1 / 2) ^ 53 := by
      rw [← mul_sub, habs]
      exact herr
    have e2 := abs_sub_le (Spec.value (atof (w ++ t))) ((if neg then -1 else 1 : ℚ) * d) ((if neg then -1 else 1 : ℚ) * T)
    norm_num at e1 g2 hd2 e2 ⊢
    linarith

example : toF32 (atof (ascii " 1.2")).text = .ok ⟨0x3f99999a#32⟩ ∧ DecText (ascii "1.2") false [49] [50] 0 ∧
    Spec.SixDigit (digitsVal ([49] ++ [50]) * 10 ^ ((0 : Int) - ([50] : Bytes).length)) ∧ atof (ascii "0x1.8p1") = ⟨0x40400000#32⟩ ∧
    atof (ascii "1e39x") = ⟨0x7f800000#32⟩ ∧ atof (ascii "-Infinity") = ⟨0xff800000#32⟩ ∧ atof (ascii "e5") = F32.zero :=
  ⟨by decide +kernel, dec_1_2, ⟨12, -1, by omega, by rw [show digitsVal ([49] ++ [50]) = 12 from rfl]; norm_num⟩, by decide +kernel, by decide +kernel, by decide +kernel, by decide +kernel⟩

/-- Two roundings are not one: this number is nearer to another float than to the one `atof` gives. -/
theorem C83_atof_twice : atof (ascii "1.00000005960464480") = F32.one ∧ toF32 (ascii "1.00000005960464480") = .ok ⟨0x3f800001#32⟩ := by
  decide +kernel

/-! ## Parameters -/

theorem uncaught_ok {α : Type} {x : Except PErr α} {y : α} (h : x = .ok y) : uncaught x = .ok y := by rw [h]; rfl

/-- The calls of `Set` in tests/build_vamana.cpp. -/
def vamanaSets (a : VamanaArgs) : List (Bytes × ParamVal) :=
  [(ascii "R", .u32 a.R), (ascii "L", .u32 a.L), (ascii "C", .u32 750), (ascii "alpha", .text a.alpha.text), (ascii "saturate_graph", .bool false),
    (ascii "num_threads", .u32 a.threads)]

theorem vamanaParams_eq (a : VamanaArgs) : vamanaParams a = (vamanaSets a).foldl Params.set Params.new := rfl

/-- **C83 (parameters).** The build works with the degree and the list size of the command line, 750 candidates, the pruning rule 0, and `alpha` as it is
after having been a text; if that is not a finite number, the program is ended by an exception. -/
theorem C83_vamana_params (a : VamanaArgs) (hR : a.R < 4294967296) (hL : a.L < 4294967296) (hT : a.threads < 4294967296) (r : VamanaRun) :
    (∀ y, toF32 a.alpha.text = .ok y → vamanaGets (vamanaParams a) r = .ok { r with L := a.L, R := a.R, C := 750, alpha := y, pruningRule := 0 }) ∧
    (¬ Spec.Finite a.alpha → vamanaGets (vamanaParams a) r = .error .throw) := by
  have eC : (vamanaParams a).get toU32 (ascii "C") = .ok 750 := by
    rw [vamanaParams_eq]; exact (C44_get_last (vamanaSets a) _ 750 (by omega) rfl 0).1
  have eR : (vamanaParams a).get toU32 (ascii "R") = .ok a.R := by
    rw [vamanaParams_eq]; exact (C44_get_last (vamanaSets a) _ a.R hR rfl 0).1
  have eL : (vamanaParams a).get toU32 (ascii "L") = .ok a.L := by
    rw [vamanaParams_eq]; exact (C44_get_last (vamanaSets a) _ a.L hL rfl 0).1
  have eT : (vamanaParams a).get toU32 (ascii "num_threads") = .ok a.threads := by
    rw [vamanaParams_eq]; exact (C44_get_last (vamanaSets a) _ a.threads hT rfl 0).1
  have eP : (vamanaParams a).get toU32 (ascii "pruning_rule") = .ok 0 := by
    rw [vamanaParams_eq]
    unfold Params.get
    rw [Params.lookup_sets, show Spec.lastSet (ascii "pruning_rule") (vamanaSets a) = none from rfl]
    decide +kernel
  have eA : (vamanaParams a).get toF32 (ascii "alpha") = toF32 a.alpha.text := by
    rw [vamanaParams_eq]
    unfold Params.get
    rw [Params.lookup_sets, show Spec.lastSet (ascii "alpha") (vamanaSets a) = some (.text a.alpha.text) from rfl]
  constructor
  · intro y hy
    unfold vamanaGets
    rw [uncaught_ok eC, Res.ok_bind, uncaught_ok eR, Res.ok_bind, uncaught_ok eL, Res.ok_bind, uncaught_ok (eA.trans hy), Res.ok_bind, uncaught_ok eP,
      Res.ok_bind, uncaught_ok eT, Res.ok_bind]
  · intro hf
    unfold vamanaGets
    rw [uncaught_ok eC, Res.ok_bind, uncaught_ok eR, Res.ok_bind, uncaught_ok eL, Res.ok_bind, eA, C44_float_not_finite _ hf]
    rfl

/-! ## The theorems applied to examples -/

example := C83_decimal 750 (by decide)

example := C83_atof (w := [32]) (by decide) dec_1_2

example := C83_alpha (w := [32]) (by decide) dec_1_2
  ⟨12, -1, by omega, by rw [show digitsVal ([49] ++ [50]) = 12 from rfl]; norm_num⟩
  (by rw [show digitsVal ([49] ++ [50]) = 12 from rfl]; norm_num) (by rw [show digitsVal ([49] ++ [50]) = 12 from rfl]; norm_num)

example (r : VamanaRun) := (C83_vamana_params ⟨.float, .l2, ascii "d", [], ascii "i", 32, 50, ⟨0x3f99999a#32⟩, 8⟩ (by decide) (by decide)
  (by decide) r).1 ⟨0x3f99999a#32⟩ (by decide +kernel)

/-- An infinite `alpha`. -/
example (r : VamanaRun) := (C83_vamana_params ⟨.float, .l2, ascii "d", [], ascii "i", 32, 50, ⟨0x7f800000#32⟩, 8⟩ (by decide) (by decide)
  (by decide) r).2 (by unfold Spec.Finite; decide)

/-- The hexadecimal digits of C (7.22.1.3) and their values. -/
def Spec.hexDigits : List (List UInt8) :=
  [[48], [49], [50], [51], [52], [53], [54], [55], [56], [57], [97, 65], [98, 66], [99, 67], [100, 68], [101, 69], [102, 70]]

/-- **C83 (hexadecimal digits).** `atof` recognises the digits of C and takes each for its value. -/
theorem C83_hex_digits (c : UInt8) : (isHex c = true ↔ ∃ l ∈ Spec.hexDigits, c ∈ l) ∧ ∀ v l, Spec.hexDigits[v]? = some l → c ∈ l → hexVal c = v := by
  have h : ∀ n < 256, (isHex (UInt8.ofNat n) = true ↔ ∃ l ∈ Spec.hexDigits, UInt8.ofNat n ∈ l) ∧
      ∀ v < 16, UInt8.ofNat n ∈ Spec.hexDigits.getD v [] → hexVal (UInt8.ofNat n) = v := by decide +kernel
  obtain ⟨h1, h2⟩ := h c.toNat c.toNat_lt
  rw [UInt8.ofNat_toNat] at h1 h2
  refine ⟨h1, fun v l hl hc => h2 v ?_ ?_⟩
  · exact (List.getElem?_eq_some_iff.1 hl).1
  · rw [List.getD_eq_getElem?_getD, hl]; exact hc

example : isHex 65 = true ∧ hexVal 65 = 10 ∧ isHex 103 = false := by decide

end Grann
