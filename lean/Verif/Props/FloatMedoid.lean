import Verif.Model.FloatMedoid
import Verif.Spec.FloatMedoid
import Verif.Props.FloatPrune
import Verif.Props.FloatLsh
import Verif.Props.FloatGraph
import Verif.Props.Medoid
/-!
# C102: the entry point in `float` arithmetic

`calculate_medoid_of_data` (src/index.cpp:297-338) and `calculate_entry_point` (src/relative_ng.cpp:92-133): the mean of the points, and the point nearest to it.
-/

namespace Grann

open _root_.Grann.Spec _root_.Spec

/-! ## Division -/

theorem nearestBits_null (d : Nat) (hd : 0 < d) : nearestBits 0 d = 0 := nearestBits_zero hd (by unfold fval; norm_num)

theorem abs_pack (x : F32) : |value x| = Spec.magnitude x.mag := by
  rw [value_pack, abs_mul, abs_of_nonneg (magnitude_nonneg _)]
  split <;> simp

theorem div_err (ftz : Bool) {x y : F32} (hx : Spec.Finite x) (hy : Spec.Finite y) (hy0 : 0 < value y) (h : |value x / value y| < ovf) :
    Plain ftz (F32.div ftz x y) ∧ |value (F32.div ftz x y) - value x / value y| ≤ |value x / value y| * ulp24 + tiny ftz := by
  have hu : (0 : ℚ) ≤ ulp24 := by unfold ulp24; positivity
  have ht := tiny_pos ftz
  have ym : y.mag ≠ 0 := by intro h0; rw [magnitude_flushed h0] at hy0; exact lt_irrefl _ hy0
  have ys : y.sign = false := by
    by_contra hc
    rw [Bool.not_eq_false] at hc
    rw [value_pack, hc] at hy0
    have := magnitude_nonneg y.mag
    simp only [if_true] at hy0
    linarith
  have hxa : |value x / value y| = Spec.magnitude x.mag / value y := by rw [abs_div, abs_of_pos hy0, abs_pack]
  have hd0 : 0 < y.units.natAbs := by
    rw [Int.natAbs_pos]
    intro h0
    rw [value_units, h0] at hy0
    simp at hy0
  have hpm := pack_mag false (mag_lt x)
  have hps := pack_sign false (mag_lt x)
  have hun : (F32.pack false x.mag).units.natAbs = x.units.natAbs := by rw [units_natAbs, units_natAbs, hpm]
  have hf : fval (x.units.natAbs, y.units.natAbs) = |value x / value y| := by
    rw [← hun, fval_units (by rw [sign_value hps]; exact magnitude_nonneg _) hy0, sign_value hps, hpm, hxa]
  rw [div_regular ftz hx hy ym, ys]
  have hval : ∀ m, m < 2147483648 → value (F32.pack (x.sign != false) m) - value x / value y =
      (if x.sign then -1 else 1) * (Spec.magnitude m - |value x / value y|) := by
    intro m hm
    rw [pack_value _ hm, hxa, value_pack x]
    cases x.sign
    · simp
    · simp; ring
  have key : ∀ m, m < 2139095040 → (ftz = true → m = 0 ∨ 8388608 ≤ m) → abs (Spec.magnitude m - |value x / value y|) ≤ |value x / value y| * ulp24 + tiny ftz →
      Plain ftz (F32.pack (x.sign != false) m) ∧ |value (F32.pack (x.sign != false) m) - value x / value y| ≤ |value x / value y| * ulp24 + tiny ftz := by
    intro m hm hz he
    refine ⟨⟨by rw [finite_mag, pack_mag _ (by omega)]; exact hm, fun hft => ?_⟩, ?_⟩
    · rcases hz hft with h0 | h0
      · left; exact magnitude_flushed (by rw [pack_mag _ (by omega)]; exact h0)
      · right
        rw [abs_pack, pack_mag _ (by omega)]
        have := magnitude_strictMono.monotone h0
        refine le_trans (le_of_eq ?_) this
        norm_num [magnitude]
    · rw [hval m (by omega), abs_mul]
      have : |(if x.sign = true then (-1 : ℚ) else 1)| = 1 := by split <;> simp
      rw [this, one_mul]
      exact he
  by_cases hfl : (ftz && decide (x.units.natAbs * 2 ^ 151 < 33554431 * y.units.natAbs)) = true
  · rw [if_pos hfl]
    refine key 0 (by norm_num) (fun _ => Or.inl rfl) ?_
    rw [Bool.and_eq_true, decide_eq_true_iff] at hfl
    have h1 : |value x / value y| < 2 ^ (-126 : Int) := by
      rw [← hf]
      unfold fval
      rw [div_lt_iff₀ (by exact_mod_cast hd0)]
      have h1 : (x.units.natAbs : ℚ) * 2 ^ 151 < 33554431 * y.units.natAbs := by exact_mod_cast hfl.2
      have h2 : (2 : ℚ) ^ (-126 : Int) = 33554432 / 2 ^ 151 := by norm_num
      have h3 : (0 : ℚ) < y.units.natAbs := by exact_mod_cast hd0
      rw [h2, div_mul_eq_mul_div, lt_div_iff₀ (by positivity)]
      dsimp only
      linarith
    rw [magnitude_zero, zero_sub, abs_neg, abs_abs]
    have h2 : tiny ftz = 2 ^ (-126 : Int) := by unfold tiny; rw [if_pos hfl.1]
    rw [h2]
    have := mul_nonneg (abs_nonneg (value x / value y)) hu
    linarith
  · rw [if_neg hfl]
    by_cases hn : x.units.natAbs = 0
    · rw [hn, nearestBits_null _ hd0, Nat.min_eq_left (by norm_num)]
      refine key 0 (by norm_num) (fun _ => Or.inl rfl) ?_
      have h0 : |value x / value y| = 0 := by rw [← hf, hn]; unfold fval; norm_num
      rw [h0, magnitude_zero]
      simp
      exact ht.le
    · have hlt : nearestBits x.units.natAbs y.units.natAbs < 2139095040 := nearestBits_lt (by omega) hd0 (by rw [hf]; exact h)
      rw [Nat.min_eq_left hlt.le]
      refine key _ hlt (fun hft => Or.inr (nearestBits_normal (by omega) hd0 ?_)) ?_
      · rw [hft, Bool.true_and, decide_eq_true_iff] at hfl
        unfold fval
        have h3 : (0 : ℚ) < y.units.natAbs := by exact_mod_cast hd0
        rw [le_div_iff₀ h3]
        have h1 : (33554431 : ℚ) * y.units.natAbs ≤ (x.units.natAbs : ℚ) * 2 ^ 151 := by exact_mod_cast not_lt.1 hfl
        have h2 : (2 : ℚ) ^ (-126 : Int) - 2 ^ (-151 : Int) = 33554431 / 2 ^ 151 := by norm_num
        rw [h2, div_mul_eq_mul_div, div_le_iff₀ (by positivity)]
        exact h1
      · have := nearestBits_err2 (n := x.units.natAbs) (d := y.units.natAbs) (by omega) hd0
        rw [hf] at this
        have h2 : (2 : ℚ) ^ (-150 : Int) ≤ tiny ftz := by
          unfold tiny
          split
          · exact zpow_le_zpow_right₀ (by norm_num) (by norm_num)
          · exact le_rfl
        exact le_trans this (by gcongr)

theorem round_plain (ftz s : Bool) {n : Int} {k : Nat} (h : |(n : ℚ) / 2 ^ k| < ovf) : Plain ftz (F32.round ftz s n k) := by
  refine ⟨round_finite ftz s h, fun hft => ?_⟩
  subst hft
  rcases round_not_tiny s n k with h0 | h0
  · exact Or.inl (magnitude_flushed h0)
  · right
    rw [abs_pack]
    refine le_trans (le_of_eq ?_) (magnitude_strictMono.monotone h0)
    norm_num [magnitude]

theorem tiny_le (ftz : Bool) : tiny ftz ≤ 2 ^ (-126 : Int) := by
  unfold tiny
  split
  · exact le_rfl
  · exact zpow_le_zpow_right₀ (by norm_num) (by norm_num)

theorem ofNat_range {n : Nat} (h1 : 1 ≤ n) (h2 : n < 4294967296) : Spec.Finite (F32.ofNat n) ∧ |value (F32.ofNat n) - n| ≤ n * 2 ^ (-24 : Int) ∧ 1 / 2 ≤ value (F32.ofNat n) ∧ value (F32.ofNat n) ≤ 2 ^ 33 := by
  have h := ofNat_near h2
  refine ⟨(ofNat_number n h2).1, h, ?_⟩
  have h1' : (1 : ℚ) ≤ n := by exact_mod_cast h1
  have h2' : (n : ℚ) < 4294967296 := by exact_mod_cast h2
  have e : (2 : ℚ) ^ (-24 : Int) = 1 / 16777216 := by norm_num
  rw [e] at h
  have := abs_le.1 h
  constructor <;> [skip; norm_num] <;> linarith

/-- The error of the division by a number of points. -/
theorem over_err (ftz recip : Bool) {s : F32} (hs : Spec.Finite s) (hb : |value s| ≤ 2 ^ 110) {n : Nat} (h1 : 1 ≤ n) (h2 : n < 4294967296) :
    Plain ftz (overF ftz recip s n) ∧
    |value (overF ftz recip s n) - value s / value (F32.ofNat n)| ≤ |value s / value (F32.ofNat n)| * 2 ^ (-22 : Int) + tiny ftz := by
  obtain ⟨hf, -, ha, hb'⟩ := ofNat_range h1 h2
  have hpos : 0 < value (F32.ofNat n) := by linarith
  have hq : |value s / value (F32.ofNat n)| ≤ 2 ^ 111 := by
    rw [abs_div, abs_of_pos hpos, div_le_iff₀ hpos]
    linarith
  have e22 : (2 : ℚ) ^ (-22 : Int) = 4 * ulp24 := by unfold ulp24; norm_num
  have hovf := ovf_gt
  have h81 : (2 : ℚ) ^ 112 < ovf := lt_of_le_of_lt (by norm_num) hovf
  have hq0 := abs_nonneg (value s / value (F32.ofNat n))
  have hu : (0 : ℚ) < ulp24 := by unfold ulp24; positivity
  cases recip with
  | false =>
    unfold overF
    simp only [Bool.false_eq_true, if_false]
    obtain ⟨p, e⟩ := div_err ftz hs hf hpos (by linarith [show (2 : ℚ) ^ 112 = 2 * 2 ^ 111 by norm_num])
    refine ⟨p, le_trans e ?_⟩
    rw [e22]
    nlinarith
  | true =>
    unfold overF
    simp only [if_true]
    have h1o : Spec.Finite F32.one := by unfold Spec.Finite; decide
    have v1 : value F32.one = 1 := by norm_num [value, F32.one, magnitude]
    have hr1 : |value F32.one / value (F32.ofNat n)| = 1 / value (F32.ofNat n) := by rw [v1, abs_of_pos (by positivity)]
    have hr2 : 1 / value (F32.ofNat n) ≤ 2 := by rw [div_le_iff₀ hpos]; linarith
    have hr3 : 1 / 2 ^ 33 ≤ 1 / value (F32.ofNat n) := one_div_le_one_div_of_le hpos hb'
    obtain ⟨p, e⟩ := div_err ftz h1o hf hpos (by rw [hr1]; linarith [show (2 : ℚ) ≤ 2 ^ 112 by norm_num])
    rw [hr1, v1] at e
    generalize hR : F32.div ftz F32.one (F32.ofNat n) = R at p e
    have et : tiny ftz ≤ (1 / value (F32.ofNat n)) * (ulp24 / 2) := by
      refine le_trans (tiny_le ftz) (le_trans ?_ (mul_le_mul_of_nonneg_right hr3 (by linarith)))
      unfold ulp24
      norm_num
    have e' : |value R - 1 / value (F32.ofNat n)| ≤ (1 / value (F32.ofNat n)) * (3 / 2 * ulp24) := by
      refine le_trans e ?_
      linarith
    have hsR : |value s * value R - value s / value (F32.ofNat n)| ≤ |value s / value (F32.ofNat n)| * (3 / 2 * ulp24) := by
      have : value s * value R - value s / value (F32.ofNat n) = value s * (value R - 1 / value (F32.ofNat n)) := by ring
      rw [this, abs_mul]
      refine le_trans (mul_le_mul_of_nonneg_left e' (abs_nonneg _)) (le_of_eq ?_)
      rw [abs_div, abs_of_pos hpos]
      ring
    have hu1 : ulp24 ≤ 1 / 16777216 := by unfold ulp24; norm_num
    generalize hQ : value s / value (F32.ofNat n) = Q at *
    have hsR2 : |value s * value R| ≤ |Q| * (1 + 3 / 2 * ulp24) := by
      have := abs_le.1 hsR
      have h3 := neg_abs_le Q
      have h4 := le_abs_self Q
      rw [abs_le]
      constructor <;> linarith
    have hlt : |value s * value R| < ovf := by
      refine lt_of_le_of_lt hsR2 (lt_of_le_of_lt ?_ h81)
      calc |Q| * (1 + 3 / 2 * ulp24) ≤ 2 ^ 111 * 2 := mul_le_mul hq (by linarith) (by linarith) (by positivity)
        _ = 2 ^ 112 := by norm_num
    have hp : Plain ftz (F32.mul ftz s R) := by
      rw [mul_eq ftz hs p.1]
      exact round_plain ftz _ (by rw [exact_mul]; exact hlt)
    refine ⟨hp, ?_⟩
    have hm := (mul_err ftz hs p.1 hlt).2
    have h5 : |value (F32.mul ftz s R) - Q| ≤ |value (F32.mul ftz s R) - value s * value R| + |value s * value R - Q| := by
      have : value (F32.mul ftz s R) - Q = (value (F32.mul ftz s R) - value s * value R) + (value s * value R - Q) := by ring
      rw [this]
      exact abs_add_le _ _
    rw [e22]
    have h6 : |value s * value R| * ulp24 ≤ |Q| * (1 + 3 / 2 * ulp24) * ulp24 := mul_le_mul_of_nonneg_right hsR2 hu.le
    have h7 : |Q| * (1 + 3 / 2 * ulp24) * ulp24 ≤ |Q| * 2 * ulp24 := by
      refine mul_le_mul_of_nonneg_right (mul_le_mul_of_nonneg_left ?_ hq0) hu.le
      linarith
    nlinarith

/-! ## The mean -/

theorem ones_sum (g : ℚ → ℚ) (l : List F32) : (List.zipWith (fun x y => g (value x * value y)) l (List.replicate l.length F32.one)).sum = (l.map (fun x => g (value x))).sum := by
  have v1 : value F32.one = 1 := by norm_num [value, F32.one, magnitude]
  induction l with
  | nil => simp
  | cons a l ih => simp only [List.length_cons, List.replicate_succ, List.zipWith_cons_cons, List.sum_cons, List.map_cons, ih, v1, mul_one]

/-- A coordinate of all points. -/
theorem column_ok {ftz : Bool} {U : SumTree} {dim : Nat} {data : List (List F32)} (h : MeanOk ftz U dim data) {j : Nat} (hj : j < dim) :
    data.mapM (fun v => rd v j) = .ok (data.map (fun v => v.getD j F32.zero)) ∧ ∀ x ∈ data.map (fun v => v.getD j F32.zero), Plain ftz x ∧ |value x| ≤ 2 ^ 40 := by
  constructor
  · exact mapM_eq_map _ _ _ (fun v hv => rd_getD_zero (by rw [h.dims v hv]; exact hj))
  · intro x hx
    obtain ⟨v, hv, rfl⟩ := List.mem_map.1 hx
    have := mem_getD (a := v) (i := j) (by rw [h.dims v hv]; exact hj)
    exact ⟨h.plain v hv _ this, h.size v hv _ this⟩

theorem abs_sum_le (l : List ℚ) : |l.sum| ≤ (l.map abs).sum := by
  induction l with
  | nil => simp
  | cons a l ih =>
    rw [List.sum_cons, List.map_cons, List.sum_cons]
    exact le_trans (abs_add_le _ _) (by linarith)

theorem sum_le_card (l : List ℚ) (B : ℚ) (h : ∀ x ∈ l, x ≤ B) : l.sum ≤ l.length * B := by
  induction l with
  | nil => simp
  | cons a l ih =>
    rw [List.sum_cons, List.length_cons]
    have h1 := h a (by simp)
    have h2 := ih (fun x hx => h x (by simp [hx]))
    push_cast
    linarith

/-- The rounding errors of a mean put together. -/
theorem mean_arith {u A S s N m c E τ h ot : ℚ} (hu : u = 2 ^ (-24 : Int)) (hA : |S| ≤ A) (hs : |s - S| ≤ E) (hE : E = (h + 1) * 2 ^ (-23 : Int) * A + ot) (hot : 0 ≤ ot)
    (hh : 0 ≤ h) (hh2 : h + 6 ≤ 2 ^ 22) (hN : 1 ≤ N) (hm : |m - N| ≤ N * u) (hc : |c - s / m| ≤ |s / m| * 2 ^ (-22 : Int) + τ) :
    |c - S / N| ≤ ((h + 6) * 2 ^ (-23 : Int) * A + 2 * ot) / N + τ := by
  have e23 : (2 : ℚ) ^ (-23 : Int) = 2 * u := by rw [hu]; norm_num
  have e22 : (2 : ℚ) ^ (-22 : Int) = 4 * u := by rw [hu]; norm_num
  have hu' : u = 1 / 16777216 := by rw [hu]; norm_num
  rw [e23] at hE ⊢
  rw [e22] at hc
  have hA0 : 0 ≤ A := le_trans (abs_nonneg _) hA
  have hE0 : 0 ≤ E := le_trans (abs_nonneg _) hs
  have hN0 : 0 < N := by linarith
  have hm1 := abs_le.1 hm
  have hu0 : 0 ≤ u := by rw [hu']; norm_num
  have hm2 : N * (1 - u) ≤ m := by linarith
  have hm0 : 0 < m := by
    refine lt_of_lt_of_le ?_ hm2
    rw [hu']
    positivity
  have hinv : 1 / m ≤ (1 + 2 * u) / N := by
    rw [div_le_div_iff₀ hm0 hN0, one_mul]
    have : N * 1 ≤ N * ((1 + 2 * u) * (1 - u)) := mul_le_mul_of_nonneg_left (by rw [hu']; norm_num) hN0.le
    nlinarith
  have hsA : |s| ≤ A + E := by
    have : s = S + (s - S) := by ring
    rw [this]
    exact le_trans (abs_add_le _ _) (by linarith)
  have h2 : |s / m| ≤ (A + E) * ((1 + 2 * u) / N) := by
    rw [abs_div, abs_of_pos hm0, div_eq_mul_one_div]
    exact mul_le_mul hsA hinv (by positivity) (by linarith)
  have h1 : |s / m - S / N| ≤ (E + A * u) * ((1 + 2 * u) / N) := by
    have e : s / m - S / N = ((s - S) + S / N * (N - m)) * (1 / m) := by
      field_simp
      ring
    rw [e, abs_mul, abs_of_pos (by positivity : 0 < 1 / m)]
    refine mul_le_mul ?_ hinv (by positivity) (by positivity)
    refine le_trans (abs_add_le _ _) (add_le_add hs ?_)
    rw [abs_mul, abs_div, abs_of_pos hN0, abs_sub_comm N m]
    calc |S| / N * |m - N| ≤ A / N * (N * u) := mul_le_mul (by gcongr) hm (abs_nonneg _) (by positivity)
      _ = A * u := by field_simp
  have h3 : |c - S / N| ≤ |c - s / m| + |s / m - S / N| := by
    have : c - S / N = (c - s / m) + (s / m - S / N) := by ring
    rw [this]
    exact abs_add_le _ _
  have h4 : |s / m| * (4 * u) ≤ (A + E) * ((1 + 2 * u) / N) * (4 * u) := mul_le_mul_of_nonneg_right h2 (by linarith)
  have h5 : (A + E) * ((1 + 2 * u) / N) * (4 * u) + (E + A * u) * ((1 + 2 * u) / N) = ((1 + 2 * u) * (4 * u * (A + E) + (E + A * u))) / N := by ring
  have h6 : (1 + 2 * u) * (4 * u * (A + E) + (E + A * u)) ≤ (h + 6) * (2 * u) * A + 2 * ot := by
    have hhA : h * A ≤ (2 ^ 22 - 6) * A := mul_le_mul_of_nonneg_right (by linarith) hA0
    have hhA0 : 0 ≤ h * A := mul_nonneg hh hA0
    have hEq : E = (h * A + A) * (2 * u) + ot := by rw [hE]; ring
    have hgoal : (h + 6) * (2 * u) * A = (h * A + 6 * A) * (2 * u) := by ring
    rw [hgoal, hEq, hu']
    generalize h * A = w at *
    norm_num at hhA ⊢
    linarith
  have h7 : ((1 + 2 * u) * (4 * u * (A + E) + (E + A * u))) / N ≤ ((h + 6) * (2 * u) * A + 2 * ot) / N := by gcongr
  linarith

/-- **C102 (the centre).** The computed centre is the exact mean of the points up to `meanErr` in every coordinate, in any order of the additions. -/
theorem C102_center (recip : Bool) {ftz : Bool} {U : SumTree} {dim : Nat} {data : List (List F32)} (h : MeanOk ftz U dim data) :
    ∃ c, centerF ftz recip U data dim = .ok c ∧ c.length = dim ∧ (∀ x ∈ c, Plain ftz x) ∧ ∀ j < dim, |value (c.getD j F32.zero) - exactMean data j| ≤ meanErr ftz U data j := by
  have hN : 1 ≤ data.length := List.length_pos_iff.2 h.nonempty
  have key : ∀ j, j < dim → ∃ x, (do
      let col ← data.mapM (fun v => rd v j)
      let s ← dotF32 ftz U col (List.replicate col.length F32.one)
      .ok (overF ftz recip s data.length) : Res F32) = .ok x ∧ Plain ftz x ∧ |value x - exactMean data j| ≤ meanErr ftz U data j := by
    intro j hj
    obtain ⟨e, hcol⟩ := column_ok h hj
    generalize hcv : data.map (fun v => v.getD j F32.zero) = col at e hcol
    have hlen : col.length = data.length := by rw [← hcv, List.length_map]
    have p1 : Plain ftz F32.one := ⟨by unfold Spec.Finite; decide, fun _ => Or.inr (by norm_num [value, F32.one, magnitude])⟩
    have hsum : dotVal col (List.replicate col.length F32.one) = (col.map value).sum := ones_sum id col
    have habs : absDotVal col (List.replicate col.length F32.one) = (col.map (fun x => |value x|)).sum := ones_sum abs col
    have hA : (col.map (fun x => |value x|)).sum ≤ data.length * 2 ^ 40 := by
      rw [← hlen]
      have := sum_le_card (col.map (fun x => |value x|)) (2 ^ 40) (by
        intro y hy
        obtain ⟨x, hx, rfl⟩ := List.mem_map.1 hy
        exact (hcol x hx).2)
      rwa [List.length_map] at this
    have hNq : (data.length : ℚ) < 4294967296 := by exact_mod_cast h.count
    have hA2 : (col.map (fun x => |value x|)).sum ≤ 2 ^ 72 := by
      refine le_trans hA ?_
      calc (data.length : ℚ) * 2 ^ 40 ≤ 4294967296 * 2 ^ 40 := by gcongr
        _ = 2 ^ 72 := by norm_num
    have hht := h.height
    obtain ⟨s, es, fs, hs⟩ := C93_dot_close ftz (T := U) (n := col.length) (a := col) (b := List.replicate col.length F32.one) (by rw [hlen]; exact h.sums) rfl (by simp) (fun x hx => (hcol x hx).1)
      (by intro x hx; rw [List.eq_of_mem_replicate hx]; exact p1) (by omega) h.ops (by rw [habs]; exact le_trans hA2 (by norm_num))
    have hSA : |(col.map value).sum| ≤ (col.map (fun x => |value x|)).sum := by
      have := abs_sum_le (col.map value)
      rwa [List.map_map] at this
    have hsb : |value s| ≤ 2 ^ 110 := by
      have hd := dotErr_le ftz (T := U) (by omega) h.ops col (List.replicate col.length F32.one)
      rw [hsum] at hs
      rw [habs] at hd
      have h1 : |value s| ≤ |value s - (col.map value).sum| + |(col.map value).sum| := by
        have : value s = (value s - (col.map value).sum) + (col.map value).sum := by ring
        conv_lhs => rw [this]
        exact abs_add_le _ _
      have h72 : (2 : ℚ) ^ 72 + 2 ^ 72 + 2 ^ 100 ≤ 2 ^ 110 := by norm_num
      linarith
    obtain ⟨hp, ho⟩ := over_err ftz recip fs hsb hN h.count
    obtain ⟨-, hn, -, -⟩ := ofNat_range hN h.count
    refine ⟨_, by rw [e, Res.ok_bind, es, Res.ok_bind], hp, ?_⟩
    have hmean : exactMean data j = (col.map value).sum / data.length := by
      unfold exactMean
      rw [← hcv, List.map_map]
      rfl
    have hAd : (data.map (fun x => |value (x.getD j F32.zero)|)).sum = (col.map (fun x => |value x|)).sum := by
      rw [← hcv, List.map_map]
      rfl
    rw [hmean]
    unfold meanErr
    rw [hAd]
    rw [hsum] at hs
    have hN1 : (1 : ℚ) ≤ data.length := by exact_mod_cast hN
    have hot : (U.ops : ℚ) * (if ftz then 2 ^ (-124 : Int) else 2 ^ (-148 : Int)) = 2 * (U.ops * (if ftz then 2 ^ (-125 : Int) else 2 ^ (-149 : Int))) := by
      split <;> (generalize (U.ops : ℚ) = o; norm_num; ring)
    rw [hot]
    refine mean_arith rfl hSA hs (by unfold dotErr; rw [habs]) (by split <;> positivity) (by positivity) (by exact_mod_cast hht) hN1 hn ?_
    exact ho
  have : ∃ f : Nat → F32, ∀ j, j < dim → (do
      let col ← data.mapM (fun v => rd v j)
      let s ← dotF32 ftz U col (List.replicate col.length F32.one)
      .ok (overF ftz recip s data.length) : Res F32) = .ok (f j) ∧ Plain ftz (f j) ∧ |value (f j) - exactMean data j| ≤ meanErr ftz U data j := by
    refine ⟨fun j => if hj : j < dim then (key j hj).choose else F32.zero, fun j hj => ?_⟩
    simp only [dif_pos hj]
    exact (key j hj).choose_spec
  obtain ⟨f, hf⟩ := this
  refine ⟨(List.range dim).map f, ?_, by simp, ?_, ?_⟩
  · exact mapM_eq_map _ _ _ (fun j hj => (hf j (List.mem_range.1 hj)).1)
  · intro x hx
    obtain ⟨j, hj, rfl⟩ := List.mem_map.1 hx
    exact (hf j (List.mem_range.1 hj)).2.1
  · intro j hj
    have : ((List.range dim).map f).getD j F32.zero = f j := by simp [List.getD, hj]
    rw [this]
    exact (hf j hj).2.2

/-! ## The nearest point -/

theorem minIndex_spec {ds : List F32} (hne : ds ≠ []) (hnum : ∀ x ∈ ds, x.IsNum) :
    ∃ m x, minIndex ds = .ok m ∧ ds[m]? = some x ∧ (∀ y ∈ ds, x.le y = true) ∧ ∀ (i : Nat) (y : F32), i < m → ds[i]? = some y → x.lt y = true := by
  cases ds with
  | nil => exact absurd rfl hne
  | cons d ds =>
    have hd := hnum d (by simp)
    obtain ⟨m', h1, h2, h3⟩ := minLoop_spec ds [d] 0 d rfl (by simpa using hd) (fun x hx => hnum x (by simp [hx]))
      (by
        intro i x hx
        have : x = d := by simpa using List.mem_of_getElem? hx
        subst this
        exact F32.le_refl hd) (by intro i x hi; omega)
    refine ⟨_, m', rfl, by simpa using h1, ?_, by simpa using h3⟩
    intro y hy
    obtain ⟨i, hi⟩ := List.mem_iff_getElem?.1 hy
    exact h2 i y (by simpa using hi)

theorem sqDist_bound {a b : List F32} {A B : ℚ} (ha : ∀ x ∈ a, |value x| ≤ A) (hb : ∀ x ∈ b, |value x| ≤ B) : sqDistVal a b ≤ a.length * (A + B) ^ 2 := by
  unfold sqDistVal
  induction a generalizing b with
  | nil => simp
  | cons x a ih =>
    cases b with
    | nil => simp; positivity
    | cons y b =>
      have h1 := ih (b := b) (fun z hz => ha z (by simp [hz])) (fun z hz => hb z (by simp [hz]))
      have h2 := abs_le.1 (ha x (by simp))
      have h3 := abs_le.1 (hb y (by simp))
      have h4 : (value x - value y) ^ 2 ≤ (A + B) ^ 2 := sq_le_sq' (by linarith) (by linarith)
      rw [List.zipWith_cons_cons, List.sum_cons, List.length_cons]
      push_cast
      linarith

theorem mean_bound {ftz : Bool} {U : SumTree} {dim : Nat} {data : List (List F32)} (h : MeanOk ftz U dim data) {j : Nat} (hj : j < dim) :
    |exactMean data j| ≤ 2 ^ 40 ∧ meanErr ftz U data j ≤ 2 ^ 40 := by
  have hN : 1 ≤ data.length := List.length_pos_iff.2 h.nonempty
  have hN1 : (1 : ℚ) ≤ data.length := by exact_mod_cast hN
  have hN0 : (0 : ℚ) < data.length := by linarith
  have hA : (data.map (fun x => |value (x.getD j F32.zero)|)).sum ≤ data.length * 2 ^ 40 := by
    have := sum_le_card (data.map (fun x => |value (x.getD j F32.zero)|)) (2 ^ 40) (by
      intro y hy
      obtain ⟨v, hv, rfl⟩ := List.mem_map.1 hy
      exact h.size v hv _ (mem_getD (by rw [h.dims v hv]; exact hj)))
    rwa [List.length_map] at this
  have hA0 : 0 ≤ (data.map (fun x => |value (x.getD j F32.zero)|)).sum := by
    refine List.sum_nonneg ?_
    intro y hy
    obtain ⟨v, hv, rfl⟩ := List.mem_map.1 hy
    exact abs_nonneg _
  constructor
  · unfold exactMean
    rw [abs_div, abs_of_pos hN0, div_le_iff₀ hN0]
    have := abs_sum_le (data.map (fun x => value (x.getD j F32.zero)))
    rw [List.map_map] at this
    refine le_trans this (le_trans hA ?_)
    linarith
  · unfold meanErr
    have h1 : ((U.height : ℚ) + 6) * 2 ^ (-23 : Int) ≤ 1 / 2 := by
      have : (U.height : ℚ) + 6 ≤ 2 ^ 22 := by exact_mod_cast h.height
      calc ((U.height : ℚ) + 6) * 2 ^ (-23 : Int) ≤ 2 ^ 22 * 2 ^ (-23 : Int) := by gcongr
        _ = 1 / 2 := by norm_num
    have h2 : (U.ops : ℚ) * (if ftz then 2 ^ (-124 : Int) else 2 ^ (-148 : Int)) ≤ 1 := by
      have : (U.ops : ℚ) ≤ 2 ^ 100 := by exact_mod_cast h.ops
      calc (U.ops : ℚ) * (if ftz then 2 ^ (-124 : Int) else 2 ^ (-148 : Int)) ≤ 2 ^ 100 * 2 ^ (-124 : Int) := by
            refine mul_le_mul this ?_ (by split <;> positivity) (by positivity)
            split
            · exact le_rfl
            · exact zpow_le_zpow_right₀ (by norm_num) (by norm_num)
        _ ≤ 1 := by norm_num
    have h3 : (if ftz then 2 ^ (-126 : Int) else 2 ^ (-150 : Int) : ℚ) ≤ 1 := by split <;> norm_num
    have h4 : ((U.height + 6) * 2 ^ (-23 : Int) * (data.map (fun x => |value (x.getD j F32.zero)|)).sum +
        U.ops * (if ftz then 2 ^ (-124 : Int) else 2 ^ (-148 : Int)) : ℚ) / data.length ≤ 2 ^ 39 + 1 := by
      rw [div_le_iff₀ hN0]
      have h5 := mul_le_mul h1 hA hA0 (by norm_num)
      have h6 : (1 : ℚ) / 2 * (data.length * 2 ^ 40) = 2 ^ 39 * data.length := by ring
      rw [h6] at h5
      linarith
    have h7 : (2 : ℚ) ^ 39 + 1 + 1 ≤ 2 ^ 40 := by norm_num
    exact le_trans (add_le_add h4 h3) h7

/-- Distances to a centre of moderate size. -/
theorem center_l2 {ftz : Bool} {U T : SumTree} {dim : Nat} {data : List (List F32)} (h : MeanOk ftz U dim data) (hT : T.Sums dim) (hd : dim ≤ 2 ^ 32)
    (hh : T.height + 3 ≤ 2 ^ 22) (ho : T.ops ≤ 2 ^ 100) {c : List F32} (hcl : c.length = dim) (hcp : ∀ x ∈ c, Plain ftz x)
    (hc : ∀ j < dim, |value (c.getD j F32.zero) - exactMean data j| ≤ meanErr ftz U data j) {v : List F32} (hv : v ∈ data) : L2Ok ftz T dim c v := by
  refine ⟨hT, hcl, h.dims v hv, hcp, h.plain v hv, by omega, ho, ?_⟩
  have hcb : ∀ x ∈ c, |value x| ≤ 2 ^ 41 := by
    intro x hx
    obtain ⟨j, hj, rfl⟩ := List.mem_iff_getElem.1 hx
    have hj' : j < dim := by omega
    have h1 := hc j hj'
    obtain ⟨h2, h3⟩ := mean_bound h hj'
    have e : c.getD j F32.zero = c[j] := by simp [List.getD, hj]
    rw [e] at h1
    have h4 := abs_le.1 h1
    have h5 := abs_le.1 h2
    have h6 : (2 : ℚ) ^ 41 = 2 * 2 ^ 40 := by norm_num
    rw [abs_le, h6]
    constructor <;> linarith
  refine le_trans (sqDist_bound hcb (h.size v hv)) ?_
  rw [hcl]
  have : (dim : ℚ) ≤ 2 ^ 32 := by exact_mod_cast hd
  calc (dim : ℚ) * (2 ^ 41 + 2 ^ 40) ^ 2 ≤ 2 ^ 32 * (2 ^ 41 + 2 ^ 40) ^ 2 := by gcongr
    _ ≤ _ := by norm_num

/-- **C102 (the entry point).** For every data set of moderate size, in every order of the additions, with division or multiplication by the reciprocal: the entry point is a point of the data that
is nearest to the computed centre up to the errors of the distances, and the centre is the exact mean up to `meanErr`.  Missing: sums with more than 2^22 - 6 additions one after the other, for which this is wrong (below). -/
theorem C102_medoid_partial (recip : Bool) {ftz : Bool} {U T : SumTree} {dim : Nat} {data : List (List F32)} (h : MeanOk ftz U dim data) (hT : T.Sums dim) (hd : dim ≤ 2 ^ 32)
    (hh : T.height + 3 ≤ 2 ^ 22) (ho : T.ops ≤ 2 ^ 100) :
    ∃ c m v, centerF ftz recip U data dim = .ok c ∧ c.length = dim ∧ (∀ j < dim, |value (c.getD j F32.zero) - exactMean data j| ≤ meanErr ftz U data j) ∧
      medoidF ftz recip U T data dim = .ok m ∧ data[m]? = some v ∧ ∀ w ∈ data, sqDistVal c v - l2Err ftz T c v ≤ sqDistVal c w + l2Err ftz T c w := by
  obtain ⟨c, ec, hcl, hcp, hc⟩ := C102_center recip h
  have hok : ∀ v ∈ data, L2Ok ftz T dim c v := fun v hv => center_l2 h hT hd hh ho hcl hcp hc hv
  have hds : data.mapM (l2F32 ftz T c) = .ok (data.map (l2Cmp ftz T c)) := by
    refine mapM_eq_map _ _ _ (fun v hv => ?_)
    obtain ⟨r, e, -⟩ := C93_l2_close ftz (hok v hv)
    unfold l2Cmp
    rw [e]
  obtain ⟨m, x, em, hx, hmin, -⟩ := minIndex_spec (ds := data.map (l2Cmp ftz T c)) (by simpa using h.nonempty) (by
    intro x hx
    obtain ⟨v, hv, rfl⟩ := List.mem_map.1 hx
    exact F32.isNum_of_lt_left (l2Cmp_close (hok v hv)).2.1)
  rw [List.getElem?_map, Option.map_eq_some_iff] at hx
  obtain ⟨v, hv, rfl⟩ := hx
  refine ⟨c, m, v, ec, hcl, hc, ?_, hv, fun w hw => ?_⟩
  · unfold medoidF
    rw [ec, Res.ok_bind, hds, Res.ok_bind, em]
  · have hvm := List.mem_of_getElem? hv
    obtain ⟨f1, -, c1⟩ := l2Cmp_close (hok v hvm)
    obtain ⟨f2, -, c2⟩ := l2Cmp_close (hok w hw)
    have := (le_iff_value f1 f2).1 (hmin _ (List.mem_map_of_mem hw))
    have h1 := abs_le.1 c1
    have h2 := abs_le.1 c2
    linarith

/-! ## The loops as they are written -/

theorem units_sign {x : F32} (h : x.units ≠ 0) : x.sign = decide (x.units < 0) := by
  unfold F32.units at h ⊢
  cases hs : x.sign
  · symm
    rw [decide_eq_false_iff_not, not_lt]
    simp only [Bool.false_eq_true, if_false]
    exact Int.natCast_nonneg _
  · simp only [hs, if_true] at h ⊢
    symm
    rw [decide_eq_true_iff]
    omega

theorem mul_one_F32 {ftz : Bool} {x : F32} (h : Plain ftz x) : F32.mul ftz x F32.one = x := by
  have h1 : Spec.Finite F32.one := by unfold Spec.Finite; decide
  have hpm := pack_mag false (mag_lt x)
  have hps := pack_sign false (mag_lt x)
  have hone : F32.one.units = 2 ^ 149 := by decide +kernel
  have ho : F32.one.sign = false := by decide
  have hc : Clean ftz (F32.pack false x.mag) := by
    refine ⟨hps, by rw [hpm]; exact (finite_mag.1 h.1).le, fun hft => ?_⟩
    rw [hpm]
    rcases h.2 hft with h0 | h0
    · left
      have := abs_pack x
      rw [h0, abs_zero, ← magnitude_zero] at this
      exact (magnitude_strictMono.injective this).symm
    · right
      by_contra hlt
      have h2 := magnitude_strictMono (show x.mag < 8388608 by omega)
      rw [abs_pack] at h0
      have h3 : magnitude 8388608 = 2 ^ (-126 : Int) := by norm_num [magnitude]
      linarith
  have hm := congrArg F32.mag (round_self ftz hc (by rw [finite_mag, hpm]; exact h.1))
  have hun : ((F32.pack false x.mag).units * 2 ^ 149).natAbs = (x.units * 2 ^ 149).natAbs := by rw [Int.natAbs_mul, Int.natAbs_mul, units_natAbs, units_natAbs, hpm]
  rw [round_mag, hun, hpm] at hm
  rw [mul_eq ftz h.1 h1, hone, ho]
  have hsign : (F32.round ftz (x.sign != false) (x.units * 2 ^ 149) 298).sign = x.sign := by
    rw [round_sign]
    by_cases h0 : x.units = 0
    · rw [h0]; simp
    · rw [if_neg (by positivity), units_sign h0]
      congr 1
      rw [eq_iff_iff]
      constructor
      · intro h; by_contra hc; have := mul_nonneg (not_lt.1 hc) (show (0 : Int) ≤ 2 ^ 149 by positivity); omega
      · intro h; exact mul_neg_of_neg_of_pos h (by positivity)
  rw [← pack_self (F32.round ftz (x.sign != false) (x.units * 2 ^ 149) 298), hsign, round_mag, hm, pack_self]

theorem sum_loop (ftz : Bool) (col : List F32) (hp : ∀ x ∈ col, Plain ftz x) : ∀ k ≤ col.length,
    (serial k).eval ftz (dotFactor col (List.replicate col.length F32.one)) = .ok ((col.take k).foldl (F32.add ftz) F32.zero) := by
  intro k
  induction k with
  | zero => intro _; rfl
  | succ k ih =>
    intro hk
    have hf := dotFactor_ok (a := col) (b := List.replicate col.length F32.one) (i := k) (by omega) (by simp; omega)
    rw [List.getElem_replicate] at hf
    have e := eval_add_ok (ih (by omega)) (eval_term_ok (ftz := ftz) hf)
    rw [mul_one_F32 (hp _ (List.getElem_mem _))] at e
    rw [List.take_add_one, List.getElem?_eq_getElem (by omega), Option.toList_some, List.foldl_append]
    exact e

theorem dist_loop {ftz : Bool} {a b : List F32} : ∀ k, k ≤ a.length → k ≤ b.length →
    (serial k).eval ftz (l2Factor ftz a b) = .ok ((List.range k).foldl (fun acc j => F32.add ftz acc
      (F32.mul ftz (F32.sub ftz (a.getD j F32.zero) (b.getD j F32.zero)) (F32.sub ftz (a.getD j F32.zero) (b.getD j F32.zero)))) F32.zero) := by
  intro k
  induction k with
  | zero => intro _ _; rfl
  | succ k ih =>
    intro hka hkb
    have hf : l2Factor ftz a b k = .ok (F32.sub ftz (a.getD k F32.zero) (b.getD k F32.zero), F32.sub ftz (a.getD k F32.zero) (b.getD k F32.zero)) := by
      unfold l2Factor
      rw [rd_getD_zero (by omega), rd_getD_zero (by omega)]
      rfl
    rw [List.range_succ, List.foldl_append]
    exact eval_add_ok (ih (by omega) (by omega)) (eval_term_ok (ftz := ftz) hf)

theorem daz_flushed {ftz : Bool} {x : F32} (h : ftz = true → x.mag = 0 ∨ 8388608 ≤ x.mag) : F32.daz ftz x = x := by
  unfold F32.daz
  split
  · rename_i hc
    rw [Bool.and_eq_true, decide_eq_true_iff] at hc
    rcases h hc.1 with h0 | h0
    · conv_rhs => rw [← pack_self x, h0]
    · omega
  · rfl

theorem inf_flushed (s : Bool) : (F32.pack s 2139095040).mag = 0 ∨ 8388608 ≤ (F32.pack s 2139095040).mag := by
  right; rw [pack_mag _ (by norm_num)]; norm_num

theorem nan_flushed : F32.nan.mag = 0 ∨ 8388608 ≤ F32.nan.mag := by right; decide

theorem mul_flushed (x y : F32) : (F32.mul true x y).mag = 0 ∨ 8388608 ≤ (F32.mul true x y).mag := by
  unfold F32.mul
  split
  · exact nan_flushed
  · split
    · split
      · exact nan_flushed
      · exact inf_flushed _
    · exact round_not_tiny _ _ _

theorem div_flushed (x y : F32) : (F32.div true x y).mag = 0 ∨ 8388608 ≤ (F32.div true x y).mag := by
  by_cases hx : Spec.Finite x
  · by_cases hy : Spec.Finite y
    · by_cases hy0 : y.mag = 0
      · unfold F32.div
        simp only [not_nan hx, not_nan hy, not_inf hx, not_inf hy, Bool.or_self, Bool.false_eq_true, if_false, if_pos hy0]
        split
        · exact nan_flushed
        · exact inf_flushed _
      · rw [div_regular true hx hy hy0, pack_mag _ (by split <;> omega)]
        split
        · left; rfl
        · rename_i hc
          rw [Bool.true_and, decide_eq_true_iff] at hc
          by_cases hn : x.units.natAbs = 0
          · left
            have hd0 : 0 < y.units.natAbs := by
              rw [units_natAbs]
              split
              · omega
              · positivity
            rw [hn, nearestBits_null _ hd0]; rfl
          · right
            have hd0 : 0 < y.units.natAbs := by
              rw [units_natAbs]
              split
              · omega
              · positivity
            refine le_min (nearestBits_normal (by omega) hd0 ?_) (by norm_num)
            unfold fval
            have h3 : (0 : ℚ) < y.units.natAbs := by exact_mod_cast hd0
            rw [le_div_iff₀ h3]
            have h1 : (33554431 : ℚ) * y.units.natAbs ≤ (x.units.natAbs : ℚ) * 2 ^ 151 := by exact_mod_cast not_lt.1 hc
            have h2 : (2 : ℚ) ^ (-126 : Int) - 2 ^ (-151 : Int) = 33554431 / 2 ^ 151 := by norm_num
            rw [h2, div_mul_eq_mul_div, div_le_iff₀ (by positivity)]
            exact h1
    · unfold F32.div
      rw [finite_mag, not_lt] at hy
      have hx' := not_nan hx
      have hxi := not_inf hx
      simp only [hx', hxi, Bool.false_or, Bool.false_eq_true, if_false]
      by_cases hyn : y.isNan = true
      · rw [if_pos hyn]; exact nan_flushed
      · have hyi : y.isInf = true := by
          unfold F32.isNan at hyn
          unfold F32.isInf
          rw [decide_eq_true_iff] at hyn ⊢
          omega
        rw [if_neg hyn, if_pos hyi]
        left; exact pack_mag _ (by norm_num)
  · rw [finite_mag, not_lt] at hx
    unfold F32.div
    by_cases hyn : (x.isNan || y.isNan) = true
    · simp only [hyn, if_true]; exact nan_flushed
    · have hxi : x.isInf = true := by
        rw [Bool.or_eq_true, not_or] at hyn
        unfold F32.isNan at hyn
        unfold F32.isInf
        rw [decide_eq_true_iff] at hyn ⊢
        omega
      simp only [hyn, hxi, if_true, Bool.false_eq_true, if_false]
      split
      · exact nan_flushed
      · exact inf_flushed _

theorem over_flushed (recip : Bool) (s : F32) (n : Nat) : (overF true recip s n).mag = 0 ∨ 8388608 ≤ (overF true recip s n).mag := by
  unfold overF
  split
  · exact mul_flushed _ _
  · exact div_flushed _ _

/-- The computed mean of a coordinate. -/
def meanF (ftz recip : Bool) (data : List (List F32)) (j : Nat) : F32 := overF ftz recip (data.foldl (fun acc v => F32.add ftz acc (v.getD j F32.zero)) F32.zero) data.length

theorem loop_center (recip : Bool) {ftz : Bool} {dim : Nat} {data : List (List F32)} (hl : ∀ v ∈ data, v.length = dim) (hp : ∀ v ∈ data, ∀ x ∈ v, Plain ftz x) :
    centroid (medOps ftz recip) data dim = .ok ((List.range dim).map (meanF ftz recip data)) ∧
    centerF ftz recip (serial data.length) data dim = .ok ((List.range dim).map (meanF ftz recip data)) := by
  constructor
  · unfold centroid
    refine mapM_eq_map _ _ _ (fun j hj => ?_)
    rw [foldlM_ok (g := fun acc v => F32.add ftz acc (v.getD j F32.zero))]
    · rfl
    · intro b v hv
      rw [rd_getD_zero (by rw [hl v hv]; exact List.mem_range.1 hj)]
      rfl
  · unfold centerF
    refine mapM_eq_map _ _ _ (fun j hj => ?_)
    have hj := List.mem_range.1 hj
    have e : data.mapM (fun v => rd v j) = .ok (data.map (fun v => v.getD j F32.zero)) := mapM_eq_map _ _ _ (fun v hv => rd_getD_zero (by rw [hl v hv]; exact hj))
    have hcp : ∀ x ∈ data.map (fun v => v.getD j F32.zero), Plain ftz x := by
      intro x hx
      obtain ⟨v, hv, rfl⟩ := List.mem_map.1 hx
      exact hp v hv _ (mem_getD (by rw [hl v hv]; exact hj))
    have hs := sum_loop ftz _ hcp _ le_rfl
    rw [List.take_length, List.foldl_map] at hs
    have hlen : (data.map (fun v => v.getD j F32.zero)).length = data.length := List.length_map _
    have h1 : ∀ x ∈ List.replicate data.length F32.one, Plain ftz x := by
      intro x hx
      rw [List.eq_of_mem_replicate hx]
      exact ⟨by unfold Spec.Finite; decide, fun _ => Or.inr (by norm_num [value, F32.one, magnitude])⟩
    rw [hlen] at hs
    rw [e, Res.ok_bind, hlen, dotF32_plain _ hcp h1, hs]
    rfl

theorem loop_dist (recip : Bool) {ftz : Bool} {dim : Nat} {c v : List F32} (hc : c.length = dim) (hv : v.length = dim) (hcp : ∀ x ∈ c, F32.daz ftz x = x) (hp : ∀ x ∈ v, Plain ftz x) :
    ∃ r, distToCenter (medOps ftz recip) c v = .ok r ∧ l2F32 ftz (serial dim) c v = .ok r := by
  have hm : c.map (F32.daz ftz) = c := by
    conv_rhs => rw [← List.map_id c]
    exact List.map_congr_left hcp
  have h2 := dist_loop (ftz := ftz) (a := c) (b := v) dim (by omega) (by omega)
  refine ⟨_, ?_, by unfold l2F32; rw [hm, map_daz hp]; exact h2⟩
  · unfold distToCenter
    rw [hc]
    refine foldlM_ok _ _ _ _ ?_
    intro b j hj
    have hj := List.mem_range.1 hj
    rw [rd_getD_zero (show j < c.length by omega), rd_getD_zero (show j < v.length by omega)]
    rfl

/-- **C102 (the loops).** `calculate_medoid_of_data` without reordering is one of the ways to evaluate the sums. -/
theorem C102_loop (recip : Bool) {ftz : Bool} {dim : Nat} {data : List (List F32)} (hl : ∀ v ∈ data, v.length = dim) (hp : ∀ v ∈ data, ∀ x ∈ v, Plain ftz x) :
    medoid (medOps ftz recip) data dim = medoidF ftz recip (serial data.length) (serial dim) data dim ∧ (serial data.length).Sums data.length ∧
    (serial data.length).height = data.length ∧ (serial data.length).ops = 2 * data.length := by
  refine ⟨?_, serial_sums _, serial_height _, serial_ops _⟩
  obtain ⟨e1, e2⟩ := loop_center recip hl hp
  have hcp : ∀ x ∈ (List.range dim).map (meanF ftz recip data), F32.daz ftz x = x := by
    intro x hx
    obtain ⟨j, -, rfl⟩ := List.mem_map.1 hx
    refine daz_flushed (fun hft => ?_)
    subst hft
    exact over_flushed recip _ _
  unfold medoid medoidF
  rw [e1, e2, Res.ok_bind, Res.ok_bind]
  have : ∀ l : List (List F32), (∀ v ∈ l, v ∈ data) → l.mapM (distToCenter (medOps ftz recip) ((List.range dim).map (meanF ftz recip data))) =
      l.mapM (l2F32 ftz (serial dim) ((List.range dim).map (meanF ftz recip data))) := by
    intro l
    induction l with
    | nil => intro _; rfl
    | cons v l ih =>
      intro h
      obtain ⟨r, h1, h2⟩ := loop_dist recip (c := (List.range dim).map (meanF ftz recip data)) (by simp) (hl v (h v (by simp))) hcp (hp v (h v (by simp)))
      rw [List.mapM_cons, List.mapM_cons, h1, h2, ih (fun w hw => h w (by simp [hw]))]
  rw [this data (fun v hv => hv)]

/-! ## Many points -/

/-- Adding 1 again and again stops at 2^24. -/
theorem ones_saturate (ftz : Bool) : ∀ k : Nat, FloatInt ((List.replicate k F32.one).foldl (F32.add ftz) F32.zero) (min k 16777216 : Nat) := by
  have h1 : FloatInt F32.one 1 := ⟨by unfold Spec.Finite; decide, by norm_num [value, F32.one, magnitude]⟩
  intro k
  induction k with
  | zero => exact ⟨show F32.zero.mag < 2139095040 by decide, by norm_num [value, F32.zero, magnitude]⟩
  | succ k ih =>
    rw [List.replicate_succ', List.foldl_append]
    show FloatInt (F32.add ftz ((List.replicate k F32.one).foldl (F32.add ftz) F32.zero) F32.one) _
    by_cases hk : k < 16777216
    · have := add_int ftz ih h1 (IntRep.small (by rw [abs_le]; omega))
      rwa [show ((min k 16777216 : Nat) : Int) + 1 = (min (k + 1) 16777216 : Nat) by omega] at this
    · have hx : (List.replicate k F32.one).foldl (F32.add ftz) F32.zero = ⟨0x4b800000#32⟩ := by
        have h2 : value (⟨0x4b800000#32⟩ : F32) = 16777216 := by norm_num [value, magnitude]
        refine value_inj ?_ ?_
        · rw [ih.2, Nat.min_eq_right (by omega)]; norm_num
        · rw [ih.2, h2, Nat.min_eq_right (by omega)]; norm_num
      have ha : F32.add ftz ⟨0x4b800000#32⟩ F32.one = ⟨0x4b800000#32⟩ := by cases ftz <;> decide +kernel
      rw [hx] at ih ⊢
      rw [ha]
      rwa [Nat.min_eq_right (by omega), ← Nat.min_eq_right (show 16777216 ≤ k + 1 by omega)] at ih

/-- `n` equal points (1, 0, ..., 0) followed by the point 0, in `k + 1` dimensions. -/
def manyOnes (n k : Nat) : List (List F32) := List.replicate n (F32.one :: List.replicate k F32.zero) ++ [List.replicate (k + 1) F32.zero]

theorem plain_zero_one (ftz : Bool) : Plain ftz F32.zero ∧ Plain ftz F32.one :=
  ⟨⟨by unfold Spec.Finite; decide, fun _ => Or.inl (by norm_num [value, F32.zero, magnitude])⟩,
    ⟨by unfold Spec.Finite; decide, fun _ => Or.inr (by norm_num [value, F32.one, magnitude])⟩⟩

theorem manyOnes_mem {n k : Nat} {v : List F32} (hv : v ∈ manyOnes n k) : v = F32.one :: List.replicate k F32.zero ∨ v = List.replicate (k + 1) F32.zero := by
  unfold manyOnes at hv
  rcases List.mem_append.1 hv with h | h
  · exact Or.inl (List.eq_of_mem_replicate h)
  · exact Or.inr (by simpa using h)

theorem sum_zero (ftz : Bool) : ∀ n : Nat, (List.replicate n F32.zero).foldl (F32.add ftz) F32.zero = F32.zero := by
  intro n
  induction n with
  | zero => rfl
  | succ n ih => rw [List.replicate_succ, List.foldl_cons, add_zero_zero, ih]

theorem getD_replicate_zero (k j : Nat) : (List.replicate k F32.zero).getD j F32.zero = F32.zero := by
  rw [List.getD_eq_getElem?_getD, List.getElem?_replicate]
  split <;> rfl

/-- **C102 (negative).** The sums are in `float`: with 2^26 points or more the mean of a coordinate that is 1 for all points but one is computed as at most about 1/4, so that the entry point is the
one point that is farthest from the mean, by a factor of more than 2^26. -/
theorem C102_many_points (ftz recip : Bool) {n k : Nat} (h1 : 67108864 ≤ n) (h2 : n + 1 < 4294967296) (hk : k + 1 ≤ 2 ^ 20) :
    medoid (medOps ftz recip) (manyOnes n k) (k + 1) = .ok n ∧ (manyOnes n k)[n]? = some (List.replicate (k + 1) F32.zero) ∧
    ∀ (i : Nat) (v : List F32), i < n → (manyOnes n k)[i]? = some v →
      2 ^ 52 * meanDist (manyOnes n k) (k + 1) v ≤ meanDist (manyOnes n k) (k + 1) (List.replicate (k + 1) F32.zero) := by
  obtain ⟨p0, p1⟩ := plain_zero_one ftz
  have v0 : value F32.zero = 0 := by norm_num [value, F32.zero, magnitude]
  have v1 : value F32.one = 1 := by norm_num [value, F32.one, magnitude]
  have hlen : (manyOnes n k).length = n + 1 := by simp [manyOnes]
  have hlast : (manyOnes n k)[n]? = some (List.replicate (k + 1) F32.zero) := by simp [manyOnes]
  have hdims : ∀ v ∈ manyOnes n k, v.length = k + 1 := by
    intro v hv
    rcases manyOnes_mem hv with rfl | rfl <;> simp
  have hplain : ∀ v ∈ manyOnes n k, ∀ x ∈ v, Plain ftz x := by
    intro v hv x hx
    rcases manyOnes_mem hv with rfl | rfl
    · rcases List.mem_cons.1 hx with rfl | hx
      · exact p1
      · rw [List.eq_of_mem_replicate hx]; exact p0
    · rw [List.eq_of_mem_replicate hx]; exact p0
  -- the computed centre
  have hcol : ∀ j, (manyOnes n k).map (fun v => v.getD j F32.zero) = List.replicate n (if j = 0 then F32.one else F32.zero) ++ [F32.zero] := by
    intro j
    have ez : ∀ m j, (List.replicate m F32.zero).getD j F32.zero = F32.zero := by
      intro m j
      rw [List.getD_eq_getElem?_getD, List.getElem?_replicate]
      split <;> rfl
    unfold manyOnes
    rw [List.map_append, List.map_replicate, List.map_singleton, ez]
    cases j with
    | zero => rfl
    | succ j =>
      rw [if_neg (by omega)]
      show List.replicate n ((List.replicate k F32.zero).getD j F32.zero) ++ _ = _
      rw [ez]
  have hfold : ∀ j, (manyOnes n k).foldl (fun acc v => F32.add ftz acc (v.getD j F32.zero)) F32.zero =
      F32.add ftz ((List.replicate n (if j = 0 then F32.one else F32.zero)).foldl (F32.add ftz) F32.zero) F32.zero := by
    intro j
    have := List.foldl_map (f := fun v : List F32 => v.getD j F32.zero) (g := F32.add ftz) (l := manyOnes n k) (init := F32.zero)
    rw [← this, hcol j, List.foldl_append]
    rfl
  have hs0 : FloatInt (F32.add ftz ((List.replicate n F32.one).foldl (F32.add ftz) F32.zero) F32.zero) 16777216 := by
    have h3 := ones_saturate ftz n
    rw [Nat.min_eq_right (by omega)] at h3
    have h4 := add_int ftz h3 (show FloatInt F32.zero 0 from ⟨p0.1, by rw [v0]; norm_num⟩) (IntRep.small (by norm_num))
    simpa using h4
  generalize hS : F32.add ftz ((List.replicate n F32.one).foldl (F32.add ftz) F32.zero) F32.zero = s0 at hs0
  obtain ⟨hf, hnear, hge, hle⟩ := ofNat_range (n := n + 1) (by omega) h2
  have hn1 : (67108864 : ℚ) ≤ n := by exact_mod_cast h1
  have e24 : (2 : ℚ) ^ (-24 : Int) = 1 / 16777216 := by norm_num
  have hM : 67108850 ≤ value (F32.ofNat (n + 1)) := by
    have := (abs_le.1 hnear).1
    rw [e24] at this
    push_cast at this
    linarith
  obtain ⟨pc, hc⟩ := over_err ftz recip hs0.1 (by rw [hs0.2]; norm_num) (n := n + 1) (by omega) h2
  obtain ⟨pz, hz⟩ := over_err ftz recip p0.1 (by rw [v0]; norm_num) (n := n + 1) (by omega) h2
  rw [v0, zero_div, abs_zero, zero_mul, zero_add, sub_zero] at hz
  generalize hC : overF ftz recip s0 (n + 1) = c0 at pc hc
  generalize hZ : overF ftz recip F32.zero (n + 1) = z at pz hz
  have hcen : (List.range (k + 1)).map (meanF ftz recip (manyOnes n k)) = c0 :: List.replicate k z := by
    have e0 : meanF ftz recip (manyOnes n k) 0 = c0 := by
      unfold meanF
      rw [hfold 0, if_pos rfl, hS, hlen, hC]
    have e1 : ∀ j, meanF ftz recip (manyOnes n k) (j + 1) = z := by
      intro j
      unfold meanF
      rw [hfold (j + 1), if_neg (by omega), sum_zero, add_zero_zero, hlen, hZ]
    rw [List.range_succ_eq_map, List.map_cons, e0, List.map_map]
    congr 1
    refine List.eq_replicate_iff.2 ⟨by simp, ?_⟩
    intro b hb
    obtain ⟨j, -, rfl⟩ := List.mem_map.1 hb
    exact e1 j
  have hq : value s0 / value (F32.ofNat (n + 1)) ≤ 26 / 100 ∧ 0 ≤ value s0 / value (F32.ofNat (n + 1)) := by
    rw [hs0.2]
    constructor
    · rw [div_le_iff₀ (by linarith)]
      norm_num
      linarith
    · exact div_nonneg (by norm_num) (by linarith)
  have ht : tiny ftz ≤ 1 / 1000 := le_trans (tiny_le ftz) (by norm_num)
  have e22 : (2 : ℚ) ^ (-22 : Int) = 1 / 4194304 := by norm_num
  have hc0 : -1 / 100 ≤ value c0 ∧ value c0 ≤ 27 / 100 := by
    rw [abs_of_nonneg hq.2, e22] at hc
    have := abs_le.1 hc
    constructor <;> linarith
  -- exact distances to the computed centre
  have hR0 := sqDistVal_nonneg (List.replicate k z) (List.replicate k F32.zero)
  have hkq : (k : ℚ) + 1 ≤ 2 ^ 20 := by exact_mod_cast hk
  have hk0 : (0 : ℚ) ≤ k := by positivity
  have hR1 : sqDistVal (List.replicate k z) (List.replicate k F32.zero) ≤ 1 / 1000 := by
    have h3 := sqDist_bound (a := List.replicate k z) (b := List.replicate k F32.zero) (A := 2 ^ (-126 : Int)) (B := 0)
      (by intro x hx; rw [List.eq_of_mem_replicate hx]; exact le_trans hz (tiny_le ftz))
      (by intro x hx; rw [List.eq_of_mem_replicate hx, v0, abs_zero])
    rw [List.length_replicate] at h3
    refine le_trans h3 ?_
    calc (k : ℚ) * (2 ^ (-126 : Int) + 0) ^ 2 ≤ 2 ^ 20 * (2 ^ (-126 : Int) + 0) ^ 2 := by gcongr; linarith
      _ ≤ 1 / 1000 := by norm_num
  have hD1 : sqDistVal (c0 :: List.replicate k z) (F32.one :: List.replicate k F32.zero) = (value c0 - 1) ^ 2 + sqDistVal (List.replicate k z) (List.replicate k F32.zero) := by
    unfold sqDistVal
    rw [List.zipWith_cons_cons, List.sum_cons, v1]
  have hD0 : sqDistVal (c0 :: List.replicate k z) (List.replicate (k + 1) F32.zero) = value c0 ^ 2 + sqDistVal (List.replicate k z) (List.replicate k F32.zero) := by
    unfold sqDistVal
    rw [List.replicate_succ, List.zipWith_cons_cons, List.sum_cons, v0, sub_zero]
  generalize hRR : sqDistVal (List.replicate k z) (List.replicate k F32.zero) = R at *
  have hs1 : (73 / 100) ^ 2 ≤ (value c0 - 1) ^ 2 := by
    have : (value c0 - 1) ^ 2 = (1 - value c0) ^ 2 := by ring
    rw [this]
    exact pow_le_pow_left₀ (by norm_num) (by linarith [hc0.2]) 2
  have hs2 : (value c0 - 1) ^ 2 ≤ 2 ^ 2 := sq_le_sq' (by linarith [hc0.1]) (by linarith [hc0.2])
  have hs3 : value c0 ^ 2 ≤ (27 / 100) ^ 2 := sq_le_sq' (by linarith [hc0.1]) hc0.2
  have hpcz : ∀ x ∈ c0 :: List.replicate k z, Plain ftz x := by
    intro x hx
    rcases List.mem_cons.1 hx with rfl | hx
    · exact pc
    · rw [List.eq_of_mem_replicate hx]; exact pz
  have hclen : (c0 :: List.replicate k z).length = k + 1 := by simp
  have hh : (serial (k + 1)).height + 3 ≤ 2 ^ 22 := by rw [serial_height]; omega
  have hops : (serial (k + 1)).ops ≤ 2 ^ 100 := by rw [serial_ops]; omega
  have ok1 : L2Ok ftz (serial (k + 1)) (k + 1) (c0 :: List.replicate k z) (F32.one :: List.replicate k F32.zero) :=
    ⟨serial_sums _, hclen, by simp, hpcz, hplain _ (by simp [manyOnes]; omega), by omega, hops, by rw [hD1]; refine le_trans (add_le_add hs2 hR1) (by norm_num)⟩
  have ok0 : L2Ok ftz (serial (k + 1)) (k + 1) (c0 :: List.replicate k z) (List.replicate (k + 1) F32.zero) :=
    ⟨serial_sums _, hclen, by simp, hpcz, hplain _ (by simp [manyOnes]), by omega, hops, by rw [hD0]; refine le_trans (add_le_add hs3 hR1) (by norm_num)⟩
  have hlt : (l2Cmp ftz (serial (k + 1)) (c0 :: List.replicate k z) (List.replicate (k + 1) F32.zero)).lt
      (l2Cmp ftz (serial (k + 1)) (c0 :: List.replicate k z) (F32.one :: List.replicate k F32.zero)) = true := by
    obtain ⟨f1, -, a1⟩ := l2Cmp_close ok1
    obtain ⟨f0, -, a0⟩ := l2Cmp_close ok0
    rw [lt_iff_value f0 f1]
    have b1 := (abs_le.1 a1).1
    have b0 := (abs_le.1 a0).2
    unfold l2Err at b1 b0
    rw [hD1, serial_height, serial_ops] at b1
    rw [hD0, serial_height, serial_ops] at b0
    have hE : (((k + 1 : Nat) : ℚ) + 3) * 2 ^ (-23 : Int) ≤ 1 / 4 := by
      push_cast
      calc ((k : ℚ) + 1 + 3) * 2 ^ (-23 : Int) ≤ (2 ^ 20 + 3) * 2 ^ (-23 : Int) := by gcongr
        _ ≤ 1 / 4 := by norm_num
    have hO : ((2 * (k + 1) : Nat) : ℚ) * (if ftz then 2 ^ (-124 : Int) else 2 ^ (-148 : Int)) ≤ 1 / 1000 := by
      calc ((2 * (k + 1) : Nat) : ℚ) * (if ftz then 2 ^ (-124 : Int) else 2 ^ (-148 : Int)) ≤ (2 * 2 ^ 20) * 2 ^ (-124 : Int) := by
            refine mul_le_mul (by push_cast; linarith) ?_ (by split <;> positivity) (by positivity)
            split
            · exact le_rfl
            · exact zpow_le_zpow_right₀ (by norm_num) (by norm_num)
        _ ≤ 1 / 1000 := by norm_num
    have m1 := mul_le_mul_of_nonneg_right hE (show 0 ≤ (value c0 - 1) ^ 2 + R by positivity)
    have m0 := mul_le_mul_of_nonneg_right hE (show 0 ≤ value c0 ^ 2 + R by positivity)
    generalize ((2 * (k + 1) : Nat) : ℚ) * (if ftz then 2 ^ (-124 : Int) else 2 ^ (-148 : Int)) = o at *
    generalize (((k + 1 : Nat) : ℚ) + 3) * 2 ^ (-23 : Int) * ((value c0 - 1) ^ 2 + R) = w1 at *
    generalize (((k + 1 : Nat) : ℚ) + 3) * 2 ^ (-23 : Int) * (value c0 ^ 2 + R) = w0 at *
    generalize (value c0 - 1) ^ 2 = q1 at *
    generalize value c0 ^ 2 = q0 at *
    norm_num at hs1 hs3
    linarith
  -- the entry point
  have hok : ∀ v ∈ manyOnes n k, L2Ok ftz (serial (k + 1)) (k + 1) (c0 :: List.replicate k z) v := by
    intro v hv
    rcases manyOnes_mem hv with rfl | rfl
    · exact ok1
    · exact ok0
  have hmem : ∀ (i : Nat) (v : List F32), i < n → (manyOnes n k)[i]? = some v → v = F32.one :: List.replicate k F32.zero := by
    intro i v hi hv
    unfold manyOnes at hv
    rw [List.getElem?_append_left (by simpa using hi), List.getElem?_replicate, if_pos hi] at hv
    exact (Option.some.inj hv).symm
  refine ⟨?_, hlast, ?_⟩
  · rw [(C102_loop recip hdims hplain).1]
    unfold medoidF
    rw [(loop_center recip hdims hplain).2, Res.ok_bind, hcen]
    have hds : (manyOnes n k).mapM (l2F32 ftz (serial (k + 1)) (c0 :: List.replicate k z)) = .ok ((manyOnes n k).map (l2Cmp ftz (serial (k + 1)) (c0 :: List.replicate k z))) := by
      refine mapM_eq_map _ _ _ (fun v hv => ?_)
      obtain ⟨r, e, -⟩ := C93_l2_close ftz (hok v hv)
      unfold l2Cmp
      rw [e]
    rw [hds, Res.ok_bind]
    obtain ⟨m, x, em, hx, hmin, -⟩ := minIndex_spec (ds := (manyOnes n k).map (l2Cmp ftz (serial (k + 1)) (c0 :: List.replicate k z))) (by simp [manyOnes]) (by
      intro x hx
      obtain ⟨v, hv, rfl⟩ := List.mem_map.1 hx
      exact F32.isNum_of_lt_left (l2Cmp_close (hok v hv)).2.1)
    rw [em]
    rw [List.getElem?_map, Option.map_eq_some_iff] at hx
    obtain ⟨v, hv, rfl⟩ := hx
    have hmn : m < n + 1 := by rw [← hlen]; exact (List.getElem?_eq_some_iff.1 hv).1
    have : ¬ m < n := by
      intro hm
      rw [hmem m v hm hv] at hmin
      have := hmin _ (List.mem_map_of_mem (List.mem_of_getElem? hlast))
      rw [F32.lt_eq_false_of_le this] at hlt
      exact absurd hlt (by simp)
    rw [show m = n by omega]
  · intro i v hi hv
    rw [hmem i v hi hv]
    have hmean : ∀ j, exactMean (manyOnes n k) j = (if j = 0 then (n : ℚ) else 0) / (n + 1) := by
      intro j
      unfold exactMean
      have : (manyOnes n k).map (fun x => value (x.getD j F32.zero)) = ((manyOnes n k).map (fun v => v.getD j F32.zero)).map value := by rw [List.map_map]; rfl
      rw [this, hcol j, hlen]
      by_cases hj : j = 0
      · simp [hj, v0, v1]
      · simp [hj, v0]
    unfold meanDist
    rw [List.range_succ_eq_map]
    simp only [List.map_cons, List.map_map, List.sum_cons, hmean]
    have z1 : ((List.range k).map ((fun j => ((if j = 0 then (n : ℚ) else 0) / (n + 1) - value ((F32.one :: List.replicate k F32.zero).getD j F32.zero)) ^ 2) ∘ Nat.succ)).sum = 0 := by
      refine List.sum_eq_zero (fun x hx => ?_)
      obtain ⟨j, -, rfl⟩ := List.mem_map.1 hx
      show ((if j + 1 = 0 then (n : ℚ) else 0) / (n + 1) - value ((List.replicate k F32.zero).getD j F32.zero)) ^ 2 = 0
      rw [getD_replicate_zero, v0, if_neg (by omega)]
      norm_num
    have z0 : ((List.range k).map ((fun j => ((if j = 0 then (n : ℚ) else 0) / (n + 1) - value ((List.replicate (k + 1) F32.zero).getD j F32.zero)) ^ 2) ∘ Nat.succ)).sum = 0 := by
      refine List.sum_eq_zero (fun x hx => ?_)
      obtain ⟨j, -, rfl⟩ := List.mem_map.1 hx
      show ((if j + 1 = 0 then (n : ℚ) else 0) / (n + 1) - value ((List.replicate (k + 1) F32.zero).getD (j + 1) F32.zero)) ^ 2 = 0
      rw [getD_replicate_zero, v0, if_neg (by omega)]
      norm_num
    rw [z1, z0]
    have q1 : (n : ℚ) / (n + 1) - 1 = -1 / (n + 1) := by field_simp; ring
    rw [show (F32.one :: List.replicate k F32.zero).getD 0 F32.zero = F32.one from rfl, getD_replicate_zero, if_pos trivial, v0, v1, q1, sub_zero, add_zero, add_zero, div_pow, div_pow, ← mul_div_assoc]
    refine div_le_div_of_nonneg_right ?_ (by positivity)
    have := pow_le_pow_left₀ (by norm_num) hn1 2
    norm_num at this ⊢
    linarith

/-! ## Examples -/

/-- Four points. -/
def exMedoidF : List (List F32) := [[⟨0x40000000#32⟩, ⟨0x3f000000#32⟩], [⟨0x3f000000#32⟩, ⟨0x40000000#32⟩], [⟨0x40000000#32⟩, ⟨0x40000000#32⟩], [⟨0x3f800000#32⟩, ⟨0x3f000000#32⟩]]

theorem exMedoidF_small : ∀ v ∈ exMedoidF, Small2 v := by
  intro v hv
  simp only [exMedoidF, List.mem_cons, List.not_mem_nil, or_false] at hv
  rcases hv with rfl | rfl | rfl | rfl <;>
    exact ⟨_, _, rfl, ⟨by unfold Spec.Finite; decide, by norm_num [value, magnitude], by norm_num [value, magnitude]⟩,
      ⟨by unfold Spec.Finite; decide, by norm_num [value, magnitude], by norm_num [value, magnitude]⟩⟩

theorem exMedoidF_ok {U : SumTree} (hU : U.Sums 4) (hh : U.height + 6 ≤ 2 ^ 22) (ho : U.ops ≤ 2 ^ 100) : MeanOk true U 2 exMedoidF where
  sums := hU
  nonempty := by decide
  count := by decide
  dims := by decide
  plain := fun v hv => (exMedoidF_small v hv).plain
  size := by
    intro v hv x hx
    obtain ⟨a, b, rfl, ⟨-, -, a2⟩, ⟨-, -, b2⟩⟩ := exMedoidF_small v hv
    simp only [List.mem_cons, List.not_mem_nil, or_false] at hx
    rcases hx with rfl | rfl
    · exact le_trans a2 (by norm_num)
    · exact le_trans b2 (by norm_num)
  height := hh
  ops := ho

/-- The sums in pairs, as a vectorised loop makes them. -/
example := C102_center true (exMedoidF_ok (U := .add (.add (.term 0) (.term 2)) (.add (.term 1) (.term 3))) (by unfold SumTree.Sums; decide) (by decide) (by decide))

example := C102_medoid_partial false (exMedoidF_ok (serial_sums 4) (by decide) (by decide)) (serial_sums 2) (by decide) (by decide) (by decide)

example := C102_loop true (ftz := true) (dim := 2) (data := exMedoidF) (by decide) (fun v hv => (exMedoidF_small v hv).plain)

/-- The centre is (11/8, 5/4), the entry point (1, 1/2), with division and with the reciprocal. -/
example : centerF true false (serial 4) exMedoidF 2 = .ok [⟨0x3fb00000#32⟩, ⟨0x3fa00000#32⟩] ∧ medoid (medOps true false) exMedoidF 2 = .ok 3 ∧ medoid (medOps true true) exMedoidF 2 = .ok 3 := by
  decide +kernel

example := C102_many_points true false (n := 67108864) (k := 127) (by decide) (by decide) (by decide)

/-- Not about the last point: 2^26 points of dimension 128 and this one. -/
example : (manyOnes 67108864 127).length = 67108865 := by unfold manyOnes; rw [List.length_append, List.length_replicate, List.length_singleton]

theorem num_int {x : F32} (h : Spec.Finite x ∧ ∃ a : Int, value x = a) : FloatInt x (value x).num := by
  obtain ⟨hf, a, ha⟩ := h
  refine ⟨hf, ?_⟩
  rw [ha, Rat.num_intCast]

theorem num_sum : ∀ l : List F32, (∀ x ∈ l, ∃ a : Int, value x = a) →
    ((dotInt (l.map (fun x => (value x).num)) (List.replicate l.length 1) : Int) : ℚ) = (l.map value).sum ∧
    ((absDotInt (l.map (fun x => (value x).num)) (List.replicate l.length 1) : Int) : ℚ) = (l.map (fun x => |value x|)).sum := by
  intro l
  induction l with
  | nil => intro _; simp [dotInt, absDotInt]
  | cons x l ih =>
    intro h
    obtain ⟨e1, e2⟩ := ih (fun y hy => h y (List.mem_cons_of_mem _ hy))
    obtain ⟨a, ha⟩ := h x List.mem_cons_self
    unfold dotInt absDotInt at *
    simp only [List.map_cons, List.length_cons, List.replicate_succ, List.zipWith_cons_cons, List.sum_cons, ha, Rat.num_intCast, mul_one]
    rw [Int.cast_add, Int.cast_add, Int.cast_abs]
    exact ⟨congrArg _ e1, congrArg _ e2⟩

/-- **C102 (whole numbers).** For whole numbers whose sums are at most 2^24, as for bytes of up to 65793 points, the centre is the exact mean up to one division, in any order of the
additions. -/
theorem C102_whole (ftz recip : Bool) {dim : Nat} {data : List (List F32)} (h : WholeData dim data) {U : SumTree} (hU : U.Sums data.length) :
    ∃ c, centerF ftz recip U data dim = .ok c ∧ c.length = dim ∧ (∀ x ∈ c, Plain ftz x) ∧
      ∀ j < dim, |value (c.getD j F32.zero) - exactMean data j| ≤ |exactMean data j| * (if recip then 2 ^ (-22 : Int) else 2 ^ (-24 : Int)) + (if ftz then 2 ^ (-126 : Int) else 2 ^ (-150 : Int)) := by
  have hN : 1 ≤ data.length := List.length_pos_iff.2 h.nonempty
  have hc := h.count
  have hn := ofNat_value (N := data.length) (by omega)
  have key : ∀ j, j < dim → ∃ x, (do
      let col ← data.mapM (fun v => rd v j)
      let s ← dotF32 ftz U col (List.replicate col.length F32.one)
      .ok (overF ftz recip s data.length) : Res F32) = .ok x ∧ Plain ftz x ∧
      |value x - exactMean data j| ≤ |exactMean data j| * (if recip then 2 ^ (-22 : Int) else 2 ^ (-24 : Int)) + (if ftz then 2 ^ (-126 : Int) else 2 ^ (-150 : Int)) := by
    intro j hj
    have e : data.mapM (fun v => rd v j) = .ok (data.map (fun v => v.getD j F32.zero)) := mapM_eq_map _ _ _ (fun v hv => rd_getD_zero (by rw [h.dims v hv]; exact hj))
    have hcol : ∀ x ∈ data.map (fun v => v.getD j F32.zero), Spec.Finite x ∧ ∃ a : Int, value x = a := by
      intro x hx
      obtain ⟨v, hv, rfl⟩ := List.mem_map.1 hx
      exact h.whole v hv _ (mem_getD (a := v) (i := j) (by rw [h.dims v hv]; exact hj))
    have hs := h.sums j hj
    have hmean : exactMean data j = ((data.map (fun v => v.getD j F32.zero)).map value).sum / data.length := by
      unfold exactMean
      rw [List.map_map]
      rfl
    have hs' : ((data.map (fun v => v.getD j F32.zero)).map (fun x => |value x|)).sum ≤ 16777216 := by rw [List.map_map]; exact hs
    generalize hcv : data.map (fun v => v.getD j F32.zero) = col at e hcol hmean hs'
    have hlen : col.length = data.length := by rw [← hcv, List.length_map]
    obtain ⟨e1, e2⟩ := num_sum col (fun x hx => (hcol x hx).2)
    have hx : IntVec col (col.map (fun x => (value x).num)) := by
      unfold IntVec
      rw [List.forall₂_map_right_iff, List.forall₂_same]
      exact fun x hx => num_int (hcol x hx)
    have hy : IntVec (List.replicate col.length F32.one) (List.replicate col.length 1) := by
      unfold IntVec
      rw [List.forall₂_iff_get]
      refine ⟨by simp, fun i h1 h2 => ?_⟩
      simp only [List.get_eq_getElem, List.getElem_replicate]
      exact ⟨by unfold Spec.Finite; decide, by norm_num [value, F32.one, magnitude]⟩
    obtain ⟨s, es, fs⟩ := dot_int ftz (T := U) hx hy (by rw [List.length_map, hlen]; exact hU) (by simp) (by
      have : ((absDotInt (col.map (fun x => (value x).num)) (List.replicate col.length 1) : Int) : ℚ) ≤ (16777216 : Int) := by rw [e2]; exact_mod_cast hs'
      exact_mod_cast this)
    have hsv : value s = (col.map value).sum := by rw [fs.2, e1]
    have hsb : |value s| ≤ 16777216 := by
      rw [hsv]
      have := abs_sum_le (col.map value)
      rw [List.map_map] at this
      exact le_trans this hs'
    obtain ⟨hp, ho⟩ := over_err ftz recip fs.1 (le_trans hsb (by norm_num)) hN (by omega)
    refine ⟨_, by rw [e, Res.ok_bind, es, Res.ok_bind], hp, ?_⟩
    rw [hn.2, hsv, ← hmean] at ho
    cases recip with
    | true => exact ho
    | false =>
      have hpos : (0 : ℚ) < data.length := by exact_mod_cast hN
      have hd := (div_err ftz fs.1 hn.1 (by rw [hn.2]; exact hpos) (by
        rw [hn.2, abs_div, abs_of_pos hpos]
        have h1 : (1 : ℚ) ≤ data.length := by exact_mod_cast hN
        have : |value s| / data.length ≤ |value s| := div_le_self (abs_nonneg _) h1
        have hovf := ovf_gt
        refine lt_of_le_of_lt (le_trans this hsb) (lt_of_le_of_lt ?_ hovf)
        norm_num)).2
      rw [hn.2, hsv, ← hmean] at hd
      have e3 : ulp24 = (2 : ℚ) ^ (-24 : Int) := by norm_num [ulp24]
      rw [e3] at hd
      exact hd
  have : Nonempty F32 := ⟨F32.zero⟩
  choose! f hf using key
  refine ⟨(List.range dim).map f, ?_, by simp, ?_, ?_⟩
  · exact mapM_eq_map _ _ _ (fun j hj => (hf j (List.mem_range.1 hj)).1)
  · intro x hx
    obtain ⟨j, hj, rfl⟩ := List.mem_map.1 hx
    exact (hf j (List.mem_range.1 hj)).2.1
  · intro j hj
    have : ((List.range dim).map f).getD j F32.zero = f j := by simp [List.getD, hj]
    rw [this]
    exact (hf j hj).2.2

/-- Three points of two whole coordinates each. -/
def exWhole : List (List F32) := [[⟨0x3f800000#32⟩, ⟨0xc0000000#32⟩], [⟨0x40000000#32⟩, ⟨0x40a00000#32⟩], [⟨0x437f0000#32⟩, ⟨0x00000000#32⟩]]

theorem exWhole_ok : WholeData 2 exWhole where
  nonempty := by decide
  count := by decide
  dims := by decide
  whole := by
    intro v hv x hx
    have : x ∈ exWhole.flatten := List.mem_flatten.2 ⟨v, hv, hx⟩
    simp only [exWhole, List.flatten_cons, List.flatten_nil, List.cons_append, List.nil_append, List.mem_cons, List.not_mem_nil, or_false] at this
    rcases this with rfl | rfl | rfl | rfl | rfl | rfl
    · exact ⟨by unfold Spec.Finite; decide, 1, by norm_num [value, magnitude]⟩
    · exact ⟨by unfold Spec.Finite; decide, -2, by norm_num [value, magnitude]⟩
    · exact ⟨by unfold Spec.Finite; decide, 2, by norm_num [value, magnitude]⟩
    · exact ⟨by unfold Spec.Finite; decide, 5, by norm_num [value, magnitude]⟩
    · exact ⟨by unfold Spec.Finite; decide, 255, by norm_num [value, magnitude]⟩
    · exact ⟨by unfold Spec.Finite; decide, 0, by norm_num [value, magnitude]⟩
  sums := by
    intro j hj
    match j, hj with
    | 0, _ => norm_num [exWhole, value, magnitude]
    | 1, _ => norm_num [exWhole, value, magnitude]

/-- The mean of 1, 2 and 255 is 86, that of -2, 5 and 0 is 1. -/
example := C102_whole true true exWhole_ok (serial_sums 3)

example : centerF true false (serial 3) exWhole 2 = .ok [⟨0x42ac0000#32⟩, ⟨0x3f800000#32⟩] := by decide +kernel

end Grann
