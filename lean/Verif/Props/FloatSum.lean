import Verif.Proofs.FloatSum
import Verif.Proofs.FloatLoops
import Verif.Props.Ivf
import Verif.Props.Pool
/-!
# C93: distances and inner products in `float` arithmetic
-/

namespace Grann

open Spec

/-- The vector (1, 0.1, -3). -/
def exV : List F32 := [F32.one, ⟨0x3dcccccd#32⟩, ⟨0xc0400000#32⟩]

/-- The vector (0, 3, 0.5). -/
def exW : List F32 := [F32.zero, ⟨0x40400000#32⟩, ⟨0x3f000000#32⟩]

/-- `(x0 * x0 + 0) + fma(x2, x2, x1 * x1)`. -/
def exTree : SumTree := .add (.add (.term 0) .init) (.fma 2 (.term 1))

theorem exTree_sums : exTree.Sums 3 := by unfold SumTree.Sums; decide

theorem exV_plain (ftz : Bool) : ∀ x ∈ exV, Plain ftz x := by
  intro x hx
  simp only [exV, List.mem_cons, List.not_mem_nil, or_false] at hx
  rcases hx with rfl | rfl | rfl <;>
    exact ⟨by unfold Spec.Finite; decide, fun _ => Or.inr (by norm_num [value, magnitude, F32.one, abs_of_pos, abs_of_neg])⟩

theorem exW_plain (ftz : Bool) : ∀ x ∈ exW, Plain ftz x := by
  intro x hx
  simp only [exW, List.mem_cons, List.not_mem_nil, or_false] at hx
  rcases hx with rfl | rfl | rfl
  · exact ⟨by unfold Spec.Finite; decide, fun _ => Or.inl value_zero'⟩
  · exact ⟨by unfold Spec.Finite; decide, fun _ => Or.inr (by norm_num [value, magnitude, abs_of_pos, abs_of_neg])⟩
  · exact ⟨by unfold Spec.Finite; decide, fun _ => Or.inr (by norm_num [value, magnitude, abs_of_pos, abs_of_neg])⟩

theorem exDist : sqDistVal exV exW ≤ 22 := by
  norm_num [sqDistVal, exV, exW, value, magnitude, F32.one, F32.zero]

/-- **C93.** `DistanceL2::compare` on finite vectors, in every order of the additions and with any fusing, gives the
exact squared distance up to one part in 2^24 for each rounding, plus a multiple of the smallest numbers; nothing overflows. -/
theorem C93_l2_error (ftz : Bool) {T : SumTree} {n : Nat} (hT : T.Sums n) {a b : List F32} (ha : a.length = n) (hb : b.length = n)
    (hfa : ∀ x ∈ a, Plain ftz x) (hfb : ∀ x ∈ b, Plain ftz x) (hovf : l2Bound ftz T a b < ovf) :
    ∃ r, l2F32 ftz T a b = .ok r ∧ Spec.Finite r ∧ |value r - sqDistVal a b| ≤ l2Bound ftz T a b - sqDistVal a b := by
  have hS := total_sums hT (fun x y => (value x - value y) ^ 2) ha hb
  rw [show (List.zipWith (fun x y => (value x - value y) ^ 2) a b).sum = sqDistVal a b from rfl] at hS
  have hSabs : T.total (fun i => |(value (a.getD i F32.zero) - value (b.getD i F32.zero)) ^ 2|) = sqDistVal a b := by
    rw [← hS]; congr 1; funext i; exact abs_of_nonneg (by positivity)
  have hB : T.bound (fun i => (value (a.getD i F32.zero) - value (b.getD i F32.zero)) ^ 2) 2 (if ftz then 2 ^ (-125 : Int) else 2 ^ (-149 : Int)) = l2Bound ftz T a b := by
    unfold SumTree.bound l2Bound
    rw [hSabs, ulp24_def]
  have hle : sqDistVal a b ≤ l2Bound ftz T a b := by
    unfold l2Bound
    have h1 : (1 : ℚ) ≤ (1 + 2 ^ (-24 : Int)) ^ (T.height + 3) := one_le_pow₀ (by norm_num)
    have h2 := sqDistVal_nonneg a b
    have h3 : (0 : ℚ) ≤ T.ops * (if ftz then 2 ^ (-125 : Int) else 2 ^ (-149 : Int)) * (1 + 2 ^ (-24 : Int)) ^ T.height := by
      have : (0 : ℚ) ≤ if ftz then 2 ^ (-125 : Int) else 2 ^ (-149 : Int) := by split <;> positivity
      positivity
    nlinarith
  obtain ⟨r, e, hf, hr⟩ := SumTree.eval_err ftz (l2Factor ftz a b) (fun i => (value (a.getD i F32.zero) - value (b.getD i F32.zero)) ^ 2) 2
    (if ftz then 2 ^ (-252 : Int) else 0) (if ftz then 2 ^ (-125 : Int) else 2 ^ (-149 : Int)) (by split <;> positivity)
    (by unfold tiny; split <;> norm_num) T
    (fun i hi => by
      have hin := List.mem_range.1 (hT.mem_iff.1 hi)
      refine l2_term ftz (fun x hx => (hfa x hx).1) (fun x hx => (hfb x hx).1) (by omega) (by omega) (sq_lt_ovf ?_)
      have := l2_sum_mem hT ha hb hin
      linarith)
    (by rw [hB]; exact hovf)
  refine ⟨r, (l2F32_plain T hfa hfb).trans e, hf, ?_⟩
  rw [hB, hSabs, hS] at hr
  exact hr

/-- The hypotheses are met by three coordinates, an addition of 0, and a fused operation; the result is 21.66 with an error in the last place. -/
example : exTree.Sums 3 ∧ (∀ x ∈ exV, Plain true x) ∧ (∀ x ∈ exW, Plain true x) ∧ l2Bound true exTree exV exW < ovf ∧
    l2F32 true exTree exV exW = .ok ⟨0x41ad47ae#32⟩ := by
  refine ⟨exTree_sums, exV_plain _, exW_plain _, ?_, by decide +kernel⟩
  have h := exDist
  have h0 := sqDistVal_nonneg exV exW
  have h1 : l2Bound true exTree exV exW = (1 + 2 ^ (-24 : Int)) ^ 5 * sqDistVal exV exW + 5 * 2 ^ (-125 : Int) * (1 + 2 ^ (-24 : Int)) ^ 2 := by
    norm_num [l2Bound, exTree, SumTree.height, SumTree.ops]
  have h2 : (1 + 2 ^ (-24 : Int) : ℚ) ^ 5 * sqDistVal exV exW ≤ 2 * 22 := by
    have : (1 + 2 ^ (-24 : Int) : ℚ) ^ 5 ≤ 2 := by norm_num
    gcongr
  have h3 : (2 * 22 + 5 * 2 ^ (-125 : Int) * (1 + 2 ^ (-24 : Int)) ^ 2 : ℚ) < ovf := by unfold ovf; norm_num
  rw [h1]
  linarith

/-- **C93.** For finite vectors the distance is a number that is not negative, in every order of evaluation; if it is infinite, a bound
for the exact distance exceeds the range of floats. -/
theorem C93_l2_number (ftz : Bool) {T : SumTree} {n : Nat} (hT : T.Sums n) {a b : List F32} (ha : a.length = n) (hb : b.length = n)
    (hfa : ∀ x ∈ a, Plain ftz x) (hfb : ∀ x ∈ b, Plain ftz x) :
    ∃ r, l2F32 ftz T a b = .ok r ∧ F32.zero.le r = true ∧ (¬ Spec.Finite r → ovf ≤ l2Bound ftz T a b) := by
  obtain ⟨r, e, hr⟩ := eval_clean ftz (l2Factor ftz a b) T (fun i hi => by
    have hin := List.mem_range.1 (hT.mem_iff.1 hi)
    exact l2Factor_ok ftz (fun x hx => (hfa x hx).1) (fun x hx => (hfb x hx).1) (by omega) (by omega))
  rw [← l2F32_plain T hfa hfb] at e
  refine ⟨r, e, clean_le hr, fun hnf => ?_⟩
  by_contra hc
  obtain ⟨r', e', hf, _⟩ := C93_l2_error ftz hT ha hb hfa hfb (not_le.1 hc)
  rw [e] at e'
  cases e'
  exact hnf hf

/-- A distance that is infinite: two coordinates 2^100 and -2^100. -/
example : (SumTree.term 0).Sums 1 ∧ l2F32 false (.term 0) [⟨0x71800000#32⟩] [⟨0xf1800000#32⟩] = .ok F32.inf ∧
    l2F32 false exTree exW exV = .ok ⟨0x41ad47ae#32⟩ := by
  refine ⟨by unfold SumTree.Sums; decide, by decide +kernel, by decide +kernel⟩

/-- **C93.** The distance is symmetric, bit for bit, for the same order of evaluation, whatever the floats are. -/
theorem C93_l2_symm (ftz : Bool) {T : SumTree} {n : Nat} (hT : T.Sums n) {a b : List F32} (ha : a.length = n) (hb : b.length = n) :
    l2F32 ftz T a b = l2F32 ftz T b a := by
  have ha' : (a.map (F32.daz ftz)).length = n := by rw [List.length_map, ha]
  have hb' : (b.map (F32.daz ftz)).length = n := by rw [List.length_map, hb]
  unfold l2F32
  generalize a.map (F32.daz ftz) = a at *
  generalize b.map (F32.daz ftz) = b at *
  obtain ⟨r, h1, h2⟩ := eval_congr ftz (l2Factor ftz a b) (l2Factor ftz b a) T (fun i hi => by
    have hin := List.mem_range.1 (hT.mem_iff.1 hi)
    exact ⟨_, _, by unfold l2Factor; rw [rd_getD_zero (by omega : i < a.length), rd_getD_zero (by omega : i < b.length)]; rfl,
      by unfold l2Factor; rw [rd_getD_zero (by omega : i < a.length), rd_getD_zero (by omega : i < b.length)]; rfl, sub_mag_comm ftz _ _⟩)
  exact h1.trans h2.symm

/-- Also with a NaN. -/
example : l2F32 true exTree exV exW = l2F32 true exTree exW exV ∧ l2F32 true exTree [F32.nan, F32.one, F32.inf] exW = .ok F32.nan :=
  ⟨C93_l2_symm true exTree_sums rfl rfl, by decide +kernel⟩

/-- **C93.** Vectors whose coordinates differ by at most 2^-76 are at distance 0, in every order of evaluation.  (So a distance of 0 does not mean
that the vectors are equal.) -/
theorem C93_l2_zero (ftz : Bool) {T : SumTree} {n : Nat} (hT : T.Sums n) {a b : List F32} (ha : a.length = n) (hb : b.length = n)
    (hfa : ∀ x ∈ a, Plain ftz x) (hfb : ∀ x ∈ b, Plain ftz x)
    (hd : ∀ i < n, |value (a.getD i F32.zero) - value (b.getD i F32.zero)| ≤ 2 ^ (-76 : Int)) :
    l2F32 ftz T a b = .ok F32.zero := by
  rw [l2F32_plain T hfa hfb]
  refine eval_zero ftz _ T (fun i hi => ?_)
  have hin := List.mem_range.1 (hT.mem_iff.1 hi)
  refine ⟨_, by unfold l2Factor; rw [rd_getD_zero (by omega : i < a.length), rd_getD_zero (by omega : i < b.length)]; rfl, ?_⟩
  have h := hd i hin
  have hlt : |value (a.getD i F32.zero) - value (b.getD i F32.zero)| < ovf := lt_of_le_of_lt h (by unfold ovf; norm_num)
  obtain ⟨hf, h2⟩ := sub_err ftz (hfa _ (mem_getD (by omega : i < a.length))).1 (hfb _ (mem_getD (by omega : i < b.length))).1 hlt
  generalize value (a.getD i F32.zero) - value (b.getD i F32.zero) = δ at *
  generalize F32.sub ftz (a.getD i F32.zero) (b.getD i F32.zero) = d at *
  have hv : |value d| ≤ 2 ^ (-75 : Int) / 3 * 2 := by
    rcases h2 with ⟨_, _, h2⟩ | h2
    · rw [h2]; simp
    · have := abs_sub_abs_le_abs_sub (value d) δ
      have hu : |δ| * ulp24 ≤ 2 ^ (-76 : Int) * (1 / 4) := by
        have : ulp24 ≤ 1 / 4 := by rw [ulp24]; norm_num
        exact mul_le_mul h this (by rw [ulp24]; positivity) (by positivity)
      have e : (2 : ℚ) ^ (-75 : Int) = 2 * 2 ^ (-76 : Int) := by norm_num
      have h0 : (0 : ℚ) ≤ 2 ^ (-76 : Int) := by positivity
      rw [e]
      generalize (2 : ℚ) ^ (-76 : Int) = ε at *
      linarith
  have hsq : value d * value d < 2 ^ (-150 : Int) := by
    rw [← abs_mul_abs_self]
    have : |value d| * |value d| ≤ (2 ^ (-75 : Int) / 3 * 2) * (2 ^ (-75 : Int) / 3 * 2) := by gcongr
    refine lt_of_le_of_lt this ?_
    norm_num
  have fz : Spec.Finite F32.zero := by unfold Spec.Finite; decide
  constructor
  · rw [mul_eq ftz hf hf, bne_self_eq_false]
    exact round_tiny ftz (units_sq d) (by rw [exact_mul]; exact hsq)
  · rw [fma_eq ftz hf hf fz, bne_self_eq_false, Bool.false_and]
    have ez : value F32.zero = 0 := by norm_num [value, F32.zero, magnitude]
    refine round_tiny ftz ?_ (by rw [exact_fma, ez, add_zero]; exact hsq)
    have : F32.zero.units = 0 := by decide
    rw [this]
    have := units_sq d
    linarith

/-- The numbers 0 and 2^-76. -/
example : l2F32 false (.term 0) [F32.zero] [⟨0x19800000#32⟩] = .ok F32.zero :=
  C93_l2_zero false (n := 1) (by unfold SumTree.Sums; decide) rfl rfl
    (fun x hx => by rw [List.mem_singleton.1 hx]; exact ⟨by unfold Spec.Finite; decide, fun h => by cases h⟩)
    (fun x hx => by rw [List.mem_singleton.1 hx]; exact ⟨by unfold Spec.Finite; decide, fun h => by cases h⟩)
    (fun i hi => by
      obtain rfl : i = 0 := by omega
      norm_num [value, magnitude, F32.zero, abs_of_neg, abs_of_pos])

/-- **C93.** A vector is at distance 0 of itself. -/
theorem C93_l2_self (ftz : Bool) {T : SumTree} {n : Nat} (hT : T.Sums n) {a : List F32} (ha : a.length = n) (hfa : ∀ x ∈ a, Plain ftz x) :
    l2F32 ftz T a a = .ok F32.zero :=
  C93_l2_zero ftz hT ha ha hfa hfa (fun i _ => by rw [sub_self, abs_zero]; positivity)

example : l2F32 true exTree exV exV = .ok F32.zero := C93_l2_self true exTree_sums rfl (exV_plain true)

/-- **C93.** Zeros after the coordinates change nothing: for every order of evaluation of the padded vectors there is one of the vectors
themselves, with no longer chains of additions, that gives the same number, bit for bit. -/
theorem C93_l2_padding (ftz : Bool) {T : SumTree} {n m : Nat} (hT : T.Sums (n + m)) {a b : List F32} (ha : a.length = n) (hb : b.length = n)
    (hfa : ∀ x ∈ a, Plain ftz x) (hfb : ∀ x ∈ b, Plain ftz x) :
    ∃ T', T'.Sums n ∧ T'.height ≤ T.height ∧
      l2F32 ftz T (a ++ List.replicate m F32.zero) (b ++ List.replicate m F32.zero) = l2F32 ftz T' a b := by
  refine ⟨T.prune n, prune_sums hT, prune_height n T, ?_⟩
  have hz : Plain ftz F32.zero := ⟨by unfold Spec.Finite; decide, fun _ => Or.inl value_zero'⟩
  have hpad : ∀ v : List F32, (∀ x ∈ v, Plain ftz x) → ∀ x ∈ v ++ List.replicate m F32.zero, Plain ftz x := by
    intro v hv x hx
    rcases List.mem_append.1 hx with h | h
    · exact hv x h
    · rw [List.eq_of_mem_replicate h]; exact hz
  rw [l2F32_plain T (hpad a hfa) (hpad b hfb), l2F32_plain _ hfa hfb]
  suffices h : ∃ r, T.eval ftz (l2Factor ftz (a ++ List.replicate m F32.zero) (b ++ List.replicate m F32.zero)) = .ok r ∧
      (T.prune n).eval ftz (l2Factor ftz a b) = .ok r ∧ Clean ftz r by
    obtain ⟨r, e1, e2, _⟩ := h
    exact e1.trans e2.symm
  have hrd : ∀ (v : List F32) (i : Nat), v.length = n → i < n → rd (v ++ List.replicate m F32.zero) i = rd v i := by
    intro v i hv hi
    unfold rd
    rw [List.getElem?_append_left (by omega)]
  have hrz : ∀ (v : List F32) (i : Nat), v.length = n → ¬ i < n → i < n + m → rd (v ++ List.replicate m F32.zero) i = .ok F32.zero := by
    intro v i hv hi him
    unfold rd
    rw [List.getElem?_append_right (by omega), List.getElem?_replicate, if_pos (by omega)]
  refine eval_prune ftz _ _ n T (fun i hi hin => ?_) (fun i hi hin => ?_)
  · obtain ⟨d, e, hd⟩ := l2Factor_ok ftz (fun x hx => (hfa x hx).1) (fun x hx => (hfb x hx).1) (by omega : i < a.length) (by omega : i < b.length)
    refine ⟨(d, d), ?_, e, sq_term ftz hd⟩
    rw [← e]
    unfold l2Factor
    rw [hrd a i ha hin, hrd b i hb hin]
  · have hlt := List.mem_range.1 (hT.mem_iff.1 hi)
    unfold l2Factor
    rw [hrz a i ha hin hlt, hrz b i hb hin hlt]
    show Except.ok (F32.sub ftz F32.zero F32.zero, F32.sub ftz F32.zero F32.zero) = Except.ok (F32.zero, F32.zero)
    rw [sub_zero_zero]

/-- Three coordinates padded to eight, the products added up from the last to the first. -/
example : ∃ T', T'.Sums 3 ∧ T'.height ≤ 8 ∧ l2F32 true (SumTree.fma 0 (.fma 1 (.fma 2 (.fma 3 (.fma 4 (.fma 5 (.fma 6 (.fma 7 .init))))))))
    (exV ++ List.replicate 5 F32.zero) (exW ++ List.replicate 5 F32.zero) = l2F32 true T' exV exW :=
  C93_l2_padding true (T := SumTree.fma 0 (.fma 1 (.fma 2 (.fma 3 (.fma 4 (.fma 5 (.fma 6 (.fma 7 .init)))))))) (n := 3) (m := 5) (by unfold SumTree.Sums; decide) rfl rfl (exV_plain true) (exW_plain true)

/-- **C93.** The computed distance is a finite number below `FLT_MAX`, within `l2Err` of the exact one. -/
theorem C93_l2_close (ftz : Bool) {T : SumTree} {n : Nat} {a b : List F32} (h : L2Ok ftz T n a b) :
    ∃ r, l2F32 ftz T a b = .ok r ∧ Spec.Finite r ∧ r.lt F32.fmax = true ∧ |value r - sqDistVal a b| ≤ l2Err ftz T a b := by
  have hb := l2Bound_small ftz h
  have h127 : (2 : ℚ) ^ 127 < ovf := by unfold ovf; norm_num
  obtain ⟨r, e, hf, hr⟩ := C93_l2_error ftz h.sums h.left h.right h.leftPlain h.rightPlain (lt_of_le_of_lt hb h127)
  have hle := l2Bound_le ftz h.height a b
  refine ⟨r, e, hf, ?_, hr.trans (by linarith)⟩
  have ffm : Spec.Finite F32.fmax := by unfold Spec.Finite; decide
  rw [lt_iff_value hf ffm]
  have h3 := (abs_le.1 hr).2
  have efm : (2 : ℚ) ^ 127 < value F32.fmax := by
    norm_num [value, F32.fmax, magnitude]
  linarith

theorem exOk (ftz : Bool) : L2Ok ftz exTree 3 exV exW :=
  ⟨exTree_sums, rfl, rfl, exV_plain ftz, exW_plain ftz, by decide, by decide, exDist.trans (by norm_num)⟩

theorem exOk_self (ftz : Bool) : L2Ok ftz exTree 3 exV exV :=
  ⟨exTree_sums, rfl, rfl, exV_plain ftz, exV_plain ftz, by decide, by decide, by
    norm_num [sqDistVal, exV, value, magnitude, F32.one, F32.zero]⟩

/-- The hypotheses are met; the order of `compare` in 1536 dimensions loses at most one part in 5000. -/
example : L2Ok true exTree 3 exV exW ∧ ((serial 1536).height + 3 : ℚ) * 2 ^ (-23 : Int) ≤ 1 / 5000 :=
  ⟨exOk true, by rw [serial_height]; norm_num⟩

/-- **C93.** Distances that differ by more than their errors are compared rightly, whatever the orders of evaluation. -/
theorem C93_l2_order (ftz : Bool) {T U : SumTree} {n : Nat} {q x y : List F32} (hx : L2Ok ftz T n q x) (hy : L2Ok ftz U n q y)
    (h : sqDistVal q x + l2Err ftz T q x + l2Err ftz U q y < sqDistVal q y) :
    ∃ r s, l2F32 ftz T q x = .ok r ∧ l2F32 ftz U q y = .ok s ∧ r.lt s = true := by
  obtain ⟨r, e1, f1, _, h1⟩ := C93_l2_close ftz hx
  obtain ⟨s, e2, f2, _, h2⟩ := C93_l2_close ftz hy
  refine ⟨r, s, e1, e2, ?_⟩
  rw [lt_iff_value f1 f2]
  have := (abs_le.1 h1).2
  have := (abs_le.1 h2).1
  linarith

/-- The vector itself is closer than another one. -/
example : ∃ r s, l2F32 true exTree exV exV = .ok r ∧ l2F32 true exTree exV exW = .ok s ∧ r.lt s = true :=
  C93_l2_order true (exOk_self true) (exOk true) (by
    norm_num [l2Err, sqDistVal, exV, exW, value, magnitude, F32.one, F32.zero, exTree, SumTree.height, SumTree.ops])

/-- Two points of three coordinates. -/
def exFloatCtx : Ctx (List F32) := { data := [exW, exV], labels := [], cmp := l2Cmp true exTree, useUniv := false, univ := [] }

theorem mem_data {V : Type} {c : Ctx (List V)} {i : Nat} (hi : i < c.data.length) : c.data.getD i [] ∈ c.data := by
  simp [List.getD, List.getElem?_eq_getElem hi]

theorem l2Cmp_close {ftz : Bool} {T : SumTree} {n : Nat} {q v : List F32} (h : L2Ok ftz T n q v) :
    Spec.Finite (l2Cmp ftz T q v) ∧ (l2Cmp ftz T q v).lt F32.fmax = true ∧ |value (l2Cmp ftz T q v) - sqDistVal q v| ≤ l2Err ftz T q v := by
  obtain ⟨r, e, h1, h2, h3⟩ := C93_l2_close ftz h
  unfold l2Cmp
  rw [e]
  exact ⟨h1, h2, h3⟩

/-- **C93.** The scan of candidates (C02) with float distances: the answer is right up to the errors of the distances. -/
theorem C93_scan_close (ftz : Bool) (T : SumTree) {n : Nat} (c : Ctx (List F32)) (hcmp : c.cmp = l2Cmp ftz T) (q : List F32) (filters : List Label) (k : Nat)
    (batches : List (List Nat)) (hok : ∀ v ∈ c.data, L2Ok ftz T n q v) (hk : 1 ≤ k) (hk2 : Spec.ListFits c.data.length k)
    (hin : ∀ b ∈ batches, ∀ i ∈ b, i < c.data.length)
    (hlab : filters ≠ [] → c.labels.length = c.data.length)
    (hsf : SortedL filters) (hsl : ∀ l ∈ c.labels, SortedL l) :
    ∃ s, batches.foldlM (procCands c q filters k) (freshPool k) = .ok s ∧
      CloseNearest k (batches.flatten.filter (fun i => _root_.Spec.Matches c.useUniv c.univ filters (c.labels.getD i []))).toFinset
        (fun i => sqDistVal q (c.data.getD i [])) (fun i => l2Err ftz T q (c.data.getD i [])) s.answer := by
  have hclose := fun i hi => l2Cmp_close (hok _ (mem_data (c := c) (i := i) hi))
  obtain ⟨s, e, hK, _⟩ := C02_scan_keeps_k_nearest c q filters k batches (fun i => c.cmp q (c.data.getD i []))
    (fun i v h => by simp [List.getD, h]) hk hk2 hin hlab hsf hsl (fun i hi => by rw [hcmp]; exact (hclose i hi).2.1)
  refine ⟨s, e, closeNearest hK (fun i hi => ?_)⟩
  have h1 := (List.mem_filter.1 (List.mem_toFinset.1 hi)).1
  obtain ⟨b, hb, hib⟩ := List.mem_flatten.1 h1
  rw [hcmp]
  exact ⟨(hclose i (hin b hb i hib)).1, (hclose i (hin b hb i hib)).2.2⟩

/-- Two points, offered twice. -/
example : ∃ s, [[1, 0], [0]].foldlM (procCands exFloatCtx exV [] 1) (freshPool 1) = .ok s ∧
    CloseNearest 1 ([[1, 0], [0]].flatten.filter (fun i => _root_.Spec.Matches false [] [] (exFloatCtx.labels.getD i []))).toFinset
      (fun i => sqDistVal exV (exFloatCtx.data.getD i [])) (fun i => l2Err true exTree exV (exFloatCtx.data.getD i [])) s.answer :=
  C93_scan_close true exTree (n := 3) exFloatCtx rfl exV [] 1 [[1, 0], [0]]
    (by
      intro v hv
      simp only [exFloatCtx, List.mem_cons, List.not_mem_nil, or_false] at hv
      rcases hv with rfl | rfl
      · exact exOk true
      · exact exOk_self true)
    (by decide) (by decide) (by decide) (by decide) (by decide) (by decide)

/-- **C93.** The IVF search of all clusters (C15) with float distances between the points and the query: the answer is right up to the errors
of the distances. -/
theorem C93_ivf_close (ftz : Bool) (T : SumTree) {n : Nat} (pops : List F32 → List Nat) (hpops : IsPopOrder pops) (ix : Ivf (List F32))
    (hcmp : ix.ctx.cmp = l2Cmp ftz T) (q : List F32) (hok : ∀ v ∈ ix.ctx.data, L2Ok ftz T n q v)
    (hlists : ix.inv.length = ix.nc) (hpart : ix.inv.flatten.Perm (List.range ix.ctx.data.length))
    (hrow : (ix.centreDist q).length = ix.nc) (hnum : ∀ x ∈ ix.centreDist q, x.IsNum)
    (hfin : ix.nc ≥ 1 → ∃ x ∈ ix.centreDist q, x.lt F32.fmax = true) (filters : List Label)
    (hlab : filters ≠ [] → ix.ctx.labels.length = ix.ctx.data.length)
    (hsf : SortedL filters) (hsl : ∀ l ∈ ix.ctx.labels, SortedL l) (rc : Nat) (hrc1 : 1 ≤ rc) (hrc : Spec.ListFits ix.ctx.data.length rc)
    (ind : List Nat) (dst : List F32) (hind : rc ≤ ind.length) (hdst : rc ≤ dst.length) :
    ∃ (ids ind' : List Nat) (dst' : List F32), ivfSearch pops ix q rc ix.nc ind (some dst) filters = .ok (ind', some dst', ids.length) ∧
      ind'.take ids.length = ids ∧
      CloseNearest rc ((Finset.range ix.ctx.data.length).filter
          (fun i => _root_.Spec.Matches ix.ctx.useUniv ix.ctx.univ filters (ix.ctx.labels.getD i [])))
        (fun i => sqDistVal q (ix.ctx.data.getD i [])) (fun i => l2Err ftz T q (ix.ctx.data.getD i [])) (ids.zip dst') := by
  have hclose := fun i hi => l2Cmp_close (hok _ (mem_data (c := ix.ctx) (i := i) hi))
  obtain ⟨ids, ind', dst', e, h1, h2, hK⟩ := C15_all_clusters_exact pops hpops ix hlists hpart q (fun i => ix.ctx.cmp q (ix.ctx.data.getD i []))
    ⟨fun i v h => by simp [List.getD, h], fun i hi => by rw [hcmp]; exact (hclose i hi).2.1, hrow, hnum, hfin⟩
    filters hlab hsf hsl rc hrc1 hrc ind dst hind hdst
  refine ⟨ids, ind', dst', e, h1, ?_⟩
  have hz : ids.zip dst' = ids.map (fun i => (i, ix.ctx.cmp q (ix.ctx.data.getD i []))) := by
    have hl : ids.length ≤ dst'.length := by
      have := congrArg List.length h2
      simp at this
      omega
    have hzt : ids.zip dst' = ids.zip (dst'.take ids.length) := by
      rw [List.zip_eq_zip_take_min]
      simp [Nat.min_eq_left hl]
    rw [hzt, h2, List.map_prod_left_eq_zip]
  rw [hz]
  refine closeNearest hK (fun i hi => ?_)
  have := Finset.mem_range.1 (Finset.mem_filter.1 hi).1
  rw [hcmp]
  exact ⟨(hclose i this).1, (hclose i this).2.2⟩

/-- The two points in two clusters. -/
example : ∃ (ids ind' : List Nat) (dst' : List F32), ivfSearch exPops ⟨exFloatCtx, [7, 8], 2, [[0], [1]], fun _ => [F32.one, F32.zero]⟩ exV 1 2 [9]
      (some [F32.zero]) [] = .ok (ind', some dst', ids.length) ∧ ind'.take ids.length = ids ∧
    CloseNearest 1 ((Finset.range 2).filter (fun i => _root_.Spec.Matches false [] [] (exFloatCtx.labels.getD i [])))
      (fun i => sqDistVal exV (exFloatCtx.data.getD i [])) (fun i => l2Err true exTree exV (exFloatCtx.data.getD i [])) (ids.zip dst') :=
  C93_ivf_close true exTree (n := 3) exPops exPops_isPopOrder ⟨exFloatCtx, [7, 8], 2, [[0], [1]], fun _ => [F32.one, F32.zero]⟩ rfl exV
    (by
      intro v hv
      simp only [exFloatCtx, List.mem_cons, List.not_mem_nil, or_false] at hv
      rcases hv with rfl | rfl
      · exact exOk true
      · exact exOk_self true)
    (by decide) (by decide) (by decide) (by decide) (by decide) [] (by decide) (by decide) (by decide) 1 (by decide) (by decide) [9]
    [F32.zero] (by decide) (by decide)

/-! ### Inner products -/

/-- **C93.** Inner products of finite vectors, in every order of the additions and with any fusing: the error is at most one part in 2^23 of the sum
of the absolute values for each rounding, plus a multiple of the smallest numbers. -/
theorem C93_dot_close (ftz : Bool) {T : SumTree} {n : Nat} (hT : T.Sums n) {a b : List F32} (ha : a.length = n) (hb : b.length = n)
    (hfa : ∀ x ∈ a, Plain ftz x) (hfb : ∀ x ∈ b, Plain ftz x) (hh : T.height + 1 ≤ 2 ^ 23) (ho : T.ops ≤ 2 ^ 100) (hd : absDotVal a b ≤ 2 ^ 125) :
    ∃ r, dotF32 ftz T a b = .ok r ∧ Spec.Finite r ∧ |value r - dotVal a b| ≤ dotErr ftz T a b := by
  have hS := total_sums hT (fun x y => value x * value y) ha hb
  have hA := total_sums hT (fun x y => |value x * value y|) ha hb
  have hB : T.bound (fun i => value (a.getD i F32.zero) * value (b.getD i F32.zero)) 0 (tiny ftz) =
      (1 + 2 ^ (-24 : Int)) ^ (T.height + 1) * absDotVal a b + T.ops * tiny ftz * (1 + 2 ^ (-24 : Int)) ^ T.height := by
    unfold SumTree.bound
    rw [hA]
    rfl
  have hle := dotBound_le ftz hh a b
  have hsm : absDotVal a b + dotErr ftz T a b < ovf := by
    have := dotErr_le ftz hh ho a b
    have : (2 : ℚ) ^ 125 + (2 ^ 125 + 2 ^ 100) < ovf := by unfold ovf; norm_num
    linarith
  obtain ⟨r, e, hf, hr⟩ := SumTree.eval_err ftz (dotFactor a b) (fun i => value (a.getD i F32.zero) * value (b.getD i F32.zero)) 0 0 (tiny ftz)
    le_rfl (by linarith) T (fun i hi => by
      have hin := List.mem_range.1 (hT.mem_iff.1 hi)
      refine ⟨_, _, by unfold dotFactor; rw [rd_getD_zero (by omega : i < a.length), rd_getD_zero (by omega : i < b.length)]; rfl,
        (hfa _ (mem_getD (by omega))).1, (hfb _ (mem_getD (by omega))).1, ?_⟩
      simp) (by rw [hB]; linarith)
  refine ⟨r, (dotF32_plain T hfa hfb).trans e, hf, ?_⟩
  rw [hB, hA, hS] at hr
  refine hr.trans ?_
  show _ - absDotVal a b ≤ _
  linarith

/-- The inner product of (1, 0.1, -3) and (0, 3, 0.5). -/
example : dotF32 false exTree exV exW = .ok ⟨0xbf99999a#32⟩ ∧ absDotVal exV exW ≤ 2 ^ 125 := by
  refine ⟨by decide +kernel, ?_⟩
  norm_num [absDotVal, exV, exW, value, magnitude, F32.one, F32.zero]

/-! ### The loops as they are written -/

/-- **C93.** `DistanceL2::compare` without reordering is one of the ways to evaluate the distance: additions one after the other. -/
theorem C93_l2_loop (ftz : Bool) {n : Nat} (hn : n < 2147483648) {a b : List F32} (ha : a.length = n) (hb : b.length = n) :
    l2CompareF ftz a b n = l2F32 ftz (serial n) a b ∧ (serial n).Sums n ∧ (serial n).height = n ∧ (serial n).ops = 2 * n := by
  refine ⟨?_, serial_sums n, serial_height n, serial_ops n⟩
  unfold l2CompareF l2F32 loopCount
  rw [if_pos hn, l2LoopF_serial ftz _ _ n 0 F32.zero (by simp [ha]) (by simp [hb]) rfl, Nat.zero_add]

example : l2CompareF true exV exW 3 = l2F32 true (serial 3) exV exW ∧ l2CompareF true exV exW 3 = .ok ⟨0x41ad47ae#32⟩ :=
  ⟨(C93_l2_loop true (n := 3) (by decide) rfl rfl).1, by decide +kernel⟩

/-- **C93.** `inner_product` without fusing is one of the ways to evaluate the inner product of the first `up8 size` coordinates, with short chains
of additions. -/
theorem C93_ip_loop (ftz : Bool) {size : Nat} (hs : size ≤ 4294967288) {a b : List F32} (ha : (size + 7) / 8 * 8 ≤ a.length)
    (hb : (size + 7) / 8 * 8 ≤ b.length) :
    innerProductF ftz a b size = dotF32 ftz (avxTree ((size + 7) / 8 * 8)) a b ∧ (avxTree ((size + 7) / 8 * 8)).Sums ((size + 7) / 8 * 8) ∧
      (avxTree ((size + 7) / 8 * 8)).height ≤ (size + 7) / 8 + 7 := by
  have h8 : (size + 7) / 8 * 8 % 8 = 0 := by omega
  refine ⟨?_, avxTree_sums h8, by have := avxTree_height _ h8; omega⟩
  unfold innerProductF dotF32
  have hu : u32 (size + 7) = size + 7 := by unfold u32; omega
  rw [hu]
  generalize (size + 7) / 8 * 8 = D at *
  have ha' : D ≤ (a.map (F32.daz ftz)).length := by rw [List.length_map]; exact ha
  have hb' : D ≤ (b.map (F32.daz ftz)).length := by rw [List.length_map]; exact hb
  generalize a.map (F32.daz ftz) = a at *
  generalize b.map (F32.daz ftz) = b at *
  have h0 : Lanes ftz (dotFactor a b) (List.replicate 8 .init) (List.replicate 8 F32.zero) := by
    unfold Lanes
    simp [List.replicate, SumTree.eval]
  have htail : ∃ s, avxTailF ftz a b (D % 16) (D - D % 16) = .ok s ∧ Lanes ftz (dotFactor a b)
      (if D % 16 ≠ 0 then addTerms (D - D % 16) (List.replicate 8 .init) else List.replicate 8 .init) s := by
    unfold avxTailF
    by_cases hc : D % 16 ≠ 0
    · rw [if_pos hc, if_pos hc]
      obtain ⟨s, e, _, h⟩ := avxDotF_lanes ftz (off := D - D % 16) (by omega) (by omega) (by simp) h0
      exact ⟨s, e, h⟩
    · rw [if_neg hc, if_neg hc]
      exact ⟨_, rfl, h0⟩
  obtain ⟨s, e, hl⟩ := htail
  obtain ⟨s', e', hl'⟩ := avxLoopF_lanes ftz (ts := if D % 16 ≠ 0 then addTerms (D - D % 16) (List.replicate 8 .init) else List.replicate 8 .init)
    (by split <;> simp [addTerms]) ((D - D % 16) / 16) 0 s (by omega) (by omega) hl
  rw [Nat.zero_add] at hl'
  dsimp only
  rw [e, Res.ok_bind, e', Res.ok_bind]
  exact (sumTrees_lanes ftz hl').symm

/-- 19 coordinates in vectors padded to 24. -/
example : innerProductF true (exV ++ List.replicate 21 F32.one) (exW ++ List.replicate 21 F32.zero) 19 =
    dotF32 true (avxTree 24) (exV ++ List.replicate 21 F32.one) (exW ++ List.replicate 21 F32.zero) ∧ (avxTree 24).height ≤ 10 :=
  ⟨(C93_ip_loop true (size := 19) (by decide) (by decide) (by decide)).1, (C93_ip_loop true (size := 19) (a := List.replicate 24 F32.one)
    (b := List.replicate 24 F32.one) (by decide) (by decide) (by decide)).2.2⟩

end Grann
