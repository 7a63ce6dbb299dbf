import Verif.Props.FloatSum
import Verif.Props.GroundTruth
/-!
# C94: the distances of the ground-truth programs in `float` arithmetic
-/

namespace Grann

open Spec

/-! ### Exact identities -/

theorem dotVal_nonneg (a : List F32) : 0 ≤ dotVal a a := by
  unfold dotVal
  induction a with
  | nil => simp
  | cons x a ih =>
    simp only [List.zipWith_cons_cons, List.sum_cons]
    have := mul_self_nonneg (value x)
    linarith

theorem absDotVal_self (a : List F32) : absDotVal a a = dotVal a a := by
  unfold dotVal absDotVal
  induction a with
  | nil => simp
  | cons x a ih =>
    simp only [List.zipWith_cons_cons, List.sum_cons]
    rw [ih, abs_of_nonneg (mul_self_nonneg (value x))]

theorem sqDistVal_expand {a b : List F32} (h : a.length = b.length) : sqDistVal a b = dotVal a a + dotVal b b - 2 * dotVal a b := by
  unfold sqDistVal dotVal
  induction a generalizing b with
  | nil =>
    cases b with
    | nil => simp
    | cons y b => simp at h
  | cons x a ih =>
    cases b with
    | nil => simp at h
    | cons y b =>
      simp only [List.zipWith_cons_cons, List.sum_cons]
      rw [ih (by simpa using h)]
      ring

theorem absDotVal_le {a b : List F32} (h : a.length = b.length) : 2 * absDotVal a b ≤ dotVal a a + dotVal b b := by
  unfold absDotVal dotVal
  induction a generalizing b with
  | nil =>
    cases b with
    | nil => simp
    | cons y b => simp at h
  | cons x a ih =>
    cases b with
    | nil => simp at h
    | cons y b =>
      simp only [List.zipWith_cons_cons, List.sum_cons]
      have h1 := ih (by simpa using h)
      have h2 : 2 * |value x * value y| ≤ value x * value x + value y * value y := by
        rw [abs_mul, ← abs_mul_abs_self (value x), ← abs_mul_abs_self (value y)]
        nlinarith [sq_nonneg (|value x| - |value y|)]
      linarith

theorem dotVal_abs {a b : List F32} : |dotVal a b| ≤ absDotVal a b := by
  unfold absDotVal dotVal
  induction a generalizing b with
  | nil => simp
  | cons x a ih =>
    cases b with
    | nil => simp
    | cons y b =>
      simp only [List.zipWith_cons_cons, List.sum_cons]
      exact (abs_add_le _ _).trans (by have := ih (b := b); linarith)

theorem absDotVal_nonneg (a b : List F32) : 0 ≤ absDotVal a b := (abs_nonneg _).trans dotVal_abs

/-! ### The error -/

/-- Vectors and orders of evaluation for which the bound holds: chains of at most `h` additions, `o` operations. -/
structure ExpandOk (ftz : Bool) (h o : Nat) (Tx Tp Tq : SumTree) (n : Nat) (p q : List F32) : Prop where
  sums : Tx.Sums n ∧ Tp.Sums n ∧ Tq.Sums n
  height : Tx.height ≤ h ∧ Tp.height ≤ h ∧ Tq.height ≤ h
  ops : Tx.ops ≤ o ∧ Tp.ops ≤ o ∧ Tq.ops ≤ o
  small : h + 1 ≤ 2 ^ 20 ∧ 1 ≤ o ∧ o ≤ 2 ^ 100
  left : p.length = n
  right : q.length = n
  leftPlain : ∀ x ∈ p, Plain ftz x
  rightPlain : ∀ x ∈ q, Plain ftz x
  norms : dotVal p p + dotVal q q ≤ 2 ^ 120

/-- The error of the expansion is relative to the norms of the vectors, not to their distance. -/
def expandErr (ftz : Bool) (h o : Nat) (p q : List F32) : ℚ :=
  (h + 3) * 2 ^ (-22 : Int) * (dotVal p p + dotVal q q) + o * (if ftz then 2 ^ (-121 : Int) else 2 ^ (-145 : Int))

/-- The three inner products with one bound. -/
theorem dot_within (ftz : Bool) {h o : Nat} {T : SumTree} {n : Nat} (hT : T.Sums n) {a b : List F32} (ha : a.length = n) (hb : b.length = n)
    (hfa : ∀ x ∈ a, Plain ftz x) (hfb : ∀ x ∈ b, Plain ftz x) (hh : T.height ≤ h) (ho : T.ops ≤ o) (hs : h + 1 ≤ 2 ^ 20 ∧ 1 ≤ o ∧ o ≤ 2 ^ 100)
    (hd : absDotVal a b ≤ 2 ^ 120) :
    ∃ r, dotF32 ftz T a b = .ok r ∧ Spec.Finite r ∧
      |value r - dotVal a b| ≤ (h + 1) * 2 ^ (-23 : Int) * absDotVal a b + o * (2 * tiny ftz) := by
  obtain ⟨r, e, hf, hr⟩ := C93_dot_close ftz hT ha hb hfa hfb (by omega) (by omega) (hd.trans (by norm_num))
  refine ⟨r, e, hf, hr.trans ?_⟩
  unfold dotErr
  have h1 : (T.height : ℚ) ≤ h := by exact_mod_cast hh
  have h2 : (T.ops : ℚ) ≤ o := by exact_mod_cast ho
  have h3 := absDotVal_nonneg a b
  have h4 : (if ftz then 2 ^ (-125 : Int) else 2 ^ (-149 : Int) : ℚ) = 2 * tiny ftz := by
    unfold tiny
    cases ftz <;> norm_num
  rw [h4]
  have := (tiny_pos ftz).le
  gcongr

/-- The arithmetic of the bound: `g` is the relative error of the inner products, `t` the absolute one, `u` that of an operation, `y` its
absolute error. -/
theorem expand_arith {P Q X g t u y v p q m s r A : ℚ} (hP : 0 ≤ P) (hQ : 0 ≤ Q) (hA : 2 * A ≤ P + Q) (hXA : |X| ≤ A)
    (hg0 : 0 ≤ g) (hg : g ≤ 1 / 8) (ht : 0 ≤ t) (hu0 : 0 ≤ u) (hu : u ≤ 1 / 1000) (hy0 : 0 ≤ y) (hy : 2 * y ≤ t)
    (hv : |v - X| ≤ g * A + t) (hp : |p - P| ≤ g * P + t) (hq : |q - Q| ≤ g * Q + t)
    (hm : |m + 2 * v| ≤ |2 * v| * u + y) (hs : |s - (m + p)| ≤ |m + p| * u + y) (hr : |r - (s + q)| ≤ |s + q| * u + y) :
    |2 * v| ≤ 2 * (P + Q) + 2 * t ∧ |m + p| ≤ 4 * (P + Q) + 8 * t ∧ |s + q| ≤ 8 * (P + Q) + 16 * t ∧
    |r - (P + Q - 2 * X)| ≤ (2 * g + 8 * u) * (P + Q) + 8 * t := by
  have hN : 0 ≤ P + Q := by linarith
  have a1 := abs_le.1 hXA
  have a2 := abs_le.1 hv
  have a3 := abs_le.1 hp
  have a4 := abs_le.1 hq
  have gA : g * A ≤ g * ((P + Q) / 2) := mul_le_mul_of_nonneg_left (by linarith) hg0
  have gN : g * (P + Q) ≤ 1 / 8 * (P + Q) := mul_le_mul_of_nonneg_right hg hN
  have gP : g * P ≤ 1 / 8 * P := mul_le_mul_of_nonneg_right hg hP
  have gQ : g * Q ≤ 1 / 8 * Q := mul_le_mul_of_nonneg_right hg hQ
  have gPQ : g * (P + Q) = g * P + g * Q := by ring
  have gN2 : g * ((P + Q) / 2) = g * (P + Q) / 2 := by ring
  have uN0 : 0 ≤ u * (P + Q) := mul_nonneg hu0 hN
  have uN : u * (P + Q) ≤ 1 / 1000 * (P + Q) := mul_le_mul_of_nonneg_right hu hN
  have ut : u * t ≤ 1 / 1000 * t := mul_le_mul_of_nonneg_right hu ht
  have ut0 : 0 ≤ u * t := mul_nonneg hu0 ht
  -- 2v
  have b1 : |2 * v| ≤ 9 / 8 * (P + Q) + 2 * t := abs_le.2 ⟨by linarith, by linarith⟩
  have c1 : |2 * v| * u ≤ 9 / 8 * (u * (P + Q)) + 2 * (u * t) := by
    have := mul_le_mul_of_nonneg_right b1 hu0
    linarith
  have a5 := abs_le.1 (hm.trans (add_le_add_left c1 y))
  -- m + p
  have b1' := abs_le.1 b1
  have b2 : |m + p| ≤ 5 / 2 * (P + Q) + 5 * t := abs_le.2 ⟨by linarith, by linarith⟩
  have c2 : |m + p| * u ≤ 5 / 2 * (u * (P + Q)) + 5 * (u * t) := by
    have := mul_le_mul_of_nonneg_right b2 hu0
    linarith
  have a6 := abs_le.1 (hs.trans (add_le_add_left c2 y))
  have b2' := abs_le.1 b2
  -- s + q
  have b3 : |s + q| ≤ 4 * (P + Q) + 8 * t := abs_le.2 ⟨by linarith, by linarith⟩
  have c3 : |s + q| * u ≤ 4 * (u * (P + Q)) + 8 * (u * t) := by
    have := mul_le_mul_of_nonneg_right b3 hu0
    linarith
  have a7 := abs_le.1 (hr.trans (add_le_add_left c3 y))
  have e : (2 * g + 8 * u) * (P + Q) = 2 * (g * (P + Q)) + 8 * (u * (P + Q)) := by ring
  rw [e]
  refine ⟨by linarith, by linarith, by linarith, abs_le.2 ⟨by linarith, by linarith⟩⟩

/-- **C94.** A distance in the matrix of the ground-truth programs, in every order of the additions, is finite and within `expandErr` of the exact one.
Missing for accuracy: the error is relative to the norms, so small distances between long vectors are lost. -/
theorem C94_expand_partial (ftz : Bool) {h o : Nat} {Tx Tp Tq : SumTree} {n : Nat} {p q : List F32} (H : ExpandOk ftz h o Tx Tp Tq n p q) :
    ∃ r, expandF32 ftz Tx Tp Tq p q = .ok r ∧ Spec.Finite r ∧ |value r - sqDistVal p q| ≤ expandErr ftz h o p q := by
  have hP := dotVal_nonneg p
  have hQ := dotVal_nonneg q
  have hlen : p.length = q.length := by rw [H.left, H.right]
  have hA := absDotVal_le hlen
  have hA0 := absDotVal_nonneg p q
  have hN := H.norms
  obtain ⟨x, ex, fx, hx⟩ := dot_within ftz H.sums.1 H.left H.right H.leftPlain H.rightPlain H.height.1 H.ops.1 H.small (by linarith)
  obtain ⟨pp, ep, fp, hp⟩ := dot_within ftz H.sums.2.1 H.left H.left H.leftPlain H.leftPlain H.height.2.1 H.ops.2.1 H.small
    (by rw [absDotVal_self]; linarith)
  obtain ⟨qq, eq, fq, hq⟩ := dot_within ftz H.sums.2.2 H.right H.right H.rightPlain H.rightPlain H.height.2.2 H.ops.2.2 H.small
    (by rw [absDotVal_self]; linarith)
  rw [absDotVal_self] at hp hq
  have ht0 := (tiny_pos ftz).le
  have ho1 : (1 : ℚ) ≤ o := by exact_mod_cast H.small.2.1
  have ho2 : (o : ℚ) ≤ 2 ^ 100 := by exact_mod_cast H.small.2.2
  have hty : 2 * tiny ftz ≤ o * (2 * tiny ftz) := le_mul_of_one_le_left (by linarith) ho1
  have htt : (o : ℚ) * (2 * tiny ftz) ≤ 2 ^ 100 := by
    have : 2 * tiny ftz ≤ 1 := by unfold tiny; cases ftz <;> norm_num
    calc (o : ℚ) * (2 * tiny ftz) ≤ 2 ^ 100 * 1 := by gcongr
      _ = 2 ^ 100 := mul_one _
  have hg0 : (0 : ℚ) ≤ (h + 1) * 2 ^ (-23 : Int) := by positivity
  have hg : ((h : ℚ) + 1) * 2 ^ (-23 : Int) ≤ 1 / 8 := by
    have : (h : ℚ) + 1 ≤ 2 ^ 20 := by exact_mod_cast H.small.1
    calc ((h : ℚ) + 1) * 2 ^ (-23 : Int) ≤ 2 ^ 20 * 2 ^ (-23 : Int) := by gcongr
      _ = 1 / 8 := by norm_num
  have hu0 : (0 : ℚ) ≤ ulp24 := by unfold ulp24; positivity
  have hu : ulp24 ≤ 1 / 1000 := by unfold ulp24; norm_num
  have hXA : |dotVal p q| ≤ absDotVal p q := dotVal_abs
  have hm2 : value F32.minusTwo = -2 := by norm_num [value, F32.minusTwo, magnitude]
  have fm2 : Spec.Finite F32.minusTwo := by unfold Spec.Finite; decide
  have big : (8 : ℚ) * 2 ^ 120 + 16 * 2 ^ 100 < ovf := by unfold ovf; norm_num
  -- the bounds on intermediate results, one operation after the other
  have k1 := (expand_arith (m := -2 * value x) (s := -2 * value x + value pp) (r := -2 * value x + value pp + value qq) hP hQ hA hXA hg0 hg
    (by linarith) hu0 hu ht0 hty hx hp hq (by rw [neg_mul, neg_add_cancel, abs_zero]; positivity)
    (by rw [sub_self, abs_zero]; positivity) (by rw [sub_self, abs_zero]; positivity)).1
  have l1 : |value F32.minusTwo * value x| < ovf := by
    rw [hm2, neg_mul, abs_neg]
    linarith
  obtain ⟨fm, hm⟩ := mul_err ftz fm2 fx l1
  rw [hm2, neg_mul, sub_neg_eq_add, abs_neg] at hm
  generalize hmm : F32.mul ftz F32.minusTwo x = m at *
  have k2 := (expand_arith (s := value m + value pp) (r := value m + value pp + value qq) hP hQ hA hXA hg0 hg
    (by linarith) hu0 hu ht0 hty hx hp hq hm
    (by rw [sub_self, abs_zero]; positivity) (by rw [sub_self, abs_zero]; positivity)).2.1
  obtain ⟨fs, hs⟩ := add_err ftz fm fp (by linarith)
  generalize hss : F32.add ftz m pp = s at *
  have k3 := (expand_arith (r := value s + value qq) hP hQ hA hXA hg0 hg
    (by linarith) hu0 hu ht0 hty hx hp hq hm hs (by rw [sub_self, abs_zero]; positivity)).2.2.1
  obtain ⟨fr, hr⟩ := add_err ftz fs fq (by linarith)
  have k4 := (expand_arith hP hQ hA hXA hg0 hg (by linarith) hu0 hu ht0 hty hx hp hq hm hs hr).2.2.2
  refine ⟨F32.add ftz s qq, ?_, fr, ?_⟩
  · unfold expandF32
    rw [ep, Res.ok_bind, eq, Res.ok_bind, ex, Res.ok_bind, hmm, hss]
  · rw [sqDistVal_expand hlen]
    refine k4.trans ?_
    unfold expandErr
    have e1 : (if ftz then 2 ^ (-121 : Int) else 2 ^ (-145 : Int) : ℚ) = 32 * tiny ftz := by
      unfold tiny
      cases ftz <;> norm_num
    have e2 : 2 * (((h : ℚ) + 1) * 2 ^ (-23 : Int)) + 8 * ulp24 = (h + 3) * 2 ^ (-22 : Int) := by
      unfold ulp24
      norm_num
      ring
    rw [e1, e2]
    have : (0 : ℚ) ≤ o * tiny ftz := by positivity
    have : (o : ℚ) * (32 * tiny ftz) = 32 * (o * tiny ftz) := by ring
    have : 8 * ((o : ℚ) * (2 * tiny ftz)) = 16 * (o * tiny ftz) := by ring
    linarith

/-! ### The matrix of `exact_knn` -/

/-- `dist_matrix` for all queries: `Tx q i`, `Tp i`, `Tq q` are the orders of the additions.  Elements outside of the matrix do not matter. -/
def expandMatrix (ftz : Bool) (Tx : Nat → Nat → SumTree) (Tp Tq : Nat → SumTree) (ps qs : List (List F32)) (q i : Nat) : F32 :=
  if i < ps.length ∧ q < qs.length then
    match expandF32 ftz (Tx q i) (Tp i) (Tq q) (ps.getD i []) (qs.getD q []) with
    | .ok r => r
    | .error _ => F32.nan
  else F32.zero

theorem finite_isNum {x : F32} (h : Spec.Finite x) : x.IsNum := by
  unfold Spec.Finite at h
  unfold F32.IsNum F32.key
  simp only
  rw [if_neg (by omega)]
  split <;> simp

/-- **C94.** `exact_knn` with these distances gives every query `k` distinct points that are the nearest ones up to the errors.
Missing: the errors are relative to the norms; see `C94_truth_wrong`. -/
theorem C94_truth_partial (ftz : Bool) {h o n : Nat} (Tx : Nat → Nat → SumTree) (Tp Tq : Nat → SumTree) (ps qs : List (List F32))
    (H : ∀ i q p v, ps[i]? = some p → qs[q]? = some v → ExpandOk ftz h o (Tx q i) (Tp i) (Tq q) n p v) (k : Nat) (hk : 0 < k) (hkn : k ≤ ps.length)
    (pick : Nat → Nat → List (Nat × F32) → Nat) (hp : ∀ q, IsHeapPick (pick q)) (junk : Nat → F32) :
    ∃ rows, exactKnn pick k ps.length qs.length (expandMatrix ftz Tx Tp Tq ps qs) junk = .ok rows ∧ rows.length = qs.length ∧
      ∀ q row, rows[q]? = some row → CloseNearest k (Finset.range ps.length) (fun i => sqDistVal (ps.getD i []) (qs.getD q []))
        (fun i => expandErr ftz h o (ps.getD i []) (qs.getD q [])) row := by
  have hin : ∀ q i, i < ps.length → q < qs.length → Spec.Finite (expandMatrix ftz Tx Tp Tq ps qs q i) ∧
      |value (expandMatrix ftz Tx Tp Tq ps qs q i) - sqDistVal (ps.getD i []) (qs.getD q [])| ≤ expandErr ftz h o (ps.getD i []) (qs.getD q []) := by
    intro q i hi hq
    obtain ⟨r, e, fr, hr⟩ := C94_expand_partial ftz (H i q (ps.getD i []) (qs.getD q []) (by simp [List.getD, hi]) (by simp [List.getD, hq]))
    have : expandMatrix ftz Tx Tp Tq ps qs q i = r := by
      unfold expandMatrix
      rw [if_pos ⟨hi, hq⟩, e]
    rw [this]
    exact ⟨fr, hr⟩
  have hnum : ∀ q i, (expandMatrix ftz Tx Tp Tq ps qs q i).IsNum := by
    intro q i
    by_cases hc : i < ps.length ∧ q < qs.length
    · exact finite_isNum (hin q i hc.1 hc.2).1
    · unfold expandMatrix
      rw [if_neg hc]
      decide
  obtain ⟨rows, e, hl, hK⟩ := C47_exact_knn k ps.length qs.length hk hkn _ hnum pick hp junk
  refine ⟨rows, e, hl, fun q row hrow => closeNearest (hK q row hrow) (fun i hi => ?_)⟩
  have hq : q < qs.length := by
    rw [← hl]
    exact (List.getElem?_eq_some_iff.1 hrow).1
  exact hin q i (Finset.mem_range.1 hi) hq

/-! ### The order of two points is reversed -/

theorem eval_no_leaves (ftz : Bool) (g : Nat → Res (F32 × F32)) : ∀ T : SumTree, T.leaves = [] → T.eval ftz g = .ok F32.zero := by
  intro T h
  exact eval_zero ftz g T (by rw [h]; simp)

theorem fma_zero_right (ftz : Bool) {x y : F32} (hs : x.sign = y.sign) :
    F32.fma ftz x y F32.zero = F32.mul ftz x y := by
  unfold F32.fma F32.mul
  rw [show F32.zero.isNan = false by decide, show F32.zero.isInf = false by decide, show F32.zero.units = 0 by decide, hs]
  simp

theorem eval_one_leaf (ftz : Bool) (g : Nat → Res (F32 × F32)) {x y : F32} (hx : Spec.Finite x) (hy : Spec.Finite y) (hs : x.sign = y.sign)
    {j : Nat} (hg : g j = .ok (x, y)) : ∀ T : SumTree, T.leaves = [j] → T.eval ftz g = .ok (F32.mul ftz x y) := by
  have hc := (mul_term ftz hx hy hs).1
  intro T
  induction T with
  | init => intro h; simp [SumTree.leaves] at h
  | term i =>
    intro h
    simp only [SumTree.leaves, List.cons.injEq, and_true] at h
    subst h
    exact eval_term_ok hg
  | add l r ihl ihr =>
    intro h
    simp only [SumTree.leaves, List.append_eq_cons_iff] at h
    rcases h with ⟨h1, h2⟩ | ⟨w, h1, h2⟩
    · rw [eval_add_ok (eval_no_leaves ftz g l h1) (ihr h2), add_zero_left ftz hc]
    · obtain ⟨h4, h3⟩ := List.append_eq_nil_iff.1 h2.symm
      rw [h4] at h1
      rw [eval_add_ok (ihl h1) (eval_no_leaves ftz g r h3), add_comm_F32 ftz hc (clean_zero ftz), add_zero_left ftz hc]
  | fma i t ih =>
    intro h
    simp only [SumTree.leaves, List.cons.injEq] at h
    obtain ⟨rfl, h2⟩ := h
    rw [eval_fma_ok hg (eval_no_leaves ftz g t h2), fma_zero_right ftz hs]

/-- A vector on the first axis. -/
def axis (m : Nat) (x : F32) : List F32 := x :: List.replicate m F32.zero

theorem axis_plain {ftz : Bool} {m : Nat} {x : F32} (hx : Plain ftz x) : ∀ y ∈ axis m x, Plain ftz y := by
  intro y hy
  rcases List.mem_cons.1 hy with h | h
  · rw [h]; exact hx
  · rw [List.eq_of_mem_replicate h]
    exact ⟨by unfold Spec.Finite; decide, fun _ => Or.inl value_zero'⟩

theorem axis_rd {m : Nat} {x : F32} {i : Nat} (h0 : i ≠ 0) (h : i < m + 1) : rd (axis m x) i = .ok F32.zero := by
  obtain ⟨j, rfl⟩ := Nat.exists_eq_succ_of_ne_zero h0
  unfold rd axis
  rw [List.getElem?_cons_succ, List.getElem?_replicate, if_pos (by omega)]

theorem dot_axis (ftz : Bool) {T : SumTree} {m : Nat} (hT : T.Sums (m + 1)) {x y : F32} (hx : Plain ftz x) (hy : Plain ftz y) (hs : x.sign = y.sign) :
    dotF32 ftz T (axis m x) (axis m y) = .ok (F32.mul ftz x y) := by
  rw [dotF32_plain T (axis_plain hx) (axis_plain hy)]
  have h0 : dotFactor (axis m x) (axis m y) 0 = .ok (x, y) := rfl
  obtain ⟨r, e1, e2, _⟩ := eval_prune ftz (dotFactor (axis m x) (axis m y)) (dotFactor (axis m x) (axis m y)) 1 T
    (fun i hi hi1 => by
      obtain rfl : i = 0 := by omega
      exact ⟨_, h0, h0, mul_term ftz hx.1 hy.1 hs⟩)
    (fun i hi hi1 => by
      have hlt := List.mem_range.1 (hT.mem_iff.1 hi)
      unfold dotFactor
      rw [axis_rd (by omega) hlt, axis_rd (by omega) hlt]
      rfl)
  have hp : (T.prune 1).leaves = [0] := by
    have := prune_sums (n := 1) (m := m) (by rw [Nat.add_comm]; exact hT)
    exact List.perm_singleton.1 this
  rw [e1, ← e2]
  exact eval_one_leaf ftz _ hx.1 hy.1 hs h0 _ hp

/-- 4096. -/
def exQ : F32 := ⟨0x45800000#32⟩
/-- 4095.25. -/
def exNear : F32 := ⟨0x457ff400#32⟩
/-- 4097. -/
def exFar : F32 := ⟨0x45800800#32⟩

theorem exExpand_plain (ftz : Bool) : Plain ftz exQ ∧ Plain ftz exNear ∧ Plain ftz exFar := by
  refine ⟨⟨by unfold Spec.Finite; decide, fun _ => Or.inr ?_⟩, ⟨by unfold Spec.Finite; decide, fun _ => Or.inr ?_⟩,
    ⟨by unfold Spec.Finite; decide, fun _ => Or.inr ?_⟩⟩ <;> norm_num [value, magnitude, exQ, exNear, exFar]

theorem expand_axis (ftz : Bool) {Tx Tp Tq : SumTree} {m : Nat} (hx : Tx.Sums (m + 1)) (hp : Tp.Sums (m + 1)) (hq : Tq.Sums (m + 1)) :
    expandF32 ftz Tx Tp Tq (axis m exNear) (axis m exQ) = .ok F32.one ∧ expandF32 ftz Tx Tp Tq (axis m exFar) (axis m exQ) = .ok F32.zero := by
  obtain ⟨h1, h2, h3⟩ := exExpand_plain ftz
  unfold expandF32
  rw [dot_axis ftz hp h2 h2 rfl, dot_axis ftz hq h1 h1 rfl, dot_axis ftz hx h2 h1 (by decide),
    dot_axis ftz hp h3 h3 rfl, dot_axis ftz hx h3 h1 (by decide)]
  simp only [Res.ok_bind]
  have a : F32.add ftz (F32.add ftz (F32.mul ftz F32.minusTwo (F32.mul ftz exNear exQ)) (F32.mul ftz exNear exNear)) (F32.mul ftz exQ exQ) = F32.one := by
    cases ftz <;> decide +kernel
  have b : F32.add ftz (F32.add ftz (F32.mul ftz F32.minusTwo (F32.mul ftz exFar exQ)) (F32.mul ftz exFar exFar)) (F32.mul ftz exQ exQ) = F32.zero := by
    cases ftz <;> decide +kernel
  rw [a, b]
  exact ⟨rfl, rfl⟩

theorem sqDistVal_axis (m : Nat) (x y : F32) : sqDistVal (axis m x) (axis m y) = (value x - value y) ^ 2 := by
  unfold sqDistVal axis
  rw [List.zipWith_cons_cons, List.sum_cons]
  have : (List.zipWith (fun x y => (value x - value y) ^ 2) (List.replicate m F32.zero) (List.replicate m F32.zero)).sum = 0 := by
    rw [List.zipWith_replicate]
    simp
  linarith

/-- **C94, refuted.** In every dimension, in every order of the additions: the computed distances of two points are in the wrong order, so
`exact_knn` lists point 1 as the nearest, at distance 0, though point 0 is strictly nearer and point 1 at distance 1. -/
theorem C94_truth_wrong (ftz : Bool) (m : Nat) (Tx : Nat → Nat → SumTree) (Tp Tq : Nat → SumTree) (hx : ∀ q i, (Tx q i).Sums (m + 1))
    (hTp : ∀ i, (Tp i).Sums (m + 1)) (hTq : ∀ q, (Tq q).Sums (m + 1)) (pick : Nat → Nat → List (Nat × F32) → Nat) (hp : ∀ q, IsHeapPick (pick q))
    (junk : Nat → F32) :
    exactKnn pick 1 2 1 (expandMatrix ftz Tx Tp Tq [axis m exNear, axis m exFar] [axis m exQ]) junk = .ok [[(1, F32.zero)]] ∧
      sqDistVal (axis m exNear) (axis m exQ) = 9 / 16 ∧ sqDistVal (axis m exFar) (axis m exQ) = 1 := by
  refine ⟨?_, by rw [sqDistVal_axis]; norm_num [value, magnitude, exQ, exNear], by rw [sqDistVal_axis]; norm_num [value, magnitude, exQ, exFar]⟩
  have h0 : expandMatrix ftz Tx Tp Tq [axis m exNear, axis m exFar] [axis m exQ] 0 0 = F32.one := by
    unfold expandMatrix
    rw [if_pos ⟨by simp, by simp⟩]
    simp only [List.getD_cons_zero]
    rw [(expand_axis ftz (hx 0 0) (hTp 0) (hTq 0)).1]
  have h1 : expandMatrix ftz Tx Tp Tq [axis m exNear, axis m exFar] [axis m exQ] 0 1 = F32.zero := by
    unfold expandMatrix
    rw [if_pos ⟨by simp, by simp⟩]
    simp only [List.getD_cons_zero, List.getD_cons_succ]
    rw [(expand_axis ftz (hx 0 1) (hTp 1) (hTq 0)).2]
  have hnum : ∀ q i, (expandMatrix ftz Tx Tp Tq [axis m exNear, axis m exFar] [axis m exQ] q i).IsNum := by
    intro q i
    by_cases hc : i < [axis m exNear, axis m exFar].length ∧ q < [axis m exQ].length
    · obtain ⟨hi, hq⟩ := hc
      simp only [List.length_cons, List.length_nil] at hi hq
      obtain rfl : q = 0 := by omega
      obtain rfl | rfl : i = 0 ∨ i = 1 := by omega
      · rw [h0]; decide
      · rw [h1]; decide
    · unfold expandMatrix
      rw [if_neg hc]
      decide
  obtain ⟨rows, e, hl, hK⟩ := C47_exact_knn 1 2 1 (by decide) (by decide) _ hnum pick hp junk
  rw [e]
  obtain ⟨row, rfl⟩ := List.length_eq_one_iff.1 hl
  have K := hK 0 row rfl
  obtain ⟨x, rfl⟩ := List.length_eq_one_iff.1 (by rw [K.length]; simp : row.length = 1)
  obtain ⟨i, d⟩ := x
  obtain ⟨hi, hd⟩ := K.mem (i, d) (by simp)
  simp only [Finset.mem_range] at hi hd
  obtain rfl | rfl : i = 0 ∨ i = 1 := by omega
  · have := K.best 1 (by simp) (by simp) (0, d) (by simp)
    simp only [hd] at this
    rw [h0, h1] at this
    exact absurd this (by decide)
  · rw [hd, h1]

/-- The hypotheses are met in 128 dimensions, for example by the order of a loop. -/
example := C94_truth_wrong true 127 (fun _ _ => serial 128) (fun _ => serial 128) (fun _ => serial 128) (fun _ _ => serial_sums 128)
  (fun _ => serial_sums 128) (fun _ => serial_sums 128) (fun _ _ => exPick) (fun _ => exPick_isHeapPick) (fun _ => F32.nan)

theorem exExpandOk (ftz : Bool) (x y : F32) (hx : Plain ftz x) (hy : Plain ftz y) (hv : |value x| ≤ 2 ^ 13) (hw : |value y| ≤ 2 ^ 13) :
    ExpandOk ftz 4 10 (serial 3) (serial 3) (serial 3) 3 (axis 2 x) (axis 2 y) := by
  have key : ∀ z : F32, |value z| ≤ 2 ^ 13 → dotVal (axis 2 z) (axis 2 z) ≤ 2 ^ 26 := by
    intro z hz
    have h := abs_le.1 hz
    have : dotVal (axis 2 z) (axis 2 z) = value z * value z := by simp [dotVal, axis, value_zero']
    rw [this]
    nlinarith
  exact ⟨⟨serial_sums 3, serial_sums 3, serial_sums 3⟩, ⟨by decide, by decide, by decide⟩, ⟨by decide, by decide, by decide⟩,
    ⟨by decide, by decide, by decide⟩, rfl, rfl, axis_plain hx, axis_plain hy, by
      have := key x hv
      have := key y hw
      norm_num at *
      linarith⟩

/-- The hypotheses of the bound are met; here it allows for an error of 56. -/
example : ∃ r, expandF32 true (serial 3) (serial 3) (serial 3) (axis 2 exFar) (axis 2 exQ) = .ok r ∧ Spec.Finite r ∧
    |value r - sqDistVal (axis 2 exFar) (axis 2 exQ)| ≤ expandErr true 4 10 (axis 2 exFar) (axis 2 exQ) :=
  C94_expand_partial true (exExpandOk true exFar exQ (exExpand_plain true).2.2 (exExpand_plain true).1
    (by norm_num [value, magnitude, exFar]) (by norm_num [value, magnitude, exQ]))

/-- Two points, one query. -/
example := C94_truth_partial true (h := 4) (o := 10) (n := 3) (fun _ _ => serial 3) (fun _ => serial 3) (fun _ => serial 3)
  [axis 2 exNear, axis 2 exFar] [axis 2 exQ]
  (by
    intro i q p v hi hq
    have h1 := List.mem_of_getElem? hi
    have h2 := List.mem_of_getElem? hq
    simp only [List.mem_cons, List.not_mem_nil, or_false] at h1 h2
    subst h2
    rcases h1 with rfl | rfl
    · exact exExpandOk true _ _ (exExpand_plain true).2.1 (exExpand_plain true).1 (by norm_num [value, magnitude, exNear])
        (by norm_num [value, magnitude, exQ])
    · exact exExpandOk true _ _ (exExpand_plain true).2.2 (exExpand_plain true).1 (by norm_num [value, magnitude, exFar])
        (by norm_num [value, magnitude, exQ]))
  1 (by decide) (by decide) (fun _ _ => exPick) (fun _ => exPick_isHeapPick) (fun _ => F32.nan)

end Grann
