import Verif.Model.FloatKmeans
import Verif.Props.FloatGraph
/-!
# C98: distances to centres in `float` arithmetic
-/

namespace Grann

open _root_.Grann.Spec _root_.Spec

/-- What is asked of `cblas_snrm2`: its square has a small relative error, and an absolute one for tiny numbers. -/
structure NormOk (ftz : Bool) (nrm : List F32 → F32) (h o : Nat) (x : List F32) : Prop where
  finite : Spec.Finite (nrm x)
  close : |value (nrm x) ^ 2 - dotVal x x| ≤ h * 2 ^ (-23 : Int) * dotVal x x + o * tiny ftz

theorem norm_within (ftz : Bool) {nrm : List F32 → F32} {h o : Nat} {x : List F32} (H : NormOk ftz nrm h o x) (hs : h + 1 ≤ 2 ^ 20 ∧ 2 ≤ o ∧ o ≤ 2 ^ 100)
    (hn : dotVal x x ≤ 2 ^ 120) :
    Spec.Finite (normF32 ftz nrm x) ∧ |value (normF32 ftz nrm x) - dotVal x x| ≤ (h + 1) * 2 ^ (-23 : Int) * dotVal x x + o * (2 * tiny ftz) := by
  have hP := dotVal_nonneg x
  have ht := (tiny_pos ftz).le
  have ht1 : tiny ftz ≤ 1 := by unfold tiny; cases ftz <;> norm_num
  have ho1 : (2 : ℚ) ≤ o := by exact_mod_cast hs.2.1
  have ho2 : (o : ℚ) ≤ 2 ^ 100 := by exact_mod_cast hs.2.2
  have hot : (o : ℚ) * tiny ftz ≤ 2 ^ 100 := by
    calc (o : ℚ) * tiny ftz ≤ 2 ^ 100 * 1 := by gcongr
      _ = 2 ^ 100 := mul_one _
  have ht2 : 2 * tiny ftz ≤ o * tiny ftz := mul_le_mul_of_nonneg_right ho1 ht
  have hg : (h : ℚ) * 2 ^ (-23 : Int) ≤ 1 / 8 := by
    have : (h : ℚ) + 1 ≤ 2 ^ 20 := by exact_mod_cast hs.1
    calc (h : ℚ) * 2 ^ (-23 : Int) ≤ 2 ^ 20 * 2 ^ (-23 : Int) := by gcongr; linarith
      _ = 1 / 8 := by norm_num
  have hgP : (h : ℚ) * 2 ^ (-23 : Int) * dotVal x x ≤ 1 / 8 * dotVal x x := mul_le_mul_of_nonneg_right hg hP
  have hc := abs_le.1 H.close
  have hv0 : 0 ≤ value (nrm x) ^ 2 := sq_nonneg _
  have hv : value (nrm x) * value (nrm x) = value (nrm x) ^ 2 := by ring
  have big : (2 : ℚ) * 2 ^ 120 + 2 ^ 100 < ovf := by unfold ovf; norm_num
  have e1 : ((h : ℚ) + 1) * 2 ^ (-23 : Int) * dotVal x x = h * 2 ^ (-23 : Int) * dotVal x x + 1 / 8388608 * dotVal x x := by norm_num; ring
  have e2 : (o : ℚ) * (2 * tiny ftz) = 2 * (o * tiny ftz) := by ring
  rw [e1, e2]
  generalize (h : ℚ) * 2 ^ (-23 : Int) * dotVal x x = B at *
  generalize (o : ℚ) * tiny ftz = O at *
  clear e1 e2
  obtain ⟨f, hr⟩ := mul_err ftz H.finite H.finite (by rw [hv, abs_of_nonneg hv0]; linarith)
  rw [hv, abs_of_nonneg hv0] at hr
  refine ⟨f, ?_⟩
  have hr := abs_le.1 hr
  unfold normF32
  have hu : ulp24 = 1 / 16777216 := by unfold ulp24; norm_num
  rw [hu] at hr
  refine abs_le.2 ⟨by linarith, by linarith⟩

/-- The arithmetic of the bound, for the other order of the three terms. -/
theorem centre_arith {P Q X g t u y v p q m s r A : ℚ} (hP : 0 ≤ P) (hQ : 0 ≤ Q) (hA : 2 * A ≤ P + Q) (hXA : |X| ≤ A)
    (hg0 : 0 ≤ g) (hg : g ≤ 1 / 8) (ht : 0 ≤ t) (hu0 : 0 ≤ u) (hu : u ≤ 1 / 1000) (hy : 2 * y ≤ t)
    (hv : |v - X| ≤ g * A + t) (hp : |p - P| ≤ g * P + t) (hq : |q - Q| ≤ g * Q + t)
    (hm : |m + 2 * v| ≤ |2 * v| * u + y) (hs : |s - (p + q)| ≤ |p + q| * u + y) (hr : |r - (s + m)| ≤ |s + m| * u + y) :
    |2 * v| ≤ 2 * (P + Q) + 2 * t ∧ |p + q| ≤ 4 * (P + Q) + 8 * t ∧ |s + m| ≤ 8 * (P + Q) + 16 * t ∧
    |r - (P + Q - 2 * X)| ≤ (2 * g + 8 * u) * (P + Q) + 8 * t := by
  have hN : 0 ≤ P + Q := by linarith
  have a1 := abs_le.1 hXA
  have a2 := abs_le.1 hv
  have a3 := abs_le.1 hp
  have a4 := abs_le.1 hq
  have gA : g * A ≤ g * ((P + Q) / 2) := mul_le_mul_of_nonneg_left (by linarith) hg0
  have gN : g * (P + Q) ≤ 1 / 8 * (P + Q) := mul_le_mul_of_nonneg_right hg hN
  have gP : g * P ≤ 1 / 8 * P := mul_le_mul_of_nonneg_right hg hP
  have gQ : g * Q ≤ 1 / 8 * Q := mul_le_mul_of_nonneg_right hg hQ
  have gPQ : g * (P + Q) = g * P + g * Q := by ring
  have gN2 : g * ((P + Q) / 2) = g * (P + Q) / 2 := by ring
  have uN0 : 0 ≤ u * (P + Q) := mul_nonneg hu0 hN
  have uN : u * (P + Q) ≤ 1 / 1000 * (P + Q) := mul_le_mul_of_nonneg_right hu hN
  have ut : u * t ≤ 1 / 1000 * t := mul_le_mul_of_nonneg_right hu ht
  have ut0 : 0 ≤ u * t := mul_nonneg hu0 ht
  have b1 : |2 * v| ≤ 9 / 8 * (P + Q) + 2 * t := abs_le.2 ⟨by linarith, by linarith⟩
  have c1 : |2 * v| * u ≤ 9 / 8 * (u * (P + Q)) + 2 * (u * t) := by
    have := mul_le_mul_of_nonneg_right b1 hu0
    linarith
  have a5 := abs_le.1 (hm.trans (add_le_add_left c1 y))
  have b1' := abs_le.1 b1
  have b2 : |p + q| ≤ 5 / 2 * (P + Q) + 5 * t := abs_le.2 ⟨by linarith, by linarith⟩
  have c2 : |p + q| * u ≤ 5 / 2 * (u * (P + Q)) + 5 * (u * t) := by
    have := mul_le_mul_of_nonneg_right b2 hu0
    linarith
  have a6 := abs_le.1 (hs.trans (add_le_add_left c2 y))
  have b2' := abs_le.1 b2
  have b3 : |s + m| ≤ 4 * (P + Q) + 8 * t := abs_le.2 ⟨by linarith, by linarith⟩
  have c3 : |s + m| * u ≤ 4 * (u * (P + Q)) + 8 * (u * t) := by
    have := mul_le_mul_of_nonneg_right b3 hu0
    linarith
  have a7 := abs_le.1 (hr.trans (add_le_add_left c3 y))
  have e : (2 * g + 8 * u) * (P + Q) = 2 * (g * (P + Q)) + 8 * (u * (P + Q)) := by ring
  rw [e]
  refine ⟨by linarith, by linarith, by linarith, abs_le.2 ⟨by linarith, by linarith⟩⟩

/-- A vector and a centre whose distance can be computed: a chain of at most `h` additions, `o` operations. -/
structure CentreOk (ftz : Bool) (nrm : List F32 → F32) (h o : Nat) (T : SumTree) (n : Nat) (x c : List F32) : Prop where
  sums : T.Sums n
  height : T.height ≤ h
  ops : T.ops ≤ o
  small : h + 1 ≤ 2 ^ 20 ∧ 2 ≤ o ∧ o ≤ 2 ^ 100
  left : x.length = n
  right : c.length = n
  leftFinite : ∀ y ∈ x, Spec.Finite y
  rightFinite : ∀ y ∈ c, Spec.Finite y
  leftNorm : NormOk ftz nrm h o x
  rightNorm : NormOk ftz nrm h o c
  norms : dotVal x x + dotVal c c ≤ 2 ^ 120

/-- Finite values, tiny ones included. -/
theorem centre_finite (ftz : Bool) {nrm : List F32 → F32} {h o : Nat} {T : SumTree} {n : Nat} {x c : List F32} (H : CentreOk ftz nrm h o T n x c) :
    ∃ r, centreF32 ftz nrm T x c = .ok r ∧ Spec.Finite r ∧ r.lt F32.fmax = true ∧
      |value r - (dotVal x x + dotVal c c - 2 * dotVal (x.map (F32.daz ftz)) (c.map (F32.daz ftz)))| ≤ expandErr ftz h o x c := by
  have hP := dotVal_nonneg x
  have hQ := dotVal_nonneg c
  have hA : 2 * absDotVal (x.map (F32.daz ftz)) (c.map (F32.daz ftz)) ≤ dotVal x x + dotVal c c := by
    have h1 := absDotVal_le (a := x.map (F32.daz ftz)) (b := c.map (F32.daz ftz)) (by rw [List.length_map, List.length_map, H.left, H.right])
    have h2 := norm_daz ftz x
    have h3 := norm_daz ftz c
    linarith
  have hN := H.norms
  have hsm := H.small
  obtain ⟨v, ev, fv, hv⟩ := dot_within ftz H.sums (a := x.map (F32.daz ftz)) (b := c.map (F32.daz ftz)) (by rw [List.length_map, H.left]) (by rw [List.length_map, H.right])
    (map_daz_plain ftz H.leftFinite) (map_daz_plain ftz H.rightFinite) H.height H.ops ⟨hsm.1, by omega, hsm.2.2⟩ (by linarith)
  rw [dot_daz ftz T H.leftFinite H.rightFinite] at ev
  obtain ⟨fp, hp⟩ := norm_within ftz H.leftNorm hsm (by linarith)
  obtain ⟨fq, hq⟩ := norm_within ftz H.rightNorm hsm (by linarith)
  have ht0 := (tiny_pos ftz).le
  have ho1 : (1 : ℚ) ≤ o := by exact_mod_cast (by omega : 1 ≤ o)
  have ho2 : (o : ℚ) ≤ 2 ^ 100 := by exact_mod_cast hsm.2.2
  have hty : 2 * tiny ftz ≤ o * (2 * tiny ftz) := le_mul_of_one_le_left (by linarith) ho1
  have htt : (o : ℚ) * (2 * tiny ftz) ≤ 2 ^ 100 := by
    have : 2 * tiny ftz ≤ 1 := by unfold tiny; cases ftz <;> norm_num
    calc (o : ℚ) * (2 * tiny ftz) ≤ 2 ^ 100 * 1 := by gcongr
      _ = 2 ^ 100 := mul_one _
  have hg0 : (0 : ℚ) ≤ (h + 1) * 2 ^ (-23 : Int) := by positivity
  have hg : ((h : ℚ) + 1) * 2 ^ (-23 : Int) ≤ 1 / 8 := by
    have : (h : ℚ) + 1 ≤ 2 ^ 20 := by exact_mod_cast hsm.1
    calc ((h : ℚ) + 1) * 2 ^ (-23 : Int) ≤ 2 ^ 20 * 2 ^ (-23 : Int) := by gcongr
      _ = 1 / 8 := by norm_num
  have hu0 : (0 : ℚ) ≤ ulp24 := by unfold ulp24; positivity
  have hu : ulp24 ≤ 1 / 1000 := by unfold ulp24; norm_num
  have hXA : |dotVal (x.map (F32.daz ftz)) (c.map (F32.daz ftz))| ≤ absDotVal (x.map (F32.daz ftz)) (c.map (F32.daz ftz)) := dotVal_abs
  have hm2 : value F32.minusTwo = -2 := by norm_num [value, F32.minusTwo, magnitude]
  have fm2 : Spec.Finite F32.minusTwo := by unfold Spec.Finite; decide
  have big : (8 : ℚ) * 2 ^ 120 + 16 * 2 ^ 100 < ovf := by unfold ovf; norm_num
  generalize hpp : normF32 ftz nrm x = p at *
  generalize hqq : normF32 ftz nrm c = q at *
  have k1 := (centre_arith (m := -2 * value v) (s := value p + value q) (r := value p + value q + -2 * value v) hP hQ hA hXA hg0 hg
    (by linarith) hu0 hu hty hv hp hq (by rw [neg_mul, neg_add_cancel, abs_zero]; positivity)
    (by rw [sub_self, abs_zero]; positivity) (by rw [sub_self, abs_zero]; positivity))
  obtain ⟨fm, hm⟩ := mul_err ftz fm2 fv (by rw [hm2, neg_mul, abs_neg]; linarith [k1.1])
  rw [hm2, neg_mul, sub_neg_eq_add, abs_neg] at hm
  generalize hmm : F32.mul ftz F32.minusTwo v = m at *
  obtain ⟨fs, hs⟩ := add_err ftz fp fq (by linarith [k1.2.1])
  generalize hss : F32.add ftz p q = s at *
  have k3 := (centre_arith (r := value s + value m) hP hQ hA hXA hg0 hg
    (by linarith) hu0 hu hty hv hp hq hm hs (by rw [sub_self, abs_zero]; positivity)).2.2.1
  obtain ⟨fr, hr⟩ := add_err ftz fs fm (by linarith)
  have k4 := (centre_arith hP hQ hA hXA hg0 hg (by linarith) hu0 hu hty hv hp hq hm hs hr).2.2.2
  refine ⟨F32.add ftz s m, ?_, fr, ?_, k4.trans ?_⟩
  · unfold centreF32
    rw [ev, Res.ok_bind, hpp, hqq, hss, hmm]
  · have ffm : Spec.Finite F32.fmax := by unfold Spec.Finite; decide
    rw [lt_iff_value fr ffm]
    have efm : (2 : ℚ) ^ 125 < value F32.fmax := by norm_num [value, F32.fmax, magnitude]
    have h1 := (abs_le.1 hr).2
    have h2 : |value s + value m| * ulp24 ≤ |value s + value m| * (1 / 1000) := mul_le_mul_of_nonneg_left hu (abs_nonneg _)
    have h3 := le_abs_self (value s + value m)
    have h4 : (9 : ℚ) * 2 ^ 120 + 18 * 2 ^ 100 ≤ 2 ^ 125 := by norm_num
    linarith
  · unfold expandErr
    have e1 : (if ftz then 2 ^ (-121 : Int) else 2 ^ (-145 : Int) : ℚ) = 32 * tiny ftz := by
      unfold tiny
      cases ftz <;> norm_num
    have e2 : 2 * (((h : ℚ) + 1) * 2 ^ (-23 : Int)) + 8 * ulp24 = (h + 3) * 2 ^ (-22 : Int) := by
      unfold ulp24
      norm_num
      ring
    rw [e1, e2]
    have : (0 : ℚ) ≤ o * tiny ftz := by positivity
    have : (o : ℚ) * (32 * tiny ftz) = 32 * (o * tiny ftz) := by ring
    have : 8 * ((o : ℚ) * (2 * tiny ftz)) = 16 * (o * tiny ftz) := by ring
    linarith

/-- **C98.** A distance to a centre, in every order of the additions, is finite, below the largest `float`, and within `expandErr` of the exact one.
Missing for accuracy: the error is relative to the norms, so a small distance of long vectors is lost. -/
theorem C98_centre_partial (ftz : Bool) {nrm : List F32 → F32} {h o : Nat} {T : SumTree} {n : Nat} {x c : List F32} (H : CentreOk ftz nrm h o T n x c)
    (hx : ∀ y ∈ x, Plain ftz y) (hc : ∀ y ∈ c, Plain ftz y) :
    ∃ r, centreF32 ftz nrm T x c = .ok r ∧ Spec.Finite r ∧ r.lt F32.fmax = true ∧ |value r - sqDistVal x c| ≤ expandErr ftz h o x c := by
  obtain ⟨r, e, f, l, h⟩ := centre_finite ftz H
  rw [map_daz hx, map_daz hc, ← sqDistVal_expand (by rw [H.left, H.right])] at h
  exact ⟨r, e, f, l, h⟩

/-! ## A library function that meets the condition -/

/-- The sum of the squares of the values, as a multiple of 2^-298. -/
def unitsSq (x : List F32) : Nat := (x.map (fun y => y.units.natAbs ^ 2)).sum

/-- The root of the sum of squares, rounded down to a multiple of 2^-149 and then to a `float`. -/
def rootF32 (ftz : Bool) (x : List F32) : F32 := F32.round ftz false (Nat.sqrt (unitsSq x)) 149

theorem unitsSq_value (x : List F32) : (unitsSq x : ℚ) / 2 ^ 298 = dotVal x x := by
  rw [dotVal_self]
  unfold unitsSq
  induction x with
  | nil => simp
  | cons y x ih =>
    rw [List.map_cons, List.sum_cons, List.map_cons, List.sum_cons, ← ih, value_units]
    have h1 : ((y.units.natAbs ^ 2 : Nat) : ℚ) = (y.units : ℚ) ^ 2 := by
      have : ((y.units.natAbs ^ 2 : Nat) : Int) = y.units ^ 2 := by
        push_cast
        exact sq_abs _
      rw [← Int.cast_natCast (R := ℚ), this, Int.cast_pow]
    have h2 : ((2 : ℚ) ^ (-149 : Int)) ^ 2 = 1 / 2 ^ 298 := by
      rw [zpow_neg, show (149 : Int) = ((149 : Nat) : Int) from rfl, zpow_natCast, inv_pow, ← pow_mul, one_div]
    rw [Nat.cast_add, h1, mul_pow, h2]
    generalize (2 : ℚ) ^ 298 = a
    ring

/-- Square of a rounded root. -/
theorem root_arith {s v N w t u : ℚ} (hs : 0 ≤ s) (ht : 0 ≤ t) (hu0 : 0 < u) (hu : u ≤ 1 / 1000) (h1 : s ^ 2 ≤ N) (h2 : N ≤ s ^ 2 + 2 * s * w)
    (hv : |v - s| ≤ s * u + t) : |v ^ 2 - N| ≤ 6 * u * N + (2 * t ^ 2 + 2 * t ^ 2 / u + w ^ 2 / u) := by
  have a1 := abs_le.1 hv
  have hN : 0 ≤ N := le_trans (sq_nonneg s) h1
  -- 2 s w ≤ u s^2 + w^2 / u
  have am : ∀ y : ℚ, 2 * s * y ≤ u * s ^ 2 + y ^ 2 / u := by
    intro y
    rw [← sub_nonneg]
    have : u * s ^ 2 + y ^ 2 / u - 2 * s * y = (u * s - y) ^ 2 / u := by
      field_simp
      ring
    rw [this]
    positivity
  have b1 := am w
  have b2 := am t
  have us : u * s ^ 2 ≤ u * N := mul_le_mul_of_nonneg_left h1 hu0.le
  have us0 : 0 ≤ u * s ^ 2 := by positivity
  have uu : (s * u) ^ 2 ≤ 1 / 1000 * (u * s ^ 2) := by
    have : (s * u) ^ 2 = u * (u * s ^ 2) := by ring
    rw [this]
    exact mul_le_mul_of_nonneg_right hu us0
  have hd : |v ^ 2 - s ^ 2| ≤ (s * u + t) * (2 * s + (s * u + t)) := by
    have e : v ^ 2 - s ^ 2 = (v - s) * (v + s) := by ring
    rw [e, abs_mul]
    refine mul_le_mul hv (abs_le.2 ⟨by linarith, by linarith⟩) (abs_nonneg _) (by positivity)
  have e2 : (s * u + t) * (2 * s + (s * u + t)) = 2 * (u * s ^ 2) + (s * u) ^ 2 + 2 * s * t + u * (2 * s * t) + t ^ 2 := by ring
  have b3 : u * (2 * s * t) ≤ 1 / 1000 * (2 * s * t) := mul_le_mul_of_nonneg_right hu (by positivity)
  have t2 : 0 ≤ t ^ 2 := sq_nonneg t
  have t2u : 0 ≤ t ^ 2 / u := by positivity
  have w2u : 0 ≤ w ^ 2 / u := by positivity
  have e3 : 2 * t ^ 2 / u = 2 * (t ^ 2 / u) := by ring
  rw [e3]
  rw [e2] at hd
  have a2 := abs_le.1 hd
  exact abs_le.2 ⟨by linarith, by linarith⟩

/-- **C98.** It meets the condition. -/
theorem rootF32_ok (ftz : Bool) {h o : Nat} (hh : 3 ≤ h) (ho : 1 ≤ o) {x : List F32} (hn : dotVal x x ≤ 2 ^ 120) : NormOk ftz (rootF32 ftz) h o x := by
  have hN := unitsSq_value x
  have q1 : Nat.sqrt (unitsSq x) ^ 2 ≤ unitsSq x := by rw [pow_two]; exact Nat.sqrt_le _
  have q2 : unitsSq x ≤ Nat.sqrt (unitsSq x) ^ 2 + 2 * Nat.sqrt (unitsSq x) := by
    have := Nat.sqrt_le_add (unitsSq x)
    rw [pow_two]
    omega
  have c1 : ((Nat.sqrt (unitsSq x) : ℚ)) ^ 2 ≤ unitsSq x := by exact_mod_cast q1
  have c2 : (unitsSq x : ℚ) ≤ (Nat.sqrt (unitsSq x) : ℚ) ^ 2 + 2 * Nat.sqrt (unitsSq x) := by exact_mod_cast q2
  have hp : (0 : ℚ) < 2 ^ 149 := by positivity
  have hpp : (2 : ℚ) ^ 298 = 2 ^ 149 * 2 ^ 149 := by rw [← pow_add]
  have s1 : ((Nat.sqrt (unitsSq x) : ℚ) / 2 ^ 149) ^ 2 ≤ dotVal x x := by
    rw [← hN, div_pow, pow_two ((2 : ℚ) ^ 149), ← hpp]
    gcongr
  have s2 : dotVal x x ≤ ((Nat.sqrt (unitsSq x) : ℚ) / 2 ^ 149) ^ 2 + 2 * ((Nat.sqrt (unitsSq x) : ℚ) / 2 ^ 149) * (1 / 2 ^ 149) := by
    have e : ((Nat.sqrt (unitsSq x) : ℚ) / 2 ^ 149) ^ 2 + 2 * ((Nat.sqrt (unitsSq x) : ℚ) / 2 ^ 149) * (1 / 2 ^ 149) =
        ((Nat.sqrt (unitsSq x) : ℚ) ^ 2 + 2 * Nat.sqrt (unitsSq x)) / 2 ^ 298 := by
      rw [hpp]
      generalize (2 : ℚ) ^ 149 = a at *
      field_simp
    rw [e, ← hN]
    gcongr
  have s0 : (0 : ℚ) ≤ (Nat.sqrt (unitsSq x) : ℚ) / 2 ^ 149 := by positivity
  have small : (Nat.sqrt (unitsSq x) : ℚ) / 2 ^ 149 ≤ 2 ^ 60 := by
    refine abs_le_of_sq_le_sq' ?_ (by positivity) |>.2
    calc _ ≤ dotVal x x := s1
      _ ≤ 2 ^ 120 := hn
      _ = ((2 : ℚ) ^ 60) ^ 2 := by norm_num
  have lt : |(((Nat.sqrt (unitsSq x) : Nat) : Int) : ℚ) / 2 ^ 149| < ovf := by
    rw [Int.cast_natCast, abs_of_nonneg s0]
    refine lt_of_le_of_lt small ?_
    unfold ovf
    norm_num
  have hr := round_err ftz false lt
  rw [Int.cast_natCast, abs_of_nonneg s0] at hr
  refine ⟨round_finite _ _ lt, ?_⟩
  have hu0 : (0 : ℚ) < ulp24 := by unfold ulp24; positivity
  have hu : ulp24 ≤ 1 / 1000 := by unfold ulp24; norm_num
  have key := root_arith (N := dotVal x x) (w := 1 / 2 ^ 149) s0 (tiny_pos ftz).le hu0 hu s1 s2 hr
  refine key.trans ?_
  have hP := dotVal_nonneg x
  have h3 : (3 : ℚ) ≤ h := by exact_mod_cast hh
  have h4 : (1 : ℚ) ≤ o := by exact_mod_cast ho
  have e1 : 6 * ulp24 * dotVal x x ≤ h * 2 ^ (-23 : Int) * dotVal x x := by
    have : 6 * ulp24 = 3 * 2 ^ (-23 : Int) := by unfold ulp24; norm_num
    rw [this]
    gcongr
  have e2 : 2 * tiny ftz ^ 2 + 2 * tiny ftz ^ 2 / ulp24 + (1 / 2 ^ 149) ^ 2 / ulp24 ≤ tiny ftz := by
    unfold tiny ulp24
    cases ftz <;> norm_num
  have e3 : tiny ftz ≤ o * tiny ftz := le_mul_of_one_le_left (tiny_pos ftz).le h4
  exact add_le_add e1 (e2.trans e3)

end Grann
