import Verif.Props.FloatMedoid
import Verif.Props.Mips
import Verif.Props.VecTool
import Verif.Model.FloatReduce
import Verif.Spec.FloatReduce
/-!
# C103: the reduction of inner products to distances in `float` arithmetic
-/

namespace Grann

open _root_.Grann.Spec _root_.Spec

/-! ## The operations -/

theorem tiny_if (ftz : Bool) : (if ftz then 2 ^ (-126 : Int) else 2 ^ (-150 : Int) : ℚ) = tiny ftz := rfl

theorem ovf_big : (2 : ℚ) ^ 127 < ovf := by norm_num [ovf]

theorem clean_plain {ftz : Bool} {x : F32} (h : x.mag < 2139095040) (h' : ftz = true → x.mag = 0 ∨ 8388608 ≤ x.mag) : Plain ftz x := by
  refine ⟨h, fun hf => ?_⟩
  rcases h' hf with h0 | h0
  · left; exact magnitude_flushed h0
  · right
    rw [abs_pack]
    refine le_trans (le_of_eq ?_) (magnitude_strictMono.monotone h0)
    norm_num [magnitude]

theorem sqrt_rat {w v x : ℚ} (hx : 0 < x) (hw0 : 0 ≤ w) (hv0 : 0 ≤ v) (hw : |w ^ 2 - x| ≤ x / 2 ^ 39) (hv : |v - w| ≤ w / 16777216) : |v ^ 2 - x| ≤ x / 1048576 := by
  have h1 : |v ^ 2 - w ^ 2| ≤ w ^ 2 / 8000000 := by
    have e : v ^ 2 - w ^ 2 = (v - w) * (v + w) := by ring
    rw [e, abs_mul, abs_of_nonneg (add_nonneg hv0 hw0)]
    have h2 : v + w ≤ w * (2 + 1 / 16777216) := by have := (abs_le.1 hv).2; linarith
    calc |v - w| * (v + w) ≤ (w / 16777216) * (w * (2 + 1 / 16777216)) := mul_le_mul hv h2 (by positivity) (by positivity)
      _ = w ^ 2 * ((2 + 1 / 16777216) / 16777216) := by ring
      _ ≤ w ^ 2 * (1 / 8000000) := mul_le_mul_of_nonneg_left (by norm_num) (sq_nonneg _)
      _ = _ := by ring
  have h3 := abs_le.1 h1
  have h4 := abs_le.1 hw
  rw [abs_le]
  norm_num at h4
  constructor <;> linarith

theorem sqrt_ok (ftz : Bool) : SqrtOk ftz F32.sqrt := by
  intro x hx h0
  have hs : x.sign = false := by
    by_contra hc
    rw [Bool.not_eq_false] at hc
    rw [value_pack, hc] at h0
    have := magnitude_nonneg x.mag
    simp only [if_true] at h0
    linarith
  have hm : x.mag ≠ 0 := by
    intro hz
    rw [magnitude_flushed hz] at h0
    exact lt_irrefl _ h0
  have hu : value x = (x.units.natAbs : ℚ) * 2 ^ (-149 : Int) := by
    have := abs_of_pos h0
    rw [value_units, abs_mul, abs_of_pos (show (0 : ℚ) < 2 ^ (-149 : Int) by positivity), ← Int.cast_abs] at this
    rw [value_units, ← this]
    simp
  unfold F32.sqrt
  simp only [not_nan hx.1, hm, hs, not_inf hx.1, Bool.false_eq_true, if_false]
  generalize x.units.natAbs = u at hu
  have hu1 : 1 ≤ u := by
    rcases Nat.eq_zero_or_pos u with h | h
    · rw [hu, h] at h0; simp at h0
    · exact h
  generalize hN : u * 2 * 4 ^ 40 = N
  have hNx : (N : ℚ) / 2 ^ 230 = value x := by
    rw [hu, ← hN]
    push_cast
    norm_num
    ring
  have hr1 := Nat.sqrt_le N
  have hr2 := Nat.sqrt_le_add N
  have hrb : 2 ^ 40 ≤ N.sqrt := by
    rw [Nat.le_sqrt, ← hN]
    have e : (2 : Nat) ^ 40 * 2 ^ 40 = 4 ^ 40 := by norm_num
    rw [e]
    have := Nat.mul_le_mul_right (4 ^ 40) (show 1 ≤ u * 2 by omega)
    rwa [one_mul] at this
  generalize N.sqrt = r at *
  generalize hst : (if r * r = N then 0 else 1 : Nat) = st
  have hst1 : (st = 0 ∧ r * r = N) ∨ st = 1 := by rw [← hst]; split <;> simp_all
  have hfv : fval (2 * r + st, 2 ^ 116) = (2 * r + st : ℚ) / 2 ^ 116 := by unfold fval; push_cast; ring
  have hrq : (2 : ℚ) ^ 40 ≤ r := by exact_mod_cast hrb
  have hstq : (0 : ℚ) ≤ st ∧ (st : ℚ) ≤ 1 := ⟨by positivity, by rcases hst1 with h | h <;> simp [h]⟩
  have hn0 : 0 < 2 * r + st := by omega
  have hr1q : (r : ℚ) * r ≤ N := by exact_mod_cast hr1
  have hr2q : (N : ℚ) ≤ r * r + r + r := by exact_mod_cast hr2
  generalize hw : (2 * r + st : ℚ) / 2 ^ 116 = w at hfv
  have hw0 : 0 ≤ w := by rw [← hw]; positivity
  have hwx : |w ^ 2 - value x| ≤ value x / 2 ^ 39 := by
    have e : w ^ 2 - value x = ((r + st / 2) ^ 2 - N) / 2 ^ 230 := by rw [← hNx, ← hw]; norm_num; ring
    rw [e, abs_div, abs_of_pos (show (0 : ℚ) < 2 ^ 230 by positivity), ← hNx, div_div, mul_comm ((2 : ℚ) ^ 230), ← div_div]
    refine div_le_div_of_nonneg_right ?_ (by positivity)
    have hb : |((r : ℚ) + st / 2) ^ 2 - N| ≤ (r : ℚ) + 1 := by
      rcases hst1 with ⟨h1, h2⟩ | h1
      · have : (r : ℚ) * r = N := by exact_mod_cast h2
        rw [h1, ← this]
        have e2 : ((r : ℚ) + ((0 : Nat) : ℚ) / 2) ^ 2 - r * r = 0 := by push_cast; ring
        rw [e2, abs_zero]
        linarith
      · rw [h1]
        push_cast
        rw [abs_le]
        constructor
        · nlinarith
        · nlinarith
    refine le_trans hb ?_
    rw [le_div_iff₀ (by positivity)]
    have : (2 : ℚ) ^ 40 * r ≤ r * r := mul_le_mul_of_nonneg_right hrq (by linarith)
    have hr0 : (1 : ℚ) ≤ r := le_trans (by norm_num) hrq
    norm_num at this ⊢
    linarith
  have hxb : value x < 2 ^ 128 := by
    have h1 : value x = Spec.magnitude x.mag := by rw [value_pack, hs]; simp
    rw [h1]
    have h2 := magnitude_strictMono (show x.mag < 2139095040 from hx.1)
    refine lt_of_lt_of_le h2 (le_of_eq ?_)
    norm_num [magnitude]
  have hwb : w < 2 ^ 100 := by
    by_contra hc
    have hc := not_lt.1 hc
    have h1 := pow_le_pow_left₀ (by positivity) hc 2
    have h2 := (abs_le.1 hwx).2
    have h3 : ((2 : ℚ) ^ 100) ^ 2 = 2 ^ 200 := by norm_num
    rw [h3] at h1
    have h4 : w ^ 2 ≤ 2 * value x := by norm_num at h2; linarith
    norm_num at h1 hxb
    linarith
  have hwl : (2 : ℚ) ^ (-76 : Int) ≤ w := by
    rw [← hw, le_div_iff₀ (by positivity)]
    have : (2 : ℚ) ^ (-76 : Int) * 2 ^ 116 = 2 ^ 40 := by norm_num
    rw [this]
    linarith [hstq.1]
  have hfl : nearestBits (2 * r + st) (2 ^ 116) < 2139095040 := nearestBits_lt hn0 (by positivity) (by rw [hfv]; refine lt_trans hwb ?_; norm_num)
  have hnorm := nearestBits_normal hn0 (d := 2 ^ 116) (by positivity) (by rw [hfv]; refine le_trans ?_ hwl; norm_num)
  have herr := nearestBits_err hn0 (d := 2 ^ 116) (by positivity) (by rw [hfv]; exact le_trans (by norm_num) hwl)
  rw [hfv] at herr
  have hval : value (F32.pack false (nearestBits (2 * r + st) (2 ^ 116))) = Spec.magnitude (nearestBits (2 * r + st) (2 ^ 116)) := by
    rw [pack_value _ (by omega)]; simp
  refine ⟨clean_plain (by rw [pack_mag _ (by omega)]; exact hfl) (fun _ => Or.inr (by rw [pack_mag _ (by omega)]; exact hnorm)), by rw [hval]; exact magnitude_nonneg _, ?_⟩
  rw [hval]
  refine sqrt_rat h0 hw0 (magnitude_nonneg _) hwx (le_trans herr (le_of_eq ?_))
  norm_num
  ring

theorem div_ok (ftz : Bool) : DivOk ftz (F32.div ftz) := by
  intro x y hx hy h1 h2 h3
  have hy0 : 0 < value y := lt_of_lt_of_le (by positivity) h1
  obtain ⟨p, e⟩ := div_err ftz hx.1 hy.1 hy0 (lt_of_le_of_lt h3 (lt_trans (by norm_num) ovf_big))
  refine ⟨p, le_trans e (add_le_add ?_ (le_of_eq (tiny_if ftz).symm))⟩
  have := abs_nonneg (value x / value y)
  have e2 : ulp24 = 1 / 16777216 := by norm_num [ulp24]
  rw [e2]
  linarith

theorem recip_rat {b r p x y τ : ℚ} (hy : 0 < y) (hyb : y ≤ 2 ^ 100) (hτ : τ ≤ 2 ^ (-126 : Int)) (hτ0 : 0 ≤ τ) (hb : b = x / y)
    (hr : |r - 1 / y| ≤ |1 / y| / 16777216 + τ) (hp : |p - x * r| ≤ |x * r| / 16777216 + τ) : |p - b| ≤ |b| / 1048576 + τ := by
  have hxr : |x * r - b| ≤ |b| / 8000000 := by
    have e : x * r - b = x * (r - 1 / y) := by rw [hb]; ring
    rw [e, abs_mul]
    have h1 : τ ≤ |1 / y| / 67108864 := by
      rw [abs_of_pos (by positivity), div_div, le_div_iff₀ (by positivity)]
      calc τ * (y * 67108864) ≤ 2 ^ (-126 : Int) * (2 ^ 100 * 67108864) := by gcongr
        _ ≤ 1 := by norm_num
    have h2 : |r - 1 / y| ≤ |1 / y| / 8000000 := by have := abs_nonneg (1 / y); linarith
    calc |x| * |r - 1 / y| ≤ |x| * (|1 / y| / 8000000) := by gcongr
      _ = |b| / 8000000 := by rw [hb, abs_div, abs_div, abs_one]; ring
  have h3 : |x * r| ≤ |b| + |b| / 8000000 := by
    have : x * r = b + (x * r - b) := by ring
    rw [this]
    exact le_trans (abs_add_le _ _) (by linarith)
  have h4 : p - b = (p - x * r) + (x * r - b) := by ring
  rw [h4]
  refine le_trans (abs_add_le _ _) ?_
  have := abs_nonneg b
  linarith

theorem mul_plain (ftz : Bool) {x y : F32} (hx : Spec.Finite x) (hy : Spec.Finite y) (h : |value x * value y| < ovf) : Plain ftz (F32.mul ftz x y) := by
  rw [mul_eq ftz hx hy]
  refine round_plain ftz _ ?_
  rw [← exact_mul] at h
  exact h

theorem recip_ok (ftz : Bool) : DivOk ftz (recipDiv ftz) := by
  intro x y hx hy h1 h2 h3
  unfold recipDiv
  have hy0 : 0 < value y := lt_of_lt_of_le (by positivity) h1
  have v1 : value F32.one = 1 := by norm_num [value, F32.one, magnitude]
  have f1 := (plain_zero_one ftz).2.1
  have hb1 : |1 / value y| ≤ 2 ^ 100 := by
    rw [abs_of_pos (by positivity), div_le_iff₀ hy0]
    calc (1 : ℚ) = 2 ^ 100 * 2 ^ (-100 : Int) := by norm_num
      _ ≤ _ := by gcongr
  obtain ⟨p, e⟩ := div_err ftz f1 hy.1 hy0 (by rw [v1]; exact lt_of_le_of_lt hb1 (lt_trans (by norm_num) ovf_big))
  rw [v1] at e
  have e2 : ulp24 = 1 / 16777216 := by norm_num [ulp24]
  have ht := tiny_pos ftz
  have htl := tiny_le ftz
  rw [e2] at e
  have hr : |value (F32.div ftz F32.one y) - 1 / value y| ≤ |1 / value y| / 16777216 + tiny ftz := by linarith
  generalize F32.div ftz F32.one y = r at *
  have hxr : |value x * value r| < ovf := by
    have h5 : |value r| ≤ |1 / value y| * 2 := by
      have h6 : tiny ftz ≤ |1 / value y| / 67108864 := by
        rw [abs_of_pos (by positivity), div_div, le_div_iff₀ (by positivity)]
        calc tiny ftz * (value y * 67108864) ≤ 2 ^ (-126 : Int) * (2 ^ 100 * 67108864) := by gcongr
          _ ≤ 1 := by norm_num
      have h7 : value r = (value r - 1 / value y) + 1 / value y := by ring
      rw [h7]
      refine le_trans (abs_add_le _ _) ?_
      have := abs_nonneg (1 / value y)
      linarith
    have h8 : |value x * value r| ≤ |value x / value y| * 2 := by
      rw [abs_mul]
      calc |value x| * |value r| ≤ |value x| * (|1 / value y| * 2) := by gcongr
        _ = _ := by rw [abs_div, abs_div, abs_one]; ring
    refine lt_of_le_of_lt h8 (lt_of_le_of_lt (mul_le_mul_of_nonneg_right h3 (by norm_num)) (lt_trans ?_ ovf_big))
    norm_num
  obtain ⟨fm, em⟩ := mul_err ftz hx.1 p.1 hxr
  rw [e2] at em
  refine ⟨?_, ?_⟩
  · exact mul_plain ftz hx.1 p.1 hxr
  · rw [tiny_if]
    exact recip_rat hy0 h2 htl ht.le rfl hr (by linarith)

/-! ## One vector -/

theorem resid_rat {P τ t n m q r L : ℚ} (hP : 2 ^ (-61 : Int) ≤ P) (hτ : τ ≤ 2 ^ (-126 : Int)) (ht : |t - P| ≤ |P| / 16777216 + τ)
    (hn0 : 0 ≤ n) (hnm : n ≤ m) (hm : |P - m| ≤ m / 1048576) (hq : |q - n / t| ≤ |n / t| / 1048576 + τ) (hr : |r - (1 - q)| ≤ |1 - q| / 16777216 + τ)
    (hL : (r ≤ 0 ∧ L = 0) ∨ (0 < r ∧ |L - r| ≤ r / 1048576)) : |L + n / P - 1| ≤ 1 / 131072 ∧ n / P ≤ 1048576 / 1048575 := by
  have hP0 : 0 < P := lt_of_lt_of_le (by positivity) hP
  have hτP : τ ≤ P / 1099511627776 := by
    rw [le_div_iff₀ (by norm_num)]
    calc τ * 1099511627776 ≤ 2 ^ (-126 : Int) * 1099511627776 := by gcongr
      _ ≤ 2 ^ (-61 : Int) := by norm_num
      _ ≤ P := hP
  have hτ1 : τ ≤ 1 / 1099511627776 := le_trans hτ (by norm_num)
  rw [abs_of_pos hP0] at ht
  have ht1 := abs_le.1 ht
  have ht0 : 0 < t := by linarith
  have hm1 := abs_le.1 hm
  generalize ha : n / P = a
  have hnP : n = a * P := by rw [← ha]; field_simp
  have ha0 : 0 ≤ a := by rw [← ha]; positivity
  have ha1 : a ≤ 1048576 / 1048575 := by
    rw [← ha, div_le_iff₀ hP0]
    linarith
  generalize hb : n / t = b at hq
  have hnt : n = b * t := by rw [← hb]; field_simp
  have hb0 : 0 ≤ b := by rw [← hb]; positivity
  have hab : |b - a| ≤ a / 8000000 := by
    have e : b - a = a * (P - t) / t := by rw [← hb, hnP]; field_simp
    rw [e, abs_div, abs_mul, abs_of_nonneg ha0, abs_of_pos ht0, div_le_iff₀ ht0, abs_sub_comm]
    calc a * |t - P| ≤ a * (t / 8000000) := by gcongr; linarith
      _ = a / 8000000 * t := by ring
  rw [abs_of_nonneg hb0] at hq
  have h1 := abs_le.1 hab
  have h2 := abs_le.1 hq
  have h3 : |1 - q| ≤ 2 := by rw [abs_le]; constructor <;> linarith
  have h4 := abs_le.1 hr
  refine ⟨?_, ha1⟩
  rw [abs_le]
  rcases hL with ⟨hr0, rfl⟩ | ⟨hr0, hL⟩
  · constructor <;> linarith
  · have h5 := abs_le.1 hL
    constructor <;> linarith

theorem scaled_rat {b a τ : ℚ} (hτ : τ ≤ 2 ^ (-126 : Int)) (hτ0 : 0 ≤ τ) (h : |a - b| ≤ |b| / 1048576 + τ) : |a ^ 2 - b ^ 2| ≤ b ^ 2 / 262144 + τ := by
  have e : a ^ 2 - b ^ 2 = (a - b) ^ 2 + 2 * b * (a - b) := by ring
  have h1 : (a - b) ^ 2 ≤ (|b| / 1048576 + τ) ^ 2 := by
    rw [← sq_abs (a - b)]
    exact pow_le_pow_left₀ (abs_nonneg _) h 2
  have h2 : |2 * b * (a - b)| ≤ 2 * |b| * (|b| / 1048576 + τ) := by
    rw [abs_mul, abs_mul, abs_two]
    gcongr
  have h3 : 2 * |b| * τ ≤ |b| ^ 2 / 1048576 + 1048576 * τ ^ 2 := by
    have := sq_nonneg (|b| / 1024 - 1024 * τ)
    have e2 : (|b| / 1024 - 1024 * τ) ^ 2 = |b| ^ 2 / 1048576 - 2 * |b| * τ + 1048576 * τ ^ 2 := by ring
    linarith
  have h4 : τ ^ 2 ≤ τ / 4194304 := by
    have : τ ≤ 1 / 4194304 := le_trans hτ (by norm_num)
    calc τ ^ 2 = τ * τ := by ring
      _ ≤ τ * (1 / 4194304) := by gcongr
      _ = _ := by ring
  have e3 : (|b| / 1048576 + τ) ^ 2 = |b| ^ 2 / 1099511627776 + 2 * |b| * τ / 1048576 + τ ^ 2 := by ring
  have e4 : 2 * |b| * (|b| / 1048576 + τ) = 2 * |b| ^ 2 / 1048576 + 2 * |b| * τ := by ring
  rw [e3] at h1
  rw [e4] at h2
  rw [e]
  refine le_trans (abs_add_le _ _) ?_
  rw [abs_of_nonneg (sq_nonneg (a - b))]
  rw [sq_abs] at *
  have hb2 := sq_nonneg b
  generalize b ^ 2 = B at *
  generalize τ ^ 2 = T at *
  generalize 2 * |b| * τ = W at *
  linarith

theorem sum_diff {α : Type} (l : List α) (f g e : α → ℚ) (h : ∀ z ∈ l, |f z - g z| ≤ e z) : |(l.map f).sum - (l.map g).sum| ≤ (l.map e).sum := by
  induction l with
  | nil => simp
  | cons z l ih =>
    simp only [List.map_cons, List.sum_cons]
    have h1 := ih (fun y hy => h y (List.mem_cons_of_mem _ hy))
    have h2 := h z List.mem_cons_self
    rw [show f z + (l.map f).sum - (g z + (l.map g).sum) = (f z - g z) + ((l.map f).sum - (l.map g).sum) by ring]
    exact le_trans (abs_add_le _ _) (add_le_add h2 h1)

theorem zip_diff (f : F32 → F32) (M τ : ℚ) (hM : 0 < M) : ∀ (q x : List F32), (∀ z ∈ x, |value (f z) - value z / M| ≤ |value z / M| / 1048576 + τ) → 0 ≤ τ →
    |dotVal q (x.map f) - dotVal q x / M| ≤ absDotVal q x / M / 1048576 + τ * (q.map (fun a => |value a|)).sum := by
  intro q
  induction q with
  | nil => intro x _ _; simp [dotVal, absDotVal]
  | cons a q ih =>
    intro x h hτ
    cases x with
    | nil =>
      simp only [dotVal, absDotVal, List.map_nil, List.zipWith_nil_right, List.sum_nil, zero_div, sub_self, abs_zero, zero_add]
      refine mul_nonneg hτ (List.sum_nonneg ?_)
      intro y hy
      obtain ⟨z, -, rfl⟩ := List.mem_map.1 hy
      exact abs_nonneg _
    | cons z x =>
      have h1 := ih x (fun y hy => h y (List.mem_cons_of_mem _ hy)) hτ
      have h2 := h z List.mem_cons_self
      unfold dotVal absDotVal at *
      simp only [List.map_cons, List.zipWith_cons_cons, List.sum_cons]
      generalize (List.zipWith (fun x y => value x * value y) q (x.map f)).sum = A at *
      generalize (List.zipWith (fun x y => value x * value y) q x).sum = B at *
      generalize (List.zipWith (fun x y => |value x * value y|) q x).sum = C at *
      generalize (q.map (fun a => |value a|)).sum = S at *
      have e : value a * value (f z) + A - (value a * value z + B) / M = value a * (value (f z) - value z / M) + (A - B / M) := by field_simp; ring
      rw [e]
      refine le_trans (abs_add_le _ _) ?_
      have h3 : |value a * (value (f z) - value z / M)| ≤ |value a * value z| / M / 1048576 + τ * |value a| := by
        rw [abs_mul]
        calc |value a| * |value (f z) - value z / M| ≤ |value a| * (|value z / M| / 1048576 + τ) := by gcongr
          _ = _ := by rw [abs_div, abs_of_pos hM, abs_mul]; ring
      have e2 : (|value a * value z| + C) / M / 1048576 + τ * (|value a| + S) = (|value a * value z| / M / 1048576 + τ * |value a|) + (C / M / 1048576 + τ * S) := by ring
      rw [e2]
      exact add_le_add h3 h1

theorem dotVal_snoc {a b : List F32} (h : a.length = b.length) (x y : F32) : dotVal (a ++ [x]) (b ++ [y]) = dotVal a b + value x * value y := by
  unfold dotVal
  rw [List.zipWith_append h, List.sum_append]
  simp

theorem sub_close (ftz : Bool) {x y : F32} (hx : Spec.Finite x) (hy : Spec.Finite y) (h : |value x - value y| < ovf) :
    Plain ftz (F32.sub ftz x y) ∧ |value (F32.sub ftz x y) - (value x - value y)| ≤ |value x - value y| / 16777216 + tiny ftz := by
  have e2 : ulp24 = 1 / 16777216 := by norm_num [ulp24]
  have h' : |value x + value y.neg| < ovf := by rw [neg_value, ← sub_eq_add_neg]; exact h
  have he := (add_err ftz hx (neg_finite hy) h').2
  rw [neg_value, ← sub_eq_add_neg, e2] at he
  refine ⟨?_, by unfold F32.sub; linarith⟩
  unfold F32.sub
  rw [add_eq ftz hx (neg_finite hy)]
  refine round_plain ftz _ ?_
  rw [← exact_add] at h'
  exact h'

/-- The computed norm. -/
theorem norm_close {ftz : Bool} {T : SumTree} {dim : Nat} {x : List F32} {n : F32} (hT : T.Sums dim) (hl : x.length = dim) (hp : ∀ a ∈ x, Plain ftz a) (hh : T.height + 1 ≤ 2 ^ 21)
    (ho : T.ops ≤ 2 ^ 32) (hs : dotVal x x ≤ 2 ^ 100) (hn : dotF32 ftz T x x = .ok n) :
    Plain ftz n ∧ 0 ≤ value n ∧ |value n - dotVal x x| ≤ (T.height + 1) * 2 ^ (-23 : Int) * dotVal x x + 2 ^ (-93 : Int) := by
  obtain ⟨r, e, f, h⟩ := C93_dot_close ftz hT hl hl hp hp (by omega) (by omega) (by rw [absDotVal_self]; exact le_trans hs (by norm_num))
  rw [hn] at e
  obtain rfl : n = r := by injection e
  obtain ⟨r', e', c⟩ := eval_clean ftz (dotFactor x x) T (by
    intro i hi
    have hi := List.mem_range.1 (hT.mem_iff.1 hi)
    refine ⟨_, dotFactor_ok (by omega) (by omega), not_nan (hp _ (List.getElem_mem _)).1⟩)
  rw [dotF32_plain _ hp hp, e'] at hn
  obtain rfl : r' = n := by injection hn
  refine ⟨clean_plain f c.2.2, by rw [value_pack, c.1]; simpa using magnitude_nonneg _, le_trans h ?_⟩
  unfold dotErr
  rw [absDotVal_self]
  refine add_le_add le_rfl ?_
  have h1 : (T.ops : ℚ) ≤ 2 ^ 32 := by exact_mod_cast ho
  calc (T.ops : ℚ) * (if ftz then 2 ^ (-125 : Int) else 2 ^ (-149 : Int)) ≤ 2 ^ 32 * 2 ^ (-125 : Int) := by
        refine mul_le_mul h1 ?_ (by split <;> positivity) (by positivity)
        split
        · exact le_rfl
        · exact zpow_le_zpow_right₀ (by norm_num) (by norm_num)
    _ = _ := by norm_num

theorem sq_le_dotVal {x : List F32} {z : F32} (hz : z ∈ x) : value z ^ 2 ≤ dotVal x x := by
  rw [dotVal_self]
  refine List.single_le_sum ?_ _ (List.mem_map_of_mem (f := fun x => value x ^ 2) hz)
  intro y hy
  obtain ⟨w, -, rfl⟩ := List.mem_map.1 hy
  exact sq_nonneg _

theorem sum_quot (x : List F32) (M : ℚ) : (x.map (fun z => (value z / M) ^ 2)).sum = (x.map (fun y => value y ^ 2)).sum / M ^ 2 := by
  induction x with
  | nil => simp
  | cons z x ih => simp only [List.map_cons, List.sum_cons, ih]; rw [div_pow, add_div]

theorem sum_plus (x : List F32) (f : F32 → ℚ) (τ : ℚ) : (x.map (fun z => f z / 262144 + τ)).sum = (x.map f).sum / 262144 + x.length * τ := by
  induction x with
  | nil => simp
  | cons z x ih => simp only [List.map_cons, List.sum_cons, ih, List.length_cons]; push_cast; ring

/-- What is known about a vector that is written: its length, the errors of the quotients, and that of its norm. -/
theorem row_close {ftz : Bool} {dv : F32 → F32 → F32} {sq : F32 → F32} (hdv : DivOk ftz dv) (hsq : SqrtOk ftz sq) {T : SumTree} {dim : Nat} {x : List F32} {n m : F32}
    (h : ReduceOk ftz T dim x n m) :
    ∃ l : F32, mipsRow (mipsF ftz dv sq) (sq m) n x = x.map (fun a => dv a (sq m)) ++ [l] ∧ Plain ftz l ∧ (∀ z ∈ x, Plain ftz (dv z (sq m))) ∧
      0 < value (sq m) ∧ (∀ z ∈ x, |value (dv z (sq m)) - value z / value (sq m)| ≤ |value z / value (sq m)| / 1048576 + tiny ftz) ∧
      |dotVal (x.map (fun a => dv a (sq m))) (x.map (fun a => dv a (sq m))) - value n / value (sq m) ^ 2| ≤ 3 * (T.height + 1) * 2 ^ (-23 : Int) + 2 ^ (-16 : Int) ∧
      |dotVal (x.map (fun a => dv a (sq m))) (x.map (fun a => dv a (sq m))) + value l * value l - 1| ≤ reduceErr T := by
  have hm0 : 0 < value m := lt_of_lt_of_le (by positivity) h.maxLow
  obtain ⟨pM, hM0, hMm⟩ := hsq m h.maxPlain hm0
  generalize sq m = M at *
  have hMm' := abs_le.1 hMm
  have hlow := h.maxLow
  have hhigh := h.maxHigh
  have hP1 : (2 : ℚ) ^ (-61 : Int) ≤ value M ^ 2 := by
    have : (2 : ℚ) ^ (-61 : Int) = 2 ^ (-60 : Int) / 2 := by norm_num
    rw [this]
    generalize (2 : ℚ) ^ (-60 : Int) = c at *
    generalize value M ^ 2 = P at *
    linarith
  have hP2 : value M ^ 2 ≤ 2 ^ 99 * (1048577 / 1048576) := by linarith
  have hM1 : (2 : ℚ) ^ (-31 : Int) ≤ value M := by
    by_contra hc
    have h1 := pow_le_pow_left₀ hM0 (not_le.1 hc).le 2
    have h2 := le_trans hP1 h1
    norm_num at h2
  have hMp : 0 < value M := lt_of_lt_of_le (by positivity) hM1
  have hM2 : value M ≤ 2 ^ 51 := by
    by_contra hc
    have h1 := pow_le_pow_left₀ (by positivity) (not_le.1 hc).le 2
    have h2 := le_trans h1 hP2
    norm_num at h2
  have ht := tiny_pos ftz
  have htl := tiny_le ftz
  have e2 : ulp24 = 1 / 16777216 := by norm_num [ulp24]
  -- the quotients
  have hdiv : ∀ z ∈ x, Plain ftz (dv z M) ∧ |value (dv z M) - value z / value M| ≤ |value z / value M| / 1048576 + tiny ftz := by
    intro z hz
    have hz2 : |value z| ≤ 2 ^ 50 := by
      have h1 := le_trans (sq_le_dotVal hz) h.size
      have h2 : (2 : ℚ) ^ 100 = (2 ^ 50) ^ 2 := by norm_num
      rw [h2] at h1
      exact abs_le_of_sq_le_sq h1 (by positivity)
    refine hdv z M (h.plain z hz) pM (le_trans (by norm_num) hM1) (le_trans hM2 (by norm_num)) ?_
    rw [abs_div, abs_of_pos hMp, div_le_iff₀ hMp]
    calc |value z| ≤ 2 ^ 50 := hz2
      _ ≤ 2 ^ 100 * 2 ^ (-31 : Int) := by norm_num
      _ ≤ _ := by gcongr
  -- the square of the largest norm
  obtain ⟨hnp, hn0, hnS⟩ := norm_close h.sums h.dims h.plain h.height h.ops h.size h.norm
  have hMM : |value M * value M| < ovf := by
    rw [← pow_two, abs_of_nonneg (sq_nonneg _)]
    exact lt_of_le_of_lt hP2 (lt_trans (by norm_num) ovf_big)
  have et := (mul_err ftz pM.1 pM.1 hMM).2
  have pt := mul_plain ftz pM.1 pM.1 hMM
  rw [← pow_two, e2] at et
  generalize hP : value M ^ 2 = P at *
  have hP0 : 0 < P := lt_of_lt_of_le (by positivity) hP1
  unfold mipsRow mipsF
  dsimp only
  generalize F32.mul ftz M M = t at *
  have htP : |value t - P| ≤ P / 8388608 := by
    rw [abs_of_pos hP0] at et
    have h3 : tiny ftz ≤ P / 1099511627776 := by
      rw [le_div_iff₀ (by norm_num)]
      calc tiny ftz * 1099511627776 ≤ 2 ^ (-126 : Int) * 1099511627776 := by gcongr
        _ ≤ 2 ^ (-61 : Int) := by norm_num
        _ ≤ P := hP1
    linarith
  have htP' := abs_le.1 htP
  have ht0 : 0 < value t := by linarith
  have ht1 : (2 : ℚ) ^ (-100 : Int) ≤ value t := by
    have : (2 : ℚ) ^ (-100 : Int) ≤ 2 ^ (-61 : Int) / 2 := by norm_num
    refine le_trans this ?_
    generalize (2 : ℚ) ^ (-61 : Int) = c at *
    linarith
  have ht2 : value t ≤ 2 ^ 100 := by norm_num at hP2 ⊢; linarith
  have hnt : |value n / value t| ≤ 4 := by
    rw [abs_of_nonneg (div_nonneg hn0 ht0.le), div_le_iff₀ ht0]
    linarith [h.largest]
  obtain ⟨pq, eq⟩ := hdv n t hnp pt ht1 ht2 (le_trans hnt (by norm_num))
  rw [tiny_if] at eq
  generalize dv n t = q at *
  have p1 := (plain_zero_one ftz).2
  have v1 : value F32.one = 1 := by norm_num [value, F32.one, magnitude]
  have v0 : value F32.zero = 0 := by norm_num [value, F32.zero, magnitude]
  have hq8 : |value q| ≤ 8 := by
    have h3 : tiny ftz ≤ 1 := le_trans htl (by norm_num)
    have h4 : value q = (value q - value n / value t) + value n / value t := by ring
    rw [h4]
    exact le_trans (abs_add_le _ _) (by linarith)
  obtain ⟨pr, er⟩ := sub_close ftz p1.1 pq.1 (by
    rw [v1]
    refine lt_of_le_of_lt (abs_sub 1 (value q)) (lt_of_le_of_lt ?_ ovf_big)
    rw [abs_one]
    refine le_trans (add_le_add le_rfl hq8) (by norm_num))
  rw [v1] at er
  generalize F32.sub ftz F32.one q = r at *
  refine ⟨_, rfl, ?_, fun z hz => (hdiv z hz).1, hMp, fun z hz => (hdiv z hz).2, ?_⟩
  · split
    · exact (plain_zero_one ftz).1
    · rename_i hc
      refine (hsq r pr ?_).1
      rw [le_iff_value pr.1 (plain_zero_one ftz).1.1, v0] at hc
      exact not_le.1 hc
  · generalize hl : (if r.le F32.zero = true then F32.zero else sq r) = l
    have hL : (value r ≤ 0 ∧ value l * value l = 0) ∨ (0 < value r ∧ |value l * value l - value r| ≤ value r / 1048576) := by
      rw [← hl]
      split
      · rename_i hc
        rw [le_iff_value pr.1 (plain_zero_one ftz).1.1, v0] at hc
        left
        exact ⟨hc, by rw [v0]; ring⟩
      · rename_i hc
        rw [le_iff_value pr.1 (plain_zero_one ftz).1.1, v0] at hc
        right
        refine ⟨not_le.1 hc, ?_⟩
        rw [← pow_two]
        exact (hsq r pr (not_le.1 hc)).2.2
    obtain ⟨g1, g2⟩ := resid_rat hP1 htl (by linarith) hn0 h.largest hMm eq er hL
    -- the sum of the squares of the quotients
    have g3 : |dotVal (x.map (fun a => dv a M)) (x.map (fun a => dv a M)) - dotVal x x / P| ≤ dotVal x x / P / 262144 + 2 ^ (-94 : Int) := by
      rw [dotVal_self, dotVal_self, List.map_map]
      have h3 := sum_diff x ((fun y => value y ^ 2) ∘ fun a => dv a M) (fun z => (value z / value M) ^ 2) (fun z => (value z / value M) ^ 2 / 262144 + tiny ftz)
        (fun z hz => scaled_rat htl ht.le (hdiv z hz).2)
      have h4 : (x.map (fun z => (value z / value M) ^ 2)).sum = (x.map (fun y => value y ^ 2)).sum / P := by rw [← hP]; exact sum_quot x (value M)
      have h5 := sum_plus x (fun z => (value z / value M) ^ 2) (tiny ftz)
      rw [h5, h4] at h3
      refine le_trans h3 (add_le_add le_rfl ?_)
      have h6 : (x.length : ℚ) ≤ 2 ^ 32 := by rw [h.dims]; exact_mod_cast h.count
      calc (x.length : ℚ) * tiny ftz ≤ 2 ^ 32 * 2 ^ (-126 : Int) := by gcongr
        _ = _ := by norm_num
    have hγ : ((T.height : ℚ) + 1) * 2 ^ (-23 : Int) ≤ 1 / 4 := by
      have : ((T.height : ℚ) + 1) ≤ 2 ^ 21 := by exact_mod_cast h.height
      calc ((T.height : ℚ) + 1) * 2 ^ (-23 : Int) ≤ 2 ^ 21 * 2 ^ (-23 : Int) := by gcongr
        _ = _ := by norm_num
    unfold reduceErr
    have e3 : 3 * ((T.height : ℚ) + 1) * 2 ^ (-23 : Int) = 3 * (((T.height : ℚ) + 1) * 2 ^ (-23 : Int)) := by ring
    rw [e3]
    have hγ0 : 0 ≤ ((T.height : ℚ) + 1) * 2 ^ (-23 : Int) := by positivity
    generalize ((T.height : ℚ) + 1) * 2 ^ (-23 : Int) = γ at *
    have hS0 : 0 ≤ dotVal x x := by rw [← absDotVal_self]; exact absDotVal_nonneg _ _
    generalize dotVal (x.map (fun a => dv a M)) (x.map (fun a => dv a M)) = A at *
    generalize dotVal x x = S at *
    generalize value l * value l = L at *
    have g4 : |S / P - value n / P| ≤ γ * (S / P) + 2 ^ (-32 : Int) := by
      rw [← sub_div, abs_div, abs_of_pos hP0, abs_sub_comm, div_le_iff₀ hP0]
      have e4 : (γ * (S / P) + 2 ^ (-32 : Int)) * P = γ * S + 2 ^ (-32 : Int) * P := by field_simp
      rw [e4]
      refine le_trans hnS (add_le_add le_rfl ?_)
      calc (2 : ℚ) ^ (-93 : Int) = 2 ^ (-32 : Int) * 2 ^ (-61 : Int) := by norm_num
        _ ≤ _ := by gcongr
    have hs0 : 0 ≤ S / P := by positivity
    generalize S / P = s at *
    generalize value n / P = a at *
    have h7 : γ * s ≤ 1 / 4 * s := by gcongr
    have h8 := abs_le.1 g4
    have h9 := abs_le.1 g3
    have h10 := abs_le.1 g1
    have e32 : (2 : ℚ) ^ (-32 : Int) = 1 / 4294967296 := by norm_num
    have e94 : (2 : ℚ) ^ (-94 : Int) ≤ 1 / 4294967296 := by norm_num
    have e15 : (2 : ℚ) ^ (-15 : Int) = 1 / 32768 := by norm_num
    rw [e32] at h8
    rw [e15]
    have hs2 : s ≤ 2 := by linarith
    have h11 : γ * s ≤ γ * 2 := by gcongr
    have e16 : (2 : ℚ) ^ (-16 : Int) = 1 / 65536 := by norm_num
    rw [e16, abs_le, abs_le]
    refine ⟨⟨?_, ?_⟩, ?_, ?_⟩ <;> linarith

/-! ## All vectors -/

theorem norm_loop {ftz : Bool} {x : List F32} : ∀ k ≤ x.length,
    (serial k).eval ftz (dotFactor x x) = .ok ((x.take k).foldl (fun s a => F32.add ftz s (F32.mul ftz a a)) F32.zero) := by
  intro k
  induction k with
  | zero => intro _; rfl
  | succ k ih =>
    intro hk
    have hf := dotFactor_ok (a := x) (b := x) (i := k) (by omega) (by omega)
    rw [List.take_add_one, List.getElem?_eq_getElem (by omega), Option.toList_some, List.foldl_append]
    exact eval_add_ok (ih (by omega)) (eval_term_ok (ftz := ftz) hf)

theorem norm_serial {ftz : Bool} (dv : F32 → F32 → F32) (sq : F32 → F32) {x : List F32} (hp : ∀ a ∈ x, Plain ftz a) :
    dotF32 ftz (serial x.length) x x = .ok (mipsNorm (mipsF ftz dv sq) x) := by
  have := norm_loop (ftz := ftz) (x := x) x.length le_rfl
  rw [List.take_length] at this
  rw [dotF32_plain _ hp hp, this]
  rfl

theorem max_run {α : Type} (ftz : Bool) (dv : F32 → F32 → F32) (sq : F32 → F32) (f : α → F32) : ∀ (l : List α) (m : F32), Plain ftz m → 0 ≤ value m →
    (∀ x ∈ l, Plain ftz (f x) ∧ 0 ≤ value (f x)) → ∀ r, l.foldl (fun m x => mipsMax (mipsF ftz dv sq) m (f x)) m = r →
    value m ≤ value r ∧ (∀ x ∈ l, value (f x) ≤ value r) ∧ Plain ftz r ∧ (r = m ∨ ∃ x ∈ l, r = f x) := by
  intro l
  induction l with
  | nil => intro m hm h0 _ r hr; rw [← hr]; exact ⟨le_rfl, by simp, hm, Or.inl rfl⟩
  | cons a l ih =>
    intro m hm h0 hf r hr
    rw [List.foldl_cons] at hr
    obtain ⟨pa, a0⟩ := hf a List.mem_cons_self
    have hmax : (mipsMax (mipsF ftz dv sq) m (f a) = m ∧ value (f a) ≤ value m) ∨ (mipsMax (mipsF ftz dv sq) m (f a) = f a ∧ value m ≤ value (f a)) := by
      unfold mipsMax
      by_cases hc : (f a).lt m = true
      · left
        exact ⟨if_pos hc, ((lt_iff_value pa.1 hm.1).1 hc).le⟩
      · right
        refine ⟨if_neg hc, ?_⟩
        rw [lt_iff_value pa.1 hm.1] at hc
        exact not_lt.1 hc
    have hl : ∀ x ∈ l, Plain ftz (f x) ∧ 0 ≤ value (f x) := fun x hx => hf x (List.mem_cons_of_mem _ hx)
    rcases hmax with ⟨e, h1⟩ | ⟨e, h1⟩
    · rw [e] at hr
      obtain ⟨g1, g2, g3, g4⟩ := ih m hm h0 hl r hr
      refine ⟨g1, ?_, g3, ?_⟩
      · intro x hx
        rcases List.mem_cons.1 hx with rfl | hx
        · linarith
        · exact g2 x hx
      · rcases g4 with h | ⟨x, hx, h⟩
        · exact Or.inl h
        · exact Or.inr ⟨x, List.mem_cons_of_mem _ hx, h⟩
    · rw [e] at hr
      obtain ⟨g1, g2, g3, g4⟩ := ih (f a) pa a0 hl r hr
      refine ⟨by linarith, ?_, g3, ?_⟩
      · intro x hx
        rcases List.mem_cons.1 hx with rfl | hx
        · exact g1
        · exact g2 x hx
      · rcases g4 with h | ⟨x, hx, h⟩
        · exact Or.inr ⟨a, List.mem_cons_self, h⟩
        · exact Or.inr ⟨x, List.mem_cons_of_mem _ hx, h⟩

/-- The largest norm, squared. -/
theorem max_close {ftz : Bool} (dv : F32 → F32 → F32) (sq : F32 → F32) {dim : Nat} {X : List (List F32)} (h : ReduceData ftz dim X) {m : F32}
    (hm : X.foldl (fun m x => mipsMax (mipsF ftz dv sq) m (mipsNorm (mipsF ftz dv sq) x)) F32.zero = m) :
    (∀ x ∈ X, ReduceOk ftz (serial dim) dim x (mipsNorm (mipsF ftz dv sq) x) m) ∧ ∃ x ∈ X, m = mipsNorm (mipsF ftz dv sq) x := by
  have hh : (serial dim).height + 1 ≤ 2 ^ 21 := by rw [serial_height]; exact h.count
  have hc := h.count
  have ho : (serial dim).ops ≤ 2 ^ 32 := by rw [serial_ops]; omega
  have hn : ∀ x ∈ X, dotF32 ftz (serial dim) x x = .ok (mipsNorm (mipsF ftz dv sq) x) := by
    intro x hx
    have := norm_serial dv sq (h.plain x hx)
    rwa [h.dims x hx] at this
  have hcl := fun x hx => norm_close (serial_sums dim) (h.dims x hx) (h.plain x hx) hh ho (le_trans (h.size x hx) (by norm_num)) (hn x hx)
  obtain ⟨p0, -⟩ := plain_zero_one ftz
  have v0 : value F32.zero = 0 := by norm_num [value, F32.zero, magnitude]
  obtain ⟨-, g2, g3, g4⟩ := max_run ftz dv sq (mipsNorm (mipsF ftz dv sq)) X F32.zero p0 v0.ge (fun x hx => ⟨(hcl x hx).1, (hcl x hx).2.1⟩) m hm
  have hγ : (((serial dim).height : ℚ) + 1) * 2 ^ (-23 : Int) ≤ 1 / 4 := by
    have : (((serial dim).height : ℚ) + 1) ≤ 2 ^ 21 := by exact_mod_cast hh
    calc (((serial dim).height : ℚ) + 1) * 2 ^ (-23 : Int) ≤ 2 ^ 21 * 2 ^ (-23 : Int) := by gcongr
      _ = _ := by norm_num
  have hlow : (2 : ℚ) ^ (-60 : Int) ≤ value m := by
    obtain ⟨x, hx, hl⟩ := h.large
    refine le_trans ?_ (g2 x hx)
    have h1 := (abs_le.1 (hcl x hx).2.2).1
    have hS0 : 0 ≤ dotVal x x := le_trans (by positivity) hl
    have h2 := mul_le_mul_of_nonneg_right hγ hS0
    have e1 : (2 : ℚ) ^ (-60 : Int) = 2 ^ (-59 : Int) / 2 := by norm_num
    have e2 : (2 : ℚ) ^ (-93 : Int) ≤ 2 ^ (-59 : Int) / 16 := by norm_num
    rw [e1]
    generalize (2 : ℚ) ^ (-59 : Int) = c at *
    generalize (2 : ℚ) ^ (-93 : Int) = d at *
    generalize (((serial dim).height : ℚ) + 1) * 2 ^ (-23 : Int) * dotVal x x = w at *
    linarith
  have hmem : ∃ x ∈ X, m = mipsNorm (mipsF ftz dv sq) x := by
    rcases g4 with h0 | h0
    · rw [h0, v0] at hlow
      exact absurd hlow (not_le.2 (by positivity))
    · exact h0
  have hhigh : value m ≤ 2 ^ 99 := by
    obtain ⟨x, hx, e⟩ := hmem
    rw [e]
    have h1 := (abs_le.1 (hcl x hx).2.2).2
    have hS0 : 0 ≤ dotVal x x := by rw [← absDotVal_self]; exact absDotVal_nonneg _ _
    have h2 := mul_le_mul_of_nonneg_right hγ hS0
    have h3 := h.size x hx
    have e1 : (2 : ℚ) ^ 99 = 2 * 2 ^ 98 := by norm_num
    have e2 : (2 : ℚ) ^ (-93 : Int) ≤ 2 ^ 98 / 16 := by norm_num
    rw [e1]
    generalize (2 : ℚ) ^ 98 = c at *
    generalize (2 : ℚ) ^ (-93 : Int) = d at *
    generalize (((serial dim).height : ℚ) + 1) * 2 ^ (-23 : Int) * dotVal x x = w at *
    linarith
  exact ⟨fun x hx => ⟨serial_sums dim, h.dims x hx, h.plain x hx, hh, ho, by omega, hn x hx, le_trans (h.size x hx) (by norm_num), g2 x hx, g3, hlow, hhigh⟩, hmem⟩

theorem max_rat {γ S m n P : ℚ} (hγ : 0 ≤ γ) (hγ1 : γ ≤ 1 / 4) (hS : 0 ≤ S) (hm : 2 ^ (-60 : Int) ≤ m) (hP : |P - m| ≤ m / 1048576) (hn : |n - S| ≤ γ * S + 2 ^ (-93 : Int)) :
    (n ≤ m → S * (1 - (3 * γ + 2 ^ (-15 : Int))) ≤ P) ∧ (n = m → P ≤ S * (1 + (3 * γ + 2 ^ (-15 : Int)))) := by
  have e93 : (2 : ℚ) ^ (-93 : Int) ≤ m / 4294967296 := by
    rw [le_div_iff₀ (by norm_num)]
    exact le_trans (by norm_num) hm
  have e15 : (2 : ℚ) ^ (-15 : Int) = 1 / 32768 := by norm_num
  rw [e15]
  have h1 := abs_le.1 hP
  have h2 := abs_le.1 hn
  have h3 : γ * S ≤ 1 / 4 * S := by gcongr
  have h0 : 0 ≤ γ * S := by positivity
  have ea : S * (1 - (3 * γ + 1 / 32768)) = S - 3 * (γ * S) - S / 32768 := by ring
  have eb : S * (1 + (3 * γ + 1 / 32768)) = S + 3 * (γ * S) + S / 32768 := by ring
  rw [ea, eb]
  generalize γ * S = g at *
  generalize (2 : ℚ) ^ (-93 : Int) = d at *
  constructor
  · intro h; linarith
  · intro h; linarith

/-- **C103 (one vector).** A vector that is written has norm 1 up to `reduceErr`, and its distance from a query is that of exact arithmetic up to this and the errors of the
quotients, in any order of the additions. -/
theorem C103_vector {ftz : Bool} {dv : F32 → F32 → F32} {sq : F32 → F32} (hdv : DivOk ftz dv) (hsq : SqrtOk ftz sq) {T : SumTree} {dim : Nat} {x : List F32} {n m : F32}
    (h : ReduceOk ftz T dim x n m) :
    (mipsRow (mipsF ftz dv sq) (sq m) n x).length = dim + 1 ∧ (∀ a ∈ mipsRow (mipsF ftz dv sq) (sq m) n x, Plain ftz a) ∧ 0 < value (sq m) ∧
    |dotVal (mipsRow (mipsF ftz dv sq) (sq m) n x) (mipsRow (mipsF ftz dv sq) (sq m) n x) - 1| ≤ reduceErr T ∧
    ∀ q : List F32, q.length = dim →
      |sqDistVal (q ++ [F32.zero]) (mipsRow (mipsF ftz dv sq) (sq m) n x) - (dotVal q q + 1 - 2 * (dotVal q x / value (sq m)))| ≤ reduceErr T + queryErr (value (sq m)) q x := by
  obtain ⟨l, e, pl, pd, hM, hd, -, hn⟩ := row_close hdv hsq h
  have v0 : value F32.zero = 0 := by norm_num [value, F32.zero, magnitude]
  rw [e]
  have hN : |dotVal (x.map (fun a => dv a (sq m)) ++ [l]) (x.map (fun a => dv a (sq m)) ++ [l]) - 1| ≤ reduceErr T := by rw [dotVal_snoc rfl]; exact hn
  refine ⟨by simp [h.dims], ?_, hM, hN, ?_⟩
  · intro a ha
    rcases List.mem_append.1 ha with ha | ha
    · obtain ⟨z, hz, rfl⟩ := List.mem_map.1 ha
      exact pd z hz
    · rw [List.mem_singleton.1 ha]; exact pl
  · intro q hq
    rw [sqDistVal_expand (by simp [h.dims, hq]), dotVal_snoc (a := q) (b := q) rfl, dotVal_snoc (a := q) (b := x.map (fun a => dv a (sq m))) (by simp [h.dims, hq]), v0, zero_mul, zero_mul, add_zero, add_zero]
    have h1 := zip_diff (fun a => dv a (sq m)) (value (sq m)) (tiny ftz) hM q x hd (tiny_pos ftz).le
    have h2 : tiny ftz * (q.map (fun a => |value a|)).sum ≤ 2 ^ (-126 : Int) * (q.map (fun a => |value a|)).sum := by
      refine mul_le_mul_of_nonneg_right (tiny_le ftz) (List.sum_nonneg ?_)
      intro y hy
      obtain ⟨z, -, rfl⟩ := List.mem_map.1 hy
      exact abs_nonneg _
    unfold queryErr
    generalize dotVal q (x.map (fun a => dv a (sq m))) = A at *
    generalize dotVal (x.map (fun a => dv a (sq m)) ++ [l]) (x.map (fun a => dv a (sq m)) ++ [l]) = N at *
    have e2 : dotVal q q + N - 2 * A - (dotVal q q + 1 - 2 * (dotVal q x / value (sq m))) = (N - 1) + -(2 * (A - dotVal q x / value (sq m))) := by ring
    rw [e2]
    refine le_trans (abs_add_le _ _) (add_le_add hN ?_)
    rw [abs_neg, abs_mul, abs_two]
    exact mul_le_mul_of_nonneg_left (le_trans h1 (add_le_add le_rfl h2)) (by norm_num)

/-- A vector divided by its own norm (tests/utils/vector_analysis.cpp:54-61, 100-104) has norm 1 up to `reduceErr`, and its inner products are those of the exact
vector divided by the computed norm, up to the errors of the quotients. -/
theorem normalize_close {ftz : Bool} {dv : F32 → F32 → F32} {sq : F32 → F32} (hdv : DivOk ftz dv) (hsq : SqrtOk ftz sq) {T : SumTree} {dim : Nat} {x : List F32} {n : F32}
    (h : ReduceOk ftz T dim x n n) :
    (∀ a ∈ x.map (fun a => dv a (sq n)), Plain ftz a) ∧ 0 < value (sq n) ∧ |dotVal (x.map (fun a => dv a (sq n))) (x.map (fun a => dv a (sq n))) - 1| ≤ reduceErr T ∧
    ∀ q : List F32, |dotVal q (x.map (fun a => dv a (sq n))) - dotVal q x / value (sq n)| ≤ queryErr (value (sq n)) q x / 2 := by
  obtain ⟨l, -, -, pd, hM, hd, hn, -⟩ := row_close hdv hsq h
  refine ⟨?_, hM, ?_, ?_⟩
  · intro a ha
    obtain ⟨z, hz, rfl⟩ := List.mem_map.1 ha
    exact pd z hz
  · have hn0 : 0 < value n := lt_of_lt_of_le (by positivity) h.maxLow
    have h1 := abs_le.1 (hsq n h.maxPlain hn0).2.2
    have hP0 : 0 < value (sq n) ^ 2 := by positivity
    have h2 : |value n / value (sq n) ^ 2 - 1| ≤ 1 / 500000 := by
      rw [div_sub_one hP0.ne', abs_div, abs_of_pos hP0, div_le_iff₀ hP0, abs_le]
      constructor <;> linarith
    have h3 := abs_le.1 h2
    have h4 := abs_le.1 hn
    unfold reduceErr
    have e16 : (2 : ℚ) ^ (-16 : Int) = 1 / 65536 := by norm_num
    have e15 : (2 : ℚ) ^ (-15 : Int) = 1 / 32768 := by norm_num
    rw [e16] at h4
    rw [e15, abs_le]
    constructor <;> linarith
  · intro q
    have h1 := zip_diff (fun a => dv a (sq n)) (value (sq n)) (tiny ftz) hM q x hd (tiny_pos ftz).le
    have h2 : tiny ftz * (q.map (fun a => |value a|)).sum ≤ 2 ^ (-126 : Int) * (q.map (fun a => |value a|)).sum := by
      refine mul_le_mul_of_nonneg_right (tiny_le ftz) (List.sum_nonneg ?_)
      intro y hy
      obtain ⟨z, -, rfl⟩ := List.mem_map.1 hy
      exact abs_nonneg _
    unfold queryErr
    rw [mul_div_cancel_left₀ _ (by norm_num : (2 : ℚ) ≠ 0)]
    exact le_trans h1 (add_le_add le_rfl h2)

/-- **C103 (the file).** The file that `prepare_base_for_inner_products` writes: the number returned is the largest norm, every vector has norm 1, and distances are those
of exact arithmetic, all up to errors. -/
theorem C103_file {ftz : Bool} {dv : F32 → F32 → F32} {sq : F32 → F32} (hdv : DivOk ftz dv) (hsq : SqrtOk ftz sq) (conv : Bytes → List F32) (es blk dim : Nat) (rows : List Bytes)
    (j1 j2 : Bytes) (hj1 : j1.length = 4) (hj2 : j2.length = 4) (hblk : 1 ≤ blk) (hn : rows.length < 4294967296) (hrow : ∀ x ∈ rows, x.length = dim * es)
    (h : ReduceData ftz dim (rows.map conv)) :
    ∃ out, mipsPrepare (mipsF ftz dv sq) conv es blk (some (Spec.binFile dim rows)) j1 j2 = .ok out ∧ out.npts = rows.length ∧ out.dim = dim + 1 ∧ out.rows.length = rows.length ∧
      0 < value out.maxNorm ∧
      (∀ x ∈ rows, dotVal (conv x) (conv x) * (1 - reduceErr (serial dim)) ≤ value out.maxNorm ^ 2) ∧
      (∃ x ∈ rows, value out.maxNorm ^ 2 ≤ dotVal (conv x) (conv x) * (1 + reduceErr (serial dim))) ∧
      ∀ (i : Nat) (x : Bytes), rows[i]? = some x → ∃ y, out.rows[i]? = some y ∧ y.length = dim + 1 ∧ (∀ a ∈ y, Plain ftz a) ∧ |dotVal y y - 1| ≤ reduceErr (serial dim) ∧
        ∀ q : List F32, q.length = dim →
          |sqDistVal (q ++ [F32.zero]) y - (dotVal q q + 1 - 2 * (dotVal q (conv x) / value out.maxNorm))| ≤ reduceErr (serial dim) + queryErr (value out.maxNorm) q (conv x) := by
  have hc := h.count
  have h0 : 1 ≤ rows.length := by
    obtain ⟨x, hx, -⟩ := h.large
    have := List.length_pos_of_mem hx
    rwa [List.length_map] at this
  have hfold : rows.foldl (fun m x => mipsMax (mipsF ftz dv sq) m (mipsNorm (mipsF ftz dv sq) (conv x))) F32.zero =
      (rows.map conv).foldl (fun m x => mipsMax (mipsF ftz dv sq) m (mipsNorm (mipsF ftz dv sq) x)) F32.zero := by rw [List.foldl_map]
  obtain ⟨hall, x0, hx0, em⟩ := max_close dv sq h hfold.symm
  have ho : rows.foldl (fun m x => mipsMax (mipsF ftz dv sq) m (mipsNorm (mipsF ftz dv sq) (conv x))) (mipsF ftz dv sq).zero = rows.foldl (fun m x => mipsMax (mipsF ftz dv sq) m (mipsNorm (mipsF ftz dv sq) (conv x))) F32.zero := rfl
  refine ⟨_, mipsPrepare_ok _ conv es blk dim rows j1 j2 hj1 hj2 hblk h0 hn (by omega) hrow, rfl, Nat.mod_eq_of_lt (by omega), by simp, ?_⟩
  rw [ho]
  generalize rows.foldl (fun m x => mipsMax (mipsF ftz dv sq) m (mipsNorm (mipsF ftz dv sq) (conv x))) F32.zero = m at *
  show 0 < value (sq m) ∧ _
  have hk := hall x0 hx0
  have hm0 : 0 < value m := lt_of_lt_of_le (by positivity) hk.maxLow
  have hM := (hsq m hk.maxPlain hm0).2.2
  have hγ : (((serial dim).height : ℚ) + 1) * 2 ^ (-23 : Int) ≤ 1 / 4 := by
    have : (((serial dim).height : ℚ) + 1) ≤ 2 ^ 21 := by exact_mod_cast hk.height
    calc (((serial dim).height : ℚ) + 1) * 2 ^ (-23 : Int) ≤ 2 ^ 21 * 2 ^ (-23 : Int) := by gcongr
      _ = _ := by norm_num
  have hrat : ∀ x ∈ rows.map conv, _ := fun x hx =>
    have g := hall x hx
    max_rat (γ := (((serial dim).height : ℚ) + 1) * 2 ^ (-23 : Int)) (by positivity) hγ (S := dotVal x x) (by rw [← absDotVal_self]; exact absDotVal_nonneg _ _) g.maxLow hM
      (norm_close g.sums g.dims g.plain g.height g.ops g.size g.norm).2.2
  have he : 3 * ((((serial dim).height : ℚ) + 1) * 2 ^ (-23 : Int)) + 2 ^ (-15 : Int) = reduceErr (serial dim) := by unfold reduceErr; ring
  rw [he] at hrat
  refine ⟨(C103_vector hdv hsq hk).2.2.1, fun x hx => (hrat _ (List.mem_map_of_mem hx)).1 (hall _ (List.mem_map_of_mem hx)).largest, ?_, ?_⟩
  · obtain ⟨x, hx, rfl⟩ := List.mem_map.1 hx0
    exact ⟨x, hx, (hrat _ (List.mem_map_of_mem hx)).2 (by rw [em])⟩
  · intro i x hx
    obtain ⟨g1, g2, -, g4, g5⟩ := C103_vector hdv hsq (hall _ (List.mem_map_of_mem (List.mem_of_getElem? hx)))
    exact ⟨_, by rw [List.getElem?_map, hx]; rfl, g1, g2, g4, g5⟩

/-- **C103 (normalised vectors).** The files that the vector analysis tool writes for normalised vectors and for queries: every vector has norm 1 and points in the direction of
the vector read, up to errors. -/
theorem C103_normalize {ftz : Bool} {dv : F32 → F32 → F32} {sq : F32 → F32} (hdv : DivOk ftz dv) (hsq : SqrtOk ftz sq) {dim : Nat} {X : List (List F32)}
    (h : ∀ x ∈ X, ReduceData ftz dim [x]) :
    ∃ Y, normalizeBase (mipsF ftz dv sq) .ok X = .ok Y ∧ augmentQuery (mipsF ftz dv sq) .ok X = .ok (Y.map (· ++ [F32.zero])) ∧ Y.length = X.length ∧
      ∀ (i : Nat) (x : List F32), X[i]? = some x → ∃ y, Y[i]? = some y ∧ y.length = dim ∧ (∀ a ∈ y, Plain ftz a) ∧ |dotVal y y - 1| ≤ reduceErr (serial dim) ∧
        ∃ M, 0 < M ∧ dotVal x x * (1 - reduceErr (serial dim)) ≤ M ^ 2 ∧ M ^ 2 ≤ dotVal x x * (1 + reduceErr (serial dim)) ∧
          ∀ q : List F32, |dotVal q y - dotVal q x / M| ≤ queryErr M q x / 2 := by
  refine ⟨X.map (fun x => x.map (fun a => dv a (sq (mipsNorm (mipsF ftz dv sq) x)))), ?_, ?_, by simp, ?_⟩
  · unfold normalizeBase
    exact mapM_eq_map _ (fun x => x.map (fun a => dv a (sq (mipsNorm (mipsF ftz dv sq) x)))) X (fun x _ => mapM_okay _)
  · unfold augmentQuery
    rw [List.map_map]
    exact mapM_eq_map _ ((· ++ [F32.zero]) ∘ fun x => x.map (fun a => dv a (sq (mipsNorm (mipsF ftz dv sq) x)))) X (fun x _ => mapM_okay _)
  · intro i x hx
    have hx' := h x (List.mem_of_getElem? hx)
    obtain ⟨hall, y, hy, em⟩ := max_close dv sq hx' rfl
    rw [List.mem_singleton] at hy
    rw [hy] at em
    have hk := hall x List.mem_cons_self
    rw [em] at hk
    obtain ⟨g1, g2, g3, g4⟩ := normalize_close hdv hsq hk
    refine ⟨_, by rw [List.getElem?_map, hx]; rfl, by rw [List.length_map, hk.dims], g1, g3, _, g2, ?_, ?_, g4⟩
    all_goals
      have hγ : (((serial dim).height : ℚ) + 1) * 2 ^ (-23 : Int) ≤ 1 / 4 := by
        have : (((serial dim).height : ℚ) + 1) ≤ 2 ^ 21 := by exact_mod_cast hk.height
        calc (((serial dim).height : ℚ) + 1) * 2 ^ (-23 : Int) ≤ 2 ^ 21 * 2 ^ (-23 : Int) := by gcongr
          _ = _ := by norm_num
      have hM := (hsq _ hk.maxPlain (lt_of_lt_of_le (by positivity) hk.maxLow)).2.2
      have hr := max_rat (γ := (((serial dim).height : ℚ) + 1) * 2 ^ (-23 : Int)) (by positivity) hγ (S := dotVal x x) (by rw [← absDotVal_self]; exact absDotVal_nonneg _ _) hk.maxLow hM
        (norm_close hk.sums hk.dims hk.plain hk.height hk.ops hk.size hk.norm).2.2
      have he : 3 * ((((serial dim).height : ℚ) + 1) * 2 ^ (-23 : Int)) + 2 ^ (-15 : Int) = reduceErr (serial dim) := by unfold reduceErr; ring
      rw [he] at hr
    · exact hr.1 le_rfl
    · exact hr.2 rfl

/-- **C103 (needed hypothesis).** A vector of zeros is not normalised but filled with NaN. -/
theorem C103_zero_vector (ftz : Bool) (dim : Nat) :
    normalizeBase (mipsF ftz (F32.div ftz) F32.sqrt) .ok [List.replicate dim F32.zero] = .ok [List.replicate dim F32.nan] := by
  have hn : ∀ dim, mipsNorm (mipsF ftz (F32.div ftz) F32.sqrt) (List.replicate dim F32.zero) = F32.zero := by
    have h2 : F32.add ftz F32.zero (F32.mul ftz F32.zero F32.zero) = F32.zero := by cases ftz <;> decide +kernel
    intro dim
    show (List.replicate dim F32.zero).foldl (fun s a => F32.add ftz s (F32.mul ftz a a)) F32.zero = F32.zero
    induction dim with
    | zero => rfl
    | succ d ih => rw [List.replicate_succ, List.foldl_cons, h2, ih]
  have h3 : F32.div ftz F32.zero (F32.sqrt F32.zero) = F32.nan := by cases ftz <;> decide +kernel
  unfold normalizeBase
  refine Eq.trans (mapM_eq_map _ (fun x => x.map (fun a => F32.div ftz a (F32.sqrt (mipsNorm (mipsF ftz (F32.div ftz) F32.sqrt) x)))) _ (fun x _ => mapM_okay _)) ?_
  rw [List.map_cons, List.map_nil, hn, List.map_replicate, h3]

/-- **C103 (arithmetic).** The division and the square root of IEEE-754 are as required, and so is the multiplication by the reciprocal. -/
theorem C103_arithmetic (ftz : Bool) : DivOk ftz (F32.div ftz) ∧ DivOk ftz (recipDiv ftz) ∧ SqrtOk ftz F32.sqrt := ⟨div_ok ftz, recip_ok ftz, sqrt_ok ftz⟩

/-- **C103 (order).** Of two vectors, the one with the larger inner product with the query is written as the nearer one, if the inner products differ by more than the errors. -/
theorem C103_order {ftz : Bool} {dv : F32 → F32 → F32} {sq : F32 → F32} (hdv : DivOk ftz dv) (hsq : SqrtOk ftz sq) {dim : Nat} {X : List (List F32)} (h : ReduceData ftz dim X) {m : F32}
    (hm : X.foldl (fun m x => mipsMax (mipsF ftz dv sq) m (mipsNorm (mipsF ftz dv sq) x)) F32.zero = m) {q : List F32} (hq : q.length = dim) {x y : List F32} (hx : x ∈ X) (hy : y ∈ X)
    (hlt : 2 * (dotVal q y / value (sq m)) + 2 * reduceErr (serial dim) + queryErr (value (sq m)) q x + queryErr (value (sq m)) q y < 2 * (dotVal q x / value (sq m))) :
    sqDistVal (q ++ [F32.zero]) (mipsRow (mipsF ftz dv sq) (sq m) (mipsNorm (mipsF ftz dv sq) x) x) <
      sqDistVal (q ++ [F32.zero]) (mipsRow (mipsF ftz dv sq) (sq m) (mipsNorm (mipsF ftz dv sq) y) y) := by
  obtain ⟨hall, -⟩ := max_close dv sq h hm
  have h1 := abs_le.1 ((C103_vector hdv hsq (hall x hx)).2.2.2.2 q hq)
  have h2 := abs_le.1 ((C103_vector hdv hsq (hall y hy)).2.2.2.2 q hq)
  linarith [h1.2, h2.1]

/-- Three vectors for the next theorem, and a query. -/
def tieData : List (List F32) := [[F32.one, F32.zero], [⟨0x39000000#32⟩, F32.zero], [F32.zero, F32.zero]]
@[inherit_doc tieData]
def tieQuery : List F32 := [⟨0x38000000#32⟩, F32.one]

/-- **C103 (needed hypothesis).** Without it this fails: of the second and third vector, the second has the larger inner product with the query and is written as the farther one. -/
theorem C103_ties (ftz : Bool) :
    tieData.map (fun x => mipsRow (mipsF ftz (F32.div ftz) F32.sqrt)
      (F32.sqrt (tieData.foldl (fun m x => mipsMax (mipsF ftz (F32.div ftz) F32.sqrt) m (mipsNorm (mipsF ftz (F32.div ftz) F32.sqrt) x)) F32.zero))
      (mipsNorm (mipsF ftz (F32.div ftz) F32.sqrt) x) x) =
      [[F32.one, F32.zero, F32.zero], [⟨0x39000000#32⟩, F32.zero, F32.one], [F32.zero, F32.zero, F32.one]] ∧
    dotVal tieQuery [F32.zero, F32.zero] < dotVal tieQuery [⟨0x39000000#32⟩, F32.zero] ∧
    sqDistVal (tieQuery ++ [F32.zero]) [F32.zero, F32.zero, F32.one] < sqDistVal (tieQuery ++ [F32.zero]) [⟨0x39000000#32⟩, F32.zero, F32.one] := by
  refine ⟨?_, ?_, ?_⟩
  · cases ftz <;> decide +kernel
  · norm_num [dotVal, tieQuery, value, magnitude, F32.one, F32.zero]
  · norm_num [sqDistVal, tieQuery, value, magnitude, F32.one, F32.zero]

/-! ## Examples -/

/-- (3, 4), (1, 1) and (0, 2). -/
def exReduce : List (List F32) := [[⟨0x40400000#32⟩, ⟨0x40800000#32⟩], [⟨0x3f800000#32⟩, ⟨0x3f800000#32⟩], [⟨0x00000000#32⟩, ⟨0x40000000#32⟩]]

theorem exReduce_data : ReduceData true 2 exReduce where
  dims := by decide
  plain := by
    intro x hx a ha
    simp only [exReduce, List.mem_cons, List.not_mem_nil, or_false] at hx
    rcases hx with rfl | rfl | rfl <;> simp only [List.mem_cons, List.not_mem_nil, or_false] at ha <;> rcases ha with rfl | rfl <;>
      exact ⟨by unfold Spec.Finite; decide, fun _ => by norm_num [value, magnitude]⟩
  count := by decide
  size := by
    intro x hx
    simp only [exReduce, List.mem_cons, List.not_mem_nil, or_false] at hx
    rcases hx with rfl | rfl | rfl <;> norm_num [dotVal, value, magnitude]
  large := ⟨_, List.mem_cons_self, by norm_num [dotVal, value, magnitude]⟩

/-- The vector of the number in the first byte of a row. -/
def exReduceConv (b : Bytes) : List F32 := exReduce.getD (b.headD 0).toNat []

example := C103_file (div_ok true) (sqrt_ok true) exReduceConv 1 2 2 [[0, 0], [1, 0], [2, 0]] [9, 9, 9, 9] [9, 9, 9, 9] rfl rfl (by decide) (by decide) (by decide) exReduce_data

example := C103_vector (div_ok true) (sqrt_ok true) ((max_close (F32.div true) F32.sqrt exReduce_data rfl).1 _ List.mem_cons_self)

/-- (3, 4) can be normalised. -/
example := C103_normalize (X := [[⟨0x40400000#32⟩, ⟨0x40800000#32⟩]]) (div_ok true) (sqrt_ok true) (fun x hx => by
  rw [List.mem_singleton.1 hx]
  exact {
    dims := fun x hx => exReduce_data.dims x (by rw [List.mem_singleton.1 hx]; exact List.mem_cons_self)
    plain := fun x hx => exReduce_data.plain x (by rw [List.mem_singleton.1 hx]; exact List.mem_cons_self)
    count := exReduce_data.count
    size := fun x hx => exReduce_data.size x (by rw [List.mem_singleton.1 hx]; exact List.mem_cons_self)
    large := ⟨_, List.mem_cons_self, by norm_num [dotVal, value, magnitude]⟩ })

/-- The largest norm is 5; (3, 4) gets (0.6, 0.8, 0). -/
example : F32.sqrt (exReduce.foldl (fun m x => mipsMax (mipsF true (F32.div true) F32.sqrt) m (mipsNorm (mipsF true (F32.div true) F32.sqrt) x)) F32.zero) = ⟨0x40a00000#32⟩ ∧
    mipsRow (mipsF true (F32.div true) F32.sqrt) ⟨0x40a00000#32⟩ ⟨0x41c80000#32⟩ [⟨0x40400000#32⟩, ⟨0x40800000#32⟩] = [⟨0x3f19999a#32⟩, ⟨0x3f4ccccd#32⟩, F32.zero] := by decide +kernel

/-- The square roots of 2, of 9 and of the smallest subnormal number. -/
example : F32.sqrt ⟨0x40000000#32⟩ = ⟨0x3fb504f3#32⟩ ∧ F32.sqrt ⟨0x41100000#32⟩ = ⟨0x40400000#32⟩ ∧ F32.sqrt ⟨0x00000001#32⟩ = ⟨0x1a3504f3#32⟩ := by decide +kernel

/-- The query (1, 0) and the vectors (3, 4) and (1, 1). -/
example := C103_order (q := [F32.one, F32.zero]) (x := [⟨0x40400000#32⟩, ⟨0x40800000#32⟩]) (y := [⟨0x3f800000#32⟩, ⟨0x3f800000#32⟩]) (m := ⟨0x41c80000#32⟩) (div_ok true) (sqrt_ok true)
  exReduce_data (by decide +kernel) rfl (by decide) (by decide) (by
    rw [show F32.sqrt ⟨0x41c80000#32⟩ = ⟨0x40a00000#32⟩ by decide +kernel]
    norm_num [dotVal, absDotVal, queryErr, reduceErr, serial_height, value, magnitude, F32.one, F32.zero])

end Grann
