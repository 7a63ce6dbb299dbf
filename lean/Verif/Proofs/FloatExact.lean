import Verif.Props.FloatExpand
import Verif.Props.IntDistance
/-!
# Integers in `float` arithmetic

Integers up to 2^24 are floats, and operations whose results are such numbers are exact.
-/

namespace Grann

open _root_.Grann.Spec

/-- Integers up to 2^24 are floats. -/
theorem ofNat_magnitude {N : Nat} (h : N ≤ 16777216) : (F32.ofNat N).bits.toNat < 2139095040 ∧ magnitude (F32.ofNat N).bits.toNat = N ∧
    ((F32.ofNat N).bits.toNat = 0 ∨ 8388608 ≤ (F32.ofNat N).bits.toNat) := by
  rcases Nat.eq_zero_or_pos N with rfl | h0
  · exact ⟨by decide, by norm_num [magnitude, F32.ofNat, F32.zero], Or.inl (by decide)⟩
  obtain ⟨e, m, he, he31, hm, h1, h2, hb⟩ := ofNat_parts h0 (by omega)
  rw [hb]
  refine ⟨by omega, ?_, Or.inr (by omega)⟩
  have hl : 2 ^ e ≤ N := by rw [he]; exact Nat.log2_self_le (by omega)
  have hu : N < 2 ^ (e + 1) := by rw [he]; exact Nat.lt_log2_self
  by_cases h24 : N = 16777216
  · have he24 : e = 24 := by rw [he, h24]; decide +kernel
    subst he24
    rw [if_neg (by omega), h24] at hm
    have : m = 8388608 := by rw [hm]; decide +kernel
    rw [this, h24]
    norm_num [magnitude]
  have he23 : e ≤ 23 := by
    by_contra hc
    have : 2 ^ 24 ≤ 2 ^ e := Nat.pow_le_pow_right (by norm_num) (by omega)
    omega
  rw [if_pos he23] at hm
  have hlt : m < 16777216 := by
    have : 2 ^ (e + 1) * 2 ^ (23 - e) = 16777216 := by rw [← Nat.pow_add, show e + 1 + (23 - e) = 24 by omega]
    rw [hm, ← this]
    exact Nat.mul_lt_mul_of_pos_right hu (by positivity)
  have hd : ((e + 126) * 8388608 + m) / 8388608 = e + 127 := by omega
  have hr : ((e + 126) * 8388608 + m) % 8388608 = m - 8388608 := by omega
  unfold magnitude
  rw [hd, hr, if_neg (by omega), show 8388608 + (m - 8388608) = m by omega, hm]
  have hz : (((e + 127 : Nat) : Int) - 150) = -((23 - e : Nat) : Int) := by omega
  rw [hz, zpow_neg, zpow_natCast]
  push_cast
  field_simp

theorem ofNat_value {N : Nat} (h : N ≤ 16777216) : Spec.Finite (F32.ofNat N) ∧ value (F32.ofNat N) = N := by
  obtain ⟨h1, h2, _⟩ := ofNat_magnitude h
  refine ⟨?_, ?_⟩
  · unfold Spec.Finite
    omega
  · unfold value
    rw [if_pos (by omega), h2]

/-- Integers up to 2^24 in absolute value, times a power of two: such numbers are floats. -/
def IntRep (c : Int) : Prop := ∃ (m : Int) (j : Nat), |m| ≤ 16777216 ∧ j ≤ 64 ∧ c = m * 2 ^ j

theorem IntRep.small {c : Int} (h : |c| ≤ 16777216) : IntRep c := ⟨c, 0, h, by omega, by simp⟩

theorem magnitude_shift {b : Nat} (h : 8388608 ≤ b) (j : Nat) : magnitude (b + j * 8388608) = magnitude b * 2 ^ j := by
  have h1 : (b + j * 8388608) / 8388608 = b / 8388608 + j := by omega
  have h2 : (b + j * 8388608) % 8388608 = b % 8388608 := by omega
  unfold magnitude
  rw [h1, h2, if_neg (by omega), if_neg (by omega), mul_assoc, ← zpow_natCast, ← zpow_add₀ (by norm_num)]
  congr 2
  push_cast
  ring

theorem intRep_bits {c : Int} (hc : IntRep c) (hc0 : c ≠ 0) : ∃ b < 2139095040, magnitude b = |(c : ℚ)| := by
  obtain ⟨m, j, hm, hj, rfl⟩ := hc
  have hm0 : m ≠ 0 := by rintro rfl; simp at hc0
  have hcn : m.natAbs ≤ 16777216 := by
    have := abs_le.1 hm
    omega
  have hv : (m.natAbs : ℚ) = |(m : ℚ)| := by rw [Nat.cast_natAbs]; push_cast; rfl
  obtain ⟨m1, m2, m3⟩ := ofNat_magnitude hcn
  have hb : 8388608 ≤ (F32.ofNat m.natAbs).bits.toNat := by
    rcases m3 with h | h
    · rw [h, magnitude_zero] at m2
      have : m.natAbs = 0 := by exact_mod_cast m2.symm
      omega
    · exact h
  have hu : (F32.ofNat m.natAbs).bits.toNat ≤ 1266679808 := by
    by_contra hcon
    have h1 := magnitude_strictMono (by omega : 1266679808 < (F32.ofNat m.natAbs).bits.toNat)
    have h2 : magnitude 1266679808 = 16777216 := by norm_num [magnitude]
    have h3 : (m.natAbs : ℚ) ≤ 16777216 := by exact_mod_cast hcn
    rw [m2, h2] at h1
    linarith
  refine ⟨(F32.ofNat m.natAbs).bits.toNat + j * 8388608, by omega, ?_⟩
  rw [magnitude_shift hb, m2, hv]
  push_cast
  rw [abs_mul, abs_of_pos (by positivity : (0 : ℚ) < 2 ^ j)]

theorem intRep_abs {c : Int} (hc : IntRep c) : |(c : ℚ)| ≤ 2 ^ 88 := by
  obtain ⟨m, j, hm, hj, rfl⟩ := hc
  push_cast
  rw [abs_mul, abs_of_pos (by positivity : (0 : ℚ) < 2 ^ j), ← Int.cast_abs]
  have h1 : ((|m| : Int) : ℚ) ≤ 16777216 := by exact_mod_cast hm
  have h2 : (2 : ℚ) ^ j ≤ 2 ^ 64 := pow_le_pow_right₀ (by norm_num) hj
  calc ((|m| : Int) : ℚ) * 2 ^ j ≤ 16777216 * 2 ^ 64 := by gcongr
    _ = 2 ^ 88 := by norm_num

theorem int_range {n : Int} {k : Nat} {c : Int} (hc0 : c ≠ 0) (hc : |(c : ℚ)| ≤ 2 ^ 88) (h : (n : ℚ) / 2 ^ k = c) (ftz : Bool) :
    n ≠ 0 ∧ (ftz && decide (n.natAbs * 2 ^ 151 < 33554431 * 2 ^ k)) = false ∧ |(n : ℚ) / 2 ^ k| < ovf := by
  have h1 : (1 : ℚ) ≤ |(n : ℚ) / 2 ^ k| := by
    rw [h, ← Int.cast_abs]
    have : 1 ≤ |c| := Int.one_le_abs hc0
    exact_mod_cast this
  refine ⟨?_, ?_, ?_⟩
  · rintro rfl
    norm_num at h1
  · by_contra hcon
    rw [Bool.not_eq_false, Bool.and_eq_true, decide_eq_true_iff] at hcon
    have := flush_lt hcon.2
    have h2 : (2 : ℚ) ^ (-126 : Int) < 1 := by norm_num
    linarith
  · rw [h]
    have h4 : (2 : ℚ) ^ 88 < ovf := by unfold ovf; norm_num
    linarith

/-- Results that are such integers are exact. -/
theorem round_int (ftz s : Bool) {n : Int} {k : Nat} {c : Int} (hc : IntRep c) (h : (n : ℚ) / 2 ^ k = c) :
    Spec.Finite (F32.round ftz s n k) ∧ value (F32.round ftz s n k) = c := by
  have hk : (0 : ℚ) < 2 ^ k := by positivity
  by_cases hc0 : c = 0
  · subst hc0
    have hn : n = 0 := by
      rw [Int.cast_zero] at h
      rcases div_eq_zero_iff.1 h with h | h
      · exact_mod_cast h
      · exact absurd h hk.ne'
    subst hn
    rw [round_zero, finite_mag, pack_mag _ (by norm_num), pack_value _ (by norm_num), magnitude_zero]
    simp
  obtain ⟨b, m1, m2⟩ := intRep_bits hc hc0
  obtain ⟨hn, hf, hlt⟩ := int_range hc0 (intRep_abs hc) h ftz
  have hfv : fval (n.natAbs, 2 ^ k) = magnitude b := by
    rw [fval_exact, h, m2]
  have hb := nearestBits_self (by omega) (by positivity) m1 hfv
  obtain ⟨r1, r2⟩ := round_value ftz s hn hf hlt
  refine ⟨round_finite _ _ hlt, ?_⟩
  rw [hb, hfv, sub_self, abs_zero] at r2
  have := abs_eq_zero.1 r2
  rw [h] at this
  linarith

/-- A float that is the integer `c`. -/
def FloatInt (x : F32) (c : Int) : Prop := Spec.Finite x ∧ value x = c

theorem add_int (ftz : Bool) {x y : F32} {a b : Int} (hx : FloatInt x a) (hy : FloatInt y b) (h : IntRep (a + b)) : FloatInt (F32.add ftz x y) (a + b) := by
  unfold FloatInt
  rw [add_eq ftz hx.1 hy.1]
  exact round_int ftz _ h (by rw [exact_add, hx.2, hy.2]; push_cast; rfl)

theorem sub_int (ftz : Bool) {x y : F32} {a b : Int} (hx : FloatInt x a) (hy : FloatInt y b) (h : IntRep (a - b)) : FloatInt (F32.sub ftz x y) (a - b) := by
  rw [sub_eq_add_neg] at h ⊢
  exact add_int ftz hx ⟨neg_finite hy.1, by rw [neg_value, hy.2]; push_cast; rfl⟩ h

theorem mul_int (ftz : Bool) {x y : F32} {a b : Int} (hx : FloatInt x a) (hy : FloatInt y b) (h : IntRep (a * b)) : FloatInt (F32.mul ftz x y) (a * b) := by
  unfold FloatInt
  rw [mul_eq ftz hx.1 hy.1]
  exact round_int ftz _ h (by rw [exact_mul, hx.2, hy.2]; push_cast; rfl)

theorem fma_int (ftz : Bool) {x y z : F32} {a b c : Int} (hx : FloatInt x a) (hy : FloatInt y b) (hz : FloatInt z c) (h : IntRep (a * b + c)) :
    FloatInt (F32.fma ftz x y z) (a * b + c) := by
  unfold FloatInt
  rw [fma_eq ftz hx.1 hy.1 hz.1]
  exact round_int ftz _ h (by rw [exact_fma, hx.2, hy.2, hz.2]; push_cast; rfl)

/-- The sum of the integers `p`, in any order. -/
theorem eval_int (ftz : Bool) (f : Nat → Res (F32 × F32)) (p : Nat → Int) : ∀ T : SumTree,
    (∀ i ∈ T.leaves, ∃ x y a b, f i = .ok (x, y) ∧ FloatInt x a ∧ FloatInt y b ∧ a * b = p i) →
    (T.leaves.map (fun i => |p i|)).sum ≤ 16777216 →
    ∃ r, T.eval ftz f = .ok r ∧ FloatInt r (T.leaves.map p).sum := by
  have habs : ∀ l : List Nat, |(l.map p).sum| ≤ (l.map (fun i => |p i|)).sum := by
    intro l
    induction l with
    | nil => simp
    | cons a l ih =>
      simp only [List.map_cons, List.sum_cons]
      exact (abs_add_le _ _).trans (by linarith)
  have hnn : ∀ l : List Nat, 0 ≤ (l.map (fun i => |p i|)).sum := fun l => (abs_nonneg _).trans (habs l)
  intro T
  induction T with
  | init => exact fun _ _ => ⟨_, rfl, by unfold Spec.Finite; decide, by simp [SumTree.leaves, value_zero']⟩
  | term i =>
    intro h hs
    obtain ⟨x, y, a, b, e, hx, hy, hp⟩ := h i (by simp [SumTree.leaves])
    simp only [SumTree.leaves, List.map_cons, List.map_nil, List.sum_cons, List.sum_nil, add_zero] at hs ⊢
    rw [← hp] at hs ⊢
    exact ⟨_, eval_term_ok e, mul_int ftz hx hy (.small hs)⟩
  | add l r ihl ihr =>
    intro h hs
    simp only [SumTree.leaves, List.map_append, List.sum_append] at hs ⊢
    have h1 := hnn l.leaves
    have h2 := hnn r.leaves
    obtain ⟨x, e1, hx⟩ := ihl (fun i hi => h i (by simp [SumTree.leaves, hi])) (by linarith)
    obtain ⟨y, e2, hy⟩ := ihr (fun i hi => h i (by simp [SumTree.leaves, hi])) (by linarith)
    refine ⟨_, eval_add_ok e1 e2, add_int ftz hx hy (.small ((abs_add_le _ _).trans ?_))⟩
    have := habs l.leaves
    have := habs r.leaves
    linarith
  | fma i t ih =>
    intro h hs
    simp only [SumTree.leaves, List.map_cons, List.sum_cons] at hs ⊢
    have h2 := abs_nonneg (p i)
    obtain ⟨x, y, a, b, e, hx, hy, hp⟩ := h i (by simp [SumTree.leaves])
    obtain ⟨z, e2, hz⟩ := ih (fun i hi => h i (by simp [SumTree.leaves, hi])) (by linarith)
    rw [← hp] at hs ⊢
    refine ⟨_, eval_fma_ok e e2, fma_int ftz hx hy hz (.small ((abs_add_le _ _).trans ?_))⟩
    have := habs t.leaves
    linarith

/-! ### Vectors of integers -/

/-- The floats are these integers. -/
def IntVec (x : List F32) (a : List Int) : Prop := List.Forall₂ FloatInt x a

theorem int_plain {ftz : Bool} {x : F32} {a : Int} (h : FloatInt x a) : Plain ftz x := by
  refine ⟨h.1, fun _ => ?_⟩
  rw [h.2]
  by_cases h0 : a = 0
  · left; rw [h0]; rfl
  · right
    have : 1 ≤ |a| := Int.one_le_abs h0
    have h1 : (1 : ℚ) ≤ |(a : ℚ)| := by rw [← Int.cast_abs]; exact_mod_cast this
    have h2 : (2 : ℚ) ^ (-126 : Int) ≤ 1 := by norm_num
    linarith

theorem intVec_plain {ftz : Bool} {x : List F32} {a : List Int} (h : IntVec x a) : ∀ y ∈ x, Plain ftz y := by
  intro y hy
  obtain ⟨i, hi, rfl⟩ := List.getElem_of_mem hy
  have hb := (List.forall₂_iff_get.1 h).2 i hi (by rw [← h.length_eq]; exact hi)
  exact int_plain hb

theorem intVec_get {x : List F32} {a : List Int} (h : IntVec x a) {i : Nat} (hi : i < a.length) : ∃ y, rd x i = .ok y ∧ FloatInt y (a.getD i 0) := by
  have hl := h.length_eq
  refine ⟨x[i]'(by omega), by unfold rd; rw [List.getElem?_eq_getElem (by omega)], ?_⟩
  have := (List.forall₂_iff_get.1 h).2 i (by omega) hi
  simpa [List.getD, hi] using this

theorem sum_range_getD {a b : List Int} (h : a.length = b.length) (g : Int → Int → Int) (T : SumTree) (hT : T.Sums a.length) :
    (T.leaves.map (fun i => g (a.getD i 0) (b.getD i 0))).sum = (List.zipWith g a b).sum := by
  rw [(hT.map _).sum_eq]
  congr 1
  refine List.ext_getElem (by simp [h]) (fun i h1 h2 => ?_)
  simp only [List.length_map, List.length_range] at h1
  simp [List.getD, h1, (by omega : i < b.length)]

/-- Sums over vectors of integers. -/
def dotInt (a b : List Int) : Int := (List.zipWith (· * ·) a b).sum
def absDotInt (a b : List Int) : Int := (List.zipWith (fun x y => |x * y|) a b).sum
def sqInt (a b : List Int) : Int := (List.zipWith (fun x y => (x - y) * (x - y)) a b).sum

theorem dot_int (ftz : Bool) {T : SumTree} {x y : List F32} {a b : List Int} (hx : IntVec x a) (hy : IntVec y b) (hT : T.Sums a.length)
    (hl : a.length = b.length) (h : absDotInt a b ≤ 16777216) : ∃ r, dotF32 ftz T x y = .ok r ∧ FloatInt r (dotInt a b) := by
  rw [dotF32_plain T (intVec_plain hx) (intVec_plain hy)]
  have h1 := sum_range_getD hl (· * ·) T hT
  have h2 := sum_range_getD hl (fun x y => |x * y|) T hT
  unfold dotInt
  rw [← h1]
  refine eval_int ftz _ _ T (fun i hi => ?_) (by rw [h2]; exact h)
  have hin := List.mem_range.1 (hT.mem_iff.1 hi)
  obtain ⟨u, e1, hu⟩ := intVec_get hx hin
  obtain ⟨v, e2, hv⟩ := intVec_get hy (by omega : i < b.length)
  exact ⟨u, v, _, _, by unfold dotFactor; rw [e1, Res.ok_bind, e2, Res.ok_bind], hu, hv, rfl⟩

theorem l2_int (ftz : Bool) {T : SumTree} {x y : List F32} {a b : List Int} (hx : IntVec x a) (hy : IntVec y b) (hT : T.Sums a.length)
    (hl : a.length = b.length) (hb : ∀ c ∈ a ++ b, |c| ≤ 8388608) (h : sqInt a b ≤ 16777216) : ∃ r, l2F32 ftz T x y = .ok r ∧ FloatInt r (sqInt a b) := by
  rw [l2F32_plain T (intVec_plain hx) (intVec_plain hy)]
  have h1 := sum_range_getD hl (fun x y => (x - y) * (x - y)) T hT
  unfold sqInt
  rw [← h1]
  refine eval_int ftz _ _ T (fun i hi => ?_) ?_
  · have hin := List.mem_range.1 (hT.mem_iff.1 hi)
    obtain ⟨u, e1, hu⟩ := intVec_get hx hin
    obtain ⟨v, e2, hv⟩ := intVec_get hy (by omega : i < b.length)
    have hs : FloatInt (F32.sub ftz u v) (a.getD i 0 - b.getD i 0) := by
      refine sub_int ftz hu hv (.small ?_)
      have ha := abs_le.1 (hb (a.getD i 0) (by simp [List.getD, hin]))
      have hb := abs_le.1 (hb (b.getD i 0) (by simp [List.getD, (by omega : i < b.length)]))
      exact abs_le.2 ⟨by omega, by omega⟩
    exact ⟨_, _, _, _, by unfold l2Factor; rw [e1, Res.ok_bind, e2, Res.ok_bind], hs, hs, rfl⟩
  · have : (fun i => |(fun i => (a.getD i 0 - b.getD i 0) * (a.getD i 0 - b.getD i 0)) i|) = (fun i => (a.getD i 0 - b.getD i 0) * (a.getD i 0 - b.getD i 0)) := by
      funext i
      exact abs_mul_self _
    rw [this, h1]
    exact h

theorem sqInt_expand {a b : List Int} (h : a.length = b.length) : sqInt a b = dotInt a a + dotInt b b - 2 * dotInt a b := by
  unfold sqInt dotInt
  induction a generalizing b with
  | nil =>
    cases b with
    | nil => simp
    | cons y b => simp at h
  | cons x a ih =>
    cases b with
    | nil => simp at h
    | cons y b =>
      simp only [List.zipWith_cons_cons, List.sum_cons]
      rw [ih (by simpa using h)]
      ring

theorem absDotInt_self (a : List Int) : absDotInt a a = dotInt a a := by
  unfold dotInt absDotInt
  congr 1
  induction a with
  | nil => rfl
  | cons x a ih => rw [List.zipWith_cons_cons, List.zipWith_cons_cons, ih, abs_mul_self]

theorem dotInt_nonneg (a : List Int) : 0 ≤ dotInt a a := by
  unfold dotInt
  induction a with
  | nil => simp
  | cons x a ih =>
    simp only [List.zipWith_cons_cons, List.sum_cons]
    have := mul_self_nonneg x
    omega

theorem sqInt_nonneg (a b : List Int) : 0 ≤ sqInt a b := by
  unfold sqInt
  induction a generalizing b with
  | nil => simp
  | cons x a ih =>
    cases b with
    | nil => simp
    | cons y b =>
      simp only [List.zipWith_cons_cons, List.sum_cons]
      have := mul_self_nonneg (x - y)
      have := ih b
      omega

theorem absDotInt_le {a b : List Int} (h : a.length = b.length) : 2 * absDotInt a b ≤ dotInt a a + dotInt b b := by
  unfold absDotInt dotInt
  induction a generalizing b with
  | nil =>
    cases b with
    | nil => simp
    | cons y b => simp at h
  | cons x a ih =>
    cases b with
    | nil => simp at h
    | cons y b =>
      simp only [List.zipWith_cons_cons, List.sum_cons]
      have h1 := ih (by simpa using h)
      have h2 : 2 * |x * y| ≤ x * x + y * y := by
        rw [abs_mul, ← abs_mul_abs_self x, ← abs_mul_abs_self y]
        nlinarith [sq_nonneg (|x| - |y|)]
      linarith

theorem dotInt_abs {a b : List Int} (h : a.length = b.length) : -absDotInt a b ≤ dotInt a b ∧ dotInt a b ≤ absDotInt a b := by
  unfold absDotInt dotInt
  induction a generalizing b with
  | nil => simp
  | cons x a ih =>
    cases b with
    | nil => simp at h
    | cons y b =>
      simp only [List.zipWith_cons_cons, List.sum_cons]
      have h1 := ih (by simpa using h)
      have h2 := neg_abs_le (x * y)
      have h3 := le_abs_self (x * y)
      omega

theorem expand_int (ftz : Bool) {Tx Tp Tq : SumTree} {x y : List F32} {a b : List Int} (hx : IntVec x a) (hy : IntVec y b) (hTx : Tx.Sums a.length)
    (hTp : Tp.Sums a.length) (hTq : Tq.Sums a.length) (hl : a.length = b.length) (hna : dotInt a a ≤ 16777216) (hnb : dotInt b b ≤ 16777216)
    (hd : dotInt a a - 2 * dotInt a b ≤ 16777216) (hs : sqInt a b ≤ 16777216) :
    ∃ r, expandF32 ftz Tx Tp Tq x y = .ok r ∧ FloatInt r (sqInt a b) := by
  have na := dotInt_nonneg a
  have nb := dotInt_nonneg b
  have hA := absDotInt_le hl
  have hs0 := sqInt_nonneg a b
  have he := sqInt_expand hl
  have h0 : -absDotInt a b ≤ dotInt a b ∧ dotInt a b ≤ absDotInt a b := dotInt_abs hl
  obtain ⟨pp, e1, h1⟩ := dot_int ftz hx hx hTp rfl (by rw [absDotInt_self]; omega)
  obtain ⟨qq, e2, h2⟩ := dot_int ftz hy hy (by rw [← hl]; exact hTq) rfl (by rw [absDotInt_self]; omega)
  obtain ⟨v, e3, h3⟩ := dot_int ftz hx hy hTx hl (by omega)
  have h4 : FloatInt F32.minusTwo (-2) := ⟨by unfold Spec.Finite; decide, by norm_num [value, F32.minusTwo, magnitude]⟩
  have h5 := mul_int ftz h4 h3 ⟨-dotInt a b, 1, abs_le.2 ⟨by omega, by omega⟩, by omega, by ring⟩
  have h6 := add_int ftz h5 h1 (.small (abs_le.2 ⟨by omega, by omega⟩))
  have h7 := add_int ftz h6 h2 (.small (abs_le.2 ⟨by omega, by omega⟩))
  refine ⟨_, by unfold expandF32; rw [e1, Res.ok_bind, e2, Res.ok_bind, e3, Res.ok_bind], ?_⟩
  rw [he, show dotInt a a + dotInt b b - 2 * dotInt a b = -2 * dotInt a b + dotInt a a + dotInt b b by ring]
  exact h7

end Grann
