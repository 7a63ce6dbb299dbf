import Verif.Props.FloatChain
/-!
# C96: the distances of the indices are symmetric numbers
-/

namespace Grann

open _root_.Grann.Spec

/-! ## Symmetry -/

/-- Two results that agree if the one is the other with its operands exchanged. -/
theorem eval_swap (ftz : Bool) (f g : Nat → Res (F32 × F32)) : ∀ T : SumTree,
    (∀ i ∈ T.leaves, (f i = .error .ub ∧ g i = .error .ub) ∨ ∃ p q, f i = .ok p ∧ g i = .ok q ∧ F32.mul ftz p.1 p.2 = F32.mul ftz q.1 q.2 ∧
      ∀ z, F32.fma ftz p.1 p.2 z = F32.fma ftz q.1 q.2 z) → T.eval ftz f = T.eval ftz g := by
  intro T
  induction T with
  | init => exact fun _ => rfl
  | term i =>
    intro h
    rcases h i (by simp [SumTree.leaves]) with ⟨h1, h2⟩ | ⟨p, q, h1, h2, h3, -⟩
    · unfold SumTree.eval
      rw [h1, h2]
    · unfold SumTree.eval
      rw [h1, h2, Res.ok_bind, Res.ok_bind, h3]
  | add l r ihl ihr =>
    intro h
    unfold SumTree.eval
    rw [ihl (fun i hi => h i (by simp [SumTree.leaves, hi])), ihr (fun i hi => h i (by simp [SumTree.leaves, hi]))]
  | fma i t ih =>
    intro h
    unfold SumTree.eval
    rw [ih (fun i hi => h i (by simp [SumTree.leaves, hi]))]
    rcases h i (by simp [SumTree.leaves]) with ⟨h1, h2⟩ | ⟨p, q, h1, h2, -, h3⟩
    · rw [h1, h2]
    · rw [h1, h2, Res.ok_bind, Res.ok_bind]
      simp only [h3]

theorem mul_swap (ftz : Bool) (x y : F32) : F32.mul ftz x y = F32.mul ftz y x := by
  unfold F32.mul
  rw [Bool.or_comm x.isNan, Bool.or_comm x.isInf, bne_comm (a := x.sign), Int.mul_comm x.units]
  simp only [or_comm (a := x.mag = 0)]

theorem fma_swap (ftz : Bool) (x y z : F32) : F32.fma ftz x y z = F32.fma ftz y x z := by
  unfold F32.fma
  rw [Bool.or_comm x.isNan, Bool.or_comm x.isInf, bne_comm (a := x.sign), Int.mul_comm x.units]
  simp only [or_comm (a := x.mag = 0)]

theorem rd_cases {α : Type} (a : List α) (i : Nat) : rd a i = .error .ub ∨ ∃ x, rd a i = .ok x := by
  by_cases h : i < a.length
  · exact Or.inr ⟨_, rd_ok h⟩
  · exact Or.inl (rd_ub (by omega))

/-- The distance is symmetric, for all lists of floats. -/
theorem l2_swap (ftz : Bool) (T : SumTree) (a b : List F32) : l2F32 ftz T a b = l2F32 ftz T b a := by
  unfold l2F32
  generalize a.map (F32.daz ftz) = a
  generalize b.map (F32.daz ftz) = b
  refine eval_swap ftz _ _ T (fun i _ => ?_)
  unfold l2Factor
  rcases rd_cases a i with ha | ⟨x, ha⟩ <;> rcases rd_cases b i with hb | ⟨y, hb⟩ <;> rw [ha, hb]
  · exact Or.inl ⟨rfl, rfl⟩
  · exact Or.inl ⟨rfl, rfl⟩
  · exact Or.inl ⟨rfl, rfl⟩
  · refine Or.inr ⟨_, _, rfl, rfl, ?_, fun z => ?_⟩
    · exact sq_congr ftz (sub_mag_comm ftz x y)
    · exact fma_congr ftz (sub_mag_comm ftz x y) z

theorem dot_swap (ftz : Bool) (T : SumTree) (a b : List F32) : dotF32 ftz T a b = dotF32 ftz T b a := by
  unfold dotF32
  generalize a.map (F32.daz ftz) = a
  generalize b.map (F32.daz ftz) = b
  refine eval_swap ftz _ _ T (fun i _ => ?_)
  unfold dotFactor
  rcases rd_cases a i with ha | ⟨x, ha⟩ <;> rcases rd_cases b i with hb | ⟨y, hb⟩ <;> rw [ha, hb]
  · exact Or.inl ⟨rfl, rfl⟩
  · exact Or.inl ⟨rfl, rfl⟩
  · exact Or.inl ⟨rfl, rfl⟩
  · exact Or.inr ⟨_, _, rfl, rfl, mul_swap ftz x y, fun z => fma_swap ftz x y z⟩

theorem sqDiff_swap (x y : Int) : sqDiff x y = sqDiff y x := by
  unfold sqDiff
  ring

theorem int8_swap (a b : List (BitVec 8)) : ∀ n i r, l2Int8Loop a b n i r = l2Int8Loop b a n i r := by
  intro n
  induction n with
  | zero => exact fun _ _ => rfl
  | succ n ih =>
    intro i r
    unfold l2Int8Loop
    rcases rd_cases a i with ha | ⟨x, ha⟩ <;> rcases rd_cases b i with hb | ⟨y, hb⟩ <;> rw [ha, hb] <;> try rfl
    rw [Res.ok_bind, Res.ok_bind, Res.ok_bind, Res.ok_bind, sqDiff_swap]
    simp only [ih]

theorem uint8_swap (a b : List (BitVec 8)) : ∀ n i r, l2UInt8Loop a b n i r = l2UInt8Loop b a n i r := by
  intro n
  induction n with
  | zero => exact fun _ _ => rfl
  | succ n ih =>
    intro i r
    unfold l2UInt8Loop
    rcases rd_cases a i with ha | ⟨x, ha⟩ <;> rcases rd_cases b i with hb | ⟨y, hb⟩ <;> rw [ha, hb] <;> try rfl
    rw [Res.ok_bind, Res.ok_bind, Res.ok_bind, Res.ok_bind, sqDiff_swap]
    simp only [ih]

/-- **C96.** The function behind `_distance->compare` is symmetric, bit for bit, for every class of distances and every order of the additions, whatever the
bytes are. -/
theorem C96_symmetric (ftz : Bool) (T : SumTree) (n : Nat) (c : DistClass) (a b : Bytes) : cmpF32 ftz T n c a b = cmpF32 ftz T n c b a := by
  cases c
  case l2 => unfold cmpF32; simp only; rw [l2_swap]
  case innerProduct => unfold cmpF32; simp only; rw [dot_swap]
  case fastL2 => unfold cmpF32; simp only; rw [dot_swap]
  case l2Int8 =>
    unfold cmpF32 byteCompare l2Int8F l2Int8
    simp only
    rw [int8_swap]
  case l2UInt8 =>
    unfold cmpF32 byteCompare l2UInt8F l2UInt8
    simp only
    rw [uint8_swap]

/-- Not only numbers: also NaN and vectors that are too short give the same result. -/
example : cmpF32 true (serial 2) 2 .l2 [1, 2, 3, 4, 5, 6, 7, 8] [9, 0, 192, 127, 0, 0, 128, 63] =
    cmpF32 true (serial 2) 2 .l2 [9, 0, 192, 127, 0, 0, 128, 63] [1, 2, 3, 4, 5, 6, 7, 8] :=
  C96_symmetric true (serial 2) 2 .l2 _ _

example : cmpF32 false (serial 2) 2 .innerProduct [0, 0, 128, 63, 0, 0, 0, 64] [0, 0, 0, 64, 0, 0, 64, 64] = ⟨0xc1000000#32⟩ := by decide +kernel

/-! ## Numbers -/

theorem daz_value (ftz : Bool) (x : F32) : |value (F32.daz ftz x)| ≤ |value x| := by
  unfold F32.daz
  split
  · have : value (F32.pack x.sign 0) = 0 := by cases x.sign <;> decide +kernel
    rw [this, abs_zero]
    exact abs_nonneg _
  · exact le_refl _

theorem daz_is_plain (ftz : Bool) {x : F32} (h : Spec.Finite x) : Plain ftz (F32.daz ftz x) := by
  refine ⟨daz_finite ftz h, fun hf => ?_⟩
  subst hf
  unfold F32.daz
  split
  · left
    cases x.sign <;> decide +kernel
  · rename_i hc
    rw [Bool.true_and, decide_eq_true_iff] at hc
    by_cases h0 : x.mag = 0
    · left
      rw [value_pack, h0, magnitude_zero]
      split <;> norm_num
    · right
      rw [abs_value, show x.bits.toNat % 2147483648 = x.mag from rfl, show (2 : ℚ) ^ (-126 : Int) = magnitude 8388608 by norm_num [magnitude]]
      exact magnitude_strictMono.le_iff_le.2 (by omega)

theorem l2_number (ftz : Bool) {T : SumTree} {n : Nat} (hT : T.Sums n) {a b : List F32} (ha : n ≤ a.length) (hb : n ≤ b.length)
    (hfa : ∀ x ∈ a, Spec.Finite x) (hfb : ∀ x ∈ b, Spec.Finite x) : ∃ r, l2F32 ftz T a b = .ok r ∧ F32.zero.le r = true := by
  obtain ⟨r, e, hr⟩ := eval_clean ftz (l2Factor ftz (a.map (F32.daz ftz)) (b.map (F32.daz ftz))) T (fun i hi => by
    have hin := List.mem_range.1 (hT.mem_iff.1 hi)
    refine l2Factor_ok ftz ?_ ?_ (by rw [List.length_map]; omega) (by rw [List.length_map]; omega)
    · intro x hx
      obtain ⟨y, hy, rfl⟩ := List.mem_map.1 hx
      exact daz_finite ftz (hfa y hy)
    · intro x hx
      obtain ⟨y, hy, rfl⟩ := List.mem_map.1 hx
      exact daz_finite ftz (hfb y hy))
  exact ⟨r, e, clean_le hr⟩

theorem map_daz_plain (ftz : Bool) {a : List F32} (h : ∀ x ∈ a, Spec.Finite x) : ∀ x ∈ a.map (F32.daz ftz), Plain ftz x := by
  intro x hx
  obtain ⟨y, hy, rfl⟩ := List.mem_map.1 hx
  exact daz_is_plain ftz (h y hy)

theorem l2_daz (ftz : Bool) (T : SumTree) {a b : List F32} (ha : ∀ x ∈ a, Spec.Finite x) (hb : ∀ x ∈ b, Spec.Finite x) :
    l2F32 ftz T (a.map (F32.daz ftz)) (b.map (F32.daz ftz)) = l2F32 ftz T a b := by
  rw [l2F32_plain T (map_daz_plain ftz ha) (map_daz_plain ftz hb)]
  rfl

theorem dot_daz (ftz : Bool) (T : SumTree) {a b : List F32} (ha : ∀ x ∈ a, Spec.Finite x) (hb : ∀ x ∈ b, Spec.Finite x) :
    dotF32 ftz T (a.map (F32.daz ftz)) (b.map (F32.daz ftz)) = dotF32 ftz T a b := by
  rw [dotF32_plain T (map_daz_plain ftz ha) (map_daz_plain ftz hb)]
  rfl

theorem dotVal_self (a : List F32) : dotVal a a = (a.map (fun x => value x ^ 2)).sum := by
  unfold dotVal
  rw [List.zipWith_self]
  congr 1
  exact List.map_congr_left (fun x _ => (pow_two _).symm)

theorem norm_daz (ftz : Bool) (a : List F32) : dotVal (a.map (F32.daz ftz)) (a.map (F32.daz ftz)) ≤ dotVal a a := by
  rw [dotVal_self, dotVal_self, List.map_map]
  refine List.sum_le_sum (fun x _ => ?_)
  exact sq_le_sq.2 (daz_value ftz x)

theorem norm_take (a : List F32) (m : Nat) : dotVal (a.take m) (a.take m) ≤ dotVal a a := by
  rw [dotVal_self, dotVal_self, List.map_take]
  have h := List.sum_append (l₁ := (a.map (fun x => value x ^ 2)).take m) (l₂ := (a.map (fun x => value x ^ 2)).drop m)
  rw [List.take_append_drop] at h
  rw [h]
  have : 0 ≤ ((a.map (fun x => value x ^ 2)).drop m).sum := List.sum_nonneg (fun y hy => by
    obtain ⟨x, -, rfl⟩ := List.mem_map.1 (List.mem_of_mem_drop hy)
    exact sq_nonneg _)
  linarith

theorem sqDist_norms {a b : List F32} (h : a.length = b.length) : sqDistVal a b ≤ 2 * (dotVal a a + dotVal b b) := by
  rw [dotVal_self, dotVal_self]
  unfold sqDistVal
  induction a generalizing b with
  | nil =>
    cases b with
    | nil => simp
    | cons y b => cases h
  | cons x a ih =>
    cases b with
    | nil => cases h
    | cons y b =>
      have := ih (by simpa using h)
      simp only [List.zipWith_cons_cons, List.sum_cons, List.map_cons]
      nlinarith [sq_nonneg (value x + value y)]

/-- Distances of vectors of finite floats that are not too long. -/
theorem l2_bounded (ftz : Bool) {T : SumTree} {n : Nat} (hT : T.Sums n) {a b : List F32} (ha : a.length = n) (hb : b.length = n)
    (hfa : ∀ x ∈ a, Spec.Finite x) (hfb : ∀ x ∈ b, Spec.Finite x) (hh : T.height + 3 ≤ 2 ^ 23) (ho : T.ops ≤ 2 ^ 100)
    (hna : dotVal a a ≤ 2 ^ 120) (hnb : dotVal b b ≤ 2 ^ 120) : ∃ r, l2F32 ftz T a b = .ok r ∧ r.lt F32.fmax = true := by
  have h1 := norm_daz ftz a
  have h2 := norm_daz ftz b
  have h3 := sqDist_norms (a := a.map (F32.daz ftz)) (b := b.map (F32.daz ftz)) (by rw [List.length_map, List.length_map, ha, hb])
  have h4 : 2 * ((2 : ℚ) ^ 120 + 2 ^ 120) ≤ 2 ^ 125 := by norm_num
  obtain ⟨r, e, -, hr, -⟩ := C93_l2_close ftz (T := T) (n := n) (a := a.map (F32.daz ftz)) (b := b.map (F32.daz ftz))
    ⟨hT, by rw [List.length_map, ha], by rw [List.length_map, hb], map_daz_plain ftz hfa, map_daz_plain ftz hfb, hh, ho, by linarith⟩
  exact ⟨r, by rw [← l2_daz ftz T hfa hfb, e], hr⟩

theorem dot_finite (ftz : Bool) {T : SumTree} {n : Nat} (hT : T.Sums n) {a b : List F32} (ha : a.length = n) (hb : b.length = n)
    (hfa : ∀ x ∈ a, Spec.Finite x) (hfb : ∀ x ∈ b, Spec.Finite x) (hh : T.height + 3 ≤ 2 ^ 23) (ho : T.ops ≤ 2 ^ 100)
    (hna : dotVal a a ≤ 2 ^ 120) (hnb : dotVal b b ≤ 2 ^ 120) : ∃ r, dotF32 ftz T a b = .ok r ∧ Spec.Finite r := by
  have h1 := norm_daz ftz a
  have h2 := norm_daz ftz b
  have h3 := absDotVal_le (a := a.map (F32.daz ftz)) (b := b.map (F32.daz ftz)) (by rw [List.length_map, List.length_map, ha, hb])
  have h4 : (2 : ℚ) ^ 120 ≤ 2 ^ 125 := by norm_num
  obtain ⟨r, e, hr, -⟩ := C93_dot_close ftz hT (a := a.map (F32.daz ftz)) (b := b.map (F32.daz ftz)) (by rw [List.length_map, ha])
    (by rw [List.length_map, hb]) (map_daz_plain ftz hfa) (map_daz_plain ftz hfb) (by omega) ho (by linarith)
  exact ⟨r, by rw [← dot_daz ftz T hfa hfb, e], hr⟩

/-! ## Vectors in memory -/

theorem floatsOf_take (b : Bytes) (m : Nat) (h : m * 4 ≤ b.length) : floatsOf (b.take (m * 4)) = (floatsOf b).take m := by
  unfold floatsOf
  rw [List.length_take, Nat.min_eq_left h, Nat.mul_div_cancel _ (by norm_num), ← List.map_take, List.take_range, Nat.min_eq_left (by omega)]
  refine List.map_congr_left (fun d hd => ?_)
  have hd := List.mem_range.1 hd
  rw [List.drop_take, List.take_take, Nat.min_eq_left (by omega)]

/-- The floats of a vector in memory: those of the file, and zeros. -/
theorem memory_floats {qdim adim : Nat} {r : Bytes} (hr : r.length = qdim * 4) (ha : adim ≤ roundUp8 qdim) :
    floatsOf ((padTo (roundUp8 qdim * 4) r).take (adim * 4)) =
      (Spec.valuesOf Elem.float.size qdim (elemF32 .float) r ++ List.replicate (roundUp8 qdim - qdim) F32.zero).take adim := by
  have hle : qdim ≤ roundUp8 qdim := (roundUp8_spec qdim).1
  rw [floatsOf_take _ _ (by rw [padTo_len (by omega)]; omega), floats_padTo hr hle]

theorem memory_finite {qdim adim : Nat} {r : Bytes} (hr : r.length = qdim * 4) (ha : adim ≤ roundUp8 qdim)
    (hf : ∀ x ∈ Spec.valuesOf Elem.float.size qdim (elemF32 .float) r, Spec.Finite x) :
    ∀ x ∈ floatsOf ((padTo (roundUp8 qdim * 4) r).take (adim * 4)), Spec.Finite x := by
  rw [memory_floats hr ha]
  intro x hx
  rcases List.mem_append.1 (List.mem_of_mem_take hx) with h | h
  · exact hf x h
  · rw [List.eq_of_mem_replicate h]
    unfold Spec.Finite
    decide

theorem memory_length {qdim adim : Nat} {r : Bytes} (hr : r.length = qdim * 4) (ha : adim ≤ roundUp8 qdim) :
    (floatsOf ((padTo (roundUp8 qdim * 4) r).take (adim * 4))).length = adim := by
  have hle : qdim ≤ roundUp8 qdim := (roundUp8_spec qdim).1
  rw [memory_floats hr ha, List.length_take, List.length_append, List.length_replicate, valuesOf_length]
  omega

theorem memory_norm {qdim adim : Nat} {r : Bytes} (hr : r.length = qdim * 4) (ha : adim ≤ roundUp8 qdim) :
    dotVal (floatsOf ((padTo (roundUp8 qdim * 4) r).take (adim * 4))) (floatsOf ((padTo (roundUp8 qdim * 4) r).take (adim * 4))) ≤ fileNorm .float qdim r := by
  rw [memory_floats hr ha]
  refine le_trans (norm_take _ _) ?_
  rw [← float_norm, dotVal_self, dotVal_self, List.map_append, List.sum_append, List.map_replicate, value_zero']
  simp

end Grann
