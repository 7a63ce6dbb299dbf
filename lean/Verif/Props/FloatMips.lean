import Verif.Props.FloatGraph
/-!
# C97: inner products in `float` arithmetic
-/

namespace Grann

open _root_.Grann.Spec

/-! ## Spec -/

/-- The inner product of two vectors in files. -/
def Spec.fileDot (e : Elem) (dim : Nat) (a b : Bytes) : ℚ := ∑ d ∈ Finset.range dim, coordinate e a d * coordinate e b d

/-- The bound for the error of the inner product of two vectors in `float` files. -/
def Spec.fileDotErr (ftz : Bool) (h o dim : Nat) (a b : Bytes) : ℚ :=
  (h + 1) * 2 ^ (-24 : Int) * (fileNorm .float dim a + fileNorm .float dim b) + o * (if ftz then 2 ^ (-125 : Int) else 2 ^ (-149 : Int))

/-! ## The loop of the library -/

/-- **C97.** `DistanceInnerProduct::compare` gives the negative inner product, up to the error. -/
theorem C97_compare_partial (ftz : Bool) {size : Nat} (hs : size ≤ 8000000) (h8 : size % 8 = 0) {a b : List F32} (ha : a.length = size) (hb : b.length = size)
    (hfa : ∀ x ∈ a, Plain ftz x) (hfb : ∀ x ∈ b, Plain ftz x) (ho : (avxTree size).ops ≤ 2 ^ 100) (hd : absDotVal a b ≤ 2 ^ 120) :
    ∃ r, ipCompareF ftz a b size = .ok r ∧ Spec.Finite r ∧
      |value r + dotVal a b| ≤ (size / 8 + 8) * 2 ^ (-23 : Int) * absDotVal a b + (avxTree size).ops * (2 * tiny ftz) := by
  have hr : (size + 7) / 8 * 8 = size := by omega
  obtain ⟨h1, h2, h3⟩ := C93_ip_loop ftz (size := size) (a := a) (b := b) (by omega) (by omega) (by omega)
  rw [hr] at h1 h2 h3
  obtain ⟨r, e, f, h⟩ := C93_dot_close ftz h2 ha hb hfa hfb (by omega) ho (hd.trans (by norm_num))
  refine ⟨r.neg, ?_, neg_finite f, ?_⟩
  · unfold ipCompareF
    rw [h1, e, Res.ok_bind]
  · rw [neg_value, ← abs_neg, show -(-value r + dotVal a b) = value r - dotVal a b by ring]
    refine h.trans ?_
    unfold dotErr
    have h4 : (if ftz then 2 ^ (-125 : Int) else 2 ^ (-149 : Int) : ℚ) = 2 * tiny ftz := by
      unfold tiny
      cases ftz <;> norm_num
    rw [h4]
    have := (tiny_pos ftz).le
    have h5 : ((avxTree size).height : ℚ) + 1 ≤ size / 8 + 8 := by
      have e8 : (size : ℚ) = 8 * ((size / 8 : Nat) : ℚ) := by exact_mod_cast (by omega : size = 8 * (size / 8))
      have : ((avxTree size).height : ℚ) ≤ ((size / 8 : Nat) : ℚ) + 7 := by exact_mod_cast (by omega : (avxTree size).height ≤ size / 8 + 7)
      rw [e8]
      linarith
    have h6 := absDotVal_nonneg a b
    gcongr

/-! ## The ground truth -/

theorem dot_file (e : Elem) (dim : Nat) (a b : Bytes) (h : ∀ r d, value (elemF32 e ((r.drop (d * e.size)).take e.size)) = coordinate e r d) :
    dotVal (Spec.valuesOf e.size dim (elemF32 e) a) (Spec.valuesOf e.size dim (elemF32 e) b) = fileDot e dim a b := by
  unfold dotVal fileDot Spec.valuesOf
  rw [List.zipWith_map, List.zipWith_self, list_sum_range]
  exact Finset.sum_congr rfl (fun d _ => by rw [h, h])

theorem fileDot_comm (e : Elem) (dim : Nat) (a b : Bytes) : fileDot e dim a b = fileDot e dim b a := by
  unfold fileDot
  exact Finset.sum_congr rfl (fun d _ => mul_comm _ _)

/-- **C97.** For bytes of dimension up to 258 the ground-truth program computes the exact negative inner product, in every order of the additions. -/
theorem C97_truth_exact (ftz : Bool) {T : TruthOrders} {e : Elem} {dim : Nat} (h : ByteDim e dim) {q g : Nat} (hT : (T.prod q g).Sums dim) (v u : Bytes) :
    Spec.Finite (truthF32 ftz T true q g (Spec.valuesOf e.size dim (elemF32 e) v) (Spec.valuesOf e.size dim (elemF32 e) u)) ∧
    value (truthF32 ftz T true q g (Spec.valuesOf e.size dim (elemF32 e) v) (Spec.valuesOf e.size dim (elemF32 e) u)) = -fileDot e dim v u := by
  have he := h.1
  have hl : (byteCoords e dim u).length = (byteCoords e dim v).length := by rw [length_coords, length_coords]
  have hA := absDotInt_le hl
  have n1 := norm_small h u
  have n2 := norm_small h v
  obtain ⟨r, e1, h1⟩ := dot_int ftz (values_int he dim u) (values_int he dim v) (T := T.prod q g) (by rw [length_coords]; exact hT) hl (by omega)
  have e2 : truthF32 ftz T true q g (Spec.valuesOf e.size dim (elemF32 e) v) (Spec.valuesOf e.size dim (elemF32 e) u) = r.neg := by
    unfold truthF32
    simp only [if_true]
    rw [e1, Res.ok_bind]
  rw [e2, neg_value]
  refine ⟨neg_finite h1.1, ?_⟩
  rw [h1.2, fileDot_comm]
  unfold fileDot dotInt
  rw [sum_byteCoords e dim u v (fun x y => x * y)]
  push_cast
  congr 1
  exact Finset.sum_congr rfl (fun d _ => by rw [coordinate_byte he, coordinate_byte he])

/-- The bound with norms. -/
theorem dot_bound (ftz : Bool) {h o n : Nat} {T : SumTree} (hT : Order h o n T) (hs : h + 1 ≤ 2 ^ 20 ∧ 1 ≤ o ∧ o ≤ 2 ^ 100) {a b : List F32} (ha : a.length = n)
    (hb : b.length = n) (hfa : ∀ x ∈ a, Plain ftz x) (hfb : ∀ x ∈ b, Plain ftz x) (hn : dotVal a a + dotVal b b ≤ 2 ^ 120) :
    ∃ r, dotF32 ftz T a b = .ok r ∧ Spec.Finite r ∧ r.neg.lt F32.fmax = true ∧
      |value r - dotVal a b| ≤ (h + 1) * 2 ^ (-24 : Int) * (dotVal a a + dotVal b b) + o * (if ftz then 2 ^ (-125 : Int) else 2 ^ (-149 : Int)) := by
  have hA := absDotVal_le (a := a) (b := b) (by rw [ha, hb])
  have hA0 := absDotVal_nonneg a b
  have hP := dotVal_nonneg a
  have hQ := dotVal_nonneg b
  obtain ⟨r, e, f, hr⟩ := dot_within ftz hT.1 ha hb hfa hfb hT.2.1 hT.2.2 hs (by linarith)
  have h4 : (if ftz then 2 ^ (-125 : Int) else 2 ^ (-149 : Int) : ℚ) = 2 * tiny ftz := by
    unfold tiny
    cases ftz <;> norm_num
  have hg0 : (0 : ℚ) ≤ (h + 1) * 2 ^ (-23 : Int) := by positivity
  have e1 : ((h : ℚ) + 1) * 2 ^ (-24 : Int) * (dotVal a a + dotVal b b) = (h + 1) * 2 ^ (-23 : Int) * ((dotVal a a + dotVal b b) / 2) := by
    rw [show (2 : ℚ) ^ (-24 : Int) = 2 ^ (-23 : Int) / 2 by norm_num]
    ring
  have h5 : ((h : ℚ) + 1) * 2 ^ (-23 : Int) * absDotVal a b ≤ (h + 1) * 2 ^ (-23 : Int) * ((dotVal a a + dotVal b b) / 2) :=
    mul_le_mul_of_nonneg_left (by linarith) hg0
  refine ⟨r, e, f, ?_, ?_⟩
  · have ffm : Spec.Finite F32.fmax := by unfold Spec.Finite; decide
    rw [lt_iff_value (neg_finite f) ffm, neg_value]
    have efm : (2 : ℚ) ^ 125 < value F32.fmax := by norm_num [value, F32.fmax, magnitude]
    have hg : ((h : ℚ) + 1) * 2 ^ (-23 : Int) ≤ 1 / 8 := by
      have : (h : ℚ) + 1 ≤ 2 ^ 20 := by exact_mod_cast hs.1
      calc ((h : ℚ) + 1) * 2 ^ (-23 : Int) ≤ 2 ^ 20 * 2 ^ (-23 : Int) := by gcongr
        _ = 1 / 8 := by norm_num
    have h6 : ((h : ℚ) + 1) * 2 ^ (-23 : Int) * absDotVal a b ≤ 1 / 8 * absDotVal a b := mul_le_mul_of_nonneg_right hg hA0
    have htt : (o : ℚ) * (2 * tiny ftz) ≤ 2 ^ 100 := by
      have ho2 : (o : ℚ) ≤ 2 ^ 100 := by exact_mod_cast hs.2.2
      have : 2 * tiny ftz ≤ 1 := by unfold tiny; cases ftz <;> norm_num
      have := (tiny_pos ftz).le
      calc (o : ℚ) * (2 * tiny ftz) ≤ 2 ^ 100 * 1 := by gcongr
        _ = 2 ^ 100 := mul_one _
    have h7 := (abs_le.1 hr).1
    have h8 := (abs_le.1 (dotVal_abs (a := a) (b := b))).1
    have h9 : (2 : ℚ) * 2 ^ 120 + 2 ^ 100 ≤ 2 ^ 125 := by norm_num
    generalize ((h : ℚ) + 1) * 2 ^ (-23 : Int) * absDotVal a b = z at *
    generalize (o : ℚ) * (2 * tiny ftz) = w at *
    linarith
  · rw [h4, e1]
    exact hr.trans (add_le_add h5 (le_refl _))

/-- For `float` files, up to errors. -/
theorem truth_dot_close {ftz : Bool} {h o dim : Nat} {T : TruthOrders} {U : SumTree} {rows qrows : List Bytes} (H : FloatRows ftz h o dim T U rows qrows)
    {v u : Bytes} (hv : v ∈ qrows) (hu : u ∈ rows) (q g : Nat) :
    Spec.Finite (truthF32 ftz T true q g (Spec.valuesOf Elem.float.size dim (elemF32 .float) v) (Spec.valuesOf Elem.float.size dim (elemF32 .float) u)) ∧
    |value (truthF32 ftz T true q g (Spec.valuesOf Elem.float.size dim (elemF32 .float) v) (Spec.valuesOf Elem.float.size dim (elemF32 .float) u)) -
      -fileDot .float dim v u| ≤ fileDotErr ftz h o dim v u := by
  obtain ⟨r, e1, h1, -, h2⟩ := dot_bound ftz (H.prod q g) H.small (a := Spec.valuesOf Elem.float.size dim (elemF32 .float) u)
    (b := Spec.valuesOf Elem.float.size dim (elemF32 .float) v) (valuesOf_length _ _ _ _) (valuesOf_length _ _ _ _)
    (H.plain u (List.mem_append_left _ hu)) (H.plain v (List.mem_append_right _ hv)) (by rw [float_norm, float_norm]; exact H.norms u hu v hv)
  have e2 : truthF32 ftz T true q g (Spec.valuesOf Elem.float.size dim (elemF32 .float) v) (Spec.valuesOf Elem.float.size dim (elemF32 .float) u) = r.neg := by
    unfold truthF32
    simp only [if_true]
    rw [e1, Res.ok_bind]
  rw [e2, neg_value]
  refine ⟨neg_finite h1, ?_⟩
  rw [dot_file .float dim u v (fun r d => (coordinate_float r d).symm), fileDot_comm, float_norm, float_norm, add_comm (fileNorm .float dim u)] at h2
  rw [← abs_neg, show -(-value r - -fileDot .float dim v u) = value r - fileDot .float dim v u by ring]
  exact h2

/-- The inner products that the ground-truth program computes are finite and within `E` of the exact ones. -/
def MipsClose (env : TruthEnv) (e : Elem) (dim : Nat) (rows qrows : List Bytes) (E : Nat → Nat → ℚ) : Prop :=
  ∀ c < qrows.length, ∀ i < rows.length, Spec.Finite (Spec.truthDist env e true dim rows qrows c i) ∧
    |value (Spec.truthDist env e true dim rows qrows c i) - -fileDot e dim (rowAt qrows c) (rowAt rows i)| ≤ E c i

theorem flip_neg (x : F32) : (⟨x.bits ^^^ 0x80000000#32⟩ : F32) = x.neg := by
  have h := flip_toNat x
  have hlt := x.bits.isLt
  unfold F32.neg F32.pack F32.sign F32.mag
  rw [F32.mk.injEq]
  refine BitVec.eq_of_toNat_eq ?_
  rw [h, BitVec.toNat_ofNat]
  by_cases h1 : x.bits.toNat < 2147483648
  · rw [if_pos h1, decide_eq_false (by omega)]
    simp only [Bool.not_false, if_true]
    omega
  · rw [if_neg h1, decide_eq_true (by omega)]
    simp only [Bool.not_true, Bool.false_eq_true, if_false]
    omega

/-- Every query gets the points with the largest inner products, up to errors, and the file has the inner products with their signs. -/
theorem mips_written {env : TruthEnv} {e : Elem} {a0 t b q kt o : Bytes} {dim : Nat} {rows qrows : List Bytes} {k : Nat} {E : Nat → Nat → ℚ}
    {fs : FS Bytes} (ht : elemArg t = some e) (hk : Spec.NumText kt k) (hk31 : k < 2147483648)
    (hb : fs b = some (Spec.binFile dim rows)) (hq : fs q = some (Spec.binFile dim qrows))
    (h : TruthFiles env e dim rows qrows k) (hE : MipsClose env e dim rows qrows E) :
    ∃ ops out, truthMain env [a0, t, b, q, kt, o, ascii "mips"] fs = .ok (.run ops) ∧ out.length = qrows.length ∧
      (∀ i row, out[i]? = some row →
        CloseNearest k (Finset.range rows.length) (fun g => -fileDot e dim (rowAt qrows i) (rowAt rows g)) (E i) (row.map (fun x => (x.1, x.2.neg)))) ∧
      ∀ fs1, runOps ops fs1 o = some (Spec.truthBytes k out) ∧ ∀ p, p ≠ o → runOps ops fs1 p = fs1 p := by
  have hin : TruthInput env e (ascii "mips" = ascii "mips") dim rows qrows k := by
    rw [decide_eq_true rfl]
    exact ⟨h.part, h.mat, h.qmat, h.dimLt, h.some, h.few, h.fewq, h.onePart, h.kpos, h.klast, h.room, h.heap, h.sort,
      fun q hq g hg => finite_isNum (hE q hq g hg).1⟩
  obtain ⟨ops, out, e1, e2, e3, e4⟩ := C85_truth_partial (a0 := a0) (o := o) ht hk hk31 hb hq hin
  rw [decide_eq_true rfl] at e3 e4
  refine ⟨ops, Spec.signed true out, e1, by unfold Spec.signed; rw [List.length_map, e2], fun i row hr => ?_, e4⟩
  unfold Spec.signed at hr
  rw [List.getElem?_map] at hr
  obtain ⟨r, hr0, rfl⟩ := Option.map_eq_some_iff.1 hr
  have hi : i < qrows.length := by
    rw [← e2]
    by_contra hc
    rw [List.getElem?_eq_none (by omega)] at hr0
    exact absurd hr0 (by simp)
  have hrr : (r.map (fun x => (x.1, if true = true then (⟨x.2.bits ^^^ 0x80000000#32⟩ : F32) else x.2))).map (fun x => (x.1, x.2.neg)) = r := by
    rw [List.map_map]
    conv_rhs => rw [← List.map_id r]
    refine List.map_congr_left (fun x _ => ?_)
    simp only [Function.comp_apply, if_true, id]
    rw [← flip_neg]
    simp [BitVec.xor_assoc]
  rw [hrr]
  exact closeNearest (e3 i r hr0) (fun g hg => hE i hi g (Finset.mem_range.1 hg))

/-- **C97.** For files of bytes of dimension up to 258, the ground-truth program with `mips`, computing in `float` arithmetic in
any order, writes for every query `k` points with the largest inner products, with these inner products. -/
theorem C97_truth_bytes {env : TruthEnv} {ftz : Bool} {T : TruthOrders} (hf : TruthFloat env ftz T) {e : Elem} {a0 t b q kt o : Bytes} {dim : Nat}
    (hd : ByteDim e dim) (hT : ∀ q g, (T.prod q g).Sums dim) {rows qrows : List Bytes} {k : Nat}
    {fs : FS Bytes} (ht : elemArg t = some e) (hk : Spec.NumText kt k) (hk31 : k < 2147483648)
    (hb : fs b = some (Spec.binFile dim rows)) (hq : fs q = some (Spec.binFile dim qrows)) (h : TruthFiles env e dim rows qrows k) :
    ∃ ops out, truthMain env [a0, t, b, q, kt, o, ascii "mips"] fs = .ok (.run ops) ∧ out.length = qrows.length ∧
      (∀ i row, out[i]? = some row → CloseNearest k (Finset.range rows.length) (fun g => -fileDot e dim (rowAt qrows i) (rowAt rows g)) (fun _ => 0)
        (row.map (fun x => (x.1, x.2.neg)))) ∧
      ∀ fs1, runOps ops fs1 o = some (Spec.truthBytes k out) ∧ ∀ p, p ≠ o → runOps ops fs1 p = fs1 p :=
  mips_written ht hk hk31 hb hq h (E := fun _ _ => 0) (fun c _ i _ => by
    unfold Spec.truthDist
    rw [hf.elem, hf.dist]
    obtain ⟨h1, h2⟩ := C97_truth_exact ftz hd (hT c i) (rowAt qrows c) (rowAt rows i)
    exact ⟨h1, by rw [h2, sub_self, abs_zero]⟩)

/-- **C97.** For `float` files the points have the largest inner products up to the errors.
Missing for the exactly largest ones: rounding can reverse the order (C97_truth_wrong). -/
theorem C97_truth_float_partial {env : TruthEnv} {ftz : Bool} {T : TruthOrders} (hf : TruthFloat env ftz T) {a0 t b q kt o : Bytes} {h' o' dim : Nat}
    {U : SumTree} {rows qrows : List Bytes} {k : Nat} (H : FloatRows ftz h' o' dim T U rows qrows)
    {fs : FS Bytes} (ht : elemArg t = some .float) (hk : Spec.NumText kt k) (hk31 : k < 2147483648)
    (hb : fs b = some (Spec.binFile dim rows)) (hq : fs q = some (Spec.binFile dim qrows)) (h : TruthFiles env .float dim rows qrows k) :
    ∃ ops out, truthMain env [a0, t, b, q, kt, o, ascii "mips"] fs = .ok (.run ops) ∧ out.length = qrows.length ∧
      (∀ i row, out[i]? = some row → CloseNearest k (Finset.range rows.length) (fun g => -fileDot .float dim (rowAt qrows i) (rowAt rows g))
        (fun g => fileDotErr ftz h' o' dim (rowAt qrows i) (rowAt rows g)) (row.map (fun x => (x.1, x.2.neg)))) ∧
      ∀ fs1, runOps ops fs1 o = some (Spec.truthBytes k out) ∧ ∀ p, p ≠ o → runOps ops fs1 p = fs1 p :=
  mips_written ht hk hk31 hb hq h (E := fun c i => fileDotErr ftz h' o' dim (rowAt qrows c) (rowAt rows i)) (fun c hc i hi => by
    unfold Spec.truthDist
    rw [hf.elem, hf.dist]
    exact truth_dot_close H (rowAt_mem hc) (rowAt_mem hi) c i)

/-! ## The index -/

theorem dotVal_pad (m : Nat) {a b : List F32} (h : a.length = b.length) :
    dotVal (a ++ List.replicate m F32.zero) (b ++ List.replicate m F32.zero) = dotVal a b := by
  unfold dotVal
  rw [List.zipWith_append h, List.sum_append, List.zipWith_replicate, value_zero']
  simp

/-- **C97.** The distances of an index with inner products, of vectors in `float` files, are the negative inner products up to the errors.
Missing for the exact ones: rounding. -/
theorem C97_index_partial {ftz : Bool} {h o dim : Nat} {T : TruthOrders} {U : SumTree} {rows qrows : List Bytes} (H : FloatRows ftz h o dim T U rows qrows)
    {c : DistClass} (hc : getDistance .float .innerProduct = .ok c) (hr : Spec.Matrix 4 dim rows) (hq : Spec.Matrix 4 dim qrows)
    {k : Nat} (hk : k < qrows.length) {i : Nat} (hi : i < rows.length) :
    Spec.Finite (indexDist ftz U .float c dim dim rows qrows k i) ∧ (indexDist ftz U .float c dim dim rows qrows k i).lt F32.fmax = true ∧
    |value (indexDist ftz U .float c dim dim rows qrows k i) - -fileDot .float dim (rowAt qrows k) (rowAt rows i)| ≤
      fileDotErr ftz h o dim (rowAt qrows k) (rowAt rows i) := by
  cases hc
  have hle : dim ≤ roundUp8 dim := (roundUp8_spec dim).1
  have hz : Plain ftz F32.zero := ⟨by unfold Spec.Finite; decide, fun _ => Or.inl value_zero'⟩
  have hu := rowAt_mem hi
  have hv := rowAt_mem hk
  have hp : ∀ r ∈ rows ++ qrows, ∀ x ∈ Spec.valuesOf Elem.float.size dim (elemF32 .float) r ++ List.replicate (roundUp8 dim - dim) F32.zero, Plain ftz x := by
    intro r hr x hx
    rcases List.mem_append.1 hx with hx | hx
    · exact H.plain r hr x hx
    · rw [(List.mem_replicate.1 hx).2]; exact hz
  have hlen : ∀ r, (Spec.valuesOf Elem.float.size dim (elemF32 .float) r ++ List.replicate (roundUp8 dim - dim) F32.zero).length = roundUp8 dim := by
    intro r
    rw [List.length_append, valuesOf_length, List.length_replicate]
    omega
  have hdp : ∀ a b, dotVal (Spec.valuesOf Elem.float.size dim (elemF32 .float) a ++ List.replicate (roundUp8 dim - dim) F32.zero)
      (Spec.valuesOf Elem.float.size dim (elemF32 .float) b ++ List.replicate (roundUp8 dim - dim) F32.zero) = fileDot .float dim a b := by
    intro a b
    rw [dotVal_pad _ (by rw [valuesOf_length, valuesOf_length]), dot_file .float dim a b (fun r d => (coordinate_float r d).symm)]
  have hnn : ∀ a, fileDot .float dim a a = fileNorm .float dim a := by
    intro a
    unfold fileDot fileNorm
    exact Finset.sum_congr rfl (fun d _ => (pow_two _).symm)
  obtain ⟨r, e1, h1, h2, h3⟩ := dot_bound ftz H.index H.small (hlen (rowAt qrows k)) (hlen (rowAt rows i)) (hp _ (List.mem_append_right _ hv))
    (hp _ (List.mem_append_left _ hu)) (by rw [hdp, hdp, hnn, hnn, add_comm]; exact H.norms _ hu _ hv)
  have key : indexDist ftz U .float .innerProduct dim dim rows qrows k i = r.neg := by
    unfold indexDist Spec.fileDist
    show cmpF32 ftz U (roundUp8 dim) .innerProduct (Spec.queryVec 4 dim (roundUp8 dim) qrows k) (padTo (roundUp8 dim * 4) (rowAt rows i)) = _
    rw [queryVec_row hq hk]
    unfold cmpF32
    simp only
    rw [floats_padTo (hq _ hv) hle, floats_padTo (hr _ hu) hle, e1, Res.ok_bind]
  rw [key, neg_value]
  refine ⟨neg_finite h1, h2, ?_⟩
  rw [hdp, hdp, hdp, hnn, hnn] at h3
  rw [← abs_neg, show -(-value r - -fileDot .float dim (rowAt qrows k) (rowAt rows i)) = value r - fileDot .float dim (rowAt qrows k) (rowAt rows i) by ring]
  exact h3

/-- **C97.** What a search with inner products returns is sorted by the exact inner products, largest first, up to the errors. -/
theorem C97_slots {tag : Nat → Nat} {ftz : Bool} {h o dim : Nat} {T : TruthOrders} {U : SumTree} {rows qrows : List Bytes} (H : FloatRows ftz h o dim T U rows qrows)
    {c : DistClass} (hc : getDistance .float .innerProduct = .ok c) (hr : Spec.Matrix 4 dim rows) (hq : Spec.Matrix 4 dim qrows)
    {k : Nat} (hk : k < qrows.length) {good : Nat → Prop} (hg : ∀ i, good i → i < rows.length)
    {K : Nat} {s : List Nat} (hs : Spec.GraphSlots tag (indexDist ftz U .float c dim dim rows qrows k) good K s) :
    ∃ ids : List Nat, ids.Nodup ∧ (∀ i ∈ ids, good i) ∧
      ids.Pairwise (fun i j => fileDot .float dim (rowAt qrows k) (rowAt rows j) ≤ fileDot .float dim (rowAt qrows k) (rowAt rows i) +
        (fileDotErr ftz h o dim (rowAt qrows k) (rowAt rows i) + fileDotErr ftz h o dim (rowAt qrows k) (rowAt rows j))) ∧ ids.length ≤ K ∧
      s = ids.map tag ++ List.replicate (K - ids.length) (tag 0) := by
  obtain ⟨ids, h1, h2, h3, h4, h5⟩ := hs
  refine ⟨ids, h1, h2, ?_, h4, h5⟩
  refine h3.imp_of_mem (fun {i j} hi hj hij => ?_)
  obtain ⟨a1, -, a3⟩ := C97_index_partial H hc hr hq hk (hg i (h2 i hi))
  obtain ⟨b1, -, b3⟩ := C97_index_partial H hc hr hq hk (hg j (h2 j hj))
  have := (le_iff_value a1 b1).1 hij
  have := (abs_le.1 a3).1
  have := (abs_le.1 b3).2
  linarith

/-! ## Refutation -/

/-- 2^24 and its negative, and 1/2. -/
def exBig : F32 := ⟨0x4b800000#32⟩

def exBigNeg : F32 := ⟨0xcb800000#32⟩

def exOneHalf : F32 := ⟨0x3f000000#32⟩

/-- **C97, refutation.** Added in the order of the coordinates, the product of (1, 1, 1) and (2^24, 1, -2^24), which is 1, is computed as 0, so that
(1/2, 0, 0) is taken for the better point. -/
theorem C97_truth_wrong (ftz : Bool) (T : TruthOrders) (q : Nat) (h0 : T.prod q 0 = serial 3) (h1 : T.prod q 1 = serial 3) :
    (truthF32 ftz T true q 1 [F32.one, F32.one, F32.one] [exOneHalf, F32.zero, F32.zero]).lt
      (truthF32 ftz T true q 0 [F32.one, F32.one, F32.one] [exBig, F32.one, exBigNeg]) = true ∧
    dotVal [F32.one, F32.one, F32.one] [exOneHalf, F32.zero, F32.zero] < dotVal [F32.one, F32.one, F32.one] [exBig, F32.one, exBigNeg] := by
  constructor
  · unfold truthF32
    simp only [if_true]
    rw [h0, h1]
    cases ftz <;> decide +kernel
  · norm_num [dotVal, value, magnitude, exOneHalf, exBig, exBigNeg, F32.one, F32.zero]

/-! ## Examples -/

example := C97_compare_partial true (size := 8) (by decide) (by decide) (a := List.replicate 8 exOneHalf) (b := List.replicate 8 F32.one) rfl rfl
  (fun x hx => by
    rw [(List.mem_replicate.1 hx).2]
    exact ⟨by unfold Spec.Finite; decide, fun _ => Or.inr (by norm_num [value, magnitude, exOneHalf])⟩)
  (fun x hx => by
    rw [(List.mem_replicate.1 hx).2]
    exact ⟨by unfold Spec.Finite; decide, fun _ => Or.inr (by norm_num [value, magnitude, F32.one])⟩)
  (by decide +kernel) (by norm_num [absDotVal, List.replicate, value, magnitude, exOneHalf, F32.one])

/-- Eight products of 1/2 and 1. -/
example : ipCompareF true (List.replicate 8 exOneHalf) (List.replicate 8 F32.one) 8 = .ok ⟨0xc0800000#32⟩ := by decide +kernel

/-- 200 · 250 + 3 · 7. -/
example : value (truthF32 true (exOrders 2) true 0 0 (Spec.valuesOf 1 2 (elemF32 .uint8) [200, 3]) (Spec.valuesOf 1 2 (elemF32 .uint8) [250, 7])) = -50021 :=
  (C97_truth_exact true (T := exOrders 2) (e := .uint8) (dim := 2) (q := 0) (g := 0) ⟨Or.inr rfl, by decide⟩ (serial_sums 2) [200, 3] [250, 7]).2.trans (by
    decide +kernel)

example := C97_truth_bytes (exFloatTruth_float 1) (e := .uint8) (a0 := ascii "truth") (t := ascii "uint8") (b := ascii "d") (q := ascii "q") (kt := ascii "3")
  (o := ascii "g") (dim := 1) ⟨Or.inr rfl, by decide⟩ (fun _ _ => serial_sums 1) (rows := exRows10) (qrows := [[51], [55]]) (k := 3) (fs := exCmdFs) (by decide +kernel)
  (atoi_ok_iff.1 (by decide +kernel : atoi (ascii "3") = .ok 3)).1 (by decide) (by decide +kernel) (by decide +kernel) exByteFiles

example := C97_truth_float_partial (exFloatTruth_float 1) (a0 := ascii "truth") (t := ascii "float") (b := ascii "d") (q := ascii "q") (kt := ascii "3")
  (o := ascii "g") exFloat_rows (k := 3) (fs := exFloatFs) (by decide +kernel)
  (atoi_ok_iff.1 (by decide +kernel : atoi (ascii "3") = .ok 3)).1 (by decide) (by decide +kernel) (by decide +kernel) exFloatFiles

/-- 51.25 · 46. -/
example : indexDist true (serial 8) .float .innerProduct 1 1 exFloatRows exFloatQueries 0 3 = ⟨0xc5135800#32⟩ ∧
    |value (⟨0xc5135800#32⟩ : F32) - -fileDot .float 1 (exFRow 77) (exFRow 56)| ≤ fileDotErr true 8 16 1 (exFRow 77) (exFRow 56) := by
  have e : indexDist true (serial 8) .float .innerProduct 1 1 exFloatRows exFloatQueries 0 3 = ⟨0xc5135800#32⟩ := by decide +kernel
  have h := (C97_index_partial exFloat_rows (c := .innerProduct) rfl (by unfold Spec.Matrix; decide) (by unfold Spec.Matrix; decide) (k := 0) (by decide) (i := 3)
    (by decide)).2.2
  rw [e] at h
  exact ⟨e, h⟩

example := C97_slots (tag := id) exFloat_rows (c := .innerProduct) rfl (by unfold Spec.Matrix; decide) (by unfold Spec.Matrix; decide) (k := 0) (by decide)
  (good := fun i => i < 10) (fun _ h => h) (K := 3) (s := [8, 6, 0]) ⟨[8, 6], by decide, by decide, by
    rw [List.pairwise_pair]
    decide +kernel, by decide, rfl⟩

example := C97_truth_wrong true (exOrders 3) 0 rfl rfl

end Grann
