import Verif.Props.FloatExpand
import Verif.Props.Chain
import Verif.Proofs.FloatExact
import Verif.Model.FloatProg
import Verif.Spec.FloatFile
/-!
# C95: the programs with their distances in `float` arithmetic
-/

namespace Grann

open _root_.Grann.Spec

/-! ## Coordinates -/

/-- Coordinate `d` of a vector of bytes. -/
def byteCoord (e : Elem) (row : Bytes) (d : Nat) : Int :=
  match e with
  | .int8 => if (row.getD d 0).toNat < 128 then ((row.getD d 0).toNat : Int) else ((row.getD d 0).toNat : Int) - 256
  | _ => ((row.getD d 0).toNat : Int)

/-- The element types of one byte. -/
def Elem.IsByte (e : Elem) : Prop := e = .int8 ∨ e = .uint8

theorem byte_lt (b : UInt8) : b.toNat < 256 := b.toNat_lt

theorem coordinate_byte {e : Elem} (he : e.IsByte) (row : Bytes) (d : Nat) : coordinate e row d = byteCoord e row d := by
  rcases he with rfl | rfl
  · unfold coordinate byteCoord
    simp only
    split <;> push_cast <;> rfl
  · unfold coordinate byteCoord
    simp

theorem take_one (row : Bytes) (d : Nat) : unle ((row.drop (d * 1)).take 1) = (row.getD d 0).toNat := by
  rw [Nat.mul_one]
  by_cases h : d < row.length
  · rw [List.drop_eq_getElem_cons h, List.take_succ_cons, List.take_zero, List.getD_eq_getElem?_getD, List.getElem?_eq_getElem h]
    rfl
  · rw [List.drop_eq_nil_of_le (by omega)]
    simp [unle, List.getD, List.getElem?_eq_none (by omega : row.length ≤ d)]

theorem byteCoord_bound (e : Elem) (row : Bytes) (d : Nat) : |byteCoord e row d| ≤ 255 := by
  have := byte_lt (row.getD d 0)
  unfold byteCoord
  rw [abs_le]
  split
  · split <;> omega
  · omega

theorem byteCoord_int8 (row : Bytes) (d : Nat) : |byteCoord .int8 row d| ≤ 128 := by
  have := byte_lt (row.getD d 0)
  unfold byteCoord
  rw [abs_le]
  simp only
  split <;> omega

/-- A byte becomes the right float. -/
theorem elemF32_byte {e : Elem} (he : e.IsByte) (row : Bytes) (d : Nat) :
    FloatInt (elemF32 e ((row.drop (d * e.size)).take e.size)) (byteCoord e row d) := by
  have hb := byte_lt (row.getD d 0)
  rcases he with rfl | rfl
  · unfold elemF32 byteCoord Elem.size
    simp only
    rw [take_one]
    split
    · obtain ⟨h1, h2⟩ := ofNat_value (N := (row.getD d 0).toNat) (by omega)
      exact ⟨h1, by rw [h2]; push_cast; rfl⟩
    · obtain ⟨h1, h2⟩ := ofNat_value (N := 256 - (row.getD d 0).toNat) (by omega)
      refine ⟨neg_finite h1, ?_⟩
      rw [neg_value, h2, Nat.cast_sub (by omega)]
      push_cast
      ring
  · unfold elemF32 byteCoord Elem.size
    simp only
    rw [take_one]
    obtain ⟨h1, h2⟩ := ofNat_value (N := (row.getD d 0).toNat) (by omega)
    exact ⟨h1, by rw [h2]; push_cast; rfl⟩

/-- The coordinates as a list. -/
def byteCoords (e : Elem) (dim : Nat) (row : Bytes) : List Int := (List.range dim).map (byteCoord e row)

theorem values_int {e : Elem} (he : e.IsByte) (dim : Nat) (row : Bytes) : IntVec (Spec.valuesOf e.size dim (elemF32 e) row) (byteCoords e dim row) := by
  unfold IntVec Spec.valuesOf byteCoords
  rw [List.forall₂_map_left_iff, List.forall₂_map_right_iff, List.forall₂_same]
  exact fun d _ => elemF32_byte he row d

theorem list_sum_range {R : Type} [AddCommMonoid R] (f : Nat → R) (n : Nat) : ((List.range n).map f).sum = ∑ d ∈ Finset.range n, f d := by
  induction n with
  | zero => simp
  | succ n ih => rw [List.range_succ, List.map_append, List.sum_append, ih, Finset.sum_range_succ]; simp

theorem sum_byteCoords (e : Elem) (dim : Nat) (a b : Bytes) (g : Int → Int → Int) :
    (List.zipWith g (byteCoords e dim a) (byteCoords e dim b)).sum = ∑ d ∈ Finset.range dim, g (byteCoord e a d) (byteCoord e b d) := by
  unfold byteCoords
  rw [List.zipWith_map, List.zipWith_self]
  exact list_sum_range _ _

theorem sqInt_file {e : Elem} (he : e.IsByte) (dim : Nat) (a b : Bytes) : ((sqInt (byteCoords e dim a) (byteCoords e dim b) : Int) : ℚ) = fileSq e dim a b := by
  unfold sqInt fileSq
  rw [sum_byteCoords]
  push_cast
  refine Finset.sum_congr rfl (fun d _ => ?_)
  rw [coordinate_byte he, coordinate_byte he]
  ring

theorem sqInt_bytes (e : Elem) (dim : Nat) (a b : Bytes) (h : ∀ d, |byteCoord e a d - byteCoord e b d| ≤ 255) : sqInt (byteCoords e dim a) (byteCoords e dim b) ≤ dim * 65025 := by
  unfold sqInt
  rw [sum_byteCoords]
  have : ∀ i ∈ Finset.range dim, (byteCoord e a i - byteCoord e b i) * (byteCoord e a i - byteCoord e b i) ≤ 65025 := by
    intro i _
    have := abs_le.1 (h i)
    nlinarith
  simpa using Finset.sum_le_card_nsmul _ _ _ this

theorem dotInt_bytes (e : Elem) (dim : Nat) (a : Bytes) {B : Int} (h : ∀ d, |byteCoord e a d| ≤ B) : dotInt (byteCoords e dim a) (byteCoords e dim a) ≤ dim * (B * B) := by
  unfold dotInt
  rw [sum_byteCoords]
  have : ∀ i ∈ Finset.range dim, byteCoord e a i * byteCoord e a i ≤ B * B := by
    intro i _
    have := h i
    rw [← abs_mul_abs_self]
    exact mul_self_le_mul_self (abs_nonneg _) this
  simpa using Finset.sum_le_card_nsmul _ _ _ this

/-- The dimensions in which all numbers stay below 2^24. -/
def ByteDim (e : Elem) (dim : Nat) : Prop := e.IsByte ∧ dim ≤ 258

theorem byte_diff {e : Elem} (he : e.IsByte) (a b : Bytes) (d : Nat) : |byteCoord e a d - byteCoord e b d| ≤ 255 := by
  have h1 := byte_lt (a.getD d 0)
  have h2 := byte_lt (b.getD d 0)
  rw [abs_le]
  unfold byteCoord
  rcases he with rfl | rfl <;> simp only
  · split <;> split <;> omega
  · omega

theorem sqInt_small {e : Elem} {dim : Nat} (h : ByteDim e dim) (a b : Bytes) : sqInt (byteCoords e dim a) (byteCoords e dim b) ≤ 16777216 := by
  have := sqInt_bytes e dim a b (byte_diff h.1 a b)
  have := h.2
  omega

theorem norm_small {e : Elem} {dim : Nat} (h : ByteDim e dim) (a : Bytes) : dotInt (byteCoords e dim a) (byteCoords e dim a) ≤ 16777216 := by
  have h1 := dotInt_bytes e dim a (byteCoord_bound _ a)
  have := h.2
  omega

theorem byte_expand {e : Elem} (he : e.IsByte) (a b : Bytes) (d : Nat) : byteCoord e a d * byteCoord e a d - 2 * (byteCoord e a d * byteCoord e b d) ≤ 65025 := by
  have h1 := byte_lt (a.getD d 0)
  have h2 := byte_lt (b.getD d 0)
  rcases he with rfl | rfl
  · have h3 := abs_le.1 (byteCoord_int8 a d)
    have h4 := abs_le.1 (byteCoord_int8 b d)
    nlinarith
  · have h3 : 0 ≤ byteCoord .uint8 a d ∧ byteCoord .uint8 a d ≤ 255 := by unfold byteCoord; simp only; omega
    have h4 : 0 ≤ byteCoord .uint8 b d := by unfold byteCoord; simp only; omega
    have h5 := mul_nonneg h3.1 h4
    nlinarith

theorem expand_small {e : Elem} {dim : Nat} (h : ByteDim e dim) (a b : Bytes) :
    dotInt (byteCoords e dim a) (byteCoords e dim a) - 2 * dotInt (byteCoords e dim a) (byteCoords e dim b) ≤ 16777216 := by
  unfold dotInt
  rw [sum_byteCoords, sum_byteCoords, Finset.mul_sum, ← Finset.sum_sub_distrib]
  have := Finset.sum_le_card_nsmul (Finset.range dim) _ _ (fun d _ => byte_expand h.1 a b d)
  have h2 := h.2
  simp only [Finset.card_range, nsmul_eq_mul] at this
  omega

theorem length_coords (e : Elem) (dim : Nat) (a : Bytes) : (byteCoords e dim a).length = dim := by
  unfold byteCoords; simp

/-- **C95.** The matrix of distances for vectors of bytes has no rounding errors, in every order of the additions. -/
theorem C95_truth_exact (ftz : Bool) {T : TruthOrders} {e : Elem} {dim : Nat} (h : ByteDim e dim) {q g : Nat} (hT : (T.prod q g).Sums dim)
    (hp : (T.point g).Sums dim) (hq : (T.query q).Sums dim) (v u : Bytes) :
    Spec.Finite (truthF32 ftz T false q g (Spec.valuesOf e.size dim (elemF32 e) v) (Spec.valuesOf e.size dim (elemF32 e) u)) ∧
    value (truthF32 ftz T false q g (Spec.valuesOf e.size dim (elemF32 e) v) (Spec.valuesOf e.size dim (elemF32 e) u)) = fileSq e dim v u := by
  have he := h.1
  obtain ⟨r, e1, h1⟩ := expand_int ftz (values_int he dim u) (values_int he dim v) (by rw [length_coords]; exact hT) (by rw [length_coords]; exact hp)
    (by rw [length_coords]; exact hq) (by rw [length_coords, length_coords]) (norm_small h u) (norm_small h v) (expand_small h u v) (sqInt_small h u v)
  have e2 : truthF32 ftz T false q g (Spec.valuesOf e.size dim (elemF32 e) v) (Spec.valuesOf e.size dim (elemF32 e) u) = r := by
    unfold truthF32
    simp only [Bool.false_eq_true, if_false]
    rw [e1]
  rw [e2]
  refine ⟨h1.1, h1.2.trans ?_⟩
  rw [sqInt_file he]
  unfold fileSq
  exact Finset.sum_congr rfl (fun d _ => by ring)

/-! ## The distances of the index for bytes -/

theorem padTo_getD (len : Nat) (r : Bytes) (i : Nat) : (padTo len r).getD i 0 = r.getD i 0 := by
  unfold padTo
  rw [List.getD_eq_getElem?_getD, List.getD_eq_getElem?_getD, List.getElem?_append]
  split
  · rfl
  · rename_i h
    rw [List.getElem?_replicate, List.getElem?_eq_none (by omega : r.length ≤ i)]
    split <;> rfl

theorem padTo_len {len : Nat} {r : Bytes} (h : r.length ≤ len) : (padTo len r).length = len := by
  unfold padTo
  rw [List.length_append, List.length_replicate]
  omega

theorem map_getD (l : Bytes) (i : Nat) : (l.map UInt8.toBitVec).getD i 0 = (l.getD i 0).toBitVec := by
  rw [List.getD_eq_getElem?_getD, List.getD_eq_getElem?_getD, List.getElem?_map]
  cases l[i]? <;> rfl

theorem ubyte_coord (len : Nat) (r : Bytes) (i : Nat) : ubyte ((padTo len r).map UInt8.toBitVec) i = byteCoord .uint8 r i := by
  unfold ubyte byteCoord
  rw [map_getD, padTo_getD]
  rfl

theorem sbyte_coord (len : Nat) (r : Bytes) (i : Nat) : sbyte ((padTo len r).map UInt8.toBitVec) i = byteCoord .int8 r i := by
  unfold sbyte byteCoord
  rw [map_getD, padTo_getD, BitVec.toInt]
  have h : (r.getD i 0).toBitVec.toNat = (r.getD i 0).toNat := rfl
  rw [h]
  simp only
  split <;> split <;> omega

/-- What is behind the coordinates does not count. -/
theorem sqDist_coords (e : Elem) {dim n : Nat} {a b : Bytes} (ha : a.length = dim) (hb : b.length = dim) (hn : dim ≤ n) :
    sqDist n (byteCoord e a) (byteCoord e b) = sqInt (byteCoords e dim a) (byteCoords e dim b) := by
  have h0 : ∀ (r : Bytes) i, r.length = dim → dim ≤ i → byteCoord e r i = 0 := by
    intro r i hr hi
    unfold byteCoord
    rw [List.getD_eq_getElem?_getD, List.getElem?_eq_none (by omega : r.length ≤ i)]
    cases e <;> simp
  obtain ⟨m, rfl⟩ : ∃ m, n = dim + m := ⟨n - dim, by omega⟩
  rw [(C50_metric _ _ _).2.2 m (fun i h1 _ => by rw [h0 a i ha h1, h0 b i hb h1])]
  unfold sqDist sqInt
  rw [sum_byteCoords]
  exact Finset.sum_congr rfl (fun d _ => by ring)

/-- **C95.** The distance function of an index on the aligned vectors of bytes gives the exact squared distance. -/
theorem C95_index_exact (ftz : Bool) (T : SumTree) {e : Elem} {dim : Nat} (h : ByteDim e dim) {c : DistClass} (hc : getDistance e .l2 = .ok c)
    {a b : Bytes} (ha : a.length = dim) (hb : b.length = dim) :
    Spec.Finite (cmpF32 ftz T (roundUp8 dim) c (padTo (roundUp8 dim * e.size) a) (padTo (roundUp8 dim * e.size) b)) ∧
    (cmpF32 ftz T (roundUp8 dim) c (padTo (roundUp8 dim * e.size) a) (padTo (roundUp8 dim * e.size) b)).lt F32.fmax = true ∧
    value (cmpF32 ftz T (roundUp8 dim) c (padTo (roundUp8 dim * e.size) a) (padTo (roundUp8 dim * e.size) b)) = fileSq e dim a b := by
  have he := h.1
  have hs := sqInt_small h a b
  have hs0 := sqInt_nonneg (byteCoords e dim a) (byteCoords e dim b)
  have hle : dim ≤ roundUp8 dim := (roundUp8_spec dim).1
  have hr : roundUp8 dim < 33025 := by
    have : dim ≤ 258 := by rcases h with h | h <;> omega
    unfold roundUp8
    split <;> omega
  have hes : e.size = 1 := by rcases he with rfl | rfl <;> rfl
  have key : cmpF32 ftz T (roundUp8 dim) c (padTo (roundUp8 dim * e.size) a) (padTo (roundUp8 dim * e.size) b) =
      F32.ofNat (sqInt (byteCoords e dim a) (byteCoords e dim b)).toNat := by
    rw [hes, Nat.mul_one]
    have la : ((padTo (roundUp8 dim) a).map UInt8.toBitVec).length = roundUp8 dim := by rw [List.length_map, padTo_len (by omega)]
    have lb : ((padTo (roundUp8 dim) b).map UInt8.toBitVec).length = roundUp8 dim := by rw [List.length_map, padTo_len (by omega)]
    rcases he with rfl | rfl
    · cases hc
      have h1 := C50_int8_exact ((padTo (roundUp8 dim) a).map UInt8.toBitVec) ((padTo (roundUp8 dim) b).map UInt8.toBitVec) (roundUp8 dim) (by omega)
        (by omega) (by omega)
      rw [funext (sbyte_coord _ a), funext (sbyte_coord _ b), sqDist_coords _ ha hb hle] at h1
      unfold cmpF32 byteCompare l2Int8F
      simp only
      rw [h1]
      rfl
    · cases hc
      have h1 := C50_uint8_exact ((padTo (roundUp8 dim) a).map UInt8.toBitVec) ((padTo (roundUp8 dim) b).map UInt8.toBitVec) (roundUp8 dim) (by omega)
        (by omega) (by omega)
      rw [funext (ubyte_coord _ a), funext (ubyte_coord _ b), sqDist_coords _ ha hb hle] at h1
      unfold cmpF32 byteCompare l2UInt8F
      simp only
      rw [h1]
      rfl
  obtain ⟨h1, h2⟩ := ofNat_value (N := (sqInt (byteCoords e dim a) (byteCoords e dim b)).toNat) (by omega)
  rw [key]
  refine ⟨h1, ?_, ?_⟩
  · rw [lt_iff_value h1 (by unfold Spec.Finite; decide), h2]
    have h3 : (((sqInt (byteCoords e dim a) (byteCoords e dim b)).toNat : Nat) : ℚ) ≤ 16777216 := by exact_mod_cast (by omega : (sqInt (byteCoords e dim a) (byteCoords e dim b)).toNat ≤ 16777216)
    have h4 : (16777216 : ℚ) < value F32.fmax := by norm_num [value, F32.fmax, magnitude]
    linarith
  · rw [h2, ← sqInt_file he]
    have : (((sqInt (byteCoords e dim a) (byteCoords e dim b)).toNat : Nat) : Int) = sqInt (byteCoords e dim a) (byteCoords e dim b) := Int.toNat_of_nonneg hs0
    rw [← this]
    push_cast
    rfl

/-! ## The values of `float` files -/

theorem coordinate_float (row : Bytes) (d : Nat) : coordinate .float row d = value (elemF32 .float ((row.drop (d * 4)).take 4)) := by
  unfold coordinate elemF32
  simp only
  rw [Nat.mul_comm]

theorem values_sq (e : Elem) (dim : Nat) (a b : Bytes) (conv : Bytes → F32) (f : Bytes → Nat → ℚ)
    (h : ∀ r d, value (conv ((r.drop (d * e.size)).take e.size)) = f r d) :
    sqDistVal (Spec.valuesOf e.size dim conv a) (Spec.valuesOf e.size dim conv b) = ∑ d ∈ Finset.range dim, (f a d - f b d) ^ 2 := by
  unfold sqDistVal Spec.valuesOf
  rw [List.zipWith_map, List.zipWith_self, list_sum_range]
  exact Finset.sum_congr rfl (fun d _ => by rw [h, h])

theorem float_sq (dim : Nat) (a b : Bytes) : sqDistVal (Spec.valuesOf Elem.float.size dim (elemF32 .float) a) (Spec.valuesOf Elem.float.size dim (elemF32 .float) b) =
    fileSq .float dim a b :=
  values_sq .float dim a b _ _ (fun r d => (coordinate_float r d).symm)

theorem float_norm (dim : Nat) (a : Bytes) : dotVal (Spec.valuesOf Elem.float.size dim (elemF32 .float) a) (Spec.valuesOf Elem.float.size dim (elemF32 .float) a) =
    fileNorm .float dim a := by
  unfold dotVal fileNorm Spec.valuesOf
  rw [List.zipWith_map, List.zipWith_self, list_sum_range]
  exact Finset.sum_congr rfl (fun d _ => by rw [coordinate_float]; exact (pow_two _).symm)

theorem fileSq_norm (e : Elem) (dim : Nat) (a b : Bytes) : fileSq e dim a b ≤ 2 * (fileNorm e dim a + fileNorm e dim b) := by
  unfold fileSq fileNorm
  rw [← Finset.sum_add_distrib, Finset.mul_sum]
  refine Finset.sum_le_sum (fun d _ => ?_)
  nlinarith [sq_nonneg (coordinate e a d + coordinate e b d)]

theorem fileSq_comm (e : Elem) (dim : Nat) (a b : Bytes) : fileSq e dim a b = fileSq e dim b a := by
  unfold fileSq
  exact Finset.sum_congr rfl (fun d _ => by ring)

theorem zero_bytes (k : Nat) : unle (List.replicate k 0) = 0 := by
  induction k with
  | zero => rfl
  | succ k ih => rw [List.replicate_succ]; unfold unle; rw [ih]; rfl

/-- The padding bytes are zeros behind the values. -/
theorem floats_padTo {dim n : Nat} {r : Bytes} (hr : r.length = dim * 4) (hn : dim ≤ n) :
    floatsOf (padTo (n * 4) r) = Spec.valuesOf Elem.float.size dim (elemF32 .float) r ++ List.replicate (n - dim) F32.zero := by
  have hl : (padTo (n * 4) r).length / 4 = n := by rw [padTo_len (by omega)]; omega
  unfold floatsOf Spec.valuesOf
  rw [hl]
  obtain ⟨m, rfl⟩ : ∃ m, n = dim + m := ⟨n - dim, by omega⟩
  rw [Nat.add_sub_cancel_left, List.range_add, List.map_append]
  congr 1
  · refine List.map_congr_left (fun d hd => ?_)
    have hd := List.mem_range.1 hd
    show elemF32 _ (((padTo ((dim + m) * 4) r).drop (d * 4)).take 4) = elemF32 _ ((r.drop (d * 4)).take 4)
    congr 1
    unfold padTo
    rw [List.drop_append_of_le_length (by omega), List.take_append_of_le_length (by rw [List.length_drop]; omega)]
  · rw [List.eq_replicate_iff]
    refine ⟨by simp, fun x hx => ?_⟩
    rw [List.map_map] at hx
    obtain ⟨d, _, rfl⟩ := List.mem_map.1 hx
    rw [Function.comp_apply]
    unfold padTo
    rw [List.drop_append, List.drop_eq_nil_of_le (by omega), List.nil_append, List.drop_replicate, List.take_replicate]
    unfold elemF32
    simp only
    rw [zero_bytes]
    rfl

/-! ## Errors of `float` distances -/

/-- The bound for the error of a distance of two vectors in files, with chains of at most `h` additions and at most `o` operations. -/
def fileErr (ftz : Bool) (h o dim : Nat) (a b : Bytes) : ℚ :=
  (h + 3) * 2 ^ (-22 : Int) * (fileNorm .float dim a + fileNorm .float dim b) + o * (if ftz then 2 ^ (-121 : Int) else 2 ^ (-145 : Int))

/-- An order of additions: a sum over `n` terms with chains of at most `h` additions and at most `o` operations. -/
def Order (h o n : Nat) (T : SumTree) : Prop := T.Sums n ∧ T.height ≤ h ∧ T.ops ≤ o

/-- Two `float` files, and the orders of additions of the two programs. -/
structure FloatRows (ftz : Bool) (h o dim : Nat) (T : TruthOrders) (U : SumTree) (rows qrows : List Bytes) : Prop where
  prod : ∀ q g, Order h o dim (T.prod q g)
  point : ∀ g, Order h o dim (T.point g)
  query : ∀ q, Order h o dim (T.query q)
  index : Order h o (roundUp8 dim) U
  small : h + 1 ≤ 2 ^ 20 ∧ 1 ≤ o ∧ o ≤ 2 ^ 100
  plain : ∀ r ∈ rows ++ qrows, ∀ x ∈ Spec.valuesOf Elem.float.size dim (elemF32 .float) r, Plain ftz x
  norms : ∀ p ∈ rows, ∀ q ∈ qrows, fileNorm .float dim p + fileNorm .float dim q ≤ 2 ^ 120

theorem valuesOf_length (es dim : Nat) (conv : Bytes → F32) (row : Bytes) : (Spec.valuesOf es dim conv row).length = dim := by
  unfold Spec.valuesOf; simp

/-- The matrix of the ground-truth program up to rounding. -/
theorem truth_close {ftz : Bool} {h o dim : Nat} {T : TruthOrders} {U : SumTree} {rows qrows : List Bytes} (H : FloatRows ftz h o dim T U rows qrows)
    {v u : Bytes} (hv : v ∈ qrows) (hu : u ∈ rows) (q g : Nat) :
    Spec.Finite (truthF32 ftz T false q g (Spec.valuesOf Elem.float.size dim (elemF32 .float) v) (Spec.valuesOf Elem.float.size dim (elemF32 .float) u)) ∧
    |value (truthF32 ftz T false q g (Spec.valuesOf Elem.float.size dim (elemF32 .float) v) (Spec.valuesOf Elem.float.size dim (elemF32 .float) u)) -
      fileSq .float dim v u| ≤ fileErr ftz h o dim v u := by
  obtain ⟨r, e1, h1, h2⟩ := C94_expand_partial ftz (h := h) (o := o) (Tx := T.prod q g) (Tp := T.point g) (Tq := T.query q) (n := dim)
    (p := Spec.valuesOf Elem.float.size dim (elemF32 .float) u) (q := Spec.valuesOf Elem.float.size dim (elemF32 .float) v)
    ⟨⟨(H.prod q g).1, (H.point g).1, (H.query q).1⟩, ⟨(H.prod q g).2.1, (H.point g).2.1, (H.query q).2.1⟩,
      ⟨(H.prod q g).2.2, (H.point g).2.2, (H.query q).2.2⟩, H.small, valuesOf_length _ _ _ _, valuesOf_length _ _ _ _,
      H.plain u (List.mem_append_left _ hu), H.plain v (List.mem_append_right _ hv), by rw [float_norm, float_norm]; exact H.norms u hu v hv⟩
  have e2 : truthF32 ftz T false q g (Spec.valuesOf Elem.float.size dim (elemF32 .float) v) (Spec.valuesOf Elem.float.size dim (elemF32 .float) u) = r := by
    unfold truthF32
    simp only [Bool.false_eq_true, if_false]
    rw [e1]
  rw [e2]
  refine ⟨h1, ?_⟩
  rw [float_sq, fileSq_comm] at h2
  refine h2.trans (le_of_eq ?_)
  unfold expandErr fileErr
  rw [float_norm, float_norm, add_comm (fileNorm .float dim u)]

theorem sqDistVal_pad (m : Nat) {a b : List F32} (h : a.length = b.length) :
    sqDistVal (a ++ List.replicate m F32.zero) (b ++ List.replicate m F32.zero) = sqDistVal a b := by
  unfold sqDistVal
  rw [List.zipWith_append h, List.sum_append, List.zipWith_replicate, sub_self]
  simp

/-- The distances of an index up to rounding. -/
theorem index_close {ftz : Bool} {h o dim : Nat} {T : TruthOrders} {U : SumTree} {rows qrows : List Bytes} (H : FloatRows ftz h o dim T U rows qrows)
    {v u : Bytes} (hv : v ∈ qrows) (hu : u ∈ rows) (lv : v.length = dim * 4) (lu : u.length = dim * 4) :
    Spec.Finite (cmpF32 ftz U (roundUp8 dim) .l2 (padTo (roundUp8 dim * 4) v) (padTo (roundUp8 dim * 4) u)) ∧
    (cmpF32 ftz U (roundUp8 dim) .l2 (padTo (roundUp8 dim * 4) v) (padTo (roundUp8 dim * 4) u)).lt F32.fmax = true ∧
    |value (cmpF32 ftz U (roundUp8 dim) .l2 (padTo (roundUp8 dim * 4) v) (padTo (roundUp8 dim * 4) u)) - fileSq .float dim v u| ≤ fileErr ftz h o dim v u := by
  have hle : dim ≤ roundUp8 dim := (roundUp8_spec dim).1
  have hz : Plain ftz F32.zero := ⟨by unfold Spec.Finite; decide, fun _ => Or.inl value_zero'⟩
  have hp : ∀ r ∈ rows ++ qrows, ∀ x ∈ Spec.valuesOf Elem.float.size dim (elemF32 .float) r ++ List.replicate (roundUp8 dim - dim) F32.zero, Plain ftz x := by
    intro r hr x hx
    rcases List.mem_append.1 hx with hx | hx
    · exact H.plain r hr x hx
    · rw [(List.mem_replicate.1 hx).2]; exact hz
  have hsq : sqDistVal (Spec.valuesOf Elem.float.size dim (elemF32 .float) v ++ List.replicate (roundUp8 dim - dim) F32.zero)
      (Spec.valuesOf Elem.float.size dim (elemF32 .float) u ++ List.replicate (roundUp8 dim - dim) F32.zero) = fileSq .float dim v u := by
    rw [sqDistVal_pad _ (by rw [valuesOf_length, valuesOf_length]), float_sq]
  have hn := H.norms u hu v hv
  have hb := fileSq_norm .float dim v u
  have hlen : ∀ r, (Spec.valuesOf Elem.float.size dim (elemF32 .float) r ++ List.replicate (roundUp8 dim - dim) F32.zero).length = roundUp8 dim := by
    intro r
    rw [List.length_append, valuesOf_length, List.length_replicate]
    omega
  obtain ⟨h1, h2, h3⟩ := l2Cmp_close (ftz := ftz) (T := U) (n := roundUp8 dim)
    (q := Spec.valuesOf Elem.float.size dim (elemF32 .float) v ++ List.replicate (roundUp8 dim - dim) F32.zero)
    (v := Spec.valuesOf Elem.float.size dim (elemF32 .float) u ++ List.replicate (roundUp8 dim - dim) F32.zero)
    ⟨H.index.1, hlen _, hlen _, hp v (List.mem_append_right _ hv), hp u (List.mem_append_left _ hu), by have := H.index.2.1; have := H.small.1; omega,
      by have := H.index.2.2; have := H.small.2.2; omega, by rw [hsq]; linarith⟩
  have key : cmpF32 ftz U (roundUp8 dim) .l2 (padTo (roundUp8 dim * 4) v) (padTo (roundUp8 dim * 4) u) =
      l2Cmp ftz U (Spec.valuesOf Elem.float.size dim (elemF32 .float) v ++ List.replicate (roundUp8 dim - dim) F32.zero)
        (Spec.valuesOf Elem.float.size dim (elemF32 .float) u ++ List.replicate (roundUp8 dim - dim) F32.zero) := by
    unfold cmpF32 l2Cmp
    simp only
    rw [floats_padTo lv hle, floats_padTo lu hle]
    generalize l2F32 ftz U _ _ = z
    cases z <;> rfl
  rw [key]
  refine ⟨h1, h2, ?_⟩
  rw [hsq] at h3
  refine h3.trans ?_
  unfold l2Err fileErr
  rw [hsq]
  have hh : (U.height : ℚ) ≤ h := by exact_mod_cast H.index.2.1
  have ho : (U.ops : ℚ) ≤ o := by exact_mod_cast H.index.2.2
  have hs0 : 0 ≤ fileSq .float dim v u := Finset.sum_nonneg (fun d _ => by positivity)
  have ht : (if ftz then 2 ^ (-124 : Int) else 2 ^ (-148 : Int) : ℚ) ≤ (if ftz then 2 ^ (-121 : Int) else 2 ^ (-145 : Int)) := by cases ftz <;> norm_num
  have ht0 : (0 : ℚ) ≤ (if ftz then 2 ^ (-124 : Int) else 2 ^ (-148 : Int)) := by cases ftz <;> norm_num
  have e1 : ((h : ℚ) + 3) * 2 ^ (-22 : Int) * (fileNorm .float dim v + fileNorm .float dim u) =
      ((h : ℚ) + 3) * 2 ^ (-23 : Int) * (2 * (fileNorm .float dim v + fileNorm .float dim u)) := by
    rw [show (2 : ℚ) ^ (-22 : Int) = 2 * 2 ^ (-23 : Int) by norm_num]
    ring
  rw [e1]
  gcongr

/-! ## Order -/

/-- Distances apart by more than the errors, or without errors. -/
def Apart (n : Nat) (D E : Nat → ℚ) : Prop := ∀ i < n, ∀ j < n, i ≠ j → E i + E j < |D i - D j| ∨ E i + E j = 0

theorem apart_lt {n : Nat} {t : Nat → F32} {D E : Nat → ℚ} (ht : ∀ i < n, Spec.Finite (t i) ∧ |value (t i) - D i| ≤ E i) (ha : Apart n D E)
    {i j : Nat} (hi : i < n) (hj : j < n) : (t i).lt (t j) = true ↔ D i < D j := by
  by_cases hij : i = j
  · subst hij
    rw [lt_iff_value (ht i hi).1 (ht i hi).1]
    constructor <;> exact fun h => absurd h (lt_irrefl _)
  rw [lt_iff_value (ht i hi).1 (ht j hj).1]
  have h1 := abs_le.1 (ht i hi).2
  have h2 := abs_le.1 (ht j hj).2
  have n1 := (abs_nonneg _).trans (ht i hi).2
  have n2 := (abs_nonneg _).trans (ht j hj).2
  rcases ha i hi j hj hij with h | h
  · rcases lt_abs.1 h with h | h
    · constructor <;> intro h' <;> linarith
    · constructor <;> intro h' <;> linarith
  · have z1 : E i = 0 := by linarith
    have z2 : E j = 0 := by linarith
    rw [z1] at h1
    rw [z2] at h2
    constructor <;> intro h' <;> linarith

theorem apart_le {n : Nat} {t : Nat → F32} {D E : Nat → ℚ} (ht : ∀ i < n, Spec.Finite (t i) ∧ |value (t i) - D i| ≤ E i) (ha : Apart n D E)
    {i j : Nat} (hi : i < n) (hj : j < n) : (t i).le (t j) = true ↔ D i ≤ D j := by
  rw [le_iff_value (ht i hi).1 (ht j hj).1, ← not_lt, ← not_lt, ← apart_lt ht ha hj hi, lt_iff_value (ht j hj).1 (ht i hi).1]

theorem apart_same {n : Nat} {t f : Nat → F32} {D E : Nat → ℚ} (ht : ∀ i < n, Spec.Finite (t i) ∧ |value (t i) - D i| ≤ E i)
    (hf : ∀ i < n, Spec.Finite (f i) ∧ |value (f i) - D i| ≤ E i) (ha : Apart n D E) {i j : Nat} (hi : i < n) (hj : j < n) :
    (t i).lt (t j) = (f i).lt (f j) := by
  rw [Bool.eq_iff_iff, apart_lt ht ha hi hj, apart_lt hf ha hi hj]

theorem apart_ties {K k n : Nat} {t : Nat → F32} {D E : Nat → ℚ} (ht : ∀ i < n, Spec.Finite (t i) ∧ |value (t i) - D i| ≤ E i) (ha : Apart n D E)
    (h : ExactTiesFit K k n D) : Spec.TiesFit K k n t := by
  intro g hg
  unfold Spec.trueNear at hg
  obtain ⟨hgn, hg⟩ := Finset.mem_filter.1 hg
  have hgn := Finset.mem_range.1 hgn
  have e1 : (Finset.range n).filter (fun i => (t i).lt (t g) = true) = (Finset.range n).filter (fun i => D i < D g) :=
    Finset.filter_congr (fun i hi => apart_lt ht ha (Finset.mem_range.1 hi) hgn)
  have e2 : (Finset.range n).filter (fun i => (t i).le (t g) = true) = (Finset.range n).filter (fun i => D i ≤ D g) :=
    Finset.filter_congr (fun i hi => apart_le ht ha (Finset.mem_range.1 hi) hgn)
  rw [e1] at hg
  rw [e2]
  exact h g hgn hg

/-- Without equal distances the ties fit. -/
theorem distinct_ties {K k n : Nat} {D : Nat → ℚ} (hK : K ≤ k) (h : ∀ i < n, ∀ j < n, i ≠ j → D i ≠ D j) : ExactTiesFit K k n D := by
  intro g hg hlt
  have : (Finset.range n).filter (fun i => D i ≤ D g) = insert g ((Finset.range n).filter (fun i => D i < D g)) := by
    ext i
    simp only [Finset.mem_filter, Finset.mem_range, Finset.mem_insert]
    constructor
    · rintro ⟨h1, h2⟩
      by_cases hi : i = g
      · exact Or.inl hi
      · exact Or.inr ⟨h1, lt_of_le_of_ne h2 (h i h1 g hg hi)⟩
    · rintro (rfl | ⟨h1, h2⟩)
      · exact ⟨hg, le_refl _⟩
      · exact ⟨h1, h2.le⟩
  rw [this]
  exact (Finset.card_insert_le _ _).trans (by omega)

/-! ## The ground-truth program -/

/-- What the program is given (`TruthInput` without the condition on the distances). -/
structure TruthFiles (env : TruthEnv) (e : Elem) (dim : Nat) (rows qrows : List Bytes) (k : Nat) : Prop where
  part : 0 < env.partSize
  mat : Spec.Matrix e.size dim rows
  qmat : Spec.Matrix e.size dim qrows
  dimLt : dim < 4294967296
  some : 0 < rows.length
  few : rows.length < 2147483648
  fewq : qrows.length < 2147483648
  onePart : qrows.length ≤ env.partSize
  kpos : 0 < k
  klast : k ≤ Spec.lastPart env.partSize rows.length
  room : qrows.length * k < 1152921504606846975
  heap : ∀ p q, IsHeapPick (env.pick p q)
  sort : IsPairSort env.sortP

/-- The exact distance of query `c` and point `i`. -/
def exactSq (e : Elem) (dim : Nat) (rows qrows : List Bytes) (c i : Nat) : ℚ := fileSq e dim (rowAt qrows c) (rowAt rows i)

/-- The distances that the ground-truth program computes are finite and within `E` of the exact ones. -/
def TruthClose (env : TruthEnv) (e : Elem) (dim : Nat) (rows qrows : List Bytes) (E : Nat → Nat → ℚ) : Prop :=
  ∀ c < qrows.length, ∀ i < rows.length, Spec.Finite (Spec.truthDist env e false dim rows qrows c i) ∧
    |value (Spec.truthDist env e false dim rows qrows c i) - exactSq e dim rows qrows c i| ≤ E c i

theorem truthFiles_input {env : TruthEnv} {e : Elem} {dim : Nat} {rows qrows : List Bytes} {k : Nat} {E : Nat → Nat → ℚ} {m : Bytes}
    (h : TruthFiles env e dim rows qrows k) (hE : TruthClose env e dim rows qrows E) (hm : m ≠ ascii "mips") :
    TruthInput env e (m = ascii "mips") dim rows qrows k := by
  rw [decide_eq_false hm]
  exact ⟨h.part, h.mat, h.qmat, h.dimLt, h.some, h.few, h.fewq, h.onePart, h.kpos, h.klast, h.room, h.heap, h.sort,
    fun q hq g hg => finite_isNum (hE q hq g hg).1⟩

theorem rowAt_mem {rows : List Bytes} {i : Nat} (h : i < rows.length) : rowAt rows i ∈ rows := by
  unfold rowAt
  rw [List.getD_eq_getElem?_getD, List.getElem?_eq_getElem h]
  exact List.getElem_mem h

/-- The program computes in `float` arithmetic, with the orders of additions `T`. -/
structure TruthFloat (env : TruthEnv) (ftz : Bool) (T : TruthOrders) : Prop where
  elem : env.elem = elemF32
  dist : env.dist = truthF32 ftz T

theorem bytes_close {env : TruthEnv} {ftz : Bool} {T : TruthOrders} (hf : TruthFloat env ftz T) {e : Elem} {dim : Nat} (hd : ByteDim e dim)
    (rows qrows : List Bytes) (hT : ∀ q g, (T.prod q g).Sums dim) (hp : ∀ g, (T.point g).Sums dim) (hq : ∀ q, (T.query q).Sums dim) :
    TruthClose env e dim rows qrows (fun _ _ => 0) := by
  intro c _ i _
  unfold Spec.truthDist exactSq
  rw [hf.elem, hf.dist]
  obtain ⟨h1, h2⟩ := C95_truth_exact ftz hd (hT c i) (hp i) (hq c) (rowAt qrows c) (rowAt rows i)
  exact ⟨h1, by rw [h2, sub_self, abs_zero]⟩

theorem floats_close {env : TruthEnv} {ftz : Bool} {T : TruthOrders} (hf : TruthFloat env ftz T) {h o dim : Nat} {U : SumTree} {rows qrows : List Bytes}
    (H : FloatRows ftz h o dim T U rows qrows) :
    TruthClose env .float dim rows qrows (fun c i => fileErr ftz h o dim (rowAt qrows c) (rowAt rows i)) := by
  intro c hc i hi
  unfold Spec.truthDist exactSq
  rw [hf.elem, hf.dist]
  exact truth_close H (rowAt_mem hc) (rowAt_mem hi) c i

/-- Every query gets its nearest points, up to errors. -/
theorem truth_written {env : TruthEnv} {e : Elem} {a0 t b q kt o m : Bytes} {dim : Nat} {rows qrows : List Bytes} {k : Nat} {E : Nat → Nat → ℚ}
    {fs : FS Bytes} (ht : elemArg t = some e) (hk : Spec.NumText kt k) (hk31 : k < 2147483648) (hm : m ≠ ascii "mips")
    (hb : fs b = some (Spec.binFile dim rows)) (hq : fs q = some (Spec.binFile dim qrows))
    (h : TruthFiles env e dim rows qrows k) (hE : TruthClose env e dim rows qrows E) :
    ∃ ops out, truthMain env [a0, t, b, q, kt, o, m] fs = .ok (.run ops) ∧ out.length = qrows.length ∧
      (∀ i row, out[i]? = some row → CloseNearest k (Finset.range rows.length) (exactSq e dim rows qrows i) (E i) row) ∧
      ∀ fs1, runOps ops fs1 o = some (Spec.truthBytes k out) ∧ ∀ p, p ≠ o → runOps ops fs1 p = fs1 p := by
  obtain ⟨ops, out, e1, e2, e3, e4⟩ := C85_truth_partial (a0 := a0) (o := o) ht hk hk31 hb hq (truthFiles_input h hE hm)
  refine ⟨ops, out, e1, e2, fun i row hr => ?_, fun fs1 => ?_⟩
  · have hi : i < qrows.length := by
      rw [← e2]
      by_contra hc
      rw [List.getElem?_eq_none (by omega)] at hr
      exact absurd hr (by simp)
    have := e3 i row hr
    rw [decide_eq_false hm] at this
    exact closeNearest this (fun g hg => hE i hi g (Finset.mem_range.1 hg))
  · have := e4 fs1
    rw [decide_eq_false hm] at this
    have hs : Spec.signed false out = out := by
      unfold Spec.signed
      simp
    rw [hs] at this
    exact this

/-- **C95.** For files of bytes of dimension up to 258, the ground-truth program, computing in `float` arithmetic in
any order, writes for every query `k` exactly nearest points with their exact squared distances. -/
theorem C95_truth_bytes {env : TruthEnv} {ftz : Bool} {T : TruthOrders} (hf : TruthFloat env ftz T) {e : Elem} {a0 t b q kt o m : Bytes} {dim : Nat}
    (hd : ByteDim e dim) (hT : ∀ q g, (T.prod q g).Sums dim) (hp : ∀ g, (T.point g).Sums dim) (hQ : ∀ q, (T.query q).Sums dim)
    {rows qrows : List Bytes} {k : Nat}
    {fs : FS Bytes} (ht : elemArg t = some e) (hk : Spec.NumText kt k) (hk31 : k < 2147483648) (hm : m ≠ ascii "mips")
    (hb : fs b = some (Spec.binFile dim rows)) (hq : fs q = some (Spec.binFile dim qrows)) (h : TruthFiles env e dim rows qrows k) :
    ∃ ops out, truthMain env [a0, t, b, q, kt, o, m] fs = .ok (.run ops) ∧ out.length = qrows.length ∧
      (∀ i row, out[i]? = some row → CloseNearest k (Finset.range rows.length) (fun g => fileSq e dim (rowAt qrows i) (rowAt rows g)) (fun _ => 0) row) ∧
      ∀ fs1, runOps ops fs1 o = some (Spec.truthBytes k out) ∧ ∀ p, p ≠ o → runOps ops fs1 p = fs1 p :=
  truth_written ht hk hk31 hm hb hq h (bytes_close hf hd rows qrows hT hp hQ)

/-- **C95.** For `float` files the points are the nearest ones up to the errors.
Missing for the exactly nearest points: distances that differ by less than the errors may be taken in the wrong order (C94_truth_wrong). -/
theorem C95_truth_float_partial {env : TruthEnv} {ftz : Bool} {T : TruthOrders} (hf : TruthFloat env ftz T) {a0 t b q kt o m : Bytes} {h' o' dim : Nat}
    {U : SumTree} {rows qrows : List Bytes} {k : Nat} (H : FloatRows ftz h' o' dim T U rows qrows)
    {fs : FS Bytes} (ht : elemArg t = some .float) (hk : Spec.NumText kt k) (hk31 : k < 2147483648) (hm : m ≠ ascii "mips")
    (hb : fs b = some (Spec.binFile dim rows)) (hq : fs q = some (Spec.binFile dim qrows)) (h : TruthFiles env .float dim rows qrows k) :
    ∃ ops out, truthMain env [a0, t, b, q, kt, o, m] fs = .ok (.run ops) ∧ out.length = qrows.length ∧
      (∀ i row, out[i]? = some row → CloseNearest k (Finset.range rows.length) (fun g => fileSq .float dim (rowAt qrows i) (rowAt rows g))
        (fun g => fileErr ftz h' o' dim (rowAt qrows i) (rowAt rows g)) row) ∧
      ∀ fs1, runOps ops fs1 o = some (Spec.truthBytes k out) ∧ ∀ p, p ≠ o → runOps ops fs1 p = fs1 p :=
  truth_written ht hk hk31 hm hb hq h (floats_close hf H)

/-! ## The chain of programs -/

/-- The distances that an index computes are within `E` of the exact ones. -/
def IndexClose (cmp : Bytes → Bytes → F32) (e : Elem) (dim : Nat) (rows qrows : List Bytes) (E : Nat → Nat → ℚ) : Prop :=
  ∀ c < qrows.length, ∀ i < rows.length,
    Spec.Finite (Spec.fileDist cmp e.size dim rows (Spec.queryVec e.size dim (roundUp8 dim) qrows c) i) ∧
    (Spec.fileDist cmp e.size dim rows (Spec.queryVec e.size dim (roundUp8 dim) qrows c) i).lt F32.fmax = true ∧
    |value (Spec.fileDist cmp e.size dim rows (Spec.queryVec e.size dim (roundUp8 dim) qrows c) i) - exactSq e dim rows qrows c i| ≤ E c i

theorem queryVec_row {es dim : Nat} {qrows : List Bytes} (h : Spec.Matrix es dim qrows) {c : Nat} (hc : c < qrows.length) :
    Spec.queryVec es dim (roundUp8 dim) qrows c = padTo (roundUp8 dim * es) (rowAt qrows c) := by
  unfold Spec.queryVec
  have hl : (rowAt qrows c).length = dim * es := h _ (rowAt_mem hc)
  have hle : dim * es ≤ roundUp8 dim * es := Nat.mul_le_mul_right _ (roundUp8_spec dim).1
  show (padTo (roundUp8 dim * es) (rowAt qrows c)).take (roundUp8 dim * es) = _
  exact List.take_of_length_le (by rw [padTo_len (by omega)])

theorem index_bytes (ftz : Bool) (U : SumTree) {e : Elem} {dim : Nat} (hd : ByteDim e dim) {c : DistClass} (hc : getDistance e .l2 = .ok c)
    {rows qrows : List Bytes} (hr : Spec.Matrix e.size dim rows) (hq : Spec.Matrix e.size dim qrows) :
    IndexClose (cmpF32 ftz U (roundUp8 dim) c) e dim rows qrows (fun _ _ => 0) := by
  have hes : e.size = 1 := by rcases hd.1 with rfl | rfl <;> rfl
  intro k hk i hi
  rw [queryVec_row hq hk]
  have h1 : (rowAt qrows k).length = dim := by rw [hq _ (rowAt_mem hk), hes, Nat.mul_one]
  have h2 : (rowAt rows i).length = dim := by rw [hr _ (rowAt_mem hi), hes, Nat.mul_one]
  obtain ⟨a1, a2, a3⟩ := C95_index_exact ftz U hd hc h1 h2
  refine ⟨a1, a2, ?_⟩
  change |value (cmpF32 ftz U (roundUp8 dim) c _ (padTo (roundUp8 dim * e.size) (rowAt rows i))) - _| ≤ 0
  rw [a3]
  unfold exactSq
  rw [sub_self, abs_zero]

theorem index_floats {ftz : Bool} {h o dim : Nat} {T : TruthOrders} {U : SumTree} {rows qrows : List Bytes}
    (H : FloatRows ftz h o dim T U rows qrows) (hr : Spec.Matrix Elem.float.size dim rows) (hq : Spec.Matrix Elem.float.size dim qrows) :
    IndexClose (cmpF32 ftz U (roundUp8 dim) .l2) .float dim rows qrows (fun c i => fileErr ftz h o dim (rowAt qrows c) (rowAt rows i)) := by
  intro k hk i hi
  rw [queryVec_row hq hk]
  exact index_close H (rowAt_mem hk) (rowAt_mem hi) (hq _ (rowAt_mem hk)) (hr _ (rowAt_mem hi))

/-- The two programs agree on the order of the distances of every query. -/
theorem chain_same {tenv : TruthEnv} {cmp : Bytes → Bytes → F32} {e : Elem} {dim : Nat} {rows qrows : List Bytes} {E : Nat → Nat → ℚ}
    (hT : TruthClose tenv e dim rows qrows E) (hI : IndexClose cmp e dim rows qrows E)
    (ha : ∀ c < qrows.length, Apart rows.length (exactSq e dim rows qrows c) (E c)) :
    ∀ c < qrows.length, ∀ i < rows.length, ∀ j < rows.length,
      (Spec.truthDist tenv e false dim rows qrows c i).lt (Spec.truthDist tenv e false dim rows qrows c j) =
      (Spec.fileDist cmp e.size dim rows (Spec.queryVec e.size dim (roundUp8 dim) qrows c) i).lt
        (Spec.fileDist cmp e.size dim rows (Spec.queryVec e.size dim (roundUp8 dim) qrows c) j) :=
  fun c hc _ hi _ hj => apart_same (t := Spec.truthDist tenv e false dim rows qrows c)
    (f := Spec.fileDist cmp e.size dim rows (Spec.queryVec e.size dim (roundUp8 dim) qrows c))
    (fun i hi => hT c hc i hi) (fun i hi => ⟨(hI c hc i hi).1, (hI c hc i hi).2.2⟩) (ha c hc) hi hj

/-- Files and orders of additions for which the programs agree: bytes in dimensions without rounding errors, or `float`s whose distances to
a query are apart by more than the errors. -/
def ChainData (ftz : Bool) (T : TruthOrders) (U : SumTree) (e : Elem) (dim : Nat) (rows qrows : List Bytes) : Prop :=
  (ByteDim e dim ∧ (∀ q g, (T.prod q g).Sums dim) ∧ (∀ g, (T.point g).Sums dim) ∧ ∀ q, (T.query q).Sums dim) ∨
  (e = .float ∧ ∃ h o, FloatRows ftz h o dim T U rows qrows ∧ ∀ q ∈ qrows, ∀ i < rows.length, ∀ j < rows.length, i ≠ j →
    fileErr ftz h o dim q (rowAt rows i) + fileErr ftz h o dim q (rowAt rows j) < |fileSq .float dim q (rowAt rows i) - fileSq .float dim q (rowAt rows j)|)

theorem chainData_close {ftz : Bool} {T : TruthOrders} {U : SumTree} {e : Elem} {dim : Nat} {rows qrows : List Bytes} (h : ChainData ftz T U e dim rows qrows)
    {tenv : TruthEnv} (hf : TruthFloat tenv ftz T) {c : DistClass} (hc : getDistance e .l2 = .ok c)
    (hr : Spec.Matrix e.size dim rows) (hq : Spec.Matrix e.size dim qrows) :
    ∃ E, TruthClose tenv e dim rows qrows E ∧ IndexClose (cmpF32 ftz U (roundUp8 dim) c) e dim rows qrows E ∧
      ∀ c < qrows.length, Apart rows.length (exactSq e dim rows qrows c) (E c) := by
  rcases h with ⟨hd, h1, h2, h3⟩ | ⟨rfl, h', o', H, hgap⟩
  · exact ⟨_, bytes_close hf hd rows qrows h1 h2 h3, index_bytes ftz U hd hc hr hq, fun c _ i _ j _ _ => Or.inr (add_zero _)⟩
  · cases hc
    exact ⟨_, floats_close hf H, index_floats H hr hq, fun c hc i hi j hj hij => Or.inl (hgap _ (rowAt_mem hc) i hi j hj hij)⟩

/-- **C95.** The chain of C86 with all distances computed in `float` arithmetic: if the ground truth is computed with `K` or more neighbours, enough for
the ties at exact distances, then the program that searches all clusters of the IVF index prints a recall of 100 percent, for bytes in dimensions without
rounding errors and for `float`s that are apart by more than the errors. -/
theorem C95_ivf (tenv : TruthEnv) (env : BuildEnv IvfTrain) (senv : SearchEnv) (pops : List F32 → List Nat) (fs : FS Bytes) (argv argv2 : List Bytes)
    (a : ListArgs F32) (s : SearchArgs) {a0 ty q kt m : Bytes} {k : Nat}
    (ha : ivfArgs argv = .ok (.run a)) (hs : searchIvfArgs argv2 = .ok (.run s)) (h1 : s.elem = a.elem) (h3 : s.index = a.save)
    (ftz : Bool) (T : TruthOrders) (U : SumTree) (dim : Nat) (htf : TruthFloat tenv ftz T) (hcf : env.cmp = cmpF32 ftz U (roundUp8 dim)) (hcmp : senv.cmp = env.cmp)
    (hsl : senv.sortL = env.sortL) (hsort : IsStrSort env.sortL) (hj : env.junk.WF) (hj' : senv.junk.WF)
    (rows : List Bytes) (labelFile : Option Bytes) (lab : Nat → List Label) (hb : fs a.data = some (Spec.binFile dim rows))
    (hlf : LabelFileArg fs a.labels labelFile) (hin : InputOK a.elem.size dim rows (Spec.binFile dim rows) [] labelFile lab) (hdim : dim ≤ 4294967288)
    (y : F32) (hy : toF32 a.last.text = .ok y) (cs : Bytes) (crows : List Bytes)
    (htrain : ∀ o1, ctorObj env.sortL env.junk a.elem.size (some (Spec.binFile dim rows)) [] (labelFile.map some) = .ok o1 → env.run.train a.num y o1 = .ok cs)
    (hrun : (⟨a.num, cs, env.run.pops, env.run.sched⟩ : IvfRun).OK (roundUp8 dim) crows)
    (hcd : ∀ i, i < rows.length → CentreRow a.num (env.run.cdist cs a.num (roundUp8 dim) (Spec.padTo (roundUp8 dim * a.elem.size) (rows.getD i []))))
    (hpops : IsPopOrder pops) (hflt : s.filters = []) (hL : s.Ls = [a.num])
    (qrows : List Bytes) (qb : Bytes)
    (hS : (progOf senv s 1 dim qrows qb none).OK a.elem.size (roundUp8 dim) (fun p => if p = s.truth then none else fs p))
    (hdata : a.data ≠ s.truth) (hlabels : a.labels ≠ s.truth)
    (hqn : ∀ p, s.query ≠ ivfName a.save p) (htn : ∀ p, s.truth ≠ ivfName a.save p) (hK1 : 1 ≤ s.K)
    (hcq : ∀ k, k < qrows.length → CentreRow a.num (env.run.cdist cs a.num (roundUp8 dim) (Spec.queryVec a.elem.size dim (roundUp8 dim) qrows k)))
    (ht : elemArg ty = some a.elem) (hk : Spec.NumText kt k) (hk31 : k < 2147483648) (hKk : s.K ≤ k) (hm : m ≠ ascii "mips")
    (hqf : fs q = some (Spec.binFile dim qrows)) (htin : TruthFiles tenv a.elem dim rows qrows k) (hdat : ChainData ftz T U a.elem dim rows qrows)
    (hties : ∀ c < qrows.length, ExactTiesFit s.K k rows.length (fun i => fileSq a.elem dim (rowAt qrows c) (rowAt rows i))) :
    ∃ ops0 ops v ops', truthMain tenv [a0, ty, a.data, q, kt, s.truth, m] fs = .ok (.run ops0) ∧
      buildIvfMain env argv (runOps ops0 fs) = .ok (.run ops) ∧
      searchIvfMain senv env.run.cdist pops argv2 (runOps ops (runOps ops0 fs)) = .ok (.run ([some v], ops')) ∧
      |fval v - 100| ≤ 100 * (4 / 2 ^ 53) := by
  obtain ⟨d, hd⟩ : ∃ d, getDistance a.elem .l2 = .ok d := by cases a.elem <;> exact ⟨_, rfl⟩
  obtain ⟨E, c1, c2, c3⟩ := chainData_close hdat htf hd htin.mat htin.qmat
  refine C86_ivf tenv env senv pops fs argv argv2 a s ha hs h1 h3 d hd hcmp hsl hsort hj hj' dim rows labelFile lab hb hlf hin hdim y hy cs crows htrain hrun hcd
    hpops hflt hL dim qrows qb hS hdata hlabels hqn htn hK1 (fun k hk => ⟨fun i hi => ?_, hcq k hk⟩) ht hk hk31 hKk hqf (truthFiles_input htin c1 hm) ?_ ?_
  · rw [hcf]
    exact (c2 k hk i hi).2.1
  · rw [decide_eq_false hm, hcf]
    exact chain_same c1 c2 c3
  · rw [decide_eq_false hm]
    intro c hc
    exact apart_ties (fun i hi => c1 c hc i hi) (c3 c hc) (hties c hc)

/-! ## Examples -/

/-- Additions one after the other. -/
def exOrders (n : Nat) : TruthOrders := ⟨fun _ _ => serial n, fun _ => serial n, fun _ => serial n⟩

/-- The ground-truth program in `float` arithmetic. -/
def exFloatTruth (n : Nat) : TruthEnv := { exChainTruth with elem := elemF32, dist := truthF32 true (exOrders n) }

theorem exFloatTruth_float (n : Nat) : TruthFloat (exFloatTruth n) true (exOrders n) := ⟨rfl, rfl⟩

theorem exByteFiles : TruthFiles (exFloatTruth 1) .uint8 1 exRows10 [[51], [55]] 3 :=
  ⟨exChainInput.part, exChainInput.mat, exChainInput.qmat, exChainInput.dimLt, exChainInput.some, exChainInput.few, exChainInput.fewq, exChainInput.onePart,
    exChainInput.kpos, exChainInput.klast, exChainInput.room, exChainInput.heap, exChainInput.sort⟩

example := C95_truth_bytes (exFloatTruth_float 1) (e := .uint8) (a0 := ascii "truth") (t := ascii "uint8") (b := ascii "d") (q := ascii "q") (kt := ascii "3")
  (o := ascii "g") (m := ascii "l2") (dim := 1) (⟨Or.inr rfl, by decide⟩) (fun _ _ => serial_sums 1) (fun _ => serial_sums 1) (fun _ => serial_sums 1)
  (rows := exRows10) (qrows := [[51], [55]]) (k := 3) (fs := exCmdFs) (by decide +kernel) (atoi_ok_iff.1 (by decide +kernel : atoi (ascii "3") = .ok 3)).1 (by decide)
  (by decide) (by decide +kernel) (by decide +kernel) exByteFiles

/-- Two vectors of three signed bytes: (-1, 2, -128) and (1, 2, 127). -/
example : value (truthF32 true (exOrders 3) false 0 0 (Spec.valuesOf 1 3 (elemF32 .int8) [255, 2, 128]) (Spec.valuesOf 1 3 (elemF32 .int8) [1, 2, 127])) = 65029 ∧
    value (cmpF32 true (serial 8) 8 .l2Int8 (padTo 8 [255, 2, 128]) (padTo 8 [1, 2, 127])) = 65029 := by
  have h : fileSq .int8 3 [255, 2, 128] [1, 2, 127] = 65029 := by decide +kernel
  rw [← h]
  exact ⟨(C95_truth_exact true (T := exOrders 3) (e := .int8) (dim := 3) ⟨Or.inl rfl, by decide⟩ (q := 0) (g := 0) (serial_sums 3) (serial_sums 3)
      (serial_sums 3) [255, 2, 128] [1, 2, 127]).2,
    (C95_index_exact true (serial 8) (e := .int8) (dim := 3) ⟨Or.inl rfl, by decide⟩ (c := .l2Int8) rfl (a := [255, 2, 128]) (b := [1, 2, 127]) rfl rfl).2.2⟩

def exFloatBuild : BuildEnv IvfTrain := { exIvfEnv with cmp := cmpF32 true (serial 8) 8 }

def exFloatSearch : SearchEnv := { exSearchEnv with cmp := cmpF32 true (serial 8) 8 }

example : ∃ ops0 ops v ops', truthMain (exFloatTruth 1) [ascii "truth", ascii "uint8", ascii "d", ascii "q", ascii "3", ascii "g", ascii "l2"] exCmdFs = .ok (.run ops0) ∧
    buildIvfMain exFloatBuild exIvfLine (runOps ops0 exCmdFs) = .ok (.run ops) ∧
    searchIvfMain exFloatSearch exCdist exPops exChainSearchLine (runOps ops (runOps ops0 exCmdFs)) = .ok (.run ([some v], ops')) ∧
    |fval v - 100| ≤ 100 * (4 / 2 ^ 53) :=
  C95_ivf (exFloatTruth 1) exFloatBuild exFloatSearch exPops exCmdFs exIvfLine exChainSearchLine ⟨.uint8, ascii "d", ascii "t", ascii "i", 2, ⟨0x3f000000#32⟩⟩
    ⟨.uint8, .l2, [], ascii "i", 1, ascii "q", ascii "g", 2, ascii "r", [], [2]⟩ (by decide +kernel) (by decide +kernel) rfl rfl true (exOrders 1) (serial 8) 1
    (exFloatTruth_float 1) rfl rfl rfl
    exStrSort_isStrSort exJunk_WF exJunk_WF exRows10 (some exLabels10) exLab (by decide +kernel) (Or.inr ⟨by decide, by simp, exCmdFs_q.2.2.2⟩)
    (by have h : Spec.binFile 1 exRows10 = exFile10 := by decide +kernel
        rw [h]; exact exInput10) (by decide) ⟨0x3f000000#32⟩ (by decide +kernel) exCrows.flatten exCrows (fun _ _ => rfl)
    ⟨by decide, by decide, rfl, by unfold Spec.Matrix; decide, rfl, by decide +kernel, exPops_isPopOrder, fun _ l => l.reverse_perm⟩
    (by
      have h : ∀ i < 10, ((exCdist exIvfRun.centers 2 8 (Spec.padTo 8 (exRows10.getD i []))).length = 2 ∧
        (∀ x ∈ exCdist exIvfRun.centers 2 8 (Spec.padTo 8 (exRows10.getD i [])), x.IsNum) ∧
        ∃ x ∈ exCdist exIvfRun.centers 2 8 (Spec.padTo 8 (exRows10.getD i [])), x.lt F32.fmax = true) := by decide +kernel
      exact fun i hi => ⟨(h i hi).1, (h i hi).2.1, (h i hi).2.2⟩)
    exPops_isPopOrder rfl rfl [[51], [55]] exQueries (exChainOK _ rfl rfl rfl rfl) (by decide +kernel) (by decide +kernel)
    (by
      rintro (- | p)
      · decide +kernel
      · exact (exCmdNames p).1)
    (by
      rintro (- | p)
      · decide +kernel
      · exact (exCmdNames p).2.1) (by decide)
    (by
      have h : ∀ k < 2, ((exCdist exIvfRun.centers 2 8 (Spec.queryVec 1 1 8 [[51], [55]] k)).length = 2 ∧
        (∀ x ∈ exCdist exIvfRun.centers 2 8 (Spec.queryVec 1 1 8 [[51], [55]] k), x.IsNum) ∧
        ∃ x ∈ exCdist exIvfRun.centers 2 8 (Spec.queryVec 1 1 8 [[51], [55]] k), x.lt F32.fmax = true) := by decide +kernel
      exact fun k hk => ⟨(h k hk).1, (h k hk).2.1, (h k hk).2.2⟩)
    (by decide +kernel) (atoi_ok_iff.1 (by decide +kernel : atoi (ascii "3") = .ok 3)).1 (by decide) (by decide) (by decide) (by decide +kernel) exByteFiles
    (Or.inl ⟨⟨Or.inr rfl, by decide⟩, fun _ _ => serial_sums 1, fun _ => serial_sums 1, fun _ => serial_sums 1⟩)
    (by
      have h : ∀ c < 2, ∀ g < 10, ((Finset.range 10).filter (fun i => fileSq .uint8 1 (rowAt [[51], [55]] c) (rowAt exRows10 i) <
          fileSq .uint8 1 (rowAt [[51], [55]] c) (rowAt exRows10 g))).card < 2 →
        ((Finset.range 10).filter (fun i => fileSq .uint8 1 (rowAt [[51], [55]] c) (rowAt exRows10 i) ≤
          fileSq .uint8 1 (rowAt [[51], [55]] c) (rowAt exRows10 g))).card ≤ 3 := by decide +kernel
      exact h)

/-! ### Floats -/

/-- The floats `(128 + b) / 4`. -/
def exFRow (b : UInt8) : Bytes := [0, 0, b, 66]

/-- 49, 50, 54, 46, 55, 45, 56, 44, 57, 43. -/
def exFloatRows : List Bytes := [exFRow 68, exFRow 72, exFRow 88, exFRow 56, exFRow 92, exFRow 52, exFRow 96, exFRow 48, exFRow 100, exFRow 44]

/-- 51.25 and 55.25. -/
def exFloatQueries : List Bytes := [exFRow 77, exFRow 93]

def exFloatFs : FS Bytes := fun p =>
  if p = ascii "d" then some (Spec.binFile 1 exFloatRows) else if p = ascii "t" then some exLabels10 else if p = ascii "q" then some (Spec.binFile 1 exFloatQueries) else none

def exBytesUsed : List UInt8 := [68, 72, 88, 56, 92, 52, 96, 48, 100, 44, 77, 93]

theorem exFRow_coordinate : ∀ b ∈ exBytesUsed, coordinate .float (exFRow b) 0 = (128 + b.toNat) / 4 := by decide +kernel

theorem exFRow_plain : ∀ b ∈ exBytesUsed, ∀ x ∈ Spec.valuesOf Elem.float.size 1 (elemF32 .float) (exFRow b), Plain true x := by
  intro b hb x hx
  have hx' : x = elemF32 .float (exFRow b) := by
    simpa [Spec.valuesOf, Elem.size, exFRow] using hx
  have hv : value x = (128 + b.toNat) / 4 := by
    rw [hx', ← exFRow_coordinate b hb]
    rfl
  refine ⟨?_, fun _ => Or.inr ?_⟩
  · rw [hx']
    unfold Spec.Finite
    simp only [exBytesUsed, List.mem_cons, List.not_mem_nil, or_false] at hb
    rcases hb with rfl | rfl | rfl | rfl | rfl | rfl | rfl | rfl | rfl | rfl | rfl | rfl <;> decide
  · rw [hv, abs_of_nonneg (by positivity)]
    have h1 : (2 : ℚ) ^ (-126 : Int) ≤ 1 := by norm_num
    have h2 : (0 : ℚ) ≤ b.toNat := by positivity
    linarith

theorem exFRow_norm : ∀ b ∈ exBytesUsed, fileNorm .float 1 (exFRow b) ≤ 3249 := by decide +kernel

theorem exRows_used : ∀ r ∈ exFloatRows ++ exFloatQueries, ∃ b ∈ exBytesUsed, r = exFRow b := by decide

theorem exFloat_rows : FloatRows true 8 16 1 (exOrders 1) (serial 8) exFloatRows exFloatQueries where
  prod := fun _ _ => ⟨serial_sums 1, by rw [show (exOrders 1).prod _ _ = serial 1 from rfl, serial_height]; decide, by rw [show (exOrders 1).prod _ _ = serial 1 from rfl, serial_ops]; decide⟩
  point := fun _ => ⟨serial_sums 1, by rw [show (exOrders 1).point _ = serial 1 from rfl, serial_height]; decide, by rw [show (exOrders 1).point _ = serial 1 from rfl, serial_ops]; decide⟩
  query := fun _ => ⟨serial_sums 1, by rw [show (exOrders 1).query _ = serial 1 from rfl, serial_height]; decide, by rw [show (exOrders 1).query _ = serial 1 from rfl, serial_ops]; decide⟩
  index := ⟨serial_sums 8, by rw [serial_height], by rw [serial_ops]⟩
  small := by norm_num
  plain := fun r hr => by
    obtain ⟨b, hb, rfl⟩ := exRows_used r hr
    exact exFRow_plain b hb
  norms := fun p hp q hq => by
    obtain ⟨b, hb, rfl⟩ := exRows_used p (List.mem_append_left _ hp)
    obtain ⟨c, hc, rfl⟩ := exRows_used q (List.mem_append_right _ hq)
    have h1 := exFRow_norm b hb
    have h2 := exFRow_norm c hc
    have h3 : (3249 + 3249 : ℚ) ≤ 2 ^ 120 := by norm_num
    linarith

theorem exFRow_err : ∀ b ∈ exBytesUsed, ∀ c ∈ exBytesUsed, fileErr true 8 16 1 (exFRow c) (exFRow b) ≤ 1 / 32 := by
  intro b hb c hc
  have h1 := exFRow_norm b hb
  have h2 := exFRow_norm c hc
  unfold fileErr
  have h3 : ((8 : Nat) + 3 : ℚ) * 2 ^ (-22 : Int) * (fileNorm .float 1 (exFRow c) + fileNorm .float 1 (exFRow b)) ≤ ((8 : Nat) + 3) * 2 ^ (-22 : Int) * (3249 + 3249) := by
    gcongr
  have h4 : ((8 : Nat) + 3 : ℚ) * 2 ^ (-22 : Int) * (3249 + 3249) + (16 : Nat) * (if true then 2 ^ (-121 : Int) else 2 ^ (-145 : Int)) ≤ 1 / 32 := by norm_num
  linarith

theorem exFRow_sq : ∀ b ∈ exBytesUsed, ∀ c ∈ exBytesUsed, fileSq .float 1 (exFRow c) (exFRow b) = (((128 + c.toNat) / 4 : ℚ) - (128 + b.toNat) / 4) ^ 2 := by
  intro b hb c hc
  unfold fileSq
  rw [Finset.sum_range_one, exFRow_coordinate b hb, exFRow_coordinate c hc]

theorem exRows_byte : ∀ i < 10, (exBytesUsed.getD i 0) ∈ exBytesUsed ∧ rowAt exFloatRows i = exFRow (exBytesUsed.getD i 0) := by decide

theorem exApart : ∀ c ∈ [(77 : UInt8), 93], ∀ i < 10, ∀ j < 10, i ≠ j →
    (1 / 16 : ℚ) < |(((128 + c.toNat) / 4 : ℚ) - (128 + (exBytesUsed.getD i 0).toNat) / 4) ^ 2 - (((128 + c.toNat) / 4 : ℚ) - (128 + (exBytesUsed.getD j 0).toNat) / 4) ^ 2| := by
  decide +kernel

theorem exFloat_data : ChainData true (exOrders 1) (serial 8) .float 1 exFloatRows exFloatQueries := by
  refine Or.inr ⟨rfl, 8, 16, exFloat_rows, fun q hq i hi j hj hij => ?_⟩
  obtain ⟨c, hc, hc', rfl⟩ : ∃ c ∈ [(77 : UInt8), 93], c ∈ exBytesUsed ∧ q = exFRow c := by
    simp only [exFloatQueries, List.mem_cons, List.not_mem_nil, or_false] at hq
    rcases hq with rfl | rfl
    · exact ⟨77, by simp, by decide, rfl⟩
    · exact ⟨93, by simp, by decide, rfl⟩
  obtain ⟨h1, e1⟩ := exRows_byte i hi
  obtain ⟨h2, e2⟩ := exRows_byte j hj
  rw [e1, e2, exFRow_sq _ h1 _ hc', exFRow_sq _ h2 _ hc']
  have k1 := exFRow_err _ h1 _ hc'
  have k2 := exFRow_err _ h2 _ hc'
  have k3 := exApart c hc i hi j hj hij
  linarith

theorem exFloatFiles : TruthFiles (exFloatTruth 1) .float 1 exFloatRows exFloatQueries 3 where
  part := by decide
  mat := by unfold Spec.Matrix; decide
  qmat := by unfold Spec.Matrix; decide
  dimLt := by decide
  some := by decide
  few := by decide
  fewq := by decide
  onePart := by decide
  kpos := by decide
  klast := by decide
  room := by decide
  heap := fun _ _ => exPick_isHeapPick
  sort := exPairSort_isPairSort

example := C95_truth_float_partial (exFloatTruth_float 1) (a0 := ascii "truth") (t := ascii "float") (b := ascii "d") (q := ascii "q") (kt := ascii "3")
  (o := ascii "g") (m := ascii "l2") exFloat_rows (k := 3) (fs := exFloatFs) (by decide +kernel) (atoi_ok_iff.1 (by decide +kernel : atoi (ascii "3") = .ok 3)).1 (by decide)
  (by decide) (by decide +kernel) (by decide +kernel) exFloatFiles

theorem exFloatInput : InputOK 4 1 exFloatRows (Spec.binFile 1 exFloatRows) [] (some exLabels10) exLab where
  file := by unfold Spec.BinFile; decide +kernel
  matrix := by unfold Spec.Matrix; decide
  size := by decide
  few := by decide
  dims := by decide
  bytes := by decide
  tagsLen := Or.inl rfl
  tagsLt := by simp
  labels := exInput10.labels

def exFloatLine : List Bytes := cmdWords ["build", "float", "d", "1", "t", "i", "2", "0.5"]

def exFloatSearchLine : List Bytes := cmdWords ["search", "float", "i", "8", "q", "g", "2", "r", "0", "2"]

theorem exFloatQueries_ok : QueryOK 4 1 exFloatQueries (Spec.binFile 1 exFloatQueries) :=
  ⟨⟨by decide +kernel, by decide +kernel, by decide +kernel, by decide +kernel⟩, by unfold Spec.Matrix; decide, by decide, by decide, by decide, by decide⟩

theorem exFloatOK (s : SearchArgs) (hq : s.query = ascii "q") (ht : s.truth = ascii "g") (hK : s.K = 2) (hLs : s.Ls = [2]) :
    (progOf exFloatSearch s 1 1 exFloatQueries (Spec.binFile 1 exFloatQueries) none).OK 4 8 (fun p => if p = ascii "g" then none else exFloatFs p) := by
  obtain ⟨elem, metric, data, index, levels, query, truth, K, pre, filters, Ls⟩ := s
  dsimp only at hq ht hK hLs
  subst hq ht hK hLs
  have hqf : (if ascii "q" = ascii "g" then none else exFloatFs (ascii "q")) = some (Spec.binFile 1 exFloatQueries) := by decide +kernel
  refine ⟨fun L hL L' hL' h => ?_, hqf, exFloatQueries_ok, (by decide : 1 ≤ 2), (by decide : 8 ≤ roundUp8 1),
    (by decide : 2 < 4294967296), (by decide : 2 * 2 ≤ 2305843009213693951), (by decide +kernel : (if ascii "g" = ascii "g" then none else exFloatFs (ascii "g")) = none) ▸ rfl,
    rfl, rfl, rfl, rfl, fun _ => (by decide : [1, 0].Perm (List.range 2)), ⟨2, List.mem_singleton.mpr rfl, (by decide : 1 ≤ 2)⟩⟩
  change L ∈ [2] at hL
  change L' ∈ [2] at hL'
  rw [List.mem_singleton] at hL hL'
  rw [hL, hL']

theorem exFloat_chain : ∃ ops0 ops v ops', truthMain (exFloatTruth 1) [ascii "truth", ascii "float", ascii "d", ascii "q", ascii "3", ascii "g", ascii "l2"] exFloatFs = .ok (.run ops0) ∧
    buildIvfMain exFloatBuild exFloatLine (runOps ops0 exFloatFs) = .ok (.run ops) ∧
    searchIvfMain exFloatSearch exCdist exPops exFloatSearchLine (runOps ops (runOps ops0 exFloatFs)) = .ok (.run ([some v], ops')) ∧
    |fval v - 100| ≤ 100 * (4 / 2 ^ 53) :=
  C95_ivf (exFloatTruth 1) exFloatBuild exFloatSearch exPops exFloatFs exFloatLine exFloatSearchLine ⟨.float, ascii "d", ascii "t", ascii "i", 2, ⟨0x3f000000#32⟩⟩
    ⟨.float, .l2, [], ascii "i", 1, ascii "q", ascii "g", 2, ascii "r", [], [2]⟩ (by decide +kernel) (by decide +kernel) rfl rfl true (exOrders 1) (serial 8) 1
    (exFloatTruth_float 1) rfl rfl rfl
    exStrSort_isStrSort exJunk_WF exJunk_WF exFloatRows (some exLabels10) exLab (by decide +kernel) (Or.inr ⟨by decide, by simp, by decide +kernel⟩)
    exFloatInput (by decide) ⟨0x3f000000#32⟩ (by decide +kernel) exCrows.flatten exCrows (fun _ _ => rfl)
    ⟨by decide, by decide, rfl, by unfold Spec.Matrix; decide, rfl, by decide +kernel, exPops_isPopOrder, fun _ l => l.reverse_perm⟩
    (by
      have h : ∀ i < 10, ((exCdist exIvfRun.centers 2 8 (Spec.padTo 32 (exFloatRows.getD i []))).length = 2 ∧
        (∀ x ∈ exCdist exIvfRun.centers 2 8 (Spec.padTo 32 (exFloatRows.getD i [])), x.IsNum) ∧
        ∃ x ∈ exCdist exIvfRun.centers 2 8 (Spec.padTo 32 (exFloatRows.getD i [])), x.lt F32.fmax = true) := by decide +kernel
      exact fun i hi => ⟨(h i hi).1, (h i hi).2.1, (h i hi).2.2⟩)
    exPops_isPopOrder rfl rfl exFloatQueries (Spec.binFile 1 exFloatQueries) (exFloatOK _ rfl rfl rfl rfl) (by decide +kernel) (by decide +kernel)
    (by
      rintro (- | p)
      · decide +kernel
      · exact (exCmdNames p).1)
    (by
      rintro (- | p)
      · decide +kernel
      · exact (exCmdNames p).2.1) (by decide)
    (by
      have h : ∀ k < 2, ((exCdist exIvfRun.centers 2 8 (Spec.queryVec 4 1 8 exFloatQueries k)).length = 2 ∧
        (∀ x ∈ exCdist exIvfRun.centers 2 8 (Spec.queryVec 4 1 8 exFloatQueries k), x.IsNum) ∧
        ∃ x ∈ exCdist exIvfRun.centers 2 8 (Spec.queryVec 4 1 8 exFloatQueries k), x.lt F32.fmax = true) := by decide +kernel
      exact fun k hk => ⟨(h k hk).1, (h k hk).2.1, (h k hk).2.2⟩)
    (by decide +kernel) (atoi_ok_iff.1 (by decide +kernel : atoi (ascii "3") = .ok 3)).1 (by decide) (by decide) (by decide) (by decide +kernel) exFloatFiles
    exFloat_data
    (by
      have h : ∀ c < 2, ∀ g < 10, ((Finset.range 10).filter (fun i => fileSq .float 1 (rowAt exFloatQueries c) (rowAt exFloatRows i) <
          fileSq .float 1 (rowAt exFloatQueries c) (rowAt exFloatRows g))).card < 2 →
        ((Finset.range 10).filter (fun i => fileSq .float 1 (rowAt exFloatQueries c) (rowAt exFloatRows i) ≤
          fileSq .float 1 (rowAt exFloatQueries c) (rowAt exFloatRows g))).card ≤ 3 := by decide +kernel
      exact h)

end Grann
