import Verif.Model.FloatArith
import Verif.Model.TruthProg
/-!
# The distances of the programs in `float` arithmetic

What the models of the programs take as a parameter: the conversion of a value of a file to `float`, the matrix of distances of
`compute_groundtruth` and the function behind `_distance->compare`.
-/

namespace Grann

/-- `(float) data_T[i]` (tests/utils/compute_groundtruth.cpp:254-255), from the bytes of the value. -/
def elemF32 : Elem → Bytes → F32
  | .float, b => ⟨BitVec.ofNat 32 (unle b)⟩
  | .uint8, b => F32.ofNat (unle b)
  | .int8, b => if unle b < 128 then F32.ofNat (unle b) else (F32.ofNat (256 - unle b)).neg

/-- The orders of the additions: of the product of query `q` and point `g`, of the norm of point `g`, of the norm of query `q`. -/
structure TruthOrders where
  prod : Nat → Nat → SumTree
  point : Nat → SumTree
  query : Nat → SumTree

/-- An element of `dist_matrix` of `compute_groundtruth` for query `q`, the vector `v`, and point `g`, the vector `u`
(tests/utils/compute_groundtruth.cpp:80-127): the expanded square, or the negative inner product. -/
def truthF32 (ftz : Bool) (T : TruthOrders) (mips : Bool) (q g : Nat) (v u : List F32) : F32 :=
  let r := if mips then dotF32 ftz (T.prod q g) u v >>= fun x => .ok x.neg
    else expandF32 ftz (T.prod q g) (T.point g) (T.query q) u v
  match r with
  | .ok x => x
  | .error _ => F32.nan

/-- The values of a `float` vector in memory. -/
def floatsOf (b : Bytes) : List F32 := (List.range (b.length / 4)).map (fun d => elemF32 .float ((b.drop (d * 4)).take 4))

/-- `_distance->compare(a, b, n)` (include/distance.h:41-79, 183-191), where `n` is `_aligned_dim`; `T` is the order of
the additions of the `float` distances, over `0, …, n - 1` in the theorems.  A read outside of the vectors gives a NaN here; the theorems are about vectors of `n` values. -/
def cmpF32 (ftz : Bool) (T : SumTree) (n : Nat) (c : DistClass) (a b : Bytes) : F32 :=
  let r := match c with
    | .l2 => l2F32 ftz T (floatsOf a) (floatsOf b)
    | .innerProduct | .fastL2 => dotF32 ftz T (floatsOf a) (floatsOf b) >>= fun x => .ok x.neg
    | .l2Int8 | .l2UInt8 => byteCompare c (a.map UInt8.toBitVec) (b.map UInt8.toBitVec) n
  match r with
  | .ok x => x
  | .error _ => F32.nan

end Grann
