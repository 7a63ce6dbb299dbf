import Verif.Model.FloatText
import Verif.Basic.Res
/-!
# `float` arithmetic

Addition, subtraction, multiplication and the fused multiply-add of IEEE-754 binary32: exact results rounded
to nearest, ties to even, with infinities and NaN.  `ftz` tells whether tiny results are flushed to zero, as
programs linked with `-Ofast` (CMakeLists.txt:177) ask the processor to do.  The processor then also reads tiny operands as zero; as no
operation gives a tiny result, this concerns only the data (`daz`).

Sums: the compiler may add in any order (`omp simd reduction`, `-Ofast`) and may fuse a multiplication with the
addition that follows it; so may the BLAS library.  A `SumTree` is one such way of evaluating a sum.
-/

namespace Grann

namespace F32

/-- The sign bit. -/
def sign (x : F32) : Bool := decide (2147483648 ≤ x.bits.toNat)

/-- The bits of exponent and fraction. -/
def mag (x : F32) : Nat := x.bits.toNat % 2147483648

/-- Not a number. -/
def isNan (x : F32) : Bool := decide (2139095040 < x.mag)

/-- Infinite. -/
def isInf (x : F32) : Bool := decide (x.mag = 2139095040)

/-- Sign and magnitude bits. -/
def pack (s : Bool) (m : Nat) : F32 := ⟨BitVec.ofNat 32 (m + if s then 2147483648 else 0)⟩

/-- The value of a finite float as a multiple of 2^-149. -/
def units (x : F32) : Int :=
  let u : Nat := if x.mag / 8388608 = 0 then x.mag else (8388608 + x.mag % 8388608) * 2 ^ (x.mag / 8388608 - 1)
  if x.sign then -(u : Int) else u

/-- The float for the exact result `n / 2 ^ k`; `s` is the sign of a zero result.  Results that rounding leaves
below 2^-126 are flushed to zero if `ftz` is set. -/
def round (ftz s : Bool) (n : Int) (k : Nat) : F32 :=
  pack (if n = 0 then s else decide (n < 0))
    (if ftz && decide (n.natAbs * 2 ^ 151 < 33554431 * 2 ^ k) then 0 else min (nearestBits n.natAbs (2 ^ k)) 2139095040)

/-- `-x`. -/
def neg (x : F32) : F32 := pack (!x.sign) x.mag

/-- `x + y`. -/
def add (ftz : Bool) (x y : F32) : F32 :=
  if x.isNan || y.isNan then nan
  else if x.isInf then (if y.isInf && x.sign != y.sign then nan else x)
  else if y.isInf then y
  else round ftz (x.sign && y.sign) (x.units + y.units) 149

/-- `x - y`. -/
def sub (ftz : Bool) (x y : F32) : F32 := add ftz x y.neg

/-- `x * y`. -/
def mul (ftz : Bool) (x y : F32) : F32 :=
  if x.isNan || y.isNan then nan
  else if x.isInf || y.isInf then (if x.mag = 0 ∨ y.mag = 0 then nan else pack (x.sign != y.sign) 2139095040)
  else round ftz (x.sign != y.sign) (x.units * y.units) 298

/-- `x * y + z`, rounded once. -/
def fma (ftz : Bool) (x y z : F32) : F32 :=
  if x.isNan || y.isNan || z.isNan then nan
  else if x.isInf || y.isInf then
    (if x.mag = 0 ∨ y.mag = 0 then nan
     else if z.isInf && (x.sign != y.sign) != z.sign then nan else pack (x.sign != y.sign) 2139095040)
  else if z.isInf then z
  else round ftz ((x.sign != y.sign) && z.sign) (x.units * y.units + z.units * 2 ^ 149) 298

end F32

/-- A way to evaluate `∑ x i * y i`. -/
inductive SumTree
  /-- the initial value of an accumulator -/
  | init
  /-- a product -/
  | term (i : Nat)
  /-- an addition -/
  | add (l r : SumTree)
  /-- a product added by one fused operation -/
  | fma (i : Nat) (t : SumTree)
  deriving DecidableEq

namespace SumTree

/-- The products in a tree. -/
def leaves : SumTree → List Nat
  | init => []
  | term i => [i]
  | add l r => l.leaves ++ r.leaves
  | fma i t => i :: t.leaves

/-- The largest number of additions one after the other. -/
def height : SumTree → Nat
  | init => 0
  | term _ => 0
  | add l r => max l.height r.height + 1
  | fma _ t => t.height + 1

/-- The number of operations. -/
def ops : SumTree → Nat
  | init => 0
  | term _ => 1
  | add l r => l.ops + r.ops + 1
  | fma _ t => t.ops + 1

/-- A tree for the sum over `0, …, n - 1`. -/
def Sums (T : SumTree) (n : Nat) : Prop := T.leaves.Perm (List.range n)

/-- Evaluation; `f i` yields the factors of product `i`. -/
def eval (ftz : Bool) (f : Nat → Res (F32 × F32)) : SumTree → Res F32
  | init => .ok F32.zero
  | term i => do
    let p ← f i
    .ok (F32.mul ftz p.1 p.2)
  | add l r => do
    let x ← l.eval ftz f
    let y ← r.eval ftz f
    .ok (F32.add ftz x y)
  | fma i t => do
    let p ← f i
    let z ← t.eval ftz f
    .ok (F32.fma ftz p.1 p.2 z)

end SumTree

/-- An operand as the processor reads it: tiny numbers are zero if `ftz` is set. -/
def F32.daz (ftz : Bool) (x : F32) : F32 := if ftz && decide (x.mag < 8388608) then F32.pack x.sign 0 else x

/-- The difference that is squared in `DistanceL2::compare` (include/distance.h:76). -/
def l2Factor (ftz : Bool) (a b : List F32) (i : Nat) : Res (F32 × F32) := do
  let x ← rd a i
  let y ← rd b i
  .ok (F32.sub ftz x y, F32.sub ftz x y)

/-- `DistanceL2::compare` (include/distance.h:68-79) with the order of additions `T`. -/
def l2F32 (ftz : Bool) (T : SumTree) (a b : List F32) : Res F32 :=
  T.eval ftz (l2Factor ftz (a.map (F32.daz ftz)) (b.map (F32.daz ftz)))

/-- The factors of an inner product. -/
def dotFactor (a b : List F32) (i : Nat) : Res (F32 × F32) := do
  let x ← rd a i
  let y ← rd b i
  .ok (x, y)

/-- `cblas_sdot`, an element of a product computed by `cblas_sgemm`, and `inner_product` (include/distance.h:85-182), with the order of
additions `T`. -/
def dotF32 (ftz : Bool) (T : SumTree) (a b : List F32) : Res F32 := T.eval ftz (dotFactor (a.map (F32.daz ftz)) (b.map (F32.daz ftz)))

/-- `-2.0f`. -/
def F32.minusTwo : F32 := ⟨0xc0000000#32⟩

/-- An element of `dist_matrix` (src/aux_compute_groundtruth.cpp:67-102, tests/utils/compute_groundtruth.cpp:71-109) for the point `p` and the
query `q`: `-2 * p * q` by the first call of `cblas_sgemm`, to which the second one adds the squared norm of the point and the third one
that of the query; the norms are computed by `cblas_sdot`.  Multiplication by -2 is exact, so it does not matter when it is done. -/
def expandF32 (ftz : Bool) (Tx Tp Tq : SumTree) (p q : List F32) : Res F32 := do
  let pp ← dotF32 ftz Tp p p
  let qq ← dotF32 ftz Tq q q
  let x ← dotF32 ftz Tx p q
  .ok (F32.add ftz (F32.add ftz (F32.mul ftz F32.minusTwo x) pp) qq)

/-- `DistanceL2::compare` (include/distance.h:68-79) as the distance of an index; a read outside the vectors is excluded by the
hypotheses of the theorems. -/
def l2Cmp (ftz : Bool) (T : SumTree) (q v : List F32) : F32 :=
  match l2F32 ftz T q v with
  | .ok r => r
  | .error _ => F32.nan

end Grann
