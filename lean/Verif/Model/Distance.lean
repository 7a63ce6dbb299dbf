import Verif.Basic.Res
import Verif.Basic.F32
import Verif.Basic.Round
import Mathlib.Algebra.Ring.Defs
import Mathlib.Algebra.BigOperators.Group.List.Basic
/-!
# Model of the distance functions (include/distance.h) and their selection (src/index.cpp)

The integer distances are modelled exactly, including overflow and the conversion to `float`.  The
floating-point distances are modelled in exact arithmetic, over an arbitrary commutative ring: rounding is
left out.  The AVX branch is modelled (the code is compiled with `-march=native`); its loads are unaligned.
-/

namespace Grann

/-- The number of iterations of `for (_s32 i = 0; i < (_s32) size; i++)`: none if the conversion to a signed
number is negative. -/
def loopCount (size : Nat) : Nat := if size < 2147483648 then size else 0

/-- `x * x` where `x` is the difference of two 8-bit numbers; the arithmetic is on `int`. -/
def sqDiff (x y : Int) : Int := (x - y) * (x - y)

/-- The loop of `DistanceL2Int8::compare` (include/distance.h:45-48): `result` is an `int32_t`, overflow is
undefined. -/
def l2Int8Loop (a b : List (BitVec 8)) : Nat → Nat → Int → Res Int
  | 0, _, r => .ok r
  | todo + 1, i, r => do
    let x ← rd a i
    let y ← rd b i
    let r' := r + sqDiff x.toInt y.toInt
    if 2147483647 < r' then .error .ub else l2Int8Loop a b todo (i + 1) r'

/-- `DistanceL2Int8::compare` (include/distance.h:41-50) before the conversion to `float`. -/
def l2Int8 (a b : List (BitVec 8)) (size : Nat) : Res Int := l2Int8Loop a b (loopCount size) 0 0

/-- The loop of `DistanceL2UInt8::compare` (include/distance.h:58-61): `result` is a `uint32_t`. -/
def l2UInt8Loop (a b : List (BitVec 8)) : Nat → Nat → Nat → Res Nat
  | 0, _, r => .ok r
  | todo + 1, i, r => do
    let x ← rd a i
    let y ← rd b i
    l2UInt8Loop a b todo (i + 1) (u32 (r + (sqDiff x.toNat y.toNat).toNat))

/-- `DistanceL2UInt8::compare` (include/distance.h:55-63) before the conversion to `float`. -/
def l2UInt8 (a b : List (BitVec 8)) (size : Nat) : Res Nat := l2UInt8Loop a b (loopCount size) 0 0

/-- Conversion of a number below 2^32 to `float`: rounding to nearest, ties to even. -/
def F32.ofNat (n : Nat) : F32 :=
  if n = 0 then F32.zero
  else
    let e := Nat.log2 n
    let m := if e ≤ 23 then n * 2 ^ (23 - e) else divRound n (2 ^ (e - 23))
    ⟨BitVec.ofNat 32 ((e + 126) * 8388608 + m)⟩

/-- `DistanceL2Int8::compare` (include/distance.h:41-50). -/
def l2Int8F (a b : List (BitVec 8)) (size : Nat) : Res F32 := do
  let r ← l2Int8 a b size
  .ok (F32.ofNat r.toNat)

/-- `DistanceL2UInt8::compare` (include/distance.h:55-63). -/
def l2UInt8F (a b : List (BitVec 8)) (size : Nat) : Res F32 := do
  let r ← l2UInt8 a b size
  .ok (F32.ofNat r)

section Exact
variable {R : Type} [CommRing R]

/-- The loop of `DistanceL2::compare` (include/distance.h:75-77). -/
def l2Loop (a b : List R) : Nat → Nat → R → Res R
  | 0, _, r => .ok r
  | todo + 1, i, r => do
    let x ← rd a i
    let y ← rd b i
    l2Loop a b todo (i + 1) (r + (x - y) * (x - y))

/-- `DistanceL2::compare` (include/distance.h:68-79). -/
def l2Float (a b : List R) (size : Nat) : Res R := l2Loop a b (loopCount size) 0 0

/-- `_mm256_loadu_ps`: the 8 numbers from `off` on. -/
def load8 (a : List R) (off : Nat) : Res (List R) :=
  if off + 8 ≤ a.length then .ok ((a.drop off).take 8) else .error .ub

/-- `AVX_DOT` (include/distance.h:89-93). -/
def avxDot (a b : List R) (off : Nat) (sum : List R) : Res (List R) := do
  let x ← load8 a off
  let y ← load8 b off
  .ok (List.zipWith (· + ·) sum (List.zipWith (· * ·) x y))

/-- The loop over blocks of 16 (include/distance.h:112-115) from block `i` on. -/
def avxLoop (a b : List R) : Nat → Nat → List R → Res (List R)
  | 0, _, sum => .ok sum
  | todo + 1, i, sum => do
    let sum ← avxDot a b (16 * i) sum
    let sum ← avxDot a b (16 * i + 8) sum
    avxLoop a b todo (i + 1) sum

/-- The tail of 8, if there is one (include/distance.h:107-110). -/
def avxTail (a b : List R) (DR DD : Nat) : Res (List R) :=
  if DR ≠ 0 then avxDot a b DD (List.replicate 8 0) else .ok (List.replicate 8 0)

/-- `inner_product` (include/distance.h:85-182). -/
def innerProduct (a b : List R) (size : Nat) : Res R := do
  let D := u32 (size + 7) / 8 * 8
  let DR := D % 16
  let DD := D - DR
  let sum ← avxTail a b DR DD
  let sum ← avxLoop a b (DD / 16) 0 sum
  .ok sum.sum

/-- `DistanceInnerProduct::compare` (include/distance.h:183-191); `DistanceFastL2` inherits it
(include/distance.h:287). -/
def ipCompare (a b : List R) (size : Nat) : Res R := do
  let r ← innerProduct a b size
  .ok (-r)

/-- `DistanceFastL2::norm` (include/distance.h:199-286): the same loops with both operands equal. -/
def fastNorm (a : List R) (size : Nat) : Res R := innerProduct a a size

/-- `DistanceFastL2::compare` with a norm (include/distance.h:288-293); it is not called by the indices. -/
def fastCompare (a b : List R) (norm : R) (size : Nat) : Res R := do
  let r ← innerProduct a b size
  .ok (-2 * r + norm)

end Exact

/-- `enum Metric` (include/essentials.h:72). -/
inductive Metric
  | l2
  | innerProduct
  | fastL2
  | pq
  deriving DecidableEq

/-- Element types. -/
inductive Elem
  | float
  | int8
  | uint8
  deriving DecidableEq

/-- The distance classes (include/distance.h). -/
inductive DistClass
  | l2Int8
  | l2UInt8
  | l2
  | innerProduct
  | fastL2
  deriving DecidableEq

/-- `get_distance_function` (src/index.cpp:16-69). -/
def getDistance : Elem → Metric → Res DistClass
  | .float, .fastL2 => .ok .fastL2
  | .float, .l2 => .ok .l2
  | .float, .innerProduct => .ok .innerProduct
  | .float, .pq => .error .throw
  | .int8, .l2 => .ok .l2Int8
  | .int8, _ => .error .throw
  | .uint8, .l2 => .ok .l2UInt8
  | .uint8, _ => .error .throw

/-- The function called through `_distance->compare` for float vectors: the virtual function of the class;
`DistanceFastL2` does not override it. -/
def floatCompare {R : Type} [CommRing R] (c : DistClass) (a b : List R) (size : Nat) : Res R :=
  match c with
  | .l2 => l2Float a b size
  | .innerProduct => ipCompare a b size
  | .fastL2 => ipCompare a b size
  | _ => .error .ub

/-- The function called through `_distance->compare` for vectors of bytes. -/
def byteCompare (c : DistClass) (a b : List (BitVec 8)) (size : Nat) : Res F32 :=
  match c with
  | .l2Int8 => l2Int8F a b size
  | .l2UInt8 => l2UInt8F a b size
  | _ => .error .ub

end Grann
