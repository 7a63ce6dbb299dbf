import Verif.Model.FloatProg
import Verif.Model.KmeansRun
import Verif.Model.Recall
/-!
# k-means in `float` and `double` arithmetic

What the model of k-means takes as a parameter (`KmOps`).  `-Ofast` allows the compiler to multiply by a reciprocal instead of dividing
(`recip`) and to add in any order; of the sums in `double`, that of all distances is taken in any order (`total`), the others are taken in the order of the loops.
-/

namespace Grann

/-- A `double`: a multiple of 2^-1074, or a NaN or an infinity (`none`), of which nothing more is said.  The numbers here are too small to overflow. -/
abbrev D64 := Option Int

namespace D64

/-- The `double` nearest to `n / d` units, ties to even; if `ftz` is set, tiny results are flushed to zero. -/
def round (ftz : Bool) (n : Int) (d : Nat) : Int :=
  let m := if n.natAbs < 9007199254740992 * d then divRound n.natAbs d else (roundBin 53 (n.natAbs, d)).1
  let m := if ftz && decide (m < 4503599627370496) then 0 else m
  if n < 0 then -(m : Int) else m

/-- A `float` as `double`. -/
def ofF32 (ftz : Bool) (x : F32) : D64 := if x.mag < 2139095040 then some ((x.daz ftz).units * 2 ^ 925) else none

/-- Addition, multiplication, the reciprocal of a number and division by it, conversion to `float`. -/
def add (ftz : Bool) (x y : D64) : D64 := do
  let a ← x
  let b ← y
  some (round ftz (a + b) 1)
@[inherit_doc add]
def mul (ftz : Bool) (x y : D64) : D64 := do
  let a ← x
  let b ← y
  some (round ftz (a * b) (2 ^ 1074))
@[inherit_doc add]
def inv (ftz : Bool) (n : Nat) : D64 := if n = 0 then none else some (round ftz (2 ^ 1074) n)
@[inherit_doc add]
def divNat (ftz : Bool) (x : D64) (n : Nat) : D64 := if n = 0 then none else do
  let a ← x
  some (round ftz a n)
@[inherit_doc add]
def toF32 (ftz : Bool) : D64 → F32
  | some a => F32.round ftz false a 1074
  | none => F32.nan

/-- `x < y`. -/
def lt : D64 → D64 → Bool
  | some a, some b => decide (a < b)
  | _, _ => false

end D64

/-- `x / y`. -/
def F32.div (ftz : Bool) (x y : F32) : F32 :=
  let s := x.sign != y.sign
  if x.isNan || y.isNan then F32.nan
  else if x.isInf then (if y.isInf then F32.nan else pack s 2139095040)
  else if y.isInf then pack s 0
  else if y.mag = 0 then (if x.mag = 0 then F32.nan else pack s 2139095040)
  else
    let n := x.units.natAbs
    let d := y.units.natAbs
    pack s (if ftz && decide (n * 2 ^ 151 < 33554431 * d) then 0 else min (nearestBits n d) 2139095040)

/-- The values of a vector converted to `float` (`convert_types`, include/utils.h:266-274; src/ivf.cpp:113, 134). -/
def convF32 (e : Elem) (b : Bytes) : List F32 := (List.range (b.length / e.size)).map (fun d => elemF32 e ((b.drop (d * e.size)).take e.size))

/-- Squared norm of a vector (src/math_utils.cpp:23-32): `cblas_snrm2`, squared.  `nrm` stands for the library function. -/
def normF32 (ftz : Bool) (nrm : List F32 → F32) (x : List F32) : F32 := F32.mul ftz (nrm x) (nrm x)

/-- An element of `dist_matrix` (src/math_utils.cpp:80-96) for the vector `x` and the centre `c`: the first call of `cblas_sgemm` puts the squared norm of the
vector there, the second one adds that of the centre, the third one adds `-2 * x * c`.  Multiplication by -2 is exact, so it does not matter
when it is done. -/
def centreF32 (ftz : Bool) (nrm : List F32 → F32) (T : SumTree) (x c : List F32) : Res F32 := do
  let v ← dotF32 ftz T x c
  .ok (F32.add ftz (F32.add ftz (normF32 ftz nrm x) (normF32 ftz nrm c)) (F32.mul ftz F32.minusTwo v))

/-- What the arithmetic depends on: the library function for norms, the orders of the additions in `cblas_sgemm` and in `calc_distance` for two vectors,
the order for the sum of all distances of so many points, and the way of dividing. -/
structure KmArith where
  ftz : Bool
  nrm : List F32 → F32
  prod : List F32 → List F32 → SumTree
  sum : List F32 → List F32 → SumTree
  total : Nat → SumTree
  recip : Bool

/-- A sum of `float`s in `double` (src/math_utils.cpp:417-420). -/
def D64.sumTree (ftz : Bool) (ds : List F32) : SumTree → D64
  | .init => some 0
  | .term i => D64.ofF32 ftz (ds.getD i F32.zero)
  | .add l r => D64.add ftz (D64.sumTree ftz ds l) (D64.sumTree ftz ds r)
  | .fma i t => D64.add ftz (D64.sumTree ftz ds t) (D64.ofF32 ftz (ds.getD i F32.zero))

/-- The new centre from a sum and a count (src/math_utils.cpp:267-268). -/
def meanF32 (A : KmArith) (s : D64) (n : Nat) : F32 :=
  D64.toF32 A.ftz (if A.recip then D64.mul A.ftz s (D64.inv A.ftz n) else D64.divNat A.ftz s n)

/-- The test for ending the loop (src/math_utils.cpp:332-333).  No `float` is between 0.00001 and the constant, the largest one below it. -/
def stopF32 (ftz : Bool) (i : Nat) (old new : F32) : Bool :=
  (i != 0 && (F32.div ftz (F32.sub ftz old new) new).le ⟨0x3727c5ac#32⟩) || new.lt ⟨0x34000000#32⟩

/-- The arithmetic of k-means (src/math_utils.cpp:12-18, 23-32, 80-96, 259-291, 332-333, 414-448).  A read outside of the vectors gives a NaN here; the
theorems are about vectors of equal lengths. -/
def kmF32 (A : KmArith) : KmOps D64 where
  kpp := {
    dist := fun x y => l2Cmp A.ftz (A.sum x y) x y
    minE := fun x y => if y.lt x then y else x
    zero := some 0
    add := fun s x => D64.add A.ftz s (D64.ofF32 A.ftz x)
    total := fun ds => D64.sumTree A.ftz ds (A.total ds.length)
    isZero := fun s => s == some 0
    scale := D64.mul A.ftz
    hit := fun dart pre d => (dart != none && pre != none && !D64.lt dart pre) && D64.lt dart (D64.add A.ftz pre (D64.ofF32 A.ftz d)) }
  entry := fun x c => match centreF32 A.ftz A.nrm (A.prod x c) x c with
    | .ok r => r
    | .error _ => F32.nan
  divn := meanF32 A
  addF := F32.add A.ftz
  stop := stopF32 A.ftz

end Grann
