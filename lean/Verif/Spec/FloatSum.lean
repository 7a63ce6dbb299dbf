import Verif.Model.FloatArith
import Verif.Spec.FloatDist
/-!
# Error bounds for sums of products of floats

The bounds depend on the shape of the tree that a sum is evaluated by, and on the exact distances.
-/

namespace Grann

open Spec

/-- The smallest number that is rounded to infinity. -/
def ovf : ℚ := 33554431 * 2 ^ (103 : Int)

/-- A bound for all intermediate results of the distance. -/
def l2Bound (ftz : Bool) (T : SumTree) (a b : List F32) : ℚ :=
  (1 + 2 ^ (-24 : Int)) ^ (T.height + 3) * sqDistVal a b + T.ops * (if ftz then 2 ^ (-125 : Int) else 2 ^ (-149 : Int)) * (1 + 2 ^ (-24 : Int)) ^ T.height

/-- The error of a distance: `k` roundings, and a small number for each operation. -/
def l2Err (ftz : Bool) (T : SumTree) (a b : List F32) : ℚ :=
  (T.height + 3) * 2 ^ (-23 : Int) * sqDistVal a b + T.ops * (if ftz then 2 ^ (-124 : Int) else 2 ^ (-148 : Int))

/-- The error of an inner product. -/
def dotErr (ftz : Bool) (T : SumTree) (a b : List F32) : ℚ :=
  (T.height + 1) * 2 ^ (-23 : Int) * absDotVal a b + T.ops * (if ftz then 2 ^ (-125 : Int) else 2 ^ (-149 : Int))

/-- Vectors whose distance any program can compute. -/
structure L2Ok (ftz : Bool) (T : SumTree) (n : Nat) (a b : List F32) : Prop where
  sums : T.Sums n
  left : a.length = n
  right : b.length = n
  leftPlain : ∀ x ∈ a, Plain ftz x
  rightPlain : ∀ x ∈ b, Plain ftz x
  height : T.height + 3 ≤ 2 ^ 23
  ops : T.ops ≤ 2 ^ 100
  dist : sqDistVal a b ≤ 2 ^ 125

end Grann
