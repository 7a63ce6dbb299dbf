import Verif.Spec.FloatKmeans
import Verif.Spec.FloatDist
import Verif.Spec.FloatSum
/-!
# Specification for the entry point in `float` arithmetic
-/

namespace Grann

open _root_.Grann.Spec _root_.Spec

/-- The error of a coordinate of the computed mean. -/
def meanErr (ftz : Bool) (U : SumTree) (data : List (List F32)) (j : Nat) : ℚ :=
  ((U.height + 6) * 2 ^ (-23 : Int) * (data.map (fun x => |value (x.getD j F32.zero)|)).sum + U.ops * (if ftz then 2 ^ (-124 : Int) else 2 ^ (-148 : Int))) / data.length +
    (if ftz then 2 ^ (-126 : Int) else 2 ^ (-150 : Int))

/-- Data of which any program can compute the mean. -/
structure MeanOk (ftz : Bool) (U : SumTree) (dim : Nat) (data : List (List F32)) : Prop where
  sums : U.Sums data.length
  nonempty : data ≠ []
  count : data.length < 4294967296
  dims : ∀ v ∈ data, v.length = dim
  plain : ∀ v ∈ data, ∀ x ∈ v, Plain ftz x
  size : ∀ v ∈ data, ∀ x ∈ v, |value x| ≤ 2 ^ 40
  height : U.height + 6 ≤ 2 ^ 22
  ops : U.ops ≤ 2 ^ 100

/-- The exact squared distance of a point to the exact mean of the data. -/
def meanDist (data : List (List F32)) (dim : Nat) (v : List F32) : ℚ := ((List.range dim).map (fun j => (exactMean data j - value (v.getD j F32.zero)) ^ 2)).sum

/-- Data of whole numbers, whose sums are small enough to be floats. -/
structure WholeData (dim : Nat) (data : List (List F32)) : Prop where
  nonempty : data ≠ []
  count : data.length ≤ 16777216
  dims : ∀ v ∈ data, v.length = dim
  whole : ∀ v ∈ data, ∀ x ∈ v, Spec.Finite x ∧ ∃ a : Int, value x = a
  sums : ∀ j < dim, (data.map (fun v => |value (v.getD j F32.zero)|)).sum ≤ 16777216

end Grann
