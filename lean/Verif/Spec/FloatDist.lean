import Verif.Spec.Float
import Mathlib.Algebra.BigOperators.Group.List.Basic
import Mathlib.Data.Finset.Card
/-!
# Exact distances of vectors of floats, and answers that are right up to errors
-/

namespace Grann

namespace Spec

/-- The squared distance of two vectors of floats, exactly. -/
def sqDistVal (a b : List F32) : ℚ := (List.zipWith (fun x y => (value x - value y) ^ 2) a b).sum

/-- The inner product, exactly. -/
def dotVal (a b : List F32) : ℚ := (List.zipWith (fun x y => value x * value y) a b).sum

/-- The sum of the absolute values of the terms of the inner product. -/
def absDotVal (a b : List F32) : ℚ := (List.zipWith (fun x y => |value x * value y|) a b).sum

/-- Finite, and not tiny if tiny numbers are read as zero. -/
def Plain (ftz : Bool) (x : F32) : Prop := Finite x ∧ (ftz = true → value x = 0 ∨ 2 ^ (-126 : Int) ≤ |value x|)

/-- `out` answers "the `k` nearest points of `S`" up to errors: `D i` is the exact distance of point `i` to the query, `E i` the error
of a computed distance.  The points are distinct, as many as there are (at most `k`), each with its distance up to the error; no point listed
earlier, and none listed instead of an omitted one, is farther by more than the two errors. -/
structure CloseNearest (k : Nat) (S : Finset Nat) (D E : Nat → ℚ) (out : List (Nat × F32)) : Prop where
  nodup : (out.map Prod.fst).Nodup
  length : out.length = min k S.card
  mem : ∀ x ∈ out, x.1 ∈ S ∧ |value x.2 - D x.1| ≤ E x.1
  sorted : out.Pairwise (fun x y => D x.1 ≤ D y.1 + E x.1 + E y.1)
  best : ∀ i ∈ S, i ∉ out.map Prod.fst → ∀ x ∈ out, D x.1 ≤ D i + E x.1 + E i

end Spec

end Grann
