import Verif.Spec.FloatDist
import Verif.Spec.FloatSum
import Verif.Model.FloatArith
/-!
# Specification for the reduction of inner products in `float` arithmetic
-/

namespace Grann

open _root_.Grann.Spec

/-- A square root that is right up to a few roundings. -/
def SqrtOk (ftz : Bool) (sq : F32 → F32) : Prop :=
  ∀ x, Plain ftz x → 0 < value x → Plain ftz (sq x) ∧ 0 ≤ value (sq x) ∧ |value (sq x) ^ 2 - value x| ≤ value x / 1048576

/-- A division by numbers of moderate size that is right up to a few roundings. -/
def DivOk (ftz : Bool) (dv : F32 → F32 → F32) : Prop :=
  ∀ x y, Plain ftz x → Plain ftz y → 2 ^ (-100 : Int) ≤ value y → value y ≤ 2 ^ 100 → |value x / value y| ≤ 2 ^ 100 →
    Plain ftz (dv x y) ∧ |value (dv x y) - value x / value y| ≤ |value x / value y| / 1048576 + (if ftz then 2 ^ (-126 : Int) else 2 ^ (-150 : Int))

/-- The error of the squared norm of a vector that is written. -/
def reduceErr (T : SumTree) : ℚ := 3 * (T.height + 1) * 2 ^ (-23 : Int) + 2 ^ (-15 : Int)

/-- The error of the inner product with a query. -/
def queryErr (M : ℚ) (q x : List F32) : ℚ := 2 * (absDotVal q x / M / 1048576 + 2 ^ (-126 : Int) * (q.map (fun a => |value a|)).sum)

/-- A vector whose norm any program can compute, and the largest norm squared. -/
structure ReduceOk (ftz : Bool) (T : SumTree) (dim : Nat) (x : List F32) (n m : F32) : Prop where
  sums : T.Sums dim
  dims : x.length = dim
  plain : ∀ a ∈ x, Plain ftz a
  height : T.height + 1 ≤ 2 ^ 21
  ops : T.ops ≤ 2 ^ 32
  count : dim ≤ 2 ^ 32
  norm : dotF32 ftz T x x = .ok n
  size : dotVal x x ≤ 2 ^ 100
  largest : value n ≤ value m
  maxPlain : Plain ftz m
  maxLow : 2 ^ (-60 : Int) ≤ value m
  maxHigh : value m ≤ 2 ^ 99

/-- Data that can be scaled: not all vectors are zero or tiny, and none is huge. -/
structure ReduceData (ftz : Bool) (dim : Nat) (X : List (List F32)) : Prop where
  dims : ∀ x ∈ X, x.length = dim
  plain : ∀ x ∈ X, ∀ a ∈ x, Plain ftz a
  count : dim + 1 ≤ 2 ^ 21
  size : ∀ x ∈ X, dotVal x x ≤ 2 ^ 98
  large : ∃ x ∈ X, 2 ^ (-59 : Int) ≤ dotVal x x

end Grann
