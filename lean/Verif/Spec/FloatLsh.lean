import Verif.Spec.FloatSum
/-!
# Sides of a hyperplane, up to the error of an inner product
-/

namespace Grann

open Spec

/-- A hyperplane and a vector whose inner product any program can compute. -/
structure DotOk (ftz : Bool) (U : SumTree) (n : Nat) (a b : List F32) : Prop where
  sums : U.Sums n
  left : a.length = n
  right : b.length = n
  leftPlain : ∀ x ∈ a, Plain ftz x
  rightPlain : ∀ x ∈ b, Plain ftz x
  height : U.height + 1 ≤ 2 ^ 23
  ops : U.ops ≤ 2 ^ 100
  size : absDotVal a b ≤ 2 ^ 125

/-- The vector is above, or below, the hyperplane by more than the error of the inner product. -/
def Above (ftz : Bool) (U : SumTree) (x v : List F32) : Prop := dotErr ftz U x v < dotVal x v
@[inherit_doc Above]
def Below (ftz : Bool) (U : SumTree) (x v : List F32) : Prop := dotVal x v < -dotErr ftz U x v

/-- The vectors are on the same side of the hyperplane, or on different sides, by more than the errors. -/
def SureSame (ftz : Bool) (U : SumTree) (x v q : List F32) : Prop := v = q ∨ (Above ftz U x v ∧ Above ftz U x q) ∨ (Below ftz U x v ∧ Below ftz U x q)
@[inherit_doc SureSame]
def SureApart (ftz : Bool) (U : SumTree) (x v q : List F32) : Prop := (Above ftz U x v ∧ Below ftz U x q) ∨ (Below ftz U x v ∧ Above ftz U x q)

end Grann
