import Verif.Spec.FloatDist
import Verif.Basic.Bytes
import Verif.Model.Distance
import Mathlib.Algebra.BigOperators.Group.Finset.Basic
/-!
# Exact distances of vectors in files
-/

namespace Grann

namespace Spec

/-- Coordinate `d` of a vector in a file. -/
def coordinate (e : Elem) (row : Bytes) (d : Nat) : ℚ :=
  match e with
  | .float => value ⟨BitVec.ofNat 32 (unle ((row.drop (4 * d)).take 4))⟩
  | .int8 => if (row.getD d 0).toNat < 128 then ((row.getD d 0).toNat : ℚ) else ((row.getD d 0).toNat : ℚ) - 256
  | .uint8 => ((row.getD d 0).toNat : ℚ)

/-- The squared Euclidean distance of two vectors in files. -/
def fileSq (e : Elem) (dim : Nat) (a b : Bytes) : ℚ := ∑ d ∈ Finset.range dim, (coordinate e a d - coordinate e b d) ^ 2

/-- The squared length. -/
def fileNorm (e : Elem) (dim : Nat) (a : Bytes) : ℚ := ∑ d ∈ Finset.range dim, coordinate e a d ^ 2

/-- Every list of `k` points has room for all points that are among the `K` nearest in some way of breaking ties. -/
def ExactTiesFit (K k n : Nat) (D : Nat → ℚ) : Prop :=
  ∀ g < n, ((Finset.range n).filter (fun i => D i < D g)).card < K → ((Finset.range n).filter (fun i => D i ≤ D g)).card ≤ k

end Spec

end Grann
