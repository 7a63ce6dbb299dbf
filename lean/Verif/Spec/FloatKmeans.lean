import Verif.Spec.FloatDist
import Verif.Spec.Probe
/-!
# Lloyd's algorithm and searches in clusters, up to errors
-/

namespace Grann

namespace Spec

/-- Number `c` of `nc` has the least distance up to `e`. -/
def Nearly (e : ℚ) (nc : Nat) (D : Nat → ℚ) (c : Nat) : Prop := c < nc ∧ ∀ j < nc, D c ≤ D j + e

/-- The exact mean of a coordinate. -/
def exactMean (pts : List (List F32)) (j : Nat) : ℚ := (pts.map (fun x => value (x.getD j F32.zero))).sum / pts.length

/-- A step of Lloyd's algorithm up to errors: every point belongs to a centre that is nearest up to `e`, in exact arithmetic; every new centre is the mean of
its points up to `m` in every coordinate, and zero if there are none. -/
structure ApproxStep (e m : ℚ) (dim : Nat) (data old new : List (List F32)) : Prop where
  len : new.length = old.length
  step : ∃ near : Nat → Nat, (∀ d < data.length, Nearly e old.length (fun c => sqDistVal (data.getD d []) (old.getD c [])) (near d)) ∧
    ∀ c < old.length, (((List.range data.length).filter (fun d => near d == c)) = [] → new.getD c [] = List.replicate dim F32.zero) ∧
      (((List.range data.length).filter (fun d => near d == c)) ≠ [] → ∀ j < dim,
        |value ((new.getD c []).getD j F32.zero) - exactMean (((List.range data.length).filter (fun d => near d == c)).map (fun d => data.getD d [])) j| ≤ m)

/-- The answer of a search in `w` of `nc` clusters up to errors: `Q c` is the exact distance of the query to centre `c`, `P i c` that of point `i`.  The clusters `C`
searched are `w` nearest ones up to `e`, every point is in a cluster that is nearest up to `e`, and the answer consists of the nearest ones of the good points in these
clusters. -/
def ApproxAnswer (e : ℚ) (nc w : Nat) (Q : Nat → ℚ) (P : Nat → Nat → ℚ) (n : Nat) (good : Nat → Prop) (K : Nat) (d : Nat → F32) (ids : List Nat) : Prop :=
  ∃ (C : List Nat) (near : Nat → Nat) (A : Finset Nat), C.Nodup ∧ C.length = min w nc ∧ (∀ c ∈ C, c < nc ∧ ∀ j < nc, j ∉ C → Q c ≤ Q j + e) ∧
    (∀ i < n, Nearly e nc (P i) (near i)) ∧ (∀ i, i ∈ A ↔ i < n ∧ good i ∧ near i ∈ C) ∧ _root_.Spec.KNearest K A d (ids.map (fun i => (i, d i)))

end Spec

end Grann
