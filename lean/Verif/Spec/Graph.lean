import Mathlib.Data.Finset.Card
/-!
# Specifications for graphs

Nothing here refers to the model of the code.
-/

namespace Spec

/-- `g` is a directed graph on the points `0 .. n-1`, given by out-neighbour lists.  Self loops,
repeated edges and unreachable points are allowed. -/
structure IsGraph (n : Nat) (g : List (List Nat)) : Prop where
  len : g.length = n
  edges : ∀ nb ∈ g, ∀ j ∈ nb, j < n

instance (n : Nat) (g : List (List Nat)) : Decidable (IsGraph n g) :=
  decidable_of_iff (g.length = n ∧ ∀ nb ∈ g, ∀ j ∈ nb, j < n)
    ⟨fun h => ⟨h.1, h.2⟩, fun h => ⟨h.1, h.2⟩⟩

/-- `i` has an edge to `j` in `g`. -/
def Edge (g : List (List Nat)) (i j : Nat) : Prop := ∃ nb, g[i]? = some nb ∧ j ∈ nb

/-- Point `i` can be reached from one of `init` along edges of `g` whose end points satisfy `ok`. -/
inductive Reach (g : List (List Nat)) (ok : Nat → Prop) (init : List Nat) : Nat → Prop
  | start {i : Nat} : i ∈ init → Reach g ok init i
  | step {i j : Nat} : Reach g ok init i → Edge g i j → ok j → Reach g ok init j

end Spec
