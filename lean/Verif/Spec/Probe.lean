import Verif.Spec.Search
/-!
# Specification of a search in clusters
-/

namespace Spec

open Grann (F32)

/-- Cluster `c` is the first one at the least distance, where `row` lists the distances to the clusters. -/
def FirstNearest (row : List F32) (c : Nat) : Prop :=
  ∃ x, row[c]? = some x ∧ (∀ y ∈ row, x.le y = true) ∧ ∀ j < c, ∀ y, row[j]? = some y → x.lt y = true

/-- The clusters `C` are `w` nearest ones of `nc`; a single one is the first of the nearest ones. -/
structure Probed (nc w : Nat) (row : List F32) (C : List Nat) : Prop where
  near : KNearest w (Finset.range nc) (fun c => row.getD c F32.nan) (C.map (fun c => (c, row.getD c F32.nan)))
  one : w = 1 → ∀ c ∈ C, FirstNearest row c

/-- The answer of a search in `w` clusters: the nearest ones of the good points in these clusters, where every point is in the first cluster at the least
distance from it.  `row` lists the distances of the query to the clusters, `rows i` those of point `i`. -/
def ClusterAnswer (nc w : Nat) (row : List F32) (rows : Nat → List F32) (n : Nat) (good : Nat → Prop) (K : Nat) (d : Nat → F32) (ids : List Nat) : Prop :=
  ∃ (C : List Nat) (A : Finset Nat), Probed nc w row C ∧ (∀ i, i ∈ A ↔ i < n ∧ good i ∧ ∃ c ∈ C, FirstNearest (rows i) c) ∧
    KNearest K A d (ids.map (fun i => (i, d i)))

end Spec
