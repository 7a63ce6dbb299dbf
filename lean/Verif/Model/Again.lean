import Verif.Model.RelNG
import Verif.Model.Ivf
import Verif.Model.Lsh
/-!
# Model of `build` on an object that has been built or loaded before

The definitions of the other files start from a new object; these start from what the object holds.
-/

namespace Grann

/-- `v.resize(n)` for a vector of vectors (src/ivf.cpp:90, src/relative_ng.cpp:147): the first `n` entries
stay, empty ones are appended. -/
def resizeLists (n : Nat) (l : List (List Nat)) : List (List Nat) :=
  l.take n ++ List.replicate (n - l.length) []

/-- The assignment part of `IVFIndex::build` (src/ivf.cpp:90 and 109-118) for an object whose
`_inverted_index` is `inv0`: it is resized, not cleared, and `compute_closest_centers` appends. -/
def ivfBuildAgain (nc : Nat) (pops : List F32 → List Nat)
    (sched : Nat → List (Nat × Nat) → List (Nat × Nat)) (rows : List (List F32)) (inv0 : List (List Nat)) :
    Res (List (List Nat)) := do
  let (_, inv) ← closestCenters 1000000 nc 1 pops sched rows (List.replicate rows.length 0)
    (some (resizeLists nc inv0))
  match inv with
  | some inv => .ok inv
  | none => .error .ub

/-- The graph part of `RelativeNG::build` (src/relative_ng.cpp:147 and 162-192) for an object whose
`_out_nbrs` is `g0`: it is resized, not cleared. -/
def rngBuildAgain {V : Type} (sortF : List Nbr → List Nbr) (c : Ctx V) (div : F32 → F32 → F32)
    (g0 : List (List Nat)) : Res (List (List Nat)) :=
  rngGraph sortF c div (resizeLists c.data.length g0)

/-- `LSHIndex<T>::build` (src/lsh.cpp:129-148) for an object whose `tables` are `ts0`: new tables are
appended, and all tables are filled. -/
def lshBuildAgain {H V : Type} (dot : H → V → F32) (data : List V) (tags : List Nat) (tableSize : Nat)
    (hps : List (List H)) (ts0 : List (HTable H)) : Res (List (HTable H)) := do
  let ts ← hps.mapM (fun h => if tableSize > 64 then (.error .exit : Res (HTable H))
    else .ok ⟨h, tableSize, []⟩)
  (ts0 ++ ts).mapM (lshFill dot data tags)

end Grann
