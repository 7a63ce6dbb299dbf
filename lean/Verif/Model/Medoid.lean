import Verif.Basic.Res
import Verif.Basic.F32
/-!
# Model of the entry point computation

`ANNIndex::calculate_medoid_of_data` (src/index.cpp:297-338) and its copy
`RelativeNG::calculate_entry_point` (src/relative_ng.cpp:92-133).
-/

namespace Grann

/-- Float arithmetic used by the computation, uninterpreted: `center[j] += x`, `center[j] /= n`,
`(center[j] - x) * (center[j] - x)`, `dist += diff`.  `T` is the element type of the data. -/
structure MedoidOps (T : Type) where
  addT : F32 → T → F32
  divN : F32 → Nat → F32
  sqDiff : F32 → T → F32
  add : F32 → F32 → F32

/-- `center` (src/index.cpp:300-310) for points of `dim` (aligned) coordinates each.  A point with fewer
coordinates makes the access undefined. -/
def centroid {T : Type} (o : MedoidOps T) (data : List (List T)) (dim : Nat) : Res (List F32) :=
  (List.range dim).mapM (fun j => do
    let s ← data.foldlM (fun acc v => do let x ← rd v j; .ok (o.addT acc x)) F32.zero
    .ok (o.divN s data.length))

/-- The distance of a point to `center` (src/index.cpp:318-324), coordinates in order. -/
def distToCenter {T : Type} (o : MedoidOps T) (center : List F32) (v : List T) : Res F32 :=
  (List.range center.length).foldlM (fun acc j => do
    let c ← rd center j
    let x ← rd v j
    .ok (o.add acc (o.sqDiff c x))) F32.zero

/-- The loop of src/index.cpp:329-334 over the remaining distances; `i` is the index of the first of
them. -/
def minLoop : List F32 → Nat → Nat → F32 → Nat
  | [], _, idx, _ => idx
  | x :: xs, i, idx, m => if x.lt m then minLoop xs (i + 1) i x else minLoop xs (i + 1) idx m

/-- Search for the smallest distance (src/index.cpp:327-334): `distances[0]` is read first. -/
def minIndex (ds : List F32) : Res Nat :=
  match ds with
  | [] => .error .ub
  | d :: ds => .ok (minLoop ds 1 0 d)

/-- `calculate_medoid_of_data` (src/index.cpp:297-338). The parallel loop writes each distance once, to its
own place. -/
def medoid {T : Type} (o : MedoidOps T) (data : List (List T)) (dim : Nat) : Res Nat := do
  let center ← centroid o data dim
  let ds ← data.mapM (distToCenter o center)
  minIndex ds

end Grann
