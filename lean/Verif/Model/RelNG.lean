import Verif.Model.Prune
import Verif.Model.Medoid
/-!
# Model of `RelativeNG::build` (src/relative_ng.cpp:135-204)
-/

namespace Grann

/-- The candidate list of a location (src/relative_ng.cpp:176-187): all other points. -/
def rngPool {V : Type} (c : Ctx V) (loc : Nat) : Res (List Nbr) :=
  ((List.range c.data.length).filter (fun j => j != loc)).mapM (fun j => do
    let vj ← rd c.data j
    let vl ← rd c.data loc
    .ok ⟨j, c.cmp vj vl, true⟩)

/-- One iteration of the parallel loop (src/relative_ng.cpp:166-195): the out-neighbours of `loc`, given
the list `old` the object held before (empty in a new object).  `C` and `R` are the number of points as
32-bit values (src/relative_ng.cpp:160-161), `alpha` is 1 (src/relative_ng.cpp:162).  RelativeNG has no
constructor taking labels, so `_filtered_index` is false. -/
def rngNode {V : Type} (sortF : List Nbr → List Nbr) (c : Ctx V) (div : F32 → F32 → F32) (loc : Nat)
    (old : List Nat) : Res (List Nat) :=
  if u32 (c.data.length / 10) = 0 then .error .ub
  else do
    let pool ← rngPool c loc
    let pruned ← pruneAlpha sortF ⟨c, false, div⟩ F32.one (u32 c.data.length) (u32 c.data.length) loc
      pool []
    .ok (old ++ pruned)

/-- The parallel loop: every iteration writes only the list of its own location, so the order of the
iterations is irrelevant. -/
def rngGraph {V : Type} (sortF : List Nbr → List Nbr) (c : Ctx V) (div : F32 → F32 → F32)
    (adj : List (List Nat)) : Res (List (List Nat)) :=
  adj.zipIdx.mapM (fun p => rngNode sortF c div p.2 p.1)

/-- `RelativeNG::build` (src/relative_ng.cpp:135-204) of a new object: the start node and the graph. -/
def rngBuild {T : Type} (sortF : List Nbr → List Nbr) (c : Ctx (List T)) (div : F32 → F32 → F32)
    (o : MedoidOps T) (dim : Nat) : Res (Nat × List (List Nat)) := do
  let start ← medoid o c.data dim
  let g ← rngGraph sortF c div (List.replicate c.data.length [])
  .ok (start, g)

end Grann
