import Verif.Model.Build
import Verif.Model.Search
/-!
# Model of `HNSW::build` over all levels (src/hnsw.cpp:122-265)
-/

namespace Grann

/-- The build parameters read by `HNSW::build` (src/hnsw.cpp:125-126,145-148) and by the pruning functions,
with the sorting and division oracles. -/
structure HnswParams where
  sortF : List Nbr → List Nbr
  div : F32 → F32 → F32
  L : Nat
  R : Nat
  C : Nat
  alpha : F32
  pruningRule : Nat

/-- `inner_level_pts` (src/hnsw.cpp:128-135).  `keep i` is the outcome of the comparison of the random
number with `sampling_prob`. -/
def sampleIds (keep : Nat → Bool) (n : Nat) : List Nat := (List.range n).filter keep

/-- The points of the inner index (src/hnsw.cpp:136-141): the sampled rows are written to a file and read
back, which does not change them (see C31). -/
def sampleData {V : Type} (data : List V) (ids : List Nat) : Res (List V) := ids.mapM (rd data)

/-- The entry points for a location on a level above the bottom (src/hnsw.cpp:196-202): the results of the
inner index, which is searched with `res_count = L`. -/
def hnswEntry {V : Type} (p : HnswParams) (inner : List (GIdx V)) (ctx : Ctx V) (i : Nat) : Res (List Nat) := do
  let v ← rd ctx.data i
  let (ids, _, cnt) ← hnswSearch p.sortF v p.L p.L inner (List.replicate p.L 0)
    (List.replicate p.L F32.zero) []
  .ok (ids.take cnt ++ List.replicate (cnt - ids.length) 0)

/-- One level (src/hnsw.cpp:156-258): the parallel loop under a schedule, then the clean-up.  A schedule
that leaves the loop unfinished is reported as `loop`. -/
def hnswLevel {V : Type} (p : HnswParams) (ctx : Ctx V) (tags : List Nat) (start : Nat)
    (entry : Nat → Res (List Nat)) (sched : List Nat) : Res (GIdx V) := do
  let cfg := hnswCfg ctx p.div p.sortF p.L p.R p.C p.alpha p.pruningRule entry
  let s ← runSched cfg sched (BSt.start (freshAdj ctx.data.length))
  if s.Finished then do
    let g ← cleanup cfg s.adj
    .ok ⟨ctx, tags, g, start, []⟩
  else .error .loop

/-- `HNSW::build` of a new object (src/hnsw.cpp:122-265).  The list gives for each level above the bottom,
outermost first, the outcome of the sampling and the schedule of the parallel loop; `sched0` is the schedule
of the bottom level.  `startOf` is `calculate_medoid_of_data` (line 166).  The result lists the levels,
outermost first. -/
def hnswBuild {V : Type} (p : HnswParams) (startOf : List V → Res Nat) (sched0 : List Nat) :
    List ((Nat → Bool) × List Nat) → Ctx V → List Nat → Res (List (GIdx V))
  | [], ctx, tags => do
    let start ← startOf ctx.data
    let ix ← hnswLevel p ctx tags start (fun _ => .ok [start]) sched0
    .ok [ix]
  | (keep, sched) :: ups, ctx, tags => do
    let ids := sampleIds keep ctx.data.length
    let data' ← sampleData ctx.data ids
    let inner ← hnswBuild p startOf sched0 ups { ctx with data := data' } ids
    let start ← startOf ctx.data
    let ix ← hnswLevel p ctx tags start (hnswEntry p inner ctx) sched
    .ok (ix :: inner)

end Grann
