import Verif.Model.Persist
import Verif.Model.Again
import Verif.Model.LabelMedoids
import Verif.Model.Medoid
import Verif.Model.Build
import Verif.Model.Stats
import Verif.Model.IvfFile
import Verif.Model.LshFile
/-!
# Model of a whole build on an index object

The other files model the parts of `build`; here they are put together on the object that the constructor
makes and that `save` writes.
-/

namespace Grann

/-- The elements of a vector: pieces of `es` bytes. -/
def elems (es : Nat) (row : Bytes) : List Bytes :=
  (List.range (row.length / es)).map (fun k => (row.drop (k * es)).take es)

/-- The build parameters of Vamana (src/vamana.cpp:226-229, src/graph_index.cpp:240) and everything else the
result depends on: the sorts of the standard library, float arithmetic, the order in which the label loop's
iterations pass its critical section, the results of `rand`, and the schedule of the parallel loop. -/
structure VamanaRun where
  L : Nat
  R : Nat
  C : Nat
  alpha : F32
  pruningRule : Nat
  sortF : List Nbr → List Nbr
  sortOut : List Nat → List Nat
  sortIn : List (Nat × Nat) → List (Nat × Nat)
  div : F32 → F32 → F32
  mops : MedoidOps Bytes
  order : List Label
  draw : Nat → Nat
  sched : List Nat

/-- The label part of the build (src/vamana.cpp:222-224). -/
def vamanaLabels (es : Nat) (cmp : Bytes → Bytes → F32) (r : VamanaRun) (o : IdxObj) : Res (List (Label × Nat)) :=
  if o.filtered then do
    let s ← labelMedoids (o.view es cmp).ctx r.order r.draw ⟨o.medoids, []⟩
    .ok s.medoids
  else .ok o.medoids

/-- The configuration of the parallel loop. -/
def vamanaRunCfg (es : Nat) (cmp : Bytes → Bytes → F32) (r : VamanaRun) (o : IdxObj) (med : List (Label × Nat))
    (start : Nat) : BuildCfg Bytes :=
  vamanaCfg ⟨(o.view es cmp).ctx, o.filtered, r.div⟩ r.sortF r.L r.R r.C r.alpha r.pruningRule start med

/-- `Vamana::build` (src/vamana.cpp:219-337) on an object: entry points of the labels, `_out_nbrs.resize`, the start
node, the parallel loop, the clean-up, `update_degree_stats`.  `Err.loop` stands for a schedule after which the
parallel loop has not ended.  `_medoid_counts` is not kept: it is only read here. -/
def vamanaBuild (es : Nat) (cmp : Bytes → Bytes → F32) (r : VamanaRun) (o : IdxObj) : Res IdxObj := do
  let med ← vamanaLabels es cmp r o
  let start ← medoid r.mops ((o.rows es).map (elems es)) o.adim
  let s ← runSched (vamanaRunCfg es cmp r o med start) r.sched (BSt.start (resizeLists o.n o.graph))
  if s.Finished then do
    let g ← cleanup (vamanaRunCfg es cmp r o med start) s.adj
    let st ← degreeStats r.sortOut r.sortIn g
    .ok { o with graph := g, start := start, medoids := med, maxDeg := st.maxDegree }
  else .error .loop

/-- Everything the result of `RelativeNG::build` depends on besides the object; its parameters are the number of points
and 1 (src/relative_ng.cpp:158-164). -/
structure RngRun where
  sortF : List Nbr → List Nbr
  sortOut : List Nat → List Nat
  sortIn : List (Nat × Nat) → List (Nat × Nat)
  div : F32 → F32 → F32
  mops : MedoidOps Bytes

/-- `RelativeNG::build` (src/relative_ng.cpp:135-204) on an object: the start node, the loop over all points,
`update_degree_stats`. -/
def rngBuildObj (es : Nat) (cmp : Bytes → Bytes → F32) (r : RngRun) (o : IdxObj) : Res IdxObj := do
  let start ← medoid r.mops ((o.rows es).map (elems es)) o.adim
  let g ← rngBuildAgain r.sortF (o.view es cmp).ctx r.div o.graph
  let st ← degreeStats r.sortOut r.sortIn g
  .ok { o with graph := g, start := start, maxDeg := st.maxDegree }

/-- Everything the result of `IVFIndex::build` depends on besides the object: the number of clusters, the centres that
k-means found for the sampled training data, the order in which a heap gives its entries, and the order of the threads. -/
structure IvfRun where
  nc : Nat
  centers : Bytes
  pops : List F32 → List Nat
  sched : Nat → List (Nat × Nat) → List (Nat × Nat)

/-- `IVFIndex::build` (src/ivf.cpp:86-122) on an object, for given centres.  `cdist` computes the distances of a vector to
the centres. -/
def ivfBuildObj (es : Nat) (cdist : Bytes → Nat → Nat → Bytes → List F32) (r : IvfRun) (o : IvfObj) : Res IvfObj := do
  let inv ← ivfBuildAgain r.nc r.pops r.sched ((o.base.rows es).map (cdist r.centers r.nc o.base.adim)) o.inv
  .ok { o with nc := r.nc, centers := r.centers, inv := inv }

/-- `LSHIndex::build` (src/lsh.cpp:129-148) on an object, for given hyperplanes (`hps`, one list for each table): the new
tables go behind those the object has, and the points are added to all of them.  `exit(1)` if `table_size > 64`
(src/lsh.cpp:13-16). -/
def lshBuildObj (es : Nat) (dot : Bytes → Bytes → F32) (tableSize : Nat) (hps : List (List Bytes)) (o : LshObj) : Res LshObj := do
  let new ← hps.mapM (fun h => if tableSize > 64 then (.error .exit : Res (HTable Bytes)) else .ok ⟨h, tableSize, []⟩)
  let ts ← (o.tables ++ new).mapM (lshFill dot (o.base.rows es) o.base.tags)
  .ok { o with numTables := hps.length, tableSize := tableSize, tables := ts }

end Grann
