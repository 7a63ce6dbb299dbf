import Verif.Model.Pipeline
import Verif.Model.Hnsw
/-!
# Model of `HNSW::build` on an index object, with the temporary file
-/

namespace Grann

/-- Everything the result of `HNSW::build` depends on besides the object, the samples and the schedules: the parameters, the
arithmetic of the start node, the sort of labels (never used), and uninitialised memory, for each level. -/
structure HnswRun where
  p : HnswParams
  mops : MedoidOps Bytes
  sortL : List Label → List Label
  junk : Nat → Junk

/-- The configuration of the parallel loop of one level. -/
def hnswObjCfg (es : Nat) (cmp : Bytes → Bytes → F32) (r : HnswRun) (entry : Nat → Res (List Nat)) (o : IdxObj) :
    BuildCfg Bytes :=
  hnswCfg (o.view es cmp).ctx r.p.div r.p.sortF r.p.L r.p.R r.p.C r.p.alpha r.p.pruningRule entry

/-- One level of `HNSW::build` (src/hnsw.cpp:146-259) on an object; `update_degree_stats` is commented out (line 260). -/
def hnswLevelObj (es : Nat) (cmp : Bytes → Bytes → F32) (r : HnswRun) (start : Nat) (entry : Nat → Res (List Nat))
    (sched : List Nat) (o : IdxObj) : Res IdxObj := do
  let s ← runSched (hnswObjCfg es cmp r entry o) sched (BSt.start (resizeLists o.n o.graph))
  if s.Finished then do
    let g ← cleanup (hnswObjCfg es cmp r entry o) s.adj
    .ok { o with graph := g, start := start }
  else .error .loop

/-- `HNSW::build` (src/hnsw.cpp:122-265) on an object.  `fs` is the file `/tmp/temp_data`.  Above the bottom level the sampled
vectors are written to it, the inner object is constructed from it with their numbers as tags, the file is removed and the
inner object is built.  Every level then gets its start node and its graph. -/
def hnswBuildObj (es : Nat) (cmp : Bytes → Bytes → F32) (r : HnswRun) (sched0 : List Nat) :
    List ((Nat → Bool) × List Nat) → FS Unit → IdxObj → Res (List IdxObj)
  | [], _, o => do
    let start ← medoid r.mops ((o.rows es).map (elems es)) o.adim
    let o' ← hnswLevelObj es cmp r start (fun _ => .ok [start]) sched0 o
    .ok [o']
  | (keep, sched) :: ups, fs, o => do
    let ids := sampleIds keep o.n
    let ops ← saveSubset () es o.data o.adim o.dim ids
    let oi ← ctorObj r.sortL (r.junk ups.length) es (runOps ops fs ()) ids none
    let inner ← hnswBuildObj es cmp r sched0 ups (runOps (ops ++ [.remove ()]) fs) oi
    let start ← medoid r.mops ((o.rows es).map (elems es)) o.adim
    let o' ← hnswLevelObj es cmp r start (hnswEntry r.p (inner.map (IdxObj.view es cmp)) (o.view es cmp).ctx) sched o
    .ok (o' :: inner)

end Grann
