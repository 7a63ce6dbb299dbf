import Verif.Model.Prune
/-!
# Model of the parallel graph construction of Vamana and HNSW

`Vamana::build` (src/vamana.cpp:218-337), `HNSW::build` (src/hnsw.cpp:122-265) and
`GraphIndex::add_reciprocal_edges` (src/graph_index.cpp:234-303).

Every iteration of the parallel loop over `location` is a *task*.  The only data shared between tasks are
the lists `_out_nbrs[v]`; every access to the elements of one of them is made under `_locks[v]`, so a build
is a sequence of atomic steps, each of which is the part of one task from one critical section to the next.
(Verif/Model/BuildFine.lean is the same build with every operation on a list a step of its own;
`C76_critical_sections_atomic` shows that nothing is lost here.)  A schedule is the list of the tasks that take the successive steps.  `schedule(static, 64)` restricts which tasks
can be active at the same time; every restriction only removes schedules, so theorems about all schedules
cover every number of threads and every OpenMP schedule.

The comparison of a size with `GRAPH_SLACK_FACTOR * range` in double precision is made in integers
(`C76_slack_exact`).

Not modelled: console output and timing; the `reserve` calls (src/vamana.cpp:291, src/hnsw.cpp:215, made
without the lock: see Verif/Model/BuildFine.lean); exceptions for missing parameters (src/vamana.cpp:226-229, src/hnsw.cpp:125-149).
-/

namespace Grann

/-- What a build depends on.  `topKOwn` selects the rule with which a task prunes its own candidates and
the clean-up prunes (src/vamana.cpp:288,321: always alpha; src/hnsw.cpp:208-213,249-254: by
`pruning_rule`), `topKRecip` the rule of src/graph_index.cpp:287-293.  `wholePool` tells whether the
candidates are all of `best_L_nodes` (src/hnsw.cpp:209, including the slots never filled) or the expanded
nodes (src/vamana.cpp:269-284).  `init` yields the entry points of the search for a location, `filters`
the labels the search is restricted to. -/
structure BuildCfg (V : Type) where
  env : PruneEnv V
  sortF : List Nbr → List Nbr
  L : Nat
  R : Nat
  C : Nat
  alpha : F32
  topKOwn : Bool
  topKRecip : Bool
  wholePool : Bool
  init : Nat → Res (List Nat)
  filters : Nat → List Label

/-- `_num_points`. -/
def BuildCfg.n {V : Type} (cfg : BuildCfg V) : Nat := cfg.env.ctx.data.length

/-- How far the iteration of the parallel loop for one location has come. -/
inductive Task
  /-- not started -/
  | todo
  /-- in the main loop of the greedy search (src/graph_index.cpp:77-110) -/
  | search (g : GSt)
  /-- neighbours chosen, not yet stored (src/vamana.cpp:293) -/
  | link (pruned : List Nat)
  /-- adding reverse edges; these are still to do (src/graph_index.cpp:246) -/
  | recip (rest : List Nat)
  /-- list of `des` copied as `copy`, not yet written back (src/graph_index.cpp:266-300) -/
  | prune (des : Nat) (copy rest : List Nat)
  | done
  deriving DecidableEq, Repr

structure BSt where
  adj : List (List Nat)
  tasks : List Task
  deriving DecidableEq, Repr

/-- The two pruning rules; the result list is empty on entry at all call sites in the build. -/
def pruneBy {V : Type} (cfg : BuildCfg V) (topK : Bool) (point : Nat) (cands : List Nbr) :
    Res (List Nat) :=
  if topK then .ok (pruneTopK cfg.sortF cfg.R point cands [])
  else pruneAlpha cfg.sortF cfg.env cfg.alpha cfg.C cfg.R point cands []

/-- Building `dummy_pool` (src/graph_index.cpp:276-286, src/vamana.cpp:310-320, src/hnsw.cpp:234-244);
`vis` is `dummy_visited`. -/
def dummyPool {V : Type} (c : Ctx V) (des : Nat) : List Nat → List Nat → Res (List Nbr)
  | [], _ => .ok []
  | x :: xs, vis =>
    if vis.contains x || x == des then dummyPool c des xs vis
    else do
      let vd ← rd c.data des
      let vx ← rd c.data x
      let rest ← dummyPool c des xs (x :: vis)
      .ok (⟨x, c.cmp vd vx, true⟩ :: rest)

/-- Pruning a list of neighbours again (src/graph_index.cpp:268-293, src/vamana.cpp:306-322,
src/hnsw.cpp:230-250). -/
def reprune {V : Type} (cfg : BuildCfg V) (topK : Bool) (des : Nat) (nbrs : List Nat) :
    Res (List Nat) := do
  let pool ← dummyPool cfg.env.ctx des nbrs []
  pruneBy cfg topK des pool

/-- One atomic step of the task for location `i`.  A finished task, or one that does not exist, does
nothing.

* `todo`: `location % progress_milestone` (src/vamana.cpp:253, src/hnsw.cpp:174) divides by `n / 10`;
  then the search starts (src/graph_index.cpp:47-76).
* `search`: one iteration of the main loop; the list is read under the lock (src/graph_index.cpp:88-92).
  When the loop ends the candidates are pruned (src/vamana.cpp:288, src/hnsw.cpp:208-213).
* `link`: src/vamana.cpp:293-297, src/hnsw.cpp:217-221.
* `recip`: first critical section of src/graph_index.cpp:251-264.  `size < 1.3 * R` is computed in
  double precision.  Its outcome is that of the exact comparison `10 * size < 13 * R`: the constant
  differs from 1.3 by a relative error below 2^-54, so the product rounds to the exact integer when 10
  divides 13 * R, and is otherwise at least 0.09 away from every integer (R < 2^32).
* `prune`: src/graph_index.cpp:267-300. -/
def buildStep {V : Type} (cfg : BuildCfg V) (s : BSt) (i : Nat) : Res BSt :=
  match s.tasks[i]? with
  | none => .ok s
  | some .done => .ok s
  | some .todo =>
    if cfg.n / 10 = 0 then .error .ub
    else do
      let init ← cfg.init i
      let v ← rd cfg.env.ctx.data i
      let g ← greedyStart cfg.sortF cfg.env.ctx v cfg.L init
      .ok { s with tasks := s.tasks.set i (.search g) }
  | some (.search g) =>
    if g.k < g.ps.cur then do
      let v ← rd cfg.env.ctx.data i
      let g' ← greedyIter cfg.env.ctx v (cfg.filters i) cfg.L s.adj g
      .ok { s with tasks := s.tasks.set i (.search g') }
    else do
      let pruned ← pruneBy cfg cfg.topKOwn i (if cfg.wholePool then g.ps.pool else g.expanded)
      .ok { s with tasks := s.tasks.set i (.link pruned) }
  | some (.link pruned) => do
    let own ← rd s.adj i
    let adj ← wr s.adj i (own ++ pruned)
    .ok ⟨adj, s.tasks.set i (.recip pruned)⟩
  | some (.recip []) => .ok { s with tasks := s.tasks.set i .done }
  | some (.recip (des :: rest)) => do
    let dp ← rd s.adj des
    if dp.contains i then .ok { s with tasks := s.tasks.set i (.recip rest) }
    else if 10 * dp.length < 13 * cfg.R then do
      let adj ← wr s.adj des (dp ++ [i])
      .ok ⟨adj, s.tasks.set i (.recip rest)⟩
    else .ok { s with tasks := s.tasks.set i (.prune des dp rest) }
  | some (.prune des copy rest) => do
    let new ← reprune cfg cfg.topKRecip des (copy ++ [i])
    let adj ← wr s.adj des new
    .ok ⟨adj, s.tasks.set i (.recip rest)⟩

/-- The steps of a schedule. -/
def runSched {V : Type} (cfg : BuildCfg V) : List Nat → BSt → Res BSt
  | [], s => .ok s
  | i :: is, s => do
    let s' ← buildStep cfg s i
    runSched cfg is s'

/-- The state in which the parallel loop starts.  `_out_nbrs.resize(n)` (src/vamana.cpp:238) leaves `n`
empty lists in a new object; `adj` is a parameter to cover a second `build` of the same object. -/
def BSt.start (adj : List (List Nat)) : BSt := ⟨adj, List.replicate adj.length .todo⟩

/-- A new object. -/
def freshAdj (n : Nat) : List (List Nat) := List.replicate n []

/-- The parallel loop has ended. -/
def BSt.Finished (s : BSt) : Prop := ∀ t ∈ s.tasks, t = .done

instance (s : BSt) : Decidable s.Finished := by unfold BSt.Finished; infer_instance

/-- One iteration of the clean-up loop (src/vamana.cpp:303-328, src/hnsw.cpp:227-256). -/
def cleanupNode {V : Type} (cfg : BuildCfg V) (node : Nat) (nb : List Nat) : Res (List Nat) :=
  if cfg.R < nb.length then reprune cfg cfg.topKOwn node nb else .ok nb

/-- The clean-up loop.  Its iterations touch disjoint data, so their order is irrelevant. -/
def cleanup {V : Type} (cfg : BuildCfg V) (adj : List (List Nat)) : Res (List (List Nat)) :=
  adj.zipIdx.mapM (fun p => cleanupNode cfg p.2 p.1)

/-- The entry points of the search for a location in `Vamana::build` (src/vamana.cpp:269-284 and
141-155): without labels the start node; otherwise the entry points of the point's own labels, and the
start node if there is none. -/
def vamanaBuildInit (filtered : Bool) (start : Nat) (medoids : List (Label × Nat)) (labels : List (List Label))
    (i : Nat) : Res (List Nat) :=
  if filtered then do
    let ls ← rd labels i
    let ids := ls.filterMap (fun l => medoids.lookup l)
    .ok (if ids.isEmpty then [start] else ids)
  else .ok [start]

/-- `Vamana::build` (src/vamana.cpp:218-337) as an instance. -/
def vamanaCfg {V : Type} (env : PruneEnv V) (sortF : List Nbr → List Nbr) (L R C : Nat) (alpha : F32)
    (pruningRule start : Nat) (medoids : List (Label × Nat)) : BuildCfg V where
  env := env
  sortF := sortF
  L := L
  R := R
  C := C
  alpha := alpha
  topKOwn := false
  topKRecip := pruningRule != 0
  wholePool := false
  init := vamanaBuildInit env.filtered start medoids env.ctx.labels
  filters := fun i => if env.filtered then env.ctx.labels.getD i [] else []

/-- One level of `HNSW::build` (src/hnsw.cpp:122-265) as an instance; `entry i` is what lines 194-202
compute: the start node on the bottom-most level, else the results of the search in the level above. -/
def hnswCfg {V : Type} (ctx : Ctx V) (div : F32 → F32 → F32) (sortF : List Nbr → List Nbr) (L R C : Nat)
    (alpha : F32) (pruningRule : Nat) (entry : Nat → Res (List Nat)) : BuildCfg V where
  env := ⟨ctx, false, div⟩
  sortF := sortF
  L := L
  R := R
  C := C
  alpha := alpha
  topKOwn := pruningRule != 0
  topKRecip := pruningRule != 0
  wholePool := true
  init := entry
  filters := fun _ => []

end Grann
