import Verif.Model.Locks
import Verif.Model.Build
import Verif.Model.Recall
/-!
# The parallel loops of `Vamana::build` and `HNSW::build` with every load and store a step

The same code as in `Model/Build.lean` (src/vamana.cpp:251-301, src/hnsw.cpp:172-225,
src/graph_index.cpp:77-110 and 234-303), as an instance of `Model/Locks.lean`.  Here the critical sections
are not atomic, and the `reserve` that is made without the lock (src/vamana.cpp:291-292,
src/hnsw.cpp:215-216) is present.
-/

namespace Grann

/-- `des = _out_nbrs[n]` and `copy_of_neighbors = des_pool` (src/graph_index.cpp:90, 260): `n` further
elements from position `j` on. -/
def loadFrom {β : Type} (k : List Nat → VProg β) : Nat → Nat → List Nat → VProg β
  | 0, _, acc => k acc
  | n + 1, j, acc => .load j (fun x => loadFrom k n (j + 1) (acc ++ [x]))

def copyProg {β : Type} (k : List Nat → VProg β) : VProg β := .size (fun n => loadFrom k n 0 [])

/-- `std::find(des_pool.begin(), des_pool.end(), n)` (src/graph_index.cpp:255). -/
def findFrom {β : Type} (y : Nat) (k : Bool → VProg β) : Nat → Nat → VProg β
  | 0, _ => k false
  | n + 1, j => .load j (fun x => if x = y then k true else findFrom y k n (j + 1))

def findProg {β : Type} (y : Nat) (k : Bool → VProg β) : VProg β := .size (fun n => findFrom y k n 0)

/-- `emplace_back` in a loop (src/vamana.cpp:295-296, src/graph_index.cpp:297-299). -/
def pushProg {β : Type} (k : VProg β) : List Nat → VProg β
  | [] => k
  | x :: xs => .push x (pushProg k xs)

/-- How far a task has come: as in `Model/Build.lean`, with the moment after `reserve` and before the lock is
taken distinguished. -/
inductive BPhase
  | plain (t : Task)
  | reserved (pruned : List Nat)

/-- The rest of an iteration of the main loop of the search, with the copied list `des`
(src/graph_index.cpp:82-109). -/
def greedyOn {V : Type} (c : Ctx V) (q : V) (filters : List Label) (L : Nat) (s : GSt) (x : Nbr)
    (des : List Nat) : Res GSt := do
  let pool' ← wr s.ps.pool s.k { x with flag := false }
  let ps' ← procCands c q filters L { s.ps with pool := pool' } des
  .ok ⟨ps', if ps'.best ≤ s.k then ps'.best else s.k + 1, s.hops + 1,
      s.expanded ++ [{ x with flag := false }]⟩

/-- `(_u64)(VAMANA_SLACK_FACTOR * degree_bound)` (src/vamana.cpp:292), in double precision. -/
def reserveArg (R : Nat) : Nat :=
  let x := dmul (roundBin 53 (13, 10)) (R, 1)
  x.1 / x.2

/-- `1.05 * VAMANA_SLACK_FACTOR * degree_bound` as a `size_t` (src/vamana.cpp:240, src/hnsw.cpp:161), in
double precision. -/
def firstCap (R : Nat) : Nat :=
  let x := dmul (dmul (roundBin 53 (105, 100)) (roundBin 53 (13, 10))) (R, 1)
  x.1 / x.2

/-- The body of the critical section of src/graph_index.cpp:252-264. -/
def recipProg {V : Type} (cfg : BuildCfg V) (i des : Nat) (rest : List Nat) : VProg (Res BPhase) :=
  findProg i (fun found =>
    if found then .ret (.ok (.plain (.recip rest)))
    else .size (fun sz =>
      if 10 * sz < 13 * cfg.R then .push i (.ret (.ok (.plain (.recip rest))))
      else copyProg (fun dp => .ret (.ok (.plain (.prune des dp rest))))))

/-- What the task for location `i` does next. -/
def buildNext {V : Type} (cfg : BuildCfg V) (i : Nat) : BPhase → Next BPhase
  | .plain .done => .halt
  | .plain .todo => .priv (
      if cfg.n / 10 = 0 then .error .ub
      else do
        let init ← cfg.init i
        let v ← rd cfg.env.ctx.data i
        let g ← greedyStart cfg.sortF cfg.env.ctx v cfg.L init
        .ok (.plain (.search g)))
  | .plain (.search g) =>
    if g.k < g.ps.cur then
      match rd cfg.env.ctx.data i, rd g.ps.pool g.k with
      | .ok v, .ok x =>
        if x.flag then
          .crit x.id false (copyProg (fun des => .ret (do
            let g' ← greedyOn cfg.env.ctx v (cfg.filters i) cfg.L g x des
            .ok (.plain (.search g')))))
        else .priv (.ok (.plain (.search { g with k := g.k + 1 })))
      | _, _ => .priv (.error .ub)
    else .priv (do
      let pruned ← pruneBy cfg cfg.topKOwn i (if cfg.wholePool then g.ps.pool else g.expanded)
      .ok (.plain (.link pruned)))
  | .plain (.link pruned) => .touch i (reserveArg cfg.R) (.reserved pruned)
  | .reserved pruned => .crit i true (pushProg (.ret (.ok (.plain (.recip pruned)))) pruned)
  | .plain (.recip []) => .priv (.ok (.plain .done))
  | .plain (.recip (des :: rest)) => .crit des true (recipProg cfg i des rest)
  | .plain (.prune des copy rest) =>
    match reprune cfg cfg.topKRecip des (copy ++ [i]) with
    | .ok new => .crit des true (.clear (pushProg (.ret (.ok (.plain (.recip rest)))) new))
    | .error e => .priv (.error e)

/-- The memory and the tasks when the parallel loop starts: every list has been given the capacity
`firstCap R` at least (src/vamana.cpp:238-240). -/
def buildFineStart (R : Nat) (old : List Vec) : FSt BPhase :=
  ⟨old.map (fun x => x.reserve (firstCap R)), List.replicate old.length (.out (.plain .todo))⟩

end Grann
