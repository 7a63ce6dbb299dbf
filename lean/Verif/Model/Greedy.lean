import Verif.Model.Pool
/-!
# Model of `GraphIndex::greedy_search_to_fixed_point` (src/graph_index.cpp:41-116)
-/

namespace Grann

/-- `best_L_nodes.resize(n)` (src/graph_index.cpp:47): keeps a prefix, appends default entries. -/
def resizePool (pool : List Nbr) (n : Nat) : List Nbr :=
  pool.take n ++ List.replicate (n - pool.length) Nbr.dflt

/-- The loop over the entry points (src/graph_index.cpp:57-69).  The distance is computed as
`compare(data, query)`, i.e. with the arguments swapped with respect to the candidate loop.
A repeated identifier is skipped; the loop stops once `l == Lsize`. -/
def initLoop {V : Type} (c : Ctx V) (q : V) (L : Nat) : List Nat → PoolSt → Res PoolSt
  | [], s => .ok s
  | id :: ids, s => do
    let v ← rd c.data id
    let s' ←
      if s.ins.contains id then .ok s
      else do
        let pool' ← wr s.pool s.cur ⟨id, c.cmp v q, true⟩
        .ok { s with pool := pool', cur := s.cur + 1, ins := id :: s.ins }
    if s'.cur = L then .ok s' else initLoop c q L ids s'

/-- State of the main loop (src/graph_index.cpp:73-110): pool variables (`best_L_nodes`, `l`,
`inserted_into_pool`, `cmps`), position `k`, `hops`, and `expanded_nodes_info` in order of insertion
(`expanded_nodes_ids` is the set of its identifiers). -/
structure GSt where
  ps : PoolSt
  k : Nat
  hops : Nat
  expanded : List Nbr
  deriving DecidableEq, Repr

/-- One iteration of the main loop (src/graph_index.cpp:77-110), with `graph` the content of `_out_nbrs`
when the iteration reads it (the read is protected by a lock, src/graph_index.cpp:88-91). -/
def greedyIter {V : Type} (c : Ctx V) (q : V) (filters : List Label) (L : Nat)
    (graph : List (List Nat)) (s : GSt) : Res GSt := do
  let x ← rd s.ps.pool s.k
  if x.flag then do
    let pool' ← wr s.ps.pool s.k { x with flag := false }
    let des ← rd graph x.id
    let ps' ← procCands c q filters L { s.ps with pool := pool' } des
    .ok ⟨ps', if ps'.best ≤ s.k then ps'.best else s.k + 1, s.hops + 1,
        s.expanded ++ [{ x with flag := false }]⟩
  else .ok { s with k := s.k + 1 }

/-- The main loop (src/graph_index.cpp:77-110).  `adj t` is the graph `_out_nbrs` at the time of the
`t`-th expansion: outside a build it does not depend on `t`, during a build other threads change it
between two reads.
`fuel` bounds the number of iterations. -/
def greedyLoop {V : Type} (c : Ctx V) (q : V) (filters : List Label) (L : Nat)
    (adj : Nat → List (List Nat)) : Nat → GSt → Res GSt
  | 0, s => if s.k < s.ps.cur then .error .loop else .ok s
  | fuel + 1, s =>
    if s.k < s.ps.cur then do
      let s' ← greedyIter c q filters L (adj s.hops) s
      greedyLoop c q filters L adj fuel s'
    else .ok s

/-- The part of `greedy_search_to_fixed_point` before the main loop (src/graph_index.cpp:47-76).
`sortF` stands for `std::sort` on the first `l` entries (src/graph_index.cpp:72); `Lsize + 1` is
computed in 32 bits.  The caller's `best_L_nodes`, `expanded_nodes_info` and `expanded_nodes_ids` are
empty on entry at every call site.  The `reserve` calls have no visible effect. -/
def greedyStart {V : Type} (sortF : List Nbr → List Nbr) (c : Ctx V) (q : V) (L : Nat)
    (init : List Nat) : Res GSt := do
  let s ← initLoop c q L init ⟨resizePool [] (u32 (L + 1)), 0, [], 0, L⟩
  let pool := sortF (s.pool.take s.cur) ++ s.pool.drop s.cur
  .ok ⟨{ s with pool := pool }, 0, 0, []⟩

/-- `greedy_search_to_fixed_point` (src/graph_index.cpp:41-116) with at most `fuel` loop iterations. -/
def greedySearchF {V : Type} (fuel : Nat) (sortF : List Nbr → List Nbr) (c : Ctx V) (q : V)
    (filters : List Label) (L : Nat) (adj : Nat → List (List Nat)) (init : List Nat) : Res GSt := do
  let s ← greedyStart sortF c q L init
  greedyLoop c q filters L adj fuel s

/-- `greedy_search_to_fixed_point` (src/graph_index.cpp:41-116) with a number of iterations that is
always enough (theorem `C05_terminates`): every point is expanded at most once and between two
expansions the position `k` advances at most `L` times. -/
def greedySearch {V : Type} (sortF : List Nbr → List Nbr) (c : Ctx V) (q : V)
    (filters : List Label) (L : Nat) (adj : Nat → List (List Nat)) (init : List Nat) : Res GSt :=
  greedySearchF ((c.data.length + 1) * (L + 1)) sortF c q filters L adj init

/-- The contract of `std::sort` with `Neighbor::operator<` (include/index.h:59-61): the result is a
permutation, and it is in non-descending order of distance provided the comparison is a strict weak
order on the range, i.e. no distance is NaN.  (For NaN the standard gives no guarantee; requiring a
permutation then is a simplification.)  How ties are ordered is left open. -/
structure IsStdSort (sortF : List Nbr → List Nbr) : Prop where
  perm : ∀ l, (sortF l).Perm l
  sorted : ∀ l, (∀ x ∈ l, x.dist.IsNum) → (sortF l).Pairwise (fun x y => x.dist.le y.dist = true)

end Grann
