import Verif.Model.Greedy
/-!
# Model of the `search` member functions of the graph indices
-/

namespace Grann

/-- What a graph index object holds that its `search` reads: `_data`/labels/distance (`Ctx`),
`_tag_map` (include/index.h:160), `_out_nbrs` (include/graph_index.h), `_start_node` and, for Vamana,
`_filter_to_medoid_id` (include/vamana.h; an unordered map, given by its key/value pairs). -/
structure GIdx (V : Type) where
  ctx : Ctx V
  tags : List Nat
  graph : List (List Nat)
  start : Nat
  medoids : List (Label × Nat)

/-- The copy loop at the end of every graph search (src/vamana.cpp:362-367, src/hnsw.cpp:294-299,
src/relative_ng.cpp:224-229): `todo` iterations starting at `i`, writing the caller's buffers.
It runs to `res_count` whatever the number of results found. -/
def copyOut (tags : List Nat) (top : List Nbr) :
    Nat → Nat → List Nat → List F32 → Res (List Nat × List F32)
  | 0, _, ind, dst => .ok (ind, dst)
  | todo + 1, i, ind, dst => do
    let x ← rd top i
    let t ← rd tags x.id
    let ind ← wr ind i t
    let dst ← wr dst i x.dist
    copyOut tags top todo (i + 1) ind dst

/-- The common part of the graph searches, from the entry points on: greedy search, copy loop,
`return std::min(res_count, algo_fetched_count)` (src/vamana.cpp:357-368, src/hnsw.cpp:289-300,
src/relative_ng.cpp:219-230).  Result: contents of `indices`, of `distances`, and the return value. -/
def graphSearch {V : Type} (sortF : List Nbr → List Nbr) (ix : GIdx V) (q : V) (filters : List Label)
    (init : List Nat) (rc L : Nat) (ind : List Nat) (dst : List F32) :
    Res (List Nat × List F32 × Nat) := do
  let s ← greedySearch sortF ix.ctx q filters L (fun _ => ix.graph) init
  let (ind', dst') ← copyOut ix.tags s.ps.pool rc 0 ind dst
  .ok (ind', dst', min rc s.ps.cur)

/-- Entry points of a Vamana search (src/vamana.cpp:350-355). -/
def vamanaInit {V : Type} (ix : GIdx V) (filters : List Label) : List Nat :=
  if filters.length ≠ 0 then filters.filterMap (fun x => ix.medoids.lookup x) else [ix.start]

/-- `Vamana<T>::search` (src/vamana.cpp:340-369); `L` is the search parameter of that name. -/
def vamanaSearch {V : Type} (sortF : List Nbr → List Nbr) (ix : GIdx V) (q : V) (rc L : Nat)
    (ind : List Nat) (dst : List F32) (filters : List Label) : Res (List Nat × List F32 × Nat) :=
  graphSearch sortF ix q filters (vamanaInit ix filters) rc L ind dst

/-- `RelativeNG<T>::search` (src/relative_ng.cpp:207-231): `search_filters` is not used; the overload of
the greedy search called here (src/graph_index.cpp:119-127) passes an empty filter. -/
def rngSearch {V : Type} (sortF : List Nbr → List Nbr) (ix : GIdx V) (q : V) (rc L : Nat)
    (ind : List Nat) (dst : List F32) (_filters : List Label) : Res (List Nat × List F32 × Nat) :=
  graphSearch sortF ix q [] [ix.start] rc L ind dst

/-- `HNSW<T>::search` (src/hnsw.cpp:268-301).  The index is given by its levels, from the one the
caller holds to the innermost one (`_cur_level_number == 0`).  The inner search is called with the
caller's `res_count` but with buffers of `L` entries.  `search_filters` is not used. -/
def hnswSearch {V : Type} (sortF : List Nbr → List Nbr) (q : V) (rc L : Nat) :
    List (GIdx V) → List Nat → List F32 → List Label → Res (List Nat × List F32 × Nat)
  | [], _, _, _ => .error .ub
  | [ix], ind, dst, _ => graphSearch sortF ix q [] [ix.start] rc L ind dst
  | ix :: inner, ind, dst, _ => do
    let (ids, _, cnt) ← hnswSearch sortF q rc L inner (List.replicate L 0) (List.replicate L F32.zero) []
    let init := ids.take cnt ++ List.replicate (cnt - ids.length) 0
    graphSearch sortF ix q [] init rc L ind dst

end Grann
