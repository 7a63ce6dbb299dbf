import Verif.Model.Recall
/-!
# Model of the measuring loop of the search programs

tests/search_vamana.cpp:116-145, tests/search_ivf.cpp:93-123, tests/search_lsh.cpp:94-124, tests/search_hnsw.cpp:110-139
and tests/search_relng.cpp are the same loop: an array of `recall_at * query_num` zeros, a parallel loop in which the
search for query `i` writes the identifiers it found from position `i * recall_at` on, and a call of
`calculate_recall`.

What the search for query `i` finds is a parameter `found i`.  Not modelled: the distances, times and counters, the
conversion of the returned `double` to `float`.
-/

namespace Grann

/-- The stores of the search for query `i`: positions and values (for instance src/ivf.cpp:157-162). -/
def storesOf (K i : Nat) (ids : List Nat) : List (Nat × Nat) := ids.mapIdx (fun j x => (i * K + j, x))

/-- All stores of the parallel loop, query by query (tests/search_ivf.cpp:104-108). -/
def allStores (K nq : Nat) (found : Nat → List Nat) : List (Nat × Nat) :=
  (List.range nq).flatMap (fun i => storesOf K i (found i))

/-- Executing stores one after the other, in the order of `evs`. -/
def runStores (a : List Nat) (evs : List (Nat × Nat)) : Res (List Nat) :=
  evs.foldlM (fun a e => wr a e.1 e.2) a

/-- The loop and `total_recall` inside `calculate_recall` (tests/search_vamana.cpp:119-145); `evs` is the order in which
the threads' stores happen. -/
def driverHits (K nq : Nat) (evs : List (Nat × Nat)) (gold : List Nat) (dists : Option (List F32)) (dimGs : Nat) :
    Res Nat := do
  let ids ← runStores (List.replicate (K * nq) 0) evs
  recallTotal nq gold dists dimGs ids K K

end Grann
