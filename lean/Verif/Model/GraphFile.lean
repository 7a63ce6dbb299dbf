import Verif.Basic.Bytes
/-!
# Model of the graph files (src/vamana.cpp, src/relative_ng.cpp, src/hnsw.cpp)

The three classes write and read the same format with the same code.
-/

namespace Grann

/-- What is written for one point (src/vamana.cpp:53-58, src/relative_ng.cpp:34-37, src/hnsw.cpp:55-58):
the number of neighbours, then the neighbours. -/
def nodeOps {P : Type} (p : P) (nb : List Nat) : List (FOp P) :=
  [.append p (le 4 (u32 nb.length)), .append p (le32s (nb.take (u32 nb.length)))]

/-- Number of bytes written for the points. -/
def nodesSize (g : List (List Nat)) : Nat := (g.map (fun nb => 4 + 4 * u32 nb.length)).sum

/-- The graph part of `save` (src/vamana.cpp:46-62, src/relative_ng.cpp:27-43, src/hnsw.cpp:48-64): a
placeholder for the size, the maximal degree, the entry point, the adjacency lists of the points below
`n`; finally the size is written over the placeholder. -/
def saveGraph {P : Type} (p : P) (n maxDeg start : Nat) (g : List (List Nat)) : Res (List (FOp P)) := do
  let rows ← (List.range n).mapM (rd g)
  .ok ([.create p, .append p (le 8 0), .append p (le 4 maxDeg), .append p (le 4 start)] ++
    rows.flatMap (nodeOps p) ++ [.patch p (le 8 (16 + nodesSize rows))])

/-- The reading loop of `load` (src/vamana.cpp:111-124, src/relative_ng.cpp:60-73, src/hnsw.cpp:87-100).
`junk i` is what the variable `k` of the iteration with `i` iterations to go holds before it is read; the
vector `tmp` starts out as zeros. -/
def graphLoop (junk : Nat → Bytes) : Nat → IStream → List (List Nat) → Res (List (List Nat))
  | 0, _, _ => .error .loop
  | fuel + 1, s, g =>
    if s.eof then .ok g
    else
      let (k, s1) := s.readInt (junk fuel)
      if s1.eof then .ok g
      else
        let (b, s2) := s1.read (k * 4)
        graphLoop junk fuel s2 (g ++ [un32s k (b ++ List.replicate (k * 4 - b.length) 0)])

/-- What `load` leaves behind: `_max_degree`, `_start_node`, `_out_nbrs`, and whether the message about a
mismatch in the number of points is printed (src/vamana.cpp:125-130; no exception is thrown, no status is
returned). -/
structure LoadedGraph where
  maxDeg : Nat
  start : Nat
  graph : List (List Nat)
  reported : Bool
  deriving DecidableEq, Repr

/-- The graph part of `load` (src/vamana.cpp:102-134, src/relative_ng.cpp:52-83, src/hnsw.cpp:79-110) for
an object that hosts `n` points and has the adjacency lists `g0` already; `old1`, `old2`, `old3` are the
bytes of `expected_file_size`, `_max_degree`, `_start_node` before the call. -/
def loadGraph (junk : Nat → Bytes) (fuel : Nat) (old1 old2 old3 : Bytes) (g0 : List (List Nat)) (n : Nat)
    (file : Option Bytes) : Res LoadedGraph := do
  let (_, s) := (IStream.open file).readInt old1
  let (maxDeg, s) := s.readInt old2
  let (start, s) := s.readInt old3
  let g ← graphLoop junk fuel s g0
  .ok ⟨maxDeg, start, g, g.length != n⟩

end Grann
