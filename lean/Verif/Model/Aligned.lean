import Verif.Model.BinFile
/-!
# Model of the alignment of vectors

Addresses are numbers.  The vectors of an index and the queries of the search programs are the rows of blocks that
`load_aligned_bin` allocates; the distance functions tell the compiler how their arguments are aligned.
-/

namespace Grann

/-- The element types the indices are instantiated for. -/
inductive ElemTy
  | float
  | int8
  | uint8
  deriving DecidableEq, Repr

/-- `sizeof(T)`. -/
def ElemTy.size : ElemTy → Nat
  | .float => 4
  | .int8 => 1
  | .uint8 => 1

/-- What `DistanceL2`, `DistanceL2Int8` and `DistanceL2UInt8` promise to the compiler about their arguments
(include/distance.h:44, 57, 70-74); the other distances use unaligned loads. -/
def ElemTy.promised : ElemTy → Nat
  | .float => 32
  | .int8 => 8
  | .uint8 => 8

/-- The arguments of `aligned_alloc` in `load_aligned_bin` (include/utils.h:22, 240-244): alignment and size. -/
def alignedAllocArgs (es npts dim : Nat) : Nat × Nat := (8 * es, u64 (npts * roundUp8 dim * es))

/-- The arguments of `aligned_alloc` in the ground-truth programs (src/aux_compute_groundtruth.cpp:53-60, 225,
tests/utils/compute_groundtruth.cpp:57-64, 252). -/
def truthAllocArgs (npts dim : Nat) : Nat × Nat := (512, u64 (4 * u64 (npts * dim)))

/-- The address of a vector: `_data + _aligned_dim * id` (src/index.cpp:274-277, src/graph_index.cpp:60-63, 186-189,
279-282, src/hnsw.cpp:237-240, src/relative_ng.cpp:182-185, src/vamana.cpp:313-316) and `query + i * query_aligned_dim`
(tests/search_vamana.cpp:128). -/
def rowAddr (es base adim i : Nat) : Nat := base + adim * i * es

end Grann
