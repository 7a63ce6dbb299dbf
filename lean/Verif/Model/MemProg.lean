import Verif.Model.Lifecycle
/-!
# Memory managed by hand inside functions

The functions and programs as far as their pointers and blocks of memory are concerned.  Conditions on data are left
open (both branches are possible), loops run any number of times, and every call that can throw may throw.  The
releases of `std::unique_ptr` and of the cached files, whose destructors are run on every exit of their scope, are
part of the language (`scope`).
-/

namespace Grann

/-- Statements.  `scope x s`: an object that owns the pointer `x` (null in the beginning) and releases it with
`delete[]` when its scope `s` is left, in whatever way. -/
inductive Ms
  | skip
  | decl (x : String)
  | null (x : String)
  | new (x : String) (k : Alloc)
  | free (x : String) (k : Alloc)
  | mayThrow
  | seq (a b : Ms)
  | either (a b : Ms)
  | ifNull (x : String) (a b : Ms)
  | loop (a : Ms)
  | scope (x : String) (a : Ms)
  deriving DecidableEq, Repr

infixr:60 " ;; " => Ms.seq

/-- The pointer variables and the heap. -/
structure MSt where
  env : String → Ptr
  heap : Heap

def MSt.set (s : MSt) (x : String) (p : Ptr) : MSt := { s with env := fun y => if y = x then p else s.env y }

/-- How a statement ends: normally, with an exception, or in undefined behaviour. -/
inductive MOut
  | ok (s : MSt)
  | thrown (s : MSt)
  | ub

/-- Leaving the scope of an owner. -/
def MSt.leave (s : MSt) (x : String) : Res MSt := do
  let h ← s.heap.free .arr (s.env x)
  .ok { s with heap := h }

/-- The executions of a statement. -/
inductive Exec : Ms → MSt → MOut → Prop
  | skip {s} : Exec .skip s (.ok s)
  | decl {s x} : Exec (.decl x) s (.ok (s.set x .uninit))
  | null {s x} : Exec (.null x) s (.ok (s.set x .null))
  | new {s x k} : Exec (.new x k) s (.ok { s.set x (s.heap.alloc k).1 with heap := (s.heap.alloc k).2 })
  | free {s x k h} : s.heap.free k (s.env x) = .ok h → Exec (.free x k) s (.ok { s with heap := h })
  | free_ub {s x k e} : s.heap.free k (s.env x) = .error e → Exec (.free x k) s .ub
  | go {s} : Exec .mayThrow s (.ok s)
  | throw {s} : Exec .mayThrow s (.thrown s)
  | seq {s a b s' o} : Exec a s (.ok s') → Exec b s' o → Exec (.seq a b) s o
  | seq_thrown {s a b s'} : Exec a s (.thrown s') → Exec (.seq a b) s (.thrown s')
  | seq_ub {s a b} : Exec a s .ub → Exec (.seq a b) s .ub
  | left {s a b o} : Exec a s o → Exec (.either a b) s o
  | right {s a b o} : Exec b s o → Exec (.either a b) s o
  | isNull {s x a b o} : s.env x = .null → Exec a s o → Exec (.ifNull x a b) s o
  | notNull {s x a b n o} : s.env x = .mem n → Exec b s o → Exec (.ifNull x a b) s o
  | null_ub {s x a b} : s.env x = .uninit → Exec (.ifNull x a b) s .ub
  | stop {s a} : Exec (.loop a) s (.ok s)
  | again {s a s' o} : Exec a s (.ok s') → Exec (.loop a) s' o → Exec (.loop a) s o
  | loop_thrown {s a s'} : Exec a s (.thrown s') → Exec (.loop a) s (.thrown s')
  | loop_ub {s a} : Exec a s .ub → Exec (.loop a) s .ub
  | scope {s x a s' s''} : Exec a (s.set x .null) (.ok s') → s'.leave x = .ok s'' → Exec (.scope x a) s (.ok s'')
  | scope_thrown {s x a s' s''} : Exec a (s.set x .null) (.thrown s') → s'.leave x = .ok s'' → Exec (.scope x a) s (.thrown s'')
  | scope_ub {s x a} : Exec a (s.set x .null) .ub → Exec (.scope x a) s .ub
  | leave_ub {s x a s' e} : Exec a (s.set x .null) (.ok s') → s'.leave x = .error e → Exec (.scope x a) s .ub
  | unwind_ub {s x a s' e} : Exec a (s.set x .null) (.thrown s') → s'.leave x = .error e → Exec (.scope x a) s .ub


/-! ## The functions and programs -/

/-- `x = new T[…]` and `delete[] x`. -/
abbrev Ms.arr (x : String) : Ms := .new x .arr
abbrev Ms.del (x : String) : Ms := .free x .arr

/-- A `cached_ifstream` (include/cached_io.h:13-24): the constructor allocates the buffer, the destructor releases it. -/
def Ms.reader (x : String) (body : Ms) : Ms := .scope x (.arr x ;; body)

/-- A `cached_ofstream` (include/cached_io.h:98-120), likewise. -/
def Ms.writer (x : String) (body : Ms) : Ms := .scope x (.arr x ;; body)

/-- A `std::unique_ptr` initialised with `std::make_unique`. -/
def Ms.uniq (x : String) (body : Ms) : Ms := .scope x (.arr x ;; body)

/-- `load_bin` (include/utils.h:72-112): the size of the file is checked before the allocation. -/
def loadBinMem (x : String) : Ms := .mayThrow ;; .arr x

/-- `load_bin` into a `std::unique_ptr` (include/utils.h:115-121): a throwing load leaves it as it was, otherwise
`reset` releases the block it had.  The new block is allocated before the old one is released, here after it. -/
def loadUniqMem (x : String) : Ms := .mayThrow ;; .del x ;; .arr x

/-- `load_aligned_bin` (include/utils.h:218-262). -/
def loadAlignedMem (x : String) : Ms := .mayThrow ;; .new x .malloc

/-- `compute_closest_centers_in_block` (src/math_utils.cpp:59-125). -/
def centersInBlockMem : Ms :=
  .either .skip (.arr "ones_a" ;; .arr "ones_b" ;; .del "ones_a" ;; .del "ones_b")

/-- `compute_closest_centers` (src/math_utils.cpp:137-196); `given`: the norms of the points are given. -/
def closestCentersMem (given : Bool) : Ms :=
  .either .skip (
    .arr "norms_squared_centers" ;;
    (if given then .skip else .arr "pts_norms_squared") ;;
    .arr "closest_centers" ;;
    .arr "distance_matrix" ;;
    .loop centersInBlockMem ;;
    .del "closest_centers" ;;
    .del "distance_matrix" ;;
    .del "norms_squared_centers" ;;
    (if given then .skip else .del "pts_norms_squared"))

/-- `lloyds_iter` (src/math_utils.cpp:231-293).  `closest_center` is a reference; `closest_docs` is a copy, so that
what is allocated here is not known to the caller.  The iterations of the parallel loop each have their own block;
they are put one after the other. -/
def lloydsIterMem : Ms :=
  .ifNull "closest_center" (.arr "closest_center") .skip ;;
  .ifNull "closest_docs" (.arr "closest_docs") .skip ;;
  closestCentersMem true ;;
  .loop (.arr "cluster_sum" ;; .del "cluster_sum")

/-- `lloyds_iter` called with null pointers, by a caller that releases what it gets. -/
def lloydsNullMem : Ms :=
  .null "closest_center" ;; .null "closest_docs" ;; lloydsIterMem ;; .del "closest_center"

/-- `run_lloyds` (src/math_utils.cpp:302-345); `docs`, `center`: whether the caller gives these arrays (which are then
in the variables of that name, and never null) or null pointers. -/
def runLloydsMem (docs center : Bool) : Ms :=
  (if docs then .skip else .null "closest_docs") ;;
  (if center then .skip else .null "closest_center") ;;
  .ifNull "closest_docs" (.arr "closest_docs") .skip ;;
  .ifNull "closest_center" (.arr "closest_center") .skip ;;
  .arr "docs_l2sq" ;;
  .loop lloydsIterMem ;;
  .del "docs_l2sq" ;;
  (if docs then .skip else .del "closest_docs") ;;
  (if center then .skip else .del "closest_center")

/-- A caller of `run_lloyds` that gives both arrays. -/
def lloydsCallerMem : Ms :=
  .arr "closest_docs" ;; .arr "closest_center" ;; runLloydsMem true true ;; .del "closest_docs" ;; .del "closest_center"

/-- `kmeans_plus_plus_centers` (src/math_utils.cpp:373-455). -/
def kmeansPPMem : Ms := .either .skip (.arr "dist" ;; .del "dist")

/-- `calculate_medoid_of_data` (src/index.cpp:297-338, src/relative_ng.cpp:92-133). -/
def medoidMem : Ms := .arr "center" ;; .arr "distances" ;; .del "distances" ;; .del "center"

/-- `gen_random_slice` from a file to files (src/partition_and_pq.cpp:17-71). -/
def sampleToFilesMem : Ms := .reader "base_reader" (.mayThrow ;; .mayThrow ;; .uniq "cur_row" (.loop .mayThrow))

/-- `gen_random_slice` from a file (src/partition_and_pq.cpp:81-124); `x` is the argument `sampled_data`. -/
def sampleMem (x : String) : Ms :=
  .reader "base_reader" (.mayThrow ;; .mayThrow ;; .uniq "cur_vector_T" (.loop .mayThrow ;; .arr x))

/-- `gen_random_slice` from a matrix (src/partition_and_pq.cpp:128-160). -/
def sampleOfDataMem (x : String) : Ms := .arr x

/-- `generate_pq_pivots` (src/partition_and_pq.cpp:167-333), with the early returns.  Its variable `train_data` has
another name here, since a caller has a variable of that name. -/
def pqPivotsMem : Ms :=
  .either .skip (.uniq "train_data_copy" (.scope "full_pivot_data" (
    .either (loadUniqMem "full_pivot_data") .skip ;;
    .either .skip (.uniq "centroid" (
      .del "full_pivot_data" ;; .arr "full_pivot_data" ;;
      .loop (.either .skip (.uniq "cur_pivot_data" (.uniq "cur_data" (.uniq "closest_center" (
        kmeansPPMem ;; runLloydsMem false true))))))))))

/-- `generate_pq_data_from_pivots` (src/partition_and_pq.cpp:339-548). -/
def pqDataMem : Ms :=
  .reader "base_reader" (.mayThrow ;; .mayThrow ;;
    .scope "full_pivot_data" (.scope "centroid" (.scope "rearrangement" (.scope "chunk_offsets" (
      .mayThrow ;;
      loadUniqMem "centroid" ;; .mayThrow ;;
      loadUniqMem "rearrangement" ;; .mayThrow ;;
      loadUniqMem "chunk_offsets" ;; .mayThrow ;;
      loadUniqMem "full_pivot_data" ;; .mayThrow ;; .mayThrow ;;
      .uniq "block_compressed_base" (.uniq "block_data_T" (.uniq "block_data_float" (.uniq "block_data_tmp" (
        .loop (.mayThrow ;;
          .loop (.either .skip (.uniq "cur_pivot_data" (.uniq "cur_data" (.uniq "closest_center"
            (closestCentersMem false))))) ;;
          .either .skip (.uniq "pVec" .skip)))))))))))

/-- `generate_pq` (tests/utils/generate_pq.cpp:9-34). -/
def generatePqMem : Ms :=
  .decl "train_data" ;; sampleMem "train_data" ;; pqPivotsMem ;; pqDataMem ;; .del "train_data"

/-- `estimate_cluster_sizes` (src/partition_and_pq.cpp:550-597). -/
def estimateSizesMem : Ms :=
  .arr "shard_counts" ;; .arr "block_closest_centers" ;; .loop (closestCentersMem false) ;;
  .del "shard_counts" ;; .del "block_closest_centers"

/-- `shard_data_into_clusters` (src/partition_and_pq.cpp:599-694) and `shard_data_into_clusters_only_ids` (697-783). -/
def shardDataMem : Ms :=
  .reader "base_reader" (.mayThrow ;; .mayThrow ;;
    .either .skip (.uniq "shard_counts" (.uniq "block_closest_centers" (.uniq "block_data_T" (.uniq "block_data_float" (
      .loop (.mayThrow ;; closestCentersMem false)))))))

/-- `retrieve_shard_data_from_ids` (src/partition_and_pq.cpp:785-849). -/
def retrieveShardMem : Ms :=
  .reader "base_reader" (.mayThrow ;; .mayThrow ;;
    .decl "shard_ids" ;; loadBinMem "shard_ids" ;;
    .uniq "block_data_T" (.loop .mayThrow ;; .del "shard_ids"))

/-- `partition` (src/partition_and_pq.cpp:858-901). -/
def partitionMem : Ms :=
  .decl "train_data_float" ;; sampleMem "train_data_float" ;;
  .decl "pivot_data" ;; .arr "pivot_data" ;;
  kmeansPPMem ;; runLloydsMem false false ;;
  shardDataMem ;;
  .del "pivot_data" ;; .del "train_data_float"

/-- One round of the loop of `partition_with_ram_budget` (src/partition_and_pq.cpp:935-975). -/
def ramRoundMem : Ms :=
  .ifNull "pivot_data" .skip (.del "pivot_data") ;;
  .arr "pivot_data" ;;
  kmeansPPMem ;; runLloydsMem false false ;; estimateSizesMem

/-- `partition_with_ram_budget` (src/partition_and_pq.cpp:904-988); the loop runs at least once. -/
def ramBudgetMem : Ms :=
  .decl "train_data_float" ;; sampleMem "train_data_float" ;;
  .decl "test_data_float" ;; sampleMem "test_data_float" ;;
  .null "pivot_data" ;;
  ramRoundMem ;; .loop ramRoundMem ;;
  shardDataMem ;;
  .del "pivot_data" ;; .del "train_data_float" ;; .del "test_data_float"

/-- `IVFIndex::build` (src/ivf.cpp:86-122); the parameters are read first.  The centres are a member. -/
def ivfBuildMem : Ms :=
  .mayThrow ;; .mayThrow ;;
  .arr "_cluster_centers" ;;
  .decl "train_data_float" ;; sampleOfDataMem "train_data_float" ;;
  kmeansPPMem ;; runLloydsMem false false ;;
  .arr "data_float" ;; closestCentersMem false ;;
  .del "train_data_float" ;; .del "data_float"

/-- `IVFIndex::search` (src/ivf.cpp:126-169). -/
def ivfSearchMem : Ms := .mayThrow ;; .arr "query_float" ;; closestCentersMem false ;; .del "query_float"

/-- `LSHIndex::search` (src/lsh.cpp:151-189). -/
def lshSearchMem : Ms := .arr "query_float" ;; .del "query_float"

/-- `load_truthset` (include/recall_utils.h:46-96). -/
def loadTruthMem (ids dists : String) : Ms :=
  .reader "reader" (.mayThrow ;; .mayThrow ;; .mayThrow ;;
    .arr ids ;; .mayThrow ;; .either (.arr dists ;; .mayThrow) .skip)

/-- `prune_truthset_for_range` (include/recall_utils.h:98-164); the kind of file is always 1 after the check, so that
`dists` is always assigned. -/
def pruneTruthMem : Ms :=
  .reader "reader" (.mayThrow ;; .mayThrow ;;
    .decl "ids" ;; .decl "dists" ;;
    .mayThrow ;;
    .arr "ids" ;; .mayThrow ;; .arr "dists" ;; .mayThrow ;;
    .del "ids" ;; .del "dists")

/-- The same if files without distances were accepted, as they are by `load_truthset`. -/
def pruneTruthIdsMem : Ms :=
  .reader "reader" (.mayThrow ;; .mayThrow ;;
    .decl "ids" ;; .decl "dists" ;;
    .mayThrow ;;
    .arr "ids" ;; .mayThrow ;; .either (.arr "dists" ;; .mayThrow) .skip ;;
    .del "ids" ;; .del "dists")

/-- `load_bin_as_float` (src/aux_compute_groundtruth.cpp:200-236, tests/utils/compute_groundtruth.cpp:229-263). -/
def loadFloatMem (x : String) : Ms := .arr "data_T" ;; .new x .malloc ;; .del "data_T"

/-- `exact_knn` with `distsq_to_points` or `inner_prod_to_points`, which are called without scratch space
(src/aux_compute_groundtruth.cpp:76-181, tests/utils/compute_groundtruth.cpp:80-210). -/
def exactKnnMem : Ms :=
  .arr "points_l2sq" ;; .arr "queries_l2sq" ;; .arr "dist_matrix" ;;
  .loop (.null "ones_vec" ;; .ifNull "ones_vec" (.arr "ones_vec") .skip ;; .del "ones_vec") ;;
  .del "dist_matrix" ;; .del "points_l2sq" ;; .del "queries_l2sq"

/-- `aux_main` (src/aux_compute_groundtruth.cpp:278-339, tests/utils/compute_groundtruth.cpp:305-366). -/
def groundTruthMem : Ms :=
  .decl "base_data" ;; .decl "query_data" ;;
  loadFloatMem "query_data" ;;
  .arr "closest_points" ;; .arr "dist_closest_points" ;;
  .loop (loadFloatMem "base_data" ;;
    .arr "closest_points_part" ;; .arr "dist_closest_points_part" ;;
    exactKnnMem ;;
    .del "closest_points_part" ;; .del "dist_closest_points_part" ;; .free "base_data" .malloc) ;;
  .free "query_data" .malloc ;; .del "closest_points" ;; .del "dist_closest_points"

/-- The conversions that load the whole file (tests/utils/int8_to_float.cpp:13-20, uint8_to_float.cpp:13-20,
uint32_to_uint8.cpp:13-20), and `augment_base` (tests/utils/vector_analysis.cpp:67-111). -/
def convertMem : Ms :=
  .decl "input" ;; loadBinMem "input" ;; .decl "output" ;; .arr "output" ;; .del "output" ;; .del "input"

/-- The conversions with two buffers (tests/utils/fvecs_to_bin.cpp:43-52, ivecs_to_bin.cpp:43-52, bin_to_fvecs.cpp:48-57,
float_bin_to_int8.cpp:42-58). -/
def blockConvertMem : Ms := .arr "read_buf" ;; .arr "write_buf" ;; .del "read_buf" ;; .del "write_buf"

/-- `bin_to_tsv` (tests/utils/bin_to_tsv.cpp:50-64). -/
def binToTsvMem : Ms := .arr "read_buf" ;; .del "read_buf"

/-- `tsv_to_bin` (tests/utils/tsv_to_bin.cpp:7-24), whose function is called for every block. -/
def tsvToBinMem : Ms := .loop (.arr "read_buf" ;; .del "read_buf")

/-- `analyze_norm` and `normalize_base` (tests/utils/vector_analysis.cpp:25-64). -/
def analyzeMem : Ms := .decl "data" ;; loadBinMem "data" ;; .del "data"

/-- `random_gaussian` and `random_cube` (include/random_dist_gen.h:7-43). -/
def randomDataMem : Ms := .arr "data" ;; .del "data"

/-- The search programs (tests/search_vamana.cpp:22-191 and the like) up to the pointers of the program itself: the
index manages its own memory, and an exception in the parallel loop ends the program. -/
def searchProgramMem : Ms :=
  .null "query" ;; .null "gt_ids" ;; .null "gt_dists" ;;
  .either .skip (
    loadAlignedMem "query" ;;
    .either (loadTruthMem "gt_ids" "gt_dists") .skip ;;
    .mayThrow ;;
    .free "query" .malloc)

/-- `calculate_recall` (tests/utils/calculate_recall.cpp:15-54). -/
def recallProgramMem : Ms :=
  .null "gold_std" ;; .null "gs_dist" ;; .null "our_results" ;; .null "or_dist" ;;
  loadTruthMem "gold_std" "gs_dist" ;; loadTruthMem "our_results" "or_dist"

/-- The constructor of `ANNIndex` with a data file (src/index.cpp:74-106): the file may be refused, the metric may be
unsupported (src/index.cpp:19-68; a metric supported for the element type is supported for `float`), the tags may not
match.  Refused labels end the program.  When a constructor throws, the destructor is not run, and the raw pointers are
not released. -/
def constructMem : Ms :=
  .decl "_data" ;; loadAlignedMem "_data" ;;
  .mayThrow ;; .new "_distance" .obj ;; .new "_distance_float" .obj ;;
  .mayThrow ;; .arr "_tag_map"

/-- The constructor without data (src/index.cpp:108-114). -/
def constructEmptyMem : Ms := .mayThrow ;; .new "_distance" .obj ;; .new "_distance_float" .obj


end Grann
