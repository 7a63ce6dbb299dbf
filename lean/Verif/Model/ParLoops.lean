import Verif.Model.ParFor
/-!
# The parallel loops of the code, access by access

One definition per loop: the accesses of iteration `i` to shared arrays, in order.  Values are bit patterns
(`Nat`); arithmetic, which is local to an iteration, is a parameter.  A `memcpy` is a loop over the elements.
Loop bounds that are read from a `std::vector` are read once.  Loops with more to them have models of their own: the loops of
`Vamana::build` and `HNSW::build` (`Model/BuildFine.lean`), the queries of `search_lsh` (`Model/LshPar.lean`) and the
random generators (`Model/RandGen.lean`).
-/

namespace Grann

open Par

/-- `n` iterations of a loop. -/
def iters {W : Type} (n : Nat) (body : Nat → Par W Unit) : List (Par W Unit) := (List.range n).map body

/-- `for (j = 0; j < n; j++) body(j)` without a local state. -/
def forN {W : Type} (n : Nat) (body : Nat → Par W Unit) : Par W Unit := loop (fun j _ => body j) n 0 ()

/-- The elements `arr[start], ..., arr[start + n - 1]`, one load after the other. -/
def loadRow {W : Type} (arr : String) (start n : Nat) : Par W (List W) :=
  loop (fun j s => (rdAt ⟨arr, start + j, 0⟩).bind fun v => .ret (s ++ [v])) n 0 []

/-- `compute_vecs_l2sq` (src/math_utils.cpp:23-31): `nrm` is `cblas_snrm2`. -/
def vecsL2sqIter (nrm : List Nat → Nat) (mul : Nat → Nat → Nat) (dim n : Nat) : Par Nat Unit := do
  let row ← loadRow "data" (n * dim) dim
  wrAt ⟨"vecs_l2sq", n, 0⟩ (nrm row)
  let a ← rdAt ⟨"vecs_l2sq", n, 0⟩
  let b ← rdAt ⟨"vecs_l2sq", n, 0⟩
  wrAt ⟨"vecs_l2sq", n, 0⟩ (mul a b)

/-- `compute_closest_centers_in_block` with `k == 1` (src/math_utils.cpp:95-106): `big` is `FLT_MAX`. -/
def nearestIter (lt : Nat → Nat → Bool) (big numCenters i : Nat) : Par Nat Unit := do
  let _ ← loop (fun j min => (do
    let cur ← rdAt ⟨"dist_matrix", i * numCenters + j, 0⟩
    if lt cur min then do
      wrAt ⟨"center_ids", i, 0⟩ j
      rdAt ⟨"dist_matrix", i * numCenters + j, 0⟩
    else .ret min : Par Nat Nat)) numCenters 0 big
  .ret ()

/-- `compute_closest_centers_in_block` with `k > 1` (src/math_utils.cpp:107-121): `pops row` are the identifiers in the
order in which the local `priority_queue` yields them. -/
def nearestKIter (pops : List Nat → Nat → Nat) (numCenters k i : Nat) : Par Nat Unit := do
  let row ← loadRow "dist_matrix" (i * numCenters) numCenters
  forN k fun j => wrAt ⟨"center_ids", i * k + j, 0⟩ (pops row j)

/-- `inverted_index[c].push_back(j)` (src/math_utils.cpp:185-186): the length, the new element, the new length. -/
def pushIter (c j : Nat) : Par Nat Unit := do
  let n ← rdAt ⟨"inverted_index.size", c, 0⟩
  wrAt ⟨"inverted_index", c, n⟩ j
  wrAt ⟨"inverted_index.size", c, 0⟩ (n + 1)

/-- The loop over the points of block `b` in `compute_closest_centers` (src/math_utils.cpp:176-189); iteration `t` is
point `j = b * bs + t`. -/
def assignIter (inverted : Bool) (b bs k t : Nat) : Par Nat Unit :=
  forN k fun l => do
    let c ← rdAt ⟨"closest_centers", (b * bs + t - b * bs) * k + l, 0⟩
    wrAt ⟨"closest_centers_ivf", (b * bs + t) * k + l, 0⟩ c
    if inverted then critical (pushIter c (b * bs + t)) else .ret ()

/-- `process_residuals` (src/math_utils.cpp:201-219): `op` is subtraction or addition. -/
def residualIter (op : Nat → Nat → Nat) (dim n : Nat) : Par Nat Unit :=
  forN dim fun d => do
    let x ← rdAt ⟨"base_data", n * dim + d, 0⟩
    let c ← rdAt ⟨"closest_centers", n, 0⟩
    let y ← rdAt ⟨"centers", c * dim + d, 0⟩
    wrAt ⟨"base_data", n * dim + d, 0⟩ (op x y)

/-- The new centers in `lloyds_iter` (src/math_utils.cpp:253-271): `zero` and `add` work on the local `cluster_sum`,
`avg` divides an entry by the number of points. -/
def centerIter {S : Type} (zero : S) (add : S → List Nat → S) (avg : S → Nat → Nat → Nat) (dim c : Nat) : Par Nat Unit := do
  let size ← rdAt ⟨"closest_docs.size", c, 0⟩
  let sum ← loop (fun i s => (do
    let p ← rdAt ⟨"closest_docs", c, i⟩
    let row ← loadRow "data" (p * dim) dim
    .ret (add s row) : Par Nat S)) size 0 zero
  if 0 < size then forN dim fun i => wrAt ⟨"centers", c * dim + i, 0⟩ (avg sum i size) else .ret ()

/-- The residuals in `lloyds_iter` (src/math_utils.cpp:281-288); `chunkSize` is 16384, `pad` is 32. -/
def chunkIter (dist : List Nat → List Nat → Nat) (add : Nat → Nat → Nat) (dim numPoints chunkSize pad chunk : Nat) : Par Nat Unit :=
  forN (min numPoints ((chunk + 1) * chunkSize) - chunk * chunkSize) fun t => do
    let x ← loadRow "data" ((chunk * chunkSize + t) * dim) dim
    let c ← rdAt ⟨"closest_center", chunk * chunkSize + t, 0⟩
    let y ← loadRow "centers" (c * dim) dim
    let r ← rdAt ⟨"residuals", chunk * pad, 0⟩
    wrAt ⟨"residuals", chunk * pad, 0⟩ (add r (dist x y))

/-- The first distances in `kmeans_plus_plus_centers` (src/math_utils.cpp:404-408). -/
def firstDistIter (dist : List Nat → List Nat → Nat) (dim init i : Nat) : Par Nat Unit := do
  let x ← loadRow "data" (i * dim) dim
  let y ← loadRow "data" (init * dim) dim
  wrAt ⟨"dist", i, 0⟩ (dist x y)

/-- Their update (src/math_utils.cpp:443-448). -/
def nextDistIter (dist : List Nat → List Nat → Nat) (min : Nat → Nat → Nat) (dim center i : Nat) : Par Nat Unit := do
  let x ← loadRow "data" (i * dim) dim
  let y ← loadRow "data" (center * dim) dim
  let d ← rdAt ⟨"dist", i, 0⟩
  wrAt ⟨"dist", i, 0⟩ (min d (dist x y))

/-- The distances to the centroid in `calculate_medoid_of_data` (src/index.cpp:313-324) and
`calculate_entry_point` (src/relative_ng.cpp:108-119). -/
def medoidIter (z : Nat) (diff : Nat → Nat → Nat → Nat → Nat) (add : Nat → Nat → Nat) (dim i : Nat) : Par Nat Unit := do
  wrAt ⟨"distances", i, 0⟩ z
  forN dim fun j => do
    let a ← rdAt ⟨"center", j, 0⟩
    let b ← rdAt ⟨"data", i * dim + j, 0⟩
    let c ← rdAt ⟨"center", j, 0⟩
    let d ← rdAt ⟨"data", i * dim + j, 0⟩
    let r ← rdAt ⟨"distances", i, 0⟩
    wrAt ⟨"distances", i, 0⟩ (add r (diff a b c d))

/-- Part of each row: the loops at src/partition_and_pq.cpp:300-305 (`memcpy` of the training data), 489-494 (block of the base)
and 496-501 (`memcpy` of the pivots). -/
def cutIter (src dst : String) (dim off w j : Nat) : Par Nat Unit :=
  forN w fun k => do
    let x ← rdAt ⟨src, j * dim + off + k, 0⟩
    wrAt ⟨dst, j * w + k, 0⟩ x

/-- The codes of chunk `i` (src/partition_and_pq.cpp:507-515, without `SAVE_INFLATED_PQ`). -/
def codeIter (chunks i j : Nat) : Par Nat Unit := do
  let c ← rdAt ⟨"closest_center", j, 0⟩
  wrAt ⟨"block_compressed_base", j * chunks + i, 0⟩ c

/-- Conversion of every element: `convert_types` (include/utils.h:268-273), src/aux_compute_groundtruth.cpp:226-233 and
tests/utils/compute_groundtruth.cpp:253-260. -/
def convertIter (conv : Nat → Nat) (src dst : String) (dim i : Nat) : Par Nat Unit :=
  forN dim fun j => do
    let x ← rdAt ⟨src, i * dim + j, 0⟩
    wrAt ⟨dst, i * dim + j, 0⟩ (conv x)

/-- `compute_l2sq` (src/aux_compute_groundtruth.cpp:67-74, tests/utils/compute_groundtruth.cpp:71-78); `dot` is `cblas_sdot`. -/
def l2sqIter (dot : List Nat → List Nat → Nat) (dim d : Nat) : Par Nat Unit := do
  let x ← loadRow "matrix" (d * dim) dim
  let y ← loadRow "matrix" (d * dim) dim
  wrAt ⟨"points_l2sq", d, 0⟩ (dot x y)

/-- The queries `qb + t` of a batch in `exact_knn` (src/aux_compute_groundtruth.cpp:136-172,
tests/utils/compute_groundtruth.cpp:173-201): `S` is the local heap, `push` `emplace`, `above` the comparison with `top()`,
`trim` the `pop` when there are more than `k`. -/
def knnIter {S : Type} (empty : S) (push : S → Nat → Nat → S) (above : S → Nat → Bool) (trim : S → S)
    (top : S → Nat × Nat) (pop : S → S) (npoints k qb t : Nat) : Par Nat Unit := do
  let h ← loop (fun p s => (do
    let d ← rdAt ⟨"dist_matrix", p + t * npoints, 0⟩
    .ret (push s p d) : Par Nat S)) k 0 empty
  let h ← loop (fun p s => (do
    let d ← rdAt ⟨"dist_matrix", p + t * npoints, 0⟩
    if above s d then do
      let d' ← rdAt ⟨"dist_matrix", p + t * npoints, 0⟩
      .ret (trim (push s p d'))
    else .ret (trim s) : Par Nat S)) (npoints - k) k h
  let _ ← loop (fun l s => (do
    wrAt ⟨"closest_points", k - 1 - l + (qb + t) * k, 0⟩ (top s).1
    wrAt ⟨"dist_closest_points", k - 1 - l + (qb + t) * k, 0⟩ (top s).2
    .ret (pop s) : Par Nat S)) k 0 h
  .ret ()

/-- `analyze_norm` (tests/utils/vector_analysis.cpp:30-35). -/
def normIter (add mul : Nat → Nat → Nat) (sqrt : Nat → Nat) (dim i : Nat) : Par Nat Unit := do
  forN dim fun d => do
    let a ← rdAt ⟨"data", i * dim + d, 0⟩
    let b ← rdAt ⟨"data", i * dim + d, 0⟩
    let r ← rdAt ⟨"norms", i, 0⟩
    wrAt ⟨"norms", i, 0⟩ (add r (mul a b))
  let r ← rdAt ⟨"norms", i, 0⟩
  wrAt ⟨"norms", i, 0⟩ (sqrt r)

/-- `normalize_base` (tests/utils/vector_analysis.cpp:53-61), in place. -/
def normalizeIter (add mul div : Nat → Nat → Nat) (sqrt : Nat → Nat) (z dim i : Nat) : Par Nat Unit := do
  let s ← loop (fun d s => (do
    let a ← rdAt ⟨"data", i * dim + d, 0⟩
    let b ← rdAt ⟨"data", i * dim + d, 0⟩
    .ret (add s (mul a b)) : Par Nat Nat)) dim 0 z
  forN dim fun d => do
    let x ← rdAt ⟨"data", i * dim + d, 0⟩
    wrAt ⟨"data", i * dim + d, 0⟩ (div x (sqrt s))

/-- The norms of `augment_base` (tests/utils/vector_analysis.cpp:76-80): all iterations write `max_norm`. -/
def maxNormIter (add mul : Nat → Nat → Nat) (gt : Nat → Nat → Bool) (dim i : Nat) : Par Nat Unit := do
  forN dim fun d => do
    let a ← rdAt ⟨"data", i * dim + d, 0⟩
    let b ← rdAt ⟨"data", i * dim + d, 0⟩
    let r ← rdAt ⟨"norms", i, 0⟩
    wrAt ⟨"norms", i, 0⟩ (add r (mul a b))
  let x ← rdAt ⟨"norms", i, 0⟩
  let y ← rdAt ⟨"max_norm", 0, 0⟩
  if gt x y then do
    let x' ← rdAt ⟨"norms", i, 0⟩
    wrAt ⟨"max_norm", 0, 0⟩ x'
  else do
    let y' ← rdAt ⟨"max_norm", 0, 0⟩
    wrAt ⟨"max_norm", 0, 0⟩ y'

/-- `RelativeNG::build` (src/relative_ng.cpp:166-195): the row of every point, `prune` as a local computation on the
rows (`prune_candidates_alpha_rng` reads them again), and the `emplace_back`s to `_out_nbrs[location]`, which is
empty.  `milestone_marker` is atomic and left out. -/
def relngIter (prune : List (List Nat) → Nat → List Nat) (n dim location : Nat) : Par Nat Unit := do
  let rows ← loop (fun j s => (do
    let x ← loadRow "data" (j * dim) dim
    .ret (s ++ [x]) : Par Nat (List (List Nat)))) n 0 []
  forN (prune rows location).length fun t => do
    let s ← rdAt ⟨"out_nbrs.size", location, 0⟩
    wrAt ⟨"out_nbrs", location, s⟩ ((prune rows location).getD t 0)
    wrAt ⟨"out_nbrs.size", location, 0⟩ (s + 1)

/-- The final cleanup of `Vamana::build` and `HNSW::build` (src/vamana.cpp:303-330, src/hnsw.cpp:227-258): a list longer than `R` is read, with the rows of the
point and its neighbours, and replaced by what `prune`, a local computation on these, makes of it (`prune_candidates_*` reads the rows again). -/
def cleanupIter (prune : Nat → List Nat → List (List Nat) → List Nat) (R dim node : Nat) : Par Nat Unit := do
  let s ← rdAt ⟨"out_nbrs.size", node, 0⟩
  if R < s then do
    let nb ← loop (fun j acc => (do
      let x ← rdAt ⟨"out_nbrs", node, j⟩
      .ret (acc ++ [x]) : Par Nat (List Nat))) s 0 []
    let own ← loadRow "data" (node * dim) dim
    let rows ← loop (fun j acc => (do
      let x ← loadRow "data" (nb.getD j node * dim) dim
      .ret (acc ++ [x]) : Par Nat (List (List Nat)))) s 0 []
    wrAt ⟨"out_nbrs.size", node, 0⟩ 0
    forN (prune node nb (own :: rows)).length fun t => do
      let s ← rdAt ⟨"out_nbrs.size", node, 0⟩
      wrAt ⟨"out_nbrs", node, s⟩ ((prune node nb (own :: rows)).getD t 0)
      wrAt ⟨"out_nbrs.size", node, 0⟩ (s + 1)
  else .ret ()

/-- A query of the search programs (tests/search_vamana.cpp:125-136, search_hnsw.cpp:119-130, search_relng.cpp:120-131, search_ivf.cpp:103-114): the row of the query
is read, `find` looks for the answer in the arrays of the index, and the answer, the counters and the time are stored. -/
def queryIter (find : List Nat → Par Nat (List (Nat × Nat) × Nat × Nat)) (time : Nat → Nat) (dim k i : Nat) : Par Nat Unit := do
  let q ← loadRow "query" (i * dim) dim
  let r ← find q
  forN (min r.1.length k) fun t => do
    wrAt ⟨"query_result_ids", i * k + t, 0⟩ (r.1.getD t (0, 0)).1
    wrAt ⟨"query_result_dists", i * k + t, 0⟩ (r.1.getD t (0, 0)).2
  wrAt ⟨"stats.n_hops", i, 0⟩ r.2.1
  wrAt ⟨"stats.n_cmps", i, 0⟩ r.2.2
  wrAt ⟨"latency_stats", i, 0⟩ (time i)

end Grann
