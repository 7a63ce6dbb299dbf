import Verif.Model.Kmeans
import Verif.Model.Shard
import Verif.Model.Persist
/-!
# Model of k-means as the program runs it, in `float`s, and of its use by `IVFIndex::build` and `partition`

`Model/Kmeans.lean` has Lloyd's algorithm in exact arithmetic; here the arithmetic is a parameter, centres are written
to the memory the caller passed, and the closest centres come from the model of `compute_closest_centers`.  A vector is a
list of `float`s.  The random numbers are parameters, and so is the order of the threads.  Memory is assumed to be
available.  `num_centers * dim` does not exceed 64 bits.
-/

namespace Grann

/-- The arithmetic: that of k-means++ (whose `dist` is `calc_distance`, and whose `zero` and `add` are those of the sums
in `double`s), an entry of `dist_matrix` (src/math_utils.cpp:80-93), the division of a sum by a count rounded to `float`
(src/math_utils.cpp:267-268), the addition of `float`s (src/math_utils.cpp:285, 290), and the test for ending the loop
(src/math_utils.cpp:332-333) from the number of the iteration, the old and the new residual. -/
structure KmOps (D : Type) where
  kpp : KppOps (List F32) F32 D
  entry : List F32 → List F32 → F32
  divn : D → Nat → F32
  addF : F32 → F32 → F32
  stop : Nat → F32 → F32 → Bool

/-- `CHUNK_SIZE` (src/math_utils.cpp:276), `MAX_BLOCK_SIZE` (include/essentials.h:57), the order of the heap that is not
used for one centre, the order of the threads in every iteration and block, and the random numbers of
`kmeans_plus_plus_centers`: the first point, the points of the fallback, the darts.  `junk` is the uninitialised
`tmp_center`, `fuel` bounds the number of darts. -/
structure KmRun (D : Type) where
  ch : Nat
  ccBlk : Nat
  pops : List F32 → List Nat
  sched : Nat → Nat → List (Nat × Nat) → List (Nat × Nat)
  init : Nat
  junk : Nat
  draw : Nat → Nat
  dart : Nat → D
  fuel : Nat

section
variable {D : Type}

/-- `cluster_sum` (src/math_utils.cpp:259-264). -/
def clusterSumF (O : KmOps D) (data : List (List F32)) (dim : Nat) (docs : List Nat) : Res (List D) :=
  docs.foldlM (fun s d => do
    let row ← rd data d
    .ok (List.zipWith O.kpp.add s row)) (List.replicate dim O.kpp.zero)

/-- The new centre (src/math_utils.cpp:251, 256-269): zero bytes, overwritten by the mean unless the cluster is empty. -/
def newCenterF (O : KmOps D) (data : List (List F32)) (dim : Nat) (docs : List Nat) : Res (List F32) := do
  let s ← clusterSumF O data dim docs
  if docs.length > 0 then .ok (s.map (fun x => O.divn x docs.length)) else .ok (List.replicate dim F32.zero)

/-- The residual of points `d`, `d + 1`, ... (src/math_utils.cpp:283-287); `todo` of them. -/
def residLoopF (O : KmOps D) (data centers : List (List F32)) (closest : List Nat) : Nat → Nat → F32 → Res F32
  | 0, _, r => .ok r
  | todo + 1, d, r => do
    let x ← rd data d
    let a ← rd closest d
    let c ← rd centers a
    residLoopF O data centers closest todo (d + 1) (O.addF r (O.kpp.dist x c))

/-- The sum over chunks (src/math_utils.cpp:275-291). -/
def residualF (O : KmOps D) (ch : Nat) (data centers : List (List F32)) (closest : List Nat) : Res F32 := do
  let n := data.length
  let nch := n / ch + if n % ch = 0 then 0 else 1
  let parts ← (List.range nch).mapM (fun c =>
    residLoopF O data centers closest (min n ((c + 1) * ch) - c * ch) (c * ch) F32.zero)
  .ok (parts.foldl O.addF F32.zero)

/-- `lloyds_iter` (src/math_utils.cpp:230-294): the centres, `closest_center` and the residual.  `closest` is the contents
of `closest_center` before. -/
def lloydsIterF (O : KmOps D) (R : KmRun D) (dim i : Nat) (data centers : List (List F32)) (closest : List Nat) :
    Res (List (List F32) × List Nat × F32) := do
  let (closest, docs) ← closestCenters R.ccBlk centers.length 1 R.pops (R.sched i)
    (data.map (fun x => centers.map (O.entry x))) closest (some (List.replicate centers.length []))
  let centers ← (docs.getD []).mapM (newCenterF O data dim)
  let r ← residualF O R.ch data centers closest
  .ok (centers, closest, r)

/-- The loop of `run_lloyds` (src/math_utils.cpp:323-338) from iteration `i` on. -/
def lloydsLoopF (O : KmOps D) (R : KmRun D) (dim : Nat) (data : List (List F32)) : Nat → Nat → F32 → List (List F32) →
    List Nat → Res (List (List F32))
  | 0, _, _, centers, _ => .ok centers
  | todo + 1, i, res, centers, closest => do
    let (centers, closest, r) ← lloydsIterF O R dim i data centers closest
    if O.stop i res r then .ok centers else lloydsLoopF O R dim data todo (i + 1) r centers closest

/-- `kmeans_plus_plus_centers` followed by `run_lloyds` (src/ivf.cpp:101-107, src/partition_and_pq.cpp:307-313, 883-887,
946-950); `centers` is the memory passed for the centres. -/
def kmeansF (O : KmOps D) (R : KmRun D) (dim maxReps : Nat) (data centers : List (List F32)) : Res (List (List F32)) := do
  let cs ← kppCenters O.kpp data centers.length R.init R.junk R.draw R.dart R.fuel centers
  lloydsLoopF O R dim data maxReps 0 F32.fmax cs (List.replicate data.length 0)

end

/-! ## Sampling -/

/-- `p_val < 1 ? p_val : 1` (src/partition_and_pq.cpp:100, 134) and the comparison with a random number
(src/partition_and_pq.cpp:109-110, 145-146).  The rates that reach the functions modelled here are `float`s. -/
def sampleCoin (rnd : Nat → F32) (rate : F32) (i : Nat) : Bool :=
  (rnd i).lt (if rate.lt F32.one then rate else F32.one)

/-- The rows of a matrix with `n` rows. -/
def matRows (n dim : Nat) (flat : List F32) : List (List F32) :=
  (List.range n).map (fun i => (flat.drop (i * dim)).take dim)

/-- The bytes of a matrix of `float`s. -/
def matBytes (rows : List (List F32)) : Bytes := le32s (rows.flatten.map (fun x => x.bits.toNat))

/-- A centre in memory (`centers + c * dim`). -/
def centreAt (cs : Bytes) (dim c : Nat) : List F32 := (un32s dim (cs.drop (c * dim * 4))).map F32.ofWord

/-- The distances of a vector from the centres, as `compute_closest_centers` computes them (src/math_utils.cpp:80-93). -/
def centreDists (conv : Bytes → List F32) (entry : List F32 → List F32 → F32) (cs : Bytes) (nc dim : Nat) (x : Bytes) :
    List F32 := (List.range nc).map (fun c => entry (conv x) (centreAt cs dim c))

/-! ## IVF -/

/-- `IVFIndex::build` up to the centres (src/ivf.cpp:90-107); `mem` is the memory of `_cluster_centers`, `reps` is
`MAX_K_MEANS_REPS`, `conv` converts the values of a vector to `float`s, `rnd i` is the random number for point `i`. -/
def trainIvf {D : Type} (es : Nat) (conv : Bytes → List F32) (rnd : Nat → F32) (O : KmOps D) (R : KmRun D) (reps : Nat)
    (mem : Nat → List F32) (nc : Nat) (rate : F32) (o : IdxObj) : Res Bytes := do
  let (flat, n) ← sliceMat es (sampleCoin rnd rate) conv o.data o.n o.adim
  let cs ← kmeansF O R o.adim reps (matRows n o.adim flat) ((List.range nc).map mem)
  .ok (matBytes cs)

/-! ## Partitioning -/

/-- `partition` (src/partition_and_pq.cpp:857-901): the contents of the file of centres and those of the files of the
shards; `none` for the latter if `shard_data_into_clusters` returns -1.  `blk` and `pops` are as in `ShardPar`. -/
def partitionData {D : Type} (es : Nat) (conv : Bytes → List F32) (rnd : Nat → F32) (O : KmOps D) (R : KmRun D)
    (mem : Nat → List F32) (blk : Nat) (pops : List F32 → List Nat) (rate : F32) (parts reps kb : Nat) (file : Option Bytes)
    (j j2 : TruthJunk) : Res (Bytes × Option (List (Bytes × Bytes))) := do
  let (flat, n, dim) ← sliceMem es (sampleCoin rnd rate) conv file j
  let cs ← kmeansF O R dim reps (matRows n dim flat) ((List.range parts).map mem)
  let sh ← shardData true ⟨blk, R.ccBlk, parts, kb, centreDists conv O.entry (matBytes cs) parts dim, pops⟩ es dim file j2
  .ok (le 4 (u32 parts) ++ (le 4 (u32 dim) ++ matBytes cs), sh)

/-! ## Product quantisation -/

/-- k-means for chunk `i`, as the training calls it (src/partition_and_pq.cpp:300-313): the dimension is the length of the
rows of `cur_data`, if there are any. -/
def pqKmeans {D : Type} (O : KmOps D) (R : Nat → KmRun D) (mem : Nat → Nat → List F32) (nc reps : Nat) (i : Nat) (data : List (List F32)) :
    Res (List F32) := do
  let cs ← kmeansF O (R i) (data.headD []).length reps data ((List.range nc).map (mem i))
  .ok cs.flatten

end Grann
