import Verif.Basic.Res
import Verif.Basic.F32
/-!
# Model of the ground-truth computation (src/aux_compute_groundtruth.cpp, tests/utils/compute_groundtruth.cpp)

`D q i` is the distance computed by the BLAS calls for query `q` and point `i`, an arbitrary `float`.  Every
distance is computed once, in the part of the file that contains the point.  `pick t l` is the position, in
the list `l` of the contents of a `std::priority_queue`, of the element that is on top at time `t`; on ties
the choice may depend on the history.  The two programs differ in one statement, `clamp`.
-/

namespace Grann

/-- Contract of `std::priority_queue` with the comparison of the distances: the top element is a largest
one. -/
def IsHeapPick (pick : Nat → List (Nat × F32) → Nat) : Prop :=
  ∀ t l, l ≠ [] → (∀ x ∈ l, x.2.IsNum) → ∃ h : pick t l < l.length, ∀ x ∈ l, x.2.le (l[pick t l]).2 = true

/-- Contract of `std::sort` with `custom_dist` (src/aux_compute_groundtruth.cpp:62-65). -/
structure IsPairSort (sortP : List (Nat × F32) → List (Nat × F32)) : Prop where
  perm : ∀ l, (sortP l).Perm l
  sorted : ∀ l, (∀ x ∈ l, x.2.IsNum) → (sortP l).Pairwise (fun x y => x.2.le y.2 = true)

/-- The first loop for one query (src/aux_compute_groundtruth.cpp:139-142). -/
def knnInit (col : Nat → Res F32) (k : Nat) : Res (List (Nat × F32)) :=
  (List.range k).mapM (fun p => do
    let d ← col p
    .ok (p, d))

/-- `if (point_dist.size() > k) point_dist.pop();` (src/aux_compute_groundtruth.cpp:150-151). -/
def heapTrim (pick : Nat → List (Nat × F32) → Nat) (k t : Nat) (heap : List (Nat × F32)) :
    Res (List (Nat × F32)) :=
  if k < heap.length then do
    let _ ← rd heap (pick t heap)
    .ok (heap.eraseIdx (pick t heap))
  else .ok heap

/-- The second loop (src/aux_compute_groundtruth.cpp:143-152) from point `p` on; `top()` of an empty queue is
undefined. -/
def knnLoop (pick : Nat → List (Nat × F32) → Nat) (col : Nat → Res F32) (k : Nat) :
    Nat → Nat → List (Nat × F32) → Res (List (Nat × F32))
  | 0, _, heap => .ok heap
  | todo + 1, p, heap => do
    let t ← rd heap (pick p heap)
    let d ← col p
    let heap ← heapTrim pick k p (if d.lt t.2 then heap ++ [(p, d)] else heap)
    knnLoop pick col k todo (p + 1) heap

/-- The third loop (src/aux_compute_groundtruth.cpp:153-160): the `k` slots of the query, filled from the
last to the first. -/
def knnOut (pick : Nat → List (Nat × F32) → Nat) (npoints : Nat) : Nat → List (Nat × F32) → Res (List (Nat × F32))
  | 0, _ => .ok []
  | l + 1, heap => do
    let t ← rd heap (pick (npoints + l) heap)
    let rest ← knnOut pick npoints l (heap.eraseIdx (pick (npoints + l) heap))
    .ok (rest ++ [t])

/-- The three loops for one query. -/
def knnRow (pick : Nat → List (Nat × F32) → Nat) (k npoints : Nat) (col : Nat → Res F32) :
    Res (List (Nat × F32)) := do
  let heap ← knnInit col k
  let heap ← knnLoop pick col k (npoints - k) k heap
  knnOut pick npoints k heap

/-- `dist_matrix` after computing the distances of the queries `qb, …, qe - 1`: the columns of these queries,
then what was there before (src/aux_compute_groundtruth.cpp:130-132). -/
def distMatrix (D : Nat → Nat → F32) (npoints qb qe : Nat) (old : List F32) : List F32 :=
  ((List.range' qb (qe - qb)).flatMap fun q => (List.range npoints).map (D q)) ++ old.drop ((qe - qb) * npoints)

/-- The loop over the batches of 512 queries (src/aux_compute_groundtruth.cpp:125-175) from batch `b` on. -/
def knnBatches (pick : Nat → Nat → List (Nat × F32) → Nat) (k npoints nq : Nat) (D : Nat → Nat → F32) :
    Nat → Nat → List F32 → Res (List (List (Nat × F32)))
  | 0, _, _ => .ok []
  | todo + 1, b, dm => do
    let qb := b * 512
    let qe := if nq < (b + 1) * 512 then nq else (b + 1) * 512
    let dm := distMatrix D npoints qb qe dm
    let rows ← (List.range' qb (qe - qb)).mapM (fun q =>
      knnRow (pick q) k npoints (fun p => rd dm (p + (q - qb) * npoints)))
    let rest ← knnBatches pick k npoints nq D todo (b + 1) dm
    .ok (rows ++ rest)

/-- `exact_knn` (src/aux_compute_groundtruth.cpp:104-181, tests/utils/compute_groundtruth.cpp:129-210): for
every query the `k` pairs stored; `junk` are the initial contents of `dist_matrix`. -/
def exactKnn (pick : Nat → Nat → List (Nat × F32) → Nat) (k npoints nq : Nat) (D : Nat → Nat → F32)
    (junk : Nat → F32) : Res (List (List (Nat × F32))) :=
  knnBatches pick k npoints nq D ((nq + 511) / 512) 0 ((List.range (512 * npoints)).map junk)

/-- The number of points of part `p` (src/aux_compute_groundtruth.cpp:207-209); `PARTSIZE` is 10000000. -/
def partLen (partSize n p : Nat) : Nat := min (p * partSize + partSize) n - p * partSize

/-- `get_num_parts` (src/aux_compute_groundtruth.cpp:192-194). -/
def numParts (partSize n : Nat) : Nat := if n % partSize = 0 then n / partSize else n / partSize + 1

/-- Appending the rows of a part to the results of the queries (src/aux_compute_groundtruth.cpp:307-313). -/
def addRows (start : Nat) (results rows : List (List (Nat × F32))) : List (List (Nat × F32)) :=
  List.zipWith (fun res row => res ++ row.map (fun x => (u32 (x.1 + start), x.2))) results rows

/-- The loop over the parts (src/aux_compute_groundtruth.cpp:297-318, tests/utils/compute_groundtruth.cpp:
325-345): the final `k` and the results.  In the first program `k` becomes the number of points of the part
if that is smaller (`clamp`). -/
def gtParts (clamp : Bool) (pick : Nat → Nat → Nat → List (Nat × F32) → Nat) (partSize n nq : Nat)
    (D : Nat → Nat → F32) (junk : Nat → Nat → F32) :
    Nat → Nat → Nat → List (List (Nat × F32)) → Res (Nat × List (List (Nat × F32)))
  | 0, _, k, results => .ok (k, results)
  | todo + 1, p, k, results => do
    let npoints := partLen partSize n p
    let k := if clamp then min npoints k else k
    let rows ← exactKnn (pick p) k npoints nq (fun q i => D q (p * partSize + i)) (junk p)
    gtParts clamp pick partSize n nq D junk todo (p + 1) k (addRows (p * partSize) results rows)

/-- The first `k` of the sorted results of a query (src/aux_compute_groundtruth.cpp:320-327). -/
def gtTake (sortP : List (Nat × F32) → List (Nat × F32)) (k : Nat) (res : List (Nat × F32)) :
    Res (List (Nat × F32)) :=
  (List.range k).mapM (fun j => rd (sortP res) j)

/-- `aux_main` (src/aux_compute_groundtruth.cpp:276-338 with `clamp`, tests/utils/compute_groundtruth.cpp:
303-366 without): the `k` written to the file and the pairs of identifier and distance of every query. -/
def groundTruth (clamp : Bool) (pick : Nat → Nat → Nat → List (Nat × F32) → Nat)
    (sortP : List (Nat × F32) → List (Nat × F32)) (partSize n nq k : Nat) (D : Nat → Nat → F32)
    (junk : Nat → Nat → F32) : Res (Nat × List (List (Nat × F32))) := do
  let (k, results) ← gtParts clamp pick partSize n nq D junk (numParts partSize n) 0 k (List.replicate nq [])
  let rows ← results.mapM (gtTake sortP k)
  .ok (k, rows)

end Grann
