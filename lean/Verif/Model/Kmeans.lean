import Verif.Basic.Res
import Verif.Model.Centers
import Verif.Model.Distance
import Mathlib.Algebra.Order.Field.Basic
/-!
# Model of Lloyd's algorithm and of the choice of initial centres (src/math_utils.cpp)

Lloyd's algorithm is modelled in exact arithmetic, over an arbitrary ordered field: rounding is left out.  Row-major
matrices are lists of rows of equal length.  The matrix products of `compute_closest_centers_in_block` are taken at
their meaning; its blocking is the subject of `Model/Centers.lean` and left out here.  The order in which the threads
append to the inverted lists is arbitrary (`sched`).  The choice of initial centres is modelled for arbitrary arithmetic
and arbitrary outcomes of the random numbers.
-/

namespace Grann

section Lloyd
variable {K : Type} [Field K] [LinearOrder K]

/-- `calc_distance` (src/math_utils.cpp:12-18); the loop is the one of `DistanceL2::compare`. -/
def calcDist (dim : Nat) (a b : List K) : Res K := l2Loop a b dim 0 0

/-- `compute_vecs_l2sq` (src/math_utils.cpp:23-31) of one vector. -/
def vecSq (x : List K) : K := (List.zipWith (· * ·) x x).sum

/-- An entry of `dist_matrix` (src/math_utils.cpp:80-93). -/
def distEntry (x c : List K) : K := vecSq x + vecSq c + -2 * (List.zipWith (· * ·) x c).sum

/-- The search for the closest centre (src/math_utils.cpp:98-105) from centre `j` on; `m` is `min`, at first
`FLT_MAX`. -/
def argminX : List K → Nat → K → Option Nat → Option Nat
  | [], _, _, id => id
  | x :: xs, j, m, id => if x < m then argminX xs (j + 1) x (some j) else argminX xs (j + 1) m id

/-- The closest centre of a point; if no distance is below `FLT_MAX` the entry is not written. -/
def closestX (fmax : K) (centers : List (List K)) (x : List K) : Res Nat :=
  match argminX (centers.map (distEntry x)) 0 fmax none with
  | some c => .ok c
  | none => .error .ub

/-- `cluster_sum` (src/math_utils.cpp:259-264). -/
def clusterSum (data : List (List K)) (dim : Nat) (docs : List Nat) : Res (List K) :=
  docs.foldlM (fun s d => do
    let row ← rd data d
    .ok (List.zipWith (· + ·) s row)) (List.replicate dim 0)

/-- The new centre (src/math_utils.cpp:251, 265-269): the mean of the cluster, zero for an empty one. -/
def newCenter (data : List (List K)) (dim : Nat) (docs : List Nat) : Res (List K) := do
  let s ← clusterSum data dim docs
  if docs.length > 0 then .ok (s.map (· / (docs.length : K))) else .ok (List.replicate dim 0)

/-- The residual of points `d`, `d + 1`, ... (src/math_utils.cpp:287-291); `todo` of them. -/
def residLoop (data centers : List (List K)) (closest : List Nat) (dim : Nat) : Nat → Nat → K → Res K
  | 0, _, r => .ok r
  | todo + 1, d, r => do
    let x ← rd data d
    let a ← rd closest d
    let c ← rd centers a
    let e ← calcDist dim x c
    residLoop data centers closest dim todo (d + 1) (r + e)

/-- The sum over chunks (src/math_utils.cpp:279-296); `ch` is `CHUNK_SIZE`. -/
def residual (ch : Nat) (data centers : List (List K)) (closest : List Nat) (dim : Nat) : Res K := do
  let n := data.length
  let nch := n / ch + if n % ch = 0 then 0 else 1
  let parts ← (List.range nch).mapM (fun c =>
    residLoop data centers closest dim (min n ((c + 1) * ch) - c * ch) (c * ch) 0)
  .ok parts.sum

/-- What one iteration leaves behind. -/
structure Lloyd (K : Type) where
  centers : List (List K)
  closest : List Nat
  docs : List (List Nat)
  res : K

/-- `lloyds_iter` (src/math_utils.cpp:230-299).  Without points `compute_closest_centers` divides by zero. -/
def lloydsIter (fmax : K) (ch dim : Nat) (sched : List (Nat × Nat) → List (Nat × Nat)) (data centers : List (List K)) :
    Res (Lloyd K) :=
  if data.length = 0 then .error .ub
  else do
    let closest ← data.mapM (closestX fmax centers)
    let docs ← pushAll (List.replicate centers.length []) (sched (closest.mapIdx (fun t c => (c, t))))
    let centers ← docs.mapM (newCenter data dim)
    let r ← residual ch data centers closest dim
    .ok ⟨centers, closest, docs, r⟩

/-- The loop of `run_lloyds` (src/math_utils.cpp:323-338) from iteration `i` on; `last` is what the previous iteration
left behind.  The result has the residuals reported. -/
def lloydsLoop (fmax eps tol : K) (ch dim : Nat) (sched : Nat → List (Nat × Nat) → List (Nat × Nat))
    (data : List (List K)) : Nat → Nat → K → List (List K) → List K → Res (K × List (List K) × List K)
  | 0, _, res, centers, trace => .ok (res, centers, trace)
  | todo + 1, i, res, centers, trace => do
    let l ← lloydsIter fmax ch dim (sched i) data centers
    if (i ≠ 0 ∧ (res - l.res) / l.res < tol) ∨ l.res < eps then .ok (l.res, l.centers, trace ++ [l.res])
    else lloydsLoop fmax eps tol ch dim sched data todo (i + 1) l.res l.centers (trace ++ [l.res])

/-- `run_lloyds` (src/math_utils.cpp:303-345): the result, the centres and the residuals reported. -/
def runLloyds (fmax eps tol : K) (ch dim maxReps : Nat) (sched : Nat → List (Nat × Nat) → List (Nat × Nat))
    (data centers : List (List K)) : Res (K × List (List K) × List K) :=
  lloydsLoop fmax eps tol ch dim sched data maxReps 0 fmax centers []

end Lloyd

/-! ## Initial centres -/

section Init
variable {V : Type}

/-- `random_centers` (src/math_utils.cpp:350-372) from centre `j` on.  `draw j` is the `j`-th random number. -/
def randomCentersLoop (data : List V) (draw : Nat → Nat) : Nat → Nat → List Nat → List V → Res (List V)
  | 0, _, _, centers => .ok centers
  | todo + 1, j, picked, centers =>
    if draw j ∈ picked then randomCentersLoop data draw todo (j + 1) picked centers
    else do
      let row ← rd data (draw j)
      let centers ← wr centers j row
      randomCentersLoop data draw todo (j + 1) (picked ++ [draw j]) centers

/-- `random_centers` (src/math_utils.cpp:350-372); `centers` is the memory passed in. -/
def randomCenters (data : List V) (draw : Nat → Nat) (num : Nat) (centers : List V) : Res (List V) :=
  randomCentersLoop data draw num 0 [] centers

/-- The arithmetic of k-means++: `E` are the distances (`float`), `D` the sums (`double`).  `zero` and `add` are for
the prefix sums, `total` is the sum of all distances (src/math_utils.cpp:417-420), which `-Ofast` allows to be added in another order,
`isZero` is the test `sum == 0`, `scale` is `dart_val *= sum`, `hit dart prefix d` is
`dart_val >= prefix_sum && dart_val < prefix_sum + d`. -/
structure KppOps (V E D : Type) where
  dist : V → V → E
  minE : E → E → E
  zero : D
  add : D → E → D
  total : List E → D
  isZero : D → Bool
  scale : D → D → D
  hit : D → D → E → Bool

/-- The search for the dart (src/math_utils.cpp:426-433) from point `i` on; `tmp` is `tmp_center`. -/
def kppFind {E D : Type} (O : KppOps V E D) (dart : D) : List E → Nat → D → Nat → Nat
  | [], _, _, tmp => tmp
  | d :: ds, i, pre, _ => if O.hit dart pre d then i else kppFind O dart ds (i + 1) (O.add pre d) i

/-- State of the loop: `picked`, `centers`, `dist`, `sum_flag`, `tmp_center`. -/
structure KppSt (V E : Type) where
  picked : List Nat
  centers : List V
  dist : List E
  flag : Bool
  tmp : Nat

/-- The loop (src/math_utils.cpp:412-452); `dart t` is the random number of round `t`.  `num_picked` is the length of
`picked`.  Running out of fuel is a loop that has not ended. -/
def kppLoop {E D : Type} (O : KppOps V E D) (data : List V) (num : Nat) (dart : Nat → D) : Nat → Nat → KppSt V E →
    Res (List V)
  | 0, _, _ => .error .loop
  | fuel + 1, t, s =>
    if num ≤ s.picked.length then .ok s.centers
    else
      let sum := O.total s.dist
      let flag := s.flag || O.isZero sum
      let tmp := kppFind O (O.scale (dart t) sum) s.dist 0 O.zero s.tmp
      if tmp ∈ s.picked ∧ flag = false then kppLoop O data num dart fuel (t + 1) ⟨s.picked, s.centers, s.dist, flag, tmp⟩
      else do
        let row ← rd data tmp
        let centers ← wr s.centers s.picked.length row
        kppLoop O data num dart fuel (t + 1)
          ⟨s.picked ++ [tmp], centers, List.zipWith O.minE s.dist (data.map (fun x => O.dist x row)), flag, tmp⟩

/-- `kmeans_plus_plus_centers` (src/math_utils.cpp:374-455); `init` is the first random number, `draw` those of the
fallback, `junk` the uninitialised `tmp_center`. -/
def kppCenters {E D : Type} (O : KppOps V E D) (data : List V) (num : Nat) (init junk : Nat) (draw : Nat → Nat)
    (dart : Nat → D) (fuel : Nat) (centers : List V) : Res (List V) :=
  if data.length > 8388608 then randomCenters data draw num centers
  else do
    let row ← rd data init
    let centers ← wr centers 0 row
    kppLoop O data num dart fuel 0 ⟨[init], centers, data.map (fun x => O.dist x row), false, junk⟩

end Init

end Grann
