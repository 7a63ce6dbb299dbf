import Verif.Model.Centers
import Verif.Model.Recall
/-!
# Model of the choice of the number of parts (src/partition_and_pq.cpp:550-597, 903-988)

The centres that k-means finds for a number of parts are a parameter: `rowsOf parts` are the distances of the test points
from these centres (or the outcome of k-means, if it does not return).  `double`s are non-negative fractions, rounded after
every operation; no overflow to infinity.
-/

namespace Grann

/-- The block sizes (src/partition_and_pq.cpp:13, include/essentials.h:57), `k_base` and the order in which the queue of
`compute_closest_centers` yields centres. -/
structure EstPar where
  blk : Nat
  ccBlk : Nat
  kb : Nat
  pops : List F32 → List Nat

/-- `compute_closest_centers` (src/math_utils.cpp:137-196) writing to an array that may hold indeterminate values. -/
def closestInto (P : EstPar) (nc : Nat) (rows : List (List F32)) (cl : List (Option Nat)) : Res (List (Option Nat)) :=
  if P.kb > nc then .ok cl
  else do
    let (ids, _) ← closestCenters P.ccBlk nc P.kb P.pops (fun _ l => l) rows (List.replicate (rows.length * P.kb) 0) none
    wrList cl 0 (ids.map some)

/-- The loop over the closest centres of a point (src/partition_and_pq.cpp:580-583); `base` is `p * k_base`.  The counts
have 64 bits and do not wrap. -/
def estPoint (cl : List (Option Nat)) (base : Nat) : Nat → Nat → List Nat → Res (List Nat)
  | 0, _, counts => .ok counts
  | todo + 1, p1, counts => do
    let x ← rd cl (base + p1)
    match x with
    | none => .error .ub
    | some c => do
      let m ← rd counts c
      let counts ← wr counts c (m + 1)
      estPoint cl base todo (p1 + 1) counts

/-- The loop over the points of a block (src/partition_and_pq.cpp:579-584). -/
def estBlock (cl : List (Option Nat)) (kb : Nat) : Nat → Nat → List Nat → Res (List Nat)
  | 0, _, counts => .ok counts
  | todo + 1, p, counts => do
    let counts ← estPoint cl (p * kb) kb 0 counts
    estBlock cl kb todo (p + 1) counts

/-- The loop over the blocks (src/partition_and_pq.cpp:568-585) from block `b` on. -/
def estBlocks (P : EstPar) (nc bs : Nat) (rows : List (List F32)) : Nat → Nat → List (Option Nat) → List Nat →
    Res (List Nat)
  | 0, _, _, counts => .ok counts
  | todo + 1, b, cl, counts => do
    let start := b * bs
    let cur := min ((b + 1) * bs) rows.length - start
    let cl ← closestInto P nc ((rows.drop start).take cur) cl
    let counts ← estBlock cl P.kb cur 0 counts
    estBlocks P nc bs rows todo (b + 1) cl counts

/-- `estimate_cluster_sizes` (src/partition_and_pq.cpp:550-597): `cluster_sizes`. -/
def estimateSizes (P : EstPar) (nc : Nat) (rows : List (List F32)) : Res (List Nat) :=
  let n := rows.length
  let bs := if n ≤ P.blk then n else P.blk
  if bs = 0 then .error .ub
  else do
    let nb := n / bs + if n % bs ≠ 0 then 1 else 0
    let counts ← estBlocks P nc bs rows nb 0 (List.replicate (bs * P.kb) none) (List.replicate nc 0)
    .ok (counts.map u32)

/-- Conversion of an integer to `double`. -/
def dconv (n : Nat) : Nat × Nat := roundBin 53 (n, 1)

/-- `a < b` for `double`s. -/
def dlt (a b : Nat × Nat) : Bool := decide (a.1 * b.2 < b.1 * a.2)

/-- `ESTIMATE_VAMANA_RAM_USAGE` (include/essentials.h:76-80). -/
def ramEstimate (size dim es deg : Nat) : Nat × Nat :=
  dmul (roundBin 53 (130, 100))
    (dadd (dmul (dmul (dconv size) (dconv dim)) (dconv es))
      (dmul (dmul (dmul (dconv size) (dconv deg)) (4, 1)) (roundBin 53 (13, 10))))

/-- `(_u64)(p / sampling_rate)` (src/partition_and_pq.cpp:960-961); a value outside the range of the type is
undefined. -/
def scaleUp (rate : Nat × Nat) (p : Nat) : Res Nat :=
  if rate.1 = 0 then .error .ub
  else
    let q := ddiv (dconv p) rate
    if q.1 / q.2 < 18446744073709551616 then .ok (q.1 / q.2) else .error .ub

/-- The loop that finds `max_ram_usage` (src/partition_and_pq.cpp:938, 959-968). -/
def maxRam (rate : Nat × Nat) (dim es deg : Nat) (sizes : List Nat) : Res (Nat × Nat) :=
  sizes.foldlM (fun m p => do
    let p ← scaleUp rate p
    let e := ramEstimate p dim es deg
    .ok (if dlt m e then e else m)) (0, 1)

/-- The `while` loop (src/partition_and_pq.cpp:935-976) with `num_parts = parts`; the number of parts is an `int`.  `over` is
the comparison with the budget (src/partition_and_pq.cpp:972). -/
def ramLoop (sizes : Nat → Res (List Nat)) (rate : Nat × Nat) (dim es deg : Nat) (over : Nat × Nat → Bool) :
    Nat → Nat → Res Nat
  | 0, _ => .error .loop
  | fuel + 1, parts => do
    let s ← sizes parts
    let m ← maxRam rate dim es deg s
    if over m then
      if parts + 2 > 2147483647 then .error .ub else ramLoop sizes rate dim es deg over fuel (parts + 2)
    else .ok parts

/-- `partition_with_ram_budget` (src/partition_and_pq.cpp:903-988) up to the end of the loop: the number of parts.
`1024 * 1024 * 1024 * ram_budget` is exact. -/
def partitionRam (P : EstPar) (rowsOf : Nat → Res (List (List F32))) (rate : Nat × Nat) (dim es deg : Nat)
    (budget : Nat × Nat) (fuel : Nat) : Res Nat :=
  ramLoop (fun parts => do
    let rows ← rowsOf parts
    estimateSizes P parts rows) rate dim es deg (fun m => dlt (1073741824 * budget.1, budget.2) m) fuel 3

end Grann
