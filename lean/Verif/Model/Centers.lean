import Verif.Basic.Res
import Verif.Basic.F32
/-!
# Model of the closest-centre computation (src/math_utils.cpp:59-196)

The matrix of distances (docs_l2sq + centers_l2sq - 2 * data * centers^T, computed by three calls of
`cblas_sgemm`, src/math_utils.cpp:80-93) is a parameter: one row per point, one entry per centre.
That a row does not depend on the block the point is in is a simplification.
-/

namespace Grann

/-- Writes the entries of `xs` to `a[off]`, `a[off+1]`, ... in order. -/
def wrList {α : Type} : List α → Nat → List α → Res (List α)
  | a, _, [] => .ok a
  | a, off, x :: xs => do
    let a' ← wr a off x
    wrList a' (off + 1) xs

/-- Reads `a[off], ..., a[off + cnt - 1]`. -/
def rdList {α : Type} (a : List α) : Nat → Nat → Res (List α)
  | _, 0 => .ok []
  | off, cnt + 1 => do
    let x ← rd a off
    let xs ← rdList a (off + 1) cnt
    .ok (x :: xs)

/-- The minimum loop for `k == 1` (src/math_utils.cpp:98-105): `id` is the content of `center_ids[i]`,
`none` while it has never been written.  `min` starts at `FLT_MAX`. -/
def argminLoop : List F32 → Nat → F32 → Option Nat → Option Nat
  | [], _, _, id => id
  | x :: xs, j, min, id =>
    if x.lt min then argminLoop xs (j + 1) x (some j) else argminLoop xs (j + 1) min id

/-- One row of `compute_closest_centers_in_block`: row `i` for `k == 1` (src/math_utils.cpp:97-106) or for
larger `k` (src/math_utils.cpp:110-121).  `buf` is `center_ids` (a freshly allocated, uninitialised
array: `none` is an entry that was never written).  `pops row` is the order in which a `priority_queue`
holding every centre `j` with priority `-row[j]` yields the centres. -/
def closestRow (k : Nat) (pops : List F32 → List Nat) (row : List F32) (i : Nat)
    (buf : List (Option Nat)) : Res (List (Option Nat)) :=
  if k = 1 then do
    let old ← rd buf i
    wr buf i (argminLoop row 0 F32.fmax old)
  else do
    let ids ← rdList (pops row) 0 k
    wrList buf (i * k) (ids.map some)

/-- `compute_closest_centers_in_block` (src/math_utils.cpp:95-122), for the rows of one block starting
with row `i`.  The threads write disjoint parts of `center_ids`, so the rows are processed in order
here. -/
def closestInBlock (k : Nat) (pops : List F32 → List Nat) :
    List (List F32) → Nat → List (Option Nat) → Res (List (Option Nat))
  | [], _, buf => .ok buf
  | row :: rows, i, buf => do
    let buf ← closestRow k pops row i buf
    closestInBlock k pops rows (i + 1) buf

/-- Reading `closest_centers[...]` (src/math_utils.cpp:181-182); an entry that was never written has an
indeterminate value. -/
def rdInit (l : List (Option Nat)) : Res (List Nat) :=
  l.mapM (fun x => match x with
    | some id => .ok id
    | none => .error .ub)

/-- The `push_back`s to the inverted lists (src/math_utils.cpp:184-187), in the order in which the
threads enter the critical section. -/
def pushAll (inv : List (List Nat)) (pushes : List (Nat × Nat)) : Res (List (List Nat)) :=
  pushes.foldlM (fun inv p => do
    let l ← rd inv p.1
    wr inv p.1 (l ++ [p.2])) inv

/-- State between two blocks: the reused scratch array `closest_centers`, the output
`closest_centers_ivf`, and `inverted_index` (`none` if a null pointer was passed). -/
structure CCSt where
  buf : List (Option Nat)
  out : List Nat
  inv : Option (List (List Nat))
  deriving DecidableEq, Repr

/-- One iteration of the loop over blocks (src/math_utils.cpp:166-190).  `bs` is `block_size`, `sched` the
order of the `push_back`s of this block. -/
def closestBlockStep (bs k : Nat) (pops : List F32 → List Nat)
    (sched : List (Nat × Nat) → List (Nat × Nat)) (rows : List (List F32)) (s : CCSt) (b : Nat) :
    Res CCSt := do
  let blk := (rows.drop (b * bs)).take bs
  let buf ← closestInBlock k pops blk 0 s.buf
  let ids ← rdInit (← rdList buf 0 (blk.length * k))
  let out ← wrList s.out (b * bs * k) ids
  let inv ← match s.inv with
    | none => .ok none
    | some inv => do
      let inv ← pushAll inv (sched (ids.mapIdx (fun t c => (c, b * bs + t / k))))
      .ok (some inv)
  .ok ⟨buf, out, inv⟩

/-- `compute_closest_centers` (src/math_utils.cpp:137-196); `maxBlk` is `MAX_BLOCK_SIZE`, `nc` is
`num_centers`, `sched b` the order of the `push_back`s in block `b`.  If `k > num_centers` nothing is
written; with no points `num_points % block_size` divides by zero. -/
def closestCenters (maxBlk nc k : Nat) (pops : List F32 → List Nat)
    (sched : Nat → List (Nat × Nat) → List (Nat × Nat)) (rows : List (List F32)) (out : List Nat)
    (inv : Option (List (List Nat))) : Res (List Nat × Option (List (List Nat))) :=
  if k > nc then .ok (out, inv)
  else
    let n := rows.length
    let bs := min n maxBlk
    if bs = 0 then .error .ub
    else do
      let nBlocks := if n % bs = 0 then n / bs else n / bs + 1
      let s ← (List.range nBlocks).foldlM
        (fun s b => closestBlockStep bs k pops (sched b) rows s b)
        ⟨List.replicate (bs * k) none, out, inv⟩
      .ok (s.out, s.inv)

/-- What a `std::priority_queue` guarantees: every centre is popped once, and when no distance is NaN
in order of non-descending distance (priorities are negated distances).  The order of ties is left
open. -/
structure IsPopOrder (pops : List F32 → List Nat) : Prop where
  perm : ∀ row, (pops row).Perm (List.range row.length)
  sorted : ∀ row, (∀ x ∈ row, x.IsNum) →
    (pops row).Pairwise (fun i j => (row.getD i F32.nan).le (row.getD j F32.nan) = true)

end Grann
