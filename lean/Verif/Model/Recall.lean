import Verif.Model.Centers
import Verif.Basic.F32
import Verif.Basic.Round
/-!
# Model of `calculate_recall` and `calculate_range_search_recall` (src/recall_utils.cpp)
-/

namespace Grann

/-- C++ `a == b` on floats. -/
def F32.ceq (a b : F32) : Bool := a.le b && b.le a

/-- Inserting into a `std::set<unsigned>`. -/
def setInsert (x : Nat) : List Nat → List Nat
  | [] => [x]
  | y :: s => if x < y then x :: y :: s else if x = y then y :: s else y :: setInsert x s

/-- `s.insert(first, last)` on an empty set. -/
def setOf (l : List Nat) : List Nat := l.foldl (fun s x => setInsert x s) []

/-- The loop that extends the counted ground truth by ties (src/recall_utils.cpp:39-41) from position `t`
on; `base` is `dim_gs * i`, `last` is `recall_at - 1`. -/
def tieLoop (dists : List F32) (base dimGs last : Nat) : Nat → Nat → Res Nat
  | 0, _ => .error .loop
  | fuel + 1, t =>
    if t < dimGs then do
      let a ← rd dists (base + t)
      let b ← rd dists (base + last)
      if a.ceq b then tieLoop dists base dimGs last fuel (t + 1) else .ok t
    else .ok t

/-- `tie_breaker` (src/recall_utils.cpp:35-42); `recall_at - 1` is computed with 32-bit unsigned numbers. -/
def tieBreaker (dists : Option (List F32)) (base dimGs recallAt : Nat) : Res Nat :=
  match dists with
  | none => .ok recallAt
  | some d =>
    let last := u32 (recallAt + 4294967295)
    tieLoop d base dimGs last (dimGs + 1) last

/-- `cur_recall` for two sets (src/recall_utils.cpp:48-53, 71-76). -/
def hits (gt res : List Nat) : Nat := gt.countP (fun v => res.contains v)

/-- `cur_recall` for query `i` (src/recall_utils.cpp:31-54). -/
def recallRow (gold : List Nat) (dists : Option (List F32)) (dimGs : Nat) (ours : List Nat)
    (dimOr recallAt i : Nat) : Res Nat := do
  let t ← tieBreaker dists (dimGs * i) dimGs recallAt
  let g ← rdList gold (dimGs * i) t
  let r ← rdList ours (dimOr * i) recallAt
  .ok (hits (setOf g) (setOf r))

/-- `total_recall` (src/recall_utils.cpp:27-55).  The sum is computed in `double`, which is exact below
2^53. -/
def recallTotal (nq : Nat) (gold : List Nat) (dists : Option (List F32)) (dimGs : Nat) (ours : List Nat)
    (dimOr recallAt : Nat) : Res Nat := do
  let rows ← (List.range nq).mapM (recallRow gold dists dimGs ours dimOr recallAt)
  .ok rows.sum

/-- Division and multiplication of non-negative `double`s, given as fractions. -/
def ddiv (a b : Nat × Nat) : Nat × Nat := roundBin 53 (a.1 * b.2, a.2 * b.1)
@[inherit_doc ddiv]
def dmul (a b : Nat × Nat) : Nat × Nat := roundBin 53 (a.1 * b.1, a.2 * b.2)

/-- `total_recall / (num_queries) * (100.0 / recall_at)` (src/recall_utils.cpp:56). -/
def recallValue (total nq recallAt : Nat) : Nat × Nat :=
  dmul (ddiv (total, 1) (nq, 1)) (ddiv (100, 1) (recallAt, 1))

/-- `calculate_recall` (src/recall_utils.cpp:23-57) for at least one query: the returned `double`. -/
def calculateRecall (nq : Nat) (gold : List Nat) (dists : Option (List F32)) (dimGs : Nat) (ours : List Nat)
    (dimOr recallAt : Nat) : Res (Nat × Nat) := do
  let t ← recallTotal nq gold dists dimGs ours dimOr recallAt
  .ok (recallValue t nq recallAt)

/-- Addition of non-negative `double`s. -/
def dadd (a b : Nat × Nat) : Nat × Nat := roundBin 53 (a.1 * b.2 + b.1 * a.2, a.2 * b.2)

/-- The contribution of one query to the range search recall (src/recall_utils.cpp:69-80). -/
def rangeRow (gt res : List Nat) : Nat × Nat :=
  let g := setOf gt
  let c := hits g (setOf res)
  if g.length ≠ 0 then ddiv (roundBin 53 (100 * c, 1)) (g.length, 1) else (100, 1)

/-- `calculate_range_search_recall` (src/recall_utils.cpp:59-83) for at least one query. -/
def rangeRecall (nq : Nat) (gt res : List (List Nat)) : Res (Nat × Nat) := do
  let rows ← (List.range nq).mapM (fun i => do
    let g ← rd gt i
    let r ← rd res i
    (.ok (rangeRow g r) : Res (Nat × Nat)))
  .ok (ddiv (rows.foldl dadd (0, 1)) (nq, 1))

end Grann
