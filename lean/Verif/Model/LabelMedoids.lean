import Verif.Model.Pool
import Verif.Basic.Assoc
/-!
# Model of `Vamana::calculate_label_specific_medoids` (src/vamana.cpp:157-216)
-/

namespace Grann

/-- `filtered_points` (src/vamana.cpp:173-181): the points that carry the label or the universal label. -/
def filteredPoints {V : Type} (c : Ctx V) (x : Label) : Nat → Nat → Res (List Nat)
  | 0, _ => .ok []
  | todo + 1, i => do
    let ls ← rd c.labels i
    let rest ← filteredPoints c x todo (i + 1)
    .ok (if ls.contains x || (c.useUniv && ls.contains c.univ) then i :: rest else rest)

/-- `_filter_to_medoid_id` and `_medoid_counts` (include/vamana.h). -/
structure MedSt where
  medoids : List (Label × Nat)
  counts : List (Nat × Nat)
  deriving DecidableEq, Repr

/-- `cur_cnt` and `_medoid_counts` after the look-up of a candidate (src/vamana.cpp:190-196). -/
def useCount (counts : List (Nat × Nat)) (cur : Nat) : Nat × List (Nat × Nat) :=
  match counts.lookup cur with
  | none => (0, aset counts cur 0)
  | some k => (k, counts)

/-- The 25 draws (src/vamana.cpp:188-201): `draws` are the results of the remaining calls of `rand`, `cnd`
the number of the current draw.  Result: `best_medoid` and
`_medoid_counts`. -/
def drawLoop (pts : List Nat) : List Nat → Nat → Nat → Nat → List (Nat × Nat) → Res (Nat × List (Nat × Nat))
  | [], _, best, _, counts => .ok (best, counts)
  | r :: draws, cnd, best, bestCnt, counts => do
    let cur ← rd pts (r % pts.length)
    let p := useCount counts cur
    if p.1 < bestCnt ∨ cnd = 0 then drawLoop pts draws (cnd + 1) cur p.1 p.2
    else drawLoop pts draws (cnd + 1) best bestCnt p.2

/-- One iteration of the loop over the labels (src/vamana.cpp:164-215).  The maps are accessed in the critical
section of lines 183-209 only, so the iterations run one after the other, in an order chosen by the
scheduler (proved in `Props/ParMedoid.lean`, where the progress counter of lines 210-214 is modelled too).  `draw` yields the results of `rand` from here on. -/
def labelStep {V : Type} (c : Ctx V) (draw : Nat → Nat) (x : Label) (s : MedSt) : Res MedSt := do
  let pts ← filteredPoints c x c.data.length 0
  if pts.length ≠ 0 then do
    let (best, counts) ← drawLoop pts ((List.range 25).map draw) 0 0 4294967295 s.counts
    .ok ⟨aset s.medoids x best, aset counts best (u32 ((counts.lookup best).getD 0 + 1))⟩
  else .ok s

/-- The calls of `rand` for a label (src/vamana.cpp:182, 189). -/
def usedDraws {V : Type} (c : Ctx V) (x : Label) : Nat :=
  match filteredPoints c x c.data.length 0 with
  | .ok [] => 0
  | _ => 25

/-- All iterations, in the order in which they pass the critical section. -/
def labelMedoids {V : Type} (c : Ctx V) : List Label → (Nat → Nat) → MedSt → Res MedSt
  | [], _, s => .ok s
  | x :: xs, draw, s => do
    let s' ← labelStep c draw x s
    labelMedoids c xs (fun k => draw (k + usedDraws c x)) s'

end Grann
