import Verif.Model.ParFor
import Verif.Model.LabelMedoids
/-!
# Model of the parallel loop of `Vamana::calculate_label_specific_medoids` (src/vamana.cpp:157-216), access by access

`_pts_to_labels` and `_labels` are not changed by the loop.
-/

namespace Grann

open Par

/-- What the shared objects hold: a number (`counter`, or how often `rand` was called), `_filter_to_medoid_id`,
`_medoid_counts`, a label, or the labels of a point. -/
inductive LVal
  | num (n : Nat)
  | meds (l : List (Label × Nat))
  | counts (l : List (Nat × Nat))
  | lab (x : Label)
  | labs (xs : List Label)
  deriving DecidableEq, Repr

def LVal.toNum : LVal → Nat
  | .num n => n
  | _ => 0

def LVal.toMeds : LVal → List (Label × Nat)
  | .meds l => l
  | _ => []

def LVal.toCounts : LVal → List (Nat × Nat)
  | .counts l => l
  | _ => []

def LVal.toLab : LVal → Label
  | .lab x => x
  | _ => []

def LVal.toLabs : LVal → List Label
  | .labs xs => xs
  | _ => []

/-- `filtered_points` (src/vamana.cpp:173-181). -/
def parFiltered (useUniv : Bool) (univ x : Label) (n : Nat) : Par LVal (List Nat) :=
  loop (fun i pts => (do
    let ls ← rdAt ⟨"pts_to_labels", i, 0⟩
    .ret (if ls.toLabs.contains x || (useUniv && ls.toLabs.contains univ) then pts ++ [i] else pts) :
      Par LVal (List Nat))) n 0 []

/-- One of the 25 draws (src/vamana.cpp:188-201); the state is `best_medoid`, `best_medoid_count`. -/
def parDraw (draw : Nat → Nat) (pts : List Nat) (cnd : Nat) (s : Nat × Nat) : Par LVal (Nat × Nat) := do
  let r ← rdAt ⟨"rand", 0, 0⟩
  wrAt ⟨"rand", 0, 0⟩ (.num (r.toNum + 1))
  let cur := pts.getD (draw r.toNum % pts.length) 0
  let cs ← rdAt ⟨"medoid_counts", 0, 0⟩
  let cnt ← match cs.toCounts.lookup cur with
    | none => (do
      let cs' ← rdAt ⟨"medoid_counts", 0, 0⟩
      wrAt ⟨"medoid_counts", 0, 0⟩ (.counts (aset cs'.toCounts cur 0))
      .ret 0 : Par LVal Nat)
    | some _ => (do
      let cs' ← rdAt ⟨"medoid_counts", 0, 0⟩
      .ret ((cs'.toCounts.lookup cur).getD 0) : Par LVal Nat)
  .ret (if cnt < s.2 ∨ cnd = 0 then (cur, cnt) else s)

/-- The critical section (src/vamana.cpp:183-209). -/
def parChoose (draw : Nat → Nat) (x : Label) (pts : List Nat) : Par LVal Unit := do
  let s ← loop (parDraw draw pts) 25 0 (0, 4294967295)
  let ms ← rdAt ⟨"filter_to_medoid_id", 0, 0⟩
  wrAt ⟨"filter_to_medoid_id", 0, 0⟩ (.meds (aset ms.toMeds x s.1))
  let cs ← rdAt ⟨"medoid_counts", 0, 0⟩
  wrAt ⟨"medoid_counts", 0, 0⟩ (.counts (aset cs.toCounts s.1 (u32 ((cs.toCounts.lookup s.1).getD 0 + 1))))

/-- The progress counter (src/vamana.cpp:210-214): incremented in a critical section, then read for the message without
one. -/
def parCount : Par LVal Unit := do
  critical (do
    let k ← rdAt ⟨"counter", 0, 0⟩
    wrAt ⟨"counter", 0, 0⟩ (.num (u32 (k.toNum + 1))) : Par LVal Unit)
  let _ ← rdAt ⟨"counter", 0, 0⟩
  .ret ()

/-- One iteration (src/vamana.cpp:165-215). -/
def parLabelIter (draw : Nat → Nat) (useUniv : Bool) (univ : Label) (n lbl : Nat) : Par LVal Unit := do
  let x ← rdAt ⟨"labels", lbl, 0⟩
  let pts ← parFiltered useUniv univ x.toLab n
  if pts.length ≠ 0 then critical (parChoose draw x.toLab pts) else .ret ()
  parCount

end Grann
