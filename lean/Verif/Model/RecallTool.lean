import Verif.Model.Truthset
/-!
# Model of the recall tool (tests/utils/calculate_recall.cpp)
-/

namespace Grann

/-- `main` (tests/utils/calculate_recall.cpp:15-53): the number printed, or `none` if the program ends with a message.  An exception of
`load_truthset` is not caught.  For no queries the printed number is 0 divided by 0 (not modelled: the theorems speak about at least one
query). -/
def recallTool (goldFile oursFile : Option Bytes) (j1 j2 : TruthJunk) (recallAt : Nat) : Res (Option (Nat × Nat)) := do
  let g ← loadTruth goldFile j1
  let o ← loadTruth oursFile j2
  if g.npts ≠ o.npts then .ok none
  else if o.dim < recallAt ∨ recallAt > g.dim then .ok none
  else do
    let v ← calculateRecall g.npts g.ids g.dists g.dim o.ids o.dim recallAt
    .ok (some v)

end Grann
