import Verif.Model.Medoid
import Verif.Model.FloatArith
import Verif.Model.FloatKmeans
/-!
# The entry point in `float` arithmetic (src/index.cpp:297-338, src/relative_ng.cpp:92-133)
-/

namespace Grann

/-- `s / n` for a number of points `n`; `-Ofast` allows to multiply by the reciprocal instead. -/
def overF (ftz recip : Bool) (s : F32) (n : Nat) : F32 :=
  if recip then F32.mul ftz s (F32.div ftz F32.one (F32.ofNat n)) else F32.div ftz s (F32.ofNat n)

/-- The arithmetic of `calculate_medoid_of_data` (src/index.cpp:304-324), in the order of the loops. -/
def medOps (ftz recip : Bool) : MedoidOps F32 where
  addT := F32.add ftz
  divN := overF ftz recip
  sqDiff := fun c x => F32.mul ftz (F32.sub ftz c x) (F32.sub ftz c x)
  add := F32.add ftz

/-- `center` (src/index.cpp:300-310) with the additions for each coordinate in the order `U`.  A sum is written as a sum of products with 1, which are exact. -/
def centerF (ftz recip : Bool) (U : SumTree) (data : List (List F32)) (dim : Nat) : Res (List F32) :=
  (List.range dim).mapM (fun j => do
    let col ← data.mapM (fun v => rd v j)
    let s ← dotF32 ftz U col (List.replicate col.length F32.one)
    .ok (overF ftz recip s data.length))

/-- `calculate_medoid_of_data` (src/index.cpp:297-338) and `calculate_entry_point` (src/relative_ng.cpp:92-133), the distances with the additions in the order `T`. -/
def medoidF (ftz recip : Bool) (U T : SumTree) (data : List (List F32)) (dim : Nat) : Res Nat := do
  let center ← centerF ftz recip U data dim
  let ds ← data.mapM (l2F32 ftz T center)
  minIndex ds

end Grann
