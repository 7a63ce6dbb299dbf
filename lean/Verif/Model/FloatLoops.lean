import Verif.Model.FloatArith
import Verif.Model.Distance
/-!
# The loops of the float distances (include/distance.h) in `float` arithmetic

As they are written, without the freedom of reordering that the compiler has: the order of the additions is that of the text.
-/

namespace Grann

/-- The loop of `DistanceL2::compare` (include/distance.h:75-77). -/
def l2LoopF (ftz : Bool) (a b : List F32) : Nat → Nat → F32 → Res F32
  | 0, _, r => .ok r
  | todo + 1, i, r => do
    let x ← rd a i
    let y ← rd b i
    l2LoopF ftz a b todo (i + 1) (F32.add ftz r (F32.mul ftz (F32.sub ftz x y) (F32.sub ftz x y)))

/-- `DistanceL2::compare` (include/distance.h:68-79). -/
def l2CompareF (ftz : Bool) (a b : List F32) (size : Nat) : Res F32 :=
  l2LoopF ftz (a.map (F32.daz ftz)) (b.map (F32.daz ftz)) (loopCount size) 0 F32.zero

/-- `AVX_DOT` (include/distance.h:89-93). -/
def avxDotF (ftz : Bool) (a b : List F32) (off : Nat) (sum : List F32) : Res (List F32) := do
  let x ← load8 a off
  let y ← load8 b off
  .ok (List.zipWith (F32.add ftz) sum (List.zipWith (F32.mul ftz) x y))

/-- The loop over blocks of 16 (include/distance.h:112-115) from block `i` on. -/
def avxLoopF (ftz : Bool) (a b : List F32) : Nat → Nat → List F32 → Res (List F32)
  | 0, _, sum => .ok sum
  | todo + 1, i, sum => do
    let sum ← avxDotF ftz a b (16 * i) sum
    let sum ← avxDotF ftz a b (16 * i + 8) sum
    avxLoopF ftz a b todo (i + 1) sum

/-- The tail of 8, if there is one (include/distance.h:107-110). -/
def avxTailF (ftz : Bool) (a b : List F32) (DR DD : Nat) : Res (List F32) :=
  if DR ≠ 0 then avxDotF ftz a b DD (List.replicate 8 F32.zero) else .ok (List.replicate 8 F32.zero)

/-- `unpack[0] + … + unpack[7]` (include/distance.h:117-118). -/
def addUp (ftz : Bool) : List F32 → F32
  | [] => F32.zero
  | x :: l => l.foldl (F32.add ftz) x

/-- `inner_product` (include/distance.h:85-182). -/
def innerProductF (ftz : Bool) (a b : List F32) (size : Nat) : Res F32 := do
  let D := u32 (size + 7) / 8 * 8
  let DR := D % 16
  let DD := D - DR
  let sum ← avxTailF ftz (a.map (F32.daz ftz)) (b.map (F32.daz ftz)) DR DD
  let sum ← avxLoopF ftz (a.map (F32.daz ftz)) (b.map (F32.daz ftz)) (DD / 16) 0 sum
  .ok (addUp ftz sum)

/-- `DistanceInnerProduct::compare` (include/distance.h:183-191). -/
def ipCompareF (ftz : Bool) (a b : List F32) (size : Nat) : Res F32 := do
  let r ← innerProductF ftz a b size
  .ok r.neg

end Grann
