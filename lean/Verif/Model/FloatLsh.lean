import Verif.Model.FloatArith
import Verif.Model.FloatLoops
import Verif.Model.Lsh
/-!
# The inner products of `HashTable::get_hash` (src/lsh.cpp:46-64) in `float` arithmetic

The elements of a vector of bytes are converted to `float` first, without error; the hyperplanes are `float`.
-/

namespace Grann

/-- The loop of src/lsh.cpp:53-56. -/
def hashLoopF (ftz : Bool) (hp v : List F32) : Nat → Nat → F32 → Res F32
  | 0, _, r => .ok r
  | todo + 1, j, r => do
    let x ← rd hp j
    let y ← rd v j
    hashLoopF ftz hp v todo (j + 1) (F32.add ftz r (F32.mul ftz x y))

/-- The inner product of a hyperplane and a vector (src/lsh.cpp:52-56), as it is written. -/
def hashDotF (ftz : Bool) (hp v : List F32) (dim : Nat) : Res F32 := hashLoopF ftz (hp.map (F32.daz ftz)) (v.map (F32.daz ftz)) dim 0 F32.zero

/-- The same with the additions in the order `U`; a read outside of the vectors is excluded by the hypotheses of the theorems. -/
def hashDot (ftz : Bool) (U : SumTree) (hp v : List F32) : F32 :=
  match dotF32 ftz U hp v with
  | .ok r => r
  | .error _ => F32.nan

end Grann
