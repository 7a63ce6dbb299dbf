import Verif.Basic.Bytes
/-!
# C107: files that differ in one bit
-/

namespace Grann

namespace Spec

/-- Two files that differ in a single bit. -/
def OneBit (f f' : Bytes) : Prop :=
  ∃ (a c : Bytes) (x : UInt8) (k : Nat), k < 8 ∧ f = a ++ x :: c ∧ f' = a ++ (x ^^^ UInt8.ofNat (2 ^ k)) :: c

end Spec

end Grann
