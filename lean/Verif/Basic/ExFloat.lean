import Verif.Basic.F32
/-!
# Small integers as floats, for concrete examples
-/

namespace Grann

/-- The binary32 representation of a natural number below 2^24. -/
def exNat (n : Nat) : F32 :=
  if n = 0 then F32.zero
  else ⟨BitVec.ofNat 32 ((127 + n.log2) * 2 ^ 23 + (n - 2 ^ n.log2) * 2 ^ (23 - n.log2))⟩

/-- Squared difference of two integers (squared Euclidean distance in dimension 1). -/
def exSq (a b : Nat) : F32 := exNat ((a - b + (b - a)) ^ 2)

/-- A division that is right up to the comparison with 1: the quotient is above 1 exactly when the
dividend is larger. -/
def exDiv1 (a b : F32) : F32 := if b.lt a then ⟨0x40000000#32⟩ else F32.one

theorem exSq_comm (a b : Nat) : exSq a b = exSq b a := by
  unfold exSq
  rw [Nat.add_comm (a - b)]

example : exNat 1 = F32.one ∧ exNat 2 = ⟨0x40000000#32⟩ ∧ exNat 3 = ⟨0x40400000#32⟩ ∧
    exNat 10 = ⟨0x41200000#32⟩ := by decide

end Grann
