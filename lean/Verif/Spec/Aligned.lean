/-!
# What is expected of a call of `aligned_alloc`
-/

namespace Grann.Spec

/-- What the C standard asks of a call of `aligned_alloc`: the alignment is a power of two, and the size a multiple of
the alignment. -/
def AllocContract (a : Nat × Nat) : Prop := (∃ k, a.1 = 2 ^ k) ∧ a.1 ∣ a.2

end Grann.Spec
