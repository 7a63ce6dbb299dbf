import Verif.Model.MemProg
/-!
# What is expected of memory managed by hand
-/

namespace Grann.Spec

/-- A heap as programs see it: every live block has its own number, which has been given out. -/
def GoodHeap (h : Heap) : Prop := (h.live.map (·.1)).Nodup ∧ ∀ p ∈ h.live, p.1 < h.next

/-- No undefined behaviour: nothing is released twice, in the wrong way, or without having been assigned. -/
def NeverUb (c : Ms) : Prop := ∀ s, GoodHeap s.heap → ¬ Exec c s .ub

/-- No exception leaves `c`. -/
def NeverThrows (c : Ms) : Prop := ∀ s s', GoodHeap s.heap → ¬ Exec c s (.thrown s')

/-- After a normal end, the live blocks are those that were live before. -/
def ReleasesAll (c : Ms) : Prop := ∀ s s', GoodHeap s.heap → Exec c s (.ok s') → s'.heap.live.Perm s.heap.live

/-- The same after an exception. -/
def ReleasesOnThrow (c : Ms) : Prop :=
  ∀ s s', GoodHeap s.heap → Exec c s (.thrown s') → s'.heap.live.Perm s.heap.live

/-- After a normal end there is one more live block, of kind `k`, and `x` points to it. -/
def HandsOver (c : Ms) (x : String) (k : Alloc) : Prop :=
  ∀ s s', GoodHeap s.heap → Exec c s (.ok s') → ∃ b, s'.env x = .mem b ∧ s'.heap.live.Perm ((b, k) :: s.heap.live)

/-- After a normal end, the blocks that were live before are live, and at most `n` more. -/
def KeepsAtMost (c : Ms) (n : Nat) : Prop :=
  ∀ s s', GoodHeap s.heap → Exec c s (.ok s') →
    ∃ more, more.length ≤ n ∧ s'.heap.live.Perm (more ++ s.heap.live)

/-- The same after an exception. -/
def LosesAtMost (c : Ms) (n : Nat) : Prop :=
  ∀ s s', GoodHeap s.heap → Exec c s (.thrown s') →
    ∃ more, more.length ≤ n ∧ s'.heap.live.Perm (more ++ s.heap.live)

/-- The state at the start of a program: no block is live, no variable has a value. -/
def fresh : MSt := ⟨fun _ => .uninit, ⟨[], 0⟩⟩

/-- From the start, `c` can throw leaving exactly `n` live blocks. -/
def CanLose (c : Ms) (n : Nat) : Prop := ∃ s', Exec c fresh (.thrown s') ∧ s'.heap.live.length = n

/-- From the start, `c` can end normally leaving exactly `n` live blocks. -/
def CanKeep (c : Ms) (n : Nat) : Prop := ∃ s', Exec c fresh (.ok s') ∧ s'.heap.live.length = n

/-- `c` can end normally from the start with no live block, having allocated `k` blocks (so that the statements about
normal ends say something). -/
def EndsAfter (c : Ms) (k : Nat) : Prop := ∃ s', Exec c fresh (.ok s') ∧ s'.heap.live = [] ∧ s'.heap.next = k

end Grann.Spec
