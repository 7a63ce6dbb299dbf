import Mathlib.Order.Basic
/-!
# Specification of robust pruning

Nothing here refers to the model of the code.
-/

namespace Spec

/-- `I` are the positions that greedy pruning of the list `S` keeps: a candidate is `own` if it is the
point for which neighbours are chosen; `dom x y` means that keeping `x` makes `y` redundant; at most `R`
are kept.  A position is left out only for one of three reasons: it is `own`; a kept earlier candidate
dominates it; `R` earlier positions were kept. -/
structure RobustPrune {α : Type} (S : List α) (own : α → Prop) (dom : α → α → Prop) (R : Nat)
    (I : List Nat) : Prop where
  increasing : I.Pairwise (· < ·)
  inRange : ∀ i ∈ I, i < S.length
  bound : I.length ≤ R
  notSelf : ∀ i ∈ I, ∀ x, S[i]? = some x → ¬ own x
  undominated : ∀ i ∈ I, ∀ j ∈ I, i < j → ∀ x y, S[i]? = some x → S[j]? = some y → ¬ dom x y
  reason : ∀ j y, S[j]? = some y → j ∉ I →
    own y ∨ (∃ i ∈ I, i < j ∧ ∃ x, S[i]? = some x ∧ dom x y) ∨ (I.length = R ∧ ∀ i ∈ I, i < j)

end Spec
