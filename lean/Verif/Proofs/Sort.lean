import Verif.Model.Greedy
import Mathlib.Data.List.Sort

namespace Grann

/-- A concrete sort meeting the contract of `std::sort`, used in examples. -/
def insertSorted (x : Nbr) : List Nbr → List Nbr
  | [] => [x]
  | y :: ys => if x.dist.le y.dist then x :: y :: ys else y :: insertSorted x ys

def exSort : List Nbr → List Nbr
  | [] => []
  | x :: xs => insertSorted x (exSort xs)

theorem insertSorted_perm (x : Nbr) : ∀ l, (insertSorted x l).Perm (x :: l)
  | [] => List.Perm.refl _
  | y :: ys => by
    unfold insertSorted
    split
    · exact List.Perm.refl _
    · exact ((insertSorted_perm x ys).cons y).trans (List.Perm.swap x y ys)

theorem exSort_perm : ∀ l, (exSort l).Perm l
  | [] => List.Perm.refl _
  | x :: xs => (insertSorted_perm x _).trans ((exSort_perm xs).cons x)

theorem insertSorted_sorted (x : Nbr) (hx : x.dist.IsNum) : ∀ l : List Nbr, (∀ y ∈ l, y.dist.IsNum) →
    l.Pairwise (fun x y => x.dist.le y.dist = true) →
    (insertSorted x l).Pairwise (fun x y => x.dist.le y.dist = true) := by
  intro l
  induction l with
  | nil => intro _ _; simp [insertSorted]
  | cons y ys ih =>
    intro hn hs
    unfold insertSorted
    rw [List.pairwise_cons] at hs
    split
    · rename_i h
      rw [List.pairwise_cons]
      refine ⟨?_, List.pairwise_cons.2 hs⟩
      intro z hz
      rcases List.mem_cons.1 hz with rfl | hz
      · exact h
      · exact F32.le_trans h (hs.1 z hz)
    · rename_i h
      rw [List.pairwise_cons]
      refine ⟨?_, ih (fun z hz => hn z (by simp [hz])) hs.2⟩
      intro z hz
      rcases List.mem_cons.1 ((insertSorted_perm x ys).mem_iff.1 hz) with rfl | hz
      · rcases F32.le_total hx (hn y (by simp)) with h' | h'
        · exact absurd h' h
        · exact h'
      · exact hs.1 z hz

theorem exSort_isStdSort : IsStdSort exSort where
  perm := exSort_perm
  sorted := by
    intro l
    induction l with
    | nil => intro _; simp [exSort]
    | cons x xs ih =>
      intro hn
      exact insertSorted_sorted x (hn x (by simp)) _
        (fun y hy => hn y (by simp [(exSort_perm xs).mem_iff.1 hy]))
        (ih (fun y hy => hn y (by simp [hy])))

end Grann
