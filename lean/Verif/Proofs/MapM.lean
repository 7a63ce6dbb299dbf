import Verif.Basic.Res
/-!
# `mapM` over outcomes
-/

namespace Grann

/-- A `mapM` whose calls all succeed succeeds, element by element. -/
theorem mapM_ok {α β : Type} (f : α → Res β) : ∀ (l : List α), (∀ x ∈ l, ∃ y, f x = .ok y) →
    ∃ ys, l.mapM f = .ok ys ∧ ys.length = l.length ∧
      ∀ (i : Nat) (x : α), l[i]? = some x → ∃ y, ys[i]? = some y ∧ f x = .ok y := by
  intro l
  induction l with
  | nil => intro _; exact ⟨[], rfl, rfl, by simp⟩
  | cons a l ih =>
    intro h
    obtain ⟨y, hy⟩ := h a (by simp)
    obtain ⟨ys, h1, h2, h3⟩ := ih (fun x hx => h x (by simp [hx]))
    refine ⟨y :: ys, ?_, by simp [h2], ?_⟩
    · rw [List.mapM_cons, hy, Res.ok_bind, h1]; rfl
    · intro i x hi
      cases i with
      | zero => simp at hi; subst hi; exact ⟨y, by simp, hy⟩
      | succ i => simpa using h3 i x (by simpa using hi)

/-- A `mapM` with known results. -/
theorem mapM_eq_map {α β : Type} (f : α → Res β) (g : α → β) : ∀ (l : List α), (∀ x ∈ l, f x = .ok (g x)) →
    l.mapM f = .ok (l.map g) := by
  intro l
  induction l with
  | nil => intro _; rfl
  | cons a l ih =>
    intro h
    rw [List.mapM_cons, h a (by simp), Res.ok_bind, ih (fun x hx => h x (by simp [hx]))]
    rfl

theorem foldlM_ok {α β : Type} (f : β → α → Res β) (g : β → α → β) : ∀ (l : List α) (b : β),
    (∀ b, ∀ x ∈ l, f b x = .ok (g b x)) → l.foldlM f b = .ok (l.foldl g b) := by
  intro l
  induction l with
  | nil => intro _ _; rfl
  | cons a l ih =>
    intro b h
    rw [List.foldlM_cons, h b a (by simp), Res.ok_bind, ih _ (fun b x hx => h b x (by simp [hx]))]
    rfl

end Grann
