import Verif.Proofs.ParDrive
/-!
# One iteration on its own: rules
-/

namespace Grann

open Par

/-- The program ends, with `Q` for its result and memory. -/
def Wp {W α : Type} (p : Par W α) (m : Mem W) (Q : α → Mem W → Prop) : Prop := ∃ a r, p.solo m = .ok (a, r) ∧ Q a r

section
variable {W α β σ : Type} {m : Mem W}

theorem wp_ret {a : α} {Q : α → Mem W → Prop} (h : Q a m) : Wp (Par.ret a) m Q := ⟨a, m, rfl, h⟩

theorem wp_bind {p : Par W α} {f : α → Par W β} {Q : β → Mem W → Prop} (h : Wp p m fun a r => Wp (f a) r Q) :
    Wp (p.bind f) m Q := by
  obtain ⟨a, r, h1, b, r', h2, h3⟩ := h
  exact ⟨b, r', by rw [Par.solo_bind, h1]; exact h2, h3⟩

theorem wp_mono {p : Par W α} {Q Q' : α → Mem W → Prop} (h : Wp p m Q) (hQ : ∀ a r, Q a r → Q' a r) : Wp p m Q' := by
  obtain ⟨a, r, h1, h2⟩ := h
  exact ⟨a, r, h1, hQ a r h2⟩

theorem wp_rd {l : Loc} {v : W} {f : W → Par W α} {Q : α → Mem W → Prop} (hv : m l = some v) (h : Wp (f v) m Q) :
    Wp ((rdAt l).bind f) m Q := by
  refine wp_bind ⟨v, m, ?_, h⟩
  simp only [rdAt, Par.solo, hv]

theorem wp_rdl {l : Loc} {v : W} {Q : W → Mem W → Prop} (hv : m l = some v) (h : Q v m) : Wp (rdAt l) m Q :=
  ⟨v, m, by simp only [rdAt, Par.solo, hv], h⟩

theorem wp_wrl {l : Loc} {v : W} {Q : Unit → Mem W → Prop} (hv : ∃ w, m l = some w) (h : Q () (m.upd l v)) :
    Wp (wrAt l v) m Q := by
  obtain ⟨w, hw⟩ := hv
  exact ⟨(), _, by simp only [wrAt, Par.solo, hw], h⟩

theorem wp_wr {l : Loc} {v : W} {f : Unit → Par W α} {Q : α → Mem W → Prop} (hv : ∃ w, m l = some w)
    (h : Wp (f ()) (m.upd l v) Q) : Wp ((wrAt l v).bind f) m Q := wp_bind (wp_wrl hv h)

theorem wp_loop {body : Nat → σ → Par W σ} (I : Nat → σ → Mem W → Prop) {n a : Nat} {s : σ} {Q : σ → Mem W → Prop}
    (h0 : I a s m) (hs : ∀ j s m, a ≤ j → j < a + n → I j s m → Wp (body j s) m fun s' m' => I (j + 1) s' m')
    (hQ : ∀ s m, I (a + n) s m → Q s m) : Wp (Par.loop body n a s) m Q := by
  induction n generalizing a s m with
  | zero => exact wp_ret (hQ s m h0)
  | succ n ih =>
    refine wp_bind (wp_mono (hs a s m (Nat.le_refl _) (by omega) h0) fun s' m' h' => ?_)
    refine ih h' (fun j s m h1 h2 h3 => hs j s m (by omega) (by omega) h3) fun s m h => hQ s m ?_
    rwa [show a + (n + 1) = a + 1 + n by omega]

theorem upd_self {l : Loc} {v : W} : m.upd l v l = some v := by simp [Mem.upd]

theorem upd_ne {l l' : Loc} {v : W} (h : l' ≠ l) : m.upd l v l' = m l' := by simp [Mem.upd, h]

theorem loc_ne {a b : String} {x y z w : Nat} (h : a ≠ b) : (⟨a, x, y⟩ : Loc) ≠ ⟨b, z, w⟩ := fun e => h (congrArg Loc.arr e)

end

end Grann
