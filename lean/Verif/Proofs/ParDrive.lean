import Verif.Proofs.ParFor
/-!
# Driving single iterations, and critical sections as wholes
-/

namespace Grann

theorem Par.bind_assoc {W α β γ : Type} (p : Par W α) (f : α → Par W β) (g : β → Par W γ) :
    (p.bind f).bind g = p.bind fun a => (f a).bind g := by
  induction p with
  | ret a => rfl
  | load l k ih => simp only [Par.bind]; congr 1; funext v; exact ih v
  | store l v k ih => simp only [Par.bind]; rw [ih]
  | enter k ih => simp only [Par.bind]; rw [ih]
  | leave k ih => simp only [Par.bind]; rw [ih]

/-- Without critical sections. -/
def Par.Flat {W α : Type} : Par W α → Prop
  | .ret _ => True
  | .load _ k => ∀ v, (k v).Flat
  | .store _ _ k => k.Flat
  | .enter _ => False
  | .leave _ => False

theorem Par.flat_bind {W α β : Type} {p : Par W α} {f : α → Par W β} (hp : p.Flat) (hf : ∀ a, (f a).Flat) : (p.bind f).Flat := by
  induction p with
  | ret a => exact hf a
  | load l k ih => exact fun v => ih v (hp v)
  | store l v k ih => exact ih hp
  | enter k ih => exact hp.elim
  | leave k ih => exact hp.elim

theorem Par.flat_loop {W σ : Type} {body : Nat → σ → Par W σ} (h : ∀ j s, (body j s).Flat) (n a : Nat) (s : σ) :
    (Par.loop body n a s).Flat := by
  induction n generalizing a s with
  | zero => trivial
  | succ n ih => exact Par.flat_bind (h a s) fun s' => ih (a + 1) s'

theorem Par.solo_bind {W α β : Type} (p : Par W α) (f : α → Par W β) (m : Mem W) :
    (p.bind f).solo m = (p.solo m).bind fun r => (f r.1).solo r.2 := by
  induction p generalizing m with
  | ret a => rfl
  | load l k ih =>
    simp only [Par.bind, Par.solo]
    cases m l with
    | none => rfl
    | some v => exact ih v m
  | store l v k ih =>
    simp only [Par.bind, Par.solo]
    cases m l with
    | none => rfl
    | some w => exact ih _
  | enter k ih => exact ih m
  | leave k ih => exact ih m

/-- A critical section in one go. -/
theorem Par.untilLeave_critical {W α β : Type} (p : Par W α) (hp : p.Flat) (f : α → Par W β) (m : Mem W) :
    (p.bind fun a => .leave (f a)).untilLeave m = (p.solo m).map fun r => (f r.1, r.2) := by
  induction p generalizing m with
  | ret a => rfl
  | load l k ih =>
    simp only [Par.bind, Par.untilLeave, Par.solo]
    cases m l with
    | none => rfl
    | some v => exact ih v (hp v) m
  | store l v k ih =>
    simp only [Par.bind, Par.untilLeave, Par.solo]
    cases m l with
    | none => rfl
    | some w => exact ih hp _
  | enter k ih => exact hp.elim
  | leave k ih => exact hp.elim

/-- An iteration can do a part of its work while the others stand still. -/
theorem Cfg.run_solo {W α : Type} (p : Par W α) (hf : p.Flat) (f : α → Par W Unit) {c : Cfg W} {i : Nat}
    (hp : c.ts[i]? = some (p.bind f)) {a : α} {m' : Mem W} (hs : p.solo c.mem = .ok (a, m')) :
    ∃ sched, Cfg.run sched c = .ok { c with mem := m', ts := c.ts.set i (f a) } := by
  have hi : i < c.ts.length := Disc.lt_of_get hp
  induction p generalizing c with
  | ret x =>
    simp only [Par.solo] at hs
    cases hs
    refine ⟨[], ?_⟩
    rw [List.getElem?_eq_getElem hi] at hp
    have : c.ts.set i (f a) = c.ts := by
      rw [← show c.ts[i] = f a from Option.some.inj hp]; exact List.set_getElem_self hi
    rw [this]; rfl
  | load l k ih =>
    simp only [Par.solo] at hs
    cases hv : c.mem l with
    | none => rw [hv] at hs; cases hs
    | some v =>
      rw [hv] at hs
      obtain ⟨s, h⟩ := ih v (hf v) (c := { c with ts := c.ts.set i ((k v).bind f) })
        (List.getElem?_set_self hi) hs (by simpa using hi)
      refine ⟨i :: s, ?_⟩
      simp only [Cfg.run, Cfg.step, hp, Par.bind, hv, Res.ok_bind]
      rw [h]; simp
  | store l v k ih =>
    simp only [Par.solo] at hs
    cases hv : c.mem l with
    | none => rw [hv] at hs; cases hs
    | some w =>
      rw [hv] at hs
      obtain ⟨s, h⟩ := ih hf (c := { c with mem := c.mem.upd l v, ts := c.ts.set i (k.bind f) })
        (List.getElem?_set_self hi) hs (by simpa using hi)
      refine ⟨i :: s, ?_⟩
      simp only [Cfg.run, Cfg.step, hp, Par.bind, hv, Res.ok_bind]
      rw [h]; simp
  | enter k ih => exact hf.elim
  | leave k ih => exact hf.elim

/-- The same with critical sections, for iterations that keep to a discipline. -/
theorem Disc.drive_bind {W α : Type} {D : Disc W} (hA : D.Apart) {n : Nat} (p : Par W α) (f : α → Par W Unit) {c : Cfg W}
    (hc : D.Good n c) {i : Nat} (hp : c.ts[i]? = some (p.bind f)) (hh : c.holder = none ∨ c.holder = some i)
    {Q : α → Bool → Prop} (ho : p.Obeys D i (decide (c.holder = some i)) Q) :
    ∃ sched c' a b, Cfg.run sched c = .ok c' ∧ D.Good n c' ∧ c'.holder = (if b then some i else none) ∧
      c'.ts = c.ts.set i (f a) ∧ Q a b := by
  have hi : i < c.ts.length := Disc.lt_of_get hp
  induction p generalizing c with
  | ret a =>
    refine ⟨[], c, a, decide (c.holder = some i), rfl, hc, ?_, ?_, ho⟩
    · rcases hh with h | h <;> simp [h]
    · rw [List.getElem?_eq_getElem hi] at hp
      rw [← show c.ts[i] = f a from Option.some.inj hp]; exact (List.set_getElem_self hi).symm
  | load l k ih =>
    obtain ⟨v, hv, hiv⟩ := Disc.load_ok hA hc hp
    obtain ⟨c1, h1, hg1⟩ := Disc.good_step hA hc i
    have he : c1 = { c with ts := c.ts.set i ((k v).bind f) } := by
      simp only [Cfg.step, hp, Par.bind, hv] at h1; exact (Except.ok.inj h1).symm
    have hg : c1.ts[i]? = some ((k v).bind f) := by rw [he]; exact List.getElem?_set_self hi
    obtain ⟨s, c2, a, b, h2, hg2, h3, h4, h5⟩ := ih v hg1 hg (by rw [he]; exact hh) (by rw [he]; exact ho.2 v hiv)
      (by rw [he]; simpa using hi)
    refine ⟨i :: s, c2, a, b, by simp [Cfg.run, h1, h2], hg2, h3, ?_, h5⟩
    rw [h4, he]; exact List.set_set _
  | store l v k ih =>
    obtain ⟨w, hw, -⟩ := Disc.store_ok hA hc hp
    obtain ⟨c1, h1, hg1⟩ := Disc.good_step hA hc i
    have he : c1 = { c with mem := c.mem.upd l v, ts := c.ts.set i (k.bind f) } := by
      simp only [Cfg.step, hp, Par.bind, hw] at h1; exact (Except.ok.inj h1).symm
    have hg : c1.ts[i]? = some (k.bind f) := by rw [he]; exact List.getElem?_set_self hi
    obtain ⟨s, c2, a, b, h2, hg2, h3, h4, h5⟩ := ih hg1 hg (by rw [he]; exact hh) (by rw [he]; exact ho.2.2)
      (by rw [he]; simpa using hi)
    refine ⟨i :: s, c2, a, b, by simp [Cfg.run, h1, h2], hg2, h3, ?_, h5⟩
    rw [h4, he]; exact List.set_set _
  | enter k ih =>
    have hn : c.holder = none := by
      rcases hh with h | h
      · exact h
      · have := ho.2.1
        simp [h] at this
    obtain ⟨c1, h1, hg1⟩ := Disc.good_step hA hc i
    have he : c1 = { c with holder := some i, ts := c.ts.set i (k.bind f) } := by
      simp only [Cfg.step, hp, Par.bind, hn] at h1; exact (Except.ok.inj h1).symm
    have hg : c1.ts[i]? = some (k.bind f) := by rw [he]; exact List.getElem?_set_self hi
    obtain ⟨s, c2, a, b, h2, hg2, h3, h4, h5⟩ := ih hg1 hg (by rw [he]; exact .inr rfl)
      (by rw [he]; simpa using ho.2.2) (by rw [he]; simpa using hi)
    refine ⟨i :: s, c2, a, b, by simp [Cfg.run, h1, h2], hg2, h3, ?_, h5⟩
    rw [h4, he]; exact List.set_set _
  | leave k ih =>
    have hn : c.holder = some i := by simpa using ho.1
    obtain ⟨c1, h1, hg1⟩ := Disc.good_step hA hc i
    have he : c1 = { c with holder := none, ts := c.ts.set i (k.bind f) } := by
      simp only [Cfg.step, hp, Par.bind, hn, if_true] at h1; exact (Except.ok.inj h1).symm
    have hg : c1.ts[i]? = some (k.bind f) := by rw [he]; exact List.getElem?_set_self hi
    obtain ⟨s, c2, a, b, h2, hg2, h3, h4, h5⟩ := ih hg1 hg (by rw [he]; exact .inl rfl)
      (by rw [he]; simpa using ho.2) (by rw [he]; simpa using hi)
    refine ⟨i :: s, c2, a, b, by simp [Cfg.run, h1, h2], hg2, h3, ?_, h5⟩
    rw [h4, he]; exact List.set_set _

/-- The loads up to the next store or critical section, from a memory `m`. -/
def Par.settle {W α : Type} (m : Mem W) : Par W α → Par W α
  | .load l k =>
    match m l with
    | none => .load l k
    | some v => (k v).settle m
  | p => p

theorem Par.settle_bind {W α β : Type} (m : Mem W) (p : Par W α) (f : α → Par W β) {a : α} (h : p.settle m = .ret a) :
    (p.bind f).settle m = (f a).settle m := by
  induction p with
  | ret x => simp only [Par.settle] at h; cases h; rfl
  | load l k ih =>
    simp only [Par.settle] at h
    simp only [Par.bind, Par.settle]
    cases hv : m l with
    | none => rw [hv] at h; cases h
    | some v => rw [hv] at h; exact ih v h
  | store l v k ih => simp only [Par.settle] at h; cases h
  | enter k ih => simp only [Par.settle] at h; cases h
  | leave k ih => simp only [Par.settle] at h; cases h

/-- All accesses are to elements in `S`, outside of critical sections. -/
def Par.Within {W α : Type} (S : Loc → Prop) : Par W α → Prop
  | .ret _ => True
  | .load l k => S l ∧ ∀ v, (k v).Within S
  | .store l _ k => S l ∧ k.Within S
  | .enter _ => False
  | .leave _ => False

theorem Par.within_bind {W α β : Type} {S : Loc → Prop} {p : Par W α} {f : α → Par W β} (hp : p.Within S)
    (hf : ∀ a, (f a).Within S) : (p.bind f).Within S := by
  induction p with
  | ret a => exact hf a
  | load l k ih => exact ⟨hp.1, fun v => ih v (hp.2 v)⟩
  | store l v k ih => exact ⟨hp.1, ih hp.2⟩
  | enter k ih => exact hp.elim
  | leave k ih => exact hp.elim

theorem Par.within_loop {W σ : Type} {S : Loc → Prop} {body : Nat → σ → Par W σ} (n a : Nat) (s : σ)
    (h : ∀ j s, a ≤ j → j < a + n → (body j s).Within S) : (Par.loop body n a s).Within S := by
  induction n generalizing a s with
  | zero => trivial
  | succ n ih =>
    exact Par.within_bind (h a s (Nat.le_refl _) (by omega)) fun s' =>
      ih (a + 1) s' fun j s h1 h2 => h j s (by omega) (by omega)

theorem Par.Within.flat {W α : Type} {S : Loc → Prop} {p : Par W α} (h : p.Within S) : p.Flat := by
  induction p with
  | ret a => trivial
  | load l k ih => exact fun v => ih v (h.2 v)
  | store l v k ih => exact ih h.2
  | enter k ih => exact h.elim
  | leave k ih => exact h.elim

theorem Par.Within.solo {W α : Type} {S : Loc → Prop} {p : Par W α} (h : p.Within S) {m : Mem W} (hm : ∀ l, S l → ∃ v, m l = some v) :
    ∃ a m', p.solo m = .ok (a, m') ∧ ∀ l, S l → ∃ v, m' l = some v := by
  induction p generalizing m with
  | ret a => exact ⟨a, m, rfl, hm⟩
  | load l k ih =>
    obtain ⟨v, hv⟩ := hm l h.1
    obtain ⟨a, m', h1, h2⟩ := ih v (h.2 v) hm
    exact ⟨a, m', by simp only [Par.solo, hv]; exact h1, h2⟩
  | store l v k ih =>
    obtain ⟨w, hw⟩ := hm l h.1
    obtain ⟨a, m', h1, h2⟩ := ih h.2 (m := m.upd l v) (fun l' hl' => by
      by_cases he : l' = l
      · exact ⟨v, by simp [Mem.upd, he]⟩
      · obtain ⟨x, hx⟩ := hm l' hl'
        exact ⟨x, by simp [Mem.upd, he, hx]⟩)
    exact ⟨a, m', by simp only [Par.solo, hw]; exact h1, h2⟩
  | enter k ih => exact h.elim
  | leave k ih => exact h.elim

end Grann
