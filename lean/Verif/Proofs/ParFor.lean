import Verif.Model.ParFor
/-!
# Loops whose iterations keep apart

A discipline for the iterations of a parallel loop, and what follows from it.
-/

namespace Grann

/-- Which elements an iteration may access: `own i` are written by iteration `i` only, `acc i` may be read by it,
`guarded` is accessed in critical sections only.  Values read at `slack` elements are not used.
Every value in the memory satisfies `inv`. -/
structure Disc (W : Type) where
  acc : Nat → Loc → Prop
  own : Nat → Loc → Prop
  guarded : Loc → Prop := fun _ => False
  slack : Loc → Prop := fun _ => False
  inv : Loc → W → Prop := fun _ _ => True
  locks : Prop := False

structure Disc.Apart {W : Type} (D : Disc W) : Prop where
  own_acc : ∀ i l, D.own i l → D.acc i l
  own_other : ∀ i j l, i ≠ j → D.own i l → ¬ D.acc j l
  acc_free : ∀ i l, D.acc i l → ¬ D.guarded l
  slack_guarded : ∀ l, D.slack l → D.guarded l

/-- The program keeps to the discipline as iteration `i`; `lk` says whether it is in a critical section. -/
def Par.Obeys {W α : Type} (D : Disc W) (i : Nat) : Par W α → Bool → (α → Bool → Prop) → Prop
  | .ret a, lk, Q => Q a lk
  | .load l k, lk, Q =>
    (((D.acc i l ∨ (lk = true ∧ D.guarded l)) ∨ (D.slack l ∧ ∀ v v', k v = k v'))) ∧
      ∀ v, D.inv l v → (k v).Obeys D i lk Q
  | .store l v k, lk, Q => (D.own i l ∨ (lk = true ∧ D.guarded l)) ∧ D.inv l v ∧ k.Obeys D i lk Q
  | .enter k, lk, Q => D.locks ∧ lk = false ∧ k.Obeys D i true Q
  | .leave k, lk, Q => lk = true ∧ k.Obeys D i false Q

theorem Par.obeys_bind {W α β : Type} (D : Disc W) (i : Nat) (p : Par W α) (f : α → Par W β) (lk : Bool)
    (Q : β → Bool → Prop) (h : p.Obeys D i lk fun a b => (f a).Obeys D i b Q) : (p.bind f).Obeys D i lk Q := by
  induction p generalizing lk with
  | ret a => exact h
  | load l k ih =>
    obtain ⟨h1, h2⟩ := h
    refine ⟨?_, fun v hv => ih v lk (h2 v hv)⟩
    rcases h1 with h1 | ⟨h1, h3⟩
    · exact .inl h1
    · exact .inr ⟨h1, fun v v' => by show (k v).bind f = (k v').bind f; rw [h3 v v']⟩
  | store l v k ih => exact ⟨h.1, h.2.1, ih lk h.2.2⟩
  | enter k ih => exact ⟨h.1, h.2.1, ih true h.2.2⟩
  | leave k ih => exact ⟨h.1, ih false h.2⟩

theorem Par.obeys_mono {W α : Type} (D : Disc W) (i : Nat) (p : Par W α) (lk : Bool) {Q Q' : α → Bool → Prop}
    (h : p.Obeys D i lk Q) (hQ : ∀ a b, Q a b → Q' a b) : p.Obeys D i lk Q' := by
  induction p generalizing lk with
  | ret a => exact hQ _ _ h
  | load l k ih => exact ⟨h.1, fun v hv => ih v lk (h.2 v hv)⟩
  | store l v k ih => exact ⟨h.1, h.2.1, ih lk h.2.2⟩
  | enter k ih => exact ⟨h.1, h.2.1, ih true h.2.2⟩
  | leave k ih => exact ⟨h.1, ih false h.2⟩

/-- A loop whose body keeps to the discipline and to an invariant of its local state. -/
theorem Par.obeys_loop {W σ : Type} (D : Disc W) (i : Nat) (body : Nat → σ → Par W σ) (I : Nat → σ → Prop) (n a : Nat)
    (s : σ) (hs : I a s)
    (hb : ∀ j s, a ≤ j → j < a + n → I j s → (body j s).Obeys D i false fun s' b => b = false ∧ I (j + 1) s') :
    (Par.loop body n a s).Obeys D i false fun s' b => b = false ∧ I (a + n) s' := by
  induction n generalizing a s with
  | zero => exact ⟨rfl, hs⟩
  | succ n ih =>
    refine Par.obeys_bind D i _ _ _ _ (Par.obeys_mono D i _ _ (hb a s (Nat.le_refl _) (by omega) hs) ?_)
    rintro s' b ⟨rfl, hs'⟩
    have := ih (a + 1) s' hs' (fun j s h1 h2 h3 => hb j s (by omega) (by omega) h3)
    rwa [show a + 1 + n = a + (n + 1) by omega] at this

/-- The elements that are accessed are there. -/
def Disc.MemOK {W : Type} (D : Disc W) (n : Nat) (m : Mem W) : Prop :=
  ∀ l, ((∃ i, i < n ∧ D.acc i l) ∨ D.guarded l) → ∃ v, m l = some v ∧ D.inv l v

theorem Disc.MemOK.upd {W : Type} {D : Disc W} {n : Nat} {m : Mem W} (h : D.MemOK n m) {l : Loc} {v : W}
    (hv : D.inv l v) : D.MemOK n (m.upd l v) := by
  intro l' hl'
  by_cases he : l' = l
  · exact ⟨v, by simp [Mem.upd, he], he ▸ hv⟩
  · obtain ⟨w, h1, h2⟩ := h l' hl'
    exact ⟨w, by simp [Mem.upd, he, h1], h2⟩

def EndsFree (_ : Unit) (b : Bool) : Prop := b = false

/-- The invariant of an execution. -/
structure Disc.Good {W : Type} (D : Disc W) (n : Nat) (c : Cfg W) : Prop where
  len : c.ts.length = n
  mem : D.MemOK n c.mem
  obeys : ∀ (i : Nat) (p : Par W Unit), c.ts[i]? = some p → p.Obeys D i (decide (c.holder = some i)) EndsFree
  holder : ∀ i, c.holder = some i → i < n

theorem Disc.good_start {W : Type} {D : Disc W} {m : Mem W} {ps : List (Par W Unit)} (hm : D.MemOK ps.length m)
    (hp : ∀ (i : Nat) (p : Par W Unit), ps[i]? = some p → p.Obeys D i false EndsFree) : D.Good ps.length (Cfg.start m ps) :=
  ⟨rfl, hm, fun i p h => by simpa [Cfg.start] using hp i p h, fun i h => by simp [Cfg.start] at h⟩

private theorem set_get {α : Type} {l : List α} {i j : Nat} {x y : α} (h : (l.set i x)[j]? = some y) :
    (i = j ∧ y = x ∧ i < l.length) ∨ (i ≠ j ∧ l[j]? = some y) := by
  by_cases hij : i = j
  · subst hij
    have hl : i < l.length := by
      rcases Nat.lt_or_ge i l.length with h' | h'
      · exact h'
      · rw [List.getElem?_eq_none (by simpa using h')] at h; simp at h
    rw [List.getElem?_set_self hl] at h
    exact .inl ⟨rfl, by simpa using h.symm, hl⟩
  · rw [List.getElem?_set_ne hij] at h
    exact .inr ⟨hij, h⟩

theorem Disc.lt_of_get {W : Type} {c : Cfg W} {i : Nat} {p : Par W Unit} (h : c.ts[i]? = some p) : i < c.ts.length := by
  rcases Nat.lt_or_ge i c.ts.length with h' | h'
  · exact h'
  · rw [List.getElem?_eq_none h'] at h; simp at h

theorem Disc.load_ok {W : Type} {D : Disc W} (hA : D.Apart) {n : Nat} {c : Cfg W} (hc : D.Good n c) {i : Nat} {l : Loc}
    {k : W → Par W Unit} (h : c.ts[i]? = some (.load l k)) : ∃ v, c.mem l = some v ∧ D.inv l v := by
  have ho := (hc.obeys i _ h).1
  have hi := hc.len ▸ Disc.lt_of_get h
  rcases ho with (h1 | h1) | h1
  · exact hc.mem l (.inl ⟨i, hi, h1⟩)
  · exact hc.mem l (.inr h1.2)
  · exact hc.mem l (.inr (hA.slack_guarded l h1.1))

theorem Disc.store_ok {W : Type} {D : Disc W} (hA : D.Apart) {n : Nat} {c : Cfg W} (hc : D.Good n c) {i : Nat} {l : Loc}
    {w : W} {k : Par W Unit} (h : c.ts[i]? = some (.store l w k)) : ∃ v, c.mem l = some v ∧ D.inv l v := by
  have ho := (hc.obeys i _ h).1
  have hi := hc.len ▸ Disc.lt_of_get h
  rcases ho with h1 | h1
  · exact hc.mem l (.inl ⟨i, hi, hA.own_acc _ _ h1⟩)
  · exact hc.mem l (.inr h1.2)

/-- Nothing undefined happens, and the discipline is kept. -/
theorem Disc.good_step {W : Type} {D : Disc W} (hA : D.Apart) {n : Nat} {c : Cfg W} (hc : D.Good n c) (i : Nat) :
    ∃ c', c.step i = .ok c' ∧ D.Good n c' := by
  unfold Cfg.step
  cases h : c.ts[i]? with
  | none => exact ⟨c, rfl, hc⟩
  | some p =>
    have hi : i < c.ts.length := Disc.lt_of_get h
    have ho := hc.obeys i _ h
    cases p with
    | ret a => exact ⟨c, rfl, hc⟩
    | load l k =>
      obtain ⟨v, hv, hiv⟩ := Disc.load_ok hA hc h
      simp only [hv]
      refine ⟨_, rfl, by simp [hc.len], hc.mem, ?_, hc.holder⟩
      intro j q hq
      rcases set_get hq with ⟨rfl, rfl, _⟩ | ⟨hne, hq'⟩
      · exact ho.2 v hiv
      · exact hc.obeys j q hq'
    | store l v k =>
      obtain ⟨w, hw, _⟩ := Disc.store_ok hA hc h
      simp only [hw]
      refine ⟨_, rfl, by simp [hc.len], hc.mem.upd ho.2.1, ?_, hc.holder⟩
      intro j q hq
      rcases set_get hq with ⟨rfl, rfl, _⟩ | ⟨hne, hq'⟩
      · exact ho.2.2
      · exact hc.obeys j q hq'
    | enter k =>
      cases hh : c.holder with
      | some h' => exact ⟨c, rfl, hc⟩
      | none =>
        refine ⟨_, rfl, by simp [hc.len], hc.mem, ?_, ?_⟩
        · intro j q hq
          rcases set_get hq with ⟨rfl, rfl, _⟩ | ⟨hne, hq'⟩
          · simpa using ho.2.2
          · have := hc.obeys j q hq'
            simpa [hh, hne] using this
        · intro j hj
          simp at hj
          rw [← hj, ← hc.len]; exact hi
    | leave k =>
      have hl : c.holder = some i := by simpa using ho.1
      refine ⟨_, if_pos hl, by simp [hc.len], hc.mem, ?_, by simp⟩
      intro j q hq
      rcases set_get hq with ⟨rfl, rfl, _⟩ | ⟨hne, hq'⟩
      · simpa using ho.2
      · have := hc.obeys j q hq'
        simpa [hl, hne] using this

theorem Disc.good_run {W : Type} {D : Disc W} (hA : D.Apart) {n : Nat} (sched : List Nat) {c : Cfg W} (hc : D.Good n c) :
    ∃ c', Cfg.run sched c = .ok c' ∧ D.Good n c' := by
  induction sched generalizing c with
  | nil => exact ⟨c, rfl, hc⟩
  | cons i is ih =>
    obtain ⟨c1, h1, hg1⟩ := Disc.good_step hA hc i
    obtain ⟨c2, h2, hg2⟩ := ih hg1
    exact ⟨c2, by simp [Cfg.run, h1, h2], hg2⟩

/-- Iterations that keep to the discipline race on `slack` elements only. -/
theorem Disc.good_race {W : Type} {D : Disc W} (hA : D.Apart) {n : Nat} {c : Cfg W} (hc : D.Good n c) {i j : Nat}
    {p q : Par W Unit} {l : Loc} {x y : Bool} (hij : i ≠ j) (hp : c.ts[i]? = some p) (hq : c.ts[j]? = some q)
    (hpx : p.next = some (l, x)) (hqy : q.next = some (l, y)) (hw : x = true ∨ y = true) : D.slack l := by
  have key : ∀ (i : Nat) (p : Par W Unit) (x : Bool), c.ts[i]? = some p → p.next = some (l, x) →
      D.slack l ∨ (c.holder = some i ∧ D.guarded l) ∨ (D.acc i l ∧ (x = true → D.own i l)) := by
    intro i p x hp hx
    have ho := hc.obeys i p hp
    cases p with
    | load l' k =>
      simp [Par.next] at hx
      obtain ⟨rfl, rfl⟩ := hx
      rcases ho.1 with (h1 | h1) | h1
      · exact .inr (.inr ⟨h1, by simp⟩)
      · exact .inr (.inl ⟨by simpa using h1.1, h1.2⟩)
      · exact .inl h1.1
    | store l' v k =>
      simp [Par.next] at hx
      obtain ⟨rfl, rfl⟩ := hx
      rcases ho.1 with h1 | h1
      · exact .inr (.inr ⟨hA.own_acc _ _ h1, fun _ => h1⟩)
      · exact .inr (.inl ⟨by simpa using h1.1, h1.2⟩)
    | ret a => simp [Par.next] at hx
    | enter k => simp [Par.next] at hx
    | leave k => simp [Par.next] at hx
  rcases key i p x hp hpx with h | h | h
  · exact h
  · rcases key j q y hq hqy with h' | h' | h'
    · exact h'
    · exact absurd (Option.some.inj (h.1.symm.trans h'.1)) hij
    · exact absurd h.2 (hA.acc_free _ _ h'.1)
  · rcases key j q y hq hqy with h' | h' | h'
    · exact h'
    · exact absurd h'.2 (hA.acc_free _ _ h.1)
    · rcases hw with hw | hw
      · exact absurd h'.1 (hA.own_other i j l hij (h.2 hw))
      · exact absurd h.1 (hA.own_other j i l (Ne.symm hij) (h'.2 hw))

theorem Disc.good_no_race {W : Type} {D : Disc W} (hA : D.Apart) (hs : ∀ l, ¬ D.slack l) {n : Nat} {c : Cfg W}
    (hc : D.Good n c) : ¬ c.Racy := by
  rintro ⟨i, j, p, q, l, x, y, hij, hp, hq, hpx, hqy, hw⟩
  exact hs l (Disc.good_race hA hc hij hp hq hpx hqy hw)

/-! ## Every execution can be completed -/

/-- The iteration in the critical section gets to its end; or an iteration that may run does. -/
theorem Disc.drive {W : Type} {D : Disc W} (hA : D.Apart) {n : Nat} (p : Par W Unit) {c : Cfg W} (hc : D.Good n c)
    {i : Nat} (hp : c.ts[i]? = some p) (hh : c.holder = none ∨ c.holder = some i) :
    ∃ sched c', Cfg.run sched c = .ok c' ∧ D.Good n c' ∧ c'.holder = none ∧ c'.ts = c.ts.set i (.ret ()) := by
  have hi : i < c.ts.length := Disc.lt_of_get hp
  induction p generalizing c with
  | ret a =>
    refine ⟨[], c, rfl, hc, ?_, ?_⟩
    · rcases hh with h | h
      · exact h
      · have := hc.obeys i _ hp
        simp [Par.Obeys, EndsFree, h] at this
    · rw [List.getElem?_eq_getElem hi] at hp
      cases a
      have := List.set_getElem_self (as := c.ts) hi
      rw [Option.some.inj hp] at this
      exact this.symm
  | load l k ih =>
    obtain ⟨v, hv, -⟩ := Disc.load_ok hA hc hp
    obtain ⟨c1, h1, hg1⟩ := Disc.good_step hA hc i
    have he : c1 = { c with ts := c.ts.set i (k v) } := by
      simp only [Cfg.step, hp, hv] at h1; exact (Except.ok.inj h1).symm
    have hg : c1.ts[i]? = some (k v) := by rw [he]; exact List.getElem?_set_self hi
    obtain ⟨s, c2, h2, hg2, h3, h4⟩ := ih v hg1 hg (by rw [he]; exact hh) (by rw [he]; simpa using hi)
    refine ⟨i :: s, c2, by simp [Cfg.run, h1, h2], hg2, h3, ?_⟩
    rw [h4, he]; exact List.set_set _
  | store l v k ih =>
    obtain ⟨w, hw, -⟩ := Disc.store_ok hA hc hp
    obtain ⟨c1, h1, hg1⟩ := Disc.good_step hA hc i
    have he : c1 = { c with mem := c.mem.upd l v, ts := c.ts.set i k } := by
      simp only [Cfg.step, hp, hw] at h1; exact (Except.ok.inj h1).symm
    have hg : c1.ts[i]? = some k := by rw [he]; exact List.getElem?_set_self hi
    obtain ⟨s, c2, h2, hg2, h3, h4⟩ := ih hg1 hg (by rw [he]; exact hh) (by rw [he]; simpa using hi)
    refine ⟨i :: s, c2, by simp [Cfg.run, h1, h2], hg2, h3, ?_⟩
    rw [h4, he]; exact List.set_set _
  | enter k ih =>
    have hn : c.holder = none := by
      rcases hh with h | h
      · exact h
      · have := (hc.obeys i _ hp).2.1
        simp [h] at this
    obtain ⟨c1, h1, hg1⟩ := Disc.good_step hA hc i
    have he : c1 = { c with holder := some i, ts := c.ts.set i k } := by
      simp only [Cfg.step, hp, hn] at h1; exact (Except.ok.inj h1).symm
    have hg : c1.ts[i]? = some k := by rw [he]; exact List.getElem?_set_self hi
    obtain ⟨s, c2, h2, hg2, h3, h4⟩ := ih hg1 hg (by rw [he]; exact .inr rfl) (by rw [he]; simpa using hi)
    refine ⟨i :: s, c2, by simp [Cfg.run, h1, h2], hg2, h3, ?_⟩
    rw [h4, he]; exact List.set_set _
  | leave k ih =>
    have hn : c.holder = some i := by simpa using (hc.obeys i _ hp).1
    obtain ⟨c1, h1, hg1⟩ := Disc.good_step hA hc i
    have he : c1 = { c with holder := none, ts := c.ts.set i k } := by
      simp only [Cfg.step, hp, hn, if_true] at h1; exact (Except.ok.inj h1).symm
    have hg : c1.ts[i]? = some k := by rw [he]; exact List.getElem?_set_self hi
    obtain ⟨s, c2, h2, hg2, h3, h4⟩ := ih hg1 hg (by rw [he]; exact .inl rfl) (by rw [he]; simpa using hi)
    refine ⟨i :: s, c2, by simp [Cfg.run, h1, h2], hg2, h3, ?_⟩
    rw [h4, he]; exact List.set_set _

theorem Cfg.run_append {W : Type} (s t : List Nat) (c : Cfg W) : Cfg.run (s ++ t) c = (Cfg.run s c).bind (Cfg.run t) := by
  induction s generalizing c with
  | nil => rfl
  | cons i s ih =>
    simp only [List.cons_append, Cfg.run]
    cases h : c.step i with
    | error e => rfl
    | ok c' => simpa using ih c'

theorem Disc.good_ends {W : Type} {D : Disc W} (hA : D.Apart) {n : Nat} {c : Cfg W} (hc : D.Good n c) :
    ∃ sched c', Cfg.run sched c = .ok c' ∧ D.Good n c' ∧ c'.Done := by
  -- first the iteration in the critical section
  obtain ⟨s0, c0, h0, hg0, hn0⟩ : ∃ sched c', Cfg.run sched c = .ok c' ∧ D.Good n c' ∧ c'.holder = none := by
    cases hh : c.holder with
    | none => exact ⟨[], c, rfl, hc, hh⟩
    | some i =>
      have hi : i < c.ts.length := hc.len ▸ hc.holder i hh
      obtain ⟨s, c', h1, h2, h3, -⟩ := Disc.drive hA _ hc (List.getElem?_eq_getElem hi) (.inr hh)
      exact ⟨s, c', h1, h2, h3⟩
  -- then one after the other
  have key : ∀ k, k ≤ n → ∃ sched c', Cfg.run sched c0 = .ok c' ∧ D.Good n c' ∧ c'.holder = none ∧
      ∀ (j : Nat) (p : Par W Unit), j < k → c'.ts[j]? = some p → p = .ret () := by
    intro k
    induction k with
    | zero => exact fun _ => ⟨[], c0, rfl, hg0, hn0, by intro j p hj; omega⟩
    | succ k ih =>
      intro hk
      obtain ⟨s, c1, h1, hg1, hn1, hd⟩ := ih (by omega)
      have hi : k < c1.ts.length := by rw [hg1.len]; omega
      obtain ⟨s', c2, h2, hg2, hn2, ht⟩ := Disc.drive hA _ hg1 (List.getElem?_eq_getElem hi) (.inl hn1)
      refine ⟨s ++ s', c2, by rw [Cfg.run_append, h1]; exact h2, hg2, hn2, ?_⟩
      intro j p hj hp
      rw [ht] at hp
      rcases set_get hp with ⟨-, rfl, -⟩ | ⟨hne, hp'⟩
      · rfl
      · exact hd j p (by omega) hp'
  obtain ⟨s, c', h1, hg1, -, hd⟩ := key n (Nat.le_refl _)
  refine ⟨s0 ++ s, c', by rw [Cfg.run_append, h0]; exact h1, hg1, ?_⟩
  intro p hp
  obtain ⟨j, hj, rfl⟩ := List.getElem_of_mem hp
  exact hd j _ (hg1.len ▸ hj) (List.getElem?_eq_getElem hj)

/-! ## Without critical sections the result does not depend on the schedule -/

/-- An iteration sees its own elements only. -/
theorem Disc.solo_frame {W α : Type} {D : Disc W} (hA : D.Apart) (hs : ∀ l, ¬ D.slack l) (hl : ¬ D.locks) {n i : Nat}
    (hi : i < n) (p : Par W α) {m m' : Mem W} {Q : α → Bool → Prop} (hp : p.Obeys D i false Q) (hm : D.MemOK n m)
    (heq : ∀ l, D.acc i l → m l = m' l) :
    ∃ a r r', p.solo m = .ok (a, r) ∧ p.solo m' = .ok (a, r') ∧ D.MemOK n r ∧ (∀ l, D.acc i l → r l = r' l) ∧
      (∀ l, ¬ D.own i l → r l = m l ∧ r' l = m' l) := by
  induction p generalizing m m' with
  | ret a => exact ⟨a, m, m', rfl, rfl, hm, heq, fun _ _ => ⟨rfl, rfl⟩⟩
  | load l k ih =>
    have ha : D.acc i l := by
      rcases hp.1 with (h | h) | h
      · exact h
      · simp at h
      · exact absurd h.1 (hs l)
    obtain ⟨v, hv, hiv⟩ := hm l (.inl ⟨i, hi, ha⟩)
    obtain ⟨a, r, r', h1, h2, h3⟩ := ih v (hp.2 v hiv) hm heq
    exact ⟨a, r, r', by simp [Par.solo, hv, h1], by simp [Par.solo, ← heq l ha, hv, h2], h3⟩
  | store l v k ih =>
    have ha : D.own i l := by
      rcases hp.1 with h | h
      · exact h
      · simp at h
    have hacc := hA.own_acc _ _ ha
    obtain ⟨w, hw, -⟩ := hm l (.inl ⟨i, hi, hacc⟩)
    obtain ⟨a, r, r', h1, h2, h3, h4, h5⟩ := ih (m := m.upd l v) (m' := m'.upd l v) hp.2.2 (hm.upd hp.2.1)
      (fun l' hl' => by
        by_cases he : l' = l
        · simp [Mem.upd, he]
        · simp [Mem.upd, he, heq l' hl'])
    refine ⟨a, r, r', by simp [Par.solo, hw, h1], by simp [Par.solo, ← heq l hacc, hw, h2], h3, h4, ?_⟩
    intro l' hl'
    have hne : l' ≠ l := fun he => hl' (he ▸ ha)
    have := h5 l' hl'
    simpa [Mem.upd, hne] using this
  | enter k ih => exact absurd hp.1 hl
  | leave k ih => exact absurd hp.1 (by simp)

/-- The serial loop is defined, and every iteration leaves what it would have left alone. -/
theorem Disc.serial_spec {W : Type} {D : Disc W} (hA : D.Apart) (hs : ∀ l, ¬ D.slack l) (hl : ¬ D.locks) {n : Nat}
    (ps : List (Par W Unit)) (b : Nat) (hb : b + ps.length ≤ n) {m : Mem W} (hm : D.MemOK n m)
    (hp : ∀ (j : Nat) (p : Par W Unit), ps[j]? = some p → p.Obeys D (b + j) false EndsFree) :
    ∃ F, serialLoop ps m = .ok F ∧ (∀ (j : Nat) (p : Par W Unit), ps[j]? = some p → ∃ r, p.solo m = .ok ((), r) ∧ ∀ l, D.own (b + j) l → r l = F l) ∧
      (∀ l, (∀ j, j < ps.length → ¬ D.own (b + j) l) → F l = m l) := by
  induction ps generalizing b m with
  | nil => exact ⟨m, rfl, by simp, fun _ _ => rfl⟩
  | cons p ps ih =>
    simp only [List.length_cons] at hb
    have hp0 : p.Obeys D b false EndsFree := by simpa using hp 0 p (by simp)
    obtain ⟨⟨⟩, r, r0, h1, -, hrm, -, hr⟩ := Disc.solo_frame hA hs hl (i := b) (n := n) (by omega) p (m' := m) hp0 hm
      (fun _ _ => rfl)
    obtain ⟨F, hF, hF1, hF2⟩ := ih (b + 1) (by omega) hrm (fun j q hq => by
      have := hp (j + 1) q (by simpa using hq)
      rwa [show b + (j + 1) = b + 1 + j by omega] at this)
    refine ⟨F, by simp [serialLoop, h1, hF], ?_, ?_⟩
    · intro j q hq
      cases j with
      | zero =>
        simp at hq
        subst hq
        refine ⟨r, h1, fun l ho => ?_⟩
        refine (hF2 l fun j hj ho' => ?_).symm
        exact hA.own_other (b + 0) (b + 1 + j) l (by omega) ho (hA.own_acc _ _ ho')
      | succ j =>
        have hq' : ps[j]? = some q := by simpa using hq
        obtain ⟨r', h2, h3⟩ := hF1 j q hq'
        have hj : j < ps.length := by
          rcases Nat.lt_or_ge j ps.length with h | h
          · exact h
          · rw [List.getElem?_eq_none h] at hq'; simp at hq'
        have hob := hp (j + 1) q hq
        obtain ⟨⟨⟩, s, s', e1, e2, -, e4, -⟩ := Disc.solo_frame hA hs hl (i := b + (j + 1)) (n := n) (by omega) q
          (m' := r) hob hm (fun l hacc => ((hr l fun ho => hA.own_other b (b + (j + 1)) l (by omega) ho hacc).1).symm)
        rw [h2] at e2
        have : s' = r' := by simpa using e2.symm
        refine ⟨s, e1, fun l ho => ?_⟩
        rw [e4 l (hA.own_acc _ _ ho), this]
        exact h3 l (by rwa [show b + 1 + j = b + (j + 1) by omega])
    · intro l hno
      rw [hF2 l (fun j hj => by
        have := hno (j + 1) (by simp; omega)
        rwa [show b + 1 + j = b + (j + 1) by omega])]
      exact (hr l (by simpa using hno 0 (by simp))).1

/-- The invariant that fixes the result. -/
def Disc.Fix {W : Type} (D : Disc W) (n : Nat) (F : Mem W) (c : Cfg W) : Prop :=
  (∀ (i : Nat) (p : Par W Unit), c.ts[i]? = some p → ∃ r, p.solo c.mem = .ok ((), r) ∧ ∀ l, D.own i l → r l = F l) ∧
    ∀ l, (∀ i, i < n → ¬ D.own i l) → c.mem l = F l

theorem Disc.fix_step {W : Type} {D : Disc W} (hA : D.Apart) (hs : ∀ l, ¬ D.slack l) (hl : ¬ D.locks) {n : Nat}
    {F : Mem W} {c c' : Cfg W} {i : Nat} (hc : D.Good n c) (hn : c.holder = none) (hf : D.Fix n F c)
    (h : c.step i = .ok c') : D.Fix n F c' ∧ c'.holder = none := by
  unfold Cfg.step at h
  cases hp : c.ts[i]? with
  | none => simp only [hp] at h; cases h; exact ⟨hf, hn⟩
  | some p =>
    have hi : i < c.ts.length := Disc.lt_of_get hp
    have ho := hc.obeys i _ hp
    simp only [hn, hp] at h
    simp only [hn] at ho
    cases p with
    | ret a => cases h; exact ⟨hf, hn⟩
    | load l k =>
      obtain ⟨v, hv, -⟩ := Disc.load_ok hA hc hp
      simp only [hv] at h
      cases h
      refine ⟨⟨?_, hf.2⟩, by first | exact hn | rfl⟩
      intro j q hq
      rcases set_get hq with ⟨rfl, rfl, _⟩ | ⟨hne, hq'⟩
      · obtain ⟨r, h1, h2⟩ := hf.1 i _ hp
        simp only [Par.solo, hv] at h1
        exact ⟨r, h1, h2⟩
      · exact hf.1 j q hq'
    | store l v k =>
      obtain ⟨w, hw, -⟩ := Disc.store_ok hA hc hp
      simp only [hw] at h
      cases h
      have hown : D.own i l := by
        rcases ho.1 with h | h
        · exact h
        · simp at h
      refine ⟨⟨?_, ?_⟩, by first | exact hn | rfl⟩
      · intro j q hq
        rcases set_get hq with ⟨rfl, rfl, _⟩ | ⟨hne, hq'⟩
        · obtain ⟨r, h1, h2⟩ := hf.1 i _ hp
          simp only [Par.solo, hw] at h1
          exact ⟨r, h1, h2⟩
        · obtain ⟨r, h1, h2⟩ := hf.1 j q hq'
          have hoj := hc.obeys j q hq'
          simp only [hn] at hoj
          obtain ⟨⟨⟩, s, s', e1, e2, -, e4, -⟩ := Disc.solo_frame hA hs hl (i := j) (n := n)
            (hc.len ▸ Disc.lt_of_get hq') q (m' := c.mem.upd l v) (by simpa using hoj) hc.mem (fun l' hl' => by
              have : l' ≠ l := fun he => hA.own_other i j l hne hown (he ▸ hl')
              simp [Mem.upd, this])
          rw [h1] at e1
          have : s = r := by simpa using e1.symm
          subst this
          exact ⟨s', e2, fun l' hl' => by rw [← e4 l' (hA.own_acc _ _ hl')]; exact h2 l' hl'⟩
      · intro l' hl'
        have : l' ≠ l := fun he => hl' i (hc.len ▸ hi) (he ▸ hown)
        simp only [Mem.upd, this, if_false]
        exact hf.2 l' hl'
    | enter k => exact absurd ho.1 hl
    | leave k => exact absurd ho.1 (by simp)

theorem Disc.fix_run {W : Type} {D : Disc W} (hA : D.Apart) (hs : ∀ l, ¬ D.slack l) (hl : ¬ D.locks) {n : Nat}
    {F : Mem W} (sched : List Nat) {c c' : Cfg W} (hc : D.Good n c) (hn : c.holder = none) (hf : D.Fix n F c)
    (h : Cfg.run sched c = .ok c') : D.Fix n F c' := by
  induction sched generalizing c with
  | nil => cases h; exact hf
  | cons i is ih =>
    obtain ⟨c1, h1, hg1⟩ := Disc.good_step hA hc i
    simp only [Cfg.run, h1, Res.ok_bind] at h
    obtain ⟨hf1, hn1⟩ := Disc.fix_step hA hs hl hc hn hf h1
    exact ih hg1 hn1 hf1 h

/-- Whatever the schedule, the loop leaves the memory that the serial loop leaves. -/
theorem Disc.deterministic {W : Type} {D : Disc W} (hA : D.Apart) (hs : ∀ l, ¬ D.slack l) (hl : ¬ D.locks)
    {m : Mem W} {ps : List (Par W Unit)} (hm : D.MemOK ps.length m)
    (hp : ∀ (i : Nat) (p : Par W Unit), ps[i]? = some p → p.Obeys D i false EndsFree) :
    ∃ F, serialLoop ps m = .ok F ∧
      ∀ sched c, Cfg.run sched (Cfg.start m ps) = .ok c → c.Done → c.mem = F := by
  obtain ⟨F, hF, h1, h2⟩ := Disc.serial_spec hA hs hl ps 0 (by omega) hm (by simpa using hp)
  refine ⟨F, hF, fun sched c hrun hd => ?_⟩
  have hg := Disc.good_start hm hp
  have hf0 : D.Fix ps.length F (Cfg.start m ps) :=
    ⟨fun i p hip => by have := h1 i p hip; rw [Nat.zero_add] at this; exact this, fun l hno => (h2 l (by simpa using hno)).symm⟩
  have hf := Disc.fix_run hA hs hl sched hg rfl hf0 hrun
  obtain ⟨c', hc', hg'⟩ := Disc.good_run hA sched hg
  rw [hrun] at hc'
  cases hc'
  funext l
  by_cases ho : ∃ i, i < ps.length ∧ D.own i l
  · obtain ⟨i, hi, hown⟩ := ho
    have hi' : i < c.ts.length := hg'.len ▸ hi
    obtain ⟨r, e1, e2⟩ := hf.1 i _ (List.getElem?_eq_getElem hi')
    rw [hd _ (List.getElem_mem hi')] at e1
    simp only [Par.solo] at e1
    cases e1
    exact e2 l hown
  · exact hf.2 l (fun i hi hown => ho ⟨i, hi, hown⟩)

/-! ## With critical sections: they may be taken as single steps -/

/-- Runs to the end of the critical section. -/
def Par.untilLeave {W α : Type} : Par W α → Mem W → Res (Par W α × Mem W)
  | .ret _, _ => .error .ub
  | .load l k, m =>
    match m l with
    | none => .error .ub
    | some v => (k v).untilLeave m
  | .store l v k, m =>
    match m l with
    | none => .error .ub
    | some _ => k.untilLeave (m.upd l v)
  | .enter _, _ => .error .ub
  | .leave k, m => .ok (k, m)

/-- One step of iteration `i`; a critical section is one step. -/
def coarseStep {W : Type} (a : Mem W × List (Par W Unit)) (i : Nat) : Res (Mem W × List (Par W Unit)) :=
  match a.2[i]? with
  | none => .ok a
  | some (.ret _) => .ok a
  | some (.load l k) =>
    match a.1 l with
    | none => .error .ub
    | some v => .ok (a.1, a.2.set i (k v))
  | some (.store l v k) =>
    match a.1 l with
    | none => .error .ub
    | some _ => .ok (a.1.upd l v, a.2.set i k)
  | some (.enter k) => do
    let r ← k.untilLeave a.1
    .ok (r.2, a.2.set i r.1)
  | some (.leave _) => .error .ub

def coarseRun {W : Type} : List Nat → Mem W × List (Par W Unit) → Res (Mem W × List (Par W Unit))
  | [], a => .ok a
  | i :: is, a => do
    let a' ← coarseStep a i
    coarseRun is a'

theorem coarseRun_snoc {W : Type} (s : List Nat) (i : Nat) (a b c : Mem W × List (Par W Unit)) (h : coarseRun s a = .ok b)
    (h' : coarseStep b i = .ok c) : coarseRun (s ++ [i]) a = .ok c := by
  induction s generalizing a with
  | nil =>
    simp only [coarseRun] at h
    cases h
    simp [coarseRun, h']
  | cons j s ih =>
    simp only [coarseRun, List.cons_append] at h ⊢
    obtain ⟨a', h1, h2⟩ := Res.bind_eq_ok.mp h
    rw [h1]
    exact ih a' h2

/-- A store of somebody else outside the critical sections commutes with a critical section. -/
theorem Disc.untilLeave_frame {W α : Type} {D : Disc W} (hA : D.Apart) {n i : Nat} (hi : i < n) (p : Par W α) {m : Mem W}
    {Q : α → Bool → Prop} (hp : p.Obeys D i true Q) {l : Loc} {v : W} (h1 : ¬ D.acc i l) (h2 : ¬ D.guarded l)
    (hm : D.MemOK n m) :
    (p.untilLeave (m.upd l v)) = (p.untilLeave m).map fun r => (r.1, r.2.upd l v) := by
  induction p generalizing m with
  | ret a => rfl
  | load l' k ih =>
    obtain ⟨hne, w, hv, hiv⟩ : l' ≠ l ∧ ∃ v, m l' = some v ∧ D.inv l' v := by
      rcases hp.1 with (h | h) | h
      · exact ⟨fun e => h1 (e ▸ h), hm l' (.inl ⟨i, hi, h⟩)⟩
      · exact ⟨fun e => h2 (e ▸ h.2), hm l' (.inr h.2)⟩
      · exact ⟨fun e => h2 (e ▸ hA.slack_guarded _ h.1), hm l' (.inr (hA.slack_guarded _ h.1))⟩
    simp only [Par.untilLeave, Mem.upd, hne, if_false, hv]
    exact ih w (hp.2 w hiv) hm
  | store l' w k ih =>
    have hne : l' ≠ l := by
      rintro rfl
      rcases hp.1 with h | h
      · exact h1 (hA.own_acc _ _ h)
      · exact h2 h.2
    simp only [Par.untilLeave]
    have e : (m.upd l v) l' = m l' := by simp [Mem.upd, hne]
    rw [e]
    cases hv : m l' with
    | none => rfl
    | some w' =>
      have := ih (m := m.upd l' w) hp.2.2 (hm.upd hp.2.1)
      have hcomm : (m.upd l v).upd l' w = (m.upd l' w).upd l v := by
        funext x
        simp only [Mem.upd]
        by_cases hx : x = l'
        · simp [hx, hne]
        · simp [hx]
      simp only [hcomm]
      exact this
  | enter k ih => exact absurd hp.2.1 (by simp)
  | leave k ih => rfl

/-- How the steps correspond: the atomic execution is behind by the critical section in progress. -/
def Disc.Behind {W : Type} (D : Disc W) (n : Nat) (c : Cfg W) (a : Mem W × List (Par W Unit)) : Prop :=
  match c.holder with
  | none => a = (c.mem, c.ts)
  | some h => ∃ p0 p', a.2[h]? = some (.enter p0) ∧ c.ts = a.2.set h p' ∧ p0.Obeys D h true EndsFree ∧
      p0.untilLeave a.1 = p'.untilLeave c.mem ∧ (∀ l, ¬ D.guarded l → ¬ D.own h l → a.1 l = c.mem l) ∧ D.MemOK n a.1

theorem Disc.behind_step {W : Type} {D : Disc W} (hA : D.Apart) {n : Nat} {c c' : Cfg W} (hc : D.Good n c)
    {a : Mem W × List (Par W Unit)} (hb : D.Behind n c a) {i : Nat} (h : c.step i = .ok c') :
    ∃ s a', coarseRun s a = .ok a' ∧ D.Behind n c' a' := by
  have same : c' = c → ∃ s a', coarseRun s a = .ok a' ∧ D.Behind n c' a' := fun e => ⟨[], a, rfl, e ▸ hb⟩
  cases hp : c.ts[i]? with
  | none => simp only [Cfg.step, hp] at h; exact same (Except.ok.inj h).symm
  | some p =>
    have hi : i < c.ts.length := Disc.lt_of_get hp
    have ho := hc.obeys i _ hp
    cases hh : c.holder with
    | none =>
      simp only [Disc.Behind, hh] at hb
      subst hb
      cases p with
      | ret x => simp only [Cfg.step, hp] at h; exact same (Except.ok.inj h).symm
      | load l k =>
        obtain ⟨v, hv, -⟩ := Disc.load_ok hA hc hp
        simp only [Cfg.step, hp, hv] at h
        cases h
        exact ⟨[i], (c.mem, c.ts.set i (k v)), by simp [coarseRun, coarseStep, hp, hv], by simp [Disc.Behind, hh]⟩
      | store l v k =>
        obtain ⟨w, hw, -⟩ := Disc.store_ok hA hc hp
        simp only [Cfg.step, hp, hw] at h
        cases h
        exact ⟨[i], (c.mem.upd l v, c.ts.set i k), by simp [coarseRun, coarseStep, hp, hw], by simp [Disc.Behind, hh]⟩
      | enter k =>
        simp only [Cfg.step, hp, hh] at h
        cases h
        exact ⟨[], (c.mem, c.ts), rfl, k, k, hp, rfl, ho.2.2, rfl, fun _ _ _ => rfl, hc.mem⟩
      | leave k => exact absurd ho.1 (by simp [hh])
    | some g =>
      simp only [Disc.Behind, hh] at hb
      obtain ⟨p0, p', h1, h2, h3, h4, h5, h6⟩ := hb
      have hgl : g < a.2.length := by
        rcases Nat.lt_or_ge g a.2.length with h | h
        · exact h
        · rw [List.getElem?_eq_none h] at h1; simp at h1
      have hgn : g < n := hc.holder g hh
      have hg : c.ts[g]? = some p' := by rw [h2]; exact List.getElem?_set_self hgl
      by_cases hig : i = g
      · subst hig
        rw [hg] at hp
        cases hp
        cases p with
        | ret x => simp only [Cfg.step, hg] at h; exact same (Except.ok.inj h).symm
        | load l k =>
          obtain ⟨v, hv, -⟩ := Disc.load_ok hA hc hg
          simp only [Cfg.step, hg, hv] at h
          cases h
          refine ⟨[], a, rfl, ?_⟩
          simp only [Disc.Behind, hh]
          exact ⟨p0, k v, h1, by rw [h2]; exact List.set_set _, h3, by rw [h4]; simp [Par.untilLeave, hv], h5, h6⟩
        | store l v k =>
          obtain ⟨w, hw, -⟩ := Disc.store_ok hA hc hg
          simp only [Cfg.step, hg, hw] at h
          cases h
          refine ⟨[], a, rfl, ?_⟩
          simp only [Disc.Behind, hh]
          refine ⟨p0, k, h1, by rw [h2]; exact List.set_set _, h3, by rw [h4]; simp [Par.untilLeave, hw], ?_, h6⟩
          intro l' hl1 hl2
          have hne : l' ≠ l := by
            rintro rfl
            rcases ho.1 with h | h
            · exact hl2 h
            · exact hl1 h.2
          simp only [Mem.upd, hne, if_false]
          exact h5 l' hl1 hl2
        | enter k => simp only [Cfg.step, hg, hh] at h; exact same (Except.ok.inj h).symm
        | leave k =>
          simp only [Cfg.step, hg, hh, if_true] at h
          cases h
          refine ⟨[i], (c.mem, a.2.set i k), ?_, ?_⟩
          · simp [coarseRun, coarseStep, h1, h4, Par.untilLeave]
          · simp only [Disc.Behind]
            rw [h2, List.set_set]
      · have hia : a.2[i]? = some p := by
          rw [h2, List.getElem?_set_ne (Ne.symm hig)] at hp; exact hp
        have hlk : decide (c.holder = some i) = false := by
          rw [hh]; simp; exact fun e => hig e.symm
        rw [hlk] at ho
        have hset : ∀ q, c.ts.set i q = (a.2.set i q).set g p' := fun q => by
          rw [h2]; exact List.set_comm _ _ (Ne.symm hig)
        have hget : ∀ q, (a.2.set i q)[g]? = some (.enter p0) := fun q => by
          rw [List.getElem?_set_ne hig]; exact h1
        have hin : i < n := hc.len ▸ hi
        cases p with
        | ret x => simp only [Cfg.step, hp] at h; exact same (Except.ok.inj h).symm
        | load l k =>
          obtain ⟨v, hv, -⟩ := Disc.load_ok hA hc hp
          simp only [Cfg.step, hp, hv] at h
          cases h
          obtain ⟨w, hw, hkw⟩ : ∃ w, a.1 l = some w ∧ k w = k v := by
            rcases ho.1 with (h | h) | h
            · have e := h5 l (hA.acc_free _ _ h) (fun ho' => hA.own_other g i l (Ne.symm hig) ho' h)
              exact ⟨v, by rw [e, hv], rfl⟩
            · simp at h
            · obtain ⟨w, hw, -⟩ := h6 l (.inr (hA.slack_guarded _ h.1))
              exact ⟨w, hw, h.2 w v⟩
          refine ⟨[i], (a.1, a.2.set i (k v)), by simp [coarseRun, coarseStep, hia, hw, hkw], ?_⟩
          simp only [Disc.Behind, hh]
          exact ⟨p0, p', hget _, hset _, h3, h4, h5, h6⟩
        | store l v k =>
          obtain ⟨w, hw, -⟩ := Disc.store_ok hA hc hp
          simp only [Cfg.step, hp, hw] at h
          cases h
          have hown : D.own i l := by
            rcases ho.1 with h | h
            · exact h
            · simp at h
          have hacc := hA.own_acc _ _ hown
          have hng := hA.acc_free _ _ hacc
          have hna : ¬ D.acc g l := hA.own_other i g l hig hown
          obtain ⟨w', hw', -⟩ := h6 l (.inl ⟨i, hin, hacc⟩)
          have hop' : p'.Obeys D g true EndsFree := by
            have := hc.obeys g _ hg
            simpa [hh] using this
          refine ⟨[i], (a.1.upd l v, a.2.set i k), by simp [coarseRun, coarseStep, hia, hw'], ?_⟩
          simp only [Disc.Behind, hh]
          refine ⟨p0, p', hget _, hset _, h3, ?_, ?_, h6.upd ho.2.1⟩
          · rw [Disc.untilLeave_frame hA hgn p0 h3 hna hng h6, Disc.untilLeave_frame hA hgn p' hop' hna hng hc.mem, h4]
          · intro l' hl1 hl2
            simp only [Mem.upd]
            split
            · rfl
            · exact h5 l' hl1 hl2
        | enter k => simp only [Cfg.step, hp, hh] at h; exact same (Except.ok.inj h).symm
        | leave k => exact absurd ho.1 (by simp)

theorem coarseRun_append {W : Type} (s t : List Nat) (a b : Mem W × List (Par W Unit)) (h : coarseRun s a = .ok b) :
    coarseRun (s ++ t) a = coarseRun t b := by
  induction s generalizing a with
  | nil => cases h; rfl
  | cons i s ih =>
    simp only [List.cons_append, coarseRun] at h ⊢
    obtain ⟨a', h1, h2⟩ := Res.bind_eq_ok.mp h
    rw [h1]
    exact ih a' h2

theorem Disc.behind_run {W : Type} {D : Disc W} (hA : D.Apart) {n : Nat} (sched : List Nat) {c c' : Cfg W}
    (hc : D.Good n c) {a : Mem W × List (Par W Unit)} (hb : D.Behind n c a) (h : Cfg.run sched c = .ok c') :
    ∃ s a', coarseRun s a = .ok a' ∧ D.Behind n c' a' := by
  induction sched generalizing c a with
  | nil => cases h; exact ⟨[], a, rfl, hb⟩
  | cons i is ih =>
    obtain ⟨c1, h1, hg1⟩ := Disc.good_step hA hc i
    simp only [Cfg.run, h1, Res.ok_bind] at h
    obtain ⟨s, a1, hs, hb1⟩ := Disc.behind_step hA hc hb h1
    obtain ⟨s', a2, hs', hb2⟩ := ih hg1 hb1 h
    exact ⟨s ++ s', a2, by rw [coarseRun_append s s' a a1 hs, hs'], hb2⟩

/-- Every completed execution has the result of one in which the critical sections are single steps. -/
theorem Disc.atomic {W : Type} {D : Disc W} (hA : D.Apart) {m : Mem W} {ps : List (Par W Unit)} (hm : D.MemOK ps.length m)
    (hp : ∀ (i : Nat) (p : Par W Unit), ps[i]? = some p → p.Obeys D i false EndsFree) (sched : List Nat) {c : Cfg W}
    (h : Cfg.run sched (Cfg.start m ps) = .ok c) (hd : c.Done) : ∃ s, coarseRun s (m, ps) = .ok (c.mem, c.ts) := by
  have hg := Disc.good_start hm hp
  obtain ⟨s, a, hs, hb⟩ := Disc.behind_run hA sched hg (a := (m, ps)) (by simp [Disc.Behind, Cfg.start]) h
  obtain ⟨c', hc', hg'⟩ := Disc.good_run hA sched hg
  rw [h] at hc'
  cases hc'
  have hn : c.holder = none := by
    cases hh : c.holder with
    | none => rfl
    | some i =>
      have hi : i < c.ts.length := hg'.len ▸ hg'.holder i hh
      have := hg'.obeys i _ (List.getElem?_eq_getElem hi)
      rw [hd _ (List.getElem_mem hi)] at this
      simp [Par.Obeys, EndsFree, hh] at this
  simp only [Disc.Behind, hn] at hb
  exact ⟨s, hb ▸ hs⟩

end Grann
