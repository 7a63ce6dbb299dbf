import Verif.Model.ParLoops
import Verif.Model.Centers
import Verif.Proofs.ParFor
/-!
# The inverted lists that `compute_closest_centers` fills in parallel
-/

namespace Grann

open Par

/-- The memory holds the lists. -/
def HoldsLists (m : Mem Nat) (inv : List (List Nat)) : Prop :=
  ∀ (c : Nat) (l : List Nat), inv[c]? = some l → m ⟨"inverted_index.size", c, 0⟩ = some l.length ∧
    ∀ (x y : Nat), l[x]? = some y → m ⟨"inverted_index", c, x⟩ = some y

section
variable (b bs k : Nat)

/-- Iteration `t` when `l` centers are done. -/
def asA (t l : Nat) : Par Nat Unit :=
  loop (fun j _ => (do
    let c ← rdAt ⟨"closest_centers", (b * bs + t - b * bs) * k + j, 0⟩
    wrAt ⟨"closest_centers_ivf", (b * bs + t) * k + j, 0⟩ c
    if true then critical (pushIter c (b * bs + t)) else .ret () : Par Nat Unit)) (k - l) l ()

/-- In front of the critical section. -/
def asC (t l c : Nat) : Par Nat Unit :=
  .enter (.load ⟨"inverted_index.size", c, 0⟩ fun n => .store ⟨"inverted_index", c, n⟩ (b * bs + t)
    (.store ⟨"inverted_index.size", c, 0⟩ (n + 1) (.leave (asA b bs k t (l + 1)))))

/-- In front of the store to the result. -/
def asB (t l c : Nat) : Par Nat Unit := .store ⟨"closest_centers_ivf", (b * bs + t) * k + l, 0⟩ c (asC b bs k t l c)

theorem asA_start (t : Nat) : assignIter true b bs k t = asA b bs k t 0 := rfl

theorem asA_end (t : Nat) : asA b bs k t k = .ret () := by simp [asA, loop]

theorem asA_step {t l : Nat} (h : l < k) : asA b bs k t l = .load ⟨"closest_centers", t * k + l, 0⟩ fun c => asB b bs k t l c := by
  obtain ⟨r, hr⟩ : ∃ r, k - l = r + 1 := ⟨k - l - 1, by omega⟩
  have hr' : k - (l + 1) = r := by omega
  unfold asB asC
  unfold asA
  rw [hr, hr', Nat.add_sub_cancel_left]
  rfl

end

/-- The execution so far: `done` are the completed `push_back`s in order, `lp t` their number in iteration `t`. -/
structure AssignInv (b bs k n : Nat) (ids : List Nat) (inv : List (List Nat)) (m0 : Mem Nat)
    (done : List (Nat × Nat)) (lp : Nat → Nat) (a : Mem Nat × List (Par Nat Unit)) : Prop where
  len : a.2.length = n
  nodup : done.Nodup
  mem : ∀ t l, (t, l) ∈ done ↔ t < n ∧ l < lp t
  le : ∀ t, t < n → lp t ≤ k
  prog : ∀ t, t < n → ∃ p, a.2[t]? = some p ∧ (p = asA b bs k t (lp t) ∨
    (lp t < k ∧ p = asB b bs k t (lp t) (ids.getD (t * k + lp t) 0)) ∨
    (lp t < k ∧ p = asC b bs k t (lp t) (ids.getD (t * k + lp t) 0) ∧
      a.1 ⟨"closest_centers_ivf", (b * bs + t) * k + lp t, 0⟩ = some (ids.getD (t * k + lp t) 0)))
  lists : ∃ inv', pushAll inv (done.map fun p => (ids.getD (p.1 * k + p.2) 0, b * bs + p.1)) = .ok inv' ∧
    HoldsLists a.1 inv' ∧ inv'.length = inv.length
  out : ∀ t l, t < n → l < lp t → a.1 ⟨"closest_centers_ivf", (b * bs + t) * k + l, 0⟩ = some (ids.getD (t * k + l) 0)
  other : ∀ l, l.arr ≠ "inverted_index" → l.arr ≠ "inverted_index.size" →
    (l.arr = "closest_centers_ivf" → l.j = 0 → ∀ t, t < n → l.i < (b * bs + t) * k ∨ (b * bs + t + 1) * k ≤ l.i) → a.1 l = m0 l

theorem row_ne {k t t' l l' : Nat} (h : l < k) (h' : l' < k) (hne : (t, l) ≠ (t', l')) : t * k + l ≠ t' * k + l' := by
  intro e
  have h1 : (t * k + l) / k = t := by
    rw [Nat.mul_comm, Nat.mul_add_div (by omega), Nat.div_eq_of_lt h]; rfl
  have h2 : (t' * k + l') / k = t' := by
    rw [Nat.mul_comm, Nat.mul_add_div (by omega), Nat.div_eq_of_lt h']; rfl
  have ht : t = t' := by rw [← h1, ← h2, e]
  subst ht
  exact hne (by rw [show l = l' by omega])

theorem pushAll_snoc {inv inv' : List (List Nat)} {ps : List (Nat × Nat)} (h : pushAll inv ps = .ok inv') {c j : Nat}
    {l : List Nat} (hc : inv'[c]? = some l) : pushAll inv (ps ++ [(c, j)]) = .ok (inv'.set c (l ++ [j])) := by
  unfold pushAll at h ⊢
  rw [List.foldlM_append, h]
  have hlt : c < inv'.length := by
    rcases Nat.lt_or_ge c inv'.length with h | h
    · exact h
    · rw [List.getElem?_eq_none h] at hc; simp at hc
  rw [List.getElem?_eq_getElem hlt] at hc
  rw [← Option.some.inj hc]
  simp [rd, wr, hlt]

theorem assign_step {b bs k n : Nat} {ids : List Nat} {inv : List (List Nat)} {m0 : Mem Nat}
    (hids : ∀ x, x < n * k → m0 ⟨"closest_centers", x, 0⟩ = some (ids.getD x 0))
    (hlt : ∀ x, x < n * k → ids.getD x 0 < inv.length)
    {done : List (Nat × Nat)} {lp : Nat → Nat} {a a' : Mem Nat × List (Par Nat Unit)}
    (h : AssignInv b bs k n ids inv m0 done lp a) {i : Nat} (hs : coarseStep a i = .ok a') :
    ∃ done' lp', AssignInv b bs k n ids inv m0 done' lp' a' := by
  rcases Nat.lt_or_ge i n with hi | hi
  case inr =>
    rw [coarseStep, List.getElem?_eq_none (h.len ▸ hi)] at hs
    cases hs
    exact ⟨done, lp, h⟩
  obtain ⟨p, hp, hcase⟩ := h.prog i hi
  have hik : ∀ l, l < k → i * k + l < n * k := fun l hl =>
    calc i * k + l < i * k + k := by omega
      _ = (i + 1) * k := by rw [Nat.add_mul, Nat.one_mul]
      _ ≤ n * k := Nat.mul_le_mul_right k hi
  have hilen : i < a.2.length := h.len ▸ hi
  rcases hcase with rfl | ⟨hlk, rfl⟩ | ⟨hlk, rfl, hw⟩
  · -- the load
    rcases Nat.lt_or_ge (lp i) k with hlk | hlk
    case inr =>
      have : lp i = k := Nat.le_antisymm (h.le i hi) hlk
      rw [this, asA_end] at hp
      simp only [coarseStep, hp] at hs
      cases hs
      exact ⟨done, lp, h⟩
    rw [asA_step b bs k hlk] at hp
    have hv : a.1 ⟨"closest_centers", i * k + lp i, 0⟩ = some (ids.getD (i * k + lp i) 0) := by
      rw [h.other _ (by simp) (by simp) (by simp)]
      exact hids _ (hik _ hlk)
    simp only [coarseStep, hp, hv] at hs
    cases hs
    refine ⟨done, lp, by simp [h.len], h.nodup, h.mem, h.le, ?_, h.lists, h.out, h.other⟩
    intro t ht
    by_cases hti : t = i
    · subst hti
      exact ⟨_, List.getElem?_set_self hilen, .inr (.inl ⟨hlk, rfl⟩)⟩
    · obtain ⟨p, hp, hc⟩ := h.prog t ht
      exact ⟨p, by rw [List.getElem?_set_ne (Ne.symm hti)]; exact hp, hc⟩
  · -- the store to the result
    simp only [asB] at hp
    simp only [coarseStep, hp] at hs
    cases hw : a.1 ⟨"closest_centers_ivf", (b * bs + i) * k + lp i, 0⟩ with
    | none => rw [hw] at hs; cases hs
    | some w =>
      rw [hw] at hs
      cases hs
      have hne : ∀ t l, t < n → l < k → (t, l) ≠ (i, lp i) →
          (a.1.upd ⟨"closest_centers_ivf", (b * bs + i) * k + lp i, 0⟩ (ids.getD (i * k + lp i) 0))
            ⟨"closest_centers_ivf", (b * bs + t) * k + l, 0⟩ = a.1 ⟨"closest_centers_ivf", (b * bs + t) * k + l, 0⟩ := by
        intro t l _ hl hne
        have : (b * bs + t) * k + l ≠ (b * bs + i) * k + lp i := row_ne hl hlk (fun e => hne (by
          have e1 := (Prod.mk.inj e).1
          have e2 := (Prod.mk.inj e).2
          rw [show t = i by omega, e2]))
        simp [Mem.upd, this]
      refine ⟨done, lp, by simp [h.len], h.nodup, h.mem, h.le, ?_, ?_, ?_, ?_⟩
      · intro t ht
        by_cases hti : t = i
        · subst hti
          exact ⟨_, List.getElem?_set_self hilen, .inr (.inr ⟨hlk, rfl, by simp [Mem.upd]⟩)⟩
        · obtain ⟨p, hp, hc⟩ := h.prog t ht
          refine ⟨p, by rw [List.getElem?_set_ne (Ne.symm hti)]; exact hp, ?_⟩
          rcases hc with hc | hc | ⟨hc1, hc2, hc3⟩
          · exact .inl hc
          · exact .inr (.inl hc)
          · exact .inr (.inr ⟨hc1, hc2, (hne t _ ht hc1 (fun e => hti (Prod.mk.inj e).1)).trans hc3⟩)
      · obtain ⟨inv', h1, h2, h3⟩ := h.lists
        refine ⟨inv', h1, fun c l hcl => ?_, h3⟩
        obtain ⟨h4, h5⟩ := h2 c l hcl
        exact ⟨by simpa [Mem.upd] using h4, fun x y hxy => by simpa [Mem.upd] using h5 x y hxy⟩
      · intro t l ht hl
        refine (hne t l ht (Nat.lt_of_lt_of_le hl (h.le t ht)) (fun e => ?_)).trans (h.out t l ht hl)
        obtain ⟨rfl, rfl⟩ := Prod.mk.inj e
        omega
      · intro l h1 h2 h3
        have : l ≠ ⟨"closest_centers_ivf", (b * bs + i) * k + lp i, 0⟩ := by
          rintro rfl
          have := h3 rfl rfl i hi
          simp only [Nat.add_mul] at this
          omega
        simp only [Mem.upd, this, if_false]
        exact h.other l h1 h2 h3
  · -- the critical section
    simp only [asC] at hp
    obtain ⟨inv', h1, h2, h3⟩ := h.lists
    generalize hc : ids.getD (i * k + lp i) 0 = c at *
    have hcl : c < inv'.length := by rw [h3, ← hc]; exact hlt _ (hik _ hlk)
    have hget := List.getElem?_eq_getElem hcl
    obtain ⟨h4, h5⟩ := h2 c _ hget
    simp only [coarseStep, hp, Par.untilLeave, h4] at hs
    cases he : a.1 ⟨"inverted_index", c, inv'[c].length⟩ with
    | none => rw [he] at hs; cases hs
    | some w =>
      simp only [he, Mem.upd] at hs
      rw [if_neg (by simp), h4] at hs
      cases hs
      refine ⟨done ++ [(i, lp i)], fun t => if t = i then lp i + 1 else lp t, by simp [h.len], ?_, ?_, ?_, ?_, ?_, ?_, ?_⟩
      · rw [List.nodup_append]
        refine ⟨h.nodup, by simp, ?_⟩
        rintro x hx y hy rfl
        simp at hy
        subst hy
        have := (h.mem i (lp i)).mp hx
        omega
      · intro t l
        rw [List.mem_append, h.mem t l]
        by_cases hti : t = i
        · subst hti
          simp
          omega
        · simp [hti]
      · intro t ht
        by_cases hti : t = i
        · simp [hti]; omega
        · simp [hti]; exact h.le t ht
      · intro t ht
        by_cases hti : t = i
        · subst hti
          exact ⟨_, List.getElem?_set_self hilen, .inl (by simp)⟩
        · obtain ⟨p, hp, hc⟩ := h.prog t ht
          refine ⟨p, by rw [List.getElem?_set_ne (Ne.symm hti)]; exact hp, ?_⟩
          simp only [if_neg hti]
          rcases hc with hc | hc | ⟨hc1, hc2, hc3⟩
          · exact .inl hc
          · exact .inr (.inl hc)
          · exact .inr (.inr ⟨hc1, hc2, by simpa [Mem.upd] using hc3⟩)
      · refine ⟨inv'.set c (inv'[c] ++ [b * bs + i]), ?_, ?_, by simp [h3]⟩
        · simp only [List.map_append, List.map_cons, List.map_nil, hc]
          exact pushAll_snoc h1 hget
        · intro c' l hcl'
          by_cases hcc : c = c'
          · subst hcc
            rw [List.getElem?_set_self hcl] at hcl'
            cases hcl'
            refine ⟨by simp [Mem.upd], fun x y hxy => ?_⟩
            rcases Nat.lt_or_ge x inv'[c].length with hx | hx
            · rw [List.getElem?_append_left hx] at hxy
              have : x ≠ inv'[c].length := by omega
              simpa [Mem.upd, this] using h5 x y hxy
            · have hxe : x = inv'[c].length := by
                rcases Nat.lt_or_ge x (inv'[c].length + 1) with h' | h'
                · omega
                · rw [List.getElem?_eq_none (by simpa using h')] at hxy; simp at hxy
              subst hxe
              simp at hxy
              simp [Mem.upd, hxy]
          · rw [List.getElem?_set_ne hcc] at hcl'
            obtain ⟨h6, h7⟩ := h2 c' l hcl'
            refine ⟨by simpa [Mem.upd, Ne.symm hcc] using h6, fun x y hxy => by simpa [Mem.upd, Ne.symm hcc] using h7 x y hxy⟩
      · intro t l ht hl
        by_cases hti : t = i
        · subst hti
          simp only [if_true] at hl
          by_cases hll : l = lp t
          · subst hll; simp only [hc]; simpa [Mem.upd] using hw
          · simpa [Mem.upd] using h.out t l ht (by omega)
        · simp only [if_neg hti] at hl
          simpa [Mem.upd] using h.out t l ht hl
      · intro l h1 h2 h3
        have e1 : l ≠ ⟨"inverted_index.size", c, 0⟩ := fun e => h2 (by rw [e])
        have e2 : l ≠ ⟨"inverted_index", c, inv'[c].length⟩ := fun e => h1 (by rw [e])
        simp only [Mem.upd, e1, e2, if_false]
        exact h.other l h1 h2 h3

theorem assign_run {b bs k n : Nat} {ids : List Nat} {inv : List (List Nat)} {m0 : Mem Nat}
    (hids : ∀ x, x < n * k → m0 ⟨"closest_centers", x, 0⟩ = some (ids.getD x 0))
    (hlt : ∀ x, x < n * k → ids.getD x 0 < inv.length) (s : List Nat)
    {done : List (Nat × Nat)} {lp : Nat → Nat} {a a' : Mem Nat × List (Par Nat Unit)}
    (h : AssignInv b bs k n ids inv m0 done lp a) (hs : coarseRun s a = .ok a') :
    ∃ done' lp', AssignInv b bs k n ids inv m0 done' lp' a' := by
  induction s generalizing a done lp with
  | nil => cases hs; exact ⟨done, lp, h⟩
  | cons i s ih =>
    simp only [coarseRun] at hs
    obtain ⟨a1, h1, h2⟩ := Res.bind_eq_ok.mp hs
    obtain ⟨d1, l1, hi⟩ := assign_step hids hlt h h1
    exact ih hi h2

end Grann
