import Verif.Proofs.HnLife
/-!
# C60: objects release the memory they own, once, in the right way

The heap model makes it undefined to release an uninitialised pointer, a block that is not live, or a block that was
allocated in another way.  For every class and every sequence of events the theorems tell exactly which lives are
well defined, and what is left over.
-/

namespace Grann

/-- The heap is consistent: block numbers are different and below the next number. -/
def Spec.heapOk (h : Heap) : Prop := (h.live.map Prod.fst).Nodup ∧ ∀ q ∈ h.live, q.1 < h.next

/-- The object got its vectors before any build started: it was constructed with data, or a `load` came as far as
allocating them. -/
def Spec.hasData (ofData : Bool) (evs : List Ev) : Prop :=
  ofData = true ∨ ∃ pre n post, evs = pre ++ Ev.load (n + 1) :: post ∧ Ev.build true ∉ pre

/-- The centres in place at the end come from `build`. -/
def Spec.centersFromBuild (evs : List Ev) : Prop :=
  ∃ pre post, evs = pre ++ Ev.build true :: post ∧ ∀ n, 2 < n → Ev.load n ∉ post

/-- The number of `load`s that got past file number `k`. -/
def Spec.loads (k : Nat) (evs : List Ev) : Nat :=
  evs.countP (fun e => match e with | .load n => decide (k < n) | .build _ => false)

/-- The number of builds. -/
def Spec.builds (evs : List Ev) : Nat :=
  evs.countP (fun e => match e with | .load _ => false | .build ok => ok)

theorem good_of_heapOk {h : Heap} (hh : Spec.heapOk h) : Good h h.live := ⟨List.Perm.refl _, hh.1, hh.2⟩

theorem abs_load_d (ivf : Bool) (n : Nat) (a : Abs) : (a.load ivf n).d = (a.d || decide (0 < n)) := by
  unfold Abs.load
  by_cases h0 : 0 < n <;> by_cases h1 : 1 < n <;> by_cases h2 : 2 < n <;> cases ivf <;> simp [h0, h1, h2]

theorem abs_load_t (ivf : Bool) (n : Nat) (a : Abs) : (a.load ivf n).t = (a.t || decide (1 < n)) := by
  unfold Abs.load
  by_cases h0 : 0 < n <;> by_cases h1 : 1 < n <;> by_cases h2 : 2 < n <;> cases ivf <;> simp [h0, h1, h2]

theorem abs_load_c (ivf : Bool) (n : Nat) (a : Abs) :
    (a.load ivf n).c = if 2 < n ∧ ivf = true then some .malloc else a.c := by
  unfold Abs.load
  by_cases h0 : 0 < n <;> by_cases h1 : 1 < n <;> by_cases h2 : 2 < n <;> cases ivf <;> simp [h0, h1, h2]

/-- Blocks are owned or lost. -/
def Abs.total (a : Abs) : Nat := a.lost + a.d.toNat + a.t.toNat + a.c.isSome.toNat

theorem abs_load_total (ivf : Bool) (n : Nat) (a : Abs) :
    (a.load ivf n).total = a.total + (decide (0 < n)).toNat + (decide (1 < n)).toNat +
      (decide (2 < n ∧ ivf = true)).toNat := by
  unfold Abs.load Abs.total
  by_cases h0 : 0 < n
  · by_cases h1 : 1 < n
    · by_cases h2 : 2 < n <;> cases ivf <;> simp [h0, h1, h2] <;> omega
    · have h2 : ¬ 2 < n := by omega
      simp [h0, h1, h2]
      omega
  · have h1 : ¬ 1 < n := by omega
    have h2 : ¬ 2 < n := by omega
    simp [h0, h1, h2]

theorem hasData_cons {d : Bool} {e : Ev} {evs : List Ev} (h : Spec.hasData d (e :: evs)) :
    d = true ∨ (∃ n, e = .load (n + 1)) ∨ (e ≠ .build true ∧ Spec.hasData false evs) := by
  rcases h with h | ⟨pre, n, post, he, hp⟩
  · exact .inl h
  · cases pre with
    | nil =>
      rw [List.nil_append, List.cons.injEq] at he
      exact .inr (.inl ⟨n, he.1⟩)
    | cons p pre =>
      rw [List.cons_append, List.cons.injEq] at he
      refine .inr (.inr ⟨fun hb => hp (by rw [← hb, he.1]; simp), .inr ⟨pre, n, post, he.2,
        fun hm => hp (List.mem_cons_of_mem _ hm)⟩⟩)

theorem hasData_mono {evs : List Ev} (h : Spec.hasData false evs) (d : Bool) : Spec.hasData d evs := by
  rcases h with h | h
  · cases h
  · exact .inr h

/-- An object that has its vectors in time: every run is defined; the final state. -/
theorem abs_run (ivf : Bool) : ∀ (evs : List Ev) (a : Abs), Spec.hasData a.d evs →
    ∃ a', evs.foldlM (Abs.step ivf) a = .ok a' ∧ a'.d = true ∧ a'.t = (a.t || decide (0 < Spec.loads 1 evs)) ∧
      (ivf = false → a'.c = a.c) ∧
      (ivf = true → (a'.c = some .arr ↔
        Spec.centersFromBuild evs ∨ (a.c = some .arr ∧ ∀ n, 2 < n → Ev.load n ∉ evs))) ∧
      a'.total = a.total + Spec.loads 0 evs + Spec.loads 1 evs +
        (if ivf then Spec.loads 2 evs + Spec.builds evs else 0)
  | [], a, h => by
    have h : a.d = true := by
      rcases h with h | ⟨pre, n, post, he, _⟩
      · exact h
      · simp at he
    refine ⟨a, rfl, h, by simp [Spec.loads], fun _ => rfl, fun _ => ?_, by simp [Spec.loads, Spec.builds]⟩
    constructor
    · intro hc
      exact .inr ⟨hc, by simp⟩
    · rintro (⟨pre, post, he, _⟩ | hc)
      · simp at he
      · exact hc.1
  | .load n :: evs, a, h => by
    obtain ⟨a', e, d, t, c0, c1, tot⟩ := abs_run ivf evs (a.load ivf n) (by
      rw [abs_load_d]
      rcases hasData_cons h with h | ⟨m, h⟩ | h
      · rw [h]
        exact .inl rfl
      · rw [Ev.load.injEq] at h
        exact .inl (by simp [h])
      · exact hasData_mono h.2 _)
    refine ⟨a', by simpa only [List.foldlM_cons, Abs.step, Res.ok_bind] using e, d, ?_, ?_, ?_, ?_⟩
    · rw [t, abs_load_t]
      simp only [Spec.loads, List.countP_cons]
      by_cases hn : 1 < n <;> simp [hn]
    · intro hi
      rw [c0 hi, abs_load_c, if_neg (by simp [hi])]
    · intro hi
      rw [c1 hi, abs_load_c]
      constructor
      · rintro (⟨pre, post, he, hp⟩ | ⟨hc, hp⟩)
        · exact .inl ⟨.load n :: pre, post, by rw [he]; rfl, hp⟩
        · by_cases hn : 2 < n
          · rw [if_pos ⟨hn, hi⟩] at hc
            simp at hc
          · rw [if_neg (fun h => hn h.1)] at hc
            refine .inr ⟨hc, fun m hm hmem => ?_⟩
            rcases List.mem_cons.1 hmem with he | hmem
            · rw [Ev.load.injEq] at he
              omega
            · exact hp m hm hmem
      · rintro (⟨pre, post, he, hp⟩ | ⟨hc, hp⟩)
        · cases pre with
          | nil => simp at he
          | cons p pre =>
            rw [List.cons_append, List.cons.injEq] at he
            exact .inl ⟨pre, post, he.2, hp⟩
        · have hn : ¬ 2 < n := fun hn => hp n hn (by simp)
          rw [if_neg (fun h => hn h.1)]
          exact .inr ⟨hc, fun m hm hmem => hp m hm (List.mem_cons_of_mem _ hmem)⟩
    · rw [tot, abs_load_total]
      simp only [Spec.loads, Spec.builds, List.countP_cons]
      by_cases h0 : 0 < n <;> by_cases h1 : 1 < n <;> by_cases h2 : 2 < n <;> cases ivf <;>
        simp [h0, h1, h2] <;> omega
  | .build ok :: evs, a, h => by
    simp only [List.foldlM_cons, Abs.step]
    have hsplit : ∀ (q : Prop), (q ↔ Spec.centersFromBuild evs) →
        (Spec.centersFromBuild (.build ok :: evs) ↔ q ∨ (ok = true ∧ ∀ n, 2 < n → Ev.load n ∉ evs)) := by
      intro q hq
      rw [hq]
      constructor
      · rintro ⟨pre, post, he, hp⟩
        cases pre with
        | nil =>
          rw [List.nil_append, List.cons.injEq, Ev.build.injEq] at he
          rw [he.2]
          exact .inr ⟨he.1, hp⟩
        | cons p pre =>
          rw [List.cons_append, List.cons.injEq] at he
          exact .inl ⟨pre, post, he.2, hp⟩
      · rintro (⟨pre, post, he, hp⟩ | ⟨hok, hp⟩)
        · exact ⟨.build ok :: pre, post, by rw [he]; rfl, hp⟩
        · exact ⟨[], evs, by rw [hok]; rfl, hp⟩
    have hmem : (∀ n, 2 < n → Ev.load n ∉ (Ev.build ok :: evs)) ↔ ∀ n, 2 < n → Ev.load n ∉ evs := by
      simp
    by_cases hok : ok = false
    · rw [if_pos hok, Res.ok_bind]
      obtain ⟨a', e, d, t, c0, c1, tot⟩ := abs_run ivf evs a (by
        rcases hasData_cons h with h | ⟨m, h⟩ | h
        · exact .inl h
        · cases h
        · exact hasData_mono h.2 _)
      refine ⟨a', e, d, ?_, c0, ?_, ?_⟩
      · rw [t]
        simp [Spec.loads]
      · intro hi
        rw [c1 hi, hsplit _ Iff.rfl, hmem]
        simp [hok]
      · rw [tot]
        simp [Spec.loads, Spec.builds, hok]
    · have hok' : ok = true := by simpa using hok
      replace h : a.d = true := by
        rcases hasData_cons h with h | ⟨m, h⟩ | h
        · exact h
        · cases h
        · exact absurd (by rw [hok']) h.1
      rw [if_neg hok, if_neg (by simp [h])]
      by_cases hi : ivf = true
      · rw [if_pos hi, Res.ok_bind]
        obtain ⟨a', e, d, t, c0, c1, tot⟩ :=
          abs_run ivf evs { a with c := some .arr, lost := a.lost + a.c.isSome.toNat } (.inl h)
        refine ⟨a', e, d, ?_, ?_, ?_, ?_⟩
        · rw [t]
          simp [Spec.loads]
        · intro hf
          rw [hi] at hf
          cases hf
        · intro _
          rw [c1 hi, hsplit _ Iff.rfl, hmem]
          simp only [hok', true_and]
          constructor
          · rintro (h1 | h1)
            · exact .inl (.inl h1)
            · exact .inl (.inr h1)
          · rintro ((h1 | h1) | h1)
            · exact .inl h1
            · exact .inr h1
            · exact .inr h1.2
        · rw [tot]
          simp only [Abs.total, Spec.loads, Spec.builds, List.countP_cons, hok', hi, if_true, Option.isSome_some,
            Bool.toNat_true, Bool.false_eq_true, if_false]
          omega
      · rw [if_neg hi, Res.ok_bind]
        obtain ⟨a', e, d, t, c0, c1, tot⟩ := abs_run ivf evs a (.inl h)
        refine ⟨a', e, d, ?_, c0, fun h => absurd h hi, ?_⟩
        · rw [t]
          simp [Spec.loads]
        · rw [tot]
          simp only [if_neg hi, Spec.loads, List.countP_cons, Bool.false_eq_true, if_false]
          omega

/-- An object that does not get its vectors in time: it is built or destroyed without them. -/
theorem abs_run_empty (ivf : Bool) : ∀ (evs : List Ev) (a : Abs), a.d = false → ¬ Spec.hasData false evs →
    evs.foldlM (Abs.step ivf) a = .error .ub ∨
      ∃ a', evs.foldlM (Abs.step ivf) a = .ok a' ∧ a'.d = false ∧ a'.c = a.c
  | [], a, h, _ => .inr ⟨a, rfl, h, rfl⟩
  | .load 0 :: evs, a, h, hn => by
    have hl : a.load ivf 0 = a := by simp [Abs.load]
    simp only [List.foldlM_cons, Abs.step, Res.ok_bind, hl]
    refine abs_run_empty ivf evs a h fun hd => hn ?_
    rcases hd with hd | ⟨pre, n, post, he, hp⟩
    · cases hd
    · exact .inr ⟨.load 0 :: pre, n, post, by rw [he]; rfl, by simpa using hp⟩
  | .load (n + 1) :: evs, a, _, hn => absurd (.inr ⟨[], n, evs, rfl, by simp⟩) hn
  | .build true :: evs, a, h, _ => by
    refine .inl ?_
    simp only [List.foldlM_cons, Abs.step, h]
    rfl
  | .build false :: evs, a, h, hn => by
    simp only [List.foldlM_cons, Abs.step, if_true, Res.ok_bind]
    refine abs_run_empty ivf evs a h fun hd => hn ?_
    rcases hd with hd | ⟨pre, n, post, he, hp⟩
    · cases hd
    · exact .inr ⟨.build false :: pre, n, post, by rw [he]; rfl, by simpa using hp⟩

/-- The lives of all classes but HNSW. -/
theorem life_spec (ivf od : Bool) (evs : List Ev) (h : Heap) (hh : Spec.heapOk h) :
    (Spec.hasData od evs ∧ (ivf = true → Spec.centersFromBuild evs) →
      ∃ h' lost, Idx.life ivf od evs h = .ok h' ∧ h'.live.Perm (lost ++ h.live) ∧ Spec.heapOk h' ∧
        lost.length = (od.toNat + Spec.loads 0 evs - 1) + (od.toNat + Spec.loads 1 evs - 1) +
          (if ivf then Spec.loads 2 evs + Spec.builds evs - 1 else 0)) ∧
    (¬ (Spec.hasData od evs ∧ (ivf = true → Spec.centersFromBuild evs)) → Idx.life ivf od evs h = .error .ub) := by
  have hg := good_of_heapOk hh
  have hrel : Rel ⟨od, od, none, 0⟩ (if od then Idx.ofData h else Idx.empty h).1
      (if od then Idx.ofData h else Idx.empty h).2 h.live := by
    cases od
    · exact rel_empty hg
    · exact rel_ofData hg
  have hrun := rel_run ivf h.live evs _ _ _ hrel
  have hlife : Idx.life ivf od evs h =
      (evs.foldlM (Idx.step ivf) ((if od then Idx.ofData h else Idx.empty h).1,
        (if od then Idx.ofData h else Idx.empty h).2) >>= fun s => s.1.destroy ivf s.2) := rfl
  rw [hlife]
  by_cases hd : Spec.hasData od evs
  · obtain ⟨a', e, d, t, c0, c1, tot⟩ := abs_run ivf evs ⟨od, od, none, 0⟩ hd
    rcases hrun with ⟨hu, _⟩ | ⟨a'', x', h', ea, ex, hr⟩
    · rw [e] at hu
      cases hu
    · rw [e] at ea
      cases ea
      rw [ex, Res.ok_bind]
      have hds := rel_destroy ivf hr c0
      have hcc : (ivf = true → a'.c = some .arr) ↔ (ivf = true → Spec.centersFromBuild evs) := by
        constructor
        · intro h1 hi
          rcases (c1 hi).1 (h1 hi) with h2 | h2
          · exact h2
          · simp at h2
        · intro h1 hi
          exact (c1 hi).2 (.inl (h1 hi))
      constructor
      · rintro ⟨_, hc⟩
        have hc' := hcc.2 hc
        obtain ⟨h2, lost, e2, hl, g2⟩ := hds.1 ⟨d, hc'⟩
        refine ⟨h2, lost, e2, g2.1, ⟨(g2.1.map _).nodup_iff.2 g2.2.1, fun q hq => g2.2.2 q (g2.1.mem_iff.1 hq)⟩, ?_⟩
        rw [hl]
        have hd1 : 1 ≤ od.toNat + Spec.loads 0 evs := by
          rcases hd with hd | ⟨pre, n, post, he, _⟩
          · simp [hd]
          · rw [he]
            simp [Spec.loads]
            omega
        simp only [Abs.total, d, t, Bool.toNat_true] at tot
        have hc1 : ivf = true → 1 ≤ Spec.builds evs := by
          intro hi
          obtain ⟨pre, post, he, _⟩ := hc hi
          rw [he]
          simp [Spec.builds]
          omega
        cases hi : ivf with
        | false =>
          rw [c0 hi, hi] at tot
          simp only [Option.isSome_none, Bool.toNat_false, Bool.false_eq_true, if_false] at tot ⊢
          cases od <;> by_cases hl1 : 0 < Spec.loads 1 evs <;> simp [hl1] at tot hd1 ⊢ <;> omega
        | true =>
          rw [hc' hi, hi] at tot
          have := hc1 hi
          simp only [Option.isSome_some, Option.isSome_none, Bool.toNat_true, Bool.toNat_false, if_true] at tot ⊢
          cases od <;> by_cases hl1 : 0 < Spec.loads 1 evs <;> simp [hl1] at tot hd1 ⊢ <;> omega
      · intro hn
        exact hds.2 fun h1 => hn ⟨hd, hcc.1 h1.2⟩
  · refine ⟨fun h1 => absurd h1.1 hd, fun _ => ?_⟩
    have hod : od = false := by
      cases od
      · rfl
      · exact absurd (.inl rfl) hd
    subst hod
    rcases hrun with ⟨_, hu⟩ | ⟨a'', x', h', ea, ex, hr⟩
    · rw [hu, Res.err_bind]
    · rw [ex, Res.ok_bind]
      rcases abs_run_empty ivf evs ⟨false, false, none, 0⟩ rfl hd with hu | ⟨a', e, d, c⟩
      · rw [ea] at hu
        cases hu
      · rw [ea] at e
        cases e
        exact (rel_destroy ivf hr (fun _ => c)).2 (by simp [d])

/-- **C60 for Vamana, RelativeNG and LSH.** A life is well defined exactly if the object was constructed with data, or
some `load` reached the vectors before anything was built.  Then only blocks of the object are released, each once:
what is live afterwards is what was live before, and one block for every time vectors or tags were replaced. -/
theorem C60_plain_partial (od : Bool) (evs : List Ev) (h : Heap) (hh : Spec.heapOk h) :
    (Spec.hasData od evs →
      ∃ h' lost, Idx.life false od evs h = .ok h' ∧ h'.live.Perm (lost ++ h.live) ∧
        lost.length = (od.toNat + Spec.loads 0 evs - 1) + (od.toNat + Spec.loads 1 evs - 1)) ∧
    (¬ Spec.hasData od evs → Idx.life false od evs h = .error .ub) := by
  obtain ⟨h1, h2⟩ := life_spec false od evs h hh
  constructor
  · intro hd
    obtain ⟨h', lost, e, p, _, l⟩ := h1 ⟨hd, by simp⟩
    exact ⟨h', lost, e, p, by simpa using l⟩
  · intro hn
    exact h2 fun h => hn h.1

example : Spec.heapOk ⟨[(0, .arr), (3, .malloc)], 4⟩ ∧ Spec.hasData true [.build true] ∧
    Spec.hasData false [.load 0, .load 2, .build true] := by
  refine ⟨⟨by decide, by decide⟩, .inl rfl, .inr ⟨[.load 0], 1, [.build true], rfl, by decide⟩⟩

/-- Constructed with data, built, destroyed: nothing is left. -/
example : (Idx.life false true [.build true] ⟨[], 0⟩).map (·.live) = .ok [] := by decide

/-- Loading over data leaves the old vectors and the old tags behind. -/
example : (Idx.life false true [.load 2] ⟨[], 0⟩).map (·.live) = .ok [(3, .arr), (0, .malloc)] := by decide

/-- **C60 for IVF.** A life is well defined exactly if moreover the centres in place at the end come from `build`.  So
a loaded IVF index cannot be destroyed, and neither can one that was never built. -/
theorem C60_ivf_partial (od : Bool) (evs : List Ev) (h : Heap) (hh : Spec.heapOk h) :
    (Spec.hasData od evs ∧ Spec.centersFromBuild evs →
      ∃ h' lost, Idx.life true od evs h = .ok h' ∧ h'.live.Perm (lost ++ h.live) ∧
        lost.length = (od.toNat + Spec.loads 0 evs - 1) + (od.toNat + Spec.loads 1 evs - 1) +
          (Spec.loads 2 evs + Spec.builds evs - 1)) ∧
    (¬ (Spec.hasData od evs ∧ Spec.centersFromBuild evs) → Idx.life true od evs h = .error .ub) := by
  obtain ⟨h1, h2⟩ := life_spec true od evs h hh
  constructor
  · intro hd
    obtain ⟨h', lost, e, p, _, l⟩ := h1 ⟨hd.1, fun _ => hd.2⟩
    exact ⟨h', lost, e, p, by simpa using l⟩
  · intro hn
    exact h2 fun h => hn ⟨h.1, h.2 rfl⟩

example : Spec.hasData true [.build true] ∧ Spec.centersFromBuild [.build true] :=
  ⟨.inl rfl, [], [], rfl, by simp⟩

/-- Building twice leaves the first centres behind. -/
example : (Idx.life true true [.build true, .build true] ⟨[], 0⟩).map (·.live) = .ok [(4, .arr)] := by decide

/-- **C60, refuted.** Destroying an empty object, also one whose `load` did not find its first file; destroying an IVF
index that was loaded, or constructed with data and not built. -/
theorem C60_refuted (ivf : Bool) (h : Heap) (hh : Spec.heapOk h) :
    Idx.life ivf false [] h = .error .ub ∧ Idx.life ivf false [.load 0] h = .error .ub ∧
    (∀ od, Idx.life true od [.load 3] h = .error .ub) ∧ Idx.life true true [] h = .error .ub := by
  refine ⟨(life_spec ivf false _ h hh).2 ?_, (life_spec ivf false _ h hh).2 ?_, fun od =>
    (life_spec true od _ h hh).2 ?_, (life_spec true true _ h hh).2 ?_⟩
  · rintro ⟨h1 | ⟨pre, n, post, he, _⟩, _⟩
    · cases h1
    · simp at he
  · rintro ⟨h1 | ⟨pre, n, post, he, _⟩, _⟩
    · cases h1
    · cases pre with
      | nil => simp at he
      | cons p pre => simp at he
  · rintro ⟨_, h1⟩
    obtain ⟨pre, post, he, _⟩ := h1 rfl
    cases pre with
    | nil => simp at he
    | cons p pre => simp at he
  · rintro ⟨_, h1⟩
    obtain ⟨pre, post, he, _⟩ := h1 rfl
    simp at he

example : Spec.heapOk ⟨[], 0⟩ := ⟨by decide, by decide⟩

/-! ## HNSW -/

/-- A `load` that reached the vectors of level `n`: the levels below were loaded without an exception. -/
def Spec.reached (n : Nat) (ns : Nat → Nat) : Prop := 0 < ns n ∧ ∀ j < n, 1 < ns j

theorem hn_run : ∀ (evs : List HEv) (o : Hn) (h : Heap) (F : List (Nat × Alloc)), o.Wf → o.Full → o.Mono →
    o.Ready → Good h (o.own ++ F) →
    ∃ o' h' lost, evs.foldlM Hn.step (o, h) = .ok (o', h') ∧ o'.Wf ∧ o'.Ready ∧ Good h' (o'.own ++ (lost ++ F))
  | [], o, h, F, hw, _, _, hr, hg => ⟨o, h, [], rfl, hw, hr, hg⟩
  | .build ok :: evs, o, h, F, hw, hf, hm, hr, hg => by
    simp only [List.foldlM_cons, Hn.step]
    cases ok with
    | false =>
      simp only [Hn.build, if_true, Res.ok_bind]
      exact hn_run evs o h F hw hf hm hr hg
    | true =>
      obtain ⟨o1, h1, l1, e1, w1, f1, m1, _, r1, g1⟩ := hn_build hw hr hg
      obtain ⟨o2, h2, l2, e2, w2, r2, g2⟩ := hn_run evs o1 h1 _ w1 f1 m1 r1 g1
      rw [e1, Res.ok_bind]
      exact ⟨o2, h2, l2 ++ l1, e2, w2, r2, by simpa only [List.append_assoc] using g2⟩
  | .load ns :: evs, o, h, F, hw, hf, hm, hr, hg => by
    obtain ⟨o1, h1, b, l1, e1, w1, f1, m1, _, r1, _, _, g1⟩ := hn_load ns o h F hw hf hm hg
    obtain ⟨o2, h2, l2, e2, w2, r2, g2⟩ := hn_run evs o1 h1 _ w1 f1 m1 (r1 hr) g1
    simp only [List.foldlM_cons, Hn.step, e1, Res.ok_bind]
    exact ⟨o2, h2, l2 ++ l1, e2, w2, r2, by simpa only [List.append_assoc] using g2⟩

/-- **C60 for HNSW constructed with data.** A life is well defined exactly if the object has only level 0, or nothing
is loaded before it was built; a `load` before the first build goes through a null pointer. -/
theorem C60_hnsw_data_partial (n : Nat) (evs : List HEv) (h : Heap) (hh : Spec.heapOk h) :
    (n = 0 ∨ (∀ pre ns post, evs = pre ++ HEv.load ns :: post → HEv.build true ∈ pre) →
      ∃ h' lost, Hn.life n true evs h = .ok h' ∧ h'.live.Perm (lost ++ h.live)) ∧
    (¬ (n = 0 ∨ ∀ pre ns post, evs = pre ++ HEv.load ns :: post → HEv.build true ∈ pre) →
      Hn.life n true evs h = .error .ub) := by
  have hg := good_of_heapOk hh
  obtain ⟨w, d, g⟩ := ofData_lev hg
  have fin : ∀ (o : Hn) (k : Heap) (l : List (Nat × Alloc)), o.Wf → o.Ready → Good k (o.own ++ (l ++ h.live)) →
      ∃ h' lost, o.destroy k = .ok h' ∧ h'.live.Perm (lost ++ h.live) := by
    intro o k l ow or og
    obtain ⟨h', e, g'⟩ := (hn_destroy o k _ ow og).1 or
    exact ⟨h', l, e, g'.1⟩
  cases n with
  | zero =>
    refine ⟨fun _ => ?_, fun hn => absurd (.inl rfl) hn⟩
    obtain ⟨o', h', l, e, w', r', g'⟩ := hn_run evs (.bot (Idx.ofData h).1) (Idx.ofData h).2 h.live w trivial trivial
      d g
    have : Hn.life 0 true evs h = o'.destroy h' := by
      simp only [Hn.life, if_true, Hn.ofData, e, Res.ok_bind]
    rw [this]
    exact fin o' h' l w' r' g'
  | succ n =>
    obtain ⟨x, hx⟩ : ∃ x, x = (Idx.ofData h).1 := ⟨_, rfl⟩
    obtain ⟨k, hk⟩ : ∃ k, k = (Idx.ofData h).2 := ⟨_, rfl⟩
    rw [← hx] at w d g
    rw [← hk] at g
    have hlife : Hn.life (n + 1) true evs h =
        (evs.foldlM Hn.step (.nul x n, k) >>= fun s => s.1.destroy s.2) := by
      rw [hx, hk]
      rfl
    rw [hlife]
    clear hlife hx hk
    induction evs with
    | nil =>
      refine ⟨fun _ => fin (.nul x n) k [] w d g, fun hn => absurd (.inr ?_) hn⟩
      intro pre ns post he
      simp at he
    | cons ev evs ih =>
      cases ev with
      | load ns =>
        refine ⟨fun hc => ?_, fun _ => rfl⟩
        rcases hc with hc | hc
        · omega
        · have := hc [] ns evs rfl
          simp at this
      | build ok =>
        cases ok with
        | false =>
          have hstep : (HEv.build false :: evs).foldlM Hn.step (.nul x n, k) =
              evs.foldlM Hn.step (.nul x n, k) := rfl
          rw [hstep]
          have hiff : (n + 1 = 0 ∨ ∀ pre ns post, HEv.build false :: evs = pre ++ HEv.load ns :: post →
              HEv.build true ∈ pre) ↔
              (n + 1 = 0 ∨ ∀ pre ns post, evs = pre ++ HEv.load ns :: post → HEv.build true ∈ pre) := by
            refine or_congr Iff.rfl ⟨fun hc pre ns post he => ?_, fun hc pre ns post he => ?_⟩
            · have := hc (.build false :: pre) ns post (by rw [he]; rfl)
              simpa using this
            · cases pre with
              | nil => simp at he
              | cons p pre =>
                rw [List.cons_append, List.cons.injEq] at he
                exact List.mem_cons_of_mem _ (hc pre ns post he.2)
          rw [hiff]
          exact ih
        | true =>
          refine ⟨fun _ => ?_, fun hn => absurd (.inr ?_) hn⟩
          · obtain ⟨o1, h1, l1, e1, w1, f1, m1, _, r1, g1⟩ := hn_build (o := .nul x n) w d g
            obtain ⟨o2, h2, l2, e2, w2, r2, g2⟩ := hn_run evs o1 h1 _ w1 f1 m1 r1 g1
            have hstep : (HEv.build true :: evs).foldlM Hn.step (.nul x n, k) = .ok (o2, h2) := by
              simp only [List.foldlM_cons, Hn.step, e1, Res.ok_bind, e2]
            rw [hstep, Res.ok_bind]
            exact fin o2 h2 (l2 ++ l1) w2 r2 (by simpa only [List.append_assoc] using g2)
          · intro pre ns post he
            cases pre with
            | nil => simp at he
            | cons p pre =>
              rw [List.cons_append, List.cons.injEq] at he
              rw [← he.1]
              simp

example : ∀ pre ns post, [HEv.build true, .load fun _ => 2] = pre ++ HEv.load ns :: post → HEv.build true ∈ pre := by
  intro pre ns post he
  cases pre with
  | nil => simp at he
  | cons p pre =>
    rw [List.cons_append, List.cons.injEq] at he
    rw [← he.1]
    simp

/-- Two levels, built and destroyed: nothing is left. -/
example : (Hn.life 2 true [.build true] ⟨[], 0⟩).map (·.live) = .ok [] := by decide

/-- **C60 for HNSW constructed empty.** A life is well defined exactly if some `load` reached the vectors of the
outermost level before anything was built. -/
theorem C60_hnsw_empty_partial (n : Nat) (evs : List HEv) (h : Heap) (hh : Spec.heapOk h) :
    ((∃ pre ns post, evs = pre ++ HEv.load ns :: post ∧ HEv.build true ∉ pre ∧ Spec.reached n ns) →
      ∃ h' lost, Hn.life n false evs h = .ok h' ∧ h'.live.Perm (lost ++ h.live)) ∧
    ((¬ ∃ pre ns post, evs = pre ++ HEv.load ns :: post ∧ HEv.build true ∉ pre ∧ Spec.reached n ns) →
      Hn.life n false evs h = .error .ub) := by
  obtain ⟨w, f, m, lv, d, g⟩ := hn_empty n h h.live (good_of_heapOk hh)
  obtain ⟨o, ho⟩ : ∃ o, o = (Hn.empty n h).1 := ⟨_, rfl⟩
  obtain ⟨k, hk⟩ : ∃ k, k = (Hn.empty n h).2 := ⟨_, rfl⟩
  rw [← ho] at w f m lv d g
  rw [← hk] at g
  have hlife : Hn.life n false evs h = (evs.foldlM Hn.step (o, k) >>= fun s => s.1.destroy s.2) := by
    rw [ho, hk]
    rfl
  rw [hlife]
  clear hlife ho hk
  obtain ⟨F, hF⟩ : ∃ F, F = h.live := ⟨_, rfl⟩
  have hlost : ∃ l, F = l ++ h.live := ⟨[], hF⟩
  rw [← hF] at g
  clear hF
  induction evs generalizing o k F with
  | nil =>
    constructor
    · rintro ⟨pre, ns, post, he, _⟩
      simp at he
    · intro _
      exact (hn_destroy o k F w g).2 fun hr => hr.top d
  | cons ev evs ih =>
    obtain ⟨l0, hl0⟩ := hlost
    cases ev with
    | build ok =>
      cases ok with
      | false =>
        have hstep : (HEv.build false :: evs).foldlM Hn.step (o, k) = evs.foldlM Hn.step (o, k) := rfl
        rw [hstep]
        have hiff : (∃ pre ns post, HEv.build false :: evs = pre ++ HEv.load ns :: post ∧ HEv.build true ∉ pre ∧
            Spec.reached n ns) ↔
            ∃ pre ns post, evs = pre ++ HEv.load ns :: post ∧ HEv.build true ∉ pre ∧ Spec.reached n ns := by
          constructor
          · rintro ⟨pre, ns, post, he, hp, hr⟩
            cases pre with
            | nil => simp at he
            | cons p pre =>
              rw [List.cons_append, List.cons.injEq] at he
              exact ⟨pre, ns, post, he.2, fun hm => hp (List.mem_cons_of_mem _ hm), hr⟩
          · rintro ⟨pre, ns, post, he, hp, hr⟩
            exact ⟨.build false :: pre, ns, post, by rw [he]; rfl, by simpa using hp, hr⟩
        rw [hiff]
        exact ih (o := o) (k := k) (F := F) (w := w) (f := f) (m := m) (lv := lv) (d := d) (g := g) (hlost := ⟨l0, hl0⟩)
      | true =>
        constructor
        · rintro ⟨pre, ns, post, he, hp, _⟩
          cases pre with
          | nil => simp at he
          | cons p pre =>
            rw [List.cons_append, List.cons.injEq] at he
            exact absurd (by rw [← he.1]; simp) hp
        · intro _
          simp only [List.foldlM_cons, Hn.step, Hn.build, Bool.true_eq_false, if_false, if_pos d, Res.err_bind]
    | load ns =>
      obtain ⟨o1, k1, b, l1, e1, w1, f1, m1, lv1, r1, _, t1, g1⟩ := hn_load ns o k F w f m g
      have hstep : (HEv.load ns :: evs).foldlM Hn.step (o, k) = evs.foldlM Hn.step (o1, k1) := by
        simp only [List.foldlM_cons, Hn.step, e1, Res.ok_bind]
      rw [hstep]
      rw [lv] at t1 lv1
      by_cases hre : Spec.reached n ns
      · refine ⟨fun _ => ?_, fun hn => absurd ⟨[], ns, evs, rfl, by simp, hre⟩ hn⟩
        have hrdy := m1.ready (t1.2 (.inr hre))
        obtain ⟨o2, h2, l2, e2, w2, r2, g2⟩ := hn_run evs o1 k1 _ w1 f1 m1 hrdy g1
        rw [e2, Res.ok_bind]
        obtain ⟨h', e, g'⟩ := (hn_destroy o2 h2 _ w2 g2).1 r2
        refine ⟨h', l2 ++ (l1 ++ l0), e, ?_⟩
        have := g'.1
        rw [hl0] at this
        simpa only [List.append_assoc] using this
      · have hd1 : o1.top.data = .uninit := by
          by_contra hx
          rcases t1.1 hx with h1 | h1
          · exact h1 d
          · exact hre h1
        have hiff : (∃ pre ns' post, HEv.load ns :: evs = pre ++ HEv.load ns' :: post ∧ HEv.build true ∉ pre ∧
            Spec.reached n ns') ↔
            ∃ pre ns post, evs = pre ++ HEv.load ns :: post ∧ HEv.build true ∉ pre ∧ Spec.reached n ns := by
          constructor
          · rintro ⟨pre, ns', post, he, hp, hr⟩
            cases pre with
            | nil =>
              rw [List.nil_append, List.cons.injEq, HEv.load.injEq] at he
              rw [← he.1] at hr
              exact absurd hr hre
            | cons p pre =>
              rw [List.cons_append, List.cons.injEq] at he
              exact ⟨pre, ns', post, he.2, fun hm => hp (List.mem_cons_of_mem _ hm), hr⟩
          · rintro ⟨pre, ns', post, he, hp, hr⟩
            exact ⟨.load ns :: pre, ns', post, by rw [he]; rfl, by simpa using hp, hr⟩
        rw [hiff]
        exact ih (o := o1) (k := k1) (F := l1 ++ F) (w := w1) (f := f1) (m := m1) (lv := lv1) (d := hd1) (g := g1)
          (hlost := ⟨l1 ++ l0, by rw [hl0, List.append_assoc]⟩)

example : ∃ pre ns post, [HEv.load (fun _ => 2)] = pre ++ HEv.load ns :: post ∧ HEv.build true ∉ pre ∧
    Spec.reached 3 ns :=
  ⟨[], _, [], rfl, by simp, by decide, fun j _ => by simp⟩

/-- Three levels, loaded and destroyed: nothing is left; a level whose files are missing makes the destructor
undefined. -/
example : (Hn.life 2 false [.load fun _ => 2] ⟨[], 0⟩).map (·.live) = .ok [] ∧
    Hn.life 2 false [.load fun l => if l = 2 then 0 else 2] ⟨[], 0⟩ = .error .ub := by
  constructor <;> decide

/-- An object constructed with data, built and destroyed in a heap with another block. -/
example := (C60_plain_partial true [.build true] ⟨[(0, .arr)], 1⟩ ⟨by decide, by decide⟩).1 (.inl rfl)

example := (C60_ivf_partial true [.build true] ⟨[(0, .arr)], 1⟩ ⟨by decide, by decide⟩).1 ⟨.inl rfl, [], [], rfl, by simp⟩

example := C60_refuted true ⟨[(0, .arr)], 1⟩ ⟨by decide, by decide⟩

example := (C60_hnsw_data_partial 0 [.load fun _ => 2] ⟨[(0, .arr)], 1⟩ ⟨by decide, by decide⟩).1 (.inl rfl)

end Grann
