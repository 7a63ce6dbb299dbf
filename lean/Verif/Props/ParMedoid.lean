import Verif.Proofs.ParMedoid
import Verif.Props.LabelMedoids
/-!
# C92: the parallel loop over the labels
-/

namespace Grann

open Par

/-- The iterations of the loop (src/vamana.cpp:165). -/
def labelLoop {V : Type} (c : Ctx V) (draw : Nat → Nat) (labels : List Label) : List (Par LVal Unit) :=
  (List.range labels.length).map (parLabelIter draw c.useUniv c.univ c.data.length)

/-- The objects that are accessed in the critical sections. -/
def medShared : List Loc := [⟨"rand", 0, 0⟩, ⟨"counter", 0, 0⟩, ⟨"medoid_counts", 0, 0⟩, ⟨"filter_to_medoid_id", 0, 0⟩]

/-- The labels and the labels of the points are only read; the value of the counter that is read outside of the critical
section is only printed. -/
def labelDisc (L n : Nat) : Disc LVal where
  acc _ l := (l.arr = "labels" ∧ l.i < L ∧ l.j = 0) ∨ (l.arr = "pts_to_labels" ∧ l.i < n ∧ l.j = 0)
  own _ _ := False
  guarded l := l ∈ medShared
  slack l := l = ⟨"counter", 0, 0⟩
  locks := True

theorem labelDisc_apart (L n : Nat) : (labelDisc L n).Apart := by
  refine ⟨fun _ _ h => h.elim, fun _ _ _ _ h => h.elim, ?_, ?_⟩
  · rintro i ⟨arr, x, y⟩ (⟨rfl, -, -⟩ | ⟨rfl, -, -⟩) h <;> simp [labelDisc, medShared] at h
  · rintro l rfl
    simp [labelDisc, medShared]

theorem Par.Within.obeys_locked {α : Type} {L n i : Nat} {p : Par LVal α} (h : p.Within fun l => l ∈ medShared) :
    p.Obeys (labelDisc L n) i true fun _ b => b = true := by
  induction p with
  | ret a => rfl
  | load l k ih => exact ⟨.inl (.inr ⟨rfl, h.1⟩), fun v _ => ih v (h.2 v)⟩
  | store l v k ih => exact ⟨.inr ⟨rfl, h.1⟩, trivial, ih h.2⟩
  | enter k ih => exact h.elim
  | leave k ih => exact h.elim

/-- The iteration without its end. -/
def labelPre (draw : Nat → Nat) (useUniv : Bool) (univ : Label) (n lbl : Nat) : Par LVal Unit := do
  let x ← rdAt ⟨"labels", lbl, 0⟩
  let pts ← parFiltered useUniv univ x.toLab n
  if pts.length ≠ 0 then critical (parChoose draw x.toLab pts) else .ret ()

theorem label_pre (draw : Nat → Nat) (useUniv : Bool) (univ : Label) (n lbl : Nat) :
    parLabelIter draw useUniv univ n lbl = (labelPre draw useUniv univ n lbl).bind fun _ => parCount := by
  show Par.load _ _ = Par.load _ _
  congr 1
  funext x
  show Par.bind (parFiltered useUniv univ x.toLab n) _ = Par.bind (Par.bind (parFiltered useUniv univ x.toLab n) _) _
  rw [Par.bind_assoc]
  congr 1
  funext pts
  show (if pts.length ≠ 0 then Par.bind _ _ else Par.bind _ _) = Par.bind (if pts.length ≠ 0 then _ else _) _
  split <;> rfl

theorem labelPre_obeys (draw : Nat → Nat) (useUniv : Bool) (univ : Label) {L n lbl : Nat} (h : lbl < L) :
    (labelPre draw useUniv univ n lbl).Obeys (labelDisc L n) lbl false fun _ b => b = false := by
  refine ⟨.inl (.inl (.inl ⟨rfl, h, rfl⟩)), fun x _ => ?_⟩
  show Par.Obeys _ _ (Par.bind (parFiltered useUniv univ x.toLab n) _) _ _
  refine Par.obeys_bind _ _ _ _ _ _ (Par.obeys_mono _ _ _ _ (Par.obeys_loop _ _ _ (fun _ _ => True) _ _ _ trivial ?_) ?_)
  · intro j s _ hj _
    exact ⟨.inl (.inl (.inr ⟨rfl, by show j < n; omega, rfl⟩)), fun _ _ => ⟨rfl, trivial⟩⟩
  · rintro pts b ⟨rfl, -⟩
    show Par.Obeys _ _ (if pts.length ≠ 0 then _ else _) _ _
    split
    · refine ⟨trivial, rfl, ?_⟩
      refine Par.obeys_bind _ _ _ _ _ _ (Par.obeys_mono _ _ _ _ (parChoose_within draw x.toLab pts).obeys_locked ?_)
      rintro _ b rfl
      exact ⟨rfl, rfl⟩
    · rfl

theorem parCount_obeys {L n i : Nat} : parCount.Obeys (labelDisc L n) i false EndsFree :=
  ⟨trivial, rfl, .inl (.inr ⟨rfl, by simp [labelDisc, medShared]⟩), fun _ _ => ⟨.inr ⟨rfl, by simp [labelDisc, medShared]⟩, trivial, rfl,
    .inr ⟨rfl, fun _ _ => rfl⟩, fun _ _ => rfl⟩⟩

section
variable {V : Type} {c : Ctx V} {draw : Nat → Nat} {labels : List Label} {s0 : MedSt} {r k : Nat} {m : Mem LVal}

theorem labelLoop_length : (labelLoop c draw labels).length = labels.length := by simp [labelLoop]

theorem labelLoop_get {t : Nat} (h : t < labels.length) :
    (labelLoop c draw labels)[t]? = some (parLabelIter draw c.useUniv c.univ c.data.length t) := by
  simp [labelLoop, List.getElem?_map, List.getElem?_range h]

theorem label_good (hn : c.data.length ≤ c.labels.length) (hm : LabelMem labels c.labels r k s0 m) :
    (labelDisc labels.length c.data.length).MemOK (labelLoop c draw labels).length m ∧
    ∀ (i : Nat) (p : Par LVal Unit), (labelLoop c draw labels)[i]? = some p →
      p.Obeys (labelDisc labels.length c.data.length) i false EndsFree := by
  constructor
  · rintro ⟨arr, x, y⟩ (⟨i, -, ⟨h1, h2, h3⟩ | ⟨h1, h2, h3⟩⟩ | h)
    · cases h1; cases h3
      exact ⟨_, hm.lab x _ (List.getElem?_eq_getElem h2), trivial⟩
    · cases h1; cases h3
      exact ⟨_, hm.pts x _ (List.getElem?_eq_getElem (Nat.lt_of_lt_of_le h2 hn)), trivial⟩
    · simp only [labelDisc, medShared, List.mem_cons, List.not_mem_nil, or_false] at h
      rcases h with h | h | h | h <;> cases h
      · exact ⟨_, hm.rand, trivial⟩
      · exact ⟨_, hm.cnt, trivial⟩
      · exact ⟨_, hm.counts, trivial⟩
      · exact ⟨_, hm.meds, trivial⟩
  · intro i p hp
    have hi : i < labels.length := by
      rcases Nat.lt_or_ge i labels.length with h | h
      · exact h
      · rw [List.getElem?_eq_none (by rw [labelLoop_length]; exact h)] at hp; cases hp
    rw [labelLoop_get hi] at hp
    cases hp
    rw [label_pre]
    refine Par.obeys_bind _ _ _ _ _ _ (Par.obeys_mono _ _ _ _ (labelPre_obeys draw _ _ hi) ?_)
    rintro _ b rfl
    exact parCount_obeys

/-- Whatever the scheduler does: nothing undefined is accessed, the loop can be completed, and two iterations are about to access
the same object, one of them to write, only if it is the progress counter (src/vamana.cpp:157-216). -/
theorem C92_safe_partial (hn : c.data.length ≤ c.labels.length) (hm : LabelMem labels c.labels r k s0 m) (sched : List Nat) :
    ∃ cf, Cfg.run sched (Cfg.start m (labelLoop c draw labels)) = .ok cf ∧
      (∃ sched' cf', Cfg.run sched' cf = .ok cf' ∧ cf'.Done) ∧
      ∀ (i j : Nat) (p q : Par LVal Unit) (l : Loc) (x y : Bool), i ≠ j → cf.ts[i]? = some p → cf.ts[j]? = some q →
        p.next = some (l, x) → q.next = some (l, y) → (x = true ∨ y = true) → l = ⟨"counter", 0, 0⟩ := by
  have hA := labelDisc_apart labels.length c.data.length
  obtain ⟨h1, h2⟩ := label_good (draw := draw) hn hm
  obtain ⟨cf, hc, hg⟩ := Disc.good_run hA sched (Disc.good_start h1 h2)
  obtain ⟨s', c', h, -, hd⟩ := Disc.good_ends hA hg
  exact ⟨cf, hc, ⟨s', c', h, hd⟩, fun i j p q l x y hij hp hq hx hy hw => Disc.good_race hA hg hij hp hq hx hy hw⟩

/-- With two labels or more there is a data race on the counter: it is read for the message after the critical section that
increments it (src/vamana.cpp:210-214).  With fewer there is none. -/
theorem C92_race (hn : c.data.length ≤ c.labels.length) (hm : LabelMem labels c.labels r k s0 m) :
    (∃ sched cf, Cfg.run sched (Cfg.start m (labelLoop c draw labels)) = .ok cf ∧ cf.Racy) ↔ 2 ≤ labels.length := by
  have hA := labelDisc_apart labels.length c.data.length
  obtain ⟨h1, h2⟩ := label_good (draw := draw) hn hm
  have hg0 := Disc.good_start h1 h2
  constructor
  · rintro ⟨sched, cf, hr, i, j, p, q, l, x, y, hij, hp, hq, -⟩
    obtain ⟨cf', hr', hg⟩ := Disc.good_run hA sched hg0
    rw [hr] at hr'
    cases hr'
    have hi := Disc.lt_of_get hp
    have hj := Disc.lt_of_get hq
    rw [hg.len, labelLoop_length] at hi hj
    omega
  · intro h
    have hL := labelLoop_length (c := c) (draw := draw) (labels := labels)
    have g0 := labelLoop_get (c := c) (draw := draw) (labels := labels) (t := 0) (by omega)
    have g1 := labelLoop_get (c := c) (draw := draw) (labels := labels) (t := 1) (by omega)
    -- the first iteration up to the message
    let p0 : Par LVal Unit := (labelPre draw c.useUniv c.univ c.data.length 0).bind fun _ => critical (do
      let k ← rdAt ⟨"counter", 0, 0⟩
      wrAt ⟨"counter", 0, 0⟩ (.num (u32 (k.toNum + 1))) : Par LVal Unit)
    have e0 : parLabelIter draw c.useUniv c.univ c.data.length 0 = p0.bind fun _ => tellProg := by
      rw [label_pre, Par.bind_assoc]; rfl
    have o0 : p0.Obeys (labelDisc labels.length c.data.length) 0 false fun _ b => b = false := by
      refine Par.obeys_bind _ _ _ _ _ _ (Par.obeys_mono _ _ _ _ (labelPre_obeys draw _ _ (by omega)) ?_)
      rintro _ b rfl
      exact ⟨trivial, rfl, .inl (.inr ⟨rfl, by simp [labelDisc, medShared]⟩), fun _ _ =>
        ⟨.inr ⟨rfl, by simp [labelDisc, medShared]⟩, trivial, rfl, rfl⟩⟩
    obtain ⟨s1, c1, u1, b1, r1, G1, H1, T1, rfl⟩ := Disc.drive_bind hA p0 (fun _ => tellProg) hg0 (i := 0)
      (by rw [← e0]; exact g0) (.inl rfl) (by simpa [Cfg.start] using o0)
    -- the second one up to the increment
    let p1 : Par LVal LVal := (labelPre draw c.useUniv c.univ c.data.length 1).bind fun _ => .enter (rdAt ⟨"counter", 0, 0⟩)
    have e1 : parLabelIter draw c.useUniv c.univ c.data.length 1 =
        p1.bind fun k => .store ⟨"counter", 0, 0⟩ (.num (u32 (k.toNum + 1))) (.leave tellProg) := by
      rw [label_pre, Par.bind_assoc]; rfl
    have o1 : p1.Obeys (labelDisc labels.length c.data.length) 1 false fun _ b => b = true := by
      refine Par.obeys_bind _ _ _ _ _ _ (Par.obeys_mono _ _ _ _ (labelPre_obeys draw _ _ (by omega)) ?_)
      rintro _ b rfl
      exact ⟨trivial, rfl, .inl (.inr ⟨rfl, by simp [labelDisc, medShared]⟩), fun _ _ => rfl⟩
    have T1' : c1.ts = (labelLoop c draw labels).set 0 tellProg := T1
    have H1' : c1.holder = none := H1
    obtain ⟨s2, c2, u2, b2, r2, G2, H2, T2, rfl⟩ := Disc.drive_bind hA p1
      (fun k => .store ⟨"counter", 0, 0⟩ (.num (u32 (k.toNum + 1))) (.leave tellProg)) G1 (i := 1)
      (by rw [T1', List.getElem?_set_ne (by decide), g1, e1]) (.inl H1') (by simpa [H1'] using o1)
    refine ⟨s1 ++ s2, c2, by rw [Cfg.run_append, r1]; exact r2, 0, 1, tellProg,
      .store ⟨"counter", 0, 0⟩ (.num (u32 (u2.toNum + 1))) (.leave tellProg), ⟨"counter", 0, 0⟩, false, true, by decide, ?_, ?_, rfl, ?_,
      .inr rfl⟩
    · rw [T2, List.getElem?_set_ne (by decide), T1']
      exact List.getElem?_set_self (by rw [hL]; omega)
    · rw [T2]
      exact List.getElem?_set_self (by rw [T1', List.length_set, hL]; omega)
    · rfl

/-- Every completed execution leaves in `_filter_to_medoid_id` and `_medoid_counts` what the iterations leave that are run one after
the other in some order (`labelMedoids`), and the counter has counted the labels. -/
theorem C92_order (hn : c.data.length ≤ c.labels.length) (hm : LabelMem labels c.labels 0 0 s0 m) (sched : List Nat) {cf : Cfg LVal}
    (hr : Cfg.run sched (Cfg.start m (labelLoop c draw labels)) = .ok cf) (hd : cf.Done) :
    ∃ order s r, order.Perm labels ∧ labelMedoids c order draw s0 = .ok s ∧
      LabelMem labels c.labels r (u32 labels.length) s cf.mem := by
  have hA := labelDisc_apart labels.length c.data.length
  obtain ⟨h1, h2⟩ := label_good (draw := draw) hn hm
  obtain ⟨s, hs⟩ := Disc.atomic hA h1 h2 sched hr hd
  have hf : ∀ x, ∃ pts, filteredPoints c x c.data.length 0 = .ok pts := fun x => filteredPoints_ok c x _ 0 (by omega)
  have hx : ∀ {t}, t < labels.length → labels[t]? = some (labels.getD t []) := fun h => by
    rw [List.getD_eq_getElem?_getD, List.getElem?_eq_getElem h]; rfl
  let st : Nat → Nat := fun t => match filteredPoints c (labels.getD t []) c.data.length 0 with
    | .ok [] => 1
    | _ => 0
  have hlt : ∀ {t x}, labels[t]? = some x → t < labels.length := fun {t x} h => by
    rcases Nat.lt_or_ge t labels.length with h' | h'
    · exact h'
    · rw [List.getElem?_eq_none h'] at h; cases h
  have hst : ∀ {t x pts}, labels[t]? = some x → filteredPoints c x c.data.length 0 = .ok pts → st t = if pts.length = 0 then 1 else 0 := by
    intro t x pts h hp
    have e : labels.getD t [] = x := by rw [List.getD_eq_getElem?_getD, h]; rfl
    simp only [st, e, hp]
    cases pts <;> simp
  have h0 : LabelInv c labels draw s0 [] [] st (m, labelLoop c draw labels) := by
    refine ⟨labelLoop_length, ?_, by simp, ?_, by simp, by simp, ?_, s0, rfl, by simpa [u32] using hm⟩
    · intro t x pts h hp
      rw [hst h hp]
      exact ⟨_, labelLoop_get (hlt h), stage_start c labels draw h hp⟩
    · intro t x pts h hp
      rw [hst h hp]
      by_cases hz : pts.length = 0 <;> simp [hz]
    · intro t
      refine ⟨fun h => by simp at h, fun h => ?_⟩
      obtain ⟨pts, hp⟩ := hf (labels.getD t [])
      have := hst (hx h.1) hp
      split at this <;> omega
  obtain ⟨done, cnt, st', hI⟩ := label_run hn s h0 hs
  have h3 : ∀ t, t < labels.length → 3 ≤ st' t := by
    intro t ht
    obtain ⟨pts, hp⟩ := hf (labels.getD t [])
    obtain ⟨p, hg, hst⟩ := hI.stage t _ pts (hx ht) hp
    have hr := hd p (List.mem_of_getElem? hg)
    subst hr
    match hj : st' t, hst with
    | 0, hst => cases hst.2
    | 1, hst => cases (show Par.ret () = parCount from hst)
    | 2, hst => cases (show Par.ret () = tellProg from hst)
    | j + 3, _ => omega
  have hcnt : cnt.length = labels.length := by
    have : cnt.Perm (List.range labels.length) := (List.perm_ext_iff_of_nodup hI.cnodup List.nodup_range).mpr fun t => by
      rw [hI.cmem t, List.mem_range]
      exact ⟨fun h => h.1, fun h => ⟨h, by have := h3 t h; omega⟩⟩
    simpa using this.length_eq
  obtain ⟨s', e1, e2⟩ := hI.meds
  rw [hcnt] at e2
  let rest := (List.range labels.length).filter fun t => decide (t ∉ done)
  have hperm : (done ++ rest).Perm (List.range labels.length) := by
    refine (List.perm_ext_iff_of_nodup ?_ List.nodup_range).mpr fun t => ?_
    · refine List.nodup_append.mpr ⟨hI.nodup, List.nodup_range.filter _, ?_⟩
      rintro u hu v hv rfl
      simp only [rest, List.mem_filter, decide_eq_true_eq] at hv
      exact hv.2 hu
    · simp only [rest, List.mem_append, List.mem_filter, List.mem_range, decide_eq_true_eq]
      constructor
      · rintro (h | h)
        · exact hI.bound t h
        · exact h.1
      · intro h
        by_cases ht : t ∈ done
        · exact .inl ht
        · exact .inr ⟨h, ht⟩
  refine ⟨(done ++ rest).map fun t => labels.getD t [], s', _, ?_, ?_, e2⟩
  · refine (hperm.map _).trans (List.Perm.of_eq ?_)
    refine List.ext_getElem (by simp) fun i hi hi' => ?_
    simp [List.getElem?_eq_getElem hi']
  · rw [List.map_append, labelMedoids_append, e1]
    show labelMedoids c (rest.map fun t => labels.getD t []) _ s' = _
    refine labelMedoids_empty c _ _ _ ?_
    intro x hxm
    obtain ⟨t, ht, rfl⟩ := List.mem_map.mp hxm
    simp only [rest, List.mem_filter, List.mem_range, decide_eq_true_eq] at ht
    obtain ⟨pts, hp⟩ := hf (labels.getD t [])
    have := hI.mem t _ pts (hx ht.1) hp
    have h3' := h3 t ht.1
    have : pts.length = 0 := by
      by_contra hne
      exact ht.2 (this.mpr ⟨hne, by omega⟩)
    rw [hp, List.eq_nil_of_length_eq_zero this]

/-- C28 for every schedule: the threads leave one entry point for each label, a point that carries it; the counts are the numbers of
labels that the points serve. -/
theorem C92_entry_points (hlab : c.labels.length = c.data.length) (hnd : labels.Nodup) (hlen : labels.length < 4294967296)
    (hall : ∀ x, x ∈ labels ↔ ∃ (i : Nat) (ls : List Label), c.labels[i]? = some ls ∧ x ∈ ls)
    (hm : LabelMem labels c.labels 0 0 ⟨[], []⟩ m) (sched : List Nat) {cf : Cfg LVal}
    (hr : Cfg.run sched (Cfg.start m (labelLoop c draw labels)) = .ok cf) (hd : cf.Done) :
    ∃ meds counts, cf.mem ⟨"filter_to_medoid_id", 0, 0⟩ = some (.meds meds) ∧ cf.mem ⟨"medoid_counts", 0, 0⟩ = some (.counts counts) ∧
      cf.mem ⟨"counter", 0, 0⟩ = some (.num labels.length) ∧
      (meds.map Prod.fst).Nodup ∧ (∀ x, x ∈ meds.map Prod.fst ↔ x ∈ labels) ∧
      (∀ x p, (x, p) ∈ meds → p < c.data.length ∧ Carries c x p) ∧
      (∀ p, (counts.lookup p).getD 0 = (meds.filter (fun e => e.2 == p)).length) ∧
      (counts.map Prod.snd).sum = labels.length := by
  obtain ⟨order, s, r, hp, he, hM⟩ := C92_order (by omega) hm sched hr hd
  obtain ⟨s', he', h1, h2, h3, h4, h5⟩ := C28_label_entry_points c hlab order (hp.nodup_iff.mpr hnd) (by rw [hp.length_eq]; exact hlen)
    (fun x => by rw [hp.mem_iff]; exact hall x) draw
  rw [he] at he'
  cases he'
  refine ⟨_, _, hM.meds, hM.counts, ?_, h1, fun x => by rw [h2, hp.mem_iff], h3, h4, by rw [h5, hp.length_eq]⟩
  rw [hM.cnt, u32, Nat.mod_eq_of_lt hlen]

end

/-! ## Example: three labels, three points -/

/-- The shared objects before the loop. -/
def labelStart (labels : List Label) (ptl : List (List Label)) : Mem LVal := fun l =>
  if l = ⟨"rand", 0, 0⟩ ∨ l = ⟨"counter", 0, 0⟩ then some (.num 0)
  else if l = ⟨"filter_to_medoid_id", 0, 0⟩ then some (.meds [])
  else if l = ⟨"medoid_counts", 0, 0⟩ then some (.counts [])
  else constMem labels ptl l

theorem labelStart_mem (labels : List Label) (ptl : List (List Label)) : LabelMem labels ptl 0 0 ⟨[], []⟩ (labelStart labels ptl) := by
  refine ⟨fun i x h => ?_, fun i x h => ?_, rfl, rfl, rfl, rfl⟩ <;> simp [labelStart, constMem, h]

theorem exLab_mem : LabelMem [[97], [98], [48]] exLabCtx.labels 0 0 ⟨[], []⟩ (labelStart [[97], [98], [48]] exLabCtx.labels) :=
  labelStart_mem _ _

example (sched : List Nat) := C92_safe_partial (c := exLabCtx) (draw := fun k => k * k) (by decide) exLab_mem sched

example : ∃ sched cf, Cfg.run sched (Cfg.start (labelStart [[97], [98], [48]] exLabCtx.labels)
    (labelLoop exLabCtx (fun k => k * k) [[97], [98], [48]])) = .ok cf ∧ cf.Racy :=
  (C92_race (by decide) exLab_mem).mpr (by decide)

/-- The iterations one after the other, the last one first. -/
def exLabSched : List Nat := List.replicate 200 2 ++ List.replicate 200 1 ++ List.replicate 200 0

/-- Has the iteration ended? -/
def endedB : Par LVal Unit → Bool
  | .ret _ => true
  | _ => false

/-- The loop has ended, and the labels have taken other points than in the order of the loop (`Props/LabelMedoids.lean`). -/
def exLabEnd : Res (Cfg LVal) → Bool
  | .ok cf => cf.ts.all endedB && cf.mem ⟨"filter_to_medoid_id", 0, 0⟩ == some (.meds [([48], 2), ([98], 1), ([97], 0)])
  | .error _ => false

theorem exLab_ends : exLabEnd (Cfg.run exLabSched (Cfg.start (labelStart [[97], [98], [48]] exLabCtx.labels)
    (labelLoop exLabCtx (fun k => k * k) [[97], [98], [48]]))) = true := by decide +kernel

theorem exLab_run : ∃ cf, Cfg.run exLabSched (Cfg.start (labelStart [[97], [98], [48]] exLabCtx.labels)
    (labelLoop exLabCtx (fun k => k * k) [[97], [98], [48]])) = .ok cf ∧ cf.Done ∧
    cf.mem ⟨"filter_to_medoid_id", 0, 0⟩ = some (.meds [([48], 2), ([98], 1), ([97], 0)]) := by
  have H := exLab_ends
  generalize Cfg.run exLabSched _ = x at H
  match x with
  | .error _ => cases H
  | .ok cf =>
    simp only [exLabEnd, Bool.and_eq_true, List.all_eq_true, beq_iff_eq] at H
    refine ⟨cf, rfl, fun p hp => ?_, H.2⟩
    have := H.1 p hp
    cases p <;> first | rfl | cases this

example := C92_order (by decide) exLab_mem exLabSched exLab_run.choose_spec.1 exLab_run.choose_spec.2.1

example := C92_entry_points rfl (by decide) (by decide) exLabCtx_all exLab_mem exLabSched exLab_run.choose_spec.1
  exLab_run.choose_spec.2.1

end Grann
