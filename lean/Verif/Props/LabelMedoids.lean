import Verif.Model.LabelMedoids
import Mathlib.Data.List.Nodup
/-!
# C28 — every label gets a matching entry point
-/

namespace Grann

/-- Point `i` carries the label `x` or, if it is in use, the universal label. -/
def Carries {V : Type} (c : Ctx V) (x : Label) (i : Nat) : Prop :=
  ∃ ls, c.labels[i]? = some ls ∧ (x ∈ ls ∨ (c.useUniv = true ∧ c.univ ∈ ls))

theorem filteredPoints_spec {V : Type} (c : Ctx V) (x : Label) : ∀ (todo i : Nat), i + todo ≤ c.labels.length →
    ∃ pts, filteredPoints c x todo i = .ok pts ∧ ∀ j, j ∈ pts ↔ i ≤ j ∧ j < i + todo ∧ Carries c x j := by
  intro todo
  induction todo with
  | zero => intro i _; exact ⟨[], rfl, by intro j; simp; omega⟩
  | succ todo ih =>
    intro i h
    obtain ⟨pts, e, hp⟩ := ih (i + 1) (by omega)
    have hi : i < c.labels.length := by omega
    refine ⟨_, by unfold filteredPoints; rw [rd_ok hi, Res.ok_bind, e, Res.ok_bind], ?_⟩
    intro j
    have hc : Carries c x i ↔
        (c.labels[i].contains x || (c.useUniv && c.labels[i].contains c.univ)) = true := by
      unfold Carries
      rw [List.getElem?_eq_getElem hi]
      simp
    by_cases hb : (c.labels[i].contains x || (c.useUniv && c.labels[i].contains c.univ)) = true
    · rw [if_pos hb, List.mem_cons, hp]
      constructor
      · rintro (rfl | ⟨h1, h2, h3⟩)
        · exact ⟨by omega, by omega, hc.2 hb⟩
        · exact ⟨by omega, by omega, h3⟩
      · rintro ⟨h1, h2, h3⟩
        by_cases hj : j = i
        · exact .inl hj
        · exact .inr ⟨by omega, by omega, h3⟩
    · rw [if_neg hb, hp]
      constructor
      · rintro ⟨h1, h2, h3⟩; exact ⟨by omega, by omega, h3⟩
      · rintro ⟨h1, h2, h3⟩
        refine ⟨?_, by omega, h3⟩
        have : j ≠ i := by rintro rfl; exact hb (hc.1 h3)
        omega

/-- The draws: the result is a drawn candidate (if any draw follows), none of the candidates has been used
less often, and the counters are unchanged except for new ones at 0. -/
theorem drawLoop_spec (pts : List Nat) (hpts : pts ≠ []) : ∀ (draws : List Nat) (cnd best bestCnt : Nat)
    (counts : List (Nat × Nat)), (counts.map Prod.fst).Nodup → (cnd ≠ 0 → (counts.lookup best).getD 0 = bestCnt) →
    ∃ best' counts', drawLoop pts draws cnd best bestCnt counts = .ok (best', counts') ∧
      (counts'.map Prod.fst).Nodup ∧
      (∀ k, (counts'.lookup k).getD 0 = (counts.lookup k).getD 0) ∧
      (counts'.map Prod.snd).sum = (counts.map Prod.snd).sum ∧
      ((cnd ≠ 0 ∧ best' = best) ∨ (draws = [] ∧ best' = best) ∨ ∃ r ∈ draws, pts[r % pts.length]? = some best') ∧
      (∀ r ∈ draws, ∀ p, pts[r % pts.length]? = some p →
        (counts.lookup best').getD 0 ≤ (counts.lookup p).getD 0) ∧
      (cnd ≠ 0 → (counts.lookup best').getD 0 ≤ (counts.lookup best).getD 0) := by
  intro draws
  induction draws with
  | nil =>
    intro cnd best bestCnt counts hnd _
    exact ⟨best, counts, rfl, hnd, fun _ => rfl, rfl, .inr (.inl ⟨rfl, rfl⟩), by simp, fun _ => Nat.le_refl _⟩
  | cons r draws ih =>
    intro cnd best bestCnt counts hnd hbest
    have hlen : 0 < pts.length := List.length_pos_iff.2 hpts
    have hr : r % pts.length < pts.length := Nat.mod_lt _ hlen
    obtain ⟨cur, hcur⟩ : ∃ cur, pts[r % pts.length]? = some cur := ⟨_, List.getElem?_eq_getElem hr⟩
    have hrd : rd pts (r % pts.length) = .ok cur := rd_eq_ok_iff.2 hcur
    -- the counters after the look-up
    obtain ⟨cnt, counts1, hm, hcnt, hnd1, hl1, hs1⟩ : ∃ cnt counts1,
        useCount counts cur = (cnt, counts1) ∧ (counts.lookup cur).getD 0 = cnt ∧
        (counts1.map Prod.fst).Nodup ∧ (∀ k, (counts1.lookup k).getD 0 = (counts.lookup k).getD 0) ∧
        (counts1.map Prod.snd).sum = (counts.map Prod.snd).sum := by
      unfold useCount
      cases h : counts.lookup cur with
      | none =>
        refine ⟨0, aset counts cur 0, rfl, rfl, keys_aset_nodup _ _ _ hnd, ?_, ?_⟩
        · intro k
          rw [lookup_aset]
          split
          · rename_i hk; rw [hk, h]; rfl
          · rfl
        · have := sum_aset counts cur 0
          rw [h] at this
          simpa using this
      | some k => exact ⟨k, counts, rfl, rfl, hnd, fun _ => rfl, rfl⟩
    have hstep : drawLoop pts (r :: draws) cnd best bestCnt counts =
        if cnt < bestCnt ∨ cnd = 0 then drawLoop pts draws (cnd + 1) cur cnt counts1
        else drawLoop pts draws (cnd + 1) best bestCnt counts1 := by
      rw [drawLoop, hrd, Res.ok_bind, hm]
    by_cases hif : cnt < bestCnt ∨ cnd = 0
    · rw [if_pos hif] at hstep
      obtain ⟨b, cs, e, h1, h2, h3, h4, h5, h6⟩ := ih (cnd + 1) cur cnt counts1 hnd1
        (fun _ => by rw [hl1]; exact hcnt)
      have h6' := h6 (by omega)
      simp only [hl1] at h2 h5 h6'
      refine ⟨b, cs, by rw [hstep]; exact e, h1, h2, by rw [h3, hs1], ?_, ?_, ?_⟩
      · refine .inr (.inr ?_)
        rcases h4 with ⟨_, rfl⟩ | ⟨_, rfl⟩ | ⟨r', hr', hp⟩
        · exact ⟨r, by simp, hcur⟩
        · exact ⟨r, by simp, hcur⟩
        · exact ⟨r', by simp [hr'], hp⟩
      · intro r' hr' p hp
        rcases List.mem_cons.1 hr' with rfl | hr'
        · rw [hcur] at hp; cases hp; exact h6'
        · exact h5 r' hr' p hp
      · intro hc
        have hb := hbest hc
        rcases hif with hif | hif
        · omega
        · exact absurd hif hc
    · rw [if_neg hif] at hstep
      have hc : cnd ≠ 0 := fun h => hif (.inr h)
      have hb := hbest hc
      obtain ⟨b, cs, e, h1, h2, h3, h4, h5, h6⟩ := ih (cnd + 1) best bestCnt counts1 hnd1
        (fun _ => by rw [hl1]; exact hb)
      have h6' := h6 (by omega)
      simp only [hl1] at h2 h5 h6'
      refine ⟨b, cs, by rw [hstep]; exact e, h1, h2, by rw [h3, hs1], ?_, ?_, fun _ => h6'⟩
      · rcases h4 with ⟨_, rfl⟩ | ⟨_, rfl⟩ | ⟨r', hr', hp⟩
        · exact .inl ⟨hc, rfl⟩
        · exact .inl ⟨hc, rfl⟩
        · exact .inr (.inr ⟨r', by simp [hr'], hp⟩)
      · intro r' hr' p hp
        rcases List.mem_cons.1 hr' with rfl | hr'
        · rw [hcur] at hp; cases hp
          have : ¬ cnt < bestCnt := fun h => hif (.inl h)
          omega
        · exact h5 r' hr' p hp

/-- What holds after the labels `done` have been processed. -/
structure MedInv {V : Type} (c : Ctx V) (done : List Label) (s : MedSt) : Prop where
  keys : ∀ x, (∃ m, s.medoids.lookup x = some m) ↔ x ∈ done
  nodup : (s.medoids.map Prod.fst).Nodup
  carries : ∀ x m, s.medoids.lookup x = some m → m < c.data.length ∧ Carries c x m
  cnodup : (s.counts.map Prod.fst).Nodup
  used : ∀ m, (s.counts.lookup m).getD 0 = (done.filter (fun x => s.medoids.lookup x == some m)).length
  total : (s.counts.map Prod.snd).sum = done.length

theorem labelStep_spec {V : Type} (c : Ctx V) (hlab : c.labels.length = c.data.length) (draw : Nat → Nat)
    (x : Label) (hx : ∃ i, i < c.data.length ∧ Carries c x i) (done : List Label) (hnew : x ∉ done)
    (hnd : done.length < 4294967295) (s : MedSt) (hs : MedInv c done s) :
    ∃ s', labelStep c draw x s = .ok s' ∧ MedInv c (done ++ [x]) s' ∧
      ∃ m, s'.medoids = aset s.medoids x m := by
  obtain ⟨pts, e, hp⟩ := filteredPoints_spec c x c.data.length 0 (by omega)
  obtain ⟨i, hi, hci⟩ := hx
  have hne : pts ≠ [] := by
    intro h
    have := (hp i).2 ⟨by omega, by omega, hci⟩
    rw [h] at this; simp at this
  obtain ⟨b, cs, ed, h1, h2, h3, h4, _, _⟩ := drawLoop_spec pts hne ((List.range 25).map draw) 0 0 4294967295
    s.counts hs.cnodup (fun h => absurd rfl h)
  have hb : b ∈ pts := by
    rcases h4 with ⟨h, _⟩ | ⟨h, _⟩ | ⟨r, _, h⟩
    · exact absurd rfl h
    · simp at h
    · exact List.mem_of_getElem? h
  obtain ⟨_, hbn, hbc⟩ := (hp b).1 hb
  have hold : s.medoids.lookup x = none := by
    cases h : s.medoids.lookup x with
    | none => rfl
    | some m => exact absurd ((hs.keys x).1 ⟨m, h⟩) hnew
  have hle : (s.counts.lookup b).getD 0 ≤ done.length := by
    rw [hs.used]; exact List.length_filter_le _ _
  have hmod : u32 ((cs.lookup b).getD 0 + 1) = (s.counts.lookup b).getD 0 + 1 := by
    rw [h2]; exact Nat.mod_eq_of_lt (by omega)
  refine ⟨⟨aset s.medoids x b, aset cs b (u32 ((cs.lookup b).getD 0 + 1))⟩, ?_, ?_, b, rfl⟩
  · unfold labelStep
    rw [e, Res.ok_bind, if_pos (by simpa using hne), ed, Res.ok_bind]
  · refine ⟨?_, keys_aset_nodup _ _ _ hs.nodup, ?_, keys_aset_nodup _ _ _ h1, ?_, ?_⟩
    · intro y
      simp only [lookup_aset]
      by_cases hy : y = x
      · simp [hy]
      · rw [List.mem_append, List.mem_singleton, ← hs.keys]; simp [hy]
    · intro y m hm
      simp only [lookup_aset] at hm
      by_cases hy : y = x
      · rw [if_pos hy] at hm
        cases hm
        subst hy
        exact ⟨by omega, hbc⟩
      · rw [if_neg hy] at hm
        exact hs.carries y m hm
    · intro m
      simp only [lookup_aset]
      rw [List.filter_append, List.length_append]
      have hsame : (done.filter (fun y => (if y = x then some b else s.medoids.lookup y) == some m)) =
          done.filter (fun y => s.medoids.lookup y == some m) := by
        apply List.filter_congr
        intro y hy
        rw [if_neg (by rintro rfl; exact hnew hy)]
      rw [hsame, ← hs.used]
      by_cases hm : m = b
      · subst hm
        simp [hmod]
      · have : ¬ b = m := fun h => hm h.symm
        simp [hm, this, h2]
    · have := sum_aset cs b (u32 ((cs.lookup b).getD 0 + 1))
      simp only [hmod] at this ⊢
      rw [h2] at this
      rw [h3, hs.total] at this
      rw [List.length_append, List.length_singleton]
      omega

/-- **C28.** For every assignment of labels to points, every order in which the threads process the distinct
labels occurring in it, and every sequence of random numbers: the computation succeeds, every label has
exactly one entry point, which is a point that carries the label or the universal label, nothing else has
an entry point, every usage counter is the number of labels that use the point, and the counters add up to
the number of labels. -/
theorem C28_label_entry_points {V : Type} (c : Ctx V) (hlab : c.labels.length = c.data.length)
    (order : List Label) (hnd : order.Nodup) (hlen : order.length < 4294967296)
    (hall : ∀ x, x ∈ order ↔ ∃ (i : Nat) (ls : List Label), c.labels[i]? = some ls ∧ x ∈ ls) (draw : Nat → Nat) :
    ∃ s, labelMedoids c order draw ⟨[], []⟩ = .ok s ∧
      (s.medoids.map Prod.fst).Nodup ∧
      (∀ x, x ∈ s.medoids.map Prod.fst ↔ x ∈ order) ∧
      (∀ x m, (x, m) ∈ s.medoids → m < c.data.length ∧ Carries c x m) ∧
      (∀ m, (s.counts.lookup m).getD 0 = (s.medoids.filter (fun p => p.2 == m)).length) ∧
      (s.counts.map Prod.snd).sum = order.length := by
  have gen : ∀ (todo done : List Label) (draw : Nat → Nat) (s : MedSt), order = done ++ todo → MedInv c done s →
      s.medoids.map Prod.fst = done →
      ∃ s', labelMedoids c todo draw s = .ok s' ∧ MedInv c order s' ∧ s'.medoids.map Prod.fst = order := by
    intro todo
    induction todo with
    | nil =>
      intro done draw s h1 h2 h3
      rw [List.append_nil] at h1
      exact ⟨s, rfl, by rw [h1]; exact h2, by rw [h1]; exact h3⟩
    | cons x todo ih =>
      intro done draw s h1 h2 h3
      have hx : x ∉ done := by
        intro h
        rw [h1, List.nodup_append] at hnd
        exact hnd.2.2 x h x (by simp) rfl
      obtain ⟨i, ls, h4, h5⟩ := (hall x).1 (by rw [h1]; simp)
      have hl := congrArg List.length h1
      simp at hl
      obtain ⟨s', e, hs', m, hm⟩ := labelStep_spec c hlab draw x
        ⟨i, by rw [← hlab]; exact (List.getElem?_eq_some_iff.1 h4).1, ls, h4, .inl h5⟩ done hx
        (by omega) s h2
      obtain ⟨s'', e2, h6, h7⟩ := ih (done ++ [x]) (fun k => draw (k + usedDraws c x)) s' (by rw [h1]; simp) hs'
        (by rw [hm, keys_aset, h3, if_neg hx])
      exact ⟨s'', by unfold labelMedoids; rw [e, Res.ok_bind]; exact e2, h6, h7⟩
  obtain ⟨s, e, hs, hk⟩ := gen order [] draw ⟨[], []⟩ rfl
    ⟨by simp, by simp, by simp, by simp, by simp, by simp⟩ rfl
  have hlk : ∀ (l : List (Label × Nat)), (l.map Prod.fst).Nodup → ∀ x m, (x, m) ∈ l → l.lookup x = some m := by
    intro l
    induction l with
    | nil => intro _ x m h; simp at h
    | cons p l ih =>
      intro hn x m h
      rw [List.map_cons, List.nodup_cons] at hn
      rcases List.mem_cons.1 h with h | h
      · subst h; simp [List.lookup]
      · have hne : x ≠ p.1 := by
          rintro rfl
          exact hn.1 (List.mem_map.2 ⟨_, h, rfl⟩)
        simp only [List.lookup, beq_eq_false_iff_ne.2 hne]
        exact ih hn.2 x m h
  refine ⟨s, e, hs.nodup, by rw [hk]; simp, ?_, ?_, hs.total⟩
  · intro x m h
    exact hs.carries x m (hlk _ hs.nodup x m h)
  · intro m
    rw [hs.used, ← hk, List.filter_map, List.length_map]
    congr 1
    apply List.filter_congr
    rintro ⟨x, m'⟩ hp
    simp only [Function.comp]
    rw [hlk _ hs.nodup x m' hp]
    rfl

/-- **C28, balance.** The entry point chosen for a label is one of the points drawn for it, and none of the
points drawn was used by fewer labels before. -/
theorem C28_least_used {V : Type} (c : Ctx V) (hlab : c.labels.length = c.data.length) (draw : Nat → Nat)
    (x : Label) (hx : ∃ i, i < c.data.length ∧ Carries c x i) (s : MedSt)
    (hs : (s.counts.map Prod.fst).Nodup) :
    ∃ (s' : MedSt) (m : Nat) (pts : List Nat), labelStep c draw x s = .ok s' ∧ s'.medoids.lookup x = some m ∧
      (∀ j, j ∈ pts ↔ j < c.data.length ∧ Carries c x j) ∧
      (∃ k < 25, pts[draw k % pts.length]? = some m) ∧
      ∀ k < 25, ∀ p, pts[draw k % pts.length]? = some p →
        (s.counts.lookup m).getD 0 ≤ (s.counts.lookup p).getD 0 := by
  obtain ⟨pts, e, hp⟩ := filteredPoints_spec c x c.data.length 0 (by omega)
  obtain ⟨i, hi, hci⟩ := hx
  have hne : pts ≠ [] := by
    intro h
    have := (hp i).2 ⟨by omega, by omega, hci⟩
    rw [h] at this; simp at this
  obtain ⟨b, cs, ed, _, _, _, h4, h5, _⟩ := drawLoop_spec pts hne ((List.range 25).map draw) 0 0 4294967295
    s.counts hs (fun h => absurd rfl h)
  refine ⟨⟨aset s.medoids x b, aset cs b (u32 ((cs.lookup b).getD 0 + 1))⟩, b, pts, ?_, ?_, ?_, ?_, ?_⟩
  · unfold labelStep
    rw [e, Res.ok_bind, if_pos (by simpa using hne), ed, Res.ok_bind]
  · simp [lookup_aset]
  · intro j; rw [hp]; constructor
    · rintro ⟨_, h1, h2⟩; exact ⟨by omega, h2⟩
    · rintro ⟨h1, h2⟩; exact ⟨by omega, by omega, h2⟩
  · rcases h4 with ⟨h, _⟩ | ⟨h, _⟩ | ⟨r, hr, h⟩
    · exact absurd rfl h
    · simp at h
    · obtain ⟨k, hk, rfl⟩ := List.mem_map.1 hr
      exact ⟨k, by simpa using hk, h⟩
  · intro k hk p hp
    exact h5 _ (List.mem_map_of_mem (by simpa using hk)) p hp

/-- Four points, three labels ("a", "b", and the universal label "0"). -/
def exLabCtx : Ctx Nat where
  data := [1, 2, 3, 4]
  labels := [[[97]], [[97], [98]], [[48]], [[98]]]
  useUniv := true
  univ := [48]
  cmp := fun _ _ => F32.zero

/-- The hypotheses of C28 are met, and the outcome is not trivial. -/
example : exLabCtx.labels.length = exLabCtx.data.length ∧ ([[97], [98], [48]] : List Label).Nodup ∧
    (∀ x, x ∈ ([[97], [98], [48]] : List Label) ↔ ∃ (i : Nat) (ls : List Label), exLabCtx.labels[i]? = some ls ∧ x ∈ ls) ∧
    labelMedoids exLabCtx [[97], [98], [48]] (fun k => k * k) ⟨[], []⟩ =
      .ok ⟨[([97], 0), ([98], 2), ([48], 2)], [(0, 1), (1, 0), (2, 2)]⟩ := by
  refine ⟨rfl, by decide, ?_, by decide +kernel⟩
  intro x
  constructor
  · intro h
    simp only [List.mem_cons, List.not_mem_nil, or_false] at h
    rcases h with rfl | rfl | rfl
    · exact ⟨0, _, rfl, by simp⟩
    · exact ⟨1, _, rfl, by simp⟩
    · exact ⟨2, _, rfl, by simp⟩
  · rintro ⟨i, ls, h1, h2⟩
    have h3 := List.mem_of_getElem? h1
    simp only [exLabCtx, List.mem_cons, List.not_mem_nil, or_false] at h3
    rcases h3 with rfl | rfl | rfl | rfl <;> simp at h2 ⊢ <;> tauto

/-! ## The theorems applied to the example -/

theorem exLabCtx_all : ∀ x, x ∈ ([[97], [98], [48]] : List Label) ↔
    ∃ (i : Nat) (ls : List Label), exLabCtx.labels[i]? = some ls ∧ x ∈ ls := by
  intro x
  constructor
  · intro h
    simp only [List.mem_cons, List.not_mem_nil, or_false] at h
    rcases h with rfl | rfl | rfl
    · exact ⟨0, _, rfl, by simp⟩
    · exact ⟨1, _, rfl, by simp⟩
    · exact ⟨2, _, rfl, by simp⟩
  · rintro ⟨i, ls, h1, h2⟩
    have h3 := List.mem_of_getElem? h1
    simp only [exLabCtx, List.mem_cons, List.not_mem_nil, or_false] at h3
    rcases h3 with rfl | rfl | rfl | rfl <;> simp at h2 ⊢ <;> tauto

example := C28_label_entry_points exLabCtx rfl [[97], [98], [48]] (by decide) (by decide) exLabCtx_all
  (fun k => k * k)

/-- The third label, when the first two have taken points 0 and 2. -/
example := C28_least_used exLabCtx rfl (fun k => k * k) [48] ⟨2, by decide, _, rfl, by simp⟩
  ⟨[([97], 0), ([98], 2)], [(0, 1), (2, 1)]⟩ (by decide)

end Grann
