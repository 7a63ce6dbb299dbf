import Verif.Props.Lsh
import Verif.Model.LshPar
import Mathlib.Logic.Basic
import Mathlib.Tactic.ByContra
/-!
# C77: LSH searches that run at the same time
-/

namespace Grann

variable {H V : Type}

/-- The candidates from the first `j` tables. -/
def candsTo (dot : H → V → F32) (T0 : List (HTable H)) (q : V) (j : Nat) : List Nat :=
  ((T0.take j).map (fun t => t.buckets.get (hashOf dot t.hps q))).flatten

theorem candsTo_succ (dot : H → V → F32) (T0 : List (HTable H)) (q : V) (j : Nat) (t : HTable H)
    (ht : T0[j]? = some t) :
    candsTo dot T0 q (j + 1) = candsTo dot T0 q j ++ t.buckets.get (hashOf dot t.hps q) := by
  unfold candsTo
  obtain ⟨hl, rfl⟩ := List.getElem?_eq_some_iff.1 ht
  rw [List.take_add_one, List.getElem?_eq_getElem hl, List.map_append, List.flatten_append]
  simp

/-- The table is the given one, apart from empty buckets. -/
structure TabSame (t t0 : HTable H) : Prop where
  ok : t.OK
  hps : t.hps = t0.hps
  get : ∀ key, t.buckets.get key = t0.buckets.get key

def TaskInv (dot : H → V → F32) (T0 : List (HTable H)) (q : V) : LTask → Prop
  | .find j acc => j ≤ T0.length ∧ acc = candsTo dot T0 q j
  | .ins j key _ acc => acc = candsTo dot T0 q j ∧ ∃ t0, T0[j]? = some t0 ∧ key = hashOf dot t0.hps q
  | .copy j key acc => acc = candsTo dot T0 q j ∧ ∃ t0, T0[j]? = some t0 ∧ key = hashOf dot t0.hps q
  | .done acc => acc = candsTo dot T0 q T0.length

structure LInv (dot : H → V → F32) (qs : List V) (T0 : List (HTable H)) (s : LPar H) : Prop where
  lenTabs : s.tabs.length = T0.length
  lenTs : s.ts.length = qs.length
  tab : ∀ (j : Nat) (t : HTable H), s.tabs[j]? = some t → ∃ t0, T0[j]? = some t0 ∧ TabSame t t0
  task : ∀ (i : Nat) (tk : LTask), s.ts[i]? = some tk → ∃ q, qs[i]? = some q ∧ TaskInv dot T0 q tk

/-- The places found are still right. -/
def SeenInv (s : LPar H) : Prop := ∀ (i j key : Nat) (seen : Buckets) (acc : List Nat),
  s.ts[i]? = some (.ins j key seen acc) → ∃ t, s.tabs[j]? = some t ∧ t.buckets = seen

theorem LInv.setTask {dot : H → V → F32} {qs : List V} {T0 : List (HTable H)} {s : LPar H}
    (h : LInv dot qs T0 s) {i : Nat} {q : V} (hq : qs[i]? = some q) {tk : LTask}
    (htk : TaskInv dot T0 q tk) : LInv dot qs T0 { s with ts := s.ts.set i tk } := by
  refine ⟨h.lenTabs, by simp [h.lenTs], h.tab, ?_⟩
  intro j u hu
  rcases eq_or_ne i j with rfl | hne
  · have hlt : i < s.ts.length := by rw [h.lenTs]; exact (List.getElem?_eq_some_iff.1 hq).1
    have hu : (s.ts.set i tk)[i]? = some u := hu
    rw [List.getElem?_set_self hlt] at hu
    cases hu
    exact ⟨q, hq, htk⟩
  · have hu : (s.ts.set i tk)[j]? = some u := hu
    rw [List.getElem?_set_ne hne] at hu
    exact h.task j u hu

theorem LInv.start (dot : H → V → F32) (qs : List V) (T0 : List (HTable H)) (hok : ∀ t ∈ T0, t.OK) :
    LInv dot qs T0 (LPar.start T0 qs.length) := by
  refine ⟨rfl, by simp [LPar.start], ?_, ?_⟩
  · intro j t ht
    exact ⟨t, ht, hok t (List.mem_of_getElem? ht), rfl, fun _ => rfl⟩
  · intro i tk hi
    unfold LPar.start at hi
    dsimp only at hi
    rw [List.getElem?_replicate] at hi
    split at hi
    · rename_i hlt
      cases hi
      exact ⟨qs[i], List.getElem?_eq_getElem hlt, Nat.zero_le _, rfl⟩
    · cases hi

theorem SeenInv.start (n : Nat) (T0 : List (HTable H)) : SeenInv (LPar.start T0 n) := by
  intro i j key seen acc h
  unfold LPar.start at h
  dsimp only at h
  rw [List.getElem?_replicate] at h
  split at h <;> cases h

/-- What one step does to a state with the invariant. -/
theorem lparStep_inv {dot : H → V → F32} {qs : List V} {T0 : List (HTable H)} {s : LPar H}
    (h : LInv dot qs T0 s) (i : Nat) :
    (∀ s', lparStep dot qs s i = .ok s' → LInv dot qs T0 s') ∧
    (SeenInv s → ∃ s', lparStep dot qs s i = .ok s') ∧
    (∀ s', lparStep dot qs s i = .ok s' → SeenInv s → ¬ s.Racy → SeenInv s') := by
  unfold lparStep
  cases hti : s.ts[i]? with
  | none =>
    exact ⟨fun s' e => by cases e; exact h, fun _ => ⟨s, rfl⟩, fun s' e hs _ => by cases e; exact hs⟩
  | some tk =>
    obtain ⟨q, hq, htk⟩ := h.task i tk hti
    have hilt : i < s.ts.length := (List.getElem?_eq_some_iff.1 hti).1
    have hseen : ∀ (tk' : LTask), (∀ j key seen acc, tk' ≠ .ins j key seen acc) → SeenInv s →
        SeenInv { s with ts := s.ts.set i tk' } := by
      intro tk' hno hs a j key seen acc ha
      rcases eq_or_ne i a with rfl | hne
      · have ha : (s.ts.set i tk')[i]? = _ := ha
        rw [List.getElem?_set_self hilt] at ha
        cases ha
        exact absurd rfl (hno _ _ _ _)
      · have ha : (s.ts.set i tk')[a]? = _ := ha
        rw [List.getElem?_set_ne hne] at ha
        exact hs a j key seen acc ha
    cases tk with
    | done acc =>
      exact ⟨fun s' e => by cases e; exact h, fun _ => ⟨s, rfl⟩, fun s' e hs _ => by cases e; exact hs⟩
    | find j acc =>
      obtain ⟨hj, hacc⟩ := htk
      dsimp only
      cases ht : s.tabs[j]? with
      | none =>
        dsimp only
        have hjl : j = T0.length := by
          have := List.getElem?_eq_none_iff.1 ht
          have := h.lenTabs
          omega
        refine ⟨fun s' e => ?_, fun _ => ⟨_, rfl⟩, fun s' e hs _ => ?_⟩
        · cases e
          refine h.setTask hq ?_
          show acc = _
          rw [hacc, hjl]
        · cases e
          exact hseen _ (by intro _ _ _ _ hc; cases hc) hs
      | some t =>
        dsimp only
        obtain ⟨t0, ht0, hsame⟩ := h.tab j t ht
        rw [rd_eq_ok_iff.mpr hq, Res.ok_bind, getHash_ok dot hsame.ok.hps q, Res.ok_bind]
        refine ⟨fun s' e => ?_, fun _ => ⟨_, rfl⟩, fun s' e hs _ => ?_⟩
        · cases e
          refine h.setTask hq ?_
          split
          · exact ⟨hacc, t0, ht0, by rw [hsame.hps]⟩
          · exact ⟨hacc, t0, ht0, by rw [hsame.hps]⟩
        · cases e
          split
          · exact hseen _ (by intro _ _ _ _ hc; cases hc) hs
          · intro a j' key seen acc' ha
            rcases eq_or_ne i a with rfl | hne
            · have ha : (s.ts.set i _)[i]? = _ := ha
              rw [List.getElem?_set_self hilt] at ha
              cases ha
              exact ⟨t, ht, rfl⟩
            · have ha : (s.ts.set i _)[a]? = _ := ha
              rw [List.getElem?_set_ne hne] at ha
              exact hs a j' key seen acc' ha
    | ins j key seen acc =>
      obtain ⟨hacc, t0, ht0, hkey⟩ := htk
      dsimp only
      have hjlt : j < s.tabs.length := by
        rw [h.lenTabs]; exact (List.getElem?_eq_some_iff.1 ht0).1
      obtain ⟨t, ht⟩ : ∃ t, s.tabs[j]? = some t := ⟨_, List.getElem?_eq_getElem hjlt⟩
      rw [show rd s.tabs j = .ok t from rd_eq_ok_iff.mpr ht, Res.ok_bind]
      by_cases hsn : t.buckets = seen
      · rw [if_pos hsn]
        obtain ⟨t1, ht1, hsame⟩ := h.tab j t ht
        rw [ht0] at ht1
        cases ht1
        refine ⟨fun s' e => ?_, fun _ => ⟨_, rfl⟩, fun s' e hs hr => ?_⟩
        · cases e
          have h1 := h.setTask hq (tk := .copy j key acc) ⟨hacc, t0, ht0, hkey⟩
          refine ⟨by simp [h.lenTabs], h1.lenTs, ?_, h1.task⟩
          intro j' t' ht'
          rcases eq_or_ne j j' with rfl | hne
          · have ht' : (s.tabs.set j _)[j]? = some t' := ht'
            rw [List.getElem?_set_self hjlt] at ht'
            cases ht'
            refine ⟨t0, ht0, ⟨hsame.ok.hps, Buckets.push_sorted _ hsame.ok.sorted _ _⟩, hsame.hps, ?_⟩
            intro key'
            show (t.buckets.push key []).get key' = _
            rw [Buckets.get_push _ hsame.ok.sorted, hsame.get]
            simp
          · have ht' : (s.tabs.set j _)[j']? = some t' := ht'
            rw [List.getElem?_set_ne hne] at ht'
            exact h.tab j' t' ht'
        · cases e
          intro a j' key' seen' acc' ha
          rcases eq_or_ne i a with rfl | hne
          · have ha : (s.ts.set i _)[i]? = _ := ha
            rw [List.getElem?_set_self hilt] at ha
            cases ha
          · have ha : (s.ts.set i _)[a]? = _ := ha
            rw [List.getElem?_set_ne hne] at ha
            rcases eq_or_ne j j' with rfl | hjj
            · exfalso
              refine hr ⟨i, a, hne, (.tree j, true), ?_, (.tree j, true), ?_, rfl, rfl⟩
              · unfold LPar.touches; rw [hti]; simp
              · unfold LPar.touches; rw [ha]; simp
            · obtain ⟨t', h1, h2⟩ := hs a j' key' seen' acc' ha
              exact ⟨t', by show (s.tabs.set j _)[j']? = _; rw [List.getElem?_set_ne hjj]; exact h1, h2⟩
      · rw [if_neg hsn]
        refine ⟨fun s' e => (by cases e), fun hs => ?_, fun s' e => (by cases e)⟩
        obtain ⟨t', h1, h2⟩ := hs i j key seen acc hti
        rw [ht] at h1
        cases h1
        exact absurd h2 hsn
    | copy j key acc =>
      obtain ⟨hacc, t0, ht0, hkey⟩ := htk
      dsimp only
      have hjlt : j < s.tabs.length := by
        rw [h.lenTabs]; exact (List.getElem?_eq_some_iff.1 ht0).1
      obtain ⟨t, ht⟩ : ∃ t, s.tabs[j]? = some t := ⟨_, List.getElem?_eq_getElem hjlt⟩
      rw [show rd s.tabs j = .ok t from rd_eq_ok_iff.mpr ht, Res.ok_bind]
      refine ⟨fun s' e => ?_, fun _ => ⟨_, rfl⟩, fun s' e hs _ => ?_⟩
      · cases e
        refine h.setTask hq ⟨(List.getElem?_eq_some_iff.1 ht0).1, ?_⟩
        obtain ⟨t1, ht1, hsame⟩ := h.tab j t ht
        rw [ht0] at ht1
        cases ht1
        rw [candsTo_succ dot T0 q j t0 ht0, hacc, hsame.get, hkey]
      · cases e
        exact hseen _ (by intro _ _ _ _ hc; cases hc) hs

theorem lparRun_inv {dot : H → V → F32} {qs : List V} {T0 : List (HTable H)} : ∀ (sched : List Nat)
    (s s' : LPar H), LInv dot qs T0 s → lparRun dot qs sched s = .ok s' → LInv dot qs T0 s' := by
  intro sched
  induction sched with
  | nil => intro s s' h e; cases e; exact h
  | cons i is ih =>
    intro s s' h e
    unfold lparRun at e
    obtain ⟨s1, h1, e⟩ := Res.bind_eq_ok.1 e
    exact ih s1 s' ((lparStep_inv h i).1 s1 h1) e

/-- **C77, no interference.** However the steps of the searches are interleaved, as long as nothing
undefined has happened every search that has finished has collected exactly the candidates it collects when
it runs alone, and so gives the same answer. -/
theorem C77_no_interference (dot : H → V → F32) (T0 : List (HTable H)) (hok : ∀ t ∈ T0, t.OK) (qs : List V)
    (sched : List Nat) (s : LPar H) (hrun : lparRun dot qs sched (LPar.start T0 qs.length) = .ok s)
    (i : Nat) (acc : List Nat) (hi : s.ts[i]? = some (.done acc)) :
    ∃ q tables', qs[i]? = some q ∧ lshCands dot q T0 = .ok (tables', acc) ∧
      ∀ (c : Ctx V) (rc : Nat) (ind : List Nat) (dst : Option (List F32)) (filters : List Label),
        lshSearch dot c T0 q rc ind dst filters =
          (scanSearch c q rc ind dst filters acc >>= fun r => .ok (tables', r)) := by
  have h := lparRun_inv sched _ _ (LInv.start dot qs T0 hok) hrun
  obtain ⟨q, hq, hacc⟩ := h.task i _ hi
  have hc := lshCands_spec dot q T0 hok
  have : acc = candsTo dot T0 q T0.length := hacc
  unfold candsTo at this
  rw [List.take_length] at this
  rw [← this] at hc
  refine ⟨q, _, hq, hc, ?_⟩
  intro c rc ind dst filters
  unfold lshSearch
  rw [hc]
  rfl

/-- **C77, undefined only after a race.** An execution that gets into undefined behaviour has been in a
state in which two searches race. -/
theorem C77_undefined_only_after_race (dot : H → V → F32) (T0 : List (HTable H)) (hok : ∀ t ∈ T0, t.OK)
    (qs : List V) (sched : List Nat) (err : Err)
    (hrun : lparRun dot qs sched (LPar.start T0 qs.length) = .error err) :
    ∃ a b s, sched = a ++ b ∧ lparRun dot qs a (LPar.start T0 qs.length) = .ok s ∧ s.Racy := by
  have key : ∀ (sched : List Nat) (s0 : LPar H), LInv dot qs T0 s0 → SeenInv s0 →
      lparRun dot qs sched s0 = .error err →
      ∃ a b s, sched = a ++ b ∧ lparRun dot qs a s0 = .ok s ∧ s.Racy := by
    intro sched
    induction sched with
    | nil => intro s0 _ _ e; cases e
    | cons i is ih =>
      intro s0 h hs e
      by_cases hr : s0.Racy
      · exact ⟨[], i :: is, s0, rfl, rfl, hr⟩
      · obtain ⟨h1, h2, h3⟩ := lparStep_inv h i
        obtain ⟨s1, e1⟩ := h2 hs
        unfold lparRun at e
        rw [e1, Res.ok_bind] at e
        obtain ⟨a, b, s, e2, e3, e4⟩ := ih s1 (h1 s1 e1) (h3 s1 e1 hs hr) e
        refine ⟨i :: a, b, s, by rw [e2]; rfl, ?_, e4⟩
        unfold lparRun
        rw [e1]
        exact e3
  exact key sched _ (LInv.start dot qs T0 hok) (SeenInv.start _ _) hrun

/-! ## When there is a race -/

/-- Every lookup finds a bucket. -/
def AllPresent (dot : H → V → F32) (T0 : List (HTable H)) (qs : List V) : Prop :=
  ∀ q ∈ qs, ∀ t ∈ T0, t.buckets.has (hashOf dot t.hps q) = true

theorem lparStep_present {dot : H → V → F32} {qs : List V} {T0 : List (HTable H)} (hok : ∀ t ∈ T0, t.OK)
    (hp : AllPresent dot T0 qs) {s : LPar H}
    (htabs : s.tabs = T0) (hno : ∀ (i j key : Nat) (seen : Buckets) (acc : List Nat), s.ts[i]? ≠ some (LTask.ins j key seen acc)) {i : Nat} {s' : LPar H}
    (e : lparStep dot qs s i = .ok s') :
    s'.tabs = T0 ∧ ∀ (i j key : Nat) (seen : Buckets) (acc : List Nat), s'.ts[i]? ≠ some (LTask.ins j key seen acc) := by
  have hset : ∀ (tk : LTask), (∀ (j key : Nat) (seen : Buckets) (acc : List Nat), tk ≠ LTask.ins j key seen acc) →
      ∀ (a j key : Nat) (seen : Buckets) (acc : List Nat), (s.ts.set i tk)[a]? ≠ some (LTask.ins j key seen acc) := by
    intro tk h a j key seen acc ha
    rcases eq_or_ne i a with rfl | hne
    · rw [List.getElem?_set] at ha
      simp only [if_true] at ha
      split at ha
      · exact h _ _ _ _ (Option.some.inj ha)
      · cases ha
    · rw [List.getElem?_set_ne hne] at ha
      exact hno a j key seen acc ha
  unfold lparStep at e
  cases hti : s.ts[i]? with
  | none => rw [hti] at e; cases e; exact ⟨htabs, hno⟩
  | some tk =>
    rw [hti] at e
    cases tk with
    | done acc => cases e; exact ⟨htabs, hno⟩
    | ins j key seen acc => exact absurd hti (hno _ _ _ _ _)
    | copy j key acc =>
      obtain ⟨t, -, e⟩ := Res.bind_eq_ok.1 e
      cases e
      exact ⟨htabs, hset _ (by intro _ _ _ _ hc; cases hc)⟩
    | find j acc =>
      dsimp only at e
      cases ht : s.tabs[j]? with
      | none =>
        rw [ht] at e
        cases e
        exact ⟨htabs, hset _ (by intro _ _ _ _ hc; cases hc)⟩
      | some t =>
        rw [ht] at e
        obtain ⟨q, hq, e⟩ := Res.bind_eq_ok.1 e
        obtain ⟨key, hk, e⟩ := Res.bind_eq_ok.1 e
        have htm : t ∈ T0 := by rw [htabs] at ht; exact List.mem_of_getElem? ht
        have hqm : q ∈ qs := List.mem_of_getElem? (rd_eq_ok_iff.mp hq)
        rw [getHash_ok dot (hok t htm).hps q] at hk
        cases hk
        rw [if_pos (hp q hqm t htm)] at e
        cases e
        exact ⟨htabs, hset _ (by intro _ _ _ _ hc; cases hc)⟩

theorem lparRun_present {dot : H → V → F32} {qs : List V} {T0 : List (HTable H)} (hok : ∀ t ∈ T0, t.OK)
    (hp : AllPresent dot T0 qs) : ∀ (sched : List Nat) (s : LPar H), LInv dot qs T0 s →
    s.tabs = T0 → (∀ (i j key : Nat) (seen : Buckets) (acc : List Nat), s.ts[i]? ≠ some (LTask.ins j key seen acc)) →
    ∃ s', lparRun dot qs sched s = .ok s' ∧ s'.tabs = T0 ∧
      ∀ (i j key : Nat) (seen : Buckets) (acc : List Nat), s'.ts[i]? ≠ some (LTask.ins j key seen acc) := by
  intro sched
  induction sched with
  | nil => intro s _ h1 h2; exact ⟨s, rfl, h1, h2⟩
  | cons i is ih =>
    intro s hI h1 h2
    obtain ⟨g1, g2, -⟩ := lparStep_inv hI i
    obtain ⟨s1, e1⟩ := g2 (fun a j key seen acc h => absurd h (h2 _ _ _ _ _))
    obtain ⟨h3, h4⟩ := lparStep_present hok hp h1 h2 e1
    obtain ⟨s', e', h5⟩ := ih s1 (g1 s1 e1) h3 h4
    refine ⟨s', ?_, h5⟩
    unfold lparRun
    rw [e1]
    exact e'

theorem not_racy_of_no_ins {s : LPar H} (h : ∀ (i j key : Nat) (seen : Buckets) (acc : List Nat), s.ts[i]? ≠ some (LTask.ins j key seen acc)) :
    ¬ s.Racy := by
  have hro : ∀ i, ∀ a ∈ s.touches i, a.2 = false := by
    intro i a ha
    unfold LPar.touches at ha
    cases hti : s.ts[i]? with
    | none => rw [hti] at ha; simp at ha
    | some tk =>
      rw [hti] at ha
      cases tk with
      | find j acc => dsimp only at ha; split at ha <;> simp at ha; rw [ha]
      | ins j key seen acc => exact absurd hti (h _ _ _ _ _)
      | copy j key acc => simp at ha; rw [ha]
      | done acc => simp at ha
  rintro ⟨i, j, -, a, ha, b, hb, -, hw⟩
  rw [hro i a ha, hro j b hb] at hw
  cases hw

/-- **C77, what holds.** If every lookup finds a bucket, then no execution races or gets into undefined
behaviour, and the tables are not changed. -/
theorem C77_no_race_partial (dot : H → V → F32) (T0 : List (HTable H)) (hok : ∀ t ∈ T0, t.OK) (qs : List V)
    (hp : AllPresent dot T0 qs) (sched : List Nat) :
    ∃ s, lparRun dot qs sched (LPar.start T0 qs.length) = .ok s ∧ ¬ s.Racy ∧ s.tabs = T0 := by
  have hno : ∀ (i j key : Nat) (seen : Buckets) (acc : List Nat), (LPar.start T0 qs.length).ts[i]? ≠ some (LTask.ins j key seen acc) := by
    intro i j key seen acc h
    unfold LPar.start at h
    dsimp only at h
    rw [List.getElem?_replicate] at h
    split at h <;> cases h
  obtain ⟨s, e, h1, h2⟩ := lparRun_present hok hp sched _ (LInv.start dot qs T0 hok) rfl hno
  exact ⟨s, e, not_racy_of_no_ins h2, h1⟩

theorem lparRun_append {dot : H → V → F32} {qs : List V} : ∀ (a b : List Nat) (s s1 : LPar H),
    lparRun dot qs a s = .ok s1 → lparRun dot qs (a ++ b) s = lparRun dot qs b s1 := by
  intro a
  induction a with
  | nil => intro b s s1 h; cases h; rfl
  | cons i a ih =>
    intro b s s1 h
    unfold lparRun at h
    obtain ⟨s2, h2, h⟩ := Res.bind_eq_ok.1 h
    rw [← ih b s2 s1 h, List.cons_append]
    show (lparStep dot qs s i >>= fun s' => lparRun dot qs (a ++ b) s') = _
    rw [h2]
    rfl

/-- A search that runs alone for a while gets to table `j`, and has not changed the tables from `j` on. -/
theorem lpar_advance {dot : H → V → F32} {qs : List V} {T0 : List (HTable H)} (s : LPar H)
    (h : LInv dot qs T0 s) (i : Nat) (hi : s.ts[i]? = some (.find 0 [])) : ∀ (j : Nat), j ≤ T0.length →
    ∃ sched s' acc, lparRun dot qs sched s = .ok s' ∧ LInv dot qs T0 s' ∧ s'.ts = s.ts.set i (.find j acc) ∧
      ∀ l, j ≤ l → s'.tabs[l]? = s.tabs[l]? := by
  intro j
  induction j with
  | zero =>
    intro _
    refine ⟨[], s, [], rfl, h, ?_, fun _ _ => rfl⟩
    obtain ⟨hlt, he⟩ := List.getElem?_eq_some_iff.1 hi
    rw [← he, List.set_getElem_self]
  | succ j ih =>
    intro hj
    obtain ⟨sched, s1, acc, e1, h1, hts, htab⟩ := ih (by omega)
    have hilt : i < s.ts.length := (List.getElem?_eq_some_iff.1 hi).1
    have hti : s1.ts[i]? = some (.find j acc) := by rw [hts, List.getElem?_set_self hilt]
    have hjlt : j < s1.tabs.length := by rw [h1.lenTabs]; omega
    obtain ⟨t, ht⟩ : ∃ t, s1.tabs[j]? = some t := ⟨_, List.getElem?_eq_getElem hjlt⟩
    obtain ⟨t0, ht0, hsame⟩ := h1.tab j t ht
    obtain ⟨q, hq, -⟩ := h1.task i _ hti
    have hstep : lparStep dot qs s1 i = .ok ⟨s1.tabs, s1.ts.set i
        (if t.buckets.has (hashOf dot t.hps q) then .copy j (hashOf dot t.hps q) acc
         else .ins j (hashOf dot t.hps q) t.buckets acc)⟩ := by
      unfold lparStep
      rw [hti]
      dsimp only
      rw [ht]
      dsimp only
      rw [rd_eq_ok_iff.mpr hq, Res.ok_bind, getHash_ok dot hsame.ok.hps q, Res.ok_bind]
    -- whatever the lookup finds, a state with `copy` is reached
    have hcopy : ∃ sched' s2, lparRun dot qs sched' s1 = .ok s2 ∧
        s2.ts = s1.ts.set i (.copy j (hashOf dot t.hps q) acc) ∧ j < s2.tabs.length ∧
        ∀ l, j + 1 ≤ l → s2.tabs[l]? = s1.tabs[l]? := by
      by_cases hb : t.buckets.has (hashOf dot t.hps q) = true
      · rw [if_pos hb] at hstep
        refine ⟨[i], ⟨s1.tabs, s1.ts.set i (.copy j (hashOf dot t.hps q) acc)⟩, ?_, rfl, hjlt, fun _ _ => rfl⟩
        unfold lparRun
        rw [hstep]
        rfl
      · rw [if_neg hb] at hstep
        refine ⟨[i, i], ⟨s1.tabs.set j { t with buckets := t.buckets.push (hashOf dot t.hps q) [] },
          s1.ts.set i (.copy j (hashOf dot t.hps q) acc)⟩, ?_, rfl, by simpa using hjlt, ?_⟩
        · unfold lparRun
          rw [hstep, Res.ok_bind]
          unfold lparRun lparStep
          dsimp only
          rw [List.getElem?_set_self (by rw [hts]; simpa using hilt)]
          dsimp only
          rw [show rd s1.tabs j = .ok t from rd_eq_ok_iff.mpr ht, Res.ok_bind, if_pos rfl, List.set_set]
          rfl
        · intro l hl
          show (s1.tabs.set j _)[l]? = _
          rw [List.getElem?_set_ne (by omega)]
    obtain ⟨sched', s2, e2, hts2, hjl2, htab2⟩ := hcopy
    have h2 : LInv dot qs T0 s2 := lparRun_inv sched' _ _ h1 e2
    obtain ⟨t2, ht2⟩ : ∃ t, s2.tabs[j]? = some t := ⟨_, List.getElem?_eq_getElem hjl2⟩
    have hti2 : s2.ts[i]? = some (.copy j (hashOf dot t.hps q) acc) := by
      rw [hts2, List.getElem?_set_self (by rw [hts]; simpa using hilt)]
    have hstep2 : lparStep dot qs s2 i = .ok ⟨s2.tabs, s2.ts.set i
        (.find (j + 1) (acc ++ t2.buckets.get (hashOf dot t.hps q)))⟩ := by
      unfold lparStep
      rw [hti2]
      dsimp only
      rw [show rd s2.tabs j = .ok t2 from rd_eq_ok_iff.mpr ht2, Res.ok_bind]
    refine ⟨sched ++ (sched' ++ [i]), _, acc ++ t2.buckets.get (hashOf dot t.hps q), ?_,
      (lparStep_inv h2 i).1 _ hstep2, ?_, ?_⟩
    · rw [lparRun_append _ _ _ _ e1, lparRun_append _ _ _ _ e2]
      unfold lparRun
      rw [hstep2]
      rfl
    · show s2.ts.set i _ = _
      rw [hts2, hts, List.set_set, List.set_set]
    · intro l hl
      show s2.tabs[l]? = _
      rw [htab2 l (by omega), htab l (by omega)]

/-- **C77, refuted.** With at least two searches there is an execution with a data race exactly if some
query falls into a bucket that some table does not have. -/
theorem C77_race_iff (dot : H → V → F32) (T0 : List (HTable H)) (hok : ∀ t ∈ T0, t.OK) (qs : List V)
    (h2 : 2 ≤ qs.length) :
    (∃ sched s, lparRun dot qs sched (LPar.start T0 qs.length) = .ok s ∧ s.Racy) ↔
      ∃ q ∈ qs, ∃ t ∈ T0, t.buckets.has (hashOf dot t.hps q) = false := by
  constructor
  · rintro ⟨sched, s, e, hr⟩
    by_contra hno
    push Not at hno
    have hp : AllPresent dot T0 qs := by
      intro q hq t ht
      simpa using hno q hq t ht
    obtain ⟨s', e', hr', -⟩ := C77_no_race_partial dot T0 hok qs hp sched
    rw [e] at e'
    cases e'
    exact hr' hr
  · rintro ⟨q, hq, t, ht, habs⟩
    obtain ⟨i, hi⟩ := List.getElem?_of_mem hq
    obtain ⟨j, hj⟩ := List.getElem?_of_mem ht
    have hilt := (List.getElem?_eq_some_iff.1 hi).1
    have hjlt := (List.getElem?_eq_some_iff.1 hj).1
    obtain ⟨k, hk, hki⟩ : ∃ k, k < qs.length ∧ i ≠ k := by
      by_cases h0 : i = 0
      · exact ⟨1, by omega, by omega⟩
      · exact ⟨0, by omega, h0⟩
    have hI := LInv.start dot qs T0 hok
    have hstart : ∀ a, a < qs.length → (LPar.start T0 qs.length).ts[a]? = some (.find 0 []) := by
      intro a ha
      unfold LPar.start
      simp [ha]
    obtain ⟨sc1, s1, acc1, e1, h1, hts1, htab1⟩ := lpar_advance _ hI i (hstart i hilt) j (by omega)
    have hti : s1.ts[i]? = some (.find j acc1) := by
      rw [hts1, List.getElem?_set_self (by simpa [LPar.start] using hilt)]
    have htj : s1.tabs[j]? = some t := by rw [htab1 j (Nat.le_refl _)]; exact hj
    have hstep : lparStep dot qs s1 i = .ok ⟨s1.tabs, s1.ts.set i
        (.ins j (hashOf dot t.hps q) t.buckets acc1)⟩ := by
      unfold lparStep
      rw [hti]
      dsimp only
      rw [htj]
      dsimp only
      rw [rd_eq_ok_iff.mpr hi, Res.ok_bind, getHash_ok dot (hok t ht).hps q, Res.ok_bind, habs]
      rfl
    have hI2 := (lparStep_inv h1 i).1 _ hstep
    have htk : ({ s1 with ts := s1.ts.set i (.ins j (hashOf dot t.hps q) t.buckets acc1) } : LPar H).ts[k]? =
        some (.find 0 []) := by
      show (s1.ts.set i _)[k]? = _
      rw [List.getElem?_set_ne hki, hts1, List.getElem?_set_ne hki]
      exact hstart k hk
    obtain ⟨sc2, s2, acc2, e2, hI3, hts2, htab2⟩ := lpar_advance _ hI2 k htk j (by omega)
    refine ⟨sc1 ++ (i :: sc2), s2, ?_, i, k, hki, (.tree j, true), ?_, (.tree j, false), ?_, rfl, rfl⟩
    · rw [lparRun_append _ _ _ _ e1]
      unfold lparRun
      rw [hstep]
      exact e2
    · have hlen : i < s1.ts.length := by rw [h1.lenTs]; exact hilt
      unfold LPar.touches
      have hi2 : s2.ts[i]? = some (.ins j (hashOf dot t.hps q) t.buckets acc1) := by
        rw [hts2, List.getElem?_set_ne (Ne.symm hki)]
        exact List.getElem?_set_self hlen
      rw [hi2]
      simp
    · have hlen : k < s1.ts.length := by rw [h1.lenTs]; exact hk
      unfold LPar.touches
      rw [hts2, List.getElem?_set_self (by simpa using hlen)]
      dsimp only
      rw [if_pos (by rw [hI3.lenTabs]; exact hjlt)]
      simp

/-! ## Built tables -/

theorem has_of_get {b : Buckets} {key x : Nat} (h : x ∈ b.get key) : b.has key = true := by
  induction b with
  | nil => cases h
  | cons p b ih =>
    obtain ⟨k, l⟩ := p
    unfold Buckets.get at h
    unfold Buckets.has
    rw [List.any_cons]
    split at h
    · rename_i hk
      simp [hk]
    · have := ih h
      unfold Buckets.has at this
      rw [this, Bool.or_true]

/-- Searching a built index for stored vectors, at the same time and in any order, is free of races. -/
theorem C77_stored_vectors_safe (dot : H → V → F32) (data : List V) (tags : List Nat)
    (htags : data.length ≤ tags.length) (tableSize : Nat) (hsize : tableSize ≤ 64) (hps : List (List H))
    (hh : ∀ h ∈ hps, h.length = tableSize) (qs : List V) (hq : ∀ q ∈ qs, q ∈ data) :
    ∃ T0, lshBuild dot data tags tableSize hps = .ok T0 ∧ ∀ sched,
      ∃ s, lparRun dot qs sched (LPar.start T0 qs.length) = .ok s ∧ ¬ s.Racy ∧ s.tabs = T0 := by
  obtain ⟨T0, e, hT⟩ := lshBuild_holds dot data tags htags tableSize hsize hps hh
  refine ⟨T0, e, fun sched => C77_no_race_partial dot T0 hT.ok qs ?_ sched⟩
  intro q hqm t ht
  have hdata := hq q hqm
  clear e hh
  induction hT with
  | nil => cases ht
  | @cons hp t' hps ts a _ ih =>
    rcases List.mem_cons.1 ht with rfl | ht
    · obtain ⟨-, hhp, hget⟩ := a
      obtain ⟨i, hi⟩ := List.getElem?_of_mem hdata
      refine has_of_get (x := tags.getD i 0) ?_
      rw [hhp, hget]
      refine List.mem_map.2 ⟨(q, i), List.mem_filter.2 ⟨?_, by simp⟩, rfl⟩
      rw [List.mem_zipIdx_iff_getElem?]
      exact hi
    · exact ih ht

/-- Two searches for a vector that is not stored: the second table lookup begins while the first search is
about to insert a bucket. -/
example : ∃ s, lparRun exDot [F32.zero, F32.zero] [0] (LPar.start [⟨[true], 1, [(1, [0])]⟩] 2) = .ok s ∧
    s.Racy :=
  ⟨⟨[⟨[true], 1, [(1, [0])]⟩], [.ins 0 0 [(1, [0])] [], .find 0 []]⟩, by decide,
    0, 1, by decide, (.tree 0, true), by decide, (.tree 0, false), by decide, rfl, rfl⟩

/-- Going on destroys the tree. -/
example : lparRun exDot [F32.zero, F32.zero] [0, 1, 0, 1] (LPar.start [⟨[true], 1, [(1, [0])]⟩] 2) =
    .error .ub := by decide

/-- One after the other they are fine, and a search for the stored vector finds it. -/
example : (lparRun exDot [F32.zero, F32.one] [0, 0, 0, 1, 0, 1, 1]
    (LPar.start [⟨[true], 1, [(1, [0])]⟩] 2)).map LPar.ts = .ok [.done [], .done [0]] := by decide

example : AllPresent exDot [⟨[true], 1, [(1, [0])]⟩] [F32.one, F32.one] := by
  unfold AllPresent; decide

example : ∀ t ∈ [(⟨[true], 1, [(1, [0])]⟩ : HTable Bool)], t.OK := by
  intro t ht
  rw [List.mem_singleton] at ht
  subst ht
  exact ⟨rfl, by simp⟩

/-! ## The theorems applied to the examples -/

theorem exLshPar_ok : ∀ t ∈ [(⟨[true], 1, [(1, [0])]⟩ : HTable Bool)], t.OK := by
  intro t ht
  rw [List.mem_singleton] at ht
  subst ht
  exact ⟨rfl, by simp⟩

/-- Interleaved searches, the first of which inserts a bucket. -/
example : ∃ q tables', [F32.zero, F32.one][1]? = some q ∧
    lshCands exDot q [⟨[true], 1, [(1, [0])]⟩] = .ok (tables', [0]) := by
  obtain ⟨q, t, h1, h2, -⟩ := C77_no_interference exDot [⟨[true], 1, [(1, [0])]⟩] exLshPar_ok [F32.zero, F32.one]
    [0, 0, 0, 1, 0, 1, 1] ⟨[⟨[true], 1, [(0, []), (1, [0])]⟩], [.done [], .done [0]]⟩ (by decide) 1 [0] rfl
  exact ⟨q, t, h1, h2⟩

example := C77_undefined_only_after_race exDot [⟨[true], 1, [(1, [0])]⟩] exLshPar_ok [F32.zero, F32.zero]
  [0, 1, 0, 1] .ub (by decide)

example := C77_no_race_partial exDot [⟨[true], 1, [(1, [0])]⟩] exLshPar_ok [F32.one, F32.one]
  (by unfold AllPresent; decide) [0, 1, 1, 0, 0]

example := (C77_race_iff exDot [⟨[true], 1, [(1, [0])]⟩] exLshPar_ok [F32.one, F32.zero] (by decide)).2
  ⟨F32.zero, by decide, _, List.mem_singleton.2 rfl, by decide⟩

example := C77_stored_vectors_safe exDot [F32.zero, F32.one] [5, 6] (by decide) 1 (by decide) [[true]] (by decide)
  [F32.one, F32.zero, F32.one] (by decide)

end Grann
