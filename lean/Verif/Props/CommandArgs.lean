import Verif.Props.CommandLine
/-!
# C83: how the arguments of the programs are read
-/

namespace Grann

open Spec (NumArg UnsArg FlagArg elemWord MetricWord)

theorem elemArg_iff {s : Bytes} {e : Elem} : elemArg s = some e ↔ s = elemWord e := by
  unfold elemArg
  constructor
  · intro h
    split at h
    · cases h; assumption
    split at h
    · cases h; assumption
    split at h
    · cases h; assumption
    · cases h
  · rintro rfl
    cases e <;> decide +kernel

theorem metricArg_iff {s : Bytes} {m : Metric} : metricArg s = some m ↔ MetricWord s m := by
  unfold metricArg MetricWord
  constructor
  · intro h
    split at h
    · cases h; exact Or.inl ⟨by assumption, rfl⟩
    split at h
    · cases h; exact Or.inr ⟨by assumption, rfl⟩
    · cases h
  · rintro (⟨rfl, rfl⟩ | ⟨rfl, rfl⟩) <;> decide +kernel

theorem numAt_iff {argv : List Bytes} {i : Nat} {v : Int} : numAt argv i = .ok v ↔ NumArg argv i v := by
  unfold numAt NumArg
  simp only [Res.bind_eq_ok, rd_eq_ok_iff, atoi_ok_iff]

theorem floatAt_iff {argv : List Bytes} {i : Nat} {x : F32} : floatAt argv i = .ok x ↔ ∃ t, argv[i]? = some t ∧ x = atof t := by
  unfold floatAt
  simp only [Res.bind_eq_ok, rd_eq_ok_iff, Except.ok.injEq, @eq_comm _ _ x]

theorem cmdOf_run {α β : Type} {x : Option α} {f : α → Res (Cmd β)} {b : β} : cmdOf x f = .ok (.run b) ↔ ∃ a, x = some a ∧ f a = .ok (.run b) := by
  cases x <;> simp [cmdOf]

theorem cmdOf_ok {α β : Type} {x : Option α} {f : α → Res (Cmd β)} {c : Cmd β} :
    cmdOf x f = .ok c ↔ x = none ∧ c = .refused ∨ ∃ a, x = some a ∧ f a = .ok c := by
  cases x <;> simp [cmdOf, eq_comm]

theorem wrap32_iff {x : Nat} {v : Int} (h : Spec.IsInt v) : wrap32 v = x ↔ (x : Int) = Spec.unsigned 32 v := by
  rw [← wrap32_eq h]
  omega

theorem wrap64_iff {x : Nat} {v : Int} (h : Spec.IsInt v) : wrap64 v = x ↔ (x : Int) = Spec.unsigned 64 v := by
  rw [← wrap64_eq h]
  omega

theorem uns32_iff {argv : List Bytes} {i x : Nat} : UnsArg 32 argv i x ↔ ∃ v, numAt argv i = .ok v ∧ wrap32 v = x := by
  unfold UnsArg
  constructor
  · rintro ⟨v, h1, h2⟩
    exact ⟨v, numAt_iff.2 h1, (wrap32_iff h1.choose_spec.2.2).2 h2⟩
  · rintro ⟨v, h1, h2⟩
    have h1 := numAt_iff.1 h1
    exact ⟨v, h1, (wrap32_iff h1.choose_spec.2.2).1 h2⟩

theorem uns64_iff {argv : List Bytes} {i x : Nat} : UnsArg 64 argv i x ↔ ∃ v, numAt argv i = .ok v ∧ wrap64 v = x := by
  unfold UnsArg
  constructor
  · rintro ⟨v, h1, h2⟩
    exact ⟨v, numAt_iff.2 h1, (wrap64_iff h1.choose_spec.2.2).2 h2⟩
  · rintro ⟨v, h1, h2⟩
    have h1 := numAt_iff.1 h1
    exact ⟨v, h1, (wrap64_iff h1.choose_spec.2.2).1 h2⟩

theorem flag_iff {argv : List Bytes} {i : Nat} {w : List Bytes} {k : Nat} :
    FlagArg argv i w k ↔ ∃ v, numAt argv i = .ok v ∧ optArg argv v (i + 1) = .ok w ∧ k = i + 1 + w.length := by
  unfold FlagArg optArg
  constructor
  · rintro ⟨v, h1, h⟩
    refine ⟨v, numAt_iff.2 h1, ?_⟩
    rcases h with ⟨rfl, rfl, rfl⟩ | ⟨hv, ⟨s, hs, rfl⟩, rfl⟩
    · simp
    · rw [if_neg hv, rd_eq_ok_iff.2 hs]
      exact ⟨rfl, rfl⟩
  · rintro ⟨v, h1, h2, rfl⟩
    refine ⟨v, numAt_iff.1 h1, ?_⟩
    by_cases hv : v = 0
    · rw [if_pos hv] at h2
      cases h2
      exact Or.inl ⟨hv, rfl, rfl⟩
    · rw [if_neg hv] at h2
      obtain ⟨s, hs, h2⟩ := Res.bind_eq_ok.1 h2
      cases h2
      exact Or.inr ⟨hv, ⟨s, rd_eq_ok_iff.1 hs, rfl⟩, rfl⟩

/-- Neither the usage nor an error other than undefined behaviour. -/
def Calm {α : Type} (x : Res (Cmd α)) : Prop := x ≠ .ok .usage ∧ ∀ e, x = .error e → e = .ub

theorem calm_run {α : Type} (a : α) : Calm (.ok (.run a) : Res (Cmd α)) := ⟨by simp, by simp⟩

theorem calm_cmdOf {α β : Type} {x : Option α} {f : α → Res (Cmd β)} (h : ∀ a, Calm (f a)) : Calm (cmdOf x f) := by
  cases x with
  | none => exact ⟨by simp [cmdOf], by simp [cmdOf]⟩
  | some a => exact h a

theorem calm_bind {α β : Type} {x : Res α} {f : α → Res (Cmd β)} (hx : ∀ e, x = .error e → e = .ub) (h : ∀ a, Calm (f a)) : Calm (x >>= f) := by
  cases x with
  | error e => exact ⟨by simp, fun e' he => by cases he; exact hx e rfl⟩
  | ok a => exact h a

theorem rd_onlyUb {α : Type} {a : List α} {i : Nat} : ∀ e, rd a i = .error e → e = .ub := by
  intro e h
  unfold rd at h
  cases hi : a[i]? with
  | none => rw [hi] at h; cases h; rfl
  | some x => rw [hi] at h; cases h

theorem bind_err {α β : Type} {x : Res α} {f : α → Res β} (hx : ∀ e, x = .error e → e = .ub) (h : ∀ a e, f a = .error e → e = .ub) :
    ∀ e, (x >>= f) = .error e → e = .ub := by
  cases x with
  | error e' => intro e he; cases he; exact hx _ rfl
  | ok a => exact h a

theorem numAt_err {argv : List Bytes} {i : Nat} : ∀ e, numAt argv i = .error e → e = .ub :=
  bind_err rd_onlyUb (fun _ _ h => atoi_err h)

theorem floatAt_err {argv : List Bytes} {i : Nat} : ∀ e, floatAt argv i = .error e → e = .ub :=
  bind_err rd_onlyUb (fun _ _ h => by cases h)

theorem optArg_err {argv : List Bytes} {v : Int} {i : Nat} : ∀ e, optArg argv v i = .error e → e = .ub := by
  unfold optArg
  split
  · simp
  · exact bind_err rd_onlyUb (fun _ _ h => by cases h)

/-- What can happen to a command line. -/
structure Outcomes {α : Type} (good : Nat → Prop) (argv : List Bytes) (x : Res (Cmd α)) : Prop where
  usage : x = .ok .usage ↔ ¬ good argv.length
  error : ∀ e, x = .error e → e = .ub

theorem outcomes_of {α : Type} {good : Nat → Prop} {argv : List Bytes} {x : Res (Cmd α)} (h1 : good argv.length → Calm x)
    (h2 : ¬ good argv.length → x = .ok .usage) : Outcomes good argv x := by
  by_cases h : good argv.length
  · exact ⟨⟨fun hx => absurd hx (h1 h).1, fun hx => absurd h hx⟩, (h1 h).2⟩
  · exact ⟨⟨fun _ => h, fun _ => h2 h⟩, fun e he => by rw [h2 h] at he; cases he⟩

/-! ## Building -/

/-- **C83 (build_vamana).** The program begins to work exactly if the command line is one of those that the usage describes, and then with the values that
stand there; with the flag 0 one more argument may follow, which is not looked at.  Negative numbers count from 2^32 downwards. -/
theorem C83_vamana_args (argv : List Bytes) (a : VamanaArgs) : vamanaArgs argv = .ok (.run a) ↔
    (argv.length = 10 ∨ argv.length = 11) ∧ argv[1]? = some (elemWord a.elem) ∧ (∃ s, argv[2]? = some s ∧ MetricWord s a.metric) ∧
    argv[3]? = some a.data ∧ ∃ w k, FlagArg argv 4 w k ∧ a.labels = w.headD [] ∧ argv[k]? = some a.save ∧ UnsArg 32 argv (k + 1) a.R ∧
    UnsArg 32 argv (k + 2) a.L ∧ (∃ t, argv[k + 3]? = some t ∧ a.alpha = atof t) ∧ UnsArg 32 argv (k + 4) a.threads := by
  obtain ⟨elem, metric, data, labels, save, R, L, alpha, threads⟩ := a
  unfold vamanaArgs
  simp only [flag_iff, uns32_iff, ← floatAt_iff]
  split
  · simp
    omega
  · rw [Res.bind_eq_ok]
    simp only [rd_eq_ok_iff, cmdOf_run, Res.bind_eq_ok, elemArg_iff, metricArg_iff, Except.ok.injEq, Cmd.run.injEq, VamanaArgs.mk.injEq]
    constructor
    · rintro ⟨mt, h2, m, hm, da, h3, fl, h4, w, h5, sv, h6, r, h7, l, h8, al, h9, th, h10, ty, h1, e, rfl, rfl, rfl, rfl, rfl, rfl, rfl, rfl, rfl, rfl⟩
      exact ⟨by omega, h1, ⟨mt, h2, hm⟩, h3, w, _, ⟨fl, h4, h5, rfl⟩, rfl, h6, ⟨r, h7, rfl⟩, ⟨l, h8, rfl⟩, h9, th, h10, rfl⟩
    · rintro ⟨-, h1, ⟨mt, h2, hm⟩, h3, w, _, ⟨fl, h4, h5, rfl⟩, rfl, h6, ⟨r, h7, rfl⟩, ⟨l, h8, rfl⟩, h9, th, h10, rfl⟩
      exact ⟨mt, h2, metric, hm, data, h3, fl, h4, w, h5, save, h6, r, h7, l, h8, alpha, h9, th, h10, _, h1, elem, rfl, rfl, rfl, rfl, rfl, rfl, rfl, rfl, rfl, rfl⟩

theorem C83_vamana_outcomes (argv : List Bytes) : Outcomes (fun n => n = 10 ∨ n = 11) argv (vamanaArgs argv) := by
  refine outcomes_of (fun h => ?_) (fun h => by unfold vamanaArgs; rw [if_pos (by omega)])
  unfold vamanaArgs
  rw [if_neg (by omega)]
  refine calm_bind rd_onlyUb (fun _ => calm_cmdOf (fun _ => calm_bind rd_onlyUb (fun _ => calm_bind numAt_err (fun _ => calm_bind optArg_err (fun _ =>
    calm_bind rd_onlyUb (fun _ => calm_bind numAt_err (fun _ => calm_bind numAt_err (fun _ => calm_bind floatAt_err (fun _ => calm_bind numAt_err (fun _ =>
    calm_bind rd_onlyUb (fun _ => calm_cmdOf (fun _ => calm_run _))))))))))))

theorem C83_vamana_refused (argv : List Bytes) (h : vamanaArgs argv = .ok .refused) :
    (∀ s m, argv[2]? = some s → ¬ MetricWord s m) ∨ ∀ e, argv[1]? ≠ some (elemWord e) := by
  unfold vamanaArgs at h
  split at h
  · cases h
  obtain ⟨mt, h2, h⟩ := Res.bind_eq_ok.1 h
  rcases cmdOf_ok.1 h with ⟨h, -⟩ | ⟨m, -, h⟩
  · left
    intro s m hs hm
    rw [rd_eq_ok_iff.1 h2] at hs
    cases hs
    rw [metricArg_iff.2 hm] at h
    cases h
  right
  simp only [Res.bind_eq_ok] at h
  obtain ⟨_, _, _, _, _, _, _, _, _, _, _, _, _, _, _, _, ty, h1, h'⟩ := h
  rcases cmdOf_ok.1 h' with ⟨h3, -⟩ | ⟨e, -, h3⟩
  · intro e he
    rw [rd_eq_ok_iff.1 h1] at he
    cases he
    rw [elemArg_iff.2 rfl] at h3
    cases h3
  · cases h3

/-- **C83 (build_vamana without label file name).** Ten arguments, known metric, and a flag that is not 0: the program reads an argument that is not there. -/
theorem C83_vamana_missing (argv : List Bytes) (hlen : argv.length = 10) (hm : ∃ s m, argv[2]? = some s ∧ MetricWord s m)
    (hflag : ¬ NumArg argv 4 0) : vamanaArgs argv = .error .ub := by
  have hno : ∀ c, vamanaArgs argv ≠ .ok c := by
    intro c h
    unfold vamanaArgs at h
    rw [if_neg (by omega)] at h
    obtain ⟨mt, h2, h⟩ := Res.bind_eq_ok.1 h
    obtain ⟨s, m, hs, hw⟩ := hm
    rw [rd_eq_ok_iff, hs] at h2
    cases h2
    rw [metricArg_iff.2 hw] at h
    simp only [cmdOf, Res.bind_eq_ok] at h
    obtain ⟨-, -, fl, h4, w, h5, -, -, -, -, -, -, -, -, th, h10, -⟩ := h
    have hfl : fl ≠ 0 := fun h0 => hflag (numAt_iff.1 (h0 ▸ h4))
    unfold optArg at h5
    rw [if_neg hfl] at h5
    obtain ⟨x, -, h5⟩ := Res.bind_eq_ok.1 h5
    cases h5
    unfold numAt at h10
    rw [rd_ub (by rw [hlen]; simp)] at h10
    cases h10
  cases h : vamanaArgs argv with
  | ok c => exact absurd h (hno c)
  | error e => rw [(C83_vamana_outcomes argv).error e h]

theorem rd_extra {α : Type} {l : List α} {x : α} {i : Nat} (h : i < l.length) : rd (l ++ [x]) i = rd l i := by
  unfold rd
  rw [List.getElem?_append_left h]

theorem numAt_extra {l : List Bytes} {x : Bytes} {i : Nat} (h : i < l.length) : numAt (l ++ [x]) i = numAt l i := by
  unfold numAt
  rw [rd_extra h]

theorem floatAt_extra {l : List Bytes} {x : Bytes} {i : Nat} (h : i < l.length) : floatAt (l ++ [x]) i = floatAt l i := by
  unfold floatAt
  rw [rd_extra h]

/-- **C83 (build_vamana with an argument too many).** With the flag 0 an eleventh argument is ignored. -/
theorem C83_vamana_extra (argv : List Bytes) (hlen : argv.length = 10) (hflag : NumArg argv 4 0) (x : Bytes) :
    vamanaArgs (argv ++ [x]) = vamanaArgs argv := by
  unfold vamanaArgs
  rw [if_neg (by simp [hlen]), if_neg (by omega), rd_extra (by omega), rd_extra (by omega), numAt_extra (by omega), numAt_iff.2 hflag]
  simp only [Res.ok_bind, optArg, if_true, List.length_nil, Nat.add_zero, Nat.reduceAdd]
  rw [rd_extra (by omega), numAt_extra (by omega), numAt_extra (by omega), floatAt_extra (by omega), numAt_extra (by omega), rd_extra (by omega)]

/-- **C83 (build_hnsw).** -/
theorem C83_hnsw_args (argv : List Bytes) (a : HnswArgs) : hnswArgs argv = .ok (.run a) ↔
    argv.length = 11 ∧ argv[1]? = some (elemWord a.elem) ∧ (∃ s, argv[2]? = some s ∧ MetricWord s a.metric) ∧
    argv[3]? = some a.data ∧ argv[4]? = some a.save ∧ UnsArg 32 argv 5 a.R ∧ UnsArg 32 argv 6 a.L ∧ UnsArg 32 argv 7 a.pruningRule ∧
    (∃ t, argv[8]? = some t ∧ a.samplingRate = atof t) ∧ UnsArg 32 argv 9 a.levels ∧ UnsArg 32 argv 10 a.threads := by
  obtain ⟨elem, metric, data, save, R, L, pr, sr, lv, threads⟩ := a
  unfold hnswArgs
  simp only [uns32_iff, ← floatAt_iff]
  split
  · simp
    omega
  · rw [Res.bind_eq_ok]
    simp only [rd_eq_ok_iff, cmdOf_run, Res.bind_eq_ok, elemArg_iff, metricArg_iff, Except.ok.injEq, Cmd.run.injEq, HnswArgs.mk.injEq]
    constructor
    · rintro ⟨mt, h2, m, hm, da, h3, sv, h4, r, h5, l, h6, p, h7, al, h8, le, h9, th, h10, ty, h1, e, rfl, rfl, rfl, rfl, rfl, rfl, rfl, rfl, rfl, rfl, rfl⟩
      exact ⟨by omega, h1, ⟨mt, h2, hm⟩, h3, h4, ⟨r, h5, rfl⟩, ⟨l, h6, rfl⟩, ⟨p, h7, rfl⟩, h8, ⟨le, h9, rfl⟩, th, h10, rfl⟩
    · rintro ⟨-, h1, ⟨mt, h2, hm⟩, h3, h4, ⟨r, h5, rfl⟩, ⟨l, h6, rfl⟩, ⟨p, h7, rfl⟩, h8, ⟨le, h9, rfl⟩, th, h10, rfl⟩
      exact ⟨mt, h2, metric, hm, data, h3, save, h4, r, h5, l, h6, p, h7, sr, h8, le, h9, th, h10, _, h1, elem, rfl, rfl, rfl, rfl, rfl, rfl, rfl, rfl, rfl, rfl, rfl⟩

theorem C83_hnsw_outcomes (argv : List Bytes) : Outcomes (fun n => n = 11) argv (hnswArgs argv) := by
  refine outcomes_of (fun h => ?_) (fun h => by unfold hnswArgs; rw [if_pos (by omega)])
  unfold hnswArgs
  rw [if_neg (by omega)]
  refine calm_bind rd_onlyUb (fun _ => calm_cmdOf (fun _ => calm_bind rd_onlyUb (fun _ => calm_bind rd_onlyUb (fun _ => calm_bind numAt_err (fun _ =>
    calm_bind numAt_err (fun _ => calm_bind numAt_err (fun _ => calm_bind floatAt_err (fun _ => calm_bind numAt_err (fun _ => calm_bind numAt_err (fun _ =>
    calm_bind rd_onlyUb (fun _ => calm_cmdOf (fun _ => calm_run _))))))))))))

/-- **C83 (levels).** The constructor is given one less than the number of levels; 0 becomes the largest 32-bit number. -/
theorem C83_levels (n : Nat) (h : n < 4294967296) : topLevel n = if n = 0 then 4294967295 else n - 1 := by
  unfold topLevel u32
  split <;> omega

/-- **C83 (build_relng).** -/
theorem C83_relng_args (argv : List Bytes) (a : RngArgs) : rngArgs argv = .ok (.run a) ↔
    argv.length = 6 ∧ argv[1]? = some (elemWord a.elem) ∧ (∃ s, argv[2]? = some s ∧ MetricWord s a.metric) ∧
    argv[3]? = some a.data ∧ argv[4]? = some a.save ∧ UnsArg 32 argv 5 a.threads := by
  obtain ⟨elem, metric, data, save, threads⟩ := a
  unfold rngArgs
  simp only [uns32_iff]
  split
  · simp
    omega
  · rw [Res.bind_eq_ok]
    simp only [rd_eq_ok_iff, cmdOf_run, Res.bind_eq_ok, elemArg_iff, metricArg_iff, Except.ok.injEq, Cmd.run.injEq, RngArgs.mk.injEq]
    constructor
    · rintro ⟨mt, h2, m, hm, da, h3, sv, h4, th, h5, ty, h1, e, rfl, rfl, rfl, rfl, rfl, rfl⟩
      exact ⟨by omega, h1, ⟨mt, h2, hm⟩, h3, h4, th, h5, rfl⟩
    · rintro ⟨-, h1, ⟨mt, h2, hm⟩, h3, h4, th, h5, rfl⟩
      exact ⟨mt, h2, metric, hm, data, h3, save, h4, th, h5, _, h1, elem, rfl, rfl, rfl, rfl, rfl, rfl⟩

theorem C83_relng_outcomes (argv : List Bytes) : Outcomes (fun n => n = 6) argv (rngArgs argv) := by
  refine outcomes_of (fun h => ?_) (fun h => by unfold rngArgs; rw [if_pos (by omega)])
  unfold rngArgs
  rw [if_neg (by omega)]
  refine calm_bind rd_onlyUb (fun _ => calm_cmdOf (fun _ => calm_bind rd_onlyUb (fun _ => calm_bind rd_onlyUb (fun _ => calm_bind numAt_err (fun _ =>
    calm_bind rd_onlyUb (fun _ => calm_cmdOf (fun _ => calm_run _)))))))

theorem listArgs_iff {X : Type} (last : List Bytes → Nat → Res X) (argv : List Bytes) (a : ListArgs X) : listArgs last argv = .ok (.run a) ↔
    (argv.length = 7 ∨ argv.length = 8) ∧ argv[1]? = some (elemWord a.elem) ∧ argv[2]? = some a.data ∧
    ∃ w k, FlagArg argv 3 w k ∧ a.labels = w.headD [] ∧ argv[k]? = some a.save ∧ UnsArg 32 argv (k + 1) a.num ∧
    last argv (k + 2) = .ok a.last := by
  obtain ⟨elem, data, labels, save, num, x⟩ := a
  unfold listArgs
  simp only [flag_iff, uns32_iff]
  split
  · simp
    omega
  · simp only [rd_eq_ok_iff, cmdOf_run, Res.bind_eq_ok, elemArg_iff, Except.ok.injEq, Cmd.run.injEq, ListArgs.mk.injEq]
    constructor
    · rintro ⟨da, h2, fl, h3, w, h4, sv, h5, n, h6, y, h7, ty, h1, e, rfl, rfl, rfl, rfl, rfl, rfl, rfl⟩
      exact ⟨by omega, h1, h2, w, _, ⟨fl, h3, h4, rfl⟩, rfl, h5, ⟨n, h6, rfl⟩, h7⟩
    · rintro ⟨-, h1, h2, w, _, ⟨fl, h3, h4, rfl⟩, rfl, h5, ⟨n, h6, rfl⟩, h7⟩
      exact ⟨data, h2, fl, h3, w, h4, save, h5, n, h6, x, h7, _, h1, elem, rfl, rfl, rfl, rfl, rfl, rfl, rfl⟩

theorem listArgs_outcomes {X : Type} (last : List Bytes → Nat → Res X) (hl : ∀ argv i e, last argv i = .error e → e = .ub) (argv : List Bytes) :
    Outcomes (fun n => n = 7 ∨ n = 8) argv (listArgs last argv) := by
  refine outcomes_of (fun h => ?_) (fun h => by unfold listArgs; rw [if_pos (by omega)])
  unfold listArgs
  rw [if_neg (by omega)]
  refine calm_bind rd_onlyUb (fun _ => calm_bind numAt_err (fun _ => calm_bind optArg_err (fun _ => calm_bind rd_onlyUb (fun _ => calm_bind numAt_err (fun _ =>
    calm_bind (hl _ _) (fun _ => calm_bind rd_onlyUb (fun _ => calm_cmdOf (fun _ => calm_run _))))))))

/-- **C83 (build_ivf).** The last argument is the training rate. -/
theorem C83_ivf_args (argv : List Bytes) (a : ListArgs F32) : ivfArgs argv = .ok (.run a) ↔
    (argv.length = 7 ∨ argv.length = 8) ∧ argv[1]? = some (elemWord a.elem) ∧ argv[2]? = some a.data ∧
    ∃ w k, FlagArg argv 3 w k ∧ a.labels = w.headD [] ∧ argv[k]? = some a.save ∧ UnsArg 32 argv (k + 1) a.num ∧
    ∃ t, argv[k + 2]? = some t ∧ a.last = atof t := by
  unfold ivfArgs
  rw [listArgs_iff]
  simp only [floatAt_iff]

theorem C83_ivf_outcomes (argv : List Bytes) : Outcomes (fun n => n = 7 ∨ n = 8) argv (ivfArgs argv) :=
  listArgs_outcomes floatAt (fun _ _ => floatAt_err) argv

/-- **C83 (build_lsh).** The last argument is the size of the tables. -/
theorem C83_lsh_args (argv : List Bytes) (a : ListArgs Nat) : lshArgs argv = .ok (.run a) ↔
    (argv.length = 7 ∨ argv.length = 8) ∧ argv[1]? = some (elemWord a.elem) ∧ argv[2]? = some a.data ∧
    ∃ w k, FlagArg argv 3 w k ∧ a.labels = w.headD [] ∧ argv[k]? = some a.save ∧ UnsArg 32 argv (k + 1) a.num ∧ UnsArg 32 argv (k + 2) a.last := by
  unfold lshArgs
  rw [listArgs_iff]
  simp only [Res.bind_eq_ok, Except.ok.injEq, uns32_iff]

theorem C83_lsh_outcomes (argv : List Bytes) : Outcomes (fun n => n = 7 ∨ n = 8) argv (lshArgs argv) :=
  listArgs_outcomes _ (fun _ _ => bind_err numAt_err (fun _ _ h => by cases h)) argv

/-- **C83 (build_ivf and build_lsh without label file name).** -/
theorem C83_list_missing (argv : List Bytes) (hlen : argv.length = 7) (hflag : ¬ NumArg argv 3 0) :
    ivfArgs argv = .error .ub ∧ lshArgs argv = .error .ub := by
  have key : ∀ {X : Type} (last : List Bytes → Nat → Res X), (∀ argv i e, last argv i = .error e → e = .ub) → (∀ x, last argv 7 ≠ .ok x) →
      listArgs last argv = .error .ub := by
    intro X last hl hl'
    have hno : ∀ c, listArgs last argv ≠ .ok c := by
      intro c h
      unfold listArgs at h
      rw [if_neg (by omega)] at h
      simp only [Res.bind_eq_ok] at h
      obtain ⟨-, -, fl, h4, w, h5, -, -, -, -, x, h7, -⟩ := h
      have hfl : fl ≠ 0 := fun h0 => hflag (numAt_iff.1 (h0 ▸ h4))
      unfold optArg at h5
      rw [if_neg hfl] at h5
      obtain ⟨y, -, h5⟩ := Res.bind_eq_ok.1 h5
      cases h5
      exact hl' x h7
    cases h : listArgs last argv with
    | ok c => exact absurd h (hno c)
    | error e => rw [(listArgs_outcomes last hl argv).error e h]
  have hnone : argv[7]? = none := List.getElem?_eq_none (by omega)
  refine ⟨key _ (fun _ _ => floatAt_err) ?_, key _ (fun _ _ => bind_err numAt_err (fun _ _ h => by cases h)) ?_⟩
  · intro x h
    obtain ⟨t, h, -⟩ := floatAt_iff.1 h
    rw [hnone] at h
    cases h
  · intro x h
    obtain ⟨v, h, -⟩ := Res.bind_eq_ok.1 h
    obtain ⟨t, h, -⟩ := numAt_iff.1 h
    rw [hnone] at h
    cases h

/-! ## Searching -/

/-- The remaining arguments are numbers, used as unsigned numbers of 64 bits. -/
def RestArgs (argv : List Bytes) (i : Nat) (Ls : List Nat) : Prop :=
  List.Forall₂ (fun s (x : Nat) => ∃ v, Spec.NumText s v ∧ Spec.IsInt v ∧ (x : Int) = Spec.unsigned 64 v) (argv.drop i) Ls

theorem restArgs_iff {argv : List Bytes} {i : Nat} {Ls : List Nat} : restArgs argv i = .ok Ls ↔ RestArgs argv i Ls := by
  unfold restArgs RestArgs
  induction argv.drop i generalizing Ls with
  | nil =>
    rw [List.mapM_nil, List.forall₂_nil_left_iff]
    simp [eq_comm]
  | cons s l ih =>
    rw [List.mapM_cons, List.forall₂_cons_left_iff]
    simp only [Res.bind_eq_ok, Res.pure_eq, Except.ok.injEq, atoi_ok_iff]
    constructor
    · rintro ⟨x, ⟨v, hv, rfl⟩, xs, hxs, rfl⟩
      exact ⟨_, _, ⟨v, hv.1, hv.2, wrap64_eq hv.2⟩, ih.1 hxs, rfl⟩
    · rintro ⟨x, xs, ⟨v, h1, h2, h3⟩, h4, rfl⟩
      exact ⟨x, ⟨v, ⟨h1, h2⟩, (wrap64_iff h2).2 h3⟩, xs, ih.2 h4, rfl⟩

theorem restArgs_err {argv : List Bytes} {i : Nat} : ∀ e, restArgs argv i = .error e → e = .ub := by
  unfold restArgs
  induction argv.drop i with
  | nil => intro e h; rw [List.mapM_nil] at h; cases h
  | cons s l ih =>
    rw [List.mapM_cons]
    exact bind_err (bind_err (fun _ h => atoi_err h) (fun _ _ h => by cases h)) (fun _ => bind_err ih (fun _ _ h => by cases h))

/-- **C83 (search_vamana).** -/
theorem C83_search_vamana (argv : List Bytes) (a : SearchArgs) : searchVamanaArgs argv = .ok (.run a) ↔
    11 ≤ argv.length ∧ argv[1]? = some (elemWord a.elem) ∧ (∃ s, argv[2]? = some s ∧ MetricWord s a.metric) ∧ argv[3]? = some a.index ∧
    (∃ v, NumArg argv 4 v) ∧ argv[5]? = some a.query ∧ argv[6]? = some a.truth ∧ UnsArg 64 argv 7 a.K ∧ argv[8]? = some a.pre ∧
    (∃ k, FlagArg argv 9 a.filters k ∧ RestArgs argv k a.Ls) ∧ a.data = [] ∧ a.levels = 1 := by
  obtain ⟨elem, metric, data, index, levels, query, truth, K, pre, filters, Ls⟩ := a
  unfold searchVamanaArgs
  simp only [flag_iff, uns64_iff, ← restArgs_iff, ← numAt_iff]
  split
  · simp
    omega
  · simp only [rd_eq_ok_iff, cmdOf_run, Res.bind_eq_ok, elemArg_iff, metricArg_iff, Except.ok.injEq, Cmd.run.injEq, SearchArgs.mk.injEq]
    constructor
    · rintro ⟨ty, h1, e, rfl, mt, h2, m, hm, ix, h3, t, h4, q, h5, g, h6, k, h7, p, h8, fl, h9, w, h10, ls, h11, rfl, rfl, rfl, rfl, rfl, rfl, rfl, rfl, rfl,
        rfl, rfl⟩
      exact ⟨by omega, h1, ⟨mt, h2, hm⟩, h3, ⟨t, h4⟩, h5, h6, ⟨k, h7, rfl⟩, h8, ⟨_, ⟨fl, h9, h10, rfl⟩, h11⟩, rfl, rfl⟩
    · rintro ⟨-, h1, ⟨mt, h2, hm⟩, h3, ⟨t, h4⟩, h5, h6, ⟨k, h7, rfl⟩, h8, ⟨_, ⟨fl, h9, h10, rfl⟩, h11⟩, rfl, rfl⟩
      exact ⟨_, h1, elem, rfl, mt, h2, metric, hm, index, h3, t, h4, query, h5, truth, h6, k, h7, pre, h8, fl, h9, filters, h10, Ls, h11, rfl, rfl, rfl, rfl,
        rfl, rfl, rfl, rfl, rfl, rfl, rfl⟩

theorem C83_search_vamana_outcomes (argv : List Bytes) : Outcomes (fun n => 11 ≤ n) argv (searchVamanaArgs argv) := by
  refine outcomes_of (fun h => ?_) (fun h => by unfold searchVamanaArgs; rw [if_pos (by omega)])
  unfold searchVamanaArgs
  rw [if_neg (by omega)]
  refine calm_bind rd_onlyUb (fun _ => calm_cmdOf (fun _ => calm_bind rd_onlyUb (fun _ => calm_cmdOf (fun _ => calm_bind rd_onlyUb (fun _ => calm_bind numAt_err (fun _ =>
    calm_bind rd_onlyUb (fun _ => calm_bind rd_onlyUb (fun _ => calm_bind numAt_err (fun _ => calm_bind rd_onlyUb (fun _ => calm_bind numAt_err (fun _ =>
    calm_bind optArg_err (fun _ => calm_bind restArgs_err (fun _ => calm_run _)))))))))))))

/-- **C83 (search_hnsw).** -/
theorem C83_search_hnsw (argv : List Bytes) (a : SearchArgs) : searchHnswArgs argv = .ok (.run a) ↔
    11 ≤ argv.length ∧ argv[1]? = some (elemWord a.elem) ∧ (∃ s, argv[2]? = some s ∧ MetricWord s a.metric) ∧ argv[3]? = some a.index ∧
    UnsArg 32 argv 4 a.levels ∧ (∃ v, NumArg argv 5 v) ∧ argv[6]? = some a.query ∧ argv[7]? = some a.truth ∧ UnsArg 64 argv 8 a.K ∧
    argv[9]? = some a.pre ∧ RestArgs argv 10 a.Ls ∧ a.filters = [] ∧ a.data = [] := by
  obtain ⟨elem, metric, data, index, levels, query, truth, K, pre, filters, Ls⟩ := a
  unfold searchHnswArgs
  simp only [uns64_iff, uns32_iff, ← restArgs_iff, ← numAt_iff]
  split
  · simp
    omega
  · simp only [rd_eq_ok_iff, cmdOf_run, Res.bind_eq_ok, elemArg_iff, metricArg_iff, Except.ok.injEq, Cmd.run.injEq, SearchArgs.mk.injEq]
    constructor
    · rintro ⟨ty, h1, e, rfl, mt, h2, m, hm, ix, h3, lv, h4, t, h5, q, h6, g, h7, k, h8, p, h9, ls, h11, rfl, rfl, rfl, rfl, rfl, rfl, rfl, rfl, rfl,
        rfl, rfl⟩
      exact ⟨by omega, h1, ⟨mt, h2, hm⟩, h3, ⟨lv, h4, rfl⟩, ⟨t, h5⟩, h6, h7, ⟨k, h8, rfl⟩, h9, h11, rfl, rfl⟩
    · rintro ⟨-, h1, ⟨mt, h2, hm⟩, h3, ⟨lv, h4, rfl⟩, ⟨t, h5⟩, h6, h7, ⟨k, h8, rfl⟩, h9, h11, rfl, rfl⟩
      exact ⟨_, h1, elem, rfl, mt, h2, metric, hm, index, h3, lv, h4, t, h5, query, h6, truth, h7, k, h8, pre, h9, Ls, h11, rfl, rfl, rfl, rfl,
        rfl, rfl, rfl, rfl, rfl, rfl, rfl⟩

theorem C83_search_hnsw_outcomes (argv : List Bytes) : Outcomes (fun n => 11 ≤ n) argv (searchHnswArgs argv) := by
  refine outcomes_of (fun h => ?_) (fun h => by unfold searchHnswArgs; rw [if_pos (by omega)])
  unfold searchHnswArgs
  rw [if_neg (by omega)]
  refine calm_bind rd_onlyUb (fun _ => calm_cmdOf (fun _ => calm_bind rd_onlyUb (fun _ => calm_cmdOf (fun _ => calm_bind rd_onlyUb (fun _ => calm_bind numAt_err (fun _ =>
    calm_bind numAt_err (fun _ => calm_bind rd_onlyUb (fun _ => calm_bind rd_onlyUb (fun _ => calm_bind numAt_err (fun _ => calm_bind rd_onlyUb (fun _ =>
    calm_bind restArgs_err (fun _ => calm_run _))))))))))))

/-- **C83 (search_relng).** -/
theorem C83_search_relng (argv : List Bytes) (a : SearchArgs) : searchRngArgs argv = .ok (.run a) ↔
    11 ≤ argv.length ∧ argv[1]? = some (elemWord a.elem) ∧ (∃ s, argv[2]? = some s ∧ MetricWord s a.metric) ∧ argv[3]? = some a.data ∧
    argv[4]? = some a.index ∧ (∃ v, NumArg argv 5 v) ∧ argv[6]? = some a.query ∧ argv[7]? = some a.truth ∧ UnsArg 64 argv 8 a.K ∧
    argv[9]? = some a.pre ∧ RestArgs argv 10 a.Ls ∧ a.filters = [] ∧ a.levels = 1 := by
  obtain ⟨elem, metric, data, index, levels, query, truth, K, pre, filters, Ls⟩ := a
  unfold searchRngArgs
  simp only [uns64_iff, ← restArgs_iff, ← numAt_iff]
  split
  · simp
    omega
  · simp only [rd_eq_ok_iff, cmdOf_run, Res.bind_eq_ok, elemArg_iff, metricArg_iff, Except.ok.injEq, Cmd.run.injEq, SearchArgs.mk.injEq]
    constructor
    · rintro ⟨ty, h1, e, rfl, mt, h2, m, hm, da, h3, ix, h4, t, h5, q, h6, g, h7, k, h8, p, h9, ls, h11, rfl, rfl, rfl, rfl, rfl, rfl, rfl, rfl, rfl,
        rfl, rfl⟩
      exact ⟨by omega, h1, ⟨mt, h2, hm⟩, h3, h4, ⟨t, h5⟩, h6, h7, ⟨k, h8, rfl⟩, h9, h11, rfl, rfl⟩
    · rintro ⟨-, h1, ⟨mt, h2, hm⟩, h3, h4, ⟨t, h5⟩, h6, h7, ⟨k, h8, rfl⟩, h9, h11, rfl, rfl⟩
      exact ⟨_, h1, elem, rfl, mt, h2, metric, hm, data, h3, index, h4, t, h5, query, h6, truth, h7, k, h8, pre, h9, Ls, h11, rfl, rfl, rfl, rfl,
        rfl, rfl, rfl, rfl, rfl, rfl, rfl⟩

theorem C83_search_relng_outcomes (argv : List Bytes) : Outcomes (fun n => 11 ≤ n) argv (searchRngArgs argv) := by
  refine outcomes_of (fun h => ?_) (fun h => by unfold searchRngArgs; rw [if_pos (by omega)])
  unfold searchRngArgs
  rw [if_neg (by omega)]
  refine calm_bind rd_onlyUb (fun _ => calm_cmdOf (fun _ => calm_bind rd_onlyUb (fun _ => calm_cmdOf (fun _ => calm_bind rd_onlyUb (fun _ => calm_bind rd_onlyUb (fun _ =>
    calm_bind numAt_err (fun _ => calm_bind rd_onlyUb (fun _ => calm_bind rd_onlyUb (fun _ => calm_bind numAt_err (fun _ => calm_bind rd_onlyUb (fun _ =>
    calm_bind restArgs_err (fun _ => calm_run _))))))))))))

theorem searchListArgs_iff (n : Nat) (f : List Bytes → Nat → Res (List Nat)) (argv : List Bytes) (a : SearchArgs) :
    searchListArgs n f argv = .ok (.run a) ↔
    n ≤ argv.length ∧ argv[1]? = some (elemWord a.elem) ∧ argv[2]? = some a.index ∧ (∃ v, NumArg argv 3 v) ∧
    argv[4]? = some a.query ∧ argv[5]? = some a.truth ∧ UnsArg 64 argv 6 a.K ∧ argv[7]? = some a.pre ∧
    (∃ k, FlagArg argv 8 a.filters k ∧ f argv k = .ok a.Ls) ∧ a.metric = .l2 ∧ a.data = [] ∧ a.levels = 1 := by
  obtain ⟨elem, metric, data, index, levels, query, truth, K, pre, filters, Ls⟩ := a
  unfold searchListArgs
  simp only [flag_iff, uns64_iff, ← numAt_iff]
  split
  · simp
    omega
  · simp only [rd_eq_ok_iff, cmdOf_run, Res.bind_eq_ok, elemArg_iff, Except.ok.injEq, Cmd.run.injEq, SearchArgs.mk.injEq]
    constructor
    · rintro ⟨ty, h1, e, rfl, ix, h2, t, h3, q, h4, g, h5, k, h6, p, h7, fl, h8, w, h9, ls, h11, rfl, rfl, rfl, rfl, rfl, rfl, rfl, rfl, rfl, rfl, rfl⟩
      exact ⟨by omega, h1, h2, ⟨t, h3⟩, h4, h5, ⟨k, h6, rfl⟩, h7, ⟨_, ⟨fl, h8, h9, rfl⟩, h11⟩, rfl, rfl, rfl⟩
    · rintro ⟨-, h1, h2, ⟨t, h3⟩, h4, h5, ⟨k, h6, rfl⟩, h7, ⟨_, ⟨fl, h8, h9, rfl⟩, h11⟩, rfl, rfl, rfl⟩
      exact ⟨_, h1, elem, rfl, index, h2, t, h3, query, h4, truth, h5, k, h6, pre, h7, fl, h8, filters, h9, Ls, h11, rfl, rfl, rfl, rfl,
        rfl, rfl, rfl, rfl, rfl, rfl, rfl⟩

theorem searchListArgs_outcomes (n : Nat) (f : List Bytes → Nat → Res (List Nat)) (hf : ∀ argv i e, f argv i = .error e → e = .ub) (argv : List Bytes) :
    Outcomes (fun m => n ≤ m) argv (searchListArgs n f argv) := by
  refine outcomes_of (fun h => ?_) (fun h => by unfold searchListArgs; rw [if_pos (by omega)])
  unfold searchListArgs
  rw [if_neg (by omega)]
  refine calm_bind rd_onlyUb (fun _ => calm_cmdOf (fun _ => calm_bind rd_onlyUb (fun _ => calm_bind numAt_err (fun _ => calm_bind rd_onlyUb (fun _ =>
    calm_bind rd_onlyUb (fun _ => calm_bind numAt_err (fun _ => calm_bind rd_onlyUb (fun _ => calm_bind numAt_err (fun _ => calm_bind optArg_err (fun _ =>
    calm_bind (hf _ _) (fun _ => calm_run _)))))))))))

/-- **C83 (search_ivf).** -/
theorem C83_search_ivf (argv : List Bytes) (a : SearchArgs) : searchIvfArgs argv = .ok (.run a) ↔
    10 ≤ argv.length ∧ argv[1]? = some (elemWord a.elem) ∧ argv[2]? = some a.index ∧ (∃ v, NumArg argv 3 v) ∧
    argv[4]? = some a.query ∧ argv[5]? = some a.truth ∧ UnsArg 64 argv 6 a.K ∧ argv[7]? = some a.pre ∧
    (∃ k, FlagArg argv 8 a.filters k ∧ RestArgs argv k a.Ls) ∧ a.metric = .l2 ∧ a.data = [] ∧ a.levels = 1 := by
  unfold searchIvfArgs
  simp only [searchListArgs_iff, restArgs_iff]

theorem C83_search_ivf_outcomes (argv : List Bytes) : Outcomes (fun n => 10 ≤ n) argv (searchIvfArgs argv) :=
  searchListArgs_outcomes 10 restArgs (fun _ _ => restArgs_err) argv

/-- **C83 (search_lsh).** The search parameter is always 1; further arguments are not looked at. -/
theorem C83_search_lsh (argv : List Bytes) (a : SearchArgs) : searchLshArgs argv = .ok (.run a) ↔
    9 ≤ argv.length ∧ argv[1]? = some (elemWord a.elem) ∧ argv[2]? = some a.index ∧ (∃ v, NumArg argv 3 v) ∧
    argv[4]? = some a.query ∧ argv[5]? = some a.truth ∧ UnsArg 64 argv 6 a.K ∧ argv[7]? = some a.pre ∧
    (∃ k, FlagArg argv 8 a.filters k) ∧ a.Ls = [1] ∧ a.metric = .l2 ∧ a.data = [] ∧ a.levels = 1 := by
  unfold searchLshArgs
  rw [searchListArgs_iff]
  simp only [Except.ok.injEq, exists_and_right, @eq_comm _ [1], and_assoc]

theorem C83_search_lsh_outcomes (argv : List Bytes) : Outcomes (fun n => 9 ≤ n) argv (searchLshArgs argv) :=
  searchListArgs_outcomes 9 _ (fun _ _ _ h => by cases h) argv

/-- **C83 (search_lsh without filter).** Nine arguments are accepted, but if the flag is not 0, an argument is read that is not there. -/
theorem C83_search_lsh_missing (argv : List Bytes) (hlen : argv.length = 9) (e : Elem) (he : argv[1]? = some (elemWord e)) (hflag : ¬ NumArg argv 8 0) :
    searchLshArgs argv = .error .ub := by
  have hno : ∀ c, searchLshArgs argv ≠ .ok c := by
    intro c h
    unfold searchLshArgs searchListArgs at h
    rw [if_neg (by omega), rd_eq_ok_iff.2 he, Res.ok_bind, elemArg_iff.2 rfl] at h
    simp only [cmdOf, Res.bind_eq_ok] at h
    obtain ⟨-, -, -, -, -, -, -, -, -, -, -, -, fl, h8, w, h9, -⟩ := h
    have hfl : fl ≠ 0 := fun h0 => hflag (numAt_iff.1 (h0 ▸ h8))
    unfold optArg at h9
    rw [if_neg hfl, rd_ub (by omega)] at h9
    cases h9
  cases h : searchLshArgs argv with
  | ok c => exact absurd h (hno c)
  | error e => rw [(C83_search_lsh_outcomes argv).error e h]

/-! ## Command lines -/

def cmdWords (l : List String) : List Bytes := l.map ascii

/-- The command line of a Vamana index without labels, one with labels, and one where the name of the label file is missing. -/
example : vamanaArgs (cmdWords ["b", "float", "l2", "d", "0", "i", "32", "50", "1.2", "8"]) =
      .ok (.run ⟨.float, .l2, ascii "d", [], ascii "i", 32, 50, ⟨0x3f99999a#32⟩, 8⟩) ∧
    vamanaArgs (cmdWords ["b", "float", "l2", "d", "1", "t", "i", "-32", "50", "1.2", "8"]) =
      .ok (.run ⟨.float, .l2, ascii "d", ascii "t", ascii "i", 4294967264, 50, ⟨0x3f99999a#32⟩, 8⟩) ∧
    vamanaArgs (cmdWords ["b", "float", "l2", "d", "1", "i", "32", "50", "1.2", "8"]) = .error .ub ∧
    vamanaArgs (cmdWords ["b", "double", "l2", "d", "0", "i", "32", "50", "1.2", "8"]) = .ok .refused ∧
    vamanaArgs (cmdWords ["b", "float", "l2"]) = .ok .usage := by
  decide +kernel

/-! ## The theorems applied to the examples -/

/-- The other programs that build: numbers that are not numbers count as 0. -/
example : hnswArgs (cmdWords ["b", "int8", "l2", "d", "i", "16", "50", "1", "0.5", "3", "8"]) =
      .ok (.run ⟨.int8, .l2, ascii "d", ascii "i", 16, 50, 1, ⟨0x3f000000#32⟩, 3, 8⟩) ∧
    rngArgs (cmdWords ["b", "uint8", "l2", "d", "i", "x"]) = .ok (.run ⟨.uint8, .l2, ascii "d", ascii "i", 0⟩) ∧
    ivfArgs (cmdWords ["b", "float", "d", "1", "t", "i", "10", "0.5"]) =
      .ok (.run ⟨.float, ascii "d", ascii "t", ascii "i", 10, ⟨0x3f000000#32⟩⟩) ∧
    lshArgs (cmdWords ["b", "float", "d", "0", "i", "10", "20"]) =
      .ok (.run ⟨.float, ascii "d", [], ascii "i", 10, 20⟩) ∧
    ivfArgs (cmdWords ["b", "float", "d", "1", "i", "10", "0.5"]) = .error .ub := by
  decide +kernel

/-- The programs that search. -/
example : searchVamanaArgs (cmdWords ["s", "float", "l2", "i", "4", "q", "g", "10", "r", "1", "f", "20", "30"]) =
      .ok (.run { elem := .float, metric := .l2, index := ascii "i", query := ascii "q", truth := ascii "g", K := 10,
                  pre := ascii "r", filters := [ascii "f"], Ls := [20, 30], data := [], levels := 1 }) ∧
    searchHnswArgs (cmdWords ["s", "float", "l2", "i", "3", "4", "q", "g", "10", "r", "20"]) =
      .ok (.run { elem := .float, metric := .l2, index := ascii "i", query := ascii "q", truth := ascii "g", K := 10,
                  pre := ascii "r", filters := [], Ls := [20], data := [], levels := 3 }) ∧
    searchRngArgs (cmdWords ["s", "float", "l2", "d", "i", "4", "q", "g", "10", "r", "20"]) =
      .ok (.run { elem := .float, metric := .l2, index := ascii "i", query := ascii "q", truth := ascii "g", K := 10,
                  pre := ascii "r", filters := [], Ls := [20], data := ascii "d", levels := 1 }) ∧
    searchIvfArgs (cmdWords ["s", "float", "i", "4", "q", "g", "10", "r", "0", "20"]) =
      .ok (.run { elem := .float, metric := .l2, index := ascii "i", query := ascii "q", truth := ascii "g", K := 10,
                  pre := ascii "r", filters := [], Ls := [20], data := [], levels := 1 }) ∧
    searchLshArgs (cmdWords ["s", "float", "i", "4", "q", "g", "10", "r", "0"]) =
      .ok (.run { elem := .float, metric := .l2, index := ascii "i", query := ascii "q", truth := ascii "g", K := 10,
                  pre := ascii "r", filters := [], Ls := [1], data := [], levels := 1 }) ∧
    searchLshArgs (cmdWords ["s", "float", "i", "4", "q", "g", "10", "r", "1"]) = .error .ub := by
  decide +kernel

example := (C83_vamana_args (cmdWords ["b", "float", "l2", "d", "0", "i", "32", "50", "1.2", "8"]) _).1
  (by decide +kernel : vamanaArgs (cmdWords ["b", "float", "l2", "d", "0", "i", "32", "50", "1.2", "8"]) =
    .ok (.run ⟨.float, .l2, ascii "d", [], ascii "i", 32, 50, ⟨0x3f99999a#32⟩, 8⟩))

example := C83_vamana_refused (cmdWords ["b", "double", "l2", "d", "0", "i", "32", "50", "1.2", "8"]) (by decide +kernel)

example := C83_levels 3 (by decide)

/-- A file of labels is announced but not given. -/
example : vamanaArgs (cmdWords ["b", "float", "l2", "d", "1", "i", "32", "50", "1.2", "8"]) = .error .ub :=
  C83_vamana_missing _ rfl ⟨ascii "l2", .l2, by decide +kernel, .inr ⟨rfl, rfl⟩⟩
    (fun h => absurd (numAt_iff.2 h) (by decide +kernel))

example : vamanaArgs (cmdWords ["b", "float", "l2", "d", "0", "i", "32", "50", "1.2", "8"] ++ [ascii "more"]) =
    vamanaArgs (cmdWords ["b", "float", "l2", "d", "0", "i", "32", "50", "1.2", "8"]) :=
  C83_vamana_extra _ rfl (numAt_iff.1 (by decide +kernel)) _

example := C83_list_missing (cmdWords ["b", "float", "d", "1", "i", "10", "20"]) rfl
  (fun h => absurd (numAt_iff.2 h) (by decide +kernel))

example : searchLshArgs (cmdWords ["s", "float", "i", "4", "q", "g", "10", "r", "1"]) = .error .ub :=
  C83_search_lsh_missing _ rfl .float (by decide +kernel) (fun h => absurd (numAt_iff.2 h) (by decide +kernel))

end Grann
