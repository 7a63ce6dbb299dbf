import Verif.Proofs.FloatOrder
import Verif.Props.CommandRuns
/-!
# C83: when the programs stop without doing anything, and which points HNSW samples
-/

namespace Grann

theorem mainOf_usage {α β : Type} {c : Res (Cmd α)} {f : α → Res (Cmd β)} (hf : ∀ a, f a ≠ .ok .usage) : mainOf c f = .ok .usage ↔ c = .ok .usage := by
  rcases c with e | (_ | _ | a)
  · exact ⟨fun h => (by cases h), fun h => (by cases h)⟩
  · exact ⟨fun _ => rfl, fun _ => rfl⟩
  · exact ⟨fun h => (by cases h), fun h => (by cases h)⟩
  · exact ⟨fun h => absurd h (hf a), fun h => by cases h⟩

theorem mainOf_refused {α β : Type} {c : Res (Cmd α)} {f : α → Res (Cmd β)} :
    mainOf c f = .ok .refused ↔ c = .ok .refused ∨ ∃ a, c = .ok (.run a) ∧ f a = .ok .refused := by
  rcases c with e | (_ | _ | a)
  · exact ⟨fun h => (by cases h), fun h => by rcases h with h | ⟨_, h, -⟩ <;> cases h⟩
  · exact ⟨fun h => (by cases h), fun h => by rcases h with h | ⟨_, h, -⟩ <;> cases h⟩
  · exact ⟨fun _ => Or.inl rfl, fun _ => rfl⟩
  · constructor
    · intro h
      exact Or.inr ⟨a, rfl, h⟩
    · rintro (h | ⟨b, hb, h⟩)
      · cases h
      · cases hb
        exact h

theorem done_no_stop {β : Type} (x : Res β) : done x ≠ .ok .usage ∧ done x ≠ .ok .refused := by
  cases x with
  | error e => exact ⟨fun h => (by cases h), fun h => (by cases h)⟩
  | ok v => exact ⟨fun h => (by cases h), fun h => (by cases h)⟩

theorem bind_ok_ne {α β : Type} {x : Res α} {f : α → Res β} {y : β} (h : ∀ a, f a ≠ .ok y) : (x >>= f) ≠ .ok y := by
  cases x with
  | error e => intro h; cases h
  | ok v => exact h v

theorem searchWith_stop (env : SearchEnv) (minL : Nat) (load : FS Bytes → Res (Nat × (Nat → SearchFn))) (a : SearchArgs) (fs : FS Bytes) :
    searchWith env minL load a fs ≠ .ok .usage ∧
    (searchWith env minL load a fs = .ok .refused ↔ ∀ L ∈ a.Ls, L < minL) := by
  unfold searchWith searchProg
  dsimp only
  have he : (a.Ls.filter (fun L => minL ≤ L)).length = 0 ↔ ∀ L ∈ a.Ls, L < minL := by
    rw [List.length_eq_zero_iff, List.filter_eq_nil_iff]
    constructor <;> intro h L hL <;> have := h L hL
    · simpa using this
    · simpa using this
  rw [← he]
  by_cases h : (a.Ls.filter (fun L => minL ≤ L)).length = 0
  · rw [if_pos h]
    exact ⟨fun h => (by cases h), fun _ => h, fun _ => rfl⟩
  · rw [if_neg h]
    refine ⟨?_, fun hr => ?_, fun hc => absurd hc h⟩
    · rw [bind_assoc]
      refine bind_ok_ne fun _ => ?_
      rw [bind_assoc]
      refine bind_ok_ne fun _ => ?_
      rw [bind_assoc]
      refine bind_ok_ne fun _ => ?_
      rw [bind_assoc]
      exact bind_ok_ne fun _ h => by cases h
    · refine absurd hr ?_
      rw [bind_assoc]
      refine bind_ok_ne fun _ => ?_
      rw [bind_assoc]
      refine bind_ok_ne fun _ => ?_
      rw [bind_assoc]
      refine bind_ok_ne fun _ => ?_
      rw [bind_assoc]
      exact bind_ok_ne fun _ h => by cases h

/-- A program prints its usage exactly if the number of arguments is wrong, and refuses exactly the command lines whose words it does not know. -/
structure Stops {α β : Type} (good : Nat → Prop) (argv : List Bytes) (c : Res (Cmd α)) (m : Res (Cmd β)) (also : Prop) : Prop where
  usage : m = .ok .usage ↔ ¬ good argv.length
  refused : m = .ok .refused ↔ c = .ok .refused ∨ also

theorem stops_done {α β : Type} {good : Nat → Prop} {argv : List Bytes} {c : Res (Cmd α)} (h : Outcomes good argv c) (f : α → Res β) :
    Stops good argv c (mainOf c (fun a => done (f a))) False := by
  constructor
  · rw [mainOf_usage (fun a => (done_no_stop _).1), h.usage]
  · rw [mainOf_refused]
    constructor
    · rintro (h | ⟨a, -, h⟩)
      · exact Or.inl h
      · exact absurd h (done_no_stop _).2
    · rintro (h | h)
      · exact Or.inl h
      · exact h.elim

theorem stops_search {good : Nat → Prop} {argv : List Bytes} {c : Res (Cmd SearchArgs)} (h : Outcomes good argv c) (env : SearchEnv) (minL : SearchArgs → Nat)
    (load : SearchArgs → FS Bytes → Res (Nat × (Nat → SearchFn))) (fs : FS Bytes) :
    Stops good argv c (mainOf c (fun a => searchWith env (minL a) (load a) a fs)) (∃ a, c = .ok (.run a) ∧ ∀ L ∈ a.Ls, L < minL a) := by
  constructor
  · rw [mainOf_usage (fun a => (searchWith_stop ..).1), h.usage]
  · rw [mainOf_refused]
    simp only [(searchWith_stop ..).2]

/-- **C83 (build programs that stop).** The build programs print their usage exactly if the number of arguments is wrong, and otherwise return without an
index exactly if the command line has an unknown word. -/
theorem C83_build_stops (argv : List Bytes) (fs : FS Bytes) :
    (∀ env, Stops (fun n => n = 10 ∨ n = 11) argv (vamanaArgs argv) (buildVamanaMain env argv fs) False) ∧
    (∀ env, Stops (fun n => n = 6) argv (rngArgs argv) (buildRngMain env argv fs) False) ∧
    (∀ env, Stops (fun n => n = 7 ∨ n = 8) argv (ivfArgs argv) (buildIvfMain env argv fs) False) ∧
    (∀ env, Stops (fun n => n = 7 ∨ n = 8) argv (lshArgs argv) (buildLshMain env argv fs) False) ∧
    (∀ env, Stops (fun n => n = 11) argv (hnswArgs argv) (buildHnswMain env argv fs) False) :=
  ⟨fun _ => stops_done (C83_vamana_outcomes argv) _, fun _ => stops_done (C83_relng_outcomes argv) _, fun _ => stops_done (C83_ivf_outcomes argv) _,
    fun _ => stops_done (C83_lsh_outcomes argv) _, fun _ => stops_done (C83_hnsw_outcomes argv) _⟩

/-- **C83 (search programs that stop).** The search programs also return without a result if every search parameter is smaller than the number of results
asked for (IVF: smaller than 1). -/
theorem C83_search_stops (argv : List Bytes) (fs : FS Bytes) :
    (∀ env, Stops (fun n => 11 ≤ n) argv (searchVamanaArgs argv) (searchVamanaMain env argv fs)
      (∃ a, searchVamanaArgs argv = .ok (.run a) ∧ ∀ L ∈ a.Ls, L < a.K)) ∧
    (∀ env j0, Stops (fun n => 11 ≤ n) argv (searchRngArgs argv) (searchRngMain env j0 argv fs)
      (∃ a, searchRngArgs argv = .ok (.run a) ∧ ∀ L ∈ a.Ls, L < a.K)) ∧
    (∀ env, Stops (fun n => 11 ≤ n) argv (searchHnswArgs argv) (searchHnswMain env argv fs)
      (∃ a, searchHnswArgs argv = .ok (.run a) ∧ ∀ L ∈ a.Ls, L < a.K)) ∧
    (∀ env cdist pops, Stops (fun n => 10 ≤ n) argv (searchIvfArgs argv) (searchIvfMain env cdist pops argv fs)
      (∃ a, searchIvfArgs argv = .ok (.run a) ∧ ∀ L ∈ a.Ls, L < 1)) ∧
    (∀ env jl dot, Stops (fun n => 9 ≤ n) argv (searchLshArgs argv) (searchLshMain env jl dot argv fs) False) :=
  ⟨fun env => stops_search (C83_search_vamana_outcomes argv) env _ _ fs, fun env _ => stops_search (C83_search_relng_outcomes argv) env _ _ fs,
    fun env => stops_search (C83_search_hnsw_outcomes argv) env _ _ fs, fun env _ _ => stops_search (C83_search_ivf_outcomes argv) env (fun _ => 1) _ fs,
    fun _ _ _ => stops_done (C83_search_lsh_outcomes argv) _⟩

/-- A command line with nothing but too small search parameters, and one with an unknown type. -/
example : (∃ a, searchVamanaArgs (cmdWords ["search", "uint8", "l2", "i", "8", "q", "g", "2", "r", "0", "1"]) = .ok (.run a) ∧ ∀ L ∈ a.Ls, L < a.K) ∧
    searchVamanaArgs (cmdWords ["search", "double", "l2", "i", "8", "q", "g", "2", "r", "0", "1"]) = .ok .refused ∧
    vamanaArgs (cmdWords ["build", "double", "l2", "d", "0", "i", "8", "8", "1.2", "4"]) = .ok .refused :=
  ⟨⟨⟨.uint8, .l2, [], ascii "i", 1, ascii "q", ascii "g", 2, ascii "r", [], [1]⟩, by rfl, by decide⟩, by rfl, by rfl⟩

/-! ## Sampling of HNSW -/

/-- **C83 (sampling of HNSW).** A point goes up to the next level exactly if the remainder of its random number modulo one million, divided by one million and
rounded to `double` and then to `float`, is smaller than the sampling rate.  No point is sampled with a rate up to 0, every point with a rate of at least 1. -/
theorem C83_hnsw_keep (prob : F32) (r : Nat) :
    (∃ d q, Spec.NearestDouble ((r % 1000000 : Nat) / 1000000) d ∧ Spec.Nearest d q ∧
      (hnswKeep prob r = true ↔ q.lt prob = true) ∧ (Spec.Finite prob → (hnswKeep prob r = true ↔ Spec.value q < Spec.value prob))) ∧
    (Spec.Finite prob → Spec.value prob ≤ 0 → hnswKeep prob r = false) ∧
    (Spec.Finite prob → 1 ≤ Spec.value prob → hnswKeep prob r = true) := by
  have hd : Spec.NearestDouble ((r % 1000000 : Nat) / 1000000) (fval (roundBin 53 (r % 1000000, 1000000))) :=
    roundBin_nearest (n := r % 1000000) (d := 1000000) (by norm_num)
  have hle : (((r % 1000000 : Nat) : ℚ)) / 1000000 ≤ 999999 / 1000000 := by
    have : r % 1000000 ≤ 999999 := by omega
    have : ((r % 1000000 : Nat) : ℚ) ≤ 999999 := by exact_mod_cast this
    gcongr
  have hge : (0 : ℚ) ≤ ((r % 1000000 : Nat) : ℚ) / 1000000 := by positivity
  have hq := (doubleToFloat_nearest false (r % 1000000, 1000000) (by norm_num)).1
  have hk : hnswKeep prob r = (doubleToFloat false (r % 1000000, 1000000)).lt prob := rfl
  rw [hk]
  generalize doubleToFloat false (r % 1000000, 1000000) = q at *
  generalize fval (roundBin 53 (r % 1000000, 1000000)) = d at *
  generalize (((r % 1000000 : Nat) : ℚ)) / 1000000 = t at *
  have hd0 : 0 ≤ d := by
    obtain ⟨m, k, -, h⟩ := hd.1
    rw [h]
    positivity
  have hd1 : d ≤ 16777215 / 16777216 := by
    by_contra hc
    have h1 := (hd.2 (16777215 / 16777216) ⟨16777215, -24, by norm_num, by norm_num⟩).1
    rw [abs_of_nonneg (by linarith), abs_of_nonneg (by linarith)] at h1
    linarith
  have hq := (hq (lt_of_le_of_lt hd1 (by norm_num))).1
  rw [if_neg (by decide), one_mul] at hq
  have hv0 : Spec.value ⟨0#32⟩ = 0 := by decide +kernel
  have hv1 : Spec.value ⟨0x3f7fffff#32⟩ = 16777215 / 16777216 := by
    norm_num [Spec.value, Spec.magnitude]
  have hq0 : 0 ≤ Spec.value q := by
    by_contra hc
    have h1 := (hq.2 ⟨0#32⟩ (by unfold Spec.Finite; decide)).1
    rw [hv0, abs_of_neg (by linarith), abs_of_nonpos (by linarith)] at h1
    linarith
  have hq1 : Spec.value q < 1 := by
    by_contra hc
    have h1 := (hq.2 ⟨0x3f7fffff#32⟩ (by unfold Spec.Finite; decide)).1
    rw [hv1, abs_of_nonneg (by linarith), abs_of_nonneg (by linarith)] at h1
    linarith
  refine ⟨⟨d, q, hd, hq, Iff.rfl, fun hf => lt_iff_value hq.1 hf⟩, fun hf h => ?_, fun hf h => ?_⟩
  · rw [← Bool.not_eq_true, lt_iff_value hq.1 hf]
    linarith
  · rw [lt_iff_value hq.1 hf]
    linarith

/-- With rate 1/2, the random number 500000 is not sampled and 499999 is. -/
example : hnswKeep ⟨0x3f000000#32⟩ 500000 = false ∧ hnswKeep ⟨0x3f000000#32⟩ 499999 = true ∧ Spec.value ⟨0x3f000000#32⟩ = 1 / 2 := by
  refine ⟨by decide +kernel, by decide +kernel, ?_⟩
  norm_num [Spec.value, Spec.magnitude]

/-! ## The theorems applied to the examples -/

example : buildVamanaMain exBuildEnv (cmdWords ["build", "double", "l2", "d", "0", "i", "8", "8", "1.2", "4"]) exCmdFs = .ok .refused ∧
    buildVamanaMain exBuildEnv (cmdWords ["build", "float"]) exCmdFs = .ok .usage :=
  ⟨((C83_build_stops _ exCmdFs).1 exBuildEnv).refused.2 (.inl (by rfl)), ((C83_build_stops _ exCmdFs).1 exBuildEnv).usage.2 (by decide)⟩

/-- All search parameters are too small. -/
example : searchVamanaMain exSearchEnv (cmdWords ["search", "uint8", "l2", "i", "8", "q", "g", "2", "r", "0", "1"]) exCmdFs = .ok .refused :=
  ((C83_search_stops _ exCmdFs).1 exSearchEnv).refused.2
    (.inr ⟨⟨.uint8, .l2, [], ascii "i", 1, ascii "q", ascii "g", 2, ascii "r", [], [1]⟩, by rfl, by decide⟩)

example := (C83_hnsw_keep ⟨0x3f000000#32⟩ 499999).1

end Grann
