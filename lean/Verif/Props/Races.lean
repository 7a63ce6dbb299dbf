import Verif.Proofs.BuildFine
import Verif.Proofs.LocksEnd
import Verif.Props.Build
import Verif.Basic.RoundNear
/-!
# C76: the parallel build — atomicity of its critical sections, deadlocks, data races
-/

namespace Grann

/-! ## Sizes in double precision -/

theorem slack_double : roundBin 53 (13, 10) = (5854679515581645, 4503599627370496) := by decide +kernel

theorem slack2_double : dmul (roundBin 53 (105, 100)) (roundBin 53 (13, 10)) =
    (6147413491360728, 4503599627370496) := by decide +kernel

theorem floor_le_of_fval_lt {x : Nat × Nat} (hx : 0 < x.2) {m : Nat} (h : fval x < m + 1) : x.1 / x.2 ≤ m := by
  unfold fval at h
  rw [div_lt_iff₀ (by exact_mod_cast hx)] at h
  have : x.1 < (m + 1) * x.2 := by exact_mod_cast h
  exact Nat.lt_succ_iff.1 ((Nat.div_lt_iff_lt_mul hx).2 this)

theorem le_floor_of_le_fval {x : Nat × Nat} (hx : 0 < x.2) {m : Nat} (h : m ≤ fval x) : m ≤ x.1 / x.2 := by
  unfold fval at h
  rw [le_div_iff₀ (by exact_mod_cast hx)] at h
  have : m * x.2 ≤ x.1 := by exact_mod_cast h
  exact (Nat.le_div_iff_mul_le hx).2 this

/-- The `reserve` outside the lock asks for at most as much as the lists can have before they are pruned. -/
theorem reserveArg_le (R : Nat) (hR : R < 2 ^ 32) : reserveArg R ≤ (13 * R + 9) / 10 := by
  unfold reserveArg dmul
  dsimp only
  rw [slack_double]
  refine floor_le_of_fval_lt (roundBin_den_pos _ _) ?_
  have he := roundBin_err 53 (by decide) (5854679515581645 * R, 4503599627370496 * 1)
    (by show 0 < 4503599627370496 * 1; decide)
  have hx : fval (5854679515581645 * R, 4503599627370496 * 1) = 5854679515581645 * R / 4503599627370496 := by
    unfold fval; push_cast; ring
  rw [hx] at he
  have h1 := (abs_le.1 he).2
  have hm : (13 * R : ℚ) / 10 ≤ ((13 * R + 9) / 10 : ℕ) := by
    have : 13 * R ≤ 10 * ((13 * R + 9) / 10) := by omega
    have : (13 * R : ℚ) ≤ 10 * ((13 * R + 9) / 10 : ℕ) := by exact_mod_cast this
    linarith
  have hRq : (R : ℚ) < 4294967296 := by exact_mod_cast hR
  have hR0 : (0 : ℚ) ≤ R := by positivity
  norm_num at h1 ⊢
  linarith

/-- For `R ≥ 9` the capacity given at the beginning suffices for all that other threads add. -/
theorem firstCap_ge (R : Nat) (hR : R < 2 ^ 32) (h9 : 9 ≤ R) : (13 * R + 9) / 10 ≤ firstCap R := by
  by_cases h14 : R < 14
  · have : R = 9 ∨ R = 10 ∨ R = 11 ∨ R = 12 ∨ R = 13 := by omega
    rcases this with rfl | rfl | rfl | rfl | rfl <;> decide +kernel
  · unfold firstCap
    rw [slack2_double]
    unfold dmul
    dsimp only
    refine le_floor_of_le_fval (roundBin_den_pos _ _) ?_
    have hRq : (R : ℚ) < 4294967296 := by exact_mod_cast hR
    have hR14 : (14 : ℚ) ≤ R := by exact_mod_cast (by omega : 14 ≤ R)
    have hx : fval (6147413491360728 * R, 4503599627370496 * 1) = 6147413491360728 * R / 4503599627370496 := by
      unfold fval; push_cast; ring
    refine roundBin_ge 53 _ (by show 0 < 4503599627370496 * 1; decide) _ ?_ ?_
    · rw [hx]
      norm_num
      linarith
    · rw [hx]
      have : (((13 * R + 9) / 10 : ℕ) : ℚ) ≤ (13 * R + 9) / 10 := by
        have : 10 * ((13 * R + 9) / 10) ≤ 13 * R + 9 := by omega
        have : (10 : ℚ) * ((13 * R + 9) / 10 : ℕ) ≤ 13 * R + 9 := by exact_mod_cast this
        linarith
      linarith

/-! ## Atomicity -/

/-- **C76, critical sections.** Every execution of the parallel loop, down to the single loads and stores of
the lists, that comes to its end leaves the lists that some order of whole critical sections leaves
(`Model/Build.lean`). So everything shown there for all schedules holds for all interleavings. -/
theorem C76_critical_sections_atomic {V : Type} (cfg : BuildCfg V) (old : List Vec) (fs : List Nat)
    (F : FSt BPhase) (h : fRun (buildNext cfg) fs (buildFineStart cfg.R old) = .ok F)
    (hdone : ∀ t ∈ F.ts, t = .out (.plain .done)) :
    ∃ sched s, runSched cfg sched (BSt.start (old.map Vec.items)) = .ok s ∧ s.Finished ∧
      s.adj = F.mem.map Vec.items := by
  obtain ⟨is, A, e1, e2⟩ := (fRun_sim (buildNext_shared cfg) fs (buildFineStart_sim cfg cfg.R old)).1 F h
  obtain ⟨js, e3⟩ := (aRun_build cfg is _).1 A e1
  have hts : F.ts = (List.replicate F.ts.length (BPhase.plain .done)).map .out := by
    rw [List.map_replicate]
    exact List.eq_replicate_of_mem hdone
  have hA := e2.outside _ hts
  rw [buildFineStart_abs] at e3
  refine ⟨js, _, e3, ?_, ?_⟩
  · intro t ht
    rw [hA] at ht
    unfold absSt at ht
    dsimp only at ht
    rw [List.map_replicate] at ht
    exact List.eq_of_mem_replicate ht
  · rw [hA]
    rfl

/-- **C76, undefined behaviour.** No interleaving leads to an access outside the lists or to a lock that does
not exist. -/
theorem C76_always_defined {V : Type} (cfg : BuildCfg V) (h : cfg.OK) (old : List Vec)
    (h0 : ValidEdges cfg.n (old.map Vec.items)) (fs : List Nat) :
    ∃ F, fRun (buildNext cfg) fs (buildFineStart cfg.R old) = .ok F := by
  cases hf : fRun (buildNext cfg) fs (buildFineStart cfg.R old) with
  | ok F => exact ⟨F, rfl⟩
  | error err =>
    obtain ⟨is, e1⟩ := (fRun_sim (buildNext_shared cfg) fs (buildFineStart_sim cfg cfg.R old)).2 err hf
    obtain ⟨js, e2⟩ := (aRun_build cfg is _).2 err e1
    rw [buildFineStart_abs] at e2
    obtain ⟨s, e3, _⟩ := C22_degree_bound cfg h _ h0 js
    rw [e2] at e3
    cases e3

/-- **C76, edges.** At the end of any interleaving the clean-up gives a graph with valid edges and bounded
degrees. -/
theorem C76_built_graph {V : Type} (cfg : BuildCfg V) (h : cfg.OK) (old : List Vec)
    (h0 : ValidEdges cfg.n (old.map Vec.items)) (fs : List Nat) (F : FSt BPhase)
    (hf : fRun (buildNext cfg) fs (buildFineStart cfg.R old) = .ok F)
    (hdone : ∀ t ∈ F.ts, t = .out (.plain .done)) :
    ∃ out, cleanup cfg (F.mem.map Vec.items) = .ok out ∧ out.length = cfg.n ∧
      (∀ nb ∈ out, nb.length ≤ cfg.R) ∧
      ∀ (v : Nat) (nb : List Nat), out[v]? = some nb → ∀ x ∈ nb, x < cfg.n ∧ x ≠ v := by
  obtain ⟨sched, s, e1, e2, e3⟩ := C76_critical_sections_atomic cfg old fs F hf hdone
  obtain ⟨s', f1, f2⟩ := C22_degree_bound cfg h _ h0 sched
  obtain ⟨s'', g1, -, out', g2, g3, g4⟩ := C23_valid_edges cfg h _ h0 sched
  rw [e1] at f1 g1
  cases f1
  cases g1
  obtain ⟨out, k1, k2, k3⟩ := f2 e2
  rw [k1] at g2
  injection g2 with g2
  subst g2
  rw [e3] at k1
  exact ⟨out, k1, k2, k3, g4⟩

/-! ## Deadlocks -/

/-- **C76, deadlocks.** In every state in which a task has not ended some task can go on. -/
theorem C76_no_deadlock {V : Type} (cfg : BuildCfg V) (F : FSt BPhase) (i : Nat) (t : FTask BPhase)
    (ht : F.ts[i]? = some t) (hwork : t ≠ .out (.plain .done)) : ∃ j, F.enabled (buildNext cfg) j = true := by
  refine no_deadlock F i t ht ?_
  rintro s rfl hh
  exact hwork (by rw [buildNext_halt hh])

/-- **C76, the build ends.** With a schedule of single operations under which every task keeps getting turns
(a turn is wasted on a task that waits for a lock), all tasks end after finitely many turns. -/
theorem C76_build_ends {V : Type} (cfg : BuildCfg V) (h : cfg.OK) (old : List Vec)
    (h0 : ValidEdges cfg.n (old.map Vec.items)) (f : Nat → Nat) (hfair : ∀ i < cfg.n, ∀ k, ∃ m ≥ k, f m = i) :
    ∃ N F, fRun (buildNext cfg) ((List.range N).map f) (buildFineStart cfg.R old) = .ok F ∧
      ∀ t ∈ F.ts, t = .out (.plain .done) := by
  have hlen : old.length = cfg.n := by have := h0.1; simpa using this
  obtain ⟨N, F, e, hd⟩ := fine_ends (buildNext_shared cfg) (fun A => BInv cfg (absSt A)) (buildRank cfg)
    (fun A i hP => buildRank_step h A i hP) _ _ (buildFineStart_sim cfg cfg.R old)
    (by rw [buildFineStart_abs]; exact start_inv h0) f
    (by intro i hi; exact hfair i (by simpa [buildFineStart, hlen] using hi))
  refine ⟨N, F, e, fun t ht => ?_⟩
  obtain ⟨i, hi⟩ := List.getElem?_of_mem ht
  obtain ⟨s, rfl, hh⟩ := hd i t hi
  rw [buildNext_halt hh]

/-! ## Data races -/

theorem start_capInv (R : Nat) (old : List Vec) : CapInv (firstCap R) (buildFineStart R old) := by
  refine ⟨?_, ?_⟩
  · intro v x hx
    unfold buildFineStart at hx
    dsimp only at hx
    rw [List.getElem?_map] at hx
    cases ho : old[v]? with
    | none => rw [ho] at hx; cases hx
    | some y =>
      rw [ho] at hx
      cases hx
      unfold Vec.reserve
      dsimp only
      omega
  · intro i v e p x hi
    unfold buildFineStart at hi
    dsimp only at hi
    have := List.eq_of_mem_replicate (List.mem_of_getElem? hi)
    cases this

/-- **C76, races, under a condition on the degree bound.** If the capacity `1.05 * 1.3 * R` given to the
lists at the beginning is not below `1.3 * R` rounded up, no two threads ever access the same memory at the
same time with one of them writing, although `reserve` is called without the lock. -/
theorem C76_no_race_partial {V : Type} (cfg : BuildCfg V) (hR : cfg.R < 2 ^ 32)
    (hcap : (13 * cfg.R + 9) / 10 ≤ firstCap cfg.R) (old : List Vec) (fs : List Nat) (F : FSt BPhase)
    (h : fRun (buildNext cfg) fs (buildFineStart cfg.R old) = .ok F) : ¬ F.Racy (buildNext cfg) := by
  have key : ∀ (fs : List Nat) (F0 : FSt BPhase) (A0 : ASt BPhase), Sim (buildNext cfg) F0 A0 →
      CapInv (firstCap cfg.R) F0 → fRun (buildNext cfg) fs F0 = .ok F →
      ∃ A, Sim (buildNext cfg) F A ∧ CapInv (firstCap cfg.R) F := by
    intro fs
    induction fs with
    | nil =>
      intro F0 A0 hS hC he
      cases he
      exact ⟨A0, hS, hC⟩
    | cons i fs ih =>
      intro F0 A0 hS hC he
      simp only [fRun] at he
      cases hs : fStep (buildNext cfg) F0 i with
      | error e => rw [hs] at he; cases he
      | ok F1 =>
        rw [hs] at he
        have hC1 := fStep_cap hcap hS hC i hs
        rcases (fStep_sim (buildNext_shared cfg) hS i).1 F1 hs with ⟨-, h'⟩ | ⟨A1, -, h', -⟩
        · exact ih F1 A0 h' hC1 he
        · exact ih F1 A1 h' hC1 he
  obtain ⟨A, hS, hC⟩ := key fs _ _ (buildFineStart_sim cfg cfg.R old) (start_capInv cfg.R old) h
  exact CapInv.no_race (Nat.le_trans (reserveArg_le cfg.R hR) hcap) hS hC

/-- **C76, races: none if `R ≥ 9`.** -/
theorem C76_no_race_large_degree {V : Type} (cfg : BuildCfg V) (hR : cfg.R < 2 ^ 32) (h9 : 9 ≤ cfg.R)
    (old : List Vec) (fs : List Nat) (F : FSt BPhase)
    (h : fRun (buildNext cfg) fs (buildFineStart cfg.R old) = .ok F) : ¬ F.Racy (buildNext cfg) :=
  C76_no_race_partial cfg hR (firstCap_ge cfg.R hR h9) old fs F h

/-- What counts as a race with the `reserve` outside the lock: one that has to grow the vector races with
every operation of another task on it; one that does not races with an `emplace_back` that has to grow it. -/
theorem C76_reserve_races {σ : Type} (next : Nat → σ → Next σ) (F : FSt σ) (i j v m : Nat) (hij : i ≠ j) (s s' : σ)
    (x : Vec) (hx : F.mem[v]? = some x) (hi : F.ts[i]? = some (.out s)) (hs : next i s = .touch v m s')
    (e : Bool) (p : VProg (Res σ)) (hj : F.ts[j]? = some (.inside v e p)) (hp : ∀ r, p ≠ .ret r) :
    (x.cap < m → F.raceOf next i j = true) ∧
    (m ≤ x.cap → (F.raceOf next i j = true ↔ x.cap ≤ x.items.length ∧ ∃ y k, p = .push y k)) := by
  have hti : F.touches next i =
      if m ≤ x.cap then [(.buf v, false)] else [(.buf v, true), (.len v, true), (.elt v, true)] := by
    unfold FSt.touches
    rw [hi]
    dsimp only
    rw [hs]
    dsimp only
    rw [hx]
  have htj : F.touches next j = p.touches v x := by
    unfold FSt.touches
    rw [hj]
    dsimp only
    rw [hx]
  unfold FSt.raceOf
  rw [hti, htj, show (i != j) = true by simpa using hij, Bool.true_and]
  refine ⟨fun h => ?_, fun h => ?_⟩
  · rw [if_neg (by omega)]
    cases p with
    | ret r => exact absurd rfl (hp r)
    | size k => simp [VProg.touches]
    | load l k => simp [VProg.touches]
    | push y k => by_cases hl : x.items.length < x.cap <;> simp [VProg.touches, hl]
    | clear k => simp [VProg.touches]
  · rw [if_pos h]
    cases p with
    | ret r => exact absurd rfl (hp r)
    | size k => simp [VProg.touches]
    | load l k => simp [VProg.touches]
    | push y k =>
      by_cases hl : x.items.length < x.cap
      · simp [VProg.touches, hl]
      · simp [VProg.touches, hl, Nat.not_lt.1 hl]
    | clear k => simp [VProg.touches]

/-! ## Small degree bounds race -/

/-- Point 0 in the middle, all others at distance 1 from it and at distance 2 from each other. -/
def exStar (a b : Nat) : F32 :=
  if a = b then F32.zero else if a = 0 ∨ b = 0 then F32.one else ⟨0x40000000#32⟩

def exStarCfg (n R : Nat) : BuildCfg Nat :=
  vamanaCfg ⟨{ data := List.range n, labels := [], useUniv := true, univ := [48], cmp := exStar }, false, exDiv1⟩
    exSort 4 R 100 F32.one 0 0 []

/-- Tasks `1, …, k` run to their end, then task 0 makes `a` steps and task `k + 1` makes `b` steps. -/
def exRaceSched (k a b : Nat) : List Nat :=
  (List.range k).flatMap (fun i => List.replicate 60 (i + 1)) ++ List.replicate a 0 ++ List.replicate b (k + 1)

def exRace (n R k a b : Nat) : Bool :=
  match fRun (buildNext (exStarCfg n R)) (exRaceSched k a b)
      (buildFineStart R (List.replicate n ⟨[], 0⟩)) with
  | .ok F => F.raceOf (buildNext (exStarCfg n R)) 0 (k + 1)
  | .error _ => false

theorem exStar_comm (a b : Nat) : exStar a b = exStar b a := by
  unfold exStar
  split_ifs <;> first | rfl | omega

theorem exStarCfg_ok (n R : Nat) (h : 10 ≤ n) : (exStarCfg n R).OK :=
  vamanaCfg_ok _ exSort exSort_isStdSort 4 R 100 F32.one 0 0 [] (by simpa using h) (by decide) (.of_le (by decide))
    exStar_comm (by intro h; cases h) (by show 0 < (List.range n).length; rw [List.length_range]; omega) (by simp)

theorem exRace_racy {n R k a b : Nat} (h : exRace n R k a b = true) :
    ∃ fs F, fRun (buildNext (exStarCfg n R)) fs (buildFineStart R (List.replicate n ⟨[], 0⟩)) = .ok F ∧
      F.Racy (buildNext (exStarCfg n R)) := by
  unfold exRace at h
  cases hf : fRun (buildNext (exStarCfg n R)) (exRaceSched k a b)
      (buildFineStart R (List.replicate n ⟨[], 0⟩)) with
  | error e => rw [hf] at h; cases h
  | ok F =>
    rw [hf] at h
    exact ⟨_, F, hf, 0, k + 1, h⟩

/-- **C76 is false for `R` = 1, 2, 4, 5, 7 and 8**: while one thread is in the unlocked `reserve` of its own
list and reads the bounds of its storage, another one holds the lock and adds an edge to this full list,
which moves it to new storage. (For 0, 3, 6 and everything from 9 on there is no race.) -/
theorem C76_race_small_degree : ∀ R ∈ [1, 2, 4, 5, 7, 8], (exStarCfg 14 R).OK ∧
    ∃ fs F, fRun (buildNext (exStarCfg 14 R)) fs (buildFineStart R (List.replicate 14 ⟨[], 0⟩)) = .ok F ∧
      F.Racy (buildNext (exStarCfg 14 R)) := by
  intro R hR
  refine ⟨exStarCfg_ok 14 R (by decide), ?_⟩
  simp only [List.mem_cons, List.not_mem_nil, or_false] at hR
  rcases hR with rfl | rfl | rfl | rfl | rfl | rfl
  · exact exRace_racy (k := 1) (a := 10) (b := 18) (by decide +kernel)
  · exact exRace_racy (k := 2) (a := 15) (b := 24) (by decide +kernel)
  · exact exRace_racy (k := 5) (a := 22) (b := 34) (by decide +kernel)
  · exact exRace_racy (k := 6) (a := 23) (b := 36) (by decide +kernel)
  · exact exRace_racy (k := 9) (a := 26) (b := 42) (by decide +kernel)
  · exact exRace_racy (k := 10) (a := 27) (b := 44) (by decide +kernel)

/-- The degree bounds for which `C76_no_race_partial` applies. -/
theorem C76_safe_degrees (R : Nat) (hR : R < 2 ^ 32) :
    (13 * R + 9) / 10 ≤ firstCap R ↔ R ∉ [1, 2, 4, 5, 7, 8] := by
  by_cases h9 : 9 ≤ R
  · refine ⟨fun _ h => ?_, fun _ => firstCap_ge R hR h9⟩
    simp only [List.mem_cons, List.not_mem_nil, or_false] at h
    omega
  · have : R = 0 ∨ R = 1 ∨ R = 2 ∨ R = 3 ∨ R = 4 ∨ R = 5 ∨ R = 6 ∨ R = 7 ∨ R = 8 := by omega
    rcases this with rfl | rfl | rfl | rfl | rfl | rfl | rfl | rfl | rfl <;> decide +kernel

/-! ## The comparison with the slack -/

/-- `des_pool.size() < VAMANA_SLACK_FACTOR * degree_bound` (src/graph_index.cpp:256) in double precision. -/
def slackLess (size R : Nat) : Bool :=
  let x := dmul (roundBin 53 (13, 10)) (R, 1)
  decide (size * x.2 < x.1)

/-- **The comparison of the size of a list with `1.3 * R`, made in double precision, is exact** (used in
`buildStep` and `recipProg`). -/
theorem C76_slack_exact (size R : Nat) (hR : R < 2 ^ 32) : slackLess size R = decide (10 * size < 13 * R) := by
  unfold slackLess dmul
  dsimp only
  rw [slack_double]
  dsimp only
  have he := roundBin_err 53 (by decide) (5854679515581645 * R, 4503599627370496 * 1)
    (by show 0 < 4503599627370496 * 1; decide)
  have hnear := roundBin_near 53 (by decide) (5854679515581645 * R, 4503599627370496 * 1)
    (by show 0 < 4503599627370496 * 1; decide) size
  have hy := roundBin_den_pos 53 (5854679515581645 * R, 4503599627370496 * 1)
  have hx : fval (5854679515581645 * R, 4503599627370496 * 1) = 5854679515581645 * R / 4503599627370496 := by
    unfold fval; push_cast; ring
  rw [hx] at he hnear
  generalize roundBin 53 (5854679515581645 * R, 4503599627370496 * 1) = y at *
  have hyq : (0 : ℚ) < y.2 := by exact_mod_cast hy
  obtain ⟨h1, h2⟩ := abs_le.1 he
  have hRq : (R : ℚ) < 4294967296 := by exact_mod_cast hR
  have hR0 : (0 : ℚ) ≤ R := by positivity
  have key : size * y.2 < y.1 ↔ (size : ℚ) < fval y := by
    unfold fval
    rw [lt_div_iff₀ hyq]
    exact_mod_cast Iff.rfl
  rw [decide_eq_decide, key]
  norm_num at h1 h2
  constructor
  · intro hlt
    by_contra hc
    rcases Nat.lt_or_ge (13 * R) (10 * size) with hgt | hle
    · have : (13 * R + 1 : ℚ) ≤ 10 * size := by exact_mod_cast hgt
      linarith
    · have heq : (13 * R : ℚ) = 10 * size := by exact_mod_cast (by omega : 13 * R = 10 * size)
      rcases Nat.eq_zero_or_pos R with h0 | hpos
      · subst h0
        norm_num at h1 h2 heq
        rw [heq] at hlt
        linarith
      · have hRp : (0 : ℚ) < R := by exact_mod_cast hpos
        have := hnear (by norm_num; linarith) (by norm_num; linarith)
        linarith
  · intro hlt
    have : (10 * size + 1 : ℚ) ≤ 13 * R := by exact_mod_cast hlt
    linarith

/-! ## A whole execution -/

def FTask.isDone : FTask BPhase → Bool
  | .out (.plain .done) => true
  | _ => false

theorem FTask.isDone_iff {t : FTask BPhase} (h : t.isDone = true) : t = .out (.plain .done) := by
  unfold FTask.isDone at h
  split at h
  · rfl
  · cases h

/-- The lists after an execution in which all tasks have ended. -/
def exFine (cfg : BuildCfg Nat) (n : Nat) (fs : List Nat) : Option (List (List Nat)) :=
  match fRun (buildNext cfg) fs (buildFineStart cfg.R (List.replicate n ⟨[], 0⟩)) with
  | .ok F => if F.ts.all FTask.isDone then some (F.mem.map Vec.items) else none
  | .error _ => none

/-- All tasks in turn, one operation each: everything ends up at the start node, which is the only point
with a list when the searches look at it. One task after the other: the graph of the sequential build. -/
example : exFine (exVam exPts10 20) 10 (List.replicate 120 (List.range 10)).flatten =
      some [[1], [0, 2, 3, 4, 5, 6, 7, 8, 9], [1], [1], [1], [1], [1], [1], [1], [1]] ∧
    exFine (exVam exPts10 20) 10 (seqSched 10 150) =
      some [[1, 3], [0, 0, 2], [1, 4], [0, 5], [2, 6], [3, 7, 9], [4, 8], [5, 9], [6], [7, 5]] := by
  decide +kernel

example : (exVam exPts10 20).OK ∧ ValidEdges (exVam exPts10 20).n
    ((List.replicate 10 (⟨[], 0⟩ : Vec)).map Vec.items) ∧ 9 ≤ (exVam exPts10 20).R :=
  ⟨exVam_ok _ _ (by decide), freshAdj_valid 10, by decide⟩

example : slackLess 12 10 = true ∧ slackLess 13 10 = false ∧ reserveArg 10 = 13 ∧ firstCap 64 = 87 := by
  decide +kernel

/-! ## The theorems applied to examples -/

/-- Every execution for ten points, whatever the interleaving. -/
example (fs : List Nat) (F : FSt BPhase)
    (h : fRun (buildNext (exVam exPts10 20)) fs (buildFineStart (exVam exPts10 20).R (List.replicate 10 ⟨[], 0⟩)) = .ok F)
    (hdone : ∀ t ∈ F.ts, t = .out (.plain .done)) :=
  C76_critical_sections_atomic _ _ fs F h hdone

example (fs : List Nat) := C76_always_defined _ (exVam_ok exPts10 20 (by decide)) (List.replicate 10 ⟨[], 0⟩)
  (freshAdj_valid 10) fs

example (fs : List Nat) (F : FSt BPhase)
    (h : fRun (buildNext (exVam exPts10 20)) fs (buildFineStart (exVam exPts10 20).R (List.replicate 10 ⟨[], 0⟩)) = .ok F)
    (hdone : ∀ t ∈ F.ts, t = .out (.plain .done)) :=
  C76_built_graph _ (exVam_ok exPts10 20 (by decide)) (List.replicate 10 ⟨[], 0⟩) (freshAdj_valid 10) fs F h hdone

example := C76_no_deadlock (exVam exPts10 20) (buildFineStart (exVam exPts10 20).R (List.replicate 10 ⟨[], 0⟩)) 3 _ rfl
  (by simp)

/-- The tasks in turn. -/
example := C76_build_ends _ (exVam_ok exPts10 20 (by decide)) (List.replicate 10 ⟨[], 0⟩) (freshAdj_valid 10)
  (fun m => m % 10) (fun i hi k => ⟨10 * k + i, by omega, by
    have : (exVam exPts10 20).n = 10 := rfl
    show (10 * k + i) % 10 = i
    omega⟩)

/-- Degree bound 6: the capacity reserved first is enough. -/
example (fs : List Nat) (F : FSt BPhase)
    (h : fRun (buildNext (exStarCfg 14 6)) fs (buildFineStart 6 (List.replicate 14 ⟨[], 0⟩)) = .ok F) :=
  C76_no_race_partial (exStarCfg 14 6) (by decide) (by decide +kernel) _ fs F h

example (fs : List Nat) (F : FSt BPhase)
    (h : fRun (buildNext (exVam exPts10 20)) fs (buildFineStart (exVam exPts10 20).R (List.replicate 10 ⟨[], 0⟩)) = .ok F) :=
  C76_no_race_large_degree (exVam exPts10 20) (by decide) (by decide) _ fs F h

example : (13 * 64 + 9) / 10 ≤ firstCap 64 := (C76_safe_degrees 64 (by decide)).2 (by decide)

example := C76_slack_exact 83 64 (by decide)

/-- A task that reserves 13 places races with another that is appending to a vector with 2. -/
example := (C76_reserve_races (fun _ s => .touch 0 13 s) (⟨[⟨[5], 2⟩], [.out 0, .inside 0 true (.push 7 (.ret (.ok 1)))]⟩ : FSt Nat)
  0 1 0 13 (by decide) 0 0 _ rfl rfl rfl true _ rfl (by intro r h; cases h)).1 (by decide)

end Grann
