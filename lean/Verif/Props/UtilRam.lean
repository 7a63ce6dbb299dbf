import Verif.Props.UtilPart
/-!
# C88: `partition_with_ram_budget` from the command line on
-/

namespace Grann

open Spec (elemWord)
open _root_.Spec (KNearest)

variable {D : Type}

theorem ramLoop_le {sizes : Nat → Res (List Nat)} {rate : Nat × Nat} {dim es deg : Nat} {over : Nat × Nat → Bool} : ∀ (fuel parts r : Nat),
    ramLoop sizes rate dim es deg over fuel parts = .ok r → parts ≤ 2147483647 → r ≤ 2147483647 := by
  intro fuel
  induction fuel with
  | zero => intro parts r h; cases h
  | succ fuel ih =>
    intro parts r h hp
    unfold ramLoop at h
    obtain ⟨s, hs, h⟩ := Res.bind_eq_ok.1 h
    obtain ⟨m, hm, h⟩ := Res.bind_eq_ok.1 h
    split at h
    · split at h
      · cases h
      · exact ih _ _ h (by omega)
    · cases h; exact hp

/-- The sizes of the parts, as the tool estimates them. -/
def ramSizes (env : TrainEnv D) (dim k : Nat) (train test : List (List F32)) (parts : Nat) : Res (List Nat) := do
  let rows ← ramRows env dim train test parts
  estimateSizes ⟨5000000, (env.run 0).ccBlk, k, env.pops⟩ parts rows

/-- One round of the loop: the centres `cs` come from k-means, and `near` are the closest centres of the points for testing. -/
structure Spec.RamRound (env : TrainEnv D) (dim k : Nat) (P : List F32 → Prop) (train test : List (List F32)) (parts : Nat) (cs : List (List F32))
    (near : List F32 → List Nat) : Prop where
  lloyd : ∃ first, first.length = parts ∧ (∀ c ∈ first, c ∈ train) ∧ LloydRun env.km (env.run parts).ch dim 10 train first cs
  len : cs.length = parts
  row : ∀ c ∈ cs, P c ∧ c.length = dim
  few : k ≤ parts
  near : ∀ x ∈ test, (near x).Nodup ∧ (near x).length = k ∧ (∀ c ∈ near x, c < parts) ∧
    KNearest k (Finset.range parts) (fun c => (cs.map (env.km.entry x)).getD c F32.nan)
      ((near x).map (fun c => (c, (cs.map (env.km.entry x)).getD c F32.nan)))

/-- The number of points for testing that have centre `c` among their closest ones. -/
def Spec.ramCount (test : List (List F32)) (near : List F32 → List Nat) (c : Nat) : Nat := (test.filter (fun x => (near x).contains c)).length

theorem ramCentres_cases {env : TrainEnv D} {e : Elem} {fs : FS Bytes} {data r : Bytes} {dim : Nat} {rows : List Bytes} {P : List F32 → Prop}
    {train : List (List F32)} (h : PartInput env e fs data r dim rows P train) {parts : Nat} (hp : 1 ≤ parts) :
    ramCentres env dim train parts = .error .loop ∨
    ∃ first cs, ramCentres env dim train parts = .ok cs ∧ first.length = parts ∧ (∀ c ∈ first, c ∈ train) ∧
      LloydRun env.km (env.run parts).ch dim 10 train first cs ∧ cs.length = parts ∧ ∀ c ∈ cs, P c ∧ c.length = dim := by
  have hml : ((List.range parts).map (env.mem parts)).length = parts := by simp
  rcases C84_kmeans (h.run parts) h.tame 10 (mem := (List.range parts).map (env.mem parts)) (by have := h.init 0; omega) h.max h.trainP (by omega)
    (h.init parts) with hl' | ⟨first, last, ek, h1, h2, h3, h4, h5⟩
  · left
    unfold ramCentres
    rw [hl']
  · rw [hml] at h1 h4
    refine Or.inr ⟨first, last, ?_, h1, h2, h3, h4, h5⟩
    unfold ramCentres
    rw [ek]

theorem ramSizes_cases {env : TrainEnv D} {e : Elem} {fs : FS Bytes} {data r : Bytes} {dim : Nat} {rows : List Bytes} {P : List F32 → Prop}
    {train : List (List F32)} (h : PartInput env e fs data r dim rows P train) {test : List (List F32)} (hP : ∀ x ∈ test, P x)
    (hl : test.length < 4294967296) {k parts : Nat} (hp : 1 ≤ parts) :
    ramSizes env dim k train test parts = .error .loop ∨ (ramSizes env dim k train test parts = .error .ub ∧ (test = [] ∨ parts < k)) ∨
    (test ≠ [] ∧ ∃ cs near, ramCentres env dim train parts = .ok cs ∧ Spec.RamRound env dim k P train test parts cs near ∧
      ramSizes env dim k train test parts = .ok ((List.range parts).map (Spec.ramCount test near))) := by
  unfold ramSizes ramRows
  rcases ramCentres_cases h hp with hc | ⟨first, last, hc, h1, h2, h3, h4, h5⟩
  · left
    rw [hc]; rfl
  · right
    rw [hc]
    simp only [Res.ok_bind]
    by_cases hne : test = []
    · left
      refine ⟨?_, Or.inl hne⟩
      rw [hne]
      rfl
    have hlt : ∀ x ∈ test, ∀ y ∈ last.map (env.km.entry x), y.lt F32.fmax = true := by
      intro x hx y hy
      obtain ⟨c, hc, rfl⟩ := List.mem_map.1 hy
      exact h.tame.entry _ _ (hP x hx) (h5 c hc).1
    have hgood : ∀ r ∈ test.map (fun x => last.map (env.km.entry x)), GoodDists k parts r := by
      intro r hr
      obtain ⟨x, hx, rfl⟩ := List.mem_map.1 hr
      refine ⟨by simp [h4], fun y hy => F32.isNum_of_lt_left (hlt x hx y hy), fun _ => ?_⟩
      obtain ⟨c, hc⟩ := List.exists_mem_of_length_pos (show 0 < last.length by omega)
      exact ⟨_, List.mem_map_of_mem hc, hlt x hx _ (List.mem_map_of_mem hc)⟩
    have hne1 : 1 ≤ (test.map (fun x => last.map (env.km.entry x))).length := by
      rw [List.length_map]
      exact List.length_pos_iff.2 hne
    by_cases hk : k ≤ parts
    · right
      refine ⟨hne, ?_⟩
      obtain ⟨near, n1, n2⟩ := C72_sizes (P := ⟨5000000, (env.run 0).ccBlk, k, env.pops⟩) h.pops (show 1 ≤ 5000000 by omega) (h.run 0).ccBlk hk hne1 hgood
      refine ⟨last, fun x => near (last.map (env.km.entry x)), rfl, ⟨⟨first, h1, h2, h3⟩, h4, h5, hk, fun x hx => n1 _ (List.mem_map_of_mem hx)⟩, ?_⟩
      rw [n2]
      congr 1
      apply List.map_congr_left
      intro c _
      rw [List.filter_map, List.length_map]
      unfold Spec.ramCount
      refine Nat.mod_eq_of_lt (Nat.lt_of_le_of_lt (List.length_filter_le _ _) hl)
    · left
      refine ⟨?_, Or.inr (by omega)⟩
      rw [estimateSizes_uninit (P := ⟨5000000, (env.run 0).ccBlk, k, env.pops⟩) (show parts < k by omega) (show 1 ≤ 5000000 by omega) hne1]

theorem ramSizes_round {env : TrainEnv D} {e : Elem} {fs : FS Bytes} {data r : Bytes} {dim : Nat} {rows : List Bytes} {P : List F32 → Prop}
    {train : List (List F32)} (h : PartInput env e fs data r dim rows P train) {test : List (List F32)} (hP : ∀ x ∈ test, P x)
    (hl : test.length < 4294967296) {k parts : Nat} (hp : 1 ≤ parts) {s : List Nat} (hs : ramSizes env dim k train test parts = .ok s) :
    ∃ cs near, ramCentres env dim train parts = .ok cs ∧ Spec.RamRound env dim k P train test parts cs near ∧
      s = (List.range parts).map (Spec.ramCount test near) := by
  rcases ramSizes_cases h hP hl hp (k := k) with h' | ⟨h', -⟩ | ⟨-, cs, near, h1, h2, h3⟩
  · rw [hs] at h'; cases h'
  · rw [hs] at h'; cases h'
  · refine ⟨cs, near, h1, h2, ?_⟩
    rw [hs] at h3; exact Except.ok.inj h3

/-- A budget that is a number and not negative. -/
def Spec.BudgetOf (t : Bytes) (x : Nat × Nat) : Prop := ∃ neg, atod t = .fin neg x ∧ (neg = false ∨ x.1 = 0)

theorem atod_pos {t : Bytes} {neg : Bool} {x : Nat × Nat} (h : atod t = .fin neg x) : 0 < x.2 := by
  unfold atod at h
  dsimp only at h
  split at h
  · cases h
  split at h
  · cases h
  split at h
  · cases h
    exact roundBin_den_pos _ _
  split at h
  · cases h
    decide
  · cases h
    exact roundBin_den_pos _ _

theorem overBudget_nonneg {t : Bytes} {x : Nat × Nat} (h : Spec.BudgetOf t x) : overBudget (atod t) = fun m => dlt (1073741824 * x.1, x.2) m := by
  obtain ⟨neg, e, hn⟩ := h
  funext m
  rw [e]
  unfold overBudget
  dsimp only
  rw [if_neg]
  rintro ⟨h1, h2⟩
  rcases hn with h | h
  · rw [h] at h1; cases h1
  · exact h2 h

theorem ramTool_eq {env : TrainEnv D} {e : Elem} {fs : FS Bytes} {data r : Bytes} {dim : Nat} {rows : List Bytes} {P : List F32 → Prop}
    {train : List (List F32)} (h : PartInput env e fs data r dim rows P train) (test : List (List F32))
    (ht : test = Spec.trainSet (sampleCoin env.rnd2 (atof r)) (env.conv e) rows) (b : Dbl) (deg : Nat) (k : Int) :
    ramTool env e (atof r) b deg k (some (Spec.binFile dim rows)) =
      if k < 0 then do
        let rows ← ramRows env dim train test 3
        if rows = [] then .error .ub else .error .throw
      else (do
        let parts ← ramLoop (ramSizes env dim k.toNat train test) (rateFrac (atof r)) dim e.size deg (overBudget b) env.fuel 3
        let cs ← ramCentres env dim train parts
        let sh ← shardData false ⟨5000000, (env.run 0).ccBlk, parts, k.toNat, centreDists (env.conv e) env.km.entry (matBytes cs) parts dim, env.pops⟩
          e.size dim (some (Spec.binFile dim rows)) env.j''
        .ok (le 4 (u32 parts) ++ (le 4 (u32 dim) ++ matBytes cs), sh)) := by
  have htp : ∀ x ∈ test, x.length = dim := by
    intro x hx
    rw [ht] at hx
    obtain ⟨v, hv, rfl⟩ := trainSet_mem hx
    exact (h.conv v hv).2
  unfold ramTool
  rw [sample_train (elem_size_le e) h.wf.j h.n h.d h.row h.size, Res.ok_bind]
  dsimp only
  rw [sample_train (elem_size_le e) h.wf.j' h.n h.d h.row h.size, Res.ok_bind]
  dsimp only
  rw [← h.train, ← ht, matRows_flatten (fun v hv => (h.trainP v hv).2), matRows_flatten htp]
  rfl

theorem testP {env : TrainEnv D} {e : Elem} {fs : FS Bytes} {data r : Bytes} {dim : Nat} {rows : List Bytes} {P : List F32 → Prop}
    {train : List (List F32)} (h : PartInput env e fs data r dim rows P train) {test : List (List F32)} {coin : Nat → Bool}
    (ht : test = Spec.trainSet coin (env.conv e) rows) : (∀ x ∈ test, P x) ∧ test.length < 4294967296 := by
  constructor
  · intro x hx
    rw [ht] at hx
    obtain ⟨v, hv, rfl⟩ := trainSet_mem hx
    exact (h.conv v hv).1
  · rw [ht]
    unfold Spec.trainSet Spec.sampled
    rw [List.length_map]
    refine Nat.lt_of_le_of_lt (List.length_filter_le _ _) ?_
    rw [List.length_range]
    exact h.n

/-- The shards for centres that k-means found. -/
theorem ram_shards {env : TrainEnv D} {e : Elem} {fs : FS Bytes} {data r : Bytes} {dim : Nat} {rows : List Bytes} {P : List F32 → Prop}
    {train : List (List F32)} (h : PartInput env e fs data r dim rows P train) {parts k : Nat} (hp : 1 ≤ parts) (hp' : parts ≤ 2147483647) (hk : k ≤ parts)
    {cs : List (List F32)} (hl : cs.length = parts) (hc : ∀ c ∈ cs, P c ∧ c.length = dim) (pre : Bytes) (hno : NotOutput false data pre parts) :
    ∃ (place : Nat → List Nat) (ops : List (FOp Bytes)),
      (∀ p x, rows[p]? = some x → (place p).Nodup ∧ (place p).length = k ∧ (∀ c ∈ place p, c < parts) ∧
        KNearest k (Finset.range parts) (fun c => (cs.map (env.km.entry (env.conv e x))).getD c F32.nan)
          ((place p).map (fun c => (c, (cs.map (env.km.entry (env.conv e x))).getD c F32.nan)))) ∧
      (shardData false ⟨5000000, (env.run 0).ccBlk, parts, k, centreDists (env.conv e) env.km.entry (matBytes cs) parts dim, env.pops⟩
          e.size dim (some (Spec.binFile dim rows)) env.j'' >>= fun sh =>
        filesTool env data (partFiles false pre (le 4 (u32 parts) ++ (le 4 (u32 dim) ++ matBytes cs), sh))) = .ok ops ∧
      Spec.LeavesParts ops pre parts (Spec.floatFile parts dim cs.flatten) none (fun c => Spec.idFile (Spec.shardOf place rows.length c)) := by
  have hdist : ∀ x, centreDists (env.conv e) env.km.entry (matBytes cs) parts dim x = cs.map (env.km.entry (env.conv e x)) :=
    centreDists_matBytes (fun v hv => (hc v hv).2) hl
  have hlt : ∀ x ∈ rows, ∀ y ∈ cs.map (env.km.entry (env.conv e x)), y.lt F32.fmax = true := by
    intro x hx y hy
    obtain ⟨c, hcm, rfl⟩ := List.mem_map.1 hy
    exact h.tame.entry _ _ (h.conv x hx).1 (hc c hcm).1
  obtain ⟨place, hpl, es⟩ := C54_shards false ⟨5000000, (env.run 0).ccBlk, parts, k, centreDists (env.conv e) env.km.entry (matBytes cs) parts dim, env.pops⟩
    h.pops e.size dim rows env.j'' h.wf.j''.1 h.wf.j''.2 h.rows1 h.n h.d h.row (show 1 ≤ 5000000 by omega) (h.run 0).ccBlk h.size hk (by
      intro x hx
      unfold GoodRow
      dsimp only
      rw [hdist]
      refine ⟨by simp [hl], fun y hy => F32.isNum_of_lt_left (hlt x hx y hy), fun _ => ?_⟩
      obtain ⟨c, hcm⟩ := List.exists_mem_of_length_pos (show 0 < cs.length by omega)
      exact ⟨_, List.mem_map_of_mem hcm, hlt x hx _ (List.mem_map_of_mem hcm)⟩)
  dsimp only at hpl es
  refine ⟨place, outOps (partFiles false pre (Spec.floatFile parts dim cs.flatten, some ((List.range parts).map fun c =>
    ([], Spec.idFile (Spec.shardOf place rows.length c))))), ?_, ?_, partFiles_leaves (wd := false) (by omega) (fun _ => []) _⟩
  · intro p x hx
    have := hpl p x hx
    rw [hdist] at this
    exact this
  · rw [es, Res.ok_bind, u32, u32, Nat.mod_eq_of_lt (by omega : parts < 4294967296), Nat.mod_eq_of_lt h.d]
    exact filesTool_part env (wd := false) (fun _ => []) _ hno

/-- **C88 (partition for a memory budget).** If `partition_with_ram_budget type data prefix rate budget degree k` ends with a result, the number of parts is the
first of 3, 5, 7, ... for which no part is estimated to need more than the budget.  The centres are those k-means finds for the sampled
vectors; the size of a part is estimated from the second sample, as the number of its vectors that have the centre among their `k`
closest ones, divided by the rate.  The program leaves the centres, and for every part the numbers of its vectors.
Missing: the program need not end, see `C88_ram_negative` and C72. -/
theorem C88_ram_partial {env : TrainEnv D} {e : Elem} {fs : FS Bytes} {data r : Bytes} {dim : Nat} {rows : List Bytes} {P : List F32 → Prop}
    {train : List (List F32)} (h : PartInput env e fs data r dim rows P train) (test : List (List F32))
    (ht : test = Spec.trainSet (sampleCoin env.rnd2 (atof r)) (env.conv e) rows) (a pre tb tg tk : Bytes) (deg k : Nat) (budget : Nat × Nat)
    (h1 : atoi tg = .ok (deg : Int)) (h2 : atoi tk = .ok (k : Int)) (hb : Spec.BudgetOf tb budget)
    (hno : NotOutput false data pre 2147483647) (ops : List (FOp Bytes))
    (hrun : ramMain env [a, elemWord e, data, pre, r, tb, tg, tk] fs = .ok (.run ops)) :
    ∃ (j : Nat) (cs : Nat → List (List F32)) (near : Nat → List F32 → List Nat) (place : Nat → List Nat),
      (∀ i ≤ j, Spec.RamRound env dim k P train test (3 + 2 * i) (cs i) (near i)) ∧
      (∀ i < j, ∃ c < 3 + 2 * i, ∃ p, scaleUp (rateFrac (atof r)) (Spec.ramCount test (near i) c) = .ok p ∧
        1073741824 * fval budget < fval (ramEstimate p dim e.size deg)) ∧
      (∀ c < 3 + 2 * j, ∃ p, scaleUp (rateFrac (atof r)) (Spec.ramCount test (near j) c) = .ok p ∧
        fval (ramEstimate p dim e.size deg) ≤ 1073741824 * fval budget) ∧
      (∀ p x, rows[p]? = some x → (place p).Nodup ∧ (place p).length = k ∧ (∀ c ∈ place p, c < 3 + 2 * j) ∧
        KNearest k (Finset.range (3 + 2 * j)) (fun c => ((cs j).map (env.km.entry (env.conv e x))).getD c F32.nan)
          ((place p).map (fun c => (c, ((cs j).map (env.km.entry (env.conv e x))).getD c F32.nan)))) ∧
      Spec.LeavesParts ops pre (3 + 2 * j) (Spec.floatFile (3 + 2 * j) dim (cs j).flatten) none
        (fun c => Spec.idFile (Spec.shardOf place rows.length c)) := by
  obtain ⟨hP, hl⟩ := testP h ht
  have hI := isInt_iff.1 (atoi_ok_iff.1 h1).2
  have hb2 : 0 < budget.2 := by
    obtain ⟨neg, hbe, -⟩ := hb
    exact atod_pos hbe
  rw [ramMain_args env _ _ _ _ _ _ _ _ fs h1 h2, elemArg_word] at hrun
  change done _ = _ at hrun
  rw [h.file, ramTool_eq h test ht, if_neg (by omega), Int.toNat_natCast, show wrap64 (deg : Int) = deg by unfold wrap64; omega,
    overBudget_nonneg hb] at hrun
  unfold done at hrun
  obtain ⟨ops', hops, heq⟩ := Res.bind_eq_ok.1 hrun
  have heq : ops' = ops := by
    have := Except.ok.inj heq
    injection this
  subst heq
  obtain ⟨r', hr, hfin⟩ := Res.bind_eq_ok.1 hops
  obtain ⟨parts, hparts, hr⟩ := Res.bind_eq_ok.1 hr
  obtain ⟨csl, hcsl, hr⟩ := Res.bind_eq_ok.1 hr
  obtain ⟨sh, hsh, hr⟩ := Res.bind_eq_ok.1 hr
  have hr := Except.ok.inj hr
  subst hr
  have hle := ramLoop_le _ _ _ hparts (by omega)
  obtain ⟨j, rfl, hfit, hex⟩ := ramLoop_spec hb2 _ _ _ hparts
  have hround : ∀ i, ∃ cs near, i ≤ j → ramCentres env dim train (3 + 2 * i) = .ok cs ∧ Spec.RamRound env dim k P train test (3 + 2 * i) cs near ∧
      ∀ s, ramSizes env dim k train test (3 + 2 * i) = .ok s → s = (List.range (3 + 2 * i)).map (Spec.ramCount test near) := by
    intro i
    by_cases hi : i ≤ j
    · have : ∃ s, ramSizes env dim k train test (3 + 2 * i) = .ok s := by
        rcases Nat.lt_or_eq_of_le hi with hi | rfl
        · obtain ⟨s, hs, -⟩ := hex i hi
          exact ⟨s, hs⟩
        · obtain ⟨s, hs, -⟩ := hfit
          exact ⟨s, hs⟩
      obtain ⟨s, hs⟩ := this
      obtain ⟨cs, near, c1, c2, c3⟩ := ramSizes_round h hP hl (by omega) hs
      refine ⟨cs, near, fun _ => ⟨c1, c2, fun s' hs' => ?_⟩⟩
      rw [hs] at hs'
      rw [← Except.ok.inj hs']; exact c3
    · exact ⟨[], fun _ => [], fun h => absurd h hi⟩
  choose cs near hround using hround
  obtain ⟨c1, c2, c3⟩ := hround j (Nat.le_refl _)
  have : csl = cs j := by
    rw [c1] at hcsl
    exact (Except.ok.inj hcsl).symm
  subst this
  obtain ⟨place, ops', p1, p2, p3⟩ := ram_shards h (by omega) hle c2.few c2.len c2.row pre ⟨hno.1, fun c hc => hno.2 c (by omega)⟩
  rw [hsh, Res.ok_bind, hfin] at p2
  have := Except.ok.inj p2
  subst this
  refine ⟨j, cs, near, place, fun i hi => (hround i hi).2.1, fun i hi => ?_, fun c hc => ?_, p1, p3⟩
  · obtain ⟨s, hs, x, hx, p, hp, hlt⟩ := hex i hi
    rw [(hround i (by omega)).2.2 s hs] at hx
    obtain ⟨c, hc, rfl⟩ := List.mem_map.1 hx
    exact ⟨c, List.mem_range.1 hc, p, hp, hlt⟩
  · obtain ⟨s, hs, hall⟩ := hfit
    obtain ⟨p, hp, hle⟩ := hall (Spec.ramCount test (near j) c) (by
      rw [c3 s hs]
      exact List.mem_map_of_mem (List.mem_range.2 hc))
    exact ⟨p, hp, hle⟩

/-! ## When the budget does not matter -/

/-- A budget below zero. -/
def Spec.BudgetNegative (t : Bytes) : Prop := atod t = .inf true ∨ ∃ x, atod t = .fin true x ∧ x.1 ≠ 0

theorem ramLoop_over {sizes : Nat → Res (List Nat)} {rate : Nat × Nat} {dim es deg : Nat} {over : Nat × Nat → Bool} (ho : ∀ m, over m = true) :
    ∀ (fuel parts r : Nat), ramLoop sizes rate dim es deg over fuel parts ≠ .ok r := by
  intro fuel
  induction fuel with
  | zero => intro parts r h; cases h
  | succ fuel ih =>
    intro parts r h
    unfold ramLoop at h
    obtain ⟨s, hs, h⟩ := Res.bind_eq_ok.1 h
    obtain ⟨m, hm, h⟩ := Res.bind_eq_ok.1 h
    rw [if_pos (ho m)] at h
    split at h
    · cases h
    · exact ih _ _ h

/-- **C88 fails (negative budget).** With a negative budget `partition_with_ram_budget` never gives a result: it does not end, or stops on the way. -/
theorem C88_ram_negative (env : TrainEnv D) (e : Elem) (a data pre r tb tg tk : Bytes) (deg k : Int) (h1 : atoi tg = .ok deg) (h2 : atoi tk = .ok k)
    (hb : Spec.BudgetNegative tb) (fs : FS Bytes) (c : Cmd (List (FOp Bytes))) : ramMain env [a, elemWord e, data, pre, r, tb, tg, tk] fs ≠ .ok c := by
  have ho : ∀ m, overBudget (atod tb) m = true := by
    intro m
    rcases hb with hb | ⟨x, hb, hx⟩ <;> rw [hb]
    · rfl
    · show (if _ then _ else _) = true
      rw [if_pos ⟨rfl, hx⟩]
  rw [ramMain_args env _ _ _ _ _ _ _ _ fs h1 h2, elemArg_word]
  show done _ ≠ _
  intro h
  unfold done at h
  obtain ⟨ops, h, -⟩ := Res.bind_eq_ok.1 h
  obtain ⟨x, h, -⟩ := Res.bind_eq_ok.1 h
  unfold ramTool at h
  obtain ⟨⟨f1, n1, d1⟩, -, h⟩ := Res.bind_eq_ok.1 h
  dsimp only at h
  obtain ⟨⟨f2, n2, d2⟩, -, h⟩ := Res.bind_eq_ok.1 h
  dsimp only at h
  split at h
  · obtain ⟨rr, -, h⟩ := Res.bind_eq_ok.1 h
    split at h <;> cases h
  · obtain ⟨parts, h, -⟩ := Res.bind_eq_ok.1 h
    exact ramLoop_over ho _ _ _ h

/-- **C88 fails (k).** With more than three closest centres, uninitialised numbers are used as indices; with a negative number of them, memory cannot be
allocated. -/
theorem C88_ram_limits {env : TrainEnv D} {e : Elem} {fs : FS Bytes} {data r : Bytes} {dim : Nat} {rows : List Bytes} {P : List F32 → Prop}
    {train : List (List F32)} (h : PartInput env e fs data r dim rows P train) (test : List (List F32))
    (ht : test = Spec.trainSet (sampleCoin env.rnd2 (atof r)) (env.conv e) rows) (a pre tb tg tk : Bytes) (deg k : Int)
    (h1 : atoi tg = .ok deg) (h2 : atoi tk = .ok k) (hf : 0 < env.fuel) :
    (3 < k → ramMain env [a, elemWord e, data, pre, r, tb, tg, tk] fs = .error .loop ∨
      ramMain env [a, elemWord e, data, pre, r, tb, tg, tk] fs = .error .ub) ∧
    (test = [] → ramMain env [a, elemWord e, data, pre, r, tb, tg, tk] fs = .error .loop ∨
      ramMain env [a, elemWord e, data, pre, r, tb, tg, tk] fs = .error .ub) ∧
    (test ≠ [] → k < 0 → ramMain env [a, elemWord e, data, pre, r, tb, tg, tk] fs = .error .loop ∨
      ramMain env [a, elemWord e, data, pre, r, tb, tg, tk] fs = .error .throw) := by
  obtain ⟨hP, hl⟩ := testP h ht
  obtain ⟨fuel, hfu⟩ : ∃ n, env.fuel = n + 1 := ⟨env.fuel - 1, by omega⟩
  rw [ramMain_args env _ _ _ _ _ _ _ _ fs h1 h2, elemArg_word]
  simp only [cmdOf]
  rw [h.file, ramTool_eq h test ht]
  have hneg : k < 0 → (ramRows env dim train test 3 = .error .loop ∨ ∃ rs, ramRows env dim train test 3 = .ok rs ∧ (rs = [] ↔ test = [])) := by
    intro _
    unfold ramRows
    rcases ramCentres_cases h (show 1 ≤ 3 by omega) with hc | ⟨first, last, hc, -⟩
    · left; rw [hc]; rfl
    · right
      rw [hc]
      exact ⟨_, rfl, by simp⟩
  have hpos : 0 ≤ k → (test = [] ∨ 3 < k) → ∀ over, ramLoop (ramSizes env dim k.toNat train test) (rateFrac (atof r)) dim e.size (wrap64 deg) over env.fuel 3 =
      .error .loop ∨ ramLoop (ramSizes env dim k.toNat train test) (rateFrac (atof r)) dim e.size (wrap64 deg) over env.fuel 3 = .error .ub := by
    intro hk hz over
    rw [hfu]
    unfold ramLoop
    rcases ramSizes_cases h hP hl (k := k.toNat) (show 1 ≤ 3 by omega) with hs | ⟨hs, -⟩ | ⟨hne, cs, near, -, hr, -⟩
    · left; rw [hs]; rfl
    · right; rw [hs]; rfl
    · exfalso
      rcases hz with hz | hz
      · exact hne hz
      · have := hr.few
        omega
  refine ⟨fun hk => ?_, fun hz => ?_, fun hz hk => ?_⟩
  · rw [if_neg (by omega)]
    rcases hpos (by omega) (Or.inr hk) (overBudget (atod tb)) with hs | hs <;> rw [hs]
    · exact Or.inl rfl
    · exact Or.inr rfl
  · by_cases hk : k < 0
    · rw [if_pos hk]
      rcases hneg hk with hs | ⟨rs, hs, hi⟩ <;> rw [hs]
      · exact Or.inl rfl
      · rw [Res.ok_bind, if_pos (hi.2 hz)]
        exact Or.inr rfl
    · rw [if_neg hk]
      rcases hpos (by omega) (Or.inl hz) (overBudget (atod tb)) with hs | hs <;> rw [hs]
      · exact Or.inl rfl
      · exact Or.inr rfl
  · rw [if_pos hk]
    rcases hneg hk with hs | ⟨rs, hs, hi⟩ <;> rw [hs]
    · exact Or.inl rfl
    · rw [Res.ok_bind, if_neg (fun hh => hz (hi.1 hh))]
      exact Or.inr rfl

theorem scaleUp_zero {rate : Nat × Nat} {p : Nat} (h0 : 0 < fval rate) (h : 2 * (p : ℚ) ≤ fval rate) : scaleUp rate p = .ok 0 := by
  have hr1 : rate.1 ≠ 0 := by
    intro hz
    unfold fval at h0
    rw [hz] at h0
    simp at h0
  unfold scaleUp
  rw [if_neg hr1]
  have hden : 0 < (ddiv (dconv p) rate).2 := roundBin_den_pos _ _
  have e : fval ((dconv p).1 * rate.2, (dconv p).2 * rate.1) = fval (dconv p) / fval rate := by
    unfold fval; push_cast
    rw [mul_div_mul_comm, div_div_eq_mul_div, div_mul_eq_mul_div, mul_div_assoc]
    ring
  have hp : fval (dconv p) ≤ p * (1 + (1 / 2) ^ 53) := by
    have := (Rounded.dconv p).2
    simpa using this
  have hq : fval (ddiv (dconv p) rate) < 1 := by
    have hpos : 0 < ((dconv p).1 * rate.2, (dconv p).2 * rate.1).2 := Nat.mul_pos (dconv_pos p) (Nat.pos_of_ne_zero hr1)
    have herr := (abs_le.1 (roundBin_err 53 (by decide) _ hpos)).2
    have hle : fval ((dconv p).1 * rate.2, (dconv p).2 * rate.1) ≤ 1 / 2 * (1 + (1 / 2) ^ 53) := by
      rw [e, div_le_iff₀ h0]
      refine le_trans hp ?_
      nlinarith
    have hnn := fval_nonneg ((dconv p).1 * rate.2, (dconv p).2 * rate.1)
    unfold ddiv
    calc _ ≤ fval ((dconv p).1 * rate.2, (dconv p).2 * rate.1) * (1 + (1 / 2) ^ 53) := by linarith
      _ ≤ 1 / 2 * (1 + (1 / 2) ^ 53) * (1 + (1 / 2) ^ 53) := mul_le_mul_of_nonneg_right hle (by norm_num)
      _ < 1 := by norm_num
  have hz : (ddiv (dconv p) rate).1 / (ddiv (dconv p) rate).2 = 0 := by
    rw [Nat.div_eq_zero_iff]
    right
    unfold fval at hq
    rw [div_lt_one (by exact_mod_cast hden)] at hq
    exact_mod_cast hq
  dsimp only
  rw [hz, if_pos (by omega)]

theorem ramEstimate_zero (dim es deg : Nat) : ramEstimate 0 dim es deg = (0, 1) := by
  have hz : ∀ x : Nat × Nat, dmul x (0, 1) = (0, 1) := fun x => by simp [dmul, roundBin]
  have hz' : ∀ x : Nat × Nat, dmul (0, 1) x = (0, 1) := fun x => by simp [dmul, roundBin]
  have h0 : dconv 0 = (0, 1) := by simp [dconv, roundBin]
  unfold ramEstimate
  rw [h0, hz', hz', hz', hz', hz', show dadd (0, 1) (0, 1) = (0, 1) by simp [dadd, roundBin], hz]

theorem maxRam_zero {rate : Nat × Nat} {dim es deg : Nat} : ∀ (l : List Nat), (∀ x ∈ l, scaleUp rate x = .ok 0) → maxRam rate dim es deg l = .ok (0, 1) := by
  intro l
  unfold maxRam
  induction l with
  | nil => intro _; rfl
  | cons x l ih =>
    intro h
    rw [List.foldlM_cons, h x List.mem_cons_self]
    simp only [Res.ok_bind, ramEstimate_zero, ite_self]
    exact ih fun y hy => h y (List.mem_cons_of_mem _ hy)

/-- **C88 fails (rates above one).** A rate above 1 keeps every vector, but the sizes are still divided by it.  If it is at least twice the number of vectors,
every size is taken for 0, and the program makes three parts for any budget that is not negative. -/
theorem C88_ram_rate {env : TrainEnv D} {e : Elem} {fs : FS Bytes} {data r : Bytes} {dim : Nat} {rows : List Bytes} {P : List F32 → Prop}
    {train : List (List F32)} (h : PartInput env e fs data r dim rows P train) (test : List (List F32))
    (ht : test = Spec.trainSet (sampleCoin env.rnd2 (atof r)) (env.conv e) rows) (a pre tb tg tk : Bytes) (deg : Int) (k : Nat)
    (h1 : atoi tg = .ok deg) (h2 : atoi tk = .ok (k : Int)) (hb : ¬ Spec.BudgetNegative tb) (hr : Spec.Finite (atof r))
    (hrate : 2 * (rows.length : ℚ) ≤ Spec.value (atof r)) (hk : k ≤ 3) (hne : test ≠ []) (hfu : 0 < env.fuel) (hno : NotOutput false data pre 3) :
    ramMain env [a, elemWord e, data, pre, r, tb, tg, tk] fs = .error .loop ∨
    ∃ ops cs near ids, ramMain env [a, elemWord e, data, pre, r, tb, tg, tk] fs = .ok (.run ops) ∧ Spec.RamRound env dim k P train test 3 cs near ∧
      Spec.LeavesParts ops pre 3 (Spec.floatFile 3 dim cs.flatten) none ids := by
  obtain ⟨hP, hl⟩ := testP h ht
  obtain ⟨fuel, hfu⟩ : ∃ n, env.fuel = n + 1 := ⟨env.fuel - 1, by omega⟩
  have hlen : test.length ≤ rows.length := by
    rw [ht]
    unfold Spec.trainSet Spec.sampled
    rw [List.length_map]
    refine Nat.le_trans (List.length_filter_le _ _) ?_
    rw [List.length_range]
  have hpos : (0 : ℚ) < Spec.value (atof r) := by
    have : 1 ≤ rows.length := h.rows1
    have : (1 : ℚ) ≤ rows.length := by exact_mod_cast this
    linarith
  have hfr : rateFrac (atof r) = (atof r).frac ∧ fval (atof r).frac = Spec.value (atof r) := by
    have hs : (atof r).bits.toNat < 2147483648 := by
      by_contra hs
      unfold Spec.value at hpos
      rw [if_neg hs] at hpos
      have := fval_frac ⟨BitVec.ofNat 32 ((atof r).bits.toNat - 2147483648)⟩
      have hb32 := (atof r).bits.isLt
      dsimp only at this
      rw [BitVec.toNat_ofNat, Nat.mod_eq_of_lt (by omega), Nat.mod_eq_of_lt (by omega)] at this
      have h0 := fval_nonneg (F32.frac ⟨BitVec.ofNat 32 ((atof r).bits.toNat - 2147483648)⟩)
      rw [this] at h0
      linarith
    unfold Spec.Finite at hr
    rw [Nat.mod_eq_of_lt hs] at hr
    constructor
    · unfold rateFrac
      rw [if_neg (by omega)]
    · rw [fval_frac, Nat.mod_eq_of_lt hs]
      unfold Spec.value
      rw [if_pos hs]
  have ho : overBudget (atod tb) (0, 1) = false := by
    unfold Spec.BudgetNegative at hb
    cases hd : atod tb with
    | nan => rfl
    | inf neg =>
      cases neg with
      | false => rfl
      | true => exact absurd (Or.inl hd) hb
    | fin neg x =>
      show (if neg = true ∧ x.1 ≠ 0 then true else _) = false
      rw [if_neg]
      · simp [dlt]
      · rintro ⟨rfl, hx⟩
        exact hb (Or.inr ⟨x, hd, hx⟩)
  rw [ramMain_args env _ _ _ _ _ _ _ _ fs h1 h2, elemArg_word]
  simp only [cmdOf]
  rw [h.file, ramTool_eq h test ht, if_neg (by omega), Int.toNat_natCast, hfu]
  unfold ramLoop
  rcases ramSizes_cases h hP hl (k := k) (show 1 ≤ 3 by omega) with hs | ⟨-, hs⟩ | ⟨-, cs, near, hc, hround, hs⟩
  · left; rw [hs]; rfl
  · rcases hs with hs | hs
    · exact absurd hs hne
    · omega
  · right
    obtain ⟨place, ops, -, p2, p3⟩ := ram_shards h (show 1 ≤ 3 by omega) (by omega) hk hround.len hround.row pre hno
    refine ⟨ops, cs, near, _, ?_, hround, p3⟩
    rw [hs, Res.ok_bind, maxRam_zero, Res.ok_bind, ho]
    · simp only [Bool.false_eq_true, if_false, Res.ok_bind, hc, bind_assoc]
      rw [p2]; rfl
    · intro x hx
      obtain ⟨c, -, rfl⟩ := List.mem_map.1 hx
      rw [hfr.1]
      refine scaleUp_zero (by rw [hfr.2]; exact hpos) ?_
      rw [hfr.2]
      refine le_trans ?_ hrate
      have : Spec.ramCount test near c ≤ rows.length := Nat.le_trans (List.length_filter_le _ _) hlen
      have : (Spec.ramCount test near c : ℚ) ≤ rows.length := by exact_mod_cast this
      linarith

/-! ## Examples -/

theorem exBudget (t : Bytes) (x : Nat × Nat) (h : (match atod t with | .fin false y => y == x | _ => false) = true) : Spec.BudgetOf t x := by
  cases e : atod t with
  | nan => rw [e] at h; cases h
  | inf n => rw [e] at h; cases h
  | fin n y =>
    rw [e] at h
    cases n with
    | true => cases h
    | false =>
      have : y = x := by simpa using h
      exact ⟨false, by rw [e, this], Or.inl rfl⟩

/-- The words of a command with degree 0: a rate, a budget and a number of closest centres. -/
def exRamLine (r b k : String) : List Bytes := [ascii "ram", ascii "uint8", ascii "d", ascii "p", ascii r, ascii b, ascii "0", ascii k]

/-- The number of parts, from the size of the file of the centres. -/
def exRamParts (x : Res (Cmd (List (FOp Bytes)))) : Option Nat :=
  match x with
  | .ok (.run ops) => (runOps ops exTrainFs (ascii "p_centroids.bin")).map (fun b => b.length / 4 - 2)
  | _ => none

/-- For about 3.2 bytes three parts are too few, five parts of one sampled vector each are enough. -/
example : exRamParts (ramMain exTrainEnv (exRamLine "0.5" "3e-9" "1") exTrainFs) = some 5 ∧
    exRamParts (ramMain exTrainEnv (exRamLine "0.5" "1" "1") exTrainFs) = some 3 := by decide +kernel

theorem exRam_run {x : Res (Cmd (List (FOp Bytes)))} {n : Nat} (h : exRamParts x = some n) : ∃ ops, x = .ok (.run ops) := by
  unfold exRamParts at h
  split at h
  · exact ⟨_, rfl⟩
  · cases h

example : ∃ ops j near, ramMain exTrainEnv (exRamLine "0.5" "3e-9" "1") exTrainFs = .ok (.run ops) ∧
    ∀ c < 3 + 2 * j, ∃ p, scaleUp (rateFrac (atof (ascii "0.5"))) (Spec.ramCount ([49, 54, 55, 56, 57].map (fun n => [exNat n])) near c) = .ok p ∧
      fval (ramEstimate p 1 1 0) ≤ 1073741824 * fval (roundBin 53 (3, 1000000000)) :=
  let ⟨ops, h⟩ := exRam_run (show exRamParts (ramMain exTrainEnv (exRamLine "0.5" "3e-9" "1") exTrainFs) = some 5 by decide +kernel)
  let ⟨j, _, near, _, _, _, h3, _⟩ := C88_ram_partial exPartInput _ (by decide +kernel) (ascii "ram") (ascii "p") (ascii "3e-9") (ascii "0") (ascii "1") 0 1
    (roundBin 53 (3, 1000000000)) (by decide +kernel) (by decide +kernel) (exBudget _ _ (by decide +kernel)) (exNotOutput _ _) ops h
  ⟨ops, j, near j, h, h3⟩

/-- A budget of -1. -/
example (c : Cmd (List (FOp Bytes))) : ramMain exTrainEnv (exRamLine "0.5" "-1" "1") exTrainFs ≠ .ok c :=
  C88_ram_negative exTrainEnv .uint8 _ _ _ _ _ _ _ 0 1 (by decide +kernel) (by decide +kernel) (Or.inr ⟨roundBin 53 (1, 1), by decide +kernel, by decide +kernel⟩) exTrainFs c

/-- Four closest centres, and -1 of them. -/
example : ramMain exTrainEnv (exRamLine "0.5" "1" "4") exTrainFs = .error .ub ∧ ramMain exTrainEnv (exRamLine "0.5" "1" "-1") exTrainFs = .error .throw := by
  have h (t : Bytes) (k : Int) (hk : atoi t = .ok k) := C88_ram_limits exPartInput ([49, 54, 55, 56, 57].map (fun n => [exNat n])) (by decide +kernel) (ascii "ram")
    (ascii "p") (ascii "1") (ascii "0") t 0 k (by decide +kernel) hk (by decide)
  constructor
  · rcases (h (ascii "4") 4 (by decide +kernel)).1 (by decide) with h | h
    · exact absurd h (by
        have e : (match ramMain exTrainEnv (exRamLine "0.5" "1" "4") exTrainFs with | .error .loop => false | _ => true) = true := by decide +kernel
        intro h
        unfold exRamLine at e
        rw [show elemWord .uint8 = ascii "uint8" from rfl] at h
        rw [h] at e; cases e)
    · exact h
  · rcases (h (ascii "-1") (-1) (by decide +kernel)).2.2 (by decide) (by decide) with h | h
    · exact absurd h (by
        have e : (match ramMain exTrainEnv (exRamLine "0.5" "1" "-1") exTrainFs with | .error .loop => false | _ => true) = true := by decide +kernel
        intro h
        unfold exRamLine at e
        rw [show elemWord .uint8 = ascii "uint8" from rfl] at h
        rw [h] at e; cases e)
    · exact h

theorem exPartInput20 : PartInput exTrainEnv .uint8 exTrainFs (ascii "d") (ascii "20") 1 exRows10 (fun _ => True) (exRows10.map exConv) where
  wf := exTrainEnv_WF
  run := exTrainEnv_run
  pops := exPops_isPopOrder
  n := by decide
  d := by decide
  row := by decide
  size := by decide +kernel
  file := exTrainFs_d
  tame := exKm_tame 1
  conv := fun x hx => ⟨trivial, by revert x; decide +kernel⟩
  train := by decide +kernel
  max := by decide
  init := fun _ => show 0 < 10 by decide

/-- With the rate 20 all ten vectors are sampled, and three parts are made for a budget of 0. -/
example : ∃ ops cs near, ramMain exTrainEnv (exRamLine "20" "0" "1") exTrainFs = .ok (.run ops) ∧
    Spec.RamRound exTrainEnv 1 1 (fun _ => True) (exRows10.map exConv) (exRows10.map exConv) 3 cs near := by
  have hr : Spec.Finite (atof (ascii "20")) := by unfold Spec.Finite; decide +kernel
  have hv : 2 * ((exRows10.length : Nat) : ℚ) ≤ Spec.value (atof (ascii "20")) := by
    rw [show atof (ascii "20") = ⟨0x41a00000#32⟩ by decide +kernel]
    norm_num [Spec.value, Spec.magnitude, exRows10]
  rcases C88_ram_rate exPartInput20 (exRows10.map exConv) (by decide +kernel) (ascii "ram") (ascii "p") (ascii "0") (ascii "0") (ascii "1") 0 1 (by decide +kernel) (by decide +kernel)
    (by
      rintro (h | ⟨x, h, -⟩)
      · have e : (match atod (ascii "0") with | .inf _ => false | _ => true) = true := by decide +kernel
        rw [h] at e; cases e
      · have e : (match atod (ascii "0") with | .fin true _ => false | _ => true) = true := by decide +kernel
        rw [h] at e; cases e) hr hv (by decide) (by decide) (by decide) (exNotOutput _ _) with h | ⟨ops, cs, near, _, h1, h2, _⟩
  · exact absurd h (by
      have e : (match ramMain exTrainEnv (exRamLine "20" "0" "1") exTrainFs with | .error .loop => false | _ => true) = true := by decide +kernel
      intro h
      unfold exRamLine at e
      rw [show elemWord .uint8 = ascii "uint8" from rfl] at h
      rw [h] at e; cases e)
  · exact ⟨ops, cs, near, h1, h2⟩

end Grann
