import Verif.Proofs.Locks
import Verif.Proofs.BuildFine
import Verif.Props.Build
import Mathlib.Data.Prod.Lex
import Mathlib.Order.WellFounded

/-!
Every fair schedule of single operations ends, if the whole critical sections can only be executed finitely
often.
-/

namespace Grann

variable {σ : Type}

/-- The operations left in the critical section a task is in. -/
def FTask.cost (mem : List Vec) : FTask σ → Nat
  | .out _ => 0
  | .inside v _ p =>
    match mem[v]? with
    | some x => p.cost x.items
    | none => 0

/-- 1 for a task that has not entered a critical section. -/
def FTask.outs : FTask σ → Nat
  | .out _ => 1
  | .inside _ _ _ => 0

def FSt.costs (F : FSt σ) : Nat := (F.ts.map (FTask.cost F.mem)).sum
def FSt.outs (F : FSt σ) : Nat := (F.ts.map FTask.outs).sum

theorem fStep_disabled {next : Nat → σ → Next σ} {F : FSt σ} {A : ASt σ} (hS : Sim next F A) {i : Nat} (h : F.enabled next i = false) :
    fStep next F i = .ok F := by
  unfold FSt.enabled at h
  unfold fStep
  cases ht : F.ts[i]? with
  | none => rfl
  | some t =>
    rw [ht] at h
    cases t with
    | inside v e p => cases h
    | out s =>
      dsimp only at h ⊢
      cases hn : next i s with
      | halt => rfl
      | priv r => rw [hn] at h; cases h
      | touch v m s' => rw [hn] at h; cases h
      | crit v e body =>
        rw [hn] at h
        dsimp only at h ⊢
        have h : F.ts.any (FTask.blocks v e) = true := by simpa using h
        obtain ⟨u, hu, hb⟩ := List.any_eq_true.1 h
        cases u with
        | out s => cases hb
        | inside w e' q =>
          have hw : w = v := by
            unfold FTask.blocks at hb
            simp only [Bool.and_eq_true, beq_iff_eq] at hb
            exact hb.1
          subst hw
          obtain ⟨j, hj⟩ := List.getElem?_of_mem hu
          obtain ⟨_, _, x, _, -, -, g3, -⟩ := hS.ins j w e' q hj
          have := (List.getElem?_eq_some_iff.1 g3).1
          rw [if_neg (by omega), if_pos h]

theorem outs_set_out (F : FSt σ) (i v : Nat) (e : Bool) (p p' : VProg (Res σ))
    (ht : F.ts[i]? = some (.inside v e p)) : ∀ (l : List (FTask σ)), l = F.ts →
    ((l.set i (.inside v e p')).map FTask.outs) = l.map FTask.outs := by
  rintro l rfl
  apply List.ext_getElem?
  intro j
  rw [List.getElem?_map, List.getElem?_map]
  rcases eq_or_ne i j with rfl | hne
  · rw [List.getElem?_set_self (List.getElem?_eq_some_iff.1 ht).1, ht]
    rfl
  · rw [List.getElem?_set_ne hne]

/-- A step of a task that can go on and that the machine with whole critical sections does not make brings
the end of a critical section nearer. -/
theorem quiet_less {next : Nat → σ → Next σ} {F F' : FSt σ} {A : ASt σ} {i : Nat} (hS : Sim next F A)
    (hq : Quiet next F i F') (he : F.enabled next i = true) :
    F'.outs < F.outs ∨ (F'.outs = F.outs ∧ F'.costs < F.costs) := by
  cases hq with
  | stay h => rw [h] at he; cases he
  | enter t v e body ht =>
    left
    exact sum_map_set_lt FTask.outs _ _ _ _ ht (by show 0 < 1; decide)
  | op v e p p' x x' ht hx hc hro =>
    right
    refine ⟨?_, ?_⟩
    · unfold FSt.outs
      rw [outs_set_out F i v e p p' ht F.ts rfl]
    · have hvlt := (List.getElem?_eq_some_iff.1 hx).1
      have hlt := (List.getElem?_eq_some_iff.1 ht).1
      have hlist : (F.ts.set i (.inside v e p')).map (FTask.cost (F.mem.set v x')) =
          (F.ts.map (FTask.cost F.mem)).set i (p'.cost x'.items) := by
        apply List.ext_getElem?
        intro j
        rw [List.getElem?_map]
        rcases eq_or_ne i j with rfl | hne
        · rw [List.getElem?_set_self hlt, List.getElem?_set_self (by simpa using hlt)]
          show some (FTask.cost (F.mem.set v x') (.inside v e p')) = _
          unfold FTask.cost
          dsimp only
          rw [List.getElem?_set_self hvlt]
        · rw [List.getElem?_set_ne hne, List.getElem?_set_ne hne, List.getElem?_map]
          cases hj : F.ts[j]? with
          | none => rfl
          | some u =>
            cases u with
            | out s => rfl
            | inside w e' q =>
              show some (FTask.cost _ _) = some (FTask.cost _ _)
              unfold FTask.cost
              dsimp only
              rcases eq_or_ne v w with rfl | hvw
              · obtain ⟨h1, -⟩ := hS.excl i j v e p e' q hne ht hj
                rw [List.getElem?_set_self hvlt, hx]
                dsimp only
                rw [hro h1]
              · rw [List.getElem?_set_ne hvw]
      unfold FSt.costs
      dsimp only
      rw [hlist]
      have h1 : (F.ts.map (FTask.cost F.mem))[i]? = some (p.cost x.items) := by
        rw [List.getElem?_map, ht]
        show some (FTask.cost F.mem (.inside v e p)) = _
        unfold FTask.cost
        dsimp only
        rw [hx]
      have := sum_map_set_lt (fun n : Nat => n) _ _ _ (p'.cost x'.items) h1 (by omega)
      rwa [List.map_id', List.map_id'] at this

theorem fRun_append {next : Nat → σ → Next σ} : ∀ (a b : List Nat) (F F1 : FSt σ),
    fRun next a F = .ok F1 → fRun next (a ++ b) F = fRun next b F1 := by
  intro a
  induction a with
  | nil => intro b F F1 h; cases h; rfl
  | cons i a ih =>
    intro b F F1 h
    unfold fRun at h
    obtain ⟨F2, h2, h⟩ := Res.bind_eq_ok.1 h
    rw [← ih b F2 F1 h, List.cons_append]
    show (fStep next F i >>= fun s' => fRun next (a ++ b) s') = _
    rw [h2]
    rfl

theorem fRun_disabled {next : Nat → σ → Next σ} {F : FSt σ} {A : ASt σ} (hS : Sim next F A) : ∀ (a : List Nat),
    (∀ i ∈ a, F.enabled next i = false) → fRun next a F = .ok F := by
  intro a
  induction a with
  | nil => intro _; rfl
  | cons i a ih =>
    intro h
    unfold fRun
    rw [fStep_disabled hS (h i (by simp))]
    exact ih (fun j hj => h j (by simp [hj]))

theorem aStep_shape {next : Nat → σ → Next σ} {A A' : ASt σ} {i : Nat} (h : aStep next A i = .ok A') :
    A' = A ∨ ∃ t', A'.ts = A.ts.set i t' := by
  unfold aStep at h
  cases ht : A.ts[i]? with
  | none => rw [ht] at h; cases h; exact .inl rfl
  | some t =>
    rw [ht] at h
    dsimp only at h
    cases hn : next i t with
    | halt => rw [hn] at h; cases h; exact .inl rfl
    | priv r =>
      rw [hn] at h
      obtain ⟨t', -, h⟩ := Res.bind_eq_ok.1 h
      cases h
      exact .inr ⟨t', rfl⟩
    | touch v m t' =>
      rw [hn] at h
      obtain ⟨_, -, h⟩ := Res.bind_eq_ok.1 h
      cases h
      exact .inr ⟨t', rfl⟩
    | crit v e body =>
      rw [hn] at h
      obtain ⟨l, -, h⟩ := Res.bind_eq_ok.1 h
      obtain ⟨q, -, h⟩ := Res.bind_eq_ok.1 h
      obtain ⟨t', -, h⟩ := Res.bind_eq_ok.1 h
      cases h
      exact .inr ⟨t', rfl⟩

theorem aStep_length {next : Nat → σ → Next σ} {A A' : ASt σ} {i : Nat} (h : aStep next A i = .ok A') :
    A'.ts.length = A.ts.length := by
  rcases aStep_shape h with rfl | ⟨t', e⟩
  · rfl
  · rw [e, List.length_set]

/-- **Ending.** If the machine with whole critical sections always has a next step, and a measure of its
states goes down with every step of a task that has not ended, then every fair schedule of single
operations ends. -/
theorem fine_ends {next : Nat → σ → Next σ} (hsr : SharedReads next) (P : ASt σ → Prop) (rank : ASt σ → Nat)
    (hstep : ∀ (A : ASt σ) (i : Nat), P A → ∃ A', aStep next A i = .ok A' ∧ P A' ∧
      ∀ t, A.ts[i]? = some t → next i t ≠ .halt → rank A' < rank A)
    (F : FSt σ) (A : ASt σ) (hS : Sim next F A) (hP : P A) (f : Nat → Nat)
    (hfair : ∀ i < F.ts.length, ∀ k, ∃ m ≥ k, f m = i) :
    ∃ N F', fRun next ((List.range N).map f) F = .ok F' ∧
      ∀ (i : Nat) (t : FTask σ), F'.ts[i]? = some t → ∃ s, t = .out s ∧ next i s = .halt := by
  have key : ∀ (m : Nat ×ₗ Nat ×ₗ Nat) (F : FSt σ) (A : ASt σ) (f : Nat → Nat),
      toLex (rank A, toLex (F.outs, F.costs)) = m → Sim next F A → P A →
      (∀ i < F.ts.length, ∀ k, ∃ m ≥ k, f m = i) →
      ∃ N F', fRun next ((List.range N).map f) F = .ok F' ∧
        ∀ (i : Nat) (t : FTask σ), F'.ts[i]? = some t → ∃ s, t = .out s ∧ next i s = .halt := by
    intro m
    induction m using WellFoundedLT.induction with
    | ind m ih =>
      intro F A f hm hS hP hf
      by_cases hfin : ∀ (i : Nat) (t : FTask σ), F.ts[i]? = some t → ∃ s, t = .out s ∧ next i s = .halt
      · exact ⟨0, F, rfl, hfin⟩
      · push Not at hfin
        obtain ⟨i0, t0, ht0, hw⟩ := hfin
        obtain ⟨j, hj⟩ := no_deadlock (next := next) F i0 t0 ht0 hw
        have hjlt : j < F.ts.length := by
          unfold FSt.enabled at hj
          cases h : F.ts[j]? with
          | none => rw [h] at hj; cases hj
          | some t => exact (List.getElem?_eq_some_iff.1 h).1
        obtain ⟨m0, -, hm0⟩ := hf j hjlt 0
        have hex : ∃ k, F.enabled next (f k) = true := ⟨m0, by rw [hm0]; exact hj⟩
        classical
        obtain ⟨k, hk, hmin⟩ : ∃ k, F.enabled next (f k) = true ∧ ∀ l < k, F.enabled next (f l) = false :=
          ⟨Nat.find hex, Nat.find_spec hex, fun l hl => by simpa using Nat.find_min hex hl⟩
        have hpre : fRun next ((List.range k).map f) F = .ok F := by
          apply fRun_disabled hS
          intro i hi
          obtain ⟨l, hl, rfl⟩ := List.mem_map.1 hi
          exact hmin l (List.mem_range.1 hl)
        obtain ⟨hok, herr⟩ := fStep_sim hsr hS (f k)
        obtain ⟨A', ha, hPA', hrank⟩ := hstep A (f k) hP
        cases hs : fStep next F (f k) with
        | error err =>
          have := herr err hs
          rw [ha] at this
          cases this
        | ok F1 =>
          have hcase : ∃ A1, Sim next F1 A1 ∧ P A1 ∧
              toLex (rank A1, toLex (F1.outs, F1.costs)) < toLex (rank A, toLex (F.outs, F.costs)) := by
            rcases hok F1 hs with ⟨hq, hS1⟩ | ⟨A1, ha1, hS1, t, ht, hne⟩
            · refine ⟨A, hS1, hP, ?_⟩
              rw [Prod.Lex.toLex_lt_toLex, Prod.Lex.toLex_lt_toLex]
              exact .inr ⟨rfl, quiet_less hS hq hk⟩
            · rw [ha] at ha1
              cases ha1
              refine ⟨A', hS1, hPA', ?_⟩
              rw [Prod.Lex.toLex_lt_toLex]
              exact .inl (hrank t ht hne)
          obtain ⟨A1, hS1, hP1, hlt⟩ := hcase
          rw [hm] at hlt
          have hlen : F1.ts.length = F.ts.length := by
            have h1 := hS1.lenTs
            have h0 := hS.lenTs
            rcases hok F1 hs with ⟨hq, -⟩ | ⟨A2, ha2, hS2, -⟩
            · cases hq <;> simp
            · have h2 := hS2.lenTs
              rw [h2, h0]
              exact aStep_length ha2
          obtain ⟨N, F', e', hfin'⟩ := ih _ hlt F1 A1 (fun l => f (k + 1 + l)) rfl hS1 hP1 (by
            intro i hi l
            obtain ⟨m', hm', he⟩ := hf i (by omega) (k + 1 + l)
            exact ⟨m' - (k + 1), by omega, by
              show f (k + 1 + (m' - (k + 1))) = i
              rw [← he]
              congr 1
              omega⟩)
          refine ⟨k + 1 + N, F', ?_, hfin'⟩
          have hfirst : fRun next ((List.range (k + 1)).map f) F = .ok F1 := by
            rw [List.range_succ, List.map_append, fRun_append _ _ _ _ hpre]
            unfold fRun
            show (fStep next F (f k) >>= fun s' => fRun next [] s') = _
            rw [hs]
            rfl
          rw [List.range_add, List.map_append, fRun_append _ _ _ _ hfirst, List.map_map]
          exact e'
  exact key _ F A f rfl hS hP hfair

/-! ## The build -/

def BPhase.plainLink : BPhase → Nat
  | .plain (.link _) => 1
  | _ => 0

def buildRank {V : Type} (cfg : BuildCfg V) (A : ASt BPhase) : Nat :=
  2 * cfg.total (absSt A) + (A.ts.map BPhase.plainLink).sum

theorem sum_map_set_le {α : Type} (f : α → Nat) (hf : ∀ a, f a ≤ 1) : ∀ (l : List α) (i : Nat) (b : α),
    ((l.set i b).map f).sum ≤ (l.map f).sum + 1 := by
  intro l
  induction l with
  | nil => intro i b; simp
  | cons x l ih =>
    intro i b
    cases i with
    | zero => have := hf b; simp; omega
    | succ i => have := ih i b; simp only [List.set_cons_succ, List.map_cons, List.sum_cons]; omega

theorem plainLink_le (t : BPhase) : t.plainLink ≤ 1 := by
  unfold BPhase.plainLink
  split <;> omega

theorem buildRank_step {V : Type} {cfg : BuildCfg V} (h : cfg.OK) (A : ASt BPhase) (i : Nat)
    (hP : BInv cfg (absSt A)) : ∃ A', aStep (buildNext cfg) A i = .ok A' ∧ BInv cfg (absSt A') ∧
      ∀ t, A.ts[i]? = some t → buildNext cfg i t ≠ .halt → buildRank cfg A' < buildRank cfg A := by
  obtain ⟨hok, herr⟩ := aStep_build cfg A i
  obtain ⟨s', e1, h1, -, hlt, -⟩ := total_step h (absSt A) i hP
  cases hs : aStep (buildNext cfg) A i with
  | error err =>
    have := herr err hs
    rw [e1] at this
    cases this
  | ok A' =>
    refine ⟨A', rfl, ?_⟩
    rcases hok A' hs with ⟨he, p, hp, hts⟩ | hb
    · refine ⟨by rw [he]; exact hP, fun t ht hne => ?_⟩
      unfold buildRank
      rw [he, hts]
      have := sum_map_set_lt BPhase.plainLink A.ts i _ (.reserved p) hp (by show 0 < 1; decide)
      omega
    · rw [e1] at hb
      cases hb
      refine ⟨h1, fun t ht hne => ?_⟩
      have hti : (absSt A).tasks[i]? = some t.abs := by
        show (A.ts.map BPhase.abs)[i]? = _
        rw [List.getElem?_map, ht]
        rfl
      have hi : i < cfg.n := by rw [← hP.tasksLen]; exact (List.getElem?_eq_some_iff.1 hti).1
      have hnd : t.abs ≠ .done := by
        intro hd
        cases t with
        | plain u =>
          have hd : u = .done := hd
          subst hd
          exact hne rfl
        | reserved p => cases hd
      have h2 := hlt hi (by rw [hti]; exact fun e => hnd (Option.some.inj e))
      unfold buildRank
      have h3 : (A'.ts.map BPhase.plainLink).sum ≤ (A.ts.map BPhase.plainLink).sum + 1 := by
        rcases aStep_shape hs with rfl | ⟨t', e⟩
        · omega
        · rw [e]; exact sum_map_set_le _ plainLink_le _ _ _
      omega

end Grann
