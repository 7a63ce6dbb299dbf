import Verif.Model.BuildFine
import Verif.Proofs.Locks
import Verif.Proofs.Build
/-!
# The parallel build with single operations, against the build with whole critical sections
-/

namespace Grann

/-! ## What the critical sections do -/

theorem loadFrom_run {β : Type} (k : List Nat → VProg β) (l : List Nat) : ∀ (n j : Nat) (acc : List Nat),
    j + n = l.length → acc = l.take j → (loadFrom k n j acc).run l = (k l).run l
  | 0, j, acc, h, ha => by
    subst ha
    unfold loadFrom
    rw [List.take_of_length_le (by omega)]
  | n + 1, j, acc, h, ha => by
    unfold loadFrom
    have hj : l[j]? = some (l[j]'(by omega)) := List.getElem?_eq_getElem (by omega)
    simp only [VProg.run, hj]
    refine loadFrom_run k l n (j + 1) _ (by omega) ?_
    rw [ha, List.take_succ_eq_append_getElem (by omega)]

theorem copyProg_run {β : Type} (k : List Nat → VProg β) (l : List Nat) : (copyProg k).run l = (k l).run l := by
  unfold copyProg
  simp only [VProg.run]
  exact loadFrom_run k l l.length 0 [] (by omega) rfl

theorem findFrom_run {β : Type} (y : Nat) (k : Bool → VProg β) (l : List Nat) : ∀ (n j : Nat),
    j + n = l.length → (findFrom y k n j).run l = (k ((l.drop j).contains y)).run l
  | 0, j, h => by
    unfold findFrom
    rw [List.drop_of_length_le (by omega)]
    rfl
  | n + 1, j, h => by
    unfold findFrom
    have hj : l[j]? = some (l[j]'(by omega)) := List.getElem?_eq_getElem (by omega)
    simp only [VProg.run, hj]
    rw [List.drop_eq_getElem_cons (by omega), List.contains_cons]
    by_cases hy : l[j] = y
    · rw [if_pos hy, hy]
      simp
    · rw [if_neg hy, findFrom_run y k l n (j + 1) (by omega)]
      have : (y == l[j]) = false := by simpa using fun h => hy h.symm
      rw [this, Bool.false_or]

theorem findProg_run {β : Type} (y : Nat) (k : Bool → VProg β) (l : List Nat) :
    (findProg y k).run l = (k (l.contains y)).run l := by
  unfold findProg
  simp only [VProg.run]
  rw [findFrom_run y k l l.length 0 (by omega), List.drop_zero]

theorem pushProg_run {β : Type} (k : VProg β) : ∀ (xs l : List Nat), (pushProg k xs).run l = k.run (l ++ xs)
  | [], l => by rw [List.append_nil]; rfl
  | x :: xs, l => by
    unfold pushProg
    simp only [VProg.run]
    rw [pushProg_run k xs, List.append_assoc]
    rfl

theorem loadFrom_readOnly {β : Type} (k : List Nat → VProg β) (hk : ∀ l, (k l).ReadOnly) :
    ∀ (n j : Nat) (acc : List Nat), (loadFrom k n j acc).ReadOnly
  | 0, _, acc => hk acc
  | n + 1, j, acc => fun x => loadFrom_readOnly k hk n (j + 1) (acc ++ [x])

theorem copyProg_readOnly {β : Type} (k : List Nat → VProg β) (hk : ∀ l, (k l).ReadOnly) :
    (copyProg k).ReadOnly := fun n => loadFrom_readOnly k hk n 0 []

/-- What a task does next, by cases. -/
theorem buildNext_crit {V : Type} {cfg : BuildCfg V} {i v : Nat} {e : Bool} {t : BPhase}
    {body : VProg (Res BPhase)} (h : buildNext cfg i t = .crit v e body) :
    (e = false ∧ body.ReadOnly) ∨ (e = true ∧ v = i) ∨
    (∃ rest, e = true ∧ body = recipProg cfg i v rest) ∨
    (∃ copy rest new, e = true ∧ reprune cfg cfg.topKRecip v (copy ++ [i]) = .ok new ∧
      body = .clear (pushProg (.ret (.ok (.plain (.recip rest)))) new)) := by
  cases t with
  | reserved pruned =>
    unfold buildNext at h
    cases h
    exact .inr (.inl ⟨rfl, rfl⟩)
  | plain t =>
    cases t with
    | done => unfold buildNext at h; cases h
    | todo => unfold buildNext at h; cases h
    | link pruned => unfold buildNext at h; cases h
    | search g =>
      unfold buildNext at h
      dsimp only at h
      split at h
      · split at h
        · split at h
          · cases h
            exact .inl ⟨rfl, copyProg_readOnly _ (fun _ => trivial)⟩
          · cases h
        · cases h
      · cases h
    | recip ds =>
      cases ds with
      | nil => unfold buildNext at h; cases h
      | cons des rest =>
        unfold buildNext at h
        cases h
        exact .inr (.inr (.inl ⟨rest, rfl, rfl⟩))
    | prune des copy rest =>
      unfold buildNext at h
      dsimp only at h
      cases hr : reprune cfg cfg.topKRecip des (copy ++ [i]) with
      | error err => rw [hr] at h; cases h
      | ok new =>
        rw [hr] at h
        cases h
        exact .inr (.inr (.inr ⟨copy, rest, new, rfl, hr, rfl⟩))

theorem buildNext_shared {V : Type} (cfg : BuildCfg V) : SharedReads (buildNext cfg) := by
  intro i s v body h
  rcases buildNext_crit h with ⟨-, h⟩ | ⟨h, -⟩ | ⟨_, h, -⟩ | ⟨_, _, _, h, -⟩
  · exact h
  · cases h
  · cases h
  · cases h

theorem buildNext_touch {V : Type} {cfg : BuildCfg V} {i v m : Nat} {t t' : BPhase}
    (h : buildNext cfg i t = .touch v m t') : v = i ∧ m = reserveArg cfg.R := by
  cases t with
  | reserved pruned => unfold buildNext at h; cases h
  | plain t =>
    cases t with
    | done => unfold buildNext at h; cases h
    | todo => unfold buildNext at h; cases h
    | link pruned => unfold buildNext at h; cases h; exact ⟨rfl, rfl⟩
    | search g =>
      unfold buildNext at h
      dsimp only at h
      split at h
      · split at h
        · split at h <;> cases h
        · cases h
      · cases h
    | recip ds =>
      cases ds with
      | nil => unfold buildNext at h; cases h
      | cons des rest => unfold buildNext at h; cases h
    | prune des copy rest =>
      unfold buildNext at h
      dsimp only at h
      cases hr : reprune cfg cfg.topKRecip des (copy ++ [i]) with
      | error err => rw [hr] at h; cases h
      | ok new => rw [hr] at h; cases h

theorem buildNext_halt {V : Type} {cfg : BuildCfg V} {i : Nat} {t : BPhase}
    (h : buildNext cfg i t = .halt) : t = .plain .done := by
  cases t with
  | reserved pruned => unfold buildNext at h; cases h
  | plain t =>
    cases t with
    | done => rfl
    | todo => unfold buildNext at h; cases h
    | link pruned => unfold buildNext at h; cases h
    | search g =>
      unfold buildNext at h
      dsimp only at h
      split at h
      · split at h
        · split at h <;> cases h
        · cases h
      · cases h
    | recip ds =>
      cases ds with
      | nil => unfold buildNext at h; cases h
      | cons des rest => unfold buildNext at h; cases h
    | prune des copy rest =>
      unfold buildNext at h
      dsimp only at h
      cases hr : reprune cfg cfg.topKRecip des (copy ++ [i]) with
      | error err => rw [hr] at h; cases h
      | ok new => rw [hr] at h; cases h

/-! ## The machine with whole critical sections is the one of `Model/Build.lean` -/

def BPhase.abs : BPhase → Task
  | .plain t => t
  | .reserved p => .link p

def absSt (A : ASt BPhase) : BSt := ⟨A.adj, A.ts.map BPhase.abs⟩

theorem rd_err {α : Type} {l : List α} {i : Nat} {e : Err} (h : rd l i = .error e) : e = .ub := by
  unfold rd at h
  split at h <;> cases h
  rfl

theorem greedyIter_eq {V : Type} (c : Ctx V) (q : V) (filters : List Label) (L : Nat) (graph : List (List Nat))
    (s : GSt) : greedyIter c q filters L graph s = (do
      let x ← rd s.ps.pool s.k
      if x.flag then do
        let des ← rd graph x.id
        greedyOn c q filters L s x des
      else .ok { s with k := s.k + 1 }) := by
  unfold greedyIter greedyOn
  cases hx : rd s.ps.pool s.k with
  | error e => rfl
  | ok x =>
    simp only [Res.ok_bind]
    split
    · have hlt : s.k < s.ps.pool.length := (List.getElem?_eq_some_iff.1 (rd_eq_ok_iff.mp hx)).1
      rw [wr_ok hlt]
      simp only [Res.ok_bind]
    · rfl

theorem aStep_build {V : Type} (cfg : BuildCfg V) (A : ASt BPhase) (i : Nat) :
    (∀ A', aStep (buildNext cfg) A i = .ok A' →
      (absSt A' = absSt A ∧ ∃ p, A.ts[i]? = some (.plain (.link p)) ∧ A'.ts = A.ts.set i (.reserved p)) ∨
      buildStep cfg (absSt A) i = .ok (absSt A')) ∧
    (∀ err, aStep (buildNext cfg) A i = .error err → buildStep cfg (absSt A) i = .error err) := by
  unfold aStep
  cases ht : A.ts[i]? with
  | none =>
    refine ⟨fun A' h => ?_, fun err h => by cases h⟩
    cases h
    right
    unfold buildStep
    have : (absSt A).tasks[i]? = none := by
      show (A.ts.map BPhase.abs)[i]? = _
      rw [List.getElem?_map, ht]
      rfl
    rw [this]
  | some t =>
    have hti : (absSt A).tasks[i]? = some t.abs := by
      show (A.ts.map BPhase.abs)[i]? = _
      rw [List.getElem?_map, ht]
      rfl
    unfold buildStep
    rw [hti]
    dsimp only
    have hset : ∀ (t' : BPhase), (A.ts.set i t').map BPhase.abs = (A.ts.map BPhase.abs).set i t'.abs :=
      fun t' => List.map_set
    cases t with
    | reserved pruned =>
      unfold buildNext
      simp only [BPhase.abs]
      cases hr : rd A.adj i with
      | error e =>
        have := rd_err hr
        subst this
        have hr' : rd (absSt A).adj i = .error .ub := hr
        rw [hr']
        exact ⟨fun A' h => (by cases h), fun err h => by cases h; rfl⟩
      | ok l =>
        have hr' : rd (absSt A).adj i = .ok l := hr
        rw [hr']
        simp only [Res.ok_bind, pushProg_run, VProg.run]
        have hlt : i < A.adj.length := (List.getElem?_eq_some_iff.1 (rd_eq_ok_iff.mp hr)).1
        refine ⟨fun A' h => ?_, fun err h => by cases h⟩
        cases h
        right
        rw [wr_ok (show i < (absSt A).adj.length from hlt)]
        show Except.ok _ = Except.ok _
        unfold absSt
        dsimp only
        rw [hset]
        rfl
    | plain t =>
      cases t with
      | done =>
        unfold buildNext
        refine ⟨fun A' h => ?_, fun err h => by cases h⟩
        cases h
        exact .inr rfl
      | todo =>
        unfold buildNext
        simp only [BPhase.abs]
        by_cases hn : cfg.n / 10 = 0
        · rw [if_pos hn, if_pos hn]
          exact ⟨fun A' h => (by cases h), fun err h => by cases h; rfl⟩
        · rw [if_neg hn, if_neg hn]
          cases hi : cfg.init i with
          | error e => exact ⟨fun A' h => (by cases h), fun err h => by cases h; rfl⟩
          | ok init =>
            simp only [Res.ok_bind]
            cases hv : rd cfg.env.ctx.data i with
            | error e => exact ⟨fun A' h => (by cases h), fun err h => by cases h; rfl⟩
            | ok v =>
              simp only [Res.ok_bind]
              cases hg : greedyStart cfg.sortF cfg.env.ctx v cfg.L init with
              | error e => exact ⟨fun A' h => (by cases h), fun err h => by cases h; rfl⟩
              | ok g =>
                refine ⟨fun A' h => ?_, fun err h => by cases h⟩
                cases h
                right
                simp only [Res.ok_bind]
                unfold absSt
                dsimp only
                rw [hset]
                rfl
      | search g =>
        unfold buildNext
        simp only [BPhase.abs]
        by_cases hk : g.k < g.ps.cur
        · rw [if_pos hk, if_pos hk]
          cases hv : rd cfg.env.ctx.data i with
          | error e =>
            have := rd_err hv
            subst this
            exact ⟨fun A' h => (by cases h), fun err h => by cases h; rfl⟩
          | ok v =>
            simp only [Res.ok_bind]
            rw [greedyIter_eq]
            cases hx : rd g.ps.pool g.k with
            | error e =>
              have := rd_err hx
              subst this
              exact ⟨fun A' h => (by cases h), fun err h => by cases h; rfl⟩
            | ok x =>
              simp only [Res.ok_bind]
              by_cases hf : x.flag = true
              · rw [if_pos hf, if_pos hf]
                dsimp only
                cases hr : rd A.adj x.id with
                | error e =>
                  have hr' : rd (absSt A).adj x.id = .error e := hr
                  rw [hr']
                  exact ⟨fun A' h => (by cases h), fun err h => by cases h; rfl⟩
                | ok l =>
                  have hr' : rd (absSt A).adj x.id = .ok l := hr
                  rw [hr']
                  simp only [Res.ok_bind, copyProg_run, VProg.run]
                  cases hg : greedyOn cfg.env.ctx v (cfg.filters i) cfg.L g x l with
                  | error e => exact ⟨fun A' h => (by cases h), fun err h => by cases h; rfl⟩
                  | ok g' =>
                    refine ⟨fun A' h => ?_, fun err h => by cases h⟩
                    cases h
                    right
                    simp only [Res.ok_bind]
                    unfold absSt
                    dsimp only
                    have hself : A.adj.set x.id l = A.adj := by
                      obtain ⟨hlt, hl⟩ := List.getElem?_eq_some_iff.1 (rd_eq_ok_iff.mp hr)
                      rw [← hl, List.set_getElem_self]
                    rw [hset, hself]
                    rfl
              · rw [if_neg hf, if_neg hf]
                refine ⟨fun A' h => ?_, fun err h => by cases h⟩
                cases h
                right
                simp only [Res.ok_bind]
                unfold absSt
                dsimp only
                rw [hset]
                rfl
        · rw [if_neg hk, if_neg hk]
          cases hp : pruneBy cfg cfg.topKOwn i (if cfg.wholePool then g.ps.pool else g.expanded) with
          | error e => exact ⟨fun A' h => (by cases h), fun err h => by cases h; rfl⟩
          | ok pruned =>
            refine ⟨fun A' h => ?_, fun err h => by cases h⟩
            cases h
            right
            simp only [Res.ok_bind]
            unfold absSt
            dsimp only
            rw [hset]
            rfl
      | link pruned =>
        unfold buildNext
        simp only [BPhase.abs]
        cases hr : rd A.adj i with
        | error e =>
          have hr' : rd (absSt A).adj i = .error e := hr
          rw [hr']
          exact ⟨fun A' h => (by cases h), fun err h => by cases h; rfl⟩
        | ok l =>
          refine ⟨fun A' h => ?_, fun err h => by cases h⟩
          cases h
          refine .inl ⟨?_, pruned, rfl, rfl⟩
          unfold absSt
          dsimp only
          rw [hset]
          congr 1
          obtain ⟨hlt, hl⟩ := List.getElem?_eq_some_iff.1 ht
          apply List.ext_getElem?
          intro j
          rcases eq_or_ne i j with rfl | hne
          · rw [List.getElem?_set_self (by simpa using hlt), List.getElem?_map, ht]
            rfl
          · rw [List.getElem?_set_ne hne]
      | recip ds =>
        cases ds with
        | nil =>
          unfold buildNext
          refine ⟨fun A' h => ?_, fun err h => by cases h⟩
          cases h
          right
          simp only [BPhase.abs]
          unfold absSt
          dsimp only
          rw [hset]
          rfl
        | cons des rest =>
          unfold buildNext
          simp only [BPhase.abs]
          cases hr : rd A.adj des with
          | error e =>
            have hr' : rd (absSt A).adj des = .error e := hr
            rw [hr']
            exact ⟨fun A' h => (by cases h), fun err h => by cases h; rfl⟩
          | ok l =>
            have hr' : rd (absSt A).adj des = .ok l := hr
            rw [hr']
            have hlt : des < A.adj.length := (List.getElem?_eq_some_iff.1 (rd_eq_ok_iff.mp hr)).1
            have hself : A.adj.set des l = A.adj := by
              obtain ⟨hlt, hl⟩ := List.getElem?_eq_some_iff.1 (rd_eq_ok_iff.mp hr)
              rw [← hl, List.set_getElem_self]
            unfold recipProg
            simp only [Res.ok_bind, findProg_run]
            by_cases hc : l.contains i = true
            · rw [if_pos hc, if_pos hc]
              simp only [VProg.run, Res.ok_bind]
              refine ⟨fun A' h => ?_, fun err h => by cases h⟩
              cases h
              right
              unfold absSt
              dsimp only
              rw [hset, hself]
              rfl
            · rw [if_neg hc, if_neg hc]
              simp only [VProg.run]
              by_cases hd : 10 * l.length < 13 * cfg.R
              · rw [if_pos hd, if_pos hd]
                simp only [VProg.run, Res.ok_bind]
                refine ⟨fun A' h => ?_, fun err h => by cases h⟩
                cases h
                right
                rw [wr_ok (show des < (absSt A).adj.length from hlt)]
                unfold absSt
                dsimp only
                rw [hset]
                rfl
              · rw [if_neg hd, if_neg hd]
                simp only [copyProg_run, VProg.run, Res.ok_bind]
                refine ⟨fun A' h => ?_, fun err h => by cases h⟩
                cases h
                right
                unfold absSt
                dsimp only
                rw [hset, hself]
                rfl
      | prune des copy rest =>
        unfold buildNext
        simp only [BPhase.abs]
        cases hp : reprune cfg cfg.topKRecip des (copy ++ [i]) with
        | error e => exact ⟨fun A' h => (by cases h), fun err h => by cases h; rfl⟩
        | ok new =>
          dsimp only
          simp only [Res.ok_bind]
          cases hr : rd A.adj des with
          | error e =>
            have := rd_err hr
            subst this
            have hge : A.adj.length ≤ des := by
              by_contra hc
              rw [rd_ok (by omega)] at hr
              cases hr
            rw [wr_ub (show (absSt A).adj.length ≤ des from hge)]
            exact ⟨fun A' h => (by cases h), fun err h => by cases h; rfl⟩
          | ok l =>
            have hlt : des < A.adj.length := (List.getElem?_eq_some_iff.1 (rd_eq_ok_iff.mp hr)).1
            simp only [VProg.run, pushProg_run, Res.ok_bind, List.nil_append]
            refine ⟨fun A' h => ?_, fun err h => by cases h⟩
            cases h
            right
            rw [wr_ok (show des < (absSt A).adj.length from hlt)]
            unfold absSt
            dsimp only
            rw [hset]
            rfl

theorem aRun_build {V : Type} (cfg : BuildCfg V) : ∀ (is : List Nat) (A : ASt BPhase),
    (∀ A', aRun (buildNext cfg) is A = .ok A' → ∃ js, runSched cfg js (absSt A) = .ok (absSt A')) ∧
    (∀ err, aRun (buildNext cfg) is A = .error err → ∃ js, runSched cfg js (absSt A) = .error err)
  | [], A => by
    refine ⟨fun A' h => ?_, fun err h => by cases h⟩
    cases h
    exact ⟨[], rfl⟩
  | i :: is, A => by
    obtain ⟨h1, h2⟩ := aStep_build cfg A i
    simp only [aRun]
    cases hs : aStep (buildNext cfg) A i with
    | error e =>
      refine ⟨fun A' h => (by cases h), fun err h => ?_⟩
      cases h
      refine ⟨[i], ?_⟩
      simp only [runSched]
      rw [h2 _ hs]
      rfl
    | ok A1 =>
      simp only [Res.ok_bind]
      obtain ⟨k1, k2⟩ := aRun_build cfg is A1
      rcases h1 A1 hs with ⟨he, -⟩ | he
      · rw [he] at k1 k2
        exact ⟨k1, k2⟩
      · refine ⟨fun A' h => ?_, fun err h => ?_⟩
        · obtain ⟨js, e⟩ := k1 A' h
          exact ⟨i :: js, by simp only [runSched]; rw [he]; exact e⟩
        · obtain ⟨js, e⟩ := k2 err h
          exact ⟨i :: js, by simp only [runSched]; rw [he]; exact e⟩

theorem buildFineStart_sim {V : Type} (cfg : BuildCfg V) (R : Nat) (old : List Vec) :
    Sim (buildNext cfg) (buildFineStart R old)
      ⟨old.map Vec.items, List.replicate old.length (.plain .todo)⟩ := by
  have h := Sim.start (buildNext cfg) (old.map (fun x => x.reserve (firstCap R)))
    (List.replicate old.length (.plain .todo))
  rw [List.map_replicate, List.map_map] at h
  exact h

theorem buildFineStart_abs (old : List Vec) :
    absSt ⟨old.map Vec.items, List.replicate old.length (.plain .todo)⟩ = BSt.start (old.map Vec.items) := by
  unfold absSt BSt.start
  simp [BPhase.abs]

/-! ## Lengths of pruned lists -/

theorem pruneLoop_length {V : Type} (e : PruneEnv V) (alpha : F32) (point R : Nat) : ∀ (cs : List Nbr)
    (occ : List F32) (res out : List Nbr), res.length ≤ R → pruneLoop e alpha point R cs occ res = .ok out →
    out.length ≤ R
  | [], _, res, out, hr, h => by
    unfold pruneLoop at h
    cases h
    exact hr
  | p :: rest, occ, res, out, hr, h => by
    unfold pruneLoop at h
    split at h
    · cases h; exact hr
    · cases occ with
      | nil => cases h
      | cons o occ =>
        dsimp only at h
        split at h
        · exact pruneLoop_length e alpha point R rest occ res out hr h
        · split at h
          · exact pruneLoop_length e alpha point R rest occ res out hr h
          · cases ho : occludeAll e alpha p rest occ with
            | error err => rw [ho] at h; cases h
            | ok occ' =>
              rw [ho] at h
              exact pruneLoop_length e alpha point R rest occ' _ out (by simp; omega) h

theorem topKLoop_length (point R : Nat) : ∀ (cs : List Nbr) (out : List Nat), out.length ≤ R →
    (topKLoop point R cs out).length ≤ R
  | [], out, h => by unfold topKLoop; exact h
  | p :: rest, out, h => by
    unfold topKLoop
    split
    · exact h
    · split
      · exact topKLoop_length point R rest out h
      · exact topKLoop_length point R rest _ (by simp; omega)

theorem reprune_length {V : Type} {cfg : BuildCfg V} {topK : Bool} {des : Nat} {nbrs new : List Nat}
    (h : reprune cfg topK des nbrs = .ok new) : new.length ≤ cfg.R := by
  unfold reprune at h
  cases hp : dummyPool cfg.env.ctx des nbrs [] with
  | error e => rw [hp] at h; cases h
  | ok pool =>
    rw [hp] at h
    simp only [Res.ok_bind] at h
    unfold pruneBy at h
    split at h
    · cases h
      unfold pruneTopK
      split
      · simp
      · exact topKLoop_length _ _ _ _ (by simp)
    · unfold pruneAlpha at h
      split at h
      · cases h; simp
      · cases hl : pruneLoop cfg.env cfg.alpha des cfg.R ((cfg.sortF pool).take cfg.C)
          (List.replicate pool.length F32.zero) [] with
        | error e => rw [hl] at h; cases h
        | ok res =>
          rw [hl] at h
          cases h
          have := pruneLoop_length _ _ _ _ _ _ _ _ (by simp) hl
          rw [List.length_map]
          exact Nat.le_trans (List.length_filter_le _ _) this

/-! ## Critical sections that do not outgrow a capacity -/

/-- Every `emplace_back` of the program finds fewer than `c` elements. -/
def VProg.NoGrow {β : Type} (c : Nat) : VProg β → List Nat → Prop
  | .ret _, _ => True
  | .size k, l => (k l.length).NoGrow c l
  | .load j k, l => ∀ x, l[j]? = some x → (k x).NoGrow c l
  | .push x k, l => l.length < c ∧ k.NoGrow c (l ++ [x])
  | .clear k, _ => k.NoGrow c []

theorem VProg.noGrow_readOnly {β : Type} (c : Nat) : ∀ (p : VProg β) (l : List Nat), p.ReadOnly → p.NoGrow c l
  | .ret _, _, _ => trivial
  | .size k, l, h => VProg.noGrow_readOnly c (k l.length) l (h _)
  | .load _ k, l, h => fun x _ => VProg.noGrow_readOnly c (k x) l (h _)
  | .push _ _, _, h => h.elim
  | .clear _, _, h => h.elim

theorem pushProg_noGrow {β : Type} (c : Nat) (k : VProg β) (hk : ∀ l, k.NoGrow c l) : ∀ (xs l : List Nat),
    l.length + xs.length ≤ c → (pushProg k xs).NoGrow c l
  | [], l, _ => hk l
  | x :: xs, l, h => by
    unfold pushProg
    simp only [List.length_cons] at h
    exact ⟨by omega, pushProg_noGrow c k hk xs _ (by simp; omega)⟩

theorem findFrom_noGrow {β : Type} (c y : Nat) (k : Bool → VProg β) (l : List Nat) (hk : ∀ b, (k b).NoGrow c l) :
    ∀ (n j : Nat), (findFrom y k n j).NoGrow c l
  | 0, _ => hk false
  | n + 1, j => by
    unfold findFrom
    intro x _
    dsimp only
    split
    · exact hk true
    · exact findFrom_noGrow c y k l hk n (j + 1)

theorem recipProg_noGrow {V : Type} (cfg : BuildCfg V) (i des : Nat) (rest : List Nat) (c : Nat)
    (hc : (13 * cfg.R + 9) / 10 ≤ c) (l : List Nat) : (recipProg cfg i des rest).NoGrow c l := by
  unfold recipProg findProg
  refine findFrom_noGrow c i _ l ?_ _ 0
  intro b
  split
  · trivial
  · show VProg.NoGrow c (if 10 * l.length < 13 * cfg.R then _ else _) l
    split
    · exact ⟨by omega, trivial⟩
    · exact VProg.noGrow_readOnly c _ l (copyProg_readOnly _ (fun _ => trivial))

/-- The capacities are at least those of the beginning, and a task inside the critical section of a vector
other than its own does not outgrow them. -/
structure CapInv (c : Nat) {σ : Type} (F : FSt σ) : Prop where
  cap : ∀ (v : Nat) (x : Vec), F.mem[v]? = some x → c ≤ x.cap
  grow : ∀ (i v : Nat) (e : Bool) (p : VProg (Res σ)) (x : Vec), F.ts[i]? = some (.inside v e p) → v ≠ i →
    F.mem[v]? = some x → p.NoGrow c x.items

theorem Vec.push_cap {x : Vec} {y c : Nat} (h : c ≤ x.cap) : c ≤ (x.push y).cap := by
  unfold Vec.push
  dsimp only
  split <;> omega

theorem fStep_cap {V : Type} {cfg : BuildCfg V} {c : Nat} (hc : (13 * cfg.R + 9) / 10 ≤ c) {F F' : FSt BPhase}
    {A : ASt BPhase} (hS : Sim (buildNext cfg) F A) (h : CapInv c F) (i : Nat)
    (hs : fStep (buildNext cfg) F i = .ok F') : CapInv c F' := by
  have hRc : cfg.R ≤ c := by omega
  -- a task goes on privately
  have hout : ∀ (t' : BPhase), CapInv c { F with ts := F.ts.set i (.out t') } := by
    intro t'
    refine ⟨h.cap, ?_⟩
    intro j v e p x hj
    rcases eq_or_ne i j with rfl | hne
    · simp only [List.getElem?_set_self'] at hj
      cases hh : F.ts[i]? <;> rw [hh] at hj <;> cases hj
    · simp only [List.getElem?_set_ne hne] at hj
      exact h.grow j v e p x hj
  -- a task goes on inside
  have hin : ∀ (v : Nat) (e : Bool) (p p' : VProg (Res BPhase)) (x x' : Vec),
      F.ts[i]? = some (.inside v e p) → F.mem[v]? = some x → c ≤ x'.cap →
      (x'.items = x.items ∨ e = true) → (v ≠ i → p'.NoGrow c x'.items) →
      CapInv c ⟨F.mem.set v x', F.ts.set i (.inside v e p')⟩ := by
    intro v e p p' x x' hi hx hcap hor hno
    have hvlt : v < F.mem.length := (List.getElem?_eq_some_iff.1 hx).1
    have hilt : i < F.ts.length := (List.getElem?_eq_some_iff.1 hi).1
    refine ⟨?_, ?_⟩
    · intro w y hy
      rcases eq_or_ne v w with rfl | hvw
      · simp only [List.getElem?_set_self hvlt] at hy
        cases hy
        exact hcap
      · simp only [List.getElem?_set_ne hvw] at hy
        exact h.cap w y hy
    · intro j w e1 q y hj hwj hy
      rcases eq_or_ne i j with rfl | hne
      · simp only [List.getElem?_set_self hilt] at hj
        cases hj
        simp only [List.getElem?_set_self hvlt] at hy
        cases hy
        exact hno hwj
      · simp only [List.getElem?_set_ne hne] at hj
        rcases eq_or_ne v w with rfl | hvw
        · simp only [List.getElem?_set_self hvlt] at hy
          cases hy
          have he := (hS.excl i j v e p e1 q hne hi hj).1
          rcases hor with hor | hor
          · rw [hor]
            exact h.grow j v e1 q x hj hwj hx
          · rw [he] at hor; cases hor
        · simp only [List.getElem?_set_ne hvw] at hy
          exact h.grow j w e1 q y hj hwj hy
  unfold fStep at hs
  cases hti : F.ts[i]? with
  | none => rw [hti] at hs; cases hs; exact h
  | some t =>
    rw [hti] at hs
    have hilt : i < F.ts.length := (List.getElem?_eq_some_iff.1 hti).1
    cases t with
    | out t =>
      dsimp only at hs
      cases hn : buildNext cfg i t with
      | halt => rw [hn] at hs; cases hs; exact h
      | priv r =>
        rw [hn] at hs
        cases r with
        | error e => cases hs
        | ok t' => cases hs; exact hout t'
      | touch v m t' =>
        rw [hn] at hs
        dsimp only at hs
        cases hx : rd F.mem v with
        | error e => rw [hx] at hs; cases hs
        | ok x =>
          rw [hx] at hs
          cases hs
          have hx' := rd_eq_ok_iff.mp hx
          have hvlt : v < F.mem.length := (List.getElem?_eq_some_iff.1 hx').1
          have h1 := hout t'
          refine ⟨?_, ?_⟩
          · intro w y hy
            rcases eq_or_ne v w with rfl | hvw
            · simp only [List.getElem?_set_self hvlt] at hy
              cases hy
              have := h.cap v x hx'
              unfold Vec.reserve
              dsimp only
              omega
            · simp only [List.getElem?_set_ne hvw] at hy
              exact h.cap w y hy
          · intro j w e1 q y hj hwj hy
            rcases eq_or_ne v w with rfl | hvw
            · simp only [List.getElem?_set_self hvlt] at hy
              cases hy
              exact h1.grow j v e1 q x hj hwj hx'
            · simp only [List.getElem?_set_ne hvw] at hy
              exact h1.grow j w e1 q y hj hwj hy
      | crit v e body =>
        rw [hn] at hs
        dsimp only at hs
        split at hs
        · cases hs
        · split at hs
          · cases hs; exact h
          · cases hs
            refine ⟨h.cap, ?_⟩
            intro j w e1 q y hj hwj hy
            rcases eq_or_ne i j with rfl | hne
            · simp only [List.getElem?_set_self hilt] at hj
              cases hj
              rcases buildNext_crit hn with ⟨-, hr⟩ | ⟨-, he⟩ | ⟨rest, -, rfl⟩ | ⟨copy, rest, new, -, hr, rfl⟩
              · exact VProg.noGrow_readOnly c _ _ hr
              · exact absurd he hwj
              · exact recipProg_noGrow cfg _ _ _ c hc _
              · refine pushProg_noGrow c (VProg.ret (Except.ok (BPhase.plain (.recip rest)) : Res BPhase)) (fun _ => trivial) new [] ?_
                have := reprune_length hr
                simp only [List.length_nil]
                omega
            · simp only [List.getElem?_set_ne hne] at hj
              exact h.grow j w e1 q y hj hwj hy
    | inside v e p =>
      dsimp only at hs
      cases hx : rd F.mem v with
      | error err => rw [hx] at hs; cases hs
      | ok x =>
        rw [hx] at hs
        have hx' := rd_eq_ok_iff.mp hx
        have hself : F.mem.set v x = F.mem := by
          obtain ⟨hlt, hx⟩ := List.getElem?_eq_some_iff.1 hx'
          rw [← hx, List.set_getElem_self]
        have hg : v ≠ i → p.NoGrow c x.items := fun hv => h.grow i v e p x hti hv hx'
        have hcap := h.cap v x hx'
        obtain ⟨_, body, _, _, _, _, _, _, _, g6⟩ := hS.ins i v e p hti
        simp only [Res.ok_bind] at hs
        cases p with
        | ret r =>
          cases r with
          | error err => cases hs
          | ok t' => cases hs; exact hout t'
        | size k =>
          cases hs
          have := hin v e _ (k x.items.length) x x hti hx' hcap (.inl rfl) (fun hv => hg hv)
          rwa [hself] at this
        | load j k =>
          dsimp only at hs
          cases hy : rd x.items j with
          | error err => rw [hy] at hs; cases hs
          | ok y =>
            rw [hy] at hs
            cases hs
            have := hin v e _ (k y) x x hti hx' hcap (.inl rfl) (fun hv => hg hv y (rd_eq_ok_iff.mp hy))
            rwa [hself] at this
        | push y k =>
          cases hs
          refine hin v e _ k x (x.push y) hti hx' (Vec.push_cap hcap) (.inr ?_) (fun hv => (hg hv).2)
          cases e with
          | true => rfl
          | false => exact (g6 rfl).elim
        | clear k =>
          cases hs
          refine hin v e _ k x x.clear hti hx' hcap (.inr ?_) (fun hv => hg hv)
          cases e with
          | true => rfl
          | false => exact (g6 rfl).elim

/-- Without an outgrown capacity nothing races. -/
theorem CapInv.no_race {V : Type} {cfg : BuildCfg V} {c : Nat} (hc : reserveArg cfg.R ≤ c) {F : FSt BPhase}
    {A : ASt BPhase} (hS : Sim (buildNext cfg) F A) (h : CapInv c F) : ¬ F.Racy (buildNext cfg) := by
  -- the only access outside the locks
  have hout : ∀ (i : Nat) (t : BPhase) (a : Cell × Bool), F.ts[i]? = some (.out t) →
      a ∈ F.touches (buildNext cfg) i → a = (.buf i, false) := by
    intro i t a hi ha
    unfold FSt.touches at ha
    rw [hi] at ha
    dsimp only at ha
    cases hn : buildNext cfg i t with
    | halt => rw [hn] at ha; cases ha
    | priv r => rw [hn] at ha; cases ha
    | crit v e b => rw [hn] at ha; cases ha
    | touch v m t' =>
      obtain ⟨rfl, rfl⟩ := buildNext_touch hn
      rw [hn] at ha
      dsimp only at ha
      cases hx : F.mem[v]? with
      | none => rw [hx] at ha; cases ha
      | some x =>
        rw [hx] at ha
        dsimp only at ha
        rw [if_pos (Nat.le_trans hc (h.cap v x hx))] at ha
        simpa using ha
  have hins : ∀ (i j v : Nat) (e : Bool) (p : VProg (Res BPhase)) (w : Bool), i ≠ j →
      F.ts[j]? = some (.inside v e p) → (Cell.buf i, w) ∈ F.touches (buildNext cfg) j → w = false := by
    intro i j v e p w hne hj ha
    unfold FSt.touches at ha
    rw [hj] at ha
    dsimp only at ha
    cases hx : F.mem[v]? with
    | none => rw [hx] at ha; cases ha
    | some x =>
      rw [hx] at ha
      dsimp only at ha
      have hv : v = i := by
        rcases VProg.touches_cell ha with h | h | h
        · injection h with h; exact h.symm
        · cases h
        · cases h
      subst hv
      have hg := h.grow j v e p x hj hne hx
      have hcap := h.cap v x hx
      cases p with
      | ret r => simp [VProg.touches] at ha
      | size k => simpa [VProg.touches] using ha
      | load j k => simpa [VProg.touches] using ha
      | clear k => simpa [VProg.touches] using ha
      | push y k =>
        simp only [VProg.touches] at ha
        rw [if_pos (by have := hg.1; omega)] at ha
        simpa using ha
  rintro ⟨i, j, hr⟩
  have hr' := hr
  rw [raceOf_iff] at hr
  obtain ⟨hne, a, w, w', h1, h2, h3⟩ := hr
  cases hi : F.ts[i]? with
  | none => unfold FSt.touches at h1; rw [hi] at h1; cases h1
  | some ti =>
    cases hj : F.ts[j]? with
    | none => unfold FSt.touches at h2; rw [hj] at h2; cases h2
    | some tj =>
      cases ti with
      | out t =>
        have e1 := hout i t _ hi h1
        injection e1 with e1 e1'
        subst e1 e1'
        cases tj with
        | out t' =>
          have e2 := hout j t' _ hj h2
          injection e2 with e2 e2'
          injection e2 with e2
          exact hne e2
        | inside v e p =>
          have := hins i j v e p w' hne hj h2
          rw [this] at h3
          simp at h3
      | inside v e p =>
        cases tj with
        | out t' =>
          have e2 := hout j t' _ hj h2
          injection e2 with e2 e2'
          subst e2 e2'
          have := hins j i v e p w hne.symm hi h1
          rw [this] at h3
          simp at h3
        | inside v' e' p' =>
          rw [no_race_inside hS hi hj] at hr'
          cases hr'

end Grann
