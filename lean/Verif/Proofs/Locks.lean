import Verif.Model.Locks
import Mathlib.Logic.Basic
import Mathlib.Tactic.ByContra
/-!
# Critical sections take effect as if they were single steps
-/

namespace Grann

variable {σ : Type}

theorem VProg.readOnly_run {β : Type} : ∀ (p : VProg β) (l : List Nat) (x : β) (l' : List Nat), p.ReadOnly →
    p.run l = .ok (x, l') → l' = l
  | .ret _, l, x, l', _, h => by
    simp only [VProg.run, Except.ok.injEq, Prod.mk.injEq] at h; exact h.2.symm
  | .size k, l, x, l', hr, h => VProg.readOnly_run (k l.length) l x l' (hr _) h
  | .load j k, l, x, l', hr, h => by
    simp only [VProg.run] at h
    cases hj : l[j]? with
    | none => rw [hj] at h; cases h
    | some y => rw [hj] at h; exact VProg.readOnly_run (k y) l x l' (hr _) h
  | .push _ _, _, _, _, hr, _ => hr.elim
  | .clear _, _, _, _, hr, _ => hr.elim

/-- What relates a state of the machine with single operations to one of the machine with whole critical
sections: a task inside a critical section has not made its step yet, and what it still has to do leads to
the result of the whole section. -/
structure Sim (next : Nat → σ → Next σ) (F : FSt σ) (A : ASt σ) : Prop where
  lenMem : F.mem.length = A.adj.length
  lenTs : F.ts.length = A.ts.length
  out : ∀ (i : Nat) (s : σ), F.ts[i]? = some (.out s) → A.ts[i]? = some s
  ins : ∀ (i v : Nat) (e : Bool) (p : VProg (Res σ)), F.ts[i]? = some (.inside v e p) → ∃ (s : σ) (body : VProg (Res σ)) (x : Vec) (l : List Nat), A.ts[i]? = some s ∧
    next i s = .crit v e body ∧ F.mem[v]? = some x ∧ A.adj[v]? = some l ∧ p.run x.items = body.run l ∧
    (e = false → p.ReadOnly)
  excl : ∀ (i j v : Nat) (e : Bool) (p : VProg (Res σ)) (e' : Bool) (p' : VProg (Res σ)), i ≠ j → F.ts[i]? = some (.inside v e p) → F.ts[j]? = some (.inside v e' p') →
    e = false ∧ e' = false
  same : ∀ (v : Nat) (x : Vec) (l : List Nat), F.mem[v]? = some x → A.adj[v]? = some l →
    (∀ (i : Nat) (p : VProg (Res σ)), F.ts[i]? ≠ some (.inside v true p)) → x.items = l

/-- The bodies of shared critical sections only read. -/
def SharedReads (next : Nat → σ → Next σ) : Prop :=
  ∀ i s v body, next i s = .crit v false body → body.ReadOnly

theorem not_blocks {ts : List (FTask σ)} {v : Nat} {e : Bool} (h : ts.any (FTask.blocks v e) = false)
    {j : Nat} {e' : Bool} {p : VProg (Res σ)} (hj : ts[j]? = some (.inside v e' p)) : e = false ∧ e' = false := by
  rw [List.any_eq_false] at h
  have := h _ (List.mem_of_getElem? hj)
  simpa [FTask.blocks] using this

/-- A task leaves the place where it is for another private state, the abstract machine doing the same and
replacing the content of nothing that differs. -/
theorem Sim.setOut {next : Nat → σ → Next σ} {F : FSt σ} {A : ASt σ} (h : Sim next F A) {i : Nat} (s' : σ)
    (hsame : ∀ (v : Nat) (x : Vec) (l : List Nat) (p : VProg (Res σ)), F.ts[i]? = some (.inside v true p) →
      F.mem[v]? = some x → A.adj[v]? = some l → x.items = l) :
    Sim next { F with ts := F.ts.set i (.out s') } { A with ts := A.ts.set i s' } := by
  have key : ∀ (j v : Nat) (e : Bool) (p : VProg (Res σ)), (F.ts.set i (.out s'))[j]? = some (.inside v e p) → j ≠ i ∧
      F.ts[j]? = some (.inside v e p) := by
    intro j v e p hj
    rcases eq_or_ne i j with rfl | hne
    · rw [List.getElem?_set_self'] at hj
      cases hh : F.ts[i]? <;> rw [hh] at hj <;> cases hj
    · rw [List.getElem?_set_ne hne] at hj
      exact ⟨hne.symm, hj⟩
  refine ⟨h.lenMem, by simp [h.lenTs], ?_, ?_, ?_, ?_⟩
  · intro j s hj
    rcases eq_or_ne i j with rfl | hne
    · have hlt : i < F.ts.length := by
        have := (List.getElem?_eq_some_iff.1 hj).1
        simpa using this
      rw [List.getElem?_set_self hlt] at hj
      cases hj
      rw [List.getElem?_set_self (by rw [← h.lenTs]; exact hlt)]
    · rw [List.getElem?_set_ne hne] at hj
      rw [List.getElem?_set_ne hne]
      exact h.out j s hj
  · intro j v e p hj
    obtain ⟨hne, hj⟩ := key j v e p hj
    obtain ⟨s, body, x, l, h1, h2⟩ := h.ins j v e p hj
    exact ⟨s, body, x, l, by rw [List.getElem?_set_ne hne.symm]; exact h1, h2⟩
  · intro j k v e p e' p' hne hj hk
    exact h.excl j k v e p e' p' hne (key _ _ _ _ hj).2 (key _ _ _ _ hk).2
  · intro v x l hx hl hno
    by_cases hi : ∃ p, F.ts[i]? = some (.inside v true p)
    · obtain ⟨p, hp⟩ := hi
      exact hsame v x l p hp hx hl
    · refine h.same v x l hx hl (fun j p hj => ?_)
      rcases eq_or_ne i j with rfl | hne
      · exact hi ⟨p, hj⟩
      · exact hno j p (by rw [List.getElem?_set_ne hne]; exact hj)

/-- A task makes one operation inside its critical section; the abstract machine waits. -/
theorem Sim.setIn {next : Nat → σ → Next σ} {F : FSt σ} {A : ASt σ} (h : Sim next F A) {i v : Nat} {e : Bool}
    {p : VProg (Res σ)} (hi : F.ts[i]? = some (.inside v e p)) {x : Vec} (hx : F.mem[v]? = some x)
    (p' : VProg (Res σ)) (x' : Vec) (hrun : p'.run x'.items = p.run x.items)
    (hro : p.ReadOnly → p'.ReadOnly ∧ x'.items = x.items) :
    Sim next ⟨F.mem.set v x', F.ts.set i (.inside v e p')⟩ A := by
  have hlt : i < F.ts.length := (List.getElem?_eq_some_iff.1 hi).1
  have hvlt : v < F.mem.length := (List.getElem?_eq_some_iff.1 hx).1
  have key : ∀ (j w : Nat) (e1 : Bool) (q : VProg (Res σ)), (F.ts.set i (.inside v e p'))[j]? = some (.inside w e1 q) →
      (j = i ∧ w = v ∧ e1 = e ∧ q = p') ∨ (j ≠ i ∧ F.ts[j]? = some (.inside w e1 q)) := by
    intro j w e1 q hj
    rcases eq_or_ne i j with rfl | hne
    · rw [List.getElem?_set_self hlt] at hj
      cases hj
      exact .inl ⟨rfl, rfl, rfl, rfl⟩
    · rw [List.getElem?_set_ne hne] at hj
      exact .inr ⟨hne.symm, hj⟩
  obtain ⟨s0, body0, x0, l0, g1, g2, g3, g4, g5, g6⟩ := h.ins i v e p hi
  rw [hx] at g3
  cases g3
  refine ⟨by simp [h.lenMem], by simp [h.lenTs], ?_, ?_, ?_, ?_⟩
  · intro j s hj
    rcases eq_or_ne i j with rfl | hne
    · rw [List.getElem?_set_self hlt] at hj; cases hj
    · rw [List.getElem?_set_ne hne] at hj
      exact h.out j s hj
  · intro j w e1 q hj
    rcases key j w e1 q hj with ⟨rfl, rfl, rfl, rfl⟩ | ⟨hne, hj'⟩
    · refine ⟨s0, body0, x', l0, g1, g2, List.getElem?_set_self hvlt, g4, by rw [hrun, g5], ?_⟩
      intro he
      exact (hro (g6 he)).1
    · obtain ⟨s, body, y, l, h1, h2, h3, h4, h5, h6⟩ := h.ins j w e1 q hj'
      rcases eq_or_ne v w with rfl | hvw
      · obtain ⟨he, -⟩ := h.excl i j v e p e1 q hne.symm hi hj'
        rw [hx] at h3
        cases h3
        exact ⟨s, body, x', l, h1, h2, List.getElem?_set_self hvlt, h4, by rw [(hro (g6 he)).2, h5], h6⟩
      · exact ⟨s, body, y, l, h1, h2, by rw [List.getElem?_set_ne hvw]; exact h3, h4, h5, h6⟩
  · intro j k w e1 q e2 q' hne hj hk
    rcases key j w e1 q hj with ⟨rfl, rfl, rfl, rfl⟩ | ⟨hji, hj'⟩
    · rcases key k w e2 q' hk with ⟨rfl, -⟩ | ⟨_, hk'⟩
      · exact absurd rfl hne
      · exact h.excl j k w e1 p e2 q' hne hi hk'
    · rcases key k w e2 q' hk with ⟨rfl, rfl, rfl, rfl⟩ | ⟨_, hk'⟩
      · exact h.excl j k w e1 q e2 p hne hj' hi
      · exact h.excl j k w e1 q e2 q' hne hj' hk'
  · intro w y l hy hl hno
    have hno' : ∀ (j : Nat) (q : VProg (Res σ)), F.ts[j]? ≠ some (.inside w true q) := by
      intro j q hj
      rcases eq_or_ne i j with rfl | hne
      · rw [hi] at hj
        cases hj
        exact hno i p' (List.getElem?_set_self hlt)
      · exact hno j q (by rw [List.getElem?_set_ne hne]; exact hj)
    rcases eq_or_ne v w with rfl | hvw
    · rw [List.getElem?_set_self hvlt] at hy
      cases hy
      have he : e = false := by
        cases e with
        | false => rfl
        | true => exact absurd hi (hno' i p)
      rw [(hro (g6 he)).2]
      exact h.same v x l hx hl hno'
    · rw [List.getElem?_set_ne hvw] at hy
      exact h.same w y l hy hl hno'

/-- The number of operations left. -/
def VProg.cost {β : Type} : VProg β → List Nat → Nat
  | .ret _, _ => 0
  | .size k, l => (k l.length).cost l + 1
  | .load j k, l =>
    match l[j]? with
    | some x => (k x).cost l + 1
    | none => 1
  | .push x k, l => k.cost (l ++ [x]) + 1
  | .clear k, _ => k.cost [] + 1

/-- The steps that the machine with whole critical sections does not make. -/
inductive Quiet (next : Nat → σ → Next σ) (F : FSt σ) (i : Nat) : FSt σ → Prop
  /-- the task waits or has ended -/
  | stay (h : F.enabled next i = false) : Quiet next F i F
  /-- the task enters a critical section -/
  | enter (t : σ) (v : Nat) (e : Bool) (body : VProg (Res σ)) (ht : F.ts[i]? = some (.out t)) :
      Quiet next F i { F with ts := F.ts.set i (.inside v e body) }
  /-- an operation inside one -/
  | op (v : Nat) (e : Bool) (p p' : VProg (Res σ)) (x x' : Vec) (ht : F.ts[i]? = some (.inside v e p))
      (hx : F.mem[v]? = some x) (hc : p.cost x.items = p'.cost x'.items + 1)
      (he : e = false → x'.items = x.items) :
      Quiet next F i ⟨F.mem.set v x', F.ts.set i (.inside v e p')⟩

/-- One step of the machine with single operations is one step, or none, of the machine with whole critical
sections; if it goes wrong, so does the step there. -/
theorem fStep_sim {next : Nat → σ → Next σ} (hsh : SharedReads next) {F : FSt σ} {A : ASt σ}
    (h : Sim next F A) (i : Nat) :
    (∀ F', fStep next F i = .ok F' → (Quiet next F i F' ∧ Sim next F' A) ∨
      ∃ A', aStep next A i = .ok A' ∧ Sim next F' A' ∧ ∃ t, A.ts[i]? = some t ∧ next i t ≠ .halt) ∧
    (∀ err, fStep next F i = .error err → aStep next A i = .error err) := by
  unfold fStep
  cases hti : F.ts[i]? with
  | none =>
    refine ⟨fun F' hF => ?_, fun err he => by cases he⟩
    cases hF
    exact .inl ⟨.stay (by unfold FSt.enabled; rw [hti]), h⟩
  | some t =>
    cases t with
    | out s =>
      have hA := h.out i s hti
      have hnot : ∀ (v : Nat) (x : Vec) (l : List Nat) (p : VProg (Res σ)), F.ts[i]? = some (.inside v true p) →
          F.mem[v]? = some x → A.adj[v]? = some l → x.items = l := by
        intro v x l p hp
        rw [hti] at hp
        cases hp
      unfold aStep
      rw [hA]
      dsimp only
      cases hn : next i s with
      | halt =>
        refine ⟨fun F' hF => ?_, fun err he => by cases he⟩
        cases hF
        exact .inl ⟨.stay (by unfold FSt.enabled; rw [hti]; dsimp only; rw [hn]), h⟩
      | priv r =>
        cases r with
        | error e =>
          refine ⟨fun F' hF => (by cases hF), fun err he => ?_⟩
          cases he; rfl
        | ok s' =>
          refine ⟨fun F' hF => ?_, fun err he => by cases he⟩
          cases hF
          exact .inr ⟨_, rfl, h.setOut s' hnot, s, rfl, by rw [hn]; exact fun hh => by cases hh⟩
      | touch v m s' =>
        dsimp only
        cases hv : F.mem[v]? with
        | none =>
          have e1 : rd F.mem v = .error .ub := by unfold rd; rw [hv]
          have e2 : rd A.adj v = .error .ub := by
            unfold rd
            rw [List.getElem?_eq_none (by rw [← h.lenMem]; exact List.getElem?_eq_none_iff.1 hv)]
          rw [e1, e2]
          exact ⟨fun F' hF => (by cases hF), fun err he => by cases he; rfl⟩
        | some x =>
          have hvlt : v < F.mem.length := (List.getElem?_eq_some_iff.1 hv).1
          have e1 : rd F.mem v = .ok x := rd_eq_ok_iff.mpr hv
          have e2 : rd A.adj v = .ok (A.adj[v]'(by rw [← h.lenMem]; exact hvlt)) := rd_ok _
          rw [e1, e2]
          refine ⟨fun F' hF => ?_, fun err he => by cases he⟩
          cases hF
          refine .inr ⟨_, rfl, ?_, s, rfl, by rw [hn]; exact fun hh => by cases hh⟩
          have h1 := h.setOut s' hnot
          refine ⟨by simp [h.lenMem], by simp [h.lenTs], h1.out, ?_, h1.excl, ?_⟩
          · intro j w e p hj
            obtain ⟨t, body, y, l, g1, g2, g3, g4, g5, g6⟩ := h1.ins j w e p hj
            rcases eq_or_ne v w with rfl | hvw
            · have g3' : F.mem[v]? = some y := g3
              rw [hv] at g3'
              cases g3'
              exact ⟨t, body, x.reserve m, l, g1, g2, List.getElem?_set_self hvlt, g4, g5, g6⟩
            · exact ⟨t, body, y, l, g1, g2, by rw [List.getElem?_set_ne hvw]; exact g3, g4, g5, g6⟩
          · intro w y l hy hl hno
            rcases eq_or_ne v w with rfl | hvw
            · rw [List.getElem?_set_self hvlt] at hy
              cases hy
              exact h1.same v x l hv hl hno
            · rw [List.getElem?_set_ne hvw] at hy
              exact h1.same w y l hy hl hno
      | crit v e body =>
        dsimp only
        by_cases hv : F.mem.length ≤ v
        · rw [if_pos hv]
          have e2 : rd A.adj v = .error .ub := rd_ub (by rw [← h.lenMem]; exact hv)
          rw [e2]
          exact ⟨fun F' hF => (by cases hF), fun err he => by cases he; rfl⟩
        · rw [if_neg hv]
          by_cases hb : F.ts.any (FTask.blocks v e) = true
          · rw [if_pos hb]
            refine ⟨fun F' hF => ?_, fun err he => by cases he⟩
            cases hF
            refine .inl ⟨.stay ?_, h⟩
            unfold FSt.enabled
            rw [hti]
            dsimp only
            rw [hn]
            dsimp only
            rw [hb]
            rfl
          · rw [if_neg hb]
            refine ⟨fun F' hF => ?_, fun err he => by cases he⟩
            cases hF
            refine .inl ⟨.enter s v e body hti, ?_⟩
            have hb' : F.ts.any (FTask.blocks v e) = false := by simpa using hb
            have hlt : i < F.ts.length := (List.getElem?_eq_some_iff.1 hti).1
            have hvlt : v < F.mem.length := by omega
            have hvlt' : v < A.adj.length := by rw [← h.lenMem]; exact hvlt
            have key : ∀ (j w : Nat) (e1 : Bool) (q : VProg (Res σ)), (F.ts.set i (.inside v e body))[j]? = some (.inside w e1 q) →
                (j = i ∧ w = v ∧ e1 = e ∧ q = body) ∨ (j ≠ i ∧ F.ts[j]? = some (.inside w e1 q)) := by
              intro j w e1 q hj
              rcases eq_or_ne i j with rfl | hne
              · rw [List.getElem?_set_self hlt] at hj
                cases hj
                exact .inl ⟨rfl, rfl, rfl, rfl⟩
              · rw [List.getElem?_set_ne hne] at hj
                exact .inr ⟨hne.symm, hj⟩
            have hxl : (F.mem[v]).items = A.adj[v] := by
              refine h.same v _ _ (List.getElem?_eq_getElem hvlt) (List.getElem?_eq_getElem hvlt') ?_
              intro j p hj
              have := (not_blocks hb' hj).2
              cases this
            refine ⟨h.lenMem, by simp [h.lenTs], ?_, ?_, ?_, ?_⟩
            · intro j t hj
              rcases eq_or_ne i j with rfl | hne
              · rw [List.getElem?_set_self hlt] at hj; cases hj
              · rw [List.getElem?_set_ne hne] at hj
                exact h.out j t hj
            · intro j w e1 q hj
              rcases key j w e1 q hj with ⟨rfl, rfl, rfl, rfl⟩ | ⟨hne, hj'⟩
              · refine ⟨s, q, _, _, hA, hn, List.getElem?_eq_getElem hvlt, List.getElem?_eq_getElem hvlt',
                  by rw [hxl], ?_⟩
                intro he
                rw [he] at hn
                exact hsh _ _ _ _ hn
              · exact h.ins j w e1 q hj'
            · intro j k w e1 q e2 q' hne hj hk
              rcases key j w e1 q hj with ⟨rfl, rfl, rfl, rfl⟩ | ⟨hji, hj'⟩
              · rcases key k w e2 q' hk with ⟨rfl, -⟩ | ⟨_, hk'⟩
                · exact absurd rfl hne
                · exact not_blocks hb' hk'
              · rcases key k w e2 q' hk with ⟨rfl, rfl, rfl, rfl⟩ | ⟨_, hk'⟩
                · exact (not_blocks hb' hj').symm
                · exact h.excl j k w e1 q e2 q' hne hj' hk'
            · intro w y l hy hl hno
              refine h.same w y l hy hl (fun j p hj => ?_)
              rcases eq_or_ne i j with rfl | hne
              · rw [hti] at hj; cases hj
              · exact hno j p (by rw [List.getElem?_set_ne hne]; exact hj)
    | inside v e p =>
      obtain ⟨s0, body, x, l, g1, g2, g3, g4, g5, g6⟩ := h.ins i v e p hti
      have e1 : rd F.mem v = .ok x := rd_eq_ok_iff.mpr g3
      have e2 : rd A.adj v = .ok l := rd_eq_ok_iff.mpr g4
      have hvlt : v < F.mem.length := (List.getElem?_eq_some_iff.1 g3).1
      have hself : F.mem.set v x = F.mem := by
        obtain ⟨hlt, hx⟩ := List.getElem?_eq_some_iff.1 g3
        rw [← hx, List.set_getElem_self]
      unfold aStep
      rw [g1]
      dsimp only
      rw [g2]
      dsimp only
      rw [e1, e2]
      simp only [Res.ok_bind]
      cases p with
      | ret r =>
        have hb : body.run l = .ok (r, x.items) := g5.symm
        rw [hb]
        simp only [Res.ok_bind]
        cases r with
        | error err =>
          refine ⟨fun F' hF => (by cases hF), fun err' he => ?_⟩
          cases he; rfl
        | ok s' =>
          refine ⟨fun F' hF => ?_, fun err he => by cases he⟩
          cases hF
          refine .inr ⟨_, rfl, ?_, s0, rfl, by rw [g2]; exact fun hh => by cases hh⟩
          have hvlt' : v < A.adj.length := by rw [← h.lenMem]; exact hvlt
          -- first the list, then the task
          have hS : Sim next F ⟨A.adj.set v x.items, A.ts⟩ ∨ e = true := by
            cases e with
            | true => exact .inr rfl
            | false =>
              left
              have hbody := hsh _ _ _ _ g2
              have := VProg.readOnly_run body l _ _ hbody hb
              obtain ⟨hlt, hx⟩ := List.getElem?_eq_some_iff.1 g4
              have e3 : A.adj.set v x.items = A.adj := by
                rw [this, ← hx, List.set_getElem_self]
              rw [e3]
              exact h
          rcases hS with hS | rfl
          · refine hS.setOut s' ?_
            intro w y m q hq hy hm
            rw [hti] at hq
            cases hq
            rw [g3] at hy
            cases hy
            have hm' : (A.adj.set v x.items)[v]? = some m := hm
            rw [List.getElem?_set_self hvlt'] at hm'
            cases hm'
            rfl
          · have key : ∀ (j w : Nat) (e1 : Bool) (q : VProg (Res σ)), (F.ts.set i (.out s'))[j]? = some (.inside w e1 q) → j ≠ i ∧ w ≠ v ∧
                F.ts[j]? = some (.inside w e1 q) := by
              intro j w e1 q hj
              rcases eq_or_ne i j with rfl | hne
              · rw [List.getElem?_set_self'] at hj
                rw [hti] at hj
                cases hj
              · rw [List.getElem?_set_ne hne] at hj
                refine ⟨hne.symm, ?_, hj⟩
                rintro rfl
                have := (h.excl i j _ true _ _ q hne hti hj).1
                cases this
            have hlt : i < F.ts.length := (List.getElem?_eq_some_iff.1 hti).1
            refine ⟨by simp [h.lenMem], by simp [h.lenTs], ?_, ?_, ?_, ?_⟩
            · intro j t hj
              rcases eq_or_ne i j with rfl | hne
              · rw [List.getElem?_set_self hlt] at hj
                cases hj
                exact List.getElem?_set_self (by rw [← h.lenTs]; exact hlt)
              · rw [List.getElem?_set_ne hne] at hj
                show (A.ts.set i s')[j]? = some t
                rw [List.getElem?_set_ne hne]
                exact h.out j t hj
            · intro j w e1 q hj
              obtain ⟨hne, hwv, hj'⟩ := key j w e1 q hj
              obtain ⟨t, b, y, m, k1, k2, k3, k4, k5, k6⟩ := h.ins j w e1 q hj'
              refine ⟨t, b, y, m, ?_, k2, k3, ?_, k5, k6⟩
              · show (A.ts.set i s')[j]? = some t
                rw [List.getElem?_set_ne hne.symm]; exact k1
              · show (A.adj.set v x.items)[w]? = some m
                rw [List.getElem?_set_ne hwv.symm]; exact k4
            · intro j k w e1 q e2 q' hne hj hk
              exact h.excl j k w e1 q e2 q' hne (key _ _ _ _ hj).2.2 (key _ _ _ _ hk).2.2
            · intro w y m hy hm hno
              rcases eq_or_ne v w with rfl | hvw
              · have hm' : (A.adj.set v x.items)[v]? = some m := hm
                rw [List.getElem?_set_self hvlt'] at hm'
                have hy' : F.mem[v]? = some y := hy
                rw [g3] at hy'
                cases hm'; cases hy'; rfl
              · have hm' : (A.adj.set v x.items)[w]? = some m := hm
                rw [List.getElem?_set_ne hvw] at hm'
                refine h.same w y m hy hm' (fun j q hj => ?_)
                rcases eq_or_ne i j with rfl | hne
                · rw [hti] at hj
                  cases hj
                  exact hvw rfl
                · exact hno j q (by rw [List.getElem?_set_ne hne]; exact hj)
      | size k =>
        refine ⟨fun F' hF => ?_, fun err he => by cases he⟩
        cases hF
        left
        have := h.setIn hti g3 (k x.items.length) x rfl (fun hr => ⟨hr _, rfl⟩)
        have hq := Quiet.op (next := next) v e _ (k x.items.length) x x hti g3 rfl (fun _ => rfl)
        rw [hself] at this hq
        exact ⟨hq, this⟩
      | load j k =>
        dsimp only
        cases hj : x.items[j]? with
        | none =>
          have e3 : rd x.items j = .error .ub := by unfold rd; rw [hj]
          have hb : body.run l = .error .ub := by
            rw [← g5]; simp only [VProg.run, hj]
          rw [e3, hb]
          exact ⟨fun F' hF => (by cases hF), fun err he => by cases he; rfl⟩
        | some y =>
          have e3 : rd x.items j = .ok y := rd_eq_ok_iff.mpr hj
          rw [e3]
          refine ⟨fun F' hF => ?_, fun err he => by cases he⟩
          cases hF
          left
          have := h.setIn hti g3 (k y) x (by simp only [VProg.run, hj]) (fun hr => ⟨hr _, rfl⟩)
          have hq := Quiet.op (next := next) v e _ (k y) x x hti g3 (by simp only [VProg.cost, hj]) (fun _ => rfl)
          rw [hself] at this hq
          exact ⟨hq, this⟩
      | push y k =>
        refine ⟨fun F' hF => ?_, fun err he => by cases he⟩
        cases hF
        exact .inl ⟨.op v e _ k x (x.push y) hti g3 rfl (fun he => (g6 he).elim),
          h.setIn hti g3 k (x.push y) rfl (fun hr => hr.elim)⟩
      | clear k =>
        refine ⟨fun F' hF => ?_, fun err he => by cases he⟩
        cases hF
        exact .inl ⟨.op v e _ k x x.clear hti g3 rfl (fun he => (g6 he).elim),
          h.setIn hti g3 k x.clear rfl (fun hr => hr.elim)⟩

/-- The initial states. -/
theorem Sim.start (next : Nat → σ → Next σ) (mem : List Vec) (ts : List σ) :
    Sim next ⟨mem, ts.map .out⟩ ⟨mem.map Vec.items, ts⟩ := by
  refine ⟨by simp, by simp, ?_, ?_, ?_, ?_⟩
  · intro i s hi
    rw [List.getElem?_map] at hi
    cases hh : ts[i]? with
    | none => rw [hh] at hi; cases hi
    | some t => rw [hh] at hi; cases hi; rfl
  · intro i v e p hi
    rw [List.getElem?_map] at hi
    cases hh : ts[i]? <;> rw [hh] at hi <;> cases hi
  · intro i j v e p e' p' _ hi
    rw [List.getElem?_map] at hi
    cases hh : ts[i]? <;> rw [hh] at hi <;> cases hi
  · intro v x l hx hl _
    rw [List.getElem?_map] at hl
    have hx' : mem[v]? = some x := hx
    rw [hx'] at hl
    cases hl
    rfl

/-- **Atomicity.** Whatever the order of the single operations, what happens can be obtained by executing
whole critical sections in some order. -/
theorem fRun_sim {next : Nat → σ → Next σ} (hsh : SharedReads next) : ∀ (fs : List Nat) {F : FSt σ} {A : ASt σ},
    Sim next F A →
    (∀ F', fRun next fs F = .ok F' → ∃ is A', aRun next is A = .ok A' ∧ Sim next F' A') ∧
    (∀ err, fRun next fs F = .error err → ∃ is, aRun next is A = .error err)
  | [], F, A, h => by
    refine ⟨fun F' hF => ?_, fun err he => by cases he⟩
    cases hF
    exact ⟨[], A, rfl, h⟩
  | i :: fs, F, A, h => by
    obtain ⟨h1, h2⟩ := fStep_sim hsh h i
    simp only [fRun]
    cases hs : fStep next F i with
    | error e =>
      refine ⟨fun F' hF => (by cases hF), fun err he => ?_⟩
      cases he
      refine ⟨[i], ?_⟩
      simp only [aRun]
      rw [h2 _ hs]
      rfl
    | ok F1 =>
      simp only [Res.ok_bind]
      rcases h1 F1 hs with ⟨-, h'⟩ | ⟨A1, ha, h', -⟩
      · exact fRun_sim hsh fs h'
      · obtain ⟨k1, k2⟩ := fRun_sim hsh fs h'
        refine ⟨fun F' hF => ?_, fun err he => ?_⟩
        · obtain ⟨is, A', e1, e2⟩ := k1 F' hF
          exact ⟨i :: is, A', by simp only [aRun]; rw [ha]; exact e1, e2⟩
        · obtain ⟨is, e1⟩ := k2 err he
          exact ⟨i :: is, by simp only [aRun]; rw [ha]; exact e1⟩

/-- When no task is inside a critical section the two machines agree. -/
theorem Sim.outside {next : Nat → σ → Next σ} {F : FSt σ} {A : ASt σ} (h : Sim next F A) (ss : List σ)
    (hout : F.ts = ss.map .out) : A = ⟨F.mem.map Vec.items, ss⟩ := by
  have hts : A.ts = ss := by
    apply List.ext_getElem?
    intro i
    cases hh : ss[i]? with
    | none =>
      rw [List.getElem?_eq_none_iff] at hh ⊢
      rw [← h.lenTs, hout, List.length_map]
      exact hh
    | some s => exact h.out i s (by rw [hout, List.getElem?_map, hh]; rfl)
  have hadj : A.adj = F.mem.map Vec.items := by
    apply List.ext_getElem?
    intro v
    rw [List.getElem?_map]
    cases hh : F.mem[v]? with
    | none =>
      rw [List.getElem?_eq_none_iff] at hh
      rw [List.getElem?_eq_none (by rw [← h.lenMem]; exact hh)]
      rfl
    | some x =>
      have hlt : v < A.adj.length := by rw [← h.lenMem]; exact (List.getElem?_eq_some_iff.1 hh).1
      rw [List.getElem?_eq_getElem hlt]
      refine congrArg some (h.same v x _ hh (List.getElem?_eq_getElem hlt) ?_).symm
      intro i p hp
      rw [hout, List.getElem?_map] at hp
      cases hs : ss[i]? <;> rw [hs] at hp <;> cases hp
  cases A
  simp only at hts hadj
  rw [hts, hadj]

/-- **No deadlock.** As long as a task has something to do, some task can go on. -/
theorem no_deadlock {next : Nat → σ → Next σ} (F : FSt σ) (i : Nat) (t : FTask σ) (ht : F.ts[i]? = some t)
    (hwork : ∀ s, t = .out s → next i s ≠ .halt) : ∃ j, F.enabled next j = true := by
  by_cases hin : ∃ (j v : Nat) (e : Bool) (p : VProg (Res σ)), F.ts[j]? = some (.inside v e p)
  · obtain ⟨j, v, e, p, hj⟩ := hin
    exact ⟨j, by unfold FSt.enabled; rw [hj]⟩
  · refine ⟨i, ?_⟩
    unfold FSt.enabled
    rw [ht]
    cases t with
    | inside v e p => exact absurd ⟨i, v, e, p, ht⟩ hin
    | out s =>
      dsimp only
      have := hwork s rfl
      cases hn : next i s with
      | halt => exact absurd hn this
      | priv r => rfl
      | touch v m s' => rfl
      | crit v e body =>
        dsimp only
        have : F.ts.any (FTask.blocks v e) = false := by
          rw [List.any_eq_false]
          intro u hu
          obtain ⟨j, hj⟩ := List.getElem?_of_mem hu
          cases u with
          | out _ => simp [FTask.blocks]
          | inside w e' p => exact absurd ⟨j, w, e', p, hj⟩ hin
        rw [this]
        rfl

/-! ## Races -/

theorem VProg.touches_cell {β : Type} {v : Nat} {x : Vec} {p : VProg β} {c : Cell} {w : Bool}
    (h : (c, w) ∈ p.touches v x) : c = .buf v ∨ c = .len v ∨ c = .elt v := by
  cases p with
  | ret _ => simp [VProg.touches] at h
  | size k => simp [VProg.touches] at h; rcases h with ⟨rfl, -⟩ | ⟨rfl, -⟩ <;> simp
  | load j k => simp [VProg.touches] at h; rcases h with ⟨rfl, -⟩ | ⟨rfl, -⟩ <;> simp
  | push y k =>
    simp only [VProg.touches] at h
    split at h <;> simp at h <;> rcases h with ⟨rfl, -⟩ | ⟨rfl, -⟩ | ⟨rfl, -⟩ <;> simp
  | clear k => simp [VProg.touches] at h; rcases h with ⟨rfl, -⟩ | ⟨rfl, -⟩ <;> simp

theorem VProg.touches_readOnly {β : Type} {v : Nat} {x : Vec} {p : VProg β} (hr : p.ReadOnly) {c : Cell} {w : Bool}
    (h : (c, w) ∈ p.touches v x) : w = false := by
  cases p with
  | ret _ => simp [VProg.touches] at h
  | size k => simp [VProg.touches] at h; rcases h with ⟨-, rfl⟩ | ⟨-, rfl⟩ <;> rfl
  | load j k => simp [VProg.touches] at h; rcases h with ⟨-, rfl⟩ | ⟨-, rfl⟩ <;> rfl
  | push y k => exact hr.elim
  | clear k => exact hr.elim

theorem raceOf_iff {next : Nat → σ → Next σ} {F : FSt σ} {i j : Nat} : F.raceOf next i j = true ↔
    i ≠ j ∧ ∃ c w w', (c, w) ∈ F.touches next i ∧ (c, w') ∈ F.touches next j ∧ (w = true ∨ w' = true) := by
  unfold FSt.raceOf
  simp only [Bool.and_eq_true, bne_iff_ne, ne_eq, List.any_eq_true, beq_iff_eq, Bool.or_eq_true]
  constructor
  · rintro ⟨h1, ⟨c, w⟩, ha, ⟨c', w'⟩, hb, h2, h3⟩
    dsimp only at h2 h3
    subst h2
    exact ⟨h1, c, w, w', ha, hb, h3⟩
  · rintro ⟨h1, c, w, w', ha, hb, h3⟩
    exact ⟨h1, (c, w), ha, (c, w'), hb, rfl, h3⟩

/-- **The locks prevent races.** Two tasks inside critical sections never race. -/
theorem no_race_inside {next : Nat → σ → Next σ} {F : FSt σ} {A : ASt σ} (h : Sim next F A) {i j : Nat}
    {v v' : Nat} {e e' : Bool} {p p' : VProg (Res σ)} (hi : F.ts[i]? = some (.inside v e p))
    (hj : F.ts[j]? = some (.inside v' e' p')) : F.raceOf next i j = false := by
  by_contra hc
  rw [Bool.not_eq_false, raceOf_iff] at hc
  obtain ⟨hne, c, w, w', h1, h2, h3⟩ := hc
  unfold FSt.touches at h1 h2
  rw [hi] at h1
  rw [hj] at h2
  obtain ⟨-, -, x, -, -, -, g3, -, -, g6⟩ := h.ins i v e p hi
  obtain ⟨-, -, x', -, -, -, k3, -, -, k6⟩ := h.ins j v' e' p' hj
  dsimp only at h1 h2
  rw [g3] at h1
  rw [k3] at h2
  dsimp only at h1 h2
  have hv : v = v' := by
    rcases VProg.touches_cell h1 with rfl | rfl | rfl <;> rcases VProg.touches_cell h2 with h2 | h2 | h2 <;>
      cases h2 <;> rfl
  subst hv
  obtain ⟨he, he'⟩ := h.excl i j v e p e' p' hne hi hj
  have a := VProg.touches_readOnly (g6 he) h1
  have b := VProg.touches_readOnly (k6 he') h2
  rw [a, b] at h3
  simp at h3

end Grann
