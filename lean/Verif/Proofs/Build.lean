import Verif.Model.Build
import Verif.Proofs.Greedy
import Verif.Proofs.Prune
import Verif.Proofs.Labels0
/-!
# Invariant of the parallel build
-/

namespace Grann

/-! ## Pruning, without any condition on `alpha` -/

theorem pruneLoop_neg {V : Type} (e : PruneEnv V) (alpha : F32) (halpha : alpha.lt F32.zero = true)
    (point R : Nat) : ∀ (S : List Nbr) (m : Nat), S.length ≤ m →
    pruneLoop e alpha point R S (List.replicate m F32.zero) [] = .ok [] := by
  intro S
  induction S with
  | nil => intro m _; rfl
  | cons p S ih =>
    intro m hm
    unfold pruneLoop
    split
    · rfl
    · cases m with
      | zero => simp at hm
      | succ m =>
        rw [List.replicate_succ]
        simp only
        have hm : S.length ≤ m := by simpa using hm
        split
        · exact ih m hm
        · exact ih m hm

theorem pruneAlpha_weak {V : Type} (sortF : List Nbr → List Nbr) (hsort : IsStdSort sortF)
    (e : PruneEnv V) (alpha : F32) (C R point : Nat) (cands : List Nbr)
    (hc : ∀ x ∈ cands, e.Has x.id) :
    ∃ kept : List Nbr, pruneAlpha sortF e alpha C R point cands [] = .ok (kept.map Nbr.id) ∧
      kept.length ≤ R ∧ kept.Subperm cands ∧ ∀ x ∈ kept, x.id ≠ point := by
  by_cases hne : cands = []
  · subst hne
    exact ⟨[], rfl, by simp, List.nil_subperm, by simp⟩
  · by_cases ha : alpha.lt F32.zero = true
    · refine ⟨[], ?_, by simp, List.nil_subperm, by simp⟩
      unfold pruneAlpha
      rw [if_neg (by simpa using hne), pruneLoop_neg e alpha ha point R]
      · rfl
      · rw [List.length_take, (hsort.perm cands).length_eq]; omega
    · have ha : alpha.lt F32.zero = false := by simpa using ha
      obtain ⟨I, h1, h2⟩ := pruneAlpha_spec sortF hsort e alpha ha C R point cands hne hc []
      refine ⟨_, h1, ?_, ?_, ?_⟩
      · rw [pickAt_length h2.inRange]; exact h2.bound
      · exact ((pickAt_sublist _ I h2.increasing).trans (List.take_sublist _ _)).subperm.trans
          (hsort.perm cands).subperm
      · intro x hx
        obtain ⟨i, hi, hx⟩ := List.mem_filterMap.1 hx
        exact h2.notSelf i hi x hx

theorem pruneTopK_weak (sortF : List Nbr → List Nbr) (hsort : IsStdSort sortF) (R point : Nat)
    (cands : List Nbr) :
    ∃ kept : List Nbr, pruneTopK sortF R point cands [] = kept.map Nbr.id ∧
      kept.length ≤ R ∧ kept.Subperm cands ∧ ∀ x ∈ kept, x.id ≠ point := by
  by_cases hne : cands = []
  · subst hne
    exact ⟨[], rfl, by simp, List.nil_subperm, by simp⟩
  · refine ⟨((sortF cands).filter (fun x => x.id != point)).take R, ?_, ?_, ?_, ?_⟩
    · unfold pruneTopK
      rw [if_neg (by simpa using hne), topKLoop_eq]
      simp [List.map_take]
    · rw [List.length_take]; omega
    · exact ((List.take_sublist _ _).trans List.filter_sublist).subperm.trans (hsort.perm cands).subperm
    · intro x hx
      have := List.mem_of_mem_take hx
      simpa using (List.mem_filter.1 this).2

/-! ## Conditions on the inputs -/

/-- The inputs of a build are well formed: enough points for the progress display, a usable search list,
a distance that does not depend on the order of its arguments, labels for all points if labels are used,
and entry points that exist. -/
structure BuildCfg.OK {V : Type} (cfg : BuildCfg V) : Prop where
  size : 10 ≤ cfg.n
  listSize : 1 ≤ cfg.L
  listSize_le : Spec.ListFits cfg.env.ctx.data.length cfg.L
  sort : IsStdSort cfg.sortF
  symm : ∀ a b, cfg.env.ctx.cmp a b = cfg.env.ctx.cmp b a
  labels : cfg.env.filtered = true → cfg.env.ctx.labels.length = cfg.n
  filters : ∀ i, cfg.filters i ≠ [] → cfg.env.ctx.labels.length = cfg.n
  init : ∀ i, i < cfg.n → ∃ ids, cfg.init i = .ok ids ∧ ∀ x ∈ ids, x < cfg.n

theorem BuildCfg.OK.has {V : Type} {cfg : BuildCfg V} (h : cfg.OK) {i : Nat} (hi : i < cfg.n) :
    cfg.env.Has i := ⟨hi, fun hf => by rw [h.labels hf]; exact hi⟩

theorem pruneBy_spec {V : Type} {cfg : BuildCfg V} (h : cfg.OK) (topK : Bool) (point : Nat)
    (cands : List Nbr) (hc : ∀ x ∈ cands, x.id < cfg.n) :
    ∃ kept : List Nbr, pruneBy cfg topK point cands = .ok (kept.map Nbr.id) ∧
      kept.length ≤ cfg.R ∧ kept.Subperm cands ∧ ∀ x ∈ kept, x.id ≠ point := by
  unfold pruneBy
  cases topK with
  | true =>
    obtain ⟨kept, h1, h2⟩ := pruneTopK_weak cfg.sortF h.sort cfg.R point cands
    exact ⟨kept, by rw [if_pos rfl, h1], h2⟩
  | false =>
    exact pruneAlpha_weak cfg.sortF h.sort cfg.env cfg.alpha cfg.C cfg.R point cands
      (fun x hx => h.has (hc x hx))

theorem dummyPool_spec {V : Type} (c : Ctx V) (des : Nat) (hdes : des < c.data.length) :
    ∀ (nbrs vis : List Nat), (∀ x ∈ nbrs, x < c.data.length) →
    ∃ pool, dummyPool c des nbrs vis = .ok pool ∧ (pool.map Nbr.id).Nodup ∧
      (∀ i, i ∈ pool.map Nbr.id ↔ i ∈ nbrs ∧ i ∉ vis ∧ i ≠ des) := by
  intro nbrs
  induction nbrs with
  | nil => intro vis _; exact ⟨[], rfl, .nil, by simp⟩
  | cons x xs ih =>
    intro vis hn
    have hxs : ∀ y ∈ xs, y < c.data.length := fun y hy => hn y (by simp [hy])
    unfold dummyPool
    by_cases hx : (vis.contains x || x == des) = true
    · rw [if_pos hx]
      obtain ⟨pool, h1, h2, h3⟩ := ih vis hxs
      refine ⟨pool, h1, h2, fun i => (h3 i).trans ?_⟩
      have hx : x ∈ vis ∨ x = des := by simpa using hx
      constructor
      · rintro ⟨a, b, c⟩; exact ⟨by simp [a], b, c⟩
      · rintro ⟨a, b, c⟩
        rcases List.mem_cons.1 a with rfl | a
        · rcases hx with hx | hx
          · exact absurd hx b
          · exact absurd hx c
        · exact ⟨a, b, c⟩
    · rw [if_neg hx]
      have hx : x ∉ vis ∧ x ≠ des := by simpa using hx
      rw [rd_ok hdes, rd_ok (hn x (by simp))]
      obtain ⟨pool, h1, h2, h3⟩ := ih (x :: vis) hxs
      simp only [Res.ok_bind, h1]
      refine ⟨_, rfl, ?_, ?_⟩
      · rw [List.map_cons, List.nodup_cons]
        refine ⟨?_, h2⟩
        intro hm
        exact ((h3 x).1 hm).2.1 (by simp)
      · intro i
        rw [List.map_cons, List.mem_cons, h3 i]
        constructor
        · rintro (rfl | ⟨a, b, c⟩)
          · exact ⟨by simp, hx.1, hx.2⟩
          · exact ⟨by simp [a], fun h => b (by simp [h]), c⟩
        · rintro ⟨a, b, c⟩
          by_cases hix : i = x
          · exact Or.inl hix
          · refine Or.inr ⟨?_, ?_, c⟩
            · rcases List.mem_cons.1 a with h | h
              · exact absurd h hix
              · exact h
            · simp [hix, b]

theorem reprune_spec {V : Type} {cfg : BuildCfg V} (h : cfg.OK) (topK : Bool) (des : Nat)
    (hdes : des < cfg.n) (nbrs : List Nat) (hn : ∀ x ∈ nbrs, x < cfg.n) :
    ∃ new, reprune cfg topK des nbrs = .ok new ∧ new.length ≤ cfg.R ∧ new.Nodup ∧
      (∀ x ∈ new, x ∈ nbrs ∧ x ≠ des) := by
  obtain ⟨pool, h1, h2, h3⟩ := dummyPool_spec cfg.env.ctx des hdes nbrs [] hn
  obtain ⟨kept, k1, k2, k3, k4⟩ := pruneBy_spec h topK des pool (fun x hx =>
    hn _ ((h3 x.id).1 (List.mem_map_of_mem hx)).1)
  refine ⟨kept.map Nbr.id, ?_, by simpa using k2, ?_, ?_⟩
  · unfold reprune; rw [h1]; exact k1
  · obtain ⟨l, hl, hsub⟩ := k3
    exact (hl.map Nbr.id).nodup_iff.1 (h2.sublist (hsub.map _))
  · intro x hx
    obtain ⟨y, hy, rfl⟩ := List.mem_map.1 hx
    exact ⟨((h3 y.id).1 (List.mem_map_of_mem (k3.subset hy))).1, k4 y hy⟩

/-! ## The invariant -/

theorem GInv.congr_adj {d : Nat → F32} {L n : Nat} {acc : Nat → Bool} {adj adj' : Nat → List (List Nat)}
    {P : Nat → Prop} {c0 : Nat} {s : GSt} (h : GInv d L n acc adj P c0 s)
    (ha : ∀ t, t < s.hops → adj' t = adj t) : GInv d L n acc adj' P c0 s :=
  { h with
    closed := by
      intro t y hy nb hnb
      have ht : t < s.hops := by rw [h.hops]; exact (List.getElem?_eq_some_iff.1 hy).1
      rw [ha t ht] at hnb
      exact h.closed t y hy nb hnb }

/-- Distances from point `i`. -/
def BuildCfg.distFrom {V : Type} (cfg : BuildCfg V) (i j : Nat) : F32 :=
  match cfg.env.ctx.data[i]?, cfg.env.ctx.data[j]? with
  | some a, some b => cfg.env.ctx.cmp a b
  | _, _ => F32.zero

def BuildCfg.acc {V : Type} (cfg : BuildCfg V) (i j : Nat) : Bool :=
  decide (filterAccepts cfg.env.ctx (cfg.filters i) j = .ok true)

/-- A list of neighbours chosen for `i`. -/
def BuildCfg.Chosen {V : Type} (cfg : BuildCfg V) (i : Nat) (l : List Nat) : Prop :=
  l.length ≤ cfg.R ∧ ∀ x ∈ l, x < cfg.n ∧ x ≠ i

def BuildCfg.TaskOK {V : Type} (cfg : BuildCfg V) (i : Nat) : Task → Prop
  | .todo => True
  | .search g => (∃ adj c0, GInv (cfg.distFrom i) cfg.L cfg.n (cfg.acc i) adj (fun _ => True) c0 g) ∧
      ∀ x ∈ g.ps.pool, x.id < cfg.n
  | .link pr => cfg.Chosen i pr ∧ (cfg.wholePool = false → pr.Nodup)
  | .recip rest => cfg.Chosen i rest
  | .prune des copy rest => cfg.Chosen i (des :: rest) ∧ ∀ x ∈ copy, x < cfg.n
  | .done => True

/-- Edges of `adj` lead to points and are no loops. -/
def ValidEdges (n : Nat) (adj : List (List Nat)) : Prop :=
  adj.length = n ∧ ∀ v nb, adj[v]? = some nb → ∀ x ∈ nb, x < n ∧ x ≠ v

structure BInv {V : Type} (cfg : BuildCfg V) (s : BSt) : Prop where
  edges : ValidEdges cfg.n s.adj
  tasksLen : s.tasks.length = cfg.n
  taskOK : ∀ i t, s.tasks[i]? = some t → cfg.TaskOK i t

theorem ValidEdges.set {n : Nat} {adj : List (List Nat)} (h : ValidEdges n adj) {v : Nat} {nb : List Nat}
    (hnb : ∀ x ∈ nb, x < n ∧ x ≠ v) : ValidEdges n (adj.set v nb) := by
  refine ⟨by simp [h.1], ?_⟩
  intro w nb' hw x hx
  rw [List.getElem?_set] at hw
  split at hw
  · rename_i hvw
    split at hw
    · cases hw; subst hvw; exact hnb x hx
    · cases hw
  · exact h.2 w nb' hw x hx

theorem BInv.setTask {V : Type} {cfg : BuildCfg V} {s : BSt} (h : BInv cfg s) {adj : List (List Nat)}
    (ha : ValidEdges cfg.n adj) {i : Nat} {t : Task} (ht : cfg.TaskOK i t) :
    BInv cfg ⟨adj, s.tasks.set i t⟩ := by
  refine ⟨ha, by simp [h.tasksLen], ?_⟩
  intro j t' hj
  rw [List.getElem?_set] at hj
  split at hj
  · rename_i hij
    split at hj
    · cases hj; subst hij; exact ht
    · cases hj
  · exact h.taskOK j t' hj

/-! ## What a step does -/

/-- Remaining work of a task. -/
def BuildCfg.work {V : Type} (cfg : BuildCfg V) : Task → Nat
  | .todo => (cfg.n + 1) * (cfg.L + 1) + 2 * cfg.R + 4
  | .search g => (cfg.n - g.hops) * (cfg.L + 1) + (cfg.L - g.k) + 2 * cfg.R + 3
  | .link pr => 2 * pr.length + 2
  | .recip rest => 2 * rest.length + 1
  | .prune _ _ rest => 2 * rest.length + 2
  | .done => 0

/-- The task has stored its own neighbours. -/
def Task.linked : Task → Bool
  | .recip _ => true
  | .prune _ _ _ => true
  | .done => true
  | _ => false

/-- The task is about to store its own neighbours. -/
def Task.isLink : Task → Bool
  | .link _ => true
  | _ => false

/-- The effect of one step of task `i` on the graph. -/
inductive AdjStep {V : Type} (cfg : BuildCfg V) (s : BSt) (i : Nat) : List (List Nat) → Prop
  | none : AdjStep cfg s i s.adj
  | link {pr own} : s.tasks[i]? = some (.link pr) → s.adj[i]? = some own →
      AdjStep cfg s i (s.adj.set i (own ++ pr))
  | append {des rest dp} : s.tasks[i]? = some (.recip (des :: rest)) → s.adj[des]? = some dp →
      i ∉ dp → 10 * dp.length < 13 * cfg.R → AdjStep cfg s i (s.adj.set des (dp ++ [i]))
  | write {des copy rest new} : s.tasks[i]? = some (.prune des copy rest) →
      new.length ≤ cfg.R → new.Nodup → (∀ x ∈ new, x ∈ copy ++ [i] ∧ x ≠ des) →
      AdjStep cfg s i (s.adj.set des new)

/-- One step succeeds, keeps the invariant, changes the graph in one of the ways of `AdjStep`, and
reduces the remaining work of an unfinished task. -/
theorem buildStep_spec {V : Type} {cfg : BuildCfg V} (h : cfg.OK) (s : BSt) (hs : BInv cfg s) (i : Nat) :
    ∃ s', buildStep cfg s i = .ok s' ∧ BInv cfg s' ∧ AdjStep cfg s i s'.adj ∧
      ((i < cfg.n ∧ s.tasks[i]? ≠ some .done →
          ∃ t t', s.tasks[i]? = some t ∧ s'.tasks = s.tasks.set i t' ∧ cfg.work t' < cfg.work t ∧
            t'.linked = (t.linked || t.isLink)) ∧
       (¬ (i < cfg.n ∧ s.tasks[i]? ≠ some .done) → s' = s)) := by
  have hn := h.size
  have hedge := hs.edges
  unfold buildStep
  cases ht : s.tasks[i]? with
  | none =>
    refine ⟨s, rfl, hs, .none, ?_, fun _ => rfl⟩
    rintro ⟨hi, _⟩
    rw [List.getElem?_eq_none_iff, hs.tasksLen] at ht
    omega
  | some t =>
    have hi : i < cfg.n := by rw [← hs.tasksLen]; exact (List.getElem?_eq_some_iff.1 ht).1
    have hok := hs.taskOK i t ht
    have hrd : rd cfg.env.ctx.data i = .ok cfg.env.ctx.data[i] := rd_ok hi
    have hdist : ∀ j v, cfg.env.ctx.data[j]? = some v →
        cfg.env.ctx.cmp cfg.env.ctx.data[i] v = cfg.distFrom i j := by
      intro j v hv
      unfold BuildCfg.distFrom
      rw [hv, List.getElem?_eq_getElem hi]
    have goal : ∀ (adj : List (List Nat)) (t' : Task), ValidEdges cfg.n adj → cfg.TaskOK i t' →
        AdjStep cfg s i adj → t ≠ .done → cfg.work t' < cfg.work t →
        t'.linked = (t.linked || t.isLink) →
        BInv cfg ⟨adj, s.tasks.set i t'⟩ ∧ AdjStep cfg s i adj ∧
        ((i < cfg.n ∧ some t ≠ some .done →
          ∃ u u', some t = some u ∧ s.tasks.set i t' = s.tasks.set i u' ∧ cfg.work u' < cfg.work u ∧
            u'.linked = (u.linked || u.isLink)) ∧
        (¬ (i < cfg.n ∧ some t ≠ some .done) → (⟨adj, s.tasks.set i t'⟩ : BSt) = s)) := by
      intro adj t' h1 h2 h3 h4 h5 h6
      refine ⟨hs.setTask h1 h2, h3, fun _ => ⟨t, t', rfl, rfl, h5, h6⟩, fun hc => ?_⟩
      exact absurd ⟨hi, fun e => h4 (Option.some.inj e)⟩ hc
    cases t with
    | done =>
      exact ⟨s, rfl, hs, .none, fun hc => absurd rfl hc.2, fun _ => rfl⟩
    | todo =>
      simp only
      rw [if_neg (by omega)]
      obtain ⟨ids, hids, hin⟩ := h.init i hi
      rw [hids, hrd]
      simp only [Res.ok_bind]
      obtain ⟨g, e, hh, hk, hg, _, _, _, _, hp⟩ := greedyStart_spec cfg.sortF h.sort cfg.env.ctx
        cfg.env.ctx.data[i] cfg.L (fun _ => []) ids (cfg.distFrom i)
        (fun j v hv => by rw [h.symm]; exact hdist j v hv) h.listSize h.listSize_le
        (cfg.acc i) (fun _ => True) hin (fun _ _ => trivial)
      rw [e]
      simp only [Res.ok_bind]
      refine ⟨_, rfl, goal _ _ hedge ⟨⟨_, _, hg⟩, hp (by show 1 ≤ cfg.n; omega)⟩ .none (by simp) ?_ rfl⟩
      simp only [BuildCfg.work, hh, hk]
      rw [Nat.add_mul, Nat.sub_zero, Nat.sub_zero]
      omega
    | search g =>
      obtain ⟨⟨adjh, c0, hg⟩, hp⟩ := hok
      simp only
      by_cases hk : g.k < g.ps.cur
      · rw [if_pos hk, hrd]
        simp only [Res.ok_bind]
        have hg' := hg.congr_adj (adj' := Function.update adjh g.hops s.adj) (fun t ht =>
          Function.update_of_ne (by omega) _ _)
        obtain ⟨g', e, h1, h2, _, _, _, h3⟩ := greedyIter_spec cfg.env.ctx cfg.env.ctx.data[i]
          (cfg.filters i) cfg.L (Function.update adjh g.hops s.adj) s.adj (cfg.distFrom i) hdist
          h.listSize_le (cfg.acc i) (fun _ => True) c0
          (by
            intro j hj
            obtain ⟨b, hb⟩ := filterAccepts_ok cfg.env.ctx (cfg.filters i) j
              (fun hne => by rw [h.filters i hne]; exact hj)
            unfold BuildCfg.acc
            rw [hb]
            cases b <;> simp)
          hedge.1
          (by
            intro nb hnb j hj
            obtain ⟨v, hv⟩ := List.getElem?_of_mem hnb
            exact (hedge.2 v nb hv j hj).1)
          (fun _ _ _ _ _ _ _ => trivial) g hg' hk (by simp)
        rw [e]
        simp only [Res.ok_bind]
        refine ⟨_, rfl, goal _ _ hedge ⟨⟨_, _, h1⟩, h3 hp⟩ .none (by simp) ?_ rfl⟩
        simp only [BuildCfg.work]
        have h2 : (cfg.n - g'.hops) * (cfg.L + 1) + (cfg.L - g'.k)
          < (cfg.n - g.hops) * (cfg.L + 1) + (cfg.L - g.k) := h2
        omega
      · rw [if_neg hk]
        obtain ⟨kept, e, h1, h2, h3⟩ := pruneBy_spec h cfg.topKOwn i
          (if cfg.wholePool then g.ps.pool else g.expanded) (by
            intro x hx
            split at hx
            · exact hp x hx
            · exact hg.insLt _ (hg.exIns _ (List.mem_map_of_mem hx)))
        rw [e]
        simp only [Res.ok_bind]
        refine ⟨_, rfl, goal _ _ hedge ⟨⟨by simpa using h1, ?_⟩, ?_⟩ .none (by simp) ?_ rfl⟩
        · intro x hx
          obtain ⟨y, hy, rfl⟩ := List.mem_map.1 hx
          refine ⟨?_, h3 y hy⟩
          have hy := h2.subset hy
          split at hy
          · exact hp y hy
          · exact hg.insLt _ (hg.exIns _ (List.mem_map_of_mem hy))
        · intro hw
          rw [hw] at h2
          obtain ⟨l, hl, hsub⟩ := h2
          exact (hl.map Nbr.id).nodup_iff.1 (hg.exNodup.sublist (hsub.map _))
        · simp only [BuildCfg.work, List.length_map]
          omega
    | link pr =>
      have hia : i < s.adj.length := by rw [hedge.1]; exact hi
      have hok : cfg.Chosen i pr := hok.1
      simp only
      rw [rd_ok hia]
      simp only [Res.ok_bind]
      rw [wr_ok hia]
      simp only [Res.ok_bind]
      refine ⟨_, rfl, goal _ _ ?_ hok (.link ht (List.getElem?_eq_getElem hia)) (by simp) ?_ rfl⟩
      · refine hedge.set ?_
        intro x hx
        rcases List.mem_append.1 hx with hx | hx
        · exact hedge.2 i _ (List.getElem?_eq_getElem hia) x hx
        · exact hok.2 x hx
      · simp only [BuildCfg.work]; omega
    | recip rest =>
      have hok : cfg.Chosen i rest := hok
      cases rest with
      | nil =>
        refine ⟨_, rfl, goal _ _ hedge trivial .none (by simp) ?_ rfl⟩
        simp [BuildCfg.work]
      | cons des rest =>
        have hdes := hok.2 des (by simp)
        have hda : des < s.adj.length := by rw [hedge.1]; exact hdes.1
        have hrest : cfg.Chosen i rest := ⟨by have := hok.1; simp at this; omega,
          fun x hx => hok.2 x (by simp [hx])⟩
        simp only
        rw [rd_ok hda]
        simp only [Res.ok_bind]
        by_cases hc : (s.adj[des]).contains i = true
        · rw [if_pos hc]
          refine ⟨_, rfl, goal _ _ hedge hrest .none (by simp) ?_ rfl⟩
          simp [BuildCfg.work]
        · rw [if_neg hc]
          by_cases hl : 10 * (s.adj[des]).length < 13 * cfg.R
          · rw [if_pos hl, wr_ok hda]
            simp only [Res.ok_bind]
            refine ⟨_, rfl, goal _ _ ?_ hrest
              (.append ht (List.getElem?_eq_getElem hda) (by simpa using hc) hl) (by simp) ?_ rfl⟩
            · refine hedge.set ?_
              intro x hx
              rcases List.mem_append.1 hx with hx | hx
              · exact hedge.2 des _ (List.getElem?_eq_getElem hda) x hx
              · simp at hx; subst hx; exact ⟨hi, fun e => hdes.2 e.symm⟩
            · simp [BuildCfg.work]
          · rw [if_neg hl]
            refine ⟨_, rfl, goal _ _ hedge ⟨hok, ?_⟩ .none (by simp) ?_ rfl⟩
            · intro x hx
              exact (hedge.2 des _ (List.getElem?_eq_getElem hda) x hx).1
            · simp only [BuildCfg.work, List.length_cons]; omega
    | prune des copy rest =>
      obtain ⟨hch, hcopy⟩ := hok
      have hdes := hch.2 des (by simp)
      have hda : des < s.adj.length := by rw [hedge.1]; exact hdes.1
      have hrest : cfg.Chosen i rest := ⟨by have := hch.1; simp at this; omega,
        fun x hx => hch.2 x (by simp [hx])⟩
      have hall : ∀ x ∈ copy ++ [i], x < cfg.n := by
        intro x hx
        rcases List.mem_append.1 hx with hx | hx
        · exact hcopy x hx
        · simp at hx; subst hx; exact hi
      obtain ⟨new, e, h1, h2, h3⟩ := reprune_spec h cfg.topKRecip des hdes.1 (copy ++ [i]) hall
      simp only
      rw [e]
      simp only [Res.ok_bind]
      rw [wr_ok hda]
      simp only [Res.ok_bind]
      refine ⟨_, rfl, goal _ _ ?_ hrest (.write ht h1 h2 h3) (by simp) ?_ rfl⟩
      · exact hedge.set (fun x hx => ⟨hall x (h3 x hx).1, (h3 x hx).2⟩)
      · simp [BuildCfg.work]

end Grann
