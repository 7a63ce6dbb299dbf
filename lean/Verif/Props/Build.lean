import Verif.Proofs.Build
import Verif.Proofs.Sort
import Verif.Basic.ExFloat
/-!
# C22–C26, C62 — parallel construction of the graph
-/

namespace Grann

/-! ## Whole schedules -/

/-- A property of states that every step keeps holds after every schedule. -/
theorem runSched_induct {V : Type} {cfg : BuildCfg V} (h : cfg.OK) (Q : BSt → Prop)
    (hstep : ∀ s i s', BInv cfg s → Q s → buildStep cfg s i = .ok s' → Q s') :
    ∀ (sched : List Nat) (s : BSt), BInv cfg s → Q s →
    ∃ s', runSched cfg sched s = .ok s' ∧ BInv cfg s' ∧ Q s' := by
  intro sched
  induction sched with
  | nil => intro s hs hq; exact ⟨s, rfl, hs, hq⟩
  | cons i is ih =>
    intro s hs hq
    obtain ⟨s1, e, h1, _⟩ := buildStep_spec h s hs i
    obtain ⟨s', e', h2, h3⟩ := ih s1 h1 (hstep s i s1 hs hq e)
    refine ⟨s', ?_, h2, h3⟩
    unfold runSched
    rw [e]
    exact e'

theorem start_inv {V : Type} {cfg : BuildCfg V} {adj : List (List Nat)} (h : ValidEdges cfg.n adj) :
    BInv cfg (BSt.start adj) := by
  refine ⟨h, by simp [BSt.start, h.1], ?_⟩
  intro i t ht
  have : t = .todo := List.eq_of_mem_replicate (List.mem_of_getElem? ht)
  subst this
  trivial

theorem freshAdj_valid (n : Nat) : ValidEdges n (freshAdj n) := by
  refine ⟨by simp [freshAdj], ?_⟩
  intro v nb hv x hx
  have : nb = [] := List.eq_of_mem_replicate (List.mem_of_getElem? hv)
  subst this
  simp at hx

/-- Pre-clean-up and post-clean-up lists. -/
theorem cleanup_spec {V : Type} {cfg : BuildCfg V} (h : cfg.OK) {adj : List (List Nat)}
    (ha : ValidEdges cfg.n adj) :
    ∃ out, cleanup cfg adj = .ok out ∧ ValidEdges cfg.n out ∧
      ∀ (v : Nat) (nb : List Nat), adj[v]? = some nb → ∃ nb' : List Nat, out[v]? = some nb' ∧ nb'.length ≤ cfg.R ∧
        (nb.length ≤ cfg.R → nb' = nb) ∧ (cfg.R < nb.length → nb'.Nodup) ∧ (∀ x ∈ nb', x ∈ nb) := by
  have key : ∀ (l : List (List Nat)) (k : Nat), k + l.length ≤ cfg.n →
      (∀ (v : Nat) (nb : List Nat), l[v]? = some nb → ∀ x ∈ nb, x < cfg.n ∧ x ≠ k + v) →
      ∃ out, (l.zipIdx k).mapM (fun p => cleanupNode cfg p.2 p.1) = .ok out ∧ out.length = l.length ∧
        ∀ (v : Nat) (nb : List Nat), l[v]? = some nb → ∃ nb' : List Nat, out[v]? = some nb' ∧ nb'.length ≤ cfg.R ∧
          (nb.length ≤ cfg.R → nb' = nb) ∧ (cfg.R < nb.length → nb'.Nodup) ∧ (∀ x ∈ nb', x ∈ nb) := by
    intro l
    induction l with
    | nil => intro k _ _; exact ⟨[], rfl, rfl, by simp⟩
    | cons nb l ih =>
      intro k hk hl
      obtain ⟨out, e, hlen, hout⟩ := ih (k + 1) (by simp at hk; omega) (by
        intro v nb' hv x hx
        have := hl (v + 1) nb' (by simpa using hv) x hx
        exact ⟨this.1, by omega⟩)
      have hnb := hl 0 nb (by simp)
      have hone : ∃ nb', cleanupNode cfg k nb = .ok nb' ∧ nb'.length ≤ cfg.R ∧
          (nb.length ≤ cfg.R → nb' = nb) ∧ (cfg.R < nb.length → nb'.Nodup) ∧ (∀ x ∈ nb', x ∈ nb) := by
        unfold cleanupNode
        by_cases hR : cfg.R < nb.length
        · rw [if_pos hR]
          obtain ⟨new, e, h1, h2, h3⟩ := reprune_spec h cfg.topKOwn k (by simp at hk; omega) nb
            (fun x hx => (hnb x hx).1)
          exact ⟨new, e, h1, fun hc => by omega, fun _ => h2, fun x hx => (h3 x hx).1⟩
        · rw [if_neg hR]
          exact ⟨nb, rfl, by omega, fun _ => rfl, fun hc => absurd hc hR, fun x hx => hx⟩
      obtain ⟨nb', e', hrest⟩ := hone
      refine ⟨nb' :: out, ?_, by simp [hlen], ?_⟩
      · rw [List.zipIdx_cons, List.mapM_cons]
        simp only
        rw [e', Res.ok_bind, e]
        rfl
      · intro v nb1 hv
        cases v with
        | zero => simp at hv; subst hv; exact ⟨nb', by simp, hrest⟩
        | succ v => simpa using hout v nb1 (by simpa using hv)
  obtain ⟨out, e, hlen, hout⟩ := key adj 0 (by rw [ha.1]; omega) (by
    intro v nb hv x hx
    simpa using ha.2 v nb hv x hx)
  refine ⟨out, e, ⟨by rw [hlen, ha.1], ?_⟩, hout⟩
  intro v nb' hv x hx
  have hvl : v < adj.length := by rw [← hlen]; exact (List.getElem?_eq_some_iff.1 hv).1
  obtain ⟨nb'', h1, _, _, _, h2⟩ := hout v _ (List.getElem?_eq_getElem hvl)
  rw [hv] at h1
  cases h1
  exact ha.2 v _ (List.getElem?_eq_getElem hvl) x (h2 x hx)

/-! ## C22: degrees -/

def DegInv {V : Type} (cfg : BuildCfg V) (s : BSt) : Prop :=
  ∀ (v : Nat) (nb : List Nat) (t : Task), s.adj[v]? = some nb → s.tasks[v]? = some t →
    nb.length ≤ (13 * cfg.R + 9) / 10 + (if t.linked then cfg.R else 0)

theorem degInv_step {V : Type} {cfg : BuildCfg V} (h : cfg.OK) (s : BSt) (i : Nat) (s' : BSt)
    (hs : BInv cfg s) (hd : DegInv cfg s) (e : buildStep cfg s i = .ok s') : DegInv cfg s' := by
  obtain ⟨s1, e1, h1, hstep, heff, hno⟩ := buildStep_spec h s hs i
  rw [e1] at e
  cases e
  by_cases hc : i < cfg.n ∧ s.tasks[i]? ≠ some .done
  · obtain ⟨t, t', ht, hts, _, hlink⟩ := heff hc
    have hil : i < s.tasks.length := (List.getElem?_eq_some_iff.1 ht).1
    intro v nb tv hv htv
    rw [hts, List.getElem?_set] at htv
    have hold : ∀ nb0, s.adj[v]? = some nb0 →
        nb0.length ≤ (13 * cfg.R + 9) / 10 + (if tv.linked then cfg.R else 0) := by
      intro nb0 h0
      split at htv
      · rename_i hiv
        subst hiv
        cases htv
        have := hd i nb0 t h0 ht
        rw [hlink]
        cases h : t.linked <;> simp [h] at this ⊢
        · split <;> omega
        · exact this
      · exact hd v nb0 tv h0 htv
    generalize hadj : s'.adj = adj' at hv hstep
    cases hstep with
    | none => exact hold nb hv
    | @link pr own htl hown =>
      rw [ht] at htl
      cases htl
      rw [List.getElem?_set] at hv
      split at hv
      · rename_i hiv
        subst hiv
        split at hv
        · cases hv
          rw [if_pos rfl, if_pos hil] at htv
          cases htv
          have := hd i own _ hown ht
          have hch := (hs.taskOK i _ ht).1.1
          rw [hlink]
          simp [Task.linked, Task.isLink] at this ⊢
          omega
        · cases hv
      · exact hold nb hv
    | @append des rest dp htl hdp hni hlt =>
      rw [List.getElem?_set] at hv
      split at hv
      · split at hv
        · cases hv
          rw [List.length_append, List.length_singleton]
          have : dp.length + 1 ≤ (13 * cfg.R + 9) / 10 := by omega
          omega
        · cases hv
      · exact hold nb hv
    | @write des copy rest new htl hlen hnd hsub =>
      rw [List.getElem?_set] at hv
      split at hv
      · split at hv
        · cases hv
          omega
        · cases hv
      · exact hold nb hv
  · rw [hno hc]; exact hd

/-- **C22.** For every well-formed input, every initial graph with valid edges and every schedule: the
steps succeed; and when the parallel loop has ended, the clean-up succeeds and leaves every point with at
most `R` out-neighbours. -/
theorem C22_degree_bound {V : Type} (cfg : BuildCfg V) (h : cfg.OK) (adj0 : List (List Nat))
    (h0 : ValidEdges cfg.n adj0) (sched : List Nat) :
    ∃ s, runSched cfg sched (BSt.start adj0) = .ok s ∧
      (s.Finished → ∃ out, cleanup cfg s.adj = .ok out ∧ out.length = cfg.n ∧
        ∀ nb ∈ out, nb.length ≤ cfg.R) := by
  obtain ⟨s, e, hs, _⟩ := runSched_induct h (fun _ => True) (fun _ _ _ _ _ _ => trivial) sched _
    (start_inv h0) trivial
  refine ⟨s, e, fun _ => ?_⟩
  obtain ⟨out, e', hv, hout⟩ := cleanup_spec h hs.edges
  refine ⟨out, e', hv.1, ?_⟩
  intro nb hnb
  obtain ⟨v, hv'⟩ := List.getElem?_of_mem hnb
  have hvl : v < s.adj.length := by
    rw [hs.edges.1, ← hv.1]; exact (List.getElem?_eq_some_iff.1 hv').1
  obtain ⟨nb', h1, h2, _⟩ := hout v _ (List.getElem?_eq_getElem hvl)
  rw [hv'] at h1
  cases h1
  exact h2

/-- **C22, during the build.** Starting from a new object, after every prefix of every schedule each list
has at most `R + ⌈1.3 R⌉` entries. -/
theorem C22_degree_during_build {V : Type} (cfg : BuildCfg V) (h : cfg.OK) (sched : List Nat) :
    ∃ s, runSched cfg sched (BSt.start (freshAdj cfg.n)) = .ok s ∧
      ∀ nb ∈ s.adj, nb.length ≤ cfg.R + (13 * cfg.R + 9) / 10 := by
  obtain ⟨s, e, hs, hd⟩ := runSched_induct h (DegInv cfg)
    (fun s i s' hs hd e => degInv_step h s i s' hs hd e) sched _
    (start_inv (freshAdj_valid cfg.n)) (by
      intro v nb t hv _
      have : nb = [] := List.eq_of_mem_replicate (List.mem_of_getElem? hv)
      subst this
      simp)
  refine ⟨s, e, ?_⟩
  intro nb hnb
  obtain ⟨v, hv⟩ := List.getElem?_of_mem hnb
  have hvl : v < s.tasks.length := by
    rw [hs.tasksLen, ← hs.edges.1]; exact (List.getElem?_eq_some_iff.1 hv).1
  have := hd v nb _ hv (List.getElem?_eq_getElem hvl)
  split at this <;> omega

/-! ## C23: edges -/

/-- **C23.** For every well-formed input and every schedule, at every moment of the build and after the
clean-up, there is one list per point, every edge leads to an indexed point and no point is its own
out-neighbour. -/
theorem C23_valid_edges {V : Type} (cfg : BuildCfg V) (h : cfg.OK) (adj0 : List (List Nat))
    (h0 : ValidEdges cfg.n adj0) (sched : List Nat) :
    ∃ s, runSched cfg sched (BSt.start adj0) = .ok s ∧
      (s.adj.length = cfg.n ∧ ∀ (v : Nat) (nb : List Nat), s.adj[v]? = some nb → ∀ x ∈ nb, x < cfg.n ∧ x ≠ v) ∧
      ∃ out, cleanup cfg s.adj = .ok out ∧
        out.length = cfg.n ∧ ∀ (v : Nat) (nb : List Nat), out[v]? = some nb → ∀ x ∈ nb, x < cfg.n ∧ x ≠ v := by
  obtain ⟨s, e, hs, _⟩ := runSched_induct h (fun _ => True) (fun _ _ _ _ _ _ => trivial) sched _
    (start_inv h0) trivial
  obtain ⟨out, e', hv, _⟩ := cleanup_spec h hs.edges
  exact ⟨s, e, hs.edges, out, e', hv⟩

/-! ## C24: repeated edges -/

def DupInv (s : BSt) : Prop :=
  ∀ (v : Nat) (nb : List Nat) (t : Task), s.adj[v]? = some nb → s.tasks[v]? = some t →
    (t.linked = false → nb.Nodup) ∧ ∀ x, nb.count x ≤ 2

theorem nodup_count_le {l : List Nat} (h : l.Nodup) (x : Nat) : l.count x ≤ 1 :=
  List.nodup_iff_count_le_one.1 h x

theorem dupInv_step {V : Type} {cfg : BuildCfg V} (h : cfg.OK) (hw : cfg.wholePool = false) (s : BSt)
    (i : Nat) (s' : BSt)
    (hs : BInv cfg s) (hd : DupInv s) (e : buildStep cfg s i = .ok s') : DupInv s' := by
  obtain ⟨s1, e1, h1, hstep, heff, hno⟩ := buildStep_spec h s hs i
  rw [e1] at e
  cases e
  by_cases hc : i < cfg.n ∧ s.tasks[i]? ≠ some .done
  · obtain ⟨t, t', ht, hts, _, hlink⟩ := heff hc
    have hil : i < s.tasks.length := (List.getElem?_eq_some_iff.1 ht).1
    intro v nb tv hv htv
    rw [hts, List.getElem?_set] at htv
    have hold : ∀ nb0, s.adj[v]? = some nb0 → (tv.linked = false → nb0.Nodup) ∧ ∀ x, nb0.count x ≤ 2 := by
      intro nb0 h0
      split at htv
      · rename_i hiv
        subst hiv
        cases htv
        have := hd i nb0 t h0 ht
        refine ⟨fun hl => this.1 ?_, this.2⟩
        rw [hlink] at hl
        simpa using (Bool.or_eq_false_iff.1 hl).1
      · exact hd v nb0 tv h0 htv
    generalize hadj : s'.adj = adj' at hv hstep
    cases hstep with
    | none => exact hold nb hv
    | @link pr own htl hown =>
      rw [ht] at htl
      cases htl
      rw [List.getElem?_set] at hv
      split at hv
      · rename_i hiv
        subst hiv
        split at hv
        · cases hv
          rw [if_pos rfl, if_pos hil] at htv
          cases htv
          have hn1 := (hd i own _ hown ht).1 rfl
          have hn2 := (hs.taskOK i _ ht).2 hw
          refine ⟨fun hl => ?_, fun x => ?_⟩
          · rw [hlink] at hl; simp [Task.isLink] at hl
          · rw [List.count_append]
            have := nodup_count_le hn1 x
            have := nodup_count_le hn2 x
            omega
        · cases hv
      · exact hold nb hv
    | @append des rest dp htl hdp hni hlt =>
      rw [List.getElem?_set] at hv
      split at hv
      · rename_i hdv
        subst hdv
        split at hv
        · cases hv
          have ho := hold dp hdp
          refine ⟨fun hl => ?_, fun x => ?_⟩
          · have := ho.1 hl
            rw [List.nodup_append]
            refine ⟨this, by simp, ?_⟩
            intro a ha b hb
            simp at hb
            subst hb
            exact fun e => hni (e ▸ ha)
          · rw [List.count_append, List.count_singleton]
            have := ho.2 x
            by_cases hx : i = x
            · subst hx
              rw [List.count_eq_zero_of_not_mem hni]
              simp
            · simp [hx, this]
        · cases hv
      · exact hold nb hv
    | @write des copy rest new htl hlen hnd hsub =>
      rw [List.getElem?_set] at hv
      split at hv
      · split at hv
        · cases hv
          exact ⟨fun _ => hnd, fun x => by have := nodup_count_le hnd x; omega⟩
        · cases hv
      · exact hold nb hv
  · rw [hno hc]; exact hd

/-- **C24, what holds.** In a Vamana build of a new object, under every schedule: no out-neighbour list
ever contains a point three times, a list has no repetition until its point has stored its own neighbours,
and a list that was longer than `R` has no repetition after the clean-up. -/
theorem C24_no_repeated_edges_partial {V : Type} (cfg : BuildCfg V) (h : cfg.OK)
    (hw : cfg.wholePool = false) (sched : List Nat) :
    ∃ s, runSched cfg sched (BSt.start (freshAdj cfg.n)) = .ok s ∧
      (∀ (v : Nat) (nb : List Nat) (t : Task), s.adj[v]? = some nb → s.tasks[v]? = some t →
        (t.linked = false → nb.Nodup) ∧ ∀ x, nb.count x ≤ 2) ∧
      ∃ out, cleanup cfg s.adj = .ok out ∧ ∀ (v : Nat) (nb nb' : List Nat),
        s.adj[v]? = some nb → out[v]? = some nb' →
        (cfg.R < nb.length → nb'.Nodup) ∧ ∀ x, nb'.count x ≤ 2 := by
  obtain ⟨s, e, hs, hd⟩ := runSched_induct h DupInv
    (fun s i s' hs hd e => dupInv_step h hw s i s' hs hd e) sched _
    (start_inv (freshAdj_valid cfg.n)) (by
      intro v nb t hv _
      have : nb = [] := List.eq_of_mem_replicate (List.mem_of_getElem? hv)
      subst this
      simp)
  obtain ⟨out, e', hv, hout⟩ := cleanup_spec h hs.edges
  refine ⟨s, e, hd, out, e', ?_⟩
  intro v nb nb' hnb hnb'
  obtain ⟨nb'', h1, h2, h3, h4, _⟩ := hout v nb hnb
  rw [hnb'] at h1
  cases h1
  refine ⟨h4, fun x => ?_⟩
  by_cases hR : cfg.R < nb.length
  · have := nodup_count_le (h4 hR) x; omega
  · rw [h3 (by omega)]
    have hvl : v < s.tasks.length := by
      rw [hs.tasksLen, ← hs.edges.1]; exact (List.getElem?_eq_some_iff.1 hnb).1
    exact (hd v nb _ hnb (List.getElem?_eq_getElem hvl)).2 x

/-! ## C25: lost updates -/

/-- **C25, refuted in general.** Whatever the list of `des` contains when task `j` writes back: if task `j`
copied it before `i` was added, `i` is not in it afterwards. -/
theorem C25_stale_copy_loses_edge {V : Type} (cfg : BuildCfg V) (h : cfg.OK) (s : BSt) (hs : BInv cfg s)
    (j i des : Nat) (copy rest : List Nat) (hj : s.tasks[j]? = some (.prune des copy rest)) (hij : i ≠ j)
    (hcopy : i ∉ copy) :
    ∃ s' nb, buildStep cfg s j = .ok s' ∧ s'.adj[des]? = some nb ∧ i ∉ nb := by
  obtain ⟨hch, hcp⟩ := hs.taskOK j _ hj
  have hjn : j < cfg.n := by rw [← hs.tasksLen]; exact (List.getElem?_eq_some_iff.1 hj).1
  have hdes := hch.2 des (by simp)
  have hda : des < s.adj.length := by rw [hs.edges.1]; exact hdes.1
  obtain ⟨new, e, _, _, h3⟩ := reprune_spec h cfg.topKRecip des hdes.1 (copy ++ [j]) (by
    intro x hx
    rcases List.mem_append.1 hx with hx | hx
    · exact hcp x hx
    · simp at hx; subst hx; exact hjn)
  refine ⟨⟨s.adj.set des new, s.tasks.set j (.recip rest)⟩, new, ?_, by simp [hda], ?_⟩
  · unfold buildStep
    rw [hj]
    simp only
    rw [e]
    simp only [Res.ok_bind]
    rw [wr_ok hda]
    rfl
  · intro hi
    have := (h3 i hi).1
    simp [hcopy, hij] at this

/-- **C25, what holds.** If the list of `des` has not changed since task `j` copied it, writing back puts
there the result of pruning the present list together with `j`: every edge that disappears was considered
by that pruning. -/
theorem C25_undisturbed_insertion_partial {V : Type} (cfg : BuildCfg V) (h : cfg.OK) (s : BSt)
    (hs : BInv cfg s) (j des : Nat) (copy rest : List Nat)
    (hj : s.tasks[j]? = some (.prune des copy rest)) (hsame : s.adj[des]? = some copy) :
    ∃ s' nb pool, buildStep cfg s j = .ok s' ∧ s'.adj[des]? = some nb ∧
      dummyPool cfg.env.ctx des (copy ++ [j]) [] = .ok pool ∧
      pruneBy cfg cfg.topKRecip des pool = .ok nb ∧
      (∀ x, x ∈ pool.map Nbr.id ↔ (x ∈ copy ∨ x = j)) := by
  obtain ⟨hch, hcp⟩ := hs.taskOK j _ hj
  have hjn : j < cfg.n := by rw [← hs.tasksLen]; exact (List.getElem?_eq_some_iff.1 hj).1
  have hdes := hch.2 des (by simp)
  have hda : des < s.adj.length := by rw [hs.edges.1]; exact hdes.1
  have hall : ∀ x ∈ copy ++ [j], x < cfg.n := by
    intro x hx
    rcases List.mem_append.1 hx with hx | hx
    · exact hcp x hx
    · simp at hx; subst hx; exact hjn
  obtain ⟨pool, p1, p2, p3⟩ := dummyPool_spec cfg.env.ctx des hdes.1 (copy ++ [j]) [] hall
  obtain ⟨kept, k1, _⟩ := pruneBy_spec h cfg.topKRecip des pool
    (fun x hx => hall _ ((p3 x.id).1 (List.mem_map_of_mem hx)).1)
  refine ⟨⟨s.adj.set des (kept.map Nbr.id), s.tasks.set j (.recip rest)⟩, kept.map Nbr.id, pool, ?_,
    by simp [hda], p1, k1, ?_⟩
  · unfold buildStep
    rw [hj]
    simp only
    unfold reprune
    rw [p1, Res.ok_bind, k1, Res.ok_bind, wr_ok hda]
    rfl
  · intro x
    rw [p3 x]
    constructor
    · rintro ⟨hx, _⟩; simpa using hx
    · intro hx
      refine ⟨by simpa using hx, by simp, ?_⟩
      rcases hx with hx | rfl
      · exact (hs.edges.2 des copy hsame x hx).2
      · exact fun e => hdes.2 e.symm

/-! ## C26: sizes -/

/-- **C26, refuted.** With fewer than 10 points (and at least one) the first step of any task divides by
zero. -/
theorem C26_small_data_unsafe {V : Type} (cfg : BuildCfg V) (hn : cfg.n < 10) (adj0 : List (List Nat))
    (h0 : adj0.length = cfg.n) (i : Nat) (hi : i < cfg.n) (sched : List Nat) :
    runSched cfg (i :: sched) (BSt.start adj0) = .error .ub := by
  unfold runSched buildStep
  have : (BSt.start adj0).tasks[i]? = some .todo := by
    simp [BSt.start, h0, hi]
  rw [this]
  simp only
  rw [if_pos (by omega)]
  rfl

/-- **C26, what holds.** From 10 points on, for all well-formed inputs, every schedule and the clean-up run
without an undefined operation. -/
theorem C26_build_safe_partial {V : Type} (cfg : BuildCfg V) (h : cfg.OK) (adj0 : List (List Nat))
    (h0 : ValidEdges cfg.n adj0) (sched : List Nat) :
    ∃ s, runSched cfg sched (BSt.start adj0) = .ok s ∧ ∃ out, cleanup cfg s.adj = .ok out := by
  obtain ⟨s, e, _, out, e', _⟩ := C23_valid_edges cfg h adj0 h0 sched
  exact ⟨s, e, out, e'⟩

/-! ## C62: the build ends -/

def BuildCfg.total {V : Type} (cfg : BuildCfg V) (s : BSt) : Nat := (s.tasks.map cfg.work).sum

theorem sum_map_set_lt {α : Type} (f : α → Nat) : ∀ (l : List α) (i : Nat) (a b : α), l[i]? = some a →
    f b < f a → ((l.set i b).map f).sum < (l.map f).sum := by
  intro l
  induction l with
  | nil => intro i a b h; simp at h
  | cons x l ih =>
    intro i a b h hlt
    cases i with
    | zero => simp at h; subst h; simp; omega
    | succ i =>
      have := ih i a b (by simpa using h) hlt
      simpa using this

theorem le_sum_of_mem : ∀ (l : List Nat) (a : Nat), a ∈ l → a ≤ l.sum := by
  intro l
  induction l with
  | nil => intro a h; simp at h
  | cons x l ih =>
    intro a h
    rw [List.sum_cons]
    rcases List.mem_cons.1 h with rfl | h
    · omega
    · have := ih a h; omega

theorem total_step {V : Type} {cfg : BuildCfg V} (h : cfg.OK) (s : BSt) (i : Nat) (hs : BInv cfg s) :
    ∃ s', buildStep cfg s i = .ok s' ∧ BInv cfg s' ∧ cfg.total s' ≤ cfg.total s ∧
      (i < cfg.n → s.tasks[i]? ≠ some .done → cfg.total s' < cfg.total s) ∧
      (cfg.total s' = cfg.total s → s' = s) := by
  obtain ⟨s1, e1, h1, _, heff, hno⟩ := buildStep_spec h s hs i
  refine ⟨s1, e1, h1, ?_⟩
  by_cases hc : i < cfg.n ∧ s.tasks[i]? ≠ some .done
  · obtain ⟨t, t', ht, hts, hw, _⟩ := heff hc
    have : cfg.total s1 < cfg.total s := by
      unfold BuildCfg.total; rw [hts]; exact sum_map_set_lt _ _ _ _ _ ht hw
    exact ⟨by omega, fun _ _ => this, fun hc => by omega⟩
  · rw [hno hc]
    exact ⟨Nat.le_refl _, fun a b => absurd ⟨a, b⟩ hc, fun _ => rfl⟩

theorem runSched_append {V : Type} {cfg : BuildCfg V} : ∀ (a b : List Nat) (s s1 : BSt),
    runSched cfg a s = .ok s1 → runSched cfg (a ++ b) s = runSched cfg b s1 := by
  intro a
  induction a with
  | nil => intro b s s1 h; cases h; rfl
  | cons i a ih =>
    intro b s s1 h
    unfold runSched at h
    obtain ⟨s2, h2, h⟩ := Res.bind_eq_ok.1 h
    rw [← ih b s2 s1 h, List.cons_append]
    show (buildStep cfg s i >>= fun s' => runSched cfg (a ++ b) s') = _
    rw [h2]
    rfl

/-- After enough steps to schedule an unfinished task, some progress has been made. -/
theorem progress {V : Type} {cfg : BuildCfg V} (h : cfg.OK) (i : Nat) (hi : i < cfg.n) :
    ∀ (sched : List Nat) (s : BSt), BInv cfg s → s.tasks[i]? ≠ some .done → i ∈ sched →
    ∃ s', runSched cfg sched s = .ok s' ∧ BInv cfg s' ∧ cfg.total s' < cfg.total s := by
  intro sched
  induction sched with
  | nil => intro s _ _ hm; simp at hm
  | cons j js ih =>
    intro s hs hnd hm
    obtain ⟨s1, e1, h1, hle, hlt, heq⟩ := total_step h s j hs
    have rest : ∀ (l : List Nat) (s : BSt), BInv cfg s →
        ∃ s', runSched cfg l s = .ok s' ∧ BInv cfg s' ∧ cfg.total s' ≤ cfg.total s := by
      intro l
      induction l with
      | nil => intro s hs; exact ⟨s, rfl, hs, Nat.le_refl _⟩
      | cons k l ih =>
        intro s hs
        obtain ⟨s2, e2, h2, hle2, _⟩ := total_step h s k hs
        obtain ⟨s3, e3, h3, hle3⟩ := ih s2 h2
        exact ⟨s3, by unfold runSched; rw [e2]; exact e3, h3, by omega⟩
    by_cases hd : cfg.total s1 = cfg.total s
    · have he := heq hd
      subst he
      have hji : j ≠ i := by
        rintro rfl
        have := hlt hi hnd
        omega
      obtain ⟨s', e', h', hl'⟩ := ih s1 hs hnd (by
        rcases List.mem_cons.1 hm with rfl | hm
        · exact absurd rfl hji
        · exact hm)
      exact ⟨s', by unfold runSched; rw [e1]; exact e', h', hl'⟩
    · obtain ⟨s', e', h', hl'⟩ := rest js s1 h1
      exact ⟨s', by unfold runSched; rw [e1]; exact e', h', by omega⟩

/-- **C62.** Every fair schedule finishes the build: if every task keeps getting turns (`f k` is the task
taking the `k`-th step), then after finitely many steps all tasks are done. -/
theorem C62_build_terminates {V : Type} (cfg : BuildCfg V) (h : cfg.OK) (adj0 : List (List Nat))
    (h0 : ValidEdges cfg.n adj0) (f : Nat → Nat) (hfair : ∀ i < cfg.n, ∀ k, ∃ m ≥ k, f m = i) :
    ∃ N s, runSched cfg ((List.range N).map f) (BSt.start adj0) = .ok s ∧ s.Finished := by
  have key : ∀ (W : Nat) (s : BSt) (f : Nat → Nat), BInv cfg s → cfg.total s ≤ W →
      (∀ i < cfg.n, ∀ k, ∃ m ≥ k, f m = i) →
      ∃ N s', runSched cfg ((List.range N).map f) s = .ok s' ∧ s'.Finished := by
    intro W
    induction W with
    | zero =>
      intro s f hs hW hf
      by_cases hfin : s.Finished
      · exact ⟨0, s, rfl, hfin⟩
      · exfalso
        apply hfin
        intro t ht
        have : cfg.work t = 0 := by
          have hW : (s.tasks.map cfg.work).sum ≤ 0 := hW
          have : cfg.work t ≤ (s.tasks.map cfg.work).sum := le_sum_of_mem _ _ (List.mem_map_of_mem ht)
          omega
        cases t <;> simp [BuildCfg.work] at this ⊢
    | succ W ih =>
      intro s f hs hW hf
      by_cases hfin : s.Finished
      · exact ⟨0, s, rfl, hfin⟩
      · have : ∃ t ∈ s.tasks, t ≠ .done := by
          unfold BSt.Finished at hfin
          push Not at hfin
          exact hfin
        obtain ⟨t, ht, hne⟩ := this
        obtain ⟨i, hit⟩ := List.getElem?_of_mem ht
        have hi : i < cfg.n := by rw [← hs.tasksLen]; exact (List.getElem?_eq_some_iff.1 hit).1
        obtain ⟨m, _, hm⟩ := hf i hi 0
        obtain ⟨s1, e1, h1, hlt⟩ := progress h i hi ((List.range (m + 1)).map f) s hs
          (by rw [hit]; exact fun e => hne (Option.some.inj e))
          (List.mem_map.2 ⟨m, by simp, hm⟩)
        obtain ⟨N, s', e', hfin'⟩ := ih s1 (fun k => f (m + 1 + k)) h1 (by omega) (by
          intro i hi k
          obtain ⟨m', hm', he⟩ := hf i hi (m + 1 + k)
          exact ⟨m' - (m + 1), by omega, by
            show f (m + 1 + (m' - (m + 1))) = i
            rw [← he]
            congr 1
            omega⟩)
        refine ⟨m + 1 + N, s', ?_, hfin'⟩
        rw [List.range_add, List.map_append, runSched_append _ _ _ _ e1, List.map_map]
        exact e'
  exact key _ _ f (start_inv h0) (Nat.le_refl _) hfair

/-! ## The two index types -/

theorem mem_of_lookup : ∀ (m : List (Label × Nat)) (l : Label) (v : Nat), m.lookup l = some v → (l, v) ∈ m := by
  intro m
  induction m with
  | nil => intro l v h; simp at h
  | cons p m ih =>
    intro l v h
    obtain ⟨a, b⟩ := p
    rw [List.lookup_cons] at h
    split at h
    · rename_i hl
      have hl : l = a := by simpa using hl
      cases h
      simp [hl]
    · exact List.mem_cons_of_mem _ (ih l v h)

/-- Vamana builds are covered: without labels, or with labels for all points and entry points that
exist. -/
theorem vamanaCfg_ok {V : Type} (env : PruneEnv V) (sortF : List Nbr → List Nbr) (hsort : IsStdSort sortF)
    (L R C : Nat) (alpha : F32) (pruningRule start : Nat) (medoids : List (Label × Nat))
    (hn : 10 ≤ env.ctx.data.length) (hL : 1 ≤ L) (hL' : Spec.ListFits env.ctx.data.length L)
    (hsymm : ∀ a b, env.ctx.cmp a b = env.ctx.cmp b a)
    (hlab : env.filtered = true → env.ctx.labels.length = env.ctx.data.length)
    (hstart : start < env.ctx.data.length) (hmed : ∀ p ∈ medoids, p.2 < env.ctx.data.length) :
    (vamanaCfg env sortF L R C alpha pruningRule start medoids).OK where
  size := hn
  listSize := hL
  listSize_le := hL'
  sort := hsort
  symm := hsymm
  labels := hlab
  filters := by
    intro i hi
    by_cases hf : env.filtered = true
    · exact hlab hf
    · simp [vamanaCfg, hf] at hi
  init := by
    intro i hi
    have hi : i < env.ctx.data.length := hi
    show ∃ ids, vamanaBuildInit env.filtered start medoids env.ctx.labels i = .ok ids ∧
      ∀ x ∈ ids, x < env.ctx.data.length
    unfold vamanaBuildInit
    by_cases hf : env.filtered = true
    · rw [if_pos hf, rd_ok (show i < env.ctx.labels.length by rw [hlab hf]; exact hi)]
      refine ⟨_, rfl, ?_⟩
      intro x hx
      split at hx
      · simp at hx; subst hx; exact hstart
      · obtain ⟨l, _, hl⟩ := List.mem_filterMap.1 hx
        exact hmed _ (mem_of_lookup medoids l x hl)
    · rw [if_neg hf]
      exact ⟨[start], rfl, by simpa using hstart⟩

/-- HNSW levels are covered, given that the level above hands down valid entry points (C29). -/
theorem hnswCfg_ok {V : Type} (ctx : Ctx V) (div : F32 → F32 → F32) (sortF : List Nbr → List Nbr)
    (hsort : IsStdSort sortF) (L R C : Nat) (alpha : F32) (pruningRule : Nat)
    (entry : Nat → Res (List Nat))
    (hn : 10 ≤ ctx.data.length) (hL : 1 ≤ L) (hL' : Spec.ListFits ctx.data.length L)
    (hsymm : ∀ a b, ctx.cmp a b = ctx.cmp b a)
    (hentry : ∀ i, i < ctx.data.length → ∃ ids, entry i = .ok ids ∧ ∀ x ∈ ids, x < ctx.data.length) :
    (hnswCfg ctx div sortF L R C alpha pruningRule entry).OK where
  size := hn
  listSize := hL
  listSize_le := hL'
  sort := hsort
  symm := hsymm
  labels := by intro h; cases h
  filters := by intro i h; exact absurd rfl h
  init := hentry

/-! ## Concrete builds -/

/-- Ten points on a line; point 1 is at the mean of all, so it is the start node. -/
def exPts10 : List Nat := [49, 50, 54, 46, 55, 45, 56, 44, 57, 44]

def exEnv (pts : List Nat) : PruneEnv Nat where
  ctx := { data := pts, labels := [], useUniv := true, univ := [48], cmp := exSq }
  filtered := false
  div := exDiv1

def exVam (pts : List Nat) (R : Nat) : BuildCfg Nat :=
  vamanaCfg (exEnv pts) exSort 4 R 100 F32.one 0 1 []

theorem exVam_ok (pts : List Nat) (R : Nat) (h : 10 ≤ pts.length) : (exVam pts R).OK :=
  vamanaCfg_ok (exEnv pts) exSort exSort_isStdSort 4 R 100 F32.one 0 1 [] h (by decide) (.of_le (by decide))
    exSq_comm (by intro h; cases h) (by show 1 < pts.length; omega) (by simp)

/-- The tasks one after the other, each with `k` steps. -/
def seqSched (n k : Nat) : List Nat := (List.range n).flatMap (fun i => List.replicate k i)

def buildGraph {V : Type} (cfg : BuildCfg V) (sched : List Nat) : Res (List (List Nat)) := do
  let s ← runSched cfg sched (BSt.start (freshAdj cfg.n))
  if s.Finished then cleanup cfg s.adj else .error .loop

/-- **C24, refuted.** The sequential Vamana build (one thread) of the ten points `exPts10` with `R = 20`
gives point 1 the out-neighbour 0 twice: once as the reverse edge of point 0's choice, once as its own
choice. -/
theorem C24_repeated_edge_witness :
    (exVam exPts10 20).OK ∧ ∃ out, buildGraph (exVam exPts10 20) (seqSched 10 40) = .ok out ∧
      out[1]? = some [0, 0, 2] :=
  ⟨exVam_ok _ _ (by decide),
   [[1, 3], [0, 0, 2], [1, 4], [0, 5], [2, 6], [3, 7, 9], [4, 8], [5, 9], [6], [7, 5]],
   by decide +kernel, by decide⟩

/-- C22–C24 and C26 apply to this build, and to builds with a small bound, where pruning and clean-up are
active; the schedule is one where all tasks take turns. -/
example : (exVam exPts10 2).OK ∧ (∃ out, buildGraph (exVam exPts10 2)
      ((List.range 400).map (fun k => k % 10)) = .ok out ∧
    (out.map List.length).foldl max 0 = 2) ∧
    (∀ i < 10, ∀ k, ∃ m ≥ k, m % 10 = i) := by
  refine ⟨exVam_ok _ _ (by decide), ?_, ?_⟩
  · exact ⟨[[1], [0, 2], [1], [1], [1], [1], [1], [1], [1], [1]],
      by decide +kernel, by decide⟩
  · intro i hi k
    exact ⟨10 * k + i, by omega, by omega⟩

/-- An HNSW level with the other pruning rule. -/
example : (hnswCfg (exEnv exPts10).ctx exDiv1 exSort 4 3 100 F32.one 1 (fun _ => .ok [1])).OK :=
  hnswCfg_ok _ _ _ exSort_isStdSort _ _ _ _ _ _ (by decide) (by decide) (by decide) exSq_comm
    (fun _ _ => ⟨[1], rfl, by decide⟩)

/-- A labelled data set: even points carry "a", odd points "b"; entry points 2 and 1. -/
def exEnvL : PruneEnv Nat where
  ctx := { data := exPts10, labels := (List.range 10).map (fun i => if i % 2 = 0 then [[97]] else [[98]]),
           useUniv := true, univ := [48], cmp := exSq }
  filtered := true
  div := exDiv1

example : (vamanaCfg exEnvL exSort 4 2 100 F32.one 0 1 [([97], 2), ([98], 1)]).OK :=
  vamanaCfg_ok _ _ exSort_isStdSort _ _ _ _ _ _ _ (by decide) (by decide) (by decide) exSq_comm
    (by intro _; decide) (by decide) (by decide)

/-- 65 points: 957, 1000, 1001, then 61 points at distance 10 and more from 1000, then 1002.  The mean is
1000, so point 1 is the start node. -/
def exPts65 : List Nat :=
  [957, 1000, 1001] ++
    (List.range 61).map (fun k => if k % 2 = 0 then 1010 + k / 2 else 990 - k / 2) ++ [1002]

/-- A schedule for two threads with `schedule(static, 64)`: thread A runs locations 0 and 1 and location 2
up to the copy of point 1's list, then thread B runs its first location, 64, up to the same place; A
writes back, B writes back. -/
def exLost : List Nat :=
  List.replicate 8 0 ++ List.replicate 8 1 ++ List.replicate 6 2 ++ List.replicate 6 64

/-- **C25, refuted by a reachable state.** With `R = 1`: after `exLost` both tasks have copied the list
`[0, 0]` of point 1.  When task 2 has written back, point 1 has the edge to 2, the point closest to it.
When task 64 has written back as well, that edge is gone, although no pruning of 1's list ever saw 2 and 64
together, and 64 is farther from 1 than 2. -/
theorem C25_lost_edge_witness :
    (exVam exPts65 1).OK ∧
    (do let s ← runSched (exVam exPts65 1) exLost (BSt.start (freshAdj 65))
        .ok (s.tasks[2]?, s.tasks[64]?) : Res _)
      = .ok (some (.prune 1 [0, 0] []), some (.prune 1 [0, 0] [])) ∧
    (do let s ← runSched (exVam exPts65 1) (exLost ++ [2]) (BSt.start (freshAdj 65))
        .ok s.adj[1]? : Res _) = .ok (some [2]) ∧
    (do let s ← runSched (exVam exPts65 1) (exLost ++ [2, 64]) (BSt.start (freshAdj 65))
        .ok s.adj[1]? : Res _) = .ok (some [64]) ∧
    (exVam exPts65 1).distFrom 1 2 = F32.one ∧ (exVam exPts65 1).distFrom 1 64 = exNat 4 := by
  refine ⟨exVam_ok _ _ (by decide), ?_, ?_, ?_, ?_, ?_⟩
  · decide +kernel
  · decide +kernel
  · decide +kernel
  · decide
  · decide

/-- C26: nine points. -/
example : (exVam (exPts10.take 9) 2).n = 9 ∧
    runSched (exVam (exPts10.take 9) 2) [4] (BSt.start (freshAdj 9)) = .error .ub := by
  constructor
  · decide
  · decide +kernel

/-! ## The theorems applied to the examples -/

/-- C22–C24, C26: ten points, degree bound 2, all tasks taking turns, from a new object. -/
example := C22_degree_bound (exVam exPts10 2) (exVam_ok _ _ (by decide)) _ (freshAdj_valid _)
  ((List.range 400).map (fun k => k % 10))

example := C22_degree_during_build (exVam exPts10 2) (exVam_ok _ _ (by decide))
  ((List.range 123).map (fun k => k % 10))

/-- The initial graph may also be the one of an earlier build. -/
example := C23_valid_edges (exVam exPts10 2) (exVam_ok _ _ (by decide))
  [[1], [0, 2], [1], [1], [1], [1], [1], [1], [1], [1]]
  ⟨by decide, by
    intro v nb h x hx
    have hv : v < 10 := (List.getElem?_eq_some_iff.1 h).1
    have : ∀ v < 10, ∀ nb, [[1], [0, 2], [1], [1], [1], [1], [1], [1], [1], [1]][v]? = some nb →
        ∀ x ∈ nb, x < 10 ∧ x ≠ v := by
      intro v hv nb h
      have e : nb = ([[1], [0, 2], [1], [1], [1], [1], [1], [1], [1], [1]] : List (List Nat)).getD v [] := by
        simp [List.getD, h]
      subst e
      clear h
      revert v
      decide
    exact this v hv nb h x hx⟩
  ((List.range 400).map (fun k => k % 10))

example := C24_no_repeated_edges_partial (exVam exPts10 20) (exVam_ok _ _ (by decide)) rfl (seqSched 10 40)

example := C26_build_safe_partial (exVam exPts10 2) (exVam_ok _ _ (by decide)) _ (freshAdj_valid _)
  ((List.range 400).map (fun k => k % 10))

example : runSched (exVam (exPts10.take 9) 2) [4, 3] (BSt.start (freshAdj 9)) = .error .ub :=
  C26_small_data_unsafe (exVam (exPts10.take 9) 2) (by decide) (freshAdj 9) (by decide) 4 (by decide) [3]

/-- C62 with the tasks taking turns. -/
example := C62_build_terminates (exVam exPts10 2) (exVam_ok _ _ (by decide)) _ (freshAdj_valid _)
  (fun k => k % 10) (fun i hi k => ⟨10 * k + i, by omega, by
    have : i < 10 := hi
    omega⟩)

/-- C25 in the state after `exLost`: 2 and 64 both hold the copy `[0, 0]` of the list of 1.  Task 2 writes
back the result of pruning the present list with 2; after that the copy held by 64 is stale and does not
contain 2, so 64 loses the edge that 2 has stored. -/
example : ∃ s, runSched (exVam exPts65 1) exLost (BSt.start (freshAdj 65)) = .ok s ∧
    ∃ s' nb pool, buildStep (exVam exPts65 1) s 2 = .ok s' ∧ s'.adj[1]? = some nb ∧
      dummyPool (exVam exPts65 1).env.ctx 1 ([0, 0] ++ [2]) [] = .ok pool ∧
      pruneBy (exVam exPts65 1) (exVam exPts65 1).topKRecip 1 pool = .ok nb ∧
      (∀ x, x ∈ pool.map Nbr.id ↔ (x ∈ [0, 0] ∨ x = 2)) := by
  have hok := exVam_ok exPts65 1 (by decide)
  obtain ⟨s, hs, hi, _⟩ := runSched_induct hok (fun _ => True) (fun _ _ _ _ _ _ => trivial)
    exLost (BSt.start (freshAdj 65)) (start_inv (freshAdj_valid _)) trivial
  have h : (do let s ← runSched (exVam exPts65 1) exLost (BSt.start (freshAdj 65))
               .ok (s.tasks[2]?, s.adj[1]?) : Res _) = .ok (some (.prune 1 [0, 0] []), some [0, 0]) := by
    decide +kernel
  rw [hs, Res.ok_bind] at h
  simp only [Except.ok.injEq, Prod.mk.injEq] at h
  exact ⟨s, hs, C25_undisturbed_insertion_partial _ hok s hi 2 1 [0, 0] [] h.1 h.2⟩

example : ∃ s, runSched (exVam exPts65 1) (exLost ++ [2]) (BSt.start (freshAdj 65)) = .ok s ∧
    ∃ s' nb, buildStep (exVam exPts65 1) s 64 = .ok s' ∧ s'.adj[1]? = some nb ∧ 2 ∉ nb := by
  have hok := exVam_ok exPts65 1 (by decide)
  obtain ⟨s, hs, hi, _⟩ := runSched_induct hok (fun _ => True) (fun _ _ _ _ _ _ => trivial)
    (exLost ++ [2]) (BSt.start (freshAdj 65)) (start_inv (freshAdj_valid _)) trivial
  have h : (do let s ← runSched (exVam exPts65 1) (exLost ++ [2]) (BSt.start (freshAdj 65))
               .ok s.tasks[64]? : Res _) = .ok (some (.prune 1 [0, 0] [])) := by
    decide +kernel
  rw [hs, Res.ok_bind] at h
  simp only [Except.ok.injEq] at h
  exact ⟨s, hs, C25_stale_copy_loses_edge _ hok s hi 64 2 1 [0, 0] [] h (by decide) (by decide)⟩

end Grann
