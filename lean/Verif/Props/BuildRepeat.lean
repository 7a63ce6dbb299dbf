import Verif.Props.BuildReach
/-!
# C24: repeated edges in the build of every data set
-/

namespace Grann

theorem runSched_one {V : Type} {cfg : BuildCfg V} {s s' : BSt} {i : Nat} (h : buildStep cfg s i = .ok s') :
    runSched cfg [i] s = .ok s' := by
  unfold runSched
  rw [h]
  rfl

/-- The search of a task that runs alone. -/
theorem soloLoop {V : Type} {cfg : BuildCfg V} (A : List (List Nat)) (T : List Task) (i : Nat) (hi : i < T.length)
    (v : V) (hv : rd cfg.env.ctx.data i = .ok v) : ∀ (fuel : Nat) (g g' : GSt),
    greedyLoop cfg.env.ctx v (cfg.filters i) cfg.L (fun _ => A) fuel g = .ok g' →
    ∃ k, runSched cfg (List.replicate k i) ⟨A, T.set i (.search g)⟩ = .ok ⟨A, T.set i (.search g')⟩ ∧
      ¬ g'.k < g'.ps.cur := by
  intro fuel
  induction fuel with
  | zero =>
    intro g g' h
    unfold greedyLoop at h
    split at h
    · cases h
    · rename_i hk
      cases h
      exact ⟨0, rfl, hk⟩
  | succ f ih =>
    intro g g' h
    unfold greedyLoop at h
    split at h
    · rename_i hk
      obtain ⟨g1, h1, h2⟩ := Res.bind_eq_ok.1 h
      obtain ⟨k, e, hfin⟩ := ih g1 g' h2
      refine ⟨k + 1, ?_, hfin⟩
      rw [List.replicate_succ, runSched]
      have hs : buildStep cfg ⟨A, T.set i (.search g)⟩ i = .ok ⟨A, T.set i (.search g1)⟩ := by
        unfold buildStep
        have : (T.set i (Task.search g))[i]? = some (.search g) := by
          rw [List.getElem?_set_self hi]
        simp only [this]
        rw [if_pos hk, hv, Res.ok_bind, h1, Res.ok_bind, List.set_set]
      rw [hs]
      exact e
    · rename_i hk
      cases h
      exact ⟨0, rfl, hk⟩

/-- A task that runs alone up to the point where its neighbours are chosen, when only few points can be found. -/
theorem soloSearch {V : Type} {cfg : BuildCfg V} (h : cfg.OK) {start : Nat} (hr : cfg.Roomy start) (A : List (List Nat))
    (hA : ValidEdges cfg.n A) (T : List Task) (hT : T.length = cfg.n) (i : Nat) (hi : i < cfg.n) (hst : start < cfg.n)
    (ht : T[i]? = some .todo) (hnum : ∀ i j, (cfg.distFrom i j).IsNum) (P : Nat → Prop) (hP0 : P start)
    (hP : ∀ v nb, P v → A[v]? = some nb → ∀ j ∈ nb, P j) (hfew : ∀ l : List Nat, l.Nodup → (∀ x ∈ l, P x) → l.length < cfg.L) :
    ∃ k ex, (∀ pr, pruneBy cfg cfg.topKOwn i ex = .ok pr →
        runSched cfg (List.replicate k i) ⟨A, T⟩ = .ok ⟨A, T.set i (.link pr)⟩) ∧
      (∀ x ∈ ex.map Nbr.id, P x ∧ x < cfg.n) ∧ (ex.map Nbr.id).Nodup ∧ start ∈ ex.map Nbr.id ∧
      ∀ x ∈ ex.map Nbr.id, ∀ nb, A[x]? = some nb → ∀ j ∈ nb, j ∈ ex.map Nbr.id := by
  have hn := h.size
  have hrd : rd cfg.env.ctx.data i = .ok cfg.env.ctx.data[i] := rd_ok hi
  have hdist : ∀ j v, cfg.env.ctx.data[j]? = some v →
      cfg.env.ctx.cmp cfg.env.ctx.data[i] v = cfg.distFrom i j := by
    intro j v hv
    unfold BuildCfg.distFrom
    rw [hv, List.getElem?_eq_getElem hi]
  obtain ⟨g, c0, eg, hg, hk, hin, -, hkinv⟩ := greedySearchF_spec cfg.sortF h.sort cfg.env.ctx cfg.env.ctx.data[i]
    (cfg.filters i) cfg.L (fun _ => A) [start] (cfg.distFrom i) hdist (fun j v hv => by rw [h.symm]; exact hdist j v hv)
    h.listSize h.listSize_le (fun _ => true) P (fun j _ => by rw [hr.filters]; rfl) (fun _ => hA.1)
    (fun _ nb hnb j hj => by
      obtain ⟨v, hv⟩ := List.getElem?_of_mem hnb
      exact (hA.2 v nb hv j hj).1)
    (by intro x hx; rw [List.mem_singleton] at hx; rw [hx]; exact hst) (by simpa using hP0) (fun _ v nb hv hnb j hj _ => hP v nb hv hnb j hj) _ (Nat.le_refl _)
  unfold greedySearchF at eg
  obtain ⟨g0, eg0, eg⟩ := Res.bind_eq_ok.1 eg
  obtain ⟨k, ek, hend⟩ := soloLoop (cfg := cfg) A T i (by omega) _ hrd _ _ _ eg
  have hkn := hkinv (fun j _ => hnum i j)
  have hins : g.ps.ins.length < cfg.L := hfew _ hg.sinv.nodupIns hg.reach
  have hcard : g.ps.ins.toFinset.card = g.ps.ins.length := List.toFinset_card_of_nodup hg.sinv.nodupIns
  have hlen : (g.ps.live.map Nbr.pair).length = g.ps.ins.length := by
    have := hkn.length
    omega
  have hlive : ∀ x ∈ g.ps.ins, x ∈ g.expanded.map Nbr.id := by
    intro x hx
    have hmem : x ∈ (g.ps.live.map Nbr.pair).map Prod.fst := by
      have hs : (g.ps.live.map Nbr.pair).map Prod.fst ⊆ g.ps.ins := by
        intro y hy
        obtain ⟨p, hp, rfl⟩ := List.mem_map.1 hy
        have := (hkn.mem p hp).1
        simpa using this
      have hp := (hkn.nodup.subperm hs).perm_of_length_le (by rw [List.length_map, hlen])
      exact hp.mem_iff.2 hx
    rw [List.map_map] at hmem
    obtain ⟨y, hy, rfl⟩ := List.mem_map.1 hmem
    refine hg.flagEx y hy (hg.flagsK y ?_)
    rw [List.take_of_length_le (by rw [hg.sinv.live_length]; omega)]
    exact hy
  have hcur : g.ps.cur < cfg.L := by
    have := hg.sinv.live_length
    rw [List.length_map] at hlen
    omega
  refine ⟨1 + k + 1, g.expanded, ?_, fun x hx => ⟨hg.reach x (hg.exIns x hx), hg.insLt x (hg.exIns x hx)⟩, hg.exNodup,
    hlive _ (hin hcur start (by simp)), ?_⟩
  · intro pr hpr
    rw [List.replicate_add, List.replicate_add]
    have h1 : runSched cfg (List.replicate 1 i) ⟨A, T⟩ = .ok ⟨A, T.set i (.search g0)⟩ := by
      refine runSched_one ?_
      unfold buildStep
      simp only [ht]
      rw [if_neg (by omega), hr.init, Res.ok_bind, hrd, Res.ok_bind, eg0, Res.ok_bind]
    have h2 := ek
    have h3 : runSched cfg (List.replicate 1 i) ⟨A, T.set i (.search g)⟩ = .ok ⟨A, T.set i (.link pr)⟩ := by
      refine runSched_one ?_
      unfold buildStep
      have : (T.set i (Task.search g))[i]? = some (.search g) := by rw [List.getElem?_set_self (by omega)]
      simp only [this]
      rw [if_neg hend, hr.vamana]
      simp only [Bool.false_eq_true, if_false]
      rw [hpr, Res.ok_bind, List.set_set]
    have h12 : runSched cfg (List.replicate 1 i ++ List.replicate k i) ⟨A, T⟩ = .ok ⟨A, T.set i (.search g)⟩ := by
      rw [runSched_append _ _ _ _ h1]; exact h2
    rw [runSched_append _ _ _ _ h12]
    exact h3
  · intro x hx nb hnb j hj
    obtain ⟨y, hy, rfl⟩ := List.mem_map.1 hx
    obtain ⟨t, ht', hty⟩ := List.getElem_of_mem hy
    exact hlive j (hg.closed t y (by rw [List.getElem?_eq_getElem ht', hty]) nb hnb j hj rfl)

/-- If besides the point itself a single candidate was found, it is chosen. -/
theorem prune_single {V : Type} {cfg : BuildCfg V} (h : cfg.OK) {start : Nat} (hr : cfg.Roomy start) (i b : Nat)
    (hib : b ≠ i) (ex : List Nbr) (hex : ∀ x ∈ ex.map Nbr.id, x = i ∨ x = b) (hlt : ∀ x ∈ ex.map Nbr.id, x < cfg.n)
    (hnd : (ex.map Nbr.id).Nodup) (hb : b ∈ ex.map Nbr.id) (hC : 2 ≤ cfg.C) :
    pruneBy cfg cfg.topKOwn i ex = .ok [b] := by
  have hne : ex ≠ [] := by intro h0; rw [h0] at hb; simp at hb
  obtain ⟨I, h1, h2⟩ := pruneAlpha_spec cfg.sortF h.sort cfg.env cfg.alpha hr.alpha cfg.C cfg.R i ex hne
    (fun x hx => h.has (hlt _ (List.mem_map_of_mem hx))) []
  have hperm := h.sort.perm ex
  have hl2 : ex.length ≤ 2 := by
    have : (ex.map Nbr.id).length ≤ [i, b].length := (hnd.subperm (by
      intro x hx
      simpa using hex x hx)).length_le
    simpa using this
  have hS : (cfg.sortF ex).take cfg.C = cfg.sortF ex :=
    List.take_of_length_le (by rw [hperm.length_eq]; omega)
  rw [hS] at h1 h2
  have hSnd : ((cfg.sortF ex).map Nbr.id).Nodup := (hperm.map Nbr.id).nodup_iff.2 hnd
  have hids : ∀ x ∈ (cfg.sortF ex), x.id = i ∨ x.id = b := fun x hx =>
    hex _ (List.mem_map_of_mem (hperm.mem_iff.1 hx))
  obtain ⟨y, hy, hyb⟩ := List.mem_map.1 hb
  obtain ⟨j, hj, hjy⟩ := List.getElem_of_mem (hperm.mem_iff.2 hy)
  have hjs : (cfg.sortF ex)[j]? = some y := by rw [List.getElem?_eq_getElem hj, hjy]
  -- every chosen position is that of `b`
  have honly : ∀ t ∈ I, t = j := by
    intro t ht
    have htl := h2.inRange t ht
    have hx := List.getElem?_eq_getElem htl
    have hne' := h2.notSelf t ht _ hx
    have hxb : (cfg.sortF ex)[t].id = b := by
      rcases hids _ (List.getElem_mem htl) with h | h
      · exact absurd h hne'
      · exact h
    have := hSnd.getElem_inj_iff (i := t) (j := j) (hi := by simpa using htl) (hj := by simpa using hj)
    rw [List.getElem_map, List.getElem_map, hxb, hjy, hyb] at this
    exact this.1 rfl
  have hjI : j ∈ I := by
    by_contra hno
    have hI : I = [] := List.eq_nil_iff_forall_not_mem.2 (fun t ht => hno (honly t ht ▸ ht))
    rcases h2.reason j y hjs hno with hc | ⟨t, ht, _⟩ | ⟨hc, _⟩
    · rw [hyb] at hc; exact hib hc
    · rw [hI] at ht; simp at ht
    · rw [hI] at hc
      have := hr.room
      have := h.size
      simp at hc
      omega
  have hIj : I = [j] := by
    have hnd : I.Nodup := h2.increasing.imp (fun h => Nat.ne_of_lt h)
    have hp : I.Perm [j] := (List.perm_ext_iff_of_nodup hnd (by simp)).2 (fun t => by
      rw [List.mem_singleton]
      exact ⟨honly t, fun h => h ▸ hjI⟩)
    exact List.perm_singleton.1 hp
  unfold pruneBy
  rw [hr.rule]
  simp only [Bool.false_eq_true, if_false]
  rw [h1, hIj]
  simp [pickAt, hjs, hyb]

/-- Linking a point with a single new neighbour. -/
theorem step_link {V : Type} {cfg : BuildCfg V} {A : List (List Nat)} {T : List Task} {i : Nat} (hiT : i < T.length)
    {own pr : List Nat} (ho : A[i]? = some own) :
    buildStep cfg ⟨A, T.set i (.link pr)⟩ i = .ok ⟨A.set i (own ++ pr), T.set i (.recip pr)⟩ := by
  unfold buildStep
  have : (T.set i (Task.link pr))[i]? = some (.link pr) := by rw [List.getElem?_set_self hiT]
  simp only [this]
  rw [rd_eq_ok_iff.mpr ho, Res.ok_bind, wr_ok (List.getElem?_eq_some_iff.1 ho).1, Res.ok_bind, List.set_set]

/-- Vamana's lists after the point `a` and then the start node have been inserted without disturbance. -/
theorem repeat_prefix {V : Type} {cfg : BuildCfg V} (h : cfg.OK) {start : Nat} (hr : cfg.Roomy start) (hst : start < cfg.n)
    (a : Nat) (ha : a < cfg.n) (hne : a ≠ start) (hnum : ∀ i j, (cfg.distFrom i j).IsNum) (hL : 3 ≤ cfg.L) (hC : 2 ≤ cfg.C) :
    ∃ pre s, runSched cfg pre (BSt.start (freshAdj cfg.n)) = .ok s ∧ s.adj[start]? = some [a, a] := by
  have hA0 := freshAdj_valid cfg.n
  have hfl : (freshAdj cfg.n).length = cfg.n := by simp [freshAdj]
  have h0 : ∀ v, v < cfg.n → (freshAdj cfg.n)[v]? = some [] := fun v hv => by simp [freshAdj, hv]
  obtain ⟨T0, hT0⟩ : ∃ T0 : List Task, T0 = List.replicate cfg.n .todo := ⟨_, rfl⟩
  have hs0 : BSt.start (freshAdj cfg.n) = ⟨freshAdj cfg.n, T0⟩ := by
    rw [hT0]; unfold BSt.start; rw [hfl]
  have hT0l : T0.length = cfg.n := by rw [hT0]; simp
  have hT0t : ∀ v, v < cfg.n → T0[v]? = some .todo := fun v hv => by rw [hT0]; simp [hv]
  -- the point `a`
  obtain ⟨k1, ex1, hrun1, hP1, hnd1, hst1, -⟩ := soloSearch h hr (freshAdj cfg.n) hA0 T0 hT0l a ha hst (hT0t a ha) hnum
    (fun x => x = start) rfl (by
      intro v nb _ hv j hj
      have : nb = [] := List.eq_of_mem_replicate (List.mem_of_getElem? hv)
      rw [this] at hj
      simp at hj)
    (by
      intro l hl hx
      have : l.length ≤ [start].length := (hl.subperm (fun x hm => by simpa using hx x hm)).length_le
      simp at this
      omega)
  have hpr1 := prune_single h hr a start (Ne.symm hne) ex1 (fun x hx => .inr (hP1 x hx).1) (fun x hx => (hP1 x hx).2) hnd1 hst1 hC
  have e1 := hrun1 _ hpr1
  have e2 := step_link (cfg := cfg) (T := T0) (i := a) (by omega) (pr := [start]) (h0 a ha)
  rw [List.nil_append] at e2
  obtain ⟨A1, hA1⟩ : ∃ A1, A1 = (freshAdj cfg.n).set a [start] := ⟨_, rfl⟩
  rw [← hA1] at e2
  have hA1s : A1[start]? = some [] := by rw [hA1, List.getElem?_set_ne hne]; exact h0 start hst
  have hA1l : A1.length = cfg.n := by rw [hA1, List.length_set, hfl]
  obtain ⟨A2, hA2⟩ : ∃ A2, A2 = A1.set start [a] := ⟨_, rfl⟩
  obtain ⟨T1, hT1⟩ : ∃ T1, T1 = T0.set a (.recip []) := ⟨_, rfl⟩
  have e3 : buildStep cfg ⟨A1, T0.set a (.recip [start])⟩ a = .ok ⟨A2, T1⟩ := by
    unfold buildStep
    have : (T0.set a (Task.recip [start]))[a]? = some (.recip [start]) := by rw [List.getElem?_set_self (by omega)]
    simp only [this]
    rw [rd_eq_ok_iff.mpr hA1s, Res.ok_bind, if_neg (by simp), if_pos (by have := hr.room; have := h.size; simp; omega),
      wr_ok (by omega), Res.ok_bind, List.set_set, hA2, hT1]
    rfl
  -- the start node
  have hA2a : A2[a]? = some [start] := by
    rw [hA2, List.getElem?_set_ne (Ne.symm hne), hA1, List.getElem?_set_self (by omega)]
  have hA2s : A2[start]? = some [a] := by
    rw [hA2, List.getElem?_set_self (by omega)]
  have hA2o : ∀ v nb, A2[v]? = some nb → v ≠ a → v ≠ start → nb = [] := by
    intro v nb hv hva hvs
    rw [hA2, List.getElem?_set_ne (Ne.symm hvs), hA1, List.getElem?_set_ne (Ne.symm hva)] at hv
    exact List.eq_of_mem_replicate (List.mem_of_getElem? hv)
  have hA2v : ValidEdges cfg.n A2 := by
    refine ⟨by rw [hA2, List.length_set, hA1l], fun v nb hv x hx => ?_⟩
    by_cases hva : v = a
    · rw [hva, hA2a] at hv
      cases hv
      rw [List.mem_singleton] at hx
      rw [hx, hva]
      exact ⟨hst, Ne.symm hne⟩
    · by_cases hvs : v = start
      · rw [hvs, hA2s] at hv
        cases hv
        rw [List.mem_singleton] at hx
        rw [hx, hvs]
        exact ⟨ha, hne⟩
      · rw [hA2o v nb hv hva hvs] at hx
        simp at hx
  have hT1l : T1.length = cfg.n := by rw [hT1, List.length_set, hT0l]
  obtain ⟨k2, ex2, hrun2, hP2, hnd2, hst2, hcl2⟩ := soloSearch h hr A2 hA2v T1 hT1l start hst hst
    (by rw [hT1, List.getElem?_set_ne hne]; exact hT0t start hst) hnum
    (fun x => x = start ∨ x = a) (.inl rfl) (by
      intro v nb hv hnb j hj
      rcases hv with rfl | rfl
      · rw [hA2s] at hnb
        cases hnb
        exact .inr (by simpa using hj)
      · rw [hA2a] at hnb
        cases hnb
        exact .inl (by simpa using hj))
    (by
      intro l hl hx
      have : l.length ≤ [start, a].length := (hl.subperm (fun x hm => by simpa using hx x hm)).length_le
      simp at this
      omega)
  have ha2 : a ∈ ex2.map Nbr.id := hcl2 start hst2 _ hA2s a (by simp)
  have hpr2 := prune_single h hr start a hne ex2 (fun x hx => (hP2 x hx).1) (fun x hx => (hP2 x hx).2) hnd2 ha2 hC
  have e4 := hrun2 _ hpr2
  have e5 := step_link (cfg := cfg) (T := T1) (i := start) (by omega) (pr := [a]) hA2s
  refine ⟨List.replicate k1 a ++ ([a] ++ ([a] ++ (List.replicate k2 start ++ [start]))),
    ⟨A2.set start ([a] ++ [a]), T1.set start (.recip [a])⟩, ?_, ?_⟩
  · rw [hs0, runSched_append _ _ _ _ e1, runSched_append _ _ _ _ (runSched_one e2), runSched_append _ _ _ _ (runSched_one e3),
      runSched_append _ _ _ _ e4]
    exact runSched_one e5
  · show (A2.set start ([a] ++ [a]))[start]? = _
    rw [List.getElem?_set_self (by have := hA2v.1; omega)]
    rfl

/-- **C24 is false for every data set.**  Let the degree bound be at least `2n`, the list at least three entries long and
all distances be numbers.  For every point `a` other than the start node there is a beginning of the build (the iteration
of `a`, then that of the start node) after which, however the other iterations are executed, the list of the start node
in the final graph contains `a` twice. -/
theorem C24_repeated_everywhere {V : Type} (cfg : BuildCfg V) (h : cfg.OK) (start : Nat) (hr : cfg.Roomy start)
    (hst : start < cfg.n) (hnum : ∀ i j, (cfg.distFrom i j).IsNum) (hL : 3 ≤ cfg.L) (hC : 2 ≤ cfg.C) (a : Nat)
    (ha : a < cfg.n) (hne : a ≠ start) :
    ∃ pre, ∀ rest, ∃ s, runSched cfg (pre ++ rest) (BSt.start (freshAdj cfg.n)) = .ok s ∧
      ∃ out nb, cleanup cfg s.adj = .ok out ∧ out[start]? = some nb ∧ nb.count a = 2 := by
  obtain ⟨pre, s1, e1, hs1⟩ := repeat_prefix h hr hst a ha hne hnum hL hC
  refine ⟨pre, fun rest => ?_⟩
  obtain ⟨s1', e1', hb1, hi1⟩ := runSched_induct h (RInv cfg start)
    (fun s i s' hs hi e => rinv_step h hr s i s' hs hi e) pre _
    (start_inv (freshAdj_valid cfg.n)) (by
      constructor
      · intro v nb t hv _
        have : nb = [] := List.eq_of_mem_replicate (List.mem_of_getElem? hv)
        subst this
        simp
      · intro i t ht
        have : t = .todo := List.eq_of_mem_replicate (List.mem_of_getElem? ht)
        subst this
        trivial)
  rw [e1] at e1'
  cases e1'
  obtain ⟨s, e, hb, hi, nb, hnb, hcount⟩ := runSched_induct h
    (fun s => RInv cfg start s ∧ ∃ nb, s.adj[start]? = some nb ∧ 2 ≤ nb.count a)
    (by
      rintro s i s' hs ⟨hi, nb, hnb, hc⟩ e
      refine ⟨rinv_step h hr s i s' hs hi e, ?_⟩
      obtain ⟨s2, e2, -, hadj, -⟩ := buildStep_spec h s hs i
      rw [e] at e2
      cases e2
      have grow : ∀ v own extra, s.adj[v]? = some own →
          ∃ nb, (s.adj.set v (own ++ extra))[start]? = some nb ∧ 2 ≤ nb.count a := by
        intro v own extra hv
        by_cases hvs : v = start
        · rw [hvs, hnb] at hv
          cases hv
          rw [hvs]
          refine ⟨_, List.getElem?_set_self (List.getElem?_eq_some_iff.1 hnb).1, ?_⟩
          rw [List.count_append]
          omega
        · exact ⟨nb, by rw [List.getElem?_set_ne hvs]; exact hnb, hc⟩
      generalize s'.adj = adj' at hadj
      cases hadj with
      | none => exact ⟨nb, hnb, hc⟩
      | link _ ho => exact grow _ _ _ ho
      | append _ ho _ _ => exact grow _ _ _ ho
      | write ht _ _ _ => exact (hi.tasks i _ ht).elim) rest s1 hb1 ⟨hi1, _, hs1, by simp⟩
  refine ⟨s, by rw [runSched_append _ _ _ _ e1]; exact e, ?_⟩
  obtain ⟨out, e', hv, hout⟩ := cleanup_spec h hb.edges
  obtain ⟨nb', h1, _, h3, _⟩ := hout start nb hnb
  have hct := (hi.dup start nb _ hnb (List.getElem?_eq_getElem (by rw [hb.tasksLen]; exact hst))).2
  have hlen := length_le_of_count hct (fun x hx => (hb.edges.2 start nb hnb x hx).1)
  refine ⟨out, nb', e', h1, ?_⟩
  rw [h3 (by have := hr.room; omega)]
  have := hct a
  omega

/-! ## The theorem applied to the ten points -/

theorem exVam_num : ∀ i j, ((exVam exPts10 20).distFrom i j).IsNum := by
  intro i j
  unfold BuildCfg.distFrom
  split
  · rename_i u v hu hv
    have : ∀ x ∈ exPts10, ∀ y ∈ exPts10, (exSq x y).IsNum := by decide +kernel
    exact this _ (List.mem_of_getElem? hu) _ (List.mem_of_getElem? hv)
  · decide

example := C24_repeated_everywhere (exVam exPts10 20) (exVam_ok _ _ (by decide)) 1
  ⟨rfl, rfl, fun _ => rfl, fun _ => rfl, by decide, by decide, by decide⟩ (by decide) exVam_num (by decide) (by decide) 7
  (by decide) (by decide)

end Grann
