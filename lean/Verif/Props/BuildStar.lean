import Verif.Props.BuildRepeat
/-!
# C63: points that become unreachable, for every degree bound
-/

namespace Grann

open Spec (Reach Edge RobustPrune)

/-! ## The hypotheses -/

/-- A data set that looks like a star seen from the start node `s`: for every other point but `p` (a leaf), `s` is the
nearest point and makes all others redundant, leaves do not make each other redundant as neighbours of `s`, and `p` is
farther from `s` than every leaf.  (For instance `0`, multiples `c e_i` of the unit vectors and a longer multiple of one
more unit vector: in high dimension such data are the rule.)  The build is an unlabelled Vamana build. -/
structure BuildCfg.Star {V : Type} (cfg : BuildCfg V) (s p : Nat) : Prop where
  vamana : cfg.wholePool = false
  rule : cfg.topKOwn = false
  rule2 : cfg.topKRecip = false
  init : ∀ i, cfg.init i = .ok [s]
  filters : ∀ i, cfg.filters i = []
  unlabelled : cfg.env.filtered = false
  alpha : cfg.alpha.lt F32.zero = false
  degree : 1 ≤ cfg.R
  window : 1 ≤ cfg.C
  ne : s ≠ p
  slt : s < cfg.n
  plt : p < cfg.n
  num : ∀ i j, (cfg.distFrom i j).IsNum
  near : ∀ x y, x < cfg.n → y < cfg.n → x ≠ s → x ≠ p → y ≠ s → y ≠ x → (cfg.distFrom x s).lt (cfg.distFrom x y) = true
  hidden : ∀ x y, x < cfg.n → y < cfg.n → x ≠ s → x ≠ p → y ≠ s → y ≠ x →
    cfg.alpha.lt (cfg.env.div (cfg.distFrom x y) (cfg.distFrom y s)) = true
  far : ∀ x, x < cfg.n → x ≠ s → x ≠ p → (cfg.distFrom s x).lt (cfg.distFrom s p) = true
  apart : ∀ x y, x < cfg.n → y < cfg.n → x ≠ s → x ≠ p → y ≠ s → y ≠ p → x ≠ y →
    cfg.alpha.lt (cfg.env.div (cfg.distFrom s y) (cfg.distFrom y x)) = false

/-! ## Pruning -/

theorem occludes_iff {V : Type} {cfg : BuildCfg V} (hf : cfg.env.filtered = false) {x y : Nbr} {i : Nat} (hx : x.id < cfg.n)
    (hy : y.id < cfg.n) (hd : y.dist = cfg.distFrom i y.id) :
    Occludes cfg.env cfg.alpha x y ↔ cfg.alpha.lt (cfg.env.div (cfg.distFrom i y.id) (cfg.distFrom y.id x.id)) = true := by
  have e : ∀ vx vy, cfg.env.ctx.data[x.id]? = some vx → cfg.env.ctx.data[y.id]? = some vy →
      cfg.distFrom y.id x.id = cfg.env.ctx.cmp vy vx := by
    intro vx vy h1 h2
    unfold BuildCfg.distFrom
    rw [h1, h2]
  constructor
  · rintro ⟨-, vx, vy, h1, h2, h3⟩
    rw [e vx vy h1 h2, ← hd]
    exact h3
  · intro h
    have h1 : cfg.env.ctx.data[x.id]? = some (cfg.env.ctx.data[x.id]'hx) := List.getElem?_eq_getElem hx
    have h2 : cfg.env.ctx.data[y.id]? = some (cfg.env.ctx.data[y.id]'hy) := List.getElem?_eq_getElem hy
    refine ⟨fun hc => absurd (hf.symm.trans hc) (by decide), _, _, h1, h2, ?_⟩
    rw [← e _ _ h1 h2, hd]
    exact h

/-- The neighbours chosen for a leaf, or for the first point: the start node alone. -/
theorem prune_to_start {V : Type} {cfg : BuildCfg V} (h : cfg.OK) {s p : Nat} (st : cfg.Star s p) (i : Nat) (his : i ≠ s)
    (ex : List Nbr) (hlt : ∀ x ∈ ex.map Nbr.id, x < cfg.n) (hnd : (ex.map Nbr.id).Nodup) (hs : s ∈ ex.map Nbr.id)
    (hd : ∀ x ∈ ex, x.dist = cfg.distFrom i x.id)
    (hnear : ∀ y ∈ ex.map Nbr.id, y ≠ s → (cfg.distFrom i s).lt (cfg.distFrom i y) = true ∧
      cfg.alpha.lt (cfg.env.div (cfg.distFrom i y) (cfg.distFrom y s)) = true) :
    pruneBy cfg cfg.topKOwn i ex = .ok [s] := by
  have hne : ex ≠ [] := by intro h0; rw [h0] at hs; simp at hs
  obtain ⟨I, h1, h2⟩ := pruneAlpha_spec cfg.sortF h.sort cfg.env cfg.alpha st.alpha cfg.C cfg.R i ex hne
    (fun x hx => h.has (hlt _ (List.mem_map_of_mem hx))) []
  have hperm := h.sort.perm ex
  have hsorted := h.sort.sorted ex (fun x hx => by rw [hd x hx]; exact st.num _ _)
  have hSnd : ((cfg.sortF ex).map Nbr.id).Nodup := (hperm.map Nbr.id).nodup_iff.2 hnd
  obtain ⟨y, hy, hys⟩ := List.mem_map.1 hs
  obtain ⟨z, l, hzl⟩ : ∃ z l, cfg.sortF ex = z :: l := by
    cases hc : cfg.sortF ex with
    | nil => rw [hc] at hperm; exact absurd hperm.symm.eq_nil hne
    | cons z l => exact ⟨z, l, rfl⟩
  have hmem : ∀ x, x ∈ z :: l → x ∈ ex := fun x hx => hperm.mem_iff.1 (hzl ▸ hx)
  have hz : z.id = s := by
    by_contra hzs
    have hzex := hmem z (by simp)
    have h3 := (hnear z.id (List.mem_map_of_mem hzex) hzs).1
    have hyS : y ∈ z :: l := hzl ▸ hperm.mem_iff.2 hy
    rcases List.mem_cons.1 hyS with rfl | hyl
    · exact hzs hys
    · rw [hzl] at hsorted
      have h4 := (List.pairwise_cons.1 hsorted).1 y hyl
      rw [hd z hzex, hd y hy, hys] at h4
      have := F32.lt_eq_false_of_le h4
      rw [h3] at this
      cases this
  obtain ⟨m, hm⟩ : ∃ m, cfg.C = m + 1 := ⟨cfg.C - 1, by have := st.window; omega⟩
  rw [hzl, hm, List.take_succ_cons] at h1 h2
  have h0 : 0 ∈ I := by
    by_contra hno
    rcases h2.reason 0 z rfl hno with hc | ⟨t, _, ht, _⟩ | ⟨hc, hall⟩
    · exact his (hz ▸ hc.symm)
    · omega
    · have hI : I = [] := List.eq_nil_iff_forall_not_mem.2 (fun t ht => by have := hall t ht; omega)
      rw [hI] at hc
      have := st.degree
      simp at hc
      omega
  have honly : ∀ t ∈ I, t = 0 := by
    intro t ht
    by_contra ht0
    have htl := h2.inRange t ht
    have hx := List.getElem?_eq_getElem htl
    refine h2.undominated 0 h0 t ht (by omega) z _ rfl hx ?_
    have hxm : (z :: l.take m)[t] ∈ z :: l := by
      have := List.getElem_mem htl
      rcases List.mem_cons.1 this with hc | hc
      · rw [hc]; simp
      · exact List.mem_cons_of_mem _ (List.mem_of_mem_take hc)
    have hxe := hmem _ hxm
    have hxs : (z :: l.take m)[t].id ≠ s := by
      intro hc
      obtain ⟨t', rfl⟩ : ∃ t', t = t' + 1 := ⟨t - 1, by omega⟩
      have hin : (z :: l.take m)[t' + 1] ∈ l := by
        rw [List.getElem_cons_succ]
        exact List.mem_of_mem_take (List.getElem_mem _)
      rw [hzl, List.map_cons, List.nodup_cons] at hSnd
      exact hSnd.1 (by rw [hz, ← hc]; exact List.mem_map_of_mem hin)
    rw [occludes_iff st.unlabelled (i := i) (hlt _ (List.mem_map_of_mem (hmem z (by simp)))) (hlt _ (List.mem_map_of_mem hxe)) (hd _ hxe), hz]
    exact (hnear _ (List.mem_map_of_mem hxe) hxs).2
  have hIj : I = [0] := by
    have hnd : I.Nodup := h2.increasing.imp (fun h => Nat.ne_of_lt h)
    have hp : I.Perm [0] := (List.perm_ext_iff_of_nodup hnd (by simp)).2 (fun t => by
      rw [List.mem_singleton]
      exact ⟨honly t, fun h => h ▸ h0⟩)
    exact List.perm_singleton.1 hp
  unfold pruneBy
  rw [st.rule]
  simp only [Bool.false_eq_true, if_false]
  rw [hm, h1, hIj]
  simp [pickAt, hz]

theorem dummyPool_dist {V : Type} (c : Ctx V) (des : Nat) : ∀ (nbrs vis : List Nat) (pool : List Nbr),
    dummyPool c des nbrs vis = .ok pool →
    ∀ y ∈ pool, ∃ vd vx, c.data[des]? = some vd ∧ c.data[y.id]? = some vx ∧ y.dist = c.cmp vd vx := by
  intro nbrs
  induction nbrs with
  | nil => intro vis pool h; cases h; simp
  | cons x xs ih =>
    intro vis pool h
    unfold dummyPool at h
    split at h
    · exact ih _ _ h
    · obtain ⟨vd, h1, h⟩ := Res.bind_eq_ok.1 h
      obtain ⟨vx, h2, h⟩ := Res.bind_eq_ok.1 h
      obtain ⟨rest, h3, h⟩ := Res.bind_eq_ok.1 h
      cases h
      intro y hy
      rcases List.mem_cons.1 hy with rfl | hy
      · exact ⟨vd, vx, rd_eq_ok_iff.1 h1, rd_eq_ok_iff.1 h2, rfl⟩
      · exact ih _ _ h3 y hy

/-- Pruning the list of the start node drops `p` once there are `R` leaves in it. -/
theorem reprune_drops {V : Type} {cfg : BuildCfg V} (h : cfg.OK) {s p : Nat} (st : cfg.Star s p) (nbrs : List Nat)
    (hn : ∀ x ∈ nbrs, x < cfg.n ∧ x ≠ s) (hnd : nbrs.Nodup) (hlen : cfg.R < nbrs.length) :
    ∃ new, reprune cfg cfg.topKRecip s nbrs = .ok new ∧ p ∉ new := by
  obtain ⟨pool, e1, hpn, hpm⟩ := dummyPool_spec cfg.env.ctx s st.slt nbrs [] (fun x hx => (hn x hx).1)
  have hpd := dummyPool_dist _ _ _ _ _ e1
  have hids : ∀ i, i ∈ pool.map Nbr.id ↔ i ∈ nbrs := fun i => by
    rw [hpm i]
    exact ⟨fun h => h.1, fun h => ⟨h, by simp, (hn i h).2⟩⟩
  have hplen : pool.length = nbrs.length := by
    have := ((List.perm_ext_iff_of_nodup hpn hnd).2 hids).length_eq
    simpa using this
  have hd : ∀ y ∈ pool, y.dist = cfg.distFrom s y.id := by
    intro y hy
    obtain ⟨vd, vx, h1, h2, h3⟩ := hpd y hy
    unfold BuildCfg.distFrom
    rw [h1, h2]
    exact h3
  have hlt : ∀ y ∈ pool, y.id < cfg.n ∧ y.id ≠ s := fun y hy => hn _ ((hids _).1 (List.mem_map_of_mem hy))
  have hne : pool ≠ [] := by intro h0; rw [h0] at hplen; simp at hplen; omega
  obtain ⟨I, h1, h2⟩ := pruneAlpha_spec cfg.sortF h.sort cfg.env cfg.alpha st.alpha cfg.C cfg.R s pool hne
    (fun x hx => h.has (hlt _ hx).1) []
  refine ⟨((pickAt ((cfg.sortF pool).take cfg.C) I).map Nbr.id), ?_, ?_⟩
  · unfold reprune
    rw [e1, Res.ok_bind]
    unfold pruneBy
    rw [st.rule2]
    simp only [Bool.false_eq_true, if_false]
    exact h1
  · intro hpin
    have hperm := h.sort.perm pool
    have hsorted := h.sort.sorted pool (fun x hx => by rw [hd x hx]; exact st.num _ _)
    have hSnd : ((cfg.sortF pool).map Nbr.id).Nodup := (hperm.map Nbr.id).nodup_iff.2 hpn
    obtain ⟨z, hz, hzp⟩ := List.mem_map.1 hpin
    -- the position of `p`
    obtain ⟨j, hjI, hjz⟩ : ∃ j ∈ I, ((cfg.sortF pool).take cfg.C)[j]? = some z := by
      unfold pickAt at hz
      obtain ⟨j, hj, hz⟩ := List.mem_filterMap.1 hz
      exact ⟨j, hj, hz⟩
    obtain ⟨hjl, hjz'⟩ := List.getElem?_eq_some_iff.1 hjz
    rw [List.length_take] at hjl
    rw [List.getElem_take] at hjz'
    have hjl2 : j < (cfg.sortF pool).length := by omega
    -- it is the last one
    have hlast : j = (cfg.sortF pool).length - 1 := by
      by_contra hno
      have hj1 : j + 1 < (cfg.sortF pool).length := by omega
      have h3 := List.pairwise_iff_getElem.1 hsorted j (j + 1) hjl2 hj1 (by omega)
      have hw : (cfg.sortF pool)[j + 1] ∈ pool := hperm.mem_iff.1 (List.getElem_mem hj1)
      have hzm : z ∈ pool := hjz' ▸ hperm.mem_iff.1 (List.getElem_mem hjl2)
      have hwp : (cfg.sortF pool)[j + 1].id ≠ p := by
        intro hc
        have := (hSnd.getElem_inj_iff (i := j + 1) (j := j) (hi := by simpa using hj1) (hj := by simpa using hjl2)).1 (by
          rw [List.getElem_map, List.getElem_map, hjz', hzp, hc])
        omega
      rw [hjz', hd _ hzm, hd _ hw, hzp] at h3
      have h4 := st.far _ (hlt _ hw).1 (hlt _ hw).2 hwp
      have := F32.lt_eq_false_of_le h3
      rw [h4] at this
      cases this
    -- all positions before are kept
    have hall : ∀ t, t ≤ j → t ∈ I := by
      intro t ht
      by_contra hno
      have htj : t ≠ j := fun hc => hno (hc ▸ hjI)
      have htl : t < (cfg.sortF pool).length := by omega
      have htl' : t < ((cfg.sortF pool).take cfg.C).length := by rw [List.length_take]; omega
      have htm : (cfg.sortF pool)[t] ∈ pool := hperm.mem_iff.1 (List.getElem_mem htl)
      have hidp : ∀ u (hu : u < (cfg.sortF pool).length), u ≠ j → (cfg.sortF pool)[u].id ≠ p := by
        intro u hu huj hc
        have := (hSnd.getElem_inj_iff (i := u) (j := j) (hi := by simpa using hu) (hj := by simpa using hjl2)).1 (by
          rw [List.getElem_map, List.getElem_map, hjz', hzp, hc])
        omega
      have hgt : ((cfg.sortF pool).take cfg.C)[t]? = some (cfg.sortF pool)[t] := by
        rw [List.getElem?_eq_getElem htl', List.getElem_take]
      rcases h2.reason t _ hgt hno with hc | ⟨u, huI, hut, x, hx, hdom⟩ | ⟨_, hc⟩
      · exact (hlt _ htm).2 hc
      · obtain ⟨hul, hux⟩ := List.getElem?_eq_some_iff.1 hx
        rw [List.getElem_take] at hux
        have hul2 : u < (cfg.sortF pool).length := by omega
        have hum : x ∈ pool := hux ▸ hperm.mem_iff.1 (List.getElem_mem hul2)
        rw [occludes_iff st.unlabelled (i := s) (hlt _ hum).1 (hlt _ htm).1 (hd _ htm)] at hdom
        have hxp : x.id ≠ p := hux ▸ hidp u hul2 (by omega)
        have hne' : x.id ≠ (cfg.sortF pool)[t].id := by
          intro hc
          have := (hSnd.getElem_inj_iff (i := u) (j := t) (hi := by simpa using hul2) (hj := by simpa using htl)).1 (by
            rw [List.getElem_map, List.getElem_map, hux, hc])
          omega
        have := st.apart x.id _ (hlt _ hum).1 (hlt _ htm).1 (hlt _ hum).2 hxp (hlt _ htm).2 (hidp t htl (by omega)) hne'
        rw [hdom] at this
        cases this
      · have := hc j hjI
        omega
    have hcount : j + 1 ≤ I.length := by
      have := (List.nodup_range (n := j + 1)).subperm (l₂ := I) (fun t ht => hall t (by
        have := List.mem_range.1 ht
        omega))
      simpa using this.length_le
    have hb := h2.bound
    rw [hperm.length_eq] at hlast
    omega


/-! ## Insertions one after the other -/

theorem greedyIter_expanded {V : Type} {c : Ctx V} {q : V} {filters : List Label} {L : Nat} {graph : List (List Nat)} {g g' : GSt}
    (h : greedyIter c q filters L graph g = .ok g') : ∀ x ∈ g.expanded, x ∈ g'.expanded := by
  unfold greedyIter at h
  obtain ⟨x, -, h⟩ := Res.bind_eq_ok.1 h
  split at h
  · obtain ⟨_, -, h⟩ := Res.bind_eq_ok.1 h
    obtain ⟨_, -, h⟩ := Res.bind_eq_ok.1 h
    obtain ⟨_, -, h⟩ := Res.bind_eq_ok.1 h
    cases h
    exact fun y hy => List.mem_append_left _ hy
  · cases h
    exact fun y hy => hy

theorem greedyLoop_expanded {V : Type} {c : Ctx V} {q : V} {filters : List Label} {L : Nat} {adj : Nat → List (List Nat)} :
    ∀ (fuel : Nat) (g g' : GSt), greedyLoop c q filters L adj fuel g = .ok g' → ∀ x ∈ g.expanded, x ∈ g'.expanded := by
  intro fuel
  induction fuel with
  | zero =>
    intro g g' h
    unfold greedyLoop at h
    split at h
    · cases h
    · cases h; exact fun y hy => hy
  | succ f ih =>
    intro g g' h
    unfold greedyLoop at h
    split at h
    · obtain ⟨g1, h1, h2⟩ := Res.bind_eq_ok.1 h
      exact fun y hy => ih _ _ h2 y (greedyIter_expanded h1 y hy)
    · cases h; exact fun y hy => hy

/-- The search of a task that runs alone expands the start node. -/
theorem soloStar {V : Type} {cfg : BuildCfg V} (h : cfg.OK) {s p : Nat} (st : cfg.Star s p) (A : List (List Nat))
    (hA : ValidEdges cfg.n A) (T : List Task) (hT : T.length = cfg.n) (i : Nat) (hi : i < cfg.n)
    (ht : T[i]? = some .todo) (P : Nat → Prop) (hP0 : P s) (hP : ∀ v nb, P v → A[v]? = some nb → ∀ j ∈ nb, P j) :
    ∃ k ex, (∀ pr, pruneBy cfg cfg.topKOwn i ex = .ok pr →
        runSched cfg (List.replicate k i) ⟨A, T⟩ = .ok ⟨A, T.set i (.link pr)⟩) ∧
      (∀ x ∈ ex.map Nbr.id, P x ∧ x < cfg.n) ∧ (ex.map Nbr.id).Nodup ∧ s ∈ ex.map Nbr.id ∧
      ∀ x ∈ ex, x.dist = cfg.distFrom i x.id := by
  have hn := h.size
  have hrd : rd cfg.env.ctx.data i = .ok cfg.env.ctx.data[i] := rd_ok hi
  have hdist : ∀ j v, cfg.env.ctx.data[j]? = some v →
      cfg.env.ctx.cmp cfg.env.ctx.data[i] v = cfg.distFrom i j := by
    intro j v hv
    unfold BuildCfg.distFrom
    rw [hv, List.getElem?_eq_getElem hi]
  have hd2 : ∀ j v, cfg.env.ctx.data[j]? = some v →
      cfg.env.ctx.cmp v cfg.env.ctx.data[i] = cfg.distFrom i j := fun j v hv => by rw [h.symm]; exact hdist j v hv
  have hinit : ∀ x ∈ [s], x < cfg.env.ctx.data.length := by
    intro x hx; rw [List.mem_singleton] at hx; rw [hx]; exact st.slt
  obtain ⟨g, c0, eg, hg, hk, -, -, -⟩ := greedySearchF_spec cfg.sortF h.sort cfg.env.ctx cfg.env.ctx.data[i]
    (cfg.filters i) cfg.L (fun _ => A) [s] (cfg.distFrom i) hdist hd2
    h.listSize h.listSize_le (fun _ => true) P (fun j _ => by rw [st.filters]; rfl) (fun _ => hA.1)
    (fun _ nb hnb j hj => by
      obtain ⟨v, hv⟩ := List.getElem?_of_mem hnb
      exact (hA.2 v nb hv j hj).1)
    hinit (by simpa using hP0) (fun _ v nb hv hnb j hj _ => hP v nb hv hnb j hj) (_ + 1) (Nat.le_succ _)
  unfold greedySearchF at eg
  obtain ⟨g0, eg0, eg⟩ := Res.bind_eq_ok.1 eg
  obtain ⟨k, ek, hend⟩ := soloLoop (cfg := cfg) A T i (by omega) _ hrd _ _ _ eg
  -- the first expansion
  have hsx : s ∈ g.expanded.map Nbr.id := by
    obtain ⟨g0', eg0', hh0, hk0, hg0, -, hcur, -, -, -⟩ := greedyStart_spec cfg.sortF h.sort cfg.env.ctx
      cfg.env.ctx.data[i] cfg.L (fun _ => A) [s] (cfg.distFrom i) hd2 h.listSize h.listSize_le (fun _ => true)
      (fun x => x = s) hinit (by simp)
    rw [eg0] at eg0'
    cases eg0'
    have hc := hcur (by simp)
    rw [greedyLoop, if_pos (by omega)] at eg
    obtain ⟨g1, e1, e2⟩ := Res.bind_eq_ok.1 eg
    have hmono := greedyLoop_expanded _ _ _ e2
    unfold greedyIter at e1
    obtain ⟨x, hx, e1⟩ := Res.bind_eq_ok.1 e1
    have hxl : x ∈ g0.ps.live := by
      rw [hk0] at hx
      have hx := rd_eq_ok_iff.1 hx
      unfold PoolSt.live
      refine List.mem_of_getElem? (i := 0) ?_
      rw [List.getElem?_take, if_pos (by omega)]
      exact hx
    have hxs : x.id = s := hg0.reach _ (hg0.sinv.subset x hxl)
    have hex0 : g0.expanded = [] := by
      have := hg0.hops
      rw [hh0] at this
      exact List.length_eq_zero_iff.1 this.symm
    have hfl : x.flag = true := by
      by_contra hno
      have := hg0.flagEx x hxl (by simpa using hno)
      rw [hex0] at this
      simp at this
    rw [if_pos hfl] at e1
    obtain ⟨_, -, e1⟩ := Res.bind_eq_ok.1 e1
    obtain ⟨_, -, e1⟩ := Res.bind_eq_ok.1 e1
    obtain ⟨_, -, e1⟩ := Res.bind_eq_ok.1 e1
    cases e1
    have := hmono { x with flag := false } (by simp)
    rw [← hxs]
    exact List.mem_map.2 ⟨_, this, rfl⟩
  refine ⟨1 + k + 1, g.expanded, ?_, fun x hx => ⟨hg.reach x (hg.exIns x hx), hg.insLt x (hg.exIns x hx)⟩, hg.exNodup,
    hsx, hg.exDist⟩
  intro pr hpr
  rw [List.replicate_add, List.replicate_add]
  have h1 : runSched cfg (List.replicate 1 i) ⟨A, T⟩ = .ok ⟨A, T.set i (.search g0)⟩ := by
    refine runSched_one ?_
    unfold buildStep
    simp only [ht]
    rw [if_neg (by omega), st.init, Res.ok_bind, hrd, Res.ok_bind, eg0, Res.ok_bind]
  have h3 : runSched cfg (List.replicate 1 i) ⟨A, T.set i (.search g)⟩ = .ok ⟨A, T.set i (.link pr)⟩ := by
    refine runSched_one ?_
    unfold buildStep
    have : (T.set i (Task.search g))[i]? = some (.search g) := by rw [List.getElem?_set_self (by omega)]
    simp only [this]
    rw [if_neg hend, st.vamana]
    simp only [Bool.false_eq_true, if_false]
    rw [hpr, Res.ok_bind, List.set_set]
  have h12 : runSched cfg (List.replicate 1 i ++ List.replicate k i) ⟨A, T⟩ = .ok ⟨A, T.set i (.search g)⟩ := by
    rw [runSched_append _ _ _ _ h1]; exact ek
  rw [runSched_append _ _ _ _ h12]
  exact h3

/-- A finished task does nothing. -/
theorem runSched_done {V : Type} {cfg : BuildCfg V} {A : List (List Nat)} {T : List Task} {i : Nat} (h : T[i]? = some .done) :
    ∀ k, runSched cfg (List.replicate k i) ⟨A, T⟩ = .ok ⟨A, T⟩
  | 0 => rfl
  | k + 1 => by
    rw [List.replicate_succ, runSched]
    have : buildStep cfg ⟨A, T⟩ i = .ok ⟨A, T⟩ := by
      unfold buildStep
      simp only [h]
    rw [this]
    exact runSched_done h k

/-- More steps of a task that has ended after `k` of them. -/
theorem runSched_enough {V : Type} {cfg : BuildCfg V} {A A' : List (List Nat)} {T T' : List Task} {i k : Nat}
    (h : runSched cfg (List.replicate k i) ⟨A, T⟩ = .ok ⟨A', T'⟩) (hd : T'[i]? = some .done) (m : Nat) (hm : k ≤ m) :
    runSched cfg (List.replicate m i) ⟨A, T⟩ = .ok ⟨A', T'⟩ := by
  obtain ⟨r, rfl⟩ : ∃ r, m = k + r := ⟨m - k, by omega⟩
  rw [List.replicate_add, runSched_append _ _ _ _ h]
  exact runSched_done hd r

/-- The state after `p` and then the leaves `ys` have been inserted one after the other. -/
structure StarSt {V : Type} (cfg : BuildCfg V) (s p : Nat) (ys : List Nat) (A : List (List Nat)) (T : List Task) : Prop where
  edges : ValidEdges cfg.n A
  tasksLen : T.length = cfg.n
  leaves : ∀ y ∈ ys, y < cfg.n ∧ y ≠ s ∧ y ≠ p
  nodup : ys.Nodup
  centre : A[s]? = some (p :: ys)
  arms : ∀ v nb, v ≠ s → A[v]? = some nb → nb = [] ∨ nb = [s]
  doneP : T[p]? = some .done
  done : ∀ y ∈ ys, T[y]? = some .done
  todo : ∀ v, v < cfg.n → v ≠ p → v ∉ ys → T[v]? = some .todo ∧ A[v]? = some (if v = s then p :: ys else [])

/-- A leaf up to the point where the start node learns of it. -/
theorem star_leaf {V : Type} {cfg : BuildCfg V} (h : cfg.OK) {s p : Nat} (st : cfg.Star s p) {ys : List Nat}
    {A : List (List Nat)} {T : List Task} (hst : StarSt cfg s p ys A T) (x : Nat) (hx : x < cfg.n) (hxs : x ≠ s) (hxp : x ≠ p)
    (hxy : x ∉ ys) :
    ∃ k, runSched cfg (List.replicate k x) ⟨A, T⟩ = .ok ⟨A.set x [s], T.set x (.recip [s])⟩ := by
  obtain ⟨ht, hax⟩ := hst.todo x hx hxp hxy
  rw [if_neg hxs] at hax
  obtain ⟨k, ex, hrun, hP, hnd, hsm, hd⟩ := soloStar h st A hst.edges T hst.tasksLen x hx ht
    (fun v => v = s ∨ v = p ∨ v ∈ ys) (.inl rfl) (by
      intro v nb hv hnb j hj
      by_cases hvs : v = s
      · rw [hvs, hst.centre] at hnb
        cases hnb
        exact .inr (List.mem_cons.1 hj)
      · rcases hst.arms v nb hvs hnb with rfl | rfl
        · simp at hj
        · exact .inl (by simpa using hj))
  have hpr := prune_to_start h st x hxs ex (fun y hy => (hP y hy).2) hnd hsm hd (by
    intro y hy hys
    obtain ⟨hPy, hyn⟩ := hP y hy
    have hyx : y ≠ x := by
      rintro rfl
      rcases hPy with h | h | h
      · exact hxs h
      · exact hxp h
      · exact hxy h
    exact ⟨st.near x y hx hyn hxs hxp hys hyx, st.hidden x y hx hyn hxs hxp hys hyx⟩)
  refine ⟨k + 1, ?_⟩
  rw [List.replicate_add, runSched_append _ _ _ _ (hrun _ hpr)]
  have := step_link (cfg := cfg) (A := A) (T := T) (i := x) (by rw [hst.tasksLen]; exact hx) (pr := [s]) hax
  exact runSched_one this

/-- Inserting a leaf while there is room. -/
theorem star_grow {V : Type} {cfg : BuildCfg V} (h : cfg.OK) {s p : Nat} (st : cfg.Star s p) {ys : List Nat}
    {A : List (List Nat)} {T : List Task} (hst : StarSt cfg s p ys A T) (x : Nat) (hx : x < cfg.n) (hxs : x ≠ s) (hxp : x ≠ p)
    (hxy : x ∉ ys) (hroom : 10 * (ys.length + 1) < 13 * cfg.R) :
    ∃ k0 A' T', StarSt cfg s p (ys ++ [x]) A' T' ∧
      ∀ k, k0 ≤ k → runSched cfg (List.replicate k x) ⟨A, T⟩ = .ok ⟨A', T'⟩ := by
  obtain ⟨k, e⟩ := star_leaf h st hst x hx hxs hxp hxy
  have hl := hst.tasksLen
  have hal := hst.edges.1
  have hc : (A.set x [s])[s]? = some (p :: ys) := by rw [List.getElem?_set_ne hxs]; exact hst.centre
  have e2 : buildStep cfg ⟨A.set x [s], T.set x (.recip [s])⟩ x =
      .ok ⟨(A.set x [s]).set s (p :: ys ++ [x]), T.set x (.recip [])⟩ := by
    unfold buildStep
    have : (T.set x (Task.recip [s]))[x]? = some (.recip [s]) := by rw [List.getElem?_set_self (by omega)]
    simp only [this]
    rw [rd_eq_ok_iff.mpr hc, Res.ok_bind, if_neg (by simp [hxp, hxy]), if_pos (by simpa using hroom),
      wr_ok (by rw [List.length_set, hal]; exact st.slt), Res.ok_bind, List.set_set]
  have e3 : buildStep cfg ⟨(A.set x [s]).set s (p :: ys ++ [x]), T.set x (.recip [])⟩ x =
      .ok ⟨(A.set x [s]).set s (p :: ys ++ [x]), T.set x .done⟩ := by
    unfold buildStep
    have : (T.set x (Task.recip []))[x]? = some (.recip []) := by rw [List.getElem?_set_self (by omega)]
    simp only [this]
    rw [List.set_set]
  have eall : runSched cfg (List.replicate (k + 1 + 1) x) ⟨A, T⟩ =
      .ok ⟨(A.set x [s]).set s (p :: ys ++ [x]), T.set x .done⟩ := by
    rw [List.replicate_add, List.replicate_add, runSched_append _ _ _ _ (by
      rw [runSched_append _ _ _ _ e]; exact runSched_one e2)]
    exact runSched_one e3
  refine ⟨k + 1 + 1, _, _, ?_, fun m hm => runSched_enough eall (by rw [List.getElem?_set_self (by omega)]) m hm⟩
  have hget : ∀ v, v ≠ s → ((A.set x [s]).set s (p :: ys ++ [x]))[v]? = if v = x then some [s] else A[v]? := by
    intro v hv
    rw [List.getElem?_set_ne (Ne.symm hv)]
    by_cases hvx : v = x
    · rw [hvx, List.getElem?_set_self (by omega), if_pos rfl]
    · rw [List.getElem?_set_ne (Ne.symm hvx), if_neg hvx]
  have hcs : ((A.set x [s]).set s (p :: ys ++ [x]))[s]? = some (p :: (ys ++ [x])) := by
    rw [List.getElem?_set_self (by rw [List.length_set, hal]; exact st.slt)]
    rfl
  have hlv : ∀ y ∈ ys ++ [x], y < cfg.n ∧ y ≠ s ∧ y ≠ p := by
    intro y hy
    rcases List.mem_append.1 hy with hy | hy
    · exact hst.leaves y hy
    · rw [List.mem_singleton.1 hy]; exact ⟨hx, hxs, hxp⟩
  have hTne : ∀ v, v ≠ x → (T.set x Task.done)[v]? = T[v]? := fun v hv => List.getElem?_set_ne (Ne.symm hv)
  refine ⟨?_, by rw [List.length_set, hl], hlv, ?_, hcs, ?_, ?_, ?_, ?_⟩
  · refine (hst.edges.set ?_).set ?_
    · intro y hy; rw [List.mem_singleton.1 hy]; exact ⟨st.slt, Ne.symm hxs⟩
    · intro y hy
      rcases List.mem_cons.1 (show y ∈ p :: (ys ++ [x]) from hy) with rfl | hy
      · exact ⟨st.plt, Ne.symm st.ne⟩
      · exact ⟨(hlv y hy).1, (hlv y hy).2.1⟩
  · rw [List.nodup_append]
    refine ⟨hst.nodup, by simp, ?_⟩
    intro a ha b hb
    rw [List.mem_singleton.1 hb]
    rintro rfl
    exact hxy ha
  · intro v nb hv hnb
    rw [hget v hv] at hnb
    split at hnb
    · cases hnb; exact .inr rfl
    · exact hst.arms v nb hv hnb
  · rw [hTne p (Ne.symm hxp)]; exact hst.doneP
  · intro y hy
    rcases List.mem_append.1 hy with hy' | hy'
    · rw [hTne y (fun hc => hxy (hc ▸ hy'))]; exact hst.done y hy'
    · rw [List.mem_singleton.1 hy', List.getElem?_set_self (by omega)]
  · intro v hv hvp hvy
    have hvx : v ≠ x := fun hc => hvy (by rw [hc]; simp)
    have hvys : v ∉ ys := fun hc => hvy (by simp [hc])
    obtain ⟨h1, h2⟩ := hst.todo v hv hvp hvys
    refine ⟨by rw [hTne v hvx]; exact h1, ?_⟩
    by_cases hvs : v = s
    · rw [if_pos hvs, hvs]; exact hcs
    · rw [if_neg hvs, hget v hvs, if_neg hvx, h2, if_neg hvs]

/-! ## Afterwards -/

/-- What is known about the task of `i`: it does not know of `p`. -/
def BuildCfg.Ignores {V : Type} (cfg : BuildCfg V) (p i : Nat) : Task → Prop
  | .todo => True
  | .search g => ∃ adjh c0, GInv (cfg.distFrom i) cfg.L cfg.n (cfg.acc i) adjh (fun v => v ≠ p) c0 g
  | .link pr => p ∉ pr
  | .recip rest => p ∉ rest
  | .prune des copy rest => des ≠ p ∧ p ∉ copy ∧ p ∉ rest
  | .done => True

/-- No list but its own contains or is that of `p`, whose task has ended. -/
structure Lost {V : Type} (cfg : BuildCfg V) (p : Nat) (b : BSt) : Prop where
  lists : ∀ v nb, v ≠ p → b.adj[v]? = some nb → p ∉ nb
  doneP : b.tasks[p]? = some .done
  tasks : ∀ i t, i ≠ p → b.tasks[i]? = some t → cfg.Ignores p i t

theorem Lost.set {V : Type} {cfg : BuildCfg V} {p : Nat} {b : BSt} (hl : Lost cfg p b) {i : Nat} (hip : i ≠ p) {t : Task}
    (ht : cfg.Ignores p i t) {adj : List (List Nat)} (ha : ∀ v nb, v ≠ p → adj[v]? = some nb → p ∉ nb) :
    Lost cfg p ⟨adj, b.tasks.set i t⟩ := by
  refine ⟨ha, ?_, ?_⟩
  · show (b.tasks.set i t)[p]? = _
    rw [List.getElem?_set_ne hip]; exact hl.doneP
  · intro j u hj hu
    replace hu : (b.tasks.set i t)[j]? = some u := hu
    rw [List.getElem?_set] at hu
    split at hu
    · rename_i hij
      subst hij
      split at hu
      · cases hu; exact ht
      · cases hu
    · exact hl.tasks j u hj hu

theorem Lost.upd {V : Type} {cfg : BuildCfg V} {p : Nat} {b : BSt} (hl : Lost cfg p b) {w : Nat} {new : List Nat}
    (hn : p ∉ new) : ∀ v nb, v ≠ p → (b.adj.set w new)[v]? = some nb → p ∉ nb := by
  intro v nb hv hnb
  rw [List.getElem?_set] at hnb
  split at hnb
  · split at hnb
    · cases hnb; exact hn
    · cases hnb
  · exact hl.lists v nb hv hnb

theorem lost_step {V : Type} {cfg : BuildCfg V} (h : cfg.OK) {s p : Nat} (st : cfg.Star s p) (b : BSt) (i : Nat) (b' : BSt)
    (hb : BInv cfg b) (hl : Lost cfg p b) (e : buildStep cfg b i = .ok b') : Lost cfg p b' := by
  have hn := h.size
  have hedge := hb.edges
  unfold buildStep at e
  cases ht : b.tasks[i]? with
  | none => rw [ht] at e; cases e; exact hl
  | some t =>
    by_cases hip : i = p
    · rw [hip, hl.doneP] at e
      cases e
      exact hl
    have hil : i < cfg.n := by rw [← hb.tasksLen]; exact (List.getElem?_eq_some_iff.1 ht).1
    have hrd : rd cfg.env.ctx.data i = .ok cfg.env.ctx.data[i] := rd_ok hil
    have hdist : ∀ j v, cfg.env.ctx.data[j]? = some v →
        cfg.env.ctx.cmp cfg.env.ctx.data[i] v = cfg.distFrom i j := by
      intro j v hv
      unfold BuildCfg.distFrom
      rw [hv, List.getElem?_eq_getElem hil]
    have htr := hl.tasks i t hip ht
    rw [ht] at e
    cases t with
    | done => cases e; exact hl
    | todo =>
      simp only at e
      rw [if_neg (by omega), st.init, hrd] at e
      simp only [Res.ok_bind] at e
      obtain ⟨g, eg, _, _, hg, _⟩ := greedyStart_spec cfg.sortF h.sort cfg.env.ctx
        cfg.env.ctx.data[i] cfg.L (fun _ => []) [s] (cfg.distFrom i)
        (fun j v hv => by rw [h.symm]; exact hdist j v hv) h.listSize h.listSize_le
        (cfg.acc i) (fun v => v ≠ p) (by intro x hx; rw [List.mem_singleton.1 hx]; exact st.slt)
        (by intro x hx; rw [List.mem_singleton.1 hx]; exact st.ne)
      rw [eg] at e
      cases e
      exact hl.set hip (t := .search g) ⟨_, _, hg⟩ hl.lists
    | search g =>
      obtain ⟨adjh, c0, hg⟩ := htr
      simp only at e
      by_cases hk : g.k < g.ps.cur
      · rw [if_pos hk, hrd] at e
        simp only [Res.ok_bind] at e
        have hg' := hg.congr_adj (adj' := Function.update adjh g.hops b.adj) (fun t ht =>
          Function.update_of_ne (by omega) _ _)
        obtain ⟨g', eg, h1, _⟩ := greedyIter_spec cfg.env.ctx cfg.env.ctx.data[i]
          (cfg.filters i) cfg.L (Function.update adjh g.hops b.adj) b.adj (cfg.distFrom i) hdist
          h.listSize_le (cfg.acc i) (fun v => v ≠ p) c0
          (by
            intro j hj
            obtain ⟨c, hc⟩ := filterAccepts_ok cfg.env.ctx (cfg.filters i) j
              (fun hne => by rw [h.filters i hne]; exact hj)
            unfold BuildCfg.acc
            rw [hc]
            cases c <;> simp)
          hedge.1
          (by
            intro nb hnb j hj
            obtain ⟨v, hv⟩ := List.getElem?_of_mem hnb
            exact (hedge.2 v nb hv j hj).1)
          (fun a nb ha hnb j hj _ => fun hc => hl.lists a nb ha hnb (hc ▸ hj)) g hg' hk (by simp)
        rw [eg] at e
        cases e
        exact hl.set hip (t := .search g') ⟨_, _, h1⟩ hl.lists
      · rw [if_neg hk, st.vamana] at e
        simp only [Bool.false_eq_true, if_false] at e
        obtain ⟨pr, hpr, e⟩ := Res.bind_eq_ok.1 e
        cases e
        refine hl.set hip ?_ hl.lists
        obtain ⟨kept, e1, -, e3, -⟩ := pruneBy_spec h cfg.topKOwn i g.expanded (fun x hx =>
          hg.insLt _ (hg.exIns _ (List.mem_map_of_mem hx)))
        rw [e1] at hpr
        cases hpr
        intro hc
        obtain ⟨y, hy, hyp⟩ := List.mem_map.1 hc
        exact hg.reach _ (hg.exIns _ (List.mem_map_of_mem (e3.subset hy))) hyp
    | link pr =>
      have hia : i < b.adj.length := by rw [hedge.1]; exact hil
      simp only at e
      rw [rd_ok hia] at e
      simp only [Res.ok_bind] at e
      rw [wr_ok hia] at e
      cases e
      refine hl.set hip (t := .recip pr) htr (hl.upd ?_)
      intro hc
      rcases List.mem_append.1 hc with hc | hc
      · exact hl.lists i _ hip (List.getElem?_eq_getElem hia) hc
      · exact htr hc
    | recip rest =>
      cases rest with
      | nil => cases e; exact hl.set hip (t := .done) trivial hl.lists
      | cons des rest =>
        have hch : cfg.Chosen i (des :: rest) := hb.taskOK i _ ht
        have hdes := hch.2 des (by simp)
        have hda : des < b.adj.length := by rw [hedge.1]; exact hdes.1
        have hdp : des ≠ p := fun hc => htr (by simp [hc])
        have hrest : p ∉ rest := fun hc => htr (by simp [hc])
        have hlist := hl.lists des _ hdp (List.getElem?_eq_getElem hda)
        simp only at e
        rw [rd_ok hda] at e
        simp only [Res.ok_bind] at e
        split at e
        · cases e; exact hl.set hip (t := .recip rest) hrest hl.lists
        · split at e
          · rw [wr_ok hda] at e
            cases e
            refine hl.set hip (t := .recip rest) hrest (hl.upd ?_)
            intro hc
            rcases List.mem_append.1 hc with hc | hc
            · exact hlist hc
            · exact hip (List.mem_singleton.1 hc).symm
          · cases e
            exact hl.set hip (t := .prune des _ rest) ⟨hdp, hlist, hrest⟩ hl.lists
    | prune des copy rest =>
      obtain ⟨hch, hcopy⟩ := hb.taskOK i _ ht
      have hdes := hch.2 des (by simp)
      have hda : des < b.adj.length := by rw [hedge.1]; exact hdes.1
      simp only at e
      obtain ⟨new, e1, -, -, e4⟩ := reprune_spec h cfg.topKRecip des hdes.1 (copy ++ [i]) (by
        intro x hx
        rcases List.mem_append.1 hx with hx | hx
        · exact hcopy x hx
        · rw [List.mem_singleton.1 hx]; exact hil)
      rw [e1, Res.ok_bind, wr_ok hda] at e
      cases e
      refine hl.set hip (t := .recip rest) htr.2.2 (hl.upd ?_)
      intro hc
      rcases List.mem_append.1 (e4 p hc).1 with hc | hc
      · exact htr.2.1 hc
      · exact hip (List.mem_singleton.1 hc).symm

/-- Inserting a leaf when there is no more room: `p` is dropped. -/
theorem star_drop {V : Type} {cfg : BuildCfg V} (h : cfg.OK) {s p : Nat} (st : cfg.Star s p) {ys : List Nat}
    {A : List (List Nat)} {T : List Task} (hst : StarSt cfg s p ys A T) (x : Nat) (hx : x < cfg.n) (hxs : x ≠ s) (hxp : x ≠ p)
    (hxy : x ∉ ys) (hroom : 13 * cfg.R ≤ 10 * (ys.length + 1)) :
    ∃ k0 A' T', Lost cfg p ⟨A', T'⟩ ∧ ∀ k, k0 ≤ k → runSched cfg (List.replicate k x) ⟨A, T⟩ = .ok ⟨A', T'⟩ := by
  obtain ⟨k, e⟩ := star_leaf h st hst x hx hxs hxp hxy
  have hl := hst.tasksLen
  have hal := hst.edges.1
  have hc : (A.set x [s])[s]? = some (p :: ys) := by rw [List.getElem?_set_ne hxs]; exact hst.centre
  have e2 : buildStep cfg ⟨A.set x [s], T.set x (.recip [s])⟩ x =
      .ok ⟨A.set x [s], T.set x (.prune s (p :: ys) [])⟩ := by
    unfold buildStep
    have : (T.set x (Task.recip [s]))[x]? = some (.recip [s]) := by rw [List.getElem?_set_self (by omega)]
    simp only [this]
    rw [rd_eq_ok_iff.mpr hc, Res.ok_bind, if_neg (by simp [hxp, hxy]), if_neg (by simp; omega), List.set_set]
  have hp : p ∉ ys := fun hc => (hst.leaves p hc).2.2 rfl
  obtain ⟨new, hnew, hpn⟩ := reprune_drops h st (p :: ys ++ [x]) (by
      intro y hy
      simp at hy
      rcases hy with rfl | hy | rfl
      · exact ⟨st.plt, Ne.symm st.ne⟩
      · exact ⟨(hst.leaves y hy).1, (hst.leaves y hy).2.1⟩
      · exact ⟨hx, hxs⟩) (by
      rw [List.nodup_append]
      refine ⟨List.nodup_cons.2 ⟨hp, hst.nodup⟩, by simp, ?_⟩
      intro a ha b hb
      rw [List.mem_singleton.1 hb]
      rintro rfl
      rcases List.mem_cons.1 ha with h | h
      · exact hxp h
      · exact hxy h) (by simp; omega)
  have e3 : buildStep cfg ⟨A.set x [s], T.set x (.prune s (p :: ys) [])⟩ x =
      .ok ⟨(A.set x [s]).set s new, T.set x (.recip [])⟩ := by
    unfold buildStep
    have : (T.set x (Task.prune s (p :: ys) []))[x]? = some (.prune s (p :: ys) []) := by rw [List.getElem?_set_self (by omega)]
    simp only [this]
    rw [hnew, Res.ok_bind, wr_ok (by rw [List.length_set, hal]; exact st.slt), Res.ok_bind, List.set_set]
  have e4 : buildStep cfg ⟨(A.set x [s]).set s new, T.set x (.recip [])⟩ x = .ok ⟨(A.set x [s]).set s new, T.set x .done⟩ := by
    unfold buildStep
    have : (T.set x (Task.recip []))[x]? = some (.recip []) := by rw [List.getElem?_set_self (by omega)]
    simp only [this]
    rw [List.set_set]
  have eall : runSched cfg (List.replicate (k + 1 + 1 + 1) x) ⟨A, T⟩ = .ok ⟨(A.set x [s]).set s new, T.set x .done⟩ := by
    rw [List.replicate_add, List.replicate_add, List.replicate_add, runSched_append _ _ _ _ (by
      rw [runSched_append _ _ _ _ (by rw [runSched_append _ _ _ _ e]; exact runSched_one e2)]; exact runSched_one e3)]
    exact runSched_one e4
  refine ⟨_, _, _, ⟨?_, ?_, ?_⟩, fun m hm => runSched_enough eall (by rw [List.getElem?_set_self (by omega)]) m hm⟩
  · intro v nb hv hnb
    have hnb : ((A.set x [s]).set s new)[v]? = some nb := hnb
    by_cases hvs : v = s
    · rw [hvs, List.getElem?_set_self (by rw [List.length_set, hal]; exact st.slt)] at hnb
      cases hnb
      exact hpn
    · rw [List.getElem?_set_ne (Ne.symm hvs)] at hnb
      by_cases hvx : v = x
      · rw [hvx, List.getElem?_set_self (by omega)] at hnb
        cases hnb
        simp [Ne.symm st.ne]
      · rw [List.getElem?_set_ne (Ne.symm hvx)] at hnb
        rcases hst.arms v nb hvs hnb with rfl | rfl
        · simp
        · simp [Ne.symm st.ne]
  · show (T.set x Task.done)[p]? = _
    rw [List.getElem?_set_ne hxp]
    exact hst.doneP
  · intro i t hip ht
    have ht : (T.set x Task.done)[i]? = some t := ht
    by_cases hix : i = x
    · rw [hix, List.getElem?_set_self (by omega)] at ht
      cases ht
      trivial
    · rw [List.getElem?_set_ne (Ne.symm hix)] at ht
      by_cases hiy : i ∈ ys
      · rw [hst.done i hiy] at ht
        cases ht
        trivial
      · have hin : i < cfg.n := by rw [← hl]; exact (List.getElem?_eq_some_iff.1 ht).1
        rw [(hst.todo i hin hip hiy).1] at ht
        cases ht
        trivial

/-- The first insertion. -/
theorem star_first {V : Type} {cfg : BuildCfg V} (h : cfg.OK) {s p : Nat} (st : cfg.Star s p) :
    ∃ k0 A T, StarSt cfg s p [] A T ∧
      ∀ k, k0 ≤ k → runSched cfg (List.replicate k p) (BSt.start (freshAdj cfg.n)) = .ok ⟨A, T⟩ := by
  have hfl : (freshAdj cfg.n).length = cfg.n := by simp [freshAdj]
  have h0 : ∀ v, v < cfg.n → (freshAdj cfg.n)[v]? = some [] := fun v hv => by simp [freshAdj, hv]
  obtain ⟨T0, hT0⟩ : ∃ T0 : List Task, T0 = List.replicate cfg.n .todo := ⟨_, rfl⟩
  have hs0 : BSt.start (freshAdj cfg.n) = ⟨freshAdj cfg.n, T0⟩ := by
    rw [hT0]; unfold BSt.start; rw [hfl]
  have hT0l : T0.length = cfg.n := by rw [hT0]; simp
  have hT0t : ∀ v, v < cfg.n → T0[v]? = some .todo := fun v hv => by rw [hT0]; simp [hv]
  have hsp := st.ne
  have hs := st.slt
  have hp := st.plt
  obtain ⟨k, ex, hrun, hP, hnd, hsm, hd⟩ := soloStar h st (freshAdj cfg.n) (freshAdj_valid _) T0 hT0l p hp (hT0t p hp)
    (fun v => v = s) rfl (by
      intro v nb _ hv j hj
      have : nb = [] := List.eq_of_mem_replicate (List.mem_of_getElem? hv)
      rw [this] at hj
      simp at hj)
  have hpr := prune_to_start h st p (Ne.symm hsp) ex (fun y hy => (hP y hy).2) hnd hsm hd (by
    intro y hy hys
    exact absurd (hP y hy).1 hys)
  have e1 := hrun _ hpr
  have e2 := step_link (cfg := cfg) (A := freshAdj cfg.n) (T := T0) (i := p) (by omega) (pr := [s]) (h0 p hp)
  rw [List.nil_append] at e2
  have hc : ((freshAdj cfg.n).set p [s])[s]? = some [] := by rw [List.getElem?_set_ne (Ne.symm hsp)]; exact h0 s hs
  have e3 : buildStep cfg ⟨(freshAdj cfg.n).set p [s], T0.set p (.recip [s])⟩ p =
      .ok ⟨((freshAdj cfg.n).set p [s]).set s [p], T0.set p (.recip [])⟩ := by
    unfold buildStep
    have : (T0.set p (Task.recip [s]))[p]? = some (.recip [s]) := by rw [List.getElem?_set_self (by omega)]
    simp only [this]
    rw [rd_eq_ok_iff.mpr hc, Res.ok_bind, if_neg (by simp), if_pos (by have := st.degree; simp; omega),
      wr_ok (by rw [List.length_set, hfl]; exact hs), Res.ok_bind, List.set_set]
    rfl
  have e4 : buildStep cfg ⟨((freshAdj cfg.n).set p [s]).set s [p], T0.set p (.recip [])⟩ p =
      .ok ⟨((freshAdj cfg.n).set p [s]).set s [p], T0.set p .done⟩ := by
    unfold buildStep
    have : (T0.set p (Task.recip []))[p]? = some (.recip []) := by rw [List.getElem?_set_self (by omega)]
    simp only [this]
    rw [List.set_set]
  have eall : runSched cfg (List.replicate (k + 1 + 1 + 1) p) ⟨freshAdj cfg.n, T0⟩ =
      .ok ⟨((freshAdj cfg.n).set p [s]).set s [p], T0.set p .done⟩ := by
    rw [List.replicate_add, List.replicate_add, List.replicate_add, runSched_append _ _ _ _ (by
      rw [runSched_append _ _ _ _ (by rw [runSched_append _ _ _ _ e1]; exact runSched_one e2)]; exact runSched_one e3)]
    exact runSched_one e4
  refine ⟨_, _, _, ?_, fun m hm => by
    rw [hs0]; exact runSched_enough eall (by rw [List.getElem?_set_self (by omega)]) m hm⟩
  have hcs : (((freshAdj cfg.n).set p [s]).set s [p])[s]? = some [p] := by
    rw [List.getElem?_set_self (by rw [List.length_set, hfl]; exact hs)]
  refine ⟨?_, by rw [List.length_set, hT0l], by simp, by simp, hcs, ?_, ?_, by simp, ?_⟩
  · refine ((freshAdj_valid _).set ?_).set ?_
    · intro y hy; rw [List.mem_singleton.1 hy]; exact ⟨hs, hsp⟩
    · intro y hy; rw [List.mem_singleton.1 hy]; exact ⟨hp, Ne.symm hsp⟩
  · intro v nb hv hnb
    rw [List.getElem?_set_ne (Ne.symm hv), List.getElem?_set] at hnb
    split at hnb
    · split at hnb
      · cases hnb; exact .inr rfl
      · cases hnb
    · exact .inl (List.eq_of_mem_replicate (List.mem_of_getElem? hnb))
  · rw [List.getElem?_set_self (by omega)]
  · intro v hv hvp _
    refine ⟨by rw [List.getElem?_set_ne (Ne.symm hvp)]; exact hT0t v hv, ?_⟩
    by_cases hvs : v = s
    · rw [if_pos hvs, hvs]; exact hcs
    · rw [if_neg hvs, List.getElem?_set_ne (Ne.symm hvs), List.getElem?_set_ne (Ne.symm hvp)]
      exact h0 v hv

/-- The leaves of a list one after the other, until the start node has no more room. -/
theorem star_leaves {V : Type} {cfg : BuildCfg V} (h : cfg.OK) {s p : Nat} (st : cfg.Star s p) :
    ∀ (zs ys : List Nat) (A : List (List Nat)) (T : List Task), StarSt cfg s p ys A T → (ys ++ zs).Nodup →
    (∀ z ∈ zs, z < cfg.n ∧ z ≠ s ∧ z ≠ p) → 10 * (ys.length + zs.length) < 13 * cfg.R + 10 → 13 * cfg.R ≤ 10 * (ys.length + zs.length) →
    zs ≠ [] →
    ∃ k0, ∀ k, k0 ≤ k → ∃ b, runSched cfg (zs.flatMap (fun z => List.replicate k z)) ⟨A, T⟩ = .ok b ∧ Lost cfg p b := by
  intro zs
  induction zs with
  | nil => intro _ _ _ _ _ _ _ _ hne; exact absurd rfl hne
  | cons z zs ih =>
    intro ys A T hst hnd hz hlt hge _
    obtain ⟨hzn, hzs, hzp⟩ := hz z (by simp)
    have hzy : z ∉ ys := by
      intro hc
      exact (List.nodup_append.1 hnd).2.2 z hc z (by simp) rfl
    cases zs with
    | nil =>
      obtain ⟨k0, A', T', hl, hk⟩ := star_drop h st hst z hzn hzs hzp hzy (by simpa using hge)
      refine ⟨k0, fun k hkk => ⟨_, ?_, hl⟩⟩
      simp only [List.flatMap_cons, List.flatMap_nil, List.append_nil]
      exact hk k hkk
    | cons w zs =>
      obtain ⟨k0, A', T', hst', hk⟩ := star_grow h st hst z hzn hzs hzp hzy (by simp at hlt; omega)
      obtain ⟨k1, hk1⟩ := ih (ys ++ [z]) A' T' hst' (by simpa using hnd) (fun y hy => hz y (by simp at hy ⊢; tauto))
        (by simp at hlt ⊢; omega) (by simp at hge ⊢; omega) (by simp)
      refine ⟨max k0 k1, fun k hkk => ?_⟩
      obtain ⟨b, e, hl⟩ := hk1 k (by omega)
      refine ⟨b, ?_, hl⟩
      rw [List.flatMap_cons, runSched_append _ _ _ _ (hk k (by omega))]
      exact e

/-- **C63 is false for every degree bound `R ≥ 1`.**  Take a star with enough leaves.  If `p` is inserted first and then,
one after the other, about `1.3 R` leaves (as a single thread does that meets them in this order), the edge from the
start node to `p` is dropped, and whatever the rest of the build does, in the final graph `p` cannot be reached from the
start node. -/
theorem C63_every_degree {V : Type} (cfg : BuildCfg V) (h : cfg.OK) (s p : Nat) (st : cfg.Star s p) (leaves : List Nat)
    (hnd : leaves.Nodup) (hlv : ∀ z ∈ leaves, z < cfg.n ∧ z ≠ s ∧ z ≠ p) (hlen : leaves.length = (13 * cfg.R + 9) / 10) :
    ∃ k0, ∀ k, k0 ≤ k → ∀ rest, ∃ b out,
      runSched cfg ((p :: leaves).flatMap (fun i => List.replicate k i) ++ rest) (BSt.start (freshAdj cfg.n)) = .ok b ∧
      cleanup cfg b.adj = .ok out ∧ ∀ i, Reach out (fun _ => True) [s] i → i ≠ p := by
  obtain ⟨k0, A, T, hst, hk⟩ := star_first h st
  have hR := st.degree
  obtain ⟨k1, hk1⟩ := star_leaves h st leaves [] A T hst (by simpa using hnd) hlv (by simp; omega) (by simp; omega) (by
    intro h0
    rw [h0] at hlen
    simp at hlen
    omega)
  refine ⟨max k0 k1, fun k hkk rest => ?_⟩
  obtain ⟨b, e, hl⟩ := hk1 k (by omega)
  have e0 : runSched cfg ((p :: leaves).flatMap (fun i => List.replicate k i)) (BSt.start (freshAdj cfg.n)) = .ok b := by
    rw [List.flatMap_cons, runSched_append _ _ _ _ (hk k (by omega))]
    exact e
  obtain ⟨b1, e1, hb1, -⟩ := runSched_induct h (fun _ => True) (fun _ _ _ _ _ _ => trivial)
    ((p :: leaves).flatMap (fun i => List.replicate k i)) _ (start_inv (freshAdj_valid cfg.n)) trivial
  rw [e0] at e1
  cases e1
  obtain ⟨b2, e2, hb2, hl2⟩ := runSched_induct h (Lost cfg p) (fun b i b' hb hl e => lost_step h st b i b' hb hl e) rest b hb1 hl
  obtain ⟨out, e3, hlo, hout⟩ := cleanup_spec h hb2.edges
  refine ⟨b2, out, by rw [runSched_append _ _ _ _ e0]; exact e2, e3, ?_⟩
  intro i hi
  induction hi with
  | start hc => rw [List.mem_singleton.1 hc]; exact st.ne
  | @step i j _ hE _ ih =>
    obtain ⟨nb, h1, h2⟩ := hE
    rintro rfl
    have hia : i < b2.adj.length := by
      by_contra hno
      rw [hb2.edges.1, ← hlo.1] at hno
      rw [List.getElem?_eq_none (by omega)] at h1
      cases h1
    obtain ⟨nb', h3, -, -, -, h4⟩ := hout i _ (List.getElem?_eq_getElem hia)
    rw [h1] at h3
    cases h3
    exact hl2.lists i _ ih (List.getElem?_eq_getElem hia) (h4 _ h2)

/-! ## Such data for every degree bound -/

/-- The square of the Euclidean distance between the multiples `a.2 e_{a.1}` and `b.2 e_{b.1}` of unit vectors. -/
def exAxis (a b : Nat × Nat) : F32 :=
  exNat (if a.1 = b.1 then (a.2 - b.2 + (b.2 - a.2)) ^ 2 else a.2 ^ 2 + b.2 ^ 2)

theorem exAxis_comm (a b : Nat × Nat) : exAxis a b = exAxis b a := by
  unfold exAxis
  by_cases h : a.1 = b.1
  · rw [if_pos h, if_pos h.symm, Nat.add_comm (a.2 - b.2)]
  · rw [if_neg h, if_neg (fun hc => h hc.symm), Nat.add_comm]

/-- `3 e_0`, then `2 e_1, 2 e_2, …`, at last the origin. -/
def exStarPt (n i : Nat) : Nat × Nat := if i = 0 then (0, 3) else if i + 1 = n then (0, 0) else (i, 2)

/-- A Vamana build of `n` such points from the origin. -/
def exAxes (n L R C : Nat) : BuildCfg (Nat × Nat) :=
  vamanaCfg ⟨⟨(List.range n).map (exStarPt n), [], false, [], exAxis⟩, false, exDiv1⟩ exSort L R C F32.one 0 (n - 1) []

theorem exAxes_n (n L R C : Nat) : (exAxes n L R C).n = n := by
  show ((List.range n).map (exStarPt n)).length = n
  simp

theorem exAxes_ok (n L R C : Nat) (hn : 10 ≤ n) (hL : 1 ≤ L) (hL' : L ≤ 2147483648) : (exAxes n L R C).OK :=
  vamanaCfg_ok _ exSort exSort_isStdSort L R C F32.one 0 (n - 1) [] (by simpa using hn) hL (.of_le hL') exAxis_comm
    (by intro h; cases h) (by simp; omega) (by simp)

theorem exAxes_dist (n L R C : Nat) {i j : Nat} (hi : i < n) (hj : j < n) :
    (exAxes n L R C).distFrom i j = exAxis (exStarPt n i) (exStarPt n j) := by
  unfold BuildCfg.distFrom
  have h : ∀ i, i < n → (exAxes n L R C).env.ctx.data[i]? = some (exStarPt n i) := by
    intro i hi
    show ((List.range n).map (exStarPt n))[i]? = _
    simp [hi]
  rw [h i hi, h j hj]
  rfl

theorem exAxes_star (n L R C : Nat) (hn : 10 ≤ n) (hR : 1 ≤ R) (hC : 1 ≤ C) : (exAxes n L R C).Star (n - 1) 0 := by
  have hN := exAxes_n n L R C
  have pL : ∀ x, x ≠ n - 1 → x ≠ 0 → exStarPt n x = (x, 2) := fun x h1 h2 => by
    unfold exStarPt; rw [if_neg h2, if_neg (by omega)]
  have pS : exStarPt n (n - 1) = (0, 0) := by
    unfold exStarPt; rw [if_neg (by omega), if_pos (by omega)]
  have pP : exStarPt n 0 = (0, 3) := rfl
  have dSL : ∀ x, x ≠ 0 → exAxis (0, 0) (x, 2) = exNat 4 := fun x hx => by simp [exAxis, Ne.symm hx]
  have dLS : ∀ x, x ≠ 0 → exAxis (x, 2) (0, 0) = exNat 4 := fun x hx => by simp [exAxis, hx]
  have dLP : ∀ x, x ≠ 0 → exAxis (x, 2) (0, 3) = exNat 13 := fun x hx => by simp [exAxis, hx]
  have dPL : ∀ x, x ≠ 0 → exAxis (0, 3) (x, 2) = exNat 13 := fun x hx => by simp [exAxis, Ne.symm hx]
  have dLL : ∀ x y, x ≠ y → exAxis (x, 2) (y, 2) = exNat 8 := fun x y hx => by simp [exAxis, hx]
  have dSP : exAxis (0, 0) (0, 3) = exNat 9 := by simp [exAxis]
  have dPS : exAxis (0, 3) (0, 0) = exNat 9 := by simp [exAxis]
  have dd : ∀ x, exAxis x x = exNat 0 := fun x => by simp [exAxis]
  refine ⟨rfl, rfl, rfl, fun _ => rfl, fun _ => rfl, rfl, show F32.one.lt F32.zero = false by decide, hR, hC, by omega, by omega, by omega, ?_, ?_, ?_, ?_, ?_⟩
  · intro i j
    by_cases hij : i < n ∧ j < n
    · rw [exAxes_dist n L R C hij.1 hij.2]
      by_cases he : i = j
      · rw [he, dd]; decide
      by_cases hi0 : i = 0
      · rw [hi0, pP]
        by_cases hj1 : j = n - 1
        · rw [hj1, pS, dPS]; decide
        · rw [pL j hj1 (by omega), dPL j (by omega)]; decide
      · by_cases hi1 : i = n - 1
        · rw [hi1, pS]
          by_cases hj0 : j = 0
          · rw [hj0, pP, dSP]; decide
          · rw [pL j (by omega) hj0, dSL j hj0]; decide
        · rw [pL i hi1 hi0]
          by_cases hj0 : j = 0
          · rw [hj0, pP, dLP i hi0]; decide
          · by_cases hj1 : j = n - 1
            · rw [hj1, pS, dLS i hi0]; decide
            · rw [pL j hj1 hj0, dLL i j he]; decide
    · have : (exAxes n L R C).distFrom i j = F32.zero := by
        unfold BuildCfg.distFrom
        have h0 : ∀ i, ¬ i < n → (exAxes n L R C).env.ctx.data[i]? = none := fun i hi =>
          List.getElem?_eq_none (by show ((List.range n).map (exStarPt n)).length ≤ i; simp; omega)
        by_cases hi : i < n
        · rw [h0 j (fun hc => hij ⟨hi, hc⟩)]
          cases (exAxes n L R C).env.ctx.data[i]? <;> rfl
        · rw [h0 i hi]
      rw [this]; decide
  · intro x y hx hy hxs hxp hys hyx
    rw [hN] at hx hy
    rw [exAxes_dist n L R C hx (by omega), exAxes_dist n L R C hx hy, pL x hxs hxp, pS, dLS x hxp]
    by_cases hy0 : y = 0
    · rw [hy0, pP, dLP x hxp]; decide
    · rw [pL y hys hy0, dLL x y (Ne.symm hyx)]; decide
  · intro x y hx hy hxs hxp hys hyx
    rw [hN] at hx hy
    rw [exAxes_dist n L R C hx hy, exAxes_dist n L R C hy (by omega), pL x hxs hxp, pS]
    show F32.one.lt (exDiv1 _ _) = true
    by_cases hy0 : y = 0
    · rw [hy0, pP, dLP x hxp, dPS]; decide
    · rw [pL y hys hy0, dLL x y (Ne.symm hyx), dLS y hy0]; decide
  · intro x hx hxs hxp
    rw [hN] at hx
    rw [exAxes_dist n L R C (by omega) hx, exAxes_dist n L R C (by omega) (by omega), pL x hxs hxp, pS, pP, dSL x hxp, dSP]
    decide
  · intro x y hx hy hxs hxp hys hyp hxy
    rw [hN] at hx hy
    rw [exAxes_dist n L R C (by omega) hy, exAxes_dist n L R C hy hx, pL x hxs hxp, pL y hys hyp, pS, dSL y hyp,
      dLL y x (Ne.symm hxy)]
    show F32.one.lt (exDiv1 (exNat 4) (exNat 8)) = false
    decide

/-- **C63, no degree bound helps.**  For all parameters `R ≥ 1`, `C ≥ 1` and `L` there are points (multiples of unit
vectors, as many as one likes from about `1.3 R` on) for which the build by a single thread, which inserts the points in
order, yields a graph where the first point cannot be reached from the start node.  So a larger list size `L`
(even above the number of points) does not help either. -/
theorem C63_every_parameter (n L R C : Nat) (hL : 1 ≤ L) (hL' : L ≤ 2147483648) (hR : 1 ≤ R) (hC : 1 ≤ C) (hn : 10 ≤ n)
    (hn' : (13 * R + 9) / 10 + 2 ≤ n) :
    ∃ k0, ∀ k, k0 ≤ k → ∃ b out, runSched (exAxes n L R C) (seqSched n k) (BSt.start (freshAdj n)) = .ok b ∧
      cleanup (exAxes n L R C) b.adj = .ok out ∧ ∀ i, Reach out (fun _ => True) [n - 1] i → i ≠ 0 := by
  obtain ⟨m, hm⟩ : ∃ m, m = (13 * R + 9) / 10 := ⟨_, rfl⟩
  have hN := exAxes_n n L R C
  obtain ⟨k0, hk⟩ := C63_every_degree (exAxes n L R C) (exAxes_ok n L R C hn hL hL') (n - 1) 0
    (exAxes_star n L R C hn hR hC) (List.range' 1 m) List.nodup_range' (by
      intro z hz
      rw [List.mem_range'_1] at hz
      rw [hN]
      omega) (by rw [List.length_range', hm]; rfl)
  refine ⟨k0, fun k hkk => ?_⟩
  obtain ⟨b, out, h1, h2, h3⟩ := hk k hkk ((List.range' (m + 1) (n - (m + 1))).flatMap (fun i => List.replicate k i))
  refine ⟨b, out, ?_, h2, h3⟩
  rw [hN, ← List.flatMap_append] at h1
  have : List.range n = (0 :: List.range' 1 m) ++ List.range' (m + 1) (n - (m + 1)) := by
    have e : 0 :: List.range' 1 m = List.range' 0 (m + 1) := by rw [List.range'_succ]
    rw [e, List.range_eq_range', show n = (m + 1) + (n - (m + 1)) from by omega]
    rw [← List.range'_append_1 (s := 0) (m := m + 1)]
    simp
  rw [seqSched, this]
  exact h1

/-- With `R = 64`, `L = 75`, `C = 500` (86 points suffice) and `α = 1`. -/
example := C63_every_parameter 86 75 64 500 (by decide) (by decide) (by decide) (by decide) (by decide) (by decide)

end Grann
