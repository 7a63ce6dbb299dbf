import Verif.Props.Build
import Verif.Spec.Graph
import Mathlib.Algebra.BigOperators.Group.Finset.Basic
import Mathlib.Algebra.Order.BigOperators.Group.Finset
/-!
# C63 — reachability of the points of a built graph
-/

namespace Grann

open Spec (Reach Edge)

theorem length_le_of_count {l : List Nat} {n : Nat} (hc : ∀ x, l.count x ≤ 2) (hn : ∀ x ∈ l, x < n) :
    l.length ≤ 2 * n := by
  have h1 := List.sum_toFinset_count_eq_length l
  have h2 : ∑ a ∈ l.toFinset, l.count a ≤ ∑ a ∈ l.toFinset, 2 := Finset.sum_le_sum (fun a _ => hc a)
  have h3 : l.toFinset ⊆ Finset.range n := fun x hx => by
    rw [List.mem_toFinset] at hx
    exact Finset.mem_range.2 (hn x hx)
  have h4 := Finset.card_le_card h3
  rw [Finset.card_range] at h4
  rw [Finset.sum_const] at h2
  have h5 : l.toFinset.card • 2 = l.toFinset.card * 2 := rfl
  omega

/-- Reachable from `start` along edges of `adj`. -/
abbrev RFrom (adj : List (List Nat)) (start : Nat) (i : Nat) : Prop :=
  Reach adj (fun _ => True) [start] i

/-- `adj'` has all edges of `adj`. -/
def AdjLe (adj adj' : List (List Nat)) : Prop :=
  ∀ (v : Nat) (nb : List Nat), adj[v]? = some nb → ∃ nb', adj'[v]? = some nb' ∧ ∀ x ∈ nb, x ∈ nb'

theorem AdjLe.refl (adj : List (List Nat)) : AdjLe adj adj := fun _ nb h => ⟨nb, h, fun _ hx => hx⟩

theorem AdjLe.append {adj : List (List Nat)} {v : Nat} {own extra : List Nat} (h : adj[v]? = some own) :
    AdjLe adj (adj.set v (own ++ extra)) := by
  intro w nb hw
  rw [List.getElem?_set]
  split
  · rename_i hvw
    subst hvw
    rw [h] at hw
    cases hw
    rw [if_pos (List.getElem?_eq_some_iff.1 h).1]
    exact ⟨_, rfl, fun x hx => List.mem_append_left _ hx⟩
  · exact ⟨nb, hw, fun _ hx => hx⟩

theorem RFrom.mono {adj adj' : List (List Nat)} (h : AdjLe adj adj') {start i : Nat}
    (hr : RFrom adj start i) : RFrom adj' start i := by
  induction hr with
  | start h => exact .start h
  | @step i j _ hE _ ih =>
    obtain ⟨nb, h1, h2⟩ := hE
    obtain ⟨nb', h3, h4⟩ := h i nb h1
    exact .step ih ⟨nb', h3, h4 j h2⟩ trivial

theorem GInv.mono_P {d : Nat → F32} {L n : Nat} {acc : Nat → Bool} {adj : Nat → List (List Nat)}
    {P P' : Nat → Prop} {c0 : Nat} {s : GSt} (h : GInv d L n acc adj P c0 s) (hP : ∀ i, P i → P' i) :
    GInv d L n acc adj P' c0 s :=
  { h with reach := fun i hi => hP i (h.reach i hi) }

/-- What is known about the task of `i` with respect to reachability. -/
def BuildCfg.TaskReach {V : Type} (cfg : BuildCfg V) (start : Nat) (adj : List (List Nat)) (i : Nat) :
    Task → Prop
  | .todo => True
  | .search g => (∃ adjh c0, GInv (cfg.distFrom i) cfg.L cfg.n (cfg.acc i) adjh (RFrom adj start) c0 g) ∧
      1 ≤ g.ps.cur
  | .link pr => (∀ x ∈ pr, RFrom adj start x) ∧ (pr ≠ [] ∨ RFrom adj start i)
  | .recip rest => (∀ x ∈ rest, RFrom adj start x) ∧ (rest ≠ [] ∨ RFrom adj start i)
  | .prune _ _ _ => False
  | .done => RFrom adj start i

theorem BuildCfg.TaskReach.mono {V : Type} {cfg : BuildCfg V} {start : Nat} {adj adj' : List (List Nat)}
    (h : AdjLe adj adj') {i : Nat} : ∀ {t : Task}, cfg.TaskReach start adj i t → cfg.TaskReach start adj' i t
  | .todo, _ => trivial
  | .search _, ⟨⟨a, c, hg⟩, hc⟩ => ⟨⟨a, c, hg.mono_P (fun _ hr => hr.mono h)⟩, hc⟩
  | .link _, ⟨h1, h2⟩ => ⟨fun x hx => (h1 x hx).mono h, h2.imp_right (fun hr => hr.mono h)⟩
  | .recip _, ⟨h1, h2⟩ => ⟨fun x hx => (h1 x hx).mono h, h2.imp_right (fun hr => hr.mono h)⟩
  | .done, hr => RFrom.mono h hr

/-- An unlabelled Vamana build in which the degree bound never bites. -/
structure BuildCfg.Roomy {V : Type} (cfg : BuildCfg V) (start : Nat) : Prop where
  vamana : cfg.wholePool = false
  rule : cfg.topKOwn = false
  init : ∀ i, cfg.init i = .ok [start]
  filters : ∀ i, cfg.filters i = []
  room : 2 * cfg.n ≤ cfg.R
  window : 1 ≤ cfg.C
  alpha : cfg.alpha.lt F32.zero = false

structure RInv {V : Type} (cfg : BuildCfg V) (start : Nat) (s : BSt) : Prop where
  dup : DupInv s
  tasks : ∀ i t, s.tasks[i]? = some t → cfg.TaskReach start s.adj i t

theorem RInv.set {V : Type} {cfg : BuildCfg V} {start : Nat} {s : BSt} (h : RInv cfg start s)
    {adj : List (List Nat)} (ha : AdjLe s.adj adj) {i : Nat} {t : Task} (ht : cfg.TaskReach start adj i t) :
    ∀ j u, (s.tasks.set i t)[j]? = some u → cfg.TaskReach start adj j u := by
  intro j u hj
  rw [List.getElem?_set] at hj
  split at hj
  · rename_i hij
    split at hj
    · cases hj; subst hij; exact ht
    · cases hj
  · exact (h.tasks j u hj).mono ha

theorem rinv_step {V : Type} {cfg : BuildCfg V} (h : cfg.OK) {start : Nat} (hr : cfg.Roomy start) (s : BSt)
    (i : Nat) (s' : BSt) (hs : BInv cfg s) (hi : RInv cfg start s) (e : buildStep cfg s i = .ok s') :
    RInv cfg start s' := by
  refine ⟨dupInv_step h hr.vamana s i s' hs hi.dup e, ?_⟩
  have hn := h.size
  have hedge := hs.edges
  unfold buildStep at e
  cases ht : s.tasks[i]? with
  | none => rw [ht] at e; cases e; exact hi.tasks
  | some t =>
    have hil : i < cfg.n := by rw [← hs.tasksLen]; exact (List.getElem?_eq_some_iff.1 ht).1
    have hrd : rd cfg.env.ctx.data i = .ok cfg.env.ctx.data[i] := rd_ok hil
    have hdist : ∀ j v, cfg.env.ctx.data[j]? = some v →
        cfg.env.ctx.cmp cfg.env.ctx.data[i] v = cfg.distFrom i j := by
      intro j v hv
      unfold BuildCfg.distFrom
      rw [hv, List.getElem?_eq_getElem hil]
    have htr := hi.tasks i t ht
    have hrefl := AdjLe.refl s.adj
    rw [ht] at e
    cases t with
    | done => cases e; exact hi.tasks
    | todo =>
      simp only at e
      rw [if_neg (by omega)] at e
      obtain ⟨ids, hids, hin⟩ := h.init i hil
      rw [hids, hrd] at e
      simp only [Res.ok_bind] at e
      have : ids = [start] := by rw [hr.init i] at hids; cases hids; rfl
      subst this
      obtain ⟨g, eg, _, _, hg, _, hcur, _⟩ := greedyStart_spec cfg.sortF h.sort cfg.env.ctx
        cfg.env.ctx.data[i] cfg.L (fun _ => []) [start] (cfg.distFrom i)
        (fun j v hv => by rw [h.symm]; exact hdist j v hv) h.listSize h.listSize_le
        (cfg.acc i) (RFrom s.adj start) hin (fun j hj => .start hj)
      rw [eg] at e
      cases e
      exact hi.set hrefl ⟨⟨_, _, hg⟩, hcur (by simp)⟩
    | search g =>
      obtain ⟨⟨adjh, c0, hg⟩, hcur⟩ := htr
      simp only at e
      by_cases hk : g.k < g.ps.cur
      · rw [if_pos hk, hrd] at e
        simp only [Res.ok_bind] at e
        have hg' := hg.congr_adj (adj' := Function.update adjh g.hops s.adj) (fun t ht =>
          Function.update_of_ne (by omega) _ _)
        obtain ⟨g', eg, h1, _, h2, _⟩ := greedyIter_spec cfg.env.ctx cfg.env.ctx.data[i]
          (cfg.filters i) cfg.L (Function.update adjh g.hops s.adj) s.adj (cfg.distFrom i) hdist
          h.listSize_le (cfg.acc i) (RFrom s.adj start) c0
          (by
            intro j hj
            obtain ⟨b, hb⟩ := filterAccepts_ok cfg.env.ctx (cfg.filters i) j
              (fun hne => by rw [h.filters i hne]; exact hj)
            unfold BuildCfg.acc
            rw [hb]
            cases b <;> simp)
          hedge.1
          (by
            intro nb hnb j hj
            obtain ⟨v, hv⟩ := List.getElem?_of_mem hnb
            exact (hedge.2 v nb hv j hj).1)
          (fun a nb ha hnb j hj _ => .step ha ⟨nb, hnb, hj⟩ trivial) g hg' hk (by simp)
        rw [eg] at e
        cases e
        exact hi.set hrefl ⟨⟨_, _, h1⟩, by omega⟩
      · rw [if_neg hk, hr.vamana] at e
        have hin : ∀ x ∈ g.expanded, x.id < cfg.n := fun x hx =>
          hg.insLt _ (hg.exIns _ (List.mem_map_of_mem hx))
        have hreach : ∀ x ∈ g.expanded, RFrom s.adj start x.id := fun x hx =>
          hg.reach _ (hg.exIns _ (List.mem_map_of_mem hx))
        -- the expanded list is not empty
        have hne : g.expanded ≠ [] := by
          have hlive : g.ps.live ≠ [] := by
            intro h0
            have := hg.sinv.live_length
            rw [h0] at this
            simp at this
            omega
          obtain ⟨x, hx⟩ := List.exists_mem_of_ne_nil _ hlive
          have hf : x.flag = false := by
            apply hg.flagsK
            rw [List.take_of_length_le (by rw [hg.sinv.live_length]; omega)]
            exact hx
          have := hg.flagEx x hx hf
          intro h0
          rw [h0] at this
          simp at this
        simp only [Bool.false_eq_true, if_false] at e
        obtain ⟨pr, hpr, e⟩ := Res.bind_eq_ok.1 e
        cases e
        refine hi.set hrefl ?_
        unfold pruneBy at hpr
        rw [hr.rule] at hpr
        simp only [Bool.false_eq_true, if_false] at hpr
        obtain ⟨I, h1, h2⟩ := pruneAlpha_spec cfg.sortF h.sort cfg.env cfg.alpha hr.alpha cfg.C cfg.R i
          g.expanded hne (fun x hx => h.has (hin x hx)) []
        rw [h1] at hpr
        cases hpr
        have hperm := h.sort.perm g.expanded
        refine ⟨?_, ?_⟩
        · intro x hx
          obtain ⟨y, hy, rfl⟩ := List.mem_map.1 hx
          have := (pickAt_sublist _ I h2.increasing).subset hy
          exact hreach y (hperm.mem_iff.1 (List.mem_of_mem_take this))
        · by_cases hown : ∃ x ∈ g.expanded, x.id = i
          · obtain ⟨x, hx, rfl⟩ := hown
            exact Or.inr (hreach x hx)
          · left
            intro h0
            have hI : I = [] := by
              have := pickAt_length h2.inRange
              rw [List.map_eq_nil_iff.1 h0] at this
              exact List.length_eq_zero_iff.1 this.symm
            subst hI
            have hpos : 0 < ((cfg.sortF g.expanded).take cfg.C).length := by
              rw [List.length_take, hperm.length_eq]
              have := List.length_pos_iff.2 hne
              have := hr.window
              omega
            rcases h2.reason 0 _ (List.getElem?_eq_getElem hpos) (by simp) with hc | ⟨j, hj, _⟩ | ⟨hc, _⟩
            · apply hown
              exact ⟨_, hperm.mem_iff.1 (List.mem_of_mem_take (List.getElem_mem hpos)), hc⟩
            · simp at hj
            · have := hr.room
              simp at hc
              omega
    | link pr =>
      have hia : i < s.adj.length := by rw [hedge.1]; exact hil
      simp only at e
      rw [rd_ok hia] at e
      simp only [Res.ok_bind] at e
      rw [wr_ok hia] at e
      cases e
      have hle : AdjLe s.adj (s.adj.set i (s.adj[i] ++ pr)) := AdjLe.append (List.getElem?_eq_getElem hia)
      exact hi.set hle (BuildCfg.TaskReach.mono (t := .recip pr) hle htr)
    | recip rest =>
      cases rest with
      | nil =>
        cases e
        refine hi.set hrefl ?_
        rcases htr.2 with hc | hc
        · exact absurd rfl hc
        · exact hc
      | cons des rest =>
        have hch : cfg.Chosen i (des :: rest) := hs.taskOK i _ ht
        have hdes := hch.2 des (by simp)
        have hda : des < s.adj.length := by rw [hedge.1]; exact hdes.1
        have hdr : RFrom s.adj start des := htr.1 des (by simp)
        simp only at e
        rw [rd_ok hda] at e
        simp only [Res.ok_bind] at e
        by_cases hc : (s.adj[des]).contains i = true
        · rw [if_pos hc] at e
          cases e
          refine hi.set hrefl ⟨fun x hx => htr.1 x (by simp [hx]), Or.inr ?_⟩
          exact .step hdr ⟨_, List.getElem?_eq_getElem hda, by simpa using hc⟩ trivial
        · rw [if_neg hc] at e
          have hlen : (s.adj[des]).length ≤ 2 * cfg.n := by
            have hdt : des < s.tasks.length := by rw [hs.tasksLen]; exact hdes.1
            exact length_le_of_count
              (hi.dup des _ _ (List.getElem?_eq_getElem hda) (List.getElem?_eq_getElem hdt)).2
              (fun x hx => (hedge.2 des _ (List.getElem?_eq_getElem hda) x hx).1)
          have := hr.room
          rw [if_pos (by omega), wr_ok hda] at e
          cases e
          have hle : AdjLe s.adj (s.adj.set des (s.adj[des] ++ [i])) :=
            AdjLe.append (List.getElem?_eq_getElem hda)
          refine hi.set hle ⟨fun x hx => (htr.1 x (by simp [hx])).mono hle, Or.inr ?_⟩
          exact .step (hdr.mono hle) ⟨s.adj[des] ++ [i], by simp [hda], by simp⟩ trivial
    | prune des copy rest => exact htr.elim

/-- **C63, what holds.** In an unlabelled Vamana build of a new object with `R ≥ 2n` (so that no list is
ever cut), under every schedule: once the parallel loop has ended, every point can be reached from the
start node in the final graph. -/
theorem C63_reachable_partial {V : Type} (cfg : BuildCfg V) (h : cfg.OK) (start : Nat)
    (hr : cfg.Roomy start) (sched : List Nat) :
    ∃ s, runSched cfg sched (BSt.start (freshAdj cfg.n)) = .ok s ∧
      (s.Finished → ∃ out, cleanup cfg s.adj = .ok out ∧
        ∀ i, i < cfg.n → Reach out (fun _ => True) [start] i) := by
  obtain ⟨s, e, hs, hi⟩ := runSched_induct h (RInv cfg start)
    (fun s i s' hs hi e => rinv_step h hr s i s' hs hi e) sched _
    (start_inv (freshAdj_valid cfg.n)) (by
      constructor
      · intro v nb t hv _
        have : nb = [] := List.eq_of_mem_replicate (List.mem_of_getElem? hv)
        subst this
        simp
      · intro i t ht
        have : t = .todo := List.eq_of_mem_replicate (List.mem_of_getElem? ht)
        subst this
        trivial)
  refine ⟨s, e, fun hfin => ?_⟩
  obtain ⟨out, e', hv, hout⟩ := cleanup_spec h hs.edges
  have heq : out = s.adj := by
    apply List.ext_getElem?
    intro v
    by_cases hvl : v < s.adj.length
    · obtain ⟨nb', h1, _, h3, _⟩ := hout v _ (List.getElem?_eq_getElem hvl)
      rw [h1, h3 ?_, List.getElem?_eq_getElem hvl]
      have hvt : v < s.tasks.length := by rw [hs.tasksLen, ← hs.edges.1]; exact hvl
      have := length_le_of_count
        (hi.dup v _ _ (List.getElem?_eq_getElem hvl) (List.getElem?_eq_getElem hvt)).2
        (fun x hx => (hs.edges.2 v _ (List.getElem?_eq_getElem hvl) x hx).1)
      have := hr.room
      omega
    · have h1 := hv.1
      have h2 := hs.edges.1
      rw [List.getElem?_eq_none (by omega), List.getElem?_eq_none (by omega)]
  refine ⟨out, e', fun i hin => ?_⟩
  rw [heq]
  have hit : i < s.tasks.length := by rw [hs.tasksLen]; exact hin
  have hd := hfin _ (List.getElem_mem hit)
  have := hi.tasks i _ (List.getElem?_eq_getElem hit)
  rw [hd] at this
  exact this

example : (exVam exPts10 20).OK ∧ (exVam exPts10 20).Roomy 1 ∧
    (exVam exPts10 20).alpha.lt F32.zero = false :=
  ⟨exVam_ok _ _ (by decide), ⟨rfl, rfl, fun _ => rfl, fun _ => rfl, by decide, by decide, by decide⟩,
   by decide⟩

/-- **C63, refuted in general.** The sequential build of the ten points `exPts10` with `R = 1`: from the
start node 1 only the points 0 and 1 can be reached. -/
theorem C63_unreachable_witness :
    (exVam exPts10 1).OK ∧ ∃ out, buildGraph (exVam exPts10 1) (seqSched 10 40) = .ok out ∧
      ∀ i, Reach out (fun _ => True) [1] i → i = 0 ∨ i = 1 := by
  refine ⟨exVam_ok _ _ (by decide), [[1], [0], [1], [5], [6], [3], [4], [9], [6], [7]], by decide +kernel, ?_⟩
  intro i hi
  induction hi with
  | start h => simp at h; omega
  | step _ hE _ ih =>
    obtain ⟨nb, h1, h2⟩ := hE
    rcases ih with rfl | rfl
    · simp at h1; subst h1; simp at h2; omega
    · simp at h1; subst h1; simp at h2; omega

/-! ## The theorems applied to the examples -/

/-- C63 applied to the sequential build of `exPts10`. -/
example := C63_reachable_partial (exVam exPts10 20) (exVam_ok _ _ (by decide)) 1
  ⟨rfl, rfl, fun _ => rfl, fun _ => rfl, by decide, by decide, by decide⟩ (seqSched 10 40)

/-- **C63, refuted for every data set with `R = 0`.**  Under every schedule the final graph has no edges: from the start
node only the start node can be reached. -/
theorem C63_degree_zero {V : Type} (cfg : BuildCfg V) (h : cfg.OK) (hR : cfg.R = 0) (adj0 : List (List Nat))
    (h0 : ValidEdges cfg.n adj0) (sched : List Nat) (start : Nat) :
    ∃ s, runSched cfg sched (BSt.start adj0) = .ok s ∧
      (s.Finished → ∃ out, cleanup cfg s.adj = .ok out ∧ ∀ i, Reach out (fun _ => True) [start] i → i = start) := by
  obtain ⟨s, e, hf⟩ := C22_degree_bound cfg h adj0 h0 sched
  refine ⟨s, e, fun hfin => ?_⟩
  obtain ⟨out, e', _, hout⟩ := hf hfin
  refine ⟨out, e', fun i hi => ?_⟩
  induction hi with
  | start h => simpa using h
  | step _ hE _ _ =>
    obtain ⟨nb, h1, h2⟩ := hE
    have := hout nb (List.mem_of_getElem? h1)
    rw [hR] at this
    rw [List.length_eq_zero_iff.1 (Nat.le_zero.1 this)] at h2
    exact absurd h2 (by simp)

/-- **C63, one neighbour each.**  With `R = 1`, under every schedule, of any two points that can be reached one can be
reached from the other: the points that can be reached form a chain, and two points with the same only neighbour that
do not reach each other are never both found. -/
theorem C63_degree_one {V : Type} (cfg : BuildCfg V) (h : cfg.OK) (hR : cfg.R = 1) (adj0 : List (List Nat))
    (h0 : ValidEdges cfg.n adj0) (sched : List Nat) (start : Nat) :
    ∃ s, runSched cfg sched (BSt.start adj0) = .ok s ∧
      (s.Finished → ∃ out, cleanup cfg s.adj = .ok out ∧ ∀ i j, Reach out (fun _ => True) [start] i →
        Reach out (fun _ => True) [start] j → Reach out (fun _ => True) [i] j ∨ Reach out (fun _ => True) [j] i) := by
  obtain ⟨s, e, hf⟩ := C22_degree_bound cfg h adj0 h0 sched
  refine ⟨s, e, fun hfin => ?_⟩
  obtain ⟨out, e', _, hout⟩ := hf hfin
  have huniq : ∀ v a b, Edge out v a → Edge out v b → a = b := by
    rintro v a b ⟨nb, h1, h2⟩ ⟨nb', h3, h4⟩
    rw [h1] at h3
    cases h3
    have := hout nb (List.mem_of_getElem? h1)
    rw [hR] at this
    match nb, this with
    | [], _ => simp at h2
    | [c], _ => simp at h2 h4; rw [h2, h4]
  refine ⟨out, e', fun i j hi hj => ?_⟩
  induction hi with
  | @start a ha =>
    rw [List.mem_singleton] at ha
    rw [ha]
    exact .inl hj
  | @step a b ha hE _ ih =>
    rcases ih with ih | ih
    · -- a reaches j
      cases hj' : ih with
      | start h' =>
        have : j = a := by simpa using h'
        subst this
        exact .inr (.step (.start (by simp)) hE trivial)
      | step _ _ _ =>
        clear hj'
        have hgen : ∀ k, Reach out (fun _ => True) [a] k → k = a ∨ Reach out (fun _ => True) [b] k := by
          intro k hk
          induction hk with
          | start h' => exact .inl (by simpa using h')
          | @step c d hc hcd _ ihc =>
            rcases ihc with rfl | ihc
            · rw [huniq _ _ _ hcd hE]
              exact .inr (.start (by simp))
            · exact .inr (.step ihc hcd trivial)
        rcases hgen j ih with rfl | hb
        · exact .inr (.step (.start (by simp)) hE trivial)
        · exact .inl hb
    · exact .inr (.step ih hE trivial)

/-- The ten points with `R = 0`, and with `R = 1`: the sequential build ends in these states. -/
example : (exVam exPts10 0).OK ∧ (exVam exPts10 0).R = 0 ∧
    buildGraph (exVam exPts10 0) (seqSched 10 40) = .ok (List.replicate 10 []) :=
  ⟨exVam_ok _ _ (by decide), rfl, by decide +kernel⟩

example := C63_degree_zero (exVam exPts10 0) (exVam_ok _ _ (by decide)) rfl (freshAdj 10) (freshAdj_valid 10) (seqSched 10 40) 1

example := C63_degree_one (exVam exPts10 1) (exVam_ok _ _ (by decide)) rfl (freshAdj 10) (freshAdj_valid 10) (seqSched 10 40) 1

end Grann
