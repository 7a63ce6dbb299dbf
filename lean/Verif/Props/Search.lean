import Verif.Proofs.Search
/-!
# C08, C10 – C13 for the graph indices
-/

namespace Grann

open Spec (IsGraph Edge Reach KNearest Matches Reports)

/-- A usable graph index: at least one point, a graph on the points, one tag per point, a valid start
node and valid label entry points. -/
structure GIdx.OK {V : Type} (ix : GIdx V) : Prop where
  nonempty : 1 ≤ ix.ctx.data.length
  graph : IsGraph ix.ctx.data.length ix.graph
  tags : ix.tags.length = ix.ctx.data.length
  start : ix.start < ix.ctx.data.length
  medoids : ∀ p ∈ ix.medoids, p.2 < ix.ctx.data.length

/-- Distances from `q` are numbers and the distance function is symmetric for `q`. -/
structure GIdx.Dist {V : Type} (ix : GIdx V) (q : V) (d : Nat → F32) : Prop where
  eq : ∀ i v, ix.ctx.data[i]? = some v → d i = ix.ctx.cmp q v
  sym : ∀ v ∈ ix.ctx.data, ix.ctx.cmp v q = ix.ctx.cmp q v
  num : ∀ i, i < ix.ctx.data.length → (d i).IsNum

/-- Everything about one graph search with given entry points. -/
theorem graphSearch_spec {V : Type} (sortF : List Nbr → List Nbr) (hsort : IsStdSort sortF)
    (ix : GIdx V) (hix : ix.OK) (q : V) (d : Nat → F32) (hdist : ix.Dist q d)
    (filters : List Label) (hlab : filters ≠ [] → ix.ctx.labels.length = ix.ctx.data.length)
    (init : List Nat) (hinit : ∀ i ∈ init, i < ix.ctx.data.length)
    (rc L : Nat) (hL1 : 1 ≤ L) (hL : Spec.ListFits ix.ctx.data.length L) (ind : List Nat) (dst : List F32) :
    ((rc ≤ L + 1 ∧ rc ≤ ind.length ∧ rc ≤ dst.length) →
      ∃ ids ind' dst', graphSearch sortF ix q filters init rc L ind dst = .ok (ind', dst', ids.length) ∧
        Reports (fun i => ix.tags.getD i 0) d
          (Reach ix.graph (fun j => filterAccepts ix.ctx filters j = .ok true) init) ids ind' dst' ∧
        ids.length ≤ rc ∧ (init ≠ [] → 1 ≤ rc → 1 ≤ ids.length) ∧
        ind'.length = ind.length ∧ dst'.length = dst.length ∧
        ind'.drop rc = ind.drop rc ∧ dst'.drop rc = dst.drop rc ∧
        (ids.length < rc → rc ≤ L → ∀ i, i ∈ ids ↔
          Reach ix.graph (fun j => filterAccepts ix.ctx filters j = .ok true) init i)) ∧
    ((L + 1 < rc ∨ ind.length < rc ∨ dst.length < rc) →
      graphSearch sortF ix q filters init rc L ind dst = .error .ub) := by
  obtain ⟨s, c0, e, hi, hk, hini, h1, hkn⟩ := greedy_general sortF hsort ix.ctx q filters L
    (fun _ => ix.graph) init d hdist.eq hdist.sym hL1 hL hlab (fun _ => hix.graph) hinit
    (Reach ix.graph (fun j => filterAccepts ix.ctx filters j = .ok true) init)
    (fun i hi => Reach.start hi) (fun _ i j hPi he ha => Reach.step hPi he ha)
    _ (Nat.le_refl _)
  have hkn := hkn hdist.num
  have hpl : s.ps.pool.length = L + 1 := hi.sinv.len
  have hmem : ∀ x ∈ s.ps.pool, x.id < ix.tags.length := by
    rw [hix.tags]
    exact greedySearchF_mem hsort e (fun _ => hix.graph.edges) hinit hix.nonempty
  have e' : greedySearch sortF ix.ctx q filters L (fun _ => ix.graph) init = .ok s := e
  constructor
  · rintro ⟨hr1, hr2, hr3⟩
    have hc := copyOut_spec ix.tags s.ps.pool hmem rc 0 ind dst (by omega) (by omega) (by omega)
    simp only [Nat.zero_add, List.take_zero, List.drop_zero, List.nil_append] at hc
    have hcl := hi.sinv.cur_le
    let ids := (s.ps.pool.take (min rc s.ps.cur)).map Nbr.id
    have hidl : ids.length = min rc s.ps.cur := by
      simp only [ids, List.length_map, List.length_take]; omega
    have hlive : s.ps.pool.take (min rc s.ps.cur) = s.ps.live.take (min rc s.ps.cur) := by
      unfold PoolSt.live; rw [List.take_take]; congr 1; omega
    have hlm : ∀ x ∈ s.ps.pool.take (min rc s.ps.cur), x ∈ s.ps.live := by
      intro x hx; rw [hlive] at hx; exact List.mem_of_mem_take hx
    have hlr : (s.ps.pool.take rc).length = rc := by rw [List.length_take]; omega
    have htt : (s.ps.pool.take rc).take (min rc s.ps.cur) = s.ps.pool.take (min rc s.ps.cur) := by
      rw [List.take_take]; congr 1; omega
    refine ⟨ids, (s.ps.pool.take rc).map (fun x => ix.tags.getD x.id 0) ++ ind.drop rc,
      (s.ps.pool.take rc).map Nbr.dist ++ dst.drop rc, ?_, ⟨?_, ?_, ?_, ?_, ?_⟩, ?_, ?_, ?_, ?_, ?_, ?_, ?_⟩
    · unfold graphSearch
      rw [e']
      simp only [Res.ok_bind]
      rw [hc]
      simp only [Res.ok_bind]
      rw [hidl]
    · rw [hidl, List.take_append_of_le_length (by rw [List.length_map, hlr]; omega), ← List.map_take,
        htt]
      simp only [ids, List.map_map]
      rfl
    · rw [hidl, List.take_append_of_le_length (by rw [List.length_map, hlr]; omega), ← List.map_take,
        htt]
      simp only [ids, List.map_map]
      apply List.map_congr_left
      intro x hx
      exact hi.sinv.truth x (hlm x hx)
    · simp only [ids]
      rw [hlive, List.map_take]
      exact hi.sinv.nodupIds.sublist (List.take_sublist _ _)
    · intro i hi'
      obtain ⟨x, hx, rfl⟩ := List.mem_map.1 hi'
      exact hi.reach _ (hi.sinv.subset x (hlm x hx))
    · simp only [ids]
      rw [hlive, List.pairwise_map]
      have h2 : s.ps.live.Pairwise (fun x y => (d x.id).le (d y.id) = true) := by
        have := hkn.sorted
        rw [List.pairwise_map] at this
        refine this.imp_of_mem ?_
        intro x y hx hy hxy
        rw [← hi.sinv.truth x hx, ← hi.sinv.truth y hy]; exact hxy
      exact h2.sublist (List.take_sublist _ _)
    · omega
    · intro hne h
      have := h1 hne
      omega
    · rw [List.length_append, List.length_map, hlr, List.length_drop]; omega
    · rw [List.length_append, List.length_map, hlr, List.length_drop]; omega
    · rw [List.drop_append_of_le_length (by rw [List.length_map, hlr])]
      rw [List.drop_of_length_le (by rw [List.length_map, hlr])]; rfl
    · rw [List.drop_append_of_le_length (by rw [List.length_map, hlr])]
      rw [List.drop_of_length_le (by rw [List.length_map, hlr])]; rfl
    · intro hlt hrL
      have hcur : s.ps.cur < L := by omega
      have hsh := hi.short hk hkn (hini hcur) hcur
      have hids : ids = s.ps.answer.map Prod.fst := by
        rw [answer_ids]
        simp only [ids]
        have : min rc s.ps.cur = s.ps.cur := by omega
        rw [this]; rfl
      intro i
      rw [hids]; exact hsh i
  · intro hbad
    have := copyOut_ub ix.tags s.ps.pool rc 0 ind dst (by omega) (by omega) (by omega) (by omega)
    unfold graphSearch
    rw [e']
    simp only [Res.ok_bind]
    rw [this]
    rfl

theorem vamanaInit_lt {V : Type} {ix : GIdx V} (hix : ix.OK) (filters : List Label) :
    ∀ i ∈ vamanaInit ix filters, i < ix.ctx.data.length := by
  intro i hi
  unfold vamanaInit at hi
  split at hi
  · obtain ⟨x, hx, h⟩ := List.mem_filterMap.1 hi
    obtain ⟨l1, l2, hl, _⟩ := List.lookup_eq_some_iff.1 h
    exact hix.medoids (x, i) (by rw [hl]; simp)
  · simp at hi; subst hi; exact hix.start

/-! ## C08 -/

/-- **C08 (Vamana).** If every label entry point carries its label or the universal label (which a
build guarantees, C28), every point a filtered search reports matches the filter – for every graph,
every order of the filter labels and unknown or repeated filter labels. -/
theorem C08_vamana_results_match {V : Type} (sortF : List Nbr → List Nbr) (hsort : IsStdSort sortF)
    (ix : GIdx V) (hix : ix.OK) (q : V) (d : Nat → F32) (hdist : ix.Dist q d)
    (filters : List Label) (hf : filters ≠ [])
    (hlab : ix.ctx.labels.length = ix.ctx.data.length)
    (hmed : ∀ p ∈ ix.medoids, p.1 ∈ ix.ctx.labels.getD p.2 [] ∨
      (ix.ctx.useUniv = true ∧ ix.ctx.univ ∈ ix.ctx.labels.getD p.2 []))
    (rc L : Nat) (hL1 : 1 ≤ L) (hL : Spec.ListFits ix.ctx.data.length L) (hrc : rc ≤ L + 1) (ind : List Nat) (dst : List F32)
    (hind : rc ≤ ind.length) (hdst : rc ≤ dst.length) :
    ∃ ids ind' dst', vamanaSearch sortF ix q rc L ind dst filters = .ok (ind', dst', ids.length) ∧
      Reports (fun i => ix.tags.getD i 0) d
        (fun i => Matches ix.ctx.useUniv ix.ctx.univ filters (ix.ctx.labels.getD i [])) ids ind' dst' := by
  obtain ⟨ids, ind', dst', e, hr, _⟩ := (graphSearch_spec sortF hsort ix hix q d hdist filters
    (fun _ => hlab) (vamanaInit ix filters) (vamanaInit_lt hix filters) rc L hL1 hL ind dst).1
    ⟨hrc, hind, hdst⟩
  refine ⟨ids, ind', dst', e, hr.tags, hr.dists, hr.distinct, ?_, hr.sorted⟩
  intro i hi
  have := hr.good i hi
  induction this with
  | @start m h =>
    unfold vamanaInit at h
    rw [if_pos (by simpa using hf)] at h
    obtain ⟨x, hx, h⟩ := List.mem_filterMap.1 h
    obtain ⟨l1, l2, hl, _⟩ := List.lookup_eq_some_iff.1 h
    rcases hmed (x, m) (by rw [hl]; simp) with h | ⟨h1, h2⟩
    · exact Or.inr (Or.inl ⟨x, hx, h⟩)
    · exact Or.inr (Or.inr ⟨h1, Or.inr h2⟩)
  | @step i j hr' hE hok _ =>
    have hj : j < ix.ctx.labels.length := by
      obtain ⟨nb, hnb, hjm⟩ := hE
      rw [hlab]; exact hix.graph.edges nb (List.mem_of_getElem? hnb) j hjm
    refine filterAccepts_sound (fun _ => ?_) hok
    simp [List.getD, List.getElem?_eq_getElem hj]

/-! ## C11, C12, C13 -/

/-- **C11 (Vamana).** For `res_count ≤ L` the returned count is at most `res_count`; the slots before it
report that many distinct points of the index in order of distance, each reachable from the entry
points through points passing the filter test; if the count is below `res_count`, all such points are
reported; slots from `res_count` on are untouched. -/
theorem C11_vamana_count {V : Type} (sortF : List Nbr → List Nbr) (hsort : IsStdSort sortF)
    (ix : GIdx V) (hix : ix.OK) (q : V) (d : Nat → F32) (hdist : ix.Dist q d)
    (filters : List Label) (hlab : filters ≠ [] → ix.ctx.labels.length = ix.ctx.data.length)
    (rc L : Nat) (hL1 : 1 ≤ L) (hL : Spec.ListFits ix.ctx.data.length L) (hrc : rc ≤ L) (ind : List Nat) (dst : List F32)
    (hind : rc ≤ ind.length) (hdst : rc ≤ dst.length) :
    ∃ ids ind' dst', vamanaSearch sortF ix q rc L ind dst filters = .ok (ind', dst', ids.length) ∧
      ids.length ≤ rc ∧
      Reports (fun i => ix.tags.getD i 0) d
        (Reach ix.graph (fun j => filterAccepts ix.ctx filters j = .ok true) (vamanaInit ix filters))
        ids ind' dst' ∧
      (ids.length < rc → ∀ i, Reach ix.graph (fun j => filterAccepts ix.ctx filters j = .ok true)
        (vamanaInit ix filters) i → i ∈ ids) ∧
      ind'.drop rc = ind.drop rc ∧ dst'.drop rc = dst.drop rc := by
  obtain ⟨ids, ind', dst', e, hr, h1, h2, h3, h4, h5, h6, h7⟩ := (graphSearch_spec sortF hsort ix hix q d
    hdist filters hlab (vamanaInit ix filters) (vamanaInit_lt hix filters) rc L hL1 hL ind dst).1
    ⟨by omega, hind, hdst⟩
  exact ⟨ids, ind', dst', e, h1, hr, fun h i hi => (h7 h hrc i).2 hi, h5, h6⟩

/-- **C11 (RelativeNG).** As for Vamana, with the start node as entry point and no filter. -/
theorem C11_rng_count {V : Type} (sortF : List Nbr → List Nbr) (hsort : IsStdSort sortF)
    (ix : GIdx V) (hix : ix.OK) (q : V) (d : Nat → F32) (hdist : ix.Dist q d) (filters : List Label)
    (rc L : Nat) (hL1 : 1 ≤ L) (hL : Spec.ListFits ix.ctx.data.length L) (hrc : rc ≤ L) (ind : List Nat) (dst : List F32)
    (hind : rc ≤ ind.length) (hdst : rc ≤ dst.length) :
    ∃ ids ind' dst', rngSearch sortF ix q rc L ind dst filters = .ok (ind', dst', ids.length) ∧
      ids.length ≤ rc ∧
      Reports (fun i => ix.tags.getD i 0) d (Reach ix.graph (fun _ => True) [ix.start]) ids ind' dst' ∧
      (ids.length < rc → ∀ i, Reach ix.graph (fun _ => True) [ix.start] i → i ∈ ids) ∧
      ind'.drop rc = ind.drop rc ∧ dst'.drop rc = dst.drop rc := by
  have hacc : (fun j => filterAccepts ix.ctx [] j = .ok true) = (fun _ => True) := by
    funext j; simp [filterAccepts]
  obtain ⟨ids, ind', dst', e, hr, h1, h2, h3, h4, h5, h6, h7⟩ := (graphSearch_spec sortF hsort ix hix q d
    hdist [] (by simp) [ix.start] (by simpa using hix.start) rc L hL1 hL ind dst).1
    ⟨by omega, hind, hdst⟩
  rw [hacc] at hr h7
  exact ⟨ids, ind', dst', e, h1, hr, fun h i hi => (h7 h hrc i).2 hi, h5, h6⟩

/-- A usable HNSW index, outermost level first: each level is a usable graph index with well-behaved
distances, and the tags of an inner level name points of the level around it. -/
def HnswOK {V : Type} (q : V) : List (GIdx V) → Prop
  | [] => False
  | [ix] => ix.OK ∧ ∃ d, ix.Dist q d
  | ix :: iy :: rest => ix.OK ∧ (∃ d, ix.Dist q d) ∧ (∀ t ∈ iy.tags, t < ix.ctx.data.length) ∧
      HnswOK q (iy :: rest)

/-- **C11 (HNSW).** For `res_count ≤ L`, any number of levels: the returned count is at most
`res_count`, positive for positive `res_count`, the slots before it report that many distinct points
of the outer level in order of distance with their tags, and slots from `res_count` on are
untouched.  There are entry points `init`, all of them valid points, such that the points reported are
reachable from them, and all of those if the count is below `res_count`. -/
theorem C11_hnsw_count {V : Type} (sortF : List Nbr → List Nbr) (hsort : IsStdSort sortF) (q : V)
    (rc L : Nat) (hL1 : 1 ≤ L) (hrc : rc ≤ L) (filters : List Label) :
    ∀ (ix : GIdx V) (inner : List (GIdx V)), HnswOK q (ix :: inner) →
    (∀ iz ∈ ix :: inner, Spec.ListFits iz.ctx.data.length L) → ∀ (d : Nat → F32), ix.Dist q d →
    ∀ (ind : List Nat) (dst : List F32), rc ≤ ind.length → rc ≤ dst.length →
    ∃ init ids ind' dst', hnswSearch sortF q rc L (ix :: inner) ind dst filters
        = .ok (ind', dst', ids.length) ∧
      (∀ i ∈ init, i < ix.ctx.data.length) ∧ (1 ≤ rc → init ≠ []) ∧
      ids.length ≤ rc ∧ (1 ≤ rc → 1 ≤ ids.length) ∧
      Reports (fun i => ix.tags.getD i 0) d (Reach ix.graph (fun _ => True) init) ids ind' dst' ∧
      (ids.length < rc → ∀ i, Reach ix.graph (fun _ => True) init i → i ∈ ids) ∧
      ind'.drop rc = ind.drop rc ∧ dst'.drop rc = dst.drop rc := by
  intro ix inner
  induction inner generalizing ix filters with
  | nil =>
    rintro ⟨hix, _⟩ hL d hdist ind dst hind hdst
    have hacc : (fun j => filterAccepts ix.ctx [] j = .ok true) = (fun _ => True) := by
      funext j; simp [filterAccepts]
    obtain ⟨ids, ind', dst', e, hr, h1, h2, h3, h4, h5, h6, h7⟩ := (graphSearch_spec sortF hsort ix hix q d
      hdist [] (by simp) [ix.start] (by simpa using hix.start) rc L hL1 (hL ix (by simp)) ind dst).1
      ⟨by omega, hind, hdst⟩
    rw [hacc] at hr h7
    exact ⟨[ix.start], ids, ind', dst', e, by simpa using hix.start, by simp, h1, h2 (by simp), hr,
      fun h i hi => (h7 h hrc i).2 hi, h5, h6⟩
  | cons iy rest ih =>
    rintro ⟨hix, _, htag, hin⟩ hL d hdist ind dst hind hdst
    have hdy : ∃ d, iy.Dist q d := by
      cases rest with
      | nil => exact hin.2
      | cons a b => exact hin.2.1
    have hiy : iy.OK := by
      cases rest with
      | nil => exact hin.1
      | cons a b => exact hin.1
    obtain ⟨dy, hdy⟩ := hdy
    obtain ⟨init0, ids0, ind0, dst0, e0, g1, g2, g3, g3', g4, g5, g6, g7⟩ := ih [] iy hin
      (fun iz hiz => hL iz (List.mem_cons_of_mem _ hiz)) dy hdy
      (List.replicate L 0) (List.replicate L F32.zero) (by simpa using hrc) (by simpa using hrc)
    have hlen0 : ids0.length ≤ ind0.length := by
      have := congrArg List.length g4.tags
      rw [List.length_take, List.length_map] at this
      omega
    have hinit : ∀ i ∈ ids0.map (fun i => iy.tags.getD i 0), i < ix.ctx.data.length := by
      intro i hi
      obtain ⟨j, hj, rfl⟩ := List.mem_map.1 hi
      have hjn : j < iy.tags.length := by
        rw [hiy.tags]
        have := g4.good j hj
        induction this with
        | start h => exact g1 _ h
        | step _ hE _ _ =>
          obtain ⟨nb, hnb, hjm⟩ := hE
          exact hiy.graph.edges nb (List.mem_of_getElem? hnb) _ hjm
      rw [List.getD, List.getElem?_eq_getElem hjn]
      exact htag _ (List.getElem_mem _)
    have hacc : (fun j => filterAccepts ix.ctx [] j = .ok true) = (fun _ => True) := by
      funext j; simp [filterAccepts]
    obtain ⟨ids, ind', dst', e, hr, h1, h2, h3, h4, h5, h6, h7⟩ := (graphSearch_spec sortF hsort ix hix q d
      hdist [] (by simp) (ids0.map (fun i => iy.tags.getD i 0)) hinit rc L hL1 (hL ix (by simp)) ind dst).1
      ⟨by omega, hind, hdst⟩
    rw [hacc] at hr h7
    have hne : 1 ≤ rc → ids0.map (fun i => iy.tags.getD i 0) ≠ [] := by
      intro h h0
      have := g3' h
      rw [List.map_eq_nil_iff] at h0
      rw [h0] at this
      simp at this
    refine ⟨ids0.map (fun i => iy.tags.getD i 0), ids, ind', dst', ?_, hinit, hne, h1,
      fun h => h2 (hne h) h, hr, fun h i hi => (h7 h hrc i).2 hi, h5, h6⟩
    unfold hnswSearch
    rw [e0]
    simp only [Res.ok_bind]
    rw [g4.tags, Nat.sub_eq_zero_of_le hlen0]
    simpa using e

/-- **C12 (graph indices, exact limit).** A Vamana or RelativeNG search, or one on a one-level HNSW,
is free of out-of-bounds accesses exactly when `res_count ≤ L + 1` and the caller's buffers have
`res_count` entries; the memory behind the first `res_count` slots is not written. -/
theorem C12_graph_search_safe_iff {V : Type} (sortF : List Nbr → List Nbr) (hsort : IsStdSort sortF)
    (ix : GIdx V) (hix : ix.OK) (q : V) (d : Nat → F32) (hdist : ix.Dist q d)
    (filters : List Label) (hlab : filters ≠ [] → ix.ctx.labels.length = ix.ctx.data.length)
    (rc L : Nat) (hL1 : 1 ≤ L) (hL : Spec.ListFits ix.ctx.data.length L) (ind : List Nat) (dst : List F32) :
    ∀ r ∈ [vamanaSearch sortF ix q rc L ind dst filters, rngSearch sortF ix q rc L ind dst filters,
           hnswSearch sortF q rc L [ix] ind dst filters],
      ((∃ ind' dst' cnt, r = .ok (ind', dst', cnt) ∧ ind'.length = ind.length ∧
          dst'.length = dst.length ∧ ind'.drop rc = ind.drop rc ∧ dst'.drop rc = dst.drop rc) ↔
        (rc ≤ L + 1 ∧ rc ≤ ind.length ∧ rc ≤ dst.length)) ∧
      (r = .error .ub ↔ ¬ (rc ≤ L + 1 ∧ rc ≤ ind.length ∧ rc ≤ dst.length)) := by
  have key : ∀ (fl : List Label) (init : List Nat) (_ : fl ≠ [] → ix.ctx.labels.length = ix.ctx.data.length)
      (_ : ∀ i ∈ init, i < ix.ctx.data.length),
      ((∃ ind' dst' cnt, graphSearch sortF ix q fl init rc L ind dst = .ok (ind', dst', cnt) ∧
          ind'.length = ind.length ∧
          dst'.length = dst.length ∧ ind'.drop rc = ind.drop rc ∧ dst'.drop rc = dst.drop rc) ↔
        (rc ≤ L + 1 ∧ rc ≤ ind.length ∧ rc ≤ dst.length)) ∧
      (graphSearch sortF ix q fl init rc L ind dst = .error .ub ↔
        ¬ (rc ≤ L + 1 ∧ rc ≤ ind.length ∧ rc ≤ dst.length)) := by
    intro fl init hfl hinit
    have hsp := graphSearch_spec sortF hsort ix hix q d hdist fl hfl init hinit rc L hL1 hL ind dst
    by_cases hok : rc ≤ L + 1 ∧ rc ≤ ind.length ∧ rc ≤ dst.length
    · obtain ⟨ids, ind', dst', e, hr, h1, h2, h3, h4, h5, h6, h7⟩ := hsp.1 hok
      refine ⟨⟨fun _ => hok, fun _ => ⟨ind', dst', _, e, h3, h4, h5, h6⟩⟩, ?_⟩
      rw [e]
      simp [hok]
    · have e := hsp.2 (by omega)
      rw [e]
      simp [hok]
  intro r hr
  simp only [List.mem_cons, List.not_mem_nil, or_false] at hr
  rcases hr with rfl | rfl | rfl
  · exact key filters _ hlab (vamanaInit_lt hix filters)
  · exact key [] _ (by simp) (by simpa using hix.start)
  · exact key [] _ (by simp) (by simpa using hix.start)

/-- **C12 (HNSW with inner levels).** With two or more levels the search is free of out-of-bounds
accesses exactly when `res_count ≤ L` and the caller's buffers have `res_count` entries; for
`res_count > L` the inner search overruns the `L`-sized entry-point buffers. -/
theorem C12_hnsw_search_safe_iff {V : Type} (sortF : List Nbr → List Nbr) (hsort : IsStdSort sortF)
    (ix iy : GIdx V) (rest : List (GIdx V)) (q : V) (h : HnswOK q (ix :: iy :: rest))
    (rc L : Nat) (hL1 : 1 ≤ L) (hL : ∀ iz ∈ ix :: iy :: rest, Spec.ListFits iz.ctx.data.length L)
    (ind : List Nat) (dst : List F32) (filters : List Label) :
    ((∃ r, hnswSearch sortF q rc L (ix :: iy :: rest) ind dst filters = .ok r) ↔
      (rc ≤ L ∧ rc ≤ ind.length ∧ rc ≤ dst.length)) ∧
    (hnswSearch sortF q rc L (ix :: iy :: rest) ind dst filters = .error .ub ↔
      ¬ (rc ≤ L ∧ rc ≤ ind.length ∧ rc ≤ dst.length)) := by
  -- the innermost level fails first when `rc > L`
  have deep : L < rc → ∀ (rest : List (GIdx V)) (iy : GIdx V) (fl : List Label), HnswOK q (iy :: rest) →
      (∀ iz ∈ iy :: rest, Spec.ListFits iz.ctx.data.length L) → ∀ (a : List Nat) (b : List F32), a.length = L ∨ rest ≠ [] → b.length = L ∨ rest ≠ [] →
      hnswSearch sortF q rc L (iy :: rest) a b fl = .error .ub := by
    intro hlt rest
    induction rest with
    | nil =>
      intro iy fl hok hL a b ha hb
      obtain ⟨hiy, dy, hdy⟩ := hok
      refine (graphSearch_spec sortF hsort iy hiy q dy hdy [] (by simp) [iy.start]
        (by simpa using hiy.start) rc L hL1 (hL iy (by simp)) a b).2 ?_
      rcases ha with ha | ha
      · omega
      · simp at ha
    | cons iz rest ih =>
      intro iy fl hok hL a b _ _
      unfold hnswSearch
      rw [ih iz [] hok.2.2.2 (fun x hx => hL x (List.mem_cons_of_mem _ hx)) _ _ (by simp) (by simp)]
      rfl
  by_cases hrc : rc ≤ L
  · by_cases hok : rc ≤ ind.length ∧ rc ≤ dst.length
    · obtain ⟨d, hd⟩ := h.2.1
      obtain ⟨init, ids, ind', dst', e, _⟩ := C11_hnsw_count sortF hsort q rc L hL1 hrc filters ix
        (iy :: rest) h hL d hd ind dst hok.1 hok.2
      rw [e]
      simp [hrc, hok]
    · -- the inner search succeeds, the outer copy loop overruns
      obtain ⟨d, hd⟩ := h.2.1
      have hin := h.2.2.2
      have hiy : iy.OK ∧ ∃ d, iy.Dist q d := by
        cases rest with
        | nil => exact hin
        | cons a b => exact ⟨hin.1, hin.2.1⟩
      obtain ⟨hiy, dy, hdy⟩ := hiy
      obtain ⟨init0, ids0, ind0, dst0, e0, g1, g2, g3, g3', g4, g5, g6, g7⟩ := C11_hnsw_count sortF hsort q
        rc L hL1 hrc [] iy rest hin (fun x hx => hL x (List.mem_cons_of_mem _ hx)) dy hdy (List.replicate L 0) (List.replicate L F32.zero)
        (by simpa using hrc) (by simpa using hrc)
      have hlen0 : ids0.length ≤ ind0.length := by
        have := congrArg List.length g4.tags
        rw [List.length_take, List.length_map] at this
        omega
      have hinit : ∀ i ∈ ids0.map (fun i => iy.tags.getD i 0), i < ix.ctx.data.length := by
        intro i hi
        obtain ⟨j, hj, rfl⟩ := List.mem_map.1 hi
        have hjn : j < iy.tags.length := by
          rw [hiy.tags]
          have := g4.good j hj
          induction this with
          | start h => exact g1 _ h
          | step _ hE _ _ =>
            obtain ⟨nb, hnb, hjm⟩ := hE
            exact hiy.graph.edges nb (List.mem_of_getElem? hnb) _ hjm
        rw [List.getD, List.getElem?_eq_getElem hjn]
        exact h.2.2.1 _ (List.getElem_mem _)
      have e := (graphSearch_spec sortF hsort ix h.1 q d hd [] (by simp)
        (ids0.map (fun i => iy.tags.getD i 0)) hinit rc L hL1 (hL ix (by simp)) ind dst).2 (by omega)
      have : hnswSearch sortF q rc L (ix :: iy :: rest) ind dst filters = .error .ub := by
        unfold hnswSearch
        rw [e0]
        simp only [Res.ok_bind]
        rw [g4.tags, Nat.sub_eq_zero_of_le hlen0]
        simpa using e
      rw [this]
      simp [hrc, hok]
  · have : hnswSearch sortF q rc L (ix :: iy :: rest) ind dst filters = .error .ub :=
      deep (by omega) (iy :: rest) ix filters h hL ind dst (by simp) (by simp)
    rw [this]
    simp [hrc]

/-- **C12 (entry points, list size 0, negative).** With `L = 0` two distinct entry points already
overrun the one-entry list. -/
theorem C12_zero_list_size_unsafe {V : Type} (sortF : List Nbr → List Nbr) (c : Ctx V) (q : V)
    (filters : List Label) (adj : Nat → List (List Nat)) (a b : Nat) (init : List Nat) (hab : a ≠ b)
    (ha : a < c.data.length) (hb : b < c.data.length) :
    greedySearch sortF c q filters 0 adj (a :: b :: init) = .error .ub := by
  have h0 : resizePool [] (u32 (0 + 1)) = [Nbr.dflt] := rfl
  unfold greedySearch greedySearchF greedyStart
  have : initLoop c q 0 (a :: b :: init) ⟨resizePool [] (u32 (0 + 1)), 0, [], 0, 0⟩ = .error .ub := by
    rw [h0]
    simp [initLoop, rd_ok ha, rd_ok hb, wr, Ne.symm hab]
  rw [this]
  rfl

/-- **C13, partial (graph indices).** What Vamana, RelativeNG and HNSW write to `indices` are the tags
of the points whose distances they write to `distances`.  Missing: IVF and LSH, for which the claim is
false (see `C13_ivf_reports_positions`, `C13_lsh_tag_out_of_range`). -/
theorem C13_graph_results_are_tags_partial {V : Type} (sortF : List Nbr → List Nbr) (hsort : IsStdSort sortF)
    (ix : GIdx V) (inner : List (GIdx V)) (q : V) (h : HnswOK q (ix :: inner))
    (d : Nat → F32) (hdist : ix.Dist q d)
    (filters : List Label) (hlab : filters ≠ [] → ix.ctx.labels.length = ix.ctx.data.length)
    (rc L : Nat) (hL1 : 1 ≤ L) (hL : ∀ iz ∈ ix :: inner, Spec.ListFits iz.ctx.data.length L) (hrc : rc ≤ L)
    (ind : List Nat) (dst : List F32)
    (hind : rc ≤ ind.length) (hdst : rc ≤ dst.length) :
    ∀ r ∈ [vamanaSearch sortF ix q rc L ind dst filters, rngSearch sortF ix q rc L ind dst filters,
           hnswSearch sortF q rc L (ix :: inner) ind dst filters],
      ∃ (ids ind' : List Nat) (dst' : List F32), r = .ok (ind', dst', ids.length) ∧ (∀ i ∈ ids, i < ix.ctx.data.length) ∧
        ind'.take ids.length = ids.map (fun i => ix.tags.getD i 0) ∧ dst'.take ids.length = ids.map d := by
  have hix : ix.OK := by
    cases inner with
    | nil => exact h.1
    | cons a b => exact h.1
  have reach_lt : ∀ (P : Nat → Prop) (init : List Nat) (i : Nat), (∀ i ∈ init, i < ix.ctx.data.length) →
      Reach ix.graph P init i → i < ix.ctx.data.length := by
    intro P init i hi hr
    induction hr with
    | start h => exact hi _ h
    | step _ hE _ _ =>
      obtain ⟨nb, hnb, hjm⟩ := hE
      exact hix.graph.edges nb (List.mem_of_getElem? hnb) _ hjm
  intro r hr
  simp only [List.mem_cons, List.not_mem_nil, or_false] at hr
  rcases hr with rfl | rfl | rfl
  · obtain ⟨ids, ind', dst', e, _, hr, _⟩ := C11_vamana_count sortF hsort ix hix q d hdist filters hlab rc L
      hL1 (hL ix (by simp)) hrc ind dst hind hdst
    exact ⟨ids, ind', dst', e, fun i hi => reach_lt _ _ i (vamanaInit_lt hix filters) (hr.good i hi),
      hr.tags, hr.dists⟩
  · obtain ⟨ids, ind', dst', e, _, hr, _⟩ := C11_rng_count sortF hsort ix hix q d hdist filters rc L
      hL1 (hL ix (by simp)) hrc ind dst hind hdst
    exact ⟨ids, ind', dst', e, fun i hi => reach_lt _ _ i (by simpa using hix.start) (hr.good i hi),
      hr.tags, hr.dists⟩
  · obtain ⟨init, ids, ind', dst', e, hi, _, _, _, hr, _⟩ := C11_hnsw_count sortF hsort q rc L
      hL1 hrc filters ix inner h hL d hdist ind dst hind hdst
    exact ⟨ids, ind', dst', e, fun i hi' => reach_lt _ _ i hi (hr.good i hi'), hr.tags, hr.dists⟩

/-! ## C10 -/

/-- **C10 (negative, RelativeNG and HNSW).** The answer does not depend on the filter at all. -/
theorem C10_rng_hnsw_ignore_filter {V : Type} (sortF : List Nbr → List Nbr) (ix : GIdx V)
    (inner : List (GIdx V)) (q : V) (rc L : Nat) (ind : List Nat) (dst : List F32) (filters : List Label) :
    rngSearch sortF ix q rc L ind dst filters = rngSearch sortF ix q rc L ind dst [] ∧
    hnswSearch sortF q rc L (ix :: inner) ind dst filters
      = hnswSearch sortF q rc L (ix :: inner) ind dst [] := by
  constructor
  · rfl
  · cases inner <;> rfl

/-! ## A concrete index -/

/-- `exLine` / `exGraph` with tags 100..104, start node 0 and entry points for labels "a" (point 2) and
"b" (point 3). -/
def exIdx : GIdx F32 where
  ctx := exLine
  tags := [100, 101, 102, 103, 104]
  graph := exGraph
  start := 0
  medoids := [([97], 2), ([98], 3)]

/-- Inner level of a two-level HNSW: copies of points 4 and 1 of `exIdx`. -/
def exInner : GIdx F32 where
  ctx := { exLine with data := [⟨0x40400000#32⟩, F32.one], labels := [] }
  tags := [4, 1]
  graph := [[1], [0]]
  start := 0
  medoids := []

def exD (i : Nat) : F32 := exLine.data.getD i F32.zero

theorem exIdx_ok : exIdx.OK := ⟨by decide, by decide, by decide, by decide, by decide⟩

theorem exInner_ok : exInner.OK := ⟨by decide, by decide, by decide, by decide, by decide⟩

theorem exIdx_dist : exIdx.Dist F32.zero exD where
  eq := by
    intro i v h
    have hl := (List.getElem?_eq_some_iff.1 h).1
    have : i = 0 ∨ i = 1 ∨ i = 2 ∨ i = 3 ∨ i = 4 := by
      have : i < 5 := hl
      omega
    rcases this with rfl | rfl | rfl | rfl | rfl <;> (cases h; decide)
  sym := by decide
  num := by decide

theorem exInner_dist : exInner.Dist F32.zero (fun i => exInner.ctx.data.getD i F32.zero) where
  eq := by
    intro i v h
    have hl := (List.getElem?_eq_some_iff.1 h).1
    have : i = 0 ∨ i = 1 := by
      have : i < 2 := hl
      omega
    rcases this with rfl | rfl <;> (cases h; decide)
  sym := by decide
  num := by decide

/-- The hypotheses of C08, C11, C12, C13 are met by `exIdx` and the two-level index. -/
example : HnswOK F32.zero [exIdx, exInner] :=
  ⟨exIdx_ok, ⟨_, exIdx_dist⟩, by decide, exInner_ok, ⟨_, exInner_dist⟩⟩

/-- Filtered Vamana search for "a" and an unknown label: two matching points, reported by tag. -/
example : vamanaSearch exSort exIdx F32.zero 3 3 [7, 7, 7, 7] (List.replicate 4 F32.nan) [[97], [120]]
    = .ok ([102, 100, 100, 7], [⟨0x40000000#32⟩, ⟨0x40a00000#32⟩, F32.fmax, F32.nan], 2) := by decide

/-- RelativeNG search with the same arguments reports point 1 (tag 101), which does not carry "a":
filters are not honoured. -/
example : rngSearch exSort exIdx F32.zero 1 3 [7] [F32.nan] [[97]] = .ok ([101], [F32.one], 1) ∧
    ¬ Matches false [] [[97]] (exIdx.ctx.labels.getD 1 []) := by decide

/-- Two-level HNSW: with `res_count = 2 ≤ L` it works, with `res_count = 3 > L` it overruns. -/
example : hnswSearch exSort F32.zero 2 2 [exIdx, exInner] [7, 7, 7] (List.replicate 3 F32.nan) []
      = .ok ([101, 103, 7], [F32.one, F32.one, F32.nan], 2) ∧
    hnswSearch exSort F32.zero 3 2 [exIdx, exInner] [7, 7, 7] (List.replicate 3 F32.nan) []
      = .error .ub := by decide

/-! ## The theorems applied to the examples -/

/-- C08: filter "a" and a label nobody carries. -/
example := C08_vamana_results_match exSort exSort_isStdSort exIdx exIdx_ok F32.zero exD exIdx_dist
  [[97], [120]] (by decide) (by decide) (by decide) 3 3 (by decide) (by decide) (by decide)
  [7, 7, 7, 7] (List.replicate 4 F32.nan) (by decide) (by decide)

example := C11_vamana_count exSort exSort_isStdSort exIdx exIdx_ok F32.zero exD exIdx_dist
  [[97], [120]] (by decide) 3 3 (by decide) (by decide) (by decide)
  [7, 7, 7, 7] (List.replicate 4 F32.nan) (by decide) (by decide)

example := C11_rng_count exSort exSort_isStdSort exIdx exIdx_ok F32.zero exD exIdx_dist
  [] 2 3 (by decide) (by decide) (by decide) [7, 7, 7] (List.replicate 3 F32.nan) (by decide) (by decide)

theorem exHnsw_ok : HnswOK F32.zero [exIdx, exInner] :=
  ⟨exIdx_ok, ⟨_, exIdx_dist⟩, by decide, exInner_ok, ⟨_, exInner_dist⟩⟩

example := C11_hnsw_count exSort exSort_isStdSort F32.zero 2 2 (by decide) (by decide) []
  exIdx [exInner] exHnsw_ok (by decide) exD exIdx_dist [7, 7, 7] (List.replicate 3 F32.nan) (by decide) (by decide)

/-- C12: two results wanted, list size 1, room for two. -/
example := C12_graph_search_safe_iff exSort exSort_isStdSort exIdx exIdx_ok F32.zero exD exIdx_dist
  [[97]] (by decide) 2 1 (by decide) (by decide) [7, 7] [F32.nan, F32.nan]

example : hnswSearch exSort F32.zero 3 2 [exIdx, exInner] [7, 7, 7] (List.replicate 3 F32.nan) []
    = .error .ub :=
  (C12_hnsw_search_safe_iff exSort exSort_isStdSort exIdx exInner [] F32.zero exHnsw_ok 3 2 (by decide)
    (by decide) _ _ []).2.2 (by decide)

example : greedySearch exSort exLine F32.zero [[97]] 0 (fun _ => exGraph) [2, 3] = .error .ub :=
  C12_zero_list_size_unsafe exSort exLine F32.zero [[97]] _ 2 3 [] (by decide) (by decide) (by decide)

example := C13_graph_results_are_tags_partial exSort exSort_isStdSort exIdx [exInner] F32.zero exHnsw_ok exD
  exIdx_dist [[97]] (by decide) 2 2 (by decide) (by decide) (by decide) [7, 7] [F32.nan, F32.nan]
  (by decide) (by decide)

example : rngSearch exSort exIdx F32.zero 1 3 [7] [F32.nan] [[97]]
    = rngSearch exSort exIdx F32.zero 1 3 [7] [F32.nan] [] :=
  (C10_rng_hnsw_ignore_filter exSort exIdx [] F32.zero 1 3 [7] [F32.nan] [[97]]).1

end Grann
