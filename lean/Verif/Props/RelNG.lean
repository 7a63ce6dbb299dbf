import Verif.Model.RelNG
import Verif.Model.Search
import Verif.Props.Greedy
import Verif.Props.Search
import Verif.Proofs.Prune
import Verif.Proofs.MapM
import Verif.Props.Medoid
/-!
# C27 — RelativeNG graphs are navigable (and C24, C26 for RelativeNG)
-/

namespace Grann

open Spec (Reach Edge IsGraph KNearest RobustPrune Reports)

/-- `D i j` is the distance between the points `i` and `j`. -/
def Ctx.IsDist {V : Type} (c : Ctx V) (D : Nat → Nat → F32) : Prop :=
  ∀ i j vi vj, c.data[i]? = some vi → c.data[j]? = some vj → D i j = c.cmp vi vj

theorem rngPool_spec {V : Type} (c : Ctx V) (D : Nat → Nat → F32) (hD : c.IsDist D) (loc : Nat)
    (hloc : loc < c.data.length) :
    rngPool c loc = .ok (((List.range c.data.length).filter (fun j => j != loc)).map
      (fun j => ⟨j, D j loc, true⟩)) := by
  unfold rngPool
  refine mapM_eq_map _ _ _ ?_
  intro j hj
  have hj : j < c.data.length := by
    have := (List.mem_filter.1 hj).1
    simpa using this
  rw [rd_ok hj, rd_ok hloc]
  simp only [Res.ok_bind]
  rw [hD j loc _ _ (List.getElem?_eq_getElem hj) (List.getElem?_eq_getElem hloc)]

theorem filter_ne_length {n loc : Nat} (h : loc < n) :
    ((List.range n).filter (fun j => j != loc)).length < n := by
  have h1 : ((List.range n).filter (fun j => j != loc)).length < (List.range n).length := by
    rw [List.length_filter_lt_length_iff_exists]
    exact ⟨loc, by simpa using h, by simp⟩
  simpa using h1

/-- The out-neighbours of one point: other points, none twice; a point is missing only if an out-neighbour
occludes it; no out-neighbour is occluded by another one listed before it. -/
theorem rngNode_spec {V : Type} (sortF : List Nbr → List Nbr) (hsort : IsStdSort sortF) (c : Ctx V)
    (div : F32 → F32 → F32) (D : Nat → Nat → F32) (hD : c.IsDist D)
    (hn : 10 ≤ c.data.length) (hn' : c.data.length < 4294967296) (loc : Nat) (hloc : loc < c.data.length) :
    ∃ nb, rngNode sortF c div loc [] = .ok nb ∧ nb.Nodup ∧ (∀ x ∈ nb, x < c.data.length ∧ x ≠ loc) ∧
      (∀ y, y < c.data.length → y ≠ loc → y ∉ nb →
        ∃ x ∈ nb, F32.one.lt (div (D y loc) (D y x)) = true) ∧
      nb.Pairwise (fun x y => F32.one.lt (div (D y loc) (D y x)) = false) := by
  obtain ⟨n, hnn⟩ : ∃ n, n = c.data.length := ⟨_, rfl⟩
  rw [← hnn] at hn hn' hloc
  simp only [← hnn]
  obtain ⟨ids, hids⟩ : ∃ ids, ids = (List.range n).filter (fun j => j != loc) := ⟨_, rfl⟩
  obtain ⟨pool, hpool⟩ : ∃ pool : List Nbr, pool = ids.map (fun j => ⟨j, D j loc, true⟩) := ⟨_, rfl⟩
  have hmem : ∀ j, j ∈ ids ↔ j < n ∧ j ≠ loc := by
    intro j; rw [hids, List.mem_filter]; simp
  have hpid : pool.map Nbr.id = ids := by rw [hpool, List.map_map]; exact List.map_id _
  have hlt : pool.length < n := by rw [hpool, List.length_map, hids]; exact filter_ne_length hloc
  have hndp : (pool.map Nbr.id).Nodup := by
    rw [hpid, hids]; exact List.nodup_range.filter _
  have hdist : ∀ x ∈ pool, x.dist = D x.id loc := by
    intro x hx
    rw [hpool] at hx
    obtain ⟨j, _, rfl⟩ := List.mem_map.1 hx
    rfl
  have hidlt : ∀ x ∈ pool, x.id < n ∧ x.id ≠ loc := fun x hx =>
    (hmem _).1 (by rw [← hpid]; exact List.mem_map_of_mem hx)
  have hne : pool ≠ [] := by
    intro h0
    have h1 : ids = [] := by rw [← hpid, h0]; rfl
    by_cases h : loc = 0
    · have := (hmem 1).2 ⟨by omega, by omega⟩
      rw [h1] at this; simp at this
    · have := (hmem 0).2 ⟨by omega, by omega⟩
      rw [h1] at this; simp at this
  have hmod : u32 n = n := Nat.mod_eq_of_lt hn'
  obtain ⟨I, h1, h2⟩ := pruneAlpha_spec sortF hsort ⟨c, false, div⟩ F32.one (by decide) n n loc pool hne
    (fun x hx => ⟨by rw [← hnn]; exact (hidlt x hx).1, by intro h; cases h⟩) []
  have hperm := hsort.perm pool
  have htake : (sortF pool).take n = sortF pool := by
    apply List.take_of_length_le
    rw [hperm.length_eq]; omega
  rw [htake] at h1 h2
  have hsub := pickAt_sublist (sortF pool) I h2.increasing
  have hpm : ∀ x ∈ pickAt (sortF pool) I, x ∈ pool := fun x hx => hperm.mem_iff.1 (hsub.subset hx)
  have hocc : ∀ x ∈ pool, ∀ y ∈ pool, Occludes ⟨c, false, div⟩ F32.one x y ↔
      F32.one.lt (div (D y.id loc) (D y.id x.id)) = true := by
    intro x hx y hy
    have h3 := (hidlt x hx).1
    have h4 := (hidlt y hy).1
    rw [hnn] at h3 h4
    unfold Occludes
    rw [← hdist y hy]
    constructor
    · rintro ⟨_, vx, vy, e1, e2, e3⟩
      rw [hD _ _ _ _ e2 e1]
      exact e3
    · intro h
      refine ⟨(by intro h; cases h), _, _, List.getElem?_eq_getElem h3, List.getElem?_eq_getElem h4, ?_⟩
      rw [← hD _ _ _ _ (List.getElem?_eq_getElem h4) (List.getElem?_eq_getElem h3)]
      exact h
  refine ⟨(pickAt (sortF pool) I).map Nbr.id, ?_, ?_, ?_, ?_, ?_⟩
  · unfold rngNode
    rw [← hnn, hmod, if_neg (by unfold u32; omega), rngPool_spec c D hD loc (by rw [← hnn]; exact hloc),
      ← hnn, ← hids, ← hpool, Res.ok_bind, h1]
    simp
  · have : ((sortF pool).map Nbr.id).Nodup := (hperm.map Nbr.id).nodup_iff.2 hndp
    exact this.sublist (hsub.map _)
  · intro x hx
    obtain ⟨y, hy, rfl⟩ := List.mem_map.1 hx
    exact hidlt y (hpm y hy)
  · intro y hy hyl hnot
    have hyp : y ∈ (sortF pool).map Nbr.id := by
      rw [(hperm.map Nbr.id).mem_iff, hpid]; exact (hmem y).2 ⟨hy, hyl⟩
    obtain ⟨z, hz, rfl⟩ := List.mem_map.1 hyp
    obtain ⟨j, hj⟩ := List.getElem?_of_mem hz
    have hjI : j ∉ I := by
      intro hjI
      exact hnot (List.mem_map_of_mem (List.mem_filterMap.2 ⟨j, hjI, hj⟩))
    rcases h2.reason j z hj hjI with hc | ⟨i, hi, _, x, hx, hd⟩ | ⟨hc, _⟩
    · exact absurd hc hyl
    · have hxm : x ∈ pickAt (sortF pool) I := List.mem_filterMap.2 ⟨i, hi, hx⟩
      exact ⟨x.id, List.mem_map_of_mem hxm, (hocc x (hpm x hxm) z (hperm.mem_iff.1 hz)).1 hd⟩
    · exfalso
      have := hsub.length_le
      rw [pickAt_length h2.inRange, hperm.length_eq] at this
      omega
  · rw [List.pairwise_map]
    have key : ∀ J : List Nat, J.Pairwise (· < ·) → (∀ i ∈ J, i ∈ I) →
        (pickAt (sortF pool) J).Pairwise
          (fun x y => F32.one.lt (div (D y.id loc) (D y.id x.id)) = false) := by
      intro J
      induction J with
      | nil => intro _ _; exact .nil
      | cons i J ih =>
        intro hJ hsubI
        rw [List.pairwise_cons] at hJ
        have hil := h2.inRange i (hsubI i (by simp))
        unfold pickAt
        rw [List.filterMap_cons, List.getElem?_eq_getElem hil]
        simp only
        rw [List.pairwise_cons]
        refine ⟨?_, ih hJ.2 (fun j hj => hsubI j (by simp [hj]))⟩
        intro y hy
        obtain ⟨j, hj, hjy⟩ := List.mem_filterMap.1 hy
        have hno := h2.undominated i (hsubI i (by simp)) j (hsubI j (by simp [hj])) (hJ.1 j hj) _ _
          (List.getElem?_eq_getElem hil) hjy
        rw [hocc _ (hperm.mem_iff.1 (List.getElem_mem hil)) y
          (hperm.mem_iff.1 (List.mem_of_getElem? hjy))] at hno
        simpa using hno
    exact key I h2.increasing (fun i hi => hi)

/-- **C27, the graph.** For every data set of 10 to 2^32 - 1 points the construction succeeds, and gives a
relative neighbourhood graph: each out-neighbour list consists of other indexed points, none twice (C24 for
RelativeNG); a point `y` is missing from the list of `v` only if some out-neighbour `x` of `v` has
`dist(y, v) / dist(y, x) > 1`, and never if such an `x` is listed before it. -/
theorem C27_relative_neighbourhood_graph {V : Type} (sortF : List Nbr → List Nbr) (hsort : IsStdSort sortF)
    (c : Ctx V) (div : F32 → F32 → F32) (D : Nat → Nat → F32) (hD : c.IsDist D)
    (hn : 10 ≤ c.data.length) (hn' : c.data.length < 4294967296) :
    ∃ g, rngGraph sortF c div (List.replicate c.data.length []) = .ok g ∧ IsGraph c.data.length g ∧
      ∀ (v : Nat) (nb : List Nat), g[v]? = some nb → nb.Nodup ∧ v ∉ nb ∧
        (∀ y, y < c.data.length → y ≠ v → y ∉ nb →
          ∃ x ∈ nb, F32.one.lt (div (D y v) (D y x)) = true) ∧
        nb.Pairwise (fun x y => F32.one.lt (div (D y v) (D y x)) = false) := by
  have hl : ∀ (i : Nat) (p : List Nat × Nat), (List.replicate c.data.length ([] : List Nat)).zipIdx[i]? = some p →
      p = ([], i) ∧ i < c.data.length := by
    intro i p hp
    rw [List.getElem?_zipIdx] at hp
    obtain ⟨a, ha, rfl⟩ := Option.map_eq_some_iff.1 hp
    have h1 : a = [] := List.eq_of_mem_replicate (List.mem_of_getElem? ha)
    have h2 := (List.getElem?_eq_some_iff.1 ha).1
    subst h1
    refine ⟨by simp, by simpa using h2⟩
  obtain ⟨g, e, hlen, hg⟩ := mapM_ok (fun p : List Nat × Nat => rngNode sortF c div p.2 p.1)
    ((List.replicate c.data.length ([] : List Nat)).zipIdx) (by
      intro p hp
      obtain ⟨i, hi⟩ := List.getElem?_of_mem hp
      obtain ⟨rfl, h2⟩ := hl i p hi
      obtain ⟨nb, h, _⟩ := rngNode_spec sortF hsort c div D hD hn hn' i h2
      exact ⟨nb, h⟩)
  have hglen : g.length = c.data.length := by simpa using hlen
  have hspec : ∀ (v : Nat) (nb : List Nat), g[v]? = some nb → v < c.data.length ∧
      rngNode sortF c div v [] = .ok nb := by
    intro v nb hv
    have hvl : v < c.data.length := by rw [← hglen]; exact (List.getElem?_eq_some_iff.1 hv).1
    have hz : (List.replicate c.data.length ([] : List Nat)).zipIdx[v]? = some ([], v) := by
      rw [List.getElem?_zipIdx]; simp [hvl]
    obtain ⟨y, h1, h2⟩ := hg v _ hz
    rw [hv] at h1
    cases h1
    exact ⟨hvl, h2⟩
  refine ⟨g, e, ⟨hglen, ?_⟩, ?_⟩
  · intro nb hnb j hj
    obtain ⟨v, hv⟩ := List.getElem?_of_mem hnb
    obtain ⟨hvl, h⟩ := hspec v nb hv
    obtain ⟨nb', h', _, h3, _⟩ := rngNode_spec sortF hsort c div D hD hn hn' v hvl
    rw [h] at h'
    cases h'
    exact (h3 j hj).1
  · intro v nb hv
    obtain ⟨hvl, h⟩ := hspec v nb hv
    obtain ⟨nb', h', h2, h3, h4, h5⟩ := rngNode_spec sortF hsort c div D hD hn hn' v hvl
    rw [h] at h'
    cases h'
    exact ⟨h2, fun hm => (h3 v hm).2 rfl, h4, h5⟩

/-- **C27, the search.** Let `g` be the graph built for a data set with non-negative (numeric) distances, and a division for which a quotient of two non-negative numbers exceeds 1 only if the
dividend is larger (true of every correctly rounded division).  Let the query have the same distances as a
stored point `t` (e.g. be equal to it).  Then for every entry point and every list size `L ≥ 1` the first
point of the answer is at most as far from the query as `t`; so if `t` is a nearest point, a nearest point is
found. -/
theorem C27_stored_vector_found {V : Type} (sortF : List Nbr → List Nbr) (hsort : IsStdSort sortF)
    (c : Ctx V) (div : F32 → F32 → F32) (D : Nat → Nat → F32) (hD : c.IsDist D)
    (hn : 10 ≤ c.data.length) (hn' : c.data.length < 4294967296)
    (hnn : ∀ i j, i < c.data.length → j < c.data.length → F32.zero.le (D i j) = true)
    (hdiv : ∀ a b, F32.zero.le a = true → F32.zero.le b = true → F32.one.lt (div a b) = true → b.lt a = true)
    (q : V) (t : Nat) (ht : t < c.data.length)
    (hq : ∀ i v, c.data[i]? = some v → c.cmp q v = D t i ∧ c.cmp v q = D t i)
    (start : Nat) (hstart : start < c.data.length) (L : Nat) (hL1 : 1 ≤ L) (hL : Spec.ListFits c.data.length L) :
    ∃ g s b rest, rngGraph sortF c div (List.replicate c.data.length []) = .ok g ∧
      greedySearch sortF c q [] L (fun _ => g) [start] = .ok s ∧
      s.ps.answer = b :: rest ∧ b.1 < c.data.length ∧ b.2 = D t b.1 ∧ b.2.le (D t t) = true := by
  obtain ⟨g, eg, hg, hrng⟩ := C27_relative_neighbourhood_graph sortF hsort c div D hD hn hn'
  have hdd : ∀ i v, c.data[i]? = some v → D t i = c.cmp q v := fun i v h => (hq i v h).1.symm
  have hsy : ∀ v ∈ c.data, c.cmp v q = c.cmp q v := by
    intro v hv
    obtain ⟨i, hi⟩ := List.getElem?_of_mem hv
    rw [(hq i v hi).1, (hq i v hi).2]
  have hnum : ∀ i, i < c.data.length → (D t i).IsNum := fun i hi => F32.isNum_of_le_right (hnn t i ht hi)
  have hin : ∀ i ∈ [start], i < c.data.length := by simpa using hstart
  obtain ⟨s, es, hexp, _, S, hK, hclosed, hreach, hexS⟩ := C06_fixed_point sortF hsort c q [] L g [start]
    (D t) hdd hsy hL1 hL (fun h => absurd rfl h) hg hin hnum
  obtain ⟨s', es', _, hmem, _, hne, _⟩ := C04_graph_search_answer sortF hsort c q [] L (fun _ => g) [start]
    (D t) hdd hsy hL1 hL (fun h => absurd rfl h) (fun _ => hg) hin
  rw [es] at es'
  cases es'
  have hne := hne (by simp)
  cases hans : s.ps.answer with
  | nil => exact absurd hans hne
  | cons b rest =>
    have hbm : b ∈ s.ps.answer := by rw [hans]; simp
    obtain ⟨hbS, hbd⟩ := hK.mem b hbm
    have hbn := (hmem b hbm).1
    have hbnum := hnum b.1 hbn
    have hbest : ∀ i ∈ S, b.2.le (D t i) = true := by
      intro i hi
      by_cases hia : i ∈ s.ps.answer.map Prod.fst
      · obtain ⟨x, hx, rfl⟩ := List.mem_map.1 hia
        rw [← (hK.mem x hx).2]
        rw [hans] at hx
        rcases List.mem_cons.1 hx with rfl | hx
        · rw [hbd]; exact F32.le_refl hbnum
        · have := hK.sorted
          rw [hans, List.pairwise_cons] at this
          exact this.1 x hx
      · exact hK.best i hi hia b hbm
    refine ⟨g, s, b, rest, eg, es, hans, hbn, hbd, ?_⟩
    by_contra hcon
    have hlt : (D t t).lt b.2 = true := by
      rw [← F32.not_le_iff_lt (by rw [hbd]; exact hbnum) (hnum t ht)]
      simpa using hcon
    have hbt : b.1 ≠ t := by
      intro h
      rw [hbd, h, F32.lt_irrefl] at hlt
      cases hlt
    have hacc : ∀ j, filterAccepts c [] j = .ok true := fun j => by simp [filterAccepts]
    obtain ⟨y, hy, hyb⟩ := List.mem_map.1 (hexp b hbm)
    have hgb : b.1 < g.length := by rw [hg.len]; exact hbn
    have hedge : ∀ j ∈ g[b.1], j ∈ S := by
      intro j hj
      exact hclosed y hy j (by rw [hyb]; exact ⟨_, List.getElem?_eq_getElem hgb, hj⟩) (hacc j)
    obtain ⟨_, _, hocc, _⟩ := hrng b.1 _ (List.getElem?_eq_getElem hgb)
    by_cases htb : t ∈ g[b.1]
    · exact hcon (hbest t (hedge t htb))
    · obtain ⟨x, hx, hd⟩ := hocc t ht (Ne.symm hbt) htb
      have hxn : x < c.data.length := hg.edges _ (List.getElem_mem hgb) x hx
      have h1 := hdiv _ _ (hnn t b.1 ht hbn) (hnn t x ht hxn) hd
      have h2 := hbest x (hedge x hx)
      rw [hbd] at h2
      have := F32.lt_of_lt_of_le h1 h2
      rw [F32.lt_irrefl] at this
      cases this

/-- **C27, the whole index.** Build and search together, as called by a user: the first reported distance
is at most that of the stored vector. -/
theorem C27_index_finds_stored_vector {V : Type} (sortF : List Nbr → List Nbr) (hsort : IsStdSort sortF)
    (c : Ctx V) (div : F32 → F32 → F32) (D : Nat → Nat → F32) (hD : c.IsDist D)
    (hn : 10 ≤ c.data.length) (hn' : c.data.length < 4294967296)
    (hsymm : ∀ i j, i < c.data.length → j < c.data.length → D i j = D j i)
    (hnn : ∀ i j, i < c.data.length → j < c.data.length → F32.zero.le (D i j) = true)
    (hdiv : ∀ a b, F32.zero.le a = true → F32.zero.le b = true → F32.one.lt (div a b) = true → b.lt a = true)
    (t : Nat) (v : V) (hv : c.data[t]? = some v)
    (start : Nat) (hstart : start < c.data.length) (tags : List Nat) (htags : tags.length = c.data.length)
    (rc L : Nat) (hrc : 1 ≤ rc) (hL : Spec.ListFits c.data.length L) (hrcL : rc ≤ L)
    (ind : List Nat) (dst : List F32) (hind : rc ≤ ind.length) (hdst : rc ≤ dst.length) :
    ∃ g ind' dst' cnt b, rngGraph sortF c div (List.replicate c.data.length []) = .ok g ∧
      rngSearch sortF ⟨c, tags, g, start, []⟩ v rc L ind dst [] = .ok (ind', dst', cnt) ∧ 1 ≤ cnt ∧
      b < c.data.length ∧ ind'[0]? = tags[b]? ∧ dst'[0]? = some (D t b) ∧ (D t b).le (D t t) = true := by
  have ht : t < c.data.length := (List.getElem?_eq_some_iff.1 hv).1
  have hq : ∀ i w, c.data[i]? = some w → c.cmp v w = D t i ∧ c.cmp w v = D t i := by
    intro i w hw
    refine ⟨(hD t i v w hv hw).symm, ?_⟩
    rw [← hD i t w v hw hv]
    exact hsymm i t (List.getElem?_eq_some_iff.1 hw).1 ht
  obtain ⟨g, s, b, rest, eg, es, hans, hb1, hb2, hb3⟩ := C27_stored_vector_found sortF hsort c div D hD hn hn'
    hnn hdiv v t ht hq start hstart L (by omega) hL
  obtain ⟨g', eg', hg, _⟩ := C27_relative_neighbourhood_graph sortF hsort c div D hD hn hn'
  rw [eg] at eg'
  cases eg'
  -- the copy loop
  obtain ⟨s2, c0, e2, hi, _⟩ := greedy_general sortF hsort c v [] L (fun _ => g) [start] (D t)
    (fun i w h => (hq i w h).1.symm)
    (by
      intro w hw
      obtain ⟨i, hi⟩ := List.getElem?_of_mem hw
      rw [(hq i w hi).1, (hq i w hi).2])
    (by omega) hL (fun h => absurd rfl h) (fun _ => hg) (by simpa using hstart) (fun _ => True)
    (fun _ _ => trivial) (fun _ _ _ _ _ _ => trivial) _ (Nat.le_refl _)
  have : s2 = s := by
    unfold greedySearch at es
    rw [es] at e2
    cases e2
    rfl
  subst this
  have hpn : ∀ x ∈ s2.ps.pool, x.id < tags.length := by
    rw [htags]
    exact greedySearchF_mem hsort es (fun _ => hg.edges) (by simpa using hstart) (by omega)
  have hplen : rc ≤ s2.ps.pool.length := by rw [hi.sinv.len]; omega
  have hpool0 : ∃ x, s2.ps.pool[0]? = some x ∧ x.id = b.1 ∧ x.dist = b.2 := by
    have hl : s2.ps.live.map Nbr.pair = b :: rest := by rw [← answer_eq]; exact hans
    have h0 : (s2.ps.live.map Nbr.pair)[0]? = some b := by rw [hl]; rfl
    rw [List.getElem?_map] at h0
    obtain ⟨x, hx, rfl⟩ := Option.map_eq_some_iff.1 h0
    refine ⟨x, ?_, rfl, rfl⟩
    unfold PoolSt.live at hx
    rw [List.getElem?_take] at hx
    split at hx
    · exact hx
    · cases hx
  have hcur : 1 ≤ s2.ps.cur := by
    have := answer_length hi.sinv
    rw [hans] at this
    simp at this
    omega
  obtain ⟨x, hx0, hxid, hxd⟩ := hpool0
  obtain ⟨ind', dst', ec, hi0, hd0⟩ : ∃ ind' dst', copyOut tags s2.ps.pool rc 0 ind dst = .ok (ind', dst') ∧
      ind'[0]? = tags[b.1]? ∧ dst'[0]? = some b.2 := by
    have gen : ∀ (todo i : Nat) (ind : List Nat) (dst : List F32), i + todo ≤ s2.ps.pool.length →
        i + todo ≤ ind.length → i + todo ≤ dst.length →
        ∃ ind' dst', copyOut tags s2.ps.pool todo i ind dst = .ok (ind', dst') ∧
          (1 ≤ i → ind'[0]? = ind[0]? ∧ dst'[0]? = dst[0]?) := by
      intro todo
      induction todo with
      | zero => intro i ind dst _ _ _; exact ⟨ind, dst, rfl, fun _ => ⟨rfl, rfl⟩⟩
      | succ todo ih =>
        intro i ind dst h1 h2 h3
        have hp : i < s2.ps.pool.length := by omega
        have htg := hpn _ (List.getElem_mem hp)
        obtain ⟨ind', dst', e, hk⟩ := ih (i + 1) (ind.set i tags[(s2.ps.pool[i]).id])
          (dst.set i (s2.ps.pool[i]).dist) (by omega) (by rw [List.length_set]; omega)
          (by rw [List.length_set]; omega)
        refine ⟨ind', dst', ?_, ?_⟩
        · unfold copyOut
          rw [rd_ok hp, Res.ok_bind, rd_ok htg, Res.ok_bind, wr_ok (by omega), Res.ok_bind,
            wr_ok (by omega), Res.ok_bind]
          exact e
        · intro hi1
          obtain ⟨h4, h5⟩ := hk (by omega)
          rw [h4, h5, List.getElem?_set_ne (by omega), List.getElem?_set_ne (by omega)]
          exact ⟨rfl, rfl⟩
    cases rc with
    | zero => omega
    | succ r =>
      have hp : 0 < s2.ps.pool.length := by omega
      have hx : s2.ps.pool[0] = x := by
        rw [List.getElem?_eq_getElem hp] at hx0; cases hx0; rfl
      have htg := hpn _ (List.getElem_mem hp)
      obtain ⟨ind', dst', e, hk⟩ := gen r 1 (ind.set 0 tags[(s2.ps.pool[0]).id])
        (dst.set 0 (s2.ps.pool[0]).dist) (by omega) (by rw [List.length_set]; omega)
        (by rw [List.length_set]; omega)
      obtain ⟨h4, h5⟩ := hk (by omega)
      refine ⟨ind', dst', ?_, ?_, ?_⟩
      · unfold copyOut
        rw [rd_ok hp, Res.ok_bind, rd_ok htg, Res.ok_bind, wr_ok (by omega), Res.ok_bind,
          wr_ok (by omega), Res.ok_bind]
        exact e
      · rw [h4, List.getElem?_set_self (by omega), ← hxid, ← hx, List.getElem?_eq_getElem htg]
      · rw [h5, List.getElem?_set_self (by omega), ← hxd, ← hx]
  refine ⟨g, ind', dst', min rc s2.ps.cur, b.1, eg, ?_, by omega, hb1, hi0, ?_, ?_⟩
  · unfold rngSearch graphSearch
    simp only
    rw [es, Res.ok_bind, ec]
    rfl
  · rw [hd0, hb2]
  · rw [← hb2]; exact hb3

/-- **C26 for RelativeNG, refuted.** Below 10 points every iteration divides by zero. -/
theorem C26_rng_small_data_unsafe {V : Type} (sortF : List Nbr → List Nbr) (c : Ctx V)
    (div : F32 → F32 → F32) (hn : 1 ≤ c.data.length) (hn' : c.data.length < 10) :
    rngGraph sortF c div (List.replicate c.data.length []) = .error .ub := by
  unfold rngGraph
  obtain ⟨m, hm⟩ : ∃ m, c.data.length = m + 1 := ⟨c.data.length - 1, by omega⟩
  rw [hm, List.replicate_succ, List.zipIdx_cons, List.mapM_cons]
  unfold rngNode
  rw [if_pos (by unfold u32; omega)]
  rfl

/-! ## A concrete index -/

/-- Ten points on a line. -/
def exRng : Ctx Nat where
  data := [49, 50, 54, 46, 55, 45, 56, 44, 57, 44]
  labels := []
  useUniv := true
  univ := [48]
  cmp := exSq

def exRngD (i j : Nat) : F32 := exSq (exRng.data.getD i 0) (exRng.data.getD j 0)

/-- The hypotheses of C27 are met: symmetric non-negative distances and a division with the stated
property; the graph is what one expects on a line (two points coincide), and point 8 (57), at the end of
the line, is found from point 7 (44), at the other end, with a list of size 1. -/
example : exRng.IsDist exRngD ∧ (∀ i j, exRngD i j = exRngD j i) ∧
    (∀ i < 10, ∀ j < 10, F32.zero.le (exRngD i j) = true) ∧
    (∀ a b, F32.zero.le a = true → F32.zero.le b = true → F32.one.lt (exDiv1 a b) = true → b.lt a = true) ∧
    rngGraph exSort exRng exDiv1 (List.replicate 10 []) =
      .ok [[1, 3], [0, 2], [4, 1], [5, 0], [2, 6], [3, 7], [4, 8], [9, 5], [6], [7, 5]] ∧
    (do let g ← rngGraph exSort exRng exDiv1 (List.replicate 10 [])
        let s ← greedySearch exSort exRng 57 [] 1 (fun _ => g) [7]
        .ok s.ps.answer : Res _) = .ok [(8, F32.zero)] := by
  refine ⟨?_, fun i j => exSq_comm _ _, by decide +kernel, ?_, by decide +kernel, by decide +kernel⟩
  · intro i j vi vj hi hj
    unfold exRngD
    rw [List.getD_eq_getElem?_getD, List.getD_eq_getElem?_getD, hi, hj]
    rfl
  · intro a b _ _ h
    unfold exDiv1 at h
    split at h
    · assumption
    · rw [F32.lt_irrefl] at h; cases h

/-! ## The theorems applied to the examples -/

theorem exRng_isDist : exRng.IsDist exRngD := by
  intro i j vi vj hi hj
  unfold exRngD
  rw [List.getD_eq_getElem?_getD, List.getD_eq_getElem?_getD, hi, hj]
  rfl

theorem exDiv1_gt : ∀ a b, F32.zero.le a = true → F32.zero.le b = true →
    F32.one.lt (exDiv1 a b) = true → b.lt a = true := by
  intro a b _ _ h
  unfold exDiv1 at h
  split at h
  · assumption
  · rw [F32.lt_irrefl] at h; cases h

example := C27_relative_neighbourhood_graph exSort exSort_isStdSort exRng exDiv1 exRngD exRng_isDist
  (by decide) (by decide)

theorem exRngD_nonneg : ∀ i j, i < exRng.data.length → j < exRng.data.length →
    F32.zero.le (exRngD i j) = true := by
  have h : ∀ i < 10, ∀ j < 10, F32.zero.le (exRngD i j) = true := by decide +kernel
  exact fun i j hi hj => h i hi j hj

/-- The query is point 8; the search starts at point 7, with a list of one entry. -/
example := C27_stored_vector_found exSort exSort_isStdSort exRng exDiv1 exRngD exRng_isDist (by decide)
  (by decide) exRngD_nonneg exDiv1_gt 57 8 (by decide)
  (by
    intro i v h
    have e : exRngD 8 i = exSq 57 v := exRng_isDist 8 i 57 v rfl h
    exact ⟨e.symm, (exSq_comm _ _).trans e.symm⟩)
  7 (by decide) 1 (by decide) (by decide)

example := C27_index_finds_stored_vector exSort exSort_isStdSort exRng exDiv1 exRngD exRng_isDist (by decide)
  (by decide) (fun i j _ _ => exSq_comm _ _) exRngD_nonneg exDiv1_gt 8 57 rfl 7
  (by decide) (List.range 10) (by decide) 2 3 (by decide) (by decide) (by decide) [0, 0]
  [F32.nan, F32.nan] (by decide) (by decide)

example : rngGraph exSort { exRng with data := [4, 9] } exDiv1 [[], []] = .error .ub :=
  C26_rng_small_data_unsafe exSort { exRng with data := [4, 9] } exDiv1 (by decide) (by decide)

end Grann
