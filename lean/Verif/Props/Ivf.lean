import Verif.Proofs.Ivf
import Verif.Props.Centers
import Verif.Props.Pool
import Verif.Spec.Probe
/-!
# C14 – C16 and the IVF parts of C08, C11, C12, C13
-/

namespace Grann

open Spec (KNearest Matches Reports FirstNearest Probed ClusterAnswer)

/-! ## C14 -/

theorem flatten_filter_perm (L : List (Nat × Nat)) : ∀ m : Nat,
    ((List.range m).flatMap (fun c => (L.filter (fun p => p.1 == c)).map Prod.snd)).Perm
      ((L.filter (fun p => decide (p.1 < m))).map Prod.snd) := by
  intro m
  induction m with
  | zero => simp
  | succ m ih =>
    rw [List.range_succ, List.flatMap_append]
    refine (ih.append_right _).trans ?_
    simp only [List.flatMap_cons, List.flatMap_nil, List.append_nil]
    rw [← List.map_append]
    refine List.Perm.map _ ?_
    have h := List.filter_append_perm (fun p : Nat × Nat => decide (p.1 < m))
      (L.filter (fun p => decide (p.1 < m + 1)))
    rw [List.filter_filter, List.filter_filter] at h
    refine List.Perm.trans (List.Perm.of_eq ?_) h
    congr 1
    · apply List.filter_congr
      intro p _
      rw [Bool.eq_iff_iff]; simp; omega
    · apply List.filter_congr
      intro p _
      rw [Bool.eq_iff_iff]; simp; omega

theorem pick_one {pops : List F32 → List Nat} {row : List F32} (hnum : ∀ x ∈ row, x.IsNum) (c : Nat) (h : c ∈ pick 1 pops row) :
    FirstNearest row c := by
  unfold pick at h
  rw [if_pos rfl, Option.mem_toList] at h
  rcases argminLoop_spec row 0 F32.fmax none with ⟨_, e⟩ | ⟨i, hi, e, _, h3⟩
  · rw [e] at h; cases h
  · rw [e, Nat.zero_add] at h
    cases h
    obtain ⟨h4, h5⟩ := h3 hnum
    refine ⟨row[c], List.getElem?_eq_getElem hi, h4, fun j hj y hy => ?_⟩
    rw [List.getElem?_eq_getElem (by omega)] at hy
    cases hy
    exact h5 j hj

theorem firstNearest_unique {row : List F32} {c c' : Nat} (h : FirstNearest row c) (h' : FirstNearest row c') : c = c' := by
  obtain ⟨x, e, h1, h2⟩ := h
  obtain ⟨x', e', h1', h2'⟩ := h'
  rcases Nat.lt_trichotomy c c' with hc | hc | hc
  · exact absurd (F32.lt_of_lt_of_le (h2' c hc x e) (h1 x' (List.mem_of_getElem? e'))) (by rw [F32.lt_irrefl]; exact Bool.false_ne_true)
  · exact hc
  · exact absurd (F32.lt_of_lt_of_le (h2 c' hc x' e') (h1' x (List.mem_of_getElem? e))) (by rw [F32.lt_irrefl]; exact Bool.false_ne_true)

/-- **C14.** For every set of at least one centre (`nc ≥ 1`), every data set of at least one point and
every order in which the threads append: the inverted lists together contain every point exactly once,
and a point is in the list of the first centre that no other centre is closer than, and in no other.  (Distances NaN-free,
each point has a centre at a distance below `FLT_MAX`.) -/
theorem C14_inverted_lists_partition (nc : Nat) (hnc : 1 ≤ nc) (pops : List F32 → List Nat)
    (hpops : IsPopOrder pops)
    (sched : Nat → List (Nat × Nat) → List (Nat × Nat)) (hsched : ∀ b l, (sched b l).Perm l)
    (rows : List (List F32)) (hn : 1 ≤ rows.length)
    (hrows : ∀ row ∈ rows, row.length = nc ∧ ∀ x ∈ row, x.IsNum)
    (hfin : ∀ row ∈ rows, ∃ x ∈ row, x.lt F32.fmax = true) :
    ∃ inv, ivfBuildLists nc pops sched rows = .ok inv ∧ inv.length = nc ∧
      inv.flatten.Perm (List.range rows.length) ∧
      ∀ (c i : Nat) (row : List F32), rows[i]? = some row → (i ∈ inv.getD c [] ↔ FirstNearest row c) := by
  have hp : ∀ row ∈ rows, _ := fun row hr =>
    pick_spec hpops (hrows row hr).1 hnc (hrows row hr).2 (fun _ => hfin row hr)
  obtain ⟨inv', e, _, h2⟩ := closestCenters_spec (maxBlk := 1000000) (nc := nc) (k := 1) (pops := pops)
    hsched (rows := rows) (out0 := List.replicate rows.length 0)
    (inv0 := some (List.replicate nc [])) (by decide) hn hnc (fun r hr => (hp r hr).1)
    (fun r hr => (hp r hr).2.1) (by intro i h; cases h; simp) (by simp)
  obtain ⟨inv, hi, hil, hperm⟩ := h2 _ rfl
  rw [List.length_replicate] at hil
  have hrep : ∀ c, (List.replicate nc ([] : List Nat)).getD c [] = [] := by
    intro c
    by_cases hc : c < nc
    · simp [List.getD, hc]
    · simp [List.getD, hc]
  have hap : ∀ p ∈ allPush 1 pops rows, ∃ (row : List F32), rows[p.2]? = some row ∧ p.1 ∈ pick 1 pops row := by
    intro p hp'
    unfold allPush at hp'
    obtain ⟨l, hl, hpl⟩ := List.mem_flatten.1 hp'
    obtain ⟨j, hj, rfl⟩ := List.mem_mapIdx.1 hl
    obtain ⟨c, hc, rfl⟩ := List.mem_map.1 hpl
    exact ⟨rows[j], List.getElem?_eq_getElem hj, hc⟩
  have hsnd : (allPush 1 pops rows).map Prod.snd = List.range rows.length := by
    have hone : ∀ row ∈ rows, ∃ c, pick 1 pops row = [c] := fun row hr =>
      List.length_eq_one_iff.1 (hp row hr).1
    unfold allPush
    rw [List.map_flatten]
    have : (rows.mapIdx (fun j row => (pick 1 pops row).map (fun c => (c, j)))).map (List.map Prod.snd)
        = (List.range rows.length).map (fun j => [j]) := by
      apply List.ext_getElem
      · simp
      · intro j h1 h2
        simp only [List.length_map, List.length_range] at h2
        obtain ⟨c, hc⟩ := hone _ (List.getElem_mem h2)
        simp [hc]
    rw [this, ← List.flatMap_def]
    simp
  refine ⟨inv, ?_, hil, ?_, ?_⟩
  · unfold ivfBuildLists
    rw [e]
    simp only [Res.ok_bind]
    rw [hi]
  · have h1 : inv.flatten = (List.range nc).flatMap (fun c => inv.getD c []) := by
      rw [List.flatMap_def]
      congr 1
      apply List.ext_getElem
      · simp [hil]
      · intro i h1 h2; simp [List.getD, List.getElem?_eq_getElem h1]
    rw [h1]
    refine (List.Perm.flatMap_left _ (fun c _ => hperm c)).trans ?_
    have h3 : ∀ c, (List.replicate nc ([] : List Nat)).getD c [] ++
        ((allPush 1 pops rows).filter (fun p => p.1 == c)).map Prod.snd =
        ((allPush 1 pops rows).filter (fun p => p.1 == c)).map Prod.snd := by
      intro c; rw [hrep]; rfl
    simp only [h3]
    refine (flatten_filter_perm _ nc).trans ?_
    rw [List.filter_eq_self.2 (by
      intro p hp'
      obtain ⟨row, hr, hc⟩ := hap p hp'
      have := (hp row (List.mem_of_getElem? hr)).2.1 _ hc
      simpa using this), hsnd]
  · intro c i row hrow
    have hmem := List.mem_of_getElem? hrow
    obtain ⟨c0, hc0⟩ := List.length_eq_one_iff.1 (hp row hmem).1
    have hf0 : FirstNearest row c0 := pick_one (pops := pops) (hrows row hmem).2 c0 (by rw [hc0]; simp)
    rw [(hperm c).mem_iff, hrep, List.nil_append, List.mem_map]
    constructor
    · rintro ⟨p, hpf, rfl⟩
      obtain ⟨hpm, hpc⟩ := List.mem_filter.1 hpf
      have hpc : p.1 = c := by simpa using hpc
      subst hpc
      obtain ⟨row', hr', hc⟩ := hap p hpm
      have : row' = row := by rw [hr'] at hrow; exact Option.some.inj hrow
      subst this
      exact pick_one (hrows row' hmem).2 _ hc
    · intro hc
      have : c = c0 := firstNearest_unique hc hf0
      subst this
      have hi : i < rows.length := by
        by_contra hh
        rw [List.getElem?_eq_none (by omega)] at hrow
        cases hrow
      refine ⟨(c, i), List.mem_filter.2 ⟨?_, by simp⟩, rfl⟩
      unfold allPush
      refine List.mem_flatten.2 ⟨_, List.mem_mapIdx.2 ⟨i, hi, rfl⟩, ?_⟩
      rw [List.getElem?_eq_getElem hi] at hrow
      rw [Option.some.inj hrow, hc0]
      simp

/-- Three points, two centres, one tie, and a scheduler that reverses the appends. -/
example : ivfBuildLists 2 exPops (fun _ l => l.reverse)
    [[F32.zero, F32.one], [F32.one, F32.zero], [F32.one, F32.one]] = .ok [[2, 0], [1]] := by decide

example : ∀ row ∈ [[F32.zero, F32.one], [F32.one, F32.zero], [F32.one, F32.one]],
    (row.length = 2 ∧ ∀ x ∈ row, x.IsNum) ∧ ∃ x ∈ row, x.lt F32.fmax = true := by decide

/-! ## The search -/

/-- A usable IVF index: as many lists as clusters, holding points of the index. -/
structure Ivf.OK {V : Type} (ix : Ivf V) : Prop where
  lists : ix.inv.length = ix.nc
  ids : ∀ l ∈ ix.inv, ∀ i ∈ l, i < ix.ctx.data.length

/-- Distances from the query: to the points (`d`, finite), and to the centres (numbers, some finite). -/
structure Ivf.Dist {V : Type} (ix : Ivf V) (q : V) (d : Nat → F32) : Prop where
  eq : ∀ i v, ix.ctx.data[i]? = some v → d i = ix.ctx.cmp q v
  fin : ∀ i, i < ix.ctx.data.length → (d i).lt F32.fmax = true
  row : (ix.centreDist q).length = ix.nc
  rowNum : ∀ x ∈ ix.centreDist q, x.IsNum
  rowFin : ix.nc ≥ 1 → ∃ x ∈ ix.centreDist q, x.lt F32.fmax = true

/-- General form: the answer is the exact `res_count` nearest among the accepted points of the probed
clusters. -/
theorem ivfSearch_spec {V : Type} (pops : List F32 → List Nat) (hpops : IsPopOrder pops) (ix : Ivf V)
    (hix : ix.OK) (q : V) (d : Nat → F32) (hdist : ix.Dist q d) (filters : List Label)
    (hlab : filters ≠ [] → ix.ctx.labels.length = ix.ctx.data.length)
    (rc pw : Nat) (hrc1 : 1 ≤ rc) (hrc : Spec.ListFits ix.ctx.data.length rc) (hpw : pw ≤ ix.nc)
    (ind : List Nat) (dst : Option (List F32)) (hind : rc ≤ ind.length)
    (hdst : ∀ l, dst = some l → rc ≤ l.length) :
    ∃ ids : List Nat, ivfSearch pops ix q rc pw ind dst filters =
        .ok (ids ++ ind.drop ids.length, dst.map (fun l => ids.map d ++ l.drop ids.length), ids.length) ∧
      KNearest rc (accSet ix.ctx filters
        ((pick pw pops (ix.centreDist q)).map (fun c => ix.inv.getD c [])).flatten) d
        (ids.map (fun i => (i, d i))) := by
  have hc := (ivfCands_spec pops hpops ix q pw hix.lists hdist.row hdist.rowNum (by
    intro h; exact hdist.rowFin (by omega))).1 hpw
  have hin : ∀ i ∈ ((pick pw pops (ix.centreDist q)).map (fun c => ix.inv.getD c [])).flatten,
      i < ix.ctx.data.length := by
    intro i hi
    obtain ⟨l, hl, hil⟩ := List.mem_flatten.1 hi
    obtain ⟨c, _, rfl⟩ := List.mem_map.1 hl
    by_cases hcl : c < ix.inv.length
    · rw [show ix.inv.getD c [] = ix.inv[c] by simp [List.getD, List.getElem?_eq_getElem hcl]] at hil
      exact hix.ids _ (List.getElem_mem _) i hil
    · rw [show ix.inv.getD c [] = [] by simp [List.getD, Nat.le_of_not_lt hcl]] at hil
      simp at hil
  obtain ⟨ids, e, hk⟩ := scanSearch_spec ix.ctx q rc ind dst filters _ d hdist.eq hrc1 hrc hin hlab
    hdist.fin hind hdst
  refine ⟨ids, ?_, hk⟩
  unfold ivfSearch
  rw [hc]
  exact e

/-- A KNearest answer written to the buffers is a report. -/
theorem KNearest.reports {rc : Nat} {S : Finset Nat} {d : Nat → F32} {ids : List Nat}
    (hk : KNearest rc S d (ids.map (fun i => (i, d i)))) (ind : List Nat) (dst : List F32)
    (good : Nat → Prop) (hg : ∀ i ∈ S, good i) :
    Reports id d good ids (ids ++ ind.drop ids.length) (ids.map d ++ dst.drop ids.length) where
  tags := by simp
  dists := by
    rw [List.take_append_of_le_length (by simp), List.take_of_length_le (by simp)]
  distinct := by
    have := hk.nodup
    rwa [List.map_map, show (Prod.fst ∘ fun i => (i, d i)) = id from rfl, List.map_id] at this
  good := fun i hi => hg i (hk.mem (i, d i) (List.mem_map.2 ⟨i, hi, rfl⟩)).1
  sorted := by
    have := hk.sorted
    rwa [List.pairwise_map] at this

theorem accSet_matches {V : Type} {c : Ctx V} {filters : List Label} {cands : List Nat}
    (hlab : filters ≠ [] → c.labels.length = c.data.length) (hin : ∀ i ∈ cands, i < c.data.length) :
    ∀ i ∈ accSet c filters cands, Matches c.useUniv c.univ filters (c.labels.getD i []) := by
  intro i hi
  obtain ⟨h1, h2⟩ := mem_accSet.1 hi
  refine filterAccepts_sound (fun hne => ?_) h2
  have hlt : i < c.labels.length := by rw [hlab hne]; exact hin i h1
  simp [List.getD, List.getElem?_eq_getElem hlt]

/-- **C08 / C11 (IVF).** For `1 ≤ res_count` (and a probe width of at most the number of clusters) the
search returns a count of at most `res_count`; exactly that many slots are written; they hold distinct
points with their distances in order, and every one matches the filter.  If the count is below
`res_count`, every point of the probed clusters that the filter test accepts is reported. -/
theorem C11_ivf_count {V : Type} (pops : List F32 → List Nat) (hpops : IsPopOrder pops) (ix : Ivf V)
    (hix : ix.OK) (q : V) (d : Nat → F32) (hdist : ix.Dist q d) (filters : List Label)
    (hlab : filters ≠ [] → ix.ctx.labels.length = ix.ctx.data.length)
    (rc pw : Nat) (hrc1 : 1 ≤ rc) (hrc : Spec.ListFits ix.ctx.data.length rc) (hpw : pw ≤ ix.nc)
    (ind : List Nat) (dst : List F32) (hind : rc ≤ ind.length) (hdst : rc ≤ dst.length) :
    ∃ (ids ind' : List Nat) (dst' : List F32) (cls : List Nat), ivfSearch pops ix q rc pw ind (some dst) filters
        = .ok (ind', some dst', ids.length) ∧
      KNearest pw (Finset.range ix.nc) (fun c => (ix.centreDist q).getD c F32.nan)
        (cls.map (fun c => (c, (ix.centreDist q).getD c F32.nan))) ∧
      ids.length ≤ rc ∧
      Reports id d (fun i => (∃ c ∈ cls, i ∈ ix.inv.getD c []) ∧
        Matches ix.ctx.useUniv ix.ctx.univ filters (ix.ctx.labels.getD i [])) ids ind' dst' ∧
      (ids.length < rc → ∀ c ∈ cls, ∀ i ∈ ix.inv.getD c [],
        filterAccepts ix.ctx filters i = .ok true → i ∈ ids) ∧
      ind'.drop ids.length = ind.drop ids.length ∧ dst'.drop ids.length = dst.drop ids.length := by
  obtain ⟨ids, e, hk⟩ := ivfSearch_spec pops hpops ix hix q d hdist filters hlab rc pw hrc1 hrc hpw ind
    (some dst) hind (by intro l h; cases h; exact hdst)
  obtain ⟨_, _, _, hpk⟩ := pick_spec hpops hdist.row hpw hdist.rowNum (by
    intro h; exact hdist.rowFin (by omega))
  have hin : ∀ c, ∀ i ∈ ix.inv.getD c [], i < ix.ctx.data.length := by
    intro c i hil
    by_cases hcl : c < ix.inv.length
    · rw [show ix.inv.getD c [] = ix.inv[c] by simp [List.getD, List.getElem?_eq_getElem hcl]] at hil
      exact hix.ids _ (List.getElem_mem _) i hil
    · rw [show ix.inv.getD c [] = [] by simp [List.getD, Nat.le_of_not_lt hcl]] at hil
      simp at hil
  have hmem : ∀ i, i ∈ ((pick pw pops (ix.centreDist q)).map (fun c => ix.inv.getD c [])).flatten ↔
      ∃ c ∈ pick pw pops (ix.centreDist q), i ∈ ix.inv.getD c [] := by
    intro i; simp [List.mem_flatten]
  refine ⟨ids, _, _, pick pw pops (ix.centreDist q), e, hpk, ?_,
    KNearest.reports hk ind dst _ ?_, ?_, ?_, ?_⟩
  · have := hk.length
    rw [List.length_map] at this; omega
  · intro i hi
    refine ⟨(hmem i).1 (mem_accSet.1 hi).1, accSet_matches hlab ?_ i hi⟩
    intro j hj
    obtain ⟨c, _, hc⟩ := (hmem j).1 hj
    exact hin c j hc
  · intro hlt c hc i hi hacc
    have := hk.all_of_short (by rw [List.length_map]; exact hlt) i
      (mem_accSet.2 ⟨(hmem i).2 ⟨c, hc, hi⟩, hacc⟩)
    simpa using this
  · simp
  · rw [List.drop_append_of_le_length (by simp), List.drop_of_length_le (by simp)]; rfl

/-- **C08 (IVF).** Every point reported by a filtered IVF search matches the filter. -/
theorem C08_ivf_results_match {V : Type} (pops : List F32 → List Nat) (hpops : IsPopOrder pops) (ix : Ivf V)
    (hix : ix.OK) (q : V) (d : Nat → F32) (hdist : ix.Dist q d) (filters : List Label)
    (hlab : ix.ctx.labels.length = ix.ctx.data.length)
    (rc pw : Nat) (hrc1 : 1 ≤ rc) (hrc : Spec.ListFits ix.ctx.data.length rc) (hpw : pw ≤ ix.nc)
    (ind : List Nat) (dst : List F32) (hind : rc ≤ ind.length) (hdst : rc ≤ dst.length) :
    ∃ (ids ind' : List Nat) (dst' : List F32), ivfSearch pops ix q rc pw ind (some dst) filters = .ok (ind', some dst', ids.length) ∧
      Reports id d (fun i => Matches ix.ctx.useUniv ix.ctx.univ filters (ix.ctx.labels.getD i []))
        ids ind' dst' := by
  obtain ⟨ids, ind', dst', cls, e, _, _, hr, _⟩ := C11_ivf_count pops hpops ix hix q d hdist filters
    (fun _ => hlab) rc pw hrc1 hrc hpw ind dst hind hdst
  exact ⟨ids, ind', dst', e, hr.tags, hr.dists, hr.distinct, fun i hi => (hr.good i hi).2, hr.sorted⟩

/-! ## C15 -/

/-- If the inverted lists contain every point and nothing else, a search of all clusters is exact. -/
theorem ivf_all_clusters {V : Type} (pops : List F32 → List Nat) (hpops : IsPopOrder pops) (ix : Ivf V)
    (hlists : ix.inv.length = ix.nc) (hpart : ∀ i, i ∈ ix.inv.flatten ↔ i < ix.ctx.data.length)
    (q : V) (d : Nat → F32) (hdist : ix.Dist q d) (filters : List Label)
    (hlab : filters ≠ [] → ix.ctx.labels.length = ix.ctx.data.length)
    (hsf : SortedL filters) (hsl : ∀ l ∈ ix.ctx.labels, SortedL l)
    (rc : Nat) (hrc1 : 1 ≤ rc) (hrc : Spec.ListFits ix.ctx.data.length rc)
    (ind : List Nat) (dst : List F32) (hind : rc ≤ ind.length) (hdst : rc ≤ dst.length) :
    ∃ (ids ind' : List Nat) (dst' : List F32), ivfSearch pops ix q rc ix.nc ind (some dst) filters
        = .ok (ind', some dst', ids.length) ∧
      ind'.take ids.length = ids ∧ dst'.take ids.length = ids.map d ∧
      KNearest rc ((Finset.range ix.ctx.data.length).filter
        (fun i => Matches ix.ctx.useUniv ix.ctx.univ filters (ix.ctx.labels.getD i []))) d
        (ids.map (fun i => (i, d i))) := by
  have hix : ix.OK := ⟨hlists, fun l hl i hi => by
    have : i ∈ ix.inv.flatten := List.mem_flatten.2 ⟨l, hl, hi⟩
    exact (hpart i).1 this⟩
  obtain ⟨ids, e, hk⟩ := ivfSearch_spec pops hpops ix hix q d hdist filters hlab rc ix.nc hrc1 hrc
    (Nat.le_refl _) ind (some dst) hind (by intro l h; cases h; exact hdst)
  obtain ⟨hpl, hplt, hpnd, _⟩ := pick_spec hpops hdist.row (Nat.le_refl ix.nc) hdist.rowNum (by
    intro h; exact hdist.rowFin (by omega))
  have hperm : (pick ix.nc pops (ix.centreDist q)).Perm (List.range ix.nc) := by
    refine (hpnd.subperm (fun c hc => List.mem_range.2 (hplt c hc))).perm_of_length_le ?_
    rw [List.length_range, hpl]
  have hmem : ∀ i, i ∈ ((pick ix.nc pops (ix.centreDist q)).map (fun c => ix.inv.getD c [])).flatten ↔
      i < ix.ctx.data.length := by
    intro i
    rw [← hpart i]
    simp only [List.mem_flatten, List.mem_map]
    constructor
    · rintro ⟨l, ⟨c, hc, rfl⟩, hi⟩
      have hcl : c < ix.inv.length := by rw [hlists]; exact hplt c hc
      rw [show ix.inv.getD c [] = ix.inv[c] by simp [List.getD, List.getElem?_eq_getElem hcl]] at hi
      exact ⟨_, List.getElem_mem hcl, hi⟩
    · rintro ⟨l, hl, hi⟩
      obtain ⟨c, hc, rfl⟩ := List.getElem_of_mem hl
      exact ⟨ix.inv[c], ⟨c, hperm.mem_iff.2 (by simpa [← hlists] using hc), by
        simp [List.getD, List.getElem?_eq_getElem hc]⟩, hi⟩
  have hS : accSet ix.ctx filters
      ((pick ix.nc pops (ix.centreDist q)).map (fun c => ix.inv.getD c [])).flatten =
      (Finset.range ix.ctx.data.length).filter
        (fun i => Matches ix.ctx.useUniv ix.ctx.univ filters (ix.ctx.labels.getD i [])) := by
    ext i
    rw [mem_accSet, hmem, Finset.mem_filter, Finset.mem_range]
    refine and_congr_right (fun hi => ?_)
    by_cases hne : filters = []
    · subst hne; simp [filterAccepts, Matches]
    · have hlt : i < ix.ctx.labels.length := by rw [hlab hne]; exact hi
      have hg : ix.ctx.labels.getD i [] = ix.ctx.labels[i] := by
        simp [List.getD, List.getElem?_eq_getElem hlt]
      rw [filterAccepts_iff (labs := ix.ctx.labels.getD i []) (fun _ => by
        rw [hg, List.getElem?_eq_getElem hlt]) hsf (by rw [hg]; exact hsl _ (List.getElem_mem _))]
      simp
  rw [hS] at hk
  refine ⟨ids, _, _, e, by simp, ?_, hk⟩
  rw [List.take_append_of_le_length (by simp), List.take_of_length_le (by simp)]

/-- **C15.** If the inverted lists partition the data set (C14) and all `nc ≥ 1` clusters are probed,
the answer is the exact `res_count` nearest of all points matching the filter (sorted filter and label
lists; without filter: of all points). -/
theorem C15_all_clusters_exact {V : Type} (pops : List F32 → List Nat) (hpops : IsPopOrder pops) (ix : Ivf V)
    (hlists : ix.inv.length = ix.nc) (hpart : ix.inv.flatten.Perm (List.range ix.ctx.data.length))
    (q : V) (d : Nat → F32) (hdist : ix.Dist q d) (filters : List Label)
    (hlab : filters ≠ [] → ix.ctx.labels.length = ix.ctx.data.length)
    (hsf : SortedL filters) (hsl : ∀ l ∈ ix.ctx.labels, SortedL l)
    (rc : Nat) (hrc1 : 1 ≤ rc) (hrc : Spec.ListFits ix.ctx.data.length rc)
    (ind : List Nat) (dst : List F32) (hind : rc ≤ ind.length) (hdst : rc ≤ dst.length) :
    ∃ (ids ind' : List Nat) (dst' : List F32), ivfSearch pops ix q rc ix.nc ind (some dst) filters
        = .ok (ind', some dst', ids.length) ∧
      ind'.take ids.length = ids ∧ dst'.take ids.length = ids.map d ∧
      KNearest rc ((Finset.range ix.ctx.data.length).filter
        (fun i => Matches ix.ctx.useUniv ix.ctx.univ filters (ix.ctx.labels.getD i []))) d
        (ids.map (fun i => (i, d i))) := by
  exact ivf_all_clusters pops hpops ix hlists (fun i => by rw [hpart.mem_iff, List.mem_range]) q d hdist filters
    hlab hsf hsl rc hrc1 hrc ind dst hind hdst

/-! ## C16 -/

/-- More centres, more results: if the centres taken for the smaller width are among those for the larger one. -/
theorem ivf_probes_mono {V : Type} (pops : List F32 → List Nat) (hpops : IsPopOrder pops)
    (ix : Ivf V) (hix : ix.OK) (q : V) (d : Nat → F32) (hdist : ix.Dist q d) (filters : List Label)
    (hlab : filters ≠ [] → ix.ctx.labels.length = ix.ctx.data.length)
    (rc pw1 pw2 : Nat) (hrc1 : 1 ≤ rc) (hrc : Spec.ListFits ix.ctx.data.length rc) (hpw : pw1 ≤ pw2) (hpw2 : pw2 ≤ ix.nc)
    (hone : pw1 = 1 → pw2 ≠ 1 → pick 1 pops (ix.centreDist q) ⊆ pick pw2 pops (ix.centreDist q))
    (ind : List Nat) (dst : List F32) (hind : rc ≤ ind.length) (hdst : rc ≤ dst.length) :
    ∃ i1 d1 n1 i2 d2 n2, ivfSearch pops ix q rc pw1 ind (some dst) filters = .ok (i1, some d1, n1) ∧
      ivfSearch pops ix q rc pw2 ind (some dst) filters = .ok (i2, some d2, n2) ∧ n1 ≤ n2 ∧
      ∀ r < n1, (d2.getD r F32.nan).le (d1.getD r F32.nan) = true := by
  obtain ⟨ids1, e1, hk1⟩ := ivfSearch_spec pops hpops ix hix q d hdist filters hlab rc pw1 hrc1 hrc
    (by omega) ind (some dst) hind (by intro l h; cases h; exact hdst)
  obtain ⟨ids2, e2, hk2⟩ := ivfSearch_spec pops hpops ix hix q d hdist filters hlab rc pw2 hrc1 hrc
    hpw2 ind (some dst) hind (by intro l h; cases h; exact hdst)
  have hsubset : pick pw1 pops (ix.centreDist q) ⊆ pick pw2 pops (ix.centreDist q) := by
    by_cases h12 : pw1 = pw2
    · rw [h12]; exact List.Subset.refl _
    by_cases h1 : pw1 = 1
    · rw [h1]; exact hone h1 (by omega)
    · by_cases h2 : pw2 = 1
      · have : pw1 = 0 := by omega
        subst this
        simp [pick]
      · unfold pick
        rw [if_neg h1, if_neg h2]
        exact (List.take_subset_take_left _ hpw)
  have hS : accSet ix.ctx filters
      ((pick pw1 pops (ix.centreDist q)).map (fun c => ix.inv.getD c [])).flatten ⊆
      accSet ix.ctx filters
      ((pick pw2 pops (ix.centreDist q)).map (fun c => ix.inv.getD c [])).flatten := by
    intro i hi
    rw [mem_accSet] at hi ⊢
    refine ⟨?_, hi.2⟩
    obtain ⟨l, hl, hil⟩ := List.mem_flatten.1 hi.1
    obtain ⟨c, hc, rfl⟩ := List.mem_map.1 hl
    exact List.mem_flatten.2 ⟨_, List.mem_map.2 ⟨c, hsubset hc, rfl⟩, hil⟩
  have hnum : ∀ i ∈ accSet ix.ctx filters
      ((pick pw2 pops (ix.centreDist q)).map (fun c => ix.inv.getD c [])).flatten, (d i).IsNum := by
    intro i hi
    refine F32.isNum_of_lt_left (hdist.fin i ?_)
    obtain ⟨l, hl, hil⟩ := List.mem_flatten.1 (mem_accSet.1 hi).1
    obtain ⟨c, _, rfl⟩ := List.mem_map.1 hl
    by_cases hcl : c < ix.inv.length
    · rw [show ix.inv.getD c [] = ix.inv[c] by simp [List.getD, List.getElem?_eq_getElem hcl]] at hil
      exact hix.ids _ (List.getElem_mem _) i hil
    · rw [show ix.inv.getD c [] = [] by simp [List.getD, Nat.le_of_not_lt hcl]] at hil
      simp at hil
  have hmono := Spec.KNearest.mono hk1 hk2 hS hnum
  refine ⟨_, _, _, _, _, _, e1, e2, ?_, ?_⟩
  · have h1 := hk1.length
    have h2 := hk2.length
    have := Finset.card_le_card hS
    rw [List.length_map] at h1 h2
    omega
  · intro r hr
    obtain ⟨hr2, hle⟩ := hmono r (by simpa using hr)
    rw [List.length_map] at hr2
    have g : ∀ (ids : List Nat) (h : r < ids.length),
        (ids.map d ++ dst.drop ids.length).getD r F32.nan = d ids[r] := by
      intro ids h
      rw [List.getD, List.getElem?_append_left (by simpa using h)]
      simp [List.getElem?_eq_getElem h]
    rw [g ids1 hr, g ids2 hr2]
    simpa using hle

/-- **C16, partial.** Up to the number of clusters, a larger probe width never makes a returned distance
worse: the smaller search's `r`-th result has an `r`-th result of the larger search at most as far.
For a smallest probe width of 1 the closest centre has to be unique, because width 1 takes the first of
several equally close centres whereas larger widths take them in the order of a priority queue.
Missing: probe widths above the number of clusters, where the claim is false
(`C16_beyond_clusters_scans_first`), and ties at width 1, for which the C++ standard leaves the claim open
(`C16_ties_open`) and which are in `C16_ties_partial` for the heap of the GNU library. -/
theorem C16_more_probes_better_partial {V : Type} (pops : List F32 → List Nat) (hpops : IsPopOrder pops)
    (ix : Ivf V) (hix : ix.OK) (q : V) (d : Nat → F32) (hdist : ix.Dist q d) (filters : List Label)
    (hlab : filters ≠ [] → ix.ctx.labels.length = ix.ctx.data.length)
    (rc pw1 pw2 : Nat) (hrc1 : 1 ≤ rc) (hrc : Spec.ListFits ix.ctx.data.length rc) (hpw : pw1 ≤ pw2) (hpw2 : pw2 ≤ ix.nc)
    (huniq : pw1 = 1 → ∃ c0 < ix.nc, ∀ c < ix.nc, c ≠ c0 →
      ((ix.centreDist q).getD c0 F32.nan).lt ((ix.centreDist q).getD c F32.nan) = true)
    (ind : List Nat) (dst : List F32) (hind : rc ≤ ind.length) (hdst : rc ≤ dst.length) :
    ∃ i1 d1 n1 i2 d2 n2, ivfSearch pops ix q rc pw1 ind (some dst) filters = .ok (i1, some d1, n1) ∧
      ivfSearch pops ix q rc pw2 ind (some dst) filters = .ok (i2, some d2, n2) ∧ n1 ≤ n2 ∧
      ∀ r < n1, (d2.getD r F32.nan).le (d1.getD r F32.nan) = true := by
  refine ivf_probes_mono pops hpops ix hix q d hdist filters hlab rc pw1 pw2 hrc1 hrc hpw hpw2 ?_ ind dst hind hdst
  intro h1 _
  obtain ⟨c0, hc0, hu⟩ := huniq h1
  have member : ∀ k, 1 ≤ k → k ≤ ix.nc → c0 ∈ pick k pops (ix.centreDist q) := by
    intro k hk1 hk
    obtain ⟨hl, hlt, hnd, hkn⟩ := pick_spec hpops hdist.row hk hdist.rowNum
      (fun h => hdist.rowFin (by omega))
    by_contra hnot
    cases hp : pick k pops (ix.centreDist q) with
    | nil => rw [hp] at hl; simp at hl; omega
    | cons c t =>
      rw [hp] at hnot hkn hlt
      have h1 := hkn.best c0 (by simpa using hc0) (by
        rw [List.map_map]; simpa [Function.comp_def] using hnot)
        (c, (ix.centreDist q).getD c F32.nan) (by simp)
      have h2 := hu c (hlt c (by simp)) (fun h => hnot (by simp [h]))
      have := F32.lt_eq_false_of_le h1
      rw [h2] at this; cases this
  intro c hc
  obtain ⟨hl, hlt, hnd, hkn⟩ := pick_spec hpops hdist.row (show 1 ≤ ix.nc by omega) hdist.rowNum
    (fun h => hdist.rowFin (by omega))
  have h0 := member 1 (by omega) (by omega)
  obtain ⟨a, ha⟩ := List.length_eq_one_iff.1 hl
  rw [ha] at hc h0
  have hca : c = a := by simpa using hc
  have h0a : c0 = a := by simpa using h0
  rw [hca, ← h0a]
  exact member pw2 (by omega) hpw2

/-- **C16 (negative).** With a probe width above the number of clusters the search silently scans only
the first cluster: the answer is that of the candidates `inv[0]`, `inv[0]`, .... -/
theorem C16_beyond_clusters_scans_first {V : Type} (pops : List F32 → List Nat) (hpops : IsPopOrder pops)
    (ix : Ivf V) (hix : ix.OK) (q : V) (d : Nat → F32) (hdist : ix.Dist q d) (filters : List Label)
    (hlab : filters ≠ [] → ix.ctx.labels.length = ix.ctx.data.length)
    (rc pw : Nat) (hrc1 : 1 ≤ rc) (hrc : Spec.ListFits ix.ctx.data.length rc) (hpw : ix.nc < pw) (l0 : List Nat)
    (hl0 : ix.inv[0]? = some l0)
    (ind : List Nat) (dst : List F32) (hind : rc ≤ ind.length) (hdst : rc ≤ dst.length) :
    ∃ (ids ind' : List Nat) (dst' : List F32), ivfSearch pops ix q rc pw ind (some dst) filters = .ok (ind', some dst', ids.length) ∧
      ind'.take ids.length = ids ∧ ∀ i ∈ ids, i ∈ l0 := by
  have hnc : 1 ≤ ix.nc := by
    have := (List.getElem?_eq_some_iff.1 hl0).1
    have := hix.lists
    omega
  have hc := (ivfCands_spec pops hpops ix q pw hix.lists hdist.row hdist.rowNum
    (fun _ => hdist.rowFin hnc)).2 hpw l0 hl0
  obtain ⟨ids, e, hk⟩ := scanSearch_spec ix.ctx q rc ind (some dst) filters
    (List.replicate pw l0).flatten d hdist.eq hrc1 hrc
    (by
      intro i hi
      obtain ⟨l, hl, hil⟩ := List.mem_flatten.1 hi
      rw [(List.mem_replicate.1 hl).2] at hil
      exact hix.ids l0 (List.mem_of_getElem? hl0) i hil) hlab
    hdist.fin hind (by intro l h; cases h; exact hdst)
  refine ⟨ids, ids ++ ind.drop ids.length, ids.map d ++ dst.drop ids.length, ?_, by simp, ?_⟩
  · unfold ivfSearch
    rw [hc]
    exact e
  · intro i hi
    have := (hk.mem (i, d i) (List.mem_map.2 ⟨i, hi, rfl⟩)).1
    obtain ⟨l, hl, hil⟩ := List.mem_flatten.1 (mem_accSet.1 this).1
    rw [(List.mem_replicate.1 hl).2] at hil
    exact hil

/-! ## C12, C13 -/

/-- **C12 (IVF/LSH scan, `res_count = 0`, negative).** With `res_count = 0` the scan reads outside its
one-entry pool as soon as two candidates are accepted and the second is not strictly closer. -/
theorem C12_scan_zero_count_unsafe {V : Type} (c : Ctx V) (q : V) (a b : Nat) (va vb : V)
    (hab : a ≠ b) (ha : c.data[a]? = some va) (hb : c.data[b]? = some vb)
    (h1 : (c.cmp q va).lt F32.fmax = true) (h2 : (c.cmp q vb).lt (c.cmp q va) = false)
    (ind : List Nat) (dst : Option (List F32)) :
    scanSearch c q 0 ind dst [] [a, b] = .error .ub := by
  unfold scanSearch
  rw [scanPool_eq (by decide), C03_zero_capacity_unsafe c q a b va vb hab ha hb h1 h2]
  rfl

/-- **C12 (IVF/LSH scan, `res_count = 2^32 - 1`, negative).** The pool size `res_count + 1` wraps to 0,
so the first accepted candidate reads outside it. -/
theorem C12_scan_max_count_unsafe {V : Type} (c : Ctx V) (q : V) (a : Nat) (va : V)
    (ha : c.data[a]? = some va) (cands : List Nat) (ind : List Nat) (dst : Option (List F32)) :
    scanSearch c q 4294967295 ind dst [] (a :: cands) = .error .ub := by
  unfold scanSearch procCands
  have : procOne c q [] 4294967295
      { pool := resizePool [] (u32 (4294967295 + 1)), cur := 0, ins := [], cmps := 0, best := 4294967295 } a
      = .error .ub := by
    simp [procOne, filterAccepts, rd_eq_ok_iff.2 ha, insertIntoPool, resizePool, u32, rd_ub]
  rw [List.foldlM_cons]
  simp only [this]
  rfl

/-- **C12 (IVF/LSH scan, filter on an unlabelled index, negative).** Searching an index without labels
with a filter reads outside the label table as soon as there is a candidate. -/
theorem C12_scan_filter_unlabelled_unsafe {V : Type} (c : Ctx V) (q : V) (rc a : Nat) (cands : List Nat)
    (filters : List Label) (hf : filters ≠ []) (hl : c.labels = []) (ind : List Nat)
    (dst : Option (List F32)) : scanSearch c q rc ind dst filters (a :: cands) = .error .ub := by
  unfold scanSearch procCands
  have hacc : filterAccepts c filters a = .error .ub := by
    unfold filterAccepts
    rw [if_neg (by simpa using hf), hl, rd_ub (by simp)]
    rfl
  rw [List.foldlM_cons]
  have : ∀ s, procOne c q filters rc s a = .error .ub := by
    intro s; unfold procOne; rw [hacc]; rfl
  rw [this]
  rfl

/-- Three points 0, 1, 3 on a line tagged 100, 101, 102, two clusters with centres 0 and 3. -/
def exIvf : Ivf F32 where
  ctx := { data := [F32.zero, F32.one, ⟨0x40400000#32⟩], labels := [[[97]], [[97], [98]], [[98]]],
           useUniv := false, univ := [48], cmp := fun _ v => v }
  tags := [100, 101, 102]
  nc := 2
  inv := [[0, 1], [2]]
  centreDist := fun _ => [F32.zero, ⟨0x40400000#32⟩]

def exIvfD (i : Nat) : F32 := exIvf.ctx.data.getD i F32.zero

theorem exIvf_ok : exIvf.OK := ⟨by decide, by decide⟩

theorem exIvf_dist : exIvf.Dist F32.zero exIvfD where
  eq := by
    intro i v h
    have hl := (List.getElem?_eq_some_iff.1 h).1
    have : i = 0 ∨ i = 1 ∨ i = 2 := by
      have : i < 3 := hl
      omega
    rcases this with rfl | rfl | rfl <;> (cases h; decide)
  fin := by decide
  row := by decide
  rowNum := by decide
  rowFin := by decide

/-- **C13 (IVF, negative).** The identifiers an IVF search returns do not depend on the tags: with any
other tags the same positions are returned.  The witness returns position 0 although the point's tag
is 100. -/
theorem C13_ivf_reports_positions :
    (∀ {V : Type} (pops : List F32 → List Nat) (ix : Ivf V) (tags' : List Nat) (q : V) (rc pw : Nat)
      (ind : List Nat) (dst : Option (List F32)) (filters : List Label),
      ivfSearch pops ix q rc pw ind dst filters = ivfSearch pops { ix with tags := tags' } q rc pw ind dst filters)
    ∧ ivfSearch exPops exIvf F32.zero 1 1 [9] none [] = .ok ([0], none, 1)
    ∧ exIvf.tags = [100, 101, 102] :=
  ⟨fun _ _ _ _ _ _ _ _ _ => rfl, by decide, rfl⟩

/-- Hypotheses and results: both clusters, filter "b"; then the first cluster only; then a probe width
above the number of clusters, which loses point 2 again. -/
example : exIvf.inv.flatten.Perm (List.range 3) ∧ SortedL [[98]] ∧
    (∀ l ∈ exIvf.ctx.labels, SortedL l) ∧
    ivfSearch exPops exIvf F32.zero 2 2 [9, 9] none [[98]] = .ok ([1, 2], none, 2) ∧
    ivfSearch exPops exIvf F32.zero 2 1 [9, 9] none [[98]] = .ok ([1, 9], none, 1) ∧
    ivfSearch exPops exIvf F32.zero 2 3 [9, 9] none [[98]] = .ok ([1, 9], none, 1) := by decide

/-! ## The theorems applied to the examples -/

/-- C14: three points, two centres, one tie, a scheduler that reverses the appends. -/
example := C14_inverted_lists_partition 2 (by decide) exPops exPops_isPopOrder (fun _ l => l.reverse)
  (fun _ l => l.reverse_perm) [[F32.zero, F32.one], [F32.one, F32.zero], [F32.one, F32.one]] (by decide)
  (by decide) (by decide)

/-- One cluster of two, filter "b". -/
example := C11_ivf_count exPops exPops_isPopOrder exIvf exIvf_ok F32.zero exIvfD exIvf_dist [[98]] (by decide)
  2 1 (by decide) (by decide) (by decide) [9, 9] [F32.nan, F32.nan] (by decide) (by decide)

example := C08_ivf_results_match exPops exPops_isPopOrder exIvf exIvf_ok F32.zero exIvfD exIvf_dist [[98]]
  (by decide) 2 1 (by decide) (by decide) (by decide) [9, 9] [F32.nan, F32.nan] (by decide) (by decide)

example := C15_all_clusters_exact exPops exPops_isPopOrder exIvf (by decide) (by decide) F32.zero exIvfD
  exIvf_dist [[98]] (by decide) (by decide) (by decide) 2 (by decide) (by decide) [9, 9] [F32.nan, F32.nan]
  (by decide) (by decide)

/-- C16 from one to two clusters; the closest centre is unique. -/
example := C16_more_probes_better_partial exPops exPops_isPopOrder exIvf exIvf_ok F32.zero exIvfD exIvf_dist
  [[98]] (by decide) 2 1 2 (by decide) (by decide) (by decide) (by decide) (by decide) [9, 9]
  [F32.nan, F32.nan] (by decide) (by decide)

example := C16_beyond_clusters_scans_first exPops exPops_isPopOrder exIvf exIvf_ok F32.zero exIvfD exIvf_dist
  [] (by decide) 2 3 (by decide) (by decide) (by decide) [0, 1] rfl [9, 9] [F32.nan, F32.nan] (by decide)
  (by decide)

example : scanSearch exIvf.ctx F32.zero 0 [] none [] [0, 2] = .error .ub :=
  C12_scan_zero_count_unsafe exIvf.ctx F32.zero 0 2 _ _ (by decide) rfl rfl (by decide) (by decide) [] none

example : scanSearch exIvf.ctx F32.zero 4294967295 [] none [] [0, 2] = .error .ub :=
  C12_scan_max_count_unsafe exIvf.ctx F32.zero 0 _ rfl [2] [] none

example : scanSearch { exIvf.ctx with labels := [] } F32.zero 2 [9, 9] none [[98]] [0, 2] = .error .ub :=
  C12_scan_filter_unlabelled_unsafe _ F32.zero 2 0 [2] [[98]] (by decide) rfl [9, 9] none

end Grann
