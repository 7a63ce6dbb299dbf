import Verif.Props.Pipeline
import Verif.Props.Ivf
import Verif.Props.IvfFile
/-!
# From the data file to the answer, for IVF (C78)
-/

namespace Grann

open _root_.Spec (Matches KNearest FirstNearest Probed ClusterAnswer)

/-- Distances to `nc` centres: numbers, not all of them too large. -/
structure CentreRow (nc : Nat) (row : List F32) : Prop where
  len : row.length = nc
  num : ∀ x ∈ row, x.IsNum
  fin : ∃ x ∈ row, x.lt F32.fmax = true

/-- The centres are `nc` rows of floats, and the heap and the threads behave as the standard allows. -/
structure IvfRun.OK (r : IvfRun) (adim : Nat) (crows : List Bytes) : Prop where
  nc : 1 ≤ r.nc
  nc' : r.nc < 4294967296
  centers : r.centers = crows.flatten
  matrix : Spec.Matrix 4 adim crows
  crows : crows.length = r.nc
  size : r.nc * adim * 4 + 8 < 2305843009213693952
  pops : IsPopOrder r.pops
  sched : ∀ b l, (r.sched b l).Perm l

theorem matches_perm {L : Type} {u : Bool} {univ : L} {f a b : List L} (h : a.Perm b) :
    Matches u univ f a ↔ Matches u univ f b :=
  ⟨matches_congr (fun _ => h.mem_iff), matches_congr (fun _ => h.symm.mem_iff)⟩

/-- A constructed object can be saved. -/
theorem Constructed.baseSaveable {es dim : Nat} {rows : List Bytes} {b : Bytes} {tags : List Nat} {labelFile : Option Bytes}
    {lab : Nat → List Label} {o : IdxObj} (ho : Constructed es dim rows tags labelFile lab o)
    (hin : InputOK es dim rows b tags labelFile lab) (sortL : List Label → List Label) (hsort : IsStrSort sortL) (j : Junk)
    (hj : j.WF) (ec : ctorObj sortL j es (some b) tags (labelFile.map some) = .ok o) : BaseSaveable es o rows := by
  have hfew := hin.few
  have h := (ctorObj_saveable sortL hsort j hj es dim rows b hin.file hin.matrix (by omega) hin.dims hin.bytes tags
    hin.tagsLt labelFile o ec ho.nonempty (List.replicate o.n []) 0 0 (by simp)
    (by
      intro nb hnb
      rw [List.eq_of_mem_replicate hnb]
      exact ⟨by simp, by simp⟩) (by omega) (by omega) []).toBaseSaveable
  exact ⟨h.matrix, h.rows_n, h.data, h.adim, h.n_lt, h.dim_lt, h.size, h.tags_len, h.tags_lt, h.labelled, h.unlabelled, h.univ⟩

/-- With sorted filters a constructed object accepts exactly the rows whose line matches. -/
theorem Constructed.accepts_iff {es dim : Nat} {rows : List Bytes} {tags : List Nat} {labelFile : Option Bytes}
    {lab : Nat → List Label} {o : IdxObj} (ho : Constructed es dim rows tags labelFile lab o) {filters : List Label}
    (hfil : filters ≠ [] → o.filtered = true) (hsf : SortedL filters) (cmp : Bytes → Bytes → F32) (i : Nat)
    (hi : i < rows.length) :
    filterAccepts (o.view es cmp).ctx filters i = .ok true ↔ Matches true [48] filters (lab i) := by
  by_cases hne : filters = []
  · subst hne
    exact ⟨fun _ => Or.inl rfl, fun _ => by unfold filterAccepts; rfl⟩
  have hil : i < o.labels.length := by rw [ho.labelsLen (hfil hne)]; exact hi
  have hge := List.getElem?_eq_getElem hil
  rw [filterAccepts_iff (c := (o.view es cmp).ctx) (labs := o.labels[i]) (fun _ => hge) hsf
    (ho.sortedLabels _ (List.getElem_mem hil))]
  have hu1 : (o.view es cmp).ctx.useUniv = true := ho.useUniv
  have hu2 : (o.view es cmp).ctx.univ = [48] := ho.univ
  rw [hu1, hu2, ← matches_perm (ho.labels (hfil hne) i _ hge)]
  constructor
  · intro h
    injection h with h
    exact of_decide_eq_true h
  · intro h
    rw [decide_eq_true h]

/-- **C78 (IVF).** Take any well-formed data file with fewer than 2^31 points, tags or none, a label file with a label for every point or none;
construct the object; build it for whatever centres k-means finds, under any order of the threads; save it over whatever was stored
there; load it into a fresh object.  Nothing goes wrong on the way, and every search of the loaded object with
`1 ≤ res_count` that probes at most all clusters reports only rows of the file, by their numbers (not by their tags, see C13),
each with its own distance to the query, nearest first, none twice, and with a filter (in sorted order) only rows whose line
of the label file matches.  It reports the nearest ones of the matching rows in the clusters nearest to the query, where a row is in the first cluster
nearest to it; a search that probes all clusters reports the nearest ones of all matching rows. -/
theorem C78_ivf {P : Type} [DecidableEq P] (nm : Part → P) (hnm : Function.Injective nm) (pc : P) (hpc : ∀ p, pc ≠ nm p)
    (fs : FS P) (sortL : List Label → List Label) (hsort : IsStrSort sortL) (j j' : Junk) (hj : j.WF) (hj' : j'.WF)
    (es dim : Nat) (cmp : Bytes → Bytes → F32) (cdist : Bytes → Nat → Nat → Bytes → List F32)
    (rows : List Bytes) (b : Bytes) (tags : List Nat) (labelFile : Option Bytes) (lab : Nat → List Label)
    (hin : InputOK es dim rows b tags labelFile lab) (hdim : dim ≤ 4294967288) :
    ∃ o1, ctorObj sortL j es (some b) tags (labelFile.map some) = .ok o1 ∧
      ∀ (r : IvfRun) (crows : List Bytes) (nc0 : Nat) (cs0 : Bytes), r.OK (roundUp8 dim) crows →
      (∀ i, i < rows.length → CentreRow r.nc (cdist r.centers r.nc (roundUp8 dim)
        (Spec.padTo (roundUp8 dim * es) (rows.getD i [])))) →
      ∃ o2 ops, ivfBuildObj es cdist r ⟨o1, nc0, cs0, []⟩ = .ok o2 ∧ ivfSave es nm pc o2 = .ok ops ∧
      ∀ (o0 : IvfObj), IsFresh o0.base →
      ∃ o3, ivfLoad sortL j' es nm pc (runOps ops fs) o0 = .ok o3 ∧ o3.base.adim = roundUp8 dim ∧
      ∀ (pops : List F32 → List Nat), IsPopOrder pops → ∀ (q : Bytes),
      (∀ i, i < rows.length → (Spec.fileDist cmp es dim rows q i).lt F32.fmax = true) →
      CentreRow r.nc (cdist r.centers r.nc (roundUp8 dim) q) →
      ∀ (filters : List Label), (filters ≠ [] → labelFile ≠ none) → SortedL filters →
      ∀ (rc pw : Nat), 1 ≤ rc → rc ≤ 2147483648 → pw ≤ r.nc →
      ∀ (ind : List Nat) (dst : List F32), rc ≤ ind.length → rc ≤ dst.length →
      ∃ ids : List Nat,
        ivfSearch pops (o3.view es cmp cdist) q rc pw ind (some dst) filters =
          .ok (ids ++ ind.drop ids.length, some (ids.map (Spec.fileDist cmp es dim rows q) ++ dst.drop ids.length), ids.length) ∧
        ids.Nodup ∧ ids.length ≤ rc ∧ (∀ i ∈ ids, i < rows.length ∧ Matches true [48] filters (lab i)) ∧
        ids.Pairwise (fun i k => (Spec.fileDist cmp es dim rows q i).le (Spec.fileDist cmp es dim rows q k) = true) ∧
        (pw = r.nc → KNearest rc ((Finset.range rows.length).filter (fun i => Matches true [48] filters (lab i)))
          (Spec.fileDist cmp es dim rows q) (ids.map (fun i => (i, Spec.fileDist cmp es dim rows q i)))) ∧
        ClusterAnswer r.nc pw (cdist r.centers r.nc (roundUp8 dim) q)
          (fun i => cdist r.centers r.nc (roundUp8 dim) (Spec.padTo (roundUp8 dim * es) (rows.getD i []))) rows.length
          (fun i => Matches true [48] filters (lab i)) rc (Spec.fileDist cmp es dim rows q) ids := by
  obtain ⟨o1, ec, ho⟩ := ctorObj_spec sortL hsort j hj hin
  refine ⟨o1, ec, fun r crows nc0 cs0 hr hrow => ?_⟩
  have hfew := hin.few
  have hsize := hin.size
  have hdrows : (o1.rows es).map (cdist r.centers r.nc o1.adim) =
      rows.map (fun row => cdist r.centers r.nc (roundUp8 dim) (Spec.padTo (roundUp8 dim * es) row)) := by
    rw [ho.vecs, List.map_map, ho.adim]; rfl
  have hcr : ∀ row ∈ (o1.rows es).map (cdist r.centers r.nc o1.adim), CentreRow r.nc row := by
    rw [hdrows]
    intro row hrow'
    obtain ⟨x, hx, rfl⟩ := List.mem_map.mp hrow'
    obtain ⟨i, hi, rfl⟩ := List.mem_iff_getElem.mp hx
    have := hrow i hi
    rw [List.getD_eq_getElem?_getD, List.getElem?_eq_getElem hi] at this
    exact this
  have hrl : ((o1.rows es).map (cdist r.centers r.nc o1.adim)).length = rows.length := by
    rw [hdrows, List.length_map]
  obtain ⟨inv, einv, hil, hperm, hfirst⟩ := C14_inverted_lists_partition r.nc hr.nc r.pops hr.pops r.sched hr.sched
    ((o1.rows es).map (cdist r.centers r.nc o1.adim)) (by omega) (fun row h => ⟨(hcr row h).len, (hcr row h).num⟩)
    (fun row h => (hcr row h).fin)
  rw [hrl] at hperm
  have hidlt : ∀ l ∈ inv, ∀ i ∈ l, i < rows.length := by
    intro l hl i hi
    have := hperm.mem_iff.mp (List.mem_flatten.mpr ⟨l, hl, hi⟩)
    simpa using this
  have hbuild : ivfBuildObj es cdist r ⟨o1, nc0, cs0, []⟩ = .ok ⟨o1, r.nc, r.centers, inv⟩ := by
    unfold ivfBuildObj
    have : ivfBuildAgain r.nc r.pops r.sched ((o1.rows es).map (cdist r.centers r.nc o1.adim)) [] = .ok inv := by
      rw [← einv]
      unfold ivfBuildAgain ivfBuildLists resizeLists
      simp only [List.take_nil, List.nil_append, List.length_nil, Nat.sub_zero]
      rfl
    dsimp only
    rw [this, Res.ok_bind]
  have hfit : Spec.GraphFits inv := by
    intro l hl
    refine ⟨?_, fun x hx => by have := hidlt l hl x hx; omega⟩
    have h1 : l.length ≤ inv.flatten.length := (List.sublist_flatten_of_mem hl).length_le
    rw [hperm.length_eq, List.length_range] at h1
    omega
  have hbs := ho.baseSaveable hin sortL hsort j hj ec
  have had : roundUp8 dim < 4294967296 := by unfold roundUp8; split <;> omega
  have hsav : IvfSaveable es ⟨o1, r.nc, r.centers, inv⟩ rows crows := by
    refine ⟨hbs, hr.centers, ?_, hr.crows, hr.nc', ?_, ?_, hil, hfit⟩
    · show Spec.Matrix 4 o1.adim crows
      rw [ho.adim]; exact hr.matrix
    · show o1.adim < _
      rw [ho.adim]; exact had
    · show r.nc * o1.adim * 4 + 8 < _
      rw [ho.adim]; exact hr.size
  obtain ⟨ops, -, eops, -⟩ := C40_ivf_reload nm hnm pc hpc fs es _ rows crows hsav sortL hsort j' hj'
    ⟨IdxObj.fresh, 0, [], []⟩ ⟨rfl, rfl, rfl, rfl, rfl, rfl, rfl⟩
  refine ⟨_, ops, hbuild, eops, fun o0 h0 => ?_⟩
  obtain ⟨ops', o3, eops', eload, hadim, -, -, -, -, -, -, hsearch⟩ := C40_ivf_reload nm hnm pc hpc fs es _ rows crows hsav sortL hsort j' hj' o0 h0
  rw [eops] at eops'
  cases eops'
  refine ⟨o3, eload, hadim.trans ho.adim, ?_⟩
  intro pops hpops q hfin hcq filters hflt hsf rc pw hrc1 hrc hpw ind dst hind hdst
  rw [hsearch]
  have hdl : (o1.rows es).length = rows.length := by rw [ho.vecs, List.length_map]
  have hfil : filters ≠ [] → o1.filtered = true := by
    intro h
    rw [ho.filtered, Option.isSome_iff_ne_none]; exact hflt h
  have hdist : ((⟨o1, r.nc, r.centers, inv⟩ : IvfObj).view es cmp cdist).Dist q (Spec.fileDist cmp es dim rows q) := by
    have hcd : ((⟨o1, r.nc, r.centers, inv⟩ : IvfObj).view es cmp cdist).centreDist q =
        cdist r.centers r.nc (roundUp8 dim) q := by
      show cdist r.centers r.nc o1.adim q = _
      rw [ho.adim]
    refine ⟨?_, ?_, by rw [hcd]; exact hcq.len, by rw [hcd]; exact hcq.num, fun _ => by rw [hcd]; exact hcq.fin⟩
    · intro i v hv
      have hv' : (rows.map (Spec.padTo (roundUp8 dim * es)))[i]? = some v := by rw [← ho.vecs]; exact hv
      rw [List.getElem?_map] at hv'
      obtain ⟨row, hrow, rfl⟩ := Option.map_eq_some_iff.mp hv'
      show cmp q _ = cmp q _
      rw [List.getD_eq_getElem?_getD, hrow]; rfl
    · intro i hi
      have hi : i < (o1.rows es).length := hi
      exact hfin i (by omega)
  have hlab : filters ≠ [] → o1.labels.length = (o1.rows es).length := by
    intro h
    rw [hdl, ho.labelsLen (hfil h)]
  have hmatch : ∀ i, i < rows.length →
      (Matches true [48] filters (o1.labels.getD i []) ↔ Matches true [48] filters (lab i)) := by
    intro i hi
    by_cases hne : filters = []
    · exact ⟨fun _ => Or.inl hne, fun _ => Or.inl hne⟩
    · have hil2 : i < o1.labels.length := by rw [ho.labelsLen (hfil hne)]; exact hi
      rw [List.getD_eq_getElem?_getD, List.getElem?_eq_getElem hil2]
      exact matches_perm (ho.labels (hfil hne) i _ (List.getElem?_eq_getElem hil2))
  obtain ⟨ids, e, hk⟩ := ivfSearch_spec pops hpops ((⟨o1, r.nc, r.centers, inv⟩ : IvfObj).view es cmp cdist)
    ⟨hil, fun l hl i hi => by
      show i < (o1.rows es).length
      rw [hdl]; exact hidlt l hl i hi⟩ q _ hdist filters hlab rc pw hrc1 (.of_le hrc) hpw ind (some dst) hind
    (fun l h => by cases h; exact hdst)
  have hin2 : ∀ i ∈ ids, i < rows.length ∧ Matches true [48] filters (lab i) := by
    intro i hi
    have hmem := (hk.mem (i, _) (List.mem_map.mpr ⟨i, hi, rfl⟩)).1
    obtain ⟨h1, h2⟩ := mem_accSet.1 hmem
    obtain ⟨l, hl, hil'⟩ := List.mem_flatten.mp h1
    obtain ⟨c, -, rfl⟩ := List.mem_map.mp hl
    have hilt : i < rows.length := by
      have hc : i ∈ inv.getD c [] := hil'
      by_cases hcl : c < inv.length
      · rw [List.getD_eq_getElem?_getD, List.getElem?_eq_getElem hcl] at hc
        exact hidlt _ (List.getElem_mem hcl) i hc
      · rw [List.getD_eq_getElem?_getD, List.getElem?_eq_none (by omega)] at hc
        cases hc
    refine ⟨hilt, (hmatch i hilt).mp ?_⟩
    have hs := filterAccepts_sound (c := (o1.view es cmp).ctx) (labs := o1.labels.getD i []) (fun hne => by
      show o1.labels[i]? = _
      have hil2 : i < o1.labels.length := by rw [ho.labelsLen (hfil hne)]; exact hilt
      rw [List.getD_eq_getElem?_getD, List.getElem?_eq_getElem hil2]; rfl) h2
    have hu1 : (o1.view es cmp).ctx.useUniv = true := ho.useUniv
    have hu2 : (o1.view es cmp).ctx.univ = [48] := ho.univ
    rw [hu1, hu2] at hs
    exact hs
  refine ⟨ids, e, ?_, ?_, hin2, ?_, ?_, ?_⟩
  · have := hk.nodup
    rw [List.map_map] at this
    simpa [Function.comp_def] using this
  · have := hk.length
    rw [List.length_map] at this
    omega
  · have := hk.sorted
    rw [List.pairwise_map] at this
    exact this
  · intro hpn
    obtain ⟨ids', ind', dst', e', h1, -, h3⟩ := C15_all_clusters_exact pops hpops ((⟨o1, r.nc, r.centers, inv⟩ : IvfObj).view es cmp cdist)
      hil (by show inv.flatten.Perm (List.range (o1.rows es).length); rw [hdl]; exact hperm) q _ hdist filters hlab hsf
      ho.sortedLabels rc hrc1 (.of_le hrc) ind dst hind hdst
    have hpn' : ((⟨o1, r.nc, r.centers, inv⟩ : IvfObj).view es cmp cdist).nc = pw := hpn.symm
    rw [hpn', e] at e'
    injection e' with e'
    injection e' with e1 e2
    injection e2 with e2 e3
    have hids : ids' = ids := by
      rw [← h1, ← e1, ← e3, List.take_append_of_le_length (Nat.le_refl _), List.take_length]
    rw [hids] at h3
    have hset : ((Finset.range ((⟨o1, r.nc, r.centers, inv⟩ : IvfObj).view es cmp cdist).ctx.data.length).filter
        (fun i => Matches ((⟨o1, r.nc, r.centers, inv⟩ : IvfObj).view es cmp cdist).ctx.useUniv
          ((⟨o1, r.nc, r.centers, inv⟩ : IvfObj).view es cmp cdist).ctx.univ filters
          (((⟨o1, r.nc, r.centers, inv⟩ : IvfObj).view es cmp cdist).ctx.labels.getD i []))) =
        (Finset.range rows.length).filter (fun i => Matches true [48] filters (lab i)) := by
      have hd : ((⟨o1, r.nc, r.centers, inv⟩ : IvfObj).view es cmp cdist).ctx.data.length = rows.length := hdl
      have hu1 : ((⟨o1, r.nc, r.centers, inv⟩ : IvfObj).view es cmp cdist).ctx.useUniv = true := ho.useUniv
      have hu2 : ((⟨o1, r.nc, r.centers, inv⟩ : IvfObj).view es cmp cdist).ctx.univ = [48] := ho.univ
      rw [hd, hu1, hu2]
      ext i
      simp only [Finset.mem_filter, Finset.mem_range]
      constructor
      · rintro ⟨hi, h⟩; exact ⟨hi, (hmatch i hi).mp h⟩
      · rintro ⟨hi, h⟩; exact ⟨hi, (hmatch i hi).mpr h⟩
    rw [hset] at h3
    exact h3
  · have hcd : ((⟨o1, r.nc, r.centers, inv⟩ : IvfObj).view es cmp cdist).centreDist q = cdist r.centers r.nc (roundUp8 dim) q := by
      show cdist r.centers r.nc o1.adim q = _
      rw [ho.adim]
    rw [hcd] at hk
    refine ⟨_, _, ⟨(pick_spec hpops hcq.len hpw hcq.num (fun _ => hcq.fin)).2.2.2, fun h c hc => ?_⟩, fun i => ?_, hk⟩
    · rw [h] at hc
      exact pick_one hcq.num c hc
    · rw [mem_accSet, List.mem_flatten]
      have hi' : ∀ c, i < rows.length → (i ∈ inv.getD c [] ↔
          FirstNearest (cdist r.centers r.nc (roundUp8 dim) (Spec.padTo (roundUp8 dim * es) (rows.getD i []))) c) := fun c hi =>
        hfirst c i _ (by
          rw [hdrows, List.getElem?_map, List.getElem?_eq_getElem hi, List.getD_eq_getElem?_getD, List.getElem?_eq_getElem hi]
          rfl)
      constructor
      · rintro ⟨⟨l, hl, h1⟩, h2⟩
        obtain ⟨c, hc, rfl⟩ := List.mem_map.1 hl
        have h1 : i ∈ inv.getD c [] := h1
        have hilt : i < rows.length := by
          by_cases hcl : c < inv.length
          · refine hidlt _ (List.getElem_mem hcl) i ?_
            rw [List.getD_eq_getElem?_getD, List.getElem?_eq_getElem hcl] at h1
            exact h1
          · rw [List.getD_eq_getElem?_getD, List.getElem?_eq_none (by omega)] at h1
            cases h1
        exact ⟨hilt, (ho.accepts_iff hfil hsf cmp i hilt).1 h2, c, hc, (hi' c hilt).1 h1⟩
      · rintro ⟨hilt, h2, c, hc, h1⟩
        exact ⟨⟨_, List.mem_map.2 ⟨c, hc, rfl⟩, (hi' c hilt).2 h1⟩, (ho.accepts_iff hfil hsf cmp i hilt).2 h2⟩

/-! ## A concrete index -/

/-- Two centres, near 45 and near 55. -/
def exCrows : List Bytes := [45 :: List.replicate 31 0, 55 :: List.replicate 31 0]

/-- Distances to the centres, which for the example count by their first byte. -/
def exCdist (cs : Bytes) (nc adim : Nat) (v : Bytes) : List F32 :=
  (List.range nc).map (fun c => exSq (v.headD 0).toNat (cs.getD (c * (adim * 4)) 0).toNat)

def exIvfRun : IvfRun where
  nc := 2
  centers := exCrows.flatten
  pops := exPops
  sched := fun _ l => l.reverse

/-- The ten points of `exRows10` in two clusters.  A search that probes one cluster misses the two nearest
rows. -/
example : exIvfRun.OK (roundUp8 1) exCrows ∧
    (∀ i < 10, CentreRow 2 (exCdist exIvfRun.centers 2 8 (Spec.padTo 8 (exRows10.getD i [])))) ∧
    CentreRow 2 (exCdist exIvfRun.centers 2 8 [51]) ∧ SortedL [[97]] ∧
    (do let o1 ← exObj10
        let o2 ← ivfBuildObj 1 exCdist exIvfRun ⟨o1, 0, [], []⟩
        let ops ← ivfSave 1 (some : Part → Option Part) none o2
        let r ← ivfLoad exStrSort exJunk 1 (some : Part → Option Part) none (runOps ops (fun _ => none)) ⟨IdxObj.fresh, 0, [], []⟩
        let a ← ivfSearch exPops (r.view 1 exCmpB exCdist) [51] 5 1 [90, 90, 90, 90, 90] none [[97]]
        let b ← ivfSearch exPops (r.view 1 exCmpB exCdist) [51] 5 2 [90, 90, 90, 90, 90] none [[97]]
        .ok (o2.inv, a.1, b.1) : Res (List (List Nat) × List Nat × List Nat)) = .ok
      ([[9, 7, 5, 3, 1, 0], [8, 6, 4, 2]], [2, 4, 6, 8, 90], [1, 0, 2, 4, 6]) := by
  refine ⟨⟨by decide, by decide, rfl, by unfold Spec.Matrix; decide, rfl, by decide +kernel, exPops_isPopOrder,
    fun _ l => l.reverse_perm⟩, ?_, ⟨by decide, by decide, by decide⟩, by decide, by decide +kernel⟩
  have h : ∀ i < 10, ((exCdist exIvfRun.centers 2 8 (Spec.padTo 8 (exRows10.getD i []))).length = 2 ∧
    (∀ x ∈ exCdist exIvfRun.centers 2 8 (Spec.padTo 8 (exRows10.getD i [])), x.IsNum) ∧
    ∃ x ∈ exCdist exIvfRun.centers 2 8 (Spec.padTo 8 (exRows10.getD i [])), x.lt F32.fmax = true) := by decide +kernel
  exact fun i hi => ⟨(h i hi).1, (h i hi).2.1, (h i hi).2.2⟩

example := C78_ivf (some : Part → Option Part) (Option.some_injective _) none (fun _ => by simp) (fun _ => none) exStrSort
  exStrSort_isStrSort exJunk exJunk exJunk_WF exJunk_WF 1 1 exCmpB exCdist exRows10 exFile10 [] (some exLabels10) exLab exInput10
  (by decide)

end Grann
