import Verif.Model.PipelineHnsw
import Verif.Props.PipelineRng
import Verif.Props.Hnsw
/-!
# From the data file to the answer, for HNSW (C78)
-/

namespace Grann

open _root_.Spec (IsGraph Reach Matches Reports)

/-- The rows with the given numbers. -/
def Spec.rowsAt (rows : List Bytes) (ids : List Nat) : List Bytes := ids.map (fun i => rows.getD i [])

theorem saveSubset_file {P : Type} [DecidableEq P] (p : P) (fs : FS P) {es dim adim : Nat}
    {rows : List Bytes} (hm : Spec.Matrix es dim rows) (hda : dim ≤ adim) (ids : List Nat)
    (hids : ∀ i ∈ ids, i < rows.length) :
    ∃ ops, saveSubset p es (rows.map (Spec.padTo (adim * es))).flatten adim dim ids = .ok ops ∧
      runOps ops fs p = some (le 4 ids.length ++ (le 4 dim ++ (Spec.rowsAt rows ids).flatten)) := by
  have hrows : ids.mapM
      (fun i => slice (rows.map (Spec.padTo (adim * es))).flatten (i * adim * es) (dim * es)) =
        .ok (Spec.rowsAt rows ids) := by
    apply mapM_eq_map
    intro i hi
    rw [slice_row hda hm (List.getElem?_eq_getElem (hids i hi)), List.getD_eq_getElem?_getD,
      List.getElem?_eq_getElem (hids i hi)]
    rfl
  refine ⟨[.create p, .append p (le 4 ids.length), .append p (le 4 dim)] ++ (Spec.rowsAt rows ids).map (.append p), ?_, ?_⟩
  · unfold saveSubset
    rw [if_neg (by omega), hrows]; rfl
  · rw [runOps_append]
    rw [(run_append_rows p (Spec.rowsAt rows ids)
      (runOps [.create p, .append p (le 4 ids.length), .append p (le 4 dim)] fs)
      (le 4 ids.length ++ le 4 dim) (by simp [runOps, FOp.run])).1]
    rw [List.append_assoc]

theorem rowsAt_matrix {es dim : Nat} {rows : List Bytes} (hm : Spec.Matrix es dim rows) {ids : List Nat}
    (hids : ∀ i ∈ ids, i < rows.length) : Spec.Matrix es dim (Spec.rowsAt rows ids) := by
  intro r hr
  obtain ⟨i, hi, rfl⟩ := List.mem_map.mp hr
  rw [List.getD_eq_getElem?_getD, List.getElem?_eq_getElem (hids i hi)]
  exact hm _ (List.getElem_mem _)

theorem sampleIds_lt {keep : Nat → Bool} {n i : Nat} (h : i ∈ sampleIds keep n) : i < n := by
  simpa using (List.mem_filter.1 h).1

theorem sampleIds_length_le (keep : Nat → Bool) (n : Nat) : (sampleIds keep n).length ≤ n := by
  have := List.length_filter_le keep (List.range n)
  unfold sampleIds
  simpa using this

/-- The sampled rows form a data file again. -/
theorem InputOK.sample {es dim : Nat} {rows : List Bytes} {b : Bytes} {tags : List Nat} {lf : Option Bytes}
    {lab : Nat → List Label} (h : InputOK es dim rows b tags lf lab) (keep : Nat → Bool)
    (hk : 1 ≤ (sampleIds keep rows.length).length) :
    InputOK es dim (Spec.rowsAt rows (sampleIds keep rows.length))
      (le 4 (sampleIds keep rows.length).length ++ (le 4 dim ++ (Spec.rowsAt rows (sampleIds keep rows.length)).flatten))
      (sampleIds keep rows.length) none lab := by
  have hle := sampleIds_length_le keep rows.length
  have hfew := h.few
  have hl : (Spec.rowsAt rows (sampleIds keep rows.length)).length = (sampleIds keep rows.length).length := List.length_map ..
  have hmat := rowsAt_matrix h.matrix (ids := sampleIds keep rows.length) (fun i hi => sampleIds_lt hi)
  refine ⟨?_, hmat, by omega, by omega, h.dims, ?_, Or.inr hl.symm, ?_, fun lf h => (by cases h)⟩
  · rw [binFile_iff (by omega) h.dims, hl]
  · have hb := h.bytes
    rw [(binFile_iff (by omega) h.dims).mp h.file] at hb
    simp only [List.length_append, le_length] at hb ⊢
    rw [flatten_length_of h.matrix] at hb
    rw [flatten_length_of hmat, hl]
    have := Nat.mul_le_mul_right (dim * es) hle
    omega
  · intro t ht
    have := sampleIds_lt ht
    omega

theorem sampleData_rows {rows : List Bytes} {w : Nat} (keep : Nat → Bool) :
    sampleData (rows.map (Spec.padTo w)) (sampleIds keep rows.length) =
      .ok ((Spec.rowsAt rows (sampleIds keep rows.length)).map (Spec.padTo w)) := by
  unfold sampleData Spec.rowsAt
  rw [List.map_map]
  apply mapM_eq_map
  intro i hi
  have hi := sampleIds_lt hi
  rw [rd_ok (by rw [List.length_map]; exact hi)]
  simp [List.getD_eq_getElem?_getD, hi]

/-- The start node of a data set given by rows. -/
def rowStart (es adim : Nat) (mops : MedoidOps Bytes) (data : List Bytes) : Res Nat :=
  medoid mops (data.map (elems es)) adim

theorem rowStart_spec {es adim : Nat} (hes : 1 ≤ es) (mops : MedoidOps Bytes) (data : List Bytes) (hne : data ≠ [])
    (hw : ∀ v ∈ data, v.length = adim * es) : ∃ s, rowStart es adim mops data = .ok s ∧ s < data.length := by
  obtain ⟨s, e, hs, -⟩ := C59_entry_point mops (data.map (elems es)) adim (by simpa using hne) (by
    intro v hv
    obtain ⟨x, hx, rfl⟩ := List.mem_map.mp hv
    rw [elems_length hes x adim (hw x hx)])
  exact ⟨s, e, by simpa using hs⟩

/-- An object that the constructor made from a data file. -/
def FromFile (es dim : Nat) (rows : List Bytes) (tags : List Nat) (lab : Nat → List Label) (o : IdxObj) : Prop :=
  ∃ sortL j b, IsStrSort sortL ∧ j.WF ∧ InputOK es dim rows b tags none lab ∧
    ctorObj sortL j es (some b) tags none = .ok o

theorem FromFile.constructed {es dim : Nat} {rows : List Bytes} {tags : List Nat} {lab : Nat → List Label} {o : IdxObj}
    (h : FromFile es dim rows tags lab o) : Constructed es dim rows tags none lab o := by
  obtain ⟨sortL, j, b, h1, h2, h3, h4⟩ := h
  obtain ⟨o', e, hc⟩ := ctorObj_spec sortL h1 j h2 h3
  have e' : ctorObj sortL j es (some b) tags none = .ok o' := e
  rw [h4] at e'
  cases e'
  exact hc

/-- A level of the built index: an object made from a file, with a graph and a start node. -/
def IsLevel (es dim : Nat) (x : IdxObj × List Bytes) : Prop :=
  ∃ o tags lab, FromFile es dim x.2 tags lab o ∧ x.1 = { o with graph := x.1.graph, start := x.1.start }

/-- One level of the object is one level of the abstract index. -/
theorem hnswLevelObj_view {es dim : Nat} {cmp : Bytes → Bytes → F32} {r : HnswRun} {rows : List Bytes} {tags : List Nat}
    {lab : Nat → List Label} {o : IdxObj} (ho : Constructed es dim rows tags none lab o) (start : Nat)
    (entry : Nat → Res (List Nat)) (sched : List Nat) :
    (∃ e, hnswLevelObj es cmp r start entry sched o = .error e ∧
      hnswLevel r.p (o.view es cmp).ctx o.tags start entry sched = .error e) ∨
    ∃ o', hnswLevelObj es cmp r start entry sched o = .ok o' ∧ o' = { o with graph := o'.graph, start := o'.start } ∧
      hnswLevel r.p (o.view es cmp).ctx o.tags start entry sched = .ok (o'.view es cmp) := by
  have hres : resizeLists o.n o.graph = freshAdj (o.view es cmp).ctx.data.length := by
    have hdl : (o.view es cmp).ctx.data.length = o.n := by
      show (o.rows es).length = _
      rw [ho.vecs, List.length_map, ho.n]
    rw [hdl]
    unfold resizeLists freshAdj; rw [ho.graph]; simp
  unfold hnswLevelObj hnswLevel hnswObjCfg
  rw [hres]
  dsimp only
  cases runSched (hnswCfg (o.view es cmp).ctx r.p.div r.p.sortF r.p.L r.p.R r.p.C r.p.alpha r.p.pruningRule entry) sched
    (BSt.start (freshAdj (o.view es cmp).ctx.data.length)) with
  | error e => exact Or.inl ⟨e, rfl, rfl⟩
  | ok s =>
    rw [Res.ok_bind, Res.ok_bind]
    by_cases hf : s.Finished
    · rw [if_pos hf, if_pos hf]
      cases cleanup (hnswCfg (o.view es cmp).ctx r.p.div r.p.sortF r.p.L r.p.R r.p.C r.p.alpha r.p.pruningRule entry) s.adj with
      | error e => exact Or.inl ⟨e, rfl, rfl⟩
      | ok g =>
        right
        refine ⟨{ o with graph := g, start := start }, rfl, rfl, ?_⟩
        rw [Res.ok_bind]
        show Except.ok _ = Except.ok _
        unfold IdxObj.view
        simp only [ho.medoids]
        rfl
    · rw [if_neg hf, if_neg hf]
      exact Or.inl ⟨_, rfl, rfl⟩

/-- The build with files is the build of C29 on the rows of the file. -/
theorem hnswBuildObj_refines {es dim : Nat} {cmp : Bytes → Bytes → F32} {r : HnswRun}
    (hsort : IsStrSort r.sortL) (hj : ∀ k, (r.junk k).WF) (sched0 : List Nat) :
    ∀ (ups : List ((Nat → Bool) × List Nat)) (fs : FS Unit) (rows : List Bytes) (tags : List Nat) (lab : Nat → List Label)
      (o : IdxObj), FromFile es dim rows tags lab o → LevelSizes ups rows.length →
      (∃ e, hnswBuildObj es cmp r sched0 ups fs o = .error e ∧
        hnswBuild r.p (rowStart es (roundUp8 dim) r.mops) sched0 ups (o.view es cmp).ctx o.tags = .error e) ∨
      ∃ xs : List (IdxObj × List Bytes), hnswBuildObj es cmp r sched0 ups fs o = .ok (xs.map Prod.fst) ∧
        hnswBuild r.p (rowStart es (roundUp8 dim) r.mops) sched0 ups (o.view es cmp).ctx o.tags =
          .ok (xs.map (fun x => x.1.view es cmp)) ∧ ∀ x ∈ xs, IsLevel es dim x ∧ x.2.length ≤ rows.length := by
  intro ups
  induction ups with
  | nil =>
    intro fs rows tags lab o hff _
    have ho := hff.constructed
    unfold hnswBuildObj hnswBuild
    have hst : rowStart es (roundUp8 dim) r.mops (o.view es cmp).ctx.data =
      medoid r.mops ((o.rows es).map (elems es)) o.adim := by rw [ho.adim]; rfl
    rw [hst]
    cases medoid r.mops ((o.rows es).map (elems es)) o.adim with
    | error e => exact Or.inl ⟨e, rfl, rfl⟩
    | ok start =>
      rw [Res.ok_bind, Res.ok_bind]
      rcases hnswLevelObj_view (cmp := cmp) (r := r) ho start (fun _ => .ok [start]) sched0 with ⟨e, h1, h2⟩ | ⟨o', h1, h3, h2⟩
      · rw [h1, h2]; exact Or.inl ⟨e, rfl, rfl⟩
      · rw [h1, h2]
        refine Or.inr ⟨[(o', rows)], rfl, rfl, ?_⟩
        intro x hx
        rw [List.mem_singleton] at hx
        subst hx
        exact ⟨⟨o, tags, lab, hff, h3⟩, Nat.le_refl _⟩
  | cons up ups ih =>
    obtain ⟨keep, sched⟩ := up
    intro fs rows tags lab o hff hsz
    obtain ⟨hsz1, hsz2⟩ := hsz
    have ho := hff.constructed
    have hff' := hff
    obtain ⟨sortL, j, b, hs1, hj1, hin, -⟩ := hff
    have hk : 1 ≤ (sampleIds keep rows.length).length := by
      cases ups with
      | nil => have : 10 ≤ (sampleIds keep rows.length).length := hsz2; omega
      | cons u us => have : 10 ≤ (sampleIds keep rows.length).length := hsz2.1; omega
    have hlt : ∀ i ∈ sampleIds keep rows.length, i < rows.length := fun i hi => sampleIds_lt hi
    obtain ⟨ops, eops, hfile⟩ := saveSubset_file () fs hin.matrix (roundUp8_spec dim).1 (sampleIds keep rows.length) hlt
    have hin' := hin.sample keep hk
    obtain ⟨oi, eoi, hoi⟩ := ctorObj_spec r.sortL hsort (r.junk ups.length) (hj _) hin'
    have eoi' : ctorObj r.sortL (r.junk ups.length) es (some (le 4 (sampleIds keep rows.length).length ++
        (le 4 dim ++ (Spec.rowsAt rows (sampleIds keep rows.length)).flatten))) (sampleIds keep rows.length) none = .ok oi := eoi
    have hdata : (o.view es cmp).ctx.data = rows.map (Spec.padTo (roundUp8 dim * es)) := ho.vecs
    have hdl : (o.view es cmp).ctx.data.length = rows.length := by rw [hdata, List.length_map]
    have hne : sampleIds keep rows.length ≠ [] := by intro h; rw [h] at hk; simp at hk
    have htag : oi.tags = sampleIds keep rows.length := by rw [hoi.tagMap, if_neg hne]
    have hctx : ({ (o.view es cmp).ctx with
        data := (Spec.rowsAt rows (sampleIds keep rows.length)).map (Spec.padTo (roundUp8 dim * es)) } : Ctx Bytes) =
        (oi.view es cmp).ctx := by
      unfold IdxObj.view
      simp only [hoi.vecs, ho.noLabels ho.filtered, hoi.noLabels hoi.filtered, ho.useUniv, hoi.useUniv, ho.univ, hoi.univ]
    unfold hnswBuildObj hnswBuild
    dsimp only
    rw [hdl, ho.n, ho.data, ho.adim, ho.origDim, eops, Res.ok_bind, hfile, eoi', Res.ok_bind, hdata, sampleData_rows keep,
      Res.ok_bind, hctx]
    have hsz2' : LevelSizes ups (Spec.rowsAt rows (sampleIds keep rows.length)).length := by
      unfold Spec.rowsAt; rw [List.length_map]; exact hsz2
    have := ih (runOps (ops ++ [.remove ()]) fs) (Spec.rowsAt rows (sampleIds keep rows.length)) (sampleIds keep rows.length)
      lab oi ⟨r.sortL, r.junk ups.length, _, hsort, hj _, hin', eoi'⟩ hsz2'
    rw [htag] at this
    rcases this with ⟨e, h1, h2⟩ | ⟨xs, h1, h2, h3⟩
    · rw [h1, h2]; exact Or.inl ⟨e, rfl, rfl⟩
    · rw [h1, h2, Res.ok_bind, Res.ok_bind]
      have hst : rowStart es (roundUp8 dim) r.mops (rows.map (Spec.padTo (roundUp8 dim * es))) =
        medoid r.mops ((o.rows es).map (elems es)) (roundUp8 dim) := by rw [ho.vecs]; rfl
      rw [hst]
      have hvs : (xs.map Prod.fst).map (IdxObj.view es cmp) = xs.map (fun x => x.1.view es cmp) := by
        rw [List.map_map]; rfl
      rw [hvs]
      cases medoid r.mops ((o.rows es).map (elems es)) (roundUp8 dim) with
      | error e => exact Or.inl ⟨e, rfl, rfl⟩
      | ok start =>
        rw [Res.ok_bind, Res.ok_bind]
        rcases hnswLevelObj_view (cmp := cmp) (r := r) ho start
          (hnswEntry r.p (xs.map (fun x => x.1.view es cmp)) (o.view es cmp).ctx) sched with ⟨e, g1, g2⟩ | ⟨o', g1, g3, g2⟩
        · rw [g1, g2]; exact Or.inl ⟨e, rfl, rfl⟩
        · rw [g1, g2]
          refine Or.inr ⟨(o', rows) :: xs, rfl, rfl, ?_⟩
          intro x hx
          rcases List.mem_cons.mp hx with rfl | hx
          · exact ⟨⟨o, tags, lab, hff', g3⟩, Nat.le_refl _⟩
          · obtain ⟨g4, g5⟩ := h3 x hx
            refine ⟨g4, Nat.le_trans g5 ?_⟩
            unfold Spec.rowsAt; rw [List.length_map]; exact sampleIds_length_le _ _

/-- The parameters are in range, the sorts are sorts, and variables have their sizes. -/
structure HnswRun.OK (r : HnswRun) (n : Nat) : Prop where
  L : 1 ≤ r.p.L
  L' : Spec.ListFits n r.p.L
  R : r.p.R < 4294967296
  sortF : IsStdSort r.p.sortF
  sortL : IsStrSort r.sortL
  junk : ∀ k, (r.junk k).WF

theorem padTo_length {es dim : Nat} {rows : List Bytes} (hm : Spec.Matrix es dim rows) {v : Bytes}
    (hv : v ∈ rows.map (Spec.padTo (roundUp8 dim * es))) : v.length = roundUp8 dim * es := by
  obtain ⟨row, hrow, rfl⟩ := List.mem_map.mp hv
  have h1 := hm row hrow
  have h2 : dim * es ≤ roundUp8 dim * es := Nat.mul_le_mul_right _ (roundUp8_spec dim).1
  unfold Spec.padTo
  simp only [List.length_append, List.length_replicate]
  omega

/-- A level with a valid graph can be saved. -/
theorem IsLevel.saveable {es dim R : Nat} (hR : R < 4294967296) {cmp : Bytes → Bytes → F32} {x : IdxObj × List Bytes}
    (h : IsLevel es dim x) (hok : (x.1.view es cmp).OK) (hdeg : ∀ nb ∈ x.1.graph, nb.length ≤ R) :
    Saveable es x.1 x.2 ∧ x.1.medoids = [] ∧ x.1.n = x.2.length := by
  obtain ⟨o, tags, lab, hff, hx⟩ := h
  have ho := hff.constructed
  obtain ⟨sortL, j, b, hs1, hj1, hin, ec⟩ := hff
  have hfew := hin.few
  have hdl : (x.1.view es cmp).ctx.data.length = x.2.length := by
    show (x.1.rows es).length = _
    have : x.1.rows es = o.rows es := by rw [hx]; rfl
    rw [this, ho.vecs, List.length_map]
  have hgl : x.1.graph.length = x.2.length := by rw [← hdl]; exact hok.graph.len
  have hst : x.1.start < x.2.length := by rw [← hdl]; exact hok.start
  have h1 := ctorObj_saveable sortL hs1 j hj1 es dim x.2 b hin.file hin.matrix (by omega) hin.dims hin.bytes tags
    hin.tagsLt none o ec ho.nonempty x.1.graph o.maxDeg x.1.start (by rw [ho.n]; exact hgl)
    (by
      intro nb hnb
      have h2 := hdeg nb hnb
      refine ⟨by omega, fun y hy => ?_⟩
      have := hok.graph.edges nb hnb y hy
      omega)
    (by rw [ho.maxDeg]; omega) (by omega) o.medoids
  have he : ({ o with graph := x.1.graph, maxDeg := o.maxDeg, start := x.1.start, medoids := o.medoids } : IdxObj) = x.1 := by
    rw [hx]
  rw [he] at h1
  refine ⟨h1, by rw [hx]; exact ho.medoids, by rw [hx]; exact ho.n⟩

/-- **C78 (HNSW).** Take any well-formed data file with fewer than 2^31 points, tags or none; construct the object; build it with any number of levels,
any outcome of the sampling that leaves at least 10 points on each level, whatever the temporary file holds before, and under any schedules of the
threads; save it over whatever was stored there; load it into fresh objects.  Nothing goes wrong on the way, unless a parallel loop has
not ended yet; and every search of the loaded index with `1 ≤ L` and `res_count ≤ L` reports only rows of the file, each with its own tag
and its own distance to the query, nearest first, none twice, and at least one if one is asked for.  (A filter is ignored.) -/
theorem C78_hnsw (fs : FS (Nat × Part)) (fst : FS Unit)
    (sortL : List Label → List Label) (hsort : IsStrSort sortL) (j j' : Junk) (hj : j.WF) (hj' : j'.WF)
    (es dim : Nat) (hes : 1 ≤ es) (cmp : Bytes → Bytes → F32) (hsym : ∀ a b, cmp a b = cmp b a)
    (rows : List Bytes) (b : Bytes) (tags : List Nat) (lab : Nat → List Label)
    (hin : InputOK es dim rows b tags none lab)
    (hnum : ∀ i k, i < rows.length → k < rows.length → (rowDist cmp es dim rows i k).IsNum)
    (r : HnswRun) (hr : r.OK rows.length) (sched0 : List Nat) (ups : List ((Nat → Bool) × List Nat))
    (hsz : LevelSizes ups rows.length) :
    ∃ o1, ctorObj sortL j es (some b) tags none = .ok o1 ∧
      (hnswBuildObj es cmp r sched0 ups fst o1 = .error .loop ∨
      ∃ os ops, hnswBuildObj es cmp r sched0 ups fst o1 = .ok os ∧ os.length = ups.length + 1 ∧
      hnswSave es os = .ok ops ∧
      ∀ (o0s : List IdxObj) (fuel : Nat), o0s.length = ups.length + 1 → (∀ o0 ∈ o0s, IsFresh o0) → rows.length < fuel →
      ∃ os', hnswLoad sortL j' fuel es (runOps ops fs) o0s = .ok os' ∧ (∀ x ∈ os', x.2 = false) ∧
      (∀ x ∈ os', x.1.adim = roundUp8 dim) ∧ (∃ x rest, os' = x :: rest ∧ x.1.tags[0]? = some (Spec.tagOf tags 0)) ∧
      (∀ x ∈ os', ∀ nb ∈ x.1.graph, nb.length ≤ r.p.R) ∧
      ∀ (sortF : List Nbr → List Nbr), IsStdSort sortF → ∀ (q : Bytes),
      (∀ i, i < rows.length → (Spec.fileDist cmp es dim rows q i).IsNum) →
      ∀ (filters : List Label) (rc L : Nat), Spec.ListFits rows.length L → 1 ≤ L → rc ≤ L →
      ∀ (ind : List Nat) (dst : List F32), rc ≤ ind.length → rc ≤ dst.length →
      ∃ (ids ind' : List Nat) (dst' : List F32),
        hnswSearch sortF q rc L (os'.map (fun x => x.1.view es cmp)) ind dst filters = .ok (ind', dst', ids.length) ∧
        Reports (Spec.tagOf tags) (Spec.fileDist cmp es dim rows q) (fun i => i < rows.length) ids ind' dst' ∧
        ids.length ≤ rc ∧ (1 ≤ rc → 1 ≤ ids.length) ∧
        ind'.drop rc = ind.drop rc ∧ dst'.drop rc = dst.drop rc) := by
  obtain ⟨o1, ec, ho⟩ := ctorObj_spec sortL hsort j hj hin
  have hff : FromFile es dim rows tags lab o1 := ⟨sortL, j, b, hsort, hj, hin, ec⟩
  refine ⟨o1, ec, ?_⟩
  have hdata : (o1.view es cmp).ctx.data = rows.map (Spec.padTo (roundUp8 dim * es)) := ho.vecs
  have hdl : (o1.view es cmp).ctx.data.length = rows.length := by rw [hdata, List.length_map]
  have htags : o1.tags.length = rows.length := by
    rw [ho.tagMap]
    rcases hin.tagsLen with h | h
    · rw [if_pos h, List.length_range]
    · split
      · rw [List.length_range]
      · exact h
  have hkey : ∀ (i : Nat) (v : Bytes), (o1.view es cmp).ctx.data[i]? = some v →
      i < rows.length ∧ v = Spec.padTo (roundUp8 dim * es) (rows.getD i []) := by
    intro i v hv
    have hi : i < rows.length := by rw [← hdl]; exact (List.getElem?_eq_some_iff.mp hv).1
    rw [hdata, List.getElem?_map] at hv
    obtain ⟨row, hrow, rfl⟩ := Option.map_eq_some_iff.mp hv
    refine ⟨hi, ?_⟩
    rw [List.getD_eq_getElem?_getD, hrow]; rfl
  have hstart : ∀ data : List Bytes, data ≠ [] → (∀ v ∈ data, v.length = roundUp8 dim * es) →
      ∃ s, rowStart es (roundUp8 dim) r.mops data = .ok s ∧ s < data.length :=
    fun data h1 h2 => rowStart_spec hes r.mops data h1 h2
  have hQ : ∀ v ∈ (o1.view es cmp).ctx.data, v.length = roundUp8 dim * es := by
    rw [hdata]; exact fun v hv => padTo_length hin.matrix hv
  have hnum' : ∀ a ∈ (o1.view es cmp).ctx.data, ∀ b ∈ (o1.view es cmp).ctx.data, ((o1.view es cmp).ctx.cmp a b).IsNum := by
    intro a ha b hb
    obtain ⟨i, hi⟩ := List.getElem?_of_mem ha
    obtain ⟨k, hk⟩ := List.getElem?_of_mem hb
    obtain ⟨hi1, rfl⟩ := hkey i a hi
    obtain ⟨hk1, rfl⟩ := hkey k b hk
    exact hnum i k hi1 hk1
  have hsz' : LevelSizes ups (o1.view es cmp).ctx.data.length := by rw [hdl]; exact hsz
  have hlev := hnsw_levels_nested (fun v : Bytes => v.length = roundUp8 dim * es) r.p hr.sortF
    (rowStart es (roundUp8 dim) r.mops) hstart hr.L sched0 ups (o1.view es cmp).ctx o1.tags (by rw [hdl]; exact hr.L') hQ hsym hnum'
    (by rw [hdl]; exact htags) hsz'
  rcases hnswBuildObj_refines (cmp := cmp) (r := r) hr.sortL hr.junk sched0 ups fst rows tags lab o1 hff hsz with
    ⟨e, h1, h2⟩ | ⟨xs, h1, h2, h3⟩
  · left
    rcases hlev with h | ⟨ix, inner, h, -⟩
    · rw [h2] at h
      rw [h1]; injection h with h; rw [h]
    · rw [h2] at h; cases h
  right
  rcases hlev with h | ⟨ix, inner, h, hil, -, hixt, hall, -⟩
  · rw [h2] at h; cases h
  rw [h2] at h
  injection h with h
  have hall' : ∀ x ∈ xs, (x.1.view es cmp).OK ∧ ∀ nb ∈ x.1.graph, nb.length ≤ r.p.R := by
    intro x hx
    obtain ⟨g1, -, -, g4⟩ := hall (x.1.view es cmp) (by
      rw [← h]; exact List.mem_map.mpr ⟨x, hx, rfl⟩)
    exact ⟨g1, g4⟩
  have hsav : ∀ x ∈ xs, Saveable es x.1 x.2 ∧ x.1.medoids = [] ∧ x.1.n = x.2.length := fun x hx =>
    (h3 x hx).1.saveable hr.R (hall' x hx).1 (hall' x hx).2
  have hlen : xs.length = ups.length + 1 := by
    have := congrArg List.length h
    rw [List.length_map, List.length_cons, hil] at this
    exact this
  obtain ⟨ops, eops, -⟩ := hnswSave_holds xs (fun x hx => (hsav x hx).1) fs
  refine ⟨xs.map Prod.fst, ops, h1, by rw [List.length_map]; exact hlen, eops, fun o0s fuel hl0 h0 hfuel => ?_⟩
  obtain ⟨ops', os', e1, e2, hrep, hviews, hadims, -⟩ := C41_hnsw_reload fs es xs (fun x hx => (hsav x hx).1) (fun x hx => (hsav x hx).2.1)
    sortL hsort j' hj' o0s (by rw [hl0, hlen]) h0 fuel (fun x hx => by
      have := (h3 x hx).2
      rw [(hsav x hx).2.2]; omega) cmp
  rw [eops] at e1
  cases e1
  refine ⟨os', e2, hrep, ?_, ?_, ?_, ?_⟩
  · intro x hx
    have hm : x.1.adim ∈ os'.map (fun x => x.1.adim) := List.mem_map.mpr ⟨x, hx, rfl⟩
    rw [hadims] at hm
    obtain ⟨y, hy, e⟩ := List.mem_map.mp hm
    obtain ⟨⟨o, tags', lab', hff', hx'⟩, -⟩ := h3 y hy
    rw [← e, hx']; exact hff'.constructed.adim
  · rw [h] at hviews
    cases os' with
    | nil => cases hviews
    | cons x rest =>
      rw [List.map_cons] at hviews
      injection hviews with hv _
      refine ⟨x, rest, rfl, ?_⟩
      have hsz10 : 1 ≤ rows.length := hin.size
      have : x.1.tags = o1.tags := by
        have : (x.1.view es cmp).tags = ix.tags := by rw [hv]
        rw [← hixt, ← this]; rfl
      rw [this]
      rw [ho.tagMap]
      unfold Spec.tagOf
      split
      · rw [List.getElem?_range (by omega)]
      · rename_i hne
        rcases hin.tagsLen with h | h
        · exact absurd h hne
        · rw [List.getD_eq_getElem?_getD, List.getElem?_eq_getElem (by omega)]; rfl
  · intro x hx nb hnb
    have hm : x.1.view es cmp ∈ os'.map (fun x => x.1.view es cmp) := List.mem_map.mpr ⟨x, hx, rfl⟩
    rw [hviews, h] at hm
    exact (hall _ hm).2.2.2 nb hnb
  · intro sortF hsF q hqn filters rc L hL hL1 hrc ind dst hind hdst
    rw [hviews]
    obtain ⟨g, init, ids, ind', dst', g1, g2, g3, g4, g5, g6, g7, g8, g9, g10⟩ := hnsw_entry_points_valid
      (fun v : Bytes => v.length = roundUp8 dim * es) r.p hr.sortF (rowStart es (roundUp8 dim) r.mops) hstart hr.L sched0
      ups (o1.view es cmp).ctx (by rw [hdl]; exact hr.L') o1.tags hQ hsym hnum' (by rw [hdl]; exact htags) hsz' _ h2 q
      (Spec.fileDist cmp es dim rows q) (by
        intro i v hv
        obtain ⟨-, rfl⟩ := hkey i v hv
        rfl) (by
        intro v hv
        obtain ⟨i, hi⟩ := List.getElem?_of_mem hv
        obtain ⟨hi1, rfl⟩ := hkey i v hi
        exact hqn i hi1) sortF hsF filters rc L hL1 (by rw [hdl]; exact hL) hrc ind dst hind hdst
    rw [hdl] at g5
    refine ⟨ids, ind', dst', g1, ?_, g6, g7, g8, g9⟩
    refine ⟨?_, g10.dists, g10.distinct, g5, g10.sorted⟩
    rw [g10.tags]
    apply List.map_congr_left
    intro i hi
    have hi := g5 i hi
    show o1.tags.getD i 0 = _
    rw [ho.tagMap]
    unfold Spec.tagOf
    split
    · rw [List.getD_eq_getElem?_getD, List.getElem?_range hi]; rfl
    · rfl

/-- **C78 (HNSW, the build ends).** With schedules in which no thread waits for ever, the construction ends. -/
theorem C78_hnsw_ends (fst : FS Unit) (sortL : List Label → List Label) (hsort : IsStrSort sortL) (j : Junk) (hj : j.WF)
    (es dim : Nat) (hes : 1 ≤ es) (cmp : Bytes → Bytes → F32) (hsym : ∀ a b, cmp a b = cmp b a)
    (rows : List Bytes) (b : Bytes) (tags : List Nat) (lab : Nat → List Label)
    (hin : InputOK es dim rows b tags none lab)
    (hnum : ∀ i k, i < rows.length → k < rows.length → (rowDist cmp es dim rows i k).IsNum)
    (r : HnswRun) (hr : r.OK rows.length) (f0 : Nat → Nat) (hf0 : ∀ i < rows.length, ∀ k, ∃ m ≥ k, f0 m = i)
    (ups : List ((Nat → Bool) × (Nat → Nat))) (hfair : ∀ u ∈ ups, ∀ i < rows.length, ∀ k, ∃ m ≥ k, u.2 m = i)
    (hsz : LevelSizes (ups.map (fun u => (u.1, []))) rows.length) :
    ∃ o1 N0 Ns os, ctorObj sortL j es (some b) tags none = .ok o1 ∧ Ns.length = ups.length ∧
      hnswBuildObj es cmp r ((List.range N0).map f0) (cutAt ups Ns) fst o1 = .ok os := by
  obtain ⟨o1, ec, ho⟩ := ctorObj_spec sortL hsort j hj hin
  have hff : FromFile es dim rows tags lab o1 := ⟨sortL, j, b, hsort, hj, hin, ec⟩
  have hdata : (o1.view es cmp).ctx.data = rows.map (Spec.padTo (roundUp8 dim * es)) := ho.vecs
  have hdl : (o1.view es cmp).ctx.data.length = rows.length := by rw [hdata, List.length_map]
  have htags : o1.tags.length = rows.length := by
    rw [ho.tagMap]
    rcases hin.tagsLen with h | h
    · rw [if_pos h, List.length_range]
    · split
      · rw [List.length_range]
      · exact h
  have hkey : ∀ v ∈ (o1.view es cmp).ctx.data, ∃ i, i < rows.length ∧ v = Spec.padTo (roundUp8 dim * es) (rows.getD i []) := by
    intro v hv
    rw [hdata] at hv
    obtain ⟨row, hrow, rfl⟩ := List.mem_map.mp hv
    obtain ⟨i, hi, rfl⟩ := List.mem_iff_getElem.mp hrow
    refine ⟨i, hi, ?_⟩
    rw [List.getD_eq_getElem?_getD, List.getElem?_eq_getElem hi]; rfl
  have hnum' : ∀ a ∈ (o1.view es cmp).ctx.data, ∀ b ∈ (o1.view es cmp).ctx.data, ((o1.view es cmp).ctx.cmp a b).IsNum := by
    intro a ha b hb
    obtain ⟨i, hi, rfl⟩ := hkey a ha
    obtain ⟨k, hk, rfl⟩ := hkey b hb
    exact hnum i k hi hk
  obtain ⟨N0, Ns, levels, hNs, e⟩ := hnsw_ends (fun v : Bytes => v.length = roundUp8 dim * es) r.p hr.sortF
    (rowStart es (roundUp8 dim) r.mops) (fun data h1 h2 => rowStart_spec hes r.mops data h1 h2) hr.L rows.length hr.L' f0 hf0 ups
    (o1.view es cmp).ctx o1.tags (by rw [hdl]) hfair (by rw [hdata]; exact fun v hv => padTo_length hin.matrix hv) hsym hnum'
    (by rw [hdl]; exact htags) (by rw [hdl]; exact hsz)
  have hsz' : LevelSizes (cutAt ups Ns) rows.length :=
    LevelSizes.congr _ _ _ (by rw [cutAt_fst ups Ns hNs, List.map_map]; rfl) hsz
  rcases hnswBuildObj_refines (cmp := cmp) (r := r) hr.sortL hr.junk ((List.range N0).map f0) (cutAt ups Ns) fst rows tags lab o1
    hff hsz' with ⟨e', h1, h2⟩ | ⟨xs, h1, -⟩
  · rw [e] at h2; cases h2
  · exact ⟨o1, N0, Ns, _, ec, hNs, h1⟩

/-! ## A concrete index -/

/-- Twelve points of dimension 1. -/
def exRows12 : List Bytes := [[40], [41], [49], [50], [54], [46], [55], [45], [56], [44], [57], [43]]

def exFile12 : Bytes := [12, 0, 0, 0, 1, 0, 0, 0, 40, 41, 49, 50, 54, 46, 55, 45, 56, 44, 57, 43]

def exHnswRun : HnswRun := ⟨exHnswP, exMedB, exStrSort, fun _ => exJunk⟩

theorem exInput12 : InputOK 1 1 exRows12 exFile12 [] none exLab :=
  ⟨by unfold Spec.BinFile; decide, by unfold Spec.Matrix; decide, by decide, by decide, by decide, by decide,
    Or.inl rfl, by simp, fun lf h => (by cases h)⟩

theorem exHnswRun_ok : exHnswRun.OK 12 :=
  ⟨by decide, .of_le (by decide), by decide, exSort_isStdSort, exStrSort_isStrSort, fun _ => exJunk_WF⟩

/-- Two levels; the temporary file holds something else before. -/
example : InputOK 1 1 exRows12 exFile12 [] none exLab ∧ exHnswRun.OK 12 ∧ (∀ a b, exCmpB a b = exCmpB b a) ∧
    (∀ i < 12, ∀ k < 12, (rowDist exCmpB 1 1 exRows12 i k).IsNum) ∧
    LevelSizes [(fun i => decide (2 ≤ i), (List.range 480).map (fun k => k % 12))] exRows12.length ∧
    (do let o1 ← ctorObj exStrSort exJunk 1 (some exFile12) [] none
        let os ← hnswBuildObj 1 exCmpB exHnswRun ((List.range 400).map (fun k => k % 10))
          [(fun i => decide (2 ≤ i), (List.range 480).map (fun k => k % 12))] (fun _ => some [1, 2, 3]) o1
        let ops ← hnswSave 1 os
        let r ← hnswLoad exStrSort exJunk 13 1 (runOps ops (fun _ => none)) [IdxObj.fresh, IdxObj.fresh]
        let a ← hnswSearch exSort [41] 2 4 (r.map (fun x => x.1.view 1 exCmpB)) [0, 0] [F32.zero, F32.zero] []
        .ok (a.1, a.2.2) : Res (List Nat × Nat)) = .ok ([7, 5], 2) := by
  exact ⟨exInput12, exHnswRun_ok, fun a b => exSq_comm _ _, by decide +kernel, by unfold LevelSizes LevelSizes; decide, by decide +kernel⟩

/-- The schedules of the example, not cut off. -/
example : ∃ o1 N0 Ns os, ctorObj exStrSort exJunk 1 (some exFile12) [] none = .ok o1 ∧ Ns.length = 1 ∧
    hnswBuildObj 1 exCmpB exHnswRun ((List.range N0).map (fun k => k % 12))
      (cutAt [(fun i => decide (2 ≤ i), fun k => k % 12)] Ns) (fun _ => none) o1 = .ok os := by
  have hf : ∀ i < 12, ∀ k, ∃ m ≥ k, m % 12 = i := fun i hi k => ⟨12 * k + i, by omega, by omega⟩
  have hn : ∀ i < 12, ∀ k < 12, (rowDist exCmpB 1 1 exRows12 i k).IsNum := by decide +kernel
  refine C78_hnsw_ends _ exStrSort exStrSort_isStrSort exJunk exJunk_WF 1 1 (by decide) exCmpB (fun a b => exSq_comm _ _) exRows12 exFile12
    [] exLab exInput12 (fun i k hi hk => hn i hi k hk) exHnswRun exHnswRun_ok _ hf
    [(fun i => decide (2 ≤ i), fun k => k % 12)] ?_ (by rw [List.map_cons, List.map_nil]; unfold LevelSizes LevelSizes; decide)
  intro u hu
  rw [List.mem_singleton] at hu
  subst hu
  exact hf

/-! ## The theorems applied to the examples -/

example := C78_hnsw (fun _ => none) (fun _ => some [1, 2, 3]) exStrSort exStrSort_isStrSort exJunk exJunk exJunk_WF exJunk_WF 1 1 (by decide)
  exCmpB (fun a b => exSq_comm _ _) exRows12 exFile12 [] exLab exInput12
  (fun i k hi hk => (by decide +kernel : ∀ i < 12, ∀ k < 12, (rowDist exCmpB 1 1 exRows12 i k).IsNum) i hi k hk) exHnswRun exHnswRun_ok
  ((List.range 400).map (fun k => k % 10)) [(fun i => decide (2 ≤ i), (List.range 480).map (fun k => k % 12))]
  (by unfold LevelSizes LevelSizes; decide)

end Grann
