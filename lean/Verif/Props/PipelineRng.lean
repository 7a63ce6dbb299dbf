import Verif.Props.Pipeline
import Verif.Props.RelNG
/-!
# From the data file to the answer, for RelativeNG (C78)
-/

namespace Grann

open _root_.Spec (IsGraph Reach Matches Reports)

/-- The sorts are sorts. -/
structure RngRun.OK (r : RngRun) : Prop where
  sortF : IsStdSort r.sortF
  sortOut : SortsBy id r.sortOut
  sortIn : SortsBy Prod.snd r.sortIn

/-- A Vamana run with the same results of the sorts; only its degree bound and its (empty) list of labels are used. -/
def RngRun.asVamana (r : RngRun) (n : Nat) : VamanaRun :=
  ⟨1, n, n, F32.one, 0, r.sortF, r.sortOut, r.sortIn, r.div, r.mops, [], fun k => k, []⟩

theorem medoid_constructed {es dim : Nat} (hes : 1 ≤ es) {rows : List Bytes} {tags : List Nat} {labelFile : Option Bytes}
    {lab : Nat → List Label} {o : IdxObj} (h1 : 1 ≤ rows.length) (hm : Spec.Matrix es dim rows)
    (ho : Constructed es dim rows tags labelFile lab o) (mops : MedoidOps Bytes) :
    ∃ start, medoid mops ((o.rows es).map (elems es)) o.adim = .ok start ∧ start < rows.length := by
  have hdl : (o.rows es).length = o.n := by rw [ho.vecs, List.length_map, ho.n]
  obtain ⟨start, est, hst, -⟩ := C59_entry_point mops ((o.rows es).map (elems es)) o.adim
    (by
      intro hx
      have := congrArg List.length hx
      rw [List.length_map, hdl, ho.n, List.length_nil] at this
      omega)
    (by
      intro v hv
      obtain ⟨x, hx, rfl⟩ := List.mem_map.mp hv
      rw [ho.vecs] at hx
      obtain ⟨row, hrow, rfl⟩ := List.mem_map.mp hx
      have h1 := hm row hrow
      have h2 : dim * es ≤ roundUp8 dim * es := Nat.mul_le_mul_right _ (roundUp8_spec dim).1
      rw [elems_length hes _ (roundUp8 dim) (by
        unfold Spec.padTo
        simp only [List.length_append, List.length_replicate]
        omega), ho.adim])
  rw [List.length_map, hdl, ho.n] at hst
  exact ⟨start, est, hst⟩

/-- The distances between the rows of the file. -/
def rowDist (cmp : Bytes → Bytes → F32) (es dim : Nat) (rows : List Bytes) (i k : Nat) : F32 :=
  cmp (Spec.padTo (roundUp8 dim * es) (rows.getD i [])) (Spec.padTo (roundUp8 dim * es) (rows.getD k []))

theorem rowDist_isDist {es dim : Nat} {cmp : Bytes → Bytes → F32} {rows : List Bytes} {tags : List Nat}
    {labelFile : Option Bytes} {lab : Nat → List Label} {o : IdxObj} (ho : Constructed es dim rows tags labelFile lab o) :
    (o.view es cmp).ctx.IsDist (rowDist cmp es dim rows) := by
  have key : ∀ (i : Nat) (v : Bytes), (o.view es cmp).ctx.data[i]? = some v →
      v = Spec.padTo (roundUp8 dim * es) (rows.getD i []) := by
    intro i v hv
    have hv' : (rows.map (Spec.padTo (roundUp8 dim * es)))[i]? = some v := by rw [← ho.vecs]; exact hv
    rw [List.getElem?_map] at hv'
    obtain ⟨row, hrow, rfl⟩ := Option.map_eq_some_iff.mp hv'
    rw [List.getD_eq_getElem?_getD, hrow]; rfl
  intro i k vi vk hi hk
  rw [key i vi hi, key k vk hk]; rfl

/-- The build of a constructed object. -/
theorem rngBuildObj_spec {es dim : Nat} (hes : 1 ≤ es) {cmp : Bytes → Bytes → F32}
    {r : RngRun} (hr : r.OK) {rows : List Bytes} {tags : List Nat} {lab : Nat → List Label} {o : IdxObj}
    (h10 : 10 ≤ rows.length) (hfew : rows.length < 2147483648) (hm : Spec.Matrix es dim rows)
    (ho : Constructed es dim rows tags none lab o) :
    ∃ o', rngBuildObj es cmp r o = .ok o' ∧ Built es cmp (r.asVamana rows.length) o o' ∧
      rngGraph r.sortF (o.view es cmp).ctx r.div (List.replicate (o.view es cmp).ctx.data.length []) = .ok o'.graph := by
  obtain ⟨start, est, hst⟩ := medoid_constructed hes (by omega) hm ho r.mops
  have hdl : (o.view es cmp).ctx.data.length = rows.length := by
    show (o.rows es).length = _
    rw [ho.vecs, List.length_map]
  obtain ⟨g, eg, hg, hrng⟩ := C27_relative_neighbourhood_graph r.sortF hr.sortF (o.view es cmp).ctx r.div _
    (rowDist_isDist ho) (by omega) (by omega)
  have hres : resizeLists (o.view es cmp).ctx.data.length o.graph = List.replicate (o.view es cmp).ctx.data.length [] := by
    unfold resizeLists; rw [ho.graph]; simp
  have hgl : g.length = rows.length := by rw [hg.len, hdl]
  have hnode : ∀ nb ∈ g, nb.Nodup ∧ ∀ x ∈ nb, x < rows.length := by
    intro nb hnb
    obtain ⟨v, hv⟩ := List.getElem?_of_mem hnb
    refine ⟨(hrng v nb hv).1, fun x hx => ?_⟩
    have := hg.edges nb hnb x hx
    omega
  have hdeg : ∀ nb ∈ g, nb.length ≤ rows.length := by
    intro nb hnb
    obtain ⟨h1, h2⟩ := hnode nb hnb
    have := (List.Nodup.subperm h1 (l₂ := List.range rows.length) (fun x hx => by simpa using h2 x hx)).length_le
    simpa using this
  obtain ⟨st, estat, hmax, -⟩ := C69_degrees hr.sortOut hr.sortIn g (by omega)
    (fun l hl x hx => by rw [hgl]; exact (hnode l hl).2 x hx)
    (by
      intro i
      have := inDegree_le (g := g) (fun nb hnb x => by
        have := List.nodup_iff_count_le_one.mp (hnode nb hnb).1 x
        omega) i
      rw [hgl] at this; omega)
    (fun l hl => by have := hdeg l hl; omega)
  refine ⟨{ o with graph := g, start := start, maxDeg := st.maxDegree }, ?_, ?_, eg⟩
  · unfold rngBuildObj rngBuildAgain
    rw [est, Res.ok_bind, hres, eg, Res.ok_bind, estat, Res.ok_bind]
  · have hf : o.filtered = false := ho.filtered
    refine ⟨rfl, by rw [ho.n]; exact hgl, hdeg, ?_, by rw [ho.n]; exact hst, ?_, ?_, ?_, ?_, fun _ => ho.medoids⟩
    · intro v nb hv x hx
      refine ⟨by rw [ho.n]; exact (hnode nb (List.mem_of_getElem? hv)).2 x hx, ?_⟩
      rintro rfl
      exact (hrng x nb hv).2.1 hx
    · show st.maxDegree ≤ rows.length
      rw [hmax]
      apply foldl_max_le (Nat.zero_le _)
      intro x hx
      obtain ⟨nb, hnb, rfl⟩ := List.mem_map.mp hx
      exact hdeg nb hnb
    · show (o.medoids.map Prod.fst).Nodup
      rw [ho.medoids]; exact List.nodup_nil
    · intro h; rw [hf] at h; cases h
    · intro x m h
      have h : (x, m) ∈ o.medoids := h
      rw [ho.medoids] at h; cases h

/-- **C78 (RelativeNG).** Take any well-formed data file with 10 to 2^31 - 1 points, tags or none; construct the object; build
it; save it over whatever was stored there; load it into a fresh object.  Nothing goes wrong on the way, the build ends, and
every search of the loaded object with `1 ≤ L` and `res_count ≤ L` reports only rows of the file, each with its own tag and
its own distance to the query, nearest first, none twice, and at least one if one is asked for.  (A filter is ignored.) -/
theorem C78_rng {P : Type} [DecidableEq P] (nm : Part → P) (hnm : Function.Injective nm) (fs : FS P)
    (sortL : List Label → List Label) (hsort : IsStrSort sortL) (j j' : Junk) (hj : j.WF) (hj' : j'.WF)
    (es dim : Nat) (hes : 1 ≤ es) (cmp : Bytes → Bytes → F32) (hsym : ∀ a b, cmp a b = cmp b a)
    (rows : List Bytes) (b : Bytes) (tags : List Nat) (lab : Nat → List Label)
    (hin : InputOK es dim rows b tags none lab) (h10 : 10 ≤ rows.length) (r : RngRun) (hr : r.OK) :
    ∃ o1 o2 ops, ctorObj sortL j es (some b) tags none = .ok o1 ∧ rngBuildObj es cmp r o1 = .ok o2 ∧
      rngSave es nm o2 = .ok ops ∧
      ∀ (o0 : IdxObj) (fuel : Nat), IsFresh o0 → rows.length < fuel →
      ∃ o3, rngLoad sortL j' fuel es nm (runOps ops fs) o0 = .ok (o3, false) ∧
      o3.view es cmp = o2.view es cmp ∧ o3.adim = roundUp8 dim ∧ o3.tags[0]? = some (Spec.tagOf tags 0) ∧
      ∀ (sortF : List Nbr → List Nbr), IsStdSort sortF → ∀ (q : Bytes),
      (∀ i, i < rows.length → (Spec.fileDist cmp es dim rows q i).IsNum) →
      ∀ (filters : List Label) (rc L : Nat), Spec.ListFits rows.length L → 1 ≤ L → rc ≤ L →
      ∀ (ind : List Nat) (dst : List F32), rc ≤ ind.length → rc ≤ dst.length →
      ∃ (ids ind' : List Nat) (dst' : List F32),
        rngSearch sortF (o3.view es cmp) q rc L ind dst filters = .ok (ind', dst', ids.length) ∧
        Reports (Spec.tagOf tags) (Spec.fileDist cmp es dim rows q) (fun i => i < rows.length) ids ind' dst' ∧
        ids.length ≤ rc ∧ (1 ≤ rc → 1 ≤ ids.length) ∧
        ind'.drop rc = ind.drop rc ∧ dst'.drop rc = dst.drop rc := by
  obtain ⟨o1, ec, ho⟩ := ctorObj_spec sortL hsort j hj hin
  obtain ⟨o2, eb, hb, -⟩ := rngBuildObj_spec (cmp := cmp) hes hr h10 hin.few hin.matrix ho
  have hfew := hin.few
  have hsave : Saveable es o2 rows := by
    have h1 := ctorObj_saveable sortL hsort j hj es dim rows b hin.file hin.matrix (by omega) hin.dims hin.bytes tags
      hin.tagsLt none o1 ec ho.nonempty o2.graph o2.maxDeg o2.start hb.len
      (by
        intro nb hnb
        have h2 : nb.length ≤ rows.length := hb.deg nb hnb
        refine ⟨by omega, fun x hx => ?_⟩
        obtain ⟨v, hv⟩ := List.getElem?_of_mem hnb
        have h4 := (hb.edges v nb hv x hx).1
        rw [ho.n] at h4; omega)
      (by have h2 : o2.maxDeg ≤ rows.length := hb.maxDeg; omega) (by have h2 := hb.start; rw [ho.n] at h2; omega) o2.medoids
    rw [← hb.same] at h1
    exact h1
  have hn2 : o2.n = rows.length := by rw [hb.same]; exact ho.n
  obtain ⟨ops, hops, -⟩ := rngSave_holds nm hnm hsave fs
  refine ⟨o1, o2, ops, ec, eb, hops, fun o0 fuel h0 hfuel => ?_⟩
  obtain ⟨ops', o3, e1, e2, hview, hsame, -⟩ := C41_rng_reload nm hnm fs es o2 rows hsave (hb.plain ho.filtered) sortL hsort j' hj' o0
    h0 fuel (by rw [hn2]; exact hfuel) cmp
  rw [hops] at e1
  cases e1
  have htag : o3.tags[0]? = some (Spec.tagOf tags 0) := by
    have h1 : o3.tags = o1.tags := by rw [hsame, hb.same]
    rw [h1]
    rw [ho.tagMap]
    unfold Spec.tagOf
    split
    · rw [List.getElem?_range (by omega)]
    · rename_i hne
      rcases hin.tagsLen with h | h
      · exact absurd h hne
      · rw [List.getD_eq_getElem?_getD, List.getElem?_eq_getElem (by omega)]; rfl
  refine ⟨o3, e2, hview, by rw [hsame, hb.same]; exact ho.adim, htag, ?_⟩
  intro sortF hsF q hnum filters rc L hL hL1 hrc ind dst hind hdst
  rw [hview]
  have hf : o1.filtered = false := ho.filtered
  obtain ⟨ids, ind', dst', e, h1, h2, h3, h4⟩ := hb.search hsym (by omega) hin.tagsLen ho (fun h => by rw [hf] at h; cases h) sortF hsF q hnum []
    (fun h => absurd rfl h) rc L hL hL1 hrc ind dst hind hdst
  exact ⟨ids, ind', dst', e, reports_imp h1 (fun i hi => hi.1) (fun _ _ => rfl) (fun _ _ => rfl), h2,
    fun h => h3 h (Or.inl rfl), h4⟩

/-- **C78 (RelativeNG finds every stored vector).** Let the distances be non-negative, and let a quotient exceed 1 only if the
dividend is larger.  A search of the loaded object for row `t` of the file (padded) reports first a row that is at most as
far from row `t` as row `t` itself. -/
theorem C78_rng_finds {P : Type} [DecidableEq P] (nm : Part → P) (hnm : Function.Injective nm) (fs : FS P)
    (sortL : List Label → List Label) (hsort : IsStrSort sortL) (j j' : Junk) (hj : j.WF) (hj' : j'.WF)
    (es dim : Nat) (hes : 1 ≤ es) (cmp : Bytes → Bytes → F32) (hsym : ∀ a b, cmp a b = cmp b a)
    (rows : List Bytes) (b : Bytes) (tags : List Nat) (lab : Nat → List Label)
    (hin : InputOK es dim rows b tags none lab) (h10 : 10 ≤ rows.length) (r : RngRun) (hr : r.OK)
    (hnn : ∀ i k, i < rows.length → k < rows.length → F32.zero.le (rowDist cmp es dim rows i k) = true)
    (hdiv : ∀ a b, F32.zero.le a = true → F32.zero.le b = true → F32.one.lt (r.div a b) = true → b.lt a = true)
    (o1 o2 o3 o0 : IdxObj) (ops : List (FOp P)) (fuel : Nat) (h0 : IsFresh o0) (hfuel : rows.length < fuel)
    (e1 : ctorObj sortL j es (some b) tags none = .ok o1) (e2 : rngBuildObj es cmp r o1 = .ok o2)
    (e3 : rngSave es nm o2 = .ok ops) (e4 : rngLoad sortL j' fuel es nm (runOps ops fs) o0 = .ok (o3, false))
    (t : Nat) (ht : t < rows.length) (rc L : Nat) (hrc : 1 ≤ rc) (hL : Spec.ListFits rows.length L) (hrcL : rc ≤ L)
    (ind : List Nat) (dst : List F32) (hind : rc ≤ ind.length) (hdst : rc ≤ dst.length) :
    ∃ ind' dst' cnt k, rngSearch r.sortF (o3.view es cmp) (Spec.padTo (roundUp8 dim * es) (rows.getD t [])) rc L ind dst [] =
        .ok (ind', dst', cnt) ∧ 1 ≤ cnt ∧ k < rows.length ∧ ind'[0]? = some (Spec.tagOf tags k) ∧
      dst'[0]? = some (rowDist cmp es dim rows t k) ∧
      (rowDist cmp es dim rows t k).le (rowDist cmp es dim rows t t) = true := by
  obtain ⟨p1, ec, ho⟩ := ctorObj_spec sortL hsort j hj hin
  obtain ⟨p2, eb, hb, hgr⟩ := rngBuildObj_spec (cmp := cmp) hes hr h10 hin.few hin.matrix ho
  obtain ⟨q1, q2, qops, f1, f2, f3, hq⟩ := C78_rng nm hnm fs sortL hsort j j' hj hj' es dim hes cmp hsym rows b tags lab hin h10 r hr
  have ec' : ctorObj sortL j es (some b) tags none = .ok p1 := ec
  rw [e1] at ec' f1
  cases ec'; cases f1
  rw [e2] at eb f2
  cases eb; cases f2
  rw [e3] at f3
  cases f3
  obtain ⟨q3, f4, hview, -⟩ := hq o0 fuel h0 hfuel
  rw [e4] at f4
  cases f4
  have hdl : (o1.view es cmp).ctx.data.length = rows.length := by
    show (o1.rows es).length = _
    rw [ho.vecs, List.length_map]
  have htags : o1.tags.length = rows.length := by
    rw [ho.tagMap]
    rcases hin.tagsLen with h | h
    · rw [if_pos h, List.length_range]
    · split
      · rw [List.length_range]
      · exact h
  have hfew := hin.few
  obtain ⟨g, ind', dst', cnt, k, h1, h2, h3, h4, h5, h6, h7⟩ := C27_index_finds_stored_vector r.sortF hr.sortF (o1.view es cmp).ctx
    r.div _ (rowDist_isDist ho) (by omega) (by omega) (fun i k _ _ => hsym _ _) (by rw [hdl]; exact hnn) hdiv t
    (Spec.padTo (roundUp8 dim * es) (rows.getD t [])) (by
      show (o1.rows es)[t]? = _
      rw [ho.vecs, List.getElem?_map, List.getElem?_eq_getElem ht, List.getD_eq_getElem?_getD, List.getElem?_eq_getElem ht]
      rfl) o2.start (by rw [hdl, ← ho.n]; exact hb.start) o1.tags (by rw [hdl]; exact htags) rc L hrc (by rw [hdl]; exact hL) hrcL ind dst hind hdst
  rw [hgr] at h1
  cases h1
  have hv : o3.view es cmp = ⟨(o1.view es cmp).ctx, o1.tags, o2.graph, o2.start, []⟩ := by
    rw [hview]
    have hm := hb.plain ho.filtered
    rw [hb.same]
    unfold IdxObj.view
    simp only [hm]
    rfl
  rw [hdl] at h4
  refine ⟨ind', dst', cnt, k, by rw [hv]; exact h2, h3, h4, ?_, h6, h7⟩
  rw [h5, ho.tagMap]
  unfold Spec.tagOf
  by_cases hx : tags = []
  · rw [if_pos hx, if_pos hx, List.getElem?_range h4]
  · rw [if_neg hx, if_neg hx]
    have hl : tags.length = rows.length := by
      rcases hin.tagsLen with h | h
      · exact absurd h hx
      · exact h
    rw [List.getD_eq_getElem?_getD, List.getElem?_eq_getElem (by omega)]; rfl

/-! ## A concrete index -/

def exRngRun : RngRun where
  sortF := exSort
  sortOut := fun l => l.insertionSort (fun x y => id x ≤ id y)
  sortIn := fun l => l.insertionSort (fun x y => x.2 ≤ y.2)
  div := exDiv1
  mops := exMedB

/-- The ten points of `exRows10` without labels, with tags 100 to 109. -/
example : InputOK 1 1 exRows10 exFile10 (List.range' 100 10) none exLab ∧ exRngRun.OK ∧
    (∀ a b, exCmpB a b = exCmpB b a) ∧
    (∀ i < 10, ∀ k < 10, F32.zero.le (rowDist exCmpB 1 1 exRows10 i k) = true) ∧
    (do let o1 ← ctorObj exStrSort exJunk 1 (some exFile10) (List.range' 100 10) none
        let o2 ← rngBuildObj 1 exCmpB exRngRun o1
        let ops ← rngSave 1 (id : Part → Part) o2
        let r ← rngLoad exStrSort exJunk 11 1 (id : Part → Part) (runOps ops (fun _ => none)) IdxObj.fresh
        let a ← rngSearch exSort (r.1.view 1 exCmpB) [57, 0, 0, 0, 0, 0, 0, 0] 2 2 [0, 0] [F32.zero, F32.zero] []
        .ok (a.1, a.2.2) : Res (List Nat × Nat)) = .ok ([108, 106], 2) := by
  refine ⟨?_, ?_, fun a b => exSq_comm _ _, by decide +kernel, by decide +kernel⟩
  · exact ⟨exInput10.file, exInput10.matrix, exInput10.size, exInput10.few, exInput10.dims, exInput10.bytes,
      Or.inr (by decide), by decide, fun lf h => (by cases h)⟩
  · exact ⟨exSort_isStdSort, insertionSort_sortsBy id, insertionSort_sortsBy Prod.snd⟩

/-! ## The theorems applied to it -/

theorem exInput10_tags : InputOK 1 1 exRows10 exFile10 (List.range' 100 10) none exLab :=
  ⟨exInput10.file, exInput10.matrix, exInput10.size, exInput10.few, exInput10.dims, exInput10.bytes,
    Or.inr (by decide), by decide, fun lf h => (by cases h)⟩

theorem exRngRun_ok : exRngRun.OK := ⟨exSort_isStdSort, insertionSort_sortsBy id, insertionSort_sortsBy Prod.snd⟩

example := C78_rng (id : Part → Part) (fun _ _ h => h) (fun _ => some [1]) exStrSort exStrSort_isStrSort exJunk exJunk exJunk_WF exJunk_WF
  1 1 (by decide) exCmpB (fun a b => exSq_comm _ _) exRows10 exFile10 (List.range' 100 10) exLab exInput10_tags (by decide) exRngRun
  exRngRun_ok

end Grann
