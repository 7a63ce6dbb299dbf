import Verif.Proofs.Pipeline
import Mathlib.Data.List.Sort
/-!
# From the data file to the answer (C78)
-/

namespace Grann

open _root_.Spec (IsGraph Reach Matches Reports)

namespace Spec

/-- The tag under which point `i` is reported. -/
def tagOf (tags : List Nat) (i : Nat) : Nat := if tags = [] then i else tags.getD i 0

/-- The distance between the query and row `i` of the data file, both padded with zeros. -/
def fileDist (cmp : Bytes → Bytes → F32) (es dim : Nat) (rows : List Bytes) (q : Bytes) (i : Nat) : F32 :=
  cmp q (padTo (roundUp8 dim * es) (rows.getD i []))

end Spec

theorem matches_congr {L : Type} {u : Bool} {univ : L} {f a b : List L} (h : ∀ x, x ∈ a ↔ x ∈ b)
    (hm : Matches u univ f a) : Matches u univ f b := by
  rcases hm with h1 | ⟨l, h1, h2⟩ | ⟨h1, h2⟩
  · exact Or.inl h1
  · exact Or.inr (Or.inl ⟨l, h1, (h l).mp h2⟩)
  · refine Or.inr (Or.inr ⟨h1, h2.imp id (h univ).mp⟩)

theorem reports_imp {tag tag' : Nat → Nat} {d d' : Nat → F32} {good good' : Nat → Prop} {ids ind : List Nat} {dst : List F32}
    (h : Reports tag d good ids ind dst) (hg : ∀ i, good i → good' i) (ht : ∀ i, good' i → tag i = tag' i)
    (hd : ∀ i, good' i → d i = d' i) : Reports tag' d' good' ids ind dst where
  tags := by rw [h.tags]; exact List.map_congr_left (fun i hi => ht i (hg i (h.good i hi)))
  dists := by rw [h.dists]; exact List.map_congr_left (fun i hi => hd i (hg i (h.good i hi)))
  distinct := h.distinct
  good := fun i hi => hg i (h.good i hi)
  sorted := by
    refine h.sorted.imp_of_mem ?_
    intro i j hi hj hle
    rw [← hd i (hg i (h.good i hi)), ← hd j (hg j (h.good j hj))]; exact hle

/-- A built object, viewed by its searches. -/
theorem Built.view_ok {es dim : Nat} {cmp : Bytes → Bytes → F32} {r : VamanaRun} {rows : List Bytes} {tags : List Nat}
    {labelFile : Option Bytes} {lab : Nat → List Label} {o o' : IdxObj} (h1 : 1 ≤ rows.length)
    (htl : tags = [] ∨ tags.length = rows.length)
    (ho : Constructed es dim rows tags labelFile lab o) (hb : Built es cmp r o o') : (o'.view es cmp).OK := by
  have hrows : o'.rows es = o.rows es := by rw [hb.same]; rfl
  have hdl : (o'.view es cmp).ctx.data.length = o.n := by
    show (o'.rows es).length = o.n
    rw [hrows, ho.vecs, List.length_map, ho.n]
  have htags : o'.tags = o.tags := by rw [hb.same]
  constructor
  · rw [hdl, ho.n]; exact h1
  · refine ⟨by rw [hdl]; exact hb.len, ?_⟩
    intro nb hnb x hx
    obtain ⟨v, hv⟩ := List.getElem?_of_mem hnb
    rw [hdl]; exact (hb.edges v nb hv x hx).1
  · show o'.tags.length = _
    rw [hdl, htags, ho.tagMap, ho.n]
    rcases htl with rfl | h
    · simp
    · split
      · simp
      · exact h
  · rw [hdl]; exact hb.start
  · intro p hp
    rw [hdl]; exact (hb.carry p.1 p.2 hp).1

/-- What a Vamana search of a built object reports, in terms of the files. -/
theorem Built.search {es dim : Nat} {cmp : Bytes → Bytes → F32} (hsym : ∀ a b, cmp a b = cmp b a) {r : VamanaRun}
    {rows : List Bytes} {tags : List Nat}
    {labelFile : Option Bytes} {lab : Nat → List Label} {o o' : IdxObj} (h1 : 1 ≤ rows.length)
    (htl : tags = [] ∨ tags.length = rows.length)
    (ho : Constructed es dim rows tags labelFile lab o) (hord : o.filtered = true → ∀ l, l ∈ r.order ↔ l ∈ o.seen) (hb : Built es cmp r o o')
    (sortF : List Nbr → List Nbr) (hsF : IsStdSort sortF) (q : Bytes)
    (hnum : ∀ i, i < rows.length → (Spec.fileDist cmp es dim rows q i).IsNum) (filters : List Label)
    (hflt : filters ≠ [] → labelFile ≠ none) (rc L : Nat) (hL : Spec.ListFits rows.length L) (hL1 : 1 ≤ L) (hrc : rc ≤ L)
    (ind : List Nat) (dst : List F32) (hind : rc ≤ ind.length) (hdst : rc ≤ dst.length) :
    ∃ (ids ind' : List Nat) (dst' : List F32),
      vamanaSearch sortF (o'.view es cmp) q rc L ind dst filters = .ok (ind', dst', ids.length) ∧
      Reports (Spec.tagOf tags) (Spec.fileDist cmp es dim rows q)
        (fun i => i < rows.length ∧ (filters ≠ [] → Matches true [48] filters (lab i))) ids ind' dst' ∧
      ids.length ≤ rc ∧
      (1 ≤ rc → (filters = [] ∨ ∃ l ∈ filters, ∃ i < rows.length, l ∈ lab i) → 1 ≤ ids.length) ∧
      ind'.drop rc = ind.drop rc ∧ dst'.drop rc = dst.drop rc := by
  have hok := hb.view_ok h1 htl ho
  have hrows : o'.rows es = o.rows es := by rw [hb.same]; rfl
  have hdl : (o'.view es cmp).ctx.data.length = rows.length := by
    show (o'.rows es).length = _
    rw [hrows, ho.vecs, List.length_map]
  have hlabs : o'.labels = o.labels := by rw [hb.same]
  have hfil : filters ≠ [] → o.filtered = true := by
    intro h
    rw [ho.filtered, Option.isSome_iff_ne_none]; exact hflt h
  have hlab : filters ≠ [] → (o'.view es cmp).ctx.labels.length = (o'.view es cmp).ctx.data.length := by
    intro h
    show o'.labels.length = _
    rw [hdl, hlabs, ho.labelsLen (hfil h)]
  have hdist : (o'.view es cmp).Dist q (Spec.fileDist cmp es dim rows q) := by
    refine ⟨?_, fun v _ => hsym v q, fun i hi => hnum i (by omega)⟩
    intro i v hv
    have hv' : (rows.map (Spec.padTo (roundUp8 dim * es)))[i]? = some v := by
      rw [← ho.vecs, ← hrows]; exact hv
    rw [List.getElem?_map] at hv'
    obtain ⟨row, hrow, rfl⟩ := Option.map_eq_some_iff.mp hv'
    show cmp q _ = cmp q _
    rw [List.getD_eq_getElem?_getD, hrow]; rfl
  obtain ⟨ids, ind', dst', e, hrep, hle, hpos, -, -, hi1, hd1, -⟩ := (graphSearch_spec sortF hsF (o'.view es cmp) hok q _
    hdist filters hlab (vamanaInit (o'.view es cmp) filters) (vamanaInit_lt hok filters) rc L hL1 (by rw [hdl]; exact hL) ind dst).1
    ⟨by omega, hind, hdst⟩
  refine ⟨ids, ind', dst', e, ?_, hle, ?_, hi1, hd1⟩
  · have hgood : ∀ i, Reach (o'.view es cmp).graph (fun j => filterAccepts (o'.view es cmp).ctx filters j = .ok true)
        (vamanaInit (o'.view es cmp) filters) i →
        i < rows.length ∧ (filters ≠ [] → Matches true [48] filters (lab i)) := by
      intro i hi
      have hil : i < rows.length := by
        rw [← hdl]
        induction hi with
        | start h => exact vamanaInit_lt hok filters _ h
        | step _ hE _ _ =>
          obtain ⟨nb, hnb, hx⟩ := hE
          exact hok.graph.edges nb (List.mem_of_getElem? hnb) _ hx
      refine ⟨hil, fun hne => ?_⟩
      have hf := hfil hne
      have hil2 : i < o.labels.length := by rw [ho.labelsLen hf]; exact hil
      have hperm := ho.labels hf i _ (List.getElem?_eq_getElem hil2)
      apply matches_congr (a := o.labels[i]) (fun x => hperm.mem_iff)
      cases hi with
      | start h =>
        unfold vamanaInit at h
        rw [if_pos (by simpa using hne)] at h
        obtain ⟨x, hx, h⟩ := List.mem_filterMap.1 h
        obtain ⟨l1, l2, hl, _⟩ := List.lookup_eq_some_iff.1 h
        have hmem : (x, i) ∈ o'.medoids := by
          have : (o'.view es cmp).medoids = o'.medoids := rfl
          rw [← this, hl]; simp
        obtain ⟨-, ls, hls, hc⟩ := hb.carry x i hmem
        have hls' : o.labels[i]? = some ls := hls
        rw [List.getElem?_eq_getElem hil2] at hls'
        cases hls'
        rcases hc with hc | ⟨-, hc⟩
        · exact Or.inr (Or.inl ⟨x, hx, hc⟩)
        · refine Or.inr (Or.inr ⟨rfl, Or.inr ?_⟩)
          have : (o.view es cmp).ctx.univ = [48] := ho.univ
          rw [← this]; exact hc
      | step _ _ hacc =>
        have hacc' : filterAccepts (o'.view es cmp).ctx filters i = .ok true := hacc
        have hs := filterAccepts_sound (c := (o'.view es cmp).ctx) (labs := o.labels[i]) (fun _ => by
          show o'.labels[i]? = _
          rw [hlabs]; exact List.getElem?_eq_getElem hil2) hacc'
        have hu1 : (o'.view es cmp).ctx.useUniv = true := by
          show o'.useUniv = true; rw [hb.same]; exact ho.useUniv
        have hu2 : (o'.view es cmp).ctx.univ = [48] := by
          show o'.univ = [48]; rw [hb.same]; exact ho.univ
        rw [hu1, hu2] at hs
        exact hs
    refine reports_imp hrep hgood ?_ (fun _ _ => rfl)
    intro i hi
    have : (o'.view es cmp).tags = if tags = [] then List.range rows.length else tags := by
      show o'.tags = _
      rw [hb.same]; exact ho.tagMap
    rw [this]
    unfold Spec.tagOf
    split
    · rw [List.getD_eq_getElem?_getD, List.getElem?_range hi.1]; rfl
    · rfl
  · intro hr1 hex
    refine hpos ?_ hr1
    unfold vamanaInit
    rcases hex with rfl | ⟨l, hl, i, hi, hli⟩
    · simp
    · have hne : filters ≠ [] := by rintro rfl; cases hl
      rw [if_pos (by simpa using hne)]
      have hkey : l ∈ o'.medoids.map Prod.fst := by
        rw [hb.known (hfil hne), hord (hfil hne), ho.seen (hfil hne)]
        exact ⟨i, hi, hli⟩
      intro hnil
      rw [List.filterMap_eq_nil_iff] at hnil
      have := hnil l hl
      have h2 : (o'.view es cmp).medoids = o'.medoids := rfl
      rw [h2, List.lookup_eq_none_iff] at this
      obtain ⟨p, hp, rfl⟩ := List.mem_map.mp hkey
      have := this p hp
      simp at this

/-- **C78 (Vamana).** Take any well-formed data file with 10 to 2^31 - 1 points, tags or none, a label file with a label for every point or
none; construct the object; build it with any parameters (a list size of at least 1 that fits, `Spec.ListFits`), any results of `rand` and under any schedule of
the threads; save it over whatever was stored there (but a left-over table of label entry points); load it into a fresh
object.  Nothing goes wrong on the way, unless the parallel loop has not ended yet; and every search of the loaded object with `1 ≤ L` and
`res_count ≤ L` reports only rows of the file, each with its own tag and its own distance to the query, nearest first, none twice, and with
a filter only rows whose line of the label file matches; and at least one row if one is asked for and there is no filter or a label of the filter
occurs in the label file. -/
theorem C78_vamana {P : Type} [DecidableEq P] (nm : Part → P) (hnm : Function.Injective nm) (fs : FS P)
    (sortL : List Label → List Label) (hsort : IsStrSort sortL) (j j' : Junk) (hj : j.WF) (hj' : j'.WF)
    (es dim : Nat) (hes : 1 ≤ es) (cmp : Bytes → Bytes → F32) (hsym : ∀ a b, cmp a b = cmp b a)
    (rows : List Bytes) (b : Bytes) (tags : List Nat) (labelFile : Option Bytes) (lab : Nat → List Label)
    (hin : InputOK es dim rows b tags labelFile lab) (h10 : 10 ≤ rows.length)
    (hold : labelFile = none → fs (nm .medoids) = none) :
    ∃ o1, ctorObj sortL j es (some b) tags (labelFile.map some) = .ok o1 ∧
      ∀ r : VamanaRun, r.OK o1 → vamanaBuild es cmp r o1 = .error .loop ∨
        ∃ o2 ops, vamanaBuild es cmp r o1 = .ok o2 ∧ vamanaSave es nm o2 = .ok ops ∧
        ∀ (o0 : IdxObj) (fuel : Nat), IsFresh o0 → rows.length < fuel →
        ∃ o3, vamanaLoad sortL j' fuel es nm (runOps ops fs) o0 = .ok (o3, false) ∧
        o3.adim = roundUp8 dim ∧ o3.tags[0]? = some (Spec.tagOf tags 0) ∧ (∀ nb ∈ o3.graph, nb.length ≤ r.R) ∧
        ∀ (sortF : List Nbr → List Nbr), IsStdSort sortF → ∀ (q : Bytes),
        (∀ i, i < rows.length → (Spec.fileDist cmp es dim rows q i).IsNum) →
        ∀ (filters : List Label), (filters ≠ [] → labelFile ≠ none) →
        ∀ (rc L : Nat), Spec.ListFits rows.length L → 1 ≤ L → rc ≤ L →
        ∀ (ind : List Nat) (dst : List F32), rc ≤ ind.length → rc ≤ dst.length →
        ∃ (ids ind' : List Nat) (dst' : List F32),
          vamanaSearch sortF (o3.view es cmp) q rc L ind dst filters = .ok (ind', dst', ids.length) ∧
          Reports (Spec.tagOf tags) (Spec.fileDist cmp es dim rows q)
            (fun i => i < rows.length ∧ (filters ≠ [] → Matches true [48] filters (lab i))) ids ind' dst' ∧
          ids.length ≤ rc ∧
          (1 ≤ rc → (filters = [] ∨ ∃ l ∈ filters, ∃ i < rows.length, l ∈ lab i) → 1 ≤ ids.length) ∧
          ind'.drop rc = ind.drop rc ∧ dst'.drop rc = dst.drop rc := by
  obtain ⟨o1, ec, ho⟩ := ctorObj_spec sortL hsort j hj hin
  refine ⟨o1, ec, fun r hr => ?_⟩
  obtain ⟨med, start, s, em, -, -, -, -, -, hno, hyes⟩ :=
    vamanaBuild_spec hes hsym h10 hin.few hin.matrix ho hr
  by_cases hfin : s.Finished
  swap
  · exact Or.inl (hno hfin)
  right
  obtain ⟨o2, eb, hb, -⟩ := hyes hfin
  have hfew := hin.few
  have hsave : Saveable es o2 rows := by
    have h1 := ctorObj_saveable sortL hsort j hj es dim rows b hin.file hin.matrix (by omega) hin.dims hin.bytes tags
      hin.tagsLt labelFile o1 ec ho.nonempty o2.graph o2.maxDeg o2.start hb.len
      (by
        intro nb hnb
        have h2 := hb.deg nb hnb
        have h3 := hr.R
        refine ⟨by omega, fun x hx => ?_⟩
        obtain ⟨v, hv⟩ := List.getElem?_of_mem hnb
        have h4 := (hb.edges v nb hv x hx).1
        rw [ho.n] at h4; omega)
      (by have h2 := hb.maxDeg; have h3 := hr.R; omega) (by have h2 := hb.start; rw [ho.n] at h2; omega) o2.medoids
    rw [← hb.same] at h1
    exact h1
  have hf2 : o2.filtered = o1.filtered := by rw [hb.same]
  have hmed : MedoidFileOK nm fs o2 := by
    refine ⟨⟨hb.keys, ?_⟩, ?_⟩
    · intro e he
      have hc := hb.carry e.1 e.2 he
      refine ⟨?_, by have := hc.1; rw [ho.n] at this; omega⟩
      have hfil : o1.filtered = true := by
        cases hx : o1.filtered with
        | true => rfl
        | false => rw [hb.plain hx] at he; cases he
      have hkey := (hb.known hfil e.1).mp (List.mem_map.mpr ⟨e, he, rfl⟩)
      rw [hr.order, ho.seen hfil] at hkey
      obtain ⟨i, hi, hx⟩ := hkey
      have hil : i < o1.labels.length := by rw [ho.labelsLen hfil]; exact hi
      have hl2 : o2.labels = o1.labels := by rw [hb.same]
      have hfit := (hsave.labelled (by rw [hf2]; exact hfil)).1
      rw [hl2] at hfit
      exact (hfit _ (List.getElem_mem hil)).2.1 e.1
        ((ho.labels hfil i _ (List.getElem?_eq_getElem hil)).mem_iff.mpr hx)
    · cases hx : o1.filtered with
      | false =>
        right
        refine ⟨hb.plain hx, hold ?_⟩
        rw [ho.filtered] at hx
        cases labelFile with
        | none => rfl
        | some _ => cases hx
      | true =>
        left
        refine ⟨by rw [hf2]; exact hx, ?_⟩
        intro hnil
        have hl0 : 0 < o1.labels.length := by rw [ho.labelsLen hx]; omega
        obtain ⟨l, hl, -⟩ := ho.nonempty _ (List.getElem_mem hl0)
        have hs : l ∈ o1.seen := (ho.seen hx l).mpr ⟨0, by omega,
          (ho.labels hx 0 _ (List.getElem?_eq_getElem hl0)).mem_iff.mp hl⟩
        have := (hb.known hx l).mpr ((hr.order l).mpr hs)
        rw [hnil] at this; cases this
  have hn2 : o2.n = rows.length := by rw [hb.same]; exact ho.n
  have hops : ∃ ops, vamanaSave es nm o2 = .ok ops := by
    obtain ⟨ops, h, -⟩ := vamanaSave_holds nm hnm hsave fs
    exact ⟨ops, h⟩
  obtain ⟨ops, hops⟩ := hops
  refine ⟨o2, ops, eb, hops, fun o0 fuel h0 hfuel => ?_⟩
  obtain ⟨ops', o3, e1, e2, hview, hsame, -⟩ := C41_vamana_reload nm hnm fs es o2 rows hsave hmed sortL hsort j' hj' o0 h0 fuel
    (by rw [hn2]; exact hfuel) cmp
  rw [hops] at e1
  cases e1
  refine ⟨o3, e2, ?_, ?_, ?_, ?_⟩
  · rw [hsame, hb.same]; exact ho.adim
  · have h1 : o3.tags = o1.tags := by rw [hsame, hb.same]
    rw [h1, ho.tagMap]
    unfold Spec.tagOf
    split
    · rw [List.getElem?_range (by omega)]
    · rename_i hne
      rcases hin.tagsLen with h | h
      · exact absurd h hne
      · rw [List.getD_eq_getElem?_getD, List.getElem?_eq_getElem (by omega)]; rfl
  · have : o3.graph = o2.graph := congrArg GIdx.graph hview
    rw [this]; exact hb.deg
  · intro sortF hsF q hnum filters hflt rc L hL hL1 hrc ind dst hind hdst
    rw [hview]
    exact hb.search hsym (by omega) hin.tagsLen ho (fun _ => hr.order) sortF hsF q hnum filters hflt rc L hL hL1 hrc ind dst hind hdst

/-- **C78 (the build ends).** Under every schedule in which no thread is left waiting for ever, the build ends after finitely many steps. -/
theorem C78_vamana_ends (sortL : List Label → List Label) (hsort : IsStrSort sortL) (j : Junk) (hj : j.WF)
    (es dim : Nat) (hes : 1 ≤ es) (cmp : Bytes → Bytes → F32) (hsym : ∀ a b, cmp a b = cmp b a)
    (rows : List Bytes) (b : Bytes) (tags : List Nat) (labelFile : Option Bytes) (lab : Nat → List Label)
    (hin : InputOK es dim rows b tags labelFile lab) (h10 : 10 ≤ rows.length) (o1 : IdxObj)
    (hc : ctorObj sortL j es (some b) tags (labelFile.map some) = .ok o1) (r : VamanaRun) (hr : r.OK o1)
    (f : Nat → Nat) (hfair : ∀ i < rows.length, ∀ k, ∃ m ≥ k, f m = i) :
    ∃ N o2, vamanaBuild es cmp { r with sched := (List.range N).map f } o1 = .ok o2 := by
  obtain ⟨o1', ec, ho⟩ := ctorObj_spec sortL hsort j hj hin
  rw [hc] at ec
  cases ec
  have hr' : ∀ N, ({ r with sched := (List.range N).map f } : VamanaRun).OK o1 := fun N =>
    ⟨hr.L, hr.L', hr.R, hr.sortF, hr.sortOut, hr.sortIn, hr.orderNodup, hr.orderLen, hr.order⟩
  obtain ⟨med, start, s, em, hcfg, hcn, hres, est, -, -, -⟩ := vamanaBuild_spec hes hsym h10 hin.few hin.matrix ho hr
  obtain ⟨N, s', es', hfin⟩ := C62_build_terminates _ hcfg (freshAdj o1.n) (by rw [← hcn]; exact freshAdj_valid _) f
    (by rw [hcn, ho.n]; exact hfair)
  obtain ⟨med2, start2, s2, em2, -, -, -, est2, es2, -, hyes⟩ :=
    vamanaBuild_spec hes hsym h10 hin.few hin.matrix ho (hr' N)
  have hm2 : med2 = med := by
    have h1 : vamanaLabels es cmp { r with sched := (List.range N).map f } o1 = vamanaLabels es cmp r o1 := rfl
    rw [h1, em] at em2
    cases em2; rfl
  have hs2 : start2 = start := by
    have h1 : medoid ({ r with sched := (List.range N).map f } : VamanaRun).mops ((o1.rows es).map (elems es)) o1.adim =
      medoid r.mops ((o1.rows es).map (elems es)) o1.adim := rfl
    rw [h1, est] at est2
    cases est2; rfl
  subst hm2
  subst hs2
  have h1 : vamanaRunCfg es cmp { r with sched := (List.range N).map f } o1 med2 start2 =
    vamanaRunCfg es cmp r o1 med2 start2 := rfl
  rw [h1, es'] at es2
  cases es2
  obtain ⟨o2, e, -⟩ := hyes hfin
  exact ⟨N, o2, e⟩

/-! ## A concrete index -/

theorem insertionSort_sortsBy {α V : Type} [LinearOrder V] (key : α → V) :
    SortsBy key (fun l => l.insertionSort (fun x y => key x ≤ key y)) := by
  have h1 : Std.Total (fun x y : α => key x ≤ key y) := ⟨fun a b => le_total _ _⟩
  have h2 : IsTrans α (fun x y : α => key x ≤ key y) := ⟨fun a b c => le_trans⟩
  exact ⟨fun l => List.perm_insertionSort _ l, fun l => List.pairwise_insertionSort _ l⟩

/-- Ten points of dimension 1 with one-byte elements. -/
def exRows10 : List Bytes := [[49], [50], [54], [46], [55], [45], [56], [44], [57], [43]]

def exFile10 : Bytes := [10, 0, 0, 0, 1, 0, 0, 0, 49, 50, 54, 46, 55, 45, 56, 44, 57, 43]

/-- The label file: `a` on the even lines, `b,a` on the odd ones. -/
def exLabels10 : Bytes := (List.replicate 5 ([97, 10, 98, 44, 97, 10] : Bytes)).flatten

def exLab (i : Nat) : List Label := if i % 2 = 0 then [[97]] else [[98], [97]]

def exCmpB (a b : Bytes) : F32 := exSq (a.headD 0).toNat (b.headD 0).toNat

def exMedB : MedoidOps Bytes where
  addT := fun a x => exMedOps.addT a (unle x)
  divN := exMedOps.divN
  sqDiff := fun c x => exMedOps.sqDiff c (unle x)
  add := exMedOps.add

/-- All tasks take turns. -/
def exRun : VamanaRun where
  L := 4
  R := 2
  C := 100
  alpha := F32.one
  pruningRule := 0
  sortF := exSort
  sortOut := fun l => l.insertionSort (fun x y => id x ≤ id y)
  sortIn := fun l => l.insertionSort (fun x y => x.2 ≤ y.2)
  div := exDiv1
  mops := exMedB
  order := [[98], [97]]
  draw := fun k => k
  sched := (List.range 400).map (fun k => k % 10)

theorem exInput10 : InputOK 1 1 exRows10 exFile10 [] (some exLabels10) exLab where
  file := by unfold Spec.BinFile; decide
  matrix := by unfold Spec.Matrix; decide
  size := by decide
  few := by decide
  dims := by decide
  bytes := by decide
  tagsLen := Or.inl rfl
  tagsLt := by simp
  labels := by
    intro lf h
    cases h
    refine ⟨pieces 10 exLabels10, (pieces 10 exLabels10).map (pieces 44), pieces_split _ _, forall₂_pieces _, by decide,
      by decide, ?_, ?_⟩
    · intro i fs hi
      have hlt := (List.getElem?_eq_some_iff.mp hi).1
      have hlt : i < 10 := hlt
      have : ∀ i < 10, (((pieces 10 exLabels10).map (pieces 44))[i]?).getD [] = exLab i ∧
          ∀ t ∈ exLab i, t.filter (fun c => c ≠ 10 ∧ c ≠ 13) = t := by decide
      obtain ⟨h1, h2⟩ := this i hlt
      rw [hi] at h1
      have h1 : fs = exLab i := h1
      rw [h1]
      exact ((List.map_congr_left h2).trans (List.map_id' _)).symm
    · intro i _
      refine ⟨[97], ?_, by decide⟩
      unfold exLab
      split <;> decide

/-- The object that the constructor makes, and the built one. -/
def exObj10 : Res IdxObj := ctorObj exStrSort exJunk 1 (some exFile10) [] (some (some exLabels10))

theorem exRun_ok (o : IdxObj) (h : exObj10 = .ok o) : exRun.OK o where
  L := by decide
  L' := .of_le (by decide)
  R := by decide
  sortF := exSort_isStdSort
  sortOut := insertionSort_sortsBy id
  sortIn := insertionSort_sortsBy Prod.snd
  orderNodup := by decide
  orderLen := by decide
  order := by
    have h2 : ∃ o, exObj10 = .ok o ∧ o.seen.dedup = [[98], [97]] := ⟨_, rfl, by decide +kernel⟩
    obtain ⟨o', e, hs⟩ := h2
    rw [h] at e
    cases e
    intro l
    rw [← List.mem_dedup (l := o.seen), hs]
    rfl

/-- C78 applies to it; the build ends with this schedule; and a search of the loaded index for the label `b` finds the
two closest points that carry it. -/
example : (∃ o, exObj10 = .ok o ∧ exRun.OK o) ∧
    (do let o1 ← exObj10
        let o2 ← vamanaBuild 1 exCmpB exRun o1
        let ops ← vamanaSave 1 (id : Part → Part) o2
        let r ← vamanaLoad exStrSort exJunk 11 1 (id : Part → Part) (runOps ops (fun _ => none)) IdxObj.fresh
        let a ← vamanaSearch exSort (r.1.view 1 exCmpB) [51] 2 4 [0, 0] [F32.zero, F32.zero] [[98]]
        .ok (a.1, a.2.2) : Res (List Nat × Nat)) = .ok ([1, 3], 2) := by
  refine ⟨?_, by decide +kernel⟩
  obtain ⟨o, e, -⟩ := ctorObj_spec exStrSort exStrSort_isStrSort exJunk exJunk_WF exInput10
  exact ⟨o, e, exRun_ok o e⟩

/-! ## The theorems applied to it -/

example := C78_vamana (id : Part → Part) (fun _ _ h => h) (fun _ => none) exStrSort exStrSort_isStrSort exJunk exJunk exJunk_WF exJunk_WF
  1 1 (by decide) exCmpB (fun a b => exSq_comm _ _) exRows10 exFile10 [] (some exLabels10) exLab exInput10 (by decide) (fun h => by cases h)

example (o1 : IdxObj) (h : exObj10 = .ok o1) := C78_vamana_ends exStrSort exStrSort_isStrSort exJunk exJunk_WF
  1 1 (by decide) exCmpB (fun a b => exSq_comm _ _) exRows10 exFile10 [] (some exLabels10) exLab exInput10 (by decide) o1 h exRun
  (exRun_ok o1 h) (fun k => k % 10) (fun i hi k => ⟨10 * k + i, by omega, by
    have : i < 10 := hi
    omega⟩)

end Grann
