import Verif.Model.Persist
import Verif.Props.BinFile
import Verif.Props.GraphFile
import Verif.Props.LabelFile
import Mathlib.Logic.Function.Basic
/-!
# Lemmas about saving and loading whole indices
-/

namespace Grann

/-- The part of an object that belongs to the base class, as the constructor leaves it, of a size the file
formats can express. -/
structure BaseSaveable (es : Nat) (o : IdxObj) (rows : List Bytes) : Prop where
  matrix : Spec.Matrix es o.dim rows
  rows_n : rows.length = o.n
  data : o.data = (rows.map (Spec.padTo (o.adim * es))).flatten
  adim : o.adim = roundUp8 o.dim
  n_lt : o.n < 4294967296
  dim_lt : o.dim < 4294967296
  size : o.n * o.dim * es + 8 < 2305843009213693952
  tags_len : o.tags.length = o.n
  tags_lt : ∀ t ∈ o.tags, t < 4294967296
  labelled : o.filtered = true → LabelsFit o.labels ∧ o.labels.length = o.n ∧ o.univ ≠ [] ∧
    ∀ c ∈ o.univ, isSpace c = false
  unlabelled : o.filtered = false → o.labels = [] ∧ o.univ = [48]
  univ : o.useUniv = true

/-- An index object as the constructor and the build leave it, of a size the file formats can express. -/
structure Saveable (es : Nat) (o : IdxObj) (rows : List Bytes) : Prop extends BaseSaveable es o rows where
  graph_len : o.graph.length = o.n
  graph_fits : Spec.GraphFits o.graph
  maxDeg : o.maxDeg < 4294967296
  start : o.start < 4294967296

/-- An object into which nothing has been loaded. -/
structure IsFresh (o : IdxObj) : Prop where
  labels : o.labels = []
  seen : o.seen = []
  filtered : o.filtered = false
  useUniv : o.useUniv = true
  univ : o.univ = [48]
  graph : o.graph = []
  medoids : o.medoids = []

/-- The data, tag and label files of an index are in place. -/
structure HoldsBase {P : Type} (nm : Part → P) (fs : FS P) (o : IdxObj) (rows : List Bytes) : Prop where
  data : fs (nm .data) = some (le 4 o.n ++ (le 4 o.dim ++ rows.flatten))
  tags : fs (nm .tags) = some (le 4 o.n ++ (le 4 1 ++ le32s o.tags))
  labels : fs (nm .labels) =
    if o.filtered then some (o.labels.flatMap (fun r => joinComma r ++ [10])) else none
  univ : fs (nm .univ) = if o.filtered then some (o.univ ++ [10]) else none

theorem LabelsFit.ne {pts : List (List Label)} (h : LabelsFit pts) : ∀ r ∈ pts, r ≠ [] := by
  intro r hr he
  obtain ⟨l, hl, -⟩ := (h r hr).2.2
  rw [he] at hl; simp at hl

variable {P : Type} [DecidableEq P]

theorem runOps_ne (ops : List (FOp P)) (q : P)
    (h : ∀ op ∈ ops, match op with
      | .create p => q ≠ p | .append p _ => q ≠ p | .patch p _ => q ≠ p | .remove p => q ≠ p)
    (fs : FS P) : runOps ops fs q = fs q := by
  induction ops generalizing fs with
  | nil => rfl
  | cons op ops ih =>
    have h0 := h op (by simp)
    rw [show runOps (op :: ops) fs = runOps ops (op.run fs) from rfl,
      ih (fun x hx => h x (by simp [hx]))]
    cases op <;> simp only [FOp.run] at h0 ⊢ <;> rw [if_neg h0]

theorem labelOps_run (nm : Part → P) (hnm : Function.Injective nm) {es : Nat} {o : IdxObj}
    {rows : List Bytes} (hs : BaseSaveable es o rows) (fs : FS P) :
    ∃ ops, labelOps nm o = .ok ops ∧
      runOps ops fs (nm .labels) =
        (if o.filtered then some (o.labels.flatMap (fun r => joinComma r ++ [10])) else none) ∧
      runOps ops fs (nm .univ) = (if o.filtered then some (o.univ ++ [10]) else none) ∧
      ∀ q, q ≠ nm .labels → q ≠ nm .univ → runOps ops fs q = fs q := by
  have hlu : nm .labels ≠ nm .univ := fun e => by cases hnm e
  by_cases hf : o.filtered = true
  · obtain ⟨hl, -, -, -⟩ := hs.labelled hf
    obtain ⟨ops, ho, hr⟩ := saveLabels_run (nm .labels) o.labels hl.ne fs
    refine ⟨ops ++ univOps nm o, ?_, ?_, ?_, ?_⟩
    · unfold labelOps; rw [if_pos hf, ho]; rfl
    all_goals rw [runOps_append, hr]; unfold univOps; rw [if_pos hs.univ]
    · simp [runOps, FOp.run, hlu, hf]
    · simp [runOps, FOp.run, hf]
    · intro q h1 h2; simp [runOps, FOp.run, h1, h2]
  · refine ⟨[.remove (nm .labels), .remove (nm .univ)], ?_, ?_, ?_, ?_⟩
    · unfold labelOps; rw [if_neg hf]
    · simp [runOps, FOp.run, hf]
    · simp [runOps, FOp.run, hf]
    · intro q h1 h2; simp [runOps, FOp.run, h1, h2]

/-- Saving puts the files in place and touches no other files. -/
theorem saveBase_holds (nm : Part → P) (hnm : Function.Injective nm) {es : Nat} {o : IdxObj}
    {rows : List Bytes} (hs : BaseSaveable es o rows) (fs : FS P) :
    ∃ ops, saveBase es nm o = .ok ops ∧ HoldsBase nm (runOps ops fs) o rows ∧
      ∀ q, q ≠ nm .data → q ≠ nm .tags → q ≠ nm .labels → q ≠ nm .univ → runOps ops fs q = fs q := by
  have ne : ∀ {a b : Part}, a ≠ b → nm a ≠ nm b := fun h e => h (hnm e)
  have hda : o.dim ≤ o.adim := by rw [hs.adim]; exact (roundUp8_spec _).1
  obtain ⟨d, hd, hdr⟩ := saveOrig_run (nm .data) (es := es) hda hs.matrix fs
  rw [← hs.data, hs.rows_n] at hd
  rw [hs.rows_n] at hdr
  obtain ⟨l, hl, hl1, hl2, hl3⟩ := labelOps_run nm hnm hs
    (runOps (d ++ saveBin (nm .tags) o.n 1 (le32s (o.tags.take o.n))) fs)
  refine ⟨d ++ saveBin (nm .tags) o.n 1 (le32s (o.tags.take o.n)) ++ l, ?_, ⟨?_, ?_, ?_, ?_⟩, ?_⟩
  · unfold saveBase tagBytes
    rw [hd, Res.ok_bind, if_pos (by rw [hs.tags_len]), Res.ok_bind, hl]; rfl
  · rw [runOps_append, hl3 _ (ne (by decide)) (ne (by decide)), runOps_append, saveBin_run, hdr]
    dsimp only
    rw [if_neg (ne (by decide)), if_pos rfl]
  · rw [runOps_append, hl3 _ (ne (by decide)) (ne (by decide)), runOps_append, saveBin_run]
    dsimp only
    rw [if_pos rfl, List.take_of_length_le (by rw [hs.tags_len])]
  · rw [runOps_append, hl1]
  · rw [runOps_append, hl2]
  · intro q h1 h2 h3 h4
    rw [runOps_append, hl3 q h3 h4, runOps_append, saveBin_run, hdr]
    dsimp only
    rw [if_neg h2, if_neg h1]

omit [DecidableEq P] in
/-- Loading what is in place. -/
theorem loadBase_holds (sortL : List Label → List Label) (hsort : IsStrSort sortL) (j : Junk) (hj : j.WF)
    (nm : Part → P) {es : Nat} {o : IdxObj} {rows : List Bytes} (hs : BaseSaveable es o rows) (fs : FS P)
    (hh : HoldsBase nm fs o rows) (o0 : IdxObj) (h0 : IsFresh o0) :
    ∃ seen, loadBase sortL j es nm fs o0 =
      .ok { o with seen := seen, maxDeg := o0.maxDeg, start := o0.start, graph := [], medoids := [] } := by
  obtain ⟨j1, j2, j3, j4, -⟩ := hj
  have hsz := hs.size
  have hn := hs.n_lt
  have hd := loadAligned_ok (es := es) (d := o.dim) hs.matrix (by rw [hs.rows_n]; exact hn) hs.dim_lt
    (by rw [hs.rows_n]; omega) (by rw [hs.rows_n]; exact aligned_size_lt (by omega)) j1 j2 j.mem
  rw [hs.rows_n, ← hs.adim, ← hs.data] at hd
  have ht := loadBin_ok (es := 4) (n := o.n) (d := 1) (data := le32s o.tags) hn (by omega)
    (by rw [le32s_length, hs.tags_len]; omega) (by omega) j3 j4 j.mem
  have hun : un32s (o.n * 1) (le32s o.tags) = o.tags := by
    have := un32s_le32s o.tags hs.tags_lt []
    rw [List.append_nil, hs.tags_len] at this
    rw [Nat.mul_one]; exact this
  unfold loadBase
  rw [hh.data, hd, Res.ok_bind]
  dsimp only
  rw [hh.tags, ht, Res.ok_bind]
  dsimp only
  rw [if_neg (by simp), hh.labels, hh.univ, hun]
  by_cases hf : o.filtered = true
  · obtain ⟨hl, hln, hu, hsp⟩ := hs.labelled hf
    obtain ⟨seen, hp⟩ := parseLabels_saved sortL hsort o.labels hl
    rw [hln] at hp
    refine ⟨seen, ?_⟩
    simp only [hf, if_true, loadLabels, h0.labels, h0.seen, hp, Res.ok_bind, loadUniv]
    rw [C36_universal_label _ _ hu hsp]
    have hfu := hs.univ
    cases o
    simp only at hf hfu
    subst hf hfu
    simp [h0.graph, h0.medoids]
  · have hf' : o.filtered = false := by simpa using hf
    obtain ⟨hl, hu⟩ := hs.unlabelled hf'
    refine ⟨[], ?_⟩
    simp only [hf', Bool.false_eq_true, if_false, loadLabels, Res.ok_bind, loadUniv]
    have hfu := hs.univ
    cases o
    simp only at hf' hfu hl hu
    subst hf' hfu hl hu
    simp [h0.graph, h0.medoids, h0.labels, h0.seen, h0.useUniv, h0.univ, h0.filtered]

omit [DecidableEq P] in
/-- Loading a graph file, possibly cut after `c` bytes. -/
theorem loadGraphInto_cut (j : Junk) (hj : j.WF) (nm : Part → P) {es : Nat} {o : IdxObj} {rows : List Bytes}
    (hs : Saveable es o rows) (fs : FS P) (c : Nat) (hc : 16 ≤ c)
    (hg : fs (nm .graph) = some ((Spec.graphFile o.maxDeg o.start o.graph).take c)) (o1 : IdxObj)
    (h1 : o1.graph = []) (hn : o1.n = o.n) (fuel : Nat) (hf : o.n < fuel) :
    loadGraphInto j fuel nm fs o1 =
      .ok ({ o1 with maxDeg := o.maxDeg, start := o.start, graph := cutGraph o.graph (c - 16) },
        (cutGraph o.graph (c - 16)).length != o.n) := by
  obtain ⟨-, -, -, -, g1, g2, g3, gk⟩ := hj
  unfold loadGraphInto
  rw [hg, loadGraph_cut gk g1 g2 g3 hs.maxDeg hs.start o.graph hs.graph_fits o1.graph o1.n c
    hc fuel (by rw [hs.graph_len]; exact hf), Res.ok_bind, h1, hn]
  rfl

omit [DecidableEq P] in
theorem loadGraphInto_full (j : Junk) (hj : j.WF) (nm : Part → P) {es : Nat} {o : IdxObj} {rows : List Bytes}
    (hs : Saveable es o rows) (fs : FS P)
    (hg : fs (nm .graph) = some (Spec.graphFile o.maxDeg o.start o.graph)) (o1 : IdxObj)
    (h1 : o1.graph = []) (hn : o1.n = o.n) (fuel : Nat) (hf : o.n < fuel) :
    loadGraphInto j fuel nm fs o1 =
      .ok ({ o1 with maxDeg := o.maxDeg, start := o.start, graph := o.graph }, false) := by
  have hl : (Spec.graphFile o.maxDeg o.start o.graph).length = 16 + (encNodes o.graph).length := by
    rw [graphFile_eq]; simp; omega
  rw [loadGraphInto_cut j hj nm hs fs (Spec.graphFile o.maxDeg o.start o.graph).length (by omega)
    (by rw [List.take_length]; exact hg) o1 h1 hn fuel hf, cutGraph_full _ hs.graph_fits _ (by omega)]
  simp [hs.graph_len]

theorem saveGraph_holds (p : P) {es : Nat} {o : IdxObj} {rows : List Bytes} (hs : Saveable es o rows)
    (fs : FS P) :
    ∃ ops, saveGraph p o.n o.maxDeg o.start o.graph = .ok ops ∧
      runOps ops fs = fun q => if q = p then some (Spec.graphFile o.maxDeg o.start o.graph) else fs q := by
  have := saveGraph_run p o.maxDeg o.start o.graph hs.graph_fits fs
  rw [hs.graph_len] at this
  exact this

/-- What RelativeNG (or one level of HNSW) saves. -/
theorem rngSave_holds (nm : Part → P) (hnm : Function.Injective nm) {es : Nat} {o : IdxObj}
    {rows : List Bytes} (hs : Saveable es o rows) (fs : FS P) :
    ∃ ops, rngSave es nm o = .ok ops ∧ HoldsBase nm (runOps ops fs) o rows ∧
      runOps ops fs (nm .graph) = some (Spec.graphFile o.maxDeg o.start o.graph) ∧
      ∀ q, (∀ p, q ≠ nm p) → runOps ops fs q = fs q := by
  have ne : ∀ {a b : Part}, a ≠ b → nm a ≠ nm b := fun h e => h (hnm e)
  obtain ⟨b, hb, hbh, hbq⟩ := saveBase_holds nm hnm hs.toBaseSaveable fs
  obtain ⟨g, hg, hgr⟩ := saveGraph_holds (nm .graph) hs (runOps b fs)
  refine ⟨b ++ g, by unfold rngSave; rw [hb, Res.ok_bind, hg]; rfl, ?_, ?_, ?_⟩
  · rw [runOps_append, hgr]
    constructor <;> rw [if_neg (ne (by decide))]
    · exact hbh.data
    · exact hbh.tags
    · exact hbh.labels
    · exact hbh.univ
  · rw [runOps_append, hgr]; dsimp only; rw [if_pos rfl]
  · intro q hq
    rw [runOps_append, hgr]; dsimp only
    rw [if_neg (hq _), hbq q (hq _) (hq _) (hq _) (hq _)]

omit [DecidableEq P] in
theorem rngLoad_holds (sortL : List Label → List Label) (hsort : IsStrSort sortL) (j : Junk) (hj : j.WF)
    (nm : Part → P) {es : Nat} {o : IdxObj} {rows : List Bytes} (hs : Saveable es o rows) (fs : FS P)
    (hh : HoldsBase nm fs o rows)
    (hg : fs (nm .graph) = some (Spec.graphFile o.maxDeg o.start o.graph)) (o0 : IdxObj) (h0 : IsFresh o0)
    (fuel : Nat) (hf : o.n < fuel) :
    ∃ seen, rngLoad sortL j fuel es nm fs o0 = .ok ({ o with seen := seen, medoids := [] }, false) := by
  obtain ⟨seen, hb⟩ := loadBase_holds sortL hsort j hj nm hs.toBaseSaveable fs hh o0 h0
  refine ⟨seen, ?_⟩
  unfold rngLoad
  rw [hb, Res.ok_bind]
  exact loadGraphInto_full j hj nm hs fs hg
    { o with seen := seen, maxDeg := o0.maxDeg, start := o0.start, graph := [], medoids := [] } rfl rfl fuel hf

/-- What Vamana saves. -/
theorem vamanaSave_holds (nm : Part → P) (hnm : Function.Injective nm) {es : Nat} {o : IdxObj}
    {rows : List Bytes} (hs : Saveable es o rows) (fs : FS P) :
    ∃ ops, vamanaSave es nm o = .ok ops ∧ HoldsBase nm (runOps ops fs) o rows ∧
      runOps ops fs (nm .graph) = some (Spec.graphFile o.maxDeg o.start o.graph) ∧
      runOps ops fs (nm .medoids) = (if o.filtered && o.medoids.length != 0 then
        some (o.medoids.flatMap (fun e => medoidText e ++ [10])) else fs (nm .medoids)) ∧
      ∀ q, (∀ p, q ≠ nm p) → runOps ops fs q = fs q := by
  have ne : ∀ {a b : Part}, a ≠ b → nm a ≠ nm b := fun h e => h (hnm e)
  obtain ⟨b, hb, hbh, hbq⟩ := saveBase_holds nm hnm hs.toBaseSaveable fs
  obtain ⟨g, hg, hgr⟩ := saveGraph_holds (nm .graph) hs (runOps (b ++ medoidOps nm o) fs)
  have hm : ∀ q, runOps (b ++ medoidOps nm o) fs q = if q = nm .medoids then
      (if o.filtered && o.medoids.length != 0 then
        some (o.medoids.flatMap (fun e => medoidText e ++ [10])) else fs (nm .medoids))
      else runOps b fs q := by
    intro q
    rw [runOps_append]
    unfold medoidOps
    split
    · rw [saveMedoids_run]
    · by_cases hq : q = nm .medoids
      · subst hq
        rw [if_pos rfl]
        exact hbq _ (ne (by decide)) (ne (by decide)) (ne (by decide)) (ne (by decide))
      · rw [if_neg hq]; rfl
  refine ⟨b ++ medoidOps nm o ++ g, by unfold vamanaSave; rw [hb, Res.ok_bind, hg]; rfl, ?_, ?_, ?_, ?_⟩
  · rw [runOps_append, hgr]
    constructor <;> rw [if_neg (ne (by decide)), hm, if_neg (ne (by decide))]
    · exact hbh.data
    · exact hbh.tags
    · exact hbh.labels
    · exact hbh.univ
  · rw [runOps_append, hgr]; dsimp only; rw [if_pos rfl]
  · rw [runOps_append, hgr]; dsimp only; rw [if_neg (ne (by decide)), hm, if_pos rfl]
  · intro q hq
    rw [runOps_append, hgr]; dsimp only
    rw [if_neg (hq _), hm, if_neg (hq _), hbq q (hq _) (hq _) (hq _) (hq _)]

end Grann
