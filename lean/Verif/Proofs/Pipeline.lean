import Verif.Model.Pipeline
import Verif.Props.Persist
import Verif.Props.LabelMedoids
import Verif.Props.Medoid
import Verif.Props.Stats
import Verif.Props.Build
import Verif.Props.Search
/-!
# Facts for the whole life of an index (C78)
-/

namespace Grann

/-- The files and tags from which an index is made: a well-formed data file of `rows` with fewer than 2^31 points and
2^61 bytes; no tags or one 32-bit tag per point; no label file, or one with a line per point, where `lab i` are the labels
of line `i` and one of them is not empty. -/
structure InputOK (es dim : Nat) (rows : List Bytes) (b : Bytes) (tags : List Nat) (labelFile : Option Bytes)
    (lab : Nat → List Label) : Prop where
  file : Spec.BinFile dim rows b
  matrix : Spec.Matrix es dim rows
  size : 1 ≤ rows.length
  few : rows.length < 2147483648
  dims : dim < 4294967296
  bytes : b.length < 2305843009213693952
  tagsLen : tags = [] ∨ tags.length = rows.length
  tagsLt : ∀ t ∈ tags, t < 4294967296
  labels : ∀ lf, labelFile = some lf → ∃ lines fields, Spec.SplitBy 10 lf lines ∧
    List.Forall₂ (Spec.SplitBy 44) lines fields ∧ lines.length = rows.length ∧ [] ∉ lines ∧
    (∀ i fs, fields[i]? = some fs → lab i = fs.map (fun t => t.filter (fun c => c ≠ 10 ∧ c ≠ 13))) ∧
    ∀ i, i < rows.length → ∃ l ∈ lab i, l ≠ []

/-- What the constructor makes of the files. -/
structure Constructed (es dim : Nat) (rows : List Bytes) (tags : List Nat) (labelFile : Option Bytes)
    (lab : Nat → List Label) (o : IdxObj) : Prop where
  n : o.n = rows.length
  adim : o.adim = roundUp8 dim
  vecs : o.rows es = rows.map (Spec.padTo (roundUp8 dim * es))
  tagMap : o.tags = if tags = [] then List.range rows.length else tags
  graph : o.graph = []
  medoids : o.medoids = []
  useUniv : o.useUniv = true
  univ : o.univ = [48]
  filtered : o.filtered = labelFile.isSome
  labelsLen : o.filtered = true → o.labels.length = rows.length
  labels : o.filtered = true → ∀ (i : Nat) (ls : List Label), o.labels[i]? = some ls → ls.Perm (lab i)
  nonempty : ∀ r ∈ o.labels, ∃ l ∈ r, l ≠ []
  seen : o.filtered = true → ∀ l, l ∈ o.seen ↔ ∃ i < rows.length, l ∈ lab i
  noLabels : o.filtered = false → o.labels = []
  maxDeg : o.maxDeg = 0
  data : o.data = (rows.map (Spec.padTo (roundUp8 dim * es))).flatten
  origDim : o.dim = dim
  sortedLabels : ∀ l ∈ o.labels, SortedL l

theorem rows_eq {es dim : Nat} {rows : List Bytes} (hm : Spec.Matrix es dim rows) {o : IdxObj} (hn : o.n = rows.length)
    (ha : o.adim = roundUp8 dim) (hd : o.data = (rows.map (Spec.padTo (roundUp8 dim * es))).flatten) :
    o.rows es = rows.map (Spec.padTo (roundUp8 dim * es)) := by
  have hw : ∀ x ∈ rows.map (Spec.padTo (roundUp8 dim * es)), x.length = roundUp8 dim * es := by
    intro x hx
    obtain ⟨r, hr, rfl⟩ := List.mem_map.mp hx
    have h1 := hm r hr
    have h2 : dim * es ≤ roundUp8 dim * es := Nat.mul_le_mul_right _ (roundUp8_spec dim).1
    unfold Spec.padTo
    simp only [List.length_append, List.length_replicate]
    omega
  unfold IdxObj.rows
  apply List.ext_getElem (by simp [hn])
  intro i h1 h2
  rw [List.getElem_map, List.getElem_range, ha, hd]
  exact (drop_take_block _ _ i _ hw (List.getElem?_eq_getElem h2)).1

theorem ctorObj_spec (sortL : List Label → List Label) (hsort : IsStrSort sortL) (j : Junk) (hj : j.WF)
    {es dim : Nat} {rows : List Bytes} {b : Bytes} {tags : List Nat} {labelFile : Option Bytes}
    {lab : Nat → List Label} (h : InputOK es dim rows b tags labelFile lab) :
    ∃ o, ctorObj sortL j es (some b) tags (labelFile.map some) = .ok o ∧
      Constructed es dim rows tags labelFile lab o := by
  have hn : rows.length < 4294967296 := by have := h.few; omega
  have hsz := h.bytes
  have hl : rows.flatten.length = rows.length * dim * es := by
    rw [flatten_length_of h.matrix, Nat.mul_assoc]
  have hb := (binFile_iff hn h.dims).mp h.file
  rw [hb] at hsz
  simp only [List.length_append, le_length, hl] at hsz
  have hload := loadAligned_ok h.matrix hn h.dims (by omega) (aligned_size_lt (by omega)) hj.1 hj.2.1 j.mem
  have ht : ¬ (tags.length ≠ rows.length ∧ tags.length ≠ 0) := by
    rcases h.tagsLen with rfl | ht
    · simp
    · simp [ht]
  have htm : ctorTags tags rows.length = if tags = [] then List.range rows.length else tags := by
    unfold ctorTags
    by_cases hx : tags = []
    · simp [hx]
    · simp [hx]
  unfold ctorObj
  rw [hb, hload, Res.ok_bind]
  dsimp only
  rw [if_neg ht]
  cases hlf : labelFile with
  | none =>
    refine ⟨_, rfl, ?_⟩
    exact ⟨rfl, rfl, rows_eq h.matrix rfl rfl rfl, htm, rfl, rfl, rfl, rfl, rfl, fun hx => (by cases hx),
      fun hx => (by cases hx), fun r hr => (by cases hr), fun hx => (by cases hx), fun _ => rfl, rfl, rfl, rfl,
      fun l hl => (by cases hl)⟩
  | some lf =>
    obtain ⟨lines, fields, h1, h2, h3, h4, h5, h6⟩ := h.labels lf hlf
    obtain ⟨pts, seen, e, g1, g2, g3⟩ :=
      (C37_label_file_parsed sortL hsort lf rows.length lines fields h1 h2).1 ⟨h3, h4⟩
    have hperm : ∀ (i : Nat) (ls : List Label), pts[i]? = some ls → ls.Perm (lab i) := by
      intro i ls hi
      have hlen := g1.length_eq
      have hi' := (List.getElem?_eq_some_iff.mp hi)
      obtain ⟨hil, rfl⟩ := hi'
      have := (List.forall₂_iff_get.mp g1).2 i hil (by omega)
      rw [h5 i _ (List.getElem?_eq_getElem (by omega))]
      exact this.1
    refine ⟨_, by simp only [Option.map_some]; rw [e, Res.ok_bind], ?_⟩
    refine ⟨rfl, rfl, rows_eq h.matrix rfl rfl rfl, htm, rfl, rfl, rfl, rfl, rfl, fun _ => g2, fun _ => hperm, ?_, ?_,
      fun hx => (by cases hx), rfl, rfl, rfl, ?_⟩
    · intro r hr
      obtain ⟨i, hi⟩ := List.getElem?_of_mem hr
      have hil : i < rows.length := by rw [← g2]; exact (List.getElem?_eq_some_iff.mp hi).1
      obtain ⟨l, hl, hne⟩ := h6 i hil
      exact ⟨l, (hperm i r hi).mem_iff.mpr hl, hne⟩
    · intro _ l
      rw [g3 l]
      constructor
      · rintro ⟨ls, hls, hl⟩
        obtain ⟨i, hi⟩ := List.getElem?_of_mem hls
        exact ⟨i, by rw [← g2]; exact (List.getElem?_eq_some_iff.mp hi).1, (hperm i ls hi).mem_iff.mp hl⟩
      · rintro ⟨i, hi, hl⟩
        have hi' : i < pts.length := by omega
        exact ⟨pts[i], List.getElem_mem hi', (hperm i _ (List.getElem?_eq_getElem hi')).mem_iff.mpr hl⟩
    · intro l hl
      have hl : l ∈ pts := hl
      obtain ⟨i, hi, rfl⟩ := List.mem_iff_getElem.mp hl
      have hlen := g1.length_eq
      exact ((List.forall₂_iff_get.mp g1).2 i hi (by omega)).2

theorem elems_length {es : Nat} (hes : 1 ≤ es) (row : Bytes) (k : Nat) (h : row.length = k * es) :
    (elems es row).length = k := by
  unfold elems
  rw [List.length_map, List.length_range, h, Nat.mul_div_cancel _ hes]

/-- The nondeterministic parts of a build are what the standard allows. -/
structure VamanaRun.OK (r : VamanaRun) (o : IdxObj) : Prop where
  L : 1 ≤ r.L
  L' : Spec.ListFits o.n r.L
  R : r.R < 4294967296
  sortF : IsStdSort r.sortF
  sortOut : SortsBy id r.sortOut
  sortIn : SortsBy Prod.snd r.sortIn
  orderNodup : r.order.Nodup
  orderLen : r.order.length < 4294967296
  order : ∀ l, l ∈ r.order ↔ l ∈ o.seen

/-- What a build leaves behind. -/
structure Built (es : Nat) (cmp : Bytes → Bytes → F32) (r : VamanaRun) (o o' : IdxObj) : Prop where
  same : o' = { o with graph := o'.graph, start := o'.start, medoids := o'.medoids, maxDeg := o'.maxDeg }
  len : o'.graph.length = o.n
  deg : ∀ nb ∈ o'.graph, nb.length ≤ r.R
  edges : ∀ (v : Nat) (nb : List Nat), o'.graph[v]? = some nb → ∀ x ∈ nb, x < o.n ∧ x ≠ v
  start : o'.start < o.n
  maxDeg : o'.maxDeg ≤ r.R
  keys : (o'.medoids.map Prod.fst).Nodup
  known : o.filtered = true → ∀ x, x ∈ o'.medoids.map Prod.fst ↔ x ∈ r.order
  carry : ∀ x m, (x, m) ∈ o'.medoids → m < o.n ∧ Carries (o.view es cmp).ctx x m
  plain : o.filtered = false → o'.medoids = []

theorem foldl_max_le {l : List Nat} {R : Nat} : ∀ {a : Nat}, a ≤ R → (∀ x ∈ l, x ≤ R) → l.foldl max a ≤ R := by
  induction l with
  | nil => intro a ha _; exact ha
  | cons x l ih =>
    intro a ha h
    exact ih (Nat.max_le.mpr ⟨ha, h x (by simp)⟩) (fun y hy => h y (by simp [hy]))

theorem vamanaLabels_spec {es dim : Nat} {cmp : Bytes → Bytes → F32} {r : VamanaRun} {rows : List Bytes}
    {tags : List Nat} {labelFile : Option Bytes} {lab : Nat → List Label} {o : IdxObj}
    (ho : Constructed es dim rows tags labelFile lab o) (hr : r.OK o) :
    ∃ med, vamanaLabels es cmp r o = .ok med ∧ (med.map Prod.fst).Nodup ∧
      (o.filtered = true → ∀ x, x ∈ med.map Prod.fst ↔ x ∈ r.order) ∧
      (∀ x m, (x, m) ∈ med → m < o.n ∧ Carries (o.view es cmp).ctx x m) ∧ (o.filtered = false → med = []) := by
  unfold vamanaLabels
  cases hf : o.filtered with
  | false =>
    refine ⟨[], by rw [if_neg (by simp), ho.medoids], List.nodup_nil, fun h => (by cases h), ?_, fun _ => rfl⟩
    intro x m h; cases h
  | true =>
    have hlen : (o.view es cmp).ctx.labels.length = (o.view es cmp).ctx.data.length := by
      show o.labels.length = (o.rows es).length
      rw [ho.labelsLen hf, ho.vecs, List.length_map]
    obtain ⟨s, e, h1, h2, h3, -⟩ := C28_label_entry_points (o.view es cmp).ctx hlen r.order hr.orderNodup hr.orderLen
      (by
        intro x
        rw [hr.order x, ho.seen hf x]
        constructor
        · rintro ⟨i, hi, hx⟩
          have hi' : i < o.labels.length := by rw [ho.labelsLen hf]; exact hi
          exact ⟨i, o.labels[i], List.getElem?_eq_getElem hi',
            (ho.labels hf i _ (List.getElem?_eq_getElem hi')).mem_iff.mpr hx⟩
        · rintro ⟨i, ls, hi, hx⟩
          have hi2 : o.labels[i]? = some ls := hi
          refine ⟨i, ?_, (ho.labels hf i ls hi2).mem_iff.mp hx⟩
          rw [← ho.labelsLen hf]; exact (List.getElem?_eq_some_iff.mp hi2).1) r.draw
    refine ⟨s.medoids, by rw [if_pos rfl, ho.medoids, e, Res.ok_bind], h1, fun _ => h2, ?_, fun h => (by cases h)⟩
    intro x m hx
    obtain ⟨g1, g2⟩ := h3 x m hx
    refine ⟨?_, g2⟩
    have : (o.view es cmp).ctx.data.length = o.n := by
      show (o.rows es).length = o.n
      rw [ho.vecs, List.length_map, ho.n]
    omega

theorem inDegree_le {g : List (List Nat)} (h : ∀ nb ∈ g, ∀ x, nb.count x ≤ 2) (i : Nat) :
    Spec.inDegree g i ≤ 2 * g.length := by
  unfold Spec.inDegree
  induction g with
  | nil => simp
  | cons nb g ih =>
    have h1 := h nb (by simp) i
    have h2 := ih (fun nb hnb => h nb (by simp [hnb]))
    simp only [List.map_cons, List.sum_cons, List.length_cons]
    omega

/-- The build of a constructed object: nothing goes wrong; and if the parallel loop has ended, the object holds a graph. -/
theorem vamanaBuild_spec {es dim : Nat} (hes : 1 ≤ es) {cmp : Bytes → Bytes → F32} (hsym : ∀ a b, cmp a b = cmp b a)
    {r : VamanaRun} {rows : List Bytes} {tags : List Nat} {labelFile : Option Bytes} {lab : Nat → List Label} {o : IdxObj}
    (h10 : 10 ≤ rows.length) (hfew : rows.length < 2147483648) (hm : Spec.Matrix es dim rows)
    (ho : Constructed es dim rows tags labelFile lab o) (hr : r.OK o) :
    ∃ med start s, vamanaLabels es cmp r o = .ok med ∧ (vamanaRunCfg es cmp r o med start).OK ∧
      (vamanaRunCfg es cmp r o med start).n = o.n ∧
      resizeLists o.n o.graph = freshAdj o.n ∧
      medoid r.mops ((o.rows es).map (elems es)) o.adim = .ok start ∧
      runSched (vamanaRunCfg es cmp r o med start) r.sched (BSt.start (freshAdj o.n)) = .ok s ∧
      (¬ s.Finished → vamanaBuild es cmp r o = .error .loop) ∧
      (s.Finished → ∃ o', vamanaBuild es cmp r o = .ok o' ∧ Built es cmp r o o' ∧ o'.medoids = med ∧ o'.start = start ∧
        cleanup (vamanaRunCfg es cmp r o med start) s.adj = .ok o'.graph) := by
  obtain ⟨med, em, hm1, hm2, hm3, hm4⟩ := vamanaLabels_spec (cmp := cmp) ho hr
  have hdl : (o.rows es).length = o.n := by rw [ho.vecs, List.length_map, ho.n]
  obtain ⟨start, est, hst, -⟩ := C59_entry_point r.mops ((o.rows es).map (elems es)) o.adim
    (by
      intro hx
      have := congrArg List.length hx
      rw [List.length_map, hdl, ho.n, List.length_nil] at this
      omega)
    (by
      intro v hv
      obtain ⟨x, hx, rfl⟩ := List.mem_map.mp hv
      rw [ho.vecs] at hx
      obtain ⟨row, hrow, rfl⟩ := List.mem_map.mp hx
      have h1 := hm row hrow
      have h2 : dim * es ≤ roundUp8 dim * es := Nat.mul_le_mul_right _ (roundUp8_spec dim).1
      rw [elems_length hes _ (roundUp8 dim) (by
        unfold Spec.padTo
        simp only [List.length_append, List.length_replicate]
        omega), ho.adim])
  rw [List.length_map, hdl] at hst
  have hcfg : (vamanaRunCfg es cmp r o med start).OK := by
    apply vamanaCfg_ok
    · exact hr.sortF
    · show 10 ≤ (o.rows es).length; rw [hdl, ho.n]; exact h10
    · exact hr.L
    · show Spec.ListFits (o.rows es).length r.L; rw [hdl]; exact hr.L'
    · exact hsym
    · intro hf
      show o.labels.length = (o.rows es).length
      rw [ho.labelsLen hf, hdl, ho.n]
    · show start < (o.rows es).length; rw [hdl]; exact hst
    · intro p hp
      show p.2 < (o.rows es).length; rw [hdl]; exact (hm3 p.1 p.2 hp).1
  have hcn : (vamanaRunCfg es cmp r o med start).n = o.n := hdl
  have hres : resizeLists o.n o.graph = freshAdj o.n := by
    unfold resizeLists freshAdj; rw [ho.graph]; simp
  obtain ⟨s, es1, hd1⟩ := C22_degree_bound _ hcfg (freshAdj (vamanaRunCfg es cmp r o med start).n) (freshAdj_valid _) r.sched
  obtain ⟨s2, es2, ⟨hadj, -⟩, out2, ec2, -, hd2⟩ := C23_valid_edges _ hcfg (freshAdj (vamanaRunCfg es cmp r o med start).n)
    (freshAdj_valid _) r.sched
  obtain ⟨s3, es3, -, out3, ec3, hd3⟩ := C24_no_repeated_edges_partial _ hcfg rfl r.sched
  rw [es1] at es2 es3
  cases es2; cases es3
  rw [hcn] at es1
  refine ⟨med, start, s, em, hcfg, hcn, hres, est, es1, ?_, ?_⟩
  · intro hfin
    unfold vamanaBuild
    rw [em, Res.ok_bind, est, Res.ok_bind, hres, es1, Res.ok_bind, if_neg hfin]
  · intro hfin
    obtain ⟨out, ec, hl, hdeg⟩ := hd1 hfin
    rw [ec] at ec2 ec3
    injection ec2 with ec2
    injection ec3 with ec3
    subst ec2
    subst ec3
    rw [hcn] at hl hd2
    have hR : (vamanaRunCfg es cmp r o med start).R = r.R := rfl
    rw [hR] at hdeg
    have hlt : ∀ l ∈ out, ∀ x ∈ l, x < out.length := by
      intro l hl' x hx
      obtain ⟨v, hv⟩ := List.getElem?_of_mem hl'
      rw [hl]; exact (hd2 v l hv x hx).1
    have hcnt : ∀ nb ∈ out, ∀ x, nb.count x ≤ 2 := by
      intro nb hnb x
      obtain ⟨v, hv⟩ := List.getElem?_of_mem hnb
      have hal : s.adj.length = out.length := by
        rw [hadj, hcn, hl]
      have hvl : v < s.adj.length := by rw [hal]; exact (List.getElem?_eq_some_iff.mp hv).1
      exact (hd3 v _ nb (List.getElem?_eq_getElem hvl) hv).2 x
    obtain ⟨st, estat, hmax, -⟩ := C69_degrees hr.sortOut hr.sortIn out (by rw [hl, ho.n]; omega) hlt
      (by
        intro i
        have := inDegree_le hcnt i
        rw [hl, ho.n] at this; omega)
      (by intro l hl'; have := hdeg l hl'; have := hr.R; omega)
    refine ⟨{ o with graph := out, start := start, medoids := med, maxDeg := st.maxDegree }, ?_, ?_, rfl, rfl, ec⟩
    · unfold vamanaBuild
      rw [em, Res.ok_bind, est, Res.ok_bind, hres, es1, Res.ok_bind, if_pos hfin, ec, Res.ok_bind, estat, Res.ok_bind]
    · refine ⟨rfl, hl, hdeg, hd2, hst, ?_, hm1, hm2, hm3, hm4⟩
      show st.maxDegree ≤ r.R
      rw [hmax]
      apply foldl_max_le (Nat.zero_le _)
      intro x hx
      obtain ⟨nb, hnb, rfl⟩ := List.mem_map.mp hx
      exact hdeg nb hnb

end Grann
