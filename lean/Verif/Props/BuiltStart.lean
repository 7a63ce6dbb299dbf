import Verif.Props.PipelineHnsw
import Verif.Props.PipelineRng
/-!
# C59: the entry point of a built index
-/

namespace Grann

/-- `m` is the first of the points that are nearest to the centre, if all distances to it are numbers. -/
def Spec.Central {T : Type} [Inhabited T] (mops : MedoidOps T) (data : List (List T)) (dim m : Nat) : Prop :=
  m < data.length ∧ ((∀ v ∈ data, (distOf mops (centerOf mops data dim) v).IsNum) →
    ∃ v, data[m]? = some v ∧
      (∀ w ∈ data, (distOf mops (centerOf mops data dim) v).le (distOf mops (centerOf mops data dim) w) = true) ∧
      ∀ (i : Nat) (w : List T), i < m → data[i]? = some w →
        (distOf mops (centerOf mops data dim) v).lt (distOf mops (centerOf mops data dim) w) = true)

theorem medoid_central {T : Type} [Inhabited T] {mops : MedoidOps T} {data : List (List T)} {dim m : Nat} (hne : data ≠ [])
    (hdim : ∀ v ∈ data, dim ≤ v.length) (h : medoid mops data dim = .ok m) : Spec.Central mops data dim m := by
  obtain ⟨m', e, h1, h2⟩ := C59_entry_point mops data dim hne hdim
  rw [h] at e
  cases e
  exact ⟨h1, h2⟩

/-- The rows of an object, as lists of elements, have at least the dimension it notes. -/
def RowsOK (es : Nat) (o : IdxObj) : Prop := o.rows es ≠ [] ∧ ∀ v ∈ o.rows es, o.adim ≤ (elems es v).length

theorem RowsOK.central {es : Nat} {o : IdxObj} (h : RowsOK es o) {mops : MedoidOps Bytes} {m : Nat}
    (hm : medoid mops ((o.rows es).map (elems es)) o.adim = .ok m) : Spec.Central mops ((o.rows es).map (elems es)) o.adim m :=
  medoid_central (by simpa using h.1) (by
    intro v hv
    obtain ⟨x, hx, rfl⟩ := List.mem_map.1 hv
    exact h.2 x hx) hm

theorem vamanaBuild_start {es : Nat} {cmp : Bytes → Bytes → F32} {r : VamanaRun} {o o' : IdxObj} (h : vamanaBuild es cmp r o = .ok o') :
    medoid r.mops ((o.rows es).map (elems es)) o.adim = .ok o'.start ∧
      ∃ g med k, o' = { o with graph := g, start := o'.start, medoids := med, maxDeg := k } := by
  unfold vamanaBuild at h
  cases h1 : vamanaLabels es cmp r o with
  | error e => rw [h1, Res.err_bind] at h; cases h
  | ok med =>
    rw [h1, Res.ok_bind] at h
    cases h2 : medoid r.mops ((o.rows es).map (elems es)) o.adim with
    | error e => rw [h2, Res.err_bind] at h; cases h
    | ok start =>
      rw [h2, Res.ok_bind] at h
      cases h3 : runSched (vamanaRunCfg es cmp r o med start) r.sched (BSt.start (resizeLists o.n o.graph)) with
      | error e => rw [h3, Res.err_bind] at h; cases h
      | ok s =>
        rw [h3, Res.ok_bind] at h
        split at h
        · cases h4 : cleanup (vamanaRunCfg es cmp r o med start) s.adj with
          | error e => rw [h4, Res.err_bind] at h; cases h
          | ok g =>
            rw [h4, Res.ok_bind] at h
            cases h5 : degreeStats r.sortOut r.sortIn g with
            | error e => rw [h5, Res.err_bind] at h; cases h
            | ok st =>
              rw [h5, Res.ok_bind] at h
              cases h
              exact ⟨rfl, g, med, st.maxDegree, rfl⟩
        · cases h

theorem rngBuildObj_start {es : Nat} {cmp : Bytes → Bytes → F32} {r : RngRun} {o o' : IdxObj} (h : rngBuildObj es cmp r o = .ok o') :
    medoid r.mops ((o.rows es).map (elems es)) o.adim = .ok o'.start ∧
      ∃ g k, o' = { o with graph := g, start := o'.start, maxDeg := k } := by
  unfold rngBuildObj at h
  cases h2 : medoid r.mops ((o.rows es).map (elems es)) o.adim with
  | error e => rw [h2, Res.err_bind] at h; cases h
  | ok start =>
    rw [h2, Res.ok_bind] at h
    cases h4 : rngBuildAgain r.sortF (o.view es cmp).ctx r.div o.graph with
    | error e => rw [h4, Res.err_bind] at h; cases h
    | ok g =>
      rw [h4, Res.ok_bind] at h
      cases h5 : degreeStats r.sortOut r.sortIn g with
      | error e => rw [h5, Res.err_bind] at h; cases h
      | ok st =>
        rw [h5, Res.ok_bind] at h
        cases h
        exact ⟨rfl, g, st.maxDegree, rfl⟩

/-- **C59 (Vamana).** The entry point that a build leaves is the first of the points nearest to the centre. -/
theorem C59_vamana_start (es : Nat) (cmp : Bytes → Bytes → F32) (r : VamanaRun) (o o' : IdxObj) (hrows : RowsOK es o)
    (h : vamanaBuild es cmp r o = .ok o') : Spec.Central r.mops ((o'.rows es).map (elems es)) o'.adim o'.start := by
  obtain ⟨h1, g, med, k, e⟩ := vamanaBuild_start h
  have h2 := hrows.central h1
  rw [e]
  exact h2

/-- **C59 (RelativeNG).** -/
theorem C59_rng_start (es : Nat) (cmp : Bytes → Bytes → F32) (r : RngRun) (o o' : IdxObj) (hrows : RowsOK es o)
    (h : rngBuildObj es cmp r o = .ok o') : Spec.Central r.mops ((o'.rows es).map (elems es)) o'.adim o'.start := by
  obtain ⟨h1, g, k, e⟩ := rngBuildObj_start h
  have h2 := hrows.central h1
  rw [e]
  exact h2

/-- The same for vectors of any type, without files. -/
theorem C59_rng_graph {T : Type} [Inhabited T] (sortF : List Nbr → List Nbr) (c : Ctx (List T)) (div : F32 → F32 → F32) (mops : MedoidOps T) (dim : Nat)
    (hne : c.data ≠ []) (hdim : ∀ v ∈ c.data, dim ≤ v.length) (start : Nat) (g : List (List Nat)) (h : rngBuild sortF c div mops dim = .ok (start, g)) :
    Spec.Central mops c.data dim start ∧ rngGraph sortF c div (List.replicate c.data.length []) = .ok g := by
  unfold rngBuild at h
  cases h2 : medoid mops c.data dim with
  | error e => rw [h2, Res.err_bind] at h; cases h
  | ok m =>
    rw [h2, Res.ok_bind] at h
    cases h4 : rngGraph sortF c div (List.replicate c.data.length []) with
    | error e => rw [h4, Res.err_bind] at h; cases h
    | ok g' =>
      rw [h4, Res.ok_bind] at h
      cases h
      exact ⟨medoid_central hne hdim h2, rfl⟩

theorem hnswLevelObj_start {es : Nat} {cmp : Bytes → Bytes → F32} {r : HnswRun} {start : Nat} {entry : Nat → Res (List Nat)} {sched : List Nat}
    {o o' : IdxObj} (h : hnswLevelObj es cmp r start entry sched o = .ok o') : ∃ g, o' = { o with graph := g, start := start } := by
  unfold hnswLevelObj at h
  cases h3 : runSched (hnswObjCfg es cmp r entry o) sched (BSt.start (resizeLists o.n o.graph)) with
  | error e => rw [h3, Res.err_bind] at h; cases h
  | ok s =>
    rw [h3, Res.ok_bind] at h
    split at h
    · cases h4 : cleanup (hnswObjCfg es cmp r entry o) s.adj with
      | error e => rw [h4, Res.err_bind] at h; cases h
      | ok g =>
        rw [h4, Res.ok_bind] at h
        cases h
        exact ⟨g, rfl⟩
    · cases h

theorem hnswBuildObj_start (es : Nat) (cmp : Bytes → Bytes → F32) (r : HnswRun) (sched0 : List Nat) :
    ∀ (ups : List ((Nat → Bool) × List Nat)) (fs : FS Unit) (o : IdxObj) (os : List IdxObj), hnswBuildObj es cmp r sched0 ups fs o = .ok os →
      ∀ o' ∈ os, medoid r.mops ((o'.rows es).map (elems es)) o'.adim = .ok o'.start
  | [], fs, o, os, h, o', ho' => by
    unfold hnswBuildObj at h
    cases h2 : medoid r.mops ((o.rows es).map (elems es)) o.adim with
    | error e => rw [h2, Res.err_bind] at h; cases h
    | ok start =>
      rw [h2, Res.ok_bind] at h
      cases h3 : hnswLevelObj es cmp r start (fun _ => .ok [start]) sched0 o with
      | error e => rw [h3, Res.err_bind] at h; cases h
      | ok x =>
        rw [h3, Res.ok_bind] at h
        cases h
        obtain ⟨g, rfl⟩ := hnswLevelObj_start h3
        rw [List.mem_singleton.1 ho']
        exact h2
  | (keep, sched) :: ups, fs, o, os, h, o', ho' => by
    unfold hnswBuildObj at h
    dsimp only at h
    cases h1 : saveSubset () es o.data o.adim o.dim (sampleIds keep o.n) with
    | error e => rw [h1, Res.err_bind] at h; cases h
    | ok ops =>
      rw [h1, Res.ok_bind] at h
      cases h6 : ctorObj r.sortL (r.junk ups.length) es (runOps ops fs ()) (sampleIds keep o.n) none with
      | error e => rw [h6, Res.err_bind] at h; cases h
      | ok oi =>
        rw [h6, Res.ok_bind] at h
        cases h5 : hnswBuildObj es cmp r sched0 ups (runOps (ops ++ [.remove ()]) fs) oi with
        | error e => rw [h5, Res.err_bind] at h; cases h
        | ok inner =>
          rw [h5, Res.ok_bind] at h
          cases h2 : medoid r.mops ((o.rows es).map (elems es)) o.adim with
          | error e => rw [h2, Res.err_bind] at h; cases h
          | ok start =>
            rw [h2, Res.ok_bind] at h
            cases h3 : hnswLevelObj es cmp r start (hnswEntry r.p (inner.map (IdxObj.view es cmp)) (o.view es cmp).ctx) sched o with
            | error e => rw [h3, Res.err_bind] at h; cases h
            | ok x =>
              rw [h3, Res.ok_bind] at h
              cases h
              rcases List.mem_cons.1 ho' with rfl | ho'
              · obtain ⟨g, rfl⟩ := hnswLevelObj_start h3
                exact h2
              · exact hnswBuildObj_start es cmp r sched0 ups _ oi inner h5 o' ho'

theorem hnswBuildObj_head {es : Nat} {cmp : Bytes → Bytes → F32} {r : HnswRun} {sched0 : List Nat} {ups : List ((Nat → Bool) × List Nat)}
    {fs : FS Unit} {o o' : IdxObj} {inner : List IdxObj} (h : hnswBuildObj es cmp r sched0 ups fs o = .ok (o' :: inner)) :
    ∃ g m, o' = { o with graph := g, start := m } := by
  cases ups with
  | nil =>
    unfold hnswBuildObj at h
    cases h2 : medoid r.mops ((o.rows es).map (elems es)) o.adim with
    | error e => rw [h2, Res.err_bind] at h; cases h
    | ok start =>
      rw [h2, Res.ok_bind] at h
      cases h3 : hnswLevelObj es cmp r start (fun _ => .ok [start]) sched0 o with
      | error e => rw [h3, Res.err_bind] at h; cases h
      | ok x =>
        rw [h3, Res.ok_bind] at h
        cases h
        obtain ⟨g, rfl⟩ := hnswLevelObj_start h3
        exact ⟨g, start, rfl⟩
  | cons u ups =>
    obtain ⟨keep, sched⟩ := u
    unfold hnswBuildObj at h
    dsimp only at h
    cases h1 : saveSubset () es o.data o.adim o.dim (sampleIds keep o.n) with
    | error e => rw [h1, Res.err_bind] at h; cases h
    | ok ops =>
      rw [h1, Res.ok_bind] at h
      cases h6 : ctorObj r.sortL (r.junk ups.length) es (runOps ops fs ()) (sampleIds keep o.n) none with
      | error e => rw [h6, Res.err_bind] at h; cases h
      | ok oi =>
        rw [h6, Res.ok_bind] at h
        cases h5 : hnswBuildObj es cmp r sched0 ups (runOps (ops ++ [.remove ()]) fs) oi with
        | error e => rw [h5, Res.err_bind] at h; cases h
        | ok inner' =>
          rw [h5, Res.ok_bind] at h
          cases h2 : medoid r.mops ((o.rows es).map (elems es)) o.adim with
          | error e => rw [h2, Res.err_bind] at h; cases h
          | ok start =>
            rw [h2, Res.ok_bind] at h
            cases h3 : hnswLevelObj es cmp r start (hnswEntry r.p (inner'.map (IdxObj.view es cmp)) (o.view es cmp).ctx) sched o with
            | error e => rw [h3, Res.err_bind] at h; cases h
            | ok x =>
              rw [h3, Res.ok_bind] at h
              cases h
              obtain ⟨g, rfl⟩ := hnswLevelObj_start h3
              exact ⟨g, start, rfl⟩

/-- **C59 (HNSW).** The same for every level with at least one point. -/
theorem C59_hnsw_start (es : Nat) (cmp : Bytes → Bytes → F32) (r : HnswRun) (sched0 : List Nat) (ups : List ((Nat → Bool) × List Nat)) (fs : FS Unit)
    (o : IdxObj) (os : List IdxObj) (h : hnswBuildObj es cmp r sched0 ups fs o = .ok os) (o' : IdxObj) (ho' : o' ∈ os) (hrows : RowsOK es o') :
    Spec.Central r.mops ((o'.rows es).map (elems es)) o'.adim o'.start :=
  hrows.central (hnswBuildObj_start es cmp r sched0 ups fs o os h o' ho')

/-! ## From the data file on -/

/-- The coordinates of the points of a file with `rows`, padded with zeros as in memory. -/
def coordsOf (es dim : Nat) (rows : List Bytes) : List (List Bytes) :=
  (rows.map (Spec.padTo (roundUp8 dim * es))).map (elems es)

theorem rowsOK_of {es dim : Nat} (hes : 1 ≤ es) {rows : List Bytes} {b : Bytes} {tags : List Nat} {labelFile : Option Bytes}
    {lab : Nat → List Label} (hin : InputOK es dim rows b tags labelFile lab) {o : IdxObj}
    (ho : Constructed es dim rows tags labelFile lab o) : RowsOK es o := by
  have hsz := hin.size
  refine ⟨?_, ?_⟩
  · rw [ho.vecs]
    intro e
    have := congrArg List.length e
    simp at this
    rw [this] at hsz
    simp at hsz
  · intro v hv
    rw [ho.vecs] at hv
    obtain ⟨x, hx, rfl⟩ := List.mem_map.1 hv
    rw [ho.adim, elems_length hes _ (roundUp8 dim) (by
      have h1 := hin.matrix x hx
      have h2 : dim * es ≤ roundUp8 dim * es := Nat.mul_le_mul_right _ (roundUp8_spec dim).1
      unfold Spec.padTo
      simp only [List.length_append, List.length_replicate]
      omega)]

/-- **C59 (from the files on).** If the index that the constructor makes of valid files is built by Vamana, RelativeNG or
HNSW, the entry point of the result (of its full level in the case of HNSW) is the first of the points of the file that
are nearest to the centre of the file. -/
theorem C59_files (sortL : List Label → List Label) (hsort : IsStrSort sortL) (j : Junk) (hj : j.WF) (es dim : Nat) (hes : 1 ≤ es)
    (cmp : Bytes → Bytes → F32) (rows : List Bytes) (b : Bytes) (tags : List Nat) (labelFile : Option Bytes) (lab : Nat → List Label)
    (hin : InputOK es dim rows b tags labelFile lab) (o : IdxObj) (ho : ctorObj sortL j es (some b) tags (labelFile.map some) = .ok o) :
    (∀ (r : VamanaRun) (o' : IdxObj), vamanaBuild es cmp r o = .ok o' → Spec.Central r.mops (coordsOf es dim rows) (roundUp8 dim) o'.start) ∧
    (∀ (r : RngRun) (o' : IdxObj), rngBuildObj es cmp r o = .ok o' → Spec.Central r.mops (coordsOf es dim rows) (roundUp8 dim) o'.start) ∧
    ∀ (r : HnswRun) (sched0 : List Nat) (ups : List ((Nat → Bool) × List Nat)) (fs : FS Unit) (o' : IdxObj) (inner : List IdxObj),
      hnswBuildObj es cmp r sched0 ups fs o = .ok (o' :: inner) → Spec.Central r.mops (coordsOf es dim rows) (roundUp8 dim) o'.start := by
  obtain ⟨x, hx, hc⟩ := ctorObj_spec sortL hsort j hj hin
  rw [ho] at hx
  cases hx
  have hr := rowsOK_of hes hin hc
  have key : ∀ {mops : MedoidOps Bytes} {m : Nat}, medoid mops ((o.rows es).map (elems es)) o.adim = .ok m →
      Spec.Central mops (coordsOf es dim rows) (roundUp8 dim) m := by
    intro mops m h
    have := hr.central h
    rw [hc.vecs, hc.adim] at this
    exact this
  refine ⟨?_, ?_, ?_⟩
  · intro r o' h
    exact key (vamanaBuild_start h).1
  · intro r o' h
    exact key (rngBuildObj_start h).1
  · intro r sched0 ups fs o' inner h
    have h1 := hnswBuildObj_start es cmp r sched0 ups fs o _ h o' (by simp)
    obtain ⟨g, m, rfl⟩ := hnswBuildObj_head h
    exact key h1

/-! ## Concrete builds: the hypotheses hold, the distances are numbers -/

example : (do let o1 ← exObj10
              let o2 ← vamanaBuild 1 exCmpB exRun o1
              .ok (o2.start, decide ((o2.rows 1).length = 10 ∧ ∀ v ∈ o2.rows 1, o2.adim ≤ (elems 1 v).length),
                decide (∀ v ∈ (o2.rows 1).map (elems 1), (distOf exMedB (centerOf exMedB ((o2.rows 1).map (elems 1)) o2.adim) v).IsNum)) :
        Res (Nat × Bool × Bool)) = .ok (0, true, true) := by decide +kernel

example : (do let o1 ← ctorObj exStrSort exJunk 1 (some exFile10) (List.range' 100 10) none
              let o2 ← rngBuildObj 1 exCmpB exRngRun o1
              .ok (o2.start, decide ((o2.rows 1).length = 10 ∧ ∀ v ∈ o2.rows 1, o2.adim ≤ (elems 1 v).length),
                decide (∀ v ∈ (o2.rows 1).map (elems 1), (distOf exMedB (centerOf exMedB ((o2.rows 1).map (elems 1)) o2.adim) v).IsNum)) :
        Res (Nat × Bool × Bool)) = .ok (0, true, true) := by decide +kernel

example : (do let o1 ← ctorObj exStrSort exJunk 1 (some exFile12) [] none
              let os ← hnswBuildObj 1 exCmpB exHnswRun ((List.range 400).map (fun k => k % 10))
                [(fun i => decide (2 ≤ i), (List.range 480).map (fun k => k % 12))] (fun _ => some [1, 2, 3]) o1
              .ok (os.map (fun o => (o.start, decide ((o.rows 1).length = o.n ∧ ∀ v ∈ o.rows 1, o.adim ≤ (elems 1 v).length),
                decide (∀ v ∈ (o.rows 1).map (elems 1), (distOf exMedB (centerOf exMedB ((o.rows 1).map (elems 1)) o.adim) v).IsNum)))) :
        Res (List (Nat × Bool × Bool))) = .ok [(2, true, true), (0, true, true)] := by decide +kernel

/-- Ten points in another order, for which the entry point is not the first. -/
def exCtx10 : Ctx (List Bytes) :=
  ⟨[[[43]], [[49]], [[50]], [[54]], [[46]], [[55]], [[45]], [[56]], [[44]], [[57]]], List.replicate 10 [], false, [],
    fun a b => exCmpB (a.headD []) (b.headD [])⟩

theorem exCtx10_build : rngBuild exSort exCtx10 exDiv1 exMedB 1 =
    .ok (1, [[8], [2, 4], [1, 3], [5, 2], [6, 1], [3, 7], [4, 8], [5, 9], [0, 6], [7]]) := by decide +kernel

example : Spec.Central exMedB exCtx10.data 1 1 :=
  (C59_rng_graph exSort exCtx10 exDiv1 exMedB 1 (by decide) (by decide) _ _ exCtx10_build).1

/-- For the files of the examples, whose distances to the centre are numbers. -/
example (o : IdxObj) (h : exObj10 = .ok o) := C59_files exStrSort exStrSort_isStrSort exJunk exJunk_WF 1 1 (by decide) exCmpB exRows10
  exFile10 [] (some exLabels10) exLab exInput10 o h

example : ∀ v ∈ coordsOf 1 1 exRows10, (distOf exMedB (centerOf exMedB (coordsOf 1 1 exRows10) 8) v).IsNum := by decide +kernel

end Grann
