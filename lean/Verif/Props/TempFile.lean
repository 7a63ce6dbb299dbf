import Verif.Model.TempFile
import Verif.Props.PipelineHnsw
/-!
# C81: HNSW builds at the same time
-/

namespace Grann

/-- A build of vectors `rows` with at least one sampled point. -/
structure TempProc.OK (p : TempProc) (rows : List Bytes) : Prop where
  matrix : Spec.Matrix p.es p.dim rows
  data : p.data = (rows.map (Spec.padTo (roundUp8 p.dim * p.es))).flatten
  adim : p.adim = roundUp8 p.dim
  ids : ∀ i ∈ p.ids, i < rows.length
  sampled : 1 ≤ p.ids.length
  few : p.ids.length < 2147483648
  dims : p.dim < 4294967296
  bytes : p.ids.length * (p.dim * p.es) < 1152921504606846976
  sort : IsStrSort p.sortL
  junk : p.junk.WF

theorem roundUp8_ge (d : Nat) : d ≤ roundUp8 d := by
  unfold roundUp8
  split <;> omega

/-- The file a build writes. -/
def tempFile (p : TempProc) (rows : List Bytes) : Bytes :=
  le 4 p.ids.length ++ (le 4 p.dim ++ (Spec.rowsAt rows p.ids).flatten)

theorem TempProc.OK.saved {p : TempProc} {rows : List Bytes} (h : p.OK rows) (fs : FS Unit) :
    ∃ ops, saveSubset () p.es p.data p.adim p.dim p.ids = .ok ops ∧ runOps ops fs = fun _ => some (tempFile p rows) := by
  obtain ⟨ops, h1, h2⟩ := saveSubset_file () fs h.matrix (roundUp8_ge p.dim) p.ids h.ids
  exact ⟨ops, by rw [h.data, h.adim, h1], funext fun _ => h2⟩

/-- The sampled vectors as a data file, for whatever tags. -/
theorem TempProc.OK.input {p : TempProc} {rows : List Bytes} (h : p.OK rows) (tags : List Nat) (ht : tags.length = p.ids.length)
    (htl : ∀ t ∈ tags, t < 4294967296) (lab : Nat → List Label) :
    InputOK p.es p.dim (Spec.rowsAt rows p.ids) (tempFile p rows) tags none lab := by
  have hl : (Spec.rowsAt rows p.ids).length = p.ids.length := List.length_map ..
  have hm := rowsAt_matrix h.matrix h.ids
  have h1 := h.few
  have h2 := h.sampled
  have h3 := h.bytes
  refine ⟨?_, hm, by omega, by omega, h.dims, ?_, Or.inr (by omega), htl, fun lf h => (by cases h)⟩
  · rw [binFile_iff (by omega) h.dims, hl]; rfl
  · unfold tempFile
    simp only [List.length_append, le_length]
    rw [flatten_length_of hm, hl]
    omega

theorem step_save {ps : List TempProc} {s : TempSt} {i : Nat} {p : TempProc} {rows : List Bytes} (hp : ps[i]? = some p)
    (hpc : s.pc[i]? = some .save) (h : p.OK rows) : tempStep ps s i = ⟨fun _ => some (tempFile p rows), s.pc.set i .ctor⟩ := by
  obtain ⟨ops, h1, h2⟩ := h.saved s.fs
  unfold tempStep
  rw [hp, hpc]
  simp only [h1, h2]

theorem step_ctor {ps : List TempProc} {s : TempSt} {i : Nat} {p : TempProc} (hp : ps[i]? = some p) (hpc : s.pc[i]? = some .ctor) :
    tempStep ps s i = match ctorObj p.sortL p.junk p.es (s.fs ()) p.ids none with
      | .ok o => ⟨s.fs, s.pc.set i (.remove (.ok o))⟩
      | .error e => ⟨s.fs, s.pc.set i (.ended (.error e))⟩ := by
  unfold tempStep
  rw [hp, hpc]
  rfl

theorem step_remove {ps : List TempProc} {s : TempSt} {i : Nat} {p : TempProc} {o : Res IdxObj} (hp : ps[i]? = some p)
    (hpc : s.pc[i]? = some (.remove o)) : tempStep ps s i = ⟨fun _ => none, s.pc.set i (.ended o)⟩ := by
  unfold tempStep
  rw [hp, hpc]
  simp only
  congr 1

/-- One build on its own. -/
theorem three_steps {ps : List TempProc} {s : TempSt} {i : Nat} {p : TempProc} {rows : List Bytes} (hp : ps[i]? = some p)
    (hpc : s.pc[i]? = some .save) (h : p.OK rows) (lab : Nat → List Label) (hlt : ∀ t ∈ p.ids, t < 4294967296) :
    ∃ o, Constructed p.es p.dim (Spec.rowsAt rows p.ids) p.ids none lab o ∧
      [i, i, i].foldl (tempStep ps) s = ⟨fun _ => none, s.pc.set i (.ended (.ok o))⟩ := by
  have hl := (List.getElem?_eq_some_iff.mp hpc).1
  obtain ⟨o, e, hc⟩ := ctorObj_spec p.sortL h.sort p.junk h.junk (h.input p.ids rfl hlt lab)
  refine ⟨o, hc, ?_⟩
  have e : ctorObj p.sortL p.junk p.es (some (tempFile p rows)) p.ids none = .ok o := e
  simp only [List.foldl_cons, List.foldl_nil]
  rw [step_save hp hpc h]
  rw [step_ctor (s := ⟨fun _ => some (tempFile p rows), s.pc.set i .ctor⟩) hp (List.getElem?_set_self hl)]
  simp only [e]
  rw [step_remove hp (o := .ok o) (by simp [hl])]
  simp

/-- **C81 (one after the other).** If the builds do not overlap, in whatever order, every inner object holds exactly the sampled
vectors of its own build, with their numbers as tags. -/
theorem C81_serial_partial (ps : List TempProc) (rows : Nat → List Bytes) (hok : ∀ (i : Nat) (p : TempProc), ps[i]? = some p → p.OK (rows i))
    (hlt : ∀ p ∈ ps, ∀ t ∈ p.ids, t < 4294967296) (lab : Nat → List Label) (fs : FS Unit) (order : List Nat)
    (hp : order.Perm (List.range ps.length)) (i : Nat) (p : TempProc) (hi : ps[i]? = some p) :
    ∃ o, (tempRun ps fs (order.flatMap (fun i => [i, i, i]))).pc[i]? = some (.ended (.ok o)) ∧
      Constructed p.es p.dim (Spec.rowsAt (rows i) p.ids) p.ids none lab o := by
  have key : ∀ (l : List Nat) (s : TempSt), l.Nodup → (∀ k ∈ l, k < ps.length ∧ s.pc[k]? = some .save) →
      (∀ k, k ∉ l → ((l.flatMap (fun i => [i, i, i])).foldl (tempStep ps) s).pc[k]? = s.pc[k]?) ∧
      ∀ (k : Nat) (p : TempProc), k ∈ l → ps[k]? = some p → ∃ o, ((l.flatMap (fun i => [i, i, i])).foldl (tempStep ps) s).pc[k]? = some (.ended (.ok o)) ∧
        Constructed p.es p.dim (Spec.rowsAt (rows k) p.ids) p.ids none lab o := by
    intro l
    induction l with
    | nil => intro s _ _; exact ⟨fun _ _ => rfl, fun k p hk => by simp at hk⟩
    | cons a l ih =>
      intro s hnd hs
      obtain ⟨ha, hnd⟩ := List.nodup_cons.mp hnd
      obtain ⟨hal, hpc⟩ := hs a (by simp)
      have hpa := List.getElem?_eq_getElem hal
      obtain ⟨o, ho, e⟩ := three_steps hpa hpc (hok a _ hpa) lab (hlt _ (List.getElem_mem hal))
      have hlen := (List.getElem?_eq_some_iff.mp hpc).1
      obtain ⟨h1, h2⟩ := ih ([a, a, a].foldl (tempStep ps) s) hnd (by
        intro k hk
        obtain ⟨x, y⟩ := hs k (by simp [hk])
        refine ⟨x, ?_⟩
        have hne : a ≠ k := fun h => ha (h ▸ hk)
        rw [e]
        show (s.pc.set a _)[k]? = _
        rw [List.getElem?_set_ne hne]; exact y)
      rw [List.flatMap_cons, List.foldl_append]
      constructor
      · intro k hk
        rw [List.mem_cons, not_or] at hk
        rw [h1 k hk.2, e]
        show (s.pc.set a _)[k]? = _
        rw [List.getElem?_set_ne (fun h => hk.1 h.symm)]
      · intro k p hk hkp
        rcases List.mem_cons.mp hk with rfl | hk
        · rw [hpa] at hkp
          injection hkp with hkp; subst hkp
          refine ⟨o, ?_, ho⟩
          rw [h1 k ha, e]
          exact List.getElem?_set_self hlen
        · exact h2 k p hk hkp
  have hil := (List.getElem?_eq_some_iff.mp hi).1
  exact (key order ⟨fs, List.replicate ps.length .save⟩ (hp.nodup_iff.mpr List.nodup_range) (fun k hk => by
    have := List.mem_range.mp (hp.mem_iff.mp hk)
    exact ⟨this, by simp [this]⟩)).2 i p (hp.mem_iff.mpr (List.mem_range.mpr hil)) hi

/-- Two builds, the second writes its file before the first reads it. -/
theorem mixed_state {a b : TempProc} {ra rb : List Bytes} (ha : a.OK ra) (hb : b.OK rb) (fs : FS Unit) :
    tempRun [a, b] fs [0, 1] = ⟨fun _ => some (tempFile b rb), [.ctor, .ctor]⟩ := by
  unfold tempRun
  simp only [List.foldl_cons, List.foldl_nil]
  rw [step_save (i := 0) (p := a) rfl rfl ha, step_save (i := 1) (p := b) rfl rfl hb]
  rfl

/-- **C81 is false (other vectors).** Two builds with equally many sampled points and the same element size: if the second writes
before the first reads, the inner object of the first holds the sampled vectors of the second, and ends normally. -/
theorem C81_other_vectors (a b : TempProc) (ra rb : List Bytes) (ha : a.OK ra) (hb : b.OK rb) (hn : a.ids.length = b.ids.length)
    (hes : a.es = b.es) (hlt : ∀ t ∈ a.ids, t < 4294967296) (lab : Nat → List Label) (fs : FS Unit) :
    ∃ o, (tempRun [a, b] fs [0, 1, 0, 0]).pc[0]? = some (.ended (.ok o)) ∧ o.tags = a.ids ∧
      o.rows a.es = (Spec.rowsAt rb b.ids).map (Spec.padTo (roundUp8 b.dim * b.es)) := by
  obtain ⟨o, e, hc⟩ := ctorObj_spec a.sortL ha.sort a.junk ha.junk (hb.input a.ids hn hlt lab)
  have e : ctorObj a.sortL a.junk a.es (some (tempFile b rb)) a.ids none = .ok o := by rw [hes]; exact e
  refine ⟨o, ?_, ?_, ?_⟩
  · have h2 : tempRun [a, b] fs [0, 1, 0, 0] = tempStep [a, b] (tempStep [a, b] (tempRun [a, b] fs [0, 1]) 0) 0 := rfl
    rw [h2, mixed_state ha hb, step_ctor (s := ⟨fun _ => some (tempFile b rb), [.ctor, .ctor]⟩) (i := 0) (p := a) rfl rfl]
    simp only [e]
    rw [step_remove (i := 0) (p := a) (o := .ok o) rfl rfl]
    rfl
  · have hs := ha.sampled
    rw [hc.tagMap, if_neg]
    intro h0; rw [h0] at hs; simp at hs
  · rw [hes]; exact hc.vecs

/-- **C81 is false (other number).** If the numbers of sampled points differ, the first build ends with an exception. -/
theorem C81_other_number (a b : TempProc) (ra rb : List Bytes) (ha : a.OK ra) (hb : b.OK rb) (hn : a.ids.length ≠ b.ids.length)
    (hes : a.es = b.es) (fs : FS Unit) :
    (tempRun [a, b] fs [0, 1, 0]).pc[0]? = some (.ended (.error .throw)) := by
  have h1 := hb.few
  have h2 := ha.sampled
  have hl : (Spec.rowsAt rb b.ids).length = b.ids.length := List.length_map ..
  have hm := rowsAt_matrix hb.matrix hb.ids
  have h3 := hb.bytes
  have hload := loadAligned_ok hm (by omega) hb.dims (by rw [hl, Nat.mul_assoc]; omega)
    (aligned_size_lt (by rw [hl, Nat.mul_assoc]; omega)) ha.junk.1 ha.junk.2.1 a.junk.mem
  rw [hl] at hload
  have e : ctorObj a.sortL a.junk a.es (some (tempFile b rb)) a.ids none = .error .throw := by
    unfold ctorObj tempFile
    rw [hes, hload, Res.ok_bind]
    dsimp only
    rw [if_pos ⟨hn, by omega⟩]
  have h2 : tempRun [a, b] fs [0, 1, 0] = tempStep [a, b] (tempRun [a, b] fs [0, 1]) 0 := rfl
  rw [h2, mixed_state ha hb, step_ctor (s := ⟨fun _ => some (tempFile b rb), [.ctor, .ctor]⟩) (i := 0) (p := a) rfl rfl]
  simp only [e]
  rfl

/-- **C81 is false (no file).** If the second build also reads and removes the file, the first ends with an exception. -/
theorem C81_file_gone (a b : TempProc) (ra rb : List Bytes) (ha : a.OK ra) (hb : b.OK rb) (hes : a.es = 1 ∨ a.es % 2 = 0)
    (hlt : ∀ t ∈ b.ids, t < 4294967296) (fs : FS Unit) :
    (tempRun [a, b] fs [0, 1, 1, 1, 0]).pc[0]? = some (.ended (.error .throw)) ∧
    ∃ o, (tempRun [a, b] fs [0, 1, 1, 1, 0]).pc[1]? = some (.ended (.ok o)) := by
  have e : ctorObj a.sortL a.junk a.es none a.ids none = .error .throw := by
    unfold ctorObj
    rw [(C32_missing_file_rejected a.es hes a.junk.h1 a.junk.h2 ha.junk.1 ha.junk.2.1 a.junk.mem).1]
    rfl
  have h1 : tempRun [a, b] fs [0, 1, 1, 1, 0] = tempStep [a, b] ([1, 1, 1].foldl (tempStep [a, b]) (tempRun [a, b] fs [0])) 0 := rfl
  have h0 : tempRun [a, b] fs [0] = ⟨fun _ => some (tempFile a ra), [.ctor, .save]⟩ := by
    unfold tempRun
    simp only [List.foldl_cons, List.foldl_nil]
    rw [step_save (i := 0) (p := a) rfl rfl ha]
    rfl
  obtain ⟨o, -, h3⟩ := three_steps (ps := [a, b]) (s := tempRun [a, b] fs [0]) (i := 1) (p := b) rfl (by rw [h0]; rfl) hb (fun _ => []) hlt
  rw [h1, h3, h0, step_ctor (i := 0) (p := a) rfl rfl]
  simp only [e]
  exact ⟨rfl, o, rfl⟩

/-! ## Examples -/

/-- Two builds of three one-byte vectors each. -/
def exTemp (rows : List Bytes) (ids : List Nat) : TempProc :=
  ⟨1, (rows.map (Spec.padTo 8)).flatten, 8, 1, ids, exHnswRun.sortL, exHnswRun.junk 0⟩

theorem exTemp_ok (x y z : UInt8) (ids : List Nat) (h : ∀ i ∈ ids, i < 3) (h1 : 1 ≤ ids.length) (h2 : ids.length ≤ 3) :
    (exTemp [[x], [y], [z]] ids).OK [[x], [y], [z]] where
  matrix := by unfold Spec.Matrix; simp [exTemp]
  data := by
    show _ = (([[x], [y], [z]] : List Bytes).map (Spec.padTo (roundUp8 1 * 1))).flatten
    rw [show roundUp8 1 * 1 = 8 by decide]; rfl
  adim := by show 8 = roundUp8 1; decide
  ids := h
  sampled := h1
  few := by show ids.length < _; omega
  dims := by show 1 < _; omega
  bytes := by show ids.length * (1 * 1) < _; omega
  sort := exHnswRun_ok.sortL
  junk := exHnswRun_ok.junk 0

example (fs : FS Unit) : ∃ o, (tempRun [exTemp [[1], [2], [3]] [0, 2], exTemp [[7], [8], [9]] [1, 2]] fs [0, 1, 0, 0]).pc[0]? =
    some (.ended (.ok o)) ∧ o.tags = [0, 2] ∧ o.rows 1 = [[8, 0, 0, 0, 0, 0, 0, 0], [9, 0, 0, 0, 0, 0, 0, 0]] :=
  C81_other_vectors _ _ _ _ (exTemp_ok 1 2 3 [0, 2] (by decide) (by decide) (by decide))
    (exTemp_ok 7 8 9 [1, 2] (by decide) (by decide) (by decide)) rfl rfl (by decide) (fun _ => []) fs

example (fs : FS Unit) : (tempRun [exTemp [[1], [2], [3]] [0, 2], exTemp [[7], [8], [9]] [1]] fs [0, 1, 0]).pc[0]? =
    some (.ended (.error .throw)) :=
  C81_other_number _ _ _ _ (exTemp_ok 1 2 3 [0, 2] (by decide) (by decide) (by decide))
    (exTemp_ok 7 8 9 [1] (by decide) (by decide) (by decide)) (by decide) rfl fs

example (fs : FS Unit) : (tempRun [exTemp [[1], [2], [3]] [0, 2], exTemp [[7], [8], [9]] [1]] fs [0, 1, 1, 1, 0]).pc[0]? =
    some (.ended (.error .throw)) :=
  (C81_file_gone _ _ _ _ (exTemp_ok 1 2 3 [0, 2] (by decide) (by decide) (by decide))
    (exTemp_ok 7 8 9 [1] (by decide) (by decide) (by decide)) (.inl rfl) (by decide) fs).1

example (fs : FS Unit) (lab : Nat → List Label) :
    ∃ o, (tempRun [exTemp [[1], [2], [3]] [0, 2], exTemp [[7], [8], [9]] [1]] fs ([1, 0].flatMap (fun i => [i, i, i]))).pc[0]? =
      some (.ended (.ok o)) ∧ Constructed 1 1 [[1], [3]] [0, 2] none lab o :=
  C81_serial_partial [exTemp [[1], [2], [3]] [0, 2], exTemp [[7], [8], [9]] [1]]
    (fun i => if i = 0 then [[1], [2], [3]] else [[7], [8], [9]]) (by
      intro i p hi
      match i with
      | 0 => simp at hi; subst hi; exact exTemp_ok 1 2 3 [0, 2] (by decide) (by decide) (by decide)
      | 1 => simp at hi; subst hi; exact exTemp_ok 7 8 9 [1] (by decide) (by decide) (by decide)
      | i + 2 => simp at hi) (by decide) lab fs [1, 0] (by decide) 0 _ rfl

end Grann
