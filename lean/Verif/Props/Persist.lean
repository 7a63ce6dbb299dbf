import Verif.Proofs.Persist
import Verif.Proofs.Sort
/-!
# Saving and loading whole graph indices (C41, C38 second part, C35)
-/

namespace Grann

/-! ## C41 -/

/-- The table of label entry points fits its file, and no table of an older index is lying around if this
index has none. -/
def MedoidFileOK {P : Type} (nm : Part → P) (fs : FS P) (o : IdxObj) : Prop :=
  MedoidsFit o.medoids ∧
    ((o.filtered = true ∧ o.medoids ≠ []) ∨ (o.medoids = [] ∧ fs (nm .medoids) = none))

/-- **C41 for Vamana.** A saved index, loaded into a fresh object, answers every query as before; whatever
was stored under the name before (except for a left-over table of label entry points) and whatever
uninitialised memory contains. -/
theorem C41_vamana_reload {P : Type} [DecidableEq P] (nm : Part → P) (hnm : Function.Injective nm)
    (fs : FS P) (es : Nat) (o : IdxObj) (rows : List Bytes) (hs : Saveable es o rows)
    (hmed : MedoidFileOK nm fs o) (sortL : List Label → List Label) (hsort : IsStrSort sortL) (j : Junk)
    (hj : j.WF) (o0 : IdxObj) (h0 : IsFresh o0) (fuel : Nat) (hf : o.n < fuel)
    (cmp : Bytes → Bytes → F32) :
    ∃ ops o', vamanaSave es nm o = .ok ops ∧
      vamanaLoad sortL j fuel es nm (runOps ops fs) o0 = .ok (o', false) ∧
      o'.view es cmp = o.view es cmp ∧ o' = { o with seen := o'.seen } ∧
      ∀ sortF q rc L ind dst filters,
        vamanaSearch sortF (o'.view es cmp) q rc L ind dst filters =
          vamanaSearch sortF (o.view es cmp) q rc L ind dst filters := by
  obtain ⟨ops, ho, hb, hg, hm, -⟩ := vamanaSave_holds nm hnm hs fs
  obtain ⟨seen, hl⟩ := loadBase_holds sortL hsort j hj nm hs.toBaseSaveable _ hb o0 h0
  have hmt : loadMedoids (runOps ops fs (nm .medoids)) [] = .ok o.medoids := by
    rw [hm]
    rcases hmed.2 with ⟨h1, h2⟩ | ⟨h1, h2⟩
    · have : (o.filtered && o.medoids.length != 0) = true := by
        simp [h1, h2]
      rw [if_pos this]
      exact loadMedoids_saved _ _ hmed.1
    · have : ¬ (o.filtered && o.medoids.length != 0) = true := by simp [h1]
      rw [if_neg this, h2, h1]; rfl
  have hview : ({ o with seen := seen } : IdxObj).view es cmp = o.view es cmp := rfl
  refine ⟨ops, { o with seen := seen }, ho, ?_, hview, rfl, fun sortF q rc L ind dst filters => by rw [hview]⟩
  unfold vamanaLoad
  rw [hl, Res.ok_bind, hmt, Res.ok_bind]
  exact loadGraphInto_full j hj nm hs _ hg
    { o with seen := seen, maxDeg := o0.maxDeg, start := o0.start, graph := [], medoids := o.medoids }
    rfl rfl fuel hf

/-- **C41 for RelativeNG** (which has no table of label entry points). -/
theorem C41_rng_reload {P : Type} [DecidableEq P] (nm : Part → P) (hnm : Function.Injective nm)
    (fs : FS P) (es : Nat) (o : IdxObj) (rows : List Bytes) (hs : Saveable es o rows)
    (hmed : o.medoids = []) (sortL : List Label → List Label) (hsort : IsStrSort sortL) (j : Junk)
    (hj : j.WF) (o0 : IdxObj) (h0 : IsFresh o0) (fuel : Nat) (hf : o.n < fuel)
    (cmp : Bytes → Bytes → F32) :
    ∃ ops o', rngSave es nm o = .ok ops ∧
      rngLoad sortL j fuel es nm (runOps ops fs) o0 = .ok (o', false) ∧
      o'.view es cmp = o.view es cmp ∧ o' = { o with seen := o'.seen } ∧
      ∀ sortF q rc L ind dst filters,
        rngSearch sortF (o'.view es cmp) q rc L ind dst filters =
          rngSearch sortF (o.view es cmp) q rc L ind dst filters := by
  obtain ⟨ops, ho, hb, hg, -⟩ := rngSave_holds nm hnm hs fs
  obtain ⟨seen, hl⟩ := rngLoad_holds sortL hsort j hj nm hs _ hb hg o0 h0 fuel hf
  have hview : ({ o with seen := seen, medoids := [] } : IdxObj).view es cmp = o.view es cmp := by
    unfold IdxObj.view; rw [hmed]; rfl
  exact ⟨ops, _, ho, hl, hview, by rw [← hmed], fun sortF q rc L ind dst filters => by rw [hview]⟩

/-- The files of all levels are in place. -/
def HeldLevels (fs : FS (Nat × Part)) : List (IdxObj × List Bytes) → Prop
  | [] => True
  | x :: inner => HoldsBase (fun p => (inner.length, p)) fs x.1 x.2 ∧
      fs (inner.length, .graph) = some (Spec.graphFile x.1.maxDeg x.1.start x.1.graph) ∧ HeldLevels fs inner

theorem HeldLevels.congr {fs fs' : FS (Nat × Part)} : ∀ {os : List (IdxObj × List Bytes)},
    (∀ k p, k < os.length → fs' (k, p) = fs (k, p)) → HeldLevels fs os → HeldLevels fs' os := by
  intro os
  induction os with
  | nil => intro _ _; trivial
  | cons x inner ih =>
    rintro h ⟨⟨a, b, c, d⟩, g, i⟩
    have hk : ∀ p, fs' (inner.length, p) = fs (inner.length, p) := fun p => h _ p (by simp)
    refine ⟨⟨?_, ?_, ?_, ?_⟩, ?_, ih (fun k p hk => h k p (by simp; omega)) i⟩ <;> rw [hk] <;> assumption

theorem hnswSave_holds {es : Nat} : ∀ (os : List (IdxObj × List Bytes)),
    (∀ x ∈ os, Saveable es x.1 x.2) → ∀ fs : FS (Nat × Part),
    ∃ ops, hnswSave es (os.map Prod.fst) = .ok ops ∧ HeldLevels (runOps ops fs) os ∧
      ∀ k p, os.length ≤ k → runOps ops fs (k, p) = fs (k, p) := by
  intro os
  induction os with
  | nil => intro _ fs; exact ⟨[], rfl, trivial, fun _ _ _ => rfl⟩
  | cons x inner ih =>
    intro hs fs
    obtain ⟨a, ha, hah, haq⟩ := ih (fun y hy => hs y (by simp [hy])) fs
    obtain ⟨b, hb, hbh, hbg, hbq⟩ := rngSave_holds (fun p => (inner.length, p))
      (fun p q h => by simpa using h) (hs x (by simp)) (runOps a fs)
    refine ⟨a ++ b, ?_, ?_, ?_⟩
    · rw [List.map_cons, hnswSave, ha, Res.ok_bind, List.length_map, hb]; rfl
    · rw [runOps_append]
      refine ⟨hbh, hbg, HeldLevels.congr (fun k p hk => hbq _ ?_) hah⟩
      intro p' e
      simp only [Prod.mk.injEq] at e
      omega
    · intro k p hk
      simp only [List.length_cons] at hk
      rw [runOps_append, hbq _ (fun p' e => by simp only [Prod.mk.injEq] at e; omega), haq k p (by omega)]

/-- **C41 for HNSW**, all levels. -/
theorem C41_hnsw_reload (fs : FS (Nat × Part)) (es : Nat) (os : List (IdxObj × List Bytes))
    (hs : ∀ x ∈ os, Saveable es x.1 x.2) (hmed : ∀ x ∈ os, x.1.medoids = [])
    (sortL : List Label → List Label) (hsort : IsStrSort sortL) (j : Junk) (hj : j.WF) (o0s : List IdxObj)
    (hlen : o0s.length = os.length) (h0 : ∀ o0 ∈ o0s, IsFresh o0) (fuel : Nat)
    (hf : ∀ x ∈ os, x.1.n < fuel) (cmp : Bytes → Bytes → F32) :
    ∃ ops os', hnswSave es (os.map Prod.fst) = .ok ops ∧
      hnswLoad sortL j fuel es (runOps ops fs) o0s = .ok os' ∧ (∀ x ∈ os', x.2 = false) ∧
      os'.map (fun x => x.1.view es cmp) = os.map (fun x => x.1.view es cmp) ∧
      os'.map (fun x => x.1.adim) = os.map (fun x => x.1.adim) ∧
      ∀ sortF q rc L ind dst filters,
        hnswSearch sortF q rc L (os'.map (fun x => x.1.view es cmp)) ind dst filters =
          hnswSearch sortF q rc L (os.map (fun x => x.1.view es cmp)) ind dst filters := by
  obtain ⟨ops, ho, hheld, -⟩ := hnswSave_holds os hs fs
  have main : ∀ (os : List (IdxObj × List Bytes)) (o0s : List IdxObj), (∀ x ∈ os, Saveable es x.1 x.2) →
      (∀ x ∈ os, x.1.medoids = []) → o0s.length = os.length → (∀ o0 ∈ o0s, IsFresh o0) →
      (∀ x ∈ os, x.1.n < fuel) → HeldLevels (runOps ops fs) os →
      ∃ os', hnswLoad sortL j fuel es (runOps ops fs) o0s = .ok os' ∧ (∀ x ∈ os', x.2 = false) ∧
        os'.map (fun x => x.1.view es cmp) = os.map (fun x => x.1.view es cmp) ∧
        os'.map (fun x => x.1.adim) = os.map (fun x => x.1.adim) := by
    intro os
    induction os with
    | nil =>
      intro o0s _ _ hl _ _ _
      have : o0s = [] := by simpa using hl
      subst this
      exact ⟨[], rfl, by simp, rfl, rfl⟩
    | cons x inner ih =>
      intro o0s hs hmed hl h0 hf hh
      obtain ⟨o0, o0s, rfl⟩ : ∃ a l, o0s = a :: l := by
        cases o0s with
        | nil => simp at hl
        | cons a l => exact ⟨a, l, rfl⟩
      obtain ⟨hb, hg, hh⟩ := hh
      have hl' : o0s.length = inner.length := by simpa using hl
      obtain ⟨os', h1, h2, h3, h4⟩ := ih o0s (fun y hy => hs y (by simp [hy])) (fun y hy => hmed y (by simp [hy]))
        hl' (fun y hy => h0 y (by simp [hy])) (fun y hy => hf y (by simp [hy])) hh
      obtain ⟨seen, hlv⟩ := rngLoad_holds sortL hsort j hj (fun p => (inner.length, p)) (hs x (by simp)) _ hb
        hg o0 (h0 o0 (by simp)) fuel (hf x (by simp))
      refine ⟨({ x.1 with seen := seen, medoids := [] }, false) :: os', ?_, ?_, ?_, by rw [List.map_cons, List.map_cons, h4]⟩
      · rw [hnswLoad, h1, Res.ok_bind, hl', hlv]; rfl
      · intro y hy
        rcases List.mem_cons.mp hy with rfl | hy
        · rfl
        · exact h2 y hy
      · rw [List.map_cons, List.map_cons, h3]
        congr 1
        unfold IdxObj.view
        rw [hmed x (by simp)]; rfl
  obtain ⟨os', h1, h2, h3, h4⟩ := main os o0s hs hmed hlen h0 hf hheld
  exact ⟨ops, os', ho, h1, h2, h3, h4, fun sortF q rc L ind dst filters => by rw [h3]⟩

/-- Objects made by the constructor satisfy the conditions of C41: for a well-formed data file of less than
2^61 bytes, given labels under which every point has a label that is not empty, and any graph that a build
attaches to it. -/
theorem ctorObj_saveable (sortL : List Label → List Label) (hsort : IsStrSort sortL) (j : Junk) (hj : j.WF)
    (es dim : Nat) (rows : List Bytes) (b : Bytes) (hfile : Spec.BinFile dim rows b)
    (hm : Spec.Matrix es dim rows) (hn : rows.length < 4294967296) (hd : dim < 4294967296)
    (hsz : b.length < 2305843009213693952) (tags : List Nat) (htags : ∀ t ∈ tags, t < 4294967296)
    (labelFile : Option Bytes) (o : IdxObj)
    (hc : ctorObj sortL j es (some b) tags (labelFile.map some) = .ok o)
    (hne : ∀ r ∈ o.labels, ∃ l ∈ r, l ≠ []) (g : List (List Nat)) (maxDeg start : Nat)
    (hg : g.length = o.n) (hgf : Spec.GraphFits g) (hmd : maxDeg < 4294967296) (hst : start < 4294967296)
    (med : List (Label × Nat)) :
    Saveable es { o with graph := g, maxDeg := maxDeg, start := start, medoids := med } rows := by
  have hl : rows.flatten.length = rows.length * dim * es := by
    rw [flatten_length_of hm, Nat.mul_assoc]
  have hb := (binFile_iff hn hd).mp hfile
  rw [hb] at hsz
  simp only [List.length_append, le_length, hl] at hsz
  have hload := loadAligned_ok hm hn hd (by omega) (aligned_size_lt (by omega)) hj.1 hj.2.1 j.mem
  unfold ctorObj at hc
  rw [hb, hload, Res.ok_bind] at hc
  dsimp only at hc
  by_cases ht : tags.length ≠ rows.length ∧ tags.length ≠ 0
  · rw [if_pos ht] at hc; cases hc
  · rw [if_neg ht] at hc
    have htl : (ctorTags tags rows.length).length = rows.length := by
      unfold ctorTags; split
      · omega
      · simp
    have htv : ∀ t ∈ ctorTags tags rows.length, t < 4294967296 := by
      unfold ctorTags; split
      · exact htags
      · intro t htm; have := List.mem_range.mp htm; omega
    cases hlf : labelFile with
    | none =>
      rw [hlf] at hc
      simp only [Option.map_none, Except.ok.injEq] at hc
      subst hc
      exact ⟨⟨hm, rfl, rfl, rfl, hn, hd, by simpa using by omega, htl, htv, fun h => (by cases h),
        fun _ => ⟨rfl, rfl⟩, rfl⟩, hg, hgf, hmd, hst⟩
    | some lf =>
      rw [hlf] at hc
      simp only [Option.map_some] at hc
      obtain ⟨r, hp, hr⟩ := Res.bind_eq_ok.mp hc
      simp only [Except.ok.injEq] at hr
      subst hr
      have hspec := C37_label_file_parsed sortL hsort lf rows.length (pieces 10 lf) _ (pieces_split _ _)
        (forall₂_pieces _)
      have hcnd : (pieces 10 lf).length = rows.length ∧ [] ∉ pieces 10 lf := by
        by_contra hx
        rw [hspec.2 hx] at hp; cases hp
      obtain ⟨pts', seen', h1, h2, h3, -⟩ := hspec.1 hcnd
      rw [hp] at h1
      simp only [Except.ok.injEq] at h1
      have hfit : LabelsFit pts' := by
        rw [List.forall₂_map_right_iff] at h2
        have hne' : ∀ r ∈ pts', ∃ l ∈ r, l ≠ [] := by rw [h1] at hne; exact hne
        clear hspec hcnd h1 h3 hp hne
        generalize pieces 10 lf = ls at h2
        induction h2 with
        | nil => intro r hr; simp at hr
        | @cons a b ra rb h _ ih =>
          intro r hr
          rcases List.mem_cons.mp hr with rfl | hr
          · refine ⟨h.2, fun l hl => ?_, hne' _ (by simp)⟩
            obtain ⟨t, ht, rfl⟩ := List.mem_map.mp (h.1.mem_iff.mp hl)
            have h44 := (pieces_split 44 b).1 t ht
            refine ⟨fun hx => h44 (List.mem_filter.mp hx).1, ?_, ?_⟩ <;> simp
          · exact ih (fun r hr => hne' r (by simp [hr])) r hr
      have hr1 : r.1 = pts' := by rw [h1]
      have hsp : ∀ c ∈ IdxObj.fresh.univ, isSpace c = false := by decide
      refine ⟨⟨hm, rfl, rfl, rfl, hn, hd, by simpa using by omega, htl, htv,
        fun _ => ⟨?_, ?_, List.cons_ne_nil _ _, hsp⟩, fun h => (by cases h), rfl⟩, hg, hgf, hmd, hst⟩
      · rw [hr1]; exact hfit
      · rw [hr1]; exact h3

/-! ## A concrete index -/

/-- Two points of dimension 3 with one-byte elements, labels `a` and `a,b`. -/
def exObj : IdxObj where
  n := 2
  dim := 3
  adim := 8
  data := [1, 2, 3, 0, 0, 0, 0, 0, 4, 5, 6, 0, 0, 0, 0, 0]
  tags := [10, 11]
  filtered := true
  labels := [[[97]], [[97], [98]]]
  seen := [[97], [98]]
  useUniv := true
  univ := [48]
  maxDeg := 1
  start := 0
  graph := [[1], [0]]
  medoids := [([97], 0), ([98], 1)]

/-- The same points without labels, other neighbours. -/
def exObjPlain : IdxObj :=
  { exObj with filtered := false, labels := [], seen := [], medoids := [], graph := [[1], []] }

def exJunk : Junk :=
  ⟨[1, 1, 1, 1], [1, 1, 1, 1], [1, 1, 1, 1], [1, 1, 1, 1], fun _ => 7, List.replicate 8 1, [1, 1, 1, 1],
    [1, 1, 1, 1], fun _ => [1, 1, 1, 1]⟩

theorem exJunk_WF : exJunk.WF := by
  refine ⟨rfl, rfl, rfl, rfl, rfl, rfl, rfl, fun _ => rfl⟩

theorem exObj_saveable : Saveable 1 exObj [[1, 2, 3], [4, 5, 6]] := by
  refine ⟨⟨?_, rfl, by decide, by decide, by decide, by decide, by decide, rfl, by decide,
    fun _ => ⟨?_, rfl, ?_⟩, fun h => (by cases h), rfl⟩, rfl, ?_, by decide, by decide⟩
  · unfold Spec.Matrix; decide
  · unfold LabelsFit SortedL Spec.PlainLabel; decide
  · decide
  · unfold Spec.GraphFits; decide

theorem exObjPlain_saveable : Saveable 1 exObjPlain [[1, 2, 3], [4, 5, 6]] := by
  refine ⟨⟨?_, rfl, by decide, by decide, by decide, by decide, by decide, rfl, by decide,
    fun h => (by cases h), fun _ => ⟨rfl, rfl⟩, rfl⟩, rfl, ?_, by decide, by decide⟩
  · unfold Spec.Matrix; decide
  · unfold Spec.GraphFits; decide

theorem fresh_isFresh : IsFresh IdxObj.fresh := ⟨rfl, rfl, rfl, rfl, rfl, rfl, rfl⟩

example : MedoidFileOK id (fun _ => none) exObj := by
  unfold MedoidFileOK MedoidsFit Spec.PlainLabel; decide

/-! ## C38, second part -/

/-- **C38, second part, under the condition that the path holds no table yet.** Loading an index saved
without labels gives an empty table. -/
theorem C38_no_table_partial {P : Type} [DecidableEq P] (nm : Part → P) (hnm : Function.Injective nm)
    (fs : FS P) (es : Nat) (o : IdxObj) (rows : List Bytes) (hs : Saveable es o rows)
    (hunl : o.filtered = false) (hold : fs (nm .medoids) = none) (sortL : List Label → List Label)
    (hsort : IsStrSort sortL) (j : Junk) (hj : j.WF) (o0 : IdxObj) (h0 : IsFresh o0) (fuel : Nat)
    (hf : o.n < fuel) :
    ∃ ops o', vamanaSave es nm o = .ok ops ∧
      vamanaLoad sortL j fuel es nm (runOps ops fs) o0 = .ok (o', false) ∧ o'.medoids = [] := by
  obtain ⟨ops, ho, hb, hg, hm, -⟩ := vamanaSave_holds nm hnm hs fs
  obtain ⟨seen, hl⟩ := loadBase_holds sortL hsort j hj nm hs.toBaseSaveable _ hb o0 h0
  rw [hunl, hold] at hm
  refine ⟨ops, { o with seen := seen, medoids := [] }, ho, ?_, rfl⟩
  unfold vamanaLoad
  rw [hl, Res.ok_bind, hm]
  exact loadGraphInto_full j hj nm hs _ hg
    { o with seen := seen, maxDeg := o0.maxDeg, start := o0.start, graph := [], medoids := [] }
    rfl rfl fuel hf

/-- What a table left behind by an older index does to an index saved without labels. -/
theorem C38_stale_table {P : Type} [DecidableEq P] (nm : Part → P) (hnm : Function.Injective nm)
    (fs : FS P) (es : Nat) (o : IdxObj) (rows : List Bytes) (hs : Saveable es o rows)
    (hunl : o.filtered = false) (tab : List (Label × Nat)) (htab : MedoidsFit tab)
    (hold : fs (nm .medoids) = some (tab.flatMap (fun e => medoidText e ++ [10])))
    (sortL : List Label → List Label) (hsort : IsStrSort sortL) (j : Junk) (hj : j.WF) (o0 : IdxObj)
    (h0 : IsFresh o0) (fuel : Nat) (hf : o.n < fuel) :
    ∃ ops o', vamanaSave es nm o = .ok ops ∧
      vamanaLoad sortL j fuel es nm (runOps ops fs) o0 = .ok (o', false) ∧ o'.medoids = tab := by
  obtain ⟨ops, ho, hb, hg, hm, -⟩ := vamanaSave_holds nm hnm hs fs
  obtain ⟨seen, hl⟩ := loadBase_holds sortL hsort j hj nm hs.toBaseSaveable _ hb o0 h0
  rw [hunl, hold] at hm
  refine ⟨ops, { o with seen := seen, medoids := tab }, ho, ?_, rfl⟩
  unfold vamanaLoad
  rw [hl, Res.ok_bind, hm]
  simp only [Bool.false_and, Bool.false_eq_true, if_false]
  rw [loadMedoids_saved _ _ htab, Res.ok_bind]
  exact loadGraphInto_full j hj nm hs _ hg
    { o with seen := seen, maxDeg := o0.maxDeg, start := o0.start, graph := [], medoids := tab }
    rfl rfl fuel hf

/-- **C38, second part, is false**: a labelled index is saved, then an index without labels under the same
name; loading it resurrects the old table, and a filtered search — which gives no result before saving —
reads labels that do not exist. -/
theorem C38_resurrected :
    ∃ ops1 ops2 o', vamanaSave 1 id exObj = .ok ops1 ∧ vamanaSave 1 id exObjPlain = .ok ops2 ∧
      vamanaLoad exStrSort exJunk 3 1 id (runOps ops2 (runOps ops1 (fun _ => none))) IdxObj.fresh =
        .ok (o', false) ∧
      exObjPlain.medoids = [] ∧ o'.medoids = [([97], 0), ([98], 1)] := by
  have hm : MedoidsFit exObj.medoids := by unfold MedoidsFit Spec.PlainLabel; decide
  obtain ⟨ops1, h1, -, -, hmed, -⟩ := vamanaSave_holds id (fun _ _ h => h) exObj_saveable
    (fun _ => none)
  obtain ⟨ops2, o', h2, h3, h4⟩ := C38_stale_table id (fun _ _ h => h) (runOps ops1 (fun _ => none)) 1
    exObjPlain _ exObjPlain_saveable rfl exObj.medoids hm (by rw [hmed]; rfl) exStrSort exStrSort_isStrSort
    exJunk exJunk_WF IdxObj.fresh fresh_isFresh 3 (by decide)
  exact ⟨ops1, ops2, o', h1, h2, h3, rfl, h4⟩

/-- The consequence for searches: with the resurrected table a filtered search on the index without labels
is undefined behaviour, while the original object reports that nothing matches. -/
theorem C38_resurrected_search_unsafe :
    vamanaSearch exSort (({ exObjPlain with medoids := [([97], 0), ([98], 1)] } : IdxObj).view 1
      (fun _ _ => F32.zero)) [1, 2, 3, 0, 0, 0, 0, 0] 1 1 [0] [F32.zero] [[97]] = .error .ub ∧
    vamanaSearch exSort (exObjPlain.view 1 (fun _ _ => F32.zero)) [1, 2, 3, 0, 0, 0, 0, 0] 1 1 [0] [F32.zero]
      [[97]] = .ok ([10], [F32.fmax], 0) := by
  refine ⟨?_, ?_⟩ <;> decide +kernel

/-! ## C35 for a whole load -/

/-- **C35 is false** for a whole load: if the graph file is missing, `Vamana::load` never returns normally —
if the other files are in order it loops for ever. -/
theorem C35_vamana_load_diverges {P : Type} [DecidableEq P] (nm : Part → P) (es : Nat) (o : IdxObj)
    (rows : List Bytes) (hs : Saveable es o rows) (fs : FS P) (hb : HoldsBase nm fs o rows)
    (hmed : fs (nm .medoids) = none) (hgr : fs (nm .graph) = none) (sortL : List Label → List Label)
    (hsort : IsStrSort sortL) (j : Junk) (hj : j.WF) (o0 : IdxObj) (h0 : IsFresh o0) (fuel : Nat) :
    vamanaLoad sortL j fuel es nm fs o0 = .error .loop := by
  obtain ⟨seen, hl⟩ := loadBase_holds sortL hsort j hj nm hs.toBaseSaveable _ hb o0 h0
  unfold vamanaLoad
  rw [hl, Res.ok_bind, hmed]
  unfold loadMedoids
  rw [Res.ok_bind]
  unfold loadGraphInto
  rw [hgr, C35_missing_graph_diverges]
  rfl

example : HoldsBase id (fun p => match p with
    | .data => some (le 4 2 ++ (le 4 3 ++ [1, 2, 3, 4, 5, 6]))
    | .tags => some (le 4 2 ++ (le 4 1 ++ le32s [10, 11]))
    | _ => none) exObjPlain [[1, 2, 3], [4, 5, 6]] :=
  ⟨rfl, rfl, rfl, rfl⟩

/-! ## The theorems applied to the examples -/

theorem exObj_medoidFile : MedoidFileOK id (fun _ => none) exObj := by
  unfold MedoidFileOK MedoidsFit Spec.PlainLabel; decide

/-- C41: the index with labels and label entry points. -/
example := C41_vamana_reload id (fun _ _ h => h) (fun _ => none) 1 exObj _ exObj_saveable exObj_medoidFile exStrSort
  exStrSort_isStrSort exJunk exJunk_WF IdxObj.fresh fresh_isFresh 3 (by decide) (fun _ _ => F32.zero)

example := C41_rng_reload id (fun _ _ h => h) (fun _ => some [1]) 1 exObjPlain _ exObjPlain_saveable rfl exStrSort
  exStrSort_isStrSort exJunk exJunk_WF IdxObj.fresh fresh_isFresh 3 (by decide) (fun _ _ => F32.zero)

/-- C41, two levels. -/
example := C41_hnsw_reload (fun _ => some [1]) 1
  [(exObjPlain, [[1, 2, 3], [4, 5, 6]]), (exObjPlain, [[1, 2, 3], [4, 5, 6]])]
  (by intro x hx; simp only [List.mem_cons, List.not_mem_nil, or_false, or_self] at hx; subst hx; exact exObjPlain_saveable)
  (by decide) exStrSort exStrSort_isStrSort exJunk exJunk_WF [IdxObj.fresh, IdxObj.fresh] rfl
  (by intro x hx; simp only [List.mem_cons, List.not_mem_nil, or_false, or_self] at hx; subst hx; exact fresh_isFresh) 3 (by decide)
  (fun _ _ => F32.zero)

example := C38_no_table_partial id (fun _ _ h => h) (fun _ => none) 1 exObjPlain _ exObjPlain_saveable rfl rfl exStrSort
  exStrSort_isStrSort exJunk exJunk_WF IdxObj.fresh fresh_isFresh 3 (by decide)

example := C38_stale_table id (fun _ _ h => h)
  (fun p => if p = .medoids then some ([([97], 7)].flatMap (fun e => medoidText e ++ [10])) else none) 1 exObjPlain _
  exObjPlain_saveable rfl [([97], 7)] (by unfold MedoidsFit Spec.PlainLabel; decide) rfl exStrSort
  exStrSort_isStrSort exJunk exJunk_WF IdxObj.fresh fresh_isFresh 3 (by decide)

example := C35_vamana_load_diverges id 1 exObjPlain [[1, 2, 3], [4, 5, 6]] exObjPlain_saveable (fun p => match p with
    | .data => some (le 4 2 ++ (le 4 3 ++ [1, 2, 3, 4, 5, 6]))
    | .tags => some (le 4 2 ++ (le 4 1 ++ le32s [10, 11]))
    | _ => none) ⟨rfl, rfl, rfl, rfl⟩ rfl rfl exStrSort exStrSort_isStrSort exJunk exJunk_WF IdxObj.fresh
  fresh_isFresh 100

end Grann
