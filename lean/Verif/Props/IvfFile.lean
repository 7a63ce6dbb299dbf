import Verif.Model.IvfFile
import Verif.Props.Persist
/-!
# Saving and loading IVF indices (C40)
-/

namespace Grann

/-- An IVF index as a build leaves it, of a size the file formats can express: one list per cluster, and the
centres as rows of `adim` floats. -/
structure IvfSaveable (es : Nat) (o : IvfObj) (rows crows : List Bytes) : Prop where
  base : BaseSaveable es o.base rows
  centers : o.centers = crows.flatten
  matrix : Spec.Matrix 4 o.base.adim crows
  crows_n : crows.length = o.nc
  nc_lt : o.nc < 4294967296
  adim_lt : o.base.adim < 4294967296
  csize : o.nc * o.base.adim * 4 + 8 < 2305843009213693952
  inv_len : o.inv.length = o.nc
  inv_fits : Spec.GraphFits o.inv

/-- Reading lists that are there. -/
theorem readLists_enc (junk : Nat → Bytes) (hj : ∀ i, (junk i).length = 4) :
    ∀ (g olds : List (List Nat)) (rest : Bytes), Spec.GraphFits g → olds.length = g.length →
      readLists junk olds ⟨encNodes g ++ rest, false, false⟩ = g := by
  intro g
  induction g with
  | nil =>
    intro olds rest _ hl
    have : olds = [] := by simpa using hl
    subst this; rfl
  | cons nb g ih =>
    intro olds rest hg hl
    obtain ⟨old, olds, rfl⟩ : ∃ o os, olds = o :: os := by
      cases olds with
      | nil => simp at hl
      | cons o os => exact ⟨o, os, rfl⟩
    have hnb := hg nb (by simp)
    rw [readLists, encNodes_cons, List.append_assoc, List.append_assoc]
    unfold readList
    rw [IStream.readInt_le nb.length 4 _ _ (hj _) (by omega)]
    have hr := IStream.read_append (le32s nb) (encNodes g ++ rest)
    rw [le32s_length, Nat.mul_comm 4 nb.length] at hr
    dsimp only
    rw [hr]
    dsimp only
    rw [un32s_le32s nb hnb.2, ih olds rest (fun x hx => hg x (by simp [hx])) (by simpa using hl)]

theorem adim_round {d : Nat} : roundUp8 (roundUp8 d) = roundUp8 d := by
  unfold roundUp8
  split <;> (split <;> omega)

variable {P : Type} [DecidableEq P]

/-- **C40.** Saving an IVF index and loading it into a fresh object restores the vectors, the tags, the
labels, the centres and the inverted lists; hence every query is answered as before.  Whatever the files held
before, whatever uninitialised memory contains. -/
theorem C40_ivf_reload (nm : Part → P) (hnm : Function.Injective nm) (pc : P) (hpc : ∀ p, pc ≠ nm p)
    (fs : FS P) (es : Nat) (o : IvfObj) (rows crows : List Bytes) (hs : IvfSaveable es o rows crows)
    (sortL : List Label → List Label) (hsort : IsStrSort sortL) (j : Junk) (hj : j.WF) (o0 : IvfObj)
    (h0 : IsFresh o0.base) :
    ∃ ops o', ivfSave es nm pc o = .ok ops ∧ ivfLoad sortL j es nm pc (runOps ops fs) o0 = .ok o' ∧
      o'.base.adim = o.base.adim ∧ o'.base.data = o.base.data ∧ o'.base.tags = o.base.tags ∧ o'.base.labels = o.base.labels ∧
      o'.nc = o.nc ∧ o'.centers = o.centers ∧ o'.inv = o.inv ∧
      ∀ cmp cdist pops q rc pw ind dst filters,
        ivfSearch pops (o'.view es cmp cdist) q rc pw ind dst filters =
          ivfSearch pops (o.view es cmp cdist) q rc pw ind dst filters := by
  have ne : ∀ {a b : Part}, a ≠ b → nm a ≠ nm b := fun h e => h (hnm e)
  obtain ⟨b, hb, hbh, hbq⟩ := saveBase_holds nm hnm hs.base fs
  have hcl : o.centers.length = o.nc * o.base.adim * 4 := by
    rw [hs.centers, flatten_length_of hs.matrix, hs.crows_n, Nat.mul_assoc]
  have hslice : slice o.centers 0 (o.nc * o.base.adim * 4) = .ok o.centers := by
    unfold slice
    rw [if_pos (by omega), List.drop_zero, List.take_of_length_le (by omega)]
  have hrows : (List.range o.nc).mapM (rd o.inv) = .ok o.inv := by
    rw [← hs.inv_len, range_mapM_rd]
  refine ⟨b ++ saveBin pc o.nc o.base.adim o.centers ++ ([.create (nm .graph)] ++
      o.inv.flatMap (nodeOps (nm .graph))), ?_⟩
  have hsave : ivfSave es nm pc o = .ok (b ++ saveBin pc o.nc o.base.adim o.centers ++
      ([.create (nm .graph)] ++ o.inv.flatMap (nodeOps (nm .graph)))) := by
    unfold ivfSave
    rw [hb, Res.ok_bind, hslice, Res.ok_bind, hrows, Res.ok_bind]
  have hfs : runOps (b ++ saveBin pc o.nc o.base.adim o.centers ++ ([.create (nm .graph)] ++
      o.inv.flatMap (nodeOps (nm .graph)))) fs = fun q => if q = nm .graph then some (encNodes o.inv) else
        if q = pc then some (le 4 o.nc ++ (le 4 o.base.adim ++ o.centers)) else runOps b fs q := by
    rw [runOps_append, runOps_append, runOps_append,
      run_nodeOps (nm .graph) o.inv hs.inv_fits _ [] (by simp [runOps, FOp.run]), saveBin_run]
    funext q
    by_cases hq : q = nm .graph
    · simp [hq]
    · simp [hq, runOps, FOp.run]
  rw [hfs]
  have hbh' : HoldsBase nm (fun q => if q = nm .graph then some (encNodes o.inv) else
        if q = pc then some (le 4 o.nc ++ (le 4 o.base.adim ++ o.centers)) else runOps b fs q) o.base rows := by
    constructor <;> rw [if_neg (ne (by decide)), if_neg (Ne.symm (hpc _))]
    · exact hbh.data
    · exact hbh.tags
    · exact hbh.labels
    · exact hbh.univ
  obtain ⟨seen, hl⟩ := loadBase_holds sortL hsort j hj nm hs.base _ hbh' o0.base h0
  have hcen := loadAligned_ok (es := 4) (d := o.base.adim) hs.matrix (by rw [hs.crows_n]; exact hs.nc_lt)
    hs.adim_lt (by have := hs.csize; rw [hs.crows_n]; omega)
    (by rw [hs.crows_n]; exact aligned_size_lt (by have := hs.csize; omega)) hj.1 hj.2.1 j.mem
  have hpad : crows.map (Spec.padTo (roundUp8 o.base.adim * 4)) = crows := by
    rw [hs.base.adim, adim_round, ← hs.base.adim]
    conv_rhs => rw [← List.map_id crows]
    apply List.map_congr_left
    intro r hr
    simp [Spec.padTo, hs.matrix r hr]
  rw [hs.crows_n, hpad, ← hs.centers] at hcen
  have hinv : readLists j.k (o0.inv.take o.nc ++ List.replicate (o.nc - o0.inv.length) [])
      (IStream.open (some (encNodes o.inv))) = o.inv := by
    have := readLists_enc j.k hj.2.2.2.2.2.2.2 o.inv
      (o0.inv.take o.nc ++ List.replicate (o.nc - o0.inv.length) []) [] hs.inv_fits
      (by rw [hs.inv_len]; simp only [List.length_append, List.length_take, List.length_replicate]; omega)
    rw [List.append_nil] at this
    exact this
  refine ⟨⟨{ o.base with seen := seen, maxDeg := o0.base.maxDeg, start := o0.base.start, graph := [], medoids := [] },
    o.nc, o.centers, o.inv⟩, hsave, ?_, rfl, rfl, rfl, rfl, rfl, rfl, rfl, ?_⟩
  · unfold ivfLoad
    rw [hl, Res.ok_bind]
    dsimp only
    rw [if_neg (hpc _), if_pos rfl, hcen, Res.ok_bind]
    dsimp only
    rw [if_pos rfl, hinv]
  · intro cmp cdist pops q rc pw ind dst filters
    rfl

/-- A concrete index with two clusters. -/
def exIvfObj : IvfObj where
  base := { exObj with graph := [] }
  nc := 2
  centers := List.replicate 32 0 ++ List.replicate 32 1
  inv := [[1], [0]]

theorem exIvfObj_saveable : IvfSaveable 1 exIvfObj [[1, 2, 3], [4, 5, 6]]
    [List.replicate 32 0, List.replicate 32 1] := by
  have h := exObj_saveable.toBaseSaveable
  refine ⟨⟨h.matrix, h.rows_n, h.data, h.adim, h.n_lt, h.dim_lt, h.size, h.tags_len, h.tags_lt, h.labelled,
    h.unlabelled, h.univ⟩, rfl, ?_, rfl, by decide, by decide, by decide, rfl, ?_⟩
  · unfold Spec.Matrix; decide
  · unfold Spec.GraphFits; decide

/-! ## The theorems applied to the examples -/

/-- C40 for the index with two clusters. -/
example := C40_ivf_reload some (Option.some_injective _) none (fun p => by simp) (fun _ => some [1]) 1 exIvfObj _ _
  exIvfObj_saveable exStrSort exStrSort_isStrSort exJunk exJunk_WF ⟨IdxObj.fresh, 0, [], []⟩ fresh_isFresh

end Grann
