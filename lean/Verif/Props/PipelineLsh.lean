import Verif.Props.PipelineIvf
import Verif.Props.LshFile
/-!
# From the data file to the answer, for LSH (C78)
-/

namespace Grann

open _root_.Spec (Matches KNearest)

/-- Row `i` of the file falls on the same side as the query of every hyperplane of some table. -/
def SameSide (dot : Bytes → Bytes → F32) (hps : List (List Bytes)) (es dim : Nat) (rows : List Bytes) (q : Bytes) (i : Nat) : Prop :=
  ∃ h ∈ hps, ∀ x ∈ h, F32.zero.lt (dot x (Spec.padTo (roundUp8 dim * es) (rows.getD i []))) = F32.zero.lt (dot x q)

/-- **C78 (LSH).** Take any well-formed data file with fewer than 2^31 points, without tags (see C13 for the others), a label file
with a label for every point or none; construct the object; build it with any hyperplanes; save it over whatever was stored
there; load it into a fresh object.  Nothing goes wrong on the way, and after any earlier searches every search of the loaded
object with `1 ≤ res_count` (and sorted filters) reports exactly the nearest ones of the matching rows of the file that share a bucket with the query, each
with its own distance to the query, nearest first, none twice. -/
theorem C78_lsh {P : Type} [DecidableEq P] (nm : Part → P) (hnm : Function.Injective nm) (pc : P) (hpc : ∀ p, pc ≠ nm p)
    (fs : FS P) (sortL : List Label → List Label) (hsort : IsStrSort sortL) (j j' : Junk) (hj : j.WF) (hj' : j'.WF)
    (jl : LshJunk) (hjl : jl.WF)
    (es dim : Nat) (cmp dot : Bytes → Bytes → F32)
    (rows : List Bytes) (b : Bytes) (labelFile : Option Bytes) (lab : Nat → List Label)
    (hin : InputOK es dim rows b [] labelFile lab)
    (tableSize : Nat) (hts : tableSize ≤ 64) (hps : List (List Bytes)) (hnt : hps.length < 4294967296)
    (hh : ∀ h ∈ hps, h.length = tableSize) (hw : ∀ h ∈ hps, ∀ x ∈ h, x.length = roundUp8 dim * 4) :
    ∃ o1 o2 ops, ctorObj sortL j es (some b) [] (labelFile.map some) = .ok o1 ∧
      lshBuildObj es dot tableSize hps ⟨o1, 0, 0, []⟩ = .ok o2 ∧ lshSave es nm pc o2 = .ok ops ∧
      ∀ (o0 : LshObj), IsFresh o0.base →
      ∃ o3, lshLoad sortL j' jl es nm pc (runOps ops fs) o0 = .ok o3 ∧ o3.base.adim = roundUp8 dim ∧ (∀ t ∈ o3.tables, t.OK) ∧
      ∀ (earlier : List (LshCall Bytes)) (ts : List (HTable Bytes)), lshRun dot (o3.base.view es cmp).ctx o3.tables earlier = .ok ts →
      ∀ (q : Bytes), (∀ i, i < rows.length → (Spec.fileDist cmp es dim rows q i).lt F32.fmax = true) →
      ∀ (filters : List Label), (filters ≠ [] → labelFile ≠ none) → SortedL filters →
      ∀ (rc : Nat), 1 ≤ rc → rc ≤ 2147483648 →
      ∀ (ind : List Nat) (dst : List F32), rc ≤ ind.length → rc ≤ dst.length →
      ∃ (ids : List Nat) (S : Finset Nat),
        (lshSearch dot (o3.base.view es cmp).ctx ts q rc ind (some dst) filters).map Prod.snd =
          .ok (ids ++ ind.drop ids.length, some (ids.map (Spec.fileDist cmp es dim rows q) ++ dst.drop ids.length), ids.length) ∧
        (∀ i, i ∈ S ↔ i < rows.length ∧ SameSide dot hps es dim rows q i ∧ Matches true [48] filters (lab i)) ∧
        KNearest rc S (Spec.fileDist cmp es dim rows q) (ids.map (fun i => (i, Spec.fileDist cmp es dim rows q i))) := by
  obtain ⟨o1, ec, ho⟩ := ctorObj_spec sortL hsort j hj hin
  have hfew := hin.few
  have hsize := hin.size
  have hdl : (o1.rows es).length = rows.length := by rw [ho.vecs, List.length_map]
  have htags : o1.tags = List.range (o1.rows es).length := by rw [ho.tagMap, if_pos rfl, hdl]
  have hbs := ho.baseSaveable hin sortL hsort j hj ec
  obtain ⟨ts0, et, hlen, hfits⟩ := lshBuild_fits dot (o1.rows es) o1.tags (by rw [htags]; simp) (by
    rw [htags]; intro t ht
    have := List.mem_range.mp ht
    omega) (by omega) (roundUp8 dim) tableSize hts hps hh hw
  obtain ⟨ts', et', hholds⟩ := lshBuild_holds dot (o1.rows es) o1.tags (by rw [htags]; simp) tableSize hts hps hh
  rw [et] at et'
  cases et'
  have hbuild : lshBuildObj es dot tableSize hps ⟨o1, 0, 0, []⟩ = .ok ⟨o1, hps.length, tableSize, ts0⟩ := by
    unfold lshBuild at et
    unfold lshBuildObj
    obtain ⟨new, e1, e2⟩ := Res.bind_eq_ok.mp et
    rw [e1, Res.ok_bind]
    dsimp only
    rw [List.nil_append, e2, Res.ok_bind]
  have hsav : LshBuilt es ⟨o1, hps.length, tableSize, ts0⟩ rows := by
    refine ⟨hbs, hlen.symm, hnt, hts, ?_⟩
    intro t ht
    show TableFits o1.adim tableSize t
    rw [ho.adim]; exact (hfits t ht).1
  obtain ⟨ops, -, eops, -⟩ := lshSave_load nm hnm pc hpc fs es _ rows hsav.saveable sortL hsort j' hj' jl hjl
    ⟨IdxObj.fresh, 0, 0, []⟩ ⟨rfl, rfl, rfl, rfl, rfl, rfl, rfl⟩
  refine ⟨o1, _, ops, ec, hbuild, eops, fun o0 h0 => ?_⟩
  obtain ⟨ops', seen, eops', eload⟩ := lshSave_load nm hnm pc hpc fs es _ rows hsav.saveable sortL hsort j' hj' jl hjl o0 h0
  rw [eops] at eops'
  cases eops'
  have hsame : SameTables ((ts0.take hps.length).map HTable.full) ts0 := by
    rw [← hlen, List.take_length]
    exact sameTables_full ts0 (fun t ht => (hfits t ht).1.ok)
  refine ⟨_, eload, ho.adim, hsame.left_ok, ?_⟩
  intro earlier ts hrun q hfin filters hflt hsf rc hrc1 hrc ind dst hind hdst
  have hsearch : (lshSearch dot (o1.view es cmp).ctx ts q rc ind (some dst) filters).map Prod.snd =
      (lshSearch dot (o1.view es cmp).ctx ts0 q rc ind (some dst) filters).map Prod.snd := by
    exact (SameTables.run dot _ earlier _ ts hsame hrun).search dot _ q rc ind (some dst) filters
  refine hsearch ▸ ?_
  have hfil : filters ≠ [] → o1.filtered = true := by
    intro h
    rw [ho.filtered, Option.isSome_iff_ne_none]; exact hflt h
  rw [htags] at hholds
  have hd : ∀ i v, (o1.view es cmp).ctx.data[i]? = some v → Spec.fileDist cmp es dim rows q i = (o1.view es cmp).ctx.cmp q v := by
    intro i v hv
    have hv' : (rows.map (Spec.padTo (roundUp8 dim * es)))[i]? = some v := by rw [← ho.vecs]; exact hv
    rw [List.getElem?_map] at hv'
    obtain ⟨row, hrow, rfl⟩ := Option.map_eq_some_iff.mp hv'
    show cmp q _ = cmp q _
    rw [List.getD_eq_getElem?_getD, hrow]; rfl
  obtain ⟨tables', ids, S, e, hS, hk⟩ := lshSearch_spec dot (o1.view es cmp).ctx hps ts0 hholds q
    (Spec.fileDist cmp es dim rows q) hd (by
      intro i hi
      have hi : i < (o1.rows es).length := hi
      exact hfin i (by omega)) filters (by
      intro h
      show o1.labels.length = (o1.rows es).length
      rw [hdl, ho.labelsLen (hfil h)]) rc hrc1 (.of_le hrc) ind (some dst) hind (by intro l h; cases h; exact hdst)
  refine ⟨ids, S, by rw [e]; rfl, ?_, hk⟩
  intro i
  rw [hS]
  have hcol : (∃ v, (o1.view es cmp).ctx.data[i]? = some v ∧ Collides dot hps v q) ↔
      i < rows.length ∧ SameSide dot hps es dim rows q i := by
    have hx : (o1.view es cmp).ctx.data = rows.map (Spec.padTo (roundUp8 dim * es)) := ho.vecs
    rw [hx]
    constructor
    · rintro ⟨v, hv, hc⟩
      rw [List.getElem?_map] at hv
      obtain ⟨row, hrow, rfl⟩ := Option.map_eq_some_iff.mp hv
      refine ⟨(List.getElem?_eq_some_iff.mp hrow).1, ?_⟩
      unfold SameSide
      rw [List.getD_eq_getElem?_getD, hrow]; exact hc
    · rintro ⟨hi, hc⟩
      refine ⟨_, by rw [List.getElem?_map, List.getElem?_eq_getElem hi]; rfl, ?_⟩
      unfold SameSide at hc
      rw [List.getD_eq_getElem?_getD, List.getElem?_eq_getElem hi] at hc
      exact hc
  rw [hcol, and_assoc]
  refine and_congr_right fun hi => and_congr_right fun _ => ?_
  exact ho.accepts_iff hfil hsf cmp i hi

/-! ## A concrete index -/

/-- The first byte of a vector against the threshold in the first byte of the hyperplane. -/
def exDotB (h v : Bytes) : F32 := if (h.headD 0).toNat < (v.headD 0).toNat then F32.one else F32.zero

/-- Two tables of two hyperplanes each. -/
def exHps : List (List Bytes) :=
  [[46 :: List.replicate 31 0, 52 :: List.replicate 31 0], [49 :: List.replicate 31 0, 55 :: List.replicate 31 0]]

/-- The ten points of `exRows10`.  The query 51 shares a bucket with 47 to 52 or 50 to 55. -/
example : InputOK 1 1 exRows10 exFile10 [] (some exLabels10) exLab ∧ (∀ h ∈ exHps, h.length = 2) ∧
    (∀ h ∈ exHps, ∀ x ∈ h, x.length = roundUp8 1 * 4) ∧ exLshJunk.WF ∧
    (do let o1 ← exObj10
        let o2 ← lshBuildObj 1 exDotB 2 exHps ⟨o1, 0, 0, []⟩
        let ops ← lshSave 1 (some : Part → Option Part) none o2
        let r ← lshLoad exStrSort exJunk exLshJunk 1 (some : Part → Option Part) none (runOps ops (fun _ => none))
          ⟨IdxObj.fresh, 0, 0, []⟩
        let a ← lshSearch exDotB (r.base.view 1 exCmpB).ctx r.tables [51] 5 [90, 90, 90, 90, 90] none [[97]]
        let b ← lshSearch exDotB (r.base.view 1 exCmpB).ctx r.tables [51] 5 [90, 90, 90, 90, 90] none [[98]]
        .ok (a.2.1, b.2.1) : Res (List Nat × List Nat)) = .ok ([1, 0, 2, 4, 90], [1, 90, 90, 90, 90]) :=
  ⟨exInput10, by decide, by decide, ⟨rfl, rfl⟩, by decide +kernel⟩

example := C78_lsh (some : Part → Option Part) (Option.some_injective _) none exNames (fun _ => none) exStrSort exStrSort_isStrSort
  exJunk exJunk exJunk_WF exJunk_WF exLshJunk ⟨rfl, rfl⟩ 1 1 exCmpB exDotB exRows10 exFile10 (some exLabels10) exLab exInput10 2
  (by decide) exHps (by decide) (by decide) (by decide)

end Grann
