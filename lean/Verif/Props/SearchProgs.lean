import Verif.Props.SearchProg
import Verif.Props.PipelineRng
import Verif.Props.PipelineHnsw
import Verif.Props.PipelineIvf
/-!
# C82 for RelativeNG, HNSW and IVF
-/

namespace Grann

open _root_.Spec (Matches Reports KNearest)

/-- An object made from a data file alone can be loaded into as if it had been made without files. -/
theorem ctorObj_fresh {sortL : List Label → List Label} {j : Junk} {es : Nat} {file : Option Bytes} {o : IdxObj}
    (h : ctorObj sortL j es file [] none = .ok o) : IsFresh o := by
  unfold ctorObj at h
  obtain ⟨⟨n, dim, adim, data⟩, -, h⟩ := Res.bind_eq_ok.1 h
  dsimp only at h
  rw [if_neg (by simp)] at h
  injection h with h
  subst h
  exact ⟨rfl, rfl, rfl, rfl, rfl, rfl, rfl⟩

/-- **C82 (RelativeNG).** As for Vamana, without filters; the build ends.  The data file that the program is given besides the index
has to be well-formed, but nothing depends on what it holds: it need not be the one the index was built from. -/
theorem C82_relng {P : Type} [DecidableEq P] (nm : Part → P) (hnm : Function.Injective nm) (fs : FS P)
    (sortL : List Label → List Label) (hsort : IsStrSort sortL) (j j' j0 : Junk) (hj : j.WF) (hj' : j'.WF) (hj0 : j0.WF)
    (es dim : Nat) (hes : 1 ≤ es) (cmp : Bytes → Bytes → F32) (hsym : ∀ a b, cmp a b = cmp b a)
    (rows : List Bytes) (b : Bytes) (tags : List Nat) (lab : Nat → List Label)
    (hin : InputOK es dim rows b tags none lab) (h10 : 10 ≤ rows.length) (r : RngRun) (hr : r.OK) :
    ∃ o1 o2 ops, ctorObj sortL j es (some b) tags none = .ok o1 ∧ rngBuildObj es cmp r o1 = .ok o2 ∧
      rngSave es nm o2 = .ok ops ∧
      ∀ (pd : P) (dim2 : Nat) (rows2 : List Bytes) (b2 : Bytes) (lab2 : Nat → List Label), runOps ops fs pd = some b2 →
      InputOK es dim2 rows2 b2 [] none lab2 →
      ∀ (fuel : Nat), rows.length < fuel → ∀ (sortF : List Nbr → List Nbr), IsStdSort sortF →
      ∀ (S : Prog P), S.OK es (roundUp8 dim) (runOps ops fs) → S.minL = S.K → 1 ≤ S.K → (∀ L ∈ S.Ls, L < 2147483648) →
      (∀ k, k < S.qrows.length → ∀ i, i < rows.length →
        (Spec.fileDist cmp es dim rows (Spec.queryVec es S.qdim (roundUp8 dim) S.qrows k) i).IsNum) →
      S.Ends es (rngProg sortL j0 j' fuel es pd nm cmp sortF S.K) (runOps ops fs) (fun _ k s => s.length = S.K ∧
        Spec.GraphSlots (Spec.tagOf tags) (Spec.fileDist cmp es dim rows (Spec.queryVec es S.qdim (roundUp8 dim) S.qrows k))
          (fun i => i < rows.length) S.K s) := by
  obtain ⟨o1, o2, ops, e1, e2, e3, hrest⟩ := C78_rng nm hnm fs sortL hsort j j' hj hj' es dim hes cmp hsym rows b tags lab hin h10 r hr
  refine ⟨o1, o2, ops, e1, e2, e3, ?_⟩
  intro pd dim2 rows2 b2 lab2 hpd hin2 fuel hfuel sortF hsF S hS hmin hK1 hLs hnum
  obtain ⟨o0, e0, -⟩ := ctorObj_spec sortL hsort j0 hj0 hin2
  have e0 : ctorObj sortL j0 es (some b2) [] none = .ok o0 := e0
  obtain ⟨o3, el, -, hadim, htag, hsearch⟩ := hrest o0 fuel (ctorObj_fresh e0) hfuel
  have hK : S.K < 2147483648 := by
    obtain ⟨L, hL, hm⟩ := hS.param
    have := hLs L hL; omega
  have hK32 : u32 S.K = S.K := Nat.mod_eq_of_lt (by omega)
  refine C82_results S es (roundUp8 dim) _ hS _
    (fun L q ind dst => rngSearch sortF (o3.view es cmp) q S.K L ind dst []) ?_ _ ?_
  · unfold rngProg
    rw [hpd, e0, Res.ok_bind, el, Res.ok_bind]
    dsimp only
    rw [hK32, hadim]
  · intro L hL hm k hk ind dst hind hdst
    rw [hmin] at hm
    have hL31 := hLs L hL
    have hL32 : u32 L = L := Nat.mod_eq_of_lt (by omega)
    obtain ⟨ids, ind', dst', e, hrep, hlen, -, d1, d2⟩ := hsearch sortF hsF (Spec.queryVec es S.qdim (roundUp8 dim) S.qrows k) (hnum k hk)
      [] S.K L (.of_le (by omega)) (by omega) hm ind dst hind hdst
    have hfill := C11_filler sortF hsF (o3.view es cmp) [] (Spec.queryVec es S.qdim (roundUp8 dim) S.qrows k) [] S.K L (by omega) (by omega) hm
      ind dst (rngSearch sortF (o3.view es cmp) (Spec.queryVec es S.qdim (roundUp8 dim) S.qrows k) S.K L ind dst []) (by simp) ind' dst' ids.length e
    obtain ⟨s, g1, g2, g3, g4⟩ := reports_slots hrep hlen d1 d2 hind hdst (fun i h1 h2 => by
      have := hfill i h1 h2
      rw [show (o3.view es cmp).tags[0]? = some (Spec.tagOf tags 0) from htag] at this
      exact this)
    refine ⟨s, dst', ids.length, ?_, le_of_eq g2, ⟨g2, g3⟩, g4⟩
    dsimp only
    rw [hL32, e, ← g1]

/-- **C82 (HNSW).** As for Vamana, without filters, for an index with any number of levels. -/
theorem C82_hnsw {P : Type} [DecidableEq P] (fs : FS (Nat × Part)) (fst : FS Unit)
    (sortL : List Label → List Label) (hsort : IsStrSort sortL) (j j' : Junk) (hj : j.WF) (hj' : j'.WF)
    (es dim : Nat) (hes : 1 ≤ es) (cmp : Bytes → Bytes → F32) (hsym : ∀ a b, cmp a b = cmp b a)
    (rows : List Bytes) (b : Bytes) (tags : List Nat) (lab : Nat → List Label)
    (hin : InputOK es dim rows b tags none lab)
    (hnum : ∀ i k, i < rows.length → k < rows.length → (rowDist cmp es dim rows i k).IsNum)
    (r : HnswRun) (hr : r.OK rows.length) (sched0 : List Nat) (ups : List ((Nat → Bool) × List Nat))
    (hsz : LevelSizes ups rows.length) :
    ∃ o1, ctorObj sortL j es (some b) tags none = .ok o1 ∧
      (hnswBuildObj es cmp r sched0 ups fst o1 = .error .loop ∨
      ∃ os ops, hnswBuildObj es cmp r sched0 ups fst o1 = .ok os ∧ hnswSave es os = .ok ops ∧
      ∀ (nm : Nat × Part → P) (fs' : FS P), (∀ p, fs' (nm p) = runOps ops fs p) →
      ∀ (o0s : List IdxObj) (fuel : Nat), o0s.length = ups.length + 1 → (∀ o0 ∈ o0s, IsFresh o0) → rows.length < fuel →
      ∀ (sortF : List Nbr → List Nbr), IsStdSort sortF →
      ∀ (S : Prog P), S.OK es (roundUp8 dim) fs' → S.minL = S.K → 1 ≤ S.K → (∀ L ∈ S.Ls, L < 2147483648) →
      (∀ k, k < S.qrows.length → ∀ i, i < rows.length →
        (Spec.fileDist cmp es dim rows (Spec.queryVec es S.qdim (roundUp8 dim) S.qrows k) i).IsNum) →
      S.Ends es (hnswProg sortL j' fuel es nm o0s cmp sortF S.K) fs' (fun _ k s => s.length = S.K ∧
        Spec.GraphSlots (Spec.tagOf tags) (Spec.fileDist cmp es dim rows (Spec.queryVec es S.qdim (roundUp8 dim) S.qrows k))
          (fun i => i < rows.length) S.K s)) := by
  obtain ⟨o1, e1, hb⟩ := C78_hnsw fs fst sortL hsort j j' hj hj' es dim hes cmp hsym rows b tags lab hin hnum r hr sched0 ups hsz
  refine ⟨o1, e1, ?_⟩
  rcases hb with h | ⟨os, ops, e2, -, e3, hrest⟩
  · exact Or.inl h
  refine Or.inr ⟨os, ops, e2, e3, ?_⟩
  intro nm fs' hfs o0s fuel hl0 h0 hfuel sortF hsF S hS hmin hK1 hLs hqn
  obtain ⟨os', el, -, hadim, ⟨x, rest, rfl, htag⟩, -, hsearch⟩ := hrest o0s fuel hl0 h0 hfuel
  have hfs' : (fun p => fs' (nm p)) = runOps ops fs := funext hfs
  have hK : S.K < 2147483648 := by
    obtain ⟨L, hL, hm⟩ := hS.param
    have := hLs L hL; omega
  have hK32 : u32 S.K = S.K := Nat.mod_eq_of_lt (by omega)
  refine C82_results S es (roundUp8 dim) _ hS _
    (fun L q ind dst => hnswSearch sortF q S.K L ((x :: rest).map (fun x => x.1.view es cmp)) ind dst []) ?_ _ ?_
  · unfold hnswProg
    rw [hfs', el, Res.ok_bind, rd_ok (by simp), Res.ok_bind, hK32]
    congr 2
    exact hadim x (by simp)
  · intro L hL hm k hk ind dst hind hdst
    rw [hmin] at hm
    have hL31 := hLs L hL
    have hL32 : u32 L = L := Nat.mod_eq_of_lt (by omega)
    obtain ⟨ids, ind', dst', e, hrep, hlen, -, d1, d2⟩ := hsearch sortF hsF (Spec.queryVec es S.qdim (roundUp8 dim) S.qrows k) (hqn k hk)
      [] S.K L (.of_le (by omega)) (by omega) hm ind dst hind hdst
    have hfill := C11_filler sortF hsF (x.1.view es cmp) (rest.map (fun x => x.1.view es cmp))
      (Spec.queryVec es S.qdim (roundUp8 dim) S.qrows k) [] S.K L (by omega) (by omega) hm
      ind dst (hnswSearch sortF (Spec.queryVec es S.qdim (roundUp8 dim) S.qrows k) S.K L ((x :: rest).map (fun x => x.1.view es cmp)) ind dst [])
      (by simp) ind' dst' ids.length e
    obtain ⟨s, g1, g2, g3, g4⟩ := reports_slots hrep hlen d1 d2 hind hdst (fun i h1 h2 => by
      have := hfill i h1 h2
      rw [show (x.1.view es cmp).tags[0]? = some (Spec.tagOf tags 0) from htag] at this
      exact this)
    refine ⟨s, dst', ids.length, ?_, le_of_eq g2, ⟨g2, g3⟩, g4⟩
    dsimp only
    rw [hL32, e, ← g1]

/-- **C82 (IVF).** As for Vamana; the search parameter is the number of clusters to look into, from 1 to their number, and may be below `recall_at`.  The
files hold the numbers of different matching rows (not their tags, see C13), nearest first, and zeros behind them, so that row 0 is counted as a
result where rows are missing; the rows are the nearest ones of the matching rows in the nearest clusters, with all clusters of all that match. -/
theorem C82_ivf {P : Type} [DecidableEq P] (nm : Part → P) (hnm : Function.Injective nm) (pc : P) (hpc : ∀ p, pc ≠ nm p)
    (fs : FS P) (sortL : List Label → List Label) (hsort : IsStrSort sortL) (j j' : Junk) (hj : j.WF) (hj' : j'.WF)
    (es dim : Nat) (cmp : Bytes → Bytes → F32) (cdist : Bytes → Nat → Nat → Bytes → List F32)
    (rows : List Bytes) (b : Bytes) (tags : List Nat) (labelFile : Option Bytes) (lab : Nat → List Label)
    (hin : InputOK es dim rows b tags labelFile lab) (hdim : dim ≤ 4294967288) :
    ∃ o1, ctorObj sortL j es (some b) tags (labelFile.map some) = .ok o1 ∧
      ∀ (r : IvfRun) (crows : List Bytes) (nc0 : Nat) (cs0 : Bytes), r.OK (roundUp8 dim) crows →
      (∀ i, i < rows.length → CentreRow r.nc (cdist r.centers r.nc (roundUp8 dim)
        (Spec.padTo (roundUp8 dim * es) (rows.getD i [])))) →
      ∃ o2 ops, ivfBuildObj es cdist r ⟨o1, nc0, cs0, []⟩ = .ok o2 ∧ ivfSave es nm pc o2 = .ok ops ∧
      ∀ (o0 : IvfObj), IsFresh o0.base → ∀ (pops : List F32 → List Nat), IsPopOrder pops →
      ∀ (filters : List Label), (filters ≠ [] → labelFile ≠ none) → SortedL filters →
      ∀ (S : Prog P), S.OK es (roundUp8 dim) (runOps ops fs) → S.minL = 1 → 1 ≤ S.K → S.K ≤ 2147483648 →
      (∀ L ∈ S.Ls, L ≤ r.nc) →
      (∀ k, k < S.qrows.length → (∀ i, i < rows.length →
          (Spec.fileDist cmp es dim rows (Spec.queryVec es S.qdim (roundUp8 dim) S.qrows k) i).lt F32.fmax = true) ∧
        CentreRow r.nc (cdist r.centers r.nc (roundUp8 dim) (Spec.queryVec es S.qdim (roundUp8 dim) S.qrows k))) →
      S.Ends es (ivfProg sortL j' es nm pc o0 cmp cdist pops S.K filters) (runOps ops fs) (fun L k ids =>
        ids.Nodup ∧ (∀ i ∈ ids, i < rows.length ∧ Matches true [48] filters (lab i)) ∧
        ids.Pairwise (fun i i' => (Spec.fileDist cmp es dim rows (Spec.queryVec es S.qdim (roundUp8 dim) S.qrows k) i).le
          (Spec.fileDist cmp es dim rows (Spec.queryVec es S.qdim (roundUp8 dim) S.qrows k) i') = true) ∧
        (L = r.nc → KNearest S.K ((Finset.range rows.length).filter (fun i => Matches true [48] filters (lab i)))
          (Spec.fileDist cmp es dim rows (Spec.queryVec es S.qdim (roundUp8 dim) S.qrows k))
          (ids.map (fun i => (i, Spec.fileDist cmp es dim rows (Spec.queryVec es S.qdim (roundUp8 dim) S.qrows k) i)))) ∧
        Spec.ClusterAnswer r.nc L (cdist r.centers r.nc (roundUp8 dim) (Spec.queryVec es S.qdim (roundUp8 dim) S.qrows k))
          (fun i => cdist r.centers r.nc (roundUp8 dim) (Spec.padTo (roundUp8 dim * es) (rows.getD i []))) rows.length
          (fun i => Matches true [48] filters (lab i)) S.K (Spec.fileDist cmp es dim rows (Spec.queryVec es S.qdim (roundUp8 dim) S.qrows k)) ids) := by
  obtain ⟨o1, ec, hb⟩ := C78_ivf nm hnm pc hpc fs sortL hsort j j' hj hj' es dim cmp cdist rows b tags labelFile lab hin hdim
  refine ⟨o1, ec, fun r crows nc0 cs0 hr hrow => ?_⟩
  obtain ⟨o2, ops, e1, e2, hrest⟩ := hb r crows nc0 cs0 hr hrow
  refine ⟨o2, ops, e1, e2, ?_⟩
  intro o0 h0 pops hpops filters hflt hsf S hS hmin hK1 hK hLs hnum
  obtain ⟨o3, el, hadim, hsearch⟩ := hrest o0 h0
  have hK32 : u32 S.K = S.K := Nat.mod_eq_of_lt (by omega)
  refine C82_results S es (roundUp8 dim) _ hS _ (fun L q ind dst => do
    let (x, y, c) ← ivfSearch pops (o3.view es cmp cdist) q S.K L ind (some dst) filters
    .ok (x, y.getD dst, c)) ?_ _ ?_
  · unfold ivfProg
    rw [el, Res.ok_bind, hadim, hK32]
  · intro L hL hm k hk ind dst hind hdst
    have hL32 : u32 L = L := Nat.mod_eq_of_lt (by have := hLs L hL; have := hr.nc'; omega)
    obtain ⟨ids, e, g1, g2, g3, g4, g5, g6⟩ := hsearch pops hpops (Spec.queryVec es S.qdim (roundUp8 dim) S.qrows k) (hnum k hk).1 (hnum k hk).2
      filters hflt hsf S.K L hK1 hK (hLs L hL) ind dst hind hdst
    refine ⟨ids, ids.map (Spec.fileDist cmp es dim rows (Spec.queryVec es S.qdim (roundUp8 dim) S.qrows k)) ++ dst.drop ids.length,
      ids.length, ?_, g2, ⟨g1, g3, g4, g5, g6⟩, ?_⟩
    · dsimp only
      rw [hL32, e, Res.ok_bind]; rfl
    · rw [List.length_append, List.length_map, List.length_drop]; omega

/-! ## Concrete runs -/

/-- What a search program leaves: whether each recall is `pc` percent, and the files of results for the parameters 2 and 3. -/
def exLeft (pc : Nat) (fs : FS (Part ⊕ Nat)) (r : Option (List (Option (Nat × Nat)) × List (FOp (Part ⊕ Nat)))) :
    Res (List (Option Bool) × List (Option Bytes)) :=
  match r with
  | none => .error .exit
  | some (rs, sv) => .ok (rs.map (fun r => r.map (fun v => v.1 == pc * v.2)), [runOps sv fs (.inr 4), runOps sv fs (.inr 5)])

/-- RelativeNG over the ten points; the data file given to the search program holds three points of two elements instead. -/
def exRngProg : Res (List (Option Bool) × List (Option Bytes)) := do
  let o1 ← ctorObj exStrSort exJunk 1 (some exFile10) (List.range' 100 10) none
  let o2 ← rngBuildObj 1 exCmpB exRngRun o1
  let ops ← rngSave 1 exProgNm o2
  let fs : FS (Part ⊕ Nat) := runOps ops (fun p => if p = .inr 9 then some [3, 0, 0, 0, 2, 0, 0, 0, 1, 2, 3, 4, 5, 6] else exProgFs p)
  let r ← searchProg exProgFiles 1 2 2 [1, 3] [0, 0, 0, 0] [0, 0, 0, 0] (fun _ => 0) exTruthJunk
    (rngProg exStrSort exJunk exJunk 11 1 (.inr 9) exProgNm exCmpB exSort 2) (fun _ => [1, 0]) fs
  exLeft 0 fs r

/-- HNSW with two levels, without truth. -/
def exHnswProg : Res (List (Option (Nat × Nat)) × Option Bytes) := do
  let o1 ← ctorObj exStrSort exJunk 1 (some exFile12) [] none
  let os ← hnswBuildObj 1 exCmpB exHnswRun ((List.range 400).map (fun k => k % 10))
    [(fun i => decide (2 ≤ i), (List.range 480).map (fun k => k % 12))] (fun _ => some [1, 2, 3]) o1
  let ops ← hnswSave 1 os
  let fs : FS ((Nat × Part) ⊕ Nat) := fun p => match p with
    | .inl q => runOps ops (fun _ => none) q
    | .inr 0 => some exQueries
    | _ => none
  let r ← searchProg ⟨.inr 0, .inr 1, fun L => .inr (L + 2)⟩ 1 2 2 [1, 3] [0, 0, 0, 0] [0, 0, 0, 0] (fun _ => 0) exTruthJunk
    (hnswProg exStrSort exJunk 13 1 Sum.inl [IdxObj.fresh, IdxObj.fresh] exCmpB exSort 2) (fun _ => [1, 0]) fs
  match r with
  | none => .error .exit
  | some (rs, sv) => .ok (rs, runOps sv fs (.inr 5))

/-- IVF with two clusters, probing one and both, with the filter of the rows labelled `a`. -/
def exIvfProg : Res (List (Option Bool) × List (Option Bytes)) := do
  let o1 ← exObj10
  let o2 ← ivfBuildObj 1 exCdist exIvfRun ⟨o1, 0, [], []⟩
  let ops ← ivfSave 1 exProgNm (.inr 9) o2
  let fs : FS (Part ⊕ Nat) := runOps ops exProgFs
  let r ← searchProg (⟨.inr 0, .inr 1, fun L => .inr (L + 3)⟩ : ProgFiles (Part ⊕ Nat)) 1 2 1 [1, 2] [0, 0, 0, 0] [0, 0, 0, 0] (fun _ => 0) exTruthJunk
    (ivfProg exStrSort exJunk 1 exProgNm (.inr 9) ⟨IdxObj.fresh, 0, [], []⟩ exCmpB exCdist exPops 2 [[97]]) (fun _ => [1, 0]) fs
  exLeft 75 fs r

/-- RelativeNG finds the nearest points; as the truth has numbers of points and the index tags, the recall is zero. -/
example : exRngProg = .ok ([some true], [none, some (le 4 2 ++ le 4 2 ++ le32s [101, 100, 104, 102])]) := by decide +kernel

example : exHnswProg = .ok ([none], some (le 4 2 ++ le 4 2 ++ le32s [3, 2, 4, 3])) := by decide +kernel

/-- IVF: three of four in the truth with both clusters, fewer with one of them. -/
example : exIvfProg = .ok ([some false, some true],
    [some (le 4 2 ++ le 4 2 ++ le32s [2, 4, 4, 6]), some (le 4 2 ++ le 4 2 ++ le32s [1, 0, 4, 6])]) := by decide +kernel

example := C82_relng (Sum.inl : Part → Part ⊕ Nat) Sum.inl_injective (fun _ => none) exStrSort exStrSort_isStrSort exJunk exJunk exJunk
  exJunk_WF exJunk_WF exJunk_WF 1 1 (by decide) exCmpB (fun a b => exSq_comm _ _) exRows10 exFile10 (List.range' 100 10) exLab
  exInput10_tags (by decide) exRngRun exRngRun_ok

example := C82_hnsw (P := Nat) (fun _ => none) (fun _ => none) exStrSort exStrSort_isStrSort exJunk exJunk exJunk_WF exJunk_WF 1 1
  (by decide) exCmpB (fun a b => exSq_comm _ _) exRows12 exFile12 [] exLab exInput12

example := C82_ivf (Sum.inl ∘ some : Part → Option Part ⊕ Nat) (fun _ _ h => by simpa using h) (.inl none) (fun _ => by simp)
  (fun _ => none) exStrSort exStrSort_isStrSort exJunk exJunk exJunk_WF exJunk_WF 1 1 exCmpB exCdist exRows10 exFile10 []
  (some exLabels10) exLab exInput10 (by decide)

end Grann
