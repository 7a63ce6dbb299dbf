import Verif.Props.SearchProg
import Verif.Props.PipelineLsh
/-!
# C82 for LSH, whose searches change the index
-/

namespace Grann

open _root_.Spec (Matches KNearest)

/-- A search with state that, from every state of `I`, does what `search0` does, and stays in `I`. -/
def Follows {σ : Type} (I : σ → Prop) (search0 : SearchFn) (search : σ → Bytes → List Nat → List F32 → Res (σ × List Nat × List F32)) : Prop :=
  ∀ t, I t → ∀ q ind dst x y c, search0 q ind dst = .ok (x, y, c) → ∃ t', I t' ∧ search t q ind dst = .ok (t', x, y)

theorem progQueryS_run {σ : Type} {I : σ → Prop} {search0 : SearchFn}
    {search : σ → Bytes → List Nat → List F32 → Res (σ × List Nat × List F32)} (h : Follows I search0 search) {es qadim adim K : Nat} {qbuf : Bytes} :
    ∀ (order : List Nat) (t : σ) (a b : List Nat × List F32), I t → order.foldlM (progQuery es qadim adim K qbuf search0) a = .ok b →
      ∃ t', order.foldlM (progQueryS es qadim adim K qbuf search) (t, a) = .ok (t', b)
  | [], t, a, b, _, e => by
    simp only [List.foldlM_nil] at e ⊢
    cases e
    exact ⟨t, rfl⟩
  | i :: order, t, a, b, ht, e => by
    rw [List.foldlM_cons] at e
    obtain ⟨a', e1, e2⟩ := Res.bind_eq_ok.1 e
    unfold progQuery at e1
    obtain ⟨q, hq, e1⟩ := Res.bind_eq_ok.1 e1
    obtain ⟨⟨x, y, c⟩, hs, e1⟩ := Res.bind_eq_ok.1 e1
    cases e1
    obtain ⟨t', ht', hs'⟩ := h t ht _ _ _ _ _ _ hs
    obtain ⟨t'', e'⟩ := progQueryS_run h order t' _ b ht' e2
    refine ⟨t'', ?_⟩
    rw [List.foldlM_cons]
    unfold progQueryS
    dsimp only
    rw [hq, Res.ok_bind, hs', Res.ok_bind]
    exact e'

theorem searchProgS_ok {P σ : Type} {I : σ → Prop} {f : ProgFiles P} {es K : Nat} {h1 h2 : Bytes} {mem : Nat → UInt8} {jt : TruthJunk}
    {load : FS P → Res (Nat × σ × (σ → Bytes → List Nat → List F32 → Res (σ × List Nat × List F32)))} {order : Nat → List Nat} {fs : FS P}
    {adim : Nat} {t : σ} {search : σ → Bytes → List Nat → List F32 → Res (σ × List Nat × List F32)} {search0 : SearchFn}
    (hload : load fs = .ok (adim, t, search)) (ht : I t) (hfol : Follows I search0 search) {rs : List (Option (Nat × Nat))} {ops : List (FOp P)}
    (h : searchProg f es K 1 [1] h1 h2 mem jt (fun _ => .ok (adim, fun _ => search0)) order fs = .ok (some (rs, ops))) :
    ∃ r, rs = [r] ∧ searchProgS f es K h1 h2 mem jt load (order 0) fs = .ok (r, ops) := by
  unfold searchProg at h
  rw [show [1].filter (fun L => decide (1 ≤ L)) = [1] from rfl] at h
  dsimp only at h
  rw [if_neg (by decide)] at h
  obtain ⟨⟨nq, qd, qadim, qbuf⟩, hl, h⟩ := Res.bind_eq_ok.1 h
  obtain ⟨truth, htr, h⟩ := Res.bind_eq_ok.1 h
  rw [Res.ok_bind] at h
  obtain ⟨rounds, hr, h⟩ := Res.bind_eq_ok.1 h
  simp only [List.zipIdx_cons, List.zipIdx_nil, List.mapM_cons, List.mapM_nil] at hr
  obtain ⟨x, hx, hr⟩ := Res.bind_eq_ok.1 hr
  cases hr
  cases h
  unfold progRound at hx
  split at hx
  · cases hx
  obtain ⟨a, ha, hx⟩ := Res.bind_eq_ok.1 hx
  obtain ⟨r, hrec, hx⟩ := Res.bind_eq_ok.1 hx
  obtain ⟨u, hst, hx⟩ := Res.bind_eq_ok.1 hx
  cases hx
  obtain ⟨t', hrun⟩ := progQueryS_run hfol (order 0) t _ _ ht ha
  refine ⟨r, rfl, ?_⟩
  unfold searchProgS
  rw [hl, Res.ok_bind]
  dsimp only
  rw [htr, Res.ok_bind, hload, Res.ok_bind]
  dsimp only
  rw [if_neg (by assumption), hrun, Res.ok_bind]
  dsimp only
  rw [hrec, Res.ok_bind, hst, Res.ok_bind]
  rfl

/-- **C82 (LSH).** Build, save and load an LSH index as in C78, and give it to tests/search_lsh.cpp in a well-formed run.  If its searches do not overlap (see C77), the
program ends normally.  It leaves one file, with the numbers of the `K` nearest rows among the matching ones that share a bucket with the query, and zeros behind them,
for every order of the queries, although each search may change the tables. -/
theorem C82_lsh {P : Type} [DecidableEq P] (nm : Part → P) (hnm : Function.Injective nm) (pc : P) (hpc : ∀ p, pc ≠ nm p)
    (fs : FS P) (sortL : List Label → List Label) (hsort : IsStrSort sortL) (j j' : Junk) (hj : j.WF) (hj' : j'.WF)
    (jl : LshJunk) (hjl : jl.WF) (es dim : Nat) (cmp dot : Bytes → Bytes → F32)
    (rows : List Bytes) (b : Bytes) (labelFile : Option Bytes) (lab : Nat → List Label)
    (hin : InputOK es dim rows b [] labelFile lab)
    (tableSize : Nat) (hts : tableSize ≤ 64) (hps : List (List Bytes)) (hnt : hps.length < 4294967296)
    (hh : ∀ h ∈ hps, h.length = tableSize) (hw : ∀ h ∈ hps, ∀ x ∈ h, x.length = roundUp8 dim * 4) :
    ∃ o1 o2 ops, ctorObj sortL j es (some b) [] (labelFile.map some) = .ok o1 ∧
      lshBuildObj es dot tableSize hps ⟨o1, 0, 0, []⟩ = .ok o2 ∧ lshSave es nm pc o2 = .ok ops ∧
      ∀ (o0 : LshObj), IsFresh o0.base →
      ∀ (filters : List Label), (filters ≠ [] → labelFile ≠ none) → SortedL filters →
      ∀ (S : Prog P), S.OK es (roundUp8 dim) (runOps ops fs) → S.minL = 1 → S.Ls = [1] → 1 ≤ S.K → S.K ≤ 2147483648 →
      (∀ k, k < S.qrows.length → ∀ i, i < rows.length →
        (Spec.fileDist cmp es dim rows (Spec.queryVec es S.qdim (roundUp8 dim) S.qrows k) i).lt F32.fmax = true) →
      ∃ r ops', searchProgS S.f es S.K S.h1 S.h2 S.mem S.jt (lshProg sortL j' jl es nm pc o0 cmp dot S.K filters) (S.order 0) (runOps ops fs) =
          .ok (r, ops') ∧
        S.Gives (runOps ops fs) (fun _ k ids => ∃ A : Finset Nat,
          (∀ i, i ∈ A ↔ i < rows.length ∧ SameSide dot hps es dim rows (Spec.queryVec es S.qdim (roundUp8 dim) S.qrows k) i ∧
            Matches true [48] filters (lab i)) ∧
          KNearest S.K A (Spec.fileDist cmp es dim rows (Spec.queryVec es S.qdim (roundUp8 dim) S.qrows k))
            (ids.map (fun i => (i, Spec.fileDist cmp es dim rows (Spec.queryVec es S.qdim (roundUp8 dim) S.qrows k) i)))) [r] ops' := by
  obtain ⟨o1, o2, ops, e1, e2, e3, hrest⟩ := C78_lsh nm hnm pc hpc fs sortL hsort j j' hj hj' jl hjl es dim cmp dot rows b labelFile lab hin tableSize hts hps
    hnt hh hw
  refine ⟨o1, o2, ops, e1, e2, e3, ?_⟩
  intro o0 h0 filters hflt hsf S hS hmin hLs hK1 hK hnum
  obtain ⟨o3, el, hadim, hok, hsearch⟩ := hrest o0 h0
  have hK32 : u32 S.K = S.K := Nat.mod_eq_of_lt (by omega)
  let search0 : SearchFn := fun q ind dst => do
    let (_, x, y, c) ← lshSearch dot (o3.base.view es cmp).ctx o3.tables q S.K ind (some dst) filters
    .ok (x, y.getD dst, c)
  have hfills := C82_results S es (roundUp8 dim) (runOps ops fs) hS (fun _ => .ok (roundUp8 dim, fun _ => search0)) (fun _ => search0) rfl
    (fun _ k ids => ∃ A : Finset Nat,
          (∀ i, i ∈ A ↔ i < rows.length ∧ SameSide dot hps es dim rows (Spec.queryVec es S.qdim (roundUp8 dim) S.qrows k) i ∧
            Matches true [48] filters (lab i)) ∧
          KNearest S.K A (Spec.fileDist cmp es dim rows (Spec.queryVec es S.qdim (roundUp8 dim) S.qrows k))
            (ids.map (fun i => (i, Spec.fileDist cmp es dim rows (Spec.queryVec es S.qdim (roundUp8 dim) S.qrows k) i)))) ?_
  · obtain ⟨rs, ops', e, g⟩ := hfills
    unfold Prog.run at e
    rw [hmin, hLs] at e
    obtain ⟨r, rfl, e'⟩ := searchProgS_ok (I := fun ts => SameTables ts o3.tables)
      (load := lshProg sortL j' jl es nm pc o0 cmp dot S.K filters) (t := o3.tables) (search := fun ts q ind dst => do
        let (ts', x, y, _) ← lshSearch dot (o3.base.view es cmp).ctx ts q (u32 S.K) ind (some dst) filters
        .ok (ts', x, y.getD dst)) (by unfold lshProg; rw [el, Res.ok_bind, hadim]) (SameTables.refl hok) (by
        intro ts hts q ind dst x y c h
        obtain ⟨⟨t0, x0, y0, c0⟩, h0, h⟩ := Res.bind_eq_ok.1 h
        cases h
        have hs := hts.search dot (o3.base.view es cmp).ctx q S.K ind (some dst) filters
        rw [h0] at hs
        cases hr : lshSearch dot (o3.base.view es cmp).ctx ts q S.K ind (some dst) filters with
        | error e => rw [hr] at hs; cases hs
        | ok r =>
          obtain ⟨t1, r⟩ := r
          rw [hr] at hs
          cases hs
          refine ⟨t1, ?_, ?_⟩
          · exact SameTables.run dot (o3.base.view es cmp).ctx [⟨q, S.K, ind, some dst, filters⟩] ts t1 hts (by
              unfold lshRun
              rw [hr]
              rfl)
          · dsimp only
            rw [hK32, hr]
            rfl) e
    exact ⟨r, ops', e', g⟩
  · intro L hL hm k hk ind dst hind hdst
    obtain ⟨ids, A, e, hA, hkn⟩ := hsearch [] o3.tables rfl (Spec.queryVec es S.qdim (roundUp8 dim) S.qrows k) (hnum k hk) filters hflt hsf S.K hK1 hK
      ind dst hind hdst
    have hlen : ids.length ≤ S.K := by
      have := hkn.length
      rw [List.length_map] at this
      omega
    refine ⟨ids, ids.map (Spec.fileDist cmp es dim rows (Spec.queryVec es S.qdim (roundUp8 dim) S.qrows k)) ++ dst.drop ids.length, ids.length, ?_, hlen,
      ⟨A, hA, hkn⟩, by rw [List.length_append, List.length_map, List.length_drop]; omega⟩
    cases hr : lshSearch dot (o3.base.view es cmp).ctx o3.tables (Spec.queryVec es S.qdim (roundUp8 dim) S.qrows k) S.K ind (some dst) filters with
    | error e' => rw [hr] at e; cases e
    | ok r =>
      obtain ⟨t1, r⟩ := r
      rw [hr] at e
      cases e
      show (lshSearch _ _ _ _ _ _ _ _ >>= _) = _
      rw [hr]
      rfl

/-! ## A concrete run -/

/-- The ten points of `exRows10` in two tables; the rows labelled `a` near the queries 51 and 55. -/
def exLshProg (order : List Nat) : Res (Option Bool × List (Option Bytes)) := do
  let o1 ← exObj10
  let o2 ← lshBuildObj 1 exDotB 2 exHps ⟨o1, 0, 0, []⟩
  let ops ← lshSave 1 exProgNm (.inr 9) o2
  let fs : FS (Part ⊕ Nat) := runOps ops exProgFs
  let (r, sv) ← searchProgS exProgFiles 1 2 [0, 0, 0, 0] [0, 0, 0, 0] (fun _ => 0) exTruthJunk
    (lshProg exStrSort exJunk exLshJunk 1 exProgNm (.inr 9) ⟨IdxObj.fresh, 0, 0, []⟩ exCmpB exDotB 2 [[97]]) order fs
  .ok (r.map (fun v => v.1 == 100 * v.2), [runOps sv fs (.inr 3)])

example : exLshProg [1, 0] = .ok (some true, [some (le 4 2 ++ le 4 2 ++ le32s [1, 0, 4, 2])]) ∧ exLshProg [0, 1] = exLshProg [1, 0] := by
  decide +kernel

example := C82_lsh (Sum.inl ∘ some : Part → Option Part ⊕ Nat) (fun _ _ h => by simpa using h) (.inl none) (fun _ => by simp)
  (fun _ => none) exStrSort exStrSort_isStrSort exJunk exJunk exJunk_WF exJunk_WF exLshJunk ⟨rfl, rfl⟩ 1 1 exCmpB exDotB exRows10
  exFile10 (some exLabels10) exLab exInput10 2 (by decide) exHps (by decide) (by decide) (by decide)

end Grann
