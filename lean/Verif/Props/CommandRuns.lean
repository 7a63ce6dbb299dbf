import Verif.Props.CommandRun
import Verif.Props.SearchProgs
import Verif.Props.LshProg
/-!
# C83: building and searching from the command line, for the other index types
-/

namespace Grann

open _root_.Spec (Matches Reports KNearest)

theorem Elem.size_pos (e : Elem) : 1 ≤ e.size := by cases e <;> decide

theorem getU32_last {calls : List (Bytes × ParamVal)} {p : Params} (hp : p = calls.foldl Params.set Params.new) {name : Bytes} {v : Nat}
    (hv : v < 4294967296) (hl : Spec.lastSet name calls = some (.u32 v)) : uncaught (p.get toU32 name) = .ok v := by
  subst hp
  exact uncaught_ok (C44_get_last calls name v hv hl 0).1

theorem getF32_last {calls : List (Bytes × ParamVal)} {p : Params} (hp : p = calls.foldl Params.set Params.new) {name t : Bytes} {y : F32}
    (hy : toF32 t = .ok y) (hl : Spec.lastSet name calls = some (.text t)) : uncaught (p.get toF32 name) = .ok y := by
  subst hp
  apply uncaught_ok
  unfold Params.get
  rw [Params.lookup_sets, hl]
  exact hy

/-- A filter given on the command line is one label. -/
theorem flag_sorted {argv : List Bytes} {i k : Nat} {w : List Bytes} (h : Spec.FlagArg argv i w k) : SortedL w := by
  obtain ⟨v, -, ⟨-, rfl, -⟩ | ⟨-, ⟨s, -, rfl⟩, -⟩⟩ := h
  · exact List.Pairwise.nil
  · exact List.pairwise_singleton _ _

/-! ## RelativeNG -/

/-- **C83 (RelativeNG, from the command line to the results).** As for Vamana; the build ends.  The data file given to the search program has to
be well-formed, and is not looked at otherwise. -/
theorem C83_relng (env : BuildEnv RngRun) (senv : SearchEnv) (j0 : Junk) (fs : FS Bytes) (argv argv2 : List Bytes) (a : RngArgs) (s : SearchArgs)
    (ha : rngArgs argv = .ok (.run a)) (hs : searchRngArgs argv2 = .ok (.run s))
    (h1 : s.elem = a.elem) (h2 : s.metric = a.metric) (h3 : s.index = a.save) (d : DistClass) (hd : getDistance a.elem a.metric = .ok d)
    (hcmp : senv.cmp = env.cmp) (hsl : senv.sortL = env.sortL) (hsym : ∀ x y, env.cmp d x y = env.cmp d y x)
    (hsort : IsStrSort env.sortL) (hj : env.junk.WF) (hj' : senv.junk.WF) (hj0 : j0.WF)
    (dim : Nat) (rows : List Bytes) (b : Bytes) (lab : Nat → List Label) (hb : fs a.data = some b)
    (hin : InputOK a.elem.size dim rows b [] none lab) (h10 : 10 ≤ rows.length) (hrun : env.run.OK)
    (dim2 : Nat) (rows2 : List Bytes) (b2 : Bytes) (lab2 : Nat → List Label) (hb2 : fs s.data = some b2)
    (hin2 : InputOK a.elem.size dim2 rows2 b2 [] none lab2)
    (hfuel : rows.length < senv.fuel) (hsF : IsStdSort senv.sortF)
    (qdim : Nat) (qrows : List Bytes) (qb : Bytes) (truth : Option Truth)
    (hS : (progOf senv s s.K qdim qrows qb truth).OK a.elem.size (roundUp8 dim) fs)
    (hq : ∀ p, s.query ≠ partName a.save p) (ht : ∀ p, s.truth ≠ partName a.save p) (hpd : ∀ p, s.data ≠ partName a.save p)
    (hK1 : 1 ≤ s.K) (hLs : ∀ L ∈ s.Ls, L < 2147483648)
    (hnum : ∀ k, k < qrows.length → ∀ i, i < rows.length →
      (Spec.fileDist (env.cmp d) a.elem.size dim rows (Spec.queryVec a.elem.size qdim (roundUp8 dim) qrows k) i).IsNum) :
    ∃ ops rs ops', buildRngMain env argv fs = .ok (.run ops) ∧ searchRngMain senv j0 argv2 (runOps ops fs) = .ok (.run (rs, ops')) ∧
      (progOf senv s s.K qdim qrows qb truth).Gives (runOps ops fs) (fun _ k ids => ids.length = s.K ∧
        Spec.GraphSlots (Spec.tagOf []) (Spec.fileDist (env.cmp d) a.elem.size dim rows (Spec.queryVec a.elem.size qdim (roundUp8 dim) qrows k))
          (fun i => i < rows.length) s.K ids) rs ops' := by
  obtain ⟨o1, o2, ops, ec, eb, es, hrest⟩ := C82_relng (partName a.save) (C83_part_names a.save) fs env.sortL hsort env.junk senv.junk j0 hj hj' hj0
    a.elem.size dim a.elem.size_pos (env.cmp d) hsym rows b [] lab hin h10 env.run hrun
  obtain ⟨-, -, -, -, -, hT⟩ := (C83_relng_args argv a).1 ha
  have hfs : ∀ q, (∀ p, q ≠ partName a.save p) → runOps ops fs q = fs q := fun q hq => runOps_elsewhere (rngSave_files es) hq fs
  have hpd2 : runOps ops fs s.data = some b2 := (hfs _ hpd).trans hb2
  obtain ⟨rs, ops', e, g⟩ := hrest s.data dim2 rows2 b2 lab2 hpd2 hin2 senv.fuel hfuel senv.sortF hsF
    (progOf senv s s.K qdim qrows qb truth) (hS.elsewhere (hfs _ hq) (hfs _ ht)) rfl hK1 hLs hnum
  refine ⟨ops, rs, ops', ?_, ?_, g⟩
  · unfold buildRngMain
    rw [mainOf_run ha]
    unfold done buildRng
    have hc : ctorFor env a.elem a.metric (some b) none = .ok (o1, d) := ctorFor_ok (labelFile := none) env hsort hj hd hin ec
    rw [hb, hc, Res.ok_bind]
    dsimp only
    have gT : uncaught ((Params.new.setU32 (ascii "num_threads") a.threads).get toU32 (ascii "num_threads")) = .ok a.threads :=
      getU32_last (calls := [(ascii "num_threads", .u32 a.threads)]) rfl (uns32_lt hT) rfl
    rw [gT, Res.ok_bind, eb, Res.ok_bind, es, Res.ok_bind]
  · unfold searchRngMain
    rw [mainOf_run hs]
    refine searchWith_ok (by rw [h1]) ?_ e
    obtain ⟨o0, e0, -⟩ := ctorObj_spec env.sortL hsort j0 hj0 hin2
    have e0 : ctorObj env.sortL j0 a.elem.size (some b2) [] none = .ok o0 := e0
    unfold loadRng
    rw [h1, h2, h3, hcmp, hsl, hpd2, e0, Res.ok_bind, hd, Res.ok_bind]
    rfl

/-! ## IVF -/

/-- **C83 (IVF, from the command line to the results).** The number of clusters is the one on the command line, the training is given the rate as it is
after having been a text.  If the training finds centres, the program writes an index, and the search program gives for every number of clusters from 1
what C82 describes. -/
theorem C83_ivf (env : BuildEnv IvfTrain) (senv : SearchEnv) (pops : List F32 → List Nat) (fs : FS Bytes) (argv argv2 : List Bytes)
    (a : ListArgs F32) (s : SearchArgs)
    (ha : ivfArgs argv = .ok (.run a)) (hs : searchIvfArgs argv2 = .ok (.run s)) (h1 : s.elem = a.elem) (h3 : s.index = a.save)
    (d : DistClass) (hd : getDistance a.elem .l2 = .ok d) (hcmp : senv.cmp = env.cmp) (hsl : senv.sortL = env.sortL)
    (hsort : IsStrSort env.sortL) (hj : env.junk.WF) (hj' : senv.junk.WF)
    (dim : Nat) (rows : List Bytes) (b : Bytes) (labelFile : Option Bytes) (lab : Nat → List Label) (hb : fs a.data = some b)
    (hlf : LabelFileArg fs a.labels labelFile) (hin : InputOK a.elem.size dim rows b [] labelFile lab) (hdim : dim ≤ 4294967288)
    (y : F32) (hy : toF32 a.last.text = .ok y) (cs : Bytes) (crows : List Bytes)
    (htrain : ∀ o1, ctorObj env.sortL env.junk a.elem.size (some b) [] (labelFile.map some) = .ok o1 → env.run.train a.num y o1 = .ok cs)
    (hrun : (⟨a.num, cs, env.run.pops, env.run.sched⟩ : IvfRun).OK (roundUp8 dim) crows)
    (hcd : ∀ i, i < rows.length → CentreRow a.num (env.run.cdist cs a.num (roundUp8 dim) (Spec.padTo (roundUp8 dim * a.elem.size) (rows.getD i []))))
    (hpops : IsPopOrder pops) (hflt : s.filters ≠ [] → labelFile ≠ none)
    (qdim : Nat) (qrows : List Bytes) (qb : Bytes) (truth : Option Truth)
    (hS : (progOf senv s 1 qdim qrows qb truth).OK a.elem.size (roundUp8 dim) fs)
    (hq : ∀ p, s.query ≠ ivfName a.save p) (ht : ∀ p, s.truth ≠ ivfName a.save p) (hK1 : 1 ≤ s.K) (hK : s.K ≤ 2147483648) (hLs : ∀ L ∈ s.Ls, L ≤ a.num)
    (hnum : ∀ k, k < qrows.length → (∀ i, i < rows.length →
        (Spec.fileDist (env.cmp d) a.elem.size dim rows (Spec.queryVec a.elem.size qdim (roundUp8 dim) qrows k) i).lt F32.fmax = true) ∧
      CentreRow a.num (env.run.cdist cs a.num (roundUp8 dim) (Spec.queryVec a.elem.size qdim (roundUp8 dim) qrows k))) :
    ∃ ops rs ops', buildIvfMain env argv fs = .ok (.run ops) ∧
      searchIvfMain senv env.run.cdist pops argv2 (runOps ops fs) = .ok (.run (rs, ops')) ∧
      (progOf senv s 1 qdim qrows qb truth).Gives (runOps ops fs) (fun L k ids =>
        ids.Nodup ∧ (∀ i ∈ ids, i < rows.length ∧ Matches true [48] s.filters (lab i)) ∧
        ids.Pairwise (fun i i' => (Spec.fileDist (env.cmp d) a.elem.size dim rows (Spec.queryVec a.elem.size qdim (roundUp8 dim) qrows k) i).le
          (Spec.fileDist (env.cmp d) a.elem.size dim rows (Spec.queryVec a.elem.size qdim (roundUp8 dim) qrows k) i') = true) ∧
        (L = a.num → KNearest s.K ((Finset.range rows.length).filter (fun i => Matches true [48] s.filters (lab i)))
          (Spec.fileDist (env.cmp d) a.elem.size dim rows (Spec.queryVec a.elem.size qdim (roundUp8 dim) qrows k))
          (ids.map (fun i => (i, Spec.fileDist (env.cmp d) a.elem.size dim rows (Spec.queryVec a.elem.size qdim (roundUp8 dim) qrows k) i)))) ∧
        Spec.ClusterAnswer a.num L (env.run.cdist cs a.num (roundUp8 dim) (Spec.queryVec a.elem.size qdim (roundUp8 dim) qrows k))
          (fun i => env.run.cdist cs a.num (roundUp8 dim) (Spec.padTo (roundUp8 dim * a.elem.size) (rows.getD i []))) rows.length
          (fun i => Matches true [48] s.filters (lab i)) s.K (Spec.fileDist (env.cmp d) a.elem.size dim rows (Spec.queryVec a.elem.size qdim (roundUp8 dim) qrows k)) ids) rs ops' := by
  obtain ⟨o1, ec, hbuild⟩ := C82_ivf (fun p => ivfName a.save (some p)) (fun p q h => Option.some.inj (C83_ivf_names a.save h)) (ivfName a.save none)
    (fun p h => by cases C83_ivf_names a.save h) fs env.sortL hsort env.junk senv.junk hj hj' a.elem.size dim (env.cmp d) env.run.cdist rows b [] labelFile lab hin hdim
  obtain ⟨o2, ops, eb, es, hrest⟩ := hbuild _ crows 0 [] hrun hcd
  obtain ⟨-, -, -, w, k, -, -, -, hN, -⟩ := (C83_ivf_args argv a).1 ha
  obtain ⟨-, -, -, -, -, -, -, -, ⟨k2, hf2, -⟩, -⟩ := (C83_search_ivf argv2 s).1 hs
  have hfs : ∀ q, (∀ p, q ≠ ivfName a.save p) → runOps ops fs q = fs q := fun q hq =>
    runOps_other ops q (fun op hop => by
      rcases ivfSave_files es op hop with ⟨p, e⟩ | e
      · rw [e]; exact hq (some p)
      · rw [e]; exact hq none) fs
  obtain ⟨rs, ops', e, g⟩ := hrest ⟨IdxObj.fresh, 0, [], []⟩ ⟨rfl, rfl, rfl, rfl, rfl, rfl, rfl⟩ pops hpops s.filters hflt (flag_sorted hf2)
    (progOf senv s 1 qdim qrows qb truth) (hS.elsewhere (hfs _ hq) (hfs _ ht)) rfl hK1 hK hLs hnum
  refine ⟨ops, rs, ops', ?_, ?_, g⟩
  · unfold buildIvfMain
    rw [mainOf_run ha]
    unfold done buildIvf
    rw [hb, hlf.eq, ctorFor_ok env hsort hj hd hin ec, Res.ok_bind]
    dsimp only
    have hp : (Params.new.setU32 (ascii "num_clusters") a.num).setF32 (ascii "training_rate") a.last =
      [(ascii "num_clusters", .u32 a.num), (ascii "training_rate", .text a.last.text)].foldl Params.set Params.new := rfl
    rw [getU32_last (name := ascii "num_clusters") hp (uns32_lt hN) rfl, Res.ok_bind, getF32_last (name := ascii "training_rate") hp hy rfl, Res.ok_bind,
      htrain o1 ec, Res.ok_bind, eb, Res.ok_bind, es, Res.ok_bind]
  · unfold searchIvfMain
    rw [mainOf_run hs]
    refine searchWith_ok (by rw [h1]) ?_ e
    unfold loadIvf
    rw [h1, h3, hcmp, hsl, hd, Res.ok_bind]
    rfl

/-! ## LSH -/

/-- The tables are kept in a file of their own. -/
theorem C83_lsh_names (base : Bytes) (p : Part) : lshName base ≠ partName base p := by
  intro h
  cases p <;> (simp only [lshName, partName, List.append_cancel_left_eq, List.append_right_eq_self] at h; revert h; decide +kernel)

/-- **C83 (LSH, from the command line to the results).** For any hyperplanes, at most 64 in a table. -/
theorem C83_lsh (env : BuildEnv LshDraw) (senv : SearchEnv) (jl : LshJunk) (fs : FS Bytes) (argv argv2 : List Bytes)
    (a : ListArgs Nat) (s : SearchArgs)
    (ha : lshArgs argv = .ok (.run a)) (hs : searchLshArgs argv2 = .ok (.run s)) (h1 : s.elem = a.elem) (h3 : s.index = a.save)
    (d : DistClass) (hd : getDistance a.elem .l2 = .ok d) (hcmp : senv.cmp = env.cmp) (hsl : senv.sortL = env.sortL)
    (hsort : IsStrSort env.sortL) (hj : env.junk.WF) (hj' : senv.junk.WF) (hjl : jl.WF)
    (dim : Nat) (rows : List Bytes) (b : Bytes) (labelFile : Option Bytes) (lab : Nat → List Label) (hb : fs a.data = some b)
    (hlf : LabelFileArg fs a.labels labelFile) (hin : InputOK a.elem.size dim rows b [] labelFile lab)
    (hts : a.last ≤ 64) (hw : ∀ t i, (env.run.hp (roundUp8 dim) t i).length = roundUp8 dim * 4) (hflt : s.filters ≠ [] → labelFile ≠ none)
    (qdim : Nat) (qrows : List Bytes) (qb : Bytes) (truth : Option Truth)
    (hS : (progOf senv s 1 qdim qrows qb truth).OK a.elem.size (roundUp8 dim) fs)
    (hq : ∀ p, s.query ≠ partName a.save p) (hq' : s.query ≠ lshName a.save) (ht : ∀ p, s.truth ≠ partName a.save p) (ht' : s.truth ≠ lshName a.save)
    (hK1 : 1 ≤ s.K) (hK : s.K ≤ 2147483648)
    (hnum : ∀ k, k < qrows.length → ∀ i, i < rows.length →
      (Spec.fileDist (env.cmp d) a.elem.size dim rows (Spec.queryVec a.elem.size qdim (roundUp8 dim) qrows k) i).lt F32.fmax = true) :
    ∃ ops r ops', buildLshMain env argv fs = .ok (.run ops) ∧ searchLshMain senv jl env.run.dot argv2 (runOps ops fs) = .ok (.run (r, ops')) ∧
      (progOf senv s 1 qdim qrows qb truth).Gives (runOps ops fs) (fun _ k ids => ∃ A : Finset Nat,
        (∀ i, i ∈ A ↔ i < rows.length ∧ SameSide env.run.dot (env.run.hps (roundUp8 dim) a.num a.last) a.elem.size dim rows
            (Spec.queryVec a.elem.size qdim (roundUp8 dim) qrows k) i ∧ Matches true [48] s.filters (lab i)) ∧
        KNearest s.K A (Spec.fileDist (env.cmp d) a.elem.size dim rows (Spec.queryVec a.elem.size qdim (roundUp8 dim) qrows k))
          (ids.map (fun i => (i, Spec.fileDist (env.cmp d) a.elem.size dim rows (Spec.queryVec a.elem.size qdim (roundUp8 dim) qrows k) i)))) [r] ops' := by
  obtain ⟨-, -, -, w, k, -, -, -, hN, hT⟩ := (C83_lsh_args argv a).1 ha
  obtain ⟨-, -, -, -, -, -, -, -, ⟨k2, hf2⟩, hone, -⟩ := (C83_search_lsh argv2 s).1 hs
  obtain ⟨o1, o2, ops, ec, eb, es, hrest⟩ := C82_lsh (partName a.save) (C83_part_names a.save) (lshName a.save) (C83_lsh_names a.save) fs env.sortL hsort
    env.junk senv.junk hj hj' jl hjl a.elem.size dim (env.cmp d) env.run.dot rows b labelFile lab hin a.last hts (env.run.hps (roundUp8 dim) a.num a.last)
    (by unfold LshDraw.hps; rw [List.length_map, List.length_range]; exact uns32_lt hN)
    (by
      intro h hh
      obtain ⟨t, -, rfl⟩ := List.mem_map.1 hh
      rw [List.length_map, List.length_range])
    (by
      intro h hh x hx
      obtain ⟨t, -, rfl⟩ := List.mem_map.1 hh
      obtain ⟨i, -, rfl⟩ := List.mem_map.1 hx
      exact hw t i)
  have hfs : ∀ q, (∀ p, q ≠ partName a.save p) → q ≠ lshName a.save → runOps ops fs q = fs q := fun q hq hq' =>
    runOps_other ops q (fun op hop => by
      rcases lshSave_files es op hop with ⟨p, e⟩ | e
      · rw [e]; exact hq p
      · rw [e]; exact hq') fs
  obtain ⟨r, ops', e, g⟩ := hrest ⟨IdxObj.fresh, 0, 0, []⟩ ⟨rfl, rfl, rfl, rfl, rfl, rfl, rfl⟩ s.filters hflt (flag_sorted hf2)
    (progOf senv s 1 qdim qrows qb truth) (hS.elsewhere (hfs _ hq hq') (hfs _ ht ht')) rfl hone hK1 hK hnum
  obtain ⟨o1', ec', ho⟩ := ctorObj_spec env.sortL hsort env.junk hj hin
  have ec' : ctorObj env.sortL env.junk a.elem.size (some b) [] (labelFile.map some) = .ok o1' := ec'
  rw [ec] at ec'
  injection ec' with ec'
  subst ec'
  refine ⟨ops, r, ops', ?_, ?_, g⟩
  · unfold buildLshMain
    rw [mainOf_run ha]
    unfold done buildLsh
    rw [hb, hlf.eq, ctorFor_ok env hsort hj hd hin ec, Res.ok_bind]
    dsimp only
    have hp : (Params.new.setU32 (ascii "num_tables") a.num).setU32 (ascii "table_size") a.last =
      [(ascii "num_tables", .u32 a.num), (ascii "table_size", .u32 a.last)].foldl Params.set Params.new := rfl
    rw [getU32_last (name := ascii "num_tables") hp (uns32_lt hN) rfl, Res.ok_bind, getU32_last (name := ascii "table_size") hp (uns32_lt hT) rfl, Res.ok_bind,
      ho.adim, eb, Res.ok_bind, es, Res.ok_bind]
  · unfold searchLshMain
    rw [mainOf_run hs]
    unfold done
    have e' : searchProgS ⟨s.query, s.truth, resName s.pre⟩ a.elem.size s.K senv.h1 senv.h2 senv.mem senv.jt
      (lshProg env.sortL senv.junk jl a.elem.size (partName a.save) (lshName a.save) ⟨IdxObj.fresh, 0, 0, []⟩ (env.cmp d) env.run.dot s.K s.filters)
      (senv.order 0) (runOps ops fs) = .ok (r, ops') := e
    rw [h1, h3, hcmp, hsl, hd, Res.ok_bind, e', Res.ok_bind]

/-! ## HNSW -/

theorem FOp.run_rename {P Q : Type} [DecidableEq P] [DecidableEq Q] {f : P → Q} (hf : Function.Injective f) (op : FOp P) (fs : FS Q) (p : P) :
    (op.rename f).run fs (f p) = op.run (fun x => fs (f x)) p := by
  cases op <;> simp only [FOp.rename, FOp.run, hf.eq_iff]

theorem runOps_rename {P Q : Type} [DecidableEq P] [DecidableEq Q] {f : P → Q} (hf : Function.Injective f) :
    ∀ (ops : List (FOp P)) (fs : FS Q), (fun p => runOps (ops.map (FOp.rename f)) fs (f p)) = runOps ops (fun p => fs (f p))
  | [], _ => rfl
  | op :: ops, fs => by
    have h := runOps_rename hf ops ((op.rename f).run fs)
    have e : (fun p => (op.rename f).run fs (f p)) = op.run (fun p => fs (f p)) := funext (FOp.run_rename hf op fs)
    rw [e] at h
    exact h

theorem FOp.rename_file {P Q : Type} (f : P → Q) (op : FOp P) : (op.rename f).file = f op.file := by cases op <;> rfl

/-- The parameters of the build. -/
theorem hnswGets_ok (a : HnswArgs) (hR : a.R < 4294967296) (hL : a.L < 4294967296) (hP : a.pruningRule < 4294967296) (hT : a.threads < 4294967296)
    (e : HnswEnv) {y : F32} (hy : toF32 a.samplingRate.text = .ok y) :
    hnswGets (hnswSets a) e = .ok (y, ⟨e.sortF, e.div, a.L, a.R, 750, F32.one, a.pruningRule⟩) := by
  have hc : hnswSets a = [(ascii "R", .u32 a.R), (ascii "L", .u32 a.L), (ascii "C", .u32 750), (ascii "pruning_rule", .u32 a.pruningRule),
    (ascii "sampling_rate", .text a.samplingRate.text), (ascii "saturate_graph", .bool false), (ascii "num_threads", .u32 a.threads)].foldl Params.set Params.new := rfl
  have eA : uncaught ((hnswSets a).get toF32 (ascii "alpha")) = .ok F32.one := by
    rw [hc]
    exact uncaught_ok ((C44_unset _ (ascii "alpha") rfl 0).2.2 rfl).2
  unfold hnswGets
  rw [getF32_last (name := ascii "sampling_rate") hc hy rfl, Res.ok_bind, getU32_last (name := ascii "pruning_rule") hc hP rfl, Res.ok_bind,
    getU32_last (name := ascii "num_threads") hc hT rfl, Res.ok_bind, getU32_last (name := ascii "L") hc hL rfl, Res.ok_bind,
    getU32_last (name := ascii "R") hc hR rfl, Res.ok_bind, eA, Res.ok_bind,
    getU32_last (name := ascii "C") hc (by decide : 750 < 4294967296) rfl, Res.ok_bind]

attribute [local irreducible] topLevel in
/-- **C83 (HNSW, from the command line to the results).** As for Vamana, with the parameters 750 for the candidates and 1 for `alpha`.  The levels are sampled with the rate as it is after having been a
text, and have to get at least ten points each.  The search program has to be given the same number of levels. -/
theorem C83_hnsw (env : BuildEnv HnswEnv) (senv : SearchEnv) (fs : FS Bytes) (argv argv2 : List Bytes) (a : HnswArgs) (s : SearchArgs)
    (ha : hnswArgs argv = .ok (.run a)) (hs : searchHnswArgs argv2 = .ok (.run s))
    (h1 : s.elem = a.elem) (h2 : s.metric = a.metric) (h3 : s.index = a.save) (h4 : s.levels = a.levels)
    (d : DistClass) (hd : getDistance a.elem a.metric = .ok d)
    (hcmp : senv.cmp = env.cmp) (hsl : senv.sortL = env.sortL) (hsym : ∀ x y, env.cmp d x y = env.cmp d y x)
    (hsort : IsStrSort env.sortL) (hj : env.junk.WF) (hj' : senv.junk.WF) (hjs : ∀ k, (env.run.junk k).WF)
    (dim : Nat) (rows : List Bytes) (b : Bytes) (lab : Nat → List Label) (hb : fs a.data = some b)
    (hin : InputOK a.elem.size dim rows b [] none lab)
    (hnum0 : ∀ i k, i < rows.length → k < rows.length → (rowDist (env.cmp d) a.elem.size dim rows i k).IsNum)
    (y : F32) (hy : toF32 a.samplingRate.text = .ok y) (hsz : LevelSizes (hnswUps env.run y (topLevel a.levels)) rows.length)
    (hL1 : 1 ≤ a.L) (hL2 : Spec.ListFits rows.length a.L) (hsFb : IsStdSort env.run.sortF)
    (hfuel : rows.length < senv.fuel) (hsF : IsStdSort senv.sortF)
    (qdim : Nat) (qrows : List Bytes) (qb : Bytes) (truth : Option Truth)
    (hS : (progOf senv s s.K qdim qrows qb truth).OK a.elem.size (roundUp8 dim) fs)
    (hq : ∀ p, s.query ≠ levelName a.save p) (ht : ∀ p, s.truth ≠ levelName a.save p) (hq' : s.query ≠ tmpName) (ht' : s.truth ≠ tmpName)
    (hK1 : 1 ≤ s.K) (hLs : ∀ L ∈ s.Ls, L < 2147483648)
    (hnum : ∀ k, k < qrows.length → ∀ i, i < rows.length →
      (Spec.fileDist (env.cmp d) a.elem.size dim rows (Spec.queryVec a.elem.size qdim (roundUp8 dim) qrows k) i).IsNum) :
    buildHnswMain env argv fs = .error .loop ∨
    ∃ ops rs ops', buildHnswMain env argv fs = .ok (.run ops) ∧ searchHnswMain senv argv2 (runOps ops fs) = .ok (.run (rs, ops')) ∧
      (progOf senv s s.K qdim qrows qb truth).Gives (runOps ops fs) (fun _ k ids => ids.length = s.K ∧
        Spec.GraphSlots (Spec.tagOf []) (Spec.fileDist (env.cmp d) a.elem.size dim rows (Spec.queryVec a.elem.size qdim (roundUp8 dim) qrows k))
          (fun i => i < rows.length) s.K ids) rs ops' := by
  obtain ⟨-, -, -, -, -, hR, hL, hP, -, -, hT⟩ := (C83_hnsw_args argv a).1 ha
  have hgets := hnswGets_ok a (uns32_lt hR) (uns32_lt hL) (uns32_lt hP) (uns32_lt hT) env.run hy
  have hlen : (hnswUps env.run y (topLevel a.levels)).length = topLevel a.levels := by
    unfold hnswUps
    rw [List.length_map, List.length_range]
  generalize hups : hnswUps env.run y (topLevel a.levels) = ups at hsz hlen
  generalize hpre : (if topLevel a.levels = 0 then [] else [FOp.remove tmpName] : List (FOp Bytes)) = pre
  have hprefs : ∀ q, q ≠ tmpName → runOps pre fs q = fs q := fun q hq => runOps_other pre q (fun op hop => by
    rw [← hpre] at hop
    split at hop
    · cases hop
    · rw [List.mem_singleton] at hop
      rw [hop]
      exact hq) fs
  obtain ⟨o1, ec, hbuild⟩ := C82_hnsw (P := Bytes) (fun p => runOps pre fs (levelName a.save p)) (fun _ => fs tmpName) env.sortL hsort env.junk senv.junk hj hj'
    a.elem.size dim a.elem.size_pos (env.cmp d) hsym rows b [] lab hin hnum0
    ⟨⟨env.run.sortF, env.run.div, a.L, a.R, 750, F32.one, a.pruningRule⟩, env.run.mops, env.sortL, env.run.junk⟩
    ⟨hL1, hL2, uns32_lt hR, hsFb, hsort, hjs⟩ (env.run.sched 0) ups hsz
  have hc : ctorFor env a.elem a.metric (some b) none = .ok (o1, d) := ctorFor_ok (labelFile := none) env hsort hj hd hin ec
  have hmain : ∀ x : Res (List (FOp Bytes)),
      ((hnswBuildObj a.elem.size (env.cmp d)
        ⟨⟨env.run.sortF, env.run.div, a.L, a.R, 750, F32.one, a.pruningRule⟩, env.run.mops, env.sortL, env.run.junk⟩ (env.run.sched 0)
        ups (fun _ => fs tmpName) o1) >>= fun os => hnswSave a.elem.size os >>= fun ops =>
          .ok (pre ++ ops.map (FOp.rename (levelName a.save)))) = x →
      buildHnswMain env argv fs = (x >>= fun ops => .ok (.run ops)) := by
    intro x hx
    unfold buildHnswMain
    rw [mainOf_run ha]
    unfold done buildHnsw
    rw [hb, hc, Res.ok_bind]
    dsimp only
    rw [hgets, Res.ok_bind, hpre]
    dsimp only
    rw [hups, hx]
  rcases hbuild with h | ⟨os, ops, eb, es, hrest⟩
  · left
    rw [hmain (.error .loop) (by rw [h]; rfl)]
    rfl
  right
  have hfs' : ∀ p, runOps (pre ++ ops.map (FOp.rename (levelName a.save))) fs (levelName a.save p) =
      runOps ops (fun p => runOps pre fs (levelName a.save p)) p := by
    intro p
    rw [runOps_append]
    exact congrFun (runOps_rename (C83_level_names a.save) ops (runOps pre fs)) p
  have hfs : ∀ q, (∀ p, q ≠ levelName a.save p) → q ≠ tmpName → runOps (pre ++ ops.map (FOp.rename (levelName a.save))) fs q = fs q := by
    intro q hq hq'
    rw [runOps_append, runOps_other _ q (fun op hop => by
      obtain ⟨op', -, rfl⟩ := List.mem_map.1 hop
      rw [FOp.rename_file]
      exact hq _), hprefs q hq']
  obtain ⟨rs, ops', e, g⟩ := hrest (levelName a.save) _ hfs' (List.replicate (topLevel a.levels + 1) IdxObj.fresh) senv.fuel
    (by rw [List.length_replicate, hlen]) (fun o h => by rw [List.eq_of_mem_replicate h]; exact ⟨rfl, rfl, rfl, rfl, rfl, rfl, rfl⟩) hfuel senv.sortF hsF
    (progOf senv s s.K qdim qrows qb truth) (hS.elsewhere (hfs _ hq hq') (hfs _ ht ht')) rfl hK1 hLs hnum
  refine ⟨_, rs, ops', ?_, ?_, g⟩
  · rw [hmain (.ok _) (by rw [eb, Res.ok_bind, es, Res.ok_bind])]
    rfl
  · unfold searchHnswMain
    rw [mainOf_run hs]
    refine searchWith_ok (by rw [h1]) ?_ e
    unfold loadHnsw
    rw [h1, h2, h3, h4, hd, Res.ok_bind, hcmp, hsl]
    rfl

/-! ## Concrete runs -/

/-- Both programs, and what is in some files afterwards. -/
def exBoth {α : Type} (files : List String) (build : FS Bytes → Res (Cmd (List (FOp Bytes)))) (search : FS Bytes → Res (Cmd (α × List (FOp Bytes)))) :
    Res (Cmd (α × List (Option Bytes))) :=
  mainOf (build exCmdFs) (fun ops => mainOf (search (runOps ops exCmdFs)) (fun r =>
    done (.ok (r.1, files.map (fun f => runOps r.2 (runOps ops exCmdFs) (ascii f))))))

/-- The files with the twelve points of `exRows12` besides. -/
def exCmdFs12 : FS Bytes := fun p => if p = ascii "e" then some exFile12 else if p = tmpName then some [1, 2, 3] else exCmdFs p

theorem exProgOK (n : Nat) (fs : FS Bytes) (h1 : fs (ascii "q") = some exQueries) (h2 : fs (ascii "g") = some exQueryTruth) (s : SearchArgs) (minL : Nat)
    (hq : s.query = ascii "q") (ht : s.truth = ascii "g") (hK : s.K = 2) (hLs : ∀ L ∈ s.Ls, L < 10 ^ 20) (hL : ∃ L ∈ s.Ls, minL ≤ L) :
    (progOf { exSearchEnv with fuel := n } s minL 1 [[51], [55]] exQueries (some ⟨2, 2, [1, 0, 4, 2], none⟩)).OK 1 8 fs := by
  obtain ⟨elem, metric, data, index, levels, query, truth, K, pre, filters, Ls⟩ := s
  dsimp only at hq ht hK hLs hL
  subst hq ht hK
  refine ⟨fun L hL L' hL' h => C83_result_names _ (hLs L hL) (hLs L' hL') h, h1, exQueries_ok,
    (by decide : 1 ≤ 2), (by decide : 8 ≤ roundUp8 1), (by decide : 2 < 4294967296), (by decide : 2 * 2 ≤ 2305843009213693951), ?_, rfl, rfl, rfl, rfl,
    fun _ => (by decide : [1, 0].Perm (List.range 2)), hL⟩
  show TruthOK 2 2 (fs (ascii "g")) _
  rw [h2]
  exact exQueryTruth_ok

theorem exCmdFs_q : exCmdFs (ascii "q") = some exQueries ∧ exCmdFs (ascii "g") = some exQueryTruth ∧ exCmdFs (ascii "d") = some exFile10 ∧
    exCmdFs (ascii "t") = some exLabels10 := by decide +kernel

/-- Names of one letter are not those of the parts of an index `i`. -/
theorem exCmdNames (p : Part) : ascii "q" ≠ partName (ascii "i") p ∧ ascii "g" ≠ partName (ascii "i") p ∧ ascii "d" ≠ partName (ascii "i") p := by
  cases p <;> decide +kernel

def exRngEnv : BuildEnv RngRun := ⟨exStrSort, exJunk, fun _ => exCmpB, exRngRun⟩

def exRngLine : List Bytes := cmdWords ["build", "uint8", "l2", "d", "i", "8"]

def exRngSearchLine : List Bytes := cmdWords ["search", "uint8", "l2", "d", "i", "8", "q", "g", "2", "r", "1", "3"]

example : ∃ ops rs ops', buildRngMain exRngEnv exRngLine exCmdFs = .ok (.run ops) ∧
    searchRngMain exSearchEnv exJunk exRngSearchLine (runOps ops exCmdFs) = .ok (.run (rs, ops')) :=
  let ⟨ops, rs, ops', h1, h2, _⟩ := C83_relng exRngEnv exSearchEnv exJunk exCmdFs exRngLine exRngSearchLine ⟨.uint8, .l2, ascii "d", ascii "i", 8⟩
    ⟨.uint8, .l2, ascii "d", ascii "i", 1, ascii "q", ascii "g", 2, ascii "r", [], [1, 3]⟩ (by decide +kernel) (by decide +kernel) rfl rfl rfl .l2UInt8 rfl rfl rfl
    (fun a b => exSq_comm _ _) exStrSort_isStrSort exJunk_WF exJunk_WF exJunk_WF 1 exRows10 exFile10 exLab exCmdFs_q.2.2.1
    ⟨exInput10.file, exInput10.matrix, exInput10.size, exInput10.few, exInput10.dims, exInput10.bytes, Or.inl rfl, by simp, fun lf h => (by cases h)⟩ (by decide)
    ⟨exSort_isStdSort, insertionSort_sortsBy id, insertionSort_sortsBy Prod.snd⟩ 1 exRows10 exFile10 exLab exCmdFs_q.2.2.1
    ⟨exInput10.file, exInput10.matrix, exInput10.size, exInput10.few, exInput10.dims, exInput10.bytes, Or.inl rfl, by simp, fun lf h => (by cases h)⟩ (by decide)
    exSort_isStdSort 1 [[51], [55]] exQueries (some ⟨2, 2, [1, 0, 4, 2], none⟩)
    (exProgOK 11 exCmdFs exCmdFs_q.1 exCmdFs_q.2.1 _ 2 rfl rfl rfl (by simp) ⟨3, by simp, by decide⟩)
    (fun p => (exCmdNames p).1) (fun p => (exCmdNames p).2.1) (fun p => (exCmdNames p).2.2) (by decide) (by simp)
    (by
      have h : ∀ k < 2, ∀ i < 10, (Spec.fileDist exCmpB 1 1 exRows10 (Spec.queryVec 1 1 8 [[51], [55]] k) i).IsNum := by decide +kernel
      exact h)
  ⟨ops, rs, ops', h1, h2⟩

/-- The nearest points, for both queries; the recall is 100 percent. -/
example : (exBoth ["r_1_idx_uint32.bin", "r_3_idx_uint32.bin"] (buildRngMain exRngEnv exRngLine) (searchRngMain exSearchEnv exJunk exRngSearchLine)).map
    (fun c => match c with
    | .run (rs, files) => (rs.map (fun r => r.map (fun v => v.1 == 100 * v.2)), files)
    | _ => ([], [])) = .ok ([some true], [none, some (le 4 2 ++ le 4 2 ++ le32s [1, 0, 4, 2])]) := by
  decide +kernel

def exIvfEnv : BuildEnv IvfTrain := ⟨exStrSort, exJunk, fun _ => exCmpB, exCdist, fun _ _ _ => .ok exCrows.flatten, exPops, fun _ l => l.reverse⟩

def exIvfLine : List Bytes := cmdWords ["build", "uint8", "d", "1", "t", "i", "2", "0.5"]

def exIvfSearchLine : List Bytes := cmdWords ["search", "uint8", "i", "8", "q", "g", "2", "r", "1", "a", "1", "2"]

example : ∃ ops rs ops', buildIvfMain exIvfEnv exIvfLine exCmdFs = .ok (.run ops) ∧
    searchIvfMain exSearchEnv exCdist exPops exIvfSearchLine (runOps ops exCmdFs) = .ok (.run (rs, ops')) :=
  let ⟨ops, rs, ops', h1, h2, _⟩ := C83_ivf exIvfEnv exSearchEnv exPops exCmdFs exIvfLine exIvfSearchLine ⟨.uint8, ascii "d", ascii "t", ascii "i", 2, ⟨0x3f000000#32⟩⟩
    ⟨.uint8, .l2, [], ascii "i", 1, ascii "q", ascii "g", 2, ascii "r", [ascii "a"], [1, 2]⟩ (by decide +kernel) (by decide +kernel) rfl rfl .l2UInt8 rfl rfl rfl
    exStrSort_isStrSort exJunk_WF exJunk_WF 1 exRows10 exFile10 (some exLabels10) exLab exCmdFs_q.2.2.1 (Or.inr ⟨by decide, by simp, exCmdFs_q.2.2.2⟩)
    exInput10 (by decide) ⟨0x3f000000#32⟩ (by decide +kernel) exCrows.flatten exCrows (fun _ _ => rfl)
    ⟨by decide, by decide, rfl, by unfold Spec.Matrix; decide, rfl, by decide +kernel, exPops_isPopOrder, fun _ l => l.reverse_perm⟩
    (by
      have h : ∀ i < 10, ((exCdist exIvfRun.centers 2 8 (Spec.padTo 8 (exRows10.getD i []))).length = 2 ∧
        (∀ x ∈ exCdist exIvfRun.centers 2 8 (Spec.padTo 8 (exRows10.getD i [])), x.IsNum) ∧
        ∃ x ∈ exCdist exIvfRun.centers 2 8 (Spec.padTo 8 (exRows10.getD i [])), x.lt F32.fmax = true) := by decide +kernel
      exact fun i hi => ⟨(h i hi).1, (h i hi).2.1, (h i hi).2.2⟩)
    exPops_isPopOrder (by simp) 1 [[51], [55]] exQueries (some ⟨2, 2, [1, 0, 4, 2], none⟩)
    (exProgOK 11 exCmdFs exCmdFs_q.1 exCmdFs_q.2.1 _ 1 rfl rfl rfl (by simp) ⟨2, by simp, by decide⟩)
    (by
      rintro (- | p)
      · decide +kernel
      · exact (exCmdNames p).1)
    (by
      rintro (- | p)
      · decide +kernel
      · exact (exCmdNames p).2.1) (by decide) (by decide) (by simp)
    (by
      have h : ∀ k < 2, (∀ i < 10, (Spec.fileDist exCmpB 1 1 exRows10 (Spec.queryVec 1 1 8 [[51], [55]] k) i).lt F32.fmax = true) ∧
        ((exCdist exIvfRun.centers 2 8 (Spec.queryVec 1 1 8 [[51], [55]] k)).length = 2 ∧
        (∀ x ∈ exCdist exIvfRun.centers 2 8 (Spec.queryVec 1 1 8 [[51], [55]] k), x.IsNum) ∧
        ∃ x ∈ exCdist exIvfRun.centers 2 8 (Spec.queryVec 1 1 8 [[51], [55]] k), x.lt F32.fmax = true) := by decide +kernel
      exact fun k hk => ⟨(h k hk).1, (h k hk).2.1, (h k hk).2.2.1, (h k hk).2.2.2⟩)
  ⟨ops, rs, ops', h1, h2⟩

example : (exBoth ["r_1_idx_uint32.bin", "r_2_idx_uint32.bin"] (buildIvfMain exIvfEnv exIvfLine) (searchIvfMain exSearchEnv exCdist exPops exIvfSearchLine)).map
    (fun c => match c with
    | .run (rs, files) => (rs.map (fun r => r.map (fun v => v.1 == 75 * v.2)), files)
    | _ => ([], [])) =
    .ok ([some false, some true], [some (le 4 2 ++ le 4 2 ++ le32s [2, 4, 4, 6]), some (le 4 2 ++ le 4 2 ++ le32s [1, 0, 4, 6])]) := by
  decide +kernel

/-- The hyperplanes of `exHps`. -/
def exLshEnv : BuildEnv LshDraw :=
  ⟨exStrSort, exJunk, fun _ => exCmpB, exDotB, fun adim t i => ([46, 52, 49, 55].getD (2 * t + i) 0 :: List.replicate 31 0).takeD (adim * 4) 0⟩

def exLshLine : List Bytes := cmdWords ["build", "uint8", "d", "1", "t", "i", "2", "2"]

def exLshSearchLine : List Bytes := cmdWords ["search", "uint8", "i", "8", "q", "g", "2", "r", "1", "a"]

example : exLshEnv.run.hps 8 2 2 = exHps ∧ ∃ ops r ops', buildLshMain exLshEnv exLshLine exCmdFs = .ok (.run ops) ∧
    searchLshMain exSearchEnv exLshJunk exDotB exLshSearchLine (runOps ops exCmdFs) = .ok (.run (r, ops')) :=
  let ⟨ops, r, ops', h1, h2, _⟩ := C83_lsh exLshEnv exSearchEnv exLshJunk exCmdFs exLshLine exLshSearchLine ⟨.uint8, ascii "d", ascii "t", ascii "i", 2, 2⟩
    ⟨.uint8, .l2, [], ascii "i", 1, ascii "q", ascii "g", 2, ascii "r", [ascii "a"], [1]⟩ (by decide +kernel) (by decide +kernel) rfl rfl .l2UInt8 rfl rfl rfl
    exStrSort_isStrSort exJunk_WF exJunk_WF ⟨rfl, rfl⟩ 1 exRows10 exFile10 (some exLabels10) exLab exCmdFs_q.2.2.1 (Or.inr ⟨by decide, by simp, exCmdFs_q.2.2.2⟩)
    exInput10 (by decide) (fun t i => List.takeD_length _ _ _) (by simp) 1 [[51], [55]] exQueries (some ⟨2, 2, [1, 0, 4, 2], none⟩)
    (exProgOK 11 exCmdFs exCmdFs_q.1 exCmdFs_q.2.1 _ 1 rfl rfl rfl (by simp) ⟨1, by simp, by decide⟩)
    (fun p => (exCmdNames p).1) (by decide +kernel) (fun p => (exCmdNames p).2.1) (by decide +kernel) (by decide) (by decide)
    (by
      have h : ∀ k < 2, ∀ i < 10, (Spec.fileDist exCmpB 1 1 exRows10 (Spec.queryVec 1 1 8 [[51], [55]] k) i).lt F32.fmax = true := by decide +kernel
      exact h)
  ⟨by decide +kernel, ops, r, ops', h1, h2⟩

example : (exBoth ["r_1_idx_uint32.bin"] (buildLshMain exLshEnv exLshLine) (searchLshMain exSearchEnv exLshJunk exDotB exLshSearchLine)).map
    (fun c => match c with
    | .run (r, files) => (r.map (fun v => v.1 == 100 * v.2), files)
    | _ => (none, [])) = .ok (some true, [some (le 4 2 ++ le 4 2 ++ le32s [1, 0, 4, 2])]) := by
  decide +kernel

def exHnswEnv : BuildEnv HnswEnv :=
  ⟨exStrSort, exJunk, fun _ => exCmpB, exSort, exDiv1, exMedB, fun _ => exJunk, fun _ i => if 2 ≤ i then 1400000 else 999999,
    fun k => if k = 0 then (List.range 400).map (fun k => k % 10) else (List.range 480).map (fun k => k % 12)⟩

def exHnswLine : List Bytes := cmdWords ["build", "uint8", "l2", "e", "i", "3", "4", "0", "0.5", "2", "8"]

def exHnswSearchLine : List Bytes := cmdWords ["search", "uint8", "l2", "i", "2", "8", "q", "g", "2", "r", "1", "3"]

/-- Two of the twelve points are not sampled. -/
theorem exHnsw_sizes : LevelSizes (hnswUps exHnswEnv.run ⟨0x3f000000#32⟩ (topLevel 2)) 12 := by
  have e : hnswUps exHnswEnv.run ⟨0x3f000000#32⟩ (topLevel 2) =
      [(fun i => hnswKeep ⟨0x3f000000#32⟩ (exHnswEnv.run.rand 1 i), exHnswEnv.run.sched 1)] := by
    rw [show topLevel 2 = 1 by decide]
    rfl
  rw [e]
  unfold LevelSizes LevelSizes
  decide +kernel

example : buildHnswMain exHnswEnv exHnswLine exCmdFs12 = .error .loop ∨ ∃ ops rs ops', buildHnswMain exHnswEnv exHnswLine exCmdFs12 = .ok (.run ops) ∧
    searchHnswMain { exSearchEnv with fuel := 13 } exHnswSearchLine (runOps ops exCmdFs12) = .ok (.run (rs, ops')) := by
  have hn : ∀ i < 12, ∀ k < 12, (rowDist exCmpB 1 1 exRows12 i k).IsNum := by decide +kernel
  have hq : ∀ k < 2, ∀ i < 12, (Spec.fileDist exCmpB 1 1 exRows12 (Spec.queryVec 1 1 8 [[51], [55]] k) i).IsNum := by decide +kernel
  have hd : ∀ c, ∀ p : Nat × Part, [c] ≠ levelName (ascii "i") p := by
    rintro c ⟨n, p⟩ h
    have := congrArg List.length h
    have h2 : (ascii "i").length = 1 := by decide +kernel
    have h3 : (ascii "_").length = 1 := by decide +kernel
    cases p <;> simp only [levelName, partName, List.length_append, List.length_singleton, h2, h3] at this <;> omega
  have h1 : exCmdFs12 (ascii "q") = some exQueries ∧ exCmdFs12 (ascii "g") = some exQueryTruth ∧ exCmdFs12 (ascii "e") = some exFile12 := by decide +kernel
  rcases C83_hnsw exHnswEnv { exSearchEnv with fuel := 13 } exCmdFs12 exHnswLine exHnswSearchLine
    ⟨.uint8, .l2, ascii "e", ascii "i", 3, 4, 0, ⟨0x3f000000#32⟩, 2, 8⟩
    ⟨.uint8, .l2, [], ascii "i", 2, ascii "q", ascii "g", 2, ascii "r", [], [1, 3]⟩ (by decide +kernel) (by decide +kernel) rfl rfl rfl rfl .l2UInt8 rfl rfl rfl
    (fun a b => exSq_comm _ _) exStrSort_isStrSort exJunk_WF exJunk_WF (fun _ => exJunk_WF) 1 exRows12 exFile12 exLab h1.2.2 exInput12
    (fun i k hi hk => hn i hi k hk) ⟨0x3f000000#32⟩ (by decide +kernel) exHnsw_sizes (by decide) (by decide) exSort_isStdSort (by decide)
    exSort_isStdSort 1 [[51], [55]] exQueries (some ⟨2, 2, [1, 0, 4, 2], none⟩)
    (exProgOK 13 exCmdFs12 h1.1 h1.2.1 _ 2 rfl rfl rfl (by simp) ⟨3, by simp, by decide⟩)
    (hd _) (hd _) (by decide +kernel) (by decide +kernel) (by decide) (by simp) hq with h | ⟨ops, rs, ops', g1, g2, -⟩
  · exact Or.inl h
  · exact Or.inr ⟨ops, rs, ops', g1, g2⟩

/-- This build ends.  The temporary file is gone. -/
example : (mainOf (buildHnswMain exHnswEnv exHnswLine exCmdFs12) (fun ops =>
    let fs := runOps ops exCmdFs12
    mainOf (searchHnswMain { exSearchEnv with fuel := 13 } exHnswSearchLine fs) (fun r =>
      done (.ok (r.1.map (fun v => v.map (fun v => v.1 == 25 * v.2)), runOps r.2 fs (ascii "r_3_idx_uint32.bin"), fs tmpName))))) =
    .ok (.run ([some true], some (le 4 2 ++ le 4 2 ++ le32s [3, 2, 4, 3]), none)) := by
  decide +kernel

end Grann
