import Verif.Props.CommandRuns
import Verif.Props.PoolLarge
import Verif.Props.Again
/-!
# C82, C83: -1 as the size of the candidate list

`atoi` gives -1, which becomes 2^64 - 1 when it is compared with `recall_at` (tests/search_vamana.cpp:70-72) and 2^32 - 1 as a parameter of the search.
-/

namespace Grann

/-- **C82 fails: -1 as search parameter.** It is not left out, whatever the number of results is, and if the searches go wrong with a list of
2^32 - 1 entries, so does the program. -/
theorem C82_minus_one {P : Type} (S : Prog P) (es adim : Nat) (fs : FS P) (hS : S.OK es adim fs) (hmin : S.minL < 4294967296)
    (rest : List Nat) (hLs : S.Ls = 18446744073709551615 :: rest)
    (load : FS P → Res (Nat × (Nat → SearchFn))) (search : Nat → SearchFn) (hload : load fs = .ok (adim, search))
    (hsearch : ∀ q ind dst, search 4294967295 q ind dst = .error .ub) :
    S.run es load fs = .error .ub := by
  unfold Prog.run searchProg
  have hf : S.Ls.filter (fun L => S.minL ≤ L) = 18446744073709551615 :: rest.filter (fun L => S.minL ≤ L) := by
    rw [hLs, List.filter_cons_of_pos (by rw [decide_eq_true_eq]; omega)]
  rw [hf]
  dsimp only
  rw [if_neg (by simp), hS.query, hS.queries.load hS.h1 hS.h2 S.mem, Res.ok_bind]
  dsimp only
  rw [hS.truth.load hS.j1 hS.j2, Res.ok_bind, hload, Res.ok_bind]
  dsimp only
  have hr : progRound es (roundUp8 S.qdim) adim S.K S.qrows.length (S.qrows.map (Spec.padTo (roundUp8 S.qdim * es))).flatten
      (search (u32 18446744073709551615)) (S.order 0) S.truth = .error .ub := by
    have hroom := hS.room
    have hu : u64 (S.K * S.qrows.length) = S.K * S.qrows.length := Nat.mod_eq_of_lt (by omega)
    have hsome := hS.some
    unfold progRound
    rw [hu, if_neg (by omega)]
    cases ho : S.order 0 with
    | nil =>
      have := (hS.order 0).length_eq
      rw [ho, List.length_range, List.length_nil] at this
      omega
    | cons i order =>
      have hi : i < S.qrows.length := List.mem_range.1 ((hS.order 0).mem_iff.1 (by rw [ho]; simp))
      rw [List.foldlM_cons]
      have : ∀ a, progQuery es (roundUp8 S.qdim) adim S.K (S.qrows.map (Spec.padTo (roundUp8 S.qdim * es))).flatten
          (search (u32 18446744073709551615)) a i = .error .ub := by
        intro a
        unfold progQuery
        rw [hS.queries.slice hS.dim hi, Res.ok_bind, show u32 18446744073709551615 = 4294967295 from rfl, hsearch, Res.err_bind]
      rw [this, Res.err_bind, Res.err_bind]
  rw [List.zipIdx_cons, List.mapM_cons, hr, Res.err_bind, Res.err_bind]

/-- A search of a graph index with a list of 2^32 - 1 entries and a valid entry point. -/
theorem graphSearch_largest {V : Type} (sortF : List Nbr → List Nbr) (ix : GIdx V) (q : V) (filters : List Label) (i : Nat) (init : List Nat)
    (hi : i < ix.ctx.data.length) (rc : Nat) (ind : List Nat) (dst : List F32) :
    graphSearch sortF ix q filters (i :: init) rc 4294967295 ind dst = .error .ub := by
  unfold graphSearch
  rw [C04_largest_list sortF ix.ctx q filters _ i init hi, Res.err_bind]

/-- Every HNSW index whose innermost level has a valid entry point goes wrong in that level. -/
theorem hnswSearch_largest {V : Type} (sortF : List Nbr → List Nbr) (q : V) (rc : Nat) (ix : GIdx V) (hi : ix.start < ix.ctx.data.length) :
    ∀ (up : List (GIdx V)) (ind : List Nat) (dst : List F32) (filters : List Label),
      hnswSearch sortF q rc 4294967295 (up ++ [ix]) ind dst filters = .error .ub := by
  intro up
  induction up with
  | nil => intro ind dst filters; exact graphSearch_largest sortF ix q [] ix.start [] hi rc ind dst
  | cons o up ih =>
    intro ind dst filters
    cases up with
    | nil =>
      show (hnswSearch sortF q rc 4294967295 ([] ++ [ix]) (List.replicate 4294967295 0) (List.replicate 4294967295 F32.zero) [] >>= _) = _
      rw [ih, Res.err_bind]
    | cons o2 up =>
      show (hnswSearch sortF q rc 4294967295 (o2 :: up ++ [ix]) (List.replicate 4294967295 0) (List.replicate 4294967295 F32.zero) [] >>= _) = _
      rw [ih, Res.err_bind]

theorem searchWith_err {env : SearchEnv} {minL : Nat} {load load' : FS Bytes → Res (Nat × (Nat → SearchFn))} {s : SearchArgs} {fs : FS Bytes} {es qdim : Nat}
    {qrows : List Bytes} {qb : Bytes} {truth : Option Truth} {e : Err} (hes : s.elem.size = es)
    (hload : load fs = load' fs) (h : (progOf env s minL qdim qrows qb truth).run es load' fs = .error e) :
    searchWith env minL load s fs = .error e := by
  subst hes
  have e : searchProg ⟨s.query, s.truth, resName s.pre⟩ s.elem.size s.K minL s.Ls env.h1 env.h2 env.mem env.jt load env.order fs = .error e := by
    rw [← h]
    show searchProg _ _ _ _ _ _ _ _ _ _ _ _ = searchProg _ _ _ _ _ _ _ _ _ _ _ _
    unfold searchProg
    rw [hload]
    rfl
  unfold searchWith
  rw [e, Res.err_bind]

/-- **C83 fails: -1 as search parameter of `search_vamana`.** The command line is accepted, the index is loaded, its entry point is one of its points,
queries and ground truth are well-formed, there is no filter: the first search writes behind an empty list. -/
theorem C83_vamana_minus_one (env : SearchEnv) (fs : FS Bytes) (argv : List Bytes) (s : SearchArgs) (hs : searchVamanaArgs argv = .ok (.run s))
    (hflt : s.filters = []) (rest : List Nat) (hLs : s.Ls = 18446744073709551615 :: rest) (d : DistClass) (hd : getDistance s.elem s.metric = .ok d)
    (o : IdxObj) (warn : Bool) (hload : vamanaLoad env.sortL env.junk env.fuel s.elem.size (partName s.index) fs IdxObj.fresh = .ok (o, warn))
    (hstart : o.start < (o.rows s.elem.size).length)
    (qdim : Nat) (qrows : List Bytes) (qb : Bytes) (truth : Option Truth) (hS : (progOf env s s.K qdim qrows qb truth).OK s.elem.size o.adim fs) :
    searchVamanaMain env argv fs = .error .ub := by
  unfold searchVamanaMain
  rw [mainOf_run hs]
  refine searchWith_err (load' := loadVamana env s) rfl rfl (C82_minus_one _ _ o.adim fs hS hS.few rest hLs _
    (fun L q ind dst => vamanaSearch env.sortF (o.view s.elem.size (env.cmp d)) q (u32 s.K) L ind dst []) ?_ ?_)
  · unfold loadVamana vamanaProg
    rw [hd, Res.ok_bind, hload, Res.ok_bind, hflt]
  · intro q ind dst
    exact graphSearch_largest _ _ _ _ _ [] hstart _ _ _

/-- **C83 fails: -1 as search parameter of `search_relng`.** -/
theorem C83_relng_minus_one (env : SearchEnv) (j0 : Junk) (fs : FS Bytes) (argv : List Bytes) (s : SearchArgs) (hs : searchRngArgs argv = .ok (.run s))
    (rest : List Nat) (hLs : s.Ls = 18446744073709551615 :: rest) (d : DistClass) (hd : getDistance s.elem s.metric = .ok d)
    (o0 o : IdxObj) (warn : Bool) (hctor : ctorObj env.sortL j0 s.elem.size (fs s.data) [] none = .ok o0)
    (hload : rngLoad env.sortL env.junk env.fuel s.elem.size (partName s.index) fs o0 = .ok (o, warn))
    (hstart : o.start < (o.rows s.elem.size).length)
    (qdim : Nat) (qrows : List Bytes) (qb : Bytes) (truth : Option Truth) (hS : (progOf env s s.K qdim qrows qb truth).OK s.elem.size o.adim fs) :
    searchRngMain env j0 argv fs = .error .ub := by
  unfold searchRngMain
  rw [mainOf_run hs]
  refine searchWith_err (load' := loadRng env j0 s) rfl rfl (C82_minus_one _ _ o.adim fs hS hS.few rest hLs _
    (fun L q ind dst => rngSearch env.sortF (o.view s.elem.size (env.cmp d)) q (u32 s.K) L ind dst []) ?_ ?_)
  · unfold loadRng rngProg
    rw [hctor, Res.ok_bind, hd, Res.ok_bind, Res.ok_bind, hload, Res.ok_bind]
  · intro q ind dst
    exact graphSearch_largest _ _ _ _ _ [] hstart _ _ _

/-- **C83 fails: -1 as search parameter of `search_hnsw`.** The innermost level is the last one of the list. -/
theorem C83_hnsw_minus_one (env : SearchEnv) (fs : FS Bytes) (argv : List Bytes) (s : SearchArgs) (hs : searchHnswArgs argv = .ok (.run s))
    (rest : List Nat) (hLs : s.Ls = 18446744073709551615 :: rest) (d : DistClass) (hd : getDistance s.elem s.metric = .ok d)
    (os : List (IdxObj × Bool)) (first last : IdxObj × Bool) (up : List (IdxObj × Bool)) (hos : os = up ++ [last]) (hfirst : os[0]? = some first)
    (hload : hnswLoad env.sortL env.junk env.fuel s.elem.size (fun p => fs (levelName s.index p))
      (List.replicate (topLevel s.levels + 1) IdxObj.fresh) = .ok os)
    (hstart : last.1.start < (last.1.rows s.elem.size).length)
    (qdim : Nat) (qrows : List Bytes) (qb : Bytes) (truth : Option Truth)
    (hS : (progOf env s s.K qdim qrows qb truth).OK s.elem.size first.1.adim fs) :
    searchHnswMain env argv fs = .error .ub := by
  unfold searchHnswMain
  rw [mainOf_run hs]
  refine searchWith_err (load' := loadHnsw env s) rfl rfl (C82_minus_one _ _ first.1.adim fs hS hS.few rest hLs _
    (fun L q ind dst => hnswSearch env.sortF q (u32 s.K) L (os.map (fun x => x.1.view s.elem.size (env.cmp d))) ind dst []) ?_ ?_)
  · unfold loadHnsw hnswProg
    rw [hd, Res.ok_bind, hload, Res.ok_bind, rd_eq_ok_iff.2 hfirst, Res.ok_bind]
  · intro q ind dst
    rw [hos, List.map_append]
    exact hnswSearch_largest _ _ _ _ hstart _ _ _ _

/-! ## Building with -1 -/

theorem buildStep_largest {V : Type} (cfg : BuildCfg V) (hL : cfg.L = 4294967295) (s : BSt) (i j : Nat) (init : List Nat) (ht : s.tasks[i]? = some .todo)
    (hinit : cfg.init i = .ok (j :: init)) (hi : i < cfg.env.ctx.data.length) (hj : j < cfg.env.ctx.data.length) : buildStep cfg s i = .error .ub := by
  unfold buildStep
  rw [ht]
  dsimp only
  split
  · rfl
  · rw [hinit, Res.ok_bind, rd_ok hi, Res.ok_bind]
    unfold greedyStart
    rw [hL, show u32 (4294967295 + 1) = 0 from rfl, show resizePool [] 0 = [] from rfl, initLoop, rd_ok hj]
    rfl

/-- The first iteration of the parallel loop goes wrong, whichever it is. -/
theorem runSched_largest {V : Type} (cfg : BuildCfg V) (hL : cfg.L = 4294967295) (adj : List (List Nat)) (hadj : adj.length = cfg.env.ctx.data.length)
    (hinit : ∀ i < cfg.env.ctx.data.length, ∃ j init, cfg.init i = .ok (j :: init) ∧ j < cfg.env.ctx.data.length) :
    ∀ sched : List Nat, (∃ i ∈ sched, i < cfg.env.ctx.data.length) → runSched cfg sched (BSt.start adj) = .error .ub
  | [], h => by obtain ⟨i, h, -⟩ := h; cases h
  | i :: sched, h => by
    rw [runSched]
    by_cases hi : i < cfg.env.ctx.data.length
    · obtain ⟨j, init, e, hj⟩ := hinit i hi
      rw [buildStep_largest cfg hL _ i j init (by unfold BSt.start; rw [List.getElem?_replicate, if_pos (by omega)]) e hi hj, Res.err_bind]
    · have : buildStep cfg (BSt.start adj) i = .ok (BSt.start adj) := by
        unfold buildStep
        rw [show (BSt.start adj).tasks[i]? = none from by unfold BSt.start; rw [List.getElem?_replicate, if_neg (by omega)]]
      rw [this, Res.ok_bind]
      refine runSched_largest cfg hL adj hadj hinit sched ?_
      obtain ⟨k, hk, hlt⟩ := h
      rcases List.mem_cons.1 hk with rfl | hk
      · exact absurd hlt hi
      · exact ⟨k, hk, hlt⟩

/-- **C83 fails: -1 as list size of `build_vamana`.** The command line is accepted (-1 becomes 2^32 - 1), the data file is well-formed, there are no labels: as soon
as a point is inserted, the entry point of the first search is written behind an empty list. -/
theorem C83_vamana_build_minus_one (env : BuildEnv VamanaRun) (fs : FS Bytes) (argv : List Bytes) (a : VamanaArgs) (ha : vamanaArgs argv = .ok (.run a))
    (hL : a.L = 4294967295) (hnl : a.labels = []) (d : DistClass) (hd : getDistance a.elem a.metric = .ok d) (hsort : IsStrSort env.sortL) (hj : env.junk.WF)
    (dim : Nat) (rows : List Bytes) (b : Bytes) (lab : Nat → List Label) (hb : fs a.data = some b)
    (hin : InputOK a.elem.size dim rows b [] none lab) (y : F32) (hy : toF32 a.alpha.text = .ok y)
    (hsched : ∃ i ∈ env.run.sched, i < rows.length) :
    buildVamanaMain env argv fs = .error .ub := by
  have hes : 1 ≤ a.elem.size := by cases a.elem <;> decide
  obtain ⟨o, ec, ho⟩ := ctorObj_spec env.sortL hsort env.junk hj hin
  have h1 : 1 ≤ rows.length := by obtain ⟨i, -, h⟩ := hsched; omega
  obtain ⟨start, em, hst⟩ := medoid_constructed hes h1 hin.matrix ho env.run.mops
  obtain ⟨-, -, -, -, w, k, -, -, -, hR, hL', -, hT⟩ := (C83_vamana_args argv a).1 ha
  have hpar := (C83_vamana_params a (uns32_lt hR) (uns32_lt hL') (uns32_lt hT) env.run).1 y hy
  have hf : o.filtered = false := ho.filtered
  have hdl : (o.rows a.elem.size).length = rows.length := by rw [ho.vecs, List.length_map]
  have hlf : LabelFileArg fs a.labels none := Or.inl ⟨hnl, rfl⟩
  unfold buildVamanaMain
  rw [mainOf_run ha]
  unfold done buildVamana
  rw [hb, hlf.eq, ctorFor_ok env hsort hj hd hin ec, Res.ok_bind]
  dsimp only
  rw [hpar, Res.ok_bind]
  have hbuild : vamanaBuild a.elem.size (env.cmp d) { env.run with L := a.L, R := a.R, C := 750, alpha := y, pruningRule := 0 } o = .error .ub := by
    unfold vamanaBuild vamanaLabels
    rw [if_neg (by rw [hf]; decide), Res.ok_bind, em, Res.ok_bind, runSched_largest _ hL, Res.err_bind]
    · rw [resizeLists_length, ho.n]
      exact hdl.symm
    · intro i _
      refine ⟨start, [], ?_, by show start < (o.rows a.elem.size).length; omega⟩
      show vamanaBuildInit o.filtered start _ _ i = _
      rw [hf]
      rfl
    · obtain ⟨i, h, hi⟩ := hsched
      exact ⟨i, h, by show i < (o.rows a.elem.size).length; omega⟩
  rw [hbuild]
  rfl

/-! ## Concrete runs -/

def exMinusBuildLine : List Bytes := cmdWords ["build", "uint8", "l2", "d", "0", "i", "2", "-1", "1.0", "8"]

/-- Ten points, in the schedule of `exRun`. -/
example : buildVamanaMain exBuildEnv exMinusBuildLine exCmdFs = .error .ub :=
  C83_vamana_build_minus_one exBuildEnv exCmdFs exMinusBuildLine ⟨.uint8, .l2, ascii "d", [], ascii "i", 2, 4294967295, F32.one, 8⟩ (by decide +kernel) rfl rfl
    .l2UInt8 rfl exStrSort_isStrSort exJunk_WF 1 exRows10 exFile10 exLab exCmdFs_q.2.2.1
    ⟨exInput10.file, exInput10.matrix, exInput10.size, exInput10.few, exInput10.dims, exInput10.bytes, Or.inl rfl, by simp, fun lf h => (by cases h)⟩
    F32.one (by decide +kernel) (by decide +kernel)

/-- The files after a build. -/
def exAfter (r : Res (Cmd (List (FOp Bytes)))) (fs : FS Bytes) : FS Bytes :=
  match r with
  | .ok (.run ops) => runOps ops fs
  | _ => fs

/-- The runs of `C83_vamana`, `C83_relng` and `C83_hnsw` with -1 in place of the search parameters. -/
def exMinusLine : List Bytes := cmdWords ["search", "uint8", "l2", "i", "8", "q", "g", "2", "r", "0", "-1"]

def exMinusRngLine : List Bytes := cmdWords ["search", "uint8", "l2", "d", "i", "8", "q", "g", "2", "r", "-1"]

def exMinusHnswLine : List Bytes := cmdWords ["search", "uint8", "l2", "i", "2", "8", "q", "g", "2", "r", "-1"]

theorem exMinusOK (n : Nat) {fs : FS Bytes} (h : fs (ascii "q") = some exQueries ∧ fs (ascii "g") = some exQueryTruth) (s : SearchArgs)
    (hq : s.query = ascii "q") (ht : s.truth = ascii "g") (hK : s.K = 2) (hLs : s.Ls = [18446744073709551615]) :
    (progOf { exSearchEnv with fuel := n } s s.K 1 [[51], [55]] exQueries (some ⟨2, 2, [1, 0, 4, 2], none⟩)).OK 1 8 fs :=
  exProgOK n fs h.1 h.2 s _ hq ht hK (by rw [hLs]; intro L hL; rw [List.mem_singleton.1 hL]; decide)
    ⟨_, by rw [hLs]; exact List.mem_singleton.2 rfl, by rw [hK]; decide⟩

/-- Something is loaded for which `p` holds. -/
theorem exLoaded {α : Type} {r : Res α} {p : α → Bool} (h : (match r with | .ok x => p x | .error _ => false) = true) : ∃ x, r = .ok x ∧ p x = true := by
  cases r with
  | ok x => exact ⟨x, rfl, h⟩
  | error e => cases h

/-- Ten points with labels are built and saved, then searched with -1. -/
example : searchVamanaMain exSearchEnv exMinusLine (exAfter (buildVamanaMain exBuildEnv exBuildLine exCmdFs) exCmdFs) = .error .ub := by
  obtain ⟨⟨o, w⟩, h1, h2⟩ := exLoaded (r := vamanaLoad exStrSort exJunk 11 1 (partName (ascii "i"))
    (exAfter (buildVamanaMain exBuildEnv exBuildLine exCmdFs) exCmdFs) IdxObj.fresh)
    (p := fun x => decide (x.1.start < (x.1.rows 1).length ∧ x.1.adim = 8)) (by decide +kernel)
  obtain ⟨h2, h3⟩ := of_decide_eq_true h2
  exact C83_vamana_minus_one exSearchEnv _ exMinusLine
    ⟨.uint8, .l2, [], ascii "i", 1, ascii "q", ascii "g", 2, ascii "r", [], [18446744073709551615]⟩ (by decide +kernel) rfl [] rfl .l2UInt8 rfl o w h1 h2
    1 [[51], [55]] exQueries (some ⟨2, 2, [1, 0, 4, 2], none⟩) (h3 ▸ exMinusOK 11 (by decide +kernel) _ rfl rfl rfl rfl)

example : searchRngMain exSearchEnv exJunk exMinusRngLine (exAfter (buildRngMain exRngEnv exRngLine exCmdFs) exCmdFs) = .error .ub := by
  obtain ⟨o0, h0, -⟩ := exLoaded (r := ctorObj exStrSort exJunk 1 (exAfter (buildRngMain exRngEnv exRngLine exCmdFs) exCmdFs (ascii "d")) [] none)
    (p := fun _ => true) (by decide +kernel)
  obtain ⟨⟨o, w⟩, h1, h2⟩ := exLoaded (r := ctorObj exStrSort exJunk 1 (exAfter (buildRngMain exRngEnv exRngLine exCmdFs) exCmdFs (ascii "d")) [] none >>=
      fun o0 => rngLoad exStrSort exJunk 11 1 (partName (ascii "i")) (exAfter (buildRngMain exRngEnv exRngLine exCmdFs) exCmdFs) o0)
    (p := fun x => decide (x.1.start < (x.1.rows 1).length ∧ x.1.adim = 8)) (by decide +kernel)
  obtain ⟨h2, h3⟩ := of_decide_eq_true h2
  rw [h0, Res.ok_bind] at h1
  exact C83_relng_minus_one exSearchEnv exJunk _ exMinusRngLine
    ⟨.uint8, .l2, ascii "d", ascii "i", 1, ascii "q", ascii "g", 2, ascii "r", [], [18446744073709551615]⟩ (by decide +kernel) [] rfl .l2UInt8 rfl o0 o w h0 h1 h2
    1 [[51], [55]] exQueries (some ⟨2, 2, [1, 0, 4, 2], none⟩) (h3 ▸ exMinusOK 11 (by decide +kernel) _ rfl rfl rfl rfl)

/-- Two levels. -/
example : searchHnswMain { exSearchEnv with fuel := 13 } exMinusHnswLine (exAfter (buildHnswMain exHnswEnv exHnswLine exCmdFs12) exCmdFs12) = .error .ub := by
  obtain ⟨os, h1, h2⟩ := exLoaded (r := hnswLoad exStrSort exJunk 13 1
      (fun p => exAfter (buildHnswMain exHnswEnv exHnswLine exCmdFs12) exCmdFs12 (levelName (ascii "i") p)) (List.replicate (topLevel 2 + 1) IdxObj.fresh))
    (p := fun x => match x with
      | [a, b] => decide (b.1.start < (b.1.rows 1).length ∧ a.1.adim = 8)
      | _ => false) (by decide +kernel)
  split at h2
  · rename_i a b
    obtain ⟨h2, h3⟩ := of_decide_eq_true h2
    exact C83_hnsw_minus_one { exSearchEnv with fuel := 13 } _ exMinusHnswLine
      ⟨.uint8, .l2, [], ascii "i", 2, ascii "q", ascii "g", 2, ascii "r", [], [18446744073709551615]⟩ (by decide +kernel) [] rfl .l2UInt8 rfl _ a b [a] rfl rfl
      h1 h2 1 [[51], [55]] exQueries (some ⟨2, 2, [1, 0, 4, 2], none⟩) (h3 ▸ exMinusOK 13 (by decide +kernel) _ rfl rfl rfl rfl)
  · cases h2

end Grann
