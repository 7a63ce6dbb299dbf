import Verif.Props.CommandArgs
import Verif.Props.SearchProg
import Verif.Proofs.SaveFiles
/-!
# C83: building and searching from the command line
-/

namespace Grann

open _root_.Spec (Matches Reports KNearest)

/-! ## File names -/

/-- Different parts of an index have different names. -/
theorem C83_part_names (base : Bytes) : Function.Injective (partName base) := by
  intro p q h
  cases p <;> cases q <;> first
    | rfl
    | (exfalso
       simp only [partName, List.append_cancel_left_eq, List.append_right_eq_self, List.self_eq_append_right] at h
       revert h
       decide +kernel)

theorem digitsVal_decimal {m x : Nat} (h : x < 10 ^ m) (hm : 1 ≤ m) : Digits (decimal m x) ∧ digitsVal (decimal m x) = x :=
  ⟨(decimal_digits m x h hm).1, (decimal_digits m x h hm).2.2⟩

/-- A number in decimal can be told from what follows it, if that does not begin with a digit. -/
theorem decimal_split {m n x y : Nat} (hx : x < 10 ^ m) (hm : 1 ≤ m) (hy : y < 10 ^ n) (hn : 1 ≤ n) {r r' : Bytes}
    (hr : ∀ c, r.head? = some c → isDigit c = false) (hr' : ∀ c, r'.head? = some c → isDigit c = false)
    (h : decimal m x ++ r = decimal n y ++ r') : x = y ∧ r = r' := by
  obtain ⟨d1, v1⟩ := digitsVal_decimal hx hm
  obtain ⟨d2, v2⟩ := digitsVal_decimal hy hn
  have t1 := takeWhile_digits d1 hr
  have t2 := takeWhile_digits d2 hr'
  rw [h] at t1
  have e : decimal m x = decimal n y := t1.1.symm.trans t2.1
  exact ⟨by rw [← v1, ← v2, e], t1.2.symm.trans t2.2⟩

theorem lt_ten_pow (x : Nat) : x < 10 ^ (x + 1) :=
  Nat.lt_of_lt_of_le (Nat.lt_pow_self (by decide)) (Nat.pow_le_pow_right (by decide) (Nat.le_succ x))

/-- Different levels and parts have different names. -/
theorem C83_level_names (base : Bytes) : Function.Injective (levelName base) := by
  intro x y h
  have key : ∀ z : Nat × Part, levelName base z = base ++ ascii "_" ++ (decimal (z.1 + 1) z.1 ++ partName [] z.2) := by
    rintro ⟨n, p⟩
    cases p <;> simp [levelName, partName]
  have hsfx : ∀ p : Part, ∀ c, (partName [] p).head? = some c → isDigit c = false := by
    intro p c hc
    have : ∀ p : Part, (partName [] p).head? = none ∨ (partName [] p).head? = some 95 := by intro p; cases p <;> decide +kernel
    rcases this p with e | e <;> rw [e] at hc <;> cases hc
    decide
  rw [key, key, List.append_cancel_left_eq] at h
  obtain ⟨h1, h2⟩ := decimal_split (lt_ten_pow _) (by omega) (lt_ten_pow _) (by omega) (hsfx _) (hsfx _) h
  exact Prod.ext h1 (C83_part_names [] h2)

/-- The centres are kept in a file of their own. -/
theorem C83_ivf_names (base : Bytes) : Function.Injective (ivfName base) := by
  intro p q h
  cases p with
  | none =>
    cases q with
    | none => rfl
    | some q =>
      exfalso
      cases q <;> (simp only [ivfName, partName, List.append_cancel_left_eq, List.append_right_eq_self] at h; revert h; decide +kernel)
  | some p =>
    cases q with
    | none =>
      exfalso
      cases p <;> (simp only [ivfName, partName, List.append_cancel_left_eq, List.self_eq_append_right] at h; revert h; decide +kernel)
    | some q => exact congrArg some (C83_part_names base h)

/-- Different search parameters have different files of results. -/
theorem C83_result_names (pre : Bytes) {L L' : Nat} (h1 : L < 10 ^ 20) (h2 : L' < 10 ^ 20) (h : resName pre L = resName pre L') : L = L' := by
  unfold resName at h
  rw [List.append_assoc (pre ++ ascii "_"), List.append_assoc (pre ++ ascii "_"), List.append_cancel_left_eq] at h
  have hs : ∀ c, (ascii "_idx_uint32.bin").head? = some c → isDigit c = false := by
    intro c hc
    rw [show (ascii "_idx_uint32.bin").head? = some 95 by decide +kernel] at hc
    cases hc
    decide
  exact (decimal_split h1 (by omega) h2 (by omega) hs hs h).1

theorem restArgs_lt {argv : List Bytes} {i : Nat} {Ls : List Nat} (h : RestArgs argv i Ls) : ∀ L ∈ Ls, L < 10 ^ 20 := by
  unfold RestArgs at h
  generalize argv.drop i = l at h
  induction h with
  | nil => simp
  | cons h _ ih =>
    obtain ⟨v, -, h1, h2⟩ := h
    intro L hL
    rcases List.mem_cons.1 hL with rfl | hL
    · unfold Spec.unsigned at h2
      rw [isInt_iff] at h1
      split at h2 <;> omega
    · exact ih L hL

/-! ## Vamana -/

/-- The label file named on the command line of a build. -/
def LabelFileArg (fs : FS Bytes) (name : Bytes) (labelFile : Option Bytes) : Prop :=
  name = [] ∧ labelFile = none ∨ name ≠ [] ∧ labelFile ≠ none ∧ fs name = labelFile

theorem LabelFileArg.eq {fs : FS Bytes} {name : Bytes} {lf : Option Bytes} (h : LabelFileArg fs name lf) : labelArg fs name = lf.map some := by
  unfold labelArg
  rcases h with ⟨h1, h2⟩ | ⟨h1, h2, h3⟩
  · rw [if_pos h1, h2]
    rfl
  · rw [if_neg h1, h3]
    cases lf with
    | none => exact absurd rfl h2
    | some b => rfl

/-- The run of a search program that a command line asks for. -/
def progOf (env : SearchEnv) (s : SearchArgs) (minL qdim : Nat) (qrows : List Bytes) (qb : Bytes) (truth : Option Truth) : Prog Bytes :=
  ⟨⟨s.query, s.truth, resName s.pre⟩, qdim, qrows, qb, s.K, minL, s.Ls, truth, env.h1, env.h2, env.mem, env.jt, env.order⟩

theorem Prog.OK.elsewhere {P : Type} {S : Prog P} {es adim : Nat} {fs fs' : FS P} (h : S.OK es adim fs) (h1 : fs' S.f.query = fs S.f.query)
    (h2 : fs' S.f.truth = fs S.f.truth) : S.OK es adim fs' :=
  ⟨h.res, h1.trans h.query, h.queries, h.some, h.dim, h.few, h.room, h2 ▸ h.truth, h.h1, h.h2, h.j1, h.j2, h.order, h.param⟩

theorem uns32_lt {argv : List Bytes} {i x : Nat} (h : Spec.UnsArg 32 argv i x) : x < 4294967296 := by
  obtain ⟨v, ⟨t, -, -, h1⟩, h2⟩ := h
  unfold Spec.unsigned at h2
  rw [isInt_iff] at h1
  split at h2 <;> omega

theorem ctorFor_ok {R : Type} (env : BuildEnv R) (hsort : IsStrSort env.sortL) (hj : env.junk.WF) {e : Elem} {m : Metric} {d : DistClass}
    (hd : getDistance e m = .ok d) {dim : Nat} {rows : List Bytes} {b : Bytes} {labelFile : Option Bytes} {lab : Nat → List Label}
    (hin : InputOK e.size dim rows b [] labelFile lab) {o1 : IdxObj} (ec : ctorObj env.sortL env.junk e.size (some b) [] (labelFile.map some) = .ok o1) :
    ctorFor env e m (some b) (labelFile.map some) = .ok (o1, d) := by
  have hin0 : InputOK e.size dim rows b [] none lab :=
    ⟨hin.file, hin.matrix, hin.size, hin.few, hin.dims, hin.bytes, hin.tagsLen, hin.tagsLt, fun lf h => by cases h⟩
  obtain ⟨o0, e0, -⟩ := ctorObj_spec env.sortL hsort env.junk hj hin0
  have e0 : ctorObj env.sortL env.junk e.size (some b) [] none = .ok o0 := e0
  unfold ctorFor
  rw [e0, Res.ok_bind, hd, Res.ok_bind, ec, Res.ok_bind]

theorem mainOf_run {α β : Type} {c : Res (Cmd α)} {a : α} (h : c = .ok (.run a)) (f : α → Res (Cmd β)) : mainOf c f = f a := by
  rw [h]
  rfl

/-- The program, if the index is loaded as in C82. -/
theorem searchWith_ok {env : SearchEnv} {minL : Nat} {load load' : FS Bytes → Res (Nat × (Nat → SearchFn))} {s : SearchArgs} {fs : FS Bytes} {es qdim : Nat}
    {qrows : List Bytes} {qb : Bytes} {truth : Option Truth} {rs : List (Option (Nat × Nat))} {ops : List (FOp Bytes)} (hes : s.elem.size = es)
    (hload : load fs = load' fs) (h : (progOf env s minL qdim qrows qb truth).run es load' fs = .ok (some (rs, ops))) :
    searchWith env minL load s fs = .ok (.run (rs, ops)) := by
  subst hes
  have e : searchProg ⟨s.query, s.truth, resName s.pre⟩ s.elem.size s.K minL s.Ls env.h1 env.h2 env.mem env.jt load env.order fs = .ok (some (rs, ops)) := by
    rw [← h]
    show searchProg _ _ _ _ _ _ _ _ _ _ _ _ = searchProg _ _ _ _ _ _ _ _ _ _ _ _
    unfold searchProg
    rw [hload]
    rfl
  unfold searchWith
  rw [e, Res.ok_bind]

/-- **C83 (from the command line to the results).** `build_vamana` is started with a command line that its usage describes: a metric that exists for the
element type, a well-formed data file with at least ten points, a label file that has a label for every point or none, a list size of at least 1 that fits (`Spec.ListFits`), any degree, an
`alpha` that survives the parameters (by `C83_alpha`, every number of six digits does).  Unless it never ends, it writes an index.  Then `search_vamana` is started with a command line
that its usage describes, with the same element type and metric and the name of that index, and well-formed queries and ground truth.  It ends normally, and gives for
every search parameter that is not below `K` the slots and recalls that C82 describes. -/
theorem C83_vamana (env : BuildEnv VamanaRun) (senv : SearchEnv) (fs : FS Bytes) (argv argv2 : List Bytes) (a : VamanaArgs) (s : SearchArgs)
    (ha : vamanaArgs argv = .ok (.run a)) (hs : searchVamanaArgs argv2 = .ok (.run s))
    (h1 : s.elem = a.elem) (h2 : s.metric = a.metric) (h3 : s.index = a.save) (d : DistClass) (hd : getDistance a.elem a.metric = .ok d)
    (hcmp : senv.cmp = env.cmp) (hsl : senv.sortL = env.sortL) (hsym : ∀ x y, env.cmp d x y = env.cmp d y x)
    (hsort : IsStrSort env.sortL) (hj : env.junk.WF) (hj' : senv.junk.WF)
    (dim : Nat) (rows : List Bytes) (b : Bytes) (labelFile : Option Bytes) (lab : Nat → List Label) (hb : fs a.data = some b)
    (hlf : LabelFileArg fs a.labels labelFile) (hin : InputOK a.elem.size dim rows b [] labelFile lab) (h10 : 10 ≤ rows.length)
    (hold : labelFile = none → fs (partName a.save .medoids) = none) (y : F32) (hy : toF32 a.alpha.text = .ok y)
    (hrun : ∀ o1, ctorObj env.sortL env.junk a.elem.size (some b) [] (labelFile.map some) = .ok o1 →
      ({ env.run with L := a.L, R := a.R } : VamanaRun).OK o1)
    (hfuel : rows.length < senv.fuel) (hsF : IsStdSort senv.sortF) (hflt : s.filters ≠ [] → labelFile ≠ none)
    (qdim : Nat) (qrows : List Bytes) (qb : Bytes) (truth : Option Truth)
    (hS : (progOf senv s s.K qdim qrows qb truth).OK a.elem.size (roundUp8 dim) fs)
    (hq : ∀ p, s.query ≠ partName a.save p) (ht : ∀ p, s.truth ≠ partName a.save p) (hK1 : 1 ≤ s.K) (hLs : ∀ L ∈ s.Ls, L < 2147483648)
    (hnum : ∀ k, k < qrows.length → ∀ i, i < rows.length →
      (Spec.fileDist (env.cmp d) a.elem.size dim rows (Spec.queryVec a.elem.size qdim (roundUp8 dim) qrows k) i).IsNum) :
    buildVamanaMain env argv fs = .error .loop ∨
    ∃ ops rs ops', buildVamanaMain env argv fs = .ok (.run ops) ∧ searchVamanaMain senv argv2 (runOps ops fs) = .ok (.run (rs, ops')) ∧
      (progOf senv s s.K qdim qrows qb truth).Gives (runOps ops fs) (fun _ k ids => ids.length = s.K ∧
        Spec.GraphSlots (Spec.tagOf []) (Spec.fileDist (env.cmp d) a.elem.size dim rows (Spec.queryVec a.elem.size qdim (roundUp8 dim) qrows k))
          (fun i => i < rows.length ∧ (s.filters ≠ [] → Matches true [48] s.filters (lab i))) s.K ids) rs ops' := by
  have hes : 1 ≤ a.elem.size := by cases a.elem <;> decide
  obtain ⟨o1, ec, hbuild⟩ := C82_vamana (partName a.save) (C83_part_names a.save) fs env.sortL hsort env.junk senv.junk hj hj' a.elem.size dim hes (env.cmp d) hsym
    rows b [] labelFile lab hin h10 hold
  obtain ⟨-, -, -, -, w, k, -, -, -, hR, hL, -, hT⟩ := (C83_vamana_args argv a).1 ha
  have hpar := (C83_vamana_params a (uns32_lt hR) (uns32_lt hL) (uns32_lt hT) env.run).1 y hy
  have hok : ({ env.run with L := a.L, R := a.R, C := 750, alpha := y, pruningRule := 0 } : VamanaRun).OK o1 := by
    have h := hrun o1 ec
    exact ⟨h.L, h.L', h.R, h.sortF, h.sortOut, h.sortIn, h.orderNodup, h.orderLen, h.order⟩
  have hmain : ∀ x : Res (List (FOp Bytes)),
      ((vamanaBuild a.elem.size (env.cmp d) { env.run with L := a.L, R := a.R, C := 750, alpha := y, pruningRule := 0 } o1) >>=
        fun o' => vamanaSave a.elem.size (partName a.save) o') = x →
      buildVamanaMain env argv fs = (x >>= fun ops => .ok (.run ops)) := by
    intro x hx
    unfold buildVamanaMain
    rw [mainOf_run ha]
    unfold done buildVamana
    rw [hb, hlf.eq, ctorFor_ok env hsort hj hd hin ec, Res.ok_bind]
    dsimp only
    rw [hpar, Res.ok_bind, hx]
  rcases hbuild _ hok with h | ⟨o2, ops, eb, es, hrest⟩
  · left
    rw [hmain (.error .loop) (by rw [h]; rfl)]
    rfl
  right
  have hfs : ∀ q, (∀ p, q ≠ partName a.save p) → runOps ops fs q = fs q := fun q hq => runOps_elsewhere (vamanaSave_files es) hq fs
  obtain ⟨rs, ops', e, g⟩ := hrest IdxObj.fresh senv.fuel ⟨rfl, rfl, rfl, rfl, rfl, rfl, rfl⟩ hfuel senv.sortF hsF s.filters hflt
    (progOf senv s s.K qdim qrows qb truth) (hS.elsewhere (hfs _ hq) (hfs _ ht)) rfl hK1 hLs hnum
  refine ⟨ops, rs, ops', ?_, ?_, g⟩
  · rw [hmain (.ok ops) (by rw [eb, Res.ok_bind, es])]
    rfl
  · unfold searchVamanaMain
    rw [mainOf_run hs]
    refine searchWith_ok (by rw [h1]) ?_ e
    unfold loadVamana
    rw [h1, h2, h3, hd, Res.ok_bind, hcmp, hsl]
    rfl

/-! ## A concrete run -/

def exBuildEnv : BuildEnv VamanaRun := ⟨exStrSort, exJunk, fun _ => exCmpB, exRun⟩

def exSearchEnv : SearchEnv := ⟨exStrSort, exJunk, 11, fun _ => exCmpB, exSort, [0, 0, 0, 0], [0, 0, 0, 0], fun _ => 0, exTruthJunk, fun _ => [1, 0]⟩

def exCmdFs : FS Bytes := fun p =>
  if p = ascii "d" then some exFile10 else if p = ascii "t" then some exLabels10 else if p = ascii "q" then some exQueries
  else if p = ascii "g" then some exQueryTruth else none

def exBuildLine : List Bytes := cmdWords ["build", "uint8", "l2", "d", "1", "t", "i", "2", "4", "1.0", "8"]

def exSearchLine : List Bytes := cmdWords ["search", "uint8", "l2", "i", "8", "q", "g", "2", "r", "0", "1", "3", "4"]

def exCmdRun : Res (Cmd (List (Option (Nat × Nat)) × List (Option Bytes))) := do
  let c ← buildVamanaMain exBuildEnv exBuildLine exCmdFs
  match c with
  | .usage => .ok .usage
  | .refused => .ok .refused
  | .run ops => do
    let fs := runOps ops exCmdFs
    let c ← searchVamanaMain exSearchEnv exSearchLine fs
    match c with
    | .usage => .ok .usage
    | .refused => .ok .refused
    | .run (rs, sv) => .ok (.run (rs, [runOps sv fs (ascii "r_1_idx_uint32.bin"), runOps sv fs (ascii "r_3_idx_uint32.bin")]))

/-- Ten points with labels are built and searched for two queries; the search parameter 1 is left out. -/
example : exCmdRun.map (fun c => match c with
    | .run (rs, files) => (rs.map (fun r => r.map (fun v => v.1 == 50 * v.2)), files)
    | _ => ([], [])) = .ok ([some true, some true], [none, some (le 4 2 ++ le 4 2 ++ le32s [1, 0, 1, 0])]) := by
  decide +kernel

/-- The hypotheses about this run. -/
example : (∃ a, vamanaArgs exBuildLine = .ok (.run a) ∧ toF32 a.alpha.text = .ok F32.one ∧ LabelFileArg exCmdFs a.labels (some exLabels10) ∧
      exCmdFs a.data = some exFile10 ∧ a.elem.size = 1 ∧ getDistance a.elem a.metric = .ok .l2UInt8 ∧ a.L = 4 ∧ a.R = 2) ∧
    InputOK 1 1 exRows10 exFile10 [] (some exLabels10) exLab ∧
    (∃ s, searchVamanaArgs exSearchLine = .ok (.run s) ∧
      (progOf exSearchEnv s s.K 1 [[51], [55]] exQueries (some ⟨2, 2, [1, 0, 4, 2], none⟩)).OK 1 8 exCmdFs) := by
  refine ⟨⟨⟨.uint8, .l2, ascii "d", ascii "t", ascii "i", 2, 4, F32.one, 8⟩, by decide +kernel, by decide +kernel, Or.inr ⟨by decide, by simp, by decide +kernel⟩,
    by decide +kernel, rfl, rfl, rfl, rfl⟩, exInput10, ⟨⟨.uint8, .l2, [], ascii "i", 1, ascii "q", ascii "g", 2, ascii "r", [], [1, 3, 4]⟩, by decide +kernel, ?_⟩⟩
  refine ⟨fun L hL L' hL' h => C83_result_names _ ?_ ?_ h, by decide +kernel, exQueries_ok, by decide, by decide, by decide, by decide, ?_, rfl, rfl, rfl, rfl,
    fun _ => (by decide : [1, 0].Perm (List.range 2)), ⟨3, by decide, by decide⟩⟩
  · simp only [progOf, List.mem_cons, List.not_mem_nil, or_false] at hL
    omega
  · simp only [progOf, List.mem_cons, List.not_mem_nil, or_false] at hL'
    omega
  · have : exCmdFs (ascii "g") = some exQueryTruth := by decide +kernel
    show TruthOK 2 2 (exCmdFs (ascii "g")) _
    rw [this]
    exact exQueryTruth_ok

end Grann
