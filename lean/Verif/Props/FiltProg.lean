import Verif.Model.FiltProg
import Verif.Props.TruthProg
/-!
# C89: the program that computes the filtered ground truth, with its files
-/

namespace Grann

/-- The input files: `rows` are the vectors, `map` the lines of labels, `qrows` the queries.  None of them has the name of the
temporary file that is written first. -/
structure FiltFiles (env : FiltEnv) (e : Elem) (fs : FS Bytes) (c m q o : Bytes) (dim qdim : Nat) (rows qrows : List Bytes)
    (map : Bytes) : Prop where
  data : fs c = some (Spec.binFile dim rows)
  labels : fs m = some map
  query : fs q = some (Spec.binFile qdim qrows)
  dataName : c ≠ o ++ ascii "_filtered_base.bin"
  labelName : m ≠ o ++ ascii "_filtered_base.bin"
  queryName : q ≠ o ++ ascii "_filtered_base.bin"
  mat : Spec.Matrix e.size dim rows
  qmat : Spec.Matrix e.size qdim qrows
  dimLt : dim < 4294967296
  qdimLt : qdim < 4294967296
  few : rows.length < 2147483648
  fewq : qrows.length < 2147483648
  size : rows.length * dim * e.size < 9223372036854775808
  lines : (pieces 10 map).length = rows.length
  part : 0 < env.partSize
  onePart : qrows.length ≤ env.partSize
  heap : ∀ p q, IsHeapPick (env.pick p q)
  sort : IsPairSort env.sortP
  j1 : env.j1.length = 4
  j2 : env.j2.length = 4

/-- The distance of query `q` and point `g` in the files. -/
def Spec.filtDist (env : FiltEnv) (e : Elem) (dim : Nat) (rows qrows : List Bytes) (q g : Nat) : F32 :=
  env.dist q (Spec.valuesOf e.size dim (env.elem e) (rowAt qrows q)) (Spec.valuesOf e.size dim (env.elem e) (rowAt rows g))

/-- The points with a label of the list `f` or the universal label. -/
def Spec.wanted (f : Bytes) (univ : Option Bytes) (map : Bytes) (n : Nat) : Finset Nat :=
  Spec.matching ((pieces 44 f).map stripEol) univ (pieces 10 map) n

theorem filtMain_eq (env : FiltEnv) {a0 t c m f q kt o : Bytes} {univ : Option Bytes} {e : Elem} {k : Int}
    (ht : elemArg t = some e) (hk : Spec.NumText kt k) (hi : Spec.IsInt k) (fs : FS Bytes) :
    filtMain env ([a0, t, c, m, f, q, kt, o] ++ univ.toList) fs = done (filtRun env ⟨e, c, m, f, q, wrap64 k, o, univ⟩ fs) := by
  have : atoi kt = .ok k := atoi_ok_iff.2 ⟨hk, hi⟩
  cases univ <;>
    simp [filtMain, numAt, rd, Res.ok_bind, this, ht, cmdOf]

/-- The part of the program before the queries are loaded. -/
theorem filtRun_eq {env : FiltEnv} {e : Elem} {fs : FS Bytes} {c m f q o : Bytes} {univ : Option Bytes} {dim qdim : Nat}
    {rows qrows : List Bytes} {map : Bytes} (h : FiltFiles env e fs c m q o dim qdim rows qrows map) (k : Nat) :
    ∃ L : List Nat, L.length = (Spec.wanted f univ map rows.length).card ∧ L.length ≤ rows.length ∧
      (filteredBase (filtPar env ⟨e, c, m, f, q, k, o, univ⟩ 0 0 0 []) (some (Spec.binFile dim rows)) (some map) =
        (L, le 4 L.length ++ (le 4 dim ++ L.flatMap (rowAt rows)))) ∧
      filtRun env ⟨e, c, m, f, q, k, o, univ⟩ fs = (do
        let truth ← filtAux env ⟨e, c, m, f, q, k, o, univ⟩ dim (le 4 L.length ++ (le 4 dim ++ L.flatMap (rowAt rows)))
          (some (Spec.binFile qdim qrows))
        let out ← remapTruth e.size L truth env.j1 env.j2
        .ok [.create (filtBaseName o), .append (filtBaseName o) (le 4 L.length ++ (le 4 dim ++ L.flatMap (rowAt rows))),
          .create (filtDummyName o), .append (filtDummyName o) truth, .create o, .append o out, .remove (filtBaseName o),
          .remove (filtDummyName o)]) ∧
      loadBin e.size (some (Spec.binFile dim rows)) env.j1 env.j2 env.memData = .ok (rows.length, dim, rows.flatten) := by
  have hin : FtInput { filtPar env ⟨e, c, m, f, q, k, o, univ⟩ 0 0 0 [] with k := 1, nq := 0 } dim rows map :=
    ⟨h.part, Nat.one_pos, by show 0 < _; omega, h.heap, h.sort, fun q hq => absurd hq (Nat.not_lt_zero _), h.dimLt, h.mat, h.few, h.size,
      h.lines, h.j1, h.j2⟩
  obtain ⟨L, -, -, hcard, -, hLn, hfile, hhead, hbase, hload⟩ := filteredBase_ok hin _ rfl
  have hload : loadBin e.size (some (Spec.binFile dim rows)) env.j1 env.j2 env.memData = .ok (rows.length, dim, rows.flatten) := hload
  refine ⟨L, hcard, hLn, hbase, ?_, hload⟩
  have hb : filteredBase (filtPar env ⟨e, c, m, f, q, k, o, univ⟩ 0 0 0 []) (some (Spec.binFile dim rows)) (some map) =
        (L, le 4 L.length ++ (le 4 dim ++ L.flatMap (rowAt rows))) := hbase
  have n1 : ∀ {p : Bytes}, p ≠ o ++ ascii "_filtered_base.bin" → ∀ b, runOps [.append (filtBaseName o) b] (runOps [.create (filtBaseName o)] fs) p = fs p := by
    intro p hp b
    simp [runOps, FOp.run, filtBaseName, hp]
  have n0 : ∀ {p : Bytes}, p ≠ o ++ ascii "_filtered_base.bin" → runOps [.create (filtBaseName o)] fs p = fs p := by
    intro p hp
    simp [runOps, FOp.run, filtBaseName, hp]
  unfold filtRun
  dsimp only
  rw [n0 h.dataName, n0 h.labelName, h.data, h.labels, hb]
  dsimp only
  rw [n1 h.dataName, n1 h.queryName, h.data, h.query, hload, Res.ok_bind]
  have hd : (readHeader (some (Spec.binFile dim rows)) env.j1 env.j2).2.1 = dim := by
    rw [hfile]
    exact congrArg (fun x => x.2.1) hhead
  rw [hd]

/-- The queries are loaded. -/
theorem filtAux_eq {env : FiltEnv} {e : Elem} {fs : FS Bytes} {c m f q o : Bytes} {univ : Option Bytes} {dim qdim : Nat}
    {rows qrows : List Bytes} {map : Bytes} (h : FiltFiles env e fs c m q o dim qdim rows qrows map) {k : Nat}
    (hk : k < 2147483648) (hroom : qrows.length * k < 2305843009213693952) (base : Bytes) :
    filtAux env ⟨e, c, m, f, q, k, o, univ⟩ dim base (some (Spec.binFile qdim qrows)) =
      if 0 < numParts env.partSize (unle (base.take 4)) ∧ 0 < qrows.length ∧ qdim < dim then .error .ub else
        let qs := (loadPart e.size env.partSize (env.elem e) (Spec.binFile qdim qrows) 0 env.mem).2.2
        let P := filtPar env ⟨e, c, m, f, q, k, o, univ⟩ dim qrows.length k qs
        auxMain P.pick P.sortP P.partSize (dim * P.es) P.nq P.k P.dist P.junk base := by
  obtain ⟨q1, q2, q3, q4⟩ := binFile_fields (dim := qdim) (rows := qrows) (by have := h.fewq; omega) h.qdimLt
  have hnq : partLen env.partSize qrows.length 0 = qrows.length := by have := h.onePart; unfold partLen; omega
  obtain ⟨l1, l2, -⟩ := loadPart_ok (ps := env.partSize) h.qmat h.fewq h.qdimLt (env.elem e) 0 env.mem
  rw [hnq] at l1
  have ha : atoi (decimal 20 k) = .ok (k : Int) :=
    atoi_ok_iff.2 ⟨(C83_decimal k (by omega)).1, by rw [isInt_iff]; omega⟩
  have hw : wrap64 (k : Int) = k := by unfold wrap64; omega
  unfold filtAux
  dsimp only
  rw [ha, Res.ok_bind, hw, if_neg (by omega), l1, l2]
  have hu : u64 (qrows.length * k) = qrows.length * k := Nat.mod_eq_of_lt (by omega)
  rw [hu, if_neg (by omega)]

/-- With queries of the dimension of the data, the program is the function of C70. -/
theorem filtRun_truth {env : FiltEnv} {e : Elem} {fs : FS Bytes} {c m f q o : Bytes} {univ : Option Bytes} {dim : Nat}
    {rows qrows : List Bytes} {map : Bytes} (h : FiltFiles env e fs c m q o dim dim rows qrows map) {k : Nat}
    (hk : k < 2147483648) (hroom : qrows.length * k < 2305843009213693952) (P : FtPar)
    (hP : P = filtPar env ⟨e, c, m, f, q, k, o, univ⟩ dim qrows.length k
      (loadPart e.size env.partSize (env.elem e) (Spec.binFile dim qrows) 0 env.mem).2.2) :
    (∀ err, filteredTruth P (some (Spec.binFile dim rows)) (some map) = .error err →
      filtRun env ⟨e, c, m, f, q, k, o, univ⟩ fs = .error err) ∧
    (∀ out, filteredTruth P (some (Spec.binFile dim rows)) (some map) = .ok out →
      ∃ base truth, filtRun env ⟨e, c, m, f, q, k, o, univ⟩ fs = .ok
        [.create (filtBaseName o), .append (filtBaseName o) base, .create (filtDummyName o), .append (filtDummyName o) truth,
          .create o, .append o out, .remove (filtBaseName o), .remove (filtDummyName o)]) := by
  obtain ⟨L, -, -, hb, he, hl⟩ := filtRun_eq (f := f) (univ := univ) h k
  rw [filtAux_eq h hk hroom, if_neg (by omega)] at he
  have hfile : Spec.binFile dim rows = le 4 rows.length ++ (le 4 dim ++ rows.flatten) := by
    unfold Spec.binFile; rw [List.append_assoc]
  have hhead := readHeader_le (n := rows.length) (d := dim) (by have := h.few; omega) h.dimLt h.j1 h.j2 rows.flatten
  rw [← hfile] at hhead
  have ht : filteredTruth P (some (Spec.binFile dim rows)) (some map) = (do
      let truth ← auxMain P.pick P.sortP P.partSize (dim * P.es) P.nq P.k P.dist P.junk
        (le 4 L.length ++ (le 4 dim ++ L.flatMap (rowAt rows)))
      remapTruth e.size L truth env.j1 env.j2) := by
    have hb' : filteredBase P (some (Spec.binFile dim rows)) (some map) =
        (L, le 4 L.length ++ (le 4 dim ++ L.flatMap (rowAt rows))) := by rw [hP]; exact hb
    have p1 : P.j1 = env.j1 := by rw [hP]; rfl
    have p2 : P.j2 = env.j2 := by rw [hP]; rfl
    have p3 : P.es = e.size := by rw [hP]; rfl
    have p4 : P.mem = env.memData := by rw [hP]; rfl
    unfold filteredTruth
    rw [hb', p1, p2, hhead]
    dsimp only
    rw [p3, p4, hl, Res.ok_bind]
  rw [ht]
  dsimp only at he
  rw [← hP] at he
  rw [he]
  cases auxMain P.pick P.sortP P.partSize (dim * P.es) P.nq P.k P.dist P.junk
    (le 4 L.length ++ (le 4 dim ++ L.flatMap (rowAt rows))) with
  | error x =>
    rw [Res.err_bind, Res.err_bind]
    exact ⟨fun err h => by injection h with h; rw [h], fun out h => by cases h⟩
  | ok truth =>
    rw [Res.ok_bind, Res.ok_bind]
    cases remapTruth e.size L truth env.j1 env.j2 with
    | error x =>
      rw [Res.err_bind]
      exact ⟨fun err h => by injection h with h; rw [h], fun out h => by cases h⟩
    | ok y =>
      rw [Res.ok_bind]
      exact ⟨fun err h => by (cases h), fun out h => by injection h with h; rw [h]; exact ⟨_, _, rfl⟩⟩

/-- The core of the program is given what C70 asks for. -/
theorem filtPar_input {env : FiltEnv} {e : Elem} {fs : FS Bytes} {c m f q o : Bytes} {univ : Option Bytes} {dim : Nat}
    {rows qrows : List Bytes} {map : Bytes} (h : FiltFiles env e fs c m q o dim dim rows qrows map) {k : Nat} (hk : 0 < k)
    (hnum : ∀ q < qrows.length, ∀ g < rows.length, (Spec.filtDist env e dim rows qrows q g).IsNum) :
    FtInput (filtPar env ⟨e, c, m, f, q, k, o, univ⟩ dim qrows.length k
      (loadPart e.size env.partSize (env.elem e) (Spec.binFile dim qrows) 0 env.mem).2.2) dim rows map ∧
    ∀ i < qrows.length, ∀ g < rows.length, (filtPar env ⟨e, c, m, f, q, k, o, univ⟩ dim qrows.length k
      (loadPart e.size env.partSize (env.elem e) (Spec.binFile dim qrows) 0 env.mem).2.2).dist i (rowAt rows g) =
        Spec.filtDist env e dim rows qrows i g := by
  have hnq : partLen env.partSize qrows.length 0 = qrows.length := by have := h.onePart; unfold partLen; omega
  obtain ⟨-, -, l3⟩ := loadPart_ok (ps := env.partSize) h.qmat h.fewq h.dimLt (env.elem e) 0 env.mem
  rw [hnq] at l3
  have hd : ∀ i < qrows.length, ∀ g < rows.length, (filtPar env ⟨e, c, m, f, q, k, o, univ⟩ dim qrows.length k
      (loadPart e.size env.partSize (env.elem e) (Spec.binFile dim qrows) 0 env.mem).2.2).dist i (rowAt rows g) =
        Spec.filtDist env e dim rows qrows i g := by
    intro i hi g _
    show env.dist i (vecAt dim _ i) _ = _
    rw [l3 i hi, Nat.zero_mul, Nat.zero_add]
    rfl
  refine ⟨⟨h.part, hk, by show qrows.length < _; have := h.fewq; omega, h.heap, h.sort, ?_, h.dimLt, h.mat, h.few, h.size, h.lines, h.j1,
    h.j2⟩, hd⟩
  intro i hi x hx
  obtain ⟨g, hg, rfl⟩ := List.mem_iff_getElem.mp hx
  have : rowAt rows g = rows[g] := by unfold rowAt; rw [List.getD_eq_getElem?_getD, List.getElem?_eq_getElem hg, Option.getD_some]
  rw [← this]
  have e1 := hd i hi g hg
  have e2 := hnum i hi g hg
  rw [← e1] at e2
  exact e2

/-- **C89** for `float` vectors.  Given a file of vectors, a file with one line of labels for each, and a file of queries of the
same dimension, the program writes a ground-truth file in which every query has its `k'` nearest ones of the points that have
one of the labels or the universal label, by their numbers in the data set; `k'` is `K` or, if that is smaller, the number of
the matching points in the last part of the filtered file.  Its temporary files are gone, and no other file is changed.
Missing: vectors of bytes, see `C89_bytes`. -/
theorem C89_filtered_partial {env : FiltEnv} {a0 t c m f q kt o : Bytes} {univ : Option Bytes} {dim : Nat}
    {rows qrows : List Bytes} {map : Bytes} {k : Nat} {fs : FS Bytes} (ht : t = ascii "float") (hk : Spec.NumText kt k) (hk0 : 0 < k)
    (hk31 : k < 2147483648) (h : FiltFiles env .float fs c m q o dim dim rows qrows map)
    (hroom : qrows.length * k < 2305843009213693952)
    (hnum : ∀ q < qrows.length, ∀ g < rows.length, (Spec.filtDist env .float dim rows qrows q g).IsNum)
    (hany : (Spec.wanted f univ map rows.length).Nonempty) :
    ∃ ops kk res, filtMain env ([a0, t, c, m, f, q, kt, o] ++ univ.toList) fs = .ok (.run ops) ∧ res.length = qrows.length ∧
      kk = min (Spec.lastPart env.partSize (Spec.wanted f univ map rows.length).card) k ∧
      (∀ i row, res[i]? = some row →
        Spec.KNearest kk (Spec.wanted f univ map rows.length) (Spec.filtDist env .float dim rows qrows i) row) ∧
      ∀ fs1, runOps ops fs1 o = some (Spec.truthBytes kk res) ∧ runOps ops fs1 (o ++ ascii "_filtered_base.bin") = none ∧
        runOps ops fs1 (o ++ ascii "_dummy") = none ∧
        ∀ p, p ≠ o → p ≠ o ++ ascii "_filtered_base.bin" → p ≠ o ++ ascii "_dummy" → runOps ops fs1 p = fs1 p := by
  subst ht
  obtain ⟨hin, hd⟩ := filtPar_input (f := f) (univ := univ) h hk0 hnum
  obtain ⟨kk, res, e1, hl, hkk, -, -, -, hkn⟩ := C70_filtered_partial hin rfl _ rfl hany
  obtain ⟨base, truth, e2⟩ := (filtRun_truth h hk31 hroom _ rfl).2 _ e1
  have hi : Spec.IsInt (k : Int) := by rw [isInt_iff]; omega
  have hw : wrap64 (k : Int) = k := by unfold wrap64; omega
  have e3 := filtMain_eq env (a0 := a0) (t := ascii "float") (c := c) (m := m) (f := f) (q := q) (o := o) (univ := univ)
    (e := .float) (by decide) hk hi fs
  rw [hw, e2] at e3
  refine ⟨_, kk, res, e3, hl, hkk, ?_, ?_⟩
  · intro i row hr
    have hil : i < qrows.length := by
      have hl' : res.length = qrows.length := hl
      rw [← hl']
      by_contra hc
      rw [List.getElem?_eq_none (by omega)] at hr
      exact absurd hr (by simp)
    refine KNearest_congr (hkn i row hr) ?_
    intro g hg
    refine hd i hil g ?_
    unfold Spec.wanted Spec.matching at hg
    exact Finset.mem_range.mp (Finset.mem_filter.mp hg).1
  · intro fs1
    have n1 : ascii "_filtered_base.bin" ≠ [] := by decide
    have n2 : ascii "_dummy" ≠ [] := by decide
    refine ⟨?_, ?_, ?_, ?_⟩
    · simp [runOps, FOp.run, filtBaseName, filtDummyName, n1, n2]
    · simp [runOps, FOp.run, filtBaseName, filtDummyName]
    · simp [runOps, FOp.run, filtBaseName, filtDummyName]
    · intro p h1 h2 h3
      simp [runOps, FOp.run, filtBaseName, filtDummyName, h1, h2, h3]

/-- **C89, loading.** The program that searches reads from the file the numbers and distances of these points. -/
theorem C89_load {k n : Nat} {res : List (List (Nat × F32))} (hn : 0 < n) (ho : res.length = n) (hk : 0 < k)
    (hk32 : k < 4294967296) (hn32 : n < 4294967296) (hrow : ∀ r ∈ res, r.length = k ∧ ∀ x ∈ r, x.1 < 4294967296)
    (hsz : n * k < 1152921504606846975) (j : TruthJunk) (h1 : j.npts.length = 4) (h2 : j.dim.length = 4) :
    loadTruth (some (Spec.truthBytes k res)) j = .ok ⟨n, k, res.flatMap (fun r => r.map Prod.fst),
      some (res.flatMap (fun r => r.map Prod.snd))⟩ := by
  have := C85_truth_load (mips := false) hn ho hk hk32 hn32 hrow hsz j h1 h2
  have hs : Spec.signed false res = res := by simp [Spec.signed]
  rw [hs] at this
  exact this

example := C89_load (k := 1) (n := 1) (res := [[(3, F32.zero)]]) (by decide) rfl (by decide) (by decide) (by decide)
  (by decide) (by decide) ⟨fun _ => 0, [0, 0, 0, 0], [0, 0, 0, 0], fun _ => 0, fun _ => 0⟩ rfl rfl

/-- **C89 fails for vectors of bytes.** With a query and a matching point the program always writes past the end of an array. -/
theorem C89_bytes {env : FiltEnv} {e : Elem} {a0 t c m f q kt o : Bytes} {univ : Option Bytes} {dim : Nat}
    {rows qrows : List Bytes} {map : Bytes} {k : Nat} {fs : FS Bytes} (he : e ≠ .float) (ht : t = Spec.elemWord e)
    (hk : Spec.NumText kt k) (hk0 : 0 < k) (hk31 : k < 2147483648) (h : FiltFiles env e fs c m q o dim dim rows qrows map)
    (hroom : qrows.length * k < 2305843009213693952) (hq : 0 < qrows.length)
    (hnum : ∀ q < qrows.length, ∀ g < rows.length, (Spec.filtDist env e dim rows qrows q g).IsNum)
    (hany : (Spec.wanted f univ map rows.length).Nonempty) :
    filtMain env ([a0, t, c, m, f, q, kt, o] ++ univ.toList) fs = .error .ub := by
  subst ht
  obtain ⟨hin, -⟩ := filtPar_input (f := f) (univ := univ) h hk0 hnum
  have e1 := C70_bytes_overflow hin (by cases e <;> first | rfl | exact absurd rfl he) hq hany
  have e2 := (filtRun_truth h hk31 hroom _ rfl).1 _ e1
  have hi : Spec.IsInt (k : Int) := by rw [isInt_iff]; omega
  have hw : wrap64 (k : Int) = k := by unfold wrap64; omega
  rw [filtMain_eq env (e := e) (by cases e <;> decide) hk hi, hw, e2]
  rfl

/-- **C89 (no matching point).** If no point matches and there is a query, memory is read out of bounds. -/
theorem C89_no_match {env : FiltEnv} {e : Elem} {a0 t c m f q kt o : Bytes} {univ : Option Bytes} {dim : Nat}
    {rows qrows : List Bytes} {map : Bytes} {k : Nat} {fs : FS Bytes} (ht : t = Spec.elemWord e)
    (hk : Spec.NumText kt k) (hk0 : 0 < k) (hk31 : k < 2147483648) (h : FiltFiles env e fs c m q o dim dim rows qrows map)
    (hroom : qrows.length * k < 2305843009213693952) (hq : 0 < qrows.length)
    (hnum : ∀ q < qrows.length, ∀ g < rows.length, (Spec.filtDist env e dim rows qrows q g).IsNum)
    (hnone : Spec.wanted f univ map rows.length = ∅) :
    filtMain env ([a0, t, c, m, f, q, kt, o] ++ univ.toList) fs = .error .ub := by
  subst ht
  obtain ⟨hin, -⟩ := filtPar_input (f := f) (univ := univ) h hk0 hnum
  have e1 := C70_no_match hin hq hnone
  have e2 := (filtRun_truth h hk31 hroom _ rfl).1 _ e1
  have hi : Spec.IsInt (k : Int) := by rw [isInt_iff]; omega
  have hw : wrap64 (k : Int) = k := by unfold wrap64; omega
  rw [filtMain_eq env (e := e) (by cases e <;> decide) hk hi, hw, e2]
  rfl

/-- **C89 (negative K).** `K` is written as an unsigned number of 64 bits and read again as an `int`: for a negative number the
behaviour is undefined. -/
theorem C89_negative {env : FiltEnv} {e : Elem} {a0 t c m f q kt o : Bytes} {univ : Option Bytes} {dim qdim : Nat}
    {rows qrows : List Bytes} {map : Bytes} {k : Int} {fs : FS Bytes} (ht : t = Spec.elemWord e)
    (hk : Spec.NumText kt k) (hk0 : k < 0) (h : FiltFiles env e fs c m q o dim qdim rows qrows map) :
    filtMain env ([a0, t, c, m, f, q, kt, o] ++ univ.toList) fs = .error .ub := by
  subst ht
  by_cases hi : Spec.IsInt k
  · rw [filtMain_eq env (e := e) (by cases e <;> decide) hk hi]
    rw [isInt_iff] at hi
    obtain ⟨L, -, -, -, he, -⟩ := filtRun_eq (f := f) (univ := univ) h (wrap64 k)
    rw [he]
    have ha : atoi (decimal 20 (wrap64 k)) = .error .ub := by
      rw [atoi_num (C83_decimal (wrap64 k) (by unfold wrap64; omega)).1, if_neg (by unfold wrap64; omega)]
    unfold filtAux
    dsimp only
    rw [ha]
    rfl
  · have ha : atoi kt = .error .ub := by rw [atoi_num hk, if_neg (mt isInt_iff.2 hi)]
    cases univ <;>
      simp [filtMain, numAt, rd, Res.ok_bind, ha]

/-- **C89 (dimensions).** If the queries have a smaller dimension than the vectors, and there is a query and a matching point,
memory is read out of bounds. -/
theorem C89_dimension {env : FiltEnv} {e : Elem} {a0 t c m f q kt o : Bytes} {univ : Option Bytes} {dim qdim : Nat}
    {rows qrows : List Bytes} {map : Bytes} {k : Nat} {fs : FS Bytes} (ht : t = Spec.elemWord e)
    (hk : Spec.NumText kt k) (hk31 : k < 2147483648) (h : FiltFiles env e fs c m q o dim qdim rows qrows map)
    (hroom : qrows.length * k < 2305843009213693952) (hq : 0 < qrows.length) (hdim : qdim < dim)
    (hany : (Spec.wanted f univ map rows.length).Nonempty) :
    filtMain env ([a0, t, c, m, f, q, kt, o] ++ univ.toList) fs = .error .ub := by
  subst ht
  have hi : Spec.IsInt (k : Int) := by rw [isInt_iff]; omega
  have hw : wrap64 (k : Int) = k := by unfold wrap64; omega
  rw [filtMain_eq env (e := e) (by cases e <;> decide) hk hi, hw]
  obtain ⟨L, hL, hLn, -, he, -⟩ := filtRun_eq (f := f) (univ := univ) h k
  have hc := Finset.card_pos.mpr hany
  have hfew := h.few
  rw [he, filtAux_eq h hk31 hroom]
  have htake : unle ((le 4 L.length ++ (le 4 dim ++ L.flatMap (rowAt rows))).take 4) = L.length := by
    rw [List.take_left' (le_length 4 _), unle_le_of_lt (by omega)]
  have hp : 0 < numParts env.partSize L.length := by
    unfold numParts
    split
    · rename_i h0
      exact Nat.div_pos (Nat.le_of_dvd (by omega) (Nat.dvd_of_mod_eq_zero h0)) h.part
    · exact Nat.succ_pos _
  rw [htake, if_pos ⟨hp, hq, hdim⟩]
  rfl

theorem knnRow_zero (pick : Nat → List (Nat × F32) → Nat) {np : Nat} (hn : 0 < np) (col : Nat → Res F32) :
    knnRow pick 0 np col = .error .ub := by
  obtain ⟨n, rfl⟩ : ∃ n, np = n + 1 := ⟨np - 1, by omega⟩
  rfl

theorem groundTruth_zero {pick : Nat → Nat → Nat → List (Nat × F32) → Nat} {sortP : List (Nat × F32) → List (Nat × F32)}
    {ps n nq : Nat} {D : Nat → Nat → F32} {junk : Nat → Nat → F32} (hps : 0 < ps) (hn : 0 < n) (hq : 0 < nq) :
    groundTruth true pick sortP ps n nq 0 D junk = .error .ub := by
  have hp : 0 < numParts ps n := by
    unfold numParts
    split
    · rename_i h0
      exact Nat.div_pos (Nat.le_of_dvd hn (Nat.dvd_of_mod_eq_zero h0)) hps
    · exact Nat.succ_pos _
  obtain ⟨p, hp⟩ : ∃ p, numParts ps n = p + 1 := ⟨numParts ps n - 1, by omega⟩
  obtain ⟨b, hb⟩ : ∃ b, (nq + 511) / 512 = b + 1 := ⟨(nq + 511) / 512 - 1, by omega⟩
  have hl : 0 < partLen ps n 0 := by unfold partLen; omega
  unfold groundTruth
  rw [hp]
  unfold gtParts
  dsimp only
  rw [if_pos rfl, Nat.min_zero]
  unfold exactKnn
  rw [hb]
  unfold knnBatches
  dsimp only
  obtain ⟨r, hr⟩ : ∃ r, List.range' (0 * 512) ((if nq < (0 + 1) * 512 then nq else (0 + 1) * 512) - 0 * 512) = 0 :: r := by
    obtain ⟨x, hx⟩ : ∃ x, (if nq < (0 + 1) * 512 then nq else (0 + 1) * 512) - 0 * 512 = x + 1 := by
      split
      · exact ⟨nq - 1, by omega⟩
      · exact ⟨511, by omega⟩
    rw [hx, Nat.zero_mul]
    exact ⟨_, List.range'_succ⟩
  rw [hr, List.mapM_cons, knnRow_zero _ hl]
  rfl

/-- **C89 (no neighbours wanted).** With `K` 0, a query and a matching point, the top of an empty queue is read. -/
theorem C89_zero {env : FiltEnv} {e : Elem} {a0 t c m f q kt o : Bytes} {univ : Option Bytes} {dim qdim : Nat}
    {rows qrows : List Bytes} {map : Bytes} {fs : FS Bytes} (ht : t = Spec.elemWord e)
    (hk : Spec.NumText kt 0) (h : FiltFiles env e fs c m q o dim qdim rows qrows map) (hq : 0 < qrows.length)
    (hany : (Spec.wanted f univ map rows.length).Nonempty) :
    filtMain env ([a0, t, c, m, f, q, kt, o] ++ univ.toList) fs = .error .ub := by
  subst ht
  have hi : Spec.IsInt 0 := by rw [isInt_iff]; omega
  rw [filtMain_eq env (e := e) (by cases e <;> decide) hk hi]
  have hw : wrap64 0 = 0 := by decide
  rw [hw]
  obtain ⟨L, hL, hLn, -, he, -⟩ := filtRun_eq (f := f) (univ := univ) h 0
  have hc := Finset.card_pos.mpr hany
  have hfew := h.few
  rw [he, filtAux_eq h (by omega) (by omega)]
  have htake : unle ((le 4 L.length ++ (le 4 dim ++ L.flatMap (rowAt rows))).take 4) = L.length := by
    rw [List.take_left' (le_length 4 _), unle_le_of_lt (by omega)]
  split
  · rfl
  · unfold auxMain
    dsimp only
    rw [htake]
    have hz := fun D junk => groundTruth_zero (pick := env.pick) (sortP := env.sortP) (D := D) (junk := junk) h.part
      (show 0 < L.length by omega) hq
    unfold filtPar
    dsimp only
    rw [hz]
    rfl

/-- **C89 (usage).** With another number of arguments nothing is read or written. -/
theorem C89_usage (env : FiltEnv) {argv : List Bytes} (h : argv.length ≠ 8 ∧ argv.length ≠ 9) (fs : FS Bytes) :
    filtMain env argv fs = .ok .usage := if_pos h

/-- **C89 (type).** With another word for the type nothing is read or written. -/
theorem C89_type (env : FiltEnv) {a0 t c m f q kt o : Bytes} {univ : Option Bytes} {k : Int} (ht : ∀ e, t ≠ Spec.elemWord e)
    (hk : Spec.NumText kt k) (hi : Spec.IsInt k) (fs : FS Bytes) :
    filtMain env ([a0, t, c, m, f, q, kt, o] ++ univ.toList) fs = .ok .refused := by
  have ha : atoi kt = .ok k := atoi_ok_iff.2 ⟨hk, hi⟩
  have he : elemArg t = none := by
    unfold elemArg
    have h1 : t ≠ ascii "int8" := ht .int8
    have h2 : t ≠ ascii "uint8" := ht .uint8
    have h3 : t ≠ ascii "float" := ht .float
    rw [if_neg h1, if_neg h2, if_neg h3]
  cases univ <;>
    simp [filtMain, numAt, rd, Res.ok_bind, ha, he, cmdOf]

/-! ## Example -/

/-- One query; the distance is 1 or 0. -/
def exFilt : FiltEnv where
  partSize := 100
  pick := fun _ _ _ => exPick
  sortP := exPairSort
  elem := fun _ x => if x.head? = some 1 then F32.one else F32.zero
  dist := fun _ _ x => if x = [F32.one] then F32.one else F32.zero
  junk := fun _ _ => F32.zero
  j1 := [0, 0, 0, 0]
  j2 := [0, 0, 0, 0]
  mem := fun _ => 0
  memData := fun _ => 0

def exFiltFs (e : Elem) : FS Bytes := fun p =>
  let r := fun x : UInt8 => x :: List.replicate (e.size - 1) 0
  if p = ascii "v" then some (Spec.binFile 1 [r 1, r 0, r 1, r 0])
  else if p = ascii "l" then some (ascii "b\na\na,u\nc,b\n")
  else if p = ascii "q" then some (Spec.binFile 1 [r 0])
  else none

theorem exFilt_files (e : Elem) : FiltFiles exFilt e (exFiltFs e) (ascii "v") (ascii "l") (ascii "q") (ascii "o") 1 1
    (let r := fun x : UInt8 => x :: List.replicate (e.size - 1) 0; [r 1, r 0, r 1, r 0]) [0 :: List.replicate (e.size - 1) 0]
    (ascii "b\na\na,u\nc,b\n") := by
  refine ⟨rfl, rfl, rfl, by decide, by decide, by decide, ?_, ?_, by decide, by decide, show 4 < _ by decide,
    show 1 < _ by decide, ?_, show (pieces 10 (ascii "b\na\na,u\nc,b\n")).length = 4 by decide +kernel, by decide,
    show 1 ≤ 100 by decide, fun _ _ => exPick_isHeapPick, exPairSort_isPairSort, rfl, rfl⟩
  · cases e <;> unfold Spec.Matrix <;> decide
  · cases e <;> unfold Spec.Matrix <;> decide
  · cases e <;> decide

theorem exFilt_num (e : Elem) (rows qrows : List Bytes) (q g : Nat) : (Spec.filtDist exFilt e 1 rows qrows q g).IsNum := by
  unfold Spec.filtDist exFilt
  dsimp only
  split <;> decide

theorem exTwo : Spec.NumText (ascii "2") 2 := (atoi_ok_iff.1 (show atoi (ascii "2") = .ok 2 by decide +kernel)).1

/-- The points with label `b` or the universal label `u`: 0, 2 and 3. -/
example := C89_filtered_partial (a0 := ascii "p") (f := ascii "b") (univ := some (ascii "u")) (k := 2) rfl exTwo (by decide)
  (by decide) (exFilt_files .float) (by decide) (fun q _ g _ => exFilt_num _ _ _ q g) ⟨0, by decide +kernel⟩

example := C89_bytes (a0 := ascii "p") (f := ascii "b") (univ := some (ascii "u")) (k := 2) (e := .int8) (by decide) rfl exTwo
  (by decide) (by decide) (exFilt_files .int8) (by decide) (by decide) (fun q _ g _ => exFilt_num _ _ _ q g) ⟨0, by decide +kernel⟩

example := C89_no_match (a0 := ascii "p") (f := ascii "z") (univ := none) (k := 2) (e := .uint8) rfl exTwo
  (by decide) (by decide) (exFilt_files .uint8) (by decide) (by decide) (fun q _ g _ => exFilt_num _ _ _ q g) (by decide +kernel)

example := C89_negative (a0 := ascii "p") (f := ascii "b") (univ := none) (k := -1) (e := .float) (kt := ascii "-1") rfl
  (atoi_ok_iff.1 (show atoi (ascii "-1") = .ok (-1) by decide +kernel)).1 (by decide) (exFilt_files .float)

example := C89_zero (a0 := ascii "p") (f := ascii "b") (univ := none) (e := .float) (kt := ascii "0") rfl
  (atoi_ok_iff.1 (show atoi (ascii "0") = .ok 0 by decide +kernel)).1 (exFilt_files .float) (by decide) ⟨0, by decide +kernel⟩

/-- The whole program: what it writes, and that the temporary files are gone. -/
example : (filtMain exFilt ([ascii "p", ascii "float", ascii "v", ascii "l", ascii "b", ascii "q", ascii "2", ascii "o"] ++
      (some (ascii "u")).toList) (exFiltFs .float)).map (fun c => match c with
        | .run ops => (runOps ops (exFiltFs .float) (ascii "o"), runOps ops (exFiltFs .float) (ascii "o_dummy"))
        | _ => (none, none)) =
    .ok (some (le32s [1, 2, 3, 0] ++ le32s [0, 0x3f800000]), none) := by decide +kernel

/-- Queries of dimension 1 for vectors of dimension 2. -/
example := C89_dimension (env := exFilt) (a0 := ascii "p") (f := ascii "b") (univ := none) (k := 2) (e := .float) (dim := 2) (qdim := 1)
  (rows := [[1, 0, 0, 0, 0, 0, 0, 0]]) (qrows := [[0, 0, 0, 0]]) (c := ascii "v") (m := ascii "l") (q := ascii "q") (o := ascii "o")
  (fs := fun p => if p = ascii "v" then some (Spec.binFile 2 [[1, 0, 0, 0, 0, 0, 0, 0]]) else if p = ascii "l" then some (ascii "b\n")
      else some (Spec.binFile 1 [[0, 0, 0, 0]])) rfl exTwo (by decide)
  ⟨rfl, rfl, rfl, by decide, by decide, by decide, by unfold Spec.Matrix; decide, by unfold Spec.Matrix; decide, by decide, by decide,
    by decide, by decide, by decide, by decide +kernel, by decide, by decide, fun _ _ => exPick_isHeapPick, exPairSort_isPairSort, rfl,
    rfl⟩ (by decide) (by decide) (by decide) ⟨0, by decide +kernel⟩

/-! ## The theorems applied to the examples -/

example := C89_usage exFilt (argv := [ascii "p", ascii "float"]) (by decide) (exFiltFs .float)

example := C89_type exFilt (a0 := ascii "p") (t := ascii "double") (c := ascii "v") (m := ascii "l") (f := ascii "b") (q := ascii "q") (o := ascii "o")
  (univ := none) (k := 2) (fun e => by cases e <;> decide) exTwo (by rw [isInt_iff]; omega) (exFiltFs .float)

end Grann
