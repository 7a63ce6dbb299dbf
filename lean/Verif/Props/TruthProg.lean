import Verif.Model.TruthProg
import Verif.Props.GroundTruth
import Verif.Props.FilteredTruth
import Verif.Props.CommandLine
/-!
# C85: the program that computes the ground truth, with its files
-/

namespace Grann

namespace Spec

/-- The values of a vector. -/
def valuesOf (es dim : Nat) (conv : Bytes → F32) (row : Bytes) : List F32 :=
  (List.range dim).map (fun d => conv ((row.drop (d * es)).take es))

end Spec

/-! ## Loading -/

theorem binFile_fields {dim : Nat} {rows : List Bytes} (hn : rows.length < 4294967296) (hd : dim < 4294967296) :
    unle ((Spec.binFile dim rows).take 4) = rows.length ∧ unle (((Spec.binFile dim rows).drop 4).take 4) = dim ∧
      (Spec.binFile dim rows).drop 8 = rows.flatten ∧ 8 ≤ (Spec.binFile dim rows).length := by
  unfold Spec.binFile
  rw [List.append_assoc]
  refine ⟨?_, ?_, ?_, ?_⟩
  · rw [List.take_left' (le_length _ _), unle_le_of_lt (by omega)]
  · rw [List.drop_left' (le_length _ _), List.take_left' (le_length _ _), unle_le_of_lt (by omega)]
  · rw [show 8 = 4 + 4 from rfl, ← List.drop_drop, List.drop_left' (le_length _ _), List.drop_left' (le_length _ _)]
  · simp only [List.length_append, le_length]; omega

theorem rowAt_window {rows : List Bytes} {rb : Nat} (h : ∀ x ∈ rows, x.length = rb) {i : Nat} (hi : i < rows.length) :
    (rows.flatten.drop (i * rb)).take rb = rowAt rows i := by
  have := flatten_slice h [] hi
  unfold slice at this
  rw [List.append_nil] at this
  split at this
  · injection this
  · cases this

/-- What is loaded of a part. -/
theorem loadPart_ok {es ps dim : Nat} {rows : List Bytes} (hm : Spec.Matrix es dim rows) (hn : rows.length < 2147483648)
    (hd : dim < 4294967296) (elem : Bytes → F32) (p : Nat) (mem : Nat → UInt8) :
    (loadPart es ps elem (Spec.binFile dim rows) p mem).1 = partLen ps rows.length p ∧
    (loadPart es ps elem (Spec.binFile dim rows) p mem).2.1 = dim ∧
    ∀ i < partLen ps rows.length p, vecAt dim (loadPart es ps elem (Spec.binFile dim rows) p mem).2.2 i =
      Spec.valuesOf es dim elem (rowAt rows (p * ps + i)) := by
  obtain ⟨h1, h2, h3, h4⟩ := binFile_fields (dim := dim) (rows := rows) (by omega) hd
  have hs : sext32 rows.length = rows.length := by unfold sext32; rw [if_neg (by omega)]
  unfold loadPart
  dsimp only
  rw [h1, h2, hs]
  refine ⟨rfl, rfl, ?_⟩
  intro i hi
  have hlt : p * ps + i < rows.length := by unfold partLen at hi; omega
  have hple : p * ps + partLen ps rows.length p ≤ rows.length := by unfold partLen at hi ⊢; omega
  generalize partLen ps rows.length p = np at *
  rw [← List.drop_drop, h3]
  have hfl : rows.flatten.length = rows.length * (dim * es) := flatten_length_of hm
  have hxl : ((rows.flatten.drop (p * ps * dim * es)).take (np * dim * es)).length = np * dim * es := by
    rw [List.length_take, List.length_drop, hfl, Nat.min_eq_left]
    have := Nat.mul_le_mul_right (dim * es) hple
    rw [Nat.add_mul] at this
    simp only [Nat.mul_assoc] at this ⊢
    omega
  rw [hxl]
  have hdrop : ((List.range (np * dim * es)).drop (np * dim * es)).map mem = [] := by
    rw [List.drop_eq_nil_of_le (by simp)]; rfl
  rw [hdrop, List.append_nil]
  have hrow := rowAt_window hm hlt
  unfold vecAt Spec.valuesOf
  apply List.ext_getElem?
  intro j
  rw [List.getElem?_take]
  by_cases hj : j < dim
  · have hij : i * dim + j < np * dim := by
      have := Nat.mul_le_mul_right dim (Nat.succ_le_of_lt hi)
      rw [Nat.succ_mul] at this
      omega
    rw [if_pos hj, List.getElem?_drop, List.getElem?_map, List.getElem?_range hij, List.getElem?_map, List.getElem?_range hj]
    simp only [Option.map_some, Option.some.injEq]
    congr 1
    rw [← hrow, List.drop_take, List.take_take, List.drop_drop, List.drop_take, List.take_take, List.drop_drop]
    have hes : (j + 1) * es ≤ dim * es := Nat.mul_le_mul_right _ hj
    have hes2 : (i * dim + j + 1) * es ≤ np * dim * es := Nat.mul_le_mul_right _ hij
    rw [Nat.succ_mul] at hes hes2
    rw [Nat.min_eq_left (by omega), Nat.min_eq_left (by omega)]
    congr 2
    ring
  · rw [if_neg hj, List.getElem?_eq_none (by simp; omega)]

/-! ## The program -/

/-- What the program is given: two vector files of the same dimension. -/
structure TruthInput (env : TruthEnv) (e : Elem) (mips : Bool) (dim : Nat) (rows qrows : List Bytes) (k : Nat) : Prop where
  part : 0 < env.partSize
  mat : Spec.Matrix e.size dim rows
  qmat : Spec.Matrix e.size dim qrows
  dimLt : dim < 4294967296
  some : 0 < rows.length
  few : rows.length < 2147483648
  fewq : qrows.length < 2147483648
  onePart : qrows.length ≤ env.partSize
  kpos : 0 < k
  klast : k ≤ Spec.lastPart env.partSize rows.length
  room : qrows.length * k < 1152921504606846975
  heap : ∀ p q, IsHeapPick (env.pick p q)
  sort : IsPairSort env.sortP
  num : ∀ q < qrows.length, ∀ g < rows.length, (env.dist mips q g (Spec.valuesOf e.size dim (env.elem e) (rowAt qrows q))
    (Spec.valuesOf e.size dim (env.elem e) (rowAt rows g))).IsNum

/-- The distance of query `q` and point `g` in the files. -/
def Spec.truthDist (env : TruthEnv) (e : Elem) (mips : Bool) (dim : Nat) (rows qrows : List Bytes) (q g : Nat) : F32 :=
  env.dist mips q g (Spec.valuesOf e.size dim (env.elem e) (rowAt qrows q)) (Spec.valuesOf e.size dim (env.elem e) (rowAt rows g))

theorem lastPart_le {ps n : Nat} (hn : 0 < n) : Spec.lastPart ps n ≤ n := by
  unfold Spec.lastPart
  split
  · rename_i h; exact Nat.le_of_dvd hn (Nat.dvd_of_mod_eq_zero h)
  · exact Nat.mod_le _ _

/-- Every query gets its nearest points. -/
theorem truthRun_ok {env : TruthEnv} {e : Elem} {mips : Bool} {dim : Nat} {rows qrows : List Bytes} {k : Nat}
    (h : TruthInput env e mips dim rows qrows k) :
    ∃ out, truthRun env e mips k (some (Spec.binFile dim rows)) (some (Spec.binFile dim qrows)) = .ok (qrows.length, out) ∧
      out.length = qrows.length ∧ ∀ q row, out[q]? = some row →
        Spec.KNearest k (Finset.range rows.length) (Spec.truthDist env e mips dim rows qrows q) row := by
  obtain ⟨b1, b2, b3, b4⟩ := binFile_fields (dim := dim) (rows := rows) (by have := h.few; omega) h.dimLt
  obtain ⟨q1, q2, q3, q4⟩ := binFile_fields (dim := dim) (rows := qrows) (by have := h.fewq; omega) h.dimLt
  have hP := h.part
  have hkl : k ≤ rows.length := Nat.le_trans h.klast (lastPart_le h.some)
  have hnq : partLen env.partSize qrows.length 0 = qrows.length := by have := h.onePart; unfold partLen; omega
  obtain ⟨l1, l2, l3⟩ := loadPart_ok (ps := env.partSize) h.qmat h.fewq h.dimLt (env.elem e) 0 (env.mem 0)
  rw [hnq] at l1 l3
  have hs : sext32 rows.length = rows.length := by unfold sext32; rw [if_neg (by have := h.few; omega)]
  have hparts : truthParts env.partSize rows.length = numParts env.partSize rows.length := if_pos h.few
  -- the distances computed
  let D : Nat → Nat → F32 := fun i g => env.dist mips i g
    (vecAt dim (loadPart e.size env.partSize (env.elem e) (Spec.binFile dim qrows) 0 (env.mem 0)).2.2 i)
    (vecAt dim (loadPart e.size env.partSize (env.elem e) (Spec.binFile dim rows) (g / env.partSize)
      (env.mem (g / env.partSize + 1))).2.2 (g % env.partSize))
  let D' : Nat → Nat → F32 := fun q g => if q < qrows.length ∧ g < rows.length then
    Spec.truthDist env e mips dim rows qrows q g else F32.zero
  have hDD : ∀ q < qrows.length, ∀ g < rows.length, D q g = D' q g := by
    intro q hq g hg
    have hm : g % env.partSize < partLen env.partSize rows.length (g / env.partSize) := by
      have := Nat.div_add_mod g env.partSize
      have h2 := Nat.mod_lt g hP
      rw [Nat.mul_comm] at this
      unfold partLen; omega
    have l := (loadPart_ok (ps := env.partSize) h.mat h.few h.dimLt (env.elem e) (g / env.partSize)
      (env.mem (g / env.partSize + 1))).2.2 _ hm
    have hg' : g / env.partSize * env.partSize + g % env.partSize = g := by
      rw [Nat.mul_comm]; exact Nat.div_add_mod g env.partSize
    rw [hg'] at l
    show env.dist mips q g _ _ = if _ then _ else _
    rw [if_pos ⟨hq, hg⟩, l, l3 q hq, Nat.zero_mul, Nat.zero_add]
    rfl
  have hnum : ∀ q g, (D' q g).IsNum := by
    intro q g
    show (if _ then _ else _ : F32).IsNum
    split
    · rename_i hc; exact h.num q hc.1 g hc.2
    · decide
  obtain ⟨out, e1, ol, os⟩ := C47_parts_partial false env.partSize rows.length qrows.length k hP h.some
    (by have := h.few; omega) h.kpos D' hnum env.pick h.heap env.sortP h.sort env.junk (Spec.lastPart env.partSize rows.length)
    rfl (fun _ => h.klast)
  rw [Nat.min_eq_right h.klast] at e1 os
  refine ⟨out, ?_, ol, ?_⟩
  · unfold truthRun
    dsimp only
    rw [if_neg (by omega), b1, b2, l1, l2, hs, hparts]
    have hu : u64 (qrows.length * k) = qrows.length * k := Nat.mod_eq_of_lt (by have := h.room; omega)
    rw [hu, if_neg (by have := h.room; omega), if_neg (by omega)]
    unfold groundTruth at e1
    have hc := gtParts_congr (clamp := false) (pick := env.pick) (ps := env.partSize) (junk := env.junk) hDD
      (numParts env.partSize rows.length) 0 k (List.replicate qrows.length [])
    rw [← hc] at e1
    change (gtParts false env.pick env.partSize rows.length qrows.length D env.junk _ 0 k _ >>= _) = _
    obtain ⟨⟨k', results⟩, e2, e3⟩ := Res.bind_eq_ok.mp e1
    dsimp only at e3
    obtain ⟨rows', e4, e5⟩ := Res.bind_eq_ok.mp e3
    injection e5 with e5
    injection e5 with e5 e6
    subst e5 e6
    rw [e2, Res.ok_bind]
    dsimp only
    rw [e4]
    rfl
  · intro q row hq
    refine KNearest_congr (os q row hq) ?_
    intro g hg
    have hql : q < qrows.length := by
      rw [← ol]
      by_contra hc
      rw [List.getElem?_eq_none (by omega)] at hq
      exact absurd hq (by simp)
    show (if _ then _ else _ : F32) = _
    rw [if_pos ⟨hql, Finset.mem_range.mp hg⟩]

/-- The results as they are written: with inner products the sign is reversed. -/
def Spec.signed (mips : Bool) (rows : List (List (Nat × F32))) : List (List (Nat × F32)) :=
  rows.map (fun r => r.map (fun x => (x.1, if mips then ⟨x.2.bits ^^^ 0x80000000#32⟩ else x.2)))

theorem truthOps_run (mips : Bool) (out : Bytes) (k : Nat) (rows : List (List (Nat × F32))) (fs : FS Bytes) :
    runOps (truthOps mips out rows.length k rows) fs out = some (Spec.truthBytes k (Spec.signed mips rows)) ∧
    ∀ p, p ≠ out → runOps (truthOps mips out rows.length k rows) fs p = fs p := by
  constructor
  · cases mips <;> simp [truthOps, saveTruth, runOps, FOp.run, Spec.truthBytes, Spec.signed, List.flatMap_map, Function.comp_def, F32.flip]
  · intro p hp
    simp [truthOps, saveTruth, runOps, FOp.run, hp]

theorem truthArgs_ok {a0 t b q kt o m : Bytes} {e : Elem} {k : Int} (hk : Spec.NumText kt k) (hi : Spec.IsInt k) :
    truthArgs [a0, t, b, q, kt, o, m] e = .ok ⟨e, b, q, wrap64 k, o, m = ascii "mips"⟩ := by
  have : atoi kt = .ok k := atoi_ok_iff.2 ⟨hk, hi⟩
  unfold truthArgs numAt
  simp only [rd, List.getElem?_cons_succ, List.getElem?_cons_zero, Res.ok_bind, this]

/-- The program from its arguments. -/
theorem truthMain_eq (env : TruthEnv) {a0 t b q kt o m : Bytes} {e : Elem} {k : Int} (ht : elemArg t = some e)
    (hk : Spec.NumText kt k) (hi : Spec.IsInt k) (fs : FS Bytes) :
    truthMain env [a0, t, b, q, kt, o, m] fs = done (truthRun env e (m = ascii "mips") (wrap64 k) (fs b) (fs q) >>= fun r =>
      .ok (truthOps (m = ascii "mips") o r.1 (wrap64 k) r.2)) := by
  unfold truthMain
  rw [if_neg (by simp)]
  simp only [rd, List.getElem?_cons_succ, List.getElem?_cons_zero, Res.ok_bind, ht, truthArgs_ok hk hi]

/-- **C85.** Given two vector files of the same dimension, of which the queries fit in one part and the points number less
than 2^31, and a `K` that is at most the size of the last part, the program writes a ground-truth file in which every query
has its `K` nearest points, and writes no other file. -/
theorem C85_truth_partial {env : TruthEnv} {e : Elem} {a0 t b q kt o m : Bytes} {dim : Nat} {rows qrows : List Bytes} {k : Nat}
    {fs : FS Bytes} (ht : elemArg t = some e) (hk : Spec.NumText kt k) (hk31 : k < 2147483648)
    (hb : fs b = some (Spec.binFile dim rows)) (hq : fs q = some (Spec.binFile dim qrows))
    (h : TruthInput env e (m = ascii "mips") dim rows qrows k) :
    ∃ ops out, truthMain env [a0, t, b, q, kt, o, m] fs = .ok (.run ops) ∧ out.length = qrows.length ∧
      (∀ i row, out[i]? = some row →
        Spec.KNearest k (Finset.range rows.length) (Spec.truthDist env e (m = ascii "mips") dim rows qrows i) row) ∧
      ∀ fs1, runOps ops fs1 o = some (Spec.truthBytes k (Spec.signed (m = ascii "mips") out)) ∧
        ∀ p, p ≠ o → runOps ops fs1 p = fs1 p := by
  obtain ⟨out, e1, ol, os⟩ := truthRun_ok h
  have hi : Spec.IsInt (k : Int) := by rw [isInt_iff]; omega
  have hw : wrap64 (k : Int) = k := by unfold wrap64; omega
  refine ⟨_, out, ?_, ol, os, fun fs1 => truthOps_run _ o k out fs1⟩
  rw [truthMain_eq env ht hk hi, hb, hq, hw, e1]
  rw [ol]; rfl

/-- **C85, loading.** The program that searches reads from the file the numbers and distances of these points. -/
theorem C85_truth_load {mips : Bool} {k n : Nat} {out : List (List (Nat × F32))} (hn : 0 < n) (ho : out.length = n) (hk : 0 < k)
    (hk32 : k < 4294967296) (hn32 : n < 4294967296) (hrow : ∀ r ∈ out, r.length = k ∧ ∀ x ∈ r, x.1 < 4294967296)
    (hsz : n * k < 1152921504606846975) (j : TruthJunk) (h1 : j.npts.length = 4) (h2 : j.dim.length = 4) :
    loadTruth (some (Spec.truthBytes k (Spec.signed mips out))) j = .ok ⟨n, k, out.flatMap (fun r => r.map Prod.fst),
      some ((Spec.signed mips out).flatMap (fun r => r.map Prod.snd))⟩ := by
  have hl : ∀ f : Nat × F32 → Nat, (out.flatMap (fun r => r.map f)).length = n * k := by
    intro f
    rw [List.length_flatMap, ← ho]
    have : out.map (fun r => (r.map f).length) = List.replicate out.length k := by
      rw [List.eq_replicate_iff]
      refine ⟨by simp, fun x hx => ?_⟩
      obtain ⟨r, hr, rfl⟩ := List.mem_map.mp hx
      rw [List.length_map]; exact (hrow r hr).1
    rw [this, List.sum_replicate]; rfl
  have hl2 : ((Spec.signed mips out).flatMap (fun r => r.map Prod.snd)).length = n * k := by
    unfold Spec.signed
    simp only [List.flatMap_map, List.map_map]
    have := hl Prod.fst
    rw [List.length_flatMap] at this ⊢
    simpa using this
  have := C46_with_distances () (fun _ => none) n k (out.flatMap (fun r => r.map Prod.fst))
    ((Spec.signed mips out).flatMap (fun r => r.map Prod.snd)) hn32 hk32 (Nat.mul_pos hn hk) (hl _) hl2 (by
      intro x hx
      obtain ⟨r, hr, hx⟩ := List.mem_flatMap.mp hx
      obtain ⟨y, hy, rfl⟩ := List.mem_map.mp hx
      exact (hrow r hr).2 y hy) hsz j h1 h2
  rw [← this]
  congr 1
  simp [saveTruth, runOps, FOp.run, Spec.truthBytes, Spec.signed, ho, List.map_flatMap, List.flatMap_map, Function.comp_def]

/-! ## What the hypotheses exclude -/

/-- **C85 (needed hypothesis).** A base or query file that is missing or has less than eight bytes. -/
theorem C85_truth_short (env : TruthEnv) {a0 t b q kt o m : Bytes} {e : Elem} {k : Int} {fs : FS Bytes}
    (ht : elemArg t = some e) (hk : Spec.NumText kt k) (hi : Spec.IsInt k)
    (h : ((fs b).getD []).length < 8 ∨ ((fs q).getD []).length < 8) :
    truthMain env [a0, t, b, q, kt, o, m] fs = .error .ub := by
  rw [truthMain_eq env ht hk hi]
  have : truthRun env e (m = ascii "mips") (wrap64 k) (fs b) (fs q) = .error .ub := by
    unfold truthRun
    cases hb : fs b with
    | none => rfl
    | some x =>
      cases hq : fs q with
      | none => rfl
      | some y =>
        rw [hb, hq] at h
        rw [Option.getD_some, Option.getD_some] at h
        dsimp only
        rw [if_pos h]
  rw [this]; rfl

/-- The number of queries loaded. -/
theorem loadPart_nq (es ps : Nat) (elem : Bytes → F32) (b : Bytes) (mem : Nat → UInt8) :
    (loadPart es ps elem b 0 mem).1 = min ps (sext32 (unle (b.take 4))) ∧ (loadPart es ps elem b 0 mem).2.1 = unle ((b.drop 4).take 4) := by
  unfold loadPart partLen
  simp

/-- **C85 (needed hypothesis).** With a negative `K` and at least one query, the program ends with an exception. -/
theorem C85_truth_negative (env : TruthEnv) {a0 t b q kt o m bb qq : Bytes} {e : Elem} {k : Int} {fs : FS Bytes}
    (ht : elemArg t = some e) (hk : Spec.NumText kt k) (hi : Spec.IsInt k) (hneg : k < 0)
    (hb : fs b = some bb) (hq : fs q = some qq) (hb8 : 8 ≤ bb.length) (hq8 : 8 ≤ qq.length)
    (hnq : 0 < unle (qq.take 4)) (hp : 0 < env.partSize) (hps : env.partSize ≤ 10000000) :
    truthMain env [a0, t, b, q, kt, o, m] fs = .error .throw := by
  rw [truthMain_eq env ht hk hi, hb, hq]
  have : truthRun env e (m = ascii "mips") (wrap64 k) (some bb) (some qq) = .error .throw := by
    unfold truthRun
    dsimp only
    rw [if_neg (by omega), (loadPart_nq _ _ _ _ _).1, if_pos]
    rw [isInt_iff] at hi
    have hs : 0 < sext32 (unle (qq.take 4)) := by unfold sext32; split <;> omega
    generalize sext32 (unle (qq.take 4)) = n at *
    obtain ⟨z, hz⟩ : ∃ z : Nat, z = min env.partSize n := ⟨_, rfl⟩
    rw [← hz]
    obtain ⟨y, hy⟩ : ∃ y : Nat, (y : Int) = -k := ⟨(-k).toNat, by omega⟩
    have hw : wrap64 k = 18446744073709551616 - y := by unfold wrap64; omega
    have hzy : z * y ≤ 10000000 * 2147483648 := Nat.mul_le_mul (by omega) (by omega)
    have hzy0 : 0 < z * y := Nat.mul_pos (by omega) (by omega)
    have hm : z * (18446744073709551616 - y) = (18446744073709551616 - z * y) + 18446744073709551616 * (z - 1) := by
      rw [Nat.mul_sub]
      have : z = (z - 1) + 1 := by omega
      rw [Nat.mul_comm z 18446744073709551616]
      omega
    unfold u64
    rw [hw, hm, Nat.add_mul_mod_self_left, Nat.mod_eq_of_lt (by omega)]
    omega
  rw [this]; rfl

/-- **C85 (needed hypothesis).** If the queries have fewer dimensions than the points, the program reads behind the
queries. -/
theorem C85_truth_narrow (env : TruthEnv) {a0 t b q kt o m : Bytes} {e : Elem} {dim qdim : Nat} {rows qrows : List Bytes} {k : Nat}
    {fs : FS Bytes} (ht : elemArg t = some e) (hk : Spec.NumText kt k) (hk31 : k < 2147483648)
    (hb : fs b = some (Spec.binFile dim rows)) (hq : fs q = some (Spec.binFile qdim qrows)) (hd : dim < 4294967296)
    (hn : rows.length < 2147483648) (hn0 : 0 < rows.length) (hq31 : qrows.length < 2147483648) (hq0 : 0 < qrows.length)
    (hp : 0 < env.partSize) (hroom : qrows.length * k < 1152921504606846975) (hlt : qdim < dim) :
    truthMain env [a0, t, b, q, kt, o, m] fs = .error .ub := by
  have hi : Spec.IsInt (k : Int) := by rw [isInt_iff]; omega
  have hw : wrap64 (k : Int) = k := by unfold wrap64; omega
  rw [truthMain_eq env ht hk hi, hb, hq, hw]
  obtain ⟨b1, b2, b3, b4⟩ := binFile_fields (dim := dim) (rows := rows) (by omega) hd
  obtain ⟨q1, q2, q3, q4⟩ := binFile_fields (dim := qdim) (rows := qrows) (by omega) (by omega)
  have hs : sext32 qrows.length = qrows.length := by unfold sext32; rw [if_neg (by omega)]
  have hnp : 0 < truthParts env.partSize rows.length := by
    unfold truthParts numParts
    rw [if_pos hn]
    split
    · rename_i h0
      exact Nat.div_pos (Nat.le_of_dvd hn0 (Nat.dvd_of_mod_eq_zero h0)) hp
    · exact Nat.succ_pos _
  have : truthRun env e (m = ascii "mips") k (some (Spec.binFile dim rows)) (some (Spec.binFile qdim qrows)) = .error .ub := by
    unfold truthRun
    dsimp only
    rw [if_neg (by omega), (loadPart_nq _ _ _ _ _).1, (loadPart_nq _ _ _ _ _).2, b1, b2, q1, q2, hs]
    have hle : min env.partSize qrows.length * k ≤ qrows.length * k := Nat.mul_le_mul_right _ (Nat.min_le_right _ _)
    have hu : u64 (min env.partSize qrows.length * k) = min env.partSize qrows.length * k := Nat.mod_eq_of_lt (by omega)
    rw [hu, if_neg (by omega), if_pos (by omega)]
  rw [this]; rfl

/-- **C85 (needed hypothesis).** Queries after the first 10000000 are left out: whatever the program writes has at most
that many. -/
theorem C85_truth_dropped {env : TruthEnv} {e : Elem} {mips : Bool} {k n : Nat} {bb qq : Bytes} {rows : List (List (Nat × F32))}
    (h : truthRun env e mips k (some bb) (some qq) = .ok (n, rows)) : n = min env.partSize (sext32 (unle (qq.take 4))) := by
  unfold truthRun at h
  dsimp only at h
  split at h
  · cases h
  · split at h
    · cases h
    · split at h
      · cases h
      · obtain ⟨r, _, h⟩ := Res.bind_eq_ok.mp h
        obtain ⟨r', _, h⟩ := Res.bind_eq_ok.mp h
        injection h with h
        injection h with h _
        rw [← h, (loadPart_nq _ _ _ _ _).1]

/-- **C85 (needed hypothesis).** A base file that claims 2^31 points or more, but not nearly 2^32, is taken to be empty,
and the program reads results that are not there. -/
theorem C85_truth_many (env : TruthEnv) {a0 t b q kt o m bb : Bytes} {e : Elem} {qdim : Nat} {qrows : List Bytes} {k : Nat}
    {fs : FS Bytes} (ht : elemArg t = some e) (hk : Spec.NumText kt k) (hk31 : k < 2147483648) (hk0 : 0 < k)
    (hb : fs b = some bb) (hb8 : 8 ≤ bb.length) (hbig : 2147483648 ≤ unle (bb.take 4))
    (hnot : env.partSize ≤ 4294967296 - unle (bb.take 4))
    (hq : fs q = some (Spec.binFile qdim qrows)) (hqd : qdim < 4294967296) (hq31 : qrows.length < 2147483648) (hq0 : 0 < qrows.length)
    (hp : 0 < env.partSize) (hroom : qrows.length * k < 1152921504606846975) (hs : IsPairSort env.sortP) :
    truthMain env [a0, t, b, q, kt, o, m] fs = .error .ub := by
  have hi : Spec.IsInt (k : Int) := by rw [isInt_iff]; omega
  have hw : wrap64 (k : Int) = k := by unfold wrap64; omega
  rw [truthMain_eq env ht hk hi, hb, hq, hw]
  obtain ⟨q1, q2, q3, q4⟩ := binFile_fields (dim := qdim) (rows := qrows) (by omega) (by omega)
  have hse : sext32 qrows.length = qrows.length := by unfold sext32; rw [if_neg (by omega)]
  have hparts : truthParts env.partSize (unle (bb.take 4)) = 0 := by
    unfold truthParts
    rw [if_neg (by omega), if_neg (by omega)]
  have : truthRun env e (m = ascii "mips") k (some bb) (some (Spec.binFile qdim qrows)) = .error .ub := by
    unfold truthRun
    dsimp only
    rw [if_neg (by omega), (loadPart_nq _ _ _ _ _).1, q1, hse, hparts]
    have hle : min env.partSize qrows.length * k ≤ qrows.length * k := Nat.mul_le_mul_right _ (Nat.min_le_right _ _)
    have hu : u64 (min env.partSize qrows.length * k) = min env.partSize qrows.length * k := Nat.mod_eq_of_lt (by omega)
    rw [hu, if_neg (by omega), if_neg (by omega)]
    unfold gtParts
    obtain ⟨z, hz⟩ : ∃ z, min env.partSize qrows.length = z + 1 := ⟨min env.partSize qrows.length - 1, by omega⟩
    rw [hz, Res.ok_bind]
    dsimp only
    have h0 : env.sortP [] = [] := List.perm_nil.mp (hs.perm [])
    have hg : gtTake env.sortP k [] = .error .ub := by
      unfold gtTake
      rw [h0]
      obtain ⟨k', rfl⟩ : ∃ k', k = k' + 1 := ⟨k - 1, by omega⟩
      rw [List.range_succ_eq_map, List.mapM_cons]
      rfl
    rw [List.replicate_succ, List.mapM_cons, hg]
    rfl
  rw [this]; rfl

theorem exactKnn_zero {pick : Nat → Nat → List (Nat × F32) → Nat} {np nq : Nat} {D : Nat → Nat → F32} {junk : Nat → F32}
    (hn : 0 < np) (hq : 0 < nq) : exactKnn pick 0 np nq D junk = .error .ub := by
  have hrow : ∀ (pk : Nat → List (Nat × F32) → Nat) (col : Nat → Res F32), knnRow pk 0 np col = .error .ub := by
    intro pk col
    obtain ⟨m, rfl⟩ : ∃ m, np = m + 1 := ⟨np - 1, by omega⟩
    rfl
  unfold exactKnn
  obtain ⟨t, ht⟩ : ∃ t, (nq + 511) / 512 = t + 1 := ⟨(nq + 511) / 512 - 1, by omega⟩
  rw [ht]
  unfold knnBatches
  dsimp only
  obtain ⟨z, hz⟩ : ∃ z, (if nq < (0 + 1) * 512 then nq else (0 + 1) * 512) - 0 * 512 = z + 1 :=
    ⟨(if nq < (0 + 1) * 512 then nq else (0 + 1) * 512) - 0 * 512 - 1, by split <;> omega⟩
  rw [hz, List.range'_succ, List.mapM_cons, hrow]
  rfl

/-- **C85 (needed hypothesis).** With a `K` of 0, or text that is no number, the program looks at the top of an empty heap. -/
theorem C85_truth_zero (env : TruthEnv) {a0 t b q kt o m : Bytes} {e : Elem} {dim qdim : Nat} {rows qrows : List Bytes}
    {fs : FS Bytes} (ht : elemArg t = some e) (hk : Spec.NumText kt 0)
    (hb : fs b = some (Spec.binFile dim rows)) (hq : fs q = some (Spec.binFile qdim qrows)) (hd : dim < 4294967296)
    (hqd : qdim < 4294967296) (hn : rows.length < 2147483648) (hn0 : 0 < rows.length) (hq31 : qrows.length < 2147483648)
    (hq0 : 0 < qrows.length) (hp : 0 < env.partSize) : truthMain env [a0, t, b, q, kt, o, m] fs = .error .ub := by
  have hi : Spec.IsInt 0 := by rw [isInt_iff]; omega
  have hw : wrap64 0 = 0 := rfl
  rw [truthMain_eq env ht hk hi, hb, hq, hw]
  obtain ⟨b1, b2, b3, b4⟩ := binFile_fields (dim := dim) (rows := rows) (by omega) hd
  obtain ⟨q1, q2, q3, q4⟩ := binFile_fields (dim := qdim) (rows := qrows) (by omega) hqd
  have hs : sext32 qrows.length = qrows.length := by unfold sext32; rw [if_neg (by omega)]
  have hsn : sext32 rows.length = rows.length := by unfold sext32; rw [if_neg (by omega)]
  obtain ⟨z, hz⟩ : ∃ z, truthParts env.partSize rows.length = z + 1 := by
    unfold truthParts numParts
    rw [if_pos hn]
    split
    · rename_i h0
      exact ⟨rows.length / env.partSize - 1, by
        have := Nat.div_pos (Nat.le_of_dvd hn0 (Nat.dvd_of_mod_eq_zero h0)) hp; omega⟩
    · exact ⟨_, rfl⟩
  have : truthRun env e (m = ascii "mips") 0 (some (Spec.binFile dim rows)) (some (Spec.binFile qdim qrows)) = .error .ub := by
    unfold truthRun
    dsimp only
    rw [if_neg (by omega), (loadPart_nq _ _ _ _ _).1, (loadPart_nq _ _ _ _ _).2, b1, b2, q1, q2, hs, hsn, hz, Nat.mul_zero]
    rw [if_neg (by decide)]
    split
    · rfl
    · unfold gtParts
      simp only [Bool.false_eq_true, if_false]
      rw [exactKnn_zero (by unfold partLen; omega) (by omega)]
      rfl
  rw [this]; rfl

/-- **C85.** An unknown type does nothing, and a wrong number of arguments only prints the usage. -/
theorem C85_truth_nothing (env : TruthEnv) (argv : List Bytes) (fs : FS Bytes) :
    (argv.length ≠ 7 → truthMain env argv fs = .ok .usage) ∧
    (∀ a0 t b q kt o m, argv = [a0, t, b, q, kt, o, m] → t ≠ ascii "float" → t ≠ ascii "int8" → t ≠ ascii "uint8" →
      truthMain env argv fs = .ok (.run [])) := by
  constructor
  · intro h
    unfold truthMain
    rw [if_pos h]
  · rintro a0 t b q kt o m rfl h1 h2 h3
    have : elemArg t = none := by unfold elemArg; rw [if_neg h2, if_neg h3, if_neg h1]
    unfold truthMain
    rw [if_neg (by simp)]
    simp only [rd, List.getElem?_cons_succ, List.getElem?_cons_zero, Res.ok_bind, this]

/-! ## Examples -/

/-- Parts of three vectors, `int8` values, and a distance that looks at the first value only. -/
def exTruthEnv : TruthEnv where
  partSize := 3
  pick := fun _ _ _ => exPick
  sortP := exPairSort
  elem := fun _ b => if b = [0] then F32.zero else if b = [1] then F32.one else ⟨0x40000000#32⟩
  dist := fun _ _ _ x y => if x.head? = y.head? then F32.zero else F32.one
  junk := fun _ _ => F32.zero
  mem := fun _ _ => 0

def exTruthFs : FS Bytes := fun p =>
  if p = ascii "base" then some (Spec.binFile 2 [[0, 0], [1, 0], [0, 1], [2, 0], [1, 2]])
  else if p = ascii "query" then some (Spec.binFile 2 [[1, 5], [2, 5]])
  else if p = ascii "narrow" then some (Spec.binFile 1 [[1]])
  else if p = ascii "wide" then some (Spec.binFile 4 [[0, 0, 2, 0], [1, 0, 1, 0]])
  else if p = ascii "big" then some (le 4 2147483648 ++ le 4 2)
  else none

theorem exTruthInput : TruthInput exTruthEnv .int8 false 2 [[0, 0], [1, 0], [0, 1], [2, 0], [1, 2]] [[1, 5], [2, 5]] 2 where
  part := by decide
  mat := by unfold Spec.Matrix; decide
  qmat := by unfold Spec.Matrix; decide
  dimLt := by decide
  some := by decide
  few := by decide
  fewq := by decide
  onePart := by decide
  kpos := by decide
  klast := by decide
  room := by decide
  heap := fun _ _ => exPick_isHeapPick
  sort := exPairSort_isPairSort
  num := by decide +kernel

example := C85_truth_partial (a0 := ascii "compute_groundtruth") (t := ascii "int8") (b := ascii "base") (q := ascii "query") (kt := ascii "2")
  (o := ascii "gt") (m := ascii "l2") (fs := exTruthFs) (by decide +kernel) (atoi_ok_iff.1 (by decide +kernel)).1 (by decide)
  (by decide +kernel) (by decide +kernel) exTruthInput

/-- Points 1 and 4 for the first query, 3 and another for the second. -/
example : (truthRun exTruthEnv .int8 false 2 (exTruthFs (ascii "base")) (exTruthFs (ascii "query"))).map
    (fun r => (r.1, r.2.map (fun l => l.map Prod.fst))) = .ok (2, [[1, 4], [3, 0]]) := by decide +kernel

example := C85_truth_load (mips := true) (n := 1) (k := 2) (out := [[(1, F32.one), (4, F32.one)]]) (by decide) rfl (by decide) (by decide)
  (by decide) (by decide) (by decide) exTruthJunk rfl rfl

example := C85_truth_short exTruthEnv (e := .int8) (a0 := []) (t := ascii "int8") (b := ascii "base") (q := ascii "none") (kt := ascii "2")
  (o := ascii "gt") (m := ascii "l2") (fs := exTruthFs) (by decide +kernel) (atoi_ok_iff.1 (by decide +kernel : atoi (ascii "2") = .ok 2)).1
  (atoi_ok_iff.1 (by decide +kernel : atoi (ascii "2") = .ok 2)).2 (by decide +kernel)

example := C85_truth_negative exTruthEnv (e := .int8) (a0 := []) (t := ascii "int8") (b := ascii "base") (q := ascii "query") (kt := ascii "-2")
  (o := ascii "gt") (m := ascii "l2") (fs := exTruthFs) (by decide +kernel) (atoi_ok_iff.1 (by decide +kernel : atoi (ascii "-2") = .ok (-2))).1
  (atoi_ok_iff.1 (by decide +kernel : atoi (ascii "-2") = .ok (-2))).2 (by decide) (bb := Spec.binFile 2 [[0, 0], [1, 0], [0, 1], [2, 0], [1, 2]])
  (qq := Spec.binFile 2 [[1, 5], [2, 5]]) (by decide +kernel) (by decide +kernel) (by decide +kernel) (by decide +kernel) (by decide +kernel)
  (by decide) (by decide)

example := C85_truth_narrow exTruthEnv (e := .int8) (a0 := []) (t := ascii "int8") (b := ascii "base") (q := ascii "narrow") (kt := ascii "2") (k := 2)
  (o := ascii "gt") (m := ascii "l2") (fs := exTruthFs) (dim := 2) (qdim := 1) (rows := [[0, 0], [1, 0], [0, 1], [2, 0], [1, 2]]) (qrows := [[1]])
  (by decide +kernel) (atoi_ok_iff.1 (by decide +kernel)).1 (by decide) (by decide +kernel) (by decide +kernel) (by decide) (by decide)
  (by decide) (by decide) (by decide) (by decide) (by decide) (by decide)

example := C85_truth_many exTruthEnv (e := .int8) (a0 := []) (t := ascii "int8") (b := ascii "big") (q := ascii "query") (kt := ascii "2") (k := 2)
  (o := ascii "gt") (m := ascii "l2") (fs := exTruthFs) (bb := le 4 2147483648 ++ le 4 2) (qdim := 2) (qrows := [[1, 5], [2, 5]])
  (by decide +kernel) (atoi_ok_iff.1 (by decide +kernel)).1 (by decide) (by decide) (by decide +kernel) (by decide +kernel) (by decide +kernel)
  (by decide +kernel) (by decide +kernel) (by decide) (by decide) (by decide) (by decide) (by decide) exPairSort_isPairSort

example := C85_truth_zero exTruthEnv (e := .int8) (a0 := []) (t := ascii "int8") (b := ascii "base") (q := ascii "query") (kt := ascii "two")
  (o := ascii "gt") (m := ascii "l2") (fs := exTruthFs) (dim := 2) (qdim := 2) (rows := [[0, 0], [1, 0], [0, 1], [2, 0], [1, 2]])
  (qrows := [[1, 5], [2, 5]]) (by decide +kernel) (atoi_ok_iff.1 (by decide +kernel)).1 (by decide +kernel) (by decide +kernel) (by decide)
  (by decide) (by decide) (by decide) (by decide) (by decide) (by decide)

/-- Four queries are more than a part. -/
example : (truthRun exTruthEnv .int8 false 1 (exTruthFs (ascii "base")) (some (Spec.binFile 2 [[1, 5], [2, 5], [0, 0], [2, 1]]))).map
    (fun r => r.1) = .ok 3 := by decide +kernel

example := (C85_truth_nothing exTruthEnv [[], ascii "double", [], [], [], [], []] exTruthFs).2 _ _ _ _ _ _ _ rfl (by decide) (by decide) (by decide)

/-- **C85 (needed hypothesis).** Queries with more dimensions than the points are cut at the wrong places: the second query
here is [1, 0, 1, 0], but point 3, which begins with a 2 like the end of the first query, is called nearest to it. -/
theorem C85_truth_wide : (truthRun exTruthEnv .int8 false 1 (exTruthFs (ascii "base")) (exTruthFs (ascii "wide"))).map
    (fun r => r.2.map (fun l => l.map Prod.fst)) = .ok [[0], [3]] ∧
    exTruthFs (ascii "wide") = some (Spec.binFile 4 [[0, 0, 2, 0], [1, 0, 1, 0]]) := by decide +kernel

/-! ## The theorems applied to the examples -/

example : ∀ n rows, truthRun exTruthEnv .int8 false 1 (exTruthFs (ascii "base")) (some (Spec.binFile 2 [[1, 5], [2, 5], [0, 0], [2, 1]])) = .ok (n, rows) → n = 3 := by
  intro n rows h
  rw [show exTruthFs (ascii "base") = some (Spec.binFile 2 [[0, 0], [1, 0], [0, 1], [2, 0], [1, 2]]) by decide +kernel] at h
  rw [C85_truth_dropped h]
  decide +kernel

end Grann
