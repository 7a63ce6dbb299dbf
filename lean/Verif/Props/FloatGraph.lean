import Verif.Props.FloatCmp
/-!
# C96: the programs with the distances of the indices in `float` arithmetic
-/

namespace Grann

open _root_.Grann.Spec _root_.Spec

/-- The values of a file are numbers, neither infinite nor NaN (bytes always are). -/
def Spec.FiniteRows (e : Elem) (dim : Nat) (rows : List Bytes) : Prop :=
  e = .float → ∀ r ∈ rows, ∀ d < dim, Spec.Finite ⟨BitVec.ofNat 32 (unle ((r.drop (4 * d)).take 4))⟩

/-- The vectors are not too long, nor are the sums. -/
structure BoundedRows (U : SumTree) (dim qdim : Nat) (rows qrows : List Bytes) : Prop where
  height : U.height + 3 ≤ 2 ^ 23
  ops : U.ops ≤ 2 ^ 100
  short : ∀ r ∈ rows, fileNorm .float dim r ≤ 2 ^ 120
  shortQueries : ∀ r ∈ qrows, fileNorm .float qdim r ≤ 2 ^ 120

/-- Files whose distances can be computed: `U` is an order of the additions; a sum of squares of signed bytes is below 2^31; inner products do not overflow. -/
structure Computes (U : SumTree) (e : Elem) (c : DistClass) (dim qdim : Nat) (rows qrows : List Bytes) : Prop where
  sums : U.Sums (roundUp8 dim)
  finite : FiniteRows e dim rows
  finiteQueries : FiniteRows e qdim qrows
  int8 : e = .int8 → dim ≤ 33024
  uint8 : e = .uint8 → dim ≤ 2147483640
  dot : c = .innerProduct ∨ c = .fastL2 → BoundedRows U dim qdim rows qrows

theorem finite_values {dim : Nat} {rows : List Bytes} (h : FiniteRows .float dim rows) {r : Bytes} (hr : r ∈ rows) :
    ∀ x ∈ Spec.valuesOf Elem.float.size dim (elemF32 .float) r, Spec.Finite x := by
  intro x hx
  unfold Spec.valuesOf at hx
  obtain ⟨d, hd, rfl⟩ := List.mem_map.1 hx
  have := h rfl r hr d (List.mem_range.1 hd)
  rw [Nat.mul_comm] at this
  exact this

theorem ofNat_number (n : Nat) (h : n < 4294967296) : Spec.Finite (F32.ofNat n) ∧ (F32.ofNat n).lt F32.fmax = true := by
  have h1 := ofNat_bits_mono (a := n) (b := 4294967295) (by omega) (by omega)
  have h2 : (F32.ofNat 4294967295).bits.toNat = 1333788672 := by decide +kernel
  refine ⟨by unfold Spec.Finite; omega, ?_⟩
  unfold F32.lt
  rw [ofNat_key h, show F32.fmax.key = some 2139095039 by decide]
  simp only [decide_eq_true_eq]
  omega

/-- Any integer below 2^32 becomes a float near it. -/
theorem ofNat_near {N : Nat} (hN : N < 4294967296) : |value (F32.ofNat N) - N| ≤ N * 2 ^ (-24 : Int) := by
  by_cases hs : N ≤ 16777216
  · rw [(ofNat_value hs).2, sub_self, abs_zero]
    positivity
  obtain ⟨e, m, he, he31, hm, h1, h2, hb⟩ := ofNat_parts (n := N) (by omega) hN
  have hl : 2 ^ e ≤ N := by rw [he]; exact Nat.log2_self_le (by omega)
  have he24 : 24 ≤ e := by
    by_contra hc
    have h3 : N < 2 ^ (e + 1) := by rw [he]; exact Nat.lt_log2_self
    have : 2 ^ (e + 1) ≤ 2 ^ 24 := Nat.pow_le_pow_right (by norm_num) (by omega)
    omega
  rw [if_neg (by omega)] at hm
  have hm0 : magnitude (149 * 8388608 + m) = m := by
    by_cases h : m = 16777216
    · rw [h]; norm_num [magnitude]
    · have hd : (149 * 8388608 + m) / 8388608 = 150 := by omega
      have hr : (149 * 8388608 + m) % 8388608 = m - 8388608 := by omega
      unfold magnitude
      rw [hd, hr, if_neg (by omega), show 8388608 + (m - 8388608) = m by omega]
      norm_num
  have hv : value (F32.ofNat N) = m * 2 ^ (e - 23) := by
    unfold value
    rw [hb, if_pos (by omega), show (e + 126) * 8388608 + m = (149 * 8388608 + m) + (e - 23) * 8388608 by omega, magnitude_shift (by omega), hm0]
  have hr := divRound_err N (2 ^ (e - 23)) (by positivity)
  rw [← hm] at hr
  unfold fval at hr
  have hp : (0 : ℚ) < 2 ^ (e - 23) := by positivity
  have h3 : value (F32.ofNat N) - N = ((m : ℚ) - (N : ℚ) / ((2 ^ (e - 23) : Nat) : ℚ)) * 2 ^ (e - 23) := by
    rw [hv]
    push_cast
    field_simp
  rw [h3, abs_mul, abs_of_pos hp]
  have h4 : (2 : ℚ) ^ (e - 23) * 2 ^ 23 ≤ N := by
    rw [← pow_add, show e - 23 + 23 = e by omega]
    exact_mod_cast hl
  have h5 : (N : ℚ) * 2 ^ (-24 : Int) = N / 2 ^ 24 := by rw [zpow_neg]; norm_num; ring
  rw [h5, le_div_iff₀ (by positivity)]
  calc _ ≤ 1 / 2 * 2 ^ (e - 23) * (2 : ℚ) ^ 24 := by gcongr
    _ = 2 ^ (e - 23) * 2 ^ 23 := by ring
    _ ≤ N := h4

/-- The distance of two vectors in memory, one of the rows and one of the queries. -/
theorem byte_number (ftz : Bool) (U : SumTree) {e : Elem} (he : e.IsByte) {c : DistClass} (hc : getDistance e .l2 = .ok c) {n : Nat}
    (h8 : e = .int8 → n ≤ 33025) (hu : e = .uint8 → n < 2147483648) {x y : Bytes} (hx : x.length = n) (hy : y.length = n) :
    (cmpF32 ftz U n c x y).lt F32.fmax = true := by
  have lx : n ≤ (x.map UInt8.toBitVec).length := by rw [List.length_map, hx]
  have ly : n ≤ (y.map UInt8.toBitVec).length := by rw [List.length_map, hy]
  rcases he with rfl | rfl
  · cases hc
    have h1 := C50_int8_exact (x.map UInt8.toBitVec) (y.map UInt8.toBitVec) n (h8 rfl) lx ly
    have h2 := sqDist_le n (sbyte (x.map UInt8.toBitVec)) (sbyte (y.map UInt8.toBitVec)) (fun i => by
      have := sbyte_range (x.map UInt8.toBitVec) i; have := sbyte_range (y.map UInt8.toBitVec) i; omega)
    unfold cmpF32 byteCompare l2Int8F
    simp only
    rw [h1]
    have := h8 rfl
    exact (ofNat_number _ (by omega)).2
  · cases hc
    have h1 := C50_uint8 (x.map UInt8.toBitVec) (y.map UInt8.toBitVec) n (hu rfl) lx ly
    unfold cmpF32 byteCompare l2UInt8F
    simp only
    rw [h1]
    exact (ofNat_number _ (by omega)).2

theorem memory_bytes {es qdim adim : Nat} {r : Bytes} (hr : r.length = qdim * es) (ha : adim ≤ roundUp8 qdim) :
    ((padTo (roundUp8 qdim * es) r).take (adim * es)).length = adim * es := by
  have hle : qdim ≤ roundUp8 qdim := (roundUp8_spec qdim).1
  rw [List.length_take, padTo_len (by rw [hr]; exact Nat.mul_le_mul_right _ hle)]
  exact Nat.min_eq_left (Nat.mul_le_mul_right _ ha)

theorem memory_row {es dim : Nat} {r : Bytes} (hr : r.length = dim * es) :
    (padTo (roundUp8 dim * es) r).take (roundUp8 dim * es) = padTo (roundUp8 dim * es) r := by
  have hle : dim ≤ roundUp8 dim := (roundUp8_spec dim).1
  rw [List.take_of_length_le]
  rw [padTo_len (by rw [hr]; exact Nat.mul_le_mul_right _ hle)]

theorem aligned_le {dim n : Nat} (h : dim ≤ n) (h8 : n % 8 = 0) : roundUp8 dim ≤ n := by
  unfold roundUp8
  split <;> omega

/-- A distance between two vectors in memory, one of the queries and one of the points. -/
theorem memory_number (ftz : Bool) {U : SumTree} {e : Elem} {m : Metric} {c : DistClass} (hc : getDistance e m = .ok c) {dim qdim : Nat} {rows qrows : List Bytes}
    (hm : Spec.Matrix e.size dim rows) (hq : Spec.Matrix e.size qdim qrows) (hd : roundUp8 dim ≤ roundUp8 qdim) (H : Computes U e c dim qdim rows qrows)
    {v u : Bytes} (hv : v ∈ qrows) (hu : u ∈ rows) :
    (cmpF32 ftz U (roundUp8 dim) c ((padTo (roundUp8 qdim * e.size) v).take (roundUp8 dim * e.size)) (padTo (roundUp8 dim * e.size) u)).IsNum ∧
    (m = .l2 → BoundedRows U dim qdim rows qrows ∨ e.IsByte →
      (cmpF32 ftz U (roundUp8 dim) c ((padTo (roundUp8 qdim * e.size) v).take (roundUp8 dim * e.size)) (padTo (roundUp8 dim * e.size) u)).lt F32.fmax = true) := by
  have lv := hq v hv
  have lu := hm u hu
  rw [← memory_row lu]
  have bytes : e.IsByte → (cmpF32 ftz U (roundUp8 dim) c ((padTo (roundUp8 qdim * e.size) v).take (roundUp8 dim * e.size))
      ((padTo (roundUp8 dim * e.size) u).take (roundUp8 dim * e.size))).lt F32.fmax = true := by
    intro he
    have hc' : getDistance e .l2 = .ok c := by rcases he with rfl | rfl <;> cases m <;> first | exact hc | cases hc
    have hes : e.size = 1 := by rcases he with rfl | rfl <;> rfl
    exact byte_number ftz U he hc' (fun h => (aligned_le (H.int8 h) (by norm_num)).trans (by norm_num))
      (fun h => lt_of_le_of_lt (aligned_le (H.uint8 h) (by norm_num)) (by norm_num))
      (by rw [memory_bytes lv hd, hes, Nat.mul_one]) (by rw [memory_bytes lu (le_refl _), hes, Nat.mul_one])
  cases e with
  | int8 => exact ⟨F32.isNum_of_lt_left (bytes (Or.inl rfl)), fun _ _ => bytes (Or.inl rfl)⟩
  | uint8 => exact ⟨F32.isNum_of_lt_left (bytes (Or.inr rfl)), fun _ _ => bytes (Or.inr rfl)⟩
  | float =>
    have fv := memory_finite lv hd (finite_values H.finiteQueries hv)
    have fu := memory_finite lu (le_refl _) (finite_values H.finite hu)
    have nv := memory_length lv hd
    have nu := memory_length lu (le_refl _)
    have dot : c = .innerProduct ∨ c = .fastL2 → ∃ r, dotF32 ftz U (floatsOf ((padTo (roundUp8 qdim * 4) v).take (roundUp8 dim * 4)))
        (floatsOf ((padTo (roundUp8 dim * 4) u).take (roundUp8 dim * 4))) = .ok r ∧ Spec.Finite r := by
      intro h
      have B := H.dot h
      exact dot_finite ftz H.sums nv nu fv fu B.height B.ops ((memory_norm lv hd).trans (B.shortQueries v hv)) ((memory_norm lu (le_refl _)).trans (B.short u hu))
    have neg : c = .innerProduct ∨ c = .fastL2 → (cmpF32 ftz U (roundUp8 dim) c ((padTo (roundUp8 qdim * 4) v).take (roundUp8 dim * 4))
        ((padTo (roundUp8 dim * 4) u).take (roundUp8 dim * 4))).IsNum := by
      intro h
      obtain ⟨r, e1, h1⟩ := dot h
      have e2 : cmpF32 ftz U (roundUp8 dim) c ((padTo (roundUp8 qdim * 4) v).take (roundUp8 dim * 4)) ((padTo (roundUp8 dim * 4) u).take (roundUp8 dim * 4)) = r.neg := by
        unfold cmpF32
        rcases h with rfl | rfl <;> simp only <;> rw [e1] <;> rfl
      rw [e2]
      exact finite_isNum (neg_finite h1)
    cases m with
    | fastL2 => cases hc; exact ⟨neg (Or.inr rfl), fun h => by cases h⟩
    | innerProduct => cases hc; exact ⟨neg (Or.inl rfl), fun h => by cases h⟩
    | pq => cases hc
    | l2 =>
      cases hc
      have key : ∀ r, l2F32 ftz U (floatsOf ((padTo (roundUp8 qdim * 4) v).take (roundUp8 dim * 4))) (floatsOf ((padTo (roundUp8 dim * 4) u).take (roundUp8 dim * 4))) = .ok r →
          cmpF32 ftz U (roundUp8 dim) .l2 ((padTo (roundUp8 qdim * 4) v).take (roundUp8 dim * 4)) ((padTo (roundUp8 dim * 4) u).take (roundUp8 dim * 4)) = r := by
        intro r hr
        unfold cmpF32
        simp only
        rw [hr]
      refine ⟨?_, fun _ hB => ?_⟩
      · obtain ⟨r, e1, h1⟩ := l2_number ftz H.sums (by omega) (by omega) fv fu
        have := key r e1
        change (cmpF32 ftz U (roundUp8 dim) .l2 ((padTo (roundUp8 qdim * 4) v).take (roundUp8 dim * 4)) ((padTo (roundUp8 dim * 4) u).take (roundUp8 dim * 4))).IsNum
        rw [this]
        exact F32.isNum_of_le_right h1
      · rcases hB with B | h | h
        · obtain ⟨r, e1, h1⟩ := l2_bounded ftz H.sums nv nu fv fu B.height B.ops ((memory_norm lv hd).trans (B.shortQueries v hv)) ((memory_norm lu (le_refl _)).trans (B.short u hu))
          have := key r e1
          change (cmpF32 ftz U (roundUp8 dim) .l2 ((padTo (roundUp8 qdim * 4) v).take (roundUp8 dim * 4)) ((padTo (roundUp8 dim * 4) u).take (roundUp8 dim * 4))).lt F32.fmax = true
          rw [this]
          exact h1
        · cases h
        · cases h

/-- What an index computes as the distance between query `k` and point `i`. -/
def indexDist (ftz : Bool) (U : SumTree) (e : Elem) (c : DistClass) (dim qdim : Nat) (rows qrows : List Bytes) (k i : Nat) : F32 :=
  Spec.fileDist (cmpF32 ftz U (roundUp8 dim) c) e.size dim rows (Spec.queryVec e.size qdim (roundUp8 dim) qrows k) i

/-- **C96.** The distances of an index are numbers: for bytes always, in the dimensions that the sums allow; for `float`s and the squared distance if the values of the
files are finite; for the inner product if the vectors are not too long besides.  They are below the largest `float` if bytes are compared, or vectors that are not too long. -/
theorem C96_number (ftz : Bool) {U : SumTree} {e : Elem} {m : Metric} {c : DistClass} (hc : getDistance e m = .ok c) {dim qdim : Nat} {rows qrows : List Bytes}
    (hm : Spec.Matrix e.size dim rows) (hq : Spec.Matrix e.size qdim qrows) (hd : roundUp8 dim ≤ roundUp8 qdim) (H : Computes U e c dim qdim rows qrows)
    {k i : Nat} (hk : k < qrows.length) (hi : i < rows.length) :
    (indexDist ftz U e c dim qdim rows qrows k i).IsNum ∧
    (m = .l2 → BoundedRows U dim qdim rows qrows ∨ e.IsByte → (indexDist ftz U e c dim qdim rows qrows k i).lt F32.fmax = true) :=
  memory_number ftz hc hm hq hd H (rowAt_mem hk) (rowAt_mem hi)

theorem rows_number (ftz : Bool) {U : SumTree} {e : Elem} {m : Metric} {c : DistClass} (hc : getDistance e m = .ok c) {dim : Nat} {rows : List Bytes}
    (hm : Spec.Matrix e.size dim rows) (H : Computes U e c dim dim rows rows) {i k : Nat} (hi : i < rows.length) (hk : k < rows.length) :
    (rowDist (cmpF32 ftz U (roundUp8 dim) c) e.size dim rows i k).IsNum := by
  have h := (memory_number ftz hc hm hm (le_refl _) H (rowAt_mem hi) (rowAt_mem hk)).1
  rw [memory_row (hm _ (rowAt_mem hi))] at h
  exact h

/-- The points themselves as queries. -/
theorem Computes.self {U : SumTree} {e : Elem} {c : DistClass} {dim qdim : Nat} {rows qrows : List Bytes} (H : Computes U e c dim qdim rows qrows) :
    Computes U e c dim dim rows rows :=
  ⟨H.sums, H.finite, H.finite, H.int8, H.uint8, fun h => ⟨(H.dot h).height, (H.dot h).ops, (H.dot h).short, (H.dot h).short⟩⟩

/-- **C96 (Vamana).** C83 with the distances in `float` arithmetic: nothing is assumed about them but the values in the files. -/
theorem C96_vamana (env : BuildEnv VamanaRun) (senv : SearchEnv) (fs : FS Bytes) (argv argv2 : List Bytes) (a : VamanaArgs) (s : SearchArgs)
    (ha : vamanaArgs argv = .ok (.run a)) (hs : searchVamanaArgs argv2 = .ok (.run s))
    (h1 : s.elem = a.elem) (h2 : s.metric = a.metric) (h3 : s.index = a.save) (d : DistClass) (hd : getDistance a.elem a.metric = .ok d)
    (ftz : Bool) (U : SumTree) (dim : Nat) (hcf : env.cmp = cmpF32 ftz U (roundUp8 dim)) (hcf' : senv.cmp = cmpF32 ftz U (roundUp8 dim))
    (hsl : senv.sortL = env.sortL) (hsort : IsStrSort env.sortL) (hj : env.junk.WF) (hj' : senv.junk.WF)
    (rows : List Bytes) (b : Bytes) (labelFile : Option Bytes) (lab : Nat → List Label) (hb : fs a.data = some b)
    (hlf : LabelFileArg fs a.labels labelFile) (hin : InputOK a.elem.size dim rows b [] labelFile lab) (h10 : 10 ≤ rows.length)
    (hold : labelFile = none → fs (partName a.save .medoids) = none) (y : F32) (hy : toF32 a.alpha.text = .ok y)
    (hrun : ∀ o1, ctorObj env.sortL env.junk a.elem.size (some b) [] (labelFile.map some) = .ok o1 →
      ({ env.run with L := a.L, R := a.R } : VamanaRun).OK o1)
    (hfuel : rows.length < senv.fuel) (hsF : IsStdSort senv.sortF) (hflt : s.filters ≠ [] → labelFile ≠ none)
    (qdim : Nat) (qrows : List Bytes) (qb : Bytes) (truth : Option Truth)
    (hS : (progOf senv s s.K qdim qrows qb truth).OK a.elem.size (roundUp8 dim) fs)
    (hq : ∀ p, s.query ≠ partName a.save p) (ht : ∀ p, s.truth ≠ partName a.save p) (hK1 : 1 ≤ s.K) (hLs : ∀ L ∈ s.Ls, L < 2147483648)
    (H : Computes U a.elem d dim qdim rows qrows) :
    buildVamanaMain env argv fs = .error .loop ∨
    ∃ ops rs ops', buildVamanaMain env argv fs = .ok (.run ops) ∧ searchVamanaMain senv argv2 (runOps ops fs) = .ok (.run (rs, ops')) ∧
      (progOf senv s s.K qdim qrows qb truth).Gives (runOps ops fs) (fun _ k ids => ids.length = s.K ∧
        Spec.GraphSlots (Spec.tagOf []) (indexDist ftz U a.elem d dim qdim rows qrows k)
          (fun i => i < rows.length ∧ (s.filters ≠ [] → Matches true [48] s.filters (lab i))) s.K ids) rs ops' := by
  have h := C83_vamana env senv fs argv argv2 a s ha hs h1 h2 h3 d hd (hcf'.trans hcf.symm) hsl (fun x y => by rw [hcf]; exact C96_symmetric ftz U _ d x y)
    hsort hj hj' dim rows b labelFile lab hb hlf hin h10 hold y hy hrun hfuel hsF hflt qdim qrows qb truth hS hq ht hK1 hLs
    (fun k hk i hi => by rw [hcf]; exact (C96_number ftz hd hin.matrix hS.queries.matrix hS.dim H hk hi).1)
  rw [hcf] at h
  exact h

/-- **C96 (RelativeNG).** -/
theorem C96_relng (env : BuildEnv RngRun) (senv : SearchEnv) (j0 : Junk) (fs : FS Bytes) (argv argv2 : List Bytes) (a : RngArgs) (s : SearchArgs)
    (ha : rngArgs argv = .ok (.run a)) (hs : searchRngArgs argv2 = .ok (.run s))
    (h1 : s.elem = a.elem) (h2 : s.metric = a.metric) (h3 : s.index = a.save) (d : DistClass) (hd : getDistance a.elem a.metric = .ok d)
    (ftz : Bool) (U : SumTree) (dim : Nat) (hcf : env.cmp = cmpF32 ftz U (roundUp8 dim)) (hcf' : senv.cmp = cmpF32 ftz U (roundUp8 dim))
    (hsl : senv.sortL = env.sortL) (hsort : IsStrSort env.sortL) (hj : env.junk.WF) (hj' : senv.junk.WF) (hj0 : j0.WF)
    (rows : List Bytes) (b : Bytes) (lab : Nat → List Label) (hb : fs a.data = some b)
    (hin : InputOK a.elem.size dim rows b [] none lab) (h10 : 10 ≤ rows.length) (hrun : env.run.OK)
    (dim2 : Nat) (rows2 : List Bytes) (b2 : Bytes) (lab2 : Nat → List Label) (hb2 : fs s.data = some b2)
    (hin2 : InputOK a.elem.size dim2 rows2 b2 [] none lab2)
    (hfuel : rows.length < senv.fuel) (hsF : IsStdSort senv.sortF)
    (qdim : Nat) (qrows : List Bytes) (qb : Bytes) (truth : Option Truth)
    (hS : (progOf senv s s.K qdim qrows qb truth).OK a.elem.size (roundUp8 dim) fs)
    (hq : ∀ p, s.query ≠ partName a.save p) (ht : ∀ p, s.truth ≠ partName a.save p) (hpd : ∀ p, s.data ≠ partName a.save p)
    (hK1 : 1 ≤ s.K) (hLs : ∀ L ∈ s.Ls, L < 2147483648) (H : Computes U a.elem d dim qdim rows qrows) :
    ∃ ops rs ops', buildRngMain env argv fs = .ok (.run ops) ∧ searchRngMain senv j0 argv2 (runOps ops fs) = .ok (.run (rs, ops')) ∧
      (progOf senv s s.K qdim qrows qb truth).Gives (runOps ops fs) (fun _ k ids => ids.length = s.K ∧
        Spec.GraphSlots (Spec.tagOf []) (indexDist ftz U a.elem d dim qdim rows qrows k) (fun i => i < rows.length) s.K ids) rs ops' := by
  have h := C83_relng env senv j0 fs argv argv2 a s ha hs h1 h2 h3 d hd (hcf'.trans hcf.symm) hsl (fun x y => by rw [hcf]; exact C96_symmetric ftz U _ d x y)
    hsort hj hj' hj0 dim rows b lab hb hin h10 hrun dim2 rows2 b2 lab2 hb2 hin2 hfuel hsF qdim qrows qb truth hS hq ht hpd hK1 hLs
    (fun k hk i hi => by rw [hcf]; exact (C96_number ftz hd hin.matrix hS.queries.matrix hS.dim H hk hi).1)
  rw [hcf] at h
  exact h

attribute [local irreducible] topLevel in
/-- **C96 (HNSW).** -/
theorem C96_hnsw (env : BuildEnv HnswEnv) (senv : SearchEnv) (fs : FS Bytes) (argv argv2 : List Bytes) (a : HnswArgs) (s : SearchArgs)
    (ha : hnswArgs argv = .ok (.run a)) (hs : searchHnswArgs argv2 = .ok (.run s))
    (h1 : s.elem = a.elem) (h2 : s.metric = a.metric) (h3 : s.index = a.save) (h4 : s.levels = a.levels)
    (d : DistClass) (hd : getDistance a.elem a.metric = .ok d)
    (ftz : Bool) (U : SumTree) (dim : Nat) (hcf : env.cmp = cmpF32 ftz U (roundUp8 dim)) (hcf' : senv.cmp = cmpF32 ftz U (roundUp8 dim))
    (hsl : senv.sortL = env.sortL) (hsort : IsStrSort env.sortL) (hj : env.junk.WF) (hj' : senv.junk.WF) (hjs : ∀ k, (env.run.junk k).WF)
    (rows : List Bytes) (b : Bytes) (lab : Nat → List Label) (hb : fs a.data = some b)
    (hin : InputOK a.elem.size dim rows b [] none lab)
    (y : F32) (hy : toF32 a.samplingRate.text = .ok y) (hsz : LevelSizes (hnswUps env.run y (topLevel a.levels)) rows.length)
    (hL1 : 1 ≤ a.L) (hL2 : Spec.ListFits rows.length a.L) (hsFb : IsStdSort env.run.sortF)
    (hfuel : rows.length < senv.fuel) (hsF : IsStdSort senv.sortF)
    (qdim : Nat) (qrows : List Bytes) (qb : Bytes) (truth : Option Truth)
    (hS : (progOf senv s s.K qdim qrows qb truth).OK a.elem.size (roundUp8 dim) fs)
    (hq : ∀ p, s.query ≠ levelName a.save p) (ht : ∀ p, s.truth ≠ levelName a.save p) (hq' : s.query ≠ tmpName) (ht' : s.truth ≠ tmpName)
    (hK1 : 1 ≤ s.K) (hLs : ∀ L ∈ s.Ls, L < 2147483648) (H : Computes U a.elem d dim qdim rows qrows) :
    buildHnswMain env argv fs = .error .loop ∨
    ∃ ops rs ops', buildHnswMain env argv fs = .ok (.run ops) ∧ searchHnswMain senv argv2 (runOps ops fs) = .ok (.run (rs, ops')) ∧
      (progOf senv s s.K qdim qrows qb truth).Gives (runOps ops fs) (fun _ k ids => ids.length = s.K ∧
        Spec.GraphSlots (Spec.tagOf []) (indexDist ftz U a.elem d dim qdim rows qrows k) (fun i => i < rows.length) s.K ids) rs ops' := by
  have h := C83_hnsw env senv fs argv argv2 a s ha hs h1 h2 h3 h4 d hd (hcf'.trans hcf.symm) hsl (fun x y => by rw [hcf]; exact C96_symmetric ftz U _ d x y)
    hsort hj hj' hjs dim rows b lab hb hin (fun i k hi hk => by rw [hcf]; exact rows_number ftz hd hin.matrix H.self hi hk) y hy hsz hL1 hL2 hsFb hfuel hsF
    qdim qrows qb truth hS hq ht hq' ht' hK1 hLs
    (fun k hk i hi => by rw [hcf]; exact (C96_number ftz hd hin.matrix hS.queries.matrix hS.dim H hk hi).1)
  rw [hcf] at h
  exact h

/-- **C96 (LSH).** -/
theorem C96_lsh (env : BuildEnv LshDraw) (senv : SearchEnv) (jl : LshJunk) (fs : FS Bytes) (argv argv2 : List Bytes)
    (a : ListArgs Nat) (s : SearchArgs)
    (ha : lshArgs argv = .ok (.run a)) (hs : searchLshArgs argv2 = .ok (.run s)) (h1 : s.elem = a.elem) (h3 : s.index = a.save)
    (d : DistClass) (hd : getDistance a.elem .l2 = .ok d)
    (ftz : Bool) (U : SumTree) (dim : Nat) (hcf : env.cmp = cmpF32 ftz U (roundUp8 dim)) (hcf' : senv.cmp = cmpF32 ftz U (roundUp8 dim))
    (hsl : senv.sortL = env.sortL) (hsort : IsStrSort env.sortL) (hj : env.junk.WF) (hj' : senv.junk.WF) (hjl : jl.WF)
    (rows : List Bytes) (b : Bytes) (labelFile : Option Bytes) (lab : Nat → List Label) (hb : fs a.data = some b)
    (hlf : LabelFileArg fs a.labels labelFile) (hin : InputOK a.elem.size dim rows b [] labelFile lab)
    (hts : a.last ≤ 64) (hw : ∀ t i, (env.run.hp (roundUp8 dim) t i).length = roundUp8 dim * 4) (hflt : s.filters ≠ [] → labelFile ≠ none)
    (qdim : Nat) (qrows : List Bytes) (qb : Bytes) (truth : Option Truth)
    (hS : (progOf senv s 1 qdim qrows qb truth).OK a.elem.size (roundUp8 dim) fs)
    (hq : ∀ p, s.query ≠ partName a.save p) (hq' : s.query ≠ lshName a.save) (ht : ∀ p, s.truth ≠ partName a.save p) (ht' : s.truth ≠ lshName a.save)
    (hK1 : 1 ≤ s.K) (hK : s.K ≤ 2147483648)
    (H : Computes U a.elem d dim qdim rows qrows) (B : BoundedRows U dim qdim rows qrows ∨ a.elem.IsByte) :
    ∃ ops r ops', buildLshMain env argv fs = .ok (.run ops) ∧ searchLshMain senv jl env.run.dot argv2 (runOps ops fs) = .ok (.run (r, ops')) ∧
      (progOf senv s 1 qdim qrows qb truth).Gives (runOps ops fs) (fun _ k ids => ∃ A : Finset Nat,
        (∀ i, i ∈ A ↔ i < rows.length ∧ SameSide env.run.dot (env.run.hps (roundUp8 dim) a.num a.last) a.elem.size dim rows
            (Spec.queryVec a.elem.size qdim (roundUp8 dim) qrows k) i ∧ Matches true [48] s.filters (lab i)) ∧
        KNearest s.K A (indexDist ftz U a.elem d dim qdim rows qrows k)
          (ids.map (fun i => (i, indexDist ftz U a.elem d dim qdim rows qrows k i)))) [r] ops' := by
  have h := C83_lsh env senv jl fs argv argv2 a s ha hs h1 h3 d hd (hcf'.trans hcf.symm) hsl hsort hj hj' hjl dim rows b labelFile lab hb hlf hin hts hw hflt
    qdim qrows qb truth hS hq hq' ht ht' hK1 hK
    (fun k hk i hi => by rw [hcf]; exact (C96_number ftz hd hin.matrix hS.queries.matrix hS.dim H hk hi).2 rfl B)
  rw [hcf] at h
  exact h

/-- **C96 (IVF).** -/
theorem C96_ivf (env : BuildEnv IvfTrain) (senv : SearchEnv) (pops : List F32 → List Nat) (fs : FS Bytes) (argv argv2 : List Bytes)
    (a : ListArgs F32) (s : SearchArgs)
    (ha : ivfArgs argv = .ok (.run a)) (hs : searchIvfArgs argv2 = .ok (.run s)) (h1 : s.elem = a.elem) (h3 : s.index = a.save)
    (d : DistClass) (hd : getDistance a.elem .l2 = .ok d)
    (ftz : Bool) (U : SumTree) (dim : Nat) (hcf : env.cmp = cmpF32 ftz U (roundUp8 dim)) (hcf' : senv.cmp = cmpF32 ftz U (roundUp8 dim))
    (hsl : senv.sortL = env.sortL) (hsort : IsStrSort env.sortL) (hj : env.junk.WF) (hj' : senv.junk.WF)
    (rows : List Bytes) (b : Bytes) (labelFile : Option Bytes) (lab : Nat → List Label) (hb : fs a.data = some b)
    (hlf : LabelFileArg fs a.labels labelFile) (hin : InputOK a.elem.size dim rows b [] labelFile lab) (hdim : dim ≤ 4294967288)
    (y : F32) (hy : toF32 a.last.text = .ok y) (cs : Bytes) (crows : List Bytes)
    (htrain : ∀ o1, ctorObj env.sortL env.junk a.elem.size (some b) [] (labelFile.map some) = .ok o1 → env.run.train a.num y o1 = .ok cs)
    (hrun : (⟨a.num, cs, env.run.pops, env.run.sched⟩ : IvfRun).OK (roundUp8 dim) crows)
    (hcd : ∀ i, i < rows.length → CentreRow a.num (env.run.cdist cs a.num (roundUp8 dim) (Spec.padTo (roundUp8 dim * a.elem.size) (rows.getD i []))))
    (hpops : IsPopOrder pops) (hflt : s.filters ≠ [] → labelFile ≠ none)
    (qdim : Nat) (qrows : List Bytes) (qb : Bytes) (truth : Option Truth)
    (hS : (progOf senv s 1 qdim qrows qb truth).OK a.elem.size (roundUp8 dim) fs)
    (hq : ∀ p, s.query ≠ ivfName a.save p) (ht : ∀ p, s.truth ≠ ivfName a.save p) (hK1 : 1 ≤ s.K) (hK : s.K ≤ 2147483648) (hLs : ∀ L ∈ s.Ls, L ≤ a.num)
    (hcq : ∀ k, k < qrows.length → CentreRow a.num (env.run.cdist cs a.num (roundUp8 dim) (Spec.queryVec a.elem.size qdim (roundUp8 dim) qrows k)))
    (H : Computes U a.elem d dim qdim rows qrows) (B : BoundedRows U dim qdim rows qrows ∨ a.elem.IsByte) :
    ∃ ops rs ops', buildIvfMain env argv fs = .ok (.run ops) ∧
      searchIvfMain senv env.run.cdist pops argv2 (runOps ops fs) = .ok (.run (rs, ops')) ∧
      (progOf senv s 1 qdim qrows qb truth).Gives (runOps ops fs) (fun L k ids =>
        ids.Nodup ∧ (∀ i ∈ ids, i < rows.length ∧ Matches true [48] s.filters (lab i)) ∧
        ids.Pairwise (fun i i' => (indexDist ftz U a.elem d dim qdim rows qrows k i).le (indexDist ftz U a.elem d dim qdim rows qrows k i') = true) ∧
        (L = a.num → KNearest s.K ((Finset.range rows.length).filter (fun i => Matches true [48] s.filters (lab i)))
          (indexDist ftz U a.elem d dim qdim rows qrows k) (ids.map (fun i => (i, indexDist ftz U a.elem d dim qdim rows qrows k i)))) ∧
        _root_.Spec.ClusterAnswer a.num L (env.run.cdist cs a.num (roundUp8 dim) (Spec.queryVec a.elem.size qdim (roundUp8 dim) qrows k))
          (fun i => env.run.cdist cs a.num (roundUp8 dim) (Spec.padTo (roundUp8 dim * a.elem.size) (rows.getD i []))) rows.length
          (fun i => Matches true [48] s.filters (lab i)) s.K (indexDist ftz U a.elem d dim qdim rows qrows k) ids) rs ops' := by
  have h := C83_ivf env senv pops fs argv argv2 a s ha hs h1 h3 d hd (hcf'.trans hcf.symm) hsl hsort hj hj' dim rows b labelFile lab hb hlf hin hdim y hy cs crows
    htrain hrun hcd hpops hflt qdim qrows qb truth hS hq ht hK1 hK hLs
    (fun k hk => ⟨fun i hi => by rw [hcf]; exact (C96_number ftz hd hin.matrix hS.queries.matrix hS.dim H hk hi).2 rfl B, hcq k hk⟩)
  rw [hcf] at h
  exact h

/-! ## Exact distances -/

/-- Dimensions in which sums of squares of bytes do not overflow. -/
def WideByteDim (e : Elem) (dim : Nat) : Prop := (e = .int8 ∧ dim ≤ 33024) ∨ (e = .uint8 ∧ dim ≤ 66048)

/-- **C96.** The distances of an index of bytes are the exact ones up to one rounding. -/
theorem C96_bytes (ftz : Bool) (U : SumTree) {e : Elem} {dim : Nat} (hd : WideByteDim e dim) {c : DistClass} (hc : getDistance e .l2 = .ok c)
    {rows qrows : List Bytes} (hr : Spec.Matrix e.size dim rows) (hq : Spec.Matrix e.size dim qrows) :
    IndexClose (cmpF32 ftz U (roundUp8 dim) c) e dim rows qrows (fun k i => exactSq e dim rows qrows k i * 2 ^ (-24 : Int)) := by
  have he : e.IsByte := by rcases hd with ⟨rfl, _⟩ | ⟨rfl, _⟩ <;> [exact Or.inl rfl; exact Or.inr rfl]
  have hes : e.size = 1 := by rcases he with rfl | rfl <;> rfl
  intro k hk i hi
  rw [queryVec_row hq hk]
  have ha : (rowAt qrows k).length = dim := by rw [hq _ (rowAt_mem hk), hes, Nat.mul_one]
  have hb : (rowAt rows i).length = dim := by rw [hr _ (rowAt_mem hi), hes, Nat.mul_one]
  change Spec.Finite (cmpF32 ftz U (roundUp8 dim) c (padTo (roundUp8 dim * e.size) (rowAt qrows k)) (padTo (roundUp8 dim * e.size) (rowAt rows i))) ∧
    (cmpF32 ftz U (roundUp8 dim) c (padTo (roundUp8 dim * e.size) (rowAt qrows k)) (padTo (roundUp8 dim * e.size) (rowAt rows i))).lt F32.fmax = true ∧
    |value (cmpF32 ftz U (roundUp8 dim) c (padTo (roundUp8 dim * e.size) (rowAt qrows k)) (padTo (roundUp8 dim * e.size) (rowAt rows i))) -
      fileSq e dim (rowAt qrows k) (rowAt rows i)| ≤ fileSq e dim (rowAt qrows k) (rowAt rows i) * 2 ^ (-24 : Int)
  generalize rowAt qrows k = a at *
  generalize rowAt rows i = b at *
  have hle : dim ≤ roundUp8 dim := (roundUp8_spec dim).1
  have hs := sqInt_bytes e dim a b (byte_diff he a b)
  have hs0 := sqInt_nonneg (byteCoords e dim a) (byteCoords e dim b)
  have hs32 : (sqInt (byteCoords e dim a) (byteCoords e dim b)).toNat < 4294967296 := by rcases hd with h | h <;> omega
  have key : cmpF32 ftz U (roundUp8 dim) c (padTo (roundUp8 dim * e.size) a) (padTo (roundUp8 dim * e.size) b) =
      F32.ofNat (sqInt (byteCoords e dim a) (byteCoords e dim b)).toNat := by
    rw [hes, Nat.mul_one]
    have la : ((padTo (roundUp8 dim) a).map UInt8.toBitVec).length = roundUp8 dim := by rw [List.length_map, padTo_len (by omega)]
    have lb : ((padTo (roundUp8 dim) b).map UInt8.toBitVec).length = roundUp8 dim := by rw [List.length_map, padTo_len (by omega)]
    rcases hd with ⟨rfl, hd⟩ | ⟨rfl, hd⟩
    · cases hc
      have hn := aligned_le hd (by norm_num)
      have h1 := C50_int8_exact ((padTo (roundUp8 dim) a).map UInt8.toBitVec) ((padTo (roundUp8 dim) b).map UInt8.toBitVec) (roundUp8 dim) (by omega)
        (by omega) (by omega)
      rw [funext (sbyte_coord _ a), funext (sbyte_coord _ b), sqDist_coords _ ha hb hle] at h1
      unfold cmpF32 byteCompare l2Int8F
      simp only
      rw [h1]
      rfl
    · cases hc
      have hn := aligned_le hd (by norm_num)
      have h1 := C50_uint8_exact ((padTo (roundUp8 dim) a).map UInt8.toBitVec) ((padTo (roundUp8 dim) b).map UInt8.toBitVec) (roundUp8 dim) (by omega)
        (by omega) (by omega)
      rw [funext (ubyte_coord _ a), funext (ubyte_coord _ b), sqDist_coords _ ha hb hle] at h1
      unfold cmpF32 byteCompare l2UInt8F
      simp only
      rw [h1]
      rfl
  have hnat : (((sqInt (byteCoords e dim a) (byteCoords e dim b)).toNat : Nat) : ℚ) = fileSq e dim a b := by
    rw [← sqInt_file he]
    exact_mod_cast Int.toNat_of_nonneg hs0
  have hnear := ofNat_near hs32
  rw [hnat] at hnear
  rw [key]
  exact ⟨(ofNat_number _ hs32).1, (ofNat_number _ hs32).2, hnear⟩

/-- **C96.** The slots of a query are sorted by the exact distances, up to the errors of the computed ones. -/
theorem C96_slots {tag : Nat → Nat} {ftz : Bool} {U : SumTree} {e : Elem} {c : DistClass} {dim : Nat} {rows qrows : List Bytes} {E : Nat → Nat → ℚ}
    (hI : IndexClose (cmpF32 ftz U (roundUp8 dim) c) e dim rows qrows E) {k : Nat} (hk : k < qrows.length) {good : Nat → Prop} (hg : ∀ i, good i → i < rows.length)
    {K : Nat} {s : List Nat} (h : Spec.GraphSlots tag (indexDist ftz U e c dim dim rows qrows k) good K s) :
    ∃ ids : List Nat, ids.Nodup ∧ (∀ i ∈ ids, good i) ∧
      ids.Pairwise (fun i j => exactSq e dim rows qrows k i ≤ exactSq e dim rows qrows k j + (E k i + E k j)) ∧ ids.length ≤ K ∧
      s = ids.map tag ++ List.replicate (K - ids.length) (tag 0) := by
  obtain ⟨ids, h1, h2, h3, h4, h5⟩ := h
  refine ⟨ids, h1, h2, ?_, h4, h5⟩
  refine h3.imp_of_mem (fun {i j} hi hj hij => ?_)
  obtain ⟨a1, -, a3⟩ := hI k hk i (hg i (h2 i hi))
  obtain ⟨b1, -, b3⟩ := hI k hk j (hg j (h2 j hj))
  have := (le_iff_value a1 b1).1 hij
  have := (abs_le.1 a3).1
  have := (abs_le.1 b3).2
  linarith

/-! ## Examples -/

theorem exComputes (rows : List Bytes) : Computes (serial 8) .uint8 .l2UInt8 1 1 rows [[51], [55]] :=
  ⟨serial_sums 8, fun h => (by cases h), fun h => (by cases h), fun h => (by cases h), fun _ => by decide, fun h => by rcases h with h | h <;> cases h⟩

/-- The search programs with the real distances. -/
def exRealSearch (n : Nat) : SearchEnv := { exSearchEnv with fuel := n, cmp := cmpF32 true (serial 8) 8 }

def exRealVamana : BuildEnv VamanaRun := { exBuildEnv with cmp := cmpF32 true (serial 8) 8 }

theorem exRealVamana_run : buildVamanaMain exRealVamana exBuildLine exCmdFs = .error .loop ∨
    ∃ ops rs ops', buildVamanaMain exRealVamana exBuildLine exCmdFs = .ok (.run ops) ∧
      searchVamanaMain (exRealSearch 11) exSearchLine (runOps ops exCmdFs) = .ok (.run (rs, ops')) := by
  rcases C96_vamana exRealVamana (exRealSearch 11) exCmdFs exBuildLine exSearchLine ⟨.uint8, .l2, ascii "d", ascii "t", ascii "i", 2, 4, F32.one, 8⟩
    ⟨.uint8, .l2, [], ascii "i", 1, ascii "q", ascii "g", 2, ascii "r", [], [1, 3, 4]⟩ (by decide +kernel) (by decide +kernel) rfl rfl rfl .l2UInt8 rfl
    true (serial 8) 1 rfl rfl rfl exStrSort_isStrSort exJunk_WF exJunk_WF exRows10 exFile10 (some exLabels10) exLab exCmdFs_q.2.2.1
    (Or.inr ⟨by decide, by simp, exCmdFs_q.2.2.2⟩) exInput10 (by decide) (fun h => by cases h) F32.one (by decide +kernel)
    (fun o1 h => by
      have k := exRun_ok o1 h
      exact ⟨(by decide : 1 ≤ 4), Spec.ListFits.of_le (by decide : 4 ≤ 2147483648), (by decide : 2 < 4294967296), k.sortF, k.sortOut, k.sortIn, k.orderNodup, k.orderLen, k.order⟩)
    (by decide) exSort_isStdSort (by simp) 1 [[51], [55]] exQueries (some ⟨2, 2, [1, 0, 4, 2], none⟩)
    (exProgOK 11 exCmdFs exCmdFs_q.1 exCmdFs_q.2.1 _ 2 rfl rfl rfl (by simp) ⟨3, by simp, by decide⟩)
    (fun p => (exCmdNames p).1) (fun p => (exCmdNames p).2.1) (by decide) (by simp) (exComputes _) with h | ⟨ops, rs, ops', h1, h2, -⟩
  · exact Or.inl h
  · exact Or.inr ⟨ops, rs, ops', h1, h2⟩

def exRealRng : BuildEnv RngRun := { exRngEnv with cmp := cmpF32 true (serial 8) 8 }

example : ∃ ops rs ops', buildRngMain exRealRng exRngLine exCmdFs = .ok (.run ops) ∧
    searchRngMain (exRealSearch 11) exJunk exRngSearchLine (runOps ops exCmdFs) = .ok (.run (rs, ops')) :=
  let ⟨ops, rs, ops', h1, h2, _⟩ := C96_relng exRealRng (exRealSearch 11) exJunk exCmdFs exRngLine exRngSearchLine ⟨.uint8, .l2, ascii "d", ascii "i", 8⟩
    ⟨.uint8, .l2, ascii "d", ascii "i", 1, ascii "q", ascii "g", 2, ascii "r", [], [1, 3]⟩ (by decide +kernel) (by decide +kernel) rfl rfl rfl .l2UInt8 rfl
    true (serial 8) 1 rfl rfl rfl exStrSort_isStrSort exJunk_WF exJunk_WF exJunk_WF exRows10 exFile10 exLab exCmdFs_q.2.2.1
    ⟨exInput10.file, exInput10.matrix, exInput10.size, exInput10.few, exInput10.dims, exInput10.bytes, Or.inl rfl, by simp, fun lf h => (by cases h)⟩ (by decide)
    ⟨exSort_isStdSort, insertionSort_sortsBy id, insertionSort_sortsBy Prod.snd⟩ 1 exRows10 exFile10 exLab exCmdFs_q.2.2.1
    ⟨exInput10.file, exInput10.matrix, exInput10.size, exInput10.few, exInput10.dims, exInput10.bytes, Or.inl rfl, by simp, fun lf h => (by cases h)⟩ (by decide)
    exSort_isStdSort 1 [[51], [55]] exQueries (some ⟨2, 2, [1, 0, 4, 2], none⟩)
    (exProgOK 11 exCmdFs exCmdFs_q.1 exCmdFs_q.2.1 _ 2 rfl rfl rfl (by simp) ⟨3, by simp, by decide⟩)
    (fun p => (exCmdNames p).1) (fun p => (exCmdNames p).2.1) (fun p => (exCmdNames p).2.2) (by decide) (by simp) (exComputes _)
  ⟨ops, rs, ops', h1, h2⟩

/-- The nearest points, for both queries; the recall is 100 percent. -/
example : (exBoth ["r_1_idx_uint32.bin", "r_3_idx_uint32.bin"] (buildRngMain exRealRng exRngLine) (searchRngMain (exRealSearch 11) exJunk exRngSearchLine)).map
    (fun c => match c with
    | .run (rs, files) => (rs.map (fun r => r.map (fun v => v.1 == 100 * v.2)), files)
    | _ => ([], [])) = .ok ([some true], [none, some (le 4 2 ++ le 4 2 ++ le32s [1, 0, 4, 2])]) := by
  decide +kernel

def exRealHnsw : BuildEnv HnswEnv := { exHnswEnv with cmp := cmpF32 true (serial 8) 8 }

example : buildHnswMain exRealHnsw exHnswLine exCmdFs12 = .error .loop ∨ ∃ ops rs ops', buildHnswMain exRealHnsw exHnswLine exCmdFs12 = .ok (.run ops) ∧
    searchHnswMain (exRealSearch 13) exHnswSearchLine (runOps ops exCmdFs12) = .ok (.run (rs, ops')) := by
  have hd : ∀ c, ∀ p : Nat × Part, [c] ≠ levelName (ascii "i") p := by
    rintro c ⟨n, p⟩ h
    have := congrArg List.length h
    have h2 : (ascii "i").length = 1 := by decide +kernel
    have h3 : (ascii "_").length = 1 := by decide +kernel
    cases p <;> simp only [levelName, partName, List.length_append, List.length_singleton, h2, h3] at this <;> omega
  have h1 : exCmdFs12 (ascii "q") = some exQueries ∧ exCmdFs12 (ascii "g") = some exQueryTruth ∧ exCmdFs12 (ascii "e") = some exFile12 := by decide +kernel
  rcases C96_hnsw exRealHnsw (exRealSearch 13) exCmdFs12 exHnswLine exHnswSearchLine
    ⟨.uint8, .l2, ascii "e", ascii "i", 3, 4, 0, ⟨0x3f000000#32⟩, 2, 8⟩
    ⟨.uint8, .l2, [], ascii "i", 2, ascii "q", ascii "g", 2, ascii "r", [], [1, 3]⟩ (by decide +kernel) (by decide +kernel) rfl rfl rfl rfl .l2UInt8 rfl
    true (serial 8) 1 rfl rfl rfl exStrSort_isStrSort exJunk_WF exJunk_WF (fun _ => exJunk_WF) exRows12 exFile12 exLab h1.2.2 exInput12
    ⟨0x3f000000#32⟩ (by decide +kernel) exHnsw_sizes (by decide) (by decide) exSort_isStdSort (by decide)
    exSort_isStdSort 1 [[51], [55]] exQueries (some ⟨2, 2, [1, 0, 4, 2], none⟩)
    (exProgOK 13 exCmdFs12 h1.1 h1.2.1 _ 2 rfl rfl rfl (by simp) ⟨3, by simp, by decide⟩)
    (hd _) (hd _) (by decide +kernel) (by decide +kernel) (by decide) (by simp) (exComputes _) with h | ⟨ops, rs, ops', g1, g2, -⟩
  · exact Or.inl h
  · exact Or.inr ⟨ops, rs, ops', g1, g2⟩

def exRealLsh : BuildEnv LshDraw := { exLshEnv with cmp := cmpF32 true (serial 8) 8 }

example : ∃ ops r ops', buildLshMain exRealLsh exLshLine exCmdFs = .ok (.run ops) ∧
    searchLshMain (exRealSearch 11) exLshJunk exDotB exLshSearchLine (runOps ops exCmdFs) = .ok (.run (r, ops')) :=
  let ⟨ops, r, ops', h1, h2, _⟩ := C96_lsh exRealLsh (exRealSearch 11) exLshJunk exCmdFs exLshLine exLshSearchLine ⟨.uint8, ascii "d", ascii "t", ascii "i", 2, 2⟩
    ⟨.uint8, .l2, [], ascii "i", 1, ascii "q", ascii "g", 2, ascii "r", [ascii "a"], [1]⟩ (by decide +kernel) (by decide +kernel) rfl rfl .l2UInt8 rfl
    true (serial 8) 1 rfl rfl rfl
    exStrSort_isStrSort exJunk_WF exJunk_WF ⟨rfl, rfl⟩ exRows10 exFile10 (some exLabels10) exLab exCmdFs_q.2.2.1 (Or.inr ⟨by decide, by simp, exCmdFs_q.2.2.2⟩)
    exInput10 (by decide) (fun t i => List.takeD_length _ _ _) (by simp) 1 [[51], [55]] exQueries (some ⟨2, 2, [1, 0, 4, 2], none⟩)
    (exProgOK 11 exCmdFs exCmdFs_q.1 exCmdFs_q.2.1 _ 1 rfl rfl rfl (by simp) ⟨1, by simp, by decide⟩)
    (fun p => (exCmdNames p).1) (by decide +kernel) (fun p => (exCmdNames p).2.1) (by decide +kernel) (by decide) (by decide) (exComputes _) (Or.inr (Or.inr rfl))
  ⟨ops, r, ops', h1, h2⟩

def exRealIvf : BuildEnv IvfTrain := { exIvfEnv with cmp := cmpF32 true (serial 8) 8 }

example : ∃ ops rs ops', buildIvfMain exRealIvf exIvfLine exCmdFs = .ok (.run ops) ∧
    searchIvfMain (exRealSearch 11) exCdist exPops exIvfSearchLine (runOps ops exCmdFs) = .ok (.run (rs, ops')) :=
  let ⟨ops, rs, ops', h1, h2, _⟩ := C96_ivf exRealIvf (exRealSearch 11) exPops exCmdFs exIvfLine exIvfSearchLine ⟨.uint8, ascii "d", ascii "t", ascii "i", 2, ⟨0x3f000000#32⟩⟩
    ⟨.uint8, .l2, [], ascii "i", 1, ascii "q", ascii "g", 2, ascii "r", [ascii "a"], [1, 2]⟩ (by decide +kernel) (by decide +kernel) rfl rfl .l2UInt8 rfl
    true (serial 8) 1 rfl rfl rfl
    exStrSort_isStrSort exJunk_WF exJunk_WF exRows10 exFile10 (some exLabels10) exLab exCmdFs_q.2.2.1 (Or.inr ⟨by decide, by simp, exCmdFs_q.2.2.2⟩)
    exInput10 (by decide) ⟨0x3f000000#32⟩ (by decide +kernel) exCrows.flatten exCrows (fun _ _ => rfl)
    ⟨by decide, by decide, rfl, by unfold Spec.Matrix; decide, rfl, by decide +kernel, exPops_isPopOrder, fun _ l => l.reverse_perm⟩
    (by
      have h : ∀ i < 10, ((exCdist exIvfRun.centers 2 8 (Spec.padTo 8 (exRows10.getD i []))).length = 2 ∧
        (∀ x ∈ exCdist exIvfRun.centers 2 8 (Spec.padTo 8 (exRows10.getD i [])), x.IsNum) ∧
        ∃ x ∈ exCdist exIvfRun.centers 2 8 (Spec.padTo 8 (exRows10.getD i [])), x.lt F32.fmax = true) := by decide +kernel
      exact fun i hi => ⟨(h i hi).1, (h i hi).2.1, (h i hi).2.2⟩)
    exPops_isPopOrder (by simp) 1 [[51], [55]] exQueries (some ⟨2, 2, [1, 0, 4, 2], none⟩)
    (exProgOK 11 exCmdFs exCmdFs_q.1 exCmdFs_q.2.1 _ 1 rfl rfl rfl (by simp) ⟨2, by simp, by decide⟩)
    (by
      rintro (- | p)
      · decide +kernel
      · exact (exCmdNames p).1)
    (by
      rintro (- | p)
      · decide +kernel
      · exact (exCmdNames p).2.1) (by decide) (by decide) (by simp)
    (by
      have h : ∀ k < 2, ((exCdist exIvfRun.centers 2 8 (Spec.queryVec 1 1 8 [[51], [55]] k)).length = 2 ∧
        (∀ x ∈ exCdist exIvfRun.centers 2 8 (Spec.queryVec 1 1 8 [[51], [55]] k), x.IsNum) ∧
        ∃ x ∈ exCdist exIvfRun.centers 2 8 (Spec.queryVec 1 1 8 [[51], [55]] k), x.lt F32.fmax = true) := by decide +kernel
      exact fun k hk => ⟨(h k hk).1, (h k hk).2.1, (h k hk).2.2⟩) (exComputes _) (Or.inr (Or.inr rfl))
  ⟨ops, rs, ops', h1, h2⟩

/-- `float` files and the inner product: two queries and ten points. -/
example : (indexDist true (serial 8) .float .innerProduct 1 1 exFloatRows exFloatQueries 1 3).IsNum :=
  (C96_number true (m := .innerProduct) rfl (by unfold Spec.Matrix; decide +kernel) (by unfold Spec.Matrix; decide +kernel) (by decide)
    ⟨serial_sums 8, fun _ => by unfold Spec.Finite; decide +kernel, fun _ => by unfold Spec.Finite; decide +kernel, fun h => (by cases h), fun h => (by cases h),
      fun _ => ⟨by decide, by decide, by decide +kernel, by decide +kernel⟩⟩ (by decide) (by decide)).1

/-- The condition for the inner product is needed: finite values, 2^100 twice and 2^100 and -2^100, whose products add up to infinity minus infinity. -/
example : cmpF32 true (serial 8) 8 .innerProduct (padTo 32 ([0, 0, 128, 113] ++ [0, 0, 128, 113])) (padTo 32 ([0, 0, 128, 113] ++ [0, 0, 128, 241])) = F32.nan.neg ∧
    ¬ F32.nan.neg.IsNum := by decide +kernel

/-- The order of computed distances, for any points of signed bytes in 1000 dimensions. -/
example (U : SumTree) (rows qrows : List Bytes) (hr : Spec.Matrix 1 1000 rows) (hq : Spec.Matrix 1 1000 qrows) :=
  C96_bytes true U (e := .int8) (dim := 1000) (Or.inl ⟨rfl, by decide⟩) rfl hr hq

example : ∃ ids : List Nat, ids.Nodup ∧ (∀ i ∈ ids, i < 10) ∧
    ids.Pairwise (fun i j => exactSq .uint8 1 exRows10 [[51], [55]] 0 i ≤ exactSq .uint8 1 exRows10 [[51], [55]] 0 j +
      (exactSq .uint8 1 exRows10 [[51], [55]] 0 i * 2 ^ (-24 : Int) + exactSq .uint8 1 exRows10 [[51], [55]] 0 j * 2 ^ (-24 : Int))) ∧ ids.length ≤ 2 ∧
    [1, 0] = ids.map (Spec.tagOf []) ++ List.replicate (2 - ids.length) (Spec.tagOf [] 0) :=
  C96_slots (ftz := true) (U := serial 8) (e := .uint8) (c := .l2UInt8) (dim := 1) (rows := exRows10) (qrows := [[51], [55]]) (k := 0) (good := fun i => i < 10)
    (C96_bytes true (serial 8) (Or.inr ⟨rfl, by decide⟩) rfl (by unfold Spec.Matrix; decide) (by unfold Spec.Matrix; decide)) (by decide) (fun _ h => h)
    ⟨[1, 0], by decide, by decide, by decide +kernel, by decide, rfl⟩

end Grann
