import Verif.Model.Shard
import Verif.Props.Truthset
/-!
# C56: random slices
-/

namespace Grann

namespace Spec

/-- A `.bin` file with the given rows. -/
def binFile (dim : Nat) (rows : List Bytes) : Bytes := le 4 rows.length ++ le 4 dim ++ rows.flatten

/-- A file of identifiers. -/
def idFile (ids : List Nat) : Bytes := le 4 ids.length ++ le 4 1 ++ ids.flatMap (le 4)

/-- The numbers of the sampled rows. -/
def sampled (coin : Nat → Bool) (n : Nat) : List Nat := (List.range n).filter coin

end Spec

/-- Row `i`. -/
def rowAt (rows : List Bytes) (i : Nat) : Bytes := rows.getD i []

theorem rows_eq_map (rows : List Bytes) : rows = (List.range rows.length).map (rowAt rows) := by
  apply List.ext_getElem?
  intro i
  rw [List.getElem?_map]
  by_cases h : i < rows.length
  · rw [List.getElem?_range h, List.getElem?_eq_getElem h]
    simp [rowAt, List.getD_eq_getElem?_getD, List.getElem?_eq_getElem h]
  · rw [List.getElem?_eq_none (by omega), List.getElem?_eq_none (by simp; omega)]; rfl

theorem rowAt_length {rows : List Bytes} {rb i : Nat} (h : ∀ x ∈ rows, x.length = rb) (hi : i < rows.length) :
    (rowAt rows i).length = rb := by
  unfold rowAt
  rw [List.getD_eq_getElem?_getD, List.getElem?_eq_getElem hi]
  exact h _ (List.getElem_mem hi)

/-- Reading the header of a `.bin` file. -/
theorem CReader.open_header (a b : Nat) (rest : Bytes) (ha : a < 4294967296) (hb : b < 4294967296)
    (hf : (le 4 a ++ le 4 b ++ rest).length < 9223372036854775808) (cs : Nat) (mem : Nat → UInt8)
    (j1 j2 : Bytes) (h1 : j1.length = 4) (h2 : j2.length = 4) :
    ∃ r1 r2, (CReader.open (some (le 4 a ++ le 4 b ++ rest)) cs mem).readWord j1 = .ok (a, r1) ∧
      r1.readWord j2 = .ok (b, r2) ∧ r2.At (le 4 a ++ le 4 b ++ rest) rest := by
  have h0 := CReader.open_at (le 4 a ++ le 4 b ++ rest) hf cs mem
  have e1 := h0.readWord j1 h1
  rw [if_pos (by simp)] at e1
  obtain ⟨r1, e1, a1⟩ := e1
  rw [List.append_assoc, List.take_left' (le_length 4 a), unle_le_of_lt (by omega)] at e1
  rw [List.append_assoc, List.drop_left' (le_length 4 a)] at a1
  have e2 := a1.readWord j2 h2
  rw [if_pos (by simp)] at e2
  obtain ⟨r2, e2, a2⟩ := e2
  rw [List.take_left' (le_length 4 b), unle_le_of_lt (by omega)] at e2
  rw [List.drop_left' (le_length 4 b)] at a2
  refine ⟨r1, r2, ?_, e2, ?_⟩
  · rw [List.append_assoc]; exact e1
  · rw [List.append_assoc]; exact a2

theorem patchCount_append (a n : Nat) (rest : Bytes) : patchCount (le 4 a ++ rest) n = le 4 n ++ rest := by
  unfold patchCount
  rw [List.drop_left' (le_length 4 a)]

theorem sliceLoop_ok (coin : Nat → Bool) (rb : Nat) (hrb : rb < 18446744073709551616) (f : Bytes) (g : Nat → Bytes) :
    ∀ (todo i : Nat) (r : CReader) (row data ids : Bytes) (cnt : Nat),
    (∀ k, i ≤ k → k < i + todo → (g k).length = rb) → row.length = rb →
    r.At f ((List.range' i todo).map g).flatten → i + todo < 4294967296 → cnt ≤ i →
    sliceLoop coin rb todo i r row data ids cnt =
      .ok (data ++ ((List.range' i todo).filter coin).flatMap g,
        ids ++ ((List.range' i todo).filter coin).flatMap (le 4),
        cnt + ((List.range' i todo).filter coin).length) := by
  intro todo
  induction todo with
  | zero => intro i r row data ids cnt _ _ _ _ _; simp [sliceLoop]
  | succ todo ih =>
    intro i r row data ids cnt hg hrow hr hi hcnt
    rw [List.range'_succ, List.map_cons, List.flatten_cons] at hr
    have hgi := hg i (by omega) (by omega)
    have e := hr.read rb hrb row hrow
    rw [if_pos (by rw [List.length_append]; omega)] at e
    obtain ⟨r', e, hr'⟩ := e
    rw [List.take_left' hgi] at e
    rw [List.drop_left' hgi] at hr'
    unfold sliceLoop
    rw [e, Res.ok_bind]
    dsimp only
    have hu : u32 i = i := Nat.mod_eq_of_lt (by omega)
    have hu2 : u32 (cnt + 1) = cnt + 1 := Nat.mod_eq_of_lt (by omega)
    by_cases hc : coin i = true
    · rw [if_pos hc, ih (i + 1) r' _ _ _ _ (fun k h1 h2 => hg k (by omega) (by omega)) hgi hr' (by omega)
        (by rw [hu2]; omega), hu, hu2]
      simp only [List.range'_succ, List.filter_cons, hc, if_true, List.flatMap_cons, List.length_cons,
        List.append_assoc]
      rw [show cnt + 1 + (List.filter coin (List.range' (i + 1) todo)).length =
        cnt + ((List.filter coin (List.range' (i + 1) todo)).length + 1) by omega]
    · rw [if_neg hc, ih (i + 1) r' _ _ _ _ (fun k h1 h2 => hg k (by omega) (by omega)) hgi hr' (by omega)
        (by omega)]
      simp only [List.range'_succ, List.filter_cons, hc, if_false, Bool.false_eq_true]

/-- **C56.** Sampling a data file writes the sampled rows in their order, their numbers, and the true number of
samples, for every outcome of the random numbers. -/
theorem C56_files (es dim : Nat) (rows : List Bytes) (coin : Nat → Bool) (j : TruthJunk)
    (hj1 : j.npts.length = 4) (hj2 : j.dim.length = 4) (hn : rows.length < 4294967296) (hd : dim < 4294967296)
    (hes : es ≤ 8) (hrow : ∀ x ∈ rows, x.length = dim * es)
    (hf : (Spec.binFile dim rows).length < 9223372036854775808) :
    sliceFile es coin (some (Spec.binFile dim rows)) j =
      .ok (Spec.binFile dim ((Spec.sampled coin rows.length).map (rowAt rows)),
        Spec.idFile (Spec.sampled coin rows.length)) := by
  obtain ⟨r1, r2, e1, e2, hr⟩ := CReader.open_header rows.length dim rows.flatten hn hd hf truthBlk j.cache
    j.npts j.dim hj1 hj2
  unfold sliceFile
  dsimp only
  unfold Spec.binFile at hf ⊢
  rw [e1, Res.ok_bind]
  dsimp only
  rw [e2, Res.ok_bind]
  dsimp only
  have hrb : dim * es < 18446744073709551616 := by
    have := Nat.mul_le_mul hd.le hes
    omega
  have hloop := sliceLoop_ok coin (dim * es) hrb _ (rowAt rows) rows.length 0 r2
    (List.replicate (dim * es) 0) (le 4 0 ++ le 4 dim) (le 4 0 ++ le 4 1) 0
    (fun k _ hk => rowAt_length hrow (by omega)) (by simp)
    (by rw [← List.range_eq_range', ← rows_eq_map]; exact hr) (by omega) (by omega)
  rw [hloop, Res.ok_bind, ← List.range_eq_range']
  dsimp only
  unfold Spec.idFile Spec.sampled
  rw [List.append_assoc, List.append_assoc, patchCount_append, patchCount_append, Nat.zero_add, List.length_map,
    List.append_assoc, List.append_assoc, List.flatMap_def]

/-- **C56.** The identifiers in the file are those of the sampled rows, ascending; row `t` of the sample is the
row named by identifier `t`. -/
theorem C56_subsequence (coin : Nat → Bool) (rows : List Bytes) :
    (Spec.sampled coin rows.length).Pairwise (· < ·) ∧
    (∀ i, i ∈ Spec.sampled coin rows.length ↔ i < rows.length ∧ coin i = true) ∧
    ((Spec.sampled coin rows.length).map (rowAt rows)).Sublist rows := by
  unfold Spec.sampled
  refine ⟨List.Pairwise.sublist List.filter_sublist List.pairwise_lt_range, fun i => by
    rw [List.mem_filter, List.mem_range], ?_⟩
  conv_rhs => rw [rows_eq_map rows]
  exact List.Sublist.map _ List.filter_sublist

theorem sliceMemLoop_ok (coin : Nat → Bool) (conv : Bytes → List F32) (rb : Nat) (hrb : rb < 18446744073709551616)
    (f : Bytes) (g : Nat → Bytes) : ∀ (todo i : Nat) (r : CReader) (row : Bytes) (acc : List (List F32)),
    (∀ k, i ≤ k → k < i + todo → (g k).length = rb) → row.length = rb →
    r.At f ((List.range' i todo).map g).flatten →
    sliceMemLoop coin conv rb todo i r row acc =
      .ok (acc ++ ((List.range' i todo).filter coin).map (fun k => conv (g k))) := by
  intro todo
  induction todo with
  | zero => intro i r row acc _ _ _; simp [sliceMemLoop]
  | succ todo ih =>
    intro i r row acc hg hrow hr
    rw [List.range'_succ, List.map_cons, List.flatten_cons] at hr
    have hgi := hg i (by omega) (by omega)
    have e := hr.read rb hrb row hrow
    rw [if_pos (by rw [List.length_append]; omega)] at e
    obtain ⟨r', e, hr'⟩ := e
    rw [List.take_left' hgi] at e
    rw [List.drop_left' hgi] at hr'
    unfold sliceMemLoop
    rw [e, Res.ok_bind]
    dsimp only
    by_cases hc : coin i = true
    · rw [if_pos hc, ih (i + 1) r' _ _ (fun k h1 h2 => hg k (by omega) (by omega)) hgi hr']
      simp only [List.range'_succ, List.filter_cons, hc, if_true, List.map_cons, List.append_assoc,
        List.singleton_append]
    · rw [if_neg hc, ih (i + 1) r' _ _ (fun k h1 h2 => hg k (by omega) (by omega)) hgi hr']
      simp only [List.range'_succ, List.filter_cons, hc, if_false, Bool.false_eq_true]

/-- **C56.** Sampling a file into memory gives the sampled rows, converted, in their order. -/
theorem C56_memory (es dim : Nat) (rows : List Bytes) (coin : Nat → Bool) (conv : Bytes → List F32) (j : TruthJunk)
    (hj1 : j.npts.length = 4) (hj2 : j.dim.length = 4) (hn : rows.length < 4294967296) (hd : dim < 4294967296)
    (hes : es ≤ 8) (hrow : ∀ x ∈ rows, x.length = dim * es)
    (hf : (Spec.binFile dim rows).length < 9223372036854775808) :
    sliceMem es coin conv (some (Spec.binFile dim rows)) j =
      .ok (((Spec.sampled coin rows.length).map (rowAt rows)).flatMap conv,
        (Spec.sampled coin rows.length).length, dim) := by
  obtain ⟨r1, r2, e1, e2, hr⟩ := CReader.open_header rows.length dim rows.flatten hn hd hf truthBlk j.cache
    j.npts j.dim hj1 hj2
  unfold sliceMem
  dsimp only
  unfold Spec.binFile at hf ⊢
  rw [e1, Res.ok_bind]
  dsimp only
  rw [e2, Res.ok_bind]
  dsimp only
  have hrb : dim * es < 18446744073709551616 := by
    have := Nat.mul_le_mul hd.le hes
    omega
  have hloop := sliceMemLoop_ok coin conv (dim * es) hrb _ (rowAt rows) rows.length 0 r2
    (List.replicate (dim * es) 0) [] (fun k _ hk => rowAt_length hrow (by omega)) (by simp)
    (by rw [← List.range_eq_range', ← rows_eq_map]; exact hr)
  rw [hloop, Res.ok_bind, ← List.range_eq_range', List.nil_append, List.length_map]
  unfold Spec.sampled
  rw [List.flatMap_def, List.map_map]
  rfl

theorem flatten_slice {rows : List Bytes} {rb : Nat} (h : ∀ x ∈ rows, x.length = rb) (rest : Bytes) {i : Nat}
    (hi : i < rows.length) : slice (rows.flatten ++ rest) (i * rb) rb = .ok (rowAt rows i) := by
  induction rows generalizing i with
  | nil => simp at hi
  | cons x rows ih =>
    have hx := h x (by simp)
    have hlen : rows.flatten.length = rows.length * rb := by
      rw [List.length_flatten]
      have : rows.map List.length = List.replicate rows.length rb := by
        rw [List.eq_replicate_iff]
        exact ⟨by simp, fun b hb => by
          obtain ⟨y, hy, rfl⟩ := List.mem_map.mp hb
          exact h y (by simp [hy])⟩
      rw [this, List.sum_replicate]; rfl
    cases i with
    | zero =>
      unfold slice
      rw [if_pos (by simp only [List.flatten_cons, List.length_append]; omega)]
      simp only [Nat.zero_mul, List.drop_zero, List.flatten_cons, List.append_assoc]
      rw [List.take_left' hx]
      rfl
    | succ i =>
      have := ih (fun y hy => h y (by simp [hy])) (i := i) (by simpa using hi)
      unfold slice at this ⊢
      have hle : (i + 1) * rb + rb ≤ ((x :: rows).flatten ++ rest).length := by
        simp only [List.flatten_cons, List.length_append, hlen, hx, List.length_cons] at *
        have : (i + 1) * rb ≤ rows.length * rb := Nat.mul_le_mul_right _ (by omega)
        omega
      rw [if_pos hle]
      split at this
      · injection this with this
        have hd : ((x :: rows).flatten ++ rest).drop ((i + 1) * rb) = (rows.flatten ++ rest).drop (i * rb) := by
          rw [List.flatten_cons, List.append_assoc, Nat.succ_mul, Nat.add_comm, ← List.drop_drop, List.drop_left' hx]
        rw [hd, this]
        rfl
      · cases this

theorem sliceMatLoop_ok (coin : Nat → Bool) (conv : Bytes → List F32) (data : Bytes) (rb : Nat) (g : Nat → Bytes) :
    ∀ (todo i : Nat) (acc : List (List F32)),
    (∀ k, i ≤ k → k < i + todo → slice data (rb * k) rb = .ok (g k)) →
    sliceMatLoop coin conv data rb todo i acc =
      .ok (acc ++ ((List.range' i todo).filter coin).map (fun k => conv (g k))) := by
  intro todo
  induction todo with
  | zero => intro i acc _; simp [sliceMatLoop]
  | succ todo ih =>
    intro i acc hg
    unfold sliceMatLoop
    by_cases hc : coin i = true
    · rw [if_pos hc, hg i (by omega) (by omega), Res.ok_bind, ih (i + 1) _ (fun k h1 h2 => hg k (by omega) (by omega))]
      simp only [List.range'_succ, List.filter_cons, hc, if_true, List.map_cons, List.append_assoc,
        List.singleton_append]
    · rw [if_neg hc, ih (i + 1) _ (fun k h1 h2 => hg k (by omega) (by omega))]
      simp only [List.range'_succ, List.filter_cons, hc, if_false, Bool.false_eq_true]

/-- **C56.** Sampling a matrix in memory gives the sampled rows, converted, in their order. -/
theorem C56_matrix (es dim : Nat) (rows : List Bytes) (coin : Nat → Bool) (conv : Bytes → List F32)
    (hrow : ∀ x ∈ rows, x.length = dim * es) :
    sliceMat es coin conv rows.flatten rows.length dim =
      .ok (((Spec.sampled coin rows.length).map (rowAt rows)).flatMap conv,
        (Spec.sampled coin rows.length).length) := by
  unfold sliceMat
  rw [sliceMatLoop_ok coin conv rows.flatten (dim * es) (rowAt rows) rows.length 0 [] (fun k _ hk => by
    rw [Nat.mul_comm]
    have := flatten_slice hrow [] (i := k) (by omega)
    rw [List.append_nil] at this
    exact this), Res.ok_bind, ← List.range_eq_range', List.nil_append, List.length_map]
  unfold Spec.sampled
  rw [List.flatMap_def, List.map_map]
  rfl

theorem sliceLoop_short (coin : Nat → Bool) (rb : Nat) (hrb : rb < 18446744073709551616) (f : Bytes) :
    ∀ (todo i : Nat) (r : CReader) (row data ids rest : Bytes) (cnt : Nat), row.length = rb → r.At f rest →
    rest.length < todo * rb → sliceLoop coin rb todo i r row data ids cnt = .error .throw := by
  intro todo
  induction todo with
  | zero => intro i r row data ids rest cnt _ _ h; omega
  | succ todo ih =>
    intro i r row data ids rest cnt hrow hr hlt
    rw [Nat.succ_mul] at hlt
    have e := hr.read rb hrb row hrow
    unfold sliceLoop
    by_cases hle : rb ≤ rest.length
    · rw [if_pos hle] at e
      obtain ⟨r', e, hr'⟩ := e
      rw [e, Res.ok_bind]
      dsimp only
      have hl : (rest.take rb).length = rb := by rw [List.length_take]; omega
      split
      · exact ih (i + 1) r' _ _ _ _ _ hl hr' (by rw [List.length_drop]; omega)
      · exact ih (i + 1) r' _ _ _ _ _ hl hr' (by rw [List.length_drop]; omega)
    · rw [if_neg hle] at e
      rw [e]; rfl

/-- **C56.** A data file with fewer bytes than its header announces is refused. -/
theorem C56_truncated (es n dim : Nat) (rest : Bytes) (coin : Nat → Bool) (j : TruthJunk)
    (hj1 : j.npts.length = 4) (hj2 : j.dim.length = 4) (hn : n < 4294967296) (hd : dim < 4294967296)
    (hes : es ≤ 8) (hlt : rest.length < n * (dim * es))
    (hf : (le 4 n ++ le 4 dim ++ rest).length < 9223372036854775808) :
    sliceFile es coin (some (le 4 n ++ le 4 dim ++ rest)) j = .error .throw := by
  obtain ⟨r1, r2, e1, e2, hr⟩ := CReader.open_header n dim rest hn hd hf truthBlk j.cache j.npts j.dim hj1 hj2
  unfold sliceFile
  dsimp only
  rw [e1, Res.ok_bind]
  dsimp only
  rw [e2, Res.ok_bind]
  dsimp only
  have hrb : dim * es < 18446744073709551616 := by
    have := Nat.mul_le_mul hd.le hes
    omega
  rw [sliceLoop_short coin (dim * es) hrb _ n 0 r2 _ _ _ rest 0 (by simp) hr hlt]; rfl

example : sliceFile 1 (fun i => i != 1) (some (Spec.binFile 2 [[1, 2], [3, 4], [5, 6]])) exTruthJunk =
    .ok (Spec.binFile 2 [[1, 2], [5, 6]], Spec.idFile [0, 2]) :=
  C56_files 1 2 [[1, 2], [3, 4], [5, 6]] (fun i => i != 1) exTruthJunk rfl rfl (by decide) (by decide) (by decide)
    (by decide) (by decide)

/-! ## The theorems applied to the examples -/

example := C56_memory 1 2 [[1, 2], [3, 4], [5, 6]] (fun i => i != 1) (fun b => b.map (fun _ => F32.one)) exTruthJunk rfl rfl
  (by decide) (by decide) (by decide) (by decide) (by decide)

example := C56_matrix 1 2 [[1, 2], [3, 4], [5, 6]] (fun i => i != 1) (fun b => b.map (fun _ => F32.one)) (by decide)

/-- The file announces three rows and holds one and a half. -/
example := C56_truncated 1 3 2 [1, 2, 3] (fun i => i != 1) exTruthJunk rfl rfl (by decide) (by decide) (by decide) (by decide)
  (by decide)

end Grann
