import Verif.Model.BinFile
import Verif.Proofs.MapM
import Mathlib.Tactic.NormNum
/-!
# Vector files (C30, C31, C32)
-/

namespace Grann

namespace Spec

/-- The contents of a vector file with `rows` rows of dimension `dim`: two 4-byte little-endian counts,
then the rows one after the other. -/
def BinFile (dim : Nat) (rows : List Bytes) (file : Bytes) : Prop :=
  file.length = 8 + (rows.map List.length).sum ∧ unle (file.take 4) = rows.length ∧
    unle ((file.drop 4).take 4) = dim ∧ file.drop 8 = rows.flatten

/-- `rows` is a matrix with `dim` columns of `es`-byte elements. -/
def Matrix (es dim : Nat) (rows : List Bytes) : Prop := ∀ r ∈ rows, r.length = dim * es

/-- A row followed by zero bytes up to the length of an aligned row. -/
def padTo (len : Nat) (r : Bytes) : Bytes := r ++ List.replicate (len - r.length) 0

end Spec

theorem binFile_iff {dim : Nat} {rows : List Bytes} {file : Bytes} (hn : rows.length < 4294967296)
    (hd : dim < 4294967296) :
    Spec.BinFile dim rows file ↔ file = le 4 rows.length ++ (le 4 dim ++ rows.flatten) := by
  constructor
  · rintro ⟨h0, h1, h2, h3⟩
    have e1 : file.take 4 = le 4 rows.length := by
      have := le_unle (file.take 4)
      rw [List.length_take, Nat.min_eq_left (by omega), h1] at this; exact this.symm
    have e2 : (file.drop 4).take 4 = le 4 dim := by
      have := le_unle ((file.drop 4).take 4)
      rw [List.length_take, List.length_drop, Nat.min_eq_left (by omega), h2] at this; exact this.symm
    rw [← e1, ← e2, ← h3]
    have : file.drop 8 = (file.drop 4).drop 4 := by rw [List.drop_drop]
    rw [this, List.take_append_drop, List.take_append_drop]
  · rintro rfl
    refine ⟨by simp [List.length_flatten]; omega, ?_, ?_, ?_⟩
    · rw [List.take_left' (le_length _ _), unle_le_of_lt (by omega)]
    · rw [List.drop_left' (le_length _ _), List.take_left' (le_length _ _), unle_le_of_lt (by omega)]
    · rw [show 8 = 4 + 4 from rfl, ← List.drop_drop, List.drop_left' (le_length _ _),
        List.drop_left' (le_length _ _)]

/-- Every sequence of bytes of the right length consists of rows. -/
theorem exists_rows (w : Nat) : ∀ (n : Nat) (b : Bytes), b.length = n * w →
    ∃ rows : List Bytes, rows.length = n ∧ (∀ r ∈ rows, r.length = w) ∧ rows.flatten = b := by
  intro n
  induction n with
  | zero => intro b h; exact ⟨[], rfl, by simp, by simp at h; simp [h]⟩
  | succ n ih =>
    intro b h
    rw [Nat.succ_mul] at h
    obtain ⟨rows, h1, h2, h3⟩ := ih (b.drop w) (by rw [List.length_drop]; omega)
    refine ⟨b.take w :: rows, by simp [h1], ?_, by simp [h3]⟩
    intro r hr
    rcases List.mem_cons.mp hr with rfl | hr
    · rw [List.length_take]; omega
    · exact h2 r hr

theorem flatten_length_of {w : Nat} : ∀ {rows : List Bytes}, (∀ r ∈ rows, r.length = w) →
    rows.flatten.length = rows.length * w := by
  intro rows
  induction rows with
  | nil => simp
  | cons r rows ih =>
    intro h
    rw [List.flatten_cons, List.length_append, h r (by simp), ih (fun x hx => h x (by simp [hx])),
      List.length_cons, Nat.succ_mul, Nat.add_comm]

theorem blit_at {pre mid suf b : Bytes} {off : Nat} (ho : off = pre.length) (h : mid.length = b.length) :
    blit (pre ++ (mid ++ suf)) off b = .ok (pre ++ (b ++ suf)) := by
  subst ho
  unfold blit
  by_cases hb : b = []
  · subst hb
    have : mid = [] := by simpa using h
    simp [this]
  · rw [if_neg hb, if_pos (by simp only [List.length_append]; omega)]
    rw [List.take_left' rfl, ← h, ← List.append_assoc pre mid suf, List.drop_left' (by simp)]
    simp

/-- Reading the header of a well-formed file. -/
theorem readHeader_le {n d : Nat} (hn : n < 4294967296) (hd : d < 4294967296) {j1 j2 : Bytes}
    (h1 : j1.length = 4) (h2 : j2.length = 4) (rest : Bytes) :
    readHeader (some (le 4 n ++ (le 4 d ++ rest))) j1 j2 = (n, d, ⟨rest, false, false⟩) := by
  unfold readHeader IStream.open
  simp only
  rw [IStream.readInt_le n 4 _ j1 h1 (by omega)]
  simp only
  rw [IStream.readInt_le d 4 _ j2 h2 (by omega)]

theorem readInt_lt (s : IStream) (j : Bytes) : (s.readInt j).1 < 256 ^ j.length := by
  unfold IStream.readInt
  simp only
  have hl : ((s.read j.length).1).length ≤ j.length := by
    unfold IStream.read
    split
    · simp
    · split
      · simp
      · simp; omega
  have := unle_lt ((s.read j.length).1 ++ j.drop ((s.read j.length).1).length)
  rw [List.length_append, List.length_drop, show ((s.read j.length).1).length +
    (j.length - ((s.read j.length).1).length) = j.length by omega] at this
  exact this

theorem readHeader_lt (file : Option Bytes) {j1 j2 : Bytes} (h1 : j1.length = 4) (h2 : j2.length = 4) :
    (readHeader file j1 j2).1 < 4294967296 ∧ (readHeader file j1 j2).2.1 < 4294967296 := by
  unfold readHeader
  have a := readInt_lt (IStream.open file) j1
  have b := readInt_lt ((IStream.open file).readInt j1).2 j2
  rw [h1] at a; rw [h2] at b
  exact ⟨by simpa using a, by simpa using b⟩

/-- A file of at least 8 bytes is a header followed by the rest. -/
theorem header_split (b : Bytes) (h : 8 ≤ b.length) : ∃ n d rest, n < 4294967296 ∧ d < 4294967296 ∧
    b = le 4 n ++ (le 4 d ++ rest) ∧ rest = b.drop 8 ∧ n = unle (b.take 4) ∧
    d = unle ((b.drop 4).take 4) := by
  have l1 : (b.take 4).length = 4 := by rw [List.length_take]; omega
  have l2 : ((b.drop 4).take 4).length = 4 := by rw [List.length_take, List.length_drop]; omega
  refine ⟨unle (b.take 4), unle ((b.drop 4).take 4), b.drop 8, ?_, ?_, ?_, rfl, rfl, rfl⟩
  · have := unle_lt (b.take 4); rw [l1] at this; exact this
  · have := unle_lt ((b.drop 4).take 4); rw [l2] at this; exact this
  · have e1 := le_unle (b.take 4); rw [l1] at e1
    have e2 := le_unle ((b.drop 4).take 4); rw [l2] at e2
    rw [e1, e2, show b.drop 8 = (b.drop 4).drop 4 by rw [List.drop_drop], List.take_append_drop,
      List.take_append_drop]

/-! ## C30 -/

theorem run_append_rows {P : Type} [DecidableEq P] (p : P) : ∀ (rows : List Bytes) (fs : FS P) (c : Bytes),
    fs p = some c → runOps (rows.map (FOp.append p)) fs p = some (c ++ rows.flatten) ∧
      ∀ q, q ≠ p → runOps (rows.map (FOp.append p)) fs q = fs q := by
  intro rows
  induction rows with
  | nil => intro fs c h; simp [runOps, h]
  | cons r rows ih =>
    intro fs c h
    have := ih ((FOp.append p r).run fs) (c ++ r) (by simp [FOp.run, h])
    simp only [runOps, List.map_cons, List.foldl_cons, List.flatten_cons] at this ⊢
    rw [← List.append_assoc]
    refine ⟨this.1, fun q hq => ?_⟩
    rw [this.2 q hq]; simp [FOp.run, hq]

/-- What `save_bin` leaves in the file system. -/
theorem saveBin_run {P : Type} [DecidableEq P] (p : P) (n d : Nat) (data : Bytes) (fs : FS P) :
    runOps (saveBin p n d data) fs = fun q => if q = p then some (le 4 n ++ (le 4 d ++ data)) else fs q := by
  funext q
  by_cases h : q = p <;> simp [saveBin, runOps, FOp.run, h]

/-- Loading a well-formed file. -/
theorem loadBin_ok {es n d : Nat} {data : Bytes} (hn : n < 4294967296) (hd : d < 4294967296)
    (hl : data.length = n * d * es) (hs : n * d * es < 9223372036854775808) {j1 j2 : Bytes}
    (h1 : j1.length = 4) (h2 : j2.length = 4) (mem : Nat → UInt8) :
    loadBin es (some (le 4 n ++ (le 4 d ++ data))) j1 j2 mem = .ok (n, d, data) := by
  unfold loadBin
  rw [readHeader_le hn hd h1 h2]
  dsimp only
  rw [if_neg, if_neg (by omega)]
  · have hr : (IStream.mk data false false).read (n * d * es) = (data, ⟨[], false, false⟩) := by
      have := IStream.read_append data []
      rw [List.append_nil] at this; rw [← hl]; exact this
    rw [hr]
    dsimp only
    have := blit_at (pre := []) (mid := (List.range (n * d * es)).map mem) (suf := []) (b := data)
      (off := 0) rfl (by simp [hl])
    simp only [List.nil_append, List.append_nil] at this
    rw [this]; rfl
  · simp only [tellSize, List.length_append, le_length, hl, u64]
    rw [Nat.mod_eq_of_lt (by omega)]; omega

/-- **C30.** Writing a matrix with `save_bin` and loading it with `load_bin` gives back the number of rows,
the dimension and every byte, whatever was in the file before and whatever uninitialised memory
contains. -/
theorem C30_bin_round_trip {P : Type} [DecidableEq P] (p : P) (fs : FS P) (es dim : Nat) (rows : List Bytes)
    (hm : Spec.Matrix es dim rows) (hn : rows.length < 4294967296) (hd : dim < 4294967296)
    (hs : rows.flatten.length < 9223372036854775808) (j1 j2 : Bytes) (h1 : j1.length = 4)
    (h2 : j2.length = 4) (mem : Nat → UInt8) :
    loadBin es (runOps (saveBin p rows.length dim rows.flatten) fs p) j1 j2 mem =
      .ok (rows.length, dim, rows.flatten) := by
  have hl : rows.flatten.length = rows.length * dim * es := by
    rw [flatten_length_of hm, Nat.mul_assoc]
  rw [saveBin_run]
  simp only [if_true]
  exact loadBin_ok hn hd hl (by omega) h1 h2 mem

/-- The file written is a vector file in the sense of the specification. -/
theorem C30_saved_format {P : Type} [DecidableEq P] (p : P) (fs : FS P) (dim : Nat) (rows : List Bytes)
    (hn : rows.length < 4294967296) (hd : dim < 4294967296) :
    ∃ file, runOps (saveBin p rows.length dim rows.flatten) fs p = some file ∧
      Spec.BinFile dim rows file := by
  refine ⟨_, by rw [saveBin_run]; simp only [if_true], (binFile_iff hn hd).mpr rfl⟩

example : Spec.Matrix 4 1 [[0, 0, 192, 127], [1, 2, 3, 4]] := by unfold Spec.Matrix; decide

example : loadBin 4 (runOps (saveBin () 2 1 [0, 0, 192, 127, 1, 2, 3, 4]) (fun _ => some [9, 9]) ())
    [7, 7, 7, 7] [1, 1, 1, 1] (fun _ => 5) = .ok (2, 1, [0, 0, 192, 127, 1, 2, 3, 4]) := by decide

/-! ## C31 -/

/-- The rounded dimension is the least multiple of 8 that is not below the dimension. -/
theorem roundUp8_spec (d : Nat) : d ≤ roundUp8 d ∧ roundUp8 d % 8 = 0 ∧
    ∀ m, m % 8 = 0 → d ≤ m → roundUp8 d ≤ m := by
  unfold roundUp8
  refine ⟨by split <;> omega, by omega, ?_⟩
  intro m hm hd
  split <;> omega

/-- Reading rows that are there. -/
theorem alignedRows_spec {es d a : Nat} (hda : d ≤ a) : ∀ (rows : List Bytes) (i : Nat)
    (tail pre suf : Bytes), (∀ r ∈ rows, r.length = d * es) → pre.length = i * a * es →
    suf.length = rows.length * (a * es) →
    alignedRows es d a rows.length i ⟨rows.flatten ++ tail, false, false⟩ (pre ++ suf) =
      .ok (pre ++ (rows.map (Spec.padTo (a * es))).flatten) := by
  intro rows
  induction rows with
  | nil =>
    intro i tail pre suf _ _ hs
    have : suf = [] := by simpa using hs
    simp [alignedRows, this]
  | cons r rows ih =>
    intro i tail pre suf hr hp hs
    have hrl : r.length = d * es := hr r (by simp)
    have hde : d * es ≤ a * es := Nat.mul_le_mul_right _ hda
    rw [List.length_cons, Nat.succ_mul] at hs
    rw [List.length_cons, alignedRows]
    have hread : (IStream.mk ((r :: rows).flatten ++ tail) false false).read (d * es) =
        (r, ⟨rows.flatten ++ tail, false, false⟩) := by
      rw [← hrl, List.flatten_cons, List.append_assoc]; exact IStream.read_append _ _
    rw [hread]
    dsimp only
    -- split the remaining memory
    obtain ⟨m1, m2, s, hsplit, hm1, hm2⟩ : ∃ m1 m2 s : Bytes, suf = m1 ++ (m2 ++ s) ∧
        m1.length = d * es ∧ m2.length = (a - d) * es := by
      refine ⟨suf.take (d * es), (suf.drop (d * es)).take ((a - d) * es),
        (suf.drop (d * es)).drop ((a - d) * es), ?_, ?_, ?_⟩
      · rw [List.take_append_drop, List.take_append_drop]
      · rw [List.length_take]; omega
      · rw [List.length_take, List.length_drop, Nat.sub_mul]; omega
    rw [hsplit, blit_at hp.symm (by omega), Res.ok_bind]
    rw [← List.append_assoc, blit_at (by rw [List.length_append, hp, hrl, Nat.add_mul]) (by simp [hm2]),
      Res.ok_bind]
    have hs' : s.length = rows.length * (a * es) := by
      have : suf.length = m1.length + (m2.length + s.length) := by rw [hsplit]; simp
      rw [hm1, hm2, Nat.sub_mul] at this; omega
    have hpad : Spec.padTo (a * es) r = r ++ List.replicate ((a - d) * es) 0 := by
      unfold Spec.padTo; rw [hrl, Nat.sub_mul]
    have := ih (i + 1) tail (pre ++ (r ++ List.replicate ((a - d) * es) 0)) s
      (fun x hx => hr x (by simp [hx])) (by
        rw [List.length_append, List.length_append, List.length_replicate, hp, hrl, Nat.sub_mul,
          Nat.add_mul, Nat.add_mul, Nat.one_mul]; omega) hs'
    rw [List.map_cons, List.flatten_cons, hpad]
    simp only [List.append_assoc] at this ⊢
    exact this

/-- The size of the aligned array does not wrap around for files of less than 2^61 bytes. -/
theorem aligned_size_lt {n d es : Nat} (h : n * d * es < 2305843009213693952) :
    n * roundUp8 d * es < 18446744073709551616 := by
  by_cases hd : d = 0
  · subst hd; simp [roundUp8]
  · have : roundUp8 d ≤ 8 * d := by unfold roundUp8; split <;> omega
    have h1 : n * roundUp8 d * es ≤ n * (8 * d) * es :=
      Nat.mul_le_mul_right _ (Nat.mul_le_mul_left _ this)
    have h2 : n * (8 * d) * es = 8 * (n * d * es) := by ring
    omega

/-- Loading into aligned storage, for a well-formed file. -/
theorem loadAligned_ok {es d : Nat} {rows : List Bytes} (hm : Spec.Matrix es d rows)
    (hn : rows.length < 4294967296) (hd : d < 4294967296)
    (hw : rows.length * d * es + 8 < 18446744073709551616)
    (hs : rows.length * roundUp8 d * es < 18446744073709551616) {j1 j2 : Bytes}
    (h1 : j1.length = 4) (h2 : j2.length = 4) (mem : Nat → UInt8) :
    loadAligned es (some (le 4 rows.length ++ (le 4 d ++ rows.flatten))) j1 j2 mem =
      .ok (rows.length, d, roundUp8 d, (rows.map (Spec.padTo (roundUp8 d * es))).flatten) := by
  have hl : rows.flatten.length = rows.length * d * es := by
    rw [flatten_length_of hm, Nat.mul_assoc]
  unfold loadAligned
  rw [readHeader_le hn hd h1 h2]
  dsimp only
  rw [if_neg]
  · have := alignedRows_spec (es := es) (roundUp8_spec d).1 rows 0 [] []
      ((List.range (u64 (rows.length * roundUp8 d * es))).map mem) hm (by simp)
      (by rw [List.length_map, List.length_range, u64, Nat.mod_eq_of_lt hs, Nat.mul_assoc])
    simp only [List.append_nil, List.nil_append] at this
    rw [this]; rfl
  · simp only [tellSize, List.length_append, le_length, hl, u64]
    rw [Nat.mod_eq_of_lt (by omega)]; omega

/-- **C31.** Loading a vector file of less than 2^61 bytes into aligned storage succeeds; every row keeps
its bytes and is followed by zeros up to the next multiple of 8 elements. -/
theorem C31_aligned_load (es dim : Nat) (rows : List Bytes) (file : Bytes)
    (hf : Spec.BinFile dim rows file) (hm : Spec.Matrix es dim rows) (hn : rows.length < 4294967296)
    (hd : dim < 4294967296) (hs : file.length < 2305843009213693952) (j1 j2 : Bytes) (h1 : j1.length = 4)
    (h2 : j2.length = 4) (mem : Nat → UInt8) :
    ∃ adim, (dim ≤ adim ∧ adim % 8 = 0 ∧ ∀ m, m % 8 = 0 → dim ≤ m → adim ≤ m) ∧
      loadAligned es (some file) j1 j2 mem =
        .ok (rows.length, dim, adim, (rows.map (Spec.padTo (adim * es))).flatten) := by
  have hl : rows.flatten.length = rows.length * dim * es := by
    rw [flatten_length_of hm, Nat.mul_assoc]
  rw [(binFile_iff hn hd).mp hf] at hs ⊢
  simp only [List.length_append, le_length, hl] at hs
  exact ⟨roundUp8 dim, roundUp8_spec dim,
    loadAligned_ok hm hn hd (by omega) (aligned_size_lt (by omega)) h1 h2 mem⟩

theorem drop_take_block : ∀ (rows : List Bytes) (w i : Nat) (r : Bytes), (∀ x ∈ rows, x.length = w) →
    rows[i]? = some r → (rows.flatten.drop (i * w)).take w = r ∧ i * w + w ≤ rows.flatten.length := by
  intro rows
  induction rows with
  | nil => intro w i r _ h; simp at h
  | cons x rows ih =>
    intro w i r hw h
    have hx : x.length = w := hw x (by simp)
    cases i with
    | zero =>
      simp at h; subst h
      refine ⟨?_, by simp [hx]⟩
      rw [Nat.zero_mul, List.drop_zero, List.flatten_cons, List.take_left' hx]
    | succ i =>
      simp at h
      obtain ⟨a, b⟩ := ih w i r (fun y hy => hw y (by simp [hy])) h
      rw [List.flatten_cons, Nat.succ_mul, Nat.add_comm (i * w) w, ← List.drop_drop,
        List.drop_left' hx]
      refine ⟨a, ?_⟩
      rw [List.length_append, hx]; omega

/-- One row of the aligned array, without the padding. -/
theorem slice_row {es d a : Nat} (hda : d ≤ a) {rows : List Bytes} (hm : Spec.Matrix es d rows) {i : Nat}
    {r : Bytes} (hi : rows[i]? = some r) :
    slice (rows.map (Spec.padTo (a * es))).flatten (i * a * es) (d * es) = .ok r := by
  have hde : d * es ≤ a * es := Nat.mul_le_mul_right _ hda
  have hr : r.length = d * es := hm r (List.mem_of_getElem? hi)
  have hpl : ∀ x ∈ rows.map (Spec.padTo (a * es)), x.length = a * es := by
    intro x hx
    obtain ⟨y, hy, rfl⟩ := List.mem_map.mp hx
    simp only [Spec.padTo, List.length_append, List.length_replicate, hm y hy]; omega
  obtain ⟨h1, h2⟩ := drop_take_block (rows.map (Spec.padTo (a * es))) (a * es) i
    (Spec.padTo (a * es) r) hpl (by simp [hi])
  rw [Nat.mul_assoc]
  unfold slice
  rw [if_pos (by omega)]
  congr 1
  have : d * es = min (d * es) (a * es) := by omega
  rw [this, ← List.take_take, h1]
  simp [Spec.padTo, hr, hde]

/-- Writing the aligned array in original dimensions. -/
theorem saveOrig_run {P : Type} [DecidableEq P] (p : P) {es d a : Nat} (hda : d ≤ a) {rows : List Bytes}
    (hm : Spec.Matrix es d rows) (fs : FS P) :
    ∃ ops, saveOrig p es (rows.map (Spec.padTo (a * es))).flatten rows.length a d = .ok ops ∧
      runOps ops fs = fun q => if q = p then some (le 4 rows.length ++ (le 4 d ++ rows.flatten)) else fs q := by
  have hrows : (List.range rows.length).mapM
      (fun i => slice (rows.map (Spec.padTo (a * es))).flatten (i * a * es) (d * es)) = .ok rows := by
    rw [mapM_eq_map _ (fun i => (rows[i]?).getD [])]
    · congr 1
      apply List.ext_getElem
      · simp
      · intro i h1 h2; simp [List.getElem?_eq_getElem h2]
    · intro i hi
      have hi := List.mem_range.mp hi
      rw [slice_row hda hm (List.getElem?_eq_getElem hi)]
      simp [List.getElem?_eq_getElem hi]
  refine ⟨[.create p, .append p (le 4 rows.length), .append p (le 4 d)] ++ rows.map (.append p), ?_, ?_⟩
  · unfold saveOrig
    rw [if_neg (by omega), hrows]; rfl
  · funext q
    rw [runOps_append]
    obtain ⟨f1, f2⟩ := run_append_rows p rows
      (runOps [.create p, .append p (le 4 rows.length), .append p (le 4 d)] fs)
      (le 4 rows.length ++ le 4 d) (by simp [runOps, FOp.run])
    by_cases h : q = p
    · rw [if_pos h, h, f1]; simp
    · rw [if_neg h, f2 q h]; simp [runOps, FOp.run, h]

/-- **C31.** Loading a file into aligned storage and saving it in original dimensions reproduces the file
byte for byte. -/
theorem C31_save_removes_padding {P : Type} [DecidableEq P] (p : P) (fs : FS P) (es dim : Nat)
    (rows : List Bytes) (file : Bytes) (hf : Spec.BinFile dim rows file) (hm : Spec.Matrix es dim rows)
    (hn : rows.length < 4294967296) (hd : dim < 4294967296) (hs : file.length < 2305843009213693952)
    (j1 j2 : Bytes) (h1 : j1.length = 4) (h2 : j2.length = 4) (mem : Nat → UInt8) :
    ∃ n d a data ops, loadAligned es (some file) j1 j2 mem = .ok (n, d, a, data) ∧
      saveOrig p es data n a d = .ok ops ∧ runOps ops fs p = some file := by
  obtain ⟨adim, ha, hl⟩ := C31_aligned_load es dim rows file hf hm hn hd hs j1 j2 h1 h2 mem
  obtain ⟨ops, ho, hr⟩ := saveOrig_run p (es := es) ha.1 hm fs
  refine ⟨_, _, _, _, ops, hl, ho, ?_⟩
  rw [hr]
  simp only [if_true]
  rw [(binFile_iff hn hd).mp hf]

/-- Saving a subset of the rows and loading it gives the chosen rows in the order given (used when an HNSW
index is built: src/hnsw.cpp:139-170). -/
theorem C31_subset_round_trip {P : Type} [DecidableEq P] (p : P) (fs : FS P) (es dim adim : Nat)
    (rows : List Bytes) (hm : Spec.Matrix es dim rows) (hda : dim ≤ adim) (ids : List Nat)
    (hids : ∀ i ∈ ids, i < rows.length) (hn : ids.length < 4294967296) (hd : dim < 4294967296)
    (hs : ids.length * dim * es < 2305843009213693944) (j1 j2 : Bytes) (h1 : j1.length = 4)
    (h2 : j2.length = 4) (mem : Nat → UInt8) :
    ∃ ops, saveSubset p es (rows.map (Spec.padTo (adim * es))).flatten adim dim ids = .ok ops ∧
      loadAligned es (runOps ops fs p) j1 j2 mem = .ok (ids.length, dim, roundUp8 dim,
        (ids.map (fun i => Spec.padTo (roundUp8 dim * es) ((rows[i]?).getD []))).flatten) := by
  let sel := ids.map (fun i => (rows[i]?).getD [])
  have hsel : Spec.Matrix es dim sel := by
    intro r hr
    obtain ⟨i, hi, rfl⟩ := List.mem_map.mp hr
    rw [List.getElem?_eq_getElem (hids i hi)]
    exact hm _ (List.getElem_mem _)
  have hrows : ids.mapM
      (fun i => slice (rows.map (Spec.padTo (adim * es))).flatten (i * adim * es) (dim * es)) = .ok sel := by
    apply mapM_eq_map
    intro i hi
    rw [slice_row hda hm (List.getElem?_eq_getElem (hids i hi)), List.getElem?_eq_getElem (hids i hi)]
    rfl
  refine ⟨[.create p, .append p (le 4 ids.length), .append p (le 4 dim)] ++ sel.map (.append p), ?_, ?_⟩
  · unfold saveSubset
    rw [if_neg (by omega), hrows]; rfl
  · rw [runOps_append]
    rw [(run_append_rows p sel
      (runOps [.create p, .append p (le 4 ids.length), .append p (le 4 dim)] fs)
      (le 4 ids.length ++ le 4 dim) (by simp [runOps, FOp.run])).1]
    have hlen : sel.length = ids.length := by simp [sel]
    have := loadAligned_ok hsel (by omega) hd (by rw [hlen]; omega)
      (by rw [hlen]; exact aligned_size_lt (by omega)) h1 h2 mem
    rw [hlen] at this
    rw [List.append_assoc, this]
    simp [sel, Function.comp_def]

example : loadAligned 1 (some ([2, 0, 0, 0] ++ [3, 0, 0, 0] ++ [1, 2, 3, 4, 5, 6])) [7, 7, 7, 7]
    [1, 1, 1, 1] (fun _ => 9) =
    .ok (2, 3, 8, [1, 2, 3, 0, 0, 0, 0, 0, 4, 5, 6, 0, 0, 0, 0, 0]) := by decide

example : Spec.BinFile 3 [[1, 2, 3], [4, 5, 6]] ([2, 0, 0, 0] ++ [3, 0, 0, 0] ++ [1, 2, 3, 4, 5, 6]) ∧
    Spec.Matrix 1 3 [[1, 2, 3], [4, 5, 6]] := by
  unfold Spec.BinFile Spec.Matrix; decide

/-! ## C32 -/

theorem loadBin_cases (es : Nat) (file : Option Bytes) {j1 j2 : Bytes} (h1 : j1.length = 4)
    (h2 : j2.length = 4) (mem : Nat → UInt8) :
    loadBin es file j1 j2 mem = .error .throw ∨
      ∃ n d data, n < 4294967296 ∧ d < 4294967296 ∧ file = some (le 4 n ++ (le 4 d ++ data)) ∧
        data.length = n * d * es ∧ n * d * es < 9223372036854775808 ∧
        loadBin es file j1 j2 mem = .ok (n, d, data) := by
  have key : ∀ n d s, readHeader file j1 j2 = (n, d, s) →
      tellSize file = u64 (n * d * es + 8) → n * d * es < 9223372036854775808 →
      ∃ n d data, n < 4294967296 ∧ d < 4294967296 ∧ file = some (le 4 n ++ (le 4 d ++ data)) ∧
        data.length = n * d * es ∧ n * d * es < 9223372036854775808 := by
    intro n d s hh ht hs
    rw [u64, Nat.mod_eq_of_lt (by omega)] at ht
    cases file with
    | none => simp only [tellSize] at ht; omega
    | some b =>
      simp only [tellSize] at ht
      obtain ⟨n', d', rest, hn, hd, hb, hr, -, -⟩ := header_split b (by omega)
      rw [hb, readHeader_le hn hd h1 h2] at hh
      simp only [Prod.mk.injEq] at hh
      obtain ⟨rfl, rfl, -⟩ := hh
      refine ⟨n', d', rest, hn, hd, by rw [hb], ?_, hs⟩
      rw [hr, List.length_drop]; omega
  rcases hh : readHeader file j1 j2 with ⟨n, d, s⟩
  by_cases ht : tellSize file = u64 (n * d * es + 8)
  · by_cases hs : n * d * es < 9223372036854775808
    · obtain ⟨n, d, data, a, b, c, e, f⟩ := key _ _ _ hh ht hs
      exact .inr ⟨n, d, data, a, b, c, e, f, by rw [c]; exact loadBin_ok a b e f h1 h2 mem⟩
    · left
      unfold loadBin
      rw [hh]
      dsimp only
      rw [if_neg (by simpa using ht), if_pos (by omega)]
  · left
    unfold loadBin
    rw [hh]
    dsimp only
    rw [if_pos ht]

/-- **C32.** `load_bin` accepts exactly the well-formed files (of less than 2^63 bytes), for every element
size: in every other case — missing file, truncated file, extra bytes, contradictory header — it throws,
whatever uninitialised memory contains. -/
theorem C32_load_bin_rejects (es : Nat) (file : Option Bytes) (j1 j2 : Bytes) (h1 : j1.length = 4)
    (h2 : j2.length = 4) (mem : Nat → UInt8) :
    (∃ dim rows b, file = some b ∧ Spec.BinFile dim rows b ∧ Spec.Matrix es dim rows ∧
        loadBin es file j1 j2 mem = .ok (rows.length, dim, rows.flatten)) ∨
      loadBin es file j1 j2 mem = .error .throw ∧
        ¬ ∃ dim rows b, file = some b ∧ Spec.BinFile dim rows b ∧ Spec.Matrix es dim rows ∧
          b.length < 9223372036854775808 := by
  rcases loadBin_cases es file h1 h2 mem with h | ⟨n, d, data, hn, hd, hf, hl, hs, he⟩
  · right
    refine ⟨h, ?_⟩
    rintro ⟨dim, rows, b, hb, hbf, hm, hlen⟩
    have hl := flatten_length_of hm
    obtain ⟨g0, g1, g2, g3⟩ := hbf
    have hn : rows.length < 4294967296 := by
      rw [← g1]
      have := unle_lt (b.take 4)
      rw [List.length_take] at this
      exact lt_of_lt_of_le this (by
        calc 256 ^ min 4 b.length ≤ 256 ^ 4 := Nat.pow_le_pow_right (by omega) (by omega)
          _ = _ := by norm_num)
    have hd : dim < 4294967296 := by
      rw [← g2]
      have := unle_lt ((b.drop 4).take 4)
      rw [List.length_take] at this
      exact lt_of_lt_of_le this (by
        calc 256 ^ min 4 (b.drop 4).length ≤ 256 ^ 4 := Nat.pow_le_pow_right (by omega) (by omega)
          _ = _ := by norm_num)
    have hbe := (binFile_iff hn hd).mp ⟨g0, g1, g2, g3⟩
    rw [hb, hbe, loadBin_ok hn hd (by rw [hl, Nat.mul_assoc]) _ h1 h2 mem] at h
    · cases h
    · rw [hbe] at hlen
      simp only [List.length_append, le_length, hl] at hlen
      rw [Nat.mul_assoc]; omega
  · left
    obtain ⟨rows, r1, r2, r3⟩ := exists_rows (d * es) n data (by rw [hl, Nat.mul_assoc])
    subst r1
    refine ⟨d, rows, _, hf, ?_, r2, ?_⟩
    · rw [← r3]; exact (binFile_iff hn hd).mpr rfl
    · rw [he, r3]

/-- **C32.** For one-byte elements `load_aligned_bin` accepts exactly the well-formed files. -/
theorem C32_load_aligned_rejects_bytes (file : Option Bytes) (j1 j2 : Bytes) (h1 : j1.length = 4)
    (h2 : j2.length = 4) (mem : Nat → UInt8) :
    (∃ dim rows b, file = some b ∧ Spec.BinFile dim rows b ∧ Spec.Matrix 1 dim rows ∧
        loadAligned 1 file j1 j2 mem =
          .ok (rows.length, dim, roundUp8 dim, (rows.map (Spec.padTo (roundUp8 dim))).flatten)) ∨
      loadAligned 1 file j1 j2 mem = .error .throw ∧
        ¬ ∃ dim rows b, file = some b ∧ Spec.BinFile dim rows b ∧ Spec.Matrix 1 dim rows ∧
          rows.length < 4294967296 ∧ dim < 4294967296 := by
  have bound : ∀ n d : Nat, n < 4294967296 → d < 4294967296 → n * d ≤ 18446744065119617025 := by
    intro n d hn hd
    calc n * d ≤ 4294967295 * 4294967295 := Nat.mul_le_mul (by omega) (by omega)
      _ = _ := by norm_num
  have abound : ∀ n d : Nat, n < 4294967296 → d < 4294967296 →
      n * roundUp8 d < 18446744073709551616 := by
    intro n d hn hd
    have : roundUp8 d ≤ 4294967296 := by unfold roundUp8; split <;> omega
    calc n * roundUp8 d ≤ 4294967295 * 4294967296 := Nat.mul_le_mul (by omega) this
      _ < _ := by norm_num
  by_cases hex : ∃ dim rows b, file = some b ∧ Spec.BinFile dim rows b ∧ Spec.Matrix 1 dim rows ∧
          rows.length < 4294967296 ∧ dim < 4294967296
  · left
    obtain ⟨dim, rows, b, hb, hbf, hm, hn, hd⟩ := hex
    refine ⟨dim, rows, b, hb, hbf, hm, ?_⟩
    rw [hb, (binFile_iff hn hd).mp hbf]
    have := bound _ _ hn hd
    have := loadAligned_ok hm hn hd (by omega) (by have := abound _ _ hn hd; omega) h1 h2 mem
    rw [Nat.mul_one] at this
    exact this
  · right
    refine ⟨?_, hex⟩
    obtain ⟨b1, b2⟩ := readHeader_lt file h1 h2
    unfold loadAligned
    rcases hq : readHeader file j1 j2 with ⟨n, d, s⟩
    rw [hq] at b1 b2
    dsimp only at b1 b2 ⊢
    rw [if_pos]
    intro ht
    have hb := bound _ _ b1 b2
    rw [u64, Nat.mul_one, Nat.mod_eq_of_lt (by omega)] at ht
    cases file with
    | none => simp only [tellSize] at ht; omega
    | some b =>
      simp only [tellSize] at ht
      obtain ⟨n', d', rest, hn, hd, hbb, hr, -, -⟩ := header_split b (by omega)
      have hh := readHeader_le hn hd h1 h2 rest
      rw [← hbb, hq] at hh
      simp only [Prod.mk.injEq] at hh
      obtain ⟨rfl, rfl, -⟩ := hh
      obtain ⟨rows, r1, r2, r3⟩ := exists_rows (d * 1) n rest (by
        rw [hr, List.length_drop, Nat.mul_one]; omega)
      subst r1
      exact hex ⟨d, rows, b, rfl, by rw [hbb, ← r3]; exact (binFile_iff hn hd).mpr rfl, r2, hn, hd⟩

/-- **C32**, in general.  If `load_aligned_bin` does not throw, the file length agrees with the header
modulo 2^64; it is a well-formed file whenever the header describes less than 2^64 bytes. -/
theorem C32_load_aligned_rejects_partial (es : Nat) (b : Bytes) (hlen : 8 ≤ b.length)
    (hsmall : unle (b.take 4) * unle ((b.drop 4).take 4) * es + 8 < 18446744073709551616)
    (hbad : b.length ≠ 8 + unle (b.take 4) * unle ((b.drop 4).take 4) * es) (j1 j2 : Bytes)
    (h1 : j1.length = 4) (h2 : j2.length = 4) (mem : Nat → UInt8) :
    loadAligned es (some b) j1 j2 mem = .error .throw := by
  obtain ⟨n, d, rest, hn, hd, hb, hr, en, ed⟩ := header_split b hlen
  have hh := readHeader_le hn hd h1 h2 rest
  rw [← hb] at hh
  unfold loadAligned
  rw [hh]
  dsimp only
  rw [if_pos]
  rw [← en, ← ed] at hsmall hbad
  simp only [tellSize, u64]
  rw [Nat.mod_eq_of_lt hsmall]; omega

/-- A missing file is rejected for elements of 1, 2, 4, 8, … bytes, whatever uninitialised memory
contains. -/
theorem C32_missing_file_rejected (es : Nat) (hes : es = 1 ∨ es % 2 = 0) (j1 j2 : Bytes)
    (h1 : j1.length = 4) (h2 : j2.length = 4) (mem : Nat → UInt8) :
    loadAligned es none j1 j2 mem = .error .throw ∧ loadBin es none j1 j2 mem = .error .throw := by
  have hne : tellSize none ≠ u64 ((readHeader none j1 j2).1 * (readHeader none j1 j2).2.1 * es + 8) := by
    obtain ⟨b1, b2⟩ := readHeader_lt none h1 h2
    generalize (readHeader none j1 j2).1 = n at *
    generalize (readHeader none j1 j2).2.1 = d at *
    simp only [tellSize, u64]
    rcases hes with rfl | he
    · have : n * d ≤ 4294967295 * 4294967295 := Nat.mul_le_mul (by omega) (by omega)
      omega
    · have : n * d * es % 2 = 0 := by rw [Nat.mul_mod, he, Nat.mul_zero]
      omega
  constructor
  · unfold loadAligned; dsimp only; rw [if_pos hne]
  · unfold loadBin; dsimp only; rw [if_pos hne]

/-- A row of zero bytes read from an exhausted stream changes nothing. -/
theorem alignedRows_exhausted (es d : Nat) : ∀ (todo i : Nat) (s : IStream) (data : Bytes),
    s.rest = [] → alignedRows es d d todo i s data = .ok data := by
  intro todo
  induction todo with
  | zero => intro i s data _; rfl
  | succ t ih =>
    intro i s data hs
    have hb : (s.read (d * es)).1 = [] := by
      unfold IStream.read; split
      · rfl
      · split <;> simp [hs]
    have hr : (s.read (d * es)).2.rest = [] := by
      unfold IStream.read; split
      · exact hs
      · split <;> simp [hs]
    unfold alignedRows
    rw [show s.read (d * es) = ((s.read (d * es)).1, (s.read (d * es)).2) from rfl, hb]
    simp only [blit, if_true, Res.ok_bind, Nat.sub_self, Nat.zero_mul, List.replicate_zero]
    exact ih _ _ _ hr

/-- **C32 is false** for 4-byte elements: a file of 8 bytes that announces 2^31 vectors of 2^31 floats is
accepted, and the array returned has no elements at all. -/
theorem C32_wraparound_accepted (j1 j2 : Bytes) (h1 : j1.length = 4) (h2 : j2.length = 4)
    (mem : Nat → UInt8) :
    loadAligned 4 (some [0, 0, 0, 128, 0, 0, 0, 128]) j1 j2 mem =
      .ok (2147483648, 2147483648, 2147483648, []) := by
  have e : ([0, 0, 0, 128, 0, 0, 0, 128] : Bytes) = le 4 2147483648 ++ (le 4 2147483648 ++ []) := by decide
  rw [e]
  unfold loadAligned
  rw [readHeader_le (by norm_num) (by norm_num) h1 h2]
  dsimp only
  rw [if_neg (by decide)]
  have ea : roundUp8 2147483648 = 2147483648 := by decide
  have ez : u64 (2147483648 * 2147483648 * 4) = 0 := by decide
  rw [ea, ez, alignedRows_exhausted _ _ _ _ _ _ rfl]
  rfl

/-- `get_bin_metadata` agrees with the other readers for counts below 2^31, and sign-extends larger
ones. -/
theorem C32_metadata (n d : Nat) (hn : n < 4294967296) (hd : d < 4294967296) (rest j1 j2 : Bytes)
    (h1 : j1.length = 4) (h2 : j2.length = 4) :
    binMetadata (some (le 4 n ++ (le 4 d ++ rest))) j1 j2 =
      (if n < 2147483648 then n else 18446744073709551616 - (4294967296 - n),
       if d < 2147483648 then d else 18446744073709551616 - (4294967296 - d)) := by
  unfold binMetadata
  rw [readHeader_le hn hd h1 h2]
  simp only [Prod.mk.injEq]
  constructor <;> split <;> split <;> omega

example : loadBin 4 (some [2, 0, 0, 0, 1, 0, 0, 0, 9, 9, 9, 9]) [1, 1, 1, 1] [1, 1, 1, 1] (fun _ => 0) =
    .error .throw := by decide

example : 8 ≤ ([2, 0, 0, 0, 1, 0, 0, 0, 9, 9, 9, 9] : Bytes).length ∧
    unle (([2, 0, 0, 0, 1, 0, 0, 0, 9, 9, 9, 9] : Bytes).take 4) = 2 := by decide

/-! ## The theorems applied to the examples -/

/-- C30: two vectors of one float, one of them NaN. -/
example := C30_bin_round_trip () (fun _ => some [9, 9]) 4 1 [[0, 0, 192, 127], [1, 2, 3, 4]]
  (by unfold Spec.Matrix; decide) (by decide) (by decide) (by decide) [7, 7, 7, 7] [1, 1, 1, 1] rfl rfl (fun _ => 5)

example := C30_saved_format () (fun _ => some [9, 9]) 1 [[0, 0, 192, 127], [1, 2, 3, 4]] (by decide) (by decide)

/-- C31: two vectors of three bytes. -/
theorem exBytes_file : Spec.BinFile 3 [[1, 2, 3], [4, 5, 6]] [2, 0, 0, 0, 3, 0, 0, 0, 1, 2, 3, 4, 5, 6] := by
  unfold Spec.BinFile; decide

example := C31_aligned_load 1 3 [[1, 2, 3], [4, 5, 6]] _ exBytes_file (by unfold Spec.Matrix; decide)
  (by decide) (by decide) (by decide) [7, 7, 7, 7] [1, 1, 1, 1] rfl rfl (fun _ => 5)

example := C31_save_removes_padding () (fun _ => some [9, 9]) 1 3 [[1, 2, 3], [4, 5, 6]] _ exBytes_file
  (by unfold Spec.Matrix; decide) (by decide) (by decide) (by decide) [7, 7, 7, 7] [1, 1, 1, 1] rfl rfl
  (fun _ => 5)

/-- Row 1, then row 0, then row 1 again. -/
example := C31_subset_round_trip () (fun _ => some [9, 9]) 1 3 8 [[1, 2, 3], [4, 5, 6]]
  (by unfold Spec.Matrix; decide) (by decide) [1, 0, 1] (by decide) (by decide) (by decide) (by decide)
  [7, 7, 7, 7] [1, 1, 1, 1] rfl rfl (fun _ => 5)

/-- C32: the second of two announced floats is missing, for the three readers. -/
example := C32_load_bin_rejects 4 (some [2, 0, 0, 0, 1, 0, 0, 0, 9, 9, 9, 9]) [1, 1, 1, 1] [1, 1, 1, 1] rfl rfl
  (fun _ => 0)

example := C32_load_aligned_rejects_bytes (some [2, 0, 0, 0, 1, 0, 0, 0, 9]) [1, 1, 1, 1] [1, 1, 1, 1] rfl rfl
  (fun _ => 0)

example : loadAligned 4 (some [2, 0, 0, 0, 1, 0, 0, 0, 9, 9, 9, 9]) [1, 1, 1, 1] [1, 1, 1, 1] (fun _ => 0)
    = .error .throw :=
  C32_load_aligned_rejects_partial 4 _ (by decide) (by decide) (by decide) _ _ rfl rfl _

example := C32_missing_file_rejected 4 (by decide) [1, 1, 1, 1] [2, 2, 2, 2] rfl rfl (fun _ => 0)

example := C32_wraparound_accepted [1, 1, 1, 1] [2, 2, 2, 2] rfl rfl (fun _ => 0)

/-- A count of 2^32 - 1 becomes 2^64 - 1. -/
example := C32_metadata 4294967295 3 (by decide) (by decide) [9, 9] [1, 1, 1, 1] [2, 2, 2, 2] rfl rfl

/-- A step of the loop fails or keeps the length of the block. -/
theorem blit_length {mem b r : Bytes} {off : Nat} (h : blit mem off b = .ok r) : r.length = mem.length := by
  unfold blit at h
  split at h
  · cases h; rfl
  · split at h
    · cases h
      rename_i h2
      simp only [List.length_append, List.length_take, List.length_drop]
      omega
    · exact absurd h (by simp)

theorem blit_error {mem b : Bytes} {off : Nat} {e : Err} (h : blit mem off b = .error e) : e = .ub := by
  unfold blit at h
  split at h
  · exact absurd h (by simp)
  · split at h
    · exact absurd h (by simp)
    · cases h; rfl

theorem alignedRows_overflow {es dim adim : Nat} (hes : 0 < es) (hd : dim < adim) : ∀ (todo i : Nat) (s : IStream) (data : Bytes),
    0 < todo → data.length < (i + todo) * adim * es → alignedRows es dim adim todo i s data = .error .ub
  | 0, _, _, _, h, _ => absurd h (by decide)
  | t + 1, i, s, data, _, hl => by
    unfold alignedRows
    cases h1 : blit data (i * adim * es) (s.read (dim * es)).1 with
    | error e => rw [blit_error h1] at h1; simp only [h1]; rfl
    | ok d1 =>
      simp only [h1, Res.ok_bind]
      cases h2 : blit d1 ((i * adim + dim) * es) (List.replicate ((adim - dim) * es) 0) with
      | error e => rw [blit_error h2]; rfl
      | ok d2 =>
        simp only [Res.ok_bind]
        have l1 := blit_length h1
        have l2 := blit_length h2
        rcases Nat.eq_zero_or_pos t with rfl | ht
        · exfalso
          have hne : List.replicate ((adim - dim) * es) (0 : UInt8) ≠ [] := by
            intro e
            have := congrArg List.length e
            rw [List.length_replicate, List.length_nil] at this
            have := Nat.mul_pos (Nat.sub_pos_of_lt hd) hes
            omega
          unfold blit at h2
          rw [if_neg hne] at h2
          split at h2
          · rename_i hle
            rw [List.length_replicate, l1, ← Nat.add_mul, Nat.add_assoc, Nat.add_sub_cancel' (Nat.le_of_lt hd)] at hle
            have e : (i + (0 + 1)) * adim = i * adim + adim := by rw [Nat.zero_add, Nat.succ_mul]
            rw [e] at hl
            exact absurd hle (Nat.not_le.2 hl)
          · exact absurd h2 (by simp)
        · refine alignedRows_overflow hes hd t (i + 1) _ d2 ht ?_
          rw [l2, l1]
          have : i + 1 + t = i + (t + 1) := by omega
          rw [this]
          exact hl

/-- **C32 is false, heap overflow.**  If the header passes the check of the size, which is done modulo 2^64, the dimension
is not a multiple of 8 and the padded vectors do not fit into 2^64 bytes, zeros are written outside of the block. -/
theorem C32_overflow (es n d : Nat) (hes : 0 < es) (hn : n < 4294967296) (hd : d < 4294967296) (rest : Bytes)
    (hsize : 8 + rest.length = u64 (n * d * es + 8)) (h8 : d % 8 ≠ 0)
    (hwrap : 18446744073709551616 ≤ n * roundUp8 d * es) (j1 j2 : Bytes) (h1 : j1.length = 4) (h2 : j2.length = 4)
    (mem : Nat → UInt8) : loadAligned es (some (le 4 n ++ (le 4 d ++ rest))) j1 j2 mem = .error .ub := by
  have hlen : tellSize (some (le 4 n ++ (le 4 d ++ rest))) = 8 + rest.length := by
    simp only [tellSize, List.length_append, le_length]; omega
  have hdr : d < roundUp8 d := by unfold roundUp8; rw [if_pos h8]; omega
  unfold loadAligned
  rw [readHeader_le hn hd h1 h2]
  dsimp only
  rw [if_neg (by rw [hlen, hsize]; exact fun h => h rfl)]
  rw [alignedRows_overflow hes hdr n 0 _ _ ?_ ?_]
  · rfl
  · rcases Nat.eq_zero_or_pos n with rfl | h
    · rw [Nat.zero_mul, Nat.zero_mul] at hwrap
      exact absurd hwrap (by decide)
    · exact h
  · rw [List.length_map, List.length_range, Nat.zero_add]
    exact Nat.lt_of_lt_of_le (Nat.mod_lt _ (by decide)) hwrap

/-- A file of 166840 bytes that does it: 2147529989 vectors of 2147437308 floats are announced. -/
example (j1 j2 : Bytes) (h1 : j1.length = 4) (h2 : j2.length = 4) (mem : Nat → UInt8) :
    loadAligned 4 (some (le 4 2147529989 ++ (le 4 2147437308 ++ List.replicate 166832 0))) j1 j2 mem = .error .ub := by
  refine C32_overflow 4 _ _ (by decide) (by decide) (by decide) _ ?_ (by decide) (by decide) j1 j2 h1 h2 mem
  rw [List.length_replicate]
  decide

end Grann
