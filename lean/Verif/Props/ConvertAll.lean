import Verif.Props.UtilLine
/-!
# C74, C87: tables of bytes with any number of blocks
-/

namespace Grann

/-- The stream still holds the rows `R`, or it has failed and there is nothing left. -/
def StreamHolds (s : IStream) (R : List (List Bytes)) : Prop :=
  (s = ⟨R.flatMap List.flatten, false, false⟩) ∨ (R = [] ∧ s.fail = true)

theorem flat_take {ndims : Nat} {R : List (List Bytes)} (h : ∀ r ∈ R, r.flatten.length = ndims) (k : Nat) :
    (R.flatMap List.flatten).take (k * ndims) = (R.take k).flatMap List.flatten := by
  induction R generalizing k with
  | nil => simp
  | cons a R ih =>
    cases k with
    | zero => simp
    | succ k =>
      have ha := h a (by simp)
      rw [List.flatMap_cons, List.take_succ_cons, List.flatMap_cons, List.take_append, ha,
        show (k + 1) * ndims - ndims = k * ndims by rw [Nat.succ_mul]; omega, ih (fun r hr => h r (by simp [hr]))]
      rw [List.take_of_length_le (by rw [ha, Nat.succ_mul]; omega)]

theorem flat_drop {ndims : Nat} {R : List (List Bytes)} (h : ∀ r ∈ R, r.flatten.length = ndims) (k : Nat) :
    (R.flatMap List.flatten).drop (k * ndims) = (R.drop k).flatMap List.flatten := by
  induction R generalizing k with
  | nil => simp
  | cons a R ih =>
    cases k with
    | zero => simp
    | succ k =>
      have ha := h a (by simp)
      rw [List.flatMap_cons, List.drop_succ_cons, List.drop_append, ha,
        show (k + 1) * ndims - ndims = k * ndims by rw [Nat.succ_mul]; omega, ih (fun r hr => h r (by simp [hr]))]
      rw [List.drop_of_length_le (by rw [ha, Nat.succ_mul]; omega), List.nil_append]

theorem streamHolds_read {ndims : Nat} {s : IStream} {R : List (List Bytes)} (h : ∀ r ∈ R, r.flatten.length = ndims)
    (hs : StreamHolds s R) (n : Nat) :
    (s.read (n * (ndims * 4))).1 = (R.take (4 * n)).flatMap List.flatten ∧
      StreamHolds (s.read (n * (ndims * 4))).2 (R.drop (4 * n)) := by
  have e : n * (ndims * 4) = (4 * n) * ndims := by rw [Nat.mul_comm ndims 4, ← Nat.mul_assoc, Nat.mul_comm n 4]
  rw [e]
  rcases hs with rfl | ⟨rfl, hf⟩
  · unfold IStream.read
    rw [if_neg (by simp)]
    dsimp only
    have hl := flatMap_len List.flatten ndims R h
    split
    · exact ⟨flat_take h _, .inl (by rw [flat_drop h])⟩
    · rename_i hc
      rw [hl] at hc
      have hle : R.length ≤ 4 * n := by
        by_contra hno
        exact hc (Nat.mul_le_mul_right _ (by omega))
      exact ⟨by rw [List.take_of_length_le hle], .inr ⟨List.drop_of_length_le hle, rfl⟩⟩
  · unfold IStream.read
    rw [if_pos (by simp [hf])]
    exact ⟨by simp, .inr ⟨by simp, rfl⟩⟩

/-- What the buffer holds before block `i`. -/
def bufRows (blk : Nat) (rows : List (List Bytes)) : Nat → List (List Bytes)
  | 0 => []
  | i + 1 => (List.range (min rows.length (4 * blk))).map
      (fun t => rows.getD (4 * blk * min i ((rows.length - 1 - t) / (4 * blk)) + t) [])

theorem bufRows_step {blk : Nat} (hb : 1 ≤ blk) (rows : List (List Bytes)) (i : Nat) :
    ((rows.drop (4 * blk * i)).take (4 * blk)) ++ (bufRows blk rows i).drop ((rows.drop (4 * blk * i)).take (4 * blk)).length =
      bufRows blk rows (i + 1) := by
  have hl : ((rows.drop (4 * blk * i)).take (4 * blk)).length = min (4 * blk) (rows.length - 4 * blk * i) := by simp
  have hv : ∀ j, (bufRows blk rows (j + 1)).length = min rows.length (4 * blk) := by intro j; simp [bufRows]
  refine List.ext_getElem? (fun t => ?_)
  have hnew : (bufRows blk rows (i + 1))[t]? = if t < min rows.length (4 * blk) then
      some (rows.getD (4 * blk * min i ((rows.length - 1 - t) / (4 * blk)) + t) []) else none := by
    by_cases ht : t < min rows.length (4 * blk)
    · rw [if_pos ht]
      simp only [bufRows, List.getElem?_map, List.getElem?_range ht, Option.map_some]
    · rw [if_neg ht, List.getElem?_eq_none (by rw [hv]; omega)]
  rw [hnew]
  by_cases hc : t < min (4 * blk) (rows.length - 4 * blk * i)
  · rw [List.getElem?_append_left (by rw [hl]; exact hc), List.getElem?_take, if_pos (by omega), List.getElem?_drop,
      if_pos (by omega)]
    have : i ≤ (rows.length - 1 - t) / (4 * blk) := by
      rw [Nat.le_div_iff_mul_le (by omega), Nat.mul_comm]
      omega
    rw [Nat.min_eq_left this, List.getD_eq_getElem?_getD, List.getElem?_eq_getElem (by omega)]
    rfl
  · rw [List.getElem?_append_right (by rw [hl]; omega), List.getElem?_drop, hl,
      show min (4 * blk) (rows.length - 4 * blk * i) + (t - min (4 * blk) (rows.length - 4 * blk * i)) = t by omega]
    cases i with
    | zero =>
      rw [if_neg (by simp at hc ⊢; omega)]
      rfl
    | succ i =>
      by_cases ht : t < min rows.length (4 * blk)
      · rw [if_pos ht]
        simp only [bufRows, List.getElem?_map, List.getElem?_range ht, Option.map_some]
        have h1 : (rows.length - 1 - t) / (4 * blk) ≤ i := by
          refine Nat.le_of_lt_succ ?_
          rw [Nat.div_lt_iff_lt_mul (by omega), Nat.mul_comm, Nat.succ_eq_add_one]
          omega
        rw [Nat.min_eq_right h1, Nat.min_eq_right (by omega)]
      · rw [if_neg ht, List.getElem?_eq_none (by rw [hv]; omega)]

/-- The row of the table at place `o`. -/
def tsvRow (blk : Nat) (rows : List (List Bytes)) (o : Nat) : List Bytes :=
  rows.getD (4 * blk * min (o / blk) ((rows.length - 1 - o % blk) / (4 * blk)) + o % blk) []

theorem tsvRow_block {blk : Nat} (hb : 1 ≤ blk) (rows : List (List Bytes)) (i n : Nat) (hn : n ≤ blk) (hn' : n ≤ rows.length) :
    (bufRows blk rows (i + 1)).take n = (List.range' (i * blk) n).map (tsvRow blk rows) := by
  refine List.ext_getElem? (fun t => ?_)
  rw [List.getElem?_take, List.getElem?_map]
  by_cases ht : t < n
  · rw [if_pos ht, List.getElem?_range' ht]
    have h1 : t < min rows.length (4 * blk) := by omega
    simp only [bufRows, List.getElem?_map, List.getElem?_range h1, Option.map_some, Nat.one_mul, tsvRow]
    rw [show i * blk + t = blk * i + t by rw [Nat.mul_comm], Nat.mul_add_div (by omega), Nat.mul_add_mod,
      Nat.div_eq_of_lt (show t < blk by omega), Nat.mod_eq_of_lt (show t < blk by omega), Nat.add_zero]
  · rw [if_neg ht, List.getElem?_eq_none (by simp; omega)]
    rfl

theorem bufRows_mem {blk : Nat} (hb : 1 ≤ blk) (rows : List (List Bytes)) : ∀ i, ∀ r ∈ bufRows blk rows i, r ∈ rows
  | 0, r, hr => by simp [bufRows] at hr
  | i + 1, r, hr => by
    rw [← bufRows_step hb] at hr
    rcases List.mem_append.1 hr with h | h
    · exact List.mem_of_mem_drop (List.mem_of_mem_take h)
    · exact bufRows_mem hb rows i r (List.mem_of_mem_drop h)

theorem tsvLoop_rows {blk ndims : Nat} (hb : 1 ≤ blk) (hd : 1 ≤ ndims) {rows : List (List Bytes)} (h : Matrix8 1 ndims rows)
    (fmt : Bytes → Bytes) : ∀ (todo i : Nat) (s : IStream) (junk out : Bytes),
    i + todo = convBlocks rows.length blk → StreamHolds s (rows.drop (4 * blk * i)) →
    ((bufRows blk rows i).flatMap List.flatten ++ junk).length = blk * ndims * 4 →
    convLoop blk rows.length (ndims * 4) (elemEmit 1 ndims (tsvElem ndims fmt)) todo i s
      ((bufRows blk rows i).flatMap List.flatten ++ junk) out =
      .ok (out ++ Spec.tsvFile fmt ((List.range' (i * blk) (rows.length - i * blk)).map (tsvRow blk rows))) := by
  intro todo
  have hw : ∀ r ∈ rows, r.flatten.length = ndims := fun r hr => by rw [rawRow_len h r hr, Nat.mul_one]
  induction todo with
  | zero =>
    intro i s junk out hi _ _
    have := convBlocks_end rows.length blk hb
    rw [show convBlocks rows.length blk = i by omega] at this
    rw [Nat.sub_eq_zero_of_le this]
    simp [convLoop, Spec.tsvFile]
  | succ todo ih =>
    intro i s junk out hi hs hlen
    have hlt : i * blk < rows.length := by
      have e := convBlocks_eq rows.length blk hb
      have hdm := Nat.div_add_mod rows.length blk
      have h1 : i ≤ rows.length / blk := by split at e <;> omega
      have h2 : blk * i ≤ blk * (rows.length / blk) := Nat.mul_le_mul_left _ h1
      have h4 : i * blk = blk * i := Nat.mul_comm _ _
      rcases Nat.lt_or_ge i (rows.length / blk) with h3 | h3
      · have : blk * (i + 1) ≤ blk * (rows.length / blk) := Nat.mul_le_mul_left _ h3
        rw [Nat.mul_succ] at this
        omega
      · split at e <;> omega
    obtain ⟨n, hn⟩ : ∃ n, n = min (rows.length - i * blk) blk := ⟨_, rfl⟩
    obtain ⟨hr1, hr2⟩ := streamHolds_read (fun r hr => hw r (List.mem_of_mem_drop hr)) hs n
    -- four times the number of bytes needed
    have hfour : 4 * n = 4 * blk ∨ rows.length - 4 * blk * i ≤ 4 * n := by
      have : 4 * blk * i = 4 * (i * blk) := by rw [Nat.mul_assoc, Nat.mul_comm blk]
      omega
    have htake : (rows.drop (4 * blk * i)).take (4 * n) = (rows.drop (4 * blk * i)).take (4 * blk) := by
      rcases hfour with h4 | h4
      · rw [h4]
      · rw [List.take_of_length_le (by simp; omega), List.take_of_length_le (by simp; omega)]
    have hdrop : (rows.drop (4 * blk * i)).drop (4 * n) = rows.drop (4 * blk * (i + 1)) := by
      rw [List.drop_drop]
      rcases hfour with h4 | h4
      · rw [h4, Nat.mul_succ]
      · rw [List.drop_of_length_le (by omega), List.drop_of_length_le (by rw [Nat.mul_succ]; omega)]
    rw [htake] at hr1
    rw [hdrop] at hr2
    obtain ⟨C, hC⟩ : ∃ C, C = (rows.drop (4 * blk * i)).take (4 * blk) := ⟨_, rfl⟩
    have hCm : ∀ r ∈ C, r ∈ rows := fun r hr => by rw [hC] at hr; exact List.mem_of_mem_drop (List.mem_of_mem_take hr)
    have hCl := flatMap_len List.flatten ndims C (fun r hr => hw r (hCm r hr))
    have hC4 : C.length ≤ 4 * blk := by rw [hC]; simp
    have hfit : C.length * ndims ≤ blk * ndims * 4 := by
      rw [show blk * ndims * 4 = 4 * blk * ndims by rw [Nat.mul_assoc 4, Nat.mul_comm 4]]
      exact Nat.mul_le_mul_right _ hC4
    have hstep := bufRows_step hb rows i
    rw [← hC] at hr1 hstep
    unfold convLoop
    rw [← hn]
    have hrd : s.read (n * (ndims * 4)) = ((s.read (n * (ndims * 4))).1, (s.read (n * (ndims * 4))).2) := rfl
    dsimp only
    rw [hrd, hr1]
    dsimp only
    rw [blit_zero _ _ (by rw [hlen, hCl]; exact hfit), Res.ok_bind]
    have hbuf : C.flatMap List.flatten ++ ((bufRows blk rows i).flatMap List.flatten ++ junk).drop (C.flatMap List.flatten).length =
        (bufRows blk rows (i + 1)).flatMap List.flatten ++
          junk.drop (C.length * ndims - ((bufRows blk rows i).flatMap List.flatten).length) := by
      rw [hCl, List.drop_append, flat_drop (fun r hr => hw r (bufRows_mem hb rows i r hr)), ← List.append_assoc,
        ← List.flatMap_append, hstep]
    have hlen' : (C.flatMap List.flatten ++
        ((bufRows blk rows i).flatMap List.flatten ++ junk).drop (C.flatMap List.flatten).length).length = blk * ndims * 4 := by
      rw [List.length_append, List.length_drop, hlen, hCl]; omega
    rw [hbuf] at hlen' ⊢
    have hnle : n ≤ (bufRows blk rows (i + 1)).length := by simp [bufRows]; omega
    have hmat : Matrix8 1 ndims (bufRows blk rows (i + 1)) :=
      ⟨by have := h.n; simp [bufRows]; omega, h.dim, fun r hr => h.row r (bufRows_mem hb rows _ r hr),
        fun r hr => h.elem r (bufRows_mem hb rows _ r hr)⟩
    rw [elemEmit_take hd fmt hmat _ hnle, Res.ok_bind, ih (i + 1) _ _ _ (by omega) hr2 hlen',
      tsvRow_block hb rows i n (by omega) (by omega), List.append_assoc]
    congr 2
    unfold Spec.tsvFile
    rw [← List.flatMap_append, ← List.map_append]
    congr 2
    have e : rows.length - i * blk = n + (rows.length - (i + 1) * blk) := by rw [Nat.succ_mul]; omega
    rw [e]
    by_cases hfull : n = blk
    · rw [hfull, show (i + 1) * blk = i * blk + blk from Nat.succ_mul _ _, ← List.range'_append_1]
    · have : rows.length - (i + 1) * blk = 0 := by rw [Nat.succ_mul]; omega
      rw [this]
      simp

/-- **C74 (tables of bytes, exactly).**  For a type of one byte and any number of vectors, `bin_to_tsv` writes in line `o` (the line
at place `t = o % blk` of block `i = o / blk`) the vector number `4 * blk * j + t`, where `j` is the last number up to
`i` for which there is such a vector. -/
theorem C74_tsv_lines {blk ndims : Nat} (hb : 1 ≤ blk) (hd : 1 ≤ ndims) {rows : List (List Bytes)} (h : Matrix8 1 ndims rows)
    (fmt : Bytes → Bytes) (j1 j2 : Bytes) (h1 : j1.length = 4) (h2 : j2.length = 4) (mem : Nat → UInt8) :
    binToTsv blk 1 fmt (some (Spec.binFile ndims (rows.map List.flatten))) j1 j2 mem =
      .ok (Spec.tsvFile fmt ((List.range rows.length).map (fun o =>
        rows.getD (4 * blk * min (o / blk) ((rows.length - 1 - o % blk) / (4 * blk)) + o % blk) []))) := by
  unfold binToTsv Spec.binFile
  rw [List.append_assoc, List.length_map, readHeader_le h.n h.dim h1 h2]
  dsimp only
  have := tsvLoop_rows hb hd h fmt (convBlocks rows.length blk) 0 ⟨rows.flatMap List.flatten, false, false⟩
    ((List.range (blk * ndims * 4)).map mem) [] (by omega) (.inl (by simp)) (by simp [bufRows])
  rw [← List.flatMap_def]
  simp only [bufRows, List.flatMap_nil, List.nil_append, Nat.zero_mul, Nat.sub_zero] at this
  rw [this, List.range_eq_range']
  rfl

/-- **C74 (tables of bytes: vectors that are missing).**  Only vectors whose number leaves a remainder below `blk` when divided by
`4 * blk` can occur in the table, so from the second block on lines are wrong: if the vectors differ from each other,
the lines are the vectors exactly if there is a single block. -/
theorem C74_tsv_lines_right_iff {blk : Nat} (hb : 1 ≤ blk) (rows : List (List Bytes)) (hnd : rows.Nodup) :
    (List.range rows.length).map (fun o =>
      rows.getD (4 * blk * min (o / blk) ((rows.length - 1 - o % blk) / (4 * blk)) + o % blk) []) = rows ↔
    rows.length ≤ blk := by
  constructor
  · intro h
    by_contra hno
    have h1 := congrArg (fun l => l[blk]?) h
    simp only [List.getElem?_map, List.getElem?_range (show blk < rows.length by omega), Option.map_some] at h1
    rw [Nat.div_self (by omega), Nat.mod_self, Nat.add_zero, Nat.sub_zero, List.getD_eq_getElem?_getD] at h1
    obtain ⟨k, hk⟩ : ∃ k, k = 4 * blk * min 1 ((rows.length - 1) / (4 * blk)) := ⟨_, rfl⟩
    rw [← hk] at h1
    have hkl : k < rows.length ∧ k ≠ blk := by
      rcases Nat.lt_or_ge ((rows.length - 1) / (4 * blk)) 1 with h2 | h2
      · rw [Nat.lt_one_iff.1 h2, Nat.min_zero, Nat.mul_zero] at hk
        omega
      · rw [Nat.min_eq_left h2, Nat.mul_one] at hk
        have h2 : 1 ≤ (rows.length - 1) / (4 * blk) := h2
        rw [Nat.le_div_iff_mul_le (by omega)] at h2
        omega
    rw [List.getElem?_eq_getElem hkl.1, List.getElem?_eq_getElem (show blk < rows.length by omega)] at h1
    exact hkl.2 ((List.Nodup.getElem_inj_iff hnd).1 (by simpa using h1))
  · intro h
    refine List.ext_getElem (by simp) (fun o h1 h2 => ?_)
    simp only [List.getElem_map, List.getElem_range]
    rw [List.getD_eq_getElem?_getD]
    rcases Nat.lt_or_ge o blk with h3 | h3
    · rw [Nat.div_eq_of_lt h3, Nat.mod_eq_of_lt h3, Nat.zero_min, Nat.mul_zero, Nat.zero_add, List.getElem?_eq_getElem h2]
      rfl
    · omega

/-- **C87 (tables of bytes, any number of vectors).**  What `bin_to_tsv int8 in out` and `bin_to_tsv uint8 in out` leave in `out`. -/
theorem C87_tsv_lines (env : UtilEnv) (hj1 : env.j1.length = 4) (hj2 : env.j2.length = 4) (a t i o : Bytes)
    (ht : t = ascii "int8" ∨ t = ascii "uint8") (fs : FS Bytes) (hio : i ≠ o)
    {ndims : Nat} (hd : 1 ≤ ndims) {rows : List (List Bytes)} (h : Matrix8 1 ndims rows)
    (hfile : fs i = some (Spec.binFile ndims (rows.map List.flatten))) :
    Spec.Wrote (toTsvMain env [a, t, i, o] fs) o (Spec.tsvFile id ((List.range rows.length).map (fun o =>
      rows.getD (524288 * min (o / 131072) ((rows.length - 1 - o % 131072) / 524288) + o % 131072) []))) := by
  have e : toTsvMain env [a, t, i, o] fs = copyTool env i o (binToTsv 131072 1 id (fs i) env.j1 env.j2 env.mem) := by
    rcases ht with rfl | rfl <;> rfl
  rw [e, hfile]
  exact copy_out hio (C74_tsv_lines (by decide) hd h id env.j1 env.j2 hj1 hj2 env.mem)

/-- Thirteen vectors in blocks of two: the first block holds vectors 0 and 1, the second 8 and 9, all others repeat these. -/
example : ((List.range 13).map (fun n => [[UInt8.ofNat n]])).Nodup ∧
    (List.range 13).map (fun o => 4 * 2 * min (o / 2) ((13 - 1 - o % 2) / (4 * 2)) + o % 2) =
      [0, 1, 8, 9, 8, 9, 8, 9, 8, 9, 8, 9, 8] := by decide

example := C74_tsv_lines (blk := 2) (by decide) (by decide) exMatrix1 id [9, 9, 9, 9] [9, 9, 9, 9] rfl rfl (fun _ => 8)
example := C74_tsv_lines_right_iff (blk := 2) (by decide) ((List.range 13).map (fun n => [[UInt8.ofNat n]])) (by decide)
example := C87_tsv_lines exUtil rfl rfl (ascii "bin_to_tsv") (ascii "uint8") (ascii "in") (ascii "out") (Or.inr rfl)
  (fun p => if p = ascii "in" then some (Spec.binFile 2 [[65, 66], [67, 68]]) else none) (by decide) (by decide)
  (show Matrix8 1 2 [[[65], [66]], [[67], [68]]] by constructor <;> decide) (if_pos rfl)

end Grann
