import Verif.Model.FloatTable
import Verif.Props.FloatText
import Verif.Props.Convert
/-!
# C74: tables of floats
-/

namespace Grann

/-- Tokens separated by white space. -/
inductive Toks : List Bytes → Bytes → Prop
  | nil (w : Bytes) : (∀ c ∈ w, isSpace c = true) → Toks [] w
  | cons (w t : Bytes) (l : List Bytes) (s : Bytes) : (∀ c ∈ w, isSpace c = true) → (∀ c, s.head? = some c → isSpace c = true) →
      Toks l s → Toks (t :: l) (w ++ (t ++ s))

theorem toks_space {l : List Bytes} {s : Bytes} {c : UInt8} (h : Toks l s) (hc : isSpace c = true) : Toks l (c :: s) := by
  cases h with
  | nil w hw =>
    refine .nil _ ?_
    intro d hd
    rcases List.mem_cons.1 hd with rfl | hd
    · exact hc
    · exact hw d hd
  | cons w t l s hw hs h =>
    refine .cons (c :: w) t l s ?_ hs h
    intro d hd
    rcases List.mem_cons.1 hd with rfl | hd
    · exact hc
    · exact hw d hd

theorem toks_row (fmt : Bytes → Bytes) {l : List Bytes} {s : Bytes} (h : Toks l s) : ∀ r : List Bytes, r ≠ [] →
    Toks (r.map fmt ++ l) (List.intercalate [9] (r.map fmt) ++ (10 :: s)) := by
  intro r
  induction r with
  | nil => intro h; exact absurd rfl h
  | cons x r ih =>
    intro _
    cases r with
    | nil =>
      have := Toks.cons [] (fmt x) l (10 :: s) (by simp) (by intro c hc; cases hc; rfl) (toks_space h rfl)
      simpa [List.intercalate, List.intersperse] using this
    | cons y r =>
      have h2 := toks_space (c := 9) (ih (by simp)) rfl
      have := Toks.cons [] (fmt x) _ _ (by simp) (by intro c hc; cases hc; rfl) h2
      simpa [List.intercalate, List.intersperse] using this

theorem toks_file (fmt : Bytes → Bytes) : ∀ rows : List (List Bytes), (∀ r ∈ rows, r ≠ []) → Toks (rows.flatten.map fmt) (Spec.tsvFile fmt rows) := by
  intro rows
  induction rows with
  | nil => intro _; exact .nil [] (by simp)
  | cons r rows ih =>
    intro h
    have := toks_row fmt (ih (fun q hq => h q (by simp [hq]))) r (h r (by simp))
    simpa [Spec.tsvFile] using this

theorem signOf_none {t : Bytes} (h : ∀ c, t.head? = some c → c ≠ 43 ∧ c ≠ 45) : signOf t = [] := by
  unfold signOf
  rw [if_neg]
  rintro (h1 | h1)
  · exact (h _ h1).1 rfl
  · exact (h _ h1).2 rfl

theorem signOf_sign {s u : Bytes} {neg : Bool} (h : SignText s neg) (hu : ∀ c, u.head? = some c → c ≠ 43 ∧ c ≠ 45) : signOf (s ++ u) = s := by
  cases h with
  | none => exact signOf_none hu
  | plus => rfl
  | minus => rfl

theorem expChars_exp {e : Bytes} {k : Int} (he : ExpText e k) {s : Bytes}
    (hs : ∀ c, s.head? = some c → isDigit c = false ∧ c ≠ 43 ∧ c ≠ 45 ∧ c ≠ 46 ∧ c ≠ 101 ∧ c ≠ 69) : expChars true (e ++ s) = (e, s) := by
  unfold expChars
  cases he with
  | none =>
    rw [List.nil_append, if_neg]
    rintro ⟨h | h, -⟩
    · exact (hs _ h).2.2.2.2.1 rfl
    · exact (hs _ h).2.2.2.2.2 rfl
  | exp c g u n h1 h2 h3 h4 =>
    have hc : ((c :: (g ++ u) ++ s).head? = some 101 ∨ (c :: (g ++ u) ++ s).head? = some 69) ∧ true = true := by
      rcases h1 with rfl | rfl
      · exact ⟨.inl rfl, rfl⟩
      · exact ⟨.inr rfl, rfl⟩
    rw [if_pos hc, List.cons_append, List.drop_succ_cons, List.drop_zero, List.append_assoc, List.take_succ_cons, List.take_zero]
    have hsg : signOf (g ++ (u ++ s)) = g := signOf_sign h2 (by
      intro d hd
      cases u with
      | nil => exact absurd rfl h3
      | cons x u =>
        simp only [List.cons_append, List.head?_cons, Option.some.injEq] at hd
        have := digit_ne (h4 x (by simp))
        rw [← hd]
        exact ⟨this.1, this.2.1⟩)
    rw [hsg]
    dsimp only
    rw [List.drop_left, (takeWhile_digits h4 (fun d hd => (hs d hd).1)).1, (takeWhile_digits h4 (fun d hd => (hs d hd).1)).2]
    rfl

/-- Exactly the characters of a decimal number followed by white space are taken. -/
theorem floatChars_dec {t : Bytes} {neg : Bool} {a b : Bytes} {k : Int} (h : DecText t neg a b k) {s : Bytes}
    (hs : ∀ c, s.head? = some c → isSpace c = true) : floatChars (t ++ s) = (t, s) := by
  obtain ⟨⟨g, f, e, rfl, hg, hf, he⟩, ha, hne⟩ := h
  have hsp : ∀ c, isSpace c = true → isDigit c = false ∧ c ≠ 43 ∧ c ≠ 45 ∧ c ≠ 46 ∧ c ≠ 101 ∧ c ≠ 69 := by
    intro c hc
    refine ⟨?_, ?_, ?_, ?_, ?_, ?_⟩
    · by_contra hd
      rw [(digit_ne (by simpa using hd)).2.2.2.2.2] at hc
      cases hc
    all_goals (rintro rfl; revert hc; decide)
  have hs' := fun c hc => hsp c (hs c hc)
  have hes : ∀ c, (e ++ s).head? = some c → isDigit c = false ∧ c ≠ 46 ∧ c ≠ 43 ∧ c ≠ 45 := by
    intro c hc
    cases he with
    | none => exact ⟨(hs' c hc).1, (hs' c hc).2.2.2.1, (hs' c hc).2.1, (hs' c hc).2.2.1⟩
    | exp c' s' u n h1 h2 h3 h4 =>
      simp only [List.cons_append, List.head?_cons, Option.some.injEq] at hc
      subst hc
      rcases h1 with rfl | rfl <;> decide
  have hfe : ∀ c, (f ++ (e ++ s)).head? = some c → isDigit c = false ∧ c ≠ 43 ∧ c ≠ 45 := by
    intro c hc
    cases hf with
    | none => exact ⟨(hes c hc).1, (hes c hc).2.2⟩
    | point _ _ =>
      simp only [List.cons_append, List.head?_cons, Option.some.injEq] at hc
      subst hc
      decide
  have hsg : signOf (g ++ (a ++ (f ++ (e ++ s)))) = g := signOf_sign hg (by
    intro c hc
    cases a with
    | nil => exact (hfe c hc).2
    | cons x a =>
      simp only [List.cons_append, List.head?_cons, Option.some.injEq] at hc
      have := digit_ne (ha x (by simp))
      rw [← hc]
      exact ⟨this.1, this.2.1⟩)
  have ht := takeWhile_digits ha (fun c hc => (hfe c hc).1)
  rw [List.append_assoc, List.append_assoc, List.append_assoc]
  unfold floatChars
  rw [hsg]
  dsimp only
  rw [List.drop_left, ht.1, ht.2]
  cases hf with
  | none =>
    have hn : ¬ ([] ++ (e ++ s)).head? = some 46 := fun hc => (hes _ hc).2.1 rfl
    have ha0 : a.isEmpty = false := by
      cases a with
      | nil => simp at hne
      | cons => rfl
    rw [if_neg hn, if_neg hn, ha0, show (!false || decide (1 < ([] : Bytes).length)) = true from rfl, List.nil_append (e ++ s),
      expChars_exp he hs']
  | point b hb =>
    have hp : (46 :: b ++ (e ++ s)).head? = some 46 := rfl
    have htb := takeWhile_digits hb (fun c hc => (hes c hc).1)
    rw [if_pos hp, if_pos hp, show List.drop 1 (46 :: b ++ (e ++ s)) = b ++ (e ++ s) from rfl, htb.1, htb.2]
    have hm : (!a.isEmpty || decide (1 < (46 :: b).length)) = true := by
      rcases hne with h | h
      · cases a with
        | nil => exact absurd rfl h
        | cons => rfl
      · cases b with
        | nil => exact absurd rfl h
        | cons => simp
    rw [hm, expChars_exp he hs']

/-- The text of a finite float is a decimal number. -/
theorem text_dec (x : F32) (hf : Spec.Finite x) : ∃ neg a b k, DecText x.text neg a b k := by
  by_cases h0 : x.bits.toNat % 2147483648 = 0
  · have ht : x.text = signText x ++ [48] := by
      unfold F32.text signText
      dsimp only
      rw [if_neg (by omega : ¬ 2139095040 < x.bits.toNat % 2147483648),
        if_neg (by omega : ¬ x.bits.toNat % 2147483648 = 2139095040), if_pos h0]
    exact ⟨_, [48], [], 0, ⟨⟨signText x, [], [], by rw [ht]; simp, signText_sign x, .none, .none⟩, by decide, .inl (by simp)⟩⟩
  · obtain ⟨D, X, ht, d1, d2, hX, -⟩ := text_six x h0 hf
    obtain ⟨a, b, k, hdec, -⟩ := layoutG_dec (signText_sign x) d1 d2 hX
    rw [← ht] at hdec
    exact ⟨_, a, b, k, hdec⟩

theorem dec_head {t : Bytes} {neg : Bool} {a b : Bytes} {k : Int} (h : DecText t neg a b k) : ∃ c u, t = c :: u ∧ isSpace c = false := by
  obtain ⟨⟨g, f, e, rfl, hg, hf, he⟩, ha, hne⟩ := h
  cases hg with
  | plus => exact ⟨43, _, rfl, rfl⟩
  | minus => exact ⟨45, _, rfl, rfl⟩
  | none =>
    cases a with
    | cons x a => exact ⟨x, _, rfl, (digit_ne (ha x (by simp))).2.2.2.2.2⟩
    | nil =>
      cases hf with
      | none => simp at hne
      | point b _ => exact ⟨46, _, rfl, rfl⟩

theorem dropWhile_spaces {w : Bytes} (hw : ∀ c ∈ w, isSpace c = true) {c : UInt8} {u : Bytes} (hc : isSpace c = false) :
    (w ++ (c :: u)).dropWhile isSpace = c :: u := by
  rw [List.dropWhile_append_of_pos hw, List.dropWhile_cons, hc]
  rfl

/-- One number of a table is read. -/
theorem readFloat_tok {l : List Bytes} {T : Bytes} {x y : F32} (h : Toks (x.text :: l) T) (hf : Spec.Finite x) (hy : toF32 x.text = .ok y) :
    ∃ s, Toks l s ∧ ∀ v, readFloat (some T) v = (y, some s) := by
  obtain ⟨neg, a, b, k, hd⟩ := text_dec x hf
  cases h with
  | cons w t l s hw hs h =>
    refine ⟨s, h, fun v => ?_⟩
    have hc := floatChars_dec hd hs
    obtain ⟨c, u, hu, hcs⟩ := dec_head hd
    unfold readFloat
    dsimp only
    rw [hu] at hc hy ⊢
    rw [List.cons_append] at hc ⊢
    rw [dropWhile_spaces hw hcs, if_neg (by simp), hc]
    dsimp only
    rw [hy]

theorem tsvFloats_ok {back : F32 → F32} : ∀ (xs rest : List F32) (T : Bytes) (v : F32), (∀ x ∈ xs, Spec.Finite x ∧ toF32 x.text = .ok (back x)) →
    Toks ((xs ++ rest).map F32.text) T → ∃ s, Toks (rest.map F32.text) s ∧ tsvFloats xs.length (some T) v = (xs.map back, some s) := by
  intro xs
  induction xs with
  | nil => intro rest T v _ h; exact ⟨T, h, rfl⟩
  | cons x xs ih =>
    intro rest T v hx h
    obtain ⟨s, h1, h2⟩ := readFloat_tok h (hx x (by simp)).1 (hx x (by simp)).2
    obtain ⟨s', h3, h4⟩ := ih rest s (back x) (fun z hz => hx z (by simp [hz])) h1
    refine ⟨s', h3, ?_⟩
    rw [List.length_cons, tsvFloats, h2 v]
    dsimp only
    rw [h4]
    rfl

theorem tsvLoopF_ok {back : F32 → F32} (blk npts ndims : Nat) (junk : Nat → F32) : ∀ (todo i : Nat) (xs : List F32) (T : Bytes) (out : Bytes),
    npts ≤ (i + todo) * blk → xs.length = (npts - i * blk) * ndims → (∀ x ∈ xs, Spec.Finite x ∧ toF32 x.text = .ok (back x)) →
    Toks (xs.map F32.text) T → tsvLoopF blk npts ndims junk todo i (some T) out = out ++ (xs.map back).flatMap F32.bytes := by
  intro todo
  induction todo with
  | zero =>
    intro i xs T out hi hl _ _
    rw [Nat.add_zero] at hi
    rw [Nat.sub_eq_zero_of_le hi, Nat.zero_mul] at hl
    rw [List.length_eq_zero_iff.1 hl]
    simp [tsvLoopF]
  | succ todo ih =>
    intro i xs T out hi hl hx h
    obtain ⟨n, hn⟩ : ∃ n, n = min (npts - i * blk) blk := ⟨_, rfl⟩
    have hle : n * ndims ≤ (npts - i * blk) * ndims := Nat.mul_le_mul_right _ (by omega)
    have hsub : npts - (i + 1) * blk = npts - i * blk - n := by rw [Nat.succ_mul]; omega
    have htl : (xs.take (n * ndims)).length = n * ndims := by rw [List.length_take]; omega
    obtain ⟨s, h1, h2⟩ := tsvFloats_ok (back := back) (xs.take (n * ndims)) (xs.drop (n * ndims)) T (junk i) (fun x hx' => hx x (List.mem_of_mem_take hx'))
      (by rw [List.take_append_drop]; exact h)
    rw [htl] at h2
    unfold tsvLoopF
    dsimp only
    rw [← hn, h2]
    dsimp only
    rw [ih (i + 1) (xs.drop (n * ndims)) s _ (by rw [show i + 1 + todo = i + (todo + 1) by omega]; exact hi)
      (by rw [List.length_drop, hl, hsub, Nat.sub_mul (npts - i * blk)]) (fun x hx' => hx x (List.mem_of_mem_drop hx')) h1, List.append_assoc, ← List.flatMap_append, ← List.map_append,
      List.take_append_drop]

theorem floatFmt_bytes (x : F32) : floatFmt x.bytes = x.text := by
  unfold floatFmt F32.bytes
  rw [unle_le]
  congr 1
  cases x with
  | mk b =>
    congr 1
    apply BitVec.eq_of_toNat_eq
    rw [BitVec.toNat_ofNat]
    have := b.isLt
    show b.toNat % _ % _ = _
    omega

theorem tsvFile_floats (rows : List (List F32)) :
    ((rows.map (fun r => r.map F32.bytes)).flatten.map floatFmt) = rows.flatten.map F32.text := by
  induction rows with
  | nil => rfl
  | cons r rows ih =>
    rw [List.map_cons, List.flatten_cons, List.map_append, ih, List.flatten_cons, List.map_append, List.map_map]
    congr 1
    apply List.map_congr_left
    intro x _
    exact floatFmt_bytes x

theorem floatMatrix {ndims : Nat} {rows : List (List F32)} (hn : rows.length < 4294967296) (hd : ndims < 4294967296)
    (hr : ∀ r ∈ rows, r.length = ndims) : Matrix8 4 ndims (rows.map (fun r => r.map F32.bytes)) := by
  refine ⟨by rw [List.length_map]; exact hn, hd, ?_, ?_⟩
  · intro r hr'
    obtain ⟨q, hq, rfl⟩ := List.mem_map.1 hr'
    rw [List.length_map, hr q hq]
  · intro r hr' x hx
    obtain ⟨q, hq, rfl⟩ := List.mem_map.1 hr'
    obtain ⟨z, hz, rfl⟩ := List.mem_map.1 hx
    exact le_length _ _

/-- The vectors of a file of floats. -/
def floatFile (ndims : Nat) (rows : List (List F32)) : Bytes := Spec.binFile ndims (rows.map (fun r => r.flatMap F32.bytes))

theorem floatFile_eq (ndims : Nat) (rows : List (List F32)) :
    floatFile ndims rows = le 4 rows.length ++ le 4 ndims ++ rows.flatten.flatMap F32.bytes := by
  unfold floatFile Spec.binFile
  rw [List.length_map]
  congr 1
  induction rows with
  | nil => rfl
  | cons r rows ih => rw [List.map_cons, List.flatten_cons, ih, List.flatten_cons, List.flatMap_append]

theorem flatten_len {ndims : Nat} {rows : List (List F32)} (hr : ∀ r ∈ rows, r.length = ndims) : rows.flatten.length = rows.length * ndims := by
  induction rows with
  | nil => simp
  | cons r rows ih =>
    rw [List.flatten_cons, List.length_append, ih (fun q hq => hr q (by simp [hq])), hr r (by simp), List.length_cons, Nat.succ_mul]
    omega

theorem tsv_toks {blk ndims : Nat} (hblk : 1 ≤ blk) (hd1 : 1 ≤ ndims) {rows : List (List F32)} (hn : rows.length < 4294967296)
    (hd : ndims < 4294967296) (hr : ∀ r ∈ rows, r.length = ndims) (j1 j2 : Bytes) (h1 : j1.length = 4) (h2 : j2.length = 4) (mem : Nat → UInt8) :
    ∃ text, binToTsv blk 4 floatFmt (some (floatFile ndims rows)) j1 j2 mem = .ok text ∧ Toks (rows.flatten.map F32.text) text := by
  have hm := floatMatrix hn hd hr
  refine ⟨Spec.tsvFile floatFmt (rows.map (fun r => r.map F32.bytes)), ?_, ?_⟩
  rotate_left
  · rw [← tsvFile_floats]
    refine toks_file floatFmt _ ?_
    intro r hr'
    obtain ⟨q, hq, rfl⟩ := List.mem_map.1 hr'
    intro h0
    have := hr q hq
    rw [List.map_eq_nil_iff.1 h0] at this
    simp at this
    omega
  · have := C74_tsv hblk hd1 hm floatFmt j1 j2 h1 h2 mem []
    rw [List.append_nil, List.map_map] at this
    exact this

/-- **C74 (floats to a table and back).** Finite floats that go to a table and back, whatever the sizes of the blocks, come back as the
floats nearest to their six-digit decimals: sign kept, relative error at most 10⁻⁵, order and number of the vectors kept. -/
theorem C74_float_back {blk blk' ndims : Nat} (hblk : 1 ≤ blk) (hblk' : 1 ≤ blk') (hd1 : 1 ≤ ndims) {rows : List (List F32)}
    (hn : rows.length < 4294967296) (hd : ndims < 4294967296) (hr : ∀ r ∈ rows, r.length = ndims) (hf : ∀ r ∈ rows, ∀ x ∈ r, Spec.Finite x)
    (j1 j2 : Bytes) (h1 : j1.length = 4) (h2 : j2.length = 4) (mem : Nat → UInt8) (junk : Nat → F32) :
    ∃ text back, binToTsv blk 4 floatFmt (some (floatFile ndims rows)) j1 j2 mem = .ok text ∧
      tsvToBinF blk' rows.length ndims (some text) junk = floatFile ndims (rows.map (fun r => r.map back)) ∧
      (∀ x, Spec.Finite x → toF32 x.text = .ok (back x) ∧ (∃ t, Spec.NearestSix (Spec.value x) t ∧ Spec.Nearest t (back x)) ∧
        (2147483648 ≤ (back x).bits.toNat ↔ 2147483648 ≤ x.bits.toNat) ∧ |Spec.value (back x) - Spec.value x| ≤ |Spec.value x| / 100000) := by
  obtain ⟨text, ht, htok⟩ := tsv_toks hblk hd1 hn hd hr j1 j2 h1 h2 mem
  have hex : ∀ x, ∃ y, Spec.Finite x → toF32 x.text = .ok y ∧ (∃ t, Spec.NearestSix (Spec.value x) t ∧ Spec.Nearest t y) ∧
        (2147483648 ≤ y.bits.toNat ↔ 2147483648 ≤ x.bits.toNat) ∧ |Spec.value y - Spec.value x| ≤ |Spec.value x| / 100000 := by
    intro x
    by_cases hx : Spec.Finite x
    · obtain ⟨t, y, a1, a2, a3, a4, a5⟩ := C44_float_get x hx
      exact ⟨y, fun _ => ⟨a2, ⟨t, a1, a3⟩, a4, a5⟩⟩
    · exact ⟨x, fun h => absurd h hx⟩
  choose back hback using hex
  refine ⟨text, back, ht, ?_, hback⟩
  unfold tsvToBinF
  rw [tsvLoopF_ok (back := back) blk' rows.length ndims junk (convBlocks rows.length blk') 0 rows.flatten text _
    (by rw [Nat.zero_add]; exact convBlocks_end _ _ hblk') (by rw [flatten_len hr, Nat.zero_mul, Nat.sub_zero]) (by
      intro x hx
      obtain ⟨r, hr', hx'⟩ := List.mem_flatten.1 hx
      have := hf r hr' x hx'
      exact ⟨this, (hback x this).1⟩) htok, floatFile_eq, List.length_map, List.map_flatten]

/-- **C74 (floats of six digits).** If every coordinate is the rounded value of a decimal of at most six digits in the normal range, the
file comes back bit for bit. -/
theorem C74_float_same {blk blk' ndims : Nat} (hblk : 1 ≤ blk) (hblk' : 1 ≤ blk') (hd1 : 1 ≤ ndims) {rows : List (List F32)}
    (hn : rows.length < 4294967296) (hd : ndims < 4294967296) (hr : ∀ r ∈ rows, r.length = ndims)
    (hf : ∀ r ∈ rows, ∀ x ∈ r, ∃ t, Spec.SixDigit t ∧ 2 ^ (-126 : Int) ≤ |t| ∧ |t| < 33554431 * 2 ^ (103 : Int) ∧ Spec.Nearest t x)
    (j1 j2 : Bytes) (h1 : j1.length = 4) (h2 : j2.length = 4) (mem : Nat → UInt8) (junk : Nat → F32) :
    ∃ text, binToTsv blk 4 floatFmt (some (floatFile ndims rows)) j1 j2 mem = .ok text ∧
      tsvToBinF blk' rows.length ndims (some text) junk = floatFile ndims rows := by
  obtain ⟨text, back, h3, h4, h5⟩ := C74_float_back hblk hblk' hd1 hn hd hr (fun r hr' x hx => by
    obtain ⟨t, -, -, -, ht⟩ := hf r hr' x hx
    exact ht.1) j1 j2 h1 h2 mem junk
  refine ⟨text, h3, ?_⟩
  rw [h4]
  congr 1
  conv_rhs => rw [← List.map_id rows]
  apply List.map_congr_left
  intro r hr'
  conv_rhs => rw [id, ← List.map_id r]
  apply List.map_congr_left
  intro x hx
  obtain ⟨t, t1, t2, t3, t4⟩ := hf r hr' x hx
  have e1 := (h5 x t4.1).1
  rw [C44_float_exact t1 t2 t3 t4] at e1
  injection e1 with e1
  exact e1.symm

theorem tsvFloats_failed (k : Nat) (v : F32) : tsvFloats k none v = (List.replicate k v, none) := by
  induction k with
  | zero => rfl
  | succ k ih =>
    rw [tsvFloats, readFloat]
    dsimp only
    rw [ih]
    rfl

theorem text_special {x : F32} (hf : ¬ Spec.Finite x) :
    x.text = ascii "nan" ∨ x.text = ascii "-nan" ∨ x.text = ascii "inf" ∨ x.text = ascii "-inf" := by
  unfold Spec.Finite at hf
  unfold F32.text
  dsimp only
  by_cases h : 2139095040 < x.bits.toNat % 2147483648
  · rw [if_pos h]
    split
    · exact .inr (.inl rfl)
    · exact .inl rfl
  · rw [if_neg h, if_pos (by omega : x.bits.toNat % 2147483648 = 2139095040)]
    split
    · exact .inr (.inr (.inr rfl))
    · exact .inr (.inr (.inl rfl))

/-- Infinities and NaNs make the stream fail. -/
theorem readFloat_special {l : List Bytes} {T : Bytes} {x : F32} (h : Toks (x.text :: l) T) (hf : ¬ Spec.Finite x) (v : F32) :
    readFloat (some T) v = (F32.zero, none) := by
  cases h with
  | cons w t l s hw hs h =>
    unfold readFloat
    dsimp only
    rcases text_special hf with h | h | h | h <;> rw [h]
    · rw [show ascii "nan" ++ s = 110 :: (97 :: 110 :: s) from rfl, dropWhile_spaces hw (by decide)]
      rfl
    · rw [show ascii "-nan" ++ s = 45 :: (110 :: 97 :: 110 :: s) from rfl, dropWhile_spaces hw (by decide)]
      rfl
    · rw [show ascii "inf" ++ s = 105 :: (110 :: 102 :: s) from rfl, dropWhile_spaces hw (by decide)]
      rfl
    · rw [show ascii "-inf" ++ s = 45 :: (105 :: 110 :: 102 :: s) from rfl, dropWhile_spaces hw (by decide)]
      rfl

theorem tsvFloats_append (a b : Nat) : ∀ (t : Option Bytes) (v : F32) (xs : List F32) (s : Option Bytes), tsvFloats a t v = (xs, s) →
    tsvFloats (a + b) t v = (xs ++ (tsvFloats b s (xs.getLastD v)).1, (tsvFloats b s (xs.getLastD v)).2) := by
  induction a with
  | zero =>
    intro t v xs s h
    rw [tsvFloats] at h
    injection h with h1 h2
    subst h1; subst h2
    rw [Nat.zero_add]
    rfl
  | succ a ih =>
    intro t v xs s h
    rw [tsvFloats] at h
    dsimp only at h
    injection h with h1 h2
    subst h1; subst h2
    rw [Nat.succ_add, tsvFloats]
    dsimp only
    rw [ih _ _ _ _ (Prod.mk.eta).symm]
    have hlast : ∀ (x : F32) (l : List F32), (x :: l).getLastD v = l.getLastD x := by
      intro x l
      cases l <;> rfl
    rw [hlast]
    rfl

/-- **C74 (false in general: floats from a table).** One infinity or NaN in the data destroys everything behind it: it and all later
coordinates of the block come back as 0. -/
theorem C74_float_lost {blk blk' ndims : Nat} (hblk : 1 ≤ blk) (hd1 : 1 ≤ ndims) {rows : List (List F32)}
    (hn : rows.length < 4294967296) (hn1 : 1 ≤ rows.length) (hn' : rows.length ≤ blk') (hd : ndims < 4294967296) (hr : ∀ r ∈ rows, r.length = ndims)
    {pre post : List F32} {x : F32} (hx : rows.flatten = pre ++ x :: post) (hf : ∀ z ∈ pre, Spec.Finite z) (hnf : ¬ Spec.Finite x)
    (j1 j2 : Bytes) (h1 : j1.length = 4) (h2 : j2.length = 4) (mem : Nat → UInt8) (junk : Nat → F32) :
    ∃ text ys, binToTsv blk 4 floatFmt (some (floatFile ndims rows)) j1 j2 mem = .ok text ∧ ys.length = pre.length ∧
      tsvToBinF blk' rows.length ndims (some text) junk =
        le 4 rows.length ++ le 4 ndims ++ (ys ++ List.replicate (post.length + 1) F32.zero).flatMap F32.bytes := by
  obtain ⟨text, ht, htok⟩ := tsv_toks hblk hd1 hn hd hr j1 j2 h1 h2 mem
  have hex : ∀ x, ∃ y, Spec.Finite x → toF32 x.text = .ok y := by
    intro x
    by_cases hx : Spec.Finite x
    · obtain ⟨t, y, -, a2, -⟩ := C44_float_get x hx
      exact ⟨y, fun _ => a2⟩
    · exact ⟨x, fun h => absurd h hx⟩
  choose back hback using hex
  refine ⟨text, pre.map back, ht, by rw [List.length_map], ?_⟩
  rw [hx] at htok
  obtain ⟨s, h3, h4⟩ := tsvFloats_ok (back := back) pre (x :: post) text (junk 0) (fun z hz => ⟨hf z hz, hback z (hf z hz)⟩) htok
  have hlen := flatten_len hr
  rw [hx, List.length_append, List.length_cons] at hlen
  have hb : convBlocks rows.length blk' = 1 := by
    rw [convBlocks_eq _ _ (by omega)]
    rcases Nat.lt_or_ge rows.length blk' with h | h
    · rw [Nat.div_eq_of_lt h, Nat.mod_eq_of_lt h, if_pos (by omega)]
    · have : rows.length = blk' := by omega
      rw [this, Nat.div_self (by omega), Nat.mod_self]; rfl
  unfold tsvToBinF
  rw [hb, tsvLoopF]
  dsimp only
  rw [Nat.zero_mul, Nat.sub_zero, Nat.min_eq_left hn', ← hlen, tsvFloats_append _ _ _ _ _ _ h4]
  dsimp only
  rw [tsvFloats, readFloat_special h3 hnf]
  dsimp only
  rw [tsvFloats_failed]
  rfl

/-! ### Examples -/

/-- 1.2, -0.01 and 16777216 (which changes); words and exponents cut short. -/
example : (tsvFloats 3 (some (ascii "1.2\t-0.01\n1.67772e+07\n")) F32.zero).1 = [⟨0x3f99999a#32⟩, ⟨0xbc23d70a#32⟩, ⟨0x4b7ffff0#32⟩] ∧
    (tsvFloats 3 (some (ascii "1\t1e\t2\n")) F32.zero).1 = [F32.one, F32.zero, F32.zero] ∧
    (tsvFloats 3 (some (ascii "-1e40 2 3")) F32.one).1 = [⟨0xff7fffff#32⟩, ⟨0xff7fffff#32⟩, ⟨0xff7fffff#32⟩] ∧
    (tsvFloats 3 (some (ascii "1 2")) F32.zero).1 = [F32.one, ⟨0x40000000#32⟩, ⟨0x40000000#32⟩] ∧
    (tsvFloats 3 (some (ascii "1.5.25e1-2")) F32.zero).1 = [⟨0x3fc00000#32⟩, ⟨0x40200000#32⟩, ⟨0xc0000000#32⟩] := by decide +kernel

example (mem : Nat → UInt8) (junk : Nat → F32) :
    ∃ text, binToTsv 131072 4 floatFmt (some (floatFile 2 [[⟨0x3f99999a#32⟩, ⟨0x3f99999a#32⟩]])) [0, 0, 0, 0] [0, 0, 0, 0] mem = .ok text ∧
      tsvToBinF 131072 1 2 (some text) junk = floatFile 2 [[⟨0x3f99999a#32⟩, ⟨0x3f99999a#32⟩]] :=
  C74_float_same (rows := [[⟨0x3f99999a#32⟩, ⟨0x3f99999a#32⟩]]) (by omega) (by omega) (by omega) (by simp) (by omega) (by simp) (by
    intro r hr x hx
    simp only [List.mem_singleton] at hr
    subst hr
    simp only [List.mem_cons, List.not_mem_nil, or_false, or_self] at hx
    subst hx
    exact ⟨6 / 5, ⟨12, -1, by omega, by norm_num [abs_of_pos]⟩, by norm_num [abs_of_pos], by norm_num [abs_of_pos], nearest_1_2⟩) _ _ rfl rfl mem junk

/-- A NaN in front of two ones. -/
example (mem : Nat → UInt8) (junk : Nat → F32) := C74_float_lost (blk := 131072) (blk' := 131072) (ndims := 2)
  (rows := [[F32.one, F32.nan], [F32.one, F32.one]]) (pre := [F32.one]) (post := [F32.one, F32.one]) (x := F32.nan) (by omega) (by omega) (by simp) (by simp)
  (by simp) (by omega) (by simp) rfl (by intro z hz; rw [List.mem_singleton.1 hz]; unfold Spec.Finite; decide) (by unfold Spec.Finite; decide)
  [0, 0, 0, 0] [0, 0, 0, 0] rfl rfl mem junk

/-! ## The theorems applied to the examples -/

/-- C74: two vectors, blocks of one vector; 16777216 is among the values. -/
example (mem : Nat → UInt8) (junk : Nat → F32) := C74_float_back (blk := 1) (blk' := 2) (ndims := 2)
  (rows := [[⟨0x4b800000#32⟩, ⟨0xbc23d70a#32⟩], [F32.one, F32.zero]]) (by omega) (by omega) (by omega) (by simp) (by omega)
  (by decide) (by unfold Spec.Finite; decide) [0, 0, 0, 0] [0, 0, 0, 0] rfl rfl mem junk

end Grann
