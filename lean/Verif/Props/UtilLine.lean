import Verif.Model.UtilLine
import Verif.Props.FloatTable
import Verif.Props.RecallTool
import Verif.Props.VecTool
import Verif.Props.CommandArgs
import Verif.Props.Crash
/-!
# C87: the conversion and analysis tools from the command line on
-/

namespace Grann

namespace Spec

/-- The operations leave file `o` with contents `b`, and every other file as it was. -/
def Leaves (ops : List (FOp Bytes)) (o b : Bytes) : Prop :=
  ∀ fs, runOps ops fs o = some b ∧ ∀ q, q ≠ o → runOps ops fs q = fs q

/-- A program did its work and left file `o` with contents `b`, and every other file as it was. -/
def Wrote (r : Res (Cmd (List (FOp Bytes)))) (o b : Bytes) : Prop := ∃ ops, r = .ok (.run ops) ∧ Leaves ops o b

end Spec

theorem leaves_out (o b : Bytes) : Spec.Leaves [.create o, .append o b] o b := by
  refine fun fs => ⟨?_, fun q hq => ?_⟩
  · simp [runOps, FOp.run]
  · exact runOps_other _ q (by simp [FOp.file, hq]) fs

theorem wrote_out {o b : Bytes} {r : Res Bytes} (h : r = .ok b) : Spec.Wrote (writeOut o r) o b := by
  refine ⟨[.create o, .append o b], ?_, leaves_out o b⟩
  rw [h]; rfl

theorem copy_out {env : UtilEnv} {i o b : Bytes} {r : Res Bytes} (hio : i ≠ o) (h : r = .ok b) :
    Spec.Wrote (copyTool env i o r) o b := by
  unfold copyTool
  rw [if_neg hio]
  exact wrote_out h

theorem done_error {β : Type} {x : Res β} {e : Err} (h : x = .error e) : done x = .error e := by rw [h]; rfl

theorem copy_error {env : UtilEnv} {i o : Bytes} {r : Res Bytes} {e : Err} (hio : i ≠ o) (h : r = .error e) :
    copyTool env i o r = .error e := by
  unfold copyTool
  rw [if_neg hio, h]
  rfl

theorem done_not_usage {β : Type} (x : Res β) : done x ≠ .ok .usage := by
  cases x with
  | error e => intro h; cases h
  | ok v => intro h; cases h

theorem copy_not_usage {env : UtilEnv} {i o : Bytes} (r : Res Bytes) : copyTool env i o r ≠ .ok .usage := by
  unfold copyTool writeOut
  split <;> exact done_not_usage _

theorem bind_not_usage {α β : Type} (x : Res α) (f : α → Res (Cmd β)) (h : ∀ a, f a ≠ .ok .usage) : (x >>= f) ≠ .ok .usage := by
  cases x with
  | error e => intro h; cases h
  | ok v => exact h v

/-- **C87 (usage).** Every tool prints its usage exactly if the number of arguments is not the expected one. -/
theorem C87_usage (env : UtilEnv) (argv : List Bytes) (fs : FS Bytes) :
    (vecsMain env argv fs = .ok .usage ↔ argv.length ≠ 3) ∧
    (int8Main env argv fs = .ok .usage ↔ argv.length ≠ 5) ∧
    (toTsvMain env argv fs = .ok .usage ↔ argv.length ≠ 4) ∧
    (fromTsvMain env argv fs = .ok .usage ↔ argv.length ≠ 6) ∧
    (∀ c, convMain env c argv fs = .ok .usage ↔ argv.length ≠ 3) ∧
    (recallMain env argv fs = .ok .usage ↔ argv.length ≠ 4) ∧
    (vectorMain env argv fs = .ok .usage ↔ argv.length < 4) := by
  refine ⟨?_, ?_, ?_, ?_, fun c => ?_, ?_, ?_⟩
  · unfold vecsMain
    by_cases h : argv.length ≠ 3
    · simp [h]
    · rw [if_neg h]
      exact ⟨fun h' => absurd h' (bind_not_usage _ _ fun i => bind_not_usage _ _ fun o => copy_not_usage _), fun h' => absurd h' h⟩
  · unfold int8Main
    by_cases h : argv.length ≠ 5
    · simp [h]
    · rw [if_neg h]
      exact ⟨fun h' => absurd h' (bind_not_usage _ _ fun i => bind_not_usage _ _ fun o => bind_not_usage _ _ fun _ =>
        bind_not_usage _ _ fun _ => copy_not_usage _), fun h' => absurd h' h⟩
  · unfold toTsvMain
    by_cases h : argv.length ≠ 4
    · simp [h]
    · rw [if_neg h]
      exact ⟨fun h' => absurd h' (bind_not_usage _ _ fun i => bind_not_usage _ _ fun o => bind_not_usage _ _ fun _ =>
        copy_not_usage _), fun h' => absurd h' h⟩
  · unfold fromTsvMain
    by_cases h : argv.length ≠ 6
    · simp [h]
    · rw [if_neg h]
      exact ⟨fun h' => absurd h' (bind_not_usage _ _ fun i => bind_not_usage _ _ fun o => bind_not_usage _ _ fun _ =>
        bind_not_usage _ _ fun _ => bind_not_usage _ _ fun _ => copy_not_usage _), fun h' => absurd h' h⟩
  · unfold convMain
    by_cases h : argv.length ≠ 3
    · simp [h]
    · rw [if_neg h]
      exact ⟨fun h' => absurd h' (bind_not_usage _ _ fun i => bind_not_usage _ _ fun o => done_not_usage _), fun h' => absurd h' h⟩
  · unfold recallMain
    by_cases h : argv.length ≠ 4
    · simp [h]
    · rw [if_neg h]
      exact ⟨fun h' => absurd h' (bind_not_usage _ _ fun i => bind_not_usage _ _ fun o => bind_not_usage _ _ fun _ =>
        done_not_usage _), fun h' => absurd h' h⟩
  · unfold vectorMain
    by_cases h : argv.length < 4
    · simp [h]
    · rw [if_neg h]
      refine ⟨fun h' => absurd h' (bind_not_usage _ _ fun t => ?_), fun h' => absurd h' h⟩
      unfold cmdOf
      split
      · intro h; cases h
      · exact done_not_usage _

/-! ## The arguments -/

theorem vecsMain_args (env : UtilEnv) (a i o : Bytes) (fs : FS Bytes) :
    vecsMain env [a, i, o] fs = copyTool env i o (vecsToBin 131072 (fs i) env.j1 env.mem) := rfl

theorem int8Main_args (env : UtilEnv) (a i o b s : Bytes) (fs : FS Bytes) :
    int8Main env [a, i, o, b, s] fs =
      copyTool env i o (floatToInt8 131072 (env.scaled (atof b) (atof s)) (fs i) env.j1 env.j2 env.mem) := rfl

theorem toTsvMain_args (env : UtilEnv) (a t i o : Bytes) (fs : FS Bytes) :
    toTsvMain env [a, t, i, o] fs = copyTool env i o (match elemArg t with
    | none => .ok []
    | some .float => binToTsv 131072 4 floatFmt (fs i) env.j1 env.j2 env.mem
    | some _ => binToTsv 131072 1 id (fs i) env.j1 env.j2 env.mem) := rfl

theorem fromTsvMain_args (env : UtilEnv) (a t i o td tn : Bytes) (fs : FS Bytes) {nd np : Int} (h1 : atoi td = .ok nd) (h2 : atoi tn = .ok np) :
    fromTsvMain env [a, t, i, o, td, tn] fs = copyTool env i o (tableOut env (elemArg t) (wrap64 np) (wrap64 nd) (fs i)) := by
  unfold fromTsvMain
  rw [if_neg (by simp)]
  simp only [numAt, rd, List.getElem?_cons_succ, List.getElem?_cons_zero, Res.ok_bind, h1, h2]

theorem convMain_args (env : UtilEnv) (c : ConvTool) (a i o : Bytes) (fs : FS Bytes) :
    convMain env c [a, i, o] fs = writeOut o (convertBin c.size c.conv (fs i) env.j1 env.j2 env.mem) := rfl

theorem wrap64_nonneg {v : Int} (h0 : 0 ≤ v) (h : v < 18446744073709551616) : wrap64 v = v.toNat := by
  unfold wrap64
  rw [Int.emod_eq_of_lt h0 h]

theorem wrap64_neg {k : Nat} (h1 : 1 ≤ k) (h : k ≤ 18446744073709551616) : wrap64 (-(k : Int)) = 18446744073709551616 - k := by
  unfold wrap64
  omega

/-! ## Vectors -/

/-- **C87 (vectors).** `fvecs_to_bin in out` and `ivecs_to_bin in out` leave in `out` the vectors of `in`, whatever is behind the last
complete one, and change no other file. -/
theorem C87_vecs (env : UtilEnv) (hj : env.j1.length = 4) (a i o : Bytes) (fs : FS Bytes) (hio : i ≠ o) {dim : Nat} (hdim : dim < 4294967296)
    (first : Bytes) (rows : List (Bytes × Bytes)) (tail : Bytes) (hfirst : first.length = dim * 4)
    (h1 : ∀ r ∈ rows, r.1.length = 4) (h2 : ∀ r ∈ rows, r.2.length = dim * 4) (htail : tail.length < (dim + 1) * 4)
    (hsize : (Spec.vecsFile ((le 4 dim, first) :: rows) ++ tail).length < 9223372036854775808)
    (hfile : fs i = some (Spec.vecsFile ((le 4 dim, first) :: rows) ++ tail)) :
    Spec.Wrote (vecsMain env [a, i, o] fs) o (Spec.binFile dim (first :: rows.map (fun r => r.2))) := by
  rw [vecsMain_args, hfile]
  exact copy_out hio (C74_vecs (by omega) hdim first rows tail hfirst h1 h2 htail hsize env.j1 hj env.mem)

/-- **C87 (vectors, no input).** Without the input file the tools end with an exception. -/
theorem C87_vecs_missing (env : UtilEnv) (hj : env.j1.length = 4) (a i o : Bytes) (fs : FS Bytes) (hio : i ≠ o) (hfile : fs i = none) :
    vecsMain env [a, i, o] fs = .error .throw := by
  rw [vecsMain_args, hfile]
  exact copy_error hio (C74_vecs_missing 131072 env.j1 hj env.mem)

/-- **C87 (scaled bytes).** `float_bin_to_int8 in out bias scale` leaves in `out` the scaled values if all of them are in the range of the
type; with one that is not, its behaviour is undefined. -/
theorem C87_int8 (env : UtilEnv) (hj1 : env.j1.length = 4) (hj2 : env.j2.length = 4) (a i o b s : Bytes) (fs : FS Bytes) (hio : i ≠ o)
    {ndims : Nat} {rows : List (List Bytes)} (h : Matrix8 4 ndims rows) (tail : Bytes)
    (hfile : fs i = some (Spec.binFile ndims (rows.map List.flatten) ++ tail)) :
    (∀ v : Bytes → Int, (∀ r ∈ rows, ∀ x ∈ r, env.scaled (atof b) (atof s) x = some (v x) ∧ -128 ≤ v x ∧ v x ≤ 127) →
      Spec.Wrote (int8Main env [a, i, o, b, s] fs) o
        (Spec.binFile ndims (rows.map (fun r => r.map (fun x => UInt8.ofNat (v x % 256).toNat))))) ∧
    (∀ r ∈ rows, ∀ x ∈ r, (∀ v, env.scaled (atof b) (atof s) x = some v → ¬ (-128 ≤ v ∧ v ≤ 127)) →
      int8Main env [a, i, o, b, s] fs = .error .ub) := by
  rw [int8Main_args, hfile]
  exact ⟨fun v hv => copy_out hio (C74_int8 (by omega) h _ v hv env.j1 env.j2 hj1 hj2 env.mem tail),
    fun r hr x hx hbad => copy_error hio (C74_int8_range (by omega) h _ hr hx hbad env.j1 env.j2 hj1 hj2 env.mem tail)⟩

/-! ## Tables -/

/-- **C87 (tables of numbers).** `bin_to_tsv float in out` leaves in `out` a line for every vector. -/
theorem C87_tsv_float (env : UtilEnv) (hj1 : env.j1.length = 4) (hj2 : env.j2.length = 4) (a i o : Bytes) (fs : FS Bytes) (hio : i ≠ o)
    {ndims : Nat} (hd : 1 ≤ ndims) {rows : List (List Bytes)} (h : Matrix8 4 ndims rows) (tail : Bytes)
    (hfile : fs i = some (Spec.binFile ndims (rows.map List.flatten) ++ tail)) :
    Spec.Wrote (toTsvMain env [a, ascii "float", i, o] fs) o (Spec.tsvFile floatFmt rows) := by
  rw [toTsvMain_args, hfile]
  exact copy_out hio (C74_tsv (by omega) hd h floatFmt env.j1 env.j2 hj1 hj2 env.mem tail)

/-- **C87 (tables of bytes).** `bin_to_tsv int8 in out` and `bin_to_tsv uint8 in out` leave in `out` the bytes of up to 131072 vectors;
with more of them, up to twice as many, the vectors from number 131072 on are replaced by the first ones. -/
theorem C87_tsv_bytes (env : UtilEnv) (hj1 : env.j1.length = 4) (hj2 : env.j2.length = 4) (a t i o : Bytes)
    (ht : t = ascii "int8" ∨ t = ascii "uint8") (fs : FS Bytes) (hio : i ≠ o)
    {ndims : Nat} (hd : 1 ≤ ndims) {rows : List (List Bytes)} (h : Matrix8 1 ndims rows)
    (hfile : fs i = some (Spec.binFile ndims (rows.map List.flatten))) :
    (1 ≤ rows.length → rows.length ≤ 131072 → Spec.Wrote (toTsvMain env [a, t, i, o] fs) o (Spec.tsvFile id rows)) ∧
    (131072 < rows.length → rows.length ≤ 262144 →
      Spec.Wrote (toTsvMain env [a, t, i, o] fs) o (Spec.tsvFile id (rows.take 131072 ++ rows.take (rows.length - 131072)))) := by
  have e : toTsvMain env [a, t, i, o] fs = copyTool env i o (binToTsv 131072 1 id (fs i) env.j1 env.j2 env.mem) := by
    rcases ht with rfl | rfl <;> rfl
  rw [e, hfile]
  exact ⟨fun h1 h2 => copy_out hio (C74_tsv_bytes hd h h1 h2 id env.j1 env.j2 hj1 hj2 env.mem),
    fun h1 h2 => copy_out hio (C74_tsv_repeats hd h h1 (by omega) id env.j1 env.j2 hj1 hj2 env.mem)⟩

/-- The words that are no type. -/
theorem elemArg_none {t : Bytes} (h : t ≠ ascii "float" ∧ t ≠ ascii "int8" ∧ t ≠ ascii "uint8") : elemArg t = none := by
  unfold elemArg
  rw [if_neg h.2.1, if_neg h.2.2, if_neg h.1]

/-- **C87 (tables, other types).** With any other type `bin_to_tsv` leaves an empty file. -/
theorem C87_tsv_unknown (env : UtilEnv) (a t i o : Bytes) (ht : t ≠ ascii "float" ∧ t ≠ ascii "int8" ∧ t ≠ ascii "uint8") (fs : FS Bytes)
    (hio : i ≠ o) : Spec.Wrote (toTsvMain env [a, t, i, o] fs) o [] := by
  rw [toTsvMain_args, elemArg_none ht]
  exact copy_out hio rfl

/-! ## From tables -/

theorem tableBlocks_small {n : Nat} (h : n < 9223372036854775808) : tableBlocks n = convBlocks n 131072 := by
  unfold tableBlocks convBlocks u64
  rw [Nat.mod_eq_of_lt]
  split <;> omega

theorem tableBlocks_pos {n : Nat} (h1 : 1 ≤ n) (h : n < 9223372036854775808) : tableBlocks n ≠ 0 := by
  rw [tableBlocks_small h, convBlocks_eq _ _ (by omega)]
  split <;> omega

theorem le4_u32 (n : Nat) : le 4 (u32 n) = le 4 n := by
  have h := le_unle (le 4 n)
  rw [le_length, unle_le] at h
  exact h

theorem tableBuf_ok {es n d : Nat} (hes : es ≤ 4) (hd : d < 2147483648) : tableBuf es n d = .ok () := by
  unfold tableBuf u64
  dsimp only
  have h1 : min n 131072 ≤ 131072 := Nat.min_le_right _ _
  generalize min n 131072 = m at h1
  have e : (d + 1) % 18446744073709551616 = d + 1 := Nat.mod_eq_of_lt (by omega)
  have h2 : 4 * m * (d + 1) ≤ 4 * 131072 * 2147483648 := Nat.mul_le_mul (by omega) (by omega)
  rw [e, Nat.mod_eq_of_lt (by omega), if_neg, if_neg]
  · have : m * d ≤ 4 * m * (d + 1) := Nat.mul_le_mul (by omega) (by omega)
    omega
  · have : 4 * m * (d + 1) * es ≤ 4 * 131072 * 2147483648 * 4 := Nat.mul_le_mul h2 hes
    omega

theorem tableOut_bytes (env : UtilEnv) {e : Elem} (he : e ≠ .float) {n d : Nat} (hn : n < 9223372036854775808) (hd : d < 2147483648) (file : Option Bytes) :
    tableOut env (some e) n d file = .ok (tsvToBin8 131072 n d (file.getD []) env.val8) := by
  unfold tableOut tsvToBin8
  dsimp only
  rw [le4_u32, le4_u32, tableBlocks_small hn]
  split
  · rename_i h
    rw [h]; rfl
  · rw [tableBuf_ok (by cases e <;> decide) hd, Res.ok_bind]
    cases e <;> first | rfl | exact absurd rfl he

theorem tableOut_float (env : UtilEnv) {n d : Nat} (hn : n < 9223372036854775808) (hd : d < 2147483648) (file : Option Bytes) :
    tableOut env (some .float) n d file = .ok (tsvToBinF 131072 n d file env.valF) := by
  unfold tableOut tsvToBinF
  dsimp only
  rw [le4_u32, le4_u32, tableBlocks_small hn]
  split
  · rename_i h
    rw [h]; rfl
  · rw [tableBuf_ok (by decide) hd, Res.ok_bind]

/-- **C87 (from a table of bytes).** `tsv_to_bin int8 in out dim n`, and the same with `uint8`, leave in `out` the first `n * dim` characters
of `in` that are not white space, if there are so many. -/
theorem C87_table_bytes (env : UtilEnv) (a t i o td tn : Bytes) (ht : t = ascii "int8" ∨ t = ascii "uint8") (fs : FS Bytes) (hio : i ≠ o)
    {n d : Nat} (hd : Spec.NumText td d) (hn : Spec.NumText tn n) (hd' : d < 2147483648) (hn' : n < 2147483648) (text : Bytes)
    (hfile : fs i = some text) (henough : n * d ≤ (text.filter (fun c => !isSpace c)).length) :
    Spec.Wrote (fromTsvMain env [a, t, i, o, td, tn] fs) o
      (le 4 n ++ le 4 d ++ (text.filter (fun c => !isSpace c)).take (n * d)) := by
  rw [fromTsvMain_args env a t i o td tn fs (atoi_ok_iff.2 ⟨hd, isInt_iff.2 (by omega)⟩) (atoi_ok_iff.2 ⟨hn, isInt_iff.2 (by omega)⟩),
    wrap64_nonneg (by omega) (by omega), wrap64_nonneg (by omega) (by omega), Int.toNat_natCast, Int.toNat_natCast, hfile]
  have h : ∃ e, elemArg t = some e ∧ e ≠ .float := by
    rcases ht with rfl | rfl
    · exact ⟨.int8, rfl, by decide⟩
    · exact ⟨.uint8, rfl, by decide⟩
  obtain ⟨e, he, hne⟩ := h
  rw [he]
  refine copy_out hio ?_
  rw [tableOut_bytes env hne (by omega) hd', Option.getD_some, C74_tsv_characters (by omega) text env.val8 henough]

/-- **C87 (there and back, bytes).** Bytes that are no white space, of up to 131072 vectors, survive `bin_to_tsv` followed by `tsv_to_bin`. -/
theorem C87_bytes_back (env env' : UtilEnv) (hj1 : env.j1.length = 4) (hj2 : env.j2.length = 4) (a a' t t' i m o td tn : Bytes)
    (ht : t = ascii "int8" ∨ t = ascii "uint8") (ht' : t' = ascii "int8" ∨ t' = ascii "uint8") (fs : FS Bytes) (him : i ≠ m) (hmo : m ≠ o)
    {ndims : Nat} (hd : 1 ≤ ndims) (hd' : ndims < 2147483648) {rows : List (List Bytes)} (h : Matrix8 1 ndims rows)
    (h1 : 1 ≤ rows.length) (h2 : rows.length ≤ 131072) (hs : ∀ r ∈ rows, ∀ x ∈ r, ∀ c ∈ x, isSpace c = false)
    (hfile : fs i = some (Spec.binFile ndims (rows.map List.flatten))) (htd : Spec.NumText td ndims) (htn : Spec.NumText tn rows.length) :
    ∃ ops, toTsvMain env [a, t, i, m] fs = .ok (.run ops) ∧
      Spec.Wrote (fromTsvMain env' [a', t', m, o, td, tn] (runOps ops fs)) o (Spec.binFile ndims (rows.map List.flatten)) := by
  obtain ⟨ops, hrun, hops⟩ := (C87_tsv_bytes env hj1 hj2 a t i m ht fs him hd h hfile).1 h1 h2
  refine ⟨ops, hrun, ?_⟩
  have hf := tsvFile_filter h hs
  have hl := flatMap_len List.flatten (ndims * 1) rows (rawRow_len h)
  rw [List.flatMap_def, Nat.mul_one] at hl
  have := C87_table_bytes env' a' t' m o td tn ht' (runOps ops fs) hmo htd htn hd' (by omega) _ (hops fs).1 (by rw [hf, hl])
  rw [hf, List.take_of_length_le (by rw [hl])] at this
  unfold Spec.binFile
  rw [List.length_map]
  exact this

/-- **C87 (there and back, numbers).** Finite numbers survive `bin_to_tsv float` followed by `tsv_to_bin float` up to one part in 100000. -/
theorem C87_float_back (env env' : UtilEnv) (hj1 : env.j1.length = 4) (hj2 : env.j2.length = 4) (a a' i m o td tn : Bytes)
    (fs : FS Bytes) (him : i ≠ m) (hmo : m ≠ o)
    {ndims : Nat} (hd : 1 ≤ ndims) (hd' : ndims < 2147483648) {rows : List (List F32)} (hn : rows.length < 2147483648)
    (hr : ∀ r ∈ rows, r.length = ndims) (hf : ∀ r ∈ rows, ∀ x ∈ r, Spec.Finite x)
    (hfile : fs i = some (floatFile ndims rows)) (htd : Spec.NumText td ndims) (htn : Spec.NumText tn rows.length) :
    ∃ ops back, toTsvMain env [a, ascii "float", i, m] fs = .ok (.run ops) ∧
      Spec.Wrote (fromTsvMain env' [a', ascii "float", m, o, td, tn] (runOps ops fs)) o
        (floatFile ndims (rows.map (fun r => r.map back))) ∧
      ∀ x, Spec.Finite x → (∃ t, Spec.NearestSix (Spec.value x) t ∧ Spec.Nearest t (back x)) ∧
        |Spec.value (back x) - Spec.value x| ≤ |Spec.value x| / 100000 := by
  obtain ⟨text, back, e1, e2, e3⟩ := C74_float_back (blk := 131072) (blk' := 131072) (by omega) (by omega) hd (by omega) (by omega) hr hf
    env.j1 env.j2 hj1 hj2 env.mem env'.valF
  have hw : Spec.Wrote (toTsvMain env [a, ascii "float", i, m] fs) m text := by
    rw [toTsvMain_args, hfile]
    exact copy_out him e1
  obtain ⟨ops, hrun, hops⟩ := hw
  refine ⟨ops, back, hrun, ?_, fun x hx => ⟨(e3 x hx).2.1, (e3 x hx).2.2.2⟩⟩
  rw [fromTsvMain_args env' a' _ m o td tn _ (atoi_ok_iff.2 ⟨htd, isInt_iff.2 (by omega)⟩) (atoi_ok_iff.2 ⟨htn, isInt_iff.2 (by omega)⟩),
    wrap64_nonneg (by omega) (by omega), wrap64_nonneg (by omega) (by omega), Int.toNat_natCast, Int.toNat_natCast, (hops fs).1]
  refine copy_out hmo ?_
  rw [← e2]
  exact tableOut_float env' (by omega) hd' _

/-- **C87 (from a table, other types).** With any other type `tsv_to_bin` prints a message and leaves a file that has only the header. -/
theorem C87_table_unknown (env : UtilEnv) (a t i o td tn : Bytes) (ht : t ≠ ascii "float" ∧ t ≠ ascii "int8" ∧ t ≠ ascii "uint8") (fs : FS Bytes)
    (hio : i ≠ o) {n d : Nat} (hd : Spec.NumText td d) (hn : Spec.NumText tn n) (hd' : d < 2147483648) (hn' : n < 2147483648) :
    Spec.Wrote (fromTsvMain env [a, t, i, o, td, tn] fs) o (le 4 n ++ le 4 d) := by
  rw [fromTsvMain_args env a t i o td tn fs (atoi_ok_iff.2 ⟨hd, isInt_iff.2 (by omega)⟩) (atoi_ok_iff.2 ⟨hn, isInt_iff.2 (by omega)⟩),
    wrap64_nonneg (by omega) (by omega), wrap64_nonneg (by omega) (by omega), Int.toNat_natCast, Int.toNat_natCast, elemArg_none ht]
  refine copy_out hio ?_
  unfold tableOut
  rw [le4_u32, le4_u32]

/-- **C87 (from a table, negative number of points).** With a number of points between -131071 and -1 the number of blocks wraps around to 0:
whatever the type, the file has only a header, which claims almost 2^32 vectors. -/
theorem C87_table_negative (env : UtilEnv) (a t i o td tn : Bytes) (fs : FS Bytes) (hio : i ≠ o) {k : Nat} {d : Int} (hd : Spec.NumText td d)
    (hdi : Spec.IsInt d) (hn : Spec.NumText tn (-(k : Int))) (hk1 : 1 ≤ k) (hk : k ≤ 131071) :
    Spec.Wrote (fromTsvMain env [a, t, i, o, td, tn] fs) o (le 4 (4294967296 - k) ++ le 4 (wrap32 d)) := by
  rw [fromTsvMain_args env a t i o td tn fs (atoi_ok_iff.2 ⟨hd, hdi⟩) (atoi_ok_iff.2 ⟨hn, isInt_iff.2 (by omega)⟩),
    wrap64_neg hk1 (by omega)]
  refine copy_out hio ?_
  have h0 : tableBlocks (18446744073709551616 - k) = 0 := by
    unfold tableBlocks u64
    have e1 : (18446744073709551616 - k) / 131072 = 140737488355327 := by omega
    have e2 : (18446744073709551616 - k) % 131072 ≠ 0 := by omega
    rw [e1, if_pos e2]
  have e3 : u32 (18446744073709551616 - k) = 4294967296 - k := by unfold u32; omega
  have e4 : u32 (wrap64 d) = wrap32 d := by unfold u32 wrap64 wrap32; omega
  unfold tableOut
  rw [e3, e4]
  dsimp only
  split
  · rfl
  · rw [if_pos h0]

/-- **C87 (from a table, negative dimension).** With at least one vector and a known type, dimension -1 makes a buffer of no bytes, which is
overrun; every smaller dimension asks for more memory than there can be. -/
theorem C87_table_dimension (env : UtilEnv) (a t i o td tn : Bytes) (ht : t = ascii "float" ∨ t = ascii "int8" ∨ t = ascii "uint8") (fs : FS Bytes)
    (hio : i ≠ o) {k n : Nat} (hd : Spec.NumText td (-(k : Int))) (hn : Spec.NumText tn n) (hk1 : 1 ≤ k) (hk : k ≤ 2147483648)
    (hn1 : 1 ≤ n) (hn' : n < 2147483648) :
    fromTsvMain env [a, t, i, o, td, tn] fs = .error (if k = 1 then .ub else .throw) := by
  rw [fromTsvMain_args env a t i o td tn fs (atoi_ok_iff.2 ⟨hd, isInt_iff.2 (by omega)⟩) (atoi_ok_iff.2 ⟨hn, isInt_iff.2 (by omega)⟩),
    wrap64_neg hk1 (by omega), wrap64_nonneg (by omega) (by omega), Int.toNat_natCast]
  have h : ∃ e, elemArg t = some e := by
    rcases ht with rfl | rfl | rfl
    · exact ⟨.float, rfl⟩
    · exact ⟨.int8, rfl⟩
    · exact ⟨.uint8, rfl⟩
  obtain ⟨e, he⟩ := h
  rw [he]
  refine copy_error hio ?_
  have hes : 1 ≤ e.size := by cases e <;> decide
  have hb : tableBuf e.size n (18446744073709551616 - k) = .error (if k = 1 then .ub else .throw) := by
    unfold tableBuf u64
    dsimp only
    have h1 : min n 131072 ≤ 131072 := Nat.min_le_right _ _
    have h2 : 1 ≤ min n 131072 := by omega
    generalize min n 131072 = m at h1 h2
    by_cases hk2 : k = 1
    · subst hk2
      rw [if_pos rfl]
      have e1 : 4 * m * ((18446744073709551616 - 1 + 1) % 18446744073709551616) % 18446744073709551616 = 0 := by norm_num
      rw [e1, if_neg (by omega), if_pos]
      exact Nat.mul_pos h2 (by omega)
    · rw [if_neg hk2]
      have e1 : (18446744073709551616 - k + 1) % 18446744073709551616 = 18446744073709551616 - (k - 1) := by omega
      obtain ⟨c, hc⟩ : ∃ c, c = 4 * m * (k - 1) := ⟨_, rfl⟩
      have hc1 : 1 ≤ c := by rw [hc]; exact Nat.mul_pos (by omega) (by omega)
      have hc2 : c ≤ 4 * 131072 * 2147483648 := by rw [hc]; exact Nat.mul_le_mul (by omega) (by omega)
      have e2 : 4 * m * (18446744073709551616 - (k - 1)) % 18446744073709551616 = 18446744073709551616 - c := by
        have : 4 * m * (18446744073709551616 - (k - 1)) = (4 * m - 1) * 18446744073709551616 + (18446744073709551616 - c) := by
          rw [Nat.mul_sub, ← hc, Nat.sub_mul]
          omega
        rw [this, Nat.mul_comm, Nat.mul_add_mod, Nat.mod_eq_of_lt (by omega)]
      rw [e1, e2, if_pos]
      calc 9223372036854775807 < (18446744073709551616 - c) * 1 := by omega
        _ ≤ (18446744073709551616 - c) * e.size := Nat.mul_le_mul_left _ hes
  unfold tableOut
  dsimp only
  rw [if_neg (tableBlocks_pos hn1 (by omega)), hb]
  rfl

/-! ## Whole files -/

/-- **C87 (conversion of whole files).** `int8_to_float`, `uint8_to_float` and `uint32_to_uint8` leave in `out` every element converted, even if
`out` is the input. -/
theorem C87_convert (env : UtilEnv) (hj1 : env.j1.length = 4) (hj2 : env.j2.length = 4) (c : ConvTool) (a i o : Bytes) (fs : FS Bytes)
    {ndims : Nat} {rows : List (List Bytes)} (h : Matrix8 c.size ndims rows) (hsize : rows.length * ndims * c.size < 9223372036854775808)
    (hfile : fs i = some (Spec.binFile ndims (rows.map List.flatten))) :
    Spec.Wrote (convMain env c [a, i, o] fs) o (Spec.binFile ndims (rows.map (fun r => (r.map c.conv).flatten))) := by
  rw [convMain_args, hfile]
  exact wrote_out (C74_convert h hsize c.conv env.j1 env.j2 hj1 hj2 env.mem)

theorem bytes_exact : ∀ n : Nat, n < 256 → 0 < n → nearestBits n 1 < 2139095040 ∧ nearestBits n 1 / 8388608 ≠ 0 ∧ nearestBits n 1 / 8388608 ≤ 150 ∧
    8388608 + nearestBits n 1 % 8388608 = n * 2 ^ (150 - nearestBits n 1 / 8388608) := by decide +kernel

theorem magnitude_byte {n : Nat} (h : n < 256) : nearestBits n 1 < 2139095040 ∧ Spec.magnitude (nearestBits n 1) = n := by
  rcases Nat.eq_zero_or_pos n with rfl | h0
  · exact ⟨by decide, by simp [nearestBits, Spec.magnitude]⟩
  · obtain ⟨h1, h2, h3, h4⟩ := bytes_exact n h h0
    refine ⟨h1, ?_⟩
    unfold Spec.magnitude
    rw [if_neg h2, h4]
    generalize nearestBits n 1 / 8388608 = e at *
    push_cast
    rw [mul_assoc, ← zpow_natCast, ← zpow_add₀ (by norm_num)]
    have : ((150 - e : Nat) : Int) + ((e : Int) - 150) = 0 := by omega
    rw [this, zpow_zero, mul_one]

theorem floatOfInt_exact {v : Int} (h : v.natAbs < 256) : Spec.Finite (floatOfInt v) ∧ Spec.value (floatOfInt v) = v := by
  obtain ⟨h1, h2⟩ := magnitude_byte h
  unfold floatOfInt Spec.Finite Spec.value
  by_cases hv : v < 0
  · have e : (BitVec.ofNat 32 (nearestBits v.natAbs 1 + if v < 0 then 2147483648 else 0)).toNat = nearestBits v.natAbs 1 + 2147483648 := by
      rw [if_pos hv, BitVec.toNat_ofNat, Nat.mod_eq_of_lt (by omega)]
    dsimp only
    rw [e, if_neg (by omega), Nat.add_sub_cancel, h2]
    refine ⟨by omega, ?_⟩
    have : ((v.natAbs : Int) : ℚ) = ((-v : Int) : ℚ) := by congr 1; omega
    push_cast at this
    rw [Nat.cast_natAbs] at *
    push_cast at *
    linarith
  · have e : (BitVec.ofNat 32 (nearestBits v.natAbs 1 + if v < 0 then 2147483648 else 0)).toNat = nearestBits v.natAbs 1 := by
      rw [if_neg hv, BitVec.toNat_ofNat, Nat.add_zero, Nat.mod_eq_of_lt (by omega)]
    dsimp only
    rw [e, if_pos (by omega), h2]
    refine ⟨by omega, ?_⟩
    have : ((v.natAbs : Int) : ℚ) = (v : ℚ) := by congr 1; omega
    rwa [Int.cast_natCast] at this

/-- **C87 (exact).** The conversion of bytes to `float`s is exact. -/
theorem C87_exact (b : UInt8) :
    (∃ x : F32, ConvTool.uint8ToFloat.conv [b] = x.bytes ∧ Spec.Finite x ∧ Spec.value x = b.toNat) ∧
    (∃ x : F32, ConvTool.int8ToFloat.conv [b] = x.bytes ∧ Spec.Finite x ∧
      Spec.value x = if b.toNat < 128 then (b.toNat : ℚ) else b.toNat - 256) := by
  have hb := b.toNat_lt
  have e : unle [b] = b.toNat := by simp [unle]
  constructor
  · obtain ⟨h1, h2⟩ := floatOfInt_exact (v := (b.toNat : Int)) (by omega)
    refine ⟨_, rfl, ?_⟩
    rw [e]
    exact ⟨h1, by rw [h2]; norm_cast⟩
  · obtain ⟨h1, h2⟩ := floatOfInt_exact (v := int8Val b.toNat) (by unfold int8Val; split <;> omega)
    refine ⟨_, rfl, ?_⟩
    rw [e]
    refine ⟨h1, ?_⟩
    rw [h2]
    unfold int8Val
    split <;> push_cast <;> rfl

/-- **C87 (numbers to bytes).** `uint32_to_uint8` leaves every number modulo 256. -/
theorem C87_modulo (env : UtilEnv) (hj1 : env.j1.length = 4) (hj2 : env.j2.length = 4) (a i o : Bytes) (fs : FS Bytes) {ndims : Nat} {rows : List (List Nat)}
    (hn : rows.length < 4294967296) (hd : ndims < 4294967296) (hrow : ∀ r ∈ rows, r.length = ndims) (hsize : rows.length * ndims * 4 < 9223372036854775808)
    (hfile : fs i = some (Spec.binFile ndims (rows.map le32s))) :
    Spec.Wrote (convMain env .uint32ToUint8 [a, i, o] fs) o (Spec.binFile ndims (rows.map (fun r => r.map (fun x => UInt8.ofNat (x % 256))))) := by
  have e1 : ∀ r : List Nat, (r.map (le 4)).flatten = le32s r := fun r => by rw [le32s, List.flatMap_def]
  have h := C87_convert env hj1 hj2 .uint32ToUint8 a i o fs (ndims := ndims) (rows := rows.map (fun r => r.map (le 4)))
    ⟨by simpa using hn, hd, by
      intro r hr
      obtain ⟨x, hx, rfl⟩ := List.mem_map.1 hr
      rw [List.length_map]; exact hrow x hx, by
      intro r hr x hx
      obtain ⟨y, hy, rfl⟩ := List.mem_map.1 hr
      obtain ⟨z, hz, rfl⟩ := List.mem_map.1 hx
      rfl⟩ (by rw [List.length_map]; exact hsize) (by
      rw [hfile, List.map_map, show List.flatten ∘ (fun r : List Nat => r.map (le 4)) = le32s from funext e1])
  have e2 : (rows.map (fun r => r.map (le 4))).map (fun r => (r.map ConvTool.uint32ToUint8.conv).flatten) =
      rows.map (fun r => r.map (fun x => UInt8.ofNat (x % 256))) := by
    rw [List.map_map]
    apply List.map_congr_left
    intro r _
    rw [Function.comp_apply, List.map_map]
    clear * -
    induction r with
    | nil => rfl
    | cons x r ih => rw [List.map_cons, List.flatten_cons, ih]; rfl
  rwa [e2] at h

/-! ## Recall -/

/-- **C87 (recall).** `calculate_recall truth results r` prints the recall of the results with respect to the truth, up to 4 parts in 2^53. -/
theorem C87_recall_partial (env : UtilEnv) (a pg po tk : Bytes) (fs : FS Bytes) {f g : Bytes} (hfg : fs pg = some f) (hfo : fs po = some g)
    (hf : f.length < 9223372036854775808) (hg : g.length < 9223372036854775808)
    (hj1 : env.gold.npts.length = 4 ∧ env.gold.dim.length = 4) (hj2 : env.ours.npts.length = 4 ∧ env.ours.dim.length = 4) {G O : Truth}
    (hG : Spec.truth f = .ok G) (hO : Spec.truth g = .ok O) {k : Nat} (htk : Spec.NumText tk k) (hk31 : k < 2147483648) (hk : 1 ≤ k)
    (hkG : k ≤ G.dim) (hkO : k ≤ O.dim) (hn : G.npts = O.npts) (h0 : 0 < G.npts)
    (hnum : ∀ d, G.dists = some d → ∀ i < G.npts, ∃ x, (Spec.row d G.dim i)[k - 1]? = some x ∧ x.IsNum) :
    ∃ v, recallMain env [a, pg, po, tk] fs = .ok (.run (some v)) ∧
      |fval v - 100 * (((List.range G.npts).map (fun i =>
        (Spec.countedSet G.ids G.dists G.dim k i ∩ ((Spec.row O.ids O.dim i).take k).toFinset).card)).sum : ℕ) / (G.npts * k)| ≤
      100 * (((List.range G.npts).map (fun i =>
        (Spec.countedSet G.ids G.dists G.dim k i ∩ ((Spec.row O.ids O.dim i).take k).toFinset).card)).sum : ℕ) / (G.npts * k) *
        (4 / 2 ^ 53) := by
  obtain ⟨v, h1, h2, -⟩ := C45_tool_partial f g hf hg env.gold env.ours hj1 hj2 hG hO k hk hkG hkO hn h0 hnum
  refine ⟨v, ?_, h2⟩
  have hk' := atoi_ok_iff.2 ⟨htk, isInt_iff.2 (by omega)⟩
  have hw : wrap32 (k : Int) = k := by unfold wrap32; omega
  unfold recallMain
  rw [if_neg (by simp)]
  simp only [numAt, rd, List.getElem?_cons_succ, List.getElem?_cons_zero, Res.ok_bind, hk', hw, hfg, hfo, h1]
  rfl

/-- **C87 (recall, negative).** A negative `r` stands for a number of at least 2^31: unless both files have so many columns, the message is
printed. -/
theorem C87_recall_negative (env : UtilEnv) (a pg po tk : Bytes) (fs : FS Bytes) {f g : Bytes} (hfg : fs pg = some f) (hfo : fs po = some g)
    (hf : f.length < 9223372036854775808) (hg : g.length < 9223372036854775808)
    (hj1 : env.gold.npts.length = 4 ∧ env.gold.dim.length = 4) (hj2 : env.ours.npts.length = 4 ∧ env.ours.dim.length = 4) {G O : Truth}
    (hG : Spec.truth f = .ok G) (hO : Spec.truth g = .ok O) {v : Int} (htk : Spec.NumText tk v) (hv : v < 0) (hv' : -2147483648 ≤ v)
    (hsmall : G.dim < 2147483648 ∨ O.dim < 2147483648) :
    recallMain env [a, pg, po, tk] fs = .ok (.run none) := by
  have h := (C45_tool_rejects f g hf hg env.gold env.ours hj1 hj2 (wrap32 v)).1 G O hG hO (by unfold wrap32; omega)
  have hk' := atoi_ok_iff.2 ⟨htk, isInt_iff.2 (by omega)⟩
  unfold recallMain
  rw [if_neg (by simp)]
  simp only [numAt, rd, List.getElem?_cons_succ, List.getElem?_cons_zero, Res.ok_bind, hk', hfg, hfo, h]
  rfl

/-! ## Analysis -/

theorem mapM_map_eq {α β γ : Type} (g : α → β) (f : β → Res γ) (l : List α) : (l.map g).mapM f = l.mapM (fun x => f (g x)) := by
  induction l with
  | nil => rfl
  | cons x l ih => rw [List.map_cons, List.mapM_cons, List.mapM_cons, ih]

theorem loadVecs_ok (env : UtilEnv) (hj1 : env.j1.length = 4) (hj2 : env.j2.length = 4) (e : Elem) {ndims : Nat} {rows : List (List Bytes)}
    (h : Matrix8 e.size ndims rows) (hsize : rows.length * ndims * e.size < 9223372036854775808) :
    loadVecs env e (some (Spec.binFile ndims (rows.map List.flatten))) = .ok (ndims, rows.map (fun r => r.map (env.dec e))) := by
  have hl := flatMap_len List.flatten (ndims * e.size) rows (rawRow_len h)
  rw [List.flatMap_def, ← Nat.mul_assoc] at hl
  unfold loadVecs Spec.binFile
  rw [List.append_assoc, List.length_map, loadBin_ok h.n h.dim hl hsize hj1 hj2, Res.ok_bind]
  dsimp only
  rw [mapM_eq_map _ (fun i => (rows.getD i []).map (env.dec e))]
  · rw [Res.ok_bind]
    congr 2
    apply List.ext_getElem?
    intro i
    rw [List.getElem?_map, List.getElem?_map]
    by_cases hi : i < rows.length
    · rw [List.getElem?_range hi, List.getElem?_eq_getElem hi, Option.map_some, Option.map_some, List.getD_eq_getElem?_getD,
        List.getElem?_eq_getElem hi, Option.getD_some]
    · rw [List.getElem?_eq_none (by simp; omega), List.getElem?_eq_none (by omega)]; rfl
  · intro i hi
    rw [List.mem_range] at hi
    have hr : (rows.getD i []).length = ndims := h.row _ (getD_mem_of_lt hi)
    rw [mapM_eq_map _ (fun d => env.dec e ((rows.getD i []).getD d []))]
    · congr 1
      apply List.ext_getElem?
      intro d
      rw [List.getElem?_map, List.getElem?_map]
      by_cases hd : d < ndims
      · rw [List.getElem?_range hd, List.getElem?_eq_getElem (by omega), Option.map_some, Option.map_some,
          List.getD_eq_getElem?_getD (l := rows.getD i []), List.getElem?_eq_getElem (by omega), Option.getD_some]
      · rw [List.getElem?_eq_none (by simp; omega), List.getElem?_eq_none (by omega)]; rfl
    · intro d hd
      rw [List.mem_range] at hd
      have e' := elem_slice rows h.row h.elem [] hi hd
      rw [List.append_nil] at e'
      rw [List.flatten_flatten] at e'
      rw [Nat.add_comm, e', Res.ok_bind]

theorem saveVecs_leaves (o : Bytes) {ndims : Nat} {Y : List (List Bytes)} :
    Spec.Leaves (saveVecs o ndims Y) o (Spec.binFile ndims (Y.map List.flatten)) := by
  have h := leaves_out o (le 4 (u32 Y.length) ++ le 4 (u32 ndims) ++ (Y.map List.flatten).flatten)
  rw [le4_u32, le4_u32] at h
  unfold saveVecs Spec.binFile
  rw [le4_u32, le4_u32, List.length_map]
  exact h

theorem vectorMain_args (env : UtilEnv) {e : Elem} {t : Bytes} (ht : elemArg t = some e) (a base top : Bytes) (rest : List Bytes) (fs : FS Bytes) :
    vectorMain env (a :: t :: base :: top :: rest) fs = done (vectorRun env e (a :: t :: base :: top :: rest) fs) := by
  unfold vectorMain
  rw [if_neg (by simp)]
  simp only [rd, List.getElem?_cons_succ, List.getElem?_cons_zero, Res.ok_bind, ht]
  rfl

/-- The options of `vector_analysis` that write a file. -/
theorem vectorRun_write (env : UtilEnv) (e : Elem) (a t base top o : Bytes) (fs : FS Bytes) {d : Nat} {X : List (List F32)}
    (hX : loadVecs env e (fs base) = .ok (d, X)) :
    (atoi top = .ok 2 → ∀ Y, augmentBase env.ops (env.enc e) env.sched X = .ok Y →
      vectorRun env e [a, t, base, top, o] fs = .ok ([], saveVecs o (d + 1) Y)) ∧
    (atoi top = .ok 3 → ∀ Y, augmentQuery env.ops (env.enc e) X = .ok Y →
      vectorRun env e [a, t, base, top, o] fs = .ok ([], saveVecs o (d + 1) Y)) ∧
    (atoi top = .ok 4 → ∀ Y, normalizeBase env.ops (env.enc e) X = .ok Y →
      vectorRun env e [a, t, base, top, o] fs = .ok ([], saveVecs o d Y)) := by
  have w2 : wrap32 2 = 2 := rfl
  have w3 : wrap32 3 = 3 := rfl
  have w4 : wrap32 4 = 4 := rfl
  refine ⟨fun ht Y hY => ?_, fun ht Y hY => ?_, fun ht Y hY => ?_⟩
  · unfold vectorRun
    simp only [numAt, rd, List.getElem?_cons_succ, List.getElem?_cons_zero, Res.ok_bind, ht, w2, hX, hY]
    rfl
  · unfold vectorRun
    simp only [numAt, rd, List.getElem?_cons_succ, List.getElem?_cons_zero, Res.ok_bind, ht, w3, hX, hY]
    rfl
  · unfold vectorRun
    simp only [numAt, rd, List.getElem?_cons_succ, List.getElem?_cons_zero, Res.ok_bind, ht, w4, hX, hY]
    rfl

theorem vector_end (env : UtilEnv) {e : Elem} {a base top o : Bytes} {fs : FS Bytes} {d : Nat} {Y : List (List Bytes)} {Z : List Bytes}
    (h : vectorRun env e [a, Spec.elemWord e, base, top, o] fs = .ok ([], saveVecs o d Y)) (hZ : Y.map List.flatten = Z) :
    ∃ ops, vectorMain env [a, Spec.elemWord e, base, top, o] fs = .ok (.run ([], ops)) ∧ Spec.Leaves ops o (Spec.binFile d Z) := by
  refine ⟨saveVecs o d Y, ?_, ?_⟩
  · rw [vectorMain_args env (elemArg_iff.2 rfl), h]; rfl
  · rw [← hZ]; exact saveVecs_leaves o

/-- **C87 (vectors for a metric).** `vector_analysis type base option out` leaves in `out`, with option 4, every vector divided by its norm; with
option 3, the same and a coordinate 0 behind it; with option 2, every vector divided by the square root of what the parallel loop left in
`max_norm`, and behind it the root of what is missing from 1.  `out` may be the input. -/
theorem C87_vector (env : UtilEnv) (hj1 : env.j1.length = 4) (hj2 : env.j2.length = 4) (e : Elem) (a base top o : Bytes) (fs : FS Bytes)
    {ndims : Nat} {rows : List (List Bytes)} (h : Matrix8 e.size ndims rows) (hsize : rows.length * ndims * e.size < 9223372036854775808)
    (hfile : fs base = some (Spec.binFile ndims (rows.map List.flatten))) (f : F32 → Bytes) (norm : List Bytes → F32)
    (hnorm : ∀ r, norm r = r.foldl (fun s x => env.ops.add s (env.ops.mul (env.dec e x) (env.dec e x))) env.ops.zero) :
    (Spec.NumText top 4 → (∀ r ∈ rows, ∀ x ∈ r, env.enc e (env.ops.div (env.dec e x) (env.ops.sqrt (norm r))) =
        .ok (f (env.ops.div (env.dec e x) (env.ops.sqrt (norm r))))) →
      ∃ ops, vectorMain env [a, Spec.elemWord e, base, top, o] fs = .ok (.run ([], ops)) ∧
        Spec.Leaves ops o (Spec.binFile ndims (rows.map (fun r => r.flatMap (fun x => f (env.ops.div (env.dec e x) (env.ops.sqrt (norm r)))))))) ∧
    (Spec.NumText top 3 → env.enc e env.ops.zero = .ok (f env.ops.zero) →
      (∀ r ∈ rows, ∀ x ∈ r, env.enc e (env.ops.div (env.dec e x) (env.ops.sqrt (norm r))) =
        .ok (f (env.ops.div (env.dec e x) (env.ops.sqrt (norm r))))) →
      ∃ ops, vectorMain env [a, Spec.elemWord e, base, top, o] fs = .ok (.run ([], ops)) ∧
        Spec.Leaves ops o (Spec.binFile (ndims + 1) (rows.map (fun r =>
          r.flatMap (fun x => f (env.ops.div (env.dec e x) (env.ops.sqrt (norm r)))) ++ f env.ops.zero)))) ∧
    (Spec.NumText top 2 → ∀ (M : F32) (last : F32 → F32), (maxRun env.ops (rows.map norm) env.sched).Ended →
      M = env.ops.sqrt (maxRun env.ops (rows.map norm) env.sched).m →
      (∀ n, last n = if env.ops.le (env.ops.sub env.ops.one (env.ops.div n (env.ops.mul M M))) env.ops.zero then env.ops.zero
        else env.ops.sqrt (env.ops.sub env.ops.one (env.ops.div n (env.ops.mul M M)))) →
      (∀ r ∈ rows, (∀ x ∈ r, env.enc e (env.ops.div (env.dec e x) M) = .ok (f (env.ops.div (env.dec e x) M))) ∧
        env.enc e (last (norm r)) = .ok (f (last (norm r)))) →
      ∃ ops, vectorMain env [a, Spec.elemWord e, base, top, o] fs = .ok (.run ([], ops)) ∧
        Spec.Leaves ops o (Spec.binFile (ndims + 1) (rows.map (fun r =>
          r.flatMap (fun x => f (env.ops.div (env.dec e x) M)) ++ f (last (norm r)))))) := by
  have hX := loadVecs_ok env hj1 hj2 e h hsize
  rw [← hfile] at hX
  have hnm : ∀ r : List Bytes, mipsNorm env.ops (r.map (env.dec e)) = norm r := by
    intro r
    rw [hnorm]
    unfold mipsNorm
    rw [List.foldl_map]
  obtain ⟨w2, w3, w4⟩ := vectorRun_write env e a (Spec.elemWord e) base top o fs hX
  refine ⟨fun ht henc => ?_, fun ht hz henc => ?_, fun ht M last hend hM hlast henc => ?_⟩
  · have hY : normalizeBase env.ops (env.enc e) (rows.map (fun r => r.map (env.dec e))) =
        .ok (rows.map (fun r => r.map (fun x => f (env.ops.div (env.dec e x) (env.ops.sqrt (norm r)))))) := by
      unfold normalizeBase
      rw [mapM_map_eq]
      rw [mapM_eq_map _ (fun r => r.map (fun x => f (env.ops.div (env.dec e x) (env.ops.sqrt (norm r)))))]
      intro r hr
      rw [hnm, List.map_map, mapM_map_eq]
      exact mapM_eq_map _ _ _ (fun x hx => henc r hr x hx)
    refine vector_end env (w4 (atoi_ok_iff.2 ⟨ht, isInt_iff.2 (by omega)⟩) _ hY) ?_
    rw [List.map_map]
    exact List.map_congr_left (fun r _ => by rw [List.flatMap_def]; rfl)
  · have hY : augmentQuery env.ops (env.enc e) (rows.map (fun r => r.map (env.dec e))) =
        .ok (rows.map (fun r => r.map (fun x => f (env.ops.div (env.dec e x) (env.ops.sqrt (norm r)))) ++ [f env.ops.zero])) := by
      unfold augmentQuery
      rw [mapM_map_eq]
      rw [mapM_eq_map _ (fun r => r.map (fun x => f (env.ops.div (env.dec e x) (env.ops.sqrt (norm r)))) ++ [f env.ops.zero])]
      intro r hr
      rw [hnm, List.map_map, List.mapM_append, mapM_map_eq]
      dsimp only [Function.comp_apply]
      rw [mapM_eq_map _ (fun x => f (env.ops.div (env.dec e x) (env.ops.sqrt (norm r)))) r (fun x hx => henc r hr x hx), List.mapM_cons, List.mapM_nil, hz]
      rfl
    refine vector_end env (w3 (atoi_ok_iff.2 ⟨ht, isInt_iff.2 (by omega)⟩) _ hY) ?_
    rw [List.map_map]
    exact List.map_congr_left (fun r _ => by
      rw [Function.comp_apply, List.flatten_append, List.flatten_cons, List.flatten_nil, List.append_nil, List.flatMap_def])
  · have hnr : (rows.map (fun r => r.map (env.dec e))).map (mipsNorm env.ops) = rows.map norm := by
      rw [List.map_map]
      exact List.map_congr_left (fun r _ => hnm r)
    have hY : augmentBase env.ops (env.enc e) env.sched (rows.map (fun r => r.map (env.dec e))) =
        .ok (rows.map (fun r => r.map (fun x => f (env.ops.div (env.dec e x) M)) ++ [f (last (norm r))])) := by
      rw [augmentBase_ended _ _ _ _ (by rw [hnr]; exact hend), hnr, ← hM, mapM_map_eq]
      rw [mapM_eq_map _ (fun r => r.map (fun x => f (env.ops.div (env.dec e x) M)) ++ [f (last (norm r))])]
      intro r hr
      unfold mipsRow
      dsimp only
      rw [hnm, ← hlast, List.map_map, List.mapM_append, mapM_map_eq]
      dsimp only [Function.comp_apply]
      rw [mapM_eq_map _ (fun x => f (env.ops.div (env.dec e x) M)) r (fun x hx => (henc r hr).1 x hx), List.mapM_cons,
        List.mapM_nil, (henc r hr).2]
      rfl
    refine vector_end env (w2 (atoi_ok_iff.2 ⟨ht, isInt_iff.2 (by omega)⟩) _ hY) ?_
    rw [List.map_map]
    exact List.map_congr_left (fun r _ => by
      rw [Function.comp_apply, List.flatten_append, List.flatten_cons, List.flatten_nil, List.append_nil, List.flatMap_def])

/-- **C87 (no output name).** Only the presence of three arguments is checked: with one of the options that write a file and no name for it the
behaviour is undefined; with an option that is none of the four, nothing is done; an unknown type is refused. -/
theorem C87_vector_arguments (env : UtilEnv) (a base top : Bytes) (fs : FS Bytes) {v : Int} (ht : Spec.NumText top v) (hv : Spec.IsInt v) :
    (∀ e, v = 2 ∨ v = 3 ∨ v = 4 → vectorMain env [a, Spec.elemWord e, base, top] fs = .error .ub) ∧
    (∀ e rest, v < 1 ∨ 4 < v → vectorMain env (a :: Spec.elemWord e :: base :: top :: rest) fs = .ok (.run ([], []))) ∧
    (∀ t rest, t ≠ ascii "float" ∧ t ≠ ascii "int8" ∧ t ≠ ascii "uint8" → vectorMain env (a :: t :: base :: top :: rest) fs = .ok .refused) := by
  have hat := atoi_ok_iff.2 ⟨ht, hv⟩
  rw [isInt_iff] at hv
  refine ⟨fun e h => ?_, fun e rest h => ?_, fun t rest h => ?_⟩
  · rw [vectorMain_args env (elemArg_iff.2 rfl)]
    unfold vectorRun
    rcases h with rfl | rfl | rfl
    · have w : wrap32 2 = 2 := rfl
      simp only [numAt, rd, List.getElem?_cons_succ, List.getElem?_cons_zero, Res.ok_bind, hat, w]
      rfl
    · have w : wrap32 3 = 3 := rfl
      simp only [numAt, rd, List.getElem?_cons_succ, List.getElem?_cons_zero, Res.ok_bind, hat, w]
      rfl
    · have w : wrap32 4 = 4 := rfl
      simp only [numAt, rd, List.getElem?_cons_succ, List.getElem?_cons_zero, Res.ok_bind, hat, w]
      rfl
  · rw [vectorMain_args env (elemArg_iff.2 rfl)]
    unfold vectorRun
    simp only [numAt, rd, List.getElem?_cons_succ, List.getElem?_cons_zero, Res.ok_bind, hat]
    rw [if_neg (by unfold wrap32; omega), if_neg (by unfold wrap32; omega), if_neg (by unfold wrap32; omega), if_neg (by unfold wrap32; omega)]
    rfl
  · unfold vectorMain
    rw [if_neg (by simp)]
    simp only [rd, List.getElem?_cons_succ, List.getElem?_cons_zero, Res.ok_bind, elemArg_none h]
    rfl

/-! ### Examples -/

/-- Elements are copied, numbers are scaled to themselves. -/
def exUtil : UtilEnv where
  j1 := [9, 9, 9, 9]
  j2 := [9, 9, 9, 9]
  mem := fun _ => 7
  val8 := fun _ => 7
  valF := fun _ => F32.one
  scaled := fun _ _ x => some (unle x)
  ops := exOps
  dec := fun _ x => ⟨BitVec.ofNat 32 (unle x)⟩
  enc := fun _ x => .ok x.bytes
  sched := [0, 0, 0]
  sort := id
  gold := exToolJunk
  ours := exToolJunk
  both := .error .ub

theorem exNum (t : Bytes) (v : Int) (h : atoi t = .ok v) : Spec.NumText t v := (atoi_ok_iff.1 h).1

/-- Two vectors and an incomplete one. -/
example : Spec.Wrote (vecsMain exUtil [ascii "fvecs_to_bin", ascii "in", ascii "out"] (fun p => if p = ascii "in" then
      some (Spec.vecsFile [(le 4 1, [1, 1, 1, 1]), (le 4 1, [2, 2, 2, 2])] ++ [1, 0, 0]) else none)) (ascii "out")
    (Spec.binFile 1 [[1, 1, 1, 1], [2, 2, 2, 2]]) :=
  C87_vecs exUtil rfl _ _ _ _ (by decide) (dim := 1) (by decide) [1, 1, 1, 1] [(le 4 1, [2, 2, 2, 2])] [1, 0, 0] rfl (by decide) (by decide)
    (by decide) (by decide) (if_pos rfl)

/-- A value of 5 becomes the byte 5; one of 200 does not fit. -/
example : Spec.Wrote (int8Main exUtil [ascii "float_bin_to_int8", ascii "in", ascii "out", ascii "0", ascii "256"]
      (fun p => if p = ascii "in" then some (Spec.binFile 1 [[5, 0, 0, 0]]) else none)) (ascii "out") (Spec.binFile 1 [[5]]) ∧
    int8Main exUtil [ascii "float_bin_to_int8", ascii "in", ascii "out", ascii "0", ascii "256"]
      (fun p => if p = ascii "in" then some (Spec.binFile 1 [[200, 0, 0, 0]]) else none) = .error .ub := by
  have h1 : Matrix8 4 1 [[[5, 0, 0, 0]]] := by constructor <;> decide
  have h2 : Matrix8 4 1 [[[200, 0, 0, 0]]] := by constructor <;> decide
  refine ⟨(C87_int8 exUtil rfl rfl _ _ _ _ _ _ (by decide) h1 [] (if_pos rfl)).1 (fun x => unle x) ?_,
    (C87_int8 exUtil rfl rfl _ _ _ _ _ _ (by decide) h2 [] (if_pos rfl)).2 [[200, 0, 0, 0]] (by simp) [200, 0, 0, 0] (by simp) ?_⟩
  · intro r hr x hx
    simp only [List.mem_singleton] at hr hx
    subst hr
    simp only [List.mem_singleton] at hx
    subst hx
    exact ⟨rfl, by decide⟩
  · intro v hv
    cases hv
    decide

/-- Two vectors of one character each, to a table and back. -/
example : ∃ ops, toTsvMain exUtil [ascii "bin_to_tsv", ascii "uint8", ascii "in", ascii "mid"]
      (fun p => if p = ascii "in" then some (Spec.binFile 1 [[65], [66]]) else none) = .ok (.run ops) ∧
    Spec.Wrote (fromTsvMain exUtil [ascii "tsv_to_bin", ascii "int8", ascii "mid", ascii "out", ascii "1", ascii "2"]
      (runOps ops (fun p => if p = ascii "in" then some (Spec.binFile 1 [[65], [66]]) else none))) (ascii "out") (Spec.binFile 1 [[65], [66]]) := by
  have h : Matrix8 1 1 [[[65]], [[66]]] := by constructor <;> decide
  exact C87_bytes_back exUtil exUtil rfl rfl _ _ _ _ _ _ _ _ _ (Or.inr rfl) (Or.inl rfl) _ (by decide) (by decide) (by decide) (by decide) h
    (by decide) (by decide) (by decide) (if_pos rfl) (exNum _ _ (by decide +kernel)) (exNum _ _ (by decide +kernel))

/-- The number 1 as a table and back. -/
example : ∃ (ops : List (FOp Bytes)) (back : F32 → F32), toTsvMain exUtil [ascii "bin_to_tsv", ascii "float", ascii "in", ascii "mid"]
      (fun p => if p = ascii "in" then some (floatFile 1 [[F32.one]]) else none) = .ok (.run ops) ∧
    Spec.Wrote (fromTsvMain exUtil [ascii "tsv_to_bin", ascii "float", ascii "mid", ascii "out", ascii " 1", ascii "+1"]
      (runOps ops (fun p => if p = ascii "in" then some (floatFile 1 [[F32.one]]) else none))) (ascii "out") (floatFile 1 [[back F32.one]]) := by
  obtain ⟨ops, back, h1, h2, -⟩ := C87_float_back exUtil exUtil rfl rfl (ascii "bin_to_tsv") (ascii "tsv_to_bin") (ascii "in") (ascii "mid") (ascii "out")
    (ascii " 1") (ascii "+1") (fun p => if p = ascii "in" then some (floatFile 1 [[F32.one]]) else none) (by decide) (by decide) (by decide) (by decide)
    (rows := [[F32.one]]) (by decide) (by decide) (by unfold Spec.Finite; decide) (if_pos rfl) (exNum _ _ (by decide +kernel))
    (exNum _ _ (by decide +kernel))
  exact ⟨ops, back, h1, h2⟩

/-- The type `uin8` of the check in tests/utils/bin_to_tsv.cpp:32 is no type. -/
example : Spec.Wrote (toTsvMain exUtil [ascii "bin_to_tsv", ascii "uin8", ascii "in", ascii "out"] (fun _ => none)) (ascii "out") [] ∧
    Spec.Wrote (fromTsvMain exUtil [ascii "tsv_to_bin", ascii "double", ascii "in", ascii "out", ascii "3", ascii "2"] (fun _ => none)) (ascii "out")
      [2, 0, 0, 0, 3, 0, 0, 0] :=
  ⟨C87_tsv_unknown exUtil _ _ _ _ (by decide) _ (by decide),
    C87_table_unknown exUtil _ _ _ _ _ _ (by decide) _ (by decide) (n := 2) (d := 3) (exNum _ _ (by decide +kernel)) (exNum _ _ (by decide +kernel))
      (by decide) (by decide)⟩

/-- Minus five points. -/
example : Spec.Wrote (fromTsvMain exUtil [ascii "tsv_to_bin", ascii "float", ascii "in", ascii "out", ascii "3", ascii "-5"] (fun _ => none)) (ascii "out")
      [251, 255, 255, 255, 3, 0, 0, 0] ∧
    fromTsvMain exUtil [ascii "tsv_to_bin", ascii "float", ascii "in", ascii "out", ascii "-1", ascii "5"] (fun _ => none) = .error .ub ∧
    fromTsvMain exUtil [ascii "tsv_to_bin", ascii "float", ascii "in", ascii "out", ascii "-2", ascii "5"] (fun _ => none) = .error .throw :=
  ⟨C87_table_negative exUtil _ _ _ _ _ _ _ (by decide) (k := 5) (d := 3) (exNum _ _ (by decide +kernel)) (isInt_iff.2 (by omega))
      (exNum _ _ (by decide +kernel)) (by decide) (by decide),
    C87_table_dimension exUtil _ _ _ _ _ _ (Or.inl rfl) _ (by decide) (k := 1) (n := 5) (exNum _ _ (by decide +kernel)) (exNum _ _ (by decide +kernel))
      (by decide) (by decide) (by decide) (by decide),
    C87_table_dimension exUtil _ _ _ _ _ _ (Or.inl rfl) _ (by decide) (k := 2) (n := 5) (exNum _ _ (by decide +kernel)) (exNum _ _ (by decide +kernel))
      (by decide) (by decide) (by decide) (by decide)⟩

/-- A file of bytes becomes a file of `float`s in place; -1 is 0xbf800000. -/
example : Spec.Wrote (convMain exUtil .int8ToFloat [ascii "int8_to_float", ascii "f", ascii "f"]
      (fun p => if p = ascii "f" then some (Spec.binFile 1 [[255], [2]]) else none)) (ascii "f") (Spec.binFile 1 [[0, 0, 128, 191], [0, 0, 0, 64]]) := by
  have h : Matrix8 ConvTool.int8ToFloat.size 1 [[[255]], [[2]]] := by constructor <;> decide
  exact C87_convert exUtil rfl rfl .int8ToFloat _ _ _ _ h (by decide) (if_pos rfl)

/-- 258 becomes 2. -/
example : Spec.Wrote (convMain exUtil .uint32ToUint8 [ascii "uint32_to_uint8", ascii "f", ascii "f"]
      (fun p => if p = ascii "f" then some (Spec.binFile 2 [le32s [258, 7]]) else none)) (ascii "f") (Spec.binFile 2 [[2, 7]]) :=
  C87_modulo exUtil rfl rfl _ _ _ _ (rows := [[258, 7]]) (by decide) (by decide) (by decide) (by decide) (if_pos rfl)

/-- The recall at 2 is about 50; at -1 a message is printed. -/
example : (∃ v, recallMain exUtil [ascii "calculate_recall", ascii "g", ascii "o", ascii "2"] (fun p => if p = ascii "g" then
        some [1, 0, 0, 0, 2, 0, 0, 0, 5, 0, 0, 0, 6, 0, 0, 0] else some [1, 0, 0, 0, 2, 0, 0, 0, 6, 0, 0, 0, 9, 0, 0, 0]) = .ok (.run (some v))) ∧
    recallMain exUtil [ascii "calculate_recall", ascii "g", ascii "o", ascii "-1"] (fun p => if p = ascii "g" then
        some [1, 0, 0, 0, 2, 0, 0, 0, 5, 0, 0, 0, 6, 0, 0, 0] else some [1, 0, 0, 0, 2, 0, 0, 0, 6, 0, 0, 0, 9, 0, 0, 0]) = .ok (.run none) := by
  constructor
  · obtain ⟨v, h, -⟩ := C87_recall_partial exUtil (ascii "calculate_recall") (ascii "g") (ascii "o") (ascii "2") (fun p => if p = ascii "g" then
        some [1, 0, 0, 0, 2, 0, 0, 0, 5, 0, 0, 0, 6, 0, 0, 0] else some [1, 0, 0, 0, 2, 0, 0, 0, 6, 0, 0, 0, 9, 0, 0, 0]) (if_pos rfl) (if_neg (by decide))
      (by decide) (by decide) ⟨rfl, rfl⟩ ⟨rfl, rfl⟩ (G := ⟨1, 2, [5, 6], none⟩) (O := ⟨1, 2, [6, 9], none⟩) (by decide +kernel) (by decide +kernel)
      (k := 2) (exNum _ _ (by decide +kernel)) (by decide) (by decide) (by decide) (by decide) rfl (by decide) (by simp)
    exact ⟨v, h⟩
  · exact C87_recall_negative exUtil _ _ _ _ _ (if_pos rfl) (if_neg (by decide)) (by decide) (by decide) ⟨rfl, rfl⟩ ⟨rfl, rfl⟩
      (G := ⟨1, 2, [5, 6], none⟩) (O := ⟨1, 2, [6, 9], none⟩) (by decide +kernel) (by decide +kernel) (v := -1) (exNum _ _ (by decide +kernel))
      (by decide) (by decide) (Or.inl (by decide))

/-- One vector, with every option that writes a file. -/
example : (∃ ops b, vectorMain exUtil [ascii "vector_analysis", ascii "float", ascii "in", ascii "4", ascii "out"]
        (fun p => if p = ascii "in" then some (Spec.binFile 1 [[0, 0, 128, 63]]) else none) = .ok (.run ([], ops)) ∧ Spec.Leaves ops (ascii "out") b) ∧
    (∃ ops b, vectorMain exUtil [ascii "vector_analysis", ascii "float", ascii "in", ascii "3", ascii "out"]
        (fun p => if p = ascii "in" then some (Spec.binFile 1 [[0, 0, 128, 63]]) else none) = .ok (.run ([], ops)) ∧ Spec.Leaves ops (ascii "out") b) ∧
    (∃ ops b, vectorMain exUtil [ascii "vector_analysis", ascii "float", ascii "in", ascii "2", ascii "out"]
        (fun p => if p = ascii "in" then some (Spec.binFile 1 [[0, 0, 128, 63]]) else none) = .ok (.run ([], ops)) ∧ Spec.Leaves ops (ascii "out") b) := by
  have h : Matrix8 Elem.float.size 1 [[[0, 0, 128, 63]]] := by constructor <;> decide
  have hw := fun top => C87_vector exUtil rfl rfl .float (ascii "vector_analysis") (ascii "in") top (ascii "out")
    (fun p => if p = ascii "in" then some (Spec.binFile 1 [[0, 0, 128, 63]]) else none) h (by decide) (if_pos rfl) F32.bytes _ (fun _ => rfl)
  refine ⟨?_, ?_, ?_⟩
  · obtain ⟨ops, h1, h2⟩ := (hw (ascii "4")).1 (exNum _ _ (by decide +kernel)) (fun _ _ _ _ => rfl)
    exact ⟨ops, _, h1, h2⟩
  · obtain ⟨ops, h1, h2⟩ := (hw (ascii "3")).2.1 (exNum _ _ (by decide +kernel)) rfl (fun _ _ _ _ => rfl)
    exact ⟨ops, _, h1, h2⟩
  · obtain ⟨ops, h1, h2⟩ := (hw (ascii "2")).2.2 (exNum _ _ (by decide +kernel)) _ _ (by unfold MaxSt.Ended; decide +kernel) rfl (fun _ => rfl)
      (fun _ _ => ⟨fun _ _ => rfl, rfl⟩)
    exact ⟨ops, _, h1, h2⟩

/-- No output name; an option that is none. -/
example : vectorMain exUtil [ascii "vector_analysis", ascii "int8", ascii "in", ascii "4"] (fun _ => none) = .error .ub ∧
    vectorMain exUtil [ascii "vector_analysis", ascii "int8", ascii "in", ascii "5"] (fun _ => none) = .ok (.run ([], [])) :=
  ⟨(C87_vector_arguments exUtil _ _ _ _ (exNum (ascii "4") 4 (by decide +kernel)) (isInt_iff.2 (by omega))).1 .int8 (by omega),
    (C87_vector_arguments exUtil _ _ _ _ (exNum (ascii "5") 5 (by decide +kernel)) (isInt_iff.2 (by omega))).2.1 .int8 [] (by omega)⟩

/-! ## The theorems applied to the examples -/

example := C87_usage exUtil [ascii "fvecs_to_bin", ascii "in"] (fun _ => none)

example := C87_vecs_missing exUtil rfl (ascii "fvecs_to_bin") (ascii "in") (ascii "out") (fun _ => none) (by decide) rfl

/-- Two numbers, and bytes behind them. -/
example := C87_tsv_float exUtil rfl rfl (ascii "bin_to_tsv") (ascii "in") (ascii "out")
  (fun p => if p = ascii "in" then some (Spec.binFile 2 [[0, 0, 128, 63, 0, 0, 0, 64]] ++ [7]) else none) (by decide) (by decide)
  (show Matrix8 4 2 [[[0, 0, 128, 63], [0, 0, 0, 64]]] by constructor <;> decide) [7] (if_pos rfl)

example := (C87_tsv_bytes exUtil rfl rfl (ascii "bin_to_tsv") (ascii "uint8") (ascii "in") (ascii "out") (Or.inr rfl)
  (fun p => if p = ascii "in" then some (Spec.binFile 2 [[65, 66], [67, 68]]) else none) (by decide) (by decide)
  (show Matrix8 1 2 [[[65], [66]], [[67], [68]]] by constructor <;> decide) (if_pos rfl)).1 (by decide) (by decide)

/-- The fifth character is left out. -/
example := C87_table_bytes exUtil (ascii "tsv_to_bin") (ascii "int8") (ascii "in") (ascii "out") (ascii "2") (ascii "2") (Or.inl rfl)
  (fun p => if p = ascii "in" then some (ascii "ab\ncde") else none) (by decide) (d := 2) (n := 2) (exNum _ _ (by decide +kernel))
  (exNum _ _ (by decide +kernel)) (by decide) (by decide) (ascii "ab\ncde") (if_pos rfl) (by decide)

end Grann
