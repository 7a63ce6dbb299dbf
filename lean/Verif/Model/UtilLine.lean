import Verif.Model.CommandLine
import Verif.Model.RecallTool
import Verif.Model.VecTool
/-!
# Model of the `main` functions of the conversion and analysis tools (tests/utils)

`argv` and the conversions are as in Model/CommandLine.lean.  A result is the list of the file operations; if a tool fails,
what it has written is not described.  Different names are different files.  Writing succeeds.  What is printed is only
described where it is the purpose of the tool.  `bin_to_fvecs` can not be linked (its sources are incomplete), nor can
`create_disk_layout` and `merge_shards` (tests/utils/create_disk_layout.cpp, merge_shards.cpp), whose functions are defined
nowhere.
-/

namespace Grann

/-- What the tools do not determine: uninitialised memory (the header words, the buffers, `val` in every block), the
arithmetic of tests/utils/float_bin_to_int8.cpp:15 for a bias and a scale, the operations on `float`s, conversion of an
element of a vector to `float` and back (tests/utils/vector_analysis.cpp), the accesses to `max_norm`, `std::sort`, and
what happens if a file is read and written at the same time. -/
structure UtilEnv where
  j1 : Bytes
  j2 : Bytes
  mem : Nat → UInt8
  val8 : Nat → UInt8
  valF : Nat → F32
  scaled : F32 → F32 → Bytes → Option Int
  ops : MOps F32
  dec : Elem → Bytes → F32
  enc : Elem → F32 → Res Bytes
  sched : List Nat
  sort : List F32 → List F32
  gold : TruthJunk
  ours : TruthJunk
  both : Res (List (FOp Bytes))

/-- A new file. -/
def writeOut (o : Bytes) (r : Res Bytes) : Res (Cmd (List (FOp Bytes))) :=
  done (r >>= fun b => .ok [.create o, .append o b])

/-- A tool that reads a file while it writes another one. -/
def copyTool (env : UtilEnv) (i o : Bytes) (r : Res Bytes) : Res (Cmd (List (FOp Bytes))) :=
  if i = o then done env.both else writeOut o r

/-- `main` (tests/utils/fvecs_to_bin.cpp:18-56, ivecs_to_bin.cpp:18-56). -/
def vecsMain (env : UtilEnv) (argv : List Bytes) (fs : FS Bytes) : Res (Cmd (List (FOp Bytes))) :=
  if argv.length ≠ 3 then .ok .usage else do
  let i ← rd argv 1
  let o ← rd argv 2
  copyTool env i o (vecsToBin 131072 (fs i) env.j1 env.mem)

/-- `main` (tests/utils/float_bin_to_int8.cpp:21-62). -/
def int8Main (env : UtilEnv) (argv : List Bytes) (fs : FS Bytes) : Res (Cmd (List (FOp Bytes))) :=
  if argv.length ≠ 5 then .ok .usage else do
  let i ← rd argv 1
  let o ← rd argv 2
  let bias ← floatAt argv 3
  let sc ← floatAt argv 4
  copyTool env i o (floatToInt8 131072 (env.scaled bias sc) (fs i) env.j1 env.j2 env.mem)

/-- `main` (tests/utils/bin_to_tsv.cpp:23-68).  With an unknown type the blocks are counted, but nothing is read or
written. -/
def toTsvMain (env : UtilEnv) (argv : List Bytes) (fs : FS Bytes) : Res (Cmd (List (FOp Bytes))) :=
  if argv.length ≠ 4 then .ok .usage else do
  let t ← rd argv 1
  let i ← rd argv 2
  let o ← rd argv 3
  copyTool env i o (match elemArg t with
    | none => .ok []
    | some .float => binToTsv 131072 4 floatFmt (fs i) env.j1 env.j2 env.mem
    | some _ => binToTsv 131072 1 id (fs i) env.j1 env.j2 env.mem)

/-- `ROUND_UP(npts, blk_size) / blk_size` in 64 bits (tests/utils/tsv_to_bin.cpp:51). -/
def tableBlocks (npts : Nat) : Nat :=
  u64 ((npts / 131072 + if npts % 131072 ≠ 0 then 1 else 0) * 131072) / 131072

/-- The buffer of the first block (tests/utils/tsv_to_bin.cpp:10-21, 60), the largest one: its size is computed in 64 bits,
`operator new[]` refuses more than 2^63 - 1 bytes, and what is written to it may not fit. -/
def tableBuf (es npts ndims : Nat) : Res Unit :=
  let n := min npts 131072
  let room := u64 (4 * n * u64 (ndims + 1))
  if 9223372036854775807 < room * es then .error .throw
  else if room < n * ndims then .error .ub
  else .ok ()

/-- The output of `tsv_to_bin` (tests/utils/tsv_to_bin.cpp:42-72), for numbers of 64 bits; an unknown type is `none`. -/
def tableOut (env : UtilEnv) (e : Option Elem) (npts ndims : Nat) (file : Option Bytes) : Res Bytes :=
  let head := le 4 (u32 npts) ++ le 4 (u32 ndims)
  match e with
  | none => .ok head
  | some e =>
    if tableBlocks npts = 0 then .ok head else do
    tableBuf e.size npts ndims
    match e with
    | .float => .ok (tsvLoopF 131072 npts ndims env.valF (tableBlocks npts) 0 file head)
    | _ => .ok (tsvLoop 131072 npts ndims env.val8 (tableBlocks npts) 0 (file.getD []) head)

/-- `main` (tests/utils/tsv_to_bin.cpp:26-73). -/
def fromTsvMain (env : UtilEnv) (argv : List Bytes) (fs : FS Bytes) : Res (Cmd (List (FOp Bytes))) :=
  if argv.length ≠ 6 then .ok .usage else do
  let t ← rd argv 1
  let nd ← numAt argv 4
  let np ← numAt argv 5
  let i ← rd argv 2
  let o ← rd argv 3
  copyTool env i o (tableOut env (elemArg t) (wrap64 np) (wrap64 nd) (fs i))

/-- The tools that load the whole file before they write: the size of an element and its conversion. -/
inductive ConvTool
  | int8ToFloat
  | uint8ToFloat
  | uint32ToUint8
  deriving DecidableEq

/-- Conversion of an integer to `float`. -/
def floatOfInt (v : Int) : F32 := ⟨BitVec.ofNat 32 (nearestBits v.natAbs 1 + if v < 0 then 2147483648 else 0)⟩

/-- The number in a byte of type `int8_t`. -/
def int8Val (b : Nat) : Int := if b < 128 then b else (b : Int) - 256

/-- `sizeof(InType)` and the conversion (include/utils.h:265-274; tests/utils/int8_to_float.cpp:17, uint8_to_float.cpp:17,
uint32_to_uint8.cpp:17). -/
def ConvTool.size : ConvTool → Nat
  | .uint32ToUint8 => 4
  | _ => 1

def ConvTool.conv : ConvTool → Bytes → Bytes
  | .int8ToFloat, x => (floatOfInt (int8Val (unle x))).bytes
  | .uint8ToFloat, x => (floatOfInt (unle x)).bytes
  | .uint32ToUint8, x => x.take 1

/-- `main` (tests/utils/int8_to_float.cpp:7-21, uint8_to_float.cpp:7-21, uint32_to_uint8.cpp:7-21). -/
def convMain (env : UtilEnv) (c : ConvTool) (argv : List Bytes) (fs : FS Bytes) : Res (Cmd (List (FOp Bytes))) :=
  if argv.length ≠ 3 then .ok .usage else do
  let i ← rd argv 1
  let o ← rd argv 2
  writeOut o (convertBin c.size c.conv (fs i) env.j1 env.j2 env.mem)

/-- `main` (tests/utils/calculate_recall.cpp:15-53): the number printed.  The last argument is converted first here, in the program after
the files are loaded. -/
def recallMain (env : UtilEnv) (argv : List Bytes) (fs : FS Bytes) : Res (Cmd (Option (Nat × Nat))) :=
  if argv.length ≠ 4 then .ok .usage else do
  let g ← rd argv 1
  let o ← rd argv 2
  let k ← numAt argv 3
  done (recallTool (fs g) (fs o) env.gold env.ours (wrap32 k))

/-! ## Analysis of vectors -/

/-- The vectors in memory after `load_bin`, as `float`s. -/
def loadVecs (env : UtilEnv) (e : Elem) (file : Option Bytes) : Res (Nat × List (List F32)) := do
  let (npts, ndims, data) ← loadBin e.size file env.j1 env.j2 env.mem
  let rows ← (List.range npts).mapM (fun i => (List.range ndims).mapM (fun d => do
    let x ← slice data ((i * ndims + d) * e.size) e.size
    .ok (env.dec e x)))
  .ok (ndims, rows)

/-- `save_bin` of the rows (include/utils.h:124-139). -/
def saveVecs (o : Bytes) (ndims : Nat) (rows : List (List Bytes)) : List (FOp Bytes) :=
  [.create o, .append o (le 4 (u32 rows.length) ++ le 4 (u32 ndims) ++ (rows.map List.flatten).flatten)]

/-- `aux_main` (tests/utils/vector_analysis.cpp:113-126): the values printed by the first option, and the file written by the
others. -/
def vectorRun (env : UtilEnv) (e : Elem) (argv : List Bytes) (fs : FS Bytes) : Res (List F32 × List (FOp Bytes)) := do
  let base ← rd argv 2
  let option ← numAt argv 3
  if wrap32 option = 1 then do
    let (_, X) ← loadVecs env e (fs base)
    let p ← analyzeNorm env.ops env.sort X
    .ok (p, [])
  else if wrap32 option = 2 then do
    let o ← rd argv 4
    let (d, X) ← loadVecs env e (fs base)
    let Y ← augmentBase env.ops (env.enc e) env.sched X
    .ok ([], saveVecs o (d + 1) Y)
  else if wrap32 option = 3 then do
    let o ← rd argv 4
    let (d, X) ← loadVecs env e (fs base)
    let Y ← augmentQuery env.ops (env.enc e) X
    .ok ([], saveVecs o (d + 1) Y)
  else if wrap32 option = 4 then do
    let o ← rd argv 4
    let (d, X) ← loadVecs env e (fs base)
    let Y ← normalizeBase env.ops (env.enc e) X
    .ok ([], saveVecs o d Y)
  else .ok ([], [])

/-- `main` (tests/utils/vector_analysis.cpp:128-148). -/
def vectorMain (env : UtilEnv) (argv : List Bytes) (fs : FS Bytes) : Res (Cmd (List F32 × List (FOp Bytes))) :=
  if argv.length < 4 then .ok .usage else do
  let t ← rd argv 1
  cmdOf (elemArg t) (fun e => done (vectorRun env e argv fs))

end Grann
