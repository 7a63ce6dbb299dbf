import Verif.Model.BinFile
import Verif.Model.LabelFile
/-!
# Model of the conversion tools (tests/utils)

`fvecs_to_bin`, `ivecs_to_bin`, `float_bin_to_int8`, `bin_to_tsv`, `tsv_to_bin` (for single bytes) and the tools built
on `convert_types`.  `blk` is `blk_size`, 131072 in all of them.  Sizes are mathematical numbers where they are
products of a number of points and a dimension taken from a file of that size.  Memory is assumed to be available for
arrays `operator new[]` accepts.  Writing to the output succeeds.  Uninitialised memory is a parameter.
-/

namespace Grann

/-- The loop over blocks all tools share (tests/utils/fvecs_to_bin.cpp:44-48, ivecs_to_bin.cpp:44-48,
float_bin_to_int8.cpp:49-54, bin_to_tsv.cpp:50-60) from block `i` on: read `inB` bytes for every point of the block
into the buffer, then write what `emit` makes of the buffer.  Every block begins at the start of the buffer. -/
def convLoop (blk npts inB : Nat) (emit : Bytes → Nat → Res Bytes) : Nat → Nat → IStream → Bytes → Bytes → Res Bytes
  | 0, _, _, _, out => .ok out
  | todo + 1, i, s, buf, out => do
    let n := min (npts - i * blk) blk
    let (b, s) := s.read (n * inB)
    let buf ← blit buf 0 b
    let x ← emit buf n
    convLoop blk npts inB emit todo (i + 1) s buf (out ++ x)

/-- `ROUND_UP(npts, blk_size) / blk_size` (include/essentials.h:42-43). -/
def convBlocks (npts blk : Nat) : Nat := (npts / blk + if npts % blk ≠ 0 then 1 else 0) * blk / blk

/-- Copying the vectors of a block without the leading dimension (tests/utils/fvecs_to_bin.cpp:11-15). -/
def vecsEmit (ndims : Nat) (buf : Bytes) (n : Nat) : Res Bytes := do
  let rows ← (List.range n).mapM (fun i => slice buf ((i * (ndims + 1) + 1) * 4) (ndims * 4))
  .ok rows.flatten

/-- `fvecs_to_bin` and `ivecs_to_bin` (tests/utils/fvecs_to_bin.cpp:18-55, ivecs_to_bin.cpp:18-55): the output file.
A stream that failed while the dimension was read stays failed.  `junk` is the initial content of `ndims_u32`, `mem` of
`read_buf`; `write_buf` has room for all points. -/
def vecsToBin (blk : Nat) (file : Option Bytes) (junk : Bytes) (mem : Nat → UInt8) : Res Bytes :=
  let fsize := tellSize file
  let (ndims, s) := (IStream.open file).readInt junk
  let s := if s.fail then s else IStream.open file
  let npts := fsize / ((ndims + 1) * 4)
  if 9223372036854775807 < npts * (ndims + 1) * 4 then .error .throw
  else convLoop blk npts (ndims * 4 + 4) (vecsEmit ndims) (convBlocks npts blk) 0 s
    ((List.range (npts * (ndims + 1) * 4)).map mem) (le 4 npts ++ le 4 ndims)

/-- Converting the elements of a block, each of `es` bytes (tests/utils/float_bin_to_int8.cpp:12-17, bin_to_tsv.cpp:11-19);
`f d x` is what is written for element `x` in column `d`. -/
def elemEmit (es ndims : Nat) (f : Nat → Bytes → Res Bytes) (buf : Bytes) (n : Nat) : Res Bytes := do
  let rows ← (List.range n).mapM (fun i => do
    let row ← (List.range ndims).mapM (fun d => do
      let x ← slice buf ((d + i * ndims) * es) es
      f d x)
    .ok row.flatten)
  .ok rows.flatten

/-- The conversion `(int8_t)((x - bias) * (256.0 / scale))` (tests/utils/float_bin_to_int8.cpp:15): `scaled` gives the
product truncated to an integer, `none` if it is not a number.  The conversion is undefined if the truncated value is not
in the range of the type. -/
def toInt8 (scaled : Bytes → Option Int) (x : Bytes) : Res Bytes :=
  match scaled x with
  | none => .error .ub
  | some v => if -128 ≤ v ∧ v ≤ 127 then .ok [UInt8.ofNat (v % 256).toNat] else .error .ub

/-- `float_bin_to_int8` (tests/utils/float_bin_to_int8.cpp:21-61): the output file. -/
def floatToInt8 (blk : Nat) (scaled : Bytes → Option Int) (file : Option Bytes) (junk1 junk2 : Bytes) (mem : Nat → UInt8) :
    Res Bytes :=
  let (npts, ndims, s) := readHeader file junk1 junk2
  convLoop blk npts (ndims * 4) (elemEmit 4 ndims (fun _ => toInt8 scaled)) (convBlocks npts blk) 0 s
    ((List.range (blk * ndims * 4)).map mem) (le 4 npts ++ le 4 ndims)

/-- An element of a line and the separator (tests/utils/bin_to_tsv.cpp:13-17); `fmt` is `operator<<`. -/
def tsvElem (ndims : Nat) (fmt : Bytes → Bytes) (d : Nat) (x : Bytes) : Res Bytes :=
  .ok (fmt x ++ [if d < ndims - 1 then 9 else 10])

/-- `bin_to_tsv` (tests/utils/bin_to_tsv.cpp:22-67): the output file.  Whatever the type, four bytes are read for every
element (tests/utils/bin_to_tsv.cpp:9). -/
def binToTsv (blk es : Nat) (fmt : Bytes → Bytes) (file : Option Bytes) (junk1 junk2 : Bytes) (mem : Nat → UInt8) :
    Res Bytes :=
  let (npts, ndims, s) := readHeader file junk1 junk2
  convLoop blk npts (ndims * 4) (elemEmit es ndims (tsvElem ndims fmt)) (convBlocks npts blk) 0 s
    ((List.range (blk * ndims * 4)).map mem) []

/-- `reader >> val` for a type of one byte, repeated (tests/utils/tsv_to_bin.cpp:14-20): white space is skipped and one
character is stored; at the end of the file `val` keeps its value. -/
def tsvChars : Nat → Bytes → UInt8 → Bytes × Bytes
  | 0, t, _ => ([], t)
  | k + 1, t, v =>
    match t.dropWhile isSpace with
    | [] => let (r, t) := tsvChars k [] v; (v :: r, t)
    | c :: t => let (r, t) := tsvChars k t c; (c :: r, t)

/-- The loop over blocks (tests/utils/tsv_to_bin.cpp:58-68) from block `i` on; `junk i` is the initial value of `val`. -/
def tsvLoop (blk npts ndims : Nat) (junk : Nat → UInt8) : Nat → Nat → Bytes → Bytes → Bytes
  | 0, _, _, out => out
  | todo + 1, i, t, out =>
    let n := min (npts - i * blk) blk
    let (x, t) := tsvChars (n * ndims) t (junk i)
    tsvLoop blk npts ndims junk todo (i + 1) t (out ++ x)

/-- `tsv_to_bin` for `int8` and `uint8` (tests/utils/tsv_to_bin.cpp:26-72). -/
def tsvToBin8 (blk npts ndims : Nat) (text : Bytes) (junk : Nat → UInt8) : Bytes :=
  tsvLoop blk npts ndims junk (convBlocks npts blk) 0 text (le 4 npts ++ le 4 ndims)

/-- The tools built on `convert_types` (tests/utils/int8_to_float.cpp:13-20, uint8_to_float.cpp:13-20,
uint32_to_uint8.cpp:13-20; include/utils.h:265-274). -/
def convertBin (es : Nat) (conv : Bytes → Bytes) (file : Option Bytes) (junk1 junk2 : Bytes) (mem : Nat → UInt8) :
    Res Bytes := do
  let (npts, ndims, data) ← loadBin es file junk1 junk2 mem
  let rows ← (List.range npts).mapM (fun i => do
    let row ← (List.range ndims).mapM (fun d => do
      let x ← slice data ((i * ndims + d) * es) es
      .ok (conv x))
    .ok row.flatten)
  .ok (le 4 npts ++ le 4 ndims ++ rows.flatten)

end Grann
