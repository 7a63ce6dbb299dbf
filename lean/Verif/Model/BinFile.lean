import Verif.Basic.Bytes
/-!
# Model of the `.bin` file functions (include/utils.h)

A matrix in memory is the list of its bytes.  `es` is `sizeof(T)`.  Memory is assumed to be available for
every allocation that does not exceed what `operator new[]` accepts.
-/

namespace Grann

/-- `ROUND_UP(X, 8)` (include/essentials.h:42-43). -/
def roundUp8 (x : Nat) : Nat := (x / 8 + if x % 8 ≠ 0 then 1 else 0) * 8

/-- The size of a file as `tellg` reports it; -1 converted to unsigned if the file is missing
(include/utils.h:108, 259). -/
def tellSize : Option Bytes → Nat
  | none => 18446744073709551615
  | some b => b.length

/-- Reading the two header words into variables that hold `junk1`, `junk2` (include/utils.h:76-80,
222-226). -/
def readHeader (file : Option Bytes) (junk1 junk2 : Bytes) : Nat × Nat × IStream :=
  let (npts, s) := (IStream.open file).readInt junk1
  let (dim, s) := s.readInt junk2
  (npts, dim, s)

/-- `load_bin` (include/utils.h:72-112): number of rows, dimension, contents.  `new T[npts * dim]` throws
if the array would exceed 2^63 - 1 bytes.  `junk1`, `junk2` and `mem` are the initial contents of
`npts_i32`, `dim_i32` and of the new array. -/
def loadBin (es : Nat) (file : Option Bytes) (junk1 junk2 : Bytes) (mem : Nat → UInt8) :
    Res (Nat × Nat × Bytes) :=
  let (npts, dim, s) := readHeader file junk1 junk2
  if tellSize file ≠ u64 (npts * dim * es + 8) then .error .throw
  else if 9223372036854775807 < npts * dim * es then .error .throw
  else do
    let (b, _) := s.read (npts * dim * es)
    let data ← blit ((List.range (npts * dim * es)).map mem) 0 b
    .ok (npts, dim, data)

/-- `save_bin` (include/utils.h:123-139). -/
def saveBin {P : Type} (p : P) (npts ndims : Nat) (data : Bytes) : List (FOp P) :=
  [.create p, .append p (le 4 npts), .append p (le 4 ndims), .append p data]

/-- The bytes `[off, off + len)` of an array. -/
def slice (mem : Bytes) (off len : Nat) : Res Bytes :=
  if off + len ≤ mem.length then .ok ((mem.drop off).take len) else .error .ub

/-- `save_data_in_original_dimensions` (include/utils.h:141-169). -/
def saveOrig {P : Type} (p : P) (es : Nat) (data : Bytes) (npts adim dim : Nat) : Res (List (FOp P)) :=
  if dim > adim then .ok []
  else do
    let rows ← (List.range npts).mapM (fun i => slice data (i * adim * es) (dim * es))
    .ok ([.create p, .append p (le 4 npts), .append p (le 4 dim)] ++ rows.map (.append p))

/-- `save_aligned_data_subset_in_orig_dimensions` (include/utils.h:171-214): only a message is printed if
the list is empty or has an entry that is not below `npts`. -/
def saveSubset {P : Type} (p : P) (es : Nat) (data : Bytes) (adim dim : Nat) (ids : List Nat) :
    Res (List (FOp P)) :=
  if dim > adim then .ok []
  else do
    let rows ← ids.mapM (fun i => slice data (i * adim * es) (dim * es))
    .ok ([.create p, .append p (le 4 ids.length), .append p (le 4 dim)] ++ rows.map (.append p))

/-- The loop of `load_aligned_bin_impl` (include/utils.h:246-249) from row `i` on: the bytes of the row are
read and the rest of the row is filled with zeros. -/
def alignedRows (es dim adim : Nat) : Nat → Nat → IStream → Bytes → Res Bytes
  | 0, _, _, data => .ok data
  | todo + 1, i, s, data => do
    let (b, s') := s.read (dim * es)
    let data ← blit data (i * adim * es) b
    let data ← blit data ((i * adim + dim) * es) (List.replicate ((adim - dim) * es) 0)
    alignedRows es dim adim todo (i + 1) s' data

/-- `load_aligned_bin` (include/utils.h:218-263): number of rows, dimension, rounded dimension,
contents. -/
def loadAligned (es : Nat) (file : Option Bytes) (junk1 junk2 : Bytes) (mem : Nat → UInt8) :
    Res (Nat × Nat × Nat × Bytes) :=
  let (npts, dim, s) := readHeader file junk1 junk2
  if tellSize file ≠ u64 (npts * dim * es + 8) then .error .throw
  else do
    let adim := roundUp8 dim
    let data ← alignedRows es dim adim npts 0 s ((List.range (u64 (npts * adim * es))).map mem)
    .ok (npts, dim, adim, data)

/-- `get_bin_metadata` (include/utils.h:43-56): the header words are `int` and are converted to 64-bit
unsigned numbers, i.e. sign-extended. -/
def binMetadata (file : Option Bytes) (junk1 junk2 : Bytes) : Nat × Nat :=
  let (npts, dim, _) := readHeader file junk1 junk2
  let ext (x : Nat) := if 2147483648 ≤ x then x + 18446744069414584320 else x
  (ext npts, ext dim)

end Grann
