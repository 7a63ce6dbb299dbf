import Verif.Basic.Bytes
/-!
# Model of the cached streams (include/cached_io.h)

The assertions are compiled out (`-DNDEBUG`, CMakeLists.txt).
-/

namespace Grann

/-- Unsigned 64-bit subtraction. -/
def sub64 (a b : Nat) : Nat := u64 (a + 18446744073709551616 - b)

/-- `tellg()` of a stream on a file of `size` bytes: -1, converted to unsigned, in the fail state. -/
def IStream.tell (s : IStream) (size : Nat) : Nat :=
  if s.fail then 18446744073709551615 else size - s.rest.length

/-- The members of `cached_ifstream` (include/cached_io.h:84-95); `len` is the length of the file. -/
structure CReader where
  len : Nat
  reader : IStream
  cache : Bytes
  cacheSize : Nat
  curOff : Nat
  fsize : Nat

/-- `cached_ifstream::open` (include/cached_io.h:27-40).  `mem` are the initial contents of the new array;
the array is assumed to be available. -/
def CReader.open (file : Option Bytes) (cacheSize : Nat) (mem : Nat → UInt8) : CReader :=
  let s := IStream.open file
  let len := (file.getD []).length
  let fsize := if s.fail then 18446744073709551615 else len
  let cs := min cacheSize fsize
  let (b, s) := s.read cs
  ⟨len, s, b ++ ((List.range cs).map mem).drop b.length, cs, 0, fsize⟩

/-- `memcpy(dst, src + off, n)`: the bytes copied. -/
def copyBytes (src : Bytes) (off n : Nat) : Res Bytes :=
  if off + n ≤ src.length then .ok ((src.drop off).take n) else .error .ub

/-- The cache is refilled (include/cached_io.h:72-77). -/
def CReader.refill (r : CReader) : CReader :=
  if r.cacheSize ≤ sub64 r.fsize (r.reader.tell r.len) then
    let (b, s) := r.reader.read r.cacheSize
    { r with reader := s, cache := b ++ r.cache.drop b.length, curOff := 0 }
  else r

/-- `cached_ifstream::read` (include/cached_io.h:45-82) into memory that holds `buf`; `n` is the number of
bytes asked for.  The result is what `buf` holds afterwards. -/
def CReader.read (r : CReader) (n : Nat) (buf : Bytes) : Res (Bytes × CReader) :=
  if n ≤ sub64 r.cacheSize r.curOff then do
    let b ← copyBytes r.cache r.curOff n
    .ok (b, { r with curOff := r.curOff + n })
  else
    let cached := sub64 r.cacheSize r.curOff
    if sub64 r.fsize (r.reader.tell r.len) < sub64 n cached then .error .throw
    else do
      let a ← copyBytes r.cache r.curOff cached
      let (b, s) := r.reader.read (sub64 n cached)
      .ok (a ++ b ++ buf.drop (a.length + b.length),
        CReader.refill { r with reader := s, curOff := r.cacheSize })

/-- Several reads, each into its own memory (`mem k i` is byte `i` of the memory of read number `k`). -/
def CReader.reads (mem : Nat → Nat → UInt8) : Nat → CReader → List Nat → Res (List Bytes)
  | _, _, [] => .ok []
  | k, r, n :: ns => do
    let (b, r') ← r.read n ((List.range n).map (mem k))
    let bs ← CReader.reads mem (k + 1) r' ns
    .ok (b :: bs)

/-- The members of `cached_ofstream` (include/cached_io.h:158-170); `file` and `pos` are the contents of the
file and the position at which `writer` writes next. -/
structure CWriter where
  file : Bytes
  pos : Nat
  cacheSize : Nat
  cache : Bytes
  curOff : Nat
  fsize : Nat
  deriving DecidableEq

/-- The constructor (include/cached_io.h:100-108). -/
def CWriter.open (cacheSize : Nat) (mem : Nat → UInt8) : CWriter :=
  ⟨[], 0, cacheSize, (List.range cacheSize).map mem, 0, 0⟩

/-- `writer.write(b)` at the current position of a stream. -/
def CWriter.raw (w : CWriter) (b : Bytes) : CWriter :=
  { w with file := w.file.take w.pos ++ b ++ w.file.drop (w.pos + b.length), pos := w.pos + b.length }

/-- `flush_cache` (include/cached_io.h:145-151). -/
def CWriter.flush (w : CWriter) : Res CWriter := do
  let b ← copyBytes w.cache 0 w.curOff
  .ok { w.raw b with fsize := u64 (w.fsize + w.curOff), cache := List.replicate w.cache.length 0, curOff := 0 }

/-- `write` (include/cached_io.h:125-143). -/
def CWriter.write (w : CWriter) (b : Bytes) : Res CWriter :=
  if b.length ≤ sub64 w.cacheSize w.curOff then do
    let c ← blit w.cache w.curOff b
    .ok { w with cache := c, curOff := w.curOff + b.length }
  else do
    let c ← copyBytes w.cache 0 w.curOff
    let w1 := { w.raw c with fsize := u64 (w.fsize + w.curOff) }
    .ok { w1.raw b with fsize := u64 (w1.fsize + b.length), cache := List.replicate w.cache.length 0, curOff := 0 }

/-- The calls on a writer. -/
inductive WCall
  | write (b : Bytes)
  | flush
  | reset

/-- One call; `reset` is in include/cached_io.h:153-156. -/
def CWriter.call (w : CWriter) : WCall → Res CWriter
  | .write b => w.write b
  | .flush => w.flush
  | .reset => do
    let w ← w.flush
    .ok { w with pos := 0 }

/-- The destructor (include/cached_io.h:110-119). -/
def CWriter.close (w : CWriter) : Res CWriter := if 0 < w.curOff then w.flush else .ok w

end Grann
