import Verif.Model.Convert
import Verif.Model.FloatText
/-!
# Model of `tsv_to_bin` for `float` (tests/utils/tsv_to_bin.cpp)

`reader >> val` for a `float` is the operator of the standard library: white space is skipped, the characters that can
belong to a decimal number are taken from the stream, and they are converted.  If the conversion fails the stream stays
failed and later reads change nothing.  Hexadecimal numbers and other locales are not modelled.
-/

namespace Grann

/-- The sign at the beginning, if any. -/
def signOf (t : Bytes) : Bytes := if t.head? = some 43 ∨ t.head? = some 45 then t.take 1 else []

/-- The exponent: after a mantissa (`m`) a letter `e`, sign and digits. -/
def expChars (m : Bool) (r : Bytes) : Bytes × Bytes :=
  if (r.head? = some 101 ∨ r.head? = some 69) ∧ m = true then
    let g := signOf (r.drop 1)
    let q := (r.drop 1).drop g.length
    (r.take 1 ++ (g ++ q.takeWhile isDigit), q.dropWhile isDigit)
  else ([], r)

/-- The characters taken from the stream for a `float` and those that are left: sign, digits, point, digits, and after at
least one digit an exponent. -/
def floatChars (t : Bytes) : Bytes × Bytes :=
  let s := signOf t
  let u := t.drop s.length
  let a := u.takeWhile isDigit
  let r := u.dropWhile isDigit
  let f := if r.head? = some 46 then 46 :: (r.drop 1).takeWhile isDigit else []
  let r := if r.head? = some 46 then (r.drop 1).dropWhile isDigit else r
  let x := expChars (!a.isEmpty || 1 < f.length) r
  (s ++ (a ++ (f ++ x.1)), x.2)

/-- What is stored when the conversion fails: 0 if the characters are not a number (no digit, or nothing after the letter
or its sign), the largest number with the sign of the text if it is too large. -/
def floatFail (c : Bytes) : F32 :=
  if !c.any isDigit || c.getLast? = some 101 || c.getLast? = some 69 || c.getLast? = some 43 || c.getLast? = some 45 then F32.zero
  else if c.head? = some 45 then ⟨0xff7fffff#32⟩ else F32.fmax

/-- `reader >> val` (tests/utils/tsv_to_bin.cpp:16): the new value of `val` and what is left of the file; `none` is a
stream that has failed. -/
def readFloat (t : Option Bytes) (v : F32) : F32 × Option Bytes :=
  match t with
  | none => (v, none)
  | some t =>
    let t := t.dropWhile isSpace
    if t.isEmpty then (v, none)
    else match toF32 (floatChars t).1 with
      | .ok x => (x, some (floatChars t).2)
      | .error _ => (floatFail (floatChars t).1, none)

/-- The values of a block (tests/utils/tsv_to_bin.cpp:14-20). -/
def tsvFloats : Nat → Option Bytes → F32 → List F32 × Option Bytes
  | 0, t, _ => ([], t)
  | k + 1, t, v =>
    let (x, t) := readFloat t v
    let (r, t) := tsvFloats k t x
    (x :: r, t)

/-- The bytes of a `float`. -/
def F32.bytes (x : F32) : Bytes := Grann.le 4 x.bits.toNat

/-- The loop over blocks (tests/utils/tsv_to_bin.cpp:58-68) from block `i` on; `junk i` is the initial value of `val`. -/
def tsvLoopF (blk npts ndims : Nat) (junk : Nat → F32) : Nat → Nat → Option Bytes → Bytes → Bytes
  | 0, _, _, out => out
  | todo + 1, i, t, out =>
    let n := min (npts - i * blk) blk
    let (x, t) := tsvFloats (n * ndims) t (junk i)
    tsvLoopF blk npts ndims junk todo (i + 1) t (out ++ x.flatMap F32.bytes)

/-- `tsv_to_bin` for `float` (tests/utils/tsv_to_bin.cpp:26-72). -/
def tsvToBinF (blk npts ndims : Nat) (file : Option Bytes) (junk : Nat → F32) : Bytes :=
  tsvLoopF blk npts ndims junk (convBlocks npts blk) 0 file (le 4 npts ++ le 4 ndims)

/-- `writer << x` for the four bytes of a `float` (tests/utils/bin_to_tsv.cpp:13). -/
def floatFmt (b : Bytes) : Bytes := F32.text ⟨BitVec.ofNat 32 (unle b)⟩

end Grann
