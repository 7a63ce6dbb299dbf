import Verif.Basic.Bytes
import Verif.Model.BinFile
/-!
# Model of the reduction of inner products to distances (include/utils.h:284-357)

`prepare_base_for_inner_products`.  `es` is `sizeof(T)`; `conv` converts the bytes of a vector to `float`s.  (For
integer types the products are exact integers in the code; they are converted to `float` before they are added.)  The
numbers are elements of a type `K` with the operations `O`.  The output is given by its header and the list of vectors
written.  Memory is assumed to be available, and writing succeeds.
-/

namespace Grann

/-- The operations on `float`. -/
structure MOps (K : Type) where
  zero : K
  one : K
  add : K → K → K
  mul : K → K → K
  sub : K → K → K
  div : K → K → K
  sqrt : K → K
  lt : K → K → Bool
  le : K → K → Bool

/-- The inner loop of the first pass (include/utils.h:325-328). -/
def mipsNorm {K : Type} (O : MOps K) (x : List K) : K := x.foldl (fun s a => O.add s (O.mul a a)) O.zero

/-- Keeping the larger norm (include/utils.h:329-330). -/
def mipsMax {K : Type} (O : MOps K) (m n : K) : K := if O.lt n m then m else n

/-- The loop over the points of a block in the first pass (include/utils.h:324-331): `norms`, which is filled in order,
and `max_norm`. -/
def mipsNorms {K : Type} (O : MOps K) : List (List K) → List K → K → List K × K
  | [], norms, m => (norms, m)
  | x :: xs, norms, m => mipsNorms O xs (norms ++ [mipsNorm O x]) (mipsMax O m (mipsNorm O x))

/-- Reading a block of `cur` vectors into the buffer (include/utils.h:322-323, 341-342). -/
def mipsRead {K : Type} (conv : Bytes → List K) (rb cur : Nat) (s : IStream) (buf : Bytes) :
    Res (List (List K) × IStream × Bytes) := do
  let (b, s) := s.read (cur * rb)
  let buf ← blit buf 0 b
  let raw ← (List.range cur).mapM (fun p => slice buf (p * rb) rb)
  .ok (raw.map conv, s, buf)

/-- The first loop over the blocks (include/utils.h:318-332) from block `b` on. -/
def mipsPass1 {K : Type} (O : MOps K) (conv : Bytes → List K) (rb npts bs : Nat) : Nat → Nat → IStream → Bytes →
    List K → K → Res (List K × K × IStream × Bytes)
  | 0, _, s, buf, norms, m => .ok (norms, m, s, buf)
  | todo + 1, b, s, buf, norms, m => do
    let cur := (if (b + 1) * bs < npts then (b + 1) * bs else npts) - b * bs
    let (xs, s, buf) ← mipsRead conv rb cur s buf
    let (norms, m) := mipsNorms O xs norms m
    mipsPass1 O conv rb npts bs todo (b + 1) s buf norms m

/-- The vector that is written (include/utils.h:344-350). -/
def mipsRow {K : Type} (O : MOps K) (m n : K) (x : List K) : List K :=
  let res := O.sub O.one (O.div n (O.mul m m))
  x.map (fun a => O.div a m) ++ [if O.le res O.zero then O.zero else O.sqrt res]

/-- The loop over the points of a block in the second pass (include/utils.h:343-351), for points from `id` on. -/
def mipsRows {K : Type} (O : MOps K) (norms : List K) (m : K) : Nat → List (List K) → Res (List (List K))
  | _, [] => .ok []
  | id, x :: xs => do
    let n ← rd norms id
    let ys ← mipsRows O norms m (id + 1) xs
    .ok (mipsRow O m n x :: ys)

/-- The second loop over the blocks (include/utils.h:337-354) from block `b` on. -/
def mipsPass2 {K : Type} (O : MOps K) (conv : Bytes → List K) (rb npts bs : Nat) (norms : List K) (m : K) :
    Nat → Nat → IStream → Bytes → List (List K) → Res (List (List K))
  | 0, _, _, _, out => .ok out
  | todo + 1, b, s, buf, out => do
    let cur := (if (b + 1) * bs < npts then (b + 1) * bs else npts) - b * bs
    let (xs, s, buf) ← mipsRead conv rb cur s buf
    let ys ← mipsRows O norms m (b * bs) xs
    mipsPass2 O conv rb npts bs norms m todo (b + 1) s buf (out ++ ys)

/-- `seekg(8)` (include/utils.h:336): clears the end-of-file flag, has no effect after a failure. -/
def IStream.seek8 (s : IStream) (file : Option Bytes) : IStream :=
  if s.fail then s else ⟨(file.getD []).drop 8, false, false⟩

/-- The written file: number of points and dimension in the header, the vectors, and the number returned. -/
structure MipsOut (K : Type) where
  npts : Nat
  dim : Nat
  rows : List (List K)
  maxNorm : K

/-- `prepare_base_for_inner_products` (include/utils.h:284-357); `blk` is its `BLOCK_SIZE`, 100000. -/
def mipsPrepare {K : Type} (O : MOps K) (conv : Bytes → List K) (es blk : Nat) (file : Option Bytes) (j1 j2 : Bytes) :
    Res (MipsOut K) := do
  let (npts, dim, s) := readHeader file j1 j2
  let bs := if npts ≤ blk then npts else blk
  if bs = 0 then .error .ub
  else do
    let nb := npts / bs + if npts % bs ≠ 0 then 1 else 0
    let (norms, m, s, buf) ← mipsPass1 O conv (dim * es) npts bs nb 0 s (List.replicate (bs * (dim * es)) 0) [] O.zero
    let m := O.sqrt m
    let rows ← mipsPass2 O conv (dim * es) npts bs norms m nb 0 (s.seek8 file) buf []
    .ok ⟨npts, u32 (dim + 1), rows, m⟩

end Grann
