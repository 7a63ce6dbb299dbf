import Verif.Model.CachedIo
import Verif.Model.BinFile
import Verif.Model.Centers
import Verif.Model.Truthset
/-!
# Model of the compression of vectors (src/partition_and_pq.cpp:335-548)

`es` is `sizeof(T)`.  A vector is given by its bytes.  Memory is assumed to be available.  The arrays of vectors
are lists of rows; an index that leaves its row is undefined in the model.  Writing to the output succeeds.
`SAVE_INFLATED_PQ` and `GRANN_BUILD` are not defined.
-/

namespace Grann

/-- The constants and the arithmetic: `BLOCK_SIZE` (src/partition_and_pq.cpp:13), `MAX_BLOCK_SIZE`
(include/essentials.h:57), `num_centers`, `num_pq_chunks`, `sizeof(T)`, the conversion of a vector to `float`
(`convert_types`), the subtraction of `float`s, the distances of a partial vector from the partial centres as
`compute_closest_centers` computes them, and the order in which its queue yields the centres. -/
structure PqPar where
  blk : Nat
  ccBlk : Nat
  nc : Nat
  chunks : Nat
  es : Nat
  conv : Bytes → List F32
  sub : F32 → F32 → F32
  dist : List (List F32) → List F32 → List F32
  pops : List F32 → List Nat

/-- The files next to the data: `pq_pivots_path` and the names derived from it; `none` for a missing file. -/
structure PqFiles where
  pivots : Option Bytes
  centroid : Option Bytes
  rearr : Option Bytes
  offs : Option Bytes
deriving DecidableEq

/-- What the files contain. -/
structure PqTab where
  piv : List F32
  cent : List F32
  rearr : List Nat
  offs : List Nat

/-- The header variables and the array before a call of `load_bin` fills them. -/
structure LoadJunk where
  npts : Bytes
  dim : Bytes
  mem : Nat → UInt8

/-- Loading and checking the files (src/partition_and_pq.cpp:361-417). -/
def pqLoad (P : PqPar) (dim : Nat) (F : PqFiles) (j1 j2 j3 j4 : LoadJunk) : Res PqTab :=
  if F.pivots = none then .error .throw
  else do
    let (nr, ncol, cent) ← loadBin 4 F.centroid j1.npts j1.dim j1.mem
    if nr ≠ dim ∨ ncol ≠ 1 then .error .throw
    else do
      let (nr, ncol, rearr) ← loadBin 4 F.rearr j2.npts j2.dim j2.mem
      if nr ≠ dim ∨ ncol ≠ 1 then .error .throw
      else do
        let (nr, ncol, offs) ← loadBin 4 F.offs j3.npts j3.dim j3.mem
        if nr ≠ P.chunks + 1 ∨ ncol ≠ 1 then .error .throw
        else do
          let (nr, ncol, piv) ← loadBin 4 F.pivots j4.npts j4.dim j4.mem
          if nr ≠ P.nc then .error .throw
          else if ncol ≠ dim then .error .throw
          else .ok ⟨(un32s (P.nc * dim) piv).map F32.ofWord, (un32s dim cent).map F32.ofWord, un32s dim rearr,
            un32s (P.chunks + 1) offs⟩

/-- One row of `block_data_float` (src/partition_and_pq.cpp:464-475). -/
def pqVec (P : PqPar) (dim : Nat) (t : PqTab) (x : List F32) : Res (List F32) := do
  let tmp ← (List.range dim).mapM (fun d => do
    let a ← rd x d
    let c ← rd t.cent d
    .ok (P.sub a c))
  (List.range dim).mapM (fun d => do
    let r ← rd t.rearr d
    rd tmp r)

/-- Storing the codes of a chunk (src/partition_and_pq.cpp:508-509) from point `j` on. -/
def pqStore (chunks i : Nat) (cl : List Nat) : Nat → Nat → List Nat → Res (List Nat)
  | 0, _, comp => .ok comp
  | todo + 1, j, comp => do
    let c ← rd cl j
    let comp ← wr comp (j * chunks + i) c
    pqStore chunks i cl todo (j + 1) comp

/-- One chunk (src/partition_and_pq.cpp:478-516); `comp` is `block_compressed_base`. -/
def pqChunk (P : PqPar) (dim : Nat) (t : PqTab) (rows : List (List F32)) (i : Nat) (comp : List Nat) :
    Res (List Nat) := do
  let b ← rd t.offs (i + 1)
  let a ← rd t.offs i
  let sz := u32 (b + 4294967296 - a)
  if sz = 0 then .ok comp
  else do
    let data ← rows.mapM (fun x => rdList x a sz)
    let piv ← (List.range P.nc).mapM (fun j => rdList t.piv (j * dim + a) sz)
    let (cl, _) ← closestCenters P.ccBlk P.nc 1 P.pops (fun _ l => l) (data.map (P.dist piv))
      (List.replicate rows.length 0) none
    pqStore P.chunks i cl rows.length 0 comp

/-- The loop over the chunks (src/partition_and_pq.cpp:477-517) from chunk `i` on. -/
def pqChunkLoop (P : PqPar) (dim : Nat) (t : PqTab) (rows : List (List F32)) : Nat → Nat → List Nat →
    Res (List Nat)
  | 0, _, comp => .ok comp
  | todo + 1, i, comp => do
    let comp ← pqChunk P dim t rows i comp
    pqChunkLoop P dim t rows todo (i + 1) comp

/-- What is written for one code (src/partition_and_pq.cpp:519-531). -/
def pqCode (nc c : Nat) : Bytes := if nc > 256 then le 4 c else [UInt8.ofNat c]

/-- The loop over blocks (src/partition_and_pq.cpp:451-537) from block `b` on; `buf` is `block_data_T`, `out` the
contents of the output file. -/
def pqBlocks (P : PqPar) (dim npts bs : Nat) (t : PqTab) : Nat → Nat → CReader → Bytes → List Nat → Bytes →
    Res Bytes
  | 0, _, _, _, _, out => .ok out
  | todo + 1, b, r, buf, comp, out => do
    let start := b * bs
    let cur := min ((b + 1) * bs) npts - start
    let (x, r) ← r.read (cur * (dim * P.es)) (buf.take (cur * (dim * P.es)))
    let buf := x ++ buf.drop x.length
    let raw ← (List.range cur).mapM (fun p => slice buf (p * (dim * P.es)) (dim * P.es))
    let rows ← raw.mapM (fun x => pqVec P dim t (P.conv x))
    let comp ← pqChunkLoop P dim t rows P.chunks 0 comp
    let codes ← rdList comp 0 (cur * P.chunks)
    pqBlocks P dim npts bs t todo (b + 1) r buf comp (out ++ codes.flatMap (pqCode P.nc))

/-- `generate_pq_data_from_pivots` (src/partition_and_pq.cpp:340-548): the contents of the output file. -/
def pqData (P : PqPar) (file : Option Bytes) (F : PqFiles) (j : TruthJunk) (j1 j2 j3 j4 : LoadJunk) : Res Bytes := do
  let r := CReader.open file truthBlk j.cache
  let (npts, r) ← r.readWord j.npts
  let (dim, r) ← r.readWord j.dim
  let t ← pqLoad P dim F j1 j2 j3 j4
  let bs := if npts ≤ P.blk then npts else P.blk
  if bs = 0 then .error .ub
  else do
    let nb := npts / bs + if npts % bs ≠ 0 then 1 else 0
    pqBlocks P dim npts bs t nb 0 r (List.replicate (bs * (dim * P.es)) 0) (List.replicate (bs * P.chunks) 0)
      (le 4 npts ++ le 4 P.chunks)

end Grann
