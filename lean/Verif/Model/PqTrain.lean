import Verif.Model.PqData
import Verif.Model.Pq
/-!
# Model of the training of the centres for product quantisation (src/partition_and_pq.cpp:162-333)

The training data are `num_train * dim` floats.  Memory is assumed to be available for them; `num_centers`, `dim` and
`num_pq_chunks` are unsigned numbers of 32 bits, so the size of `full_pivot_data` is computed modulo 2^32.  k-means
is a parameter: what `kmeans_plus_plus_centers` and `run_lloyds` leave in `cur_pivot_data`, or their failure.  The
centred training data are a list of rows.  Files are written completely.
-/

namespace Grann

/-- The arguments and the arithmetic: `dim`, `num_centers`, `num_pq_chunks`, `make_zero_mean`, addition and
subtraction of `float`s, the division of a `float` by `num_train`, and for every chunk the result of k-means on the
rows of `cur_data` (src/partition_and_pq.cpp:307-313). -/
structure TrainPar where
  dim : Nat
  nc : Nat
  chunks : Nat
  zeroMean : Bool
  add : F32 → F32 → F32
  sub : F32 → F32 → F32
  divn : F32 → Nat → F32
  kmeans : Nat → List (List F32) → Res (List F32)

/-- The centroid (src/partition_and_pq.cpp:201-215) of `n` training vectors. -/
def trainCentroid (T : TrainPar) (n : Nat) (train : List F32) : Res (List F32) :=
  if T.zeroMean then
    (List.range T.dim).mapM (fun d => do
      let s ← (List.range n).foldlM (fun c p => do
        let x ← rd train (p * T.dim + d)
        .ok (T.add c x)) F32.zero
      .ok (T.divn s n))
  else .ok (List.replicate T.dim F32.zero)

/-- The training data after the subtraction of the centroid (src/partition_and_pq.cpp:217-221), row by row. -/
def trainRows (T : TrainPar) (n : Nat) (train cent : List F32) : Res (List (List F32)) :=
  (List.range n).mapM (fun p =>
    (List.range T.dim).mapM (fun d => do
      let x ← rd train (p * T.dim + d)
      if T.zeroMean then do
        let c ← rd cent d
        .ok (T.sub x c)
      else .ok x))

/-- Copying the centres of a chunk (src/partition_and_pq.cpp:315-319) from centre `j` on; `a` is
`chunk_offsets[i]`, `sz` is `cur_chunk_size`. -/
def trainCopy (dim a sz : Nat) (cur : List F32) : Nat → Nat → List F32 → Res (List F32)
  | 0, _, full => .ok full
  | todo + 1, j, full => do
    let x ← rdList cur (j * sz) sz
    let full ← wrList full (j * dim + a) x
    trainCopy dim a sz cur todo (j + 1) full

/-- One chunk (src/partition_and_pq.cpp:284-320); `full` is `full_pivot_data`. -/
def trainChunk (T : TrainPar) (rows : List (List F32)) (offs : List Nat) (i : Nat) (full : List F32) :
    Res (List F32) := do
  let b ← rd offs (i + 1)
  let a ← rd offs i
  let sz := u32 (b + 4294967296 - a)
  if sz = 0 then .ok full
  else do
    let data ← rows.mapM (fun x => rdList x a sz)
    let cur ← T.kmeans i data
    trainCopy T.dim a sz cur T.nc 0 full

/-- The loop over the chunks (src/partition_and_pq.cpp:284-320) from chunk `i` on. -/
def trainLoop (T : TrainPar) (rows : List (List F32)) (offs : List Nat) : Nat → Nat → List F32 → Res (List F32)
  | 0, _, full => .ok full
  | todo + 1, i, full => do
    let full ← trainChunk T rows offs i full
    trainLoop T rows offs todo (i + 1) full

/-- Whether the file at `pq_pivots_path` has the right shape (src/partition_and_pq.cpp:190-198). -/
def keepPivots (T : TrainPar) (old : Option Bytes) (j : LoadJunk) : Res Bool :=
  match old with
  | none => .ok false
  | some f => do
    let (fnc, fdim, _) ← loadBin 4 (some f) j.npts j.dim j.mem
    .ok (decide (fdim = T.dim) && decide (fnc = T.nc))

/-- `generate_pq_pivots` (src/partition_and_pq.cpp:167-333): the files it writes, or `none` for the return value -1.
`old` is the file found at `pq_pivots_path`, `mem` the initial contents of `full_pivot_data`. -/
def trainPivots (T : TrainPar) (n : Nat) (train : List F32) (old : Option Bytes) (j : LoadJunk) (mem : Nat → F32) :
    Res (Option PqFiles) :=
  if T.chunks > T.dim then .ok none
  else do
    let keep ← keepPivots T old j
    if keep = true then .ok none
    else do
      let cent ← trainCentroid T n train
      let rows ← trainRows T n train cent
      match ← pqChunks T.dim T.chunks with
      | none => .ok none
      | some (rearr, offs) => do
        let full ← trainLoop T rows offs T.chunks 0 ((List.range (u32 (T.nc * T.dim))).map mem)
        let piv ← rdList full 0 (T.nc * T.dim)
        .ok (some ⟨
          some (le 4 T.nc ++ (le 4 T.dim ++ le32s (piv.map (fun x => x.bits.toNat)))),
          some (le 4 T.dim ++ (le 4 1 ++ le32s (cent.map (fun x => x.bits.toNat)))),
          some (le 4 rearr.length ++ (le 4 1 ++ le32s rearr)),
          some (le 4 offs.length ++ (le 4 1 ++ le32s offs))⟩)

/-- `generate_pq` (tests/utils/generate_pq.cpp:9-34) after sampling the training data: the value returned by the
training is ignored and the data are compressed with the files that are there. -/
def pqRun (T : TrainPar) (n : Nat) (train : List F32) (F : PqFiles) (jt : LoadJunk) (mem : Nat → F32) (P : PqPar)
    (file : Option Bytes) (j : TruthJunk) (j1 j2 j3 j4 : LoadJunk) : Res Bytes := do
  let new ← trainPivots T n train F.pivots jt mem
  pqData P file (new.getD F) j j1 j2 j3 j4

end Grann
