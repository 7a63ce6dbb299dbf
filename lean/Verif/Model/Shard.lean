import Verif.Model.CachedIo
import Verif.Model.BinFile
import Verif.Model.Centers
import Verif.Model.Truthset
/-!
# Model of sampling and sharding (src/partition_and_pq.cpp:17-160, 599-849)

`es` is `sizeof(T)`.  A vector is given by its bytes.  Memory is assumed to be available.  The output files of
different shards have different names, and none of them is the data file; each is modelled by its contents.
Random numbers enter through the outcomes of the comparisons with the sampling rate.
-/

namespace Grann

/-- `seekp(0)` and writing a number over the beginning of a file (src/partition_and_pq.cpp:62-65, 682-686,
774-775, 844-845). -/
def patchCount (file : Bytes) (n : Nat) : Bytes := le 4 n ++ file.drop 4

/-! ## Sampling -/

/-- The loop of `gen_random_slice` into files (src/partition_and_pq.cpp:52-61) from row `i` on: contents of
the data file, of the identifier file, and the number of samples.  `coin i` is the outcome of
`sample < sampling_rate` for row `i`, `row` the contents of `cur_row`. -/
def sliceLoop (coin : Nat → Bool) (rb : Nat) : Nat → Nat → CReader → Bytes → Bytes → Bytes → Nat →
    Res (Bytes × Bytes × Nat)
  | 0, _, _, _, data, ids, cnt => .ok (data, ids, cnt)
  | todo + 1, i, r, row, data, ids, cnt => do
    let (row, r) ← r.read rb row
    if coin i then sliceLoop coin rb todo (i + 1) r row (data ++ row) (ids ++ le 4 (u32 i)) (u32 (cnt + 1))
    else sliceLoop coin rb todo (i + 1) r row data ids cnt

/-- `gen_random_slice` into files (src/partition_and_pq.cpp:17-71): the data file and the identifier file.
The variables for the header words hold `j.npts` and `j.dim` before they are read. -/
def sliceFile (es : Nat) (coin : Nat → Bool) (file : Option Bytes) (j : TruthJunk) : Res (Bytes × Bytes) := do
  let r := CReader.open file truthBlk j.cache
  let (npts, r) ← r.readWord j.npts
  let (nd, r) ← r.readWord j.dim
  let (data, ids, cnt) ← sliceLoop coin (nd * es) npts 0 r (List.replicate (nd * es) 0) (le 4 0 ++ le 4 nd)
    (le 4 0 ++ le 4 1) 0
  .ok (patchCount data cnt, patchCount ids cnt)

/-- The loop of `gen_random_slice` from a file into memory (src/partition_and_pq.cpp:107-116); `conv` converts
the bytes of a vector to `float`s. -/
def sliceMemLoop (coin : Nat → Bool) (conv : Bytes → List F32) (rb : Nat) : Nat → Nat → CReader → Bytes →
    List (List F32) → Res (List (List F32))
  | 0, _, _, _, acc => .ok acc
  | todo + 1, i, r, row, acc => do
    let (row, r) ← r.read rb row
    if coin i then sliceMemLoop coin conv rb todo (i + 1) r row (acc ++ [conv row])
    else sliceMemLoop coin conv rb todo (i + 1) r row acc

/-- `gen_random_slice` from a file into memory (src/partition_and_pq.cpp:81-124): the samples, their number,
and the dimension. -/
def sliceMem (es : Nat) (coin : Nat → Bool) (conv : Bytes → List F32) (file : Option Bytes) (j : TruthJunk) :
    Res (List F32 × Nat × Nat) := do
  let r := CReader.open file truthBlk j.cache
  let (npts, r) ← r.readWord j.npts
  let (nd, r) ← r.readWord j.dim
  let acc ← sliceMemLoop coin conv (nd * es) npts 0 r (List.replicate (nd * es) 0) []
  .ok (acc.flatten, acc.length, nd)

/-- The loop of `gen_random_slice` from memory (src/partition_and_pq.cpp:143-152). -/
def sliceMatLoop (coin : Nat → Bool) (conv : Bytes → List F32) (data : Bytes) (rb : Nat) : Nat → Nat →
    List (List F32) → Res (List (List F32))
  | 0, _, acc => .ok acc
  | todo + 1, i, acc =>
    if coin i then do
      let row ← slice data (rb * i) rb
      sliceMatLoop coin conv data rb todo (i + 1) (acc ++ [conv row])
    else sliceMatLoop coin conv data rb todo (i + 1) acc

/-- `gen_random_slice` from memory (src/partition_and_pq.cpp:128-160). -/
def sliceMat (es : Nat) (coin : Nat → Bool) (conv : Bytes → List F32) (data : Bytes) (npts nd : Nat) :
    Res (List F32 × Nat) := do
  let acc ← sliceMatLoop coin conv data (nd * es) npts 0 []
  .ok (acc.flatten, acc.length)

/-! ## Sharding -/

/-- The two files of a shard while they are written, and the number of its points. -/
structure Shard where
  data : Bytes
  ids : Bytes
  cnt : Nat
  deriving DecidableEq

/-- The headers (src/partition_and_pq.cpp:624-638, 724-732); `wd` is false for
`shard_data_into_clusters_only_ids`, which has no data files. -/
def Shard.open (wd : Bool) (dim : Nat) : Shard :=
  ⟨if wd then le 4 0 ++ le 4 dim else [], le 4 0 ++ le 4 1, 0⟩

/-- Adding a point (src/partition_and_pq.cpp:666-671, 760-763). -/
def Shard.push (wd : Bool) (s : Shard) (row : Bytes) (id : Nat) : Shard :=
  ⟨if wd then s.data ++ row else s.data, s.ids ++ le 4 (u32 id), u64 (s.cnt + 1)⟩

/-- The final counts (src/partition_and_pq.cpp:678-688, 770-777): contents of the data file and of the identifier
file. -/
def Shard.close (wd : Bool) (s : Shard) : Bytes × Bytes :=
  (if wd then patchCount s.data (u32 s.cnt) else [], patchCount s.ids (u32 s.cnt))

/-- The loop over the closest centres of a point (src/partition_and_pq.cpp:664-672, 758-764); `cl` is
`block_closest_centers`, `base` is `p * k_base`. -/
def shardPoint (wd : Bool) (cl : List Nat) (row : Bytes) (id base : Nat) : Nat → Nat → List Shard →
    Res (List Shard)
  | 0, _, sh => .ok sh
  | todo + 1, p1, sh => do
    let c ← rd cl (base + p1)
    let s ← rd sh c
    let sh ← wr sh c (s.push wd row id)
    shardPoint wd cl row id base todo (p1 + 1) sh

/-- The vector that is written (src/partition_and_pq.cpp:667-668). -/
def shardRow (wd : Bool) (buf : Bytes) (off len : Nat) : Res Bytes :=
  if wd then slice buf off len else .ok []

/-- The loop over the points of a block (src/partition_and_pq.cpp:663-673, 757-765). -/
def shardBlock (wd : Bool) (rb kb start : Nat) (cl : List Nat) (buf : Bytes) : Nat → Nat → List Shard →
    Res (List Shard)
  | 0, _, sh => .ok sh
  | todo + 1, p, sh => do
    let row ← shardRow wd buf (p * rb) rb
    let sh ← shardPoint wd cl row (start + p) (p * kb) kb 0 sh
    shardBlock wd rb kb start cl buf todo (p + 1) sh

/-- The constants and the centres: the block size (src/partition_and_pq.cpp:13), `MAX_BLOCK_SIZE`
(include/essentials.h:57), the number of centres, `k_base`, the distances of a vector from the centres as
`compute_closest_centers` computes them, and the order in which its queue yields the centres. -/
structure ShardPar where
  blk : Nat
  ccBlk : Nat
  nc : Nat
  kb : Nat
  dist : Bytes → List F32
  pops : List F32 → List Nat

/-- The loop over blocks (src/partition_and_pq.cpp:649-674, 743-766) from block `b` on; `buf` is
`block_data_T`, `cl` is `block_closest_centers`. -/
def shardBlocks (wd : Bool) (P : ShardPar) (rb npts bs : Nat) : Nat → Nat → CReader → Bytes → List Nat →
    List Shard → Res (List Shard)
  | 0, _, _, _, _, sh => .ok sh
  | todo + 1, b, r, buf, cl, sh => do
    let start := b * bs
    let cur := min ((b + 1) * bs) npts - start
    let (x, r) ← r.read (cur * rb) (buf.take (cur * rb))
    let buf := x ++ buf.drop x.length
    let rows ← (List.range cur).mapM (fun p => slice buf (p * rb) rb)
    let (cl, _) ← closestCenters P.ccBlk P.nc P.kb P.pops (fun _ l => l) (rows.map P.dist) cl none
    let sh ← shardBlock wd rb P.kb start cl buf cur 0 sh
    shardBlocks wd P rb npts bs todo (b + 1) r buf cl sh

/-- `shard_data_into_clusters` (src/partition_and_pq.cpp:599-694) and, with `wd` false,
`shard_data_into_clusters_only_ids` (src/partition_and_pq.cpp:698-783): the files of the shards; `none` is the
return value -1. -/
def shardData (wd : Bool) (P : ShardPar) (es dim : Nat) (file : Option Bytes) (j : TruthJunk) :
    Res (Option (List (Bytes × Bytes))) := do
  let r := CReader.open file truthBlk j.cache
  let (npts, r) ← r.readWord j.npts
  let (bdim, r) ← r.readWord j.dim
  if bdim ≠ dim then .ok none
  else
    let bs := if npts ≤ P.blk then npts else P.blk
    if bs = 0 then .error .ub
    else do
      let nb := npts / bs + if npts % bs ≠ 0 then 1 else 0
      let sh ← shardBlocks wd P (dim * es) npts bs nb 0 r (List.replicate (bs * (dim * es)) 0)
        (List.replicate (bs * P.kb) 0) (List.replicate P.nc (Shard.open wd bdim))
      .ok (some (sh.map (Shard.close wd)))

/-! ## Collecting the vectors of a shard -/

/-- The loop over the points of a block (src/partition_and_pq.cpp:827-837): `cur_pos`, `num_written` and the
contents of the data file. -/
def retrBlock (ids : List Nat) (size rb start : Nat) (buf : Bytes) : Nat → Nat → Nat → Nat → Bytes →
    Res (Nat × Nat × Bytes)
  | 0, _, pos, nw, data => .ok (pos, nw, data)
  | todo + 1, p, pos, nw, data =>
    if pos = size then .ok (pos, nw, data)
    else do
      let x ← rd ids pos
      if u32 (start + p) = x then do
        let row ← slice buf (p * rb) rb
        retrBlock ids size rb start buf todo (p + 1) (u32 (pos + 1)) (u32 (nw + 1)) (data ++ row)
      else retrBlock ids size rb start buf todo (p + 1) pos nw data

/-- The loop over blocks (src/partition_and_pq.cpp:819-840). -/
def retrBlocks (ids : List Nat) (size rb npts bs : Nat) : Nat → Nat → CReader → Bytes → Nat → Nat → Bytes →
    Res (Nat × Bytes)
  | 0, _, _, _, _, nw, data => .ok (nw, data)
  | todo + 1, b, r, buf, pos, nw, data => do
    let start := b * bs
    let cur := min ((b + 1) * bs) npts - start
    let (x, r) ← r.read (cur * rb) (buf.take (cur * rb))
    let buf := x ++ buf.drop x.length
    let (pos, nw, data) ← retrBlock ids size rb start buf cur 0 pos nw data
    if pos = size then .ok (nw, data) else retrBlocks ids size rb npts bs todo (b + 1) r buf pos nw data

/-- `retrieve_shard_data_from_ids` (src/partition_and_pq.cpp:785-849): the contents of the data file; `blk` is
the block size, `k1`, `k2`, `mem` the uninitialised memory met by `load_bin`. -/
def retrieve (blk es : Nat) (file idfile : Option Bytes) (j : TruthJunk) (k1 k2 : Bytes) (mem : Nat → UInt8) :
    Res Bytes := do
  let r := CReader.open file truthBlk j.cache
  let (npts, r) ← r.readWord j.npts
  let (dim, r) ← r.readWord j.dim
  let (size, tmp, ids) ← loadBin 4 idfile k1 k2 mem
  let bs := if npts ≤ blk then npts else blk
  if bs = 0 then .error .ub
  else do
    let nb := npts / bs + if npts % bs ≠ 0 then 1 else 0
    let (nw, data) ← retrBlocks (un32s (size * tmp) ids) size (dim * es) npts bs nb 0 r
      (List.replicate (bs * (dim * es)) 0) 0 0 (le 4 0 ++ le 4 dim)
    .ok (patchCount data nw)

end Grann
