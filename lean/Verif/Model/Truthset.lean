import Verif.Model.CachedIo
import Verif.Model.BinFile
import Verif.Basic.F32
import Verif.Model.Recall
/-!
# Model of the ground-truth files (include/recall_utils.h, tests/utils/compute_groundtruth.cpp)

Memory is assumed to be available for every allocation that does not exceed what `operator new[]` and
`std::vector` accept.  Output to the console is left out, but the array accesses made for it are not.
-/

namespace Grann

/-- `save_groundtruth_as_one_file` (src/aux_compute_groundtruth.cpp:256-274,
tests/utils/compute_groundtruth.cpp:283-301): `data` and `distances` are the bytes of the two matrices. -/
def saveTruth {P : Type} (p : P) (data distances : Bytes) (npts ndims : Nat) : List (FOp P) :=
  [.create p, .append p (le 4 npts), .append p (le 4 ndims), .append p data, .append p distances]

/-- Reading an `int` from a cached stream into a variable that held `old`; the bits as a number. -/
def CReader.readWord (r : CReader) (old : Bytes) : Res (Nat × CReader) := do
  let (b, r) ← r.read old.length old
  .ok (unle b, r)

/-- The block size of the cached reader (include/recall_utils.h:47). -/
def truthBlk : Nat := 67108864

/-- Reading `cnt` 4-byte words into a new array: `new` throws if the array is too large
(include/recall_utils.h:89-90, 93-94). -/
def CReader.readArr (r : CReader) (cnt : Nat) (mem : Nat → UInt8) : Res (List Nat × CReader) :=
  if 9223372036854775807 < cnt * 4 then .error .throw
  else do
    let (b, r) ← r.read (u64 (cnt * 4)) ((List.range (cnt * 4)).map mem)
    .ok (un32s cnt b, r)

/-- The contents of uninitialised memory met by a load: the cache, the two header variables, the arrays. -/
structure TruthJunk where
  cache : Nat → UInt8
  npts : Bytes
  dim : Bytes
  ids : Nat → UInt8
  dists : Nat → UInt8

/-- A `float` given by the word read from a file. -/
def F32.ofWord (x : Nat) : F32 := ⟨BitVec.ofNat 32 x⟩

/-- What `load_truthset` gives; `dists` is `none` if the pointer is not changed. -/
structure Truth where
  npts : Nat
  dim : Nat
  ids : List Nat
  dists : Option (List F32)
  deriving DecidableEq

/-- `load_truthset` (include/recall_utils.h:45-96). -/
def loadTruth (file : Option Bytes) (j : TruthJunk) : Res Truth := do
  let r := CReader.open file truthBlk j.cache
  let size := r.fsize
  let (npts, r) ← r.readWord j.npts
  let (dim, r) ← r.readWord j.dim
  let withDists := decide (size = u64 (2 * npts * dim * 4 + 8))
  let justIds := decide (size = u64 (npts * dim * 4 + 8))
  if justIds then do
    let (ids, _) ← r.readArr (npts * dim) j.ids
    .ok ⟨npts, dim, ids, none⟩
  else if withDists then do
    let (ids, r) ← r.readArr (npts * dim) j.ids
    let (dists, _) ← r.readArr (npts * dim) j.dists
    .ok ⟨npts, dim, ids, some (dists.map F32.ofWord)⟩
  else .error .throw

/-- The inner loop of `prune_truthset_for_range` (include/recall_utils.h:150-153) for one query. -/
def pruneRow (range : F32) (ids : List Nat) (dists : List F32) (base : Nat) : Nat → Nat → Res (List Nat)
  | 0, _ => .ok []
  | todo + 1, j => do
    let d ← rd dists (base + j)
    let id ← rd ids (base + j)
    let rest ← pruneRow range ids dists base todo (j + 1)
    .ok (if d.le range then id :: rest else rest)

/-- `prune_truthset_for_range` (include/recall_utils.h:98-165). -/
def pruneTruth (file : Option Bytes) (range : F32) (j : TruthJunk) : Res (List (List Nat)) := do
  let r := CReader.open file truthBlk j.cache
  let size := r.fsize
  let (npts, r) ← r.readWord j.npts
  let (dim, r) ← r.readWord j.dim
  if size = u64 (2 * npts * dim * 4 + 8) then do
    let (ids, r) ← r.readArr (npts * dim) j.ids
    let (dists, _) ← r.readArr (npts * dim) j.dists
    (List.range npts).mapM (fun i => pruneRow range ids (dists.map F32.ofWord) (i * dim) dim 0)
  else .error .throw

/-- Conversion of an `int`, given by its bits, to a 64-bit unsigned number. -/
def sext32 (x : Nat) : Nat := if 2147483648 ≤ x then x + 18446744069414584320 else x

/-- `std::floor((p / 100.0) * gt_num)` (include/recall_utils.h:209), in `double`. -/
def percentileIdx (p n : Nat) : Nat :=
  let x := dmul (ddiv (p, 1) (100, 1)) (roundBin 53 (n, 1))
  x.1 / x.2

/-- The last loop of `load_range_truthset` (include/recall_utils.h:213-218). -/
def rangeLists (mem : Nat → Nat → UInt8) : List Nat → Nat → CReader → Res (List (List Nat))
  | [], _, _ => .ok []
  | c :: cs, i, r => do
    let (l, r) ← if c ≠ 0 then do
        let (b, r) ← r.read (4 * c) ((List.range (4 * c)).map (mem i))
        .ok (un32s c b, r)
      else .ok ([], r)
    let rest ← rangeLists mem cs (i + 1) r
    .ok (l :: rest)

/-- `load_range_truthset` (include/recall_utils.h:167-219).  `std::vector<std::vector<_u32>>::resize` throws
above 2^63/24 elements.  The percentiles that are printed are read from a sorted copy of the counts; only
the bounds of these accesses matter. -/
def loadRangeTruth (file : Option Bytes) (j : TruthJunk) (mem : Nat → Nat → UInt8) : Res (List (List Nat)) := do
  let r := CReader.open file truthBlk j.cache
  let size := r.fsize
  let (npts, r) ← r.readWord j.npts
  let (total, r) ← r.readWord j.dim
  let gt := sext32 npts
  if size ≠ u64 (8 + gt * 4 + sext32 total * 4) then .error .throw
  else if 384307168202282325 < gt then .error .throw
  else do
    let (counts, r) ← r.readArr gt j.ids
    let _ ← (List.range 20).mapM (fun i => rd counts (percentileIdx (5 * i) gt))
    let _ ← rd counts (sub64 gt 1)
    rangeLists mem counts 0 r

end Grann
