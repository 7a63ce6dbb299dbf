import Verif.Model.UtilLine
import Verif.Model.PqTrain
import Verif.Model.RamBudget
import Verif.Model.KmeansRun
import Verif.Model.FloatText
/-!
# Model of the `main` functions of the sampling, quantisation and partition tools (tests/utils)

`argv` and the conversions are as in Model/CommandLine.lean.  A result is the list of the file operations, which leave every
output file with its final contents; the order in which the programs write parts of them is not described, nor what they
have written if they fail.  Different names are different files.  Writing succeeds.  What is printed is not described.
-/

namespace Grann

/-! ## Numbers of type `double` -/

/-- A `double`: not a number, infinite, or a sign and a fraction with at most 53 bits. -/
inductive Dbl
  | nan
  | inf (neg : Bool)
  | fin (neg : Bool) (x : Nat × Nat)
  deriving DecidableEq

/-- The fraction for a decimal number at the beginning of a text; 0 if there are no digits (as `atofDec`). -/
def atodDec (u : Bytes) : Option (Nat × Nat) :=
  let a := u.takeWhile isDigit
  let r := u.dropWhile isDigit
  let b := if r.head? = some 46 then (r.drop 1).takeWhile isDigit else []
  let r := if r.head? = some 46 then (r.drop 1).dropWhile isDigit else r
  if a.isEmpty && b.isEmpty then none
  else some (scale 10 (digitsVal (a ++ b)) 1 (atofExp 101 r - b.length))

/-- The fraction for a hexadecimal number behind `0x` (as `atofHex`). -/
def atodHex (u : Bytes) : Nat × Nat :=
  let a := u.takeWhile isHex
  let r := u.dropWhile isHex
  let b := if r.head? = some 46 then (r.drop 1).takeWhile isHex else []
  let r := if r.head? = some 46 then (r.drop 1).dropWhile isHex else r
  if a.isEmpty && b.isEmpty then (0, 1)
  else scale 2 ((a ++ b).foldl (fun x c => 16 * x + hexVal c) 0) 1 (atofExp 112 r - 4 * b.length)

/-- `atof(s)`.  Numbers too large for a `double` or too close to 0 are kept as they are. -/
def atod (s : Bytes) : Dbl :=
  let t := s.dropWhile isSpace
  let neg : Bool := t.head? = some 45
  let u := t.drop (signOf t).length
  let w := u.map lower
  if w.take 3 = ascii "inf" then .inf neg
  else if w.take 3 = ascii "nan" then .nan
  else if w.take 2 = ascii "0x" then .fin neg (roundBin 53 (atodHex (u.drop 2)))
  else match atodDec u with
    | none => .fin false (0, 1)
    | some x => .fin neg (roundBin 53 x)

/-- Conversion to `float`. -/
def Dbl.toFloat (neg : Bool) : Dbl → F32
  | .nan => ⟨if neg then 0xffc00000#32 else 0x7fc00000#32⟩
  | .inf n => ⟨if n then 0xff800000#32 else 0x7f800000#32⟩
  | .fin n d => ⟨BitVec.ofNat 32 (min (nearestBits d.1 d.2) 2139095040 + if n then 2147483648 else 0)⟩

/-- `m > 1024 * 1024 * 1024 * ram_budget` (src/partition_and_pq.cpp:972); `m` is not negative, and the product is exact. -/
def overBudget (b : Dbl) (m : Nat × Nat) : Bool :=
  match b with
  | .nan => false
  | .inf neg => neg
  | .fin neg x => if neg = true ∧ x.1 ≠ 0 then true else dlt (1073741824 * x.1, x.2) m

/-- The sampling rate as the number by which sizes are divided (src/partition_and_pq.cpp:960).  For infinity this is 2^128: the
quotient of a number of 32 bits is below 1 for both.  0 stands for a number the quotient by which does not fit the type (NaN);
with a negative one nothing is sampled. -/
def rateFrac (r : F32) : Nat × Nat := if 2139095040 < r.bits.toNat then (0, 1) else r.frac

/-! ## The programs -/

/-- What the tools do not determine: the random numbers for the samples (the second is for testing), the conversion of a
vector to `float`s, the arithmetic, the random numbers and orders of k-means for every chunk or number of parts, the order
in which the queue yields centres, uninitialised memory, the number of rounds looked at (`fuel`), and what happens if a file
is read and written at the same time. -/
structure TrainEnv (D : Type) where
  rnd : Nat → F32
  rnd2 : Nat → F32
  conv : Elem → Bytes → List F32
  km : KmOps D
  run : Nat → KmRun D
  mem : Nat → Nat → List F32
  memF : Nat → F32
  sub : F32 → F32 → F32
  divn : F32 → Nat → F32
  pops : List F32 → List Nat
  j : TruthJunk
  j' : TruthJunk
  j'' : TruthJunk
  jt : LoadJunk
  j1 : LoadJunk
  j2 : LoadJunk
  j3 : LoadJunk
  j4 : LoadJunk
  fuel : Nat
  both : Res (List (FOp Bytes))

section
variable {D : Type}

/-- Files with their contents, one after the other. -/
def outOps (l : List (Bytes × Bytes)) : List (FOp Bytes) := l.flatMap (fun x => [.create x.1, .append x.1 x.2])

/-- A tool that reads file `i` and writes the files of `l`; if `i` is one of them, what happens is described only for runs that
would succeed otherwise. -/
def filesTool (env : TrainEnv D) (i : Bytes) (l : List (Bytes × Bytes)) : Res (List (FOp Bytes)) :=
  if i ∈ l.map Prod.fst then env.both else .ok (outOps l)

/-- `main` (tests/utils/gen_random_slice.cpp:23-50), `gen_random_slice` (src/partition_and_pq.cpp:17-71): here the rate is not
limited. -/
def sliceMain (env : TrainEnv D) (argv : List Bytes) (fs : FS Bytes) : Res (Cmd (List (FOp Bytes))) :=
  if argv.length ≠ 5 then .ok .usage else do
  let t ← rd argv 1
  cmdOf (elemArg t) fun e => do
  let base ← rd argv 2
  let pre ← rd argv 3
  let rate ← floatAt argv 4
  if base = pre ++ ascii "_data.bin" ∨ base = pre ++ ascii "_ids.bin" then done env.both else
  done (do
    let (data, ids) ← sliceFile e.size (fun i => (env.rnd i).lt rate) (fs base) env.j
    .ok (outOps [(pre ++ ascii "_data.bin", data), (pre ++ ascii "_ids.bin", ids)]))

/-- The names of the files for quantisation (tests/utils/generate_pq.cpp:14-16, src/partition_and_pq.cpp:324-330). -/
def pqName (pre : Bytes) : Fin 5 → Bytes
  | 0 => pre ++ ascii "_pq_pivots.bin"
  | 1 => pre ++ ascii "_pq_pivots.bin_centroid.bin"
  | 2 => pre ++ ascii "_pq_pivots.bin_rearrangement_perm.bin"
  | 3 => pre ++ ascii "_pq_pivots.bin_chunk_offsets.bin"
  | 4 => pre ++ ascii "_compressed.bin"

/-- The files found. -/
def pqFound (pre : Bytes) (fs : FS Bytes) : PqFiles :=
  ⟨fs (pqName pre 0), fs (pqName pre 1), fs (pqName pre 2), fs (pqName pre 3)⟩

/-- The files written by training. -/
def pqNew (pre : Bytes) : Option PqFiles → List (Bytes × Bytes)
  | none => []
  | some f => [(pqName pre 0, f.pivots.getD []), (pqName pre 1, f.centroid.getD []), (pqName pre 2, f.rearr.getD []),
      (pqName pre 3, f.offs.getD [])]

/-- The call of the training (tests/utils/generate_pq.cpp:26-27, include/partition_and_pq.h:49-53). -/
def pqTrainPar (env : TrainEnv D) (dim chunks : Nat) : TrainPar :=
  ⟨dim, 256, chunks, false, env.km.addF, env.sub, env.divn, pqKmeans env.km env.run env.mem 256 15⟩

/-- The call of the compression (tests/utils/generate_pq.cpp:28-29). -/
def pqDataPar (env : TrainEnv D) (e : Elem) (chunks : Nat) : PqPar :=
  ⟨5000000, (env.run 0).ccBlk, 256, chunks, e.size, env.conv e, env.sub, fun cs x => cs.map (env.km.entry x), env.pops⟩

/-- `generate_pq` (tests/utils/generate_pq.cpp:9-34). -/
def pqTool (env : TrainEnv D) (e : Elem) (data pre : Bytes) (chunks : Nat) (rate : F32) (fs : FS Bytes) : Res (List (FOp Bytes)) := do
  let (flat, n, dim) ← sliceMem e.size (sampleCoin env.rnd rate) (env.conv e) (fs data) env.j
  let new ← trainPivots (pqTrainPar env dim chunks) n flat (fs (pqName pre 0)) env.jt env.memF
  let codes ← pqData (pqDataPar env e chunks) (fs data) (new.getD (pqFound pre fs)) env.j' env.j1 env.j2 env.j3 env.j4
  .ok (outOps (pqNew pre new ++ [(pqName pre 4, codes)]))

/-- `main` (tests/utils/generate_pq.cpp:36-63): the number of chunks is converted to 64 and then to 32 bits. -/
def pqMain (env : TrainEnv D) (argv : List Bytes) (fs : FS Bytes) : Res (Cmd (List (FOp Bytes))) :=
  if argv.length ≠ 6 then .ok .usage else do
  let data ← rd argv 2
  let pre ← rd argv 3
  let c ← numAt argv 4
  let rate ← floatAt argv 5
  let t ← rd argv 1
  cmdOf (elemArg t) fun e =>
  if ∃ i, data = pqName pre i then done env.both else done (pqTool env e data pre (wrap32 c) rate fs)

/-- The names of the files of a shard (src/partition_and_pq.cpp:625-628, 725-726), and of the centres
(src/partition_and_pq.cpp:876, 933). -/
def shardName (pre : Bytes) (i : Nat) : Bytes := pre ++ ascii "_subshard-" ++ decimal 20 i ++ ascii ".bin"

def shardIdsName (pre : Bytes) (i : Nat) : Bytes := pre ++ ascii "_subshard-" ++ decimal 20 i ++ ascii "_ids_uint32.bin"

def centresName (pre : Bytes) : Bytes := pre ++ ascii "_centroids.bin"

/-- The files of the shards from number `i` on. -/
def shardFiles (wd : Bool) (pre : Bytes) : Nat → List (Bytes × Bytes) → List (Bytes × Bytes)
  | _, [] => []
  | i, s :: ss => (if wd then [(shardName pre i, s.1)] else []) ++ (shardIdsName pre i, s.2) :: shardFiles wd pre (i + 1) ss

/-- The files of a partition. -/
def partFiles (wd : Bool) (pre : Bytes) (r : Bytes × Option (List (Bytes × Bytes))) : List (Bytes × Bytes) :=
  (centresName pre, r.1) :: shardFiles wd pre 0 (r.2.getD [])

/-- `main` (tests/utils/partition_data.cpp:11-40).  For a negative number of partitions `new float[num_parts * train_dim]`
(src/partition_and_pq.cpp:878) asks for more than `operator new[]` may give, unless the dimension is 0; for a negative
`k_base` so does `std::make_unique<_u32[]>(block_size * k_base)` (src/partition_and_pq.cpp:641-642), after the centres are
there. -/
def partitionMain (env : TrainEnv D) (argv : List Bytes) (fs : FS Bytes) : Res (Cmd (List (FOp Bytes))) :=
  if argv.length ≠ 7 then .ok .usage else do
  let data ← rd argv 2
  let pre ← rd argv 3
  let rate ← floatAt argv 4
  let np ← numAt argv 5
  let k ← numAt argv 6
  let t ← rd argv 1
  cmdOf (elemArg t) fun e => done (do
    let (_, _, dim) ← sliceMem e.size (sampleCoin env.rnd rate) (env.conv e) (fs data) env.j
    if 2305843009213693951 < u64 (wrap64 np * dim) then .error .throw
    else do
      let r ← partitionData e.size (env.conv e) env.rnd env.km (env.run 0) (env.mem 0) 5000000 env.pops rate (wrap64 np) 15
        k.toNat (fs data) env.j env.j'
      if k < 0 ∧ r.2 ≠ none then .error .throw else filesTool env data (partFiles true pre r))

/-- The centres k-means finds for `parts` parts (src/partition_and_pq.cpp:943-950). -/
def ramCentres (env : TrainEnv D) (dim : Nat) (train : List (List F32)) (parts : Nat) : Res (List (List F32)) :=
  kmeansF env.km (env.run parts) dim 10 train ((List.range parts).map (env.mem parts))

/-- The distances of the points for testing from these centres (src/partition_and_pq.cpp:955-957). -/
def ramRows (env : TrainEnv D) (dim : Nat) (train test : List (List F32)) (parts : Nat) : Res (List (List F32)) := do
  let cs ← ramCentres env dim train parts
  .ok (test.map (fun x => cs.map (env.km.entry x)))

/-- `partition_with_ram_budget` (src/partition_and_pq.cpp:903-988): the contents of the file of centres, and those of the files of the
shards.  The centres of the last round are computed again here.  For a negative `k_base` the array of
`estimate_cluster_sizes` (src/partition_and_pq.cpp:563-564) is more than `operator new[]` may give. -/
def ramTool (env : TrainEnv D) (e : Elem) (rate : F32) (budget : Dbl) (deg : Nat) (k : Int) (file : Option Bytes) :
    Res (Bytes × Option (List (Bytes × Bytes))) := do
  let (flat, n, dim) ← sliceMem e.size (sampleCoin env.rnd rate) (env.conv e) file env.j
  let (flat2, n2, _) ← sliceMem e.size (sampleCoin env.rnd2 rate) (env.conv e) file env.j'
  let train := matRows n dim flat
  let test := matRows n2 dim flat2
  if k < 0 then do
    let rows ← ramRows env dim train test 3
    if rows = [] then .error .ub else .error .throw
  else do
    let parts ← ramLoop (fun parts => do
      let rows ← ramRows env dim train test parts
      estimateSizes ⟨5000000, (env.run 0).ccBlk, k.toNat, env.pops⟩ parts rows) (rateFrac rate) dim e.size deg (overBudget budget) env.fuel 3
    let cs ← ramCentres env dim train parts
    let sh ← shardData false ⟨5000000, (env.run 0).ccBlk, parts, k.toNat, centreDists (env.conv e) env.km.entry (matBytes cs) parts dim, env.pops⟩
      e.size dim file env.j''
    .ok (le 4 (u32 parts) ++ (le 4 (u32 dim) ++ matBytes cs), sh)

/-- `main` (tests/utils/partition_with_ram_budget.cpp:11-40). -/
def ramMain (env : TrainEnv D) (argv : List Bytes) (fs : FS Bytes) : Res (Cmd (List (FOp Bytes))) :=
  if argv.length ≠ 8 then .ok .usage else do
  let data ← rd argv 2
  let pre ← rd argv 3
  let rate ← floatAt argv 4
  let b ← rd argv 5
  let deg ← numAt argv 6
  let k ← numAt argv 7
  let t ← rd argv 1
  cmdOf (elemArg t) fun e => done (do
    let r ← ramTool env e rate (atod b) (wrap64 deg) k (fs data)
    filesTool env data (partFiles false pre r))

end

end Grann
