import Verif.Model.FilteredTruth
import Verif.Model.TruthProg
/-!
# Model of the program `compute_filtered_groundtruth` (tests/compute_filtered_groundtruth.cpp)

The program from the command line on, with its files, those it removes included.  The distances that the BLAS calls compute
for a query and a vector are a parameter, and so is the conversion of a value to `float`.  Memory is assumed to be available
and files can be written.  Numbers of points are below 2^31.
-/

namespace Grann

/-- `PARTSIZE` (10000000), the heap, the sort, the conversion of one value, the entry of `dist_matrix` for a query with its
number and a vector (src/aux_compute_groundtruth.cpp:76-102), and the contents of uninitialised memory: `dist_matrix`, the
two counts of a header, `data_T` of the queries and `full_data`. -/
structure FiltEnv where
  partSize : Nat
  pick : Nat → Nat → Nat → List (Nat × F32) → Nat
  sortP : List (Nat × F32) → List (Nat × F32)
  elem : Elem → Bytes → F32
  dist : Nat → List F32 → List F32 → F32
  junk : Nat → Nat → F32
  j1 : Bytes
  j2 : Bytes
  mem : Nat → UInt8
  memData : Nat → UInt8

/-- Command line of the program (tests/compute_filtered_groundtruth.cpp:74-86). -/
structure FiltArgs where
  elem : Elem
  coords : Bytes
  map : Bytes
  filter : Bytes
  query : Bytes
  k : Nat
  out : Bytes
  univ : Option Bytes
  deriving DecidableEq

/-- The temporary files (tests/compute_filtered_groundtruth.cpp:123-126). -/
def filtBaseName (out : Bytes) : Bytes := out ++ ascii "_filtered_base.bin"

def filtDummyName (out : Bytes) : Bytes := out ++ ascii "_dummy"

/-- What the core of the program depends on: `nq` queries with the values `qs`, in rows of `dim`. -/
def filtPar (env : FiltEnv) (a : FiltArgs) (dim nq k : Nat) (qs : List F32) : FtPar where
  pick := env.pick
  sortP := env.sortP
  partSize := env.partSize
  es := a.elem.size
  nq := nq
  k := k
  dist := fun q x => env.dist q (vecAt dim qs q)
    ((List.range dim).map (fun d => env.elem a.elem ((x.drop (d * a.elem.size)).take a.elem.size)))
  filter := a.filter
  univ := a.univ
  junk := env.junk
  j1 := env.j1
  j2 := env.j2
  mem := env.memData

/-- `aux_main` (src/aux_compute_groundtruth.cpp:276-338) with the arguments made in
tests/compute_filtered_groundtruth.cpp:129-141: `K` is written as a decimal number and read again.  The result is the contents
of the ground-truth file.  The counts of a file of queries with less than 8 bytes are uninitialised variables.  `dim` is that
of the base file once a part is loaded: `compute_l2sq` (lines 67-74, 120) then reads `nqueries * dim` values from the
queries. -/
def filtAux (env : FiltEnv) (a : FiltArgs) (dim : Nat) (base : Bytes) (query : Option Bytes) : Res Bytes := do
  let v ← atoi (decimal 20 a.k)
  let k := wrap64 v
  match query with
  | none => .error .ub
  | some q =>
    if q.length < 8 then .error .ub else do
    let (nq, qdim, qs) := loadPart a.elem.size env.partSize (env.elem a.elem) q 0 env.mem
    if 9223372036854775807 < u64 (nq * k) * 4 then .error .throw else do
    if 0 < numParts env.partSize (unle (base.take 4)) ∧ 0 < nq ∧ qdim < dim then .error .ub else do
    let P := filtPar env a dim nq k qs
    auxMain P.pick P.sortP P.partSize (dim * P.es) P.nq P.k P.dist P.junk base

/-- `compute_filtered_gt` and `compute_new_groundtruth` (tests/compute_filtered_groundtruth.cpp:105-251).  The filtered file is
emptied before the inputs are read; it is complete (line 188) when the vectors are loaded again and when the queries are
loaded.  The number of vectors in it, written last (lines 186-187), is already there in the model. -/
def filtRun (env : FiltEnv) (a : FiltArgs) (fs : FS Bytes) : Res (List (FOp Bytes)) := do
  let fb := filtBaseName a.out
  let fs0 := runOps [.create fb] fs
  let (_, dim, _) := readHeader (fs0 a.coords) env.j1 env.j2
  let (idx, base) := filteredBase (filtPar env a 0 0 0 []) (fs0 a.coords) (fs0 a.map)
  let fs1 := runOps [.append fb base] fs0
  let _ ← loadBin a.elem.size (fs1 a.coords) env.j1 env.j2 env.memData
  let truth ← filtAux env a dim base (fs1 a.query)
  let out ← remapTruth a.elem.size idx truth env.j1 env.j2
  .ok [.create fb, .append fb base, .create (filtDummyName a.out), .append (filtDummyName a.out) truth,
    .create a.out, .append a.out out, .remove fb, .remove (filtDummyName a.out)]

/-- `main` (tests/compute_filtered_groundtruth.cpp:64-103). -/
def filtMain (env : FiltEnv) (argv : List Bytes) (fs : FS Bytes) : Res (Cmd (List (FOp Bytes))) :=
  if argv.length ≠ 8 ∧ argv.length ≠ 9 then .ok .usage else do
  let t ← rd argv 1
  let coords ← rd argv 2
  let map ← rd argv 3
  let filter ← rd argv 4
  let query ← rd argv 5
  let k ← numAt argv 6
  let out ← rd argv 7
  let univ ← if argv.length = 9 then do
      let u ← rd argv 8
      .ok (some u)
    else .ok none
  cmdOf (elemArg t) (fun e => done (filtRun env ⟨e, coords, map, filter, query, wrap64 k, out, univ⟩ fs))

end Grann
