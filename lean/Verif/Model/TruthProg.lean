import Verif.Model.GroundTruth
import Verif.Model.Truthset
import Verif.Model.CommandLine
/-!
# Model of the program `compute_groundtruth` (tests/utils/compute_groundtruth.cpp)

The program from the command line on, with its files.  The distances that the BLAS calls compute for a query and a vector
are a parameter, and so is the conversion of a value to `float`.  Memory is assumed to be available, and uninitialised
memory has arbitrary contents.
-/

namespace Grann

/-- `PARTSIZE` (10000000), the heap, the sort, the conversion of one value, the entry of `dist_matrix` for a query and a
vector with their numbers (tests/utils/compute_groundtruth.cpp:80-127; the flag is `use_mip`), the initial contents of `dist_matrix` for every
part and those of `data_T` for the queries (0) and for part `p` (`p + 1`). -/
structure TruthEnv where
  partSize : Nat
  pick : Nat → Nat → Nat → List (Nat × F32) → Nat
  sortP : List (Nat × F32) → List (Nat × F32)
  elem : Elem → Bytes → F32
  dist : Bool → Nat → Nat → List F32 → List F32 → F32
  junk : Nat → Nat → F32
  mem : Nat → Nat → UInt8

/-- `get_num_parts` (tests/utils/compute_groundtruth.cpp:221-223) from the bits of the `int` in the file; for a negative
one, division of `int`s rounds towards zero, and the loop over the parts runs only if the result is positive. -/
def truthParts (partSize n : Nat) : Nat :=
  if n < 2147483648 then numParts partSize n else if 4294967296 - n < partSize then 1 else 0

/-- `load_bin_as_float` (tests/utils/compute_groundtruth.cpp:228-263) on a file of at least 8 bytes: the number of vectors,
the dimension and the values.  What the file does not have is left as it was in memory. -/
def loadPart (es partSize : Nat) (elem : Bytes → F32) (b : Bytes) (p : Nat) (mem : Nat → UInt8) : Nat × Nat × List F32 :=
  let n := sext32 (unle (b.take 4))
  let dim := unle ((b.drop 4).take 4)
  let npts := partLen partSize n p
  let x := (b.drop (8 + p * partSize * dim * es)).take (npts * dim * es)
  let x := x ++ ((List.range (npts * dim * es)).drop x.length).map mem
  (npts, dim, (List.range (npts * dim)).map (fun i => elem ((x.drop (i * es)).take es)))

/-- `matrix + i * dim`. -/
def vecAt (dim : Nat) (m : List F32) (i : Nat) : List F32 := (m.drop (i * dim)).take dim

/-- `aux_main` (tests/utils/compute_groundtruth.cpp:303-366) up to the writing of the file: the number of queries and their
results.  The counts of a file with less than 8 bytes are uninitialised variables.  `dim` is that of the base file once a
part is loaded: `compute_l2sq` (lines 71-78, 143) then reads `nqueries * dim` values from the queries. -/
def truthRun (env : TruthEnv) (e : Elem) (mips : Bool) (k : Nat) (base query : Option Bytes) :
    Res (Nat × List (List (Nat × F32))) :=
  match base, query with
  | some b, some q =>
    if b.length < 8 ∨ q.length < 8 then .error .ub else do
    let n := unle (b.take 4)
    let (nq, qdim, qs) := loadPart e.size env.partSize (env.elem e) q 0 (env.mem 0)
    if 9223372036854775807 < u64 (nq * k) * 4 then .error .throw else do
    let parts := truthParts env.partSize n
    let dim := unle ((b.drop 4).take 4)
    if 0 < parts ∧ 0 < nq ∧ qdim < dim then .error .ub else do
    let D := fun i g => env.dist mips i g (vecAt dim qs i) (vecAt dim
      (loadPart e.size env.partSize (env.elem e) b (g / env.partSize) (env.mem (g / env.partSize + 1))).2.2 (g % env.partSize))
    let (_, results) ← gtParts false env.pick env.partSize (sext32 n) nq D env.junk parts 0 k (List.replicate nq [])
    let rows ← results.mapM (gtTake env.sortP k)
    .ok (nq, rows)
  | _, _ => .error .ub

/-- The sign of a `float` reversed (tests/utils/compute_groundtruth.cpp:354). -/
def F32.flip (x : F32) : F32 := ⟨x.bits ^^^ 0x80000000#32⟩

/-- Command line of the program (tests/utils/compute_groundtruth.cpp:303-312, 368-380). -/
structure TruthArgs where
  elem : Elem
  base : Bytes
  query : Bytes
  k : Nat
  out : Bytes
  mips : Bool
  deriving DecidableEq

/-- What is written (tests/utils/compute_groundtruth.cpp:348-361). -/
def truthOps (mips : Bool) (out : Bytes) (nq k : Nat) (rows : List (List (Nat × F32))) : List (FOp Bytes) :=
  saveTruth out (le32s (rows.flatMap (fun r => r.map Prod.fst)))
    (le32s (rows.flatMap (fun r => r.map (fun x => (if mips then x.2.flip else x.2).bits.toNat)))) nq k

def truthArgs (argv : List Bytes) (e : Elem) : Res TruthArgs := do
  let base ← rd argv 2
  let query ← rd argv 3
  let k ← numAt argv 4
  let out ← rd argv 5
  let d ← rd argv 6
  .ok ⟨e, base, query, wrap64 k, out, d = ascii "mips"⟩

/-- `main` (tests/utils/compute_groundtruth.cpp:368-380); with an unknown type, nothing is done. -/
def truthMain (env : TruthEnv) (argv : List Bytes) (fs : FS Bytes) : Res (Cmd (List (FOp Bytes))) :=
  if argv.length ≠ 7 then .ok .usage else do
  let t ← rd argv 1
  match elemArg t with
  | none => .ok (.run [])
  | some e =>
    let a ← truthArgs argv e
    done do
      let (nq, rows) ← truthRun env a.elem a.mips a.k (fs a.base) (fs a.query)
      .ok (truthOps a.mips a.out nq a.k rows)

end Grann
