import Verif.Model.FloatTable
import Verif.Model.PipelineHnsw
import Verif.Model.SearchProg
import Verif.Model.Distance
/-!
# Model of the `main` functions of the build and search programs (tests/build_*.cpp, tests/search_*.cpp)

`argv` is the list of the arguments, so `argc` is its length.  `argv[argc]` is a null pointer; making a string or a number of
it is undefined, like reading behind it.  The conversions are those of the C library in the C locale.  Not modelled: what is
printed, times, the number of threads (the schedules are arbitrary), and the exit code.
-/

namespace Grann

/-- `atoi`: white space, a sign, digits; what follows is ignored; 0 if there are no digits; undefined if the number does not
fit into an `int`. -/
def atoi (s : Bytes) : Res Int :=
  let t := s.dropWhile isSpace
  let n : Int := digitsVal ((t.drop (signOf t).length).takeWhile isDigit)
  let v := if t.head? = some 45 then -n else n
  if -2147483648 ≤ v ∧ v ≤ 2147483647 then .ok v else .error .ub

/-- `(unsigned) v` for an `int`. -/
def wrap32 (v : Int) : Nat := (v % 4294967296).toNat

/-- `(_u64) v` for an `int`. -/
def wrap64 (v : Int) : Nat := (v % 18446744073709551616).toNat

/-- Small letters. -/
def lower (c : UInt8) : UInt8 := if 65 ≤ c ∧ c ≤ 90 then c + 32 else c

/-- The exponent of a number whose mantissa has been read: a letter, sign and digits; if that is not there, 0. -/
def atofExp (letter : UInt8) (r : Bytes) : Int :=
  let g := signOf (r.drop 1)
  let ds := ((r.drop 1).drop g.length).takeWhile isDigit
  if r.head?.map lower = some letter ∧ ds ≠ [] then (if g = [45] then -(digitsVal ds : Int) else digitsVal ds) else 0

/-- A hexadecimal digit and its value. -/
def isHex (c : UInt8) : Bool := isDigit c || (97 ≤ lower c && lower c ≤ 102)

def hexVal (c : UInt8) : Nat := if isDigit c then c.toNat - 48 else (lower c).toNat - 87

/-- A number of type `double`, converted to `float`: rounded to 53 bits, then to the nearest `float`; numbers that are too
large become infinite. -/
def doubleToFloat (neg : Bool) (x : Nat × Nat) : F32 :=
  let d := roundBin 53 x
  ⟨BitVec.ofNat 32 (min (nearestBits d.1 d.2) 2139095040 + if neg then 2147483648 else 0)⟩

/-- A decimal number at the beginning of a text; 0 if there are no digits. -/
def atofDec (neg : Bool) (u : Bytes) : F32 :=
  let a := u.takeWhile isDigit
  let r := u.dropWhile isDigit
  let b := if r.head? = some 46 then (r.drop 1).takeWhile isDigit else []
  let r := if r.head? = some 46 then (r.drop 1).dropWhile isDigit else r
  if a.isEmpty && b.isEmpty then F32.zero
  else doubleToFloat neg (scale 10 (digitsVal (a ++ b)) 1 (atofExp 101 r - b.length))

/-- A hexadecimal number behind `0x`; without digits only the `0` is read. -/
def atofHex (neg : Bool) (u : Bytes) : F32 :=
  let a := u.takeWhile isHex
  let r := u.dropWhile isHex
  let b := if r.head? = some 46 then (r.drop 1).takeWhile isHex else []
  let r := if r.head? = some 46 then (r.drop 1).dropWhile isHex else r
  if a.isEmpty && b.isEmpty then doubleToFloat neg (0, 1)
  else doubleToFloat neg (scale 2 ((a ++ b).foldl (fun x c => 16 * x + hexVal c) 0) 1 (atofExp 112 r - 4 * b.length))

/-- `(float) atof(s)`.  The payload of a NaN is not modelled. -/
def atof (s : Bytes) : F32 :=
  let t := s.dropWhile isSpace
  let neg : Bool := t.head? = some 45
  let u := t.drop (signOf t).length
  let w := u.map lower
  if w.take 3 = ascii "inf" then ⟨if neg then 0xff800000#32 else 0x7f800000#32⟩
  else if w.take 3 = ascii "nan" then ⟨if neg then 0xffc00000#32 else 0x7fc00000#32⟩
  else if w.take 2 = ascii "0x" then atofHex neg (u.drop 2)
  else atofDec neg u

/-- `atoi(argv[i])` and `(float) atof(argv[i])`. -/
def numAt (argv : List Bytes) (i : Nat) : Res Int := do
  let s ← rd argv i
  atoi s

def floatAt (argv : List Bytes) (i : Nat) : Res F32 := do
  let s ← rd argv i
  .ok (atof s)

/-- An argument that is only there if the one before it is not 0 (tests/build_vamana.cpp:82-86, tests/search_vamana.cpp:60-64). -/
def optArg (argv : List Bytes) (flag : Int) (i : Nat) : Res (List Bytes) :=
  if flag = 0 then .ok []
  else do
    let s ← rd argv i
    .ok [s]

/-- How `main` goes on: the usage is printed, or another message and nothing is done, or the work begins. -/
inductive Cmd (α : Type)
  | usage
  | refused
  | run (x : α)
  deriving DecidableEq

/-- The element type (tests/build_vamana.cpp:95-105) and the metric (tests/build_vamana.cpp:67-77). -/
def elemArg (s : Bytes) : Option Elem :=
  if s = ascii "int8" then some .int8 else if s = ascii "uint8" then some .uint8 else if s = ascii "float" then some .float else none

def metricArg (s : Bytes) : Option Metric :=
  if s = ascii "mips" then some .innerProduct else if s = ascii "l2" then some .l2 else none

/-- `sizeof(T)`. -/
def Elem.size : Elem → Nat
  | .float => 4
  | .int8 => 1
  | .uint8 => 1

/-- Going on only with a known word. -/
def cmdOf {α β : Type} (x : Option α) (f : α → Res (Cmd β)) : Res (Cmd β) :=
  match x with
  | none => .ok .refused
  | some a => f a

/-! ## Building -/

/-- The arguments of `build_vamana_index` (tests/build_vamana.cpp:17-21); `labels` is empty if there is no label file. -/
structure VamanaArgs where
  elem : Elem
  metric : Metric
  data : Bytes
  labels : Bytes
  save : Bytes
  R : Nat
  L : Nat
  alpha : F32
  threads : Nat
  deriving DecidableEq

/-- `main` of tests/build_vamana.cpp:53-106. -/
def vamanaArgs (argv : List Bytes) : Res (Cmd VamanaArgs) :=
  if argv.length < 10 ∨ 11 < argv.length then .ok .usage
  else do
    let mt ← rd argv 2
    cmdOf (metricArg mt) (fun m => do
      let data ← rd argv 3
      let flag ← numAt argv 4
      let lbl ← optArg argv flag 5
      let k := 5 + lbl.length
      let save ← rd argv k
      let R ← numAt argv (k + 1)
      let L ← numAt argv (k + 2)
      let alpha ← floatAt argv (k + 3)
      let threads ← numAt argv (k + 4)
      let ty ← rd argv 1
      cmdOf (elemArg ty) (fun e => .ok (.run ⟨e, m, data, lbl.headD [], save, wrap32 R, wrap32 L, alpha, wrap32 threads⟩)))

/-- The arguments of `build_hnsw_index` (tests/build_hnsw.cpp:17-21). -/
structure HnswArgs where
  elem : Elem
  metric : Metric
  data : Bytes
  save : Bytes
  R : Nat
  L : Nat
  pruningRule : Nat
  samplingRate : F32
  levels : Nat
  threads : Nat
  deriving DecidableEq

/-- `main` of tests/build_hnsw.cpp:45-94. -/
def hnswArgs (argv : List Bytes) : Res (Cmd HnswArgs) :=
  if argv.length ≠ 11 then .ok .usage
  else do
    let mt ← rd argv 2
    cmdOf (metricArg mt) (fun m => do
      let data ← rd argv 3
      let save ← rd argv 4
      let R ← numAt argv 5
      let L ← numAt argv 6
      let pr ← numAt argv 7
      let sr ← floatAt argv 8
      let lv ← numAt argv 9
      let th ← numAt argv 10
      let ty ← rd argv 1
      cmdOf (elemArg ty) (fun e => .ok (.run ⟨e, m, data, save, wrap32 R, wrap32 L, wrap32 pr, sr, wrap32 lv, wrap32 th⟩)))

/-- The number of the top level given to the constructor (tests/build_hnsw.cpp:34, tests/search_hnsw.cpp:90): `num_levels - 1` in
32 bits.  The object has one level more. -/
def topLevel (levels : Nat) : Nat := u32 (levels + 4294967295)

/-- The arguments of `build_relng_index` (tests/build_relng.cpp:17-19). -/
structure RngArgs where
  elem : Elem
  metric : Metric
  data : Bytes
  save : Bytes
  threads : Nat
  deriving DecidableEq

/-- `main` of tests/build_relng.cpp:35-73. -/
def rngArgs (argv : List Bytes) : Res (Cmd RngArgs) :=
  if argv.length ≠ 6 then .ok .usage
  else do
    let mt ← rd argv 2
    cmdOf (metricArg mt) (fun m => do
      let data ← rd argv 3
      let save ← rd argv 4
      let th ← numAt argv 5
      let ty ← rd argv 1
      cmdOf (elemArg ty) (fun e => .ok (.run ⟨e, m, data, save, wrap32 th⟩)))

/-- The arguments of `build_ivf_index` and `build_lsh_index` (tests/build_ivf.cpp:17-18, tests/build_lsh.cpp:6-7); the metric is
L2.  `X` is the type of the last one: the training rate or the table size. -/
structure ListArgs (X : Type) where
  elem : Elem
  data : Bytes
  labels : Bytes
  save : Bytes
  num : Nat
  last : X
  deriving DecidableEq

/-- `main` of tests/build_ivf.cpp and tests/build_lsh.cpp. -/
def listArgs {X : Type} (last : List Bytes → Nat → Res X) (argv : List Bytes) : Res (Cmd (ListArgs X)) :=
  if argv.length < 7 ∨ 8 < argv.length then .ok .usage
  else do
    let data ← rd argv 2
    let flag ← numAt argv 3
    let lbl ← optArg argv flag 4
    let k := 4 + lbl.length
    let save ← rd argv k
    let n ← numAt argv (k + 1)
    let x ← last argv (k + 2)
    let ty ← rd argv 1
    cmdOf (elemArg ty) (fun e => .ok (.run ⟨e, data, lbl.headD [], save, wrap32 n, x⟩))

def ivfArgs : List Bytes → Res (Cmd (ListArgs F32)) := listArgs floatAt

def lshArgs : List Bytes → Res (Cmd (ListArgs Nat)) :=
  listArgs (fun argv i => do
    let v ← numAt argv i
    .ok (wrap32 v))

/-- An exception that nobody catches. -/
def uncaught {α : Type} : Except PErr α → Res α
  | .ok x => .ok x
  | .error _ => .error .throw

/-- `paras` in tests/build_vamana.cpp:22-30. -/
def vamanaParams (a : VamanaArgs) : Params :=
  ((((((Params.new.setU32 (ascii "R") a.R).setU32 (ascii "L") a.L).setU32 (ascii "C") 750).setF32 (ascii "alpha") a.alpha).setBool
    (ascii "saturate_graph") false).setU32 (ascii "num_threads") a.threads)

/-- The parameters as they are read by the program (tests/build_vamana.cpp:32-36) and by the build (src/vamana.cpp:226-229,
src/graph_index.cpp:134-136 and 238-240); `r` is everything else. -/
def vamanaGets (p : Params) (r : VamanaRun) : Res VamanaRun := do
  let C ← uncaught (p.get toU32 (ascii "C"))
  let R ← uncaught (p.get toU32 (ascii "R"))
  let L ← uncaught (p.get toU32 (ascii "L"))
  let alpha ← uncaught (p.get toF32 (ascii "alpha"))
  let pr ← uncaught (p.get toU32 (ascii "pruning_rule"))
  let _ ← uncaught (p.get toU32 (ascii "num_threads"))
  .ok { r with L := L, R := R, C := C, alpha := alpha, pruningRule := pr }

/-- The files of an index (src/index.cpp:179-182, src/vamana.cpp:36-48). -/
def partName (base : Bytes) : Part → Bytes
  | .data => base ++ ascii "_data.bin"
  | .tags => base ++ ascii "_tags.bin"
  | .labels => base ++ ascii "_labels.txt"
  | .univ => base ++ ascii "_universal_label.txt"
  | .medoids => base ++ ascii "_labels_to_medoids.txt"
  | .graph => base

/-- The files of one level of an HNSW index (src/hnsw.cpp:45-50, 74-76). -/
def levelName (base : Bytes) (x : Nat × Part) : Bytes := partName (base ++ ascii "_" ++ decimal (x.1 + 1) x.1) x.2

/-- The files of an IVF index: those of the base class and the centres (src/ivf.cpp:36-43). -/
def ivfName (base : Bytes) : Option Part → Bytes
  | some p => partName base p
  | none => base ++ ascii "_centers.bin"

/-- The label file of the constructor: none if the name is empty (src/index.cpp:102). -/
def labelArg (fs : FS Bytes) (name : Bytes) : Option (Option Bytes) := if name = [] then none else some (fs name)

/-- The index file of an LSH index (src/lsh.cpp:194-195). -/
def lshName (base : Bytes) : Bytes := base ++ ascii "_index.bin"

/-- Everything the result of a build program depends on besides the command line and the files: the sort of labels, uninitialised
memory, the distance functions, and what the build of the index type lists (`R`). -/
structure BuildEnv (R : Type) where
  sortL : List Label → List Label
  junk : Junk
  cmp : DistClass → Bytes → Bytes → F32
  run : R

/-- The constructor from files.  The distance function is looked up after the data file has been read and before the label file
(src/index.cpp:81-105). -/
def ctorFor {R : Type} (env : BuildEnv R) (e : Elem) (m : Metric) (data : Option Bytes) (labels : Option (Option Bytes)) :
    Res (IdxObj × DistClass) := do
  let _ ← ctorObj env.sortL env.junk e.size data [] none
  let d ← getDistance e m
  let o ← ctorObj env.sortL env.junk e.size data [] labels
  .ok (o, d)

/-- `main`: the work is only done if the command line asks for it. -/
def mainOf {α β : Type} (c : Res (Cmd α)) (f : α → Res (Cmd β)) : Res (Cmd β) := do
  let c ← c
  match c with
  | .usage => .ok .usage
  | .refused => .ok .refused
  | .run a => f a

/-- A program that has done its work. -/
def done {β : Type} (x : Res β) : Res (Cmd β) := do
  let y ← x
  .ok (.run y)

/-- `build_vamana_index` (tests/build_vamana.cpp:17-51): the operations that write the index. -/
def buildVamana (env : BuildEnv VamanaRun) (a : VamanaArgs) (fs : FS Bytes) : Res (List (FOp Bytes)) := do
  let (o, d) ← ctorFor env a.elem a.metric (fs a.data) (labelArg fs a.labels)
  let r ← vamanaGets (vamanaParams a) env.run
  let o' ← vamanaBuild a.elem.size (env.cmp d) r o
  vamanaSave a.elem.size (partName a.save) o'

/-- The program tests/build_vamana.cpp. -/
def buildVamanaMain (env : BuildEnv VamanaRun) (argv : List Bytes) (fs : FS Bytes) : Res (Cmd (List (FOp Bytes))) :=
  mainOf (vamanaArgs argv) (fun a => done (buildVamana env a fs))

/-- `build_relng_index` (tests/build_relng.cpp:16-33); the build reads the number of threads (src/relative_ng.cpp:139). -/
def buildRng (env : BuildEnv RngRun) (a : RngArgs) (fs : FS Bytes) : Res (List (FOp Bytes)) := do
  let (o, d) ← ctorFor env a.elem a.metric (fs a.data) none
  let _ ← uncaught ((Params.new.setU32 (ascii "num_threads") a.threads).get toU32 (ascii "num_threads"))
  let o' ← rngBuildObj a.elem.size (env.cmp d) env.run o
  rngSave a.elem.size (partName a.save) o'

def buildRngMain (env : BuildEnv RngRun) (argv : List Bytes) (fs : FS Bytes) : Res (Cmd (List (FOp Bytes))) :=
  mainOf (rngArgs argv) (fun a => done (buildRng env a fs))

/-- What the build of an IVF index depends on: the distances to the centres, the training (sampling and k-means, src/ivf.cpp:97-108) for a number
of clusters and a rate, the order of a heap, and the order of the threads. -/
structure IvfTrain where
  cdist : Bytes → Nat → Nat → Bytes → List F32
  train : Nat → F32 → IdxObj → Res Bytes
  pops : List F32 → List Nat
  sched : Nat → List (Nat × Nat) → List (Nat × Nat)

/-- `build_ivf_index` (tests/build_ivf.cpp:16-35). -/
def buildIvf (env : BuildEnv IvfTrain) (a : ListArgs F32) (fs : FS Bytes) : Res (List (FOp Bytes)) := do
  let (o, _) ← ctorFor env a.elem .l2 (fs a.data) (labelArg fs a.labels)
  let p := (Params.new.setU32 (ascii "num_clusters") a.num).setF32 (ascii "training_rate") a.last
  let nc ← uncaught (p.get toU32 (ascii "num_clusters"))
  let rate ← uncaught (p.get toF32 (ascii "training_rate"))
  let cs ← env.run.train nc rate o
  let o' ← ivfBuildObj a.elem.size env.run.cdist ⟨nc, cs, env.run.pops, env.run.sched⟩ ⟨o, 0, [], []⟩
  ivfSave a.elem.size (fun p => ivfName a.save (some p)) (ivfName a.save none) o'

def buildIvfMain (env : BuildEnv IvfTrain) (argv : List Bytes) (fs : FS Bytes) : Res (Cmd (List (FOp Bytes))) :=
  mainOf (ivfArgs argv) (fun a => done (buildIvf env a fs))

/-- What the build of an LSH index depends on: the sums of src/lsh.cpp:52-56, and the random hyperplanes (src/lsh.cpp:27-40) by the number of
coordinates, the table and the number in it. -/
structure LshDraw where
  dot : Bytes → Bytes → F32
  hp : Nat → Nat → Nat → Bytes

/-- The hyperplanes of all tables. -/
def LshDraw.hps (d : LshDraw) (adim numTables tableSize : Nat) : List (List Bytes) :=
  (List.range numTables).map (fun t => (List.range tableSize).map (d.hp adim t))

/-- `build_lsh_index` (tests/build_lsh.cpp:5-20). -/
def buildLsh (env : BuildEnv LshDraw) (a : ListArgs Nat) (fs : FS Bytes) : Res (List (FOp Bytes)) := do
  let (o, _) ← ctorFor env a.elem .l2 (fs a.data) (labelArg fs a.labels)
  let p := (Params.new.setU32 (ascii "num_tables") a.num).setU32 (ascii "table_size") a.last
  let nt ← uncaught (p.get toU32 (ascii "num_tables"))
  let sz ← uncaught (p.get toU32 (ascii "table_size"))
  let o' ← lshBuildObj a.elem.size env.run.dot sz (env.run.hps o.adim nt sz) ⟨o, 0, 0, []⟩
  lshSave a.elem.size (partName a.save) (lshName a.save) o'

def buildLshMain (env : BuildEnv LshDraw) (argv : List Bytes) (fs : FS Bytes) : Res (Cmd (List (FOp Bytes))) :=
  mainOf (lshArgs argv) (fun a => done (buildLsh env a fs))

/-- What the build of an HNSW index depends on besides its parameters: sorts, float arithmetic, uninitialised memory for each level, the results of
`rand` by the level (from the bottom, the largest number first) and point, and the schedules. -/
structure HnswEnv where
  sortF : List Nbr → List Nbr
  div : F32 → F32 → F32
  mops : MedoidOps Bytes
  junk : Nat → Junk
  rand : Nat → Nat → Nat
  sched : Nat → List Nat

/-- Whether a point is sampled (src/hnsw.cpp:130-132): the division is done in `double`. -/
def hnswKeep (prob : F32) (rand : Nat) : Bool := (doubleToFloat false (rand % 1000000, 1000000)).lt prob

/-- `paras` in tests/build_hnsw.cpp:22-31. -/
def hnswSets (a : HnswArgs) : Params :=
  ((((((Params.new.setU32 (ascii "R") a.R).setU32 (ascii "L") a.L).setU32 (ascii "C") 750).setU32 (ascii "pruning_rule") a.pruningRule).setF32
    (ascii "sampling_rate") a.samplingRate).setBool (ascii "saturate_graph") false).setU32 (ascii "num_threads") a.threads

/-- The parameters as the build reads them (src/hnsw.cpp:125-126 and 146-149, src/graph_index.cpp:134-136): the sampling rate and the others. -/
def hnswGets (p : Params) (e : HnswEnv) : Res (F32 × HnswParams) := do
  let prob ← uncaught (p.get toF32 (ascii "sampling_rate"))
  let pr ← uncaught (p.get toU32 (ascii "pruning_rule"))
  let _ ← uncaught (p.get toU32 (ascii "num_threads"))
  let L ← uncaught (p.get toU32 (ascii "L"))
  let R ← uncaught (p.get toU32 (ascii "R"))
  let alpha ← uncaught (p.get toF32 (ascii "alpha"))
  let C ← uncaught (p.get toU32 (ascii "C"))
  .ok (prob, ⟨e.sortF, e.div, L, R, C, alpha, pr⟩)

/-- An operation on a file with another name. -/
def FOp.rename {P Q : Type} (f : P → Q) : FOp P → FOp Q
  | .create p => .create (f p)
  | .append p b => .append (f p) b
  | .patch p b => .patch (f p) b
  | .remove p => .remove (f p)

/-- The file for the sampled vectors (src/hnsw.cpp:136). -/
def tmpName : Bytes := ascii "/tmp/temp_data"

/-- The levels above the bottom, the one with the largest number first: which points of a level are in the next one, and the schedule. -/
def hnswUps (e : HnswEnv) (prob : F32) (top : Nat) : List ((Nat → Bool) × List Nat) :=
  (List.range top).map (fun k => (fun i => hnswKeep prob (e.rand (top - k) i), e.sched (top - k)))

/-- `build_hnsw_index` (tests/build_hnsw.cpp:16-43).  If there is an inner index, the temporary file has been written and removed when the index is
written; only the removal is listed. -/
def buildHnsw (env : BuildEnv HnswEnv) (a : HnswArgs) (fs : FS Bytes) : Res (List (FOp Bytes)) := do
  let (o, d) ← ctorFor env a.elem a.metric (fs a.data) none
  let (prob, p) ← hnswGets (hnswSets a) env.run
  let os ← hnswBuildObj a.elem.size (env.cmp d) ⟨p, env.run.mops, env.sortL, env.run.junk⟩ (env.run.sched 0) (hnswUps env.run prob (topLevel a.levels))
    (fun _ => fs tmpName) o
  let ops ← hnswSave a.elem.size os
  .ok ((if topLevel a.levels = 0 then [] else [.remove tmpName]) ++ ops.map (FOp.rename (levelName a.save)))

def buildHnswMain (env : BuildEnv HnswEnv) (argv : List Bytes) (fs : FS Bytes) : Res (Cmd (List (FOp Bytes))) :=
  mainOf (hnswArgs argv) (fun a => done (buildHnsw env a fs))

/-! ## Searching -/

/-- What the search programs take from the command line. -/
structure SearchArgs where
  elem : Elem
  metric : Metric
  data : Bytes
  index : Bytes
  levels : Nat
  query : Bytes
  truth : Bytes
  K : Nat
  pre : Bytes
  filters : List Bytes
  Ls : List Nat
  deriving DecidableEq

/-- The search parameters: all remaining arguments (tests/search_vamana.cpp:69-73). -/
def restArgs (argv : List Bytes) (i : Nat) : Res (List Nat) :=
  (argv.drop i).mapM (fun s => do
    let v ← atoi s
    .ok (wrap64 v))

/-- `main` and the beginning of `search_index` in tests/search_vamana.cpp:21-73 and 192-212. -/
def searchVamanaArgs (argv : List Bytes) : Res (Cmd SearchArgs) :=
  if argv.length < 11 then .ok .usage
  else do
    let ty ← rd argv 1
    cmdOf (elemArg ty) (fun e => do
      let mt ← rd argv 2
      cmdOf (metricArg mt) (fun m => do
        let index ← rd argv 3
        let _ ← numAt argv 4
        let query ← rd argv 5
        let truth ← rd argv 6
        let K ← numAt argv 7
        let pre ← rd argv 8
        let flag ← numAt argv 9
        let flt ← optArg argv flag 10
        let Ls ← restArgs argv (10 + flt.length)
        .ok (.run ⟨e, m, [], index, 1, query, truth, wrap64 K, pre, flt, Ls⟩)))

/-- The same in tests/search_hnsw.cpp: the number of levels is given, there is no filter. -/
def searchHnswArgs (argv : List Bytes) : Res (Cmd SearchArgs) :=
  if argv.length < 11 then .ok .usage
  else do
    let ty ← rd argv 1
    cmdOf (elemArg ty) (fun e => do
      let mt ← rd argv 2
      cmdOf (metricArg mt) (fun m => do
        let index ← rd argv 3
        let lv ← numAt argv 4
        let _ ← numAt argv 5
        let query ← rd argv 6
        let truth ← rd argv 7
        let K ← numAt argv 8
        let pre ← rd argv 9
        let Ls ← restArgs argv 10
        .ok (.run ⟨e, m, [], index, wrap32 lv, query, truth, wrap64 K, pre, [], Ls⟩)))

/-- The same in tests/search_relng.cpp: the data file is given, there is no filter. -/
def searchRngArgs (argv : List Bytes) : Res (Cmd SearchArgs) :=
  if argv.length < 11 then .ok .usage
  else do
    let ty ← rd argv 1
    cmdOf (elemArg ty) (fun e => do
      let mt ← rd argv 2
      cmdOf (metricArg mt) (fun m => do
        let data ← rd argv 3
        let index ← rd argv 4
        let _ ← numAt argv 5
        let query ← rd argv 6
        let truth ← rd argv 7
        let K ← numAt argv 8
        let pre ← rd argv 9
        let Ls ← restArgs argv 10
        .ok (.run ⟨e, m, data, index, 1, query, truth, wrap64 K, pre, [], Ls⟩)))

/-- The same in tests/search_ivf.cpp (`minArgs = 10`) and tests/search_lsh.cpp (`minArgs = 9`): no metric; in the latter the search
parameter is 1 and further arguments are ignored. -/
def searchListArgs (minArgs : Nat) (Ls : List Bytes → Nat → Res (List Nat)) (argv : List Bytes) : Res (Cmd SearchArgs) :=
  if argv.length < minArgs then .ok .usage
  else do
    let ty ← rd argv 1
    cmdOf (elemArg ty) (fun e => do
      let index ← rd argv 2
      let _ ← numAt argv 3
      let query ← rd argv 4
      let truth ← rd argv 5
      let K ← numAt argv 6
      let pre ← rd argv 7
      let flag ← numAt argv 8
      let flt ← optArg argv flag 9
      let Ls ← Ls argv (9 + flt.length)
      .ok (.run ⟨e, .l2, [], index, 1, query, truth, wrap64 K, pre, flt, Ls⟩))

def searchIvfArgs : List Bytes → Res (Cmd SearchArgs) := searchListArgs 10 restArgs

def searchLshArgs : List Bytes → Res (Cmd SearchArgs) := searchListArgs 9 (fun _ _ => .ok [1])

/-- The file of the results for one search parameter (tests/search_vamana.cpp:181-184). -/
def resName (pre : Bytes) (L : Nat) : Bytes := pre ++ ascii "_" ++ decimal 20 L ++ ascii "_idx_uint32.bin"

/-- Everything else a search depends on: uninitialised memory, sorts, distance functions, and the order of the threads. -/
structure SearchEnv where
  sortL : List Label → List Label
  junk : Junk
  fuel : Nat
  cmp : DistClass → Bytes → Bytes → F32
  sortF : List Nbr → List Nbr
  h1 : Bytes
  h2 : Bytes
  mem : Nat → UInt8
  jt : TruthJunk
  order : Nat → List Nat

/-- Loading in tests/search_vamana.cpp:96-97: the constructor looks up the distance function. -/
def loadVamana (env : SearchEnv) (a : SearchArgs) (fs : FS Bytes) : Res (Nat × (Nat → SearchFn)) := do
  let d ← getDistance a.elem a.metric
  vamanaProg env.sortL env.junk env.fuel a.elem.size (partName a.index) IdxObj.fresh (env.cmp d) env.sortF a.K a.filters fs

/-- A search program: `minL` is the smallest search parameter that is not left out. -/
def searchWith (env : SearchEnv) (minL : Nat) (load : FS Bytes → Res (Nat × (Nat → SearchFn))) (a : SearchArgs) (fs : FS Bytes) :
    Res (Cmd (List (Option (Nat × Nat)) × List (FOp Bytes))) := do
  let r ← searchProg ⟨a.query, a.truth, resName a.pre⟩ a.elem.size a.K minL a.Ls env.h1 env.h2 env.mem env.jt load env.order fs
  match r with
  | none => .ok .refused
  | some x => .ok (.run x)

/-- The program tests/search_vamana.cpp. -/
def searchVamanaMain (env : SearchEnv) (argv : List Bytes) (fs : FS Bytes) :
    Res (Cmd (List (Option (Nat × Nat)) × List (FOp Bytes))) :=
  mainOf (searchVamanaArgs argv) (fun a => searchWith env a.K (loadVamana env a) a fs)

/-- Loading in tests/search_relng.cpp:90-92; `j0` is the uninitialised memory while the data file is read. -/
def loadRng (env : SearchEnv) (j0 : Junk) (a : SearchArgs) (fs : FS Bytes) : Res (Nat × (Nat → SearchFn)) := do
  let _ ← ctorObj env.sortL j0 a.elem.size (fs a.data) [] none
  let d ← getDistance a.elem a.metric
  rngProg env.sortL j0 env.junk env.fuel a.elem.size a.data (partName a.index) (env.cmp d) env.sortF a.K fs

def searchRngMain (env : SearchEnv) (j0 : Junk) (argv : List Bytes) (fs : FS Bytes) :
    Res (Cmd (List (Option (Nat × Nat)) × List (FOp Bytes))) :=
  mainOf (searchRngArgs argv) (fun a => searchWith env a.K (loadRng env j0 a) a fs)

/-- Loading in tests/search_hnsw.cpp:90-91. -/
def loadHnsw (env : SearchEnv) (a : SearchArgs) (fs : FS Bytes) : Res (Nat × (Nat → SearchFn)) := do
  let d ← getDistance a.elem a.metric
  hnswProg env.sortL env.junk env.fuel a.elem.size (levelName a.index) (List.replicate (topLevel a.levels + 1) IdxObj.fresh) (env.cmp d) env.sortF
    a.K fs

def searchHnswMain (env : SearchEnv) (argv : List Bytes) (fs : FS Bytes) :
    Res (Cmd (List (Option (Nat × Nat)) × List (FOp Bytes))) :=
  mainOf (searchHnswArgs argv) (fun a => searchWith env a.K (loadHnsw env a) a fs)

/-- Loading in tests/search_ivf.cpp:73-74. -/
def loadIvf (env : SearchEnv) (cdist : Bytes → Nat → Nat → Bytes → List F32) (pops : List F32 → List Nat) (a : SearchArgs) (fs : FS Bytes) :
    Res (Nat × (Nat → SearchFn)) := do
  let d ← getDistance a.elem .l2
  ivfProg env.sortL env.junk a.elem.size (fun p => ivfName a.index (some p)) (ivfName a.index none) ⟨IdxObj.fresh, 0, [], []⟩ (env.cmp d) cdist pops
    a.K a.filters fs

def searchIvfMain (env : SearchEnv) (cdist : Bytes → Nat → Nat → Bytes → List F32) (pops : List F32 → List Nat) (argv : List Bytes) (fs : FS Bytes) :
    Res (Cmd (List (Option (Nat × Nat)) × List (FOp Bytes))) :=
  mainOf (searchIvfArgs argv) (fun a => searchWith env 1 (loadIvf env cdist pops a) a fs)

/-- The program tests/search_lsh.cpp. -/
def searchLshMain (env : SearchEnv) (jl : LshJunk) (dot : Bytes → Bytes → F32) (argv : List Bytes) (fs : FS Bytes) :
    Res (Cmd (Option (Nat × Nat) × List (FOp Bytes))) :=
  mainOf (searchLshArgs argv) (fun a => done (do
    let d ← getDistance a.elem .l2
    searchProgS ⟨a.query, a.truth, resName a.pre⟩ a.elem.size a.K env.h1 env.h2 env.mem env.jt
      (lshProg env.sortL env.junk jl a.elem.size (partName a.index) (lshName a.index) ⟨IdxObj.fresh, 0, 0, []⟩ (env.cmp d) dot a.K a.filters) (env.order 0) fs))

end Grann
