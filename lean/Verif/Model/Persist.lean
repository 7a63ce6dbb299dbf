import Verif.Model.BinFile
import Verif.Model.GraphFile
import Verif.Model.LabelFile
import Verif.Model.Search
/-!
# Model of saving and loading a graph index

`ANNIndex::save_data_and_tags_and_labels`, `load_data_and_tags_and_labels` (src/index.cpp:177-233), the
constructor from files (src/index.cpp:74-106), and `save`/`load` of Vamana (src/vamana.cpp:30-134),
RelativeNG (src/relative_ng.cpp:24-83) and HNSW (src/hnsw.cpp:40-110).
-/

namespace Grann

/-- The files of an index saved under one name: `NAME_data.bin`, `NAME_tags.bin`, `NAME_labels.txt`,
`NAME_universal_label.txt`, `NAME_labels_to_medoids.txt`, `NAME`. -/
inductive Part
  | data | tags | labels | univ | medoids | graph
  deriving DecidableEq, Repr

/-- The members of an index object that are saved and loaded (include/index.h:152-175,
include/graph_index.h, include/vamana.h).  `data` are the bytes of `_data`; `seen` are the elements
inserted into `_labels`. -/
structure IdxObj where
  n : Nat
  dim : Nat
  adim : Nat
  data : Bytes
  tags : List Nat
  filtered : Bool
  labels : List (List Label)
  seen : List Label
  useUniv : Bool
  univ : Label
  maxDeg : Nat
  start : Nat
  graph : List (List Nat)
  medoids : List (Label × Nat)
  deriving DecidableEq

/-- An object made by the constructor without files (src/index.cpp:108-114; member initialisers in
include/index.h:152-175); fields that the program leaves uninitialised are arbitrary in the
specifications. -/
def IdxObj.fresh : IdxObj := ⟨0, 0, 0, [], [], false, [], [], true, [48], 0, 0, [], []⟩

/-- Contents of uninitialised memory. -/
structure Junk where
  h1 : Bytes
  h2 : Bytes
  t1 : Bytes
  t2 : Bytes
  mem : Nat → UInt8
  g1 : Bytes
  g2 : Bytes
  g3 : Bytes
  k : Nat → Bytes

/-- The sizes of the variables. -/
def Junk.WF (j : Junk) : Prop :=
  j.h1.length = 4 ∧ j.h2.length = 4 ∧ j.t1.length = 4 ∧ j.t2.length = 4 ∧ j.g1.length = 8 ∧
    j.g2.length = 4 ∧ j.g3.length = 4 ∧ ∀ i, (j.k i).length = 4

/-- `_tag_map` as written by `save_bin(tag_file, _tag_map, _num_points, 1)`. -/
def tagBytes (tags : List Nat) (n : Nat) : Res Bytes :=
  if n ≤ tags.length then .ok (le32s (tags.take n)) else .error .ub

/-- The universal label file (src/index.cpp:191-197). -/
def univOps {P : Type} (nm : Part → P) (o : IdxObj) : List (FOp P) :=
  if o.useUniv then [.create (nm .univ), .append (nm .univ) (o.univ ++ [10])] else [.remove (nm .univ)]

/-- The label files (src/index.cpp:188-200). -/
def labelOps {P : Type} (nm : Part → P) (o : IdxObj) : Res (List (FOp P)) :=
  if o.filtered then do
    let l ← saveLabels (nm .labels) o.labels
    .ok (l ++ univOps nm o)
  else .ok [.remove (nm .labels), .remove (nm .univ)]

/-- `save_data_and_tags_and_labels` (src/index.cpp:178-201). -/
def saveBase {P : Type} (es : Nat) (nm : Part → P) (o : IdxObj) : Res (List (FOp P)) := do
  let d ← saveOrig (nm .data) es o.data o.n o.adim o.dim
  let t ← tagBytes o.tags o.n
  let l ← labelOps nm o
  .ok (d ++ saveBin (nm .tags) o.n 1 t ++ l)

/-- The medoid file (src/vamana.cpp:34-44). -/
def medoidOps {P : Type} (nm : Part → P) (o : IdxObj) : List (FOp P) :=
  if o.filtered && o.medoids.length != 0 then saveMedoids (nm .medoids) o.medoids else []

/-- `Vamana::save` (src/vamana.cpp:31-63). -/
def vamanaSave {P : Type} (es : Nat) (nm : Part → P) (o : IdxObj) : Res (List (FOp P)) := do
  let b ← saveBase es nm o
  let g ← saveGraph (nm .graph) o.n o.maxDeg o.start o.graph
  .ok (b ++ medoidOps nm o ++ g)

/-- `RelativeNG::save` (src/relative_ng.cpp:25-44), and one level of `HNSW::save` (src/hnsw.cpp:45-64). -/
def rngSave {P : Type} (es : Nat) (nm : Part → P) (o : IdxObj) : Res (List (FOp P)) := do
  let b ← saveBase es nm o
  let g ← saveGraph (nm .graph) o.n o.maxDeg o.start o.graph
  .ok (b ++ g)

/-- `HNSW::save` (src/hnsw.cpp:41-65), outermost level first; the file name of a level is formed with its
number. -/
def hnswSave (es : Nat) : List IdxObj → Res (List (FOp (Nat × Part)))
  | [] => .ok []
  | o :: inner => do
    let a ← hnswSave es inner
    let b ← rngSave es (fun p => (inner.length, p)) o
    .ok (a ++ b)

/-- The labels part of `load_data_and_tags_and_labels` (src/index.cpp:219-222). -/
def loadLabels (sortL : List Label → List Label) (file : Option Bytes) (o : IdxObj) : Res IdxObj :=
  match file with
  | none => .ok o
  | some b => do
    let r ← parseLabels sortL (some b) o.labels o.seen o.n
    .ok { o with labels := r.1, seen := r.2, filtered := true }

/-- The universal label part (src/index.cpp:224-230). -/
def loadUniv (file : Option Bytes) (o : IdxObj) : IdxObj :=
  match file with
  | none => o
  | some b => { o with univ := readWord b o.univ, useUniv := true }

/-- `load_data_and_tags_and_labels` (src/index.cpp:204-233) into the object `o0`. -/
def loadBase {P : Type} (sortL : List Label → List Label) (j : Junk) (es : Nat) (nm : Part → P) (fs : FS P)
    (o0 : IdxObj) : Res IdxObj := do
  let (n, dim, adim, data) ← loadAligned es (fs (nm .data)) j.h1 j.h2 j.mem
  let (nt, dt, tags) ← loadBin 4 (fs (nm .tags)) j.t1 j.t2 j.mem
  if nt ≠ n then .error .exit
  else do
    let o ← loadLabels sortL (fs (nm .labels))
      { o0 with n := n, dim := dim, adim := adim, data := data, tags := un32s (nt * dt) tags }
    .ok (loadUniv (fs (nm .univ)) o)

/-- The graph part of `load`; `true` means that a mismatch was reported. -/
def loadGraphInto {P : Type} (j : Junk) (fuel : Nat) (nm : Part → P) (fs : FS P) (o : IdxObj) :
    Res (IdxObj × Bool) := do
  let r ← loadGraph j.k fuel j.g1 j.g2 j.g3 o.graph o.n (fs (nm .graph))
  .ok ({ o with maxDeg := r.maxDeg, start := r.start, graph := r.graph }, r.reported)

/-- `Vamana::load` (src/vamana.cpp:68-134). -/
def vamanaLoad {P : Type} (sortL : List Label → List Label) (j : Junk) (fuel es : Nat) (nm : Part → P)
    (fs : FS P) (o0 : IdxObj) : Res (IdxObj × Bool) := do
  let o ← loadBase sortL j es nm fs o0
  let m ← loadMedoids (fs (nm .medoids)) o.medoids
  loadGraphInto j fuel nm fs { o with medoids := m }

/-- `RelativeNG::load` (src/relative_ng.cpp:49-83), and one level of `HNSW::load` (src/hnsw.cpp:74-110). -/
def rngLoad {P : Type} (sortL : List Label → List Label) (j : Junk) (fuel es : Nat) (nm : Part → P)
    (fs : FS P) (o0 : IdxObj) : Res (IdxObj × Bool) := do
  let o ← loadBase sortL j es nm fs o0
  loadGraphInto j fuel nm fs o

/-- `HNSW::load` (src/hnsw.cpp:70-110) into an object with the given levels, outermost first. -/
def hnswLoad (sortL : List Label → List Label) (j : Junk) (fuel es : Nat) (fs : FS (Nat × Part)) :
    List IdxObj → Res (List (IdxObj × Bool))
  | [] => .ok []
  | o0 :: inner => do
    let a ← hnswLoad sortL j fuel es fs inner
    let b ← rngLoad sortL j fuel es (fun p => (inner.length, p)) fs o0
    .ok (b :: a)

/-- `_tag_map` in the constructor (src/index.cpp:96-101). -/
def ctorTags (tags : List Nat) (n : Nat) : List Nat :=
  if tags.length ≠ 0 then tags else List.range n

/-- The constructor from a data file, tags and a label file (src/index.cpp:74-106); `labelFile = none`
means that the name of the label file is empty, `some none` that the file does not exist. -/
def ctorObj (sortL : List Label → List Label) (j : Junk) (es : Nat) (file : Option Bytes) (tags : List Nat)
    (labelFile : Option (Option Bytes)) : Res IdxObj := do
  let (n, dim, adim, data) ← loadAligned es file j.h1 j.h2 j.mem
  if tags.length ≠ n ∧ tags.length ≠ 0 then .error .throw
  else do
    let o : IdxObj := { IdxObj.fresh with n := n, dim := dim, adim := adim, data := data, tags := ctorTags tags n }
    match labelFile with
    | none => .ok o
    | some f => do
      let r ← parseLabels sortL f [] [] n
      .ok { o with filtered := true, labels := r.1, seen := r.2 }

/-- The vectors of an object: row `i` of `_data`. -/
def IdxObj.rows (es : Nat) (o : IdxObj) : List Bytes :=
  (List.range o.n).map (fun i => (o.data.drop (i * (o.adim * es))).take (o.adim * es))

/-- The part of an object that the searches read; the distance function is determined by the metric given
to the constructor. -/
def IdxObj.view (es : Nat) (cmp : Bytes → Bytes → F32) (o : IdxObj) : GIdx Bytes where
  ctx := { data := o.rows es, labels := o.labels, useUniv := o.useUniv, univ := o.univ, cmp := cmp }
  tags := o.tags
  graph := o.graph
  start := o.start
  medoids := o.medoids

end Grann
