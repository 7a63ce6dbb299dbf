import Verif.Model.Persist
import Verif.Model.Lsh
/-!
# Model of `HashTable::write_to_file`, `LSHIndex::save` and `LSHIndex::load` (src/lsh.cpp:74-105, 191-304)

A hyperplane is the list of its bytes (`_aligned_dim` floats).
-/

namespace Grann

/-- The members of an LSH index (include/lsh.h): those of the base class, `num_tables`, `table_size`,
`tables`. -/
structure LshObj where
  base : IdxObj
  numTables : Nat
  tableSize : Nat
  tables : List (HTable Bytes)

/-- One bucket (src/lsh.cpp:92-101). -/
def bucketBytes (b : Nat × List Nat) : Bytes := le 8 b.1 ++ (le 4 (u32 b.2.length) ++ le32s b.2)

/-- `HashTable::write_to_file` (src/lsh.cpp:74-105): '@', the hyperplanes, '%', the number of buckets, the
buckets in ascending order of key, '$'. -/
def tableBytes (t : HTable Bytes) : Bytes :=
  [64] ++ (t.hps.flatten ++ ([37] ++ (le 4 (u32 t.buckets.length) ++
    (t.buckets.flatMap bucketBytes ++ [36]))))

/-- `LSHIndex<T>::save` (src/lsh.cpp:192-215); `p` is the name with `_index.bin`. -/
def lshSave {P : Type} (es : Nat) (nm : Part → P) (p : P) (o : LshObj) : Res (List (FOp P)) := do
  let b ← saveBase es nm o.base
  .ok (b ++ ([.create p, .append p [42], .append p (le 4 o.numTables), .append p (le 4 o.tableSize)] ++
    o.tables.map (fun t => .append p (tableBytes t))))

/-- `in.get(c)`: `c` keeps its value if no character can be read. -/
def IStream.get (s : IStream) (old : UInt8) : UInt8 × IStream :=
  let (b, s') := s.read 1
  (b.headD old, s')

/-- Uninitialised variables of `LSHIndex::load`. -/
structure LshJunk where
  c : UInt8
  w : Bytes
  q : Bytes

/-- The sizes of the variables. -/
def LshJunk.WF (j : LshJunk) : Prop := j.w.length = 4 ∧ j.q.length = 8

/-- `n` floats (src/lsh.cpp:259-263). -/
def readFloats (j : LshJunk) : Nat → IStream → Bytes × IStream
  | 0, s => ([], s)
  | n + 1, s =>
    let (b, s1) := s.read 4
    let (l, s2) := readFloats j n s1
    ((b ++ j.w.drop b.length) ++ l, s2)

/-- The hyperplanes (src/lsh.cpp:257-265). -/
def readHps (j : LshJunk) (adim : Nat) : Nat → IStream → List Bytes × IStream
  | 0, s => ([], s)
  | n + 1, s =>
    let (h, s1) := readFloats j adim s
    let (l, s2) := readHps j adim n s1
    (h :: l, s2)

/-- The points of one bucket are read and added (src/lsh.cpp:286-290). -/
def readIds (j : LshJunk) (key : Nat) : Nat → IStream → Buckets → Buckets × IStream
  | 0, s, b => (b, s)
  | n + 1, s, b =>
    let (id, s1) := s.readInt j.w
    readIds j key n s1 (b.push key [id])

/-- The buckets (src/lsh.cpp:280-291). -/
def readBuckets (j : LshJunk) : Nat → IStream → Buckets → Buckets × IStream
  | 0, s, b => (b, s)
  | n + 1, s, b =>
    let (key, s1) := s.readInt j.q
    let (sz, s2) := s1.readInt j.w
    let (b', s3) := readIds j key sz s2 b
    readBuckets j n s3 b'

/-- The tables (src/lsh.cpp:243-303); `exit(1)` if a marker is wrong or the table size exceeds 64. -/
def readTables (j : LshJunk) (tableSize adim : Nat) : Nat → IStream → Res (List (HTable Bytes))
  | 0, _ => .ok []
  | n + 1, s =>
    let (start, s) := s.get j.c
    if start ≠ 64 then .error .exit
    else if tableSize > 64 then .error .exit
    else
      let (hps, s) := readHps j adim tableSize s
      let (mid, s) := s.get j.c
      if mid ≠ 37 then .error .exit
      else
        let (nb, s) := s.readInt j.w
        let (b, s) := readBuckets j nb s []
        let (fin, s) := s.get j.c
        if fin ≠ 36 then .error .exit
        else do
          let ts ← readTables j tableSize adim n s
          .ok (⟨hps, tableSize, b⟩ :: ts)

/-- `LSHIndex<T>::load` (src/lsh.cpp:218-304) into the object `o0`; the members `num_tables` and
`table_size` are not assigned. -/
def lshLoad {P : Type} (sortL : List Label → List Label) (j : Junk) (jl : LshJunk) (es : Nat)
    (nm : Part → P) (p : P) (fs : FS P) (o0 : LshObj) : Res LshObj := do
  let b ← loadBase sortL j es nm fs o0.base
  let (begin, s) := (IStream.open (fs p)).get jl.c
  if begin ≠ 42 then .error .exit
  else do
    let (nt, s) := s.readInt jl.w
    let (sz, s) := s.readInt jl.w
    let ts ← readTables jl sz b.adim nt s
    .ok { o0 with base := b, tables := ts }

end Grann
