import Verif.Model.Persist
import Verif.Model.Ivf
/-!
# Model of `IVFIndex::save` and `IVFIndex::load` (src/ivf.cpp:34-83)
-/

namespace Grann

/-- The members of an IVF index: those of the base class, `_num_clusters`, the bytes of
`_cluster_centers`, `_inverted_index` (include/ivf.h). -/
structure IvfObj where
  base : IdxObj
  nc : Nat
  centers : Bytes
  inv : List (List Nat)

/-- `IVFIndex<T>::save` (src/ivf.cpp:35-57).  `nm .graph` is the name itself, `pc` is the name with
`_centers.bin`. -/
def ivfSave {P : Type} (es : Nat) (nm : Part → P) (pc : P) (o : IvfObj) : Res (List (FOp P)) := do
  let b ← saveBase es nm o.base
  let c ← slice o.centers 0 (o.nc * o.base.adim * 4)
  let rows ← (List.range o.nc).mapM (rd o.inv)
  .ok (b ++ saveBin pc o.nc o.base.adim c ++ ([.create (nm .graph)] ++ rows.flatMap (nodeOps (nm .graph))))

/-- One `_inverted_index[i]` is read (src/ivf.cpp:73-77): it had the contents `old`, is resized to the number
read, and the bytes that are there are stored. -/
def readList (s : IStream) (junk : Bytes) (old : List Nat) : List Nat × IStream :=
  let (k, s1) := s.readInt junk
  let (b, s2) := s1.read (k * 4)
  let cells := le32s (old.take k ++ List.replicate (k - old.length) 0)
  (un32s k (b ++ cells.drop b.length), s2)

/-- The reading loop (src/ivf.cpp:72-79) over the lists `old` (after `resize`). -/
def readLists (junk : Nat → Bytes) : List (List Nat) → IStream → List (List Nat)
  | [], _ => []
  | old :: olds, s =>
    let (l, s') := readList s (junk olds.length) old
    l :: readLists junk olds s'

/-- `IVFIndex<T>::load` (src/ivf.cpp:60-83) into the object `o0`. -/
def ivfLoad {P : Type} (sortL : List Label → List Label) (j : Junk) (es : Nat) (nm : Part → P) (pc : P)
    (fs : FS P) (o0 : IvfObj) : Res IvfObj := do
  let b ← loadBase sortL j es nm fs o0.base
  let (nc, _, _, centers) ← loadAligned 4 (fs pc) j.h1 j.h2 j.mem
  let olds := o0.inv.take nc ++ List.replicate (nc - o0.inv.length) []
  .ok ⟨b, nc, centers, readLists j.k olds (IStream.open (fs (nm .graph)))⟩

/-- What a search reads.  `cdist` computes the distances of a vector to the centres from the bytes of the
centres, their number and their dimension. -/
def IvfObj.view (es : Nat) (cmp : Bytes → Bytes → F32) (cdist : Bytes → Nat → Nat → Bytes → List F32)
    (o : IvfObj) : Ivf Bytes where
  ctx := (o.base.view es cmp).ctx
  tags := o.base.tags
  nc := o.nc
  inv := o.inv
  centreDist := cdist o.centers o.nc o.base.adim

end Grann
