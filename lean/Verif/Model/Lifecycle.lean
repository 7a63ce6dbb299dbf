import Verif.Basic.Res
/-!
# Model of the memory owned by an index object

Blocks of memory are numbered; the heap remembers which are live and how they were allocated.  Sizes and contents are
left out, and so are the containers of the standard library, which manage their own memory.  A pointer member without
initialiser is uninitialised until it is assigned.
-/

namespace Grann

/-- How a block was allocated: `aligned_alloc` (released by `free`), `new T[]` (released by `delete[]`), `new T`
(released by `delete`). -/
inductive Alloc
  | malloc
  | arr
  | obj
  deriving DecidableEq, Repr

/-- A pointer variable. -/
inductive Ptr
  | uninit
  | null
  | mem (b : Nat)
  deriving DecidableEq, Repr

/-- The heap: the live blocks, and a number not used so far. -/
structure Heap where
  live : List (Nat × Alloc)
  next : Nat
  deriving DecidableEq, Repr

/-- Allocation. -/
def Heap.alloc (h : Heap) (k : Alloc) : Ptr × Heap := (.mem h.next, ⟨(h.next, k) :: h.live, h.next + 1⟩)

/-- Releasing with the function for `k`: undefined for an uninitialised pointer, for a block that is not live and for
a block allocated in another way; a null pointer is ignored. -/
def Heap.free (h : Heap) (k : Alloc) : Ptr → Res Heap
  | .uninit => .error .ub
  | .null => .ok h
  | .mem b => if (b, k) ∈ h.live then .ok { h with live := h.live.erase (b, k) } else .error .ub

/-- The pointers of an index object: the members of `ANNIndex` (include/index.h:153-158) and `_cluster_centers` of
`IVFIndex` (include/ivf.h:34; unused by the other classes). -/
structure Idx where
  dist : Ptr
  distF : Ptr
  tags : Ptr
  data : Ptr
  centers : Ptr
  deriving DecidableEq, Repr

/-- The constructor with a data file (src/index.cpp:75-106), when it succeeds; `_cluster_centers` is not initialised
(src/ivf.cpp:14-20). -/
def Idx.ofData (h : Heap) : Idx × Heap :=
  let (data, h) := h.alloc .malloc
  let (dist, h) := h.alloc .obj
  let (distF, h) := h.alloc .obj
  let (tags, h) := h.alloc .arr
  (⟨dist, distF, tags, data, .uninit⟩, h)

/-- The constructor without data (src/index.cpp:108-114); `_data` is not initialised. -/
def Idx.empty (h : Heap) : Idx × Heap :=
  let (dist, h) := h.alloc .obj
  let (distF, h) := h.alloc .obj
  (⟨dist, distF, .null, .uninit, .uninit⟩, h)

/-- What happens to an object between its construction and its destruction.  `build ok`: `ok` is false if a parameter
is missing, then an exception is thrown before anything is changed.  `load n`: the files are read in the order data,
tags, centres (src/index.cpp:204-220, src/ivf.cpp:60-67), and an exception is thrown at the `n`-th of them, counting
from 0. -/
inductive Ev
  | build (ok : Bool)
  | load (n : Nat)
  deriving DecidableEq, Repr

/-- `build` (src/ivf.cpp:86-91): an IVF index allocates its centres; Vamana, RelativeNG and LSH allocate no memory by
hand that outlives the call.  Every class reads `_aligned_dim`, which is uninitialised in an empty object that never
got as far as its data file. -/
def Idx.build (ivf ok : Bool) (x : Idx) (h : Heap) : Res (Idx × Heap) :=
  if ok = false then .ok (x, h)
  else if x.data = .uninit then .error .ub
  else if ivf then .ok ({ x with centers := (h.alloc .arr).1 }, (h.alloc .arr).2)
  else .ok (x, h)

/-- The centres of an IVF index (src/ivf.cpp:66). -/
def Idx.loadCenters (x : Idx) (h : Heap) : Idx × Heap :=
  ({ x with centers := (h.alloc .malloc).1 }, (h.alloc .malloc).2)

/-- The tags (src/index.cpp:213; `load_bin` at include/utils.h:98 uses `new T[]`). -/
def Idx.loadTags (x : Idx) (h : Heap) : Idx × Heap := ({ x with tags := (h.alloc .arr).1 }, (h.alloc .arr).2)

/-- The vectors (src/index.cpp:211; `load_aligned_bin` at include/utils.h:244 uses `aligned_alloc`). -/
def Idx.loadData (x : Idx) (h : Heap) : Idx × Heap := ({ x with data := (h.alloc .malloc).1 }, (h.alloc .malloc).2)

/-- `load` (src/index.cpp:204-233, src/ivf.cpp:60-67).  The old blocks are not released. -/
def Idx.load (ivf : Bool) (n : Nat) (x : Idx) (h : Heap) : Idx × Heap :=
  let s := (x, h)
  let s := if 0 < n then s.1.loadData s.2 else s
  let s := if 1 < n then s.1.loadTags s.2 else s
  if 2 < n ∧ ivf then s.1.loadCenters s.2 else s

def Idx.step (ivf : Bool) (s : Idx × Heap) : Ev → Res (Idx × Heap)
  | .build ok => s.1.build ivf ok s.2
  | .load n => .ok (s.1.load ivf n s.2)

/-- `~IVFIndex` (src/ivf.cpp:28-32). -/
def Idx.destroyCenters (ivf : Bool) (x : Idx) (h : Heap) : Res Heap := if ivf then h.free .arr x.centers else .ok h

/-- The destructors: `~IVFIndex` (src/ivf.cpp:28-32), then `~ANNIndex` (src/index.cpp:116-122, `aligned_free` at
include/utils.h:29-40). -/
def Idx.destroy (ivf : Bool) (x : Idx) (h : Heap) : Res Heap := do
  let h ← x.destroyCenters ivf h
  let h ← h.free .obj x.dist
  let h ← h.free .obj x.distF
  let h ← h.free .malloc x.data
  h.free .arr x.tags

/-- A life: construction (with data or empty), events, destruction.  The result is the heap. -/
def Idx.life (ivf ofData : Bool) (evs : List Ev) (h : Heap) : Res Heap := do
  let s ← evs.foldlM (Idx.step ivf) (if ofData then Idx.ofData h else Idx.empty h)
  s.1.destroy ivf s.2

/-! ## HNSW -/

/-- An HNSW object: level 0; level `n + 1` without inner index (`_inner_index` null); a higher level with an inner
index, the object made by `new` in block `b`. -/
inductive Hn
  | bot (x : Idx)
  | nul (x : Idx) (n : Nat)
  | on (x : Idx) (b : Nat) (inner : Hn)
  deriving DecidableEq, Repr

/-- `_cur_level_number`. -/
def Hn.level : Hn → Nat
  | .bot _ => 0
  | .nul _ n => n + 1
  | .on _ _ i => i.level + 1

/-- The members of the outermost object. -/
def Hn.top : Hn → Idx
  | .bot x => x
  | .nul x _ => x
  | .on x _ _ => x

/-- The constructor without data (src/hnsw.cpp:22-29). -/
def Hn.empty : Nat → Heap → Hn × Heap
  | 0, h => (.bot (Idx.empty h).1, (Idx.empty h).2)
  | n + 1, h =>
    let s := Idx.empty h
    let r := Hn.empty n (s.2.alloc .obj).2
    (.on s.1 s.2.next r.1, r.2)

/-- The constructor with data (src/hnsw.cpp:13-20): no inner index. -/
def Hn.ofData : Nat → Heap → Hn × Heap
  | 0, h => (.bot (Idx.ofData h).1, (Idx.ofData h).2)
  | n + 1, h => (.nul (Idx.ofData h).1 n, (Idx.ofData h).2)

/-- An inner index of level `n` made and built by the `build` of the level above (src/hnsw.cpp:140-143). -/
def Hn.built : Nat → Heap → Hn × Heap
  | 0, h => (.bot (Idx.ofData h).1, (Idx.ofData h).2)
  | n + 1, h =>
    let s := Idx.ofData h
    let r := Hn.built n (s.2.alloc .obj).2
    (.on s.1 s.2.next r.1, r.2)

/-- `build` (src/hnsw.cpp:122-144), as far as memory is concerned: the inner index is replaced, the old one is not
destroyed.  `ok` is false if a parameter is missing; then nothing is changed. -/
def Hn.build (ok : Bool) (o : Hn) (h : Heap) : Res (Hn × Heap) :=
  if ok = false then .ok (o, h)
  else if o.top.data = .uninit then .error .ub
  else match o with
    | .bot x => .ok (.bot x, h)
    | .nul x n =>
      let r := Hn.built n (h.alloc .obj).2
      .ok (.on x h.next r.1, r.2)
    | .on x _ i =>
      let r := Hn.built i.level (h.alloc .obj).2
      .ok (.on x h.next r.1, r.2)

/-- `load` (src/hnsw.cpp:69-76): the inner index is loaded first, through a pointer that may be null; `ns l` tells at
which file the base class throws on level `l`.  The last component tells that nothing was thrown. -/
def Hn.load (ns : Nat → Nat) : Hn → Heap → Res (Hn × Heap × Bool)
  | .bot x, h =>
    let s := x.load false (ns 0) h
    .ok (.bot s.1, s.2, decide (1 < ns 0))
  | .nul _ _, _ => .error .ub
  | .on x b i, h => do
    let r ← Hn.load ns i h
    if r.2.2 then
      let s := x.load false (ns (i.level + 1)) r.2.1
      .ok (.on s.1 b r.1, s.2, decide (1 < ns (i.level + 1)))
    else .ok (.on x b r.1, r.2.1, false)

/-- The destructors (src/hnsw.cpp:31-35, src/index.cpp:116-122): the inner index first; deleting null does nothing. -/
def Hn.destroy : Hn → Heap → Res Heap
  | .bot x, h => x.destroy false h
  | .nul x _, h => x.destroy false h
  | .on x b i, h => do
    let h ← Hn.destroy i h
    let h ← h.free .obj (.mem b)
    x.destroy false h

/-- What happens to an HNSW object. -/
inductive HEv
  | build (ok : Bool)
  | load (ns : Nat → Nat)

def Hn.step (s : Hn × Heap) : HEv → Res (Hn × Heap)
  | .build ok => s.1.build ok s.2
  | .load ns => do
    let r ← s.1.load ns s.2
    .ok (r.1, r.2.1)

/-- The life of an HNSW object of level `n`. -/
def Hn.life (n : Nat) (ofData : Bool) (evs : List HEv) (h : Heap) : Res Heap := do
  let s ← evs.foldlM Hn.step (if ofData then Hn.ofData n h else Hn.empty n h)
  s.1.destroy s.2

end Grann
