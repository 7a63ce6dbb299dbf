import Verif.Model.BinFile
import Verif.Model.Truthset
import Verif.Model.Stats
import Verif.Model.Persist
import Verif.Model.IvfFile
import Verif.Model.LshFile
/-!
# Model of the search programs (tests/search_vamana.cpp, search_hnsw.cpp, search_relng.cpp, search_ivf.cpp, search_lsh.cpp)

The programs differ in the index they load and in the smallest search parameter they accept.  Numbers of the command line are given
as the 64-bit unsigned numbers they are converted to.  Not modelled: what is printed besides the recall, times, and the conversion of
the recall to `float`.  The vector of a query counts as read by its search, even if the search compares it with nothing (a filter
without known label).
-/

namespace Grann

/-- A search for one query: it gets the vector, the two output arrays from the slots of the query on, and gives their new
contents and the returned count. -/
abbrev SearchFn := Bytes → List Nat → List F32 → Res (List Nat × List F32 × Nat)

/-- One iteration of the parallel loop (tests/search_vamana.cpp:126-135): the pointers are `query + i * query_aligned_dim` and
`data() + i * recall_at`; the search reads as many elements of the query as the vectors of the index have.  The returned count is not
used. -/
def progQuery (es qadim adim K : Nat) (qbuf : Bytes) (search : SearchFn) (a : List Nat × List F32) (i : Nat) :
    Res (List Nat × List F32) := do
  let q ← slice qbuf (i * qadim * es) (adim * es)
  let (x, y, _) ← search q (a.1.drop (i * K)) (a.2.drop (i * K))
  .ok (a.1.take (i * K) ++ x, a.2.take (i * K) ++ y)

/-- 0.999 as `double` (tests/search_vamana.cpp:172) and as `float` (include/percentile_stats.h:35-50). -/
def p999 (prec : Nat) : Nat × Nat := roundBin prec (999, 1000)

/-- The accesses to the sorted times and counts (tests/search_vamana.cpp:147-172). -/
def progStats (nq : Nat) : Res Unit := do
  let _ ← rd (List.replicate nq ()) (pctIndex 24 (p999 24) nq)
  rd (List.replicate nq ()) (pctIndex 53 (p999 53) nq)

/-- The ground truth is read if the file exists (tests/search_vamana.cpp:84-91). -/
def progTruth (file : Option Bytes) (jt : TruthJunk) : Res (Option Truth) :=
  match file with
  | none => .ok none
  | some b => do
    let t ← loadTruth (some b) jt
    .ok (some t)

/-- The recall (tests/search_vamana.cpp:141-145). -/
def progRecall (K nq : Nat) (ids : List Nat) (truth : Option Truth) : Res (Option (Nat × Nat)) :=
  match truth with
  | none => .ok none
  | some t => do
    let v ← calculateRecall nq t.ids t.dists t.dim ids (u32 K) (u32 K)
    .ok (some v)

/-- The searches for one value of the search parameter (tests/search_vamana.cpp:116-176).  `order` is the order in which the threads do
the queries.  `resize` throws above 2^61 - 1 elements.  Result: the identifiers and the recall. -/
def progRound (es qadim adim K nq : Nat) (qbuf : Bytes) (search : SearchFn) (order : List Nat) (truth : Option Truth) :
    Res (List Nat × Option (Nat × Nat)) :=
  if 2305843009213693951 < u64 (K * nq) then .error .throw
  else do
    let a ← order.foldlM (progQuery es qadim adim K qbuf search)
      (List.replicate (u64 (K * nq)) 0, List.replicate (u64 (K * nq)) F32.zero)
    let r ← progRecall K nq a.1 truth
    progStats nq
    .ok (a.1, r)

/-- The files of a run: queries, ground truth, and the results for each value of the search parameter. -/
structure ProgFiles (P : Type) where
  query : P
  truth : P
  res : Nat → P

/-- `search_index` (tests/search_vamana.cpp:21-190, tests/search_ivf.cpp:21-168, ...) from the treatment of the search parameters `Ls` on:
those below `minL` are left out (`K` for the graph indices, 1 for IVF); `load` gives the rounded dimension of the index and its search.
Result: the recall for each search parameter and the operations that write the results, or `none` if no search parameter is left. -/
def searchProg {P : Type} (f : ProgFiles P) (es K minL : Nat) (Ls : List Nat) (h1 h2 : Bytes) (mem : Nat → UInt8) (jt : TruthJunk)
    (load : FS P → Res (Nat × (Nat → SearchFn))) (order : Nat → List Nat) (fs : FS P) :
    Res (Option (List (Option (Nat × Nat)) × List (FOp P))) :=
  let Ls := Ls.filter (fun L => minL ≤ L)
  if Ls.length = 0 then .ok none
  else do
    let (nq, _, qadim, qbuf) ← loadAligned es (fs f.query) h1 h2 mem
    let truth ← progTruth (fs f.truth) jt
    let (adim, search) ← load fs
    let rounds ← Ls.zipIdx.mapM (fun x => progRound es qadim adim K nq qbuf (search (u32 x.1)) (order x.2) truth)
    .ok (some (rounds.map Prod.snd, (Ls.zip rounds).flatMap (fun x => saveBin (f.res x.1) nq K (le32s x.2.1))))

/-- Loading and searching in tests/search_vamana.cpp:96-97 and 128-131: the object is made without files and then loaded; the message about a
graph of another size is ignored. -/
def vamanaProg {P : Type} (sortL : List Label → List Label) (j : Junk) (fuel es : Nat) (nm : Part → P) (o0 : IdxObj)
    (cmp : Bytes → Bytes → F32) (sortF : List Nbr → List Nbr) (K : Nat) (filters : List Label) (fs : FS P) :
    Res (Nat × (Nat → SearchFn)) := do
  let (o, _) ← vamanaLoad sortL j fuel es nm fs o0
  .ok (o.adim, fun L q ind dst => vamanaSearch sortF (o.view es cmp) q (u32 K) L ind dst filters)

/-- Loading and searching in tests/search_relng.cpp:90-92 and 123-127: the object is made from the data file `pd` without tags and then
loaded; there are no filters. -/
def rngProg {P : Type} (sortL : List Label → List Label) (j0 j : Junk) (fuel es : Nat) (pd : P) (nm : Part → P)
    (cmp : Bytes → Bytes → F32) (sortF : List Nbr → List Nbr) (K : Nat) (fs : FS P) :
    Res (Nat × (Nat → SearchFn)) := do
  let o0 ← ctorObj sortL j0 es (fs pd) [] none
  let (o, _) ← rngLoad sortL j fuel es nm fs o0
  .ok (o.adim, fun L q ind dst => rngSearch sortF (o.view es cmp) q (u32 K) L ind dst [])

/-- Loading and searching in tests/search_hnsw.cpp:90-91 and 122-125: `levels` objects are made without files and then loaded; there are
no filters. -/
def hnswProg {P : Type} (sortL : List Label → List Label) (j : Junk) (fuel es : Nat) (nm : Nat × Part → P) (o0s : List IdxObj)
    (cmp : Bytes → Bytes → F32) (sortF : List Nbr → List Nbr) (K : Nat) (fs : FS P) : Res (Nat × (Nat → SearchFn)) := do
  let os ← hnswLoad sortL j fuel es (fun p => fs (nm p)) o0s
  let o ← rd os 0
  .ok (o.1.adim, fun L q ind dst => hnswSearch sortF q (u32 K) L (os.map (fun x => x.1.view es cmp)) ind dst [])

/-- Loading and searching in tests/search_ivf.cpp:73-74 and 106-109; the search parameter is the number of clusters to look into. -/
def ivfProg {P : Type} (sortL : List Label → List Label) (j : Junk) (es : Nat) (nm : Part → P) (pc : P) (o0 : IvfObj)
    (cmp : Bytes → Bytes → F32) (cdist : Bytes → Nat → Nat → Bytes → List F32) (pops : List F32 → List Nat) (K : Nat)
    (filters : List Label) (fs : FS P) : Res (Nat × (Nat → SearchFn)) := do
  let o ← ivfLoad sortL j es nm pc fs o0
  .ok (o.base.adim, fun L q ind dst => do
    let (x, y, c) ← ivfSearch pops (o.view es cmp cdist) q (u32 K) L ind (some dst) filters
    .ok (x, y.getD dst, c))

/-! ## LSH: the searches change the tables -/

/-- One iteration of the loop of tests/search_lsh.cpp:105-114, like `progQuery`; a search gives the state of the index after it, too. -/
def progQueryS {σ : Type} (es qadim adim K : Nat) (qbuf : Bytes) (search : σ → Bytes → List Nat → List F32 → Res (σ × List Nat × List F32))
    (a : σ × List Nat × List F32) (i : Nat) : Res (σ × List Nat × List F32) := do
  let q ← slice qbuf (i * qadim * es) (adim * es)
  let (t, x, y) ← search a.1 q (a.2.1.drop (i * K)) (a.2.2.drop (i * K))
  .ok (t, a.2.1.take (i * K) ++ x, a.2.2.take (i * K) ++ y)

/-- `search_index` (tests/search_lsh.cpp:19-169): there is one round, whose search parameter is 1 and not used by the searches.  The searches take effect one
after the other; where that is not so, they race (C77). -/
def searchProgS {P σ : Type} (f : ProgFiles P) (es K : Nat) (h1 h2 : Bytes) (mem : Nat → UInt8) (jt : TruthJunk)
    (load : FS P → Res (Nat × σ × (σ → Bytes → List Nat → List F32 → Res (σ × List Nat × List F32)))) (order : List Nat) (fs : FS P) :
    Res (Option (Nat × Nat) × List (FOp P)) := do
  let (nq, _, qadim, qbuf) ← loadAligned es (fs f.query) h1 h2 mem
  let truth ← progTruth (fs f.truth) jt
  let (adim, t, search) ← load fs
  if 2305843009213693951 < u64 (K * nq) then .error .throw
  else do
    let a ← order.foldlM (progQueryS es qadim adim K qbuf search)
      (t, List.replicate (u64 (K * nq)) 0, List.replicate (u64 (K * nq)) F32.zero)
    let r ← progRecall K nq a.2.1 truth
    progStats nq
    .ok (r, saveBin (f.res 1) nq K (le32s a.2.1))

/-- Loading and searching in tests/search_lsh.cpp:74-75 and 107-110. -/
def lshProg {P : Type} (sortL : List Label → List Label) (j : Junk) (jl : LshJunk) (es : Nat) (nm : Part → P) (pc : P) (o0 : LshObj)
    (cmp dot : Bytes → Bytes → F32) (K : Nat) (filters : List Label) (fs : FS P) : Res (Nat × List (HTable Bytes) ×
      (List (HTable Bytes) → Bytes → List Nat → List F32 → Res (List (HTable Bytes) × List Nat × List F32))) := do
  let o ← lshLoad sortL j jl es nm pc fs o0
  .ok (o.base.adim, o.tables, fun ts q ind dst => do
    let (ts', x, y, _) ← lshSearch dot (o.base.view es cmp).ctx ts q (u32 K) ind (some dst) filters
    .ok (ts', x, y.getD dst))

end Grann
