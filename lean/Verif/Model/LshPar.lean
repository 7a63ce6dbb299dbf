import Verif.Model.Lsh
/-!
# LSH searches that run at the same time

tests/search_lsh.cpp:104-114 calls `LSHIndex::search` (src/lsh.cpp:151-189) from many threads.  A search
looks its query up in one table after the other with `hashed_vectors[key]` (src/lsh.cpp:42-44), which
inserts an empty bucket when there is none.  Every lookup is split into the steps of `std::map::operator[]`:
finding the place in the tree, inserting a node there if the key is absent, and copying the bucket.
The rest of a search (the scan of the candidates) works on private and constant data only.
-/

namespace Grann

/-- The tree has a node with this key. -/
def Buckets.has (b : Buckets) (key : Nat) : Bool := b.any (fun p => p.1 == key)

/-- How far one search has come; `acc` are the candidates so far (src/lsh.cpp:157-162). -/
inductive LTask
  /-- about to look up table `j` -/
  | find (j : Nat) (acc : List Nat)
  /-- the place for a new node was found when the tree was `seen` -/
  | ins (j key : Nat) (seen : Buckets) (acc : List Nat)
  /-- the node exists, its bucket is copied next -/
  | copy (j key : Nat) (acc : List Nat)
  | done (acc : List Nat)
  deriving DecidableEq, Repr

structure LPar (H : Type) where
  tabs : List (HTable H)
  ts : List LTask
  deriving DecidableEq, Repr

/-- All searches are about to start. -/
def LPar.start {H : Type} (tabs : List (HTable H)) (n : Nat) : LPar H := ⟨tabs, List.replicate n (.find 0 [])⟩

/-- One step of search `i`, whose query is `qs[i]`. Inserting at a place found in a tree that has changed
since destroys the tree: undefined. -/
def lparStep {H V : Type} (dot : H → V → F32) (qs : List V) (s : LPar H) (i : Nat) : Res (LPar H) :=
  match s.ts[i]? with
  | none => .ok s
  | some (.done _) => .ok s
  | some (.find j acc) =>
    match s.tabs[j]? with
    | none => .ok { s with ts := s.ts.set i (.done acc) }
    | some t => do
      let q ← rd qs i
      let key ← getHash dot t q
      .ok { s with ts := s.ts.set i (if t.buckets.has key then .copy j key acc else .ins j key t.buckets acc) }
  | some (.ins j key seen acc) => do
    let t ← rd s.tabs j
    if t.buckets = seen then
      .ok ⟨s.tabs.set j { t with buckets := t.buckets.push key [] }, s.ts.set i (.copy j key acc)⟩
    else .error .ub
  | some (.copy j key acc) => do
    let t ← rd s.tabs j
    .ok { s with ts := s.ts.set i (.find (j + 1) (acc ++ t.buckets.get key)) }

def lparRun {H V : Type} (dot : H → V → F32) (qs : List V) : List Nat → LPar H → Res (LPar H)
  | [], s => .ok s
  | i :: is, s => do
    let s' ← lparStep dot qs s i
    lparRun dot qs is s'

/-- Memory locations: the nodes of the tree of a table (links, keys, size), the bucket of one node. -/
inductive LCell
  | tree (j : Nat)
  | val (j key : Nat)
  deriving DecidableEq, Repr

/-- What the next step of search `i` reads (`false`) and writes (`true`) of the shared data. -/
def LPar.touches {H : Type} (s : LPar H) (i : Nat) : List (LCell × Bool) :=
  match s.ts[i]? with
  | some (.find j _) => if j < s.tabs.length then [(.tree j, false)] else []
  | some (.ins j key _ _) => [(.tree j, true), (.val j key, true)]
  | some (.copy j key _) => [(.val j key, false)]
  | _ => []

/-- The next steps of two different searches access the same location, and one of them writes. -/
def LPar.Racy {H : Type} (s : LPar H) : Prop :=
  ∃ i j, i ≠ j ∧ ∃ a ∈ s.touches i, ∃ b ∈ s.touches j, a.1 = b.1 ∧ (a.2 || b.2) = true

end Grann
