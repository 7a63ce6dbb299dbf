import Verif.Model.Ivf
/-!
# Model of `HashTable` and `LSHIndex` (src/lsh.cpp), without files
-/

namespace Grann

/-- `std::map<size_t, std::vector<_u32>>` (include/lsh.h): key/value pairs in ascending order of key. -/
abbrev Buckets := List (Nat × List Nat)

/-- `hashed_vectors[key].push_back(v)` for every `v` of `vs`; with `vs = []` this is the plain access
`hashed_vectors[key]`, which creates an empty bucket if there is none (src/lsh.cpp:43, 67). -/
def Buckets.push : Buckets → Nat → List Nat → Buckets
  | [], key, vs => [(key, vs)]
  | (k, l) :: b, key, vs =>
    if key < k then (key, vs) :: (k, l) :: b
    else if k = key then (k, l ++ vs) :: b
    else (k, l) :: Buckets.push b key vs

/-- The value found at `key` (src/lsh.cpp:43); empty if absent. -/
def Buckets.get : Buckets → Nat → List Nat
  | [], _ => []
  | (k, l) :: b, key => if k = key then l else Buckets.get b key

/-- One `HashTable` (include/lsh.h): hyperplanes (abstract type `H`), `table_size`, buckets. -/
structure HTable (H : Type) where
  hps : List H
  size : Nat
  buckets : Buckets
  deriving DecidableEq, Repr

/-- `HashTable::get_hash` (src/lsh.cpp:46-64) followed by `to_ulong`: bit `i` is set when the dot product
with hyperplane `i` is positive.  `dot` is the loop of src/lsh.cpp:52-56. -/
def getHash {H V : Type} (dot : H → V → F32) (t : HTable H) (v : V) : Res Nat := do
  let hs ← rdList t.hps 0 t.size
  .ok (hs.foldr (fun h acc => (if F32.zero.lt (dot h v) then 1 else 0) + 2 * acc) 0)

/-- `HashTable::add_vector` (src/lsh.cpp:66-68). -/
def HTable.add {H : Type} (t : HTable H) (hash id : Nat) : HTable H :=
  { t with buckets := t.buckets.push hash [id] }

/-- Adding every point to one table (src/lsh.cpp:142-146). -/
def lshFill {H V : Type} (dot : H → V → F32) (data : List V) (tags : List Nat) (t : HTable H) :
    Res (HTable H) :=
  (data.zipIdx).foldlM (fun t p => do
    let h ← getHash dot t p.1
    let tag ← rd tags p.2
    .ok (t.add h tag)) t

/-- `LSHIndex<T>::build` (src/lsh.cpp:129-148) with the given random hyperplanes, one list of `tableSize`
hyperplanes per table; `exit(1)` if `tableSize > 64` (src/lsh.cpp:13-16). -/
def lshBuild {H V : Type} (dot : H → V → F32) (data : List V) (tags : List Nat) (tableSize : Nat)
    (hps : List (List H)) : Res (List (HTable H)) := do
  let ts ← hps.mapM (fun h => if tableSize > 64 then (.error .exit : Res (HTable H))
    else .ok ⟨h, tableSize, []⟩)
  ts.mapM (lshFill dot data tags)

/-- Looking up the query in every table (src/lsh.cpp:158-162): the tables afterwards (a lookup may have
created an empty bucket) and the candidates. -/
def lshCands {H V : Type} (dot : H → V → F32) (q : V) :
    List (HTable H) → Res (List (HTable H) × List Nat)
  | [] => .ok ([], [])
  | t :: ts => do
    let h ← getHash dot t q
    let t' : HTable H := { t with buckets := t.buckets.push h [] }
    let (ts', cs) ← lshCands dot q ts
    .ok (t' :: ts', t'.buckets.get h ++ cs)

/-- `LSHIndex<T>::search` (src/lsh.cpp:151-189): the tables afterwards and the result. -/
def lshSearch {H V : Type} (dot : H → V → F32) (c : Ctx V) (tables : List (HTable H)) (q : V) (rc : Nat)
    (ind : List Nat) (dst : Option (List F32)) (filters : List Label) :
    Res (List (HTable H) × List Nat × Option (List F32) × Nat) := do
  let (tables', cands) ← lshCands dot q tables
  let r ← scanSearch c q rc ind dst filters cands
  .ok (tables', r)

end Grann
