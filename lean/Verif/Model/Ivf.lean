import Verif.Model.Greedy
import Verif.Model.Centers
/-!
# Model of `IVFIndex::build` (assignment part) and `IVFIndex::search` (src/ivf.cpp)
-/

namespace Grann

/-- The common end of the IVF and LSH searches (src/ivf.cpp:146-168, src/lsh.cpp:165-188): scan the
candidates into a pool of `res_count + 1` entries (32-bit sum), then copy the entries found.
`dst = none` stands for a null pointer. Result: `indices`, `distances`, return value. -/
def scanSearch {V : Type} (c : Ctx V) (q : V) (rc : Nat) (ind : List Nat) (dst : Option (List F32))
    (filters : List Label) (cands : List Nat) : Res (List Nat × Option (List F32) × Nat) := do
  let s ← procCands c q filters rc ⟨resizePool [] (u32 (rc + 1)), 0, [], 0, rc⟩ cands
  let cnt := if s.cur < rc then s.cur else rc
  let res ← rdList s.pool 0 cnt
  let ind ← wrList ind 0 (res.map Nbr.id)
  let dst ← match dst with
    | none => .ok none
    | some d => do
      let d ← wrList d 0 (res.map Nbr.dist)
      .ok (some d)
  .ok (ind, dst, cnt)

/-- What an IVF index object holds that `search` reads: data/labels/distance, `_tag_map` (which `search`
never reads), `_num_clusters`, `_inverted_index`, and, instead of `_cluster_centers`, the row of
distances from a vector to the centres as `compute_closest_centers` computes it. -/
structure Ivf (V : Type) where
  ctx : Ctx V
  tags : List Nat
  nc : Nat
  inv : List (List Nat)
  centreDist : V → List F32

/-- The assignment part of `IVFIndex::build` (src/ivf.cpp:90 and 110-118): inverted lists for the given
centres.  The choice of the centres (sampling, k-means, src/ivf.cpp:93-107) is not part of this
definition: they are arbitrary.  `rows` holds the distances of every point to every centre. -/
def ivfBuildLists (nc : Nat) (pops : List F32 → List Nat)
    (sched : Nat → List (Nat × Nat) → List (Nat × Nat)) (rows : List (List F32)) :
    Res (List (List Nat)) := do
  let (_, inv) ← closestCenters 1000000 nc 1 pops sched rows (List.replicate rows.length 0)
    (some (List.replicate nc []))
  match inv with
  | some inv => .ok inv
  | none => .error .ub

/-- The candidates of an IVF search (src/ivf.cpp:137-145): `closest_centers` starts as `probe_width`
zeros and stays so if `probe_width > _num_clusters`. -/
def ivfCands {V : Type} (pops : List F32 → List Nat) (ix : Ivf V) (q : V) (pw : Nat) :
    Res (List Nat) := do
  let (cl, _) ← closestCenters 1000000 ix.nc pw pops (fun _ l => l) [ix.centreDist q]
    (List.replicate pw 0) none
  let lists ← cl.mapM (rd ix.inv)
  .ok lists.flatten

/-- `IVFIndex<T>::search` (src/ivf.cpp:126-169); `pw` is the parameter `probe_width`. -/
def ivfSearch {V : Type} (pops : List F32 → List Nat) (ix : Ivf V) (q : V) (rc pw : Nat)
    (ind : List Nat) (dst : Option (List F32)) (filters : List Label) :
    Res (List Nat × Option (List F32) × Nat) := do
  let cands ← ivfCands pops ix q pw
  scanSearch ix.ctx q rc ind dst filters cands

end Grann
