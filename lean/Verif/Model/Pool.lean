import Verif.Basic.Res
import Verif.Basic.F32
/-!
# Model of the candidate pool

Models `InsertIntoPool` and `ANNIndex::process_candidates_into_best_candidates_pool`.
-/

namespace Grann

/-- `struct Neighbor` (include/index.h:49-65): identifier, distance to the query, and the
"not yet expanded" flag. -/
structure Nbr where
  id : Nat
  dist : F32
  flag : Bool
  deriving DecidableEq, Repr

/-- Default-constructed `Neighbor` (include/index.h:50-54): id 0, distance `FLT_MAX`, flag set. -/
def Nbr.dflt : Nbr := ⟨0, F32.fmax, true⟩

/-- `memmove(&addr[from+1], &addr[from], (K-from)*sizeof(Neighbor))`
(include/index.h:75 with `from = left = 0`, and include/index.h:101-102 with `from = right`).
Writing position `K` requires `K` to be inside the array. -/
def memmoveUp (a : List Nbr) (frm K : Nat) : Res (List Nbr) :=
  if frm < K then
    if K < a.length then
      .ok (a.take (frm + 1) ++ (a.drop frm).take (K - frm) ++ a.drop (K + 1))
    else .error .ub
  else .ok a

/-- The binary-search loop of `InsertIntoPool` (include/index.h:83-89).  Returns the final
`(left, right)`.  `fuel` bounds the number of iterations; `Verif.Proofs.Pool` shows `K` suffices.
`left + right` is computed in 32-bit unsigned arithmetic. -/
def poolBsearch (a : List Nbr) (d : F32) : Nat → Nat → Nat → Res (Nat × Nat)
  | 0, _, _ => .error .loop
  | fuel + 1, left, right =>
    if right > 1 ∧ left < right - 1 then do
      let mid := u32 (left + right) / 2
      let m ← rd a mid
      if d.lt m.dist then poolBsearch a d fuel left mid else poolBsearch a d fuel mid right
    else .ok (left, right)

/-- The "check equal ID" loop of `InsertIntoPool` (include/index.h:92-98).  `none` stands for
`return K + 1`, `some left` for leaving the loop with that value of `left`. -/
def poolScan (a : List Nbr) (nn : Nbr) : Nat → Res (Option Nat)
  | 0 => .ok (some 0)
  | left + 1 => do
    let x ← rd a (left + 1)
    if x.dist.lt nn.dist then .ok (some (left + 1))
    else if x.id = nn.id then .ok none
    else poolScan a nn left

/-- `InsertIntoPool(addr, K, nn)` (include/index.h:70-105): new array contents and return value.
`right = K - 1` is computed in 32-bit unsigned arithmetic, so it is `2^32 - 1` for `K = 0`. -/
def insertIntoPool (a : List Nbr) (K : Nat) (nn : Nbr) : Res (List Nbr × Nat) := do
  let right := u32 (K + 4294967295)
  let a0 ← rd a 0
  if nn.dist.lt a0.dist then
    let a' ← memmoveUp a 0 K
    let a'' ← wr a' 0 nn
    .ok (a'', 0)
  else
    let ar ← rd a right
    if ar.dist.lt nn.dist then
      let a' ← wr a K nn
      .ok (a', K)
    else
      let (left, right) ← poolBsearch a nn.dist (K + 1) 0 right
      match ← poolScan a nn left with
      | none => .ok (a, K + 1)
      | some left =>
        let al ← rd a left
        let ar ← rd a right
        if al.id = nn.id ∨ ar.id = nn.id then .ok (a, K + 1)
        else
          let a' ← memmoveUp a right K
          let a'' ← wr a' right nn
          .ok (a'', right)

/-- `label` is `std::string` (include/index.h:20): a sequence of bytes. -/
abbrev Label := List UInt8

/-- `std::string::operator<`: lexicographic comparison of bytes as unsigned chars
(used by `std::set_intersection` in src/index.cpp:249 and `std::sort` in src/index.cpp:150). -/
def strLt : Label → Label → Bool
  | _, [] => false
  | [], _ :: _ => true
  | a :: as, b :: bs => if a < b then true else if b < a then false else strLt as bs

/-- Inner loop of `setInter`: the first list's head is fixed, the second list advances. -/
def setInterAux (a : Label) (next : List Label → List Label) : List Label → List Label
  | [] => []
  | b :: bs =>
    if strLt a b then next (b :: bs)
    else if strLt b a then setInterAux a next bs
    else a :: next bs

/-- `std::set_intersection` as called in src/index.cpp:249-251.  This is the merge algorithm of the
standard library, run on whatever order the two ranges have. -/
def setInter : List Label → List Label → List Label
  | [] => fun _ => []
  | a :: as => setInterAux a (setInter as)

/-- The part of an index object (include/index.h:152-175) that the searches read: the vectors
(`_data`, one entry per point; type `V` of vectors is left abstract), the labels of the points
(`_pts_to_labels`), the universal-label settings, and `Distance<T>::compare`. -/
structure Ctx (V : Type) where
  data : List V
  labels : List (List Label)
  useUniv : Bool
  univ : Label
  cmp : V → V → F32

/-- The filter test of `process_candidates_into_best_candidates_pool` (src/index.cpp:245-262):
`true` means the candidate is processed, `false` means `continue`. -/
def filterAccepts {V : Type} (c : Ctx V) (filters : List Label) (id : Nat) : Res Bool :=
  if filters.isEmpty then .ok true
  else do
    let cur ← rd c.labels id
    let inter := setInter filters cur
    let inter :=
      if c.useUniv && (filters.contains c.univ || cur.contains c.univ) then inter ++ [c.univ]
      else inter
    .ok (!inter.isEmpty)

/-- Variables of `process_candidates_into_best_candidates_pool`: the pool (`top_L_candidates`),
`curListSize`, the set `already_inserted` (as the list of its elements), `total_comparisons` and
`best_inserted_position`. -/
structure PoolSt where
  pool : List Nbr
  cur : Nat
  ins : List Nat
  cmps : Nat
  best : Nat
  deriving DecidableEq, Repr

/-- One iteration of the candidate loop (src/index.cpp:243-290). The prefetch of src/index.cpp:266-271
has no effect on the result and is omitted. -/
def procOne {V : Type} (c : Ctx V) (q : V) (filters : List Label) (max : Nat) (s : PoolSt)
    (id : Nat) : Res PoolSt := do
  if !(← filterAccepts c filters id) then .ok s
  else if s.ins.contains id then .ok s
  else
    let s := { s with ins := id :: s.ins, cmps := s.cmps + 1 }
    let v ← rd c.data id
    let d := c.cmp q v
    let skip ←
      if s.cur > 0 then do
        let last ← rd s.pool (s.cur - 1)
        .ok (last.dist.le d && s.cur == max)
      else .ok false
    if skip then .ok s
    else
      let (pool', r) ← insertIntoPool s.pool s.cur ⟨id, d, true⟩
      .ok { s with
        pool := pool'
        cur := if s.cur < max then s.cur + 1 else s.cur
        best := if r < s.best then r else s.best }

/-- `ANNIndex::process_candidates_into_best_candidates_pool` (src/index.cpp:236-292).
`s.best` on entry is ignored: it is initialised to `maxListSize` (src/index.cpp:241). -/
def procCands {V : Type} (c : Ctx V) (q : V) (filters : List Label) (max : Nat) (s : PoolSt)
    (cands : List Nat) : Res PoolSt :=
  cands.foldlM (procOne c q filters max) { s with best := max }

/-- A freshly allocated pool as IVF and LSH searches create it (src/ivf.cpp:146-150,
src/lsh.cpp:165-169): `res_count + 1` default entries, nothing inserted. -/
def freshPool (max : Nat) : PoolSt := ⟨List.replicate (max + 1) Nbr.dflt, 0, [], 0, max⟩

/-- The entries in use, as (identifier, distance) pairs: what a caller of the pool functions sees in
`top_L_candidates[0 .. curListSize)` (src/index.cpp:236-292). -/
def PoolSt.answer (s : PoolSt) : List (Nat × F32) :=
  (s.pool.take s.cur).map (fun x => (x.id, x.dist))

end Grann
