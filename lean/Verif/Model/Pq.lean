import Verif.Basic.Res
import Verif.Basic.F32
import Verif.Model.Recall
import Verif.Model.CachedIo
/-!
# Model of the dimension chunks of product quantisation (src/partition_and_pq.cpp:224-274)

Numbers of dimensions and chunks are 32-bit; the quotient of the two is computed in `double` and rounded to
nearest.
-/

namespace Grann

/-- `std::floor` of a non-negative `double`. -/
def floorD (x : Nat × Nat) : Nat := x.1 / x.2

/-- `std::ceil` of a non-negative `double`. -/
def ceilD (x : Nat × Nat) : Nat := (x.1 + x.2 - 1) / x.2

/-- Converting a 32-bit number to `double`. -/
def dnat (n : Nat) : Nat × Nat := (n, 1)

/-- The search for a bin (src/partition_and_pq.cpp:243-249) from bin `b` on: `best` is `cur_best`, `load` is
`cur_best_load`. -/
def binScan (loads : List F32) (bins : List (List Nat)) (thr : Nat) : Nat → Nat → Nat → F32 → Res Nat
  | 0, _, best, _ => .ok best
  | todo + 1, b, best, load => do
    let l ← rd loads b
    if l.lt load then
      let bin ← rd bins b
      if bin.length < thr then binScan loads bins thr todo (b + 1) b l
      else binScan loads bins thr todo (b + 1) best load
    else binScan loads bins thr todo (b + 1) best load

/-- `bin_to_dims`, `cur_num_high` and `cur_bin_threshold`. -/
structure PqSt where
  bins : List (List Nat)
  numHigh : Nat
  thr : Nat
  deriving DecidableEq

/-- The update of the threshold (src/partition_and_pq.cpp:252-256) after a bin grew to `size` dimensions. -/
def pqThr (low high maxHigh size : Nat) (s : PqSt) : PqSt :=
  if size = high then
    if s.numHigh + 1 = maxHigh then { s with numHigh := s.numHigh + 1, thr := low }
    else { s with numHigh := s.numHigh + 1 }
  else s

/-- One dimension (src/partition_and_pq.cpp:238-257).  Nothing is ever inserted into `dim_to_bin`, so the test
against it is left out.  `bin_loads` is never changed after its construction. -/
def pqStep (chunks low high maxHigh : Nat) (s : PqSt) (d : Nat) : Res PqSt := do
  let best ← binScan (List.replicate chunks F32.zero) s.bins s.thr chunks 0 (u32 (chunks + 1)) F32.fmax
  let bin ← rd s.bins best
  let bins ← wr s.bins best (bin ++ [d])
  .ok (pqThr low high maxHigh (bin ++ [d]).length { s with bins := bins })

/-- The loop over the dimensions from `d` on. -/
def pqLoop (chunks low high maxHigh : Nat) : Nat → Nat → PqSt → Res PqSt
  | 0, _, s => .ok s
  | todo + 1, d, s => do
    let s ← pqStep chunks low high maxHigh s d
    pqLoop chunks low high maxHigh todo (d + 1) s

/-- One entry of `chunk_offsets` (src/partition_and_pq.cpp:270-272). -/
def pqOffset (bins : List (List Nat)) (b : Nat) (offs : List Nat) : Res (List Nat) :=
  if b > 0 then do
    let o ← rd offs (b - 1)
    let bin ← rd bins (b - 1)
    .ok (offs ++ [u32 (o + u32 bin.length)])
  else .ok offs

/-- The loop over the bins (src/partition_and_pq.cpp:263-273): `rearrangement` and `chunk_offsets`. -/
def pqCollect (bins : List (List Nat)) : Nat → Nat → List Nat → List Nat → Res (List Nat × List Nat)
  | 0, _, perm, offs => .ok (perm, offs)
  | todo + 1, b, perm, offs => do
    let bin ← rd bins b
    let offs ← pqOffset bins b offs
    pqCollect bins todo (b + 1) (perm ++ bin) offs

/-- The chunks (src/partition_and_pq.cpp:171-174, 227-274): the rearrangement and the chunk offsets; `none` is the
return value -1.  With no chunks the conversion of the quotient to an integer is undefined. -/
def pqChunks (dim chunks : Nat) : Res (Option (List Nat × List Nat)) :=
  if chunks > dim then .ok none
  else if chunks = 0 then .error .ub
  else do
    let low := floorD (ddiv (dnat dim) (dnat chunks))
    let high := ceilD (ddiv (dnat dim) (dnat chunks))
    let s ← pqLoop chunks low high (sub64 dim (u64 (low * chunks))) dim 0 ⟨List.replicate chunks [], 0, high⟩
    let r ← pqCollect s.bins chunks 0 [] [0]
    .ok (some (r.1, r.2 ++ [dim]))

end Grann
