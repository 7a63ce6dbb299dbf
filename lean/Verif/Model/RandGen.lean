import Verif.Model.BinFile
/-!
# Model of the random data generator (include/random_dist_gen.h, tests/dist_gen.cpp, tests/build_random_dist.cpp)

`random_gaussian` and `random_cube` differ only in the distribution; the bytes of the `k`-th number that the generator yields when it is
called by one thread only are a parameter `draw k`.  Drawing a number is two accesses to the generator, which all threads share: its
state is read, and the next state is written.  (In the code the state has many words; two threads in it at the same time are undefined
behaviour.  The model is the weakest form of it.)
-/

namespace Grann

/-- `(ii * dim) + jj`, computed in 32 bits (include/random_dist_gen.h:17, 36). -/
def cellIdx (dim ii jj : Nat) : Nat := u32 (u32 (ii * dim) + jj)

/-- The stores of the iterations `ii ∈ rows` (include/random_dist_gen.h:15-19, 34-38), in order. -/
def rowCells (dim : Nat) (rows : List Nat) : List Nat := rows.flatMap (fun ii => (List.range dim).map (cellIdx dim ii))

/-- A thread: the stores it still has to do, and the state of the generator it has read. -/
structure GenTh where
  todo : List Nat
  seen : Option Nat
  deriving DecidableEq

/-- The generator (how many numbers it has yielded), the array, the threads. -/
structure GenSt where
  pos : Nat
  data : List Bytes
  th : List GenTh

/-- One access of thread `t` to the generator. -/
def genStep (draw : Nat → Bytes) (s : GenSt) (t : Nat) : Res GenSt :=
  match s.th[t]? with
  | some ⟨c :: cs, none⟩ => .ok { s with th := s.th.set t ⟨c :: cs, some s.pos⟩ }
  | some ⟨c :: cs, some k⟩ => do
    let data ← wr s.data c (draw k)
    .ok ⟨k + 1, data, s.th.set t ⟨cs, none⟩⟩
  | _ => .ok s

/-- `random_gaussian`, `random_cube` (include/random_dist_gen.h:7-43): `parts` are the iterations of each thread.  The array has
`num_vectors * dim` elements, computed in 32 bits, with contents `mem`; `save_bin` writes `num_vectors * dim` elements, computed in 64
bits.  `loop` stands for a schedule after which the loop has not ended. -/
def randomFile {P : Type} (p : P) (n dim : Nat) (draw : Nat → Bytes) (mem : Nat → Bytes) (parts : List (List Nat)) (sched : List Nat) :
    Res (List (FOp P)) := do
  let s ← sched.foldlM (genStep draw) ⟨0, (List.range (u32 (n * dim))).map mem, parts.map (fun rows => ⟨rowCells dim rows, none⟩)⟩
  if s.th.all (fun t => t.todo.isEmpty) then do
    let bytes ← slice s.data.flatten 0 (n * dim * 4)
    .ok (saveBin p n dim bytes)
  else .error .loop

end Grann
