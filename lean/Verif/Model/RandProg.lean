import Verif.Model.RandGen
import Verif.Model.FloatTable
import Verif.Model.CommandLine
/-!
# Model of the programs `build_random_dist` and `load_random_dist` (tests/build_random_dist.cpp, tests/load_random_dist.cpp)

tests/dist_gen.cpp is the same program as tests/build_random_dist.cpp.  The bytes of the numbers that the generators yield and
the order in which the threads use the generator are parameters.
-/

namespace Grann

/-- The iterations of the threads `0, …, T - 1` with `schedule(static, 64)` (include/random_dist_gen.h:14, 33): blocks of 64
iterations, dealt out in turn. -/
def staticParts (T n : Nat) : List (List Nat) :=
  (List.range T).map (fun t => (List.range n).filter (fun i => decide (i / 64 % T = t)))

/-- The numbers of the normal distribution (`true`) and of the cube (`false`), uninitialised memory, the number of threads, and
the order of the accesses to the generator. -/
structure GenEnv where
  draw : Bool → Nat → Bytes
  mem : Nat → Bytes
  threads : Nat
  sched : List Nat

/-- `main` (tests/build_random_dist.cpp:3-15). -/
def genMain (env : GenEnv) (argv : List Bytes) : Res (Cmd (List (FOp Bytes))) :=
  if argv.length ≠ 5 then .ok .usage else do
  let kind ← rd argv 1
  let n ← numAt argv 2
  let d ← numAt argv 3
  let name ← rd argv 4
  done (randomFile name (wrap32 n) (wrap32 d) (env.draw (kind = ascii "gaussian")) env.mem (staticParts env.threads (wrap32 n)) env.sched)

/-- What is printed for a value (tests/load_random_dist.cpp:18). -/
def cellText (data : Bytes) (ndim i j : Nat) : Res Bytes := do
  let x ← slice data ((i * ndim + j) * 4) 4
  .ok (floatFmt x ++ [32])

/-- The output for a row (tests/load_random_dist.cpp:17-20). -/
def rowText (data : Bytes) (ndim i : Nat) : Res Bytes := do
  let cells ← (List.range ndim).mapM (cellText data ndim i)
  .ok (cells.flatten ++ [10])

/-- `main` (tests/load_random_dist.cpp:3-25): what is printed.  The counters of the loops are of type `int`. -/
def showMain (j1 j2 : Bytes) (mem : Nat → UInt8) (argv : List Bytes) (fs : FS Bytes) : Res (Cmd Bytes) :=
  if argv.length ≠ 3 then .ok .usage else do
  let name ← rd argv 2
  let (npts, ndim, data) ← loadBin 4 (fs name) j1 j2 mem
  if 2147483648 ≤ npts ∨ 0 < npts ∧ 2147483648 ≤ ndim then .error .ub
  else done do
    let rows ← (List.range npts).mapM (rowText data ndim)
    .ok rows.flatten

end Grann
