import Verif.Basic.Res
/-!
# Parallel loops over shared arrays

A machine for the loops marked `#pragma omp parallel for`: every single load and store of a shared array is a
step of its own, the steps of different iterations interleave arbitrarily, and `#pragma omp critical` takes one
lock (all unnamed critical sections of a program share it).  `Model/ParLoops.lean` writes the loops of the
code as programs of this machine.

Every iteration is a thread of its own.  A real schedule gives several iterations to a thread, which runs them
one after the other: its executions are among the executions here.
-/

namespace Grann

/-- An element `arr[i]`, or `arr[i][j]`, of a shared array. -/
structure Loc where
  arr : String
  i : Nat
  j : Nat := 0
  deriving DecidableEq, Repr

/-- What an iteration still has to do, as a tree of shared accesses; `W` are the values stored in the arrays.
Local computation happens in the continuations. -/
inductive Par (W α : Type)
  | ret (a : α)
  | load (l : Loc) (k : W → Par W α)
  | store (l : Loc) (v : W) (k : Par W α)
  | enter (k : Par W α)
  | leave (k : Par W α)

namespace Par

def bind {W α β : Type} : Par W α → (α → Par W β) → Par W β
  | .ret a, f => f a
  | .load l k, f => .load l fun v => (k v).bind f
  | .store l v k, f => .store l v (k.bind f)
  | .enter k, f => .enter (k.bind f)
  | .leave k, f => .leave (k.bind f)

instance {W : Type} : Monad (Par W) where
  pure := .ret
  bind := bind

/-- `arr[i]` on the right of an assignment. -/
def rdAt {W : Type} (l : Loc) : Par W W := .load l .ret

/-- `arr[i] = v`. -/
def wrAt {W : Type} (l : Loc) (v : W) : Par W Unit := .store l v (.ret ())

/-- `#pragma omp critical` around `p`. -/
def critical {W α : Type} (p : Par W α) : Par W α :=
  .enter (p.bind fun a => .leave (.ret a))

/-- `for (j = a; j < a + n; j++) body(j)`, with a local state. -/
def loop {W σ : Type} (body : Nat → σ → Par W σ) : Nat → Nat → σ → Par W σ
  | 0, _, s => .ret s
  | n + 1, a, s => (body a s).bind fun s' => loop body n (a + 1) s'

end Par

/-- The shared memory; `none` is outside of every array. -/
abbrev Mem (W : Type) := Loc → Option W

def Mem.upd {W : Type} (m : Mem W) (l : Loc) (v : W) : Mem W := fun l' => if l' = l then some v else m l'

/-- The iterations of a loop in mid-flight. -/
structure Cfg (W : Type) where
  mem : Mem W
  /-- the iteration inside a critical section -/
  holder : Option Nat
  ts : List (Par W Unit)

/-- One step of iteration `i`.  An iteration that has ended, or waits for the critical section, changes nothing.
An access outside the arrays is undefined behaviour. -/
def Cfg.step {W : Type} (c : Cfg W) (i : Nat) : Res (Cfg W) :=
  match c.ts[i]? with
  | none => .ok c
  | some (.ret _) => .ok c
  | some (.load l k) =>
    match c.mem l with
    | none => .error .ub
    | some v => .ok { c with ts := c.ts.set i (k v) }
  | some (.store l v k) =>
    match c.mem l with
    | none => .error .ub
    | some _ => .ok { c with mem := c.mem.upd l v, ts := c.ts.set i k }
  | some (.enter k) =>
    match c.holder with
    | none => .ok { c with holder := some i, ts := c.ts.set i k }
    | some _ => .ok c
  | some (.leave k) => if c.holder = some i then .ok { c with holder := none, ts := c.ts.set i k } else .error .ub

/-- The steps in the order the scheduler picks the iterations. -/
def Cfg.run {W : Type} : List Nat → Cfg W → Res (Cfg W)
  | [], c => .ok c
  | i :: is, c => do
    let c' ← c.step i
    c'.run is

/-- The start of the loop. -/
def Cfg.start {W : Type} (m : Mem W) (ps : List (Par W Unit)) : Cfg W := ⟨m, none, ps⟩

/-- The access an iteration makes next: the element, and whether it is a store. -/
def Par.next {W α : Type} : Par W α → Option (Loc × Bool)
  | .load l _ => some (l, false)
  | .store l _ _ => some (l, true)
  | _ => none

/-- A data race: two iterations are about to access the same element, one of them to store. -/
def Cfg.Racy {W : Type} (c : Cfg W) : Prop :=
  ∃ (i j : Nat) (p q : Par W Unit) (l : Loc) (x y : Bool), i ≠ j ∧ c.ts[i]? = some p ∧ c.ts[j]? = some q ∧ p.next = some (l, x) ∧ q.next = some (l, y) ∧
    (x = true ∨ y = true)

/-- All iterations have ended. -/
def Cfg.Done {W : Type} (c : Cfg W) : Prop := ∀ p ∈ c.ts, p = .ret ()

/-- One iteration from beginning to end, with nobody else around. -/
def Par.solo {W α : Type} : Par W α → Mem W → Res (α × Mem W)
  | .ret a, m => .ok (a, m)
  | .load l k, m =>
    match m l with
    | none => .error .ub
    | some v => (k v).solo m
  | .store l v k, m =>
    match m l with
    | none => .error .ub
    | some _ => k.solo (m.upd l v)
  | .enter k, m => k.solo m
  | .leave k, m => k.solo m

/-- The loop without `#pragma omp parallel for`. -/
def serialLoop {W : Type} : List (Par W Unit) → Mem W → Res (Mem W)
  | [], m => .ok m
  | p :: ps, m => do
    let r ← p.solo m
    serialLoop ps r.2

end Grann
