import Verif.Basic.Res
/-!
# Threads that share vectors protected by reader-writer locks

A machine in which every single load and store of a shared `std::vector<unsigned>` is a step of its own.
`Model/BuildFine.lean` instantiates it with the parallel loops of `Vamana::build` and `HNSW::build`.
-/

namespace Grann

/-- A `std::vector<unsigned>`: its elements and its capacity. -/
structure Vec where
  items : List Nat
  cap : Nat
  deriving DecidableEq, Repr

/-- `emplace_back`: without room the capacity doubles (libstdc++). -/
def Vec.push (x : Vec) (y : Nat) : Vec :=
  ⟨x.items ++ [y], if x.items.length < x.cap then x.cap else x.items.length + max x.items.length 1⟩

/-- `reserve(m)`. -/
def Vec.reserve (x : Vec) (m : Nat) : Vec := { x with cap := max x.cap m }

/-- `clear()` keeps the capacity. -/
def Vec.clear (x : Vec) : Vec := { x with items := [] }

/-- What a critical section does with the vector it protects, one operation after the other; `β` is what
the thread knows at the end. -/
inductive VProg (β : Type)
  | ret (x : β)
  | size (k : Nat → VProg β)
  | load (j : Nat) (k : Nat → VProg β)
  | push (x : Nat) (k : VProg β)
  | clear (k : VProg β)

/-- The operations in one go. -/
def VProg.run {β : Type} : VProg β → List Nat → Res (β × List Nat)
  | .ret x, l => .ok (x, l)
  | .size k, l => (k l.length).run l
  | .load j k, l =>
    match l[j]? with
    | some x => (k x).run l
    | none => .error .ub
  | .push x k, l => k.run (l ++ [x])
  | .clear k, _ => k.run []

/-- A program that does not change the vector. -/
def VProg.ReadOnly {β : Type} : VProg β → Prop
  | .ret _ => True
  | .size k => ∀ n, (k n).ReadOnly
  | .load _ k => ∀ x, (k x).ReadOnly
  | .push _ _ => False
  | .clear _ => False

/-- The next thing a thread does outside critical sections. -/
inductive Next (σ : Type)
  | halt
  /-- only private or constant data -/
  | priv (r : Res σ)
  /-- `reserve(m)` of vector `v`, without a lock -/
  | touch (v m : Nat) (s : σ)
  /-- lock `v`, exclusively or shared, do `body`, unlock -/
  | crit (v : Nat) (excl : Bool) (body : VProg (Res σ))

/-! ## Whole critical sections as single steps -/

structure ASt (σ : Type) where
  adj : List (List Nat)
  ts : List σ

def aStep {σ : Type} (next : Nat → σ → Next σ) (s : ASt σ) (i : Nat) : Res (ASt σ) :=
  match s.ts[i]? with
  | none => .ok s
  | some t =>
    match next i t with
    | .halt => .ok s
    | .priv r => do
      let t' ← r
      .ok { s with ts := s.ts.set i t' }
    | .touch v _ t' => do
      let _ ← rd s.adj v
      .ok { s with ts := s.ts.set i t' }
    | .crit v _ body => do
      let l ← rd s.adj v
      let (r, l') ← body.run l
      let t' ← r
      .ok ⟨s.adj.set v l', s.ts.set i t'⟩

def aRun {σ : Type} (next : Nat → σ → Next σ) : List Nat → ASt σ → Res (ASt σ)
  | [], s => .ok s
  | i :: is, s => do
    let s' ← aStep next s i
    aRun next is s'

/-! ## Every operation a step of its own -/

inductive FTask (σ : Type)
  | out (s : σ)
  /-- inside the critical section of `v`; `p` is still to do -/
  | inside (v : Nat) (excl : Bool) (p : VProg (Res σ))

structure FSt (σ : Type) where
  mem : List Vec
  ts : List (FTask σ)

/-- The task holds the lock of `v` in a mode that does not permit another owner in mode `excl`
(`std::unique_lock` and `std::shared_lock` of a `std::shared_timed_mutex`, include/index.h:17-18). -/
def FTask.blocks {σ : Type} (v : Nat) (excl : Bool) : FTask σ → Bool
  | .out _ => false
  | .inside w e _ => w == v && (excl || e)

/-- Whether task `i` can go on: it waits only for a lock. -/
def FSt.enabled {σ : Type} (next : Nat → σ → Next σ) (s : FSt σ) (i : Nat) : Bool :=
  match s.ts[i]? with
  | none => false
  | some (.inside _ _ _) => true
  | some (.out t) =>
    match next i t with
    | .halt => false
    | .crit v e _ => !(s.ts.any (FTask.blocks v e))
    | _ => true

/-- One step of task `i`; a task that has to wait, or has ended, changes nothing. -/
def fStep {σ : Type} (next : Nat → σ → Next σ) (s : FSt σ) (i : Nat) : Res (FSt σ) :=
  match s.ts[i]? with
  | none => .ok s
  | some (.out t) =>
    match next i t with
    | .halt => .ok s
    | .priv r => do
      let t' ← r
      .ok { s with ts := s.ts.set i (.out t') }
    | .touch v m t' => do
      let x ← rd s.mem v
      .ok ⟨s.mem.set v (x.reserve m), s.ts.set i (.out t')⟩
    | .crit v e body =>
      if s.mem.length ≤ v then .error .ub
      else if s.ts.any (FTask.blocks v e) then .ok s
      else .ok { s with ts := s.ts.set i (.inside v e body) }
  | some (.inside v e p) => do
    let x ← rd s.mem v
    match p with
    | .ret r => do
      let t' ← r
      .ok { s with ts := s.ts.set i (.out t') }
    | .size k => .ok { s with ts := s.ts.set i (.inside v e (k x.items.length)) }
    | .load j k => do
      let y ← rd x.items j
      .ok { s with ts := s.ts.set i (.inside v e (k y)) }
    | .push y k => .ok ⟨s.mem.set v (x.push y), s.ts.set i (.inside v e k)⟩
    | .clear k => .ok ⟨s.mem.set v x.clear, s.ts.set i (.inside v e k)⟩

def fRun {σ : Type} (next : Nat → σ → Next σ) : List Nat → FSt σ → Res (FSt σ)
  | [], s => .ok s
  | i :: is, s => do
    let s' ← fStep next s i
    fRun next is s'

/-! ## Data races -/

/-- The parts of a vector as memory locations: the pointers to the begin and the end of the storage, the
pointer behind the last element, the storage. -/
inductive Cell
  | buf (v : Nat)
  | len (v : Nat)
  | elt (v : Nat)
  deriving DecidableEq, Repr

/-- The locations the next operation of a critical section on `v` reads (`false`) and writes (`true`). -/
def VProg.touches {β : Type} (v : Nat) (x : Vec) : VProg β → List (Cell × Bool)
  | .ret _ => []
  | .size _ => [(.buf v, false), (.len v, false)]
  | .load _ _ => [(.buf v, false), (.elt v, false)]
  | .push _ _ =>
    if x.items.length < x.cap then [(.buf v, false), (.len v, true), (.elt v, true)]
    else [(.buf v, true), (.len v, true), (.elt v, true)]
  | .clear _ => [(.buf v, false), (.len v, true)]

/-- The shared locations the next step of task `i` reads and writes. `reserve` compares with the capacity
and, if that is enough, does nothing else. -/
def FSt.touches {σ : Type} (next : Nat → σ → Next σ) (s : FSt σ) (i : Nat) : List (Cell × Bool) :=
  match s.ts[i]? with
  | none => []
  | some (.out t) =>
    match next i t with
    | .touch v m _ =>
      match s.mem[v]? with
      | some x => if m ≤ x.cap then [(.buf v, false)] else [(.buf v, true), (.len v, true), (.elt v, true)]
      | none => []
    | _ => []
  | some (.inside v _ p) =>
    match s.mem[v]? with
    | some x => p.touches v x
    | none => []

/-- The next steps of tasks `i` and `j` access the same location, and one of them writes. -/
def FSt.raceOf {σ : Type} (next : Nat → σ → Next σ) (s : FSt σ) (i j : Nat) : Bool :=
  i != j && (s.touches next i).any (fun a => (s.touches next j).any (fun b => a.1 == b.1 && (a.2 || b.2)))

/-- Two tasks race. -/
def FSt.Racy {σ : Type} (next : Nat → σ → Next σ) (s : FSt σ) : Prop := ∃ i j, s.raceOf next i j = true

end Grann
