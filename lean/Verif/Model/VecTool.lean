import Verif.Model.Mips
import Verif.Model.Stats
/-!
# Model of the vector analysis tool (tests/utils/vector_analysis.cpp)

The vectors are given by their values in a type `K` with the operations `O` of `float` (Model/Mips.lean); `conv` is the conversion of
the results to the element type.  Reading and writing of the files are those of C30.  The parallel loops over the points only write
entries of their own, except for `max_norm`.
-/

namespace Grann

/-- Where an iteration of the loop of `augment_base` is in the statement `max_norm = norms[i] > max_norm ? norms[i] : max_norm`
(tests/utils/vector_analysis.cpp:80): before the comparison, before reading `max_norm` as the value, before writing. -/
inductive MaxPc (K : Type) where
  | begin
  | reread
  | store (v : K)
  | done
  deriving DecidableEq

structure MaxSt (K : Type) where
  m : K
  pc : List (MaxPc K)

/-- One access to `max_norm` by iteration `i`. -/
def maxStep {K : Type} (O : MOps K) (norms : List K) (s : MaxSt K) (i : Nat) : MaxSt K :=
  match norms[i]?, s.pc[i]? with
  | some n, some .begin => { s with pc := s.pc.set i (if O.lt s.m n then .store n else .reread) }
  | some _, some .reread => { s with pc := s.pc.set i (.store s.m) }
  | some _, some (.store v) => ⟨v, s.pc.set i .done⟩
  | _, _ => s

/-- The parallel loop (tests/utils/vector_analysis.cpp:75-81): the schedule tells which iteration does the next access. -/
def maxRun {K : Type} (O : MOps K) (norms : List K) (sched : List Nat) : MaxSt K :=
  sched.foldl (maxStep O norms) ⟨O.zero, List.replicate norms.length .begin⟩

/-- `augment_base` with `prep_base` (tests/utils/vector_analysis.cpp:67-112).  A schedule that leaves an iteration unfinished is
reported as `loop`. -/
def augmentBase {K T : Type} (O : MOps K) (conv : K → Res T) (sched : List Nat) (X : List (List K)) : Res (List (List T)) :=
  let s := maxRun O (X.map (mipsNorm O)) sched
  if s.pc.all (fun p => match p with | .done => true | _ => false) then
    X.mapM (fun x => (mipsRow O (O.sqrt s.m) (mipsNorm O x) x).mapM conv)
  else .error .loop

/-- `augment_base` without `prep_base` (tests/utils/vector_analysis.cpp:101-106); the largest norm is computed but not used. -/
def augmentQuery {K T : Type} (O : MOps K) (conv : K → Res T) (X : List (List K)) : Res (List (List T)) :=
  X.mapM (fun x => (x.map (fun a => O.div a (O.sqrt (mipsNorm O x))) ++ [O.zero]).mapM conv)

/-- `normalize_base` (tests/utils/vector_analysis.cpp:46-64). -/
def normalizeBase {K T : Type} (O : MOps K) (conv : K → Res T) (X : List (List K)) : Res (List (List T)) :=
  X.mapM (fun x => (x.map (fun a => O.div a (O.sqrt (mipsNorm O x)))).mapM conv)

/-- The fractions 0, 0.05, ..., 0.95 as doubles (tests/utils/vector_analysis.cpp:36-38). -/
def twentieths : List (Nat × Nat) := (List.range 20).map (fun i => ddiv (5 * i, 1) (100, 1))

/-- `analyze_norm` (tests/utils/vector_analysis.cpp:24-44): the values printed. -/
def analyzeNorm {K : Type} (O : MOps K) (sort : List K → List K) (X : List (List K)) : Res (List K) := do
  let norms := sort (X.map (fun x => O.sqrt (mipsNorm O x)))
  let ps ← twentieths.mapM (fun p => rd norms (pctIndex 53 p X.length))
  if X.length = 0 then .error .ub
  else do
    let l ← rd norms (X.length - 1)
    .ok (ps ++ [l])

end Grann
