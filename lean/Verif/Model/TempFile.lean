import Verif.Model.PipelineHnsw
/-!
# Model of several HNSW builds on one machine

Every `HNSW::build` with an upper level uses the file `/tmp/temp_data` (src/hnsw.cpp:136-142).  Here several programs do so.  Each goes
through three calls: the sampled vectors are written, the inner object is constructed, the file is removed.  A schedule tells whose
call is next; a call is not interrupted (so that the model allows less interference than the code).
-/

namespace Grann

/-- One build: element size, vectors in memory (`_data`), rounded and original dimension, sampled points, the sort of labels and
uninitialised memory of the constructor. -/
structure TempProc where
  es : Nat
  data : Bytes
  adim : Nat
  dim : Nat
  ids : List Nat
  sortL : List Label → List Label
  junk : Junk

/-- The next call of a build, and the object it made. -/
inductive TempPc where
  | save
  | ctor
  | remove (o : Res IdxObj)
  | ended (o : Res IdxObj)

structure TempSt where
  fs : FS Unit
  pc : List TempPc

/-- The next call of build `i` (src/hnsw.cpp:136-142).  If it does not return, the program ends there (the file is not removed). -/
def tempStep (ps : List TempProc) (s : TempSt) (i : Nat) : TempSt :=
  match ps[i]?, s.pc[i]? with
  | some p, some .save =>
    match saveSubset () p.es p.data p.adim p.dim p.ids with
    | .ok ops => ⟨runOps ops s.fs, s.pc.set i .ctor⟩
    | .error e => ⟨s.fs, s.pc.set i (.ended (.error e))⟩
  | some p, some .ctor =>
    match ctorObj p.sortL p.junk p.es (s.fs ()) p.ids none with
    | .ok o => ⟨s.fs, s.pc.set i (.remove (.ok o))⟩
    | .error e => ⟨s.fs, s.pc.set i (.ended (.error e))⟩
  | some _, some (.remove o) => ⟨runOps [.remove ()] s.fs, s.pc.set i (.ended o)⟩
  | _, _ => s

/-- Several builds with the given schedule. -/
def tempRun (ps : List TempProc) (fs : FS Unit) (sched : List Nat) : TempSt :=
  sched.foldl (tempStep ps) ⟨fs, List.replicate ps.length .save⟩

end Grann
