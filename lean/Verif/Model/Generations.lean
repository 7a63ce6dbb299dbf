import Verif.Model.IvfFile
/-!
# Model of saving and loading over several generations

A program loads an index and saves it again under the same name (for instance after it was moved to another machine), any
number of times.
-/

namespace Grann

/-- One generation after the other: the object is saved, the files are loaded into a new object, which is the next one to
be saved.  `save` and `load` are the functions of the index type; an element of the list stands for a new object and the
contents of uninitialised memory. -/
def generations {P O G : Type} [DecidableEq P] (save : O → Res (List (FOp P))) (load : G → FS P → Res O) :
    List G → FS P × O → Res (FS P × O)
  | [], s => .ok s
  | g :: gs, (fs, o) => do
    let ops ← save o
    let o' ← load g (runOps ops fs)
    generations save load gs (runOps ops fs, o')

/-- Saving and loading Vamana (src/vamana.cpp:31-134).  The lines of the table of entry points keep their order, which in
the program depends on the hash table; a mismatch that is reported by the program counts as a failure. -/
def vamanaGens {P : Type} [DecidableEq P] (sortL : List Label → List Label) (fuel es : Nat) (nm : Part → P) :
    List (Junk × IdxObj) → FS P × IdxObj → Res (FS P × IdxObj) :=
  generations (vamanaSave es nm) (fun g fs => do
    let (o, reported) ← vamanaLoad sortL g.1 fuel es nm fs g.2
    if reported then .error .exit else .ok o)

/-- Saving and loading RelativeNG (src/relative_ng.cpp:25-83). -/
def rngGens {P : Type} [DecidableEq P] (sortL : List Label → List Label) (fuel es : Nat) (nm : Part → P) :
    List (Junk × IdxObj) → FS P × IdxObj → Res (FS P × IdxObj) :=
  generations (rngSave es nm) (fun g fs => do
    let (o, reported) ← rngLoad sortL g.1 fuel es nm fs g.2
    if reported then .error .exit else .ok o)

/-- Saving and loading HNSW (src/hnsw.cpp:41-110). -/
def hnswGens (sortL : List Label → List Label) (fuel es : Nat) :
    List (Junk × List IdxObj) → FS (Nat × Part) × List IdxObj → Res (FS (Nat × Part) × List IdxObj) :=
  generations (hnswSave es) (fun g fs => do
    let os ← hnswLoad sortL g.1 fuel es fs g.2
    if os.any Prod.snd then .error .exit else .ok (os.map Prod.fst))

/-- Saving and loading IVF (src/ivf.cpp:35-83). -/
def ivfGens {P : Type} [DecidableEq P] (sortL : List Label → List Label) (es : Nat) (nm : Part → P) (pc : P) :
    List (Junk × IvfObj) → FS P × IvfObj → Res (FS P × IvfObj) :=
  generations (ivfSave es nm pc) (fun g fs => ivfLoad sortL g.1 es nm pc fs g.2)

end Grann
