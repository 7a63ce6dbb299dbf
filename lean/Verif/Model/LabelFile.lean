import Verif.Basic.Bytes
import Verif.Basic.Assoc
import Verif.Model.Pool
/-!
# Model of the label files (src/index.cpp, src/vamana.cpp)

Bytes: 10 is `'\n'`, 13 is `'\r'`, 44 is `','`, 32 is the blank.
-/

namespace Grann

/-- The strings that repeated `std::getline(stream, s, sep)` yields until it fails: a string that is not
followed by `sep` at the end of the input counts only if it is not empty. -/
def pieces (sep : UInt8) : Bytes → List Bytes
  | [] => []
  | c :: rest =>
    if c = sep then [] :: pieces sep rest
    else match pieces sep rest with
      | [] => [[c]]
      | p :: ps => (c :: p) :: ps

/-- `token.erase(std::remove(..., '\n'), ...)` and the same for `'\r'` (src/index.cpp:140-141,
src/vamana.cpp:88-91). -/
def stripEol (t : Bytes) : Bytes := (t.filter (· ≠ 10)).filter (· ≠ 13)

/-- `std::sort` on strings: some sorted permutation. -/
def IsStrSort (sortL : List Label → List Label) : Prop :=
  ∀ l, (sortL l).Perm l ∧ (sortL l).Pairwise (fun a b => strLt b a = false)

/-- The loop over the lines in `parse_label_file` (src/index.cpp:135-153): `_pts_to_labels` and the labels
inserted into `_labels`; the process exits at a line that yields no label. -/
def parseLines (sortL : List Label → List Label) : List Bytes → List (List Label) → List Label →
    Res (List (List Label) × List Label)
  | [], pts, seen => .ok (pts, seen)
  | line :: lines, pts, seen =>
    let lbls := (pieces 44 line).map stripEol
    if lbls.length = 0 then .error .exit
    else parseLines sortL lines (pts ++ [sortL lbls]) (seen ++ lbls)

/-- `parse_label_file` (src/index.cpp:125-160) for an object with `n` points whose `_pts_to_labels` and
`_labels` are `pts0` and `seen0`.  `_labels` is given as the list of the elements inserted.
`_labels_to_pts` is never read in the program and left out.  A missing file has no lines. -/
def parseLabels (sortL : List Label → List Label) (file : Option Bytes) (pts0 : List (List Label))
    (seen0 : List Label) (n : Nat) : Res (List (List Label) × List Label) := do
  let r ← parseLines sortL (pieces 10 (file.getD [])) pts0 seen0
  if r.1.length ≠ n then .error .exit else .ok r

/-- One line written by `save_labels` (src/index.cpp:166-171).  `size() - 1` is computed without sign, so
the loop runs past the end of an empty list. -/
def labelRow : List Label → Res Bytes
  | [] => .error .ub
  | [l] => .ok (l ++ [10])
  | l :: ls => do
    let rest ← labelRow ls
    .ok (l ++ [44] ++ rest)

/-- `save_labels` (src/index.cpp:163-174). -/
def saveLabels {P : Type} (p : P) (pts : List (List Label)) : Res (List (FOp P)) := do
  let rows ← pts.mapM labelRow
  .ok ([.create p] ++ rows.map (.append p))

/-- `isspace` in the C locale. -/
def isSpace (c : UInt8) : Bool := (9 ≤ c && c ≤ 13) || c = 32

/-- `stream >> s` for a string at the beginning of a file: leading white space is skipped, then the string
extends to the next white space; if there is none, the string keeps its value (src/index.cpp:227). -/
def readWord (b old : Bytes) : Bytes :=
  let w := (b.dropWhile isSpace).takeWhile (fun c => !isSpace c)
  if w.isEmpty then old else w

/-- Decimal representation, as `stream << unsigned` prints it. -/
def decimal : Nat → Nat → Bytes
  | 0, _ => []
  | k + 1, x => if x < 10 then [UInt8.ofNat (48 + x)] else decimal k (x / 10) ++ [UInt8.ofNat (48 + x % 10)]

/-- A digit. -/
def isDigit (c : UInt8) : Bool := 48 ≤ c && c ≤ 57

/-- `std::stoul(s)`: white space, an optional sign, digits.  It throws if there are no digits or if the
number does not fit into 64 bits. -/
def stoul (s : Bytes) : Res Nat :=
  let t := s.dropWhile isSpace
  let neg := t.head? = some 45
  let u := if t.head? = some 43 ∨ t.head? = some 45 then t.drop 1 else t
  let ds := u.takeWhile isDigit
  let v := ds.foldl (fun a c => 10 * a + (c.toNat - 48)) 0
  if ds.isEmpty then .error .throw
  else if 18446744073709551615 < v then .error .throw
  else .ok (if neg then u64 (18446744073709551616 - v) else v)

/-- Writing `_filter_to_medoid_id` (src/vamana.cpp:36-42); the pairs are given in the order in which the
map yields them. -/
def saveMedoids {P : Type} (p : P) (tab : List (Label × Nat)) : List (FOp P) :=
  [.create p] ++ tab.map (fun e => .append p (e.1 ++ [44, 32] ++ decimal 20 e.2 ++ [10]))

/-- The tokens of one line of the medoid file (src/vamana.cpp:85-95) after the first: the last number
wins. -/
def medoidTokens : List Bytes → Nat → Res Nat
  | [], m => .ok m
  | t :: ts, _ => do
    let v ← stoul (stripEol t)
    medoidTokens ts (u32 v)

/-- One line of the medoid file (src/vamana.cpp:81-97). -/
def medoidLine (line : Bytes) : Res (Label × Nat) :=
  match pieces 44 line with
  | [] => .ok ([], 0)
  | l :: ts => do
    let m ← medoidTokens ts 0
    .ok (stripEol l, m)

/-- The loop over the lines (src/vamana.cpp:80-98). -/
def medoidLines : List Bytes → List (Label × Nat) → Res (List (Label × Nat))
  | [], tab => .ok tab
  | line :: lines, tab => do
    let e ← medoidLine line
    medoidLines lines (aset tab e.1 e.2)

/-- Reading the medoid file (src/vamana.cpp:71-99): without the file the table stays as it is. -/
def loadMedoids (file : Option Bytes) (tab0 : List (Label × Nat)) : Res (List (Label × Nat)) :=
  match file with
  | none => .ok tab0
  | some b => medoidLines (pieces 10 b) []

end Grann
