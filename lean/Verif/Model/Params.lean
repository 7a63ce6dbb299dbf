import Verif.Model.LabelFile
import Verif.Basic.F32
/-!
# Model of `Parameters` (include/parameters.h)

A value is stored as the text that `<<` makes of it and converted back by `>>`.  The conversions are those
of libstdc++ in the C locale.
-/

namespace Grann

/-- The exceptions of `Get`: `std::invalid_argument` (unknown name) and `std::runtime_error` (the text cannot
be converted). -/
inductive PErr
  | invalidArgument
  | runtimeError
  deriving DecidableEq, Repr

/-- `params` (include/parameters.h:45). -/
abbrev Params := List (Bytes × Bytes)

/-- `Set<T>` where `text` is what `sstream << value` writes (include/parameters.h:20-24). -/
def Params.setText (p : Params) (name text : Bytes) : Params := aset p name text

/-- `Set<uint32_t>`. -/
def Params.setU32 (p : Params) (name : Bytes) (v : Nat) : Params := p.setText name (decimal 20 v)

/-- `Set<bool>`: without `boolalpha` a digit is written. -/
def Params.setBool (p : Params) (name : Bytes) (v : Bool) : Params := p.setText name (if v then [49] else [48])

/-- The bytes of an ASCII string. -/
def ascii (s : String) : Bytes := s.toList.map (fun c => UInt8.ofNat c.toNat)

/-- The constructor (include/parameters.h:13-17); `Set<float>("alpha", 1)` writes "1". -/
def Params.new : Params :=
  Params.setU32 (Params.setText (Params.setU32 [] (ascii "num_threads") 0) (ascii "alpha") (ascii "1"))
    (ascii "pruning_rule") 0

/-- `ConvertStrToValue<uint32_t>` (include/parameters.h:48-57): `sstream >> value`, then the whole text must
have been used.  White space is skipped, a sign is accepted, a number that does not fit sets the fail
bit. -/
def toU32 (s : Bytes) : Except PErr Nat :=
  let t := s.dropWhile isSpace
  let neg := t.head? = some 45
  let u := if t.head? = some 43 ∨ t.head? = some 45 then t.drop 1 else t
  let ds := u.takeWhile isDigit
  let v := ds.foldl (fun a c => 10 * a + (c.toNat - 48)) 0
  if ds.isEmpty then .error .runtimeError
  else if 4294967295 < v then .error .runtimeError
  else if ds.length ≠ u.length then .error .runtimeError
  else .ok (if neg then u32 (4294967296 - v) else v)

/-- `Get<T>(name)` with the conversion `conv` (include/parameters.h:27-34). -/
def Params.get {α : Type} (conv : Bytes → Except PErr α) (p : Params) (name : Bytes) : Except PErr α :=
  match p.lookup name with
  | none => .error .invalidArgument
  | some t => conv t

/-- `Get<T>(name, default_value)` (include/parameters.h:37-43): only `invalid_argument` is caught. -/
def Params.getD {α : Type} (conv : Bytes → Except PErr α) (p : Params) (name : Bytes) (dflt : α) : Except PErr α :=
  match p.get conv name with
  | .error .invalidArgument => .ok dflt
  | r => r

end Grann
