import Verif.Model.Distance
import Verif.Proofs.FloatText
/-!
# What the words of a command line stand for
-/

namespace Grann

namespace Spec

/-- The number at the beginning of a text: after white space an optional sign and as many digits as there are.  What follows does not matter.  Without
digits the number is 0. -/
def NumText (t : Bytes) (v : Int) : Prop :=
  ∃ w s ds rest neg, t = w ++ (s ++ (ds ++ rest)) ∧ (∀ c ∈ w, isSpace c = true) ∧ SignText s neg ∧ Digits ds ∧
    (∀ c, rest.head? = some c → isDigit c = false) ∧
    (s = [] → ds = [] → ∀ c, rest.head? = some c → c ≠ 43 ∧ c ≠ 45 ∧ isSpace c = false) ∧
    v = (if neg then -1 else 1) * (digitsVal ds : Int)

/-- Numbers of type `int`. -/
def IsInt (v : Int) : Prop := -2 ^ 31 ≤ v ∧ v < 2 ^ 31

/-- What a number of type `int` becomes in `n` unsigned bits. -/
def unsigned (n : Nat) (v : Int) : Int := if v < 0 then 2 ^ n + v else v

/-- The names of element types and metrics. -/
def elemWord : Elem → Bytes
  | .int8 => ascii "int8"
  | .uint8 => ascii "uint8"
  | .float => ascii "float"

def MetricWord (s : Bytes) (m : Metric) : Prop := s = ascii "mips" ∧ m = .innerProduct ∨ s = ascii "l2" ∧ m = .l2

/-- The `i`-th argument is a number. -/
def NumArg (argv : List Bytes) (i : Nat) (v : Int) : Prop := ∃ t, argv[i]? = some t ∧ NumText t v ∧ IsInt v

/-- The `i`-th argument is a number, which is used as an unsigned number of `n` bits. -/
def UnsArg (n : Nat) (argv : List Bytes) (i : Nat) (x : Nat) : Prop := ∃ v, NumArg argv i v ∧ (x : Int) = unsigned n v

/-- The `i`-th argument is a flag; if it is not 0, the word is behind it.  `k` is the number of the next argument. -/
def FlagArg (argv : List Bytes) (i : Nat) (word : List Bytes) (k : Nat) : Prop :=
  ∃ v, NumArg argv i v ∧ (v = 0 ∧ word = [] ∧ k = i + 1 ∨ v ≠ 0 ∧ (∃ s, argv[i + 1]? = some s ∧ word = [s]) ∧ k = i + 2)

end Spec

end Grann
