import Verif.Model.Params
import Verif.Basic.Round
/-!
# Printing and reading of `float` through string streams (include/parameters.h:20-24, 48-57)

`stream << x` uses the format `%g` (six significant digits); `stream >> x` rounds to the nearest `float`.
-/

namespace Grann

/-- Magnitude of a finite float as a fraction. -/
def F32.frac (x : F32) : Nat × Nat :=
  let b := x.bits.toNat % 2147483648
  let e := b / 8388608
  let m := b % 8388608
  if e = 0 then scale 2 m 1 (-149) else scale 2 (m + 8388608) 1 ((e : Int) - 150)

/-- The decimal exponent of a positive fraction, searched from above. -/
def decExp (num den : Nat) : Nat → Int → Int
  | 0, k => k
  | fuel + 1, k =>
    let p := scale 10 den 1 k
    if p.1 ≤ num * p.2 then k else decExp num den fuel (k - 1)

/-- Removing trailing zeros. -/
def stripZeros (b : Bytes) : Bytes := (b.reverse.dropWhile (· = 48)).reverse

/-- Integral digits and fractional digits, joined by a point if there are fractional digits. -/
def withPoint (a b : Bytes) : Bytes := if (stripZeros b).isEmpty then a else a ++ [46] ++ stripZeros b

/-- `%g` for a positive number with the digits `d` (a number of exactly six digits) and decimal exponent
`x`. -/
def layoutG (d : Nat) (x : Int) : Bytes :=
  let ds := decimal 20 d
  if x < -4 ∨ 6 ≤ x then
    let ex := decimal 20 x.natAbs
    withPoint (ds.take 1) (ds.drop 1) ++ [101, if x < 0 then 45 else 43] ++
      (if ex.length < 2 then 48 :: ex else ex)
  else if 0 ≤ x then withPoint (ds.take (x.toNat + 1)) (ds.drop (x.toNat + 1))
  else withPoint [48] (List.replicate ((-x).toNat - 1) 48 ++ ds)

/-- `sstream << x` for a `float`. -/
def F32.text (x : F32) : Bytes :=
  let b := x.bits.toNat % 2147483648
  (if 2147483648 ≤ x.bits.toNat then ([45] : Bytes) else []) ++
    (if 2139095040 < b then ascii "nan" else if b = 2139095040 then ascii "inf" else if b = 0 then [48] else
      let (num, den) := x.frac
      let k := decExp num den 100 40
      let p := scale 10 num den (5 - k)
      let d := divRound p.1 p.2
      if d = 1000000 then layoutG 100000 (k + 1) else layoutG d k)

/-- The magnitude bits of the `float` nearest to a fraction, ties to even. -/
def nearestBits (num den : Nat) : Nat :=
  if num = 0 then 0
  else
    let k : Int := (Nat.log2 num : Int) - Nat.log2 den
    let p := scale 2 den 1 k
    let e := if num * p.2 < p.1 then k - 1 else k
    let q := max (e - 23) (-149)
    let r := scale 2 num den (-q)
    (q + 149).toNat * 8388608 + divRound r.1 r.2

/-- The number in digits. -/
def digitsVal (ds : Bytes) : Nat := ds.foldl (fun a c => 10 * a + (c.toNat - 48)) 0

/-- The exponent part of a decimal number, which has to be all of the text. -/
def expPart (s : Bytes) : Option Int :=
  match s with
  | [] => some 0
  | c :: t =>
    let u := if t.head? = some 43 ∨ t.head? = some 45 then t.drop 1 else t
    if (c ≠ 101 ∧ c ≠ 69) || u.isEmpty || !u.all isDigit then none
    else some (if t.head? = some 45 then -(digitsVal u : Int) else digitsVal u)

/-- `ConvertStrToValue<float>` (include/parameters.h:48-57) for decimal texts; `inf` and `nan` are not
accepted by `>>`. -/
def toF32 (s : Bytes) : Except PErr F32 :=
  let t := s.dropWhile isSpace
  let neg := t.head? = some 45
  let u := if t.head? = some 43 ∨ t.head? = some 45 then t.drop 1 else t
  let a := u.takeWhile isDigit
  let r := u.dropWhile isDigit
  let b := if r.head? = some 46 then (r.drop 1).takeWhile isDigit else []
  let r := if r.head? = some 46 then (r.drop 1).dropWhile isDigit else r
  if a.isEmpty && b.isEmpty then .error .runtimeError
  else match expPart r with
    | none => .error .runtimeError
    | some k =>
      let p := scale 10 (digitsVal (a ++ b)) 1 (k - b.length)
      let m := nearestBits p.1 p.2
      if 2139095040 ≤ m then .error .runtimeError
      else .ok ⟨BitVec.ofNat 32 (m + if neg then 2147483648 else 0)⟩

/-- `Set<float>`. -/
def Params.setF32 (p : Params) (name : Bytes) (v : F32) : Params := p.setText name v.text

end Grann
