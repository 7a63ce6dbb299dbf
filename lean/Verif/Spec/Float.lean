import Mathlib.Algebra.Order.Field.Basic
import Mathlib.Algebra.Order.Field.Power
import Mathlib.Data.Rat.Floor
import Verif.Basic.F32
/-!
# The numbers that the bit patterns of `float` stand for, and correct rounding
-/

namespace Grann

namespace Spec

/-- The value of the magnitude bits (exponent and fraction) of a finite float. -/
def magnitude (b : Nat) : ℚ :=
  if b / 8388608 = 0 then (b : ℚ) * 2 ^ (-149 : Int)
  else ((8388608 + b % 8388608 : Nat) : ℚ) * 2 ^ ((b / 8388608 : Nat) - 150 : Int)

/-- The value of a finite float. -/
def value (x : F32) : ℚ :=
  if x.bits.toNat < 2147483648 then magnitude x.bits.toNat else -magnitude (x.bits.toNat - 2147483648)

/-- Neither infinite nor NaN. -/
def Finite (x : F32) : Prop := x.bits.toNat % 2147483648 < 2139095040

/-- The floats that a number may be rounded to: no finite float is nearer, and if another number is equally near, the last bit is 0. -/
def Nearest (t : ℚ) (x : F32) : Prop :=
  Finite x ∧ ∀ y, Finite y → |value x - t| ≤ |value y - t| ∧
    (value y ≠ value x → |value x - t| = |value y - t| → x.bits.toNat % 2 = 0)

/-- Numbers that can be written with six digits and a power of ten. -/
def SixDigit (t : ℚ) : Prop := ∃ (m : Nat) (k : Int), m < 1000000 ∧ |t| = m * 10 ^ k

/-- No number of six digits is nearer. -/
def NearestSix (v t : ℚ) : Prop := SixDigit t ∧ ∀ u, SixDigit u → |t - v| ≤ |u - v|

/-- Nonnegative numbers with 53 binary digits (`double` without limits of the exponent). -/
def Bits53 (d : ℚ) : Prop := ∃ (m : Nat) (k : Int), m < 2 ^ 53 ∧ d = m * 2 ^ k

/-- The number with 53 digits that a nonnegative number is rounded to: none is nearer, and if another one is equally near, the last digit is 0. -/
def NearestDouble (t d : ℚ) : Prop :=
  Bits53 d ∧ ∀ e, Bits53 e → |d - t| ≤ |e - t| ∧
    (e ≠ d → |d - t| = |e - t| → ∃ (m : Nat) (k : Int), m % 2 = 0 ∧ 2 ^ 52 ≤ m ∧ m ≤ 2 ^ 53 ∧ d = m * 2 ^ k)

end Spec

end Grann
