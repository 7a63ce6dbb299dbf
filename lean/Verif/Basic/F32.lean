import Mathlib.Order.Basic
import Mathlib.Data.Int.Order.Basic
/-!
# IEEE-754 binary32 comparison

Distances in the code are C++ `float`.  We represent a `float` by its 32 bits
and define the comparison operators exactly as IEEE-754 does.  Arithmetic is
not defined here.
-/

namespace Grann

/-- A C++ `float` (IEEE-754 binary32) given by its bit pattern. -/
structure F32 where
  bits : BitVec 32
  deriving DecidableEq, Repr

namespace F32

/-- Position of a float in the total pre-order of non-NaN floats; `none` for NaN.
The magnitude bits of binary32 are ordered like integers, the sign bit negates,
and `-0` and `+0` get the same position. -/
def key (x : F32) : Option Int :=
  let m : Nat := x.bits.toNat % 2147483648
  if m > 2139095040 then none
  else if x.bits.toNat < 2147483648 then some (m : Int) else some (-(m : Int))

/-- The value is a number (possibly infinite), not NaN. -/
def IsNum (x : F32) : Prop := x.key ≠ none

instance (x : F32) : Decidable x.IsNum := inferInstanceAs (Decidable (x.key ≠ none))

/-- C++ `a < b`: false when either side is NaN. -/
def lt (a b : F32) : Bool :=
  match a.key, b.key with
  | some x, some y => decide (x < y)
  | _, _ => false

/-- C++ `a <= b`: false when either side is NaN. -/
def le (a b : F32) : Bool :=
  match a.key, b.key with
  | some x, some y => decide (x ≤ y)
  | _, _ => false

/-- `std::numeric_limits<float>::max()` (`FLT_MAX`). -/
def fmax : F32 := ⟨0x7f7fffff#32⟩

/-- `+0.0f`. -/
def zero : F32 := ⟨0#32⟩

/-- `1.0f`. -/
def one : F32 := ⟨0x3f800000#32⟩

/-- Positive infinity. -/
def inf : F32 := ⟨0x7f800000#32⟩

/-- A quiet NaN. -/
def nan : F32 := ⟨0x7fc00000#32⟩

/-- The value is a finite number or `-inf`, i.e. is smaller than or equal to `FLT_MAX`. -/
def LeMax (x : F32) : Prop := x.le fmax = true

theorem not_lt_iff_le {a b : F32} (ha : a.IsNum) (hb : b.IsNum) :
    (a.lt b = false) ↔ b.le a = true := by
  unfold IsNum at ha hb
  unfold lt le
  cases h1 : a.key <;> cases h2 : b.key <;> simp_all

theorem lt_eq_false_of_le {a b : F32} (h : b.le a = true) : a.lt b = false := by
  unfold lt le at *
  cases h1 : a.key <;> cases h2 : b.key <;> simp_all

theorem le_of_lt {a b : F32} (h : a.lt b = true) : a.le b = true := by
  unfold lt le at *
  cases h1 : a.key <;> cases h2 : b.key <;> simp_all
  omega

theorem le_refl {a : F32} (ha : a.IsNum) : a.le a = true := by
  unfold IsNum at ha
  unfold le
  cases h1 : a.key <;> simp_all

theorem le_trans {a b c : F32} (h1 : a.le b = true) (h2 : b.le c = true) : a.le c = true := by
  unfold le at *
  cases ha : a.key <;> cases hb : b.key <;> cases hc : c.key <;> simp_all
  omega

theorem le_total {a b : F32} (ha : a.IsNum) (hb : b.IsNum) : a.le b = true ∨ b.le a = true := by
  unfold IsNum at ha hb
  unfold le
  cases h1 : a.key <;> cases h2 : b.key <;> simp_all
  omega

theorem lt_of_lt_of_le {a b c : F32} (h1 : a.lt b = true) (h2 : b.le c = true) : a.lt c = true := by
  unfold lt le at *
  cases ha : a.key <;> cases hb : b.key <;> cases hc : c.key <;> simp_all
  omega

theorem lt_of_le_of_lt {a b c : F32} (h1 : a.le b = true) (h2 : b.lt c = true) : a.lt c = true := by
  unfold lt le at *
  cases ha : a.key <;> cases hb : b.key <;> cases hc : c.key <;> simp_all
  omega

theorem lt_irrefl (a : F32) : a.lt a = false := by
  unfold lt
  cases h1 : a.key <;> simp

theorem lt_trans {a b c : F32} (h1 : a.lt b = true) (h2 : b.lt c = true) : a.lt c = true :=
  lt_of_lt_of_le h1 (le_of_lt h2)

theorem le_of_not_lt {a b : F32} (ha : a.IsNum) (hb : b.IsNum) (h : a.lt b = false) :
    b.le a = true := (not_lt_iff_le ha hb).1 h

theorem not_le_iff_lt {a b : F32} (ha : a.IsNum) (hb : b.IsNum) :
    (a.le b = false) ↔ b.lt a = true := by
  unfold IsNum at ha hb
  unfold lt le
  cases h1 : a.key <;> cases h2 : b.key <;> simp_all

theorem isNum_of_le_left {a b : F32} (h : a.le b = true) : a.IsNum := by
  unfold IsNum; unfold le at h
  cases h1 : a.key <;> simp_all

theorem isNum_of_le_right {a b : F32} (h : a.le b = true) : b.IsNum := by
  unfold IsNum; unfold le at h
  cases h1 : a.key <;> cases h2 : b.key <;> simp_all

theorem isNum_of_lt_left {a b : F32} (h : a.lt b = true) : a.IsNum := isNum_of_le_left (le_of_lt h)
theorem isNum_of_lt_right {a b : F32} (h : a.lt b = true) : b.IsNum := isNum_of_le_right (le_of_lt h)

theorem isNum_fmax : fmax.IsNum := by decide

/-- FLT_MAX is below infinity, 0 < 1 < FLT_MAX, NaN compares false: the comparison is the IEEE one. -/
example : zero.lt one = true ∧ one.lt fmax = true ∧ fmax.lt inf = true ∧ nan.lt one = false ∧
    one.lt nan = false ∧ nan.le nan = false ∧
    (⟨0x80000000#32⟩ : F32).lt zero = false ∧ (⟨0x80000000#32⟩ : F32).le zero = true ∧
    (⟨0xbf800000#32⟩ : F32).lt zero = true := by decide

end F32
end Grann
