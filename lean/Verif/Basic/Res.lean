/-!
# Outcomes of modelled C++ calls

Modelling vocabulary shared by all files (does not model a piece of code by itself).
-/

namespace Grann

/-- How a modelled C++ call can fail.
* `ub`    undefined behaviour (out-of-bounds access, division by zero, read of
  an uninitialised object, mismatched deallocation, ...)
* `throw` a C++ exception leaves the function
* `exit`  the process exits with an error status
* `loop`  the amount of fuel given to a modelled loop was not enough -/
inductive Err
  | ub | throw | exit | loop
  deriving DecidableEq, Repr

/-- Outcome of a modelled C++ call. -/
abbrev Res (α : Type) := Except Err α

instance {α : Type} [DecidableEq α] : DecidableEq (Res α) := fun a b =>
  match a, b with
  | .ok x, .ok y => if h : x = y then isTrue (by rw [h]) else isFalse (by intro h'; cases h'; exact h rfl)
  | .error x, .error y =>
      if h : x = y then isTrue (by rw [h]) else isFalse (by intro h'; cases h'; exact h rfl)
  | .ok _, .error _ => isFalse (by intro h; cases h)
  | .error _, .ok _ => isFalse (by intro h; cases h)

/-- Array read `a[i]`; outside the array it is undefined behaviour. -/
def rd {α : Type} (a : List α) (i : Nat) : Res α :=
  match a[i]? with
  | some x => .ok x
  | none => .error .ub

/-- Array write `a[i] = x`; outside the array it is undefined behaviour. -/
def wr {α : Type} (a : List α) (i : Nat) (x : α) : Res (List α) :=
  if i < a.length then .ok (a.set i x) else .error .ub

/-- Reduction of a natural number to the range of `unsigned` / `_u32`. -/
def u32 (x : Nat) : Nat := x % 4294967296

/-- Reduction of a natural number to the range of `_u64`. -/
def u64 (x : Nat) : Nat := x % 18446744073709551616

theorem rd_ok {α : Type} {a : List α} {i : Nat} (h : i < a.length) : rd a i = .ok a[i] := by
  simp [rd, List.getElem?_eq_getElem h]

theorem rd_eq_ok_iff {α : Type} {a : List α} {i : Nat} {x : α} :
    rd a i = .ok x ↔ a[i]? = some x := by
  unfold rd; cases a[i]? <;> simp

theorem rd_ub {α : Type} {a : List α} {i : Nat} (h : a.length ≤ i) : rd a i = .error .ub := by
  simp [rd, List.getElem?_eq_none h]

theorem wr_ok {α : Type} {a : List α} {i : Nat} {x : α} (h : i < a.length) :
    wr a i x = .ok (a.set i x) := by
  simp [wr, h]

theorem wr_ub {α : Type} {a : List α} {i : Nat} {x : α} (h : a.length ≤ i) :
    wr a i x = .error .ub := by
  simp [wr, Nat.not_lt.mpr h]

@[simp] theorem Res.ok_bind {α β : Type} (a : α) (f : α → Res β) :
    ((Except.ok a : Res α) >>= f) = f a := rfl

@[simp] theorem Res.err_bind {α β : Type} (e : Err) (f : α → Res β) :
    ((Except.error e : Res α) >>= f) = .error e := rfl

@[simp] theorem Res.pure_eq {α : Type} (a : α) : (pure a : Res α) = .ok a := rfl

theorem Res.bind_eq_ok {α β : Type} {x : Res α} {f : α → Res β} {b : β} :
    (x >>= f) = .ok b ↔ ∃ a, x = .ok a ∧ f a = .ok b := by
  cases x with
  | error e => simp
  | ok a => simp

end Grann
