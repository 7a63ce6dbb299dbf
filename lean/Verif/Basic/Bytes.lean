import Verif.Basic.Res
import Mathlib.Data.UInt
import Mathlib.Algebra.Order.Ring.Nat
import Mathlib.Tactic.Ring
/-!
# Bytes, little-endian numbers, input streams, files

Modelling vocabulary for files.  A file is a list of bytes, a file system maps names to files.  Errors of
the storage device (disk full, I/O errors, permissions) are not modelled.
-/

namespace Grann

abbrev Bytes := List UInt8

/-- The `k` low-order bytes of `x`, as a little-endian machine writes an integer of `k` bytes. -/
def le : Nat → Nat → Bytes
  | 0, _ => []
  | k + 1, x => UInt8.ofNat (x % 256) :: le k (x / 256)

/-- The number represented by bytes read into an unsigned integer. -/
def unle : Bytes → Nat
  | [] => 0
  | b :: bs => b.toNat + 256 * unle bs

@[simp] theorem le_length (k x : Nat) : (le k x).length = k := by
  induction k generalizing x with
  | zero => rfl
  | succ k ih => simp [le, ih]

theorem unle_le (k x : Nat) : unle (le k x) = x % 256 ^ k := by
  induction k generalizing x with
  | zero => simp [le, unle, Nat.mod_one]
  | succ k ih =>
    simp only [le, unle, ih]
    rw [UInt8.toNat_ofNat']
    rw [Nat.pow_succ (n := 256), Nat.mul_comm (256 ^ k) 256, Nat.mod_mul]
    have : x % 256 % 2 ^ 8 = x % 256 := by omega
    rw [this]

theorem unle_le_of_lt {k x : Nat} (h : x < 256 ^ k) : unle (le k x) = x := by
  rw [unle_le, Nat.mod_eq_of_lt h]

theorem unle_lt (bs : Bytes) : unle bs < 256 ^ bs.length := by
  induction bs with
  | nil => simp [unle]
  | cons b bs ih =>
    have := b.toNat_lt
    simp only [unle, List.length_cons, Nat.pow_succ]
    omega

theorem le_unle (bs : Bytes) : le bs.length (unle bs) = bs := by
  induction bs with
  | nil => rfl
  | cons b bs ih =>
    have hb := b.toNat_lt
    simp only [List.length_cons, le, unle]
    rw [show (b.toNat + 256 * unle bs) % 256 = b.toNat by omega,
      show (b.toNat + 256 * unle bs) / 256 = unle bs by omega, ih]
    simp

theorem unle_append (a b : Bytes) : unle (a ++ b) = unle a + 256 ^ a.length * unle b := by
  induction a with
  | nil => simp [unle]
  | cons x a ih => simp only [List.cons_append, unle, ih, List.length_cons, Nat.pow_succ]; ring

theorem unle_zeros (k : Nat) : unle (List.replicate k 0) = 0 := by
  induction k with
  | zero => rfl
  | succ k ih => simp [List.replicate_succ, unle, ih]

/-- A sequence of 4-byte unsigned integers, as written by `write((char*) v.data(), v.size() * 4)`. -/
def le32s (l : List Nat) : Bytes := l.flatMap (le 4)

@[simp] theorem le32s_length (l : List Nat) : (le32s l).length = 4 * l.length := by
  induction l with
  | nil => rfl
  | cons x l ih => simp only [le32s, List.flatMap_cons, List.length_append, le_length, List.length_cons] at *; omega

/-- Interpreting bytes in memory as 4-byte unsigned integers. -/
def un32s : Nat → Bytes → List Nat
  | 0, _ => []
  | n + 1, bs => unle (bs.take 4) :: un32s n (bs.drop 4)

@[simp] theorem un32s_length (n : Nat) (bs : Bytes) : (un32s n bs).length = n := by
  induction n generalizing bs with
  | zero => rfl
  | succ n ih => simp [un32s, ih]

theorem un32s_le32s (l : List Nat) (h : ∀ x ∈ l, x < 4294967296) (rest : Bytes) :
    un32s l.length (le32s l ++ rest) = l := by
  induction l with
  | nil => rfl
  | cons x l ih =>
    have e : le32s (x :: l) ++ rest = le 4 x ++ (le32s l ++ rest) := by simp [le32s]
    rw [e, List.length_cons, un32s, List.take_left' (le_length 4 x), List.drop_left' (le_length 4 x),
      unle_le_of_lt (h x (by simp)), ih (fun y hy => h y (by simp [hy]))]

/-- An `std::ifstream` in the middle of a file: the bytes not read yet and the two error flags. -/
structure IStream where
  rest : Bytes
  eof : Bool
  fail : Bool
  deriving DecidableEq, Repr

/-- Opening a file for reading; if it does not exist the stream is in the fail state, but not at its
end. -/
def IStream.open : Option Bytes → IStream
  | none => ⟨[], false, true⟩
  | some b => ⟨b, false, false⟩

/-- `in.read(p, n)`: the bytes stored at `p` (at most `n`, the rest of the memory at `p` keeps its
contents) and the stream afterwards. -/
def IStream.read (s : IStream) (n : Nat) : Bytes × IStream :=
  if s.eof || s.fail then ([], { s with fail := true })
  else if n ≤ s.rest.length then (s.rest.take n, { s with rest := s.rest.drop n })
  else (s.rest, ⟨[], true, true⟩)

/-- Reading an integer variable that held the bytes `old`. -/
def IStream.readInt (s : IStream) (old : Bytes) : Nat × IStream :=
  let (b, s') := s.read old.length
  (unle (b ++ old.drop b.length), s')

theorem IStream.read_append (a b : Bytes) :
    (IStream.mk (a ++ b) false false).read a.length = (a, ⟨b, false, false⟩) := by
  simp [IStream.read]

theorem IStream.readInt_le (x k : Nat) (rest old : Bytes) (ho : old.length = k) (hx : x < 256 ^ k) :
    (IStream.mk (le k x ++ rest) false false).readInt old = (x, ⟨rest, false, false⟩) := by
  unfold IStream.readInt
  have := IStream.read_append (le k x) rest
  rw [le_length] at this
  rw [ho, this]
  simp only [le_length]
  rw [List.drop_eq_nil_of_le (by omega), List.append_nil, unle_le_of_lt hx]

/-- Storing bytes at an offset of an array; nothing happens for an empty list of bytes. -/
def blit (mem : Bytes) (off : Nat) (b : Bytes) : Res Bytes :=
  if b = [] then .ok mem
  else if off + b.length ≤ mem.length then .ok (mem.take off ++ b ++ mem.drop (off + b.length))
  else .error .ub

/-- A file system restricted to the files with names in `P`. -/
abbrev FS (P : Type) := P → Option Bytes

/-- Changes made to files.  `create` is the opening of an output stream (which truncates), `append` the
writing of bytes at its end, `patch` overwriting bytes at the beginning, `remove` deletion. -/
inductive FOp (P : Type)
  | create (p : P)
  | append (p : P) (b : Bytes)
  | patch (p : P) (b : Bytes)
  | remove (p : P)

/-- One change. -/
def FOp.run {P : Type} [DecidableEq P] : FOp P → FS P → FS P
  | .create p, fs => fun q => if q = p then some [] else fs q
  | .append p b, fs => fun q => if q = p then (fs p).map (· ++ b) else fs q
  | .patch p b, fs => fun q => if q = p then (fs p).map (fun c => b ++ c.drop b.length) else fs q
  | .remove p, fs => fun q => if q = p then none else fs q

/-- A sequence of changes. -/
def runOps {P : Type} [DecidableEq P] (ops : List (FOp P)) (fs : FS P) : FS P :=
  ops.foldl (fun fs op => op.run fs) fs

theorem runOps_append {P : Type} [DecidableEq P] (a b : List (FOp P)) (fs : FS P) :
    runOps (a ++ b) fs = runOps b (runOps a fs) := by
  simp [runOps]

end Grann
