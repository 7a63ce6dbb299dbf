import Verif.Model.Aligned
import Verif.Spec.Aligned
/-!
# C105: vectors are aligned as the distance functions promise
-/

namespace Grann

theorem eight_dvd_roundUp8 (d : Nat) : 8 ∣ roundUp8 d := Nat.dvd_mul_left _ _

theorem dvd_u64 {a x : Nat} (ha : a ∣ 18446744073709551616) (h : a ∣ x) : a ∣ u64 x := (Nat.dvd_mod_iff ha).2 h

/-- **C105, allocation.**  The call of `aligned_alloc` for vectors is within its contract, for every number of vectors
and every dimension, also when the size wraps around. -/
theorem C105_alloc (ty : ElemTy) (npts dim : Nat) : Spec.AllocContract (alignedAllocArgs ty.size npts dim) := by
  have h8 : 8 ∣ npts * roundUp8 dim := (eight_dvd_roundUp8 dim).mul_left npts
  refine ⟨?_, ?_⟩
  · cases ty
    · exact ⟨5, rfl⟩
    · exact ⟨3, rfl⟩
    · exact ⟨3, rfl⟩
  · show 8 * ty.size ∣ u64 (npts * roundUp8 dim * ty.size)
    refine dvd_u64 ?_ (Nat.mul_dvd_mul_right h8 _)
    cases ty <;> decide

/-- **C105, alignment.**  Every vector of a block that `aligned_alloc` has aligned as asked for has the alignment that
the distance functions promise to the compiler. -/
theorem C105_rows (ty : ElemTy) (npts dim base i : Nat) (hb : (alignedAllocArgs ty.size npts dim).1 ∣ base) :
    ty.promised ∣ rowAddr ty.size base (roundUp8 dim) i := by
  have hb : 8 * ty.size ∣ base := hb
  have hp : ty.promised = 8 * ty.size := by cases ty <;> rfl
  rw [hp]
  exact Nat.dvd_add hb (Nat.mul_dvd_mul_right ((eight_dvd_roundUp8 dim).mul_right i) _)

/-- **C105, the rounding is needed.**  With vectors stored one after the other without padding, all vectors would have
the promised alignment only if 8 divides the dimension. -/
theorem C105_padding_needed (ty : ElemTy) (dim base : Nat) (hb : 8 * ty.size ∣ base) :
    (∀ i, ty.promised ∣ rowAddr ty.size base dim i) ↔ 8 ∣ dim := by
  have hp : ty.promised = 8 * ty.size := by cases ty <;> rfl
  have hs : 0 < ty.size := by cases ty <;> decide
  rw [hp]
  constructor
  · intro h
    have := (Nat.dvd_add_right hb).1 (h 1)
    rw [Nat.mul_one] at this
    exact Nat.dvd_of_mul_dvd_mul_right hs this
  · intro h i
    exact Nat.dvd_add hb (Nat.mul_dvd_mul_right (h.mul_right i) _)

/-- **C105, room.**  Unless the size wraps around, every vector with its padding is inside of the block. -/
theorem C105_inside (ty : ElemTy) (npts dim base i : Nat) (hw : npts * roundUp8 dim * ty.size < 18446744073709551616)
    (hi : i < npts) : base ≤ rowAddr ty.size base (roundUp8 dim) i ∧
    rowAddr ty.size base (roundUp8 dim) i + roundUp8 dim * ty.size ≤ base + (alignedAllocArgs ty.size npts dim).2 := by
  refine ⟨Nat.le_add_right _ _, ?_⟩
  have e : (alignedAllocArgs ty.size npts dim).2 = npts * roundUp8 dim * ty.size := Nat.mod_eq_of_lt hw
  rw [e]
  show base + roundUp8 dim * i * ty.size + roundUp8 dim * ty.size ≤ _
  have : roundUp8 dim * i * ty.size + roundUp8 dim * ty.size = (i + 1) * roundUp8 dim * ty.size := by
    rw [Nat.succ_mul, Nat.add_mul, Nat.mul_comm i]
  rw [Nat.add_assoc, this]
  exact Nat.add_le_add_left (Nat.mul_le_mul_right _ (Nat.mul_le_mul_right _ hi)) _

/-- **C105, the ground-truth programs.**  Their calls of `aligned_alloc` are within the contract exactly if the number of
elements (modulo 2^62) is a multiple of 128. -/
theorem C105_truth (npts dim : Nat) : Spec.AllocContract (truthAllocArgs npts dim) ↔ 128 ∣ npts * dim := by
  have h128 : (128 : Nat) ∣ 18446744073709551616 := by decide
  constructor
  · rintro ⟨_, h⟩
    have h : 512 ∣ u64 (4 * u64 (npts * dim)) := h
    have h2 : 512 ∣ 4 * u64 (npts * dim) := (Nat.dvd_mod_iff (by decide)).1 h
    have h3 : 4 * 128 ∣ 4 * u64 (npts * dim) := h2
    exact (Nat.dvd_mod_iff h128).1 (Nat.dvd_of_mul_dvd_mul_left (by decide) h3)
  · intro h
    refine ⟨⟨9, rfl⟩, dvd_u64 (a := 512) (by decide) ?_⟩
    exact Nat.mul_dvd_mul_left 4 (dvd_u64 h128 h)

/-- A hundred vectors of dimension 100: within the contract for the index, not for the ground truth. -/
example : Spec.AllocContract (alignedAllocArgs 4 100 100) ∧ ¬ Spec.AllocContract (truthAllocArgs 100 100) :=
  ⟨C105_alloc .float 100 100, fun h => absurd ((C105_truth 100 100).1 h) (by decide)⟩

example : rowAddr 4 4096 (roundUp8 100) 3 = 4096 + 1248 ∧ ElemTy.float.promised ∣ rowAddr 4 4096 (roundUp8 100) 3 :=
  ⟨by decide, C105_rows .float 10 100 4096 3 (by decide)⟩

example := C105_inside .float 100 100 4096 99 (by decide) (by decide)

/-- Rows of 100 floats, not padded, are not all aligned; rows of 104 are. -/
example : (¬ ∀ i, ElemTy.float.promised ∣ rowAddr ElemTy.float.size 4096 100 i) ∧
    ∀ i, ElemTy.float.promised ∣ rowAddr ElemTy.float.size 4096 104 i :=
  ⟨fun h => absurd ((C105_padding_needed .float 100 4096 (by decide)).1 h) (by decide),
    (C105_padding_needed .float 104 4096 (by decide)).2 (by decide)⟩

end Grann
