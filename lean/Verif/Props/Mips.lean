import Verif.Proofs.Mips
import Verif.Basic.F32
import Mathlib.Analysis.Real.Sqrt
import Mathlib.Tactic.Linarith
import Mathlib.Tactic.Ring
import Mathlib.Tactic.FieldSimp
/-!
# C68: inner products reduced to distances
-/

namespace Grann

namespace Spec

/-- The inner product. -/
def realDot (x y : List ℝ) : ℝ := (List.zipWith (· * ·) x y).sum

/-- The squared Euclidean distance. -/
def realSqDist (x y : List ℝ) : ℝ := (List.zipWith (fun a b => (a - b) ^ 2) x y).sum

end Spec

/-- Exact arithmetic. -/
noncomputable def realOps : MOps ℝ :=
  ⟨0, 1, (· + ·), (· * ·), (· - ·), (· / ·), Real.sqrt, fun a b => decide (a < b), fun a b => decide (a ≤ b)⟩

theorem real_norm_from (x : List ℝ) : ∀ s : ℝ, x.foldl (fun s a => s + a * a) s = s + Spec.realDot x x := by
  unfold Spec.realDot
  induction x with
  | nil => intro s; simp
  | cons a x ih => intro s; simp [ih]; ring

theorem real_norm (x : List ℝ) : mipsNorm realOps x = Spec.realDot x x := by
  have := real_norm_from x 0
  rw [zero_add] at this
  exact this

theorem real_max (a b : ℝ) : mipsMax realOps a b = max a b := by
  unfold mipsMax realOps
  simp only [decide_eq_true_eq]
  split
  · rename_i h; rw [max_eq_left h.le]
  · rename_i h; rw [max_eq_right (not_lt.mp h)]

theorem real_foldMax (f : Bytes → List ℝ) (rows : List Bytes) :
    rows.foldl (fun m x => mipsMax realOps m (mipsNorm realOps (f x))) realOps.zero =
      rows.foldl (fun m x => max m (Spec.realDot (f x) (f x))) 0 := by
  simp only [real_max, real_norm]
  rfl

theorem le_foldMax {α : Type} (f : α → ℝ) : ∀ (l : List α) (m : ℝ), m ≤ l.foldl (fun m x => max m (f x)) m ∧
    ∀ x ∈ l, f x ≤ l.foldl (fun m x => max m (f x)) m := by
  intro l
  induction l with
  | nil => intro m; simp
  | cons a l ih =>
    intro m
    obtain ⟨h1, h2⟩ := ih (max m (f a))
    rw [List.foldl_cons]
    refine ⟨le_trans (le_max_left _ _) h1, ?_⟩
    intro x hx
    rcases List.mem_cons.mp hx with rfl | hx
    · exact le_trans (le_max_right _ _) h1
    · exact h2 x hx

theorem foldMax_mem {α : Type} (f : α → ℝ) : ∀ (l : List α) (m : ℝ),
    l.foldl (fun m x => max m (f x)) m = m ∨ ∃ x ∈ l, l.foldl (fun m x => max m (f x)) m = f x := by
  intro l
  induction l with
  | nil => intro m; simp
  | cons a l ih =>
    intro m
    rw [List.foldl_cons]
    rcases ih (max m (f a)) with h | ⟨x, hx, h⟩
    · rcases max_choice m (f a) with h' | h'
      · left; rw [h, h']
      · right; exact ⟨a, by simp, by rw [h, h']⟩
    · right; exact ⟨x, by simp [hx], h⟩

theorem dot_self_nonneg (x : List ℝ) : 0 ≤ Spec.realDot x x := by
  induction x with
  | nil => simp [Spec.realDot]
  | cons a x ih =>
    have e : Spec.realDot (a :: x) (a :: x) = a * a + Spec.realDot x x := by simp [Spec.realDot]
    rw [e]; nlinarith [mul_self_nonneg a]

theorem dot_map_div (M : ℝ) : ∀ (q x : List ℝ), Spec.realDot q (x.map (fun a => a / M)) = Spec.realDot q x / M := by
  intro q
  unfold Spec.realDot
  induction q with
  | nil => intro x; simp
  | cons a q ih =>
    intro x
    cases x with
    | nil => simp
    | cons b x => simp only [List.map_cons, List.zipWith_cons_cons, List.sum_cons, ih]; ring

theorem dot_map_div_self (M : ℝ) (x : List ℝ) :
    Spec.realDot (x.map (fun a => a / M)) (x.map (fun a => a / M)) = Spec.realDot x x / (M * M) := by
  unfold Spec.realDot
  induction x with
  | nil => simp
  | cons b x ih =>
    simp only [List.map_cons, List.zipWith_cons_cons, List.sum_cons] at ih ⊢
    rw [ih, add_div]
    congr 1
    rw [div_mul_div_comm]

theorem dot_append {a b : List ℝ} (h : a.length = b.length) (s t : ℝ) :
    Spec.realDot (a ++ [s]) (b ++ [t]) = Spec.realDot a b + s * t := by
  unfold Spec.realDot
  rw [List.zipWith_append h]
  simp

theorem realSqDist_eq : ∀ (a b : List ℝ), a.length = b.length →
    Spec.realSqDist a b = Spec.realDot a a - 2 * Spec.realDot a b + Spec.realDot b b := by
  intro a
  unfold Spec.realSqDist Spec.realDot
  induction a with
  | nil => intro b h; cases b with
    | nil => simp
    | cons _ _ => simp at h
  | cons x a ih =>
    intro b h
    cases b with
    | nil => simp at h
    | cons y b =>
      simp only [List.zipWith_cons_cons, List.sum_cons]
      rw [ih b (by simpa using h)]
      ring

/-- The largest norm. -/
noncomputable def maxNorm (X : List (List ℝ)) : ℝ := Real.sqrt (X.foldl (fun m x => max m (Spec.realDot x x)) 0)

/-- What is written for a vector. -/
noncomputable def mipsVec (M : ℝ) (x : List ℝ) : List ℝ :=
  x.map (fun a => a / M) ++ [Real.sqrt (1 - Spec.realDot x x / (M * M))]

theorem mipsRow_real (M : ℝ) (x : List ℝ) : mipsRow realOps M (mipsNorm realOps x) x = mipsVec M x := by
  unfold mipsRow mipsVec
  rw [real_norm]
  simp only [realOps, decide_eq_true_eq]
  congr 2
  split
  · rename_i h; rw [Real.sqrt_eq_zero_of_nonpos h]
  · rfl

theorem maxNorm_spec (X : List (List ℝ)) (x : List ℝ) (hx : x ∈ X) : Spec.realDot x x ≤ maxNorm X * maxNorm X := by
  obtain ⟨h1, h2⟩ := le_foldMax (fun x => Spec.realDot x x) X 0
  unfold maxNorm
  rw [Real.mul_self_sqrt h1]
  exact h2 x hx

theorem maxNorm_pos (X : List (List ℝ)) (x : List ℝ) (hx : x ∈ X) (h0 : ∃ a ∈ x, a ≠ 0) : 0 < maxNorm X := by
  have hpos : 0 < Spec.realDot x x := by
    obtain ⟨a, ha, hne⟩ := h0
    clear hx
    induction x with
    | nil => simp at ha
    | cons b x ih =>
      have e : Spec.realDot (b :: x) (b :: x) = b * b + Spec.realDot x x := by simp [Spec.realDot]
      rw [e]
      rcases List.mem_cons.mp ha with rfl | ha
      · have := mul_self_pos.mpr hne
        have := dot_self_nonneg x
        linarith
      · have := ih ha
        nlinarith [mul_self_nonneg b]
  unfold maxNorm
  rw [Real.sqrt_pos]
  exact lt_of_lt_of_le hpos ((le_foldMax (fun x => Spec.realDot x x) X 0).2 x hx)

/-- **C68 (the file).** In exact arithmetic, for every data set with at least one point and any block size: the output
has as many points and one more dimension, each vector is divided by the largest norm of the data set, and the new
coordinate is the one below. The largest norm is returned. -/
theorem C68_file (conv : Bytes → List ℝ) (es blk dim : Nat) (rows : List Bytes) (j1 j2 : Bytes)
    (hj1 : j1.length = 4) (hj2 : j2.length = 4) (hblk : 1 ≤ blk) (h0 : 1 ≤ rows.length) (hn : rows.length < 4294967296)
    (hd : dim + 1 < 4294967296) (hrow : ∀ x ∈ rows, x.length = dim * es) :
    mipsPrepare realOps conv es blk (some (Spec.binFile dim rows)) j1 j2 =
      .ok ⟨rows.length, dim + 1, (rows.map conv).map (mipsVec (maxNorm (rows.map conv))), maxNorm (rows.map conv)⟩ := by
  rw [mipsPrepare_ok realOps conv es blk dim rows j1 j2 hj1 hj2 hblk h0 hn (by omega) hrow]
  have hM : realOps.sqrt (rows.foldl (fun m x => mipsMax realOps m (mipsNorm realOps (conv x))) realOps.zero) =
      maxNorm (rows.map conv) := by
    rw [real_foldMax]
    unfold maxNorm
    rw [List.foldl_map]
    rfl
  rw [hM]
  simp only [mipsRow_real]
  rw [List.map_map]
  have hu : u32 (dim + 1) = dim + 1 := Nat.mod_eq_of_lt hd
  rw [hu]
  rfl

/-- **C68 (unit vectors).** If some vector is not zero, every vector written has norm 1. -/
theorem C68_unit (X : List (List ℝ)) (hX : ∃ x ∈ X, ∃ a ∈ x, a ≠ 0) (x : List ℝ) (hx : x ∈ X) :
    Spec.realDot (mipsVec (maxNorm X) x) (mipsVec (maxNorm X) x) = 1 := by
  obtain ⟨z, hz, hz0⟩ := hX
  have hM := maxNorm_pos X z hz hz0
  have hle := maxNorm_spec X x hx
  have hMM : 0 < maxNorm X * maxNorm X := mul_pos hM hM
  unfold mipsVec
  rw [dot_append rfl, dot_map_div_self, Real.mul_self_sqrt]
  · ring
  · rw [sub_nonneg, div_le_one hMM]; exact hle

/-- **C68.** In exact arithmetic the transformed vectors are ordered by distance exactly as the original vectors are
ordered by inner product, for every query (with a zero appended). -/
theorem C68_order (X : List (List ℝ)) (dim : Nat) (hdim : ∀ x ∈ X, x.length = dim)
    (hX : ∃ x ∈ X, ∃ a ∈ x, a ≠ 0) (q : List ℝ) (hq : q.length = dim) (x y : List ℝ) (hx : x ∈ X) (hy : y ∈ X) :
    Spec.realSqDist (q ++ [0]) (mipsVec (maxNorm X) x) ≤ Spec.realSqDist (q ++ [0]) (mipsVec (maxNorm X) y) ↔
      Spec.realDot q y ≤ Spec.realDot q x := by
  have hux := C68_unit X hX x hx
  have huy := C68_unit X hX y hy
  obtain ⟨z, hz, hz0⟩ := hX
  have hM := maxNorm_pos X z hz hz0
  have hl : ∀ v ∈ X, (q ++ [0]).length = (mipsVec (maxNorm X) v).length := by
    intro v hv; unfold mipsVec; simp [hdim v hv, hq]
  have hdot : ∀ v ∈ X, Spec.realDot (q ++ [0]) (mipsVec (maxNorm X) v) = Spec.realDot q v / maxNorm X := by
    intro v hv
    unfold mipsVec
    rw [dot_append (by simp [hdim v hv, hq]), dot_map_div]
    ring
  rw [realSqDist_eq _ _ (hl x hx), realSqDist_eq _ _ (hl y hy), hux, huy, hdot x hx, hdot y hy]
  have : Spec.realDot q y / maxNorm X ≤ Spec.realDot q x / maxNorm X ↔ Spec.realDot q y ≤ Spec.realDot q x :=
    div_le_div_iff_of_pos_right hM
  rw [← this]
  constructor <;> intro h <;> linarith

/-- **C68 (needed hypothesis).** If all vectors are zero, with IEEE rules for zero and NaN every coordinate written is
NaN. -/
theorem C68_all_zero (O : MOps F32) (hz : O.zero = F32.zero) (hmul : O.mul F32.zero F32.zero = F32.zero)
    (hadd : O.add F32.zero F32.zero = F32.zero) (hdiv : O.div F32.zero F32.zero = F32.nan)
    (hsub : O.sub O.one F32.nan = F32.nan) (hsqrt : O.sqrt F32.zero = F32.zero) (hsqrt2 : O.sqrt F32.nan = F32.nan)
    (hle : O.le = F32.le)
    (conv : Bytes → List F32) (es blk dim : Nat) (rows : List Bytes) (j1 j2 : Bytes)
    (hj1 : j1.length = 4) (hj2 : j2.length = 4) (hblk : 1 ≤ blk) (h0 : 1 ≤ rows.length) (hn : rows.length < 4294967296)
    (hd : dim < 4294967296) (hrow : ∀ x ∈ rows, x.length = dim * es)
    (hzero : ∀ x ∈ rows, conv x = List.replicate dim F32.zero) :
    mipsPrepare O conv es blk (some (Spec.binFile dim rows)) j1 j2 =
      .ok ⟨rows.length, u32 (dim + 1), rows.map (fun _ => List.replicate (dim + 1) F32.nan), F32.zero⟩ := by
  rw [mipsPrepare_ok O conv es blk dim rows j1 j2 hj1 hj2 hblk h0 hn hd hrow]
  have hnorm : ∀ d, mipsNorm O (List.replicate d F32.zero) = F32.zero := by
    intro d
    unfold mipsNorm
    rw [hz]
    induction d with
    | zero => rfl
    | succ d ih => rw [List.replicate_succ, List.foldl_cons, hmul, hadd]; exact ih
  have hfold : ∀ (l : List Bytes), (∀ x ∈ l, conv x = List.replicate dim F32.zero) →
      l.foldl (fun m x => mipsMax O m (mipsNorm O (conv x))) F32.zero = F32.zero := by
    intro l
    induction l with
    | nil => intro _; rfl
    | cons x l ih =>
      intro h
      rw [List.foldl_cons, h x (by simp), hnorm]
      have : mipsMax O F32.zero F32.zero = F32.zero := by unfold mipsMax; split <;> rfl
      rw [this]
      exact ih (fun y hy => h y (by simp [hy]))
  rw [hz, hfold rows hzero, hsqrt]
  congr 2
  apply List.map_congr_left
  intro x hx
  rw [hzero x hx, hnorm]
  unfold mipsRow
  dsimp only
  rw [hmul, hdiv, hsub, hle, hz, if_neg (by decide), hsqrt2, List.map_replicate, hdiv, List.replicate_succ']

/-- **C68 (needed hypothesis).** A data set without points leads to a division by zero. -/
theorem C68_no_points {K : Type} (O : MOps K) (conv : Bytes → List K) (es blk dim : Nat) (j1 j2 : Bytes)
    (hj1 : j1.length = 4) (hj2 : j2.length = 4) (hd : dim < 4294967296) :
    mipsPrepare O conv es blk (some (Spec.binFile dim [])) j1 j2 = .error .ub := by
  unfold mipsPrepare
  have hfile : Spec.binFile dim [] = le 4 0 ++ (le 4 dim ++ []) := by simp [Spec.binFile]
  rw [hfile, readHeader_le (by omega) hd hj1 hj2]
  dsimp only
  rw [if_pos (by simp)]

/-- Operations that follow the rules for zero and NaN. -/
def exOps : MOps F32 :=
  ⟨F32.zero, F32.one, fun a _ => a, fun a _ => a, fun _ b => b, fun _ b => if b = F32.zero then F32.nan else b, id, F32.lt,
    F32.le⟩

example := C68_all_zero exOps rfl rfl rfl rfl rfl rfl rfl rfl (fun b => b.map (fun _ => F32.zero)) 1 2 2
  [[0, 0], [0, 0], [0, 0]] [9, 9, 9, 9] [9, 9, 9, 9] rfl rfl (by decide) (by decide) (by decide) (by decide) (by decide)
  (by decide)

/-- **C68 (needed hypothesis).** A file shorter than its header says is not noticed: the missing second vector counts as
zero. -/
theorem C68_short_file (O : MOps F32) (conv : Bytes → List F32) (es : Nat) (x : Bytes) (hx : x.length = 2 * es)
    (hes : 1 ≤ es) (j1 j2 : Bytes) (hj1 : j1.length = 4) (hj2 : j2.length = 4) :
    ∃ out, mipsPrepare O conv es 2 (some (le 4 2 ++ (le 4 2 ++ x))) j1 j2 = .ok out ∧ out.npts = 2 ∧
      out.rows.length = 2 ∧
      out.rows = (mipsRow O out.maxNorm (mipsNorm O (conv x)) (conv x)) ::
        [mipsRow O out.maxNorm (mipsNorm O (conv (List.replicate (2 * es) 0))) (conv (List.replicate (2 * es) 0))] := by
  have hx0 : x ≠ [] := by intro h; rw [h] at hx; simp at hx; omega
  unfold mipsPrepare
  rw [readHeader_le (by omega) (by omega) hj1 hj2]
  dsimp only
  rw [show (if 2 ≤ 2 then 2 else 2) = 2 from rfl, if_neg (by omega)]
  have hr1 : (IStream.mk x false false).read (2 * (2 * es)) = (x, ⟨[], true, true⟩) := by
    unfold IStream.read
    rw [if_neg (by simp), if_neg (by dsimp only; omega)]
  have hr2 : (IStream.mk [] true true).read (2 * (2 * es)) = ([], ⟨[], true, true⟩) := rfl
  have hb : blit (List.replicate (2 * (2 * es)) 0) 0 x = .ok (x ++ List.replicate (2 * es) 0) := by
    unfold blit
    rw [if_neg hx0, if_pos (by simp; omega)]
    simp [hx]; omega
  have hsl : (List.range 2).mapM (fun p => slice (x ++ List.replicate (2 * es) 0) (p * (2 * es)) (2 * es)) =
      .ok [x, List.replicate (2 * es) 0] := by
    have h0 : slice (x ++ List.replicate (2 * es) 0) (0 * (2 * es)) (2 * es) = .ok x := by
      unfold slice; rw [if_pos (by simp; try omega), Nat.zero_mul, List.drop_zero, List.take_left' hx]
    have h1 : slice (x ++ List.replicate (2 * es) 0) (1 * (2 * es)) (2 * es) = .ok (List.replicate (2 * es) 0) := by
      unfold slice; rw [if_pos (by simp; omega), Nat.one_mul, List.drop_left' hx]
      simp
    rw [show List.range 2 = [0, 1] from rfl, List.mapM_cons, h0, Res.ok_bind, List.mapM_cons, h1]
    rfl
  have hread1 : mipsRead conv (2 * es) 2 ⟨x, false, false⟩ (List.replicate (2 * (2 * es)) 0) =
      .ok ([conv x, conv (List.replicate (2 * es) 0)], ⟨[], true, true⟩, x ++ List.replicate (2 * es) 0) := by
    unfold mipsRead
    rw [hr1]
    dsimp only
    rw [hb, Res.ok_bind, hsl]
    rfl
  have hread2 : mipsRead conv (2 * es) 2 ⟨[], true, true⟩ (x ++ List.replicate (2 * es) 0) =
      .ok ([conv x, conv (List.replicate (2 * es) 0)], ⟨[], true, true⟩, x ++ List.replicate (2 * es) 0) := by
    unfold mipsRead
    rw [hr2]
    dsimp only
    rw [show blit (x ++ List.replicate (2 * es) 0) 0 [] = .ok (x ++ List.replicate (2 * es) 0) from rfl, Res.ok_bind, hsl]
    rfl
  rw [show (2 / 2 + if 2 % 2 ≠ 0 then 1 else 0) = 0 + 1 from rfl]
  unfold mipsPass1 mipsPass2
  dsimp only
  rw [show ((if (0 + 1) * 2 < 2 then (0 + 1) * 2 else 2) - 0 * 2) = 2 from rfl, hread1, Res.ok_bind]
  dsimp only [mipsNorms, mipsPass1]
  rw [Res.ok_bind]
  dsimp only
  rw [show (IStream.mk [] true true).seek8 (some (le 4 2 ++ (le 4 2 ++ x))) = ⟨[], true, true⟩ from rfl, hread2, Res.ok_bind]
  dsimp only [mipsRows, mipsPass2]
  rw [rd_ok (by simp), Res.ok_bind, rd_ok (by simp), Res.ok_bind, Res.ok_bind, Res.ok_bind, Res.ok_bind]
  exact ⟨_, rfl, rfl, rfl, rfl⟩

example := C68_short_file exOps (fun b => b.map (fun _ => F32.one)) 1 [3, 4] rfl (by decide) [9, 9, 9, 9] [9, 9, 9, 9] rfl rfl

/-- The vectors (3, 4) and (0, 1): the first gets (0.6, 0.8, 0). -/
example := C68_order [[3, 4], [0, 1]] 2 (by simp) ⟨[3, 4], by simp, 3, by simp, by norm_num⟩ [1, 0] rfl [3, 4] [0, 1]
  (by simp) (by simp)

example : maxNorm [[3, 4], [0, 1]] = 5 := by
  unfold maxNorm Spec.realDot
  norm_num
  rw [show (25 : ℝ) = 5 ^ 2 by norm_num, Real.sqrt_sq (by norm_num)]

example := C68_file (fun b => b.map (fun x => (x.toNat : ℝ))) 1 2 2 [[3, 4], [0, 1], [1, 1]] [9, 9, 9, 9] [9, 9, 9, 9] rfl rfl
  (by decide) (by decide) (by decide) (by decide) (by decide)

/-! ## The theorems applied to the examples -/

example := C68_unit [[3, 4], [0, 1]] ⟨[3, 4], by simp, 3, by simp, by norm_num⟩ [0, 1] (by simp)

example := C68_no_points exOps (fun b => b.map (fun _ => F32.one)) 1 2 2 [9, 9, 9, 9] [9, 9, 9, 9] rfl rfl (by decide)

end Grann
