import Verif.Model.FloatLoops
import Verif.Proofs.FloatSum
import Mathlib.Data.List.Count
import Mathlib.Data.List.Perm.Basic
/-!
# The loops as they are written are ways to evaluate the sums
-/

namespace Grann

open Spec

/-! ### The loop of `DistanceL2::compare` -/

/-- Adding the products one after the other to 0. -/
def serial : Nat → SumTree
  | 0 => .init
  | n + 1 => .add (serial n) (.term n)

theorem serial_leaves (n : Nat) : (serial n).leaves = List.range n := by
  induction n with
  | zero => rfl
  | succ n ih => rw [serial, SumTree.leaves, ih, List.range_succ]; rfl

theorem serial_sums (n : Nat) : (serial n).Sums n := by
  unfold SumTree.Sums
  rw [serial_leaves]

theorem serial_height (n : Nat) : (serial n).height = n := by
  induction n with
  | zero => rfl
  | succ n ih => simp [serial, SumTree.height, ih]

theorem serial_ops (n : Nat) : (serial n).ops = 2 * n := by
  induction n with
  | zero => rfl
  | succ n ih => simp only [serial, SumTree.ops, ih]; omega

theorem l2LoopF_serial (ftz : Bool) (a b : List F32) : ∀ (todo i : Nat) (r : F32), i + todo ≤ a.length → i + todo ≤ b.length →
    (serial i).eval ftz (l2Factor ftz a b) = .ok r → l2LoopF ftz a b todo i r = (serial (i + todo)).eval ftz (l2Factor ftz a b) := by
  intro todo
  induction todo with
  | zero => intro i r _ _ h; exact h.symm
  | succ todo ih =>
    intro i r ha hb h
    have hf : l2Factor ftz a b i = .ok (F32.sub ftz (a.getD i F32.zero) (b.getD i F32.zero), F32.sub ftz (a.getD i F32.zero) (b.getD i F32.zero)) := by
      unfold l2Factor
      rw [rd_getD_zero (by omega : i < a.length), rd_getD_zero (by omega : i < b.length)]; rfl
    unfold l2LoopF
    rw [rd_getD_zero (by omega : i < a.length), rd_getD_zero (by omega : i < b.length), Res.ok_bind, Res.ok_bind,
      ih (i + 1) _ (by omega) (by omega) (eval_add_ok h (eval_term_ok hf)), show i + 1 + todo = i + (todo + 1) by omega]

/-! ### The loops of `inner_product` -/

/-- Eight accumulators and the ways in which they are evaluated. -/
def Lanes (ftz : Bool) (f : Nat → Res (F32 × F32)) (ts : List SumTree) (s : List F32) : Prop :=
  List.Forall₂ (fun t x => t.eval ftz f = .ok x) ts s

/-- One more product for each accumulator. -/
def addTerms (off : Nat) (ts : List SumTree) : List SumTree :=
  List.zipWith (fun t j => .add t (.term (off + j))) ts (List.range 8)

theorem list8 {α : Type} {l : List α} (h : l.length = 8) : ∃ x0 x1 x2 x3 x4 x5 x6 x7, l = [x0, x1, x2, x3, x4, x5, x6, x7] := by
  match l, h with
  | [x0, x1, x2, x3, x4, x5, x6, x7], _ => exact ⟨x0, x1, x2, x3, x4, x5, x6, x7, rfl⟩

theorem dotFactor_ok {a b : List F32} {i : Nat} (ha : i < a.length) (hb : i < b.length) : dotFactor a b i = .ok (a[i], b[i]) := by
  unfold dotFactor rd
  rw [List.getElem?_eq_getElem ha, List.getElem?_eq_getElem hb]; rfl

theorem take8 {a : List F32} {off : Nat} (h : off + 8 ≤ a.length) : (a.drop off).take 8 =
    [a[off + 0], a[off + 1], a[off + 2], a[off + 3], a[off + 4], a[off + 5], a[off + 6], a[off + 7]] := by
  apply List.ext_getElem
  · simp; omega
  · intro i h1 h2
    simp only [List.length_cons, List.length_nil] at h2
    rw [List.getElem_take, List.getElem_drop]
    match i, h2 with
    | 0, _ => rfl
    | 1, _ => rfl
    | 2, _ => rfl
    | 3, _ => rfl
    | 4, _ => rfl
    | 5, _ => rfl
    | 6, _ => rfl
    | 7, _ => rfl

theorem avxDotF_lanes (ftz : Bool) {a b : List F32} {off : Nat} {ts : List SumTree} {s : List F32} (ha : off + 8 ≤ a.length) (hb : off + 8 ≤ b.length)
    (hl : ts.length = 8) (h : Lanes ftz (dotFactor a b) ts s) :
    ∃ s', avxDotF ftz a b off s = .ok s' ∧ (addTerms off ts).length = 8 ∧ Lanes ftz (dotFactor a b) (addTerms off ts) s' := by
  have hs : s.length = 8 := by rw [← h.length_eq, hl]
  obtain ⟨t0, t1, t2, t3, t4, t5, t6, t7, rfl⟩ := list8 hl
  obtain ⟨s0, s1, s2, s3, s4, s5, s6, s7, rfl⟩ := list8 hs
  unfold Lanes at h
  simp only [List.forall₂_cons, List.forall₂_nil_left_iff] at h
  obtain ⟨h0, h1, h2, h3, h4, h5, h6, h7, _⟩ := h
  have hf : ∀ j, (hj : j < 8) → dotFactor a b (off + j) = .ok (a[off + j], b[off + j]) := fun j hj => dotFactor_ok (by omega) (by omega)
  refine ⟨_, by unfold avxDotF load8; rw [if_pos ha, if_pos hb, Res.ok_bind, Res.ok_bind], by simp [addTerms], ?_⟩
  rw [take8 ha, take8 hb]
  unfold Lanes addTerms
  rw [show List.range 8 = [0, 1, 2, 3, 4, 5, 6, 7] by decide]
  simp only [List.zipWith_cons_cons, List.zipWith_nil_right, List.forall₂_cons]
  exact ⟨eval_add_ok h0 (eval_term_ok (hf 0 (by omega))), eval_add_ok h1 (eval_term_ok (hf 1 (by omega))),
    eval_add_ok h2 (eval_term_ok (hf 2 (by omega))), eval_add_ok h3 (eval_term_ok (hf 3 (by omega))),
    eval_add_ok h4 (eval_term_ok (hf 4 (by omega))), eval_add_ok h5 (eval_term_ok (hf 5 (by omega))),
    eval_add_ok h6 (eval_term_ok (hf 6 (by omega))), eval_add_ok h7 (eval_term_ok (hf 7 (by omega))), List.Forall₂.nil⟩

/-- The products in all accumulators. -/
def laneLeaves (ts : List SumTree) : List Nat := ts.flatMap SumTree.leaves

theorem addTerms_leaves {off : Nat} {ts : List SumTree} (hl : ts.length = 8) :
    (laneLeaves (addTerms off ts)).Perm (laneLeaves ts ++ List.range' off 8) := by
  obtain ⟨t0, t1, t2, t3, t4, t5, t6, t7, rfl⟩ := list8 hl
  unfold laneLeaves addTerms
  rw [show List.range 8 = [0, 1, 2, 3, 4, 5, 6, 7] by decide]
  simp only [List.zipWith_cons_cons, List.zipWith_nil_right, List.flatMap_cons, List.flatMap_nil, SumTree.leaves]
  rw [show List.range' off 8 = [off + 0, off + 1, off + 2, off + 3, off + 4, off + 5, off + 6, off + 7] from rfl]
  rw [List.perm_iff_count]
  intro x
  simp only [List.count_append, List.count_nil, List.count_cons]
  omega

/-- The trees of the accumulators after the loop over the blocks. -/
def blockTrees : Nat → List SumTree → List SumTree
  | 0, ts => ts
  | n + 1, ts => addTerms (16 * n + 8) (addTerms (16 * n) (blockTrees n ts))

theorem addTerms_length {off : Nat} {ts : List SumTree} (hl : ts.length = 8) : (addTerms off ts).length = 8 := by
  simp [addTerms, hl]

theorem blockTrees_length {n : Nat} {ts : List SumTree} (hl : ts.length = 8) : (blockTrees n ts).length = 8 := by
  induction n with
  | zero => exact hl
  | succ n ih => exact addTerms_length (addTerms_length ih)

theorem blockTrees_leaves {n : Nat} {ts : List SumTree} (hl : ts.length = 8) :
    (laneLeaves (blockTrees n ts)).Perm (laneLeaves ts ++ List.range (16 * n)) := by
  induction n with
  | zero => simp [blockTrees]
  | succ n ih =>
    unfold blockTrees
    refine (addTerms_leaves (addTerms_length (blockTrees_length hl))).trans ?_
    refine ((addTerms_leaves (blockTrees_length hl)).append_right _).trans ?_
    refine ((ih.append_right _).append_right _).trans ?_
    have : List.range (16 * (n + 1)) = List.range (16 * n) ++ (List.range' (16 * n) 8 ++ List.range' (16 * n + 8) 8) := by
      rw [List.range'_append_1, List.range_eq_range', List.range_eq_range', show 16 * (n + 1) = 16 * n + (8 + 8) by omega,
        ← List.range'_append_1 (m := 16 * n), Nat.zero_add]
    rw [List.append_assoc, List.append_assoc, this]

theorem avxLoopF_lanes (ftz : Bool) {a b : List F32} {ts : List SumTree} (hl : ts.length = 8) : ∀ (todo i : Nat) (s : List F32),
    16 * (i + todo) ≤ a.length → 16 * (i + todo) ≤ b.length → Lanes ftz (dotFactor a b) (blockTrees i ts) s →
    ∃ s', avxLoopF ftz a b todo i s = .ok s' ∧ Lanes ftz (dotFactor a b) (blockTrees (i + todo) ts) s' := by
  intro todo
  induction todo with
  | zero => intro i s _ _ h; exact ⟨s, rfl, h⟩
  | succ todo ih =>
    intro i s ha hb h
    obtain ⟨s1, e1, l1, h1⟩ := avxDotF_lanes ftz (off := 16 * i) (by omega) (by omega) (blockTrees_length hl) h
    obtain ⟨s2, e2, l2, h2⟩ := avxDotF_lanes ftz (off := 16 * i + 8) (by omega) (by omega) l1 h1
    obtain ⟨s', e, h'⟩ := ih (i + 1) s2 (by omega) (by omega) h2
    refine ⟨s', ?_, ?_⟩
    · unfold avxLoopF; rw [e1, Res.ok_bind, e2, Res.ok_bind, e]
    · rw [show i + (todo + 1) = i + 1 + todo by omega]; exact h'

/-- The sum of the accumulators. -/
def sumTrees : List SumTree → SumTree
  | [] => .init
  | t :: ts => ts.foldl .add t

theorem foldl_lanes (ftz : Bool) {f : Nat → Res (F32 × F32)} : ∀ {ts : List SumTree} {s : List F32} {t : SumTree} {x : F32},
    Lanes ftz f ts s → t.eval ftz f = .ok x → (ts.foldl .add t).eval ftz f = .ok (s.foldl (F32.add ftz) x) := by
  intro ts s t x h
  unfold Lanes at h
  induction h generalizing t x with
  | nil => exact fun e => e
  | cons h1 _ ih => exact fun e => ih (eval_add_ok e h1)

theorem sumTrees_lanes (ftz : Bool) {f : Nat → Res (F32 × F32)} {ts : List SumTree} {s : List F32} (h : Lanes ftz f ts s) :
    (sumTrees ts).eval ftz f = .ok (addUp ftz s) := by
  cases h with
  | nil => rfl
  | cons h1 h2 => exact foldl_lanes ftz h2 h1

theorem foldl_leaves (ts : List SumTree) (t : SumTree) : (ts.foldl .add t).leaves = t.leaves ++ laneLeaves ts := by
  induction ts generalizing t with
  | nil => simp [laneLeaves]
  | cons u ts ih => simp [ih, SumTree.leaves, laneLeaves]

theorem sumTrees_leaves (ts : List SumTree) : (sumTrees ts).leaves = laneLeaves ts := by
  cases ts with
  | nil => rfl
  | cons t ts => simp [sumTrees, foldl_leaves, laneLeaves]

/-- The order of the additions in `inner_product` for `D` coordinates, a multiple of 8. -/
def avxTree (D : Nat) : SumTree :=
  sumTrees (blockTrees ((D - D % 16) / 16)
    (if D % 16 ≠ 0 then addTerms (D - D % 16) (List.replicate 8 .init) else List.replicate 8 .init))

theorem avxTree_sums {D : Nat} (h : D % 8 = 0) : (avxTree D).Sums D := by
  unfold avxTree SumTree.Sums
  rw [sumTrees_leaves]
  have e0 : laneLeaves (List.replicate 8 SumTree.init) = [] := by decide
  have h16 : 16 * ((D - D % 16) / 16) = D - D % 16 := by omega
  split
  · rename_i hc
    refine (blockTrees_leaves (addTerms_length (by simp))).trans ?_
    refine ((addTerms_leaves (by simp)).append_right _).trans ?_
    rw [e0, List.nil_append, h16]
    refine List.perm_append_comm.trans ?_
    have : List.range D = List.range (D - D % 16) ++ List.range' (D - D % 16) 8 := by
      rw [List.range_eq_range', List.range_eq_range']
      conv_lhs => rw [show D = (D - D % 16) + 8 by omega, ← List.range'_append_1, Nat.zero_add]
    rw [this]
  · rename_i hc
    have hc : D % 16 = 0 := by simpa using hc
    refine (blockTrees_leaves (by simp)).trans ?_
    rw [e0, List.nil_append, h16, hc, Nat.sub_zero]

theorem height_le_of_mem {ts : List SumTree} {t : SumTree} {H : Nat} (ht : t.height ≤ H) (h : ∀ u ∈ ts, u.height ≤ H) :
    (ts.foldl .add t).height ≤ H + ts.length := by
  induction ts generalizing t H with
  | nil => exact ht
  | cons v ts ih =>
    have hv := h v (by simp)
    have := ih (t := .add t v) (H := H + 1) (by simp only [SumTree.height]; omega) (fun w hw => by have := h w (by simp [hw]); omega)
    simp only [List.foldl_cons, List.length_cons]
    omega

theorem addTerms_height {off H : Nat} {ts : List SumTree} (h : ∀ t ∈ ts, t.height ≤ H) : ∀ t ∈ addTerms off ts, t.height ≤ H + 1 := by
  intro t ht
  unfold addTerms at ht
  obtain ⟨i, hi, rfl⟩ := List.getElem_of_mem ht
  rw [List.getElem_zipWith]
  simp only [SumTree.height]
  have hl : i < ts.length := by simp at hi; omega
  have := h ts[i] (List.getElem_mem hl)
  omega

theorem blockTrees_height {n H : Nat} {ts : List SumTree} (h : ∀ t ∈ ts, t.height ≤ H) : ∀ t ∈ blockTrees n ts, t.height ≤ H + 2 * n := by
  induction n with
  | zero => exact h
  | succ n ih =>
    intro t ht
    have := addTerms_height (addTerms_height ih) t ht
    omega

theorem avxTree_height (D : Nat) (h : D % 8 = 0) : (avxTree D).height ≤ D / 8 + 7 := by
  unfold avxTree
  have h0 : ∀ t ∈ List.replicate 8 SumTree.init, t.height ≤ 0 := by
    intro t ht
    rw [List.eq_of_mem_replicate ht]; exact Nat.le_refl _
  have key : ∀ (ts : List SumTree) (H : Nat), ts.length = 8 → (∀ t ∈ ts, t.height ≤ H) → (sumTrees ts).height ≤ H + 7 := by
    intro ts H hl hH
    match ts, hl with
    | t :: ts, hl =>
      have := height_le_of_mem (ts := ts) (hH t (by simp)) (fun u hu => hH u (List.mem_cons_of_mem _ hu))
      simp only [List.length_cons] at hl
      have hl : ts.length = 7 := by omega
      rw [hl] at this
      exact this
  by_cases hc : D % 16 ≠ 0
  · rw [if_pos hc]
    have := key _ _ (blockTrees_length (addTerms_length (by simp)))
      (blockTrees_height (n := (D - D % 16) / 16) (addTerms_height (off := D - D % 16) h0))
    omega
  · rw [if_neg hc]
    have := key _ _ (blockTrees_length (by simp)) (blockTrees_height (n := (D - D % 16) / 16) h0)
    omega

end Grann
