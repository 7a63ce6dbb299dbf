import Verif.Proofs.Prune
import Verif.Props.Greedy
/-!
# C20, C21 — pruning
-/

namespace Grann

open Spec (RobustPrune)

theorem mem_pickAt {α : Type} {S : List α} {I : List Nat} {x : α} (h : x ∈ pickAt S I) :
    ∃ i ∈ I, S[i]? = some x := by
  obtain ⟨i, hi, h⟩ := List.mem_filterMap.1 h
  exact ⟨i, hi, h⟩

/-- The first kept candidate is a closest one other than the point itself. -/
theorem robust_closest {S full : List Nbr} {C point R : Nat} {dom : Nbr → Nbr → Prop} {I : List Nat}
    (hS : S = full.take C)
    (hsorted : full.Pairwise (fun x y => x.dist.le y.dist = true)) (hnum : ∀ x ∈ full, x.dist.IsNum)
    (h : RobustPrune S (fun x => x.id = point) dom R I) (hR : 1 ≤ R)
    (hC : (full.filter (fun x => x.id == point)).length < C)
    (hex : ∃ x ∈ full, x.id ≠ point) :
    ∃ b rest, pickAt S I = b :: rest ∧ ∀ x ∈ full, x.id ≠ point → b.dist.le x.dist = true := by
  cases hI : I with
  | nil =>
    exfalso
    subst hI
    have hown : ∀ x ∈ S, x.id = point := by
      intro x hx
      obtain ⟨j, hj⟩ := List.getElem?_of_mem hx
      rcases h.reason j x hj (by simp) with h | ⟨i, hi, _⟩ | ⟨h, _⟩
      · exact h
      · simp at hi
      · simp at h; omega
    have hlen : S.length ≤ (full.filter (fun x => x.id == point)).length := by
      have : S = S.filter (fun x => x.id == point) :=
        (List.filter_eq_self.2 (fun x hx => by simpa using hown x hx)).symm
      rw [this, hS]
      exact ((List.take_sublist C full).filter _).length_le
    have : S = full := by
      rw [hS, List.length_take] at hlen
      rw [hS]; exact List.take_of_length_le (by omega)
    obtain ⟨x, hx, hne⟩ := hex
    exact hne (hown x (by rw [this]; exact hx))
  | cons i I' =>
    subst hI
    have hi : i < S.length := h.inRange i (by simp)
    refine ⟨S[i], pickAt S I', ?_, ?_⟩
    · unfold pickAt
      rw [List.filterMap_cons, List.getElem?_eq_getElem hi]
    · intro x hx hxp
      obtain ⟨j, hj⟩ := List.getElem?_of_mem hx
      have hif : i < full.length := by rw [hS, List.length_take] at hi; omega
      have hSi : S[i] = full[i] := by simp [hS]
      rw [hSi]
      have hjl := (List.getElem?_eq_some_iff.1 hj).1
      have hjx := (List.getElem?_eq_some_iff.1 hj).2
      by_cases hji : j < i
      · exfalso
        have hjS : S[j]? = some x := by
          rw [hS, List.getElem?_take]
          have : j < C := by rw [hS, List.length_take] at hi; omega
          simp [this, hj]
        have hinc := List.pairwise_cons.1 h.increasing
        have hge : ∀ k ∈ i :: I', i ≤ k := by
          intro k hk
          rcases List.mem_cons.1 hk with rfl | hk
          · omega
          · have := hinc.1 k hk; omega
        rcases h.reason j x hjS (fun hm => by have := hge j hm; omega) with h1 | ⟨k, hk, hkj, _⟩ | ⟨_, h1⟩
        · exact hxp h1
        · have := hge k hk; omega
        · have := h1 i (by simp); omega
      · by_cases hij : i = j
        · subst hij; rw [hjx]; exact F32.le_refl (hnum x hx)
        · rw [← hjx]
          exact List.pairwise_iff_getElem.1 hsorted i j hif hjl (by omega)

/-- **C20 (alpha rule).** For every non-empty candidate list naming existing points, every `R`, `C`,
every `alpha` not below 0 and every behaviour of `std::sort`: pruning succeeds; it returns at most `R`
identifiers, those of candidates in order of increasing distance (`kept`), never the point itself, each
candidate used at most once; and if `R ≥ 1` and the window `C` is longer than the number of entries for
the point itself, the first one returned is a closest candidate other than the point. -/
theorem C20_prune_alpha {V : Type} (sortF : List Nbr → List Nbr) (hsort : IsStdSort sortF)
    (e : PruneEnv V) (alpha : F32) (halpha : alpha.lt F32.zero = false) (C R point : Nat)
    (cands : List Nbr) (hne : cands ≠ []) (hc : ∀ x ∈ cands, e.Has x.id)
    (hnum : ∀ x ∈ cands, x.dist.IsNum) (old : List Nat) :
    ∃ kept : List Nbr, pruneAlpha sortF e alpha C R point cands old = .ok (kept.map Nbr.id) ∧
      kept.length ≤ R ∧ kept.Subperm cands ∧
      kept.Pairwise (fun x y => x.dist.le y.dist = true) ∧
      (∀ x ∈ kept, x.id ≠ point) ∧
      ((cands.map Nbr.id).Nodup → (kept.map Nbr.id).Nodup) ∧
      (1 ≤ R → (cands.filter (fun x => x.id == point)).length < C → (∃ x ∈ cands, x.id ≠ point) →
        ∃ b rest, kept = b :: rest ∧ ∀ x ∈ cands, x.id ≠ point → b.dist.le x.dist = true) := by
  obtain ⟨I, h1, h2⟩ := pruneAlpha_spec sortF hsort e alpha halpha C R point cands hne hc old
  have hperm := hsort.perm cands
  have hsub : (pickAt ((sortF cands).take C) I).Sublist (sortF cands) :=
    (pickAt_sublist _ I h2.increasing).trans (List.take_sublist _ _)
  have hsp : (pickAt ((sortF cands).take C) I).Subperm cands := hsub.subperm.trans hperm.subperm
  refine ⟨_, h1, ?_, hsp, ?_, ?_, ?_, ?_⟩
  · rw [pickAt_length h2.inRange]; exact h2.bound
  · exact List.Pairwise.sublist hsub (hsort.sorted cands hnum)
  · intro x hx
    obtain ⟨i, hi, hx⟩ := mem_pickAt hx
    exact h2.notSelf i hi x hx
  · intro hnd
    have : ((sortF cands).map Nbr.id).Nodup := (hperm.map Nbr.id).nodup_iff.2 hnd
    exact this.sublist (hsub.map _)
  · intro hR hC ⟨x, hx, hxp⟩
    obtain ⟨b, rest, hb, hle⟩ := robust_closest rfl (hsort.sorted cands hnum)
      (fun x hx => hnum x (hperm.mem_iff.1 hx)) h2 hR
      (by rw [(hperm.filter _).length_eq]; exact hC) ⟨x, hperm.mem_iff.2 hx, hxp⟩
    exact ⟨b, rest, hb, fun y hy => hle y (hperm.mem_iff.2 hy)⟩

/-- **C20 (top-K rule).** The other pruning rule returns the `R` closest candidates other than the point,
in order of distance. -/
theorem C20_prune_topK (sortF : List Nbr → List Nbr) (hsort : IsStdSort sortF) (R point : Nat)
    (cands : List Nbr) (hne : cands ≠ []) (hnum : ∀ x ∈ cands, x.dist.IsNum) (old : List Nat) :
    ∃ kept dropped : List Nbr, pruneTopK sortF R point cands old = kept.map Nbr.id ∧
      kept.length = min R (cands.filter (fun x => x.id != point)).length ∧
      (kept ++ dropped).Perm (cands.filter (fun x => x.id != point)) ∧
      kept.Pairwise (fun x y => x.dist.le y.dist = true) ∧
      (∀ x ∈ kept, ∀ y ∈ dropped, x.dist.le y.dist = true) := by
  have hperm := (hsort.perm cands).filter (fun x => x.id != point)
  have hs := (hsort.sorted cands hnum).filter (fun x => x.id != point)
  refine ⟨((sortF cands).filter (fun x => x.id != point)).take R,
    ((sortF cands).filter (fun x => x.id != point)).drop R, ?_, ?_, ?_, ?_, ?_⟩
  · unfold pruneTopK
    rw [if_neg (by simpa using hne), topKLoop_eq]
    simp [List.map_take]
  · rw [List.length_take, hperm.length_eq]
  · rw [List.take_append_drop]; exact hperm
  · exact hs.sublist (List.take_sublist _ _)
  · intro x hx y hy
    rw [← List.take_append_drop R ((sortF cands).filter _), List.pairwise_append] at hs
    exact hs.2.2 x hx y hy

/-- **C21.** The result of pruning is exactly the greedy selection: with `S` the candidates in order of
distance, the entries kept are those at the positions `I` of the first `C`, and `Spec.RobustPrune` holds:
a position is left out only because it is the point itself, because an earlier kept candidate occludes it
(distance(point, it) / distance(it, kept) > alpha and, on a labelled index, the kept one carries all its
labels), or because `R` earlier ones were kept; and no kept candidate is occluded by an earlier kept one. -/
theorem C21_prune_reasons {V : Type} (sortF : List Nbr → List Nbr) (hsort : IsStdSort sortF)
    (e : PruneEnv V) (alpha : F32) (halpha : alpha.lt F32.zero = false) (C R point : Nat)
    (cands : List Nbr) (hne : cands ≠ []) (hc : ∀ x ∈ cands, e.Has x.id)
    (hnum : ∀ x ∈ cands, x.dist.IsNum) (old : List Nat) :
    ∃ (S : List Nbr) (I : List Nat), S.Perm cands ∧ S.Pairwise (fun x y => x.dist.le y.dist = true) ∧
      pruneAlpha sortF e alpha C R point cands old
        = .ok (I.filterMap (fun i => ((S.take C)[i]?).map Nbr.id)) ∧
      RobustPrune (S.take C) (fun x => x.id = point)
        (fun x y => (e.filtered = true → ∀ l ∈ e.ctx.labels.getD y.id [], l ∈ e.ctx.labels.getD x.id []) ∧
          ∃ vx vy, e.ctx.data[x.id]? = some vx ∧ e.ctx.data[y.id]? = some vy ∧
            alpha.lt (e.div y.dist (e.ctx.cmp vy vx)) = true) R I := by
  obtain ⟨I, h1, h2⟩ := pruneAlpha_spec sortF hsort e alpha halpha C R point cands hne hc old
  refine ⟨sortF cands, I, hsort.perm cands, hsort.sorted cands hnum, ?_, h2⟩
  rw [h1]
  unfold pickAt
  rw [List.map_filterMap]

/-- The selection is determined by its specification: two position lists satisfying it are equal, so
`C21_prune_reasons` leaves no freedom beyond the order of ties. -/
theorem C21_selection_unique {α : Type} (S : List α) (own : α → Prop) (dom : α → α → Prop) (R : Nat)
    (I J : List Nat) (hI : RobustPrune S own dom R I) (hJ : RobustPrune S own dom R J) : I = J := by
  have key : ∀ j, j ∈ I ↔ j ∈ J := by
    intro j
    induction j using Nat.strongRecOn with
    | _ j ih =>
      have half : ∀ (A B : List Nat), RobustPrune S own dom R A → RobustPrune S own dom R B →
          (∀ i < j, i ∈ A ↔ i ∈ B) → j ∈ A → j ∈ B := by
        intro A B hA hB heq hj
        by_contra hjB
        have hjl := hA.inRange j hj
        rcases hB.reason j S[j] (List.getElem?_eq_getElem hjl) hjB with h | ⟨i, hi, hij, x, hx, hd⟩ | ⟨hl, hb⟩
        · exact hA.notSelf j hj _ (List.getElem?_eq_getElem hjl) h
        · exact hA.undominated i ((heq i hij).2 hi) j hj hij x _ hx (List.getElem?_eq_getElem hjl) hd
        · have hsub : (j :: B) ⊆ A := by
            intro i hi
            rcases List.mem_cons.1 hi with rfl | hi
            · exact hj
            · exact (heq i (hb i hi)).2 hi
          have hnd : (j :: B).Nodup := List.nodup_cons.2 ⟨hjB, hB.increasing.imp (fun h => Nat.ne_of_lt h)⟩
          have := (hnd.subperm hsub).length_le
          have := hA.bound
          simp at *
          omega
      exact ⟨half I J hI hJ ih, half J I hJ hI (fun i hi => (ih i hi).symm)⟩
  exact hI.increasing.eq_of_mem_iff hJ.increasing key

/-! ## Concrete instances -/

/-- Division for examples: above 1 exactly when the dividend is larger. -/
def exDiv (a b : F32) : F32 := if b.lt a then ⟨0x40000000#32⟩ else F32.one

/-- Points 0, 1, 2, 3, on a line at 0, 1, 2, 4; distances are differences (1, 2, 3, 4 as floats). -/
def exF (n : Nat) : F32 :=
  match n with
  | 0 => F32.zero | 1 => F32.one | 2 => ⟨0x40000000#32⟩ | 3 => ⟨0x40400000#32⟩ | _ => ⟨0x40800000#32⟩

def exPLine : PruneEnv Nat where
  ctx := { data := [0, 1, 2, 4], labels := [[[97]], [[97]], [[97], [98]], [[97]]], useUniv := false,
           univ := [48], cmp := fun a b => exF (a - b + (b - a)) }
  filtered := false
  div := exDiv

def exCands : List Nbr := [⟨3, exF 4, true⟩, ⟨0, exF 0, true⟩, ⟨2, exF 2, true⟩, ⟨1, exF 1, true⟩]

/-- Neighbours of point 0: the nearest, 1, occludes 2 and 3.  With labels, 1 may not occlude 2, which
carries a label that 1 lacks, but still occludes 3. -/
example : pruneAlpha exSort exPLine F32.one 10 10 0 exCands [] = .ok [1] ∧
    pruneAlpha exSort { exPLine with filtered := true } F32.one 10 10 0 exCands [] = .ok [1, 2] ∧
    pruneTopK exSort 2 0 exCands [] = [1, 2] := by decide

/-- The hypotheses of C20 and C21 hold for it. -/
example : exCands ≠ [] ∧ (∀ x ∈ exCands, exPLine.Has x.id) ∧ (∀ x ∈ exCands, x.dist.IsNum) ∧
    F32.one.lt F32.zero = false ∧ (exCands.filter (fun x => x.id == 0)).length < 10 ∧
    (∃ x ∈ exCands, x.id ≠ 0) := by
  refine ⟨by decide, ?_, by decide, by decide, by decide, by decide⟩
  unfold PruneEnv.Has
  decide

/-! ## The theorems applied to the examples -/

theorem exCands_has : ∀ x ∈ exCands, exPLine.Has x.id := by unfold PruneEnv.Has; decide

example := C20_prune_alpha exSort exSort_isStdSort exPLine F32.one (by decide) 10 10 0 exCands (by decide)
  exCands_has (by decide) []

example := C20_prune_topK exSort exSort_isStdSort 2 0 exCands (by decide) (by decide) []

example := C21_prune_reasons exSort exSort_isStdSort exPLine F32.one (by decide) 10 10 0 exCands (by decide)
  exCands_has (by decide) []

/-- Of 10, 20, 30, where 10 is the point itself and 20 makes 30 redundant, position 1 is kept, and nothing else can be. -/
example (J : List Nat) (hJ : Spec.RobustPrune [10, 20, 30] (fun x => x = 10) (fun a b => a + 10 = b) 2 J) : [1] = J := by
  refine C21_selection_unique [10, 20, 30] (fun x => x = 10) (fun a b => a + 10 = b) 2 [1] J
    ⟨by decide, by decide, by decide, ?_, ?_, ?_⟩ hJ
  · intro i hi x hx; rw [List.mem_singleton] at hi; subst hi; cases hx; decide
  · intro i hi j hj h; rw [List.mem_singleton] at hi hj; omega
  · intro j y hy hj
    rw [List.mem_singleton] at hj
    have hlt := (List.getElem?_eq_some_iff.1 hy).1
    rcases (by simp at hlt; omega : j = 0 ∨ j = 2) with rfl | rfl
    · cases hy; exact .inl rfl
    · cases hy; exact .inr (.inl ⟨1, by simp, by decide, 20, rfl, rfl⟩)

end Grann
