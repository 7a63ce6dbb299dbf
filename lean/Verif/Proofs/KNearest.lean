import Verif.Spec.Search
import Mathlib.Data.List.Basic
import Mathlib.Data.List.Perm.Basic
import Mathlib.Data.List.Dedup
import Mathlib.Data.Finset.Dedup
import Mathlib.Tactic.Common

namespace Spec
open Grann (F32)

theorem take_cons_drop_perm {α : Type} (P : List α) (x : α) (r : Nat) :
    (P.take r ++ x :: P.drop r).Perm (x :: P) := by
  have h : (P.take r ++ x :: P.drop r).Perm (x :: (P.take r ++ P.drop r)) := List.perm_middle
  rwa [List.take_append_drop] at h

theorem KNearest.length_le {k : Nat} {S : Finset Nat} {d : Nat → F32} {P : List (Nat × F32)}
    (h : KNearest k S d P) : P.length ≤ k := by rw [h.length]; omega

/-- A short list contains everything. -/
theorem KNearest.all_of_short {k : Nat} {S : Finset Nat} {d : Nat → F32} {P : List (Nat × F32)}
    (h : KNearest k S d P) (hlt : P.length < k) : ∀ i ∈ S, i ∈ P.map Prod.fst := by
  have hc : P.length = S.card := by have := h.length; omega
  have hsub : (P.map Prod.fst).toFinset ⊆ S := by
    intro i hi
    simp only [List.mem_toFinset, List.mem_map] at hi
    obtain ⟨x, hx, rfl⟩ := hi
    exact (h.mem x hx).1
  have hcard : (P.map Prod.fst).toFinset.card = S.card := by
    rw [List.toFinset_card_of_nodup h.nodup]; simp [hc]
  have := Finset.eq_of_subset_of_card_le hsub (by omega)
  intro i hi
  rw [← this] at hi
  simpa using hi

/-- Skipping a new point when the list is full and its last entry is at least as close. -/
theorem KNearest.skip {k : Nat} {S : Finset Nat} {d : Nat → F32} {P : List (Nat × F32)}
    (h : KNearest k S d P) (hk : P.length = k) (id : Nat) (hid : id ∉ S)
    (hl : ∀ x ∈ P, x.2.le (d id) = true) : KNearest k (insert id S) d P where
  sorted := h.sorted
  nodup := h.nodup
  mem := fun x hx => ⟨Finset.mem_insert_of_mem (h.mem x hx).1, (h.mem x hx).2⟩
  length := by
    rw [Finset.card_insert_of_notMem hid]
    have := h.length
    omega
  best := by
    intro i hi hni x hx
    rcases Finset.mem_insert.1 hi with rfl | hi
    · exact hl x hx
    · exact h.best i hi hni x hx

/-- Inserting a new point at an order-respecting position and cutting back to `k` entries. -/
theorem KNearest.insertAt {k : Nat} {S : Finset Nat} {d : Nat → F32} {P : List (Nat × F32)}
    (h : KNearest k S d P) (id : Nat) (hid : id ∉ S) (r : Nat) (hr : r ≤ P.length)
    (hb : ∀ x ∈ P.take r, x.2.le (d id) = true) (ha : ∀ x ∈ P.drop r, (d id).le x.2 = true) :
    KNearest k (insert id S) d ((P.take r ++ (id, d id) :: P.drop r).take k) := by
  set Q := P.take r ++ (id, d id) :: P.drop r with hQ
  have hperm : Q.Perm ((id, d id) :: P) := take_cons_drop_perm P _ r
  have hsort : Q.Pairwise (fun x y => x.2.le y.2 = true) := by
    rw [hQ, List.pairwise_append]
    refine ⟨h.sorted.sublist (List.take_sublist _ _), ?_, ?_⟩
    · rw [List.pairwise_cons]
      exact ⟨ha, h.sorted.sublist (List.drop_sublist _ _)⟩
    · intro x hx y hy
      rcases List.mem_cons.1 hy with rfl | hy
      · exact hb x hx
      · exact F32.le_trans (hb x hx) (ha y hy)
  have hnod : (Q.map Prod.fst).Nodup := by
    rw [(hperm.map Prod.fst).nodup_iff, List.map_cons, List.nodup_cons]
    refine ⟨?_, h.nodup⟩
    intro hm
    obtain ⟨x, hx, hxe⟩ := List.mem_map.1 hm
    have hxe : x.1 = id := hxe
    exact hid (hxe ▸ (h.mem x hx).1)
  have hmem : ∀ x ∈ Q, x.1 ∈ insert id S ∧ x.2 = d x.1 := by
    intro x hx
    rcases List.mem_cons.1 (hperm.mem_iff.1 hx) with rfl | hx
    · exact ⟨Finset.mem_insert_self _ _, rfl⟩
    · exact ⟨Finset.mem_insert_of_mem (h.mem x hx).1, (h.mem x hx).2⟩
  have hlen : Q.length = P.length + 1 := by rw [hperm.length_eq]; rfl
  refine ⟨hsort.sublist (List.take_sublist _ _), ?_, fun x hx => hmem x (List.mem_of_mem_take hx),
    ?_, ?_⟩
  · rw [List.map_take]
    exact hnod.sublist (List.take_sublist _ _)
  · rw [List.length_take, hlen, Finset.card_insert_of_notMem hid]
    have := h.length
    omega
  · intro i hi hni x hx
    by_cases hiQ : i ∈ Q.map Prod.fst
    · obtain ⟨y, hy, rfl⟩ := List.mem_map.1 hiQ
      rw [← (hmem y hy).2]
      rw [← List.take_append_drop k Q] at hy hsort
      rw [List.pairwise_append] at hsort
      rcases List.mem_append.1 hy with hy | hy
      · exact absurd (List.mem_map_of_mem hy) hni
      · exact hsort.2.2 x hx y hy
    · have hiP : i ∉ P.map Prod.fst := fun hm => hiQ ((hperm.map Prod.fst).mem_iff.2 (by simp [hm]))
      have hine : i ≠ id := fun he => hiQ ((hperm.map Prod.fst).mem_iff.2 (by simp [he]))
      have hiS : i ∈ S := by
        rcases Finset.mem_insert.1 hi with h | h
        · exact absurd h hine
        · exact h
      have hall := h.best i hiS hiP
      have hPk : P.length = k := by
        by_contra hne
        have := h.length_le
        exact hiP (h.all_of_short (by omega) i hiS)
      -- x is one of P or the new point
      rcases Nat.lt_or_ge r k with hrk | hrk
      · have hnew : (d id).le (d i) = true := by
          have hr' : r < P.length := by omega
          have hm : P[r] ∈ P.drop r := by
            rw [List.drop_eq_getElem_cons hr']; exact List.mem_cons_self
          exact F32.le_trans (ha _ hm) (hall _ (List.getElem_mem _))
        rcases List.mem_cons.1 (hperm.mem_iff.1 (List.mem_of_mem_take hx)) with rfl | hxP
        · exact hnew
        · exact hall x hxP
      · have : r = P.length := by omega
        have hQP : Q.take k = P := by
          rw [hQ, this, List.take_length, List.drop_length, ← hPk]
          simp
        rw [hQP] at hx
        exact hall x hx

/-- The first `m` entries of a `k`-nearest list are an `m`-nearest list, for `m ≤ k`. -/
theorem KNearest.take {k m : Nat} {S : Finset Nat} {d : Nat → F32} {P : List (Nat × F32)}
    (h : KNearest k S d P) (hmk : m ≤ k) : KNearest m S d (P.take m) where
  sorted := h.sorted.sublist (List.take_sublist _ _)
  nodup := by rw [List.map_take]; exact h.nodup.sublist (List.take_sublist _ _)
  mem := fun x hx => h.mem x (List.mem_of_mem_take hx)
  length := by rw [List.length_take, h.length]; omega
  best := by
    intro i hi hni x hx
    by_cases hiP : i ∈ P.map Prod.fst
    · obtain ⟨y, hy, rfl⟩ := List.mem_map.1 hiP
      rw [← (h.mem y hy).2]
      have hs := h.sorted
      rw [← List.take_append_drop m P] at hy hs
      rw [List.pairwise_append] at hs
      rcases List.mem_append.1 hy with hy | hy
      · exact absurd (List.mem_map_of_mem hy) hni
      · exact hs.2.2 x hx y hy
    · exact h.best i hi hiP x (List.mem_of_mem_take hx)

theorem KNearest.empty (k : Nat) (d : Nat → F32) : KNearest k ∅ d [] where
  sorted := List.Pairwise.nil
  nodup := List.nodup_nil
  mem := by simp
  length := by simp
  best := by simp

end Spec
