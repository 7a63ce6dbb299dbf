/-!
# Finite maps as lists of pairs

Stand-in for `std::unordered_map`, `std::map` and `tsl::robin_map` where only look-ups and assignments are
used.  The order of iteration of the C++ containers is unspecified; models that iterate take the order as a
parameter.
-/

namespace Grann

/-- `m[k] = v`. -/
def aset {α β : Type} [DecidableEq α] : List (α × β) → α → β → List (α × β)
  | [], k, v => [(k, v)]
  | p :: m, k, v => if p.1 = k then (k, v) :: m else p :: aset m k v

theorem lookup_aset {α β : Type} [DecidableEq α] [BEq α] [LawfulBEq α] (m : List (α × β)) (k : α) (v : β) (x : α) :
    (aset m k v).lookup x = if x = k then some v else m.lookup x := by
  induction m with
  | nil =>
    unfold aset
    by_cases h : x = k
    · simp [h]
    · simp [List.lookup, h, beq_eq_false_iff_ne.2 h]
  | cons p m ih =>
    unfold aset
    by_cases hp : p.1 = k
    · rw [if_pos hp]
      by_cases h : x = k
      · simp [h]
      · rw [if_neg h]
        have : x ≠ p.1 := by rw [hp]; exact h
        simp [List.lookup, beq_eq_false_iff_ne.2 h, beq_eq_false_iff_ne.2 this]
    · rw [if_neg hp]
      by_cases hx : x = p.1
      · have hk : x ≠ k := by rw [hx]; exact hp
        simp [List.lookup, hx, hp]
      · have : (x == p.1) = false := beq_eq_false_iff_ne.2 hx
        simp only [List.lookup, this]
        exact ih

theorem mem_keys_iff_lookup {α β : Type} [DecidableEq α] [BEq α] [LawfulBEq α] (m : List (α × β)) (k : α) :
    k ∈ m.map Prod.fst ↔ ∃ v, m.lookup k = some v := by
  induction m with
  | nil => simp
  | cons p m ih =>
    rw [List.map_cons, List.mem_cons, ih]
    by_cases h : k = p.1
    · subst h; simp [List.lookup]
    · have : (k == p.1) = false := beq_eq_false_iff_ne.2 h
      simp [List.lookup, this, h]

theorem keys_aset {α β : Type} [DecidableEq α] (m : List (α × β)) (k : α) (v : β) :
    (aset m k v).map Prod.fst = if k ∈ m.map Prod.fst then m.map Prod.fst else m.map Prod.fst ++ [k] := by
  induction m with
  | nil => simp [aset]
  | cons p m ih =>
    unfold aset
    by_cases hp : p.1 = k
    · rw [if_pos hp]; simp [hp]
    · rw [if_neg hp, List.map_cons, ih, List.map_cons]
      have : k ≠ p.1 := fun h => hp h.symm
      by_cases hk : k ∈ m.map Prod.fst
      · rw [if_pos hk, if_pos (by simp [hk])]
      · rw [if_neg hk, if_neg (by simp [this]; simpa using hk)]; rfl

theorem keys_aset_nodup {α β : Type} [DecidableEq α] (m : List (α × β)) (k : α) (v : β)
    (h : (m.map Prod.fst).Nodup) : ((aset m k v).map Prod.fst).Nodup := by
  rw [keys_aset]
  split
  · exact h
  · rename_i hk
    rw [List.nodup_append]
    refine ⟨h, by simp, ?_⟩
    intro a ha b hb
    rw [List.mem_singleton] at hb
    subst hb
    intro he; subst he; exact hk ha

theorem aset_of_lookup_none {α β : Type} [DecidableEq α] [BEq α] [LawfulBEq α] (m : List (α × β)) (k : α) (v : β)
    (h : m.lookup k = none) : aset m k v = m ++ [(k, v)] := by
  induction m with
  | nil => rfl
  | cons p m ih =>
    by_cases hp : k = p.1
    · subst hp; simp [List.lookup] at h
    · have hb : (k == p.1) = false := beq_eq_false_iff_ne.2 hp
      simp only [List.lookup, hb] at h
      unfold aset
      rw [if_neg (fun h => hp h.symm), ih h]
      rfl

theorem sum_aset {α : Type} [DecidableEq α] [BEq α] [LawfulBEq α] (m : List (α × Nat)) (k : α) (v : Nat) :
    ((aset m k v).map Prod.snd).sum + (m.lookup k).getD 0 = (m.map Prod.snd).sum + v := by
  induction m with
  | nil => simp [aset]
  | cons p m ih =>
    unfold aset
    by_cases hp : k = p.1
    · subst hp
      rw [if_pos rfl]
      simp [List.lookup]
      omega
    · have hb : (k == p.1) = false := beq_eq_false_iff_ne.2 hp
      rw [if_neg (fun h => hp h.symm)]
      simp only [List.lookup, hb, List.map_cons, List.sum_cons]
      omega

end Grann
