import Verif.Model.Pool
import Mathlib.Data.List.Basic
import Mathlib.Data.List.Perm.Basic
import Mathlib.Tactic.Common

namespace Grann

theorem u32_pred {K : Nat} (h1 : 1 ≤ K) (h2 : K < 4294967296) : u32 (K + 4294967295) = K - 1 := by
  unfold u32; omega

/-! ## memmove -/

theorem memmoveUp_append (P : List Nbr) (x : Nbr) (rest : List Nbr) (r : Nat) (hr : r < P.length) :
    memmoveUp (P ++ x :: rest) r P.length
      = .ok (P.take (r + 1) ++ P.drop r ++ rest) := by
  unfold memmoveUp
  rw [if_pos hr, if_pos (by simp)]
  congr 1
  have h1 : (P ++ x :: rest).take (r + 1) = P.take (r + 1) := by
    rw [List.take_append_of_le_length (by omega)]
  have h2 : ((P ++ x :: rest).drop r).take (P.length - r) = P.drop r := by
    rw [List.drop_append_of_le_length (by omega), List.take_append_of_le_length (by simp)]
    rw [List.take_of_length_le (by simp)]
  have h3 : (P ++ x :: rest).drop (P.length + 1) = rest := by
    rw [List.drop_append]; simp
  rw [h1, h2, h3]

theorem set_take_append (P Q : List Nbr) (r : Nat) (hr : r < P.length) (nn : Nbr) :
    (P.take (r + 1) ++ Q).set r nn = P.take r ++ nn :: Q := by
  rw [List.take_add_one, List.getElem?_eq_getElem hr]
  simp only [Option.toList, List.append_assoc, List.singleton_append]
  rw [List.set_append_right _ _ (List.length_take_le _ _)]
  have : r - (List.take r P).length = 0 := by simp; omega
  rw [this]
  rfl

theorem memmove_then_write (P : List Nbr) (x : Nbr) (rest : List Nbr) (r : Nat) (hr : r < P.length)
    (nn : Nbr) :
    (memmoveUp (P ++ x :: rest) r P.length >>= fun a' => wr a' r nn)
      = .ok (P.take r ++ nn :: P.drop r ++ rest) := by
  rw [memmoveUp_append P x rest r hr]
  simp only [Res.ok_bind]
  rw [wr_ok (by simp; omega)]
  rw [List.append_assoc, set_take_append P _ r hr]
  simp

/-! ## Binary search -/

theorem poolBsearch_spec (a : List Nbr) (d : F32) :
    ∀ (fuel left right : Nat), right ≤ 2147483648 → right < a.length → left ≤ right → right - left < fuel →
    ∃ l' r', poolBsearch a d fuel left right = .ok (l', r') ∧ left ≤ l' ∧ l' ≤ r' ∧ r' ≤ right ∧
      r' ≤ l' + 1 ∧
      (r' = right ∨ ∃ h : r' < a.length, d.lt (a[r']).dist = true) ∧
      (l' = left ∨ ∃ h : l' < a.length, d.lt (a[l']).dist = false) := by
  intro fuel
  induction fuel with
  | zero => intro left right _ _ _ h; omega
  | succ fuel ih =>
    intro left right hb hr hlr hf
    unfold poolBsearch
    by_cases hc : right > 1 ∧ left < right - 1
    · rw [if_pos hc]
      have hmid : (left + right) / 2 < a.length := by omega
      have hw : u32 (left + right) = left + right := by unfold u32; omega
      show ∃ l' r', (rd a (u32 (left + right) / 2) >>= _) = _ ∧ _
      rw [hw]
      rw [rd_ok hmid]
      simp only [Res.ok_bind]
      by_cases hlt : d.lt (a[(left + right) / 2]).dist = true
      · rw [if_pos hlt]
        obtain ⟨l', r', h1, h2, h3, h4, h5, h6, h7⟩ :=
          ih left ((left + right) / 2) (by omega) hmid (by omega) (by omega)
        refine ⟨l', r', h1, h2, h3, by omega, h5, ?_, h7⟩
        right
        rcases h6 with h6 | h6
        · subst h6; exact ⟨hmid, hlt⟩
        · exact h6
      · rw [if_neg hlt]
        obtain ⟨l', r', h1, h2, h3, h4, h5, h6, h7⟩ :=
          ih ((left + right) / 2) right hb hr (by omega) (by omega)
        refine ⟨l', r', h1, by omega, h3, h4, h5, h6, ?_⟩
        right
        rcases h7 with h7 | h7
        · subst h7; exact ⟨hmid, by simpa using hlt⟩
        · exact h7
    · rw [if_neg hc]
      exact ⟨left, right, rfl, Nat.le_refl _, hlr, Nat.le_refl _, by omega, Or.inl rfl, Or.inl rfl⟩

/-! ## Equal-id scan -/

theorem poolScan_spec (a : List Nbr) (nn : Nbr) :
    ∀ (left : Nat), left < a.length →
    (poolScan a nn left = .ok none ∧ ∃ i, i ≤ left ∧ ∃ h : i < a.length, (a[i]).id = nn.id) ∨
    (∃ l'', poolScan a nn left = .ok (some l'') ∧ l'' ≤ left ∧
      (∀ i, l'' < i → i ≤ left → ∀ h : i < a.length, (a[i]).id ≠ nn.id) ∧
      (l'' = 0 ∨ ∃ h : l'' < a.length, (a[l'']).dist.lt nn.dist = true)) := by
  intro left
  induction left with
  | zero =>
    intro h
    right
    exact ⟨0, rfl, Nat.le_refl _, fun i h1 h2 => by omega, Or.inl rfl⟩
  | succ left ih =>
    intro h
    unfold poolScan
    rw [rd_ok h]
    simp only [Res.ok_bind]
    by_cases h1 : (a[left + 1]).dist.lt nn.dist = true
    · rw [if_pos h1]
      right
      exact ⟨left + 1, rfl, Nat.le_refl _, fun i h1 h2 => by omega, Or.inr ⟨h, h1⟩⟩
    · rw [if_neg h1]
      by_cases h2 : (a[left + 1]).id = nn.id
      · rw [if_pos h2]
        left
        exact ⟨rfl, left + 1, Nat.le_refl _, h, h2⟩
      · rw [if_neg h2]
        rcases ih (by omega) with ⟨e, i, hi, hl, hid⟩ | ⟨l'', e, hle, hne, h0⟩
        · left; exact ⟨e, i, by omega, hl, hid⟩
        · right
          refine ⟨l'', e, by omega, ?_, h0⟩
          intro i hi1 hi2 hl
          rcases Nat.lt_or_ge left i with hh | hh
          · have : i = left + 1 := by omega
            subst this; exact h2
          · exact hne i hi1 hh hl

/-- Sortedness by distance. -/
def SortedD (P : List Nbr) : Prop := P.Pairwise (fun x y => x.dist.le y.dist = true)

theorem SortedD.le {P : List Nbr} (h : SortedD P) {i j : Nat} (hij : i < j) (hj : j < P.length) :
    (P[i]).dist.le (P[j]).dist = true :=
  List.pairwise_iff_getElem.1 h i j (by omega) hj hij

/-- What one call of `InsertIntoPool` does to a pool whose first `K = P.length` entries are `P`. -/
theorem insertIntoPool_cases (P : List Nbr) (x : Nbr) (rest : List Nbr) (nn : Nbr)
    (hK : 1 ≤ P.length) (hK2 : P.length ≤ 2147483649) :
    (insertIntoPool (P ++ x :: rest) P.length nn = .ok (P ++ x :: rest, P.length + 1) ∧
      ∃ y ∈ P, y.id = nn.id) ∨
    (∃ r, r ≤ P.length ∧
      insertIntoPool (P ++ x :: rest) P.length nn
        = .ok (P.take r ++ nn :: P.drop r ++ rest, r) ∧
      (SortedD P → (∀ y ∈ P, y.dist.IsNum) → nn.dist.IsNum →
        (∀ y ∈ P.take r, y.dist.le nn.dist = true) ∧ (∀ y ∈ P.drop r, nn.dist.le y.dist = true) ∧
        ∀ y ∈ P, y.id = nn.id → y.dist.lt nn.dist = true ∨ nn.dist.lt y.dist = true)) := by
  have hlen : P.length < (P ++ x :: rest).length := by simp
  have h0 : 0 < P.length := hK
  have get_eq : ∀ i (hi : i < P.length) (hi' : i < (P ++ x :: rest).length),
      (P ++ x :: rest)[i] = P[i] := fun i hi hi' => List.getElem_append_left hi
  unfold insertIntoPool
  rw [u32_pred hK (by omega)]
  rw [rd_ok (show 0 < (P ++ x :: rest).length by omega)]
  simp only [Res.ok_bind]
  rw [get_eq 0 h0]
  by_cases hb1 : nn.dist.lt (P[0]).dist = true
  · -- insert at the front
    rw [if_pos hb1]
    right
    refine ⟨0, Nat.zero_le _, ?_, ?_⟩
    · have := memmove_then_write P x rest 0 h0 nn
      rw [Res.bind_eq_ok] at this
      obtain ⟨a', e1, e2⟩ := this
      rw [e1]; simp only [Res.ok_bind]; rw [e2]; simp
    · intro hs hn hnn
      have key : ∀ y ∈ P, nn.dist.lt y.dist = true := by
        intro y hy
        obtain ⟨i, hi, rfl⟩ := List.getElem_of_mem hy
        rcases Nat.eq_zero_or_pos i with h | h
        · subst h; exact hb1
        · exact F32.lt_of_lt_of_le hb1 (hs.le h hi)
      refine ⟨by simp, ?_, ?_⟩
      · intro y hy
        exact F32.le_of_lt (key y (by simpa using hy))
      · intro y hy _; exact Or.inr (key y hy)
  · rw [if_neg hb1]
    rw [rd_ok (show P.length - 1 < (P ++ x :: rest).length by omega)]
    simp only [Res.ok_bind]
    rw [get_eq (P.length - 1) (by omega)]
    by_cases hb2 : (P[P.length - 1]).dist.lt nn.dist = true
    · -- append
      rw [if_pos hb2]
      right
      refine ⟨P.length, Nat.le_refl _, ?_, ?_⟩
      · rw [wr_ok hlen]
        simp only [Res.ok_bind]
        rw [List.set_append_right _ _ (Nat.le_refl _)]
        simp
      · intro hs hn hnn
        have key : ∀ y ∈ P, y.dist.lt nn.dist = true := by
          intro y hy
          obtain ⟨i, hi, rfl⟩ := List.getElem_of_mem hy
          rcases Nat.lt_or_ge i (P.length - 1) with h | h
          · exact F32.lt_of_le_of_lt (hs.le h (by omega)) hb2
          · have : i = P.length - 1 := by omega
            subst this; exact hb2
        refine ⟨?_, by simp, fun y hy _ => Or.inl (key y hy)⟩
        intro y hy
        exact F32.le_of_lt (key y (List.mem_of_mem_take hy))
    · rw [if_neg hb2]
      obtain ⟨l', r', e1, _, hlr, hrr, hr1, hR, hL⟩ :=
        poolBsearch_spec (P ++ x :: rest) nn.dist (P.length + 1) 0 (P.length - 1) (by omega) (by omega)
          (by omega) (by omega)
      rw [e1]
      simp only [Res.ok_bind]
      have hr'P : r' < P.length := by omega
      have hl'P : l' < P.length := by omega
      -- order facts
      have hL' : nn.dist.lt (P[l']).dist = false := by
        rcases hL with h | ⟨h, hh⟩
        · subst h; simpa using hb1
        · rw [get_eq l' hl'P h] at hh; exact hh
      have hR' : r' = P.length - 1 ∧ (P[r']).dist.lt nn.dist = false ∨
          nn.dist.lt (P[r']).dist = true := by
        rcases hR with h | ⟨h, hh⟩
        · left; subst h; exact ⟨rfl, by simpa using hb2⟩
        · right; rw [get_eq r' hr'P h] at hh; exact hh
      have upper : SortedD P → (∀ y ∈ P, y.dist.IsNum) → nn.dist.IsNum →
          ∀ i (hi : i < P.length), i < r' → (P[i]).dist.le nn.dist = true := by
        intro hs hn hnn i hi hir
        have h1 : (P[l']).dist.le nn.dist = true :=
          F32.le_of_not_lt hnn (hn _ (List.getElem_mem _)) hL'
        rcases Nat.lt_or_ge i l' with h | h
        · exact F32.le_trans (hs.le h hl'P) h1
        · have : i = l' := by omega
          subst this; exact h1
      have lower : SortedD P → (∀ y ∈ P, y.dist.IsNum) → nn.dist.IsNum →
          ∀ i (hi : i < P.length), r' ≤ i → nn.dist.le (P[i]).dist = true := by
        intro hs hn hnn i hi hir
        have h1 : nn.dist.le (P[r']).dist = true := by
          rcases hR' with ⟨_, h⟩ | h
          · exact F32.le_of_not_lt (hn _ (List.getElem_mem _)) hnn h
          · exact F32.le_of_lt h
        rcases Nat.lt_or_ge r' i with h | h
        · exact F32.le_trans h1 (hs.le h hi)
        · have : i = r' := by omega
          subst this; exact h1
      rcases poolScan_spec (P ++ x :: rest) nn l' (by omega) with
        ⟨e2, i, hi, hil, hid⟩ | ⟨l'', e2, hle, hne, h0''⟩
      · rw [e2]; simp only [Res.ok_bind]
        left
        refine ⟨trivial, P[i]'(by omega), List.getElem_mem _, ?_⟩
        rw [get_eq i (by omega) hil] at hid; exact hid
      · rw [e2]; simp only [Res.ok_bind]
        rw [rd_ok (show l'' < (P ++ x :: rest).length by omega),
          rd_ok (show r' < (P ++ x :: rest).length by omega)]
        simp only [Res.ok_bind]
        rw [get_eq l'' (by omega), get_eq r' hr'P]
        by_cases hdup : (P[l'']).id = nn.id ∨ (P[r']).id = nn.id
        · rw [if_pos hdup]
          left
          refine ⟨rfl, ?_⟩
          rcases hdup with h | h
          · exact ⟨_, List.getElem_mem _, h⟩
          · exact ⟨_, List.getElem_mem _, h⟩
        · rw [if_neg hdup]
          right
          refine ⟨r', by omega, ?_, ?_⟩
          · have := memmove_then_write P x rest r' hr'P nn
            rw [Res.bind_eq_ok] at this
            obtain ⟨a', e3, e4⟩ := this
            rw [e3]; simp only [Res.ok_bind]; rw [e4]; rfl
          · intro hs hn hnn
            refine ⟨?_, ?_, ?_⟩
            · intro y hy
              obtain ⟨i, hi, rfl⟩ := List.getElem_of_mem hy
              rw [List.getElem_take]
              exact upper hs hn hnn i (by simp at hi; omega) (by simp at hi; omega)
            · intro y hy
              obtain ⟨i, hi, rfl⟩ := List.getElem_of_mem hy
              rw [List.getElem_drop]
              exact lower hs hn hnn _ (by simp at hi; omega) (by omega)
            · intro y hy hid
              obtain ⟨i, hi, rfl⟩ := List.getElem_of_mem hy
              push Not at hdup
              -- position of the equal id
              rcases Nat.lt_or_ge i r' with hir | hir
              · -- i ≤ l'
                have hil : i ≤ l' := by omega
                have hil'' : i ≤ l'' := by
                  by_contra hc
                  exact hne i (by omega) hil (by omega) (by rw [get_eq i hi]; exact hid)
                have hil2 : i ≠ l'' := by
                  intro h; subst h; exact hdup.1 hid
                rcases h0'' with h | ⟨h, hlt⟩
                · omega
                · left
                  rw [get_eq l'' (by omega)] at hlt
                  exact F32.lt_of_le_of_lt (hs.le (by omega : i < l'') (by omega)) hlt
              · have hir2 : i ≠ r' := by
                  intro h; subst h; exact hdup.2 hid
                right
                rcases hR' with ⟨h, _⟩ | h
                · omega
                · exact F32.lt_of_lt_of_le h (hs.le (by omega : r' < i) hi)

/-- On an empty pool, insertion works exactly when the new distance is below that of slot 0. -/
theorem insertIntoPool_zero (x : Nbr) (rest : List Nbr) (nn : Nbr)
    (h : nn.dist.lt x.dist = true) :
    insertIntoPool (x :: rest) 0 nn = .ok (nn :: rest, 0) := by
  unfold insertIntoPool
  simp [rd, memmoveUp, wr, h]

theorem insertIntoPool_zero_ub (x : Nbr) (rest : List Nbr) (nn : Nbr)
    (hlen : rest.length < 4294967295) (h : nn.dist.lt x.dist = false) :
    insertIntoPool (x :: rest) 0 nn = .error .ub := by
  unfold insertIntoPool
  have : rd (x :: rest) (u32 (0 + 4294967295)) = .error .ub := rd_ub (by simp [u32]; omega)
  simp only [this]
  simp [rd, h]

end Grann
