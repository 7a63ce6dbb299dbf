import Verif.Model.StdHeap
import Verif.Proofs.Centers
/-!
# The binary heap: what comes out, and what comes out first
-/

namespace Grann

theorem getD_set' {α : Type} (l : List α) (i j : Nat) (x d : α) :
    (l.set i x).getD j d = if i = j ∧ j < l.length then x else l.getD j d := by
  simp only [List.getD, List.getElem?_set]
  by_cases h : i = j
  · subst h
    by_cases h2 : i < l.length <;> simp [h2]
  · simp [h]

variable {α : Type} [Inhabited α]

/-- Exchanging two entries. -/
theorem swap_perm {l : List α} {i j : Nat} (hi : i < l.length) (hj : j < l.length) (v : α) (hij : i ≠ j) :
    ((l.set i (l.getD j default)).set j v).Perm (l.set i v) := by
  have h := List.set_set_perm (as := l.set i v) (i := i) (j := j) (by simpa using hi) (by simpa using hj)
  refine List.Perm.trans (List.Perm.of_eq ?_) h
  apply List.ext_getElem?
  intro k
  simp only [List.getElem?_set, List.length_set, List.getElem_set, List.getD]
  by_cases h1 : j = k
  · subst h1; simp
  · by_cases h2 : i = k
    · subst h2; simp [h1, hi, hij, hj]
    · simp [h1, h2]

theorem siftUp_length (less : α → α → Bool) (v : α) : ∀ (fuel : Nat) (l : List α) (hole : Nat), (siftUp less v fuel l hole).length = l.length := by
  intro fuel
  induction fuel with
  | zero => intro l hole; simp [siftUp]
  | succ n ih =>
    intro l hole
    unfold siftUp
    split
    · simp
    · dsimp only; split
      · rw [ih]; simp
      · simp

theorem siftUp_perm (less : α → α → Bool) (v : α) : ∀ (fuel : Nat) (l : List α) (hole : Nat), hole < l.length →
    (siftUp less v fuel l hole).Perm (l.set hole v) := by
  intro fuel
  induction fuel with
  | zero => intro l hole _; exact .refl _
  | succ n ih =>
    intro l hole hh
    unfold siftUp
    split
    · exact .refl _
    · dsimp only; split
      · refine (ih _ _ (by simp; omega)).trans (swap_perm hh (by omega) v (by omega))
      · exact .refl _

theorem holeDown_spec (less : α → α → Bool) (v : α) : ∀ (fuel : Nat) (l : List α) (hole : Nat), hole < l.length →
    (holeDown less fuel l hole).2 < l.length ∧ (holeDown less fuel l hole).1.length = l.length ∧
      ((holeDown less fuel l hole).1.set (holeDown less fuel l hole).2 v).Perm (l.set hole v) := by
  intro fuel
  induction fuel with
  | zero => intro l hole h; exact ⟨h, rfl, .refl _⟩
  | succ n ih =>
    intro l hole hh
    unfold holeDown
    split
    · dsimp only
      have key : ∀ s, (s = 2 * (hole + 1) ∨ s = 2 * (hole + 1) - 1) → (holeDown less n (l.set hole (l.getD s default)) s).2 < l.length ∧
          (holeDown less n (l.set hole (l.getD s default)) s).1.length = l.length ∧
          ((holeDown less n (l.set hole (l.getD s default)) s).1.set (holeDown less n (l.set hole (l.getD s default)) s).2 v).Perm (l.set hole v) := by
        intro s hs
        obtain ⟨h1, h2, h3⟩ := ih (l.set hole (l.getD s default)) s (by simp; omega)
        simp only [List.length_set] at h1 h2
        exact ⟨h1, h2, h3.trans (swap_perm hh (by omega) v (by omega))⟩
      split
      · exact key _ (.inr rfl)
      · exact key _ (.inl rfl)
    · split
      · rename_i h
        dsimp only
        refine ⟨by omega, by simp, swap_perm hh (by omega) v (by omega)⟩
      · exact ⟨hh, rfl, .refl _⟩

/-- The keys are in the order of a heap. -/
def IsHeap (key : α → Int) (l : List α) : Prop :=
  ∀ i, 0 < i → i < l.length → key (l.getD i default) ≤ key (l.getD ((i - 1) / 2) default)

theorem IsHeap.root {key : α → Int} {l : List α} (h : IsHeap key l) : ∀ i, i < l.length → key (l.getD i default) ≤ key (l.getD 0 default) := by
  intro i
  induction i using Nat.strongRecOn with
  | _ i ih =>
    intro hi
    by_cases h0 : i = 0
    · subst h0; exact le_refl _
    · exact (h i (by omega) hi).trans (ih _ (by omega) (by omega))

/-- A heap but for the hole: what would be wrong with any value there. -/
structure HoleHeap (key : α → Int) (l : List α) (hole : Nat) : Prop where
  lt : hole < l.length
  other : ∀ i, 0 < i → i < l.length → i ≠ hole → (i - 1) / 2 ≠ hole → key (l.getD i default) ≤ key (l.getD ((i - 1) / 2) default)
  over : ∀ i, 0 < i → i < l.length → (i - 1) / 2 = hole → 0 < hole → key (l.getD i default) ≤ key (l.getD ((hole - 1) / 2) default)

theorem siftUp_heap {less : α → α → Bool} {key : α → Int} (hless : ∀ a b, less a b = decide (key a < key b)) (v : α) :
    ∀ (fuel : Nat) (l : List α) (hole : Nat), hole ≤ fuel → HoleHeap key l hole →
      (∀ i, 0 < i → i < l.length → (i - 1) / 2 = hole → key (l.getD i default) ≤ key v) →
      IsHeap key (siftUp less v fuel l hole) := by
  intro fuel
  induction fuel with
  | zero =>
    intro l hole h0 hh hc i hi hil
    have : hole = 0 := by omega
    subst this
    simp only [siftUp, List.length_set] at hil ⊢
    rw [getD_set', getD_set', if_neg (by omega)]
    split
    · exact hc i hi hil (by omega)
    · exact hh.other i hi hil (by omega) (by omega)
  | succ n ih =>
    intro l hole h0 hh hc
    unfold siftUp
    split
    · rename_i h0
      subst h0
      intro i hi hil
      simp only [List.length_set] at hil ⊢
      rw [getD_set', getD_set', if_neg (by omega)]
      split
      · exact hc i hi hil (by omega)
      · exact hh.other i hi hil (by omega) (by omega)
    · rename_i hpos
      have hlt := hh.lt
      dsimp only
      rw [hless]
      split
      · rename_i hl
        have hl := of_decide_eq_true hl
        refine ih _ _ (by omega) ⟨by simp; omega, ?_, ?_⟩ ?_
        · intro i hi hil h1 h2
          simp only [List.length_set] at hil
          rw [getD_set', getD_set', if_neg (by omega)]
          split
          · exact hh.over i hi hil (by omega) (by omega)
          · exact hh.other i hi hil (by omega) (by omega)
        · intro i hi hil h1 h2
          simp only [List.length_set] at hil
          rw [getD_set', getD_set', if_neg (show ¬ (hole = ((hole - 1) / 2 - 1) / 2 ∧ _) by omega)]
          have e1 := hh.other ((hole - 1) / 2) h2 (by omega) (by omega) (by omega)
          split
          · exact e1
          · have := hh.other i hi hil (by omega) (by omega)
            rw [h1] at this
            exact this.trans e1
        · intro i hi hil h1
          simp only [List.length_set] at hil
          rw [getD_set']
          split
          · exact hl.le
          · have := hh.other i hi hil (by omega) (by omega)
            rw [h1] at this
            exact this.trans hl.le
      · rename_i hl
        have hl : key v ≤ key (l.getD ((hole - 1) / 2) default) := by
          by_contra hcon
          exact hl (decide_eq_true (by omega))
        intro i hi hil
        simp only [List.length_set] at hil
        rw [getD_set', getD_set']
        by_cases h1 : hole = i
        · subst h1
          rw [if_pos ⟨rfl, hil⟩, if_neg (by omega)]
          exact hl
        · rw [if_neg (by omega)]
          split
          · exact hc i hi hil (by omega)
          · exact hh.other i hi hil (by omega) (by omega)

theorem holeDown_heap {less : α → α → Bool} {key : α → Int} (hless : ∀ a b, less a b = decide (key a < key b)) :
    ∀ (fuel : Nat) (l : List α) (hole : Nat), l.length ≤ fuel + hole → HoleHeap key l hole →
      HoleHeap key (holeDown less fuel l hole).1 (holeDown less fuel l hole).2 ∧
        (holeDown less fuel l hole).1.length ≤ 2 * (holeDown less fuel l hole).2 + 1 := by
  intro fuel
  induction fuel with
  | zero => intro l hole h0 hh; have := hh.lt; omega
  | succ n ih =>
    intro l hole hf hh
    have hlt := hh.lt
    unfold holeDown
    split
    · rename_i hlen
      dsimp only
      rw [hless]
      -- the larger child `s`, the other child `o`
      have move : ∀ s o, (s = 2 * (hole + 1) ∧ o = 2 * (hole + 1) - 1 ∨ s = 2 * (hole + 1) - 1 ∧ o = 2 * (hole + 1)) →
          key (l.getD o default) ≤ key (l.getD s default) →
          HoleHeap key (holeDown less n (l.set hole (l.getD s default)) s).1 (holeDown less n (l.set hole (l.getD s default)) s).2 ∧
            (holeDown less n (l.set hole (l.getD s default)) s).1.length ≤ 2 * (holeDown less n (l.set hole (l.getD s default)) s).2 + 1 := by
        intro s o hso hko
        refine ih _ _ (by simp; omega) ⟨by simp; omega, ?_, ?_⟩
        · intro i hi hil h1 h2
          simp only [List.length_set] at hil
          rw [getD_set', getD_set']
          by_cases h3 : hole = i
          · subst h3
            rw [if_pos ⟨rfl, hil⟩, if_neg (by omega)]
            exact hh.over s (by omega) (by omega) (by omega) hi
          · rw [if_neg (show ¬ (hole = i ∧ _) by omega)]
            by_cases h4 : (i - 1) / 2 = hole
            · rw [if_pos ⟨h4.symm, by omega⟩]
              have : i = o := by omega
              rw [this]; exact hko
            · rw [if_neg (by omega)]
              exact hh.other i hi hil (by omega) h4
        · intro i hi hil h1 h2
          simp only [List.length_set] at hil
          rw [getD_set', getD_set', if_neg (by omega), if_pos ⟨by omega, by omega⟩]
          have := hh.other i hi hil (by omega) (by omega)
          rwa [h1] at this
      split
      · rename_i h
        exact move _ _ (.inr ⟨rfl, rfl⟩) (by have := of_decide_eq_true h; omega)
      · rename_i h
        refine move _ _ (.inl ⟨rfl, rfl⟩) ?_
        by_contra hcon
        exact h (decide_eq_true (by omega))
    · split
      · rename_i h1 h2
        dsimp only
        refine ⟨⟨by simp; omega, ?_, ?_⟩, by simp; omega⟩
        · intro i hi hil h3 h4
          simp only [List.length_set] at hil
          rw [getD_set', getD_set']
          by_cases h5 : hole = i
          · subst h5
            rw [if_pos ⟨rfl, hil⟩, if_neg (by omega)]
            exact hh.over _ (by omega) (by omega) (by omega) hi
          · rw [if_neg (by omega)]
            by_cases h6 : (i - 1) / 2 = hole
            · omega
            · rw [if_neg (by omega)]
              exact hh.other i hi hil (by omega) h6
        · intro i hi hil h3 h4
          simp only [List.length_set] at hil
          omega
      · exact ⟨hh, by dsimp only; omega⟩

theorem heapPush_perm (less : α → α → Bool) (l : List α) (v : α) : (heapPush less l v).Perm (l ++ [v]) := by
  unfold heapPush
  refine (siftUp_perm less v _ _ _ (by simp)).trans (List.Perm.of_eq ?_)
  apply List.ext_getElem?
  intro k
  rw [List.getElem?_set]
  by_cases h : l.length = k
  · subst h; simp
  · simp [h]

theorem heapPush_heap {less : α → α → Bool} {key : α → Int} (hless : ∀ a b, less a b = decide (key a < key b)) {l : List α} (h : IsHeap key l)
    (v : α) : IsHeap key (heapPush less l v) := by
  unfold heapPush
  have hg : ∀ i, i < l.length → (l ++ [v]).getD i default = l.getD i default := by
    intro i hi; simp [List.getD, List.getElem?_append_left hi]
  refine siftUp_heap hless v _ _ _ (Nat.le_refl _) ⟨by simp, ?_, ?_⟩ ?_
  · intro i hi hil h1 h2
    simp only [List.length_append, List.length_singleton] at hil
    rw [hg _ (by omega), hg _ (by omega)]
    exact h i hi (by omega)
  · intro i hi hil h1 h2
    simp only [List.length_append, List.length_singleton] at hil
    omega
  · intro i hi hil h1
    simp only [List.length_append, List.length_singleton] at hil
    omega

theorem heapPop_perm (less : α → α → Bool) {l : List α} (hl : l ≠ []) : (l.getD 0 default :: heapPop less l).Perm l := by
  unfold heapPop
  dsimp only
  obtain ⟨init, last, rfl⟩ : ∃ init last, l = init ++ [last] := ⟨l.dropLast, l.getLast hl, (List.dropLast_concat_getLast hl).symm⟩
  rw [List.dropLast_concat]
  split
  · rename_i h; subst h; simp
  · rename_i h
    have hlast : (init ++ [last]).getD ((init ++ [last]).length - 1) default = last := by simp [List.getD]
    rw [hlast]
    obtain ⟨x, t, rfl⟩ := List.exists_cons_of_ne_nil h
    obtain ⟨h1, h2, h3⟩ := holeDown_spec less last (x :: t).length (x :: t) 0 (by simp)
    have := (siftUp_perm less last (holeDown less (x :: t).length (x :: t) 0).2 _ _ (by rw [h2]; exact h1)).trans h3
    rw [List.set_cons_zero] at this
    refine (List.Perm.cons _ this).trans ?_
    rw [show ((x :: t) ++ [last]).getD 0 default = x from rfl]
    exact List.Perm.cons _ (List.perm_append_singleton last t).symm

theorem heapPop_heap {less : α → α → Bool} {key : α → Int} (hless : ∀ a b, less a b = decide (key a < key b)) {l : List α} (h : IsHeap key l) :
    IsHeap key (heapPop less l) := by
  unfold heapPop
  dsimp only
  split
  · intro i _ hi; simp at hi
  · rename_i hne
    have hg : ∀ i, i < l.length - 1 → l.dropLast.getD i default = l.getD i default := by
      intro i hi
      simp only [List.getD, List.getElem?_dropLast, if_pos hi]
    have hlen : l.dropLast.length ≠ 0 := fun h => hne (List.length_eq_zero_iff.1 h)
    have hd : HoleHeap key l.dropLast 0 := ⟨by omega, by
      intro i hi hil h1 h2
      rw [List.length_dropLast] at hil
      rw [hg _ hil, hg _ (by omega)]
      exact h i hi (by omega), by intro i _ _ _ h; omega⟩
    obtain ⟨h1, h2⟩ := holeDown_heap hless l.dropLast.length l.dropLast 0 (by omega) hd
    refine siftUp_heap hless _ _ _ _ (Nat.le_refl _) h1 ?_
    intro i hi hil h3
    omega

theorem heapDrain_spec {less : α → α → Bool} : ∀ (fuel : Nat) (l : List α), l.length ≤ fuel →
    (heapDrain less fuel l).Perm l ∧ ∀ key : α → Int, (∀ a b, less a b = decide (key a < key b)) → IsHeap key l →
      (heapDrain less fuel l).Pairwise (fun a b => key b ≤ key a) := by
  intro fuel
  induction fuel with
  | zero =>
    intro l hl
    have : l = [] := List.length_eq_zero_iff.1 (by omega)
    subst this
    exact ⟨.refl _, fun _ _ _ => List.Pairwise.nil⟩
  | succ n ih =>
    intro l hl
    unfold heapDrain
    split
    · rename_i h; subst h; exact ⟨.refl _, fun _ _ _ => List.Pairwise.nil⟩
    · rename_i hne
      have hp := heapPop_perm less hne
      have hlen : (heapPop less l).length ≤ n := by have := hp.length_eq; simp at this; omega
      obtain ⟨h1, h2⟩ := ih _ hlen
      refine ⟨(List.Perm.cons _ h1).trans hp, fun key hless hh => ?_⟩
      refine List.Pairwise.cons ?_ (h2 key hless (heapPop_heap hless hh))
      intro b hb
      have hb' : b ∈ l := hp.subset (List.mem_cons_of_mem _ (h1.subset hb))
      obtain ⟨i, hi, rfl⟩ := List.getElem_of_mem hb'
      have := hh.root i hi
      simpa [List.getD, List.getElem?_eq_getElem hi] using this

theorem heapPush_root {less : α → α → Bool} {key : α → Int} (hless : ∀ a b, less a b = decide (key a < key b)) {l : List α} (h : IsHeap key l)
    (hne : l ≠ []) (v : α) : (heapPush less l v).getD 0 default = if key (l.getD 0 default) < key v then v else l.getD 0 default := by
  have gen : ∀ (fuel : Nat) (m : List α) (hole : Nat), hole ≤ fuel → 0 < hole → hole < m.length →
      (∀ i, i < hole → key (m.getD i default) ≤ key (m.getD 0 default)) →
      (siftUp less v fuel m hole).getD 0 default = if key (m.getD 0 default) < key v then v else m.getD 0 default := by
    intro fuel
    induction fuel with
    | zero => intro m hole h1 h2; omega
    | succ n ih =>
      intro m hole h1 h2 h3 h4
      unfold siftUp
      rw [if_neg (by omega)]
      dsimp only
      rw [hless]
      split
      · rename_i hl
        have hl := of_decide_eq_true hl
        by_cases hp : (hole - 1) / 2 = 0
        · rw [hp] at hl ⊢
          rw [if_pos hl]
          cases n with
          | zero => simp only [siftUp]; rw [getD_set', if_pos (by simp; omega)]
          | succ n => unfold siftUp; rw [if_pos rfl, getD_set', if_pos (by simp; omega)]
        · rw [ih _ _ (by omega) (by omega) (by simp; omega)]
          · rw [getD_set', if_neg (show ¬ (hole = 0 ∧ _) by omega)]
          · intro i hi
            rw [getD_set', getD_set', if_neg (by omega), if_neg (by omega)]
            exact h4 i (by omega)
      · rename_i hl
        rw [getD_set', if_neg (by omega), if_neg]
        intro hcon
        exact hl (decide_eq_true (lt_of_le_of_lt (h4 _ (by omega)) hcon))
  have hpos : 0 < l.length := List.length_pos_iff.2 hne
  have hg : ∀ i, i < l.length → (l ++ [v]).getD i default = l.getD i default := by
    intro i hi; simp [List.getD, List.getElem?_append_left hi]
  unfold heapPush
  rw [gen _ _ _ (Nat.le_refl _) hpos (by simp), hg 0 hpos]
  intro i hi
  rw [hg i hi, hg 0 hpos]
  exact h.root i hi

/-- The key of a centre in a row without NaN: larger for smaller distances. -/
def rowKey (row : List F32) (i : Nat) : Int := -((row.getD i F32.zero).key.getD 0)

theorem rowNum_getD {row : List F32} (h : ∀ x ∈ row, x.IsNum) (i : Nat) : (row.getD i F32.zero).IsNum := by
  by_cases hi : i < row.length
  · rw [List.getD, List.getElem?_eq_getElem hi]; exact h _ (List.getElem_mem hi)
  · rw [List.getD, List.getElem?_eq_none (by omega)]; decide

theorem rowKey_less {row : List F32} (h : ∀ x ∈ row, x.IsNum) (i j : Nat) :
    (row.getD j F32.zero).lt (row.getD i F32.zero) = decide (rowKey row i < rowKey row j) := by
  have h1 := rowNum_getD h i
  have h2 := rowNum_getD h j
  unfold rowKey F32.lt
  unfold F32.IsNum at h1 h2
  cases e1 : (row.getD i F32.zero).key with
  | none => exact absurd e1 h1
  | some a =>
    cases e2 : (row.getD j F32.zero).key with
    | none => exact absurd e2 h2
    | some b => simp

/-- Pushing a list: a heap with the same elements. -/
theorem pushes_spec (less : Nat → Nat → Bool) : ∀ (xs l : List Nat), (xs.foldl (heapPush less) l).Perm (l ++ xs) ∧
    ∀ key : Nat → Int, (∀ a b, less a b = decide (key a < key b)) → IsHeap key l → IsHeap key (xs.foldl (heapPush less) l) := by
  intro xs
  induction xs with
  | nil => intro l; simp
  | cons x t ih =>
    intro l
    obtain ⟨h1, h2⟩ := ih (heapPush less l x)
    refine ⟨?_, fun key hless hh => h2 key hless (heapPush_heap hless hh x)⟩
    refine h1.trans ?_
    have := (heapPush_perm less l x).append_right t
    simpa using this

theorem gnuPops_isPopOrder : IsPopOrder gnuPops where
  perm row := by
    unfold gnuPops
    dsimp only
    obtain ⟨h1, -⟩ := pushes_spec (fun i j => (row.getD j F32.zero).lt (row.getD i F32.zero)) (List.range row.length) []
    exact ((heapDrain_spec _ _ (h1.length_eq.trans (by simp)).le).1).trans (by simpa using h1)
  sorted row hn := by
    unfold gnuPops
    dsimp only
    obtain ⟨h1, h2⟩ := pushes_spec (fun i j => (row.getD j F32.zero).lt (row.getD i F32.zero)) (List.range row.length) []
    have h3 := heapDrain_spec (less := fun i j => (row.getD j F32.zero).lt (row.getD i F32.zero)) row.length
      ((List.range row.length).foldl (heapPush (fun i j => (row.getD j F32.zero).lt (row.getD i F32.zero))) [])
      (h1.length_eq.trans (by simp)).le
    have h4 := h3.2 (rowKey row) (fun i j => rowKey_less hn i j) (h2 _ (fun i j => rowKey_less hn i j) (by intro i _ h; simp at h))
    refine List.Pairwise.imp_of_mem ?_ h4
    intro i j hi hj hk
    have hi' : i < row.length := by simpa using (h3.1.trans h1).subset hi
    have hj' : j < row.length := by simpa using (h3.1.trans h1).subset hj
    have g : ∀ k, k < row.length → row.getD k F32.nan = row.getD k F32.zero := by
      intro k hk; simp [List.getD, List.getElem?_eq_getElem hk]
    rw [g i hi', g j hj', ← F32.not_lt_iff_le (rowNum_getD hn j) (rowNum_getD hn i), rowKey_less hn]
    exact decide_eq_false (by omega)

/-- The first smallest of the first `n` entries. -/
def Spec.FirstSmallest (key : Nat → Int) (n c : Nat) : Prop := c < n ∧ (∀ i < n, key i ≤ key c) ∧ ∀ i < c, key i < key c

theorem pushes_root {less : Nat → Nat → Bool} {key : Nat → Int} (hless : ∀ a b, less a b = decide (key a < key b)) : ∀ n, 0 < n →
    Spec.FirstSmallest key n (((List.range n).foldl (heapPush less) []).getD 0 default) := by
  intro n hn
  induction n with
  | zero => omega
  | succ n ih =>
    rw [List.range_succ, List.foldl_append, List.foldl_cons, List.foldl_nil]
    obtain ⟨h1, h2⟩ := pushes_spec less (List.range n) []
    have hh := h2 key hless (by intro i _ h; simp at h)
    by_cases h0 : n = 0
    · subst h0
      rw [show List.foldl (heapPush less) [] (List.range 0) = [] from rfl]
      simp only [heapPush, List.length_nil, siftUp, List.nil_append, List.set_cons_zero]
      refine ⟨by decide, fun i hi => ?_, fun i hi => ?_⟩
      · have : i = 0 := by omega
        subst this; exact le_of_eq rfl
      · simp [List.getD] at hi
    · obtain ⟨g1, g2, g3⟩ := ih (by omega)
      rw [heapPush_root hless hh (by intro h; rw [h] at h1; have := h1.length_eq; simp at this; omega)]
      split
      · rename_i h
        refine ⟨by omega, fun i hi => ?_, fun i hi => (g2 i hi).trans_lt h⟩
        by_cases hin : i = n
        · subst hin; exact le_refl _
        · exact ((g2 i (by omega)).trans_lt h).le
      · rename_i h
        refine ⟨by omega, fun i hi => ?_, g3⟩
        by_cases hin : i = n
        · subst hin; omega
        · exact g2 i (by omega)

/-- The queue yields first what the loop for one centre finds. -/
theorem gnuPops_head {row : List F32} (hn : ∀ x ∈ row, x.IsNum) (hfin : ∃ x ∈ row, x.lt F32.fmax = true) :
    (gnuPops row).head? = argminLoop row 0 F32.fmax none := by
  obtain ⟨x, hx, hxf⟩ := hfin
  have hpos : 0 < row.length := List.length_pos_iff.2 (List.ne_nil_of_mem hx)
  rcases argminLoop_spec row 0 F32.fmax none with ⟨hno, _⟩ | ⟨i, hi, e, _, h3⟩
  · rw [hno x hx] at hxf; cases hxf
  · obtain ⟨h4, h5⟩ := h3 hn
    obtain ⟨g1, g2, g3⟩ := pushes_root (less := fun i j => (row.getD j F32.zero).lt (row.getD i F32.zero)) (fun i j => rowKey_less hn i j) row.length hpos
    have hget : ∀ k (h : k < row.length), row.getD k F32.zero = row[k] := by
      intro k hk; simp [List.getD, List.getElem?_eq_getElem hk]
    have hhead : (gnuPops row).head? = some (((List.range row.length).foldl
        (heapPush (fun i j => (row.getD j F32.zero).lt (row.getD i F32.zero))) []).getD 0 default) := by
      unfold gnuPops
      dsimp only
      obtain ⟨h1, -⟩ := pushes_spec (fun i j => (row.getD j F32.zero).lt (row.getD i F32.zero)) (List.range row.length) []
      obtain ⟨n, hn⟩ : ∃ n, row.length = n + 1 := ⟨row.length - 1, by omega⟩
      rw [hn] at h1 ⊢
      unfold heapDrain
      rw [if_neg (by intro h; rw [h] at h1; have := h1.length_eq; simp at this)]
      rfl
    rw [hhead, e]
    generalize ((List.range row.length).foldl (heapPush (fun i j => (row.getD j F32.zero).lt (row.getD i F32.zero))) []).getD 0 default = c at g1 g2 g3 ⊢
    congr 1
    have k1 : rowKey row i ≤ rowKey row c := g2 i hi
    have k2 : ∀ j, j < i → rowKey row j < rowKey row i := by
      intro j hj
      have := rowKey_less hn j i
      rw [hget i hi, hget j (by omega), h5 j hj] at this
      exact of_decide_eq_true this.symm
    have k3 : rowKey row c ≤ rowKey row i := by
      have := rowKey_less hn i c
      rw [hget i hi, hget c g1, F32.lt_eq_false_of_le (h4 _ (List.getElem_mem g1))] at this
      have := of_decide_eq_false this.symm
      omega
    rw [Nat.zero_add]
    rcases Nat.lt_trichotomy c i with h | h | h
    · have := k2 c h; omega
    · exact h
    · have := g3 i h; omega

end Grann
