import Verif.Proofs.Centers
import Mathlib.Data.List.TakeWhile
/-!
# C49: closest-centre assignment
-/

namespace Grann

/-- **C49.** For every number of points ≥ 1, every block size ≥ 1 and `1 ≤ k ≤ nc` (NaN-free distances,
for `k = 1` every point has some centre at a distance below `FLT_MAX`): the call succeeds, slot block
`j` of the output holds the `k` nearest centres of point `j` in order of distance, and nothing behind
the first `n * k` slots is written. -/
theorem C49_k_closest_centres (maxBlk nc k : Nat) (pops : List F32 → List Nat) (hpops : IsPopOrder pops)
    (sched : Nat → List (Nat × Nat) → List (Nat × Nat)) (hsched : ∀ b l, (sched b l).Perm l)
    (rows : List (List F32)) (out : List Nat) (hblk : 1 ≤ maxBlk) (hn : 1 ≤ rows.length)
    (hk1 : 1 ≤ k) (hk : k ≤ nc) (hrows : ∀ row ∈ rows, row.length = nc ∧ ∀ x ∈ row, x.IsNum)
    (hfin : k = 1 → ∀ row ∈ rows, ∃ x ∈ row, x.lt F32.fmax = true)
    (hout : rows.length * k ≤ out.length) :
    ∃ out', closestCenters maxBlk nc k pops sched rows out none = .ok (out', none) ∧
      out'.drop (rows.length * k) = out.drop (rows.length * k) ∧
      ∀ (j : Nat) (row : List F32), rows[j]? = some row →
        Spec.KNearest k (Finset.range nc) (fun c => row.getD c F32.nan)
          (((out'.drop (j * k)).take k).map (fun c => (c, row.getD c F32.nan))) := by
  have hp : ∀ row ∈ rows, _ := fun row hr =>
    pick_spec hpops (hrows row hr).1 hk (hrows row hr).2 (fun h => hfin h row hr)
  obtain ⟨inv', e, h1, _⟩ := closestCenters_spec (maxBlk := maxBlk) (nc := nc) (k := k) (pops := pops)
    hsched (rows := rows) (out0 := out) (inv0 := none) hblk hn hk (fun r hr => (hp r hr).1)
    (fun r hr => (hp r hr).2.1) (by intro _ h; cases h) hout
  have hfl : (rows.flatMap (pick k pops)).length = rows.length * k :=
    flatMap_length_const _ _ _ (fun r hr => (hp r hr).1)
  rw [h1 rfl] at e
  refine ⟨_, e, ?_, ?_⟩
  · rw [List.drop_append_of_le_length (by omega), List.drop_of_length_le (by omega)]; rfl
  · intro j row hj
    obtain ⟨hjl, hjr⟩ := List.getElem?_eq_some_iff.1 hj
    have hmem : row ∈ rows := hjr ▸ List.getElem_mem hjl
    have hjk : (j + 1) * k ≤ rows.length * k := Nat.mul_le_mul_right _ hjl
    rw [Nat.succ_mul] at hjk
    have : ((rows.flatMap (pick k pops) ++ out.drop (rows.length * k)).drop (j * k)).take k
        = pick k pops row := by
      rw [List.drop_append_of_le_length (by omega),
        drop_flatMap_const _ k _ _ (fun r hr => (hp r hr).1) (Nat.le_of_lt hjl),
        List.drop_eq_getElem_cons hjl, hjr, List.flatMap_cons, List.append_assoc,
        List.take_append_of_le_length (by rw [(hp row hmem).1]), List.take_of_length_le
          (by rw [(hp row hmem).1])]
    rw [this]
    exact (hp row hmem).2.2.2

/-- **C49, blocking.** The output does not depend on the block size. -/
theorem C49_independent_of_blocking (maxBlk maxBlk' nc k : Nat) (pops : List F32 → List Nat)
    (hpops : IsPopOrder pops)
    (sched sched' : Nat → List (Nat × Nat) → List (Nat × Nat)) (hsched : ∀ b l, (sched b l).Perm l)
    (hsched' : ∀ b l, (sched' b l).Perm l)
    (rows : List (List F32)) (out : List Nat) (hblk : 1 ≤ maxBlk) (hblk' : 1 ≤ maxBlk')
    (hn : 1 ≤ rows.length)
    (hk : k ≤ nc) (hrows : ∀ row ∈ rows, row.length = nc ∧ ∀ x ∈ row, x.IsNum)
    (hfin : k = 1 → ∀ row ∈ rows, ∃ x ∈ row, x.lt F32.fmax = true)
    (hout : rows.length * k ≤ out.length) :
    closestCenters maxBlk nc k pops sched rows out none =
      closestCenters maxBlk' nc k pops sched' rows out none := by
  have hp : ∀ row ∈ rows, _ := fun row hr =>
    pick_spec hpops (hrows row hr).1 hk (hrows row hr).2 (fun h => hfin h row hr)
  obtain ⟨i1, e1, h1, _⟩ := closestCenters_spec (maxBlk := maxBlk) (nc := nc) (k := k) (pops := pops)
    hsched (rows := rows) (out0 := out) (inv0 := none) hblk hn hk (fun r hr => (hp r hr).1)
    (fun r hr => (hp r hr).2.1) (by intro _ h; cases h) hout
  obtain ⟨i2, e2, h2, _⟩ := closestCenters_spec (maxBlk := maxBlk') (nc := nc) (k := k) (pops := pops)
    hsched' (rows := rows) (out0 := out) (inv0 := none) hblk' hn hk (fun r hr => (hp r hr).1)
    (fun r hr => (hp r hr).2.1) (by intro _ h; cases h) hout
  rw [e1, e2, h1 rfl, h2 rfl]

/-- **C49 (limits).** Asking for more centres than exist changes nothing; no points divides by zero. -/
theorem C49_limits (maxBlk nc k : Nat) (pops : List F32 → List Nat)
    (sched : Nat → List (Nat × Nat) → List (Nat × Nat)) (rows : List (List F32)) (out : List Nat)
    (inv : Option (List (List Nat))) :
    (nc < k → closestCenters maxBlk nc k pops sched rows out inv = .ok (out, inv)) ∧
    (k ≤ nc → closestCenters maxBlk nc k pops sched [] out inv = .error .ub) := by
  constructor
  · intro h; simp [closestCenters, h]
  · intro h; simp [closestCenters, Nat.not_lt.2 h]

/-- **C49 (needed hypothesis).** With a single centre at infinite distance (squared distance overflow)
the assignment of the point is never written: the result is indeterminate, or, in a later block, that
of an unrelated point. -/
theorem C49_infinite_distance_unassigned (pops : List F32 → List Nat)
    (sched : Nat → List (Nat × Nat) → List (Nat × Nat)) :
    closestCenters 1 1 1 pops sched [[F32.inf]] [7] none = .error .ub ∧
    closestCenters 1 2 1 pops sched [[F32.one, F32.zero], [F32.inf, F32.inf]] [7, 7] none
      = .ok ([1, 1], none) := by
  constructor <;> rfl

/-- An insertion sort of the centres by distance, as an example of a pop order. -/
def exPops (row : List F32) : List Nat :=
  (List.range row.length).foldr (fun i acc =>
    acc.takeWhile (fun j => (row.getD j F32.nan).lt (row.getD i F32.nan)) ++ i ::
    acc.dropWhile (fun j => (row.getD j F32.nan).lt (row.getD i F32.nan))) []

theorem exPops_isPopOrder : IsPopOrder exPops where
  perm := by
    intro row
    unfold exPops
    generalize List.range row.length = l
    induction l with
    | nil => exact List.Perm.refl _
    | cons i l ih =>
      rw [List.foldr_cons]
      refine List.perm_middle.trans ?_
      rw [List.takeWhile_append_dropWhile]
      exact ih.cons _
  sorted := by
    intro row hnum
    have hn : ∀ i, i < row.length → (row.getD i F32.nan).IsNum := by
      intro i hi
      have : row.getD i F32.nan = row[i] := by simp [List.getD, List.getElem?_eq_getElem hi]
      rw [this]; exact hnum _ (List.getElem_mem _)
    have key : ∀ l : List Nat, (∀ i ∈ l, i < row.length) →
        (l.foldr (fun i acc =>
          acc.takeWhile (fun j => (row.getD j F32.nan).lt (row.getD i F32.nan)) ++ i ::
          acc.dropWhile (fun j => (row.getD j F32.nan).lt (row.getD i F32.nan))) []).Pairwise
          (fun i j => (row.getD i F32.nan).le (row.getD j F32.nan) = true) ∧
        ∀ j ∈ (l.foldr (fun i acc =>
          acc.takeWhile (fun j => (row.getD j F32.nan).lt (row.getD i F32.nan)) ++ i ::
          acc.dropWhile (fun j => (row.getD j F32.nan).lt (row.getD i F32.nan))) []), j < row.length := by
      intro l
      induction l with
      | nil => intro _; simp
      | cons i l ih =>
        intro hl
        obtain ⟨ih1, ih2⟩ := ih (fun j hj => hl j (by simp [hj]))
        rw [List.foldr_cons]
        generalize hA : (l.foldr _ []) = A at ih1 ih2 ⊢
        have hi := hn i (hl i (by simp))
        refine ⟨?_, ?_⟩
        · rw [List.pairwise_append, List.pairwise_cons]
          refine ⟨ih1.sublist (List.takeWhile_sublist _),
            ⟨?_, ih1.sublist (List.dropWhile_sublist _)⟩, ?_⟩
          · intro j hj
            cases hd : A.dropWhile (fun j => (row.getD j F32.nan).lt (row.getD i F32.nan)) with
            | nil => rw [hd] at hj; simp at hj
            | cons a t =>
              have hnot := List.head_dropWhile_not
                (fun j => (row.getD j F32.nan).lt (row.getD i F32.nan)) (l := A) (by rw [hd]; simp)
              simp only [hd, List.head_cons] at hnot
              have ham : a ∈ A := (List.dropWhile_sublist _).subset (by rw [hd]; simp)
              have hia := F32.le_of_not_lt (hn a (ih2 a ham)) hi hnot
              rw [hd] at hj
              rcases List.mem_cons.1 hj with rfl | hj
              · exact hia
              · have hp := ih1.sublist (List.dropWhile_sublist
                  (fun j => (row.getD j F32.nan).lt (row.getD i F32.nan)))
                rw [hd, List.pairwise_cons] at hp
                exact F32.le_trans hia (hp.1 j hj)
          · intro a ha b hb
            have hlt := List.mem_takeWhile_imp ha
            have hai := F32.le_of_lt hlt
            rcases List.mem_cons.1 hb with rfl | hb
            · exact hai
            · rw [← List.takeWhile_append_dropWhile
                (p := fun j => (row.getD j F32.nan).lt (row.getD i F32.nan)) (l := A),
                List.pairwise_append] at ih1
              exact ih1.2.2 a ha b hb
        · intro j hj
          rcases List.mem_append.1 hj with h | h
          · exact ih2 j ((List.takeWhile_sublist _).subset h)
          · rcases List.mem_cons.1 h with rfl | h
            · exact hl j (by simp)
            · exact ih2 j ((List.dropWhile_sublist _).subset h)
    exact (key (List.range row.length) (fun i hi => List.mem_range.1 hi)).1

/-- Two points, three centres, blocks of one point; `k = 2` and `k = 1`. -/
example : closestCenters 1 3 2 exPops (fun _ l => l)
      [[F32.one, F32.zero, F32.fmax], [F32.one, F32.one, F32.zero]] [9, 9, 9, 9, 9] none
      = .ok ([1, 0, 2, 0, 9], none) ∧
    closestCenters 1000000 3 1 exPops (fun _ l => l)
      [[F32.one, F32.zero, F32.fmax], [F32.one, F32.one, F32.zero]] [9, 9, 9] none
      = .ok ([1, 2, 9], none) := by decide

/-! ## The theorems applied to the example -/

example := C49_k_closest_centres 1 3 2 exPops exPops_isPopOrder (fun _ l => l) (fun _ _ => .refl _)
  [[F32.one, F32.zero, F32.fmax], [F32.one, F32.one, F32.zero]] [9, 9, 9, 9, 9] (by decide) (by decide)
  (by decide) (by decide) (by decide) (by decide) (by decide)

example := C49_independent_of_blocking 1 1000000 3 1 exPops exPops_isPopOrder (fun _ l => l)
  (fun _ l => l.reverse) (fun _ _ => .refl _) (fun _ l => l.reverse_perm)
  [[F32.one, F32.zero, F32.fmax], [F32.one, F32.one, F32.zero]] [9, 9, 9] (by decide) (by decide) (by decide)
  (by decide) (by decide) (by decide) (by decide)

/-- Four centres wanted, three there. -/
example := (C49_limits 1 3 4 exPops (fun _ l => l) [[F32.one, F32.zero, F32.fmax]] [9, 9, 9, 9] none).1
  (by decide)

end Grann
