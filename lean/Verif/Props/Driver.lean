import Verif.Model.Driver
import Verif.Props.Recall
/-!
# C71: the recall reported by the search programs
-/

namespace Grann

theorem runStores_ok : ∀ (evs : List (Nat × Nat)) (a : List Nat), (∀ e ∈ evs, e.1 < a.length) →
    (evs.map Prod.fst).Nodup →
    ∃ b, runStores a evs = .ok b ∧ b.length = a.length ∧ (∀ e ∈ evs, b[e.1]? = some e.2) ∧
      ∀ p, p ∉ evs.map Prod.fst → b[p]? = a[p]?
  | [], a, _, _ => ⟨a, rfl, rfl, by simp, fun _ _ => rfl⟩
  | e :: evs, a, hlt, hnd => by
    have he : e.1 < a.length := hlt e (by simp)
    rw [List.map_cons, List.nodup_cons] at hnd
    obtain ⟨b, h1, h2, h3, h4⟩ := runStores_ok evs (a.set e.1 e.2)
      (fun x hx => by rw [List.length_set]; exact hlt x (by simp [hx])) hnd.2
    refine ⟨b, ?_, ?_, ?_, ?_⟩
    · unfold runStores at h1 ⊢
      rw [List.foldlM_cons, wr_ok he, Res.ok_bind, h1]
    · rw [h2, List.length_set]
    · intro x hx
      rcases List.mem_cons.1 hx with rfl | hx
      · rw [h4 _ hnd.1, List.getElem?_set_self he]
      · exact h3 x hx
    · intro p hp
      rw [List.map_cons, List.mem_cons, not_or] at hp
      rw [h4 p hp.2, List.getElem?_set_ne (fun h => hp.1 h.symm)]

theorem mem_storesOf {K i : Nat} {ids : List Nat} {e : Nat × Nat} :
    e ∈ storesOf K i ids ↔ ∃ j, ids[j]? = some e.2 ∧ e.1 = i * K + j := by
  unfold storesOf
  rw [List.mem_mapIdx]
  constructor
  · rintro ⟨j, hj, rfl⟩; exact ⟨j, List.getElem?_eq_getElem hj, rfl⟩
  · rintro ⟨j, hj, h⟩
    obtain ⟨hj', hv⟩ := List.getElem?_eq_some_iff.1 hj
    exact ⟨j, hj', by rw [hv]; exact Prod.ext h.symm rfl⟩

theorem mem_allStores {K nq : Nat} {found : Nat → List Nat} {e : Nat × Nat} :
    e ∈ allStores K nq found ↔ ∃ i j, i < nq ∧ (found i)[j]? = some e.2 ∧ e.1 = i * K + j := by
  unfold allStores
  rw [List.mem_flatMap]
  constructor
  · rintro ⟨i, hi, h⟩
    obtain ⟨j, h1, h2⟩ := mem_storesOf.1 h
    exact ⟨i, j, List.mem_range.1 hi, h1, h2⟩
  · rintro ⟨i, j, hi, h1, h2⟩
    exact ⟨i, List.mem_range.2 hi, mem_storesOf.2 ⟨j, h1, h2⟩⟩

theorem slot_inj {K i j i' j' : Nat} (hj : j < K) (hj' : j' < K) (h : i * K + j = i' * K + j') : i = i' ∧ j = j' := by
  have hK : 0 < K := by omega
  have e1 : (i * K + j) / K = i := by rw [Nat.mul_comm, Nat.mul_add_div hK, Nat.div_eq_of_lt hj]; rfl
  have e2 : (i' * K + j') / K = i' := by rw [Nat.mul_comm, Nat.mul_add_div hK, Nat.div_eq_of_lt hj']; rfl
  have : i = i' := by rw [← e1, h, e2]
  subst this
  exact ⟨rfl, by omega⟩

theorem storesOf_fst (K i : Nat) (ids : List Nat) :
    (storesOf K i ids).map Prod.fst = (List.range ids.length).map (fun j => i * K + j) := by
  apply List.ext_getElem
  · simp [storesOf]
  · intro j h1 h2
    simp [storesOf]

theorem allStores_nodup (K nq : Nat) (found : Nat → List Nat) (hlen : ∀ i < nq, (found i).length ≤ K) :
    ((allStores K nq found).map Prod.fst).Nodup := by
  unfold allStores
  rw [List.map_flatMap]
  rw [List.nodup_flatMap]
  constructor
  · intro i _
    rw [storesOf_fst]
    exact List.Nodup.map (fun a b h => by simpa using h) List.nodup_range
  · apply List.Pairwise.imp_of_mem _ List.pairwise_lt_range
    intro i i' hi hi' hlt x hx hx'
    dsimp only at hx hx'
    rw [storesOf_fst, List.mem_map] at hx hx'
    obtain ⟨j, hj, rfl⟩ := hx
    obtain ⟨j', hj', h⟩ := hx'
    rw [List.mem_range] at hj hj' hi hi'
    have := slot_inj (lt_of_lt_of_le hj' (hlen _ hi')) (lt_of_lt_of_le hj (hlen _ hi)) h
    omega

/-- What the array holds after the loop, whatever the order of the stores. -/
theorem runStores_rows {K nq : Nat} {found : Nat → List Nat} (hlen : ∀ i < nq, (found i).length ≤ K)
    {evs : List (Nat × Nat)} (hperm : evs.Perm (allStores K nq found)) :
    ∃ b, runStores (List.replicate (K * nq) 0) evs = .ok b ∧ b.length = K * nq ∧
      ∀ i < nq, Spec.row b K i = found i ++ List.replicate (K - (found i).length) 0 := by
  have hpos : ∀ e ∈ evs, e.1 < (List.replicate (K * nq) 0).length := by
    intro e he
    obtain ⟨i, j, hi, h1, h2⟩ := mem_allStores.1 (hperm.mem_iff.1 he)
    have hj := (List.getElem?_eq_some_iff.1 h1).1
    have := hlen i hi
    have := row_le (d := K) hi
    rw [List.length_replicate, h2, Nat.mul_comm i K]
    omega
  obtain ⟨b, h1, h2, h3, h4⟩ := runStores_ok evs (List.replicate (K * nq) 0) hpos
    ((hperm.map Prod.fst).nodup_iff.2 (allStores_nodup K nq found hlen))
  rw [List.length_replicate] at h2
  refine ⟨b, h1, h2, fun i hi => ?_⟩
  have hli := hlen i hi
  have hrow := row_le (d := K) hi
  apply List.ext_getElem?
  intro j
  by_cases hj : j < K
  · rw [row_get _ _ _ _ hj]
    by_cases hjf : j < (found i).length
    · rw [List.getElem?_append_left hjf, List.getElem?_eq_getElem hjf]
      have := h3 (i * K + j, (found i)[j]) (hperm.mem_iff.2 (mem_allStores.2
        ⟨i, j, hi, List.getElem?_eq_getElem hjf, rfl⟩))
      rw [Nat.mul_comm K i]; exact this
    · rw [h4, List.getElem?_append_right (by omega), List.getElem?_replicate, List.getElem?_replicate,
        if_pos (by omega), if_pos (by omega)]
      intro hmem
      obtain ⟨e, he, h⟩ := List.mem_map.1 hmem
      obtain ⟨i', j', hi', hf, hp⟩ := mem_allStores.1 (hperm.mem_iff.1 he)
      have hj' := (List.getElem?_eq_some_iff.1 hf).1
      rw [hp, Nat.mul_comm K i] at h
      have := slot_inj (lt_of_lt_of_le hj' (hlen _ hi')) hj h
      obtain ⟨rfl, rfl⟩ := this
      omega
  · rw [List.getElem?_eq_none, List.getElem?_eq_none]
    · simp; omega
    · unfold Spec.row; rw [List.length_take]; omega

/-- The input of a run: at least one result per query is asked for, and the ground truth has a row of at least `K`
entries for each of the `nq` queries, with no NaN at the place where ties are looked for. -/
structure DriverInput (nq : Nat) (gold : List Nat) (dists : Option (List F32)) (dimGs K : Nat) : Prop where
  gold : gold.length = dimGs * nq
  dists : ∀ d, dists = some d → d.length = dimGs * nq ∧
    ∀ i, i < nq → ∃ x, (Spec.row d dimGs i)[K - 1]? = some x ∧ x.IsNum
  pos : 1 ≤ K
  gs : K ≤ dimGs
  lt : dimGs < 4294967296

/-- The number of true neighbours of query `i` among the identifiers its search returned. -/
noncomputable def Spec.trueFound (gold : List Nat) (dists : Option (List F32)) (dimGs K : Nat) (found : Nat → List Nat)
    (i : Nat) : Nat := (Spec.countedSet gold dists dimGs K i ∩ (found i).toFinset).card

/-- The search for query `i` returned fewer than `K` identifiers, point 0 is one of the true neighbours of the query, and
the search did not return it. -/
def Spec.Phantom (gold : List Nat) (dists : Option (List F32)) (dimGs K : Nat) (found : Nat → List Nat) (i : Nat) : Prop :=
  (found i).length < K ∧ 0 ∈ Spec.countedSet gold dists dimGs K i ∧ 0 ∉ found i

theorem sum_map_ite {l : List Nat} (f : Nat → Nat) (p : Nat → Prop) [DecidablePred p] :
    (l.map (fun i => f i + if p i then 1 else 0)).sum = (l.map f).sum + (l.filter (fun i => decide (p i))).length := by
  induction l with
  | nil => rfl
  | cons a l ih =>
    by_cases h : p a
    · rw [List.filter_cons_of_pos (by simpa using h)]
      simp only [List.map_cons, List.sum_cons, ih, if_pos h, List.length_cons]; omega
    · rw [List.filter_cons_of_neg (by simpa using h)]
      simp only [List.map_cons, List.sum_cons, ih, if_neg h]; omega

open Classical in
theorem phantom_card (gold : List Nat) (dists : Option (List F32)) (dimGs K : Nat) (found : Nat → List Nat) (i : Nat) :
    (Spec.countedSet gold dists dimGs K i ∩
        (found i ++ List.replicate (K - (found i).length) 0).toFinset).card =
      Spec.trueFound gold dists dimGs K found i + if Spec.Phantom gold dists dimGs K found i then 1 else 0 := by
  unfold Spec.trueFound Spec.Phantom
  generalize Spec.countedSet gold dists dimGs K i = G
  by_cases hl : (found i).length < K
  · have hrep : (List.replicate (K - (found i).length) 0).toFinset = {0} := by
      ext x
      rw [List.mem_toFinset, List.mem_replicate, Finset.mem_singleton]
      exact ⟨fun h => h.2, fun h => ⟨by omega, h⟩⟩
    rw [List.toFinset_append, hrep, Finset.inter_union_distrib_left]
    by_cases h0 : 0 ∈ G
    · rw [Finset.inter_singleton_of_mem h0]
      by_cases hf : 0 ∈ found i
      · rw [if_neg (fun h => h.2.2 hf), Nat.add_zero]
        congr 1
        apply Finset.union_eq_left.2
        intro x hx
        rw [Finset.mem_singleton] at hx
        rw [hx, Finset.mem_inter]
        exact ⟨h0, List.mem_toFinset.2 hf⟩
      · rw [if_pos ⟨hl, h0, hf⟩, Finset.card_union_of_disjoint, Finset.card_singleton]
        rw [Finset.disjoint_singleton_right, Finset.mem_inter]
        exact fun h => hf (List.mem_toFinset.1 h.2)
    · rw [Finset.inter_singleton_of_notMem h0, Finset.union_empty, if_neg (fun h => h0 h.2.1), Nat.add_zero]
  · rw [if_neg (fun h => hl h.1), Nat.add_zero, Nat.sub_eq_zero_of_le (by omega)]
    simp

open Classical in
/-- **C71, what is reported.** Whatever the order in which the threads store their results, the hits behind the reported
recall are the true neighbours that were returned, plus one for every query whose search returned fewer than `K`
identifiers and left out the true neighbour 0: the untouched entries of the array are zeros.  The full property, that only
returned identifiers are counted, is false; see `C71_overcount`. -/
theorem C71_count_partial (nq : Nat) (gold : List Nat) (dists : Option (List F32)) (dimGs K : Nat)
    (found : Nat → List Nat) (h : DriverInput nq gold dists dimGs K) (hlen : ∀ i < nq, (found i).length ≤ K)
    (evs : List (Nat × Nat)) (hperm : evs.Perm (allStores K nq found)) :
    driverHits K nq evs gold dists dimGs =
      .ok (((List.range nq).map (Spec.trueFound gold dists dimGs K found)).sum +
        ((List.range nq).filter (fun i => decide (Spec.Phantom gold dists dimGs K found i))).length) := by
  obtain ⟨b, h1, h2, h3⟩ := runStores_rows hlen hperm
  unfold driverHits
  rw [h1, Res.ok_bind, C45_count_partial nq gold dists dimGs b K K
    ⟨h.gold, h2, h.dists, h.pos, h.gs, le_refl _, h.lt⟩]
  congr 1
  rw [← sum_map_ite]
  congr 1
  apply List.map_congr_left
  intro i hi
  rw [List.mem_range] at hi
  rw [h3 i hi, List.take_of_length_le (by have := hlen i hi; simp; omega), phantom_card]

/-- **C71, when it is right.** If every search returns as many identifiers as asked for, the hits are exactly the true
neighbours that were returned. -/
theorem C71_full_partial (nq : Nat) (gold : List Nat) (dists : Option (List F32)) (dimGs K : Nat)
    (found : Nat → List Nat) (h : DriverInput nq gold dists dimGs K) (hlen : ∀ i < nq, (found i).length = K)
    (evs : List (Nat × Nat)) (hperm : evs.Perm (allStores K nq found)) :
    driverHits K nq evs gold dists dimGs =
      .ok ((List.range nq).map (Spec.trueFound gold dists dimGs K found)).sum := by
  classical
  rw [C71_count_partial nq gold dists dimGs K found h (fun i hi => le_of_eq (hlen i hi)) evs hperm]
  congr 1
  rw [List.filter_eq_nil_iff.2, List.length_nil, Nat.add_zero]
  intro i hi
  rw [List.mem_range] at hi
  simp only [decide_eq_true_eq]
  intro hp
  have := hp.1
  have := hlen i hi
  omega

/-- **C71 fails** for every run in which some query's search returned fewer identifiers than asked for without the true
neighbour 0: more hits are reported than true neighbours were returned. -/
theorem C71_overcount (nq : Nat) (gold : List Nat) (dists : Option (List F32)) (dimGs K : Nat)
    (found : Nat → List Nat) (h : DriverInput nq gold dists dimGs K) (hlen : ∀ i < nq, (found i).length ≤ K)
    (evs : List (Nat × Nat)) (hperm : evs.Perm (allStores K nq found))
    (i : Nat) (hi : i < nq) (hp : Spec.Phantom gold dists dimGs K found i) :
    ∃ t, driverHits K nq evs gold dists dimGs = .ok t ∧
      ((List.range nq).map (Spec.trueFound gold dists dimGs K found)).sum < t := by
  classical
  refine ⟨_, C71_count_partial nq gold dists dimGs K found h hlen evs hperm, ?_⟩
  have : 0 < ((List.range nq).filter (fun i => decide (Spec.Phantom gold dists dimGs K found i))).length := by
    apply List.length_pos_of_mem (a := i)
    rw [List.mem_filter]
    exact ⟨List.mem_range.2 hi, by simpa using hp⟩
  omega

/-- A run in which nothing is found and half of the recall is reported: two queries, `K = 1`, ground truth `[0]` and
`[1]`. -/
theorem C71_nothing_found : driverHits 1 2 [] [0, 1] none 1 = .ok 1 ∧
    ∀ i < 2, Spec.trueFound [0, 1] none 1 1 (fun _ => []) i = 0 := by
  refine ⟨by decide +kernel, fun i _ => ?_⟩
  simp [Spec.trueFound]

theorem mapM_stop {f : Nat → Res Nat} : ∀ (l l' : List Nat) (x : Nat) (e : Err), (∀ y ∈ l, ∃ c, f y = .ok c) →
    f x = .error e → (l ++ x :: l').mapM f = .error e
  | [], l', x, e, _, hx => by rw [List.nil_append, List.mapM_cons, hx]; rfl
  | y :: l, l', x, e, hl, hx => by
    obtain ⟨c, hc⟩ := hl y (by simp)
    rw [List.cons_append, List.mapM_cons, hc, Res.ok_bind, mapM_stop l l' x e (fun z hz => hl z (by simp [hz])) hx]
    rfl

/-- **C71, too few rows.** A truth file for fewer queries than there are only prints a message
(tests/search_vamana.cpp:86-89), and `calculate_recall` then reads past the end of the ground truth. -/
theorem C71_short_truth (nq gtNum : Nat) (hfew : gtNum < nq) (gold : List Nat) (dists : Option (List F32)) (dimGs K : Nat)
    (found : Nat → List Nat) (h : DriverInput gtNum gold dists dimGs K) (hlen : ∀ i < nq, (found i).length ≤ K)
    (evs : List (Nat × Nat)) (hperm : evs.Perm (allStores K nq found)) :
    driverHits K nq evs gold dists dimGs = .error .ub := by
  obtain ⟨b, h1, h2, h3⟩ := runStores_rows hlen hperm
  have hle : K * gtNum ≤ K * nq := Nat.mul_le_mul_left _ (le_of_lt hfew)
  have hin : RecallInput gtNum gold dists dimGs (b.take (K * gtNum)) K K :=
    ⟨h.gold, by rw [List.length_take, h2]; omega, h.dists, h.pos, h.gs, le_refl _, h.lt⟩
  unfold driverHits recallTotal
  rw [h1, Res.ok_bind]
  have hr : List.range nq = List.range gtNum ++ gtNum :: (List.range (nq - gtNum - 1)).map (fun j => gtNum + 1 + j) := by
    conv_lhs => rw [show nq = gtNum + (1 + (nq - gtNum - 1)) from by omega]
    rw [List.range_add, List.range_add]
    simp [Nat.add_assoc]
  rw [hr, mapM_stop _ _ _ .ub, Res.err_bind]
  · intro i hi
    rw [List.mem_range] at hi
    obtain ⟨c, hc, -⟩ := recallRow_ok hin hi
    refine ⟨c, ?_⟩
    rw [← hc]
    unfold recallRow
    have hrow := row_le (d := K) hi
    have : rdList b (K * i) K = rdList (b.take (K * gtNum)) (K * i) K := by
      rw [rdList_ok _ _ _ (by omega), rdList_ok _ _ _ (by rw [List.length_take]; omega), List.drop_take,
        List.take_take, Nat.min_eq_left (by omega)]
    rw [this]
  · have hpos := h.pos
    have hgs := h.gs
    have hlt := h.lt
    unfold recallRow
    cases hd : dists with
    | none =>
      unfold tieBreaker
      dsimp only
      rw [Res.ok_bind, show K = (K - 1) + 1 from by omega]
      conv_lhs => unfold rdList
      rw [rd_ub (by rw [h.gold]), Res.err_bind, Res.err_bind]
    | some d =>
      unfold tieBreaker
      dsimp only
      have hlast : u32 (K + 4294967295) = K - 1 := by unfold u32; omega
      rw [hlast]
      conv_lhs => unfold tieLoop
      rw [if_pos (by omega), rd_ub (by rw [(h.dists d hd).1]; omega), Res.err_bind, Res.err_bind]

/-- Two queries, two results each, tied ground truth; the stores of the two threads alternate. -/
def exFound : Nat → List Nat := fun i => if i = 0 then [5, 7] else [3]

theorem exDriver_input : DriverInput 2 [5, 6, 7, 0, 2, 3] (some exDists) 3 2 :=
  ⟨exRecall_input.gold, exRecall_input.dists, exRecall_input.pos, exRecall_input.gs, exRecall_input.lt⟩

/-- The hypotheses of `C71_count_partial` and `C71_overcount` can be met: 5, 7 and 3 are true neighbours that were
returned, and the reported number of hits is four. -/
example : (∀ i < 2, (exFound i).length ≤ 2) ∧ [(0, 5), (2, 3), (1, 7)].Perm (allStores 2 2 exFound) ∧
    driverHits 2 2 [(0, 5), (2, 3), (1, 7)] [5, 6, 7, 0, 2, 3] (some exDists) 3 = .ok 4 ∧
    Spec.Phantom [5, 6, 7, 0, 2, 3] (some exDists) 3 2 exFound 1 := by
  refine ⟨by decide, by decide, by decide +kernel, by decide, ?_, by decide⟩
  rw [mem_countedSet]
  exact ⟨0, by decide, Or.inl (by decide)⟩

/-- The hypotheses of `C71_short_truth` can be met: one row, two queries. -/
example : DriverInput 1 [4, 9] none 2 1 ∧ driverHits 1 2 [(0, 4), (1, 9)] [4, 9] none 2 = .error .ub :=
  ⟨⟨rfl, by simp, by decide, by decide, by decide⟩, by decide +kernel⟩

/-! ## The theorems applied to the examples -/

theorem exFound_phantom : Spec.Phantom [5, 6, 7, 0, 2, 3] (some exDists) 3 2 exFound 1 := by
  refine ⟨by decide, ?_, by decide⟩
  rw [mem_countedSet]
  exact ⟨0, by decide, Or.inl (by decide)⟩

example := C71_count_partial 2 [5, 6, 7, 0, 2, 3] (some exDists) 3 2 exFound exDriver_input (by decide)
  [(0, 5), (2, 3), (1, 7)] (by decide)

example := C71_overcount 2 [5, 6, 7, 0, 2, 3] (some exDists) 3 2 exFound exDriver_input (by decide)
  [(0, 5), (2, 3), (1, 7)] (by decide) 1 (by decide) exFound_phantom

example := C71_full_partial 2 [5, 6, 7, 0, 2, 3] (some exDists) 3 2 (fun i => [i, 3]) exDriver_input (by decide)
  [(0, 0), (1, 3), (2, 1), (3, 3)] (by decide)

example := C71_short_truth 2 1 (by decide) [4, 9] none 2 1 (fun i => [i]) ⟨rfl, by simp, by decide, by decide, by decide⟩
  (by decide) [(0, 0), (1, 1)] (by decide)

end Grann
