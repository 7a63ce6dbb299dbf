import Verif.Proofs.GroundTruth
/-!
# Ground truth (C47, C48)
-/

namespace Grann

/-- A queue meeting the contract, used in examples. -/
def exPick : List (Nat × F32) → Nat
  | [] => 0
  | [_] => 0
  | x :: y :: ys => if x.2.le ((y :: ys).getD (exPick (y :: ys)) x).2 then exPick (y :: ys) + 1 else 0

theorem exPick_isHeapPick : IsHeapPick (fun _ l => exPick l) := by
  intro _ l
  induction l with
  | nil => intro h; exact absurd rfl h
  | cons x l ih =>
    intro _ hn
    cases l with
    | nil =>
      refine ⟨by simp [exPick], ?_⟩
      intro y hy
      rw [List.mem_singleton.mp hy]
      simp only [exPick, List.getElem_cons_zero]
      exact F32.le_refl (hn x (by simp))
    | cons y ys =>
      obtain ⟨h1, h2⟩ := ih (by simp) (fun z hz => hn z (by simp [hz]))
      dsimp only at h1 h2 ⊢
      have hg : (y :: ys).getD (exPick (y :: ys)) x = (y :: ys)[exPick (y :: ys)] := by
        rw [List.getD_eq_getElem?_getD, List.getElem?_eq_getElem h1]; rfl
      by_cases hc : x.2.le ((y :: ys)[exPick (y :: ys)]).2 = true
      · have e : exPick (x :: y :: ys) = exPick (y :: ys) + 1 := by
          rw [exPick, hg, if_pos hc]
        refine ⟨by rw [e, List.length_cons]; omega, ?_⟩
        intro z hz
        simp only [e, List.getElem_cons_succ]
        rcases List.mem_cons.mp hz with rfl | hz
        · exact hc
        · exact h2 z hz
      · have e : exPick (x :: y :: ys) = 0 := by
          rw [exPick, hg, if_neg hc]
        refine ⟨by rw [e]; simp, ?_⟩
        intro z hz
        simp only [e, List.getElem_cons_zero]
        have hx := hn x (by simp)
        rcases List.mem_cons.mp hz with rfl | hz
        · exact F32.le_refl hx
        · have hm : (y :: ys)[exPick (y :: ys)] ∈ y :: ys := List.getElem_mem _
          rcases F32.le_total hx (hn _ (List.mem_cons_of_mem _ hm)) with h | h
          · exact absurd h hc
          · exact F32.le_trans (h2 z hz) h

def exPairInsert (x : Nat × F32) : List (Nat × F32) → List (Nat × F32)
  | [] => [x]
  | y :: ys => if x.2.le y.2 then x :: y :: ys else y :: exPairInsert x ys

/-- A sort meeting the contract, used in examples. -/
def exPairSort : List (Nat × F32) → List (Nat × F32)
  | [] => []
  | x :: xs => exPairInsert x (exPairSort xs)

theorem exPairInsert_perm (x : Nat × F32) : ∀ l, (exPairInsert x l).Perm (x :: l)
  | [] => List.Perm.refl _
  | y :: ys => by
    unfold exPairInsert
    split
    · exact List.Perm.refl _
    · exact ((exPairInsert_perm x ys).cons y).trans (List.Perm.swap x y ys)

theorem exPairSort_perm : ∀ l, (exPairSort l).Perm l
  | [] => List.Perm.refl _
  | x :: xs => (exPairInsert_perm x _).trans ((exPairSort_perm xs).cons x)

theorem exPairInsert_sorted (x : Nat × F32) (hx : x.2.IsNum) : ∀ l : List (Nat × F32), (∀ y ∈ l, y.2.IsNum) →
    l.Pairwise (fun x y => x.2.le y.2 = true) → (exPairInsert x l).Pairwise (fun x y => x.2.le y.2 = true) := by
  intro l
  induction l with
  | nil => intro _ _; simp [exPairInsert]
  | cons y ys ih =>
    intro hn hs
    unfold exPairInsert
    rw [List.pairwise_cons] at hs
    split
    · rename_i h
      rw [List.pairwise_cons]
      refine ⟨?_, List.pairwise_cons.2 hs⟩
      intro z hz
      rcases List.mem_cons.1 hz with rfl | hz
      · exact h
      · exact F32.le_trans h (hs.1 z hz)
    · rename_i h
      rw [List.pairwise_cons]
      refine ⟨?_, ih (fun z hz => hn z (by simp [hz])) hs.2⟩
      intro z hz
      rcases List.mem_cons.1 ((exPairInsert_perm x ys).mem_iff.1 hz) with rfl | hz
      · rcases F32.le_total hx (hn y (by simp)) with h' | h'
        · exact absurd h' h
        · exact h'
      · exact hs.1 z hz

theorem exPairSort_isPairSort : IsPairSort exPairSort where
  perm := exPairSort_perm
  sorted := by
    intro l
    induction l with
    | nil => intro _; simp [exPairSort]
    | cons x xs ih =>
      intro hn
      exact exPairInsert_sorted x (hn x (by simp)) _
        (fun y hy => hn y (by simp [(exPairSort_perm xs).mem_iff.1 hy]))
        (ih (fun y hy => hn y (by simp [hy])))

/-! ## C47 -/

/-- **C47.** `exact_knn` gives every query `k` distinct points in order of distance, with their distances,
such that no other point is strictly closer, however ties are resolved by the queue. -/
theorem C47_exact_knn (k npoints nq : Nat) (hk : 0 < k) (hkn : k ≤ npoints) (D : Nat → Nat → F32)
    (hD : ∀ q i, (D q i).IsNum) (pick : Nat → Nat → List (Nat × F32) → Nat) (hp : ∀ q, IsHeapPick (pick q))
    (junk : Nat → F32) :
    ∃ rows, exactKnn pick k npoints nq D junk = .ok rows ∧ rows.length = nq ∧
      ∀ q row, rows[q]? = some row → Spec.KNearest k (Finset.range npoints) (D q) row :=
  exactKnn_spec hk hkn hD hp junk

/-- **C47.** Both programs give every query the `k'` nearest points of the whole data set, where `k'` is the
smaller of `k` and the number of points of the last part of the file; the program that does not reduce `k`
needs `k` not to exceed that number.  The data set has at most 2^32 points. -/
theorem C47_parts_partial (clamp : Bool) (partSize n nq k : Nat) (hP : 0 < partSize) (hn0 : 0 < n) (hn : n ≤ 4294967296)
    (hk : 0 < k) (D : Nat → Nat → F32) (hD : ∀ q i, (D q i).IsNum)
    (pick : Nat → Nat → Nat → List (Nat × F32) → Nat) (hp : ∀ p q, IsHeapPick (pick p q))
    (sortP : List (Nat × F32) → List (Nat × F32)) (hs : IsPairSort sortP) (junk : Nat → Nat → F32) (last : Nat)
    (hlast : last = if n % partSize = 0 then partSize else n % partSize) (hkl : clamp = false → k ≤ last) :
    ∃ rows, groundTruth clamp pick sortP partSize n nq k D junk = .ok (min last k, rows) ∧ rows.length = nq ∧
      ∀ q row, rows[q]? = some row → Spec.KNearest (min last k) (Finset.range n) (D q) row := by
  have hnp : numParts partSize n ≠ 0 := by
    unfold numParts
    split
    · rename_i h0
      intro h
      have := Nat.div_add_mod n partSize
      rw [h, h0] at this
      simp at this; omega
    · exact Nat.succ_ne_zero _
  have hln : last ≤ n := by
    rw [hlast]; split
    · rename_i h0; exact Nat.le_of_dvd hn0 (Nat.dvd_of_mod_eq_zero h0)
    · exact Nat.mod_le _ _
  obtain ⟨results, e1, l1, s1⟩ := gtParts_spec (nq := nq) hP hn hD hp junk last hlast (numParts partSize n) 0 k
    (List.replicate nq []) (by omega) hk hkl (by simp) (by
      intro i res hi
      rw [List.getElem?_replicate] at hi
      split at hi
      · injection hi with hi
        rw [if_neg hnp, Nat.zero_mul, ← hi]
        exact ⟨List.nodup_nil, by simp, by simp⟩
      · exact absurd hi (by simp))
  rw [if_neg hnp] at e1 s1
  obtain ⟨rows, e2, l2, s2⟩ := mapM_ok (gtTake sortP (min last k)) results (by
    intro res hres
    obtain ⟨i, hi, rfl⟩ := List.mem_iff_getElem.mp hres
    obtain ⟨o, e, _⟩ := (s1 i _ (List.getElem?_eq_getElem hi)).take (by omega) (hD i) hs
    exact ⟨o, e⟩)
  refine ⟨rows, ?_, l2.trans l1, ?_⟩
  · unfold groundTruth
    rw [e1, Res.ok_bind]
    dsimp only
    rw [e2]; rfl
  · intro q row hq
    have hql : q < results.length := by
      by_contra hc
      rw [List.getElem?_eq_none (by omega)] at hq
      exact absurd hq (by simp)
    obtain ⟨y, hy, e⟩ := s2 q _ (List.getElem?_eq_getElem hql)
    obtain ⟨o, e', ho⟩ := (s1 q _ (List.getElem?_eq_getElem hql)).take (by omega) (hD q) hs
    rw [e'] at e
    injection e with e
    rw [hq] at hy
    injection hy with hy
    rw [hy, ← e]; exact ho

/-- Two correct answers to a k-nearest question have the same distances in the same order. -/
theorem knearest_le {k : Nat} {S : Finset Nat} {d : Nat → F32} {a b : List (Nat × F32)} (hd : ∀ i, (d i).IsNum)
    (ha : Spec.KNearest k S d a) (hb : Spec.KNearest k S d b) (j : Nat) (x y : Nat × F32) (hx : a[j]? = some x)
    (hy : b[j]? = some y) : x.2.le y.2 = true := by
  by_contra hc
  obtain ⟨hja, rfl⟩ := List.getElem?_eq_some_iff.mp hx
  obtain ⟨hjb, rfl⟩ := List.getElem?_eq_some_iff.mp hy
  have hxm : a[j] ∈ a := List.getElem_mem _
  have hym : b[j] ∈ b := List.getElem_mem _
  have hlt : (b[j]).2.lt (a[j]).2 = true := by
    rw [← F32.not_le_iff_lt (by rw [(ha.mem _ hxm).2]; exact hd _) (by rw [(hb.mem _ hym).2]; exact hd _)]
    simpa using hc
  -- the first j + 1 entries of b are strictly closer than a[j], hence among the first j entries of a
  have hsub : ((b.take (j + 1)).map Prod.fst).toFinset ⊆ ((a.take j).map Prod.fst).toFinset := by
    intro i hi
    rw [List.mem_toFinset] at hi ⊢
    obtain ⟨z, hz, rfl⟩ := List.mem_map.mp hi
    have hzb := List.mem_of_mem_take hz
    have hzle : z.2.le (b[j]).2 = true := by
      obtain ⟨m, hm, rfl⟩ := List.mem_iff_getElem.mp hz
      rw [List.getElem_take]
      rw [List.length_take] at hm
      by_cases hmj : m = j
      · subst hmj
        exact F32.le_refl (by rw [(hb.mem _ hym).2]; exact hd _)
      · exact List.pairwise_iff_getElem.mp hb.sorted m j (by omega) hjb (by omega)
    have hzlt : z.2.lt (a[j]).2 = true := F32.lt_of_le_of_lt hzle hlt
    have hza : z.1 ∈ a.map Prod.fst := by
      by_contra hni
      have := ha.best z.1 (hb.mem z hzb).1 hni _ hxm
      rw [← (hb.mem z hzb).2] at this
      rw [F32.lt_eq_false_of_le this] at hzlt
      exact absurd hzlt (by simp)
    obtain ⟨w, hw, hwz⟩ := List.mem_map.mp hza
    have hwd : w.2 = z.2 := by rw [(ha.mem w hw).2, (hb.mem z hzb).2, hwz]
    obtain ⟨m, hm, rfl⟩ := List.mem_iff_getElem.mp hw
    refine List.mem_map.mpr ⟨a[m], ?_, hwz⟩
    have hmj : m < j := by
      by_contra hge
      have : (a[j]).2.le (a[m]).2 = true := by
        by_cases h : m = j
        · subst h; exact F32.le_refl (by rw [(ha.mem _ hxm).2]; exact hd _)
        · exact List.pairwise_iff_getElem.mp ha.sorted j m hja hm (by omega)
      rw [hwd, ] at this
      rw [F32.lt_eq_false_of_le this] at hzlt
      exact absurd hzlt (by simp)
    rw [List.mem_take_iff_getElem]
    exact ⟨m, by omega, rfl⟩
  have hcard := Finset.card_le_card hsub
  rw [List.toFinset_card_of_nodup ((hb.nodup).sublist ((List.take_sublist _ _).map _)), List.length_map,
    List.length_take] at hcard
  have := List.toFinset_card_le ((a.take j).map Prod.fst)
  rw [List.length_map, List.length_take] at this
  omega

/-- **C47.** The merged results have the same distances as a single pass over all points (`==` on floats),
and as any other correct answer. -/
theorem C47_same_distances {k : Nat} {S : Finset Nat} {d : Nat → F32} {a b : List (Nat × F32)}
    (hd : ∀ i, (d i).IsNum) (ha : Spec.KNearest k S d a) (hb : Spec.KNearest k S d b) :
    a.length = b.length ∧ ∀ (j : Nat) (x y : Nat × F32), a[j]? = some x → b[j]? = some y → x.2.le y.2 = true ∧ y.2.le x.2 = true :=
  ⟨by rw [ha.length, hb.length], fun j x y hx hy =>
    ⟨knearest_le hd ha hb j x y hx hy, knearest_le hd hb ha j y x hy hx⟩⟩

/-- Distances of three points: 2, 1, 2. -/
def exGtD : Nat → Nat → F32 := fun _ i => if i = 1 then F32.one else ⟨0x40000000#32⟩

example : ∀ q i, (exGtD q i).IsNum := by
  intro q i; unfold exGtD; split <;> decide

/-- Three points in parts of two, one neighbour wanted. -/
example : groundTruth true (fun _ _ _ => exPick) exPairSort 2 3 1 1 exGtD (fun _ _ => F32.zero) =
    .ok (1, [[(1, F32.one)]]) := by decide +kernel

/-! ## C48 -/

/-- **C48.** If `k` does not exceed the number of points of the last part, both programs write `k` neighbours
per query. -/
theorem C48_k_partial (clamp : Bool) (partSize n nq k : Nat) (hP : 0 < partSize) (hn0 : 0 < n)
    (hn : n ≤ 4294967296) (hk : 0 < k) (D : Nat → Nat → F32) (hD : ∀ q i, (D q i).IsNum)
    (pick : Nat → Nat → Nat → List (Nat × F32) → Nat) (hp : ∀ p q, IsHeapPick (pick p q))
    (sortP : List (Nat × F32) → List (Nat × F32)) (hs : IsPairSort sortP) (junk : Nat → Nat → F32)
    (hkl : k ≤ if n % partSize = 0 then partSize else n % partSize) :
    ∃ rows, groundTruth clamp pick sortP partSize n nq k D junk = .ok (k, rows) ∧
      ∀ row ∈ rows, row.length = k := by
  obtain ⟨rows, e, l, s⟩ := C47_parts_partial clamp partSize n nq k hP hn0 hn hk D hD pick hp sortP hs junk _ rfl
    (fun _ => hkl)
  rw [Nat.min_eq_right hkl] at e s
  refine ⟨rows, e, ?_⟩
  intro row hrow
  obtain ⟨q, hq, rfl⟩ := List.mem_iff_getElem.mp hrow
  rw [(s q _ (List.getElem?_eq_getElem hq)).length, Finset.card_range]
  have : (if n % partSize = 0 then partSize else n % partSize) ≤ n := by
    split
    · rename_i h0; exact Nat.le_of_dvd hn0 (Nat.dvd_of_mod_eq_zero h0)
    · exact Nat.mod_le _ _
  omega

/-- **C48 is false** (src/aux_compute_groundtruth.cpp:300): with more than one part and a last part of fewer
than `k` points, fewer than `k` neighbours are written for every query although there are enough points. -/
theorem C48_reduced (partSize n nq k : Nat) (hP : 0 < partSize) (hn0 : 0 < n)
    (hn : n ≤ 4294967296) (D : Nat → Nat → F32) (hD : ∀ q i, (D q i).IsNum)
    (pick : Nat → Nat → Nat → List (Nat × F32) → Nat) (hp : ∀ p q, IsHeapPick (pick p q))
    (sortP : List (Nat × F32) → List (Nat × F32)) (hs : IsPairSort sortP) (junk : Nat → Nat → F32)
    (hlast : n % partSize ≠ 0 ∧ n % partSize < k) :
    ∃ rows, groundTruth true pick sortP partSize n nq k D junk = .ok (n % partSize, rows) ∧
      n % partSize < k := by
  obtain ⟨rows, e, l, s⟩ := C47_parts_partial true partSize n nq k hP hn0 hn (by omega) D hD pick hp sortP hs junk _ rfl
    (fun h => by simp at h)
  rw [if_neg hlast.1, Nat.min_eq_left (by omega)] at e
  exact ⟨rows, e, hlast.2⟩

/-- 10000001 points and `k = 100`: one neighbour per query. -/
example : 100 ≤ 10000001 ∧ 10000001 % 10000000 ≠ 0 ∧ 10000001 % 10000000 < 100 := by decide

theorem knnInit_ids {col : Nat → Res F32} {k : Nat} {h : List (Nat × F32)} (e : knnInit col k = .ok h) :
    h.map Prod.fst = List.range k := by
  unfold knnInit at e
  suffices ∀ (l : List Nat) (h : List (Nat × F32)), l.mapM (fun p => do
      let d ← col p
      (.ok (p, d) : Res (Nat × F32))) = .ok h → h.map Prod.fst = l from this _ _ e
  intro l
  induction l with
  | nil => intro h e; injection e with e; rw [← e]; rfl
  | cons p l ih =>
    intro h e
    rw [List.mapM_cons, Res.bind_eq_ok] at e
    obtain ⟨x, e1, e2⟩ := e
    rw [Res.bind_eq_ok] at e1 e2
    obtain ⟨d, _, e1⟩ := e1
    obtain ⟨xs, e3, e2⟩ := e2
    injection e1 with e1
    injection e2 with e2
    rw [← e2, List.map_cons, ih xs e3, ← e1]

theorem knnOut_perm {pick : Nat → List (Nat × F32) → Nat} {np : Nat} : ∀ (l : Nat) (h o : List (Nat × F32)),
    h.length = l → knnOut pick np l h = .ok o → o.Perm h := by
  intro l
  induction l with
  | zero =>
    intro h o hl e
    injection e with e
    have : h = [] := by simpa using hl
    rw [← e, this]
  | succ l ih =>
    intro h o hl e
    unfold knnOut at e
    rw [Res.bind_eq_ok] at e
    obtain ⟨t, e1, e⟩ := e
    rw [Res.bind_eq_ok] at e
    obtain ⟨r, e2, e⟩ := e
    injection e with e
    rw [rd_eq_ok_iff] at e1
    obtain ⟨hi, ht⟩ := List.getElem?_eq_some_iff.mp e1
    have hperm := eraseIdx_perm h _ hi
    have := ih _ r (by have := hperm.length_eq; simp at this; omega) e2
    rw [← e]
    rw [ht] at hperm
    exact (List.perm_append_comm.trans (this.cons _)).trans hperm.symm

/-- **C48 is false** (tests/utils/compute_groundtruth.cpp:325-345, where `k` is not reduced): if a part has
fewer than `k` points, its result for every query consists of the identifiers `0, …, k - 1`, of which
`npoints, …, k - 1` are not points of the part, with the distances of other queries; or memory is read out
of bounds. -/
theorem C48_not_points (k npoints : Nat) (hk : npoints < k) (pick : Nat → List (Nat × F32) → Nat)
    (dm : List F32) (qi : Nat) (row : List (Nat × F32))
    (e : knnRow pick k npoints (fun p => rd dm (p + qi * npoints)) = .ok row) :
    (row.map Prod.fst).Perm (List.range k) ∧ npoints ∈ row.map Prod.fst := by
  unfold knnRow at e
  rw [Res.bind_eq_ok] at e
  obtain ⟨h, e1, e⟩ := e
  rw [Res.bind_eq_ok] at e
  obtain ⟨h', e2, e⟩ := e
  rw [show npoints - k = 0 by omega] at e2
  injection e2 with e2
  subst e2
  have hids := knnInit_ids e1
  have hl : h.length = k := by
    have := congrArg List.length hids
    simpa using this
  have hp := (knnOut_perm k h row hl e).map Prod.fst
  rw [hids] at hp
  exact ⟨hp, hp.mem_iff.mpr (List.mem_range.mpr hk)⟩

/-- One point, two queries, `k = 2`: the answer to query 0 lists point 1, which does not exist, at the
distance of query 1. -/
example : groundTruth false (fun _ _ _ => exPick) exPairSort 10 1 2 2
    (fun q _ => if q = 0 then F32.zero else F32.one) (fun _ _ => F32.inf) =
    .ok (2, [[(0, F32.zero), (1, F32.one)], [(0, F32.one), (1, F32.inf)]]) := by decide +kernel

/-! ## The theorems applied to the examples -/

theorem exGtD_isNum : ∀ q i, (exGtD q i).IsNum := by
  intro q i; unfold exGtD; split <;> decide

example := C47_exact_knn 2 3 4 (by decide) (by decide) exGtD exGtD_isNum (fun _ _ => exPick) (fun _ => exPick_isHeapPick)
  (fun _ => F32.zero)

/-- Five points in parts of three, so two in the last one; three neighbours are wanted and two given. -/
example := C47_parts_partial true 3 5 4 3 (by decide) (by decide) (by decide) (by decide) exGtD exGtD_isNum
  (fun _ _ _ => exPick) (fun _ _ => exPick_isHeapPick) exPairSort exPairSort_isPairSort (fun _ _ => F32.zero) 2 (by decide)
  (by decide)

example : Spec.KNearest 1 (Finset.range 3) (exGtD 0) [(1, F32.one)] := by
  obtain ⟨rows, h, hl, h2⟩ := C47_exact_knn 1 3 1 (by decide) (by decide) exGtD exGtD_isNum (fun _ _ => exPick)
    (fun _ => exPick_isHeapPick) (fun _ => F32.zero)
  have e : exactKnn (fun _ _ => exPick) 1 3 1 exGtD (fun _ => F32.zero) = .ok [[(1, F32.one)]] := by decide +kernel
  rw [e] at h
  injection h with h
  subst h
  exact h2 0 _ rfl

example := C48_k_partial false 3 5 4 2 (by decide) (by decide) (by decide) (by decide) exGtD exGtD_isNum
  (fun _ _ _ => exPick) (fun _ _ => exPick_isHeapPick) exPairSort exPairSort_isPairSort (fun _ _ => F32.zero) (by decide)

example := C48_reduced 3 5 4 3 (by decide) (by decide) (by decide) exGtD exGtD_isNum
  (fun _ _ _ => exPick) (fun _ _ => exPick_isHeapPick) exPairSort exPairSort_isPairSort (fun _ _ => F32.zero) (by decide)

example := C48_not_points 2 1 (by decide) (fun _ => exPick) [F32.zero, F32.one] 0 [(0, F32.zero), (1, F32.one)]
  (by decide +kernel)

/-- Points 0 and 2 are at the same distance: whichever is listed, the distances are the same. -/
example := @C47_same_distances 2 {0, 1, 2} (fun i => if i = 1 then F32.zero else F32.one) [(1, F32.zero), (0, F32.one)]
  [(1, F32.zero), (2, F32.one)] (by intro i; by_cases h : i = 1 <;> simp only [h, if_true, if_false] <;> decide)
  ⟨by decide, by decide, by decide, by decide, by decide⟩ ⟨by decide, by decide, by decide, by decide, by decide⟩

end Grann
