import Verif.Proofs.PoolInv
/-!
# C01, C02, C03, C09: the candidate pool and the filter test
-/

namespace Grann

/-! ## C01 -/

/-- **C01.** Inserting `nn` into a list `a` whose first `K ≥ 1` entries are sorted by distance
(no NaN) either reports a repeated identifier and leaves the list alone, or produces a list whose
first `K + 1` entries are sorted and are the old ones plus `nn`; `nn` is at the reported position,
entries before it have not moved, entries beyond slot `K` are untouched, and no old entry has both
the identifier and the distance of `nn`. -/
theorem C01_insert_into_sorted_list (a : List Nbr) (K : Nat) (nn : Nbr)
    (hK : 1 ≤ K) (hK2 : K ≤ 2 ^ 31 + 1) (hlen : K < a.length)
    (hsorted : (a.take K).Pairwise (fun x y => x.dist.le y.dist = true))
    (hnum : ∀ y ∈ a.take K, y.dist.IsNum) (hnn : nn.dist.IsNum) :
    (insertIntoPool a K nn = .ok (a, K + 1) ∧ ∃ y ∈ a.take K, y.id = nn.id) ∨
    (∃ a' r, insertIntoPool a K nn = .ok (a', r) ∧ r ≤ K ∧ a'.length = a.length ∧
      a'[r]? = some nn ∧ a'.take r = a.take r ∧
      (a'.take (K + 1)).Pairwise (fun x y => x.dist.le y.dist = true) ∧
      (a'.take (K + 1)).Perm (nn :: a.take K) ∧
      a'.drop (K + 1) = a.drop (K + 1) ∧
      ∀ y ∈ a.take K, y.id = nn.id → y.dist.lt nn.dist = true ∨ nn.dist.lt y.dist = true) := by
  have hPl : (a.take K).length = K := by simp; omega
  have hsplit : a = a.take K ++ a[K] :: a.drop (K + 1) := by
    rw [← List.drop_eq_getElem_cons hlen, List.take_append_drop]
  rcases insertIntoPool_cases (a.take K) a[K] (a.drop (K + 1)) nn (by omega) (by omega) with
    ⟨h1, h2⟩ | ⟨r, hr, he, hord⟩
  · left
    rw [← hsplit, hPl] at h1
    exact ⟨h1, h2⟩
  · right
    rw [← hsplit, hPl] at he
    obtain ⟨hb, ha, hne⟩ := hord hsorted hnum hnn
    rw [hPl] at hr
    have hperm := Spec.take_cons_drop_perm (a.take K) nn r
    have hl1 : (List.take r (a.take K) ++ nn :: List.drop r (a.take K)).length = K + 1 := by
      rw [hperm.length_eq]; simp [hPl]
    have htk : ((a.take K).take r ++ nn :: (a.take K).drop r ++ a.drop (K + 1)).take (K + 1)
        = (a.take K).take r ++ nn :: (a.take K).drop r := by
      rw [List.take_append_of_le_length (Nat.le_of_eq hl1.symm),
        List.take_of_length_le (Nat.le_of_eq hl1)]
    have hrl : ((a.take K).take r).length = r := by rw [List.length_take, hPl]; omega
    refine ⟨_, r, he, hr, ?_, ?_, ?_, ?_, ?_, ?_, hne⟩
    · rw [List.length_append, hl1, List.length_drop]; omega
    · rw [List.append_assoc, List.getElem?_append_right (by omega), hrl]; simp
    · rw [List.append_assoc, List.take_append_of_le_length (by omega),
        List.take_of_length_le (by omega), List.take_take, Nat.min_eq_left hr]
    · rw [htk, List.pairwise_append, List.pairwise_cons]
      refine ⟨hsorted.sublist (List.take_sublist _ _),
        ⟨ha, hsorted.sublist (List.drop_sublist _ _)⟩, ?_⟩
      intro x hx y hy
      rcases List.mem_cons.1 hy with rfl | hy
      · exact hb x hx
      · exact F32.le_trans (hb x hx) (ha y hy)
    · rw [htk]; exact hperm
    · rw [List.drop_append, hl1]
      simp only [Nat.sub_self, List.drop_zero]
      rw [List.drop_of_length_le (Nat.le_of_eq hl1)]; simp

/-- A list of three entries with a tie, and a spare slot. -/
def exPool : List Nbr :=
  [⟨4, F32.zero, false⟩, ⟨7, F32.one, true⟩, ⟨2, F32.one, true⟩, Nbr.dflt]

/-- The hypotheses of C01 are met by a list with a tie; a new tied entry is inserted, the same
entry again is refused. -/
example : (exPool.take 3).Pairwise (fun x y => x.dist.le y.dist = true) ∧
    (∀ y ∈ exPool.take 3, y.dist.IsNum) ∧
    insertIntoPool exPool 3 ⟨9, F32.one, true⟩ =
      .ok ([⟨4, F32.zero, false⟩, ⟨7, F32.one, true⟩, ⟨9, F32.one, true⟩, ⟨2, F32.one, true⟩], 2) ∧
    insertIntoPool exPool 3 ⟨7, F32.one, true⟩ = .ok (exPool, 4) := by decide

/-! ## C02 -/

/-- Accepted by the filter test of the code. -/
theorem filterAcc_all {V : Type} (c : Ctx V) (filters : List Label) (l : List Nat)
    (hl : filters ≠ [] → ∀ i ∈ l, i < c.labels.length) :
    ∀ id ∈ l, filterAccepts c filters id = .ok (decide (filterAccepts c filters id = .ok true)) := by
  intro id hid
  obtain ⟨b, hb⟩ := filterAccepts_ok c filters id (fun h => hl h id hid)
  rw [hb]; cases b <;> simp

/-- **C02.** Offer any batches of candidates to an empty result list of capacity `k ≥ 1`.  With a
sorted filter and sorted label lists, the outcome is defined and the list is a correct answer to
"the `k` nearest of the offered points that match the filter"; the number of distance computations
is the number of distinct matching candidates.  `d i` is the distance of point `i` to the query. -/
theorem C02_scan_keeps_k_nearest {V : Type} (c : Ctx V) (q : V) (filters : List Label) (k : Nat)
    (batches : List (List Nat)) (d : Nat → F32)
    (hd : ∀ i v, c.data[i]? = some v → d i = c.cmp q v)
    (hk : 1 ≤ k) (hk2 : Spec.ListFits c.data.length k)
    (hin : ∀ b ∈ batches, ∀ i ∈ b, i < c.data.length)
    (hlab : filters ≠ [] → c.labels.length = c.data.length)
    (hsf : SortedL filters) (hsl : ∀ l ∈ c.labels, SortedL l)
    (hfin : ∀ i, i < c.data.length → (d i).lt F32.fmax = true) :
    ∃ s, batches.foldlM (procCands c q filters k) (freshPool k) = .ok s ∧
      let S := (batches.flatten.filter
        (fun i => Spec.Matches c.useUniv c.univ filters (c.labels.getD i []))).toFinset
      Spec.KNearest k S d s.answer ∧ s.cmps = S.card := by
  let acc : Nat → Bool := fun i => decide (Spec.Matches c.useUniv c.univ filters (c.labels.getD i []))
  have hin' : ∀ i ∈ batches.flatten, i < c.data.length := by
    intro i hi
    obtain ⟨b, hb, hi⟩ := List.mem_flatten.1 hi
    exact hin b hb i hi
  have hacc : ∀ id ∈ batches.flatten, filterAccepts c filters id = .ok (acc id) := by
    intro id hid
    by_cases hne : filters = []
    · subst hne
      simp [filterAccepts, acc, Spec.Matches]
    · have hlt : id < c.labels.length := by rw [hlab hne]; exact hin' id hid
      have hg : c.labels.getD id [] = c.labels[id] := by
        simp [List.getD, List.getElem?_eq_getElem hlt]
      refine filterAccepts_iff (labs := c.labels.getD id []) (fun _ => ?_) hsf ?_
      · rw [hg, List.getElem?_eq_getElem hlt]
      · rw [hg]; exact hsl _ (List.getElem_mem _)
  obtain ⟨s, e, hs, hi, hc, hkk⟩ := procBatches_spec c q filters k d
    (fun i v h => (hd i v h).symm) hk hk2 acc batches (freshPool k) (freshPool_sinv d k) (by simp [freshPool]) hin'
    hacc (by
      intro _
      refine ⟨rfl, Nbr.dflt, by simp [freshPool, List.replicate_succ], fun id hid => ?_⟩
      exact hfin id (hin' id (List.mem_of_find?_eq_some hid)))
  refine ⟨s, e, ?_⟩
  have hS : (batches.flatten.filter
        (fun i => Spec.Matches c.useUniv c.univ filters (c.labels.getD i []))).toFinset
        = s.ins.toFinset := by
    ext i
    rw [hi]
    simp only [List.mem_toFinset, mem_addAccepted, List.mem_filter]
    simp [freshPool, acc]
  simp only [hS]
  refine ⟨?_, ?_⟩
  · exact hkk (freshPool_kinv d k) (by simp [freshPool])
      (fun i hi _ => F32.isNum_of_lt_left (hfin i (hin' i hi)))
  · rw [List.toFinset_card_of_nodup hs.nodupIns]
    simpa [freshPool] using hc

/-- **C02 for arbitrary filters.** Without any assumption on the order of the filter or of the label
lists: the list holds the `k` nearest of the points the filter test accepted, and every accepted
point matches the filter. -/
theorem C02_scan_any_filter {V : Type} (c : Ctx V) (q : V) (filters : List Label) (k : Nat)
    (batches : List (List Nat)) (d : Nat → F32)
    (hd : ∀ i v, c.data[i]? = some v → d i = c.cmp q v)
    (hk : 1 ≤ k) (hk2 : Spec.ListFits c.data.length k)
    (hin : ∀ b ∈ batches, ∀ i ∈ b, i < c.data.length)
    (hlab : filters ≠ [] → c.labels.length = c.data.length)
    (hfin : ∀ i, i < c.data.length → (d i).lt F32.fmax = true) :
    ∃ s S, batches.foldlM (procCands c q filters k) (freshPool k) = .ok s ∧
      Spec.KNearest k S d s.answer ∧ s.cmps = S.card ∧
      (∀ i, i ∈ S ↔ i ∈ batches.flatten ∧ filterAccepts c filters i = .ok true) ∧
      (∀ i ∈ S, Spec.Matches c.useUniv c.univ filters (c.labels.getD i [])) := by
  let acc : Nat → Bool := fun i => decide (filterAccepts c filters i = .ok true)
  have hin' : ∀ i ∈ batches.flatten, i < c.data.length := by
    intro i hi
    obtain ⟨b, hb, hi⟩ := List.mem_flatten.1 hi
    exact hin b hb i hi
  have hacc := filterAcc_all c filters batches.flatten
    (fun hne i hi => by rw [hlab hne]; exact hin' i hi)
  obtain ⟨s, e, hs, hi, hc, hkk⟩ := procBatches_spec c q filters k d
    (fun i v h => (hd i v h).symm) hk hk2 acc batches (freshPool k) (freshPool_sinv d k) (by simp [freshPool]) hin'
    hacc (by
      intro _
      refine ⟨rfl, Nbr.dflt, by simp [freshPool, List.replicate_succ], fun id hid => ?_⟩
      exact hfin id (hin' id (List.mem_of_find?_eq_some hid)))
  have hmem : ∀ i, i ∈ s.ins.toFinset ↔
      i ∈ batches.flatten ∧ filterAccepts c filters i = .ok true := by
    intro i
    rw [List.mem_toFinset, hi, mem_addAccepted]
    simp [freshPool, acc]
  refine ⟨s, s.ins.toFinset, e, ?_, ?_, hmem, ?_⟩
  · exact hkk (freshPool_kinv d k) (by simp [freshPool])
      (fun i hi _ => F32.isNum_of_lt_left (hfin i (hin' i hi)))
  · rw [List.toFinset_card_of_nodup hs.nodupIns]
    simpa [freshPool] using hc
  · intro i hi'
    obtain ⟨h1, h2⟩ := (hmem i).1 hi'
    refine filterAccepts_sound (fun hne => ?_) h2
    have hlt : i < c.labels.length := by rw [hlab hne]; exact hin' i h1
    simp [List.getD, List.getElem?_eq_getElem hlt]

/-- Four one-dimensional points whose vectors are already distances (query irrelevant), labelled
"a", "b", "a,b", "b". -/
def exCtx : Ctx F32 where
  data := [F32.one, F32.zero, F32.zero, F32.fmax]
  labels := [[[97]], [[98]], [[97], [98]], [[98]]]
  useUniv := false
  univ := []
  cmp := fun _ v => v

/-- Witness for C02: two batches with repetitions, filter "b" (point 3, at distance FLT_MAX, is not
offered; the finite-distance hypothesis is met by the three offered points). -/
example : (do
    let s ← [[0, 1, 1], [2, 0, 1]].foldlM
      (procCands { exCtx with data := exCtx.data.take 3, labels := exCtx.labels.take 3 } F32.zero [[98]] 2) (freshPool 2)
    pure (s.answer, s.cmps) : Res _) = .ok ([(2, F32.zero), (1, F32.zero)], 2) := by decide

example : (∀ v ∈ exCtx.data.take 3, v.lt F32.fmax = true) ∧ SortedL [[98]] ∧
    (∀ l ∈ exCtx.labels, SortedL l) := by decide

/-! ## C03 -/

/-- **C03.** For every capacity `k ≥ 1` a scan is memory safe exactly when the first point accepted
by the filter test, if there is one, has a distance below `FLT_MAX`; later distances (even NaN)
cannot make it leave its buffers.  In particular it is safe whenever all distances are below
`FLT_MAX`. -/
theorem C03_scan_memory_safe_iff {V : Type} (c : Ctx V) (q : V) (filters : List Label) (k : Nat)
    (cands : List Nat) (d : Nat → F32)
    (hd : ∀ i v, c.data[i]? = some v → d i = c.cmp q v)
    (hk : 1 ≤ k) (hk2 : Spec.ListFits c.data.length k)
    (hin : ∀ i ∈ cands, i < c.data.length)
    (hlab : filters ≠ [] → c.labels.length = c.data.length) :
    (∃ s, procCands c q filters k (freshPool k) cands = .ok s) ↔
    (∀ i, cands.find? (fun i => decide (filterAccepts c filters i = .ok true)) = some i →
      (d i).lt F32.fmax = true) := by
  let acc : Nat → Bool := fun i => decide (filterAccepts c filters i = .ok true)
  have hacc := filterAcc_all c filters cands (fun hne i hi => by rw [hlab hne]; exact hin i hi)
  constructor
  · -- contrapositive: the first accepted insertion is undefined
    rintro ⟨s, hs⟩ i hi
    by_contra hlt
    have hlt : (d i).lt F32.fmax = false := by simpa using hlt
    unfold procCands at hs
    rw [show ({ freshPool k with best := k } : PoolSt) = freshPool k from rfl] at hs
    revert hs hi hin hacc
    induction cands with
    | nil => intro _ _ _ hi; simp at hi
    | cons a as ih =>
      intro hin hacc hs hi
      rw [List.foldlM_cons] at hs
      by_cases ha : filterAccepts c filters a = .ok true
      · have : a = i := by simpa [ha] using hi
        subst this
        have hal : a < c.data.length := hin a (by simp)
        have hda : c.cmp q c.data[a] = d a := (hd a _ (List.getElem?_eq_getElem hal)).symm
        have hins : insertIntoPool (freshPool k).pool 0 ⟨a, d a, true⟩ = .error .ub := by
          have := insertIntoPool_zero_ub Nbr.dflt (List.replicate k Nbr.dflt) ⟨a, d a, true⟩
            (by have := hk2.1; simp; omega) hlt
          simpa [freshPool, List.replicate_succ] using this
        have : procOne c q filters k (freshPool k) a = .error .ub := by
          unfold procOne
          rw [ha]
          simp only [Res.ok_bind, Bool.not_true, Bool.false_eq_true, if_false]
          rw [if_neg (by simp [freshPool]), rd_ok hal]
          simp only [Res.ok_bind]
          rw [hda]
          rw [if_neg (by simp [freshPool])]
          rw [show (freshPool k).cur = 0 from rfl, hins]
          rfl
        rw [this] at hs
        simp at hs
      · have haf : filterAccepts c filters a = .ok false := by
          have := hacc a (by simp)
          simpa [ha] using this
        have h1 : procOne c q filters k (freshPool k) a = .ok (freshPool k) := by
          unfold procOne; rw [haf]; rfl
        rw [h1] at hs
        exact ih (fun i hi => hin i (by simp [hi])) (fun i hi => hacc i (by simp [hi]))
          hs (by simpa [ha] using hi)
  · intro h
    obtain ⟨s, e, _⟩ := procBatches_spec c q filters k d
      (fun i v h => (hd i v h).symm) hk hk2 acc [cands] (freshPool k) (freshPool_sinv d k) (by simp [freshPool])
      (by simpa using hin) (by simpa using hacc) (by
        intro _
        refine ⟨rfl, Nbr.dflt, by simp [freshPool, List.replicate_succ], fun id hid => ?_⟩
        exact h id (by simpa using hid))
    refine ⟨s, ?_⟩
    rw [List.foldlM_cons] at e
    obtain ⟨s1, e1, e2⟩ := Res.bind_eq_ok.1 e
    have : s1 = s := by simpa using e2
    rw [← this]; exact e1

/-- Hypotheses of C03 and both sides of the equivalence on concrete scans: point 3 has distance
`FLT_MAX`; offered first it is fatal, offered later it is harmless. -/
example : procCands exCtx F32.zero [] 2 (freshPool 2) [3, 0] = .error .ub ∧
    (∃ s, procCands exCtx F32.zero [] 2 (freshPool 2) [0, 3] = .ok s) := by
  refine ⟨by decide, ?_⟩
  exact ⟨_, rfl⟩

/-- **C03, capacity 0 (negative).** With capacity 0 the scan reads outside its one-entry buffer as
soon as a second accepted point is not strictly closer than the first. -/
theorem C03_zero_capacity_unsafe {V : Type} (c : Ctx V) (q : V) (a b : Nat) (va vb : V)
    (hab : a ≠ b) (ha : c.data[a]? = some va) (hb : c.data[b]? = some vb)
    (h1 : (c.cmp q va).lt F32.fmax = true) (h2 : (c.cmp q vb).lt (c.cmp q va) = false) :
    procCands c q [] 0 (freshPool 0) [a, b] = .error .ub := by
  have e1 : procOne c q [] 0 (freshPool 0) a
      = .ok ⟨[⟨a, c.cmp q va, true⟩], 0, [a], 1, 0⟩ := by
    have := insertIntoPool_zero Nbr.dflt [] ⟨a, c.cmp q va, true⟩ h1
    simp [procOne, filterAccepts, freshPool, rd_eq_ok_iff.2 ha, this]
  have e2 : procOne c q [] 0 ⟨[⟨a, c.cmp q va, true⟩], 0, [a], 1, 0⟩ b = .error .ub := by
    have := insertIntoPool_zero_ub ⟨a, c.cmp q va, true⟩ [] ⟨b, c.cmp q vb, true⟩ (by simp) h2
    simp [procOne, filterAccepts, rd_eq_ok_iff.2 hb, this, Ne.symm hab]
  show (List.foldlM _ (freshPool 0) [a, b]) = _
  rw [List.foldlM_cons, e1]
  simp only [Res.ok_bind]
  rw [List.foldlM_cons, e2]
  rfl

example : procCands exCtx F32.zero [] 0 (freshPool 0) [1, 0] = .error .ub :=
  C03_zero_capacity_unsafe exCtx F32.zero 1 0 F32.zero F32.one (by decide) rfl rfl (by decide)
    (by decide)

/-! ## C09 -/

/-- **C09 (soundness half, any order).** A point accepted by the filter test matches the filter. -/
theorem C09_accepted_matches {V : Type} (c : Ctx V) (filters : List Label) (id : Nat)
    (labs : List Label) (hl : c.labels[id]? = some labs)
    (h : filterAccepts c filters id = .ok true) :
    Spec.Matches c.useUniv c.univ filters labs := filterAccepts_sound (fun _ => hl) h

/-- **C09, partial.** When the filter and the point's labels are in sorted order, the test accepts a
point exactly when it matches.  Missing for the full claim: unsorted filters, for which it is false
(`C09_unsorted_filter_rejects_match`). -/
theorem C09_test_decides_match_partial {V : Type} (c : Ctx V) (filters : List Label) (id : Nat)
    (labs : List Label) (hl : c.labels[id]? = some labs)
    (hsf : SortedL filters) (hsl : SortedL labs) :
    filterAccepts c filters id = .ok (decide (Spec.Matches c.useUniv c.univ filters labs)) :=
  filterAccepts_iff (fun _ => hl) hsf hsl

/-- **C09 (negative).** The full claim fails: there is a (shuffled) filter and a point carrying one
of its labels that the test rejects. -/
theorem C09_unsorted_filter_rejects_match :
    ∃ (c : Ctx F32) (filters : List Label) (id : Nat) (labs : List Label),
      c.labels[id]? = some labs ∧ SortedL labs ∧ (∃ l ∈ filters, l ∈ labs) ∧
      filterAccepts c filters id = .ok false :=
  ⟨exCtx, [[98], [97]], 0, [[97]], rfl, by decide, by decide, by decide⟩

/-- The universal label is honoured in any order. -/
theorem C09_universal_accepted {V : Type} (c : Ctx V) (filters : List Label) (id : Nat)
    (labs : List Label) (hl : c.labels[id]? = some labs) (hu : c.useUniv = true)
    (h : c.univ ∈ filters ∨ c.univ ∈ labs) : filterAccepts c filters id = .ok true := by
  unfold filterAccepts
  by_cases hf : filters.isEmpty
  · rw [if_pos hf]
  · rw [if_neg hf, rd_eq_ok_iff.2 hl]
    simp only [Res.ok_bind]
    have : (c.useUniv && (filters.contains c.univ || labs.contains c.univ)) = true := by
      simpa [hu] using h
    rw [if_pos this]
    simp

example : filterAccepts exCtx [[97], [98]] 2 = .ok true ∧ filterAccepts exCtx [[97]] 1 = .ok false ∧
    filterAccepts { exCtx with useUniv := true, univ := [98] } [[120], [98], [97]] 0 = .ok true := by
  decide

/-! ## The theorems applied to the examples -/

/-- C01: an insertion in the middle of a list with ties. -/
example := C01_insert_into_sorted_list exPool 3 ⟨9, F32.one, true⟩ (by decide) (by decide) (by decide)
  (by decide) (by decide) (by decide)

/-- The three points of `exCtx` at a finite distance. -/
def exCtx3 : Ctx F32 := { exCtx with data := exCtx.data.take 3, labels := exCtx.labels.take 3 }

/-- C02: two batches with repetitions and the filter "b", room for two results. -/
example := C02_scan_keeps_k_nearest exCtx3 F32.zero [[98]] 2 [[0, 1, 1], [2, 0, 1]]
  (fun i => exCtx3.data.getD i F32.zero) (by intro i v h; show exCtx3.data.getD i _ = v; rw [List.getD, h]; rfl)
  (by decide) (by decide) (by decide) (by decide) (by decide) (by decide) (by decide)

/-- C02 with a filter that is not sorted. -/
example := C02_scan_any_filter exCtx3 F32.zero [[98], [97]] 1 [[0, 1, 1], [2, 0, 1]]
  (fun i => exCtx3.data.getD i F32.zero) (by intro i v h; show exCtx3.data.getD i _ = v; rw [List.getD, h]; rfl)
  (by decide) (by decide) (by decide) (by decide) (by decide)

/-- C03: a point at distance `FLT_MAX` among the candidates. -/
example := C03_scan_memory_safe_iff exCtx F32.zero [[98]] 2 [0, 3, 1]
  (fun i => exCtx.data.getD i F32.zero) (by intro i v h; show exCtx.data.getD i _ = v; rw [List.getD, h]; rfl)
  (by decide) (by decide) (by decide) (by decide)

/-- C09: point 2 carries "a" and "b". -/
example : Spec.Matches exCtx.useUniv exCtx.univ [[98], [99]] [[97], [98]] :=
  C09_accepted_matches exCtx [[98], [99]] 2 _ rfl (by decide)

example : filterAccepts exCtx [[98], [99]] 0 = .ok false :=
  C09_test_decides_match_partial exCtx [[98], [99]] 0 _ rfl (by decide) (by decide)

example : filterAccepts { exCtx with useUniv := true, univ := [98] } [[120]] 1 = .ok true :=
  C09_universal_accepted _ [[120]] 1 [[98]] rfl rfl (by decide)

end Grann
