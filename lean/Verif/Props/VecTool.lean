import Verif.Model.VecTool
import Verif.Props.Mips
import Verif.Props.Stats
/-!
# C79: the vector analysis tool
-/

namespace Grann

/-! ## The largest norm -/

/-- All accesses of the iterations of `l`, one iteration after the other. -/
def oneByOne (l : List Nat) : List Nat := l.flatMap (fun i => [i, i, i])

/-- Keeping the larger one, as the loop does. -/
def keepMax {K : Type} (O : MOps K) (norms : List K) (m : K) (i : Nat) : K :=
  match norms[i]? with
  | some n => if O.lt m n then n else m
  | none => m

theorem maxStep_three {K : Type} (O : MOps K) (norms : List K) (s : MaxSt K) (i : Nat) (hi : i < norms.length)
    (hb : s.pc[i]? = some .begin) :
    maxStep O norms (maxStep O norms (maxStep O norms s i) i) i = ⟨keepMax O norms s.m i, s.pc.set i .done⟩ := by
  have hl : i < s.pc.length := (List.getElem?_eq_some_iff.mp hb).1
  have hn := List.getElem?_eq_getElem hi
  have h1 : maxStep O norms s i = { s with pc := s.pc.set i (if O.lt s.m norms[i] then .store norms[i] else .reread) } := by
    unfold maxStep; rw [hn, hb]
  have hset : ∀ p : MaxPc K, (s.pc.set i p)[i]? = some p := fun p => List.getElem?_set_self hl
  have hss : ∀ p q : MaxPc K, (s.pc.set i p).set i q = s.pc.set i q := fun p q => List.set_set ..
  by_cases h : O.lt s.m norms[i] = true
  · rw [h1, if_pos h]
    have h2 : maxStep O norms { s with pc := s.pc.set i (.store norms[i]) } i = ⟨norms[i], s.pc.set i .done⟩ := by
      unfold maxStep; simp only [hn, hset, hss]
    have h3 : maxStep O norms ⟨norms[i], s.pc.set i .done⟩ i = ⟨norms[i], s.pc.set i .done⟩ := by
      unfold maxStep; simp only [hn, hset]
    rw [h2, h3]
    unfold keepMax
    rw [hn]
    simp only [h, if_true]
  · rw [h1, if_neg h]
    have h2 : maxStep O norms { s with pc := s.pc.set i .reread } i = { s with pc := s.pc.set i (.store s.m) } := by
      unfold maxStep; simp only [hn, hset, hss]
    have h3 : maxStep O norms { s with pc := s.pc.set i (.store s.m) } i = ⟨s.m, s.pc.set i .done⟩ := by
      unfold maxStep; simp only [hn, hset, hss]
    rw [h2, h3]
    unfold keepMax
    rw [hn]
    simp only [h]
    rfl

theorem oneByOne_run {K : Type} (O : MOps K) (norms : List K) : ∀ (l : List Nat), l.Nodup → ∀ (s : MaxSt K),
    (∀ i ∈ l, i < norms.length ∧ s.pc[i]? = some .begin) →
    ((oneByOne l).foldl (maxStep O norms) s).m = l.foldl (keepMax O norms) s.m ∧
    ((oneByOne l).foldl (maxStep O norms) s).pc.length = s.pc.length ∧
    ∀ k, ((oneByOne l).foldl (maxStep O norms) s).pc[k]? = if k ∈ l then some .done else s.pc[k]? := by
  intro l
  induction l with
  | nil => intro _ s _; exact ⟨rfl, rfl, fun k => by simp [oneByOne]⟩
  | cons i l ih =>
    intro hnd s hs
    obtain ⟨hi, hnd⟩ := List.nodup_cons.mp hnd
    obtain ⟨hil, hib⟩ := hs i (by simp)
    have hpl : i < s.pc.length := (List.getElem?_eq_some_iff.mp hib).1
    have e : (oneByOne (i :: l)).foldl (maxStep O norms) s =
        (oneByOne l).foldl (maxStep O norms) ⟨keepMax O norms s.m i, s.pc.set i .done⟩ := by
      rw [← maxStep_three O norms s i hil hib]; rfl
    obtain ⟨h1, h2, h3⟩ := ih hnd ⟨keepMax O norms s.m i, s.pc.set i .done⟩ (by
      intro k hk
      obtain ⟨a, b⟩ := hs k (by simp [hk])
      refine ⟨a, ?_⟩
      have hne : i ≠ k := fun h => hi (h ▸ hk)
      rw [List.getElem?_set_ne hne]; exact b)
    rw [e]
    refine ⟨h1, by rw [h2, List.length_set], fun k => ?_⟩
    rw [h3]
    by_cases hk : k ∈ l
    · rw [if_pos hk, if_pos (by simp [hk])]
    · rw [if_neg hk]
      by_cases hki : k = i
      · subst hki
        rw [if_pos (by simp), List.getElem?_set_self hpl]
      · rw [if_neg (by simp [hk, hki]), List.getElem?_set_ne (fun h => hki h.symm)]

/-- The loop has ended. -/
def MaxSt.Ended {K : Type} (s : MaxSt K) : Prop := ∀ p ∈ s.pc, p = .done

theorem augmentBase_ended {K T : Type} (O : MOps K) (conv : K → Res T) (sched : List Nat) (X : List (List K))
    (h : (maxRun O (X.map (mipsNorm O)) sched).Ended) :
    augmentBase O conv sched X =
      X.mapM (fun x => (mipsRow O (O.sqrt (maxRun O (X.map (mipsNorm O)) sched).m) (mipsNorm O x) x).mapM conv) := by
  unfold augmentBase
  dsimp only
  rw [if_pos]
  rw [List.all_eq_true]
  intro p hp
  rw [h p hp]

theorem augmentBase_not_ended {K T : Type} (O : MOps K) (conv : K → Res T) (sched : List Nat) (X : List (List K))
    (h : ¬ (maxRun O (X.map (mipsNorm O)) sched).Ended) : augmentBase O conv sched X = .error .loop := by
  unfold augmentBase
  dsimp only
  rw [if_neg]
  intro hall
  apply h
  intro p hp
  have := List.all_eq_true.mp hall p hp
  cases p <;> simp_all

/-- Without overlap the loop ends with the norm kept last. -/
theorem serial_max {K : Type} (O : MOps K) (norms : List K) (order : List Nat) (hp : order.Perm (List.range norms.length)) :
    (maxRun O norms (oneByOne order)).m = order.foldl (keepMax O norms) O.zero ∧ (maxRun O norms (oneByOne order)).Ended := by
  have hmem : ∀ i, i ∈ order ↔ i < norms.length := fun i => by rw [hp.mem_iff, List.mem_range]
  obtain ⟨h1, h2, h3⟩ := oneByOne_run O norms order (hp.nodup_iff.mpr List.nodup_range)
    ⟨O.zero, List.replicate norms.length .begin⟩ (fun i hi => by
      have := (hmem i).mp hi
      exact ⟨this, by rw [List.getElem?_replicate]; simp [this]⟩)
  refine ⟨h1, ?_⟩
  intro p hp'
  obtain ⟨k, hk⟩ := List.getElem?_of_mem hp'
  have hkl := (List.getElem?_eq_some_iff.mp hk).1
  unfold maxRun at hk hkl
  rw [h2] at hkl
  rw [h3, if_pos ((hmem k).mpr (by simpa using hkl))] at hk
  exact (Option.some.inj hk).symm

/-- **C79 (the maximum can be lost).** Whatever the data: for every vector of positive norm there is a schedule of the threads under
which the loop ends with the norm of that vector as the largest norm, even if others are larger.  (Iteration `j` compares with the
initial 0, all others do their work, then `j` writes.) -/
theorem C79_lost_maximum {K : Type} (O : MOps K) (norms : List K) (j : Nat) (n : K) (hj : norms[j]? = some n)
    (hpos : O.lt O.zero n = true) :
    ∃ sched, (maxRun O norms sched).Ended ∧ (maxRun O norms sched).m = n := by
  have hjl := (List.getElem?_eq_some_iff.mp hj).1
  refine ⟨[j] ++ (oneByOne ((List.range norms.length).filter (· ≠ j)) ++ [j]), ?_⟩
  have hb : ∀ i, i < norms.length → (List.replicate norms.length (MaxPc.begin : MaxPc K))[i]? = some .begin := fun i hi => by
    rw [List.getElem?_replicate]; simp [hi]
  have e1 : maxStep O norms ⟨O.zero, List.replicate norms.length .begin⟩ j =
      ⟨O.zero, (List.replicate norms.length .begin).set j (.store n)⟩ := by
    unfold maxStep; simp only [hj, hb j hjl, hpos, if_true]
  obtain ⟨h1, h2, h3⟩ := oneByOne_run O norms ((List.range norms.length).filter (· ≠ j)) (List.nodup_range.filter _)
    ⟨O.zero, (List.replicate norms.length .begin).set j (.store n)⟩ (fun i hi => by
      obtain ⟨a, b⟩ := List.mem_filter.mp hi
      have hne : j ≠ i := fun h => by simp [h] at b
      exact ⟨List.mem_range.mp a, by
        show ((List.replicate norms.length (MaxPc.begin : MaxPc K)).set j (.store n))[i]? = _
        rw [List.getElem?_set_ne hne]; exact hb i (List.mem_range.mp a)⟩)
  obtain ⟨t, ht⟩ : ∃ t, t = (oneByOne ((List.range norms.length).filter (· ≠ j))).foldl (maxStep O norms)
    ⟨O.zero, (List.replicate norms.length .begin).set j (.store n)⟩ := ⟨_, rfl⟩
  rw [← ht] at h1 h2 h3
  have hrun : maxRun O norms ([j] ++ (oneByOne ((List.range norms.length).filter (· ≠ j)) ++ [j])) = maxStep O norms t j := by
    unfold maxRun
    rw [List.foldl_append, List.foldl_append, List.foldl_cons, List.foldl_nil, List.foldl_cons, List.foldl_nil, e1, ← ht]
  have hpcj : t.pc[j]? = some (.store n) := by
    rw [h3, if_neg (by simp)]
    exact List.getElem?_set_self (by rw [List.length_replicate]; exact hjl)
  have hlast : maxStep O norms t j = ⟨n, t.pc.set j .done⟩ := by
    unfold maxStep; simp only [hj, hpcj]
  rw [hrun, hlast]
  refine ⟨?_, rfl⟩
  intro p hp
  obtain ⟨k, hk⟩ := List.getElem?_of_mem hp
  have hk : (t.pc.set j .done)[k]? = some p := hk
  have hkl := (List.getElem?_eq_some_iff.mp hk).1
  rw [List.length_set, h2] at hkl
  have hkl : k < norms.length := by simpa using hkl
  by_cases hkj : j = k
  · subst hkj
    rw [List.getElem?_set_self ((List.getElem?_eq_some_iff.mp hpcj).1)] at hk
    exact (Option.some.inj hk).symm
  · rw [List.getElem?_set_ne hkj, h3, if_pos (by simp [hkl]; exact fun h => hkj h.symm)] at hk
    exact (Option.some.inj hk).symm

/-! ## The prepared files, in exact arithmetic -/

theorem keepMax_real (norms : List ℝ) (m : ℝ) (i : Nat) (hi : i < norms.length) :
    keepMax realOps norms m i = max m (norms.getD i 0) := by
  unfold keepMax
  rw [List.getD_eq_getElem?_getD, List.getElem?_eq_getElem hi]
  simp only [realOps, decide_eq_true_eq, Option.getD_some]
  split
  · rename_i h; rw [max_eq_right h.le]
  · rename_i h; rw [max_eq_left (not_lt.mp h)]

theorem foldl_keepMax (norms : List ℝ) : ∀ (l : List Nat) (m : ℝ), (∀ i ∈ l, i < norms.length) →
    l.foldl (keepMax realOps norms) m = l.foldl (fun m i => max m (norms.getD i 0)) m := by
  intro l
  induction l with
  | nil => intro m _; rfl
  | cons i l ih =>
    intro m h
    rw [List.foldl_cons, List.foldl_cons, keepMax_real norms m i (h i (by simp))]
    exact ih _ (fun k hk => h k (by simp [hk]))

/-- The order of the points does not matter for the largest norm. -/
theorem serial_max_real (X : List (List ℝ)) (order : List Nat) (hp : order.Perm (List.range X.length)) :
    order.foldl (keepMax realOps (X.map (mipsNorm realOps))) 0 = X.foldl (fun m x => max m (Spec.realDot x x)) 0 := by
  have hmem : ∀ i, i ∈ order ↔ i < X.length := fun i => by rw [hp.mem_iff, List.mem_range]
  rw [foldl_keepMax _ _ _ (fun i hi => by rw [List.length_map]; exact (hmem i).mp hi)]
  have hget : ∀ i (h : i < X.length), (X.map (mipsNorm realOps)).getD i 0 = Spec.realDot X[i] X[i] := by
    intro i h
    rw [List.getD_eq_getElem?_getD, List.getElem?_map, List.getElem?_eq_getElem h]
    exact real_norm _
  obtain ⟨a1, a2⟩ := le_foldMax (fun i => (X.map (mipsNorm realOps)).getD i 0) order 0
  obtain ⟨b1, b2⟩ := le_foldMax (fun x => Spec.realDot x x) X 0
  apply le_antisymm
  · rcases foldMax_mem (fun i => (X.map (mipsNorm realOps)).getD i 0) order 0 with h | ⟨i, hi, h⟩
    · rw [h]; exact b1
    · rw [h, hget i ((hmem i).mp hi)]; exact b2 _ (List.getElem_mem _)
  · rcases foldMax_mem (fun x => Spec.realDot x x) X 0 with h | ⟨x, hx, h⟩
    · rw [h]; exact a1
    · obtain ⟨i, hi, rfl⟩ := List.mem_iff_getElem.mp hx
      rw [h, ← hget i hi]; exact a2 i ((hmem i).mpr hi)

theorem mapM_okay {α : Type} (l : List α) : l.mapM (fun x => (.ok x : Res α)) = .ok l := by
  have h := mapM_eq_map (fun x => (.ok x : Res α)) id l (fun _ _ => rfl)
  rwa [List.map_id] at h

/-- **C79 (base file, one access after the other).** If the iterations of the loop do not overlap, in whatever order they come, the
base file holds the vectors of C68: all divided by the largest norm, with the coordinate that makes their norm 1. -/
theorem C79_base_serial_partial (X : List (List ℝ)) (_hX : ∃ x ∈ X, ∃ a ∈ x, a ≠ 0) (order : List Nat)
    (hp : order.Perm (List.range X.length)) :
    augmentBase realOps .ok (oneByOne order) X = .ok (X.map (mipsVec (maxNorm X))) := by
  have hp' : order.Perm (List.range (X.map (mipsNorm realOps)).length) := by rw [List.length_map]; exact hp
  obtain ⟨h1, h2⟩ := serial_max realOps (X.map (mipsNorm realOps)) order hp'
  rw [augmentBase_ended _ _ _ _ h2, h1, mapM_eq_map _ (mipsVec (maxNorm X))]
  intro x _
  rw [mapM_okay]
  have : realOps.sqrt (order.foldl (keepMax realOps (X.map (mipsNorm realOps))) realOps.zero) = maxNorm X := by
    show Real.sqrt (order.foldl (keepMax realOps (X.map (mipsNorm realOps))) 0) = _
    rw [serial_max_real X order hp]; rfl
  rw [this, mipsRow_real]

/-- What is written for a query. -/
noncomputable def queryVec (q : List ℝ) : List ℝ := q.map (fun a => a / Real.sqrt (Spec.realDot q q)) ++ [0]

/-- **C79 (query file).** The queries divided by their norms, with 0 as the additional coordinate, if no query is zero (the code
divides by the norm of a zero query). -/
theorem C79_query_file (Q : List (List ℝ)) (_hQ : ∀ q ∈ Q, 0 < Spec.realDot q q) : augmentQuery realOps .ok Q = .ok (Q.map queryVec) := by
  unfold augmentQuery
  rw [mapM_eq_map _ queryVec]
  intro q _
  rw [mapM_okay, real_norm]
  rfl

theorem dot_div_left (M : ℝ) (q x : List ℝ) : Spec.realDot (q.map (fun a => a / M)) x = Spec.realDot q x / M := by
  unfold Spec.realDot
  induction q generalizing x with
  | nil => simp
  | cons a q ih =>
    cases x with
    | nil => simp
    | cons b x => simp only [List.map_cons, List.zipWith_cons_cons, List.sum_cons, ih]; ring

/-- **C79 (order).** If the iterations do not overlap, the prepared vectors are ordered by distance from a prepared query exactly as the
original vectors are ordered by inner product with the original query, for every query other than zero. -/
theorem C79_order_partial (X : List (List ℝ)) (dim : Nat) (hdim : ∀ x ∈ X, x.length = dim)
    (hX : ∃ x ∈ X, ∃ a ∈ x, a ≠ 0) (q : List ℝ) (hq : q.length = dim) (hq0 : 0 < Spec.realDot q q)
    (order : List Nat) (hp : order.Perm (List.range X.length)) :
    ∃ B, augmentBase realOps .ok (oneByOne order) X = .ok B ∧ augmentQuery realOps .ok [q] = .ok [queryVec q] ∧
      ∀ i j (hi : i < X.length) (hj : j < X.length), ∃ bi bj, B[i]? = some bi ∧ B[j]? = some bj ∧
        (Spec.realSqDist (queryVec q) bi ≤ Spec.realSqDist (queryVec q) bj ↔ Spec.realDot q X[j] ≤ Spec.realDot q X[i]) := by
  refine ⟨_, C79_base_serial_partial X hX order hp, C79_query_file [q] (by simpa using hq0), fun i j hi hj => ⟨mipsVec (maxNorm X) X[i], mipsVec (maxNorm X) X[j],
    by rw [List.getElem?_map, List.getElem?_eq_getElem hi]; rfl, by rw [List.getElem?_map, List.getElem?_eq_getElem hj]; rfl, ?_⟩⟩
  have hs : 0 < Real.sqrt (Spec.realDot q q) := Real.sqrt_pos.mpr hq0
  have h := C68_order X dim hdim hX (q.map (fun a => a / Real.sqrt (Spec.realDot q q))) (by simpa using hq) X[i] X[j]
    (List.getElem_mem hi) (List.getElem_mem hj)
  unfold queryVec
  rw [h, dot_div_left, dot_div_left]
  exact div_le_div_iff_of_pos_right hs

/-- **C79 is false: the base file.** For every data set and every vector `X[j]` of positive norm there is a schedule under which all
vectors are divided by the norm of `X[j]`; each longer vector then ends up outside the unit sphere, with 0 as its additional
coordinate. -/
theorem C79_base_not_unit (X : List (List ℝ)) (j : Nat) (hj : j < X.length) (hpos : 0 < Spec.realDot X[j] X[j]) :
    ∃ sched, augmentBase realOps .ok sched X = .ok (X.map (mipsVec (Real.sqrt (Spec.realDot X[j] X[j])))) ∧
      ∀ x ∈ X, Spec.realDot X[j] X[j] < Spec.realDot x x →
        mipsVec (Real.sqrt (Spec.realDot X[j] X[j])) x = x.map (fun a => a / Real.sqrt (Spec.realDot X[j] X[j])) ++ [0] ∧
        1 < Spec.realDot (mipsVec (Real.sqrt (Spec.realDot X[j] X[j])) x) (mipsVec (Real.sqrt (Spec.realDot X[j] X[j])) x) := by
  obtain ⟨sched, h1, h2⟩ := C79_lost_maximum realOps (X.map (mipsNorm realOps)) j (Spec.realDot X[j] X[j])
    (by rw [List.getElem?_map, List.getElem?_eq_getElem hj]; exact congrArg some (real_norm _)) (by
      show decide ((0 : ℝ) < _) = true
      exact decide_eq_true hpos)
  refine ⟨sched, ?_, ?_⟩
  · rw [augmentBase_ended _ _ _ _ h1, h2, mapM_eq_map _ (mipsVec (Real.sqrt (Spec.realDot X[j] X[j])))]
    intro x _
    rw [mapM_okay]
    exact congrArg _ (mipsRow_real _ x)
  · intro x _ hlt
    have hz : Real.sqrt (1 - Spec.realDot x x / (Real.sqrt (Spec.realDot X[j] X[j]) * Real.sqrt (Spec.realDot X[j] X[j]))) = 0 := by
      rw [Real.mul_self_sqrt hpos.le]
      apply Real.sqrt_eq_zero_of_nonpos
      have : 1 < Spec.realDot x x / Spec.realDot X[j] X[j] := (one_lt_div hpos).mpr hlt
      linarith
    unfold mipsVec
    rw [hz]
    refine ⟨rfl, ?_⟩
    rw [dot_append rfl, dot_map_div_self, Real.mul_self_sqrt hpos.le]
    have : 1 < Spec.realDot x x / Spec.realDot X[j] X[j] := (one_lt_div hpos).mpr hlt
    linarith

/-- **C79 is false: the order.** With such a schedule the vectors 2 and 1 are prepared such that 1 is nearer to the query 1, although 2
has the larger inner product with it. -/
theorem C79_wrong_order : ∃ sched, ∃ a b : List ℝ, augmentBase realOps .ok sched [[2], [1]] = .ok [a, b] ∧
    augmentQuery realOps .ok [[1]] = .ok [[1, 0]] ∧
    Spec.realSqDist [1, 0] b < Spec.realSqDist [1, 0] a ∧ Spec.realDot [1] [1] < Spec.realDot [1] [2] := by
  obtain ⟨sched, h1, -⟩ := C79_base_not_unit [[2], [1]] 1 (by decide) (by norm_num [Spec.realDot])
  have e1 : Spec.realDot ([1] : List ℝ) [1] = 1 := by norm_num [Spec.realDot]
  have h1 : augmentBase realOps .ok sched [[2], [1]] = .ok ([[2], [1]].map (mipsVec (Real.sqrt (Spec.realDot [1] [1])))) := h1
  rw [e1, Real.sqrt_one] at h1
  have ha : mipsVec 1 [2] = [2, 0] := by
    have : Real.sqrt (1 - Spec.realDot ([2] : List ℝ) [2] / (1 * 1)) = 0 :=
      Real.sqrt_eq_zero_of_nonpos (by norm_num [Spec.realDot])
    unfold mipsVec
    rw [this]; norm_num
  have hb : mipsVec 1 [1] = [1, 0] := by
    have : Real.sqrt (1 - Spec.realDot ([1] : List ℝ) [1] / (1 * 1)) = 0 :=
      Real.sqrt_eq_zero_of_nonpos (by norm_num [Spec.realDot])
    unfold mipsVec
    rw [this]; norm_num
  refine ⟨sched, [2, 0], [1, 0], by rw [h1, List.map_cons, List.map_cons, List.map_nil, ha, hb], ?_, ?_, ?_⟩
  · rw [C79_query_file [[1]] (by norm_num [Spec.realDot])]
    unfold queryVec
    simp [e1]
  · norm_num [Spec.realSqDist]
  · norm_num [Spec.realDot]

/-- **C79 (normalised file).** Every vector other than zero has norm 1 afterwards, and the same direction. -/
theorem C79_normalize (X : List (List ℝ)) (hX : ∀ x ∈ X, 0 < Spec.realDot x x) :
    ∃ Y, normalizeBase realOps .ok X = .ok Y ∧ Y.length = X.length ∧ ∀ y ∈ Y, Spec.realDot y y = 1 := by
  refine ⟨X.map (fun x => x.map (fun a => a / Real.sqrt (Spec.realDot x x))), ?_, by simp, ?_⟩
  · unfold normalizeBase
    rw [mapM_eq_map _ (fun x => x.map (fun a => a / Real.sqrt (Spec.realDot x x)))]
    intro x _
    rw [mapM_okay, real_norm]
    rfl
  · intro y hy
    obtain ⟨x, hx, rfl⟩ := List.mem_map.mp hy
    have := hX x hx
    rw [dot_map_div_self, Real.mul_self_sqrt this.le, div_self this.ne']

/-! ## Integer files -/

/-- Conversion of a `float` to an integer type cuts off the fraction: numbers between -1 and 1 become 0. -/
def CutsOff (conv : ℝ → Res Int) : Prop := ∀ a : ℝ, |a| < 1 → conv a = .ok 0

theorem sq_le_dot (x : List ℝ) (a : ℝ) (ha : a ∈ x) : a * a ≤ Spec.realDot x x := by
  induction x with
  | nil => cases ha
  | cons b x ih =>
    have e : Spec.realDot (b :: x) (b :: x) = b * b + Spec.realDot x x := by simp [Spec.realDot]
    rw [e]
    rcases List.mem_cons.mp ha with rfl | ha
    · have := dot_self_nonneg x; linarith
    · have := ih ha; nlinarith [mul_self_nonneg b]

theorem abs_div_lt {a M : ℝ} (hM : 0 < M) (h : a * a < M * M) : |a / M| < 1 := by
  rw [abs_div, abs_of_pos hM, div_lt_one hM]
  exact abs_lt_of_sq_lt_sq (by rw [pow_two, pow_two]; exact h) hM.le

/-- **C79 is false for integer files (base).** For every data set of an integer type and non-overlapping iterations: every vector that
is not zero and not of the largest norm is written as the zero vector. -/
theorem C79_integer_base (conv : ℝ → Res Int) (hc : CutsOff conv) (hc' : ∀ a, |a| ≤ 1 → ∃ k, conv a = .ok k) (X : List (List ℝ)) (order : List Nat)
    (hp : order.Perm (List.range X.length)) (hX : ∃ x ∈ X, ∃ a ∈ x, a ≠ 0) :
    ∃ B, augmentBase realOps conv (oneByOne order) X = .ok B ∧ B.length = X.length ∧
      ∀ i (hi : i < X.length), 0 < Spec.realDot X[i] X[i] → Spec.realDot X[i] X[i] < maxNorm X * maxNorm X →
        B[i]? = some (List.replicate (X[i].length + 1) 0) := by
  obtain ⟨z, hz, hz0⟩ := hX
  have hM := maxNorm_pos X z hz hz0
  have hMM : 0 < maxNorm X * maxNorm X := mul_pos hM hM
  have hp' : order.Perm (List.range (X.map (mipsNorm realOps)).length) := by rw [List.length_map]; exact hp
  obtain ⟨h1, h2⟩ := serial_max realOps (X.map (mipsNorm realOps)) order hp'
  have hm : realOps.sqrt (order.foldl (keepMax realOps (X.map (mipsNorm realOps))) realOps.zero) = maxNorm X := by
    show Real.sqrt (order.foldl (keepMax realOps (X.map (mipsNorm realOps))) 0) = _
    rw [serial_max_real X order hp]; rfl
  rw [augmentBase_ended _ _ _ _ h2, h1]
  obtain ⟨B, hB, hlen, hmem⟩ := mapM_ok (fun x => (mipsRow realOps (realOps.sqrt (order.foldl (keepMax realOps (X.map (mipsNorm realOps)))
      realOps.zero)) (mipsNorm realOps x) x).mapM conv) X (by
    intro x hx
    rw [hm, mipsRow_real]
    obtain ⟨ys, e, -⟩ := mapM_ok conv (mipsVec (maxNorm X) x) (by
      intro a ha
      apply hc'
      have h1 := sq_le_dot _ a ha
      rw [C68_unit X ⟨z, hz, hz0⟩ x hx] at h1
      exact abs_le_one_iff_mul_self_le_one.mpr h1)
    exact ⟨ys, e⟩)
  refine ⟨B, hB, hlen, ?_⟩
  intro i hi hpos hlt
  obtain ⟨y, hy, e⟩ := hmem i _ (List.getElem?_eq_getElem hi)
  rw [hy]
  rw [hm, mipsRow_real] at e
  have hall : ∀ a ∈ mipsVec (maxNorm X) X[i], conv a = .ok ((fun _ => (0 : Int)) a) := by
    intro a ha
    apply hc
    unfold mipsVec at ha
    rcases List.mem_append.mp ha with ha | ha
    · obtain ⟨b, hb, rfl⟩ := List.mem_map.mp ha
      exact abs_div_lt hM (lt_of_le_of_lt (sq_le_dot _ b hb) hlt)
    · rw [List.mem_singleton] at ha
      rw [ha, abs_of_nonneg (Real.sqrt_nonneg _), Real.sqrt_lt' one_pos]
      have := div_pos hpos hMM
      linarith
  rw [mapM_eq_map _ _ _ hall] at e
  injection e with e
  rw [← e, List.map_const']
  unfold mipsVec
  simp

/-- **C79 is false for integer files (normalising).** Every vector with at least two coordinates other than zero becomes the zero
vector. -/
theorem C79_integer_normalize (conv : ℝ → Res Int) (hc : CutsOff conv) (X : List (List ℝ))
    (hX : ∀ x ∈ X, ∀ a ∈ x, a * a < Spec.realDot x x) :
    normalizeBase realOps conv X = .ok (X.map (fun x => List.replicate x.length 0)) := by
  unfold normalizeBase
  rw [mapM_eq_map _ (fun x => List.replicate x.length 0)]
  intro x hx
  rw [mapM_eq_map _ (fun _ => (0 : Int))]
  · rw [List.map_const', List.length_map]
  · intro b hb
    obtain ⟨a, ha, rfl⟩ := List.mem_map.mp hb
    apply hc
    have h1 := hX x hx a ha
    have h0 : 0 < Spec.realDot x x := lt_of_le_of_lt (mul_self_nonneg a) h1
    rw [real_norm]
    refine abs_div_lt (Real.sqrt_pos.mpr h0) ?_
    show a * a < Real.sqrt _ * Real.sqrt _
    rw [Real.mul_self_sqrt h0.le]; exact h1

/-! ## Every schedule -/

/-- What is in `max_norm` and about to be written to it is 0 or one of the norms. -/
structure MaxSt.Among {K : Type} (O : MOps K) (norms : List K) (s : MaxSt K) : Prop where
  m : s.m = O.zero ∨ s.m ∈ norms
  pc : ∀ v, MaxPc.store v ∈ s.pc → v = O.zero ∨ v ∈ norms

theorem MaxSt.Among.step {K : Type} {O : MOps K} {norms : List K} {s : MaxSt K} (h : s.Among O norms) (i : Nat) :
    (maxStep O norms s i).Among O norms := by
  have hset : ∀ (p : MaxPc K), (∀ v, p = .store v → v = O.zero ∨ v ∈ norms) → ∀ v, MaxPc.store v ∈ s.pc.set i p →
      v = O.zero ∨ v ∈ norms := by
    intro p hp v hv
    rcases List.mem_or_eq_of_mem_set hv with hv | hv
    · exact h.pc v hv
    · exact hp v hv.symm
  unfold maxStep
  split
  · rename_i n hn hpc
    refine ⟨h.m, hset _ ?_⟩
    intro v hv
    split at hv
    · injection hv with hv; subst hv; exact .inr (List.mem_of_getElem? hn)
    · cases hv
  · refine ⟨h.m, hset _ ?_⟩
    intro v hv
    injection hv with hv; subst hv; exact h.m
  · rename_i v hn hpc
    exact ⟨h.pc v (List.mem_of_getElem? hpc), hset _ (fun v hv => by cases hv)⟩
  · exact h

/-- **C79 (every schedule).** Whatever the schedule, the largest norm found is 0 or the norm of some vector; so it is never larger than
the true one. -/
theorem C79_max_bound {K : Type} (O : MOps K) (norms : List K) (sched : List Nat) :
    (maxRun O norms sched).m = O.zero ∨ (maxRun O norms sched).m ∈ norms := by
  have : ∀ (l : List Nat) (s : MaxSt K), s.Among O norms → (l.foldl (maxStep O norms) s).Among O norms := by
    intro l
    induction l with
    | nil => intro s h; exact h
    | cons i l ih => intro s h; exact ih _ (h.step i)
  exact (this sched _ ⟨.inl rfl, fun v hv => by simp at hv⟩).m

/-! ## The printed percentiles -/

theorem twentieths_ok : ∀ p ∈ twentieths, 0 < p.2 ∧ p.1 * 100 ≤ p.2 * 99 := by decide +kernel

theorem twentieths_bound {p : Nat × Nat} (h : p ∈ twentieths) : 0 < p.2 ∧ fval p ≤ 1 - 1 / 2097152 := by
  obtain ⟨h1, h2⟩ := twentieths_ok p h
  refine ⟨h1, ?_⟩
  have hq : (0 : ℚ) < p.2 := by exact_mod_cast h1
  unfold fval
  rw [div_le_iff₀ hq]
  have : (p.1 : ℚ) * 100 ≤ p.2 * 99 := by exact_mod_cast h2
  nlinarith

/-- **C79 (analysis).** For every data set with at least one vector the tool prints 21 values; the values for 0, 5, ..., 95 percent
have the rank they stand for among the norms, and the last one is the largest norm. -/
theorem C79_analyze {K : Type} [LinearOrder K] (O : MOps K) {sort : List K → List K} (hsort : SortsBy id sort)
    (X : List (List K)) (hX : 1 ≤ X.length) :
    ∃ vs, analyzeNorm O sort X = .ok vs ∧ vs.length = 21 ∧
      (∀ (i : Nat) (p : Nat × Nat), twentieths[i]? = some p → ∃ v, vs[i]? = some v ∧
        Spec.IsRank (X.map (fun x => O.sqrt (mipsNorm O x))) (pctIndex 53 p X.length) v) ∧
      ∃ v, vs[20]? = some v ∧ v ∈ X.map (fun x => O.sqrt (mipsNorm O x)) ∧ ∀ w ∈ X.map (fun x => O.sqrt (mipsNorm O x)), w ≤ v := by
  obtain ⟨N, hN⟩ : ∃ N, N = X.map (fun x => O.sqrt (mipsNorm O x)) := ⟨_, rfl⟩
  have hNl : N.length = X.length := by rw [hN, List.length_map]
  have hp := hsort.perm N
  have hs := hsort.sorted N
  have hl : (sort N).length = X.length := by rw [hp.length_eq, hNl]
  have hr : ∀ k (h : k < (sort N).length), Spec.IsRank N k (sort N)[k] := by
    intro k h
    obtain ⟨r1, r2⟩ := sorted_rank (id : K → K) hs h
    refine ⟨hp.mem_iff.mp (List.getElem_mem h), ?_, ?_⟩
    · rw [← hp.countP_eq]; exact r1
    · rw [← hp.countP_eq, ← hp.length_eq]; exact r2
  obtain ⟨ps, h1, h2, h3⟩ := mapM_ok (fun p => rd (sort N) (pctIndex 53 p X.length)) twentieths (by
    intro p hp
    have := C69_in_bounds (prec := 53) (by omega) (twentieths_bound hp).1 (twentieths_bound hp).2 hX
    exact ⟨_, rd_ok (by rw [hl]; exact this)⟩)
  have h20 : ps.length = 20 := by rw [h2]; rfl
  have hlast : X.length - 1 < (sort N).length := by omega
  refine ⟨ps ++ [(sort N)[X.length - 1]], ?_, by simp [h20], ?_, ?_⟩
  · unfold analyzeNorm
    dsimp only
    rw [← hN, h1, Res.ok_bind, if_neg (by omega), rd_ok hlast]
    rfl
  · intro i p hi
    obtain ⟨v, hv, e⟩ := h3 i p hi
    refine ⟨v, by rw [List.getElem?_append_left (List.getElem?_eq_some_iff.mp hv).1]; exact hv, ?_⟩
    obtain ⟨hlt, e⟩ := List.getElem?_eq_some_iff.mp (rd_eq_ok_iff.mp e)
    rw [← hN, ← e]
    exact hr _ _
  · rw [← hN]
    refine ⟨(sort N)[X.length - 1], by rw [List.getElem?_append_right (by omega), h20]; rfl, hp.mem_iff.mp (List.getElem_mem _), ?_⟩
    intro w hw
    obtain ⟨k, hk, rfl⟩ := List.mem_iff_getElem.mp (hp.mem_iff.mpr hw)
    rcases Nat.lt_or_ge k (X.length - 1) with h | h
    · exact List.pairwise_iff_getElem.mp hs k _ hk hlast h
    · have : k = X.length - 1 := by omega
      subst this; exact le_refl _

/-- **C79 (analysis of an empty file)** reads outside the array. -/
theorem C79_analyze_empty {K : Type} (O : MOps K) {sort : List K → List K} (hsort : ∀ l, (sort l).Perm l) :
    analyzeNorm O sort [] = .error .ub := by
  have h0 : ∀ k, rd (sort []) k = .error .ub := fun k => rd_ub (by rw [(hsort []).length_eq]; exact Nat.zero_le _)
  unfold analyzeNorm
  dsimp only
  rw [List.map_nil]
  obtain ⟨a, l, e⟩ : ∃ a l, twentieths = a :: l := ⟨_, _, rfl⟩
  rw [e, List.mapM_cons, h0]
  rfl

/-! ## Examples -/

/-- Two vectors, processed in the order 1, 0. -/
example : augmentBase realOps .ok (oneByOne [1, 0]) [[3, 4], [1, 0]] = .ok ([[3, 4], [1, 0]].map (mipsVec (maxNorm [[3, 4], [1, 0]]))) :=
  C79_base_serial_partial _ ⟨[3, 4], by simp, 3, by simp, by norm_num⟩ [1, 0] (List.Perm.swap 0 1 [])

/-- The order by inner product with (1, 2). -/
example : ∃ B, augmentBase realOps .ok (oneByOne [1, 0]) [[3, 4], [1, 0]] = .ok B ∧ augmentQuery realOps .ok [[1, 2]] = .ok [queryVec [1, 2]] ∧
    ∀ i j (hi : i < [[3, 4], [1, (0 : ℝ)]].length) (hj : j < [[3, 4], [1, (0 : ℝ)]].length), ∃ bi bj, B[i]? = some bi ∧ B[j]? = some bj ∧
      (Spec.realSqDist (queryVec [1, 2]) bi ≤ Spec.realSqDist (queryVec [1, 2]) bj ↔
        Spec.realDot [1, 2] ([[3, 4], [1, 0]][j]) ≤ Spec.realDot [1, 2] ([[3, 4], [1, 0]][i])) :=
  C79_order_partial [[3, 4], [1, 0]] 2 (by simp) ⟨[3, 4], by simp, 3, by simp, by norm_num⟩ [1, 2] rfl (by norm_num [Spec.realDot])
    [1, 0] (List.Perm.swap 0 1 [])

/-- Natural numbers, for runs of the model. -/
def natOps : MOps Nat where
  zero := 0
  one := 1
  add := (· + ·)
  mul := (· * ·)
  sub := (· - ·)
  div := (· / ·)
  sqrt := Nat.sqrt
  lt := fun a b => decide (a < b)
  le := fun a b => decide (a ≤ b)

/-- Three iterations, one after the other, and with the largest value lost. -/
example : (maxRun natOps [4, 25, 9] (oneByOne [2, 0, 1])).m = 25 ∧ (maxRun natOps [4, 25, 9] [0, 1, 1, 2, 2, 2, 0]).m = 4 ∧
    (maxRun natOps [4, 25, 9] [0, 1, 1, 2, 2, 2, 0]).pc = [.done, .done, .done] := by decide +kernel

/-- A base file with a vector outside the unit sphere. -/
example : ∃ sched, augmentBase realOps .ok sched [[3, 4], [1, 0]] = .ok ([[3, 4], [1, 0]].map (mipsVec (Real.sqrt (Spec.realDot [1, 0] [1, 0])))) := by
  obtain ⟨s, h, -⟩ := C79_base_not_unit [[3, 4], [1, 0]] 1 (by decide) (by norm_num [Spec.realDot])
  exact ⟨s, h⟩

/-- Conversion to an integer as the language has it for the range of `int8_t`: the fraction is cut off. -/
noncomputable def cutInt8 (a : ℝ) : Res Int :=
  if |a| < 128 then .ok (if 0 ≤ a then ⌊a⌋ else ⌈a⌉) else .error .ub

theorem cutInt8_cutsOff : CutsOff cutInt8 := by
  intro a ha
  have hb := abs_lt.mp ha
  unfold cutInt8
  rw [if_pos (by linarith)]
  congr 1
  split
  · rename_i h; exact Int.floor_eq_zero_iff.mpr ⟨h, hb.2⟩
  · rename_i h; rw [Int.ceil_eq_zero_iff]; exact ⟨hb.1, le_of_lt (not_le.mp h)⟩

/-- The vector (1, 0) next to (3, 4) in a file of `int8_t` is prepared as (0, 0, 0). -/
example : ∃ B, augmentBase realOps cutInt8 (oneByOne [1, 0]) [[3, 4], [1, 0]] = .ok B ∧ B[1]? = some [0, 0, 0] := by
  have hX : ∃ x ∈ [[3, 4], [1, (0 : ℝ)]], ∃ a ∈ x, a ≠ 0 := ⟨[3, 4], by simp, 3, by simp, by norm_num⟩
  obtain ⟨B, h1, -, h3⟩ := C79_integer_base cutInt8 cutInt8_cutsOff (fun a ha => by
    unfold cutInt8; rw [if_pos (by linarith)]; exact ⟨_, rfl⟩) [[3, 4], [1, 0]] [1, 0] (List.Perm.swap 0 1 []) hX
  refine ⟨B, h1, h3 1 (by decide) (by norm_num [Spec.realDot]) ?_⟩
  have h := maxNorm_spec [[3, 4], [1, 0]] [3, 4] (by simp)
  refine lt_of_lt_of_le ?_ h
  norm_num [Spec.realDot]

/-- Normalising (3, 4) in a file of `int8_t` gives (0, 0). -/
example : normalizeBase realOps cutInt8 [[3, 4]] = .ok [[0, 0]] :=
  C79_integer_normalize cutInt8 cutInt8_cutsOff [[3, 4]] (by norm_num [Spec.realDot])

/-- Normalising (3, 4) and (0, 2). -/
example : ∃ Y, normalizeBase realOps .ok [[3, 4], [0, 2]] = .ok Y ∧ Y.length = 2 ∧ ∀ y ∈ Y, Spec.realDot y y = 1 :=
  C79_normalize [[3, 4], [0, 2]] (by norm_num [Spec.realDot])

/-- The norms 5, 1, 2 give these percentiles. -/
example : ∃ vs, analyzeNorm natOps (fun l => l.mergeSort (fun x y => decide (x ≤ y))) [[3, 4], [1, 0], [0, 2]] = .ok vs ∧ vs.length = 21 := by
  obtain ⟨vs, h1, h2, -⟩ := C79_analyze natOps (mergeSort_sortsBy id) [[3, 4], [1, 0], [0, 2]] (by decide)
  exact ⟨vs, h1, h2⟩

/-! ## The theorems applied to the examples -/

/-- The norm 4 instead of 25. -/
example := C79_lost_maximum natOps [4, 25, 9] 0 4 rfl rfl

example := C79_query_file [[3, 4], [0, 2]] (by norm_num [Spec.realDot])

example := C79_max_bound natOps [4, 25, 9] [0, 1, 1, 2, 2, 2, 0]

end Grann
