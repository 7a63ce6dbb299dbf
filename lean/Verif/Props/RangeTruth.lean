import Verif.Props.Truthset
/-!
# Ground truth for range search (C65, C66)
-/

namespace Grann

namespace Spec

/-- The neighbours within `range`, per query, of `n` queries with `d` listed neighbours each. -/
def within (range : F32) (n d : Nat) (ids : List Nat) (dists : List F32) : List (List Nat) :=
  (List.range n).map fun i =>
    ((List.range d).filter fun j => (dists.getD (i * d + j) F32.nan).le range).map fun j => ids.getD (i * d + j) 0

end Spec

theorem pruneRow_ok (range : F32) (ids : List Nat) (dists : List F32) (base : Nat) : ∀ (todo j : Nat),
    base + j + todo ≤ ids.length → base + j + todo ≤ dists.length →
    pruneRow range ids dists base todo j = .ok (((List.range' j todo).filter fun j =>
      (dists.getD (base + j) F32.nan).le range).map fun j => ids.getD (base + j) 0) := by
  intro todo
  induction todo with
  | zero => intros; rfl
  | succ todo ih =>
    intro j h1 h2
    unfold pruneRow
    rw [rd_ok (by omega : base + j < dists.length), rd_ok (by omega : base + j < ids.length), Res.ok_bind,
      Res.ok_bind, ih (j + 1) (by omega) (by omega), Res.ok_bind, List.range'_succ, List.filter_cons]
    have e1 : dists.getD (base + j) F32.nan = dists[base + j] := by
      rw [List.getD_eq_getElem?_getD, List.getElem?_eq_getElem (by omega)]; rfl
    have e2 : ids.getD (base + j) 0 = ids[base + j] := by
      rw [List.getD_eq_getElem?_getD, List.getElem?_eq_getElem (by omega)]; rfl
    rw [e1]
    split
    · rw [List.map_cons, e2]
    · rfl

/-- **C65.** `prune_truthset_for_range` gives for every query exactly the identifiers with a distance of at
most `range`, in the order of the file, and throws for every file without distances or of another length. -/
theorem C65_prune (f : Bytes) (hf : f.length < 9223372036854775808) (range : F32) (j : TruthJunk)
    (h1 : j.npts.length = 4) (h2 : j.dim.length = 4) :
    pruneTruth (some f) range j =
      let n := unle (f.take 4)
      let d := unle ((f.drop 4).take 4)
      if f.length = 8 + 8 * (n * d) then
        .ok (Spec.within range n d (Spec.words (n * d) (f.drop 8))
          ((Spec.words (n * d) (f.drop (8 + 4 * (n * d)))).map F32.ofWord))
      else .error .throw := by
  have hsz : (CReader.open (some f) truthBlk j.cache).fsize = f.length :=
    (CReader.open_at f hf truthBlk j.cache).fsize
  unfold pruneTruth
  dsimp only
  rw [hsz]
  rcases truth_header f hf j.cache j.npts j.dim h1 h2 (fun npts dim r =>
    if f.length = u64 (2 * npts * dim * 4 + 8) then do
      let (ids, r) ← r.readArr (npts * dim) j.ids
      let (dists, _) ← r.readArr (npts * dim) j.dists
      (List.range npts).mapM (fun i => pruneRow range ids (dists.map F32.ofWord) (i * dim) dim 0)
    else .error .throw) with ⟨h8, r, hr, e⟩ | ⟨h8, e⟩
  · rw [e]
    have hn := unle_take_lt f (by omega)
    have hd := unle_take_lt (f.drop 4) (by rw [List.length_drop]; omega)
    dsimp only
    clear e
    generalize unle (f.take 4) = n at *
    generalize unle ((f.drop 4).take 4) = d at *
    have hm := mul_lt_2_64 hn hd
    have em : 2 * n * d * 4 = 8 * (n * d) := by ring
    rw [em]
    obtain ⟨m, hmd⟩ : ∃ m, n * d = m := ⟨_, rfl⟩
    rw [hmd] at hm ⊢
    have hdl : (f.drop 8).length = f.length - 8 := List.length_drop
    have hrd := hr.readArr m j.ids (by omega)
    unfold u64
    by_cases c2 : f.length = (8 * m + 8) % 18446744073709551616
    · rw [if_pos c2]
      by_cases hw : 8 * m + 8 < 18446744073709551616
      · rw [if_pos (by omega)] at hrd
        obtain ⟨r', e', hr'⟩ := hrd
        rw [List.drop_drop] at hr'
        have hdl2 : (f.drop (8 + 4 * m)).length = f.length - (8 + 4 * m) := List.length_drop
        have hrd2 := hr'.readArr m j.dists (by omega)
        rw [if_pos (by omega)] at hrd2
        obtain ⟨r'', e'', _⟩ := hrd2
        rw [e', Res.ok_bind]
        dsimp only
        rw [e'', Res.ok_bind, if_pos (by omega)]
        dsimp only
        unfold Spec.within
        apply mapM_eq_map
        intro i hi
        rw [List.mem_range] at hi
        have hid : i * d + d ≤ m := by
          rw [← hmd, ← Nat.succ_mul]; exact Nat.mul_le_mul_right _ hi
        rw [pruneRow_ok _ _ _ _ _ _ (by simp [Spec.words]; omega) (by simp [Spec.words]; omega), ← List.range_eq_range']
      · rw [if_neg (by omega)] at hrd
        have s2 : ¬ f.length = 8 + 8 * m := by omega
        rw [hrd, if_neg s2]; rfl
    · have s2 : ¬ f.length = 8 + 8 * m := by omega
      rw [if_neg c2, if_neg s2]
  · rw [e, if_neg (by omega)]

/-- One query with distances 1 and 2 and the range 1. -/
example : pruneTruth (some ([1, 0, 0, 0, 2, 0, 0, 0] ++ le32s [4, 9] ++ le32s [0x3f800000, 0x40000000])) F32.one exTruthJunk =
    .ok [[4]] := by
  rw [C65_prune _ (by decide) _ _ rfl rfl]
  decide

/-! ## C66 -/

theorem fval_pair (a b : Nat) : fval (a, b) = (a : ℚ) / b := rfl

/-- The percentile positions are inside the array. -/
theorem percentileIdx_lt (p n : Nat) (hp : p ≤ 95) (hn : 0 < n) : percentileIdx p n < n := by
  unfold percentileIdx
  dsimp only
  -- the quotient
  have hq := roundBin_err 53 (by omega) (p, 100) (by show 0 < 100; omega)
  have hc := roundBin_err 53 (by omega) (n, 1) (by show 0 < 1; omega)
  have hqd := roundBin_den_pos 53 (p, 100)
  have hcd := roundBin_den_pos 53 (n, 1)
  have e1 : ddiv (p, 1) (100, 1) = roundBin 53 (p, 100) := by unfold ddiv; simp
  rw [e1]
  generalize roundBin 53 (p, 100) = q at *
  generalize roundBin 53 (n, 1) = c at *
  have hx := roundBin_err 53 (by omega) (q.1 * c.1, q.2 * c.2) (Nat.mul_pos hqd hcd)
  have hxd := roundBin_den_pos 53 (q.1 * c.1, q.2 * c.2)
  unfold dmul
  generalize roundBin 53 (q.1 * c.1, q.2 * c.2) = x at *
  have ev : fval (q.1 * c.1, q.2 * c.2) = fval q * fval c := by
    unfold fval; push_cast; rw [mul_div_mul_comm]
  rw [ev] at hx
  have hpq : fval (p, 100) ≤ 95 / 100 := by
    rw [fval_pair]; push_cast
    have : (p : ℚ) ≤ 95 := by exact_mod_cast hp
    linarith
  have hp0 := fval_nonneg (p, 100)
  have hcn : fval (n, 1) = n := by rw [fval_pair]; simp
  rw [hcn] at hc
  have hnq : (0 : ℚ) < n := by exact_mod_cast hn
  have heps : ((1 : ℚ) / 2) ^ 53 ≤ 1 / 1000 := by norm_num
  have heps0 : (0 : ℚ) ≤ (1 / 2) ^ 53 := by positivity
  generalize ((1 : ℚ) / 2) ^ 53 = eps at *
  have hq' : fval q ≤ 96 / 100 := by
    have := (abs_le.mp hq).2
    have : fval (p, 100) * eps ≤ 95 / 100 * (1 / 1000) := by gcongr
    linarith
  have hc' : fval c ≤ n * (1001 / 1000) := by
    have := (abs_le.mp hc).2
    have : (n : ℚ) * eps ≤ n * (1 / 1000) := by gcongr
    linarith
  have hq0 := fval_nonneg q
  have hc0 := fval_nonneg c
  have hqc : fval q * fval c ≤ 96 / 100 * (n * (1001 / 1000)) := by gcongr
  have hqc0 : 0 ≤ fval q * fval c := mul_nonneg hq0 hc0
  have hx' : fval x < n := by
    have := (abs_le.mp hx).2
    have : fval q * fval c * eps ≤ 96 / 100 * (n * (1001 / 1000)) * (1 / 1000) := by gcongr
    linarith
  have hxq : (0 : ℚ) < x.2 := by exact_mod_cast hxd
  rw [Nat.div_lt_iff_lt_mul hxd]
  unfold fval at hx'
  rw [div_lt_iff₀ hxq] at hx'
  exact_mod_cast hx'

theorem mapM_rd_idx_ok {l : List Nat} (idx : Nat → Nat) : ∀ (is : List Nat), (∀ i ∈ is, idx i < l.length) →
    ∃ y, is.mapM (fun i => rd l (idx i)) = .ok y := by
  intro is h
  exact ⟨_, mapM_eq_map _ (fun i => l.getD (idx i) 0) is (fun i hi => by
    rw [rd_ok (h i hi), List.getD_eq_getElem?_getD, List.getElem?_eq_getElem (h i hi)]; rfl)⟩

/-- Reading lists of given lengths from the bytes left: the lists, or an exception. -/
def Spec.lists : List Nat → Bytes → Res (List (List Nat))
  | [], _ => .ok []
  | c :: cs, b =>
    if 4 * c ≤ b.length then do
      let rest ← Spec.lists cs (b.drop (4 * c))
      .ok (Spec.words c b :: rest)
    else .error .throw

theorem rangeLists_spec (mem : Nat → Nat → UInt8) : ∀ (cs : List Nat) (i : Nat) (r : CReader) (f todo : Bytes),
    r.At f todo → (∀ c ∈ cs, c < 4294967296) → rangeLists mem cs i r = Spec.lists cs todo := by
  intro cs
  induction cs with
  | nil => intros; rfl
  | cons c cs ih =>
    intro i r f todo h hc
    unfold rangeLists Spec.lists
    have hcc := hc c (by simp)
    have ih' := fun i r todo h => ih i r f todo h (fun x hx => hc x (by simp [hx]))
    by_cases c0 : c = 0
    · subst c0
      rw [if_neg (by simp), Res.ok_bind]
      dsimp only
      rw [ih' (i + 1) r todo h, if_pos (by simp)]
      simp [Spec.words]
    · rw [if_pos c0]
      have hr := h.read (4 * c) (by omega) ((List.range (4 * c)).map (mem i)) (by simp)
      by_cases h4 : 4 * c ≤ todo.length
      · rw [if_pos h4] at hr ⊢
        obtain ⟨r', e, hr'⟩ := hr
        rw [e]
        simp only [Res.ok_bind]
        rw [ih' (i + 1) r' _ hr', un32s_take _ _ _ (by omega), un32s_words]
      · rw [if_neg h4] at hr ⊢
        rw [hr]; rfl

/-- **C66.** What `load_range_truthset` does with a file of any content: it throws unless the length is the
one announced by the header; then it has undefined behaviour if the number of queries is zero, and otherwise
gives the lists with the announced lengths, throwing if they are longer than the file. -/
theorem C66_load (f : Bytes) (hf : f.length < 9223372036854775808) (j : TruthJunk)
    (h1 : j.npts.length = 4) (h2 : j.dim.length = 4) (mem : Nat → Nat → UInt8) :
    loadRangeTruth (some f) j mem =
      let n := unle (f.take 4)
      let t := unle ((f.drop 4).take 4)
      if f.length = 8 + 4 * n + 4 * t ∧ n < 2147483648 ∧ t < 2147483648 then
        if n = 0 then .error .ub else Spec.lists (Spec.words n (f.drop 8)) (f.drop (8 + 4 * n))
      else .error .throw := by
  have hsz : (CReader.open (some f) truthBlk j.cache).fsize = f.length :=
    (CReader.open_at f hf truthBlk j.cache).fsize
  unfold loadRangeTruth
  dsimp only
  rw [hsz]
  rcases truth_header f hf j.cache j.npts j.dim h1 h2 (fun npts total r =>
    if f.length ≠ u64 (8 + sext32 npts * 4 + sext32 total * 4) then .error .throw
    else if 384307168202282325 < sext32 npts then .error .throw
    else do
      let (counts, r) ← r.readArr (sext32 npts) j.ids
      let _ ← (List.range 20).mapM (fun i => rd counts (percentileIdx (5 * i) (sext32 npts)))
      let _ ← rd counts (sub64 (sext32 npts) 1)
      rangeLists mem counts 0 r) with ⟨h8, r, hr, e⟩ | ⟨h8, e⟩
  · rw [e]
    clear e
    have hn := unle_take_lt f (by omega)
    have ht := unle_take_lt (f.drop 4) (by rw [List.length_drop]; omega)
    dsimp only
    generalize unle (f.take 4) = n at *
    generalize unle ((f.drop 4).take 4) = t at *
    have hdl : (f.drop 8).length = f.length - 8 := List.length_drop
    by_cases hnn : 2147483648 ≤ n
    · -- a negative number of queries
      rw [if_neg (by omega : ¬ (f.length = 8 + 4 * n + 4 * t ∧ n < 2147483648 ∧ t < 2147483648))]
      have : sext32 n = n + 18446744069414584320 := by unfold sext32; rw [if_pos hnn]
      rw [this]
      split
      · rfl
      · rw [if_pos (by omega)]
    · have hs : sext32 n = n := by unfold sext32; rw [if_neg hnn]
      rw [hs]
      have hrd := hr.readArr n j.ids (by omega)
      by_cases htt : 2147483648 ≤ t
      · -- a negative number of results
        rw [if_neg (by omega : ¬ (f.length = 8 + 4 * n + 4 * t ∧ n < 2147483648 ∧ t < 2147483648))]
        have hst : sext32 t = t + 18446744069414584320 := by unfold sext32; rw [if_pos htt]
        rw [hst]
        unfold u64
        split
        · rfl
        · rename_i hl
          rw [if_neg (by omega)]
          rw [if_neg (by omega)] at hrd
          rw [hrd]; rfl
      · have hst : sext32 t = t := by unfold sext32; rw [if_neg htt]
        rw [hst]
        by_cases hl : f.length = 8 + 4 * n + 4 * t
        · rw [if_neg (by unfold u64; omega), if_neg (by omega), if_pos ⟨hl, by omega, by omega⟩]
          rw [if_pos (by omega)] at hrd
          obtain ⟨r', e', hr'⟩ := hrd
          rw [e', Res.ok_bind]
          dsimp only
          have hwl : (Spec.words n (f.drop 8)).length = n := by simp [Spec.words]
          by_cases h0 : n = 0
          · subst h0
            rw [if_pos rfl]
            have : Spec.words 0 (f.drop 8) = [] := rfl
            rw [this]
            rfl
          · rw [if_neg h0]
            obtain ⟨y, hy⟩ := mapM_rd_idx_ok (l := Spec.words n (f.drop 8)) (fun i => percentileIdx (5 * i) n)
              (List.range 20) (fun i hi => by
                rw [List.mem_range] at hi
                rw [hwl]
                exact percentileIdx_lt _ _ (by omega) (by omega))
            rw [hy, Res.ok_bind, sub64_of_le (by omega) (by omega), rd_ok (by rw [hwl]; omega), Res.ok_bind,
              rangeLists_spec mem _ 0 r' f _ hr', List.drop_drop]
            intro c hc
            unfold Spec.words at hc
            obtain ⟨i, _, rfl⟩ := List.mem_map.mp hc
            have := unle_lt (((f.drop 8).drop (4 * i)).take 4)
            refine lt_of_lt_of_le this ?_
            calc 256 ^ (((f.drop 8).drop (4 * i)).take 4).length ≤ 256 ^ 4 := by
                  apply Nat.pow_le_pow_right (by omega); rw [List.length_take]; omega
              _ = 4294967296 := by norm_num
        · rw [if_pos (by unfold u64; omega), if_neg (by omega)]
  · rw [e, if_neg (by omega)]

theorem lists_le32s : ∀ (ls : List (List Nat)) (tail : Bytes), (∀ l ∈ ls, ∀ x ∈ l, x < 4294967296) →
    Spec.lists (ls.map List.length) (ls.flatMap le32s ++ tail) = .ok ls := by
  intro ls
  induction ls with
  | nil => intros; rfl
  | cons l ls ih =>
    intro tail h
    rw [List.map_cons, List.flatMap_cons, List.append_assoc]
    unfold Spec.lists
    rw [if_pos (by simp), List.drop_left' (by simp), ih _ (fun l hl => h l (by simp [hl])), Res.ok_bind,
      words_le32s l (h l (by simp))]

/-- **C66, round trip.** A file in the format (number of queries, total number of results, the counts, the
lists) loads as those lists. -/
theorem C66_round_trip_partial (ls : List (List Nat)) (hls : ∀ l ∈ ls, ∀ x ∈ l, x < 4294967296)
    (hc : ∀ l ∈ ls, l.length < 4294967296) (hn : 0 < ls.length) (hn2 : ls.length < 2147483648)
    (ht : (ls.flatMap id).length < 2147483648) (j : TruthJunk) (h1 : j.npts.length = 4) (h2 : j.dim.length = 4)
    (mem : Nat → Nat → UInt8) :
    loadRangeTruth (some (le 4 ls.length ++ (le 4 (ls.flatMap id).length ++
      (le32s (ls.map List.length) ++ ls.flatMap le32s)))) j mem = .ok ls := by
  have hfl : (ls.flatMap le32s).length = 4 * (ls.flatMap id).length := by
    clear hn hn2 ht hls hc
    induction ls with
    | nil => rfl
    | cons l ls ih => simp only [List.flatMap_cons, List.length_append, le32s_length, ih, id]; omega
  have hd8 : ∀ a b : Nat, ∀ x : Bytes, (le 4 a ++ (le 4 b ++ x)).drop 8 = x := by
    intro a b x
    rw [show 8 = 4 + 4 from rfl, ← List.drop_drop, List.drop_left' (le_length _ _), List.drop_left' (le_length _ _)]
  have hl : (le 4 ls.length ++ (le 4 (ls.flatMap id).length ++
      (le32s (ls.map List.length) ++ ls.flatMap le32s))).length = 8 + 4 * ls.length + 4 * (ls.flatMap id).length := by
    simp only [List.length_append, le_length, le32s_length, List.length_map, hfl]; omega
  rw [C66_load _ (by omega) j h1 h2]
  dsimp only
  rw [hl, List.drop_left' (le_length _ _), List.take_left' (le_length _ _), List.take_left' (le_length _ _),
    unle_le_of_lt (by omega), unle_le_of_lt (by omega), if_pos ⟨rfl, hn2, ht⟩, if_neg (by omega),
    ← List.drop_drop, hd8]
  have w := words_le32s (ls.map List.length) (by
    intro x hx
    obtain ⟨l, hl, rfl⟩ := List.mem_map.mp hx
    exact hc l hl) (ls.flatMap le32s)
  rw [List.length_map] at w
  rw [w, List.drop_left' (by simp)]
  have := lists_le32s ls [] hls
  rw [List.append_nil] at this
  exact this

/-- Two queries, one of them without results. -/
example : loadRangeTruth (some (le 4 2 ++ (le 4 3 ++ (le32s [3, 0] ++ le32s [7, 8, 9])))) exTruthJunk (fun _ _ => 1) =
    .ok [[7, 8, 9], []] :=
  C66_round_trip_partial [[7, 8, 9], []] (by decide) (by decide) (by decide) (by decide) (by decide) exTruthJunk rfl rfl _

/-- **C66, no queries.** A file that announces no queries makes the code read before the array of counts. -/
theorem C66_no_queries (j : TruthJunk) (h1 : j.npts.length = 4) (h2 : j.dim.length = 4)
    (mem : Nat → Nat → UInt8) : loadRangeTruth (some [0, 0, 0, 0, 0, 0, 0, 0]) j mem = .error .ub := by
  rw [C66_load _ (by decide) j h1 h2]
  decide

/-! ## The theorems applied to the examples -/

example := C66_load (le 4 2 ++ (le 4 3 ++ (le32s [3, 0] ++ le32s [7, 8, 9]))) (by decide) exTruthJunk rfl rfl (fun _ _ => 1)

example := C66_no_queries exTruthJunk rfl rfl (fun _ _ => 1)

end Grann
