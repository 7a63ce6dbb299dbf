import Verif.Props.FloatChain
/-!
# C95, refuted beyond dimension 258

In dimension 259 the squared norm of a vector of bytes is above 2^24 for the first time, and `float`s no longer hold it.
-/

namespace Grann

open _root_.Grann.Spec

/-! ## Sums that are rounded once -/

theorem round_near (ftz s : Bool) {n : Int} {k : Nat} {W : Int} (h0 : 0 < W) (hW : W ≤ 2 ^ 88) (h : (n : ℚ) / 2 ^ k = W) :
    F32.round ftz s n k = F32.pack false (nearestBits W.natAbs 1) := by
  have hk : (0 : ℚ) < 2 ^ k := by positivity
  have hW' : |(W : ℚ)| ≤ 2 ^ 88 := by
    rw [abs_of_pos (by exact_mod_cast h0)]
    exact_mod_cast hW
  obtain ⟨hn, hf, hlt⟩ := int_range (by omega) hW' h ftz
  have hpos : 0 < n := by
    have h1 : (0 : ℚ) < (n : ℚ) / 2 ^ k := by rw [h]; exact_mod_cast h0
    by_contra hc
    have h2 : (n : ℚ) ≤ 0 := by exact_mod_cast not_lt.1 hc
    have := div_nonpos_of_nonpos_of_nonneg h2 hk.le
    linarith
  have hb : nearestBits n.natAbs (2 ^ k) = nearestBits W.natAbs 1 := by
    refine nearestBits_congr (by omega) (by positivity) (by omega) (by norm_num) ?_
    have := fval_exact W 0
    rw [pow_zero] at this
    rw [fval_exact, h, this, pow_zero, div_one]
  have hl := nearestBits_lt (n := n.natAbs) (d := 2 ^ k) (by omega) (by positivity) (by rw [fval_exact]; exact hlt)
  unfold F32.round
  rw [if_neg hn, if_neg (by simpa using hf), min_eq_left hl.le, hb, decide_eq_false (by omega)]

/-- Of a sum above 2^24 that is at most 2^24 without any one of its terms, a part is the whole or at most 2^24. -/
theorem part_or_whole {p : Nat → Int} {W : Int} {L R : List Nat} (h : ∀ i ∈ R, 0 ≤ p i ∧ (p i ≠ 0 → W - p i ≤ 16777216))
    (hs : (L.map p).sum + (R.map p).sum = W) : (L.map p).sum ≤ 16777216 ∨ (L.map p).sum = W ∧ ∀ i ∈ R, p i = 0 := by
  by_cases hz : ∀ i ∈ R, p i = 0
  · right
    refine ⟨?_, hz⟩
    have : (R.map p).sum = 0 := List.sum_eq_zero (by
      intro x hx
      obtain ⟨i, hi, rfl⟩ := List.mem_map.1 hx
      exact hz i hi)
    omega
  · left
    push Not at hz
    obtain ⟨i, hi, hi0⟩ := hz
    have h1 := (h i hi).2 hi0
    have h2 : p i ≤ (R.map p).sum := List.single_le_sum (by
      intro x hx
      obtain ⟨j, hj, rfl⟩ := List.mem_map.1 hx
      exact (h j hj).1) _ (List.mem_map.2 ⟨i, hi, rfl⟩)
    omega

/-- In any order such a sum is rounded once. -/
theorem eval_near (ftz : Bool) (f : Nat → Res (F32 × F32)) (p : Nat → Int) {W c : Int} (hc : IntRep c)
    (hW : ∀ (s : Bool) (n : Int) (k : Nat), (n : ℚ) / 2 ^ k = W → FloatInt (F32.round ftz s n k) c) : ∀ (T : SumTree) (R : List Nat),
    (∀ i ∈ T.leaves, ∃ x y a b, f i = .ok (x, y) ∧ FloatInt x a ∧ FloatInt y b ∧ a * b = p i) →
    (∀ i ∈ T.leaves ++ R, 0 ≤ p i ∧ (p i ≠ 0 → W - p i ≤ 16777216)) → (T.leaves.map p).sum + (R.map p).sum = W →
    ∃ r, T.eval ftz f = .ok r ∧ FloatInt r (if (T.leaves.map p).sum ≤ 16777216 then (T.leaves.map p).sum else c) := by
  have hnn : ∀ l : List Nat, (∀ i ∈ l, 0 ≤ p i) → 0 ≤ (l.map p).sum := by
    intro l hl
    exact List.sum_nonneg (by
      intro x hx
      obtain ⟨i, hi, rfl⟩ := List.mem_map.1 hx
      exact hl i hi)
  intro T
  induction T with
  | init => exact fun _ _ _ _ => ⟨_, rfl, by unfold Spec.Finite; decide, by simp [SumTree.leaves, value_zero']⟩
  | term i =>
    intro R h hp hs
    obtain ⟨x, y, a, b, e, hx, hy, hab⟩ := h i (by simp [SumTree.leaves])
    have h0 := (hp i (by simp [SumTree.leaves])).1
    have hd := part_or_whole (L := [i]) (R := R) (fun j hj => hp j (by simp [hj])) hs
    simp only [SumTree.leaves, List.map_cons, List.map_nil, List.sum_cons, List.sum_nil, add_zero] at hs hd ⊢
    refine ⟨_, eval_term_ok e, ?_⟩
    by_cases h24 : p i ≤ 16777216
    · rw [if_pos h24, ← hab]
      rw [← hab] at h24 h0
      exact mul_int ftz hx hy (.small (abs_le.2 ⟨by omega, h24⟩))
    · rw [if_neg h24, mul_eq ftz hx.1 hy.1]
      refine hW _ _ _ ?_
      rw [exact_mul, hx.2, hy.2, ← (hd.resolve_left h24).1, ← hab]
      push_cast; rfl
  | add l r ihl ihr =>
    intro R h hp hs
    have h1 := hnn l.leaves (fun i hi => (hp i (by simp [SumTree.leaves, hi])).1)
    have h2 := hnn r.leaves (fun i hi => (hp i (by simp [SumTree.leaves, hi])).1)
    have hd := part_or_whole (L := (l.add r).leaves) (R := R) (fun j hj => hp j (by simp [hj])) hs
    simp only [SumTree.leaves, List.map_append, List.sum_append] at hs hd ⊢
    have hl : (l.leaves.map p).sum + ((r.leaves ++ R).map p).sum = W := by rw [List.map_append, List.sum_append]; omega
    have hr : (r.leaves.map p).sum + ((l.leaves ++ R).map p).sum = W := by rw [List.map_append, List.sum_append]; omega
    have hpl : ∀ i ∈ l.leaves ++ (r.leaves ++ R), 0 ≤ p i ∧ (p i ≠ 0 → W - p i ≤ 16777216) := fun i hi => hp i (by
      simp only [SumTree.leaves, List.mem_append] at hi ⊢; tauto)
    have hpr : ∀ i ∈ r.leaves ++ (l.leaves ++ R), 0 ≤ p i ∧ (p i ≠ 0 → W - p i ≤ 16777216) := fun i hi => hp i (by
      simp only [SumTree.leaves, List.mem_append] at hi ⊢; tauto)
    obtain ⟨x, e1, hx⟩ := ihl (r.leaves ++ R) (fun i hi => h i (by simp [SumTree.leaves, hi])) hpl hl
    obtain ⟨y, e2, hy⟩ := ihr (l.leaves ++ R) (fun i hi => h i (by simp [SumTree.leaves, hi])) hpr hr
    refine ⟨_, eval_add_ok e1 e2, ?_⟩
    by_cases h24 : (l.leaves.map p).sum + (r.leaves.map p).sum ≤ 16777216
    · rw [if_pos h24]
      rw [if_pos (by omega)] at hx hy
      exact add_int ftz hx hy (.small (abs_le.2 ⟨by omega, h24⟩))
    rw [if_neg h24]
    have hw := (hd.resolve_left h24).1
    rcases part_or_whole (fun i hi => hpl i (by simp only [List.mem_append] at hi ⊢; tauto)) hl with hl' | ⟨hl', hz⟩
    · rcases part_or_whole (fun i hi => hpr i (by simp only [List.mem_append] at hi ⊢; tauto)) hr with hr' | ⟨hr', hz⟩
      · rw [if_pos hl'] at hx
        rw [if_pos hr'] at hy
        rw [add_eq ftz hx.1 hy.1]
        refine hW _ _ _ ?_
        rw [exact_add, hx.2, hy.2, ← hw]
        push_cast; rfl
      · have h0 : (l.leaves.map p).sum = 0 := by omega
        rw [if_pos hl', h0] at hx
        rw [if_neg (by omega)] at hy
        have := add_int ftz hx hy (by rw [zero_add]; exact hc)
        rwa [zero_add] at this
    · have h0 : (r.leaves.map p).sum = 0 := by omega
      rw [if_neg (by omega)] at hx
      rw [if_pos (by omega), h0] at hy
      have := add_int ftz hx hy (by rw [add_zero]; exact hc)
      rwa [add_zero] at this
  | fma i t ih =>
    intro R h hp hs
    have h0 := (hp i (by simp [SumTree.leaves])).1
    have h2 := hnn t.leaves (fun i hi => (hp i (by simp [SumTree.leaves, hi])).1)
    have hd := part_or_whole (L := (SumTree.fma i t).leaves) (R := R) (fun j hj => hp j (by simp [hj])) hs
    simp only [SumTree.leaves, List.map_cons, List.sum_cons] at hs hd ⊢
    have ht : (t.leaves.map p).sum + ((i :: R).map p).sum = W := by rw [List.map_cons, List.sum_cons]; omega
    have hpt : ∀ j ∈ t.leaves ++ (i :: R), 0 ≤ p j ∧ (p j ≠ 0 → W - p j ≤ 16777216) := fun j hj => hp j (by
      simp only [SumTree.leaves, List.mem_append, List.mem_cons] at hj ⊢; tauto)
    obtain ⟨x, y, a, b, e, hx, hy, hab⟩ := h i (by simp [SumTree.leaves])
    obtain ⟨z, e2, hz⟩ := ih (i :: R) (fun i hi => h i (by simp [SumTree.leaves, hi])) hpt ht
    refine ⟨_, eval_fma_ok e e2, ?_⟩
    rw [← hab] at hs hd h0 ⊢
    by_cases h24 : a * b + (t.leaves.map p).sum ≤ 16777216
    · rw [if_pos h24]
      rw [if_pos (by omega)] at hz
      exact fma_int ftz hx hy hz (.small (abs_le.2 ⟨by omega, h24⟩))
    rw [if_neg h24]
    have hw := (hd.resolve_left h24).1
    rcases part_or_whole (fun j hj => hpt j (by simp only [List.mem_append] at hj ⊢; tauto)) ht with ht' | ⟨ht', hzero⟩
    · rw [if_pos ht'] at hz
      rw [fma_eq ftz hx.1 hy.1 hz.1]
      refine hW _ _ _ ?_
      rw [exact_fma, hx.2, hy.2, hz.2, ← hw]
      push_cast; rfl
    · have h0 : a * b = 0 := by omega
      rw [if_neg (by omega)] at hz
      have := fma_int ftz hx hy hz (by rw [h0, zero_add]; exact hc)
      rwa [h0, zero_add] at this

theorem dot_near (ftz : Bool) {T : SumTree} {x y : List F32} {a b : List Int} (hx : IntVec x a) (hy : IntVec y b) (hT : T.Sums a.length)
    (hl : a.length = b.length) {c : Int} (hc : IntRep c)
    (hW : ∀ (s : Bool) (n : Int) (k : Nat), (n : ℚ) / 2 ^ k = dotInt a b → FloatInt (F32.round ftz s n k) c)
    (h : ∀ i < a.length, 0 ≤ a.getD i 0 * b.getD i 0 ∧ (a.getD i 0 * b.getD i 0 ≠ 0 → dotInt a b - a.getD i 0 * b.getD i 0 ≤ 16777216)) (h24 : 16777216 < dotInt a b) :
    ∃ r, dotF32 ftz T x y = .ok r ∧ FloatInt r c := by
  rw [dotF32_plain T (intVec_plain hx) (intVec_plain hy)]
  have h1 : (T.leaves.map (fun i => a.getD i 0 * b.getD i 0)).sum = dotInt a b := sum_range_getD hl (· * ·) T hT
  obtain ⟨r, e, hr⟩ := eval_near ftz (dotFactor x y) (fun i => a.getD i 0 * b.getD i 0) hc hW T [] (fun i hi => by
    have hin := List.mem_range.1 (hT.mem_iff.1 hi)
    obtain ⟨u, e1, hu⟩ := intVec_get hx hin
    obtain ⟨v, e2, hv⟩ := intVec_get hy (by omega : i < b.length)
    exact ⟨u, v, _, _, by unfold dotFactor; rw [e1, Res.ok_bind, e2, Res.ok_bind], hu, hv, rfl⟩)
    (fun i hi => by
      rw [List.append_nil] at hi
      exact h i (List.mem_range.1 (hT.mem_iff.1 hi))) (by rw [h1]; simp)
  rw [h1, if_neg (by omega)] at hr
  exact ⟨r, e, hr⟩

/-! ## The vectors -/

/-- `n` times 255, and `m` zeros. -/
def bigTail (n m : Nat) : Bytes := List.replicate n 255 ++ List.replicate m 0

def bigTailInt (n m : Nat) : List Int := List.replicate n 255 ++ List.replicate m 0

theorem bigTail_length (n m : Nat) : (bigTailInt n m).length = n + m := by simp [bigTailInt]

theorem bigTail_getD (n m i : Nat) : (bigTail n m).getD i 0 = if i < n then 255 else 0 := by
  unfold bigTail
  rw [List.getD_eq_getElem?_getD]
  split
  · rename_i h
    rw [List.getElem?_append_left (by simpa using h), List.getElem?_replicate, if_pos h]
    rfl
  · rename_i h
    rw [List.getElem?_append_right (by simpa using h), List.getElem?_replicate]
    split <;> rfl

theorem bigTailInt_getD (n m i : Nat) : (bigTailInt n m).getD i 0 = if i < n then 255 else 0 := by
  unfold bigTailInt
  rw [List.getD_eq_getElem?_getD]
  split
  · rename_i h
    rw [List.getElem?_append_left (by simpa using h), List.getElem?_replicate, if_pos h]
    rfl
  · rename_i h
    rw [List.getElem?_append_right (by simpa using h), List.getElem?_replicate]
    split <;> rfl

theorem bigTail_dot (n m : Nat) : (List.zipWith (· * ·) (bigTailInt n m) (bigTailInt n m)).sum = n * 65025 := by
  unfold bigTailInt
  rw [List.zipWith_append (by simp), List.zipWith_replicate, List.zipWith_replicate, List.sum_append, List.sum_replicate, List.sum_replicate]
  simp

/-- Two given bytes, 257 times 255, and zeros. -/
def bigRow (m : Nat) (a b : UInt8) : Bytes := a :: b :: bigTail 257 m

def bigCoords (m : Nat) (a b : Int) : List Int := a :: b :: bigTailInt 257 m

theorem bigCoords_length (m : Nat) (a b : Int) : (bigCoords m a b).length = m + 259 := by
  unfold bigCoords
  rw [List.length_cons, List.length_cons, bigTail_length]
  omega

theorem bigRow_coords (m : Nat) (a b : UInt8) : byteCoords .uint8 (m + 259) (bigRow m a b) = bigCoords m a.toNat b.toNat := by
  refine List.ext_getElem (by rw [length_coords, bigCoords_length]) (fun i h1 h2 => ?_)
  have h3 : (bigCoords m a.toNat b.toNat)[i] = (bigCoords m a.toNat b.toNat).getD i 0 := by
    rw [List.getD_eq_getElem?_getD, List.getElem?_eq_getElem h2]; rfl
  have h4 : (byteCoords .uint8 (m + 259) (bigRow m a b))[i] = byteCoord .uint8 (bigRow m a b) i := by simp [byteCoords]
  rw [h3, h4]
  unfold byteCoord bigRow bigCoords
  simp only
  match i with
  | 0 => rfl
  | 1 => rfl
  | i + 2 =>
    rw [List.getD_cons_succ, List.getD_cons_succ, List.getD_cons_succ, List.getD_cons_succ, bigTail_getD, bigTailInt_getD]
    split <;> rfl

theorem dotInt_big (m : Nat) (a b c d : Int) : dotInt (bigCoords m a b) (bigCoords m c d) = a * c + b * d + 16711425 := by
  unfold dotInt bigCoords
  rw [List.zipWith_cons_cons, List.zipWith_cons_cons, List.sum_cons, List.sum_cons, bigTail_dot]
  norm_num
  ring

theorem big_terms (m : Nat) {a b c d : Int} (ha : 250 ≤ a ∧ a ≤ 255) (hb : 250 ≤ b ∧ b ≤ 255) (hc : 250 ≤ c ∧ c ≤ 255) (hd : 250 ≤ d ∧ d ≤ 255) :
    ∀ i < (bigCoords m a b).length, 0 ≤ (bigCoords m a b).getD i 0 * (bigCoords m c d).getD i 0 ∧
      ((bigCoords m a b).getD i 0 * (bigCoords m c d).getD i 0 ≠ 0 →
        dotInt (bigCoords m a b) (bigCoords m c d) - (bigCoords m a b).getD i 0 * (bigCoords m c d).getD i 0 ≤ 16777216) := by
  intro i hi
  rw [dotInt_big]
  have h1 : a * c ≤ 65025 := by nlinarith
  have h2 : b * d ≤ 65025 := by nlinarith
  have h3 : 0 ≤ a * c := by nlinarith
  have h4 : 0 ≤ b * d := by nlinarith
  unfold bigCoords
  match i with
  | 0 => exact ⟨h3, fun _ => by rw [List.getD_cons_zero, List.getD_cons_zero]; omega⟩
  | 1 => exact ⟨h4, fun _ => by rw [List.getD_cons_succ, List.getD_cons_succ, List.getD_cons_zero, List.getD_cons_zero]; omega⟩
  | i + 2 =>
    rw [List.getD_cons_succ, List.getD_cons_succ, List.getD_cons_succ, List.getD_cons_succ, bigTailInt_getD]
    split
    · exact ⟨by norm_num, fun _ => by omega⟩
    · exact ⟨by norm_num, fun h => absurd rfl h⟩

/-- Rounding of numbers above 2^24. -/
theorem near_value (ftz : Bool) {W c : Int} (h0 : 0 < W) (hW : W ≤ 2 ^ 88)
    (h : Spec.Finite (F32.pack false (nearestBits W.natAbs 1)) ∧ value (F32.pack false (nearestBits W.natAbs 1)) = c) :
    ∀ (s : Bool) (n : Int) (k : Nat), (n : ℚ) / 2 ^ k = W → FloatInt (F32.round ftz s n k) c := by
  intro s n k hk
  rw [round_near ftz s h0 hW hk]
  exact h

theorem big_dot (ftz : Bool) {T : SumTree} {m : Nat} {a b c d : UInt8} {w : Int} (ha : 250 ≤ a.toNat) (hb : 250 ≤ b.toNat) (hc : 250 ≤ c.toNat) (hd : 250 ≤ d.toNat)
    (hT : T.Sums (m + 259)) (hw : 2 ∣ w ∧ 0 ≤ w ∧ w ≤ 33554432)
    (hv : Spec.Finite (F32.pack false (nearestBits (a.toNat * c.toNat + b.toNat * d.toNat + 16711425) 1)) ∧
      value (F32.pack false (nearestBits (a.toNat * c.toNat + b.toNat * d.toNat + 16711425) 1)) = w) (h24 : 16777216 < a.toNat * c.toNat + b.toNat * d.toNat + 16711425) :
    ∃ r, dotF32 ftz T (Spec.valuesOf 1 (m + 259) (elemF32 .uint8) (bigRow m a b)) (Spec.valuesOf 1 (m + 259) (elemF32 .uint8) (bigRow m c d)) = .ok r ∧ FloatInt r w := by
  have hx := values_int (e := .uint8) (Or.inr rfl) (m + 259) (bigRow m a b)
  have hy := values_int (e := .uint8) (Or.inr rfl) (m + 259) (bigRow m c d)
  rw [bigRow_coords] at hx hy
  have hlen := bigCoords_length m
  have la := byte_lt a
  have lb := byte_lt b
  have lc := byte_lt c
  have ld := byte_lt d
  have hdot := dotInt_big m a.toNat b.toNat c.toNat d.toNat
  have hmul : ((a.toNat * c.toNat + b.toNat * d.toNat + 16711425 : Nat) : Int) = a.toNat * c.toNat + b.toNat * d.toNat + 16711425 := by push_cast; rfl
  have hu : a.toNat * c.toNat + b.toNat * d.toNat + 16711425 ≤ 17000000 := by
    have h1 := Nat.mul_le_mul la.le lc.le
    have h2 := Nat.mul_le_mul lb.le ld.le
    omega
  refine dot_near ftz hx hy (by rw [hlen]; exact hT) (by rw [hlen, hlen]) ⟨w / 2, 1, abs_le.2 ⟨by omega, by omega⟩, by omega, by omega⟩ ?_
    (big_terms m (by omega) (by omega) (by omega) (by omega)) (by rw [hdot, ← hmul]; exact_mod_cast h24)
  rw [hdot, ← hmul]
  refine near_value ftz (by omega) ?_ ?_
  · have : ((a.toNat * c.toNat + b.toNat * d.toNat + 16711425 : Nat) : Int) ≤ 17000000 := by exact_mod_cast hu
    norm_num
    linarith
  · rw [Int.natAbs_natCast]
    exact hv

theorem big_expand (ftz : Bool) {Tx Tp Tq : SumTree} {m : Nat} (hx : Tx.Sums (m + 259)) (hp : Tp.Sums (m + 259)) (hq : Tq.Sums (m + 259)) :
    (∃ r, expandF32 ftz Tx Tp Tq (Spec.valuesOf 1 (m + 259) (elemF32 .uint8) (bigRow m 253 255)) (Spec.valuesOf 1 (m + 259) (elemF32 .uint8) (bigRow m 255 255)) = .ok r ∧
      FloatInt r 8) ∧
    (∃ r, expandF32 ftz Tx Tp Tq (Spec.valuesOf 1 (m + 259) (elemF32 .uint8) (bigRow m 253 254)) (Spec.valuesOf 1 (m + 259) (elemF32 .uint8) (bigRow m 255 255)) = .ok r ∧
      FloatInt r 6) := by
  have h4 : FloatInt F32.minusTwo (-2) := ⟨by unfold Spec.Finite; decide, by norm_num [value, F32.minusTwo, magnitude]⟩
  obtain ⟨qq, e2, h2⟩ := big_dot ftz (a := 255) (b := 255) (c := 255) (d := 255) (w := 16841476) (by decide) (by decide) (by decide) (by decide) hq (by decide)
    (by unfold Spec.Finite; decide +kernel) (by decide)
  constructor
  · obtain ⟨pp, e1, h1⟩ := big_dot ftz (a := 253) (b := 255) (c := 253) (d := 255) (w := 16840460) (by decide) (by decide) (by decide) (by decide) hp (by decide)
      (by unfold Spec.Finite; decide +kernel) (by decide)
    obtain ⟨v, e3, h3⟩ := big_dot ftz (a := 253) (b := 255) (c := 255) (d := 255) (w := 16840964) (by decide) (by decide) (by decide) (by decide) hx (by decide)
      (by unfold Spec.Finite; decide +kernel) (by decide)
    have h5 := mul_int ftz h4 h3 ⟨-4210241, 3, by decide, by decide, by decide⟩
    have h6 := add_int ftz h5 h1 ⟨-4210367, 2, by decide, by decide, by decide⟩
    have h7 := add_int ftz h6 h2 ⟨8, 0, by decide, by decide, by decide⟩
    exact ⟨_, by unfold expandF32; rw [e1, Res.ok_bind, e2, Res.ok_bind, e3, Res.ok_bind], h7⟩
  · obtain ⟨pp, e1, h1⟩ := big_dot ftz (a := 253) (b := 254) (c := 253) (d := 254) (w := 16839950) (by decide) (by decide) (by decide) (by decide) hp (by decide)
      (by unfold Spec.Finite; decide +kernel) (by decide)
    obtain ⟨v, e3, h3⟩ := big_dot ftz (a := 253) (b := 254) (c := 255) (d := 255) (w := 16840710) (by decide) (by decide) (by decide) (by decide) hx (by decide)
      (by unfold Spec.Finite; decide +kernel) (by decide)
    have h5 := mul_int ftz h4 h3 ⟨-8420355, 2, by decide, by decide, by decide⟩
    have h6 := add_int ftz h5 h1 ⟨-8420735, 1, by decide, by decide, by decide⟩
    have h7 := add_int ftz h6 h2 ⟨6, 0, by decide, by decide, by decide⟩
    exact ⟨_, by unfold expandF32; rw [e1, Res.ok_bind, e2, Res.ok_bind, e3, Res.ok_bind], h7⟩

theorem big_sq (m : Nat) : fileSq .uint8 (m + 259) (bigRow m 255 255) (bigRow m 253 255) = 4 ∧ fileSq .uint8 (m + 259) (bigRow m 255 255) (bigRow m 253 254) = 5 := by
  have h : ∀ a b : UInt8, fileSq .uint8 (m + 259) (bigRow m 255 255) (bigRow m a b) =
      ((255 * 255 + 255 * 255 + 16711425 + (a.toNat * a.toNat + b.toNat * b.toNat + 16711425) - 2 * (255 * a.toNat + 255 * b.toNat + 16711425) : Int) : ℚ) := by
    intro a b
    rw [← sqInt_file (Or.inr rfl), sqInt_expand (by rw [length_coords, length_coords]), bigRow_coords, bigRow_coords, dotInt_big, dotInt_big, dotInt_big]
    rfl
  rw [h, h]
  decide +kernel

theorem big_dists {ftz : Bool} {T : TruthOrders} {m : Nat} {q g : Nat} (hT : (T.prod q g).Sums (m + 259)) (hp : (T.point g).Sums (m + 259))
    (hQ : (T.query q).Sums (m + 259)) :
    FloatInt (truthF32 ftz T false q g (Spec.valuesOf 1 (m + 259) (elemF32 .uint8) (bigRow m 255 255)) (Spec.valuesOf 1 (m + 259) (elemF32 .uint8) (bigRow m 253 255))) 8 ∧
    FloatInt (truthF32 ftz T false q g (Spec.valuesOf 1 (m + 259) (elemF32 .uint8) (bigRow m 255 255)) (Spec.valuesOf 1 (m + 259) (elemF32 .uint8) (bigRow m 253 254))) 6 := by
  obtain ⟨⟨r, e1, h1⟩, r', e2, h2⟩ := big_expand ftz hT hp hQ
  unfold truthF32
  simp only [Bool.false_eq_true, if_false]
  rw [e1, e2]
  exact ⟨h1, h2⟩

/-- **C95, refuted.** In every dimension from 259 on, in every order of the additions: of two points at squared distances 4 and 5, the ground-truth program
computes the distances 8 and 6 and writes the second one as the nearest. -/
theorem C95_truth_wrong {env : TruthEnv} {ftz : Bool} {T : TruthOrders} (hf : TruthFloat env ftz T) {a0 t b q kt o l : Bytes} (m : Nat)
    (hT : ∀ q g, (T.prod q g).Sums (m + 259)) (hp : ∀ g, (T.point g).Sums (m + 259)) (hQ : ∀ q, (T.query q).Sums (m + 259))
    {fs : FS Bytes} (ht : elemArg t = some .uint8) (hk : Spec.NumText kt 1) (hm : l ≠ ascii "mips")
    (hb : fs b = some (Spec.binFile (m + 259) [bigRow m 253 255, bigRow m 253 254])) (hq : fs q = some (Spec.binFile (m + 259) [bigRow m 255 255]))
    (h : TruthFiles env .uint8 (m + 259) [bigRow m 253 255, bigRow m 253 254] [bigRow m 255 255] 1) :
    (∃ ops x, truthMain env [a0, t, b, q, kt, o, l] fs = .ok (.run ops) ∧ (∀ fs1, runOps ops fs1 o = some (Spec.truthBytes 1 [[(1, x)]])) ∧ value x = 6) ∧
    fileSq .uint8 (m + 259) (bigRow m 255 255) (bigRow m 253 255) = 4 ∧ fileSq .uint8 (m + 259) (bigRow m 255 255) (bigRow m 253 254) = 5 := by
  refine ⟨?_, big_sq m⟩
  have d0 : FloatInt (Spec.truthDist env .uint8 false (m + 259) [bigRow m 253 255, bigRow m 253 254] [bigRow m 255 255] 0 0) 8 := by
    unfold Spec.truthDist
    rw [hf.elem, hf.dist]
    exact (big_dists (hT 0 0) (hp 0) (hQ 0)).1
  have d1 : FloatInt (Spec.truthDist env .uint8 false (m + 259) [bigRow m 253 255, bigRow m 253 254] [bigRow m 255 255] 0 1) 6 := by
    unfold Spec.truthDist
    rw [hf.elem, hf.dist]
    exact (big_dists (hT 0 1) (hp 1) (hQ 0)).2
  have hE : TruthClose env .uint8 (m + 259) [bigRow m 253 255, bigRow m 253 254] [bigRow m 255 255] (fun _ _ => 4) := by
    intro c hc i hi
    simp only [List.length_cons, List.length_nil] at hc hi
    obtain rfl : c = 0 := by omega
    obtain rfl | rfl : i = 0 ∨ i = 1 := by omega
    · refine ⟨d0.1, ?_⟩
      rw [d0.2, show exactSq .uint8 (m + 259) [bigRow m 253 255, bigRow m 253 254] [bigRow m 255 255] 0 0 = 4 from (big_sq m).1]
      norm_num
    · refine ⟨d1.1, ?_⟩
      rw [d1.2, show exactSq .uint8 (m + 259) [bigRow m 253 255, bigRow m 253 254] [bigRow m 255 255] 0 1 = 5 from (big_sq m).2]
      norm_num
  obtain ⟨ops, out, e1, e2, e3, e4⟩ := C85_truth_partial (a0 := a0) (o := o) ht hk (by norm_num) hb hq (truthFiles_input h hE hm)
  rw [decide_eq_false hm] at e3 e4
  have hs : Spec.signed false out = out := by
    unfold Spec.signed
    simp
  rw [hs] at e4
  obtain ⟨row, rfl⟩ := List.length_eq_one_iff.1 e2
  have K := e3 0 row rfl
  obtain ⟨⟨i, x⟩, rfl⟩ := List.length_eq_one_iff.1 (K.length.trans (by simp))
  obtain ⟨hi, hx⟩ := K.mem (i, x) (by simp)
  simp only [List.length_cons, List.length_nil, Finset.mem_range] at hi
  simp only at hx
  obtain rfl | rfl : i = 0 ∨ i = 1 := by omega
  · have := K.best 1 (by simp) (by simp) (0, x) (by simp)
    simp only [hx] at this
    rw [le_iff_value d0.1 d1.1, d0.2, d1.2] at this
    norm_num at this
  · exact ⟨ops, x, e1, fun fs1 => (e4 fs1).1, by rw [hx, d1.2]; norm_num⟩

/-! ## Examples -/

/-- A data file with two points and a file with a query. -/
def exBigFs : FS Bytes := fun p =>
  if p = ascii "d" then some (Spec.binFile 259 [bigRow 0 253 255, bigRow 0 253 254]) else if p = ascii "q" then some (Spec.binFile 259 [bigRow 0 255 255]) else none

example := C95_truth_wrong (exFloatTruth_float 259) (a0 := ascii "truth") (t := ascii "uint8") (b := ascii "d") (q := ascii "q") (kt := ascii "1")
  (o := ascii "g") (l := ascii "l2") 0 (fun _ _ => serial_sums 259) (fun _ => serial_sums 259) (fun _ => serial_sums 259) (fs := exBigFs) (by decide +kernel)
  (atoi_ok_iff.1 (by decide +kernel : atoi (ascii "1") = .ok 1)).1 (by decide) (by unfold exBigFs; rw [if_pos rfl]) (by unfold exBigFs; rw [if_neg (by decide), if_pos rfl])
  ⟨by decide, by unfold Spec.Matrix; decide +kernel, by unfold Spec.Matrix; decide +kernel, by decide, by decide, by decide, by decide, by decide, by decide, by decide,
    by decide, fun _ _ => exPick_isHeapPick, exPairSort_isPairSort⟩

end Grann
