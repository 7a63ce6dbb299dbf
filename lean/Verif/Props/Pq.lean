import Verif.Model.Pq
import Mathlib.Tactic.NormNum
/-!
# C53: the chunks of product quantisation
-/

namespace Grann

/-! ## The quotient -/

theorem floorD_eq {x : Nat × Nat} (hx : 0 < x.2) {q : Nat} (h1 : (q : ℚ) ≤ fval x) (h2 : fval x < q + 1) :
    floorD x = q := by
  unfold floorD
  unfold fval at h1 h2
  have hp : (0 : ℚ) < x.2 := by exact_mod_cast hx
  rw [le_div_iff₀ hp] at h1
  rw [div_lt_iff₀ hp] at h2
  have h1' : q * x.2 ≤ x.1 := by exact_mod_cast h1
  have h2' : x.1 < (q + 1) * x.2 := by exact_mod_cast h2
  exact Nat.div_eq_of_lt_le h1' h2'

theorem ceilD_eq {x : Nat × Nat} (hx : 0 < x.2) {q : Nat} (h1 : (q : ℚ) < fval x) (h2 : fval x ≤ q + 1) :
    ceilD x = q + 1 := by
  unfold ceilD
  unfold fval at h1 h2
  have hp : (0 : ℚ) < x.2 := by exact_mod_cast hx
  rw [lt_div_iff₀ hp] at h1
  rw [div_le_iff₀ hp] at h2
  have h1' : q * x.2 < x.1 := by exact_mod_cast h1
  have h2' : x.1 ≤ (q + 1) * x.2 := by exact_mod_cast h2
  apply Nat.div_eq_of_lt_le
  · have : (q + 1) * x.2 = q * x.2 + x.2 := by ring
    omega
  · have : (q + 1 + 1) * x.2 = (q + 1) * x.2 + x.2 := by ring
    omega

theorem ceilD_int {x : Nat × Nat} (hx : 0 < x.2) {q : Nat} (h : fval x = q) : ceilD x = q := by
  unfold ceilD
  unfold fval at h
  have hp : (0 : ℚ) < x.2 := by exact_mod_cast hx
  rw [div_eq_iff hp.ne'] at h
  have h' : x.1 = q * x.2 := by exact_mod_cast h
  apply Nat.div_eq_of_lt_le
  · omega
  · have : (q + 1) * x.2 = q * x.2 + x.2 := by ring
    omega

/-- The rounded quotient of two 32-bit numbers lies strictly between the same integers as the exact one. -/
theorem ddiv_bounds (a b : Nat) (ha : a < 4294967296) (hb : 0 < b) :
    (a % b = 0 → fval (ddiv (dnat a) (dnat b)) = (a / b : Nat)) ∧
    (a % b ≠ 0 → ((a / b : Nat) : ℚ) < fval (ddiv (dnat a) (dnat b)) ∧
      fval (ddiv (dnat a) (dnat b)) < (a / b : Nat) + 1) := by
  unfold ddiv dnat
  dsimp only
  rw [Nat.mul_one, Nat.one_mul]
  have hb' : (0 : ℚ) < b := by exact_mod_cast hb
  have hab := Nat.div_add_mod a b
  have hv : fval (a, b) * b = a := by unfold fval; field_simp
  have habq : (b : ℚ) * (a / b : Nat) + (a % b : Nat) = a := by exact_mod_cast hab
  have haq : (a : ℚ) < 4294967296 := by exact_mod_cast ha
  have hlt53 : fval (a, b) < 2 ^ 53 := by
    have h1b : (1 : ℚ) ≤ b := by exact_mod_cast hb
    have : fval (a, b) ≤ a := by
      unfold fval; exact div_le_self (by positivity) h1b
    have : (4294967296 : ℚ) ≤ 2 ^ 53 := by norm_num
    linarith
  have hqlt : a / b < 2 ^ 53 := by
    have : a / b ≤ a := Nat.div_le_self _ _
    have : 4294967296 ≤ 2 ^ 53 := by norm_num
    omega
  have hqle : ((a / b : Nat) : ℚ) ≤ fval (a, b) := by
    unfold fval
    rw [le_div_iff₀ hb']
    have : (0 : ℚ) ≤ (a % b : Nat) := by positivity
    linarith
  have hge := roundBin_ge 53 (a, b) hb (a / b) hlt53 hqle
  refine ⟨?_, ?_⟩
  · intro h0
    have : fval (a, b) ≤ ((a / b : Nat) : ℚ) := by
      unfold fval
      rw [div_le_iff₀ hb']
      rw [h0] at habq
      push_cast at habq
      linarith
    exact le_antisymm (roundBin_le 53 (a, b) hb (a / b) hqlt this) hge
  · intro h0
    have herr := roundBin_err 53 (by omega) (a, b) hb
    have hm1 : (1 : ℚ) ≤ (a % b : Nat) := by
      have : 1 ≤ a % b := by omega
      exact_mod_cast this
    have hm2 : ((a % b : Nat) : ℚ) + 1 ≤ b := by
      have := Nat.mod_lt a hb
      exact_mod_cast (by omega : a % b + 1 ≤ b)
    have hsmall : fval (a, b) * (1 / 2) ^ 53 * b < 1 := by
      have : fval (a, b) * (1 / 2) ^ 53 * b = a * (1 / 2) ^ 53 := by
        rw [← hv]; ring
      rw [this]
      calc (a : ℚ) * (1 / 2) ^ 53 < 4294967296 * (1 / 2) ^ 53 := by
            apply mul_lt_mul_of_pos_right haq; positivity
        _ ≤ 1 := by norm_num
    rw [abs_le] at herr
    generalize fval (roundBin 53 (a, b)) = r at *
    generalize fval (a, b) = v at *
    generalize ((a / b : Nat) : ℚ) = q at *
    generalize ((a % b : Nat) : ℚ) = m at *
    generalize (v * (1 / 2) ^ 53) = e at *
    have hvq : v * b = b * q + m := by linarith
    constructor
    · have h1 : q * b < r * b := by nlinarith
      exact lt_of_mul_lt_mul_right h1 hb'.le
    · have h1 : r * b < (q + 1) * b := by nlinarith
      exact lt_of_mul_lt_mul_right h1 hb'.le

theorem low_eq (a b : Nat) (ha : a < 4294967296) (hb : 0 < b) : floorD (ddiv (dnat a) (dnat b)) = a / b := by
  obtain ⟨h1, h2⟩ := ddiv_bounds a b ha hb
  have hp : 0 < (ddiv (dnat a) (dnat b)).2 := roundBin_den_pos _ _
  by_cases h0 : a % b = 0
  · exact floorD_eq hp (h1 h0).ge (by rw [h1 h0]; linarith)
  · exact floorD_eq hp (h2 h0).1.le (h2 h0).2

theorem high_eq (a b : Nat) (ha : a < 4294967296) (hb : 0 < b) :
    ceilD (ddiv (dnat a) (dnat b)) = a / b + (if a % b = 0 then 0 else 1) := by
  obtain ⟨h1, h2⟩ := ddiv_bounds a b ha hb
  have hp : 0 < (ddiv (dnat a) (dnat b)).2 := roundBin_den_pos _ _
  by_cases h0 : a % b = 0
  · rw [if_pos h0]; exact ceilD_int hp (h1 h0)
  · rw [if_neg h0]; exact ceilD_eq hp (h2 h0).1 (h2 h0).2.le

/-! ## The bins -/

theorem binScan_done (n thr : Nat) (bins : List (List Nat)) : ∀ (todo b best : Nat), b + todo ≤ n →
    binScan (List.replicate n F32.zero) bins thr todo b best F32.zero = .ok best := by
  intro todo
  induction todo with
  | zero => intro b best _; rfl
  | succ todo ih =>
    intro b best h
    unfold binScan
    rw [rd_ok (by rw [List.length_replicate]; omega), Res.ok_bind, List.getElem_replicate,
      if_neg (by rw [F32.lt_irrefl]; decide)]
    exact ih (b + 1) best (by omega)

theorem binScan_first (n thr : Nat) (bins : List (List Nat)) (c : Nat) (hc : c < bins.length)
    (hcn : c < n) (hthr : (bins[c]'hc).length < thr) (hfull : ∀ i, (h : i < c) → thr ≤ (bins[i]'(by omega)).length) :
    ∀ (k b best : Nat), b + k = c → 
    binScan (List.replicate n F32.zero) bins thr (n - b) b best F32.fmax = .ok c := by
  intro k
  induction k with
  | zero =>
    intro b best h
    have hb : b = c := by omega
    subst hb
    obtain ⟨m, hm⟩ : ∃ m, n - b = m + 1 := ⟨n - b - 1, by omega⟩
    rw [hm]
    unfold binScan
    rw [rd_ok (by rw [List.length_replicate]; omega), Res.ok_bind, List.getElem_replicate,
      if_pos (by decide), rd_ok hc, Res.ok_bind, if_pos hthr]
    exact binScan_done n thr bins m (b + 1) b (by omega)
  | succ k ih =>
    intro b best h
    obtain ⟨m, hm⟩ : ∃ m, n - b = m + 1 := ⟨n - b - 1, by omega⟩
    rw [hm]
    unfold binScan
    have hf := hfull b (by omega)
    rw [rd_ok (by rw [List.length_replicate]; omega), Res.ok_bind, List.getElem_replicate,
      if_pos (by decide), rd_ok (by omega : b < bins.length), Res.ok_bind, if_neg (by omega)]
    have : m = n - (b + 1) := by omega
    rw [this]
    exact ih (b + 1) best (by omega)

/-- The number of dimensions of chunk `i`. -/
def chunkLen (low rem i : Nat) : Nat := low + if i < rem then 1 else 0

/-- The first dimension of chunk `i`. -/
def chunkOff (low rem i : Nat) : Nat := i * low + min i rem

theorem chunkOff_succ (low rem i : Nat) : chunkOff low rem (i + 1) = chunkOff low rem i + chunkLen low rem i := by
  unfold chunkOff chunkLen
  rw [Nat.succ_mul]
  split <;> omega

/-- The bins after `d` dimensions: `c` chunks are complete and chunk `c` holds `k` dimensions. -/
structure PqInv (n low rem d : Nat) (s : PqSt) (c k : Nat) : Prop where
  off : d = chunkOff low rem c + k
  lt : c < n → k < chunkLen low rem c
  last : c = n → k = 0
  le : c ≤ n
  len : s.bins.length = n
  full : ∀ i, i < c → s.bins[i]? = some (List.range' (chunkOff low rem i) (chunkLen low rem i))
  cur : c < n → s.bins[c]? = some (List.range' (chunkOff low rem c) k)
  rest : ∀ i, c < i → i < n → s.bins[i]? = some []
  thr : s.thr = if rem ≠ 0 ∧ rem ≤ c then low else low + if rem = 0 then 0 else 1
  numHigh : s.numHigh = if rem = 0 then c else min c rem

theorem pqStep_ok {n low rem d : Nat} {s : PqSt} {c k : Nat} (h : PqInv n low rem d s c k) (hc : c < n)
    (hlow : 1 ≤ low) : ∃ s' c' k', pqStep n low (low + if rem = 0 then 0 else 1) rem s d = .ok s' ∧
      PqInv n low rem (d + 1) s' c' k' := by
  have hcl : c < s.bins.length := by rw [h.len]; exact hc
  have hk := h.lt hc
  have hbc : s.bins[c] = List.range' (chunkOff low rem c) k := by
    have := h.cur hc
    rw [List.getElem?_eq_getElem hcl] at this
    injection this
  have hkthr : k < s.thr := by
    rw [h.thr]
    unfold chunkLen at hk
    split_ifs at * <;> omega
  have hscan : binScan (List.replicate n F32.zero) s.bins s.thr n 0 (u32 (n + 1)) F32.fmax = .ok c := by
    have := binScan_first n s.thr s.bins c hcl hc (by rw [hbc, List.length_range']; exact hkthr) (by
      intro i hi
      have hf := h.full i hi
      rw [List.getElem?_eq_getElem (by omega : i < s.bins.length)] at hf
      injection hf with hf
      rw [hf, List.length_range', h.thr]
      unfold chunkLen
      split_ifs <;> omega) c 0 (u32 (n + 1)) (by omega)
    exact this
  have hpush : s.bins[c] ++ [d] = List.range' (chunkOff low rem c) (k + 1) := by
    rw [hbc, List.range'_concat, h.off]
    simp
  unfold pqStep
  rw [hscan, Res.ok_bind, rd_ok hcl, Res.ok_bind, wr_ok hcl, Res.ok_bind, hpush, List.length_range']
  have hset : ∀ i, (s.bins.set c (List.range' (chunkOff low rem c) (k + 1)))[i]? =
      if i = c then some (List.range' (chunkOff low rem c) (k + 1)) else s.bins[i]? := by
    intro i
    rw [List.getElem?_set]
    by_cases hi : c = i
    · subst hi; simp [hcl]
    · rw [if_neg hi, if_neg (by omega)]
  have hbins : ∀ s1 : PqSt, (pqThr low (low + if rem = 0 then 0 else 1) rem (k + 1) s1).bins = s1.bins := by
    intro s1
    generalize (low + if rem = 0 then 0 else 1) = hi
    unfold pqThr
    by_cases h1 : k + 1 = hi
    · rw [if_pos h1]
      split <;> rfl
    · rw [if_neg h1]
  have hnh : s.numHigh = if rem = 0 then c else min c rem := h.numHigh
  have hth := h.thr
  by_cases hfull : k + 1 = chunkLen low rem c
  · -- the chunk is complete
    refine ⟨_, c + 1, 0, rfl, ?_⟩
    refine ⟨by rw [chunkOff_succ, h.off]; omega, ?_, fun _ => rfl, hc, ?_, ?_, ?_, ?_, ?_, ?_⟩
    · intro _; unfold chunkLen; omega
    · rw [hbins]; simp [h.len]
    · intro i hi
      rw [hbins, hset]
      split
      · rename_i he; subst he; rw [← hfull]
      · exact h.full i (by omega)
    · intro hc1
      rw [hbins, hset, if_neg (by omega), h.rest (c + 1) (by omega) hc1]
      rfl
    · intro i hi hin
      rw [hbins, hset, if_neg (by omega), h.rest i (by omega) hin]
    · unfold pqThr chunkLen at *
      dsimp only
      rw [hnh] at *
      by_cases hr : rem = 0
      · subst hr
        simp only [if_true, Nat.not_lt_zero, if_false, Nat.add_zero, ne_eq, not_true, false_and] at *
        rw [if_pos hfull]
        split
        · omega
        · exact hth
      · simp only [hr, if_false, ne_eq, not_false_eq_true, true_and] at *
        by_cases hcr : c < rem
        · rw [if_pos hcr] at hfull
          rw [if_pos hfull]
          rw [if_neg (by omega)] at hth
          by_cases hcr1 : c + 1 = rem
          · rw [if_pos (by omega), if_pos (by omega)]
          · rw [if_neg (by omega), if_neg (by omega)]; exact hth
        · rw [if_neg hcr] at hfull
          rw [if_neg (by omega), if_pos (by omega)]
          rw [if_pos (by omega)] at hth
          exact hth
    · unfold pqThr chunkLen at *
      dsimp only
      rw [hnh] at *
      by_cases hr : rem = 0
      · subst hr
        simp only [if_true, Nat.not_lt_zero, if_false, Nat.add_zero] at *
        rw [if_pos hfull]
        split <;> rfl
      · simp only [hr, if_false] at *
        by_cases hcr : c < rem
        · rw [if_pos hcr] at hfull
          rw [if_pos hfull]
          split
          · show min c rem + 1 = min (c + 1) rem; omega
          · show min c rem + 1 = min (c + 1) rem; omega
        · rw [if_neg hcr] at hfull
          rw [if_neg (by omega)]
          show min c rem = min (c + 1) rem
          omega
  · -- the chunk is not complete
    have hne : k + 1 ≠ low + if rem = 0 then 0 else 1 := by
      unfold chunkLen at *
      split_ifs at * <;> omega
    have hid : ∀ s1 : PqSt, pqThr low (low + if rem = 0 then 0 else 1) rem (k + 1) s1 = s1 := by
      intro s1; unfold pqThr; rw [if_neg hne]
    refine ⟨_, c, k + 1, rfl, ?_⟩
    rw [hid]
    refine ⟨by rw [h.off]; omega, fun _ => by omega, fun he => by omega, h.le, by simp [h.len], ?_, ?_, ?_, hth, hnh⟩
    · intro i hi
      rw [hset, if_neg (by omega)]; exact h.full i hi
    · intro _
      rw [hset, if_pos rfl]
    · intro i hi hin
      rw [hset, if_neg (by omega)]; exact h.rest i hi hin

theorem chunkOff_mono (low rem : Nat) {i j : Nat} (h : i ≤ j) : chunkOff low rem i ≤ chunkOff low rem j := by
  unfold chunkOff
  have := Nat.mul_le_mul_right low h
  omega

theorem pqLoop_ok {n low rem : Nat} (hlow : 1 ≤ low) : ∀ (todo d : Nat) (s : PqSt) (c k : Nat),
    PqInv n low rem d s c k → d + todo = chunkOff low rem n →
    ∃ s', pqLoop n low (low + if rem = 0 then 0 else 1) rem todo d s = .ok s' ∧
      PqInv n low rem (d + todo) s' n 0 := by
  intro todo
  induction todo with
  | zero =>
    intro d s c k h hd
    refine ⟨s, rfl, ?_⟩
    have hc : c = n := by
      by_contra hne
      have hc : c < n := by have := h.le; omega
      have h1 := h.lt hc
      have h2 := chunkOff_succ low rem c
      have h3 := chunkOff_mono low rem (show c + 1 ≤ n by omega)
      have h4 := h.off
      omega
    subst hc
    have := h.last rfl
    subst this
    exact h
  | succ todo ih =>
    intro d s c k h hd
    have hc : c < n := by
      by_contra hne
      have hcn : c = n := by have := h.le; omega
      have := h.last hcn
      have := h.off
      rw [hcn] at this
      omega
    obtain ⟨s1, c1, k1, e, h1⟩ := pqStep_ok h hc hlow
    obtain ⟨s', e', h'⟩ := ih (d + 1) s1 c1 k1 h1 (by omega)
    refine ⟨s', ?_, ?_⟩
    · unfold pqLoop; rw [e, Res.ok_bind, e']
    · rw [show d + (todo + 1) = d + 1 + todo by omega]; exact h'

theorem pqCollect_ok {n low rem : Nat} {bins : List (List Nat)} (hlen : bins.length = n)
    (hbins : ∀ i, i < n → bins[i]? = some (List.range' (chunkOff low rem i) (chunkLen low rem i)))
    (hmax : chunkOff low rem n < 4294967296) : ∀ (todo b : Nat) (offs : List Nat), b + todo = n →
    offs = (List.range (max b 1)).map (chunkOff low rem) →
    pqCollect bins todo b (List.range (chunkOff low rem b)) offs =
      .ok (List.range (chunkOff low rem n), (List.range (max n 1)).map (chunkOff low rem)) := by
  intro todo
  induction todo with
  | zero =>
    intro b offs hb ho
    have : b = n := by omega
    subst this
    rw [ho]; rfl
  | succ todo ih =>
    intro b offs hb ho
    have hbl : b < bins.length := by omega
    have hrd : ∀ i, i < n → rd bins i = .ok (List.range' (chunkOff low rem i) (chunkLen low rem i)) := by
      intro i hi
      rw [rd_eq_ok_iff]
      exact hbins i hi
    unfold pqCollect
    rw [hrd b (by omega), Res.ok_bind]
    have hoff : pqOffset bins b offs = .ok ((List.range (max (b + 1) 1)).map (chunkOff low rem)) := by
      unfold pqOffset
      by_cases h0 : b > 0
      · rw [if_pos h0]
        obtain ⟨j, rfl⟩ : ∃ j, b = j + 1 := ⟨b - 1, by omega⟩
        rw [Nat.add_sub_cancel]
        have h1 : rd offs j = .ok (chunkOff low rem j) := by
          rw [rd_eq_ok_iff, ho, List.getElem?_map, List.getElem?_range (by omega)]; rfl
        rw [h1, Res.ok_bind, hrd j (by omega), Res.ok_bind, List.length_range']
        have hj := chunkOff_succ low rem j
        have hm := chunkOff_mono low rem (show j + 1 ≤ n by omega)
        have : u32 (chunkOff low rem j + u32 (chunkLen low rem j)) = chunkOff low rem (j + 1) := by
          unfold u32
          rw [Nat.mod_eq_of_lt (a := chunkLen low rem j) (by omega), Nat.mod_eq_of_lt (by omega), hj]
        rw [this, ho, Nat.max_eq_left (by omega), Nat.max_eq_left (by omega : 1 ≤ j + 1 + 1),
          List.range_succ (n := j + 1), List.map_append]
        rfl
      · rw [if_neg h0, ho]
        have : b = 0 := by omega
        subst this; rfl
    rw [hoff, Res.ok_bind]
    have : List.range (chunkOff low rem b) ++ List.range' (chunkOff low rem b) (chunkLen low rem b) =
        List.range (chunkOff low rem (b + 1)) := by
      rw [chunkOff_succ, List.range_eq_range', List.range_eq_range']
      have := List.range'_append_1 (s := 0) (m := chunkOff low rem b) (n := chunkLen low rem b)
      rw [Nat.zero_add] at this
      exact this
    rw [this]
    exact ih (b + 1) _ (by omega) rfl

/-- **C53.** For `1 ≤ chunks ≤ dim` the rearrangement is the identity, and chunk `i` starts at
`i * (dim / chunks) + min i (dim % chunks)`. -/
theorem C53_chunks (dim chunks : Nat) (h1 : 1 ≤ chunks) (h2 : chunks ≤ dim) (hd : dim < 4294967296) :
    pqChunks dim chunks = .ok (some (List.range dim,
      (List.range (chunks + 1)).map (fun i => i * (dim / chunks) + min i (dim % chunks)))) := by
  unfold pqChunks
  rw [if_neg (by omega), if_neg (by omega)]
  rw [low_eq dim chunks hd (by omega), high_eq dim chunks hd (by omega)]
  have hdm := Nat.div_add_mod dim chunks
  have hml := Nat.mod_lt dim (by omega : 0 < chunks)
  have hlow : 1 ≤ dim / chunks := Nat.div_pos h2 (by omega)
  have hcomm : dim / chunks * chunks = chunks * (dim / chunks) := Nat.mul_comm _ _
  have hrem : sub64 dim (u64 (dim / chunks * chunks)) = dim % chunks := by
    unfold sub64 u64
    rw [hcomm, Nat.mod_eq_of_lt (a := chunks * (dim / chunks)) (by omega)]
    rw [show dim + 18446744073709551616 - chunks * (dim / chunks) = dim % chunks + 18446744073709551616 by omega]
    rw [Nat.add_mod_right, Nat.mod_eq_of_lt (by omega)]
  dsimp only
  rw [hrem]
  have hoffn : chunkOff (dim / chunks) (dim % chunks) chunks = dim := by
    unfold chunkOff
    omega
  generalize hlo : dim / chunks = low at *
  generalize hre : dim % chunks = rem at *
  have hinit : PqInv chunks low rem 0 ⟨List.replicate chunks [], 0, low + if rem = 0 then 0 else 1⟩ 0 0 := by
    refine ⟨by simp [chunkOff], fun _ => by unfold chunkLen; omega, fun _ => rfl, by omega, by simp, fun i hi => by omega,
      fun h => ?_, fun i _ h => ?_, ?_, ?_⟩
    · rw [List.getElem?_replicate, if_pos h]; rfl
    · rw [List.getElem?_replicate, if_pos h]
    · show (low + if rem = 0 then 0 else 1) = _
      by_cases hr : rem = 0
      · rw [if_pos hr, if_neg (by omega)]
      · rw [if_neg hr, if_neg (by omega)]
    · show 0 = _
      split <;> omega
  obtain ⟨s, e, hs⟩ := pqLoop_ok hlow dim 0 _ 0 0 hinit (by omega)
  rw [e, Res.ok_bind]
  have hc := pqCollect_ok (n := chunks) (low := low) (rem := rem) hs.len hs.full (by omega) chunks 0 [0] (by omega) (by
    simp [chunkOff])
  have h00 : List.range (chunkOff low rem 0) = [] := by simp [chunkOff]
  rw [h00] at hc
  rw [hc, Res.ok_bind]
  dsimp only
  rw [hoffn, Nat.max_eq_left (by omega), List.range_succ (n := chunks), List.map_append]
  have : [dim] = List.map (fun i => i * low + min i rem) [chunks] := by
    show [dim] = [chunks * low + min chunks rem]
    unfold chunkOff at hoffn
    rw [hoffn]
  rw [this]
  rfl

/-- **C53.** The chunks are contiguous, of nearly equal size, and every dimension lies in exactly one. -/
theorem C53_cover (dim chunks : Nat) (h1 : 1 ≤ chunks) (h2 : chunks ≤ dim) (hd : dim < 4294967296) :
    ∃ offs : List Nat, pqChunks dim chunks = .ok (some (List.range dim, offs)) ∧ offs.length = chunks + 1 ∧
      offs[0]? = some 0 ∧ offs[chunks]? = some dim ∧
      (∀ (i x y : Nat), offs[i]? = some x → offs[i + 1]? = some y →
        y = x + dim / chunks ∨ y = x + dim / chunks + 1) ∧
      (∀ d, d < dim → ∃! i, i < chunks ∧ ∃ x y, offs[i]? = some x ∧ offs[i + 1]? = some y ∧ x ≤ d ∧ d < y) := by
  refine ⟨_, C53_chunks dim chunks h1 h2 hd, by simp, ?_, ?_, ?_, ?_⟩
  · rw [List.getElem?_map, List.getElem?_range (by omega)]
    simp
  · rw [List.getElem?_map, List.getElem?_range (by omega)]
    have hdm := Nat.div_add_mod dim chunks
    have hml := Nat.mod_lt dim (by omega : 0 < chunks)
    simp only [Option.map_some, Option.some.injEq]
    omega
  all_goals
    have hg : ∀ i, ((List.range (chunks + 1)).map (fun i => i * (dim / chunks) + min i (dim % chunks)))[i]? =
        if i < chunks + 1 then some (chunkOff (dim / chunks) (dim % chunks) i) else none := by
      intro i
      rw [List.getElem?_map]
      split
      · rename_i h; rw [List.getElem?_range h]; rfl
      · rename_i h; rw [List.getElem?_eq_none (by simp; omega)]; rfl
  · intro i x y hx hy
    rw [hg] at hx hy
    split at hy
    · rename_i hi
      rw [if_pos (by omega)] at hx
      injection hx with hx
      injection hy with hy
      rw [chunkOff_succ, hx] at hy
      unfold chunkLen at hy
      split at hy <;> omega
    · cases hy
  · intro d hdlt
    have hdm := Nat.div_add_mod dim chunks
    have hml := Nat.mod_lt dim (by omega : 0 < chunks)
    have hlast : chunkOff (dim / chunks) (dim % chunks) chunks = dim := by
      unfold chunkOff; omega
    generalize dim / chunks = low at *
    generalize dim % chunks = rem at *
    have hex : ∀ n, d < chunkOff low rem n → ∃ i, i < n ∧ chunkOff low rem i ≤ d ∧ d < chunkOff low rem (i + 1) := by
      intro n
      induction n with
      | zero => intro h; simp [chunkOff] at h
      | succ n ih =>
        intro h
        by_cases hn : d < chunkOff low rem n
        · obtain ⟨i, hi, h3⟩ := ih hn
          exact ⟨i, by omega, h3⟩
        · exact ⟨n, by omega, by omega, h⟩
    obtain ⟨i, hi, h3, h4⟩ := hex chunks (by omega)
    refine ⟨i, ⟨hi, chunkOff low rem i, chunkOff low rem (i + 1), by rw [hg, if_pos (by omega)],
      by rw [hg, if_pos (by omega)], h3, h4⟩, ?_⟩
    rintro j ⟨hj, x, y, hx, hy, h5, h6⟩
    rw [hg, if_pos (by omega)] at hx hy
    injection hx with hx
    injection hy with hy
    subst hx hy
    by_contra hne
    rcases Nat.lt_or_ge i j with hlt | hge
    · have := chunkOff_mono low rem (show i + 1 ≤ j by omega); omega
    · have := chunkOff_mono low rem (show j + 1 ≤ i by omega); omega

/-- **C53.** More chunks than dimensions are refused; no chunks is undefined behaviour. -/
theorem C53_limits (dim chunks : Nat) : (dim < chunks → pqChunks dim chunks = .ok none) ∧
    pqChunks dim 0 = .error .ub := by
  constructor
  · intro h; unfold pqChunks; rw [if_pos h]
  · unfold pqChunks; rw [if_neg (by omega), if_pos rfl]

example : pqChunks 10 4 = .ok (some ([0, 1, 2, 3, 4, 5, 6, 7, 8, 9], [0, 3, 6, 8, 10])) := by decide +kernel
example : pqChunks 8 4 = .ok (some ([0, 1, 2, 3, 4, 5, 6, 7], [0, 2, 4, 6, 8])) := by decide +kernel

/-! ## The theorems applied to the examples -/

example := C53_chunks 10 4 (by decide) (by decide) (by decide)
example := C53_cover 10 4 (by decide) (by decide) (by decide)
example := (C53_limits 3 4).1 (by decide)

end Grann
