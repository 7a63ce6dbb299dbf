import Verif.Model.Stats
import Verif.Proofs.Shard
import Mathlib.Tactic.NormNum
import Mathlib.Algebra.Order.Field.Rat
/-!
# C69: statistics
-/

namespace Grann

namespace Spec

/-- `v` is the value of rank `k` (counted from 0): at least `k + 1` values are at most `v`, and at least as many as
remain are at least `v`. -/
def IsRank {V : Type} [LinearOrder V] (vals : List V) (k : Nat) (v : V) : Prop :=
  v ∈ vals ∧ k + 1 ≤ vals.countP (fun x => decide (x ≤ v)) ∧ vals.length - k ≤ vals.countP (fun x => decide (v ≤ x))

/-- How many lists contain `i`, with multiplicity. -/
def inDegree (nbrs : List (List Nat)) (i : Nat) : Nat := (nbrs.map (fun l => l.count i)).sum

end Spec

theorem pct_bounds {prec : Nat} (hprec : 24 ≤ prec) {p : Nat × Nat} (hp : 0 < p.2) (n : Nat) :
    (pctIndex prec p n : ℚ) ≤ fval p * n * (1 + 1 / 4194304) ∧
    fval p * n * (1 - 1 / 4194304) < (pctIndex prec p n : ℚ) + 1 := by
  have hpp : 0 < prec := by omega
  have hpow : ((1 : ℚ) / 2) ^ prec ≤ 1 / 16777216 := by
    calc ((1 : ℚ) / 2) ^ prec ≤ (1 / 2) ^ 24 := pow_le_pow_of_le_one (by norm_num) (by norm_num) hprec
      _ = 1 / 16777216 := by norm_num
  obtain ⟨l, hl⟩ : ∃ l, l = roundBin prec (n, 1) := ⟨_, rfl⟩
  obtain ⟨x, hx⟩ : ∃ x, x = roundBin prec (p.1 * l.1, p.2 * l.2) := ⟨_, rfl⟩
  have hl2 : 0 < l.2 := by rw [hl]; exact roundBin_den_pos _ _
  have hx2 : 0 < x.2 := by rw [hx]; exact roundBin_den_pos _ _
  have e1 := roundBin_err prec hpp (n, 1) (by norm_num)
  rw [← hl] at e1
  have hn : fval (n, 1) = (n : ℚ) := by unfold fval; simp
  rw [hn] at e1
  have e2 := roundBin_err prec hpp (p.1 * l.1, p.2 * l.2) (Nat.mul_pos hp hl2)
  rw [← hx] at e2
  have hm : fval (p.1 * l.1, p.2 * l.2) = fval p * fval l := by
    unfold fval; push_cast; rw [mul_div_mul_comm]
  rw [hm] at e2
  have hP := fval_nonneg p
  have hL := fval_nonneg l
  have hN : (0 : ℚ) ≤ n := by positivity
  rw [abs_le] at e1 e2
  have u1 : fval l ≤ n * (1 + 1 / 16777216) := by nlinarith [mul_le_mul_of_nonneg_left hpow hN]
  have u2 : n * (1 - 1 / 16777216) ≤ fval l := by nlinarith [mul_le_mul_of_nonneg_left hpow hN]
  have hPL : 0 ≤ fval p * fval l := mul_nonneg hP hL
  have v1 : fval x ≤ fval p * fval l * (1 + 1 / 16777216) := by nlinarith [mul_le_mul_of_nonneg_left hpow hPL]
  have v2 : fval p * fval l * (1 - 1 / 16777216) ≤ fval x := by nlinarith [mul_le_mul_of_nonneg_left hpow hPL]
  have w1 : fval p * fval l ≤ fval p * (n * (1 + 1 / 16777216)) := mul_le_mul_of_nonneg_left u1 hP
  have w2 : fval p * (n * (1 - 1 / 16777216)) ≤ fval p * fval l := mul_le_mul_of_nonneg_left u2 hP
  have hPN : 0 ≤ fval p * n := mul_nonneg hP hN
  have hidx : pctIndex prec p n = x.1 / x.2 := by unfold pctIndex; dsimp only; rw [← hl, ← hx]
  have hq : (0 : ℚ) < x.2 := by exact_mod_cast hx2
  have f1 : ((x.1 / x.2 : Nat) : ℚ) ≤ fval x := by
    unfold fval
    rw [le_div_iff₀ hq]
    exact_mod_cast Nat.div_mul_le_self x.1 x.2
  have f2 : fval x < ((x.1 / x.2 : Nat) : ℚ) + 1 := by
    unfold fval
    rw [div_lt_iff₀ hq]
    have := Nat.lt_div_mul_add (a := x.1) hx2
    have h3 : (x.1 : ℚ) < ((x.1 / x.2 * x.2 + x.2 : Nat) : ℚ) := by exact_mod_cast this
    push_cast at h3
    linarith
  rw [hidx]
  constructor
  · nlinarith
  · nlinarith

/-- **C69 (in bounds).** For every number of values except 0 and every fraction below 1 - 2⁻²¹ the accessed position
exists. -/
theorem C69_in_bounds {prec : Nat} (hprec : 24 ≤ prec) {p : Nat × Nat} (hp : 0 < p.2)
    (hp1 : fval p ≤ 1 - 1 / 2097152) {n : Nat} (hn : 1 ≤ n) : pctIndex prec p n < n := by
  obtain ⟨h, _⟩ := pct_bounds hprec hp n
  have hN : (1 : ℚ) ≤ n := by exact_mod_cast hn
  have h2 : fval p * n ≤ (1 - 1 / 2097152) * n := mul_le_mul_of_nonneg_right hp1 (by linarith)
  have : (pctIndex prec p n : ℚ) < n := by nlinarith
  exact_mod_cast this

theorem sorted_rank {α V : Type} [LinearOrder V] (key : α → V) {l : List α} (hs : l.Pairwise (fun x y => key x ≤ key y))
    {k : Nat} (hk : k < l.length) :
    k + 1 ≤ l.countP (fun x => decide (key x ≤ key l[k])) ∧ l.length - k ≤ l.countP (fun x => decide (key l[k] ≤ key x)) := by
  have hp := List.pairwise_iff_getElem.mp hs
  constructor
  · have h1 : (l.take (k + 1)).countP (fun x => decide (key x ≤ key l[k])) = (l.take (k + 1)).length := by
      rw [List.countP_eq_length]
      intro x hx
      obtain ⟨i, hi, rfl⟩ := List.mem_iff_getElem.mp hx
      rw [List.length_take] at hi
      rw [List.getElem_take, decide_eq_true_eq]
      rcases Nat.lt_or_ge i k with h | h
      · exact hp i k (by omega) hk h
      · have : i = k := by omega
        subst this; exact le_refl _
    have h2 := List.Sublist.countP_le (p := fun x => decide (key x ≤ key l[k])) (List.take_sublist (k + 1) l)
    rw [h1, List.length_take] at h2
    omega
  · have h1 : (l.drop k).countP (fun x => decide (key l[k] ≤ key x)) = (l.drop k).length := by
      rw [List.countP_eq_length]
      intro x hx
      obtain ⟨i, hi, rfl⟩ := List.mem_iff_getElem.mp hx
      rw [List.length_drop] at hi
      rw [List.getElem_drop, decide_eq_true_eq]
      rcases Nat.eq_zero_or_pos i with h | h
      · subst h; exact le_refl _
      · exact hp k (k + i) hk (by omega) (by omega)
    have h2 := List.Sublist.countP_le (p := fun x => decide (key l[k] ≤ key x)) (List.drop_sublist k l)
    rw [h1, List.length_drop] at h2
    exact h2

/-- **C69 (percentiles).** For at least one value, the percentile reported is the value of rank `k`, where `k` differs
from the fraction `p` of the number of values by less than one and a relative error of 2⁻²². -/
theorem C69_percentile {V : Type} [LinearOrder V] {sort : List V → List V} (hsort : SortsBy id sort) {prec : Nat}
    (hprec : 24 ≤ prec) {p : Nat × Nat} (hp : 0 < p.2) (hp1 : fval p ≤ 1 - 1 / 2097152) (vals : List V)
    (hn : 1 ≤ vals.length) :
    ∃ v k, percentile sort prec p vals = .ok v ∧ Spec.IsRank vals k v ∧
      (k : ℚ) ≤ fval p * vals.length * (1 + 1 / 4194304) ∧ fval p * vals.length * (1 - 1 / 4194304) < (k : ℚ) + 1 := by
  have hlt := C69_in_bounds hprec hp hp1 hn
  have hperm := hsort.perm vals
  have hk : pctIndex prec p vals.length < (sort vals).length := by rw [hperm.length_eq]; exact hlt
  obtain ⟨r1, r2⟩ := sorted_rank (id : V → V) (hsort.sorted vals) hk
  refine ⟨(sort vals)[pctIndex prec p vals.length], pctIndex prec p vals.length, ?_, ⟨?_, ?_, ?_⟩, ?_⟩
  · unfold percentile; rw [rd_ok hk]
  · exact hperm.mem_iff.mp (List.getElem_mem hk)
  · rw [← hperm.countP_eq]; exact r1
  · rw [← hperm.countP_eq]
    have e := hperm.length_eq
    refine Nat.le_trans ?_ r2
    omega
  · exact pct_bounds hprec hp vals.length

/-- **C69 (needed hypothesis).** Without values, and for the fraction 1, the access is out of bounds. -/
theorem C69_out_of_bounds {V : Type} {sort : List V → List V} (hsort : ∀ l, (sort l).Perm l) (prec : Nat) :
    (∀ p, percentile sort prec p [] = .error .ub) ∧
    (∀ vals : List V, pctIndex prec (1, 1) vals.length = vals.length → percentile sort prec (1, 1) vals = .error .ub) := by
  constructor
  · intro p
    unfold percentile
    rw [rd_ub (by rw [(hsort []).length_eq]; exact Nat.zero_le _)]
  · intro vals h
    unfold percentile
    rw [h, rd_ub (by rw [(hsort vals).length_eq])]

/-! ## Degrees -/

theorem countIn_ok (n : Nat) : ∀ (l : List Nat) (f : Nat → Nat), (∀ x ∈ l, x < n) → (∀ i, f i + l.count i < 4294967296) →
    countIn ((List.range n).map (fun i => (i, f i))) l = .ok ((List.range n).map (fun i => (i, f i + l.count i))) := by
  intro l
  induction l with
  | nil => intro f _ _; simp [countIn]
  | cons x l ih =>
    intro f hx hf
    have hxn := hx x (by simp)
    have hfx := hf x
    rw [List.count_cons_self] at hfx
    unfold countIn
    rw [rd_map_range _ hxn, Res.ok_bind]
    dsimp only
    rw [wr_ok (by simpa using hxn), Res.ok_bind, map_range_set]
    have hu : u32 (f x + 1) = f x + 1 := Nat.mod_eq_of_lt (by omega)
    rw [hu]
    have e : (fun i => if i = x then (x, f x + 1) else (i, f i)) = fun i => (i, (fun i => f i + if i = x then 1 else 0) i) := by
      funext i
      dsimp only
      split
      · rename_i h; rw [h]
      · rfl
    rw [e, ih _ (fun y hy => hx y (by simp [hy])) (fun i => by
      have := hf i
      rw [List.count_cons] at this
      by_cases h : i = x
      · subst h; simp at this ⊢; omega
      · simp [h, Ne.symm h] at this ⊢; omega)]
    congr 2
    funext i
    congr 1
    rw [List.count_cons]
    by_cases h : i = x
    · subst h; simp; omega
    · simp [h, Ne.symm h]

theorem degLoop_ok (n : Nat) : ∀ (ls : List (List Nat)) (m : Nat) (out : List Nat) (f : Nat → Nat),
    (∀ l ∈ ls, ∀ x ∈ l, x < n) → (∀ i, f i + Spec.inDegree ls i < 4294967296) → (∀ l ∈ ls, l.length < 4294967296) →
    m < 4294967296 →
    degLoop ls m out ((List.range n).map (fun i => (i, f i))) =
      .ok ((ls.map List.length).foldl max m, out ++ ls.map List.length,
        (List.range n).map (fun i => (i, f i + Spec.inDegree ls i))) := by
  intro ls
  induction ls with
  | nil => intro m out f _ _ _ _; simp [degLoop, Spec.inDegree]
  | cons l ls ih =>
    intro m out f h1 h2 h3 hm
    have hid : ∀ i, Spec.inDegree (l :: ls) i = l.count i + Spec.inDegree ls i := by
      intro i; simp [Spec.inDegree]
    unfold degLoop
    rw [countIn_ok n l f (h1 l (by simp)) (fun i => by have := h2 i; rw [hid] at this; omega), Res.ok_bind]
    have hl := h3 l (by simp)
    have e1 : u32 (if m > l.length then m else l.length) = max m l.length := by
      unfold u32
      split <;> omega
    have e2 : u32 l.length = l.length := Nat.mod_eq_of_lt hl
    rw [e1, e2, ih _ _ _ (fun l' hl' => h1 l' (by simp [hl'])) (fun i => by have := h2 i; rw [hid] at this; omega)
      (fun l' hl' => h3 l' (by simp [hl'])) (by omega)]
    simp only [List.map_cons, List.foldl_cons, List.append_assoc, List.singleton_append]
    congr 4
    funext i
    rw [hid]
    congr 1
    omega

theorem unreachLoop_ok (deg : List (Nat × Nat)) (hs : deg.Pairwise (fun x y => x.2 ≤ y.2)) : ∀ (todo i : Nat),
    i + todo = deg.length → (∀ j (h : j < deg.length), j < i → (deg[j]).2 = 0) →
    unreachLoop deg deg.length todo i = .ok (deg.countP (fun d => decide (d.2 = 0))) := by
  have hp := List.pairwise_iff_getElem.mp hs
  have count : ∀ i, i ≤ deg.length → (∀ j (h : j < deg.length), j < i → (deg[j]).2 = 0) →
      (∀ j (h : j < deg.length), i ≤ j → (deg[j]).2 ≠ 0) → deg.countP (fun d => decide (d.2 = 0)) = i := by
    intro i hi h1 h2
    have e : deg.countP (fun d => decide (d.2 = 0)) = (deg.take i).countP (fun d => decide (d.2 = 0)) +
        (deg.drop i).countP (fun d => decide (d.2 = 0)) := by
      rw [← List.countP_append, List.take_append_drop]
    have e1 : (deg.take i).countP (fun d => decide (d.2 = 0)) = (deg.take i).length := by
      rw [List.countP_eq_length]
      intro x hx
      obtain ⟨j, hj, rfl⟩ := List.mem_iff_getElem.mp hx
      rw [List.length_take] at hj
      rw [List.getElem_take, decide_eq_true_eq]
      exact h1 j (by omega) (by omega)
    have e2 : (deg.drop i).countP (fun d => decide (d.2 = 0)) = 0 := by
      rw [List.countP_eq_zero]
      intro x hx
      obtain ⟨j, hj, rfl⟩ := List.mem_iff_getElem.mp hx
      rw [List.length_drop] at hj
      rw [List.getElem_drop, decide_eq_true_eq]
      exact h2 (i + j) (by omega) (by omega)
    rw [e, e1, e2, List.length_take]; omega
  intro todo
  induction todo with
  | zero =>
    intro i hi hz
    unfold unreachLoop
    rw [count i (by omega) hz (fun j h hj => by omega)]
  | succ todo ih =>
    intro i hi hz
    have hlt : i < deg.length := by omega
    unfold unreachLoop
    rw [if_pos hlt, rd_ok hlt, Res.ok_bind]
    by_cases h0 : (deg[i]).2 = 0
    · rw [if_pos h0]
      apply ih (i + 1) (by omega)
      intro j hj hji
      rcases Nat.lt_or_ge j i with h | h
      · exact hz j hj h
      · have : j = i := by omega
        subst this; exact h0
    · rw [if_neg h0, count i (by omega) hz]
      intro j hj hij
      rcases Nat.eq_or_lt_of_le hij with h | h
      · subst h; exact h0
      · have := hp i j hlt hj h
        omega

theorem tenths_ok : ∀ p ∈ tenths, 0 < p.2 ∧ p.1 * 20 ≤ p.2 * 19 := by decide +kernel

theorem tenths_bound {p : Nat × Nat} (h : p ∈ tenths) : 0 < p.2 ∧ fval p ≤ 1 - 1 / 2097152 := by
  obtain ⟨h1, h2⟩ := tenths_ok p h
  refine ⟨h1, ?_⟩
  have hq : (0 : ℚ) < p.2 := by exact_mod_cast h1
  unfold fval
  rw [div_le_iff₀ hq]
  have : (p.1 : ℚ) * 20 ≤ p.2 * 19 := by exact_mod_cast h2
  nlinarith

/-- **C69 (degree statistics).** For every graph with at least one point, any neighbours among the points, and degrees
below 2³²: nothing is accessed out of bounds; the maximal degree is the largest number of neighbours; the points
counted as unreachable are exactly those that are nobody's neighbour; the most popular point has the largest number of
incoming edges; and the entries for 0, 10, ..., 90 and 100 percent are values of the ranks they stand for. -/
theorem C69_degrees {sortOut : List Nat → List Nat} {sortIn : List (Nat × Nat) → List (Nat × Nat)}
    (ho : SortsBy id sortOut) (hi : SortsBy Prod.snd sortIn) (nbrs : List (List Nat)) (hn : 1 ≤ nbrs.length)
    (hlt : ∀ l ∈ nbrs, ∀ x ∈ l, x < nbrs.length) (hin : ∀ i, Spec.inDegree nbrs i < 4294967296)
    (hout : ∀ l ∈ nbrs, l.length < 4294967296) :
    ∃ s, degreeStats sortOut sortIn nbrs = .ok s ∧ s.maxDegree = (nbrs.map List.length).foldl max 0 ∧
      s.unreachable = ((List.range nbrs.length).filter (fun i => decide (∀ l ∈ nbrs, i ∉ l))).length ∧
      s.popular < nbrs.length ∧ (∀ i, i < nbrs.length → Spec.inDegree nbrs i ≤ Spec.inDegree nbrs s.popular) ∧
      s.out.length = 11 ∧ s.inn.length = 11 ∧
      (∀ (i : Nat) (p : Nat × Nat) (v : Nat), tenths[i]? = some p → s.out[i]? = some v →
        Spec.IsRank (nbrs.map List.length) (pctIndex 53 p nbrs.length) v) ∧
      (∀ (i : Nat) (p : Nat × Nat) (v : Nat), tenths[i]? = some p → s.inn[i]? = some v →
        Spec.IsRank ((List.range nbrs.length).map (Spec.inDegree nbrs)) (pctIndex 53 p nbrs.length) v) ∧
      (∀ v, s.out[10]? = some v → Spec.IsRank (nbrs.map List.length) (nbrs.length - 1) v) ∧
      (∀ v, s.inn[10]? = some v → Spec.IsRank ((List.range nbrs.length).map (Spec.inDegree nbrs)) (nbrs.length - 1) v) := by
  obtain ⟨deg, hdeg⟩ : ∃ deg, deg = sortIn ((List.range nbrs.length).map (fun i => (i, Spec.inDegree nbrs i))) := ⟨_, rfl⟩
  obtain ⟨out, houtd⟩ : ∃ out, out = sortOut (nbrs.map List.length) := ⟨_, rfl⟩
  have pd := hi.perm ((List.range nbrs.length).map (fun i => (i, Spec.inDegree nbrs i)))
  have sd := hi.sorted ((List.range nbrs.length).map (fun i => (i, Spec.inDegree nbrs i)))
  have po := ho.perm (nbrs.map List.length)
  have so := ho.sorted (nbrs.map List.length)
  rw [← hdeg] at pd sd
  rw [← houtd] at po so
  have ld : deg.length = nbrs.length := by rw [pd.length_eq]; simp
  have lo : out.length = nbrs.length := by rw [po.length_eq]; simp
  have hk : ∀ p ∈ tenths, pctIndex 53 p nbrs.length < nbrs.length := fun p hp =>
    C69_in_bounds (by omega) (tenths_bound hp).1 (tenths_bound hp).2 hn
  -- ranks
  have rOut : ∀ k (h : k < out.length), Spec.IsRank (nbrs.map List.length) k out[k] := by
    intro k h
    obtain ⟨r1, r2⟩ := sorted_rank (id : Nat → Nat) so h
    refine ⟨po.mem_iff.mp (List.getElem_mem h), ?_, ?_⟩
    · rw [← po.countP_eq]; exact r1
    · rw [← po.countP_eq, ← po.length_eq]; exact r2
  have rIn : ∀ k (h : k < deg.length), Spec.IsRank ((List.range nbrs.length).map (Spec.inDegree nbrs)) k (deg[k]).2 := by
    intro k h
    obtain ⟨r1, r2⟩ := sorted_rank Prod.snd sd h
    have hm : deg.map Prod.snd |>.Perm ((List.range nbrs.length).map (Spec.inDegree nbrs)) := by
      have := pd.map Prod.snd
      rw [List.map_map] at this
      exact this
    refine ⟨hm.mem_iff.mp (List.mem_map.mpr ⟨_, List.getElem_mem h, rfl⟩), ?_, ?_⟩
    · rw [← hm.countP_eq, List.countP_map]; exact r1
    · rw [← hm.countP_eq, List.countP_map, ← hm.length_eq, List.length_map]; exact r2
  have hloop := degLoop_ok nbrs.length nbrs 0 [] (fun _ => 0) hlt (fun i => by rw [Nat.zero_add]; exact hin i) hout (by omega)
  simp only [Nat.zero_add, List.nil_append] at hloop
  have hun := unreachLoop_ok deg sd deg.length 0 (by omega) (fun j _ h => by omega)
  rw [ld] at hun
  refine ⟨⟨(nbrs.map List.length).foldl max 0, tenths.map (fun p => out.getD (pctIndex 53 p nbrs.length) 0) ++
      [out[nbrs.length - 1]'(by omega)],
    tenths.map (fun p => (deg.getD (pctIndex 53 p nbrs.length) (0, 0)).2) ++ [(deg[nbrs.length - 1]'(by omega)).2],
    deg.countP (fun d => decide (d.2 = 0)), (deg[nbrs.length - 1]'(by omega)).1⟩, ?_, rfl, ?_, ?_, ?_, ?_, ?_, ?_, ?_, ?_, ?_⟩
  · unfold degreeStats
    dsimp only
    rw [hloop, Res.ok_bind]
    dsimp only
    rw [← hdeg, ← houtd, hun, Res.ok_bind]
    have m1 : tenths.mapM (fun p => rd out (pctIndex 53 p nbrs.length)) =
        .ok (tenths.map (fun p => out.getD (pctIndex 53 p nbrs.length) 0)) := by
      apply mapM_eq_map
      intro p hp
      have h := hk p hp
      rw [rd_ok (by omega), List.getD_eq_getElem?_getD, List.getElem?_eq_getElem (by omega)]
      rfl
    have m2 : tenths.mapM (fun p => do let d ← rd deg (pctIndex 53 p nbrs.length); .ok d.2) =
        .ok (tenths.map (fun p => (deg.getD (pctIndex 53 p nbrs.length) (0, 0)).2)) := by
      apply mapM_eq_map
      intro p hp
      have h := hk p hp
      rw [rd_ok (by omega), Res.ok_bind, List.getD_eq_getElem?_getD, List.getElem?_eq_getElem (by omega)]
      rfl
    rw [m1, Res.ok_bind, m2, Res.ok_bind, if_neg (by omega), rd_ok (by omega), Res.ok_bind, if_neg (by omega),
      rd_ok (by omega), Res.ok_bind]
  · dsimp only
    rw [pd.countP_eq, List.countP_map, List.countP_eq_length_filter]
    congr 1
    apply List.filter_congr
    intro i _
    rw [Function.comp_apply]
    apply decide_eq_decide.mpr
    unfold Spec.inDegree
    rw [List.sum_eq_zero_iff]
    constructor
    · intro h l hl
      exact List.count_eq_zero.mp (h _ (List.mem_map.mpr ⟨l, hl, rfl⟩))
    · intro h x hx
      obtain ⟨l, hl, rfl⟩ := List.mem_map.mp hx
      exact List.count_eq_zero.mpr (h l hl)
  · have := pd.mem_iff.mp (List.getElem_mem (show nbrs.length - 1 < deg.length by omega))
    obtain ⟨i, hi', e⟩ := List.mem_map.mp this
    dsimp only
    rw [← e]
    exact List.mem_range.mp hi'
  · intro i hil
    have hmem := pd.mem_iff.mp (List.getElem_mem (show nbrs.length - 1 < deg.length by omega))
    obtain ⟨i', _, e⟩ := List.mem_map.mp hmem
    have hmem2 : (i, Spec.inDegree nbrs i) ∈ deg := pd.mem_iff.mpr (List.mem_map.mpr ⟨i, List.mem_range.mpr hil, rfl⟩)
    obtain ⟨k, hkl, ek⟩ := List.mem_iff_getElem.mp hmem2
    have hle : (deg[k]).2 ≤ (deg[nbrs.length - 1]'(by omega)).2 := by
      rcases Nat.lt_or_ge k (nbrs.length - 1) with h | h
      · exact List.pairwise_iff_getElem.mp sd k (nbrs.length - 1) hkl (by omega) h
      · have : k = nbrs.length - 1 := by omega
        subst this; exact Nat.le_refl _
    dsimp only
    rw [ek, ← e] at hle
    rw [← e]
    exact hle
  · simp [tenths]
  · simp [tenths]
  · intro i p v hp hv
    have hpm := List.mem_of_getElem? hp
    have h := hk p hpm
    have hil := (List.getElem?_eq_some_iff.mp hp).1
    dsimp only at hv
    rw [List.getElem?_append_left (by simpa using hil), List.getElem?_map, hp, Option.map_some, Option.some.injEq,
      List.getD_eq_getElem?_getD, List.getElem?_eq_getElem (by omega), Option.getD_some] at hv
    rw [← hv]
    exact rOut _ (by omega)
  · intro i p v hp hv
    have hpm := List.mem_of_getElem? hp
    have h := hk p hpm
    have hil := (List.getElem?_eq_some_iff.mp hp).1
    dsimp only at hv
    rw [List.getElem?_append_left (by simpa using hil), List.getElem?_map, hp, Option.map_some, Option.some.injEq,
      List.getD_eq_getElem?_getD, List.getElem?_eq_getElem (by omega), Option.getD_some] at hv
    rw [← hv]
    exact rIn _ (by omega)
  · intro v hv
    have h10 : tenths.length = 10 := by simp [tenths]
    dsimp only at hv
    rw [List.getElem?_append_right (by simp [h10]), List.length_map, h10] at hv
    simp only [Nat.sub_self, List.getElem?_cons_zero, Option.some.injEq] at hv
    rw [← hv]
    exact rOut _ (by omega)
  · intro v hv
    have h10 : tenths.length = 10 := by simp [tenths]
    dsimp only at hv
    rw [List.getElem?_append_right (by simp [h10]), List.length_map, h10] at hv
    simp only [Nat.sub_self, List.getElem?_cons_zero, Option.some.injEq] at hv
    rw [← hv]
    exact rIn _ (by omega)

/-- **C69 (needed hypothesis).** For a graph without points the statistics access an empty array. -/
theorem C69_no_points (sortOut : List Nat → List Nat) (sortIn : List (Nat × Nat) → List (Nat × Nat))
    (ho : ∀ l, (sortOut l).Perm l) : degreeStats sortOut sortIn [] = .error .ub := by
  unfold degreeStats
  have h0 : ∀ k, rd (sortOut []) k = .error .ub := fun k => rd_ub (by rw [(ho []).length_eq]; exact Nat.zero_le _)
  dsimp only [degLoop]
  rw [Res.ok_bind]
  dsimp only [List.length_nil, unreachLoop]
  rw [Res.ok_bind]
  have : tenths.mapM (fun p => rd (sortOut []) (pctIndex 53 p 0)) = .error .ub := by
    simp only [h0]
    decide +kernel
  rw [this]
  rfl

/-- 0.999f. -/
def ex999 : Nat × Nat := (16760439, 16777216)

/-- `List.mergeSort` is a sort. -/
theorem mergeSort_sortsBy {α V : Type} [LinearOrder V] (key : α → V) :
    SortsBy key (fun l => l.mergeSort (fun x y => decide (key x ≤ key y))) := by
  refine ⟨fun l => List.mergeSort_perm l _, fun l => ?_⟩
  have := List.pairwise_mergeSort (le := fun x y => decide (key x ≤ key y))
    (fun a b c h1 h2 => by simp only [decide_eq_true_eq] at *; exact le_trans h1 h2)
    (fun a b => by simp only [Bool.or_eq_true, decide_eq_true_eq]; exact le_total _ _) l
  exact this.imp (fun h => by simpa using h)

example : pctIndex 24 ex999 1 = 0 ∧ pctIndex 24 ex999 1000 = 999 ∧ pctIndex 24 ex999 10000 = 9990 := by decide +kernel

example := C69_percentile (V := Nat) (mergeSort_sortsBy id) (prec := 24) (by decide) (p := ex999) (by decide)
  (by norm_num [fval, ex999]) [5, 3, 9] (by decide)

example := C69_degrees (mergeSort_sortsBy id) (mergeSort_sortsBy Prod.snd) [[1, 2], [2], [1]] (by decide) (by decide)
  (by intro i; simp [Spec.inDegree, List.count_cons]; split <;> split <;> omega) (by decide)

/-- The fraction 1. -/
example : pctIndex 24 (1, 1) 10 = 10 := by decide +kernel

/-! ## The theorems applied to the examples -/

example := C69_in_bounds (prec := 24) (by decide) (p := ex999) (by decide) (by norm_num [fval, ex999]) (n := 10) (by decide)

example : percentile (fun l : List Nat => l.mergeSort) 24 (1, 1) [5, 3, 9, 1, 2, 3, 4, 5, 6, 7] = .error .ub :=
  (C69_out_of_bounds (fun l => l.mergeSort_perm _) 24).2 _ (by decide +kernel)

example : degreeStats id id [] = .error .ub := C69_no_points id id (fun _ => .refl _)

end Grann
