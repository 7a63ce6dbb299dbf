import Verif.Proofs.FloatDart
import Verif.Proofs.FloatLoops
import Verif.Props.FloatKmeans
/-!
# C99: k-means++ in `float` and `double` arithmetic ends
-/

namespace Grann

open _root_.Grann.Spec _root_.Spec

/-! ## Sums -/

/-- A distance: a finite number, not negative, and not subnormal if such numbers are flushed. -/
def Mild (ftz : Bool) (x : F32) : Prop := Spec.Finite x ∧ Clean ftz x

theorem units_zero {x : F32} (h : x.sign = false) : x.units = 0 ↔ x = F32.zero := by
  constructor
  · intro h0
    have hv : value x = 0 := by rw [value_units, h0, Int.cast_zero, zero_mul]
    have hm : x.mag = 0 := by
      by_contra hne
      have h1 : magnitude 0 < magnitude x.mag := magnitude_strictMono (by omega)
      rw [magnitude_zero] at h1
      have h2 := abs_value x
      rw [hv, abs_zero, show x.bits.toNat % 2147483648 = x.mag from rfl] at h2
      linarith
    have e : F32.pack x.sign x.mag = x := pack_self x
    rw [← e, h, hm]
    decide
  · rintro rfl
    decide

theorem ofF32_mild {ftz : Bool} {x : F32} (h : Mild ftz x) : D64.ofF32 ftz x = some ((x.units.natAbs * 2 ^ 925 : Nat) : Int) := by
  have hd : (x.daz ftz).units = x.units := by
    unfold F32.daz
    split
    · rename_i hc
      rw [Bool.and_eq_true, decide_eq_true_eq] at hc
      have hm : x.mag = 0 := by
        rcases h.2.2.2 hc.1 with h | h
        · exact h
        · omega
      have e : F32.pack x.sign x.mag = x := pack_self x
      rw [hm] at e
      rw [e]
    · rfl
  unfold D64.ofF32
  rw [if_pos (finite_mag.1 h.1), hd]
  have h0 := units_nonneg h.2.1
  congr 1
  rw [Nat.cast_mul, Int.natCast_natAbs, abs_of_nonneg h0, Nat.cast_pow]
  rfl

/-- A sum so far. -/
def Partial (s : Nat) : Prop := s = 0 ∨ (Rep s ∧ 2 ^ 925 ≤ s)

def addN (ftz : Bool) (s u : Nat) : Nat := if ftz && decide (D64.mag (s + u) 1 < 4503599627370496) then 0 else D64.mag (s + u) 1

theorem add_nat (ftz : Bool) (s u : Nat) : D64.add ftz (some (s : Int)) (some (u : Int)) = some (addN ftz s u : Int) := by
  show some (D64.round ftz ((s : Int) + (u : Int)) 1) = _
  rw [← Nat.cast_add, round_nat]
  rfl

theorem big_pow : 4503599627370496 ≤ 2 ^ 925 := by
  calc 4503599627370496 = 2 ^ 52 := by norm_num
    _ ≤ 2 ^ 925 := Nat.pow_le_pow_right (by decide) (by decide)

theorem rep_pow (k : Nat) : Rep (2 ^ k) := ⟨1, k, by decide, (one_mul _).symm⟩

theorem addN_ok (ftz : Bool) {s u : Nat} (hs : Partial s) (hu : u = 0 ∨ 2 ^ 925 ≤ u) :
    Partial (addN ftz s u) ∧ s ≤ addN ftz s u ∧ (u = 0 → addN ftz s u = s) ∧ (u ≠ 0 → 2 ^ 925 ≤ addN ftz s u) := by
  have hb := big_pow
  have hr0 := rep_pow 925
  generalize hU : 2 ^ 925 = U at *
  have hrep : Rep s := by
    rcases hs with rfl | h
    · exact rep_zero
    · exact h.1
  rcases hu with rfl | hu
  · have e : addN ftz s 0 = s := by
      unfold addN
      rw [Nat.add_zero, mag_self hrep]
      rcases hs with rfl | h
      · split <;> rfl
      · rw [decide_eq_false (by omega), Bool.and_false, if_neg Bool.false_ne_true]
    rw [e]
    exact ⟨hs, le_refl _, fun _ => rfl, fun h => absurd rfl h⟩
  · have h1 : U ≤ D64.mag (s + u) 1 := mag_mono one_pos hr0 (by omega)
    have h2 : s ≤ D64.mag (s + u) 1 := mag_mono one_pos hrep (by omega)
    have e : addN ftz s u = D64.mag (s + u) 1 := by
      unfold addN
      rw [decide_eq_false (by omega), Bool.and_false, if_neg Bool.false_ne_true]
    rw [e]
    exact ⟨Or.inr ⟨mag_rep one_pos, by omega⟩, h2, fun h => by omega, fun _ => h1⟩

theorem mild_units {ftz : Bool} {x : F32} (h : Mild ftz x) : (x = F32.zero ∧ x.units.natAbs * 2 ^ 925 = 0) ∨ (x ≠ F32.zero ∧ x.units.natAbs * 2 ^ 925 ≠ 0 ∧ 2 ^ 925 ≤ x.units.natAbs * 2 ^ 925) := by
  by_cases h0 : x = F32.zero
  · left
    refine ⟨h0, ?_⟩
    rw [(units_zero h.2.1).2 h0, Int.natAbs_zero, Nat.zero_mul]
  · right
    have hu : x.units ≠ 0 := fun h' => h0 ((units_zero h.2.1).1 h')
    have h1 : 1 ≤ x.units.natAbs := by omega
    have h2 : 2 ^ 925 ≤ x.units.natAbs * 2 ^ 925 := Nat.le_mul_of_pos_left _ h1
    exact ⟨h0, by have := Nat.two_pow_pos 925; omega, h2⟩

theorem mild_parts {ftz : Bool} {x : F32} (h : Mild ftz x) : x.units.natAbs * 2 ^ 925 = 0 ∨ 2 ^ 925 ≤ x.units.natAbs * 2 ^ 925 := by
  rcases mild_units h with h | h
  · exact Or.inl h.2
  · exact Or.inr h.2.2

/-- The sum in the order of the loop. -/
theorem fold_ok (A : KmArith) : ∀ (ds : List F32) (s : Nat), (∀ d ∈ ds, Mild A.ftz d) → Partial s →
    ∃ s' : Nat, ds.foldl (kmF32 A).kpp.add (some (s : Int)) = some (s' : Int) ∧ Partial s' ∧ s ≤ s' ∧ (s' = 0 ↔ s = 0 ∧ ∀ d ∈ ds, d = F32.zero) := by
  intro ds
  induction ds with
  | nil => intro s _ hs; exact ⟨s, rfl, hs, le_refl _, by simp⟩
  | cons d ds ih =>
    intro s hd hs
    have hm := hd d (List.mem_cons_self ..)
    have e : (kmF32 A).kpp.add (some (s : Int)) d = some (addN A.ftz s (d.units.natAbs * 2 ^ 925) : Int) := by
      show D64.add A.ftz (some (s : Int)) (D64.ofF32 A.ftz d) = _
      rw [ofF32_mild hm, add_nat]
    obtain ⟨h1, h2, h3, h4⟩ := addN_ok A.ftz hs (mild_parts hm)
    obtain ⟨s', e', p1, p2, p3⟩ := ih _ (fun x hx => hd x (List.mem_cons_of_mem _ hx)) h1
    refine ⟨s', by rw [List.foldl_cons, e, e'], p1, h2.trans p2, ?_⟩
    rw [p3]
    rcases mild_units hm with ⟨z1, z2⟩ | ⟨z1, z2, z3⟩
    · rw [h3 z2]
      simp [z1]
    · have := h4 z2
      have hp := Nat.two_pow_pos 925
      constructor
      · rintro ⟨h, -⟩; omega
      · rintro ⟨-, h⟩
        exact absurd (h d (List.mem_cons_self ..)) z1

theorem find_ok (A : KmArith) (δ : Nat) : ∀ (ds : List F32) (i pre tmp s' : Nat), (∀ d ∈ ds, Mild A.ftz d) → Partial pre → pre ≤ δ →
    ds.foldl (kmF32 A).kpp.add (some (pre : Int)) = some (s' : Int) → δ < s' →
    ∃ k d, kppFind (kmF32 A).kpp (some (δ : Int)) ds i (some (pre : Int)) tmp = i + k ∧ ds[k]? = some d ∧ d ≠ F32.zero := by
  intro ds
  induction ds with
  | nil =>
    intro i pre tmp s' _ _ h1 h2 h3
    rw [List.foldl_nil] at h2
    have := Option.some.inj h2
    omega
  | cons d ds ih =>
    intro i pre tmp s' hd hp h1 h2 h3
    have hm := hd d (List.mem_cons_self ..)
    have e : (kmF32 A).kpp.add (some (pre : Int)) d = some (addN A.ftz pre (d.units.natAbs * 2 ^ 925) : Int) := by
      show D64.add A.ftz (some (pre : Int)) (D64.ofF32 A.ftz d) = _
      rw [ofF32_mild hm, add_nat]
    obtain ⟨p1, p2, p3, -⟩ := addN_ok A.ftz hp (mild_parts hm)
    have ehit : (kmF32 A).kpp.hit (some (δ : Int)) (some (pre : Int)) d = decide (δ < addN A.ftz pre (d.units.natAbs * 2 ^ 925)) := by
      show ((_ != none && _ != none && !D64.lt (some (δ : Int)) (some (pre : Int))) && D64.lt (some (δ : Int)) ((kmF32 A).kpp.add (some (pre : Int)) d)) = _
      rw [e]
      unfold D64.lt
      dsimp only
      rw [decide_eq_false (by omega : ¬ ((δ : Int) < pre))]
      simp
    unfold kppFind
    rw [ehit]
    by_cases hh : δ < addN A.ftz pre (d.units.natAbs * 2 ^ 925)
    · rw [if_pos (decide_eq_true hh)]
      refine ⟨0, d, rfl, rfl, ?_⟩
      intro h0
      rcases mild_units hm with ⟨-, z⟩ | ⟨z, -⟩
      · rw [p3 z] at hh
        omega
      · exact z h0
    · rw [if_neg (by simpa using hh), e]
      rw [List.foldl_cons, e] at h2
      obtain ⟨k, d', g1, g2, g3⟩ := ih (i + 1) _ i s' (fun x hx => hd x (List.mem_cons_of_mem _ hx)) p1 (by omega) h2 h3
      exact ⟨k + 1, d', by rw [g1]; omega, by simpa using g2, g3⟩

/-- A random number of `uniform_real_distribution` between 0 and 1: at most 1 - 2^-53. -/
def DartOk (t : D64) : Prop := ∃ τ : Nat, t = some (τ : Int) ∧ τ + 2 ^ 1021 ≤ 2 ^ 1074

theorem scale_less (A : KmArith) {t : D64} (ht : DartOk t) {s : Nat} (hs : Partial s) (h0 : s ≠ 0) :
    ∃ δ : Nat, (kmF32 A).kpp.scale t (some (s : Int)) = some (δ : Int) ∧ δ < s := by
  obtain ⟨τ, rfl, hτ⟩ := ht
  rcases hs with h | ⟨h1, h2⟩
  · exact absurd h h0
  · refine ⟨if A.ftz && decide (D64.mag (τ * s) (2 ^ 1074) < 4503599627370496) then 0 else D64.mag (τ * s) (2 ^ 1074), ?_, ?_⟩
    · show some (D64.round A.ftz ((τ : Int) * (s : Int)) (2 ^ 1074)) = _
      rw [← Nat.cast_mul, round_nat]
    · have h3 : 2 ^ 60 ≤ s := le_trans (Nat.pow_le_pow_right (by decide) (by decide)) h2
      have := mag_less h1 h3 hτ
      split
      · omega
      · exact this

theorem min_mild {ftz : Bool} {a b : F32} (ha : Mild ftz a) (hb : Mild ftz b) :
    ((if b.lt a then b else a) = a ∨ (if b.lt a then b else a) = b) ∧ ((if b.lt a then b else a) = F32.zero ↔ a = F32.zero ∨ b = F32.zero) := by
  have hv : ∀ {x : F32}, Mild ftz x → 0 ≤ value x := by
    intro x hx
    rw [value_units]
    have : (0 : ℚ) ≤ x.units := by exact_mod_cast units_nonneg hx.2.1
    positivity
  have hz : ∀ {x : F32}, Mild ftz x → value x = 0 → x = F32.zero := by
    intro x hx h0
    rw [value_units] at h0
    rcases mul_eq_zero.1 h0 with h | h
    · exact (units_zero hx.2.1).1 (by exact_mod_cast h)
    · exact absurd h (by positivity)
  have h0 : value F32.zero = 0 := value_zero'
  refine ⟨by split <;> simp, ?_⟩
  by_cases hlt : b.lt a = true
  · rw [if_pos hlt]
    rw [lt_iff_value hb.1 ha.1] at hlt
    constructor
    · exact Or.inr
    · rintro (h | h)
      · rw [h, h0] at hlt
        have := hv hb
        linarith
      · exact h
  · rw [if_neg hlt]
    rw [lt_iff_value hb.1 ha.1, not_lt] at hlt
    constructor
    · exact Or.inl
    · rintro (h | h)
      · exact h
      · rw [h, h0] at hlt
        exact hz ha (le_antisymm hlt (hv ha))

/-- **C99 (k-means++).** The laws that make the loop end hold, if the distances are finite and the sum of all of them is that of the prefix sums. -/
theorem kpp_laws (A : KmArith) (S : List F32 → Prop) (Q : F32 → Prop)
    (hd : ∀ x y, S x → S y → Mild A.ftz (l2Cmp A.ftz (A.sum x y) x y) ∧ Q (l2Cmp A.ftz (A.sum x y) x y))
    (hself : ∀ x, S x → l2Cmp A.ftz (A.sum x x) x x = F32.zero)
    (hsum : ∀ ds, ds.length ≤ 8388608 → (∀ d ∈ ds, Mild A.ftz d ∧ Q d) → D64.sumTree A.ftz ds (A.total ds.length) = ds.foldl (kmF32 A).kpp.add (some 0)) :
    EndLaws (kmF32 A).kpp S (fun d => Mild A.ftz d ∧ Q d) (fun d => d = F32.zero) DartOk where
  dist x y hx hy := hd x y hx hy
  self x hx := hself x hx
  minG a b ha hb := by
    rcases (min_mild ha.1 hb.1).1 with h | h
    · show Mild A.ftz (if b.lt a then b else a) ∧ Q (if b.lt a then b else a)
      rw [h]; exact ha
    · show Mild A.ftz (if b.lt a then b else a) ∧ Q (if b.lt a then b else a)
      rw [h]; exact hb
  minZ a b ha hb := (min_mild ha.1 hb.1).2
  find t ds hl ht hds := by
    have hm : ∀ d ∈ ds, Mild A.ftz d := fun d h => (hds d h).1
    obtain ⟨s, e, p1, -, p3⟩ := fold_ok A ds 0 hm (Or.inl rfl)
    have et : (kmF32 A).kpp.total ds = some (s : Int) := (hsum ds hl hds).trans e
    have ez : (kmF32 A).kpp.isZero (some (s : Int)) = decide (s = 0) := by
      show ((some (s : Int) : D64) == some 0) = _
      by_cases h : s = 0
      · subst h; rfl
      · rw [decide_eq_false h]
        rw [beq_eq_false_iff_ne]
        intro h'
        exact h (by exact_mod_cast Option.some.inj h')
    rw [et, ez]
    by_cases h0 : s = 0
    · left
      exact ⟨decide_eq_true h0, (p3.1 h0).2⟩
    · right
      refine ⟨decide_eq_false h0, fun tmp => ?_⟩
      obtain ⟨δ, e1, hlt⟩ := scale_less A ht p1 h0
      rw [e1]
      obtain ⟨k, d, g1, g2, g3⟩ := find_ok A δ ds 0 0 tmp s hm (Or.inl rfl) (Nat.zero_le _) e hlt
      exact ⟨k, d, by rw [Nat.zero_add] at g1; exact g1, g2, g3⟩

/-! ## Distances -/

theorem dist_mild {A : KmArith} {h o dim k : Nat} (hh : h + 1 ≤ 2 ^ 20) (ho : o ≤ 2 ^ 90) (hsz : dim * 2 ^ (2 * k + 1) ≤ 2 ^ 120)
    {x y : List F32} (hO : Order h o dim (A.sum x y)) (hx : Sized dim k x) (hy : Sized dim k y) : Mild A.ftz (l2Cmp A.ftz (A.sum x y) x y) := by
  have fx : ∀ z ∈ x, Spec.Finite z := fun z hz => (hx.2 z hz).1
  have fy : ∀ z ∈ y, Spec.Finite z := fun z hz => (hy.2 z hz).1
  have hok : L2Ok A.ftz (A.sum x y) dim (x.map (F32.daz A.ftz)) (y.map (F32.daz A.ftz)) := by
    refine ⟨hO.1, by rw [List.length_map, hx.1], by rw [List.length_map, hy.1], map_daz_plain _ fx, map_daz_plain _ fy, ?_, ?_, ?_⟩
    · have h2 := hO.2.1
      norm_num at hh ⊢
      omega
    · exact hO.2.2.trans (ho.trans (by norm_num))
    · refine (sqDist_norms (by rw [List.length_map, List.length_map, hx.1, hy.1])).trans ?_
      have n1 := (norm_daz A.ftz x).trans (sized_norm hx)
      have n2 := (norm_daz A.ftz y).trans (sized_norm hy)
      have h3 : (dim : ℚ) * 2 ^ (2 * k + 1) ≤ 2 ^ 120 := by exact_mod_cast hsz
      rw [pow_succ] at h3
      have h4 : (2 : ℚ) * 2 ^ 120 ≤ 2 ^ 125 := by norm_num
      linarith
  obtain ⟨r, e, fr, -, -⟩ := C93_l2_close A.ftz hok
  rw [l2_daz A.ftz _ fx fy] at e
  obtain ⟨r', e', hc⟩ := eval_clean A.ftz (l2Factor A.ftz (x.map (F32.daz A.ftz)) (y.map (F32.daz A.ftz))) (A.sum x y) (fun i hi => by
    have hin := List.mem_range.1 (hO.1.mem_iff.1 hi)
    exact l2Factor_ok A.ftz (fun z hz => (map_daz_plain _ fx z hz).1) (fun z hz => (map_daz_plain _ fy z hz).1) (by rw [List.length_map, hx.1]; exact hin)
      (by rw [List.length_map, hy.1]; exact hin))
  have e1 : l2F32 A.ftz (A.sum x y) x y = .ok r' := e'
  rw [e] at e1
  cases e1
  unfold l2Cmp
  rw [e]
  exact ⟨fr, hc⟩

theorem dist_self {A : KmArith} {h o dim k : Nat} {x : List F32} (hO : Order h o dim (A.sum x x)) (hx : Sized dim k x) :
    l2Cmp A.ftz (A.sum x x) x x = F32.zero := by
  have fx : ∀ z ∈ x, Spec.Finite z := fun z hz => (hx.2 z hz).1
  have := C93_l2_self A.ftz hO.1 (a := x.map (F32.daz A.ftz)) (by rw [List.length_map, hx.1]) (map_daz_plain _ fx)
  rw [l2_daz A.ftz _ fx fx] at this
  unfold l2Cmp
  rw [this]

/-! ## The sum of all distances -/

theorem sumTree_serial (A : KmArith) (ds : List F32) : ∀ n, n ≤ ds.length →
    D64.sumTree A.ftz ds (serial n) = (ds.take n).foldl (kmF32 A).kpp.add (some 0) := by
  intro n
  induction n with
  | zero => intro _; rfl
  | succ n ih =>
    intro hn
    show D64.add A.ftz (D64.sumTree A.ftz ds (serial n)) (D64.ofF32 A.ftz (ds.getD n F32.zero)) = _
    rw [ih (by omega), List.take_add_one, List.getElem?_eq_getElem (by omega), Option.toList_some, List.foldl_append, List.getD_eq_getElem?_getD,
      List.getElem?_eq_getElem (by omega), Option.getD_some]
    rfl

/-- A whole number up to 2^24. -/
def Whole (x : F32) : Prop := ∃ n : Nat, n ≤ 16777216 ∧ value x = n

theorem whole_units {x : F32} {n : Nat} (h : value x = n) : x.units = (n : Int) * 2 ^ 149 := by
  rw [value_units] at h
  have h2 : (2 : ℚ) ^ (-149 : Int) = ((2 : ℚ) ^ 149)⁻¹ := by rw [zpow_neg]; norm_cast
  rw [h2, ← div_eq_mul_inv, div_eq_iff (by positivity)] at h
  exact_mod_cast h

theorem addN_whole (ftz : Bool) (K : Nat) (hK : 52 ≤ K) {a b : Nat} (hab : a + b < 9007199254740992) :
    addN ftz (a * 2 ^ K) (b * 2 ^ K) = (a + b) * 2 ^ K := by
  unfold addN
  rw [← Nat.add_mul, mag_self ⟨a + b, K, hab, rfl⟩]
  by_cases h0 : a + b = 0
  · rw [h0, Nat.zero_mul]
    split <;> rfl
  · have h1 : 4503599627370496 ≤ 2 ^ K :=
      calc 4503599627370496 = 2 ^ 52 := by norm_num
        _ ≤ 2 ^ K := Nat.pow_le_pow_right (by decide) hK
    have h2 : 2 ^ K ≤ (a + b) * 2 ^ K := Nat.le_mul_of_pos_left _ (by omega)
    rw [decide_eq_false (by omega), Bool.and_false, if_neg Bool.false_ne_true]

theorem whole_abs (n j k : Nat) : ((n : Int) * 2 ^ j).natAbs * 2 ^ k = n * 2 ^ (j + k) := by
  rw [Int.natAbs_mul, Int.natAbs_natCast, Int.natAbs_pow, pow_add, ← Nat.mul_assoc]
  rfl

/-- Whole numbers are added exactly in any order. -/
theorem sumTree_whole (ftz : Bool) (ds : List F32) (w : Nat → Nat) : ∀ T : SumTree,
    (∀ i ∈ T.leaves, Mild ftz (ds.getD i F32.zero) ∧ value (ds.getD i F32.zero) = w i) → (T.leaves.map w).sum < 9007199254740992 →
    D64.sumTree ftz ds T = some (((T.leaves.map w).sum * 2 ^ 1074 : Nat) : Int) := by
  have hadd : ∀ a b : Nat, a + b < 9007199254740992 → D64.add ftz (some ((a * 2 ^ 1074 : Nat) : Int)) (some ((b * 2 ^ 1074 : Nat) : Int)) =
      some (((a + b) * 2 ^ 1074 : Nat) : Int) := fun a b hab => by rw [add_nat, addN_whole ftz 1074 (by decide) hab]
  have hof : ∀ (x : F32) (n : Nat), Mild ftz x → value x = n → D64.ofF32 ftz x = some ((n * 2 ^ 1074 : Nat) : Int) := by
    intro x n hm hv
    rw [ofF32_mild hm, whole_units hv, whole_abs n 149 925]
  intro T
  induction T with
  | init =>
    intro _ _
    rw [show (SumTree.init.leaves.map w).sum = 0 from rfl, Nat.zero_mul]
    rfl
  | term i =>
    intro h _
    obtain ⟨h1, h2⟩ := h i (by simp [SumTree.leaves])
    show D64.ofF32 ftz (ds.getD i F32.zero) = _
    rw [hof _ _ h1 h2]
    simp [SumTree.leaves]
  | add l r ihl ihr =>
    intro h hs
    simp only [SumTree.leaves, List.map_append, List.sum_append] at hs ⊢
    show D64.add ftz (D64.sumTree ftz ds l) (D64.sumTree ftz ds r) = _
    rw [ihl (fun i hi => h i (by simp [SumTree.leaves, hi])) (by omega), ihr (fun i hi => h i (by simp [SumTree.leaves, hi])) (by omega), hadd _ _ hs]
  | fma i t ih =>
    intro h hs
    simp only [SumTree.leaves, List.map_cons, List.sum_cons] at hs ⊢
    obtain ⟨h1, h2⟩ := h i (by simp [SumTree.leaves])
    show D64.add ftz (D64.sumTree ftz ds t) (D64.ofF32 ftz (ds.getD i F32.zero)) = _
    rw [ih (fun i hi => h i (by simp [SumTree.leaves, hi])) (by omega), hof _ _ h1 h2, hadd _ _ (by omega), Nat.add_comm]

theorem sumTree_any (A : KmArith) {ds : List F32} (hl : ds.length ≤ 8388608) (hd : ∀ d ∈ ds, Mild A.ftz d ∧ Whole d) {T : SumTree} (hT : T.Sums ds.length) :
    D64.sumTree A.ftz ds T = ds.foldl (kmF32 A).kpp.add (some 0) := by
  have hex : ∃ w : Nat → Nat, ∀ i, i < ds.length → value (ds.getD i F32.zero) = w i ∧ w i ≤ 16777216 := by
    refine ⟨fun i => if hi : i < ds.length then (hd _ (List.getElem_mem hi)).2.choose else 0, fun i hi => ?_⟩
    dsimp only
    rw [dif_pos hi, List.getD_eq_getElem?_getD, List.getElem?_eq_getElem hi, Option.getD_some]
    have := (hd _ (List.getElem_mem hi)).2.choose_spec
    exact ⟨this.2, this.1⟩
  obtain ⟨w, hw⟩ := hex
  have hmem : ∀ i, i < ds.length → Mild A.ftz (ds.getD i F32.zero) := by
    intro i hi
    rw [List.getD_eq_getElem?_getD, List.getElem?_eq_getElem hi, Option.getD_some]
    exact (hd _ (List.getElem_mem hi)).1
  have hbound : ((List.range ds.length).map w).sum < 9007199254740992 := by
    have h1 := List.sum_le_card_nsmul ((List.range ds.length).map w) 16777216 (by
      intro x hx
      obtain ⟨i, hi, rfl⟩ := List.mem_map.1 hx
      exact (hw i (List.mem_range.1 hi)).2)
    simp only [List.length_map, List.length_range, nsmul_eq_mul, Nat.cast_id] at h1
    omega
  have key : ∀ U : SumTree, U.Sums ds.length → D64.sumTree A.ftz ds U = some ((((List.range ds.length).map w).sum * 2 ^ 1074 : Nat) : Int) := by
    intro U hU
    have hp : (U.leaves.map w).sum = ((List.range ds.length).map w).sum := (hU.map _).sum_eq
    rw [← hp] at hbound ⊢
    exact sumTree_whole A.ftz ds w U (fun i hi => by
      have hin := List.mem_range.1 (hU.mem_iff.1 hi)
      exact ⟨hmem i hin, (hw i hin).1⟩) hbound
  rw [key T hT, ← key (serial ds.length) (serial_sums _), sumTree_serial A ds ds.length (le_refl _), List.take_length]

/-! ## Vectors of bytes -/

/-- The values are integers from `lo` to `lo` + 255. -/
def ByteVec (lo : Int) (x : List F32) : Prop := ∃ a : List Int, IntVec x a ∧ ∀ c ∈ a, lo ≤ c ∧ c ≤ lo + 255

theorem byte_whole {A : KmArith} {dim : Nat} (hd : dim ≤ 258) {lo : Int} (hlo : -128 ≤ lo ∧ lo ≤ 0) {x y : List F32} (hT : (A.sum x y).Sums dim)
    (lx : x.length = dim) (ly : y.length = dim) (hx : ByteVec lo x) (hy : ByteVec lo y) : Whole (l2Cmp A.ftz (A.sum x y) x y) := by
  obtain ⟨a, ha, ba⟩ := hx
  obtain ⟨b, hb, bb⟩ := hy
  have la : a.length = dim := by rw [← ha.length_eq, lx]
  have lb : b.length = dim := by rw [← hb.length_eq, ly]
  have hsq : sqInt a b ≤ 65025 * dim := by
    unfold sqInt
    have h1 := List.sum_le_card_nsmul (List.zipWith (fun x y => (x - y) * (x - y)) a b) 65025 (by
      intro z hz
      obtain ⟨i, hi, rfl⟩ := List.getElem_of_mem hz
      rw [List.getElem_zipWith]
      rw [List.length_zipWith] at hi
      have h1 := ba _ (List.getElem_mem (by omega : i < a.length))
      have h2 := bb _ (List.getElem_mem (by omega : i < b.length))
      have h3 : |a[i]'(by omega) - b[i]'(by omega)| ≤ 255 := abs_le.2 ⟨by omega, by omega⟩
      rw [← abs_mul_abs_self]
      exact (mul_self_le_mul_self (abs_nonneg _) h3).trans (by norm_num))
    rw [List.length_zipWith, la, lb, Nat.min_self, nsmul_eq_mul] at h1
    linarith
  obtain ⟨r, e, hr⟩ := l2_int A.ftz ha hb (by rw [la]; exact hT) (by rw [la, lb]) (by
    intro c hc
    rcases List.mem_append.1 hc with h | h
    · have := ba c h
      exact abs_le.2 ⟨by omega, by omega⟩
    · have := bb c h
      exact abs_le.2 ⟨by omega, by omega⟩) (by omega)
  have h0 := sqInt_nonneg a b
  refine ⟨(sqInt a b).toNat, by omega, ?_⟩
  unfold l2Cmp
  rw [e]
  dsimp only
  rw [hr.2]
  have : ((sqInt a b).toNat : Int) = sqInt a b := Int.toNat_of_nonneg h0
  exact_mod_cast this.symm

/-! ## The end of k-means++ -/

/-- What makes k-means++ end for `num` centres: random numbers below 1, and the sum of all distances added up in the order of the loop, or in any order if the vectors are
bytes in at most 258 dimensions. -/
structure KppEnds (A : KmArith) (h o dim k : Nat) (R : KmRun D64) (data : List (List F32)) (num : Nat) : Prop where
  dart : ∀ t, DartOk (R.dart t)
  fuel : num ≤ R.fuel
  sum : ∀ x y, Sized dim k x → Sized dim k y → Order h o dim (A.sum x y)
  total : A.total = serial ∨ ((∀ n, (A.total n).Sums n) ∧ dim ≤ 258 ∧ ∃ lo, -128 ≤ lo ∧ lo ≤ 0 ∧ ∀ x ∈ data, ByteVec lo x)

/-- **C99 (k-means++).** In the arithmetic of the program k-means++ ends after `num` - 1 rounds for every outcome of the random numbers, if it is as above: every centre is a data
point, and a point is chosen twice only if every data point is at a computed distance of 0 from a centre. -/
theorem C99_kpp {A : KmArith} {h o dim k : Nat} (H : A.OK h o dim k) {R : KmRun D64} {data : List (List F32)} {num : Nat} (E : KppEnds A h o dim k R data num)
    (hn : data.length ≤ 8388608) (hd : ∀ x ∈ data, Sized dim k x) (hnum : 1 ≤ num) (hinit : R.init < data.length) (centers : List (List F32))
    (hl : num ≤ centers.length) :
    ∃ (cs : List (List F32)) (picked : List Nat), kppCenters (kmF32 A).kpp data num R.init R.junk R.draw R.dart R.fuel centers = .ok cs ∧ picked.length = num ∧
      (∀ p ∈ picked, p < data.length) ∧ (∀ (j p : Nat), picked[j]? = some p → cs[j]? = data[p]?) ∧
      (picked.Nodup ∨ ∀ x ∈ data, ∃ q ∈ picked, ∃ y, data[q]? = some y ∧ l2Cmp A.ftz (A.sum x y) x y = F32.zero) := by
  have hm : ∀ x y, Sized dim k x → Sized dim k y → Mild A.ftz (l2Cmp A.ftz (A.sum x y) x y) :=
    fun x y hx hy => dist_mild H.small.1 H.small.2.2 H.size (E.sum x y hx hy) hx hy
  rcases E.total with ht | ⟨ht, hdim, lo, hlo1, hlo2, hb⟩
  · exact C58_kpp_ends (kpp_laws A (Sized dim k) (fun _ => True) (fun x y hx hy => ⟨hm x y hx hy, trivial⟩)
      (fun x hx => dist_self (E.sum x x hx hx) hx) (fun ds _ _ => by
        rw [ht, sumTree_serial A ds ds.length (le_refl _), List.take_length])) data hd hn num hnum R.init R.junk hinit R.draw R.dart E.dart R.fuel E.fuel centers hl
  · exact C58_kpp_ends (kpp_laws A (fun x => Sized dim k x ∧ ByteVec lo x) Whole
      (fun x y hx hy => ⟨hm x y hx.1 hy.1, byte_whole hdim ⟨hlo1, hlo2⟩ (E.sum x y hx.1 hy.1).1 hx.1.1 hy.1.1 hx.2 hy.2⟩)
      (fun x hx => dist_self (E.sum x x hx.1 hx.1) hx.1) (fun ds hl hds => sumTree_any A hl hds (ht _))) data (fun x hx => ⟨hd x hx, hb x hx⟩) hn num hnum
      R.init R.junk hinit R.draw R.dart E.dart R.fuel E.fuel centers hl

/-- **C99 (k-means ends).** So k-means does not throw darts for ever. -/
theorem C99_ends {A : KmArith} {h o dim k : Nat} (H : A.OK h o dim k) {R : KmRun D64} {data mem : List (List F32)} (E : KppEnds A h o dim k R data mem.length)
    (hR : R.OK) (maxReps : Nat) (hn : 1 ≤ data.length) (hmax : data.length ≤ 8388608) (hd : ∀ x ∈ data, Sized dim k x) (hnc : 1 ≤ mem.length) (hinit : R.init < data.length) :
    kmeansF (kmF32 A) R dim maxReps data mem ≠ .error .loop := by
  obtain ⟨cs, picked, e, h1, h2, h3, -⟩ := C99_kpp H E hmax hd hnc hinit mem (le_refl _)
  rcases C58_kpp_partial (kmF32 A).kpp data hn hmax mem.length hnc R.init R.junk hinit R.draw R.dart R.fuel mem (le_refl _) with g | ⟨cs', e', hl, hcs⟩
  · rw [e] at g; cases g
  · rw [e] at e'
    cases e'
    have hmem : ∀ c ∈ cs, c ∈ data := by
      intro c hc
      obtain ⟨j, hj, rfl⟩ := List.getElem_of_mem hc
      obtain ⟨x, hx, e⟩ := hcs j (by omega)
      rw [List.getElem?_eq_getElem hj] at e
      rw [Option.some.inj e]; exact hx
    obtain ⟨last, e2, -⟩ := lloydsLoopF_ok hR (C98_tame H) hn hmax (fun x hx => ⟨hd x hx, (hd x hx).1⟩) maxReps 0 F32.fmax cs
      (List.replicate data.length 0) (by omega) (fun c hc => ⟨hd c (hmem c hc), (hd c (hmem c hc)).1⟩) (by simp)
    unfold kmeansF
    rw [e, Res.ok_bind, e2]
    exact fun h => by cases h

/-- **C98 (k-means).** In the arithmetic of the program, with points of finite values of limited size and any order of the additions in a matrix product and of the
threads, k-means goes from data points through steps of Lloyd's algorithm up to errors of rounding, and all centres have values of the same size as the points.  It may throw
darts for ever only without the conditions of `KppEnds`.  Missing: that the steps are exact (refuted by C98_wrong). -/
theorem C98_kmeans_partial {A : KmArith} {h o dim k : Nat} (H : A.OK h o dim k) {R : KmRun D64} (hR : R.OK) (maxReps : Nat)
    {data mem : List (List F32)} (hn : 1 ≤ data.length) (hmax : data.length ≤ 8388608)
    (hd : ∀ x ∈ data, Sized dim k x) (hnc : 1 ≤ mem.length) (hinit : R.init < data.length) :
    (kmeansF (kmF32 A) R dim maxReps data mem = .error .loop ∧ ¬ KppEnds A h o dim k R data mem.length) ∨
    ∃ first last, kmeansF (kmF32 A) R dim maxReps data mem = .ok last ∧ first.length = mem.length ∧ (∀ c ∈ first, c ∈ data) ∧
      ApproxRun (2 * kmErr h dim k) (2 ^ k * 2 ^ (-23 : Int)) dim maxReps data first last ∧ last.length = mem.length ∧ ∀ c ∈ last, Sized dim k c := by
  rcases C84_kmeans hR (C98_tame H) maxReps hn hmax (fun x hx => ⟨hd x hx, (hd x hx).1⟩) hnc hinit with h | ⟨first, last, e, h1, h2, h3, h4, h5⟩
  · exact Or.inl ⟨h, fun E => C99_ends H E hR maxReps hn hmax hd hnc hinit h⟩
  · exact Or.inr ⟨first, last, e, h1, h2, (run_approx H hd hmax h2 h3).1, h4, fun c hc => (h5 c hc).1⟩

/-! ## Files of bytes -/

theorem conv_bytes {e : Elem} (he : e.IsByte) : ∃ lo, -128 ≤ lo ∧ lo ≤ 0 ∧ ∀ b, ByteVec lo (convF32 e b) := by
  have key : ∀ lo : Int, (∀ b d, lo ≤ byteCoord e b d ∧ byteCoord e b d ≤ lo + 255) → ∀ b, ByteVec lo (convF32 e b) := by
    intro lo h b
    refine ⟨byteCoords e (b.length / e.size) b, values_int he _ b, fun c hc => ?_⟩
    obtain ⟨d, -, rfl⟩ := List.mem_map.1 hc
    exact h b d
  rcases he with rfl | rfl
  · refine ⟨-128, by decide, by decide, key _ (fun b d => ?_)⟩
    have := byte_lt (b.getD d 0)
    unfold byteCoord
    simp only
    split <;> omega
  · refine ⟨0, by decide, by decide, key _ (fun b d => ?_)⟩
    have := byte_lt (b.getD d 0)
    unfold byteCoord
    simp only
    omega

theorem coords_bytes {lo : Int} {x : List F32} (h : ByteVec lo x) (i j : Nat) : ByteVec lo (Spec.coords i j x) := by
  obtain ⟨a, h1, h2⟩ := h
  refine ⟨(a.take j).drop i, ?_, fun c hc => h2 c (List.mem_of_mem_take (List.mem_of_mem_drop hc))⟩
  exact List.forall₂_drop i (List.forall₂_take j h1)

/-- **C99 (files of bytes).** The conditions hold for vectors from a file of bytes, or parts of them, in at most 258 dimensions, for any order of the additions. -/
theorem C99_bytes {A : KmArith} {h o dim k : Nat} {R : KmRun D64} {num : Nat} (hdart : ∀ t, DartOk (R.dart t)) (hfuel : num ≤ R.fuel)
    (hsum : ∀ x y, Sized dim k x → Sized dim k y → Order h o dim (A.sum x y)) (htot : ∀ n, (A.total n).Sums n) (hdim : dim ≤ 258)
    {e : Elem} (he : e.IsByte) (data : List (List F32)) (hd : ∀ x ∈ data, ∃ b i j, x = convF32 e b ∨ x = Spec.coords i j (convF32 e b)) :
    KppEnds A h o dim k R data num := by
  obtain ⟨lo, l1, l2, hb⟩ := conv_bytes he
  refine ⟨hdart, hfuel, hsum, Or.inr ⟨htot, hdim, lo, l1, l2, fun x hx => ?_⟩⟩
  obtain ⟨b, i, j, rfl | rfl⟩ := hd x hx
  · exact hb b
  · exact coords_bytes (hb b) i j

/-! ## Another order -/

/-- 2^-27, and the number 1 - 2^-53. -/
def exTiny : F32 := ⟨0x32000000#32⟩
@[inherit_doc exTiny]
def exDart : D64 := some (2 ^ 1074 - 2 ^ 1021)

/-- The first of six numbers last. -/
def exOrder (n : Nat) : SumTree :=
  if n = 6 then .add (.add (.add (.add (.add .init (.term 1)) (.term 2)) (.add (.term 3) (.term 4))) (.term 5)) (.term 0) else serial n

/-- Points at squared distances 1, four times 2^-54, and 0 from the last one. -/
def exSixPts : List (List F32) := [[F32.one], [exTiny], [exTiny], [exTiny], [exTiny], [F32.zero]]

theorem kppFind_congr {V E D : Type} {O O' : KppOps V E D} (h1 : O.hit = O'.hit) (h2 : O.add = O'.add) (dart : D) : ∀ (ds : List E), ds ≠ [] → ∀ (i : Nat) (pre : D) (t t' : Nat),
    kppFind O dart ds i pre t = kppFind O' dart ds i pre t'
  | [], h, _, _, _, _ => absurd rfl h
  | [d], _, i, pre, t, t' => by
    unfold kppFind
    rw [h1, h2]
    rfl
  | d :: d' :: ds, _, i, pre, t, t' => by
    unfold kppFind
    rw [h1, h2, kppFind_congr h1 h2 dart (d' :: ds) (by simp) (i + 1) _ i i]

/-- What matters of the arithmetic for the search of a dart. -/
def exOnly (ftz : Bool) : KmArith := ⟨ftz, fun _ => F32.zero, fun _ _ => .init, fun _ _ => .init, fun _ => .init, false⟩

/-- **C99 (fails for other orders).** If the sum of all distances is taken in another order than the loop that looks for the dart takes it, the dart may be beyond all points: of six points
the last one has been picked, and as long as the random number is the largest one below 1, k-means++ looks at the last one again and picks none. -/
theorem C99_order_wrong (A : KmArith) (hs : A.sum = fun _ _ => .fma 0 .init) (ht : A.total = exOrder) (num : Nat) (hnum : 2 ≤ num) (junk : Nat) (draw : Nat → Nat) (dart : Nat → D64)
    (hdart : ∀ t, dart t = exDart) (fuel : Nat) (centers : List (List F32)) (hl : num ≤ centers.length) :
    (∀ n, (A.total n).Sums n) ∧ DartOk exDart ∧ kppCenters (kmF32 A).kpp exSixPts num 5 junk draw dart fuel centers = .error .loop := by
  have hdist : exSixPts.map (fun x => (kmF32 A).kpp.dist x [F32.zero]) = [F32.one, ⟨0x24800000#32⟩, ⟨0x24800000#32⟩, ⟨0x24800000#32⟩, ⟨0x24800000#32⟩, F32.zero] := by
    show exSixPts.map (fun x => l2Cmp A.ftz (A.sum x [F32.zero]) x [F32.zero]) = _
    rw [hs]
    cases A.ftz <;> decide +kernel
  have htotal : (kmF32 A).kpp.total [F32.one, ⟨0x24800000#32⟩, ⟨0x24800000#32⟩, ⟨0x24800000#32⟩, ⟨0x24800000#32⟩, F32.zero] = some (2 ^ 1074 + 2 ^ 1022) := by
    show D64.sumTree A.ftz _ (A.total 6) = _
    rw [ht]
    cases A.ftz <;> decide +kernel
  have hfind : ∀ tmp, kppFind (kmF32 A).kpp ((kmF32 A).kpp.scale exDart (some (2 ^ 1074 + 2 ^ 1022)))
      [F32.one, ⟨0x24800000#32⟩, ⟨0x24800000#32⟩, ⟨0x24800000#32⟩, ⟨0x24800000#32⟩, F32.zero] 0 (kmF32 A).kpp.zero tmp = 5 := by
    intro tmp
    have h1 : kppFind (kmF32 A).kpp ((kmF32 A).kpp.scale exDart (some (2 ^ 1074 + 2 ^ 1022)))
      [F32.one, ⟨0x24800000#32⟩, ⟨0x24800000#32⟩, ⟨0x24800000#32⟩, ⟨0x24800000#32⟩, F32.zero] 0 (kmF32 A).kpp.zero tmp =
      kppFind (kmF32 (exOnly A.ftz)).kpp ((kmF32 (exOnly A.ftz)).kpp.scale exDart (some (2 ^ 1074 + 2 ^ 1022)))
      [F32.one, ⟨0x24800000#32⟩, ⟨0x24800000#32⟩, ⟨0x24800000#32⟩, ⟨0x24800000#32⟩, F32.zero] 0 (some 0) 0 :=
      kppFind_congr (O := (kmF32 A).kpp) (O' := (kmF32 (exOnly A.ftz)).kpp) rfl rfl _ _ (by simp) _ _ _ _
    rw [h1]
    cases A.ftz <;> decide +kernel
  have hloop : ∀ (fuel t : Nat) (cs : List (List F32)) (tmp : Nat), kppLoop (kmF32 A).kpp exSixPts num dart fuel t
      ⟨[5], cs, [F32.one, ⟨0x24800000#32⟩, ⟨0x24800000#32⟩, ⟨0x24800000#32⟩, ⟨0x24800000#32⟩, F32.zero], false, tmp⟩ = .error .loop := by
    intro fuel
    induction fuel with
    | zero => intros; rfl
    | succ fuel ih =>
      intro t cs tmp
      unfold kppLoop
      rw [if_neg (by simp; omega)]
      dsimp only
      rw [htotal, hdart, hfind]
      have hz : (kmF32 A).kpp.isZero (some (2 ^ 1074 + 2 ^ 1022)) = false := by
        show ((some (2 ^ 1074 + 2 ^ 1022) : D64) == some 0) = false
        decide +kernel
      rw [hz, Bool.or_false, if_pos ⟨by simp, rfl⟩]
      exact ih _ _ _
  refine ⟨fun n => ?_, ⟨2 ^ 1074 - 2 ^ 1021, by decide +kernel, by decide +kernel⟩, ?_⟩
  · rw [ht]
    unfold exOrder
    split
    · rename_i h6
      subst h6
      show List.Perm _ _
      decide
    · exact serial_sums n
  · unfold kppCenters
    rw [if_neg (by decide)]
    have hw : wr centers 0 [F32.zero] = .ok (centers.set 0 [F32.zero]) := by
      unfold wr
      rw [if_pos (by omega)]
    show (rd exSixPts 5 >>= _) = _
    rw [show rd exSixPts 5 = .ok [F32.zero] from rfl, Res.ok_bind, hw, Res.ok_bind, hdist]
    exact hloop _ _ _ _

end Grann
