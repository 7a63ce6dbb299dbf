import Verif.Props.FloatStop
import Verif.Props.RelNG
import Verif.Props.Prune
/-!
# C100: pruning and RelativeNG in `float` arithmetic
-/

namespace Grann

open _root_.Grann.Spec _root_.Spec

theorem pack_key (s : Bool) {m : Nat} (hm : m ≤ 2139095040) : (F32.pack s m).key = some (if s then -(m : Int) else m) := by
  have hm' := pack_mag s (show m < 2147483648 by omega)
  have hb := pack_toNat s (show m < 2147483648 by omega)
  unfold F32.mag at hm'
  unfold F32.key
  dsimp only
  rw [hm', if_neg (by omega)]
  cases s
  · rw [if_pos (by rw [hb]; simpa using (show m < 2147483648 by omega))]; rfl
  · rw [if_neg (by rw [hb]; simp)]; rfl

theorem key_mag {x : F32} (h : x.mag ≤ 2139095040) : x.key = some (if x.sign then -(x.mag : Int) else x.mag) := by
  conv_lhs => rw [← pack_self x]
  exact pack_key _ h

theorem mag_of_num {x : F32} (h : x.IsNum) : x.mag ≤ 2139095040 := by
  by_contra hc
  refine h ?_
  unfold F32.mag at hc
  unfold F32.key
  dsimp only
  rw [if_pos (by omega)]

theorem sign_value {x : F32} (h : x.sign = false) : value x = Spec.magnitude x.mag := by
  rw [value_pack, h]; simp

/-- A quotient of two numbers that is not an exceptional case. -/
theorem div_regular (ftz : Bool) {x y : F32} (hx : Spec.Finite x) (hy : Spec.Finite y) (hy0 : y.mag ≠ 0) :
    F32.div ftz x y = F32.pack (x.sign != y.sign) (if ftz && decide (x.units.natAbs * 2 ^ 151 < 33554431 * y.units.natAbs) then 0 else
      min (nearestBits x.units.natAbs y.units.natAbs) 2139095040) := by
  unfold F32.div
  simp only [not_nan hx, not_nan hy, not_inf hx, not_inf hy, Bool.or_self, Bool.false_eq_true, if_false, if_neg hy0]

/-- When a quotient exceeds a number: the error is one part in 2^23. -/
theorem div_gt (ftz : Bool) {a b c : F32} (ha : Spec.Finite a) (hb : Spec.Finite b) (as : a.sign = false) (bs : b.sign = false) (hc : Spec.Finite c) (h1 : 1 ≤ value c) :
    (c.lt (F32.div ftz a b) = true → value c * value b < value a * (1 + 2 ^ (-23 : Int))) ∧
    (c.lt (F32.div ftz a b) = false → value a * (1 - 2 ^ (-23 : Int)) ≤ value c * value b) := by
  have va0 : 0 ≤ value a := by rw [sign_value as]; exact magnitude_nonneg _
  have cs : c.sign = false := by
    by_contra h
    have h : c.sign = true := by simpa using h
    rw [value_pack, h, if_pos rfl] at h1
    have := magnitude_nonneg c.mag
    linarith
  have cm := finite_mag.1 hc
  by_cases b0 : b.mag = 0
  · rw [magnitude_flushed b0, mul_zero]
    have e : F32.div ftz a b = if a.mag = 0 then F32.nan else F32.pack (a.sign != b.sign) 2139095040 := by
      unfold F32.div
      simp only [not_nan ha, not_nan hb, not_inf ha, not_inf hb, Bool.or_self, Bool.false_eq_true, if_false, if_pos b0]
    rw [e]
    by_cases a0 : a.mag = 0
    · rw [if_pos a0, magnitude_flushed a0, zero_mul, zero_mul]
      refine ⟨fun h => ?_, fun _ => le_refl _⟩
      have : c.lt F32.nan = false := by
        unfold F32.lt
        rw [show F32.nan.key = none by decide]
        cases c.key <;> rfl
      rw [this] at h; cases h
    · rw [if_neg a0, as, bs]
      have : c.lt (F32.pack (false != false) 2139095040) = true := by
        unfold F32.lt
        rw [pack_key _ (by omega), key_mag (by omega), cs]
        simp
        omega
      rw [this]
      refine ⟨fun _ => ?_, fun h => by cases h⟩
      have hp : 0 < value a := by
        rw [sign_value as, ← magnitude_zero]
        exact magnitude_strictMono (by omega)
      positivity
  · have hp : 0 < value b := by
      rw [sign_value bs, ← magnitude_zero]
      exact magnitude_strictMono (by omega)
    have hle := div_le ftz ha hb hp cs cm
    have hnum : (F32.div ftz a b).IsNum := by
      rw [div_regular ftz ha hb b0]
      unfold F32.IsNum
      rw [pack_key _ (by split <;> omega)]
      simp
    have hcn : c.IsNum := by unfold F32.IsNum; rw [key_mag (by omega)]; simp
    have hd : 0 < b.units.natAbs := by
      by_contra hh
      have : b.units = 0 := by omega
      rw [value_units, this] at hp
      simp at hp
    have hfv := fval_units va0 hp
    have hmc : Spec.magnitude c.mag = value c := (sign_value cs).symm
    have hq0 : 0 ≤ value a / value b := div_nonneg va0 hp.le
    constructor
    · intro h
      have hn : (F32.div ftz a b).le c = false := (F32.not_le_iff_lt hnum hcn).2 h
      have hn : ¬ ((F32.div ftz a b).le c = true) := by rw [hn]; simp
      rw [hle] at hn
      have h3 : c.mag < nearestBits a.units.natAbs b.units.natAbs := by
        by_contra hh
        exact hn (Or.inr (Or.inr (by omega)))
      have han : 0 < a.units.natAbs := by
        by_contra hh
        have : a.units.natAbs = 0 := by omega
        rw [this, show nearestBits 0 b.units.natAbs = 0 from if_pos rfl] at h3
        omega
      have he := (abs_le.1 (nearestBits_err2 han hd)).2
      rw [hfv] at he
      have h4 := magnitude_strictMono h3
      rw [hmc] at h4
      have hlt : value c < value a / value b * (1 + 2 ^ (-23 : Int)) := by
        generalize value a / value b = q at *
        unfold ulp24 at he
        have e23 : (2 : ℚ) ^ (-23 : Int) = 2 * 2 ^ (-24 : Int) := by norm_num
        have h5 : (2 : ℚ) ^ (-150 : Int) ≤ 1 / 4 * 2 ^ (-24 : Int) := by norm_num
        have h7 : (2 : ℚ) ^ (-24 : Int) ≤ 1 / 4 := by norm_num
        have h8 : (0 : ℚ) < 2 ^ (-24 : Int) := by positivity
        rw [e23]
        generalize (2 : ℚ) ^ (-24 : Int) = u at *
        generalize (2 : ℚ) ^ (-150 : Int) = w at *
        have hq : (1 : ℚ) / 2 ≤ q := by
          by_contra hh
          have hh := not_le.1 hh
          have := mul_le_mul_of_nonneg_left h7 hq0
          linarith
        have h6 : 1 / 2 * u ≤ q * u := mul_le_mul_of_nonneg_right hq h8.le
        linarith
      rw [div_mul_eq_mul_div, lt_div_iff₀ hp] at hlt
      exact hlt
    · intro h
      have hn := F32.le_of_not_lt hcn hnum h
      rw [hle] at hn
      have hkey : value a / value b * (1 - 2 ^ (-23 : Int)) ≤ value c := by
        have hsm : value a / value b ≤ 1 → value a / value b * (1 - 2 ^ (-23 : Int)) ≤ value c := by
          intro hh
          have : (1 - 2 ^ (-23 : Int) : ℚ) ≤ 1 := by norm_num
          have : (0 : ℚ) ≤ 1 - 2 ^ (-23 : Int) := by norm_num
          nlinarith
        rcases hn with hn | hn | hn
        · rw [as] at hn; cases hn
        · rw [Bool.and_eq_true, decide_eq_true_iff] at hn
          refine hsm ?_
          rw [← hfv]
          unfold fval
          rw [div_le_one (by exact_mod_cast hd)]
          have : a.units.natAbs ≤ b.units.natAbs := by
            by_contra hh
            have h2 := hn.2
            have : 33554431 * b.units.natAbs ≤ a.units.natAbs * 2 ^ 151 := by
              have : b.units.natAbs ≤ a.units.natAbs := by omega
              calc 33554431 * b.units.natAbs ≤ 2 ^ 151 * a.units.natAbs := Nat.mul_le_mul (by norm_num) this
                _ = _ := Nat.mul_comm _ _
            omega
          exact_mod_cast this
        · by_cases han : a.units.natAbs = 0
          · refine hsm ?_
            rw [← hfv, han]
            unfold fval
            simp
          · have he := (abs_le.1 (nearestBits_err2 (Nat.pos_of_ne_zero han) hd)).1
            rw [hfv] at he
            rw [← magnitude_strictMono.le_iff_le, hmc] at hn
            rcases le_total (value a / value b) 1 with hh | hh
            · exact hsm hh
            · generalize value a / value b = q at *
              unfold ulp24 at he
              have e23 : (2 : ℚ) ^ (-23 : Int) = 2 * 2 ^ (-24 : Int) := by norm_num
              have h5 : (2 : ℚ) ^ (-150 : Int) ≤ 1 * 2 ^ (-24 : Int) := by norm_num
              have h6 : 1 * (2 : ℚ) ^ (-24 : Int) ≤ q * 2 ^ (-24 : Int) := mul_le_mul_of_nonneg_right hh (by positivity)
              rw [e23]
              linarith
      rw [div_mul_eq_mul_div, div_le_iff₀ hp] at hkey
      exact hkey

/-- A quotient of numbers that are not negative exceeds 1 only if the dividend is larger. -/
theorem div_one (ftz : Bool) (a b : F32) (ha : F32.zero.le a = true) (hb : F32.zero.le b = true) (h : F32.one.lt (F32.div ftz a b) = true) : b.lt a = true := by
  have hna := F32.isNum_of_le_right ha
  have hnb := F32.isNum_of_le_right hb
  have ma := mag_of_num hna
  have mb := mag_of_num hnb
  have ka := key_mag ma
  have kb := key_mag mb
  have h1 : F32.one.key = some 1065353216 := by decide
  have h0 : F32.zero.key = some 0 := by decide
  by_contra hc
  have hc : b.lt a = false := by simpa using hc
  have hle := F32.le_of_not_lt hnb hna hc
  -- a ≤ b
  unfold F32.le at ha hb hle
  rw [h0, ka] at ha
  rw [h0, kb] at hb
  rw [ka, kb] at hle
  simp only [decide_eq_true_eq] at ha hb hle
  have zs : ∀ {x : F32}, (0 : Int) ≤ (if x.sign = true then -(x.mag : Int) else x.mag) → (if x.sign = true then -(x.mag : Int) else x.mag) = x.mag := by
    intro x hx
    split
    · rename_i hs; rw [if_pos hs] at hx; omega
    · rfl
  rw [zs ha, zs hb] at hle
  have hle : a.mag ≤ b.mag := by exact_mod_cast hle
  have notgt : ∀ (s : Bool) (m : Nat), m ≤ 1065353216 → F32.one.lt (F32.pack s m) = false := by
    intro s m hm
    unfold F32.lt
    rw [h1, pack_key _ (by omega)]
    cases s
    · simp; omega
    · simp
  have notnan : F32.one.lt F32.nan = false := by decide
  unfold F32.div at h
  dsimp only at h
  have nna : a.isNan = false := by unfold F32.isNan; rw [decide_eq_false_iff_not]; omega
  have nnb : b.isNan = false := by unfold F32.isNan; rw [decide_eq_false_iff_not]; omega
  rw [nna, nnb, Bool.or_self, if_neg (by simp)] at h
  by_cases ia : a.mag = 2139095040
  · have ib : b.mag = 2139095040 := by omega
    rw [if_pos (by unfold F32.isInf; simpa using ia), if_pos (by unfold F32.isInf; simpa using ib), notnan] at h
    cases h
  · rw [if_neg (by unfold F32.isInf; simpa using ia)] at h
    by_cases ib : b.mag = 2139095040
    · rw [if_pos (by unfold F32.isInf; simpa using ib), notgt _ _ (by omega)] at h
      cases h
    · rw [if_neg (by unfold F32.isInf; simpa using ib)] at h
      by_cases b0 : b.mag = 0
      · rw [if_pos b0, if_pos (by omega), notnan] at h
        cases h
      · rw [if_neg b0] at h
        have hnb1 : nearestBits a.units.natAbs b.units.natAbs ≤ 1065353216 := by
          have hmono := magnitude_strictMono.monotone hle
          have hdb : 0 < Spec.magnitude b.mag := by
            rw [← magnitude_zero]; exact magnitude_strictMono (by omega)
          have abs_units : ∀ x : F32, ((x.units.natAbs : Nat) : ℚ) * 2 ^ (-149 : Int) = Spec.magnitude x.mag := by
            intro x
            have e : |value x| = Spec.magnitude x.mag := abs_value x
            rw [← e, value_units, abs_mul, abs_of_pos (show (0 : ℚ) < 2 ^ (-149 : Int) by positivity)]
            congr 1
            rw [Nat.cast_natAbs, Int.cast_abs]
          have hp : (0 : ℚ) < 2 ^ (-149 : Int) := by positivity
          by_cases a0 : a.units.natAbs = 0
          · rw [a0, show nearestBits 0 b.units.natAbs = 0 from if_pos rfl]
            omega
          have hd : 0 < b.units.natAbs := by
            by_contra hh
            have : b.units.natAbs = 0 := by omega
            have := abs_units b
            rw [show b.units.natAbs = 0 by omega] at this
            simp at this
            linarith
          have hq : fval (a.units.natAbs, b.units.natAbs) ≤ 1 := by
            unfold fval
            rw [div_le_one (by exact_mod_cast hd)]
            rw [← abs_units, ← abs_units] at hmono
            exact le_of_mul_le_mul_right hmono hp
          have hn := (nearestBits_nearest (Nat.pos_of_ne_zero a0) hd F32.one).1
          have v1 : value F32.one = 1 := by norm_num [value, F32.one, magnitude]
          have m1 : Spec.magnitude 1065353216 = 1 := by norm_num [magnitude]
          rw [v1, abs_of_nonneg (show (0 : ℚ) ≤ 1 - fval (a.units.natAbs, b.units.natAbs) by linarith)] at hn
          have := (abs_le.1 hn).2
          rw [← magnitude_strictMono.le_iff_le, m1]
          linarith
        rw [notgt _ _ (by split <;> omega)] at h
        cases h

theorem l2Cmp_clean {ftz : Bool} {T : SumTree} {n : Nat} {a b : List F32} (h : L2Ok ftz T n a b) : Clean ftz (l2Cmp ftz T a b) := by
  obtain ⟨r, e, hr⟩ := eval_clean ftz (l2Factor ftz a b) T (fun i hi => by
    have hin := List.mem_range.1 (h.sums.mem_iff.1 hi)
    have hl := h.left
    have hr := h.right
    exact l2Factor_ok ftz (fun x hx => (h.leftPlain x hx).1) (fun x hx => (h.rightPlain x hx).1) (by omega) (by omega))
  rw [← l2F32_plain T h.leftPlain h.rightPlain] at e
  unfold l2Cmp
  rw [e]
  exact hr

/-- **C100 (pruning).** Pruning with computed distances and quotients is the greedy selection for a relation "occludes" that is right up to rounding: on a labelled index
only a point with all labels of another one occludes it; if it does, `alpha` times their exact distance, less its error, is below the exact distance of the occluded point to
the point being pruned, plus its error and one part in 2^23; if it does not, the reverse holds. -/
theorem C100_prune (ftz : Bool) (T : SumTree) {n : Nat} (sortF : List Nbr → List Nbr) (hsort : IsStdSort sortF) (e : PruneEnv (List F32)) (hcmp : e.ctx.cmp = l2Cmp ftz T)
    (hdiv : e.div = F32.div ftz) (alpha : F32) (hal : Spec.Finite alpha) (hal1 : 1 ≤ value alpha) (C R point : Nat) (p : List F32) (cands : List Nbr) (hne : cands ≠ [])
    (hc : ∀ x ∈ cands, e.Has x.id) (hdist : ∀ x ∈ cands, x.dist = l2Cmp ftz T p (e.ctx.data.getD x.id []))
    (hok : ∀ x ∈ cands, L2Ok ftz T n p (e.ctx.data.getD x.id [])) (hpair : ∀ x ∈ cands, ∀ y ∈ cands, L2Ok ftz T n (e.ctx.data.getD y.id []) (e.ctx.data.getD x.id [])) (old : List Nat) :
    ∃ (S : List Nbr) (I : List Nat) (occ : Nbr → Nbr → Prop), S.Perm cands ∧ S.Pairwise (fun x y => x.dist.le y.dist = true) ∧
      pruneAlpha sortF e alpha C R point cands old = .ok (I.filterMap (fun i => ((S.take C)[i]?).map Nbr.id)) ∧
      RobustPrune (S.take C) (fun x => x.id = point) occ R I ∧
      ∀ x ∈ cands, ∀ y ∈ cands,
        (occ x y → (e.filtered = true → ∀ l ∈ e.ctx.labels.getD y.id [], l ∈ e.ctx.labels.getD x.id []) ∧
          value alpha * (sqDistVal (e.ctx.data.getD y.id []) (e.ctx.data.getD x.id []) - l2Err ftz T (e.ctx.data.getD y.id []) (e.ctx.data.getD x.id [])) <
            (sqDistVal p (e.ctx.data.getD y.id []) + l2Err ftz T p (e.ctx.data.getD y.id [])) * (1 + 2 ^ (-23 : Int))) ∧
        (¬ occ x y → (e.filtered = true → ∀ l ∈ e.ctx.labels.getD y.id [], l ∈ e.ctx.labels.getD x.id []) →
          (sqDistVal p (e.ctx.data.getD y.id []) - l2Err ftz T p (e.ctx.data.getD y.id [])) * (1 - 2 ^ (-23 : Int)) ≤
            value alpha * (sqDistVal (e.ctx.data.getD y.id []) (e.ctx.data.getD x.id []) + l2Err ftz T (e.ctx.data.getD y.id []) (e.ctx.data.getD x.id []))) := by
  have hz : Spec.Finite F32.zero := by unfold Spec.Finite; decide
  have hneg : alpha.lt F32.zero = false := by
    rw [Bool.eq_false_iff]
    intro h
    rw [lt_iff_value hal hz, value_zero'] at h
    linarith
  have hnum : ∀ x ∈ cands, x.dist.IsNum := by
    intro x hx
    rw [hdist x hx]
    exact F32.isNum_of_le_right (clean_le (l2Cmp_clean (hok x hx)))
  obtain ⟨S, I, h1, h2, h3, h4⟩ := C21_prune_reasons sortF hsort e alpha hneg C R point cands hne hc hnum old
  refine ⟨S, I, _, h1, h2, h3, h4, fun x hx y hy => ?_⟩
  have gx : e.ctx.data[x.id]? = some (e.ctx.data.getD x.id []) := by
    have := (hc x hx).1
    rw [List.getD_eq_getElem?_getD, List.getElem?_eq_getElem this]; rfl
  have gy : e.ctx.data[y.id]? = some (e.ctx.data.getD y.id []) := by
    have := (hc y hy).1
    rw [List.getD_eq_getElem?_getD, List.getElem?_eq_getElem this]; rfl
  have oy := hok y hy
  have oxy := hpair x hx y hy
  obtain ⟨fy, -, cy⟩ := l2Cmp_close oy
  obtain ⟨fxy, -, cxy⟩ := l2Cmp_close oxy
  have hd := div_gt ftz fy fxy (l2Cmp_clean oy).1 (l2Cmp_clean oxy).1 hal hal1
  have ey := hdist y hy
  generalize e.ctx.data.getD x.id [] = vx at *
  generalize e.ctx.data.getD y.id [] = vy at *
  have cy' := abs_le.1 cy
  have cxy' := abs_le.1 cxy
  have ha0 : 0 ≤ value alpha := by linarith
  have hu1 : (0 : ℚ) ≤ 1 + 2 ^ (-23 : Int) := by norm_num
  have hu2 : (0 : ℚ) ≤ 1 - 2 ^ (-23 : Int) := by norm_num
  constructor
  · rintro ⟨hl, wx, wy, ewx, ewy, hlt⟩
    rw [gx] at ewx
    rw [gy] at ewy
    cases ewx
    cases ewy
    refine ⟨hl, ?_⟩
    rw [hdiv, hcmp, ey] at hlt
    refine lt_of_le_of_lt ?_ (lt_of_lt_of_le (hd.1 hlt) ?_)
    · exact mul_le_mul_of_nonneg_left (by linarith [cxy'.1]) ha0
    · exact mul_le_mul_of_nonneg_right (by linarith [cy'.2]) hu1
  · intro hno hl
    have hlt : alpha.lt (F32.div ftz (l2Cmp ftz T p vy) (l2Cmp ftz T vy vx)) = false := by
      rw [Bool.eq_false_iff]
      intro h
      exact hno ⟨hl, vx, vy, gx, gy, by rw [hdiv, hcmp, ey]; exact h⟩
    refine le_trans ?_ (le_trans (hd.2 hlt) ?_)
    · exact mul_le_mul_of_nonneg_right (by linarith [cy'.1]) hu2
    · exact mul_le_mul_of_nonneg_left (by linarith [cxy'.2]) ha0

/-- **C100 (RelativeNG, any distance).** With the division of the processor, a search for a stored vector finds a point at most as far from it as itself, whatever the distances are, if none is
negative. -/
theorem C100_rng_found (ftz : Bool) {V : Type} (sortF : List Nbr → List Nbr) (hsort : IsStdSort sortF) (c : Ctx V) (D : Nat → Nat → F32) (hD : c.IsDist D)
    (hn : 10 ≤ c.data.length) (hn' : c.data.length < 4294967296) (hsymm : ∀ i j, i < c.data.length → j < c.data.length → D i j = D j i)
    (hnn : ∀ i j, i < c.data.length → j < c.data.length → F32.zero.le (D i j) = true) (t : Nat) (v : V) (hv : c.data[t]? = some v)
    (start : Nat) (hstart : start < c.data.length) (tags : List Nat) (htags : tags.length = c.data.length) (rc L : Nat) (hrc : 1 ≤ rc) (hL : Spec.ListFits c.data.length L) (hrcL : rc ≤ L)
    (ind : List Nat) (dst : List F32) (hind : rc ≤ ind.length) (hdst : rc ≤ dst.length) :
    ∃ g ind' dst' cnt b, rngGraph sortF c (F32.div ftz) (List.replicate c.data.length []) = .ok g ∧
      rngSearch sortF ⟨c, tags, g, start, []⟩ v rc L ind dst [] = .ok (ind', dst', cnt) ∧ 1 ≤ cnt ∧
      b < c.data.length ∧ ind'[0]? = tags[b]? ∧ dst'[0]? = some (D t b) ∧ (D t b).le (D t t) = true :=
  C27_index_finds_stored_vector sortF hsort c (F32.div ftz) D hD hn hn' hsymm hnn (div_one ftz) t v hv start hstart tags htags rc L hrc hL hrcL ind dst hind hdst

theorem l2Cmp_symm {ftz : Bool} {T : SumTree} {n : Nat} {a b : List F32} (h : L2Ok ftz T n a b) : l2Cmp ftz T a b = l2Cmp ftz T b a := by
  unfold l2Cmp
  rw [C93_l2_symm ftz h.sums h.left h.right]

theorem l2Cmp_self {ftz : Bool} {T : SumTree} {n : Nat} {a : List F32} (h : L2Ok ftz T n a a) : l2Cmp ftz T a a = F32.zero := by
  unfold l2Cmp
  rw [C93_l2_self ftz h.sums h.left h.leftPlain]

/-- A computed distance that is not above 0 is +0, and the exact one is at most a tiny number. -/
theorem l2Cmp_zero_close {ftz : Bool} {T : SumTree} {n : Nat} {a b : List F32} (h : L2Ok ftz T n a b) (hh : T.height + 3 ≤ 2 ^ 22) (hle : (l2Cmp ftz T a b).le F32.zero = true) :
    l2Cmp ftz T a b = F32.zero ∧ sqDistVal a b ≤ T.ops * (if ftz then 2 ^ (-123 : Int) else 2 ^ (-147 : Int)) := by
  have hcl := l2Cmp_clean h
  obtain ⟨fb, -, cb⟩ := l2Cmp_close h
  have hz : Spec.Finite F32.zero := by unfold Spec.Finite; decide
  have h0 := sign_value hcl.1
  have hv0 : value (l2Cmp ftz T a b) = 0 := by
    have := (le_iff_value fb hz).1 hle
    rw [value_zero'] at this
    have := magnitude_nonneg (l2Cmp ftz T a b).mag
    linarith
  constructor
  · rw [hv0, ← magnitude_zero] at h0
    have hm := magnitude_strictMono.injective h0
    rw [← pack_self (l2Cmp ftz T a b), hcl.1, ← hm]
    decide
  · rw [hv0] at cb
    have h8 := (abs_le.1 cb).1
    unfold l2Err at h8
    have h9 : ((T.height : ℚ) + 3) * 2 ^ (-23 : Int) ≤ 1 / 2 := by
      have : (T.height : ℚ) + 3 ≤ 2 ^ 22 := by exact_mod_cast hh
      calc ((T.height : ℚ) + 3) * 2 ^ (-23 : Int) ≤ 2 ^ 22 * 2 ^ (-23 : Int) := by gcongr
        _ = 1 / 2 := by norm_num
    have h10 := mul_le_mul_of_nonneg_right h9 (sqDistVal_nonneg a b)
    have h11 : (if ftz then 2 ^ (-123 : Int) else 2 ^ (-147 : Int) : ℚ) = 2 * (if ftz then 2 ^ (-124 : Int) else 2 ^ (-148 : Int)) := by
      split <;> norm_num
    rw [h11]
    generalize (if ftz then 2 ^ (-124 : Int) else 2 ^ (-148 : Int) : ℚ) = w at *
    generalize ((T.height : ℚ) + 3) * 2 ^ (-23 : Int) * sqDistVal a b = x at *
    generalize (T.ops : ℚ) = o at *
    have : o * (2 * w) = 2 * (o * w) := by ring
    rw [this]
    linarith

/-- **C100 (RelativeNG, squared distances).** For every data set of at least 10 vectors and every order of the additions, with computed distances and quotients: a search for a stored vector
reports first a point at computed distance +0.  Its exact distance is at most a tiny number, so it is the stored vector itself if no other one is that close. -/
theorem C100_rng_l2 (ftz : Bool) (T : SumTree) {n : Nat} (sortF : List Nbr → List Nbr) (hsort : IsStdSort sortF) (c : Ctx (List F32)) (hcmp : c.cmp = l2Cmp ftz T)
    (hn : 10 ≤ c.data.length) (hn' : c.data.length < 4294967296) (hok : ∀ a ∈ c.data, ∀ b ∈ c.data, L2Ok ftz T n a b) (hh : T.height + 3 ≤ 2 ^ 22)
    (t : Nat) (v : List F32) (hv : c.data[t]? = some v)
    (start : Nat) (hstart : start < c.data.length) (tags : List Nat) (htags : tags.length = c.data.length) (rc L : Nat) (hrc : 1 ≤ rc) (hL : Spec.ListFits c.data.length L) (hrcL : rc ≤ L)
    (ind : List Nat) (dst : List F32) (hind : rc ≤ ind.length) (hdst : rc ≤ dst.length) :
    ∃ g ind' dst' cnt b, rngGraph sortF c (F32.div ftz) (List.replicate c.data.length []) = .ok g ∧
      rngSearch sortF ⟨c, tags, g, start, []⟩ v rc L ind dst [] = .ok (ind', dst', cnt) ∧ 1 ≤ cnt ∧
      b < c.data.length ∧ ind'[0]? = tags[b]? ∧ dst'[0]? = some F32.zero ∧
      sqDistVal v (c.data.getD b []) ≤ T.ops * (if ftz then 2 ^ (-123 : Int) else 2 ^ (-147 : Int)) ∧
      ((∀ j < c.data.length, j ≠ t → T.ops * (if ftz then 2 ^ (-123 : Int) else 2 ^ (-147 : Int)) < sqDistVal v (c.data.getD j [])) → b = t) := by
  have mem : ∀ {i}, i < c.data.length → c.data.getD i [] ∈ c.data := fun {i} hi => mem_data (c := c) hi
  have hget : ∀ {i w}, c.data[i]? = some w → c.data.getD i [] = w := fun {i w} h => by rw [List.getD_eq_getElem?_getD, h]; rfl
  have ht : t < c.data.length := (List.getElem?_eq_some_iff.1 hv).1
  have evt := hget hv
  obtain ⟨g, ind', dst', cnt, b, h1, h2, h3, h4, h5, h6, h7⟩ := C100_rng_found ftz sortF hsort c
    (fun i j => l2Cmp ftz T (c.data.getD i []) (c.data.getD j []))
    (fun i j vi vj hi hj => by dsimp only; rw [hget hi, hget hj, hcmp]) hn hn' (fun i j hi hj => l2Cmp_symm (hok _ (mem hi) _ (mem hj)))
    (fun i j hi hj => clean_le (l2Cmp_clean (hok _ (mem hi) _ (mem hj)))) t v hv start hstart tags htags rc L hrc hL hrcL ind dst hind hdst
  have hself := l2Cmp_self (hok _ (mem ht) _ (mem ht))
  have hob := hok _ (mem ht) _ (mem h4)
  rw [hself] at h7
  obtain ⟨hzero, hsmall⟩ := l2Cmp_zero_close hob hh h7
  rw [evt] at hsmall
  refine ⟨g, ind', dst', cnt, b, h1, h2, h3, h4, h5, by rw [h6, hzero], hsmall, fun hall => ?_⟩
  by_contra hbt
  exact absurd hsmall (not_le.2 (hall b h4 hbt))

/-- **C100 (the graph of RelativeNG).** Each list of out-neighbours of `v` is, up to the rounding of distances and quotients, that of a relative neighbourhood graph: a point `y` is
missing only if some out-neighbour is closer to it than `v`, and if `x` is listed before `y`, then `y` is not closer to `x` than to `v`. -/
theorem C100_rng_graph (ftz : Bool) (T : SumTree) {n : Nat} (sortF : List Nbr → List Nbr) (hsort : IsStdSort sortF) (c : Ctx (List F32)) (hcmp : c.cmp = l2Cmp ftz T)
    (hn : 10 ≤ c.data.length) (hn' : c.data.length < 4294967296) (hok : ∀ a ∈ c.data, ∀ b ∈ c.data, L2Ok ftz T n a b) :
    ∃ g, rngGraph sortF c (F32.div ftz) (List.replicate c.data.length []) = .ok g ∧ IsGraph c.data.length g ∧
      ∀ (v : Nat) (nb : List Nat), g[v]? = some nb → nb.Nodup ∧ v ∉ nb ∧
        (∀ y, y < c.data.length → y ≠ v → y ∉ nb → ∃ x ∈ nb,
          sqDistVal (c.data.getD y []) (c.data.getD x []) - l2Err ftz T (c.data.getD y []) (c.data.getD x []) <
            sqDistVal (c.data.getD y []) (c.data.getD v []) + l2Err ftz T (c.data.getD y []) (c.data.getD v [])) ∧
        nb.Pairwise (fun x y => (sqDistVal (c.data.getD y []) (c.data.getD v []) - l2Err ftz T (c.data.getD y []) (c.data.getD v [])) * (1 - 2 ^ (-23 : Int)) ≤
          sqDistVal (c.data.getD y []) (c.data.getD x []) + l2Err ftz T (c.data.getD y []) (c.data.getD x [])) := by
  have hget : ∀ {i w}, c.data[i]? = some w → c.data.getD i [] = w := fun {i w} h => by rw [List.getD_eq_getElem?_getD, h]; rfl
  obtain ⟨g, eg, hg, hall⟩ := C27_relative_neighbourhood_graph sortF hsort c (F32.div ftz) (fun i j => l2Cmp ftz T (c.data.getD i []) (c.data.getD j []))
    (fun i j vi vj hi hj => by dsimp only; rw [hget hi, hget hj, hcmp]) hn hn'
  refine ⟨g, eg, hg, fun v nb hv => ?_⟩
  obtain ⟨h1, h2, h3, h4⟩ := hall v nb hv
  have hvl : v < c.data.length := by rw [← hg.len]; exact (List.getElem?_eq_some_iff.1 hv).1
  have hx : ∀ x ∈ nb, x < c.data.length := fun x hx => hg.edges nb (List.mem_of_getElem? hv) x hx
  have ok : ∀ {i j}, i < c.data.length → j < c.data.length → L2Ok ftz T n (c.data.getD i []) (c.data.getD j []) :=
    fun {i j} hi hj => hok _ (mem_data (c := c) hi) _ (mem_data (c := c) hj)
  refine ⟨h1, h2, fun y hy hyv hyn => ?_, ?_⟩
  · obtain ⟨x, hxn, hlt⟩ := h3 y hy hyv hyn
    refine ⟨x, hxn, ?_⟩
    have o1 := ok hy (hx x hxn)
    have o2 := ok hy hvl
    have := div_one ftz _ _ (clean_le (l2Cmp_clean o2)) (clean_le (l2Cmp_clean o1)) hlt
    obtain ⟨f1, -, c1⟩ := l2Cmp_close o1
    obtain ⟨f2, -, c2⟩ := l2Cmp_close o2
    rw [lt_iff_value f1 f2] at this
    have := (abs_le.1 c1).1
    have := (abs_le.1 c2).2
    linarith
  · refine List.Pairwise.imp_of_mem (fun {x y} hxn hyn hxy => ?_) h4
    have o1 := ok (hx y hyn) (hx x hxn)
    have o2 := ok (hx y hyn) hvl
    obtain ⟨f1, -, c1⟩ := l2Cmp_close o1
    obtain ⟨f2, -, c2⟩ := l2Cmp_close o2
    have fo : Spec.Finite F32.one := by unfold Spec.Finite; decide
    have v1 : value F32.one = 1 := by norm_num [value, F32.one, magnitude]
    have h5 := (div_gt ftz f2 f1 (l2Cmp_clean o2).1 (l2Cmp_clean o1).1 fo (by rw [v1])).2 hxy
    rw [v1, one_mul] at h5
    have hu2 : (0 : ℚ) ≤ 1 - 2 ^ (-23 : Int) := by norm_num
    refine le_trans (mul_le_mul_of_nonneg_right ?_ hu2) (h5.trans ?_)
    · have := (abs_le.1 c2).1
      linarith
    · have := (abs_le.1 c1).2
      linarith

/-! ## Ten points on a line -/

/-- 49, 50, 54, 46, 55, 45, 56, 44, 57 and 43.5. -/
def exRngF : Ctx (List F32) where
  data := [[⟨0x42440000#32⟩], [⟨0x42480000#32⟩], [⟨0x42580000#32⟩], [⟨0x42380000#32⟩], [⟨0x425c0000#32⟩], [⟨0x42340000#32⟩], [⟨0x42600000#32⟩], [⟨0x42300000#32⟩], [⟨0x42640000#32⟩], [⟨0x422e0000#32⟩]]
  labels := []
  useUniv := true
  univ := [48]
  cmp := l2Cmp true (.fma 0 .init)

theorem exRngF_ok : ∀ a ∈ exRngF.data, ∀ b ∈ exRngF.data, L2Ok true (.fma 0 .init) 1 a b := by
  have h : ∀ a ∈ exRngF.data, ∃ x : F32, a = [x] ∧ Spec.Finite x ∧ 40 ≤ value x ∧ value x ≤ 60 := by
    intro a ha
    simp only [exRngF, List.mem_cons, List.not_mem_nil, or_false] at ha
    rcases ha with rfl | rfl | rfl | rfl | rfl | rfl | rfl | rfl | rfl | rfl <;>
      exact ⟨_, rfl, by unfold Spec.Finite; decide, by norm_num [value, magnitude], by norm_num [value, magnitude]⟩
  have pl : ∀ x : F32, Spec.Finite x → 40 ≤ value x → Plain true x := fun x hf hx =>
    ⟨hf, fun _ => Or.inr (by rw [abs_of_nonneg (by linarith)]; exact le_trans (by norm_num) hx)⟩
  intro a ha b hb
  obtain ⟨x, rfl, fx, x1, x2⟩ := h a ha
  obtain ⟨y, rfl, fy, y1, y2⟩ := h b hb
  refine ⟨by unfold SumTree.Sums; decide, rfl, rfl, ?_, ?_, by decide, by decide, ?_⟩
  · intro z hz; rw [List.mem_singleton.1 hz]; exact pl x fx x1
  · intro z hz; rw [List.mem_singleton.1 hz]; exact pl y fy y1
  · simp only [sqDistVal, List.zipWith_cons_cons, List.zipWith_nil_right, List.sum_cons, List.sum_nil, add_zero]
    have : (value x - value y) ^ 2 ≤ 20 ^ 2 := sq_le_sq' (by linarith) (by linarith)
    exact this.trans (by norm_num)

example := C100_rng_graph true (.fma 0 .init) exSort exSort_isStdSort exRngF rfl (by decide) (by decide) exRngF_ok

/-- The search for 57 starts at 44 with a list of one entry. -/
example := C100_rng_l2 true (.fma 0 .init) exSort exSort_isStdSort exRngF rfl (by decide) (by decide) exRngF_ok (by decide) 8 [⟨0x42640000#32⟩] rfl 7 (by decide)
  [10, 11, 12, 13, 14, 15, 16, 17, 18, 19] rfl 1 1 (by decide) (by decide) (by decide) [0] [F32.nan] (by decide) (by decide)

/-- It finds it. -/
example : (do
    let g ← rngGraph exSort exRngF (F32.div true) (List.replicate 10 [])
    let r ← rngSearch exSort ⟨exRngF, [10, 11, 12, 13, 14, 15, 16, 17, 18, 19], g, 7, []⟩ [⟨0x42640000#32⟩] 1 1 [0] [F32.nan] []
    .ok (g, r)) = (.ok ([[1, 3], [0, 2], [4, 1], [5, 0], [2, 6], [3, 7], [4, 8], [9, 5], [6], [7]], [18], [F32.zero], 1) : Res _) := by
  decide +kernel

/-- Any distances that are not negative, here numbers given in a table. -/
example := C100_rng_found true exSort exSort_isStdSort exRng exRngD exRng_isDist (by decide) (by decide) (fun i j _ _ => exSq_comm _ _) exRngD_nonneg 8 57 rfl 7 (by decide)
  [10, 11, 12, 13, 14, 15, 16, 17, 18, 19] rfl 1 1 (by decide) (by decide) (by decide) [0] [F32.nan] (by decide) (by decide)

/-- Pruning the neighbours of the first point (49) with `alpha` = 1.2: the candidates are 50, 54, 46 and 55. -/
def exPruneF : PruneEnv (List F32) := ⟨exRngF, false, F32.div true⟩

def exCandsF : List Nbr := [⟨1, ⟨0x3f800000#32⟩, true⟩, ⟨2, ⟨0x41c80000#32⟩, true⟩, ⟨3, ⟨0x41100000#32⟩, true⟩, ⟨4, ⟨0x42100000#32⟩, true⟩]

example : pruneAlpha exSort exPruneF ⟨0x3f99999a#32⟩ 10 3 0 exCandsF [] = .ok [1, 3] ∧
    ∀ x ∈ exCandsF, x.dist = l2Cmp true (.fma 0 .init) [⟨0x42440000#32⟩] (exRngF.data.getD x.id []) := by
  constructor <;> decide +kernel

example := C100_prune true (.fma 0 .init) exSort exSort_isStdSort exPruneF rfl rfl ⟨0x3f99999a#32⟩ (by unfold Spec.Finite; decide) (by norm_num [value, magnitude]) 10 3 0 [⟨0x42440000#32⟩]
  exCandsF (by decide) (by unfold PruneEnv.Has; decide) (by decide +kernel) (fun x hx => exRngF_ok _ (by decide) _ (mem_data (c := exRngF) (by revert x; decide)))
  (fun x hx y hy => exRngF_ok _ (mem_data (c := exRngF) (by revert y; decide)) _ (mem_data (c := exRngF) (by revert x; decide))) []

end Grann
