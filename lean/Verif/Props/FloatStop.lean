import Verif.Props.FloatKpp
/-!
# C99: the end of Lloyd's algorithm in `float` arithmetic
-/

namespace Grann

open _root_.Grann.Spec _root_.Spec

/-- A quotient with a positive number, compared with a positive number. -/
theorem div_le (ftz : Bool) {x y c : F32} (hx : Spec.Finite x) (hy : Spec.Finite y) (hy0 : 0 < value y) (cs : c.sign = false) (cm : c.mag < 2139095040) :
    (F32.div ftz x y).le c = true ↔ x.sign = true ∨ (ftz && decide (x.units.natAbs * 2 ^ 151 < 33554431 * y.units.natAbs)) = true ∨
      nearestBits x.units.natAbs y.units.natAbs ≤ c.mag := by
  have ys : y.sign = false := by
    by_contra h
    have h : y.sign = true := by simpa using h
    rw [value_pack, h, if_pos rfl] at hy0
    have := magnitude_nonneg y.mag
    linarith
  have ym : y.mag ≠ 0 := fun h => by rw [magnitude_flushed h] at hy0; exact lt_irrefl _ hy0
  have e : F32.div ftz x y = F32.pack x.sign (if ftz && decide (x.units.natAbs * 2 ^ 151 < 33554431 * y.units.natAbs) then 0 else
      min (nearestBits x.units.natAbs y.units.natAbs) 2139095040) := by
    unfold F32.div
    simp only [not_nan hx, not_nan hy, not_inf hx, not_inf hy, Bool.or_self, Bool.false_eq_true, if_false, if_neg ym, ys, Bool.bne_false]
  rw [e]
  have hkc : c.key = some (c.mag : Int) := by
    unfold F32.sign at cs
    have hb : c.bits.toNat < 2147483648 := by simpa using cs
    unfold F32.mag at cm ⊢
    unfold F32.key
    dsimp only
    rw [if_neg (by omega), if_pos hb]
  have hkp : ∀ (s : Bool) (m : Nat), m ≤ 2139095040 → (F32.pack s m).key = some (if s then -(m : Int) else m) := by
    intro s m hm
    have hm' := pack_mag s (show m < 2147483648 by omega)
    have hb := pack_toNat s (show m < 2147483648 by omega)
    unfold F32.mag at hm'
    unfold F32.key
    dsimp only
    rw [hm', if_neg (by omega)]
    cases s
    · rw [if_pos (by rw [hb]; simpa using (show m < 2147483648 by omega))]; rfl
    · rw [if_neg (by rw [hb]; simp)]; rfl
  unfold F32.le
  rw [hkc, hkp _ _ (by split <;> omega)]
  simp only [decide_eq_true_eq]
  cases x.sign
  · simp only [Bool.false_eq_true, false_or, if_false]
    split
    · rename_i h
      refine ⟨fun _ => Or.inl h, fun _ => by omega⟩
    · rename_i h
      simp only [h, Bool.false_eq_true, false_or]
      omega
  · simp only [true_or, iff_true, if_true]
    omega

theorem exStop_value : value (⟨0x3727c5ac#32⟩ : F32) = 10995116 / 1099511627776 ∧ value (⟨0x34000000#32⟩ : F32) = 2 ^ (-23 : Int) := by
  constructor <;> norm_num [value, magnitude]

theorem fval_units {x y : F32} (hx : 0 ≤ value x) (hy : 0 < value y) : fval (x.units.natAbs, y.units.natAbs) = value x / value y := by
  have hp : (0 : ℚ) < 2 ^ (-149 : Int) := by positivity
  rw [value_units] at hx hy ⊢
  rw [value_units y]
  have h1 : (0 : ℚ) ≤ x.units := by
    by_contra h
    have := mul_neg_of_neg_of_pos (not_le.1 h) hp
    linarith
  have h2 : (0 : ℚ) ≤ y.units := by
    by_contra h
    have := mul_neg_of_neg_of_pos (not_le.1 h) hp
    linarith
  have e1 : ((x.units.natAbs : Nat) : ℚ) = x.units := by
    rw [← Int.cast_natCast, Int.natAbs_of_nonneg (by exact_mod_cast h1)]
  have e2 : ((y.units.natAbs : Nat) : ℚ) = y.units := by
    rw [← Int.cast_natCast, Int.natAbs_of_nonneg (by exact_mod_cast h2)]
  show ((x.units.natAbs : Nat) : ℚ) / ((y.units.natAbs : Nat) : ℚ) = _
  rw [e1, e2, mul_div_mul_right _ _ hp.ne']

theorem finite_ovf {x : F32} (hx : Spec.Finite x) : |value x| < ovf := by
  have h1 : Spec.magnitude x.mag ≤ Spec.magnitude 2139095039 := magnitude_strictMono.monotone (by have := finite_mag.1 hx; omega)
  have h2 : Spec.magnitude 2139095039 < ovf := by norm_num [magnitude, ovf]
  have h3 := magnitude_nonneg x.mag
  rw [value_pack]
  split
  · rw [abs_lt]; constructor <;> linarith
  · rw [abs_lt]; constructor <;> linarith

/-- **C99 (when Lloyd's algorithm ends).** With a new residual below 2^-23 it ends.  Otherwise it does not end after the first round, and after a later one it ends if the residual has not
become smaller by a factor of 1 + (1 - 2^-22) / 100000, and does not end if it has become smaller by a factor of 1 + (1 + 2^-22) / 100000. -/
theorem C99_stop (ftz : Bool) {old new : F32} (ho : Spec.Finite old) (hn : Spec.Finite new) (ho0 : 0 ≤ value old) (i : Nat) :
    (value new < 2 ^ (-23 : Int) → stopF32 ftz i old new = true) ∧
    (2 ^ (-23 : Int) ≤ value new → stopF32 ftz 0 old new = false) ∧
    (i ≠ 0 → value old ≤ value new * (1 + (1 - 2 ^ (-22 : Int)) / 100000) → stopF32 ftz i old new = true) ∧
    (2 ^ (-23 : Int) ≤ value new → value new * (1 + (1 + 2 ^ (-22 : Int)) / 100000) ≤ value old → stopF32 ftz i old new = false) := by
  obtain ⟨v1, v2⟩ := exStop_value
  have fe : Spec.Finite (⟨0x34000000#32⟩ : F32) := by unfold Spec.Finite; decide
  have heps : new.lt ⟨0x34000000#32⟩ = true ↔ value new < 2 ^ (-23 : Int) := by rw [lt_iff_value hn fe, v2]
  have hlt : value new < 2 ^ (-23 : Int) → ∀ i, stopF32 ftz i old new = true := by
    intro h i
    unfold stopF32
    rw [heps.2 h, Bool.or_true]
  have hge : 2 ^ (-23 : Int) ≤ value new → ∀ i, stopF32 ftz i old new = (i != 0 && (F32.div ftz (F32.sub ftz old new) new).le ⟨0x3727c5ac#32⟩) := by
    intro h i
    unfold stopF32
    rw [show new.lt ⟨0x34000000#32⟩ = false by rw [Bool.eq_false_iff]; exact fun hh => absurd (heps.1 hh) (not_lt.2 h), Bool.or_false]
  have hmagc : Spec.magnitude (⟨0x3727c5ac#32⟩ : F32).mag = 10995116 / 1099511627776 := by
    rw [← v1, value_pack, show (⟨0x3727c5ac#32⟩ : F32).sign = false by decide]; simp
  -- the difference
  have hov : ∀ {x : F32}, Spec.Finite x → 0 ≤ value x → value x < ovf := fun {x} hx h0 => lt_of_le_of_lt (le_abs_self _) (finite_ovf hx)
  have hdiff : 0 < value new → |value old - value new| < ovf := by
    intro h
    have h1 := hov ho ho0
    have h2 := hov hn h.le
    rw [abs_lt]
    constructor <;> linarith
  refine ⟨fun h => hlt h i, fun h => by rw [hge h]; rfl, fun hi h => ?_, fun h0 h => ?_⟩
  · rcases lt_or_ge (value new) (2 ^ (-23 : Int)) with h0 | h0
    · exact hlt h0 i
    rw [hge h0]
    have hi' : (i != 0) = true := by simpa using hi
    rw [hi', Bool.true_and]
    have hp : 0 < value new := lt_of_lt_of_le (by positivity) h0
    obtain ⟨fs, herr⟩ := sub_err ftz ho hn (hdiff hp)
    rw [div_le ftz fs hn hp (by decide) (by decide)]
    by_cases hs : (F32.sub ftz old new).sign = true
    · exact Or.inl hs
    · right; right
      have hs : (F32.sub ftz old new).sign = false := by simpa using hs
      have hv0 : 0 ≤ value (F32.sub ftz old new) := by
        rw [value_pack, hs]
        simpa using magnitude_nonneg _
      by_cases hz : (F32.sub ftz old new).units.natAbs = 0
      · rw [hz]
        rw [show nearestBits 0 new.units.natAbs = 0 from if_pos rfl]
        exact Nat.zero_le _
      · have hd : 0 < new.units.natAbs := by
          by_contra hh
          have : new.units = 0 := by omega
          rw [value_units, this] at hp
          simp at hp
        have he := nearestBits_err2 (n := (F32.sub ftz old new).units.natAbs) (d := new.units.natAbs) (by omega) hd
        rw [fval_units hv0 hp] at he
        rw [← magnitude_strictMono.le_iff_le, hmagc]
        have hq : value (F32.sub ftz old new) / value new ≤ (1 - 2 ^ (-22 : Int)) / 100000 * (1 + ulp24) := by
          rw [div_le_iff₀ hp]
          rcases herr with ⟨-, -, h2⟩ | h2
          · rw [h2]
            unfold ulp24
            have : (0 : ℚ) ≤ (1 - 2 ^ (-22 : Int)) / 100000 * (1 + 2 ^ (-24 : Int)) := by norm_num
            positivity
          · have h3 := (abs_le.1 h2).2
            rcases le_total (value old) (value new) with h4 | h4
            · rw [abs_of_nonpos (by linarith)] at h3
              have : value (F32.sub ftz old new) ≤ 0 := by
                have : (value old - value new) * (1 - ulp24) ≤ 0 := mul_nonpos_of_nonpos_of_nonneg (by linarith) (by unfold ulp24; norm_num)
                linarith
              have h5 : (0 : ℚ) ≤ (1 - 2 ^ (-22 : Int)) / 100000 * (1 + ulp24) := by unfold ulp24; norm_num
              exact this.trans (mul_nonneg h5 hp.le)
            · rw [abs_of_nonneg (by linarith)] at h3
              have h5 : value old - value new ≤ (1 - 2 ^ (-22 : Int)) / 100000 * value new := by linarith
              have h6 : (0 : ℚ) ≤ 1 + ulp24 := by unfold ulp24; norm_num
              have := mul_le_mul_of_nonneg_right h5 h6
              linarith
        have h7 := (abs_le.1 he).2
        have h8 : (0 : ℚ) ≤ 1 + ulp24 := by unfold ulp24; norm_num
        have h9 := mul_le_mul_of_nonneg_right hq h8
        have h10 : (1 - 2 ^ (-22 : Int) : ℚ) / 100000 * (1 + ulp24) * (1 + ulp24) + 2 ^ (-150 : Int) ≤ 10995116 / 1099511627776 := by unfold ulp24; norm_num
        linarith
  · rw [hge h0]
    have hp : 0 < value new := lt_of_lt_of_le (by positivity) h0
    obtain ⟨fs, herr⟩ := sub_err ftz ho hn (hdiff hp)
    rw [Bool.and_eq_false_iff]
    right
    rw [Bool.eq_false_iff]
    intro hh
    rw [div_le ftz fs hn hp (by decide) (by decide)] at hh
    have hbig : (1 + 2 ^ (-22 : Int)) / 100000 * value new ≤ value old - value new := by linarith
    have hdpos : 0 < value old - value new := lt_of_lt_of_le (mul_pos (by norm_num) hp) hbig
    have hmin : (2 : ℚ) ^ (-126 : Int) ≤ value old - value new := by
      have h1 : (1 + 2 ^ (-22 : Int)) / 100000 * (2 : ℚ) ^ (-23 : Int) ≤ (1 + 2 ^ (-22 : Int)) / 100000 * value new :=
        mul_le_mul_of_nonneg_left h0 (by norm_num)
      have h2 : (2 : ℚ) ^ (-126 : Int) ≤ (1 + 2 ^ (-22 : Int)) / 100000 * (2 : ℚ) ^ (-23 : Int) := by norm_num
      exact h2.trans (h1.trans hbig)
    rw [abs_of_pos hdpos] at herr
    have hx : (value old - value new) * (1 - ulp24) ≤ value (F32.sub ftz old new) := by
      rcases herr with ⟨-, h2, -⟩ | h2
      · linarith
      · have := (abs_le.1 h2).1
        linarith
    have hu : (0 : ℚ) < 1 - ulp24 := by unfold ulp24; norm_num
    have hxp : 0 < value (F32.sub ftz old new) := lt_of_lt_of_le (mul_pos hdpos hu) hx
    have hsign : (F32.sub ftz old new).sign = false := by
      by_contra hc
      have hc : (F32.sub ftz old new).sign = true := by simpa using hc
      rw [value_pack, hc, if_pos rfl] at hxp
      have := magnitude_nonneg (F32.sub ftz old new).mag
      linarith
    have hd : 0 < new.units.natAbs := by
      by_contra hc
      have : new.units = 0 := by omega
      rw [value_units, this] at hp
      simp at hp
    have hxn : 0 < (F32.sub ftz old new).units.natAbs := by
      by_contra hc
      have : (F32.sub ftz old new).units = 0 := by omega
      rw [value_units, this] at hxp
      simp at hxp
    have hq : (1 + 2 ^ (-22 : Int)) / 100000 * (1 - ulp24) ≤ value (F32.sub ftz old new) / value new := by
      rw [le_div_iff₀ hp]
      have := mul_le_mul_of_nonneg_right hbig hu.le
      linarith
    have hfv := fval_units hxp.le hp
    rcases hh with hh | hh | hh
    · rw [hsign] at hh; cases hh
    · rw [Bool.and_eq_true, decide_eq_true_iff] at hh
      have h1 : ((F32.sub ftz old new).units.natAbs : ℚ) * 2 ^ 151 < 33554431 * new.units.natAbs := by exact_mod_cast hh.2
      have h2 : ((F32.sub ftz old new).units.natAbs : ℚ) / (new.units.natAbs : ℚ) = value (F32.sub ftz old new) / value new := hfv
      rw [← h2, le_div_iff₀ (by exact_mod_cast hd)] at hq
      have h3 : (0 : ℚ) < new.units.natAbs := by exact_mod_cast hd
      have h4 : (1 : ℚ) / 200000 ≤ (1 + 2 ^ (-22 : Int)) / 100000 * (1 - ulp24) := by unfold ulp24; norm_num
      have h5 := mul_le_mul_of_nonneg_right h4 h3.le
      have h6 : (1 : ℚ) / 200000 * new.units.natAbs * 2 ^ 151 < 33554431 * new.units.natAbs := by
        refine lt_of_le_of_lt ?_ h1
        exact mul_le_mul_of_nonneg_right (h5.trans hq) (by positivity)
      nlinarith
    · have he := nearestBits_err2 hxn hd
      rw [hfv] at he
      rw [← magnitude_strictMono.le_iff_le, hmagc] at hh
      have h7 := (abs_le.1 he).1
      have h9 := mul_le_mul_of_nonneg_right hq hu.le
      have h10 : (10995116 : ℚ) / 1099511627776 < (1 + 2 ^ (-22 : Int)) / 100000 * (1 - ulp24) * (1 - ulp24) - 2 ^ (-150 : Int) := by unfold ulp24; norm_num
      linarith

/-- Residuals 3, 2 and 2. -/
example : stopF32 true 3 ⟨0x40400000#32⟩ ⟨0x40000000#32⟩ = false ∧ stopF32 true 3 ⟨0x40000000#32⟩ ⟨0x40000000#32⟩ = true := by
  have v3 : value (⟨0x40400000#32⟩ : F32) = 3 := by norm_num [value, magnitude]
  have v2 : value (⟨0x40000000#32⟩ : F32) = 2 := by norm_num [value, magnitude]
  have f3 : Spec.Finite (⟨0x40400000#32⟩ : F32) := by unfold Spec.Finite; decide
  have f2 : Spec.Finite (⟨0x40000000#32⟩ : F32) := by unfold Spec.Finite; decide
  exact ⟨(C99_stop true f3 f2 (by rw [v3]; norm_num) 3).2.2.2 (by rw [v2]; norm_num) (by rw [v2, v3]; norm_num),
    (C99_stop true f2 f2 (by rw [v2]; norm_num) 3).2.2.1 (by decide) (by rw [v2]; norm_num)⟩

end Grann
