import Verif.Model.Kmeans
import Mathlib.Data.Fintype.Pigeonhole
import Mathlib.Data.Fintype.Card
import Mathlib.Algebra.Order.Ring.Rat
import Mathlib.Algebra.Order.Field.Basic
import Mathlib.Tactic.Linarith
/-!
# C58: initial centres
-/

namespace Grann

variable {V : Type}

/-! ## Random centres -/

theorem randomCentersLoop_ok (data : List V) (draw : Nat → Nat) (hdraw : ∀ j, draw j < data.length) :
    ∀ (todo j : Nat) (picked : List Nat) (centers : List V), j + todo ≤ centers.length →
    (∀ x, x ∈ picked ↔ ∃ i, i < j ∧ draw i = x) →
    ∃ cs, randomCentersLoop data draw todo j picked centers = .ok cs ∧ cs.length = centers.length ∧
      (∀ i, i < j ∨ j + todo ≤ i → cs[i]? = centers[i]?) ∧
      (∀ i, j ≤ i → i < j + todo → cs[i]? =
        if ∃ i', i' < i ∧ draw i' = draw i then centers[i]? else data[draw i]?) := by
  intro todo
  induction todo with
  | zero => intro j picked centers _ _; exact ⟨centers, rfl, rfl, fun _ _ => rfl, by intro i; omega⟩
  | succ todo ih =>
    intro j picked centers hl hp
    unfold randomCentersLoop
    have hnext : ∀ pk : List Nat, (∀ x, x ∈ pk ↔ x ∈ picked ∨ x = draw j) →
        ∀ x, x ∈ pk ↔ ∃ i, i < j + 1 ∧ draw i = x := by
      intro pk hpk x
      rw [hpk, hp]
      constructor
      · rintro (⟨i, hi, e⟩ | e)
        · exact ⟨i, by omega, e⟩
        · exact ⟨j, by omega, e.symm⟩
      · rintro ⟨i, hi, e⟩
        by_cases hij : i = j
        · subst hij; exact Or.inr e.symm
        · exact Or.inl ⟨i, by omega, e⟩
    by_cases hm : draw j ∈ picked
    · rw [if_pos hm]
      obtain ⟨cs, e, hlen, h1, h2⟩ := ih (j + 1) picked centers (by omega) (hnext picked (by
        intro x; constructor
        · exact Or.inl
        · rintro (h | rfl)
          · exact h
          · exact hm))
      refine ⟨cs, e, hlen, fun i hi => h1 i (by omega), ?_⟩
      intro i hji hit
      by_cases hij : i = j
      · subst hij
        rw [h1 i (by omega), if_pos ((hp _).mp hm)]
      · exact h2 i (by omega) (by omega)
    · rw [if_neg hm, rd_ok (hdraw j), Res.ok_bind, wr_ok (by omega : j < centers.length), Res.ok_bind]
      obtain ⟨cs, e, hlen, h1, h2⟩ := ih (j + 1) (picked ++ [draw j]) (centers.set j (data[draw j]'(hdraw j))) (by
        rw [List.length_set]; omega) (hnext _ (by intro x; simp))
      refine ⟨cs, e, by rw [hlen, List.length_set], ?_, ?_⟩
      · intro i hi
        rw [h1 i (by omega), List.getElem?_set_ne (by omega)]
      · intro i hji hit
        by_cases hij : i = j
        · subst hij
          rw [h1 i (by omega), List.getElem?_set_self (by omega), if_neg (fun h => hm ((hp _).mpr h)),
            List.getElem?_eq_getElem (hdraw i)]
        · rw [h2 i (by omega) (by omega), List.getElem?_set_ne (by omega)]

/-- **C58 (random centres).** Centre `j` is the data point drawn for it, unless the same point was drawn before: then
the memory is left as it was. -/
theorem C58_random (data : List V) (draw : Nat → Nat) (hdraw : ∀ j, draw j < data.length) (num : Nat)
    (centers : List V) (hl : num ≤ centers.length) :
    ∃ cs, randomCenters data draw num centers = .ok cs ∧ cs.length = centers.length ∧
      ∀ j, j < num → cs[j]? = if ∃ i, i < j ∧ draw i = draw j then centers[j]? else data[draw j]? := by
  obtain ⟨cs, e, hlen, _, h2⟩ := randomCentersLoop_ok data draw hdraw num 0 [] centers (by omega) (by simp)
  exact ⟨cs, e, hlen, fun j hj => h2 j (by omega) (by omega)⟩

/-- **C58 fails for random centres.** With more centres than points, some centre is left unset whatever is drawn.
With at least two centres it happens whenever the first two draws agree. -/
theorem C58_random_unset (data : List V) (draw : Nat → Nat) (hdraw : ∀ j, draw j < data.length) (num : Nat)
    (centers : List V) (hl : num ≤ centers.length) (h : data.length < num ∨ (2 ≤ num ∧ draw 0 = draw 1)) :
    ∃ cs j, randomCenters data draw num centers = .ok cs ∧ j < num ∧ cs[j]? = centers[j]? := by
  obtain ⟨cs, e, _, h2⟩ := C58_random data draw hdraw num centers hl
  rcases h with h | ⟨h, h01⟩
  · obtain ⟨x, y, hxy, hf⟩ := Fintype.exists_ne_map_eq_of_card_lt
      (fun i : Fin num => (⟨draw i, hdraw i⟩ : Fin data.length)) (by simpa using h)
    have hf : draw x = draw y := congrArg Fin.val hf
    have hne : x.val ≠ y.val := fun h => hxy (Fin.ext h)
    by_cases hlt : x.val < y.val
    · exact ⟨cs, y, e, y.isLt, by rw [h2 y y.isLt, if_pos ⟨x, hlt, hf⟩]⟩
    · exact ⟨cs, x, e, x.isLt, by rw [h2 x x.isLt, if_pos ⟨y, by omega, hf.symm⟩]⟩
  · exact ⟨cs, 1, e, by omega, by rw [h2 1 (by omega), if_pos ⟨0, by omega, h01⟩]⟩

/-! ## k-means++ -/

section Kpp
variable {E D : Type} (O : KppOps V E D)

theorem kppFind_lt (dart : D) : ∀ (ds : List E) (i : Nat) (pre : D) (tmp : Nat), ds ≠ [] →
    kppFind O dart ds i pre tmp < i + ds.length := by
  intro ds
  induction ds with
  | nil => intro i pre tmp h; exact absurd rfl h
  | cons d ds ih =>
    intro i pre tmp _
    unfold kppFind
    split
    · simp
    · cases ds with
      | nil => simp [kppFind]
      | cons d' ds =>
        have := ih (i + 1) (O.add pre d) i (by simp)
        rw [List.length_cons]
        omega

theorem kppLoop_ok (data : List V) (hn : 1 ≤ data.length) (num : Nat) (dart : Nat → D) : ∀ (fuel t : Nat) (s : KppSt V E),
    num ≤ s.centers.length → s.dist.length = data.length → (∀ p ∈ s.picked, p < data.length) →
    (∀ (j p : Nat), s.picked[j]? = some p → s.centers[j]? = data[p]?) → s.picked.length ≤ num →
    kppLoop O data num dart fuel t s = .error .loop ∨
    ∃ (cs : List V) (picked : List Nat), kppLoop O data num dart fuel t s = .ok cs ∧ cs.length = s.centers.length ∧ picked.length = num ∧
      (∀ p ∈ picked, p < data.length) ∧ (∀ (j p : Nat), picked[j]? = some p → cs[j]? = data[p]?) := by
  intro fuel
  induction fuel with
  | zero => intro t s _ _ _ _ _; exact Or.inl rfl
  | succ fuel ih =>
    intro t s hl hd hp hc hnum
    unfold kppLoop
    by_cases hdone : num ≤ s.picked.length
    · rw [if_pos hdone]
      exact Or.inr ⟨s.centers, s.picked, rfl, rfl, by omega, hp, hc⟩
    · rw [if_neg hdone]
      dsimp only
      obtain ⟨sum, hsum⟩ : ∃ sum, sum = O.total s.dist := ⟨_, rfl⟩
      obtain ⟨tmp, htmp⟩ : ∃ tmp, tmp = kppFind O (O.scale (dart t) sum) s.dist 0 O.zero s.tmp := ⟨_, rfl⟩
      have hlt : tmp < data.length := by
        have := kppFind_lt O (O.scale (dart t) sum) s.dist 0 O.zero s.tmp (by
          intro h; rw [h] at hd; simp at hd; omega)
        rw [htmp]; omega
      rw [← hsum, ← htmp]
      by_cases hcont : tmp ∈ s.picked ∧ (s.flag || O.isZero sum) = false
      · rw [if_pos hcont]
        exact ih (t + 1) _ hl hd hp hc hnum
      · rw [if_neg hcont, rd_ok hlt, Res.ok_bind, wr_ok (by omega : s.picked.length < s.centers.length), Res.ok_bind]
        have := ih (t + 1) ⟨s.picked ++ [tmp], s.centers.set s.picked.length data[tmp],
          List.zipWith O.minE s.dist (data.map (fun x => O.dist x data[tmp])), s.flag || O.isZero sum, tmp⟩ (by
            rw [List.length_set]; exact hl) (by simp [hd]) (by
            intro p hpm
            rcases List.mem_append.mp hpm with h | h
            · exact hp p h
            · rw [List.mem_singleton.mp h]; exact hlt) (by
            intro j p hj
            dsimp only at hj ⊢
            rw [List.getElem?_append] at hj
            by_cases hjl : j < s.picked.length
            · rw [if_pos hjl] at hj
              rw [List.getElem?_set_ne (by omega)]
              exact hc j p hj
            · rw [if_neg hjl] at hj
              have hj0 : j = s.picked.length := by
                by_contra hne
                rw [List.getElem?_eq_none (by simp; omega)] at hj
                cases hj
              subst hj0
              rw [Nat.sub_self] at hj
              simp at hj
              subst hj
              rw [List.getElem?_set_self (by omega), List.getElem?_eq_getElem hlt]) (by
            simp only [List.length_append, List.length_singleton]; omega)
        simpa using this

/-- **C58 (k-means++ only; it fails for random centres).** For every data set of 1 to 2^23 points, all outcomes of the random numbers and any
arithmetic: unless the loop does not end, the call succeeds and every centre is a data point. -/
theorem C58_kpp_partial (data : List V) (hn : 1 ≤ data.length) (hmax : data.length ≤ 8388608) (num : Nat) (hnum : 1 ≤ num)
    (init junk : Nat) (hinit : init < data.length) (draw : Nat → Nat) (dart : Nat → D) (fuel : Nat) (centers : List V)
    (hl : num ≤ centers.length) :
    kppCenters O data num init junk draw dart fuel centers = .error .loop ∨
    ∃ cs, kppCenters O data num init junk draw dart fuel centers = .ok cs ∧ cs.length = centers.length ∧
      ∀ j, j < num → ∃ x ∈ data, cs[j]? = some x := by
  unfold kppCenters
  rw [if_neg (by omega), rd_ok hinit, Res.ok_bind, wr_ok (by omega : 0 < centers.length), Res.ok_bind]
  rcases kppLoop_ok O data hn num dart fuel 0 ⟨[init], centers.set 0 data[init],
    data.map (fun x => O.dist x data[init]), false, junk⟩ (by simpa using hl) (by simp) (by simpa using hinit) (by
      intro j p hj
      cases j with
      | zero =>
        simp at hj
        subst hj
        dsimp only
        rw [List.getElem?_set_self (by omega), List.getElem?_eq_getElem hinit]
      | succ j => simp at hj) (by simpa using hnum) with h | ⟨cs, picked, e, h1, h2, h3, h4⟩
  · exact Or.inl h
  · right
    refine ⟨cs, e, by simpa using h1, ?_⟩
    intro j hj
    have hp := h3 picked[j] (List.getElem_mem _)
    refine ⟨data[picked[j]], List.getElem_mem _, ?_⟩
    rw [h4 j _ (List.getElem?_eq_getElem (by omega)), List.getElem?_eq_getElem hp]

/-- **C58 (fallback).** With more than 2^23 points the centres are chosen by `random_centers`. -/
theorem C58_fallback (data : List V) (hmax : 8388608 < data.length) (num init junk : Nat) (draw : Nat → Nat)
    (dart : Nat → D) (fuel : Nat) (centers : List V) :
    kppCenters O data num init junk draw dart fuel centers = randomCenters data draw num centers := by
  unfold kppCenters; rw [if_pos hmax]

/-- **C58 (limits).** Without points, or without room for one centre, the behaviour is undefined. -/
theorem C58_limits (data : List V) (hmax : data.length ≤ 8388608) (num init junk : Nat) (draw : Nat → Nat)
    (dart : Nat → D) (fuel : Nat) (centers : List V) (h : data = [] ∨ centers = []) :
    kppCenters O data num init junk draw dart fuel centers = .error .ub := by
  unfold kppCenters
  rw [if_neg (by omega)]
  rcases h with rfl | rfl
  · rw [rd_ub (by simp)]; rfl
  · by_cases hi : init < data.length
    · rw [rd_ok hi, Res.ok_bind, wr_ub (by simp)]; rfl
    · rw [rd_ub (by omega)]; rfl

/-! ### A NaN makes the loop endless -/

/-- The laws of NaN. -/
structure NanLaws (nanE : E) (nanD : D) : Prop where
  min_nan : ∀ e, O.minE nanE e = nanE
  total_nan : ∀ l, nanE ∈ l → O.total l = nanD
  nan_zero : O.isZero nanD = false
  scale_nan : ∀ s, O.scale s nanD = nanD
  no_hit : ∀ p e, O.hit nanD p e = false

theorem kppFind_nohit (dart : D) (hno : ∀ p e, O.hit dart p e = false) : ∀ (ds : List E) (i : Nat) (pre : D) (tmp : Nat),
    ds ≠ [] → kppFind O dart ds i pre tmp = i + ds.length - 1 := by
  intro ds
  induction ds with
  | nil => intro _ _ _ h; exact absurd rfl h
  | cons d ds ih =>
    intro i pre tmp _
    unfold kppFind
    rw [if_neg (by rw [hno]; simp)]
    cases ds with
    | nil => simp [kppFind]
    | cons d' ds => rw [ih _ _ _ (by simp)]; simp only [List.length_cons]; omega

theorem kppLoop_nan {O : KppOps V E D} {nanE : E} {nanD : D} (h : NanLaws O nanE nanD) (data : List V)
    (bad : Nat) (hbad : ∃ x, data[bad]? = some x ∧ ∀ y, O.dist x y = nanE) (num : Nat)
    (dart : Nat → D) : ∀ (fuel t : Nat) (s : KppSt V E),
    num ≤ s.centers.length → s.dist.length = data.length → s.dist[bad]? = some nanE →
    s.flag = false → (s.picked.length + 2 ≤ num ∨ (s.picked.length + 1 ≤ num ∧ data.length - 1 ∈ s.picked)) →
    kppLoop O data num dart fuel t s = .error .loop := by
  obtain ⟨x, hx, hxn⟩ := hbad
  have hbl : bad < data.length := (List.getElem?_eq_some_iff.mp hx).1
  intro fuel
  induction fuel with
  | zero => intro t s _ _ _ _ _; rfl
  | succ fuel ih =>
    intro t s hl hd hb hf hp
    unfold kppLoop
    rw [if_neg (by omega)]
    dsimp only
    have hsum : O.total s.dist = nanD := h.total_nan _ (List.mem_of_getElem? hb)
    have hne : s.dist ≠ [] := by intro h0; rw [h0] at hb; simp at hb
    rw [hsum, h.scale_nan, kppFind_nohit O nanD h.no_hit _ _ _ _ hne, hd, h.nan_zero, hf, Bool.or_false, Nat.zero_add]
    by_cases hm : data.length - 1 ∈ s.picked
    · rw [if_pos ⟨hm, rfl⟩]
      exact ih (t + 1) _ hl hd hb rfl (Or.inr ⟨by dsimp only; omega, hm⟩)
    · rw [if_neg (fun h => hm h.1), rd_ok (by omega : data.length - 1 < data.length), Res.ok_bind,
        wr_ok (by rcases hp with h | h <;> omega), Res.ok_bind]
      apply ih
      · simpa using hl
      · simp [hd]
      · dsimp only
        rw [List.getElem?_zipWith, hb, List.getElem?_map, hx]
        simp only [Option.map_some]
        rw [hxn, h.min_nan]
      · rfl
      · right
        refine ⟨?_, by simp⟩
        rcases hp with h | h
        · simp; omega
        · exact absurd h.2 hm

/-- **C58 (NaN).** If the data contain a point whose distance from every point is NaN, for instance one with a NaN
coordinate, the choice of three or more centres never ends, whatever the random numbers. -/
theorem C58_nan_endless {O : KppOps V E D} {nanE : E} {nanD : D} (h : NanLaws O nanE nanD) (data : List V)
    (hmax : data.length ≤ 8388608)
    (bad : Nat) (hbad : ∃ x, data[bad]? = some x ∧ ∀ y, O.dist x y = nanE) (num : Nat) (hnum : 3 ≤ num)
    (init junk : Nat) (hinit : init < data.length) (draw : Nat → Nat) (dart : Nat → D) (centers : List V)
    (hl : num ≤ centers.length) (fuel : Nat) :
    kppCenters O data num init junk draw dart fuel centers = .error .loop := by
  unfold kppCenters
  rw [if_neg (by omega), rd_ok hinit, Res.ok_bind, wr_ok (by omega : 0 < centers.length), Res.ok_bind]
  apply kppLoop_nan h data bad hbad num dart
  · simpa using hl
  · simp
  · obtain ⟨x, hx, hxn⟩ := hbad
    dsimp only
    rw [List.getElem?_map, hx, Option.map_some, hxn]
  · rfl
  · left; simpa using hnum

end Kpp

/-! ### Exact arithmetic -/

section Ends

variable {V E D : Type}

/-- What makes the loop end: for points with `S` and random numbers with `T`, distances have `G`, the smallest ones have `Z`, and the dart hits a
point whose distance does not, unless all of them do. -/
structure EndLaws (O : KppOps V E D) (S : V → Prop) (G Z : E → Prop) (T : D → Prop) : Prop where
  dist : ∀ x y, S x → S y → G (O.dist x y)
  self : ∀ x, S x → Z (O.dist x x)
  minG : ∀ a b, G a → G b → G (O.minE a b)
  minZ : ∀ a b, G a → G b → (Z (O.minE a b) ↔ Z a ∨ Z b)
  find : ∀ t ds, ds.length ≤ 8388608 → T t → (∀ d ∈ ds, G d) → (O.isZero (O.total ds) = true ∧ ∀ d ∈ ds, Z d) ∨
    (O.isZero (O.total ds) = false ∧ ∀ tmp, ∃ k d, kppFind O (O.scale t (O.total ds)) ds 0 O.zero tmp = k ∧ ds[k]? = some d ∧ ¬ Z d)

theorem kppLoop_ends {O : KppOps V E D} {S : V → Prop} {G Z : E → Prop} {T : D → Prop} (L : EndLaws O S G Z T) (data : List V)
    (hS : ∀ x ∈ data, S x) (hn : 1 ≤ data.length) (hmax : data.length ≤ 8388608) (num : Nat) (dart : Nat → D) (hdart : ∀ t, T (dart t)) :
    ∀ (fuel t : Nat) (s : KppSt V E), num ≤ s.centers.length → s.dist.length = data.length →
    (∀ p ∈ s.picked, p < data.length) → (∀ (j p : Nat), s.picked[j]? = some p → s.centers[j]? = data[p]?) →
    s.picked.length ≤ num → num < fuel + s.picked.length → (∀ d ∈ s.dist, G d) →
    (∀ p ∈ s.picked, ∃ d, s.dist[p]? = some d ∧ Z d) →
    (∀ (p : Nat) (x : V) (d : E), data[p]? = some x → s.dist[p]? = some d → Z d → ∃ q ∈ s.picked, ∃ y, data[q]? = some y ∧ Z (O.dist x y)) →
    (s.picked.Nodup ∨ ∀ d ∈ s.dist, Z d) → (s.flag = true → ∀ d ∈ s.dist, Z d) →
    ∃ (cs : List V) (picked : List Nat), kppLoop O data num dart fuel t s = .ok cs ∧ picked.length = num ∧
      (∀ p ∈ picked, p < data.length) ∧ (∀ (j p : Nat), picked[j]? = some p → cs[j]? = data[p]?) ∧
      (picked.Nodup ∨ ∀ x ∈ data, ∃ q ∈ picked, ∃ y, data[q]? = some y ∧ Z (O.dist x y)) := by
  intro fuel
  induction fuel with
  | zero => intro t s _ _ _ _ h1 h2; omega
  | succ fuel ih =>
    intro t s hl hd hp hc hnum hfuel hdn hpz hzero hnod hflag
    unfold kppLoop
    by_cases hdone : num ≤ s.picked.length
    · rw [if_pos hdone]
      refine ⟨s.centers, s.picked, rfl, by omega, hp, hc, ?_⟩
      rcases hnod with h | h
      · exact Or.inl h
      · right
        intro x hx
        obtain ⟨p, hpl, rfl⟩ := List.getElem_of_mem hx
        exact hzero p _ _ (List.getElem?_eq_getElem hpl) (List.getElem?_eq_getElem (by omega : p < s.dist.length)) (h _ (List.getElem_mem _))
    · rw [if_neg hdone]
      dsimp only
      obtain ⟨tmp, htmp⟩ : ∃ tmp, tmp = kppFind O (O.scale (dart t) (O.total s.dist)) s.dist 0 O.zero s.tmp := ⟨_, rfl⟩
      have hlt : tmp < data.length := by
        have := kppFind_lt O (O.scale (dart t) (O.total s.dist)) s.dist 0 O.zero s.tmp (by
          intro h; rw [h] at hd; simp at hd; omega)
        rw [htmp]; omega
      -- either everything is at distance zero, or the dart hits a point at a positive distance
      have hcase : (∀ d ∈ s.dist, Z d) ∧ O.isZero (O.total s.dist) = true ∨
          tmp ∉ s.picked ∧ (s.flag || O.isZero (O.total s.dist)) = false := by
        rcases L.find (dart t) s.dist (by omega) (hdart t) hdn with h | ⟨h0, h⟩
        · exact Or.inl ⟨h.2, h.1⟩
        · right
          obtain ⟨k, d, e, hk, hz⟩ := h s.tmp
          have etmp : tmp = k := by rw [htmp, e]
          refine ⟨?_, ?_⟩
          · intro hm
            obtain ⟨d', hd', hz'⟩ := hpz tmp hm
            rw [etmp, hk] at hd'
            cases hd'
            exact hz hz'
          · have hfl : s.flag = false := by
              by_contra hf
              exact hz (hflag (by simpa using hf) d (List.mem_of_getElem? hk))
            rw [hfl, h0]
            rfl
      rw [← htmp]
      have hcont : ¬ (tmp ∈ s.picked ∧ (s.flag || O.isZero (O.total s.dist)) = false) := by
        rcases hcase with ⟨_, h⟩ | ⟨h, _⟩
        · rw [h]; simp
        · exact fun hh => h hh.1
      rw [if_neg hcont, rd_ok hlt, Res.ok_bind, wr_ok (by omega : s.picked.length < s.centers.length), Res.ok_bind]
      have hSt : S data[tmp] := hS _ (List.getElem_mem _)
      obtain ⟨dist', hdist'⟩ : ∃ dist', dist' = List.zipWith O.minE s.dist (data.map (fun x => O.dist x data[tmp])) := ⟨_, rfl⟩
      have hget : ∀ (p : Nat) (x : V) (d : E), data[p]? = some x → s.dist[p]? = some d → dist'[p]? = some (O.minE d (O.dist x data[tmp])) := by
        intro p x d hx hd'
        rw [hdist', List.getElem?_zipWith, hd', List.getElem?_map, hx]
        rfl
      have hl' : dist'.length = data.length := by rw [hdist']; simp [hd]
      have hgetD : ∀ p, p < data.length → ∃ x d, data[p]? = some x ∧ s.dist[p]? = some d ∧ G d ∧ G (O.dist x data[tmp]) := by
        intro p hpl
        exact ⟨_, _, List.getElem?_eq_getElem hpl, List.getElem?_eq_getElem (by omega : p < s.dist.length),
          hdn _ (List.getElem_mem _), L.dist _ _ (hS _ (List.getElem_mem _)) hSt⟩
      have hdn' : ∀ d ∈ dist', G d := by
        intro d hdm
        obtain ⟨p, hpl, rfl⟩ := List.getElem_of_mem hdm
        obtain ⟨x, d, hx, hd', g1, g2⟩ := hgetD p (by omega)
        have := hget p x d hx hd'
        rw [List.getElem?_eq_getElem hpl] at this
        rw [Option.some.inj this]
        exact L.minG _ _ g1 g2
      have hall0 : (∀ d ∈ s.dist, Z d) → ∀ d ∈ dist', Z d := by
        intro h d hdm
        obtain ⟨p, hpl, rfl⟩ := List.getElem_of_mem hdm
        obtain ⟨x, d, hx, hd', g1, g2⟩ := hgetD p (by omega)
        have := hget p x d hx hd'
        rw [List.getElem?_eq_getElem hpl] at this
        rw [Option.some.inj this]
        exact (L.minZ _ _ g1 g2).2 (Or.inl (h d (List.mem_of_getElem? hd')))
      rw [← hdist']
      apply ih
      · simpa using hl
      · exact hl'
      · intro p hpm
        rcases List.mem_append.mp hpm with h | h
        · exact hp p h
        · rw [List.mem_singleton.mp h]; exact hlt
      · intro j p hj
        dsimp only at hj ⊢
        rw [List.getElem?_append] at hj
        by_cases hjl : j < s.picked.length
        · rw [if_pos hjl] at hj
          rw [List.getElem?_set_ne (by omega)]
          exact hc j p hj
        · rw [if_neg hjl] at hj
          have hj0 : j = s.picked.length := by
            by_contra hne
            rw [List.getElem?_eq_none (by simp; omega)] at hj
            cases hj
          subst hj0
          rw [Nat.sub_self] at hj
          simp at hj
          subst hj
          rw [List.getElem?_set_self (by omega), List.getElem?_eq_getElem hlt]
      · simp only [List.length_append, List.length_singleton]; omega
      · simp only [List.length_append, List.length_singleton]; omega
      · exact hdn'
      · intro p hpm
        dsimp only
        rcases List.mem_append.mp hpm with h | h
        · obtain ⟨x, d, hx, hd', g1, g2⟩ := hgetD p (hp p h)
          obtain ⟨d0, h0, hz⟩ := hpz p h
          rw [hd'] at h0
          cases h0
          exact ⟨_, hget p x d hx hd', (L.minZ _ _ g1 g2).2 (Or.inl hz)⟩
        · rw [List.mem_singleton.mp h]
          obtain ⟨x, d, hx, hd', g1, g2⟩ := hgetD tmp hlt
          refine ⟨_, hget tmp x d hx hd', (L.minZ _ _ g1 g2).2 (Or.inr ?_)⟩
          rw [List.getElem?_eq_getElem hlt] at hx
          rw [← Option.some.inj hx]
          exact L.self _ hSt
      · intro p x d hx hd1 hz
        dsimp only at hd1 ⊢
        have hpl : p < data.length := (List.getElem?_eq_some_iff.mp hx).1
        obtain ⟨x', d', hx', hd', g1, g2⟩ := hgetD p hpl
        rw [hx] at hx'
        cases hx'
        rw [hget p x d' hx hd'] at hd1
        cases hd1
        rcases (L.minZ _ _ g1 g2).1 hz with h | h
        · obtain ⟨q, hq, y, hy, hxy⟩ := hzero p x d' hx hd' h
          exact ⟨q, by simp [hq], y, hy, hxy⟩
        · exact ⟨tmp, by simp, _, List.getElem?_eq_getElem hlt, h⟩
      · rcases hcase with ⟨h, _⟩ | ⟨h, _⟩
        · exact Or.inr (hall0 h)
        · rcases hnod with h' | h'
          · left
            dsimp only
            rw [List.nodup_append]
            refine ⟨h', by simp, ?_⟩
            intro a ha b hb
            rw [List.mem_singleton.mp hb]
            rintro rfl
            exact h ha
          · exact Or.inr (hall0 h')
      · intro hf
        dsimp only at hf ⊢
        rcases hcase with ⟨h, _⟩ | ⟨_, h⟩
        · exact hall0 h
        · rw [h] at hf; cases hf

/-- **C58 (k-means++, the end).** With arithmetic that meets these laws the loop ends after `num` - 1 rounds whatever the random numbers, every centre is a
data point, and a point is chosen twice only if every data point is at a distance with `Z` from a centre. -/
theorem C58_kpp_ends {O : KppOps V E D} {S : V → Prop} {G Z : E → Prop} {T : D → Prop} (L : EndLaws O S G Z T) (data : List V) (hS : ∀ x ∈ data, S x)
    (hmax : data.length ≤ 8388608) (num : Nat) (hnum : 1 ≤ num) (init junk : Nat)
    (hinit : init < data.length) (draw : Nat → Nat) (dart : Nat → D) (hdart : ∀ t, T (dart t)) (fuel : Nat) (hfuel : num ≤ fuel)
    (centers : List V) (hl : num ≤ centers.length) :
    ∃ (cs : List V) (picked : List Nat), kppCenters O data num init junk draw dart fuel centers = .ok cs ∧ picked.length = num ∧
      (∀ p ∈ picked, p < data.length) ∧ (∀ (j p : Nat), picked[j]? = some p → cs[j]? = data[p]?) ∧
      (picked.Nodup ∨ ∀ x ∈ data, ∃ q ∈ picked, ∃ y, data[q]? = some y ∧ Z (O.dist x y)) := by
  unfold kppCenters
  rw [if_neg (by omega), rd_ok hinit, Res.ok_bind, wr_ok (by omega : 0 < centers.length), Res.ok_bind]
  have hSi : S data[init] := hS _ (List.getElem_mem _)
  apply kppLoop_ends L data hS (by omega) hmax num dart hdart fuel 0
  · simpa using hl
  · simp
  · simpa using hinit
  · intro j p hj
    cases j with
    | zero =>
      simp at hj
      subst hj
      dsimp only
      rw [List.getElem?_set_self (by omega), List.getElem?_eq_getElem hinit]
    | succ j => simp at hj
  · simpa using hnum
  · simp only [List.length_singleton]; omega
  · intro d hd
    obtain ⟨x, hx, rfl⟩ := List.mem_map.mp hd
    exact L.dist _ _ (hS x hx) hSi
  · intro p hp
    rw [List.mem_singleton.mp hp]
    dsimp only
    rw [List.getElem?_map, List.getElem?_eq_getElem hinit, Option.map_some]
    exact ⟨_, rfl, L.self _ hSi⟩
  · intro p x d hx hd hz
    dsimp only at hd ⊢
    rw [List.getElem?_map, hx, Option.map_some] at hd
    cases hd
    exact ⟨init, by simp, _, List.getElem?_eq_getElem hinit, hz⟩
  · exact Or.inl (by simp)
  · intro h; cases h

end Ends

section Exact
variable {K : Type} [Field K] [LinearOrder K] [IsStrictOrderedRing K]

/-- The arithmetic of k-means++ without rounding. -/
def exactKpp (dist : V → V → K) : KppOps V K K :=
  ⟨dist, min, 0, (· + ·), fun ds => ds.foldl (· + ·) 0, fun s => decide (s = 0), (· * ·), fun t p d => decide (p ≤ t ∧ t < p + d)⟩

theorem foldl_add_ge : ∀ (l : List K) (s : K), (∀ d ∈ l, 0 ≤ d) → s ≤ l.foldl (· + ·) s := by
  intro l
  induction l with
  | nil => intro s _; exact le_refl s
  | cons d l ih =>
    intro s h
    rw [List.foldl_cons]
    exact le_trans (le_add_of_nonneg_right (h d (by simp))) (ih (s + d) (fun x hx => h x (by simp [hx])))

theorem kppFind_exact (dist : V → V → K) (t : K) : ∀ (ds : List K) (i : Nat) (pre : K) (tmp : Nat),
    (∀ d ∈ ds, 0 ≤ d) → pre ≤ t → t < ds.foldl (· + ·) pre →
    ∃ k, kppFind (exactKpp dist) t ds i pre tmp = i + k ∧ ∃ d, ds[k]? = some d ∧ 0 < d := by
  intro ds
  induction ds with
  | nil => intro i pre tmp _ h1 h2; exact absurd (lt_of_le_of_lt h1 h2) (lt_irrefl _)
  | cons d ds ih =>
    intro i pre tmp hd h1 h2
    unfold kppFind
    by_cases hh : (exactKpp dist).hit t pre d = true
    · rw [if_pos hh]
      have : pre ≤ t ∧ t < pre + d := by simpa [exactKpp] using hh
      exact ⟨0, rfl, d, rfl, by linarith [this.1, this.2]⟩
    · rw [if_neg hh]
      have hnot : ¬ (pre ≤ t ∧ t < pre + d) := by simpa [exactKpp] using hh
      have hge : pre + d ≤ t := by
        by_contra hlt
        exact hnot ⟨h1, not_le.mp hlt⟩
      obtain ⟨k, e, d', hk, hpos⟩ := ih (i + 1) (pre + d) i (fun x hx => hd x (by simp [hx])) hge h2
      refine ⟨k + 1, ?_, d', by simpa using hk, hpos⟩
      have : (exactKpp dist).add pre d = pre + d := rfl
      rw [this, e]
      omega

theorem foldl_zero : ∀ (l : List K) (s : K), (∀ d ∈ l, 0 ≤ d) → 0 ≤ s → l.foldl (· + ·) s = 0 →
    ∀ d ∈ l, d = 0 := by
  intro l
  induction l with
  | nil => intro s _ _ _ d hd; simp at hd
  | cons e l ih =>
    intro s h hs h0 d hd
    rw [List.foldl_cons] at h0
    have he := h e (by simp)
    have hl : ∀ x ∈ l, 0 ≤ x := fun x hx => h x (by simp [hx])
    have hge := foldl_add_ge l (s + e) hl
    rw [h0] at hge
    have hse : e = 0 := by linarith
    rcases List.mem_cons.mp hd with rfl | hd
    · exact hse
    · exact ih (s + e) hl (by linarith) h0 d hd

theorem exactKpp_laws (dist : V → V → K) (hnn : ∀ x y, 0 ≤ dist x y) (hself : ∀ x, dist x x = 0) :
    EndLaws (exactKpp dist) (fun _ => True) (fun d => 0 ≤ d) (fun d => d = 0) (fun t => 0 ≤ t ∧ t < 1) where
  dist x y _ _ := hnn x y
  self x _ := hself x
  minG a b ha hb := le_min ha hb
  minZ a b ha hb := by
    change min a b = 0 ↔ _
    constructor
    · intro h
      rcases min_choice a b with h' | h' <;> rw [h'] at h
      · exact Or.inl h
      · exact Or.inr h
    · rintro (h | h)
      · rw [h]; exact min_eq_left hb
      · rw [h]; exact min_eq_right ha
  find t ds _ ht hd := by
    have hs : 0 ≤ ds.foldl (· + ·) 0 := foldl_add_ge _ _ hd
    by_cases h0 : ds.foldl (· + ·) 0 = 0
    · left
      exact ⟨by simp [exactKpp, h0], foldl_zero _ 0 hd (le_refl _) h0⟩
    · right
      have hpos : 0 < ds.foldl (· + ·) 0 := lt_of_le_of_ne hs (Ne.symm h0)
      refine ⟨by simp [exactKpp, h0], fun tmp => ?_⟩
      obtain ⟨k, e, d, hk, hdp⟩ := kppFind_exact dist (t * ds.foldl (· + ·) 0) ds 0 0 tmp hd (mul_nonneg ht.1 hs) (by
        have := mul_lt_mul_of_pos_right ht.2 hpos
        rwa [one_mul] at this)
      rw [Nat.zero_add] at e
      exact ⟨k, d, e, hk, fun h => by rw [h] at hdp; exact lt_irrefl _ hdp⟩

/-- **C58 (k-means++, exact arithmetic).** Without rounding the loop ends after `num` - 1 rounds whatever the random
numbers, every centre is a data point, and a point is chosen twice only if every data point coincides with a
centre. -/
theorem C58_kpp_exact (dist : V → V → K) (hnn : ∀ x y, 0 ≤ dist x y) (hself : ∀ x, dist x x = 0) (data : List V)
    (hmax : data.length ≤ 8388608) (num : Nat) (hnum : 1 ≤ num) (init junk : Nat)
    (hinit : init < data.length) (draw : Nat → Nat) (dart : Nat → K) (hdart : ∀ t, 0 ≤ dart t ∧ dart t < 1)
    (centers : List V) (hl : num ≤ centers.length) :
    ∃ (cs : List V) (picked : List Nat), kppCenters (exactKpp dist) data num init junk draw dart num centers = .ok cs ∧ picked.length = num ∧
      (∀ p ∈ picked, p < data.length) ∧ (∀ (j p : Nat), picked[j]? = some p → cs[j]? = data[p]?) ∧
      (picked.Nodup ∨ ∀ x ∈ data, ∃ q ∈ picked, ∃ y, data[q]? = some y ∧ dist x y = 0) := by
  exact C58_kpp_ends (exactKpp_laws dist hnn hself) data (fun _ _ => trivial) hmax num hnum init junk hinit draw dart hdart num (le_refl _) centers hl

end Exact

/-- Three points, two centres. -/
example : kppCenters (exactKpp (fun x y : ℚ => (x - y) * (x - y))) [1, 1, 4] 2 0 7 (fun _ => 0) (fun _ => 1 / 2) 2 [9, 9] =
    .ok [1, 4] := by decide +kernel

/-- The same point drawn twice leaves the second centre as it was. -/
example : randomCenters [5, 6, 7] (fun j => [2, 2, 0].getD j 0) 3 [90, 91, 92] = .ok [7, 91, 5] := by decide

example := C58_random_unset [5, 6, 7] (fun _ => 1) (fun _ => by decide) 2 [90, 91] (by decide) (Or.inr ⟨by decide, rfl⟩)

example := C58_kpp_exact (fun x y : ℚ => (x - y) * (x - y)) (fun x y => mul_self_nonneg _) (fun x => by ring) [1, 1, 4]
  (by decide) 3 (by decide) 0 7 (by decide) (fun _ => 0) (fun _ => 1 / 2) (fun _ => by constructor <;> norm_num) [9, 9, 9]
  (by decide)

example := C58_kpp_ends (exactKpp_laws (fun x y : ℚ => (x - y) * (x - y)) (fun x y => mul_self_nonneg _) (fun x => by ring)) [1, 1, 4] (fun _ _ => trivial)
  (by decide) 2 (by decide) 0 7 (by decide) (fun _ => 0) (fun _ => 1 / 2) (fun _ => by constructor <;> norm_num) 100 (by decide) [9, 9] (by decide)

/-- Rational numbers with a NaN. -/
def exNanKpp : KppOps (Option ℚ) (Option ℚ) (Option ℚ) where
  dist x y := match x, y with
    | some a, some b => some ((a - b) * (a - b))
    | _, _ => none
  minE x y := match x, y with
    | some a, some b => some (min a b)
    | some a, none => some a
    | none, _ => none
  zero := some 0
  add x y := match x, y with
    | some a, some b => some (a + b)
    | _, _ => none
  total ds := ds.foldl (fun x y => match x, y with
    | some a, some b => some (a + b)
    | _, _ => none) (some 0)
  isZero x := x == some 0
  scale x y := match x, y with
    | some a, some b => some (a * b)
    | _, _ => none
  hit t p d := match t, p, d with
    | some t, some p, some d => decide (p ≤ t ∧ t < p + d)
    | _, _, _ => false

theorem foldl_none (f : Option ℚ → Option ℚ → Option ℚ) (h1 : ∀ s, f s none = none) (h2 : ∀ e, f none e = none) : ∀ (l : List (Option ℚ)) (s : Option ℚ),
    s = none ∨ none ∈ l → l.foldl f s = none := by
  intro l
  induction l with
  | nil => intro s hs; rcases hs with h | h
           · exact h
           · simp at h
  | cons e l ih =>
    intro s hs
    rw [List.foldl_cons]
    apply ih
    rcases hs with rfl | hs
    · exact Or.inl (h2 e)
    · rcases List.mem_cons.mp hs with rfl | hs
      · exact Or.inl (h1 s)
      · exact Or.inr hs

theorem exNanKpp_laws : NanLaws exNanKpp none none where
  min_nan e := rfl
  total_nan l h := foldl_none _ (fun s => by cases s <;> rfl) (fun _ => rfl) l _ (Or.inr h)
  nan_zero := rfl
  scale_nan s := by cases s <;> rfl
  no_hit p e := rfl

example : ∀ fuel, kppCenters exNanKpp [some 1, none, some 3, some 4] 3 0 7 (fun _ => 0) (fun _ => some (1 / 3)) fuel
    [none, none, none] = .error .loop :=
  C58_nan_endless exNanKpp_laws _ (by decide) 1 ⟨none, rfl, fun _ => rfl⟩ 3 (by decide) 0 7 (by decide) _ _ _ (by decide)

example := C58_kpp_partial exNanKpp [some 1, some 2] (by decide) (by decide) 2 (by decide) 0 7 (by decide) (fun _ => 0)
  (fun _ => some (1 / 3)) 5 [none, none] (by decide)

/-! ## The theorems applied to the examples -/

/-- The same point drawn twice. -/
example := C58_random [5, 6, 7] (fun j => [2, 2, 0].getD j 0)
  (fun j => by
    rcases j with _ | _ | _ | j
    · decide
    · decide
    · decide
    · simp) 3 [90, 91, 92] (by decide)

/-- One point more than 2^23. -/
example := C58_fallback (exactKpp (fun x y : ℚ => (x - y) * (x - y))) (List.replicate 8388609 1)
  (by rw [List.length_replicate]; decide) 2 0 7 (fun _ => 0) (fun _ => 1 / 2) 2 [9, 9]

example : kppCenters (exactKpp (fun x y : ℚ => (x - y) * (x - y))) [] 2 0 7 (fun _ => 0) (fun _ => 1 / 2) 2 [9, 9]
    = .error .ub := C58_limits _ [] (by decide) 2 0 7 _ _ 2 [9, 9] (Or.inl rfl)

end Grann
