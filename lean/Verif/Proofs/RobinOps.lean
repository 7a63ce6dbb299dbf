import Verif.Proofs.Robin
/-!
# The operations of the robin hood hash set
-/

namespace Grann

/-- No few buckets attract many keys. -/
def Spread (hash : Nat → Nat) (K : List Nat) (m : Nat) : Prop :=
  ∀ s w, s < m → 0 < w → w ≤ m → K.countP (inWin hash m s w) ≤ w + 32766

theorem Spread.mono {hash : Nat → Nat} {K L : List Nat} {m : Nat} (h : Spread hash K m) (hs : L.Subperm K) :
    Spread hash L m := fun s w h1 h2 h3 => (hs.countP_le _).trans (h s w h1 h2 h3)

theorem rd_enc {tb : Tab} {p : Nat} {o : Option (Nat × Nat)} (h : tb[p]? = some o) :
    rd (tb.map encB) p = .ok (encB o) := by
  unfold rd
  rw [List.getElem?_map, h]
  rfl

theorem wr_enc {tb : Tab} {p k d : Nat} (h : p < tb.length) :
    wr (tb.map encB) p ⟨d, some k⟩ = .ok ((tb.set p (some (k, d))).map encB) := by
  rw [wr_ok (by simpa using h), List.map_set]
  rfl

theorem nextBkt_eq {kk p : Nat} : nextBkt (2 ^ kk - 1) p = (p + 1) % 2 ^ kk := by
  unfold nextBkt
  rw [Nat.and_two_pow_sub_one_eq_mod]

theorem inc16_eq {j : Nat} (h : j ≤ 32766) : inc16 (j : Int) = ((j + 1 : Nat) : Int) := by
  unfold inc16
  rw [if_neg (by omega)]
  rfl

/-- Something to be placed at `p`, at distance `j` from its ideal bucket. -/
structure Carry (hash : Nat → Nat) (tb : Tab) (p j k : Nat) : Prop where
  lt : p < tb.length
  pos : (hash k + j) % tb.length = p
  pred : PredOk tb p j
  new : k ∉ tb.keys

theorem pred_bound {hash : Nat → Nat} {tb : Tab} (ht : TInv hash tb) {p j : Nat} (hp : p < tb.length)
    (hpred : PredOk tb p j) (hempty : ∃ i : Nat, tb[i]? = some none) (hs : Spread hash tb.keys tb.length) :
    j ≤ 32767 := by
  rcases Nat.eq_zero_or_pos j with h | h
  · omega
  · obtain ⟨s, w, h1, h2, h3, h4, _⟩ := path_bound ht hp h hpred hempty
    have := hs s w h1 h2 h3
    omega

theorem carry_bound {hash : Nat → Nat} {tb : Tab} (ht : TInv hash tb) {p j k : Nat} (hc : Carry hash tb p j k)
    (hempty : ∃ i : Nat, tb[i]? = some none) (hs : Spread hash (k :: tb.keys) tb.length) : j ≤ 32766 := by
  rcases Nat.eq_zero_or_pos j with h | h
  · omega
  · obtain ⟨s, w, h1, h2, h3, h4, h5⟩ := path_bound ht hc.lt h hc.pred hempty
    have h6 := hs s w h1 h2 h3
    rw [List.countP_cons_of_pos (h5 k hc.pos)] at h6
    omega

theorem keys_set_none {tb : Tab} {p k j : Nat} (h : tb[p]? = some none) :
    (Tab.keys (tb.set p (some (k, j)))).Perm (k :: tb.keys) := by
  obtain ⟨hp, he⟩ := List.getElem?_eq_some_iff.1 h
  have h1 : tb = tb.take p ++ none :: tb.drop (p + 1) := by
    rw [← he, ← List.drop_eq_getElem_cons hp, List.take_append_drop]
  have h2 : tb.set p (some (k, j)) = tb.take p ++ some (k, j) :: tb.drop (p + 1) := by
    rw [List.set_eq_take_append_cons_drop, if_pos hp]
  rw [h2]
  conv => rhs; rw [h1]
  simp only [Tab.keys, List.filterMap_append, List.filterMap_cons, Option.map_some, Option.map_none]
  exact List.perm_middle

theorem keys_set_some {tb : Tab} {p k j k' d' : Nat} (h : tb[p]? = some (some (k', d'))) :
    (k' :: Tab.keys (tb.set p (some (k, j)))).Perm (k :: tb.keys) := by
  obtain ⟨hp, he⟩ := List.getElem?_eq_some_iff.1 h
  have h1 : tb = tb.take p ++ some (k', d') :: tb.drop (p + 1) := by
    rw [← he, ← List.drop_eq_getElem_cons hp, List.take_append_drop]
  have h2 : tb.set p (some (k, j)) = tb.take p ++ some (k, j) :: tb.drop (p + 1) := by
    rw [List.set_eq_take_append_cons_drop, if_pos hp]
  rw [h2]
  conv => rhs; rw [h1]
  simp only [Tab.keys, List.filterMap_append, List.filterMap_cons, Option.map_some]
  exact (List.perm_middle.cons k').trans ((List.Perm.swap k k' _).trans (List.perm_middle.symm.cons k))

/-- Writing the carried key into a bucket that is empty or has something at a smaller distance. -/
theorem set_inv {hash : Nat → Nat} {tb : Tab} (ht : TInv hash tb) {p j k : Nat} (hc : Carry hash tb p j k)
    {o : Option (Nat × Nat)} (ho : tb[p]? = some o) (hd : ∀ k' d', o = some (k', d') → d' ≤ j) :
    TInv hash (tb.set p (some (k, j))) := by
  have hself : (tb.set p (some (k, j)))[p]? = some (some (k, j)) := by
    rw [List.getElem?_set_self hc.lt]
  have hother : ∀ i, i ≠ p → (tb.set p (some (k, j)))[i]? = tb[i]? := by
    intro i hi
    rw [List.getElem?_set_ne (by omega)]
  refine ⟨?_, ?_, ?_⟩
  · intro i k1 d1 h
    rw [List.length_set]
    by_cases hi : i = p
    · rw [hi, hself] at h
      simp only [Option.some.injEq, Prod.mk.injEq] at h
      rw [← h.1, ← h.2, hc.pos, hi]
    · rw [hother i hi] at h
      exact ht.pos i k1 d1 h
  · intro i k1 d1 h
    rw [List.length_set]
    have hpred : ∃ k' d' : Nat, tb[(i + tb.length - 1) % tb.length]? = some (some (k', d')) ∧ d1 ≤ d' := by
      by_cases hi : i = p
      · rw [hi, hself] at h
        simp only [Option.some.injEq, Prod.mk.injEq] at h
        rw [hi]
        exact hc.pred d1 h.2
      · rw [hother i hi] at h
        exact ht.ord i k1 d1 h
    obtain ⟨k', d', hb, hdd⟩ := hpred
    by_cases hq : (i + tb.length - 1) % tb.length = p
    · rw [hq] at hb ⊢
      rw [ho] at hb
      have := hd k' d' (by simpa using hb)
      exact ⟨k, j, hself, by omega⟩
    · exact ⟨k', d', by rw [hother _ hq]; exact hb, hdd⟩
  · cases o with
    | none =>
      rw [(keys_set_none ho).nodup_iff, List.nodup_cons]
      exact ⟨hc.new, ht.nodup⟩
    | some q =>
      have h1 : (q.1 :: Tab.keys (tb.set p (some (k, j)))).Nodup := by
        rw [(keys_set_some (k := k) (j := j) (k' := q.1) (d' := q.2) ho).nodup_iff, List.nodup_cons]
        exact ⟨hc.new, ht.nodup⟩
      exact (List.nodup_cons.1 h1).2

theorem pred_index {p m : Nat} (hp : p < m) : ((p + 1) % m + m - 1) % m = p := by
  rcases Nat.lt_or_ge (p + 1) m with h | h
  · rw [Nat.mod_eq_of_lt h]
    have : p + 1 + m - 1 = p + m := by omega
    rw [this, Nat.add_mod_right, Nat.mod_eq_of_lt hp]
  · have h1 : p + 1 = m := by omega
    rw [h1, Nat.mod_self]
    have : 0 + m - 1 = p := by omega
    rw [this, Nat.mod_eq_of_lt hp]

/-- Passing a bucket. -/
theorem pass_carry {hash : Nat → Nat} {tb : Tab} {p j k k' d' : Nat} (hc : Carry hash tb p j k)
    (ho : tb[p]? = some (some (k', d'))) (hd : j ≤ d') : Carry hash tb ((p + 1) % tb.length) (j + 1) k := by
  refine ⟨Nat.mod_lt _ (by have := hc.lt; omega), ?_, ?_, hc.new⟩
  · rw [← Nat.add_assoc, ← Nat.mod_add_mod, hc.pos]
  · intro j' hj'
    rw [pred_index hc.lt]
    exact ⟨k', d', ho, by omega⟩

/-- Taking what was in the bucket. -/
theorem swap_carry {hash : Nat → Nat} {tb : Tab} (ht : TInv hash tb) {p j k k' d' : Nat} (hc : Carry hash tb p j k)
    (ho : tb[p]? = some (some (k', d'))) (hd : d' < j) :
    Carry hash (tb.set p (some (k, j))) ((p + 1) % tb.length) (d' + 1) k' := by
  refine ⟨?_, ?_, ?_, ?_⟩
  · rw [List.length_set]
    exact Nat.mod_lt _ (by have := hc.lt; omega)
  · rw [List.length_set, ← Nat.add_assoc, ← Nat.mod_add_mod, ht.pos p k' d' ho]
  · intro j' hj'
    rw [List.length_set, pred_index hc.lt, List.getElem?_set_self hc.lt]
    exact ⟨k, j, rfl, by omega⟩
  · have h1 : (k' :: Tab.keys (tb.set p (some (k, j)))).Nodup := by
      rw [(keys_set_some (k := k) (j := j) ho).nodup_iff, List.nodup_cons]
      exact ⟨hc.new, ht.nodup⟩
    exact (List.nodup_cons.1 h1).1

theorem step_empty {tb : Tab} {p e : Nat} {q : Nat × Nat} (hp : p < tb.length) (ho : tb[p]? = some (some q))
    (he : tb[(p + e) % tb.length]? = some none) : ∃ e', e = e' + 1 ∧ tb[((p + 1) % tb.length + e') % tb.length]? = some none ∧
      (p + e) % tb.length ≠ p := by
  cases e with
  | zero =>
    rw [Nat.add_zero, Nat.mod_eq_of_lt hp, ho] at he
    cases he
  | succ e =>
    refine ⟨e, rfl, ?_, ?_⟩
    · rw [Nat.mod_add_mod, Nat.add_assoc, Nat.add_comm 1 e]
      exact he
    · intro h
      rw [h, ho] at he
      cases he

/-- `insert_value_on_rehash`. -/
theorem rh_spec {hash : Nat → Nat} {kk : Nat} : ∀ (f e : Nat) (tb : Tab) (p j k : Nat), e < f → tb.length = 2 ^ kk →
    TInv hash tb → Carry hash tb p j k → tb[(p + e) % tb.length]? = some none →
    Spread hash (k :: tb.keys) tb.length →
    ∃ tb' : Tab, rhLoop (2 ^ kk - 1) f (tb.map encB) p j k = .ok (tb'.map encB) ∧ TInv hash tb' ∧
      tb'.length = 2 ^ kk ∧ tb'.keys.Perm (k :: tb.keys)
  | 0, _, _, _, _, _, hf, _, _, _, _, _ => by omega
  | f + 1, e, tb, p, j, k, hf, hl, ht, hc, he, hs => by
    have hj := carry_bound ht hc ⟨_, he⟩ hs
    obtain ⟨o, ho⟩ : ∃ o, tb[p]? = some o := ⟨_, List.getElem?_eq_getElem hc.lt⟩
    unfold rhLoop
    rw [rd_enc ho, Res.ok_bind]
    cases o with
    | none =>
      have h1 : (encB none).dist = -1 := rfl
      rw [h1, if_pos (by omega), if_pos rfl, wr_enc hc.lt]
      exact ⟨_, rfl, set_inv ht hc ho (by simp), by rw [List.length_set, hl], keys_set_none ho⟩
    | some q =>
      obtain ⟨k', d'⟩ := q
      obtain ⟨e', rfl, he', hne⟩ := step_empty hc.lt ho he
      have h1 : (encB (some (k', d'))).dist = d' := rfl
      have h2 : (encB (some (k', d'))).value = .ok k' := rfl
      rw [h1, h2, nextBkt_eq, ← hl]
      by_cases hd : d' < j
      · rw [if_pos (by omega), if_neg (by omega), Res.ok_bind, wr_enc hc.lt, Res.ok_bind, inc16_eq (by omega)]
        have hc' := swap_carry ht hc ho hd
        have hperm := keys_set_some (k := k) (j := j) ho
        have ht' := set_inv ht hc ho (by
          intro a b hab
          simp only [Option.some.injEq, Prod.mk.injEq] at hab
          omega)
        obtain ⟨tb', e1, e2, e3, e4⟩ := rh_spec f e' (tb.set p (some (k, j))) ((p + 1) % tb.length) (d' + 1) k'
          (by omega) (by rw [List.length_set, hl]) ht' hc' (by
            rw [List.length_set, List.getElem?_set_ne]
            · exact he'
            · intro h
              rw [← h, ho] at he'
              cases he') (by
            rw [List.length_set]
            exact hs.mono hperm.subperm)
        rw [hl]
        exact ⟨tb', by rw [← hl]; rw [hl] at e1 ⊢; exact e1, e2, e3, e4.trans hperm⟩
      · rw [if_neg (by omega), inc16_eq hj]
        have hc' := pass_carry hc ho (by omega)
        obtain ⟨tb', e1, e2, e3, e4⟩ := rh_spec f e' tb ((p + 1) % tb.length) (j + 1) k (by omega) hl ht hc' he' hs
        exact ⟨tb', by rw [hl] at e1 ⊢; exact e1, e2, by rw [e3, hl], e4⟩

/-- The loop of `insert_value`. -/
theorem ins_spec {hash : Nat → Nat} {kk : Nat} (hi : Bool) : ∀ (f e : Nat) (tb : Tab) (p j k : Nat) (g : Bool), e < f →
    tb.length = 2 ^ kk → TInv hash tb → Carry hash tb p j k → tb[(p + e) % tb.length]? = some none →
    Spread hash (k :: tb.keys) tb.length →
    ∃ (tb' : Tab) (g' : Bool), insLoop hi (2 ^ kk - 1) f (tb.map encB) p j k g = .ok (tb'.map encB, g') ∧
      TInv hash tb' ∧ tb'.length = 2 ^ kk ∧ tb'.keys.Perm (k :: tb.keys) ∧ (g' = true → g = true ∨ hi = true)
  | 0, _, _, _, _, _, _, hf, _, _, _, _, _ => by omega
  | f + 1, e, tb, p, j, k, g, hf, hl, ht, hc, he, hs => by
    have hj := carry_bound ht hc ⟨_, he⟩ hs
    obtain ⟨o, ho⟩ : ∃ o, tb[p]? = some o := ⟨_, List.getElem?_eq_getElem hc.lt⟩
    unfold insLoop
    rw [rd_enc ho, Res.ok_bind]
    cases o with
    | none =>
      have h1 : (encB none).dist = -1 := rfl
      rw [h1, if_pos rfl, wr_enc hc.lt]
      exact ⟨_, g, rfl, set_inv ht hc ho (by simp), by rw [List.length_set, hl], keys_set_none ho, .inl⟩
    | some q =>
      obtain ⟨k', d'⟩ := q
      obtain ⟨e', rfl, he', hne⟩ := step_empty hc.lt ho he
      have h1 : (encB (some (k', d'))).dist = d' := rfl
      have h2 : (encB (some (k', d'))).value = .ok k' := rfl
      rw [h1, h2, nextBkt_eq, ← hl, if_neg (by omega)]
      by_cases hd : d' < j
      · rw [if_pos (by omega), Res.ok_bind, wr_enc hc.lt, Res.ok_bind, inc16_eq (by omega)]
        have hc' := swap_carry ht hc ho hd
        have hperm := keys_set_some (k := k) (j := j) ho
        have ht' := set_inv ht hc ho (by
          intro a b hab
          simp only [Option.some.injEq, Prod.mk.injEq] at hab
          omega)
        obtain ⟨tb', g', e1, e2, e3, e4, e5⟩ := ins_spec hi f e' (tb.set p (some (k, j))) ((p + 1) % tb.length)
          (d' + 1) k' (g || (decide (128 ≤ (j : Int)) && hi))
          (by omega) (by rw [List.length_set, hl]) ht' hc' (by
            rw [List.length_set, List.getElem?_set_ne]
            · exact he'
            · intro h
              rw [← h, ho] at he'
              cases he') (by
            rw [List.length_set]
            exact hs.mono hperm.subperm)
        refine ⟨tb', g', by rw [hl] at e1 ⊢; exact e1, e2, by rw [e3, hl], e4.trans hperm, ?_⟩
        intro hg
        have := e5 hg
        simp only [Bool.or_eq_true, Bool.and_eq_true] at this
        rcases this with (h | h) | h
        · exact .inl h
        · exact .inr h.2
        · exact .inr h
      · rw [if_neg (by omega), inc16_eq hj]
        have hc' := pass_carry hc ho (by omega)
        obtain ⟨tb', g', e1, e2, e3, e4, e5⟩ := ins_spec hi f e' tb ((p + 1) % tb.length) (j + 1) k g (by omega) hl ht
          hc' he' hs
        exact ⟨tb', g', by rw [hl] at e1 ⊢; exact e1, e2, by rw [e3, hl], e4, e5⟩

/-- A bucket where a probe stops. -/
def StopAt (tb : Tab) (p j : Nat) : Prop := ∀ k' d' : Nat, tb[p]? = some (some (k', d')) → d' < j

/-- The probe loop. -/
theorem probe_spec {hash : Nat → Nat} {kk : Nat} {tb : Tab} (hl : tb.length = 2 ^ kk) (ht : TInv hash tb)
    (hs : Spread hash tb.keys tb.length) (key : Nat) : ∀ (f e j : Nat), e < f →
    tb[(hash key + j + e) % tb.length]? = some none → PredOk tb ((hash key + j) % tb.length) j →
    (∃ i d : Nat, probe (tb.map encB) (2 ^ kk - 1) key f ((hash key + j) % tb.length) j = .ok (.found i) ∧
      tb[i]? = some (some (key, d))) ∨
    ∃ j', probe (tb.map encB) (2 ^ kk - 1) key f ((hash key + j) % tb.length) j =
        .ok (.stop ((hash key + j') % tb.length) (j' : Nat)) ∧ PredOk tb ((hash key + j') % tb.length) j' ∧
      StopAt tb ((hash key + j') % tb.length) j' ∧ j ≤ j' ∧
      ∀ i, j ≤ i → i < j' → ∀ d : Nat, tb[(hash key + i) % tb.length]? ≠ some (some (key, d))
  | 0, _, _, hf, _, _ => by omega
  | f + 1, e, j, hf, he, hp => by
    have hm : 0 < tb.length := by rw [hl]; exact Nat.two_pow_pos kk
    have hlt : (hash key + j) % tb.length < tb.length := Nat.mod_lt _ hm
    have hj := pred_bound ht hlt hp ⟨_, he⟩ hs
    obtain ⟨o, ho⟩ : ∃ o, tb[(hash key + j) % tb.length]? = some o := ⟨_, List.getElem?_eq_getElem hlt⟩
    unfold probe
    rw [rd_enc ho, Res.ok_bind]
    cases o with
    | none =>
      have h1 : (encB none).dist = -1 := rfl
      rw [h1, if_neg (by omega)]
      refine .inr ⟨j, rfl, hp, ?_, Nat.le_refl _, fun i h1 h2 => by omega⟩
      intro k' d' hb
      rw [ho] at hb
      cases hb
    | some q =>
      obtain ⟨k', d'⟩ := q
      have h1 : (encB (some (k', d'))).dist = d' := rfl
      have h2 : (encB (some (k', d'))).value = .ok k' := rfl
      rw [h1, h2]
      by_cases hd : j ≤ d'
      · rw [if_pos (by omega), Res.ok_bind]
        by_cases hk : k' = key
        · rw [if_pos hk]
          exact .inl ⟨_, d', rfl, by rw [ho, hk]⟩
        · rw [if_neg hk]
          have he2 : tb[((hash key + j) % tb.length + e) % tb.length]? = some none := by
            rw [Nat.mod_add_mod]
            exact he
          obtain ⟨e', rfl, he', _⟩ := step_empty hlt ho he2
          have hp' : PredOk tb ((hash key + (j + 1)) % tb.length) (j + 1) := by
            intro j' hj'
            have : (hash key + (j + 1)) % tb.length = ((hash key + j) % tb.length + 1) % tb.length := by
              rw [Nat.mod_add_mod, Nat.add_assoc]
            rw [this, pred_index hlt]
            exact ⟨k', d', ho, by omega⟩
          have hj6 : j ≤ 32766 := by
            have := pred_bound ht (Nat.mod_lt _ hm) hp' ⟨_, he⟩ hs
            omega
          have hnext : nextBkt (2 ^ kk - 1) ((hash key + j) % tb.length) = (hash key + (j + 1)) % tb.length := by
            rw [nextBkt_eq, ← hl, Nat.mod_add_mod, Nat.add_assoc]
          rw [hnext, inc16_eq hj6]
          have he3 : tb[(hash key + (j + 1) + e') % tb.length]? = some none := by
            have : hash key + (j + 1) + e' = hash key + j + (e' + 1) := by omega
            rw [this]
            exact he
          rcases probe_spec hl ht hs key f e' (j + 1) (by omega) he3 hp' with h | ⟨j', e1, e2, e3, e4, e5⟩
          · exact .inl h
          · refine .inr ⟨j', e1, e2, e3, by omega, ?_⟩
            intro i hi1 hi2 d hb
            rcases Nat.lt_or_ge j i with h | h
            · exact e5 i (by omega) hi2 d hb
            · have : i = j := by omega
              rw [this, ho] at hb
              simp only [Option.some.injEq, Prod.mk.injEq] at hb
              exact hk hb.1
      · rw [if_neg (by omega)]
        refine .inr ⟨j, rfl, hp, ?_, Nat.le_refl _, fun i h1 h2 => by omega⟩
        intro k1 d1 hb
        rw [ho] at hb
        simp only [Option.some.injEq, Prod.mk.injEq] at hb
        omega

/-- The loop without comparisons. -/
theorem skip_spec {hash : Nat → Nat} {kk : Nat} {tb : Tab} (hl : tb.length = 2 ^ kk) (ht : TInv hash tb)
    (hs : Spread hash tb.keys tb.length) (key : Nat) : ∀ (f e j : Nat), e < f →
    tb[(hash key + j + e) % tb.length]? = some none → PredOk tb ((hash key + j) % tb.length) j →
    ∃ j', skip (tb.map encB) (2 ^ kk - 1) f ((hash key + j) % tb.length) j =
        .ok ((hash key + j') % tb.length, (j' : Nat)) ∧ PredOk tb ((hash key + j') % tb.length) j' ∧
      StopAt tb ((hash key + j') % tb.length) j'
  | 0, _, _, hf, _, _ => by omega
  | f + 1, e, j, hf, he, hp => by
    have hm : 0 < tb.length := by rw [hl]; exact Nat.two_pow_pos kk
    have hlt : (hash key + j) % tb.length < tb.length := Nat.mod_lt _ hm
    obtain ⟨o, ho⟩ : ∃ o, tb[(hash key + j) % tb.length]? = some o := ⟨_, List.getElem?_eq_getElem hlt⟩
    unfold skip
    rw [rd_enc ho, Res.ok_bind]
    cases o with
    | none =>
      have h1 : (encB none).dist = -1 := rfl
      rw [h1, if_neg (by omega)]
      refine ⟨j, rfl, hp, ?_⟩
      intro k' d' hb
      rw [ho] at hb
      cases hb
    | some q =>
      obtain ⟨k', d'⟩ := q
      have h1 : (encB (some (k', d'))).dist = d' := rfl
      rw [h1]
      by_cases hd : j ≤ d'
      · rw [if_pos (by omega)]
        have he2 : tb[((hash key + j) % tb.length + e) % tb.length]? = some none := by
          rw [Nat.mod_add_mod]
          exact he
        obtain ⟨e', rfl, he', _⟩ := step_empty hlt ho he2
        have hp' : PredOk tb ((hash key + (j + 1)) % tb.length) (j + 1) := by
          intro j' hj'
          have : (hash key + (j + 1)) % tb.length = ((hash key + j) % tb.length + 1) % tb.length := by
            rw [Nat.mod_add_mod, Nat.add_assoc]
          rw [this, pred_index hlt]
          exact ⟨k', d', ho, by omega⟩
        have hj6 : j ≤ 32766 := by
          have := pred_bound ht (Nat.mod_lt _ hm) hp' ⟨_, he⟩ hs
          omega
        have hnext : nextBkt (2 ^ kk - 1) ((hash key + j) % tb.length) = (hash key + (j + 1)) % tb.length := by
          rw [nextBkt_eq, ← hl, Nat.mod_add_mod, Nat.add_assoc]
        rw [hnext, inc16_eq hj6]
        have he3 : tb[(hash key + (j + 1) + e') % tb.length]? = some none := by
          have : hash key + (j + 1) + e' = hash key + j + (e' + 1) := by omega
          rw [this]
          exact he
        exact skip_spec hl ht hs key f e' (j + 1) (by omega) he3 hp'
      · rw [if_neg (by omega)]
        refine ⟨j, rfl, hp, ?_⟩
        intro k1 d1 hb
        rw [ho] at hb
        simp only [Option.some.injEq, Prod.mk.injEq] at hb
        omega

/-- The way from the ideal bucket of a stored key to the key. -/
theorem path_occ {hash : Nat → Nat} {tb : Tab} (hm : 0 < tb.length) (ht : TInv hash tb) {i k d : Nat}
    (h : tb[i]? = some (some (k, d))) : ∀ n j, j + n = d →
      ∃ k' d' : Nat, tb[(hash k + j) % tb.length]? = some (some (k', d')) ∧ j ≤ d'
  | 0, j, hj => by
    have hjd : j = d := by omega
    rw [hjd, ht.pos i k d h]
    exact ⟨k, d, h, Nat.le_refl _⟩
  | n + 1, j, hj => by
    obtain ⟨k1, d1, hb, hd⟩ := path_occ hm ht h n (j + 1) (by omega)
    obtain ⟨d2, rfl⟩ : ∃ d2, d1 = d2 + 1 := ⟨d1 - 1, by omega⟩
    obtain ⟨k', d', hb', hd'⟩ := ht.ord _ _ _ hb
    have : ((hash k + (j + 1)) % tb.length + tb.length - 1) % tb.length = (hash k + j) % tb.length := by
      have h1 : (hash k + (j + 1)) % tb.length = ((hash k + j) % tb.length + 1) % tb.length := by
        rw [Nat.mod_add_mod, Nat.add_assoc]
      rw [h1, pred_index (Nat.mod_lt _ hm)]
    rw [this] at hb'
    exact ⟨k', d', hb', by omega⟩

/-- A probe that stops has not missed the key. -/
theorem stop_absent {hash : Nat → Nat} {tb : Tab} (hm : 0 < tb.length) (ht : TInv hash tb) {key j' : Nat}
    (hst : StopAt tb ((hash key + j') % tb.length) j')
    (hno : ∀ i, 0 ≤ i → i < j' → ∀ d : Nat, tb[(hash key + i) % tb.length]? ≠ some (some (key, d))) :
    key ∉ tb.keys := by
  intro hk
  obtain ⟨i, d, h⟩ := mem_keys.1 hk
  rcases Nat.lt_or_ge d j' with hd | hd
  · apply hno d (Nat.zero_le _) hd d
    rw [ht.pos i key d h]
    exact h
  · obtain ⟨k', d', hb, hd'⟩ := path_occ hm ht h (d - j') j' (by omega)
    have := hst k' d' hb
    omega

theorem exists_empty {tb : Tab} (h : tb.keys.length < tb.length) : ∃ i : Nat, tb[i]? = some none := by
  by_contra hn
  have hall : ∀ o ∈ tb, (Option.map Prod.fst o).isSome := by
    intro o ho
    obtain ⟨i, hi⟩ := List.mem_iff_getElem?.1 ho
    cases o with
    | none => exact absurd ⟨i, hi⟩ hn
    | some q => rfl
  have : tb.keys.length = tb.length := by
    unfold Tab.keys
    clear h hn
    induction tb with
    | nil => rfl
    | cons o tb ih =>
      obtain ⟨x, hx⟩ := Option.isSome_iff_exists.1 (hall o (by simp))
      rw [List.filterMap_cons_some hx, List.length_cons, List.length_cons,
        ih (fun o ho => hall o (List.mem_cons_of_mem _ ho))]
  omega

theorem empty_ahead {tb : Tab} (h : tb.keys.length < tb.length) (x : Nat) :
    ∃ e, e < tb.length ∧ tb[(x + e) % tb.length]? = some none := by
  obtain ⟨i, hi⟩ := exists_empty h
  have him : i < tb.length := (List.getElem?_eq_some_iff.1 hi).1
  refine ⟨(i + (tb.length - x % tb.length)) % tb.length, Nat.mod_lt _ (by omega), ?_⟩
  have hx : x % tb.length < tb.length := Nat.mod_lt _ (by omega)
  have : (x + (i + (tb.length - x % tb.length)) % tb.length) % tb.length = i := by
    rw [Nat.add_mod_mod, ← Nat.mod_add_mod]
    have : x % tb.length + (i + (tb.length - x % tb.length)) = i + tb.length := by omega
    rw [this, Nat.add_mod_right, Nat.mod_eq_of_lt him]
  rw [this]
  exact hi

end Grann
