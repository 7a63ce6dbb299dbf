import Verif.Proofs.RobinOps
import Mathlib.Data.List.Dedup
/-!
# C61: the hash set used for visited points behaves as a set
-/

namespace Grann

/-- The state of the set: its buckets are a table that satisfies the invariant and is at most half full. -/
structure HInv (hash : Nat → Nat) (s : RSet) (kk : Nat) (tb : Tab) : Prop where
  first : s.first = tb.map encB
  buckets : s.buckets = tb.map encB ∨ (s.buckets = [] ∧ tb = [none])
  len : tb.length = 2 ^ kk
  mask : s.mask = 2 ^ kk - 1
  inv : TInv hash tb
  size : s.size = tb.keys.length
  half : 2 * s.size ≤ 2 ^ kk
  grow : s.grow = true → 2 ^ kk ≤ 8 * s.size

theorem HInv.fuel_gt {hash : Nat → Nat} {s : RSet} {kk : Nat} {tb : Tab} (h : HInv hash s kk tb) :
    tb.length < s.fuel := by
  unfold RSet.fuel
  rcases h.buckets with hb | ⟨hb, ht⟩
  · rw [hb, List.length_map]
    omega
  · rw [hb, ht]
    simp

theorem HInv.room {hash : Nat → Nat} {s : RSet} {kk : Nat} {tb : Tab} (h : HInv hash s kk tb) :
    tb.keys.length < tb.length := by
  have h1 := h.half
  have h2 := h.size
  have h3 := h.len
  have h4 := Nat.two_pow_pos kk
  omega

theorem TInv.replicate (hash : Nat → Nat) (m : Nat) : TInv hash (List.replicate m none) := by
  refine ⟨?_, ?_, ?_⟩
  · intro i k d h
    rw [List.getElem?_replicate] at h
    split at h <;> cases h
  · intro i k d h
    rw [List.getElem?_replicate] at h
    split at h <;> cases h
  · have : Tab.keys (List.replicate m none) = [] := by
      unfold Tab.keys
      rw [List.filterMap_eq_nil_iff]
      intro o ho
      rw [List.eq_of_mem_replicate ho]
      rfl
    rw [this]
    exact List.nodup_nil

theorem keys_replicate (m : Nat) : Tab.keys (List.replicate m none) = [] := by
  unfold Tab.keys
  rw [List.filterMap_eq_nil_iff]
  intro o ho
  rw [List.eq_of_mem_replicate ho]
  rfl

theorem map_replicate_fresh (m : Nat) : (List.replicate m (none : Option (Nat × Nat))).map encB =
    List.replicate m Bkt.fresh := by
  rw [List.map_replicate]
  rfl

/-- A new set. -/
theorem HInv.new (hash : Nat → Nat) (k0 : Option Nat) : ∃ kk tb, HInv hash (RSet.new k0) kk tb ∧ tb.keys = [] := by
  cases k0 with
  | none =>
    refine ⟨0, [none], ⟨rfl, .inr ⟨rfl, rfl⟩, rfl, rfl, TInv.replicate hash 1, rfl, by simp [RSet.new], ?_⟩, rfl⟩
    intro h
    cases h
  | some k =>
    refine ⟨k, List.replicate (2 ^ k) none, ⟨?_, .inl (map_replicate_fresh _).symm, List.length_replicate, rfl,
      TInv.replicate hash _, ?_, ?_, ?_⟩, keys_replicate _⟩
    · unfold RSet.first
      rw [if_neg]
      · exact (map_replicate_fresh _).symm
      · have := Nat.two_pow_pos k
        intro h
        have h1 : (RSet.new (some k)).buckets.length = 0 := by rw [h]; rfl
        simp only [RSet.new, List.length_replicate] at h1
        omega
    · rw [keys_replicate]
      rfl
    · simp [RSet.new]
    · intro h
      cases h

theorem HInv.ideal {hash : Nat → Nat} {s : RSet} {kk : Nat} {tb : Tab} (h : HInv hash s kk tb) (key : Nat) :
    hash key &&& s.mask = (hash key + 0) % tb.length := by
  rw [h.mask, Nat.and_two_pow_sub_one_eq_mod, Nat.add_zero, h.len]

theorem PredOk.zero (tb : Tab) (p : Nat) : PredOk tb p 0 := fun j' h => by omega

/-- The probe from the ideal bucket of a key. -/
theorem HInv.probe {hash : Nat → Nat} {s : RSet} {kk : Nat} {tb : Tab} (h : HInv hash s kk tb)
    (hs : Spread hash tb.keys (2 ^ kk)) (key : Nat) :
    (key ∈ tb.keys ∧ ∃ i, Grann.probe s.first s.mask key s.fuel (hash key &&& s.mask) 0 = .ok (.found i)) ∨
    ∃ j : Nat, Grann.probe s.first s.mask key s.fuel (hash key &&& s.mask) 0 =
        .ok (.stop ((hash key + j) % tb.length) j) ∧ Carry hash tb ((hash key + j) % tb.length) j key ∧
      StopAt tb ((hash key + j) % tb.length) j := by
  have hm : 0 < tb.length := by rw [h.len]; exact Nat.two_pow_pos kk
  obtain ⟨e, he, hb⟩ := empty_ahead h.room (hash key + 0)
  have hf := h.fuel_gt
  have := probe_spec h.len h.inv (by rw [h.len]; exact hs) key s.fuel e 0 (by omega) hb (PredOk.zero _ _)
  rw [h.ideal, h.first, h.mask]
  rcases this with ⟨i, d, e1, e2⟩ | ⟨j', e1, e2, e3, _, e5⟩
  · exact .inl ⟨mem_keys.2 ⟨i, d, e2⟩, i, e1⟩
  · exact .inr ⟨j', e1, ⟨Nat.mod_lt _ hm, rfl, e2, stop_absent hm h.inv e3 e5⟩, e3⟩

theorem HInv.find {hash : Nat → Nat} {s : RSet} {kk : Nat} {tb : Tab} (h : HInv hash s kk tb)
    (hs : Spread hash tb.keys (2 ^ kk)) (key : Nat) : s.find hash key = .ok (decide (key ∈ tb.keys)) := by
  unfold RSet.find
  rcases h.probe hs key with ⟨hk, i, e⟩ | ⟨j, e, hc, _⟩
  · rw [e, Res.ok_bind, decide_eq_true hk]
  · rw [e, Res.ok_bind, decide_eq_false hc.new]

/-- Moving the buckets to a larger table. -/
theorem rehash_fold {hash : Nat → Nat} {kk : Nat} : ∀ (rest tb : Tab), TInv hash tb → tb.length = 2 ^ kk →
    (tb.keys ++ Tab.keys rest).Nodup → Spread hash (tb.keys ++ Tab.keys rest) (2 ^ kk) →
    (tb.keys ++ Tab.keys rest).length < 2 ^ kk →
    ∃ tb' : Tab, (rest.map encB).foldlM (fun bs b =>
        if b.dist = -1 then .ok bs
        else do
          let v ← b.value
          rhLoop (2 ^ kk - 1) (2 ^ kk + 65536) bs (hash v &&& (2 ^ kk - 1)) 0 v) (tb.map encB) = .ok (tb'.map encB) ∧
      TInv hash tb' ∧ tb'.length = 2 ^ kk ∧ tb'.keys.Perm (tb.keys ++ Tab.keys rest)
  | [], tb, ht, hl, _, _, _ => ⟨tb, rfl, ht, hl, by simp [Tab.keys]⟩
  | none :: rest, tb, ht, hl, hn, hs, hlt => by
    have hk : Tab.keys (none :: rest) = Tab.keys rest := rfl
    rw [hk] at hn hs hlt ⊢
    obtain ⟨tb', e1, e2⟩ := rehash_fold rest tb ht hl hn hs hlt
    refine ⟨tb', ?_, e2⟩
    rw [List.map_cons, List.foldlM_cons, if_pos (by rfl), Res.ok_bind]
    exact e1
  | some (k, d) :: rest, tb, ht, hl, hn, hs, hlt => by
    have hk : Tab.keys (some (k, d) :: rest) = k :: Tab.keys rest := rfl
    rw [hk] at hn hs hlt ⊢
    have hmid : (tb.keys ++ k :: Tab.keys rest).Perm (k :: tb.keys ++ Tab.keys rest) := List.perm_middle
    have hm : 0 < tb.length := by rw [hl]; exact Nat.two_pow_pos kk
    have hnew : k ∉ tb.keys := by
      have := hmid.nodup_iff.1 hn
      rw [List.cons_append, List.nodup_cons] at this
      exact fun h => this.1 (List.mem_append_left _ h)
    have hroom : tb.keys.length < tb.length := by
      rw [hl]
      simp only [List.length_append, List.length_cons] at hlt
      omega
    obtain ⟨e, he, hb⟩ := empty_ahead hroom (hash k % tb.length)
    have hc : Carry hash tb (hash k % tb.length) 0 k :=
      ⟨Nat.mod_lt _ hm, by rw [Nat.add_zero], PredOk.zero _ _, hnew⟩
    obtain ⟨tb1, r1, r2, r3, r4⟩ := rh_spec (kk := kk) (2 ^ kk + 65536) e tb (hash k % tb.length) 0 k (by omega) hl ht
      hc hb (by
        rw [hl]
        exact hs.mono (((List.sublist_append_left _ _).subperm).trans hmid.symm.subperm))
    have hp2 : (tb1.keys ++ Tab.keys rest).Perm (tb.keys ++ k :: Tab.keys rest) :=
      (r4.append_right _).trans hmid.symm
    obtain ⟨tb', e1, e2, e3, e4⟩ := rehash_fold rest tb1 r2 r3 (hp2.nodup_iff.2 hn) (hs.mono hp2.subperm)
      (by rw [hp2.length_eq]; exact hlt)
    refine ⟨tb', ?_, e2, e3, e4.trans hp2⟩
    rw [List.map_cons, List.foldlM_cons, if_neg (by simp [encB])]
    have hv : (encB (some (k, d))).value = .ok k := rfl
    rw [hv, Res.ok_bind, Nat.and_two_pow_sub_one_eq_mod, ← hl, hl]
    rw [hl] at r1
    have r1' : rhLoop (2 ^ kk - 1) (2 ^ kk + 65536) (tb.map encB) (hash k % 2 ^ kk) 0 k = .ok (tb1.map encB) := r1
    rw [r1', Res.ok_bind]
    exact e1

/-- `rehash_impl` to twice the size. -/
theorem HInv.rehash {hash : Nat → Nat} {s : RSet} {kk : Nat} {tb : Tab} (h : HInv hash s kk tb)
    (hs : Spread hash tb.keys (2 ^ (kk + 1))) :
    ∃ s' tb', s.rehash hash (2 ^ (kk + 1)) = .ok s' ∧ HInv hash s' (kk + 1) tb' ∧ tb'.keys.Perm tb.keys ∧
      s'.grow = false ∧ s'.size = s.size ∧ s'.buckets = tb'.map encB ∧ 2 * (s'.size + 1) ≤ 2 ^ (kk + 1) := by
  have hpow : 2 ^ (kk + 1) = 2 * 2 ^ kk := by rw [Nat.pow_succ, Nat.mul_comm]
  have hpos := Nat.two_pow_pos kk
  have hhalf := h.half
  have hsz := h.size
  obtain ⟨tb', e1, e2, e3, e4⟩ := rehash_fold (hash := hash) (kk := kk + 1) tb (List.replicate (2 ^ (kk + 1)) none)
    (TInv.replicate hash _) List.length_replicate (by rw [keys_replicate]; exact h.inv.nodup)
    (by rw [keys_replicate]; exact hs) (by rw [keys_replicate, List.nil_append]; omega)
  rw [keys_replicate, List.nil_append] at e4
  rw [map_replicate_fresh] at e1
  have hfold : s.buckets.foldlM (fun bs b =>
        if b.dist = -1 then .ok bs
        else do
          let v ← b.value
          rhLoop (2 ^ (kk + 1) - 1) (2 ^ (kk + 1) + 65536) bs (hash v &&& (2 ^ (kk + 1) - 1)) 0 v)
        (List.replicate (2 ^ (kk + 1)) Bkt.fresh) = (.ok (tb'.map encB) : Res (List Bkt)) := by
    rcases h.buckets with hb | ⟨hb, ht⟩
    · rw [hb]
      exact e1
    · rw [ht] at e1
      rw [hb]
      simpa [encB, Bkt.fresh] using e1
  have hfirst : ∀ n g, RSet.first ⟨tb'.map encB, 2 ^ (kk + 1) - 1, n, g⟩ = tb'.map encB := by
    intro n g
    unfold RSet.first
    rw [if_neg]
    intro hnil
    replace hnil : tb'.map encB = [] := hnil
    have : (tb'.map encB).length = 0 := by rw [hnil]; rfl
    rw [List.length_map, e3] at this
    omega
  refine ⟨⟨tb'.map encB, 2 ^ (kk + 1) - 1, s.size, false⟩, tb', ?_, ?_, e4, rfl, rfl, rfl, ?_⟩
  · unfold RSet.rehash
    rw [hfold]
    rfl
  · refine ⟨hfirst _ _, .inl rfl, e3, rfl, e2, ?_, ?_, ?_⟩
    · rw [e4.length_eq]
      exact hsz
    · show 2 * s.size ≤ _
      omega
    · intro hg
      cases hg
  · show 2 * (s.size + 1) ≤ _
    omega

/-- Room for one more key. -/
theorem HInv.makeRoom {hash : Nat → Nat} {s : RSet} {kk : Nat} {tb : Tab} (h : HInv hash s kk tb) {key j : Nat}
    (hsz : s.size ≤ 2 ^ 58) (hs : Spread hash tb.keys (2 ^ (kk + 1)))
    (hc : Carry hash tb ((hash key + j) % tb.length) j key) (hst : StopAt tb ((hash key + j) % tb.length) j) :
    ∃ s' kk' tb' j', s.room hash key ((hash key + j) % tb.length) j = .ok (s', (hash key + j') % tb'.length, (j' : Nat)) ∧
      HInv hash s' kk' tb' ∧ tb'.keys.Perm tb.keys ∧ Carry hash tb' ((hash key + j') % tb'.length) j' key ∧
      StopAt tb' ((hash key + j') % tb'.length) j' ∧ s'.size = s.size ∧ s'.buckets = tb'.map encB ∧
      2 * (s'.size + 1) ≤ 2 ^ kk' := by
  have hpos := Nat.two_pow_pos kk
  have hpow : 2 ^ (kk + 1) = 2 * 2 ^ kk := by rw [Nat.pow_succ, Nat.mul_comm]
  have hhalf := h.half
  unfold RSet.room
  have hth : s.threshold = 2 ^ kk / 2 := by
    unfold RSet.threshold
    rcases h.buckets with hb | ⟨hb, ht⟩
    · rw [hb, List.length_map, h.len]
    · have : 2 ^ kk = 1 := by rw [← h.len, ht]; rfl
      rw [hb, this]
      rfl
  by_cases hg : s.grow = true ∨ s.threshold ≤ s.size
  · rw [if_pos hg]
    have hnb : nextBucketCount s.mask = .ok (2 ^ (kk + 1)) := by
      unfold nextBucketCount
      have h1 : s.mask + 1 = 2 ^ kk := by rw [h.mask]; omega
      have h2 : 2 ^ kk ≤ 8 * s.size + 1 := by
        rcases hg with hg | hg
        · have := h.grow hg
          omega
        · rw [hth] at hg
          omega
      rw [h1, if_neg (by omega), hpow, Nat.mul_comm]
    rw [hnb, Res.ok_bind]
    obtain ⟨s', tb', e1, e2, e3, e4, e5, e6, e7⟩ := h.rehash hs
    rw [e1, Res.ok_bind]
    have hm : 0 < tb'.length := by rw [e2.len]; exact Nat.two_pow_pos _
    obtain ⟨e, he, hb⟩ := empty_ahead e2.room (hash key + 0)
    have hf := e2.fuel_gt
    obtain ⟨j', r1, r2, r3⟩ := skip_spec e2.len e2.inv (by rw [e2.len]; exact hs.mono e3.subperm) key s'.fuel e 0
      (by omega) hb (PredOk.zero _ _)
    rw [e2.ideal, e2.first, e2.mask]
    have r1' : skip (tb'.map encB) (2 ^ (kk + 1) - 1) s'.fuel ((hash key + 0) % tb'.length) 0 =
      .ok ((hash key + j') % tb'.length, (j' : Int)) := r1
    rw [r1', Res.ok_bind]
    refine ⟨s', kk + 1, tb', j', rfl, e2, e3, ⟨Nat.mod_lt _ hm, rfl, r2, ?_⟩, r3, e5, e6, e7⟩
    intro hk
    exact hc.new (e3.mem_iff.1 hk)
  · rw [if_neg hg]
    rw [hth] at hg
    have hlt : s.size < 2 ^ kk / 2 := by
      by_contra hn
      exact hg (.inr (by omega))
    refine ⟨s, kk, tb, j, rfl, h, List.Perm.refl _, hc, hst, rfl, ?_, by omega⟩
    rcases h.buckets with hb | ⟨hb, ht⟩
    · exact hb
    · have : 2 ^ kk = 1 := by rw [← h.len, ht]; rfl
      rw [this] at hlt
      simp at hlt

/-- Storing the key. -/
theorem HInv.put {hash : Nat → Nat} {s : RSet} {kk : Nat} {tb : Tab} (h : HInv hash s kk tb) (hi : Nat → Nat → Bool)
    (hhi : ∀ n m, hi n m = true → m ≤ 8 * n) {key p j : Nat} (hs : Spread hash (key :: tb.keys) (2 ^ kk))
    (hc : Carry hash tb p j key) (hst : StopAt tb p j) (hb : s.buckets = tb.map encB)
    (hhalf : 2 * (s.size + 1) ≤ 2 ^ kk) :
    ∃ s' tb', s.put hi key p j = .ok s' ∧ HInv hash s' kk tb' ∧ tb'.keys.Perm (key :: tb.keys) := by
  have hpos := Nat.two_pow_pos kk
  have hfirst : ∀ (tb' : Tab) n g, tb'.length = 2 ^ kk →
      RSet.first ⟨tb'.map encB, s.mask, n, g⟩ = tb'.map encB := by
    intro tb' n g hl
    unfold RSet.first
    rw [if_neg]
    intro hnil
    replace hnil : tb'.map encB = [] := hnil
    have : (tb'.map encB).length = 0 := by rw [hnil]; rfl
    rw [List.length_map, hl] at this
    omega
  obtain ⟨o, ho⟩ : ∃ o, tb[p]? = some o := ⟨_, List.getElem?_eq_getElem hc.lt⟩
  unfold RSet.put
  rw [h.first, rd_enc ho, Res.ok_bind]
  cases o with
  | none =>
    have h1 : (encB none).dist = -1 := rfl
    rw [h1, if_pos rfl, hb, wr_enc hc.lt, Res.ok_bind]
    have hk := keys_set_none (k := key) (j := j) ho
    have hl : (tb.set p (some (key, j))).length = 2 ^ kk := by rw [List.length_set, h.len]
    refine ⟨_, tb.set p (some (key, j)), rfl, ⟨hfirst _ _ _ hl, .inl rfl, hl, h.mask,
      set_inv h.inv hc ho (by simp), ?_, hhalf, ?_⟩, hk⟩
    · rw [hk.length_eq, List.length_cons, ← h.size]
    · intro hg
      have := h.grow hg
      show 2 ^ kk ≤ 8 * (s.size + 1)
      omega
  | some q =>
    obtain ⟨k', d'⟩ := q
    have hd := hst k' d' ho
    have h1 : (encB (some (k', d'))).dist = d' := rfl
    have h2 : (encB (some (k', d'))).value = .ok k' := rfl
    have hj := carry_bound h.inv hc (exists_empty h.room) (by rw [h.len]; exact hs)
    rw [h1, if_neg (by omega), hb]
    unfold insValue
    rw [rd_enc ho, Res.ok_bind, h2, Res.ok_bind, wr_enc hc.lt, Res.ok_bind, h1, inc16_eq (by omega), h.mask,
      nextBkt_eq, ← h.len]
    have hc' := swap_carry h.inv hc ho hd
    have hperm := keys_set_some (k := key) (j := j) ho
    have ht' := set_inv h.inv hc ho (by
      intro a b hab
      simp only [Option.some.injEq, Prod.mk.injEq] at hab
      omega)
    have hl : (tb.set p (some (key, j))).length = 2 ^ kk := by rw [List.length_set, h.len]
    have hroom : (Tab.keys (tb.set p (some (key, j)))).length < (tb.set p (some (key, j))).length := by
      have e1 := hperm.length_eq
      have e2 := h.room
      simp only [List.length_cons] at e1
      rw [List.length_set]
      omega
    obtain ⟨e, he, hbe⟩ := empty_ahead hroom ((p + 1) % tb.length)
    have hfuel := h.fuel_gt
    rw [List.length_set] at he
    obtain ⟨tb', g', r1, r2, r3, r4, r5⟩ := ins_spec (hi s.size (tb.map encB).length) s.fuel e
      (tb.set p (some (key, j))) ((p + 1) % tb.length) (d' + 1) k' s.grow (by omega) hl ht' hc' hbe (by
        rw [hl]
        exact hs.mono hperm.subperm)
    rw [h.len] at r1 ⊢
    rw [r1, Res.ok_bind]
    have hk := r4.trans hperm
    refine ⟨⟨tb'.map encB, 2 ^ kk - 1, s.size + 1, g'⟩, tb', rfl, ⟨?_, .inl rfl, r3, rfl, r2, ?_, hhalf, ?_⟩, hk⟩
    · have := hfirst tb' (s.size + 1) g' r3
      rw [h.mask] at this
      exact this
    · rw [hk.length_eq, List.length_cons, ← h.size]
    · intro hg
      show 2 ^ kk ≤ 8 * (s.size + 1)
      rcases r5 hg with h3 | h3
      · have := h.grow h3
        omega
      · have := hhi _ _ h3
        rw [List.length_map, h.len] at this
        omega

/-- `insert`. -/
theorem HInv.insert {hash : Nat → Nat} {s : RSet} {kk : Nat} {tb : Tab} (h : HInv hash s kk tb) (hi : Nat → Nat → Bool)
    (hhi : ∀ n m, hi n m = true → m ≤ 8 * n) (key : Nat) (hsz : s.size ≤ 2 ^ 58)
    (hs : ∀ kk', 2 * tb.keys.length ≤ 2 ^ kk' → Spread hash tb.keys (2 ^ kk'))
    (hs1 : key ∉ tb.keys → ∀ kk', 2 * (tb.keys.length + 1) ≤ 2 ^ kk' → Spread hash (key :: tb.keys) (2 ^ kk')) :
    ∃ s' kk' tb', s.insert hash hi key = .ok (s', decide (key ∉ tb.keys)) ∧ HInv hash s' kk' tb' ∧
      tb'.keys.Perm (if key ∈ tb.keys then tb.keys else key :: tb.keys) := by
  have hhalf := h.half
  have hsize := h.size
  have hpow : 2 ^ (kk + 1) = 2 * 2 ^ kk := by rw [Nat.pow_succ, Nat.mul_comm]
  unfold RSet.insert
  rcases h.probe (hs kk (by omega)) key with ⟨hk, i, e⟩ | ⟨j, e, hc, hst⟩
  · rw [e, Res.ok_bind, if_pos hk, decide_eq_false (by simpa using hk)]
    exact ⟨s, kk, tb, rfl, h, List.Perm.refl _⟩
  · rw [e, Res.ok_bind, if_neg hc.new, decide_eq_true hc.new]
    obtain ⟨s1, kk1, tb1, j1, r1, r2, r3, r4, r5, r6, r7, r8⟩ := h.makeRoom hsz (hs (kk + 1) (by omega)) hc hst
    dsimp only
    rw [r1, Res.ok_bind]
    obtain ⟨s2, tb2, p1, p2, p3⟩ := r2.put hi hhi
      ((hs1 hc.new kk1 (by rw [← hsize, ← r6]; exact r8)).mono (r3.cons key).subperm) r4 r5 r7 r8
    dsimp only
    rw [p1, Res.ok_bind]
    exact ⟨s2, kk1, tb2, rfl, p2, p3.trans (r3.cons key)⟩

/-- Whether each key is seen for the first time. -/
def Spec.firstTime : List Nat → List Nat → List Bool
  | _, [] => []
  | seen, k :: ks => decide (k ∉ seen) :: Spec.firstTime (seen ++ [k]) ks

/-- Among `m` buckets, no `w` adjacent ones are the ideal buckets of more than `w + 32766` of the keys. -/
def Spec.spread (hash : Nat → Nat) (K : List Nat) (m : Nat) : Prop :=
  ∀ s w, s < m → 0 < w → w ≤ m → (K.filter fun k => (hash k + (m - s)) % m < w).length ≤ w + 32766

theorem spread_iff {hash : Nat → Nat} {K : List Nat} {m : Nat} : Spec.spread hash K m ↔ Spread hash K m := by
  unfold Spec.spread Spread
  simp only [List.countP_eq_length_filter]
  rfl

theorem insertAll_spec (hash : Nat → Nat) (hi : Nat → Nat → Bool) (hhi : ∀ n m, hi n m = true → m ≤ 8 * n) :
    ∀ (ks done : List Nat) (s : RSet) (kk : Nat) (tb : Tab), HInv hash s kk tb → tb.keys.Perm done.dedup →
    (done ++ ks).length ≤ 2 ^ 58 →
    (∀ n kk', 2 * ((done ++ ks).take n).dedup.length ≤ 2 ^ kk' →
      Spread hash ((done ++ ks).take n).dedup (2 ^ kk')) →
    ∃ s' kk' tb', s.insertAll hash hi ks = .ok (s', Spec.firstTime done ks) ∧ HInv hash s' kk' tb' ∧
      tb'.keys.Perm (done ++ ks).dedup
  | [], done, s, kk, tb, h, hp, _, _ => ⟨s, kk, tb, rfl, h, by rw [List.append_nil]; exact hp⟩
  | k :: ks, done, s, kk, tb, h, hp, hlen, hsp => by
    have hassoc : done ++ k :: ks = (done ++ [k]) ++ ks := by rw [List.append_assoc]; rfl
    have hd0 : (done ++ k :: ks).take done.length = done := List.take_left
    have hd1 : (done ++ k :: ks).take (done.length + 1) = done ++ [k] := by
      rw [hassoc]
      exact List.take_left' (by simp)
    have hmem : k ∈ tb.keys ↔ k ∈ done := by rw [hp.mem_iff, List.mem_dedup]
    have hsz : s.size ≤ 2 ^ 58 := by
      rw [h.size, hp.length_eq]
      have h1 : done.dedup.length ≤ done.length := done.dedup_sublist.length_le
      rw [List.length_append] at hlen
      omega
    have hnew : (if k ∈ tb.keys then tb.keys else k :: tb.keys).Perm (done ++ [k]).dedup := by
      apply (List.perm_ext_iff_of_nodup _ (List.nodup_dedup _)).2
      · intro x
        rw [List.mem_dedup, List.mem_append, List.mem_singleton]
        by_cases hk : k ∈ tb.keys
        · rw [if_pos hk, hp.mem_iff, List.mem_dedup]
          constructor
          · exact .inl
          · rintro (hx | hx)
            · exact hx
            · rw [hx]
              exact hmem.1 hk
        · rw [if_neg hk, List.mem_cons, hp.mem_iff, List.mem_dedup]
          exact or_comm
      · by_cases hk : k ∈ tb.keys
        · rw [if_pos hk]
          exact h.inv.nodup
        · rw [if_neg hk, List.nodup_cons]
          exact ⟨hk, h.inv.nodup⟩
    obtain ⟨s1, kk1, tb1, e1, e2, e3⟩ := h.insert hi hhi k hsz
      (by
        intro kk' hk'
        have := hsp done.length kk'
        rw [hd0, ← hp.length_eq] at this
        exact (this hk').mono hp.subperm)
      (by
        intro hk kk' hk'
        have := hsp (done.length + 1) kk'
        rw [if_neg hk] at hnew
        rw [hd1, ← hnew.length_eq] at this
        exact (this hk').mono hnew.subperm)
    obtain ⟨s2, kk2, tb2, r1, r2, r3⟩ := insertAll_spec hash hi hhi ks (done ++ [k]) s1 kk1 tb1 e2 (e3.trans hnew)
      (by rw [← hassoc]; exact hlen) (by rw [← hassoc]; exact hsp)
    refine ⟨s2, kk2, tb2, ?_, r2, by rw [hassoc]; exact r3⟩
    unfold RSet.insertAll Spec.firstTime
    rw [e1, Res.ok_bind]
    dsimp only
    rw [r1, Res.ok_bind]
    have : decide (k ∉ tb.keys) = decide (k ∉ done) := by
      rw [decide_eq_decide]
      exact not_congr hmem
    rw [this]

/-- **C61.** Every sequence of insertions into a set made with any number of buckets, for every hash function and
whenever the set decides to grow: as long as the keys do not crowd around few buckets, all insertions are well defined
and tell whether the key is new, and a lookup succeeds exactly for the inserted keys.

The condition bounds the distance from the ideal bucket, which is stored in 16 bits; `C61_refuted` shows what happens
otherwise.  `hhi` holds for `load_factor() >= 0.15f`. -/
theorem C61_set_partial (hash : Nat → Nat) (hi : Nat → Nat → Bool) (hhi : ∀ n m, hi n m = true → m ≤ 8 * n)
    (k0 : Option Nat) (ks : List Nat) (hlen : ks.length ≤ 2 ^ 58)
    (hsp : ∀ n kk, 2 * (ks.take n).dedup.length ≤ 2 ^ kk → Spec.spread hash (ks.take n).dedup (2 ^ kk)) :
    ∃ s, (RSet.new k0).insertAll hash hi ks = .ok (s, Spec.firstTime [] ks) ∧
      (∀ q, s.find hash q = .ok (decide (q ∈ ks))) ∧ s.size = ks.dedup.length := by
  obtain ⟨kk, tb, h, hk⟩ := HInv.new hash k0
  obtain ⟨s', kk', tb', e1, e2, e3⟩ := insertAll_spec hash hi hhi ks [] (RSet.new k0) kk tb h
    (by rw [hk]; exact List.Perm.refl _) (by simpa using hlen) (by
      intro n kk' hn
      rw [List.nil_append] at hn ⊢
      exact spread_iff.1 (hsp n kk' hn))
  rw [List.nil_append] at e3
  refine ⟨s', e1, ?_, by rw [e2.size, e3.length_eq]⟩
  intro q
  have hspread : Spread hash tb'.keys (2 ^ kk') := by
    have h1 := hsp ks.length kk'
    rw [List.take_length, ← e3.length_eq, ← e2.size] at h1
    exact (spread_iff.1 (h1 e2.half)).mono e3.subperm
  rw [e2.find hspread q]
  congr 1
  rw [decide_eq_decide, e3.mem_iff, List.mem_dedup]

/-- **C61 for at most 32767 different keys**, whatever the hash function. -/
theorem C61_small_partial (hash : Nat → Nat) (hi : Nat → Nat → Bool) (hhi : ∀ n m, hi n m = true → m ≤ 8 * n)
    (k0 : Option Nat) (ks : List Nat) (hlen : ks.length ≤ 2 ^ 58) (hd : ks.dedup.length ≤ 32767) :
    ∃ s, (RSet.new k0).insertAll hash hi ks = .ok (s, Spec.firstTime [] ks) ∧
      (∀ q, s.find hash q = .ok (decide (q ∈ ks))) ∧ s.size = ks.dedup.length := by
  apply C61_set_partial hash hi hhi k0 ks hlen
  intro n kk _ s w _ hw _
  have h1 := List.length_filter_le (fun k => decide ((hash k + (2 ^ kk - s)) % 2 ^ kk < w)) (ks.take n).dedup
  have h2 : (ks.take n).dedup.length ≤ ks.dedup.length := by
    apply List.Subperm.length_le
    apply (List.nodup_dedup _).subperm
    intro x hx
    rw [List.mem_dedup] at hx ⊢
    exact List.mem_of_mem_take hx
  omega

/-- All keys in one bucket. -/
example : ∃ s, (RSet.new (some 4)).insertAll (fun _ => 3) (fun _ _ => false) [5, 7, 5, 9, 0, 1, 2, 3, 4, 6, 8] =
      .ok (s, [true, true, false, true, true, true, true, true, true, true, true]) ∧
    (∀ q, s.find (fun _ => 3) q = .ok (decide (q ∈ [5, 7, 5, 9, 0, 1, 2, 3, 4, 6, 8]))) ∧ s.size = 10 :=
  C61_small_partial _ _ (by simp) _ _ (by decide) (by decide)

example : ∃ hi : Nat → Nat → Bool, (∀ n m, hi n m = true → m ≤ 8 * n) ∧ hi 3 20 = true ∧ hi 2 20 = false :=
  ⟨fun n m => decide (15 * m ≤ 100 * n), by intro n m h; rw [decide_eq_true_iff] at h; omega, by decide, by decide⟩

/-! ### Point numbers, hashed to themselves -/

theorem count_window {m s w : Nat} (hs : s < m) {K : List Nat} (hK : K.Nodup) (hlt : ∀ k ∈ K, k < m) :
    (K.filter fun k => (k + (m - s)) % m < w).length ≤ w := by
  have hnd : ((K.filter fun k => (k + (m - s)) % m < w).map fun k => (k + (m - s)) % m).Nodup := by
    apply List.Nodup.map_on _ (hK.filter _)
    intro x hx y hy hxy
    have h1 := hlt x (List.mem_of_mem_filter hx)
    have h2 := hlt y (List.mem_of_mem_filter hy)
    have e1 : (x + (m - s)) % m = if x < s then x + (m - s) else x - s := by
      split
      · exact Nat.mod_eq_of_lt (by omega)
      · rw [show x + (m - s) = (x - s) + m by omega, Nat.add_mod_right]
        exact Nat.mod_eq_of_lt (by omega)
    have e2 : (y + (m - s)) % m = if y < s then y + (m - s) else y - s := by
      split
      · exact Nat.mod_eq_of_lt (by omega)
      · rw [show y + (m - s) = (y - s) + m by omega, Nat.add_mod_right]
        exact Nat.mod_eq_of_lt (by omega)
    rw [e1, e2] at hxy
    split at hxy <;> split at hxy <;> omega
  have h := (hnd.subperm (l₂ := List.range w) (by
    intro x hx
    obtain ⟨k, hk, rfl⟩ := List.mem_map.1 hx
    have := (List.mem_filter.1 hk).2
    rw [decide_eq_true_iff] at this
    exact List.mem_range.2 this)).length_le
  rwa [List.length_map, List.length_range] at h

theorem nodup_lt_length {K : List Nat} (hK : K.Nodup) {a b : Nat} (h : ∀ k ∈ K, a ≤ k ∧ k < b) :
    K.length ≤ b - a := by
  have h := (hK.subperm (l₂ := (List.range (b - a)).map (· + a)) (by
    intro x hx
    rw [List.mem_map]
    exact ⟨x - a, List.mem_range.2 (by have := h x hx; omega), by have := h x hx; omega⟩)).length_le
  rwa [List.length_map, List.length_range] at h

theorem spread_ids {K : List Nat} (hK : K.Nodup) (hlt : ∀ k ∈ K, k < 163838) {kk : Nat}
    (hh : 2 * K.length ≤ 2 ^ kk) : Spec.spread id K (2 ^ kk) := by
  intro s w hs hw _
  simp only [id]
  have hle := List.length_filter_le (fun k => decide ((k + (2 ^ kk - s)) % 2 ^ kk < w)) K
  by_cases h16 : kk ≤ 15
  · have : 2 ^ kk ≤ 2 ^ 15 := Nat.pow_le_pow_right (by omega) h16
    omega
  by_cases h17 : kk = 16
  · subst h17
    by_cases hw2 : 2 ≤ w
    · omega
    · have hw1 : w = 1 := by omega
      subst hw1
      have hnd : ((K.filter fun k => (k + (2 ^ 16 - s)) % 2 ^ 16 < 1).map fun k => k / 65536).Nodup := by
        apply List.Nodup.map_on _ (hK.filter _)
        intro x hx y hy hxy
        have h1 := (List.mem_filter.1 hx).2
        have h2 := (List.mem_filter.1 hy).2
        rw [decide_eq_true_iff] at h1 h2
        omega
      have h := nodup_lt_length hnd (a := 0) (b := 3) (by
        intro x hx
        obtain ⟨k, hk, rfl⟩ := List.mem_map.1 hx
        have := hlt k (List.mem_of_mem_filter hk)
        omega)
      rw [List.length_map] at h
      omega
  by_cases h18 : kk = 17
  · subst h18
    have e : (K.filter fun k => (k + (2 ^ 17 - s)) % 2 ^ 17 < w).length ≤
        ((K.filter fun k => k < 2 ^ 17).filter fun k => (k + (2 ^ 17 - s)) % 2 ^ 17 < w).length +
        (K.filter fun k => !decide (k < 2 ^ 17)).length := by
      clear hle hh hlt hK
      induction K with
      | nil => exact Nat.le_refl _
      | cons x K ih =>
        by_cases h1 : x < 2 ^ 17 <;> by_cases h2 : (x + (2 ^ 17 - s)) % 2 ^ 17 < w <;>
          simp only [List.filter_cons, h1, h2, decide_true, decide_false, if_true, if_false, List.length_cons,
            Bool.not_true, Bool.not_false, Bool.false_eq_true] <;> omega
    have e1 := count_window hs (w := w) (hK.filter (fun k => decide (k < 2 ^ 17))) (by
      intro k hk
      have := (List.mem_filter.1 hk).2
      rwa [decide_eq_true_iff] at this)
    have e2 := nodup_lt_length (hK.filter (fun k => !decide (k < 2 ^ 17))) (a := 131072) (b := 163838) (by
      intro k hk
      have h1 := (List.mem_filter.1 hk).2
      have h2 := hlt k (List.mem_of_mem_filter hk)
      rw [Bool.not_eq_true', decide_eq_false_iff_not] at h1
      omega)
    omega
  · have hm : 2 ^ 18 ≤ 2 ^ kk := Nat.pow_le_pow_right (by omega) (by omega)
    have := count_window hs (w := w) hK (by intro k hk; have := hlt k hk; omega)
    omega

/-- **C61 for the standard hash of integers** (`std::hash<unsigned>` of common libraries is the identity) **and fewer
than 163838 points.** -/
theorem C61_ids_partial (hi : Nat → Nat → Bool) (hhi : ∀ n m, hi n m = true → m ≤ 8 * n)
    (k0 : Option Nat) (ks : List Nat) (hlen : ks.length ≤ 2 ^ 58) (hk : ∀ k ∈ ks, k < 163838) :
    ∃ s, (RSet.new k0).insertAll id hi ks = .ok (s, Spec.firstTime [] ks) ∧
      (∀ q, s.find id q = .ok (decide (q ∈ ks))) ∧ s.size = ks.dedup.length := by
  apply C61_set_partial id hi hhi k0 ks hlen
  intro n kk hn
  apply spread_ids (List.nodup_dedup _) _ hn
  intro k h
  exact hk k (List.mem_of_mem_take (List.mem_dedup.1 h))

example : ∃ s, (RSet.new none).insertAll id (fun _ _ => false) [160000, 16, 0, 160000, 32, 8] =
      .ok (s, [true, true, true, false, true, true]) ∧
    (∀ q, s.find id q = .ok (decide (q ∈ [160000, 16, 0, 160000, 32, 8]))) ∧ s.size = 5 :=
  C61_ids_partial _ (by simp) _ _ (by decide) (by decide)

/-! ### Too many keys for one bucket -/

/-- Buckets given by a function. -/
def bktsOf (m : Nat) (f : Nat → Bkt) : List Bkt := (List.range m).map f

theorem rd_bktsOf {m : Nat} {f : Nat → Bkt} {p : Nat} (h : p < m) : rd (bktsOf m f) p = .ok (f p) := by
  rw [rd_ok (by simpa [bktsOf] using h)]
  simp [bktsOf]

theorem wr_bktsOf {m : Nat} {f : Nat → Bkt} {p : Nat} {b : Bkt} (h : p < m) :
    wr (bktsOf m f) p b = .ok (bktsOf m fun i => if i = p then b else f i) := by
  rw [wr_ok (by simpa [bktsOf] using h)]
  congr 1
  apply List.ext_getElem
  · simp [bktsOf]
  · intro i h1 h2
    simp only [bktsOf, List.getElem_set, List.getElem_map, List.getElem_range]
    by_cases hi : p = i
    · rw [if_pos hi, if_pos hi.symm]
    · rw [if_neg hi, if_neg (Ne.symm hi)]

theorem mask17 {x : Nat} : x &&& 131071 = x % 131072 := Nat.and_two_pow_sub_one_eq_mod x 17

theorem nextBkt17 {p : Nat} (h : p < 131071) : nextBkt 131071 p = p + 1 := by
  unfold nextBkt
  rw [mask17]
  exact Nat.mod_eq_of_lt (by omega)

theorem probe_run {f : Nat → Bkt} {key n o : Nat} (hn : n ≤ 32768) (hno : n ≤ o + 32767)
    (hf : ∀ p, o ≤ p → p < n → ∃ v, f p = ⟨p, some v⟩ ∧ v ≠ key) :
    ∀ (j fu : Nat), j + o ≤ n →
      probe (bktsOf 131072 f) 131071 key (j + fu) (n - j) ((n - j : Nat) - (o : Nat) : Int) =
      probe (bktsOf 131072 f) 131071 key fu n ((n : Nat) - (o : Nat) : Int)
  | 0, fu, _ => by rw [Nat.zero_add, Nat.sub_zero]
  | j + 1, fu, h => by
    obtain ⟨v, hv, hne⟩ := hf (n - (j + 1)) (by omega) (by omega)
    rw [show j + 1 + fu = (j + fu) + 1 by omega, probe, rd_bktsOf (by omega), Res.ok_bind, hv]
    rw [if_pos (by dsimp only; omega), Bkt.value]
    dsimp only
    rw [Res.ok_bind, if_neg hne, nextBkt17 (by omega), ← probe_run hn hno hf j fu (by omega)]
    have e1 : n - (j + 1) + 1 = n - j := by omega
    have e2 : inc16 (((n - (j + 1) : Nat) : Int) - (o : Int)) = ((n - j : Nat) : Int) - (o : Int) := by
      unfold inc16
      rw [if_neg (by omega)]
      omega
    rw [e1, e2]

/-- The set after `n` insertions. -/
def crowd (n : Nat) : RSet :=
  ⟨bktsOf 131072 fun i => if i < n then ⟨i, some (131072 * i)⟩ else Bkt.fresh, 131071, n, false⟩

/-- The set after one more insertion. -/
def crowd' : RSet :=
  ⟨bktsOf 131072 fun i => if i = 32768 then ⟨32767, some 1⟩ else
    if i < 32768 then ⟨i, some (131072 * i)⟩ else Bkt.fresh, 131071, 32769, false⟩

theorem replicate_bktsOf (m : Nat) : List.replicate m Bkt.fresh =
    bktsOf m fun i => if i < 0 then ⟨i, some (131072 * i)⟩ else Bkt.fresh := by
  apply List.ext_getElem
  · simp [bktsOf]
  · intro i h1 h2
    simp [bktsOf]

theorem crowd_zero : RSet.new (some 17) = crowd 0 := by
  unfold RSet.new crowd
  dsimp only
  rw [replicate_bktsOf]

theorem bktsOf_ne {f : Nat → Bkt} : bktsOf 131072 f ≠ [] := by
  intro h
  have : (bktsOf 131072 f).length = 131072 := by simp [bktsOf]
  rw [h] at this
  exact absurd this (by decide)

theorem crowd_fuel {f : Nat → Bkt} {n : Nat} {g : Bool} : RSet.fuel ⟨bktsOf 131072 f, 131071, n, g⟩ = 196608 := by
  simp [RSet.fuel, bktsOf]

theorem crowd_put (hi : Nat → Nat → Bool) (hash : Nat → Nat) {f : Nat → Bkt} {n p key : Nat} {d : Int}
    (hn : n < 65536) (hp : p < 131072) (hf : f p = Bkt.fresh) :
    (do
      let r ← RSet.room hash ⟨bktsOf 131072 f, 131071, n, false⟩ key p d
      let s ← r.1.put hi key r.2.1 r.2.2
      .ok (s, true) : Res (RSet × Bool)) =
    .ok (⟨bktsOf 131072 fun i => if i = p then ⟨d, some key⟩ else f i, 131071, n + 1, false⟩, true) := by
  have hr : RSet.room hash ⟨bktsOf 131072 f, 131071, n, false⟩ key p d =
      .ok (⟨bktsOf 131072 f, 131071, n, false⟩, p, d) := by
    unfold RSet.room
    rw [if_neg]
    simp only [RSet.threshold, bktsOf, List.length_map, List.length_range, Bool.false_eq_true, false_or]
    omega
  rw [hr, Res.ok_bind]
  unfold RSet.put RSet.first
  dsimp only
  rw [if_neg bktsOf_ne, rd_bktsOf hp, Res.ok_bind, hf, if_pos (show Bkt.fresh.dist = -1 from rfl), wr_bktsOf hp]
  rfl

theorem crowd_step (hi : Nat → Nat → Bool) {n : Nat} (hn : n < 32768) :
    (crowd n).insert id hi (131072 * n) = .ok (crowd (n + 1), true) := by
  unfold RSet.insert crowd
  rw [crowd_fuel]
  unfold RSet.first
  dsimp only
  rw [if_neg bktsOf_ne]
  have h := probe_run (f := fun i => if i < n then ⟨i, some (131072 * i)⟩ else Bkt.fresh) (key := 131072 * n)
    (n := n) (o := 0) (by omega) (by omega) (by
      intro p _ hp
      exact ⟨131072 * p, by rw [if_pos hp], by omega⟩) n (196608 - n) (by omega)
  rw [show n + (196608 - n) = 196608 by omega, Nat.sub_self] at h
  have e0 : id (131072 * n) &&& 131071 = 0 := by
    rw [mask17]
    simp
  rw [e0]
  have e1 : (((0 : Nat) : Int) - ((0 : Nat) : Int)) = 0 := rfl
  rw [e1] at h
  rw [h, show 196608 - n = (196607 - n) + 1 by omega, probe, rd_bktsOf (by omega), Res.ok_bind]
  rw [if_neg (Nat.lt_irrefl n), if_neg (by unfold Bkt.fresh; dsimp only; omega), Res.ok_bind]
  dsimp only
  rw [crowd_put hi id (by omega) (by omega) (by rw [if_neg (Nat.lt_irrefl n)])]
  refine congrArg (fun f => Except.ok (RSet.mk (bktsOf 131072 f) 131071 (n + 1) false, true)) ?_
  funext i
  by_cases h1 : i = n
  · rw [if_pos h1, if_pos (by omega), h1]
    simp
  · rw [if_neg h1]
    by_cases h2 : i < n
    · rw [if_pos h2, if_pos (by omega)]
    · rw [if_neg h2, if_neg (by omega)]

theorem crowd_last (hi : Nat → Nat → Bool) : (crowd 32768).insert id hi 1 = .ok (crowd', true) := by
  unfold RSet.insert crowd
  rw [crowd_fuel]
  unfold RSet.first
  dsimp only
  rw [if_neg bktsOf_ne]
  have h := probe_run (f := fun i => if i < 32768 then ⟨i, some (131072 * i)⟩ else Bkt.fresh) (key := 1)
    (n := 32768) (o := 1) (by omega) (by omega) (by
      intro p _ hp
      exact ⟨131072 * p, by rw [if_pos hp], by omega⟩) 32767 (196608 - 32767) (by omega)
  have e0 : id 1 &&& 131071 = 1 := rfl
  rw [e0]
  have h' : probe (bktsOf 131072 fun i => if i < 32768 then ⟨i, some (131072 * i)⟩ else Bkt.fresh) 131071 1 196608 1 0 =
      probe (bktsOf 131072 fun i => if i < 32768 then ⟨i, some (131072 * i)⟩ else Bkt.fresh) 131071 1
        (163840 + 1) 32768 32767 := h
  rw [h', probe, rd_bktsOf (by omega), Res.ok_bind, if_neg (Nat.lt_irrefl _),
    if_neg (by unfold Bkt.fresh; dsimp only; omega), Res.ok_bind]
  dsimp only
  rw [crowd_put hi id (by omega) (by omega) (by rw [if_neg (Nat.lt_irrefl _)])]
  rfl

theorem crowd_find : crowd'.find id 131073 = .error .ub := by
  unfold RSet.find crowd'
  rw [crowd_fuel]
  unfold RSet.first
  dsimp only
  rw [if_neg bktsOf_ne]
  have h := probe_run (f := fun i => if i = 32768 then ⟨32767, some 1⟩ else
      if i < 32768 then ⟨i, some (131072 * i)⟩ else Bkt.fresh) (key := 131073)
    (n := 32768) (o := 1) (by omega) (by omega) (by
      intro p _ hp
      exact ⟨131072 * p, by rw [if_neg (by omega), if_pos hp], by omega⟩) 32767 (196608 - 32767) (by omega)
  have e0 : id 131073 &&& 131071 = 1 := rfl
  rw [e0]
  have h' : probe (bktsOf 131072 fun i => if i = 32768 then ⟨32767, some 1⟩ else
      if i < 32768 then ⟨i, some (131072 * i)⟩ else Bkt.fresh) 131071 131073 196608 1 0 =
      probe (bktsOf 131072 fun i => if i = 32768 then ⟨32767, some 1⟩ else
        if i < 32768 then ⟨i, some (131072 * i)⟩ else Bkt.fresh) 131071 131073 (163839 + 1 + 1) 32768 32767 := h
  rw [h', probe, rd_bktsOf (by omega), Res.ok_bind, if_pos rfl, if_pos (by dsimp only; omega), Bkt.value]
  dsimp only
  rw [Res.ok_bind, if_neg (by omega), nextBkt17 (by omega), probe, rd_bktsOf (by omega), Res.ok_bind,
    if_neg (show ¬ 32768 + 1 = 32768 by omega), if_neg (show ¬ 32768 + 1 < 32768 by omega),
    if_pos (show inc16 32767 ≤ Bkt.fresh.dist by decide)]
  rfl

theorem crowd_all (hi : Nat → Nat → Bool) : ∀ (j : Nat), j ≤ 32768 → ∀ rest : List Nat,
    ∃ bs, (RSet.new (some 17)).insertAll id hi ((List.range j).map (131072 * ·) ++ rest) =
      (do let t ← (crowd j).insertAll id hi rest; .ok (t.1, bs ++ t.2))
  | 0, _, rest => ⟨[], by
      rw [crowd_zero]
      simp only [List.range_zero, List.map_nil, List.nil_append]
      cases (crowd 0).insertAll id hi rest <;> rfl⟩
  | j + 1, h, rest => by
    obtain ⟨bs, hbs⟩ := crowd_all hi j (by omega) (131072 * j :: rest)
    refine ⟨bs ++ [true], ?_⟩
    rw [List.range_succ, List.map_append, List.append_assoc]
    simp only [List.map_cons, List.map_nil, List.cons_append, List.nil_append]
    rw [hbs, RSet.insertAll, crowd_step hi (by omega), Res.ok_bind]
    dsimp only
    cases (crowd (j + 1)).insertAll id hi rest with
    | error e => rfl
    | ok t =>
      rw [Res.ok_bind, Res.ok_bind, Res.ok_bind, List.append_assoc]
      rfl

/-- Growing doubles the number of buckets, a power of two, as long as the result fits into 64 bits; with `2^63` buckets
it is refused by an exception. -/
theorem C61_growth (k : Nat) (hk : k ≤ 63) :
    nextBucketCount (2 ^ k - 1) = if k < 63 then .ok (2 ^ (k + 1)) else .error .throw := by
  have hpos := Nat.two_pow_pos k
  unfold nextBucketCount
  rw [Nat.sub_add_cancel hpos]
  by_cases h : k < 63
  · have : 2 ^ k ≤ 2 ^ 62 := Nat.pow_le_pow_right (by decide) (by omega)
    rw [if_neg (by omega), if_pos h, Nat.pow_succ]
  · have : k = 63 := by omega
    rw [this, if_pos (by decide), if_neg (by decide)]

example : nextBucketCount 16383 = .ok 32768 := C61_growth 14 (by decide)

example : nextBucketCount (2 ^ 63 - 1) = .error .throw := C61_growth 63 (by decide)

/-- **C61 fails in general.** With `2 ^ 17` buckets and the identity as hash function, after inserting 32769 32-bit
keys, a lookup reads the value of a bucket that holds none: the 16-bit distance has wrapped around. -/
theorem C61_refuted (hi : Nat → Nat → Bool) : ∃ ks : List Nat, (∀ k ∈ ks, k < 2 ^ 32) ∧ ks.length = 32769 ∧
    ∃ s bs, (RSet.new (some 17)).insertAll id hi ks = .ok (s, bs) ∧ s.find id 131073 = .error .ub := by
  refine ⟨(List.range 32768).map (131072 * ·) ++ [1], ?_, by simp, ?_⟩
  · intro k hk
    rw [List.mem_append, List.mem_map] at hk
    rcases hk with ⟨i, hi', rfl⟩ | hk
    · have := List.mem_range.1 hi'
      omega
    · rw [List.mem_singleton.1 hk]
      omega
  · obtain ⟨bs, hbs⟩ := crowd_all hi 32768 (Nat.le_refl _) [1]
    refine ⟨crowd', bs ++ [true], ?_, crowd_find⟩
    rw [hbs, RSet.insertAll, crowd_last, Res.ok_bind]
    rfl

/-! ## The theorems applied to the examples -/

/-- The general form for keys that all fall into different buckets or few: here the remainder by 7. -/
example := C61_set_partial (fun k => k % 7) (fun _ _ => false) (by simp) none [5, 12, 5, 19, 0] (by decide) (by
  intro n kk _ s w _ _ _
  refine (List.length_filter_le _ _).trans ?_
  have h1 := (List.dedup_sublist (([5, 12, 5, 19, 0] : List Nat).take n)).length_le
  have h2 : (([5, 12, 5, 19, 0] : List Nat).take n).length ≤ 5 := List.length_take_le' n _
  omega)

end Grann
