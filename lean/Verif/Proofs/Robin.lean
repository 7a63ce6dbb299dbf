import Mathlib.Data.List.Perm.Basic
import Mathlib.Data.List.Perm.Subperm
import Mathlib.Data.List.Nodup
import Mathlib.Data.List.Count
import Mathlib.Data.Nat.Find
import Mathlib.Data.Nat.ModEq
import Verif.Model.Robin
/-!
# Lemmas about the robin hood hash set
-/

namespace Grann

/-- A table: every bucket is empty or has a key and its distance. -/
abbrev Tab := List (Option (Nat × Nat))

/-- The bucket of the model for a bucket of a table. -/
def encB : Option (Nat × Nat) → Bkt
  | none => Bkt.fresh
  | some (k, d) => ⟨d, some k⟩

def Tab.keys (tb : Tab) : List Nat := tb.filterMap (Option.map Prod.fst)

/-- The invariant of the table. -/
structure TInv (hash : Nat → Nat) (tb : Tab) : Prop where
  pos : ∀ (i k d : Nat), tb[i]? = some (some (k, d)) → (hash k + d) % tb.length = i
  ord : ∀ (i k d : Nat), tb[i]? = some (some (k, d + 1)) →
    ∃ k' d' : Nat, tb[(i + tb.length - 1) % tb.length]? = some (some (k', d')) ∧ d ≤ d'
  nodup : tb.keys.Nodup

theorem mem_keys {tb : Tab} {k : Nat} : k ∈ tb.keys ↔ ∃ i d : Nat, tb[i]? = some (some (k, d)) := by
  unfold Tab.keys
  rw [List.mem_filterMap]
  constructor
  · rintro ⟨o, ho, he⟩
    cases o with
    | none => simp at he
    | some q =>
      obtain ⟨i, hi⟩ := List.mem_iff_getElem?.1 ho
      simp only [Option.map_some, Option.some.injEq] at he
      exact ⟨i, q.2, by rw [hi, ← he]⟩
  · rintro ⟨i, d, h⟩
    exact ⟨some (k, d), List.mem_iff_getElem?.2 ⟨i, h⟩, rfl⟩

theorem TInv.inj {hash : Nat → Nat} {tb : Tab} (ht : TInv hash tb) {i i' k d d' : Nat}
    (h : tb[i]? = some (some (k, d))) (h' : tb[i']? = some (some (k, d'))) : i = i' := by
  have hn := ht.nodup
  unfold Tab.keys List.Nodup at hn
  rw [List.pairwise_filterMap, List.pairwise_iff_getElem] at hn
  obtain ⟨hi, he⟩ := List.getElem?_eq_some_iff.1 h
  obtain ⟨hi', he'⟩ := List.getElem?_eq_some_iff.1 h'
  rcases Nat.lt_trichotomy i i' with hlt | heq | hlt
  · exact absurd rfl (hn i i' hi hi' hlt k (by rw [he]; rfl) k (by rw [he']; rfl))
  · exact heq
  · exact absurd rfl (hn i' i hi' hi hlt k (by rw [he']; rfl) k (by rw [he]; rfl))

/-- The bucket before `i` occupied, at a distance of at least `j - 1`, if `j` is positive. -/
def PredOk (tb : Tab) (i j : Nat) : Prop :=
  ∀ j', j = j' + 1 → ∃ k' d' : Nat, tb[(i + tb.length - 1) % tb.length]? = some (some (k', d')) ∧ j' ≤ d'

/-- The key hashes into the `w` buckets from `s` on. -/
def inWin (hash : Nat → Nat) (m s w k : Nat) : Bool := decide ((hash k + (m - s)) % m < w)

theorem inWin_of {hash : Nat → Nat} {m s w k x : Nat} (hs : s < m) (hw : w ≤ m) (hx : x < w)
    (h : hash k % m = (s + x) % m) : inWin hash m s w k = true := by
  unfold inWin
  rw [decide_eq_true_iff]
  have h1 : (hash k + (m - s)) % m = (s + x + (m - s)) % m := Nat.ModEq.add_right (m - s) h
  have h2 : s + x + (m - s) = x + m := by omega
  rw [h1, h2, Nat.add_mod_right, Nat.mod_eq_of_lt (by omega)]
  exact hx

/-- A long way from the ideal bucket means many keys in few ideal buckets. -/
theorem path_bound {hash : Nat → Nat} {tb : Tab} (ht : TInv hash tb) {p j : Nat} (hp : p < tb.length) (hj : 0 < j)
    (hpred : PredOk tb p j) (hempty : ∃ i : Nat, tb[i]? = some none) :
    ∃ s w, s < tb.length ∧ 0 < w ∧ w ≤ tb.length ∧
      w + j ≤ tb.keys.countP (inWin hash tb.length s w) + 1 ∧
      ∀ k, (hash k + j) % tb.length = p → inWin hash tb.length s w k = true := by
  obtain ⟨m, hm⟩ : ∃ m, m = tb.length := ⟨_, rfl⟩
  unfold PredOk at hpred
  have hpos := ht.pos
  have hord := ht.ord
  rw [← hm] at hp hpred hpos hord ⊢
  -- the bucket `t` places before `p`
  obtain ⟨ix, hix⟩ : ∃ ix : Nat → Nat, ix = fun t => (p + m + m - t) % m := ⟨_, rfl⟩
  obtain ⟨dl, hdl⟩ : ∃ dl : Nat → Nat, dl = fun t => match tb[ix t]? with
    | some (some q) => q.2
    | _ => 0 := ⟨_, rfl⟩
  have dl_some : ∀ t k d, tb[ix t]? = some (some (k, d)) → dl t = d := by
    intro t k d h
    rw [hdl]
    simp only [h]
  have ix_lt : ∀ t, ix t < m := by
    intro t
    rw [hix]
    exact Nat.mod_lt _ (by omega)
  have ix_succ : ∀ t, t ≤ m → (ix t + m - 1) % m = ix (t + 1) := by
    intro t ht
    rw [hix]
    simp only
    have h1 : (p + m + m - t) % m + m - 1 = (p + m + m - t) % m + (m - 1) := by omega
    rw [h1, Nat.mod_add_mod]
    have h2 : p + m + m - t + (m - 1) = p + m + m - (t + 1) + m := by omega
    rw [h2, Nat.add_mod_right]
  have ix_inj : ∀ t t', t ≤ m → t' ≤ m → t < t' → t' - t < m → ix t ≠ ix t' := by
    intro t t' h1 h2 h3 h4 he
    rw [hix] at he
    simp only at he
    have h5 : (p + m + m - t') % m = (p + m + m - t' + (t' - t)) % m := by
      rw [← he]
      congr 1
      omega
    have h6 : (t' - t) % m = 0 := by
      have : p + m + m - t' + (t' - t) ≡ p + m + m - t' + 0 [MOD m] := h5.symm
      exact Nat.ModEq.add_left_cancel' _ this
    rw [Nat.mod_eq_of_lt h4] at h6
    omega
  have hp1 : (p + m - 1) % m = ix 1 := by
    rw [hix]
    simp only
    have h2 : p + m + m - 1 = p + m - 1 + m := by omega
    rw [h2, Nat.add_mod_right]
  -- the first bucket at distance 0
  obtain ⟨ie, hie⟩ := hempty
  have hiem : ie < m := by
    rw [hm]
    exact (List.getElem?_eq_some_iff.1 hie).1
  obtain ⟨te, hte1, htem, hte⟩ : ∃ te, 1 ≤ te ∧ te ≤ m ∧ ix te = ie := by
    by_cases hlt : ie < p
    · refine ⟨p - ie, by omega, by omega, ?_⟩
      rw [hix]
      simp only
      have h2 : p + m + m - (p - ie) = ie + m + m := by omega
      rw [h2, Nat.add_mod_right, Nat.add_mod_right, Nat.mod_eq_of_lt hiem]
    · refine ⟨p + m - ie, by omega, by omega, ?_⟩
      rw [hix]
      simp only
      have h2 : p + m + m - (p + m - ie) = ie + m := by omega
      rw [h2, Nat.add_mod_right, Nat.mod_eq_of_lt hiem]
  have hex : ∃ t, 1 ≤ t ∧ dl t = 0 := ⟨te, hte1, by rw [hdl]; simp only [hte, hie]⟩
  obtain ⟨t0, ht0⟩ : ∃ t0, t0 = Nat.find hex := ⟨_, rfl⟩
  have ht0s : 1 ≤ t0 ∧ dl t0 = 0 := by rw [ht0]; exact Nat.find_spec hex
  have ht0m : ∀ t, 1 ≤ t → t < t0 → dl t ≠ 0 := by
    intro t h1 h2 h3
    rw [ht0] at h2
    exact Nat.find_min hex h2 ⟨h1, h3⟩
  have ht0e : t0 ≤ te := by
    rw [ht0]
    exact Nat.find_min' hex ⟨hte1, by rw [hdl]; simp only [hte, hie]⟩
  -- all buckets up to there are occupied
  have hocc : ∀ t, 1 ≤ t → t ≤ t0 →
      (∃ k d : Nat, tb[ix t]? = some (some (k, d))) ∧ (t = 1 ∨ t - 1 + dl (t - 1) ≤ t + dl t) ∧ j ≤ t + dl t := by
    intro t h1
    induction t, h1 using Nat.le_induction with
    | base =>
      intro _
      obtain ⟨k', d', hb, hd⟩ := hpred (j - 1) (by omega)
      rw [hp1] at hb
      refine ⟨⟨k', d', hb⟩, .inl rfl, ?_⟩
      rw [dl_some _ _ _ hb]
      omega
    | succ t h1 ih =>
      intro h2
      obtain ⟨⟨k, d, hb⟩, _, hjt⟩ := ih (by omega)
      have hd0 := ht0m t h1 (by omega)
      rw [dl_some _ _ _ hb] at hd0 hjt
      obtain ⟨d1, rfl⟩ : ∃ d1, d = d1 + 1 := ⟨d - 1, by omega⟩
      obtain ⟨k', d', hb', hd'⟩ := hord _ _ _ hb
      rw [ix_succ t (by omega)] at hb'
      refine ⟨⟨k', d', hb'⟩, .inr ?_, ?_⟩
      · rw [Nat.add_sub_cancel, dl_some _ _ _ hb, dl_some _ _ _ hb']
        omega
      · rw [dl_some _ _ _ hb']
        omega
  have ht0lt : t0 < m := by
    rcases Nat.lt_or_ge t0 m with h | h
    · exact h
    · obtain ⟨⟨k, d, hb⟩, _⟩ := hocc t0 ht0s.1 (Nat.le_refl _)
      have : t0 = te := by omega
      rw [this, hte, hie] at hb
      cases hb
  have hmono : ∀ n t, t + n = t0 → 1 ≤ t → t + dl t ≤ t0 := by
    intro n
    induction n with
    | zero =>
      intro t h1 _
      have : t = t0 := by omega
      rw [this, ht0s.2]
      omega
    | succ n ih =>
      intro t h1 h2
      have h3 := ih (t + 1) (by omega) (by omega)
      obtain ⟨_, h4, _⟩ := hocc (t + 1) (by omega) (by omega)
      rcases h4 with h4 | h4
      · omega
      · rw [Nat.add_sub_cancel] at h4
        omega
  have hjt0 : j ≤ t0 := by
    have := (hocc t0 ht0s.1 (Nat.le_refl _)).2.2
    rw [ht0s.2] at this
    omega
  -- the window
  refine ⟨ix t0, t0 - j + 1, ix_lt _, by omega, by omega, ?_, ?_⟩
  · -- the keys of the run
    obtain ⟨kf, hkf⟩ : ∃ kf : Nat → Nat, ∀ t, 1 ≤ t → t ≤ t0 → tb[ix t]? = some (some (kf t, dl t)) := by
      refine ⟨fun t => match tb[ix t]? with
        | some (some q) => q.1
        | _ => 0, ?_⟩
      intro t h1 h2
      obtain ⟨⟨k, d, hb⟩, _⟩ := hocc t h1 h2
      simp only [hb, dl_some _ _ _ hb]
    have hnd : ((List.range t0).map fun t => kf (t + 1)).Nodup := by
      rw [List.nodup_map_iff_inj_on List.nodup_range]
      intro a ha b hb he
      rw [List.mem_range] at ha hb
      have h1 := hkf (a + 1) (by omega) (by omega)
      have h2 := hkf (b + 1) (by omega) (by omega)
      rw [he] at h1
      have h3 := ht.inj h1 h2
      rcases Nat.lt_trichotomy a b with h | h | h
      · exact absurd h3 (ix_inj _ _ (by omega) (by omega) (by omega) (by omega))
      · exact h
      · exact absurd h3.symm (ix_inj _ _ (by omega) (by omega) (by omega) (by omega))
    have hsub : ((List.range t0).map fun t => kf (t + 1)) ⊆
        tb.keys.filter (inWin hash m (ix t0) (t0 - j + 1)) := by
      intro k hk
      obtain ⟨a, ha, rfl⟩ := List.mem_map.1 hk
      rw [List.mem_range] at ha
      have h1 := hkf (a + 1) (by omega) (by omega)
      rw [List.mem_filter]
      refine ⟨mem_keys.2 ⟨_, _, h1⟩, ?_⟩
      have h2 := hmono (t0 - (a + 1)) (a + 1) (by omega) (by omega)
      have h3 := (hocc (a + 1) (by omega) (by omega)).2.2
      refine inWin_of (ix_lt _) (by omega) (x := t0 - (a + 1 + dl (a + 1))) (by omega) ?_
      have h4 := hpos _ _ _ h1
      -- `hash k + dl = p + 2m - (a+1)` modulo `m`
      have h5 : hash (kf (a + 1)) + dl (a + 1) ≡ ix t0 + (t0 - (a + 1 + dl (a + 1))) + dl (a + 1) [MOD m] := by
        have e1 : hash (kf (a + 1)) + dl (a + 1) ≡ p + m + m - (a + 1) [MOD m] := by
          unfold Nat.ModEq
          rw [h4, hix]
        have e2 : ix t0 + (t0 - (a + 1 + dl (a + 1))) + dl (a + 1) ≡ p + m + m - (a + 1) [MOD m] := by
          have e3 : ix t0 ≡ p + m + m - t0 [MOD m] := by
            rw [hix]
            exact Nat.mod_modEq _ _
          have e4 := (e3.add_right (t0 - (a + 1 + dl (a + 1)))).add_right (dl (a + 1))
          have e5 : p + m + m - t0 + (t0 - (a + 1 + dl (a + 1))) + dl (a + 1) = p + m + m - (a + 1) := by omega
          rw [e5] at e4
          exact e4
        exact e1.trans e2.symm
      exact Nat.ModEq.add_right_cancel' _ h5
    have hlen := (hnd.subperm hsub).length_le
    rw [List.length_map, List.length_range, ← List.countP_eq_length_filter] at hlen
    omega
  · intro k hk
    refine inWin_of (ix_lt _) (by omega) (x := t0 - j) (by omega) ?_
    have h5 : hash k + j ≡ ix t0 + (t0 - j) + j [MOD m] := by
      have e1 : hash k + j ≡ p [MOD m] := by
        unfold Nat.ModEq
        rw [hk, Nat.mod_eq_of_lt hp]
      have e3 : ix t0 ≡ p + m + m - t0 [MOD m] := by
        rw [hix]
        exact Nat.mod_modEq _ _
      have e4 := (e3.add_right (t0 - j)).add_right j
      have e5 : p + m + m - t0 + (t0 - j) + j = p + m + m := by omega
      rw [e5] at e4
      have e6 : p + m + m ≡ p [MOD m] := by
        unfold Nat.ModEq
        rw [Nat.add_mod_right, Nat.add_mod_right]
      exact e1.trans (e4.trans e6).symm
    exact Nat.ModEq.add_right_cancel' _ h5

end Grann
