import Verif.Props.Search
/-!
# C11: the output slots behind the returned count
-/

namespace Grann

theorem memmoveUp_behind {a a' : List Nbr} {frm K : Nat} (h : memmoveUp a frm K = .ok a') :
    a'.length = a.length ∧ ∀ j, K < j → a'[j]? = a[j]? := by
  unfold memmoveUp at h
  split at h
  · split at h
    · rename_i h1 h2
      injection h with h; subst h
      have hl : (a.take (frm + 1) ++ (a.drop frm).take (K - frm)).length = K + 1 := by
        simp only [List.length_append, List.length_take, List.length_drop]; omega
      refine ⟨by rw [List.length_append, hl, List.length_drop]; omega, fun j hj => ?_⟩
      rw [List.getElem?_append_right (by omega), hl, List.getElem?_drop]
      congr 1; omega
    · cases h
  · injection h with h; subst h
    exact ⟨rfl, fun _ _ => rfl⟩

theorem wr_behind {α : Type} {a a' : List α} {i : Nat} {x : α} (h : wr a i x = .ok a') :
    a'.length = a.length ∧ ∀ j, i < j → a'[j]? = a[j]? := by
  unfold wr at h
  split at h
  · injection h with h; subst h
    exact ⟨List.length_set .., fun j hj => List.getElem?_set_ne (by omega)⟩
  · cases h

theorem poolBsearch_right (a : List Nbr) (d : F32) : ∀ (fuel left right : Nat) {x : Nat × Nat},
    poolBsearch a d fuel left right = .ok x → x.2 ≤ right
  | 0, _, _, _, h => by simp [poolBsearch] at h
  | fuel + 1, left, right, x, h => by
    unfold poolBsearch at h
    split at h
    · rename_i hc
      obtain ⟨m, -, h⟩ := Res.bind_eq_ok.1 h
      have hu : u32 (left + right) ≤ left + right := Nat.mod_le _ _
      split at h
      · have := poolBsearch_right a d fuel _ _ h
        omega
      · exact poolBsearch_right a d fuel _ _ h
    · injection h with h; subst h; exact Nat.le_refl _

/-- Entries behind position `K` are not touched by an insertion. -/
theorem insertIntoPool_behind {a a' : List Nbr} {K r : Nat} {nn : Nbr} (hK : K < 4294967296) (hl : a.length ≤ 4294967295)
    (h : insertIntoPool a K nn = .ok (a', r)) : a'.length = a.length ∧ ∀ j, K < j → a'[j]? = a[j]? := by
  unfold insertIntoPool at h
  obtain ⟨a0, -, h⟩ := Res.bind_eq_ok.1 h
  split at h
  · obtain ⟨a1, h1, h⟩ := Res.bind_eq_ok.1 h
    obtain ⟨a2, h2, h⟩ := Res.bind_eq_ok.1 h
    injection h with h; injection h with h _; subst h
    obtain ⟨b1, c1⟩ := memmoveUp_behind h1
    obtain ⟨b2, c2⟩ := wr_behind h2
    exact ⟨by omega, fun j hj => by rw [c2 j (by omega), c1 j hj]⟩
  · obtain ⟨ar, har, h⟩ := Res.bind_eq_ok.1 h
    have hr : u32 (K + 4294967295) < a.length := (List.getElem?_eq_some_iff.1 (rd_eq_ok_iff.1 har)).1
    have hK1 : 1 ≤ K := by
      rcases Nat.eq_zero_or_pos K with rfl | h0
      · simp only [u32] at hr; omega
      · exact h0
    rw [u32_pred hK1 hK] at h
    split at h
    · obtain ⟨a1, h1, h⟩ := Res.bind_eq_ok.1 h
      injection h with h; injection h with h _; subst h
      exact wr_behind h1
    · obtain ⟨⟨left, right⟩, hb, h⟩ := Res.bind_eq_ok.1 h
      have hright := poolBsearch_right _ _ _ _ _ hb
      obtain ⟨o, -, h⟩ := Res.bind_eq_ok.1 h
      cases o with
      | none =>
        injection h with h; injection h with h _; subst h
        exact ⟨rfl, fun _ _ => rfl⟩
      | some left =>
        obtain ⟨al, -, h⟩ := Res.bind_eq_ok.1 h
        obtain ⟨ar, -, h⟩ := Res.bind_eq_ok.1 h
        split at h
        · injection h with h; injection h with h _; subst h
          exact ⟨rfl, fun _ _ => rfl⟩
        · obtain ⟨a1, h1, h⟩ := Res.bind_eq_ok.1 h
          obtain ⟨a2, h2, h⟩ := Res.bind_eq_ok.1 h
          injection h with h; injection h with h _; subst h
          obtain ⟨b1, c1⟩ := memmoveUp_behind h1
          obtain ⟨b2, c2⟩ := wr_behind h2
          exact ⟨by omega, fun j hj => by rw [c2 j (by dsimp only at hright; omega), c1 j hj]⟩

/-- As long as the list is not full, its unused entries are default entries. -/
structure Unused (L : Nat) (s : PoolSt) : Prop where
  len : s.pool.length = L + 1
  le : s.cur ≤ L
  rest : s.cur < L → ∀ (j : Nat) x, s.cur ≤ j → s.pool[j]? = some x → x = Nbr.dflt

theorem Unused.procOne {V : Type} {c : Ctx V} {q : V} {filters : List Label} {L : Nat} (hL : L ≤ 2147483648) {s s' : PoolSt} {id : Nat}
    (hs : Unused L s) (h : procOne c q filters L s id = .ok s') : Unused L s' := by
  unfold Grann.procOne at h
  obtain ⟨b, -, h⟩ := Res.bind_eq_ok.1 h
  split at h
  · injection h with h; subst h; exact hs
  split at h
  · injection h with h; subst h; exact hs
  obtain ⟨v, -, h⟩ := Res.bind_eq_ok.1 h
  dsimp only at h
  have fin : ∀ sk : Bool, (if sk = true then (.ok ⟨s.pool, s.cur, id :: s.ins, s.cmps + 1, s.best⟩ : Res PoolSt)
      else (do
        let (pool', r) ← insertIntoPool s.pool s.cur ⟨id, c.cmp q v, true⟩
        .ok ⟨pool', (if s.cur < L then s.cur + 1 else s.cur), id :: s.ins, s.cmps + 1, (if r < s.best then r else s.best)⟩)) =
      .ok s' → Unused L s' := by
    intro sk h
    split at h
    · injection h with h; subst h; exact ⟨hs.len, hs.le, hs.rest⟩
    obtain ⟨⟨pool', r⟩, hi, h⟩ := Res.bind_eq_ok.1 h
    injection h with h; subst h
    have h1 := hs.len
    have h2 := hs.le
    obtain ⟨b1, b2⟩ := insertIntoPool_behind (by omega) (by omega) hi
    refine ⟨b1.trans h1, ?_, ?_⟩
    · show (if s.cur < L then s.cur + 1 else s.cur) ≤ L
      split <;> omega
    · intro hlt j x hj hx
      have hj' : s.cur + 1 ≤ j := by
        have h3 : (if s.cur < L then s.cur + 1 else s.cur) < L := hlt
        have h4 : (if s.cur < L then s.cur + 1 else s.cur) ≤ j := hj
        split at h3 <;> [rw [if_pos (by assumption)] at h4; rw [if_neg (by assumption)] at h4] <;> omega
      have hc : s.cur < L := by
        have : (if s.cur < L then s.cur + 1 else s.cur) < L := hlt
        split at this <;> omega
      have hx' : pool'[j]? = some x := hx
      rw [b2 j (by omega)] at hx'
      exact hs.rest hc j x (by omega) hx'
  split at h
  · obtain ⟨l, -, h⟩ := Res.bind_eq_ok.1 h
    exact fin _ h
  · exact fin false h

theorem Unused.foldl {V : Type} {c : Ctx V} {q : V} {filters : List Label} {L : Nat} (hL : L ≤ 2147483648) :
    ∀ (cands : List Nat) {s s' : PoolSt}, Unused L s → cands.foldlM (Grann.procOne c q filters L) s = .ok s' → Unused L s'
  | [], s, s', hs, h => by injection h with h; subst h; exact hs
  | id :: ids, s, s', hs, h => by
    rw [List.foldlM_cons] at h
    obtain ⟨s1, h1, h⟩ := Res.bind_eq_ok.1 h
    exact Unused.foldl hL ids (hs.procOne hL h1) h

theorem Unused.set {L : Nat} {s : PoolSt} (hs : Unused L s) {k : Nat} (hk : k < s.cur) (x : Nbr) {p : List Nbr}
    (hp : p = s.pool.set k x) : Unused L { s with pool := p } := by
  subst hp
  refine ⟨by rw [List.length_set]; exact hs.len, hs.le, fun hlt j y hj hy => ?_⟩
  have hj' : s.cur ≤ j := hj
  have hy' : (s.pool.set k x)[j]? = some y := hy
  rw [List.getElem?_set_ne (by omega)] at hy'
  exact hs.rest hlt j y hj' hy'

theorem Unused.greedyIter {V : Type} {c : Ctx V} {q : V} {filters : List Label} {L : Nat} (hL : L ≤ 2147483648) {g : List (List Nat)}
    {s s' : GSt} (hs : Unused L s.ps) (hk : s.k < s.ps.cur) (h : greedyIter c q filters L g s = .ok s') : Unused L s'.ps := by
  unfold Grann.greedyIter at h
  obtain ⟨x, -, h⟩ := Res.bind_eq_ok.1 h
  split at h
  · obtain ⟨p, hp, h⟩ := Res.bind_eq_ok.1 h
    obtain ⟨des, -, h⟩ := Res.bind_eq_ok.1 h
    obtain ⟨ps, hps, h⟩ := Res.bind_eq_ok.1 h
    injection h with h; subst h
    have hp' : p = s.ps.pool.set s.k { x with flag := false } := by
      unfold wr at hp
      split at hp
      · injection hp with hp; exact hp.symm
      · cases hp
    have h1 := hs.set hk { x with flag := false } hp'
    unfold procCands at hps
    exact Unused.foldl hL des (s := ⟨p, s.ps.cur, s.ps.ins, s.ps.cmps, L⟩) ⟨h1.len, h1.le, h1.rest⟩ hps
  · injection h with h; subst h; exact hs

theorem Unused.greedyLoop {V : Type} {c : Ctx V} {q : V} {filters : List Label} {L : Nat} (hL : L ≤ 2147483648)
    {adj : Nat → List (List Nat)} : ∀ (fuel : Nat) {s s' : GSt}, Unused L s.ps → greedyLoop c q filters L adj fuel s = .ok s' →
    Unused L s'.ps
  | 0, s, s', hs, h => by
    unfold Grann.greedyLoop at h
    split at h
    · cases h
    · injection h with h; subst h; exact hs
  | fuel + 1, s, s', hs, h => by
    unfold Grann.greedyLoop at h
    split at h
    · rename_i hk
      obtain ⟨s1, h1, h⟩ := Res.bind_eq_ok.1 h
      exact Unused.greedyLoop hL fuel (hs.greedyIter hL hk h1) h
    · injection h with h; subst h; exact hs

theorem Unused.initLoop {V : Type} {c : Ctx V} {q : V} {L : Nat} : ∀ (init : List Nat) {s s' : PoolSt}, Unused L s → s.cur < L →
    initLoop c q L init s = .ok s' → Unused L s'
  | [], s, s', hs, _, h => by injection h with h; subst h; exact hs
  | id :: ids, s, s', hs, hc, h => by
    unfold Grann.initLoop at h
    obtain ⟨v, -, h⟩ := Res.bind_eq_ok.1 h
    dsimp only at h
    have fin : ∀ s1 : PoolSt, Unused L s1 → (if s1.cur = L then .ok s1 else Grann.initLoop c q L ids s1) = Except.ok s' → Unused L s' := by
      intro s1 h1 h
      split at h
      · injection h with h; subst h; exact h1
      · exact Unused.initLoop ids h1 (by have := h1.le; omega) h
    split at h
    · exact fin s hs h
    · obtain ⟨p, hp, h⟩ := Res.bind_eq_ok.1 h
      obtain ⟨b1, b2⟩ := wr_behind hp
      refine fin _ ⟨b1.trans hs.len, Nat.succ_le_of_lt hc, ?_⟩ h
      intro _ j x hj hx
      have hj' : s.cur + 1 ≤ j := hj
      have hx' : p[j]? = some x := hx
      rw [b2 j (by omega)] at hx'
      exact hs.rest hc j x (by omega) hx'

/-- The list of candidates after a greedy search. -/
theorem Unused.greedySearch {V : Type} {sortF : List Nbr → List Nbr} (hsort : IsStdSort sortF) {c : Ctx V} {q : V} {filters : List Label}
    {L : Nat} (hL1 : 1 ≤ L) (hL : L ≤ 2147483648) {adj : Nat → List (List Nat)} {init : List Nat} {s : GSt}
    (h : greedySearch sortF c q filters L adj init = .ok s) : Unused L s.ps := by
  unfold Grann.greedySearch greedySearchF at h
  obtain ⟨s0, h0, h⟩ := Res.bind_eq_ok.1 h
  refine Unused.greedyLoop hL _ ?_ h
  unfold greedyStart at h0
  obtain ⟨s1, h1, h0⟩ := Res.bind_eq_ok.1 h0
  injection h0 with h0; subst h0
  have hu : Unused L (⟨resizePool [] (u32 (L + 1)), 0, [], 0, L⟩ : PoolSt) := by
    refine ⟨?_, Nat.zero_le _, ?_⟩
    · simp [resizePool, u32]; omega
    · intro _ j x _ hx
      have : x ∈ resizePool [] (u32 (L + 1)) := List.mem_of_getElem? hx
      simp [resizePool] at this
      exact this.2
  have h1 := Unused.initLoop init hu (by show 0 < L; omega) h1
  have hle := h1.le
  have hlen := h1.len
  have hsl : (sortF (s1.pool.take s1.cur)).length = s1.cur := by
    rw [(hsort.perm _).length_eq, List.length_take]; omega
  refine ⟨?_, hle, ?_⟩
  · show (sortF (s1.pool.take s1.cur) ++ s1.pool.drop s1.cur).length = _
    rw [List.length_append, hsl, List.length_drop]; omega
  · intro hlt j x hj hx
    have hj' : s1.cur ≤ j := hj
    have hx' : (sortF (s1.pool.take s1.cur) ++ s1.pool.drop s1.cur)[j]? = some x := hx
    rw [List.getElem?_append_right (by omega), hsl, List.getElem?_drop, show s1.cur + (j - s1.cur) = j by omega] at hx'
    exact h1.rest hlt j x hj' hx'

theorem copyOut_get (tags : List Nat) (top : List Nbr) : ∀ (todo i : Nat) {ind ind' : List Nat} {dst dst' : List F32},
    copyOut tags top todo i ind dst = .ok (ind', dst') →
    (∀ j, i ≤ j → j < i + todo → ∃ x t, top[j]? = some x ∧ tags[x.id]? = some t ∧ ind'[j]? = some t ∧ dst'[j]? = some x.dist) ∧
    ∀ j, j < i → ind'[j]? = ind[j]? ∧ dst'[j]? = dst[j]?
  | 0, i, ind, ind', dst, dst', h => by
    injection h with h; injection h with h1 h2; subst h1; subst h2
    exact ⟨fun j h1 h2 => absurd h2 (by omega), fun _ _ => ⟨rfl, rfl⟩⟩
  | todo + 1, i, ind, ind', dst, dst', h => by
    unfold copyOut at h
    obtain ⟨x, hx, h⟩ := Res.bind_eq_ok.1 h
    obtain ⟨t, ht, h⟩ := Res.bind_eq_ok.1 h
    obtain ⟨i1, h1, h⟩ := Res.bind_eq_ok.1 h
    obtain ⟨d1, h2, h⟩ := Res.bind_eq_ok.1 h
    obtain ⟨g1, g2⟩ := copyOut_get tags top todo (i + 1) h
    have e1 : ∀ j, i1[j]? = if j = i then some t else ind[j]? := by
      intro j
      unfold wr at h1
      split at h1
      · rename_i hlt
        injection h1 with h1; subst h1
        split
        · rename_i e; rw [e, List.getElem?_set_self hlt]
        · exact List.getElem?_set_ne (by omega)
      · cases h1
    have e2 : ∀ j, d1[j]? = if j = i then some x.dist else dst[j]? := by
      intro j
      unfold wr at h2
      split at h2
      · rename_i hlt
        injection h2 with h2; subst h2
        split
        · rename_i e; rw [e, List.getElem?_set_self hlt]
        · exact List.getElem?_set_ne (by omega)
      · cases h2
    refine ⟨fun j hj1 hj2 => ?_, fun j hj => ?_⟩
    · rcases Nat.eq_or_lt_of_le hj1 with rfl | hlt
      · refine ⟨x, t, rd_eq_ok_iff.1 hx, rd_eq_ok_iff.1 ht, ?_, ?_⟩
        · rw [(g2 i (by omega)).1, e1, if_pos rfl]
        · rw [(g2 i (by omega)).2, e2, if_pos rfl]
      · exact g1 j hlt (by omega)
    · rw [(g2 j (by omega)).1, (g2 j (by omega)).2, e1, e2, if_neg (by omega), if_neg (by omega)]
      exact ⟨rfl, rfl⟩

/-- The slots of a graph search between the returned count and `res_count`. -/
theorem graphSearch_filler {V : Type} {sortF : List Nbr → List Nbr} (hsort : IsStdSort sortF) {ix : GIdx V} {q : V} {filters : List Label}
    {init : List Nat} {rc L : Nat} (hL1 : 1 ≤ L) (hL : L ≤ 2147483648) (hrc : rc ≤ L) {ind ind' : List Nat} {dst dst' : List F32} {c : Nat}
    (h : graphSearch sortF ix q filters init rc L ind dst = .ok (ind', dst', c)) :
    ∀ j, c ≤ j → j < rc → ∃ t, ix.tags[0]? = some t ∧ ind'[j]? = some t ∧ dst'[j]? = some F32.fmax := by
  unfold graphSearch at h
  obtain ⟨s, hs, h⟩ := Res.bind_eq_ok.1 h
  obtain ⟨⟨a, b⟩, hc, h⟩ := Res.bind_eq_ok.1 h
  injection h with h; injection h with h1 h; injection h with h2 h3; subst h1; subst h2; subst h3
  have hu := Unused.greedySearch hsort hL1 hL hs
  intro j hj hjrc
  obtain ⟨x, t, g1, g2, g3, g4⟩ := (copyOut_get _ _ _ _ hc).1 j (by omega) (by omega)
  have := hu.rest (by omega) j x (by omega) g1
  subst this
  exact ⟨t, g2, g3, g4⟩

/-- **C11 (the other slots).** A search of a graph index whose returned count is below `res_count` fills the slots from the count up to
`res_count` with the tag of point 0 and the distance `FLT_MAX`: a caller that does not look at the count (as the search programs,
tests/search_vamana.cpp:128-131) takes point 0 for a result, whether or not it was found and whether or not it passes the filter. -/
theorem C11_filler {V : Type} (sortF : List Nbr → List Nbr) (hsort : IsStdSort sortF) (ix : GIdx V) (inner : List (GIdx V)) (q : V)
    (filters : List Label) (rc L : Nat) (hL1 : 1 ≤ L) (hL : L ≤ 2147483648) (hrc : rc ≤ L) (ind : List Nat) (dst : List F32) :
    ∀ r ∈ [vamanaSearch sortF ix q rc L ind dst filters, rngSearch sortF ix q rc L ind dst filters,
           hnswSearch sortF q rc L (ix :: inner) ind dst filters],
      ∀ ind' dst' c, r = .ok (ind', dst', c) → ∀ j, c ≤ j → j < rc →
        ∃ t, ix.tags[0]? = some t ∧ ind'[j]? = some t ∧ dst'[j]? = some F32.fmax := by
  intro r hr ind' dst' c e
  simp only [List.mem_cons, List.not_mem_nil, or_false] at hr
  rcases hr with rfl | rfl | rfl
  · exact graphSearch_filler hsort hL1 hL hrc e
  · exact graphSearch_filler hsort hL1 hL hrc e
  · cases inner with
    | nil => exact graphSearch_filler hsort hL1 hL hrc e
    | cons iy rest =>
      unfold hnswSearch at e
      obtain ⟨⟨ids, x, cnt⟩, -, e⟩ := Res.bind_eq_ok.1 e
      exact graphSearch_filler hsort hL1 hL hrc e

/-- A filtered search for three results that finds two of them: the third slot holds the tag of point 0 again. -/
example : vamanaSearch exSort exIdx F32.zero 3 3 [7, 7, 7, 7] (List.replicate 4 F32.nan) [[97], [120]]
    = .ok ([102, 100, 100, 7], [⟨0x40000000#32⟩, ⟨0x40a00000#32⟩, F32.fmax, F32.nan], 2) ∧ exIdx.tags[0]? = some 100 := by decide

example := C11_filler exSort exSort_isStdSort exIdx [] F32.zero [[97], [120]] 3 3 (by decide) (by decide) (by decide)
  [7, 7, 7, 7] (List.replicate 4 F32.nan) _ List.mem_cons_self _ _ 2
  (by decide : vamanaSearch exSort exIdx F32.zero 3 3 [7, 7, 7, 7] (List.replicate 4 F32.nan) [[97], [120]]
    = .ok ([102, 100, 100, 7], [⟨0x40000000#32⟩, ⟨0x40a00000#32⟩, F32.fmax, F32.nan], 2)) 2 (by decide) (by decide)

end Grann
