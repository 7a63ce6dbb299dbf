import Verif.Props.Pool
import Verif.Proofs.Greedy
/-!
# C01, C02, C04: lists of more than 2^31 entries
-/

namespace Grann

/-- The middle of the binary search is computed in 32 bits, so `left` never gets beyond 2^31. -/
theorem poolBsearch_endless (a : List Nbr) (d : F32) (right : Nat) (hr : 2147483649 ≤ right)
    (hlen : 2147483648 ≤ a.length) (hd : ∀ i y, i < 2147483648 → a[i]? = some y → d.lt y.dist = false) :
    ∀ fuel left, left < 2147483648 → poolBsearch a d fuel left right = .error .loop := by
  intro fuel
  induction fuel with
  | zero => intro left _; rfl
  | succ fuel ih =>
    intro left hl
    have hm : u32 (left + right) / 2 < 2147483648 := by
      have : u32 (left + right) < 4294967296 := Nat.mod_lt _ (by decide)
      omega
    have hlt : u32 (left + right) / 2 < a.length := by omega
    rw [poolBsearch, if_pos (by omega)]
    dsimp only
    rw [rd_ok hlt, Res.ok_bind, hd _ _ hm (List.getElem?_eq_getElem hlt), if_neg (by decide)]
    exact ih _ hm

/-- **C01, beyond 2^31 entries.**  If more than 2^31 + 1 entries are in use, a distance that is not below one of the first 2^31
ones and not above the last one makes the binary search go on for ever: the sum of two positions no longer fits into 32 bits. -/
theorem C01_endless (a : List Nbr) (K : Nat) (nn last : Nbr) (hK : 2147483650 ≤ K) (hK2 : K < 4294967296)
    (hlast : a[K - 1]? = some last) (h1 : last.dist.lt nn.dist = false)
    (h2 : ∀ i y, i < 2147483648 → a[i]? = some y → nn.dist.lt y.dist = false) :
    insertIntoPool a K nn = .error .loop ∧ ∀ fuel, poolBsearch a nn.dist fuel 0 (K - 1) = .error .loop := by
  obtain ⟨hl, -⟩ := List.getElem?_eq_some_iff.1 hlast
  have hb := fun fuel => poolBsearch_endless a nn.dist (K - 1) (by omega) (by omega) h2 fuel 0 (by decide)
  refine ⟨?_, hb⟩
  have hright : u32 (K + 4294967295) = K - 1 := by unfold u32; omega
  unfold insertIntoPool
  rw [hright, rd_ok (show 0 < a.length by omega), Res.ok_bind, h2 0 _ (by decide) (List.getElem?_eq_getElem (by omega)),
    if_neg (by decide), rd_eq_ok_iff.2 hlast, Res.ok_bind, h1, if_neg (by decide), hb]
  rfl

/-- 2^31 + 2 entries with the same distance, and another one. -/
example : insertIntoPool (List.replicate 2147483651 ⟨1, F32.zero, true⟩) 2147483650 ⟨2, F32.zero, true⟩ = .error .loop :=
  (C01_endless _ _ _ ⟨1, F32.zero, true⟩ (by decide) (by decide) (by rw [List.getElem?_replicate]; rfl) (by decide)
    (fun i y hi h => by
      rw [List.getElem?_replicate] at h
      rw [if_pos (by omega)] at h
      cases h
      decide)).1

/-! ## C02: a scan that never ends -/

/-- The first points of a scan fill the list. -/
theorem scan_fills {V : Type} (c : Ctx V) (q : V) (k : Nat) (d : Nat → F32) (hd : ∀ i v, c.data[i]? = some v → c.cmp q v = d i)
    (hfin : ∀ i < c.data.length, (d i).lt F32.fmax = true) : ∀ m, m ≤ 2147483650 → m ≤ k → m ≤ c.data.length →
    ∃ s, (List.range m).foldlM (procOne c q [] k) (freshPool k) = .ok s ∧ SInv d k s ∧ s.cur = m ∧ ∀ i ∈ s.ins, i < m := by
  intro m
  induction m with
  | zero => exact fun _ _ _ => ⟨_, rfl, freshPool_sinv d k, rfl, by simp [freshPool]⟩
  | succ m ih =>
    intro h1 h2 h3
    obtain ⟨s, e, hs, hc, hi⟩ := ih (by omega) (by omega) (by omega)
    have hmi : m ∉ s.ins := fun h => absurd (hi m h) (by omega)
    have hz : s.cur = 0 → s = freshPool k := by
      intro h0
      have hm0 : m = 0 := by omega
      subst hm0
      simp only [List.range_zero, List.foldlM_nil] at e
      cases e
      rfl
    obtain ⟨s', e', hst⟩ := procOne_step c q [] k s m d hd hs (fun _ => by omega) (by omega) true rfl (fun h0 => by
      rw [hz h0]
      exact ⟨by omega, Nbr.dflt, by simp [freshPool, List.replicate_succ], hfin m (by omega)⟩)
    refine ⟨s', by rw [List.range_succ, List.foldlM_append, e, Res.ok_bind, List.foldlM_cons, e', Res.ok_bind]; rfl, hst.sinv hs, ?_, ?_⟩
    · cases hst with
      | reject h => rcases h with h | h
                    · cases h
                    · exact absurd h hmi
      | skip _ _ h => omega
      | ins _ _ _ r _ _ h => omega
    · intro i h
      cases hst with
      | reject _ => have := hi i h; omega
      | skip => rcases List.mem_cons.1 h with rfl | h
                · omega
                · have := hi i h; omega
      | ins _ _ _ r _ _ _ h' =>
        rw [h'] at h
        rcases List.mem_cons.1 h with rfl | h
        · omega
        · have := hi i h; omega

/-- **C02, beyond 2^31 entries.**  A list of more than 2^31 + 1 entries, and a scan of more than 2^31 + 2 points all at the same
distance but for one that is farther away: the scan never ends, whatever the points offered after that. -/
theorem C02_endless {V : Type} (c : Ctx V) (q : V) (k : Nat) (near far : F32) (hk : 2147483650 ≤ k)
    (hn : 2147483651 ≤ c.data.length) (hlt : near.lt far = true) (hfar : far.lt F32.fmax = true)
    (hd : ∀ i v, c.data[i]? = some v → c.cmp q v = if i = 2147483649 then far else near) (rest : List Nat) :
    procCands c q [] k (freshPool k) (List.range 2147483651 ++ rest) = .error .loop := by
  obtain ⟨d, hdd⟩ : ∃ d : Nat → F32, d = fun i => if i = 2147483649 then far else near := ⟨_, rfl⟩
  have hd' : ∀ i v, c.data[i]? = some v → c.cmp q v = d i := fun i v h => by rw [hd i v h, hdd]
  have hnum : near.IsNum := F32.isNum_of_lt_left hlt
  have hdf : ∀ i, (d i).lt F32.fmax = true := by
    intro i; rw [hdd]; dsimp only
    split
    · exact hfar
    · exact F32.lt_trans hlt hfar
  obtain ⟨s, e, hs, hc, hi⟩ := scan_fills c q k d hd' (fun i _ => hdf i) 2147483649 (by decide) (by omega) (by omega)
  have hnear : ∀ y ∈ s.live, y.dist = near := by
    intro y hy
    rw [hs.truth y hy, hdd]
    exact if_neg (by have := hi _ (hs.subset y hy); omega)
  have hdM : d 2147483649 = far := by rw [hdd]; exact if_pos rfl
  have hmi : 2147483649 ∉ s.ins := fun h => absurd (hi _ h) (by omega)
  obtain ⟨s', e', hst⟩ := procOne_step c q [] k s 2147483649 d hd' hs (fun _ => by omega) (by omega) true rfl (by omega)
  have hs' := hst.sinv hs
  -- the far point is the last entry
  have hll := hs.live_length
  have hlive : s'.live = s.live ++ [⟨2147483649, far, true⟩] ∧ s'.cur = 2147483650 ∧ s'.ins = 2147483649 :: s.ins := by
    cases hst with
    | reject h => rcases h with h | h
                  · cases h
                  · exact absurd h hmi
    | skip _ _ h => omega
    | ins _ _ _ r hr hpool hcur hins _ _ hord =>
      have h1 : s.live.drop r = [] := by
        rcases hq : s.live.drop r with _ | ⟨y, t⟩
        · rfl
        exfalso
        have hm : y ∈ s.live.drop r := by rw [hq]; exact List.mem_cons_self
        have := (hord (List.pairwise_iff_getElem.2 (fun i j hi hj _ => by
          rw [hnear _ (List.getElem_mem _), hnear _ (List.getElem_mem _)]; exact F32.le_refl hnum))
          (fun y hy => by rw [hnear y hy]; exact hnum) (F32.isNum_of_lt_left (hdf _))).2 y hm
        rw [hnear y (List.mem_of_mem_drop hm), hdM] at this
        rw [F32.lt_eq_false_of_le this] at hlt
        exact absurd hlt (by decide)
      have h2 : r = s.live.length := by
        have := List.drop_eq_nil_iff.1 h1
        omega
      have h3 := ProcStep.live hs hr hpool hcur
      rw [h1, h2, List.take_length, hdM, List.take_of_length_le (by rw [List.length_append, List.length_singleton]; omega)] at h3
      exact ⟨h3, by omega, hins⟩
  obtain ⟨hl, hc', hi'⟩ := hlive
  -- the next one
  have hnone : 2147483650 ∉ s'.ins := by
    rw [hi']
    intro h
    rcases List.mem_cons.1 h with h | h
    · omega
    · exact absurd (hi _ h) (by omega)
  have hlen' := hs'.len
  have hget : ∀ i, i < 2147483650 → s'.pool[i]? = s'.live[i]? := by
    intro i hi
    unfold PoolSt.live
    rw [List.getElem?_take_of_lt (by omega)]
  have hlast : s'.pool[2147483650 - 1]? = some ⟨2147483649, far, true⟩ := by
    rw [hget _ (by omega), hl, List.getElem?_append_right (by omega)]
    rw [show 2147483650 - 1 - s.live.length = 0 by omega]
    rfl
  have hloop : insertIntoPool s'.pool 2147483650 ⟨2147483650, near, true⟩ = .error .loop := by
    refine (C01_endless _ _ _ _ (by decide) (by decide) hlast (F32.lt_eq_false_of_le (F32.le_of_lt hlt)) ?_).1
    intro i y hi hy
    rw [hget i (by omega), hl, List.getElem?_append_left (by omega)] at hy
    rw [hnear y (List.mem_of_getElem? hy)]
    exact F32.lt_irrefl _
  have hM : 2147483650 < c.data.length := by omega
  have hstep : procOne c q [] k s' 2147483650 = .error .loop := by
    unfold procOne
    rw [show filterAccepts c [] 2147483650 = .ok true from rfl, Res.ok_bind]
    rw [if_neg (by decide), if_neg (by simpa using hnone), rd_ok hM]
    simp only [Res.ok_bind]
    rw [hd _ _ (List.getElem?_eq_getElem hM), if_neg (by decide : ¬ (2147483650 : Nat) = 2147483649), hc',
      if_pos (by decide), rd_eq_ok_iff.2 hlast]
    simp only [Res.ok_bind]
    rw [show far.le near = false from (F32.not_le_iff_lt (F32.isNum_of_lt_left hfar) hnum).2 hlt, Bool.false_and,
      if_neg (by decide), hloop]
    rfl
  unfold procCands
  rw [show ({ freshPool k with best := k } : PoolSt) = freshPool k from rfl, List.foldlM_append,
    show (2147483651 : Nat) = 2147483650 + 1 from rfl, List.range_succ, List.foldlM_append,
    show (2147483650 : Nat) = 2147483649 + 1 from rfl, List.range_succ, List.foldlM_append, e, Res.ok_bind,
    List.foldlM_cons, e', Res.ok_bind]
  simp only [List.foldlM_nil, List.foldlM_cons]
  rw [show (pure s' : Res PoolSt) = .ok s' from rfl, Res.ok_bind, show 2147483649 + 1 = 2147483650 from rfl, hstep]
  rfl

/-- Any 2^31 + 3 or more numbers, one of them farther away. -/
example (n : Nat) (hn : 2147483651 ≤ n) :
    procCands ⟨List.range n, [], false, [], fun _ v => if v = 2147483649 then F32.one else F32.zero⟩ 0 [] 3000000000
      (freshPool 3000000000) (List.range 2147483651) = .error .loop := by
  have := C02_endless ⟨List.range n, [], false, [], fun _ v => if v = 2147483649 then F32.one else F32.zero⟩ 0 3000000000
    F32.zero F32.one (by decide) (by rw [List.length_range]; exact hn) (by decide) (by decide) (fun i v h => by
      obtain ⟨hl, h⟩ := List.getElem?_eq_some_iff.1 h
      rw [List.getElem_range] at h
      subst h
      rfl) []
  rwa [List.append_nil] at this

/-! ## C04: the largest list size -/

/-- **C04, L = 2^32 - 1.**  `Lsize + 1` is 0, the list has no entry, and the first entry point is written behind it. -/
theorem C04_largest_list {V : Type} (sortF : List Nbr → List Nbr) (c : Ctx V) (q : V) (filters : List Label)
    (adj : Nat → List (List Nat)) (i : Nat) (init : List Nat) (hi : i < c.data.length) :
    greedySearch sortF c q filters 4294967295 adj (i :: init) = .error .ub := by
  unfold greedySearch greedySearchF greedyStart
  rw [show u32 (4294967295 + 1) = 0 from rfl, show resizePool [] 0 = [] from rfl, initLoop, rd_ok hi]
  rfl

/-- Two points, the first one is the entry point. -/
example : greedySearch id ⟨[0, 1], [], false, [], fun _ _ => F32.zero⟩ 0 [] 4294967295 (fun _ => [[1], [0]]) [0] = .error .ub :=
  C04_largest_list _ _ _ _ _ _ _ (by decide)

/-- Lists of any size that 32 bits can count, for few points; lists of more than `2^31 + 1` entries not for more points. -/
example : Spec.ListFits 1000000 4294967294 ∧ Spec.ListFits 4000000000 2147483649 ∧ ¬ Spec.ListFits 4000000000 2147483650 ∧
    ¬ Spec.ListFits 10 4294967295 := by decide

end Grann
