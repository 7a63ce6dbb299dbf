import Verif.Model.Search
import Verif.Proofs.Greedy
import Verif.Props.Greedy

namespace Grann

open Spec (IsGraph Edge Reach KNearest Matches)

/-! ## Every pool entry, used or spare, names a point -/

theorem memmoveUp_mem {a a' : List Nbr} {f K : Nat} (h : memmoveUp a f K = .ok a') :
    ∀ x ∈ a', x ∈ a := by
  unfold memmoveUp at h
  split at h
  · split at h
    · cases h
      intro x hx
      rcases List.mem_append.1 hx with hx | hx
      · rcases List.mem_append.1 hx with hx | hx
        · exact List.mem_of_mem_take hx
        · exact List.mem_of_mem_drop (List.mem_of_mem_take hx)
      · exact List.mem_of_mem_drop hx
    · cases h
  · cases h; exact fun x hx => hx

theorem wr_mem {α : Type} {a a' : List α} {i : Nat} {y : α} (h : wr a i y = .ok a') :
    ∀ x ∈ a', x ∈ a ∨ x = y := by
  unfold wr at h
  split at h
  · cases h
    intro x hx
    exact List.mem_or_eq_of_mem_set hx
  · cases h

theorem insertIntoPool_mem {a a' : List Nbr} {K r : Nat} {nn : Nbr}
    (h : insertIntoPool a K nn = .ok (a', r)) : ∀ x ∈ a', x ∈ a ∨ x = nn := by
  unfold insertIntoPool at h
  obtain ⟨a0, _, h⟩ := Res.bind_eq_ok.1 h
  have mv : ∀ {f : Nat} {b c : List Nbr} {r' : Nat},
      (do let a' ← memmoveUp a f K; let a'' ← wr a' r' nn; .ok (a'', r') : Res _) = .ok (b, r) →
      ∀ x ∈ b, x ∈ a ∨ x = nn := by
    intro f b _ r' h
    obtain ⟨a1, h1, h⟩ := Res.bind_eq_ok.1 h
    obtain ⟨a2, h2, h⟩ := Res.bind_eq_ok.1 h
    cases h
    intro x hx
    rcases wr_mem h2 x hx with h | h
    · exact Or.inl (memmoveUp_mem h1 x h)
    · exact Or.inr h
  split at h
  · exact mv (c := a) h
  · obtain ⟨ar, _, h⟩ := Res.bind_eq_ok.1 h
    split at h
    · obtain ⟨a1, h1, h⟩ := Res.bind_eq_ok.1 h
      cases h
      exact wr_mem h1
    · obtain ⟨⟨l, r1⟩, _, h⟩ := Res.bind_eq_ok.1 h
      obtain ⟨o, _, h⟩ := Res.bind_eq_ok.1 h
      cases o with
      | none => cases h; exact fun x hx => Or.inl hx
      | some l' =>
        obtain ⟨al, _, h⟩ := Res.bind_eq_ok.1 h
        obtain ⟨ar', _, h⟩ := Res.bind_eq_ok.1 h
        split at h
        · cases h; exact fun x hx => Or.inl hx
        · exact mv (c := a) h

theorem procOne_mem {V : Type} {c : Ctx V} {q : V} {filters : List Label} {max : Nat} {s s' : PoolSt}
    {id : Nat} (h : procOne c q filters max s id = .ok s') :
    ∀ x ∈ s'.pool, x ∈ s.pool ∨ x.id = id := by
  unfold procOne at h
  obtain ⟨b, _, h⟩ := Res.bind_eq_ok.1 h
  split at h
  · cases h; exact fun x hx => Or.inl hx
  · split at h
    · cases h; exact fun x hx => Or.inl hx
    · obtain ⟨v, _, h⟩ := Res.bind_eq_ok.1 h
      have fin : ∀ (skip : Bool),
        (if skip then (.ok { s with ins := id :: s.ins, cmps := s.cmps + 1 } : Res PoolSt)
         else do
          let (pool', r) ← insertIntoPool s.pool s.cur ⟨id, c.cmp q v, true⟩
          .ok { s with
            ins := id :: s.ins, cmps := s.cmps + 1
            pool := pool'
            cur := if s.cur < max then s.cur + 1 else s.cur
            best := if r < s.best then r else s.best }) = .ok s' →
          ∀ x ∈ s'.pool, x ∈ s.pool ∨ x.id = id := by
        intro skip h
        split at h
        · cases h; exact fun x hx => Or.inl hx
        · obtain ⟨⟨p, r⟩, h1, h⟩ := Res.bind_eq_ok.1 h
          cases h
          intro x hx
          rcases insertIntoPool_mem h1 x hx with h | h
          · exact Or.inl h
          · right; rw [h]
      dsimp only at h
      by_cases hc : s.cur > 0
      · rw [if_pos hc] at h
        obtain ⟨l, _, h⟩ := Res.bind_eq_ok.1 h
        obtain ⟨b', _, h⟩ := Res.bind_eq_ok.1 h
        exact fin b' h
      · rw [if_neg hc] at h
        obtain ⟨b', _, h⟩ := Res.bind_eq_ok.1 h
        exact fin b' h

theorem foldlM_procOne_mem {V : Type} {c : Ctx V} {q : V} {filters : List Label} {max : Nat} :
    ∀ {cands : List Nat} {s s' : PoolSt}, cands.foldlM (procOne c q filters max) s = .ok s' →
    ∀ x ∈ s'.pool, x ∈ s.pool ∨ x.id ∈ cands := by
  intro cands
  induction cands with
  | nil => intro s s' h; cases h; exact fun x hx => Or.inl hx
  | cons a as ih =>
    intro s s' h
    rw [List.foldlM_cons] at h
    obtain ⟨s1, h1, h⟩ := Res.bind_eq_ok.1 h
    intro x hx
    rcases ih h x hx with h2 | h2
    · rcases procOne_mem h1 x h2 with h3 | h3
      · exact Or.inl h3
      · right; rw [h3]; exact List.mem_cons_self
    · exact Or.inr (List.mem_cons_of_mem _ h2)

theorem greedyLoop_mem {V : Type} {c : Ctx V} {q : V} {filters : List Label} {L n : Nat}
    {adj : Nat → List (List Nat)} (hnb : ∀ t, ∀ nb ∈ adj t, ∀ j ∈ nb, j < n) :
    ∀ {fuel : Nat} {s s' : GSt}, greedyLoop c q filters L adj fuel s = .ok s' →
    (∀ x ∈ s.ps.pool, x.id < n) → ∀ x ∈ s'.ps.pool, x.id < n := by
  intro fuel
  induction fuel with
  | zero =>
    intro s s' h hs
    unfold greedyLoop at h
    split at h
    · cases h
    · cases h; exact hs
  | succ fuel ih =>
    intro s s' h hs
    unfold greedyLoop at h
    split at h
    · obtain ⟨s1, h1, h⟩ := Res.bind_eq_ok.1 h
      refine ih h ?_
      unfold greedyIter at h1
      obtain ⟨x, hx, h1⟩ := Res.bind_eq_ok.1 h1
      split at h1
      · obtain ⟨p, hp, h1⟩ := Res.bind_eq_ok.1 h1
        obtain ⟨des, hdes, h1⟩ := Res.bind_eq_ok.1 h1
        obtain ⟨ps, hps, h1⟩ := Res.bind_eq_ok.1 h1
        cases h1
        intro y hy
        rcases foldlM_procOne_mem hps y hy with h1 | h1
        · rcases wr_mem hp y h1 with h2 | h2
          · exact hs y h2
          · rw [h2]
            exact hs x (List.mem_of_getElem? (rd_eq_ok_iff.1 hx))
        · exact hnb _ des (List.mem_of_getElem? (rd_eq_ok_iff.1 hdes)) _ h1
      · cases h1; exact hs
    · cases h; exact hs

theorem initLoop_mem {V : Type} {c : Ctx V} {q : V} {L n : Nat} :
    ∀ {init : List Nat} {s s' : PoolSt}, initLoop c q L init s = .ok s' →
    (∀ i ∈ init, i < n) → (∀ x ∈ s.pool, x.id < n) → ∀ x ∈ s'.pool, x.id < n := by
  intro init
  induction init with
  | nil => intro s s' h _ hs; cases h; exact hs
  | cons a as ih =>
    intro s s' h hi hs
    unfold initLoop at h
    obtain ⟨v, _, h⟩ := Res.bind_eq_ok.1 h
    dsimp only at h
    split at h
    · simp only [Res.ok_bind] at h
      split at h
      · cases h; exact hs
      · exact ih h (fun i hi' => hi i (by simp [hi'])) hs
    · obtain ⟨p, hp, h⟩ := Res.bind_eq_ok.1 h
      simp only [Res.ok_bind] at h
      have hs' : ∀ x ∈ p, x.id < n := by
        intro x hx
        rcases wr_mem hp x hx with h | h
        · exact hs x h
        · rw [h]; exact hi a (by simp)
      split at h
      · cases h; exact hs'
      · exact ih h (fun i hi' => hi i (by simp [hi'])) hs'

theorem greedySearchF_mem {V : Type} {sortF : List Nbr → List Nbr} (hsort : IsStdSort sortF)
    {c : Ctx V} {q : V} {filters : List Label} {L n : Nat}
    {adj : Nat → List (List Nat)} {init : List Nat} {fuel : Nat} {s : GSt}
    (h : greedySearchF fuel sortF c q filters L adj init = .ok s)
    (hnb : ∀ t, ∀ nb ∈ adj t, ∀ j ∈ nb, j < n) (hi : ∀ i ∈ init, i < n) (hn : 1 ≤ n) :
    ∀ x ∈ s.ps.pool, x.id < n := by
  unfold greedySearchF at h
  obtain ⟨s0, h0, h⟩ := Res.bind_eq_ok.1 h
  refine greedyLoop_mem hnb h ?_
  unfold greedyStart at h0
  obtain ⟨s1, h3, h2⟩ := Res.bind_eq_ok.1 h0
  cases h2
  have h1 := initLoop_mem h3 hi (by
    intro x hx
    simp [resizePool] at hx
    rw [hx.2]; exact hn)
  intro x hx
  rcases List.mem_append.1 hx with hx | hx
  · exact h1 x (List.mem_of_mem_take ((hsort.perm _).mem_iff.1 hx))
  · exact h1 x (List.mem_of_mem_drop hx)

/-! ## A list that did not fill up holds everything reachable -/

theorem GInv.short {V : Type} {c : Ctx V} {filters : List Label} {d : Nat → F32} {L n : Nat}
    {g : List (List Nat)} {init : List Nat} {c0 : Nat} {s : GSt}
    (hi : GInv d L n (fun i => decide (filterAccepts c filters i = .ok true)) (fun _ => g)
      (Reach g (fun j => filterAccepts c filters j = .ok true) init) c0 s)
    (hk : s.ps.cur ≤ s.k) (hkn : KInv d L s.ps)
    (hini : ∀ i ∈ init, i ∈ s.ps.ins) (hc : s.ps.cur < L) :
    ∀ i, i ∈ s.ps.answer.map Prod.fst ↔ Reach g (fun j => filterAccepts c filters j = .ok true) init i := by
  have hkn : KNearest L s.ps.ins.toFinset d s.ps.answer := hkn
  have hall : ∀ i ∈ s.ps.ins, i ∈ s.ps.answer.map Prod.fst := by
    intro i hi'
    have h2 := answer_length hi.sinv
    exact hkn.all_of_short (by omega) i (by simpa using hi')
  have hallf : ∀ x ∈ s.ps.live, x.flag = false := by
    intro x hx
    apply hi.flagsK
    rw [List.take_of_length_le (by rw [hi.sinv.live_length]; exact hk)]
    exact hx
  intro i
  constructor
  · intro hi'
    obtain ⟨x, hx, rfl⟩ := List.mem_map.1 hi'
    exact hi.reach _ (by simpa using (hkn.mem x hx).1)
  · intro hr
    apply hall
    induction hr with
    | start h => exact hini _ h
    | @step i j hr hE hok ih =>
      have hia := hall i ih
      rw [answer_ids] at hia
      obtain ⟨x, hx, rfl⟩ := List.mem_map.1 hia
      have hxe := hi.flagEx x hx (hallf x hx)
      obtain ⟨y, hy, hyx⟩ := List.mem_map.1 hxe
      obtain ⟨t, ht, hty⟩ := List.getElem_of_mem hy
      obtain ⟨nb, hnb, hjm⟩ := hE
      exact hi.closed t y (by rw [List.getElem?_eq_getElem ht, hty]) nb (by rw [hyx]; exact hnb)
        j hjm (by simpa using hok)

/-! ## The copy loop -/

theorem copyOut_spec (tags : List Nat) (top : List Nbr) (htags : ∀ x ∈ top, x.id < tags.length) :
    ∀ (todo i : Nat) (ind : List Nat) (dst : List F32),
    i + todo ≤ top.length → i + todo ≤ ind.length → i + todo ≤ dst.length →
    copyOut tags top todo i ind dst = .ok
      (ind.take i ++ ((top.drop i).take todo).map (fun x => tags.getD x.id 0) ++ ind.drop (i + todo),
       dst.take i ++ ((top.drop i).take todo).map Nbr.dist ++ dst.drop (i + todo)) := by
  intro todo
  induction todo with
  | zero =>
    intro i ind dst _ _ _
    simp [copyOut]
  | succ todo ih =>
    intro i ind dst h1 h2 h3
    unfold copyOut
    have hi : i < top.length := by omega
    rw [rd_ok hi]
    simp only [Res.ok_bind]
    have ht := htags _ (List.getElem_mem hi)
    rw [rd_ok ht]
    simp only [Res.ok_bind]
    rw [wr_ok (by omega)]
    simp only [Res.ok_bind]
    rw [wr_ok (by omega)]
    simp only [Res.ok_bind]
    rw [ih (i + 1) _ _ (by omega) (by simp; omega) (by simp; omega)]
    have hd : (top.drop i).take (todo + 1) = top[i] :: (top.drop (i + 1)).take todo := by
      rw [List.drop_eq_getElem_cons hi, List.take_succ_cons]
    have hset : ∀ {α : Type} (l : List α) (y : α), i < l.length →
        (l.set i y).take (i + 1) = l.take i ++ [y] := by
      intro α l y hl
      rw [List.take_add_one, List.getElem?_set_self hl, List.take_set_of_le (Nat.le_refl _)]
      rfl
    have hdrop : ∀ {α : Type} (l : List α) (y : α), (l.set i y).drop (i + 1 + todo) = l.drop (i + (todo + 1)) := by
      intro α l y
      rw [List.drop_set_of_lt (by omega)]
      congr 1; omega
    rw [hset _ _ (by omega), hset _ _ (by omega), hdrop, hdrop, hd]
    have hg : tags.getD (top[i]).id 0 = tags[(top[i]).id] := by
      simp [List.getD, List.getElem?_eq_getElem ht]
    simp [List.getElem?_eq_getElem ht]

theorem copyOut_ub (tags : List Nat) (top : List Nbr) :
    ∀ (todo i : Nat) (ind : List Nat) (dst : List F32),
    (top.length < i + todo ∨ ind.length < i + todo ∨ dst.length < i + todo) →
    i ≤ top.length → i ≤ ind.length → i ≤ dst.length →
    copyOut tags top todo i ind dst = .error .ub := by
  intro todo
  induction todo with
  | zero => intro i ind dst h; omega
  | succ todo ih =>
    intro i ind dst h h1 h2 h3
    unfold copyOut
    by_cases hi : i < top.length
    · rw [rd_ok hi]
      simp only [Res.ok_bind]
      by_cases ht : (top[i]).id < tags.length
      · rw [rd_ok ht]
        simp only [Res.ok_bind]
        by_cases hn : i < ind.length
        · rw [wr_ok hn]
          simp only [Res.ok_bind]
          by_cases hd : i < dst.length
          · rw [wr_ok hd]
            simp only [Res.ok_bind]
            exact ih (i + 1) _ _ (by simp; omega) (by omega) (by simp; omega) (by simp; omega)
          · rw [wr_ub (by omega)]; rfl
        · rw [wr_ub (by omega)]; rfl
      · rw [rd_ub (by omega)]; rfl
    · rw [rd_ub (by omega)]; rfl

end Grann
