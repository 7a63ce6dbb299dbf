import Verif.Model.Prune
import Verif.Spec.Prune
/-! # Lemmas about pruning -/

namespace Grann

open Spec (RobustPrune)

theorem fmax2_isNum {a b : F32} (ha : a.IsNum) : (fmax2 a b).IsNum := by
  unfold fmax2
  split
  · rename_i h; exact F32.isNum_of_lt_right h
  · exact ha

theorem lt_fmax2 {alpha a b : F32} (ha : a.IsNum) (h : alpha.lt a = false) :
    alpha.lt (fmax2 a b) = true ↔ alpha.lt b = true := by
  unfold fmax2
  by_cases hab : a.lt b = true
  · rw [if_pos hab]
  · rw [if_neg hab, h]
    constructor
    · intro h; cases h
    · intro hb
      exfalso
      have hn : alpha.IsNum := F32.isNum_of_lt_left hb
      exact hab (F32.lt_of_le_of_lt (F32.le_of_not_lt hn ha h) hb)

/-- `a` carries every label of `b`. -/
def LabelsCover {V : Type} (c : Ctx V) (a b : Nat) : Prop :=
  ∀ l ∈ c.labels.getD b [], l ∈ c.labels.getD a []

instance {V : Type} (c : Ctx V) (a b : Nat) : Decidable (LabelsCover c a b) := by
  unfold LabelsCover; infer_instance

/-- `x`, once kept, occludes `y`: (on a labelled index) `x` carries all labels of `y`, and
`dist(point, y) / dist(y, x) > alpha`. -/
def Occludes {V : Type} (e : PruneEnv V) (alpha : F32) (x y : Nbr) : Prop :=
  (e.filtered = true → LabelsCover e.ctx x.id y.id) ∧
    ∃ vx vy, e.ctx.data[x.id]? = some vx ∧ e.ctx.data[y.id]? = some vy ∧
      alpha.lt (e.div y.dist (e.ctx.cmp vy vx)) = true

/-- The points referred to exist. -/
def PruneEnv.Has {V : Type} (e : PruneEnv V) (i : Nat) : Prop :=
  i < e.ctx.data.length ∧ (e.filtered = true → i < e.ctx.labels.length)

theorem pruneAllowed_spec {V : Type} (e : PruneEnv V) (a b : Nat) (ha : e.Has a) (hb : e.Has b) :
    ∃ r, pruneAllowed e a b = .ok r ∧ (r = true ↔ (e.filtered = true → LabelsCover e.ctx a b)) := by
  unfold pruneAllowed
  by_cases hf : e.filtered = true
  · rw [if_pos hf]
    have h1 := ha.2 hf
    have h2 := hb.2 hf
    rw [rd_ok h2]
    simp only [Res.ok_bind]
    have ga : e.ctx.labels.getD a [] = e.ctx.labels[a] := by simp [List.getD, List.getElem?_eq_getElem h1]
    have gb : e.ctx.labels.getD b [] = e.ctx.labels[b] := by simp [List.getD, List.getElem?_eq_getElem h2]
    by_cases he : (e.ctx.labels[b]).isEmpty = true
    · rw [if_pos he]
      refine ⟨true, rfl, ?_⟩
      simp only [true_iff]
      intro _ l hl
      rw [gb] at hl
      rw [List.isEmpty_iff.1 he] at hl
      simp at hl
    · rw [if_neg he, rd_ok h1]
      refine ⟨_, rfl, ?_⟩
      unfold LabelsCover
      rw [ga, gb]
      simp [hf]
  · rw [if_neg hf]
    exact ⟨true, rfl, by simp [hf]⟩

theorem occludeStep_spec {V : Type} (e : PruneEnv V) (alpha : F32) (p t : Nbr) (o : F32)
    (hp : e.Has p.id) (ht : e.Has t.id) (ho : o.IsNum) :
    ∃ o', occludeStep e alpha p t o = .ok o' ∧ o'.IsNum ∧
      (alpha.lt o' = true ↔ alpha.lt o = true ∨ Occludes e alpha p t) := by
  unfold occludeStep
  by_cases h : alpha.lt o = true
  · rw [if_pos h]
    exact ⟨o, rfl, ho, by simp [h]⟩
  · rw [if_neg h]
    have h : alpha.lt o = false := by simpa using h
    obtain ⟨r, hr, hri⟩ := pruneAllowed_spec e p.id t.id hp ht
    rw [hr]
    simp only [Res.ok_bind]
    by_cases hrt : r = true
    · subst hrt
      rw [rd_ok ht.1, rd_ok hp.1]
      refine ⟨_, rfl, fmax2_isNum ho, ?_⟩
      rw [lt_fmax2 ho h, h]
      constructor
      · intro h'
        right
        exact ⟨hri.1 rfl, _, _, List.getElem?_eq_getElem hp.1, List.getElem?_eq_getElem ht.1, h'⟩
      · rintro (h' | ⟨_, vx, vy, hx, hy, h'⟩)
        · cases h'
        · rw [List.getElem?_eq_getElem hp.1] at hx
          rw [List.getElem?_eq_getElem ht.1] at hy
          cases hx; cases hy; exact h'
    · have hrf : r = false := by simpa using hrt
      subst hrf
      refine ⟨o, rfl, ho, ?_⟩
      rw [h]
      constructor
      · intro h'; cases h'
      · rintro (h' | ⟨h', _⟩)
        · cases h'
        · exact absurd (hri.2 h') (by simp)

theorem occludeAll_spec {V : Type} (e : PruneEnv V) (alpha : F32) (p : Nbr) (hp : e.Has p.id) :
    ∀ (ts : List Nbr) (os : List F32), ts.length ≤ os.length → (∀ t ∈ ts, e.Has t.id) →
    (∀ o ∈ os, o.IsNum) →
    ∃ os', occludeAll e alpha p ts os = .ok os' ∧ os'.length = ts.length ∧ (∀ o ∈ os', o.IsNum) ∧
      ∀ (k : Nat) (t : Nbr) (o o' : F32), ts[k]? = some t → os[k]? = some o → os'[k]? = some o' →
        (alpha.lt o' = true ↔ alpha.lt o = true ∨ Occludes e alpha p t) := by
  intro ts
  induction ts with
  | nil => intro os _ _ _; exact ⟨[], rfl, rfl, by simp, by simp⟩
  | cons t ts ih =>
    intro os hl ht ho
    cases os with
    | nil => simp at hl
    | cons o os =>
      obtain ⟨o', h1, h2, h3⟩ := occludeStep_spec e alpha p t o hp (ht t (by simp)) (ho o (by simp))
      obtain ⟨os', e1, e2, e3, e4⟩ := ih os (by simpa using hl) (fun t' h => ht t' (by simp [h]))
        (fun o h => ho o (by simp [h]))
      refine ⟨o' :: os', ?_, by simp [e2], ?_, ?_⟩
      · unfold occludeAll
        rw [h1, e1]; rfl
      · intro x hx
        rcases List.mem_cons.1 hx with rfl | hx
        · exact h2
        · exact e3 x hx
      · intro k t1 o1 o1' hk1 hk2 hk3
        cases k with
        | zero =>
          simp at hk1 hk2 hk3
          subst hk1; subst hk2; subst hk3; exact h3
        | succ k => exact e4 k t1 o1 o1' (by simpa using hk1) (by simpa using hk2) (by simpa using hk3)

/-- Entries of `S` at the positions `I`. -/
def pickAt {α : Type} (S : List α) (I : List Nat) : List α := I.filterMap (fun i => S[i]?)

theorem pickAt_length {α : Type} {S : List α} {I : List Nat} (h : ∀ i ∈ I, i < S.length) :
    (pickAt S I).length = I.length := by
  induction I with
  | nil => rfl
  | cons a I ih =>
    unfold pickAt at ih ⊢
    rw [List.filterMap_cons, List.getElem?_eq_getElem (h a (by simp))]
    simp [ih (fun i hi => h i (by simp [hi]))]

theorem pruneLoop_spec {V : Type} (e : PruneEnv V) (alpha : F32) (point R : Nat) (S : List Nbr)
    (hS : ∀ x ∈ S, e.Has x.id) :
    ∀ (m k : Nat) (occ : List F32) (I : List Nat), S.length - k = m → k ≤ S.length →
    (S.length - k) ≤ occ.length → (∀ o ∈ occ, o.IsNum) →
    RobustPrune (S.take k) (fun x => x.id = point) (Occludes e alpha) R I →
    (∀ (j : Nat) (t : Nbr) (o : F32), S[k + j]? = some t → occ[j]? = some o →
      (alpha.lt o = true ↔ ∃ i ∈ I, ∃ x, S[i]? = some x ∧ Occludes e alpha x t)) →
    ∃ I', pruneLoop e alpha point R (S.drop k) occ (pickAt S I) = .ok (pickAt S I') ∧
      RobustPrune S (fun x => x.id = point) (Occludes e alpha) R I' := by
  intro m
  induction m with
  | zero =>
    intro k occ I hm hk _ _ hI _
    have hkS : k = S.length := by omega
    subst hkS
    rw [List.take_length] at hI
    exact ⟨I, by rw [List.drop_length]; rfl, hI⟩
  | succ m ih =>
    intro k occ I hm hk hocc hnum hI hmark
    have hkl : k < S.length := by omega
    have hrng : ∀ i ∈ I, i < k := by
      intro i hi
      have := hI.inRange i hi
      rw [List.length_take] at this
      omega
    have hpl : (pickAt S I).length = I.length := pickAt_length (fun i hi => by have := hrng i hi; omega)
    rw [List.drop_eq_getElem_cons hkl]
    unfold pruneLoop
    rw [hpl]
    -- facts about the prefix
    have htk : ∀ i, i < k → (S.take k)[i]? = S[i]? := fun i hi => by
      rw [List.getElem?_take]; simp [hi]
    have htk1 : ∀ i, i < k + 1 → (S.take (k + 1))[i]? = S[i]? := fun i hi => by
      rw [List.getElem?_take]; simp [hi]
    by_cases hR : R ≤ I.length
    · rw [if_pos hR]
      refine ⟨I, rfl, hI.increasing, fun i hi => by have := hrng i hi; omega, hI.bound, ?_, ?_, ?_⟩
      · intro i hi x hx
        exact hI.notSelf i hi x (by rw [htk i (hrng i hi)]; exact hx)
      · intro i hi j hj hij x y hx hy
        exact hI.undominated i hi j hj hij x y (by rw [htk i (hrng i hi)]; exact hx)
          (by rw [htk j (hrng j hj)]; exact hy)
      · intro j y hy hj
        by_cases hjk : j < k
        · rcases hI.reason j y (by rw [htk j hjk]; exact hy) hj with h | ⟨i, hi, hij, x, hx, hd⟩ | h
          · exact Or.inl h
          · exact Or.inr (Or.inl ⟨i, hi, hij, x, by rw [← htk i (hrng i hi)]; exact hx, hd⟩)
          · exact Or.inr (Or.inr h)
        · right; right
          have := hI.bound
          exact ⟨by omega, fun i hi => by have := hrng i hi; omega⟩
    · rw [if_neg hR]
      cases occ with
      | nil => simp at hocc; omega
      | cons o occ =>
        simp only
        have ho := hnum o (by simp)
        have hmk := hmark 0 S[k] o (by simp [List.getElem?_eq_getElem hkl]) (by simp)
        have hmark' : ∀ (j : Nat) (t : Nbr) (o : F32), S[k + 1 + j]? = some t → occ[j]? = some o →
            (alpha.lt o = true ↔ ∃ i ∈ I, ∃ x, S[i]? = some x ∧ Occludes e alpha x t) := by
          intro j t o' ht ho'
          exact hmark (j + 1) t o' (by rw [← ht]; congr 1; omega) (by simpa using ho')
        have hskip : (S[k].id = point ∨ ∃ i ∈ I, ∃ x, S[i]? = some x ∧ Occludes e alpha x S[k]) →
            RobustPrune (S.take (k + 1)) (fun x => x.id = point) (Occludes e alpha) R I := by
          intro hwhy
          refine ⟨hI.increasing, ?_, hI.bound, ?_, ?_, ?_⟩
          · intro i hi
            rw [List.length_take]
            have := hrng i hi
            omega
          · intro i hi x hx
            rw [htk1 i (by have := hrng i hi; omega)] at hx
            exact hI.notSelf i hi x (by rw [htk i (hrng i hi)]; exact hx)
          · intro i hi j hj hij x y hx hy
            rw [htk1 i (by have := hrng i hi; omega)] at hx
            rw [htk1 j (by have := hrng j hj; omega)] at hy
            exact hI.undominated i hi j hj hij x y (by rw [htk i (hrng i hi)]; exact hx)
              (by rw [htk j (hrng j hj)]; exact hy)
          · intro j y hy hj
            have hjk : j < k + 1 := by
              have := (List.getElem?_eq_some_iff.1 hy).1
              rw [List.length_take] at this; omega
            rw [htk1 j hjk] at hy
            by_cases hjk' : j < k
            · rcases hI.reason j y (by rw [htk j hjk']; exact hy) hj with h | ⟨i, hi, hij, x, hx, hd⟩ | h
              · exact Or.inl h
              · refine Or.inr (Or.inl ⟨i, hi, hij, x, ?_, hd⟩)
                rw [htk1 i (by have := hrng i hi; omega), ← htk i (hrng i hi)]; exact hx
              · exact Or.inr (Or.inr h)
            · have : j = k := by omega
              subst this
              rw [List.getElem?_eq_getElem hkl] at hy
              cases hy
              rcases hwhy with h | ⟨i, hi, x, hx, hd⟩
              · exact Or.inl h
              · refine Or.inr (Or.inl ⟨i, hi, hrng i hi, x, ?_, hd⟩)
                rw [htk1 i (by have := hrng i hi; omega)]; exact hx
        by_cases hself : S[k].id = point
        · rw [if_pos hself]
          exact ih (k + 1) occ I (by omega) (by omega) (by simp at hocc; omega)
            (fun o h => hnum o (by simp [h])) (hskip (Or.inl hself)) hmark'
        · rw [if_neg hself]
          by_cases hal : alpha.lt o = true
          · rw [if_pos hal]
            exact ih (k + 1) occ I (by omega) (by omega) (by simp at hocc; omega)
              (fun o h => hnum o (by simp [h])) (hskip (Or.inr (hmk.1 hal))) hmark'
          · rw [if_neg hal]
            obtain ⟨os', e1, e2, e3, e4⟩ := occludeAll_spec e alpha S[k] (hS _ (List.getElem_mem _))
              (S.drop (k + 1)) occ (by rw [List.length_drop]; simp at hocc; omega)
              (fun t ht => hS t (List.mem_of_mem_drop ht)) (fun o h => hnum o (by simp [h]))
            rw [e1]
            simp only [Res.ok_bind]
            have hpk : pickAt S I ++ [S[k]] = pickAt S (I ++ [k]) := by
              unfold pickAt
              rw [List.filterMap_append]
              simp [List.getElem?_eq_getElem hkl]
            rw [hpk]
            refine ih (k + 1) os' (I ++ [k]) (by omega) (by omega) ?_ e3 ?_ ?_
            · rw [e2, List.length_drop]; omega
            · have hmem : ∀ i ∈ I ++ [k], i < k + 1 := by
                intro i hi
                rcases List.mem_append.1 hi with h | h
                · have := hrng i h; omega
                · have : i = k := by simpa using h
                  omega
              refine ⟨?_, ?_, ?_, ?_, ?_, ?_⟩
              · rw [List.pairwise_append]
                refine ⟨hI.increasing, by simp, ?_⟩
                intro a ha b hb
                have : b = k := by simpa using hb
                rw [this]; exact hrng a ha
              · intro i hi
                have := hmem i hi
                rw [List.length_take]; omega
              · simp; omega
              · intro i hi x hx
                rw [htk1 i (hmem i hi)] at hx
                rcases List.mem_append.1 hi with h | h
                · exact hI.notSelf i h x (by rw [htk i (hrng i h)]; exact hx)
                · have : i = k := by simpa using h
                  subst this
                  rw [List.getElem?_eq_getElem hkl] at hx
                  cases hx; exact hself
              · intro i hi j hj hij x y hx hy
                rw [htk1 i (hmem i hi)] at hx
                rw [htk1 j (hmem j hj)] at hy
                have hiI : i ∈ I := by
                  rcases List.mem_append.1 hi with h | h
                  · exact h
                  · have := hmem j hj
                    have : i = k := by simpa using h
                    omega
                rcases List.mem_append.1 hj with h | h
                · exact hI.undominated i hiI j h hij x y (by rw [htk i (hrng i hiI)]; exact hx)
                    (by rw [htk j (hrng j h)]; exact hy)
                · have : j = k := by simpa using h
                  subst this
                  rw [List.getElem?_eq_getElem hkl] at hy
                  cases hy
                  intro hd
                  exact hal (hmk.2 ⟨i, hiI, x, hx, hd⟩)
              · intro j y hy hj
                have hjk : j < k + 1 := by
                  have := (List.getElem?_eq_some_iff.1 hy).1
                  rw [List.length_take] at this; omega
                have hjI : j ∉ I := fun h => hj (List.mem_append_left _ h)
                have hjk' : j < k := by
                  by_contra hc
                  exact hj (by rw [show j = k by omega]; simp)
                rw [htk1 j hjk] at hy
                rcases hI.reason j y (by rw [htk j hjk']; exact hy) hjI with h | ⟨i, hi, hij, x, hx, hd⟩ | h
                · exact Or.inl h
                · refine Or.inr (Or.inl ⟨i, List.mem_append_left _ hi, hij, x, ?_, hd⟩)
                  rw [htk1 i (by have := hrng i hi; omega), ← htk i (hrng i hi)]; exact hx
                · omega
            · intro j t o' ht ho'
              have hj : j < os'.length := (List.getElem?_eq_some_iff.1 ho').1
              have hjo : j < occ.length := by
                rw [e2, List.length_drop] at hj; simp at hocc; omega
              have := e4 j t occ[j] o' (by rw [List.getElem?_drop]; exact ht)
                (List.getElem?_eq_getElem hjo) ho'
              rw [this, hmark' j t occ[j] ht (List.getElem?_eq_getElem hjo)]
              constructor
              · rintro (⟨i, hi, h⟩ | h)
                · exact ⟨i, List.mem_append_left _ hi, h⟩
                · exact ⟨k, by simp, S[k], List.getElem?_eq_getElem hkl, h⟩
              · rintro ⟨i, hi, x, hx, hd⟩
                rcases List.mem_append.1 hi with h | h
                · exact Or.inl ⟨i, h, x, hx, hd⟩
                · have : i = k := by simpa using h
                  subst this
                  rw [List.getElem?_eq_getElem hkl] at hx
                  cases hx; exact Or.inr hd

theorem RobustPrune.nil {α : Type} (own : α → Prop) (dom : α → α → Prop) (R : Nat) :
    RobustPrune [] own dom R [] :=
  ⟨.nil, by simp, by simp, by simp, by simp, by simp⟩

/-- The result of `pruneAlpha` on a non-empty candidate list. -/
theorem pruneAlpha_spec {V : Type} (sortF : List Nbr → List Nbr) (hsort : IsStdSort sortF)
    (e : PruneEnv V) (alpha : F32)
    (halpha : alpha.lt F32.zero = false) (C R point : Nat) (cands : List Nbr) (hne : cands ≠ [])
    (hc : ∀ x ∈ cands, e.Has x.id) (old : List Nat) :
    ∃ I, pruneAlpha sortF e alpha C R point cands old = .ok ((pickAt ((sortF cands).take C) I).map Nbr.id) ∧
      RobustPrune ((sortF cands).take C) (fun x => x.id = point) (Occludes e alpha) R I := by
  have hS : ∀ x ∈ (sortF cands).take C, e.Has x.id := fun x hx =>
    hc x ((hsort.perm cands).mem_iff.1 (List.mem_of_mem_take hx))
  obtain ⟨I, h1, h2⟩ := pruneLoop_spec e alpha point R ((sortF cands).take C) hS _ 0
    (List.replicate cands.length F32.zero) [] rfl (Nat.zero_le _)
    (by rw [List.length_replicate, List.length_take, (hsort.perm cands).length_eq]; omega)
    (by intro o ho; rw [List.eq_of_mem_replicate ho]; decide)
    (by rw [List.take_zero]; exact RobustPrune.nil _ _ _)
    (by
      intro j t o _ ho
      have : o = F32.zero := by
        have := List.mem_of_getElem? ho
        exact List.eq_of_mem_replicate this
      subst this
      rw [halpha]; simp)
  refine ⟨I, ?_, h2⟩
  unfold pruneAlpha
  rw [if_neg (by simpa using hne)]
  rw [List.drop_zero] at h1
  have h0 : pickAt ((sortF cands).take C) [] = [] := rfl
  rw [h0] at h1
  rw [h1]
  simp only [Res.ok_bind]
  congr 2
  rw [List.filter_eq_self]
  intro x hx
  unfold pickAt at hx
  obtain ⟨i, hi, hix⟩ := List.mem_filterMap.1 hx
  have := h2.notSelf i hi x hix
  simpa using this

theorem pickAt_sublist {α : Type} (S : List α) : ∀ (I : List Nat), I.Pairwise (· < ·) →
    (pickAt S I).Sublist S := by
  suffices ∀ (I : List Nat) (k : Nat), I.Pairwise (· < ·) → (∀ i ∈ I, k ≤ i) →
      (pickAt S I).Sublist (S.drop k) from fun I h => by
    have := this I 0 h (by simp)
    simpa using this
  intro I
  induction I with
  | nil => intro k _ _; exact List.nil_sublist _
  | cons a I ih =>
    intro k h hk
    rw [List.pairwise_cons] at h
    have hak := hk a (by simp)
    have := ih (a + 1) h.2 (fun i hi => h.1 i hi)
    have hd : (S.drop a).Sublist (S.drop k) := by
      have : S.drop a = (S.drop k).drop (a - k) := by
        rw [List.drop_drop]; congr 1; omega
      rw [this]; exact List.drop_sublist _ _
    unfold pickAt at this ⊢
    rw [List.filterMap_cons]
    by_cases ha : a < S.length
    · rw [List.getElem?_eq_getElem ha]
      simp only
      refine List.Sublist.trans ?_ hd
      rw [List.drop_eq_getElem_cons ha]
      exact this.cons_cons _
    · rw [List.getElem?_eq_none (by omega)]
      simp only
      refine this.trans (List.Sublist.trans ?_ hd)
      have : S.drop (a + 1) = (S.drop a).drop 1 := by rw [List.drop_drop]
      rw [this]; exact List.drop_sublist _ _

theorem topKLoop_eq (point R : Nat) : ∀ (S : List Nbr) (out : List Nat),
    topKLoop point R S out =
      out ++ ((S.filter (fun x => x.id != point)).map Nbr.id).take (R - out.length) := by
  intro S
  induction S with
  | nil => intro out; simp [topKLoop]
  | cons p S ih =>
    intro out
    unfold topKLoop
    by_cases h1 : R ≤ out.length
    · rw [if_pos h1]
      have : R - out.length = 0 := by omega
      simp [this]
    · rw [if_neg h1]
      by_cases h2 : p.id = point
      · rw [if_pos h2, ih, List.filter_cons, if_neg (by simp [h2])]
      · rw [if_neg h2, ih, List.filter_cons, if_pos (by simp [h2])]
        obtain ⟨m, hm⟩ : ∃ m, R - out.length = m + 1 := ⟨R - out.length - 1, by omega⟩
        have : R - (out ++ [p.id]).length = m := by simp; omega
        rw [this, hm]
        simp

end Grann
