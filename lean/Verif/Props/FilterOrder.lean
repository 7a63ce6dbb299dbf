import Verif.Props.Search
/-!
# C09: exactly which filters are tested correctly
-/

namespace Spec

/-- In the list, every entry is found by looking for the first entry that is not smaller: only smaller entries, or a copy,
stand before it.  (All sorted lists are like this; `[a, c, a]` with `a < c` is one that is not sorted.) -/
def FoundFirst (F : List Grann.Label) : Prop := ∀ x ∈ F, F.find? (fun y => !Grann.strLt y x) = some x

instance (F : List Grann.Label) : Decidable (FoundFirst F) := by unfold FoundFirst; infer_instance

end Spec

namespace Grann

theorem setInter_single (x : Label) : ∀ F : List Label, setInter F [x] ≠ [] → F.find? (fun y => !strLt y x) = some x := by
  intro F
  induction F with
  | nil => intro h; simp [setInter] at h
  | cons a as ih =>
    intro h
    unfold setInter setInterAux at h
    rw [List.find?_cons]
    by_cases h1 : strLt a x = true
    · rw [if_pos h1] at h
      rw [h1]
      exact ih h
    · rw [if_neg h1] at h
      have h1' : strLt a x = false := by simpa using h1
      rw [h1']
      by_cases h2 : strLt x a = true
      · rw [if_pos h2] at h
        simp [setInterAux] at h
      · rw [strLt_antisymm h1' (by simpa using h2)]
        rfl

/-- The merge meets a common entry that is found first in the first list. -/
theorem setInter_found (x : Label) : ∀ (F l : List Label), SortedL l → x ∈ l → F.find? (fun y => !strLt y x) = some x →
    setInter F l ≠ [] := by
  intro F
  induction F with
  | nil => intro l _ _ h; simp at h
  | cons a as ih =>
    intro l
    induction l with
    | nil => intro _ h; simp at h
    | cons b bs ihb =>
      intro hl hx hfind
      have hl' : SortedL bs := (List.pairwise_cons.1 hl).2
      have hbx : strLt x b = false := by
        rcases List.mem_cons.1 hx with h | h
        · rw [h]; exact strLt_irrefl b
        · exact (List.pairwise_cons.1 hl).1 x h
      unfold setInter setInterAux
      by_cases h1 : strLt a b = true
      · rw [if_pos h1]
        apply ih _ hl hx
        rw [List.find?_cons] at hfind
        have hax : strLt a x = true := by
          by_contra hno
          have hno : strLt a x = false := by simpa using hno
          have := strLe_trans hbx hno
          simp_all
        rw [hax] at hfind
        exact hfind
      · rw [if_neg h1]
        by_cases h2 : strLt b a = true
        · rw [if_pos h2]
          have hne : x ≠ b := by
            rintro rfl
            rw [List.find?_cons] at hfind
            have : strLt a x = false := by simpa using h1
            rw [this] at hfind
            simp at hfind
            rw [hfind, strLt_irrefl] at h2
            simp at h2
          have := ihb hl' (by
            rcases List.mem_cons.1 hx with h | h
            · exact absurd h hne
            · exact h) hfind
          unfold setInter at this
          exact this
        · rw [if_neg h2]; simp

/-- **C09, exactly.** For given settings of the universal label, the filter test is right for every index and every point
with labels in ascending order exactly if the filter contains the universal label or each of its labels is found first. -/
theorem C09_exact (V : Type) (filters : List Label) (useUniv : Bool) (univ : Label) :
    (∀ (c : Ctx V) (id : Nat) (labs : List Label), c.useUniv = useUniv → c.univ = univ → c.labels[id]? = some labs →
        SortedL labs → filterAccepts c filters id = .ok (decide (Spec.Matches c.useUniv c.univ filters labs))) ↔
      ((useUniv = true ∧ univ ∈ filters) ∨ Spec.FoundFirst filters) := by
  constructor
  · intro h
    by_cases hu : useUniv = true ∧ univ ∈ filters
    · exact .inl hu
    · refine .inr fun x hx => ?_
      have hr := h ⟨[], [[x]], useUniv, univ, fun _ _ => F32.zero⟩ 0 [x] rfl rfl rfl (by simp [SortedL])
      rw [decide_eq_true (show Spec.Matches useUniv univ filters [x] from .inr (.inl ⟨x, hx, by simp⟩))] at hr
      unfold filterAccepts at hr
      have hne : filters ≠ [] := by rintro rfl; simp at hx
      rw [if_neg (by simpa using hne)] at hr
      have hrd : rd [[x]] 0 = .ok [x] := rfl
      rw [hrd] at hr
      simp only [Res.ok_bind] at hr
      have hc : ¬ ((useUniv && (filters.contains univ || [x].contains univ)) = true) := by
        intro hc
        simp only [Bool.and_eq_true, Bool.or_eq_true, List.contains_iff_mem, List.mem_singleton] at hc
        rcases hc.2 with h | h
        · exact hu ⟨hc.1, h⟩
        · exact hu ⟨hc.1, h ▸ hx⟩
      rw [if_neg hc] at hr
      apply setInter_single
      intro h0
      rw [h0] at hr
      simp at hr
  · intro h c id labs hu1 hu2 hl hs
    by_cases hm : Spec.Matches c.useUniv c.univ filters labs
    · rw [decide_eq_true hm]
      unfold filterAccepts
      by_cases hf : filters.isEmpty
      · rw [if_pos hf]
      · rw [if_neg hf, rd_eq_ok_iff.2 hl]
        simp only [Res.ok_bind]
        by_cases hu : (c.useUniv && (filters.contains c.univ || labs.contains c.univ)) = true
        · rw [if_pos hu]; simp
        · rw [if_neg hu]
          have hF : Spec.FoundFirst filters := by
            rcases h with h | h
            · exact absurd (by rw [hu1, hu2]; simp [h.1, h.2]) hu
            · exact h
          rcases hm with h' | ⟨x, hx, hxl⟩ | h'
          · exact absurd (by simpa using h') hf
          · have := setInter_found x filters labs hs hxl (hF x hx)
            simpa using this
          · exact absurd (by simpa using h') hu
    · rw [decide_eq_false hm]
      have hne : filters.isEmpty = false := by
        cases hf : filters with
        | nil => exact absurd (.inl hf) hm
        | cons => rfl
      cases hr : filterAccepts c filters id with
      | error e =>
        unfold filterAccepts at hr
        rw [hne, rd_eq_ok_iff.2 hl] at hr
        simp at hr
      | ok b =>
        cases b with
        | false => rfl
        | true => exact absurd (filterAccepts_sound (fun _ => hl) hr) hm

/-- Sorted filters are of this kind. -/
theorem foundFirst_of_sorted {F : List Label} (h : SortedL F) : Spec.FoundFirst F := by
  intro x hx
  exact setInter_single x F (setInter_complete F [x] h (by simp [SortedL]) ⟨x, hx, by simp⟩)

/-- **C09 is false for every filter out of order.**  A label standing behind a larger one, and not before it, is missed: no
point that carries this label alone is accepted (unless the filter contains the universal label). -/
theorem C09_missed {V : Type} (c : Ctx V) (pre mid post : List Label) (b x : Label) (hb : strLt x b = true)
    (hpre : x ∉ pre) (id : Nat) (hl : c.labels[id]? = some [x])
    (hu : c.useUniv = true → c.univ ∉ pre ++ b :: mid ++ x :: post) :
    Spec.Matches c.useUniv c.univ (pre ++ b :: mid ++ x :: post) [x] ∧
      filterAccepts c (pre ++ b :: mid ++ x :: post) id = .ok false := by
  refine ⟨.inr (.inl ⟨x, by simp, by simp⟩), ?_⟩
  have hx : x ∈ pre ++ b :: mid ++ x :: post := by simp
  have hn : setInter (pre ++ b :: mid ++ x :: post) [x] = [] := by
    by_contra hno
    have h := setInter_single x _ hno
    have h' : (pre ++ b :: (mid ++ x :: post)).find? (fun y => !strLt y x) = some x := by
      simpa [List.append_assoc] using h
    have hbx : strLt b x = false := by
      by_contra h1
      have := strLt_trans hb (by simpa using h1)
      rw [strLt_irrefl] at this
      cases this
    rw [List.find?_append, List.find?_cons, hbx] at h'
    cases hp : pre.find? (fun y => !strLt y x) with
    | some z =>
      rw [hp] at h'
      simp at h'
      exact hpre (h' ▸ List.mem_of_find?_eq_some hp)
    | none =>
      rw [hp] at h'
      simp at h'
      rw [h', strLt_irrefl] at hb
      cases hb
  unfold filterAccepts
  rw [if_neg (by simp), rd_eq_ok_iff.2 hl]
  simp only [Res.ok_bind]
  rw [if_neg, hn]
  · rfl
  · intro hc
    simp only [Bool.and_eq_true, Bool.or_eq_true, List.contains_iff_mem, List.mem_singleton] at hc
    rcases hc.2 with h | h
    · exact hu hc.1 h
    · exact hu hc.1 (h ▸ hx)

/-- **C09 in a search.**  Let every point of a Vamana index carry the label `x` and no other.  A search for `x` finds up to
`res_count` of them; asked for a larger label `b` first and then `x`, which every point matches as well, it reports at most
the entry points of the two labels, however large the index and whatever its graph. -/
theorem C09_search_misses {V : Type} (sortF : List Nbr → List Nbr) (hsort : IsStdSort sortF) (ix : GIdx V) (hix : ix.OK)
    (q : V) (d : Nat → F32) (hdist : ix.Dist q d) (b x : Label) (hb : strLt x b = true)
    (hlab : ix.ctx.labels = List.replicate ix.ctx.data.length [x]) (hu : ix.ctx.useUniv = true → ix.ctx.univ ≠ b ∧ ix.ctx.univ ≠ x)
    (rc L : Nat) (hL1 : 1 ≤ L) (hL : Spec.ListFits ix.ctx.data.length L) (hrc : rc ≤ L) (ind : List Nat) (dst : List F32)
    (hind : rc ≤ ind.length) (hdst : rc ≤ dst.length) :
    (∀ i, i < ix.ctx.data.length → Spec.Matches ix.ctx.useUniv ix.ctx.univ [b, x] (ix.ctx.labels.getD i [])) ∧
    ∃ (ids ind' : List Nat) (dst' : List F32), vamanaSearch sortF ix q rc L ind dst [b, x] = .ok (ind', dst', ids.length) ∧
      (∀ i ∈ ids, ix.medoids.lookup b = some i ∨ ix.medoids.lookup x = some i) ∧ ids.length ≤ 2 := by
  have hget : ∀ i, i < ix.ctx.data.length → ix.ctx.labels[i]? = some [x] := by
    intro i hi
    rw [hlab]
    simp [hi]
  refine ⟨fun i hi => .inr (.inl ⟨x, by simp, by rw [List.getD, hget i hi]; simp⟩), ?_⟩
  obtain ⟨ids, ind', dst', e, -, hr, -⟩ := C11_vamana_count sortF hsort ix hix q d hdist [b, x] (fun _ => by rw [hlab]; simp)
    rc L hL1 hL hrc ind dst hind hdst
  have hids : ∀ i ∈ ids, i ∈ vamanaInit ix [b, x] := by
    intro i hi
    have hreach := hr.good i hi
    cases hreach with
    | start h => exact h
    | step _ _ hacc =>
      exfalso
      have hlt : i < ix.ctx.data.length := by
        by_contra hno
        unfold filterAccepts at hacc
        rw [if_neg (by simp), rd_ub (by rw [hlab]; simp; omega)] at hacc
        cases hacc
      have := (C09_missed ix.ctx [] [] [] b x hb (by simp) i (hget i hlt) (by
        intro h
        have := hu h
        simp [this.1, this.2])).2
      rw [show [] ++ b :: [] ++ x :: [] = [b, x] from rfl, hacc] at this
      cases this
  have hinit : ∀ i ∈ vamanaInit ix [b, x], ix.medoids.lookup b = some i ∨ ix.medoids.lookup x = some i := by
    intro i hi
    unfold vamanaInit at hi
    rw [if_pos (by simp)] at hi
    obtain ⟨y, hy, h⟩ := List.mem_filterMap.1 hi
    simp at hy
    rcases hy with rfl | rfl
    · exact .inl h
    · exact .inr h
  refine ⟨ids, ind', dst', e, fun i hi => hinit i (hids i hi), ?_⟩
  have h1 := (hr.distinct.subperm hids).length_le
  have h2 : (vamanaInit ix [b, x]).length ≤ 2 := by
    unfold vamanaInit
    rw [if_pos (by simp)]
    exact List.length_filterMap_le _ _
  omega

/-! ## The theorems applied to examples -/

/-- The five points of `exIdx`, all labelled `a`. -/
def exOneLabel : GIdx F32 := { exIdx with ctx := { exIdx.ctx with labels := List.replicate 5 [[97]] } }

theorem exOneLabel_ok : exOneLabel.OK := ⟨by decide, by decide, by decide, by decide, by decide⟩

example := C09_search_misses exSort exSort_isStdSort exOneLabel exOneLabel_ok F32.zero exD ⟨exIdx_dist.eq, exIdx_dist.sym, exIdx_dist.num⟩
  [98] [97] (by decide) rfl (by decide) 5 5 (by decide) (by decide) (by decide) (List.replicate 5 0) (List.replicate 5 F32.zero)
  (by decide) (by decide)

/-- Asked for `a` it reports the four points that can be reached, for `b` or `a` only the two entry points. -/
example : (vamanaSearch exSort exOneLabel F32.zero 5 5 (List.replicate 5 0) (List.replicate 5 F32.zero) [[97]]).map (fun r => r.2.2) = .ok 4 ∧
    (vamanaSearch exSort exOneLabel F32.zero 5 5 (List.replicate 5 0) (List.replicate 5 F32.zero) [[98], [97]]).map (fun r => r.2.2) = .ok 2 := by
  decide +kernel

/-- `a, c, a` is tested correctly though it is not sorted; `b, a` is not. -/
example : Spec.FoundFirst [[97], [99], [97]] ∧ ¬ SortedL [[97], [99], [97]] ∧ ¬ Spec.FoundFirst [[98], [97]] := by decide

example : ∀ (c : Ctx Nat) (id : Nat) (labs : List Label), c.useUniv = true → c.univ = [48] → c.labels[id]? = some labs →
    SortedL labs → filterAccepts c [[97], [99], [97]] id = .ok (decide (Spec.Matches c.useUniv c.univ [[97], [99], [97]] labs)) :=
  (C09_exact Nat [[97], [99], [97]] true [48]).2 (.inr (by decide))

/-- The labels `red` and `blue`, asked for in this order: a point labelled `blue` is left out. -/
example := C09_missed ({ data := [5], labels := [[[98, 108, 117, 101]]], useUniv := true, univ := [48], cmp := fun _ _ => F32.zero } : Ctx Nat)
  [] [] [] [114, 101, 100] [98, 108, 117, 101] (by decide) (by decide) 0 rfl (by decide)

end Grann
