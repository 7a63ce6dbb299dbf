import Verif.Model.Pool
import Verif.Spec.Search
import Mathlib.Data.List.Lex
import Mathlib.Order.Defs.LinearOrder

namespace Grann

theorem strLt_irrefl : ∀ a, strLt a a = false
  | [] => rfl
  | a :: as => by unfold strLt; simp [strLt_irrefl as]

theorem strLt_trans : ∀ {a b c}, strLt a b = true → strLt b c = true → strLt a c = true := by
  intro a
  induction a with
  | nil =>
    intro b c h1 h2
    cases c with
    | nil => cases b <;> simp [strLt] at h2
    | cons => rfl
  | cons x xs ih =>
    intro b c h1 h2
    cases b with
    | nil => simp [strLt] at h1
    | cons y ys =>
      cases c with
      | nil => simp [strLt] at h2
      | cons z zs =>
        unfold strLt at h1 h2 ⊢
        by_cases hxy : x < y
        · by_cases hyz : y < z
          · rw [if_pos (UInt8.lt_trans hxy hyz)]
          · rw [if_neg hyz] at h2
            by_cases hzy : z < y
            · rw [if_pos hzy] at h2; simp at h2
            · have : y = z := UInt8.le_antisymm (UInt8.not_lt.1 hzy) (UInt8.not_lt.1 hyz)
              subst this; rw [if_pos hxy]
        · rw [if_neg hxy] at h1
          by_cases hyx : y < x
          · rw [if_pos hyx] at h1; simp at h1
          · rw [if_neg hyx] at h1
            have : x = y := UInt8.le_antisymm (UInt8.not_lt.1 hyx) (UInt8.not_lt.1 hxy)
            subst this
            by_cases hyz : x < z
            · rw [if_pos hyz]
            · rw [if_neg hyz] at h2 ⊢
              by_cases hzy : z < x
              · rw [if_pos hzy] at h2; simp at h2
              · rw [if_neg hzy] at h2 ⊢
                exact ih h1 h2

theorem strLt_antisymm : ∀ {a b}, strLt a b = false → strLt b a = false → a = b := by
  intro a
  induction a with
  | nil => intro b h1 h2; cases b <;> simp_all [strLt]
  | cons x xs ih =>
    intro b h1 h2
    cases b with
    | nil => simp [strLt] at h2
    | cons y ys =>
      unfold strLt at h1 h2
      by_cases hxy : x < y
      · rw [if_pos hxy] at h1; simp at h1
      · by_cases hyx : y < x
        · rw [if_pos hyx] at h2; simp at h2
        · rw [if_neg hxy, if_neg hyx] at h1
          rw [if_neg hyx, if_neg hxy] at h2
          have : x = y := UInt8.le_antisymm (UInt8.not_lt.1 hyx) (UInt8.not_lt.1 hxy)
          rw [this, ih h1 h2]

/-- Labels in non-descending order. -/
def SortedL (l : List Label) : Prop := l.Pairwise (fun a b => strLt b a = false)

instance (l : List Label) : Decidable (SortedL l) := by unfold SortedL; infer_instance

/-- `a ≤ b` and `b ≤ c` give `a ≤ c`. -/
theorem strLe_trans {a b c : Label} (h1 : strLt b a = false) (h2 : strLt c b = false) :
    strLt c a = false := by
  by_contra h
  have h : strLt c a = true := by simpa using h
  by_cases hab : strLt a b = true
  · have := strLt_trans h hab; simp_all
  · have : a = b := strLt_antisymm (by simpa using hab) h1
    subst this; simp_all

/-- Whatever the order of the two lists, the merge only outputs common elements. -/
theorem setInter_sound : ∀ (f l : List Label) (x : Label), x ∈ setInter f l → x ∈ f ∧ x ∈ l := by
  intro f
  induction f with
  | nil => intro l x h; simp [setInter] at h
  | cons a as ih =>
    intro l
    induction l with
    | nil => intro x h; simp [setInter, setInterAux] at h
    | cons b bs ihb =>
      intro x h
      unfold setInter setInterAux at h
      by_cases h1 : strLt a b = true
      · rw [if_pos h1] at h
        have := ih _ x h
        exact ⟨List.mem_cons_of_mem _ this.1, this.2⟩
      · rw [if_neg h1] at h
        by_cases h2 : strLt b a = true
        · rw [if_pos h2] at h
          have := ihb x (by unfold setInter; exact h)
          exact ⟨this.1, List.mem_cons_of_mem _ this.2⟩
        · rw [if_neg h2] at h
          have hab : a = b := strLt_antisymm (by simpa using h1) (by simpa using h2)
          rcases List.mem_cons.1 h with h | h
          · subst h; subst hab; exact ⟨by simp, by simp⟩
          · have := ih _ x h
            exact ⟨List.mem_cons_of_mem _ this.1, List.mem_cons_of_mem _ this.2⟩

/-- On sorted lists the merge finds a common element if there is one. -/
theorem setInter_complete : ∀ (f l : List Label), SortedL f → SortedL l →
    (∃ x ∈ f, x ∈ l) → setInter f l ≠ [] := by
  intro f
  induction f with
  | nil => intro l _ _ h; simp at h
  | cons a as ih =>
    intro l
    induction l with
    | nil => intro _ _ h; simp at h
    | cons b bs ihb =>
      intro hf hl h
      obtain ⟨x, hxf, hxl⟩ := h
      unfold setInter setInterAux
      have hf' : SortedL as := (List.pairwise_cons.1 hf).2
      have hl' : SortedL bs := (List.pairwise_cons.1 hl).2
      by_cases h1 : strLt a b = true
      · rw [if_pos h1]
        apply ih _ hf' hl
        refine ⟨x, ?_, hxl⟩
        rcases List.mem_cons.1 hxf with h | h
        · subst h
          exfalso
          rcases List.mem_cons.1 hxl with h' | h'
          · subst h'; rw [strLt_irrefl] at h1; simp at h1
          · have := (List.pairwise_cons.1 hl).1 x h'
            simp_all
        · exact h
      · rw [if_neg h1]
        by_cases h2 : strLt b a = true
        · rw [if_pos h2]
          have := ihb hf hl' ⟨x, hxf, ?_⟩
          · unfold setInter at this; exact this
          · rcases List.mem_cons.1 hxl with h' | h'
            · subst h'
              exfalso
              rcases List.mem_cons.1 hxf with h | h
              · subst h; simp_all
              · have := (List.pairwise_cons.1 hf).1 x h
                simp_all
            · exact h'
        · rw [if_neg h2]; simp

theorem filterAccepts_sound {V : Type} {c : Ctx V} {filters : List Label} {id : Nat}
    {labs : List Label} (hl : filters ≠ [] → c.labels[id]? = some labs)
    (h : filterAccepts c filters id = .ok true) :
    Spec.Matches c.useUniv c.univ filters labs := by
  unfold filterAccepts at h
  by_cases hf : filters.isEmpty
  · left; simpa using hf
  · have hne : filters ≠ [] := by simpa using hf
    rw [if_neg hf, rd_eq_ok_iff.2 (hl hne)] at h
    simp only [Res.ok_bind] at h
    by_cases hu : (c.useUniv && (filters.contains c.univ || labs.contains c.univ)) = true
    · right; right
      simpa using hu
    · rw [if_neg hu] at h
      right; left
      cases hs : setInter filters labs with
      | nil => rw [hs] at h; simp at h
      | cons x xs =>
        have := setInter_sound filters labs x (by rw [hs]; simp)
        exact ⟨x, this⟩

/-- The filter test decides `Matches` when both lists are sorted. -/
theorem filterAccepts_iff {V : Type} {c : Ctx V} {filters : List Label} {id : Nat}
    {labs : List Label} (hl : filters ≠ [] → c.labels[id]? = some labs)
    (hsf : SortedL filters) (hsl : SortedL labs) :
    filterAccepts c filters id = .ok (decide (Spec.Matches c.useUniv c.univ filters labs)) := by
  by_cases hm : Spec.Matches c.useUniv c.univ filters labs
  · simp only [hm, decide_true]
    unfold filterAccepts
    by_cases hf : filters.isEmpty
    · rw [if_pos hf]
    · have hne : filters ≠ [] := by simpa using hf
      rw [if_neg hf, rd_eq_ok_iff.2 (hl hne)]
      simp only [Res.ok_bind]
      by_cases hu : (c.useUniv && (filters.contains c.univ || labs.contains c.univ)) = true
      · rw [if_pos hu]; simp
      · rw [if_neg hu]
        rcases hm with h | h | h
        · exact absurd h hne
        · have := setInter_complete filters labs hsf hsl h
          simpa using this
        · exact absurd (by simpa using h) hu
  · simp only [hm, decide_false]
    cases hr : filterAccepts c filters id with
    | error e =>
      exfalso
      unfold filterAccepts at hr
      by_cases hf : filters.isEmpty
      · rw [if_pos hf] at hr; simp at hr
      · have hne : filters ≠ [] := by simpa using hf
        rw [if_neg hf, rd_eq_ok_iff.2 (hl hne)] at hr
        simp at hr
    | ok b =>
      cases b with
      | false => rfl
      | true => exact absurd (filterAccepts_sound hl hr) hm

/-- The filter test has a defined outcome when the point has a label list. -/
theorem filterAccepts_ok {V : Type} (c : Ctx V) (filters : List Label) (id : Nat)
    (hl : filters ≠ [] → id < c.labels.length) : ∃ b, filterAccepts c filters id = .ok b := by
  unfold filterAccepts
  by_cases hf : filters.isEmpty
  · rw [if_pos hf]; exact ⟨_, rfl⟩
  · have hne : filters ≠ [] := by simpa using hf
    rw [if_neg hf, rd_ok (hl hne)]
    simp only [Res.ok_bind]
    exact ⟨_, rfl⟩

end Grann
