import Verif.Props.Crash
import Verif.Model.IvfFile
import Verif.Model.LshFile
/-!
# Which files are written when an index is saved
-/

namespace Grann

variable {P : Type}

theorem saveOrig_files {p : P} {es : Nat} {data : Bytes} {n adim dim : Nat} {d : List (FOp P)} (hd : saveOrig p es data n adim dim = .ok d) :
    ∀ op ∈ d, op.file = p := by
  intro op hop
  unfold saveOrig at hd
  split at hd
  · simp only [Except.ok.injEq] at hd; subst hd; simp at hop
  · obtain ⟨rows, -, hd⟩ := Res.bind_eq_ok.mp hd
    simp only [Except.ok.injEq] at hd
    subst hd
    rcases List.mem_append.mp hop with hop | hop
    · simp only [List.mem_cons, List.not_mem_nil, or_false] at hop
      rcases hop with rfl | rfl | rfl <;> rfl
    · obtain ⟨r, -, rfl⟩ := List.mem_map.mp hop
      rfl

theorem saveBin_files {p : P} {n d : Nat} {b : Bytes} : ∀ op ∈ saveBin p n d b, op.file = p := by
  intro op hop
  simp only [saveBin, List.mem_cons, List.not_mem_nil, or_false] at hop
  rcases hop with rfl | rfl | rfl | rfl <;> rfl

theorem nodeOps_files {p : P} {rows : List (List Nat)} : ∀ op ∈ rows.flatMap (nodeOps p), op.file = p := by
  intro op hop
  obtain ⟨nb, -, hop⟩ := List.mem_flatMap.mp hop
  simp only [nodeOps, List.mem_cons, List.not_mem_nil, or_false] at hop
  rcases hop with rfl | rfl <;> rfl

theorem saveGraph_files {p : P} {n m s : Nat} {g : List (List Nat)} {l : List (FOp P)} (h : saveGraph p n m s g = .ok l) : ∀ op ∈ l, op.file = p := by
  intro op hop
  unfold saveGraph at h
  obtain ⟨rows, -, h⟩ := Res.bind_eq_ok.mp h
  simp only [Except.ok.injEq] at h
  subst h
  rcases List.mem_append.mp hop with hop | hop
  · rcases List.mem_append.mp hop with hop | hop
    · simp only [List.mem_cons, List.not_mem_nil, or_false] at hop
      rcases hop with rfl | rfl | rfl | rfl <;> rfl
    · exact nodeOps_files op hop
  · simp only [List.mem_cons, List.not_mem_nil, or_false] at hop
    rw [hop]
    rfl

theorem saveBase_files {nm : Part → P} {es : Nat} {o : IdxObj} {b : List (FOp P)} (h : saveBase es nm o = .ok b) : ∀ op ∈ b, ∃ p, op.file = nm p := by
  unfold saveBase at h
  obtain ⟨d, hd, h⟩ := Res.bind_eq_ok.mp h
  obtain ⟨t, ht, h⟩ := Res.bind_eq_ok.mp h
  obtain ⟨l, hl, h⟩ := Res.bind_eq_ok.mp h
  simp only [Except.ok.injEq] at h
  subst h
  intro op hop
  rcases List.mem_append.mp hop with hop | hop
  · rcases List.mem_append.mp hop with hop | hop
    · exact ⟨_, saveOrig_files hd op hop⟩
    · exact ⟨_, saveBin_files op hop⟩
  · rcases labelOps_files nm hl op hop with e | e <;> exact ⟨_, e⟩

theorem vamanaSave_files {nm : Part → P} {es : Nat} {o : IdxObj} {l : List (FOp P)} (h : vamanaSave es nm o = .ok l) :
    ∀ op ∈ l, ∃ p, op.file = nm p := by
  unfold vamanaSave at h
  obtain ⟨b, hb, h⟩ := Res.bind_eq_ok.mp h
  obtain ⟨g, hg, h⟩ := Res.bind_eq_ok.mp h
  simp only [Except.ok.injEq] at h
  subst h
  intro op hop
  rcases List.mem_append.mp hop with hop | hop
  · rcases List.mem_append.mp hop with hop | hop
    · exact saveBase_files hb op hop
    · exact ⟨_, medoidOps_files nm o op hop⟩
  · exact ⟨_, saveGraph_files hg op hop⟩

theorem rngSave_files {nm : Part → P} {es : Nat} {o : IdxObj} {l : List (FOp P)} (h : rngSave es nm o = .ok l) :
    ∀ op ∈ l, ∃ p, op.file = nm p := by
  unfold rngSave at h
  obtain ⟨b, hb, h⟩ := Res.bind_eq_ok.mp h
  obtain ⟨g, hg, h⟩ := Res.bind_eq_ok.mp h
  simp only [Except.ok.injEq] at h
  subst h
  intro op hop
  rcases List.mem_append.mp hop with hop | hop
  · exact saveBase_files hb op hop
  · exact ⟨_, saveGraph_files hg op hop⟩

theorem ivfSave_files {nm : Part → P} {pc : P} {es : Nat} {o : IvfObj} {l : List (FOp P)} (h : ivfSave es nm pc o = .ok l) :
    ∀ op ∈ l, (∃ p, op.file = nm p) ∨ op.file = pc := by
  unfold ivfSave at h
  obtain ⟨b, hb, h⟩ := Res.bind_eq_ok.mp h
  obtain ⟨c, -, h⟩ := Res.bind_eq_ok.mp h
  obtain ⟨rows, -, h⟩ := Res.bind_eq_ok.mp h
  simp only [Except.ok.injEq] at h
  subst h
  intro op hop
  rcases List.mem_append.mp hop with hop | hop
  · rcases List.mem_append.mp hop with hop | hop
    · exact Or.inl (saveBase_files hb op hop)
    · exact Or.inr (saveBin_files op hop)
  · rcases List.mem_append.mp hop with hop | hop
    · simp only [List.mem_cons, List.not_mem_nil, or_false] at hop
      rw [hop]
      exact Or.inl ⟨_, rfl⟩
    · exact Or.inl ⟨_, nodeOps_files op hop⟩

theorem lshSave_files {nm : Part → P} {pc : P} {es : Nat} {o : LshObj} {l : List (FOp P)} (h : lshSave es nm pc o = .ok l) :
    ∀ op ∈ l, (∃ p, op.file = nm p) ∨ op.file = pc := by
  unfold lshSave at h
  obtain ⟨b, hb, h⟩ := Res.bind_eq_ok.mp h
  simp only [Except.ok.injEq] at h
  subst h
  intro op hop
  rcases List.mem_append.mp hop with hop | hop
  · exact Or.inl (saveBase_files hb op hop)
  · right
    rcases List.mem_append.mp hop with hop | hop
    · simp only [List.mem_cons, List.not_mem_nil, or_false] at hop
      rcases hop with rfl | rfl | rfl | rfl <;> rfl
    · obtain ⟨r, -, rfl⟩ := List.mem_map.mp hop
      rfl

/-- Files with other names are left alone. -/
theorem runOps_elsewhere [DecidableEq P] {nm : Part → P} {l : List (FOp P)} (h : ∀ op ∈ l, ∃ p, op.file = nm p) {q : P} (hq : ∀ p, q ≠ nm p) (fs : FS P) :
    runOps l fs q = fs q := by
  refine runOps_other l q (fun op hop => ?_) fs
  obtain ⟨p, e⟩ := h op hop
  rw [e]
  exact hq p

end Grann
