import Verif.Model.RandGen
import Verif.Props.BinFile
/-!
# C80: the random data generator
-/

namespace Grann

namespace Spec

/-- A vector file of `n` vectors of dimension `dim`; the coordinates of vector `i` are `cells[i * dim]`, `cells[i * dim + 1]`, ... -/
def HoldsCells (n dim : Nat) (file : Option Bytes) (cells : List Bytes) : Prop :=
  file = some (le 4 n ++ (le 4 dim ++ cells.flatten)) ∧ cells.length = n * dim ∧ ∀ c ∈ cells, c.length = 4

end Spec

/-! ## Cells -/

theorem cellIdx_eq {n dim i j : Nat} (hN : n * dim < 4294967296) (hi : i < n) (hj : j < dim) : cellIdx dim i j = i * dim + j := by
  have h1 : (i + 1) * dim ≤ n * dim := Nat.mul_le_mul_right _ hi
  rw [Nat.add_mul] at h1
  unfold cellIdx u32
  rw [Nat.mod_eq_of_lt (a := i * dim) (by omega), Nat.mod_eq_of_lt (by omega)]

theorem mem_rowCells {dim : Nat} {rows : List Nat} {c : Nat} : c ∈ rowCells dim rows ↔ ∃ i ∈ rows, ∃ j < dim, cellIdx dim i j = c := by
  unfold rowCells
  simp only [List.mem_flatMap, List.mem_map, List.mem_range]

/-- The positions of a matrix are those of its cells. -/
theorem pos_split {n dim c : Nat} (h : c < n * dim) : c / dim < n ∧ c % dim < dim ∧ c / dim * dim + c % dim = c := by
  have hd : 0 < dim := Nat.pos_of_ne_zero (fun e => by subst e; omega)
  exact ⟨(Nat.div_lt_iff_lt_mul hd).mpr h, Nat.mod_lt _ hd, by rw [Nat.mul_comm]; exact Nat.div_add_mod c dim⟩

theorem rowCells_range {n dim : Nat} (hN : n * dim < 4294967296) : rowCells dim (List.range n) = List.range (n * dim) := by
  have : ∀ m ≤ n, rowCells dim (List.range m) = List.range (m * dim) := by
    intro m
    induction m with
    | zero => intro _; simp [rowCells]
    | succ m ih =>
      intro hm
      rw [List.range_succ]
      unfold rowCells at ih ⊢
      rw [List.flatMap_append, ih (by omega), List.flatMap_cons, List.flatMap_nil, List.append_nil, Nat.add_mul, Nat.one_mul, List.range_add]
      congr 1
      apply List.map_congr_left
      intro j hj
      exact cellIdx_eq hN (by omega) (List.mem_range.mp hj)
  exact this n (le_refl n)

/-! ## Every schedule -/

structure GenInv (draw : Nat → Bytes) (N : Nat) (s : GenSt) : Prop where
  len : s.data.length = N
  four : ∀ b ∈ s.data, b.length = 4
  lt : ∀ t ∈ s.th, ∀ c ∈ t.todo, c < N
  cov : ∀ c < N, (∃ t ∈ s.th, c ∈ t.todo) ∨ ∃ k, s.data[c]? = some (draw k)

theorem GenInv.step {draw : Nat → Bytes} (hd : ∀ k, (draw k).length = 4) {N : Nat} {s : GenSt} (h : GenInv draw N s) (t : Nat) :
    ∃ s', genStep draw s t = .ok s' ∧ GenInv draw N s' := by
  unfold genStep
  split
  · rename_i c cs ht
    have hm := List.mem_of_getElem? ht
    have hlt := (List.getElem?_eq_some_iff.mp ht).1
    refine ⟨_, rfl, h.len, h.four, ?_, ?_⟩
    · intro x hx
      rcases List.mem_or_eq_of_mem_set hx with hx | rfl
      · exact h.lt x hx
      · exact fun c' hc' => h.lt _ hm c' hc'
    · intro c' hc'
      rcases h.cov c' hc' with ⟨x, hx, hxc⟩ | hk
      · left
        obtain ⟨i, hi⟩ := List.getElem?_of_mem hx
        by_cases e : i = t
        · subst e
          rw [ht] at hi
          injection hi with hi; subst hi
          exact ⟨_, List.mem_of_getElem? (List.getElem?_set_self hlt), hxc⟩
        · exact ⟨x, List.mem_of_getElem? (by rw [List.getElem?_set_ne (fun h => e h.symm)]; exact hi), hxc⟩
      · exact .inr hk
  · rename_i c cs k ht
    have hm := List.mem_of_getElem? ht
    have hlt := (List.getElem?_eq_some_iff.mp ht).1
    have hc : c < s.data.length := by rw [h.len]; exact h.lt _ hm c (by simp)
    rw [wr_ok hc, Res.ok_bind]
    refine ⟨_, rfl, by rw [List.length_set]; exact h.len, ?_, ?_, ?_⟩
    · intro b hb
      rcases List.mem_or_eq_of_mem_set hb with hb | rfl
      · exact h.four b hb
      · exact hd k
    · intro x hx
      rcases List.mem_or_eq_of_mem_set hx with hx | rfl
      · exact h.lt x hx
      · exact fun c' hc' => h.lt _ hm c' (List.mem_cons_of_mem _ hc')
    · intro c' hc'
      by_cases e : c' = c
      · right; subst e; exact ⟨k, List.getElem?_set_self hc⟩
      · rcases h.cov c' hc' with ⟨x, hx, hxc⟩ | ⟨k', hk⟩
        · left
          obtain ⟨i, hi⟩ := List.getElem?_of_mem hx
          by_cases e' : i = t
          · subst e'
            rw [ht] at hi
            injection hi with hi; subst hi
            exact ⟨_, List.mem_of_getElem? (List.getElem?_set_self hlt), by simpa [e] using hxc⟩
          · exact ⟨x, List.mem_of_getElem? (by rw [List.getElem?_set_ne (fun h => e' h.symm)]; exact hi), hxc⟩
        · right; exact ⟨k', by rw [List.getElem?_set_ne (fun h => e h.symm)]; exact hk⟩
  · exact ⟨s, rfl, h⟩

theorem GenInv.run {draw : Nat → Bytes} (hd : ∀ k, (draw k).length = 4) {N : Nat} : ∀ (sched : List Nat) (s : GenSt), GenInv draw N s →
    ∃ s', sched.foldlM (genStep draw) s = .ok s' ∧ GenInv draw N s' := by
  intro sched
  induction sched with
  | nil => intro s h; exact ⟨s, rfl, h⟩
  | cons t sched ih =>
    intro s h
    obtain ⟨s1, e1, h1⟩ := h.step hd t
    obtain ⟨s2, e2, h2⟩ := ih s1 h1
    exact ⟨s2, by rw [List.foldlM_cons, e1, Res.ok_bind, e2], h2⟩

/-- The start. -/
def genStart (n dim : Nat) (mem : Nat → Bytes) (parts : List (List Nat)) : GenSt :=
  ⟨0, (List.range (u32 (n * dim))).map mem, parts.map (fun rows => ⟨rowCells dim rows, none⟩)⟩

theorem GenInv.start {draw : Nat → Bytes} {n dim : Nat} (hN : n * dim < 4294967296) {mem : Nat → Bytes} (hm : ∀ i, (mem i).length = 4)
    {parts : List (List Nat)} (hp : parts.flatten.Perm (List.range n)) : GenInv draw (n * dim) (genStart n dim mem parts) := by
  have hu : u32 (n * dim) = n * dim := Nat.mod_eq_of_lt hN
  have hmem : ∀ i, (∃ rows ∈ parts, i ∈ rows) ↔ i < n := fun i => by
    rw [← List.mem_range, ← hp.mem_iff, List.mem_flatten]
  refine ⟨by simp [genStart, hu], ?_, ?_, ?_⟩
  · intro b hb
    obtain ⟨i, -, rfl⟩ := List.mem_map.mp hb
    exact hm i
  · intro t ht c hc
    obtain ⟨rows, hr, rfl⟩ := List.mem_map.mp ht
    obtain ⟨i, hi, j, hj, rfl⟩ := mem_rowCells.mp hc
    have hin := (hmem i).mp ⟨rows, hr, hi⟩
    rw [cellIdx_eq hN hin hj]
    have h1 : (i + 1) * dim ≤ n * dim := Nat.mul_le_mul_right _ hin
    rw [Nat.add_mul] at h1
    omega
  · intro c hc
    left
    obtain ⟨h1, h2, h3⟩ := pos_split hc
    obtain ⟨rows, hr, hi⟩ := (hmem _).mpr h1
    exact ⟨_, List.mem_map.mpr ⟨rows, hr, rfl⟩, mem_rowCells.mpr ⟨_, hi, _, h2, by rw [cellIdx_eq hN h1 h2, h3]⟩⟩

theorem slice_all (b : Bytes) (n : Nat) (h : b.length = n) : slice b 0 n = .ok b := by
  unfold slice
  rw [if_pos (by omega), List.drop_zero, List.take_of_length_le (by omega)]

/-- What is written at the end. -/
theorem randomFile_eq {P : Type} [DecidableEq P] (p : P) (fs : FS P) {n dim : Nat} {draw mem : Nat → Bytes} {parts : List (List Nat)}
    {sched : List Nat} {s : GenSt} (hs : sched.foldlM (genStep draw) (genStart n dim mem parts) = .ok s)
    (he : ∀ t ∈ s.th, t.todo = []) (hl : s.data.length = n * dim) (h4 : ∀ b ∈ s.data, b.length = 4) :
    ∃ ops, randomFile p n dim draw mem parts sched = .ok ops ∧ Spec.HoldsCells n dim (runOps ops fs p) s.data := by
  have hfl : s.data.flatten.length = n * dim * 4 := by rw [flatten_length_of h4, hl]
  refine ⟨saveBin p n dim s.data.flatten, ?_, ?_, hl, h4⟩
  · unfold randomFile
    unfold genStart at hs
    rw [hs, Res.ok_bind, if_pos, slice_all _ _ hfl]
    · rfl
    · rw [List.all_eq_true]; intro t ht; rw [he t ht]; rfl
  · rw [saveBin_run]; simp only [if_true]

/-- How many accesses a thread still makes. -/
def GenTh.left (t : GenTh) : Nat := 2 * t.todo.length - (if t.seen.isSome then 1 else 0)

/-- A thread that has read the state has something to do. -/
def GenSt.SeenOk (s : GenSt) : Prop := ∀ t ∈ s.th, t.seen.isSome → t.todo ≠ []

theorem left_step {draw : Nat → Bytes} {s s' : GenSt} {t : Nat} (hok : s.SeenOk) (h : genStep draw s t = .ok s') :
    s'.SeenOk ∧ s'.th.length = s.th.length ∧ ∀ i x, s.th[i]? = some x → ∃ y, s'.th[i]? = some y ∧
      y.left = x.left - (if i = t then 1 else 0) := by
  unfold genStep at h
  split at h
  · rename_i c cs ht
    injection h with h; subst h
    have hlt := (List.getElem?_eq_some_iff.mp ht).1
    refine ⟨?_, by simp, ?_⟩
    · intro x hx hs
      rcases List.mem_or_eq_of_mem_set hx with hx | rfl
      · exact hok x hx hs
      · simp
    · intro i x hi
      by_cases e : i = t
      · subst e
        rw [ht] at hi
        injection hi with hi; subst hi
        exact ⟨_, List.getElem?_set_self hlt, by simp [GenTh.left]⟩
      · exact ⟨x, by rw [List.getElem?_set_ne (fun h => e h.symm)]; exact hi, by simp [e]⟩
  · rename_i c cs k ht
    obtain ⟨data, -, h⟩ := Res.bind_eq_ok.mp h
    injection h with h; subst h
    have hlt := (List.getElem?_eq_some_iff.mp ht).1
    refine ⟨?_, by simp, ?_⟩
    · intro x hx hs
      rcases List.mem_or_eq_of_mem_set hx with hx | rfl
      · exact hok x hx hs
      · simp at hs
    · intro i x hi
      by_cases e : i = t
      · subst e
        rw [ht] at hi
        injection hi with hi; subst hi
        exact ⟨_, List.getElem?_set_self hlt, by simp [GenTh.left]; omega⟩
      · exact ⟨x, by rw [List.getElem?_set_ne (fun h => e h.symm)]; exact hi, by simp [e]⟩
  · rename_i h1 h2
    injection h with h; subst h
    refine ⟨hok, rfl, ?_⟩
    intro i x hi
    refine ⟨x, hi, ?_⟩
    by_cases e : i = t
    · subst e
      have : x.todo = [] := by
        obtain ⟨todo, seen⟩ := x
        cases todo with
        | nil => rfl
        | cons c cs =>
          cases seen with
          | none => exact absurd hi (h1 c cs)
          | some k => exact absurd hi (h2 c cs k)
      simp [GenTh.left, this]
    · simp [e]

theorem left_run {draw : Nat → Bytes} : ∀ (sched : List Nat) (s s' : GenSt), s.SeenOk → sched.foldlM (genStep draw) s = .ok s' →
    s'.SeenOk ∧ s'.th.length = s.th.length ∧ ∀ i x, s.th[i]? = some x → ∃ y, s'.th[i]? = some y ∧ y.left = x.left - sched.count i := by
  intro sched
  induction sched with
  | nil =>
    intro s s' hok h
    injection h with h; subst h
    exact ⟨hok, rfl, fun i x hi => ⟨x, hi, by simp⟩⟩
  | cons t sched ih =>
    intro s s' hok h
    rw [List.foldlM_cons] at h
    obtain ⟨s1, e1, e2⟩ := Res.bind_eq_ok.mp h
    obtain ⟨a1, a2, a3⟩ := left_step hok e1
    obtain ⟨b1, b2, b3⟩ := ih s1 s' a1 e2
    refine ⟨b1, by rw [b2, a2], fun i x hi => ?_⟩
    obtain ⟨y, hy, ey⟩ := a3 i x hi
    obtain ⟨z, hz, ez⟩ := b3 i y hy
    refine ⟨z, hz, ?_⟩
    rw [ez, ey, List.count_cons]
    by_cases e : i = t
    · subst e; simp; omega
    · have : (t == i) = false := by simpa using fun h => e h.symm
      simp [e, this]

/-- A schedule that lets every thread do all its accesses: two for each number. -/
def AllDraw (dim : Nat) (parts : List (List Nat)) (sched : List Nat) : Prop :=
  ∀ i rows, parts[i]? = some rows → 2 * (rows.length * dim) ≤ sched.count i

theorem rowCells_length (dim : Nat) (rows : List Nat) : (rowCells dim rows).length = rows.length * dim := by
  unfold rowCells
  induction rows with
  | nil => simp
  | cons i rows ih => rw [List.flatMap_cons, List.length_append, ih, List.length_map, List.length_range, List.length_cons, Nat.add_mul]; omega

theorem genStart_seen (n dim : Nat) (mem : Nat → Bytes) (parts : List (List Nat)) : (genStart n dim mem parts).SeenOk := by
  intro t ht hs
  obtain ⟨rows, -, rfl⟩ := List.mem_map.mp ht
  simp at hs

theorem all_done {draw : Nat → Bytes} {n dim : Nat} {mem : Nat → Bytes} {parts : List (List Nat)} {sched : List Nat} {s : GenSt}
    (h : sched.foldlM (genStep draw) (genStart n dim mem parts) = .ok s) (he : AllDraw dim parts sched) : ∀ t ∈ s.th, t.todo = [] := by
  obtain ⟨h1, h2, h3⟩ := left_run sched _ s (genStart_seen n dim mem parts) h
  intro t ht
  obtain ⟨i, hi⟩ := List.getElem?_of_mem ht
  have hil := (List.getElem?_eq_some_iff.mp hi).1
  rw [h2] at hil
  have hil : i < (genStart n dim mem parts).th.length := hil
  have hip : i < parts.length := by simpa [genStart] using hil
  have hx : (genStart n dim mem parts).th[i]? = some ⟨rowCells dim parts[i], none⟩ := by
    unfold genStart
    rw [List.getElem?_map, List.getElem?_eq_getElem hip]
    rfl
  obtain ⟨y, hy, ey⟩ := h3 i _ hx
  rw [hi] at hy
  injection hy with hy; subst hy
  have hle := he i _ (List.getElem?_eq_getElem hip)
  have h0 : t.left = 0 := by
    rw [ey]
    simp only [GenTh.left, rowCells_length]
    simp
    omega
  unfold GenTh.left at h0
  by_cases hs : t.seen.isSome
  · have := hne_len (h1 t ht hs)
    rw [if_pos hs] at h0
    omega
  · rw [if_neg hs] at h0
    exact List.eq_nil_of_length_eq_zero (by omega)
where
  hne_len {l : List Nat} (h : l ≠ []) : 0 < l.length := List.length_pos_iff.mpr h

/-- **C80 (every schedule).** If `num_vectors * dim` is less than 2³², then for every distribution of the iterations over threads and
every schedule in which all threads finish, the file holds `num_vectors` vectors of dimension `dim`, and every coordinate is a number the
generator yielded. -/
theorem C80_defined {P : Type} [DecidableEq P] (p : P) (fs : FS P) (n dim : Nat) (hN : n * dim < 4294967296) (draw mem : Nat → Bytes)
    (hd : ∀ k, (draw k).length = 4) (hm : ∀ i, (mem i).length = 4) (parts : List (List Nat)) (hp : parts.flatten.Perm (List.range n))
    (sched : List Nat) (he : AllDraw dim parts sched) :
    ∃ ops cells, randomFile p n dim draw mem parts sched = .ok ops ∧ Spec.HoldsCells n dim (runOps ops fs p) cells ∧
      ∀ c ∈ cells, ∃ k, c = draw k := by
  obtain ⟨s, hs, hi⟩ := (GenInv.start (draw := draw) hN hm hp).run hd sched
  have hdone := all_done hs he
  obtain ⟨ops, h1, h2⟩ := randomFile_eq p fs hs hdone hi.len hi.four
  refine ⟨ops, s.data, h1, h2, ?_⟩
  intro c hc
  obtain ⟨i, hci⟩ := List.getElem?_of_mem hc
  have hil := (List.getElem?_eq_some_iff.mp hci).1
  rcases hi.cov i (by rw [← hi.len]; exact hil) with ⟨t, ht, hct⟩ | ⟨k, hk⟩
  · rw [hdone t ht] at hct; simp at hct
  · exact ⟨k, by rw [hci] at hk; exact Option.some.inj hk⟩

/-- ... and no schedule at all leads outside the array. -/
theorem C80_safe {P : Type} (p : P) (n dim : Nat) (hN : n * dim < 4294967296) (draw mem : Nat → Bytes)
    (hd : ∀ k, (draw k).length = 4) (hm : ∀ i, (mem i).length = 4) (parts : List (List Nat)) (hp : parts.flatten.Perm (List.range n))
    (sched : List Nat) : randomFile p n dim draw mem parts sched ≠ .error .ub := by
  obtain ⟨s, hs, hi⟩ := (GenInv.start (draw := draw) hN hm hp).run hd sched
  unfold randomFile
  unfold genStart at hs
  rw [hs, Res.ok_bind]
  split
  · rw [slice_all _ _ (by rw [flatten_length_of hi.four, hi.len])]
    intro h; cases h
  · intro h; cases h

/-! ## Too many numbers -/

structure GenOut (c N : Nat) (s : GenSt) : Prop where
  len : s.data.length = N
  has : ∃ t ∈ s.th, c ∈ t.todo

theorem GenOut.step {draw : Nat → Bytes} {c N : Nat} (hc : N ≤ c) {s s' : GenSt} (h : GenOut c N s) {t : Nat} (hs : genStep draw s t = .ok s') :
    GenOut c N s' := by
  obtain ⟨x, hx, hxc⟩ := h.has
  obtain ⟨i, hi⟩ := List.getElem?_of_mem hx
  unfold genStep at hs
  split at hs
  · rename_i c' cs ht
    injection hs with hs; subst hs
    have hlt := (List.getElem?_eq_some_iff.mp ht).1
    refine ⟨h.len, ?_⟩
    by_cases e : i = t
    · subst e
      rw [ht] at hi
      injection hi with hi; subst hi
      exact ⟨_, List.mem_of_getElem? (List.getElem?_set_self hlt), hxc⟩
    · exact ⟨x, List.mem_of_getElem? (by rw [List.getElem?_set_ne (fun h => e h.symm)]; exact hi), hxc⟩
  · rename_i c' cs k ht
    obtain ⟨data, hw, hs⟩ := Res.bind_eq_ok.mp hs
    injection hs with hs; subst hs
    have hlt := (List.getElem?_eq_some_iff.mp ht).1
    by_cases hlc : c' < s.data.length
    · rw [wr_ok hlc] at hw
      injection hw with hw
      refine ⟨by rw [← hw, List.length_set]; exact h.len, ?_⟩
      by_cases e : i = t
      · subst e
        rw [ht] at hi
        injection hi with hi; subst hi
        have hne : c ≠ c' := by have := h.len; omega
        exact ⟨_, List.mem_of_getElem? (List.getElem?_set_self hlt), by simpa [hne] using hxc⟩
      · exact ⟨x, List.mem_of_getElem? (by rw [List.getElem?_set_ne (fun h => e h.symm)]; exact hi), hxc⟩
    · rw [wr_ub (by omega)] at hw; cases hw
  · injection hs with hs; subst hs; exact h

theorem genStep_err {draw : Nat → Bytes} {s : GenSt} {t : Nat} {e : Err} (h : genStep draw s t = .error e) : e = .ub := by
  unfold genStep at h
  split at h
  · cases h
  · rename_i c cs k ht
    by_cases hl : c < s.data.length
    · rw [wr_ok hl] at h; cases h
    · rw [wr_ub (by omega)] at h; injection h with h; exact h.symm
  · cases h

theorem GenOut.run {draw : Nat → Bytes} {c N : Nat} (hc : N ≤ c) : ∀ (sched : List Nat) (s : GenSt), GenOut c N s →
    (∃ s', sched.foldlM (genStep draw) s = .ok s' ∧ GenOut c N s') ∨ sched.foldlM (genStep draw) s = .error .ub := by
  intro sched
  induction sched with
  | nil => intro s h; exact .inl ⟨s, rfl, h⟩
  | cons t sched ih =>
    intro s h
    rw [List.foldlM_cons]
    rcases hs : genStep draw s t with e | s1
    · right
      rw [genStep_err hs]; rfl
    · exact ih s1 (h.step hc hs)

/-- A cell outside the array. -/
theorem cell_outside {n dim : Nat} (hd : dim < 4294967296) (hN : 4294967296 ≤ n * dim) :
    ∃ i < n, ∃ j < dim, cellIdx dim i j = u32 (n * dim) := by
  have hlt : u32 (n * dim) < n * dim := lt_of_lt_of_le (Nat.mod_lt _ (by omega)) hN
  obtain ⟨h1, h2, h3⟩ := pos_split hlt
  refine ⟨_, h1, _, h2, ?_⟩
  have hu : u32 (n * dim) < 4294967296 := Nat.mod_lt _ (by omega)
  unfold cellIdx
  have e : u32 (u32 (n * dim) / dim * dim) = u32 (n * dim) / dim * dim := Nat.mod_eq_of_lt (by omega)
  rw [e, h3]
  exact Nat.mod_eq_of_lt hu

/-- **C80 is false for large data sets.** If `num_vectors * dim` is 2³² or more, every schedule in which all threads go on leads to a
store outside the array, for whatever distribution of the iterations; no schedule writes a file. -/
theorem C80_too_large {P : Type} (p : P) (n dim : Nat) (hdim : dim < 4294967296) (hN : 4294967296 ≤ n * dim) (draw mem : Nat → Bytes)
    (parts : List (List Nat)) (hp : parts.flatten.Perm (List.range n)) (sched : List Nat) :
    (AllDraw dim parts sched → randomFile p n dim draw mem parts sched = .error .ub) ∧
    ∀ ops, randomFile p n dim draw mem parts sched ≠ .ok ops := by
  obtain ⟨i, hi, j, hj, hc⟩ := cell_outside hdim hN
  obtain ⟨rows, hr, hir⟩ := List.mem_flatten.mp (hp.mem_iff.mpr (List.mem_range.mpr hi))
  have h0 : GenOut (u32 (n * dim)) (u32 (n * dim)) (genStart n dim mem parts) :=
    ⟨by simp [genStart], _, List.mem_map.mpr ⟨rows, hr, rfl⟩, mem_rowCells.mpr ⟨i, hir, j, hj, hc⟩⟩
  rcases h0.run (draw := draw) (le_refl _) sched with ⟨s, hs, hb⟩ | hub
  · obtain ⟨t, ht, htc⟩ := hb.has
    refine ⟨fun he => ?_, ?_⟩
    · rw [all_done hs he t ht] at htc; simp at htc
    · intro ops
      unfold randomFile
      unfold genStart at hs
      rw [hs, Res.ok_bind, if_neg]
      · intro h; cases h
      · intro h
        have := List.all_eq_true.mp h t ht
        rw [List.isEmpty_iff] at this
        rw [this] at htc; simp at htc
  · have : randomFile p n dim draw mem parts sched = .error .ub := by
      unfold randomFile
      unfold genStart at hub
      rw [hub]; rfl
    exact ⟨fun _ => this, fun ops h => by rw [this] at h; cases h⟩

/-! ## One thread -/

structure GenOne (draw : Nat → Bytes) (N : Nat) (s : GenSt) : Prop where
  ex : ∃ j, j ≤ N ∧ s.pos = j ∧ s.data.length = N ∧ (∃ o, s.th = [⟨(List.range N).drop j, o⟩] ∧ (o = none ∨ o = some j)) ∧
    ∀ i < j, s.data[i]? = some (draw i)

theorem GenOne.step {draw : Nat → Bytes} {N : Nat} {s s' : GenSt} (h : GenOne draw N s) {t : Nat} (hs : genStep draw s t = .ok s') :
    GenOne draw N s' := by
  obtain ⟨j, hj, hpos, hlen, ⟨o, hth, ho⟩, hdat⟩ := h.ex
  by_cases ht : t = 0
  · subst ht
    rcases Nat.lt_or_ge j N with hjN | hjN
    · have hdrop : (List.range N).drop j = j :: (List.range N).drop (j + 1) := by
        rw [List.drop_eq_getElem_cons (by simpa using hjN)]; simp
      unfold genStep at hs
      rw [hth, hdrop] at hs
      rcases ho with rfl | rfl
      · simp only [List.getElem?_cons_zero] at hs
        injection hs with hs; subst hs
        exact ⟨j, hj, hpos, hlen, ⟨some j, by rw [hdrop, hpos]; rfl, .inr rfl⟩, hdat⟩
      · simp only [List.getElem?_cons_zero] at hs
        rw [wr_ok (by omega), Res.ok_bind] at hs
        injection hs with hs; subst hs
        refine ⟨j + 1, by omega, rfl, by simpa using hlen, ⟨none, rfl, .inl rfl⟩, ?_⟩
        intro i hi
        by_cases e : i = j
        · subst e; exact List.getElem?_set_self (by omega)
        · show (s.data.set j (draw j))[i]? = _
          rw [List.getElem?_set_ne (fun h => e h.symm)]; exact hdat i (by omega)
    · have hdrop : (List.range N).drop j = [] := List.drop_eq_nil_of_le (by simpa using hjN)
      unfold genStep at hs
      rw [hth, hdrop] at hs
      simp only [List.getElem?_cons_zero] at hs
      injection hs with hs; subst hs
      exact h
  · have : s.th[t]? = none := by rw [hth]; exact List.getElem?_eq_none (by simp; omega)
    unfold genStep at hs
    rw [this] at hs
    injection hs with hs; subst hs
    exact h

theorem GenOne.run {draw : Nat → Bytes} {N : Nat} : ∀ (sched : List Nat) (s s' : GenSt), GenOne draw N s →
    sched.foldlM (genStep draw) s = .ok s' → GenOne draw N s' := by
  intro sched
  induction sched with
  | nil => intro s s' h e; injection e with e; subst e; exact h
  | cons t sched ih =>
    intro s s' h e
    rw [List.foldlM_cons] at e
    obtain ⟨s1, e1, e2⟩ := Res.bind_eq_ok.mp e
    exact ih s1 s' (h.step e1) e2

/-- **C80 (one thread).** With one thread the file holds the first `num_vectors * dim` numbers of the generator, in order. -/
theorem C80_one_thread_partial {P : Type} [DecidableEq P] (p : P) (fs : FS P) (n dim : Nat) (hN : n * dim < 4294967296)
    (draw mem : Nat → Bytes) (hd : ∀ k, (draw k).length = 4) (hm : ∀ i, (mem i).length = 4) (sched : List Nat)
    (he : 2 * (n * dim) ≤ sched.count 0) :
    ∃ ops, randomFile p n dim draw mem [List.range n] sched = .ok ops ∧
      Spec.HoldsCells n dim (runOps ops fs p) ((List.range (n * dim)).map draw) := by
  have hp : [List.range n].flatten.Perm (List.range n) := by simp
  have hen : AllDraw dim [List.range n] sched := by
    intro i rows hi
    cases i with
    | zero => simp at hi; subst hi; simpa using he
    | succ i => simp at hi
  obtain ⟨s, hs, hi⟩ := (GenInv.start (draw := draw) hN hm hp).run hd sched
  have hdone := all_done hs hen
  have h0 : GenOne draw (n * dim) (genStart n dim mem [List.range n]) :=
    ⟨0, by omega, rfl, by simp [genStart, u32, Nat.mod_eq_of_lt hN], ⟨none, by simp [genStart, rowCells_range hN], .inl rfl⟩, by omega⟩
  obtain ⟨j, hj, -, hlen, ⟨o, hth, -⟩, hdat⟩ := (h0.run sched _ _ hs).ex
  have hjN : j = n * dim := by
    have := hdone ⟨(List.range (n * dim)).drop j, o⟩ (by rw [hth]; simp)
    have := List.drop_eq_nil_iff.mp this
    simp at this
    omega
  have hdata : s.data = (List.range (n * dim)).map draw := by
    apply List.ext_getElem?
    intro i
    by_cases h : i < n * dim
    · rw [hdat i (by omega), List.getElem?_map, List.getElem?_range h]; rfl
    · rw [List.getElem?_eq_none (by omega), List.getElem?_eq_none (by simp; omega)]
  obtain ⟨ops, h1, h2⟩ := randomFile_eq p fs hs hdone hi.len hi.four
  exact ⟨ops, h1, hdata ▸ h2⟩

/-! ## Two threads -/

/-- Two threads draw the same number: both read the state before either writes it. -/
theorem pair_run {draw : Nat → Bytes} : ∀ (A B : List Nat) (k : Nat) (data : List Bytes), A.length = B.length → (A ++ B).Nodup →
    (∀ c ∈ A ++ B, c < data.length) →
    ∃ data', ((List.replicate A.length [0, 1, 0, 1]).flatten).foldlM (genStep draw) ⟨k, data, [⟨A, none⟩, ⟨B, none⟩]⟩ =
        .ok ⟨k + A.length, data', [⟨[], none⟩, ⟨[], none⟩]⟩ ∧ data'.length = data.length ∧
      (∀ i a, A[i]? = some a → data'[a]? = some (draw (k + i))) ∧ (∀ i b, B[i]? = some b → data'[b]? = some (draw (k + i))) ∧
      ∀ c, c ∉ A ++ B → data'[c]? = data[c]? := by
  intro A
  induction A with
  | nil =>
    intro B k data hl _ _
    have : B = [] := List.eq_nil_of_length_eq_zero hl.symm
    subst this
    exact ⟨data, rfl, rfl, by simp, by simp, fun _ _ => rfl⟩
  | cons a A ih =>
    intro B k data hl hnd hlt
    cases B with
    | nil => simp at hl
    | cons b B =>
      have ha : a < data.length := hlt a (by simp)
      have hb : b < data.length := hlt b (by simp)
      rw [List.nodup_append] at hnd
      obtain ⟨hA, hB, hAB⟩ := hnd
      obtain ⟨haA, hA⟩ := List.nodup_cons.mp hA
      obtain ⟨hbB, hB⟩ := List.nodup_cons.mp hB
      have hab : a ≠ b := hAB a (by simp) b (by simp)
      obtain ⟨data', h1, h2, h3, h4, h5⟩ := ih B (k + 1) ((data.set a (draw k)).set b (draw k)) (by simpa using hl)
        (by
          rw [List.nodup_append]
          exact ⟨hA, hB, fun x hx y hy => hAB x (by simp [hx]) y (by simp [hy])⟩)
        (by
          intro c hc
          rw [List.length_set, List.length_set]
          apply hlt
          simp only [List.mem_append, List.mem_cons] at hc ⊢
          rcases hc with hc | hc <;> simp [hc])
      have hna : a ∉ A ++ B := by
        simp only [List.mem_append, not_or]
        exact ⟨haA, fun h => hAB a (by simp) a (by simp [h]) rfl⟩
      have hnb : b ∉ A ++ B := by
        simp only [List.mem_append, not_or]
        exact ⟨fun h => hAB b (by simp [h]) b (by simp) rfl, hbB⟩
      refine ⟨data', ?_, by rw [h2]; simp, ?_, ?_, ?_⟩
      · rw [List.length_cons, List.replicate_succ, List.flatten_cons, List.foldlM_append]
        have e : ([0, 1, 0, 1] : List Nat).foldlM (genStep draw) ⟨k, data, [⟨a :: A, none⟩, ⟨b :: B, none⟩]⟩ =
            .ok ⟨k + 1, (data.set a (draw k)).set b (draw k), [⟨A, none⟩, ⟨B, none⟩]⟩ := by
          simp only [List.foldlM_cons, List.foldlM_nil]
          simp only [genStep, List.getElem?_cons_zero, List.getElem?_cons_succ, List.set_cons_zero, List.set_cons_succ, Res.ok_bind]
          rw [wr_ok ha, Res.ok_bind, Res.ok_bind]
          simp only [List.getElem?_cons_zero, List.getElem?_cons_succ, List.set_cons_zero, List.set_cons_succ]
          rw [wr_ok (by simpa using hb)]
          rfl
        rw [e, Res.ok_bind, h1]
        congr 2
        omega
      · intro i x hx
        cases i with
        | zero =>
          simp at hx; subst hx
          rw [h5 _ hna, List.getElem?_set_ne hab.symm, List.getElem?_set_self ha]; rfl
        | succ i =>
          rw [h3 i x (by simpa using hx)]
          congr 2
          omega
      · intro i x hx
        cases i with
        | zero =>
          simp at hx; subst hx
          rw [h5 _ hnb, List.getElem?_set_self (by simpa using hb)]; rfl
        | succ i =>
          rw [h4 i x (by simpa using hx)]
          congr 2
          omega
      · intro c hc
        simp only [List.mem_append, List.mem_cons, not_or] at hc
        rw [h5 c (by simp [hc]), List.getElem?_set_ne (fun h => hc.2.1 h.symm), List.getElem?_set_ne (fun h => hc.1.1 h.symm)]

theorem rowCells_append (dim : Nat) (A B : List Nat) : rowCells dim (A ++ B) = rowCells dim A ++ rowCells dim B := by
  unfold rowCells; rw [List.flatMap_append]

theorem rowCells_get {n dim : Nat} (hN : n * dim < 4294967296) : ∀ (A : List Nat), (∀ a ∈ A, a < n) → ∀ (i a j : Nat), A[i]? = some a →
    j < dim → (rowCells dim A)[i * dim + j]? = some (a * dim + j) := by
  intro A
  induction A with
  | nil => intro _ i a j h; simp at h
  | cons x A ih =>
    intro hA i a j h hj
    have e : rowCells dim (x :: A) = (List.range dim).map (cellIdx dim x) ++ rowCells dim A := rfl
    rw [e]
    cases i with
    | zero =>
      simp at h; subst h
      rw [Nat.zero_mul, Nat.zero_add, List.getElem?_append_left (by simpa using hj), List.getElem?_map, List.getElem?_range hj]
      exact congrArg some (cellIdx_eq hN (hA x (by simp)) hj)
    | succ i =>
      rw [List.getElem?_append_right (by simp [Nat.add_mul]; omega)]
      have : (i + 1) * dim + j - ((List.range dim).map (cellIdx dim x)).length = i * dim + j := by
        rw [List.length_map, List.length_range, Nat.add_mul]; omega
      rw [this]
      exact ih (fun a ha => hA a (by simp [ha])) i a j (by simpa using h) hj

theorem count_pairs (m i : Nat) : ((List.replicate m [0, 1, 0, 1]).flatten).count i = m * ([0, 1, 0, 1] : List Nat).count i := by
  induction m with
  | zero => simp
  | succ m ih => rw [List.replicate_succ, List.flatten_cons, List.count_append, ih, Nat.add_mul]; omega

/-- **C80 is false with several threads.** If two threads share the iterations equally, there is a schedule, with all accesses of all
iterations, after which every vector of the first thread has a copy among those of the second: half of the data set are duplicates,
whatever the generator yields. -/
theorem C80_duplicates {P : Type} [DecidableEq P] (p : P) (fs : FS P) (n dim : Nat) (hN : n * dim < 4294967296)
    (draw mem : Nat → Bytes) (hd : ∀ k, (draw k).length = 4) (hm : ∀ i, (mem i).length = 4) (A B : List Nat)
    (hAB : A.length = B.length) (hp : (A ++ B).Perm (List.range n)) :
    ∃ sched ops cells, AllDraw dim [A, B] sched ∧ randomFile p n dim draw mem [A, B] sched = .ok ops ∧
      Spec.HoldsCells n dim (runOps ops fs p) cells ∧
      ∀ i a b : Nat, A[i]? = some a → B[i]? = some b → a ≠ b ∧ ∀ j < dim, ∃ x, cells[a * dim + j]? = some x ∧ cells[b * dim + j]? = some x := by
  have hmem : ∀ i, i ∈ A ++ B ↔ i < n := fun i => by rw [hp.mem_iff, List.mem_range]
  have hcells : (rowCells dim A ++ rowCells dim B).Perm (List.range (n * dim)) := by
    rw [← rowCells_append, ← rowCells_range hN]
    exact hp.flatMap_right _
  have hlen : (rowCells dim A).length = (rowCells dim B).length := by rw [rowCells_length, rowCells_length, hAB]
  obtain ⟨data, h1, h2, h3, h4, -⟩ := pair_run (draw := draw) (rowCells dim A) (rowCells dim B) 0 ((List.range (n * dim)).map mem) hlen
    (hcells.nodup_iff.mpr List.nodup_range) (by
      intro c hc
      simpa using hcells.mem_iff.mp hc)
  have hs : ((List.replicate (rowCells dim A).length [0, 1, 0, 1]).flatten).foldlM (genStep draw) (genStart n dim mem [A, B]) =
      .ok ⟨0 + (rowCells dim A).length, data, [⟨[], none⟩, ⟨[], none⟩]⟩ := by
    unfold genStart
    rw [show u32 (n * dim) = n * dim from Nat.mod_eq_of_lt hN]
    exact h1
  have hen : AllDraw dim [A, B] ((List.replicate (rowCells dim A).length [0, 1, 0, 1]).flatten) := by
    intro i rows hi
    rw [count_pairs, rowCells_length]
    match i with
    | 0 => simp at hi; subst hi; simp; omega
    | 1 => simp at hi; subst hi; simp [hAB]; omega
    | i + 2 => simp at hi
  obtain ⟨s, hs', hi⟩ := (GenInv.start (draw := draw) (parts := [A, B]) hN hm (by simpa using hp)).run hd
    ((List.replicate (rowCells dim A).length [0, 1, 0, 1]).flatten)
  rw [hs] at hs'
  injection hs' with hs'; subst hs'
  obtain ⟨ops, e1, e2⟩ := randomFile_eq p fs hs (by simp) hi.len hi.four
  refine ⟨_, ops, data, hen, e1, e2, ?_⟩
  intro i a b ha hb
  constructor
  · rintro rfl
    have hnd := hp.nodup_iff.mpr List.nodup_range
    rw [List.nodup_append] at hnd
    exact hnd.2.2 a (List.mem_of_getElem? ha) a (List.mem_of_getElem? hb) rfl
  · intro j hj
    refine ⟨draw (0 + (i * dim + j)), h3 _ _ ?_, h4 _ _ ?_⟩
    · exact rowCells_get hN A (fun a h => (hmem a).mp (by simp [h])) i a j ha hj
    · exact rowCells_get hN B (fun a h => (hmem a).mp (by simp [h])) i b j hb hj

/-! ## Examples -/

/-- The little-endian bytes of the number of the draw. -/
def exDraw (k : Nat) : Bytes := le 4 k

theorem le4_length (k : Nat) : (le 4 k).length = 4 := by simp [le]

/-- Two vectors of dimension 2, one thread. -/
example : ∃ ops, randomFile () 2 2 exDraw (le 4) [List.range 2] (List.replicate 8 0) = .ok ops ∧
    Spec.HoldsCells 2 2 (runOps ops (fun _ => none) ()) ((List.range 4).map exDraw) :=
  C80_one_thread_partial () (fun _ => none) 2 2 (by omega) exDraw (le 4) le4_length le4_length (List.replicate 8 0) (by decide)

/-- The same with two threads and the unlucky schedule. -/
example : randomFile () 2 2 exDraw (le 4) [[0], [1]] [0, 1, 0, 1, 0, 1, 0, 1] =
    .ok (saveBin () 2 2 [0, 0, 0, 0, 1, 0, 0, 0, 0, 0, 0, 0, 1, 0, 0, 0]) := by rfl

/-- 128 vectors of dimension 3 in two chunks of 64. -/
example : ∃ sched ops cells, AllDraw 3 [List.range' 0 64, List.range' 64 64] sched ∧
    randomFile () 128 3 exDraw (le 4) [List.range' 0 64, List.range' 64 64] sched = .ok ops ∧
    Spec.HoldsCells 128 3 (runOps ops (fun _ => none) ()) cells ∧
    ∀ i a b : Nat, (List.range' 0 64)[i]? = some a → (List.range' 64 64)[i]? = some b →
      a ≠ b ∧ ∀ j < 3, ∃ x, cells[a * 3 + j]? = some x ∧ cells[b * 3 + j]? = some x :=
  C80_duplicates () (fun _ => none) 128 3 (by omega) exDraw (le 4) le4_length le4_length _ _ (by simp)
    (by rw [List.range_eq_range', List.range'_append_1])

/-- The hypotheses of `C80_defined` for three vectors, two threads and some schedule. -/
example : ∃ ops cells, randomFile () 3 1 exDraw (le 4) [[0, 1], [2]] [0, 1, 0, 0, 1, 0] = .ok ops ∧
    Spec.HoldsCells 3 1 (runOps ops (fun _ => none) ()) cells ∧ ∀ c ∈ cells, ∃ k, c = exDraw k :=
  C80_defined () (fun _ => none) 3 1 (by omega) exDraw (le 4) le4_length le4_length [[0, 1], [2]] (by decide) _ (by
    intro i rows hi
    match i with
    | 0 => simp at hi; subst hi; decide
    | 1 => simp at hi; subst hi; decide
    | i + 2 => simp at hi)

/-- Forty million vectors of dimension 128 are too many. -/
example (sched : List Nat) (ops : List (FOp Unit)) :
    randomFile () 40000000 128 exDraw (le 4) [List.range 40000000] sched ≠ .ok ops :=
  (C80_too_large () 40000000 128 (by omega) (by omega) exDraw (le 4) _ (by simp) sched).2 ops

/-! ## The theorems applied to the examples -/

/-- Some schedule that stops halfway. -/
example := C80_safe () 3 1 (by omega) exDraw (le 4) le4_length le4_length [[0, 1], [2]] (by decide) [0, 1, 0]

end Grann
