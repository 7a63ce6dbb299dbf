import Verif.Proofs.Lifecycle
/-!
# Lemmas about the lifetime of HNSW objects
-/

namespace Grann

/-- The pointers of one level: only `_data` may be uninitialised. -/
structure LevWf (x : Idx) : Prop where
  dist : ∃ b, x.dist = .mem b
  distF : ∃ b, x.distF = .mem b
  tags : x.tags ≠ .uninit
  cent : x.centers = .uninit

/-- The blocks a chain of levels is responsible for. -/
def Hn.own : Hn → List (Nat × Alloc)
  | .bot x => x.own .arr
  | .nul x _ => x.own .arr
  | .on x b i => i.own ++ ((b, .obj) :: x.own .arr)

def Hn.Wf : Hn → Prop
  | .bot x => LevWf x
  | .nul x _ => LevWf x
  | .on x _ i => LevWf x ∧ i.Wf

/-- All levels have their vectors. -/
def Hn.Ready : Hn → Prop
  | .bot x => x.data ≠ .uninit
  | .nul x _ => x.data ≠ .uninit
  | .on x _ i => x.data ≠ .uninit ∧ i.Ready

/-- A level that has its vectors lies over levels that have theirs. -/
def Hn.Mono : Hn → Prop
  | .bot _ => True
  | .nul _ _ => True
  | .on x _ i => (x.data ≠ .uninit → i.Ready) ∧ i.Mono

/-- No level above 0 lacks its inner index. -/
def Hn.Full : Hn → Prop
  | .bot _ => True
  | .nul _ _ => False
  | .on _ _ i => i.Full

theorem Hn.Ready.top : ∀ {o : Hn}, o.Ready → o.top.data ≠ .uninit
  | .bot _, h => h
  | .nul _ _, h => h
  | .on _ _ _, h => h.1

theorem Hn.Mono.ready : ∀ {o : Hn}, o.Mono → o.top.data ≠ .uninit → o.Ready
  | .bot _, _, h => h
  | .nul _ _, _, h => h
  | .on _ _ _, hm, h => ⟨h, hm.1 h⟩

theorem own_eq {x : Idx} (hw : LevWf x) :
    x.own .arr = x.dist.blk .obj ++ (x.distF.blk .obj ++ (x.data.blk .malloc ++ x.tags.blk .arr)) := by
  simp [Idx.own, hw.cent, Ptr.blk.eq_2]

theorem ofData_lev {h : Heap} {F : List (Nat × Alloc)} (hg : Good h F) :
    LevWf (Idx.ofData h).1 ∧ (Idx.ofData h).1.data ≠ .uninit ∧
      Good (Idx.ofData h).2 ((Idx.ofData h).1.own .arr ++ F) := by
  obtain ⟨a, b, c, d, e, lost, hl, g⟩ := rel_ofData hg
  have : lost = [] := List.length_eq_zero_iff.1 hl
  subst this
  exact ⟨⟨a, b, by simp [Idx.ofData, Heap.alloc], e⟩, by simp [Idx.ofData, Heap.alloc], g⟩

theorem empty_lev {h : Heap} {F : List (Nat × Alloc)} (hg : Good h F) :
    LevWf (Idx.empty h).1 ∧ (Idx.empty h).1.data = .uninit ∧
      Good (Idx.empty h).2 ((Idx.empty h).1.own .arr ++ F) := by
  obtain ⟨a, b, c, d, e, lost, hl, g⟩ := rel_empty hg
  have : lost = [] := List.length_eq_zero_iff.1 hl
  subst this
  exact ⟨⟨a, b, by simp [Idx.empty], e⟩, by simp [Idx.empty], g⟩

theorem load_lev {x : Idx} {h : Heap} {F : List (Nat × Alloc)} (n : Nat) (hw : LevWf x)
    (hg : Good h (x.own .arr ++ F)) :
    LevWf (x.load false n h).1 ∧ ((x.load false n h).1.data ≠ .uninit ↔ x.data ≠ .uninit ∨ 0 < n) ∧
      ∃ lost, Good (x.load false n h).2 ((x.load false n h).1.own .arr ++ (lost ++ F)) := by
  obtain ⟨d, f, t, c⟩ := hw
  have hd : ∀ y : Idx, ∀ g : Heap, ∀ G, LevWf y → Good g (y.own .arr ++ G) →
      LevWf (y.loadData g).1 ∧ (y.loadData g).1.data ≠ .uninit ∧
      Good (y.loadData g).2 ((y.loadData g).1.own .arr ++ (y.data.blk .malloc ++ G)) := by
    intro y g G hy hgG
    refine ⟨⟨hy.dist, hy.distF, hy.tags, hy.cent⟩, by simp [Idx.loadData, Heap.alloc], ?_⟩
    refine (hgG.alloc .malloc).perm ?_
    simp only [Idx.own, Idx.loadData, Ptr.blk.eq_1, Heap.alloc, List.perm_iff_count]
    intro q
    simp only [List.count_cons, List.count_append, List.count_nil]
    omega
  have ht : ∀ y : Idx, ∀ g : Heap, ∀ G, LevWf y → Good g (y.own .arr ++ G) →
      LevWf (y.loadTags g).1 ∧
      Good (y.loadTags g).2 ((y.loadTags g).1.own .arr ++ (y.tags.blk .arr ++ G)) := by
    intro y g G hy hgG
    refine ⟨⟨hy.dist, hy.distF, by simp [Idx.loadTags, Heap.alloc], hy.cent⟩, ?_⟩
    refine (hgG.alloc .arr).perm ?_
    simp only [Idx.own, Idx.loadTags, Ptr.blk.eq_1, Heap.alloc, List.perm_iff_count]
    intro q
    simp only [List.count_cons, List.count_append, List.count_nil]
    omega
  unfold Idx.load
  simp only [Bool.false_eq_true, and_false, if_false]
  by_cases h0 : 0 < n
  · simp only [if_pos h0]
    obtain ⟨w1, d1, g1⟩ := hd x h F ⟨d, f, t, c⟩ hg
    by_cases h1 : 1 < n
    · simp only [if_pos h1]
      obtain ⟨w2, g2⟩ := ht _ _ _ w1 g1
      refine ⟨w2, ⟨fun _ => .inr h0, fun _ => d1⟩, (x.loadData h).1.tags.blk .arr ++ x.data.blk .malloc, ?_⟩
      simpa only [List.append_assoc] using g2
    · simp only [if_neg h1]
      exact ⟨w1, ⟨fun _ => .inr h0, fun _ => d1⟩, _, g1⟩
  · have h1 : ¬ 1 < n := by omega
    simp only [if_neg h0, if_neg h1]
    exact ⟨⟨d, f, t, c⟩, ⟨fun h => .inl h, fun h => h.elim id (fun h => absurd h h0)⟩, [], hg⟩

theorem hn_empty : ∀ (n : Nat) (h : Heap) (F : List (Nat × Alloc)), Good h F →
    (Hn.empty n h).1.Wf ∧ (Hn.empty n h).1.Full ∧ (Hn.empty n h).1.Mono ∧ (Hn.empty n h).1.level = n ∧
      (Hn.empty n h).1.top.data = .uninit ∧ Good (Hn.empty n h).2 ((Hn.empty n h).1.own ++ F)
  | 0, h, F, hg => by
    obtain ⟨w, d, g⟩ := empty_lev hg
    exact ⟨w, trivial, trivial, rfl, d, g⟩
  | n + 1, h, F, hg => by
    obtain ⟨w, d, g⟩ := empty_lev hg
    obtain ⟨w', f', m', l', _, g'⟩ := hn_empty n _ _ (g.alloc .obj)
    refine ⟨⟨w, w'⟩, f', ⟨fun h => absurd d h, m'⟩, ?_, d, ?_⟩
    · simp only [Hn.empty, Hn.level, l']
    · simpa only [Hn.empty, Hn.own, List.append_assoc, List.cons_append] using g'

theorem hn_built : ∀ (n : Nat) (h : Heap) (F : List (Nat × Alloc)), Good h F →
    (Hn.built n h).1.Wf ∧ (Hn.built n h).1.Full ∧ (Hn.built n h).1.Mono ∧ (Hn.built n h).1.level = n ∧
      (Hn.built n h).1.Ready ∧ Good (Hn.built n h).2 ((Hn.built n h).1.own ++ F)
  | 0, h, F, hg => by
    obtain ⟨w, d, g⟩ := ofData_lev hg
    exact ⟨w, trivial, trivial, rfl, d, g⟩
  | n + 1, h, F, hg => by
    obtain ⟨w, d, g⟩ := ofData_lev hg
    obtain ⟨w', f', m', l', r', g'⟩ := hn_built n _ _ (g.alloc .obj)
    refine ⟨⟨w, w'⟩, f', ⟨fun _ => r', m'⟩, ?_, ⟨d, r'⟩, ?_⟩
    · simp only [Hn.built, Hn.level, l']
    · simpa only [Hn.built, Hn.own, List.append_assoc, List.cons_append] using g'

theorem hn_load (ns : Nat → Nat) : ∀ (o : Hn) (h : Heap) (F : List (Nat × Alloc)), o.Wf → o.Full → o.Mono →
    Good h (o.own ++ F) →
    ∃ o' h' b lost, o.load ns h = .ok (o', h', b) ∧ o'.Wf ∧ o'.Full ∧ o'.Mono ∧ o'.level = o.level ∧
      (o.Ready → o'.Ready) ∧ (b = true ↔ ∀ j ≤ o.level, 1 < ns j) ∧
      (o'.top.data ≠ .uninit ↔ o.top.data ≠ .uninit ∨ (0 < ns o.level ∧ ∀ j < o.level, 1 < ns j)) ∧
      Good h' (o'.own ++ (lost ++ F))
  | .nul _ _, _, _, _, hf, _, _ => hf.elim
  | .bot x, h, F, hw, _, _, hg => by
    obtain ⟨w, d, lost, g⟩ := load_lev (ns 0) hw hg
    refine ⟨_, _, _, lost, rfl, w, trivial, trivial, rfl, ?_, ?_, ?_, g⟩
    · intro hr
      exact d.2 (.inl hr)
    · simp [Hn.level]
    · simpa [Hn.level, Hn.top] using d
  | .on x b i, h, F, hw, hf, hm, hg => by
    have hg1 : Good h (i.own ++ ((b, .obj) :: (x.own .arr ++ F))) := by
      simpa only [Hn.own, List.append_assoc, List.cons_append] using hg
    obtain ⟨i', h', bb, l1, e1, w1, f1, m1, lv1, r1, b1, t1, g1⟩ := hn_load ns i h _ hw.2 hf hm.2 hg1
    simp only [Hn.load, e1, Res.ok_bind]
    by_cases hb : bb = true
    · rw [if_pos hb]
      have hall := b1.1 hb
      have hi : i'.Ready := m1.ready (t1.2 (.inr ⟨by have := hall i.level (Nat.le_refl _); omega,
        fun j hj => hall j (by omega)⟩))
      have hg2 : Good h' (x.own .arr ++ (i'.own ++ ((b, .obj) :: (l1 ++ F)))) := by
        refine g1.perm ?_
        simp only [List.perm_iff_count]
        intro q
        simp only [List.count_cons, List.count_append]
        omega
      obtain ⟨w, d, l2, g⟩ := load_lev (ns (i.level + 1)) hw.1 hg2
      refine ⟨_, _, _, l2 ++ l1, rfl, ⟨w, w1⟩, f1, ⟨fun _ => hi, m1⟩, ?_, ?_, ?_, ?_, ?_⟩
      · simp only [Hn.level, lv1]
      · intro hr
        exact ⟨d.2 (.inl hr.1), hi⟩
      · rw [decide_eq_true_iff]
        simp only [Hn.level]
        constructor
        · intro h1 j hj
          by_cases hj' : j ≤ i.level
          · exact hall j hj'
          · have : j = i.level + 1 := by omega
            rw [this]
            exact h1
        · intro h1
          exact h1 _ (Nat.le_refl _)
      · simp only [Hn.top, Hn.level]
        rw [d]
        constructor
        · rintro (h1 | h1)
          · exact .inl h1
          · exact .inr ⟨h1, fun j hj => hall j (by omega)⟩
        · rintro (h1 | h1)
          · exact .inl h1
          · exact .inr h1.1
      · refine g.perm ?_
        simp only [Hn.own, List.perm_iff_count]
        intro q
        simp only [List.count_cons, List.count_append]
        omega
    · rw [if_neg hb]
      have hnall : ¬ ∀ j ≤ i.level, 1 < ns j := fun h => hb (b1.2 h)
      refine ⟨_, _, _, l1, rfl, ⟨hw.1, w1⟩, f1, ⟨fun hx => r1 (hm.1 hx), m1⟩, ?_, ?_, ?_, ?_, ?_⟩
      · simp only [Hn.level, lv1]
      · intro hr
        exact ⟨hr.1, r1 hr.2⟩
      · simp only [Hn.level, Bool.false_eq_true, false_iff]
        intro h1
        exact hnall (fun j hj => h1 j (by omega))
      · simp only [Hn.top, Hn.level]
        constructor
        · exact .inl
        · rintro (h1 | h1)
          · exact h1
          · exact absurd (fun j hj => h1.2 j (by omega)) hnall
      · refine g1.perm ?_
        simp only [Hn.own, List.perm_iff_count]
        intro q
        simp only [List.count_cons, List.count_append]
        omega

/-- `build` of an object with vectors. -/
theorem hn_build {o : Hn} {h : Heap} {F : List (Nat × Alloc)} (hw : o.Wf) (hr : o.Ready)
    (hg : Good h (o.own ++ F)) :
    ∃ o' h' lost, o.build true h = .ok (o', h') ∧ o'.Wf ∧ o'.Full ∧ o'.Mono ∧ o'.level = o.level ∧ o'.Ready ∧
      Good h' (o'.own ++ (lost ++ F)) := by
  have ht := hr.top
  unfold Hn.build
  rw [if_neg (by simp), if_neg ht]
  cases o with
  | bot x => exact ⟨_, _, [], rfl, hw, trivial, trivial, rfl, hr, hg⟩
  | nul x n =>
    obtain ⟨w', f', m', l', r', g'⟩ := hn_built n _ _ (hg.alloc .obj)
    refine ⟨_, _, [], rfl, ⟨hw, w'⟩, f', ⟨fun _ => r', m'⟩, ?_, ⟨hr, r'⟩, ?_⟩
    · simp only [Hn.level, l']
    · simpa only [Hn.own, List.append_assoc, List.cons_append, List.nil_append] using g'
  | on x b i =>
    obtain ⟨w', f', m', l', r', g'⟩ := hn_built i.level _ _ (hg.alloc .obj)
    refine ⟨_, _, i.own ++ [(b, .obj)], rfl, ⟨hw.1, w'⟩, f', ⟨fun _ => r', m'⟩, ?_, ⟨hr.1, r'⟩, ?_⟩
    · simp only [Hn.level, l']
    · refine g'.perm ?_
      simp only [Hn.own, List.perm_iff_count]
      intro q
      simp only [List.count_cons, List.count_append, List.count_nil]
      omega

/-- The destructors are well defined exactly if every level has its vectors. -/
theorem hn_destroy : ∀ (o : Hn) (h : Heap) (F : List (Nat × Alloc)), o.Wf → Good h (o.own ++ F) →
    (o.Ready → ∃ h', o.destroy h = .ok h' ∧ Good h' F) ∧ (¬ o.Ready → o.destroy h = .error .ub)
  | .bot x, h, F, hw, hg => by
    simp only [Hn.own, own_eq hw, List.append_assoc] at hg
    have := destroy_base hw.dist hw.distF hw.tags hg
    exact ⟨this.1, fun hn => this.2 (not_not.1 hn)⟩
  | .nul x _, h, F, hw, hg => by
    simp only [Hn.own, own_eq hw, List.append_assoc] at hg
    have := destroy_base hw.dist hw.distF hw.tags hg
    exact ⟨this.1, fun hn => this.2 (not_not.1 hn)⟩
  | .on x b i, h, F, hw, hg => by
    have hg1 : Good h (i.own ++ ((b, .obj) :: (x.own .arr ++ F))) := by
      simpa only [Hn.own, List.append_assoc, List.cons_append] using hg
    have ih := hn_destroy i h _ hw.2 hg1
    by_cases hi : i.Ready
    · obtain ⟨h1, e1, g1⟩ := ih.1 hi
      obtain ⟨h2, e2, g2⟩ := Good.free (p := .mem b) (k := .obj) (r := x.own .arr ++ F) (by simp) g1
      simp only [own_eq hw.1, List.append_assoc] at g2
      have hb := destroy_base hw.1.dist hw.1.distF hw.1.tags g2
      simp only [Hn.destroy, e1, e2, Res.ok_bind]
      exact ⟨fun hr => hb.1 hr.1, fun hn => hb.2 (not_not.1 fun hx => hn ⟨hx, hi⟩)⟩
    · simp only [Hn.destroy, ih.2 hi, Res.err_bind]
      exact ⟨fun hr => absurd hr.2 hi, fun _ => trivial⟩

end Grann
