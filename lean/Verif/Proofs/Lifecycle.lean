import Mathlib.Data.List.Perm.Basic
import Mathlib.Data.List.Nodup
import Mathlib.Data.List.Count
import Verif.Model.Lifecycle
/-!
# Lemmas about heaps and object lifetimes
-/

namespace Grann

/-- The live blocks are those of `l`, they are different, and the next number is free. -/
def Good (h : Heap) (l : List (Nat × Alloc)) : Prop :=
  h.live.Perm l ∧ (l.map Prod.fst).Nodup ∧ ∀ q ∈ l, q.1 < h.next

theorem Good.perm {h : Heap} {l m : List (Nat × Alloc)} (hg : Good h l) (hp : l.Perm m) : Good h m :=
  ⟨hg.1.trans hp, (hp.map _).nodup_iff.1 hg.2.1, fun q hq => hg.2.2 q (hp.mem_iff.2 hq)⟩

theorem Good.alloc {h : Heap} {l : List (Nat × Alloc)} (hg : Good h l) (k : Alloc) :
    Good (h.alloc k).2 ((h.next, k) :: l) := by
  refine ⟨hg.1.cons _, ?_, ?_⟩
  · rw [List.map_cons, List.nodup_cons]
    refine ⟨?_, hg.2.1⟩
    intro hm
    obtain ⟨q, hq, hqe⟩ := List.mem_map.1 hm
    have := hg.2.2 q hq
    simp only at hqe
    omega
  · intro q hq
    simp only [Heap.alloc]
    rcases List.mem_cons.1 hq with rfl | hq
    · simp
    · have := hg.2.2 q hq
      omega

/-- The blocks a pointer stands for. -/
def Ptr.blk (p : Ptr) (k : Alloc) : List (Nat × Alloc) :=
  match p with
  | .mem b => [(b, k)]
  | _ => []

theorem Good.free {h : Heap} {p : Ptr} {k : Alloc} {r : List (Nat × Alloc)} (hp : p ≠ .uninit)
    (hg : Good h (p.blk k ++ r)) : ∃ h', h.free k p = .ok h' ∧ Good h' r := by
  cases p with
  | uninit => exact absurd rfl hp
  | null => exact ⟨h, rfl, hg⟩
  | mem b =>
    have hmem : (b, k) ∈ h.live := hg.1.mem_iff.2 (by simp [Ptr.blk])
    refine ⟨{ h with live := h.live.erase (b, k) }, by rw [Heap.free, if_pos hmem], ?_, ?_, ?_⟩
    · have := hg.1.erase (b, k)
      simpa [Ptr.blk] using this
    · have := hg.2.1
      simp only [Ptr.blk, List.cons_append, List.nil_append, List.map_cons, List.nodup_cons] at this
      exact this.2
    · intro q hq
      exact hg.2.2 q (by simp [Ptr.blk, hq])

theorem Good.free_wrong {h : Heap} {b : Nat} {k k' : Alloc} {r : List (Nat × Alloc)} (hk : k ≠ k')
    (hg : Good h ((b, k') :: r)) : h.free k (.mem b) = .error .ub := by
  rw [Heap.free, if_neg]
  intro hm
  have hm := hg.1.mem_iff.1 hm
  have hn := hg.2.1
  rw [List.map_cons, List.nodup_cons] at hn
  rcases List.mem_cons.1 hm with he | hm
  · exact hk (by simpa using he)
  · exact hn.1 (List.mem_map.2 ⟨_, hm, rfl⟩)

/-- The blocks an object is responsible for; `ck` is how its centres were allocated. -/
def Idx.own (x : Idx) (ck : Alloc) : List (Nat × Alloc) :=
  x.centers.blk ck ++ (x.dist.blk .obj ++ (x.distF.blk .obj ++ (x.data.blk .malloc ++ x.tags.blk .arr)))

/-- What matters about an object: whether data and tags are there, how the centres were allocated, and how many blocks
were lost. -/
structure Abs where
  d : Bool
  t : Bool
  c : Option Alloc
  lost : Nat
  deriving DecidableEq, Repr

def Abs.ck (a : Abs) : Alloc := a.c.getD .arr

def Abs.load (ivf : Bool) (n : Nat) (a : Abs) : Abs :=
  let a := if 0 < n then { a with d := true, lost := a.lost + a.d.toNat } else a
  let a := if 1 < n then { a with t := true, lost := a.lost + a.t.toNat } else a
  if 2 < n ∧ ivf then { a with c := some .malloc, lost := a.lost + a.c.isSome.toNat } else a

def Abs.step (ivf : Bool) (a : Abs) : Ev → Res Abs
  | .build ok =>
    if ok = false then .ok a
    else if a.d = false then .error .ub
    else if ivf then .ok { a with c := some .arr, lost := a.lost + a.c.isSome.toNat }
    else .ok a
  | .load n => .ok (a.load ivf n)

/-- `a` describes the object `x` in the heap `h`, the rest of which is `F`. -/
structure Rel (a : Abs) (x : Idx) (h : Heap) (F : List (Nat × Alloc)) : Prop where
  dist : ∃ b, x.dist = .mem b
  distF : ∃ b, x.distF = .mem b
  data : if a.d then ∃ b, x.data = .mem b else x.data = .uninit
  tags : if a.t then ∃ b, x.tags = .mem b else x.tags = .null
  cent : if a.c.isSome then ∃ b, x.centers = .mem b else x.centers = .uninit
  good : ∃ lost, lost.length = a.lost ∧ Good h (x.own a.ck ++ (lost ++ F))

theorem rel_ofData {h : Heap} {F : List (Nat × Alloc)} (hg : Good h F) :
    Rel ⟨true, true, none, 0⟩ (Idx.ofData h).1 (Idx.ofData h).2 F := by
  refine ⟨⟨_, rfl⟩, ⟨_, rfl⟩, ⟨_, rfl⟩, ⟨_, rfl⟩, rfl, [], rfl, ?_⟩
  refine ((((hg.alloc .malloc).alloc .obj).alloc .obj).alloc .arr).perm ?_
  simp only [Idx.own, Idx.ofData, Ptr.blk, Heap.alloc, List.perm_iff_count]
  intro q
  simp only [List.count_cons, List.count_append, List.count_nil]
  omega

theorem rel_empty {h : Heap} {F : List (Nat × Alloc)} (hg : Good h F) :
    Rel ⟨false, false, none, 0⟩ (Idx.empty h).1 (Idx.empty h).2 F := by
  refine ⟨⟨_, rfl⟩, ⟨_, rfl⟩, rfl, rfl, rfl, [], rfl, ?_⟩
  refine ((hg.alloc .obj).alloc .obj).perm ?_
  simp only [Idx.own, Idx.empty, Ptr.blk, Heap.alloc, List.perm_iff_count]
  intro q
  simp only [List.count_cons, List.count_append, List.count_nil]
  omega

theorem rel_loadData {a : Abs} {x : Idx} {h : Heap} {F : List (Nat × Alloc)} (hr : Rel a x h F) :
    Rel { a with d := true, lost := a.lost + a.d.toNat } (x.loadData h).1 (x.loadData h).2 F := by
  obtain ⟨lost, hl, hg⟩ := hr.good
  refine ⟨hr.dist, hr.distF, ⟨_, rfl⟩, hr.tags, hr.cent, x.data.blk .malloc ++ lost, ?_, ?_⟩
  · have := hr.data
    cases hd : a.d
    · rw [hd] at this
      simp only [Bool.false_eq_true, if_false] at this
      simp [this, Ptr.blk, hl]
    · rw [hd] at this
      simp only [if_true] at this
      obtain ⟨b, hb⟩ := this
      simp [hb, Ptr.blk, hl, Nat.add_comm]
  · refine (hg.alloc .malloc).perm ?_
    simp only [Idx.own, Idx.loadData, Ptr.blk.eq_1, Abs.ck, Heap.alloc, List.perm_iff_count]
    intro q
    simp only [List.count_cons, List.count_append, List.count_nil]
    omega

theorem rel_loadTags {a : Abs} {x : Idx} {h : Heap} {F : List (Nat × Alloc)} (hr : Rel a x h F) :
    Rel { a with t := true, lost := a.lost + a.t.toNat } (x.loadTags h).1 (x.loadTags h).2 F := by
  obtain ⟨lost, hl, hg⟩ := hr.good
  refine ⟨hr.dist, hr.distF, hr.data, ⟨_, rfl⟩, hr.cent, x.tags.blk .arr ++ lost, ?_, ?_⟩
  · have := hr.tags
    cases hd : a.t
    · rw [hd] at this
      simp only [Bool.false_eq_true, if_false] at this
      simp [this, Ptr.blk, hl]
    · rw [hd] at this
      simp only [if_true] at this
      obtain ⟨b, hb⟩ := this
      simp [hb, Ptr.blk, hl, Nat.add_comm]
  · refine (hg.alloc .arr).perm ?_
    simp only [Idx.own, Idx.loadTags, Ptr.blk.eq_1, Abs.ck, Heap.alloc, List.perm_iff_count]
    intro q
    simp only [List.count_cons, List.count_append, List.count_nil]
    omega

theorem rel_newCenters {a : Abs} {x : Idx} {h : Heap} {F : List (Nat × Alloc)} (hr : Rel a x h F) (k : Alloc) :
    Rel { a with c := some k, lost := a.lost + a.c.isSome.toNat }
      { x with centers := (h.alloc k).1 } (h.alloc k).2 F := by
  obtain ⟨lost, hl, hg⟩ := hr.good
  refine ⟨hr.dist, hr.distF, hr.data, hr.tags, ⟨_, rfl⟩, x.centers.blk a.ck ++ lost, ?_, ?_⟩
  · have := hr.cent
    cases hd : a.c
    · rw [hd] at this
      simp only [Option.isSome_none, Bool.false_eq_true, if_false] at this
      simp [this, Ptr.blk, hl]
    · rw [hd] at this
      simp only [Option.isSome_some, if_true] at this
      obtain ⟨b, hb⟩ := this
      simp [hb, Ptr.blk, hl, Nat.add_comm]
  · refine (hg.alloc k).perm ?_
    simp only [Idx.own, Ptr.blk.eq_1, Abs.ck, Option.getD_some, Heap.alloc, List.perm_iff_count]
    intro q
    simp only [List.count_cons, List.count_append, List.count_nil]
    omega

theorem rel_load {a : Abs} {x : Idx} {h : Heap} {F : List (Nat × Alloc)} (ivf : Bool) (n : Nat) (hr : Rel a x h F) :
    Rel (a.load ivf n) (x.load ivf n h).1 (x.load ivf n h).2 F := by
  unfold Abs.load Idx.load
  by_cases h0 : 0 < n
  · simp only [if_pos h0]
    have h1 := rel_loadData hr
    by_cases h1' : 1 < n
    · simp only [if_pos h1']
      have h2 := rel_loadTags h1
      by_cases h2' : 2 < n ∧ ivf = true
      · rw [if_pos h2', if_pos h2']
        exact rel_newCenters h2 .malloc
      · rw [if_neg h2', if_neg h2']
        exact h2
    · have h2' : ¬ (2 < n ∧ ivf = true) := fun h => h1' (by omega)
      simp only [if_neg h1', if_neg h2']
      exact h1
  · have h1' : ¬ 1 < n := by omega
    have h2' : ¬ (2 < n ∧ ivf = true) := fun h => h1' (by omega)
    simp only [if_neg h0, if_neg h1', if_neg h2']
    exact hr

theorem Rel.data_uninit {a : Abs} {x : Idx} {h : Heap} {F : List (Nat × Alloc)} (hr : Rel a x h F) :
    x.data = .uninit ↔ a.d = false := by
  have := hr.data
  cases hd : a.d
  · rw [hd] at this
    simpa using this
  · rw [hd] at this
    simp only [if_true] at this
    obtain ⟨b, hb⟩ := this
    simp [hb]

/-- The abstract run describes the concrete one. -/
theorem rel_run (ivf : Bool) (F : List (Nat × Alloc)) :
    ∀ (evs : List Ev) (a : Abs) (x : Idx) (h : Heap), Rel a x h F →
      (evs.foldlM (Abs.step ivf) a = .error .ub ∧ evs.foldlM (Idx.step ivf) (x, h) = .error .ub) ∨
      ∃ a' x' h', evs.foldlM (Abs.step ivf) a = .ok a' ∧ evs.foldlM (Idx.step ivf) (x, h) = .ok (x', h') ∧
        Rel a' x' h' F
  | [], a, x, h, hr => .inr ⟨a, x, h, rfl, rfl, hr⟩
  | .load n :: evs, a, x, h, hr => by
    simp only [List.foldlM_cons, Abs.step, Idx.step, Res.ok_bind]
    exact rel_run ivf F evs _ _ _ (rel_load ivf n hr)
  | .build ok :: evs, a, x, h, hr => by
    simp only [List.foldlM_cons, Abs.step, Idx.step, Idx.build]
    by_cases hok : ok = false
    · simp only [if_pos hok, Res.ok_bind]
      exact rel_run ivf F evs _ _ _ hr
    · by_cases hd : a.d = false
      · simp only [if_neg hok, if_pos hd, if_pos (hr.data_uninit.2 hd), Res.err_bind]
        exact .inl ⟨trivial, trivial⟩
      · have hx : ¬ x.data = .uninit := fun h => hd (hr.data_uninit.1 h)
        cases ivf
        · simp only [if_neg hok, if_neg hd, if_neg hx, Bool.false_eq_true, if_false, Res.ok_bind]
          exact rel_run _ F evs _ _ _ hr
        · simp only [if_neg hok, if_neg hd, if_neg hx, if_true, Res.ok_bind]
          exact rel_run _ F evs _ _ _ (rel_newCenters hr .arr)

theorem Rel.tags_ne {a : Abs} {x : Idx} {h : Heap} {F : List (Nat × Alloc)} (hr : Rel a x h F) :
    x.tags ≠ .uninit := by
  have := hr.tags
  split at this
  · obtain ⟨b, hb⟩ := this
    simp [hb]
  · simp [this]

/-- `~ANNIndex`. -/
theorem destroy_base {x : Idx} {h : Heap} {G : List (Nat × Alloc)} (h1 : ∃ b, x.dist = .mem b)
    (h2 : ∃ b, x.distF = .mem b) (h3 : x.tags ≠ .uninit)
    (hg : Good h (x.dist.blk .obj ++ (x.distF.blk .obj ++ (x.data.blk .malloc ++ (x.tags.blk .arr ++ G))))) :
    (x.data ≠ .uninit → ∃ h', x.destroy false h = .ok h' ∧ Good h' G) ∧
    (x.data = .uninit → x.destroy false h = .error .ub) := by
  obtain ⟨b1, e1⟩ := h1
  obtain ⟨b2, e2⟩ := h2
  obtain ⟨ha, ea, ga⟩ := hg.free (by simp [e1])
  obtain ⟨hb, eb, gb⟩ := ga.free (by simp [e2])
  constructor
  · intro hd
    obtain ⟨hc, ec, gc⟩ := gb.free hd
    obtain ⟨he, ee, ge⟩ := gc.free h3
    refine ⟨he, ?_, ge⟩
    simp only [Idx.destroy, Idx.destroyCenters, Bool.false_eq_true, if_false, Res.ok_bind, ea, eb, ec, ee]
  · intro hd
    have ed : Heap.free hb .malloc x.data = .error .ub := by rw [hd]; rfl
    simp only [Idx.destroy, Idx.destroyCenters, Bool.false_eq_true, if_false, Res.ok_bind, ea, eb, ed, Res.err_bind]

theorem destroy_centers_false (x : Idx) (h : Heap) :
    x.destroy true h = (do let h ← h.free .arr x.centers; x.destroy false h) := by
  simp only [Idx.destroy, Idx.destroyCenters, if_true, Bool.false_eq_true, if_false, Res.ok_bind]

/-- When the destructor is well defined, and what is left over. -/
theorem rel_destroy {a : Abs} {x : Idx} {h : Heap} {F : List (Nat × Alloc)} (ivf : Bool) (hr : Rel a x h F)
    (hc : ivf = false → a.c = none) :
    (a.d = true ∧ (ivf = true → a.c = some .arr) →
      ∃ h' lost, x.destroy ivf h = .ok h' ∧ lost.length = a.lost ∧ Good h' (lost ++ F)) ∧
    (¬ (a.d = true ∧ (ivf = true → a.c = some .arr)) → x.destroy ivf h = .error .ub) := by
  obtain ⟨lost, hl, hg⟩ := hr.good
  have hdn : a.d = true ↔ x.data ≠ .uninit := by
    rw [Ne, hr.data_uninit]
    simp
  have hcent := hr.cent
  cases ivf with
  | false =>
    rw [hc rfl] at hcent
    simp only [Option.isSome_none, Bool.false_eq_true, if_false] at hcent
    have hb := destroy_base (G := lost ++ F) hr.dist hr.distF hr.tags_ne (h := h)
      (by simpa [Idx.own, hcent, Ptr.blk.eq_2] using hg)
    constructor
    · intro ⟨hd, _⟩
      obtain ⟨h', e, g⟩ := hb.1 (hdn.1 hd)
      exact ⟨h', lost, e, hl, g⟩
    · intro hn
      apply hb.2
      by_contra hd
      exact hn ⟨hdn.2 hd, by simp⟩
  | true =>
    rw [destroy_centers_false]
    cases hac : a.c with
    | none =>
      rw [hac] at hcent
      simp only [Option.isSome_none, Bool.false_eq_true, if_false] at hcent
      constructor
      · rintro ⟨_, h⟩
        simp at h
      · intro _
        simp only [hcent, Heap.free, Res.err_bind]
    | some k =>
      rw [hac] at hcent
      simp only [Option.isSome_some, if_true] at hcent
      obtain ⟨b, hb⟩ := hcent
      by_cases hk : k = .arr
      · subst hk
        have hg' : Good h (x.centers.blk .arr ++ (x.dist.blk .obj ++ (x.distF.blk .obj ++ (x.data.blk .malloc ++
            (x.tags.blk .arr ++ (lost ++ F)))))) := by
          have : a.ck = .arr := by simp [Abs.ck, hac]
          rw [this] at hg
          simpa only [Idx.own, List.append_assoc] using hg
        obtain ⟨h1, e1, g1⟩ := hg'.free (by simp [hb])
        have hd := destroy_base hr.dist hr.distF hr.tags_ne g1
        rw [e1, Res.ok_bind]
        constructor
        · intro ⟨h, _⟩
          obtain ⟨h', e, g⟩ := hd.1 (hdn.1 h)
          exact ⟨h', lost, e, hl, g⟩
        · intro hn
          apply hd.2
          by_contra h
          exact hn ⟨hdn.2 h, by simp⟩
      · constructor
        · rintro ⟨_, h⟩
          simp at h
          exact absurd h hk
        · intro _
          have hck : a.ck = k := by simp [Abs.ck, hac]
          rw [hck] at hg
          simp only [Idx.own, hb, Ptr.blk, List.cons_append, List.nil_append] at hg
          rw [hb, hg.free_wrong (k := .arr) (fun h => hk h.symm), Res.err_bind]

end Grann
