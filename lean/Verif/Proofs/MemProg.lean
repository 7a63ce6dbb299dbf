import Verif.Spec.MemProg
/-!
# Memory managed by hand: a checker for the statements, and its soundness
-/

namespace Grann

/-! ## Proof: a checker -/

/-- What is known of a pointer: uninitialised, null, the only pointer to a live block, or nothing. -/
inductive AVal
  | uninit
  | null
  | own (k : Alloc)
  | any
  deriving DecidableEq, Repr

/-- What is known of the variables (those not listed: nothing), and whether some block may be lost. -/
structure AbsSt where
  vars : List (String × AVal)
  lost : Bool
  deriving DecidableEq, Repr

def AbsSt.get (A : AbsSt) (x : String) : AVal := (A.vars.lookup x).getD .any

/-- Overwriting; a block that only `x` pointed to is lost. -/
def AbsSt.set (A : AbsSt) (x : String) (v : AVal) : AbsSt :=
  ⟨(x, v) :: A.vars.filter (fun p => p.1 ≠ x), A.lost || (match A.get x with | .own _ => true | _ => false)⟩

/-- Forgetting what is known of `x`, whose block has been released. -/
def AbsSt.drop (A : AbsSt) (x : String) : AbsSt := ⟨A.vars.filter (fun p => p.1 ≠ x), A.lost⟩

def AbsSt.free (A : AbsSt) (x : String) (k : Alloc) : Option AbsSt :=
  match A.get x with
  | .null => some A
  | .own k' => if k = k' then some (A.drop x) else none
  | _ => none

def AbsSt.leave (A : AbsSt) (x : String) : Option AbsSt := (A.free x .arr).map (·.drop x)

/-- Adds the elements that are missing. -/
def addNew (S N : List AbsSt) : List AbsSt := N.foldl (fun S A => if A ∈ S then S else A :: S) S

/-- The states in which the loop may be at the end of an iteration. -/
def aloop (f : List AbsSt → Option (List AbsSt × List AbsSt)) : Nat → List AbsSt → Option (List AbsSt × List AbsSt)
  | 0, _ => none
  | n + 1, S =>
    match f S with
    | none => none
    | some (N, T) => if ∀ A ∈ N, A ∈ S then some (S, T) else aloop f n (addNew S N)

/-- The states after normal ends and after exceptions; `none` if undefined behaviour is not excluded. -/
def acheck : Ms → List AbsSt → Option (List AbsSt × List AbsSt)
  | .skip, S => some (S, [])
  | .decl x, S => some (S.map (·.set x .uninit), [])
  | .null x, S => some (S.map (·.set x .null), [])
  | .new x k, S => some (S.map (·.set x (.own k)), [])
  | .free x k, S => (S.mapM (fun A : AbsSt => A.free x k)).map (fun N => (N, []))
  | .mayThrow, S => some (S, S)
  | .seq a b, S =>
    match acheck a S with
    | none => none
    | some (N, T) => (acheck b N).map (fun r => (r.1, addNew T r.2))
  | .either a b, S =>
    match acheck a S, acheck b S with
    | some (N, T), some (N', T') => some (addNew N N', addNew T T')
    | _, _ => none
  | .ifNull x a b, S =>
    if ∀ A ∈ S, A.get x ≠ .uninit then
      match acheck a (S.filter (fun A => decide (A.get x = .null) || decide (A.get x = .any))),
        acheck b (S.filter (fun A => decide (A.get x ≠ .null))) with
      | some (N, T), some (N', T') => if ∀ A ∈ S, A.get x ≠ .any then some (addNew N N', addNew T T') else none
      | _, _ => none
    else none
  | .loop a, S => aloop (acheck a) 5 S
  | .scope x a, S =>
    match acheck a (S.map (·.set x .null)) with
    | none => none
    | some (N, T) =>
      match N.mapM (fun A : AbsSt => A.leave x), T.mapM (fun A : AbsSt => A.leave x) with
      | some N', some T' => some (N', T')
      | _, _ => none

/-- The blocks that the variables own. -/
def ownedBy (env : String → Ptr) : List (String × AVal) → List (Nat × Alloc)
  | [] => []
  | (x, .own k) :: l => (match env x with | .mem b => [(b, k)] | _ => []) ++ ownedBy env l
  | _ :: l => ownedBy env l

/-- The variables are as `A` says, the live blocks are those of `base`, those that variables own, and lost ones. -/
structure MemRel (base : List (Nat × Alloc)) (A : AbsSt) (s : MSt) : Prop where
  keys : (A.vars.map (·.1)).Nodup
  vals : ∀ p ∈ A.vars, match p.2 with
    | .uninit => s.env p.1 = .uninit
    | .null => s.env p.1 = .null
    | .own _ => ∃ b, s.env p.1 = .mem b
    | .any => True
  live : ∃ lost, (A.lost = false → lost = []) ∧ s.heap.live.Perm (ownedBy s.env A.vars ++ lost ++ base)
  fresh : ∀ p ∈ s.heap.live, p.1 < s.heap.next
  nodup : (s.heap.live.map (·.1)).Nodup

theorem ownedBy_congr {env env' : String → Ptr} : ∀ {l : List (String × AVal)}, (∀ p ∈ l, env p.1 = env' p.1) → ownedBy env l = ownedBy env' l
  | [], _ => rfl
  | (x, v) :: l, h => by
    have ih := ownedBy_congr (l := l) (fun p hp => h p (List.mem_cons_of_mem _ hp))
    have hx := h (x, v) List.mem_cons_self
    cases v with
    | own k => simp only [ownedBy]; rw [hx, ih]
    | uninit => simp only [ownedBy]; exact ih
    | null => simp only [ownedBy]; exact ih
    | any => simp only [ownedBy]; exact ih

/-- The blocks of the other variables, and that of `x`. -/
theorem ownedBy_split (env : String → Ptr) (x : String) : ∀ {l : List (String × AVal)}, (l.map (·.1)).Nodup →
    (ownedBy env l).Perm ((match (l.lookup x).getD .any with | .own k => (match env x with | .mem b => [(b, k)] | _ => []) | _ => []) ++
      ownedBy env (l.filter (fun p => p.1 ≠ x)))
  | [], _ => by simp [ownedBy]
  | (y, v) :: l, h => by
    simp only [List.map_cons, List.nodup_cons] at h
    have ih := ownedBy_split env x h.2
    by_cases hy : x = y
    · subst hy
      have hf : l.filter (fun p => p.1 ≠ x) = l := List.filter_eq_self.2 (fun p hp => by
        have : p.1 ≠ x := fun e => h.1 (List.mem_map.2 ⟨p, hp, e⟩)
        simpa using this)
      have e2 : ((x, v) :: l).filter (fun p => p.1 ≠ x) = l := by rw [List.filter_cons_of_neg (by simp), hf]
      rw [e2]
      simp only [List.lookup_cons, beq_self_eq_true, Option.getD_some]
      cases v with
      | own k => exact List.Perm.refl _
      | uninit => exact List.Perm.refl _
      | null => exact List.Perm.refl _
      | any => exact List.Perm.refl _
    · have e1 : ((y, v) :: l).lookup x = l.lookup x := by
        rw [List.lookup_cons]
        have : (x == y) = false := by simpa using hy
        rw [this]
      have e2 : ((y, v) :: l).filter (fun p => p.1 ≠ x) = (y, v) :: l.filter (fun p => p.1 ≠ x) := List.filter_cons_of_pos (by simpa using fun e => hy e.symm)
      rw [e1, e2]
      cases v with
      | own k =>
        simp only [ownedBy]
        refine (List.Perm.append_left _ ih).trans ?_
        rw [← List.append_assoc, ← List.append_assoc]
        exact List.Perm.append_right _ List.perm_append_comm
      | uninit => simp only [ownedBy]; exact ih
      | null => simp only [ownedBy]; exact ih
      | any => simp only [ownedBy]; exact ih

theorem lookup_mem {l : List (String × AVal)} {x : String} {v : AVal} (h : l.lookup x = some v) : (x, v) ∈ l := by
  induction l with
  | nil => simp at h
  | cons p l ih =>
    obtain ⟨y, w⟩ := p
    rw [List.lookup_cons] at h
    by_cases e : x = y
    · subst e
      simp only [beq_self_eq_true, Option.some.injEq] at h
      rw [h]
      exact List.mem_cons_self
    · have : (x == y) = false := by simpa using e
      rw [this] at h
      exact List.mem_cons_of_mem _ (ih h)

theorem get_mem {A : AbsSt} {x : String} (h : A.get x ≠ .any) : (x, A.get x) ∈ A.vars := by
  unfold AbsSt.get at *
  cases e : A.vars.lookup x with
  | none => rw [e] at h; exact absurd rfl h
  | some v => rw [Option.getD_some]; exact lookup_mem e

theorem MemRel.get {base : List (Nat × Alloc)} {A : AbsSt} {s : MSt} (h : MemRel base A s) (x : String) : match A.get x with
    | .uninit => s.env x = .uninit
    | .null => s.env x = .null
    | .own _ => ∃ b, s.env x = .mem b
    | .any => True := by
  by_cases e : A.get x = .any
  · rw [e]; trivial
  · exact h.vals _ (get_mem e)

/-- Forgetting a variable that owns nothing. -/
theorem MemRel.forget {base : List (Nat × Alloc)} {A : AbsSt} {s : MSt} (h : MemRel base A s) {x : String} (hx : ∀ k, A.get x ≠ .own k) : MemRel base (A.drop x) s where
  keys := (List.filter_sublist.map _).nodup h.keys
  vals p hp := h.vals p (List.mem_filter.1 hp).1
  live := by
    obtain ⟨lost, hl, hp⟩ := h.live
    refine ⟨lost, hl, hp.trans ?_⟩
    have := ownedBy_split s.env x h.keys
    refine List.Perm.append_right _ (List.Perm.append_right _ (this.trans ?_))
    show List.Perm _ (ownedBy s.env (A.vars.filter fun p => p.1 ≠ x))
    have e : (A.vars.lookup x).getD .any = A.get x := rfl
    rw [e]
    cases hg : A.get x with
    | own k => exact absurd hg (hx k)
    | uninit => exact List.Perm.refl _
    | null => exact List.Perm.refl _
    | any => exact List.Perm.refl _
  fresh := h.fresh
  nodup := h.nodup

/-- The other variables when `x` changes. -/
theorem ownedBy_other {s : MSt} {x : String} {p : Ptr} {l : List (String × AVal)} :
    ownedBy (s.set x p).env (l.filter (fun q => q.1 ≠ x)) = ownedBy s.env (l.filter (fun q => q.1 ≠ x)) := by
  refine ownedBy_congr fun q hq => ?_
  have : q.1 ≠ x := by simpa using (List.mem_filter.1 hq).2
  simp [MSt.set, this]

/-- Assigning a pointer without block. -/
theorem MemRel.assign {base : List (Nat × Alloc)} {A : AbsSt} {s : MSt} (h : MemRel base A s) (x : String) {v : AVal} {p : Ptr} (hv : (v = .uninit ∧ p = .uninit) ∨ (v = .null ∧ p = .null)) :
    MemRel base (A.set x v) (s.set x p) where
  keys := by
    show (((x, v) :: A.vars.filter fun q => q.1 ≠ x).map (·.1)).Nodup
    rw [List.map_cons, List.nodup_cons]
    refine ⟨fun hm => ?_, (List.filter_sublist.map _).nodup h.keys⟩
    obtain ⟨q, hq, e⟩ := List.mem_map.1 hm
    have := (List.mem_filter.1 hq).2
    simp [e] at this
  vals q hq := by
    rcases List.mem_cons.1 hq with rfl | hq
    · rcases hv with ⟨rfl, rfl⟩ | ⟨rfl, rfl⟩ <;> simp [MSt.set]
    · have hne : q.1 ≠ x := by simpa using (List.mem_filter.1 hq).2
      have := h.vals q (List.mem_filter.1 hq).1
      simpa [MSt.set, hne] using this
  live := by
    obtain ⟨lost, hl, hp⟩ := h.live
    have hs := ownedBy_split s.env x h.keys
    have e0 : (A.vars.lookup x).getD .any = A.get x := rfl
    rw [e0] at hs
    have eo : ownedBy (s.set x p).env (A.set x v).vars = ownedBy s.env (A.vars.filter (fun q => q.1 ≠ x)) := by
      show ownedBy (s.set x p).env ((x, v) :: A.vars.filter fun q => q.1 ≠ x) = _
      rcases hv with ⟨rfl, rfl⟩ | ⟨rfl, rfl⟩ <;> (simp only [ownedBy]; exact ownedBy_other)
    rw [eo]
    refine ⟨(match A.get x with | .own k => (match s.env x with | .mem b => [(b, k)] | _ => []) | _ => []) ++ lost, ?_, ?_⟩
    · intro hf
      have hf' : (A.lost || (match A.get x with | .own _ => true | _ => false)) = false := hf
      rw [Bool.or_eq_false_iff] at hf'
      rw [hl hf'.1, List.append_nil]
      cases hg : A.get x with
      | own k => rw [hg] at hf'; exact absurd hf'.2 (by simp)
      | uninit => rfl
      | null => rfl
      | any => rfl
    · refine hp.trans (List.Perm.append_right _ ((List.Perm.append_right _ hs).trans ?_))
      rw [← List.append_assoc]
      exact List.Perm.append_right _ List.perm_append_comm
  fresh := h.fresh
  nodup := h.nodup

theorem MemRel.alloc {base : List (Nat × Alloc)} {A : AbsSt} {s : MSt} (h : MemRel base A s) (x : String) (k : Alloc) :
    MemRel base (A.set x (.own k)) { s.set x (s.heap.alloc k).1 with heap := (s.heap.alloc k).2 } := by
  have h0 := h.assign x (v := .null) (p := .null) (.inr ⟨rfl, rfl⟩)
  refine ⟨h0.keys, fun q hq => ?_, ?_, ?_, ?_⟩
  · rcases List.mem_cons.1 hq with rfl | hq
    · exact ⟨s.heap.next, by simp [MSt.set, Heap.alloc]⟩
    · have hne : q.1 ≠ x := by simpa using (List.mem_filter.1 hq).2
      have := h.vals q (List.mem_filter.1 hq).1
      simpa [MSt.set, hne] using this
  · obtain ⟨lost, hl, hp⟩ := h0.live
    refine ⟨lost, hl, ?_⟩
    have e1 : ownedBy (s.set x .null).env (A.set x .null).vars = ownedBy s.env (A.vars.filter fun q => q.1 ≠ x) := by
      show ownedBy (s.set x .null).env ((x, .null) :: A.vars.filter fun q => q.1 ≠ x) = _
      simp only [ownedBy]; exact ownedBy_other
    have e2 : ownedBy ({ s.set x (s.heap.alloc k).1 with heap := (s.heap.alloc k).2 } : MSt).env (A.set x (.own k)).vars =
        (s.heap.next, k) :: ownedBy s.env (A.vars.filter fun q => q.1 ≠ x) := by
      show ownedBy (s.set x (s.heap.alloc k).1).env ((x, .own k) :: A.vars.filter fun q => q.1 ≠ x) = _
      simp only [ownedBy]
      rw [ownedBy_other]
      simp [MSt.set, Heap.alloc]
    rw [e2]
    rw [e1] at hp
    show List.Perm ((s.heap.next, k) :: s.heap.live) _
    rw [List.cons_append, List.cons_append]
    exact List.Perm.cons _ hp
  · intro p hp
    rcases List.mem_cons.1 hp with rfl | hp
    · exact Nat.lt_succ_self _
    · exact Nat.lt_succ_of_lt (h.fresh p hp)
  · show (((s.heap.next, k) :: s.heap.live).map (·.1)).Nodup
    rw [List.map_cons, List.nodup_cons]
    refine ⟨fun hm => ?_, h.nodup⟩
    obtain ⟨q, hq, e⟩ := List.mem_map.1 hm
    have := h.fresh q hq
    simp only at e
    omega

/-- Releasing what the checker allows. -/
theorem MemRel.release {base : List (Nat × Alloc)} {A A' : AbsSt} {s : MSt} (h : MemRel base A s) {x : String} {k : Alloc} (hf : A.free x k = some A') :
    ∃ h', s.heap.free k (s.env x) = .ok h' ∧ MemRel base A' { s with heap := h' } ∧ ∀ k', A'.get x ≠ .own k' := by
  have hg := h.get x
  unfold AbsSt.free at hf
  cases e : A.get x with
  | uninit => rw [e] at hf; simp at hf
  | any => rw [e] at hf; simp at hf
  | null =>
    rw [e] at hf hg
    simp only [Option.some.injEq] at hf
    refine ⟨s.heap, ?_, ?_, ?_⟩
    · have : s.env x = .null := hg
      rw [this]; rfl
    · rw [← hf]; exact h
    · rw [← hf, e]; intro k' hk; cases hk
  | own k1 =>
    rw [e] at hf hg
    by_cases hk : k = k1
    · simp only [hk, if_true, Option.some.injEq] at hf
      obtain ⟨b, hb⟩ : ∃ b, s.env x = .mem b := hg
      obtain ⟨lost, hl, hp⟩ := h.live
      have hs := ownedBy_split s.env x h.keys
      have e0 : (A.vars.lookup x).getD .any = A.get x := rfl
      rw [e0, e] at hs
      simp only [hb] at hs
      have hp' : s.heap.live.Perm ((b, k1) :: (ownedBy s.env (A.vars.filter fun q => q.1 ≠ x) ++ lost ++ base)) := by
        refine hp.trans ?_
        have := List.Perm.append_right base (List.Perm.append_right lost hs)
        simpa using this
      have hm : (b, k1) ∈ s.heap.live := hp'.mem_iff.2 List.mem_cons_self
      refine ⟨{ s.heap with live := s.heap.live.erase (b, k1) }, ?_, ?_, ?_⟩
      · rw [hb, hk]
        simp only [Heap.free]
        rw [if_pos hm]
      · rw [← hf]
        refine ⟨(List.filter_sublist.map _).nodup h.keys, fun p hp => h.vals p (List.mem_filter.1 hp).1, ⟨lost, hl, ?_⟩, ?_, ?_⟩
        · have := hp'.erase (b, k1)
          rw [List.erase_cons_head] at this
          exact this
        · exact fun p hp => h.fresh p (List.mem_of_mem_erase hp)
        · exact (List.erase_sublist.map _).nodup h.nodup
      · rw [← hf]
        intro k' hk'
        have hm := get_mem (A := A.drop x) (x := x) (by rw [hk']; simp)
        have := (List.mem_filter.1 hm).2
        simp at this
    · simp [hk] at hf

theorem mem_addNew {S N : List AbsSt} {A : AbsSt} : A ∈ addNew S N ↔ A ∈ S ∨ A ∈ N := by
  unfold addNew
  induction N generalizing S with
  | nil => simp
  | cons B N ih =>
    rw [List.foldl_cons, ih]
    by_cases h : B ∈ S
    · rw [if_pos h, List.mem_cons]
      constructor
      · rintro (h' | h')
        · exact .inl h'
        · exact .inr (.inr h')
      · rintro (h' | rfl | h')
        · exact .inl h'
        · exact .inl h
        · exact .inr h'
    · rw [if_neg h, List.mem_cons, List.mem_cons, or_assoc]
      exact or_left_comm

theorem mem_mapM_some {f : AbsSt → Option AbsSt} : ∀ {S N : List AbsSt}, S.mapM f = some N → ∀ A ∈ S, ∃ B, f A = some B ∧ B ∈ N := by
  intro S
  induction S with
  | nil => intro N _ A hA; simp at hA
  | cons B S ih =>
    intro N h A hA
    rw [List.mapM_cons] at h
    cases hB : f B with
    | none => rw [hB] at h; simp at h
    | some B' =>
      rw [hB] at h
      cases hS : S.mapM f with
      | none => rw [hS] at h; simp at h
      | some N' =>
        rw [hS] at h
        simp only [Option.bind_eq_bind, Option.bind_some, Option.pure_def, Option.some.injEq] at h
        rw [← h]
        rcases List.mem_cons.1 hA with rfl | hA
        · exact ⟨B', hB, List.mem_cons_self⟩
        · obtain ⟨C, h1, h2⟩ := ih hS A hA
          exact ⟨C, h1, List.mem_cons_of_mem _ h2⟩

theorem aloop_spec {f : List AbsSt → Option (List AbsSt × List AbsSt)} : ∀ {n : Nat} {S S' T : List AbsSt}, aloop f n S = some (S', T) →
    (∀ A ∈ S, A ∈ S') ∧ ∃ N, f S' = some (N, T) ∧ ∀ A ∈ N, A ∈ S' := by
  intro n
  induction n with
  | zero => intro S S' T h; simp [aloop] at h
  | succ n ih =>
    intro S S' T h
    unfold aloop at h
    cases hf : f S with
    | none => rw [hf] at h; simp at h
    | some r =>
      obtain ⟨N, T'⟩ := r
      rw [hf] at h
      simp only at h
      by_cases hc : ∀ A ∈ N, A ∈ S
      · rw [if_pos hc] at h
        simp only [Option.some.injEq, Prod.mk.injEq] at h
        obtain ⟨rfl, rfl⟩ := h
        exact ⟨fun A hA => hA, N, hf, hc⟩
      · rw [if_neg hc] at h
        obtain ⟨h1, h2⟩ := ih h
        exact ⟨fun A hA => h1 A (mem_addNew.2 (.inl hA)), h2⟩

/-- What the checker promises of an outcome. -/
def Promise (base : List (Nat × Alloc)) (N T : List AbsSt) : MOut → Prop
  | .ok s => ∃ A ∈ N, MemRel base A s
  | .thrown s => ∃ A ∈ T, MemRel base A s
  | .ub => False

theorem Promise.mono {base : List (Nat × Alloc)} {N T N' T' : List AbsSt} (h1 : ∀ A ∈ N, A ∈ N') (h2 : ∀ A ∈ T, A ∈ T') {o : MOut} (h : Promise base N T o) : Promise base N' T' o := by
  cases o with
  | ok s => obtain ⟨A, hA, hr⟩ := h; exact ⟨A, h1 A hA, hr⟩
  | thrown s => obtain ⟨A, hA, hr⟩ := h; exact ⟨A, h2 A hA, hr⟩
  | ub => exact h

theorem MemRel.leave {base : List (Nat × Alloc)} {A A' : AbsSt} {s : MSt} (h : MemRel base A s) {x : String} (hl : A.leave x = some A') :
    ∃ s', s.leave x = .ok s' ∧ MemRel base A' s' := by
  unfold AbsSt.leave at hl
  cases hf : A.free x .arr with
  | none => rw [hf] at hl; simp at hl
  | some B =>
    rw [hf] at hl
    simp only [Option.map_some, Option.some.injEq] at hl
    obtain ⟨h', e, hr, hn⟩ := h.release hf
    refine ⟨{ s with heap := h' }, ?_, ?_⟩
    · unfold MSt.leave; rw [e]; rfl
    · rw [← hl]; exact hr.forget hn

/-- The checker is right. -/
theorem acheck_sound {base : List (Nat × Alloc)} : ∀ {c : Ms} {s : MSt} {o : MOut}, Exec c s o → ∀ {S N T : List AbsSt}, acheck c S = some (N, T) →
    ∀ {A : AbsSt}, A ∈ S → MemRel base A s → Promise base N T o := by
  intro c s o h
  induction h with
  | skip => intro S N T hc A hA hr; simp only [acheck, Option.some.injEq, Prod.mk.injEq] at hc; exact ⟨A, hc.1 ▸ hA, hr⟩
  | decl =>
    intro S N T hc A hA hr; simp only [acheck, Option.some.injEq, Prod.mk.injEq] at hc
    exact ⟨_, hc.1 ▸ List.mem_map.2 ⟨A, hA, rfl⟩, hr.assign _ (.inl ⟨rfl, rfl⟩)⟩
  | null =>
    intro S N T hc A hA hr; simp only [acheck, Option.some.injEq, Prod.mk.injEq] at hc
    exact ⟨_, hc.1 ▸ List.mem_map.2 ⟨A, hA, rfl⟩, hr.assign _ (.inr ⟨rfl, rfl⟩)⟩
  | new =>
    intro S N T hc A hA hr; simp only [acheck, Option.some.injEq, Prod.mk.injEq] at hc
    exact ⟨_, hc.1 ▸ List.mem_map.2 ⟨A, hA, rfl⟩, hr.alloc _ _⟩
  | free hf =>
    intro S N T hc A hA hr
    simp only [acheck, Option.map_eq_some_iff, Prod.mk.injEq] at hc
    obtain ⟨N', hm, rfl, -⟩ := hc
    obtain ⟨B, hB, hBN⟩ := mem_mapM_some hm A hA
    obtain ⟨h', e, hr', -⟩ := hr.release hB
    rw [hf] at e
    cases e
    exact ⟨B, hBN, hr'⟩
  | free_ub hf =>
    intro S N T hc A hA hr
    simp only [acheck, Option.map_eq_some_iff, Prod.mk.injEq] at hc
    obtain ⟨N', hm, rfl, -⟩ := hc
    obtain ⟨B, hB, hBN⟩ := mem_mapM_some hm A hA
    obtain ⟨h', e, hr', -⟩ := hr.release hB
    rw [hf] at e
    cases e
  | go => intro S N T hc A hA hr; simp only [acheck, Option.some.injEq, Prod.mk.injEq] at hc; exact ⟨A, hc.1 ▸ hA, hr⟩
  | throw => intro S N T hc A hA hr; simp only [acheck, Option.some.injEq, Prod.mk.injEq] at hc; exact ⟨A, hc.2 ▸ hA, hr⟩
  | @seq s a b s' o _ _ iha ihb =>
    intro S N T hc A hA hr
    unfold acheck at hc
    cases ha : acheck a S with
    | none => rw [ha] at hc; simp at hc
    | some r =>
      obtain ⟨N1, T1⟩ := r
      rw [ha] at hc
      simp only [Option.map_eq_some_iff, Prod.mk.injEq] at hc
      obtain ⟨⟨N2, T2⟩, hb, rfl, rfl⟩ := hc
      obtain ⟨B, hB, hr'⟩ := iha ha hA hr
      exact (ihb hb hB hr').mono (fun A hA => hA) (fun A hA => mem_addNew.2 (.inr hA))
  | @seq_thrown s a b s' _ iha =>
    intro S N T hc A hA hr
    unfold acheck at hc
    cases ha : acheck a S with
    | none => rw [ha] at hc; simp at hc
    | some r =>
      obtain ⟨N1, T1⟩ := r
      rw [ha] at hc
      simp only [Option.map_eq_some_iff, Prod.mk.injEq] at hc
      obtain ⟨⟨N2, T2⟩, hb, rfl, rfl⟩ := hc
      obtain ⟨B, hB, hr'⟩ := iha ha hA hr
      exact ⟨B, mem_addNew.2 (.inl hB), hr'⟩
  | @seq_ub s a b _ iha =>
    intro S N T hc A hA hr
    unfold acheck at hc
    cases ha : acheck a S with
    | none => rw [ha] at hc; simp at hc
    | some r =>
      have hh := iha ha hA hr
      exact hh
  | @left s a b o _ ih =>
    intro S N T hc A hA hr
    unfold acheck at hc
    cases ha : acheck a S with
    | none => rw [ha] at hc; simp at hc
    | some r =>
      cases hb : acheck b S with
      | none => rw [ha, hb] at hc; simp at hc
      | some r' =>
        rw [ha, hb] at hc
        simp only [Option.some.injEq, Prod.mk.injEq] at hc
        obtain ⟨rfl, rfl⟩ := hc
        exact (ih ha hA hr).mono (fun A hA => mem_addNew.2 (.inl hA)) (fun A hA => mem_addNew.2 (.inl hA))
  | @right s a b o _ ih =>
    intro S N T hc A hA hr
    unfold acheck at hc
    cases ha : acheck a S with
    | none => rw [ha] at hc; simp at hc
    | some r =>
      cases hb : acheck b S with
      | none => rw [ha, hb] at hc; simp at hc
      | some r' =>
        rw [ha, hb] at hc
        simp only [Option.some.injEq, Prod.mk.injEq] at hc
        obtain ⟨rfl, rfl⟩ := hc
        exact (ih hb hA hr).mono (fun A hA => mem_addNew.2 (.inr hA)) (fun A hA => mem_addNew.2 (.inr hA))
  | @isNull s x a b o hx _ ih =>
    intro S N T hc A hA hr
    unfold acheck at hc
    by_cases hu : ∀ A ∈ S, A.get x ≠ .uninit
    · rw [if_pos hu] at hc
      split at hc
      · rename_i N1 T1 N2 T2 h1 h2
        by_cases hany : ∀ A ∈ S, A.get x ≠ .any
        · rw [if_pos hany] at hc
          simp only [Option.some.injEq, Prod.mk.injEq] at hc
          obtain ⟨rfl, rfl⟩ := hc
          have hg := hr.get x
          have hnull : A.get x = .null := by
            cases e : A.get x with
            | null => rfl
            | uninit => exact absurd e (hu A hA)
            | any => exact absurd e (hany A hA)
            | own k => rw [e] at hg; obtain ⟨b, hb⟩ := hg; rw [hx] at hb; cases hb
          exact (ih h1 (List.mem_filter.2 ⟨hA, by simp [hnull]⟩) hr).mono (fun A hA => mem_addNew.2 (.inl hA)) (fun A hA => mem_addNew.2 (.inl hA))
        · rw [if_neg hany] at hc; cases hc
      · cases hc
    · rw [if_neg hu] at hc; cases hc
  | @notNull s x a b n o hx _ ih =>
    intro S N T hc A hA hr
    unfold acheck at hc
    by_cases hu : ∀ A ∈ S, A.get x ≠ .uninit
    · rw [if_pos hu] at hc
      split at hc
      · rename_i N1 T1 N2 T2 h1 h2
        by_cases hany : ∀ A ∈ S, A.get x ≠ .any
        · rw [if_pos hany] at hc
          simp only [Option.some.injEq, Prod.mk.injEq] at hc
          obtain ⟨rfl, rfl⟩ := hc
          have hg := hr.get x
          have hnn : A.get x ≠ .null := by
            intro e
            rw [e] at hg
            rw [hx] at hg
            cases hg
          exact (ih h2 (List.mem_filter.2 ⟨hA, by simpa using hnn⟩) hr).mono (fun A hA => mem_addNew.2 (.inr hA)) (fun A hA => mem_addNew.2 (.inr hA))
        · rw [if_neg hany] at hc; cases hc
      · cases hc
    · rw [if_neg hu] at hc; cases hc
  | @null_ub s x a b hx =>
    intro S N T hc A hA hr
    unfold acheck at hc
    by_cases hu : ∀ A ∈ S, A.get x ≠ .uninit
    · rw [if_pos hu] at hc
      split at hc
      · by_cases hany : ∀ A ∈ S, A.get x ≠ .any
        · have hg := hr.get x
          cases e : A.get x with
          | null => rw [e, hx] at hg; cases hg
          | uninit => exact absurd e (hu A hA)
          | any => exact absurd e (hany A hA)
          | own k => rw [e] at hg; obtain ⟨b, hb⟩ := hg; rw [hx] at hb; cases hb
        · rw [if_neg hany] at hc; cases hc
      · cases hc
    · rw [if_neg hu] at hc; cases hc
  | stop =>
    intro S N T hc A hA hr
    obtain ⟨h1, -⟩ := aloop_spec hc
    exact ⟨A, h1 A hA, hr⟩
  | @again s a s' o _ _ iha ihl =>
    intro S N T hc A hA hr
    obtain ⟨h1, N', h2, h3⟩ := aloop_spec hc
    obtain ⟨B, hB, hr'⟩ := iha h2 (h1 A hA) hr
    have hself : acheck (.loop a) N = some (N, T) := by
      show aloop (acheck a) 5 N = _
      unfold aloop
      rw [h2]
      simp only
      rw [if_pos h3]
    exact ihl hself (h3 B hB) hr'
  | @loop_thrown s a s' _ iha =>
    intro S N T hc A hA hr
    obtain ⟨h1, N', h2, h3⟩ := aloop_spec hc
    have hh := iha h2 (h1 A hA) hr
    exact hh
  | @loop_ub s a _ iha =>
    intro S N T hc A hA hr
    obtain ⟨h1, N', h2, h3⟩ := aloop_spec hc
    have hh := iha h2 (h1 A hA) hr
    exact hh
  | @scope s x a s' s'' _ hl ih =>
    intro S N T hc A hA hr
    unfold acheck at hc
    split at hc
    · cases hc
    · rename_i N1 T1 h1
      split at hc
      · rename_i N2 T2 h2 h3
        simp only [Option.some.injEq, Prod.mk.injEq] at hc
        obtain ⟨rfl, rfl⟩ := hc
        obtain ⟨B, hB, hr'⟩ := ih h1 (List.mem_map.2 ⟨A, hA, rfl⟩) (hr.assign x (.inr ⟨rfl, rfl⟩))
        obtain ⟨C, hC, hCN⟩ := mem_mapM_some h2 B hB
        obtain ⟨t, e, hr''⟩ := hr'.leave hC
        rw [hl] at e
        cases e
        exact ⟨C, hCN, hr''⟩
      · cases hc
  | @scope_thrown s x a s' s'' _ hl ih =>
    intro S N T hc A hA hr
    unfold acheck at hc
    split at hc
    · cases hc
    · rename_i N1 T1 h1
      split at hc
      · rename_i N2 T2 h2 h3
        simp only [Option.some.injEq, Prod.mk.injEq] at hc
        obtain ⟨rfl, rfl⟩ := hc
        obtain ⟨B, hB, hr'⟩ := ih h1 (List.mem_map.2 ⟨A, hA, rfl⟩) (hr.assign x (.inr ⟨rfl, rfl⟩))
        obtain ⟨C, hC, hCN⟩ := mem_mapM_some h3 B hB
        obtain ⟨t, e, hr''⟩ := hr'.leave hC
        rw [hl] at e
        cases e
        exact ⟨C, hCN, hr''⟩
      · cases hc
  | @scope_ub s x a _ ih =>
    intro S N T hc A hA hr
    unfold acheck at hc
    split at hc
    · cases hc
    · rename_i N1 T1 h1
      have hh := ih h1 (List.mem_map.2 ⟨A, hA, rfl⟩) (hr.assign x (.inr ⟨rfl, rfl⟩))
      exact hh
  | @leave_ub s x a s' e _ hl ih =>
    intro S N T hc A hA hr
    unfold acheck at hc
    split at hc
    · cases hc
    · rename_i N1 T1 h1
      split at hc
      · rename_i N2 T2 h2 h3
        obtain ⟨B, hB, hr'⟩ := ih h1 (List.mem_map.2 ⟨A, hA, rfl⟩) (hr.assign x (.inr ⟨rfl, rfl⟩))
        obtain ⟨C, hC, hCN⟩ := mem_mapM_some h2 B hB
        obtain ⟨t, e, hr''⟩ := hr'.leave hC
        rw [hl] at e
        cases e
      · cases hc
  | @unwind_ub s x a s' e _ hl ih =>
    intro S N T hc A hA hr
    unfold acheck at hc
    split at hc
    · cases hc
    · rename_i N1 T1 h1
      split at hc
      · rename_i N2 T2 h2 h3
        obtain ⟨B, hB, hr'⟩ := ih h1 (List.mem_map.2 ⟨A, hA, rfl⟩) (hr.assign x (.inr ⟨rfl, rfl⟩))
        obtain ⟨C, hC, hCN⟩ := mem_mapM_some h3 B hB
        obtain ⟨t, e, hr''⟩ := hr'.leave hC
        rw [hl] at e
        cases e
      · cases hc


/-- The variables that own a block. -/
def AbsSt.owns (A : AbsSt) : List (String × Alloc) := A.vars.filterMap (fun p => match p.2 with | .own k => some (p.1, k) | _ => none)

theorem ownedBy_of_owns {s : MSt} : ∀ {l : List (String × AVal)},
    (∀ p ∈ l, match p.2 with
      | .uninit => s.env p.1 = .uninit
      | .null => s.env p.1 = .null
      | .own _ => ∃ b, s.env p.1 = .mem b
      | .any => True) →
    ∃ bs : List Nat, (l.filterMap (fun p : String × AVal => match p.2 with | .own k => some (p.1, k) | _ => none)).map (fun p => s.env p.1) = bs.map Ptr.mem ∧
      ownedBy s.env l = bs.zip ((l.filterMap (fun p : String × AVal => match p.2 with | .own k => some (p.1, k) | _ => none)).map (·.2)) ∧
      bs.length = (l.filterMap (fun p : String × AVal => match p.2 with | .own k => some (p.1, k) | _ => none)).length
  | [], _ => ⟨[], rfl, rfl, rfl⟩
  | (x, v) :: l, h => by
    obtain ⟨bs, h1, h2, h3⟩ := ownedBy_of_owns (l := l) (fun p hp => h p (List.mem_cons_of_mem _ hp))
    have hx := h (x, v) List.mem_cons_self
    cases v with
    | own k =>
      obtain ⟨b, hb⟩ := hx
      have hb' : s.env x = .mem b := hb
      refine ⟨b :: bs, ?_, ?_, ?_⟩
      · simp only [List.filterMap_cons, List.map_cons, hb', h1]
      · simp only [ownedBy, List.filterMap_cons, hb', h2, List.map_cons, List.zip_cons_cons, List.cons_append, List.nil_append]
      · simp only [List.filterMap_cons, List.length_cons, h3]
    | uninit => exact ⟨bs, h1, h2, h3⟩
    | null => exact ⟨bs, h1, h2, h3⟩
    | any => exact ⟨bs, h1, h2, h3⟩

/-- The checker's verdict: no undefined behaviour, nothing lost, and the variables that own blocks in the end. -/
def verdict (c : Ms) : Option (List (List (String × Alloc)) × List (List (String × Alloc))) :=
  match acheck c [⟨[], false⟩] with
  | none => none
  | some (N, T) => if (∀ A ∈ N, A.lost = false) ∧ ∀ A ∈ T, A.lost = false then some (N.map AbsSt.owns, T.map AbsSt.owns) else none

theorem MemRel.start {s : MSt} (h : Spec.GoodHeap s.heap) : MemRel s.heap.live ⟨[], false⟩ s where
  keys := List.nodup_nil
  vals p hp := absurd hp List.not_mem_nil
  live := ⟨[], fun _ => rfl, List.Perm.refl _⟩
  fresh := h.2
  nodup := h.1

theorem MemRel.owns {base : List (Nat × Alloc)} {A : AbsSt} {s : MSt} (h : MemRel base A s) (hl : A.lost = false) :
    ∃ bs : List Nat, A.owns.map (fun p => s.env p.1) = bs.map Ptr.mem ∧ bs.length = A.owns.length ∧
      s.heap.live.Perm (bs.zip (A.owns.map (·.2)) ++ base) := by
  obtain ⟨lost, h1, h2⟩ := h.live
  obtain ⟨bs, b1, b2, b3⟩ := ownedBy_of_owns h.vals
  refine ⟨bs, b1, b3, ?_⟩
  rw [h1 hl, List.append_nil, b2] at h2
  exact h2

theorem verdict_sound {c : Ms} {N T : List (List (String × Alloc))} (h : verdict c = some (N, T)) {s : MSt} (hs : Spec.GoodHeap s.heap) :
    ¬ Exec c s .ub ∧
    (∀ s', Exec c s (.ok s') → ∃ own ∈ N, ∃ bs : List Nat, own.map (fun p => s'.env p.1) = bs.map Ptr.mem ∧ bs.length = own.length ∧
      s'.heap.live.Perm (bs.zip (own.map (·.2)) ++ s.heap.live)) ∧
    (∀ s', Exec c s (.thrown s') → ∃ own ∈ T, ∃ bs : List Nat, own.map (fun p => s'.env p.1) = bs.map Ptr.mem ∧ bs.length = own.length ∧
      s'.heap.live.Perm (bs.zip (own.map (·.2)) ++ s.heap.live)) := by
  unfold verdict at h
  cases ha : acheck c [⟨[], false⟩] with
  | none => rw [ha] at h; exact absurd h (by simp)
  | some r =>
    obtain ⟨N0, T0⟩ := r
    rw [ha] at h
    dsimp only at h
    split at h
    · rename_i hcond
      simp only [Option.some.injEq, Prod.mk.injEq] at h
      obtain ⟨rfl, rfl⟩ := h
      have key := fun {o : MOut} (he : Exec c s o) => acheck_sound he ha (List.mem_singleton.2 rfl) (MemRel.start hs)
      refine ⟨fun he => key he, fun s' he => ?_, fun s' he => ?_⟩
      · obtain ⟨A, hA, hr⟩ := key he
        exact ⟨A.owns, List.mem_map.2 ⟨A, hA, rfl⟩, hr.owns (hcond.1 A hA)⟩
      · obtain ⟨A, hA, hr⟩ := key he
        exact ⟨A.owns, List.mem_map.2 ⟨A, hA, rfl⟩, hr.owns (hcond.2 A hA)⟩
    · exact absurd h (by simp)

/-- What the verdict must be, in terms of the number of blocks kept. -/
def atMost (n m : Nat) (c : Ms) : Bool :=
  match verdict c with
  | none => false
  | some (N, T) => N.all (fun o => decide (o.length ≤ n)) && T.all (fun o => decide (o.length ≤ m))

theorem atMost_sound {n m : Nat} {c : Ms} (h : atMost n m c = true) : Spec.NeverUb c ∧ Spec.KeepsAtMost c n ∧ Spec.LosesAtMost c m := by
  unfold atMost at h
  cases hv : verdict c with
  | none => rw [hv] at h; exact absurd h (by simp)
  | some r =>
    obtain ⟨N, T⟩ := r
    rw [hv] at h
    simp only [Bool.and_eq_true, List.all_eq_true, decide_eq_true_eq] at h
    refine ⟨fun s hs => (verdict_sound hv hs).1, fun s s' hs he => ?_, fun s s' hs he => ?_⟩
    · obtain ⟨own, ho, bs, _, hb, hp⟩ := (verdict_sound hv hs).2.1 s' he
      refine ⟨bs.zip (own.map (·.2)), ?_, hp⟩
      rw [List.length_zip, List.length_map, hb, Nat.min_self]
      exact h.1 own ho
    · obtain ⟨own, ho, bs, _, hb, hp⟩ := (verdict_sound hv hs).2.2 s' he
      refine ⟨bs.zip (own.map (·.2)), ?_, hp⟩
      rw [List.length_zip, List.length_map, hb, Nat.min_self]
      exact h.2 own ho

theorem releasesAll_of {c : Ms} (h : Spec.KeepsAtMost c 0) : Spec.ReleasesAll c := fun s s' hs he => by
  obtain ⟨more, hm, hp⟩ := h s s' hs he
  rw [List.length_eq_zero_iff.1 (Nat.le_zero.1 hm)] at hp
  exact hp

theorem releasesOnThrow_of {c : Ms} (h : Spec.LosesAtMost c 0) : Spec.ReleasesOnThrow c := fun s s' hs he => by
  obtain ⟨more, hm, hp⟩ := h s s' hs he
  rw [List.length_eq_zero_iff.1 (Nat.le_zero.1 hm)] at hp
  exact hp

/-- Nothing kept, at most `m` blocks lost by an exception. -/
theorem clean_sound {m : Nat} {c : Ms} (h : atMost 0 m c = true) : Spec.NeverUb c ∧ Spec.ReleasesAll c ∧ Spec.LosesAtMost c m :=
  ⟨(atMost_sound h).1, releasesAll_of (atMost_sound h).2.1, (atMost_sound h).2.2⟩

/-- Nothing kept in any case. -/
theorem tidy_sound {c : Ms} (h : atMost 0 0 c = true) : Spec.NeverUb c ∧ Spec.ReleasesAll c ∧ Spec.ReleasesOnThrow c :=
  ⟨(atMost_sound h).1, releasesAll_of (atMost_sound h).2.1, releasesOnThrow_of (atMost_sound h).2.2⟩

/-- Exactly the block of `x` is kept. -/
def handsOver (x : String) (k : Alloc) (c : Ms) : Bool :=
  match verdict c with
  | none => false
  | some (N, _) => N.all (fun o => decide (o = [(x, k)]))

theorem handsOver_sound {x : String} {k : Alloc} {c : Ms} (h : handsOver x k c = true) : Spec.HandsOver c x k := by
  unfold handsOver at h
  cases hv : verdict c with
  | none => rw [hv] at h; exact absurd h (by simp)
  | some r =>
    obtain ⟨N, T⟩ := r
    rw [hv] at h
    simp only [List.all_eq_true, decide_eq_true_eq] at h
    intro s s' hs he
    obtain ⟨own, ho, bs, h1, hb, hp⟩ := (verdict_sound hv hs).2.1 s' he
    rw [h own ho] at h1 hb hp
    match bs, hb with
    | [b], _ =>
      simp only [List.map_cons, List.map_nil, List.cons.injEq, and_true] at h1
      exact ⟨b, h1, hp⟩

/-- Statements without a call that can throw. -/
def Ms.quiet : Ms → Bool
  | .mayThrow => false
  | .seq a b => a.quiet && b.quiet
  | .either a b => a.quiet && b.quiet
  | .ifNull _ a b => a.quiet && b.quiet
  | .loop a => a.quiet
  | .scope _ a => a.quiet
  | _ => true

theorem quiet_sound {c : Ms} {s : MSt} {o : MOut} (h : Exec c s o) : c.quiet = true → ∀ s', o ≠ .thrown s' := by
  induction h with
  | throw => intro hq; exact absurd hq (by simp [Ms.quiet])
  | seq _ _ _ ih => intro hq; rw [Ms.quiet, Bool.and_eq_true] at hq; exact ih hq.2
  | seq_thrown _ ih => intro hq s' _; rw [Ms.quiet, Bool.and_eq_true] at hq; exact ih hq.1 _ rfl
  | left _ ih => intro hq; rw [Ms.quiet, Bool.and_eq_true] at hq; exact ih hq.1
  | right _ ih => intro hq; rw [Ms.quiet, Bool.and_eq_true] at hq; exact ih hq.2
  | isNull _ _ ih => intro hq; rw [Ms.quiet, Bool.and_eq_true] at hq; exact ih hq.1
  | notNull _ _ ih => intro hq; rw [Ms.quiet, Bool.and_eq_true] at hq; exact ih hq.2
  | again _ _ _ ih => intro hq; exact ih hq
  | loop_thrown _ ih => intro hq s' _; exact ih hq _ rfl
  | scope_thrown _ _ ih => intro hq s' _; exact ih hq _ rfl
  | _ => intro _ s' e; cases e

theorem neverThrows_of {c : Ms} (h : c.quiet = true) : Spec.NeverThrows c := fun _ s' _ he => quiet_sound he h s' rfl

/-- A run that follows a list of decisions (throw or not, left or right, stop or again). -/
def runM : Nat → Ms → List Bool → MSt → Option (MOut × List Bool)
  | 0, _, _, _ => none
  | _ + 1, .skip, d, s => some (.ok s, d)
  | _ + 1, .decl x, d, s => some (.ok (s.set x .uninit), d)
  | _ + 1, .null x, d, s => some (.ok (s.set x .null), d)
  | _ + 1, .new x k, d, s => some (.ok { s.set x (s.heap.alloc k).1 with heap := (s.heap.alloc k).2 }, d)
  | _ + 1, .free x k, d, s =>
    match s.heap.free k (s.env x) with
    | .ok h => some (.ok { s with heap := h }, d)
    | .error _ => some (.ub, d)
  | _ + 1, .mayThrow, b :: d, s => some (if b then .thrown s else .ok s, d)
  | _ + 1, .mayThrow, [], s => some (.ok s, [])
  | n + 1, .seq a b, d, s =>
    match runM n a d s with
    | some (.ok s', d') => runM n b d' s'
    | r => r
  | n + 1, .either a b, d, s => if d.headD false then runM n a d.tail s else runM n b d.tail s
  | n + 1, .ifNull x a b, d, s =>
    match s.env x with
    | .uninit => some (.ub, d)
    | .null => runM n a d s
    | .mem _ => runM n b d s
  | n + 1, .loop a, d, s =>
    if d.headD false then
      match runM n a d.tail s with
      | some (.ok s', d') => runM n (.loop a) d' s'
      | r => r
    else some (.ok s, d.tail)
  | n + 1, .scope x a, d, s =>
    match runM n a d (s.set x .null) with
    | some (.ok s', d') => (match s'.leave x with | .ok s'' => some (.ok s'', d') | .error _ => some (.ub, d'))
    | some (.thrown s', d') => (match s'.leave x with | .ok s'' => some (.thrown s'', d') | .error _ => some (.ub, d'))
    | r => r

theorem runM_sound : ∀ {n : Nat} {c : Ms} {d d' : List Bool} {s : MSt} {o : MOut}, runM n c d s = some (o, d') → Exec c s o
  | 0, _, _, _, _, _, h => by simp [runM] at h
  | n + 1, .skip, _, _, _, _, h => by simp only [runM, Option.some.injEq, Prod.mk.injEq] at h; rw [← h.1]; exact .skip
  | n + 1, .decl x, _, _, _, _, h => by simp only [runM, Option.some.injEq, Prod.mk.injEq] at h; rw [← h.1]; exact .decl
  | n + 1, .null x, _, _, _, _, h => by simp only [runM, Option.some.injEq, Prod.mk.injEq] at h; rw [← h.1]; exact .null
  | n + 1, .new x k, _, _, _, _, h => by simp only [runM, Option.some.injEq, Prod.mk.injEq] at h; rw [← h.1]; exact .new
  | n + 1, .free x k, _, _, s, _, h => by
    simp only [runM] at h
    split at h <;> (rename_i e; simp only [Option.some.injEq, Prod.mk.injEq] at h; rw [← h.1])
    · exact .free e
    · exact .free_ub e
  | n + 1, .mayThrow, b :: _, _, _, _, h => by
    simp only [runM, Option.some.injEq, Prod.mk.injEq] at h
    rw [← h.1]
    cases b
    · exact .go
    · exact .throw
  | n + 1, .mayThrow, [], _, _, _, h => by simp only [runM, Option.some.injEq, Prod.mk.injEq] at h; rw [← h.1]; exact .go
  | n + 1, .seq a b, d, _, s, o, h => by
    simp only [runM] at h
    split at h
    · rename_i s' d1 e
      exact .seq (runM_sound e) (runM_sound h)
    · rename_i hne
      cases o with
      | ok s' => exact absurd h (hne s' _)
      | thrown s' => exact .seq_thrown (runM_sound h)
      | ub => exact .seq_ub (runM_sound h)
  | n + 1, .either a b, d, _, s, o, h => by
    simp only [runM] at h
    split at h
    · exact .left (runM_sound h)
    · exact .right (runM_sound h)
  | n + 1, .ifNull x a b, d, _, s, o, h => by
    simp only [runM] at h
    split at h
    · rename_i e; simp only [Option.some.injEq, Prod.mk.injEq] at h; rw [← h.1]; exact .null_ub e
    · rename_i e; exact .isNull e (runM_sound h)
    · rename_i e; exact .notNull e (runM_sound h)
  | n + 1, .loop a, d, _, s, o, h => by
    simp only [runM] at h
    split at h
    · split at h
      · rename_i s' d1 e
        exact .again (runM_sound e) (runM_sound h)
      · rename_i hne
        cases o with
        | ok s' => exact absurd h (hne s' _)
        | thrown s' => exact .loop_thrown (runM_sound h)
        | ub => exact .loop_ub (runM_sound h)
    · simp only [Option.some.injEq, Prod.mk.injEq] at h; rw [← h.1]; exact .stop
  | n + 1, .scope x a, d, _, s, o, h => by
    simp only [runM] at h
    split at h
    · rename_i s' d1 e
      split at h <;> (rename_i el; simp only [Option.some.injEq, Prod.mk.injEq] at h; rw [← h.1])
      · exact .scope (runM_sound e) el
      · exact .leave_ub (runM_sound e) el
    · rename_i s' d1 e
      split at h <;> (rename_i el; simp only [Option.some.injEq, Prod.mk.injEq] at h; rw [← h.1])
      · exact .scope_thrown (runM_sound e) el
      · exact .unwind_ub (runM_sound e) el
    · rename_i h1 h2
      cases o with
      | ok s' => exact absurd h (h1 s' _)
      | thrown s' => exact absurd h (h2 s' _)
      | ub => exact .scope_ub (runM_sound h)

/-- The number of live blocks at the end of a run from the start, if it throws. -/
def runThrown (c : Ms) (d : List Bool) : Option Nat :=
  match runM 100 c d Spec.fresh with
  | some (.thrown s, _) => some s.heap.live.length
  | _ => none

def runEnded (c : Ms) (d : List Bool) : Option Nat :=
  match runM 100 c d Spec.fresh with
  | some (.ok s, _) => some s.heap.live.length
  | _ => none

theorem canLose_of {c : Ms} {n : Nat} (d : List Bool) (h : runThrown c d = some n) : Spec.CanLose c n := by
  unfold runThrown at h
  split at h
  · rename_i s _ e
    exact ⟨s, runM_sound e, by simpa using h⟩
  · exact absurd h (by simp)

theorem canKeep_of {c : Ms} {n : Nat} (d : List Bool) (h : runEnded c d = some n) : Spec.CanKeep c n := by
  unfold runEnded at h
  split at h
  · rename_i s _ e
    exact ⟨s, runM_sound e, by simpa using h⟩
  · exact absurd h (by simp)

theorem canUb_of {c : Ms} (d : List Bool) (h : (match runM 100 c d Spec.fresh with | some (.ub, _) => true | _ => false) = true) :
    Exec c Spec.fresh .ub := by
  split at h
  · rename_i e; exact runM_sound e
  · exact absurd h (by simp)

theorem good_fresh : Spec.GoodHeap Spec.fresh.heap := ⟨List.nodup_nil, fun _ hp => absurd hp List.not_mem_nil⟩

end Grann
