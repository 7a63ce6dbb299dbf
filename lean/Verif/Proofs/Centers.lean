import Verif.Model.Centers
import Verif.Spec.Search
import Mathlib.Data.List.Perm.Basic
import Mathlib.Data.List.Flatten

namespace Grann

theorem wrList_ok {α : Type} : ∀ (xs a : List α) (off : Nat), off + xs.length ≤ a.length →
    wrList a off xs = .ok (a.take off ++ xs ++ a.drop (off + xs.length)) := by
  intro xs
  induction xs with
  | nil => intro a off _; simp [wrList]
  | cons x xs ih =>
    intro a off h
    simp only [List.length_cons] at h
    unfold wrList
    rw [wr_ok (by omega)]
    simp only [Res.ok_bind]
    rw [ih _ _ (by rw [List.length_set]; omega)]
    have h1 : (a.set off x).take (off + 1) = a.take off ++ [x] := by
      rw [List.take_add_one, List.take_set_of_le (Nat.le_refl _),
        List.getElem?_set_self (by omega)]; rfl
    rw [h1, List.drop_set_of_lt (by omega)]
    rw [show off + 1 + xs.length = off + (x :: xs).length by simp only [List.length_cons]; omega]
    simp

theorem wrList_length {α : Type} : ∀ (xs a a' : List α) (off : Nat), wrList a off xs = .ok a' →
    a'.length = a.length := by
  intro xs
  induction xs with
  | nil => intro a a' off h; simp [wrList] at h; rw [h]
  | cons x xs ih =>
    intro a a' off h
    unfold wrList at h
    obtain ⟨b, hb, h⟩ := Res.bind_eq_ok.1 h
    have := ih _ _ _ h
    unfold wr at hb
    split at hb
    · cases hb; simpa using this
    · cases hb

theorem rdList_ok {α : Type} (a : List α) : ∀ (cnt off : Nat), off + cnt ≤ a.length →
    rdList a off cnt = .ok ((a.drop off).take cnt) := by
  intro cnt
  induction cnt with
  | zero => intro off _; simp [rdList]
  | succ cnt ih =>
    intro off h
    unfold rdList
    rw [rd_ok (by omega), ih _ (by omega)]
    simp only [Res.ok_bind]
    rw [List.drop_eq_getElem_cons (show off < a.length by omega), List.take_succ_cons]

/-- The minimum loop yields the first smallest entry, provided some entry is below the initial
minimum. -/
theorem argminLoop_spec : ∀ (row : List F32) (j : Nat) (m : F32) (id : Option Nat),
    ((∀ x ∈ row, x.lt m = false) ∧ argminLoop row j m id = id) ∨
    (∃ i, ∃ h : i < row.length, argminLoop row j m id = some (j + i) ∧ (row[i]).lt m = true ∧
      ((∀ x ∈ row, x.IsNum) → (∀ x ∈ row, (row[i]).le x = true) ∧
        ∀ i' (h' : i' < i), (row[i]).lt (row[i']) = true)) := by
  intro row
  induction row with
  | nil => intro j m id; left; simp [argminLoop]
  | cons x xs ih =>
    intro j m id
    by_cases hx : x.lt m = true
    · right
      rcases ih (j + 1) x (some j) with ⟨h1, h2⟩ | ⟨i, hi, h1, h2, h3⟩
      · refine ⟨0, by simp, ?_, hx, ?_⟩
        · simp [argminLoop, hx, h2]
        · intro hnum
          refine ⟨?_, by intro i' h'; omega⟩
          intro y hy
          rcases List.mem_cons.1 hy with rfl | hy
          · exact F32.le_refl (hnum _ (by simp))
          · exact F32.le_of_not_lt (hnum _ (by simp [hy])) (hnum _ (by simp)) (h1 y hy)
      · refine ⟨i + 1, by simp; omega, ?_, ?_, ?_⟩
        · simp only [argminLoop, hx, if_true, h1]; congr 1; omega
        · simpa using F32.lt_trans h2 hx
        · intro hnum
          obtain ⟨h4, h5⟩ := h3 (fun y hy => hnum y (by simp [hy]))
          refine ⟨?_, ?_⟩
          · intro y hy
            rcases List.mem_cons.1 hy with rfl | hy
            · simpa using F32.le_of_lt h2
            · simpa using h4 y hy
          · intro i' h'
            cases i' with
            | zero => simpa using h2
            | succ i' => simpa using h5 i' (by omega)
    · have hx : x.lt m = false := by simpa using hx
      rcases ih (j + 1) m id with ⟨h1, h2⟩ | ⟨i, hi, h1, h2, h3⟩
      · left
        refine ⟨?_, by simp [argminLoop, hx, h2]⟩
        intro y hy
        rcases List.mem_cons.1 hy with rfl | hy
        · exact hx
        · exact h1 y hy
      · right
        refine ⟨i + 1, by simp; omega, ?_, by simpa using h2, ?_⟩
        · simp only [argminLoop, hx, Bool.false_eq_true, if_false, h1]; congr 1; omega
        · intro hnum
          obtain ⟨h4, h5⟩ := h3 (fun y hy => hnum y (by simp [hy]))
          have hxi : (xs[i]).lt x = true := by
            by_contra hc
            have hm : m.le x = true := by
              refine F32.le_of_not_lt (hnum _ (by simp)) ?_ hx
              exact F32.isNum_of_lt_right h2
            exact hc (F32.lt_of_lt_of_le h2 hm)
          refine ⟨?_, ?_⟩
          · intro y hy
            rcases List.mem_cons.1 hy with rfl | hy
            · simpa using F32.le_of_lt hxi
            · simpa using h4 y hy
          · intro i' h'
            cases i' with
            | zero => simpa using hxi
            | succ i' => simpa using h5 i' (by omega)

/-- The centres reported for one row. -/
def pick (k : Nat) (pops : List F32 → List Nat) (row : List F32) : List Nat :=
  if k = 1 then (argminLoop row 0 F32.fmax none).toList else (pops row).take k

/-- The old content does not matter when some entry is below `FLT_MAX`. -/
theorem argminLoop_some {row : List F32} {j c : Nat} {m : F32}
    (h : argminLoop row j m none = some c) (id : Option Nat) : argminLoop row j m id = some c := by
  induction row generalizing j m id with
  | nil => simp [argminLoop] at h
  | cons x xs ih =>
    unfold argminLoop at h ⊢
    split at h
    · rename_i hx; rw [if_pos hx]; exact h
    · rename_i hx; rw [if_neg hx]; exact ih h id

theorem closestInBlock_spec (k : Nat) (pops : List F32 → List Nat) :
    ∀ (rows : List (List F32)) (i : Nat) (buf : List (Option Nat)),
    (∀ row ∈ rows, (pick k pops row).length = k) → (i + rows.length) * k ≤ buf.length →
    closestInBlock k pops rows i buf =
      .ok (buf.take (i * k) ++ (rows.flatMap (pick k pops)).map some ++
        buf.drop ((i + rows.length) * k)) := by
  intro rows
  induction rows with
  | nil => intro i buf _ _; simp [closestInBlock]
  | cons row rows ih =>
    intro i buf hp hl
    have hrow := hp row (by simp)
    simp only [List.length_cons] at hl
    have hik : i * k + k ≤ buf.length := by
      refine Nat.le_trans ?_ hl
      rw [Nat.add_mul, Nat.succ_mul]; omega
    have hstep : closestRow k pops row i buf =
        .ok (buf.take (i * k) ++ (pick k pops row).map some ++ buf.drop (i * k + k)) := by
      unfold closestRow
      by_cases hk : k = 1
      · rw [if_pos hk]
        subst hk
        simp only [Nat.mul_one] at hik ⊢
        rw [rd_ok (by omega)]
        simp only [Res.ok_bind]
        unfold pick at hrow ⊢
        rw [if_pos rfl] at hrow ⊢
        cases h : argminLoop row 0 F32.fmax none with
        | none => rw [h] at hrow; simp at hrow
        | some c =>
          rw [argminLoop_some h, wr_ok (by omega)]
          simp only [Option.toList_some, List.map_cons, List.map_nil]
          rw [List.set_eq_take_append_cons_drop, if_pos (by omega)]
          simp
      · rw [if_neg hk]
        unfold pick at hrow ⊢
        rw [if_neg hk] at hrow ⊢
        rw [List.length_take] at hrow
        rw [rdList_ok _ _ _ (by omega)]
        simp only [Res.ok_bind, List.drop_zero]
        have hlen : ((List.take k (pops row)).map some).length = k := by
          rw [List.length_map, List.length_take]; omega
        rw [wrList_ok _ _ _ (by rw [hlen]; omega), hlen]
    unfold closestInBlock
    rw [hstep]
    simp only [Res.ok_bind]
    have hl1 : ((pick k pops row).map some).length = k := by rw [List.length_map, hrow]
    have htl : (buf.take (i * k)).length = i * k := by rw [List.length_take]; omega
    have hpre : (buf.take (i * k) ++ (pick k pops row).map some).length = i * k + k := by
      rw [List.length_append, htl, hl1]
    have hnew : (buf.take (i * k) ++ (pick k pops row).map some ++ buf.drop (i * k + k)).length
        = buf.length := by
      rw [List.length_append, hpre, List.length_drop]; omega
    rw [ih (i + 1) _ (fun r hr => hp r (by simp [hr])) (by
      rw [hnew]
      refine Nat.le_trans ?_ hl
      apply Nat.mul_le_mul_right; omega)]
    congr 1
    have e1 : (i + 1) * k = i * k + k := Nat.succ_mul i k
    have e2 : (i + 1 + rows.length) * k = (i * k + k) + rows.length * k := by
      rw [Nat.add_mul, e1]
    have e3 : (i + (row :: rows).length) * k = (i * k + k) + rows.length * k := by
      rw [← e2]; congr 1; simp only [List.length_cons]; omega
    rw [e1, e2, e3]
    rw [List.take_append_of_le_length (by omega), List.take_of_length_le (by omega)]
    rw [List.drop_append, List.drop_of_length_le (by omega), hpre, List.drop_drop]
    simp only [List.flatMap_cons, List.map_append, List.append_assoc, List.nil_append]
    congr 5
    omega

theorem rdInit_some (l : List Nat) : rdInit (l.map some) = .ok l := by
  unfold rdInit
  induction l with
  | nil => rfl
  | cons x xs ih =>
    simp only [List.map_cons, List.mapM_cons, ih]
    rfl

/-- Numbering the entries of equally long blocks. -/
theorem mapIdx_flatten_blocks (k : Nat) : ∀ (xs : List (List Nat)) (s : Nat),
    (∀ l ∈ xs, l.length = k) →
    xs.flatten.mapIdx (fun t c => (c, s + t / k)) =
      (xs.mapIdx (fun i l => l.map (fun c => (c, s + i)))).flatten := by
  intro xs
  induction xs with
  | nil => intro s _; rfl
  | cons l xs ih =>
    intro s hl
    have hk := hl l (by simp)
    rw [List.flatten_cons, List.mapIdx_append, List.mapIdx_cons, List.flatten_cons]
    congr 1
    · apply List.ext_getElem
      · simp
      · intro t h1 h2
        simp only [List.length_mapIdx] at h1
        simp only [List.getElem_mapIdx, List.getElem_map]
        rw [Nat.div_eq_of_lt (by omega)]
    · rcases Nat.eq_zero_or_pos k with h0 | hpos
      · have : xs.flatten = [] := by
          rw [List.flatten_eq_nil_iff]
          intro m hm
          exact List.eq_nil_of_length_eq_zero (by rw [hl m (by simp [hm]), h0])
        rw [this]
        symm
        rw [List.mapIdx_nil, List.flatten_eq_nil_iff]
        intro m hm
        obtain ⟨i, hi, rfl⟩ := List.mem_mapIdx.1 hm
        have : xs[i] = [] := List.eq_nil_of_length_eq_zero (by rw [hl _ (by simp), h0])
        rw [this]; rfl
      · have := ih (s + 1) (fun m hm => hl m (by simp [hm]))
        rw [hk]
        have e : (fun i a => (a, s + (i + k) / k)) = (fun (t : Nat) (c : Nat) => (c, s + 1 + t / k)) := by
          funext i a
          rw [Nat.add_div_right _ hpos]; congr 1; omega
        rw [e, this]
        congr 2
        funext i l
        congr 1
        funext c
        congr 1
        omega

theorem pushAll_spec : ∀ (pushes : List (Nat × Nat)) (inv : List (List Nat)),
    (∀ p ∈ pushes, p.1 < inv.length) →
    ∃ inv', pushAll inv pushes = .ok inv' ∧ inv'.length = inv.length ∧
      ∀ c, inv'.getD c [] = inv.getD c [] ++ (pushes.filter (fun p => p.1 == c)).map Prod.snd := by
  intro pushes
  induction pushes with
  | nil => intro inv _; exact ⟨inv, rfl, rfl, by simp⟩
  | cons p ps ih =>
    intro inv h
    have hp := h p (by simp)
    obtain ⟨inv', e, hl, hc⟩ := ih (inv.set p.1 (inv[p.1] ++ [p.2]))
      (fun p' hp' => by rw [List.length_set]; exact h p' (by simp [hp']))
    refine ⟨inv', ?_, by simpa using hl, ?_⟩
    · unfold pushAll at e ⊢
      rw [List.foldlM_cons, rd_ok hp]
      simp only [Res.ok_bind]
      rw [wr_ok hp]
      exact e
    · intro c
      rw [hc]
      by_cases hpc : p.1 = c
      · subst hpc
        simp [List.getD, List.getElem?_set_self hp, List.getElem?_eq_getElem hp]
      · simp [List.getD, List.getElem?_set_ne hpc, hpc]

/-- All `push_back`s for the first `m` points. -/
def allPush (k : Nat) (pops : List F32 → List Nat) (rows : List (List F32)) : List (Nat × Nat) :=
  (rows.mapIdx (fun j row => (pick k pops row).map (fun c => (c, j)))).flatten

theorem flatMap_length_const {α β : Type} (f : α → List β) (k : Nat) :
    ∀ (l : List α), (∀ x ∈ l, (f x).length = k) → (l.flatMap f).length = l.length * k := by
  intro l
  induction l with
  | nil => intro _; simp
  | cons x xs ih =>
    intro h
    rw [List.flatMap_cons, List.length_append, h x (by simp), ih (fun y hy => h y (by simp [hy])),
      List.length_cons, Nat.succ_mul]
    omega

theorem drop_flatMap_const {α β : Type} (f : α → List β) (k : Nat) :
    ∀ (l : List α) (m : Nat), (∀ x ∈ l, (f x).length = k) → m ≤ l.length →
      (l.flatMap f).drop (m * k) = (l.drop m).flatMap f := by
  intro l m h hm
  have e : l.flatMap f = (l.take m).flatMap f ++ (l.drop m).flatMap f := by
    rw [← List.flatMap_append, List.take_append_drop]
  rw [e, List.drop_append_of_le_length, List.drop_of_length_le]
  · rfl
  · rw [flatMap_length_const f k _ (fun x hx => h x (List.mem_of_mem_take hx)), List.length_take,
      Nat.min_eq_left hm]
  · rw [flatMap_length_const f k _ (fun x hx => h x (List.mem_of_mem_take hx)), List.length_take,
      Nat.min_eq_left hm]

/-- Invariant of the loop over blocks after the first `m` points. -/
structure CCInv (bs k : Nat) (pops : List F32 → List Nat) (rows : List (List F32)) (out0 : List Nat)
    (inv0 : Option (List (List Nat))) (m : Nat) (s : CCSt) : Prop where
  buf : s.buf.length = bs * k
  out : s.out = (rows.take m).flatMap (pick k pops) ++ out0.drop (m * k)
  invNone : inv0 = none → s.inv = none
  invSome : ∀ i0, inv0 = some i0 → ∃ i, s.inv = some i ∧ i.length = i0.length ∧
    ∀ c, (i.getD c []).Perm (i0.getD c [] ++
      ((allPush k pops (rows.take m)).filter (fun p => p.1 == c)).map Prod.snd)

theorem closestBlockStep_spec {bs k nc : Nat} {pops : List F32 → List Nat}
    {sched : List (Nat × Nat) → List (Nat × Nat)} (hsched : ∀ l, (sched l).Perm l)
    {rows : List (List F32)} {out0 : List Nat} {inv0 : Option (List (List Nat))}
    (hlen : ∀ row ∈ rows, (pick k pops row).length = k)
    (hlt : ∀ row ∈ rows, ∀ c ∈ pick k pops row, c < nc)
    (hinv : ∀ i0, inv0 = some i0 → nc ≤ i0.length)
    (hout : rows.length * k ≤ out0.length) {b : Nat} {s : CCSt} (hb : b * bs < rows.length)
    (hs : CCInv bs k pops rows out0 inv0 (b * bs) s) :
    ∃ s', closestBlockStep bs k pops sched rows s b = .ok s' ∧
      CCInv bs k pops rows out0 inv0 (min rows.length ((b + 1) * bs)) s' := by
  obtain ⟨m, hmdef⟩ : ∃ m, m = b * bs := ⟨_, rfl⟩
  obtain ⟨blk, hblkdef⟩ : ∃ blk, blk = (rows.drop m).take bs := ⟨_, rfl⟩
  rw [← hmdef] at hb hs
  have hblk : ∀ row ∈ blk, row ∈ rows := fun row hr => by
    rw [hblkdef] at hr; exact List.mem_of_mem_drop (List.mem_of_mem_take hr)
  have hbl : blk.length ≤ bs := by rw [hblkdef, List.length_take]; omega
  have hbl2 : blk.length = min rows.length ((b + 1) * bs) - m := by
    rw [hblkdef, List.length_take, List.length_drop, Nat.succ_mul]; omega
  have hm' : m ≤ min rows.length ((b + 1) * bs) := by
    rw [Nat.succ_mul]; omega
  have htake : rows.take (min rows.length ((b + 1) * bs)) = rows.take m ++ blk := by
    have : min rows.length ((b + 1) * bs) = m + blk.length := by omega
    rw [this, List.take_add]
    congr 1
    rw [hblkdef, List.length_take, List.take_eq_take_iff]
    omega
  have hbk : blk.length * k ≤ bs * k := Nat.mul_le_mul_right _ hbl
  have h1 := closestInBlock_spec k pops blk 0 s.buf (fun r hr => hlen r (hblk r hr))
    (by rw [Nat.zero_add, hs.buf]; exact hbk)
  simp only [Nat.zero_mul, List.take_zero, List.nil_append, Nat.zero_add] at h1
  have hfl : (blk.flatMap (pick k pops)).length = blk.length * k :=
    flatMap_length_const _ _ _ (fun r hr => hlen r (hblk r hr))
  have h2 : rdList ((blk.flatMap (pick k pops)).map some ++ s.buf.drop (blk.length * k)) 0
      (blk.length * k) = .ok ((blk.flatMap (pick k pops)).map some) := by
    rw [rdList_ok _ _ _ (by rw [List.length_append, List.length_map, hfl]; omega), List.drop_zero,
      List.take_append_of_le_length (by rw [List.length_map, hfl]), List.take_of_length_le
        (by rw [List.length_map, hfl])]
  have hmlen : ((rows.take m).flatMap (pick k pops)).length = m * k := by
    rw [flatMap_length_const _ k _ (fun r hr => hlen r (List.mem_of_mem_take hr)), List.length_take,
      Nat.min_eq_left (Nat.le_of_lt hb)]
  have hnk : (m + blk.length) * k ≤ out0.length := by
    refine Nat.le_trans (Nat.mul_le_mul_right _ ?_) hout
    omega
  have hadd : (m + blk.length) * k = m * k + blk.length * k := Nat.add_mul _ _ _
  have hsol : s.out.length = out0.length := by
    rw [hs.out, List.length_append, hmlen, List.length_drop]; omega
  have h3 : wrList s.out (m * k) (blk.flatMap (pick k pops)) =
      .ok ((rows.take (min rows.length ((b + 1) * bs))).flatMap (pick k pops) ++
        out0.drop (min rows.length ((b + 1) * bs) * k)) := by
    rw [wrList_ok _ _ _ (by rw [hfl, hsol]; omega)]
    congr 1
    rw [htake, List.flatMap_append, hs.out]
    rw [List.take_append_of_le_length (by omega), List.take_of_length_le (by omega)]
    rw [List.drop_append, List.drop_of_length_le (by omega), hmlen, List.drop_drop, hfl]
    simp only [List.nil_append]
    congr 2
    have : min rows.length ((b + 1) * bs) = m + blk.length := by omega
    rw [this, hadd]
    omega
  have hpush : (blk.flatMap (pick k pops)).mapIdx (fun t c => (c, m + t / k)) =
      (blk.mapIdx (fun j row => (pick k pops row).map (fun c => (c, m + j)))).flatten := by
    have := mapIdx_flatten_blocks k (blk.map (pick k pops)) m (by
      intro l hl
      obtain ⟨r, hr, rfl⟩ := List.mem_map.1 hl
      exact hlen r (hblk r hr))
    rw [← List.flatMap_def] at this
    rw [this]
    congr 1
    apply List.ext_getElem
    · simp
    · intro i h1 h2; simp
  have hall : allPush k pops (rows.take (min rows.length ((b + 1) * bs))) =
      allPush k pops (rows.take m) ++
        (blk.mapIdx (fun j row => (pick k pops row).map (fun c => (c, m + j)))).flatten := by
    rw [htake]
    unfold allPush
    rw [List.mapIdx_append, List.flatten_append]
    congr 2
    rw [List.length_take, Nat.min_eq_left (Nat.le_of_lt hb)]
    congr 1
    funext j row
    congr 1
    funext c
    congr 1
    omega
  unfold closestBlockStep
  simp only []
  rw [← hmdef, ← hblkdef, h1]
  simp only [Res.ok_bind]
  rw [h2]
  simp only [Res.ok_bind]
  rw [rdInit_some]
  simp only [Res.ok_bind]
  rw [h3]
  simp only [Res.ok_bind]
  have hbuf : ((blk.flatMap (pick k pops)).map some ++ s.buf.drop (blk.length * k)).length = bs * k := by
    rw [List.length_append, List.length_map, hfl, List.length_drop, hs.buf]; omega
  cases hi0 : inv0 with
  | none =>
    rw [hs.invNone hi0]
    refine ⟨_, rfl, hbuf, rfl, fun _ => rfl, ?_⟩
    intro i0 h; cases h
  | some i0 =>
    obtain ⟨i, hi, hil, hip⟩ := hs.invSome i0 hi0
    rw [hi, hpush]
    have hps : ∀ p ∈ sched (blk.mapIdx (fun j row => (pick k pops row).map (fun c => (c, m + j)))).flatten,
        p.1 < i.length := by
      intro p hp
      have := (hsched _).mem_iff.1 hp
      obtain ⟨l, hl, hpl⟩ := List.mem_flatten.1 this
      obtain ⟨j, hj, rfl⟩ := List.mem_mapIdx.1 hl
      obtain ⟨c, hc, rfl⟩ := List.mem_map.1 hpl
      have := hlt _ (hblk _ (List.getElem_mem hj)) c hc
      have := hinv i0 hi0
      simp only []
      omega
    obtain ⟨i', e, hl', hc'⟩ := pushAll_spec _ i hps
    simp only [e, Res.ok_bind]
    refine ⟨_, rfl, hbuf, rfl, by intro h; simp at h, ?_⟩
    intro i1 hi1
    have : i1 = i0 := by simpa using hi1.symm
    subst this
    refine ⟨i', rfl, by omega, ?_⟩
    intro c
    rw [hc', hall, List.filter_append, List.map_append, ← List.append_assoc]
    exact (hip c).append (((hsched _).filter _).map _)

/-- `compute_closest_centers` when every row has its `k` centres. -/
theorem closestCenters_spec {maxBlk nc k : Nat} {pops : List F32 → List Nat}
    {sched : Nat → List (Nat × Nat) → List (Nat × Nat)} (hsched : ∀ b l, (sched b l).Perm l)
    {rows : List (List F32)} {out0 : List Nat} {inv0 : Option (List (List Nat))}
    (hblk : 1 ≤ maxBlk) (hn : 1 ≤ rows.length) (hk : k ≤ nc)
    (hlen : ∀ row ∈ rows, (pick k pops row).length = k)
    (hlt : ∀ row ∈ rows, ∀ c ∈ pick k pops row, c < nc)
    (hinv : ∀ i0, inv0 = some i0 → nc ≤ i0.length)
    (hout : rows.length * k ≤ out0.length) :
    ∃ inv', closestCenters maxBlk nc k pops sched rows out0 inv0 =
        .ok (rows.flatMap (pick k pops) ++ out0.drop (rows.length * k), inv') ∧
      (inv0 = none → inv' = none) ∧
      (∀ i0, inv0 = some i0 → ∃ i, inv' = some i ∧ i.length = i0.length ∧
        ∀ c, (i.getD c []).Perm (i0.getD c [] ++
          ((allPush k pops rows).filter (fun p => p.1 == c)).map Prod.snd)) := by
  let n := rows.length
  let bs := min n maxBlk
  have hbs : 1 ≤ bs := by simp only [bs]; omega
  let nB := if n % bs = 0 then n / bs else n / bs + 1
  have hdm := Nat.div_add_mod n bs
  have hml := Nat.mod_lt n (show 0 < bs by omega)
  have hnB1 : ∀ b, b < nB → b * bs < n := by
    intro b hb
    have hmod := Nat.mod_lt n (show 0 < bs by omega)
    simp only [nB] at hb
    split at hb
    · rename_i h0
      have : b + 1 ≤ n / bs := hb
      have := Nat.mul_le_mul_right bs this
      rw [Nat.mul_comm (n / bs), Nat.add_mul] at this
      omega
    · rename_i h0
      have : b ≤ n / bs := by omega
      have := Nat.mul_le_mul_right bs this
      rw [Nat.mul_comm (n / bs)] at this
      omega
  have hnB2 : n ≤ nB * bs := by
    simp only [nB]
    split
    · rename_i h0; rw [Nat.mul_comm]; omega
    · rename_i h0
      rw [Nat.add_mul, Nat.mul_comm (n / bs)]
      omega
  have hloop : ∀ b, b ≤ nB → ∃ s, (List.range b).foldlM
        (fun s b => closestBlockStep bs k pops (sched b) rows s b)
        ⟨List.replicate (bs * k) none, out0, inv0⟩ = .ok s ∧
      CCInv bs k pops rows out0 inv0 (min n (b * bs)) s := by
    intro b
    induction b with
    | zero =>
      intro _
      refine ⟨_, rfl, by simp, by simp, fun h => h, ?_⟩
      intro i0 h
      exact ⟨i0, h, rfl, by intro c; simp [allPush]⟩
    | succ b ih =>
      intro hb
      obtain ⟨s, e, hs⟩ := ih (by omega)
      have hlt' := hnB1 b (by omega)
      rw [Nat.min_eq_right (Nat.le_of_lt hlt')] at hs
      obtain ⟨s', e', hs'⟩ := closestBlockStep_spec (sched := sched b) (hsched b) hlen hlt hinv hout hlt' hs
      refine ⟨s', ?_, hs'⟩
      rw [List.range_succ, List.foldlM_append, e]
      simp only [Res.ok_bind, List.foldlM_cons, List.foldlM_nil]
      rw [e']
      rfl
  obtain ⟨s, e, hs⟩ := hloop nB (Nat.le_refl _)
  rw [Nat.min_eq_left hnB2] at hs
  refine ⟨s.inv, ?_, hs.invNone, ?_⟩
  · unfold closestCenters
    rw [if_neg (by omega)]
    simp only []
    rw [if_neg (by show ¬ bs = 0; omega)]
    rw [show (List.range (if rows.length % min rows.length maxBlk = 0 then rows.length / min rows.length maxBlk
      else rows.length / min rows.length maxBlk + 1)) = List.range nB from rfl]
    rw [e]
    simp only [Res.ok_bind]
    rw [hs.out, List.take_of_length_le (Nat.le_refl _)]
  · intro i0 h
    obtain ⟨i, h1, h2, h3⟩ := hs.invSome i0 h
    refine ⟨i, h1, h2, fun c => ?_⟩
    have := h3 c
    rwa [List.take_of_length_le (Nat.le_refl _)] at this

/-- One row: the picked centres are the `k` nearest. -/
theorem pick_spec {k nc : Nat} {pops : List F32 → List Nat} (hpops : IsPopOrder pops) {row : List F32}
    (hrow : row.length = nc) (hk : k ≤ nc) (hnum : ∀ x ∈ row, x.IsNum)
    (hfin : k = 1 → ∃ x ∈ row, x.lt F32.fmax = true) :
    (pick k pops row).length = k ∧ (∀ c ∈ pick k pops row, c < nc) ∧ (pick k pops row).Nodup ∧
      Spec.KNearest k (Finset.range nc) (fun c => row.getD c F32.nan)
        ((pick k pops row).map (fun c => (c, row.getD c F32.nan))) := by
  have hid : ∀ l : List Nat, (l.map (fun c => (c, row.getD c F32.nan))).map Prod.fst = l := by
    intro l; rw [List.map_map]; simp [Function.comp_def]
  unfold pick
  by_cases h1 : k = 1
  · rw [if_pos h1]
    rcases argminLoop_spec row 0 F32.fmax none with ⟨hno, _⟩ | ⟨i, hi, e, _, h3⟩
    · obtain ⟨x, hx, hl⟩ := hfin h1
      rw [hno x hx] at hl; cases hl
    · rw [e]
      simp only [Nat.zero_add, Option.toList_some]
      obtain ⟨h4, _⟩ := h3 hnum
      have hgi : row.getD i F32.nan = row[i] := by simp [List.getD, List.getElem?_eq_getElem hi]
      refine ⟨by simp [h1], by simp; omega, by simp, ?_⟩
      refine ⟨by simp, by simp, ?_, ?_, ?_⟩
      · intro x hx
        simp at hx; subst hx
        simp; omega
      · simp; omega
      · intro j hj _ x hx
        simp only [List.map_cons, List.map_nil, List.mem_singleton] at hx
        subst hx
        simp only [hgi]
        have hj' : j < row.length := by simpa [hrow] using hj
        have : row.getD j F32.nan = row[j] := by simp [List.getD, List.getElem?_eq_getElem hj']
        rw [this]
        exact h4 _ (List.getElem_mem _)
  · rw [if_neg h1]
    have hperm := hpops.perm row
    have hs := hpops.sorted row hnum
    have hl : (pops row).length = nc := by rw [hperm.length_eq, List.length_range, hrow]
    have hnd : (pops row).Nodup := hperm.nodup_iff.2 List.nodup_range
    have hmem : ∀ c, c ∈ pops row ↔ c < nc := by
      intro c; rw [hperm.mem_iff, List.mem_range, hrow]
    refine ⟨by rw [List.length_take]; omega,
      fun c hc => (hmem c).1 (List.mem_of_mem_take hc), hnd.sublist (List.take_sublist _ _), ?_⟩
    refine ⟨?_, ?_, ?_, ?_, ?_⟩
    · rw [List.pairwise_map]; exact hs.sublist (List.take_sublist _ _)
    · rw [hid]; exact hnd.sublist (List.take_sublist _ _)
    · intro x hx
      obtain ⟨c, hc, rfl⟩ := List.mem_map.1 hx
      exact ⟨by simpa using (hmem c).1 (List.mem_of_mem_take hc), rfl⟩
    · rw [List.length_map, List.length_take, Finset.card_range]; omega
    · intro j hj hnot x hx
      rw [hid] at hnot
      obtain ⟨c, hc, rfl⟩ := List.mem_map.1 hx
      have hjm : j ∈ pops row := (hmem j).2 (by simpa using hj)
      rw [← List.take_append_drop k (pops row)] at hjm hs
      rw [List.pairwise_append] at hs
      rcases List.mem_append.1 hjm with h | h
      · exact absurd h hnot
      · exact hs.2.2 c hc j h

end Grann
