import Verif.Model.ParMedoid
import Verif.Proofs.ParWp
/-!
# The loop over the labels: the choice of a medoid, and the stages of an iteration
-/

namespace Grann

open Par

/-! ## The choice of a medoid -/

/-- The shared objects: the labels, the labels of the points, the number of calls of `rand`, the counter, and the maps. -/
structure LabelMem (labels : List Label) (ptl : List (List Label)) (r k : Nat) (s : MedSt) (m : Mem LVal) : Prop where
  lab : ∀ (i : Nat) (x : Label), labels[i]? = some x → m ⟨"labels", i, 0⟩ = some (.lab x)
  pts : ∀ (i : Nat) (ls : List Label), ptl[i]? = some ls → m ⟨"pts_to_labels", i, 0⟩ = some (.labs ls)
  rand : m ⟨"rand", 0, 0⟩ = some (.num r)
  cnt : m ⟨"counter", 0, 0⟩ = some (.num k)
  meds : m ⟨"filter_to_medoid_id", 0, 0⟩ = some (.meds s.medoids)
  counts : m ⟨"medoid_counts", 0, 0⟩ = some (.counts s.counts)

section
variable {labels : List Label} {ptl : List (List Label)} {r k : Nat} {s : MedSt} {m : Mem LVal}

theorem LabelMem.setRand (h : LabelMem labels ptl r k s m) (r' : Nat) :
    LabelMem labels ptl r' k s (m.upd ⟨"rand", 0, 0⟩ (.num r')) :=
  ⟨fun i x hx => by rw [upd_ne (loc_ne (by decide))]; exact h.lab i x hx,
   fun i x hx => by rw [upd_ne (loc_ne (by decide))]; exact h.pts i x hx, upd_self,
   by rw [upd_ne (loc_ne (by decide))]; exact h.cnt, by rw [upd_ne (loc_ne (by decide))]; exact h.meds,
   by rw [upd_ne (loc_ne (by decide))]; exact h.counts⟩

theorem LabelMem.setCnt (h : LabelMem labels ptl r k s m) (k' : Nat) :
    LabelMem labels ptl r k' s (m.upd ⟨"counter", 0, 0⟩ (.num k')) :=
  ⟨fun i x hx => by rw [upd_ne (loc_ne (by decide))]; exact h.lab i x hx,
   fun i x hx => by rw [upd_ne (loc_ne (by decide))]; exact h.pts i x hx,
   by rw [upd_ne (loc_ne (by decide))]; exact h.rand, upd_self, by rw [upd_ne (loc_ne (by decide))]; exact h.meds,
   by rw [upd_ne (loc_ne (by decide))]; exact h.counts⟩

theorem LabelMem.setMeds (h : LabelMem labels ptl r k s m) (x : List (Label × Nat)) :
    LabelMem labels ptl r k ⟨x, s.counts⟩ (m.upd ⟨"filter_to_medoid_id", 0, 0⟩ (.meds x)) :=
  ⟨fun i x hx => by rw [upd_ne (loc_ne (by decide))]; exact h.lab i x hx,
   fun i x hx => by rw [upd_ne (loc_ne (by decide))]; exact h.pts i x hx,
   by rw [upd_ne (loc_ne (by decide))]; exact h.rand, by rw [upd_ne (loc_ne (by decide))]; exact h.cnt, upd_self,
   by rw [upd_ne (loc_ne (by decide))]; exact h.counts⟩

theorem LabelMem.setCounts (h : LabelMem labels ptl r k s m) (x : List (Nat × Nat)) :
    LabelMem labels ptl r k ⟨s.medoids, x⟩ (m.upd ⟨"medoid_counts", 0, 0⟩ (.counts x)) :=
  ⟨fun i x hx => by rw [upd_ne (loc_ne (by decide))]; exact h.lab i x hx,
   fun i x hx => by rw [upd_ne (loc_ne (by decide))]; exact h.pts i x hx,
   by rw [upd_ne (loc_ne (by decide))]; exact h.rand, by rw [upd_ne (loc_ne (by decide))]; exact h.cnt,
   by rw [upd_ne (loc_ne (by decide))]; exact h.meds, upd_self⟩

theorem wp_draw (h : LabelMem labels ptl r k s m) (draw : Nat → Nat) (pts : List Nat) (cnd : Nat) (b : Nat × Nat) :
    Wp (parDraw draw pts cnd b) m fun b' m' =>
      let u := useCount s.counts (pts.getD (draw r % pts.length) 0)
      b' = (if u.1 < b.2 ∨ cnd = 0 then (pts.getD (draw r % pts.length) 0, u.1) else b) ∧
      LabelMem labels ptl (r + 1) k ⟨s.medoids, u.2⟩ m' := by
  have h' := h.setRand (r + 1)
  refine wp_rd h.rand (wp_wr ⟨_, h.rand⟩ (wp_rd h'.counts ?_))
  show Wp (match s.counts.lookup (pts.getD (draw r % pts.length) 0) with
    | none => Par.bind _ _ | some _ => Par.bind _ _) _ _
  split
  · rename_i hl
    have hu : useCount s.counts (pts.getD (draw r % pts.length) 0) = (0, aset s.counts (pts.getD (draw r % pts.length) 0) 0) := by
      simp only [useCount, hl]
    rw [hu]
    exact wp_bind (wp_rd h'.counts (wp_wr ⟨_, h'.counts⟩ (wp_ret (wp_ret ⟨rfl, h'.setCounts _⟩))))
  · rename_i v hl
    have hu : useCount s.counts (pts.getD (draw r % pts.length) 0) = (v, s.counts) := by simp only [useCount, hl]
    rw [hu]
    refine wp_bind (wp_rd h'.counts (wp_ret (wp_ret ⟨?_, h'⟩)))
    show (if ((s.counts.lookup (pts.getD (draw r % pts.length) 0)).getD 0) < b.2 ∨ cnd = 0 then
      (pts.getD (draw r % pts.length) 0, (s.counts.lookup (pts.getD (draw r % pts.length) 0)).getD 0) else b) = _
    rw [hl]; rfl

theorem wp_draws (draw : Nat → Nat) (pts : List Nat) (hpts : pts.length ≠ 0) (todo cnd : Nat) (b : Nat × Nat)
    (h : LabelMem labels ptl r k s m) :
    Wp (Par.loop (parDraw draw pts) todo cnd b) m fun b' m' =>
      ∃ cs, drawLoop pts ((List.range' r todo).map draw) cnd b.1 b.2 s.counts = .ok (b'.1, cs) ∧
        LabelMem labels ptl (r + todo) k ⟨s.medoids, cs⟩ m' := by
  induction todo generalizing cnd b r s m with
  | zero => exact wp_ret ⟨s.counts, rfl, h⟩
  | succ n ih =>
    refine wp_bind (wp_mono (wp_draw h draw pts cnd b) ?_)
    rintro b' m' ⟨rfl, h'⟩
    refine wp_mono (ih (cnd + 1) _ h') ?_
    rintro b'' m'' ⟨cs, e, h''⟩
    refine ⟨cs, ?_, by rwa [show r + (n + 1) = r + 1 + n by omega]⟩
    have hlt : draw r % pts.length < pts.length := Nat.mod_lt _ (by omega)
    have hrd : rd pts (draw r % pts.length) = .ok (pts.getD (draw r % pts.length) 0) := by
      simp only [rd, List.getD_eq_getElem?_getD, List.getElem?_eq_getElem hlt, Option.getD_some]
    rw [List.range'_succ, List.map_cons, drawLoop, hrd, Res.ok_bind]
    dsimp only
    split
    · rename_i hc
      rw [if_pos hc] at e
      exact e
    · rename_i hc
      rw [if_neg hc] at e
      exact e

theorem wp_choose (draw : Nat → Nat) (x : Label) (pts : List Nat) (hpts : pts.length ≠ 0) (h : LabelMem labels ptl r k s m) :
    Wp (parChoose draw x pts) m fun _ m' => ∃ best cs,
      drawLoop pts ((List.range 25).map fun j => draw (r + j)) 0 0 4294967295 s.counts = .ok (best, cs) ∧
      LabelMem labels ptl (r + 25) k ⟨aset s.medoids x best, aset cs best (u32 ((cs.lookup best).getD 0 + 1))⟩ m' := by
  refine wp_bind (wp_mono (wp_draws draw pts hpts 25 0 (0, 4294967295) h) ?_)
  rintro b m' ⟨cs, e, h'⟩
  have h2 := h'.setMeds (aset s.medoids x b.1)
  refine wp_rd h'.meds (wp_wr ⟨_, h'.meds⟩ (wp_rd h2.counts (wp_wrl ⟨_, h2.counts⟩ ⟨b.1, cs, ?_, h2.setCounts _⟩)))
  rw [← e, List.range'_eq_map_range, List.map_map]; rfl

theorem wp_count (h : LabelMem labels ptl r k s m) :
    Wp (do
      let k ← rdAt ⟨"counter", 0, 0⟩
      wrAt ⟨"counter", 0, 0⟩ (.num (u32 (k.toNum + 1))) : Par LVal Unit) m fun _ m' => LabelMem labels ptl r (u32 (k + 1)) s m' :=
  wp_rd h.cnt (wp_wrl ⟨_, h.cnt⟩ (h.setCnt _))

end

/-! ## The stages of an iteration -/

/-- The part of the memory that is not changed. -/
def constMem (labels : List Label) (ptl : List (List Label)) : Mem LVal := fun l =>
  if l.j = 0 then
    if l.arr = "labels" then (labels[l.i]?).map .lab else if l.arr = "pts_to_labels" then (ptl[l.i]?).map .labs else none
  else none

theorem LabelMem.const {labels : List Label} {ptl : List (List Label)} {r k : Nat} {s : MedSt} {m : Mem LVal}
    (h : LabelMem labels ptl r k s m) {l : Loc} {v : LVal} (hv : constMem labels ptl l = some v) : m l = some v := by
  obtain ⟨arr, i, j⟩ := l
  simp only [constMem] at hv
  split at hv
  · rename_i hj
    subst hj
    split at hv
    · rename_i ha
      subst ha
      obtain ⟨x, hx, rfl⟩ := Option.map_eq_some_iff.mp hv
      exact h.lab i x hx
    · split at hv
      · rename_i ha
        subst ha
        obtain ⟨x, hx, rfl⟩ := Option.map_eq_some_iff.mp hv
        exact h.pts i x hx
      · cases hv
  · cases hv

section
variable {V : Type} (c : Ctx V)

theorem filteredPoints_ok (x : Label) (todo i : Nat) (h : i + todo ≤ c.labels.length) : ∃ pts, filteredPoints c x todo i = .ok pts := by
  induction todo generalizing i with
  | zero => exact ⟨[], rfl⟩
  | succ n ih =>
    obtain ⟨pts, hp⟩ := ih (i + 1) (by omega)
    have hi : i < c.labels.length := by omega
    exact ⟨_, by simp only [filteredPoints, rd, List.getElem?_eq_getElem hi, hp, Res.ok_bind]; rfl⟩

theorem settle_filtered (labels : List Label) (x : Label) (todo i : Nat) (acc rest : List Nat) (h : filteredPoints c x todo i = .ok rest) :
    (Par.loop (fun i pts => (do
      let ls ← rdAt ⟨"pts_to_labels", i, 0⟩
      .ret (if ls.toLabs.contains x || (c.useUniv && ls.toLabs.contains c.univ) then pts ++ [i] else pts) :
        Par LVal (List Nat))) todo i acc).settle (constMem labels c.labels) = .ret (acc ++ rest) := by
  induction todo generalizing i acc rest with
  | zero => simp only [filteredPoints] at h; cases h; simp [Par.loop, Par.settle]
  | succ n ih =>
    simp only [filteredPoints, rd] at h
    cases hl : c.labels[i]? with
    | none => rw [hl] at h; cases h
    | some ls =>
      rw [hl] at h
      simp only [Res.ok_bind] at h
      obtain ⟨rest', h1, h2⟩ := Res.bind_eq_ok.mp h
      cases h2
      have e : Par.settle (constMem labels c.labels) (do
          let ls ← rdAt ⟨"pts_to_labels", i, 0⟩
          .ret (if ls.toLabs.contains x || (c.useUniv && ls.toLabs.contains c.univ) then acc ++ [i] else acc) : Par LVal (List Nat)) =
          .ret (if ls.contains x || (c.useUniv && ls.contains c.univ) then acc ++ [i] else acc) := by
        have hv : constMem labels c.labels ⟨"pts_to_labels", i, 0⟩ = some (.labs ls) := by simp [constMem, hl]
        show Par.settle _ (.load _ _) = _
        simp only [Par.settle, hv]
        rfl
      rw [Par.loop, Par.settle_bind _ _ _ e, ih (i + 1) _ rest' h1]
      split <;> simp

/-- The choice is next. -/
def chooseProg (draw : Nat → Nat) (x : Label) (pts : List Nat) : Par LVal Unit :=
  .enter ((parChoose draw x pts).bind fun _ => .leave parCount)

/-- The message is next. -/
def tellProg : Par LVal Unit := .load ⟨"counter", 0, 0⟩ fun _ => .ret ()

/-- How far an iteration has got. -/
def LStage (labels : List Label) (draw : Nat → Nat) (x : Label) (pts : List Nat) : Nat → Par LVal Unit → Prop
  | 0, p => pts.length ≠ 0 ∧ p.settle (constMem labels c.labels) = chooseProg draw x pts
  | 1, p => p.settle (constMem labels c.labels) = parCount
  | 2, p => p = tellProg
  | _ + 3, p => p = .ret ()

theorem parCount_eq : parCount = .enter ((do
      let k ← rdAt ⟨"counter", 0, 0⟩
      wrAt ⟨"counter", 0, 0⟩ (.num (u32 (k.toNum + 1))) : Par LVal Unit).bind fun _ => .leave tellProg) := rfl

theorem stage_start (labels : List Label) (draw : Nat → Nat) {t : Nat} {x : Label} {pts : List Nat} (ht : labels[t]? = some x)
    (hp : filteredPoints c x c.data.length 0 = .ok pts) :
    LStage c labels draw x pts (if pts.length = 0 then 1 else 0) (parLabelIter draw c.useUniv c.univ c.data.length t) := by
  have e1 : (parLabelIter draw c.useUniv c.univ c.data.length t).settle (constMem labels c.labels) =
      Par.settle (constMem labels c.labels)
        (if pts.length ≠ 0 then (critical (parChoose draw x pts)).bind fun _ => parCount else (Par.ret ()).bind fun _ => parCount) := by
    have hv : constMem labels c.labels ⟨"labels", t, 0⟩ = some (.lab x) := by simp [constMem, ht]
    show Par.settle _ (.load _ _) = _
    simp only [Par.settle, hv]
    exact Par.settle_bind _ (parFiltered c.useUniv c.univ x c.data.length) _ (settle_filtered c labels x _ 0 [] pts hp)
  split
  · rename_i h0
    rw [if_neg (by simpa using h0)] at e1
    exact e1
  · rename_i h0
    rw [if_pos h0] at e1
    refine ⟨h0, e1.trans ?_⟩
    show Par.enter (Par.bind (Par.bind _ _) _) = _
    rw [Par.bind_assoc]
    rfl

theorem parDraw_within (draw : Nat → Nat) (pts : List Nat) (cnd : Nat) (b : Nat × Nat) :
    (parDraw draw pts cnd b).Within fun l => l ∈ [(⟨"rand", 0, 0⟩ : Loc), ⟨"counter", 0, 0⟩, ⟨"medoid_counts", 0, 0⟩, ⟨"filter_to_medoid_id", 0, 0⟩] := by
  refine ⟨by simp, fun v => ⟨by simp, ⟨by simp, fun w => ?_⟩⟩⟩
  show Par.Within _ (match w.toCounts.lookup _ with | none => Par.bind _ _ | some _ => Par.bind _ _)
  split
  · exact ⟨by simp, fun _ => ⟨by simp, trivial⟩⟩
  · exact ⟨by simp, fun _ => trivial⟩

theorem parChoose_within (draw : Nat → Nat) (x : Label) (pts : List Nat) :
    (parChoose draw x pts).Within fun l => l ∈ [(⟨"rand", 0, 0⟩ : Loc), ⟨"counter", 0, 0⟩, ⟨"medoid_counts", 0, 0⟩, ⟨"filter_to_medoid_id", 0, 0⟩] :=
  Par.within_bind (Par.within_loop _ _ _ fun j s _ _ => parDraw_within draw pts j s) fun _ =>
    ⟨by simp, fun _ => ⟨by simp, ⟨by simp, fun _ => ⟨by simp, trivial⟩⟩⟩⟩

theorem parChoose_flat (draw : Nat → Nat) (x : Label) (pts : List Nat) : (parChoose draw x pts).Flat := (parChoose_within draw x pts).flat

/-- The invariant of an execution with the critical sections as single steps: `done` are the iterations that have chosen, in
order, `cnt` those that have counted. -/
structure LabelInv (labels : List Label) (draw : Nat → Nat) (s0 : MedSt) (done cnt : List Nat) (st : Nat → Nat)
    (a : Mem LVal × List (Par LVal Unit)) : Prop where
  len : a.2.length = labels.length
  stage : ∀ (t : Nat) (x : Label) (pts : List Nat), labels[t]? = some x → filteredPoints c x c.data.length 0 = .ok pts →
    ∃ p, a.2[t]? = some p ∧ LStage c labels draw x pts (st t) p
  nodup : done.Nodup
  mem : ∀ (t : Nat) (x : Label) (pts : List Nat), labels[t]? = some x → filteredPoints c x c.data.length 0 = .ok pts →
    (t ∈ done ↔ pts.length ≠ 0 ∧ 1 ≤ st t)
  bound : ∀ t ∈ done, t < labels.length
  cnodup : cnt.Nodup
  cmem : ∀ t, t ∈ cnt ↔ t < labels.length ∧ 2 ≤ st t
  meds : ∃ s, labelMedoids c (done.map fun t => labels.getD t []) draw s0 = .ok s ∧
    LabelMem labels c.labels (25 * done.length) (u32 cnt.length) s a.1

theorem labelMedoids_append (xs ys : List Label) (draw : Nat → Nat) (s : MedSt) :
    labelMedoids c (xs ++ ys) draw s = (labelMedoids c xs draw s).bind fun s' =>
      labelMedoids c ys (fun k => draw (k + (xs.map (usedDraws c)).sum)) s' := by
  induction xs generalizing draw s with
  | nil => rfl
  | cons x xs ih =>
    simp only [List.cons_append, labelMedoids, List.map_cons, List.sum_cons]
    cases labelStep c draw x s with
    | error e => rfl
    | ok s' =>
      simp only [Res.ok_bind]
      rw [ih]
      congr 1
      funext s''
      congr 1
      funext k
      rw [show k + (xs.map (usedDraws c)).sum + usedDraws c x = k + (usedDraws c x + (xs.map (usedDraws c)).sum) by omega]

theorem usedDraws_of {x : Label} {pts : List Nat} (hp : filteredPoints c x c.data.length 0 = .ok pts) :
    usedDraws c x = if pts.length = 0 then 0 else 25 := by
  unfold usedDraws
  rw [hp]
  cases pts <;> simp

theorem labelMedoids_empty (xs : List Label) (draw : Nat → Nat) (s : MedSt)
    (h : ∀ x ∈ xs, filteredPoints c x c.data.length 0 = .ok []) : labelMedoids c xs draw s = .ok s := by
  induction xs generalizing draw with
  | nil => rfl
  | cons x xs ih =>
    have e : labelStep c draw x s = .ok s := by
      simp only [labelStep, h x (by simp), Res.ok_bind]; rfl
    simp only [labelMedoids, e, Res.ok_bind]
    exact ih _ fun y hy => h y (by simp [hy])

variable {c}

/-- An iteration moves on without changing the stage or the maps. -/
theorem LabelInv.move {labels : List Label} {draw : Nat → Nat} {s0 : MedSt} {done cnt : List Nat} {st : Nat → Nat}
    {a : Mem LVal × List (Par LVal Unit)} (h : LabelInv c labels draw s0 done cnt st a) {t : Nat} {x : Label} {pts : List Nat}
    (ht : labels[t]? = some x) (hp : filteredPoints c x c.data.length 0 = .ok pts) {p : Par LVal Unit} {j : Nat}
    (hj : LStage c labels draw x pts j p) {m' : Mem LVal} {done' cnt' : List Nat} {s' : MedSt}
    (hd : done' = done ∨ (done' = done ++ [t] ∧ pts.length ≠ 0 ∧ st t = 0))
    (hd' : done' = done → (pts.length ≠ 0 ∧ 1 ≤ st t ↔ pts.length ≠ 0 ∧ 1 ≤ j))
    (hd1 : done' = done ++ [t] → 1 ≤ j)
    (hc : cnt' = cnt ∨ (cnt' = cnt ++ [t] ∧ st t < 2))
    (hc' : cnt' = cnt → (2 ≤ st t ↔ 2 ≤ j)) (hc1 : cnt' = cnt ++ [t] → 2 ≤ j)
    (hl : labelMedoids c (done'.map fun t => labels.getD t []) draw s0 = .ok s')
    (hm : LabelMem labels c.labels (25 * done'.length) (u32 cnt'.length) s' m') :
    LabelInv c labels draw s0 done' cnt' (fun u => if u = t then j else st u) (m', a.2.set t p) := by
  have htl : t < labels.length := by
    rcases Nat.lt_or_ge t labels.length with h | h
    · exact h
    · rw [List.getElem?_eq_none h] at ht; cases ht
  have htn : st t = 0 → t ∉ done := fun h0 hm => by
    have := ((h.mem t x pts ht hp).mp hm).2
    omega
  have htc : st t < 2 → t ∉ cnt := fun h0 hm => by
    have := ((h.cmem t).mp hm).2
    omega
  refine ⟨by simp [h.len], ?_, ?_, ?_, ?_, ?_, ?_, ⟨s', hl, hm⟩⟩
  · intro u y q hu hq
    by_cases e : u = t
    · subst e
      rw [ht] at hu
      cases hu
      rw [hp] at hq
      cases hq
      exact ⟨p, List.getElem?_set_self (h.len.symm ▸ htl), by simpa using hj⟩
    · obtain ⟨p', h1, h2⟩ := h.stage u y q hu hq
      exact ⟨p', by rw [List.getElem?_set_ne (Ne.symm e)]; exact h1, by simpa [e] using h2⟩
  · rcases hd with rfl | ⟨rfl, -, h0⟩
    · exact h.nodup
    · exact List.nodup_append.mpr ⟨h.nodup, by simp, by
        intro u hu v hv e
        simp at hv
        subst hv; subst e
        exact htn h0 hu⟩
  · intro u y q hu hq
    by_cases e : u = t
    · subst e
      rw [ht] at hu
      cases hu
      rw [hp] at hq
      cases hq
      simp only [if_true]
      rcases hd with hd | ⟨hd, h1, h0⟩
      · rw [← hd' hd, hd]; exact h.mem u x pts ht hp
      · rw [hd]
        exact ⟨fun _ => ⟨h1, hd1 hd⟩, fun _ => by simp⟩
    · simp only [e, if_false]
      rw [← h.mem u y q hu hq]
      rcases hd with rfl | ⟨rfl, -, -⟩
      · exact Iff.rfl
      · simp [e]
  · intro u hu
    rcases hd with rfl | ⟨rfl, -, -⟩
    · exact h.bound u hu
    · rcases List.mem_append.mp hu with hu | hu
      · exact h.bound u hu
      · simp at hu; subst hu; exact htl
  · rcases hc with rfl | ⟨rfl, h0⟩
    · exact h.cnodup
    · exact List.nodup_append.mpr ⟨h.cnodup, by simp, by
        intro u hu v hv e
        simp at hv
        subst hv; subst e
        exact htc h0 hu⟩
  · intro u
    by_cases e : u = t
    · subst e
      simp only [if_true]
      rcases hc with hc | ⟨hc, h0⟩
      · rw [← hc' hc, hc]; exact h.cmem u
      · rw [hc]
        exact ⟨fun _ => ⟨htl, hc1 hc⟩, fun _ => by simp⟩
    · simp only [e, if_false]
      rw [← h.cmem u]
      rcases hc with rfl | ⟨rfl, -⟩
      · exact Iff.rfl
      · simp [e]

theorem settle_step {labels : List Label} {ptl : List (List Label)} {l : Loc} {k : LVal → Par LVal Unit} {q : Par LVal Unit}
    (h : (Par.load l k).settle (constMem labels ptl) = .enter q) :
    ∃ v, constMem labels ptl l = some v ∧ (k v).settle (constMem labels ptl) = .enter q := by
  simp only [Par.settle] at h
  cases hv : constMem labels ptl l with
  | none => rw [hv] at h; cases h
  | some v => rw [hv] at h; exact ⟨v, rfl, h⟩

theorem used_sum {labels : List Label} {draw : Nat → Nat} {s0 : MedSt} {done cnt : List Nat} {st : Nat → Nat}
    {a : Mem LVal × List (Par LVal Unit)} (h : LabelInv c labels draw s0 done cnt st a) (hn : c.data.length ≤ c.labels.length) :
    ((done.map fun t => labels.getD t []).map (usedDraws c)).sum = 25 * done.length := by
  have : ∀ t ∈ done, usedDraws c (labels.getD t []) = 25 := by
    intro t ht
    have htl := h.bound t ht
    have hx := List.getElem?_eq_getElem htl
    have e : labels.getD t [] = labels[t] := by rw [List.getD_eq_getElem?_getD, hx]; rfl
    obtain ⟨pts, hp⟩ := filteredPoints_ok c labels[t] c.data.length 0 (by omega)
    rw [e, usedDraws_of c hp, if_neg ((h.mem t _ pts hx hp).mp ht).1]
  rw [List.map_map]
  clear h
  induction done with
  | nil => rfl
  | cons t ts ih =>
    rw [List.map_cons, List.sum_cons, ih fun u hu => this u (by simp [hu])]
    simp only [Function.comp, this t (by simp), List.length_cons]
    omega

theorem label_step {labels : List Label} {draw : Nat → Nat} {s0 : MedSt} (hn : c.data.length ≤ c.labels.length)
    {done cnt : List Nat} {st : Nat → Nat} {a a' : Mem LVal × List (Par LVal Unit)} (h : LabelInv c labels draw s0 done cnt st a) {t : Nat}
    (hs : coarseStep a t = .ok a') : ∃ done' cnt' st', LabelInv c labels draw s0 done' cnt' st' a' := by
  rcases Nat.lt_or_ge t labels.length with htl | htl
  · have hx := List.getElem?_eq_getElem htl
    obtain ⟨pts, hp⟩ := filteredPoints_ok c labels[t] c.data.length 0 (by omega)
    obtain ⟨p, hg, hst⟩ := h.stage t _ pts hx hp
    obtain ⟨s, hl, hm⟩ := h.meds
    have unchanged : ∀ (p' : Par LVal Unit), LStage c labels draw labels[t] pts (st t) p' → a' = (a.1, a.2.set t p') →
        ∃ done' cnt' st', LabelInv c labels draw s0 done' cnt' st' a' := fun p' hp' e => by
      refine ⟨done, cnt, _, e ▸ h.move hx hp hp' (.inl rfl) (fun _ => Iff.rfl) (fun e => ?_) (.inl rfl) (fun _ => Iff.rfl) (fun e => ?_) hl hm⟩
      · have := congrArg List.length e; simp at this
      · have := congrArg List.length e; simp at this
    have app : ∀ (l : List Nat), l ++ [t] = l → False := fun l e => by have := congrArg List.length e; simp at this
    match hj : st t, hst with
    | 0, hst =>
      obtain ⟨hpne, hst⟩ := hst
      cases p with
      | ret v => cases hst
      | store l v k => cases hst
      | leave k => cases hst
      | load l k =>
        obtain ⟨v, hv, hk⟩ := settle_step hst
        simp only [coarseStep, hg, hm.const hv] at hs
        cases hs
        exact unchanged (k v) (hj ▸ ⟨hpne, hk⟩) rfl
      | enter k =>
        have hk : k = (parChoose draw labels[t] pts).bind fun _ => .leave parCount := by
          simpa [Par.settle, chooseProg] using hst
        subst hk
        simp only [coarseStep, hg] at hs
        obtain ⟨r, h1, h2⟩ := Res.bind_eq_ok.mp hs
        cases h2
        obtain ⟨u, m', hw, best, cs, e1, e2⟩ := wp_choose draw labels[t] pts hpne hm
        rw [Par.untilLeave_critical _ (parChoose_flat draw _ pts), hw] at h1
        cases h1
        refine ⟨done ++ [t], cnt, _, h.move (j := 1) (p := parCount) hx hp rfl (.inr ⟨rfl, hpne, hj⟩) (fun e => (app _ e).elim) (fun _ => by omega) (.inl rfl)
          (fun _ => by omega) (fun e => (app _ e.symm).elim)
          (s' := ⟨aset s.medoids labels[t] best, aset cs best (u32 ((cs.lookup best).getD 0 + 1))⟩) ?_ ?_⟩
        · rw [List.map_append, labelMedoids_append, hl]
          have e : labels.getD t [] = labels[t] := by rw [List.getD_eq_getElem?_getD, hx]; rfl
          show labelMedoids c [labels.getD t []] _ s = _
          rw [e, used_sum h hn]
          have e3 : labelStep c (fun k => draw (k + 25 * done.length)) labels[t] s =
              .ok ⟨aset s.medoids labels[t] best, aset cs best (u32 ((cs.lookup best).getD 0 + 1))⟩ := by
            simp only [labelStep, hp, Res.ok_bind]
            rw [if_pos hpne]
            have e4 : ((List.range 25).map fun k => draw (k + 25 * done.length)) =
                (List.range 25).map fun j => draw (25 * done.length + j) := by
              congr 1; funext k; rw [Nat.add_comm]
            rw [e4, e1]
            rfl
          simp only [labelMedoids, e3, Res.ok_bind]
        · rw [List.length_append]
          exact e2
    | 1, hst =>
      have hst : p.settle (constMem labels c.labels) = parCount := hst
      rw [parCount_eq] at hst
      cases p with
      | ret v => cases hst
      | store l v k => cases hst
      | leave k => cases hst
      | load l k =>
        obtain ⟨v, hv, hk⟩ := settle_step hst
        simp only [coarseStep, hg, hm.const hv] at hs
        cases hs
        exact unchanged (k v) (hj ▸ hk) rfl
      | enter k =>
        have hk : k = (do
            let k ← rdAt ⟨"counter", 0, 0⟩
            wrAt ⟨"counter", 0, 0⟩ (.num (u32 (k.toNum + 1))) : Par LVal Unit).bind fun _ => .leave tellProg := by
          simpa [Par.settle] using hst
        subst hk
        simp only [coarseStep, hg] at hs
        obtain ⟨r, h1, h2⟩ := Res.bind_eq_ok.mp hs
        cases h2
        obtain ⟨u, m', hw, hm'⟩ := wp_count hm
        have hf : Par.Flat (do
            let k ← rdAt ⟨"counter", 0, 0⟩
            wrAt ⟨"counter", 0, 0⟩ (.num (u32 (k.toNum + 1))) : Par LVal Unit) := fun _ => trivial
        rw [Par.untilLeave_critical _ hf, hw] at h1
        cases h1
        refine ⟨done, cnt ++ [t], _, h.move (j := 2) (p := tellProg) hx hp rfl (.inl rfl) (fun _ => by omega) (fun e => (app _ e.symm).elim)
          (.inr ⟨rfl, by omega⟩) (fun e => (app _ e).elim) (fun _ => by omega) hl ?_⟩
        rw [List.length_append]
        have : u32 (u32 cnt.length + 1) = u32 (cnt.length + 1) := by simp [u32]
        rw [this] at hm'
        exact hm'
    | 2, hst =>
      have hst : p = tellProg := hst
      subst hst
      simp only [coarseStep, hg, tellProg, hm.cnt] at hs
      cases hs
      refine ⟨done, cnt, _, h.move (j := 3) (p := .ret ()) hx hp rfl (.inl rfl) (fun _ => by omega) (fun e => (app _ e.symm).elim) (.inl rfl) (fun _ => by omega)
        (fun e => (app _ e.symm).elim) hl hm⟩
    | j + 3, hst =>
      have hst : p = .ret () := hst
      subst hst
      simp only [coarseStep, hg] at hs
      cases hs
      exact ⟨done, cnt, st, h⟩
  · simp only [coarseStep, List.getElem?_eq_none (h.len.symm ▸ htl)] at hs
    cases hs
    exact ⟨done, cnt, st, h⟩

theorem label_run {labels : List Label} {draw : Nat → Nat} {s0 : MedSt} (hn : c.data.length ≤ c.labels.length) (sched : List Nat)
    {done cnt : List Nat} {st : Nat → Nat} {a a' : Mem LVal × List (Par LVal Unit)} (h : LabelInv c labels draw s0 done cnt st a)
    (hs : coarseRun sched a = .ok a') : ∃ done' cnt' st', LabelInv c labels draw s0 done' cnt' st' a' := by
  induction sched generalizing done cnt st a with
  | nil => cases hs; exact ⟨done, cnt, st, h⟩
  | cons t ts ih =>
    simp only [coarseRun] at hs
    obtain ⟨a1, h1, h2⟩ := Res.bind_eq_ok.mp hs
    obtain ⟨d, k, s, h'⟩ := label_step hn h h1
    exact ih h' h2

end

end Grann
