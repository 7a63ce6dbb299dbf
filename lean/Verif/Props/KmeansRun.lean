import Verif.Basic.ExFloat
import Verif.Model.KmeansRun
import Verif.Proofs.Centers
import Verif.Proofs.MapM
import Verif.Props.InitCenters
/-!
# C84: k-means as the program runs it
-/

namespace Grann

namespace Spec

/-- `c` is the first of the smallest entries. -/
def FirstMin (row : List F32) (c : Nat) : Prop :=
  ∃ x, row[c]? = some x ∧ (∀ y ∈ row, x.le y = true) ∧ ∀ (i : Nat) (y : F32), i < c → row[i]? = some y → x.lt y = true

/-- The mean of some points, coordinate by coordinate, the points taken in the order given; zero if there are none. -/
def meanRow {D : Type} (zero : D) (add : D → F32 → D) (divn : D → Nat → F32) (dim : Nat) (pts : List (List F32)) : List F32 :=
  (List.range dim).map (fun d =>
    if pts = [] then F32.zero else divn (pts.foldl (fun s x => add s (x.getD d F32.zero)) zero) pts.length)

/-- A sum of `float`s: blocks of `ch` are added up first, then their sums. -/
def blockSum (add : F32 → F32 → F32) (ch : Nat) (ds : List F32) : F32 :=
  ((List.range ((ds.length + ch - 1) / ch)).map (fun b => ((ds.drop (b * ch)).take ch).foldl add F32.zero)).foldl add F32.zero

end Spec

variable {D : Type}

/-- One step of Lloyd's algorithm: every point goes to the first of its closest centres, every centre becomes the mean of
its points (zero without points), and `r` is the sum of the distances of the points from the new centres. -/
structure LloydStep (O : KmOps D) (ch dim : Nat) (data old new : List (List F32)) (r : F32) : Prop where
  len : new.length = old.length
  step : ∃ near : Nat → Nat,
    (∀ (d : Nat) (x : List F32), data[d]? = some x → Spec.FirstMin (old.map (O.entry x)) (near d)) ∧
    (∀ c, c < old.length → ∃ docs : List Nat, docs.Perm ((List.range data.length).filter (fun d => near d == c)) ∧
      new[c]? = some (Spec.meanRow O.kpp.zero O.kpp.add O.divn dim (docs.map (fun d => data.getD d [])))) ∧
    r = Spec.blockSum O.addF ch ((List.range data.length).map (fun d => O.kpp.dist (data.getD d []) (new.getD (near d) [])))

/-- Vectors that do not lead to distances from `FLT_MAX` on: they contain zero and the means of up to 2^23 points. -/
structure Tame (O : KmOps D) (dim : Nat) (P : List F32 → Prop) : Prop where
  zero : P (List.replicate dim F32.zero)
  mean : ∀ pts : List (List F32), pts ≠ [] → pts.length ≤ 8388608 → (∀ x ∈ pts, P x ∧ x.length = dim) →
    P (Spec.meanRow O.kpp.zero O.kpp.add O.divn dim pts)
  entry : ∀ x c, P x → P c → (O.entry x c).lt F32.fmax = true

/-! ## The parts of an iteration -/

theorem zipWith_fold {add : D → F32 → D} {zero : D} {dim : Nat} : ∀ (pts : List (List F32)) (s : List D), s.length = dim →
    (∀ x ∈ pts, x.length = dim) →
    pts.foldl (fun s x => List.zipWith add s x) s =
      (List.range dim).map (fun d => pts.foldl (fun a x => add a (x.getD d F32.zero)) (s.getD d zero)) := by
  intro pts
  induction pts with
  | nil =>
    intro s hs _
    apply List.ext_getElem
    · simp [hs]
    · intro i h1 h2
      have h3 : i < s.length := h1
      simp [List.getD, List.getElem?_eq_getElem h3]
  | cons x pts ih =>
    intro s hs hx
    have hxl := hx x (by simp)
    rw [List.foldl_cons, ih _ (by simp [hs, hxl]) (fun y hy => hx y (by simp [hy]))]
    apply List.map_congr_left
    intro d hd
    rw [List.mem_range] at hd
    rw [List.foldl_cons]
    congr 1
    simp [List.getD, List.getElem?_zipWith, List.getElem?_eq_getElem (hs.symm ▸ hd : d < s.length),
      List.getElem?_eq_getElem (hxl.symm ▸ hd : d < x.length)]

theorem newCenterF_ok (O : KmOps D) {data : List (List F32)} {dim : Nat} (hrow : ∀ x ∈ data, x.length = dim) {docs : List Nat}
    (hdocs : ∀ d ∈ docs, d < data.length) :
    newCenterF O data dim docs =
      .ok (Spec.meanRow O.kpp.zero O.kpp.add O.divn dim (docs.map (fun d => data.getD d []))) := by
  have hs : clusterSumF O data dim docs =
      .ok ((docs.map (fun d => data.getD d [])).foldl (fun s x => List.zipWith O.kpp.add s x) (List.replicate dim O.kpp.zero)) := by
    unfold clusterSumF
    rw [List.foldl_map]
    apply foldlM_ok
    intro b d hd
    rw [rd_ok (hdocs d hd), Res.ok_bind, List.getD_eq_getElem?_getD, List.getElem?_eq_getElem (hdocs d hd), Option.getD_some]
  unfold newCenterF
  rw [hs, Res.ok_bind, zipWith_fold (zero := O.kpp.zero) (dim := dim) _ _ (by simp) (by
    intro x hx
    obtain ⟨d, hd, rfl⟩ := List.mem_map.1 hx
    rw [List.getD_eq_getElem?_getD, List.getElem?_eq_getElem (hdocs d hd), Option.getD_some]
    exact hrow _ (List.getElem_mem _))]
  unfold Spec.meanRow
  cases docs with
  | nil =>
    rw [if_neg (by simp)]
    simp [List.map_const']
  | cons d docs =>
    rw [if_pos (by simp), List.map_map]
    congr 1
    apply List.map_congr_left
    intro e he
    rw [List.mem_range] at he
    simp [List.getD, he]

theorem residLoopF_ok (O : KmOps D) {data centers : List (List F32)} {closest : List Nat} {near : Nat → Nat}
    (hcl : closest = (List.range data.length).map near) (hlt : ∀ d, d < data.length → near d < centers.length) :
    ∀ (todo d : Nat) (r : F32), d + todo ≤ data.length → residLoopF O data centers closest todo d r =
      .ok (((((List.range data.length).map (fun d => O.kpp.dist (data.getD d []) (centers.getD (near d) []))).drop d).take todo).foldl O.addF r) := by
  intro todo
  induction todo with
  | zero => intro d r _; simp [residLoopF]
  | succ todo ih =>
    intro d r hd
    have hdl : d < data.length := by omega
    have e : ((List.range data.length).map (fun d => O.kpp.dist (data.getD d []) (centers.getD (near d) []))).drop d =
        O.kpp.dist (data.getD d []) (centers.getD (near d) []) ::
        ((List.range data.length).map (fun d => O.kpp.dist (data.getD d []) (centers.getD (near d) []))).drop (d + 1) := by
      rw [List.drop_eq_getElem_cons (by simpa using hdl)]
      simp
    have hc : closest[d]? = some (near d) := by rw [hcl]; simp [hdl]
    unfold residLoopF
    rw [rd_ok hdl, Res.ok_bind, rd_eq_ok_iff.mpr hc, Res.ok_bind, rd_ok (hlt d hdl), Res.ok_bind, ih _ _ (by omega), e,
      List.take_succ_cons, List.foldl_cons]
    congr 3
    simp [List.getD, List.getElem?_eq_getElem hdl, List.getElem?_eq_getElem (hlt d hdl)]

theorem residualF_ok (O : KmOps D) {ch : Nat} (hch : 1 ≤ ch) {data centers : List (List F32)} {closest : List Nat} {near : Nat → Nat}
    (hcl : closest = (List.range data.length).map near) (hlt : ∀ d, d < data.length → near d < centers.length) :
    residualF O ch data centers closest = .ok (Spec.blockSum O.addF ch
      ((List.range data.length).map (fun d => O.kpp.dist (data.getD d []) (centers.getD (near d) [])))) := by
  unfold residualF
  dsimp only
  obtain ⟨ds, hds⟩ : ∃ ds, ds = (List.range data.length).map (fun d => O.kpp.dist (data.getD d []) (centers.getD (near d) [])) := ⟨_, rfl⟩
  have hdl : ds.length = data.length := by rw [hds]; simp
  have hdm := Nat.div_add_mod data.length ch
  have hml := Nat.mod_lt data.length (show 0 < ch by omega)
  have hnch : data.length / ch + (if data.length % ch = 0 then 0 else 1) = (data.length + ch - 1) / ch := by
    split
    · rename_i h0
      rw [h0, Nat.add_zero] at hdm
      symm
      apply Nat.div_eq_of_lt_le
      · rw [Nat.add_zero, Nat.mul_comm]; omega
      · rw [Nat.add_zero, Nat.add_mul, Nat.mul_comm]; omega
    · rename_i h0
      symm
      apply Nat.div_eq_of_lt_le
      · rw [Nat.add_mul, Nat.mul_comm]; omega
      · rw [Nat.add_mul, Nat.add_mul, Nat.mul_comm]; omega
  rw [hnch, mapM_eq_map _ (fun c => ((ds.drop (c * ch)).take ch).foldl O.addF F32.zero), Res.ok_bind]
  · unfold Spec.blockSum
    rw [← hds, hdl]
  · intro c hc
    rw [List.mem_range, ← hnch] at hc
    have hcl2 : c * ch ≤ data.length := by
      have : c ≤ data.length / ch := by split at hc <;> omega
      have := Nat.mul_le_mul_right ch this
      rw [Nat.mul_comm (data.length / ch)] at this
      omega
    rw [residLoopF_ok O hcl hlt _ _ _ (by omega), ← hds]
    congr 2
    have h1 : (c + 1) * ch = c * ch + ch := by rw [Nat.add_mul, Nat.one_mul]
    by_cases h : data.length ≤ (c + 1) * ch
    · rw [Nat.min_eq_left h, List.take_of_length_le (by simp [hdl]), List.take_of_length_le (by simp [hdl]; omega)]
    · rw [Nat.min_eq_right (by omega), h1, Nat.add_sub_cancel_left]

/-- The closest centre when there is one below `FLT_MAX`. -/
theorem argmin_first {row : List F32} (hnum : ∀ x ∈ row, x.IsNum) (hfin : ∃ x ∈ row, x.lt F32.fmax = true) :
    ∃ c, argminLoop row 0 F32.fmax none = some c ∧ c < row.length ∧ Spec.FirstMin row c := by
  rcases argminLoop_spec row 0 F32.fmax none with ⟨h, -⟩ | ⟨i, hi, e, -, h⟩
  · obtain ⟨x, hx, hlt⟩ := hfin
    rw [h x hx] at hlt; cases hlt
  · rw [Nat.zero_add] at e
    refine ⟨i, e, hi, row[i], List.getElem?_eq_getElem hi, (h hnum).1, ?_⟩
    intro i' y hi' hy
    obtain ⟨hl, rfl⟩ := List.getElem?_eq_some_iff.mp hy
    exact (h hnum).2 i' hi'

theorem allPush_one {pops : List F32 → List Nat} {rows : List (List F32)} {near : Nat → Nat}
    (h : ∀ (d : Nat) (row : List F32), rows[d]? = some row → pick 1 pops row = [near d]) :
    rows.flatMap (pick 1 pops) = (List.range rows.length).map near ∧
    ∀ c, ((allPush 1 pops rows).filter (fun p => p.1 == c)).map Prod.snd = (List.range rows.length).filter (fun d => near d == c) := by
  constructor
  · have e : rows.map (pick 1 pops) = (List.range rows.length).map (fun d => [near d]) := by
      apply List.ext_getElem
      · simp
      · intro i h1 h2
        simp only [List.length_map] at h1
        simp [h i _ (List.getElem?_eq_getElem h1)]
    rw [List.flatMap_def, e, ← List.flatMap_def, ← List.map_eq_flatMap]
  · intro c
    have e : rows.mapIdx (fun j row => (pick 1 pops row).map (fun c => (c, j))) = (List.range rows.length).map (fun d => [(near d, d)]) := by
      apply List.ext_getElem
      · simp
      · intro i h1 h2
        simp only [List.length_mapIdx] at h1
        simp [h i _ (List.getElem?_eq_getElem h1)]
    unfold allPush
    rw [e, ← List.flatMap_def]
    have : (List.range rows.length).flatMap (fun d => [(near d, d)]) = (List.range rows.length).map (fun d => (near d, d)) := by
      rw [← List.map_eq_flatMap]
    rw [this, List.filter_map, List.map_map]
    simp [Function.comp_def]

/-! ## One iteration -/

theorem meanRow_length {zero : D} {add : D → F32 → D} {divn : D → Nat → F32} {dim : Nat} {pts : List (List F32)} :
    (Spec.meanRow zero add divn dim pts).length = dim := by unfold Spec.meanRow; simp

theorem Tame.meanAny {O : KmOps D} {dim : Nat} {P : List F32 → Prop} (hT : Tame O dim P) {pts : List (List F32)}
    (hn : pts.length ≤ 8388608) (h : ∀ x ∈ pts, P x ∧ x.length = dim) : P (Spec.meanRow O.kpp.zero O.kpp.add O.divn dim pts) := by
  by_cases hp : pts = []
  · subst hp
    have : Spec.meanRow O.kpp.zero O.kpp.add O.divn dim [] = List.replicate dim F32.zero := by
      unfold Spec.meanRow; simp [List.map_const']
    rw [this]; exact hT.zero
  · exact hT.mean pts hp hn h

/-- The orders of the threads are orders of what they do, and the sizes of blocks are positive. -/
structure KmRun.OK (R : KmRun D) : Prop where
  ch : 1 ≤ R.ch
  ccBlk : 1 ≤ R.ccBlk
  sched : ∀ i b l, (R.sched i b l).Perm l

/-- **C84 (one iteration).** Every iteration is a step of Lloyd's algorithm, whatever the order of the threads. -/
theorem C84_iteration {O : KmOps D} {R : KmRun D} (hR : R.OK) {dim : Nat} {P : List F32 → Prop} (hT : Tame O dim P) (i : Nat)
    {data centers : List (List F32)} {closest : List Nat} (hn : 1 ≤ data.length) (hmax : data.length ≤ 8388608) (hd : ∀ x ∈ data, P x ∧ x.length = dim)
    (hnc : 1 ≤ centers.length) (hc : ∀ c ∈ centers, P c ∧ c.length = dim) (hcl : closest.length = data.length) :
    ∃ new closest' r, lloydsIterF O R dim i data centers closest = .ok (new, closest', r) ∧
      LloydStep O R.ch dim data centers new r ∧ (∀ c ∈ new, P c ∧ c.length = dim) ∧ closest'.length = data.length := by
  obtain ⟨rows, hrows⟩ : ∃ rows, rows = data.map (fun x => centers.map (O.entry x)) := ⟨_, rfl⟩
  have hrl : rows.length = data.length := by rw [hrows]; simp
  have hget : ∀ (d : Nat) (row : List F32), rows[d]? = some row → ∃ x, data[d]? = some x ∧ x ∈ data ∧ row = centers.map (O.entry x) := by
    intro d row hr
    rw [hrows, List.getElem?_map] at hr
    cases hx : data[d]? with
    | none => rw [hx] at hr; cases hr
    | some x =>
      rw [hx, Option.map_some] at hr
      exact ⟨x, rfl, List.mem_of_getElem? hx, (Option.some.inj hr).symm⟩
  have hmin : ∀ (d : Nat) (row : List F32), rows[d]? = some row → ∃ c, argminLoop row 0 F32.fmax none = some c ∧ c < centers.length ∧ Spec.FirstMin row c := by
    intro d row hr
    obtain ⟨x, -, hx, rfl⟩ := hget d row hr
    have hlt : ∀ y ∈ centers.map (O.entry x), y.lt F32.fmax = true := by
      intro y hy
      obtain ⟨c, hcm, rfl⟩ := List.mem_map.1 hy
      exact hT.entry x c (hd x hx).1 (hc c hcm).1
    obtain ⟨c, e, h1, h2⟩ := argmin_first (fun y hy => F32.isNum_of_lt_left (hlt y hy))
      (by
        obtain ⟨c, hcm⟩ := List.exists_mem_of_length_pos (show 0 < centers.length by omega)
        exact ⟨_, List.mem_map_of_mem hcm, hlt _ (List.mem_map_of_mem hcm)⟩)
    exact ⟨c, e, by simpa using h1, h2⟩
  obtain ⟨near, hnear⟩ : ∃ near : Nat → Nat, near = fun d => (argminLoop (rows.getD d []) 0 F32.fmax none).getD 0 := ⟨_, rfl⟩
  have hn1 : ∀ (d : Nat) (row : List F32), rows[d]? = some row → pick 1 R.pops row = [near d] ∧ near d < centers.length ∧ Spec.FirstMin row (near d) := by
    intro d row hr
    obtain ⟨c, e, h1, h2⟩ := hmin d row hr
    have : near d = c := by rw [hnear]; dsimp only; rw [List.getD_eq_getElem?_getD, hr, Option.getD_some, e, Option.getD_some]
    rw [this]
    exact ⟨by unfold pick; rw [if_pos rfl, e]; rfl, h1, h2⟩
  have hmem : ∀ row ∈ rows, ∃ d, rows[d]? = some row := fun row hr => by
    obtain ⟨d, hdl, e⟩ := List.getElem_of_mem hr
    exact ⟨d, by rw [List.getElem?_eq_getElem hdl, e]⟩
  obtain ⟨hflat, hpush⟩ := allPush_one (fun d row hr => (hn1 d row hr).1)
  obtain ⟨inv', e, -, h2⟩ := closestCenters_spec (maxBlk := R.ccBlk) (nc := centers.length) (k := 1) (pops := R.pops) (hR.sched i)
    (rows := rows) (out0 := closest) (inv0 := some (List.replicate centers.length [])) hR.ccBlk (by omega) hnc
    (fun r hr => by obtain ⟨d, hd'⟩ := hmem r hr; rw [(hn1 d r hd').1]; rfl)
    (fun r hr c hcm => by
      obtain ⟨d, hd'⟩ := hmem r hr
      rw [(hn1 d r hd').1, List.mem_singleton] at hcm
      rw [hcm]; exact (hn1 d r hd').2.1)
    (by intro i h; cases h; simp) (by omega)
  obtain ⟨docs, rfl, hdl, hperm⟩ := h2 _ rfl
  rw [List.length_replicate] at hdl
  have hrep : ∀ c, (List.replicate centers.length ([] : List Nat)).getD c [] = [] := by
    intro c; by_cases hc : c < centers.length <;> simp [List.getD, hc]
  have hperm' : ∀ c, (docs.getD c []).Perm ((List.range data.length).filter (fun d => near d == c)) := by
    intro c
    have := hperm c
    rw [hrep, List.nil_append, hpush, hrl] at this
    exact this
  have hdocs : ∀ ds ∈ docs, ∀ d ∈ ds, d < data.length := by
    intro ds hds d hdm
    obtain ⟨c, hcl, rfl⟩ := List.getElem_of_mem hds
    have := (hperm' c).mem_iff (a := d)
    rw [List.getD_eq_getElem?_getD, List.getElem?_eq_getElem hcl, Option.getD_some] at this
    have := this.1 hdm
    simp at this
    exact this.1
  have hnew := mapM_eq_map (newCenterF O data dim) (fun ds => Spec.meanRow O.kpp.zero O.kpp.add O.divn dim (ds.map (fun d => data.getD d [])))
    docs (fun ds hds => newCenterF_ok O (fun x hx => (hd x hx).2) (hdocs ds hds))
  obtain ⟨new, hnewdef⟩ : ∃ new, new = docs.map (fun ds => Spec.meanRow O.kpp.zero O.kpp.add O.divn dim (ds.map (fun d => data.getD d []))) := ⟨_, rfl⟩
  have hnl : new.length = centers.length := by rw [hnewdef, List.length_map, hdl]
  have hnearlt : ∀ d, d < data.length → near d < new.length := by
    intro d hd'
    rw [hnl]
    exact (hn1 d _ (List.getElem?_eq_getElem (by omega : d < rows.length))).2.1
  have hres := residualF_ok O hR.ch (closest := (List.range data.length).map near) rfl hnearlt
  refine ⟨new, (List.range data.length).map near, _, ?_, ⟨hnl, near, ?_, ?_, rfl⟩, ?_, by simp⟩
  · unfold lloydsIterF
    rw [← hrows, e, hflat, hrl, Nat.mul_one, ← hcl, List.drop_length, List.append_nil, Res.ok_bind]
    dsimp only
    rw [Option.getD_some, hnew, ← hnewdef, Res.ok_bind, hcl, hres, Res.ok_bind]
  · intro d x hx
    have : rows[d]? = some (centers.map (O.entry x)) := by rw [hrows, List.getElem?_map, hx]; rfl
    exact (hn1 d _ this).2.2
  · intro c hc'
    refine ⟨docs.getD c [], hperm' c, ?_⟩
    have hcd : c < docs.length := by omega
    rw [hnewdef, List.getElem?_map, List.getElem?_eq_getElem hcd, Option.map_some, List.getD_eq_getElem?_getD (l := docs),
      List.getElem?_eq_getElem hcd, Option.getD_some]
  · intro c hcm
    rw [hnewdef] at hcm
    obtain ⟨ds, hds, rfl⟩ := List.mem_map.1 hcm
    refine ⟨hT.meanAny ?_ ?_, meanRow_length⟩
    · obtain ⟨c, hcl, rfl⟩ := List.getElem_of_mem hds
      have hl := (hperm' c).length_eq
      rw [List.getD_eq_getElem?_getD, List.getElem?_eq_getElem hcl, Option.getD_some] at hl
      rw [List.length_map, hl]
      refine (List.length_filter_le _ _).trans ?_
      rw [List.length_range]
      exact hmax
    intro x hx
    obtain ⟨d, hdm, rfl⟩ := List.mem_map.1 hx
    have := hdocs ds hds d hdm
    rw [List.getD_eq_getElem?_getD, List.getElem?_eq_getElem this, Option.getD_some]
    exact hd _ (List.getElem_mem _)

/-! ## The whole run -/

/-- `t` steps of Lloyd's algorithm from `first` to `last`: as many as allowed, unless the test for ending holds before, and
it does not hold earlier. -/
def LloydRun (O : KmOps D) (ch dim maxReps : Nat) (data first last : List (List F32)) : Prop :=
  ∃ (t : Nat) (cs : Nat → List (List F32)) (r : Nat → F32), t ≤ maxReps ∧ cs 0 = first ∧ cs t = last ∧ r 0 = F32.fmax ∧
    (∀ i, i < t → LloydStep O ch dim data (cs i) (cs (i + 1)) (r (i + 1))) ∧
    (∀ i, i + 1 < t → O.stop i (r i) (r (i + 1)) = false) ∧
    (t < maxReps → 1 ≤ t ∧ O.stop (t - 1) (r (t - 1)) (r t) = true)

theorem lloydsLoopF_ok {O : KmOps D} {R : KmRun D} (hR : R.OK) {dim : Nat} {P : List F32 → Prop} (hT : Tame O dim P)
    {data : List (List F32)} (hn : 1 ≤ data.length) (hmax : data.length ≤ 8388608) (hd : ∀ x ∈ data, P x ∧ x.length = dim) :
    ∀ (todo i : Nat) (res : F32) (centers : List (List F32)) (closest : List Nat), 1 ≤ centers.length →
      (∀ c ∈ centers, P c ∧ c.length = dim) → closest.length = data.length →
      ∃ last, lloydsLoopF O R dim data todo i res centers closest = .ok last ∧ last.length = centers.length ∧
        (∀ c ∈ last, P c ∧ c.length = dim) ∧
        ∃ (t : Nat) (cs : Nat → List (List F32)) (r : Nat → F32), t ≤ todo ∧ cs 0 = centers ∧ cs t = last ∧ r 0 = res ∧
          (∀ k, k < t → LloydStep O R.ch dim data (cs k) (cs (k + 1)) (r (k + 1))) ∧
          (∀ k, k + 1 < t → O.stop (i + k) (r k) (r (k + 1)) = false) ∧
          (t < todo → 1 ≤ t ∧ O.stop (i + (t - 1)) (r (t - 1)) (r t) = true) := by
  intro todo
  induction todo with
  | zero =>
    intro i res centers closest _ hc _
    exact ⟨centers, rfl, rfl, hc, 0, fun _ => centers, fun _ => res, Nat.le_refl _, rfl, rfl, rfl, by intro k hk; omega,
      by intro k hk; omega, by omega⟩
  | succ todo ih =>
    intro i res centers closest hnc hc hcl
    obtain ⟨new, closest', r1, e, hs, hnew, hcl'⟩ := C84_iteration hR hT i hn hmax hd hnc hc hcl
    unfold lloydsLoopF
    rw [e, Res.ok_bind]
    dsimp only
    by_cases hstop : O.stop i res r1 = true
    · rw [if_pos hstop]
      refine ⟨new, rfl, hs.len, hnew, 1, fun k => if k = 0 then centers else new, fun k => if k = 0 then res else r1, by omega, rfl, rfl, rfl, ?_, ?_, ?_⟩
      · intro k hk
        have : k = 0 := by omega
        subst this
        exact hs
      · intro k hk; omega
      · intro _; exact ⟨Nat.le_refl _, hstop⟩
    · rw [if_neg hstop]
      obtain ⟨last, e2, hl, hlast, t, cs, r, ht, h0, h1, hr0, hstep, hno, hend⟩ := ih (i + 1) r1 new closest' (by rw [hs.len]; exact hnc) hnew hcl'
      refine ⟨last, e2, by rw [hl, hs.len], hlast, t + 1, fun k => if k = 0 then centers else cs (k - 1),
        fun k => if k = 0 then res else r (k - 1), by omega, rfl, ?_, rfl, ?_, ?_, ?_⟩
      · dsimp only; rw [if_neg (by omega), Nat.add_sub_cancel]; exact h1
      · intro k hk
        dsimp only
        rw [if_neg (by omega : k + 1 ≠ 0), if_neg (by omega : k + 1 ≠ 0), Nat.add_sub_cancel]
        cases k with
        | zero => rw [if_pos rfl, h0, hr0]; exact hs
        | succ k => rw [if_neg (by omega), Nat.add_sub_cancel]; exact hstep k (by omega)
      · intro k hk
        dsimp only
        rw [if_neg (by omega : k + 1 ≠ 0), Nat.add_sub_cancel]
        cases k with
        | zero => rw [if_pos rfl, hr0]; simpa using hstop
        | succ k =>
          rw [if_neg (by omega), Nat.add_sub_cancel]
          have := hno k (by omega)
          rwa [show i + 1 + k = i + (k + 1) by omega] at this
      · intro hlt
        refine ⟨by omega, ?_⟩
        obtain ⟨ht1, hst⟩ := hend (by omega)
        dsimp only
        rw [Nat.add_sub_cancel, if_neg (by omega), if_neg (by omega)]
        rwa [show i + 1 + (t - 1) = i + t by omega] at hst

/-- **C84 (k-means).** For 1 to 2^23 points without extreme values, at least one centre, and all outcomes of the random
numbers and orders of the threads: k-means fails in no other way than by throwing darts for ever.  Otherwise it starts with
data points, goes through steps of Lloyd's algorithm until the limit or the test for ending stops it, and gives as many
centres as there is room for, each of the right dimension. -/
theorem C84_kmeans {O : KmOps D} {R : KmRun D} (hR : R.OK) {dim : Nat} {P : List F32 → Prop} (hT : Tame O dim P) (maxReps : Nat)
    {data mem : List (List F32)} (hn : 1 ≤ data.length) (hmax : data.length ≤ 8388608)
    (hd : ∀ x ∈ data, P x ∧ x.length = dim) (hnc : 1 ≤ mem.length) (hinit : R.init < data.length) :
    kmeansF O R dim maxReps data mem = .error .loop ∨
    ∃ first last, kmeansF O R dim maxReps data mem = .ok last ∧ first.length = mem.length ∧ (∀ c ∈ first, c ∈ data) ∧
      LloydRun O R.ch dim maxReps data first last ∧ last.length = mem.length ∧ ∀ c ∈ last, P c ∧ c.length = dim := by
  unfold kmeansF
  rcases C58_kpp_partial O.kpp data hn hmax mem.length hnc R.init R.junk hinit R.draw R.dart R.fuel mem (Nat.le_refl _) with h | ⟨cs, e, hl, hcs⟩
  · left; rw [h]; rfl
  · right
    have hmem : ∀ c ∈ cs, c ∈ data := by
      intro c hc
      obtain ⟨j, hj, rfl⟩ := List.getElem_of_mem hc
      obtain ⟨x, hx, e⟩ := hcs j (by omega)
      rw [List.getElem?_eq_getElem hj] at e
      rw [Option.some.inj e]; exact hx
    obtain ⟨last, e2, hll, hlast, t, s, r, h1, h2, h3, h4, h5, h6, h7⟩ := lloydsLoopF_ok hR hT hn hmax hd maxReps 0 F32.fmax cs
      (List.replicate data.length 0) (by omega) (fun c hc => hd c (hmem c hc)) (by simp)
    refine ⟨cs, last, by rw [e, Res.ok_bind]; exact e2, hl, hmem, ⟨t, s, r, h1, h2, h3, h4, h5, ?_, ?_⟩, by rw [hll, hl], hlast⟩
    · intro i hi; have := h6 i hi; rwa [Nat.zero_add] at this
    · intro ht; have := h7 ht; rwa [Nat.zero_add] at this

/-- **C84 (limits).** Without points, or without room for a centre, the behaviour is undefined. -/
theorem C84_limits (O : KmOps D) (R : KmRun D) (dim maxReps : Nat) (data mem : List (List F32)) (hmax : data.length ≤ 8388608)
    (h : data = [] ∨ mem = []) : kmeansF O R dim maxReps data mem = .error .ub := by
  unfold kmeansF
  rw [C58_limits O.kpp data hmax _ _ _ _ _ _ _ h]
  rfl

/-! ## Examples -/

/-- The integer a `float` stands for. -/
def exVal (x : F32) : Nat :=
  if x.bits.toNat = 0 then 0 else (2 ^ 23 + x.bits.toNat % 2 ^ 23) / 2 ^ (23 - (x.bits.toNat / 2 ^ 23 - 127))

/-- Squared Euclidean distances, cut off at 1000. -/
def exKmDist (a b : List F32) : F32 :=
  exNat (min 1000 ((List.zipWith (fun x y => (exVal x - exVal y + (exVal y - exVal x)) ^ 2) a b).sum))

/-- Integers: means are rounded down. -/
def exKm : KmOps Nat :=
  ⟨⟨exKmDist, fun a b => if b.lt a then b else a, 0, fun s x => s + exVal x, fun l => (l.map exVal).sum, fun s => s == 0, fun u s => u * s / 4,
    fun dart pre d => decide (pre ≤ dart ∧ dart < pre + exVal d)⟩,
    exKmDist, fun s n => exNat (s / n), fun a b => exNat (exVal a + exVal b), fun i old r => (i != 0 && old == r) || r == F32.zero⟩

/-- The points come to the threads in reverse order; the darts are thrown at three quarters. -/
def exKmRun : KmRun Nat := ⟨2, 3, List.range ∘ List.length, fun _ _ l => l.reverse, 0, 0, fun i => i, fun _ => 3, 10⟩

theorem exKmRun_ok : exKmRun.OK := ⟨by decide, by decide, fun _ _ l => l.reverse_perm⟩

theorem exKmDist_lt (a b : List F32) : (exKmDist a b).lt F32.fmax = true := by
  have h : ∀ n < 1001, (exNat n).lt F32.fmax = true := by decide +kernel
  exact h _ (by omega)

theorem exKm_tame (dim : Nat) : Tame exKm dim (fun _ => True) := ⟨trivial, fun _ _ _ _ => trivial, fun x c _ _ => exKmDist_lt x c⟩

def exKmPts : List (List F32) := [[1, 2], [2, 1], [20, 20], [21, 23], [22, 20]].map (fun v => v.map exNat)

example : (exKmPts.map (fun v => v.map exVal)) = [[1, 2], [2, 1], [20, 20], [21, 23], [22, 20]] := by decide +kernel

/-- Two centres, starting with points 0 and 3. -/
example : (kmeansF exKm exKmRun 2 12 exKmPts [[], []]).map (fun cs => cs.map (fun c => c.map exVal)) = .ok [[1, 1], [21, 21]] := by
  decide +kernel

example : ∃ first last, kmeansF exKm exKmRun 2 12 exKmPts [[], []] = .ok last ∧ first.length = 2 ∧ (∀ c ∈ first, c ∈ exKmPts) ∧
    LloydRun exKm 2 2 12 exKmPts first last :=
  match C84_kmeans exKmRun_ok (exKm_tame 2) 12 (data := exKmPts) (mem := [[], []]) (by decide) (by decide) (by decide) (by decide) (by decide) with
  | .inl h => absurd h (by decide +kernel)
  | .inr ⟨f, l, h1, h2, h3, h4, _⟩ => ⟨f, l, h1, h2, h3, h4⟩

example := C84_iteration exKmRun_ok (exKm_tame 2) 0 (data := exKmPts) (centers := [exKmPts.getD 0 [], exKmPts.getD 3 []])
  (closest := [7, 7, 7, 7, 7]) (by decide) (by decide) (by decide) (by decide) (by decide) (by decide)

example : kmeansF exKm exKmRun 2 12 [] [[], []] = .error .ub ∧ kmeansF exKm exKmRun 2 12 exKmPts [] = .error .ub :=
  ⟨C84_limits _ _ _ _ _ _ (by decide) (Or.inl rfl), C84_limits _ _ _ _ _ _ (by decide) (Or.inr rfl)⟩

end Grann
