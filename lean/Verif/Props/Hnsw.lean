import Verif.Model.Hnsw
import Verif.Props.Search
import Verif.Props.Build
import Verif.Proofs.MapM
/-!
# C29 — HNSW levels are nested and entry points are valid
-/

namespace Grann

open Spec (Reach IsGraph Reports)

/-- `inner` indexes exact copies of points of `outer`; its tags are their numbers there, in ascending
order. -/
def Spec.CopiesOf {V : Type} (outer inner : GIdx V) : Prop :=
  inner.tags.length = inner.ctx.data.length ∧ inner.tags.Pairwise (· < ·) ∧
    ∀ (j : Nat) (v : V), inner.ctx.data[j]? = some v →
      ∃ t, inner.tags[j]? = some t ∧ outer.ctx.data[t]? = some v

/-- Each level consists of copies of points of the level around it. -/
def Spec.Nested {V : Type} : List (GIdx V) → Prop
  | [] => True
  | [_] => True
  | ix :: iy :: rest => Spec.CopiesOf ix iy ∧ Spec.Nested (iy :: rest)

/-- Every level has at least 10 points (below that the build is undefined, C26). -/
def LevelSizes : List ((Nat → Bool) × List Nat) → Nat → Prop
  | [], n => 10 ≤ n
  | (keep, _) :: ups, n => 10 ≤ n ∧ LevelSizes ups (sampleIds keep n).length

theorem sampleData_spec {V : Type} (data : List V) (keep : Nat → Bool) :
    ∃ data', sampleData data (sampleIds keep data.length) = .ok data' ∧
      data'.length = (sampleIds keep data.length).length ∧
      (∀ (j : Nat) (v : V), data'[j]? = some v →
        ∃ t, (sampleIds keep data.length)[j]? = some t ∧ data[t]? = some v) ∧ ∀ v ∈ data', v ∈ data := by
  obtain ⟨ys, e, hl, hy⟩ := mapM_ok (rd data) (sampleIds keep data.length) (by
    intro x hx
    have : x < data.length := by simpa using (List.mem_filter.1 hx).1
    exact ⟨_, rd_ok this⟩)
  have key : ∀ (j : Nat) (v : V), ys[j]? = some v →
        ∃ t, (sampleIds keep data.length)[j]? = some t ∧ data[t]? = some v := by
    intro j v hv
    have hj : j < (sampleIds keep data.length).length := by
      rw [← hl]; exact (List.getElem?_eq_some_iff.1 hv).1
    obtain ⟨y, h1, h2⟩ := hy j _ (List.getElem?_eq_getElem hj)
    rw [hv] at h1
    cases h1
    exact ⟨_, List.getElem?_eq_getElem hj, rd_eq_ok_iff.1 h2⟩
  refine ⟨ys, e, hl, key, ?_⟩
  intro v hv
  obtain ⟨j, hj⟩ := List.getElem?_of_mem hv
  obtain ⟨t, _, ht⟩ := key j v hj
  exact List.mem_of_getElem? ht

/-- Well-formed levels in the sense of `HnswOK`, for one query. -/
theorem hnswOK_of_nested {V : Type} (q : V) : ∀ (levels : List (GIdx V)), levels ≠ [] →
    (∀ ix ∈ levels, ix.OK ∧ ∃ d, ix.Dist q d) → Spec.Nested levels → HnswOK q levels := by
  intro levels
  induction levels with
  | nil => intro h; exact absurd rfl h
  | cons ix rest ih =>
    intro _ hok hnest
    cases rest with
    | nil => exact hok ix (by simp)
    | cons iy rest =>
      refine ⟨(hok ix (by simp)).1, (hok ix (by simp)).2, ?_,
        ih (by simp) (fun x hx => hok x (by simp [hx])) hnest.2⟩
      intro t ht
      obtain ⟨⟨hlen, _, hcp⟩, _⟩ := hnest
      obtain ⟨j, hj⟩ := List.getElem?_of_mem ht
      have hjl : j < iy.ctx.data.length := by rw [← hlen]; exact (List.getElem?_eq_some_iff.1 hj).1
      obtain ⟨t', h1, h2⟩ := hcp j _ (List.getElem?_eq_getElem hjl)
      rw [hj] at h1
      cases h1
      exact (List.getElem?_eq_some_iff.1 h2).1

theorem length_le_of_increasing : ∀ (l : List Nat) (lo n : Nat), lo ≤ n → l.Pairwise (· < ·) → (∀ x ∈ l, lo ≤ x ∧ x < n) →
    l.length ≤ n - lo := by
  intro l
  induction l with
  | nil => intros; simp
  | cons a l ih =>
    intro lo n hlo hp h
    rw [List.pairwise_cons] at hp
    have h1 := h a (by simp)
    have := ih (a + 1) n (by omega) hp.2 (fun x hx => ⟨hp.1 x hx, (h x (List.mem_cons_of_mem _ hx)).2⟩)
    rw [List.length_cons]
    omega

/-- An inner level has at most as many points as the level around it. -/
theorem copies_le {V : Type} {ix iy : GIdx V} (h : Spec.CopiesOf ix iy) : iy.ctx.data.length ≤ ix.ctx.data.length := by
  obtain ⟨hlen, hp, hcp⟩ := h
  rw [← hlen]
  refine length_le_of_increasing iy.tags 0 _ (Nat.zero_le _) hp (fun t ht => ⟨Nat.zero_le _, ?_⟩)
  obtain ⟨j, hj⟩ := List.getElem?_of_mem ht
  have hjl : j < iy.ctx.data.length := by rw [← hlen]; exact (List.getElem?_eq_some_iff.1 hj).1
  obtain ⟨t', h1, h2⟩ := hcp j _ (List.getElem?_eq_getElem hjl)
  rw [hj] at h1
  cases h1
  exact (List.getElem?_eq_some_iff.1 h2).1

theorem nested_le {V : Type} : ∀ (ix : GIdx V) (inner : List (GIdx V)), Spec.Nested (ix :: inner) →
    ∀ iz ∈ ix :: inner, iz.ctx.data.length ≤ ix.ctx.data.length := by
  intro ix inner
  induction inner generalizing ix with
  | nil => intro _ iz hiz; rw [List.mem_singleton] at hiz; rw [hiz]
  | cons iy inner ih =>
    intro hn iz hiz
    rcases List.mem_cons.1 hiz with rfl | hiz
    · exact Nat.le_refl _
    · exact Nat.le_trans (ih iy hn.2 iz hiz) (copies_le hn.1)

theorem sampleIds_le (keep : Nat → Bool) (n : Nat) : (sampleIds keep n).length ≤ n := by
  unfold sampleIds
  exact (List.length_filter_le _ _).trans (Nat.le_of_eq List.length_range)

/-- Distances of the data points from `q`. -/
def QueryDist {V : Type} (cmp : V → V → F32) (data : List V) (q : V) : Prop :=
  ∀ v ∈ data, cmp v q = cmp q v ∧ (cmp q v).IsNum

theorem GIdx.dist_of {V : Type} (ix : GIdx V) (q : V) (h : QueryDist ix.ctx.cmp ix.ctx.data q) :
    ∃ d, ix.Dist q d := by
  refine ⟨fun i => ((ix.ctx.data[i]?).map (ix.ctx.cmp q)).getD F32.zero, ?_, fun v hv => (h v hv).1, ?_⟩
  · intro i v hv; simp [hv]
  · intro i hi
    simp only [List.getElem?_eq_getElem hi, Option.map_some, Option.getD_some]
    exact (h _ (List.getElem_mem hi)).2

theorem hnswLevel_spec {V : Type} (p : HnswParams) (hsort : IsStdSort p.sortF) (ctx : Ctx V) (tags : List Nat)
    (htags : tags.length = ctx.data.length) (start : Nat) (hstart : start < ctx.data.length)
    (entry : Nat → Res (List Nat)) (sched : List Nat)
    (hn : 10 ≤ ctx.data.length) (hL : 1 ≤ p.L) (hL' : Spec.ListFits ctx.data.length p.L)
    (hsymm : ∀ a b, ctx.cmp a b = ctx.cmp b a)
    (hentry : ∀ i, i < ctx.data.length → ∃ ids, entry i = .ok ids ∧ ∀ x ∈ ids, x < ctx.data.length) :
    hnswLevel p ctx tags start entry sched = .error .loop ∨
    ∃ ix, hnswLevel p ctx tags start entry sched = .ok ix ∧ ix.OK ∧ ix.ctx = ctx ∧ ix.tags = tags ∧
      ∀ nb ∈ ix.graph, nb.length ≤ p.R := by
  obtain ⟨cfg, hcfg⟩ : ∃ cfg, cfg = hnswCfg ctx p.div p.sortF p.L p.R p.C p.alpha p.pruningRule entry := ⟨_, rfl⟩
  have hok := hnswCfg_ok ctx p.div p.sortF hsort p.L p.R p.C p.alpha p.pruningRule entry hn hL hL' hsymm hentry
  rw [← hcfg] at hok
  have hcn : cfg.n = ctx.data.length := by rw [hcfg]; rfl
  obtain ⟨s, e, _, out, e', hlen, hedge⟩ := C23_valid_edges cfg hok _ (freshAdj_valid cfg.n) sched
  obtain ⟨s2, e2, hd⟩ := C22_degree_bound cfg hok _ (freshAdj_valid cfg.n) sched
  rw [e] at e2
  cases e2
  unfold hnswLevel
  rw [← hcfg, ← hcn]
  simp only
  rw [e, Res.ok_bind]
  by_cases hf : s.Finished
  · rw [if_pos hf]
    obtain ⟨out2, e3, _, hdeg⟩ := hd hf
    rw [e'] at e3
    cases e3
    refine .inr ⟨⟨ctx, tags, out, start, []⟩, by rw [e', Res.ok_bind], ?_, rfl, rfl, ?_⟩
    · refine ⟨by simpa using (by omega : 1 ≤ ctx.data.length), ⟨by rw [hlen, hcn], ?_⟩, htags, hstart, by simp⟩
      intro nb hnb j hj
      obtain ⟨v, hv⟩ := List.getElem?_of_mem hnb
      rw [← hcn]
      exact (hedge v nb hv j hj).1
    · intro nb hnb
      have := hdeg nb hnb
      rw [hcfg] at this
      exact this
  · rw [if_neg hf]; exact .inl rfl

theorem reach_lt {n : Nat} {g : List (List Nat)} (hg : IsGraph n g) {ok : Nat → Prop} {init : List Nat}
    (hinit : ∀ i ∈ init, i < n) {i : Nat} (h : Reach g ok init i) : i < n := by
  induction h with
  | start hi => exact hinit _ hi
  | step _ he _ _ =>
    obtain ⟨nb, h1, h2⟩ := he
    exact hg.edges nb (List.mem_of_getElem? h1) _ h2

/-- The entry points of a level, taken from the levels inside it, are points of the level. -/
theorem hnswEntry_ok {V : Type} (p : HnswParams) (hsort : IsStdSort p.sortF) (hL : 1 ≤ p.L)
    (ctx : Ctx V) (hL' : Spec.ListFits ctx.data.length p.L) (hsymm : ∀ a b, ctx.cmp a b = ctx.cmp b a)
    (hnum : ∀ a ∈ ctx.data, ∀ b ∈ ctx.data, (ctx.cmp a b).IsNum) (iy : GIdx V) (inner : List (GIdx V))
    (hall : ∀ iz ∈ iy :: inner, iz.OK ∧ iz.ctx.cmp = ctx.cmp ∧ ∀ v ∈ iz.ctx.data, v ∈ ctx.data)
    (hnest : Spec.Nested (iy :: inner)) (hcopy : Spec.CopiesOf ⟨ctx, [], [], 0, []⟩ iy) :
    ∀ i, i < ctx.data.length → ∃ ids, hnswEntry p (iy :: inner) ctx i = .ok ids ∧ ∀ x ∈ ids, x < ctx.data.length := by
  intro i hi
  have hv := List.getElem_mem hi
  have hqd : ∀ iz ∈ iy :: inner, iz.OK ∧ ∃ d, iz.Dist ctx.data[i] d := by
    intro iz hiz
    obtain ⟨h1, h2, h3⟩ := hall iz hiz
    refine ⟨h1, iz.dist_of _ ?_⟩
    intro v hv'
    have hvd := h3 v hv'
    rw [h2]
    exact ⟨hsymm _ _, hnum _ hv _ hvd⟩
  have hhok := hnswOK_of_nested ctx.data[i] (iy :: inner) (by simp) hqd hnest
  obtain ⟨d, hd⟩ := (hqd iy (by simp)).2
  obtain ⟨init, ids, ind', dst', e, hinit, _, hcnt, _, hrep, _, hdrop, _⟩ := C11_hnsw_count p.sortF hsort
    ctx.data[i] p.L p.L hL (Nat.le_refl _) [] iy inner hhok
    (fun iz hiz => hL'.mono (Nat.le_trans (nested_le iy inner hnest iz hiz) (copies_le hcopy))) d hd (List.replicate p.L 0)
    (List.replicate p.L F32.zero) (by simp) (by simp)
  refine ⟨ind'.take ids.length ++ List.replicate (ids.length - ind'.length) 0, ?_, ?_⟩
  · unfold hnswEntry
    rw [rd_ok hi, Res.ok_bind, e]
    rfl
  · intro x hx
    have htake := hrep.tags
    have hlen := congrArg List.length htake
    simp at hlen
    rcases List.mem_append.1 hx with hx | hx
    · rw [htake] at hx
      obtain ⟨i', hi', rfl⟩ := List.mem_map.1 hx
      have hidn := reach_lt (hall iy (by simp)).1.graph hinit (hrep.good i' hi')
      obtain ⟨t, ht1, ht2⟩ := hcopy.2.2 i' _
        (List.getElem?_eq_getElem hidn)
      rw [List.getD_eq_getElem?_getD, ht1]
      exact (List.getElem?_eq_some_iff.1 ht2).1
    · rw [show ids.length - ind'.length = 0 by omega] at hx
      simp at hx

/-- C29 (construction), for start nodes that are known only for vectors with the property `Q`. -/
theorem hnsw_levels_nested {V : Type} (Q : V → Prop) (p : HnswParams) (hsort : IsStdSort p.sortF) (startOf : List V → Res Nat)
    (hstart : ∀ data, data ≠ [] → (∀ v ∈ data, Q v) → ∃ s, startOf data = .ok s ∧ s < data.length)
    (hL : 1 ≤ p.L) (sched0 : List Nat) :
    ∀ (ups : List ((Nat → Bool) × List Nat)) (ctx : Ctx V) (tags : List Nat), Spec.ListFits ctx.data.length p.L →
    (∀ v ∈ ctx.data, Q v) →
    (∀ a b, ctx.cmp a b = ctx.cmp b a) → (∀ a ∈ ctx.data, ∀ b ∈ ctx.data, (ctx.cmp a b).IsNum) →
    tags.length = ctx.data.length → LevelSizes ups ctx.data.length →
    hnswBuild p startOf sched0 ups ctx tags = .error .loop ∨
    ∃ ix inner, hnswBuild p startOf sched0 ups ctx tags = .ok (ix :: inner) ∧
      inner.length = ups.length ∧ ix.ctx = ctx ∧ ix.tags = tags ∧
      (∀ iy ∈ ix :: inner, iy.OK ∧ iy.ctx.cmp = ctx.cmp ∧ (∀ v ∈ iy.ctx.data, v ∈ ctx.data) ∧
        ∀ nb ∈ iy.graph, nb.length ≤ p.R) ∧
      Spec.Nested (ix :: inner) := by
  intro ups
  induction ups with
  | nil =>
    intro ctx tags hL' hQ hsymm hnum htags hsz
    have hsz : 10 ≤ ctx.data.length := hsz
    have hne : ctx.data ≠ [] := by intro h; rw [h] at hsz; simp at hsz
    obtain ⟨s, hs, hsl⟩ := hstart ctx.data hne hQ
    rcases hnswLevel_spec p hsort ctx tags htags s hsl (fun _ => .ok [s]) sched0 hsz hL hL' hsymm
      (fun _ _ => ⟨[s], rfl, by simpa using hsl⟩) with h | ⟨ix, e, hok, h1, h2, h3⟩
    · left; unfold hnswBuild; rw [hs, Res.ok_bind, h]; rfl
    · refine .inr ⟨ix, [], by unfold hnswBuild; rw [hs, Res.ok_bind, e]; rfl, rfl, h1, h2, ?_, trivial⟩
      intro iy hiy
      rw [List.mem_singleton] at hiy
      subst hiy
      exact ⟨hok, by rw [h1], by rw [h1]; exact fun v hv => hv, h3⟩
  | cons up ups ih =>
    obtain ⟨keep, sched⟩ := up
    intro ctx tags hL' hQ hsymm hnum htags hsz
    obtain ⟨hsz1, hsz2⟩ := hsz
    have hne : ctx.data ≠ [] := by intro h; rw [h] at hsz1; simp at hsz1
    obtain ⟨s, hs, hsl⟩ := hstart ctx.data hne hQ
    obtain ⟨data', ed, hdl, hdk, hdm⟩ := sampleData_spec ctx.data keep
    rcases ih { ctx with data := data' } (sampleIds keep ctx.data.length)
      (hL'.mono (by show data'.length ≤ _; rw [hdl]; exact sampleIds_le _ _)) (fun v hv => hQ v (hdm v hv)) hsymm
      (fun a ha b hb => hnum a (hdm a ha) b (hdm b hb)) hdl.symm (by
        show LevelSizes ups data'.length
        rw [hdl]; exact hsz2) with h | ⟨iy, inner, ei, hil, hiy, hiyt, hall, hnest⟩
    · left
      unfold hnswBuild
      simp only
      rw [ed, Res.ok_bind, h]
      rfl
    · have hcopy : ∀ ix : GIdx V, ix.ctx = ctx → Spec.CopiesOf ix iy := by
        intro ix hix
        refine ⟨by rw [hiyt, hiy]; exact hdl.symm, ?_, ?_⟩
        · rw [hiyt]; exact List.pairwise_lt_range.filter _
        · intro j v hv
          rw [hiy] at hv
          rw [hiyt, hix]
          exact hdk j v hv
      have hentry := hnswEntry_ok p hsort hL ctx hL' hsymm hnum iy inner
        (fun iz hiz => ⟨(hall iz hiz).1, (hall iz hiz).2.1, fun v hv => hdm v ((hall iz hiz).2.2.1 v hv)⟩) hnest
        (hcopy ⟨ctx, [], [], 0, []⟩ rfl)
      rcases hnswLevel_spec p hsort ctx tags htags s hsl (hnswEntry p (iy :: inner) ctx) sched hsz1 hL hL' hsymm
        hentry with h | ⟨ix, e, hok, h1, h2, h3⟩
      · left
        unfold hnswBuild
        simp only
        rw [ed, Res.ok_bind, ei, Res.ok_bind, hs, Res.ok_bind, h]
        rfl
      · refine .inr ⟨ix, iy :: inner, ?_, by simp [hil], h1, h2, ?_, hcopy ix h1, hnest⟩
        · unfold hnswBuild
          simp only
          rw [ed, Res.ok_bind, ei, Res.ok_bind, hs, Res.ok_bind, e]
          rfl
        · intro iz hiz
          rcases List.mem_cons.1 hiz with rfl | hiz
          · exact ⟨hok, by rw [h1], by rw [h1]; exact fun v hv => hv, h3⟩
          · obtain ⟨g1, g2, g3, g4⟩ := hall iz hiz
            exact ⟨g1, g2, fun v hv => hdm v (g3 v hv), g4⟩

/-- **C29, construction.** For every data set, every number of levels, every outcome of the sampling that
leaves at least 10 points on each level and all schedules, the construction runs without an undefined
operation (or is still running, if a schedule is incomplete).  The result has one usable level per sample
plus the bottom one, the outer level indexes the given data with the given tags, each inner level indexes
exact copies of points of the level around it, its tags being their numbers there, and all degrees are at
most `R`. -/
theorem C29_levels_nested {V : Type} (p : HnswParams) (hsort : IsStdSort p.sortF) (startOf : List V → Res Nat)
    (hstart : ∀ data, data ≠ [] → ∃ s, startOf data = .ok s ∧ s < data.length)
    (hL : 1 ≤ p.L) (sched0 : List Nat) :
    ∀ (ups : List ((Nat → Bool) × List Nat)) (ctx : Ctx V) (tags : List Nat), Spec.ListFits ctx.data.length p.L →
    (∀ a b, ctx.cmp a b = ctx.cmp b a) → (∀ a ∈ ctx.data, ∀ b ∈ ctx.data, (ctx.cmp a b).IsNum) →
    tags.length = ctx.data.length → LevelSizes ups ctx.data.length →
    hnswBuild p startOf sched0 ups ctx tags = .error .loop ∨
    ∃ ix inner, hnswBuild p startOf sched0 ups ctx tags = .ok (ix :: inner) ∧
      inner.length = ups.length ∧ ix.ctx = ctx ∧ ix.tags = tags ∧
      (∀ iy ∈ ix :: inner, iy.OK ∧ iy.ctx.cmp = ctx.cmp ∧ (∀ v ∈ iy.ctx.data, v ∈ ctx.data) ∧
        ∀ nb ∈ iy.graph, nb.length ≤ p.R) ∧
      Spec.Nested (ix :: inner) :=
  fun ups ctx tags h0 h1 h2 h3 h4 => hnsw_levels_nested (fun _ => True) p hsort startOf (fun d h _ => hstart d h) hL sched0 ups ctx tags
    h0 (fun _ _ => trivial) h1 h2 h3 h4

/-- One level ends under a fair schedule. -/
theorem hnswLevel_ends {V : Type} (p : HnswParams) (hsort : IsStdSort p.sortF) (ctx : Ctx V) (tags : List Nat) (start : Nat)
    (entry : Nat → Res (List Nat)) (hn : 10 ≤ ctx.data.length) (hL : 1 ≤ p.L) (hL' : Spec.ListFits ctx.data.length p.L)
    (hsymm : ∀ a b, ctx.cmp a b = ctx.cmp b a)
    (hentry : ∀ i, i < ctx.data.length → ∃ ids, entry i = .ok ids ∧ ∀ x ∈ ids, x < ctx.data.length)
    (f : Nat → Nat) (hfair : ∀ i < ctx.data.length, ∀ k, ∃ m ≥ k, f m = i) :
    ∃ N ix, hnswLevel p ctx tags start entry ((List.range N).map f) = .ok ix := by
  obtain ⟨cfg, hcfg⟩ : ∃ cfg, cfg = hnswCfg ctx p.div p.sortF p.L p.R p.C p.alpha p.pruningRule entry := ⟨_, rfl⟩
  have hok := hnswCfg_ok ctx p.div p.sortF hsort p.L p.R p.C p.alpha p.pruningRule entry hn hL hL' hsymm hentry
  rw [← hcfg] at hok
  have hcn : cfg.n = ctx.data.length := by rw [hcfg]; rfl
  obtain ⟨N, s, e, hf⟩ := C62_build_terminates cfg hok _ (freshAdj_valid cfg.n) f (by rw [hcn]; exact hfair)
  obtain ⟨s2, e2, hd⟩ := C22_degree_bound cfg hok _ (freshAdj_valid cfg.n) ((List.range N).map f)
  rw [e] at e2
  cases e2
  obtain ⟨out, e', -⟩ := hd hf
  refine ⟨N, ⟨ctx, tags, out, start, []⟩, ?_⟩
  unfold hnswLevel
  rw [← hcfg, ← hcn]
  simp only
  rw [e, Res.ok_bind, if_pos hf, e', Res.ok_bind]

/-- The samples and the schedules of all levels, when the schedule of each level is cut off after a number of steps. -/
def cutAt (ups : List ((Nat → Bool) × (Nat → Nat))) (Ns : List Nat) : List ((Nat → Bool) × List Nat) :=
  List.zipWith (fun u N => (u.1, (List.range N).map u.2)) ups Ns

/-- Only the samples matter for the sizes of the levels. -/
theorem LevelSizes.congr : ∀ (a b : List ((Nat → Bool) × List Nat)) (n : Nat), a.map Prod.fst = b.map Prod.fst →
    LevelSizes a n → LevelSizes b n := by
  intro a
  induction a with
  | nil =>
    intro b n hab h
    cases b with
    | nil => exact h
    | cons _ _ => cases hab
  | cons x a ih =>
    intro b n hab h
    cases b with
    | nil => cases hab
    | cons y b =>
      obtain ⟨k, s⟩ := x
      obtain ⟨k', s'⟩ := y
      simp only [List.map_cons, List.cons.injEq] at hab
      obtain ⟨rfl, hab⟩ := hab
      exact ⟨h.1, ih b _ hab h.2⟩

theorem cutAt_fst : ∀ (ups : List ((Nat → Bool) × (Nat → Nat))) (Ns : List Nat), Ns.length = ups.length →
    (cutAt ups Ns).map Prod.fst = ups.map Prod.fst := by
  intro ups
  induction ups with
  | nil => intro Ns _; unfold cutAt; simp
  | cons u ups ih =>
    intro Ns h
    cases Ns with
    | nil => simp at h
    | cons N Ns =>
      have := ih Ns (by simpa using h)
      unfold cutAt at this ⊢
      rw [List.zipWith_cons_cons, List.map_cons, List.map_cons, this]

/-- The construction ends, for start nodes that are known only for vectors with the property `Q`. -/
theorem hnsw_ends {V : Type} (Q : V → Prop) (p : HnswParams) (hsort : IsStdSort p.sortF) (startOf : List V → Res Nat)
    (hstart : ∀ data, data ≠ [] → (∀ v ∈ data, Q v) → ∃ s, startOf data = .ok s ∧ s < data.length)
    (hL : 1 ≤ p.L) (n : Nat) (hL' : Spec.ListFits n p.L) (f0 : Nat → Nat) (hf0 : ∀ i < n, ∀ k, ∃ m ≥ k, f0 m = i) :
    ∀ (ups : List ((Nat → Bool) × (Nat → Nat))) (ctx : Ctx V) (tags : List Nat),
    ctx.data.length ≤ n → (∀ u ∈ ups, ∀ i < n, ∀ k, ∃ m ≥ k, u.2 m = i) → (∀ v ∈ ctx.data, Q v) →
    (∀ a b, ctx.cmp a b = ctx.cmp b a) → (∀ a ∈ ctx.data, ∀ b ∈ ctx.data, (ctx.cmp a b).IsNum) →
    tags.length = ctx.data.length → LevelSizes (ups.map (fun u => (u.1, []))) ctx.data.length →
    ∃ N0 Ns levels, Ns.length = ups.length ∧
      hnswBuild p startOf ((List.range N0).map f0) (cutAt ups Ns) ctx tags = .ok levels := by
  intro ups
  induction ups with
  | nil =>
    intro ctx tags hcn _ hQ hsymm hnum htags hsz
    have hsz : 10 ≤ ctx.data.length := hsz
    have hne : ctx.data ≠ [] := by intro h; rw [h] at hsz; simp at hsz
    obtain ⟨s, hs, hsl⟩ := hstart ctx.data hne hQ
    obtain ⟨N, ix, e⟩ := hnswLevel_ends p hsort ctx tags s (fun _ => .ok [s]) hsz hL (hL'.mono hcn) hsymm
      (fun _ _ => ⟨[s], rfl, by simpa using hsl⟩) f0 (fun i hi => hf0 i (by omega))
    refine ⟨N, [], [ix], rfl, ?_⟩
    unfold cutAt hnswBuild
    rw [List.zipWith_nil_left]
    simp only
    rw [hs, Res.ok_bind, e]; rfl
  | cons up ups ih =>
    obtain ⟨keep, f⟩ := up
    intro ctx tags hcn hfair hQ hsymm hnum htags hsz
    obtain ⟨hsz1, hsz2⟩ := hsz
    have hne : ctx.data ≠ [] := by intro h; rw [h] at hsz1; simp at hsz1
    obtain ⟨s, hs, hsl⟩ := hstart ctx.data hne hQ
    obtain ⟨data', ed, hdl, hdk, hdm⟩ := sampleData_spec ctx.data keep
    have hsz2' : LevelSizes (ups.map (fun u => (u.1, ([] : List Nat)))) data'.length := by rw [hdl]; exact hsz2
    obtain ⟨N0, Ns, levels, hNs, e⟩ := ih { ctx with data := data' } (sampleIds keep ctx.data.length)
      (by
        have : (sampleIds keep ctx.data.length).length ≤ ctx.data.length := by
          unfold sampleIds
          exact (List.length_filter_le _ _).trans (Nat.le_of_eq List.length_range)
        show data'.length ≤ n
        omega) (fun u hu => hfair u (List.mem_cons_of_mem _ hu)) (fun v hv => hQ v (hdm v hv)) hsymm
      (fun a ha b hb => hnum a (hdm a ha) b (hdm b hb)) hdl.symm hsz2'
    rcases hnsw_levels_nested Q p hsort startOf hstart hL ((List.range N0).map f0) (cutAt ups Ns) { ctx with data := data' }
      (sampleIds keep ctx.data.length)
      (hL'.mono (Nat.le_trans (by show data'.length ≤ _; rw [hdl]; exact sampleIds_le _ _) hcn)) (fun v hv => hQ v (hdm v hv)) hsymm
      (fun a ha b hb => hnum a (hdm a ha) b (hdm b hb)) hdl.symm
      (LevelSizes.congr _ _ _ (by
        rw [cutAt_fst ups Ns hNs, List.map_map]; rfl) hsz2') with h | ⟨iy, inner, ei, hil, hiy, hiyt, hall, hnest⟩
    · rw [e] at h; cases h
    have hcopy : Spec.CopiesOf ⟨ctx, [], [], 0, []⟩ iy := by
      refine ⟨by rw [hiyt, hiy]; exact hdl.symm, ?_, ?_⟩
      · rw [hiyt]; exact List.pairwise_lt_range.filter _
      · intro j v hv
        rw [hiy] at hv
        rw [hiyt]
        exact hdk j v hv
    have hentry := hnswEntry_ok p hsort hL ctx (hL'.mono hcn) hsymm hnum iy inner
      (fun iz hiz => ⟨(hall iz hiz).1, (hall iz hiz).2.1, fun v hv => hdm v ((hall iz hiz).2.2.1 v hv)⟩) hnest hcopy
    obtain ⟨N, ix, el⟩ := hnswLevel_ends p hsort ctx tags s (hnswEntry p (iy :: inner) ctx) hsz1 hL (hL'.mono hcn) hsymm hentry f
      (fun i hi => hfair (keep, f) (by simp) i (by omega))
    refine ⟨N0, N :: Ns, ix :: iy :: inner, by simp [hNs], ?_⟩
    have hcut : cutAt ((keep, f) :: ups) (N :: Ns) = (keep, (List.range N).map f) :: cutAt ups Ns := rfl
    rw [hcut]
    unfold hnswBuild
    simp only
    rw [ed, Res.ok_bind, ei, Res.ok_bind, hs, Res.ok_bind, el]
    rfl

/-- **C62 (HNSW, all levels).** With schedules in which no thread waits for ever, all parallel loops of the construction end,
one level after the other, each after finitely many steps. -/
theorem C62_hnsw_terminates {V : Type} (p : HnswParams) (hsort : IsStdSort p.sortF) (startOf : List V → Res Nat)
    (hstart : ∀ data, data ≠ [] → ∃ s, startOf data = .ok s ∧ s < data.length)
    (hL : 1 ≤ p.L) (ctx : Ctx V) (hL' : Spec.ListFits ctx.data.length p.L) (tags : List Nat)
    (f0 : Nat → Nat) (hf0 : ∀ i < ctx.data.length, ∀ k, ∃ m ≥ k, f0 m = i)
    (ups : List ((Nat → Bool) × (Nat → Nat))) (hfair : ∀ u ∈ ups, ∀ i < ctx.data.length, ∀ k, ∃ m ≥ k, u.2 m = i)
    (hsymm : ∀ a b, ctx.cmp a b = ctx.cmp b a) (hnum : ∀ a ∈ ctx.data, ∀ b ∈ ctx.data, (ctx.cmp a b).IsNum)
    (htags : tags.length = ctx.data.length) (hsz : LevelSizes (ups.map (fun u => (u.1, []))) ctx.data.length) :
    ∃ N0 Ns levels, Ns.length = ups.length ∧
      hnswBuild p startOf ((List.range N0).map f0) (cutAt ups Ns) ctx tags = .ok levels :=
  hnsw_ends (fun _ => True) p hsort startOf (fun d h _ => hstart d h) hL ctx.data.length hL' f0 hf0 ups ctx tags (Nat.le_refl _) hfair (fun _ _ => trivial)
    hsymm hnum htags hsz

/-- C29 (search), for start nodes that are known only for vectors with the property `Q`. -/
theorem hnsw_entry_points_valid {V : Type} (Q : V → Prop) (p : HnswParams) (hsort : IsStdSort p.sortF)
    (startOf : List V → Res Nat) (hstart : ∀ data, data ≠ [] → (∀ v ∈ data, Q v) → ∃ s, startOf data = .ok s ∧ s < data.length)
    (hL : 1 ≤ p.L) (sched0 : List Nat) (ups : List ((Nat → Bool) × List Nat))
    (ctx : Ctx V) (hL' : Spec.ListFits ctx.data.length p.L) (tags : List Nat) (hQ : ∀ v ∈ ctx.data, Q v) (hsymm : ∀ a b, ctx.cmp a b = ctx.cmp b a)
    (hnum : ∀ a ∈ ctx.data, ∀ b ∈ ctx.data, (ctx.cmp a b).IsNum)
    (htags : tags.length = ctx.data.length) (hsz : LevelSizes ups ctx.data.length)
    (levels : List (GIdx V)) (hb : hnswBuild p startOf sched0 ups ctx tags = .ok levels)
    (q : V) (d : Nat → F32) (hd : ∀ i v, ctx.data[i]? = some v → d i = ctx.cmp q v)
    (hqnum : ∀ v ∈ ctx.data, (ctx.cmp q v).IsNum)
    (sortF : List Nbr → List Nbr) (hsF : IsStdSort sortF) (filters : List Label) (rc L : Nat) (h1L : 1 ≤ L) (hL2 : Spec.ListFits ctx.data.length L) (hrc : rc ≤ L) (ind : List Nat) (dst : List F32)
    (hind : rc ≤ ind.length) (hdst : rc ≤ dst.length) :
    ∃ g init ids ind' dst', hnswSearch sortF q rc L levels ind dst filters = .ok (ind', dst', ids.length) ∧
      (levels.head?.map GIdx.graph = some g) ∧
      (∀ i ∈ init, i < ctx.data.length) ∧ (1 ≤ rc → init ≠ []) ∧ (∀ i ∈ ids, i < ctx.data.length) ∧
      ids.length ≤ rc ∧ (1 ≤ rc → 1 ≤ ids.length) ∧ ind'.drop rc = ind.drop rc ∧ dst'.drop rc = dst.drop rc ∧
      Reports (fun i => tags.getD i 0) d (Reach g (fun _ => True) init) ids ind' dst' := by
  rcases hnsw_levels_nested Q p hsort startOf hstart hL sched0 ups ctx tags hL' hQ hsymm hnum htags hsz with
    h | ⟨ix, inner, e, _, hix, hixt, hall, hnest⟩
  · rw [h] at hb; cases hb
  · rw [e] at hb
    cases hb
    have hdd : ix.Dist q d := by
      refine ⟨by rw [hix]; exact hd, by rw [hix]; exact fun v _ => hsymm v q, ?_⟩
      intro i hi
      rw [hix] at hi
      rw [hd i _ (List.getElem?_eq_getElem hi)]
      exact hqnum _ (List.getElem_mem hi)
    have hqd : ∀ iz ∈ ix :: inner, iz.OK ∧ ∃ d, iz.Dist q d := by
      intro iz hiz
      obtain ⟨h1, h2, h3, _⟩ := hall iz hiz
      refine ⟨h1, iz.dist_of _ ?_⟩
      intro v hv
      rw [h2]
      exact ⟨hsymm _ _, hqnum _ (h3 v hv)⟩
    obtain ⟨init, ids, ind', dst', e', hinit, hne, hle, hge, hrep, -, hdi, hdd'⟩ := C11_hnsw_count sortF hsF q rc L h1L
      hrc filters ix inner (hnswOK_of_nested q _ (by simp) hqd hnest)
      (fun iz hiz => hL2.mono (by rw [← hix]; exact nested_le ix inner hnest iz hiz)) d hdd ind dst hind hdst
    have hg := (hall ix (by simp)).1.graph
    rw [hix] at hinit hg
    rw [hixt] at hrep
    exact ⟨ix.graph, init, ids, ind', dst', e', rfl, hinit, hne,
      fun i hi => reach_lt hg hinit (hrep.good i hi), hle, hge, hdi, hdd', hrep⟩

/-- **C29, search.** Every search of an HNSW index built that way, for every query with numeric, symmetric
distances to the data, any `L` and any `res_count ≤ L`: the search succeeds, all entry points it uses on the
outer level are points of that level, and the points reported are points of that level reachable from them,
under their tags and with their distances. -/
theorem C29_entry_points_valid {V : Type} (p : HnswParams) (hsort : IsStdSort p.sortF)
    (startOf : List V → Res Nat) (hstart : ∀ data, data ≠ [] → ∃ s, startOf data = .ok s ∧ s < data.length)
    (hL : 1 ≤ p.L) (sched0 : List Nat) (ups : List ((Nat → Bool) × List Nat))
    (ctx : Ctx V) (hL' : Spec.ListFits ctx.data.length p.L) (tags : List Nat) (hsymm : ∀ a b, ctx.cmp a b = ctx.cmp b a)
    (hnum : ∀ a ∈ ctx.data, ∀ b ∈ ctx.data, (ctx.cmp a b).IsNum)
    (htags : tags.length = ctx.data.length) (hsz : LevelSizes ups ctx.data.length)
    (levels : List (GIdx V)) (hb : hnswBuild p startOf sched0 ups ctx tags = .ok levels)
    (q : V) (d : Nat → F32) (hd : ∀ i v, ctx.data[i]? = some v → d i = ctx.cmp q v)
    (hqnum : ∀ v ∈ ctx.data, (ctx.cmp q v).IsNum)
    (rc L : Nat) (h1L : 1 ≤ L) (hL2 : Spec.ListFits ctx.data.length L) (hrc : rc ≤ L) (ind : List Nat) (dst : List F32)
    (hind : rc ≤ ind.length) (hdst : rc ≤ dst.length) :
    ∃ g init ids ind' dst', hnswSearch p.sortF q rc L levels ind dst [] = .ok (ind', dst', ids.length) ∧
      (levels.head?.map GIdx.graph = some g) ∧
      (∀ i ∈ init, i < ctx.data.length) ∧ (1 ≤ rc → init ≠ []) ∧ (∀ i ∈ ids, i < ctx.data.length) ∧
      Reports (fun i => tags.getD i 0) d (Reach g (fun _ => True) init) ids ind' dst' := by
  obtain ⟨g, init, ids, ind', dst', h1, h2, h3, h4, h5, -, -, -, -, h6⟩ := hnsw_entry_points_valid (fun _ => True) p hsort startOf
    (fun d h _ => hstart d h) hL sched0 ups ctx hL' tags (fun _ _ => trivial) hsymm hnum htags hsz levels hb q d hd hqnum
    p.sortF hsort [] rc L h1L hL2 hrc ind dst hind hdst
  exact ⟨g, init, ids, ind', dst', h1, h2, h3, h4, h5, h6⟩

/-- A sample that leaves nothing makes the construction undefined (the entry point of an empty data set is
computed, C26). -/
theorem C26_empty_sample_unsafe {V : Type} (p : HnswParams) (startOf : List V → Res Nat)
    (hempty : startOf [] = .error .ub) (sched0 : List Nat) (keep : Nat → Bool) (sched : List Nat) (ctx : Ctx V)
    (tags : List Nat) (hk : ∀ i < ctx.data.length, keep i = false) :
    hnswBuild p startOf sched0 [(keep, sched)] ctx tags = .error .ub := by
  have : sampleIds keep ctx.data.length = [] := by
    unfold sampleIds
    rw [List.filter_eq_nil_iff]
    intro i hi
    simp [hk i (by simpa using hi)]
  unfold hnswBuild hnswBuild
  simp only [this, sampleData, List.mapM_nil, Res.pure_eq, Res.ok_bind]
  rw [hempty]
  rfl

/-! ## A concrete two-level index -/

def exHnswP : HnswParams := ⟨exSort, exDiv1, 4, 3, 100, F32.one, 0⟩

def exHnswCtx : Ctx Nat :=
  { data := [40, 41, 49, 50, 54, 46, 55, 45, 56, 44, 57, 44], labels := [], useUniv := true, univ := [48], cmp := exSq }

/-- Start node 0 whatever the data (the computation proper is C59). -/
def exStart (data : List Nat) : Res Nat := if data.length = 0 then .error .ub else .ok 0

def exHnsw : Res (List (GIdx Nat)) :=
  hnswBuild exHnswP exStart ((List.range 400).map (fun k => k % 10))
    [(fun i => decide (2 ≤ i), (List.range 480).map (fun k => k % 12))] exHnswCtx (List.range 12)

/-- The hypotheses of C29 are met by a two-level index; its inner level consists of points 2 to 11; a search
goes through both levels. -/
example : LevelSizes [(fun i => decide (2 ≤ i), (List.range 480).map (fun k => k % 12))] 12 ∧
    (∀ data, data ≠ [] → ∃ s, exStart data = .ok s ∧ s < data.length) ∧
    (∀ a ∈ exHnswCtx.data, ∀ b ∈ exHnswCtx.data, (exHnswCtx.cmp a b).IsNum) ∧
    (do let l ← exHnsw; .ok (l.map GIdx.tags) : Res _) =
      .ok [List.range 12, [2, 3, 4, 5, 6, 7, 8, 9, 10, 11]] ∧
    (do let l ← exHnsw
        let r ← hnswSearch exSort 41 2 4 l [0, 0] [F32.zero, F32.zero] []
        .ok (r.1, r.2.2) : Res _) = .ok ([7, 5], 2) := by
  refine ⟨by unfold LevelSizes LevelSizes; decide, ?_, by decide +kernel, by decide +kernel, by decide +kernel⟩
  intro data h
  have : data.length ≠ 0 := by simpa using h
  exact ⟨0, by unfold exStart; rw [if_neg this], by omega⟩

/-- The schedules of the two-level index, not cut off. -/
example : ∃ N0 Ns levels, Ns.length = 1 ∧ hnswBuild exHnswP exStart ((List.range N0).map (fun k => k % 12))
    (cutAt [(fun i => decide (2 ≤ i), fun k => k % 12)] Ns) exHnswCtx (List.range 12) = .ok levels := by
  have hf : ∀ i < 12, ∀ k, ∃ m ≥ k, m % 12 = i := fun i hi k => ⟨12 * k + i, by omega, by omega⟩
  refine C62_hnsw_terminates exHnswP exSort_isStdSort exStart ?_ (by decide) exHnswCtx (by decide) (List.range 12) _ hf
    [(fun i => decide (2 ≤ i), fun k => k % 12)] ?_ exSq_comm (by decide +kernel) rfl
    (by rw [List.map_cons, List.map_nil]; unfold LevelSizes LevelSizes; decide)
  · intro data h
    have : data.length ≠ 0 := by simpa using h
    exact ⟨0, by unfold exStart; rw [if_neg this], by omega⟩
  · intro u hu
    rw [List.mem_singleton] at hu
    subst hu
    exact hf

/-! ## The theorems applied to the examples -/

theorem exStart_ok : ∀ data : List Nat, data ≠ [] → ∃ s, exStart data = .ok s ∧ s < data.length := by
  intro data h
  have : data.length ≠ 0 := by simpa using h
  exact ⟨0, by unfold exStart; rw [if_neg this], by omega⟩

example := C29_levels_nested exHnswP exSort_isStdSort exStart exStart_ok (by decide)
  ((List.range 400).map (fun k => k % 10))
  [(fun i => decide (2 ≤ i), (List.range 480).map (fun k => k % 12))] exHnswCtx (List.range 12) (by decide) exSq_comm
  (by decide +kernel) rfl (by unfold LevelSizes LevelSizes; decide)

/-- C29, search: two levels, query 41. -/
example : ∃ levels, exHnsw = .ok levels ∧ ∃ g init ids ind' dst',
    hnswSearch exSort 41 2 4 levels [0, 0] [F32.zero, F32.zero] [] = .ok (ind', dst', ids.length) ∧
      (levels.head?.map GIdx.graph = some g) ∧
      (∀ i ∈ init, i < 12) ∧ (1 ≤ 2 → init ≠ []) ∧ (∀ i ∈ ids, i < 12) ∧
      Reports (fun i => (List.range 12).getD i 0) (fun i => exSq 41 (exHnswCtx.data.getD i 0))
        (Reach g (fun _ => True) init) ids ind' dst' := by
  have hr : (do let l ← exHnsw; .ok (l.map GIdx.tags) : Res _) =
      .ok [List.range 12, [2, 3, 4, 5, 6, 7, 8, 9, 10, 11]] := by decide +kernel
  obtain ⟨levels, hb, _⟩ := Res.bind_eq_ok.1 hr
  refine ⟨levels, hb, ?_⟩
  exact C29_entry_points_valid exHnswP exSort_isStdSort exStart exStart_ok (by decide) _ _ exHnswCtx (by decide)
    (List.range 12) exSq_comm (by decide +kernel) rfl (by unfold LevelSizes LevelSizes; decide) levels hb 41 _
    (by intro i v h; show exSq 41 _ = exSq 41 v; rw [List.getD, h]; rfl) (by decide +kernel) 2 4 (by decide)
    (by decide) (by decide) [0, 0] [F32.zero, F32.zero] (by decide) (by decide)

example : hnswBuild exHnswP exStart [0, 1] [(fun _ => false, [1, 2])] exHnswCtx (List.range 12) = .error .ub :=
  C26_empty_sample_unsafe exHnswP exStart rfl [0, 1] _ [1, 2] exHnswCtx (List.range 12) (fun _ _ => rfl)

end Grann
