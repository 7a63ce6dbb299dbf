import Verif.Props.IvfFile
import Verif.Model.Generations
/-!
# C106: saving a loaded index again writes the same files
-/

namespace Grann

section
variable {P : Type} [DecidableEq P]

/-- What the operations do to a file does not depend on what it was, or they do nothing to it. -/
def Settled (ops : List (FOp P)) (q : P) : Prop :=
  (∀ fs fs' : FS P, runOps ops fs q = runOps ops fs' q) ∨ ∀ fs : FS P, runOps ops fs q = fs q

theorem Settled.append {a b : List (FOp P)} {q : P} (ha : Settled a q) (hb : Settled b q) : Settled (a ++ b) q := by
  rcases hb with hb | hb
  · exact .inl (fun fs fs' => by rw [runOps_append, runOps_append]; exact hb _ _)
  · rcases ha with ha | ha
    · exact .inl (fun fs fs' => by rw [runOps_append, runOps_append, hb, hb]; exact ha _ _)
    · exact .inr (fun fs => by rw [runOps_append, hb, ha])

/-- Operations that settle every file can be done again without any change. -/
theorem settled_again {ops : List (FOp P)} (h : ∀ q, Settled ops q) (fs : FS P) :
    runOps ops (runOps ops fs) = runOps ops fs := by
  funext q
  rcases h q with h | h
  · exact h _ _
  · exact h _

theorem settled_of_run {ops : List (FOp P)} {p : P} {b : Bytes}
    (h : ∀ fs, runOps ops fs = fun q => if q = p then some b else fs q) (q : P) : Settled ops q := by
  by_cases hq : q = p
  · exact .inl (fun fs fs' => by rw [h, h]; simp [hq])
  · exact .inr (fun fs => by rw [h]; simp [hq])

theorem saveBase_settled (nm : Part → P) (hnm : Function.Injective nm) {es : Nat} {o : IdxObj} {rows : List Bytes}
    (hs : BaseSaveable es o rows) : ∃ ops, saveBase es nm o = .ok ops ∧ ∀ q, Settled ops q := by
  obtain ⟨ops, ho, -⟩ := saveBase_holds nm hnm hs (fun _ => none)
  refine ⟨ops, ho, fun q => ?_⟩
  have key : ∀ fs : FS P, HoldsBase nm (runOps ops fs) o rows ∧
      ∀ q, q ≠ nm .data → q ≠ nm .tags → q ≠ nm .labels → q ≠ nm .univ → runOps ops fs q = fs q := by
    intro fs
    obtain ⟨ops', ho', h⟩ := saveBase_holds nm hnm hs fs
    rw [ho] at ho'
    cases ho'
    exact h
  by_cases h1 : q = nm .data
  · exact .inl (fun fs fs' => by rw [h1, (key fs).1.data, (key fs').1.data])
  by_cases h2 : q = nm .tags
  · exact .inl (fun fs fs' => by rw [h2, (key fs).1.tags, (key fs').1.tags])
  by_cases h3 : q = nm .labels
  · exact .inl (fun fs fs' => by rw [h3, (key fs).1.labels, (key fs').1.labels])
  by_cases h4 : q = nm .univ
  · exact .inl (fun fs fs' => by rw [h4, (key fs).1.univ, (key fs').1.univ])
  exact .inr (fun fs => (key fs).2 q h1 h2 h3 h4)

theorem saveGraph_settled (p : P) {es : Nat} {o : IdxObj} {rows : List Bytes} (hs : Saveable es o rows) :
    ∃ ops, saveGraph p o.n o.maxDeg o.start o.graph = .ok ops ∧ ∀ q, Settled ops q := by
  obtain ⟨ops, ho, -⟩ := saveGraph_holds p hs (fun _ => none)
  refine ⟨ops, ho, settled_of_run (p := p) (b := Spec.graphFile o.maxDeg o.start o.graph) (fun fs => ?_)⟩
  obtain ⟨ops', ho', h⟩ := saveGraph_holds p hs fs
  rw [ho] at ho'
  cases ho'
  exact h

theorem rngSave_settled (nm : Part → P) (hnm : Function.Injective nm) {es : Nat} {o : IdxObj} {rows : List Bytes}
    (hs : Saveable es o rows) : ∃ ops, rngSave es nm o = .ok ops ∧ ∀ q, Settled ops q := by
  obtain ⟨b, hb, hbs⟩ := saveBase_settled nm hnm hs.toBaseSaveable
  obtain ⟨g, hg, hgs⟩ := saveGraph_settled (nm .graph) hs
  exact ⟨b ++ g, by unfold rngSave; rw [hb, Res.ok_bind, hg]; rfl, fun q => (hbs q).append (hgs q)⟩

theorem vamanaSave_settled (nm : Part → P) (hnm : Function.Injective nm) {es : Nat} {o : IdxObj} {rows : List Bytes}
    (hs : Saveable es o rows) : ∃ ops, vamanaSave es nm o = .ok ops ∧ ∀ q, Settled ops q := by
  obtain ⟨ops, ho, -⟩ := vamanaSave_holds nm hnm hs (fun _ => none)
  refine ⟨ops, ho, fun q => ?_⟩
  have key : ∀ fs : FS P, HoldsBase nm (runOps ops fs) o rows ∧
      runOps ops fs (nm .graph) = some (Spec.graphFile o.maxDeg o.start o.graph) ∧
      runOps ops fs (nm .medoids) = (if o.filtered && o.medoids.length != 0 then
        some (o.medoids.flatMap (fun e => medoidText e ++ [10])) else fs (nm .medoids)) ∧
      ∀ q, (∀ p, q ≠ nm p) → runOps ops fs q = fs q := by
    intro fs
    obtain ⟨ops', ho', h⟩ := vamanaSave_holds nm hnm hs fs
    rw [ho] at ho'
    cases ho'
    exact h
  by_cases hq : ∃ p, q = nm p
  · obtain ⟨p, rfl⟩ := hq
    cases p with
    | data => exact .inl (fun fs fs' => by rw [(key fs).1.data, (key fs').1.data])
    | tags => exact .inl (fun fs fs' => by rw [(key fs).1.tags, (key fs').1.tags])
    | labels => exact .inl (fun fs fs' => by rw [(key fs).1.labels, (key fs').1.labels])
    | univ => exact .inl (fun fs fs' => by rw [(key fs).1.univ, (key fs').1.univ])
    | graph => exact .inl (fun fs fs' => by rw [(key fs).2.1, (key fs').2.1])
    | medoids =>
      by_cases hc : (o.filtered && o.medoids.length != 0) = true
      · exact .inl (fun fs fs' => by rw [(key fs).2.2.1, (key fs').2.2.1, if_pos hc, if_pos hc])
      · exact .inr (fun fs => by rw [(key fs).2.2.1, if_neg hc])
  · exact .inr (fun fs => (key fs).2.2.2 q (fun p h => hq ⟨p, h⟩))

/-- Generations of an index whose files can be written again without any change. -/
theorem generations_same {O G : Type} (save : O → Res (List (FOp P))) (load : G → FS P → Res O) (ops : List (FOp P))
    (hops : ∀ q, Settled ops q) (Same : O → Prop) (Good : G → Prop) (fs : FS P)
    (hsave : ∀ o, Same o → save o = .ok ops)
    (hload : ∀ g, Good g → ∃ o', load g (runOps ops fs) = .ok o' ∧ Same o') :
    ∀ (gs : List G) (o : O), gs ≠ [] → (∀ g ∈ gs, Good g) → Same o →
      ∃ o', generations save load gs (fs, o) = .ok (runOps ops fs, o') ∧ Same o' := by
  have main : ∀ (gs : List G) (o : O), (∀ g ∈ gs, Good g) → Same o →
      ∃ o', generations save load gs (runOps ops fs, o) = .ok (runOps ops fs, o') ∧ Same o' := by
    intro gs
    induction gs with
    | nil => intro o _ ho; exact ⟨o, rfl, ho⟩
    | cons g gs ih =>
      intro o hg ho
      obtain ⟨o1, h1, h2⟩ := hload g (hg g (by simp))
      obtain ⟨o', h3, h4⟩ := ih o1 (fun x hx => hg x (by simp [hx])) h2
      refine ⟨o', ?_, h4⟩
      rw [generations, hsave o ho, Res.ok_bind, settled_again hops, h1, Res.ok_bind, h3]
  intro gs o hne hg ho
  cases gs with
  | nil => exact absurd rfl hne
  | cons g gs =>
    obtain ⟨o1, h1, h2⟩ := hload g (hg g (by simp))
    obtain ⟨o', h3, h4⟩ := main gs o1 (fun x hx => hg x (by simp [hx])) h2
    refine ⟨o', ?_, h4⟩
    rw [generations, hsave o ho, Res.ok_bind, h1, Res.ok_bind, h3]

end

/-! ## C106 -/

/-- **C106 for Vamana.**  After any number of generations the files are, byte for byte, those of the first save, and the
object is the one that was saved first (but for the set of labels seen, which nothing reads after the build). -/
theorem C106_vamana {P : Type} [DecidableEq P] (nm : Part → P) (hnm : Function.Injective nm) (fs : FS P) (es : Nat)
    (o : IdxObj) (rows : List Bytes) (hs : Saveable es o rows) (hmed : MedoidFileOK nm fs o)
    (sortL : List Label → List Label) (hsort : IsStrSort sortL) (fuel : Nat) (hf : o.n < fuel) :
    ∃ ops, vamanaSave es nm o = .ok ops ∧ ∀ gs : List (Junk × IdxObj), gs ≠ [] →
      (∀ g ∈ gs, g.1.WF ∧ IsFresh g.2) →
      ∃ o', vamanaGens sortL fuel es nm gs (fs, o) = .ok (runOps ops fs, o') ∧ o' = { o with seen := o'.seen } := by
  obtain ⟨ops, ho, hops⟩ := vamanaSave_settled nm hnm hs
  refine ⟨ops, ho, fun gs hne hg => ?_⟩
  refine generations_same (vamanaSave es nm) _ ops hops (fun o' => o' = { o with seen := o'.seen })
    (fun g => g.1.WF ∧ IsFresh g.2) fs ?_ ?_ gs o hne hg rfl
  · intro o' h
    rw [h]
    exact ho
  · rintro ⟨j, o0⟩ ⟨hj, h0⟩
    obtain ⟨ops', o', h1, h2, -, h3, -⟩ := C41_vamana_reload nm hnm fs es o rows hs hmed sortL hsort j hj o0 h0 fuel hf
      (fun _ _ => F32.zero)
    rw [ho] at h1
    cases h1
    refine ⟨o', ?_, h3⟩
    dsimp only
    rw [h2, Res.ok_bind]
    rfl

/-- **C106 for RelativeNG.** -/
theorem C106_rng {P : Type} [DecidableEq P] (nm : Part → P) (hnm : Function.Injective nm) (fs : FS P) (es : Nat)
    (o : IdxObj) (rows : List Bytes) (hs : Saveable es o rows) (hmed : o.medoids = [])
    (sortL : List Label → List Label) (hsort : IsStrSort sortL) (fuel : Nat) (hf : o.n < fuel) :
    ∃ ops, rngSave es nm o = .ok ops ∧ ∀ gs : List (Junk × IdxObj), gs ≠ [] →
      (∀ g ∈ gs, g.1.WF ∧ IsFresh g.2) →
      ∃ o', rngGens sortL fuel es nm gs (fs, o) = .ok (runOps ops fs, o') ∧ o' = { o with seen := o'.seen } := by
  obtain ⟨ops, ho, hops⟩ := rngSave_settled nm hnm hs
  refine ⟨ops, ho, fun gs hne hg => ?_⟩
  refine generations_same (rngSave es nm) _ ops hops (fun o' => o' = { o with seen := o'.seen })
    (fun g => g.1.WF ∧ IsFresh g.2) fs ?_ ?_ gs o hne hg rfl
  · intro o' h
    rw [h]
    exact ho
  · rintro ⟨j, o0⟩ ⟨hj, h0⟩
    obtain ⟨ops', o', h1, h2, -, h3, -⟩ := C41_rng_reload nm hnm fs es o rows hs hmed sortL hsort j hj o0 h0 fuel hf
      (fun _ _ => F32.zero)
    rw [ho] at h1
    cases h1
    refine ⟨o', ?_, h3⟩
    dsimp only
    rw [h2, Res.ok_bind]
    rfl

/-- Two lists of levels that differ only in the sets of labels seen. -/
def SameLevels (os os' : List IdxObj) : Prop := List.Forall₂ (fun o o' => o' = { o with seen := o'.seen }) os os'

theorem SameLevels.refl : ∀ os, SameLevels os os
  | [] => .nil
  | _ :: os => .cons rfl (SameLevels.refl os)

theorem SameLevels.save {es : Nat} : ∀ {os os' : List IdxObj}, SameLevels os os' → hnswSave es os' = hnswSave es os := by
  intro os os' h
  induction h with
  | nil => rfl
  | @cons o o' os os' h1 h2 ih =>
    have hl : os'.length = os.length := (List.Forall₂.length_eq h2).symm
    have hr : rngSave es (fun p => (os.length, p)) o' = rngSave es (fun p => (os.length, p)) o := by rw [h1]; rfl
    rw [hnswSave, hnswSave, ih, hl, hr]

theorem hnswSave_settled {es : Nat} : ∀ (os : List (IdxObj × List Bytes)), (∀ x ∈ os, Saveable es x.1 x.2) →
    ∃ ops, hnswSave es (os.map Prod.fst) = .ok ops ∧ ∀ q, Settled ops q
  | [], _ => ⟨[], rfl, fun _ => .inr (fun _ => rfl)⟩
  | x :: inner, hs => by
    obtain ⟨a, ha, has⟩ := hnswSave_settled inner (fun y hy => hs y (by simp [hy]))
    obtain ⟨b, hb, hbs⟩ := rngSave_settled (fun p => (inner.length, p)) (fun p q h => by simpa using h) (hs x (by simp))
    exact ⟨a ++ b, by rw [List.map_cons, hnswSave, ha, Res.ok_bind, List.length_map, hb]; rfl,
      fun q => (has q).append (hbs q)⟩

theorem hnswLoad_same {es : Nat} (sortL : List Label → List Label) (hsort : IsStrSort sortL) (j : Junk) (hj : j.WF)
    (fuel : Nat) (fs : FS (Nat × Part)) : ∀ (os : List (IdxObj × List Bytes)) (o0s : List IdxObj),
    (∀ x ∈ os, Saveable es x.1 x.2) → (∀ x ∈ os, x.1.medoids = []) → o0s.length = os.length →
    (∀ o0 ∈ o0s, IsFresh o0) → (∀ x ∈ os, x.1.n < fuel) → HeldLevels fs os →
    ∃ os', hnswLoad sortL j fuel es fs o0s = .ok os' ∧ os'.any Prod.snd = false ∧
      SameLevels (os.map Prod.fst) (os'.map Prod.fst) := by
  intro os
  induction os with
  | nil =>
    intro o0s _ _ hl _ _ _
    have : o0s = [] := by simpa using hl
    subst this
    exact ⟨[], rfl, rfl, .nil⟩
  | cons x inner ih =>
    intro o0s hs hmed hl h0 hf hh
    obtain ⟨o0, o0s, rfl⟩ : ∃ a l, o0s = a :: l := by
      cases o0s with
      | nil => simp at hl
      | cons a l => exact ⟨a, l, rfl⟩
    obtain ⟨hb, hg, hh⟩ := hh
    have hl' : o0s.length = inner.length := by simpa using hl
    obtain ⟨os', h1, h2, h3⟩ := ih o0s (fun y hy => hs y (by simp [hy])) (fun y hy => hmed y (by simp [hy]))
      hl' (fun y hy => h0 y (by simp [hy])) (fun y hy => hf y (by simp [hy])) hh
    obtain ⟨seen, hlv⟩ := rngLoad_holds sortL hsort j hj (fun p => (inner.length, p)) (hs x (by simp)) _ hb
      hg o0 (h0 o0 (by simp)) fuel (hf x (by simp))
    refine ⟨({ x.1 with seen := seen, medoids := [] }, false) :: os', ?_, ?_, ?_⟩
    · rw [hnswLoad, h1, Res.ok_bind, hl', hlv]; rfl
    · rw [List.any_cons, h2]; rfl
    · rw [List.map_cons, List.map_cons]
      refine .cons ?_ h3
      rw [← hmed x (by simp)]

/-- **C106 for HNSW**, all levels. -/
theorem C106_hnsw (fs : FS (Nat × Part)) (es : Nat) (os : List (IdxObj × List Bytes))
    (hs : ∀ x ∈ os, Saveable es x.1 x.2) (hmed : ∀ x ∈ os, x.1.medoids = []) (sortL : List Label → List Label)
    (hsort : IsStrSort sortL) (fuel : Nat) (hf : ∀ x ∈ os, x.1.n < fuel) :
    ∃ ops, hnswSave es (os.map Prod.fst) = .ok ops ∧ ∀ gs : List (Junk × List IdxObj), gs ≠ [] →
      (∀ g ∈ gs, g.1.WF ∧ g.2.length = os.length ∧ ∀ o0 ∈ g.2, IsFresh o0) →
      ∃ os', hnswGens sortL fuel es gs (fs, os.map Prod.fst) = .ok (runOps ops fs, os') ∧
        List.Forall₂ (fun o o' => o' = { o with seen := o'.seen }) (os.map Prod.fst) os' := by
  obtain ⟨ops, ho, hops⟩ := hnswSave_settled os hs
  refine ⟨ops, ho, fun gs hne hg => ?_⟩
  refine generations_same (hnswSave es) _ ops hops (SameLevels (os.map Prod.fst))
    (fun g => g.1.WF ∧ g.2.length = os.length ∧ ∀ o0 ∈ g.2, IsFresh o0) fs ?_ ?_ gs _ hne hg (SameLevels.refl _)
  · intro o' h
    rw [h.save]
    exact ho
  · rintro ⟨j, o0s⟩ ⟨hj, hl, h0⟩
    obtain ⟨ops', h1, h2, -⟩ := hnswSave_holds os hs fs
    rw [ho] at h1
    cases h1
    obtain ⟨os', h3, h4, h5⟩ := hnswLoad_same sortL hsort j hj fuel _ os o0s hs hmed hl h0 hf h2
    refine ⟨os'.map Prod.fst, ?_, h5⟩
    dsimp only
    rw [h3, Res.ok_bind, h4]
    rfl

/-- What makes two IVF objects the same index. -/
def SameIvf (o o' : IvfObj) : Prop :=
  o' = ⟨{ o.base with seen := o'.base.seen, maxDeg := o'.base.maxDeg, start := o'.base.start, graph := o'.base.graph,
                      medoids := o'.base.medoids }, o.nc, o.centers, o.inv⟩

/-- The whole object that loading a saved IVF index gives. -/
theorem ivf_reload_object {P : Type} [DecidableEq P] (nm : Part → P) (hnm : Function.Injective nm) (pc : P)
    (hpc : ∀ p, pc ≠ nm p) (fs : FS P) (es : Nat) (o : IvfObj) (rows crows : List Bytes)
    (hs : IvfSaveable es o rows crows) (sortL : List Label → List Label) (hsort : IsStrSort sortL) (j : Junk)
    (hj : j.WF) (o0 : IvfObj) (h0 : IsFresh o0.base) :
    ∃ ops o', ivfSave es nm pc o = .ok ops ∧ ivfLoad sortL j es nm pc (runOps ops fs) o0 = .ok o' ∧ SameIvf o o' := by
  have ne : ∀ {a b : Part}, a ≠ b → nm a ≠ nm b := fun h e => h (hnm e)
  obtain ⟨b, hb, hbh, hbq⟩ := saveBase_holds nm hnm hs.base fs
  have hcl : o.centers.length = o.nc * o.base.adim * 4 := by
    rw [hs.centers, flatten_length_of hs.matrix, hs.crows_n, Nat.mul_assoc]
  have hslice : slice o.centers 0 (o.nc * o.base.adim * 4) = .ok o.centers := by
    unfold slice
    rw [if_pos (by omega), List.drop_zero, List.take_of_length_le (by omega)]
  have hrows : (List.range o.nc).mapM (rd o.inv) = .ok o.inv := by
    rw [← hs.inv_len, range_mapM_rd]
  refine ⟨b ++ saveBin pc o.nc o.base.adim o.centers ++ ([.create (nm .graph)] ++
      o.inv.flatMap (nodeOps (nm .graph))), ?_⟩
  have hsave : ivfSave es nm pc o = .ok (b ++ saveBin pc o.nc o.base.adim o.centers ++
      ([.create (nm .graph)] ++ o.inv.flatMap (nodeOps (nm .graph)))) := by
    unfold ivfSave
    rw [hb, Res.ok_bind, hslice, Res.ok_bind, hrows, Res.ok_bind]
  have hfs : runOps (b ++ saveBin pc o.nc o.base.adim o.centers ++ ([.create (nm .graph)] ++
      o.inv.flatMap (nodeOps (nm .graph)))) fs = fun q => if q = nm .graph then some (encNodes o.inv) else
        if q = pc then some (le 4 o.nc ++ (le 4 o.base.adim ++ o.centers)) else runOps b fs q := by
    rw [runOps_append, runOps_append, runOps_append,
      run_nodeOps (nm .graph) o.inv hs.inv_fits _ [] (by simp [runOps, FOp.run]), saveBin_run]
    funext q
    by_cases hq : q = nm .graph
    · simp [hq]
    · simp [hq, runOps, FOp.run]
  rw [hfs]
  have hbh' : HoldsBase nm (fun q => if q = nm .graph then some (encNodes o.inv) else
        if q = pc then some (le 4 o.nc ++ (le 4 o.base.adim ++ o.centers)) else runOps b fs q) o.base rows := by
    constructor <;> rw [if_neg (ne (by decide)), if_neg (Ne.symm (hpc _))]
    · exact hbh.data
    · exact hbh.tags
    · exact hbh.labels
    · exact hbh.univ
  obtain ⟨seen, hl⟩ := loadBase_holds sortL hsort j hj nm hs.base _ hbh' o0.base h0
  have hcen := loadAligned_ok (es := 4) (d := o.base.adim) hs.matrix (by rw [hs.crows_n]; exact hs.nc_lt)
    hs.adim_lt (by have := hs.csize; rw [hs.crows_n]; omega)
    (by rw [hs.crows_n]; exact aligned_size_lt (by have := hs.csize; omega)) hj.1 hj.2.1 j.mem
  have hpad : crows.map (Spec.padTo (roundUp8 o.base.adim * 4)) = crows := by
    rw [hs.base.adim, adim_round, ← hs.base.adim]
    conv_rhs => rw [← List.map_id crows]
    apply List.map_congr_left
    intro r hr
    simp [Spec.padTo, hs.matrix r hr]
  rw [hs.crows_n, hpad, ← hs.centers] at hcen
  have hinv : readLists j.k (o0.inv.take o.nc ++ List.replicate (o.nc - o0.inv.length) [])
      (IStream.open (some (encNodes o.inv))) = o.inv := by
    have := readLists_enc j.k hj.2.2.2.2.2.2.2 o.inv
      (o0.inv.take o.nc ++ List.replicate (o.nc - o0.inv.length) []) [] hs.inv_fits
      (by rw [hs.inv_len]; simp only [List.length_append, List.length_take, List.length_replicate]; omega)
    rw [List.append_nil] at this
    exact this
  refine ⟨⟨{ o.base with seen := seen, maxDeg := o0.base.maxDeg, start := o0.base.start, graph := [], medoids := [] },
    o.nc, o.centers, o.inv⟩, hsave, ?_, rfl⟩
  unfold ivfLoad
  rw [hl, Res.ok_bind]
  dsimp only
  rw [if_neg (hpc _), if_pos rfl, hcen, Res.ok_bind]
  dsimp only
  rw [if_pos rfl, hinv]

theorem ivfSave_settled {P : Type} [DecidableEq P] (nm : Part → P) (hnm : Function.Injective nm) (pc : P) {es : Nat}
    {o : IvfObj} {rows crows : List Bytes} (hs : IvfSaveable es o rows crows) :
    ∃ ops, ivfSave es nm pc o = .ok ops ∧ ∀ q, Settled ops q := by
  obtain ⟨b, hb, hbs⟩ := saveBase_settled nm hnm hs.base
  have hcl : o.centers.length = o.nc * o.base.adim * 4 := by
    rw [hs.centers, flatten_length_of hs.matrix, hs.crows_n, Nat.mul_assoc]
  have hslice : slice o.centers 0 (o.nc * o.base.adim * 4) = .ok o.centers := by
    unfold slice
    rw [if_pos (by omega), List.drop_zero, List.take_of_length_le (by omega)]
  have hrows : (List.range o.nc).mapM (rd o.inv) = .ok o.inv := by
    rw [← hs.inv_len, range_mapM_rd]
  refine ⟨b ++ saveBin pc o.nc o.base.adim o.centers ++ ([.create (nm .graph)] ++
      o.inv.flatMap (nodeOps (nm .graph))), ?_, fun q => ((hbs q).append ?_).append ?_⟩
  · unfold ivfSave
    rw [hb, Res.ok_bind, hslice, Res.ok_bind, hrows, Res.ok_bind]
  · exact settled_of_run (p := pc) (b := le 4 o.nc ++ (le 4 o.base.adim ++ o.centers)) (fun fs => saveBin_run ..) q
  · refine settled_of_run (p := nm .graph) (b := encNodes o.inv) (fun fs => ?_) q
    rw [runOps_append, run_nodeOps (nm .graph) o.inv hs.inv_fits _ [] (by simp [runOps, FOp.run])]
    funext q
    by_cases hq : q = nm .graph
    · simp [hq]
    · simp [hq, runOps, FOp.run]

/-- **C106 for IVF**; the members that only graph indices use are not part of the index. -/
theorem C106_ivf {P : Type} [DecidableEq P] (nm : Part → P) (hnm : Function.Injective nm) (pc : P)
    (hpc : ∀ p, pc ≠ nm p) (fs : FS P) (es : Nat) (o : IvfObj) (rows crows : List Bytes)
    (hs : IvfSaveable es o rows crows) (sortL : List Label → List Label) (hsort : IsStrSort sortL) :
    ∃ ops, ivfSave es nm pc o = .ok ops ∧ ∀ gs : List (Junk × IvfObj), gs ≠ [] →
      (∀ g ∈ gs, g.1.WF ∧ IsFresh g.2.base) →
      ∃ o', ivfGens sortL es nm pc gs (fs, o) = .ok (runOps ops fs, o') ∧ SameIvf o o' := by
  obtain ⟨ops, ho, hops⟩ := ivfSave_settled nm hnm pc hs
  refine ⟨ops, ho, fun gs hne hg => ?_⟩
  refine generations_same (ivfSave es nm pc) _ ops hops (SameIvf o) (fun g => g.1.WF ∧ IsFresh g.2.base) fs ?_ ?_ gs o
    hne hg rfl
  · intro o' h
    rw [show o' = _ from h]
    exact ho
  · rintro ⟨j, o0⟩ ⟨hj, h0⟩
    obtain ⟨ops', o', h1, h2, h3⟩ := ivf_reload_object nm hnm pc hpc fs es o rows crows hs sortL hsort j hj o0 h0
    rw [ho] at h1
    cases h1
    exact ⟨o', h2, h3⟩

/-- **C106, copies.**  Saved under another name, in another file system, an index gives the same files (the table of
entry points of the labels only if there is one). -/
theorem C106_copy {P Q : Type} [DecidableEq P] [DecidableEq Q] (nm : Part → P) (hnm : Function.Injective nm)
    (nm' : Part → Q) (hnm' : Function.Injective nm') (fs : FS P) (fs' : FS Q) (es : Nat) (o : IdxObj)
    (rows : List Bytes) (hs : Saveable es o rows) :
    ∃ ops ops', vamanaSave es nm o = .ok ops ∧ vamanaSave es nm' o = .ok ops' ∧
      ∀ p, (p = .medoids → o.filtered = true ∧ o.medoids ≠ []) → runOps ops fs (nm p) = runOps ops' fs' (nm' p) := by
  obtain ⟨ops, ho, hb, hg, hm, -⟩ := vamanaSave_holds nm hnm hs fs
  obtain ⟨ops', ho', hb', hg', hm', -⟩ := vamanaSave_holds nm' hnm' hs fs'
  refine ⟨ops, ops', ho, ho', fun p hp => ?_⟩
  cases p with
  | data => rw [hb.data, hb'.data]
  | tags => rw [hb.tags, hb'.tags]
  | labels => rw [hb.labels, hb'.labels]
  | univ => rw [hb.univ, hb'.univ]
  | graph => rw [hg, hg']
  | medoids =>
    have hc : (o.filtered && o.medoids.length != 0) = true := by
      obtain ⟨h1, h2⟩ := hp rfl
      simp [h1, h2]
    rw [hm, hm', if_pos hc, if_pos hc]

/-! ## The theorems applied to the examples -/

/-- Three generations of the index of two labelled points. -/
example : ∃ ops o', vamanaSave 1 id exObj = .ok ops ∧
    vamanaGens exStrSort 3 1 id (List.replicate 3 (exJunk, IdxObj.fresh)) ((fun _ => none), exObj) =
      .ok (runOps ops (fun _ => none), o') ∧ o'.graph = exObj.graph := by
  obtain ⟨ops, h1, h2⟩ := C106_vamana id (fun _ _ h => h) (fun _ => none) 1 exObj _ exObj_saveable exObj_medoidFile
    exStrSort exStrSort_isStrSort 3 (by decide)
  obtain ⟨o', h3, h4⟩ := h2 (List.replicate 3 (exJunk, IdxObj.fresh)) (by decide) (by
    intro g hg
    rw [List.eq_of_mem_replicate hg]
    exact ⟨exJunk_WF, fresh_isFresh⟩)
  exact ⟨ops, o', h1, h3, by rw [h4]⟩

example := C106_rng id (fun _ _ h => h) (fun _ => some [1]) 1 exObjPlain _ exObjPlain_saveable rfl exStrSort
  exStrSort_isStrSort 3 (by decide)

example := C106_hnsw (fun _ => none) 1 [(exObjPlain, [[1, 2, 3], [4, 5, 6]]), (exObjPlain, [[1, 2, 3], [4, 5, 6]])]
  (by intro x hx; simp only [List.mem_cons, List.not_mem_nil, or_false] at hx; rcases hx with rfl | rfl <;> exact exObjPlain_saveable)
  (by decide) exStrSort exStrSort_isStrSort 3 (by decide)

example := C106_ivf some (Option.some_injective _) none (fun p => by simp) (fun _ => some [1]) 1 exIvfObj _ _
  exIvfObj_saveable exStrSort exStrSort_isStrSort

example := C106_copy id (fun _ _ h => h) some (Option.some_injective _) (fun _ => none) (fun _ => some [7]) 1 exObj _
  exObj_saveable

end Grann
