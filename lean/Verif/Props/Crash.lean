import Verif.Props.Persist
/-!
# Interrupted saves (C39)

A crash leaves the effect of the changes made so far; the change in progress may have been carried out in
part.  (Writes are buffered, so what has reached a file is some prefix of what was written to it; a file is
closed before the next one is opened.  Reordering by the operating system at a power failure is not
considered.)
-/

namespace Grann

/-- A change carried out in part: only the first `k` bytes are written. -/
def FOp.cut {P : Type} (k : Nat) : FOp P → FOp P
  | .create p => .create p
  | .append p b => .append p (b.take k)
  | .patch p b => .patch p (b.take k)
  | .remove p => .remove p

/-- The number of bytes a change writes. -/
def FOp.size {P : Type} : FOp P → Nat
  | .append _ b => b.length
  | .patch _ b => b.length
  | _ => 0

theorem FOp.cut_size {P : Type} (op : FOp P) : op.cut op.size = op := by
  cases op <;> simp [FOp.cut, FOp.size]

/-- `fs'` is a state in which a crash during the changes `ops`, begun in state `fs`, can leave the files. -/
def Crash {P : Type} [DecidableEq P] (ops : List (FOp P)) (fs fs' : FS P) : Prop :=
  fs' = fs ∨ ∃ pre op post k, ops = pre ++ op :: post ∧ fs' = runOps (pre ++ [op.cut k]) fs

variable {P : Type} [DecidableEq P]

/-- The file that a change concerns. -/
def FOp.file {P : Type} : FOp P → P
  | .create p => p
  | .append p _ => p
  | .patch p _ => p
  | .remove p => p

omit [DecidableEq P] in
theorem FOp.cut_file (k : Nat) (op : FOp P) : (op.cut k).file = op.file := by cases op <;> rfl

theorem runOps_other (ops : List (FOp P)) (q : P) (h : ∀ op ∈ ops, q ≠ op.file) (fs : FS P) :
    runOps ops fs q = fs q := by
  apply runOps_ne
  intro op hop
  have := h op hop
  cases op <;> exact this

/-- A crash does not touch files that the operations do not concern. -/
theorem Crash.other {ops : List (FOp P)} {fs fs' : FS P} (h : Crash ops fs fs') (q : P)
    (hq : ∀ op ∈ ops, q ≠ op.file) : fs' q = fs q := by
  rcases h with rfl | ⟨pre, op, post, k, rfl, rfl⟩
  · rfl
  · apply runOps_other
    intro x hx
    rcases List.mem_append.mp hx with hx | hx
    · exact hq x (by simp [hx])
    · rw [List.mem_singleton.mp hx, FOp.cut_file]; exact hq op (by simp)

/-- A crash in a sequence of two groups of changes happens in the first or in the second. -/
theorem Crash.append {a b : List (FOp P)} {fs fs' : FS P} (h : Crash (a ++ b) fs fs') :
    Crash a fs fs' ∨ Crash b (runOps a fs) fs' := by
  rcases h with rfl | ⟨pre, op, post, k, e, rfl⟩
  · exact .inl (.inl rfl)
  · rcases List.append_eq_append_iff.mp e with ⟨c, h1, h2⟩ | ⟨c, h1, h2⟩
    · -- a is a prefix of pre
      right; right
      refine ⟨c, op, post, k, h2, ?_⟩
      rw [h1, List.append_assoc, runOps_append]
    · cases c with
      | nil =>
        right; right
        refine ⟨[], op, post, k, by simpa using h2.symm, ?_⟩
        rw [List.append_nil] at h1
        rw [runOps_append, h1]; rfl
      | cons c0 c =>
        left; right
        rw [List.cons_append, List.cons.injEq] at h2
        obtain ⟨rfl, rfl⟩ := h2
        exact ⟨pre, op, c, k, h1, rfl⟩

/-- A crash while a file is being written leaves a prefix of what was to be written. -/
theorem crash_appends (p : P) : ∀ (bs : List Bytes) (fs fs' : FS P) (c0 : Bytes), fs p = some c0 →
    Crash (bs.map (FOp.append p)) fs fs' →
      ∃ c, fs' = fun q => if q = p then some (c0 ++ bs.flatten.take c) else fs q := by
  intro bs
  induction bs with
  | nil =>
    intro fs fs' c0 h hc
    rcases hc with rfl | ⟨pre, op, post, k, e, -⟩
    · refine ⟨0, ?_⟩
      funext q; by_cases hq : q = p
      · subst hq; simp [h]
      · simp [hq]
    · simp at e
  | cons b bs ih =>
    intro fs fs' c0 h hc
    rw [List.map_cons, ← List.singleton_append] at hc
    rcases hc.append with hc | hc
    · rcases hc with rfl | ⟨pre, op, post, k, e, rfl⟩
      · refine ⟨0, ?_⟩
        funext q; by_cases hq : q = p
        · subst hq; simp [h]
        · simp [hq]
      · have hpre : pre = [] := by
          cases pre with
          | nil => rfl
          | cons x l => simp at e
        subst hpre
        simp only [List.nil_append, List.cons.injEq] at e
        obtain ⟨rfl, -⟩ := e
        refine ⟨min k b.length, ?_⟩
        funext q; by_cases hq : q = p
        · subst hq
          simp only [FOp.cut, runOps, List.nil_append, List.foldl_cons, List.foldl_nil, FOp.run, if_true, h,
            Option.map_some, List.flatten_cons]
          congr 2
          rw [List.take_append_of_le_length (by omega)]
          by_cases hk : k ≤ b.length
          · rw [Nat.min_eq_left hk]
          · rw [Nat.min_eq_right (by omega), List.take_of_length_le (by omega), List.take_of_length_le (by omega)]
        · simp [FOp.cut, runOps, FOp.run, hq]
    · have hfs : runOps [FOp.append p b] fs = fun q => if q = p then some (c0 ++ b) else fs q := by
        funext q; by_cases hq : q = p
        · subst hq; simp [runOps, FOp.run, h]
        · simp [runOps, FOp.run, hq]
      rw [hfs] at hc
      obtain ⟨c, e⟩ := ih _ fs' (c0 ++ b) (by simp) hc
      refine ⟨b.length + c, ?_⟩
      rw [e]
      funext q; by_cases hq : q = p
      · subst hq
        simp only [if_true, List.flatten_cons]
        rw [List.take_append, List.take_of_length_le (l := b) (by omega), Nat.add_sub_cancel_left,
          List.append_assoc]
      · simp [hq]

/-- The same for a file that is created first. -/
theorem crash_write (p : P) (bs : List Bytes) (fs fs' : FS P)
    (hc : Crash ([FOp.create p] ++ bs.map (FOp.append p)) fs fs') :
    fs' = fs ∨ ∃ c, fs' = fun q => if q = p then some (bs.flatten.take c) else fs q := by
  rcases hc.append with hc | hc
  · rcases hc with rfl | ⟨pre, op, post, k, e, rfl⟩
    · exact .inl rfl
    · right
      have hpre : pre = [] := by
        cases pre with
        | nil => rfl
        | cons x l => simp at e
      subst hpre
      simp only [List.nil_append, List.cons.injEq] at e
      obtain ⟨rfl, -⟩ := e
      refine ⟨0, ?_⟩
      funext q; by_cases hq : q = p
      · subst hq; simp [FOp.cut, runOps, FOp.run]
      · simp [FOp.cut, runOps, FOp.run, hq]
  · right
    obtain ⟨c, e⟩ := crash_appends p bs _ fs' [] (by simp [runOps, FOp.run]) hc
    refine ⟨c, ?_⟩
    rw [e]
    funext q; by_cases hq : q = p
    · subst hq; simp
    · simp [runOps, FOp.run, hq]

/-! ## First save under a name -/

/-- The bytes of a graph file in the order in which they are written. -/
def graphWrites (maxDeg start : Nat) (g : List (List Nat)) : List Bytes :=
  [le 8 0, le 4 maxDeg, le 4 start] ++
    g.flatMap (fun nb => [le 4 (u32 nb.length), le32s (nb.take (u32 nb.length))])

theorem graphWrites_flatten (maxDeg start : Nat) (g : List (List Nat)) (hg : Spec.GraphFits g) :
    (graphWrites maxDeg start g).flatten = le 8 0 ++ (le 4 maxDeg ++ (le 4 start ++ encNodes g)) := by
  have : (g.flatMap (fun nb => [le 4 (u32 nb.length), le32s (nb.take (u32 nb.length))])).flatten =
      encNodes g := by
    induction g with
    | nil => rfl
    | cons nb g ih =>
      have hu : u32 nb.length = nb.length := by rw [u32, Nat.mod_eq_of_lt (hg nb (by simp)).1]
      rw [List.flatMap_cons, List.flatten_append, ih (fun x hx => hg x (by simp [hx])), encNodes_cons, hu]
      simp
  unfold graphWrites
  rw [List.flatten_append, this]
  simp

omit [DecidableEq P] in
theorem saveGraph_ops (p : P) {es : Nat} {o : IdxObj} {rows : List Bytes} (hs : Saveable es o rows) :
    saveGraph p o.n o.maxDeg o.start o.graph = .ok (([.create p] ++
      (graphWrites o.maxDeg o.start o.graph).map (.append p)) ++
        [.patch p (le 8 (16 + nodesSize o.graph))]) := by
  unfold saveGraph
  rw [← hs.graph_len, range_mapM_rd, Res.ok_bind]
  unfold graphWrites
  congr 1
  have : o.graph.flatMap (nodeOps p) = (o.graph.flatMap
      (fun nb => [le 4 (u32 nb.length), le32s (nb.take (u32 nb.length))])).map (FOp.append p) := by
    rw [List.map_flatMap]; rfl
  rw [this]
  simp

/-- The part of `vamanaSave` before the graph file. -/
theorem vamanaSave_split (nm : Part → P) {es : Nat} {o : IdxObj} {rows : List Bytes} (hs : Saveable es o rows)
    {ops : List (FOp P)} (ho : vamanaSave es nm o = .ok ops) :
    ∃ b, saveBase es nm o = .ok b ∧ ops = b ++ medoidOps nm o ++ (([.create (nm .graph)] ++
      (graphWrites o.maxDeg o.start o.graph).map (.append (nm .graph))) ++
        [.patch (nm .graph) (le 8 (16 + nodesSize o.graph))]) := by
  unfold vamanaSave at ho
  obtain ⟨b, hb, ho⟩ := Res.bind_eq_ok.mp ho
  rw [saveGraph_ops _ hs] at ho
  simp only [Res.ok_bind, Except.ok.injEq] at ho
  exact ⟨b, hb, ho.symm⟩

omit [DecidableEq P] in
theorem labelOps_files (nm : Part → P) {o : IdxObj} {l : List (FOp P)} (hl : labelOps nm o = .ok l) :
    ∀ op ∈ l, op.file = nm .labels ∨ op.file = nm .univ := by
  intro op hop
  unfold labelOps at hl
  split at hl
  · obtain ⟨l', hl', hl⟩ := Res.bind_eq_ok.mp hl
    simp only [Except.ok.injEq] at hl
    subst hl
    rcases List.mem_append.mp hop with hop | hop
    · unfold saveLabels at hl'
      obtain ⟨rows, -, hl'⟩ := Res.bind_eq_ok.mp hl'
      simp only [Except.ok.injEq] at hl'
      subst hl'
      rcases List.mem_cons.mp hop with rfl | hop
      · exact .inl rfl
      · obtain ⟨r, -, rfl⟩ := List.mem_map.mp hop
        exact .inl rfl
    · unfold univOps at hop
      split at hop <;> simp only [List.mem_cons, List.not_mem_nil, or_false] at hop
      · rcases hop with rfl | rfl <;> exact .inr rfl
      · rw [hop]; exact .inr rfl
  · simp only [Except.ok.injEq] at hl
    subst hl
    simp only [List.mem_cons, List.not_mem_nil, or_false] at hop
    rcases hop with rfl | rfl
    · exact .inl rfl
    · exact .inr rfl

omit [DecidableEq P] in
theorem medoidOps_files (nm : Part → P) (o : IdxObj) : ∀ op ∈ medoidOps nm o, op.file = nm .medoids := by
  intro op hop
  unfold medoidOps at hop
  split at hop
  · unfold saveMedoids at hop
    rcases List.mem_cons.mp hop with rfl | hop
    · rfl
    · obtain ⟨r, -, rfl⟩ := List.mem_map.mp hop
      rfl
  · simp at hop

/-- The changes made before the graph file do not concern the graph file. -/
theorem base_not_graph (nm : Part → P) (hnm : Function.Injective nm) {es : Nat} {o : IdxObj}
    {b : List (FOp P)} (hb : saveBase es nm o = .ok b) :
    ∀ op ∈ b ++ medoidOps nm o, nm .graph ≠ op.file := by
  have ne : ∀ {a b : Part}, a ≠ b → nm a ≠ nm b := fun h e => h (hnm e)
  unfold saveBase at hb
  obtain ⟨d, hd, hb⟩ := Res.bind_eq_ok.mp hb
  obtain ⟨t, ht, hb⟩ := Res.bind_eq_ok.mp hb
  obtain ⟨l, hl, hb⟩ := Res.bind_eq_ok.mp hb
  simp only [Except.ok.injEq] at hb
  subst hb
  intro op hop
  rcases List.mem_append.mp hop with hop | hop
  · rcases List.mem_append.mp hop with hop | hop
    · rcases List.mem_append.mp hop with hop | hop
      · unfold saveOrig at hd
        split at hd
        · simp only [Except.ok.injEq] at hd; subst hd; simp at hop
        · obtain ⟨rows, -, hd⟩ := Res.bind_eq_ok.mp hd
          simp only [Except.ok.injEq] at hd
          subst hd
          rcases List.mem_append.mp hop with hop | hop
          · simp only [List.mem_cons, List.not_mem_nil, or_false] at hop
            rcases hop with rfl | rfl | rfl <;> exact ne (by decide)
          · obtain ⟨r, -, rfl⟩ := List.mem_map.mp hop
            exact ne (by decide)
      · simp only [saveBin, List.mem_cons, List.not_mem_nil, or_false] at hop
        rcases hop with rfl | rfl | rfl | rfl <;> exact ne (by decide)
    · rcases labelOps_files nm hl op hop with e | e <;> rw [e] <;> exact ne (by decide)
  · rw [medoidOps_files nm o op hop]; exact ne (by decide)

omit [DecidableEq P] in
/-- Without a graph file, `load` never succeeds. -/
theorem vamanaLoad_no_graph (nm : Part → P) (es : Nat) (fs : FS P) (hg : fs (nm .graph) = none)
    (sortL : List Label → List Label) (j : Junk) (o0 : IdxObj) (fuel : Nat) :
    ∃ e, vamanaLoad sortL j fuel es nm fs o0 = .error e := by
  unfold vamanaLoad
  cases loadBase sortL j es nm fs o0 with
  | error e => exact ⟨e, rfl⟩
  | ok o =>
    rw [Res.ok_bind]
    cases loadMedoids (fs (nm .medoids)) o.medoids with
    | error e => exact ⟨e, rfl⟩
    | ok m =>
      rw [Res.ok_bind]
      unfold loadGraphInto
      rw [hg, C35_missing_graph_diverges]
      exact ⟨_, rfl⟩

namespace Spec

/-- `g'` is `g`, except that from some byte on the neighbours of the last point may be replaced by
zeros. -/
def SameUpToLastList (g g' : List (List Nat)) : Prop :=
  g' = g ∨ ∃ init last c, g = init ++ [last] ∧
    g' = init ++ [un32s last.length ((le32s last).take c ++ List.replicate (4 * last.length - c) 0)]

end Spec

/-- Cutting the records of a graph leaves fewer lists, or all but the end of the last list. -/
theorem cutGraph_cases (g : List (List Nat)) (c : Nat) :
    (cutGraph g c).length ≠ g.length ∨ Spec.SameUpToLastList g (cutGraph g c) := by
  rcases List.eq_nil_or_concat g with rfl | ⟨init, last, rfl⟩
  · right; left; rfl
  · obtain ⟨h1, h2⟩ := cutGraph_length init last c
    rw [List.concat_eq_append]
    by_cases hc : c < (init.map (fun nb => 4 + 4 * nb.length)).sum + 4
    · left
      have := h1 hc
      rw [List.length_append]; simp; omega
    · right
      have := h2 (by omega)
      rw [this]
      split
      · exact .inr ⟨init, last, _, rfl, rfl⟩
      · exact .inl rfl

/-- **C39, the part that holds.** If a Vamana index with at least one point is saved under a name that has
no graph file yet, then after a crash at any point a load does not return normally, or reports a mismatch,
or yields the new index with at most the end of the last adjacency list replaced by zeros. -/
theorem C39_first_save_partial (nm : Part → P) (hnm : Function.Injective nm) (fs fs' : FS P) (es : Nat)
    (o : IdxObj) (rows : List Bytes) (hs : Saveable es o rows) (hn : 0 < o.n) (hmed : MedoidFileOK nm fs o)
    (hnew : fs (nm .graph) = none) (ops : List (FOp P)) (ho : vamanaSave es nm o = .ok ops)
    (hc : Crash ops fs fs') (sortL : List Label → List Label) (hsort : IsStrSort sortL) (j : Junk)
    (hj : j.WF) (o0 : IdxObj) (h0 : IsFresh o0) (fuel : Nat) (hf : o.n < fuel) :
    (∃ e, vamanaLoad sortL j fuel es nm fs' o0 = .error e) ∨
    (∃ o', vamanaLoad sortL j fuel es nm fs' o0 = .ok (o', true)) ∨
    ∃ seen g', vamanaLoad sortL j fuel es nm fs' o0 = .ok ({ o with seen := seen, graph := g' }, false) ∧
      Spec.SameUpToLastList o.graph g' := by
  obtain ⟨b, hb, hops⟩ := vamanaSave_split nm hs ho
  rw [hops] at hc
  rcases hc.append with hc | hc
  · -- before the graph file is opened
    left
    apply vamanaLoad_no_graph
    rw [hc.other _ (base_not_graph nm hnm hb), hnew]
  · -- the other files are complete
    have ne : ∀ {a b : Part}, a ≠ b → nm a ≠ nm b := fun h e => h (hnm e)
    have hgops : ∀ op ∈ (([.create (nm .graph)] ++
        (graphWrites o.maxDeg o.start o.graph).map (.append (nm .graph))) ++
        [.patch (nm .graph) (le 8 (16 + nodesSize o.graph))] : List (FOp P)), op.file = nm .graph := by
      intro op hop
      rcases List.mem_append.mp hop with hop | hop
      · rcases List.mem_append.mp hop with hop | hop
        · rw [List.mem_singleton.mp hop]; rfl
        · obtain ⟨r, -, rfl⟩ := List.mem_map.mp hop; rfl
      · rw [List.mem_singleton.mp hop]; rfl
    have hother : ∀ q, q ≠ nm .graph → fs' q = runOps ops fs q := by
      intro q hq
      rw [hc.other q (fun op hop => by rw [hgops op hop]; exact hq), hops]
      conv_rhs => rw [runOps_append, runOps_other _ q (fun op hop => by rw [hgops op hop]; exact hq)]
    obtain ⟨ops', ho', hbh, -, hm, -⟩ := vamanaSave_holds nm hnm hs fs
    rw [ho] at ho'
    simp only [Except.ok.injEq] at ho'
    subst ho'
    have hbh' : HoldsBase nm fs' o rows := by
      constructor <;> rw [hother _ (ne (by decide))]
      · exact hbh.data
      · exact hbh.tags
      · exact hbh.labels
      · exact hbh.univ
    obtain ⟨seen, hl⟩ := loadBase_holds sortL hsort j hj nm hs.toBaseSaveable _ hbh' o0 h0
    have hmt : loadMedoids (fs' (nm .medoids)) [] = .ok o.medoids := by
      rw [hother _ (ne (by decide)), hm]
      rcases hmed.2 with ⟨h1, h2⟩ | ⟨h1, h2⟩
      · have : (o.filtered && o.medoids.length != 0) = true := by simp [h1, h2]
        rw [if_pos this]
        exact loadMedoids_saved _ _ hmed.1
      · have : ¬ (o.filtered && o.medoids.length != 0) = true := by simp [h1]
        rw [if_neg this, h2, h1]; rfl
    -- the graph file: missing, or a prefix of a file with some header
    have hgraph : fs' (nm .graph) = none ∨ ∃ hdr c, hdr.length = 8 ∧ fs' (nm .graph) =
        some ((hdr ++ (le 4 o.maxDeg ++ (le 4 o.start ++ encNodes o.graph))).take c) := by
      have hbase : runOps (b ++ medoidOps nm o) fs (nm .graph) = none := by
        rw [runOps_other _ _ (base_not_graph nm hnm hb), hnew]
      rcases hc.append with hc | hc
      · rcases crash_write (nm .graph) _ _ _ hc with e | ⟨c, e⟩
        · left; rw [e, hbase]
        · right
          refine ⟨le 8 0, c, le_length _ _, ?_⟩
          rw [e]; simp only [if_true]
          rw [graphWrites_flatten _ _ _ hs.graph_fits]
      · right
        have hfull : runOps ([FOp.create (nm .graph)] ++
            (graphWrites o.maxDeg o.start o.graph).map (.append (nm .graph)))
            (runOps (b ++ medoidOps nm o) fs) (nm .graph) =
            some (le 8 0 ++ (le 4 o.maxDeg ++ (le 4 o.start ++ encNodes o.graph))) := by
          rw [runOps_append, (run_append_rows (nm .graph) (graphWrites o.maxDeg o.start o.graph) _ []
            (by simp [runOps, FOp.run])).1, List.nil_append, graphWrites_flatten _ _ _ hs.graph_fits]
        rcases hc with e | ⟨pre, op, post, k, e, e'⟩
        · refine ⟨le 8 0, (le 8 0 ++ (le 4 o.maxDeg ++ (le 4 o.start ++ encNodes o.graph))).length,
            le_length _ _, ?_⟩
          rw [e, hfull, List.take_length]
        · have hpre : pre = [] := by
            cases pre with
            | nil => rfl
            | cons x l => simp at e
          subst hpre
          simp only [List.nil_append, List.cons.injEq] at e
          obtain ⟨rfl, -⟩ := e
          refine ⟨(le 8 (16 + nodesSize o.graph)).take k ++
            (le 8 0).drop ((le 8 (16 + nodesSize o.graph)).take k).length,
            8 + (le 4 o.maxDeg ++ (le 4 o.start ++ encNodes o.graph)).length, ?_, ?_⟩
          · simp
          · rw [e']
            have hk : ((le 8 (16 + nodesSize o.graph)).take k).length ≤ (le 8 0).length := by simp
            revert hfull
            generalize runOps ([FOp.create (nm .graph)] ++ _) _ = fs1
            intro hfull
            simp only [FOp.cut, runOps, List.nil_append, List.foldl_cons, List.foldl_nil, FOp.run, if_true]
            rw [hfull, Option.map_some, List.drop_append_of_le_length hk, ← List.append_assoc]
            congr 1
            symm
            apply List.take_of_length_le
            simp only [List.length_append, List.length_take, List.length_drop, le_length]
            omega
    rcases hgraph with hg | ⟨hdr, c, hhdr, hg⟩
    · left; exact vamanaLoad_no_graph nm es fs' hg sortL j o0 fuel
    · right
      obtain ⟨-, -, -, -, g1, g2, g3, gk⟩ := hj
      unfold vamanaLoad
      rw [hl, Res.ok_bind, hmt, Res.ok_bind]
      unfold loadGraphInto
      rw [hg]
      by_cases hc16 : 16 ≤ c
      · rw [loadGraph_cutH gk g1 g2 g3 hs.maxDeg hs.start o.graph hs.graph_fits hdr hhdr _ _ c hc16 fuel
          (by rw [hs.graph_len]; exact hf), Res.ok_bind]
        dsimp only
        rw [List.nil_append]
        rcases cutGraph_cases o.graph (c - 16) with h | h
        · left
          rw [show ((cutGraph o.graph (c - 16)).length != o.n) = true by
            rw [hs.graph_len] at h; simpa using h]
          exact ⟨_, rfl⟩
        · rcases h with h | ⟨init, last, c', h1, h2⟩
          · right
            refine ⟨seen, o.graph, ?_, .inl rfl⟩
            rw [h, show (o.graph.length != o.n) = false by simp [hs.graph_len]]
          · right
            refine ⟨seen, cutGraph o.graph (c - 16), ?_, .inr ⟨init, last, c', h1, h2⟩⟩
            rw [show ((cutGraph o.graph (c - 16)).length != o.n) = false by
              rw [h2, ← hs.graph_len, h1]; simp]
      · left
        obtain ⟨r, hr, hrep⟩ := loadGraph_short (junk := j.k) (fuel := fuel) _ (by
          rw [List.length_take]; omega :
          ((hdr ++ (le 4 o.maxDeg ++ (le 4 o.start ++ encNodes o.graph))).take c).length < 16) g1 g2 g3 hn
          (by omega)
        dsimp only
        rw [hr, Res.ok_bind, hrep]
        exact ⟨_, rfl⟩

/-! ## Saving over an older index -/

/-- An incomplete data file is refused. -/
theorem loadAligned_prefix_throws {es n d c : Nat} {data : Bytes} (hn : n < 4294967296) (hd : d < 4294967296)
    (hl : data.length = n * d * es) (hsz : n * d * es + 8 < 18446744073709551616)
    (hc : c < 8 + n * d * es) {j1 j2 : Bytes} (h1 : j1.length = 4) (h2 : j2.length = 4)
    (hjunk : es = 1 ∨ es % 4 = 0 ∧ unle j1 * unle j2 * es + 8 < 18446744073709551616 ∧
      n * unle j2 * es + 8 < 18446744073709551616) (mem : Nat → UInt8) :
    loadAligned es (some ((le 4 n ++ (le 4 d ++ data)).take c)) j1 j2 mem = .error .throw := by
  have hlen : ((le 4 n ++ (le 4 d ++ data)).take c).length = c := by
    rw [List.length_take]; simp [hl]; omega
  by_cases hc8 : 8 ≤ c
  · have ht : (le 4 n ++ (le 4 d ++ data)).take c = le 4 n ++ (le 4 d ++ data.take (c - 8)) := by
      rw [List.take_append, List.take_of_length_le (by simp; omega), le_length, List.take_append,
        List.take_of_length_le (by simp; omega), le_length, show c - 4 - 4 = c - 8 by omega]
    rw [ht] at hlen
    rw [ht]
    unfold loadAligned
    rw [readHeader_le hn hd h1 h2]
    dsimp only
    rw [if_pos]
    simp only [tellSize, hlen, u64]
    rw [Nat.mod_eq_of_lt hsz]; omega
  · unfold loadAligned
    have hlt := readHeader_lt (some ((le 4 n ++ (le 4 d ++ data)).take c)) h1 h2
    rcases hr : readHeader (some ((le 4 n ++ (le 4 d ++ data)).take c)) j1 j2 with ⟨N, D, s⟩
    rw [hr] at hlt
    dsimp only at hlt ⊢
    rw [if_pos]
    simp only [tellSize, hlen, u64]
    rcases hjunk with rfl | ⟨hes, hja, hjb⟩
    · have : N * D ≤ 4294967295 * 4294967295 := Nat.mul_le_mul (by omega) (by omega)
      omega
    · have hmod : N * D * es % 4 = 0 := by rw [Nat.mul_mod, hes, Nat.mul_zero]
      by_cases h04 : c = 0 ∨ c = 4
      · have hND : N * D * es + 8 < 18446744073709551616 := by
          rcases h04 with rfl | rfl
          · have : readHeader (some ((le 4 n ++ (le 4 d ++ data)).take 0)) j1 j2 =
                (unle j1, unle j2, ⟨[], true, true⟩) := by
              simp [readHeader, IStream.open, IStream.readInt, IStream.read, h1, h2]
            rw [this] at hr
            simp only [Prod.mk.injEq] at hr
            obtain ⟨rfl, rfl, -⟩ := hr
            exact hja
          · have ht : (le 4 n ++ (le 4 d ++ data)).take 4 = le 4 n ++ [] := by
              rw [List.take_left' (le_length _ _), List.append_nil]
            rw [ht] at hr
            unfold readHeader IStream.open at hr
            dsimp only at hr
            rw [IStream.readInt_le n 4 [] j1 h1 (by omega)] at hr
            have e2 : (IStream.mk [] false false).readInt j2 = (unle j2, ⟨[], true, true⟩) := by
              simp [IStream.readInt, IStream.read, h2]
            dsimp only at hr
            rw [e2] at hr
            simp only [Prod.mk.injEq] at hr
            obtain ⟨rfl, rfl, -⟩ := hr
            exact hjb
        omega
      · omega

/-- An incomplete tag file is refused. -/
theorem loadBin_prefix_throws {n c : Nat} {data : Bytes} (hn : n < 4294967296)
    (hl : data.length = n * 4) (hc : c < 8 + n * 4) {j1 j2 : Bytes} (h1 : j1.length = 4)
    (h2 : j2.length = 4) (mem : Nat → UInt8) :
    loadBin 4 (some ((le 4 n ++ (le 4 1 ++ data)).take c)) j1 j2 mem = .error .throw := by
  have hlen : ((le 4 n ++ (le 4 1 ++ data)).take c).length = c := by
    rw [List.length_take]; simp [hl]; omega
  rcases loadBin_cases 4 (some ((le 4 n ++ (le 4 1 ++ data)).take c)) h1 h2 mem with h | ⟨n', d', data', a1, a2, e, a3, a4, -⟩
  · exact h
  · exfalso
    simp only [Option.some.injEq] at e
    have hlen' := congrArg List.length e
    rw [hlen] at hlen'
    simp only [List.length_append, le_length] at hlen'
    have ht : (le 4 n ++ (le 4 1 ++ data)).take c = le 4 n ++ (le 4 1 ++ data.take (c - 8)) := by
      rw [List.take_append, List.take_of_length_le (by simp; omega), le_length, List.take_append,
        List.take_of_length_le (by simp; omega), le_length, show c - 4 - 4 = c - 8 by omega]
    rw [ht] at e
    have e1 := List.append_inj e (by simp)
    have e2 := List.append_inj e1.2 (by simp)
    have hn' : n = n' := by
      have := congrArg unle e1.1
      rwa [unle_le_of_lt (by omega), unle_le_of_lt (by omega)] at this
    have hd' : 1 = d' := by
      have := congrArg unle e2.1
      rwa [unle_le_of_lt (by omega), unle_le_of_lt (by omega)] at this
    subst hn' hd'
    omega

/-- **C39, the part that holds when an older index is overwritten.** After a crash at any point, the files
are untouched, or the load throws, or the new vectors are in place completely and the tags are the old ones or
the new ones, completely (and then the labels, the label entry points and the graph may still be the old
ones, which is not noticed: `C39_mixed_index_accepted`).  The condition on the uninitialised variables concerns a data file of less than
eight bytes. -/
theorem C39_overwrite_partial (nm : Part → P) (hnm : Function.Injective nm) (fs fs' : FS P) (es : Nat)
    (o : IdxObj) (rows : List Bytes) (hs : Saveable es o rows) (ops : List (FOp P))
    (ho : vamanaSave es nm o = .ok ops) (hc : Crash ops fs fs')
    (sortL : List Label → List Label) (j : Junk) (hj : j.WF)
    (hjunk : es = 1 ∨ es % 4 = 0 ∧ unle j.h1 * unle j.h2 * es + 8 < 18446744073709551616 ∧
      o.n * unle j.h2 * es + 8 < 18446744073709551616) (o0 : IdxObj) (fuel : Nat) :
    fs' = fs ∨ vamanaLoad sortL j fuel es nm fs' o0 = .error .throw ∨
      (fs' (nm .data) = some (le 4 o.n ++ (le 4 o.dim ++ rows.flatten)) ∧
        (fs' (nm .tags) = fs (nm .tags) ∨
          fs' (nm .tags) = some (le 4 o.n ++ (le 4 1 ++ le32s o.tags)))) := by
  have ne : ∀ {a b : Part}, a ≠ b → nm a ≠ nm b := fun h e => h (hnm e)
  obtain ⟨b, hb, hops⟩ := vamanaSave_split nm hs ho
  have hda : o.dim ≤ o.adim := by rw [hs.adim]; exact (roundUp8_spec _).1
  have hlrow : rows.flatten.length = o.n * o.dim * es := by
    rw [flatten_length_of hs.matrix, hs.rows_n, Nat.mul_assoc]
  have hsz := hs.size
  -- the operations on the data file and on the tag file
  have hdops : saveOrig (nm .data) es o.data o.n o.adim o.dim = .ok ([.create (nm .data)] ++
      ([le 4 o.n, le 4 o.dim] ++ rows).map (.append (nm .data))) := by
    have hrows : (List.range rows.length).mapM
        (fun i => slice (rows.map (Spec.padTo (o.adim * es))).flatten (i * o.adim * es) (o.dim * es)) =
        .ok rows := by
      rw [mapM_eq_map _ (fun i => (rows[i]?).getD [])]
      · congr 1
        apply List.ext_getElem
        · simp
        · intro i h1 h2; simp [List.getElem?_eq_getElem h2]
      · intro i hi
        have hi := List.mem_range.mp hi
        rw [slice_row hda hs.matrix (List.getElem?_eq_getElem hi)]
        simp [List.getElem?_eq_getElem hi]
    unfold saveOrig
    rw [if_neg (by omega), ← hs.rows_n, hs.data, hrows, Res.ok_bind]
    simp
  have htops : saveBin (nm .tags) o.n 1 (le32s o.tags) = [.create (nm .tags)] ++
      [le 4 o.n, le 4 1, le32s o.tags].map (.append (nm .tags)) := rfl
  unfold saveBase tagBytes at hb
  rw [hdops, Res.ok_bind, if_pos (by rw [hs.tags_len]), Res.ok_bind,
    List.take_of_length_le (by rw [hs.tags_len])] at hb
  obtain ⟨l, hl, hb⟩ := Res.bind_eq_ok.mp hb
  simp only [Except.ok.injEq] at hb
  rw [htops] at hb
  rw [← hb] at hops
  rw [hops] at hc
  simp only [List.append_assoc] at hc
  -- first group: data
  rw [← List.append_assoc] at hc
  rcases hc.append with hc | hc
  · rcases crash_write (nm .data) _ _ _ hc with e | ⟨c, e⟩
    · exact .inl e
    · right
      have hfl : ([le 4 o.n, le 4 o.dim] ++ rows).flatten = le 4 o.n ++ (le 4 o.dim ++ rows.flatten) := by simp
      have hfd : fs' (nm .data) = some ((le 4 o.n ++ (le 4 o.dim ++ rows.flatten)).take c) := by
        rw [e]; simp only [if_true]; rw [hfl]
      by_cases hcl : c < 8 + o.n * o.dim * es
      · left
        unfold vamanaLoad loadBase
        rw [hfd, loadAligned_prefix_throws hs.n_lt hs.dim_lt hlrow (by omega) hcl hj.1 hj.2.1 hjunk]
        rfl
      · right
        refine ⟨?_, .inl ?_⟩
        · rw [hfd, List.take_of_length_le]
          simp only [List.length_append, le_length, hlrow]; omega
        · rw [e]; simp only; rw [if_neg (ne (by decide))]
  · right
    obtain ⟨d', hd', hdr⟩ := saveOrig_run (nm .data) (es := es) hda hs.matrix fs
    rw [← hs.data, hs.rows_n, hdops] at hd'
    simp only [Except.ok.injEq] at hd'
    rw [hs.rows_n] at hdr
    rw [hd', hdr, ← List.append_assoc] at hc
    rcases hc.append with hc | hc
    · rcases crash_write (nm .tags) _ _ _ hc with e | ⟨c, e⟩
      · right
        rw [e]
        simp only [if_true]
        exact ⟨trivial, .inl (by rw [if_neg (ne (by decide))])⟩
      · have hfd : fs' (nm .data) = some (le 4 o.n ++ (le 4 o.dim ++ rows.flatten)) := by
          rw [e]; simp only [if_true]; rw [if_neg (ne (by decide))]
        have hft : fs' (nm .tags) = some ((le 4 o.n ++ (le 4 1 ++ le32s o.tags)).take c) := by
          rw [e]; simp only [if_true]; simp
        by_cases hcl : c < 8 + o.n * 4
        · left
          unfold vamanaLoad loadBase
          have hload := loadAligned_ok (es := es) (d := o.dim) hs.matrix (by rw [hs.rows_n]; exact hs.n_lt)
            hs.dim_lt (by rw [hs.rows_n]; omega) (by rw [hs.rows_n]; exact aligned_size_lt (by omega)) hj.1
            hj.2.1 j.mem
          rw [hs.rows_n] at hload
          rw [hfd, hload, Res.ok_bind, hft]
          dsimp only
          rw [loadBin_prefix_throws hs.n_lt (by rw [le32s_length, hs.tags_len]; omega) hcl hj.2.2.1 hj.2.2.2.1]
          rfl
        · right
          refine ⟨hfd, .inr ?_⟩
          rw [hft, List.take_of_length_le]
          simp only [List.length_append, le_length, le32s_length, hs.tags_len]; omega
    · right
      have hrest : ∀ q, q = nm .data ∨ q = nm .tags → fs' q = runOps ([.create (nm .tags)] ++
          [le 4 o.n, le 4 1, le32s o.tags].map (.append (nm .tags)))
          (fun q => if q = nm .data then some (le 4 o.n ++ (le 4 o.dim ++ rows.flatten)) else fs q) q := by
        intro q hq
        apply hc.other q
        intro op hop he
        have hfile : op.file ≠ nm .data ∧ op.file ≠ nm .tags := by
          simp only [List.mem_append] at hop
          rcases hop with hop | hop | hop | hop | hop
          · rcases labelOps_files nm hl op hop with e | e <;> rw [e] <;>
              exact ⟨ne (by decide), ne (by decide)⟩
          · rw [medoidOps_files nm o op hop]; exact ⟨ne (by decide), ne (by decide)⟩
          · rw [List.mem_singleton.mp hop]; exact ⟨ne (by decide), ne (by decide)⟩
          · obtain ⟨r, -, rfl⟩ := List.mem_map.mp hop; exact ⟨ne (by decide), ne (by decide)⟩
          · rw [List.mem_singleton.mp hop]; exact ⟨ne (by decide), ne (by decide)⟩
        rcases hq with rfl | rfl
        · exact hfile.1 he.symm
        · exact hfile.2 he.symm
      refine ⟨?_, .inr ?_⟩
      · rw [hrest _ (.inl rfl), runOps_other _ _ ?_, if_pos rfl]
        intro op hop
        have : op.file = nm .tags := by
          rcases List.mem_append.mp hop with hop | hop
          · rw [List.mem_singleton.mp hop]; rfl
          · obtain ⟨r, -, rfl⟩ := List.mem_map.mp hop; rfl
        rw [this]; exact ne (by decide)
      · rw [hrest _ (.inr rfl), runOps_append, (run_append_rows (nm .tags) _ _ []
          (by simp [runOps, FOp.run])).1]
        simp

/-! ## The defect -/

/-- Another two-point index with the same number of points. -/
def exObjNew : IdxObj :=
  { exObjPlain with data := [9, 9, 9, 0, 0, 0, 0, 0, 7, 7, 7, 0, 0, 0, 0, 0], tags := [20, 21], start := 1,
                    graph := [[], [0]] }

theorem exObjNew_saveable : Saveable 1 exObjNew [[9, 9, 9], [7, 7, 7]] := by
  refine ⟨⟨?_, rfl, by decide, by decide, by decide, by decide, by decide, rfl, by decide,
    fun h => (by cases h), fun _ => ⟨rfl, rfl⟩, rfl⟩, rfl, ?_, by decide, by decide⟩
  · unfold Spec.Matrix; decide
  · unfold Spec.GraphFits; decide

/-- **C39 is false**, for every pair of indices with the same number of points.  Save one index, then save
another one over it, and crash just before the label entry points are written: the load returns normally and
reports nothing, and the index combines the new vectors, tags and labels with the old entry points and the
old graph. -/
theorem C39_mixed_index_accepted (nm : Part → P) (hnm : Function.Injective nm) (fs : FS P) (es : Nat)
    (o1 o2 : IdxObj) (rows1 rows2 : List Bytes) (hs1 : Saveable es o1 rows1) (hs2 : Saveable es o2 rows2)
    (hn : o1.n = o2.n) (hmed : MedoidFileOK nm fs o1) (sortL : List Label → List Label)
    (hsort : IsStrSort sortL) (j : Junk) (hj : j.WF) (o0 : IdxObj) (h0 : IsFresh o0) (fuel : Nat)
    (hf : o1.n < fuel) :
    ∃ ops1 ops2 fs' seen, vamanaSave es nm o1 = .ok ops1 ∧ vamanaSave es nm o2 = .ok ops2 ∧
      Crash ops2 (runOps ops1 fs) fs' ∧
      vamanaLoad sortL j fuel es nm fs' o0 =
        .ok ({ o2 with seen := seen, medoids := o1.medoids, maxDeg := o1.maxDeg, start := o1.start,
                       graph := o1.graph }, false) := by
  have ne : ∀ {a b : Part}, a ≠ b → nm a ≠ nm b := fun h e => h (hnm e)
  obtain ⟨ops1, ho1, -, hg1, hm1, -⟩ := vamanaSave_holds nm hnm hs1 fs
  obtain ⟨ops2, ho2, -⟩ := vamanaSave_holds nm hnm hs2 (runOps ops1 fs)
  obtain ⟨b, hb, hbh, hbq⟩ := saveBase_holds nm hnm hs2.toBaseSaveable (runOps ops1 fs)
  obtain ⟨b', hb', hops⟩ := vamanaSave_split nm hs2 ho2
  rw [hb] at hb'
  simp only [Except.ok.injEq] at hb'
  subst hb'
  obtain ⟨seen, hl⟩ := loadBase_holds sortL hsort j hj nm hs2.toBaseSaveable _ hbh o0 h0
  have hmt : loadMedoids (runOps b (runOps ops1 fs) (nm .medoids)) [] = .ok o1.medoids := by
    rw [hbq _ (ne (by decide)) (ne (by decide)) (ne (by decide)) (ne (by decide)), hm1]
    rcases hmed.2 with ⟨h1, h2⟩ | ⟨h1, h2⟩
    · have : (o1.filtered && o1.medoids.length != 0) = true := by simp [h1, h2]
      rw [if_pos this]
      exact loadMedoids_saved _ _ hmed.1
    · have : ¬ (o1.filtered && o1.medoids.length != 0) = true := by simp [h1]
      rw [if_neg this, h2, h1]; rfl
  refine ⟨ops1, ops2, runOps b (runOps ops1 fs), seen, ho1, ho2, ?_, ?_⟩
  · right
    -- the state after all changes in `b` is the state in which none of the next change has been done
    rcases List.eq_nil_or_concat b with rfl | ⟨b0, op, rfl⟩
    · exfalso
      unfold saveBase at hb
      obtain ⟨d, hd, hb⟩ := Res.bind_eq_ok.mp hb
      obtain ⟨t, ht, hb⟩ := Res.bind_eq_ok.mp hb
      obtain ⟨l, hl, hb⟩ := Res.bind_eq_ok.mp hb
      simp [saveBin] at hb
    · rw [List.concat_eq_append] at hops ⊢
      refine ⟨b0, op, _, op.size, by rw [hops, List.append_assoc, List.append_assoc]; rfl, ?_⟩
      rw [FOp.cut_size]
  · unfold vamanaLoad
    rw [hl, Res.ok_bind, hmt, Res.ok_bind]
    exact loadGraphInto_full j hj nm hs1 _
      (by rw [hbq _ (ne (by decide)) (ne (by decide)) (ne (by decide)) (ne (by decide)), hg1])
      { o2 with seen := seen, maxDeg := o0.maxDeg, start := o0.start, graph := [], medoids := o1.medoids }
      rfl hn.symm fuel hf

/-- A concrete case: the graph of the mixture is that of the first index, its vectors are those of the
second. -/
example : ∃ ops1 ops2 fs' seen, vamanaSave 1 id exObjPlain = .ok ops1 ∧ vamanaSave 1 id exObjNew = .ok ops2 ∧
    Crash ops2 (runOps ops1 fun _ => none) fs' ∧
    vamanaLoad exStrSort exJunk 3 1 id fs' IdxObj.fresh =
      .ok ({ exObjNew with seen := seen, graph := [[1], []], start := 0 }, false) :=
  C39_mixed_index_accepted id (fun _ _ h => h) (fun _ => none) 1 exObjPlain exObjNew _ _ exObjPlain_saveable
    exObjNew_saveable rfl (by unfold MedoidFileOK MedoidsFit Spec.PlainLabel; decide) exStrSort
    exStrSort_isStrSort exJunk exJunk_WF IdxObj.fresh fresh_isFresh 3 (by decide)

/-- The hypotheses of `C39_first_save_partial` can be met; a crash right at the start is one of the
crashes considered. -/
example : (∃ ops, vamanaSave 1 id exObj = .ok ops ∧ Crash ops (fun _ => none) (fun _ => none)) ∧
    Saveable 1 exObj [[1, 2, 3], [4, 5, 6]] ∧ 0 < exObj.n ∧ MedoidFileOK id (fun _ => none) exObj := by
  obtain ⟨ops, h, -⟩ := vamanaSave_holds id (fun _ _ h => h) exObj_saveable (fun _ => none)
  exact ⟨⟨ops, h, .inl rfl⟩, exObj_saveable, by decide,
    by unfold MedoidFileOK MedoidsFit Spec.PlainLabel; decide⟩

/-- **C39, vectors and tags of different indices.** Complete vector and tag files whose numbers of points
differ, as an interruption between the two leaves them when an index of another size was there, end the load
with `exit`, whatever the other files are. -/
theorem C39_other_count_partial {P : Type} (sortL : List Label → List Label) (j : Junk) (hj : j.WF)
    (fuel es : Nat) (nm : Part → P) (fs : FS P) (o0 : IdxObj) (dim : Nat) (rows : List Bytes)
    (hm : Spec.Matrix es dim rows) (hn : rows.length < 4294967296) (hd : dim < 4294967296)
    (hw : rows.length * dim * es + 8 < 18446744073709551616)
    (hs : rows.length * roundUp8 dim * es < 18446744073709551616) (tags : List Nat)
    (ht : tags.length < 4294967296)
    (hdata : fs (nm .data) = some (le 4 rows.length ++ (le 4 dim ++ rows.flatten)))
    (htags : fs (nm .tags) = some (le 4 tags.length ++ (le 4 1 ++ le32s tags)))
    (hne : tags.length ≠ rows.length) :
    vamanaLoad sortL j fuel es nm fs o0 = .error .exit ∧ rngLoad sortL j fuel es nm fs o0 = .error .exit := by
  have h : loadBase sortL j es nm fs o0 = .error .exit := by
    obtain ⟨j1, j2, j3, j4, -⟩ := hj
    unfold loadBase
    rw [hdata, htags, loadAligned_ok hm hn hd hw hs j1 j2, Res.ok_bind]
    dsimp only
    rw [loadBin_ok (es := 4) ht (by omega) (by rw [le32s_length]; omega) (by omega) j3 j4, Res.ok_bind]
    dsimp only
    rw [if_pos hne]
  unfold vamanaLoad rngLoad
  rw [h]
  exact ⟨rfl, rfl⟩

/-- Two points, three tags. -/
example : vamanaLoad exStrSort exJunk 3 1 id (fun p => match p with
      | .data => some (le 4 2 ++ (le 4 3 ++ [1, 2, 3, 4, 5, 6]))
      | .tags => some (le 4 3 ++ (le 4 1 ++ le32s [7, 8, 9]))
      | _ => none) IdxObj.fresh = .error .exit :=
  (C39_other_count_partial exStrSort exJunk exJunk_WF 3 1 id _ IdxObj.fresh 3 [[1, 2, 3], [4, 5, 6]]
    (by unfold Spec.Matrix; decide) (by decide) (by decide) (by decide) (by decide) [7, 8, 9] (by decide) rfl rfl
    (by decide)).1

/-! ## The theorems applied to the examples -/

/-- A crash after the data file has been created. -/
example (ops : List (FOp Part)) (ho : vamanaSave 1 id exObj = .ok ops) (fs' : FS Part)
    (hc : Crash ops (fun _ => none) fs') :=
  C39_first_save_partial id (fun _ _ h => h) (fun _ => none) fs' 1 exObj _ exObj_saveable (by decide)
    (by unfold MedoidFileOK MedoidsFit Spec.PlainLabel; decide) rfl ops ho hc exStrSort exStrSort_isStrSort exJunk
    exJunk_WF IdxObj.fresh fresh_isFresh 3 (by decide)

/-- An old data file of another index is overwritten. -/
example (ops : List (FOp Part)) (ho : vamanaSave 1 id exObj = .ok ops) (fs' : FS Part)
    (hc : Crash ops (fun _ => some [1, 2, 3]) fs') :=
  C39_overwrite_partial id (fun _ _ h => h) (fun _ => some [1, 2, 3]) fs' 1 exObj _ exObj_saveable ops ho hc exStrSort
    exJunk exJunk_WF (.inl rfl) IdxObj.fresh 3

end Grann
