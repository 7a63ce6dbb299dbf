import Verif.Props.Damage
/-!
# C107: damaged graph files of HNSW, and damaged edges of Vamana
-/

namespace Grann

/-- An index with the highest bit of one neighbour of its entry point flipped can be saved, and its graph file differs in that
bit. -/
theorem edge_object (es : Nat) (o : IdxObj) (rows : List Bytes) (hs : Saveable es o rows)
    (p s : List Nat) (x : Nat) (hx : x < 2147483648) (hnb : o.graph[o.start]? = some (p ++ x :: s)) :
    ∃ g', Saveable es { o with graph := g' } rows ∧
      Spec.OneBit (Spec.graphFile o.maxDeg o.start o.graph) (Spec.graphFile o.maxDeg o.start g') ∧
      g'[o.start]? = some (p ++ (x + 2147483648) :: s) := by
  obtain ⟨hlt, hget⟩ := List.getElem?_eq_some_iff.1 hnb
  have hsplit : o.graph = o.graph.take o.start ++ (p ++ x :: s) :: o.graph.drop (o.start + 1) := by
    rw [← hget, List.getElem_cons_drop, List.take_append_drop]
  obtain ⟨g', hg'⟩ : ∃ g', g' = o.graph.take o.start ++ (p ++ (x + 2147483648) :: s) :: o.graph.drop (o.start + 1) := ⟨_, rfl⟩
  have hlg : g'.length = o.graph.length := by
    rw [hg', List.length_append, List.length_cons, List.length_take, List.length_drop]
    omega
  have hg's : g'[o.start]? = some (p ++ (x + 2147483648) :: s) := by
    rw [hg', List.getElem?_append_right (by simp)]
    simp [Nat.min_eq_left (Nat.le_of_lt hlt)]
  have hfits : Spec.GraphFits g' := by
    intro nb hmem
    rw [hg'] at hmem
    rcases List.mem_append.1 hmem with h | h
    · exact hs.graph_fits nb (List.mem_of_mem_take h)
    · rcases List.mem_cons.1 h with rfl | h
      · have h1 := hs.graph_fits _ (List.mem_of_getElem? hnb)
        refine ⟨by simpa using h1.1, fun y hy => ?_⟩
        rcases List.mem_append.1 hy with hy | hy
        · exact h1.2 y (by simp [hy])
        · rcases List.mem_cons.1 hy with rfl | hy
          · omega
          · exact h1.2 y (by simp [hy])
      · exact hs.graph_fits nb (List.mem_of_mem_drop h)
  refine ⟨g', { hs with graph_len := by show g'.length = o.n; rw [hlg, hs.graph_len]
                        graph_fits := hfits }, ?_, hg's⟩
  have := oneBit_graph o.maxDeg o.start (o.graph.take o.start) (o.graph.drop (o.start + 1)) p s x hx
  rw [← hsplit, ← hg'] at this
  exact this

/-- **C107 is false, edges of Vamana.**  One bit of any neighbour of the entry point flipped: `load` accepts the file, and every
search without a filter reads outside of the vectors. -/
theorem C107_vamana_edge {P : Type} [DecidableEq P] (nm : Part → P) (hnm : Function.Injective nm) (fs : FS P) (es : Nat) (o : IdxObj)
    (rows : List Bytes) (hs : Saveable es o rows) (hmed : MedoidFileOK nm fs o) (hn : o.n ≤ 2147483648) (hst : o.start < o.n)
    (nb : List Nat) (hnb : o.graph[o.start]? = some nb) (x : Nat) (hx : x ∈ nb) (hxn : x < o.n)
    (sortL : List Label → List Label) (hsort : IsStrSort sortL) (j : Junk) (hj : j.WF)
    (o0 : IdxObj) (h0 : IsFresh o0) (fuel : Nat) (hf : o.n < fuel) :
    ∃ ops f b o', vamanaSave es nm o = .ok ops ∧ runOps ops fs (nm .graph) = some f ∧ Spec.OneBit f b ∧
      vamanaLoad sortL j fuel es nm (fun q => if q = nm .graph then some b else runOps ops fs q) o0 = .ok (o', false) ∧
      ∀ sortF, IsStdSort sortF → ∀ cmp q rc L ind dst, (∀ v, cmp v q = cmp q v) → 1 ≤ L → L ≤ 2 ^ 31 →
        vamanaSearch sortF (o'.view es cmp) q rc L ind dst [] = .error .ub := by
  have ne : ∀ {a b : Part}, a ≠ b → nm a ≠ nm b := fun h e => h (hnm e)
  obtain ⟨p, s, rfl⟩ := List.append_of_mem hx
  obtain ⟨ops, ho, hb, hg, hm, -⟩ := vamanaSave_holds nm hnm hs fs
  have hmt : loadMedoids (runOps ops fs (nm .medoids)) [] = .ok o.medoids := by
    rw [hm]
    rcases hmed.2 with ⟨h1, h2⟩ | ⟨h1, h2⟩
    · have : (o.filtered && o.medoids.length != 0) = true := by
        simp [h1, h2]
      rw [if_pos this]
      exact loadMedoids_saved _ _ hmed.1
    · have : ¬ (o.filtered && o.medoids.length != 0) = true := by simp [h1]
      rw [if_neg this, h2, h1]; rfl
  obtain ⟨g', hs1, hbit, hget⟩ := edge_object es o rows hs p s x (by omega) hnb
  obtain ⟨o1, ho1⟩ : ∃ o1 : IdxObj, o1 = { o with graph := g' } := ⟨_, rfl⟩
  rw [← ho1] at hs1
  have hb1 := HoldsBase.other hnm hb (some (Spec.graphFile o.maxDeg o.start g')) (o' := o1)
    (by rw [ho1]) (by rw [ho1]) (by rw [ho1]) (by rw [ho1]) (by rw [ho1]) (by rw [ho1])
  obtain ⟨seen, hl⟩ := loadBase_holds sortL hsort j hj nm hs1.toBaseSaveable _ hb1 o0 h0
  refine ⟨ops, _, _, { o1 with seen := seen, medoids := o.medoids }, ho, hg, hbit, ?_, fun sortF hsF cmp q rc L ind dst hsym hL1 hL => ?_⟩
  · unfold vamanaLoad
    rw [hl, Res.ok_bind]
    dsimp only
    rw [if_neg (ne (by decide)), hmt, Res.ok_bind]
    exact loadGraphInto_full j hj nm hs1 _ (by rw [if_pos rfl, ho1])
      { o1 with seen := seen, maxDeg := o0.maxDeg, start := o0.start, graph := [], medoids := o.medoids } rfl rfl fuel
      (by rw [ho1]; exact hf)
  · have hnum : ({ o1 with seen := seen, medoids := o.medoids } : IdxObj).n = o.n := by rw [ho1]
    have hstart : ({ o1 with seen := seen, medoids := o.medoids } : IdxObj).start = o.start := by rw [ho1]
    unfold vamanaSearch
    show graphSearch sortF _ q [] [({ o1 with seen := seen, medoids := o.medoids } : IdxObj).start] rc L ind dst = _
    rw [hstart]
    refine graphSearch_bad_edge sortF hsF _ o.start (by rw [view_length, hnum]; exact hst) q (fun v _ => hsym v)
      (p ++ (x + 2147483648) :: s) ?_ ⟨x + 2147483648, by simp, by rw [view_length, hnum]; omega⟩ rc L hL1 hL ind dst
    show o1.graph[o.start]? = _
    rw [ho1]
    exact hget

/-- The files of all levels, that of the innermost graph replaced. -/
theorem HeldLevels.inner {fs : FS (Nat × Part)} {x y : IdxObj × List Bytes} (hr : y.2 = x.2) (hn : y.1.n = x.1.n)
    (hd : y.1.dim = x.1.dim) (ht : y.1.tags = x.1.tags) (hf : y.1.filtered = x.1.filtered) (hl : y.1.labels = x.1.labels)
    (hu : y.1.univ = x.1.univ) :
    ∀ (up : List (IdxObj × List Bytes)), HeldLevels fs (up ++ [x]) →
      HeldLevels (fun q => if q = (0, .graph) then some (Spec.graphFile y.1.maxDeg y.1.start y.1.graph) else fs q) (up ++ [y])
  | [], ⟨hb, _, _⟩ =>
    ⟨by rw [hr]; exact HoldsBase.other (nm := fun p => (0, p)) (fun p q h => by simpa using h) hb _ hn hd ht hf hl hu, if_pos rfl, trivial⟩
  | u :: up, h => by
    obtain ⟨hb, hg, hi⟩ := h
    have hl1 : (up ++ [y]).length = (up ++ [x]).length := by simp
    have hne : ∀ p : Part, ((up ++ [x]).length, p) ≠ ((0, .graph) : Nat × Part) := fun p e => by simp at e
    refine ⟨?_, ?_, HeldLevels.inner hr hn hd ht hf hl hu up hi⟩
    · show HoldsBase (fun p => ((up ++ [y]).length, p)) _ u.1 u.2
      rw [hl1]
      obtain ⟨a, b, c, d⟩ := hb
      exact ⟨by rw [if_neg (hne _)]; exact a, by rw [if_neg (hne _)]; exact b, by rw [if_neg (hne _)]; exact c,
        by rw [if_neg (hne _)]; exact d⟩
    · show (if (((up ++ [y]).length, Part.graph) : Nat × Part) = (0, .graph) then _ else fs ((up ++ [y]).length, .graph)) = _
      rw [hl1, if_neg (hne _)]
      exact hg

/-- A search that is undefined on the innermost level is undefined. -/
theorem hnswSearch_inner_ub {V : Type} (sortF : List Nbr → List Nbr) (q : V) (rc L : Nat) (ix : GIdx V)
    (h : ∀ ind dst, graphSearch sortF ix q [] [ix.start] rc L ind dst = .error .ub) :
    ∀ (up : List (GIdx V)) (ind : List Nat) (dst : List F32) (fl : List Label),
      hnswSearch sortF q rc L (up ++ [ix]) ind dst fl = .error .ub
  | [], ind, dst, fl => h ind dst
  | u :: up, ind, dst, fl => by
    have ih := hnswSearch_inner_ub sortF q rc L ix h up (List.replicate L 0) (List.replicate L F32.zero) []
    obtain ⟨a, l, hal⟩ : ∃ a l, up ++ [ix] = a :: l := by
      cases up with
      | nil => exact ⟨_, _, rfl⟩
      | cons a l => exact ⟨a, l ++ [ix], rfl⟩
    rw [List.cons_append]
    rw [hal] at ih ⊢
    rw [hnswSearch, ih]
    · rfl
    · simp

theorem forall₂_last {α β : Type} {R : α → β → Prop} : ∀ (l : List α) (l' : List β) (a : α) (b : β), l.length = l'.length →
    List.Forall₂ R (l ++ [a]) (l' ++ [b]) → R a b
  | [], [], _, _, _, .cons h _ => h
  | _ :: l, _ :: l', a, b, hl, .cons _ h => forall₂_last l l' a b (by simpa using hl) h

/-- Loading levels of which the innermost graph file has been replaced. -/
theorem hnsw_inner_load (fs : FS (Nat × Part)) (es : Nat) (up : List (IdxObj × List Bytes)) (x y : IdxObj × List Bytes)
    (hs : ∀ u ∈ up ++ [x], Saveable es u.1 u.2) (hmed : ∀ u ∈ up ++ [x], u.1.medoids = []) (hy : Saveable es y.1 y.2)
    (hr : y.2 = x.2) (hn : y.1.n = x.1.n)
    (hd : y.1.dim = x.1.dim) (ht : y.1.tags = x.1.tags) (hfl : y.1.filtered = x.1.filtered) (hl : y.1.labels = x.1.labels)
    (hu : y.1.univ = x.1.univ) (hmy : y.1.medoids = []) (sortL : List Label → List Label) (hsort : IsStrSort sortL)
    (j : Junk) (hj : j.WF) (o0s : List IdxObj)
    (hlen : o0s.length = (up ++ [x]).length) (h0 : ∀ o0 ∈ o0s, IsFresh o0) (fuel : Nat)
    (hf : ∀ u ∈ up ++ [x], u.1.n < fuel) :
    ∃ ops us' y', hnswSave es ((up ++ [x]).map Prod.fst) = .ok ops ∧
      runOps ops fs (0, .graph) = some (Spec.graphFile x.1.maxDeg x.1.start x.1.graph) ∧
      hnswLoad sortL j fuel es (fun q => if q = (0, .graph) then some (Spec.graphFile y.1.maxDeg y.1.start y.1.graph)
        else runOps ops fs q) o0s = .ok (us' ++ [(y', false)]) ∧ (∀ u ∈ us', u.2 = false) ∧ y' = { y.1 with seen := y'.seen } := by
  obtain ⟨ops, ho, hheld, -⟩ := hnswSave_holds (up ++ [x]) hs fs
  have hg0 : ∀ (up : List (IdxObj × List Bytes)), HeldLevels (runOps ops fs) (up ++ [x]) →
      runOps ops fs (0, .graph) = some (Spec.graphFile x.1.maxDeg x.1.start x.1.graph) := by
    intro up
    induction up with
    | nil => intro h; exact h.2.1
    | cons u up ih => intro h; exact ih h.2.2
  have hheld' := HeldLevels.inner hr hn hd ht hfl hl hu up hheld
  have hmem : ∀ u ∈ up ++ [y], u ∈ up ++ [x] ∨ u = y := by
    intro u h
    rcases List.mem_append.1 h with h | h
    · exact .inl (by simp [h])
    · exact .inr (by simpa using h)
  obtain ⟨os', h1, h2, h3⟩ := hnswLoad_same sortL hsort j hj fuel _ (up ++ [y]) o0s
    (fun u h => by rcases hmem u h with h | rfl; exacts [hs u h, hy])
    (fun u h => by rcases hmem u h with h | rfl; exacts [hmed u h, hmy]) (by rw [hlen]; simp) h0
    (fun u h => by rcases hmem u h with h | rfl; exacts [hf u h, by rw [hn]; exact hf x (by simp)]) hheld'
  have hlen' : os'.length = up.length + 1 := by
    have := List.Forall₂.length_eq h3
    simp at this
    omega
  obtain ⟨us', z, rfl⟩ : ∃ us' z, os' = us' ++ [z] := by
    rcases List.eq_nil_or_concat os' with h | ⟨us', z, h⟩
    · rw [h] at hlen'; simp at hlen'
    · exact ⟨us', z, by simpa using h⟩
  have hus : us'.length = up.length := by simpa using hlen'
  have hz : z.2 = false := by
    have := List.any_eq_false.1 h2 z (by simp)
    simpa using this
  refine ⟨ops, us', z.1, ho, hg0 up hheld, ?_, ?_, ?_⟩
  · rw [h1, ← hz]
  · intro u h
    have := List.any_eq_false.1 h2 u (by simp [h])
    simpa using this
  · rw [List.map_append, List.map_append] at h3
    exact forall₂_last (R := fun (o o' : IdxObj) => o' = { o with seen := o'.seen }) (up.map Prod.fst) (us'.map Prod.fst) y.1 z.1
      (by simpa using hus.symm) h3

/-- **C107 is false, HNSW, entry point.**  For every HNSW index, whatever the number of levels: one bit of the innermost graph file is
flipped; `load` accepts the file without a message, and every search reads outside of the vectors. -/
theorem C107_hnsw_start (fs : FS (Nat × Part)) (es : Nat) (up : List (IdxObj × List Bytes)) (o : IdxObj) (rows : List Bytes)
    (hs : ∀ u ∈ up ++ [(o, rows)], Saveable es u.1 u.2) (hmed : ∀ u ∈ up ++ [(o, rows)], u.1.medoids = [])
    (hn : o.n ≤ 2147483648) (hst : o.start < o.n) (sortL : List Label → List Label) (hsort : IsStrSort sortL)
    (j : Junk) (hj : j.WF) (o0s : List IdxObj) (hlen : o0s.length = up.length + 1) (h0 : ∀ o0 ∈ o0s, IsFresh o0)
    (fuel : Nat) (hf : ∀ u ∈ up ++ [(o, rows)], u.1.n < fuel) :
    ∃ ops f b os', hnswSave es ((up ++ [(o, rows)]).map Prod.fst) = .ok ops ∧ runOps ops fs (0, .graph) = some f ∧
      Spec.OneBit f b ∧
      hnswLoad sortL j fuel es (fun q => if q = (0, .graph) then some b else runOps ops fs q) o0s = .ok os' ∧
      (∀ u ∈ os', u.2 = false) ∧
      ∀ sortF cmp q rc L ind dst filters,
        hnswSearch sortF q rc L (os'.map (fun u => u.1.view es cmp)) ind dst filters = .error .ub := by
  have hso : Saveable es o rows := hs (o, rows) (by simp)
  obtain ⟨o1, ho1⟩ : ∃ o1 : IdxObj, o1 = { o with start := o.start + 2147483648 } := ⟨_, rfl⟩
  have hs1 : Saveable es o1 rows := by
    rw [ho1]
    exact { hso with start := by show o.start + 2147483648 < 4294967296; omega }
  obtain ⟨ops, us', y', ho, hg, hload, hrep, hy'⟩ := hnsw_inner_load fs es up (o, rows) (o1, rows) hs hmed hs1 rfl
    (by rw [ho1]) (by rw [ho1]) (by rw [ho1]) (by rw [ho1]) (by rw [ho1]) (by rw [ho1])
    (by rw [ho1]; exact hmed (o, rows) (by simp)) sortL hsort j hj o0s (by simpa using hlen) h0 fuel hf
  refine ⟨ops, _, _, _, ho, hg, ?_, hload, ?_, ?_⟩
  · dsimp only
    rw [ho1]
    exact oneBit_start o.maxDeg o.start o.graph (by omega)
  · intro u hu
    rcases List.mem_append.1 hu with hu | hu
    · exact hrep u hu
    · rw [List.mem_singleton.1 hu]
  · intro sortF cmp q rc L ind dst filters
    rw [List.map_append]
    refine hnswSearch_inner_ub sortF q rc L (y'.view es cmp) (fun ind dst => ?_) _ ind dst filters
    refine graphSearch_bad_start sortF _ _ ?_ q [] rc L ind dst
    rw [view_length, hy', ho1]
    show o.n ≤ o.start + 2147483648
    omega

/-- **C107 is false, HNSW, edges.**  The same with one bit of any neighbour of the innermost entry point flipped. -/
theorem C107_hnsw_edge (fs : FS (Nat × Part)) (es : Nat) (up : List (IdxObj × List Bytes)) (o : IdxObj) (rows : List Bytes)
    (hs : ∀ u ∈ up ++ [(o, rows)], Saveable es u.1 u.2) (hmed : ∀ u ∈ up ++ [(o, rows)], u.1.medoids = [])
    (hn : o.n ≤ 2147483648) (hst : o.start < o.n) (nb : List Nat) (hnb : o.graph[o.start]? = some nb) (x : Nat) (hx : x ∈ nb)
    (hxn : x < o.n) (sortL : List Label → List Label) (hsort : IsStrSort sortL)
    (j : Junk) (hj : j.WF) (o0s : List IdxObj) (hlen : o0s.length = up.length + 1) (h0 : ∀ o0 ∈ o0s, IsFresh o0)
    (fuel : Nat) (hf : ∀ u ∈ up ++ [(o, rows)], u.1.n < fuel) :
    ∃ ops f b os', hnswSave es ((up ++ [(o, rows)]).map Prod.fst) = .ok ops ∧ runOps ops fs (0, .graph) = some f ∧
      Spec.OneBit f b ∧
      hnswLoad sortL j fuel es (fun q => if q = (0, .graph) then some b else runOps ops fs q) o0s = .ok os' ∧
      (∀ u ∈ os', u.2 = false) ∧
      ∀ sortF, IsStdSort sortF → ∀ cmp q rc L ind dst filters, (∀ v, cmp v q = cmp q v) → 1 ≤ L → L ≤ 2 ^ 31 →
        hnswSearch sortF q rc L (os'.map (fun u => u.1.view es cmp)) ind dst filters = .error .ub := by
  have hso : Saveable es o rows := hs (o, rows) (by simp)
  obtain ⟨p, s, rfl⟩ := List.append_of_mem hx
  obtain ⟨g', hs1, hbit, hget⟩ := edge_object es o rows hso p s x (by omega) hnb
  obtain ⟨o1, ho1⟩ : ∃ o1 : IdxObj, o1 = { o with graph := g' } := ⟨_, rfl⟩
  rw [← ho1] at hs1
  obtain ⟨ops, us', y', ho, hg, hload, hrep, hy'⟩ := hnsw_inner_load fs es up (o, rows) (o1, rows) hs hmed hs1 rfl
    (by rw [ho1]) (by rw [ho1]) (by rw [ho1]) (by rw [ho1]) (by rw [ho1]) (by rw [ho1])
    (by rw [ho1]; exact hmed (o, rows) (by simp)) sortL hsort j hj o0s (by simpa using hlen) h0 fuel hf
  refine ⟨ops, _, _, _, ho, hg, ?_, hload, ?_, ?_⟩
  · dsimp only
    rw [ho1]
    exact hbit
  · intro u hu
    rcases List.mem_append.1 hu with hu | hu
    · exact hrep u hu
    · rw [List.mem_singleton.1 hu]
  · intro sortF hsF cmp q rc L ind dst filters hsym hL1 hL
    rw [List.map_append]
    refine hnswSearch_inner_ub sortF q rc L (y'.view es cmp) (fun ind dst => ?_) _ ind dst filters
    have hnum : y'.n = o.n := by rw [hy', ho1]
    have hstart : y'.start = o.start := by rw [hy', ho1]
    have hgr : y'.graph = g' := by rw [hy', ho1]
    show graphSearch sortF _ q [] [y'.start] rc L ind dst = _
    rw [hstart]
    refine graphSearch_bad_edge sortF hsF _ o.start (by rw [view_length, hnum]; exact hst) q (fun v _ => hsym v)
      (p ++ (x + 2147483648) :: s) ?_ ⟨x + 2147483648, by simp, by rw [view_length, hnum]; omega⟩ rc L hL1 hL ind dst
    show y'.graph[o.start]? = _
    rw [hgr]
    exact hget

example := C107_vamana_edge id (fun _ _ h => h) (fun _ => none) 1 exObj _ exObj_saveable exObj_medoidFile (by decide) (by decide)
  [1] rfl 1 (by decide) (by decide) exStrSort exStrSort_isStrSort exJunk exJunk_WF IdxObj.fresh fresh_isFresh 3 (by decide)

example := C107_hnsw_start (fun _ => none) 1 [(exObjPlain, [[1, 2, 3], [4, 5, 6]])] exObjPlain [[1, 2, 3], [4, 5, 6]]
  (by intro x hx; simp only [List.cons_append, List.nil_append, List.mem_cons, List.not_mem_nil, or_false, or_self] at hx; subst hx; exact exObjPlain_saveable)
  (by decide) (by decide) (by decide) exStrSort exStrSort_isStrSort exJunk exJunk_WF [IdxObj.fresh, IdxObj.fresh] rfl
  (by intro x hx; simp only [List.mem_cons, List.not_mem_nil, or_false, or_self] at hx; subst hx; exact fresh_isFresh) 3 (by decide)

example := C107_hnsw_edge (fun _ => none) 1 [(exObjPlain, [[1, 2, 3], [4, 5, 6]])] exObjPlain [[1, 2, 3], [4, 5, 6]]
  (by intro x hx; simp only [List.cons_append, List.nil_append, List.mem_cons, List.not_mem_nil, or_false, or_self] at hx; subst hx; exact exObjPlain_saveable)
  (by decide) (by decide) (by decide) [1] rfl 1 (by decide) (by decide) exStrSort exStrSort_isStrSort exJunk exJunk_WF
  [IdxObj.fresh, IdxObj.fresh] rfl
  (by intro x hx; simp only [List.mem_cons, List.not_mem_nil, or_false, or_self] at hx; subst hx; exact fresh_isFresh) 3 (by decide)

end Grann
