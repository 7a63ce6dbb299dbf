import Verif.Props.Again
import Verif.Props.Generations
import Verif.Spec.Damage
/-!
# C107: damaged graph files
-/

namespace Grann

theorem Spec.OneBit.append {f f' : Bytes} (h : Spec.OneBit f f') (p s : Bytes) : Spec.OneBit (p ++ (f ++ s)) (p ++ (f' ++ s)) := by
  obtain ⟨a, c, x, k, hk, rfl, rfl⟩ := h
  exact ⟨p ++ a, c ++ s, x, k, hk, by simp, by simp⟩

/-- The highest bit of a number of four bytes. -/
theorem oneBit_le4 (x : Nat) (hx : x < 2147483648) : Spec.OneBit (le 4 x) (le 4 (x + 2147483648)) := by
  have key : ∀ b : Nat, b < 128 → UInt8.ofNat (b + 128) = UInt8.ofNat b ^^^ UInt8.ofNat (2 ^ 7) := by decide
  refine ⟨[UInt8.ofNat (x % 256), UInt8.ofNat (x / 256 % 256), UInt8.ofNat (x / 256 / 256 % 256)], [],
    UInt8.ofNat (x / 256 / 256 / 256 % 256), 7, by decide, rfl, ?_⟩
  have e0 : (x + 2147483648) % 256 = x % 256 := by omega
  have e1 : (x + 2147483648) / 256 % 256 = x / 256 % 256 := by omega
  have e2 : (x + 2147483648) / 256 / 256 % 256 = x / 256 / 256 % 256 := by omega
  have e3 : (x + 2147483648) / 256 / 256 / 256 % 256 = x / 256 / 256 / 256 % 256 + 128 := by omega
  rw [← key _ (by omega), ← e3, ← e2, ← e1, ← e0]
  rfl

theorem oneBit_le32s (p s : List Nat) (x : Nat) (hx : x < 2147483648) :
    Spec.OneBit (le32s (p ++ x :: s)) (le32s (p ++ (x + 2147483648) :: s)) := by
  have h : ∀ y, le32s (p ++ y :: s) = le32s p ++ (le 4 y ++ le32s s) := by
    intro y; simp [le32s]
  rw [h, h]
  exact (oneBit_le4 x hx).append _ _

theorem oneBit_graph (maxDeg start : Nat) (g1 g2 : List (List Nat)) (p s : List Nat) (x : Nat) (hx : x < 2147483648) :
    Spec.OneBit (Spec.graphFile maxDeg start (g1 ++ (p ++ x :: s) :: g2))
      (Spec.graphFile maxDeg start (g1 ++ (p ++ (x + 2147483648) :: s) :: g2)) := by
  have he : ∀ y, encNodes (g1 ++ (p ++ y :: s) :: g2) =
      encNodes g1 ++ (le 4 (p.length + (s.length + 1)) ++ (le32s (p ++ y :: s) ++ encNodes g2)) := by
    intro y; simp [encNodes]
  have hf : ∀ y, Spec.graphFile maxDeg start (g1 ++ (p ++ y :: s) :: g2) =
      (le 8 (16 + ((encNodes g1).length + (4 + (4 * (p.length + (s.length + 1)) + (encNodes g2).length)))) ++ (le 4 maxDeg ++ (le 4 start ++
        (encNodes g1 ++ le 4 (p.length + (s.length + 1)))))) ++ (le32s (p ++ y :: s) ++ encNodes g2) := by
    intro y
    rw [graphFile_eq, he]
    simp only [List.length_append, le_length, le32s_length, List.length_cons, List.append_assoc]
  rw [hf, hf]
  exact (oneBit_le32s p s x hx).append _ _

theorem oneBit_start (maxDeg start : Nat) (g : List (List Nat)) (hx : start < 2147483648) :
    Spec.OneBit (Spec.graphFile maxDeg start g) (Spec.graphFile maxDeg (start + 2147483648) g) := by
  have hf : ∀ y, Spec.graphFile maxDeg y g =
      (le 8 (16 + (encNodes g).length) ++ le 4 maxDeg) ++ (le 4 y ++ encNodes g) := by
    intro y
    rw [graphFile_eq]
    simp only [List.append_assoc]
  rw [hf, hf]
  exact (oneBit_le4 start hx).append _ _

section
variable {P : Type} [DecidableEq P]

theorem HoldsBase.other {nm : Part → P} (hnm : Function.Injective nm) {fs : FS P} {o o' : IdxObj} {rows : List Bytes}
    (h : HoldsBase nm fs o rows) (b : Option Bytes) (hn : o'.n = o.n) (hd : o'.dim = o.dim) (ht : o'.tags = o.tags)
    (hf : o'.filtered = o.filtered) (hl : o'.labels = o.labels) (hu : o'.univ = o.univ) :
    HoldsBase nm (fun q => if q = nm .graph then b else fs q) o' rows := by
  have ne : ∀ {a b : Part}, a ≠ b → nm a ≠ nm b := fun h e => h (hnm e)
  constructor <;> rw [if_neg (ne (by decide))]
  · rw [h.data, hn, hd]
  · rw [h.tags, hn, ht]
  · rw [h.labels, hf, hl]
  · rw [h.univ, hf, hu]

theorem graphSearch_bad_start {V : Type} (sortF : List Nbr → List Nbr) (ix : GIdx V) (start : Nat)
    (hstart : ix.ctx.data.length ≤ start) (q : V) (fl : List Label) (rc L : Nat) (ind : List Nat) (dst : List F32) :
    graphSearch sortF ix q fl [start] rc L ind dst = .error .ub := by
  unfold graphSearch greedySearch greedySearchF greedyStart
  have : ∀ s, initLoop ix.ctx q L [start] s = .error .ub := by
    intro s
    unfold initLoop
    rw [rd_ub hstart]
    rfl
  rw [this]
  rfl

theorem view_length (es : Nat) (cmp : Bytes → Bytes → F32) (o : IdxObj) : (o.view es cmp).ctx.data.length = o.n := by
  simp [IdxObj.view, IdxObj.rows]

/-- One bit of the entry point flipped. -/
theorem start_bit (nm : Part → P) (hnm : Function.Injective nm) (fs : FS P) (es : Nat) (o : IdxObj)
    (rows : List Bytes) (hs : Saveable es o rows) (hn : o.n ≤ 2147483648) (hst : o.start < o.n)
    (hb : HoldsBase nm fs o rows)
    (sortL : List Label → List Label) (hsort : IsStrSort sortL) (j : Junk) (hj : j.WF) (o0 : IdxObj) (h0 : IsFresh o0)
    (fuel : Nat) (hf : o.n < fuel) :
    ∃ b, Spec.OneBit (Spec.graphFile o.maxDeg o.start o.graph) b ∧
      ∃ o', rngLoad sortL j fuel es nm (fun q => if q = nm .graph then some b else fs q) o0 = .ok (o', false) ∧
        ∀ sortF cmp q rc L ind dst filters, rngSearch sortF (o'.view es cmp) q rc L ind dst filters = .error .ub := by
  obtain ⟨o1, ho1⟩ : ∃ o1 : IdxObj, o1 = { o with start := o.start + 2147483648 } := ⟨_, rfl⟩
  have hs1 : Saveable es o1 rows := by
    rw [ho1]
    exact { hs with start := by show o.start + 2147483648 < 4294967296; omega }
  have hb1 := HoldsBase.other hnm hb (some (Spec.graphFile o.maxDeg (o.start + 2147483648) o.graph)) (o' := o1)
    (by rw [ho1]) (by rw [ho1]) (by rw [ho1]) (by rw [ho1]) (by rw [ho1]) (by rw [ho1])
  refine ⟨_, oneBit_start o.maxDeg o.start o.graph (by omega), ?_⟩
  obtain ⟨seen, hl⟩ := rngLoad_holds sortL hsort j hj nm hs1 _ hb1 (by rw [if_pos rfl, ho1]) o0 h0 fuel
    (by rw [ho1]; exact hf)
  refine ⟨_, hl, fun sortF cmp q rc L ind dst filters => ?_⟩
  unfold rngSearch
  refine graphSearch_bad_start sortF _ _ ?_ q [] rc L ind dst
  rw [view_length, ho1]
  show o.n ≤ o.start + 2147483648
  omega

/-- The same for Vamana. -/
theorem start_bit_vamana (nm : Part → P) (hnm : Function.Injective nm) (fs : FS P) (es : Nat) (o : IdxObj)
    (rows : List Bytes) (hs : Saveable es o rows) (hn : o.n ≤ 2147483648) (hst : o.start < o.n)
    (hb : HoldsBase nm fs o rows) (tab : List (Label × Nat)) (hmed : loadMedoids (fs (nm .medoids)) [] = .ok tab)
    (sortL : List Label → List Label) (hsort : IsStrSort sortL) (j : Junk) (hj : j.WF) (o0 : IdxObj) (h0 : IsFresh o0)
    (fuel : Nat) (hf : o.n < fuel) :
    ∃ b, Spec.OneBit (Spec.graphFile o.maxDeg o.start o.graph) b ∧
      ∃ o', vamanaLoad sortL j fuel es nm (fun q => if q = nm .graph then some b else fs q) o0 = .ok (o', false) ∧
        ∀ sortF cmp q rc L ind dst, vamanaSearch sortF (o'.view es cmp) q rc L ind dst [] = .error .ub := by
  have ne : ∀ {a b : Part}, a ≠ b → nm a ≠ nm b := fun h e => h (hnm e)
  obtain ⟨o1, ho1⟩ : ∃ o1 : IdxObj, o1 = { o with start := o.start + 2147483648 } := ⟨_, rfl⟩
  have hs1 : Saveable es o1 rows := by
    rw [ho1]
    exact { hs with start := by show o.start + 2147483648 < 4294967296; omega }
  have hb1 := HoldsBase.other hnm hb (some (Spec.graphFile o.maxDeg (o.start + 2147483648) o.graph)) (o' := o1)
    (by rw [ho1]) (by rw [ho1]) (by rw [ho1]) (by rw [ho1]) (by rw [ho1]) (by rw [ho1])
  refine ⟨_, oneBit_start o.maxDeg o.start o.graph (by omega), ?_⟩
  obtain ⟨seen, hl⟩ := loadBase_holds sortL hsort j hj nm hs1.toBaseSaveable _ hb1 o0 h0
  refine ⟨{ o1 with seen := seen, medoids := tab }, ?_, fun sortF cmp q rc L ind dst => ?_⟩
  · unfold vamanaLoad
    rw [hl, Res.ok_bind]
    dsimp only
    rw [if_neg (ne (by decide)), hmed, Res.ok_bind]
    exact loadGraphInto_full j hj nm hs1 _ (by rw [if_pos rfl, ho1])
      { o1 with seen := seen, maxDeg := o0.maxDeg, start := o0.start, graph := [], medoids := tab } rfl rfl fuel
      (by rw [ho1]; exact hf)
  · unfold vamanaSearch
    refine graphSearch_bad_start sortF _ _ ?_ q [] rc L ind dst
    rw [view_length, ho1]
    show o.n ≤ o.start + 2147483648
    omega

/-- One bit of a neighbour of the entry point flipped. -/
theorem edge_bit (nm : Part → P) (hnm : Function.Injective nm) (fs : FS P) (es : Nat) (o : IdxObj)
    (rows : List Bytes) (hs : Saveable es o rows) (hn : o.n ≤ 2147483648) (hst : o.start < o.n)
    (p s : List Nat) (x : Nat) (hx : x < 2147483648) (hnb : o.graph[o.start]? = some (p ++ x :: s))
    (hb : HoldsBase nm fs o rows) (sortL : List Label → List Label) (hsort : IsStrSort sortL) (j : Junk) (hj : j.WF)
    (o0 : IdxObj) (h0 : IsFresh o0) (fuel : Nat) (hf : o.n < fuel) :
    ∃ b, Spec.OneBit (Spec.graphFile o.maxDeg o.start o.graph) b ∧
      ∃ o', rngLoad sortL j fuel es nm (fun q => if q = nm .graph then some b else fs q) o0 = .ok (o', false) ∧
        ∀ sortF, IsStdSort sortF → ∀ cmp q rc L ind dst filters, (∀ v, cmp v q = cmp q v) → 1 ≤ L → L ≤ 2 ^ 31 →
          rngSearch sortF (o'.view es cmp) q rc L ind dst filters = .error .ub := by
  obtain ⟨hlt, hget⟩ := List.getElem?_eq_some_iff.1 hnb
  have hsplit : o.graph = o.graph.take o.start ++ (p ++ x :: s) :: o.graph.drop (o.start + 1) := by
    rw [← hget, List.getElem_cons_drop, List.take_append_drop]
  obtain ⟨g', hg'⟩ : ∃ g', g' = o.graph.take o.start ++ (p ++ (x + 2147483648) :: s) :: o.graph.drop (o.start + 1) := ⟨_, rfl⟩
  have hlg : g'.length = o.graph.length := by
    rw [hg', List.length_append, List.length_cons, List.length_take, List.length_drop]
    omega
  have hg's : g'[o.start]? = some (p ++ (x + 2147483648) :: s) := by
    rw [hg', List.getElem?_append_right (by simp)]
    simp [Nat.min_eq_left (Nat.le_of_lt hlt)]
  obtain ⟨o1, ho1⟩ : ∃ o1 : IdxObj, o1 = { o with graph := g' } := ⟨_, rfl⟩
  have hfits : Spec.GraphFits g' := by
    intro nb hmem
    rw [hg'] at hmem
    rcases List.mem_append.1 hmem with h | h
    · exact hs.graph_fits nb (List.mem_of_mem_take h)
    · rcases List.mem_cons.1 h with rfl | h
      · have h1 := hs.graph_fits _ (List.mem_of_getElem? hnb)
        refine ⟨by simpa using h1.1, fun y hy => ?_⟩
        rcases List.mem_append.1 hy with hy | hy
        · exact h1.2 y (by simp [hy])
        · rcases List.mem_cons.1 hy with rfl | hy
          · omega
          · exact h1.2 y (by simp [hy])
      · exact hs.graph_fits nb (List.mem_of_mem_drop h)
  have hs1 : Saveable es o1 rows := by
    rw [ho1]
    exact { hs with graph_len := by show g'.length = o.n; rw [hlg, hs.graph_len]
                    graph_fits := hfits }
  have hb1 := HoldsBase.other hnm hb (some (Spec.graphFile o.maxDeg o.start g')) (o' := o1)
    (by rw [ho1]) (by rw [ho1]) (by rw [ho1]) (by rw [ho1]) (by rw [ho1]) (by rw [ho1])
  refine ⟨Spec.graphFile o.maxDeg o.start g', ?_, ?_⟩
  · have := oneBit_graph o.maxDeg o.start (o.graph.take o.start) (o.graph.drop (o.start + 1)) p s x hx
    rw [← hsplit, ← hg'] at this
    exact this
  · obtain ⟨seen, hl⟩ := rngLoad_holds sortL hsort j hj nm hs1 _ hb1 (by rw [if_pos rfl, ho1]) o0 h0 fuel
      (by rw [ho1]; exact hf)
    refine ⟨_, hl, fun sortF hsF cmp q rc L ind dst filters hsym hL1 hL => ?_⟩
    have hstart : ({ o1 with seen := seen, medoids := [] } : IdxObj).start = o.start := by rw [ho1]
    have hnum : ({ o1 with seen := seen, medoids := [] } : IdxObj).n = o.n := by rw [ho1]
    unfold rngSearch
    show graphSearch sortF _ q [] [({ o1 with seen := seen, medoids := [] } : IdxObj).start] rc L ind dst = _
    rw [hstart]
    refine graphSearch_bad_edge sortF hsF _ o.start (by rw [view_length, hnum]; exact hst) q (fun v _ => hsym v)
      (p ++ (x + 2147483648) :: s) ?_ ⟨x + 2147483648, by simp, by rw [view_length, hnum]; omega⟩ rc L hL1 hL ind dst
    show o1.graph[o.start]? = _
    rw [ho1]
    exact hg's

/-- **C107 is false, entry point.**  Every RelativeNG index of up to 2^31 points is saved; one bit of its graph file is
flipped; `load` accepts the file without a message, and every search reads outside of the vectors. -/
theorem C107_rng_start (nm : Part → P) (hnm : Function.Injective nm) (fs : FS P) (es : Nat) (o : IdxObj)
    (rows : List Bytes) (hs : Saveable es o rows) (hn : o.n ≤ 2147483648) (hst : o.start < o.n)
    (sortL : List Label → List Label) (hsort : IsStrSort sortL) (j : Junk) (hj : j.WF) (o0 : IdxObj) (h0 : IsFresh o0)
    (fuel : Nat) (hf : o.n < fuel) :
    ∃ ops f b o', rngSave es nm o = .ok ops ∧ runOps ops fs (nm .graph) = some f ∧ Spec.OneBit f b ∧
      rngLoad sortL j fuel es nm (fun q => if q = nm .graph then some b else runOps ops fs q) o0 = .ok (o', false) ∧
      ∀ sortF cmp q rc L ind dst filters, rngSearch sortF (o'.view es cmp) q rc L ind dst filters = .error .ub := by
  obtain ⟨ops, ho, hb, hg, -⟩ := rngSave_holds nm hnm hs fs
  obtain ⟨b, h1, o', h2, h3⟩ := start_bit nm hnm (runOps ops fs) es o rows hs hn hst hb sortL hsort j hj o0 h0 fuel hf
  exact ⟨ops, _, b, o', ho, hg, h1, h2, h3⟩

/-- **C107 is false, entry point of Vamana**: every search without a filter reads outside of the vectors. -/
theorem C107_vamana_start (nm : Part → P) (hnm : Function.Injective nm) (fs : FS P) (es : Nat) (o : IdxObj)
    (rows : List Bytes) (hs : Saveable es o rows) (hmed : MedoidFileOK nm fs o) (hn : o.n ≤ 2147483648)
    (hst : o.start < o.n) (sortL : List Label → List Label) (hsort : IsStrSort sortL) (j : Junk) (hj : j.WF)
    (o0 : IdxObj) (h0 : IsFresh o0) (fuel : Nat) (hf : o.n < fuel) :
    ∃ ops f b o', vamanaSave es nm o = .ok ops ∧ runOps ops fs (nm .graph) = some f ∧ Spec.OneBit f b ∧
      vamanaLoad sortL j fuel es nm (fun q => if q = nm .graph then some b else runOps ops fs q) o0 = .ok (o', false) ∧
      ∀ sortF cmp q rc L ind dst, vamanaSearch sortF (o'.view es cmp) q rc L ind dst [] = .error .ub := by
  obtain ⟨ops, ho, hb, hg, hm, -⟩ := vamanaSave_holds nm hnm hs fs
  have hmt : loadMedoids (runOps ops fs (nm .medoids)) [] = .ok o.medoids := by
    rw [hm]
    rcases hmed.2 with ⟨h1, h2⟩ | ⟨h1, h2⟩
    · have : (o.filtered && o.medoids.length != 0) = true := by
        simp [h1, h2]
      rw [if_pos this]
      exact loadMedoids_saved _ _ hmed.1
    · have : ¬ (o.filtered && o.medoids.length != 0) = true := by simp [h1]
      rw [if_neg this, h2, h1]; rfl
  obtain ⟨b, h1, o', h2, h3⟩ := start_bit_vamana nm hnm (runOps ops fs) es o rows hs hn hst hb _ hmt sortL hsort j hj o0 h0
    fuel hf
  exact ⟨ops, _, b, o', ho, hg, h1, h2, h3⟩

/-- **C107 is false, edges.**  The same with one bit of any neighbour of the entry point flipped (for symmetric distances
and lists of one to 2^31 entries). -/
theorem C107_edge (nm : Part → P) (hnm : Function.Injective nm) (fs : FS P) (es : Nat) (o : IdxObj)
    (rows : List Bytes) (hs : Saveable es o rows) (hn : o.n ≤ 2147483648) (hst : o.start < o.n) (nb : List Nat)
    (hnb : o.graph[o.start]? = some nb) (x : Nat) (hx : x ∈ nb) (hxn : x < o.n) (sortL : List Label → List Label)
    (hsort : IsStrSort sortL) (j : Junk) (hj : j.WF) (o0 : IdxObj) (h0 : IsFresh o0) (fuel : Nat) (hf : o.n < fuel) :
    ∃ ops f b o', rngSave es nm o = .ok ops ∧ runOps ops fs (nm .graph) = some f ∧ Spec.OneBit f b ∧
      rngLoad sortL j fuel es nm (fun q => if q = nm .graph then some b else runOps ops fs q) o0 = .ok (o', false) ∧
      ∀ sortF, IsStdSort sortF → ∀ cmp q rc L ind dst filters, (∀ v, cmp v q = cmp q v) → 1 ≤ L → L ≤ 2 ^ 31 →
        rngSearch sortF (o'.view es cmp) q rc L ind dst filters = .error .ub := by
  obtain ⟨p, s, rfl⟩ := List.append_of_mem hx
  obtain ⟨ops, ho, hb, hg, -⟩ := rngSave_holds nm hnm hs fs
  obtain ⟨b, h1, o', h2, h3⟩ := edge_bit nm hnm (runOps ops fs) es o rows hs hn hst p s x (by omega) hnb hb sortL hsort j
    hj o0 h0 fuel hf
  exact ⟨ops, _, b, o', ho, hg, h1, h2, h3⟩

/-- What IVF saves. -/
theorem ivfSave_run (nm : Part → P) (hnm : Function.Injective nm) (pc : P) {es : Nat} {o : IvfObj}
    {rows crows : List Bytes} (hs : IvfSaveable es o rows crows) (fs : FS P) :
    ∃ b ops, saveBase es nm o.base = .ok b ∧ ivfSave es nm pc o = .ok ops ∧
      runOps ops fs = fun q => if q = nm .graph then some (encNodes o.inv) else
        if q = pc then some (le 4 o.nc ++ (le 4 o.base.adim ++ o.centers)) else runOps b fs q := by
  obtain ⟨b, hb, hbh, hbq⟩ := saveBase_holds nm hnm hs.base fs
  have hcl : o.centers.length = o.nc * o.base.adim * 4 := by
    rw [hs.centers, flatten_length_of hs.matrix, hs.crows_n, Nat.mul_assoc]
  have hslice : slice o.centers 0 (o.nc * o.base.adim * 4) = .ok o.centers := by
    unfold slice
    rw [if_pos (by omega), List.drop_zero, List.take_of_length_le (by omega)]
  have hrows : (List.range o.nc).mapM (rd o.inv) = .ok o.inv := by
    rw [← hs.inv_len, range_mapM_rd]
  refine ⟨b, b ++ saveBin pc o.nc o.base.adim o.centers ++ ([.create (nm .graph)] ++
      o.inv.flatMap (nodeOps (nm .graph))), hb, ?_, ?_⟩
  · unfold ivfSave
    rw [hb, Res.ok_bind, hslice, Res.ok_bind, hrows, Res.ok_bind]
  · rw [runOps_append, runOps_append, runOps_append,
      run_nodeOps (nm .graph) o.inv hs.inv_fits _ [] (by simp [runOps, FOp.run]), saveBin_run]
    funext q
    by_cases hq : q = nm .graph
    · simp [hq]
    · simp [hq, runOps, FOp.run]

end

/-- A scan that meets a point that does not exist. -/
theorem scanSearch_bad {V : Type} (c : Ctx V) (q : V) (rc : Nat) (ind : List Nat) (dst : Option (List F32))
    (cands : List Nat) (d : Nat → F32) (hd : ∀ i v, c.data[i]? = some v → d i = c.cmp q v) (hrc1 : 1 ≤ rc)
    (hrc : rc ≤ 2147483648) (hfin : ∀ i, i < c.data.length → (d i).lt F32.fmax = true)
    (hbad : ∃ i ∈ cands, c.data.length ≤ i) : scanSearch c q rc ind dst [] cands = .error .ub := by
  have hsplit : ∃ pre x post, cands = pre ++ x :: post ∧ (∀ i ∈ pre, i < c.data.length) ∧ c.data.length ≤ x := by
    obtain ⟨i, hi, hb⟩ := hbad
    induction cands with
    | nil => simp at hi
    | cons a as ih =>
      by_cases ha : a < c.data.length
      · rcases List.mem_cons.1 hi with rfl | hi
        · omega
        · obtain ⟨pre, x, post, h1, h2, h3⟩ := ih hi
          refine ⟨a :: pre, x, post, by rw [h1]; rfl, fun y hy => ?_, h3⟩
          rcases List.mem_cons.1 hy with rfl | hy
          · exact ha
          · exact h2 y hy
      · exact ⟨[], a, as, rfl, by simp, by omega⟩
  obtain ⟨pre, x, post, rfl, hpre, hx⟩ := hsplit
  obtain ⟨s, e, hs, hi, -⟩ := procBatches_spec c q [] rc d (fun i v h => (hd i v h).symm) hrc1 (.of_le hrc) (fun _ => true) [pre]
    (freshPool rc) (freshPool_sinv d rc) (by simp [freshPool]) (by simpa using hpre) (fun _ _ => rfl) (by
      intro _
      refine ⟨rfl, Nbr.dflt, by simp [freshPool, List.replicate_succ], fun id hid => ?_⟩
      exact hfin id (hpre id (by simpa using List.mem_of_find?_eq_some hid)))
  have e' : pre.foldlM (procOne c q [] rc) (freshPool rc) = .ok s := by
    rw [List.foldlM_cons] at e
    obtain ⟨s1, e1, e2⟩ := Res.bind_eq_ok.1 e
    have : s1 = s := by simpa using e2
    rw [← this]; exact e1
  have hni : ¬ s.ins.contains x = true := by
    intro h
    have hm : x ∈ s.ins := by simpa using h
    rw [hi, mem_addAccepted] at hm
    rcases hm with hm | hm
    · simp [freshPool] at hm
    · have := hpre x (by simpa using hm.1)
      omega
  have hone : procOne c q [] rc s x = .error .ub := by
    unfold procOne
    rw [show filterAccepts c [] x = .ok true from rfl, Res.ok_bind, if_neg (by simp), if_neg hni]
    dsimp only
    rw [rd_ub hx]
    rfl
  unfold scanSearch procCands
  rw [scanPool_eq (show rc < 2 ^ 32 - 1 by omega), List.foldlM_append, e', Res.ok_bind, List.foldlM_cons, hone]
  rfl

/-- A search of all clusters with an inverted list that names a point that does not exist. -/
theorem ivfSearch_bad {V : Type} (pops : List F32 → List Nat) (hpops : IsPopOrder pops) (ix : Ivf V)
    (hlists : ix.inv.length = ix.nc) (q : V) (d : Nat → F32) (hdist : ix.Dist q d) (l : List Nat) (hl : l ∈ ix.inv)
    (x : Nat) (hxl : x ∈ l) (hx : ix.ctx.data.length ≤ x) (rc : Nat) (hrc1 : 1 ≤ rc) (hrc : rc ≤ 2147483648)
    (ind : List Nat) (dst : Option (List F32)) : ivfSearch pops ix q rc ix.nc ind dst [] = .error .ub := by
  obtain ⟨hpl, hplt, hpnd, _⟩ := pick_spec hpops hdist.row (Nat.le_refl ix.nc) hdist.rowNum (by
    intro h; exact hdist.rowFin (by omega))
  have hperm : (pick ix.nc pops (ix.centreDist q)).Perm (List.range ix.nc) := by
    refine (hpnd.subperm (fun c hc => List.mem_range.2 (hplt c hc))).perm_of_length_le ?_
    rw [List.length_range, hpl]
  unfold ivfSearch
  rw [(ivfCands_spec pops hpops ix q ix.nc hlists hdist.row hdist.rowNum (by
    intro h; exact hdist.rowFin (by omega))).1 (Nat.le_refl _), Res.ok_bind]
  refine scanSearch_bad ix.ctx q rc ind dst _ d hdist.eq hrc1 hrc hdist.fin ⟨x, ?_, hx⟩
  simp only [List.mem_flatten, List.mem_map]
  obtain ⟨c, hc, rfl⟩ := List.getElem_of_mem hl
  exact ⟨ix.inv[c], ⟨c, hperm.mem_iff.2 (by simpa [← hlists] using hc), by
    simp [List.getD, List.getElem?_eq_getElem hc]⟩, hxl⟩

/-- **C107 is false, inverted lists.**  One bit of any member of an inverted list flipped: `IVFIndex::load` accepts the
file, and every search of all clusters without a filter reads outside of the vectors. -/
theorem C107_ivf {P : Type} [DecidableEq P] (nm : Part → P) (hnm : Function.Injective nm) (pc : P)
    (hpc : ∀ p, pc ≠ nm p) (fs : FS P) (es : Nat) (o : IvfObj) (rows crows : List Bytes)
    (hs : IvfSaveable es o rows crows) (hn : o.base.n ≤ 2147483648) (l : List Nat) (hl : l ∈ o.inv) (x : Nat) (hx : x ∈ l)
    (hxn : x < o.base.n) (sortL : List Label → List Label) (hsort : IsStrSort sortL) (j : Junk) (hj : j.WF)
    (o0 : IvfObj) (h0 : IsFresh o0.base) :
    ∃ ops f b o', ivfSave es nm pc o = .ok ops ∧ runOps ops fs (nm .graph) = some f ∧ Spec.OneBit f b ∧
      ivfLoad sortL j es nm pc (fun q => if q = nm .graph then some b else runOps ops fs q) o0 = .ok o' ∧
      ∀ pops, IsPopOrder pops → ∀ cmp cdist q d, (o'.view es cmp cdist).Dist q d → ∀ rc, 1 ≤ rc → rc ≤ 2147483648 →
        ∀ ind dst, ivfSearch pops (o'.view es cmp cdist) q rc o.nc ind dst [] = .error .ub := by
  obtain ⟨p, s, rfl⟩ := List.append_of_mem hx
  obtain ⟨g1, g2, hg⟩ := List.append_of_mem hl
  obtain ⟨g', hg'⟩ : ∃ g', g' = g1 ++ (p ++ (x + 2147483648) :: s) :: g2 := ⟨_, rfl⟩
  have hfits : Spec.GraphFits g' := by
    have hof := hs.inv_fits
    rw [hg] at hof
    intro nb hmem
    rw [hg'] at hmem
    rcases List.mem_append.1 hmem with h | h
    · exact hof nb (by simp [h])
    · rcases List.mem_cons.1 h with rfl | h
      · have h1 := hof (p ++ x :: s) (by simp)
        refine ⟨by simpa using h1.1, fun y hy => ?_⟩
        rcases List.mem_append.1 hy with hy | hy
        · exact h1.2 y (by simp [hy])
        · rcases List.mem_cons.1 hy with rfl | hy
          · omega
          · exact h1.2 y (by simp [hy])
      · exact hof nb (by simp [h])
  have hs1 : IvfSaveable es { o with inv := g' } rows crows :=
    { hs with inv_len := by
                show g'.length = o.nc
                rw [← hs.inv_len, hg, hg']
                simp
              inv_fits := hfits }
  obtain ⟨b, ops, hb, ho, hrun⟩ := ivfSave_run nm hnm pc hs fs
  obtain ⟨b1, ops1, hb1, ho1, hrun1⟩ := ivfSave_run nm hnm pc hs1 fs
  obtain ⟨ops2, o', ho2, hload, hsame⟩ := ivf_reload_object nm hnm pc hpc fs es _ rows crows hs1 sortL hsort j hj o0 h0
  rw [ho1] at ho2
  cases ho2
  have hbb : b1 = b := by
    have : saveBase es nm o.base = .ok b1 := hb1
    rw [hb] at this
    cases this
    rfl
  refine ⟨ops, encNodes o.inv, encNodes g', o', ho, by rw [hrun]; simp, ?_, ?_, ?_⟩
  · rw [hg, hg']
    have he : ∀ y, encNodes (g1 ++ (p ++ y :: s) :: g2) =
        (encNodes g1 ++ le 4 (p.length + (s.length + 1))) ++ (le32s (p ++ y :: s) ++ encNodes g2) := by
      intro y; simp [encNodes]
    rw [he, he]
    exact (oneBit_le32s p s x (by omega)).append _ _
  · have : runOps ops1 fs = fun q => if q = nm .graph then some (encNodes g') else runOps ops fs q := by
      rw [hrun1, hrun, hbb]
      funext q
      dsimp only
      split <;> rfl
    rw [← this]
    exact hload
  · intro pops hpops cmp cdist q d hdist rc hrc1 hrc ind dst
    have hv : (o'.view es cmp cdist).ctx.data.length = o.base.n := by
      rw [show o' = _ from hsame]
      exact view_length es cmp _
    have hi : (o'.view es cmp cdist).inv = g' := by rw [show o' = _ from hsame]; rfl
    have hc : (o'.view es cmp cdist).nc = o.nc := by rw [show o' = _ from hsame]; rfl
    rw [← hc]
    refine ivfSearch_bad pops hpops _ ?_ q d hdist (p ++ (x + 2147483648) :: s) ?_ (x + 2147483648) (by simp) ?_ rc hrc1
      hrc ind dst
    · rw [hi, hc]; exact hs1.inv_len
    · rw [hi, hg']; simp
    · rw [hv]; omega

/-- **C107, partial.**  Whatever bytes the graph file holds, `load` returns; and if the lists it finds are as many as there
are points, and the entry point and all neighbours are points, every search is free of accesses out of bounds for every
`res_count` up to the length of the list plus one.  Missing: that `load` checks these conditions, which is false. -/
theorem C107_valid_partial {P : Type} [DecidableEq P] (nm : Part → P) (hnm : Function.Injective nm) (fs : FS P)
    (es : Nat) (o : IdxObj) (rows : List Bytes) (hs : Saveable es o rows) (hb : HoldsBase nm fs o rows) (b : Bytes)
    (sortL : List Label → List Label) (hsort : IsStrSort sortL) (j : Junk) (hj : j.WF) (o0 : IdxObj) (h0 : IsFresh o0)
    (fuel : Nat) (hf : b.length + 2 ≤ fuel) :
    ∃ o' reported, rngLoad sortL j fuel es nm (fun q => if q = nm .graph then some b else fs q) o0 = .ok (o', reported) ∧
      (1 ≤ o.n → Spec.IsGraph o.n o'.graph → o'.start < o.n → ∀ sortF, IsStdSort sortF → ∀ cmp q d,
        (o'.view es cmp).Dist q d → ∀ rc L, 1 ≤ L → L ≤ 2 ^ 31 → rc ≤ L + 1 → ∀ (ind : List Nat) (dst : List F32),
        rc ≤ ind.length → rc ≤ dst.length → ∀ filters,
        ∃ r, rngSearch sortF (o'.view es cmp) q rc L ind dst filters = .ok r) := by
  have hb1 := HoldsBase.other hnm hb (some b) (o' := o) rfl rfl rfl rfl rfl rfl
  obtain ⟨seen, hl⟩ := loadBase_holds sortL hsort j hj nm hs.toBaseSaveable _ hb1 o0 h0
  obtain ⟨r, hr⟩ := C35_load_returns_partial j.k hj.2.2.2.2.2.2.2 j.g1 j.g2 j.g3 [] o.n b fuel hf
  refine ⟨{ o with seen := seen, maxDeg := r.maxDeg, start := r.start, graph := r.graph, medoids := [] }, r.reported, ?_, ?_⟩
  · unfold rngLoad loadGraphInto
    rw [hl, Res.ok_bind]
    dsimp only
    rw [if_pos rfl, hr]
    rfl
  · intro h1 hg hst sortF hsF cmp q d hdist rc L hL1 hL hrc ind dst hind hdst filters
    have hv := view_length es cmp ({ o with seen := seen, maxDeg := r.maxDeg, start := r.start, graph := r.graph, medoids := [] } : IdxObj)
    have hok : (({ o with seen := seen, maxDeg := r.maxDeg, start := r.start, graph := r.graph, medoids := [] } :
        IdxObj).view es cmp).OK := by
      refine ⟨?_, ?_, ?_, ?_, ?_⟩
      · rw [hv]; exact h1
      · rw [hv]; exact hg
      · rw [hv]; exact hs.tags_len
      · rw [hv]; exact hst
      · intro p hp; exact absurd hp (by simp [IdxObj.view])
    have := (C12_graph_search_safe_iff sortF hsF _ hok q d hdist [] (by simp) rc L hL1 (.of_le hL) ind dst
      _ (List.mem_cons_of_mem _ (List.mem_cons_self ..))).1.2 ⟨hrc, hind, hdst⟩
    obtain ⟨i', d', c', h, -⟩ := this
    exact ⟨_, h⟩

/-- **C107, the size in the header is not looked at.**  Whatever the first eight bytes of a graph file are, the file is
loaded as if they were right. -/
theorem C107_size_ignored (junk : Nat → Bytes) (hj : ∀ i, (junk i).length = 4) (old1 old2 old3 : Bytes)
    (h1 : old1.length = 8) (h2 : old2.length = 4) (h3 : old3.length = 4) (maxDeg start : Nat)
    (hm : maxDeg < 4294967296) (hs : start < 4294967296) (g : List (List Nat)) (hg : Spec.GraphFits g) (hdr : Bytes)
    (hh : hdr.length = 8) (fuel : Nat) (hf : g.length < fuel) :
    loadGraph junk fuel old1 old2 old3 [] g.length (some (hdr ++ (Spec.graphFile maxDeg start g).drop 8)) =
      .ok ⟨maxDeg, start, g, false⟩ := by
  have e : (Spec.graphFile maxDeg start g).drop 8 = le 4 maxDeg ++ (le 4 start ++ encNodes g) := by
    rw [graphFile_eq, List.drop_left' (le_length _ _)]
  have := loadGraph_cutH hj h1 h2 h3 hm hs g hg hdr hh [] g.length (16 + (encNodes g).length) (by omega) fuel hf
  rw [List.take_of_length_le (by simp only [List.length_append, le_length]; omega), Nat.add_sub_cancel_left,
    cutGraph_full g hg _ (Nat.le_refl _), List.nil_append] at this
  rw [e, this]
  simp

/-! ## The theorems applied to the examples -/

example := C107_rng_start id (fun _ _ h => h) (fun _ => none) 1 exObjPlain _ exObjPlain_saveable (by decide) (by decide)
  exStrSort exStrSort_isStrSort exJunk exJunk_WF IdxObj.fresh fresh_isFresh 3 (by decide)

example := C107_vamana_start id (fun _ _ h => h) (fun _ => none) 1 exObj _ exObj_saveable exObj_medoidFile (by decide)
  (by decide) exStrSort exStrSort_isStrSort exJunk exJunk_WF IdxObj.fresh fresh_isFresh 3 (by decide)

example := C107_edge id (fun _ _ h => h) (fun _ => none) 1 exObjPlain _ exObjPlain_saveable (by decide) (by decide) [1] rfl 1
  (by decide) (by decide) exStrSort exStrSort_isStrSort exJunk exJunk_WF IdxObj.fresh fresh_isFresh 3 (by decide)

example := C107_ivf some (Option.some_injective _) none (fun p => by simp) (fun _ => none) 1 exIvfObj _ _
  exIvfObj_saveable (by decide) [1] (by decide) 1 (by decide) (by decide) exStrSort exStrSort_isStrSort exJunk exJunk_WF
  ⟨IdxObj.fresh, 0, [], []⟩ fresh_isFresh

/-- The partial theorem for a file of three bytes beside the other files of an index. -/
example : ∃ fs : FS Part, ∃ r, rngLoad exStrSort exJunk 5 1 id (fun q => if q = .graph then some [1, 2, 3] else fs q)
    IdxObj.fresh = .ok r := by
  obtain ⟨ops, -, hb, -⟩ := rngSave_holds id (fun _ _ h => h) exObjPlain_saveable (fun _ => none)
  obtain ⟨o', rep, h, -⟩ := C107_valid_partial id (fun _ _ h => h) _ 1 exObjPlain _ exObjPlain_saveable hb [1, 2, 3] exStrSort
    exStrSort_isStrSort exJunk exJunk_WF IdxObj.fresh fresh_isFresh 5 (by decide)
  exact ⟨_, _, h⟩

/-- A file of no bytes at all, and one that names a point too many. -/
example : (∃ r, loadGraph (fun _ => [0, 0, 0, 0]) 2 (le 8 0) (le 4 0) (le 4 0) [] 2 (some []) = .ok r) ∧
    loadGraph (fun _ => [0, 0, 0, 0]) 4 (le 8 0) (le 4 0) (le 4 0) [] 2
      (some (le 8 77 ++ (Spec.graphFile 2 0 [[5], [0]]).drop 8)) = .ok ⟨2, 0, [[5], [0]], false⟩ :=
  ⟨C35_load_returns_partial _ (fun _ => rfl) _ _ _ _ _ _ _ (by decide),
    C107_size_ignored _ (fun _ => rfl) _ _ _ rfl rfl rfl 2 0 (by decide) (by decide) [[5], [0]]
      (by unfold Spec.GraphFits; decide) _ rfl 4 (by decide)⟩

end Grann
