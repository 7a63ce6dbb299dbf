import Verif.Props.Damage
/-!
# C34: what a search finds in a graph file that was cut
-/

namespace Grann

/-- A list that was cut holds zeros and numbers that are not larger than those that were stored. -/
theorem cut_list_le (nb : List Nat) (c : Nat) :
    ∀ x ∈ un32s nb.length ((le32s nb).take c ++ List.replicate (4 * nb.length - c) 0), x = 0 ∨ ∃ y ∈ nb, x ≤ y := by
  induction nb generalizing c with
  | nil => simp [un32s]
  | cons y nb ih =>
    have hle : unle (le 4 y) ≤ y := by rw [unle_le]; exact Nat.mod_le _ _
    have e : le32s (y :: nb) = le 4 y ++ le32s nb := by simp [le32s]
    intro x hx
    rw [List.length_cons, un32s, e] at hx
    by_cases hc : 4 ≤ c
    · have h1 : (le 4 y ++ le32s nb).take c = le 4 y ++ (le32s nb).take (c - 4) := by
        rw [List.take_append, List.take_of_length_le (by simpa using hc), le_length]
      rw [h1, List.append_assoc, List.take_left' (le_length 4 y), List.drop_left' (le_length 4 y)] at hx
      rcases List.mem_cons.1 hx with rfl | hx
      · exact .inr ⟨y, by simp, hle⟩
      · rw [show 4 * (nb.length + 1) - c = 4 * nb.length - (c - 4) by omega] at hx
        rcases ih (c - 4) x hx with h | ⟨z, hz, h⟩
        · exact .inl h
        · exact .inr ⟨z, by simp [hz], h⟩
    · have h1 : ((le 4 y ++ le32s nb).take c ++ List.replicate (4 * (nb.length + 1) - c) (0 : UInt8)) =
          ((le 4 y).take c ++ List.replicate (4 - c) 0) ++ ((le32s nb).take 0 ++ List.replicate (4 * nb.length - 0) 0) := by
        rw [List.take_append_of_le_length (by simp; omega), show 4 * (nb.length + 1) - c = (4 - c) + 4 * nb.length by omega,
          List.replicate_add]
        simp
      have hlen : ((le 4 y).take c ++ List.replicate (4 - c) (0 : UInt8)).length = 4 := by
        simp; omega
      rw [h1, List.take_left' hlen, List.drop_left' hlen] at hx
      rcases List.mem_cons.1 hx with rfl | hx
      · refine .inr ⟨y, by simp, ?_⟩
        rw [unle_append, unle_zeros, Nat.mul_zero, Nat.add_zero]
        have h2 := unle_append ((le 4 y).take c) ((le 4 y).drop c)
        rw [List.take_append_drop] at h2
        exact Nat.le_trans (by rw [h2]; exact Nat.le_add_right _ _) hle
      · rcases ih 0 x hx with h | ⟨z, hz, h⟩
        · exact .inl h
        · exact .inr ⟨z, by simp [hz], h⟩

/-- A search of a graph that has no list for the entry point reads outside of the lists. -/
theorem graphSearch_no_list {V : Type} (sortF : List Nbr → List Nbr) (hsort : IsStdSort sortF) (ix : GIdx V)
    (start : Nat) (hnb : ix.graph.length ≤ start) (q : V)
    (rc L : Nat) (hL : L ≤ 2 ^ 31) (ind : List Nat) (dst : List F32) :
    graphSearch sortF ix q [] [start] rc L ind dst = .error .ub := by
  by_cases hstart : start < ix.ctx.data.length
  swap
  · exact graphSearch_bad_start sortF ix start (by omega) q [] rc L ind dst
  obtain ⟨c, hc⟩ : ∃ c, c = ix.ctx := ⟨_, rfl⟩
  rw [← hc] at hstart
  obtain ⟨v, hv⟩ : ∃ v, c.data[start]? = some v := ⟨_, List.getElem?_eq_getElem hstart⟩
  obtain ⟨x0, hx0⟩ : ∃ x0 : Nbr, x0 = ⟨start, c.cmp v q, true⟩ := ⟨_, rfl⟩
  have hu : u32 (L + 1) = L + 1 := Nat.mod_eq_of_lt (by omega)
  have hs0 : greedyStart sortF c q L [start] =
      .ok ⟨⟨x0 :: List.replicate L Nbr.dflt, 1, [start], 0, L⟩, 0, 0, []⟩ := by
    have hi : initLoop c q L [start] ⟨resizePool [] (u32 (L + 1)), 0, [], 0, L⟩ =
        .ok ⟨x0 :: List.replicate L Nbr.dflt, 1, [start], 0, L⟩ := by
      unfold initLoop
      rw [rd_eq_ok_iff.mpr hv, Res.ok_bind, if_neg (by simp), wr_ok (by simp [resizePool, hu])]
      simp only [Res.ok_bind, Nat.zero_add]
      have : (resizePool [] (u32 (L + 1))).set 0 ⟨start, c.cmp v q, true⟩ =
          x0 :: List.replicate L Nbr.dflt := by
        rw [hu, hx0]; simp [resizePool, List.replicate_succ]
      rw [this]
      split
      · rfl
      · rfl
    unfold greedyStart
    rw [hi, Res.ok_bind]
    have hp := (hsort.perm [x0])
    rw [List.perm_singleton] at hp
    simp [hp]
  have hg : greedySearch sortF c q [] L (fun _ => ix.graph) [start] = .error .ub := by
    unfold greedySearch greedySearchF
    rw [hs0, Res.ok_bind]
    obtain ⟨fuel, hfuel⟩ : ∃ f, (c.data.length + 1) * (L + 1) = f + 1 :=
      ⟨(c.data.length + 1) * (L + 1) - 1, by
        have : 0 < (c.data.length + 1) * (L + 1) := Nat.mul_pos (by omega) (by omega)
        omega⟩
    rw [hfuel]
    unfold greedyLoop
    rw [if_pos (by simp)]
    have hit : greedyIter c q [] L ix.graph ⟨⟨x0 :: List.replicate L Nbr.dflt, 1, [start], 0, L⟩, 0, 0, []⟩ =
        .error .ub := by
      unfold greedyIter
      rw [show rd (x0 :: List.replicate L Nbr.dflt) 0 = .ok x0 from rfl, Res.ok_bind, if_pos (by rw [hx0]),
        wr_ok (by simp), Res.ok_bind, rd_ub (by rw [hx0]; exact hnb)]
      rfl
    rw [hit]
    rfl
  unfold graphSearch
  rw [← hc, hg]
  rfl

section
variable {P : Type} [DecidableEq P]

/-- Loading a graph file of which only the first `c` bytes are left. -/
theorem rngLoad_cut (nm : Part → P) (hnm : Function.Injective nm) (fs : FS P) (es : Nat) (o : IdxObj)
    (rows : List Bytes) (hs : Saveable es o rows) (hb : HoldsBase nm fs o rows)
    (sortL : List Label → List Label) (hsort : IsStrSort sortL) (j : Junk) (hj : j.WF) (o0 : IdxObj) (h0 : IsFresh o0)
    (fuel : Nat) (hf : o.n < fuel) (c : Nat) (hc : 16 ≤ c) :
    ∃ seen, rngLoad sortL j fuel es nm (fun q => if q = nm .graph then
        some ((Spec.graphFile o.maxDeg o.start o.graph).take c) else fs q) o0 =
      .ok ({ o with seen := seen, graph := cutGraph o.graph (c - 16), medoids := [] },
        (cutGraph o.graph (c - 16)).length != o.n) := by
  have hb1 := HoldsBase.other hnm hb (some ((Spec.graphFile o.maxDeg o.start o.graph).take c)) (o' := o)
    rfl rfl rfl rfl rfl rfl
  obtain ⟨seen, hl⟩ := loadBase_holds sortL hsort j hj nm hs.toBaseSaveable _ hb1 o0 h0
  refine ⟨seen, ?_⟩
  have h := loadGraph_cut (junk := j.k) hj.2.2.2.2.2.2.2 (old1 := j.g1) (old2 := j.g2) (old3 := j.g3) (by simp [hj.2])
    (by simp [hj.2]) (by simp [hj.2]) hs.maxDeg hs.start o.graph hs.graph_fits [] o.n c hc fuel (by rw [hs.graph_len]; exact hf)
  unfold rngLoad loadGraphInto
  rw [hl, Res.ok_bind]
  dsimp only
  rw [if_pos rfl, h]
  rfl

/-- **C34, a cut in the last list is harmless.**  It is not reported, but what was loaded is a graph on the points: no
search reads outside of its memory. -/
theorem C34_cut_still_valid (nm : Part → P) (hnm : Function.Injective nm) (fs : FS P) (es : Nat) (o : IdxObj)
    (rows : List Bytes) (hs : Saveable es o rows) (hgr : Spec.IsGraph o.n o.graph) (hn : 1 ≤ o.n) (hst : o.start < o.n)
    (sortL : List Label → List Label) (hsort : IsStrSort sortL) (j : Junk) (hj : j.WF) (o0 : IdxObj) (h0 : IsFresh o0)
    (fuel : Nat) (hf : o.n < fuel) (c : Nat) (hc : Spec.beforeLastList o.graph ≤ c) :
    ∃ ops f o', rngSave es nm o = .ok ops ∧ runOps ops fs (nm .graph) = some f ∧
      rngLoad sortL j fuel es nm (fun q => if q = nm .graph then some (f.take c) else runOps ops fs q) o0 =
        .ok (o', false) ∧ Spec.IsGraph o.n o'.graph ∧
      ∀ sortF, IsStdSort sortF → ∀ cmp q d, (o'.view es cmp).Dist q d → ∀ rc L, 1 ≤ L → L ≤ 2 ^ 31 → rc ≤ L + 1 →
        ∀ (ind : List Nat) (dst : List F32), rc ≤ ind.length → rc ≤ dst.length → ∀ filters,
        ∃ r, rngSearch sortF (o'.view es cmp) q rc L ind dst filters = .ok r := by
  obtain ⟨ops, ho, hb, hg, -⟩ := rngSave_holds nm hnm hs fs
  obtain ⟨seen, hl⟩ := rngLoad_cut nm hnm (runOps ops fs) es o rows hs hb sortL hsort j hj o0 h0 fuel hf c
    (by unfold Spec.beforeLastList at hc; omega)
  have hne : o.graph ≠ [] := by
    intro h; have := hs.graph_len; rw [h] at this; simp at this; omega
  have hcl := (cutGraph_length o.graph.dropLast (o.graph.getLast hne) (c - 16)).2 (by
    unfold Spec.beforeLastList at hc; omega)
  rw [List.dropLast_append_getLast] at hcl
  have hgraph : Spec.IsGraph o.n (cutGraph o.graph (c - 16)) := by
    refine ⟨?_, ?_⟩
    · rw [hcl]
      have := hs.graph_len
      have := List.length_pos_of_ne_nil hne
      simp; omega
    · rw [hcl]
      intro nb hnb
      rcases List.mem_append.1 hnb with h | h
      · exact hgr.edges nb (List.mem_of_mem_dropLast h)
      · rw [List.mem_singleton] at h
        have hlast := hgr.edges _ (List.getLast_mem hne)
        rw [h]
        split
        · intro x hx
          rcases cut_list_le _ _ x hx with rfl | ⟨y, hy, hxy⟩
          · exact hn
          · have := hlast y hy; omega
        · exact hlast
  have hrep : ((cutGraph o.graph (c - 16)).length != o.n) = false := by simp [hgraph.len]
  rw [hrep] at hl
  refine ⟨ops, _, _, ho, hg, hl, hgraph, ?_⟩
  intro sortF hsF cmp q d hdist rc L hL1 hL hrc ind dst hind hdst filters
  obtain ⟨oc, hoc⟩ : ∃ oc : IdxObj, oc = { o with seen := seen, graph := cutGraph o.graph (c - 16), medoids := [] } := ⟨_, rfl⟩
  rw [← hoc] at hdist ⊢
  have hv := view_length es cmp oc
  have hnn : oc.n = o.n := by rw [hoc]
  have hok : (oc.view es cmp).OK := by
    refine ⟨?_, ?_, ?_, ?_, ?_⟩
    · rw [hv, hnn]; exact hn
    · rw [hv, hnn, hoc]; exact hgraph
    · rw [hv, hnn, hoc]; exact hs.tags_len
    · rw [hv, hnn, hoc]; exact hst
    · intro p hp; rw [hoc] at hp; exact absurd hp (by simp [IdxObj.view])
  obtain ⟨i', d', c', h, -⟩ := (C12_graph_search_safe_iff sortF hsF _ hok q d hdist [] (by simp) rc L hL1 (.of_le hL) ind dst
    _ (List.mem_cons_of_mem _ (List.mem_cons_self ..))).1.2 ⟨hrc, hind, hdst⟩
  exact ⟨_, h⟩

/-- What is left of a graph that was cut in front of the list of point `i` ends before `i`. -/
theorem cutGraph_before (g : List (List Nat)) (i c : Nat)
    (hc : c < ((g.take i).map (fun nb => 4 + 4 * nb.length)).sum + 4) : (cutGraph g c).length ≤ i := by
  induction g generalizing i c with
  | nil => simp [cutGraph]
  | cons nb g ih =>
    rw [cutGraph]
    by_cases h4 : c < 4
    · rw [if_pos h4]; simp
    · rw [if_neg h4]
      cases i with
      | zero => simp at hc; omega
      | succ i =>
        split
        · simp
        · have := ih i (c - (4 + 4 * nb.length)) (by simp only [List.take_succ_cons, List.map_cons, List.sum_cons] at hc; omega)
          simp only [List.length_cons]
          omega

/-- **C34, after the report.**  A cut in front of the list of the entry point is reported on the terminal, but `load`
returns as usual, and every search of the loaded object reads outside of the lists. -/
theorem C34_search_after_report (nm : Part → P) (hnm : Function.Injective nm) (fs : FS P) (es : Nat) (o : IdxObj)
    (rows : List Bytes) (hs : Saveable es o rows) (hst : o.start < o.n)
    (sortL : List Label → List Label) (hsort : IsStrSort sortL) (j : Junk) (hj : j.WF) (o0 : IdxObj) (h0 : IsFresh o0)
    (fuel : Nat) (hf : o.n < fuel) (c : Nat) (hc : 16 ≤ c)
    (hcut : c < 16 + ((o.graph.take o.start).map (fun nb => 4 + 4 * nb.length)).sum + 4) :
    ∃ ops f o', rngSave es nm o = .ok ops ∧ runOps ops fs (nm .graph) = some f ∧
      rngLoad sortL j fuel es nm (fun q => if q = nm .graph then some (f.take c) else runOps ops fs q) o0 =
        .ok (o', true) ∧
      ∀ sortF, IsStdSort sortF → ∀ cmp q rc L ind dst filters, L ≤ 2 ^ 31 →
        rngSearch sortF (o'.view es cmp) q rc L ind dst filters = .error .ub := by
  obtain ⟨ops, ho, hb, hg, -⟩ := rngSave_holds nm hnm hs fs
  obtain ⟨seen, hl⟩ := rngLoad_cut nm hnm (runOps ops fs) es o rows hs hb sortL hsort j hj o0 h0 fuel hf c hc
  have hlen := cutGraph_before o.graph o.start (c - 16) (by omega)
  have hrep : ((cutGraph o.graph (c - 16)).length != o.n) = true := by
    simp only [bne_iff_ne]; omega
  rw [hrep] at hl
  refine ⟨ops, _, _, ho, hg, hl, fun sortF hsF cmp q rc L ind dst filters hL => ?_⟩
  unfold rngSearch
  exact graphSearch_no_list sortF hsF _ _ hlen q rc L hL ind dst

end

/-! ## The theorems applied to the examples -/

def exObjRing : IdxObj := { exObjPlain with graph := [[1], [0, 1]] }

theorem exObjRing_saveable : Saveable 1 exObjRing [[1, 2, 3], [4, 5, 6]] :=
  { exObjPlain_saveable with graph_len := rfl, graph_fits := by unfold Spec.GraphFits; decide }

/-- The last five of 36 bytes are missing. -/
example := C34_cut_still_valid id (fun _ _ h => h) (fun _ => none) 1 exObjRing _ exObjRing_saveable (by decide) (by decide)
  (by decide) exStrSort exStrSort_isStrSort exJunk exJunk_WF IdxObj.fresh fresh_isFresh 3 (by decide) 31 (by decide)

/-- Only the header and two bytes are left. -/
example := C34_search_after_report id (fun _ _ h => h) (fun _ => none) 1 exObjRing _ exObjRing_saveable (by decide)
  exStrSort exStrSort_isStrSort exJunk exJunk_WF IdxObj.fresh fresh_isFresh 3 (by decide) 18 (by decide) (by decide)

end Grann
