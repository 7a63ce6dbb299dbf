import Verif.Model.GraphFile
import Verif.Props.BinFile
/-!
# Graph files (C33, C34, C35)
-/

namespace Grann

namespace Spec

/-- The format of a graph file: the length of the file (8 bytes), the maximal degree, the entry point (4
bytes each), then for every point the number of neighbours and the neighbours. -/
def graphFile (maxDeg start : Nat) (g : List (List Nat)) : Bytes :=
  let body := le 4 maxDeg ++ (le 4 start ++ g.flatMap (fun nb => le 4 nb.length ++ le32s nb))
  le 8 (8 + body.length) ++ body

/-- Numbers that fit into the format. -/
def GraphFits (g : List (List Nat)) : Prop :=
  ∀ nb ∈ g, nb.length < 4294967296 ∧ ∀ x ∈ nb, x < 4294967296

/-- Number of bytes of a graph file before the neighbours of its last point: the header, the complete
records of the other points and the count of the last one. -/
def beforeLastList (g : List (List Nat)) : Nat :=
  16 + (g.dropLast.map (fun nb => 4 + 4 * nb.length)).sum + 4

end Spec

/-- The records of the points. -/
def encNodes (g : List (List Nat)) : Bytes := g.flatMap (fun nb => le 4 nb.length ++ le32s nb)

theorem encNodes_cons (nb : List Nat) (g : List (List Nat)) :
    encNodes (nb :: g) = le 4 nb.length ++ (le32s nb ++ encNodes g) := by
  simp [encNodes]

theorem encNodes_length (g : List (List Nat)) :
    (encNodes g).length = (g.map (fun nb => 4 + 4 * nb.length)).sum := by
  induction g with
  | nil => rfl
  | cons nb g ih =>
    rw [encNodes_cons]
    simp only [List.length_append, le_length, le32s_length, ih, List.map_cons, List.sum_cons]; omega

theorem nodesSize_eq {g : List (List Nat)} (h : Spec.GraphFits g) : nodesSize g = (encNodes g).length := by
  rw [encNodes_length]
  unfold nodesSize
  congr 1
  apply List.map_congr_left
  intro nb hnb
  rw [u32, Nat.mod_eq_of_lt (h nb hnb).1]

theorem run_nodeOps {P : Type} [DecidableEq P] (p : P) : ∀ (g : List (List Nat)), Spec.GraphFits g →
    ∀ (fs : FS P) (c : Bytes), fs p = some c →
      runOps (g.flatMap (nodeOps p)) fs = fun q => if q = p then some (c ++ encNodes g) else fs q := by
  intro g
  induction g with
  | nil =>
    intro _ fs c h
    funext q
    by_cases hq : q = p
    · subst hq; simp [runOps, encNodes, h]
    · simp [runOps, hq]
  | cons nb g ih =>
    intro hg fs c h
    have hnb := (hg nb (by simp)).1
    rw [List.flatMap_cons, runOps_append]
    have h1 : runOps (nodeOps p nb) fs =
        fun q => if q = p then some (c ++ (le 4 nb.length ++ le32s nb)) else fs q := by
      funext q
      have : u32 nb.length = nb.length := by rw [u32, Nat.mod_eq_of_lt hnb]
      by_cases hq : q = p
      · subst hq; simp [nodeOps, runOps, FOp.run, h, this]
      · simp [nodeOps, runOps, FOp.run, hq]
    rw [h1, ih (fun x hx => hg x (by simp [hx])) _ (c ++ (le 4 nb.length ++ le32s nb)) (by simp)]
    funext q
    by_cases hq : q = p
    · subst hq; simp [encNodes_cons]
    · simp [hq]

theorem graphFile_eq (maxDeg start : Nat) (g : List (List Nat)) :
    Spec.graphFile maxDeg start g =
      le 8 (16 + (encNodes g).length) ++ (le 4 maxDeg ++ (le 4 start ++ encNodes g)) := by
  unfold Spec.graphFile
  simp only [List.length_append, le_length]
  rw [show 8 + (4 + (4 + (List.flatMap (fun nb => le 4 nb.length ++ le32s nb) g).length)) =
    16 + (encNodes g).length by unfold encNodes; omega]
  rfl

theorem range_mapM_rd {α : Type} (g : List α) : (List.range g.length).mapM (rd g) = .ok g := by
  cases g with
  | nil => rfl
  | cons a l =>
    rw [mapM_eq_map (rd (a :: l)) (fun i => ((a :: l)[i]?).getD a)]
    · congr 1
      apply List.ext_getElem
      · simp
      · intro i h1 h2
        rw [List.getElem_map, List.getElem_range, List.getElem?_eq_getElem h2, Option.getD_some]
    · intro i hi
      have hi := List.mem_range.mp hi
      rw [rd_ok hi, List.getElem?_eq_getElem hi, Option.getD_some]

/-- What `save` leaves in the graph file. -/
theorem saveGraph_run {P : Type} [DecidableEq P] (p : P) (maxDeg start : Nat) (g : List (List Nat))
    (hg : Spec.GraphFits g) (fs : FS P) :
    ∃ ops, saveGraph p g.length maxDeg start g = .ok ops ∧
      runOps ops fs = fun q => if q = p then some (Spec.graphFile maxDeg start g) else fs q := by
  refine ⟨_, by unfold saveGraph; rw [range_mapM_rd]; rfl, ?_⟩
  rw [runOps_append, runOps_append]
  rw [run_nodeOps p g hg _ (le 8 0 ++ (le 4 maxDeg ++ le 4 start)) (by simp [runOps, FOp.run])]
  funext q
  by_cases hq : q = p
  · subst hq
    rw [graphFile_eq, ← nodesSize_eq hg]
    simp only [runOps, List.foldl_cons, List.foldl_nil, FOp.run, if_true, Option.map_some, le_length]
    rw [List.append_assoc, List.drop_left' (le_length 8 0)]
    simp
  · simp [runOps, FOp.run, hq]

/-! ## The reading loop -/

/-- What is read from the first `c` bytes of the records of `g`. -/
def cutGraph : List (List Nat) → Nat → List (List Nat)
  | [], _ => []
  | nb :: g, c =>
    if c < 4 then []
    else if c < 4 + 4 * nb.length then
      [un32s nb.length ((le32s nb).take (c - 4) ++ List.replicate (4 * nb.length - (c - 4)) 0)]
    else nb :: cutGraph g (c - (4 + 4 * nb.length))

theorem cutGraph_full (g : List (List Nat)) (hg : Spec.GraphFits g) (c : Nat) (hc : (encNodes g).length ≤ c) :
    cutGraph g c = g := by
  induction g generalizing c with
  | nil => rfl
  | cons nb g ih =>
    rw [encNodes_cons] at hc
    simp only [List.length_append, le_length, le32s_length] at hc
    rw [cutGraph, if_neg (by omega), if_neg (by omega), ih (fun x hx => hg x (by simp [hx])) _ (by omega)]

theorem graphLoop_cut (junk : Nat → Bytes) (hj : ∀ i, (junk i).length = 4) : ∀ (g : List (List Nat)),
    Spec.GraphFits g → ∀ (c : Nat) (g0 : List (List Nat)) (fuel : Nat), g.length < fuel →
      graphLoop junk fuel ⟨(encNodes g).take c, false, false⟩ g0 = .ok (g0 ++ cutGraph g c) := by
  intro g
  induction g with
  | nil =>
    intro _ c g0 fuel hf
    obtain ⟨f, rfl⟩ : ∃ f, fuel = f + 1 := ⟨fuel - 1, by simp at hf; omega⟩
    have h4 : (junk f).length = 4 := hj f
    simp [graphLoop, encNodes, cutGraph, IStream.readInt, IStream.read, h4]
  | cons nb g ih =>
    intro hg c g0 fuel hf
    obtain ⟨f, rfl⟩ : ∃ f, fuel = f + 1 := ⟨fuel - 1, by simp at hf; omega⟩
    have hf' : g.length < f := by simp at hf; omega
    have hnb := hg nb (by simp)
    have hg' : Spec.GraphFits g := fun x hx => hg x (by simp [hx])
    have h4 : (junk f).length = 4 := hj f
    rw [graphLoop, if_neg (by simp), cutGraph, encNodes_cons]
    by_cases hc : c < 4
    · rw [if_pos hc]
      have : (IStream.mk ((le 4 nb.length ++ (le32s nb ++ encNodes g)).take c) false false).readInt (junk f)
          |>.2.eof := by
        unfold IStream.readInt IStream.read
        simp only [h4]
        rw [if_neg (by simp), if_neg (by rw [List.length_take]; omega)]
      dsimp only
      rw [if_pos this, List.append_nil]
    · rw [if_neg hc]
      have htake : (le 4 nb.length ++ (le32s nb ++ encNodes g)).take c =
          le 4 nb.length ++ (le32s nb ++ encNodes g).take (c - 4) := by
        rw [List.take_append, le_length, List.take_of_length_le (by simp; omega)]
      rw [htake, IStream.readInt_le nb.length 4 _ _ h4 (by omega)]
      dsimp only
      rw [if_neg (by simp)]
      by_cases hc2 : c < 4 + 4 * nb.length
      · rw [if_pos hc2]
        have htake2 : (le32s nb ++ encNodes g).take (c - 4) = (le32s nb).take (c - 4) := by
          rw [List.take_append_of_le_length (by simp; omega)]
        have hl : ((le32s nb).take (c - 4)).length = c - 4 := by simp; omega
        have hr : (IStream.mk ((le32s nb).take (c - 4)) false false).read (nb.length * 4) =
            ((le32s nb).take (c - 4), ⟨[], true, true⟩) := by
          unfold IStream.read
          rw [if_neg (by simp), if_neg (by simp only [hl]; omega)]
        rw [htake2, hr]
        dsimp only
        rw [hl, Nat.mul_comm nb.length 4]
        cases f with
        | zero => omega
        | succ f => simp [graphLoop]
      · rw [if_neg hc2]
        have htake2 : (le32s nb ++ encNodes g).take (c - 4) =
            le32s nb ++ (encNodes g).take (c - (4 + 4 * nb.length)) := by
          rw [List.take_append, List.take_of_length_le (by simp; omega), le32s_length]
          congr 2; omega
        have hr : (IStream.mk (le32s nb ++ (encNodes g).take (c - (4 + 4 * nb.length))) false false).read
            (nb.length * 4) = (le32s nb, ⟨(encNodes g).take (c - (4 + 4 * nb.length)), false, false⟩) := by
          have := IStream.read_append (le32s nb) ((encNodes g).take (c - (4 + 4 * nb.length)))
          rw [le32s_length, Nat.mul_comm 4 nb.length] at this; rw [Nat.mul_comm 4 nb.length]; exact this
        rw [htake2, hr]
        dsimp only
        rw [un32s_le32s nb hnb.2, ih hg' _ _ _ hf']
        simp

/-- Loading the first `c` bytes of a graph file; the first eight bytes do not matter. -/
theorem loadGraph_cutH {junk : Nat → Bytes} (hj : ∀ i, (junk i).length = 4) {old1 old2 old3 : Bytes}
    (h1 : old1.length = 8) (h2 : old2.length = 4) (h3 : old3.length = 4) {maxDeg start : Nat}
    (hm : maxDeg < 4294967296) (hs : start < 4294967296) (g : List (List Nat)) (hg : Spec.GraphFits g)
    (hdr : Bytes) (hh : hdr.length = 8) (g0 : List (List Nat)) (n c : Nat)
    (hc : 16 ≤ c) (fuel : Nat) (hf : g.length < fuel) :
    loadGraph junk fuel old1 old2 old3 g0 n
        (some ((hdr ++ (le 4 maxDeg ++ (le 4 start ++ encNodes g))).take c)) =
      .ok ⟨maxDeg, start, g0 ++ cutGraph g (c - 16), (g0 ++ cutGraph g (c - 16)).length != n⟩ := by
  have ht : (hdr ++ (le 4 maxDeg ++ (le 4 start ++ encNodes g))).take c =
      hdr ++ (le 4 maxDeg ++ (le 4 start ++ (encNodes g).take (c - 16))) := by
    rw [List.take_append, List.take_of_length_le (by omega), hh, List.take_append,
      List.take_of_length_le (by simp; omega), le_length, List.take_append,
      List.take_of_length_le (by simp; omega), le_length]
    rw [show c - 8 - 4 - 4 = c - 16 by omega]
  have hr : ∀ rest : Bytes, (IStream.mk (hdr ++ rest) false false).readInt old1 =
      (unle hdr, ⟨rest, false, false⟩) := by
    intro rest
    have hlt := unle_lt hdr
    have := IStream.readInt_le (unle hdr) 8 rest old1 h1 (by rw [hh] at hlt; exact hlt)
    have e := le_unle hdr
    rw [hh] at e
    rw [e] at this; exact this
  rw [ht]
  unfold loadGraph IStream.open
  dsimp only
  rw [hr]
  dsimp only
  rw [IStream.readInt_le _ 4 _ _ h2 (by omega)]
  dsimp only
  rw [IStream.readInt_le _ 4 _ _ h3 (by omega)]
  dsimp only
  rw [graphLoop_cut junk hj g hg _ _ _ hf]
  rfl

/-- Loading the first `c` bytes of a graph file. -/
theorem loadGraph_cut {junk : Nat → Bytes} (hj : ∀ i, (junk i).length = 4) {old1 old2 old3 : Bytes}
    (h1 : old1.length = 8) (h2 : old2.length = 4) (h3 : old3.length = 4) {maxDeg start : Nat}
    (hm : maxDeg < 4294967296) (hs : start < 4294967296) (g : List (List Nat)) (hg : Spec.GraphFits g)
    (g0 : List (List Nat)) (n c : Nat)
    (hc : 16 ≤ c) (fuel : Nat) (hf : g.length < fuel) :
    loadGraph junk fuel old1 old2 old3 g0 n (some ((Spec.graphFile maxDeg start g).take c)) =
      .ok ⟨maxDeg, start, g0 ++ cutGraph g (c - 16), (g0 ++ cutGraph g (c - 16)).length != n⟩ := by
  rw [graphFile_eq]
  exact loadGraph_cutH hj h1 h2 h3 hm hs g hg _ (le_length _ _) g0 n c hc fuel hf

/-! ## C33 -/

/-- **C33.** Saving a graph and loading it into a fresh object reproduces the maximal degree, the entry
point and every adjacency list, and no mismatch is reported; whatever the path held before and whatever
uninitialised memory contains. -/
theorem C33_graph_round_trip {P : Type} [DecidableEq P] (p : P) (fs : FS P) (maxDeg start : Nat)
    (hm : maxDeg < 4294967296) (hs : start < 4294967296) (g : List (List Nat)) (hg : Spec.GraphFits g)
    (junk : Nat → Bytes) (hj : ∀ i, (junk i).length = 4) (old1 old2 old3 : Bytes) (h1 : old1.length = 8)
    (h2 : old2.length = 4) (h3 : old3.length = 4) (fuel : Nat) (hf : g.length < fuel) :
    ∃ ops, saveGraph p g.length maxDeg start g = .ok ops ∧
      loadGraph junk fuel old1 old2 old3 [] g.length (runOps ops fs p) =
        .ok ⟨maxDeg, start, g, false⟩ := by
  obtain ⟨ops, ho, hr⟩ := saveGraph_run p maxDeg start g hg fs
  refine ⟨ops, ho, ?_⟩
  rw [hr]
  simp only [if_true]
  have hl : (Spec.graphFile maxDeg start g).length = 16 + (encNodes g).length := by
    rw [graphFile_eq]; simp; omega
  have := loadGraph_cut hj h1 h2 h3 hm hs g hg [] g.length (Spec.graphFile maxDeg start g).length
    (by omega) fuel hf
  rw [List.take_length] at this
  rw [this, List.nil_append, cutGraph_full g hg _ (by omega)]
  simp

/-- **C33.** The size stored in the first eight bytes of the file is the length of the file. -/
theorem C33_header_is_length {P : Type} [DecidableEq P] (p : P) (fs : FS P) (maxDeg start : Nat)
    (g : List (List Nat)) (hg : Spec.GraphFits g)
    (hlen : (Spec.graphFile maxDeg start g).length < 18446744073709551616) :
    ∃ ops file, saveGraph p g.length maxDeg start g = .ok ops ∧ runOps ops fs p = some file ∧
      unle (file.take 8) = file.length := by
  obtain ⟨ops, ho, hr⟩ := saveGraph_run p maxDeg start g hg fs
  refine ⟨ops, Spec.graphFile maxDeg start g, ho, by rw [hr]; simp only [if_true], ?_⟩
  rw [graphFile_eq] at hlen ⊢
  rw [List.take_left' (le_length _ _), unle_le_of_lt]
  · simp; omega
  · simp only [List.length_append, le_length] at hlen; omega

example : Spec.GraphFits [[1, 2], [0], []] ∧ (Spec.graphFile 2 1 [[1, 2], [0], []]).length = 40 := by
  unfold Spec.GraphFits; decide

example : (do
    let ops ← saveGraph () 3 2 1 [[1, 2], [0], []]
    loadGraph (fun _ => [1, 1, 1, 1]) 4 (List.replicate 8 1) [2, 2, 2, 2] [3, 3, 3, 3] [] 3
      (runOps ops (fun _ => some [1]) ())) = .ok ⟨2, 1, [[1, 2], [0], []], false⟩ := by decide

/-! ## C34 -/

/-- Number of adjacency lists found in the first `c` bytes of the records. -/
theorem cutGraph_length (g : List (List Nat)) (last : List Nat) (c : Nat) :
    (c < (g.map (fun nb => 4 + 4 * nb.length)).sum + 4 → (cutGraph (g ++ [last]) c).length ≤ g.length) ∧
    ((g.map (fun nb => 4 + 4 * nb.length)).sum + 4 ≤ c →
      cutGraph (g ++ [last]) c = g ++ [if c - (g.map (fun nb => 4 + 4 * nb.length)).sum < 4 + 4 * last.length
        then un32s last.length
          ((le32s last).take (c - (g.map (fun nb => 4 + 4 * nb.length)).sum - 4) ++
            List.replicate (4 * last.length - (c - (g.map (fun nb => 4 + 4 * nb.length)).sum - 4)) 0)
        else last]) := by
  induction g generalizing c with
  | nil =>
    constructor
    · intro h
      have h4 : c < 4 := by simpa using h
      rw [List.nil_append, cutGraph, if_pos h4]
    · intro h
      have h4 : ¬ c < 4 := by simp at h; omega
      rw [List.nil_append, cutGraph, if_neg h4]
      simp only [List.map_nil, List.sum_nil, Nat.sub_zero, List.nil_append]
      split <;> rfl
  | cons nb g ih =>
    obtain ⟨i1, i2⟩ := ih (c - (4 + 4 * nb.length))
    constructor
    · intro h
      simp only [List.map_cons, List.sum_cons] at h
      rw [List.cons_append, cutGraph]
      split
      · simp
      · split
        · simp
        · have := i1 (by omega)
          simp only [List.length_cons]; omega
    · intro h
      simp only [List.map_cons, List.sum_cons] at h ⊢
      rw [List.cons_append, cutGraph, if_neg (by omega), if_neg (by omega), i2 (by omega)]
      rw [Nat.sub_sub c]
      rfl

/-- If the header is incomplete, the end of the file is noticed before the loop. -/
theorem loadGraph_short {junk : Nat → Bytes} {old1 old2 old3 : Bytes} (b : Bytes) (hshort : b.length < 16)
    (h1 : old1.length = 8) (h2 : old2.length = 4) (h3 : old3.length = 4) {n fuel : Nat} (hn : 0 < n)
    (hf : 0 < fuel) :
    ∃ r, loadGraph junk fuel old1 old2 old3 [] n (some b) = .ok r ∧ r.reported = true := by
  obtain ⟨f, rfl⟩ : ∃ f, fuel = f + 1 := ⟨fuel - 1, by omega⟩
  have key : ∀ (s : IStream) (o : Bytes), s.eof = true → (s.readInt o).2.eof = true := by
    intro s o he
    simp [IStream.readInt, IStream.read, he]
  have key2 : ∀ (s : IStream) (o : Bytes), s.eof = false → s.fail = false →
      (s.readInt o).2.eof = true ∨
        ((s.readInt o).2.eof = false ∧ (s.readInt o).2.fail = false ∧
          (s.readInt o).2.rest.length + o.length = s.rest.length) := by
    intro s o he hfl
    unfold IStream.readInt IStream.read
    simp only [he, hfl, Bool.or_self, Bool.false_eq_true, if_false]
    by_cases hh : o.length ≤ s.rest.length
    · rw [if_pos hh]; right; simp; omega
    · rw [if_neg hh]; left; rfl
  have heof : ((((IStream.open (some b)).readInt old1).2.readInt old2).2.readInt old3).2.eof = true := by
    rcases key2 (IStream.open (some b)) old1 rfl rfl with h | ⟨e1, f1, l1⟩
    · exact key _ _ (key _ _ h)
    · rcases key2 _ old2 e1 f1 with h | ⟨e2, f2, l2⟩
      · exact key _ _ h
      · rcases key2 _ old3 e2 f2 with h | ⟨e3, f3, l3⟩
        · exact h
        · simp only [IStream.open] at l1 l2 l3; omega
  unfold loadGraph
  dsimp only
  rw [graphLoop, if_pos heof, Res.ok_bind]
  refine ⟨_, rfl, ?_⟩
  simp; omega

/-- **C34, the part that holds.** A graph file cut anywhere before the neighbours of its last point is
reported when it is loaded. -/
theorem C34_truncation_detected_partial (junk : Nat → Bytes) (hj : ∀ i, (junk i).length = 4)
    (old1 old2 old3 : Bytes) (h1 : old1.length = 8) (h2 : old2.length = 4) (h3 : old3.length = 4)
    (maxDeg start : Nat) (hm : maxDeg < 4294967296) (hs : start < 4294967296) (g : List (List Nat))
    (hne : g ≠ []) (hg : Spec.GraphFits g) (c : Nat)
    (hc : c < Spec.beforeLastList g) (fuel : Nat) (hf : g.length < fuel) :
    ∃ r, loadGraph junk fuel old1 old2 old3 [] g.length (some ((Spec.graphFile maxDeg start g).take c)) =
      .ok r ∧ r.reported = true := by
  by_cases hc16 : 16 ≤ c
  · rw [loadGraph_cut hj h1 h2 h3 hm hs g hg [] g.length c hc16 fuel hf]
    refine ⟨_, rfl, ?_⟩
    have hl := (cutGraph_length g.dropLast (g.getLast hne) (c - 16)).1 (by
      unfold Spec.beforeLastList at hc; omega)
    rw [List.dropLast_append_getLast] at hl
    have : 0 < g.length := List.length_pos_of_ne_nil hne
    simp only [List.length_dropLast, List.nil_append] at hl ⊢
    simp only [bne_iff_ne]; omega
  · have hpos : 0 < g.length := List.length_pos_of_ne_nil hne
    exact loadGraph_short _ (by rw [List.length_take]; omega) h1 h2 h3 hpos (by omega)

/-- What happens after the other cuts: a graph file cut inside the neighbours of its last point loads
without complaint, and the neighbours that are missing are read as zero bytes. -/
theorem C34_cut_in_last_list (junk : Nat → Bytes) (hj : ∀ i, (junk i).length = 4)
    (old1 old2 old3 : Bytes) (h1 : old1.length = 8) (h2 : old2.length = 4) (h3 : old3.length = 4)
    (maxDeg start : Nat) (hm : maxDeg < 4294967296) (hs : start < 4294967296) (g : List (List Nat))
    (last : List Nat) (hg : Spec.GraphFits (g ++ [last])) (c : Nat)
    (hc : Spec.beforeLastList (g ++ [last]) ≤ c)
    (hcut : c < (Spec.graphFile maxDeg start (g ++ [last])).length) (fuel : Nat)
    (hf : (g ++ [last]).length < fuel) :
    loadGraph junk fuel old1 old2 old3 [] (g ++ [last]).length
        (some ((Spec.graphFile maxDeg start (g ++ [last])).take c)) =
      .ok ⟨maxDeg, start, g ++ [un32s last.length
        ((le32s last).take (c - Spec.beforeLastList (g ++ [last])) ++
          List.replicate (4 * last.length - (c - Spec.beforeLastList (g ++ [last]))) 0)], false⟩ := by
  have hb : Spec.beforeLastList (g ++ [last]) = 16 + (g.map (fun nb => 4 + 4 * nb.length)).sum + 4 := by
    unfold Spec.beforeLastList; rw [List.dropLast_concat]
  rw [loadGraph_cut hj h1 h2 h3 hm hs _ hg [] _ c (by omega) fuel hf, List.nil_append]
  have hl : (Spec.graphFile maxDeg start (g ++ [last])).length =
      16 + (g.map (fun nb => 4 + 4 * nb.length)).sum + 4 + 4 * last.length := by
    rw [graphFile_eq]
    simp only [List.length_append, le_length, encNodes_length, List.map_append, List.sum_append,
      List.map_cons, List.map_nil, List.sum_cons, List.sum_nil]; omega
  rw [(cutGraph_length g last (c - 16)).2 (by omega), if_pos (by omega), hb]
  rw [show c - 16 - (g.map (fun nb => 4 + 4 * nb.length)).sum - 4 =
    c - (16 + (g.map (fun nb => 4 + 4 * nb.length)).sum + 4) by omega]
  simp

/-- **C34 is false**: here the last 4 of 32 bytes are missing, and point 1 gets the neighbours 3, 0 instead
of 3, 2. -/
theorem C34_truncation_accepted :
    loadGraph (fun _ => [0, 0, 0, 0]) 5 (List.replicate 8 0) [0, 0, 0, 0] [0, 0, 0, 0] [] 2
      (some ((Spec.graphFile 2 0 [[1], [3, 2]]).take 32)) = .ok ⟨2, 0, [[1], [3, 0]], false⟩ ∧
    (Spec.graphFile 2 0 [[1], [3, 2]]).length = 36 := by decide

example : Spec.GraphFits [[1], [3, 2]] ∧ Spec.beforeLastList [[1], [3, 2]] = 28 ∧
    27 < Spec.beforeLastList [[1], [3, 2]] := by unfold Spec.GraphFits; decide

/-! ## C35 -/

/-- **C35 is false** if the graph file is missing: the loop never ends, whatever number of iterations is
allowed and whatever the uninitialised variable `k` contains (every iteration appends another list, so in
practice memory runs out). -/
theorem C35_missing_graph_diverges (junk : Nat → Bytes) (fuel : Nat) (old1 old2 old3 : Bytes)
    (g0 : List (List Nat)) (n : Nat) :
    loadGraph junk fuel old1 old2 old3 g0 n none = .error .loop := by
  have key : ∀ (o : Bytes), (IStream.mk [] false true).readInt o = (unle o, ⟨[], false, true⟩) := by
    intro o; simp [IStream.readInt, IStream.read]
  have loop : ∀ fuel g, graphLoop junk fuel ⟨[], false, true⟩ g = .error .loop := by
    intro fuel
    induction fuel with
    | zero => intro g; rfl
    | succ f ih =>
      intro g
      rw [graphLoop, if_neg (by simp), key]
      dsimp only
      rw [if_neg (by simp)]
      simp only [IStream.read, Bool.or_true, if_true]
      exact ih _
  unfold loadGraph IStream.open
  dsimp only
  rw [key]
  dsimp only
  rw [key]
  dsimp only
  rw [key]
  dsimp only
  rw [loop]
  rfl

/-- The loop ends on every stream of an existing file. -/
theorem graphLoop_terminates (junk : Nat → Bytes) (hj : ∀ i, (junk i).length = 4) : ∀ (m : Nat)
    (s : IStream) (g : List (List Nat)) (fuel : Nat), s.rest.length ≤ m → (s.fail = true → s.eof = true) →
      m + 2 ≤ fuel → ∃ g', graphLoop junk fuel s g = .ok g' := by
  intro m
  induction m with
  | zero =>
    intro s g fuel hm hfe hf
    obtain ⟨f, rfl⟩ : ∃ f, fuel = f + 1 := ⟨fuel - 1, by omega⟩
    rw [graphLoop]
    by_cases he : s.eof = true
    · rw [if_pos he]; exact ⟨_, rfl⟩
    · rw [if_neg he]
      have hfl : s.fail = false := by
        by_contra hx; exact he (hfe (by simpa using hx))
      have he' : s.eof = false := by simpa using he
      have h4 : (junk f).length = 4 := hj f
      have : (s.readInt (junk f)).2.eof = true := by
        unfold IStream.readInt IStream.read
        simp only [he', hfl, Bool.or_self, Bool.false_eq_true, if_false]
        rw [if_neg (by omega)]
      dsimp only
      rw [if_pos this]; exact ⟨_, rfl⟩
  | succ m ih =>
    intro s g fuel hm hfe hf
    obtain ⟨f, rfl⟩ : ∃ f, fuel = f + 1 := ⟨fuel - 1, by omega⟩
    rw [graphLoop]
    by_cases he : s.eof = true
    · rw [if_pos he]; exact ⟨_, rfl⟩
    · rw [if_neg he]
      have hfl : s.fail = false := by
        by_contra hx; exact he (hfe (by simpa using hx))
      have he' : s.eof = false := by simpa using he
      have h4 : (junk f).length = 4 := hj f
      dsimp only
      by_cases hh : 4 ≤ s.rest.length
      · have h2 : (s.readInt (junk f)).2 = ⟨s.rest.drop 4, false, false⟩ := by
          unfold IStream.readInt IStream.read
          simp only [he', hfl, Bool.or_self, Bool.false_eq_true, if_false, h4]
          rw [if_pos hh]
        rw [h2, if_neg (by simp)]
        apply ih
        · unfold IStream.read
          simp only [Bool.or_self, Bool.false_eq_true, if_false]
          split
          · simp only [List.length_drop]; omega
          · simp
        · unfold IStream.read
          simp only [Bool.or_self, Bool.false_eq_true, if_false]
          split <;> simp
        · omega
      · have : (s.readInt (junk f)).2.eof = true := by
          unfold IStream.readInt IStream.read
          simp only [he', hfl, Bool.or_self, Bool.false_eq_true, if_false, h4]
          rw [if_neg hh]
        rw [if_pos this]; exact ⟨_, rfl⟩

/-- **C35, the part that holds.** Loading returns for every graph file that exists, whatever its contents:
after at most as many iterations as the file has bytes, plus two. -/
theorem C35_load_returns_partial (junk : Nat → Bytes) (hj : ∀ i, (junk i).length = 4)
    (old1 old2 old3 : Bytes) (g0 : List (List Nat)) (n : Nat) (b : Bytes) (fuel : Nat)
    (hf : b.length + 2 ≤ fuel) :
    ∃ r, loadGraph junk fuel old1 old2 old3 g0 n (some b) = .ok r := by
  have key : ∀ (s : IStream) (o : Bytes), (s.fail = true → s.eof = true) →
      (s.readInt o).2.rest.length ≤ s.rest.length ∧
        ((s.readInt o).2.fail = true → (s.readInt o).2.eof = true) := by
    intro s o h
    unfold IStream.readInt IStream.read
    dsimp only
    split
    · rename_i he
      refine ⟨Nat.le_refl _, fun _ => ?_⟩
      simp only [Bool.or_eq_true] at he
      rcases he with he | he
      · exact he
      · exact h he
    · split
      · refine ⟨by simp, ?_⟩
        rename_i h1 h2
        simp only [Bool.or_eq_true, not_or] at h1
        intro hx; exact absurd hx h1.2
      · simp
  obtain ⟨l1, f1⟩ := key (IStream.open (some b)) old1 (by simp [IStream.open])
  obtain ⟨l2, f2⟩ := key _ old2 f1
  obtain ⟨l3, f3⟩ := key _ old3 f2
  have l0 : (IStream.open (some b)).rest.length = b.length := rfl
  obtain ⟨g', hg'⟩ := graphLoop_terminates junk hj b.length _ g0 fuel (by omega) f3 hf
  unfold loadGraph
  dsimp only
  rw [hg']
  exact ⟨_, rfl⟩

example : loadGraph (fun _ => [0, 0, 0, 0]) 6 (List.replicate 8 0) [0, 0, 0, 0] [0, 0, 0, 0] [] 1
    (some [1, 2, 3, 4]) = .ok ⟨0, 0, [], true⟩ := by decide

/-! ## The theorems applied to the examples -/

theorem exGraph3_fits : Spec.GraphFits [[1, 2], [0], []] := by unfold Spec.GraphFits; decide

theorem exGraph2_fits : Spec.GraphFits [[1], [3, 2]] := by unfold Spec.GraphFits; decide

example := C33_graph_round_trip () (fun _ => some [1]) 2 1 (by decide) (by decide) [[1, 2], [0], []] exGraph3_fits
  (fun _ => [1, 1, 1, 1]) (fun _ => rfl) (List.replicate 8 1) [2, 2, 2, 2] [3, 3, 3, 3] rfl rfl rfl 4 (by decide)

example := C33_header_is_length () (fun _ => some [1]) 2 1 [[1, 2], [0], []] exGraph3_fits (by decide)

/-- C34: cut after 27 bytes, in the number of neighbours of the last point. -/
example := C34_truncation_detected_partial (fun _ => [1, 1, 1, 1]) (fun _ => rfl) (List.replicate 8 1) [2, 2, 2, 2]
  [3, 3, 3, 3] rfl rfl rfl 2 0 (by decide) (by decide) [[1], [3, 2]] (by decide) exGraph2_fits 27 (by decide) 3
  (by decide)

/-- Cut after 30 bytes, in the neighbours of the last point. -/
example := C34_cut_in_last_list (fun _ => [1, 1, 1, 1]) (fun _ => rfl) (List.replicate 8 1) [2, 2, 2, 2]
  [3, 3, 3, 3] rfl rfl rfl 2 0 (by decide) (by decide) [[1]] [3, 2] exGraph2_fits 30 (by decide) (by decide) 3
  (by decide)

example : loadGraph (fun _ => [1, 0, 0, 0]) 1000000 [] [] [] [] 3 none = .error .loop :=
  C35_missing_graph_diverges _ _ _ _ _ _ _

example := C35_load_returns_partial (fun _ => [1, 1, 1, 1]) (fun _ => rfl) (List.replicate 8 1) [2, 2, 2, 2]
  [3, 3, 3, 3] [[7]] 5 [1, 2, 3, 4] 6 (by decide)

end Grann
