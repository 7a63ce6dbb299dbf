import Verif.Model.FilteredTruth
import Verif.Props.GroundTruth
import Verif.Props.Sample
import Verif.Model.Params
/-!
# C70: filtered ground truth
-/

namespace Grann

/-- The number of points of the last part of a file read in parts. -/
def Spec.lastPart (partSize n : Nat) : Nat := if n % partSize = 0 then partSize else n % partSize

/-! ## Distances outside the data do not matter -/

theorem flatMap_range'_congr {α : Type} {f g : Nat → List α} : ∀ (len s : Nat), (∀ q, s ≤ q → q < s + len → f q = g q) →
    (List.range' s len).flatMap f = (List.range' s len).flatMap g := by
  intro len
  induction len with
  | zero => intros; rfl
  | succ m ih =>
    intro s h
    rw [List.range'_succ, List.flatMap_cons, List.flatMap_cons, h s (Nat.le_refl _) (by omega),
      ih (s + 1) (fun q h1 h2 => h q (by omega) (by omega))]

theorem distMatrix_congr {D D' : Nat → Nat → F32} {np qb qe : Nat} (h : ∀ q < qe, ∀ i < np, D q i = D' q i) (old : List F32) :
    distMatrix D np qb qe old = distMatrix D' np qb qe old := by
  unfold distMatrix
  congr 1
  apply flatMap_range'_congr
  intro q h1 h2
  apply List.map_congr_left
  intro i hi
  exact h q (by omega) i (List.mem_range.mp hi)

theorem knnBatches_congr {pick : Nat → Nat → List (Nat × F32) → Nat} {k np nq : Nat} {D D' : Nat → Nat → F32}
    (h : ∀ q < nq, ∀ i < np, D q i = D' q i) : ∀ (todo b : Nat) (dm : List F32),
    knnBatches pick k np nq D todo b dm = knnBatches pick k np nq D' todo b dm := by
  intro todo
  induction todo with
  | zero => intros; rfl
  | succ t ih =>
    intro b dm
    unfold knnBatches
    dsimp only
    rw [distMatrix_congr (D := D) (D' := D') (np := np)
      (qe := if nq < (b + 1) * 512 then nq else (b + 1) * 512) (fun q hq => h q (by split at hq <;> omega))]
    simp only [ih]

theorem partLen_le {ps n p : Nat} : p * ps + partLen ps n p ≤ max n (p * ps) ∧ partLen ps n p ≤ ps := by
  unfold partLen; omega

theorem gtParts_congr {clamp : Bool} {pick : Nat → Nat → Nat → List (Nat × F32) → Nat} {ps n nq : Nat} {D D' : Nat → Nat → F32}
    {junk : Nat → Nat → F32} (h : ∀ q < nq, ∀ i < n, D q i = D' q i) : ∀ (todo p k : Nat) (res : List (List (Nat × F32))),
    gtParts clamp pick ps n nq D junk todo p k res = gtParts clamp pick ps n nq D' junk todo p k res := by
  intro todo
  induction todo with
  | zero => intros; rfl
  | succ t ih =>
    intro p k res
    unfold gtParts exactKnn
    dsimp only
    rw [knnBatches_congr (D := fun q i => D q (p * ps + i)) (D' := fun q i => D' q (p * ps + i)) (fun q hq i hi => by
      have := (partLen_le (ps := ps) (n := n) (p := p)).1
      exact h q hq _ (by unfold partLen at hi; omega))]
    simp only [ih]

theorem groundTruth_congr {clamp : Bool} {pick : Nat → Nat → Nat → List (Nat × F32) → Nat} {sortP : List (Nat × F32) → List (Nat × F32)}
    {ps n nq k : Nat} {D D' : Nat → Nat → F32} {junk : Nat → Nat → F32} (h : ∀ q < nq, ∀ i < n, D q i = D' q i) :
    groundTruth clamp pick sortP ps n nq k D junk = groundTruth clamp pick sortP ps n nq k D' junk := by
  unfold groundTruth
  rw [gtParts_congr h]

theorem KNearest_congr {k : Nat} {S : Finset Nat} {d d' : Nat → F32} {row : List (Nat × F32)} (h : Spec.KNearest k S d row)
    (hd : ∀ i ∈ S, d i = d' i) : Spec.KNearest k S d' row :=
  ⟨h.sorted, h.nodup, fun x hx => ⟨(h.mem x hx).1, by rw [(h.mem x hx).2, hd _ (h.mem x hx).1]⟩, h.length,
    fun i hi hn x hx => by rw [← hd i hi]; exact h.best i hi hn x hx⟩

/-- A ground-truth file: number of queries, neighbours per query, the numbers of the neighbours, their distances. -/
def Spec.truthBytes (k : Nat) (rows : List (List (Nat × F32))) : Bytes :=
  le 4 rows.length ++ (le 4 k ++ (le32s (rows.flatMap (fun r => r.map Prod.fst)) ++
    le32s (rows.flatMap (fun r => r.map (fun x => x.2.bits.toNat)))))

/-- The points of the data set with a matching label: one of the labels in the line of the point is among the wanted
ones or is the universal label. -/
def Spec.matching (filters : List Label) (univ : Option Label) (lines : List Bytes) (n : Nat) : Finset Nat :=
  (Finset.range n).filter (fun i => ∃ t ∈ (pieces 44 (lines.getD i [])).map stripEol, t ∈ filters ∨ univ = some t)

theorem filterLoop_ok (keep : Bytes → Bool) (rb : Nat) (lines rows : List Bytes) (hl : lines.length = rows.length)
    (hr : ∀ x ∈ rows, x.length = rb) (hn : rows.length < 4294967296) : ∀ (todo i : Nat) (idx : List Nat) (out pt : Bytes),
    i + todo = rows.length → pt.length = rb →
    filterLoop keep rb (lines.drop i) ⟨(rows.drop i).flatten, false, false⟩ pt i idx out =
      (idx ++ (List.range' i todo).filter (fun j => keep (lines.getD j [])),
       out ++ ((List.range' i todo).filter (fun j => keep (lines.getD j []))).flatMap (rowAt rows)) := by
  intro todo
  induction todo with
  | zero =>
    intro i idx out pt hi _
    rw [List.drop_eq_nil_of_le (by omega)]
    simp [filterLoop]
  | succ todo ih =>
    intro i idx out pt hi hpt
    have hil : i < lines.length := by omega
    have hir : i < rows.length := by omega
    rw [List.drop_eq_getElem_cons (l := lines) (i := i) hil, List.drop_eq_getElem_cons (l := rows) (i := i) hir,
      List.flatten_cons]
    unfold filterLoop
    have hlen := hr _ (List.getElem_mem hir)
    have hread := IStream.read_append rows[i] (rows.drop (i + 1)).flatten
    rw [hlen] at hread
    rw [hread]
    dsimp only
    rw [hlen, List.drop_eq_nil_of_le (as := pt) (by omega), List.append_nil]
    have hu : u32 (i + 1) = i + 1 := Nat.mod_eq_of_lt (by omega)
    rw [hu, List.range'_succ, List.filter_cons]
    have hline : lines.getD i [] = lines[i] := by simp [List.getD_eq_getElem?_getD, List.getElem?_eq_getElem hil]
    have hrow : rowAt rows i = rows[i] := by simp [rowAt, List.getD_eq_getElem?_getD, List.getElem?_eq_getElem hir]
    rw [hline]
    split
    · rw [ih (i + 1) _ _ _ (by omega) hlen, List.flatMap_cons, hrow]
      simp
    · rw [ih (i + 1) _ _ _ (by omega) hlen]

theorem keepLine_iff (filters : List Label) (univ : Option Label) (line : Bytes) : keepLine filters univ line = true ↔
    ∃ t ∈ (pieces 44 line).map stripEol, t ∈ filters ∨ univ = some t := by
  unfold keepLine commaTokens
  rw [List.any_eq_true]
  simp

theorem KNearest_map {k : Nat} {S : Finset Nat} {d d' : Nat → F32} {row : List (Nat × F32)} (f : Nat → Nat)
    (h : Spec.KNearest k S d row) (hf : ∀ i ∈ S, ∀ j ∈ S, f i = f j → i = j) (hd : ∀ i ∈ S, d i = d' (f i)) :
    Spec.KNearest k (S.image f) d' (row.map (fun x => (f x.1, x.2))) := by
  have hm : ∀ x ∈ row, x.1 ∈ S := fun x hx => (h.mem x hx).1
  refine ⟨?_, ?_, ?_, ?_, ?_⟩
  · exact List.pairwise_map.mpr h.sorted
  · rw [List.map_map]
    have e : (Prod.fst ∘ fun x : Nat × F32 => (f x.1, x.2)) = f ∘ Prod.fst := rfl
    rw [e, ← List.map_map]
    refine List.Nodup.map_on ?_ h.nodup
    intro a ha b hb hab
    obtain ⟨x, hx, rfl⟩ := List.mem_map.mp ha
    obtain ⟨y, hy, rfl⟩ := List.mem_map.mp hb
    exact hf _ (hm x hx) _ (hm y hy) hab
  · intro x hx
    obtain ⟨y, hy, rfl⟩ := List.mem_map.mp hx
    exact ⟨Finset.mem_image_of_mem f (hm y hy), by dsimp only; rw [(h.mem y hy).2, hd _ (hm y hy)]⟩
  · rw [List.length_map, h.length, Finset.card_image_of_injOn (fun i hi j hj e => hf i hi j hj e)]
  · intro i hi hni x hx
    obtain ⟨j, hj, rfl⟩ := Finset.mem_image.mp hi
    obtain ⟨y, hy, rfl⟩ := List.mem_map.mp hx
    rw [← hd j hj]
    apply h.best j hj ?_ y hy
    intro hjm
    obtain ⟨z, hz, rfl⟩ := List.mem_map.mp hjm
    exact hni (List.mem_map.mpr ⟨(f z.1, z.2), List.mem_map.mpr ⟨z, hz, rfl⟩, rfl⟩)

theorem blit_full {buf b : Bytes} (h : buf.length = b.length) : blit buf 0 b = .ok b := by
  have := blit_at (pre := []) (mid := buf) (suf := []) (b := b) (off := 0) rfl h
  simpa using this

theorem remapLoop_ok (idx : List Nat) (k : Nat) (rest : Bytes) : ∀ (rows : List (List Nat)) (buf out : Bytes),
    (∀ r ∈ rows, r.length = k ∧ ∀ x ∈ r, x < idx.length ∧ x < 4294967296) → buf.length = 4 * k →
    remapLoop idx k rows.length ⟨le32s rows.flatten ++ rest, false, false⟩ buf out =
      .ok (⟨rest, false, false⟩, out ++ le32s (rows.map (fun r => r.map (fun x => idx.getD x 0))).flatten) := by
  intro rows
  induction rows with
  | nil => intro buf out _ _; simp [remapLoop, le32s]
  | cons r rows ih =>
    intro buf out h hb
    obtain ⟨hr, hx⟩ := h r (by simp)
    have e : le32s (r :: rows).flatten ++ rest = le32s r ++ (le32s rows.flatten ++ rest) := by simp [le32s]
    have hread := IStream.read_append (le32s r) (le32s rows.flatten ++ rest)
    rw [le32s_length, hr] at hread
    rw [List.length_cons, e]
    unfold remapLoop
    rw [hread]
    dsimp only
    rw [blit_full (by rw [hb, le32s_length, hr]), Res.ok_bind]
    have hw := un32s_le32s r (fun x hx' => (hx x hx').2) []
    rw [List.append_nil, hr] at hw
    rw [hw, mapM_eq_map (fun x => rd idx x) (fun x => idx.getD x 0) r (fun x hx' => by
      rw [rd_ok (hx x hx').1, List.getD_eq_getElem?_getD, List.getElem?_eq_getElem (hx x hx').1]; rfl), Res.ok_bind,
      ih _ _ (fun r' hr' => h r' (by simp [hr'])) (by rw [le32s_length, List.length_map, hr])]
    simp [le32s]

theorem copyDists_ok (k : Nat) : ∀ (rows : List (List Nat)) (buf out : Bytes), (∀ r ∈ rows, r.length = k) →
    buf.length = 4 * k →
    copyDists k rows.length ⟨le32s rows.flatten, false, false⟩ buf out = .ok (out ++ le32s rows.flatten) := by
  intro rows
  induction rows with
  | nil => intro buf out _ _; simp [copyDists, le32s]
  | cons r rows ih =>
    intro buf out h hb
    have hr := h r (by simp)
    have e : le32s (r :: rows).flatten = le32s r ++ le32s rows.flatten := by simp [le32s]
    have hread := IStream.read_append (le32s r) (le32s rows.flatten)
    rw [le32s_length, hr] at hread
    rw [List.length_cons, e]
    unfold copyDists
    rw [hread]
    dsimp only
    rw [blit_full (by rw [hb, le32s_length, hr]), Res.ok_bind]
    have hs : slice (le32s r) 0 (4 * k) = .ok (le32s r) := by
      unfold slice
      rw [if_pos (by rw [le32s_length, hr]; omega), List.drop_zero, List.take_of_length_le (by rw [le32s_length, hr])]
    rw [hs, Res.ok_bind, ih _ _ (fun r' hr' => h r' (by simp [hr'])) (by rw [le32s_length, hr])]
    simp

/-- Too small a buffer for the distances. -/
theorem copyDists_ub (k es : Nat) (hk : 0 < k) (he : es < 4) (r : List Nat) (rows : List (List Nat)) (hr : r.length = k)
    (out : Bytes) : copyDists k (rows.length + 1) ⟨le32s (r :: rows).flatten, false, false⟩ (List.replicate (es * k) 0) out =
      .error .ub := by
  have e : le32s (r :: rows).flatten = le32s r ++ le32s rows.flatten := by simp [le32s]
  have hread := IStream.read_append (le32s r) (le32s rows.flatten)
  rw [le32s_length, hr] at hread
  rw [e]
  unfold copyDists
  rw [hread]
  dsimp only
  have hl : (le32s r).length = 4 * k := by rw [le32s_length, hr]
  have hne : le32s r ≠ [] := by intro h; rw [h] at hl; simp at hl; omega
  unfold blit
  rw [if_neg hne, if_neg (by
    rw [List.length_replicate, hl, Nat.zero_add]
    have : es * k < 4 * k := Nat.mul_lt_mul_of_pos_right he hk
    omega)]
  rfl

/-- The hypotheses: the data set with the rows `rows` of `dim` numbers and one line of labels for each. -/
structure FtInput (P : FtPar) (dim : Nat) (rows : List Bytes) (map : Bytes) : Prop where
  part : 0 < P.partSize
  kpos : 0 < P.k
  nqLt : P.nq < 4294967296
  heap : ∀ p q, IsHeapPick (P.pick p q)
  sort : IsPairSort P.sortP
  num : ∀ q < P.nq, ∀ x ∈ rows, (P.dist q x).IsNum
  dimLt : dim < 4294967296
  rowLen : ∀ x ∈ rows, x.length = dim * P.es
  pts : rows.length < 2147483648
  size : rows.length * dim * P.es < 9223372036854775808
  lines : (pieces 10 map).length = rows.length
  j1 : P.j1.length = 4
  j2 : P.j2.length = 4

/-- The filtered file. -/
theorem filteredBase_ok {P : FtPar} {dim : Nat} {rows : List Bytes} {map : Bytes} (h : FtInput P dim rows map)
    (M : Finset Nat) (hM : M = Spec.matching ((pieces 44 P.filter).map stripEol) P.univ (pieces 10 map) rows.length) :
    ∃ L : List Nat, (∀ i, i ∈ L ↔ i ∈ M) ∧ L.Nodup ∧ L.length = M.card ∧ (∀ i ∈ L, i < rows.length) ∧ L.length ≤ rows.length ∧
      Spec.binFile dim rows = le 4 rows.length ++ (le 4 dim ++ rows.flatten) ∧
      readHeader (some (le 4 rows.length ++ (le 4 dim ++ rows.flatten))) P.j1 P.j2 =
        (rows.length, dim, ⟨rows.flatten, false, false⟩) ∧
      filteredBase P (some (Spec.binFile dim rows)) (some map) =
        (L, le 4 L.length ++ (le 4 dim ++ L.flatMap (rowAt rows))) ∧
      loadBin P.es (some (Spec.binFile dim rows)) P.j1 P.j2 P.mem = .ok (rows.length, dim, rows.flatten) := by
  obtain ⟨n, hn⟩ : ∃ n, n = rows.length := ⟨_, rfl⟩
  have hpts := h.pts
  -- the selected points
  obtain ⟨keep, hkeep⟩ : ∃ keep, keep = keepLine (commaTokens P.filter) P.univ := ⟨_, rfl⟩
  obtain ⟨L, hL⟩ : ∃ L, L = (List.range n).filter (fun j => keep ((pieces 10 map).getD j [])) := ⟨_, rfl⟩
  have hLM : ∀ i, i ∈ L ↔ i ∈ M := by
    intro i
    rw [hL, hM, Spec.matching, List.mem_filter, List.mem_range, Finset.mem_filter, Finset.mem_range, hkeep, keepLine_iff, hn]
    rfl
  have hnd : L.Nodup := by rw [hL]; exact List.Nodup.filter _ List.nodup_range
  have hfin : L.toFinset = M := by ext i; rw [List.mem_toFinset]; exact hLM i
  have hcard : L.length = M.card := by rw [← hfin, List.toFinset_card_of_nodup hnd]
  have hLn : ∀ i ∈ L, i < n := fun i hi => by
    rw [hL, List.mem_filter, List.mem_range] at hi; exact hi.1
  have hLlen : L.length ≤ n := by rw [hL]; exact (List.length_filter_le _ _).trans (by simp)
  have hfile : Spec.binFile dim rows = le 4 rows.length ++ (le 4 dim ++ rows.flatten) := by
    unfold Spec.binFile; rw [List.append_assoc]
  have hhead := readHeader_le (n := rows.length) (d := dim) (by omega) h.dimLt h.j1 h.j2 rows.flatten
  have hbase : filteredBase P (some (Spec.binFile dim rows)) (some map) =
      (L, le 4 L.length ++ (le 4 dim ++ L.flatMap (rowAt rows))) := by
    unfold filteredBase
    rw [hfile, hhead]
    dsimp only
    have := filterLoop_ok keep (dim * P.es) (pieces 10 map) rows h.lines h.rowLen (by omega) rows.length 0 [] (le 4 0 ++ le 4 dim)
      (List.replicate (dim * P.es) 0) (by omega) (by simp)
    rw [List.drop_zero, List.drop_zero, ← List.range_eq_range', ← hn, ← hL, List.nil_append] at this
    rw [Option.getD_some, ← hkeep, this]
    dsimp only
    have hu : u32 L.length = L.length := Nat.mod_eq_of_lt (by omega)
    rw [hu, List.append_assoc]
    unfold patchCount
    rw [List.drop_left' (le_length 4 0)]
  have hload : loadBin P.es (some (Spec.binFile dim rows)) P.j1 P.j2 P.mem = .ok (rows.length, dim, rows.flatten) := by
    rw [hfile]
    refine loadBin_ok (by omega) h.dimLt ?_ h.size h.j1 h.j2 P.mem
    rw [flatten_length_of h.rowLen, Nat.mul_assoc]
  exact ⟨L, hLM, hnd, hcard, fun i hi => by rw [← hn]; exact hLn i hi, by omega, hfile, hhead, hbase, hload⟩

/-- The state before the distances are copied. -/
theorem filteredTruth_steps {P : FtPar} {dim : Nat} {rows : List Bytes} {map : Bytes} (h : FtInput P dim rows map)
    (M : Finset Nat) (hM : M = Spec.matching ((pieces 44 P.filter).map stripEol) P.univ (pieces 10 map) rows.length)
    (hany : M.Nonempty) (kk : Nat) (hkk : kk = min (if M.card % P.partSize = 0 then P.partSize else M.card % P.partSize) P.k) :
    ∃ res : List (List (Nat × F32)), res.length = P.nq ∧ (∀ q row, res[q]? = some row → Spec.KNearest kk M (fun i => P.dist q (rowAt rows i)) row) ∧
      (∀ row ∈ res, row.length = kk) ∧ 0 < kk ∧
      filteredTruth P (some (Spec.binFile dim rows)) (some map) =
        copyDists kk P.nq ⟨le32s (res.map (fun r => r.map (fun x => x.2.bits.toNat))).flatten, false, false⟩
          (List.replicate (P.es * kk) 0)
          (le 4 P.nq ++ le 4 kk ++ le32s (res.map (fun r => r.map Prod.fst)).flatten) := by
  obtain ⟨L, hLM, hnd, hcard, hLn, hLlen, hfile, hhead, hbase, hload⟩ := filteredBase_ok h M hM
  have hpts := h.pts
  have hMpos : 0 < M.card := Finset.card_pos.mpr hany
  have hfin : L.toFinset = M := by ext i; rw [List.mem_toFinset]; exact hLM i
  -- the ground truth of the filtered file
  have hrow : ∀ i, i < L.length → ((le 4 L.length ++ (le 4 dim ++ L.flatMap (rowAt rows))).drop (8 + i * (dim * P.es))).take
      (dim * P.es) = rowAt rows (L.getD i 0) := by
    intro i hi
    have e : (le 4 L.length ++ (le 4 dim ++ L.flatMap (rowAt rows))).drop (8 + i * (dim * P.es)) =
        (L.flatMap (rowAt rows)).drop (i * (dim * P.es)) := by
      rw [← List.append_assoc, ← List.drop_drop, List.drop_left' (by simp)]
    rw [e]
    have hs := flatten_slice (rows := L.map (rowAt rows)) (rb := dim * P.es) (by
      intro x hx
      obtain ⟨j, hj, rfl⟩ := List.mem_map.mp hx
      exact rowAt_length h.rowLen (by have := hLn j hj; omega)) [] (i := i) (by simpa using hi)
    rw [List.append_nil, ← List.flatMap_def] at hs
    unfold slice at hs
    split at hs
    · injection hs with hs
      rw [hs]
      simp [rowAt, List.getD_eq_getElem?_getD, List.getElem?_eq_getElem hi]
    · exact absurd hs (by simp)
  obtain ⟨D, hD⟩ : ∃ D : Nat → Nat → F32, D = fun q i => if q < P.nq ∧ i < L.length then P.dist q (rowAt rows (L.getD i 0)) else F32.zero :=
    ⟨_, rfl⟩
  have hDr : ∀ q < P.nq, ∀ i < L.length, D q i = P.dist q (rowAt rows (L.getD i 0)) := by
    intro q hq i hi
    rw [hD]
    exact if_pos ⟨hq, hi⟩
  have hDn : ∀ q i, (D q i).IsNum := by
    intro q i
    rw [hD]
    show (if _ then _ else _ : F32).IsNum
    split
    · rename_i hc
      refine h.num q hc.1 _ ?_
      have hg : L.getD i 0 < rows.length := by
        refine hLn _ ?_
        simp [List.getD_eq_getElem?_getD, List.getElem?_eq_getElem hc.2]
      have he : rowAt rows (L.getD i 0) = rows[L.getD i 0] := by
        unfold rowAt
        rw [List.getD_eq_getElem?_getD (l := rows), List.getElem?_eq_getElem hg, Option.getD_some]
      rw [he]
      exact List.getElem_mem hg
    · decide
  obtain ⟨gt, hgt, hgl, hgs⟩ := C47_parts_partial true P.partSize L.length P.nq P.k h.part (by omega) (by omega) h.kpos
    D hDn P.pick h.heap P.sortP h.sort P.junk _ rfl (fun h => by simp at h)
  rw [groundTruth_congr (D' := fun q i => P.dist q (((le 4 L.length ++ (le 4 dim ++ L.flatMap (rowAt rows))).drop
    (8 + i * (dim * P.es))).take (dim * P.es))) (fun q hq i hi => by rw [hDr q hq i hi, hrow i hi])] at hgt
  rw [hcard, ← hkk] at hgt hgs
  have hkpos : 0 < kk := by
    have h1 := h.part
    have h2 := h.kpos
    rw [hkk]
    split <;> omega
  have hkM : kk ≤ M.card := by
    rw [hkk]
    split
    · rename_i h0
      have := Nat.div_add_mod M.card P.partSize
      have h1 : P.partSize ≤ M.card := Nat.le_of_dvd hMpos (Nat.dvd_of_mod_eq_zero h0)
      omega
    · have := Nat.mod_le M.card P.partSize
      omega
  have hglen : ∀ row ∈ gt, row.length = kk ∧ ∀ x ∈ row, x.1 < L.length := by
    intro row hr
    obtain ⟨q, hq, rfl⟩ := List.mem_iff_getElem.mp hr
    have := hgs q _ (List.getElem?_eq_getElem hq)
    refine ⟨by rw [this.length, Finset.card_range]; omega, fun x hx => ?_⟩
    have := Finset.mem_range.mp (this.mem x hx).1
    omega
  refine ⟨gt.map (fun r => r.map (fun x => (L.getD x.1 0, x.2))), by rw [List.length_map, hgl], ?_, ?_, hkpos, ?_⟩
  · intro q row hq
    rw [List.getElem?_map, Option.map_eq_some_iff] at hq
    obtain ⟨g, hg, rfl⟩ := hq
    have hk1 := KNearest_map (fun i => L.getD i 0) (hgs q g hg) (d' := fun i => P.dist q (rowAt rows i)) (by
      intro i hi j hj e
      have hi' := Finset.mem_range.mp hi
      have hj' := Finset.mem_range.mp hj
      simp only [List.getD_eq_getElem?_getD, List.getElem?_eq_getElem (show i < L.length by omega),
        List.getElem?_eq_getElem (show j < L.length by omega), Option.getD_some] at e
      exact (List.Nodup.getElem_inj_iff hnd).mp e) (by
      intro i hi
      have hi' := Finset.mem_range.mp hi
      rw [← hcard] at hi'
      have hql : q < P.nq := by
        rw [← hgl]
        by_contra hc
        rw [List.getElem?_eq_none (by omega)] at hg
        exact absurd hg (by simp)
      exact hDr q hql i hi')
    have himg : (Finset.range M.card).image (fun i => L.getD i 0) = M := by
      rw [← hcard, ← hfin]
      ext x
      rw [Finset.mem_image, List.mem_toFinset, List.mem_iff_getElem]
      constructor
      · rintro ⟨i, hi, rfl⟩
        have hi' := Finset.mem_range.mp hi
        exact ⟨i, hi', by simp [List.getD_eq_getElem?_getD, List.getElem?_eq_getElem hi']⟩
      · rintro ⟨i, hi, rfl⟩
        exact ⟨i, Finset.mem_range.mpr hi, by simp [List.getD_eq_getElem?_getD, List.getElem?_eq_getElem hi]⟩
    rw [himg] at hk1
    exact hk1
  · intro row hr
    obtain ⟨g, hg, rfl⟩ := List.mem_map.mp hr
    rw [List.length_map]
    exact (hglen g hg).1
  · unfold filteredTruth
    rw [hbase, hfile, hhead]
    dsimp only
    rw [← hfile, hload, Res.ok_bind]
    unfold auxMain
    have htake : unle ((le 4 L.length ++ (le 4 dim ++ L.flatMap (rowAt rows))).take 4) = L.length := by
      rw [List.take_left' (le_length 4 _), unle_le_of_lt (by omega)]
    rw [htake]
    dsimp only
    rw [hcard, hgt, Res.ok_bind]
    dsimp only
    rw [Res.ok_bind]
    unfold remapTruth truthFile
    have hq : gt.length < 4294967296 := by rw [hgl]; exact h.nqLt
    rw [List.append_assoc, List.append_assoc, readHeader_le hq (by omega) h.j1 h.j2]
    dsimp only
    have e1 : gt.flatMap (fun r => r.map Prod.fst) = (gt.map (fun r => r.map Prod.fst)).flatten := List.flatMap_def
    have e2 : gt.flatMap (fun r => r.map (fun x => x.2.bits.toNat)) = (gt.map (fun r => r.map (fun x => x.2.bits.toNat))).flatten :=
      List.flatMap_def
    have hrem := remapLoop_ok L kk (le32s (gt.flatMap (fun r => r.map (fun x => x.2.bits.toNat))))
      (gt.map (fun r => r.map Prod.fst)) (List.replicate (4 * kk) 0) (le 4 gt.length ++ le 4 kk) (by
        intro r hr
        obtain ⟨g, hg, rfl⟩ := List.mem_map.mp hr
        refine ⟨by rw [List.length_map]; exact (hglen g hg).1, ?_⟩
        intro x hx
        obtain ⟨y, hy, rfl⟩ := List.mem_map.mp hx
        have := (hglen g hg).2 y hy
        exact ⟨this, by omega⟩) (by simp)
    rw [List.length_map] at hrem
    rw [e1, hrem, Res.ok_bind]
    dsimp only
    rw [e2, hgl, List.map_map, List.map_map, List.map_map]
    simp only [Function.comp_def, List.map_map]

/-- **C70** for `float` vectors.  The output is a ground-truth file in which the neighbours of every query are the
`k'` nearest ones of the points with a matching label, by their numbers in the original data set, where `k'` is `k` or
the number of the matching points in the last part of the filtered file if that is smaller.  Missing: vectors of bytes,
see `C70_bytes_overflow`. -/
theorem C70_filtered_partial {P : FtPar} {dim : Nat} {rows : List Bytes} {map : Bytes} (h : FtInput P dim rows map)
    (hes : P.es = 4) (M : Finset Nat)
    (hM : M = Spec.matching ((pieces 44 P.filter).map stripEol) P.univ (pieces 10 map) rows.length) (hany : M.Nonempty) :
    ∃ (kk : Nat) (res : List (List (Nat × F32))), filteredTruth P (some (Spec.binFile dim rows)) (some map) = .ok (Spec.truthBytes kk res) ∧
      res.length = P.nq ∧ kk = min (Spec.lastPart P.partSize M.card) P.k ∧ (M.card ≤ P.partSize → kk = min M.card P.k) ∧
      0 < kk ∧ kk ≤ P.k ∧
      ∀ q row, res[q]? = some row → Spec.KNearest kk M (fun i => P.dist q (rowAt rows i)) row := by
  obtain ⟨kk, hkk⟩ : ∃ kk, kk = min (if M.card % P.partSize = 0 then P.partSize else M.card % P.partSize) P.k := ⟨_, rfl⟩
  obtain ⟨res, hl, hk, hlen, hpos, e⟩ := filteredTruth_steps h M hM hany kk hkk
  refine ⟨kk, res, ?_, hl, hkk, ?_, hpos, by rw [hkk]; exact Nat.min_le_right _ _, hk⟩
  · rw [e, hes]
    have := copyDists_ok kk (res.map (fun r => r.map (fun x => x.2.bits.toNat))) (List.replicate (4 * kk) 0)
      (le 4 P.nq ++ le 4 kk ++ le32s (res.map (fun r => r.map Prod.fst)).flatten) (by
        intro r hr
        obtain ⟨g, hg, rfl⟩ := List.mem_map.mp hr
        rw [List.length_map]
        exact hlen g hg) (by simp)
    rw [List.length_map, hl] at this
    rw [this]
    unfold Spec.truthBytes
    rw [hl, List.flatMap_def, List.flatMap_def]
    simp only [List.append_assoc]
  · intro hp
    have hMpos : 0 < M.card := by exact Finset.card_pos.mpr hany
    rw [hkk]
    split
    · rename_i h0
      have := Nat.le_of_dvd hMpos (Nat.dvd_of_mod_eq_zero h0)
      omega
    · rename_i h0
      rcases Nat.lt_or_ge M.card P.partSize with h1 | h1
      · rw [Nat.mod_eq_of_lt h1]
      · have : M.card = P.partSize := by omega
        rw [this, Nat.mod_self] at h0
        omega

/-- **C70 fails for vectors of bytes.** For signed and unsigned bytes and at least one query the program always writes
past the end of an array: it reads `float`s into an array of bytes (tests/compute_filtered_groundtruth.cpp:242-246). -/
theorem C70_bytes_overflow {P : FtPar} {dim : Nat} {rows : List Bytes} {map : Bytes} (h : FtInput P dim rows map)
    (hes : P.es = 1) (hq : 0 < P.nq)
    (hany : (Spec.matching ((pieces 44 P.filter).map stripEol) P.univ (pieces 10 map) rows.length).Nonempty) :
    filteredTruth P (some (Spec.binFile dim rows)) (some map) = .error .ub := by
  obtain ⟨res, hl, -, hlen, hpos, e⟩ := filteredTruth_steps h _ rfl hany _ rfl
  rw [e]
  cases res with
  | nil => simp at hl; omega
  | cons r res =>
    simp only [List.length_cons] at hl
    rw [← hl, List.map_cons]
    have := copyDists_ub _ P.es hpos (by omega) (r.map (fun x => x.2.bits.toNat)) (res.map (fun r => r.map (fun x => x.2.bits.toNat)))
      (by rw [List.length_map]; exact hlen r (by simp))
    rw [List.length_map] at this
    exact this _

theorem auxMain_empty (P : FtPar) (hk : 0 < P.k) (hq : 0 < P.nq) (hp : 0 < P.partSize) (hs : ∀ l, (P.sortP l).Perm l)
    (rb dim : Nat) : auxMain P.pick P.sortP P.partSize rb P.nq P.k P.dist P.junk (le 4 0 ++ le 4 dim) = .error .ub := by
  unfold auxMain groundTruth
  have h0 : unle ((le 4 0 ++ le 4 dim).take 4) = 0 := by
    rw [List.take_left' (le_length 4 _), unle_le_of_lt (by omega)]
  have hn : numParts P.partSize 0 = 0 := by simp [numParts]
  rw [h0]
  dsimp only
  rw [hn]
  unfold gtParts
  rw [Res.ok_bind]
  dsimp only
  obtain ⟨m, hm⟩ : ∃ m, P.nq = m + 1 := ⟨P.nq - 1, by omega⟩
  obtain ⟨c, hc⟩ : ∃ c, P.k = c + 1 := ⟨P.k - 1, by omega⟩
  have ht : gtTake P.sortP P.k [] = .error .ub := by
    unfold gtTake
    rw [hc, List.range_succ_eq_map, List.mapM_cons, rd_ub (by rw [(hs []).length_eq]; simp)]
    rfl
  rw [hm, List.replicate_succ, List.mapM_cons, ht]
  rfl

/-- **C70 (no matching point).** If no point matches, memory is read out of bounds. -/
theorem C70_no_match {P : FtPar} {dim : Nat} {rows : List Bytes} {map : Bytes} (h : FtInput P dim rows map)
    (hq : 0 < P.nq)
    (hnone : Spec.matching ((pieces 44 P.filter).map stripEol) P.univ (pieces 10 map) rows.length = ∅) :
    filteredTruth P (some (Spec.binFile dim rows)) (some map) = .error .ub := by
  obtain ⟨L, hLM, hnd, hcard, hLn, hLlen, hfile, hhead, hbase, hload⟩ := filteredBase_ok h _ rfl
  rw [hnone, Finset.card_empty] at hcard
  have hL := List.length_eq_zero_iff.mp hcard
  unfold filteredTruth
  rw [hbase, hfile, hhead]
  dsimp only
  rw [← hfile, hload, Res.ok_bind, hL]
  simp only [List.length_nil, List.flatMap_nil, List.append_nil]
  rw [auxMain_empty P h.kpos hq h.part h.sort.perm]
  rfl

/-- Two neighbours wanted among the points with label `b` or the universal label `u`. -/
def exFt (es : Nat) : FtPar where
  pick := fun _ _ _ => exPick
  sortP := exPairSort
  partSize := 100
  es := es
  nq := 1
  k := 2
  dist := fun _ x => if x.head? = some 1 then F32.one else F32.zero
  filter := ascii "b"
  univ := some (ascii "u")
  junk := fun _ _ => F32.zero
  j1 := [0, 0, 0, 0]
  j2 := [0, 0, 0, 0]
  mem := fun _ => 0

theorem exFt_input : FtInput (exFt 4) 1 [[1, 0, 0, 0], [0, 0, 0, 0], [1, 0, 0, 0], [0, 0, 0, 0]] (ascii "b\na\na,u\nc,b\n") :=
  ⟨by decide, by decide, by decide, fun _ _ => exPick_isHeapPick, exPairSort_isPairSort,
   fun q _ x _ => by unfold exFt; dsimp only; split <;> decide, by decide, by decide, by decide, by decide, by decide +kernel,
   rfl, rfl⟩

example := C70_filtered_partial exFt_input rfl _ rfl ⟨0, by decide +kernel⟩

/-- The result: the points 3 and then 0 or 2. -/
example : filteredTruth (exFt 4) (some (Spec.binFile 1 [[1, 0, 0, 0], [0, 0, 0, 0], [1, 0, 0, 0], [0, 0, 0, 0]]))
    (some (ascii "b\na\na,u\nc,b\n")) =
    .ok (le32s [1, 2, 3, 0] ++ le32s [0, 0x3f800000]) := by decide +kernel

example : filteredTruth (exFt 1) (some (Spec.binFile 1 [[1], [0], [1], [0]])) (some (ascii "b\na\na,u\nc,b\n")) =
    .error .ub := by decide +kernel

/-- **C70 (needed hypothesis).** With more lines of labels than points the program names points that do not exist. -/
theorem C70_more_lines : filteredTruth (exFt 4) (some (Spec.binFile 1 [[1, 0, 0, 0]])) (some (ascii "b\na\nb\n")) =
    .ok (le32s [1, 2, 0, 2] ++ le32s [0x3f800000, 0x3f800000]) := by decide +kernel

/-! ## The theorems applied to the examples -/

theorem exFt_input1 : FtInput (exFt 1) 1 [[1], [0], [1], [0]] (ascii "b\na\na,u\nc,b\n") where
  part := by decide
  kpos := by decide
  nqLt := by decide
  heap := fun _ _ => exPick_isHeapPick
  sort := exPairSort_isPairSort
  num := by decide
  dimLt := by decide
  rowLen := by decide
  pts := by decide
  size := by decide
  lines := by decide +kernel
  j1 := rfl
  j2 := rfl

example := C70_bytes_overflow exFt_input1 rfl (by decide) ⟨0, by decide +kernel⟩

/-- No point has the label `x`. -/
example := C70_no_match (P := { exFt 4 with filter := ascii "x", univ := none }) { exFt_input with }
  (by decide) (by decide +kernel)

end Grann
