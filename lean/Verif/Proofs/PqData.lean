import Verif.Model.PqData
import Verif.Proofs.Shard
/-!
# Compression of vectors
-/

namespace Grann

/-- The coordinate positions of chunk `i`: from, to. -/
def PqTab.lo (t : PqTab) (i : Nat) : Nat := t.offs.getD i 0
def PqTab.hi (t : PqTab) (i : Nat) : Nat := t.offs.getD (i + 1) 0

/-- The files fit together. -/
structure PqTab.Good (P : PqPar) (dim : Nat) (t : PqTab) : Prop where
  piv : t.piv.length = P.nc * dim
  cent : t.cent.length = dim
  rearr : t.rearr.length = dim
  rearrLt : ∀ r ∈ t.rearr, r < dim
  offs : t.offs.length = P.chunks + 1
  mono : ∀ i, i < P.chunks → t.lo i ≤ t.hi i
  le : ∀ i, i < P.chunks → t.hi i ≤ dim

/-- The vector with the centroid subtracted and the coordinates rearranged. -/
def pqVecOf (P : PqPar) (t : PqTab) (x : List F32) : List F32 :=
  t.rearr.map (fun r => P.sub (x.getD r F32.zero) (t.cent.getD r F32.zero))

/-- Chunk `i` of a vector. -/
def PqTab.part (t : PqTab) (i : Nat) (v : List F32) : List F32 := (v.take (t.hi i)).drop (t.lo i)

/-- Row `j` of the centres. -/
def PqTab.row (t : PqTab) (dim j : Nat) : List F32 := (t.piv.drop (j * dim)).take dim

/-- The distances that decide the code of chunk `i` of the vector `x`. -/
def pqDist (P : PqPar) (dim : Nat) (t : PqTab) (x : Bytes) (i : Nat) : List F32 :=
  P.dist ((List.range P.nc).map (fun j => t.part i (t.row dim j))) (t.part i (pqVecOf P t (P.conv x)))

/-- The code. -/
def pqCodeOf (P : PqPar) (dim : Nat) (t : PqTab) (x : Bytes) (i : Nat) : Nat :=
  if t.hi i = t.lo i then 0 else (pick 1 P.pops (pqDist P dim t x i)).headD 0

/-- What the distances of a chunk have to satisfy: one per centre, no NaN, one below `FLT_MAX`. -/
def PqGood (P : PqPar) (dim : Nat) (t : PqTab) (x : Bytes) : Prop :=
  (P.conv x).length = dim ∧ ∀ i, i < P.chunks → t.lo i < t.hi i →
    (pqDist P dim t x i).length = P.nc ∧ (∀ d ∈ pqDist P dim t x i, d.IsNum) ∧
    ∃ d ∈ pqDist P dim t x i, d.lt F32.fmax = true

theorem rd_getD {α : Type} (a : List α) (i : Nat) (d : α) (h : i < a.length) : rd a i = .ok (a.getD i d) := by
  rw [rd_ok h]; simp [List.getD, List.getElem?_eq_getElem h]

theorem pqVec_ok {P : PqPar} {dim : Nat} {t : PqTab} (ht : t.Good P dim) {x : List F32} (hx : x.length = dim) :
    pqVec P dim t x = .ok (pqVecOf P t x) := by
  unfold pqVec
  rw [mapM_eq_map _ (fun d => P.sub (x.getD d F32.zero) (t.cent.getD d F32.zero)) _ (fun d hd => by
    rw [List.mem_range] at hd
    rw [rd_getD x d F32.zero (by omega), Res.ok_bind, rd_getD t.cent d F32.zero (by rw [ht.cent]; exact hd), Res.ok_bind]),
    Res.ok_bind]
  rw [mapM_eq_map _ (fun d => P.sub (x.getD (t.rearr.getD d 0) F32.zero) (t.cent.getD (t.rearr.getD d 0) F32.zero)) _
    (fun d hd => by
      rw [List.mem_range] at hd
      have hd' : d < t.rearr.length := by rw [ht.rearr]; exact hd
      rw [rd_getD t.rearr d 0 hd', Res.ok_bind]
      have hr : t.rearr.getD d 0 < dim := by
        have : t.rearr.getD d 0 = t.rearr[d] := by simp [List.getD, List.getElem?_eq_getElem hd']
        rw [this]; exact ht.rearrLt _ (List.getElem_mem hd')
      exact rd_map_range _ hr)]
  congr 1
  unfold pqVecOf
  apply List.ext_getElem
  · simp [ht.rearr]
  · intro i h1 h2
    have hi : i < t.rearr.length := by simpa using h2
    simp [List.getElem?_eq_getElem hi]

theorem pqVecOf_length {P : PqPar} {dim : Nat} {t : PqTab} (ht : t.Good P dim) (x : List F32) :
    (pqVecOf P t x).length = dim := by unfold pqVecOf; simp [ht.rearr]

theorem cell_inj {c j i j' i' : Nat} (hi : i < c) (hi' : i' < c) (h : j * c + i = j' * c + i') : j = j' ∧ i = i' := by
  have hc : 0 < c := by omega
  have h1 : (j * c + i) / c = j := by
    rw [Nat.mul_comm, Nat.mul_add_div hc, Nat.div_eq_of_lt hi]; omega
  have h2 : (j' * c + i') / c = j' := by
    rw [Nat.mul_comm, Nat.mul_add_div hc, Nat.div_eq_of_lt hi']; omega
  have : j = j' := by rw [← h1, ← h2, h]
  subst this
  exact ⟨rfl, by omega⟩

theorem pqStore_ok (chunks i : Nat) (hi : i < chunks) (cl : List Nat) : ∀ (todo j : Nat) (comp : List Nat),
    j + todo ≤ cl.length → (j + todo) * chunks ≤ comp.length →
    ∃ comp', pqStore chunks i cl todo j comp = .ok comp' ∧ comp'.length = comp.length ∧
      ∀ j' i', i' < chunks → comp'[j' * chunks + i']? =
        if i' = i ∧ j ≤ j' ∧ j' < j + todo then cl[j']? else comp[j' * chunks + i']? := by
  intro todo
  induction todo with
  | zero =>
    intro j comp _ _
    refine ⟨comp, rfl, rfl, fun j' i' _ => ?_⟩
    rw [if_neg (by omega)]
  | succ todo ih =>
    intro j comp h1 h2
    have hlt : j * chunks + i < comp.length := by
      have : (j + 1) * chunks ≤ (j + (todo + 1)) * chunks := Nat.mul_le_mul_right _ (by omega)
      rw [Nat.succ_mul] at this
      omega
    obtain ⟨comp', e, hl, hc⟩ := ih (j + 1) (comp.set (j * chunks + i) cl[j]) (by omega) (by
      rw [List.length_set, show j + 1 + todo = j + (todo + 1) by omega]; exact h2)
    refine ⟨comp', ?_, by rw [hl, List.length_set], ?_⟩
    · unfold pqStore
      rw [rd_ok (by omega), Res.ok_bind, wr_ok hlt, Res.ok_bind]
      exact e
    · intro j' i' hi'
      rw [hc j' i' hi']
      by_cases hcell : i' = i ∧ j' = j
      · obtain ⟨rfl, rfl⟩ := hcell
        rw [if_neg (by omega), if_pos (by omega), List.getElem?_set_self hlt, List.getElem?_eq_getElem (by omega)]
      · have hne : j * chunks + i ≠ j' * chunks + i' := fun h => by
          obtain ⟨a, b⟩ := cell_inj hi hi' h
          exact hcell ⟨b.symm, a.symm⟩
        rw [List.getElem?_set_ne hne]
        by_cases hcase : i' = i ∧ j + 1 ≤ j' ∧ j' < j + 1 + todo
        · rw [if_pos hcase, if_pos (by omega)]
        · rw [if_neg hcase, if_neg (by omega)]

/-- `comp` holds the codes of the first `i` chunks of the vectors `xs`, and zeros for empty chunks. -/
structure PqComp (P : PqPar) (dim bs : Nat) (t : PqTab) (xs : List Bytes) (i : Nat) (comp : List Nat) : Prop where
  len : comp.length = bs * P.chunks
  code : ∀ j x i', xs[j]? = some x → i' < i → comp[j * P.chunks + i']? = some (pqCodeOf P dim t x i')
  empty : ∀ j i', j < bs → i' < P.chunks → t.hi i' = t.lo i' → comp[j * P.chunks + i']? = some 0

theorem pick_headD {P : PqPar} {row : List F32} (h : (pick 1 P.pops row).length = 1) :
    pick 1 P.pops row = [(pick 1 P.pops row).headD 0] := by
  match hp : pick 1 P.pops row with
  | [] => rw [hp] at h; simp at h
  | [a] => rfl
  | a :: b :: l => rw [hp] at h; simp at h

theorem pqGood_pick {P : PqPar} {dim : Nat} {t : PqTab} (hnc : 1 ≤ P.nc) {x : Bytes} (hx : PqGood P dim t x)
    {i : Nat} (hi : i < P.chunks) (hlt : t.lo i < t.hi i) (hpops : IsPopOrder P.pops) :
    (pick 1 P.pops (pqDist P dim t x i)).length = 1 ∧ ∀ c ∈ pick 1 P.pops (pqDist P dim t x i), c < P.nc := by
  obtain ⟨h1, h2, h3⟩ := hx.2 i hi hlt
  have := pick_spec hpops h1 hnc h2 (fun _ => h3)
  exact ⟨this.1, this.2.1⟩

theorem flatMap_singletons {α β : Type} (f : α → List β) (g : α → β) : ∀ (xs : List α), (∀ x ∈ xs, f x = [g x]) →
    xs.flatMap f = xs.map g := by
  intro xs
  induction xs with
  | nil => intro _; rfl
  | cons x xs ih =>
    intro h
    rw [List.flatMap_cons, h x (by simp), List.map_cons, ih (fun y hy => h y (by simp [hy]))]; rfl

theorem pqChunk_ok {P : PqPar} {dim bs : Nat} {t : PqTab} (ht : t.Good P dim) (hpops : IsPopOrder P.pops)
    (hnc : 1 ≤ P.nc) (hcc : 1 ≤ P.ccBlk) (hdim : dim < 4294967296)
    {xs : List Bytes} (h1 : 1 ≤ xs.length) (hbs : xs.length ≤ bs) (hxs : ∀ x ∈ xs, PqGood P dim t x)
    {i : Nat} (hi : i < P.chunks) {comp : List Nat} (hc : PqComp P dim bs t xs i comp) :
    ∃ comp', pqChunk P dim t (xs.map (fun x => pqVecOf P t (P.conv x))) i comp = .ok comp' ∧
      PqComp P dim bs t xs (i + 1) comp' := by
  have hm := ht.mono i hi
  have hle := ht.le i hi
  unfold pqChunk
  rw [rd_getD t.offs (i + 1) 0 (by rw [ht.offs]; omega), Res.ok_bind, rd_getD t.offs i 0 (by rw [ht.offs]; omega),
    Res.ok_bind]
  have esz : u32 (t.offs.getD (i + 1) 0 + 4294967296 - t.offs.getD i 0) = t.hi i - t.lo i := by
    unfold PqTab.lo at hm; unfold PqTab.hi at hm hle
    unfold u32 PqTab.hi PqTab.lo
    omega
  rw [esz]
  change ∃ comp', (if t.hi i - t.lo i = 0 then _ else _) = _ ∧ _
  by_cases h0 : t.hi i = t.lo i
  · rw [if_pos (by omega)]
    refine ⟨comp, rfl, hc.len, ?_, hc.empty⟩
    intro j x i' hj hi'
    by_cases he : i' = i
    · subst he
      have hjl := (List.getElem?_eq_some_iff.mp hj).1
      rw [hc.empty j i' (by omega) hi h0]
      unfold pqCodeOf
      rw [if_pos h0]
    · exact hc.code j x i' hj (by omega)
  · rw [if_neg (by omega)]
    have hlt : t.lo i < t.hi i := by omega
    have e1 : (xs.map (fun x => pqVecOf P t (P.conv x))).mapM (fun x => rdList x (t.offs.getD i 0) (t.hi i - t.lo i)) =
        .ok ((xs.map (fun x => pqVecOf P t (P.conv x))).map (t.part i)) := by
      apply mapM_eq_map
      intro v hv
      obtain ⟨x, _, rfl⟩ := List.mem_map.mp hv
      have hl := pqVecOf_length ht (P.conv x)
      change rdList _ (t.lo i) _ = _
      rw [rdList_ok _ _ _ (by rw [hl]; omega)]
      unfold PqTab.part
      rw [List.drop_take]
    have e2 : (List.range P.nc).mapM (fun j => rdList t.piv (j * dim + t.offs.getD i 0) (t.hi i - t.lo i)) =
        .ok ((List.range P.nc).map (fun j => t.part i (t.row dim j))) := by
      apply mapM_eq_map
      intro j hj
      rw [List.mem_range] at hj
      have hjd : (j + 1) * dim ≤ P.nc * dim := Nat.mul_le_mul_right _ hj
      rw [Nat.succ_mul] at hjd
      change rdList _ (j * dim + t.lo i) _ = _
      rw [rdList_ok _ _ _ (by rw [ht.piv]; omega)]
      unfold PqTab.part PqTab.row
      rw [List.take_take, Nat.min_eq_left hle, List.drop_take, List.drop_drop]
    rw [e1, Res.ok_bind, e2, Res.ok_bind, List.map_map, List.map_map]
    have hcomp : ((P.dist ((List.range P.nc).map (fun j => t.part i (t.row dim j))) ∘ t.part i) ∘
        fun x => pqVecOf P t (P.conv x)) = fun x => pqDist P dim t x i := rfl
    rw [hcomp, List.length_map]
    have hall : ∀ row ∈ xs.map (fun x => pqDist P dim t x i),
        (pick 1 P.pops row).length = 1 ∧ ∀ c ∈ pick 1 P.pops row, c < P.nc := by
      intro row hr
      obtain ⟨x, hx, rfl⟩ := List.mem_map.mp hr
      exact pqGood_pick hnc (hxs x hx) hi hlt hpops
    obtain ⟨inv', e, h2, _⟩ := closestCenters_spec (maxBlk := P.ccBlk) (nc := P.nc) (k := 1) (pops := P.pops)
      (sched := fun _ l => l) (fun _ l => List.Perm.refl l)
      (rows := xs.map (fun x => pqDist P dim t x i)) (out0 := List.replicate xs.length 0) (inv0 := none)
      hcc (by simpa using h1) hnc (fun r hr => (hall r hr).1) (fun r hr => (hall r hr).2) (by intro _ h; cases h)
      (by simp)
    rw [e, Res.ok_bind]
    dsimp only
    have hcl : (xs.map (fun x => pqDist P dim t x i)).flatMap (pick 1 P.pops) ++
        List.drop ((xs.map (fun x => pqDist P dim t x i)).length * 1) (List.replicate xs.length 0) =
        xs.map (fun x => pqCodeOf P dim t x i) := by
      rw [List.drop_eq_nil_of_le (by simp), List.append_nil, List.flatMap_map]
      have : ∀ x ∈ xs, pick 1 P.pops (pqDist P dim t x i) = [pqCodeOf P dim t x i] := by
        intro x hx
        unfold pqCodeOf
        rw [if_neg h0]
        exact pick_headD (hall _ (List.mem_map.mpr ⟨x, hx, rfl⟩)).1
      exact flatMap_singletons _ _ xs this
    rw [hcl]
    obtain ⟨comp', e3, hl', hcells⟩ := pqStore_ok P.chunks i hi (xs.map (fun x => pqCodeOf P dim t x i)) xs.length 0 comp
      (by simp) (by rw [hc.len, Nat.zero_add]; exact Nat.mul_le_mul_right _ hbs)
    refine ⟨comp', e3, by rw [hl', hc.len], ?_, ?_⟩
    · intro j x i' hj hi'
      have hjl := (List.getElem?_eq_some_iff.mp hj).1
      rw [hcells j i' (by omega)]
      by_cases he : i' = i
      · subst he
        rw [if_pos (by omega), List.getElem?_map, hj]; rfl
      · rw [if_neg (by omega)]
        exact hc.code j x i' hj (by omega)
    · intro j i' hj hi' he
      rw [hcells j i' hi', if_neg]
      · exact hc.empty j i' hj hi' he
      · rintro ⟨rfl, _⟩; exact h0 he

theorem pqChunkLoop_ok {P : PqPar} {dim bs : Nat} {t : PqTab} (ht : t.Good P dim) (hpops : IsPopOrder P.pops)
    (hnc : 1 ≤ P.nc) (hcc : 1 ≤ P.ccBlk) (hdim : dim < 4294967296)
    {xs : List Bytes} (h1 : 1 ≤ xs.length) (hbs : xs.length ≤ bs) (hxs : ∀ x ∈ xs, PqGood P dim t x) :
    ∀ (todo i : Nat) (comp : List Nat), i + todo = P.chunks → PqComp P dim bs t xs i comp →
    ∃ comp', pqChunkLoop P dim t (xs.map (fun x => pqVecOf P t (P.conv x))) todo i comp = .ok comp' ∧
      PqComp P dim bs t xs P.chunks comp' := by
  intro todo
  induction todo with
  | zero => intro i comp h hc; have : i = P.chunks := by omega
            subst this; exact ⟨comp, rfl, hc⟩
  | succ todo ih =>
    intro i comp h hc
    obtain ⟨c1, e1, hc1⟩ := pqChunk_ok ht hpops hnc hcc hdim h1 hbs hxs (i := i) (by omega) hc
    obtain ⟨c2, e2, hc2⟩ := ih (i + 1) c1 (by omega) hc1
    refine ⟨c2, ?_, hc2⟩
    unfold pqChunkLoop
    rw [e1, Res.ok_bind]
    exact e2

theorem take_cells {α : Type} (chunks : Nat) (f : Nat → Nat → α) : ∀ (n : Nat) (l : List α),
    (∀ j i, j < n → i < chunks → l[j * chunks + i]? = some (f j i)) → n * chunks ≤ l.length →
    l.take (n * chunks) = (List.range n).flatMap (fun j => (List.range chunks).map (f j)) := by
  intro n
  induction n with
  | zero => intro l _ _; simp
  | succ n ih =>
    intro l h hl
    rw [Nat.succ_mul] at hl ⊢
    rw [List.take_add, ih l (fun j i hj hi => h j i (by omega) hi) (by omega), List.range_succ, List.flatMap_append]
    congr 1
    rw [List.flatMap_cons, List.flatMap_nil, List.append_nil]
    apply List.ext_getElem?
    intro i
    rw [List.getElem?_take, List.getElem?_map, List.getElem?_drop]
    by_cases hi : i < chunks
    · rw [if_pos hi, h n i (by omega) hi, List.getElem?_range hi]; rfl
    · rw [if_neg hi, List.getElem?_eq_none (by simp; omega)]; rfl

/-- What is written for the vectors `from, ..., from + cnt - 1`. -/
def pqOut (P : PqPar) (dim : Nat) (t : PqTab) (g : Nat → Bytes) (from' cnt : Nat) : Bytes :=
  (List.range' from' cnt).flatMap (fun p => (List.range P.chunks).flatMap (fun i =>
    pqCode P.nc (pqCodeOf P dim t (g p) i)))

theorem pqBlocks_ok {P : PqPar} {dim : Nat} {t : PqTab} (ht : t.Good P dim) (hpops : IsPopOrder P.pops)
    (hnc : 1 ≤ P.nc) (hcc : 1 ≤ P.ccBlk) (hdim : dim < 4294967296) (g : Nat → Bytes) (f : Bytes) (npts bs : Nat)
    (hbs : 1 ≤ bs) (hg : ∀ k, k < npts → (g k).length = dim * P.es) (hgood : ∀ k, k < npts → PqGood P dim t (g k)) :
    ∀ (todo b : Nat) (r : CReader) (buf : Bytes) (comp : List Nat) (out : Bytes), npts ≤ (b + todo) * bs →
    (0 < todo → (b + todo - 1) * bs < npts) →
    r.At f ((List.range' (b * bs) (npts - b * bs)).map g).flatten → buf.length = bs * (dim * P.es) →
    PqComp P dim bs t [] P.chunks comp →
    pqBlocks P dim npts bs t todo b r buf comp out = .ok (out ++ pqOut P dim t g (b * bs) (npts - b * bs)) := by
  intro todo
  induction todo with
  | zero =>
    intro b r buf comp out h1 _ _ _ _
    rw [Nat.add_zero] at h1
    rw [Nat.sub_eq_zero_of_le h1]
    simp [pqBlocks, pqOut]
  | succ todo ih =>
    intro b r buf comp out h1 h2 hr hbuf hq
    have hstart : b * bs < npts := by
      have := h2 (by omega)
      have hm : b * bs ≤ (b + (todo + 1) - 1) * bs := Nat.mul_le_mul_right _ (by omega)
      omega
    have hsucc : (b + 1) * bs = b * bs + bs := Nat.succ_mul _ _
    obtain ⟨cur, hcur⟩ : ∃ cur, cur = min ((b + 1) * bs) npts - b * bs := ⟨_, rfl⟩
    obtain ⟨left, hleft⟩ : ∃ left, left = npts - b * bs - cur := ⟨_, rfl⟩
    have hc1 : 1 ≤ cur := by omega
    have hcb : cur ≤ bs := by omega
    have hcl : npts - b * bs = cur + left := by omega
    rw [hcl] at hr
    obtain ⟨r', e, hr', hlen, hsl⟩ := read_block (buf := buf) hr (rb := dim * P.es) (fun k _ hk => hg k (by omega)) (by
      rw [hbuf]; exact Nat.mul_le_mul_right _ hcb)
    unfold pqBlocks
    dsimp only
    rw [← hcur, e, Res.ok_bind]
    dsimp only
    rw [hlen, mapM_eq_map _ (fun p => g (b * bs + p)) _ (fun p hp => hsl _ p (List.mem_range.mp hp)), Res.ok_bind]
    obtain ⟨xs, hxs⟩ : ∃ xs, xs = (List.range cur).map (fun p => g (b * bs + p)) := ⟨_, rfl⟩
    have hxl : xs.length = cur := by rw [hxs]; simp
    have hxg : ∀ x ∈ xs, PqGood P dim t x := by
      intro x hx
      rw [hxs] at hx
      obtain ⟨p, hp, rfl⟩ := List.mem_map.mp hx
      rw [List.mem_range] at hp
      exact hgood _ (by omega)
    rw [← hxs, mapM_eq_map _ (fun x => pqVecOf P t (P.conv x)) _ (fun x hx => pqVec_ok ht (hxg x hx).1), Res.ok_bind]
    obtain ⟨comp', e2, hq'⟩ := pqChunkLoop_ok ht hpops hnc hcc hdim (by omega) (by omega) hxg P.chunks 0 comp (by omega)
      ⟨hq.len, fun j x i' _ h => by omega, hq.empty⟩
    have hcm : cur * P.chunks ≤ bs * P.chunks := Nat.mul_le_mul_right _ hcb
    rw [e2, Res.ok_bind, rdList_ok _ _ _ (by rw [hq'.len]; omega), Res.ok_bind, List.drop_zero]
    rw [take_cells P.chunks (fun j i => pqCodeOf P dim t (g (b * bs + j)) i) cur comp' (fun j i hj hi => by
      apply hq'.code j _ i _ hi
      rw [hxs, List.getElem?_map, List.getElem?_range hj]; rfl) (by rw [hq'.len]; exact hcm)]
    have hout : ((List.range cur).flatMap (fun j => (List.range P.chunks).map
        (fun i => pqCodeOf P dim t (g (b * bs + j)) i))).flatMap (pqCode P.nc) = pqOut P dim t g (b * bs) cur := by
      unfold pqOut
      rw [List.flatMap_assoc, List.range'_eq_map_range, List.flatMap_map]
      congr 1
      funext j
      rw [List.flatMap_map]
    rw [hout]
    have hsplit : pqOut P dim t g (b * bs) (npts - b * bs) =
        pqOut P dim t g (b * bs) cur ++ pqOut P dim t g (b * bs + cur) left := by
      rw [hcl]
      unfold pqOut
      rw [← List.range'_append_1, List.flatMap_append]
    rw [hsplit, ← List.append_assoc]
    by_cases h0 : todo = 0
    · subst h0
      have : left = 0 := by
        rw [show b + (0 + 1) = b + 1 by omega] at h1; omega
      subst this
      simp [pqBlocks, pqOut]
    · have hle : (b + 1) * bs ≤ npts := by
        have := h2 (by omega)
        have hm : (b + 1) * bs ≤ (b + (todo + 1) - 1) * bs := Nat.mul_le_mul_right _ (by omega)
        omega
      have e1 : b * bs + cur = (b + 1) * bs := by omega
      rw [e1, show left = npts - (b + 1) * bs by omega]
      apply ih (b + 1) r'
      · rw [show b + 1 + todo = b + (todo + 1) by omega]; exact h1
      · intro _
        rw [show b + 1 + todo - 1 = b + (todo + 1) - 1 by omega]; exact h2 (by omega)
      · rw [← e1, show npts - (b * bs + cur) = left by omega]; exact hr'
      · rw [List.length_append, hlen, List.length_drop, hbuf]
        have : cur * (dim * P.es) ≤ bs * (dim * P.es) := Nat.mul_le_mul_right _ hcb
        omega
      · exact ⟨hq'.len, fun j x i' h _ => by simp at h, hq'.empty⟩

/-- The whole function, when the tables are known. -/
theorem pqData_ok {P : PqPar} {dim : Nat} {t : PqTab} (ht : t.Good P dim) (hpops : IsPopOrder P.pops)
    (hnc : 1 ≤ P.nc) (hcc : 1 ≤ P.ccBlk) (hblk : 1 ≤ P.blk) (hdim : dim < 4294967296) (rows : List Bytes)
    (F : PqFiles) (j : TruthJunk) (j1 j2 j3 j4 : LoadJunk) (hl : pqLoad P dim F j1 j2 j3 j4 = .ok t)
    (hj1 : j.npts.length = 4) (hj2 : j.dim.length = 4) (h0 : 1 ≤ rows.length) (hn : rows.length < 4294967296)
    (hrow : ∀ x ∈ rows, x.length = dim * P.es) (hgood : ∀ x ∈ rows, PqGood P dim t x)
    (hf : (Spec.binFile dim rows).length < 9223372036854775808) :
    pqData P (some (Spec.binFile dim rows)) F j j1 j2 j3 j4 =
      .ok (le 4 rows.length ++ le 4 P.chunks ++ pqOut P dim t (rowAt rows) 0 rows.length) := by
  have hmem : ∀ p, p < rows.length → rowAt rows p ∈ rows := by
    intro p hp
    unfold rowAt
    rw [List.getD_eq_getElem?_getD, List.getElem?_eq_getElem hp]
    exact List.getElem_mem hp
  obtain ⟨r1, r2, e1, e2, hr⟩ := CReader.open_header rows.length dim rows.flatten hn hdim hf truthBlk j.cache
    j.npts j.dim hj1 hj2
  unfold pqData
  dsimp only
  unfold Spec.binFile at hf ⊢
  rw [e1, Res.ok_bind]
  dsimp only
  rw [e2, Res.ok_bind]
  dsimp only
  rw [hl, Res.ok_bind]
  obtain ⟨bs, hbs⟩ : ∃ bs, bs = (if rows.length ≤ P.blk then rows.length else P.blk) := ⟨_, rfl⟩
  have hbs1 : 1 ≤ bs := by rw [hbs]; split <;> omega
  rw [← hbs, if_neg (by omega)]
  obtain ⟨n1, n2⟩ := numBlocks rows.length bs h0 hbs1
  have := pqBlocks_ok ht hpops hnc hcc hdim (rowAt rows) _ rows.length bs hbs1
    (fun k hk => rowAt_length hrow hk) (fun k hk => hgood _ (hmem k hk)) _ 0 r2
    (List.replicate (bs * (dim * P.es)) 0) (List.replicate (bs * P.chunks) 0) (le 4 rows.length ++ le 4 P.chunks)
    (by rw [Nat.zero_add]; exact n1)
    (fun _ => by rw [Nat.zero_add]; exact n2) (by
      rw [Nat.zero_mul, Nat.sub_zero, ← List.range_eq_range', ← rows_eq_map]; exact hr) (by simp)
    ⟨by simp, fun j x i' h _ => by simp at h, fun j i' hj hi' _ => by
      rw [List.getElem?_replicate, if_pos]
      have : (j + 1) * P.chunks ≤ bs * P.chunks := Nat.mul_le_mul_right _ hj
      rw [Nat.succ_mul] at this
      omega⟩
  rw [Nat.zero_mul, Nat.sub_zero] at this
  exact this

end Grann
