import Verif.Proofs.PqData
import Verif.Props.Pq
import Verif.Props.Shard
import Mathlib.Algebra.Order.BigOperators.Group.Finset
import Mathlib.Algebra.Order.Field.Rat
/-!
# C67: codes of product quantisation
-/

namespace Grann

namespace Spec

/-- The coordinates `a, ..., b - 1` of a vector. -/
def coords (a b : Nat) (v : List F32) : List F32 := (v.take b).drop a

/-- A vector minus the centroid, with coordinate `perm[d]` at position `d`. -/
def centred (sub : F32 → F32 → F32) (cent : List F32) (perm : List Nat) (v : List F32) : List F32 :=
  perm.map (fun r => sub (v.getD r F32.zero) (cent.getD r F32.zero))

/-- A file with a matrix of numbers of four bytes. -/
def wordFile (r c : Nat) (l : List Nat) : Bytes := le 4 r ++ (le 4 c ++ le32s l)

/-- A file with a matrix of `float`s. -/
def floatFile (r c : Nat) (l : List F32) : Bytes := wordFile r c (l.map (fun x => x.bits.toNat))

/-- A code in the file: one byte if there are at most 256 centres, four bytes otherwise. -/
def codeBytes (nc c : Nat) : Bytes := if nc ≤ 256 then [UInt8.ofNat c] else le 4 c

/-- The file with the codes of `n` points. -/
def codeFile (nc chunks n : Nat) (code : Nat → Nat → Nat) : Bytes :=
  le 4 n ++ le 4 chunks ++ (List.range n).flatMap (fun p => (List.range chunks).flatMap (fun i => codeBytes nc (code p i)))

end Spec

/-- The files as they are written for centres `piv`, a centroid, a rearrangement and chunk offsets. -/
def pqFilesOf (P : PqPar) (dim : Nat) (piv : List (List F32)) (cent : List F32) (perm offs : List Nat) : PqFiles :=
  ⟨some (Spec.floatFile P.nc dim piv.flatten), some (Spec.floatFile dim 1 cent), some (Spec.wordFile dim 1 perm),
    some (Spec.wordFile (P.chunks + 1) 1 offs)⟩

/-- The input of the compression is consistent. -/
structure PqInput (P : PqPar) (dim : Nat) (piv : List (List F32)) (cent : List F32) (perm offs : List Nat)
    (rows : List Bytes) : Prop where
  nc1 : 1 ≤ P.nc
  nc : P.nc < 4294967296
  chunks : P.chunks + 1 < 4294967296
  dimLt : dim < 4294967296
  size : P.nc * dim * 4 < 9223372036854775808
  pivLen : piv.length = P.nc
  pivRow : ∀ v ∈ piv, v.length = dim
  centLen : cent.length = dim
  permLen : perm.length = dim
  permLt : ∀ r ∈ perm, r < dim
  offsLen : offs.length = P.chunks + 1
  mono : offs.Pairwise (· ≤ ·)
  offsLe : ∀ o ∈ offs, o ≤ dim
  n1 : 1 ≤ rows.length
  n : rows.length < 4294967296
  row : ∀ x ∈ rows, x.length = dim * P.es
  conv : ∀ x ∈ rows, (P.conv x).length = dim
  file : (Spec.binFile dim rows).length < 9223372036854775808

/-- The distances between coordinates `a, ..., b - 1` of a vector and of the centres. -/
def pqD (P : PqPar) (piv : List (List F32)) (cent : List F32) (perm : List Nat) (x : Bytes) (a b : Nat) : List F32 :=
  P.dist (piv.map (Spec.coords a b)) (Spec.coords a b (Spec.centred P.sub cent perm (P.conv x)))

theorem ofWord_bits (x : F32) : F32.ofWord x.bits.toNat = x := by
  unfold F32.ofWord; rw [BitVec.ofNat_toNat, BitVec.setWidth_eq]

theorem un32s_floatWords (l : List F32) : (un32s l.length (le32s (l.map (fun x => x.bits.toNat)))).map F32.ofWord = l := by
  have := un32s_le32s (l.map (fun x => x.bits.toNat)) (by
    intro x hx
    obtain ⟨y, _, rfl⟩ := List.mem_map.mp hx
    exact y.bits.isLt) []
  rw [List.length_map, List.append_nil] at this
  rw [this, List.map_map]
  conv_rhs => rw [← List.map_id l]
  apply List.map_congr_left
  intro x _
  exact ofWord_bits x

theorem flatten_len_f {w : Nat} : ∀ (l : List (List F32)), (∀ v ∈ l, v.length = w) → l.flatten.length = l.length * w := by
  intro l
  induction l with
  | nil => intro _; simp
  | cons v l ih =>
    intro h
    rw [List.flatten_cons, List.length_append, h v (by simp), ih (fun u hu => h u (by simp [hu])), List.length_cons,
      Nat.succ_mul]; omega

theorem flatten_row_f {w : Nat} : ∀ (l : List (List F32)) (j : Nat) (v : List F32), (∀ v ∈ l, v.length = w) → l[j]? = some v →
    (l.flatten.drop (j * w)).take w = v := by
  intro l
  induction l with
  | nil => intro j v _ h; simp at h
  | cons u l ih =>
    intro j v h hj
    have hu := h u (by simp)
    cases j with
    | zero =>
      simp at hj; subst hj
      rw [Nat.zero_mul, List.drop_zero, List.flatten_cons, List.take_left' hu]
    | succ j =>
      rw [Nat.succ_mul, Nat.add_comm, ← List.drop_drop, List.flatten_cons, List.drop_left' hu]
      exact ih j v (fun u hu => h u (by simp [hu])) (by simpa using hj)

theorem pqLoad_ok {P : PqPar} {dim : Nat} {piv : List (List F32)} {cent : List F32} {perm offs : List Nat}
    {rows : List Bytes} (hI : PqInput P dim piv cent perm offs rows) (j1 j2 j3 j4 : LoadJunk)
    (h1 : j1.npts.length = 4 ∧ j1.dim.length = 4) (h2 : j2.npts.length = 4 ∧ j2.dim.length = 4)
    (h3 : j3.npts.length = 4 ∧ j3.dim.length = 4) (h4 : j4.npts.length = 4 ∧ j4.dim.length = 4) :
    pqLoad P dim (pqFilesOf P dim piv cent perm offs) j1 j2 j3 j4 = .ok ⟨piv.flatten, cent, perm, offs⟩ := by
  have hpl : piv.flatten.length = P.nc * dim := by rw [flatten_len_f piv hI.pivRow, hI.pivLen]
  have hd := hI.dimLt
  have hk := hI.chunks
  unfold pqLoad pqFilesOf Spec.floatFile Spec.wordFile
  dsimp only
  rw [if_neg (by simp), loadBin_ok hI.dimLt (by omega) (by simp [hI.centLen]; omega) (by omega) h1.1 h1.2, Res.ok_bind]
  dsimp only
  rw [if_neg (by simp), loadBin_ok hI.dimLt (by omega) (by simp [hI.permLen]; omega) (by omega) h2.1 h2.2, Res.ok_bind]
  dsimp only
  rw [if_neg (by simp), loadBin_ok hI.chunks (by omega) (by simp [hI.offsLen]; omega) (by omega) h3.1 h3.2, Res.ok_bind]
  dsimp only
  rw [if_neg (by simp), loadBin_ok hI.nc hI.dimLt (by rw [le32s_length, List.length_map, hpl]; omega) hI.size h4.1 h4.2,
    Res.ok_bind]
  dsimp only
  rw [if_neg (by simp), if_neg (by simp)]
  have e1 := un32s_floatWords piv.flatten
  rw [hpl] at e1
  have e2 := un32s_floatWords cent
  rw [hI.centLen] at e2
  have e3 := un32s_le32s perm (fun x hx => by have := hI.permLt x hx; omega) []
  rw [hI.permLen, List.append_nil] at e3
  have e4 := un32s_le32s offs (fun x hx => by have := hI.offsLe x hx; omega) []
  rw [hI.offsLen, List.append_nil] at e4
  rw [e1, e2, e3, e4]

theorem pqGood_tab {P : PqPar} {dim : Nat} {piv : List (List F32)} {cent : List F32} {perm offs : List Nat}
    {rows : List Bytes} (hI : PqInput P dim piv cent perm offs rows) :
    PqTab.Good P dim ⟨piv.flatten, cent, perm, offs⟩ := by
  refine ⟨by dsimp only; rw [flatten_len_f piv hI.pivRow, hI.pivLen], hI.centLen, hI.permLen, hI.permLt, hI.offsLen, ?_, ?_⟩
  · intro i hi
    have h1 : i < offs.length := by rw [hI.offsLen]; omega
    have h2 : i + 1 < offs.length := by rw [hI.offsLen]; omega
    unfold PqTab.lo PqTab.hi
    simp only [List.getD_eq_getElem?_getD, List.getElem?_eq_getElem h1, List.getElem?_eq_getElem h2, Option.getD_some]
    exact List.pairwise_iff_getElem.mp hI.mono i (i + 1) h1 h2 (by omega)
  · intro i hi
    have h2 : i + 1 < offs.length := by rw [hI.offsLen]; omega
    unfold PqTab.hi
    simp only [List.getD_eq_getElem?_getD, List.getElem?_eq_getElem h2, Option.getD_some]
    exact hI.offsLe _ (List.getElem_mem h2)

theorem pqDist_eq {P : PqPar} {dim : Nat} {piv : List (List F32)} {cent : List F32} {perm offs : List Nat}
    {rows : List Bytes} (hI : PqInput P dim piv cent perm offs rows) (x : Bytes) {i a b : Nat}
    (ha : offs[i]? = some a) (hb : offs[i + 1]? = some b) :
    pqDist P dim ⟨piv.flatten, cent, perm, offs⟩ x i = pqD P piv cent perm x a b := by
  have e1 : (PqTab.mk piv.flatten cent perm offs).lo i = a := by
    unfold PqTab.lo; rw [List.getD_eq_getElem?_getD, ha]; rfl
  have e2 : (PqTab.mk piv.flatten cent perm offs).hi i = b := by
    unfold PqTab.hi; rw [List.getD_eq_getElem?_getD, hb]; rfl
  unfold pqDist pqD PqTab.part
  rw [e1, e2]
  congr 1
  unfold Spec.coords PqTab.row
  apply List.ext_getElem?
  intro j
  rw [List.getElem?_map, List.getElem?_map]
  by_cases hj : j < P.nc
  · have hj' : j < piv.length := by rw [hI.pivLen]; exact hj
    rw [List.getElem?_range hj, List.getElem?_eq_getElem hj', Option.map_some, Option.map_some]
    dsimp only
    rw [flatten_row_f piv j _ hI.pivRow (List.getElem?_eq_getElem hj')]
  · rw [List.getElem?_eq_none (by simp; omega), List.getElem?_eq_none (by rw [hI.pivLen]; omega)]; rfl

theorem codeBytes_eq (nc c : Nat) : pqCode nc c = Spec.codeBytes nc c := by
  unfold pqCode Spec.codeBytes
  by_cases h : nc ≤ 256
  · rw [if_pos h, if_neg (by omega)]
  · rw [if_neg h, if_pos (by omega)]

/-- **C67.** For every data set with at least one point, any centres, centroid, rearrangement, chunk offsets and block
sizes that fit together: compression writes the numbers of points and chunks and then, point after point and chunk
after chunk, a code.  The code of a non-empty chunk is the number of a centre, the first of those nearest to the vector
in the coordinates of that chunk; the code of an empty chunk is 0.  Distances must not be NaN and one of them has to be
below `FLT_MAX`. -/
theorem C67_codes {P : PqPar} (hpops : IsPopOrder P.pops) (hcc : 1 ≤ P.ccBlk) (hblk : 1 ≤ P.blk) {dim : Nat}
    {piv : List (List F32)} {cent : List F32} {perm offs : List Nat} {rows : List Bytes}
    (hI : PqInput P dim piv cent perm offs rows) (j : TruthJunk) (j1 j2 j3 j4 : LoadJunk)
    (hj : j.npts.length = 4 ∧ j.dim.length = 4)
    (h1 : j1.npts.length = 4 ∧ j1.dim.length = 4) (h2 : j2.npts.length = 4 ∧ j2.dim.length = 4)
    (h3 : j3.npts.length = 4 ∧ j3.dim.length = 4) (h4 : j4.npts.length = 4 ∧ j4.dim.length = 4)
    (hD : ∀ x ∈ rows, ∀ (i a b : Nat), offs[i]? = some a → offs[i + 1]? = some b → a < b →
      (pqD P piv cent perm x a b).length = P.nc ∧ (∀ d ∈ pqD P piv cent perm x a b, d.IsNum) ∧
      ∃ d ∈ pqD P piv cent perm x a b, d.lt F32.fmax = true) :
    ∃ code : Nat → Nat → Nat,
      pqData P (some (Spec.binFile dim rows)) (pqFilesOf P dim piv cent perm offs) j j1 j2 j3 j4 =
        .ok (Spec.codeFile P.nc P.chunks rows.length code) ∧
      ∀ (p : Nat) (x : Bytes), rows[p]? = some x → ∀ (i a b : Nat), offs[i]? = some a → offs[i + 1]? = some b →
        (a = b → code p i = 0) ∧
        (a < b → ∃ d, (pqD P piv cent perm x a b)[code p i]? = some d ∧ code p i < P.nc ∧
          (∀ (c : Nat) (e : F32), (pqD P piv cent perm x a b)[c]? = some e → d.le e = true) ∧
          (∀ (c : Nat) (e : F32), (pqD P piv cent perm x a b)[c]? = some e → c < code p i → d.lt e = true)) := by
  obtain ⟨t, ht⟩ : ∃ t : PqTab, t = ⟨piv.flatten, cent, perm, offs⟩ := ⟨_, rfl⟩
  have hgt := pqGood_tab hI
  have hld := pqLoad_ok hI j1 j2 j3 j4 h1 h2 h3 h4
  rw [← ht] at hgt hld
  have hlo : ∀ i a, offs[i]? = some a → t.lo i = a := by
    intro i a ha; rw [ht]; unfold PqTab.lo; rw [List.getD_eq_getElem?_getD, ha]; rfl
  have hhi : ∀ i b, offs[i + 1]? = some b → t.hi i = b := by
    intro i a ha; rw [ht]; unfold PqTab.hi; rw [List.getD_eq_getElem?_getD, ha]; rfl
  have hgood : ∀ x ∈ rows, PqGood P dim t x := by
    intro x hx
    refine ⟨hI.conv x hx, ?_⟩
    intro i hi hlt
    have hi1 : i < offs.length := by rw [hI.offsLen]; omega
    have hi2 : i + 1 < offs.length := by rw [hI.offsLen]; omega
    have ha := List.getElem?_eq_getElem hi1
    have hb := List.getElem?_eq_getElem hi2
    rw [hlo _ _ ha, hhi _ _ hb] at hlt
    have := hD x hx i _ _ ha hb hlt
    rw [← pqDist_eq hI x ha hb, ← ht] at this
    exact this
  refine ⟨fun p i => pqCodeOf P dim t (rowAt rows p) i, ?_, ?_⟩
  · rw [pqData_ok hgt hpops hI.nc1 hcc hblk hI.dimLt rows _ j j1 j2 j3 j4 hld hj.1 hj.2 hI.n1 hI.n hI.row hgood hI.file]
    unfold Spec.codeFile pqOut
    rw [← List.range_eq_range']
    simp only [codeBytes_eq]
  · intro p x hp i a b ha hb
    have e : rowAt rows p = x := by unfold rowAt; rw [List.getD_eq_getElem?_getD, hp]; rfl
    obtain ⟨hplt, hpx⟩ := List.getElem?_eq_some_iff.mp hp
    have hx : x ∈ rows := hpx ▸ List.getElem_mem hplt
    dsimp only
    rw [e]
    unfold pqCodeOf
    rw [hlo _ _ ha, hhi _ _ hb]
    refine ⟨fun hab => by rw [if_pos hab.symm], fun hab => ?_⟩
    rw [if_neg (by omega), ht, pqDist_eq hI x ha hb]
    obtain ⟨d1, d2, d3⟩ := hD x hx i a b ha hb hab
    unfold pick
    rw [if_pos rfl]
    rcases argminLoop_spec (pqD P piv cent perm x a b) 0 F32.fmax none with ⟨hno, _⟩ | ⟨k, hk, ek, _, hmin⟩
    · obtain ⟨d, hd, hl⟩ := d3
      rw [hno d hd] at hl; cases hl
    · rw [ek, Nat.zero_add, Option.toList_some, List.headD_cons]
      obtain ⟨m1, m2⟩ := hmin d2
      refine ⟨_, List.getElem?_eq_getElem hk, by omega, ?_, ?_⟩
      · intro c e hc
        obtain ⟨hcl, hce⟩ := List.getElem?_eq_some_iff.mp hc
        exact m1 e (hce ▸ List.getElem_mem hcl)
      · intro c e hc hlt
        obtain ⟨hcl, hce⟩ := List.getElem?_eq_some_iff.mp hc
        exact hce ▸ m2 c hlt

/-- **C67 (nothing is lost).** The code of chunk `i` of point `p` is found in the file at its place, also when it was
stored in a single byte. -/
theorem C67_decode (nc chunks n : Nat) (code : Nat → Nat → Nat) (p i : Nat) (hp : p < n) (hi : i < chunks)
    (hc : code p i < nc) (hnc : nc < 4294967296) :
    (nc ≤ 256 → unle (((Spec.codeFile nc chunks n code).drop (8 + (p * chunks + i))).take 1) = code p i) ∧
    (256 < nc → unle (((Spec.codeFile nc chunks n code).drop (8 + 4 * (p * chunks + i))).take 4) = code p i) := by
  have key : ∀ (w : Nat) (f : Nat → Nat → Bytes), (∀ p i, (f p i).length = w) →
      ((((List.range n).flatMap (fun p => (List.range chunks).flatMap (fun i => f p i))).drop ((p * chunks + i) * w)).take w)
        = f p i := by
    intro w f hf
    have hin : ∀ q, ((List.range chunks).flatMap (fun i => f q i)).length = chunks * w := by
      intro q; rw [flatMap_length_const _ w _ (fun i _ => hf q i), List.length_range]
    rw [Nat.add_mul, Nat.mul_assoc, ← List.drop_drop,
      drop_flatMap_const _ (chunks * w) _ _ (fun q _ => hin q) (by rw [List.length_range]; omega),
      List.drop_eq_getElem_cons (l := List.range n) (i := p) (by rw [List.length_range]; omega), List.flatMap_cons,
      List.getElem_range]
    have hiw : (i + 1) * w ≤ chunks * w := Nat.mul_le_mul_right _ hi
    rw [Nat.succ_mul] at hiw
    rw [List.drop_append_of_le_length (by rw [hin]; omega), List.take_append_of_le_length (by
      rw [List.length_drop, hin]; omega),
      drop_flatMap_const _ w _ _ (fun i _ => hf p i) (by rw [List.length_range]; omega),
      List.drop_eq_getElem_cons (l := List.range chunks) (i := i) (by rw [List.length_range]; omega), List.flatMap_cons,
      List.getElem_range]
    rw [List.take_left' (hf p i)]
  constructor
  · intro h
    unfold Spec.codeFile
    rw [← List.drop_drop, List.drop_left' (by simp)]
    have e : ∀ p i, Spec.codeBytes nc (code p i) = [UInt8.ofNat (code p i)] := fun p i => by
      unfold Spec.codeBytes; rw [if_pos h]
    simp only [e]
    have := key 1 (fun p i => [UInt8.ofNat (code p i)]) (fun _ _ => rfl)
    rw [Nat.mul_one] at this
    rw [this]
    simp only [unle, UInt8.toNat_ofNat']
    omega
  · intro h
    unfold Spec.codeFile
    rw [← List.drop_drop, List.drop_left' (by simp)]
    have e : ∀ p i, Spec.codeBytes nc (code p i) = le 4 (code p i) := fun p i => by
      unfold Spec.codeBytes; rw [if_neg (by omega)]
    simp only [e]
    have := key 4 (fun p i => le 4 (code p i)) (fun _ _ => by simp)
    rw [Nat.mul_comm] at this
    rw [this, unle_le_of_lt (by omega)]

/-- **C67 (optimal).** Any choice of codes that is nearest in every chunk has the smallest total distance among all
choices of one centre per chunk, whatever order-preserving value the distances are given. -/
theorem C67_smallest_error {M : Type} [AddCommMonoid M] [PartialOrder M] [IsOrderedAddMonoid M] (v : F32 → M)
    (hv : ∀ x y : F32, x.le y = true → v x ≤ v y) (chunks : Nat) (D : Nat → List F32) (code other : Nat → Nat)
    (hother : ∀ i, i < chunks → other i < (D i).length)
    (hcode : ∀ i, i < chunks → ∃ d, (D i)[code i]? = some d ∧
      ∀ (c : Nat) (e : F32), (D i)[c]? = some e → d.le e = true) :
    ∑ i ∈ Finset.range chunks, v ((D i).getD (code i) F32.nan) ≤
      ∑ i ∈ Finset.range chunks, v ((D i).getD (other i) F32.nan) := by
  apply Finset.sum_le_sum
  intro i hi
  rw [Finset.mem_range] at hi
  obtain ⟨d, h1, h2⟩ := hcode i hi
  have h3 := List.getElem?_eq_getElem (hother i hi)
  simp only [List.getD_eq_getElem?_getD, h1, h3, Option.getD_some]
  exact hv _ _ (h2 _ _ h3)

/-- **C67 (with the chunks the library makes).** With the rearrangement and the offsets computed for `chunks`
chunks, no more than there are dimensions, the compressed vector is the centred vector itself and every chunk is
non-empty, so every code is a nearest centre. -/
theorem C67_own_chunks {P : PqPar} (hpops : IsPopOrder P.pops) (hcc : 1 ≤ P.ccBlk) (hblk : 1 ≤ P.blk) {dim : Nat}
    {piv : List (List F32)} {cent : List F32} {perm offs : List Nat} {rows : List Bytes}
    (hch : pqChunks dim P.chunks = .ok (some (perm, offs))) (hc1 : 1 ≤ P.chunks) (hcd : P.chunks ≤ dim)
    (hI : PqInput P dim piv cent perm offs rows) (j : TruthJunk) (j1 j2 j3 j4 : LoadJunk)
    (hj : j.npts.length = 4 ∧ j.dim.length = 4)
    (h1 : j1.npts.length = 4 ∧ j1.dim.length = 4) (h2 : j2.npts.length = 4 ∧ j2.dim.length = 4)
    (h3 : j3.npts.length = 4 ∧ j3.dim.length = 4) (h4 : j4.npts.length = 4 ∧ j4.dim.length = 4)
    (hD : ∀ x ∈ rows, ∀ a b, a < b → b ≤ dim →
      (pqD P piv cent (List.range dim) x a b).length = P.nc ∧ (∀ d ∈ pqD P piv cent (List.range dim) x a b, d.IsNum) ∧
      ∃ d ∈ pqD P piv cent (List.range dim) x a b, d.lt F32.fmax = true) :
    ∃ code : Nat → Nat → Nat,
      pqData P (some (Spec.binFile dim rows)) (pqFilesOf P dim piv cent perm offs) j j1 j2 j3 j4 =
        .ok (Spec.codeFile P.nc P.chunks rows.length code) ∧
      ∀ (p : Nat) (x : Bytes), rows[p]? = some x → ∀ i, i < P.chunks → ∃ a b d, offs[i]? = some a ∧ offs[i + 1]? = some b ∧
        a < b ∧ (pqD P piv cent (List.range dim) x a b)[code p i]? = some d ∧ code p i < P.nc ∧
        ∀ (c : Nat) (e : F32), (pqD P piv cent (List.range dim) x a b)[c]? = some e → d.le e = true := by
  obtain ⟨offs', e, hl, _, _, hstep, _⟩ := C53_cover dim P.chunks hc1 hcd hI.dimLt
  rw [e] at hch
  simp only [Except.ok.injEq, Option.some.injEq, Prod.mk.injEq] at hch
  obtain ⟨rfl, rfl⟩ := hch
  have hlow : 1 ≤ dim / P.chunks := Nat.div_pos hcd (by omega)
  have hle : ∀ (i b : Nat), offs'[i]? = some b → b ≤ dim := by
    intro i b hb
    exact hI.offsLe b (List.mem_of_getElem? hb)
  obtain ⟨code, e1, hcode⟩ := C67_codes hpops hcc hblk hI j j1 j2 j3 j4 hj h1 h2 h3 h4
    (fun x hx i a b _ hb hab => hD x hx a b hab (hle _ _ hb))
  refine ⟨code, e1, ?_⟩
  intro p x hp i hi
  have hi1 : i < offs'.length := by omega
  have hi2 : i + 1 < offs'.length := by omega
  have ha := List.getElem?_eq_getElem hi1
  have hb := List.getElem?_eq_getElem hi2
  have hlt : offs'[i] < offs'[i + 1] := by
    rcases hstep i _ _ ha hb with h | h <;> omega
  obtain ⟨d, d1, d2, d3, _⟩ := (hcode p x hp i _ _ ha hb).2 hlt
  exact ⟨_, _, d, ha, hb, hlt, d1, d2, d3⟩

/-- **C67 (needed hypothesis).** Compressing a data set without points divides by zero. -/
theorem C67_no_points {P : PqPar} {dim : Nat} (hdim : dim < 4294967296) (F : PqFiles) (j : TruthJunk)
    (j1 j2 j3 j4 : LoadJunk) (t : PqTab) (hl : pqLoad P dim F j1 j2 j3 j4 = .ok t)
    (hj : j.npts.length = 4 ∧ j.dim.length = 4) :
    pqData P (some (Spec.binFile dim [])) F j j1 j2 j3 j4 = .error .ub := by
  obtain ⟨r1, r2, e1, e2, _⟩ := CReader.open_header 0 dim [] (by omega) hdim (by simp) truthBlk j.cache
    j.npts j.dim hj.1 hj.2
  unfold pqData Spec.binFile
  dsimp only
  rw [show ([] : List Bytes).flatten = [] from rfl, show ([] : List Bytes).length = 0 from rfl, e1, Res.ok_bind]
  dsimp only
  rw [e2, Res.ok_bind]
  dsimp only
  rw [hl, Res.ok_bind, if_pos (by simp)]

/-- **C67 (mismatched files).** If the number of chunks is not the one the pivots were made for, an exception is
thrown and nothing is written. -/
theorem C67_wrong_chunks {P : PqPar} {dim : Nat} {piv : List (List F32)} {cent : List F32} {perm offs : List Nat}
    {rows : List Bytes} (hI : PqInput P dim piv cent perm offs rows) (Q : PqPar) (hQ : Q.chunks ≠ P.chunks)
    (j : TruthJunk) (j1 j2 j3 j4 : LoadJunk) (hj : j.npts.length = 4 ∧ j.dim.length = 4)
    (h1 : j1.npts.length = 4 ∧ j1.dim.length = 4) (h2 : j2.npts.length = 4 ∧ j2.dim.length = 4)
    (h3 : j3.npts.length = 4 ∧ j3.dim.length = 4) :
    pqData Q (some (Spec.binFile dim rows)) (pqFilesOf P dim piv cent perm offs) j j1 j2 j3 j4 = .error .throw := by
  have hd := hI.dimLt
  have hk := hI.chunks
  obtain ⟨r1, r2, e1, e2, _⟩ := CReader.open_header rows.length dim rows.flatten hI.n hI.dimLt hI.file truthBlk j.cache
    j.npts j.dim hj.1 hj.2
  have hl : pqLoad Q dim (pqFilesOf P dim piv cent perm offs) j1 j2 j3 j4 = .error .throw := by
    unfold pqLoad pqFilesOf Spec.floatFile Spec.wordFile
    dsimp only
    rw [if_neg (by simp), loadBin_ok hI.dimLt (by omega) (by simp [hI.centLen]; omega) (by omega) h1.1 h1.2, Res.ok_bind]
    dsimp only
    rw [if_neg (by simp), loadBin_ok hI.dimLt (by omega) (by simp [hI.permLen]; omega) (by omega) h2.1 h2.2, Res.ok_bind]
    dsimp only
    rw [if_neg (by simp), loadBin_ok hI.chunks (by omega) (by simp [hI.offsLen]; omega) (by omega) h3.1 h3.2, Res.ok_bind]
    dsimp only
    rw [if_pos (by left; omega)]
  unfold pqData Spec.binFile
  dsimp only
  rw [e1, Res.ok_bind]
  dsimp only
  rw [e2, Res.ok_bind]
  dsimp only
  rw [hl]
  rfl

/-- **C67 (shapes).** Whatever the files are, they are accepted only with the shapes that belong to the data: as many
offsets and permuted positions as coordinates, one more chunk offset than chunks, and centres of the dimension of the
data. -/
theorem C67_shapes {P : PqPar} {dim : Nat} {F : PqFiles} {j1 j2 j3 j4 : LoadJunk} {t : PqTab}
    (h : pqLoad P dim F j1 j2 j3 j4 = .ok t) :
    ∃ c r o v, loadBin 4 F.centroid j1.npts j1.dim j1.mem = .ok (dim, 1, c) ∧
      loadBin 4 F.rearr j2.npts j2.dim j2.mem = .ok (dim, 1, r) ∧
      loadBin 4 F.offs j3.npts j3.dim j3.mem = .ok (P.chunks + 1, 1, o) ∧
      loadBin 4 F.pivots j4.npts j4.dim j4.mem = .ok (P.nc, dim, v) := by
  unfold pqLoad at h
  split at h
  · simp at h
  rw [Res.bind_eq_ok] at h
  obtain ⟨⟨n1, d1, c⟩, e1, h⟩ := h
  dsimp only at h
  split at h
  · simp at h
  rename_i s1
  rw [Res.bind_eq_ok] at h
  obtain ⟨⟨n2, d2, r⟩, e2, h⟩ := h
  dsimp only at h
  split at h
  · simp at h
  rename_i s2
  rw [Res.bind_eq_ok] at h
  obtain ⟨⟨n3, d3, o⟩, e3, h⟩ := h
  dsimp only at h
  split at h
  · simp at h
  rename_i s3
  rw [Res.bind_eq_ok] at h
  obtain ⟨⟨n4, d4, v⟩, e4, h⟩ := h
  dsimp only at h
  split at h
  · simp at h
  rename_i s4
  split at h
  · simp at h
  rename_i s5
  simp only [not_or, not_not] at s1 s2 s3 s4 s5
  refine ⟨c, r, o, v, ?_, ?_, ?_, ?_⟩
  · rw [e1, s1.1, s1.2]
  · rw [e2, s2.1, s2.2]
  · rw [e3, s3.1, s3.2]
  · rw [e4, s4, s5]

/-! ## A concrete case -/

/-- Vectors of two coordinates that are 0 or 1, each its own chunk, and the centres (0, 0) and (1, 1); blocks of two. -/
def exPq : PqPar :=
  ⟨2, 1000, 2, 2, 1, fun x => x.map (fun b => if b = 0 then F32.zero else F32.one), fun a _ => a,
    fun piv v => piv.map (fun c => if c = v then F32.zero else F32.one), exPops⟩

def exPiv : List (List F32) := [[F32.zero, F32.zero], [F32.one, F32.one]]

theorem exPqInput : PqInput exPq 2 exPiv [F32.zero, F32.zero] [0, 1] [0, 1, 2] [[0, 0], [1, 0], [0, 1]] := by
  constructor <;> decide

def exLoadJunk : LoadJunk := ⟨[1, 1, 1, 1], [2, 2, 2, 2], fun _ => 3⟩

theorem exPq_dist : ∀ x ∈ ([[0, 0], [1, 0], [0, 1]] : List Bytes), ∀ (i a b : Nat), [0, 1, 2][i]? = some a →
    [0, 1, 2][i + 1]? = some b → a < b →
      (pqD exPq exPiv [F32.zero, F32.zero] [0, 1] x a b).length = exPq.nc ∧
      (∀ d ∈ pqD exPq exPiv [F32.zero, F32.zero] [0, 1] x a b, d.IsNum) ∧
      ∃ d ∈ pqD exPq exPiv [F32.zero, F32.zero] [0, 1] x a b, d.lt F32.fmax = true := by
  intro x hx i a b ha hb _
  have hi : i = 0 ∨ i = 1 := by
    have := (List.getElem?_eq_some_iff.mp hb).1
    simp at this; omega
  rcases hi with rfl | rfl <;> simp at ha hb <;> subst ha <;> subst hb <;> revert x <;> decide

example := C67_codes (P := exPq) exPops_isPopOrder (by decide) (by decide) exPqInput exTruthJunk exLoadJunk exLoadJunk
  exLoadJunk exLoadJunk ⟨rfl, rfl⟩ ⟨rfl, rfl⟩ ⟨rfl, rfl⟩ ⟨rfl, rfl⟩ ⟨rfl, rfl⟩ exPq_dist

/-- The file that is written. -/
example : pqData exPq (some (Spec.binFile 2 [[0, 0], [1, 0], [0, 1]]))
    (pqFilesOf exPq 2 exPiv [F32.zero, F32.zero] [0, 1] [0, 1, 2]) exTruthJunk exLoadJunk exLoadJunk exLoadJunk exLoadJunk =
    .ok [3, 0, 0, 0, 2, 0, 0, 0, 0, 0, 1, 0, 0, 1] := by
  have hld := pqLoad_ok exPqInput exLoadJunk exLoadJunk exLoadJunk exLoadJunk ⟨rfl, rfl⟩ ⟨rfl, rfl⟩ ⟨rfl, rfl⟩ ⟨rfl, rfl⟩
  rw [pqData_ok (pqGood_tab exPqInput) exPops_isPopOrder (by decide) (by decide) (by decide) (by decide) _ _ _ _ _ _ _
    hld rfl rfl (by decide) (by decide) (by decide) ?_ (by decide)]
  · decide
  · intro x hx
    refine ⟨exPqInput.conv x hx, ?_⟩
    intro i hi hlt
    have hi : i = 0 ∨ i = 1 := by
      have : i < 2 := hi
      omega
    rcases hi with rfl | rfl <;> revert x <;> decide

example := C67_own_chunks (P := exPq) (dim := 2) exPops_isPopOrder (by decide) (by decide) (by decide +kernel) (by decide)
  (by decide) exPqInput exTruthJunk exLoadJunk exLoadJunk exLoadJunk exLoadJunk ⟨rfl, rfl⟩ ⟨rfl, rfl⟩ ⟨rfl, rfl⟩ ⟨rfl, rfl⟩
  ⟨rfl, rfl⟩ (by
    intro x hx a b hab hb
    have hc : (a = 0 ∧ b = 1) ∨ (a = 0 ∧ b = 2) ∨ (a = 1 ∧ b = 2) := by omega
    rcases hc with ⟨rfl, rfl⟩ | ⟨rfl, rfl⟩ | ⟨rfl, rfl⟩
    · revert x; decide
    · refine ⟨rfl, ?_, ?_⟩ <;> revert x <;> decide
    · revert x; decide)

/-- Counting the chunks whose distance is not zero. -/
example := C67_smallest_error (M := Nat) (fun x => if x.le F32.zero then 0 else 1) (by
    intro x y h
    split
    · omega
    · rename_i hx
      rw [if_neg (fun hy => hx (F32.le_trans h hy))])
  2 (fun i => if i = 0 then [F32.one, F32.zero] else [F32.zero, F32.one]) (fun i => 1 - i) (fun _ => 0)
  (by decide) (by
    intro i hi
    refine ⟨F32.zero, ?_, ?_⟩
    · revert i; decide
    · intro c e hc
      have hc2 : c = 0 ∨ c = 1 := by
        have := (List.getElem?_eq_some_iff.mp hc).1
        split at this <;> simp at this <;> omega
      have hi2 : i = 0 ∨ i = 1 := by omega
      rcases hc2 with rfl | rfl <;> rcases hi2 with rfl | rfl <;> simp at hc <;> subst hc <;> decide)

example := C67_no_points (P := exPq) (dim := 2) (by decide) (pqFilesOf exPq 2 exPiv [F32.zero, F32.zero] [0, 1] [0, 1, 2])
  exTruthJunk exLoadJunk exLoadJunk exLoadJunk exLoadJunk _
  (pqLoad_ok exPqInput exLoadJunk exLoadJunk exLoadJunk exLoadJunk ⟨rfl, rfl⟩ ⟨rfl, rfl⟩ ⟨rfl, rfl⟩ ⟨rfl, rfl⟩) ⟨rfl, rfl⟩

example := C67_wrong_chunks exPqInput { exPq with chunks := 3 } (by decide) exTruthJunk exLoadJunk exLoadJunk
  exLoadJunk exLoadJunk ⟨rfl, rfl⟩ ⟨rfl, rfl⟩ ⟨rfl, rfl⟩ ⟨rfl, rfl⟩

example := C67_shapes (pqLoad_ok exPqInput exLoadJunk exLoadJunk exLoadJunk exLoadJunk ⟨rfl, rfl⟩ ⟨rfl, rfl⟩ ⟨rfl, rfl⟩
  ⟨rfl, rfl⟩)

example := C67_decode 256 3 4 (fun p i => p + 80 * i) 3 2 (by decide) (by decide) (by decide) (by decide)

end Grann
