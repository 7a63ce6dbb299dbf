import Verif.Props.KmeansRun
import Verif.Props.Sample
import Verif.Props.Shard
import Verif.Props.PqTrain
import Verif.Props.CommandRuns
/-!
# C84: the centres an IVF index, product quantisation and partitioning are built with
-/

namespace Grann

open _root_.Spec (Matches Reports KNearest)

variable {D : Type}

/-- The sampled vectors, converted. -/
def Spec.trainSet (coin : Nat → Bool) (conv : Bytes → List F32) (rows : List Bytes) : List (List F32) :=
  (Spec.sampled coin rows.length).map (fun i => conv (rows.getD i []))

/-! ## Matrices -/

theorem matRows_flatten {dim : Nat} {l : List (List F32)} (h : ∀ v ∈ l, v.length = dim) : matRows l.length dim l.flatten = l := by
  unfold matRows
  apply List.ext_getElem
  · simp
  · intro i h1 h2
    rw [List.getElem_map, List.getElem_range]
    exact flatten_row_f l i _ h (List.getElem?_eq_getElem h2)

theorem le32s_append (a b : List Nat) : le32s (a ++ b) = le32s a ++ le32s b := by unfold le32s; rw [List.flatMap_append]

theorem matBytes_rows : ∀ l : List (List F32), matBytes l = (l.map (fun c => le32s (c.map (fun x => x.bits.toNat)))).flatten := by
  intro l
  induction l with
  | nil => rfl
  | cons c l ih =>
    unfold matBytes at ih ⊢
    rw [List.flatten_cons, List.map_append, le32s_append, ih]
    rfl

theorem centreAt_matBytes {dim : Nat} {l : List (List F32)} (h : ∀ v ∈ l, v.length = dim) {c : Nat} {v : List F32} (hc : l[c]? = some v) :
    centreAt (matBytes l) dim c = v := by
  obtain ⟨hcl, rfl⟩ := List.getElem?_eq_some_iff.mp hc
  have hd : l = l.take c ++ (l[c] :: l.drop (c + 1)) := by
    rw [← List.drop_eq_getElem_cons hcl, List.take_append_drop]
  have hlen : (le32s ((l.take c).flatten.map (fun x => x.bits.toNat))).length = c * dim * 4 := by
    rw [le32s_length, List.length_map, flatten_len_f (w := dim) _ (fun v hv => h v (List.mem_of_mem_take hv)), List.length_take,
      Nat.min_eq_left (by omega), Nat.mul_comm]
  have hv : l[c].length = dim := h _ (List.getElem_mem hcl)
  have e : matBytes l = le32s ((l.take c).flatten.map (fun x => x.bits.toNat)) ++ (le32s (l[c].map (fun x => x.bits.toNat)) ++
      le32s ((l.drop (c + 1)).flatten.map (fun x => x.bits.toNat))) := by
    unfold matBytes
    conv => lhs; rw [hd]
    rw [List.flatten_append, List.flatten_cons, List.map_append, List.map_append, le32s_append, le32s_append]
  unfold centreAt
  rw [e, List.drop_left' hlen]
  have : dim = (l[c].map (fun x => x.bits.toNat)).length := by rw [List.length_map, hv]
  rw [this, un32s_le32s _ (by
    intro x hx
    obtain ⟨y, -, rfl⟩ := List.mem_map.1 hx
    exact y.bits.isLt), List.map_map]
  conv => rhs; rw [← List.map_id l[c]]
  apply List.map_congr_left
  intro x _
  exact ofWord_bits x

theorem centreDists_matBytes {conv : Bytes → List F32} {entry : List F32 → List F32 → F32} {dim nc : Nat} {l : List (List F32)}
    (h : ∀ v ∈ l, v.length = dim) (hnc : l.length = nc) (x : Bytes) :
    centreDists conv entry (matBytes l) nc dim x = l.map (entry (conv x)) := by
  unfold centreDists
  apply List.ext_getElem
  · simp [hnc]
  · intro i h1 h2
    have hi : i < l.length := by simpa using h2
    rw [List.getElem_map, List.getElem_range, List.getElem_map, centreAt_matBytes h (List.getElem?_eq_getElem hi)]

/-! ## Sampling -/

/-- **C84 (rates).** A rate of at most 0 samples nothing; a rate of at least 1, or one that is not a number, samples every
point; otherwise a point is sampled if its random number is below the rate. -/
theorem C84_rate (rnd : Nat → F32) (hrnd : ∀ i, F32.zero.le (rnd i) = true ∧ (rnd i).lt F32.one = true) (rate : F32) (n : Nat) :
    (rate.le F32.zero = true → Spec.sampled (sampleCoin rnd rate) n = []) ∧
    (rate.lt F32.one = false → Spec.sampled (sampleCoin rnd rate) n = List.range n) ∧
    (rate.lt F32.one = true → Spec.sampled (sampleCoin rnd rate) n = (List.range n).filter (fun i => (rnd i).lt rate)) := by
  refine ⟨fun h => ?_, fun h => ?_, fun h => ?_⟩
  · have h1 : rate.lt F32.one = true := F32.lt_of_le_of_lt h (by decide)
    unfold Spec.sampled sampleCoin
    rw [if_pos h1, List.filter_eq_nil_iff]
    intro i _ hlt
    have := F32.lt_of_lt_of_le hlt (F32.le_trans h (hrnd i).1)
    rw [F32.lt_irrefl] at this; cases this
  · unfold Spec.sampled sampleCoin
    rw [if_neg (by simp [h]), List.filter_eq_self]
    intro i _
    exact (hrnd i).2
  · unfold Spec.sampled sampleCoin
    rw [if_pos h]

/-! ## IVF -/

theorem trainIvf_eq (es : Nat) (conv : Bytes → List F32) (rnd : Nat → F32) (O : KmOps D) (R : KmRun D) (reps : Nat)
    (mem : Nat → List F32) (nc : Nat) (rate : F32) (o : IdxObj) (vecs : List Bytes) (hd : o.data = vecs.flatten) (hn : o.n = vecs.length)
    (hrow : ∀ x ∈ vecs, x.length = o.adim * es) (hconv : ∀ x ∈ vecs, (conv x).length = o.adim) :
    trainIvf es conv rnd O R reps mem nc rate o =
      (kmeansF O R o.adim reps (Spec.trainSet (sampleCoin rnd rate) conv vecs) ((List.range nc).map mem) >>= fun cs => .ok (matBytes cs)) := by
  unfold trainIvf
  rw [hd, hn, C56_matrix es o.adim vecs _ conv hrow, Res.ok_bind]
  dsimp only
  have e : ((Spec.sampled (sampleCoin rnd rate) vecs.length).map (rowAt vecs)).flatMap conv = (Spec.trainSet (sampleCoin rnd rate) conv vecs).flatten := by
    rw [List.flatMap_def, List.map_map]; rfl
  have hl : (Spec.sampled (sampleCoin rnd rate) vecs.length).length = (Spec.trainSet (sampleCoin rnd rate) conv vecs).length := by
    unfold Spec.trainSet; rw [List.length_map]
  rw [e, hl, matRows_flatten]
  intro v hv
  obtain ⟨i, hi, rfl⟩ := List.mem_map.1 hv
  have hil : i < vecs.length := by
    have := (List.mem_filter.1 hi).1
    simpa using this
  rw [List.getD_eq_getElem?_getD, List.getElem?_eq_getElem hil, Option.getD_some]
  exact hconv _ (List.getElem_mem _)

theorem trainSet_mem {coin : Nat → Bool} {conv : Bytes → List F32} {vecs : List Bytes} {x : List F32} (h : x ∈ Spec.trainSet coin conv vecs) :
    ∃ v ∈ vecs, x = conv v := by
  obtain ⟨i, hi, rfl⟩ := List.mem_map.1 h
  have hil : i < vecs.length := by
    have := (List.mem_filter.1 hi).1
    simpa using this
  refine ⟨vecs[i], List.getElem_mem _, ?_⟩
  rw [List.getD_eq_getElem?_getD, List.getElem?_eq_getElem hil, Option.getD_some]

/-- **C84 (IVF).** The training of an IVF index works on the sampled vectors, padded with zeros and converted.  With 1 to 2^23
of them and at least one cluster it gives the centres k-means finds for them, unless k-means++ throws darts for ever; without
a sampled vector, or without clusters, its behaviour is undefined. -/
theorem C84_ivf (es : Nat) (conv : Bytes → List F32) (rnd : Nat → F32) {O : KmOps D} {R : KmRun D} (hR : R.OK) {P : List F32 → Prop}
    (reps : Nat) (mem : Nat → List F32) (nc : Nat) (rate : F32) (o : IdxObj) (hT : Tame O o.adim P) (vecs : List Bytes)
    (hd : o.data = vecs.flatten) (hn : o.n = vecs.length)
    (hrow : ∀ x ∈ vecs, x.length = o.adim * es) (hconv : ∀ x ∈ vecs, P (conv x) ∧ (conv x).length = o.adim)
    (train : List (List F32)) (htrain : train = Spec.trainSet (sampleCoin rnd rate) conv vecs) (hmax : train.length ≤ 8388608) :
    (train = [] ∨ nc = 0 → trainIvf es conv rnd O R reps mem nc rate o = .error .ub) ∧
    (R.init < train.length → 1 ≤ nc →
      (trainIvf es conv rnd O R reps mem nc rate o = .error .loop ∧ kmeansF O R o.adim reps train ((List.range nc).map mem) = .error .loop) ∨
      ∃ first last, trainIvf es conv rnd O R reps mem nc rate o = .ok (matBytes last) ∧ first.length = nc ∧ (∀ c ∈ first, c ∈ train) ∧
        LloydRun O R.ch o.adim reps train first last ∧ last.length = nc ∧ ∀ c ∈ last, P c ∧ c.length = o.adim) := by
  rw [trainIvf_eq es conv rnd O R reps mem nc rate o vecs hd hn hrow (fun x hx => (hconv x hx).2), ← htrain]
  constructor
  · intro h
    rw [C84_limits O R o.adim reps train _ hmax (h.imp id (fun h => by rw [h]; rfl))]
    rfl
  · intro hinit hnc
    have hml : ((List.range nc).map mem).length = nc := by simp
    rcases C84_kmeans hR hT reps (mem := (List.range nc).map mem) (by omega) hmax (fun x hx => by
      rw [htrain] at hx
      obtain ⟨v, hv, rfl⟩ := trainSet_mem hx
      exact hconv v hv) (by omega) hinit with h | ⟨first, last, e, h1, h2, h3, h4, h5⟩
    · left; refine ⟨?_, h⟩; rw [h]; rfl
    · right
      rw [hml] at h1 h4
      exact ⟨first, last, by rw [e, Res.ok_bind], h1, h2, h3, h4, h5⟩

/-! ## Partitioning -/

/-- **C84 (partitioning).** `partition` writes the centres k-means finds for the sampled vectors, and puts every vector into the
shards of its `k_base` closest centres. -/
theorem C84_partition (es dim : Nat) (hes : es ≤ 8) (conv : Bytes → List F32) (rnd : Nat → F32) {O : KmOps D} {R : KmRun D} (hR : R.OK)
    {P : List F32 → Prop} (hT : Tame O dim P) (mem : Nat → List F32) (blk : Nat) (hblk : 1 ≤ blk) (pops : List F32 → List Nat)
    (hpops : IsPopOrder pops) (rate : F32) (parts reps kb : Nat) (hkb : kb ≤ parts) (hp1 : 1 ≤ parts) (hp : parts < 4294967296)
    (rows : List Bytes) (hn : rows.length < 4294967296) (hd : dim < 4294967296)
    (hrow : ∀ x ∈ rows, x.length = dim * es) (hf : (Spec.binFile dim rows).length < 9223372036854775808)
    (hconv : ∀ x ∈ rows, P (conv x) ∧ (conv x).length = dim)
    (j j2 : TruthJunk) (hj1 : j.npts.length = 4) (hj2 : j.dim.length = 4) (hj3 : j2.npts.length = 4) (hj4 : j2.dim.length = 4)
    (train : List (List F32)) (htrain : train = Spec.trainSet (sampleCoin rnd rate) conv rows) (hmax : train.length ≤ 8388608)
    (hinit : R.init < train.length) :
    (partitionData es conv rnd O R mem blk pops rate parts reps kb (some (Spec.binFile dim rows)) j j2 = .error .loop ∧
      kmeansF O R dim reps train ((List.range parts).map mem) = .error .loop) ∨
    ∃ first last, first.length = parts ∧ (∀ c ∈ first, c ∈ train) ∧ LloydRun O R.ch dim reps train first last ∧
      last.length = parts ∧ (∀ c ∈ last, c.length = dim) ∧
      ∃ place : Nat → List Nat,
        (∀ p x, rows[p]? = some x → (place p).Nodup ∧ (place p).length = kb ∧ (∀ c ∈ place p, c < parts) ∧
          KNearest kb (Finset.range parts) (fun c => (last.map (O.entry (conv x))).getD c F32.nan)
            ((place p).map (fun c => (c, (last.map (O.entry (conv x))).getD c F32.nan)))) ∧
        partitionData es conv rnd O R mem blk pops rate parts reps kb (some (Spec.binFile dim rows)) j j2 =
          .ok (Spec.floatFile parts dim last.flatten, some ((List.range parts).map (fun c =>
            (Spec.binFile dim ((Spec.shardOf place rows.length c).map (fun p => rows.getD p [])),
            Spec.idFile (Spec.shardOf place rows.length c))))) := by
  unfold partitionData
  rw [C56_memory es dim rows _ conv j hj1 hj2 hn hd hes hrow hf, Res.ok_bind]
  dsimp only
  have e : ((Spec.sampled (sampleCoin rnd rate) rows.length).map (rowAt rows)).flatMap conv = train.flatten := by
    rw [htrain, List.flatMap_def, List.map_map]; rfl
  have hl : (Spec.sampled (sampleCoin rnd rate) rows.length).length = train.length := by
    rw [htrain]; unfold Spec.trainSet; rw [List.length_map]
  have hrows1 : 1 ≤ rows.length := by
    have h := (List.filter_sublist (p := sampleCoin rnd rate) (l := List.range rows.length)).length_le
    rw [List.length_range] at h
    unfold Spec.sampled at hl
    omega
  have htr : ∀ x ∈ train, P x ∧ x.length = dim := fun x hx => by
    rw [htrain] at hx
    obtain ⟨v, hv, rfl⟩ := trainSet_mem hx
    exact hconv v hv
  have hml : ((List.range parts).map mem).length = parts := by simp
  rw [e, hl, matRows_flatten (fun v hv => (htr v hv).2)]
  rcases C84_kmeans hR hT reps (mem := (List.range parts).map mem) (by omega) hmax htr (by omega) hinit with h | ⟨first, last, ek, h1, h2, h3, h4, h5⟩
  · left; refine ⟨?_, h⟩; rw [h]; rfl
  · right
    rw [hml] at h1 h4
    have hdist : ∀ x, centreDists conv O.entry (matBytes last) parts dim x = last.map (O.entry (conv x)) :=
      centreDists_matBytes (fun v hv => (h5 v hv).2) h4
    have hlt : ∀ x ∈ rows, ∀ y ∈ last.map (O.entry (conv x)), y.lt F32.fmax = true := by
      intro x hx y hy
      obtain ⟨c, hc, rfl⟩ := List.mem_map.1 hy
      exact hT.entry _ _ (hconv x hx).1 (h5 c hc).1
    obtain ⟨place, hpl, es⟩ := C54_shards true ⟨blk, R.ccBlk, parts, kb, centreDists conv O.entry (matBytes last) parts dim, pops⟩
      hpops es dim rows j2 hj3 hj4 hrows1 hn hd hrow hblk hR.ccBlk hf hkb (by
        intro x hx
        unfold GoodRow
        dsimp only
        rw [hdist]
        refine ⟨by simp [h4], fun y hy => F32.isNum_of_lt_left (hlt x hx y hy), fun _ => ?_⟩
        obtain ⟨c, hc⟩ := List.exists_mem_of_length_pos (show 0 < last.length by omega)
        exact ⟨_, List.mem_map_of_mem hc, hlt x hx _ (List.mem_map_of_mem hc)⟩)
    dsimp only at hpl es
    refine ⟨first, last, h1, h2, h3, h4, fun c hc => (h5 c hc).2, place, ?_, ?_⟩
    · intro p x hx
      have := hpl p x hx
      rw [hdist] at this
      exact this
    · rw [ek, Res.ok_bind, es, Res.ok_bind, u32, u32, Nat.mod_eq_of_lt hp, Nat.mod_eq_of_lt hd]
      rfl

/-! ## Product quantisation -/

theorem coords_len {a b : Nat} {v : List F32} (h : b ≤ v.length) : (Spec.coords a b v).length = b - a := by
  unfold Spec.coords
  rw [List.length_drop, List.length_take]; omega

theorem flatten_inj {w : Nat} {a b : List (List F32)} (ha : ∀ v ∈ a, v.length = w) (hb : ∀ v ∈ b, v.length = w) (hl : a.length = b.length)
    (h : a.flatten = b.flatten) : a = b := by
  rw [← matRows_flatten ha, ← matRows_flatten hb, hl, h]

/-- **C84 (product quantisation).** If k-means++ ends for every chunk, the centres that training writes are, chunk by chunk, those
that Lloyd's algorithm reaches from training vectors. -/
theorem C84_pq {O : KmOps D} {R : Nat → KmRun D} (hR : ∀ i, (R i).OK) {P : Nat → List F32 → Prop} (mem : Nat → Nat → List F32) (reps : Nat)
    {T : TrainPar} (hk : T.kmeans = pqKmeans O R mem T.nc reps)
    (hT : ∀ i, i < T.chunks → Tame O (Spec.chunkStart T.dim T.chunks (i + 1) - Spec.chunkStart T.dim T.chunks i) (P i))
    (c1 : 1 ≤ T.chunks) (cd : T.chunks ≤ T.dim) (hdim : T.dim < 4294967296) (hsize : T.nc * T.dim < 4294967296) (hnc : 1 ≤ T.nc)
    {rows : List (List F32)} (hrow : ∀ v ∈ rows, v.length = T.dim) (hmax : rows.length ≤ 8388608)
    (hinit : ∀ i, i < T.chunks → (R i).init < rows.length)
    (hP : ∀ i, i < T.chunks → ∀ v ∈ centredRows T rows, P i (Spec.coords (Spec.chunkStart T.dim T.chunks i) (Spec.chunkStart T.dim T.chunks (i + 1)) v))
    (hends : ∀ i, i < T.chunks → T.kmeans i ((centredRows T rows).map
      (Spec.coords (Spec.chunkStart T.dim T.chunks i) (Spec.chunkStart T.dim T.chunks (i + 1)))) ≠ .error .loop)
    (old : Option Bytes) (j : LoadJunk) (hold : NoPivots T old j) (jmem : Nat → F32) (Q : PqPar) (hQ : Q.nc = T.nc) (hQc : Q.chunks = T.chunks) :
    TrainInput T rows ∧
    ∃ piv : List (List F32),
      trainPivots T rows.length rows.flatten old j jmem =
        .ok (some (pqFilesOf Q T.dim piv (centroidOf T rows) (List.range T.dim) (chunkOffs T))) ∧
      piv.length = T.nc ∧ (∀ v ∈ piv, v.length = T.dim) ∧
      ∀ i, i < T.chunks → ∀ a b, a = Spec.chunkStart T.dim T.chunks i → b = Spec.chunkStart T.dim T.chunks (i + 1) →
        (∃ first, first.length = T.nc ∧ (∀ c ∈ first, c ∈ (centredRows T rows).map (Spec.coords a b)) ∧
          LloydRun O (R i).ch (b - a) reps ((centredRows T rows).map (Spec.coords a b)) first (piv.map (Spec.coords a b))) ∧
        (∀ v ∈ piv, P i (Spec.coords a b v)) ∧
        T.kmeans i ((centredRows T rows).map (Spec.coords a b)) = .ok (piv.map (Spec.coords a b)).flatten := by
  have hle : ∀ i, i ≤ T.chunks → Spec.chunkStart T.dim T.chunks i ≤ T.dim := fun i hi => by
    have := chunkStart_mono T.dim T.chunks hi
    rwa [chunkStart_end c1] at this
  have hcl : (centredRows T rows).length = rows.length := by unfold centredRows; split <;> simp
  have hcr := centredRows_length T rows hrow
  have key : ∀ i, i < T.chunks → ∀ a b, a = Spec.chunkStart T.dim T.chunks i → b = Spec.chunkStart T.dim T.chunks (i + 1) →
      ∃ first last, T.kmeans i ((centredRows T rows).map (Spec.coords a b)) = .ok last.flatten ∧ first.length = T.nc ∧
        (∀ c ∈ first, c ∈ (centredRows T rows).map (Spec.coords a b)) ∧
        LloydRun O (R i).ch (b - a) reps ((centredRows T rows).map (Spec.coords a b)) first last ∧
        last.length = T.nc ∧ ∀ c ∈ last, P i c ∧ c.length = b - a := by
    intro i hi a b ha hb
    subst ha hb
    have hne := hends i hi
    have hml : ((List.range T.nc).map (mem i)).length = T.nc := by simp
    rw [hk] at hne ⊢
    unfold pqKmeans at hne ⊢
    have hw : (((centredRows T rows).map (Spec.coords (Spec.chunkStart T.dim T.chunks i) (Spec.chunkStart T.dim T.chunks (i + 1)))).headD []).length =
        Spec.chunkStart T.dim T.chunks (i + 1) - Spec.chunkStart T.dim T.chunks i := by
      obtain ⟨x, l, hx⟩ : ∃ x l, centredRows T rows = x :: l := by
        have := hinit i hi
        rw [← hcl] at this
        exact List.exists_cons_of_length_pos (by omega)
      rw [hx, List.map_cons, List.headD_cons]
      apply coords_len
      rw [hcr x (by rw [hx]; simp)]
      exact hle (i + 1) (by omega)
    rw [hw] at hne ⊢
    rcases C84_kmeans (hR i) (hT i hi) reps (data := (centredRows T rows).map
        (Spec.coords (Spec.chunkStart T.dim T.chunks i) (Spec.chunkStart T.dim T.chunks (i + 1)))) (mem := (List.range T.nc).map (mem i))
        (by have := hinit i hi; rw [List.length_map, hcl]; omega) (by rw [List.length_map, hcl]; exact hmax) (by
          intro x hx
          obtain ⟨v, hv, rfl⟩ := List.mem_map.1 hx
          refine ⟨hP i hi v hv, coords_len ?_⟩
          rw [hcr v hv]; exact hle (i + 1) (by omega)) (by omega) (by rw [List.length_map, hcl]; exact hinit i hi) with h | ⟨first, last, e, h1, h2, h3, h4, h5⟩
    · exact absurd (by rw [h]; rfl) hne
    · rw [hml] at h1 h4
      exact ⟨first, last, by rw [e, Res.ok_bind], h1, h2, h3, h4, h5⟩
  have hI : TrainInput T rows := ⟨c1, cd, hdim, hsize, hrow, fun i hi a b ha hb => by
    obtain ⟨first, last, e, -, -, -, h4, h5⟩ := key i hi a b ha hb
    exact ⟨_, e, by rw [flatten_len_f last (fun c hc => (h5 c hc).2), h4]⟩⟩
  refine ⟨hI, ?_⟩
  obtain ⟨piv, e, hpl, hpr, hkm⟩ := C73_train hI old j hold jmem Q hQ hQc
  refine ⟨piv, e, hpl, hpr, ?_⟩
  intro i hi a b ha hb
  obtain ⟨first, last, e1, h1, h2, h3, h4, h5⟩ := key i hi a b ha hb
  have e2 := hkm i hi a b ha hb
  have e3 := e2
  rw [e1] at e2
  have hll : last = piv.map (Spec.coords a b) := flatten_inj (fun c hc => (h5 c hc).2) (fun v hv => by
    obtain ⟨u, hu, rfl⟩ := List.mem_map.1 hv
    apply coords_len
    rw [hpr u hu, hb]; exact hle (i + 1) (by omega)) (by rw [h4, List.length_map, hpl]) (Except.ok.inj e2)
  refine ⟨⟨first, h1, h2, hll ▸ h3⟩, fun v hv => (h5 _ (hll ▸ List.mem_map_of_mem hv)).1, e3⟩

/-! ## The build program for IVF -/

/-- What the build program depends on when the training is the one of the program. -/
def ivfTrainEnv (es : Nat) (conv : Bytes → List F32) (rnd : Nat → F32) (O : KmOps D) (R : KmRun D) (reps : Nat) (mem : Nat → List F32)
    (pops : List F32 → List Nat) (sched : Nat → List (Nat × Nat) → List (Nat × Nat)) : IvfTrain :=
  ⟨centreDists conv O.entry, trainIvf es conv rnd O R reps mem, pops, sched⟩

/-- **C84 (from the command line).** With the training of the program the IVF build and search programs do what C83 says, if between
1 and 2^23 vectors are sampled: the only other outcome is that k-means++ throws darts for ever. -/
theorem C84_program (env : BuildEnv IvfTrain) (senv : SearchEnv) (pops : List F32 → List Nat) (fs : FS Bytes) (argv argv2 : List Bytes)
    (a : ListArgs F32) (s : SearchArgs)
    (ha : ivfArgs argv = .ok (.run a)) (hs : searchIvfArgs argv2 = .ok (.run s)) (h1 : s.elem = a.elem) (h3 : s.index = a.save)
    (d : DistClass) (hd : getDistance a.elem .l2 = .ok d) (hcmp : senv.cmp = env.cmp) (hsl : senv.sortL = env.sortL)
    (hsort : IsStrSort env.sortL) (hj : env.junk.WF) (hj' : senv.junk.WF)
    (dim : Nat) (rows : List Bytes) (b : Bytes) (labelFile : Option Bytes) (lab : Nat → List Label) (hb : fs a.data = some b)
    (hlf : LabelFileArg fs a.labels labelFile) (hin : InputOK a.elem.size dim rows b [] labelFile lab) (hdim : dim ≤ 4294967288)
    (y : F32) (hy : toF32 a.last.text = .ok y)
    (conv : Bytes → List F32) (rnd : Nat → F32) (O : KmOps D) (R : KmRun D) (hR : R.OK) (P : List F32 → Prop) (hT : Tame O (roundUp8 dim) P)
    (reps : Nat) (mem : Nat → List F32) (bpops : List F32 → List Nat) (sched : Nat → List (Nat × Nat) → List (Nat × Nat))
    (henv : env.run = ivfTrainEnv a.elem.size conv rnd O R reps mem bpops sched) (hbpops : IsPopOrder bpops) (hsched : ∀ b l, (sched b l).Perm l)
    (hconv : ∀ i, i < rows.length → P (conv (Spec.padTo (roundUp8 dim * a.elem.size) (rows.getD i []))) ∧
      (conv (Spec.padTo (roundUp8 dim * a.elem.size) (rows.getD i []))).length = roundUp8 dim)
    (hnum1 : 1 ≤ a.num) (hsize : a.num * roundUp8 dim * 4 + 8 < 2305843009213693952)
    (hinit : R.init < (Spec.sampled (sampleCoin rnd y) rows.length).length)
    (hmax : (Spec.sampled (sampleCoin rnd y) rows.length).length ≤ 8388608)
    (hpops : IsPopOrder pops) (hflt : s.filters ≠ [] → labelFile ≠ none)
    (qdim : Nat) (qrows : List Bytes) (qb : Bytes) (truth : Option Truth)
    (hS : (progOf senv s 1 qdim qrows qb truth).OK a.elem.size (roundUp8 dim) fs)
    (hq : ∀ p, s.query ≠ ivfName a.save p) (ht : ∀ p, s.truth ≠ ivfName a.save p) (hK1 : 1 ≤ s.K) (hK : s.K ≤ 2147483648) (hLs : ∀ L ∈ s.Ls, L ≤ a.num)
    (hnum : ∀ k, k < qrows.length → (∀ i, i < rows.length →
        (Spec.fileDist (env.cmp d) a.elem.size dim rows (Spec.queryVec a.elem.size qdim (roundUp8 dim) qrows k) i).lt F32.fmax = true) ∧
      P (conv (Spec.queryVec a.elem.size qdim (roundUp8 dim) qrows k))) :
    (buildIvfMain env argv fs = .error .loop ∧
      kmeansF O R (roundUp8 dim) reps (Spec.trainSet (sampleCoin rnd y) conv (rows.map (Spec.padTo (roundUp8 dim * a.elem.size)))) ((List.range a.num).map mem) =
        .error .loop) ∨
    ∃ first last ops rs ops', first.length = a.num ∧
      (∀ c ∈ first, c ∈ Spec.trainSet (sampleCoin rnd y) conv (rows.map (Spec.padTo (roundUp8 dim * a.elem.size)))) ∧
      LloydRun O R.ch (roundUp8 dim) reps (Spec.trainSet (sampleCoin rnd y) conv (rows.map (Spec.padTo (roundUp8 dim * a.elem.size)))) first last ∧
      last.length = a.num ∧ (∀ c ∈ last, P c ∧ c.length = roundUp8 dim) ∧
      (∀ x, env.run.cdist (matBytes last) a.num (roundUp8 dim) x = last.map (O.entry (conv x))) ∧
      (∀ o1, ctorObj env.sortL env.junk a.elem.size (some b) [] (labelFile.map some) = .ok o1 → env.run.train a.num y o1 = .ok (matBytes last)) ∧
      buildIvfMain env argv fs = .ok (.run ops) ∧
      searchIvfMain senv env.run.cdist pops argv2 (runOps ops fs) = .ok (.run (rs, ops')) ∧
      (progOf senv s 1 qdim qrows qb truth).Gives (runOps ops fs) (fun L k ids =>
        ids.Nodup ∧ (∀ i ∈ ids, i < rows.length ∧ Matches true [48] s.filters (lab i)) ∧
        ids.Pairwise (fun i i' => (Spec.fileDist (env.cmp d) a.elem.size dim rows (Spec.queryVec a.elem.size qdim (roundUp8 dim) qrows k) i).le
          (Spec.fileDist (env.cmp d) a.elem.size dim rows (Spec.queryVec a.elem.size qdim (roundUp8 dim) qrows k) i') = true) ∧
        (L = a.num → KNearest s.K ((Finset.range rows.length).filter (fun i => Matches true [48] s.filters (lab i)))
          (Spec.fileDist (env.cmp d) a.elem.size dim rows (Spec.queryVec a.elem.size qdim (roundUp8 dim) qrows k))
          (ids.map (fun i => (i, Spec.fileDist (env.cmp d) a.elem.size dim rows (Spec.queryVec a.elem.size qdim (roundUp8 dim) qrows k) i)))) ∧
        Spec.ClusterAnswer a.num L (env.run.cdist (matBytes last) a.num (roundUp8 dim) (Spec.queryVec a.elem.size qdim (roundUp8 dim) qrows k))
          (fun i => env.run.cdist (matBytes last) a.num (roundUp8 dim) (Spec.padTo (roundUp8 dim * a.elem.size) (rows.getD i []))) rows.length
          (fun i => Matches true [48] s.filters (lab i)) s.K (Spec.fileDist (env.cmp d) a.elem.size dim rows (Spec.queryVec a.elem.size qdim (roundUp8 dim) qrows k)) ids) rs ops' := by
  obtain ⟨o1, ec, ho⟩ := ctorObj_spec env.sortL hsort env.junk hj hin
  obtain ⟨-, -, -, w, k, -, -, -, hN, -⟩ := (C83_ivf_args argv a).1 ha
  have hdl : dim ≤ roundUp8 dim := (roundUp8_spec dim).1
  obtain ⟨vecs, hvecs⟩ : ∃ vecs, vecs = rows.map (Spec.padTo (roundUp8 dim * a.elem.size)) := ⟨_, rfl⟩
  have hvl : vecs.length = rows.length := by rw [hvecs]; simp
  have hvec : ∀ x ∈ vecs, ∃ i, i < rows.length ∧ x = Spec.padTo (roundUp8 dim * a.elem.size) (rows.getD i []) := by
    intro x hx
    rw [hvecs] at hx
    obtain ⟨r, hr, rfl⟩ := List.mem_map.1 hx
    obtain ⟨i, hi, rfl⟩ := List.getElem_of_mem hr
    exact ⟨i, hi, by rw [List.getD_eq_getElem?_getD, List.getElem?_eq_getElem hi, Option.getD_some]⟩
  have hvrow : ∀ x ∈ vecs, x.length = o1.adim * a.elem.size := by
    intro x hx
    rw [hvecs] at hx
    obtain ⟨r, hr, rfl⟩ := List.mem_map.1 hx
    rw [ho.adim]
    exact padTo_length hin.matrix (List.mem_map_of_mem hr)
  have htl : (Spec.trainSet (sampleCoin rnd y) conv vecs).length = (Spec.sampled (sampleCoin rnd y) rows.length).length := by
    unfold Spec.trainSet; rw [List.length_map, hvl]
  have hC := (C84_ivf a.elem.size conv rnd hR reps mem a.num y o1 (by rw [ho.adim]; exact hT) vecs (by rw [hvecs]; exact ho.data) (by rw [hvl]; exact ho.n)
    hvrow (fun x hx => by
      obtain ⟨i, hi, rfl⟩ := hvec x hx
      rw [ho.adim]
      exact hconv i hi) _ rfl (by rw [htl]; exact hmax)).2 (by rw [htl]; exact hinit) hnum1
  rcases hC with ⟨h, hkl⟩ | ⟨first, last, e, g1, g2, g3, hll, hlast⟩
  · left
    refine ⟨?_, by rw [ho.adim, hvecs] at hkl; exact hkl⟩
    unfold buildIvfMain
    rw [mainOf_run ha]
    unfold done buildIvf
    rw [hb, hlf.eq, ctorFor_ok env hsort hj hd hin ec, Res.ok_bind]
    dsimp only
    have hp : (Params.new.setU32 (ascii "num_clusters") a.num).setF32 (ascii "training_rate") a.last =
      [(ascii "num_clusters", .u32 a.num), (ascii "training_rate", .text a.last.text)].foldl Params.set Params.new := rfl
    rw [getU32_last (name := ascii "num_clusters") hp (uns32_lt hN) rfl, Res.ok_bind, getF32_last (name := ascii "training_rate") hp hy rfl, Res.ok_bind,
      henv]
    unfold ivfTrainEnv
    dsimp only
    rw [h]
    rfl
  · right
    have hadim : ∀ c ∈ last, c.length = roundUp8 dim := fun c hc => by rw [← ho.adim]; exact (hlast c hc).2
    have hcdist : ∀ x, env.run.cdist (matBytes last) a.num (roundUp8 dim) x = last.map (O.entry (conv x)) := by
      intro x
      rw [henv]
      exact centreDists_matBytes hadim hll x
    have hrow : ∀ x, P (conv x) → CentreRow a.num (env.run.cdist (matBytes last) a.num (roundUp8 dim) x) := by
      intro x hx
      rw [hcdist]
      have hlt : ∀ y ∈ last.map (O.entry (conv x)), y.lt F32.fmax = true := by
        intro y hy
        obtain ⟨c, hc, rfl⟩ := List.mem_map.1 hy
        exact hT.entry _ _ hx (hlast c hc).1
      refine ⟨by simp [hll], fun y hy => F32.isNum_of_lt_left (hlt y hy), ?_⟩
      obtain ⟨c, hc⟩ := List.exists_mem_of_length_pos (show 0 < last.length by omega)
      exact ⟨_, List.mem_map_of_mem hc, hlt _ (List.mem_map_of_mem hc)⟩
    have htrain : ∀ o2, ctorObj env.sortL env.junk a.elem.size (some b) [] (labelFile.map some) = .ok o2 → env.run.train a.num y o2 = .ok (matBytes last) := by
      intro o2 e2
      have : o2 = o1 := Except.ok.inj (e2.symm.trans ec)
      rw [this, henv]
      exact e
    have hok : (⟨a.num, matBytes last, env.run.pops, env.run.sched⟩ : IvfRun).OK (roundUp8 dim) (last.map (fun c => le32s (c.map (fun x => x.bits.toNat)))) := by
      refine ⟨hnum1, uns32_lt hN, matBytes_rows last, ?_, by simp [hll], hsize, ?_, ?_⟩
      · intro r hr
        obtain ⟨c, hc, rfl⟩ := List.mem_map.1 hr
        rw [le32s_length, List.length_map, hadim c hc, Nat.mul_comm]
      · rw [henv]; exact hbpops
      · rw [henv]; exact hsched
    obtain ⟨ops, rs, ops', x1, x2, x3⟩ := C83_ivf env senv pops fs argv argv2 a s ha hs h1 h3 d hd hcmp hsl hsort hj hj' dim rows b labelFile lab hb hlf hin hdim y hy
      (matBytes last) (last.map (fun c => le32s (c.map (fun x => x.bits.toNat)))) htrain hok (fun i hi => hrow _ (hconv i hi).1) hpops hflt qdim qrows qb truth hS hq ht hK1 hK hLs
      (fun k hk => ⟨(hnum k hk).1, hrow _ (hnum k hk).2⟩)
    rw [ho.adim] at g3 hlast
    rw [hvecs] at g2 g3
    exact ⟨first, last, ops, rs, ops', g1, g2, g3, hll, hlast, hcdist, htrain, x1, x2, x3⟩

/-- **C84 (fails for a rate of 0, or no clusters).** If no vector is sampled, in particular with a training rate of at most 0, the
behaviour of the build program is undefined, and so it is with 0 clusters. -/
theorem C84_program_undefined (env : BuildEnv IvfTrain) (fs : FS Bytes) (argv : List Bytes) (a : ListArgs F32)
    (ha : ivfArgs argv = .ok (.run a)) (d : DistClass) (hd : getDistance a.elem .l2 = .ok d)
    (hsort : IsStrSort env.sortL) (hj : env.junk.WF)
    (dim : Nat) (rows : List Bytes) (b : Bytes) (labelFile : Option Bytes) (lab : Nat → List Label) (hb : fs a.data = some b)
    (hlf : LabelFileArg fs a.labels labelFile) (hin : InputOK a.elem.size dim rows b [] labelFile lab)
    (y : F32) (hy : toF32 a.last.text = .ok y)
    (conv : Bytes → List F32) (rnd : Nat → F32) (hrnd : ∀ i, F32.zero.le (rnd i) = true ∧ (rnd i).lt F32.one = true) (O : KmOps D) (R : KmRun D)
    (reps : Nat) (mem : Nat → List F32) (bpops : List F32 → List Nat) (sched : Nat → List (Nat × Nat) → List (Nat × Nat))
    (henv : env.run = ivfTrainEnv a.elem.size conv rnd O R reps mem bpops sched)
    (hconv : ∀ i, i < rows.length → (conv (Spec.padTo (roundUp8 dim * a.elem.size) (rows.getD i []))).length = roundUp8 dim)
    (hmax : (Spec.sampled (sampleCoin rnd y) rows.length).length ≤ 8388608)
    (hbad : Spec.sampled (sampleCoin rnd y) rows.length = [] ∨ y.le F32.zero = true ∨ a.num = 0) :
    buildIvfMain env argv fs = .error .ub := by
  obtain ⟨o1, ec, ho⟩ := ctorObj_spec env.sortL hsort env.junk hj hin
  obtain ⟨-, -, -, w, k, -, -, -, hN, -⟩ := (C83_ivf_args argv a).1 ha
  have hdl : dim ≤ roundUp8 dim := (roundUp8_spec dim).1
  have hbad : Spec.sampled (sampleCoin rnd y) rows.length = [] ∨ a.num = 0 := by
    rcases hbad with h | h | h
    · exact Or.inl h
    · exact Or.inl ((C84_rate rnd hrnd y _).1 h)
    · exact Or.inr h
  have hvl : (rows.map (Spec.padTo (roundUp8 dim * a.elem.size))).length = rows.length := by simp
  have htl : (Spec.trainSet (sampleCoin rnd y) conv (rows.map (Spec.padTo (roundUp8 dim * a.elem.size)))).length =
      (Spec.sampled (sampleCoin rnd y) rows.length).length := by
    unfold Spec.trainSet; rw [List.length_map, hvl]
  have e := trainIvf_eq a.elem.size conv rnd O R reps mem a.num y o1 (rows.map (Spec.padTo (roundUp8 dim * a.elem.size))) ho.data (by rw [hvl]; exact ho.n)
    (by
      intro x hx
      obtain ⟨r, hr, rfl⟩ := List.mem_map.1 hx
      rw [ho.adim]
      exact padTo_length hin.matrix (List.mem_map_of_mem hr))
    (by
      intro x hx
      obtain ⟨r, hr, rfl⟩ := List.mem_map.1 hx
      obtain ⟨i, hi, rfl⟩ := List.getElem_of_mem hr
      have := hconv i hi
      rw [List.getD_eq_getElem?_getD, List.getElem?_eq_getElem hi, Option.getD_some] at this
      rw [ho.adim]; exact this)
  rw [C84_limits O R o1.adim reps _ _ (by rw [htl]; exact hmax) (hbad.imp (fun h => by
    unfold Spec.trainSet; rw [hvl, h]; rfl) (fun h => by rw [h]; rfl))] at e
  unfold buildIvfMain
  rw [mainOf_run ha]
  unfold done buildIvf
  rw [hb, hlf.eq, ctorFor_ok env hsort hj hd hin ec, Res.ok_bind]
  dsimp only
  have hp : (Params.new.setU32 (ascii "num_clusters") a.num).setF32 (ascii "training_rate") a.last =
    [(ascii "num_clusters", .u32 a.num), (ascii "training_rate", .text a.last.text)].foldl Params.set Params.new := rfl
  rw [getU32_last (name := ascii "num_clusters") hp (uns32_lt hN) rfl, Res.ok_bind, getF32_last (name := ascii "training_rate") hp hy rfl, Res.ok_bind,
    henv]
  unfold ivfTrainEnv
  dsimp only
  rw [e]
  rfl

/-! ## Examples -/

/-- Random numbers 0.25 and 0.75 in turn. -/
def exRnd (i : Nat) : F32 := if i % 2 = 0 then ⟨0x3e800000#32⟩ else ⟨0x3f400000#32⟩

theorem exRnd_range (i : Nat) : F32.zero.le (exRnd i) = true ∧ (exRnd i).lt F32.one = true := by
  unfold exRnd
  split <;> decide

def exHalf : F32 := ⟨0x3f000000#32⟩

def exConv (x : Bytes) : List F32 := x.map (fun b => exNat b.toNat)

example : Spec.sampled (sampleCoin exRnd F32.zero) 5 = [] ∧ Spec.sampled (sampleCoin exRnd F32.nan) 3 = [0, 1, 2] ∧
    Spec.sampled (sampleCoin exRnd exHalf) 5 = [0, 2, 4] :=
  ⟨(C84_rate exRnd exRnd_range _ _).1 (by decide), by rw [(C84_rate exRnd exRnd_range _ _).2.1 (by decide)]; decide,
    by rw [(C84_rate exRnd exRnd_range _ _).2.2 (by decide)]; decide⟩

/-- Ten points, of which every other is used for training: 49, 54, 55, 56 and 57. -/
def exKmObj : IdxObj := { IdxObj.fresh with n := 10, adim := 1, data := exRows10.flatten }

example : ∃ first last, trainIvf 1 exConv exRnd exKm exKmRun 12 (fun _ => []) 2 exHalf exKmObj = .ok (matBytes last) ∧ first.length = 2 ∧
    LloydRun exKm 2 1 12 ([49, 54, 55, 56, 57].map (fun n => [exNat n])) first last :=
  match (C84_ivf 1 exConv exRnd exKmRun_ok 12 (fun _ => []) 2 exHalf exKmObj (exKm_tame 1) exRows10 rfl rfl (by decide +kernel)
    (by decide +kernel) ([49, 54, 55, 56, 57].map (fun n => [exNat n])) (by decide +kernel) (by decide)).2 (by decide) (by decide) with
  | .inl h => absurd h (by decide +kernel)
  | .inr ⟨f, l, h1, h2, _, h4, _⟩ => ⟨f, l, h1, h2, h4⟩

/-- The centres are 49 and 55. -/
example : trainIvf 1 exConv exRnd exKm exKmRun 12 (fun _ => []) 2 exHalf exKmObj = .ok (matBytes [[exNat 49], [exNat 55]]) := by
  decide +kernel

example : ∃ first last place, LloydRun exKm 2 1 12 ([49, 54, 55, 56, 57].map (fun n => [exNat n])) first last ∧
    partitionData 1 exConv exRnd exKm exKmRun (fun _ => []) 3 exPops exHalf 2 12 1 (some (Spec.binFile 1 exRows10)) exTruthJunk exTruthJunk =
      .ok (Spec.floatFile 2 1 last.flatten, some ((List.range 2).map (fun c =>
        (Spec.binFile 1 ((Spec.shardOf place 10 c).map (fun p => exRows10.getD p [])), Spec.idFile (Spec.shardOf place 10 c))))) :=
  match C84_partition 1 1 (by decide) exConv exRnd exKmRun_ok (exKm_tame 1) (fun _ => []) 3 (by decide) exPops exPops_isPopOrder exHalf 2 12 1
    (by decide) (by decide) (by decide) exRows10 (by decide) (by decide) (by decide) (by decide) (by decide +kernel) exTruthJunk exTruthJunk
    rfl rfl rfl rfl ([49, 54, 55, 56, 57].map (fun n => [exNat n])) (by decide +kernel) (by decide) (by decide) with
  | .inl h => absurd h (by decide +kernel)
  | .inr ⟨f, l, _, _, h3, _, _, pl, _, h7⟩ => ⟨f, l, pl, h3, h7⟩

/-- Each point in the file of its centre. -/
example : partitionData 1 exConv exRnd exKm exKmRun (fun _ => []) 3 exPops exHalf 2 12 1 (some (Spec.binFile 1 exRows10)) exTruthJunk exTruthJunk =
    .ok (Spec.floatFile 2 1 [exNat 49, exNat 55], some
      [(Spec.binFile 1 [[49], [50], [46], [45], [44], [43]], Spec.idFile [0, 1, 3, 5, 7, 9]),
        (Spec.binFile 1 [[54], [55], [56], [57]], Spec.idFile [2, 4, 6, 8])]) := by
  decide +kernel

def exKmTrain : TrainPar := ⟨2, 2, 2, false, fun a _ => a, fun a _ => a, fun s _ => s, pqKmeans exKm (fun _ => exKmRun) (fun _ _ => []) 2 12⟩

example : ∃ piv : List (List F32), trainPivots exKmTrain 5 exKmPts.flatten none exLoadJunk (fun _ => F32.nan) =
    .ok (some (pqFilesOf exPq 2 piv (centroidOf exKmTrain exKmPts) (List.range 2) (chunkOffs exKmTrain))) ∧
    ∃ first, LloydRun exKm 2 1 12 (exKmPts.map (fun v => [v.getD 1 F32.zero])) first (piv.map (Spec.coords 1 2)) :=
  let ⟨_, piv, h1, _, _, h4⟩ := C84_pq (R := fun _ => exKmRun) (P := fun _ _ => True) (fun _ => exKmRun_ok) (fun _ _ => []) 12 (T := exKmTrain) rfl
    (fun _ _ => exKm_tame _) (by decide) (by decide) (by decide) (by decide) (by decide) (rows := exKmPts) (by decide) (by decide) (by decide)
    (fun _ _ _ _ => trivial) (by decide +kernel) none exLoadJunk (Or.inl rfl) (fun _ => F32.nan) exPq rfl rfl
  let ⟨⟨f, _, _, h⟩, _⟩ := h4 1 (by decide) 1 2 rfl rfl
  ⟨piv, h1, f, h⟩

/-- The centres are (1, 1) and (21, 21). -/
example : trainPivots exKmTrain 5 exKmPts.flatten none exLoadJunk (fun _ => F32.nan) =
    .ok (some (pqFilesOf exPq 2 [[exNat 1, exNat 1], [exNat 21, exNat 21]] [F32.zero, F32.zero] [0, 1] [0, 1, 2])) := by
  decide +kernel

def exKmEnv : BuildEnv IvfTrain := ⟨exStrSort, exJunk, fun _ => exCmpB, ivfTrainEnv 1 exConv exRnd exKm exKmRun 12 (fun _ => []) exPops (fun _ l => l.reverse)⟩

example : ∃ ops rs ops', buildIvfMain exKmEnv exIvfLine exCmdFs = .ok (.run ops) ∧
    searchIvfMain exSearchEnv exKmEnv.run.cdist exPops exIvfSearchLine (runOps ops exCmdFs) = .ok (.run (rs, ops')) :=
  match C84_program exKmEnv exSearchEnv exPops exCmdFs exIvfLine exIvfSearchLine ⟨.uint8, ascii "d", ascii "t", ascii "i", 2, ⟨0x3f000000#32⟩⟩
    ⟨.uint8, .l2, [], ascii "i", 1, ascii "q", ascii "g", 2, ascii "r", [ascii "a"], [1, 2]⟩ (by decide +kernel) (by decide +kernel) rfl rfl .l2UInt8 rfl rfl rfl
    exStrSort_isStrSort exJunk_WF exJunk_WF 1 exRows10 exFile10 (some exLabels10) exLab exCmdFs_q.2.2.1 (Or.inr ⟨by decide, by simp, exCmdFs_q.2.2.2⟩)
    exInput10 (by decide) exHalf (by decide +kernel) exConv exRnd exKm exKmRun exKmRun_ok (fun _ => True) (exKm_tame _) 12 (fun _ => []) exPops
    (fun _ l => l.reverse) rfl exPops_isPopOrder (fun _ l => l.reverse_perm) (by decide +kernel) (by decide) (by decide) (by decide +kernel) (by decide +kernel)
    exPops_isPopOrder (by simp) 1 [[51], [55]] exQueries (some ⟨2, 2, [1, 0, 4, 2], none⟩)
    (exProgOK 11 exCmdFs exCmdFs_q.1 exCmdFs_q.2.1 _ 1 rfl rfl rfl (by simp) ⟨2, by simp, by decide⟩)
    (by
      rintro (- | p)
      · decide +kernel
      · exact (exCmdNames p).1)
    (by
      rintro (- | p)
      · decide +kernel
      · exact (exCmdNames p).2.1) (by decide) (by decide) (by simp)
    (by
      have h : ∀ k < 2, ∀ i < 10, (Spec.fileDist exCmpB 1 1 exRows10 (Spec.queryVec 1 1 8 [[51], [55]] k) i).lt F32.fmax = true := by decide +kernel
      exact fun k hk => ⟨h k hk, trivial⟩) with
  | .inl h => absurd h (by
      have e : (match buildIvfMain exKmEnv exIvfLine exCmdFs with | .ok _ => true | .error _ => false) = true := by decide +kernel
      intro h; rw [h.1] at e; cases e)
  | .inr ⟨_, _, ops, rs, ops', _, _, _, _, _, _, _, h1, h2, _⟩ => ⟨ops, rs, ops', h1, h2⟩

/-- The build program with a training rate of 0. -/
example : buildIvfMain exKmEnv (cmdWords ["build", "uint8", "d", "1", "t", "i", "2", "0"]) exCmdFs = .error .ub :=
  C84_program_undefined exKmEnv exCmdFs _ ⟨.uint8, ascii "d", ascii "t", ascii "i", 2, F32.zero⟩ (by decide +kernel) .l2UInt8 rfl exStrSort_isStrSort exJunk_WF
    1 exRows10 exFile10 (some exLabels10) exLab exCmdFs_q.2.2.1 (Or.inr ⟨by decide, by simp, exCmdFs_q.2.2.2⟩) exInput10 F32.zero (by decide +kernel)
    exConv exRnd exRnd_range exKm exKmRun 12 (fun _ => []) exPops (fun _ l => l.reverse) rfl (by decide +kernel) (by decide +kernel)
    (Or.inr (Or.inl (by decide)))

end Grann
