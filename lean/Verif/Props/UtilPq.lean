import Verif.Props.UtilTrain
/-!
# C88: `generate_pq` from the command line on
-/

namespace Grann

open Spec (elemWord)

variable {D : Type}

/-- The memory the tools find in the header variables has the right size. -/
structure TrainEnv.WF (env : TrainEnv D) : Prop where
  j : env.j.npts.length = 4 ∧ env.j.dim.length = 4
  j' : env.j'.npts.length = 4 ∧ env.j'.dim.length = 4
  j'' : env.j''.npts.length = 4 ∧ env.j''.dim.length = 4
  j1 : env.j1.npts.length = 4 ∧ env.j1.dim.length = 4
  j2 : env.j2.npts.length = 4 ∧ env.j2.dim.length = 4
  j3 : env.j3.npts.length = 4 ∧ env.j3.dim.length = 4
  j4 : env.j4.npts.length = 4 ∧ env.j4.dim.length = 4

theorem elem_size_le (e : Elem) : e.size ≤ 8 := by cases e <;> decide

theorem sample_train {es dim : Nat} (hes : es ≤ 8) {rows : List Bytes} {coin : Nat → Bool} {conv : Bytes → List F32} {j : TruthJunk}
    (hj : j.npts.length = 4 ∧ j.dim.length = 4) (hn : rows.length < 4294967296) (hd : dim < 4294967296) (hrow : ∀ x ∈ rows, x.length = dim * es)
    (hf : (Spec.binFile dim rows).length < 9223372036854775808) :
    sliceMem es coin conv (some (Spec.binFile dim rows)) j = .ok ((Spec.trainSet coin conv rows).flatten, (Spec.trainSet coin conv rows).length, dim) := by
  rw [C56_memory es dim rows _ conv j hj.1 hj.2 hn hd hes hrow hf]
  unfold Spec.trainSet
  rw [List.length_map, List.flatMap_def, List.map_map]
  rfl

theorem wrap32_nat {n : Nat} (h : n < 4294967296) : wrap32 (n : Int) = n := by
  unfold wrap32; omega

theorem centred_zero {sub : F32 → F32 → F32} {dim : Nat} {v : List F32} (hv : v.length = dim) (hsub : ∀ y ∈ v, sub y F32.zero = y) :
    Spec.centred sub (List.replicate dim F32.zero) (List.range dim) v = v := by
  unfold Spec.centred
  apply List.ext_getElem
  · simp [hv]
  · intro i h1 h2
    rw [List.getElem_map, List.getElem_range, List.getD_eq_getElem?_getD, List.getElem?_eq_getElem h2, Option.getD_some,
      List.getD_eq_getElem?_getD, List.getElem?_replicate]
    rw [if_pos (by omega), Option.getD_some]
    exact hsub _ (List.getElem_mem h2)

/-- **C88 (quantisation).** If no centres of the right shape are there yet, `generate_pq type data prefix chunks rate` leaves five files:
256 centres which are, chunk by chunk, what Lloyd's algorithm reaches from sampled vectors; zero as the mean; the order of the
coordinates; the beginnings of the chunks; and for every vector of the data and every chunk the number of the closest centre,
the first of several.  This requires that k-means++ ends for every chunk. -/
theorem C88_pq (env : TrainEnv D) (hw : env.WF) (hR : ∀ i, (env.run i).OK) (hpops : IsPopOrder env.pops) (a data pre tc r : Bytes) (e : Elem)
    (fs : FS Bytes) (chunks : Nat) (hc : atoi tc = .ok (chunks : Int)) (hname : ∀ i, data ≠ pqName pre i)
    (dim : Nat) (rows : List Bytes) (hn : rows.length < 4294967296) (hrow : ∀ x ∈ rows, x.length = dim * e.size)
    (hf : (Spec.binFile dim rows).length < 9223372036854775808) (hfile : fs data = some (Spec.binFile dim rows))
    (c1 : 1 ≤ chunks) (cd : chunks ≤ dim) (hsize : 256 * dim < 4294967296)
    (start : Nat → Nat) (hstart : start = Spec.chunkStart dim chunks)
    (P : Nat → List F32 → Prop) (hT : ∀ i, i < chunks → Tame env.km (start (i + 1) - start i) (P i))
    (hconv : ∀ x ∈ rows, (env.conv e x).length = dim ∧ (∀ y ∈ env.conv e x, env.sub y F32.zero = y) ∧
      ∀ i, i < chunks → P i (Spec.coords (start i) (start (i + 1)) (env.conv e x)))
    (train : List (List F32)) (htrain : train = Spec.trainSet (sampleCoin env.rnd (atof r)) (env.conv e) rows)
    (hmax : train.length ≤ 8388608) (hinit : ∀ i, i < chunks → (env.run i).init < train.length)
    (hends : ∀ i, i < chunks → pqKmeans env.km env.run env.mem 256 15 i (train.map (Spec.coords (start i) (start (i + 1)))) ≠ .error .loop)
    (hold : fs (pqName pre 0) = none ∨ ∃ n d x, loadBin 4 (fs (pqName pre 0)) env.jt.npts env.jt.dim env.jt.mem = .ok (n, d, x) ∧
      ¬ (n = 256 ∧ d = dim)) :
    ∃ (piv : List (List F32)) (code : Nat → Nat → Nat) (ops : List (FOp Bytes)),
      pqMain env [a, elemWord e, data, pre, tc, r] fs = .ok (.run ops) ∧
      Spec.LeavesAll ops [(pqName pre 0, Spec.floatFile 256 dim piv.flatten), (pqName pre 1, Spec.floatFile dim 1 (List.replicate dim F32.zero)),
        (pqName pre 2, Spec.wordFile dim 1 (List.range dim)), (pqName pre 3, Spec.wordFile (chunks + 1) 1 ((List.range (chunks + 1)).map start)),
        (pqName pre 4, Spec.codeFile 256 chunks rows.length code)] ∧
      piv.length = 256 ∧ (∀ v ∈ piv, v.length = dim) ∧
      ∀ i, i < chunks → ∀ cut, cut = Spec.coords (start i) (start (i + 1)) →
        (∃ first, first.length = 256 ∧ (∀ c ∈ first, c ∈ train.map cut) ∧
          LloydRun env.km (env.run i).ch (start (i + 1) - start i) 15 (train.map cut) first (piv.map cut)) ∧
        ∀ p x, rows[p]? = some x → code p i < 256 ∧
          ∀ c, c < 256 →
            (env.km.entry (cut (env.conv e x)) (cut (piv.getD (code p i) []))).le (env.km.entry (cut (env.conv e x)) (cut (piv.getD c []))) = true ∧
            (c < code p i →
              (env.km.entry (cut (env.conv e x)) (cut (piv.getD (code p i) []))).lt (env.km.entry (cut (env.conv e x)) (cut (piv.getD c []))) = true) := by
  have hdim : dim < 4294967296 := by omega
  subst hstart
  obtain ⟨T, hTT⟩ : ∃ T, T = pqTrainPar env dim chunks := ⟨_, rfl⟩
  obtain ⟨Q, hQ⟩ : ∃ Q, Q = pqDataPar env e chunks := ⟨_, rfl⟩
  have tdim : T.dim = dim := by rw [hTT]; rfl
  have tch : T.chunks = chunks := by rw [hTT]; rfl
  have tnc : T.nc = 256 := by rw [hTT]; rfl
  have tz : T.zeroMean = false := by rw [hTT]; rfl
  have tk : T.kmeans = pqKmeans env.km env.run env.mem T.nc 15 := by rw [hTT]; rfl
  have htr : ∀ x ∈ train, ∃ v ∈ rows, x = env.conv e v := fun x hx => by
    rw [htrain] at hx
    exact trainSet_mem hx
  have hcr : centredRows T train = train := by unfold centredRows; rw [tz]; rfl
  have hce : centroidOf T train = List.replicate dim F32.zero := by unfold centroidOf; rw [tz, tdim]; rfl
  have hNo : NoPivots T (fs (pqName pre 0)) env.jt := by
    unfold NoPivots
    rw [tdim, tnc]
    exact hold
  have hrow1 : 1 ≤ rows.length := by
    have h0 := hinit 0 (by omega)
    have : 0 < train.length := by omega
    obtain ⟨x, hx⟩ := List.exists_mem_of_length_pos this
    obtain ⟨v, hv, -⟩ := htr x hx
    exact List.length_pos_of_mem hv
  have hPQ := C84_pq (O := env.km) (R := env.run) hR (P := P) env.mem 15 (T := T) tk (by rw [tch, tdim]; exact hT) (by omega) (by omega) (by omega)
    (by rw [tnc, tdim]; exact hsize) (by omega) (rows := train) (by
      intro v hv
      obtain ⟨x, hx, rfl⟩ := htr v hv
      rw [tdim]
      exact (hconv x hx).1) hmax (by rw [tch]; exact hinit) (by
      rw [hcr, tch, tdim]
      intro i hi v hv
      obtain ⟨x, hx, rfl⟩ := htr v hv
      exact (hconv x hx).2.2 i hi) (by
      rw [hcr, tch, tdim, tk, tnc]
      exact hends) (fs (pqName pre 0)) env.jt hNo env.memF Q (by rw [hQ, tnc]; rfl) (by rw [hQ, tch]; rfl)
  obtain ⟨hI, piv, hpiv, hpl, hpr, hch⟩ := hPQ
  rw [tnc] at hpl
  rw [tdim] at hpr
  rw [tch, tdim, hcr] at hch
  have hcoord : ∀ i, i < chunks → ∀ v : List F32, v.length = dim →
      (Spec.coords (Spec.chunkStart dim chunks i) (Spec.chunkStart dim chunks (i + 1)) v).length =
        Spec.chunkStart dim chunks (i + 1) - Spec.chunkStart dim chunks i := fun i hi v hv => by
    apply coords_len
    rw [hv]
    have := chunkStart_mono dim chunks (show i + 1 ≤ chunks by omega)
    rwa [chunkStart_end c1] at this
  have hcs : ∀ i, i < chunks → ∀ cs : List (List F32), T.kmeans i (train.map (Spec.coords (Spec.chunkStart dim chunks i) (Spec.chunkStart dim chunks (i + 1)))) =
      .ok cs.flatten → cs.length = 256 → (∀ c ∈ cs, c.length = Spec.chunkStart dim chunks (i + 1) - Spec.chunkStart dim chunks i) →
      cs = piv.map (Spec.coords (Spec.chunkStart dim chunks i) (Spec.chunkStart dim chunks (i + 1))) := by
    intro i hi cs h1 h2 h3
    have := (hch i hi _ _ rfl rfl).2.2
    rw [h1] at this
    refine flatten_inj h3 (fun v hv => ?_) (by rw [h2, List.length_map, hpl]) (Except.ok.inj this)
    obtain ⟨u, hu, rfl⟩ := List.mem_map.1 hv
    exact hcoord i hi u (hpr u hu)
  obtain ⟨code, hrun, hcode⟩ := C73_encode hI (pqFound pre fs) env.jt hNo env.memF (P := Q) (by rw [hQ, tnc]; rfl) (by rw [hQ, tch]; rfl)
    (by omega) (by omega) (by omega) (by rw [hQ]; exact hpops) (by rw [hQ]; exact (hR 0).ccBlk) (by rw [hQ]; show 1 ≤ 5000000; omega) hrow1 hn
    (by rw [hQ, tdim]; exact hrow) (by rw [hQ, tdim]; exact fun x hx => (hconv x hx).1) (by rw [tdim]; exact hf) env.j' env.j1 env.j2 env.j3 env.j4
    hw.j' hw.j1 hw.j2 hw.j3 hw.j4 (by
      rw [hce, hcr, tch, tdim, tnc]
      intro x hx i hi s t hs ht cs h1 h2 h3 Dl hD
      subst hs ht
      have := hcs i hi cs h1 h2 h3
      rw [hQ] at hD
      dsimp only [pqDataPar] at hD
      rw [centred_zero (hconv x hx).1 (hconv x hx).2.1] at hD
      have hlt : ∀ d ∈ Dl, d.lt F32.fmax = true := by
        intro d hd
        rw [hD, this] at hd
        obtain ⟨c, hc, rfl⟩ := List.mem_map.1 hd
        obtain ⟨v, hv, rfl⟩ := List.mem_map.1 hc
        exact (hT i hi).entry _ _ ((hconv x hx).2.2 i hi) ((hch i hi _ _ rfl rfl).2.1 v hv)
      have hl : Dl.length = 256 := by rw [hD, List.length_map, h2]
      refine ⟨hl, fun d hd => F32.isNum_of_lt_left (hlt d hd), ?_⟩
      obtain ⟨d, hd⟩ := List.exists_mem_of_length_pos (show 0 < Dl.length by omega)
      exact ⟨d, hd, hlt d hd⟩)
  rw [tch, tnc, tdim] at hrun
  unfold pqRun at hrun
  rw [show (pqFound pre fs).pivots = fs (pqName pre 0) from rfl, hpiv, Res.ok_bind, Option.getD_some] at hrun
  refine ⟨piv, code, _, ?_, outOps_leaves (l := [(pqName pre 0, Spec.floatFile 256 dim piv.flatten), (pqName pre 1, Spec.floatFile dim 1 (List.replicate dim F32.zero)),
        (pqName pre 2, Spec.wordFile dim 1 (List.range dim)), (pqName pre 3, Spec.wordFile (chunks + 1) 1 ((List.range (chunks + 1)).map (Spec.chunkStart dim chunks))),
        (pqName pre 4, Spec.codeFile 256 chunks rows.length code)]) ?_, hpl, hpr, ?_⟩
  · rw [pqMain_args env _ _ _ _ _ _ fs hc, elemArg_word, wrap32_nat (by omega)]
    show (if _ then _ else _) = _
    rw [if_neg (fun ⟨i, hi⟩ => hname i hi)]
    unfold pqTool
    rw [hfile, sample_train (elem_size_le e) hw.j hn hdim hrow hf, Res.ok_bind, ← htrain]
    dsimp only
    rw [← hTT, ← hQ, hpiv, Res.ok_bind, Option.getD_some, hrun, Res.ok_bind, hce]
    unfold pqFilesOf chunkOffs pqNew
    rw [tch, tdim, hQ]
    rfl
  · have h := (C88_names pre).2.1
    have e : [pqName pre 0, pqName pre 1, pqName pre 2, pqName pre 3, pqName pre 4] = [0, 1, 2, 3, 4].map (pqName pre) := rfl
    show [pqName pre 0, pqName pre 1, pqName pre 2, pqName pre 3, pqName pre 4].Nodup
    rw [e]
    exact List.Nodup.map h (by decide)
  · intro i hi cut hcut
    subst hcut
    obtain ⟨h1, h2, h3⟩ := hch i hi _ _ rfl rfl
    rw [tnc] at h1
    refine ⟨h1, fun p x hx => ?_⟩
    have hxm : x ∈ rows := List.mem_of_getElem? hx
    obtain ⟨cs, k1, k2, k3, -, k5, k6⟩ := hcode p x hx i (by omega) _ _ rfl rfl
    rw [tnc] at k2 k5
    rw [tch, tdim] at k3 k6
    rw [tch, tdim, hcr] at k1
    have hcs' := hcs i hi cs k1 k2 k3
    subst hcs'
    obtain ⟨d, d1, d2, d3⟩ := k6 _ rfl
    rw [hce, hQ] at d1 d2 d3
    dsimp only [pqDataPar] at d1 d2 d3
    rw [centred_zero (hconv x hxm).1 (hconv x hxm).2.1, List.map_map] at d1 d2 d3
    have get : ∀ c, c < 256 → (List.map (env.km.entry (Spec.coords (Spec.chunkStart dim chunks i) (Spec.chunkStart dim chunks (i + 1)) (env.conv e x)) ∘
        Spec.coords (Spec.chunkStart dim chunks i) (Spec.chunkStart dim chunks (i + 1))) piv)[c]? =
        some (env.km.entry (Spec.coords (Spec.chunkStart dim chunks i) (Spec.chunkStart dim chunks (i + 1)) (env.conv e x))
          (Spec.coords (Spec.chunkStart dim chunks i) (Spec.chunkStart dim chunks (i + 1)) (piv.getD c []))) := by
      intro c hc
      rw [List.getElem?_map, List.getElem?_eq_getElem (show c < piv.length by omega), Option.map_some, List.getD_eq_getElem?_getD,
        List.getElem?_eq_getElem (show c < piv.length by omega), Option.getD_some]
      rfl
    have hd : d = _ := Option.some.inj (d1.symm.trans (get _ k5))
    rw [← hd]
    exact ⟨k5, fun c hc => ⟨d2 c _ (get c hc), fun hlt => d3 c _ (get c hc) hlt⟩⟩

/-- **C88 (fails: an old file of centres).** If a file with 256 centres of the dimension of the data is there, whatever data it comes from,
the program does not train: its result does not depend on the sampling rate, and the only file it writes is that of the codes. -/
theorem C88_pq_stale (env : TrainEnv D) (hw : env.WF) (a data pre tc : Bytes) (e : Elem) (fs : FS Bytes) (c : Int)
    (hc : atoi tc = .ok c) (hname : ∀ i, data ≠ pqName pre i) (dim : Nat) (hd : dim < 4294967296) (rows : List Bytes) (hn : rows.length < 4294967296)
    (hrow : ∀ x ∈ rows, x.length = dim * e.size) (hf : (Spec.binFile dim rows).length < 9223372036854775808)
    (hfile : fs data = some (Spec.binFile dim rows)) (f x : Bytes) (hold : fs (pqName pre 0) = some f)
    (hl : loadBin 4 (some f) env.jt.npts env.jt.dim env.jt.mem = .ok (256, dim, x)) :
    ∃ y : Res Bytes, ∀ r, pqMain env [a, elemWord e, data, pre, tc, r] fs = done (y >>= fun codes => .ok (outOps [(pqName pre 4, codes)])) := by
  refine ⟨pqData (pqDataPar env e (wrap32 c)) (some (Spec.binFile dim rows)) (pqFound pre fs) env.j' env.j1 env.j2 env.j3 env.j4, fun r => ?_⟩
  rw [pqMain_args env _ _ _ _ _ _ fs hc, elemArg_word]
  show (if _ then _ else _) = _
  rw [if_neg (fun ⟨i, hi⟩ => hname i hi)]
  unfold pqTool
  rw [hfile, sample_train (elem_size_le e) hw.j hn hd hrow hf, Res.ok_bind]
  dsimp only
  have h := (C73_stale (pqTrainPar env dim (wrap32 c)) (Spec.trainSet (sampleCoin env.rnd (atof r)) (env.conv e) rows).length
    (Spec.trainSet (sampleCoin env.rnd (atof r)) (env.conv e) rows).flatten ⟨fs (pqName pre 0), none, none, none⟩ env.jt env.memF
    (pqDataPar env e 0) none env.j' env.j1 env.j2 env.j3 env.j4 f x hold hl).1
  dsimp only at h
  rw [h, Res.ok_bind, Option.getD_none]
  rfl

/-- **C88 (limits of quantisation).** Without a file of centres the program ends with an exception if there are more chunks than
coordinates, in particular if the number is negative; with 0 chunks its behaviour is undefined. -/
theorem C88_pq_limits (env : TrainEnv D) (hw : env.WF) (a data pre tc r : Bytes) (e : Elem) (fs : FS Bytes) (c : Int)
    (hc : atoi tc = .ok c) (hname : ∀ i, data ≠ pqName pre i) (dim : Nat) (hd : dim < 2147483648) (rows : List Bytes) (hn : rows.length < 4294967296)
    (hrow : ∀ x ∈ rows, x.length = dim * e.size) (hf : (Spec.binFile dim rows).length < 9223372036854775808)
    (hfile : fs data = some (Spec.binFile dim rows)) (hold : fs (pqName pre 0) = none) :
    (c < 0 ∨ dim < c → pqMain env [a, elemWord e, data, pre, tc, r] fs = .error .throw) ∧
    (c = 0 → (∀ x ∈ rows, (env.conv e x).length = dim) → pqMain env [a, elemWord e, data, pre, tc, r] fs = .error .ub) := by
  have key : pqMain env [a, elemWord e, data, pre, tc, r] fs = done (do
      let new ← trainPivots (pqTrainPar env dim (wrap32 c)) (Spec.trainSet (sampleCoin env.rnd (atof r)) (env.conv e) rows).length
        (Spec.trainSet (sampleCoin env.rnd (atof r)) (env.conv e) rows).flatten none env.jt env.memF
      let codes ← pqData (pqDataPar env e (wrap32 c)) (some (Spec.binFile dim rows)) (new.getD (pqFound pre fs)) env.j' env.j1 env.j2 env.j3 env.j4
      .ok (outOps (pqNew pre new ++ [(pqName pre 4, codes)]))) := by
    rw [pqMain_args env _ _ _ _ _ _ fs hc, elemArg_word]
    show (if _ then _ else _) = _
    rw [if_neg (fun ⟨i, hi⟩ => hname i hi)]
    unfold pqTool
    rw [hfile, sample_train (elem_size_le e) hw.j hn (by omega) hrow hf, Res.ok_bind, hold]
  rw [key]
  constructor
  · intro h
    have hI := isInt_iff.1 (atoi_ok_iff.1 hc).2
    rw [C73_too_many _ (by
      show dim < wrap32 c
      unfold wrap32; omega), Res.ok_bind, Option.getD_none]
    unfold pqData
    dsimp only
    unfold Spec.binFile at hf ⊢
    obtain ⟨r1, r2, e1, e2, -⟩ := CReader.open_header rows.length dim rows.flatten hn (by omega) hf truthBlk env.j'.cache _ _ hw.j'.1 hw.j'.2
    rw [e1, Res.ok_bind]
    dsimp only
    rw [e2, Res.ok_bind]
    dsimp only
    unfold pqLoad
    rw [if_pos (show (pqFound pre fs).pivots = none from hold)]
    rfl
  · intro h hconv
    subst h
    have htl : ∀ v ∈ Spec.trainSet (sampleCoin env.rnd (atof r)) (env.conv e) rows, v.length = (pqTrainPar env dim (wrap32 0)).dim := by
      intro v hv
      obtain ⟨x, hx, rfl⟩ := trainSet_mem hv
      exact hconv x hx
    have : trainPivots (pqTrainPar env dim (wrap32 0)) (Spec.trainSet (sampleCoin env.rnd (atof r)) (env.conv e) rows).length
        (Spec.trainSet (sampleCoin env.rnd (atof r)) (env.conv e) rows).flatten none env.jt env.memF = .error .ub := by
      unfold trainPivots
      rw [if_neg (show ¬ (pqTrainPar env dim (wrap32 0)).chunks > (pqTrainPar env dim (wrap32 0)).dim by
        show ¬ wrap32 0 > dim
        unfold wrap32; omega)]
      rw [show keepPivots (pqTrainPar env dim (wrap32 0)) none env.jt = .ok false from rfl, Res.ok_bind, if_neg (by decide),
        trainCentroid_ok _ _ htl, Res.ok_bind, trainRows_ok _ _ htl, Res.ok_bind,
        show pqChunks (pqTrainPar env dim (wrap32 0)).dim (pqTrainPar env dim (wrap32 0)).chunks = .error .ub from (C53_limits dim 0).2]
      rfl
    rw [this]
    rfl

/-! ## Examples -/

theorem exTrainEnv_WF : exTrainEnv.WF := ⟨⟨rfl, rfl⟩, ⟨rfl, rfl⟩, ⟨rfl, rfl⟩, ⟨rfl, rfl⟩, ⟨rfl, rfl⟩, ⟨rfl, rfl⟩, ⟨rfl, rfl⟩⟩

theorem exTrainEnv_run : ∀ i, (exTrainEnv.run i).OK := fun _ => ⟨exKmRun_ok.1, exKmRun_ok.2, exKmRun_ok.3⟩

theorem exTrainNames : ∀ i, ascii "d" ≠ pqName (ascii "p") i := by decide +kernel

theorem exTrainOld : exTrainFs (pqName (ascii "p") 0) = none := if_neg (by decide +kernel)

example : ∃ (piv : List (List F32)) (code : Nat → Nat → Nat) (ops : List (FOp Bytes)),
    pqMain exTrainEnv [ascii "pq", ascii "uint8", ascii "d", ascii "p", ascii "1", ascii "0.5"] exTrainFs = .ok (.run ops) ∧
    runOps ops exTrainFs (ascii "p_compressed.bin") = some (Spec.codeFile 256 1 10 code) ∧ code 0 0 < 256 ∧ piv.length = 256 :=
  let ⟨piv, code, ops, h1, h2, h3, _, h5⟩ := C88_pq exTrainEnv exTrainEnv_WF exTrainEnv_run exPops_isPopOrder (ascii "pq") (ascii "d") (ascii "p") (ascii "1")
    (ascii "0.5") .uint8 exTrainFs 1 (by decide +kernel) exTrainNames 1 exRows10 (by decide) (by decide) (by decide +kernel) exTrainFs_d (by decide) (by decide)
    (by decide) _ rfl (fun _ _ => True) (fun _ _ => exKm_tame _) (fun x hx => ⟨by revert x; decide +kernel, fun _ _ => rfl, fun _ _ => trivial⟩)
    ([49, 54, 55, 56, 57].map (fun n => [exNat n])) (by decide +kernel) (by decide) (by decide) (by decide +kernel) (Or.inl exTrainOld)
  ⟨piv, code, ops, h1, (h2 exTrainFs).1 (pqName (ascii "p") 4, Spec.codeFile 256 1 10 code) (by
    iterate 4 apply List.mem_cons_of_mem
    exact List.mem_cons_self), ((h5 0 (by decide) _ rfl).2 0 [49] rfl).1, h3⟩

/-- More chunks than coordinates, a negative number of them, and none. -/
example : pqMain exTrainEnv [ascii "pq", ascii "uint8", ascii "d", ascii "p", ascii "2", ascii "0.5"] exTrainFs = .error .throw ∧
    pqMain exTrainEnv [ascii "pq", ascii "uint8", ascii "d", ascii "p", ascii "-1", ascii "0.5"] exTrainFs = .error .throw ∧
    pqMain exTrainEnv [ascii "pq", ascii "uint8", ascii "d", ascii "p", ascii "0", ascii "0.5"] exTrainFs = .error .ub :=
  have h (t : Bytes) (c : Int) (hc : atoi t = .ok c) := C88_pq_limits exTrainEnv exTrainEnv_WF (ascii "pq") (ascii "d") (ascii "p") t (ascii "0.5") .uint8 exTrainFs
    c hc exTrainNames 1 (by decide) exRows10 (by decide) (by decide) (by decide +kernel) exTrainFs_d exTrainOld
  ⟨(h _ 2 (by decide +kernel)).1 (by decide), (h _ (-1) (by decide +kernel)).1 (by decide), (h _ 0 (by decide +kernel)).2 rfl (by decide +kernel)⟩

/-- A file of 256 centres from somewhere else. -/
def exStaleFs : FS Bytes := fun p => if p = pqName (ascii "p") 0 then some (Spec.floatFile 256 1 (List.replicate 256 F32.one)) else exTrainFs p

example : ∃ y : Res Bytes, ∀ r, pqMain exTrainEnv [ascii "pq", ascii "uint8", ascii "d", ascii "p", ascii "1", r] exStaleFs =
    done (y >>= fun codes => .ok (outOps [(pqName (ascii "p") 4, codes)])) :=
  C88_pq_stale exTrainEnv exTrainEnv_WF (ascii "pq") (ascii "d") (ascii "p") (ascii "1") .uint8 exStaleFs 1 (by decide +kernel) exTrainNames 1 (by decide) exRows10
    (by decide) (by decide) (by decide +kernel) (by
      unfold exStaleFs
      rw [if_neg (exTrainNames 0)]
      exact exTrainFs_d) _ (le32s ((List.replicate 256 F32.one).map (fun x => x.bits.toNat))) (if_pos rfl) (loadBin_ok (by decide) (by decide) (by decide +kernel) (by decide +kernel) rfl rfl _)

end Grann
