import Verif.Props.FloatKpp
import Verif.Props.UtilPart
import Verif.Props.UtilPq
/-!
# C98: the programs that use k-means, in `float` arithmetic
-/

namespace Grann

open _root_.Grann.Spec _root_.Spec

theorem gives_imp {S : Prog Bytes} {fs : FS Bytes} {G G' : Nat → Nat → List Nat → Prop} {rs : List (Option (Nat × Nat))} {ops : List (FOp Bytes)}
    (h : ∀ L k ids, k < S.qrows.length → G L k ids → G' L k ids) (g : S.Gives fs G rs ops) : S.Gives fs G' rs ops := by
  obtain ⟨out, h1, h2, h3, h4⟩ := g
  exact ⟨out, h1, fun t L ht => ⟨fun k hk => ⟨h L k _ hk ((h2 t L ht).1 k hk).1, ((h2 t L ht).1 k hk).2⟩, (h2 t L ht).2⟩, h3, h4⟩

/-! ## The inverted index -/

/-- A search in clusters, in exact distances to the centres up to errors. -/
theorem answer_approx {A : KmArith} {h o dim k : Nat} (H : A.OK h o dim k) {cs : List (List F32)} (hcs : ∀ c ∈ cs, Sized dim k c) (w n : Nat)
    (q : List F32) (hq : Sized dim k q) (v : Nat → List F32) (hv : ∀ i < n, Sized dim k (v i)) (hc0 : 1 ≤ cs.length) (good : Nat → Prop) (K : Nat) (d : Nat → F32) (ids : List Nat)
    (hA : ClusterAnswer cs.length w (cs.map ((kmF32 A).entry q)) (fun i => cs.map ((kmF32 A).entry (v i))) n good K d ids) :
    ApproxAnswer (2 * kmErr h dim k) cs.length w (fun c => sqDistVal q (cs.getD c [])) (fun i c => sqDistVal (v i) (cs.getD c [])) n good K d ids := by
  obtain ⟨C, S, hC, hS, hK⟩ := hA
  have hget : ∀ c, c < cs.length → cs.getD c [] ∈ cs ∧ (cs.map ((kmF32 A).entry q)).getD c F32.nan = (kmF32 A).entry q (cs.getD c []) := by
    intro c hc
    rw [List.getD_eq_getElem?_getD, List.getD_eq_getElem?_getD, List.getElem?_map, List.getElem?_eq_getElem hc, Option.getD_some, Option.map_some, Option.getD_some]
    exact ⟨List.getElem_mem _, rfl⟩
  have hfirst : ∀ i, i < n → ∃ c, FirstNearest (cs.map ((kmF32 A).entry (v i))) c := by
    intro i hi
    have hlt : ∀ y ∈ cs.map ((kmF32 A).entry (v i)), y.lt F32.fmax = true := by
      intro y hy
      obtain ⟨c, hcm, rfl⟩ := List.mem_map.1 hy
      exact (C98_entry_partial H (hv i hi) (hcs c hcm)).2.1
    obtain ⟨c0, hc0m⟩ := List.exists_mem_of_length_pos (show 0 < cs.length by omega)
    obtain ⟨c, -, -, x, hx1, hx2, hx3⟩ := argmin_first (fun y hy => F32.isNum_of_lt_left (hlt y hy)) ⟨_, List.mem_map_of_mem hc0m, hlt _ (List.mem_map_of_mem hc0m)⟩
    exact ⟨c, x, hx1, hx2, fun j hj y hy => hx3 j y hj hy⟩
  obtain ⟨near, hnear⟩ : ∃ near : Nat → Nat, ∀ i, i < n → FirstNearest (cs.map ((kmF32 A).entry (v i))) (near i) := by
    classical
    exact ⟨fun i => if hi : i < n then (hfirst i hi).choose else 0, fun i hi => by dsimp only; rw [dif_pos hi]; exact (hfirst i hi).choose_spec⟩
  have hnd : C.Nodup := by have := hC.near.nodup; rwa [List.map_map, show Prod.fst ∘ (fun c => (c, (cs.map ((kmF32 A).entry q)).getD c F32.nan)) = id from rfl, List.map_id] at this
  have hmem : ∀ c ∈ C, c < cs.length := fun c hc => Finset.mem_range.1 (hC.near.mem _ (List.mem_map_of_mem (f := fun c => (c, (cs.map ((kmF32 A).entry q)).getD c F32.nan)) hc)).1
  refine ⟨C, near, S, hnd, ?_, ?_, ?_, ?_, hK⟩
  · have := hC.near.length
    rwa [List.length_map, Finset.card_range] at this
  · intro c hc
    refine ⟨hmem c hc, fun j hj hjc => ?_⟩
    have := hC.near.best j (Finset.mem_range.2 hj) (by
      rw [List.map_map, show Prod.fst ∘ (fun c => (c, (cs.map ((kmF32 A).entry q)).getD c F32.nan)) = id from rfl, List.map_id]
      exact hjc) _ (List.mem_map_of_mem (f := fun c => (c, (cs.map ((kmF32 A).entry q)).getD c F32.nan)) hc)
    dsimp only at this
    rw [(hget c (hmem c hc)).2, (hget j hj).2] at this
    exact entry_le H hq (hcs _ (hget c (hmem c hc)).1) (hcs _ (hget j hj).1) this
  · intro i hi
    obtain ⟨x, h1, h2, h3⟩ := hnear i hi
    exact firstMin_nearly H (hv i hi) hcs ⟨x, h1, h2, fun j y hj hy => h3 j hj y hy⟩
  · intro i
    rw [hS i]
    constructor
    · rintro ⟨h1, h2, c, h3, h4⟩
      refine ⟨h1, h2, ?_⟩
      rw [firstNearest_unique (hnear i h1) h4]
      exact h3
    · rintro ⟨h1, h2, h3⟩
      exact ⟨h1, h2, _, h3, hnear i h1⟩

/-- **C98 (IVF).** From the command lines of the build and of the search, with all distances, means and centres computed in the arithmetic of the program: files of bytes,
or of `float`s of limited size.  If k-means++ ends, and it does under the conditions of `KppEnds`, the centres come from Lloyd's algorithm up to errors of rounding, and a search looks into the clusters whose centres are
nearest up to such errors.  Missing: that the clusters searched are nearest exactly (refuted below). -/
theorem C98_ivf_partial (env : BuildEnv IvfTrain) (senv : SearchEnv) (pops : List F32 → List Nat) (fs : FS Bytes) (argv argv2 : List Bytes)
    (a : ListArgs F32) (s : SearchArgs)
    (ha : ivfArgs argv = .ok (.run a)) (hs : searchIvfArgs argv2 = .ok (.run s)) (h1 : s.elem = a.elem) (h3 : s.index = a.save)
    (d : DistClass) (hd : getDistance a.elem .l2 = .ok d)
    (ftz : Bool) (U : SumTree) (dim : Nat) (hcf : env.cmp = cmpF32 ftz U (roundUp8 dim)) (hcf' : senv.cmp = cmpF32 ftz U (roundUp8 dim))
    (hsl : senv.sortL = env.sortL) (hsort : IsStrSort env.sortL) (hj : env.junk.WF) (hj' : senv.junk.WF)
    (rows : List Bytes) (b : Bytes) (labelFile : Option Bytes) (lab : Nat → List Label) (hb : fs a.data = some b)
    (hlf : LabelFileArg fs a.labels labelFile) (hin : InputOK a.elem.size dim rows b [] labelFile lab) (hdim : dim ≤ 4294967288)
    (y : F32) (hy : toF32 a.last.text = .ok y)
    (A : KmArith) (h o sz : Nat) (H : A.OK h o (roundUp8 dim) sz) (rnd : Nat → F32) (R : KmRun D64) (hR : R.OK)
    (reps : Nat) (mem : Nat → List F32) (bpops : List F32 → List Nat) (sched : Nat → List (Nat × Nat) → List (Nat × Nat))
    (henv : env.run = ivfTrainEnv a.elem.size (convF32 a.elem) rnd (kmF32 A) R reps mem bpops sched) (hbpops : IsPopOrder bpops) (hsched : ∀ b l, (sched b l).Perm l)
    (hnum1 : 1 ≤ a.num) (hsize : a.num * roundUp8 dim * 4 + 8 < 2305843009213693952)
    (hinit : R.init < (Spec.sampled (sampleCoin rnd y) rows.length).length)
    (hmax : (Spec.sampled (sampleCoin rnd y) rows.length).length ≤ 8388608)
    (hpops : IsPopOrder pops) (hflt : s.filters ≠ [] → labelFile ≠ none)
    (qdim : Nat) (qrows : List Bytes) (qb : Bytes) (truth : Option Truth)
    (hS : (progOf senv s 1 qdim qrows qb truth).OK a.elem.size (roundUp8 dim) fs)
    (hq : ∀ p, s.query ≠ ivfName a.save p) (ht : ∀ p, s.truth ≠ ivfName a.save p) (hK1 : 1 ≤ s.K) (hK : s.K ≤ 2147483648) (hLs : ∀ L ∈ s.Ls, L ≤ a.num)
    (C : Computes U a.elem d dim qdim rows qrows) (B : BoundedRows U dim qdim rows qrows ∨ a.elem.IsByte)
    (hr : FileSized a.elem dim sz rows) (hqr : FileSized a.elem qdim sz qrows) :
    (buildIvfMain env argv fs = .error .loop ∧ ¬ KppEnds A h o (roundUp8 dim) sz R
      (Spec.trainSet (sampleCoin rnd y) (convF32 a.elem) (rows.map (Spec.padTo (roundUp8 dim * a.elem.size)))) a.num) ∨
    ∃ first last ops rs ops', first.length = a.num ∧
      (∀ c ∈ first, c ∈ Spec.trainSet (sampleCoin rnd y) (convF32 a.elem) (rows.map (Spec.padTo (roundUp8 dim * a.elem.size)))) ∧
      ApproxRun (2 * kmErr h (roundUp8 dim) sz) (2 ^ sz * 2 ^ (-23 : Int)) (roundUp8 dim) reps
        (Spec.trainSet (sampleCoin rnd y) (convF32 a.elem) (rows.map (Spec.padTo (roundUp8 dim * a.elem.size)))) first last ∧
      last.length = a.num ∧ (∀ c ∈ last, Sized (roundUp8 dim) sz c) ∧
      buildIvfMain env argv fs = .ok (.run ops) ∧
      searchIvfMain senv env.run.cdist pops argv2 (runOps ops fs) = .ok (.run (rs, ops')) ∧
      (progOf senv s 1 qdim qrows qb truth).Gives (runOps ops fs) (fun L k ids =>
        ids.Nodup ∧ (∀ i ∈ ids, i < rows.length ∧ Matches true [48] s.filters (lab i)) ∧
        ids.Pairwise (fun i i' => (indexDist ftz U a.elem d dim qdim rows qrows k i).le (indexDist ftz U a.elem d dim qdim rows qrows k i') = true) ∧
        (L = a.num → KNearest s.K ((Finset.range rows.length).filter (fun i => Matches true [48] s.filters (lab i)))
          (indexDist ftz U a.elem d dim qdim rows qrows k) (ids.map (fun i => (i, indexDist ftz U a.elem d dim qdim rows qrows k i)))) ∧
        ApproxAnswer (2 * kmErr h (roundUp8 dim) sz) a.num L
          (fun c => sqDistVal (convF32 a.elem (Spec.queryVec a.elem.size qdim (roundUp8 dim) qrows k)) (last.getD c []))
          (fun i c => sqDistVal (convF32 a.elem (Spec.padTo (roundUp8 dim * a.elem.size) (rows.getD i []))) (last.getD c [])) rows.length
          (fun i => Matches true [48] s.filters (lab i)) s.K (indexDist ftz U a.elem d dim qdim rows qrows k) ids) rs ops' := by
  have hvrow : ∀ r ∈ rows, Sized (roundUp8 dim) sz (convF32 a.elem (Spec.padTo (roundUp8 dim * a.elem.size) r)) := by
    intro r hrm
    have := conv_sized hin.matrix hr (le_refl _) hrm
    rwa [memory_row (hin.matrix r hrm)] at this
  have hv : ∀ i, i < rows.length → Sized (roundUp8 dim) sz (convF32 a.elem (Spec.padTo (roundUp8 dim * a.elem.size) (rows.getD i []))) :=
    fun i hi => hvrow _ (rowAt_mem hi)
  have hqv : ∀ k, k < qrows.length → Sized (roundUp8 dim) sz (convF32 a.elem (Spec.queryVec a.elem.size qdim (roundUp8 dim) qrows k)) :=
    fun k hk => conv_sized hS.queries.matrix hqr hS.dim (rowAt_mem hk)
  rcases C84_program env senv pops fs argv argv2 a s ha hs h1 h3 d hd (hcf'.trans hcf.symm) hsl hsort hj hj' dim rows b labelFile lab hb hlf hin hdim y hy
    (convF32 a.elem) rnd (kmF32 A) R hR (Sized (roundUp8 dim) sz) (C98_tame H) reps mem bpops sched henv hbpops hsched
    (fun i hi => ⟨hv i hi, (hv i hi).1⟩) hnum1 hsize hinit hmax hpops hflt qdim qrows qb truth hS hq ht hK1 hK hLs
    (fun k hk => ⟨fun i hi => by rw [hcf]; exact (C96_number ftz hd hin.matrix hS.queries.matrix hS.dim C hk hi).2 rfl B, hqv k hk⟩) with
    e | ⟨first, last, ops, rs, ops', f1, f2, f3, f4, f5, f6, -, f7, f8, f9⟩
  · refine Or.inl ⟨e.1, fun E => ?_⟩
    have hlen : (Spec.trainSet (sampleCoin rnd y) (convF32 a.elem) (rows.map (Spec.padTo (roundUp8 dim * a.elem.size)))).length =
        (Spec.sampled (sampleCoin rnd y) rows.length).length := by
      unfold Spec.trainSet
      rw [List.length_map, List.length_map]
    refine C99_ends H (mem := (List.range a.num).map mem) (by rwa [List.length_map, List.length_range]) hR reps (by omega) (by omega) (fun x hx => ?_)
      (by rwa [List.length_map, List.length_range]) (by omega) e.2
    obtain ⟨v, hvm, rfl⟩ := trainSet_mem hx
    obtain ⟨r, hrm, rfl⟩ := List.mem_map.1 hvm
    exact hvrow r hrm
  · right
    have htrain : ∀ x ∈ Spec.trainSet (sampleCoin rnd y) (convF32 a.elem) (rows.map (Spec.padTo (roundUp8 dim * a.elem.size))), Sized (roundUp8 dim) sz x := by
      intro x hx
      obtain ⟨v, hvm, rfl⟩ := trainSet_mem hx
      obtain ⟨r, hrm, rfl⟩ := List.mem_map.1 hvm
      exact hvrow r hrm
    have htl : (Spec.trainSet (sampleCoin rnd y) (convF32 a.elem) (rows.map (Spec.padTo (roundUp8 dim * a.elem.size)))).length ≤ 8388608 := by
      unfold Spec.trainSet
      rw [List.length_map, List.length_map]
      exact hmax
    refine ⟨first, last, ops, rs, ops', f1, f2, (run_approx H htrain htl f2 f3).1, f4, fun c hc => (f5 c hc).1, f7, f8, ?_⟩
    refine gives_imp ?_ f9
    intro L k ids hk hg
    obtain ⟨g1, g2, g3, g4, g5⟩ := hg
    rw [hcf] at g3 g4 g5
    refine ⟨g1, g2, g3, g4, ?_⟩
    rw [f6] at g5
    simp only [f6] at g5
    rw [← f4] at g5 ⊢
    exact answer_approx H (fun c hc => (f5 c hc).1) L rows.length _ (hqv k hk) _ hv (by omega) _ _ _ _ g5

/-! ## Partition and product quantisation -/

theorem conv_row {e : Elem} {dim k : Nat} {rows : List Bytes} (hm : ∀ x ∈ rows, x.length = dim * e.size) (H : FileSized e dim k rows) {r : Bytes} (hr : r ∈ rows) :
    Sized dim k (convF32 e r) := by
  have h := conv_padTo (hm r hr) (le_refl dim)
  rw [show padTo (dim * e.size) r = r by unfold padTo; rw [hm r hr]; simp, Nat.sub_self, List.replicate_zero, List.append_nil] at h
  rw [h]
  exact ⟨valuesOf_length .., fun y hy => H r hr y hy⟩

/-- **C98 (partition).** `partition_data` in the arithmetic of the program: if k-means++ ends, and it does under the conditions of `KppEnds`, the centres come from Lloyd's algorithm up to errors of rounding, and every vector is
in the shards of `k` centres that are its nearest ones up to such errors.  Missing: that they are nearest exactly. -/
theorem C98_partition_partial {env : TrainEnv D64} {e : Elem} {fs : FS Bytes} {data r : Bytes} {dim : Nat} {rows : List Bytes}
    (hw : env.WF) (hR : ∀ i, (env.run i).OK) (hpops : IsPopOrder env.pops) (hn : rows.length < 4294967296) (hd : dim < 4294967296)
    (hrow : ∀ x ∈ rows, x.length = dim * e.size) (hsize : (Spec.binFile dim rows).length < 9223372036854775808) (hfile : fs data = some (Spec.binFile dim rows))
    (A : KmArith) (h o sz : Nat) (H : A.OK h o dim sz) (hkm : env.km = kmF32 A) (hconv : env.conv = convF32) (hr : FileSized e dim sz rows)
    (train : List (List F32)) (htrain : train = Spec.trainSet (sampleCoin env.rnd (atof r)) (convF32 e) rows) (hmax : train.length ≤ 8388608)
    (hinit : ∀ i, (env.run i).init < train.length) (a pre tn tk : Bytes) (parts k : Nat)
    (h1 : atoi tn = .ok (parts : Int)) (h2 : atoi tk = .ok (k : Int)) (hp1 : 1 ≤ parts) (hk : k ≤ parts) (hmem : parts * dim ≤ 2305843009213693951)
    (hno : NotOutput true data pre parts) :
    (partitionMain env [a, Spec.elemWord e, data, pre, r, tn, tk] fs = .error .loop ∧ ¬ KppEnds A h o dim sz (env.run 0) train parts) ∨
    ∃ (first last : List (List F32)) (place : Nat → List Nat) (ops : List (FOp Bytes)),
      partitionMain env [a, Spec.elemWord e, data, pre, r, tn, tk] fs = .ok (.run ops) ∧
      first.length = parts ∧ (∀ c ∈ first, c ∈ train) ∧ ApproxRun (2 * kmErr h dim sz) (2 ^ sz * 2 ^ (-23 : Int)) dim 15 train first last ∧
      last.length = parts ∧ (∀ c ∈ last, Sized dim sz c) ∧
      (∀ p x, rows[p]? = some x → (place p).Nodup ∧ (place p).length = k ∧ (∀ c ∈ place p, c < parts ∧ ∀ j < parts, j ∉ place p →
        sqDistVal (convF32 e x) (last.getD c []) ≤ sqDistVal (convF32 e x) (last.getD j []) + 2 * kmErr h dim sz)) ∧
      Spec.LeavesParts ops pre parts (Spec.floatFile parts dim last.flatten)
        (some (fun c => Spec.binFile dim ((Spec.shardOf place rows.length c).map (fun p => rows.getD p []))))
        (fun c => Spec.idFile (Spec.shardOf place rows.length c)) := by
  have hc : ∀ x ∈ rows, Sized dim sz (convF32 e x) := fun x hx => conv_row hrow hr hx
  have hP : PartInput env e fs data r dim rows (Sized dim sz) train :=
    ⟨hw, hR, hpops, hn, hd, hrow, hsize, hfile, by rw [hkm]; exact C98_tame H, fun x hx => by rw [hconv]; exact ⟨hc x hx, (hc x hx).1⟩,
      by rw [hconv]; exact htrain, hmax, hinit⟩
  rcases C88_partition hP a pre tn tk parts k h1 h2 hp1 hk hmem hno with g | ⟨first, last, place, ops, g1, g2, g3, g4, g5, g6, g7, g8⟩
  · refine Or.inl ⟨g.1, fun E => ?_⟩
    have h0 := hinit 0
    rw [hkm] at g
    exact C99_ends H (mem := (List.range parts).map (env.mem 0)) (by rwa [List.length_map, List.length_range]) (hR 0) 15 (by omega) hmax (fun x hx => (hP.trainP x hx).1)
      (by rwa [List.length_map, List.length_range]) h0 g.2
  · right
    rw [hkm] at g4 g7
    rw [hconv] at g7
    obtain ⟨q1, q2⟩ := run_approx H (fun x hx => (hP.trainP x hx).1) hmax g3 g4
    refine ⟨first, last, place, ops, g1, g2, g3, q1, g5, q2, fun p x hx => ?_, g8⟩
    obtain ⟨p1, p2, p3, p4⟩ := g7 p x hx
    refine ⟨p1, p2, fun c hcm => ⟨p3 c hcm, fun j hj hjn => ?_⟩⟩
    have hget : ∀ c, c < parts → last.getD c [] ∈ last ∧ (last.map ((kmF32 A).entry (convF32 e x))).getD c F32.nan = (kmF32 A).entry (convF32 e x) (last.getD c []) := by
      intro c hc
      rw [List.getD_eq_getElem?_getD, List.getD_eq_getElem?_getD, List.getElem?_map, List.getElem?_eq_getElem (by omega), Option.getD_some, Option.map_some,
        Option.getD_some]
      exact ⟨List.getElem_mem _, rfl⟩
    have := p4.best j (Finset.mem_range.2 hj) (by
      rw [List.map_map, show Prod.fst ∘ (fun c => (c, (last.map ((kmF32 A).entry (convF32 e x))).getD c F32.nan)) = id from rfl, List.map_id]
      exact hjn) _ (List.mem_map_of_mem (f := fun c => (c, (last.map ((kmF32 A).entry (convF32 e x))).getD c F32.nan)) hcm)
    dsimp only at this
    rw [(hget c (p3 c hcm)).2, (hget j hj).2] at this
    exact entry_le H (hc x (List.mem_of_getElem? hx)) (q2 _ (hget c (p3 c hcm)).1) (q2 _ (hget j hj).1) this

theorem coords_sized {dim k lo hi : Nat} (h1 : lo ≤ hi) (h2 : hi ≤ dim) {x : List F32} (hx : Sized dim k x) : Sized (hi - lo) k (Spec.coords lo hi x) := by
  unfold Spec.coords
  have := hx.1
  refine ⟨by simp; omega, fun y hy => hx.2 y ?_⟩
  exact List.mem_of_mem_take (List.mem_of_mem_drop hy)

/-- **C98 (product quantisation).** `generate_pq` in the arithmetic of the program: if the conditions of `KppEnds` hold for every chunk, the centres of every chunk come from Lloyd's algorithm up to errors of
rounding, and the code of a vector is the number of a centre that is nearest up to such errors.  Missing: that it is nearest exactly. -/
theorem C98_pq_partial (env : TrainEnv D64) (hw : env.WF) (hR : ∀ i, (env.run i).OK) (hpops : IsPopOrder env.pops) (a data pre tc r : Bytes) (e : Elem)
    (fs : FS Bytes) (chunks : Nat) (hc : atoi tc = .ok (chunks : Int)) (hname : ∀ i, data ≠ pqName pre i)
    (dim : Nat) (rows : List Bytes) (hn : rows.length < 4294967296) (hrow : ∀ x ∈ rows, x.length = dim * e.size)
    (hf : (Spec.binFile dim rows).length < 9223372036854775808) (hfile : fs data = some (Spec.binFile dim rows))
    (c1 : 1 ≤ chunks) (cd : chunks ≤ dim) (hsize : 256 * dim < 4294967296)
    (start : Nat → Nat) (hstart : start = Spec.chunkStart dim chunks)
    (A : KmArith) (h o sz : Nat) (H : ∀ i, i < chunks → A.OK h o (start (i + 1) - start i) sz) (hkm : env.km = kmF32 A) (hconv : env.conv = convF32)
    (hr : FileSized e dim sz rows) (hsub : ∀ x ∈ rows, ∀ y ∈ convF32 e x, env.sub y F32.zero = y)
    (train : List (List F32)) (htrain : train = Spec.trainSet (sampleCoin env.rnd (atof r)) (convF32 e) rows)
    (hmax : train.length ≤ 8388608) (hinit : ∀ i, i < chunks → (env.run i).init < train.length)
    (hends : ∀ i, i < chunks → KppEnds A h o (start (i + 1) - start i) sz (env.run i) (train.map (Spec.coords (start i) (start (i + 1)))) 256)
    (hold : fs (pqName pre 0) = none ∨ ∃ n d x, loadBin 4 (fs (pqName pre 0)) env.jt.npts env.jt.dim env.jt.mem = .ok (n, d, x) ∧
      ¬ (n = 256 ∧ d = dim)) :
    ∃ (piv : List (List F32)) (code : Nat → Nat → Nat) (ops : List (FOp Bytes)),
      pqMain env [a, Spec.elemWord e, data, pre, tc, r] fs = .ok (.run ops) ∧
      Spec.LeavesAll ops [(pqName pre 0, Spec.floatFile 256 dim piv.flatten), (pqName pre 1, Spec.floatFile dim 1 (List.replicate dim F32.zero)),
        (pqName pre 2, Spec.wordFile dim 1 (List.range dim)), (pqName pre 3, Spec.wordFile (chunks + 1) 1 ((List.range (chunks + 1)).map start)),
        (pqName pre 4, Spec.codeFile 256 chunks rows.length code)] ∧
      piv.length = 256 ∧ (∀ v ∈ piv, v.length = dim) ∧
      ∀ i, i < chunks → ∀ cut, cut = Spec.coords (start i) (start (i + 1)) →
        (∃ first, first.length = 256 ∧ (∀ c ∈ first, c ∈ train.map cut) ∧
          ApproxRun (2 * kmErr h (start (i + 1) - start i) sz) (2 ^ sz * 2 ^ (-23 : Int)) (start (i + 1) - start i) 15 (train.map cut) first (piv.map cut)) ∧
        ∀ p x, rows[p]? = some x →
          Nearly (2 * kmErr h (start (i + 1) - start i) sz) 256 (fun c => sqDistVal (cut (convF32 e x)) (cut (piv.getD c []))) (code p i) := by
  have hcv : ∀ x ∈ rows, Sized dim sz (convF32 e x) := fun x hx => conv_row hrow hr hx
  have hmono : ∀ i, i < chunks → start i ≤ start (i + 1) ∧ start (i + 1) ≤ dim := by
    intro i hi
    rw [hstart]
    exact ⟨chunkStart_mono dim chunks (by omega), (chunkStart_mono dim chunks (show i + 1 ≤ chunks by omega)).trans (chunkStart_end c1).le⟩
  have hcut : ∀ i, i < chunks → ∀ x ∈ rows, Sized (start (i + 1) - start i) sz (Spec.coords (start i) (start (i + 1)) (convF32 e x)) :=
    fun i hi x hx => coords_sized (hmono i hi).1 (hmono i hi).2 (hcv x hx)
  have htr : ∀ i, i < chunks → ∀ x ∈ train.map (Spec.coords (start i) (start (i + 1))), Sized (start (i + 1) - start i) sz x := by
    intro i hi x hx
    obtain ⟨v, hv, rfl⟩ := List.mem_map.1 hx
    rw [htrain] at hv
    obtain ⟨w, hw, rfl⟩ := trainSet_mem hv
    exact hcut i hi w hw
  have hkend : ∀ i, i < chunks → pqKmeans env.km env.run env.mem 256 15 i (train.map (Spec.coords (start i) (start (i + 1)))) ≠ .error .loop := by
    intro i hi
    have h0 := hinit i hi
    have hlen : ((train.map (Spec.coords (start i) (start (i + 1)))).headD []).length = start (i + 1) - start i := by
      cases ht : train with
      | nil => rw [ht] at h0; simp at h0
      | cons v l => exact (htr i hi _ (by rw [ht]; exact List.mem_cons_self ..)).1
    unfold pqKmeans
    rw [hkm, hlen]
    have := C99_ends (H i hi) (mem := (List.range 256).map (env.mem i)) (by rw [List.length_map, List.length_range]; exact hends i hi) (hR i) 15
      (by rw [List.length_map]; omega) (by rw [List.length_map]; exact hmax) (htr i hi) (by rw [List.length_map, List.length_range]; omega) (by rw [List.length_map]; exact h0)
    intro hl
    apply this
    revert hl
    cases kmeansF (kmF32 A) (env.run i) (start (i + 1) - start i) 15 (train.map (Spec.coords (start i) (start (i + 1)))) ((List.range 256).map (env.mem i)) with
    | ok v => intro hl; cases hl
    | error e => intro hl; cases hl; rfl
  obtain ⟨piv, code, ops, g1, g2, g3, g4, g5⟩ := C88_pq env hw hR hpops a data pre tc r e fs chunks hc hname dim rows hn hrow hf hfile c1 cd hsize start hstart
    (fun i => Sized (start (i + 1) - start i) sz) (fun i hi => by rw [hkm]; exact C98_tame (H i hi))
    (fun x hx => by rw [hconv]; exact ⟨(hcv x hx).1, hsub x hx, fun i hi => hcut i hi x hx⟩) train (by rw [hconv]; exact htrain) hmax hinit hkend hold
  refine ⟨piv, code, ops, g1, g2, g3, g4, fun i hi cut hcu => ?_⟩
  obtain ⟨⟨first, f1, f2, f3⟩, f4⟩ := g5 i hi cut hcu
  rw [hkm] at f3 f4
  rw [hconv] at f4
  have htri : ∀ x ∈ train.map cut, Sized (start (i + 1) - start i) sz x := by rw [hcu]; exact htr i hi
  obtain ⟨q1, q2⟩ := run_approx (H i hi) htri (by rw [List.length_map]; exact hmax) f2 f3
  refine ⟨⟨first, f1, f2, q1⟩, fun p x hx => ⟨(f4 p x hx).1, fun j hj => ?_⟩⟩
  have hpv : ∀ c, c < 256 → Sized (start (i + 1) - start i) sz (cut (piv.getD c [])) := by
    intro c hc
    refine q2 _ (List.mem_map_of_mem ?_)
    rw [List.getD_eq_getElem?_getD, List.getElem?_eq_getElem (by omega), Option.getD_some]
    exact List.getElem_mem _
  refine entry_le (H i hi) ?_ (hpv _ (f4 p x hx).1) (hpv j hj) ((f4 p x hx).2 j hj).1
  rw [hcu]
  exact hcut i hi x (List.mem_of_getElem? hx)

/-! ## The nearest centre is not always found -/

/-- 4094.5 and 4097.625. -/
def exCloser : F32 := ⟨0x457fe800#32⟩
@[inherit_doc exCloser]
def exWider : F32 := ⟨0x45800d00#32⟩

theorem exCentre_plain (ftz : Bool) : Plain ftz exCloser ∧ Plain ftz exWider := by
  refine ⟨⟨by unfold Spec.Finite; decide, fun _ => Or.inr ?_⟩, ⟨by unfold Spec.Finite; decide, fun _ => Or.inr ?_⟩⟩ <;> norm_num [value, magnitude, exCloser, exWider]

/-- **C98 (fails).** Take any order of the additions, and a library that computes the norm of a vector with one coordinate exactly.  Of two centres on a line with
a point, at distances 1.5 and 1.625, k-means takes the second one: the distances computed are 2 and 0. -/
theorem C98_wrong (A : KmArith) (m : Nat) (hT : ∀ x c, (A.prod x c).Sums (m + 1)) (hn : ∀ z ∈ [exQ, exCloser, exWider], A.nrm (axis m z) = z) :
    Spec.FirstMin ([axis m exCloser, axis m exWider].map ((kmF32 A).entry (axis m exQ))) 1 ∧
    sqDistVal (axis m exQ) (axis m exCloser) = 9 / 4 ∧ sqDistVal (axis m exQ) (axis m exWider) = 169 / 64 := by
  refine ⟨?_, by rw [sqDistVal_axis]; norm_num [value, magnitude, exQ, exCloser], by rw [sqDistVal_axis]; norm_num [value, magnitude, exQ, exWider]⟩
  obtain ⟨h1, -, -⟩ := exExpand_plain A.ftz
  obtain ⟨h2, h3⟩ := exCentre_plain A.ftz
  have key : ∀ z, z ∈ [exQ, exCloser, exWider] → Plain A.ftz z → exQ.sign = z.sign → (kmF32 A).entry (axis m exQ) (axis m z) =
      F32.add A.ftz (F32.add A.ftz (F32.mul A.ftz exQ exQ) (F32.mul A.ftz z z)) (F32.mul A.ftz F32.minusTwo (F32.mul A.ftz exQ z)) := by
    intro z hz hp hs
    show (match centreF32 A.ftz A.nrm (A.prod (axis m exQ) (axis m z)) (axis m exQ) (axis m z) with
      | .ok r => r
      | .error _ => F32.nan) = _
    unfold centreF32 normF32
    rw [dot_axis A.ftz (hT _ _) h1 hp hs, Res.ok_bind, hn exQ (by simp), hn z hz]
  rw [List.map_cons, List.map_cons, List.map_nil, key _ (by simp) h2 (by decide), key _ (by simp) h3 (by decide)]
  have a : F32.add A.ftz (F32.add A.ftz (F32.mul A.ftz exQ exQ) (F32.mul A.ftz exCloser exCloser)) (F32.mul A.ftz F32.minusTwo (F32.mul A.ftz exQ exCloser)) =
      ⟨0x40000000#32⟩ := by
    cases A.ftz <;> decide +kernel
  have b : F32.add A.ftz (F32.add A.ftz (F32.mul A.ftz exQ exQ) (F32.mul A.ftz exWider exWider)) (F32.mul A.ftz F32.minusTwo (F32.mul A.ftz exQ exWider)) =
      F32.zero := by
    cases A.ftz <;> decide +kernel
  rw [a, b]
  refine ⟨F32.zero, rfl, by decide, fun j y hj hy => ?_⟩
  have : j = 0 := by omega
  subst this
  have : y = ⟨0x40000000#32⟩ := (Option.some.inj hy).symm
  subst this
  decide

/-! ## Examples -/

/-- Additions one after the other, norms by the exact sum of squares, subnormals flushed to zero, multiplication by reciprocals. -/
def exArith : KmArith := ⟨true, rootF32 true, fun x _ => serial x.length, fun x _ => serial x.length, serial, true⟩

theorem exArith_ok {dim k : Nat} (h1 : 1 ≤ dim) (hd : dim ≤ 64) (hk : k ≤ 50) : exArith.OK 64 128 dim k where
  small := by decide
  one := h1
  size := by
    calc dim * 2 ^ (2 * k + 1) ≤ 64 * 2 ^ 101 := Nat.mul_le_mul hd (Nat.pow_le_pow_right (by decide) (by omega))
      _ ≤ 2 ^ 120 := by decide
  prod := fun x c hx _ => by
    show Order 64 128 dim (serial x.length)
    rw [hx.1]
    exact ⟨serial_sums _, by rw [serial_height]; exact hd, by rw [serial_ops]; omega⟩
  nrm := fun x hx => rootF32_ok true (by decide) (by decide) ((sized_norm hx).trans (by
    have : dim * 2 ^ (2 * k) ≤ 2 ^ 120 := by
      calc dim * 2 ^ (2 * k) ≤ 64 * 2 ^ 100 := Nat.mul_le_mul hd (Nat.pow_le_pow_right (by decide) (by omega))
        _ ≤ 2 ^ 120 := by decide
    exact_mod_cast this))

example : Spec.FirstMin ([axis 7 exCloser, axis 7 exWider].map ((kmF32 { exArith with prod := fun _ _ => serial 8 }).entry (axis 7 exQ))) 1 :=
  (C98_wrong { exArith with prod := fun _ _ => serial 8 } 7 (fun _ _ => serial_sums 8) (by decide +kernel)).1

theorem exPts_sized : ∀ x ∈ exKmPts, Sized 2 5 x := by
  have h : ∀ x ∈ exKmPts, x.length = 2 ∧ ∀ y ∈ x, y.mag < 2139095040 ∧ y.units.natAbs ≤ 32 * 2 ^ 149 := by decide +kernel
  refine fun x hx => ⟨(h x hx).1, fun y hy => ⟨finite_mag.2 ((h x hx).2 y hy).1, ?_⟩⟩
  have h1 : (y.units.natAbs : ℚ) ≤ 32 * 2 ^ 149 := by exact_mod_cast ((h x hx).2 y hy).2
  rw [value_units, abs_mul, abs_of_pos (by positivity : (0 : ℚ) < 2 ^ (-149 : Int)), ← Int.cast_abs, Int.abs_eq_natAbs, Int.cast_natCast, zpow_neg]
  rw [← div_eq_mul_inv, div_le_iff₀ (by positivity)]
  exact_mod_cast h1

/-- The distance from (1, 2) to (2, 1), up to rounding. -/
example : |value ((kmF32 exArith).entry (exKmPts.getD 0 []) (exKmPts.getD 1 [])) - sqDistVal (exKmPts.getD 0 []) (exKmPts.getD 1 [])| ≤ kmErr 64 2 5 :=
  (C98_entry_partial (exArith_ok (by decide) (by decide) (by decide)) (exPts_sized _ (by decide)) (exPts_sized _ (by decide))).2.2

example : (kmF32 exArith).entry (exKmPts.getD 0 []) (exKmPts.getD 1 []) = ⟨0x40000000#32⟩ := by decide +kernel

/-- The mean of the five points. -/
example : Spec.meanRow (kmF32 exArith).kpp.zero (kmF32 exArith).kpp.add (kmF32 exArith).divn 2 exKmPts = [⟨0x41533333#32⟩, ⟨0x41533333#32⟩] := by decide +kernel

example : |value ((Spec.meanRow (kmF32 exArith).kpp.zero (kmF32 exArith).kpp.add (kmF32 exArith).divn 2 exKmPts).getD 1 F32.zero) - Spec.exactMean exKmPts 1| ≤
    2 ^ 5 * 2 ^ (-23 : Int) :=
  (C98_mean exArith (by decide) (by decide) (by decide) exPts_sized).2 1 (by decide)

/-- Darts at the middle. -/
def exKmRunD : KmRun D64 := ⟨2, 3, List.range ∘ List.length, fun _ _ l => l.reverse, 0, 0, fun i => i, fun _ => some (2 ^ 1073), 10⟩

theorem exKmRunD_ok : exKmRunD.OK := ⟨by decide, by decide, fun _ _ l => l.reverse_perm⟩

example : kmeansF (kmF32 exArith) exKmRunD 2 12 exKmPts [[], []] = .ok [[⟨0x3fc00000#32⟩, ⟨0x3fc00000#32⟩], [⟨0x41a80000#32⟩, ⟨0x41a80000#32⟩]] := by
  decide +kernel

theorem exDarts : DartOk (some (2 ^ 1073)) := ⟨2 ^ 1073, by decide +kernel, by decide +kernel⟩

theorem exArith_sum {dim k : Nat} (hd : dim ≤ 64) (x y : List F32) (hx : Sized dim k x) : Order 64 128 dim (exArith.sum x y) := by
  show Order 64 128 dim (serial x.length)
  rw [hx.1]
  exact ⟨serial_sums _, by rw [serial_height]; exact hd, by rw [serial_ops]; omega⟩

/-- With the order of the loop k-means++ ends. -/
theorem exEnds (data : List (List F32)) : KppEnds exArith 64 128 2 5 exKmRunD data 2 :=
  ⟨fun _ => exDarts, by decide, fun x y hx _ => exArith_sum (by decide) x y hx, Or.inl rfl⟩

/-- Two centres for the five points. -/
example : ∃ (cs : List (List F32)) (picked : List Nat), kppCenters (kmF32 exArith).kpp exKmPts 2 0 0 exKmRunD.draw exKmRunD.dart 10 [[], []] = .ok cs ∧ picked.length = 2 ∧
    (∀ p ∈ picked, p < exKmPts.length) :=
  let ⟨cs, picked, h1, h2, h3, _⟩ := C99_kpp (exArith_ok (by decide) (by decide) (by decide)) (exEnds exKmPts) (by decide) exPts_sized (by decide) (by decide) [[], []] (by decide)
  ⟨cs, picked, h1, h2, h3⟩

example : kmeansF (kmF32 exArith) exKmRunD 2 12 exKmPts [[], []] ≠ .error .loop :=
  C99_ends (exArith_ok (by decide) (by decide) (by decide)) (exEnds exKmPts) exKmRunD_ok 12 (by decide) (by decide) exPts_sized (by decide) (by decide)

/-- The same with another order for the sum of all distances, and the largest darts. -/
def exArith2 : KmArith := ⟨true, rootF32 true, fun x _ => serial x.length, fun x _ => serial x.length, exOrder, true⟩
@[inherit_doc exArith2]
def exKmRun2 : KmRun D64 := ⟨2, 3, List.range ∘ List.length, fun _ _ l => l.reverse, 5, 0, fun i => i, fun _ => exDart, 10⟩

/-- Bytes in that order. -/
example : ∃ cs, kppCenters (kmF32 exArith2).kpp ([0, 9, 9, 9, 9, 255].map (fun b => convF32 .uint8 [b])) 2 5 0 exKmRun2.draw (fun _ => exDart) 10 [[], []] = .ok cs := by
  have hok := exArith_ok (k := 8) (dim := 1) (by decide) (by decide) (by decide)
  have w := C99_order_wrong { exArith with total := exOrder, sum := fun _ _ => .fma 0 .init } rfl rfl 2 (le_refl _) 0 id (fun _ => exDart) (fun _ => rfl) 0 [[], []] (le_refl _)
  have E : KppEnds exArith2 64 128 1 8 exKmRun2 ([0, 9, 9, 9, 9, 255].map (fun b => convF32 .uint8 [b])) 2 :=
    C99_bytes (A := exArith2) (R := exKmRun2) (dim := 1) (k := 8) (fun _ => w.2.1) (by decide) (fun x y hx _ => exArith_sum (by decide) x y hx) w.1 (by decide) (Or.inr rfl) _ (fun x hx => by
      obtain ⟨b, _, rfl⟩ := List.mem_map.1 hx
      exact ⟨[b], 0, 0, Or.inl rfl⟩)
  obtain ⟨cs, picked, h1, -⟩ := C99_kpp (A := exArith2) ⟨hok.small, hok.one, hok.size, hok.prod, hok.nrm⟩ E (by decide) (fun x hx => by
    obtain ⟨b, _, rfl⟩ := List.mem_map.1 hx
    exact conv_row (rows := [[b]]) (by simp [Elem.size]) (fileSized_bytes (Or.inr rfl) (by decide) _) (List.mem_singleton.2 rfl)) (by decide) (by decide) [[], []] (by decide)
  exact ⟨cs, h1⟩

/-- `float`s in that order: the dart misses all points. -/
example : kppCenters (kmF32 { exArith with total := exOrder, sum := fun _ _ => .fma 0 .init }).kpp exSixPts 2 5 0 id (fun _ => exDart) 1000000 [[], []] = .error .loop :=
  (C99_order_wrong { exArith with total := exOrder, sum := fun _ _ => .fma 0 .init } rfl rfl 2 (le_refl _) 0 id (fun _ => exDart) (fun _ => rfl) 1000000 [[], []] (le_refl _)).2.2

example : ∃ first last, kmeansF (kmF32 exArith) exKmRunD 2 12 exKmPts [[], []] = .ok last ∧ first.length = 2 ∧ (∀ c ∈ first, c ∈ exKmPts) ∧
    ApproxRun (2 * kmErr 64 2 5) (2 ^ 5 * 2 ^ (-23 : Int)) 2 12 exKmPts first last :=
  match C98_kmeans_partial (A := exArith) (exArith_ok (by decide) (by decide) (by decide)) exKmRunD_ok 12 (data := exKmPts) (mem := [[], []]) (by decide) (by decide)
    exPts_sized (by decide) (by decide) with
  | .inl h => absurd (exEnds _) h.2
  | .inr ⟨f, l, h1, h2, h3, h4, _⟩ => ⟨f, l, h1, h2, h3, h4⟩

def exFloatIvf : BuildEnv IvfTrain :=
  ⟨exStrSort, exJunk, cmpF32 true (serial 8) 8, ivfTrainEnv 1 (convF32 .uint8) exRnd (kmF32 exArith) exKmRunD 12 (fun _ => []) exPops (fun _ l => l.reverse)⟩

example : ∃ ops rs ops', buildIvfMain exFloatIvf exIvfLine exCmdFs = .ok (.run ops) ∧
    searchIvfMain (exRealSearch 11) exFloatIvf.run.cdist exPops exIvfSearchLine (runOps ops exCmdFs) = .ok (.run (rs, ops')) :=
  match C98_ivf_partial exFloatIvf (exRealSearch 11) exPops exCmdFs exIvfLine exIvfSearchLine ⟨.uint8, ascii "d", ascii "t", ascii "i", 2, ⟨0x3f000000#32⟩⟩
    ⟨.uint8, .l2, [], ascii "i", 1, ascii "q", ascii "g", 2, ascii "r", [ascii "a"], [1, 2]⟩ (by decide +kernel) (by decide +kernel) rfl rfl .l2UInt8 rfl
    true (serial 8) 1 rfl rfl rfl
    exStrSort_isStrSort exJunk_WF exJunk_WF exRows10 exFile10 (some exLabels10) exLab exCmdFs_q.2.2.1 (Or.inr ⟨by decide, by simp, exCmdFs_q.2.2.2⟩)
    exInput10 (by decide) exHalf (by decide +kernel) exArith 64 128 8 (exArith_ok (by decide) (by decide) (by decide)) exRnd exKmRunD exKmRunD_ok 12 (fun _ => []) exPops
    (fun _ l => l.reverse) rfl exPops_isPopOrder (fun _ l => l.reverse_perm) (by decide) (by decide) (by decide +kernel) (by decide +kernel)
    exPops_isPopOrder (by simp) 1 [[51], [55]] exQueries (some ⟨2, 2, [1, 0, 4, 2], none⟩)
    (exProgOK 11 exCmdFs exCmdFs_q.1 exCmdFs_q.2.1 _ 1 rfl rfl rfl (by simp) ⟨2, by simp, by decide⟩)
    (by
      rintro (- | p)
      · decide +kernel
      · exact (exCmdNames p).1)
    (by
      rintro (- | p)
      · decide +kernel
      · exact (exCmdNames p).2.1) (by decide) (by decide) (by simp)
    (exComputes _) (Or.inr (Or.inr rfl)) (fileSized_bytes (Or.inr rfl) (by decide) _) (fileSized_bytes (Or.inr rfl) (by decide) _) with
  | .inl h => absurd (⟨fun _ => exDarts, by decide, fun x y hx _ => exArith_sum (by decide) x y hx, Or.inl rfl⟩ : KppEnds exArith 64 128 8 8 exKmRunD _ 2) h.2
  | .inr ⟨_, _, ops, rs, ops', _, _, _, _, _, h1, h2, _⟩ => ⟨ops, rs, ops', h1, h2⟩

def exFloatTrain : TrainEnv D64 where
  rnd := exRnd
  rnd2 := exRnd
  conv := convF32
  km := kmF32 exArith
  run := fun _ => { exKmRunD with fuel := 300 }
  mem := fun _ _ => []
  memF := fun _ => F32.nan
  sub := F32.sub true
  divn := fun a _ => a
  pops := exPops
  j := exTruthJunk
  j' := exTruthJunk
  j'' := exTruthJunk
  jt := exLoadJunk
  j1 := exLoadJunk
  j2 := exLoadJunk
  j3 := exLoadJunk
  j4 := exLoadJunk
  fuel := 10
  both := .error .ub

theorem exFloatTrain_WF : exFloatTrain.WF := ⟨⟨rfl, rfl⟩, ⟨rfl, rfl⟩, ⟨rfl, rfl⟩, ⟨rfl, rfl⟩, ⟨rfl, rfl⟩, ⟨rfl, rfl⟩, ⟨rfl, rfl⟩⟩

theorem exFloatTrain_run : ∀ i, (exFloatTrain.run i).OK := fun _ => ⟨exKmRunD_ok.1, exKmRunD_ok.2, exKmRunD_ok.3⟩

/-- Two parts, every vector in one. -/
example : ∃ place ops, partitionMain exFloatTrain [ascii "partition", ascii "uint8", ascii "d", ascii "p", ascii "0.5", ascii "2", ascii "1"] exTrainFs = .ok (.run ops) ∧
    runOps ops exTrainFs (ascii "p_subshard-1_ids_uint32.bin") = some (Spec.idFile (Spec.shardOf place 10 1)) ∧ (place 0).length = 1 :=
  match C98_partition_partial (env := exFloatTrain) (e := .uint8) (fs := exTrainFs) (data := ascii "d") (r := ascii "0.5") (dim := 1) (rows := exRows10) exFloatTrain_WF exFloatTrain_run
    exPops_isPopOrder (by decide) (by decide) (by decide) (by decide +kernel) exTrainFs_d exArith 64 128 8 (exArith_ok (by decide) (by decide) (by decide)) rfl rfl
    (fileSized_bytes (Or.inr rfl) (by decide) _) ([49, 54, 55, 56, 57].map (fun n => [exNat n])) (by decide +kernel) (by decide) (fun _ => show 0 < 5 by decide)
    (ascii "partition") (ascii "p") (ascii "2") (ascii "1") 2 1 (by decide +kernel) (by decide +kernel) (by decide) (by decide) (by decide) (exNotOutput _ _) with
  | .inl h => absurd (⟨fun _ => exDarts, by decide, fun x y hx _ => exArith_sum (by decide) x y hx, Or.inl rfl⟩ : KppEnds exArith 64 128 1 8 (exFloatTrain.run 0) _ 2) h.2
  | .inr ⟨_, _, place, ops, h1, _, _, _, _, _, h2, h3⟩ => ⟨place, ops, h1, ((h3 exTrainFs).2.1 1 (by decide)).2, (h2 0 [49] rfl).2.1⟩

/-- One chunk. -/
example : ∃ (piv : List (List F32)) (code : Nat → Nat → Nat) (ops : List (FOp Bytes)),
    pqMain exFloatTrain [ascii "pq", ascii "uint8", ascii "d", ascii "p", ascii "1", ascii "0.5"] exTrainFs = .ok (.run ops) ∧
    runOps ops exTrainFs (ascii "p_compressed.bin") = some (Spec.codeFile 256 1 10 code) ∧ code 0 0 < 256 ∧ piv.length = 256 :=
  let ⟨piv, code, ops, h1, h2, h3, _, h5⟩ := C98_pq_partial exFloatTrain exFloatTrain_WF exFloatTrain_run exPops_isPopOrder (ascii "pq") (ascii "d") (ascii "p") (ascii "1")
    (ascii "0.5") .uint8 exTrainFs 1 (by decide +kernel) exTrainNames 1 exRows10 (by decide) (by decide) (by decide +kernel) exTrainFs_d (by decide) (by decide)
    (by decide) _ rfl exArith 64 128 8 (fun i hi => by
      have : i = 0 := by omega
      subst this
      exact exArith_ok (by decide) (by decide) (by decide)) rfl rfl (fileSized_bytes (Or.inr rfl) (by decide) _) (by decide +kernel)
    ([49, 54, 55, 56, 57].map (fun n => [exNat n])) (by decide +kernel) (by decide) (by decide) (fun i hi => by
      have : i = 0 := by omega
      subst this
      exact ⟨fun _ => exDarts, by decide, fun x y hx _ => exArith_sum (by decide) x y hx, Or.inl rfl⟩) (Or.inl exTrainOld)
  ⟨piv, code, ops, h1, (h2 exTrainFs).1 (pqName (ascii "p") 4, Spec.codeFile 256 1 10 code) (by
    iterate 4 apply List.mem_cons_of_mem
    exact List.mem_cons_self), ((h5 0 (by decide) _ rfl).2 0 [49] rfl).1, h3⟩

/-- The distance computed from 4096 to 4094.5 is 2, within the bound. -/
example : ∃ r, centreF32 true (rootF32 true) (serial 1) [exQ] [exCloser] = .ok r ∧ |value r - sqDistVal [exQ] [exCloser]| ≤ expandErr true 3 4 [exQ] [exCloser] :=
  have hq : dotVal [exQ] [exQ] = 4096 ^ 2 := by norm_num [dotVal, value, magnitude, exQ]
  have hc : dotVal [exCloser] [exCloser] = 4094.5 ^ 2 := by norm_num [dotVal, value, magnitude, exCloser]
  have pl := exCentre_plain true
  have pq := exExpand_plain true
  let ⟨r, h1, _, _, h2⟩ := C98_centre_partial true (nrm := rootF32 true) (h := 3) (o := 4) (T := serial 1) (n := 1) (x := [exQ]) (c := [exCloser])
    ⟨serial_sums 1, by decide, by decide, by decide, rfl, rfl, by simpa using pq.1.1, by simpa using pl.1.1, rootF32_ok true (by decide) (by decide) (by rw [hq]; norm_num),
      rootF32_ok true (by decide) (by decide) (by rw [hc]; norm_num), by rw [hq, hc]; norm_num⟩ (by simpa using pq.1) (by simpa using pl.1)
  ⟨r, h1, h2⟩

end Grann
