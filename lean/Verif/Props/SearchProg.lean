import Verif.Model.SearchProg
import Verif.Props.Driver
import Verif.Props.Filler
import Verif.Props.Pipeline
import Verif.Props.Stats
import Verif.Props.Truthset
/-!
# C82: the search programs as a whole
-/

namespace Grann

open _root_.Spec (Matches Reports)

/-! ## The output arrays -/

theorem row_ext {α : Type} {m m' : List α} {K n : Nat} (h1 : m.length = K * n) (h2 : m'.length = K * n)
    (h : ∀ i < n, Spec.row m K i = Spec.row m' K i) : m = m' := by
  apply List.ext_getElem?
  intro p
  by_cases hp : p < K * n
  · have hK : 0 < K := by
      rcases Nat.eq_zero_or_pos K with h | h
      · rw [h, Nat.zero_mul] at hp; omega
      · exact h
    have hi : p / K < n := Nat.div_lt_of_lt_mul hp
    have hj : p % K < K := Nat.mod_lt _ hK
    have := congrArg (fun l => l[p % K]?) (h _ hi)
    rw [row_get _ _ _ _ hj, row_get _ _ _ _ hj, Nat.div_add_mod] at this
    exact this
  · rw [List.getElem?_eq_none (by omega), List.getElem?_eq_none (by omega)]

theorem rows_flatten {K : Nat} : ∀ {n : Nat} {m : List Nat}, m.length = K * n →
    ((List.range n).map (fun i => le32s (Spec.row m K i))).flatten = le32s m
  | 0, m, h => by
    rw [Nat.mul_zero] at h
    rw [List.eq_nil_of_length_eq_zero h]; rfl
  | n + 1, m, h => by
    have hm : m = m.take (K * n) ++ Spec.row m K n := by
      unfold Spec.row
      rw [List.take_of_length_le (l := List.drop _ _) (by rw [List.length_drop, h, Nat.mul_succ]; omega), List.take_append_drop]
    have ih := rows_flatten (K := K) (n := n) (m := m.take (K * n)) (by rw [List.length_take, h, Nat.mul_succ]; omega)
    rw [List.range_succ, List.map_append, List.flatten_append]
    have : (List.range n).map (fun i => le32s (Spec.row m K i)) =
        (List.range n).map (fun i => le32s (Spec.row (m.take (K * n)) K i)) := by
      apply List.map_congr_left
      intro i hi
      have := row_le (d := K) (List.mem_range.1 hi)
      unfold Spec.row
      rw [List.drop_take, List.take_take, Nat.min_eq_left (by omega)]
    rw [this, ih]
    conv_rhs => rw [hm]
    simp [le32s]

/-- What the searches of the `nq` queries do: with room for `K` results each writes at most `K` identifiers, good ones, and leaves the
identifiers behind them as they are. -/
def Fills (K nq : Nat) (search : SearchFn) (qv : Nat → Bytes) (Good : Nat → List Nat → Prop) : Prop :=
  ∀ i < nq, ∀ (ind : List Nat) (dst : List F32), K ≤ ind.length → K ≤ dst.length →
    ∃ ids dst' c, search (qv i) ind dst = .ok (ids ++ ind.drop ids.length, dst', c) ∧ ids.length ≤ K ∧ Good i ids ∧
      dst'.length = dst.length

/-- The state of the two arrays after the queries in `done`. -/
structure Partly (K nq : Nat) (Good : Nat → List Nat → Prop) (done : List Nat) (a : List Nat × List F32) : Prop where
  ids : a.1.length = K * nq
  dists : a.2.length = K * nq
  fresh : ∀ i < nq, i ∉ done → Spec.row a.1 K i = List.replicate K 0
  good : ∀ i < nq, i ∈ done → ∃ s, Good i s ∧ s.length ≤ K ∧ Spec.row a.1 K i = s ++ List.replicate (K - s.length) 0

theorem Partly.step {es qadim adim K nq : Nat} {qbuf : Bytes} {search : SearchFn} {qv : Nat → Bytes}
    {Good : Nat → List Nat → Prop} (hf : Fills K nq search qv Good)
    (hq : ∀ i < nq, slice qbuf (i * qadim * es) (adim * es) = .ok (qv i)) {done : List Nat} {a : List Nat × List F32}
    (h : Partly K nq Good done a) {i : Nat} (hi : i < nq) (hnew : i ∉ done) :
    ∃ a', progQuery es qadim adim K qbuf search a i = .ok a' ∧ Partly K nq Good (i :: done) a' := by
  have hrow := row_le (d := K) hi
  rw [Nat.mul_comm K i] at hrow
  obtain ⟨ids, dst', c, e, hl, hg, hd⟩ := hf i hi (a.1.drop (i * K)) (a.2.drop (i * K))
    (by rw [List.length_drop, h.ids]; omega) (by rw [List.length_drop, h.dists]; omega)
  have h1 := h.ids
  have h2 := h.dists
  refine ⟨(a.1.take (i * K) ++ (ids ++ (a.1.drop (i * K)).drop ids.length), a.2.take (i * K) ++ dst'), ?_, ?_, ?_, ?_, ?_⟩
  · unfold progQuery
    rw [hq i hi, Res.ok_bind, e, Res.ok_bind]
  · simp only [List.length_append, List.length_take, List.length_drop]; omega
  · simp only [List.length_append, List.length_take, hd, List.length_drop]; omega
  · intro i' hi' hn
    rw [List.mem_cons, not_or] at hn
    rw [← h.fresh i' hi' hn.2]
    apply List.ext_getElem?
    intro j
    by_cases hj : j < K
    · rw [row_get _ _ _ _ hj, row_get _ _ _ _ hj]
      have hrow' := row_le (d := K) hi'
      rw [Nat.mul_comm K i'] at hrow' ⊢
      rcases Nat.lt_or_gt_of_ne hn.1 with hlt | hgt
      · have := row_le (d := K) hlt
        rw [Nat.mul_comm K i', Nat.mul_comm K i] at this
        rw [List.getElem?_append_left (by rw [List.length_take]; omega), List.getElem?_take_of_lt (by omega)]
      · have := row_le (d := K) hgt
        rw [Nat.mul_comm K i', Nat.mul_comm K i] at this
        rw [List.getElem?_append_right (by rw [List.length_take]; omega), List.length_take, Nat.min_eq_left (by omega),
          List.getElem?_append_right (by omega), List.getElem?_drop, List.getElem?_drop]
        congr 1; omega
    · rw [List.getElem?_eq_none (by unfold Spec.row; rw [List.length_take]; omega),
        List.getElem?_eq_none (by unfold Spec.row; rw [List.length_take]; omega)]
  · intro i' hi' hm
    by_cases hii : i' = i
    · subst hii
      refine ⟨ids, hg, hl, ?_⟩
      have hfr := h.fresh i' hi' hnew
      unfold Spec.row at hfr ⊢
      rw [Nat.mul_comm K i'] at hfr ⊢
      dsimp only
      rw [List.drop_append, List.drop_eq_nil_of_le (by rw [List.length_take]; omega), List.nil_append, List.length_take,
        Nat.min_eq_left (by omega), Nat.sub_self, List.drop_zero, List.take_append, List.take_of_length_le hl]
      congr 1
      rw [show K - ids.length = K - ids.length from rfl, ← List.drop_take, hfr, List.drop_replicate]
    · obtain ⟨s, g1, g2, g3⟩ := h.good i' hi' ((List.mem_cons.1 hm).resolve_left hii)
      refine ⟨s, g1, g2, ?_⟩
      rw [← g3]
      apply List.ext_getElem?
      intro j
      by_cases hj : j < K
      · rw [row_get _ _ _ _ hj, row_get _ _ _ _ hj]
        have hrow' := row_le (d := K) hi'
        rw [Nat.mul_comm K i'] at hrow' ⊢
        rcases Nat.lt_or_gt_of_ne hii with hlt | hgt
        · have := row_le (d := K) hlt
          rw [Nat.mul_comm K i', Nat.mul_comm K i] at this
          rw [List.getElem?_append_left (by rw [List.length_take]; omega), List.getElem?_take_of_lt (by omega)]
        · have := row_le (d := K) hgt
          rw [Nat.mul_comm K i', Nat.mul_comm K i] at this
          rw [List.getElem?_append_right (by rw [List.length_take]; omega), List.length_take, Nat.min_eq_left (by omega),
            List.getElem?_append_right (by omega), List.getElem?_drop, List.getElem?_drop]
          congr 1; omega
      · rw [List.getElem?_eq_none (by unfold Spec.row; rw [List.length_take]; omega),
          List.getElem?_eq_none (by unfold Spec.row; rw [List.length_take]; omega)]

theorem Partly.run {es qadim adim K nq : Nat} {qbuf : Bytes} {search : SearchFn} {qv : Nat → Bytes}
    {Good : Nat → List Nat → Prop} (hf : Fills K nq search qv Good)
    (hq : ∀ i < nq, slice qbuf (i * qadim * es) (adim * es) = .ok (qv i)) :
    ∀ (order done : List Nat) (a : List Nat × List F32), Partly K nq Good done a → order.Nodup →
      (∀ i ∈ order, i < nq ∧ i ∉ done) →
      ∃ a', order.foldlM (progQuery es qadim adim K qbuf search) a = .ok a' ∧ Partly K nq Good (order.reverse ++ done) a'
  | [], done, a, h, _, _ => ⟨a, rfl, h⟩
  | i :: order, done, a, h, hnd, hin => by
    rw [List.nodup_cons] at hnd
    obtain ⟨a', e, h'⟩ := h.step hf hq (hin i (by simp)).1 (hin i (by simp)).2
    obtain ⟨a'', e', h''⟩ := Partly.run hf hq order (i :: done) a' h' hnd.2 (fun x hx => ⟨(hin x (by simp [hx])).1, by
      rw [List.mem_cons, not_or]
      exact ⟨fun hxi => hnd.1 (hxi ▸ hx), (hin x (by simp [hx])).2⟩⟩)
    refine ⟨a'', by rw [List.foldlM_cons, e, Res.ok_bind, e'], ?_⟩
    rw [List.reverse_cons, List.append_assoc]; exact h''

/-- What is left in the array of identifiers after all queries, in any order. -/
theorem progQueries_ok {es qadim adim K nq : Nat} {qbuf : Bytes} {search : SearchFn} {qv : Nat → Bytes}
    {Good : Nat → List Nat → Prop} (hf : Fills K nq search qv Good)
    (hq : ∀ i < nq, slice qbuf (i * qadim * es) (adim * es) = .ok (qv i)) {order : List Nat} (ho : order.Perm (List.range nq)) :
    ∃ (a : List Nat × List F32) (out : Nat → List Nat), order.foldlM (progQuery es qadim adim K qbuf search) (List.replicate (K * nq) 0, List.replicate (K * nq) F32.zero) = .ok a ∧
      a.1.length = K * nq ∧
      ∀ i < nq, Good i (out i) ∧ (out i).length ≤ K ∧ Spec.row a.1 K i = out i ++ List.replicate (K - (out i).length) 0 := by
  obtain ⟨a, e, h⟩ := Partly.run hf hq order [] (List.replicate (K * nq) 0, List.replicate (K * nq) F32.zero)
    ⟨List.length_replicate, List.length_replicate, fun i hi _ => by
      have := row_le (d := K) hi
      unfold Spec.row
      rw [List.drop_replicate, List.take_replicate, Nat.min_eq_left (by omega)], by simp⟩
    (ho.nodup_iff.2 List.nodup_range) (fun i hi => ⟨List.mem_range.1 (ho.mem_iff.1 hi), by simp⟩)
  have hg : ∀ i, ∃ s, i < nq → Good i s ∧ s.length ≤ K ∧ Spec.row a.1 K i = s ++ List.replicate (K - s.length) 0 := by
    intro i
    by_cases hi : i < nq
    · obtain ⟨s, hs⟩ := h.good i hi (by simpa using ho.mem_iff.2 (List.mem_range.2 hi))
      exact ⟨s, fun _ => hs⟩
    · exact ⟨[], fun h => absurd h hi⟩
  choose out hout using hg
  exact ⟨a, out, e, h.ids, hout⟩

theorem p999_ok {prec : Nat} (h : prec = 24 ∨ prec = 53) : 0 < (p999 prec).2 ∧ fval (p999 prec) ≤ 1 - 1 / 2097152 := by
  have h1 : p999 24 = (16760439, 16777216) := by decide +kernel
  have h2 : (p999 53).2 = 9007199254740992 := by decide +kernel
  have h3 : (p999 53).1 = 8998192055486251 := by decide +kernel
  rcases h with rfl | rfl
  · rw [h1]; exact ⟨by decide, by norm_num [fval]⟩
  · rw [show p999 53 = (8998192055486251, 9007199254740992) from Prod.ext h3 h2]
    exact ⟨by decide, by norm_num [fval]⟩

theorem progStats_ok {nq : Nat} (h : 1 ≤ nq) : progStats nq = .ok () := by
  have h1 := C69_in_bounds (prec := 24) (le_refl _) (p999_ok (Or.inl rfl)).1 (p999_ok (Or.inl rfl)).2 h
  have h2 := C69_in_bounds (prec := 53) (by decide) (p999_ok (Or.inr rfl)).1 (p999_ok (Or.inr rfl)).2 h
  unfold progStats
  rw [rd_ok (by rw [List.length_replicate]; exact h1), Res.ok_bind, rd_ok (by rw [List.length_replicate]; exact h2)]

/-! ## One value of the search parameter -/

namespace Spec

/-- The `K` slots of a query into which `s` has been written. -/
def filled (K : Nat) (s : List Nat) : List Nat := s ++ List.replicate (K - s.length) 0

/-- The number of true neighbours among the slots of all queries. -/
noncomputable def slotHits (t : Truth) (nq K : Nat) (out : Nat → List Nat) : Nat :=
  ((List.range nq).map (fun i => (countedSet t.ids t.dists t.dim K i ∩ (filled K (out i)).toFinset).card)).sum

/-- The recall printed: none without ground truth, else within rounding the percentage of true neighbours among the slots. -/
def PrintedRecall (truth : Option Truth) (nq K : Nat) (out : Nat → List Nat) (r : Option (Nat × Nat)) : Prop :=
  match truth with
  | none => r = none
  | some t => ∃ v, r = some v ∧ |fval v - 100 * slotHits t nq K out / (nq * K)| ≤ 100 * slotHits t nq K out / (nq * K) * (4 / 2 ^ 53)

/-- The vector that the search for query `i` reads: the vector of the query file with the zeros behind it, as many elements as the vectors
of the index have. -/
def queryVec (es qdim adim : Nat) (qrows : List Bytes) (i : Nat) : Bytes :=
  (padTo (roundUp8 qdim * es) (qrows.getD i [])).take (adim * es)

end Spec

theorem progRound_ok {es qadim adim K nq : Nat} {qbuf : Bytes} {search : SearchFn} {qv : Nat → Bytes}
    {Good : Nat → List Nat → Prop} (hf : Fills K nq search qv Good)
    (hq : ∀ i < nq, slice qbuf (i * qadim * es) (adim * es) = .ok (qv i)) {order : List Nat} (ho : order.Perm (List.range nq))
    (hn : 1 ≤ nq) (hK : K < 4294967296) (hroom : K * nq ≤ 2305843009213693951) {truth : Option Truth}
    (ht : ∀ t, truth = some t → DriverInput nq t.ids t.dists t.dim K) :
    ∃ ids r out, progRound es qadim adim K nq qbuf search order truth = .ok (ids, r) ∧ ids.length = K * nq ∧
      (∀ i < nq, Good i (out i) ∧ (out i).length ≤ K ∧ Spec.row ids K i = Spec.filled K (out i)) ∧
      Spec.PrintedRecall truth nq K out r := by
  obtain ⟨a, out, e, hl, hout⟩ := progQueries_ok hf hq ho
  have hu : u64 (K * nq) = K * nq := Nat.mod_eq_of_lt (by omega)
  have hu32 : u32 K = K := Nat.mod_eq_of_lt hK
  unfold progRound
  rw [hu, if_neg (by omega), e, Res.ok_bind, progStats_ok hn]
  cases truth with
  | none => exact ⟨a.1, none, out, rfl, hl, hout, rfl⟩
  | some t =>
    have hd := ht t rfl
    have hin : RecallInput nq t.ids t.dists t.dim a.1 K K := ⟨hd.gold, hl, hd.dists, hd.pos, hd.gs, le_refl _, hd.lt⟩
    obtain ⟨c, v, h1, h2, h3, -⟩ := C45_value_partial nq t.ids t.dists t.dim a.1 K K hin (by omega)
    rw [C45_count_partial nq t.ids t.dists t.dim a.1 K K hin] at h1
    injection h1 with h1
    have hc : c = Spec.slotHits t nq K out := by
      rw [← h1]
      unfold Spec.slotHits
      congr 1
      apply List.map_congr_left
      intro i hi
      obtain ⟨-, g2, g3⟩ := hout i (List.mem_range.1 hi)
      rw [g3, List.take_of_length_le (by rw [List.length_append, List.length_replicate]; omega)]
      rfl
    rw [hc] at h3
    unfold progRecall
    dsimp only
    rw [hu32, h2]
    exact ⟨a.1, some v, out, rfl, hl, hout, v, rfl, h3⟩

/-! ## The files -/

theorem run_saves {P : Type} [DecidableEq P] (n d : Nat) : ∀ (xs : List (P × Bytes)) (fs : FS P) (p : P),
    (∃ x ∈ xs, x.1 = p ∧ runOps (xs.flatMap (fun x => saveBin x.1 n d x.2)) fs p = some (le 4 n ++ (le 4 d ++ x.2))) ∨
    ((∀ x ∈ xs, x.1 ≠ p) ∧ runOps (xs.flatMap (fun x => saveBin x.1 n d x.2)) fs p = fs p)
  | [], fs, p => Or.inr ⟨by simp, rfl⟩
  | x :: xs, fs, p => by
    rw [List.flatMap_cons, runOps_append]
    rcases run_saves n d xs (runOps (saveBin x.1 n d x.2) fs) p with ⟨y, hy, h1, h2⟩ | ⟨h1, h2⟩
    · exact Or.inl ⟨y, by simp [hy], h1, h2⟩
    · rw [h2, saveBin_run]
      dsimp only
      by_cases hp : p = x.1
      · rw [if_pos hp]; exact Or.inl ⟨x, by simp, hp.symm, rfl⟩
      · rw [if_neg hp]
        refine Or.inr ⟨fun y hy => ?_, rfl⟩
        rcases List.mem_cons.1 hy with rfl | hy
        · exact fun h => hp h.symm
        · exact h1 y hy

/-- A query file. -/
structure QueryOK (es qdim : Nat) (qrows : List Bytes) (qb : Bytes) : Prop where
  file : Spec.BinFile qdim qrows qb
  matrix : Spec.Matrix es qdim qrows
  few : qrows.length < 4294967296
  dims : qdim < 4294967296
  size : qrows.length * qdim * es + 8 < 18446744073709551616
  mem : qrows.length * roundUp8 qdim * es < 18446744073709551616

theorem QueryOK.load {es qdim : Nat} {qrows : List Bytes} {qb : Bytes} (h : QueryOK es qdim qrows qb) {h1 h2 : Bytes}
    (hh1 : h1.length = 4) (hh2 : h2.length = 4) (mem : Nat → UInt8) : loadAligned es (some qb) h1 h2 mem =
      .ok (qrows.length, qdim, roundUp8 qdim, (qrows.map (Spec.padTo (roundUp8 qdim * es))).flatten) := by
  rw [(binFile_iff h.few h.dims).1 h.file]
  exact loadAligned_ok h.matrix h.few h.dims h.size h.mem hh1 hh2 mem

theorem le_roundUp8 (d : Nat) : d ≤ roundUp8 d := (roundUp8_spec d).1

theorem QueryOK.padded {es qdim : Nat} {qrows : List Bytes} {qb : Bytes} (h : QueryOK es qdim qrows qb) :
    ∀ x ∈ qrows.map (Spec.padTo (roundUp8 qdim * es)), x.length = roundUp8 qdim * es := by
  intro x hx
  obtain ⟨y, hy, rfl⟩ := List.mem_map.mp hx
  have := Nat.mul_le_mul_right es (le_roundUp8 qdim)
  simp only [Spec.padTo, List.length_append, List.length_replicate, h.matrix y hy]; omega

theorem QueryOK.slice {es qdim adim : Nat} {qrows : List Bytes} {qb : Bytes} (h : QueryOK es qdim qrows qb) (ha : adim ≤ roundUp8 qdim)
    {i : Nat} (hi : i < qrows.length) :
    slice (qrows.map (Spec.padTo (roundUp8 qdim * es))).flatten (i * roundUp8 qdim * es) (adim * es) =
      .ok (Spec.queryVec es qdim adim qrows i) := by
  obtain ⟨h1, h2⟩ := drop_take_block (qrows.map (Spec.padTo (roundUp8 qdim * es))) (roundUp8 qdim * es) i
    (Spec.padTo (roundUp8 qdim * es) qrows[i]) h.padded (by simp [hi])
  have hle := Nat.mul_le_mul_right es ha
  rw [Nat.mul_assoc]
  unfold Grann.slice
  rw [if_pos (by omega)]
  congr 1
  unfold Spec.queryVec
  rw [List.getD_eq_getElem?_getD, List.getElem?_eq_getElem hi, Option.getD_some, ← h1, List.take_take, Nat.min_eq_left hle]

/-- The ground truth: no file, or one with a row of at least `K` entries for each of `nq` queries. -/
def TruthOK (nq K : Nat) (file : Option Bytes) (truth : Option Truth) : Prop :=
  match file with
  | none => truth = none
  | some b => ∃ t, truth = some t ∧ b.length < 9223372036854775808 ∧ Spec.truth b = .ok t ∧ DriverInput nq t.ids t.dists t.dim K

theorem TruthOK.load {nq K : Nat} {file : Option Bytes} {truth : Option Truth} (h : TruthOK nq K file truth) {jt : TruthJunk}
    (hj1 : jt.npts.length = 4) (hj2 : jt.dim.length = 4) : progTruth file jt = .ok truth := by
  cases file with
  | none => rw [show truth = none from h]; rfl
  | some b =>
    obtain ⟨t, rfl, hb, ht, -⟩ := h
    unfold progTruth
    dsimp only
    rw [C46_load b hb jt hj1 hj2, ht, Res.ok_bind]

theorem TruthOK.input {nq K : Nat} {file : Option Bytes} {truth : Option Truth} (h : TruthOK nq K file truth) :
    ∀ t, truth = some t → DriverInput nq t.ids t.dists t.dim K := by
  intro t ht
  cases file with
  | none => rw [show truth = none from h] at ht; cases ht
  | some b =>
    obtain ⟨t', rfl, -, -, h⟩ := h
    cases ht; exact h

/-- What a run of a search program depends on besides the index. -/
structure Prog (P : Type) where
  f : ProgFiles P
  qdim : Nat
  qrows : List Bytes
  qb : Bytes
  K : Nat
  minL : Nat
  Ls : List Nat
  truth : Option Truth
  h1 : Bytes
  h2 : Bytes
  mem : Nat → UInt8
  jt : TruthJunk
  order : Nat → List Nat

/-- A well-formed run: a query file with at least one query, whose vectors are at least as long as those of the index after rounding up to multiples of
8; a ground truth for exactly these queries or none; a search parameter that is not left out; the threads do every query once. -/
structure Prog.OK {P : Type} (S : Prog P) (es adim : Nat) (fs : FS P) : Prop where
  res : ∀ L ∈ S.Ls, ∀ L' ∈ S.Ls, S.f.res L = S.f.res L' → L = L'
  query : fs S.f.query = some S.qb
  queries : QueryOK es S.qdim S.qrows S.qb
  some : 1 ≤ S.qrows.length
  dim : adim ≤ roundUp8 S.qdim
  few : S.K < 4294967296
  room : S.K * S.qrows.length ≤ 2305843009213693951
  truth : TruthOK S.qrows.length S.K (fs S.f.truth) S.truth
  h1 : S.h1.length = 4
  h2 : S.h2.length = 4
  j1 : S.jt.npts.length = 4
  j2 : S.jt.dim.length = 4
  order : ∀ t, (S.order t).Perm (List.range S.qrows.length)
  param : ∃ L ∈ S.Ls, S.minL ≤ L

/-- The program. -/
def Prog.run {P : Type} (S : Prog P) (es : Nat) (load : FS P → Res (Nat × (Nat → SearchFn))) (fs : FS P) :
    Res (Option (List (Option (Nat × Nat)) × List (FOp P))) :=
  searchProg S.f es S.K S.minL S.Ls S.h1 S.h2 S.mem S.jt load S.order fs

/-- What the program gives: for every search parameter that is not left out it prints the percentage of true neighbours among the `K` slots of the queries, and
leaves a file with exactly these slots, the good identifiers that the searches wrote and zeros behind them; no other file is changed. -/
def Prog.Gives {P : Type} [DecidableEq P] (S : Prog P) (fs : FS P) (Good : Nat → Nat → List Nat → Prop) (rs : List (Option (Nat × Nat)))
    (ops : List (FOp P)) : Prop :=
  ∃ out : Nat → Nat → List Nat,
    rs.length = (S.Ls.filter (fun L => S.minL ≤ L)).length ∧
    (∀ (t L : Nat), (S.Ls.filter (fun L => S.minL ≤ L))[t]? = some L →
      (∀ k < S.qrows.length, Good L k (out t k) ∧ (out t k).length ≤ S.K) ∧
      ∃ r, rs[t]? = some r ∧ Spec.PrintedRecall S.truth S.qrows.length S.K (out t) r) ∧
    (∀ L ∈ S.Ls, S.minL ≤ L → ∃ t b, (S.Ls.filter (fun L => S.minL ≤ L))[t]? = some L ∧ runOps ops fs (S.f.res L) = some b ∧
      Spec.BinFile S.K ((List.range S.qrows.length).map (fun k => le32s (Spec.filled S.K (out t k)))) b) ∧
    ∀ p, (∀ L ∈ S.Ls, S.minL ≤ L → p ≠ S.f.res L) → runOps ops fs p = fs p

/-- The program ends normally and gives this. -/
def Prog.Ends {P : Type} [DecidableEq P] (S : Prog P) (es : Nat) (load : FS P → Res (Nat × (Nat → SearchFn))) (fs : FS P)
    (Good : Nat → Nat → List Nat → Prop) : Prop :=
  ∃ rs ops, S.run es load fs = .ok (some (rs, ops)) ∧ S.Gives fs Good rs ops

/-- **C82 (what a run gives).** Take any well-formed run, any loaded index whose searches fill at most `K` slots with good identifiers.  Then the
program ends normally and gives the slots and their recall. -/
theorem C82_results {P : Type} [DecidableEq P] (S : Prog P) (es adim : Nat) (fs : FS P) (hS : S.OK es adim fs)
    (load : FS P → Res (Nat × (Nat → SearchFn))) (search : Nat → SearchFn) (hload : load fs = .ok (adim, search))
    (Good : Nat → Nat → List Nat → Prop)
    (hf : ∀ L ∈ S.Ls, S.minL ≤ L → Fills S.K S.qrows.length (search (u32 L)) (Spec.queryVec es S.qdim adim S.qrows) (Good L)) :
    S.Ends es load fs Good := by
  obtain ⟨f, qdim, qrows, qb, K, minL, Ls, truth, h1, h2, mem, jt, order⟩ := S
  obtain ⟨hres, hqf, hQ, hn, hdim, hK, hroom, htr, hh1, hh2, hj1, hj2, hord, hne⟩ := hS
  unfold Prog.Ends Prog.run Prog.Gives
  dsimp only at *
  have htl := htr.load hj1 hj2
  have hdr := htr.input
  obtain ⟨Fs, hFs⟩ : ∃ Fs, Fs = Ls.filter (fun L => decide (minL ≤ L)) := ⟨_, rfl⟩
  have hmem : ∀ L, L ∈ Fs ↔ L ∈ Ls ∧ minL ≤ L := by intro L; rw [hFs, List.mem_filter, decide_eq_true_eq]
  have hround : ∀ x ∈ Fs.zipIdx, ∃ y, progRound es (roundUp8 qdim) adim K qrows.length
      (qrows.map (Spec.padTo (roundUp8 qdim * es))).flatten (search (u32 x.1)) (order x.2) truth = .ok y ∧
      ∃ out : Nat → List Nat, y.1.length = K * qrows.length ∧
      (∀ i < qrows.length, Good x.1 i (out i) ∧ (out i).length ≤ K ∧ Spec.row y.1 K i = Spec.filled K (out i)) ∧
      Spec.PrintedRecall truth qrows.length K out y.2 := by
    rintro ⟨L, t⟩ hx
    have hL := (hmem L).1 (List.fst_mem_of_mem_zipIdx hx)
    obtain ⟨ids, r, out, e, g⟩ := progRound_ok (hf L hL.1 hL.2) (fun i hi => hQ.slice hdim hi) (hord t) hn hK hroom hdr
    exact ⟨(ids, r), e, out, g⟩
  obtain ⟨ys, ey, hall⟩ := mapM_ok_of_forall Fs.zipIdx hround
  have hlen : ys.length = Fs.length := by rw [← hall.length_eq, List.length_zipIdx]
  have hget : ∀ t : Nat, ∃ out : Nat → List Nat, ∀ (L : Nat) (y : List Nat × Option (Nat × Nat)), Fs[t]? = some L → ys[t]? = some y → y.1.length = K * qrows.length ∧
      (∀ i < qrows.length, Good L i (out i) ∧ (out i).length ≤ K ∧ Spec.row y.1 K i = Spec.filled K (out i)) ∧
      Spec.PrintedRecall truth qrows.length K out y.2 := by
    intro t
    by_cases ht : t < Fs.length
    · have hz : t < Fs.zipIdx.length := by rw [List.length_zipIdx]; exact ht
      obtain ⟨out, h⟩ := (List.forall₂_iff_get.1 hall).2 t hz (by omega)
      refine ⟨out, fun L y hL hy => ?_⟩
      obtain ⟨_, rfl⟩ := List.getElem?_eq_some_iff.1 hL
      obtain ⟨_, rfl⟩ := List.getElem?_eq_some_iff.1 hy
      simpa using h
    · exact ⟨fun _ => [], fun L y hL _ => absurd (List.getElem?_eq_some_iff.1 hL).1 ht⟩
  choose out hout using hget
  have hne' : Fs.length ≠ 0 := by
    obtain ⟨L, h⟩ := hne
    exact Nat.ne_of_gt (List.length_pos_of_mem ((hmem L).2 h))
  have hfm : (Fs.zip ys).flatMap (fun x => saveBin (f.res x.1) qrows.length K (le32s x.2.1)) =
      ((Fs.zip ys).map (fun x => (f.res x.1, le32s x.2.1))).flatMap (fun x => saveBin x.1 qrows.length K x.2) := by
    rw [List.flatMap_map]
  refine ⟨ys.map Prod.snd, (Fs.zip ys).flatMap (fun x => saveBin (f.res x.1) qrows.length K (le32s x.2.1)), ?_, out, ?_, ?_, ?_, ?_⟩
  · unfold searchProg
    rw [← hFs]
    dsimp only
    rw [if_neg hne', hqf, hQ.load hh1 hh2 mem, Res.ok_bind]
    dsimp only
    rw [htl, Res.ok_bind, hload, Res.ok_bind]
    dsimp only
    rw [ey, Res.ok_bind]
  · rw [List.length_map, hlen, hFs]
  · intro t L hL
    rw [← hFs] at hL
    have ht := (List.getElem?_eq_some_iff.1 hL).1
    obtain ⟨g1, g2, g3⟩ := hout t L _ hL (List.getElem?_eq_getElem (by omega))
    exact ⟨fun i hi => ⟨(g2 i hi).1, (g2 i hi).2.1⟩, _, by rw [List.getElem?_map, List.getElem?_eq_getElem (by omega)]; rfl, g3⟩
  · intro L hL hm
    rw [hfm, ← hFs]
    rcases run_saves qrows.length K ((Fs.zip ys).map (fun x => (f.res x.1, le32s x.2.1))) fs (f.res L) with ⟨x, hx, e1, e2⟩ | ⟨hno, -⟩
    · obtain ⟨⟨L', y⟩, hy, rfl⟩ := List.mem_map.1 hx
      have hLL : L' = L := hres L' ((hmem L').1 (List.of_mem_zip hy).1).1 L hL e1
      subst hLL
      obtain ⟨t, ht⟩ := List.getElem?_of_mem hy
      rw [List.getElem?_zip_eq_some] at ht
      obtain ⟨g1, g2, -⟩ := hout t L' y ht.1 ht.2
      refine ⟨t, _, ht.1, e2, (binFile_iff (by rw [List.length_map, List.length_range]; exact hQ.few) hK).2 ?_⟩
      rw [List.length_map, List.length_range]
      congr 2
      show le32s y.1 = _
      rw [← rows_flatten g1]
      congr 1
      apply List.map_congr_left
      intro i hi
      rw [(g2 i (List.mem_range.1 hi)).2.2]
    · exfalso
      obtain ⟨t, ht⟩ := List.getElem?_of_mem ((hmem L).2 ⟨hL, hm⟩)
      have htl := (List.getElem?_eq_some_iff.1 ht).1
      have hz : (Fs.zip ys)[t]? = some (L, ys[t]) :=
        List.getElem?_zip_eq_some.2 ⟨ht, List.getElem?_eq_getElem (by omega)⟩
      exact hno _ (List.mem_map.2 ⟨_, List.mem_of_getElem? hz, rfl⟩) rfl
  · intro p hp
    rw [hfm]
    rcases run_saves qrows.length K ((Fs.zip ys).map (fun x => (f.res x.1, le32s x.2.1))) fs p with ⟨x, hx, e1, -⟩ | ⟨-, h⟩
    · exfalso
      obtain ⟨⟨L', y⟩, hy, rfl⟩ := List.mem_map.1 hx
      have := (hmem L').1 (List.of_mem_zip hy).1
      exact hp L' this.1 this.2 e1.symm
    · exact h

/-! ## Runs that go wrong -/

/-- Searches that, with room for `K` results, come back for every vector and leave the arrays as long as they were. -/
def Returns (K : Nat) (search : SearchFn) : Prop :=
  ∀ (q : Bytes) (ind : List Nat) (dst : List F32), K ≤ ind.length → K ≤ dst.length →
    ∃ ind' dst' c, search q ind dst = .ok (ind', dst', c) ∧ ind'.length = ind.length ∧ dst'.length = dst.length

theorem progQuery_stop {es qadim adim K nq : Nat} {qbuf : Bytes} {search : SearchFn} (hs : Returns K search)
    {bad : Nat} (hbad : slice qbuf (bad * qadim * es) (adim * es) = .error .ub) :
    ∀ (order : List Nat) (a : List Nat × List F32), a.1.length = K * nq → a.2.length = K * nq → (∀ i ∈ order, i < nq) → bad ∈ order →
      order.foldlM (progQuery es qadim adim K qbuf search) a = .error .ub
  | [], _, _, _, _, h => by cases h
  | i :: order, a, h1, h2, hin, hb => by
    rw [List.foldlM_cons]
    by_cases hi : slice qbuf (i * qadim * es) (adim * es) = .error .ub
    · have : progQuery es qadim adim K qbuf search a i = .error .ub := by unfold progQuery; rw [hi]; rfl
      rw [this, Res.err_bind]
    · obtain ⟨q, hq⟩ : ∃ q, slice qbuf (i * qadim * es) (adim * es) = .ok q := by
        unfold slice at hi ⊢
        split
        · exact ⟨_, rfl⟩
        · rename_i h; rw [if_neg h] at hi; exact absurd rfl hi
      have hrow := row_le (d := K) (hin i (by simp))
      rw [Nat.mul_comm K i] at hrow
      obtain ⟨x, y, c, e, hx, hy⟩ := hs q (a.1.drop (i * K)) (a.2.drop (i * K))
        (by rw [List.length_drop]; omega) (by rw [List.length_drop]; omega)
      have : progQuery es qadim adim K qbuf search a i = .ok (a.1.take (i * K) ++ x, a.2.take (i * K) ++ y) := by
        unfold progQuery; rw [hq, Res.ok_bind, e, Res.ok_bind]
      rw [this, Res.ok_bind]
      have hne : bad ≠ i := by rintro rfl; exact hi hbad
      refine progQuery_stop hs hbad order _ ?_ ?_ (fun z hz => hin z (by simp [hz])) ((List.mem_cons.1 hb).resolve_left hne)
      · simp only [List.length_append, List.length_take, hx, List.length_drop]; omega
      · simp only [List.length_append, List.length_take, hy, List.length_drop]; omega

theorem filter_cons {minL : Nat} {Ls : List Nat} (hne : ∃ L ∈ Ls, minL ≤ L) :
    ∃ L rest, Ls.filter (fun L => minL ≤ L) = L :: rest ∧ L ∈ Ls ∧ minL ≤ L := by
  obtain ⟨L, h1, h2⟩ := hne
  have hm : L ∈ Ls.filter (fun L => minL ≤ L) := by simp [h1, h2]
  cases hf : Ls.filter (fun L => minL ≤ L) with
  | nil => rw [hf] at hm; cases hm
  | cons L' rest =>
    have : L' ∈ Ls.filter (fun L => minL ≤ L) := by rw [hf]; simp
    rw [List.mem_filter, decide_eq_true_eq] at this
    exact ⟨L', rest, rfl, this⟩

/-- If the searches for the first search parameter go wrong, so does the program. -/
theorem searchProg_stop {P : Type} (f : ProgFiles P) (fs : FS P) {es K minL : Nat} {Ls : List Nat}
    {h1 h2 : Bytes} (hh1 : h1.length = 4) (hh2 : h2.length = 4) {mem : Nat → UInt8} {jt : TruthJunk}
    {qdim : Nat} {qrows : List Bytes} {qb : Bytes} (hqf : fs f.query = some qb) (hQ : QueryOK es qdim qrows qb)
    {truth : Option Truth} (htr : progTruth (fs f.truth) jt = .ok truth)
    {load : FS P → Res (Nat × (Nat → SearchFn))} {adim : Nat} {search : Nat → SearchFn} (hload : load fs = .ok (adim, search))
    {order : Nat → List Nat} (hne : ∃ L ∈ Ls, minL ≤ L) {e : Err}
    (hr : ∀ L ∈ Ls, minL ≤ L → progRound es (roundUp8 qdim) adim K qrows.length
      (qrows.map (Spec.padTo (roundUp8 qdim * es))).flatten (search (u32 L)) (order 0) truth = .error e) :
    searchProg f es K minL Ls h1 h2 mem jt load order fs = .error e := by
  obtain ⟨L, rest, hf, hL, hm⟩ := filter_cons hne
  unfold searchProg
  rw [hf]
  dsimp only
  rw [if_neg (by simp), hqf, hQ.load hh1 hh2 mem, Res.ok_bind]
  dsimp only
  rw [htr, Res.ok_bind, hload, Res.ok_bind]
  dsimp only
  rw [List.zipIdx_cons, List.mapM_cons, hr L hL hm, Res.err_bind, Res.err_bind]

/-- **C82 fails: short queries.** If the vectors of the query file are shorter than those of the index (after rounding up to multiples of 8),
nothing notices: the last query is read past the end of the array. -/
theorem C82_short_queries {P : Type} (f : ProgFiles P) (fs : FS P) (es K minL : Nat) (hes : 1 ≤ es) (Ls : List Nat)
    (h1 h2 : Bytes) (hh1 : h1.length = 4) (hh2 : h2.length = 4) (mem : Nat → UInt8) (jt : TruthJunk)
    (qdim : Nat) (qrows : List Bytes) (qb : Bytes) (hqf : fs f.query = some qb) (hQ : QueryOK es qdim qrows qb) (hn : 1 ≤ qrows.length)
    (hroom : K * qrows.length ≤ 2305843009213693951)
    (truth : Option Truth) (htr : progTruth (fs f.truth) jt = .ok truth)
    (load : FS P → Res (Nat × (Nat → SearchFn))) (adim : Nat) (search : Nat → SearchFn) (hload : load fs = .ok (adim, search))
    (hdim : roundUp8 qdim < adim) (order : Nat → List Nat) (hord : ∀ t, (order t).Perm (List.range qrows.length))
    (hs : ∀ L, Returns K (search L)) (hne : ∃ L ∈ Ls, minL ≤ L) :
    searchProg f es K minL Ls h1 h2 mem jt load order fs = .error .ub := by
  refine searchProg_stop f fs hh1 hh2 hqf hQ htr hload hne (fun L _ _ => ?_)
  have hu : u64 (K * qrows.length) = K * qrows.length := Nat.mod_eq_of_lt (by omega)
  unfold progRound
  rw [hu, if_neg (by omega), progQuery_stop (nq := qrows.length) (hs _) (bad := qrows.length - 1) ?_ _ _ List.length_replicate List.length_replicate
    (fun i hi => List.mem_range.1 ((hord 0).mem_iff.1 hi)) ((hord 0).mem_iff.2 (List.mem_range.2 (by omega))), Res.err_bind]
  unfold slice
  rw [if_neg]
  rw [flatten_length_of hQ.padded, List.length_map, Nat.mul_assoc]
  have h3 : roundUp8 qdim * es < adim * es := Nat.mul_lt_mul_of_pos_right hdim hes
  have h4 : qrows.length * (roundUp8 qdim * es) = (qrows.length - 1) * (roundUp8 qdim * es) + roundUp8 qdim * es := by
    conv_lhs => rw [show qrows.length = (qrows.length - 1) + 1 from by omega, Nat.add_mul, Nat.one_mul]
  omega

/-- **C82 fails: no queries.** For an empty query file the program reads element 0 of an empty array of times. -/
theorem C82_no_queries {P : Type} (f : ProgFiles P) (fs : FS P) (es K minL : Nat) (Ls : List Nat)
    (h1 h2 : Bytes) (hh1 : h1.length = 4) (hh2 : h2.length = 4) (mem : Nat → UInt8) (jt : TruthJunk)
    (qdim : Nat) (qb : Bytes) (hqf : fs f.query = some qb) (hQ : QueryOK es qdim [] qb)
    (truth : Option Truth) (htr : progTruth (fs f.truth) jt = .ok truth)
    (load : FS P → Res (Nat × (Nat → SearchFn))) (adim : Nat) (search : Nat → SearchFn) (hload : load fs = .ok (adim, search))
    (order : Nat → List Nat) (hord : order 0 = []) (hne : ∃ L ∈ Ls, minL ≤ L) :
    searchProg f es K minL Ls h1 h2 mem jt load order fs = .error .ub := by
  refine searchProg_stop f fs hh1 hh2 hqf hQ htr hload hne (fun L _ _ => ?_)
  unfold progRound
  rw [hord]
  have hst : progStats 0 = .error .ub := by
    unfold progStats
    rw [rd_ub (Nat.zero_le _), Res.err_bind]
  have hrec : ∃ r, progRecall K 0 (List.replicate (u64 (K * 0)) 0) truth = .ok r := by
    cases truth with
    | none => exact ⟨none, rfl⟩
    | some t => exact ⟨_, rfl⟩
  obtain ⟨r, hrec⟩ := hrec
  show (if 2305843009213693951 < u64 (K * 0) then Except.error Err.throw else _) = _
  rw [if_neg (by rw [Nat.mul_zero]; decide), List.foldlM_nil]
  show (do
    let r ← progRecall K 0 (List.replicate (u64 (K * 0)) 0) truth
    progStats 0
    Except.ok (List.replicate (u64 (K * 0)) 0, r) : Res (List Nat × Option (Nat × Nat))) = _
  rw [hrec, Res.ok_bind, hst, Res.err_bind]

/-- **C82 fails: ground truth for fewer queries.** Only a message is printed, then the ground truth is read past its end. -/
theorem C82_short_truth {P : Type} (f : ProgFiles P) (fs : FS P) (es K minL : Nat) (Ls : List Nat)
    (h1 h2 : Bytes) (hh1 : h1.length = 4) (hh2 : h2.length = 4) (mem : Nat → UInt8)
    (jt : TruthJunk) (hj1 : jt.npts.length = 4) (hj2 : jt.dim.length = 4)
    (qdim : Nat) (qrows : List Bytes) (qb : Bytes) (hqf : fs f.query = some qb) (hQ : QueryOK es qdim qrows qb)
    (hK : K < 4294967296) (hroom : K * qrows.length ≤ 2305843009213693951)
    (few : Nat) (hfew : few < qrows.length) (t : Truth) (htr : TruthOK few K (fs f.truth) (some t))
    (load : FS P → Res (Nat × (Nat → SearchFn))) (adim : Nat) (search : Nat → SearchFn) (hload : load fs = .ok (adim, search))
    (hdim : adim ≤ roundUp8 qdim) (order : Nat → List Nat) (hord : ∀ t, (order t).Perm (List.range qrows.length))
    (Good : Nat → Nat → List Nat → Prop)
    (hf : ∀ L ∈ Ls, minL ≤ L → Fills K qrows.length (search (u32 L)) (Spec.queryVec es qdim adim qrows) (Good L))
    (hne : ∃ L ∈ Ls, minL ≤ L) :
    searchProg f es K minL Ls h1 h2 mem jt load order fs = .error .ub := by
  refine searchProg_stop f fs hh1 hh2 hqf hQ (htr.load hj1 hj2) hload hne (fun L hL hm => ?_)
  obtain ⟨a, out, e, hl, hout⟩ := progQueries_ok (hf L hL hm) (fun i hi => hQ.slice hdim hi) (hord 0)
  have hu : u64 (K * qrows.length) = K * qrows.length := Nat.mod_eq_of_lt (by omega)
  have hu32 : u32 K = K := Nat.mod_eq_of_lt hK
  have hlen : ∀ i < qrows.length, (out i).length ≤ K := fun i hi => (hout i hi).2.1
  have hc := C71_short_truth qrows.length few hfew t.ids t.dists t.dim K out (htr.input t rfl) hlen _ (List.Perm.refl _)
  obtain ⟨b, e1, e2, e3⟩ := runStores_rows hlen (List.Perm.refl _)
  have hab : a.1 = b := row_ext hl e2 (fun i hi => by rw [(hout i hi).2.2, e3 i hi])
  unfold driverHits at hc
  rw [e1, Res.ok_bind, ← hab] at hc
  have hrec : progRecall K qrows.length a.1 (some t) = .error .ub := by
    unfold progRecall calculateRecall
    dsimp only
    rw [hu32, hc]; rfl
  unfold progRound
  rw [hu, if_neg (by omega), e, Res.ok_bind, hrec, Res.err_bind]

/-- **C82 fails: impossible numbers of results.** A negative `recall_at` (converted to an unsigned number) with at most 2^63 / |recall_at| queries
ends the program with an exception, if a search parameter is accepted at all. -/
theorem C82_negative_k {P : Type} (f : ProgFiles P) (fs : FS P) (es minL : Nat) (Ls : List Nat)
    (h1 h2 : Bytes) (hh1 : h1.length = 4) (hh2 : h2.length = 4) (mem : Nat → UInt8) (jt : TruthJunk)
    (qdim : Nat) (qrows : List Bytes) (qb : Bytes) (hqf : fs f.query = some qb) (hQ : QueryOK es qdim qrows qb) (hn : 1 ≤ qrows.length)
    (k : Nat) (hk1 : 1 ≤ k) (hk : k * qrows.length ≤ 9223372036854775808)
    (truth : Option Truth) (htr : progTruth (fs f.truth) jt = .ok truth)
    (load : FS P → Res (Nat × (Nat → SearchFn))) (adim : Nat) (search : Nat → SearchFn) (hload : load fs = .ok (adim, search))
    (order : Nat → List Nat) (hne : ∃ L ∈ Ls, minL ≤ L) :
    searchProg f es (18446744073709551616 - k) minL Ls h1 h2 mem jt load order fs = .error .throw := by
  refine searchProg_stop f fs hh1 hh2 hqf hQ htr hload hne (fun L _ _ => ?_)
  unfold progRound
  rw [if_pos]
  have hkn : 1 ≤ k * qrows.length := Nat.mul_pos hk1 hn
  have hk2 : k ≤ k * qrows.length := Nat.le_mul_of_pos_right k hn
  have e : (18446744073709551616 - k) * qrows.length =
      (18446744073709551616 - k * qrows.length) + 18446744073709551616 * (qrows.length - 1) := by
    rw [Nat.sub_mul, Nat.mul_sub, Nat.mul_one]
    have : 18446744073709551616 ≤ 18446744073709551616 * qrows.length := Nat.le_mul_of_pos_right _ hn
    omega
  unfold u64
  rw [e, Nat.add_mul_mod_self_left, Nat.mod_eq_of_lt (by omega)]
  omega

/-! ## Vamana -/

/-- What the `K` slots of a query hold after a search of a graph index: the tags of different points that may be reported, nearest first,
and behind them the tag of point 0. -/
def Spec.GraphSlots (tag : Nat → Nat) (d : Nat → F32) (good : Nat → Prop) (K : Nat) (s : List Nat) : Prop :=
  ∃ ids : List Nat, ids.Nodup ∧ (∀ i ∈ ids, good i) ∧ ids.Pairwise (fun i j => (d i).le (d j) = true) ∧ ids.length ≤ K ∧
    s = ids.map tag ++ List.replicate (K - ids.length) (tag 0)

theorem reports_slots {tag : Nat → Nat} {d : Nat → F32} {good : Nat → Prop} {ids ind ind' : List Nat} {dst dst' : List F32} {K : Nat}
    (h : Reports tag d good ids ind' dst') (hK : ids.length ≤ K) (h1 : ind'.drop K = ind.drop K) (h2 : dst'.drop K = dst.drop K)
    (hi : K ≤ ind.length) (hd : K ≤ dst.length)
    (hfill : ∀ j, ids.length ≤ j → j < K → ∃ t, some (tag 0) = some t ∧ ind'[j]? = some t ∧ dst'[j]? = some F32.fmax) :
    ∃ s, ind' = s ++ ind.drop s.length ∧ s.length = K ∧ Spec.GraphSlots tag d good K s ∧ dst'.length = dst.length := by
  have hl : K ≤ ind'.length ∧ K ≤ dst'.length := by
    by_cases hc : ids.length = K
    · have e1 := congrArg List.length h.tags
      have e2 := congrArg List.length h.dists
      rw [List.length_take, List.length_map] at e1 e2
      omega
    · obtain ⟨t, -, g1, g2⟩ := hfill (K - 1) (by omega) (by omega)
      have e1 := (List.getElem?_eq_some_iff.1 g1).1
      have e2 := (List.getElem?_eq_some_iff.1 g2).1
      omega
  have hs : ind'.take K = ids.map tag ++ List.replicate (K - ids.length) (tag 0) := by
    apply List.ext_getElem?
    intro j
    by_cases hj : j < K
    · rw [List.getElem?_take_of_lt hj]
      by_cases hji : j < ids.length
      · rw [List.getElem?_append_left (by rw [List.length_map]; exact hji), ← h.tags, List.getElem?_take_of_lt hji]
      · obtain ⟨t, e, g1, -⟩ := hfill j (by omega) hj
        cases e
        rw [g1, List.getElem?_append_right (by rw [List.length_map]; omega), List.getElem?_replicate, List.length_map, if_pos (by omega)]
    · rw [List.getElem?_eq_none (by rw [List.length_take]; omega),
        List.getElem?_eq_none (by rw [List.length_append, List.length_map, List.length_replicate]; omega)]
  have hlen : (ind'.take K).length = K := by rw [List.length_take]; omega
  refine ⟨ind'.take K, ?_, hlen, ⟨ids, h.distinct, h.good, h.sorted, hK, hs⟩, ?_⟩
  · rw [hlen, ← h1, List.take_append_drop]
  · have := congrArg List.length h2
    rw [List.length_drop, List.length_drop] at this
    omega

/-- **C82 (Vamana, from the data file to the files of results).** Build, save and load a Vamana index as in C78, and give it to the search
program in a well-formed run with search parameters below 2^31.  The program ends normally.  For each search parameter that is at least `recall_at` it
leaves a file with `recall_at` identifiers per query: tags of different rows of the data file, nearest first, with a filter only of rows whose line in
the label file matches, and behind them the tag of row 0 as often as rows are missing.  The recall printed is the percentage of true neighbours among all
these slots. -/
theorem C82_vamana {P : Type} [DecidableEq P] (nm : Part → P) (hnm : Function.Injective nm) (fs : FS P)
    (sortL : List Label → List Label) (hsort : IsStrSort sortL) (j j' : Junk) (hj : j.WF) (hj' : j'.WF)
    (es dim : Nat) (hes : 1 ≤ es) (cmp : Bytes → Bytes → F32) (hsym : ∀ a b, cmp a b = cmp b a)
    (rows : List Bytes) (b : Bytes) (tags : List Nat) (labelFile : Option Bytes) (lab : Nat → List Label)
    (hin : InputOK es dim rows b tags labelFile lab) (h10 : 10 ≤ rows.length)
    (hold : labelFile = none → fs (nm .medoids) = none) :
    ∃ o1, ctorObj sortL j es (some b) tags (labelFile.map some) = .ok o1 ∧
      ∀ r : VamanaRun, r.OK o1 → vamanaBuild es cmp r o1 = .error .loop ∨
        ∃ o2 ops, vamanaBuild es cmp r o1 = .ok o2 ∧ vamanaSave es nm o2 = .ok ops ∧
        ∀ (o0 : IdxObj) (fuel : Nat), IsFresh o0 → rows.length < fuel →
        ∀ (sortF : List Nbr → List Nbr), IsStdSort sortF → ∀ (filters : List Label), (filters ≠ [] → labelFile ≠ none) →
        ∀ (S : Prog P), S.OK es (roundUp8 dim) (runOps ops fs) → S.minL = S.K → 1 ≤ S.K → (∀ L ∈ S.Ls, L < 2147483648) →
        (∀ k, k < S.qrows.length → ∀ i, i < rows.length →
          (Spec.fileDist cmp es dim rows (Spec.queryVec es S.qdim (roundUp8 dim) S.qrows k) i).IsNum) →
        S.Ends es (vamanaProg sortL j' fuel es nm o0 cmp sortF S.K filters) (runOps ops fs) (fun _ k s => s.length = S.K ∧
          Spec.GraphSlots (Spec.tagOf tags) (Spec.fileDist cmp es dim rows (Spec.queryVec es S.qdim (roundUp8 dim) S.qrows k))
            (fun i => i < rows.length ∧ (filters ≠ [] → Matches true [48] filters (lab i))) S.K s) := by
  obtain ⟨o1, ec, hr⟩ := C78_vamana nm hnm fs sortL hsort j j' hj hj' es dim hes cmp hsym rows b tags labelFile lab hin h10 hold
  refine ⟨o1, ec, fun r hrok => ?_⟩
  rcases hr r hrok with h | ⟨o2, ops, eb, es', hrest⟩
  · exact Or.inl h
  refine Or.inr ⟨o2, ops, eb, es', ?_⟩
  intro o0 fuel h0 hfuel sortF hsF filters hflt S hS hmin hK1 hLs hnum
  obtain ⟨o3, el, hadim, htag, -, hsearch⟩ := hrest o0 fuel h0 hfuel
  have hK : S.K < 2147483648 := by
    obtain ⟨L, hL, hm⟩ := hS.param
    have := hLs L hL; omega
  have hK32 : u32 S.K = S.K := Nat.mod_eq_of_lt (by omega)
  refine C82_results S es (roundUp8 dim) _ hS _
    (fun L q ind dst => vamanaSearch sortF (o3.view es cmp) q S.K L ind dst filters) ?_ _ ?_
  · unfold vamanaProg
    rw [el, Res.ok_bind]
    dsimp only
    rw [hK32, hadim]
  · intro L hL hm k hk ind dst hind hdst
    rw [hmin] at hm
    have hL31 := hLs L hL
    have hL32 : u32 L = L := Nat.mod_eq_of_lt (by omega)
    obtain ⟨ids, ind', dst', e, hrep, hlen, -, d1, d2⟩ := hsearch sortF hsF (Spec.queryVec es S.qdim (roundUp8 dim) S.qrows k) (hnum k hk)
      filters hflt S.K L (.of_le (by omega)) (by omega) hm ind dst hind hdst
    have hfill := C11_filler sortF hsF (o3.view es cmp) [] (Spec.queryVec es S.qdim (roundUp8 dim) S.qrows k) filters S.K L (by omega) (by omega) hm
      ind dst _ (by simp) ind' dst' ids.length e
    obtain ⟨s, g1, g2, g3, g4⟩ := reports_slots hrep hlen d1 d2 hind hdst (fun i h1 h2 => by
      have := hfill i h1 h2
      rw [show (o3.view es cmp).tags[0]? = some (Spec.tagOf tags 0) from htag] at this
      exact this)
    refine ⟨s, dst', ids.length, ?_, le_of_eq g2, ⟨g2, g3⟩, g4⟩
    dsimp only
    rw [hL32, e, ← g1]

/-! ## A concrete run -/

def exProgNm : Part → Part ⊕ Nat := Sum.inl

def exProgFiles : ProgFiles (Part ⊕ Nat) := ⟨.inr 0, .inr 1, fun L => .inr (L + 2)⟩

/-- Two queries. -/
def exQueries : Bytes := [2, 0, 0, 0, 1, 0, 0, 0, 51, 55]

/-- The two nearest points of each of them. -/
def exQueryTruth : Bytes := le 4 2 ++ le 4 2 ++ le32s [1, 0, 4, 2]

def exProgFs : FS (Part ⊕ Nat) := fun p => match p with
  | .inr 0 => some exQueries
  | .inr 1 => some exQueryTruth
  | _ => none

/-- Building, saving and the search program for the search parameters 1 (left out), 3 and 4: the recalls and the files of results. -/
def exProgRun (filters : List Label) (order : List Nat) : Res (List (Option (Nat × Nat)) × List (Option Bytes)) := do
  let o1 ← exObj10
  let o2 ← vamanaBuild 1 exCmpB exRun o1
  let ops ← vamanaSave 1 exProgNm o2
  let fs := runOps ops exProgFs
  let r ← searchProg exProgFiles 1 2 2 [1, 3, 4] [0, 0, 0, 0] [0, 0, 0, 0] (fun _ => 0) exTruthJunk
    (vamanaProg exStrSort exJunk 11 1 exProgNm IdxObj.fresh exCmpB exSort 2 filters) (fun _ => order) fs
  match r with
  | none => .error .exit
  | some (rs, sv) => .ok (rs, [runOps sv fs (.inr 3), runOps sv fs (.inr 5), runOps sv fs (.inr 6)])

theorem exQueries_ok : QueryOK 1 1 [[51], [55]] exQueries :=
  ⟨⟨by decide, by decide, by decide, by decide⟩, by unfold Spec.Matrix; decide, by decide, by decide, by decide, by decide⟩

theorem exQueryTruth_ok : TruthOK 2 2 (some exQueryTruth) (some ⟨2, 2, [1, 0, 4, 2], none⟩) :=
  ⟨_, rfl, by decide, by decide, ⟨by decide, (by intro d hd; cases hd), by decide, by decide, by decide⟩⟩

/-- The run without filter: both searches find the points 1 and 0 (of the others, this graph leads to few), the recall is a half. -/
example : (exProgRun [] [1, 0]).map (fun x => x.1.map (fun r => r.map (fun v => v.1 == 50 * v.2))) = .ok [some true, some true] ∧
    (exProgRun [] [1, 0]).map Prod.snd = .ok [none, some (le 4 2 ++ le 4 2 ++ le32s [1, 0, 1, 0]), some (le 4 2 ++ le 4 2 ++ le32s [1, 0, 1, 0])] := by
  decide +kernel

/-- With a filter that no point matches nothing is found; the files of results hold point 0 for both queries, and the recall is a quarter. -/
example : (exProgRun [[120]] [0, 1]).map (fun x => x.1.map (fun r => r.map (fun v => v.1 == 25 * v.2))) = .ok [some true, some true] ∧
    (exProgRun [[120]] [0, 1]).map Prod.snd = .ok [none, some (le 4 2 ++ le 4 2 ++ le32s [0, 0, 0, 0]), some (le 4 2 ++ le 4 2 ++ le32s [0, 0, 0, 0])] := by
  decide +kernel

/-- The same queries for an index with 16 elements per vector. -/
example : searchProg exProgFiles 1 2 2 [1, 3, 4] [0, 0, 0, 0] [0, 0, 0, 0] (fun _ => 0) exTruthJunk
    (fun _ => .ok (16, fun _ _ ind dst => .ok (ind, dst, 0))) (fun _ => [0, 1]) exProgFs = .error .ub :=
  C82_short_queries exProgFiles exProgFs 1 2 2 (by decide) [1, 3, 4] [0, 0, 0, 0] [0, 0, 0, 0] rfl rfl (fun _ => 0) exTruthJunk 1 [[51], [55]] exQueries rfl
    exQueries_ok (by decide) (by decide) _ (exQueryTruth_ok.load rfl rfl) _ 16 _ rfl (by decide) _ (fun _ => by decide)
    (fun _ q ind dst _ _ => ⟨ind, dst, 0, rfl, rfl, rfl⟩) ⟨3, by decide, by decide⟩

/-- No queries at all. -/
example : searchProg exProgFiles 1 2 2 [1, 3, 4] [0, 0, 0, 0] [0, 0, 0, 0] (fun _ => 0) exTruthJunk
    (fun _ => .ok (8, fun _ _ ind dst => .ok (ind, dst, 0))) (fun _ => []) (fun p => if p = .inr 0 then some [0, 0, 0, 0, 1, 0, 0, 0] else none) = .error .ub :=
  C82_no_queries exProgFiles _ 1 2 2 [1, 3, 4] [0, 0, 0, 0] [0, 0, 0, 0] rfl rfl (fun _ => 0) exTruthJunk 1 _ rfl
    ⟨⟨by decide, by decide, by decide, by decide⟩, by unfold Spec.Matrix; decide, by decide, by decide, by decide, by decide⟩ none rfl _ 8 _ rfl _ rfl
    ⟨3, by decide, by decide⟩

/-- A negative number of results (with the smallest search parameter of search_ivf.cpp). -/
example : searchProg exProgFiles 1 (18446744073709551616 - 3) 1 [1, 3, 4] [0, 0, 0, 0] [0, 0, 0, 0] (fun _ => 0) exTruthJunk
    (fun _ => .ok (8, fun _ _ ind dst => .ok (ind, dst, 0))) (fun _ => [0, 1]) exProgFs = .error .throw :=
  C82_negative_k exProgFiles exProgFs 1 1 [1, 3, 4] [0, 0, 0, 0] [0, 0, 0, 0] rfl rfl (fun _ => 0) exTruthJunk 1 [[51], [55]] exQueries rfl
    exQueries_ok (by decide) 3 (by decide) (by decide) _ (exQueryTruth_ok.load rfl rfl) _ 8 _ rfl _ ⟨3, by decide, by decide⟩

/-- Ground truth for the first query only. -/
def exShortTruth : FS (Part ⊕ Nat) := fun p => if p = .inr 1 then some (le 4 1 ++ le 4 2 ++ le32s [1, 0]) else exProgFs p

theorem exShortTruth_ok : TruthOK 1 2 (exShortTruth exProgFiles.truth) (some ⟨1, 2, [1, 0], none⟩) := by
  show TruthOK 1 2 (some (le 4 1 ++ le 4 2 ++ le32s [1, 0])) _
  exact ⟨_, rfl, by decide, by decide, ⟨by decide, (by intro d hd; cases hd), by decide, by decide, by decide⟩⟩

example : searchProg exProgFiles 1 2 2 [1, 3, 4] [0, 0, 0, 0] [0, 0, 0, 0] (fun _ => 0) exTruthJunk
    (fun _ => .ok (8, fun _ _ ind dst => .ok (ind, dst, 0))) (fun _ => [1, 0]) exShortTruth = .error .ub :=
  C82_short_truth exProgFiles exShortTruth 1 2 2 [1, 3, 4] [0, 0, 0, 0] [0, 0, 0, 0] rfl rfl (fun _ => 0) exTruthJunk rfl rfl 1 [[51], [55]] exQueries rfl
    exQueries_ok (by decide) (by decide) 1 (by decide) _ exShortTruth_ok _ 8 _ rfl (by decide) _ (fun _ => by decide)
    (fun _ _ s => s = []) (fun _ _ _ k _ ind dst hind hdst => ⟨[], dst, 0, rfl, by decide, rfl, rfl⟩) ⟨3, by decide, by decide⟩

/-- A well-formed run. -/
def exProg : Prog (Part ⊕ Nat) :=
  ⟨exProgFiles, 1, [[51], [55]], exQueries, 2, 2, [1, 3, 4], some ⟨2, 2, [1, 0, 4, 2], none⟩, [0, 0, 0, 0], [0, 0, 0, 0], fun _ => 0, exTruthJunk,
    fun _ => [1, 0]⟩

theorem exProg_ok : exProg.OK 1 8 exProgFs where
  res := fun a _ b _ h => by simpa [exProg, exProgFiles] using h
  query := rfl
  queries := exQueries_ok
  some := by decide
  dim := by decide
  few := by decide
  room := by decide
  truth := exQueryTruth_ok
  h1 := rfl
  h2 := rfl
  j1 := rfl
  j2 := rfl
  order := fun _ => (by decide : [1, 0].Perm (List.range 2))
  param := ⟨3, by decide, by decide⟩

/-- With searches that only write the point 4 as first result of query 1. -/
example : exProg.Ends 1
    (fun _ => .ok (8, fun _ q ind dst => if q.headD 0 = 55 then .ok (4 :: ind.drop 1, dst, 1) else .ok (ind, dst, 0))) exProgFs
    (fun _ k s => s = if k = 1 then [4] else []) := by
  refine C82_results exProg 1 8 exProgFs exProg_ok _ _ rfl _ (fun L _ _ k hk ind dst hind hdst => ?_)
  have hk : k < 2 := hk
  rcases (by omega : k = 0 ∨ k = 1) with rfl | rfl
  · exact ⟨[], dst, 0, rfl, by decide, rfl, rfl⟩
  · exact ⟨[4], dst, 1, rfl, by decide, rfl, rfl⟩

example := C82_vamana (Sum.inl : Part → Part ⊕ Nat) Sum.inl_injective (fun _ => none) exStrSort exStrSort_isStrSort exJunk exJunk
  exJunk_WF exJunk_WF 1 1 (by decide) exCmpB (fun a b => exSq_comm _ _) exRows10 exFile10 [] (some exLabels10) exLab exInput10
  (by decide) (by simp)

end Grann
