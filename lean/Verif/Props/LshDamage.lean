import Verif.Props.LshFile
import Verif.Props.Damage
/-!
# C107: damaged files of LSH indices
-/

namespace Grann

variable {P : Type} [DecidableEq P]

/-- The bytes of `LSHIndex::save` (src/lsh.cpp:192-215). -/
def Spec.lshBytes (o : LshObj) : Bytes :=
  42 :: (le 4 o.numTables ++ (le 4 o.tableSize ++ o.tables.flatMap tableBytes))

theorem lshSave_run (nm : Part → P) (hnm : Function.Injective nm) (p : P) {es : Nat} {o : LshObj} {rows : List Bytes}
    (hs : BaseSaveable es o.base rows) (fs : FS P) :
    ∃ b ops, saveBase es nm o.base = .ok b ∧ HoldsBase nm (runOps b fs) o.base rows ∧ lshSave es nm p o = .ok ops ∧
      runOps ops fs = fun q => if q = p then some (Spec.lshBytes o) else runOps b fs q := by
  obtain ⟨b, hb, hbh, hbq⟩ := saveBase_holds nm hnm hs fs
  refine ⟨b, _, hb, hbh, by unfold lshSave; rw [hb]; rfl, ?_⟩
  have e : o.tables.map (fun t => FOp.append p (tableBytes t)) =
      (o.tables.map tableBytes).map (FOp.append p) := by simp
  rw [runOps_append, runOps_append, e]
  have := run_append_rows p (o.tables.map tableBytes) (runOps [.create p, .append p [42],
    .append p (le 4 o.numTables), .append p (le 4 o.tableSize)] (runOps b fs))
    (42 :: (le 4 o.numTables ++ le 4 o.tableSize)) (by simp [runOps, FOp.run])
  funext q
  by_cases hq : q = p
  · subst hq
    rw [this.1, if_pos rfl]
    simp [List.flatMap_def, Spec.lshBytes]
  · rw [this.2 q hq, if_neg hq]
    simp [runOps, FOp.run, hq]

theorem Buckets.get_here {b1 b2 : Buckets} {k : Nat} {l : List Nat} (h : (b1 ++ (k, l) :: b2).Pairwise (fun x y => x.1 < y.1)) :
    Buckets.get (b1 ++ (k, l) :: b2) k = l := by
  induction b1 with
  | nil => simp [Buckets.get]
  | cons x b1 ih =>
    have h1 := List.pairwise_cons.1 h
    have := h1.1 (k, l) (by simp)
    show (if x.1 = k then x.2 else Buckets.get (b1 ++ (k, l) :: b2) k) = l
    rw [if_neg (by simp at this; omega)]
    exact ih h1.2

/-- **C107 is false, hash tables.**  One bit of any member of any bucket flipped: `LSHIndex::load` accepts the file, and every
search without a filter whose query falls into that bucket reads outside of the vectors. -/
theorem C107_lsh (nm : Part → P) (hnm : Function.Injective nm) (p : P) (hp : ∀ x, p ≠ nm x) (fs : FS P) (es : Nat)
    (o : LshObj) (rows : List Bytes) (hs : LshBuilt es o rows) (hn : o.base.n ≤ 2147483648) (t : HTable Bytes) (ht : t ∈ o.tables)
    (key : Nat) (l : List Nat) (hl : (key, l) ∈ t.buckets) (x : Nat) (hx : x ∈ l) (hxn : x < o.base.n)
    (sortL : List Label → List Label) (hsort : IsStrSort sortL) (j : Junk) (hj : j.WF) (jl : LshJunk) (hjl : jl.WF)
    (o0 : LshObj) (h0 : IsFresh o0.base) :
    ∃ ops f b o', lshSave es nm p o = .ok ops ∧ runOps ops fs p = some f ∧ Spec.OneBit f b ∧
      lshLoad sortL j jl es nm p (fun q => if q = p then some b else runOps ops fs q) o0 = .ok o' ∧
      ∀ cmp dot q, hashOf dot t.hps q = key → ∀ d : Nat → F32,
        (∀ i v, (o'.base.view es cmp).ctx.data[i]? = some v → d i = cmp q v) → (∀ i, i < o.base.n → (d i).lt F32.fmax = true) →
        ∀ rc, 1 ≤ rc → rc ≤ 2147483648 → ∀ ind dst,
        lshSearch dot (o'.base.view es cmp).ctx o'.tables q rc ind dst [] = .error .ub := by
  obtain ⟨l1, l2, rfl⟩ := List.append_of_mem hx
  obtain ⟨b1, b2, hb⟩ := List.append_of_mem hl
  obtain ⟨t1, t2, hts⟩ := List.append_of_mem ht
  have htf := hs.tables t ht
  obtain ⟨t', ht'⟩ : ∃ t' : HTable Bytes, t' = { t with buckets := b1 ++ (key, l1 ++ (x + 2147483648) :: l2) :: b2 } := ⟨_, rfl⟩
  have hin : ∀ y ∈ t'.buckets, y ∈ t.buckets ∨ y = (key, l1 ++ (x + 2147483648) :: l2) := by
    intro y hy
    rw [ht'] at hy
    rw [hb]
    have : y ∈ b1 ++ (key, l1 ++ (x + 2147483648) :: l2) :: b2 := hy
    simp at this ⊢
    tauto
  have htf' : TableFits o.base.adim o.tableSize t' := by
    refine ⟨by rw [ht']; exact htf.size, by rw [ht']; exact htf.hps_len, by rw [ht']; exact htf.hps, ?_, ?_, ?_, ?_, ?_⟩
    · have hso := htf.sorted
      rw [hb] at hso
      rw [ht']
      show (b1 ++ (key, l1 ++ (x + 2147483648) :: l2) :: b2).Pairwise _
      rw [List.pairwise_append, List.pairwise_cons] at hso ⊢
      refine ⟨hso.1, ⟨fun y hy => hso.2.1.1 y hy, hso.2.1.2⟩, ?_⟩
      intro a ha y hy
      rcases List.mem_cons.1 hy with rfl | hy
      · exact hso.2.2 a ha (key, l1 ++ x :: l2) (by simp)
      · exact hso.2.2 a ha y (by simp [hy])
    · have := htf.buckets_lt
      rw [hb] at this
      rw [ht']
      simpa using this
    · intro y hy
      rcases hin y hy with h | rfl
      · exact htf.keys y h
      · exact htf.keys (key, l1 ++ x :: l2) hl
    · intro y hy
      rcases hin y hy with h | rfl
      · exact htf.sizes y h
      · simpa using htf.sizes _ hl
    · intro y hy
      rcases hin y hy with h | rfl
      · exact htf.ids y h
      · intro i hi
        have := htf.ids _ hl
        rcases List.mem_append.1 hi with hi | hi
        · exact this i (by simp [hi])
        · rcases List.mem_cons.1 hi with rfl | hi
          · omega
          · exact this i (by simp [hi])
  have hs1 : LshBuilt es { o with tables := t1 ++ t' :: t2 } rows := by
    refine ⟨hs.base, ?_, hs.num_lt, hs.size, ?_⟩
    · show o.numTables = (t1 ++ t' :: t2).length
      rw [hs.num, hts]; simp
    · intro u hu
      have hu : u ∈ t1 ++ t' :: t2 := hu
      rcases List.mem_append.1 hu with h | h
      · exact hs.tables u (by rw [hts]; simp [h])
      · rcases List.mem_cons.1 h with rfl | h
        · exact htf'
        · exact hs.tables u (by rw [hts]; simp [h])
  obtain ⟨b, ops, hbo, -, ho, hrun⟩ := lshSave_run nm hnm p hs.base fs
  obtain ⟨b', ops1, hbo1, -, ho1, hrun1⟩ := lshSave_run nm hnm p (o := { o with tables := t1 ++ t' :: t2 }) hs1.base fs
  obtain ⟨ops2, seen, ho2, hload⟩ := lshSave_load nm hnm p hp fs es _ rows hs1.saveable sortL hsort j hj jl hjl o0 h0
  rw [ho1] at ho2
  cases ho2
  obtain ⟨o', hload, hon, hot⟩ : ∃ o', lshLoad sortL j jl es nm p (runOps ops1 fs) o0 = .ok o' ∧ o'.base.n = o.base.n ∧
      o'.tables = ((t1 ++ t' :: t2).take o.numTables).map HTable.full := ⟨_, hload, rfl, rfl⟩
  have hbb : b' = b := by
    have : saveBase es nm o.base = .ok b' := hbo1
    rw [hbo] at this
    cases this
    rfl
  refine ⟨ops, Spec.lshBytes o, Spec.lshBytes { o with tables := t1 ++ t' :: t2 }, o', ho, by rw [hrun]; simp, ?_, ?_, ?_⟩
  · have he : ∀ y, Spec.lshBytes { o with tables := t1 ++ ⟨t.hps, t.size, b1 ++ (key, l1 ++ y :: l2) :: b2⟩ :: t2 } =
        (42 :: (le 4 o.numTables ++ (le 4 o.tableSize ++ (t1.flatMap tableBytes ++ ([64] ++ (t.hps.flatten ++ ([37] ++
          (le 4 (u32 (b1.length + (b2.length + 1))) ++ (b1.flatMap bucketBytes ++ (le 8 key ++
          le 4 (u32 (l1.length + (l2.length + 1))))))))))))) ++
        (le32s (l1 ++ y :: l2) ++ (b2.flatMap bucketBytes ++ ([36] ++ t2.flatMap tableBytes))) := by
      intro y
      simp [Spec.lshBytes, tableBytes, bucketBytes]
    have e1 : o = { o with tables := t1 ++ ⟨t.hps, t.size, b1 ++ (key, l1 ++ x :: l2) :: b2⟩ :: t2 } := by
      rw [← hb, ← hts]
    rw [ht', he]
    rw [e1, he]
    exact (oneBit_le32s l1 l2 x (by omega)).append _ _
  · have : runOps ops1 fs = fun q => if q = p then some (Spec.lshBytes { o with tables := t1 ++ t' :: t2 }) else runOps ops fs q := by
      rw [hrun1, hrun, hbb]
      funext q
      dsimp only
      split <;> rfl
    rw [← this]
    exact hload
  · intro cmp dot q hq d hd hfin rc hrc1 hrc ind dst
    have hlen : (o'.base.view es cmp).ctx.data.length = o.base.n := by rw [← hon]; exact view_length es cmp o'.base
    have hnum : (t1 ++ t' :: t2).take o.numTables = t1 ++ t' :: t2 := by
      refine List.take_of_length_le ?_
      rw [hs.num, hts]; simp
    rw [hot, hnum]
    have hok : ∀ u ∈ (t1 ++ t' :: t2).map HTable.full, u.OK := by
      intro u hu
      obtain ⟨w, hw, rfl⟩ := List.mem_map.1 hu
      have := (hs1.tables w hw).ok
      exact ⟨this.hps, this.sorted.sublist List.filter_sublist⟩
    unfold lshSearch
    rw [lshCands_spec dot q _ hok, Res.ok_bind]
    dsimp only
    rw [scanSearch_bad _ q rc ind dst _ d hd hrc1 hrc (by rw [hlen]; exact hfin) ⟨x + 2147483648, ?_, by rw [hlen]; omega⟩]
    · rfl
    · rw [List.mem_flatten]
      refine ⟨l1 ++ (x + 2147483648) :: l2, ?_, by simp⟩
      rw [List.map_map, List.mem_map]
      refine ⟨t', by simp, ?_⟩
      show Buckets.get (Buckets.full t'.buckets) (hashOf dot t'.hps q) = _
      have hhp : t'.hps = t.hps := by rw [ht']
      rw [Buckets.full_get _ htf'.sorted, hhp, hq]
      have hso := htf'.sorted
      rw [ht'] at hso ⊢
      exact Buckets.get_here hso

/-! ## Files that are cut off -/

/-- Nothing more can be read. -/
def IStream.Dead (s : IStream) : Prop := (s.eof || s.fail) = true

theorem IStream.Dead.read {s : IStream} (h : s.Dead) (n : Nat) : (s.read n).1 = [] ∧ (s.read n).2.Dead := by
  unfold IStream.read
  rw [if_pos (show (s.eof || s.fail) = true from h)]
  exact ⟨rfl, by simp [IStream.Dead]⟩

theorem IStream.read_cut {r : Bytes} {n : Nat} (h : r.length < n) : ((IStream.mk r false false).read n).2.Dead := by
  unfold IStream.read
  rw [if_neg (by simp), if_neg (by simpa using h)]
  rfl

theorem IStream.Dead.get {s : IStream} (h : s.Dead) (c : UInt8) : (s.get c).1 = c ∧ (s.get c).2.Dead := by
  unfold IStream.get
  exact ⟨by rw [show (s.read 1) = ((s.read 1).1, (s.read 1).2) from rfl, (h.read 1).1]; rfl, (h.read 1).2⟩

theorem IStream.get_nil (c : UInt8) : ((IStream.mk [] false false).get c).1 = c ∧ ((IStream.mk [] false false).get c).2.Dead :=
  ⟨rfl, rfl⟩

theorem IStream.Dead.readInt {s : IStream} (h : s.Dead) (old : Bytes) : (s.readInt old).2.Dead := (h.read _).2

theorem IStream.readInt_cut {r old : Bytes} (h : r.length < old.length) : ((IStream.mk r false false).readInt old).2.Dead :=
  IStream.read_cut h

theorem dead_readFloats (j : LshJunk) : ∀ (n : Nat) (s : IStream), s.Dead → (readFloats j n s).2.Dead
  | 0, _, h => h
  | n + 1, _, h => dead_readFloats j n _ (h.read 4).2

theorem dead_readHps (j : LshJunk) (adim : Nat) : ∀ (n : Nat) (s : IStream), s.Dead → (readHps j adim n s).2.Dead
  | 0, _, h => h
  | n + 1, s, h => dead_readHps j adim n _ (dead_readFloats j adim s h)

theorem dead_readIds (j : LshJunk) (key : Nat) : ∀ (n : Nat) (s : IStream) (b : Buckets), s.Dead → (readIds j key n s b).2.Dead
  | 0, _, _, h => h
  | n + 1, _, _, h => dead_readIds j key n _ _ (h.readInt _)

theorem dead_readBuckets (j : LshJunk) : ∀ (n : Nat) (s : IStream) (b : Buckets), s.Dead → (readBuckets j n s b).2.Dead
  | 0, _, _, h => h
  | n + 1, _, _, h => dead_readBuckets j n _ _ (dead_readIds j _ _ _ _ ((h.readInt _).readInt _))

theorem cut_readFloats (j : LshJunk) (hj : j.WF) : ∀ (n : Nat) (r : Bytes), r.length < n * 4 →
    (readFloats j n ⟨r, false, false⟩).2.Dead
  | 0, _, h => by omega
  | n + 1, r, h => by
    rw [readFloats]
    by_cases h4 : r.length < 4
    · exact dead_readFloats j n _ (IStream.read_cut h4)
    · have e : (IStream.mk r false false).read 4 = (r.take 4, ⟨r.drop 4, false, false⟩) := by
        unfold IStream.read
        rw [if_neg (by simp), if_pos (by simp; omega)]
      rw [e]
      exact cut_readFloats j hj n (r.drop 4) (by rw [List.length_drop]; omega)

theorem cut_readHps (j : LshJunk) (hj : j.WF) (adim : Nat) : ∀ (n : Nat) (r : Bytes), r.length < n * (adim * 4) →
    (readHps j adim n ⟨r, false, false⟩).2.Dead
  | 0, _, h => by omega
  | n + 1, r, h => by
    rw [readHps]
    by_cases h4 : r.length < adim * 4
    · exact dead_readHps j adim n _ (cut_readFloats j hj adim r h4)
    · have e := readFloats_ok j hj adim (r.take (adim * 4)) (r.drop (adim * 4)) (by rw [List.length_take]; omega)
      rw [List.take_append_drop] at e
      rw [e]
      exact cut_readHps j hj adim n _ (by rw [List.length_drop]; rw [Nat.succ_mul] at h; omega)

theorem cut_readIds (j : LshJunk) (hj : j.WF) (key : Nat) : ∀ (n : Nat) (r : Bytes) (b : Buckets), r.length < n * 4 →
    (readIds j key n ⟨r, false, false⟩ b).2.Dead
  | 0, _, _, h => by omega
  | n + 1, r, b, h => by
    rw [readIds]
    by_cases h4 : r.length < 4
    · exact dead_readIds j key n _ _ (IStream.readInt_cut (by rw [hj.1]; exact h4))
    · have e : ((IStream.mk r false false).readInt j.w).2 = ⟨r.drop 4, false, false⟩ := by
        show ((IStream.mk r false false).read j.w.length).2 = _
        rw [hj.1]
        unfold IStream.read
        rw [if_neg (by simp), if_pos (by simp; omega)]
      dsimp only
      rw [e]
      exact cut_readIds j hj key n (r.drop 4) _ (by rw [List.length_drop]; omega)

theorem prefix_cases {r x y : Bytes} (h : r <+: x ++ y) : r.length < x.length ∨ ∃ r', r = x ++ r' ∧ r' <+: y := by
  obtain ⟨z, hz⟩ := h
  by_cases hl : r.length < x.length
  · exact .inl hl
  · right
    have h1 : x = r.take x.length := by
      have := congrArg (List.take x.length) hz
      rw [List.take_append_of_le_length (by omega), List.take_left] at this
      exact this.symm
    refine ⟨r.drop x.length, ?_, z, ?_⟩
    · conv_lhs => rw [← List.take_append_drop x.length r, ← h1]
    · have := congrArg (List.drop x.length) hz
      rw [List.drop_append_of_le_length (by omega), List.drop_left] at this
      exact this

theorem cut_readBuckets (j : LshJunk) (hj : j.WF) : ∀ (bs : Buckets) (r y : Bytes) (b : Buckets),
    (∀ b ∈ bs, b.1 < 18446744073709551616) → (∀ b ∈ bs, b.2.length < 4294967296) → (∀ b ∈ bs, ∀ i ∈ b.2, i < 4294967296) →
    r <+: bs.flatMap bucketBytes ++ y → r.length < (bs.flatMap bucketBytes).length →
    (readBuckets j bs.length ⟨r, false, false⟩ b).2.Dead := by
  intro bs
  induction bs with
  | nil => intro r y b _ _ _ _ h; simp at h
  | cons x bs ih =>
    intro r y b hk hl hi hp hlt
    obtain ⟨k, l⟩ := x
    have hk0 := hk (k, l) (by simp)
    have hl0 := hl (k, l) (by simp)
    have hi0 := hi (k, l) (by simp)
    simp only at hk0 hl0 hi0
    have hu : u32 l.length = l.length := by rw [u32, Nat.mod_eq_of_lt hl0]
    have hlen : (le32s l).length = l.length * 4 := by rw [le32s_length, Nat.mul_comm]
    rw [List.flatMap_cons, bucketBytes, hu, List.append_assoc, List.append_assoc, List.append_assoc] at hp
    rw [List.flatMap_cons, bucketBytes, hu] at hlt
    rw [List.length_cons, readBuckets]
    rcases prefix_cases hp with h8 | ⟨r1, rfl, hp1⟩
    · rw [le_length] at h8
      exact dead_readBuckets j _ _ _ (dead_readIds j _ _ _ _ ((IStream.readInt_cut (by rw [hj.2]; exact h8)).readInt _))
    · rw [IStream.readInt_le k 8 _ _ hj.2 (by omega)]
      dsimp only
      rcases prefix_cases hp1 with h4 | ⟨r2, rfl, hp2⟩
      · rw [le_length] at h4
        exact dead_readBuckets j _ _ _ (dead_readIds j _ _ _ _ (IStream.readInt_cut (by rw [hj.1]; exact h4)))
      · rw [IStream.readInt_le l.length 4 _ _ hj.1 (by omega)]
        dsimp only
        rcases prefix_cases hp2 with hc | ⟨r3, rfl, hp3⟩
        · rw [hlen] at hc
          exact dead_readBuckets j _ _ _ (cut_readIds j hj k _ _ _ hc)
        · rw [readIds_ok j hj k l _ _ hi0]
          refine ih r3 y _ (fun b hb => hk b (by simp [hb])) (fun b hb => hl b (by simp [hb])) (fun b hb => hi b (by simp [hb])) hp3 ?_
          simp only [List.length_append] at hlt
          omega

theorem dead_readTables (j : LshJunk) (hc : j.c ≠ 64) (sz adim n : Nat) (s : IStream) (h : s.Dead) :
    readTables j sz adim (n + 1) s = .error .exit := by
  rw [readTables]
  dsimp only
  rw [(h.get j.c).1, if_pos hc]

theorem cut_readTables (j : LshJunk) (hj : j.WF) (h64 : j.c ≠ 64) (h37 : j.c ≠ 37) (h36 : j.c ≠ 36) (sz adim : Nat) (hsz : sz ≤ 64) :
    ∀ (ts : List (HTable Bytes)) (r y : Bytes), (∀ t ∈ ts, TableFits adim sz t) → r <+: ts.flatMap tableBytes ++ y →
      r.length < (ts.flatMap tableBytes).length → readTables j sz adim ts.length ⟨r, false, false⟩ = .error .exit := by
  intro ts
  induction ts with
  | nil => intro r y _ _ h; simp at h
  | cons t ts ih =>
    intro r y ht hp hlt
    have h := ht t (by simp)
    have hu : u32 t.buckets.length = t.buckets.length := by rw [u32, Nat.mod_eq_of_lt h.buckets_lt]
    have e : (t :: ts).flatMap tableBytes ++ y = [64] ++ (t.hps.flatten ++ ([37] ++ (le 4 t.buckets.length ++
        (t.buckets.flatMap bucketBytes ++ ([36] ++ (ts.flatMap tableBytes ++ y)))))) := by
      simp [tableBytes, hu]
    have hhl : t.hps.flatten.length = sz * (adim * 4) := by rw [flatten_length_of h.hps, h.hps_len]
    rw [e] at hp
    have get1 : ∀ (r' : Bytes) (m : UInt8), r'.length < [m].length → r' = [] := by
      intro r' m hr; simpa using hr
    rw [List.length_cons, readTables]
    rcases prefix_cases hp with hc | ⟨r1, rfl, hp1⟩
    · rw [get1 r _ hc]
      dsimp only
      rw [(IStream.get_nil j.c).1, if_pos h64]
    rw [List.singleton_append, IStream.get_cons]
    dsimp only
    rw [if_neg (by decide), if_neg (by omega)]
    rcases prefix_cases hp1 with hc | ⟨r2, rfl, hp2⟩
    · rw [hhl] at hc
      have hd := cut_readHps j hj adim sz r1 hc
      rw [(hd.get j.c).1, if_pos h37]
    have hh := readHps_ok j hj adim t.hps r2 h.hps
    rw [h.hps_len] at hh
    rw [hh]
    dsimp only
    rcases prefix_cases hp2 with hc | ⟨r3, rfl, hp3⟩
    · rw [get1 r2 _ hc, (IStream.get_nil j.c).1, if_pos h37]
    rw [List.singleton_append, IStream.get_cons]
    dsimp only
    rw [if_neg (by decide)]
    rcases prefix_cases hp3 with hc | ⟨r4, rfl, hp4⟩
    · rw [le_length] at hc
      have hd := dead_readBuckets j ((IStream.mk r3 false false).readInt j.w).1 ((IStream.mk r3 false false).readInt j.w).2 []
        (IStream.readInt_cut (by rw [hj.1]; exact hc))
      rw [(hd.get j.c).1, if_pos h36]
    rw [IStream.readInt_le t.buckets.length 4 _ _ hj.1 h.buckets_lt]
    dsimp only
    by_cases hc : r4.length < (t.buckets.flatMap bucketBytes).length
    · have hd := cut_readBuckets j hj t.buckets r4 _ [] h.keys h.sizes h.ids hp4 hc
      rw [(hd.get j.c).1, if_pos h36]
    obtain ⟨r5, rfl, hp5⟩ := (prefix_cases hp4).resolve_left hc
    rw [readBuckets_ok j hj t.buckets [] _ (by simpa using h.sorted) h.keys h.sizes h.ids]
    dsimp only
    rcases prefix_cases hp5 with hc | ⟨r6, rfl, hp6⟩
    · rw [get1 r5 _ hc, (IStream.get_nil j.c).1, if_pos h36]
    rw [List.singleton_append, IStream.get_cons]
    dsimp only
    rw [if_neg (by decide), ih r6 y (fun x hx => ht x (by simp [hx])) hp6 (by
      have e2 : ((t :: ts).flatMap tableBytes).length = 1 + (t.hps.flatten.length + (1 + (4 + ((t.buckets.flatMap bucketBytes).length +
          (1 + (ts.flatMap tableBytes).length))))) := by
        simp [tableBytes, le_length]; omega
      rw [e2] at hlt
      simp only [List.length_append, List.length_cons, List.length_nil, le_length] at hlt
      omega)]
    rfl

/-- Loading the base of an index whose file `p` has been replaced. -/
theorem lshLoad_base (nm : Part → P) (p : P) (hp : ∀ x, p ≠ nm x) (fs : FS P) (es : Nat)
    (o : LshObj) (rows : List Bytes) (hs : BaseSaveable es o.base rows) (hb : HoldsBase nm fs o.base rows)
    (sortL : List Label → List Label) (hsort : IsStrSort sortL) (j : Junk) (hj : j.WF) (o0 : LshObj) (h0 : IsFresh o0.base) (f : Bytes) :
    ∃ b', b'.adim = o.base.adim ∧ b'.data = o.base.data ∧
      loadBase sortL j es nm (fun q => if q = p then some f else fs q) o0.base = .ok b' := by
  have hbh' : HoldsBase nm (fun q => if q = p then some f else fs q) o.base rows := by
    constructor <;> rw [if_neg (Ne.symm (hp _))]
    · exact hb.data
    · exact hb.tags
    · exact hb.labels
    · exact hb.univ
  obtain ⟨seen, hl⟩ := loadBase_holds sortL hsort j hj nm hs _ hbh' o0.base h0
  refine ⟨_, ?_, ?_, hl⟩ <;> rfl

/-- **C107, what holds for hash tables.**  A file of an LSH index with at least one table that has been cut off anywhere, but not
within the number of tables, is reported (the process ends), provided that the characters that `LSHIndex::load` leaves
uninitialised (src/lsh.cpp:226, 247, 268, 295) do not hold one of the four markers. -/
theorem C107_lsh_cut_partial (nm : Part → P) (hnm : Function.Injective nm) (p : P) (hp : ∀ x, p ≠ nm x) (fs : FS P) (es : Nat)
    (o : LshObj) (rows : List Bytes) (hs : LshBuilt es o rows) (hnt : 1 ≤ o.numTables) (f : Bytes) (hf : f <+: Spec.lshBytes o)
    (hne : f ≠ Spec.lshBytes o) (hcut : f = [] ∨ 5 ≤ f.length)
    (sortL : List Label → List Label) (hsort : IsStrSort sortL) (j : Junk) (hj : j.WF) (jl : LshJunk) (hjl : jl.WF)
    (hc : jl.c ≠ 42 ∧ jl.c ≠ 64 ∧ jl.c ≠ 37 ∧ jl.c ≠ 36) (o0 : LshObj) (h0 : IsFresh o0.base) :
    ∃ ops, lshSave es nm p o = .ok ops ∧
      lshLoad sortL j jl es nm p (fun q => if q = p then some f else runOps ops fs q) o0 = .error .exit := by
  obtain ⟨b, ops, hbo, hbh, ho, hrun⟩ := lshSave_run nm hnm p hs.base fs
  refine ⟨ops, ho, ?_⟩
  have hfs : (fun q => if q = p then some f else runOps ops fs q) = fun q => if q = p then some f else runOps b fs q := by
    rw [hrun]
    funext q
    dsimp only
    split <;> rfl
  rw [hfs]
  obtain ⟨b', hba, -, hl⟩ := lshLoad_base nm p hp _ es o rows hs.base hbh sortL hsort j hj o0 h0 f
  unfold lshLoad
  rw [hl, Res.ok_bind]
  dsimp only
  rw [if_pos rfl]
  unfold IStream.open
  dsimp only
  have hlt : f.length < (Spec.lshBytes o).length := by
    rcases Nat.lt_or_ge f.length (Spec.lshBytes o).length with h | h
    · exact h
    · exact absurd (hf.eq_of_length_le h) hne
  rcases hcut with rfl | h5
  · rw [(IStream.get_nil jl.c).1, if_pos hc.1]
  have e : Spec.lshBytes o = (42 :: le 4 o.numTables) ++ (le 4 o.tableSize ++ o.tables.flatMap tableBytes) := by
    simp [Spec.lshBytes]
  rw [e] at hf hlt
  rcases prefix_cases hf with h | ⟨r1, rfl, hp1⟩
  · simp [le_length] at h
    omega
  rw [List.cons_append, IStream.get_cons]
  dsimp only
  rw [if_neg (by decide), IStream.readInt_le _ 4 _ _ hjl.1 hs.num_lt]
  dsimp only
  obtain ⟨n, hn⟩ : ∃ n, o.numTables = n + 1 := ⟨o.numTables - 1, by omega⟩
  rcases prefix_cases hp1 with h | ⟨r2, rfl, hp2⟩
  · rw [le_length] at h
    rw [hn, dead_readTables jl hc.2.1 _ _ _ _ (IStream.readInt_cut (by rw [hjl.1]; exact h))]
    rfl
  · rw [IStream.readInt_le _ 4 _ _ hjl.1 (by have := hs.size; omega)]
    dsimp only
    rw [hs.num, hba, cut_readTables jl hjl hc.2.1 hc.2.2.1 hc.2.2.2 _ _ hs.size o.tables r2 [] hs.tables (by simpa using hp2) (by
      simp only [List.length_append, List.length_cons, le_length] at hlt
      omega)]
    rfl

/-- The tables without their last character. -/
theorem lastByte_readTables (j : LshJunk) (hj : j.WF) (h36 : j.c = 36) (sz adim : Nat) (hsz : sz ≤ 64) :
    ∀ (ts : List (HTable Bytes)), ts ≠ [] → (∀ t ∈ ts, TableFits adim sz t) →
      readTables j sz adim ts.length ⟨(ts.flatMap tableBytes).dropLast, false, false⟩ = .ok (ts.map HTable.full) := by
  intro ts
  induction ts with
  | nil => intro h; exact absurd rfl h
  | cons t ts ih =>
    intro _ ht
    have h := ht t (by simp)
    have hu : u32 t.buckets.length = t.buckets.length := by rw [u32, Nat.mod_eq_of_lt h.buckets_lt]
    obtain ⟨z, hz⟩ : ∃ z : Bytes, z = if ts = [] then [] else 36 :: (ts.flatMap tableBytes).dropLast := ⟨_, rfl⟩
    have e : ((t :: ts).flatMap tableBytes).dropLast = 64 :: (t.hps.flatten ++ (37 :: (le 4 t.buckets.length ++
        (t.buckets.flatMap bucketBytes ++ z)))) := by
      have e1 : (t :: ts).flatMap tableBytes = (64 :: (t.hps.flatten ++ (37 :: (le 4 t.buckets.length ++
        t.buckets.flatMap bucketBytes)))) ++ (36 :: ts.flatMap tableBytes) := by simp [tableBytes, hu]
      have e2 : (36 :: ts.flatMap tableBytes).dropLast = z := by
        rw [hz]
        cases ts with
        | nil => rfl
        | cons u us =>
          rw [if_neg (by simp), List.dropLast_cons_of_ne_nil (by simp [tableBytes])]
      rw [e1, List.dropLast_append_of_ne_nil (by simp), e2]
      simp
    rw [List.length_cons, readTables, e, IStream.get_cons]
    dsimp only
    rw [if_neg (by decide), if_neg (by omega)]
    have hh := readHps_ok j hj adim t.hps (37 :: (le 4 t.buckets.length ++ (t.buckets.flatMap bucketBytes ++ z))) h.hps
    rw [h.hps_len] at hh
    rw [hh]
    dsimp only
    rw [IStream.get_cons]
    dsimp only
    rw [if_neg (by decide), IStream.readInt_le t.buckets.length 4 _ _ hj.1 h.buckets_lt]
    dsimp only
    rw [readBuckets_ok j hj t.buckets [] _ (by simpa using h.sorted) h.keys h.sizes h.ids]
    dsimp only
    by_cases hts : ts = []
    · rw [hz, if_pos hts, (IStream.get_nil j.c).1, if_neg (by rw [h36]; decide), hts]
      simp [readTables, HTable.full, h.size]
    · rw [hz, if_neg hts, IStream.get_cons]
      dsimp only
      rw [if_neg (by decide), ih hts (fun x hx => ht x (by simp [hx])), Res.ok_bind, List.map_cons, List.nil_append]
      unfold HTable.full
      rw [h.size]

/-- **C107 is false, cut tables.**  If the last character is missing and the variable that should receive it happens to hold `$`
already (it is read into the same variable for every table), the file is accepted. -/
theorem C107_lsh_cut_accepted (nm : Part → P) (hnm : Function.Injective nm) (p : P) (hp : ∀ x, p ≠ nm x) (fs : FS P) (es : Nat)
    (o : LshObj) (rows : List Bytes) (hs : LshBuilt es o rows) (hnt : 1 ≤ o.numTables)
    (sortL : List Label → List Label) (hsort : IsStrSort sortL) (j : Junk) (hj : j.WF) (jl : LshJunk) (hjl : jl.WF)
    (hc : jl.c = 36) (o0 : LshObj) (h0 : IsFresh o0.base) :
    ∃ ops o', lshSave es nm p o = .ok ops ∧
      lshLoad sortL j jl es nm p (fun q => if q = p then some (Spec.lshBytes o).dropLast else runOps ops fs q) o0 = .ok o' ∧
      o'.tables = o.tables.map HTable.full := by
  obtain ⟨b, ops, hbo, hbh, ho, hrun⟩ := lshSave_run nm hnm p hs.base fs
  have hfs : (fun q => if q = p then some (Spec.lshBytes o).dropLast else runOps ops fs q) =
      fun q => if q = p then some (Spec.lshBytes o).dropLast else runOps b fs q := by
    rw [hrun]
    funext q
    dsimp only
    split <;> rfl
  obtain ⟨b', hba, -, hl⟩ := lshLoad_base nm p hp _ es o rows hs.base hbh sortL hsort j hj o0 h0 (Spec.lshBytes o).dropLast
  have hne : o.tables ≠ [] := by
    intro h
    rw [hs.num, h] at hnt
    simp at hnt
  have e : (Spec.lshBytes o).dropLast = 42 :: (le 4 o.numTables ++ (le 4 o.tableSize ++ (o.tables.flatMap tableBytes).dropLast)) := by
    have e1 : Spec.lshBytes o = (42 :: (le 4 o.numTables ++ le 4 o.tableSize)) ++ o.tables.flatMap tableBytes := by simp [Spec.lshBytes]
    have e2 : o.tables.flatMap tableBytes ≠ [] := by
      cases ht : o.tables with
      | nil => exact absurd ht hne
      | cons u us => simp [tableBytes]
    rw [e1, List.dropLast_append_of_ne_nil e2]
    simp
  refine ⟨ops, { o0 with base := b', tables := o.tables.map HTable.full }, ho, ?_, rfl⟩
  rw [hfs]
  unfold lshLoad
  rw [hl, Res.ok_bind]
  dsimp only
  rw [if_pos rfl, e]
  unfold IStream.open
  dsimp only
  rw [IStream.get_cons]
  dsimp only
  rw [if_neg (by decide), IStream.readInt_le _ 4 _ _ hjl.1 hs.num_lt]
  dsimp only
  rw [IStream.readInt_le _ 4 _ _ hjl.1 (by have := hs.size; omega)]
  dsimp only
  rw [hs.num, hba, lastByte_readTables jl hjl hc _ _ hs.size o.tables hne hs.tables]
  rfl

/-- **C107 is false, nearly empty tables.**  A file that has shrunk to its first character is accepted if the uninitialised number
of tables is zero; nothing is found in the loaded index. -/
theorem C107_lsh_shrunk (nm : Part → P) (hnm : Function.Injective nm) (p : P) (hp : ∀ x, p ≠ nm x) (fs : FS P) (es : Nat)
    (o : LshObj) (rows : List Bytes) (hs : LshBuilt es o rows)
    (sortL : List Label → List Label) (hsort : IsStrSort sortL) (j : Junk) (hj : j.WF) (jl : LshJunk)
    (hw : jl.w = [0, 0, 0, 0]) (o0 : LshObj) (h0 : IsFresh o0.base) :
    ∃ ops o', lshSave es nm p o = .ok ops ∧
      lshLoad sortL j jl es nm p (fun q => if q = p then some [42] else runOps ops fs q) o0 = .ok o' ∧ o'.tables = [] := by
  obtain ⟨b, ops, hbo, hbh, ho, hrun⟩ := lshSave_run nm hnm p hs.base fs
  have hfs : (fun q => if q = p then some [42] else runOps ops fs q) = fun q => if q = p then some [42] else runOps b fs q := by
    rw [hrun]
    funext q
    dsimp only
    split <;> rfl
  obtain ⟨b', hba, -, hl⟩ := lshLoad_base nm p hp _ es o rows hs.base hbh sortL hsort j hj o0 h0 [42]
  refine ⟨ops, { o0 with base := b', tables := [] }, ho, ?_, rfl⟩
  rw [hfs]
  unfold lshLoad
  rw [hl, Res.ok_bind]
  dsimp only
  rw [if_pos rfl]
  unfold IStream.open
  dsimp only
  rw [IStream.get_cons]
  dsimp only
  rw [if_neg (by decide), hw]
  rfl

/-! ## The theorems applied to an example -/

example := C107_lsh some (Option.some_injective _) none exNames (fun _ => none) 1 exLshObj _ exLshObj_built (by decide) exLshTable
  (by simp [exLshObj]) 1 [0, 1] (by simp [exLshTable]) 1 (by decide) (by decide) exStrSort exStrSort_isStrSort exJunk exJunk_WF
  exLshJunk ⟨rfl, rfl⟩ ⟨IdxObj.fresh, 0, 0, []⟩ fresh_isFresh

example := C107_lsh_cut_partial some (Option.some_injective _) none exNames (fun _ => none) 1 exLshObj _ exLshObj_built (by decide)
  [] List.nil_prefix (by simp [Spec.lshBytes]) (.inl rfl) exStrSort exStrSort_isStrSort exJunk exJunk_WF
  exLshJunk ⟨rfl, rfl⟩ (by decide) ⟨IdxObj.fresh, 0, 0, []⟩ fresh_isFresh

example := C107_lsh_cut_accepted some (Option.some_injective _) none exNames (fun _ => none) 1 exLshObj _ exLshObj_built (by decide)
  exStrSort exStrSort_isStrSort exJunk exJunk_WF ⟨36, [0, 0, 0, 0], List.replicate 8 0⟩ ⟨rfl, rfl⟩ rfl
  ⟨IdxObj.fresh, 0, 0, []⟩ fresh_isFresh

example := C107_lsh_shrunk some (Option.some_injective _) none exNames (fun _ => none) 1 exLshObj _ exLshObj_built
  exStrSort exStrSort_isStrSort exJunk exJunk_WF ⟨36, [0, 0, 0, 0], List.replicate 8 0⟩ rfl
  ⟨IdxObj.fresh, 0, 0, []⟩ fresh_isFresh

end Grann
