import Verif.Model.LshFile
import Verif.Props.Persist
import Verif.Props.Lsh
/-!
# Saving and loading LSH indices (C19, second half of C18)
-/

namespace Grann

/-- A table as a build leaves it, of a size the file format can express. -/
structure TableFits (adim sz : Nat) (t : HTable Bytes) : Prop where
  size : t.size = sz
  hps_len : t.hps.length = sz
  hps : ∀ h ∈ t.hps, h.length = adim * 4
  sorted : t.buckets.Pairwise (fun x y => x.1 < y.1)
  buckets_lt : t.buckets.length < 4294967296
  keys : ∀ b ∈ t.buckets, b.1 < 18446744073709551616
  sizes : ∀ b ∈ t.buckets, b.2.length < 4294967296
  ids : ∀ b ∈ t.buckets, ∀ i ∈ b.2, i < 4294967296

theorem TableFits.ok {adim size : Nat} {t : HTable Bytes} (h : TableFits adim size t) : t.OK :=
  ⟨by rw [h.hps_len, h.size], h.sorted⟩

/-- The buckets that hold something. -/
def Buckets.full (b : Buckets) : Buckets := b.filter (fun x => x.2 ≠ [])

theorem Buckets.full_get (b : Buckets) (hs : b.Pairwise (fun x y => x.1 < y.1)) (key : Nat) :
    b.full.get key = b.get key := by
  induction b with
  | nil => rfl
  | cons x b ih =>
    obtain ⟨k, l⟩ := x
    rw [List.pairwise_cons] at hs
    have ih := ih hs.2
    unfold Buckets.full at ih ⊢
    by_cases hl : l = []
    · subst hl
      rw [List.filter_cons_of_neg (by simp), ih, Buckets.get]
      by_cases hk : k = key
      · rw [if_pos hk]
        subst hk
        have : ∀ (b : Buckets), (∀ y ∈ b, k < y.1) → b.get k = [] := by
          intro b hb
          induction b with
          | nil => rfl
          | cons y b ih =>
            obtain ⟨k', l'⟩ := y
            have := hb (k', l') (by simp)
            rw [Buckets.get, if_neg (by simp at this; omega), ih (fun z hz => hb z (by simp [hz]))]
        exact this b hs.1
      · rw [if_neg hk]
    · rw [List.filter_cons_of_pos (by simpa using hl), Buckets.get, Buckets.get, ih]

/-- Looking up a bucket does not change the buckets that hold something. -/
theorem Buckets.full_push (b : Buckets) (key : Nat) :
    (b.push key []).full = b.full := by
  induction b with
  | nil => simp [Buckets.push, Buckets.full]
  | cons x b ih =>
    obtain ⟨k, l⟩ := x
    unfold Buckets.full at ih ⊢
    unfold Buckets.push
    split
    · rw [List.filter_cons_of_neg (by simp)]
    · split
      · rw [List.append_nil]
      · rw [List.filter_cons, List.filter_cons, ih]

/-! ## Reading what was written -/

theorem IStream.get_cons (c : UInt8) (rest : Bytes) (old : UInt8) :
    (IStream.mk (c :: rest) false false).get old = (c, ⟨rest, false, false⟩) := by
  simp [IStream.get, IStream.read]

theorem readFloats_ok (j : LshJunk) (hj : j.WF) : ∀ (n : Nat) (h rest : Bytes), h.length = n * 4 →
    readFloats j n ⟨h ++ rest, false, false⟩ = (h, ⟨rest, false, false⟩) := by
  intro n
  induction n with
  | zero =>
    intro h rest hl
    have : h = [] := by simpa using hl
    subst this; rfl
  | succ n ih =>
    intro h rest hl
    have hsplit : h ++ rest = h.take 4 ++ (h.drop 4 ++ rest) := by
      rw [← List.append_assoc, List.take_append_drop]
    have h4 : (h.take 4).length = 4 := by rw [List.length_take]; omega
    have hr := IStream.read_append (h.take 4) (h.drop 4 ++ rest)
    rw [h4] at hr
    rw [readFloats, hsplit, hr]
    dsimp only
    rw [ih (h.drop 4) rest (by rw [List.length_drop]; omega)]
    dsimp only
    rw [h4, List.drop_eq_nil_of_le (Nat.le_of_eq hj.1), List.append_nil, List.take_append_drop]

theorem readHps_ok (j : LshJunk) (hj : j.WF) (adim : Nat) : ∀ (hps : List Bytes) (rest : Bytes),
    (∀ h ∈ hps, h.length = adim * 4) →
    readHps j adim hps.length ⟨hps.flatten ++ rest, false, false⟩ = (hps, ⟨rest, false, false⟩) := by
  intro hps
  induction hps with
  | nil => intro rest _; rfl
  | cons h hps ih =>
    intro rest hl
    rw [List.length_cons, readHps, List.flatten_cons, List.append_assoc,
      readFloats_ok j hj adim h _ (hl h (by simp))]
    dsimp only
    rw [ih rest (fun x hx => hl x (by simp [hx]))]

theorem readIds_ok (j : LshJunk) (hj : j.WF) (key : Nat) : ∀ (ids : List Nat) (rest : Bytes) (b : Buckets),
    (∀ i ∈ ids, i < 4294967296) →
    readIds j key ids.length ⟨le32s ids ++ rest, false, false⟩ b =
      (ids.foldl (fun b i => b.push key [i]) b, ⟨rest, false, false⟩) := by
  intro ids
  induction ids with
  | nil => intro rest b _; rfl
  | cons i ids ih =>
    intro rest b hl
    have e : le32s (i :: ids) ++ rest = le 4 i ++ (le32s ids ++ rest) := by simp [le32s]
    rw [List.length_cons, readIds, e, IStream.readInt_le i 4 _ _ hj.1 (hl i (by simp))]
    dsimp only
    rw [ih rest _ (fun x hx => hl x (by simp [hx]))]
    rfl

/-- Adding points to a new last bucket. -/
theorem push_last (b : Buckets) (key : Nat) (hb : ∀ x ∈ b, x.1 < key) (vs : List Nat) :
    b.push key vs = b ++ [(key, vs)] := by
  induction b with
  | nil => rfl
  | cons x b ih =>
    obtain ⟨k, l⟩ := x
    have hk := hb (k, l) (by simp)
    simp only at hk
    rw [Buckets.push, if_neg (by omega), if_neg (by omega), ih (fun y hy => hb y (by simp [hy]))]
    rfl

theorem push_last_again (b : Buckets) (key : Nat) (hb : ∀ x ∈ b, x.1 < key) (l vs : List Nat) :
    Buckets.push (b ++ [(key, l)]) key vs = b ++ [(key, l ++ vs)] := by
  induction b with
  | nil => simp [Buckets.push]
  | cons x b ih =>
    obtain ⟨k, l'⟩ := x
    have hk := hb (k, l') (by simp)
    simp only at hk
    rw [List.cons_append, Buckets.push, if_neg (by omega), if_neg (by omega),
      ih (fun y hy => hb y (by simp [hy]))]
    rfl

theorem fold_push (b : Buckets) (key : Nat) (hb : ∀ x ∈ b, x.1 < key) (ids : List Nat) :
    ids.foldl (fun b i => b.push key [i]) b = b ++ Buckets.full [(key, ids)] := by
  have again : ∀ (ids l : List Nat), ids.foldl (fun b i => Buckets.push b key [i]) (b ++ [(key, l)]) =
      b ++ [(key, l ++ ids)] := by
    intro ids
    induction ids with
    | nil => intro l; simp
    | cons i ids ih => intro l; rw [List.foldl_cons, push_last_again b key hb, ih]; simp
  cases ids with
  | nil => simp [Buckets.full]
  | cons i ids =>
    rw [List.foldl_cons, push_last b key hb, again]
    simp [Buckets.full]

theorem readBuckets_ok (j : LshJunk) (hj : j.WF) : ∀ (bs pre : Buckets) (rest : Bytes),
    (pre ++ bs).Pairwise (fun x y => x.1 < y.1) → (∀ b ∈ bs, b.1 < 18446744073709551616) →
    (∀ b ∈ bs, b.2.length < 4294967296) → (∀ b ∈ bs, ∀ i ∈ b.2, i < 4294967296) →
    readBuckets j bs.length ⟨bs.flatMap bucketBytes ++ rest, false, false⟩ pre =
      (pre ++ Buckets.full bs, ⟨rest, false, false⟩) := by
  intro bs
  induction bs with
  | nil => intro pre rest _ _ _ _; simp [readBuckets, Buckets.full]
  | cons x bs ih =>
    intro pre rest hp hk hl hi
    obtain ⟨k, l⟩ := x
    have hk0 := hk (k, l) (by simp)
    have hl0 := hl (k, l) (by simp)
    have hi0 := hi (k, l) (by simp)
    simp only at hk0 hl0 hi0
    have hu : u32 l.length = l.length := by rw [u32, Nat.mod_eq_of_lt hl0]
    have hpre : ∀ x ∈ pre, x.1 < k := by
      intro x hx
      exact (List.pairwise_append.mp hp).2.2 x hx (k, l) (by simp)
    rw [List.length_cons, readBuckets, List.flatMap_cons, bucketBytes, hu, List.append_assoc, List.append_assoc,
      List.append_assoc, IStream.readInt_le k 8 _ _ hj.2 (by omega)]
    dsimp only
    rw [IStream.readInt_le l.length 4 _ _ hj.1 (by omega)]
    dsimp only
    rw [readIds_ok j hj k l _ _ hi0]
    dsimp only
    rw [fold_push pre k hpre, ih _ rest _ (fun b hb => hk b (by simp [hb])) (fun b hb => hl b (by simp [hb]))
      (fun b hb => hi b (by simp [hb]))]
    · congr 1
      rw [List.append_assoc]
      congr 1
      unfold Buckets.full
      rw [← List.filter_append]; rfl
    · have : (pre ++ Buckets.full [(k, l)] ++ bs).Sublist (pre ++ (k, l) :: bs) := by
        rw [List.append_assoc]
        apply List.Sublist.append_left
        have : (Buckets.full [(k, l)] ++ bs).Sublist ([(k, l)] ++ bs) :=
          List.Sublist.append_right List.filter_sublist bs
        exact this
      exact hp.sublist this

/-- A table without its empty buckets. -/
def HTable.full {H : Type} (t : HTable H) : HTable H := { t with buckets := Buckets.full t.buckets }

theorem readTables_ok (j : LshJunk) (hj : j.WF) (sz adim : Nat) (hsz : sz ≤ 64) :
    ∀ (ts : List (HTable Bytes)) (rest : Bytes), (∀ t ∈ ts, TableFits adim sz t) →
      readTables j sz adim ts.length ⟨ts.flatMap tableBytes ++ rest, false, false⟩ =
        .ok (ts.map HTable.full) := by
  intro ts
  induction ts with
  | nil => intro rest _; rfl
  | cons t ts ih =>
    intro rest ht
    have h := ht t (by simp)
    have hu : u32 t.buckets.length = t.buckets.length := by rw [u32, Nat.mod_eq_of_lt h.buckets_lt]
    have e : (t :: ts).flatMap tableBytes ++ rest = 64 :: (t.hps.flatten ++ (37 :: (le 4 t.buckets.length ++
        (t.buckets.flatMap bucketBytes ++ (36 :: (ts.flatMap tableBytes ++ rest)))))) := by
      simp [tableBytes, hu]
    rw [List.length_cons, readTables, e, IStream.get_cons]
    dsimp only
    rw [if_neg (by decide), if_neg (by omega)]
    have hh := readHps_ok j hj adim t.hps (37 :: (le 4 t.buckets.length ++
        (t.buckets.flatMap bucketBytes ++ (36 :: (ts.flatMap tableBytes ++ rest))))) h.hps
    rw [h.hps_len] at hh
    rw [hh]
    dsimp only
    rw [IStream.get_cons]
    dsimp only
    rw [if_neg (by decide), IStream.readInt_le t.buckets.length 4 _ _ hj.1 h.buckets_lt]
    dsimp only
    rw [readBuckets_ok j hj t.buckets [] _ (by simpa using h.sorted) h.keys h.sizes h.ids]
    dsimp only
    rw [IStream.get_cons]
    dsimp only
    rw [if_neg (by decide), ih rest (fun x hx => ht x (by simp [hx])), Res.ok_bind, List.map_cons,
      List.nil_append]
    unfold HTable.full
    rw [h.size]

/-! ## Saving and loading -/

/-- An LSH index of a size the file format can express. -/
structure LshSaveable (es : Nat) (o : LshObj) (rows : List Bytes) : Prop where
  base : BaseSaveable es o.base rows
  num_le : o.numTables ≤ o.tables.length
  num_lt : o.numTables < 4294967296
  size_lt : o.tableSize < 4294967296
  tables : o.numTables ≠ 0 → o.tableSize ≤ 64 ∧ ∀ t ∈ o.tables, TableFits o.base.adim o.tableSize t

variable {P : Type} [DecidableEq P]

/-- What a load gives after a save, whatever number of tables the header says. -/
theorem lshSave_load (nm : Part → P) (hnm : Function.Injective nm) (p : P) (hp : ∀ x, p ≠ nm x)
    (fs : FS P) (es : Nat) (o : LshObj) (rows : List Bytes) (hs : LshSaveable es o rows)
    (sortL : List Label → List Label) (hsort : IsStrSort sortL) (j : Junk) (hj : j.WF) (jl : LshJunk)
    (hjl : jl.WF) (o0 : LshObj) (h0 : IsFresh o0.base) :
    ∃ ops seen, lshSave es nm p o = .ok ops ∧ lshLoad sortL j jl es nm p (runOps ops fs) o0 =
      .ok ⟨{ o.base with seen := seen, maxDeg := o0.base.maxDeg, start := o0.base.start, graph := [], medoids := [] },
        o0.numTables, o0.tableSize, (o.tables.take o.numTables).map HTable.full⟩ := by
  obtain ⟨b, hb, hbh, hbq⟩ := saveBase_holds nm hnm hs.base fs
  have hfs : runOps (b ++ ([.create p, .append p [42], .append p (le 4 o.numTables),
      .append p (le 4 o.tableSize)] ++ o.tables.map (fun t => .append p (tableBytes t)))) fs =
      fun q => if q = p then some (42 :: (le 4 o.numTables ++ (le 4 o.tableSize ++
        o.tables.flatMap tableBytes))) else runOps b fs q := by
    have e : o.tables.map (fun t => FOp.append p (tableBytes t)) =
        (o.tables.map tableBytes).map (FOp.append p) := by simp
    rw [runOps_append, runOps_append, e]
    have := run_append_rows p (o.tables.map tableBytes) (runOps [.create p, .append p [42],
      .append p (le 4 o.numTables), .append p (le 4 o.tableSize)] (runOps b fs))
      (42 :: (le 4 o.numTables ++ le 4 o.tableSize)) (by simp [runOps, FOp.run])
    funext q
    by_cases hq : q = p
    · subst hq
      rw [this.1, if_pos rfl]
      simp [List.flatMap_def]
    · rw [this.2 q hq, if_neg hq]
      simp [runOps, FOp.run, hq]
  have hbh' : HoldsBase nm (fun q => if q = p then some (42 :: (le 4 o.numTables ++ (le 4 o.tableSize ++
        o.tables.flatMap tableBytes))) else runOps b fs q) o.base rows := by
    constructor <;> rw [if_neg (Ne.symm (hp _))]
    · exact hbh.data
    · exact hbh.tags
    · exact hbh.labels
    · exact hbh.univ
  obtain ⟨seen, hl⟩ := loadBase_holds sortL hsort j hj nm hs.base _ hbh' o0.base h0
  refine ⟨_, seen, by unfold lshSave; rw [hb]; rfl, ?_⟩
  rw [hfs]
  unfold lshLoad
  rw [hl, Res.ok_bind]
  dsimp only
  rw [if_pos rfl]
  unfold IStream.open
  dsimp only
  rw [IStream.get_cons]
  dsimp only
  rw [if_neg (by decide), IStream.readInt_le _ 4 _ _ hjl.1 hs.num_lt]
  dsimp only
  rw [IStream.readInt_le _ 4 _ _ hjl.1 hs.size_lt]
  dsimp only
  have htab : readTables jl o.tableSize o.base.adim o.numTables ⟨o.tables.flatMap tableBytes, false, false⟩ =
      .ok ((o.tables.take o.numTables).map HTable.full) := by
    by_cases hz : o.numTables = 0
    · rw [hz]; rfl
    · obtain ⟨h1, h2⟩ := hs.tables hz
      have := readTables_ok jl hjl o.tableSize o.base.adim h1 (o.tables.take o.numTables)
        ((o.tables.drop o.numTables).flatMap tableBytes) (fun t ht => h2 t (List.mem_of_mem_take ht))
      rw [← List.flatMap_append, List.take_append_drop, List.length_take,
        Nat.min_eq_left hs.num_le] at this
      exact this
  rw [htab]
  rfl

theorem sameTables_full {H : Type} (ts : List (HTable H)) (h : ∀ t ∈ ts, t.OK) :
    SameTables (ts.map HTable.full) ts := by
  induction ts with
  | nil => exact .nil
  | cons t ts ih =>
    have ht := h t (by simp)
    exact .cons ⟨⟨ht.hps, ht.sorted.sublist List.filter_sublist⟩, ht, rfl,
      fun key => Buckets.full_get _ ht.sorted key⟩ (ih (fun x hx => h x (by simp [hx])))

theorem SameTables.search {H V : Type} (dot : H → V → F32) (c : Ctx V) {a b : List (HTable H)}
    (h : SameTables a b) (q : V) (rc : Nat) (ind : List Nat) (dst : Option (List F32)) (filters : List Label) :
    (lshSearch dot c a q rc ind dst filters).map Prod.snd =
      (lshSearch dot c b q rc ind dst filters).map Prod.snd := by
  obtain ⟨a', b', cs, ea, eb, -, -⟩ := h.cands dot q
  unfold lshSearch
  rw [ea, eb]
  simp only [Res.ok_bind]
  cases scanSearch c q rc ind dst filters cs <;> rfl

/-- An LSH index as a build leaves it: `num_tables` is the number of tables. -/
structure LshBuilt (es : Nat) (o : LshObj) (rows : List Bytes) : Prop where
  base : BaseSaveable es o.base rows
  num : o.numTables = o.tables.length
  num_lt : o.numTables < 4294967296
  size : o.tableSize ≤ 64
  tables : ∀ t ∈ o.tables, TableFits o.base.adim o.tableSize t

theorem LshBuilt.saveable {es : Nat} {o : LshObj} {rows : List Bytes} (h : LshBuilt es o rows) :
    LshSaveable es o rows :=
  ⟨h.base, Nat.le_of_eq h.num, h.num_lt, by have := h.size; omega, fun _ => ⟨h.size, h.tables⟩⟩

/-- **C19, one round.** A built LSH index, saved and loaded into a fresh object, answers every query as
before. -/
theorem C19_one_round_partial (nm : Part → P) (hnm : Function.Injective nm) (p : P) (hp : ∀ x, p ≠ nm x)
    (fs : FS P) (es : Nat) (o : LshObj) (rows : List Bytes) (hs : LshBuilt es o rows)
    (sortL : List Label → List Label) (hsort : IsStrSort sortL) (j : Junk) (hj : j.WF) (jl : LshJunk)
    (hjl : jl.WF) (o0 : LshObj) (h0 : IsFresh o0.base) :
    ∃ ops o', lshSave es nm p o = .ok ops ∧ lshLoad sortL j jl es nm p (runOps ops fs) o0 = .ok o' ∧
      o'.base.data = o.base.data ∧ o'.base.tags = o.base.tags ∧ o'.base.labels = o.base.labels ∧
      ∀ cmp dot q rc ind dst filters,
        (lshSearch dot (o'.base.view es cmp).ctx o'.tables q rc ind dst filters).map Prod.snd =
          (lshSearch dot (o.base.view es cmp).ctx o.tables q rc ind dst filters).map Prod.snd := by
  obtain ⟨ops, seen, ho, hl⟩ := lshSave_load nm hnm p hp fs es o rows hs.saveable sortL hsort j hj jl hjl o0 h0
  refine ⟨ops, _, ho, hl, rfl, rfl, rfl, ?_⟩
  intro cmp dot q rc ind dst filters
  dsimp only
  rw [hs.num, List.take_length]
  exact (sameTables_full o.tables (fun t ht => (hs.tables t ht).ok)).search dot _ q rc ind dst filters

/-- One generation: save the index and load it into an object made by the constructor without files. -/
def lshRound (sortL : List Label → List Label) (j : Junk) (jl : LshJunk) (es : Nat) (nm : Part → P) (p : P) :
    FS P × LshObj → Res (FS P × LshObj)
  | (fs, o) => do
    let ops ← lshSave es nm p o
    let o' ← lshLoad sortL j jl es nm p (runOps ops fs) ⟨IdxObj.fresh, 0, 0, []⟩
    .ok (runOps ops fs, o')

/-- Several generations. -/
def lshRounds (sortL : List Label → List Label) (j : Junk) (jl : LshJunk) (es : Nat) (nm : Part → P) (p : P) :
    Nat → FS P × LshObj → Res (FS P × LshObj)
  | 0, s => .ok s
  | k + 1, s => do
    let s' ← lshRound sortL j jl es nm p s
    lshRounds sortL j jl es nm p k s'

theorem lshRound_ok (nm : Part → P) (hnm : Function.Injective nm) (p : P) (hp : ∀ x, p ≠ nm x)
    (fs : FS P) (es : Nat) (o : LshObj) (rows : List Bytes) (hs : LshSaveable es o rows)
    (sortL : List Label → List Label) (hsort : IsStrSort sortL) (j : Junk) (hj : j.WF) (jl : LshJunk)
    (hjl : jl.WF) :
    ∃ fs' o', lshRound sortL j jl es nm p (fs, o) = .ok (fs', o') ∧ LshSaveable es o' rows ∧
      o'.numTables = 0 ∧ o'.tables = (o.tables.take o.numTables).map HTable.full := by
  obtain ⟨ops, seen, ho, hl⟩ := lshSave_load nm hnm p hp fs es o rows hs sortL hsort j hj jl hjl
    ⟨IdxObj.fresh, 0, 0, []⟩ fresh_isFresh
  refine ⟨_, _, by unfold lshRound; dsimp only; rw [ho, Res.ok_bind, hl, Res.ok_bind], ?_, rfl, rfl⟩
  have h := hs.base
  exact ⟨⟨h.matrix, h.rows_n, h.data, h.adim, h.n_lt, h.dim_lt, h.size, h.tags_len, h.tags_lt, h.labelled,
    h.unlabelled, h.univ⟩, Nat.zero_le _, (by decide : 0 < 4294967296), (by decide : 0 < 4294967296),
    fun h => absurd rfl h⟩

/-- **C19 is false** from the second generation on, for every built index: `load` does not set `num_tables`,
so the second `save` writes the number 0 in front of the tables, and the next `load` reads none.  Every
query on the result finds nothing. -/
theorem C19_second_generation_empty (nm : Part → P) (hnm : Function.Injective nm) (p : P)
    (hp : ∀ x, p ≠ nm x) (fs : FS P) (es : Nat) (o : LshObj) (rows : List Bytes) (hs : LshBuilt es o rows)
    (sortL : List Label → List Label) (hsort : IsStrSort sortL) (j : Junk) (hj : j.WF) (jl : LshJunk)
    (hjl : jl.WF) (k : Nat) :
    ∃ fs' o', lshRounds sortL j jl es nm p (k + 2) (fs, o) = .ok (fs', o') ∧ o'.tables = [] ∧
      ∀ cmp (dot : Bytes → Bytes → F32) q rc ind dst filters,
        lshSearch dot (o'.base.view es cmp).ctx o'.tables q rc ind dst filters = .ok ([], ind, dst, 0) := by
  have step : ∀ (k : Nat) (fs : FS P) (o : LshObj), LshSaveable es o rows → o.numTables = 0 →
      ∃ fs' o', lshRounds sortL j jl es nm p (k + 1) (fs, o) = .ok (fs', o') ∧ o'.tables = [] := by
    intro k
    induction k with
    | zero =>
      intro fs o hs hz
      obtain ⟨fs', o', h1, -, -, h4⟩ := lshRound_ok nm hnm p hp fs es o rows hs sortL hsort j hj jl hjl
      refine ⟨fs', o', ?_, ?_⟩
      · rw [lshRounds, h1, Res.ok_bind]; rfl
      · rw [h4, hz]; rfl
    | succ k ih =>
      intro fs o hs hz
      obtain ⟨fs', o', h1, h2, h3, -⟩ := lshRound_ok nm hnm p hp fs es o rows hs sortL hsort j hj jl hjl
      obtain ⟨fs2, o2, h5, h6⟩ := ih fs' o' h2 h3
      refine ⟨fs2, o2, ?_, h6⟩
      rw [lshRounds, h1, Res.ok_bind]; exact h5
  obtain ⟨fs1, o1, h1, h2, h3, -⟩ := lshRound_ok nm hnm p hp fs es o rows hs.saveable sortL hsort j hj jl hjl
  obtain ⟨fs2, o2, h5, h6⟩ := step k fs1 o1 h2 h3
  refine ⟨fs2, o2, ?_, h6, ?_⟩
  · rw [lshRounds, h1, Res.ok_bind]; exact h5
  · intro cmp dot q rc ind dst filters
    rw [h6]
    unfold lshSearch lshCands scanSearch
    have hc : (if 0 < rc then 0 else rc) = 0 := by split <;> omega
    cases dst <;> simp [procCands, hc, rdList, wrList, pure, Except.pure, bind, Except.bind]

/-! ## The tables that a build makes, and what queries do to them -/

theorem hashOf_lt {H V : Type} (dot : H → V → F32) (h : List H) (v : V) : hashOf dot h v < 2 ^ h.length := by
  induction h with
  | nil => simp [hashOf]
  | cons x h ih =>
    unfold hashOf at ih ⊢
    rw [List.foldr_cons, List.length_cons, Nat.pow_succ]
    split <;> omega

/-- Sizes of buckets after `k` additions. -/
structure BucketsFit (k : Nat) (b : Buckets) : Prop where
  len : b.length ≤ k
  keys : ∀ x ∈ b, x.1 < 18446744073709551616
  sizes : ∀ x ∈ b, x.2.length ≤ k
  ids : ∀ x ∈ b, ∀ i ∈ x.2, i < 4294967296

theorem Buckets.push_length (b : Buckets) (key : Nat) (vs : List Nat) :
    (b.push key vs).length ≤ b.length + 1 := by
  induction b with
  | nil => simp [Buckets.push]
  | cons x b ih =>
    obtain ⟨k', l⟩ := x
    unfold Buckets.push
    split
    · simp
    · split
      · simp
      · simp only [List.length_cons]; omega

theorem BucketsFit.push {k : Nat} {b : Buckets} (h : BucketsFit k b) {key : Nat}
    (hkey : key < 18446744073709551616) (vs : List Nat) (hvs : ∀ i ∈ vs, i < 4294967296)
    (hl : vs.length ≤ 1) : BucketsFit (k + 1) (b.push key vs) := by
  have hlen := Buckets.push_length b key vs
  have hmem : ∀ x ∈ b.push key vs, x ∈ b ∨ x = (key, vs) ∨ ∃ l, (key, l) ∈ b ∧ x = (key, l ++ vs) := by
    clear h hlen
    induction b with
    | nil => intro x hx; right; left; simpa [Buckets.push] using hx
    | cons y b ih =>
      obtain ⟨k', l⟩ := y
      intro x hx
      unfold Buckets.push at hx
      split at hx
      · rcases List.mem_cons.mp hx with rfl | hx
        · right; left; rfl
        · left; exact hx
      · split at hx
        · rename_i e
          subst e
          rcases List.mem_cons.mp hx with rfl | hx
          · right; right; exact ⟨l, by simp, rfl⟩
          · left; simp [hx]
        · rcases List.mem_cons.mp hx with rfl | hx
          · left; simp
          · rcases ih x hx with h | h | ⟨l', h, e⟩
            · left; simp [h]
            · right; left; exact h
            · right; right; exact ⟨l', by simp [h], e⟩
  have := h.len
  refine ⟨by omega, ?_, ?_, ?_⟩ <;> intro x hx <;> rcases hmem x hx with h' | rfl | ⟨l, h', rfl⟩
  · exact h.keys x h'
  · exact hkey
  · exact hkey
  · have := h.sizes x h'; omega
  · simp only; omega
  · have := h.sizes _ h'; simp only at this ⊢; rw [List.length_append]; omega
  · exact h.ids x h'
  · exact hvs
  · intro i hi
    rcases List.mem_append.mp hi with hi | hi
    · exact h.ids _ h' i hi
    · exact hvs i hi

/-- The tables made by a build fit the file format. -/
theorem lshBuild_fits {V : Type} (dot : Bytes → V → F32) (data : List V) (tags : List Nat)
    (htags : data.length ≤ tags.length) (htl : ∀ t ∈ tags, t < 4294967296) (hn : data.length < 4294967296)
    (adim tableSize : Nat) (hsize : tableSize ≤ 64) (hps : List (List Bytes))
    (hh : ∀ h ∈ hps, h.length = tableSize) (hw : ∀ h ∈ hps, ∀ x ∈ h, x.length = adim * 4) :
    ∃ ts, lshBuild dot data tags tableSize hps = .ok ts ∧ ts.length = hps.length ∧
      ∀ t ∈ ts, TableFits adim tableSize t ∧ t.buckets.length ≤ data.length := by
  have fill : ∀ (h : List Bytes), h.length = tableSize → (∀ x ∈ h, x.length = adim * 4) →
      ∃ t, lshFill dot data tags ⟨h, tableSize, []⟩ = .ok t ∧
        (TableFits adim tableSize t ∧ t.buckets.length ≤ data.length) := by
    intro h hl hx
    have key : ∀ (l : List (V × Nat)) (t0 : HTable Bytes) (k : Nat), t0.hps = h → t0.size = tableSize →
        t0.buckets.Pairwise (fun x y => x.1 < y.1) → BucketsFit k t0.buckets →
        (∀ p ∈ l, p.2 < tags.length) → ∃ t', l.foldlM (fun t p => do
          let h ← getHash dot t p.1
          let tag ← rd tags p.2
          (.ok (t.add h tag) : Res (HTable Bytes))) t0 = .ok t' ∧ t'.hps = h ∧ t'.size = tableSize ∧
          t'.buckets.Pairwise (fun x y => x.1 < y.1) ∧ BucketsFit (k + l.length) t'.buckets := by
      intro l
      induction l with
      | nil => intro t0 k h1 h2 h3 h4 _; exact ⟨t0, rfl, h1, h2, h3, h4⟩
      | cons p l ih =>
        intro t0 k h1 h2 h3 h4 hp
        have hp0 := hp p (by simp)
        have hlt : hashOf dot h p.1 < 18446744073709551616 := by
          have h64 : 2 ^ h.length ≤ 2 ^ 64 := Nat.pow_le_pow_right (by omega) (by omega)
          have := hashOf_lt dot h p.1
          omega
        obtain ⟨t', e, a, b, c, d⟩ := ih (t0.add (hashOf dot h p.1) tags[p.2]) (k + 1) h1 h2
          (Buckets.push_sorted _ h3 _ _)
          (h4.push hlt [tags[p.2]] (by simpa using htl _ (List.getElem_mem hp0)) (by simp))
          (fun q hq => hp q (by simp [hq]))
        refine ⟨t', ?_, a, b, c, ?_⟩
        · rw [List.foldlM_cons, getHash_ok dot (by rw [h1, h2, hl]), h1, rd_ok hp0]
          exact e
        · rw [List.length_cons]
          have e2 : k + (l.length + 1) = k + 1 + l.length := by omega
          rw [e2]; exact d
    obtain ⟨t', e, a, b, c, d⟩ := key data.zipIdx ⟨h, tableSize, []⟩ 0 rfl rfl List.Pairwise.nil
      ⟨by simp, by simp, by simp, by simp⟩ (by
        intro p hp
        have := (List.mem_zipIdx hp).2.1
        omega)
    rw [List.length_zipIdx, Nat.zero_add] at d
    refine ⟨t', e, ⟨b, by rw [a, hl], by rw [a]; exact hx, c, by have := d.len; omega, d.keys, ?_, d.ids⟩, d.len⟩
    intro x hx
    have := d.sizes x hx; omega
  have h1 : hps.mapM (fun h => if tableSize > 64 then (.error .exit : Res (HTable Bytes))
      else .ok ⟨h, tableSize, []⟩) = .ok (hps.map (fun h => ⟨h, tableSize, []⟩)) := by
    apply mapM_eq_map
    intro h _
    rw [if_neg (by omega)]
  obtain ⟨ts, hts, hF⟩ := mapM_ok_of_forall (f := lshFill dot data tags)
    (R := fun _ t => TableFits adim tableSize t ∧ t.buckets.length ≤ data.length)
    (hps.map (fun h => ⟨h, tableSize, []⟩)) (by
      intro t ht
      obtain ⟨h, hm, rfl⟩ := List.mem_map.mp ht
      exact fill h (hh h hm) (hw h hm))
  refine ⟨ts, by unfold lshBuild; rw [h1, Res.ok_bind]; exact hts, ?_, ?_⟩
  · rw [← hF.length_eq]; simp
  · intro t ht
    obtain ⟨i, hi, rfl⟩ := List.getElem_of_mem ht
    exact (List.forall₂_iff_get.mp hF).2 i (by rw [hF.length_eq]; exact hi) hi

theorem Buckets.push_nil_mem (b : Buckets) (key : Nat) :
    ∀ x ∈ b.push key [], x ∈ b ∨ x = (key, []) := by
  induction b with
  | nil => intro x hx; right; simpa [Buckets.push] using hx
  | cons y b ih =>
    obtain ⟨k', l⟩ := y
    intro x hx
    unfold Buckets.push at hx
    split at hx
    · rcases List.mem_cons.mp hx with rfl | hx
      · right; rfl
      · left; exact hx
    · split at hx
      · rename_i e
        subst e
        left
        simpa using hx
      · rcases List.mem_cons.mp hx with rfl | hx
        · left; simp
        · rcases ih x hx with h | h
          · left; simp [h]
          · right; exact h

/-- Queries leave the buckets that hold something alone, add at most one bucket each, and keep the tables in
a form that fits the file format. -/
theorem lshRun_full {V : Type} (dot : Bytes → V → F32) (c : Ctx V) (adim sz : Nat) (hsz : sz ≤ 64) :
    ∀ (ks : List (LshCall V)) (ts ts' : List (HTable Bytes)) (m : Nat),
      (∀ t ∈ ts, TableFits adim sz t ∧ t.buckets.length ≤ m) → m + ks.length < 4294967296 →
      lshRun dot c ts ks = .ok ts' → ts'.map HTable.full = ts.map HTable.full ∧
        ∀ t ∈ ts', TableFits adim sz t := by
  intro ks
  induction ks with
  | nil =>
    intro ts ts' m h hm hr
    simp only [lshRun, Except.ok.injEq] at hr
    subst hr
    exact ⟨rfl, fun t ht => (h t ht).1⟩
  | cons k ks ih =>
    intro ts ts' m h hm hr
    unfold lshRun lshSearch at hr
    rw [lshCands_spec dot k.q ts (fun t ht => (h t ht).1.ok)] at hr
    simp only [Res.ok_bind] at hr
    obtain ⟨r, hr1, hr2⟩ := Res.bind_eq_ok.1 hr
    obtain ⟨r', hr', h3⟩ := Res.bind_eq_ok.1 hr1
    simp only [Except.ok.injEq] at h3
    subst h3
    have hb : ∀ t ∈ ts.map (fun t => { t with buckets := t.buckets.push (hashOf dot t.hps k.q) [] }),
        TableFits adim sz t ∧ t.buckets.length ≤ m + 1 := by
      intro t ht
      obtain ⟨t, htm, rfl⟩ := List.mem_map.mp ht
      obtain ⟨hf, hlen⟩ := h t htm
      have hlt : hashOf dot t.hps k.q < 18446744073709551616 := by
        have h64 : 2 ^ t.hps.length ≤ 2 ^ 64 := Nat.pow_le_pow_right (by omega) (by rw [hf.hps_len]; omega)
        have := hashOf_lt dot t.hps k.q
        omega
      have hlen' := Buckets.push_length t.buckets (hashOf dot t.hps k.q) []
      have hm' : m + 1 < 4294967296 := by simp only [List.length_cons] at hm; omega
      have hmem := Buckets.push_nil_mem t.buckets (hashOf dot t.hps k.q)
      refine ⟨⟨hf.size, hf.hps_len, hf.hps, Buckets.push_sorted _ hf.sorted _ _, ?_, ?_, ?_, ?_⟩, ?_⟩
      · simp only; omega
      · intro x hx
        rcases hmem x hx with h' | rfl
        · exact hf.keys x h'
        · exact hlt
      · intro x hx
        rcases hmem x hx with h' | rfl
        · exact hf.sizes x h'
        · simp
      · intro x hx
        rcases hmem x hx with h' | rfl
        · exact hf.ids x h'
        · simp
      · simp only; omega
    obtain ⟨e1, e2⟩ := ih _ ts' (m + 1) hb (by simp at hm; omega) hr2
    refine ⟨?_, e2⟩
    rw [e1, List.map_map]
    apply List.map_congr_left
    intro t _
    show HTable.full _ = _
    unfold HTable.full
    rw [Buckets.full_push]

/-- **C18, saved index.** Whatever queries ran before it, a save of the index followed by a load gives the
same index as a save before all queries: the same base data and tables, bucket for bucket.  (`seen`, the set
of distinct label strings, is only ever counted for a message; it is the one field not compared.) -/
theorem C18_reload_unaffected {V : Type} (nm : Part → P) (hnm : Function.Injective nm) (p : P)
    (hp : ∀ x, p ≠ nm x) (fs : FS P) (es : Nat) (o : LshObj) (rows : List Bytes) (hs : LshBuilt es o rows)
    (dot : Bytes → V → F32) (c : Ctx V) (earlier : List (LshCall V)) (tables' : List (HTable Bytes))
    (hrun : lshRun dot c o.tables earlier = .ok tables') (m : Nat)
    (hm : ∀ t ∈ o.tables, t.buckets.length ≤ m) (hroom : m + earlier.length < 4294967296)
    (sortL : List Label → List Label) (hsort : IsStrSort sortL) (j : Junk) (hj : j.WF) (jl : LshJunk)
    (hjl : jl.WF) (o0 : LshObj) (h0 : IsFresh o0.base) :
    ∃ ops1 ops2 o1 o2, lshSave es nm p o = .ok ops1 ∧ lshSave es nm p { o with tables := tables' } = .ok ops2 ∧
      lshLoad sortL j jl es nm p (runOps ops1 fs) o0 = .ok o1 ∧
      lshLoad sortL j jl es nm p (runOps ops2 fs) o0 = .ok o2 ∧
      o1.tables = o2.tables ∧ o1.numTables = o2.numTables ∧ o1.tableSize = o2.tableSize ∧
      ∃ seen, o1.base = { o2.base with seen := seen } := by
  obtain ⟨hfull, hfits⟩ := lshRun_full dot c o.base.adim o.tableSize hs.size earlier o.tables tables' m
    (fun t ht => ⟨hs.tables t ht, hm t ht⟩) hroom hrun
  have hlen : tables'.length = o.tables.length := by
    have := congrArg List.length hfull
    simpa using this
  have hs2 : LshBuilt es { o with tables := tables' } rows :=
    ⟨hs.base, by rw [hs.num]; exact hlen.symm, hs.num_lt, hs.size, hfits⟩
  obtain ⟨ops1, seen1, a1, b1⟩ := lshSave_load nm hnm p hp fs es o rows hs.saveable sortL hsort j hj jl hjl o0 h0
  obtain ⟨ops2, seen2, a2, b2⟩ := lshSave_load nm hnm p hp fs es _ rows hs2.saveable sortL hsort j hj jl hjl o0 h0
  refine ⟨ops1, ops2, _, _, a1, a2, b1, b2, ?_, rfl, rfl, seen1, rfl⟩
  dsimp only
  rw [List.map_take, List.map_take, hfull]

/-! ## Examples -/

/-- A table with one hyperplane over eight coordinates and one filled bucket. -/
def exLshTable : HTable Bytes := ⟨[List.replicate 32 0], 1, [(1, [0, 1])]⟩

/-- A built index over the points of `exObjPlain`. -/
def exLshObj : LshObj := ⟨exObjPlain, 1, 1, [exLshTable]⟩

theorem exLshObj_built : LshBuilt 1 exLshObj [[1, 2, 3], [4, 5, 6]] := by
  refine ⟨exObjPlain_saveable.toBaseSaveable, rfl, by decide, by decide, ?_⟩
  intro t ht
  have : t = exLshTable := by simpa [exLshObj] using ht
  subst this
  refine ⟨rfl, rfl, ?_, ?_, ?_, ?_, ?_, ?_⟩ <;> decide

/-- A scalar product under which the stored bucket is not the one a query falls into, so that the query
creates an empty bucket. -/
def exLshDot : Bytes → Bytes → F32 := fun _ _ => F32.zero

/-- Index and base files under distinct names. -/
theorem exNames (x : Part) : (none : Option Part) ≠ some x := by simp

def exLshJunk : LshJunk := ⟨0, [1, 1, 1, 1], List.replicate 8 1⟩

/-- The query creates an empty bucket in the index, and the saved index is the same all the same. -/
example : ∃ ts, lshRun exLshDot ((exLshObj.base.view 1 (fun _ _ => F32.zero)).ctx) exLshObj.tables
      [⟨[1, 2, 3, 0, 0, 0, 0, 0], 1, [0], none, []⟩] = .ok ts ∧ ts ≠ exLshObj.tables ∧
    ∃ ops1 ops2 o1 o2, lshSave 1 some none exLshObj = .ok ops1 ∧
      lshSave 1 some none { exLshObj with tables := ts } = .ok ops2 ∧
      lshLoad exStrSort exJunk exLshJunk 1 some none (runOps ops1 (fun _ => none)) ⟨IdxObj.fresh, 0, 0, []⟩ = .ok o1 ∧
      lshLoad exStrSort exJunk exLshJunk 1 some none (runOps ops2 (fun _ => none)) ⟨IdxObj.fresh, 0, 0, []⟩ = .ok o2 ∧
      o1.tables = o2.tables ∧ o1.numTables = o2.numTables ∧ o1.tableSize = o2.tableSize ∧
      ∃ seen, o1.base = { o2.base with seen := seen } :=
  ⟨[{ exLshTable with buckets := [(0, []), (1, [0, 1])] }], by decide, by decide,
    C18_reload_unaffected some (Option.some_injective _) none exNames _ 1 exLshObj _ exLshObj_built exLshDot
      ((exLshObj.base.view 1 (fun _ _ => F32.zero)).ctx) [⟨[1, 2, 3, 0, 0, 0, 0, 0], 1, [0], none, []⟩] _ (by decide) 1 (by decide) (by decide) exStrSort
      exStrSort_isStrSort exJunk exJunk_WF exLshJunk ⟨rfl, rfl⟩ _ fresh_isFresh⟩

/-- Two generations of an index with a filled bucket. -/
example : ∃ fs' o', lshRounds exStrSort exJunk exLshJunk 1 some none 2 ((fun _ => none), exLshObj) = .ok (fs', o') ∧
    exLshObj.tables ≠ [] ∧ o'.tables = [] := by
  obtain ⟨fs', o', h, h2, -⟩ := C19_second_generation_empty some (Option.some_injective _) none exNames
    (fun _ => none) 1 exLshObj _ exLshObj_built exStrSort exStrSort_isStrSort exJunk exJunk_WF exLshJunk ⟨rfl, rfl⟩ 0
  exact ⟨fs', o', h, by decide, h2⟩

/-! ## The theorems applied to the examples -/

/-- C19, one round, for the index with a filled bucket. -/
example := C19_one_round_partial some (Option.some_injective _) none exNames (fun _ => some [1]) 1 exLshObj _
  exLshObj_built exStrSort exStrSort_isStrSort exJunk exJunk_WF exLshJunk ⟨rfl, rfl⟩ ⟨IdxObj.fresh, 0, 0, []⟩
  fresh_isFresh

end Grann
