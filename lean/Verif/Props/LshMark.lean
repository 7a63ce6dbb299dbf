import Verif.Props.LshDamage

namespace Grann

variable {P : Type} [DecidableEq P]

/-- The bytes of a table with other markers. -/
def Spec.tableWith (m1 m2 m3 : UInt8) (t : HTable Bytes) : Bytes :=
  [m1] ++ (t.hps.flatten ++ ([m2] ++ (le 4 t.buckets.length ++ (t.buckets.flatMap bucketBytes ++ [m3]))))

theorem readTables_exit (j : LshJunk) (hj : j.WF) (sz adim : Nat) (hsz : sz ≤ 64) (n : Nat) (r : Bytes)
    (hr : readTables j sz adim n ⟨r, false, false⟩ = .error .exit) :
    ∀ (ts : List (HTable Bytes)), (∀ t ∈ ts, TableFits adim sz t) →
      readTables j sz adim (ts.length + n) ⟨ts.flatMap tableBytes ++ r, false, false⟩ = .error .exit := by
  intro ts
  induction ts with
  | nil => intro _; simpa using hr
  | cons t ts ih =>
    intro ht
    have h := ht t (by simp)
    have hu : u32 t.buckets.length = t.buckets.length := by rw [u32, Nat.mod_eq_of_lt h.buckets_lt]
    have e : (t :: ts).flatMap tableBytes ++ r = 64 :: (t.hps.flatten ++ (37 :: (le 4 t.buckets.length ++
        (t.buckets.flatMap bucketBytes ++ (36 :: (ts.flatMap tableBytes ++ r)))))) := by
      simp [tableBytes, hu]
    rw [show (t :: ts).length + n = (ts.length + n) + 1 by rw [List.length_cons]; omega, readTables, e, IStream.get_cons]
    dsimp only
    rw [if_neg (by decide), if_neg (by omega)]
    have hh := readHps_ok j hj adim t.hps (37 :: (le 4 t.buckets.length ++
        (t.buckets.flatMap bucketBytes ++ (36 :: (ts.flatMap tableBytes ++ r))))) h.hps
    rw [h.hps_len] at hh
    rw [hh]
    dsimp only
    rw [IStream.get_cons]
    dsimp only
    rw [if_neg (by decide), IStream.readInt_le t.buckets.length 4 _ _ hj.1 h.buckets_lt]
    dsimp only
    rw [readBuckets_ok j hj t.buckets [] _ (by simpa using h.sorted) h.keys h.sizes h.ids]
    dsimp only
    rw [IStream.get_cons]
    dsimp only
    rw [if_neg (by decide), ih (fun x hx => ht x (by simp [hx]))]
    rfl

theorem readTables_mark (j : LshJunk) (hj : j.WF) (sz adim : Nat) (hsz : sz ≤ 64) (n : Nat) (r : Bytes) (t : HTable Bytes)
    (h : TableFits adim sz t) (m1 m2 m3 : UInt8) (hm : ¬ (m1 = 64 ∧ m2 = 37 ∧ m3 = 36)) :
    readTables j sz adim (n + 1) ⟨Spec.tableWith m1 m2 m3 t ++ r, false, false⟩ = .error .exit := by
  have e : Spec.tableWith m1 m2 m3 t ++ r = m1 :: (t.hps.flatten ++ (m2 :: (le 4 t.buckets.length ++
      (t.buckets.flatMap bucketBytes ++ (m3 :: r))))) := by
    simp [Spec.tableWith]
  rw [readTables, e, IStream.get_cons]
  dsimp only
  by_cases h1 : m1 = 64
  · rw [if_neg (by simp [h1]), if_neg (by omega)]
    have hh := readHps_ok j hj adim t.hps (m2 :: (le 4 t.buckets.length ++
        (t.buckets.flatMap bucketBytes ++ (m3 :: r)))) h.hps
    rw [h.hps_len] at hh
    rw [hh]
    dsimp only
    rw [IStream.get_cons]
    dsimp only
    by_cases h2 : m2 = 37
    · rw [if_neg (by simp [h2]), IStream.readInt_le t.buckets.length 4 _ _ hj.1 h.buckets_lt]
      dsimp only
      rw [readBuckets_ok j hj t.buckets [] _ (by simpa using h.sorted) h.keys h.sizes h.ids]
      dsimp only
      rw [IStream.get_cons]
      dsimp only
      rw [if_pos (fun h3 => hm ⟨h1, h2, h3⟩)]
    · rw [if_pos h2]
  · rw [if_pos h1]

/-- **C107, what holds for hash tables.**  A file in which the first character or one of the three markers of a table has changed
is reported. -/
theorem C107_lsh_marker_partial (nm : Part → P) (hnm : Function.Injective nm) (p : P) (hp : ∀ x, p ≠ nm x) (fs : FS P) (es : Nat)
    (o : LshObj) (rows : List Bytes) (hs : LshBuilt es o rows) (ts us : List (HTable Bytes)) (t : HTable Bytes)
    (hts : o.tables = ts ++ t :: us) (m0 m1 m2 m3 : UInt8) (hm : ¬ (m0 = 42 ∧ m1 = 64 ∧ m2 = 37 ∧ m3 = 36))
    (sortL : List Label → List Label) (hsort : IsStrSort sortL) (j : Junk) (hj : j.WF) (jl : LshJunk) (hjl : jl.WF)
    (o0 : LshObj) (h0 : IsFresh o0.base) :
    ∃ ops, lshSave es nm p o = .ok ops ∧
      lshLoad sortL j jl es nm p (fun q => if q = p then some (m0 :: (le 4 o.numTables ++ (le 4 o.tableSize ++
        (ts.flatMap tableBytes ++ (Spec.tableWith m1 m2 m3 t ++ us.flatMap tableBytes))))) else runOps ops fs q) o0 = .error .exit := by
  obtain ⟨b, ops, hbo, hbh, ho, hrun⟩ := lshSave_run nm hnm p hs.base fs
  refine ⟨ops, ho, ?_⟩
  obtain ⟨f, hf⟩ : ∃ f : Bytes, f = m0 :: (le 4 o.numTables ++ (le 4 o.tableSize ++
        (ts.flatMap tableBytes ++ (Spec.tableWith m1 m2 m3 t ++ us.flatMap tableBytes)))) := ⟨_, rfl⟩
  rw [← hf]
  have hfs : (fun q => if q = p then some f else runOps ops fs q) = fun q => if q = p then some f else runOps b fs q := by
    rw [hrun]
    funext q
    dsimp only
    split <;> rfl
  rw [hfs]
  obtain ⟨b', hba, -, hl⟩ := lshLoad_base nm p hp _ es o rows hs.base hbh sortL hsort j hj o0 h0 f
  unfold lshLoad
  rw [hl, Res.ok_bind]
  dsimp only
  rw [if_pos rfl, hf]
  unfold IStream.open
  dsimp only
  rw [IStream.get_cons]
  dsimp only
  by_cases h42 : m0 = 42
  · rw [if_neg (by simp [h42]), IStream.readInt_le _ 4 _ _ hjl.1 hs.num_lt]
    dsimp only
    rw [IStream.readInt_le _ 4 _ _ hjl.1 (by have := hs.size; omega)]
    dsimp only
    have hT := hs.tables
    rw [hts] at hT
    have hN : o.numTables = ts.length + (us.length + 1) := by rw [hs.num, hts]; simp
    rw [hN, hba, readTables_exit jl hjl o.tableSize o.base.adim hs.size (us.length + 1) _
      (readTables_mark jl hjl o.tableSize o.base.adim hs.size us.length _ t (hT t (by simp)) m1 m2 m3
        (fun h => hm ⟨h42, h⟩)) ts (fun u hu => hT u (by simp [hu]))]
    rfl
  · rw [if_pos h42]

/-- With the right markers these are the bytes that were saved. -/
theorem lshBytes_with (es : Nat) (o : LshObj) (rows : List Bytes) (hs : LshBuilt es o rows) (ts us : List (HTable Bytes)) (t : HTable Bytes)
    (hts : o.tables = ts ++ t :: us) : Spec.lshBytes o = 42 :: (le 4 o.numTables ++ (le 4 o.tableSize ++
        (ts.flatMap tableBytes ++ (Spec.tableWith 64 37 36 t ++ us.flatMap tableBytes)))) := by
  have h := hs.tables t (by rw [hts]; simp)
  have hu : u32 t.buckets.length = t.buckets.length := by rw [u32, Nat.mod_eq_of_lt h.buckets_lt]
  rw [Spec.lshBytes, hts]
  simp [tableBytes, Spec.tableWith, hu]

example := C107_lsh_marker_partial some (Option.some_injective _) none exNames (fun _ => none) 1 exLshObj _ exLshObj_built
  [] [] exLshTable rfl 42 64 37 35 (by decide) exStrSort exStrSort_isStrSort exJunk exJunk_WF
  exLshJunk ⟨rfl, rfl⟩ ⟨IdxObj.fresh, 0, 0, []⟩ fresh_isFresh

end Grann
