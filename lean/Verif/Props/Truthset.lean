import Verif.Model.Truthset
import Verif.Props.CachedIo
import Verif.Props.BinFile
/-!
# Ground-truth files (C46, C65, C66)
-/

namespace Grann

namespace Spec

/-- The `n` 4-byte words at the start of some bytes. -/
def words (n : Nat) (b : Bytes) : List Nat := (List.range n).map (fun i => unle ((b.drop (4 * i)).take 4))

/-- What a ground-truth file means: the number of queries `n`, the number of neighbours `d`, `n * d`
identifiers and possibly `n * d` distances, and nothing else. -/
def truth (f : Bytes) : Res Truth :=
  let n := unle (f.take 4)
  let d := unle ((f.drop 4).take 4)
  let m := n * d
  if f.length = 8 + 4 * m then .ok ⟨n, d, words m (f.drop 8), none⟩
  else if f.length = 8 + 8 * m then
    .ok ⟨n, d, words m (f.drop 8), some ((words m (f.drop (8 + 4 * m))).map F32.ofWord)⟩
  else .error .throw

end Spec

theorem un32s_words (n : Nat) (b : Bytes) : un32s n b = Spec.words n b := by
  unfold Spec.words
  induction n generalizing b with
  | zero => rfl
  | succ n ih =>
    rw [un32s, ih, List.range_succ_eq_map, List.map_cons, List.map_map]
    congr 1
    apply List.map_congr_left
    intro i _
    simp only [Function.comp, List.drop_drop]
    congr 3
    omega

theorem un32s_take (n m : Nat) (b : Bytes) (h : 4 * n ≤ m) : un32s n (b.take m) = un32s n b := by
  induction n generalizing b m with
  | zero => rfl
  | succ n ih =>
    rw [un32s, un32s, List.take_take, Nat.min_eq_left (by omega), List.drop_take, ih _ _ (by omega)]

/-- The reader after opening a file. -/
theorem CReader.open_at (f : Bytes) (hf : f.length < 9223372036854775808) (cacheSize : Nat) (mem0 : Nat → UInt8) :
    (CReader.open (some f) cacheSize mem0).At f f := by
  have hm : min cacheSize f.length ≤ f.length := Nat.min_le_right _ _
  unfold CReader.open
  dsimp only
  have e : (IStream.open (some f)).fail = false := rfl
  rw [e, if_neg (by simp), Option.getD_some]
  have hr : (IStream.open (some f)).read (min cacheSize f.length) =
      (f.take (min cacheSize f.length), ⟨f.drop (min cacheSize f.length), false, false⟩) :=
    IStream.read_ok (s := ⟨f, false, false⟩) ⟨rfl, rfl⟩ hm
  rw [hr]
  have hl : (f.take (min cacheSize f.length)).length = min cacheSize f.length := by
    rw [List.length_take]; omega
  have hd : ((List.range (min cacheSize f.length)).map mem0).drop (min cacheSize f.length) = [] := by
    apply List.drop_eq_nil_of_le; simp
  refine ⟨rfl, rfl, hf, ⟨rfl, rfl⟩, ?_, ?_, hm, Nat.zero_le _, ?_⟩
  · simp only [List.length_drop]; omega
  · simp only [hl, hd, List.append_nil]
  · simp only [hl, hd, List.append_nil, List.drop_zero, List.take_append_drop]

theorem CReader.At.readWord {r : CReader} {f todo : Bytes} (h : r.At f todo) (old : Bytes) (ho : old.length = 4) :
    if 4 ≤ todo.length then ∃ r', r.readWord old = .ok (unle (todo.take 4), r') ∧ r'.At f (todo.drop 4)
    else r.readWord old = .error .throw := by
  have := h.read 4 (by omega) old ho
  unfold CReader.readWord
  rw [ho]
  split
  · rename_i h4
    rw [if_pos h4] at this
    obtain ⟨r', e, hr⟩ := this
    exact ⟨r', by rw [e]; rfl, hr⟩
  · rename_i h4
    rw [if_neg h4] at this
    rw [this]; rfl

theorem CReader.At.todo_lt {r : CReader} {f todo : Bytes} (h : r.At f todo) :
    todo.length < 18446744073709551616 := by
  have h1 := h.cs_le
  have h2 := h.lt
  have h3 := h.rest_le
  rw [← h.todo, List.length_append, List.length_drop, h.cacheLen]
  omega

theorem CReader.At.readArr {r : CReader} {f todo : Bytes} (h : r.At f todo) (cnt : Nat) (mem : Nat → UInt8)
    (hl : todo.length < 9223372036854775808) :
    if 4 * cnt ≤ todo.length then ∃ r', r.readArr cnt mem = .ok (Spec.words cnt todo, r') ∧
      r'.At f (todo.drop (4 * cnt))
    else r.readArr cnt mem = .error .throw := by
  unfold CReader.readArr
  by_cases hc : 9223372036854775807 < cnt * 4
  · rw [if_neg (by omega), if_pos hc]
  · rw [if_neg hc]
    have hu : u64 (cnt * 4) = cnt * 4 := by unfold u64; omega
    rw [hu]
    have := h.read (cnt * 4) (by omega) ((List.range (cnt * 4)).map mem) (by simp)
    split
    · rename_i h4
      rw [if_pos (by omega)] at this
      obtain ⟨r', e, hr⟩ := this
      refine ⟨r', ?_, by rw [Nat.mul_comm]; exact hr⟩
      rw [e, Res.ok_bind]
      dsimp only
      rw [un32s_take _ _ _ (by omega), un32s_words]
    · rename_i h4
      rw [if_neg (by omega)] at this
      rw [this]; rfl

/-- The header of a file read through the cache. -/
theorem truth_header (f : Bytes) (hf : f.length < 9223372036854775808) (mem0 : Nat → UInt8)
    (j1 j2 : Bytes) (h1 : j1.length = 4) (h2 : j2.length = 4) {α : Type} (k : Nat → Nat → CReader → Res α) :
    (8 ≤ f.length ∧ ∃ r, r.At f (f.drop 8) ∧
      (do let (n, r) ← (CReader.open (some f) truthBlk mem0).readWord j1
          let (d, r) ← r.readWord j2
          k n d r) = k (unle (f.take 4)) (unle ((f.drop 4).take 4)) r) ∨
    (f.length < 8 ∧
      (do let (n, r) ← (CReader.open (some f) truthBlk mem0).readWord j1
          let (d, r) ← r.readWord j2
          k n d r) = .error .throw) := by
  have h0 := CReader.open_at f hf truthBlk mem0
  have hw := h0.readWord j1 h1
  by_cases h4 : 4 ≤ f.length
  · rw [if_pos h4] at hw
    obtain ⟨r1, e1, hr1⟩ := hw
    have hw2 := hr1.readWord j2 h2
    by_cases h8 : 4 ≤ (f.drop 4).length
    · rw [if_pos h8] at hw2
      obtain ⟨r2, e2, hr2⟩ := hw2
      rw [List.drop_drop] at hr2
      rw [List.length_drop] at h8
      refine .inl ⟨by omega, r2, hr2, ?_⟩
      rw [e1, Res.ok_bind]; dsimp only; rw [e2, Res.ok_bind]
    · rw [if_neg h8] at hw2
      rw [List.length_drop] at h8
      refine .inr ⟨by omega, ?_⟩
      rw [e1, Res.ok_bind]; dsimp only; rw [hw2]; rfl
  · rw [if_neg h4] at hw
    refine .inr ⟨by omega, ?_⟩
    rw [hw]; rfl

theorem unle_take_lt (b : Bytes) (h : 4 ≤ b.length) : unle (b.take 4) < 4294967296 := by
  have := unle_lt (b.take 4)
  rw [List.length_take, Nat.min_eq_left h] at this
  exact this

theorem mul_lt_2_64 {n d : Nat} (hn : n < 4294967296) (hd : d < 4294967296) : n * d < 18446744073709551616 := by
  calc n * d ≤ n * 4294967296 := Nat.mul_le_mul_left _ hd.le
    _ < 4294967296 * 4294967296 := Nat.mul_lt_mul_of_pos_right hn (by omega)
    _ = _ := by norm_num

/-- **C46.** `load_truthset` gives what the file means and throws for every file that is not a ground-truth
file, in particular for every other length; wrap-around of the computed sizes changes nothing. -/
theorem C46_load (f : Bytes) (hf : f.length < 9223372036854775808) (j : TruthJunk) (h1 : j.npts.length = 4)
    (h2 : j.dim.length = 4) : loadTruth (some f) j = Spec.truth f := by
  have hsz : (CReader.open (some f) truthBlk j.cache).fsize = f.length :=
    (CReader.open_at f hf truthBlk j.cache).fsize
  unfold loadTruth
  dsimp only
  rw [hsz]
  rcases truth_header f hf j.cache j.npts j.dim h1 h2 (fun npts dim r =>
    if decide (f.length = u64 (npts * dim * 4 + 8)) then do
      let (ids, _) ← r.readArr (npts * dim) j.ids
      .ok (⟨npts, dim, ids, none⟩ : Truth)
    else if decide (f.length = u64 (2 * npts * dim * 4 + 8)) then do
      let (ids, r) ← r.readArr (npts * dim) j.ids
      let (dists, _) ← r.readArr (npts * dim) j.dists
      .ok ⟨npts, dim, ids, some (dists.map F32.ofWord)⟩
    else .error .throw) with ⟨h8, r, hr, e⟩ | ⟨h8, e⟩
  · rw [e]
    unfold Spec.truth
    dsimp only
    have hn := unle_take_lt f (by omega)
    have hd := unle_take_lt (f.drop 4) (by rw [List.length_drop]; omega)
    generalize unle (f.take 4) = n at *
    generalize unle ((f.drop 4).take 4) = d at *
    have hm := mul_lt_2_64 hn hd
    have em : 2 * n * d * 4 = 8 * (n * d) := by ring
    rw [em]
    generalize n * d = m at *
    have hdl : (f.drop 8).length = f.length - 8 := List.length_drop
    have hrd := hr.readArr m j.ids (by omega)
    simp only [decide_eq_true_eq]
    unfold u64
    by_cases c1 : f.length = (m * 4 + 8) % 18446744073709551616
    · rw [if_pos c1]
      by_cases hw : m * 4 + 8 < 18446744073709551616
      · rw [if_pos (by omega)] at hrd
        obtain ⟨r', e', _⟩ := hrd
        rw [e', Res.ok_bind, if_pos (by omega)]
      · rw [if_neg (by omega)] at hrd
        rw [hrd, if_neg (by omega), if_neg (by omega)]; rfl
    · have s1 : ¬ f.length = 8 + 4 * m := by omega
      rw [if_neg c1, if_neg s1]
      by_cases c2 : f.length = (8 * m + 8) % 18446744073709551616
      · rw [if_pos c2]
        by_cases hw : 8 * m + 8 < 18446744073709551616
        · rw [if_pos (by omega)] at hrd
          obtain ⟨r', e', hr'⟩ := hrd
          rw [List.drop_drop] at hr'
          have hdl2 : (f.drop (8 + 4 * m)).length = f.length - (8 + 4 * m) := List.length_drop
          have hrd2 := hr'.readArr m j.dists (by omega)
          rw [if_pos (by omega)] at hrd2
          obtain ⟨r'', e'', _⟩ := hrd2
          rw [e', Res.ok_bind]
          dsimp only
          rw [e'', Res.ok_bind, if_pos (by omega)]
        · rw [if_neg (by omega)] at hrd
          rw [hrd, if_neg (by omega)]; rfl
      · have s2 : ¬ f.length = 8 + 8 * m := by omega
        rw [if_neg c2, if_neg s2]
  · rw [e]
    unfold Spec.truth
    dsimp only
    rw [if_neg (by omega), if_neg (by omega)]

theorem CReader.read_cached {r : CReader} {n : Nat} (hc : r.cache.length = r.cacheSize)
    (hs : r.cacheSize < 18446744073709551616) (hn : r.curOff + n ≤ r.cacheSize) (buf : Bytes) :
    ∃ b, r.read n buf = .ok (b, { r with curOff := r.curOff + n }) := by
  unfold CReader.read
  rw [sub64_of_le (by omega) hs, if_pos (by omega)]
  unfold copyBytes
  rw [if_pos (by omega)]
  exact ⟨_, rfl⟩

theorem CReader.open_none (cs : Nat) (hc : cs ≤ 18446744073709551615) (mem : Nat → UInt8) :
    CReader.open none cs mem =
      ⟨0, ⟨[], false, true⟩, (List.range cs).map mem, cs, 0, 18446744073709551615⟩ := by
  unfold CReader.open
  dsimp only
  have e : (IStream.open none).fail = true := rfl
  have hr : ∀ n, (IStream.open none).read n = ([], ⟨[], false, true⟩) := fun n => rfl
  rw [e, if_pos rfl, Nat.min_eq_left hc, hr]
  simp

/-- **C46.** A missing file is rejected, whatever the uninitialised cache contains. -/
theorem C46_missing (j : TruthJunk) (h1 : j.npts.length = 4) (h2 : j.dim.length = 4) :
    loadTruth none j = .error .throw := by
  unfold loadTruth
  dsimp only
  have ho := CReader.open_none truthBlk (by unfold truthBlk; omega) j.cache
  obtain ⟨r, hr⟩ : ∃ r, CReader.open none truthBlk j.cache = r := ⟨_, rfl⟩
  rw [hr] at ho
  have hfs : r.fsize = 18446744073709551615 := by rw [ho]
  have hcs : r.cacheSize = truthBlk := by rw [ho]
  have hoff : r.curOff = 0 := by rw [ho]
  have hcl : r.cache.length = truthBlk := by rw [ho, List.length_map, List.length_range]
  rw [hr]
  have ht : truthBlk = 67108864 := rfl
  obtain ⟨b, e⟩ := CReader.read_cached (r := r) (n := 4) (by rw [hcl, hcs]) (by omega) (by omega) j.npts
  unfold CReader.readWord
  rw [h1, e]
  simp only [Res.ok_bind]
  obtain ⟨b2, e2⟩ := CReader.read_cached (r := { r with curOff := r.curOff + 4 }) (n := 4)
    (by show r.cache.length = r.cacheSize; rw [hcl, hcs]) (by show r.cacheSize < _; omega)
    (by show r.curOff + 4 + 4 ≤ r.cacheSize; omega) j.dim
  rw [h2, e2]
  simp only [Res.ok_bind, hfs, decide_eq_true_eq]
  unfold u64
  generalize unle b = n
  generalize unle b2 = d
  have em : 2 * n * d * 4 = 4 * (2 * n * d) := by ring
  rw [em]
  generalize n * d = m
  generalize 2 * n * d = m2
  rw [if_neg (by omega), if_neg (by omega)]

/-- The bytes of a matrix of 4-byte words. -/
theorem words_le32s (l : List Nat) (h : ∀ x ∈ l, x < 4294967296) (rest : Bytes) :
    Spec.words l.length (le32s l ++ rest) = l := by
  rw [← un32s_words, un32s_le32s l h]

theorem F32.ofWord_bits (x : F32) : F32.ofWord x.bits.toNat = x := by
  unfold F32.ofWord; simp

/-- **C46, round trip with distances.** -/
theorem C46_with_distances {P : Type} [DecidableEq P] (p : P) (fs : FS P) (n k : Nat) (ids : List Nat)
    (dists : List F32) (hn : n < 4294967296) (hk : k < 4294967296) (hpos : 0 < n * k)
    (hlen : ids.length = n * k) (hlen2 : dists.length = n * k) (hids : ∀ x ∈ ids, x < 4294967296)
    (hsz : n * k < 1152921504606846975) (j : TruthJunk) (h1 : j.npts.length = 4) (h2 : j.dim.length = 4) :
    loadTruth (runOps (saveTruth p (le32s ids) (le32s (dists.map (·.bits.toNat))) n k) fs p) j =
      .ok ⟨n, k, ids, some dists⟩ := by
  have hf : runOps (saveTruth p (le32s ids) (le32s (dists.map (·.bits.toNat))) n k) fs p =
      some (le 4 n ++ (le 4 k ++ (le32s ids ++ le32s (dists.map (·.bits.toNat))))) := by
    simp [saveTruth, runOps, FOp.run]
  have hd8 : ∀ x : Bytes, (le 4 n ++ (le 4 k ++ x)).drop 8 = x := by
    intro x
    rw [show 8 = 4 + 4 from rfl, ← List.drop_drop, List.drop_left' (le_length _ _), List.drop_left' (le_length _ _)]
  have hl : (le 4 n ++ (le 4 k ++ (le32s ids ++ le32s (dists.map (·.bits.toNat))))).length = 8 + 8 * (n * k) := by
    simp only [List.length_append, le_length, le32s_length, List.length_map, hlen, hlen2]; omega
  rw [hf, C46_load _ (by omega) j h1 h2]
  unfold Spec.truth
  dsimp only
  rw [hl, List.drop_left' (le_length _ _), List.take_left' (le_length _ _), List.take_left' (le_length _ _),
    unle_le_of_lt (by omega), unle_le_of_lt (by omega), ← List.drop_drop, hd8,
    if_neg (by omega), if_pos rfl, List.drop_left' (by rw [le32s_length, hlen])]
  have w1 := words_le32s ids hids (le32s (dists.map (·.bits.toNat)))
  have w2 := words_le32s (dists.map (·.bits.toNat)) (by
    intro x hx
    obtain ⟨y, _, rfl⟩ := List.mem_map.mp hx
    exact y.bits.isLt) []
  rw [hlen] at w1
  rw [List.length_map, hlen2, List.append_nil] at w2
  rw [w1, w2, List.map_map]
  have : (F32.ofWord ∘ fun x : F32 => x.bits.toNat) = id := by
    funext x; exact F32.ofWord_bits x
  rw [this, List.map_id]

/-- **C46, round trip without distances** (written with `save_bin`). -/
theorem C46_only_ids {P : Type} [DecidableEq P] (p : P) (fs : FS P) (n k : Nat) (ids : List Nat)
    (hn : n < 4294967296) (hk : k < 4294967296)
    (hlen : ids.length = n * k) (hids : ∀ x ∈ ids, x < 4294967296)
    (hsz : n * k < 1152921504606846975) (j : TruthJunk) (h1 : j.npts.length = 4) (h2 : j.dim.length = 4) :
    loadTruth (runOps (saveBin p n k (le32s ids)) fs p) j = .ok ⟨n, k, ids, none⟩ := by
  have hd8 : ∀ x : Bytes, (le 4 n ++ (le 4 k ++ x)).drop 8 = x := by
    intro x
    rw [show 8 = 4 + 4 from rfl, ← List.drop_drop, List.drop_left' (le_length _ _), List.drop_left' (le_length _ _)]
  have hl : (le 4 n ++ (le 4 k ++ le32s ids)).length = 8 + 4 * (n * k) := by
    simp only [List.length_append, le_length, le32s_length, hlen]; omega
  rw [saveBin_run]
  simp only [if_true]
  rw [C46_load _ (by omega) j h1 h2]
  unfold Spec.truth
  dsimp only
  rw [hl, List.drop_left' (le_length _ _), List.take_left' (le_length _ _), List.take_left' (le_length _ _),
    unle_le_of_lt (by omega), unle_le_of_lt (by omega), hd8, if_pos rfl]
  have w1 := words_le32s ids hids []
  rw [hlen, List.append_nil] at w1
  rw [w1]

def exTruthJunk : TruthJunk := ⟨fun _ => 7, [1, 2, 3, 4], [5, 6, 7, 8], fun _ => 9, fun _ => 9⟩

example : loadTruth (runOps (saveTruth () (le32s [4, 9]) (le32s ([F32.one, ⟨0x40000000#32⟩].map (·.bits.toNat))) 1 2)
    (fun _ => some [1]) ()) exTruthJunk = .ok ⟨1, 2, [4, 9], some [F32.one, ⟨0x40000000#32⟩]⟩ := by
  exact C46_with_distances () _ 1 2 [4, 9] [F32.one, ⟨0x40000000#32⟩] (by omega) (by omega) (by omega) rfl rfl
    (by decide) (by omega) exTruthJunk rfl rfl

example : Spec.truth ([1, 0, 0, 0, 2, 0, 0, 0, 4, 0, 0, 0, 9, 0, 0, 0]) = .ok ⟨1, 2, [4, 9], none⟩ := by decide

example : Spec.truth ([1, 0, 0, 0, 2, 0, 0, 0, 4, 0, 0, 0, 9, 0, 0, 0, 1]) = .error .throw := by decide

/-- **C46, empty matrix.** With no entries the two formats have the same length: a file written with (zero)
distances is loaded as one without. -/
theorem C46_empty {P : Type} [DecidableEq P] (p : P) (fs : FS P) (n : Nat) (hn : n < 4294967296)
    (j : TruthJunk) (h1 : j.npts.length = 4) (h2 : j.dim.length = 4) :
    loadTruth (runOps (saveTruth p [] [] n 0) fs p) j = .ok ⟨n, 0, [], none⟩ := by
  have := C46_only_ids p fs n 0 [] hn (by omega) rfl (by simp) (by omega) j h1 h2
  rw [saveBin_run] at this
  simp only [if_true, le32s, List.flatMap_nil, List.append_nil] at this
  have e : runOps (saveTruth p [] [] n 0) fs p = some (le 4 n ++ le 4 0) := by
    simp [saveTruth, runOps, FOp.run]
  rw [e, this]

/-! ## The theorems applied to examples -/

example := C46_load [1, 0, 0, 0, 2, 0, 0, 0, 4, 0, 0, 0, 9, 0, 0, 0, 1] (by decide) exTruthJunk rfl rfl
example := C46_missing exTruthJunk rfl rfl
example := C46_only_ids () (fun _ => some [1]) 1 2 [4, 9] (by decide) (by decide) rfl (by decide) (by decide)
  exTruthJunk rfl rfl
example := C46_empty () (fun _ => some [1]) 3 (by decide) exTruthJunk rfl rfl

end Grann
