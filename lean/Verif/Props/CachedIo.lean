import Verif.Model.CachedIo
/-!
# C42, C43: cached reading and writing
-/

namespace Grann

/-! ## C42 -/

/-- Reading consecutive pieces of the given sizes: the bytes, or an exception as soon as a piece is longer
than what is left. -/
def Spec.readPieces (f : Bytes) : List Nat → Res (List Bytes)
  | [] => .ok []
  | n :: ns =>
    if n ≤ f.length then do
      let bs ← Spec.readPieces (f.drop n) ns
      .ok (f.take n :: bs)
    else .error .throw

/-- The state of a reader that has delivered all but the last `todo` bytes of a file. -/
structure CReader.At (r : CReader) (f todo : Bytes) : Prop where
  len : r.len = f.length
  fsize : r.fsize = f.length
  lt : f.length < 9223372036854775808
  ok : r.reader.fail = false ∧ r.reader.eof = false
  rest_le : r.reader.rest.length ≤ f.length
  cacheLen : r.cache.length = r.cacheSize
  cs_le : r.cacheSize ≤ f.length
  off : r.curOff ≤ r.cacheSize
  todo : r.cache.drop r.curOff ++ r.reader.rest = todo

theorem sub64_of_le {a b : Nat} (h : b ≤ a) (ha : a < 18446744073709551616) : sub64 a b = a - b := by
  unfold sub64 u64; omega

theorem IStream.read_ok {s : IStream} (h : s.fail = false ∧ s.eof = false) {n : Nat} (hn : n ≤ s.rest.length) :
    s.read n = (s.rest.take n, { s with rest := s.rest.drop n }) := by
  unfold IStream.read
  rw [h.1, h.2, if_neg (by simp), if_pos hn]

theorem CReader.At.tell {r : CReader} {f todo : Bytes} (h : r.At f todo) :
    sub64 r.fsize (r.reader.tell r.len) = r.reader.rest.length := by
  have := h.rest_le
  have := h.lt
  unfold IStream.tell
  rw [h.ok.1, if_neg (by simp), h.len, h.fsize, sub64_of_le (by omega) (by omega)]
  omega

theorem CReader.At.refill {r : CReader} {f todo : Bytes} (h : r.At f todo) (ho : r.curOff = r.cacheSize) :
    r.refill.At f todo := by
  unfold CReader.refill
  rw [h.tell]
  split
  · rename_i hc
    have e := IStream.read_ok h.ok hc
    rw [e]
    dsimp only
    have hl : (r.reader.rest.take r.cacheSize).length = r.cacheSize := by
      rw [List.length_take]; omega
    have h1 := h.rest_le
    have ht := h.todo
    rw [ho, ← h.cacheLen, List.drop_length, List.nil_append] at ht
    refine ⟨h.len, h.fsize, h.lt, h.ok, ?_, ?_, h.cs_le, Nat.zero_le _, ?_⟩
    · simp only [List.length_drop]; omega
    · have hc' := h.cacheLen
      simp only [List.length_append, List.length_drop, hl]; omega
    · simp only [List.drop_zero]
      rw [hl, ← h.cacheLen, List.drop_length, List.append_nil, List.take_append_drop, ht]
  · exact h

theorem CReader.At.read {r : CReader} {f todo : Bytes} (h : r.At f todo) (n : Nat)
    (hn64 : n < 18446744073709551616) (buf : Bytes) (hb : buf.length = n) :
    if n ≤ todo.length then ∃ r', r.read n buf = .ok (todo.take n, r') ∧ r'.At f (todo.drop n)
    else r.read n buf = .error .throw := by
  have hoff := h.off
  have hcs := h.cs_le
  have hlt := h.lt
  have hcl := h.cacheLen
  have hrl := h.rest_le
  have htl : todo.length = (r.cacheSize - r.curOff) + r.reader.rest.length := by
    rw [← h.todo, List.length_append, List.length_drop, hcl]
  have hdl : (r.cache.drop r.curOff).length = r.cacheSize - r.curOff := by rw [List.length_drop, hcl]
  have hsub : sub64 r.cacheSize r.curOff = r.cacheSize - r.curOff := sub64_of_le hoff (by omega)
  unfold CReader.read
  rw [hsub]
  by_cases hc : n ≤ r.cacheSize - r.curOff
  · rw [if_pos (by omega), if_pos hc]
    unfold copyBytes
    rw [if_pos (by omega)]
    refine ⟨{ r with curOff := r.curOff + n }, ?_, ?_⟩
    · rw [Res.ok_bind, ← h.todo, List.take_append_of_le_length (by omega)]
    · refine ⟨h.len, h.fsize, h.lt, h.ok, h.rest_le, h.cacheLen, h.cs_le, ?_, ?_⟩
      · simp only; omega
      · simp only
        rw [← h.todo, List.drop_append_of_le_length (by omega), List.drop_drop]
  · rw [if_neg hc]
    dsimp only
    rw [h.tell, sub64_of_le (by omega) hn64]
    by_cases hn : n ≤ todo.length
    · rw [if_pos hn, if_neg (by omega)]
      unfold copyBytes
      rw [if_pos (by omega), Res.ok_bind, IStream.read_ok h.ok (by omega)]
      dsimp only
      rw [List.take_of_length_le (by omega : (r.cache.drop r.curOff).length ≤ _)]
      refine ⟨CReader.refill { r with
        reader := { r.reader with rest := r.reader.rest.drop (n - (r.cacheSize - r.curOff)) }
        curOff := r.cacheSize }, ?_, CReader.At.refill (todo := todo.drop n) (f := f) ?_ rfl⟩
      · have e : (r.cache.drop r.curOff).length + (r.reader.rest.take (n - (r.cacheSize - r.curOff))).length = n := by
          rw [hdl, List.length_take]; omega
        rw [e, ← hb, List.drop_length, List.append_nil, hb]
        have e2 : todo.take n = r.cache.drop r.curOff ++ r.reader.rest.take (n - (r.cacheSize - r.curOff)) := by
          rw [← h.todo, List.take_append, List.take_of_length_le (by omega), hdl]
        rw [e2]
      · refine ⟨h.len, h.fsize, h.lt, h.ok, ?_, h.cacheLen, h.cs_le, Nat.le_refl _, ?_⟩
        · simp only [List.length_drop]; omega
        · simp only
          have e1 : r.cache.drop r.cacheSize = [] := List.drop_eq_nil_of_le (by omega)
          have e2 : (r.cache.drop r.curOff).drop n = [] := List.drop_eq_nil_of_le (by omega)
          rw [e1, List.nil_append, ← h.todo, List.drop_append, hdl, e2, List.nil_append]
    · rw [if_neg hn, if_pos (by omega)]

/-- **C42.** The cached reader gives the pieces of the file in order and throws at the first read that asks
for more than what is left, for every cache size. -/
theorem C42_cached_reads (f : Bytes) (hf : f.length < 9223372036854775808) (cacheSize : Nat)
    (mem0 : Nat → UInt8) (mem : Nat → Nat → UInt8) (sizes : List Nat)
    (hs : ∀ n ∈ sizes, n < 18446744073709551616) :
    CReader.reads mem 0 (CReader.open (some f) cacheSize mem0) sizes = Spec.readPieces f sizes := by
  have h0 : (CReader.open (some f) cacheSize mem0).At f f := by
    have hm : min cacheSize f.length ≤ f.length := Nat.min_le_right _ _
    unfold CReader.open
    dsimp only
    have e : (IStream.open (some f)).fail = false := rfl
    rw [e, if_neg (by simp), Option.getD_some]
    have hr : (IStream.open (some f)).read (min cacheSize f.length) =
        (f.take (min cacheSize f.length), ⟨f.drop (min cacheSize f.length), false, false⟩) :=
      IStream.read_ok (s := ⟨f, false, false⟩) ⟨rfl, rfl⟩ hm
    rw [hr]
    have hl : (f.take (min cacheSize f.length)).length = min cacheSize f.length := by
      rw [List.length_take]; omega
    have hd : ((List.range (min cacheSize f.length)).map mem0).drop (min cacheSize f.length) = [] := by
      apply List.drop_eq_nil_of_le; simp
    refine ⟨rfl, rfl, hf, ⟨rfl, rfl⟩, ?_, ?_, hm, Nat.zero_le _, ?_⟩
    · simp only [List.length_drop]; omega
    · simp only [hl, hd, List.append_nil]
    · simp only [hl, hd, List.append_nil, List.drop_zero, List.take_append_drop]
  have key : ∀ (sizes : List Nat) (k : Nat) (r : CReader) (todo : Bytes), r.At f todo →
      (∀ n ∈ sizes, n < 18446744073709551616) → CReader.reads mem k r sizes = Spec.readPieces todo sizes := by
    intro sizes
    induction sizes with
    | nil => intros; rfl
    | cons n ns ih =>
      intro k r todo hr hs
      have h := hr.read n (hs n (by simp)) ((List.range n).map (mem k)) (by simp)
      unfold CReader.reads Spec.readPieces
      by_cases hn : n ≤ todo.length
      · rw [if_pos hn] at h ⊢
        obtain ⟨r', e, hr'⟩ := h
        rw [e, Res.ok_bind]
        dsimp only
        rw [ih (k + 1) r' _ hr' (fun x hx => hs x (by simp [hx]))]
      · rw [if_neg hn] at h ⊢
        rw [h]; rfl
  exact key sizes 0 _ f h0 hs

/-- A file of 7 bytes read with a cache of 3, across a refill and directly. -/
example : CReader.reads (fun _ _ => 9) 0 (CReader.open (some [1, 2, 3, 4, 5, 6, 7]) 3 (fun _ => 8)) [2, 2, 3] =
    .ok [[1, 2], [3, 4], [5, 6, 7]] := by decide

example : CReader.reads (fun _ _ => 9) 0 (CReader.open (some [1, 2, 3, 4, 5, 6, 7]) 3 (fun _ => 8)) [2, 6] =
    .error .throw := by decide

/-- **C42, missing file.** If the file does not exist, reads are satisfied from uninitialised memory, without
any error, until the cache size is exhausted. -/
theorem C42_missing_file_garbage (cacheSize : Nat) (hc : cacheSize < 18446744073709551616) (mem0 : Nat → UInt8)
    (n : Nat) (hn : n ≤ cacheSize) (buf : Bytes) :
    ∃ r', (CReader.open none cacheSize mem0).read n buf = .ok ((List.range n).map mem0, r') := by
  unfold CReader.open
  dsimp only
  have e : (IStream.open none).fail = true := rfl
  rw [e, if_pos rfl]
  have hm : min cacheSize 18446744073709551615 = cacheSize := by omega
  rw [hm]
  have hr : (IStream.open none).read cacheSize = ([], ⟨[], false, true⟩) := by
    unfold IStream.read IStream.open; simp
  rw [hr]
  unfold CReader.read copyBytes
  dsimp only
  rw [sub64_of_le (by omega) hc, if_pos (by omega), if_pos (by simpa using hn), Res.ok_bind]
  refine ⟨_, by rw [List.length_nil, List.drop_zero, List.nil_append, List.drop_zero, ← List.map_take, List.take_range, Nat.min_eq_left hn]⟩

/-- **C42, missing file, all reads.** If the file does not exist, the reader behaves as if the file were the uninitialised memory of the cache: it gives out the pieces of
this memory in order and throws at the first read that asks for more than what is left of it. -/
theorem C42_missing_file_reads (cacheSize : Nat) (hc : cacheSize < 18446744073709551616) (mem0 : Nat → UInt8) (mem : Nat → Nat → UInt8) (sizes : List Nat)
    (hs : ∀ n ∈ sizes, n < 18446744073709551616) :
    CReader.reads mem 0 (CReader.open none cacheSize mem0) sizes = Spec.readPieces ((List.range cacheSize).map mem0) sizes := by
  generalize hg : (List.range cacheSize).map mem0 = g
  have hgl : g.length = cacheSize := by rw [← hg]; simp
  have h0 : CReader.open none cacheSize mem0 = ⟨0, ⟨[], false, true⟩, g, cacheSize, 0, 18446744073709551615⟩ := by
    unfold CReader.open
    dsimp only
    have e : (IStream.open none).fail = true := rfl
    rw [e, if_pos rfl, show min cacheSize 18446744073709551615 = cacheSize by omega, hg]
    have hr : (IStream.open none).read cacheSize = ([], ⟨[], false, true⟩) := by
      unfold IStream.read IStream.open; simp
    rw [hr]
    rfl
  rw [h0]
  have key : ∀ (sizes : List Nat) (k off : Nat), off ≤ cacheSize → (∀ n ∈ sizes, n < 18446744073709551616) →
      CReader.reads mem k ⟨0, ⟨[], false, true⟩, g, cacheSize, off, 18446744073709551615⟩ sizes = Spec.readPieces (g.drop off) sizes := by
    intro sizes
    induction sizes with
    | nil => intros; rfl
    | cons n ns ih =>
      intro k off ho hs
      have hn := hs n (by simp)
      unfold CReader.reads Spec.readPieces CReader.read copyBytes
      dsimp only
      rw [sub64_of_le ho hc, List.length_drop, hgl]
      by_cases h : n ≤ cacheSize - off
      · rw [if_pos h, if_pos h, if_pos (by omega), Res.ok_bind, Res.ok_bind]
        dsimp only
        rw [ih (k + 1) (off + n) (by omega) (fun x hx => hs x (by simp [hx])), List.drop_drop]
      · rw [if_neg h, if_neg h, sub64_of_le (by omega) hn]
        have e : sub64 18446744073709551615 (IStream.tell ⟨[], false, true⟩ 0) = 0 := by decide
        rw [e, if_pos (by omega)]
        rfl
  have := key sizes 0 0 (Nat.zero_le _) hs
  rwa [List.drop_zero] at this

/-! ## C43 -/

/-- An unbuffered file: contents and position. -/
structure Spec.File where
  data : Bytes
  pos : Nat

/-- Writing at the position, overwriting what is there. -/
def Spec.File.put (f : Spec.File) (b : Bytes) : Spec.File :=
  ⟨f.data.take f.pos ++ b ++ f.data.drop (f.pos + b.length), f.pos + b.length⟩

/-- The same calls without a buffer. -/
def Spec.File.call (f : Spec.File) : WCall → Spec.File
  | .write b => f.put b
  | .flush => f
  | .reset => ⟨f.data, 0⟩

theorem Spec.File.put_put (f : Spec.File) (hf : f.pos ≤ f.data.length) (a b : Bytes) :
    (f.put a).put b = f.put (a ++ b) := by
  obtain ⟨d, p⟩ := f
  simp only at hf
  simp only [Spec.File.put, Spec.File.mk.injEq, List.length_append]
  refine ⟨?_, by omega⟩
  have h1 : (d.take p ++ a).length = p + a.length := by simp [hf]
  rw [List.take_left' h1, ← List.drop_drop, List.drop_left' h1, List.drop_drop]
  simp [Nat.add_assoc]

theorem Spec.File.put_nil (f : Spec.File) : f.put [] = f := by
  obtain ⟨d, p⟩ := f
  simp [Spec.File.put]

theorem Spec.File.put_pos (f : Spec.File) (hf : f.pos ≤ f.data.length) (b : Bytes) :
    (f.put b).pos ≤ (f.put b).data.length := by
  simp only [Spec.File.put, List.length_append, List.length_take, List.length_drop]; omega

/-- What the writer has written and what it still holds amount to the unbuffered file; `total` is the number
of bytes handed over so far. -/
structure CWriter.Holds (w : CWriter) (f : Spec.File) (total : Nat) : Prop where
  cs_lt : w.cacheSize < 18446744073709551616
  cacheLen : w.cache.length = w.cacheSize
  off : w.curOff ≤ w.cacheSize
  pos : w.pos ≤ w.file.length
  file : f = (Spec.File.mk w.file w.pos).put (w.cache.take w.curOff)
  size : u64 total = u64 (w.fsize + w.curOff)

theorem CWriter.raw_file (w : CWriter) (b : Bytes) :
    (w.raw b).file = ((Spec.File.mk w.file w.pos).put b).data ∧
      (w.raw b).pos = ((Spec.File.mk w.file w.pos).put b).pos := ⟨rfl, rfl⟩

theorem CWriter.Holds.fpos {w : CWriter} {f : Spec.File} {t : Nat} (h : w.Holds f t) : f.pos ≤ f.data.length := by
  rw [h.file]; exact Spec.File.put_pos _ h.pos _

theorem CWriter.Holds.flush {w : CWriter} {f : Spec.File} {t : Nat} (h : w.Holds f t) :
    ∃ w', w.flush = .ok w' ∧ w'.Holds f t ∧ w'.curOff = 0 ∧ w'.file = f.data ∧ w'.pos = f.pos := by
  have := h.off
  have := h.cacheLen
  unfold CWriter.flush copyBytes
  rw [if_pos (by omega), Res.ok_bind, List.drop_zero]
  have hfp := h.fpos
  have hf := h.file
  refine ⟨_, rfl, ⟨h.cs_lt, ?_, Nat.zero_le _, ?_, ?_, ?_⟩, rfl, ?_, ?_⟩
  · simp only [CWriter.raw, List.length_replicate]; exact h.cacheLen
  · rw [hf] at hfp; exact hfp
  · simp only [List.take_zero, Spec.File.put_nil]; exact hf
  · rw [h.size]; unfold u64; simp only; omega
  · rw [hf]; rfl
  · rw [hf]; rfl

theorem CWriter.Holds.write {w : CWriter} {f : Spec.File} {t : Nat} (h : w.Holds f t) (b : Bytes) :
    ∃ w', w.write b = .ok w' ∧ w'.Holds (f.put b) (t + b.length) := by
  have hoff := h.off
  have hcl := h.cacheLen
  have hcs := h.cs_lt
  have hsz := h.size
  unfold CWriter.write
  rw [sub64_of_le hoff hcs]
  split
  · rename_i hb
    by_cases he : b = []
    · subst he
      refine ⟨_, by unfold blit; rw [if_pos rfl, Res.ok_bind], ?_⟩
      rw [Spec.File.put_nil]
      exact ⟨h.cs_lt, h.cacheLen, h.off, h.pos, h.file, h.size⟩
    · unfold blit
      rw [if_neg he, if_pos (by omega), Res.ok_bind]
      have hl : (w.cache.take w.curOff).length = w.curOff := by rw [List.length_take]; omega
      refine ⟨_, rfl, h.cs_lt, ?_, ?_, h.pos, ?_, ?_⟩
      · simp only [List.length_append, List.length_take, List.length_drop]; omega
      · simp only; omega
      · simp only
        rw [List.take_left' (by rw [List.length_append, hl]), h.file, Spec.File.put_put _ h.pos]
      · unfold u64 at *; simp only; omega
  · unfold copyBytes
    rw [if_pos (by omega), Res.ok_bind, List.drop_zero]
    refine ⟨_, rfl, h.cs_lt, ?_, Nat.zero_le _, ?_, ?_, ?_⟩
    · simp only [CWriter.raw, List.length_replicate]; exact hcl
    · have := Spec.File.put_pos f h.fpos b
      rw [h.file] at this; exact this
    · simp only [List.take_zero, Spec.File.put_nil]
      rw [h.file]; rfl
    · unfold u64 at *; simp only; omega

theorem CWriter.Holds.call {w : CWriter} {f : Spec.File} {t : Nat} (h : w.Holds f t) (c : WCall) :
    ∃ w' t', w.call c = .ok w' ∧ w'.Holds (f.call c) t' := by
  cases c with
  | write b => obtain ⟨w', e, h'⟩ := h.write b; exact ⟨w', _, e, h'⟩
  | flush => obtain ⟨w', e, h', -⟩ := h.flush; exact ⟨w', t, e, h'⟩
  | reset =>
    obtain ⟨w', e, h', h0, hd, -⟩ := h.flush
    refine ⟨{ w' with pos := 0 }, t, by simp only [CWriter.call]; rw [e, Res.ok_bind], h'.cs_lt, h'.cacheLen, h'.off, Nat.zero_le _, ?_, h'.size⟩
    simp only [Spec.File.call, h0, List.take_zero, Spec.File.put_nil, hd]

theorem CWriter.open_holds (cacheSize : Nat) (hc : cacheSize < 18446744073709551616) (mem : Nat → UInt8) :
    (CWriter.open cacheSize mem).Holds ⟨[], 0⟩ 0 :=
  ⟨hc, by simp [CWriter.open], Nat.zero_le _, Nat.le_refl _, by simp [CWriter.open, Spec.File.put], rfl⟩

/-- **C43.** After any calls and the destructor, the file is what the same calls make of a file without a
buffer, for every cache size. -/
theorem C43_cached_writes (cacheSize : Nat) (hc : cacheSize < 18446744073709551616) (mem : Nat → UInt8)
    (calls : List WCall) :
    ∃ w w', calls.foldlM CWriter.call (CWriter.open cacheSize mem) = .ok w ∧ w.close = .ok w' ∧
      w'.file = (calls.foldl Spec.File.call ⟨[], 0⟩).data := by
  have key : ∀ (calls : List WCall) (w : CWriter) (f : Spec.File) (t : Nat), w.Holds f t →
      ∃ w' t', calls.foldlM CWriter.call w = .ok w' ∧ w'.Holds (calls.foldl Spec.File.call f) t' := by
    intro calls
    induction calls with
    | nil => intro w f t h; exact ⟨w, t, rfl, h⟩
    | cons c calls ih =>
      intro w f t h
      obtain ⟨w1, t1, e1, h1⟩ := h.call c
      obtain ⟨w2, t2, e2, h2⟩ := ih w1 _ t1 h1
      exact ⟨w2, t2, by rw [List.foldlM_cons, e1, Res.ok_bind]; exact e2, h2⟩
  obtain ⟨w, t, e, h⟩ := key calls _ _ _ (CWriter.open_holds cacheSize hc mem)
  unfold CWriter.close
  by_cases ho : 0 < w.curOff
  · obtain ⟨w', e', -, -, hd, -⟩ := h.flush
    exact ⟨w, w', e, by rw [if_pos ho]; exact e', hd⟩
  · refine ⟨w, w, e, by rw [if_neg ho], ?_⟩
    have hz : w.curOff = 0 := by omega
    have := h.file
    rw [hz, List.take_zero, Spec.File.put_nil] at this
    rw [this]

/-- **C43, without rewinding:** the file consists of the blocks in order, and `get_file_size()` just before
the end counts all bytes but those in the cache. -/
theorem C43_blocks_in_order (cacheSize : Nat) (hc : cacheSize < 18446744073709551616) (mem : Nat → UInt8)
    (blocks : List Bytes) (hlen : blocks.flatten.length < 18446744073709551616) :
    ∃ w w', (blocks.map WCall.write).foldlM CWriter.call (CWriter.open cacheSize mem) = .ok w ∧
      w.close = .ok w' ∧ w'.file = blocks.flatten ∧ w'.fsize % 18446744073709551616 = blocks.flatten.length ∧
      w.fsize % 18446744073709551616 = blocks.flatten.length - w.curOff := by
  have key : ∀ (blocks : List Bytes) (w : CWriter) (f : Bytes), w.Holds ⟨f, f.length⟩ f.length →
      ∃ w', (blocks.map WCall.write).foldlM CWriter.call w = .ok w' ∧
        w'.Holds ⟨f ++ blocks.flatten, (f ++ blocks.flatten).length⟩ (f ++ blocks.flatten).length := by
    intro blocks
    induction blocks with
    | nil => intro w f h; exact ⟨w, rfl, by simpa using h⟩
    | cons b blocks ih =>
      intro w f h
      obtain ⟨w1, e1, h1⟩ := h.write b
      have : (Spec.File.mk f f.length).put b = ⟨f ++ b, (f ++ b).length⟩ := by simp [Spec.File.put]
      rw [this, ← List.length_append] at h1
      obtain ⟨w2, e2, h2⟩ := ih w1 _ h1
      refine ⟨w2, by rw [List.map_cons, List.foldlM_cons]; show (w.write b >>= _) = _; rw [e1, Res.ok_bind]; exact e2, ?_⟩
      simpa using h2
  obtain ⟨w, e, h⟩ := key blocks _ [] (CWriter.open_holds cacheSize hc mem)
  rw [List.nil_append] at h
  have hle : w.curOff ≤ blocks.flatten.length := by
    have hf := congrArg Spec.File.pos h.file
    have := h.off
    have := h.cacheLen
    simp only [Spec.File.put, List.length_take] at hf
    omega
  have hs := h.size
  unfold CWriter.close
  by_cases ho : 0 < w.curOff
  · obtain ⟨w', e', h', hz, hd, -⟩ := h.flush
    have hs' := h'.size
    refine ⟨w, w', e, by rw [if_pos ho]; exact e', hd, ?_, ?_⟩
    · unfold u64 at hs'; omega
    · unfold u64 at hs; omega
  · have hz : w.curOff = 0 := by omega
    refine ⟨w, w, e, by rw [if_neg ho], ?_, ?_, ?_⟩
    · have := h.file
      rw [hz, List.take_zero, Spec.File.put_nil] at this
      exact (congrArg Spec.File.data this).symm
    · unfold u64 at hs; omega
    · unfold u64 at hs; omega

/-- A cache of 3 bytes; a header is written over after a rewind. -/
example : ([.write [0, 0], .write [1, 2], .write [3], .reset, .write [7, 8]] : List WCall).foldlM CWriter.call
    (CWriter.open 3 (fun _ => 9)) >>= CWriter.close = .ok ⟨[7, 8, 1, 2, 3], 2, 3, [0, 0, 0], 0, 7⟩ := by decide

/-- **C43, size after a rewind.** The number that `get_file_size()` and the destructor report counts bytes
written over twice: it is not the size of the file. -/
theorem C43_reported_size_after_reset : ∃ w',
    (([.write [0, 0], .write [1, 2], .reset, .write [7, 8]] : List WCall).foldlM CWriter.call
      (CWriter.open 3 (fun _ => 9)) >>= CWriter.close) = .ok w' ∧ w'.fsize = 6 ∧ w'.file = [7, 8, 1, 2] :=
  ⟨⟨[7, 8, 1, 2], 2, 3, [0, 0, 0], 0, 6⟩, by decide, rfl, rfl⟩

/-! ## The theorems applied to the examples -/

example := C42_cached_reads [1, 2, 3, 4, 5, 6, 7] (by decide) 3 (fun _ => 8) (fun _ _ => 9) [2, 2, 3, 1] (by decide)

example := C42_missing_file_garbage 10 (by decide) (fun _ => 8) 4 (by decide) [0, 0, 0, 0]

/-- Four and then three bytes of a missing file with a cache of six: the second read throws. -/
example : CReader.reads (fun _ _ => 9) 0 (CReader.open none 6 (fun _ => 8)) [4, 3] = .error .throw :=
  (C42_missing_file_reads 6 (by decide) (fun _ => 8) (fun _ _ => 9) [4, 3] (by decide)).trans (by decide)

example := C43_cached_writes 3 (by decide) (fun _ => 9)
  [.write [0, 0], .write [1, 2], .flush, .write [3], .reset, .write [7, 8]]

example := C43_blocks_in_order 3 (by decide) (fun _ => 9) [[0, 0], [1, 2, 3, 4, 5], [], [6]] (by decide)

end Grann
