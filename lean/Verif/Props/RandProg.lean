import Verif.Model.RandProg
import Verif.Props.RandGen
import Verif.Props.CommandLine
import Verif.Props.Sample
/-!
# C90: the programs that make and print random vectors
-/

namespace Grann

namespace Spec

/-- The output for `n` vectors of dimension `dim`: a line for each, with a space behind each number. -/
def lines (n dim : Nat) (cells : List Bytes) : Bytes :=
  (List.range n).flatMap (fun i => ((cells.drop (i * dim)).take dim).flatMap (fun c => F32.text ⟨BitVec.ofNat 32 (unle c)⟩ ++ ascii " ") ++
    ascii "\n")

end Spec

theorem staticParts_perm {T : Nat} (hT : 0 < T) (n : Nat) : (staticParts T n).flatten.Perm (List.range n) := by
  rw [List.perm_ext_iff_of_nodup]
  · intro i
    simp only [staticParts, List.mem_flatten, List.mem_map, List.mem_range, exists_exists_and_eq_and, List.mem_filter, decide_eq_true_eq]
    exact ⟨fun ⟨_, _, h, _⟩ => h, fun h => ⟨_, Nat.mod_lt _ hT, h, rfl⟩⟩
  · unfold staticParts
    rw [List.nodup_flatten]
    constructor
    · intro l hl
      obtain ⟨t, -, rfl⟩ := List.mem_map.mp hl
      exact List.Nodup.filter _ List.nodup_range
    · rw [List.pairwise_map]
      refine List.Pairwise.imp ?_ (List.nodup_range (n := T))
      intro a b hab x hx hy
      simp only [List.mem_filter, decide_eq_true_eq] at hx hy
      exact hab (hx.2.symm.trans hy.2)
  · exact List.nodup_range

theorem randomFile_ops {P : Type} {p : P} {n dim : Nat} {draw mem : Nat → Bytes} {parts : List (List Nat)} {sched : List Nat}
    {ops : List (FOp P)} (h : randomFile p n dim draw mem parts sched = .ok ops) : ∃ b, ops = saveBin p n dim b := by
  unfold randomFile at h
  obtain ⟨s, -, h⟩ := Res.bind_eq_ok.mp h
  split at h
  · obtain ⟨b, -, h⟩ := Res.bind_eq_ok.mp h
    injection h with h
    exact ⟨b, h.symm⟩
  · cases h

theorem genMain_eq (env : GenEnv) {a0 kind nt dt name : Bytes} {n d : Int} (hn : Spec.NumText nt n) (hd : Spec.NumText dt d)
    (hni : Spec.IsInt n) (hdi : Spec.IsInt d) :
    genMain env [a0, kind, nt, dt, name] = done (randomFile name (wrap32 n) (wrap32 d) (env.draw (kind = ascii "gaussian")) env.mem
      (staticParts env.threads (wrap32 n)) env.sched) := by
  have h1 : atoi nt = .ok n := atoi_ok_iff.2 ⟨hn, hni⟩
  have h2 : atoi dt = .ok d := atoi_ok_iff.2 ⟨hd, hdi⟩
  simp [genMain, numAt, rd, Res.ok_bind, h1, h2]

/-- **C90.** For a number of vectors and a dimension whose product is less than 2³², with any number of threads and every order of
their accesses to the generator, the program writes a file with that many vectors of that dimension, in which every coordinate is
a number of the distribution, and no other file. -/
theorem C90_file {env : GenEnv} {a0 kind nt dt name : Bytes} {n d : Nat} (hn : Spec.NumText nt n) (hd : Spec.NumText dt d)
    (hn31 : n < 2147483648) (hd31 : d < 2147483648) (hN : n * d < 4294967296) (hT : 0 < env.threads)
    (h4 : ∀ b k, (env.draw b k).length = 4) (hm : ∀ i, (env.mem i).length = 4)
    (he : AllDraw d (staticParts env.threads n) env.sched) (fs : FS Bytes) :
    ∃ ops cells, genMain env [a0, kind, nt, dt, name] = .ok (.run ops) ∧ Spec.HoldsCells n d (runOps ops fs name) cells ∧
      (∀ c ∈ cells, ∃ k, c = env.draw (kind = ascii "gaussian") k) ∧ ∀ p, p ≠ name → runOps ops fs p = fs p := by
  have hw : wrap32 (n : Int) = n := by unfold wrap32; omega
  have hw' : wrap32 (d : Int) = d := by unfold wrap32; omega
  have e := genMain_eq env (a0 := a0) (kind := kind) (name := name) hn hd (by rw [isInt_iff]; omega) (by rw [isInt_iff]; omega)
  rw [hw, hw'] at e
  obtain ⟨ops, cells, e1, h1, h2⟩ := C80_defined name fs n d hN (env.draw (kind = ascii "gaussian")) env.mem (h4 _) hm
    (staticParts env.threads n) (staticParts_perm hT n) env.sched he
  rw [e1] at e
  refine ⟨ops, cells, e, h1, h2, ?_⟩
  obtain ⟨b, rfl⟩ := randomFile_ops e1
  intro p hp
  simp [saveBin, runOps, FOp.run, hp]

/-- **C90 is false for large data sets.** If the product of the two numbers, taken as unsigned numbers of 32 bits, is 2³² or more,
no run writes a file; if all threads go on, one of them stores outside the array. -/
theorem C90_too_large {env : GenEnv} {a0 kind nt dt name : Bytes} {n d : Int} {N D : Nat} (hn : Spec.NumText nt n)
    (hd : Spec.NumText dt d) (hni : Spec.IsInt n) (hdi : Spec.IsInt d) (hN : (N : Int) = Spec.unsigned 32 n)
    (hD : (D : Int) = Spec.unsigned 32 d) (hT : 0 < env.threads) (hND : 4294967296 ≤ N * D) :
    (∀ ops, genMain env [a0, kind, nt, dt, name] ≠ .ok (.run ops)) ∧
    (AllDraw D (staticParts env.threads N) env.sched → genMain env [a0, kind, nt, dt, name] = .error .ub) := by
  rw [genMain_eq env hn hd hni hdi]
  have h1 : wrap32 n = N := by have := wrap32_eq hni; omega
  have h2 : wrap32 d = D := by have := wrap32_eq hdi; omega
  rw [h1, h2]
  have hD32 : D < 4294967296 := by rw [← h2]; unfold wrap32; omega
  obtain ⟨e1, e2⟩ := C80_too_large name N D hD32 hND (env.draw (kind = ascii "gaussian")) env.mem (staticParts env.threads N)
    (staticParts_perm hT N) env.sched
  refine ⟨fun ops h => ?_, fun h => ?_⟩
  · unfold done at h
    obtain ⟨y, hy, -⟩ := Res.bind_eq_ok.mp h
    exact e2 y hy
  · rw [e1 h]
    rfl

/-- Every other block of 64. -/
theorem half_blocks (m : Nat) (b : Nat) (hb : b = 0 ∨ b = 1) :
    ((List.range (128 * m)).filter (fun i => decide (i / 64 % 2 = b))).length = 64 * m := by
  induction m with
  | zero => rfl
  | succ m ih =>
    have hr : List.range (128 * (m + 1)) = List.range (128 * m) ++ (List.range 128).map (128 * m + ·) := by
      rw [show 128 * (m + 1) = 128 * m + 128 by ring, List.range_add]
    rw [hr, List.filter_append, List.length_append, ih, List.filter_map, List.length_map]
    have : (List.range 128).filter ((fun i => decide (i / 64 % 2 = b)) ∘ (128 * m + ·)) =
        (List.range 128).filter (fun i => decide (i / 64 % 2 = b)) := by
      apply List.filter_congr
      intro i _
      simp only [Function.comp]
      congr 1
      rw [show (128 * m + i) / 64 = 2 * m + i / 64 by omega]
      apply propext
      omega
    rw [this]
    have h64 : ((List.range 128).filter (fun i => decide (i / 64 % 2 = b))).length = 64 := by
      rcases hb with rfl | rfl <;> decide +kernel
    rw [h64]
    ring

/-- **C90 is false with several threads.** With two threads and a multiple of 128 vectors there is an order of the accesses in which
every vector of every other block of 64 has a copy elsewhere in the file. -/
theorem C90_duplicates {a0 kind nt dt name : Bytes} {n d m : Nat} (hn : Spec.NumText nt n) (hd : Spec.NumText dt d)
    (hn31 : n < 2147483648) (hd31 : d < 2147483648) (hN : n * d < 4294967296) (hm128 : n = 128 * m)
    (draw : Bool → Nat → Bytes) (mem : Nat → Bytes) (h4 : ∀ b k, (draw b k).length = 4) (hm : ∀ i, (mem i).length = 4) (fs : FS Bytes) :
    ∃ sched ops cells, AllDraw d (staticParts 2 n) sched ∧
      genMain ⟨draw, mem, 2, sched⟩ [a0, kind, nt, dt, name] = .ok (.run ops) ∧ Spec.HoldsCells n d (runOps ops fs name) cells ∧
      ∀ a < n, a / 64 % 2 = 0 → ∃ b < n, b ≠ a ∧ ∀ j < d, ∃ x, cells[a * d + j]? = some x ∧ cells[b * d + j]? = some x := by
  obtain ⟨A, hA⟩ : ∃ A, A = (List.range n).filter (fun i => decide (i / 64 % 2 = 0)) := ⟨_, rfl⟩
  obtain ⟨B, hB⟩ : ∃ B, B = (List.range n).filter (fun i => decide (i / 64 % 2 = 1)) := ⟨_, rfl⟩
  have hAB : staticParts 2 n = [A, B] := by rw [hA, hB]; rfl
  have hlen : A.length = B.length := by
    rw [hA, hB, hm128, half_blocks m 0 (.inl rfl), half_blocks m 1 (.inr rfl)]
  have hp : (A ++ B).Perm (List.range n) := by
    have := staticParts_perm (T := 2) (by decide) n
    rw [hAB] at this
    simpa using this
  obtain ⟨sched, ops, cells, h1, h2, h3, h5⟩ := C80_duplicates name fs n d hN (draw (kind = ascii "gaussian")) mem (h4 _) hm A B hlen hp
  refine ⟨sched, ops, cells, by rw [hAB]; exact h1, ?_, h3, ?_⟩
  · have hw : wrap32 (n : Int) = n := by unfold wrap32; omega
    have hw' : wrap32 (d : Int) = d := by unfold wrap32; omega
    have e := genMain_eq ⟨draw, mem, 2, sched⟩ (a0 := a0) (kind := kind) (name := name) hn hd (by rw [isInt_iff]; omega)
      (by rw [isInt_iff]; omega)
    rw [hw, hw'] at e
    rw [e]
    show done (randomFile name n d (draw (kind = ascii "gaussian")) mem (staticParts 2 n) sched) = _
    rw [hAB, h2]
    rfl
  · intro a ha hab
    have : a ∈ A := by rw [hA, List.mem_filter]; exact ⟨List.mem_range.mpr ha, by simpa using hab⟩
    obtain ⟨i, hi⟩ := List.getElem?_of_mem this
    have hil : i < B.length := by rw [← hlen]; exact (List.getElem?_eq_some_iff.mp hi).1
    obtain ⟨h6, h7⟩ := h5 i a B[i] hi (List.getElem?_eq_getElem hil)
    refine ⟨B[i], ?_, Ne.symm h6, h7⟩
    have hb : B[i] ∈ B := List.getElem_mem hil
    generalize B[i] = b at hb
    rw [hB, List.mem_filter] at hb
    exact List.mem_range.mp hb.1

/-- **C90 (usage).** With another number of arguments nothing is done. -/
theorem C90_usage (env : GenEnv) {argv : List Bytes} (h : argv.length ≠ 5) : genMain env argv = .ok .usage := if_pos h

/-! ## Printing -/

theorem cells_slice {cells : List Bytes} (h4 : ∀ c ∈ cells, c.length = 4) {i : Nat} (hi : i < cells.length) :
    slice cells.flatten (i * 4) 4 = .ok cells[i] := by
  have := flatten_slice h4 [] hi
  rw [List.append_nil] at this
  rw [this]
  simp [rowAt, List.getD_eq_getElem?_getD, List.getElem?_eq_getElem hi]

/-- The lines are printed. -/
theorem rows_text {cells : List Bytes} {n dim : Nat} (hl : cells.length = n * dim) (h4 : ∀ c ∈ cells, c.length = 4) :
    (do let rows ← (List.range n).mapM (rowText cells.flatten dim); .ok rows.flatten : Res Bytes) = .ok (Spec.lines n dim cells) := by
  have hrow : ∀ i ∈ List.range n, rowText cells.flatten dim i =
      .ok (((cells.drop (i * dim)).take dim).flatMap (fun c => F32.text ⟨BitVec.ofNat 32 (unle c)⟩ ++ ascii " ") ++ ascii "\n") := by
    intro i hi
    have hin := List.mem_range.mp hi
    have hid : i * dim + dim ≤ n * dim := by
      have := Nat.mul_le_mul_right dim (Nat.succ_le_of_lt hin)
      rw [Nat.succ_mul] at this
      exact this
    unfold rowText
    have hc : ∀ j ∈ List.range dim, cellText cells.flatten dim i j =
        .ok (F32.text ⟨BitVec.ofNat 32 (unle (cells.getD (i * dim + j) []))⟩ ++ ascii " ") := by
      intro j hj
      have hjd := List.mem_range.mp hj
      have hlt : i * dim + j < cells.length := by omega
      unfold cellText
      rw [cells_slice h4 hlt, Res.ok_bind, List.getD_eq_getElem?_getD, List.getElem?_eq_getElem hlt]
      rfl
    rw [mapM_eq_map _ _ _ hc, Res.ok_bind]
    have e : (cells.drop (i * dim)).take dim = (List.range dim).map (fun j => cells.getD (i * dim + j) []) := by
      apply List.ext_getElem?
      intro j
      by_cases hj : j < dim
      · have hlt : i * dim + j < cells.length := by omega
        rw [List.getElem?_take, if_pos hj, List.getElem?_drop, List.getElem?_map, List.getElem?_range hj, Option.map_some,
          List.getD_eq_getElem?_getD, List.getElem?_eq_getElem hlt, Option.getD_some]
      · rw [List.getElem?_take, if_neg hj, List.getElem?_eq_none (by simp; omega)]
    rw [e, List.flatMap_map, List.flatMap_def]
    rfl
  rw [mapM_eq_map _ _ _ hrow, Res.ok_bind]
  rfl

/-- **C90, printing.** For a file of `n` vectors of dimension `dim`, both less than 2³¹, the program prints a line for each vector, with
its coordinates in order. -/
theorem C90_print {a0 kind name : Bytes} {n dim : Nat} {cells : List Bytes} {fs : FS Bytes}
    (h : Spec.HoldsCells n dim (fs name) cells) (hn : n < 2147483648) (hd : dim < 2147483648) (hs : n * dim < 2305843009213693952)
    {j1 j2 : Bytes} (hj1 : j1.length = 4) (hj2 : j2.length = 4) (mem : Nat → UInt8) :
    showMain j1 j2 mem [a0, kind, name] fs = .ok (.run (Spec.lines n dim cells)) := by
  obtain ⟨h1, h2, h3⟩ := h
  have hl : loadBin 4 (fs name) j1 j2 mem = .ok (n, dim, cells.flatten) := by
    rw [h1]
    exact loadBin_ok (by omega) (by omega) (by rw [flatten_length_of h3, h2]) (by omega) hj1 hj2 mem
  unfold showMain
  simp only [rd, List.getElem?_cons_succ, List.getElem?_cons_zero, Res.ok_bind, hl, List.length_cons, List.length_nil]
  rw [if_neg (by decide), if_neg (by omega), rows_text h2 h3]
  rfl

/-- **C90 (too many lines).** For a file of 2³¹ vectors or more, the counter, an `int`, overflows; with the dimension 0 a file of eight
bytes is enough. -/
theorem C90_print_overflow {a0 kind name : Bytes} {n dim : Nat} {cells : List Bytes} {fs : FS Bytes}
    (h : Spec.HoldsCells n dim (fs name) cells) (hn : 2147483648 ≤ n ∨ 0 < n ∧ 2147483648 ≤ dim) (hn32 : n < 4294967296)
    (hd : dim < 4294967296) (hs : n * dim < 2305843009213693952) {j1 j2 : Bytes} (hj1 : j1.length = 4) (hj2 : j2.length = 4)
    (mem : Nat → UInt8) : showMain j1 j2 mem [a0, kind, name] fs = .error .ub := by
  obtain ⟨h1, h2, h3⟩ := h
  have hl : loadBin 4 (fs name) j1 j2 mem = .ok (n, dim, cells.flatten) := by
    rw [h1]
    exact loadBin_ok (by omega) (by omega) (by rw [flatten_length_of h3, h2]) (by omega) hj1 hj2 mem
  unfold showMain
  simp only [rd, List.getElem?_cons_succ, List.getElem?_cons_zero, Res.ok_bind, hl, List.length_cons, List.length_nil]
  rw [if_neg (by decide), if_pos hn]

/-- **C90, both programs.** What is printed from the file of the first program is a line for each vector, and all numbers are from
the distribution. -/
theorem C90_make_and_print {env : GenEnv} {a0 kind nt dt name a1 kind1 : Bytes} {n d : Nat} (hn : Spec.NumText nt n)
    (hd : Spec.NumText dt d) (hn31 : n < 2147483648) (hd31 : d < 2147483648) (hN : n * d < 4294967296) (hT : 0 < env.threads)
    (h4 : ∀ b k, (env.draw b k).length = 4) (hm : ∀ i, (env.mem i).length = 4)
    (he : AllDraw d (staticParts env.threads n) env.sched) (fs : FS Bytes) {j1 j2 : Bytes} (hj1 : j1.length = 4) (hj2 : j2.length = 4)
    (mem : Nat → UInt8) :
    ∃ ops cells, genMain env [a0, kind, nt, dt, name] = .ok (.run ops) ∧ cells.length = n * d ∧
      (∀ c ∈ cells, ∃ k, c = env.draw (kind = ascii "gaussian") k) ∧
      showMain j1 j2 mem [a1, kind1, name] (runOps ops fs) = .ok (.run (Spec.lines n d cells)) := by
  obtain ⟨ops, cells, e, h1, h2, -⟩ := C90_file (a0 := a0) (kind := kind) (name := name) hn hd hn31 hd31 hN hT h4 hm he fs
  exact ⟨ops, cells, e, h1.2.1, h2, C90_print h1 hn31 hd31 (by omega) hj1 hj2 mem⟩

/-! ## Examples -/

theorem exCount (s : String) (n : Nat) (h : atoi (ascii s) = .ok (n : Int)) : Spec.NumText (ascii s) n := (atoi_ok_iff.1 h).1

/-- Two vectors of dimension 1 with one thread. -/
example := C90_make_and_print (env := ⟨fun b k => le 4 (if b then 0x3f800000 + k else 0), le 4, 1, [0, 0, 0, 0]⟩) (a0 := ascii "p")
  (kind := ascii "gaussian") (name := ascii "f") (a1 := ascii "q") (kind1 := ascii "gaussian") (n := 2) (d := 1)
  (exCount "2" 2 (by decide +kernel)) (exCount "1" 1 (by decide +kernel)) (by decide) (by decide) (by decide) (by decide)
  (fun b k => le4_length _) le4_length (by
    intro i rows hi
    match i with
    | 0 =>
      have : rows = [0, 1] := by
        have : (staticParts 1 2)[0]? = some [0, 1] := by decide
        rw [this] at hi
        exact (Option.some.inj hi).symm
      rw [this]; decide
    | i + 1 => simp [staticParts] at hi) (fun _ => none) (j1 := [0, 0, 0, 0]) (j2 := [0, 0, 0, 0]) rfl rfl (fun _ => 0)

/-- The numbers 1 and -2.5. -/
example : Spec.lines 2 1 [le 4 0x3f800000, le 4 0xc0200000] = ascii "1 \n-2.5 \n" := by decide +kernel

example := C90_duplicates (a0 := ascii "p") (kind := ascii "cube") (name := ascii "f") (n := 128) (d := 3) (m := 1)
  (exCount "128" 128 (by decide +kernel)) (exCount "3" 3 (by decide +kernel)) (by decide) (by decide) (by decide) rfl
  (fun _ => le 4) (le 4) (fun _ => le4_length) le4_length (fun _ => none)

/-- A number of vectors of -1 is 4294967295. -/
example := C90_too_large (env := ⟨fun _ => le 4, le 4, 3, []⟩) (a0 := ascii "p") (kind := ascii "cube") (name := ascii "f") (n := -1)
  (d := 2) (N := 4294967295) (D := 2) (nt := ascii "-1") (dt := ascii "2")
  (atoi_ok_iff.1 (show atoi (ascii "-1") = .ok (-1) by decide +kernel)).1
  (atoi_ok_iff.1 (show atoi (ascii "2") = .ok 2 by decide +kernel)).1 (by rw [isInt_iff]; omega) (by rw [isInt_iff]; omega)
  (by decide) (by decide) (by decide) (by decide)

/-- Eight bytes. -/
example := C90_print_overflow (a0 := ascii "p") (kind := ascii "cube") (name := ascii "f") (n := 2147483648) (dim := 0) (cells := [])
  (fs := fun _ => some (le 4 2147483648 ++ le 4 0)) ⟨rfl, rfl, by simp⟩ (.inl (by decide)) (by decide) (by decide) (by decide)
  (j1 := [0, 0, 0, 0]) (j2 := [0, 0, 0, 0]) rfl rfl (fun _ => 0)

/-! ## The theorems applied to the examples -/

/-- One thread fills the array. -/
theorem exGen_allDraw : AllDraw 1 (staticParts 1 2) [0, 0, 0, 0] := by
  intro i rows hi
  match i with
  | 0 =>
    have : rows = [0, 1] := by
      have : (staticParts 1 2)[0]? = some [0, 1] := by decide
      rw [this] at hi
      exact (Option.some.inj hi).symm
    rw [this]; decide
  | i + 1 => simp [staticParts] at hi

example := C90_file (env := ⟨fun b k => le 4 (if b then 0x3f800000 + k else 0), le 4, 1, [0, 0, 0, 0]⟩) (a0 := ascii "p")
  (kind := ascii "gaussian") (name := ascii "f") (n := 2) (d := 1) (exCount "2" 2 (by decide +kernel)) (exCount "1" 1 (by decide +kernel))
  (by decide) (by decide) (by decide) (by decide) (fun b k => le4_length _) le4_length exGen_allDraw (fun _ => none)

example := C90_usage ⟨fun _ => le 4, le 4, 3, []⟩ (argv := [ascii "p"]) (by decide)

example := C90_print (a0 := ascii "p") (kind := ascii "cube") (name := ascii "f") (n := 2) (dim := 1) (cells := [le 4 0x3f800000, le 4 0xc0200000])
  (fs := fun _ => some (le 4 2 ++ le 4 1 ++ le 4 0x3f800000 ++ le 4 0xc0200000)) ⟨rfl, rfl, by decide⟩ (by decide) (by decide) (by decide)
  (j1 := [0, 0, 0, 0]) (j2 := [0, 0, 0, 0]) rfl rfl (fun _ => 0)

end Grann
