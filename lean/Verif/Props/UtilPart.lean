import Verif.Props.UtilPq
/-!
# C88: `partition_data` and `partition_with_ram_budget` from the command line on
-/

namespace Grann

open Spec (elemWord)
open _root_.Spec (KNearest)

variable {D : Type}

namespace Spec

/-- The operations leave a file of centres and the files of `parts` shards (`data` for the vectors, if they are written, and `ids`), and
every other file as it was. -/
def LeavesParts (ops : List (FOp Bytes)) (pre : Bytes) (parts : Nat) (centres : Bytes) (data : Option (Nat → Bytes)) (ids : Nat → Bytes) : Prop :=
  ∀ fs, runOps ops fs (centresName pre) = some centres ∧
    (∀ c < parts, (∀ f, data = some f → runOps ops fs (shardName pre c) = some (f c)) ∧ runOps ops fs (shardIdsName pre c) = some (ids c)) ∧
    ∀ q, q ≠ centresName pre → (∀ c < parts, (data ≠ none → q ≠ shardName pre c) ∧ q ≠ shardIdsName pre c) → runOps ops fs q = fs q

end Spec

theorem shardFiles_mem {wd : Bool} {pre : Bytes} : ∀ {l : List (Bytes × Bytes)} {i : Nat} {x : Bytes × Bytes},
    x ∈ shardFiles wd pre i l ↔ ∃ t s, l[t]? = some s ∧ ((wd = true ∧ x = (shardName pre (i + t), s.1)) ∨ x = (shardIdsName pre (i + t), s.2))
  | [], i, x => by simp [shardFiles]
  | s :: l, i, x => by
    unfold shardFiles
    rw [List.mem_append, List.mem_cons, shardFiles_mem]
    constructor
    · rintro (h | h | ⟨t, u, h1, h2⟩)
      · split at h
        · rename_i hw
          exact ⟨0, s, rfl, Or.inl ⟨hw, List.mem_singleton.1 h⟩⟩
        · cases h
      · exact ⟨0, s, rfl, Or.inr h⟩
      · refine ⟨t + 1, u, h1, ?_⟩
        rw [show i + (t + 1) = i + 1 + t by omega]
        exact h2
    · rintro ⟨t, u, h1, h2⟩
      cases t with
      | zero =>
        have : s = u := Option.some.inj h1
        subst this
        rcases h2 with ⟨hw, h2⟩ | h2
        · left
          rw [if_pos hw]
          exact List.mem_singleton.2 h2
        · exact Or.inr (Or.inl h2)
      | succ t =>
        right; right
        refine ⟨t, u, h1, ?_⟩
        rw [show i + 1 + t = i + (t + 1) by omega]
        exact h2

theorem shardFiles_nodup {wd : Bool} {pre : Bytes} : ∀ {l : List (Bytes × Bytes)} {i : Nat}, i + l.length ≤ 10 ^ 20 →
    ((shardFiles wd pre i l).map Prod.fst).Nodup
  | [], _, _ => by simp [shardFiles]
  | s :: l, i, h => by
    obtain ⟨-, -, n1, n2, n3, -⟩ := C88_names pre
    rw [List.length_cons] at h
    have ih := shardFiles_nodup (wd := wd) (pre := pre) (l := l) (i := i + 1) (by omega)
    have hid : shardIdsName pre i ∉ (shardFiles wd pre (i + 1) l).map Prod.fst := by
      intro hm
      obtain ⟨x, hx, he⟩ := List.mem_map.1 hm
      obtain ⟨t, u, h1, h2⟩ := shardFiles_mem.1 hx
      have ht := (List.getElem?_eq_some_iff.1 h1).1
      rcases h2 with ⟨-, rfl⟩ | rfl
      · exact n3 _ _ (by omega) (by omega) he
      · have := n2 _ _ (by omega) (by omega) he
        omega
    have hsh : shardName pre i ∉ (shardFiles wd pre (i + 1) l).map Prod.fst := by
      intro hm
      obtain ⟨x, hx, he⟩ := List.mem_map.1 hm
      obtain ⟨t, u, h1, h2⟩ := shardFiles_mem.1 hx
      have ht := (List.getElem?_eq_some_iff.1 h1).1
      rcases h2 with ⟨-, rfl⟩ | rfl
      · have := n1 _ _ (by omega) (by omega) he
        omega
      · exact n3 _ _ (by omega) (by omega) he.symm
    unfold shardFiles
    rw [List.map_append, List.map_cons]
    split
    · rw [List.map_cons, List.map_nil, List.cons_append, List.nil_append, List.nodup_cons, List.nodup_cons, List.mem_cons, not_or]
      exact ⟨⟨n3 _ _ (by omega) (by omega), hsh⟩, hid, ih⟩
    · rw [List.map_nil, List.nil_append, List.nodup_cons]
      exact ⟨hid, ih⟩

/-- What the tools leave in the end. -/
theorem partFiles_leaves {wd : Bool} {pre centres : Bytes} {parts : Nat} (hp : parts ≤ 10 ^ 20) (f g : Nat → Bytes) :
    Spec.LeavesParts (outOps (partFiles wd pre (centres, some ((List.range parts).map (fun c => (f c, g c)))))) pre parts centres
      (if wd then some f else none) g := by
  obtain ⟨-, -, -, -, -, n4⟩ := C88_names pre
  have hnd : ((partFiles wd pre (centres, some ((List.range parts).map (fun c => (f c, g c))))).map Prod.fst).Nodup := by
    unfold partFiles
    rw [List.map_cons, List.nodup_cons]
    refine ⟨fun hm => ?_, shardFiles_nodup (by simpa using hp)⟩
    obtain ⟨x, hx, he⟩ := List.mem_map.1 hm
    obtain ⟨t, u, h1, h2⟩ := shardFiles_mem.1 hx
    rcases h2 with ⟨-, rfl⟩ | rfl
    · exact (n4 _).1 he
    · exact (n4 _).2 he
  intro fs
  obtain ⟨l1, l2⟩ := outOps_leaves hnd fs
  have hget : ∀ c < parts, ((List.range parts).map (fun c => (f c, g c)))[c]? = some (f c, g c) := fun c hc => by
    rw [List.getElem?_map, List.getElem?_range hc, Option.map_some]
  refine ⟨l1 (centresName pre, centres) List.mem_cons_self, fun c hc => ⟨fun f' hf => ?_, ?_⟩, fun q h1 h2 => l2 q fun hm => ?_⟩
  · split at hf
    · rename_i hw
      have : f = f' := Option.some.inj hf
      subst this
      refine l1 (shardName pre c, f c) (List.mem_cons_of_mem _ (shardFiles_mem.2 ⟨c, _, hget c hc, Or.inl ⟨hw, ?_⟩⟩))
      rw [Nat.zero_add]
    · cases hf
  · refine l1 (shardIdsName pre c, g c) (List.mem_cons_of_mem _ (shardFiles_mem.2 ⟨c, _, hget c hc, Or.inr ?_⟩))
    rw [Nat.zero_add]
  · obtain ⟨x, hx, he⟩ := List.mem_map.1 hm
    rcases List.mem_cons.1 hx with rfl | hx
    · exact h1 he.symm
    · obtain ⟨t, u, h3, h4⟩ := shardFiles_mem.1 hx
      have ht := (List.getElem?_eq_some_iff.1 h3).1
      simp only [Option.getD_some, List.length_map, List.length_range] at ht
      rw [Nat.zero_add] at h4
      rcases h4 with ⟨hw, rfl⟩ | rfl
      · exact (h2 t ht).1 (by rw [hw]; simp) he.symm
      · exact (h2 t ht).2 he.symm

/-- The input of a partition tool is none of its outputs. -/
def NotOutput (wd : Bool) (data pre : Bytes) (parts : Nat) : Prop :=
  data ≠ centresName pre ∧ ∀ c < parts, (wd = true → data ≠ shardName pre c) ∧ data ≠ shardIdsName pre c

theorem filesTool_part (env : TrainEnv D) {wd : Bool} {data pre centres : Bytes} {parts : Nat} (f g : Nat → Bytes) (hno : NotOutput wd data pre parts) :
    filesTool env data (partFiles wd pre (centres, some ((List.range parts).map (fun c => (f c, g c))))) =
      .ok (outOps (partFiles wd pre (centres, some ((List.range parts).map (fun c => (f c, g c)))))) := by
  unfold filesTool
  rw [if_neg]
  intro hm
  obtain ⟨x, hx, he⟩ := List.mem_map.1 hm
  rcases List.mem_cons.1 hx with rfl | hx
  · exact hno.1 he.symm
  · obtain ⟨t, u, h3, h4⟩ := shardFiles_mem.1 hx
    have ht := (List.getElem?_eq_some_iff.1 h3).1
    simp only [Option.getD_some, List.length_map, List.length_range] at ht
    rw [Nat.zero_add] at h4
    rcases h4 with ⟨hw, rfl⟩ | rfl
    · exact (hno.2 t ht).1 hw he.symm
    · exact (hno.2 t ht).2 he.symm

/-- The input of a partition tool: a file of vectors, of which between 1 and 2^23 are sampled, with tame arithmetic. -/
structure PartInput (env : TrainEnv D) (e : Elem) (fs : FS Bytes) (data r : Bytes) (dim : Nat) (rows : List Bytes) (P : List F32 → Prop)
    (T : List (List F32)) : Prop where
  wf : env.WF
  run : ∀ i, (env.run i).OK
  pops : IsPopOrder env.pops
  n : rows.length < 4294967296
  d : dim < 4294967296
  row : ∀ x ∈ rows, x.length = dim * e.size
  size : (Spec.binFile dim rows).length < 9223372036854775808
  file : fs data = some (Spec.binFile dim rows)
  tame : Tame env.km dim P
  conv : ∀ x ∈ rows, P (env.conv e x) ∧ (env.conv e x).length = dim
  train : T = Spec.trainSet (sampleCoin env.rnd (atof r)) (env.conv e) rows
  max : T.length ≤ 8388608
  init : ∀ i, (env.run i).init < T.length

theorem PartInput.trainP {env : TrainEnv D} {e : Elem} {fs : FS Bytes} {data r : Bytes} {dim : Nat} {rows : List Bytes} {P : List F32 → Prop}
    {train : List (List F32)} (h : PartInput env e fs data r dim rows P train) : ∀ x ∈ train, P x ∧ x.length = dim := by
  intro x hx
  rw [h.train] at hx
  obtain ⟨v, hv, rfl⟩ := trainSet_mem hx
  exact h.conv v hv

theorem PartInput.rows1 {env : TrainEnv D} {e : Elem} {fs : FS Bytes} {data r : Bytes} {dim : Nat} {rows : List Bytes} {P : List F32 → Prop}
    {train : List (List F32)} (h : PartInput env e fs data r dim rows P train) : 1 ≤ rows.length := by
  have h0 := h.init 0
  have : 0 < train.length := by omega
  obtain ⟨x, hx⟩ := List.exists_mem_of_length_pos this
  rw [h.train] at hx
  obtain ⟨v, hv, -⟩ := trainSet_mem hx
  exact List.length_pos_of_mem hv

/-- **C88 (partition).** `partition_data type data prefix rate parts k` leaves the centres k-means finds for the sampled vectors, and for every centre the
vectors that have it among their `k` closest ones and their numbers.  The only other outcome is that k-means++ throws darts for
ever. -/
theorem C88_partition {env : TrainEnv D} {e : Elem} {fs : FS Bytes} {data r : Bytes} {dim : Nat} {rows : List Bytes} {P : List F32 → Prop}
    {train : List (List F32)} (h : PartInput env e fs data r dim rows P train) (a pre tn tk : Bytes) (parts k : Nat)
    (h1 : atoi tn = .ok (parts : Int)) (h2 : atoi tk = .ok (k : Int)) (hp1 : 1 ≤ parts) (hk : k ≤ parts) (hmem : parts * dim ≤ 2305843009213693951)
    (hno : NotOutput true data pre parts) :
    (partitionMain env [a, elemWord e, data, pre, r, tn, tk] fs = .error .loop ∧
      kmeansF env.km (env.run 0) dim 15 train ((List.range parts).map (env.mem 0)) = .error .loop) ∨
    ∃ (first last : List (List F32)) (place : Nat → List Nat) (ops : List (FOp Bytes)),
      partitionMain env [a, elemWord e, data, pre, r, tn, tk] fs = .ok (.run ops) ∧
      first.length = parts ∧ (∀ c ∈ first, c ∈ train) ∧ LloydRun env.km (env.run 0).ch dim 15 train first last ∧
      last.length = parts ∧ (∀ c ∈ last, c.length = dim) ∧
      (∀ p x, rows[p]? = some x → (place p).Nodup ∧ (place p).length = k ∧ (∀ c ∈ place p, c < parts) ∧
        KNearest k (Finset.range parts) (fun c => (last.map (env.km.entry (env.conv e x))).getD c F32.nan)
          ((place p).map (fun c => (c, (last.map (env.km.entry (env.conv e x))).getD c F32.nan)))) ∧
      Spec.LeavesParts ops pre parts (Spec.floatFile parts dim last.flatten)
        (some (fun c => Spec.binFile dim ((Spec.shardOf place rows.length c).map (fun p => rows.getD p []))))
        (fun c => Spec.idFile (Spec.shardOf place rows.length c)) := by
  have hI := isInt_iff.1 (atoi_ok_iff.1 h1).2
  have hwr : wrap64 (parts : Int) = parts := by unfold wrap64; omega
  have hmain : partitionMain env [a, elemWord e, data, pre, r, tn, tk] fs = done (
      partitionData e.size (env.conv e) env.rnd env.km (env.run 0) (env.mem 0) 5000000 env.pops (atof r) parts 15 k
        (some (Spec.binFile dim rows)) env.j env.j' >>= fun r => filesTool env data (partFiles true pre r)) := by
    rw [partitionMain_args env _ _ _ _ _ _ _ fs h1 h2, elemArg_word]
    show done _ = _
    rw [h.file, sample_train (elem_size_le e) h.wf.j h.n h.d h.row h.size, Res.ok_bind]
    dsimp only
    rw [hwr, Int.toNat_natCast, u64, Nat.mod_eq_of_lt (by omega), if_neg (by omega)]
    rfl
  rw [hmain]
  rcases C84_partition e.size dim (elem_size_le e) (env.conv e) env.rnd (h.run 0) h.tame (env.mem 0) 5000000 (by omega) env.pops h.pops (atof r) parts 15 k hk hp1
    (by omega) rows h.n h.d h.row h.size h.conv env.j env.j' h.wf.j.1 h.wf.j.2 h.wf.j'.1 h.wf.j'.2 train h.train h.max (h.init 0) with
    ⟨hl, hkl⟩ | ⟨first, last, f1, f2, f3, f4, f5, place, f6, f7⟩
  · left
    refine ⟨?_, hkl⟩
    rw [hl]
    rfl
  · right
    rw [f7, Res.ok_bind, filesTool_part env _ _ hno]
    exact ⟨first, last, place, _, rfl, f1, f2, f3, f4, f5, f6, partFiles_leaves (wd := true) (by omega) _ _⟩

/-- The centres of a partition, and what is left to do. -/
theorem partitionMain_centres {env : TrainEnv D} {e : Elem} {fs : FS Bytes} {data r : Bytes} {dim : Nat} {rows : List Bytes} {P : List F32 → Prop}
    {train : List (List F32)} (h : PartInput env e fs data r dim rows P train) (a pre tn tk : Bytes) (parts : Nat) (k : Int)
    (h1 : atoi tn = .ok (parts : Int)) (h2 : atoi tk = .ok k) (hp1 : 1 ≤ parts) (hmem : parts * dim ≤ 2305843009213693951) :
    partitionMain env [a, elemWord e, data, pre, r, tn, tk] fs = .error .loop ∨
    ∃ last : List (List F32), last.length = parts ∧ (∀ c ∈ last, P c ∧ c.length = dim) ∧
      partitionMain env [a, elemWord e, data, pre, r, tn, tk] fs = done (
        shardData true ⟨5000000, (env.run 0).ccBlk, parts, k.toNat, centreDists (env.conv e) env.km.entry (matBytes last) parts dim, env.pops⟩ e.size dim
          (some (Spec.binFile dim rows)) env.j' >>= fun sh =>
        if k < 0 ∧ sh ≠ none then .error .throw else filesTool env data (partFiles true pre (Spec.floatFile parts dim last.flatten, sh))) := by
  have hI := isInt_iff.1 (atoi_ok_iff.1 h1).2
  have hml : ((List.range parts).map (env.mem 0)).length = parts := by simp
  have hwr : wrap64 (parts : Int) = parts := by unfold wrap64; omega
  have e0 : partitionMain env [a, elemWord e, data, pre, r, tn, tk] fs = done (
      kmeansF env.km (env.run 0) dim 15 train ((List.range parts).map (env.mem 0)) >>= fun last =>
      shardData true ⟨5000000, (env.run 0).ccBlk, parts, k.toNat, centreDists (env.conv e) env.km.entry (matBytes last) parts dim, env.pops⟩ e.size dim
        (some (Spec.binFile dim rows)) env.j' >>= fun sh =>
      if k < 0 ∧ sh ≠ none then .error .throw else filesTool env data (partFiles true pre (Spec.floatFile parts dim last.flatten, sh))) := by
    rw [partitionMain_args env _ _ _ _ _ _ _ fs h1 h2, elemArg_word]
    show done _ = _
    rw [h.file, sample_train (elem_size_le e) h.wf.j h.n h.d h.row h.size, Res.ok_bind]
    dsimp only
    rw [hwr, u64, Nat.mod_eq_of_lt (by omega), if_neg (by omega)]
    unfold partitionData
    rw [sample_train (elem_size_le e) h.wf.j h.n h.d h.row h.size, Res.ok_bind]
    dsimp only
    rw [← h.train, matRows_flatten (fun v hv => (h.trainP v hv).2), bind_assoc]
    congr 2
    funext cs
    rw [bind_assoc]
    congr 1
    funext sh
    rw [Res.ok_bind, u32, u32, Nat.mod_eq_of_lt (by omega : parts < 4294967296), Nat.mod_eq_of_lt h.d]
    rfl
  rw [e0]
  rcases C84_kmeans (h.run 0) h.tame 15 (mem := (List.range parts).map (env.mem 0)) (by have := h.init 0; omega) h.max h.trainP (by omega) (h.init 0) with
    hl | ⟨first, last, ek, -, -, -, h4, h5⟩
  · left
    rw [hl]
    rfl
  · right
    rw [hml] at h4
    refine ⟨last, h4, h5, ?_⟩
    rw [ek, Res.ok_bind]

/-- **C88 (partition: more closest centres than centres).** With `k` above the number of parts every vector is `k` times in the first
shard, and the others are empty. -/
theorem C88_partition_fails {env : TrainEnv D} {e : Elem} {fs : FS Bytes} {data r : Bytes} {dim : Nat} {rows : List Bytes} {P : List F32 → Prop}
    {train : List (List F32)} (h : PartInput env e fs data r dim rows P train) (a pre tn tk : Bytes) (parts k : Nat)
    (h1 : atoi tn = .ok (parts : Int)) (h2 : atoi tk = .ok (k : Int)) (hp1 : 1 ≤ parts) (hk : parts < k) (hmem : parts * dim ≤ 2305843009213693951)
    (hnk : rows.length * k < 4294967296) (hno : NotOutput true data pre parts) :
    partitionMain env [a, elemWord e, data, pre, r, tn, tk] fs = .error .loop ∨
    ∃ (last : List (List F32)) (ops : List (FOp Bytes)), partitionMain env [a, elemWord e, data, pre, r, tn, tk] fs = .ok (.run ops) ∧
      Spec.LeavesParts ops pre parts (Spec.floatFile parts dim last.flatten)
        (some (fun c => Spec.binFile dim (if c = 0 then rows.flatMap (List.replicate k) else [])))
        (fun c => Spec.idFile (if c = 0 then (List.range rows.length).flatMap (List.replicate k) else [])) := by
  have hI := isInt_iff.1 (atoi_ok_iff.1 h1).2
  rcases partitionMain_centres h a pre tn tk parts k h1 h2 hp1 hmem with hl | ⟨last, -, -, e1⟩
  · exact Or.inl hl
  · right
    rw [e1, Int.toNat_natCast, C54_too_many true ⟨5000000, (env.run 0).ccBlk, parts, k, centreDists (env.conv e) env.km.entry (matBytes last) parts dim, env.pops⟩
      e.size dim rows env.j' h.wf.j'.1 h.wf.j'.2 h.rows1 hnk h.d h.row (show 1 ≤ 5000000 by omega) h.size hk hp1, Res.ok_bind, if_neg (by omega)]
    dsimp only
    rw [filesTool_part env _ _ hno]
    exact ⟨last, _, rfl, partFiles_leaves (wd := true) (by omega) _ _⟩

/-- **C88 (limits of the partition).** With a negative number of parts, or a negative `k`, the program ends with an exception; without a sampled vector, or with
0 parts, its behaviour is undefined. -/
theorem C88_partition_limits {env : TrainEnv D} {e : Elem} {fs : FS Bytes} {data r : Bytes} {dim : Nat} {rows : List Bytes} (hw : env.WF)
    (hn : rows.length < 4294967296) (hd1 : 1 ≤ dim) (hd : dim < 4294967296) (hrow : ∀ x ∈ rows, x.length = dim * e.size)
    (hf : (Spec.binFile dim rows).length < 9223372036854775808) (hfile : fs data = some (Spec.binFile dim rows)) (a pre tn tk : Bytes) (np k : Int)
    (h1 : atoi tn = .ok np) (h2 : atoi tk = .ok k) (train : List (List F32))
    (htrain : train = Spec.trainSet (sampleCoin env.rnd (atof r)) (env.conv e) rows) (hmax : train.length ≤ 8388608) :
    (np < 0 → partitionMain env [a, elemWord e, data, pre, r, tn, tk] fs = .error .throw) ∧
    (np = 0 → partitionMain env [a, elemWord e, data, pre, r, tn, tk] fs = .error .ub) ∧
    (0 ≤ np → np.toNat * dim ≤ 2305843009213693951 → train = [] → partitionMain env [a, elemWord e, data, pre, r, tn, tk] fs = .error .ub) ∧
    (0 < np → np.toNat * dim ≤ 2305843009213693951 → k < 0 → ∀ P, PartInput env e fs data r dim rows P train →
      partitionMain env [a, elemWord e, data, pre, r, tn, tk] fs = .error .loop ∨
      partitionMain env [a, elemWord e, data, pre, r, tn, tk] fs = .error .throw) := by
  have hI := isInt_iff.1 (atoi_ok_iff.1 h1).2
  have key : ∀ n : Nat, np = n → n * dim ≤ 2305843009213693951 → train = [] ∨ n = 0 →
      partitionMain env [a, elemWord e, data, pre, r, tn, tk] fs = .error .ub := by
    intro n hnp hm hz
    subst hnp
    rw [partitionMain_args env _ _ _ _ _ _ _ fs h1 h2, elemArg_word]
    show done _ = _
    rw [hfile, sample_train (elem_size_le e) hw.j hn hd hrow hf, Res.ok_bind]
    dsimp only
    rw [show wrap64 (n : Int) = n by unfold wrap64; omega, u64, Nat.mod_eq_of_lt (by omega), if_neg (by omega)]
    unfold partitionData
    rw [sample_train (elem_size_le e) hw.j hn hd hrow hf, Res.ok_bind]
    dsimp only
    have hz' : matRows (Spec.trainSet (sampleCoin env.rnd (atof r)) (env.conv e) rows).length dim
        (Spec.trainSet (sampleCoin env.rnd (atof r)) (env.conv e) rows).flatten = [] ∨ (List.range n).map (env.mem 0) = [] := by
      rcases hz with hz | hz
      · left; rw [← htrain, hz]; rfl
      · right; rw [hz]; rfl
    rw [C84_limits env.km (env.run 0) dim 15 _ _ (by rw [← htrain]; unfold matRows; simpa using hmax) hz']
    rfl
  refine ⟨fun h => ?_, fun h => key 0 h (by omega) (Or.inr rfl), fun h hm ht => key np.toNat (by omega) hm (Or.inl ht), fun h hm hk P hP => ?_⟩
  · rw [partitionMain_args env _ _ _ _ _ _ _ fs h1 h2, elemArg_word]
    show done _ = _
    rw [hfile, sample_train (elem_size_le e) hw.j hn hd hrow hf, Res.ok_bind]
    dsimp only
    rw [if_pos]
    · rfl
    · obtain ⟨m, hm⟩ : ∃ m : Nat, np = -(m : Int) := ⟨(-np).toNat, by omega⟩
      have hm1 : 1 ≤ m := by omega
      have hm2 : m ≤ 2147483648 := by omega
      have e1 : wrap64 np = 18446744073709551616 - m := by unfold wrap64; omega
      have hb : m * dim < 9223372036854775808 + 1 := by
        have := Nat.mul_le_mul hm2 (Nat.le_of_lt hd)
        omega
      have hb1 : 1 ≤ m * dim := Nat.mul_pos hm1 hd1
      have e2 : (18446744073709551616 - m) * dim = 18446744073709551616 * (dim - 1) + (18446744073709551616 - m * dim) := by
        rw [Nat.sub_mul]
        have : 18446744073709551616 * dim = 18446744073709551616 * (dim - 1) + 18446744073709551616 := by
          rw [← Nat.mul_succ]; congr 1; omega
        omega
      rw [u64, e1, e2, Nat.mul_add_mod, Nat.mod_eq_of_lt (by omega)]
      omega
  · rcases partitionMain_centres hP a pre tn tk np.toNat k (by rw [h1]; congr 1; omega) h2 (by omega) hm with hl | ⟨last, l1, l2, e1⟩
    · exact Or.inl hl
    · right
      have hlt : ∀ x ∈ rows, ∀ y ∈ last.map (env.km.entry (env.conv e x)), y.lt F32.fmax = true := by
        intro x hx y hy
        obtain ⟨c, hc, rfl⟩ := List.mem_map.1 hy
        exact hP.tame.entry _ _ (hP.conv x hx).1 (l2 c hc).1
      obtain ⟨place, -, es⟩ := C54_shards true ⟨5000000, (env.run 0).ccBlk, np.toNat, k.toNat, centreDists (env.conv e) env.km.entry (matBytes last) np.toNat dim, env.pops⟩
        hP.pops e.size dim rows env.j' hw.j'.1 hw.j'.2 hP.rows1 hn hd hrow (show 1 ≤ 5000000 by omega) (hP.run 0).ccBlk hf (by
          show k.toNat ≤ np.toNat
          omega) (by
          intro x hx
          unfold GoodRow
          dsimp only
          rw [centreDists_matBytes (fun v hv => (l2 v hv).2) l1]
          refine ⟨by simp [l1], fun y hy => F32.isNum_of_lt_left (hlt x hx y hy), fun _ => ?_⟩
          obtain ⟨c, hc⟩ := List.exists_mem_of_length_pos (show 0 < last.length by omega)
          exact ⟨_, List.mem_map_of_mem hc, hlt x hx _ (List.mem_map_of_mem hc)⟩)
      rw [e1, es, Res.ok_bind, if_pos ⟨hk, by simp⟩]
      rfl

/-! ## Examples -/

theorem exPartInput : PartInput exTrainEnv .uint8 exTrainFs (ascii "d") (ascii "0.5") 1 exRows10 (fun _ => True) ([49, 54, 55, 56, 57].map (fun n => [exNat n])) where
  wf := exTrainEnv_WF
  run := exTrainEnv_run
  pops := exPops_isPopOrder
  n := by decide
  d := by decide
  row := by decide
  size := by decide +kernel
  file := exTrainFs_d
  tame := exKm_tame 1
  conv := fun x hx => ⟨trivial, by revert x; decide +kernel⟩
  train := by decide +kernel
  max := by decide
  init := fun _ => show 0 < 5 by decide

theorem exNotOutput (wd : Bool) (parts : Nat) : NotOutput wd (ascii "d") (ascii "p") parts := by
  refine ⟨by decide +kernel, fun c _ => ⟨fun _ h => ?_, fun h => ?_⟩⟩
  · have := congrArg List.length h
    simp [shardName, ascii] at this
  · have := congrArg List.length h
    simp [shardIdsName, ascii] at this

/-- Two parts, every vector in one. -/
example : ∃ place ops, partitionMain exTrainEnv [ascii "partition", ascii "uint8", ascii "d", ascii "p", ascii "0.5", ascii "2", ascii "1"] exTrainFs = .ok (.run ops) ∧
    runOps ops exTrainFs (ascii "p_subshard-1_ids_uint32.bin") = some (Spec.idFile (Spec.shardOf place 10 1)) ∧ (place 0).length = 1 :=
  match C88_partition exPartInput (ascii "partition") (ascii "p") (ascii "2") (ascii "1") 2 1 (by decide +kernel) (by decide +kernel) (by decide) (by decide)
    (by decide) (exNotOutput _ _) with
  | .inl h => absurd h (by
      have e : (match partitionMain exTrainEnv [ascii "partition", ascii "uint8", ascii "d", ascii "p", ascii "0.5", ascii "2", ascii "1"] exTrainFs with
        | .ok _ => true | .error _ => false) = true := by decide +kernel
      intro h; rw [show elemWord .uint8 = ascii "uint8" from rfl] at h; rw [h.1] at e; cases e)
  | .inr ⟨_, _, place, ops, h1, _, _, _, _, _, h2, h3⟩ => ⟨place, ops, h1, ((h3 exTrainFs).2.1 1 (by decide)).2, (h2 0 [49] rfl).2.1⟩

/-- Three closest centres of two: every vector three times in the first part. -/
example : ∃ ops, partitionMain exTrainEnv [ascii "partition", ascii "uint8", ascii "d", ascii "p", ascii "0.5", ascii "2", ascii "3"] exTrainFs = .ok (.run ops) ∧
    runOps ops exTrainFs (ascii "p_subshard-0_ids_uint32.bin") = some (Spec.idFile ((List.range 10).flatMap (List.replicate 3))) ∧
    runOps ops exTrainFs (ascii "p_subshard-1_ids_uint32.bin") = some (Spec.idFile []) :=
  match C88_partition_fails exPartInput (ascii "partition") (ascii "p") (ascii "2") (ascii "3") 2 3 (by decide +kernel) (by decide +kernel) (by decide) (by decide)
    (by decide) (by decide) (exNotOutput _ _) with
  | .inl h => absurd h (by
      have e : (match partitionMain exTrainEnv [ascii "partition", ascii "uint8", ascii "d", ascii "p", ascii "0.5", ascii "2", ascii "3"] exTrainFs with
        | .ok _ => true | .error _ => false) = true := by decide +kernel
      intro h; rw [show elemWord .uint8 = ascii "uint8" from rfl] at h; rw [h] at e; cases e)
  | .inr ⟨_, ops, h1, h3⟩ => ⟨ops, h1, ((h3 exTrainFs).2.1 0 (by decide)).2, ((h3 exTrainFs).2.1 1 (by decide)).2⟩

/-- A negative number of parts, none, and nothing sampled. -/
example : partitionMain exTrainEnv [ascii "partition", ascii "uint8", ascii "d", ascii "p", ascii "0.5", ascii "-2", ascii "1"] exTrainFs = .error .throw ∧
    partitionMain exTrainEnv [ascii "partition", ascii "uint8", ascii "d", ascii "p", ascii "0.5", ascii "0", ascii "1"] exTrainFs = .error .ub ∧
    partitionMain exTrainEnv [ascii "partition", ascii "uint8", ascii "d", ascii "p", ascii "0", ascii "2", ascii "1"] exTrainFs = .error .ub :=
  have h (r t : Bytes) (c : Int) (hc : atoi t = .ok c) := C88_partition_limits (e := .uint8) (data := ascii "d") (r := r) exTrainEnv_WF (dim := 1) (rows := exRows10)
    (by decide) (by decide) (by decide) (by decide) (by decide +kernel) exTrainFs_d (ascii "partition") (ascii "p") t (ascii "1") c 1 hc (by decide +kernel)
  ⟨(h (ascii "0.5") _ (-2) (by decide +kernel) _ exPartInput.train (by decide)).1 (by decide),
    (h (ascii "0.5") _ 0 (by decide +kernel) _ exPartInput.train (by decide)).2.1 rfl,
    (h (ascii "0") _ 2 (by decide +kernel) [] (by decide +kernel) (by decide)).2.2.1 (by decide) (by decide) rfl⟩

end Grann
