import Verif.Model.UtilTrain
import Verif.Proofs.FloatOrder
import Verif.Props.UtilLine
import Verif.Props.CommandRun
import Verif.Props.KmeansUse
import Verif.Props.RamBudget
/-!
# C88: the sampling, quantisation and partition tools from the command line on
-/

namespace Grann

namespace Spec

/-- The operations leave the files of a list with their contents, and every other file as it was. -/
def LeavesAll (ops : List (FOp Bytes)) (l : List (Bytes × Bytes)) : Prop :=
  ∀ fs, (∀ x ∈ l, runOps ops fs x.1 = some x.2) ∧ ∀ q, q ∉ l.map Prod.fst → runOps ops fs q = fs q

end Spec

open Spec (elemWord)

variable {D : Type}

theorem outOps_leaves : ∀ {l : List (Bytes × Bytes)}, (l.map Prod.fst).Nodup → Spec.LeavesAll (outOps l) l
  | [], _ => fun fs => ⟨by simp, fun q _ => rfl⟩
  | x :: l, h => by
    intro fs
    rw [List.map_cons, List.nodup_cons] at h
    have e : runOps (outOps (x :: l)) fs = runOps (outOps l) (runOps [.create x.1, .append x.1 x.2] fs) := by
      show runOps ([.create x.1, .append x.1 x.2] ++ outOps l) fs = _
      rw [runOps_append]
    rw [e]
    have ih := outOps_leaves h.2 (runOps [.create x.1, .append x.1 x.2] fs)
    have hx := leaves_out x.1 x.2 fs
    refine ⟨fun y hy => ?_, fun q hq => ?_⟩
    · rcases List.mem_cons.1 hy with rfl | hy
      · rw [ih.2 _ h.1, hx.1]
      · exact ih.1 y hy
    · rw [List.map_cons, List.mem_cons, not_or] at hq
      rw [ih.2 q hq.2, hx.2 q hq.1]

theorem cmdOf_not_usage {α β : Type} {o : Option α} {f : α → Res (Cmd β)} (h : ∀ a, f a ≠ .ok .usage) : cmdOf o f ≠ .ok .usage := by
  unfold cmdOf
  split
  · intro h; cases h
  · exact h _

/-! ## Usage -/

/-- **C88 (usage).** Every tool prints its usage exactly if the number of arguments is not the expected one. -/
theorem C88_usage (env : TrainEnv D) (argv : List Bytes) (fs : FS Bytes) :
    (sliceMain env argv fs = .ok .usage ↔ argv.length ≠ 5) ∧
    (pqMain env argv fs = .ok .usage ↔ argv.length ≠ 6) ∧
    (partitionMain env argv fs = .ok .usage ↔ argv.length ≠ 7) ∧
    (ramMain env argv fs = .ok .usage ↔ argv.length ≠ 8) := by
  refine ⟨?_, ?_, ?_, ?_⟩
  · unfold sliceMain
    by_cases h : argv.length ≠ 5
    · simp [h]
    · rw [if_neg h]
      refine ⟨fun h' => absurd h' (bind_not_usage _ _ fun _ => cmdOf_not_usage fun _ => bind_not_usage _ _ fun _ => bind_not_usage _ _ fun _ =>
        bind_not_usage _ _ fun _ => ?_), fun h' => absurd h' h⟩
      split <;> exact done_not_usage _
  · unfold pqMain
    by_cases h : argv.length ≠ 6
    · simp [h]
    · rw [if_neg h]
      refine ⟨fun h' => absurd h' (bind_not_usage _ _ fun _ => bind_not_usage _ _ fun _ => bind_not_usage _ _ fun _ =>
        bind_not_usage _ _ fun _ => bind_not_usage _ _ fun _ => cmdOf_not_usage fun _ => ?_), fun h' => absurd h' h⟩
      split <;> exact done_not_usage _
  · unfold partitionMain
    by_cases h : argv.length ≠ 7
    · simp [h]
    · rw [if_neg h]
      exact ⟨fun h' => absurd h' (bind_not_usage _ _ fun _ => bind_not_usage _ _ fun _ => bind_not_usage _ _ fun _ =>
        bind_not_usage _ _ fun _ => bind_not_usage _ _ fun _ => bind_not_usage _ _ fun _ => cmdOf_not_usage fun _ => done_not_usage _),
        fun h' => absurd h' h⟩
  · unfold ramMain
    by_cases h : argv.length ≠ 8
    · simp [h]
    · rw [if_neg h]
      exact ⟨fun h' => absurd h' (bind_not_usage _ _ fun _ => bind_not_usage _ _ fun _ => bind_not_usage _ _ fun _ =>
        bind_not_usage _ _ fun _ => bind_not_usage _ _ fun _ => bind_not_usage _ _ fun _ => bind_not_usage _ _ fun _ => cmdOf_not_usage fun _ =>
        done_not_usage _), fun h' => absurd h' h⟩

/-! ## The arguments -/

theorem sliceMain_args (env : TrainEnv D) (a t base pre r : Bytes) (fs : FS Bytes) :
    sliceMain env [a, t, base, pre, r] fs = cmdOf (elemArg t) fun e =>
      if base = pre ++ ascii "_data.bin" ∨ base = pre ++ ascii "_ids.bin" then done env.both else
      done (do
        let (data, ids) ← sliceFile e.size (fun i => (env.rnd i).lt (atof r)) (fs base) env.j
        .ok (outOps [(pre ++ ascii "_data.bin", data), (pre ++ ascii "_ids.bin", ids)])) := rfl

theorem pqMain_args (env : TrainEnv D) (a t data pre tc r : Bytes) (fs : FS Bytes) {c : Int} (h : atoi tc = .ok c) :
    pqMain env [a, t, data, pre, tc, r] fs = cmdOf (elemArg t) fun e =>
      if ∃ i, data = pqName pre i then done env.both else done (pqTool env e data pre (wrap32 c) (atof r) fs) := by
  unfold pqMain
  rw [if_neg (by simp)]
  simp only [numAt, floatAt, rd, List.getElem?_cons_succ, List.getElem?_cons_zero, Res.ok_bind, h]

theorem partitionMain_args (env : TrainEnv D) (a t data pre r tn tk : Bytes) (fs : FS Bytes) {np k : Int} (h1 : atoi tn = .ok np)
    (h2 : atoi tk = .ok k) :
    partitionMain env [a, t, data, pre, r, tn, tk] fs = cmdOf (elemArg t) fun e => done (do
      let (_, _, dim) ← sliceMem e.size (sampleCoin env.rnd (atof r)) (env.conv e) (fs data) env.j
      if 2305843009213693951 < u64 (wrap64 np * dim) then .error .throw
      else do
        let r ← partitionData e.size (env.conv e) env.rnd env.km (env.run 0) (env.mem 0) 5000000 env.pops (atof r) (wrap64 np) 15
          k.toNat (fs data) env.j env.j'
        if k < 0 ∧ r.2 ≠ none then .error .throw else filesTool env data (partFiles true pre r)) := by
  unfold partitionMain
  rw [if_neg (by simp)]
  simp only [numAt, floatAt, rd, List.getElem?_cons_succ, List.getElem?_cons_zero, Res.ok_bind, h1, h2]

theorem ramMain_args (env : TrainEnv D) (a t data pre r tb tg tk : Bytes) (fs : FS Bytes) {deg k : Int} (h1 : atoi tg = .ok deg)
    (h2 : atoi tk = .ok k) :
    ramMain env [a, t, data, pre, r, tb, tg, tk] fs = cmdOf (elemArg t) fun e => done (do
      let r ← ramTool env e (atof r) (atod tb) (wrap64 deg) k (fs data)
      filesTool env data (partFiles false pre r)) := by
  unfold ramMain
  rw [if_neg (by simp)]
  simp only [numAt, floatAt, rd, List.getElem?_cons_succ, List.getElem?_cons_zero, Res.ok_bind, h1, h2]

theorem elemArg_word (e : Elem) : elemArg (elemWord e) = some e := by cases e <;> rfl

/-- **C88 (other types).** With an unknown type the tools print a message and change nothing (if the numbers fit the type `int`). -/
theorem C88_unknown (env : TrainEnv D) (a t x y z u v w : Bytes) (ht : t ≠ ascii "float" ∧ t ≠ ascii "int8" ∧ t ≠ ascii "uint8") (fs : FS Bytes)
    {m n : Int} (h1 : atoi v = .ok m) (h2 : atoi w = .ok n) :
    sliceMain env [a, t, x, y, z] fs = .ok .refused ∧
    pqMain env [a, t, x, y, v, z] fs = .ok .refused ∧
    partitionMain env [a, t, x, y, z, v, w] fs = .ok .refused ∧
    ramMain env [a, t, x, y, z, u, v, w] fs = .ok .refused := by
  rw [sliceMain_args, pqMain_args env _ _ _ _ _ _ fs h1, partitionMain_args env _ _ _ _ _ _ _ fs h1 h2,
    ramMain_args env _ _ _ _ _ _ _ _ fs h1 h2, elemArg_none ht]
  exact ⟨rfl, rfl, rfl, rfl⟩

/-! ## Names -/

/-- **C88 (names).** The files written for one prefix have different names. -/
theorem C88_names (pre : Bytes) :
    pre ++ ascii "_data.bin" ≠ pre ++ ascii "_ids.bin" ∧ Function.Injective (pqName pre) ∧
    (∀ i j, i < 10 ^ 20 → j < 10 ^ 20 → shardName pre i = shardName pre j → i = j) ∧
    (∀ i j, i < 10 ^ 20 → j < 10 ^ 20 → shardIdsName pre i = shardIdsName pre j → i = j) ∧
    (∀ i j, i < 10 ^ 20 → j < 10 ^ 20 → shardName pre i ≠ shardIdsName pre j) ∧
    (∀ i, shardName pre i ≠ centresName pre ∧ shardIdsName pre i ≠ centresName pre) := by
  have hb : ∀ c, (ascii ".bin").head? = some c → isDigit c = false := by decide +kernel
  have hi : ∀ c, (ascii "_ids_uint32.bin").head? = some c → isDigit c = false := by decide +kernel
  refine ⟨?_, ?_, ?_, ?_, ?_, ?_⟩
  · rw [Ne, List.append_cancel_left_eq]
    decide +kernel
  · intro i j
    match i, j with
    | 0, 0 | 1, 1 | 2, 2 | 3, 3 | 4, 4 => exact fun _ => rfl
    | 0, 1 | 0, 2 | 0, 3 | 0, 4 | 1, 0 | 1, 2 | 1, 3 | 1, 4 | 2, 0 | 2, 1 | 2, 3 | 2, 4 | 3, 0 | 3, 1 | 3, 2 | 3, 4 | 4, 0 | 4, 1 | 4, 2 | 4, 3 =>
      intro h
      unfold pqName at h
      rw [List.append_cancel_left_eq] at h
      revert h
      decide +kernel
  · intro i j h1 h2 h
    unfold shardName at h
    rw [List.append_assoc, List.append_assoc (pre ++ ascii "_subshard-"), List.append_cancel_left_eq] at h
    exact (decimal_split h1 (by omega) h2 (by omega) hb hb h).1
  · intro i j h1 h2 h
    unfold shardIdsName at h
    rw [List.append_assoc, List.append_assoc (pre ++ ascii "_subshard-"), List.append_cancel_left_eq] at h
    exact (decimal_split h1 (by omega) h2 (by omega) hi hi h).1
  · intro i j h1 h2 h
    unfold shardName shardIdsName at h
    rw [List.append_assoc, List.append_assoc (pre ++ ascii "_subshard-"), List.append_cancel_left_eq] at h
    have := (decimal_split h1 (by omega) h2 (by omega) hb hi h).2
    revert this
    decide +kernel
  · intro i
    have h : ∀ r : Bytes, pre ++ (ascii "_subshard-" ++ r) ≠ pre ++ ascii "_centroids.bin" := by
      intro r h
      rw [List.append_cancel_left_eq] at h
      have := congrArg (fun l => l[1]?) h
      revert this
      show ¬ (some 115 = some 99)
      decide
    unfold shardName shardIdsName centresName
    simp only [List.append_assoc]
    exact ⟨h _, h _⟩

/-! ## Sampling -/

/-- **C88 (sampling).** `gen_random_slice type in prefix rate` leaves in the two output files the sampled vectors and their numbers: those whose random
number is below the rate, in order. -/
theorem C88_slice (env : TrainEnv D) (hj : env.j.npts.length = 4 ∧ env.j.dim.length = 4) (a base pre r : Bytes) (e : Elem) (fs : FS Bytes)
    (h1 : base ≠ pre ++ ascii "_data.bin") (h2 : base ≠ pre ++ ascii "_ids.bin") (dim : Nat) (rows : List Bytes)
    (hn : rows.length < 4294967296) (hd : dim < 4294967296) (hrow : ∀ x ∈ rows, x.length = dim * e.size)
    (hf : (Spec.binFile dim rows).length < 9223372036854775808) (hfile : fs base = some (Spec.binFile dim rows))
    (keep : List Nat) (hkeep : keep = (List.range rows.length).filter (fun i => (env.rnd i).lt (atof r))) :
    ∃ ops, sliceMain env [a, elemWord e, base, pre, r] fs = .ok (.run ops) ∧
      Spec.LeavesAll ops [(pre ++ ascii "_data.bin", Spec.binFile dim (keep.map (fun i => rows.getD i []))), (pre ++ ascii "_ids.bin", Spec.idFile keep)] := by
  refine ⟨_, ?_, outOps_leaves ?_⟩
  · rw [sliceMain_args, elemArg_word]
    show (if _ then _ else _) = _
    rw [if_neg (by simp [h1, h2]), hfile, C56_files e.size dim rows _ env.j hj.1 hj.2 hn hd (by cases e <;> decide) hrow hf, hkeep]
    rfl
  · simp [(C88_names pre).1]

/-- **C88 (rates).** With random numbers from 0 up to, but not including, 1, a rate up to 0 keeps nothing and a rate of at least 1 keeps
everything. -/
theorem C88_slice_rates (env : TrainEnv D) (r : Bytes) (n : Nat) (hr : Spec.Finite (atof r))
    (hrnd : ∀ i < n, Spec.Finite (env.rnd i) ∧ 0 ≤ Spec.value (env.rnd i) ∧ Spec.value (env.rnd i) < 1) :
    (Spec.value (atof r) ≤ 0 → (List.range n).filter (fun i => (env.rnd i).lt (atof r)) = []) ∧
    (1 ≤ Spec.value (atof r) → (List.range n).filter (fun i => (env.rnd i).lt (atof r)) = List.range n) := by
  constructor
  · intro h
    rw [List.filter_eq_nil_iff]
    intro i hi
    obtain ⟨f, h0, -⟩ := hrnd i (List.mem_range.1 hi)
    rw [lt_iff_value f hr]
    linarith
  · intro h
    rw [List.filter_eq_self]
    intro i hi
    obtain ⟨f, -, h1⟩ := hrnd i (List.mem_range.1 hi)
    rw [lt_iff_value f hr]
    linarith

/-! ## Examples -/

def exTrainEnv : TrainEnv Nat where
  rnd := exRnd
  rnd2 := exRnd
  conv := fun _ => exConv
  km := exKm
  run := fun _ => { exKmRun with fuel := 300 }
  mem := fun _ _ => []
  memF := fun _ => F32.nan
  sub := fun a _ => a
  divn := fun a _ => a
  pops := exPops
  j := exTruthJunk
  j' := exTruthJunk
  j'' := exTruthJunk
  jt := exLoadJunk
  j1 := exLoadJunk
  j2 := exLoadJunk
  j3 := exLoadJunk
  j4 := exLoadJunk
  fuel := 10
  both := .error .ub

/-- Ten numbers in the file `d`. -/
def exTrainFs : FS Bytes := fun p => if p = ascii "d" then some (Spec.binFile 1 exRows10) else none

theorem exTrainFs_d : exTrainFs (ascii "d") = some (Spec.binFile 1 exRows10) := if_pos rfl

example : sliceMain exTrainEnv (cmdWords ["slice", "uint8", "d", "o"]) exTrainFs = .ok .usage :=
  (C88_usage exTrainEnv _ _).1.2 (by decide)

example : sliceMain exTrainEnv (cmdWords ["slice", "double", "d", "o", "1"]) exTrainFs = .ok .refused :=
  (C88_unknown exTrainEnv _ _ _ _ _ [] (ascii "1") (ascii "1") (by decide +kernel) _ (by decide +kernel : atoi (ascii "1") = .ok 1)
    (by decide +kernel : atoi (ascii "1") = .ok 1)).1

/-- Half of the points. -/
example : ∃ ops, sliceMain exTrainEnv [ascii "slice", ascii "uint8", ascii "d", ascii "o", ascii "0.5"] exTrainFs = .ok (.run ops) ∧
    Spec.LeavesAll ops [(ascii "o_data.bin", Spec.binFile 1 [[49], [54], [55], [56], [57]]), (ascii "o_ids.bin", Spec.idFile [0, 2, 4, 6, 8])] :=
  C88_slice exTrainEnv ⟨rfl, rfl⟩ (ascii "slice") (ascii "d") (ascii "o") (ascii "0.5") .uint8 exTrainFs (by decide +kernel) (by decide +kernel) 1 exRows10
    (by decide) (by decide) (by decide) (by decide +kernel) exTrainFs_d [0, 2, 4, 6, 8] (by decide +kernel)

theorem value_zero : Spec.value F32.zero = 0 := by norm_num [Spec.value, F32.zero, Spec.magnitude]

theorem value_one : Spec.value F32.one = 1 := by norm_num [Spec.value, F32.one, Spec.magnitude]

/-- With the rate 1.5, which is not limited here, all of them. -/
example : (List.range 10).filter (fun i => (exTrainEnv.rnd i).lt (atof (ascii "1.5"))) = List.range 10 := by
  have f0 : Spec.Finite F32.zero := by unfold Spec.Finite; decide
  have f1 : Spec.Finite F32.one := by unfold Spec.Finite; decide
  have fr : Spec.Finite (atof (ascii "1.5")) := by unfold Spec.Finite; decide +kernel
  refine (C88_slice_rates exTrainEnv (ascii "1.5") 10 fr ?_).2 ?_
  · intro i _
    have h1 : Spec.Finite (exRnd i) := by
      unfold exRnd Spec.Finite
      split <;> decide
    have h := exRnd_range i
    rw [le_iff_value f0 h1, lt_iff_value h1 f1, value_zero, value_one] at h
    exact ⟨h1, h⟩
  · have e : F32.one.le (atof (ascii "1.5")) = true := by decide +kernel
    rw [le_iff_value f1 fr, value_one] at e
    exact e

end Grann
