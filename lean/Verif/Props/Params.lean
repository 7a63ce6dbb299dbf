import Verif.Model.FloatText
import Verif.Props.LabelFile
/-!
# C44: parameters
-/

namespace Grann

/-- Values that are set: unsigned numbers, booleans, and values of other types given by their text. -/
inductive ParamVal
  | u32 (v : Nat)
  | bool (v : Bool)
  | text (t : Bytes)

/-- A call of `Set`. -/
def Params.set (p : Params) (c : Bytes × ParamVal) : Params :=
  match c.2 with
  | .u32 v => p.setU32 c.1 v
  | .bool v => p.setBool c.1 v
  | .text t => p.setText c.1 t

/-- The value of the last call for a name. -/
def Spec.lastSet (name : Bytes) (calls : List (Bytes × ParamVal)) : Option ParamVal :=
  (calls.filter (fun c => c.1 = name)).getLast?.map Prod.snd

theorem toU32_decimal {x : Nat} (hx : x < 4294967296) : toU32 (decimal 20 x) = .ok x := by
  obtain ⟨h1, h2, h3⟩ := decimal_digits 20 x (by omega) (by omega)
  obtain ⟨c, ds, hd⟩ : ∃ c ds, decimal 20 x = c :: ds := by
    cases hd : decimal 20 x with
    | nil => exact absurd hd h2
    | cons c ds => exact ⟨c, ds, rfl⟩
  have hc := h1 c (by rw [hd]; simp)
  have hsp : isSpace c = false := by
    revert hc; unfold isDigit isSpace
    simp only [Bool.and_eq_true, decide_eq_true_eq, Bool.or_eq_false_iff, Bool.and_eq_false_iff, decide_eq_false_iff_not]
    rintro ⟨ha, hb⟩
    simp only [UInt8.le_iff_toNat_le, ← UInt8.toNat_inj] at *
    simp at *
    omega
  have hdrop : (decimal 20 x).dropWhile isSpace = decimal 20 x := by
    rw [hd, List.dropWhile_cons, hsp]; rfl
  have h43 : c ≠ 43 ∧ c ≠ 45 := by
    constructor <;> (rintro rfl; revert hc; decide)
  have htake : (decimal 20 x).takeWhile isDigit = decimal 20 x := takeWhile_all h1
  have hhead : (decimal 20 x).head? = some c := by rw [hd]; rfl
  unfold toU32
  dsimp only
  rw [hdrop, hhead]
  have hn : ¬ (some c = some (43 : UInt8) ∨ some c = some (45 : UInt8)) := by
    simp [h43.1, h43.2]
  rw [if_neg hn, htake, h3, if_neg (by simpa using h2), if_neg (by omega), if_neg (by simp),
    if_neg (by simp [h43.2])]

theorem Params.lookup_set (p : Params) (c : Bytes × ParamVal) (name : Bytes) :
    (p.set c).lookup name = if name = c.1 then some (match c.2 with
      | .u32 v => decimal 20 v
      | .bool v => if v then [49] else [48]
      | .text t => t) else p.lookup name := by
  unfold Params.set Params.setU32 Params.setBool Params.setText
  cases c.2 <;> exact lookup_aset _ _ _ _

theorem Spec.lastSet_append (name : Bytes) (calls : List (Bytes × ParamVal)) (c : Bytes × ParamVal) :
    Spec.lastSet name (calls ++ [c]) = if name = c.1 then some c.2 else Spec.lastSet name calls := by
  unfold Spec.lastSet
  rw [List.filter_append]
  by_cases h : name = c.1
  · rw [if_pos h]
    simp [h]
  · rw [if_neg h]
    have : c.1 ≠ name := fun e => h e.symm
    simp [this]

theorem Params.lookup_sets (p : Params) (calls : List (Bytes × ParamVal)) (name : Bytes) :
    (calls.foldl Params.set p).lookup name = match Spec.lastSet name calls with
      | some (.u32 v) => some (decimal 20 v)
      | some (.bool v) => some (if v then [49] else [48])
      | some (.text t) => some t
      | none => p.lookup name := by
  induction calls using List.reverseRecOn with
  | nil => rfl
  | append_singleton calls c ih =>
    rw [List.foldl_append, List.foldl_cons, List.foldl_nil, Params.lookup_set, Spec.lastSet_append]
    by_cases h : name = c.1
    · rw [if_pos h, if_pos h]
      cases c.2 <;> rfl
    · rw [if_neg h, if_neg h]; exact ih

/-- **C44.** After any calls of `Set` on a new object, `Get<uint32_t>` returns the number last set for the
name, with and without a default. -/
theorem C44_get_last (calls : List (Bytes × ParamVal)) (name : Bytes) (v : Nat) (hv : v < 4294967296)
    (hl : Spec.lastSet name calls = some (.u32 v)) (dflt : Nat) :
    (calls.foldl Params.set Params.new).get toU32 name = .ok v ∧
      (calls.foldl Params.set Params.new).getD toU32 name dflt = .ok v := by
  have h : (calls.foldl Params.set Params.new).get toU32 name = .ok v := by
    unfold Params.get
    rw [Params.lookup_sets, hl]
    exact toU32_decimal hv
  exact ⟨h, by unfold Params.getD; rw [h]⟩

/-- Booleans are read back as 0 and 1. -/
theorem C44_get_bool (calls : List (Bytes × ParamVal)) (name : Bytes) (v : Bool)
    (hl : Spec.lastSet name calls = some (.bool v)) :
    (calls.foldl Params.set Params.new).get toU32 name = .ok v.toNat := by
  unfold Params.get
  rw [Params.lookup_sets, hl]
  dsimp only
  cases v <;> decide

/-- **C44, names never set.** `Get` throws, the variant with a default returns it; the three names set by the
constructor have their initial values. -/
theorem C44_unset (calls : List (Bytes × ParamVal)) (name : Bytes)
    (hl : Spec.lastSet name calls = none) (dflt : Nat) :
    (name ≠ ascii "num_threads" → name ≠ ascii "alpha" → name ≠ ascii "pruning_rule" →
      (calls.foldl Params.set Params.new).get toU32 name = .error .invalidArgument ∧
      (calls.foldl Params.set Params.new).getD toU32 name dflt = .ok dflt) ∧
    (name = ascii "num_threads" ∨ name = ascii "pruning_rule" →
      (calls.foldl Params.set Params.new).get toU32 name = .ok 0) ∧
    (name = ascii "alpha" → (calls.foldl Params.set Params.new).get toU32 name = .ok 1 ∧
      (calls.foldl Params.set Params.new).get toF32 name = .ok F32.one) := by
  have hg : ∀ {α : Type} (conv : Bytes → Except PErr α),
      (calls.foldl Params.set Params.new).get conv name = Params.new.get conv name := by
    intro α conv
    unfold Params.get
    rw [Params.lookup_sets, hl]
  refine ⟨?_, ?_, ?_⟩
  · intro h1 h2 h3
    have : Params.new.get toU32 name = .error .invalidArgument := by
      unfold Params.get Params.new Params.setU32 Params.setText
      rw [lookup_aset, if_neg h3, lookup_aset, if_neg h2, lookup_aset, if_neg h1]
      rfl
    refine ⟨by rw [hg, this], ?_⟩
    unfold Params.getD
    rw [hg, this]
  · rintro (rfl | rfl) <;> rw [hg] <;> decide +kernel
  · rintro rfl
    rw [hg, hg]
    exact ⟨by decide +kernel, by decide +kernel⟩

/-- **C44, a default does not replace a value that cannot be converted**: the exception is another one. -/
theorem C44_default_not_used (calls : List (Bytes × ParamVal)) (name t : Bytes)
    (hl : Spec.lastSet name calls = some (.text t)) (ht : toU32 t = .error .runtimeError) (dflt : Nat) :
    (calls.foldl Params.set Params.new).getD toU32 name dflt = .error .runtimeError := by
  unfold Params.getD Params.get
  rw [Params.lookup_sets, hl]
  dsimp only
  rw [ht]

/-- The text of 1.2 read as an unsigned number. -/
example : toU32 (F32.text ⟨0x3f99999a#32⟩) = .error .runtimeError := by decide +kernel

example : (([(ascii "R", .u32 64), (ascii "L", .u32 100), (ascii "R", .u32 4294967295)] :
    List (Bytes × ParamVal)).foldl Params.set Params.new).get toU32 (ascii "R") = .ok 4294967295 :=
  (C44_get_last _ _ 4294967295 (by decide) (by rfl) 0).1

/-- Numbers with few digits survive (1.2, 0.01, 1e-05, 16777216) ... -/
example : ([0x3f99999a#32, 0x3c23d70a#32, 0x3727c5ac#32, 0x4b800000#32] : List (BitVec 32)).map (fun b => F32.text ⟨b⟩) =
    [ascii "1.2", ascii "0.01", ascii "1e-05", ascii "1.67772e+07"] := by decide +kernel

example : (Params.setF32 [] (ascii "alpha") ⟨0x3f99999a#32⟩).get toF32 (ascii "alpha") = .ok ⟨0x3f99999a#32⟩ := by
  decide +kernel

/-- **C44 (floats).** Texts of numbers of up to six digits, and the reading of numbers as small as the smallest positive
one. -/
theorem C44_float_texts :
    ([0x47f12000#32, 0x47c35000#32, 0x49742400#32, 0x38d1b717#32, 0xbf000000#32, 0x00000001#32] : List (BitVec 32)).map
      (fun b => F32.text ⟨b⟩) =
      [ascii "123456", ascii "100000", ascii "1e+06", ascii "0.0001", ascii "-0.5", ascii "1.4013e-45"] ∧
    toF32 (ascii "1.4013e-45") = .ok ⟨0x00000001#32⟩ ∧ toF32 (ascii "123456") = .ok ⟨0x47f12000#32⟩ ∧
    toF32 (ascii "1e-46") = .ok ⟨0x00000000#32⟩ ∧ toF32 (ascii "1e39") = .error .runtimeError := by
  decide +kernel

/-- **C44 does not extend to `float`.** The next number above 1 is stored as the text `1` and read back as
1; 16777216 becomes 16777200. -/
theorem C44_float_rounded :
    (Params.setF32 [] (ascii "alpha") ⟨0x3f800001#32⟩).get toF32 (ascii "alpha") = .ok F32.one ∧
    (Params.setF32 [] (ascii "alpha") ⟨0x4b800000#32⟩).get toF32 (ascii "alpha") = .ok ⟨0x4b7ffff0#32⟩ := by
  decide +kernel

/-! ## The theorems applied to examples -/

example : (([(ascii "x", .bool false), (ascii "x", .bool true)] : List (Bytes × ParamVal)).foldl Params.set
    Params.new).get toU32 (ascii "x") = .ok 1 := C44_get_bool _ _ true rfl

example := C44_unset [(ascii "R", .u32 64)] (ascii "L") rfl 100

example : (([(ascii "L", .text (F32.text ⟨0x3f99999a#32⟩))] : List (Bytes × ParamVal)).foldl Params.set
    Params.new).getD toU32 (ascii "L") 100 = .error .runtimeError :=
  C44_default_not_used _ _ _ rfl (by decide +kernel) 100

end Grann
