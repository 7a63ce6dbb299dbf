import Verif.Proofs.Atof
import Verif.Props.CommandArgs
import Verif.Props.UtilRam
/-!
# C88: how the budget on the command line is read
-/

namespace Grann

theorem atod_dec {t w : Bytes} (hw : ∀ c ∈ w, isSpace c = true) {neg : Bool} {a b : Bytes} {k : Int} (h : DecText t neg a b k) :
    atod (w ++ t) = .fin neg (roundBin 53 (scale 10 (digitsVal (a ++ b)) 1 (k - b.length))) := by
  obtain ⟨v, u, r, e1, e2, e3, hinf, hnan, hhex, h1, h2, h3, h4, h5⟩ := dec_parts hw h
  unfold atod
  dsimp only
  rw [e1, e3, e2, if_neg hinf, if_neg hnan, if_neg hhex]
  unfold atodDec
  dsimp only
  rw [h1, h2, h3, h4, h5, if_neg (by simp)]

/-- **C88 (budget).** A decimal number as a budget is read as the nearest number of type `double`. -/
theorem C88_budget {t w : Bytes} (hw : ∀ c ∈ w, isSpace c = true) {neg : Bool} {a b : Bytes} {k : Int} (h : DecText t neg a b k) :
    ∃ x, atod (w ++ t) = .fin neg x ∧ Spec.NearestDouble (digitsVal (a ++ b) * 10 ^ (k - b.length)) (fval x) := by
  refine ⟨_, atod_dec hw h, ?_⟩
  have hp := scale10_den_pos (n := digitsVal (a ++ b)) Nat.one_pos (k - b.length)
  have hv := scale10_val (digitsVal (a ++ b)) 1 (k - b.length)
  have := roundBin_nearest (n := (scale 10 (digitsVal (a ++ b)) 1 (k - b.length)).1) hp
  rw [Prod.mk.eta, hv] at this
  simpa [fval] using this

theorem atofHex_eq (neg n : Bool) (u : Bytes) : atofHex neg u = (Dbl.fin neg (roundBin 53 (atodHex u))).toFloat n := by
  unfold atofHex atodHex
  dsimp only
  generalize (if (List.dropWhile isHex u).head? = some 46 then ((List.dropWhile isHex u).drop 1).takeWhile isHex else []) = b
  split <;> rfl

theorem atofDec_eq (neg n : Bool) (u : Bytes) : atofDec neg u = Dbl.toFloat n (match atodDec u with
    | none => .fin false (0, 1)
    | some x => .fin neg (roundBin 53 x)) := by
  unfold atofDec atodDec
  dsimp only
  generalize (if (List.dropWhile isDigit u).head? = some 46 then ((List.dropWhile isDigit u).drop 1).takeWhile isDigit else []) = b
  by_cases h : ((List.takeWhile isDigit u).isEmpty && b.isEmpty) = true
  · rw [if_pos h, if_pos h]; rfl
  · rw [if_neg h, if_neg h]; rfl

/-- **C88 (budget and rate).** The same number as a `float` is the one `atof` gives. -/
theorem C88_atof (s : Bytes) : atof s = (atod s).toFloat (decide ((s.dropWhile isSpace).head? = some 45)) := by
  unfold atof atod
  dsimp only
  split
  · rfl
  split
  · rfl
  split
  · exact atofHex_eq _ _ _
  · exact atofDec_eq _ _ _

/-- 3e-9 and -0.5. -/
example : (∃ x, atod (ascii "3e-9") = .fin false x ∧ Spec.NearestDouble (3 * 10 ^ (-9 : Int)) (fval x)) ∧
    ∃ x, atod (ascii " -0.5") = .fin true x ∧ Spec.NearestDouble (5 * 10 ^ (-1 : Int)) (fval x) := by
  have v (n : Nat) (ds : Bytes) (h : digitsVal ds = n) (k j : Int) (e : k = j) : (n : ℚ) * 10 ^ k = digitsVal ds * 10 ^ j := by rw [h, e]
  constructor
  · obtain ⟨x, h1, h2⟩ := C88_budget (w := []) (by simp) (t := ascii "3e-9") (a := [51]) (b := []) (k := -9) ⟨⟨[], [], ascii "e-9", rfl, .none, .none,
      .exp 101 [45] [57] true (.inl rfl) .minus (by simp) (by unfold Digits; decide)⟩, by unfold Digits; decide, .inl (by simp)⟩
    rw [← v 3 _ (by decide) (-9) _ (by decide)] at h2
    exact ⟨x, h1, h2⟩
  · obtain ⟨x, h1, h2⟩ := C88_budget (w := [32]) (by decide) (t := ascii "-0.5") (a := [48]) (b := [53]) (k := 0)
      ⟨⟨[45], [46, 53], [], rfl, .minus, .point _ (by unfold Digits; decide), .none⟩, by unfold Digits; decide, .inl (by simp)⟩
    rw [← v 5 _ (by decide) (-1) _ (by decide)] at h2
    exact ⟨x, h1, h2⟩

end Grann
