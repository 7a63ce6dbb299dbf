import Verif.Props.FloatSum
import Verif.Props.FloatPrune
import Verif.Props.Lsh
import Verif.Model.FloatLsh
import Verif.Spec.FloatLsh
/-!
# C101: LSH in `float` arithmetic
-/

namespace Grann

open _root_.Grann.Spec _root_.Spec

/-- **C101 (the loop).** The loop of `get_hash` without reordering is one of the ways to evaluate the inner product. -/
theorem C101_loop (ftz : Bool) {n : Nat} {a b : List F32} (ha : n ≤ a.length) (hb : n ≤ b.length) :
    hashDotF ftz a b n = dotF32 ftz (serial n) a b ∧ (serial n).Sums n ∧ (serial n).height = n ∧ (serial n).ops = 2 * n := by
  refine ⟨?_, serial_sums n, serial_height n, serial_ops n⟩
  have key : ∀ (a b : List F32) (todo i : Nat) (r : F32), i + todo ≤ a.length → i + todo ≤ b.length →
      (serial i).eval ftz (dotFactor a b) = .ok r → hashLoopF ftz a b todo i r = (serial (i + todo)).eval ftz (dotFactor a b) := by
    intro a b todo
    induction todo with
    | zero => intro i r _ _ h; exact h.symm
    | succ todo ih =>
      intro i r ha hb h
      have hf := dotFactor_ok (show i < a.length by omega) (show i < b.length by omega)
      unfold hashLoopF
      rw [rd_ok (by omega : i < a.length), rd_ok (by omega : i < b.length), Res.ok_bind, Res.ok_bind,
        ih (i + 1) _ (by omega) (by omega) (eval_add_ok h (eval_term_ok hf)), show i + 1 + todo = i + (todo + 1) by omega]
  unfold hashDotF dotF32
  rw [key _ _ n 0 F32.zero (by simpa using ha) (by simpa using hb) rfl, Nat.zero_add]

theorem hashDot_close {ftz : Bool} {U : SumTree} {n : Nat} {a b : List F32} (h : DotOk ftz U n a b) :
    Spec.Finite (hashDot ftz U a b) ∧ |value (hashDot ftz U a b) - dotVal a b| ≤ dotErr ftz U a b := by
  obtain ⟨r, e, h1, h2⟩ := C93_dot_close ftz h.sums h.left h.right h.leftPlain h.rightPlain h.height h.ops h.size
  unfold hashDot
  rw [e]
  exact ⟨h1, h2⟩

/-- **C101 (one bit).** A bit of the hash is set if the vector is above the hyperplane by more than the error, and not set if it is below it by more than the error. -/
theorem C101_bit {ftz : Bool} {U : SumTree} {n : Nat} {x v : List F32} (h : DotOk ftz U n x v) :
    (Above ftz U x v → F32.zero.lt (hashDot ftz U x v) = true) ∧ (Below ftz U x v → F32.zero.lt (hashDot ftz U x v) = false) := by
  obtain ⟨hf, hc⟩ := hashDot_close h
  have hz : Spec.Finite F32.zero := by unfold Spec.Finite; decide
  have hc := abs_le.1 hc
  constructor
  · intro ha
    unfold Above at ha
    rw [lt_iff_value hz hf, value_zero']
    linarith [hc.1]
  · intro hb
    unfold Below at hb
    rw [Bool.eq_false_iff]
    intro hl
    rw [lt_iff_value hz hf, value_zero'] at hl
    linarith [hc.2]

theorem same_bit {ftz : Bool} {U : SumTree} {n : Nat} {x v q : List F32} (hv : DotOk ftz U n x v) (hq : DotOk ftz U n x q) (h : SureSame ftz U x v q) :
    F32.zero.lt (hashDot ftz U x v) = F32.zero.lt (hashDot ftz U x q) := by
  rcases h with rfl | ⟨h1, h2⟩ | ⟨h1, h2⟩
  · rfl
  · rw [(C101_bit hv).1 h1, (C101_bit hq).1 h2]
  · rw [(C101_bit hv).2 h1, (C101_bit hq).2 h2]

theorem other_bit {ftz : Bool} {U : SumTree} {n : Nat} {x v q : List F32} (hv : DotOk ftz U n x v) (hq : DotOk ftz U n x q) (h : SureApart ftz U x v q) :
    F32.zero.lt (hashDot ftz U x v) ≠ F32.zero.lt (hashDot ftz U x q) := by
  rcases h with ⟨h1, h2⟩ | ⟨h1, h2⟩
  · rw [(C101_bit hv).1 h1, (C101_bit hq).2 h2]; decide
  · rw [(C101_bit hv).2 h1, (C101_bit hq).1 h2]; decide

/-- **C101 (search).** Build and search with computed inner products and distances, in any order of the additions: the answer consists of the nearest points, up to the errors of the
distances, of a set `S` of indexed points that match the filter.  Every matching point that is for some table on the same side of all hyperplanes as the query, by more than the errors, is in `S`; and no
point is in `S` that is for every table on another side of some hyperplane, by more than the errors. -/
theorem C101_search (ftz : Bool) (T U : SumTree) {n : Nat} (c : Ctx (List F32)) (hcmp : c.cmp = l2Cmp ftz T) (tableSize : Nat) (hsize : tableSize ≤ 64) (hps : List (List (List F32)))
    (hh : ∀ h ∈ hps, h.length = tableSize) (q : List F32) (hok : ∀ v ∈ c.data, L2Ok ftz T n q v) (hdq : ∀ h ∈ hps, ∀ x ∈ h, DotOk ftz U n x q)
    (hdv : ∀ h ∈ hps, ∀ x ∈ h, ∀ v ∈ c.data, DotOk ftz U n x v) (filters : List Label) (hlab : filters ≠ [] → c.labels.length = c.data.length) (hsf : SortedL filters)
    (hsl : ∀ l ∈ c.labels, SortedL l) (rc : Nat) (hrc1 : 1 ≤ rc) (hrc : Spec.ListFits c.data.length rc) (ind : List Nat) (dst : List F32) (hind : rc ≤ ind.length) (hdst : rc ≤ dst.length) :
    ∃ tables, lshBuild (hashDot ftz U) c.data (List.range c.data.length) tableSize hps = .ok tables ∧
    ∃ (tables' : List (HTable (List F32))) (S : Finset Nat) (ids ind' : List Nat) (dst' : List F32),
      lshSearch (hashDot ftz U) c tables q rc ind (some dst) filters = .ok (tables', ind', some dst', ids.length) ∧ ind'.take ids.length = ids ∧
      CloseNearest rc S (fun i => sqDistVal q (c.data.getD i [])) (fun i => l2Err ftz T q (c.data.getD i [])) (ids.zip dst') ∧
      (∀ i ∈ S, i < c.data.length ∧ Matches c.useUniv c.univ filters (c.labels.getD i []) ∧ ∃ h ∈ hps, ∀ x ∈ h, ¬ SureApart ftz U x (c.data.getD i []) q) ∧
      (∀ i < c.data.length, Matches c.useUniv c.univ filters (c.labels.getD i []) → (∃ h ∈ hps, ∀ x ∈ h, SureSame ftz U x (c.data.getD i []) q) → i ∈ S) := by
  have hget : ∀ {i w}, c.data[i]? = some w → c.data.getD i [] = w := fun {i w} h => by rw [List.getD_eq_getElem?_getD, h]; rfl
  have hclose := fun i hi => l2Cmp_close (hok _ (mem_data (c := c) (i := i) hi))
  obtain ⟨tables, e, hold⟩ := lshBuild_holds (hashDot ftz U) c.data (List.range c.data.length) (by simp) tableSize hsize hps hh
  refine ⟨tables, e, ?_⟩
  obtain ⟨tables', ids, S, es, hS, hk⟩ := lshSearch_spec (hashDot ftz U) c hps tables hold q (fun i => c.cmp q (c.data.getD i [])) (fun i v h => by rw [hget h])
    (fun i hi => by rw [hcmp]; exact (hclose i hi).2.1) filters hlab rc hrc1 hrc ind (some dst) hind (by intro l h; cases h; exact hdst)
  have hlabs : ∀ i, i < c.data.length → filterAccepts c filters i = .ok (decide (Matches c.useUniv c.univ filters (c.labels.getD i []))) := by
    intro i hi
    refine filterAccepts_iff (fun hne => ?_) hsf ?_
    · rw [List.getD_eq_getElem?_getD, List.getElem?_eq_getElem (by rw [hlab hne]; exact hi)]; rfl
    · rw [List.getD_eq_getElem?_getD]
      by_cases hl : i < c.labels.length
      · rw [List.getElem?_eq_getElem hl]; exact hsl _ (List.getElem_mem hl)
      · rw [List.getElem?_eq_none (by omega)]; exact List.Pairwise.nil
  have hlen : ∀ i ∈ S, i < c.data.length := by
    intro i hi
    obtain ⟨⟨v, hv, _⟩, _⟩ := (hS i).1 hi
    exact (List.getElem?_eq_some_iff.1 hv).1
  refine ⟨tables', S, ids, _, _, es, by simp, ?_, fun i hi => ?_, fun i hi hm hs => ?_⟩
  · have hz : ids.zip (ids.map (fun i => c.cmp q (c.data.getD i [])) ++ dst.drop ids.length) = ids.map (fun i => (i, c.cmp q (c.data.getD i []))) := by
      have h1 : ∀ (l : List Nat) (f : Nat → F32) (r : List F32), l.zip (l.map f ++ r) = l.map (fun i => (i, f i)) := by
        intro l f r
        induction l with
        | nil => simp
        | cons a l ih => simp [ih]
      exact h1 _ _ _
    rw [hz]
    refine closeNearest hk (fun i hi => ?_)
    rw [hcmp]
    exact ⟨(hclose i (hlen i hi)).1, (hclose i (hlen i hi)).2.2⟩
  · obtain ⟨⟨v, hv, h, hh', hx⟩, hf⟩ := (hS i).1 hi
    have hi' := hlen i hi
    rw [hlabs i hi'] at hf
    refine ⟨hi', by simpa using hf, h, hh', fun x hxh ho => ?_⟩
    rw [hget hv] at ho
    exact other_bit (hdv h hh' x hxh v (List.mem_of_getElem? hv)) (hdq h hh' x hxh) ho (hx x hxh)
  · obtain ⟨h, hh', hx⟩ := hs
    have hv : c.data[i]? = some (c.data.getD i []) := by rw [List.getD_eq_getElem?_getD, List.getElem?_eq_getElem hi]; rfl
    refine (hS i).2 ⟨⟨_, hv, h, hh', fun x hxh => ?_⟩, by rw [hlabs i hi, decide_eq_true hm]⟩
    exact same_bit (hdv h hh' x hxh _ (mem_data hi)) (hdq h hh' x hxh) (hx x hxh)

/-- **C101 (stored vectors).** Whatever the hyperplanes are, a search for a stored vector reports first a point at computed distance +0.  Its exact distance is at most a tiny number, so it is the stored
vector itself if no other one is that close. -/
theorem C101_self (ftz : Bool) (T U : SumTree) {n : Nat} (c : Ctx (List F32)) (hcmp : c.cmp = l2Cmp ftz T) (tableSize : Nat) (hsize : tableSize ≤ 64) (hps : List (List (List F32)))
    (hne : hps ≠ []) (hh : ∀ h ∈ hps, h.length = tableSize) (q : List F32) (t : Nat) (ht : c.data[t]? = some q) (hok : ∀ v ∈ c.data, L2Ok ftz T n q v) (hT : T.height + 3 ≤ 2 ^ 22)
    (rc : Nat) (hrc1 : 1 ≤ rc) (hrc : Spec.ListFits c.data.length rc) (ind : List Nat) (dst : List F32) (hind : rc ≤ ind.length) (hdst : rc ≤ dst.length) :
    ∃ tables, lshBuild (hashDot ftz U) c.data (List.range c.data.length) tableSize hps = .ok tables ∧
    ∃ (tables' : List (HTable (List F32))) (b cnt : Nat) (ind' : List Nat) (dst' : List F32),
      lshSearch (hashDot ftz U) c tables q rc ind (some dst) [] = .ok (tables', ind', some dst', cnt) ∧ 1 ≤ cnt ∧ ind'[0]? = some b ∧ dst'[0]? = some F32.zero ∧ b < c.data.length ∧
      sqDistVal q (c.data.getD b []) ≤ T.ops * (if ftz then 2 ^ (-123 : Int) else 2 ^ (-147 : Int)) ∧
      ((∀ j < c.data.length, j ≠ t → T.ops * (if ftz then 2 ^ (-123 : Int) else 2 ^ (-147 : Int)) < sqDistVal q (c.data.getD j [])) → b = t) := by
  have hget : ∀ {i w}, c.data[i]? = some w → c.data.getD i [] = w := fun {i w} h => by rw [List.getD_eq_getElem?_getD, h]; rfl
  obtain ⟨tables, e, tables', b, rest, ind', dst', es, hrep, hle, -⟩ := C17_self_found (hashDot ftz U) c tableSize hsize hps hne hh q t ht (fun i => c.cmp q (c.data.getD i []))
    (fun i v h => by rw [hget h]) (fun i hi => by rw [hcmp]; exact (l2Cmp_close (hok _ (mem_data (c := c) hi))).2.1) rc hrc1 hrc ind dst hind hdst
  have hb := hrep.good b (by simp)
  rw [hget ht, hcmp, l2Cmp_self (hok q (List.mem_of_getElem? ht))] at hle
  obtain ⟨hz, hs⟩ := l2Cmp_zero_close (hok _ (mem_data (c := c) hb)) hT hle
  have hi0 := congrArg (fun l => l[0]?) hrep.tags
  have hd0 := congrArg (fun l => l[0]?) hrep.dists
  refine ⟨tables, e, tables', b, _, ind', dst', es, by simp, ?_, ?_, hb, hs, fun hall => ?_⟩
  · simpa using hi0
  · rw [← hz, ← hcmp]
    simpa using hd0
  · by_contra hbt
    exact absurd hs (not_le.2 (hall b hb hbt))

/-! ## Examples -/

/-- Three points of the plane, (1, 1), (2, 1) and (-1, -1); all have a label. -/
def exLshF : Ctx (List F32) where
  data := [[⟨0x3f800000#32⟩, ⟨0x3f800000#32⟩], [⟨0x40000000#32⟩, ⟨0x3f800000#32⟩], [⟨0xbf800000#32⟩, ⟨0xbf800000#32⟩]]
  labels := [[[97]], [[97]], [[98]]]
  useUniv := false
  univ := []
  cmp := l2Cmp true (.add (.fma 0 .init) (.term 1))

/-- Two tables of one hyperplane each. -/
def exHpsF : List (List (List F32)) := [[[⟨0x3f800000#32⟩, ⟨0x3f000000#32⟩]], [[⟨0x3f000000#32⟩, ⟨0xbf800000#32⟩]]]

/-- The query (1, 2). -/
def exQF : List F32 := [⟨0x3f800000#32⟩, ⟨0x40000000#32⟩]

/-- A vector of two numbers of moderate size. -/
def Small2 (a : List F32) : Prop := ∃ x y : F32, a = [x, y] ∧ (Spec.Finite x ∧ 1 / 2 ≤ |value x| ∧ |value x| ≤ 2) ∧ (Spec.Finite y ∧ 1 / 2 ≤ |value y| ∧ |value y| ≤ 2)

theorem Small2.plain {a : List F32} (h : Small2 a) : ∀ z ∈ a, Plain true z := by
  obtain ⟨x, y, rfl, ⟨fx, x1, _⟩, ⟨fy, y1, _⟩⟩ := h
  intro z hz
  have hw : (2 : ℚ) ^ (-126 : Int) ≤ 1 / 2 := by norm_num
  simp only [List.mem_cons, List.not_mem_nil, or_false] at hz
  rcases hz with rfl | rfl
  · exact ⟨fx, fun _ => Or.inr (le_trans hw x1)⟩
  · exact ⟨fy, fun _ => Or.inr (le_trans hw y1)⟩

theorem Small2.l2 {a b : List F32} (ha : Small2 a) (hb : Small2 b) : L2Ok true (.add (.fma 0 .init) (.term 1)) 2 a b := by
  have pa := ha.plain
  have pb := hb.plain
  obtain ⟨x, y, rfl, ⟨-, -, x2⟩, ⟨-, -, y2⟩⟩ := ha
  obtain ⟨z, w, rfl, ⟨-, -, z2⟩, ⟨-, -, w2⟩⟩ := hb
  refine ⟨by unfold SumTree.Sums; decide, rfl, rfl, pa, pb, by decide, by decide, ?_⟩
  simp only [sqDistVal, List.zipWith_cons_cons, List.zipWith_nil_right, List.sum_cons, List.sum_nil, add_zero]
  have h1 : (value x - value z) ^ 2 ≤ 4 ^ 2 := sq_le_sq' (by linarith [abs_le.1 x2, abs_le.1 z2]) (by linarith [abs_le.1 x2, abs_le.1 z2])
  have h2 : (value y - value w) ^ 2 ≤ 4 ^ 2 := sq_le_sq' (by linarith [abs_le.1 y2, abs_le.1 w2]) (by linarith [abs_le.1 y2, abs_le.1 w2])
  exact le_trans (add_le_add h1 h2) (by norm_num)

theorem Small2.dot {a b : List F32} (ha : Small2 a) (hb : Small2 b) : DotOk true (serial 2) 2 a b := by
  have pa := ha.plain
  have pb := hb.plain
  obtain ⟨x, y, rfl, ⟨-, -, x2⟩, ⟨-, -, y2⟩⟩ := ha
  obtain ⟨z, w, rfl, ⟨-, -, z2⟩, ⟨-, -, w2⟩⟩ := hb
  refine ⟨serial_sums 2, rfl, rfl, pa, pb, by decide, by decide, ?_⟩
  simp only [absDotVal, List.zipWith_cons_cons, List.zipWith_nil_right, List.sum_cons, List.sum_nil, add_zero, abs_mul]
  have h1 : |value x| * |value z| ≤ 2 * 2 := mul_le_mul x2 z2 (abs_nonneg _) (by norm_num)
  have h2 : |value y| * |value w| ≤ 2 * 2 := mul_le_mul y2 w2 (abs_nonneg _) (by norm_num)
  exact le_trans (add_le_add h1 h2) (by norm_num)

theorem exQF_small : Small2 exQF :=
  ⟨_, _, rfl, ⟨by unfold Spec.Finite; decide, by norm_num [value, magnitude], by norm_num [value, magnitude]⟩,
    ⟨by unfold Spec.Finite; decide, by norm_num [value, magnitude], by norm_num [value, magnitude]⟩⟩

theorem exLshF_small : ∀ v ∈ exLshF.data, Small2 v := by
  intro v hv
  simp only [exLshF, List.mem_cons, List.not_mem_nil, or_false] at hv
  rcases hv with rfl | rfl | rfl <;>
    exact ⟨_, _, rfl, ⟨by unfold Spec.Finite; decide, by norm_num [value, magnitude], by norm_num [value, magnitude]⟩,
      ⟨by unfold Spec.Finite; decide, by norm_num [value, magnitude], by norm_num [value, magnitude]⟩⟩

theorem exHpsF_small : ∀ h ∈ exHpsF, ∀ x ∈ h, Small2 x := by
  intro h hh x hx
  simp only [exHpsF, List.mem_cons, List.not_mem_nil, or_false] at hh
  rcases hh with rfl | rfl <;> (simp only [List.mem_singleton] at hx; subst hx) <;>
    exact ⟨_, _, rfl, ⟨by unfold Spec.Finite; decide, by norm_num [value, magnitude], by norm_num [value, magnitude]⟩,
      ⟨by unfold Spec.Finite; decide, by norm_num [value, magnitude], by norm_num [value, magnitude]⟩⟩

example := C101_loop true (a := exQF) (b := [⟨0x40000000#32⟩, ⟨0x3f800000#32⟩]) (n := 2) (by decide) (by decide)

/-- The query is above the first hyperplane and (-1, -1) below it. -/
example : Above true (serial 2) [⟨0x3f800000#32⟩, ⟨0x3f000000#32⟩] exQF ∧ Below true (serial 2) [⟨0x3f800000#32⟩, ⟨0x3f000000#32⟩] [⟨0xbf800000#32⟩, ⟨0xbf800000#32⟩] := by
  constructor <;> norm_num [Above, Below, dotErr, dotVal, absDotVal, exQF, serial_height, serial_ops, value, magnitude]

example := (C101_bit (Small2.dot (exHpsF_small [[⟨0x3f800000#32⟩, ⟨0x3f000000#32⟩]] (by decide) [⟨0x3f800000#32⟩, ⟨0x3f000000#32⟩] (by decide)) exQF_small)).1
  (by norm_num [Above, dotErr, dotVal, absDotVal, exQF, serial_height, serial_ops, value, magnitude])

example := C101_search true (.add (.fma 0 .init) (.term 1)) (serial 2) exLshF rfl 1 (by decide) exHpsF (by decide) exQF (fun v hv => exQF_small.l2 (exLshF_small v hv))
  (fun h hh x hx => (exHpsF_small h hh x hx).dot exQF_small) (fun h hh x hx v hv => (exHpsF_small h hh x hx).dot (exLshF_small v hv)) [[97]] (fun _ => rfl) (by unfold SortedL; decide)
  (by unfold SortedL; decide) 2 (by decide) (by decide) [9, 9] [F32.nan, F32.nan] (by decide) (by decide)

/-- What the search finds: both points with the label, at distances 1 and 2. -/
example : (do
    let ts ← lshBuild (hashDot true (serial 2)) exLshF.data [0, 1, 2] 1 exHpsF
    let r ← lshSearch (hashDot true (serial 2)) exLshF ts exQF 2 [9, 9] (some [F32.nan, F32.nan]) [[97]]
    .ok r.2) = (.ok ([0, 1], some [⟨0x3f800000#32⟩, ⟨0x40000000#32⟩], 2) : Res _) := by decide +kernel

example := C101_self true (.add (.fma 0 .init) (.term 1)) (serial 2) exLshF rfl 1 (by decide) exHpsF (by decide) (by decide) [⟨0xbf800000#32⟩, ⟨0xbf800000#32⟩] 2 rfl
  (fun v hv => (exLshF_small _ (by decide)).l2 (exLshF_small v hv)) (by decide) 2 (by decide) (by decide) [9, 9] [F32.nan, F32.nan] (by decide) (by decide)

end Grann
