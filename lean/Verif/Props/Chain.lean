import Verif.Props.TruthProg
import Verif.Props.CommandRuns
/-!
# C86: the recall that a search program prints against the file of the ground-truth program
-/

namespace Grann

open _root_.Spec (KNearest)

namespace Spec

/-- The points with fewer than `K` points strictly nearer: those among the `K` nearest for some way to break ties. -/
def trueNear (K n : Nat) (d : Nat → F32) : Finset Nat :=
  (Finset.range n).filter (fun g => ((Finset.range n).filter (fun i => (d i).lt (d g) = true)).card < K)

/-- A list of the `k` nearest points has room for all of them. -/
def TiesFit (K k n : Nat) (d : Nat → F32) : Prop :=
  ∀ g ∈ trueNear K n d, ((Finset.range n).filter (fun i => (d i).le (d g) = true)).card ≤ k

end Spec

/-! ## What counts -/

/-- Only points listed before are nearer. -/
theorem kn_closer {k n : Nat} {d : Nat → F32} {row : List (Nat × F32)} (h : KNearest k (Finset.range n) d row)
    {j : Nat} (hj : j < row.length) :
    ((Finset.range n).filter (fun i => (d i).lt (row[j]).2 = true)).card ≤ j := by
  have hsub : (Finset.range n).filter (fun i => (d i).lt (row[j]).2 = true) ⊆ ((row.take j).map Prod.fst).toFinset := by
    intro i hi
    rw [Finset.mem_filter] at hi
    rw [List.mem_toFinset]
    by_contra hc
    have hle : (row[j]).2.le (d i) = true := by
      by_cases him : i ∈ row.map Prod.fst
      · obtain ⟨x, hx, rfl⟩ := List.mem_map.mp him
        obtain ⟨m, hm, rfl⟩ := List.mem_iff_getElem.mp hx
        have hmj : j ≤ m := by
          by_contra hlt
          refine hc (List.mem_map.mpr ⟨row[m], ?_, rfl⟩)
          rw [List.mem_take_iff_getElem]
          exact ⟨m, by omega, rfl⟩
        rw [← (h.mem _ (List.getElem_mem hm)).2]
        rcases Nat.lt_or_eq_of_le hmj with hlt | heq
        · exact List.pairwise_iff_getElem.mp h.sorted j m hj hm hlt
        · subst heq
          have := F32.isNum_of_lt_right hi.2
          exact F32.le_refl this
      · exact h.best i hi.1 him _ (List.getElem_mem hj)
    rw [F32.lt_eq_false_of_le hle] at hi
    exact absurd hi.2 (by simp)
  refine Nat.le_trans (Finset.card_le_card hsub) (Nat.le_trans (List.toFinset_card_le _) ?_)
  rw [List.length_map, List.length_take]
  exact Nat.min_le_left _ _

/-- What counts in a list of nearest points is near. -/
theorem counted_near {k n K : Nat} {d : Nat → F32} {row : List (Nat × F32)} (h : KNearest k (Finset.range n) d row) (hK : 0 < K)
    {x : Nat} (hx : Spec.Counted (row.map Prod.fst) (some (row.map Prod.snd)) K x) : x ∈ Spec.trueNear K n d := by
  obtain ⟨j, hj, hc⟩ := hx
  rw [List.getElem?_map] at hj
  obtain ⟨y, hy, rfl⟩ := Option.map_eq_some_iff.mp hj
  obtain ⟨hjl, rfl⟩ := List.getElem?_eq_some_iff.mp hy
  obtain ⟨hm, hd⟩ := h.mem _ (List.getElem_mem hjl)
  unfold Spec.trueNear
  rw [Finset.mem_filter]
  refine ⟨hm, ?_⟩
  rw [← hd]
  by_cases hjK : j < K
  · exact Nat.lt_of_le_of_lt (kn_closer h hjl) hjK
  · rcases hc with hc | ⟨ds, hds, hc⟩
    · exact absurd hc hjK
    · injection hds with hds
      subst hds
      obtain ⟨a, b, ha, hb, h1, h2⟩ := hc j (by omega) (Nat.le_refl _)
      rw [List.getElem?_map, List.getElem?_eq_getElem hjl] at ha
      injection ha with ha
      have hKl : K - 1 < row.length := by omega
      rw [List.getElem?_map, List.getElem?_eq_getElem hKl] at hb
      injection hb with hb
      refine Nat.lt_of_le_of_lt (Nat.le_trans (Finset.card_le_card ?_) (kn_closer h hKl)) (by omega)
      intro i hi
      rw [Finset.mem_filter] at hi ⊢
      refine ⟨hi.1, F32.lt_of_lt_of_le hi.2 ?_⟩
      rw [ha, hb]; exact h1

/-- If all ties fit, every near point counts. -/
theorem near_counted {k n K : Nat} {d : Nat → F32} {row : List (Nat × F32)} (h : KNearest k (Finset.range n) d row)
    (hkn : k ≤ n) (hnum : ∀ i < n, (d i).IsNum) (hfit : Spec.TiesFit K k n d) {x : Nat} (hx : x ∈ Spec.trueNear K n d) :
    Spec.Counted (row.map Prod.fst) (some (row.map Prod.snd)) K x := by
  have hx' := hx
  unfold Spec.trueNear at hx'
  rw [Finset.mem_filter, Finset.mem_range] at hx'
  have hlen : row.length = k := by rw [h.length, Finset.card_range, Nat.min_eq_left hkn]
  have hnod : ((row.map Prod.fst).toFinset).card = row.length := by
    rw [List.toFinset_card_of_nodup h.nodup, List.length_map]
  -- the point is listed
  have hin : x ∈ row.map Prod.fst := by
    by_contra hc
    have hsub : insert x (row.map Prod.fst).toFinset ⊆ (Finset.range n).filter (fun i => (d i).le (d x) = true) := by
      intro i hi
      rw [Finset.mem_insert, List.mem_toFinset] at hi
      rw [Finset.mem_filter]
      rcases hi with rfl | hi
      · exact ⟨Finset.mem_range.mpr hx'.1, F32.le_refl (hnum _ hx'.1)⟩
      · obtain ⟨y, hy, rfl⟩ := List.mem_map.mp hi
        refine ⟨(h.mem y hy).1, ?_⟩
        rw [← (h.mem y hy).2]
        exact h.best x (Finset.mem_range.mpr hx'.1) hc y hy
    have h1 := Finset.card_le_card hsub
    rw [Finset.card_insert_of_notMem (by rw [List.mem_toFinset]; exact hc), hnod, hlen] at h1
    have h2 := hfit x hx
    omega
  obtain ⟨y, hy, rfl⟩ := List.mem_map.mp hin
  obtain ⟨j, hj, rfl⟩ := List.mem_iff_getElem.mp hy
  have hdj := (h.mem _ (List.getElem_mem hj)).2
  refine ⟨j, by rw [List.getElem?_map, List.getElem?_eq_getElem hj]; rfl, ?_⟩
  by_cases hjK : j < K
  · exact Or.inl hjK
  · right
    refine ⟨_, rfl, ?_⟩
    have hKl : K - 1 < row.length := by omega
    have hle : ∀ p q : Nat, (hp : p < row.length) → (hq : q < row.length) → p ≤ q → (row[p]).2.le (row[q]).2 = true := by
      intro p q hp hq hpq
      rcases Nat.lt_or_eq_of_le hpq with hlt | heq
      · exact List.pairwise_iff_getElem.mp h.sorted p q hp hq hlt
      · subst heq
        obtain ⟨m1, m2⟩ := h.mem _ (List.getElem_mem hp)
        rw [m2]
        exact F32.le_refl (hnum _ (Finset.mem_range.mp m1))
    -- not farther than number `K`
    have hback : (row[j]).2.le (row[K - 1]).2 = true := by
      by_contra hc
      have n1 : (row[j]).2.IsNum := by rw [hdj]; exact hnum _ hx'.1
      have n2 : (row[K - 1]).2.IsNum := by
        obtain ⟨m1, m2⟩ := h.mem _ (List.getElem_mem hKl)
        rw [m2]; exact hnum _ (Finset.mem_range.mp m1)
      have hlt : (row[K - 1]).2.lt (row[j]).2 = true := by
        rw [← F32.not_le_iff_lt n1 n2]; simpa using hc
      have hsub : ((row.take K).map Prod.fst).toFinset ⊆ (Finset.range n).filter (fun i => (d i).lt (d (row[j]).1) = true) := by
        intro i hi
        rw [List.mem_toFinset] at hi
        obtain ⟨y, hy, rfl⟩ := List.mem_map.mp hi
        rw [List.mem_take_iff_getElem] at hy
        obtain ⟨m, hm, rfl⟩ := hy
        have hml : m < row.length := by omega
        rw [Finset.mem_filter]
        refine ⟨(h.mem _ (List.getElem_mem hml)).1, ?_⟩
        rw [← (h.mem _ (List.getElem_mem hml)).2, ← hdj]
        exact F32.lt_of_le_of_lt (hle m (K - 1) hml hKl (by omega)) hlt
      have h1 := Finset.card_le_card hsub
      have h2 : (((row.take K).map Prod.fst).toFinset).card = K := by
        rw [List.toFinset_card_of_nodup, List.length_map, List.length_take]
        · omega
        · have := h.nodup
          rw [List.map_take]
          exact this.sublist (List.take_sublist _ _)
      omega
    intro j' h1 h2
    have hj' : j' < row.length := by omega
    refine ⟨(row[j']).2, (row[K - 1]).2, by rw [List.getElem?_map, List.getElem?_eq_getElem hj']; rfl,
      by rw [List.getElem?_map, List.getElem?_eq_getElem hKl]; rfl, ?_, hle _ _ hKl hj' h1⟩
    exact F32.le_trans (hle j' j hj' hj h2) hback

/-- **C86 (needed hypothesis).** If the ties do not fit, the list leaves out a point with fewer than `K` nearer ones: a search that finds it is not given credit. -/
theorem C86_ties_needed {k n K : Nat} {d : Nat → F32} {row : List (Nat × F32)} (h : KNearest k (Finset.range n) d row) (hfit : ¬ Spec.TiesFit K k n d) :
    ∃ x ∈ Spec.trueNear K n d, ∀ dists, ¬ Spec.Counted (row.map Prod.fst) dists K x := by
  unfold Spec.TiesFit at hfit
  push_neg at hfit
  obtain ⟨g, hg, hc⟩ := hfit
  have hl : ((row.map Prod.fst).toFinset).card ≤ k := by
    refine Nat.le_trans (List.toFinset_card_le _) ?_
    rw [List.length_map, h.length]
    exact Nat.min_le_left _ _
  obtain ⟨x, hx, hn⟩ := Finset.exists_mem_notMem_of_card_lt_card (Nat.lt_of_le_of_lt hl hc)
  rw [Finset.mem_filter] at hx
  rw [List.mem_toFinset] at hn
  refine ⟨x, ?_, fun dists hcc => ?_⟩
  · unfold Spec.trueNear at hg ⊢
    rw [Finset.mem_filter] at hg ⊢
    refine ⟨hx.1, Nat.lt_of_le_of_lt (Finset.card_le_card ?_) hg.2⟩
    intro i hi
    rw [Finset.mem_filter] at hi ⊢
    exact ⟨hi.1, F32.lt_of_lt_of_le hi.2 hx.2⟩
  · obtain ⟨j, hj, -⟩ := hcc
    exact hn (List.mem_of_getElem? hj)

/-- All of a correct answer is near. -/
theorem answer_near {K n : Nat} {d : Nat → F32} {ids : List Nat} (h : KNearest K (Finset.range n) d (ids.map (fun i => (i, d i))))
    (hK : 0 < K) : ∀ i ∈ ids, i ∈ Spec.trueNear K n d := by
  intro i hi
  refine counted_near h hK ?_
  obtain ⟨j, hj, rfl⟩ := List.mem_iff_getElem.mp hi
  have hl : ids.length ≤ K := by
    have := h.length
    rw [List.length_map] at this
    omega
  refine ⟨j, ?_, Or.inl (by omega)⟩
  rw [List.map_map, List.getElem?_map, List.getElem?_eq_getElem hj]
  rfl

/-- Only the order of the distances matters. -/
theorem trueNear_congr {K n : Nat} {d d' : Nat → F32} (h : ∀ i < n, ∀ j < n, (d i).lt (d j) = (d' i).lt (d' j)) :
    Spec.trueNear K n d = Spec.trueNear K n d' := by
  unfold Spec.trueNear
  refine Finset.filter_congr (fun g hg => ?_)
  rw [Finset.mem_range] at hg
  have : (Finset.range n).filter (fun i => (d i).lt (d g) = true) = (Finset.range n).filter (fun i => (d' i).lt (d' g) = true) :=
    Finset.filter_congr (fun i hi => by rw [h i (Finset.mem_range.mp hi) g hg])
  rw [this]

/-! ## The file of the ground-truth program -/

theorem flip_toNat (x : F32) : (x.bits ^^^ 0x80000000#32).toNat = if x.bits.toNat < 2147483648 then x.bits.toNat + 2147483648 else x.bits.toNat - 2147483648 := by
  have hx : ∀ b < 2147483648, b ^^^ 2147483648 = b + 2147483648 := by
    intro b hb
    apply Nat.eq_of_testBit_eq
    intro j
    rw [Nat.testBit_xor, show (2147483648 : Nat) = 2 ^ 31 from rfl, Nat.testBit_two_pow, Nat.add_comm]
    rcases Nat.lt_trichotomy j 31 with hj | hj | hj
    · rw [Nat.testBit_two_pow_add_gt hj, decide_eq_false (by omega), Bool.xor_false]
    · subst hj
      rw [Nat.testBit_two_pow_add_eq, decide_eq_true rfl, Bool.xor_true]
    · have h2 : 2 ^ 32 ≤ 2 ^ j := Nat.pow_le_pow_right (by decide) hj
      rw [decide_eq_false (by omega), Bool.xor_false, Nat.testBit_lt_two_pow (by omega), Nat.testBit_lt_two_pow (by omega)]
  rw [BitVec.toNat_xor]
  have := x.bits.isLt
  have h31 : (0x80000000#32).toNat = 2147483648 := by decide
  rw [h31]
  split
  · rename_i h1; exact hx _ h1
  · rename_i h1
    have h2 := hx (x.bits.toNat - 2147483648) (by omega)
    rw [Nat.sub_add_cancel (by omega)] at h2
    rw [← h2, Nat.xor_assoc, Nat.xor_self, Nat.xor_zero, h2]

theorem key_flip (x : F32) : (⟨x.bits ^^^ 0x80000000#32⟩ : F32).key = x.key.map (fun k => -k) := by
  have h := flip_toNat x
  have hlt := x.bits.isLt
  unfold F32.key
  dsimp only
  rw [h]
  by_cases h1 : x.bits.toNat < 2147483648
  · have hm : (x.bits.toNat + 2147483648) % 2147483648 = x.bits.toNat % 2147483648 := by omega
    have h3 : ¬ x.bits.toNat + 2147483648 < 2147483648 := by omega
    simp only [if_pos h1, hm, if_neg h3]
    split <;> rfl
  · have hm : (x.bits.toNat - 2147483648) % 2147483648 = x.bits.toNat % 2147483648 := by omega
    have h3 : x.bits.toNat - 2147483648 < 2147483648 := by omega
    simp only [if_neg h1, hm, if_pos h3]
    split
    · rfl
    · simp

theorem le_flip (x y : F32) : (⟨x.bits ^^^ 0x80000000#32⟩ : F32).le ⟨y.bits ^^^ 0x80000000#32⟩ = y.le x := by
  unfold F32.le
  rw [key_flip, key_flip]
  cases x.key <;> cases y.key <;> simp

/-- The sign does not matter for what counts. -/
theorem counted_signed {mips : Bool} {row : List (Nat × F32)} {ids : List Nat} {K x : Nat} :
    Spec.Counted ids (some ((row.map (fun y : Nat × F32 => (y.1, if mips then (⟨y.2.bits ^^^ 0x80000000#32⟩ : F32) else y.2))).map Prod.snd)) K x ↔
      Spec.Counted ids (some (row.map Prod.snd)) K x := by
  cases mips with
  | false => simp
  | true =>
    unfold Spec.Counted
    refine exists_congr (fun j => and_congr_right (fun _ => or_congr_right ?_))
    simp only [Option.some.injEq, exists_eq_left', if_true, List.map_map, List.getElem?_map]
    refine forall_congr' (fun j' => forall_congr' (fun _ => forall_congr' (fun _ => ?_)))
    cases row[j']? with
    | none => simp
    | some a =>
      cases row[K - 1]? with
      | none => simp
      | some b => simp [le_flip, and_comm]

theorem rows_row {α β : Type} (f : α → β) (k : Nat) (out : List (List α)) (h : ∀ r ∈ out, r.length = k) {i : Nat} {r : List α}
    (hi : out[i]? = some r) : Spec.row (out.flatMap (fun r => r.map f)) k i = r.map f := by
  induction out generalizing i with
  | nil => simp at hi
  | cons a l ih =>
    have ha := h a (List.mem_cons_self ..)
    unfold Spec.row
    rw [List.flatMap_cons]
    cases i with
    | zero =>
      rw [List.getElem?_cons_zero] at hi
      injection hi with hi
      subst hi
      rw [Nat.mul_zero, List.drop_zero, List.take_append_of_le_length (by rw [List.length_map, ha]), ← ha, ← List.length_map (f := f),
        List.take_length]
    | succ i =>
      rw [List.getElem?_cons_succ] at hi
      have := ih (fun r hr => h r (List.mem_cons_of_mem _ hr)) hi
      unfold Spec.row at this
      rw [Nat.mul_succ, Nat.add_comm, ← List.drop_drop, ← ha, ← List.length_map (f := f), List.drop_left, List.length_map, ha]
      exact this

theorem rows_len {α β : Type} (f : α → β) (k : Nat) (out : List (List α)) (h : ∀ r ∈ out, r.length = k) :
    (out.flatMap (fun r => r.map f)).length = k * out.length := by
  induction out with
  | nil => simp
  | cons a l ih =>
    rw [List.flatMap_cons, List.length_append, ih (fun r hr => h r (List.mem_cons_of_mem _ hr)), List.length_map, h a (List.mem_cons_self ..),
      List.length_cons, Nat.mul_succ, Nat.add_comm]

/-- **C86 (the ground truth that is loaded).** Whatever lists of `k` nearest points are in the file: the search programs accept it for any number of neighbours `K`
up to `k`, and what counts as a true neighbour of query `i` has fewer than `K` points nearer.  If the lists have room for all ties, all those points count. -/
theorem C86_truth_counted {mips : Bool} {k n nq K : Nat} {d : Nat → Nat → F32} {out : List (List (Nat × F32))} (ho : out.length = nq)
    (hout : ∀ i row, out[i]? = some row → KNearest k (Finset.range n) (d i) row) (hK : 1 ≤ K) (hKk : K ≤ k) (hkn : k ≤ n) (hn : n < 4294967296)
    (hnq : 0 < nq) (hnq32 : nq < 4294967296) (hnum : ∀ i < nq, ∀ g < n, (d i g).IsNum) (hsz : nq * k < 1152921504606846975) :
    ∃ t, TruthOK nq K (some (Spec.truthBytes k (Spec.signed mips out))) (some t) ∧ t.npts = nq ∧ ∀ i < nq,
      (Spec.countedSet t.ids t.dists t.dim K i ⊆ Spec.trueNear K n (d i)) ∧
      (Spec.TiesFit K k n (d i) → Spec.countedSet t.ids t.dists t.dim K i = Spec.trueNear K n (d i)) := by
  have hrow : ∀ r ∈ out, r.length = k ∧ ∀ x ∈ r, x.1 < n := by
    intro r hr
    obtain ⟨i, hi, rfl⟩ := List.mem_iff_getElem.mp hr
    have h := hout i _ (List.getElem?_eq_getElem hi)
    refine ⟨by rw [h.length, Finset.card_range, Nat.min_eq_left hkn], fun x hx => Finset.mem_range.mp (h.mem x hx).1⟩
  have hlen : ∀ r ∈ out, r.length = k := fun r hr => (hrow r hr).1
  have hsl : ∀ r ∈ Spec.signed mips out, r.length = k := by
    intro r hr
    unfold Spec.signed at hr
    obtain ⟨r', hr', rfl⟩ := List.mem_map.mp hr
    rw [List.length_map]; exact hlen r' hr'
  have hsi : ∀ {i : Nat} {r : List (Nat × F32)}, out[i]? = some r → (Spec.signed mips out)[i]? =
      some (r.map (fun y : Nat × F32 => (y.1, if mips then (⟨y.2.bits ^^^ 0x80000000#32⟩ : F32) else y.2))) := by
    intro i r hi
    unfold Spec.signed
    rw [List.getElem?_map, hi]; rfl
  have hsn : (Spec.signed mips out).length = nq := by unfold Spec.signed; rw [List.length_map, ho]
  have hload := C85_truth_load (mips := mips) (k := k) hnq ho (by omega) (by omega) hnq32
    (fun r hr => ⟨hlen r hr, fun x hx => Nat.lt_trans ((hrow r hr).2 x hx) hn⟩) hsz ⟨fun _ => 0, [0, 0, 0, 0], [0, 0, 0, 0], fun _ => 0, fun _ => 0⟩ rfl rfl
  have hb : (Spec.truthBytes k (Spec.signed mips out)).length < 9223372036854775808 := by
    unfold Spec.truthBytes
    simp only [List.length_append, le_length, le32s_length, rows_len _ _ _ hsl, hsn]
    rw [Nat.mul_comm k nq]
    omega
  rw [C46_load _ hb _ rfl rfl] at hload
  have hids : (out.flatMap (fun r => r.map Prod.fst)).length = k * nq := by rw [rows_len _ _ _ hlen, ho]
  have hds : ((Spec.signed mips out).flatMap (fun r => r.map Prod.snd)).length = k * nq := by rw [rows_len _ _ _ hsl, hsn]
  have hget : ∀ i < nq, ∃ r, out[i]? = some r ∧ KNearest k (Finset.range n) (d i) r ∧ r.length = k := by
    intro i hi
    have hi' : i < out.length := by omega
    exact ⟨out[i], List.getElem?_eq_getElem hi', hout i _ (List.getElem?_eq_getElem hi'), hlen _ (List.getElem_mem hi')⟩
  refine ⟨_, ⟨_, rfl, hb, hload, ⟨hids, ?_, hK, hKk, ?_⟩⟩, rfl, ?_⟩
  · rintro ds hds'
    injection hds' with hds'
    subst hds'
    refine ⟨hds, fun i hi => ?_⟩
    obtain ⟨r, hr, hkn', hrl⟩ := hget i hi
    rw [rows_row Prod.snd k _ hsl (hsi hr), List.map_map, List.getElem?_map, List.getElem?_eq_getElem (by omega : K - 1 < r.length)]
    refine ⟨_, rfl, ?_⟩
    have hm := hkn'.mem _ (List.getElem_mem (by omega : K - 1 < r.length))
    have hx := hnum i hi _ (Finset.mem_range.mp hm.1)
    rw [← hm.2] at hx
    dsimp only [Function.comp]
    split
    · unfold F32.IsNum at hx ⊢
      rw [key_flip]
      intro hc
      exact hx (Option.map_eq_none_iff.mp hc)
    · exact hx
  · dsimp only; omega
  · intro i hi
    obtain ⟨r, hr, hkn', hrl⟩ := hget i hi
    have hc : ∀ x, x ∈ Spec.countedSet (out.flatMap (fun r => r.map Prod.fst)) (some ((Spec.signed mips out).flatMap (fun r => r.map Prod.snd))) k K i ↔
        Spec.Counted (r.map Prod.fst) (some (r.map Prod.snd)) K x := by
      intro x
      rw [mem_countedSet, rows_row Prod.fst k _ hlen hr, Option.map_some, rows_row Prod.snd k _ hsl (hsi hr)]
      exact counted_signed
    have h1 : Spec.countedSet (out.flatMap (fun r => r.map Prod.fst)) (some ((Spec.signed mips out).flatMap (fun r => r.map Prod.snd))) k K i ⊆
        Spec.trueNear K n (d i) := fun x hx => counted_near hkn' hK ((hc x).1 hx)
    exact ⟨h1, fun hfit => Finset.Subset.antisymm h1 (fun x hx => (hc x).2 (near_counted hkn' hkn (hnum i hi) hfit hx))⟩

/-! ## The recall -/

/-- The number of points among the slots of all queries that are among the `K` nearest. -/
noncomputable def Spec.trueHits (n : Nat) (d : Nat → Nat → F32) (nq K : Nat) (out : Nat → List Nat) : Nat :=
  ((List.range nq).map (fun i => (Spec.trueNear K n (d i) ∩ (Spec.filled K (out i)).toFinset).card)).sum

theorem slotHits_eq {t : Truth} {n nq K : Nat} {d : Nat → Nat → F32} {out : Nat → List Nat}
    (h : ∀ i < nq, Spec.countedSet t.ids t.dists t.dim K i = Spec.trueNear K n (d i)) :
    Spec.slotHits t nq K out = Spec.trueHits n d nq K out := by
  unfold Spec.slotHits Spec.trueHits
  congr 1
  refine List.map_congr_left (fun i hi => ?_)
  rw [h i (List.mem_range.mp hi)]

theorem slotHits_le {t : Truth} {n nq K : Nat} {d : Nat → Nat → F32} {out : Nat → List Nat}
    (h : ∀ i < nq, Spec.countedSet t.ids t.dists t.dim K i ⊆ Spec.trueNear K n (d i)) :
    Spec.slotHits t nq K out ≤ Spec.trueHits n d nq K out := by
  unfold Spec.slotHits Spec.trueHits
  refine List.sum_le_sum (fun i hi => ?_)
  exact Finset.card_le_card (Finset.inter_subset_inter_right (h i (List.mem_range.mp hi)))

/-- If every query has its nearest points, all slots are hits. -/
theorem trueHits_all {n nq K : Nat} {d : Nat → Nat → F32} {out : Nat → List Nat} (hK : 0 < K) (hKn : K ≤ n)
    (h : ∀ i < nq, KNearest K (Finset.range n) (d i) ((out i).map (fun j => (j, d i j)))) : Spec.trueHits n d nq K out = nq * K := by
  unfold Spec.trueHits
  have : (List.range nq).map (fun i => (Spec.trueNear K n (d i) ∩ (Spec.filled K (out i)).toFinset).card) = (List.range nq).map (fun _ => K) := by
    refine List.map_congr_left (fun i hi => ?_)
    have hi' := h i (List.mem_range.mp hi)
    have hl : (out i).length = K := by
      have := hi'.length
      rw [List.length_map, Finset.card_range, Nat.min_eq_left hKn] at this
      exact this
    have hnd : (out i).Nodup := by
      have := hi'.nodup
      rw [List.map_map] at this
      simpa [Function.comp_def] using this
    have hf : Spec.filled K (out i) = out i := by unfold Spec.filled; rw [hl, Nat.sub_self, List.replicate_zero, List.append_nil]
    rw [hf, Finset.inter_eq_right.mpr, List.toFinset_card_of_nodup hnd, hl]
    intro x hx
    exact answer_near hi' hK x (List.mem_toFinset.mp hx)
  rw [this]
  simp

theorem trueHits_congr {n nq K : Nat} {d d' : Nat → Nat → F32} {out : Nat → List Nat}
    (h : ∀ q < nq, ∀ i < n, ∀ j < n, (d q i).lt (d q j) = (d' q i).lt (d' q j)) :
    Spec.trueHits n d nq K out = Spec.trueHits n d' nq K out := by
  unfold Spec.trueHits
  congr 1
  refine List.map_congr_left (fun i hi => ?_)
  rw [trueNear_congr (h i (List.mem_range.mp hi))]

/-- **C86 (the recall that is printed).** With a ground truth as above, the value printed is within rounding the percentage of points among the slots that really are
among the `K` nearest, if all ties fit in the file, and at most that otherwise. -/
theorem C86_recall {t : Truth} {n nq K : Nat} {d : Nat → Nat → F32} {out : Nat → List Nat} {r : Option (Nat × Nat)}
    (h : Spec.PrintedRecall (some t) nq K out r) (hc : ∀ i < nq, Spec.countedSet t.ids t.dists t.dim K i ⊆ Spec.trueNear K n (d i)) :
    ∃ v, r = some v ∧ fval v ≤ 100 * Spec.trueHits n d nq K out / (nq * K) * (1 + 4 / 2 ^ 53) ∧
      ((∀ i < nq, Spec.countedSet t.ids t.dists t.dim K i = Spec.trueNear K n (d i)) →
        |fval v - 100 * Spec.trueHits n d nq K out / (nq * K)| ≤ 100 * Spec.trueHits n d nq K out / (nq * K) * (4 / 2 ^ 53)) := by
  obtain ⟨v, hv, hr⟩ := h
  refine ⟨v, hv, ?_, fun he => by rw [← slotHits_eq he]; exact hr⟩
  have h1 : (Spec.slotHits t nq K out : ℚ) ≤ Spec.trueHits n d nq K out := by exact_mod_cast slotHits_le hc
  have h2 : 100 * (Spec.slotHits t nq K out : ℚ) / (nq * K) ≤ 100 * Spec.trueHits n d nq K out / (nq * K) := by
    apply div_le_div_of_nonneg_right
    · linarith
    · positivity
  have h3 := (abs_le.mp hr).2
  have h4 : fval v ≤ 100 * (Spec.slotHits t nq K out : ℚ) / (nq * K) * (1 + 4 / 2 ^ 53) := by linarith
  refine h4.trans (mul_le_mul_of_nonneg_right h2 (by positivity))

/-! ## The programs -/

/-- **C86 (a search program after the ground-truth program).** If a run of a search program is well-formed but for the ground truth, it is well-formed after the
ground-truth program has written that file. -/
theorem C86_chain {env : TruthEnv} {e : Elem} {a0 ty b q kt o m : Bytes} {dim : Nat} {rows qrows : List Bytes} {k : Nat} {fs : FS Bytes}
    (ht : elemArg ty = some e) (hk : Spec.NumText kt k) (hk31 : k < 2147483648)
    (hb : fs b = some (Spec.binFile dim rows)) (hq : fs q = some (Spec.binFile dim qrows)) (h : TruthInput env e (m = ascii "mips") dim rows qrows k)
    (S : Prog Bytes) (es adim : Nat) (hS : ({S with truth := none} : Prog Bytes).OK es adim (fun p => if p = o then none else fs p))
    (ho : S.f.truth = o) (hn : S.qrows.length = qrows.length) (hK : 1 ≤ S.K) (hKk : S.K ≤ k) :
    ∃ ops t, truthMain env [a0, ty, b, q, kt, o, m] fs = .ok (.run ops) ∧ (∀ p, p ≠ o → runOps ops fs p = fs p) ∧
      ({S with truth := some t} : Prog Bytes).OK es adim (runOps ops fs) ∧ ∀ i < qrows.length,
        Spec.countedSet t.ids t.dists t.dim S.K i ⊆ Spec.trueNear S.K rows.length (Spec.truthDist env e (m = ascii "mips") dim rows qrows i) ∧
        (Spec.TiesFit S.K k rows.length (Spec.truthDist env e (m = ascii "mips") dim rows qrows i) →
          Spec.countedSet t.ids t.dists t.dim S.K i = Spec.trueNear S.K rows.length (Spec.truthDist env e (m = ascii "mips") dim rows qrows i)) := by
  obtain ⟨ops, out, e1, e2, e3, e4⟩ := C85_truth_partial (a0 := a0) (o := o) ht hk hk31 hb hq h
  have hkn : k ≤ rows.length := Nat.le_trans h.klast (lastPart_le h.some)
  have h0 : 0 < qrows.length := by have := hS.some; rw [← hn]; exact this
  obtain ⟨t, t1, -, t2⟩ := C86_truth_counted (mips := decide (m = ascii "mips")) (K := S.K) e2 e3 hK hKk hkn (by have := h.few; omega) h0
    (by have := h.fewq; omega) h.num h.room
  refine ⟨ops, t, e1, (e4 fs).2, ⟨hS.res, ?_, hS.queries, hS.some, hS.dim, hS.few, hS.room, ?_, hS.h1, hS.h2, hS.j1, hS.j2, hS.order, hS.param⟩, t2⟩
  · have h1 := hS.query
    dsimp only at h1 ⊢
    split at h1
    · cases h1
    · rename_i hne
      rw [(e4 fs).2 _ hne, h1]
  · show TruthOK S.qrows.length S.K (runOps ops fs S.f.truth) (some t)
    rw [ho, (e4 fs).1, hn]
    exact t1

/-- **C86 (ground truth, IVF index and search, from the command lines on).** The three programs are run one after the other, the search without filter and with
as many clusters as there are as the only search parameter.  If the ground-truth program and the index compare the points in the same way, and all
ties fit in the file, the recall printed is 100 within rounding. -/
theorem C86_ivf (tenv : TruthEnv) (env : BuildEnv IvfTrain) (senv : SearchEnv) (pops : List F32 → List Nat) (fs : FS Bytes) (argv argv2 : List Bytes)
    (a : ListArgs F32) (s : SearchArgs) {a0 ty q kt m : Bytes} {k : Nat}
    (ha : ivfArgs argv = .ok (.run a)) (hs : searchIvfArgs argv2 = .ok (.run s)) (h1 : s.elem = a.elem) (h3 : s.index = a.save)
    (d : DistClass) (hd : getDistance a.elem .l2 = .ok d) (hcmp : senv.cmp = env.cmp) (hsl : senv.sortL = env.sortL)
    (hsort : IsStrSort env.sortL) (hj : env.junk.WF) (hj' : senv.junk.WF)
    (dim : Nat) (rows : List Bytes) (labelFile : Option Bytes) (lab : Nat → List Label) (hb : fs a.data = some (Spec.binFile dim rows))
    (hlf : LabelFileArg fs a.labels labelFile) (hin : InputOK a.elem.size dim rows (Spec.binFile dim rows) [] labelFile lab) (hdim : dim ≤ 4294967288)
    (y : F32) (hy : toF32 a.last.text = .ok y) (cs : Bytes) (crows : List Bytes)
    (htrain : ∀ o1, ctorObj env.sortL env.junk a.elem.size (some (Spec.binFile dim rows)) [] (labelFile.map some) = .ok o1 → env.run.train a.num y o1 = .ok cs)
    (hrun : (⟨a.num, cs, env.run.pops, env.run.sched⟩ : IvfRun).OK (roundUp8 dim) crows)
    (hcd : ∀ i, i < rows.length → CentreRow a.num (env.run.cdist cs a.num (roundUp8 dim) (Spec.padTo (roundUp8 dim * a.elem.size) (rows.getD i []))))
    (hpops : IsPopOrder pops) (hflt : s.filters = []) (hL : s.Ls = [a.num])
    (qdim : Nat) (qrows : List Bytes) (qb : Bytes)
    (hS : (progOf senv s 1 qdim qrows qb none).OK a.elem.size (roundUp8 dim) (fun p => if p = s.truth then none else fs p))
    (hdata : a.data ≠ s.truth) (hlabels : a.labels ≠ s.truth)
    (hqn : ∀ p, s.query ≠ ivfName a.save p) (htn : ∀ p, s.truth ≠ ivfName a.save p) (hK1 : 1 ≤ s.K)
    (hnum : ∀ k, k < qrows.length → (∀ i, i < rows.length →
        (Spec.fileDist (env.cmp d) a.elem.size dim rows (Spec.queryVec a.elem.size qdim (roundUp8 dim) qrows k) i).lt F32.fmax = true) ∧
      CentreRow a.num (env.run.cdist cs a.num (roundUp8 dim) (Spec.queryVec a.elem.size qdim (roundUp8 dim) qrows k)))
    (ht : elemArg ty = some a.elem) (hk : Spec.NumText kt k) (hk31 : k < 2147483648) (hKk : s.K ≤ k)
    (hqf : fs q = some (Spec.binFile dim qrows)) (htin : TruthInput tenv a.elem (m = ascii "mips") dim rows qrows k)
    (hsame : ∀ c < qrows.length, ∀ i < rows.length, ∀ j < rows.length,
      (Spec.truthDist tenv a.elem (m = ascii "mips") dim rows qrows c i).lt (Spec.truthDist tenv a.elem (m = ascii "mips") dim rows qrows c j) =
      (Spec.fileDist (env.cmp d) a.elem.size dim rows (Spec.queryVec a.elem.size qdim (roundUp8 dim) qrows c) i).lt
        (Spec.fileDist (env.cmp d) a.elem.size dim rows (Spec.queryVec a.elem.size qdim (roundUp8 dim) qrows c) j))
    (hties : ∀ c < qrows.length, Spec.TiesFit s.K k rows.length (Spec.truthDist tenv a.elem (m = ascii "mips") dim rows qrows c)) :
    ∃ ops0 ops v ops', truthMain tenv [a0, ty, a.data, q, kt, s.truth, m] fs = .ok (.run ops0) ∧
      buildIvfMain env argv (runOps ops0 fs) = .ok (.run ops) ∧
      searchIvfMain senv env.run.cdist pops argv2 (runOps ops (runOps ops0 fs)) = .ok (.run ([some v], ops')) ∧
      |fval v - 100| ≤ 100 * (4 / 2 ^ 53) := by
  obtain ⟨ops0, t, e1, e2, e3, e4⟩ := C86_chain (a0 := a0) ht hk hk31 hb hqf htin (progOf senv s 1 qdim qrows qb none) a.elem.size (roundUp8 dim) hS rfl rfl
    hK1 hKk
  have hkn : k ≤ rows.length := Nat.le_trans htin.klast (lastPart_le htin.some)
  have hlf' : LabelFileArg (runOps ops0 fs) a.labels labelFile := by
    unfold LabelFileArg
    rw [e2 _ hlabels]; exact hlf
  obtain ⟨ops, rs, ops', f1, f2, out, g1, g2, -⟩ := C83_ivf env senv pops (runOps ops0 fs) argv argv2 a s ha hs h1 h3 d hd hcmp hsl hsort hj hj' dim rows _ labelFile
    lab ((e2 _ hdata).trans hb) hlf' hin hdim y hy cs crows htrain hrun hcd hpops (fun h => absurd hflt h) qdim qrows qb (some t) e3 hqn htn hK1
    (by change s.K ≤ k at hKk; omega) (by rw [hL]; simp) hnum
  have hnum1 : 1 ≤ a.num := by
    obtain ⟨L, hL1, hL2⟩ := hS.param
    change L ∈ s.Ls at hL1
    change 1 ≤ L at hL2
    rw [hL, List.mem_singleton] at hL1
    omega
  have hfil : (progOf senv s 1 qdim qrows qb (some t)).Ls.filter (fun L => (progOf senv s 1 qdim qrows qb (some t)).minL ≤ L) = [a.num] := by
    show s.Ls.filter (fun L => 1 ≤ L) = _
    rw [hL]
    simp [hnum1]
  rw [hfil] at g1 g2
  obtain ⟨g3, r, g4, g5⟩ := g2 0 a.num rfl
  have hc : ∀ i < qrows.length, Spec.countedSet t.ids t.dists t.dim s.K i = Spec.trueNear s.K rows.length (Spec.truthDist tenv a.elem (m = ascii "mips") dim rows qrows i) :=
    fun i hi => (e4 i hi).2 (hties i hi)
  obtain ⟨v, rfl, -, hv⟩ := C86_recall g5 (fun i hi => (hc i hi).subset)
  have hv := hv hc
  have hh : Spec.trueHits rows.length (Spec.truthDist tenv a.elem (m = ascii "mips") dim rows qrows) qrows.length s.K (out 0) = qrows.length * s.K := by
    rw [trueHits_congr hsame]
    refine trueHits_all hK1 (by change s.K ≤ k at hKk; omega) (fun i hi => ?_)
    have hg := (g3 i hi).1.2.2.2.1 rfl
    have hall : (Finset.range rows.length).filter (fun x => _root_.Spec.Matches true [48] s.filters (lab x)) = Finset.range rows.length :=
      Finset.filter_true_of_mem (fun x _ => Or.inl hflt)
    rw [hall] at hg
    exact hg
  have hrs : rs = [some v] := by
    cases rs with
    | nil => cases g1
    | cons x l =>
      cases l with
      | nil => rw [List.getElem?_cons_zero] at g4; injection g4 with g4; rw [g4]
      | cons _ _ => simp at g1
  subst hrs
  refine ⟨ops0, ops, v, ops', e1, f1, f2, ?_⟩
  have h0 : (1 : ℚ) ≤ qrows.length := by exact_mod_cast hS.some
  have hK0 : (1 : ℚ) ≤ s.K := by exact_mod_cast hK1
  have hone : 100 * (((qrows.length * s.K : Nat) : ℚ)) / (qrows.length * s.K) = 100 := by
    push_cast
    field_simp
  change |fval v - 100 * (Spec.trueHits rows.length _ qrows.length s.K (out 0) : ℚ) / (qrows.length * s.K)| ≤
    100 * (Spec.trueHits rows.length _ qrows.length s.K (out 0) : ℚ) / (qrows.length * s.K) * (4 / 2 ^ 53) at hv
  rw [hh, hone] at hv
  exact hv

/-! ## Examples -/

/-- The points of a ground truth in which two are at the same distance, one of them in the list for `K = 1`. -/
example : Spec.trueNear 1 3 (fun i => [F32.one, F32.zero, F32.zero].getD i F32.one) = {1, 2} := by decide +kernel

example := C86_ties_needed (k := 1) (n := 3) (K := 1) (d := fun i => [F32.one, F32.zero, F32.zero].getD i F32.one) (row := [(1, F32.zero)])
  ⟨by simp, by simp, by decide +kernel, by decide, by decide +kernel⟩ (by unfold Spec.TiesFit; decide +kernel)

/-- Squares of differences of single bytes. -/
def exChainTruth : TruthEnv where
  partSize := 20
  pick := fun _ _ _ => exPick
  sortP := exPairSort
  elem := fun _ b => ⟨BitVec.ofNat 32 (unle b)⟩
  dist := fun _ _ _ x y => exSq (x.headD F32.zero).bits.toNat (y.headD F32.zero).bits.toNat
  junk := fun _ _ => F32.zero
  mem := fun _ _ => 0

theorem exChainInput : TruthInput exChainTruth .uint8 (ascii "l2" = ascii "mips") 1 exRows10 [[51], [55]] 3 where
  part := by decide
  mat := by unfold Spec.Matrix; decide
  qmat := by unfold Spec.Matrix; decide
  dimLt := by decide
  some := by decide
  few := by decide
  fewq := by decide
  onePart := by decide
  kpos := by decide
  klast := by decide
  room := by decide
  heap := fun _ _ => exPick_isHeapPick
  sort := exPairSort_isPairSort
  num := by decide +kernel

/-- All clusters, no filter. -/
def exChainSearchLine : List Bytes := cmdWords ["search", "uint8", "i", "8", "q", "g", "2", "r", "0", "2"]

theorem exChainOK (s : SearchArgs) (hq : s.query = ascii "q") (ht : s.truth = ascii "g") (hK : s.K = 2) (hLs : s.Ls = [2]) :
    (progOf exSearchEnv s 1 1 [[51], [55]] exQueries none).OK 1 8 (fun p => if p = ascii "g" then none else exCmdFs p) := by
  obtain ⟨elem, metric, data, index, levels, query, truth, K, pre, filters, Ls⟩ := s
  dsimp only at hq ht hK hLs
  subst hq ht hK hLs
  have hqf : (if ascii "q" = ascii "g" then none else exCmdFs (ascii "q")) = some exQueries := by decide +kernel
  refine ⟨fun L hL L' hL' h => ?_, hqf, exQueries_ok, (by decide : 1 ≤ 2), (by decide : 8 ≤ roundUp8 1),
    (by decide : 2 < 4294967296), (by decide : 2 * 2 ≤ 2305843009213693951), (by decide +kernel : (if ascii "g" = ascii "g" then none else exCmdFs (ascii "g")) = none) ▸ rfl,
    rfl, rfl, rfl, rfl, fun _ => (by decide : [1, 0].Perm (List.range 2)), ⟨2, List.mem_singleton.mpr rfl, (by decide : 1 ≤ 2)⟩⟩
  change L ∈ [2] at hL
  change L' ∈ [2] at hL'
  rw [List.mem_singleton] at hL hL'
  rw [hL, hL']

example : ∃ ops0 ops v ops', truthMain exChainTruth [ascii "truth", ascii "uint8", ascii "d", ascii "q", ascii "3", ascii "g", ascii "l2"] exCmdFs = .ok (.run ops0) ∧
    buildIvfMain exIvfEnv exIvfLine (runOps ops0 exCmdFs) = .ok (.run ops) ∧
    searchIvfMain exSearchEnv exCdist exPops exChainSearchLine (runOps ops (runOps ops0 exCmdFs)) = .ok (.run ([some v], ops')) ∧
    |fval v - 100| ≤ 100 * (4 / 2 ^ 53) :=
  C86_ivf exChainTruth exIvfEnv exSearchEnv exPops exCmdFs exIvfLine exChainSearchLine ⟨.uint8, ascii "d", ascii "t", ascii "i", 2, ⟨0x3f000000#32⟩⟩
    ⟨.uint8, .l2, [], ascii "i", 1, ascii "q", ascii "g", 2, ascii "r", [], [2]⟩ (by decide +kernel) (by decide +kernel) rfl rfl .l2UInt8 rfl rfl rfl
    exStrSort_isStrSort exJunk_WF exJunk_WF 1 exRows10 (some exLabels10) exLab (by decide +kernel) (Or.inr ⟨by decide, by simp, exCmdFs_q.2.2.2⟩)
    (by have h : Spec.binFile 1 exRows10 = exFile10 := by decide +kernel
        rw [h]; exact exInput10) (by decide) ⟨0x3f000000#32⟩ (by decide +kernel) exCrows.flatten exCrows (fun _ _ => rfl)
    ⟨by decide, by decide, rfl, by unfold Spec.Matrix; decide, rfl, by decide +kernel, exPops_isPopOrder, fun _ l => l.reverse_perm⟩
    (by
      have h : ∀ i < 10, ((exCdist exIvfRun.centers 2 8 (Spec.padTo 8 (exRows10.getD i []))).length = 2 ∧
        (∀ x ∈ exCdist exIvfRun.centers 2 8 (Spec.padTo 8 (exRows10.getD i [])), x.IsNum) ∧
        ∃ x ∈ exCdist exIvfRun.centers 2 8 (Spec.padTo 8 (exRows10.getD i [])), x.lt F32.fmax = true) := by decide +kernel
      exact fun i hi => ⟨(h i hi).1, (h i hi).2.1, (h i hi).2.2⟩)
    exPops_isPopOrder rfl rfl 1 [[51], [55]] exQueries (exChainOK _ rfl rfl rfl rfl) (by decide +kernel) (by decide +kernel)
    (by
      rintro (- | p)
      · decide +kernel
      · exact (exCmdNames p).1)
    (by
      rintro (- | p)
      · decide +kernel
      · exact (exCmdNames p).2.1) (by decide)
    (by
      have h : ∀ k < 2, (∀ i < 10, (Spec.fileDist exCmpB 1 1 exRows10 (Spec.queryVec 1 1 8 [[51], [55]] k) i).lt F32.fmax = true) ∧
        ((exCdist exIvfRun.centers 2 8 (Spec.queryVec 1 1 8 [[51], [55]] k)).length = 2 ∧
        (∀ x ∈ exCdist exIvfRun.centers 2 8 (Spec.queryVec 1 1 8 [[51], [55]] k), x.IsNum) ∧
        ∃ x ∈ exCdist exIvfRun.centers 2 8 (Spec.queryVec 1 1 8 [[51], [55]] k), x.lt F32.fmax = true) := by decide +kernel
      exact fun k hk => ⟨(h k hk).1, (h k hk).2.1, (h k hk).2.2.1, (h k hk).2.2.2⟩)
    (by decide +kernel) (atoi_ok_iff.1 (by decide +kernel : atoi (ascii "3") = .ok 3)).1 (by decide) (by decide) (by decide +kernel) exChainInput
    (by decide +kernel)
    (by
      have h : ∀ c < 2, ∀ g ∈ Spec.trueNear 2 10 (Spec.truthDist exChainTruth .uint8 (ascii "l2" = ascii "mips") 1 exRows10 [[51], [55]] c),
        ((Finset.range 10).filter (fun i => (Spec.truthDist exChainTruth .uint8 (ascii "l2" = ascii "mips") 1 exRows10 [[51], [55]] c i).le
          (Spec.truthDist exChainTruth .uint8 (ascii "l2" = ascii "mips") 1 exRows10 [[51], [55]] c g) = true)).card ≤ 3 := by decide +kernel
      exact h)

/-- Two points of the second query are at the same distance, so that with two neighbours per query in the file the recall is 75 percent, and 100 percent with
three of them. -/
def exChainRun (kt : String) : Res (Cmd (List (Option Bool × Option Bool))) :=
  mainOf (truthMain exChainTruth [ascii "truth", ascii "uint8", ascii "d", ascii "q", ascii kt, ascii "g", ascii "l2"] exCmdFs) (fun ops0 =>
    mainOf (buildIvfMain exIvfEnv exIvfLine (runOps ops0 exCmdFs)) (fun ops =>
      mainOf (searchIvfMain exSearchEnv exCdist exPops exChainSearchLine (runOps ops (runOps ops0 exCmdFs))) (fun r =>
        done (.ok (r.1.map (fun r => (r.map (fun v => v.1 == 75 * v.2), r.map (fun v => v.1 == 100 * v.2))))))))

theorem C86_ties_cost : (exChainRun "2").map (fun c => match c with | .run r => r | _ => []) = .ok [(some true, some false)] ∧
    (exChainRun "3").map (fun c => match c with | .run r => r | _ => []) = .ok [(some false, some true)] := by
  decide +kernel

/-! ## The theorems applied to the examples -/

/-- The truth for two points at the same distance of a query, with room for both. -/
def exTieOut : List (List (Nat × F32)) := [[(1, F32.zero), (2, F32.zero)]]

theorem exTie_nearest : ∀ (i : Nat) (row : List (Nat × F32)), exTieOut[i]? = some row → KNearest 2 (Finset.range 3) (fun i => [F32.one, F32.zero, F32.zero].getD i F32.one) row := by
  intro i row h
  match i with
  | 0 => cases h; exact ⟨by decide, by decide +kernel, by decide +kernel, by decide, by decide +kernel⟩
  | i + 1 => simp [exTieOut] at h

example := C86_truth_counted (mips := false) (k := 2) (n := 3) (nq := 1) (K := 1) (d := fun _ i => [F32.one, F32.zero, F32.zero].getD i F32.one)
  (out := exTieOut) rfl exTie_nearest (by decide) (by decide) (by decide) (by decide) (by decide) (by decide)
  (by intro i _ g hg; match g, hg with | 0, _ => decide +kernel | 1, _ => decide +kernel | 2, _ => decide +kernel) (by decide)

end Grann
