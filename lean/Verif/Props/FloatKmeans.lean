import Verif.Proofs.FloatDouble
import Verif.Props.FloatCentre
import Verif.Props.KmeansUse
import Verif.Spec.FloatKmeans
/-!
# C98: k-means and the inverted index in `float` arithmetic
-/

namespace Grann

open _root_.Grann.Spec _root_.Spec

/-- A vector of `dim` finite values of size at most 2^k. -/
def Sized (dim k : Nat) (x : List F32) : Prop := x.length = dim ∧ ∀ y ∈ x, Spec.Finite y ∧ |value y| ≤ 2 ^ k

/-- The bound for the error of a distance of two such vectors. -/
def kmErr (h dim k : Nat) : ℚ := (h + 5) * 2 ^ (-22 : Int) * (dim * 2 ^ (2 * k + 1))

/-- What is asked of the arithmetic: sums with chains of at most `h` additions and `o` operations, and norms of this accuracy. -/
structure KmArith.OK (A : KmArith) (h o dim k : Nat) : Prop where
  small : h + 1 ≤ 2 ^ 20 ∧ 2 ≤ o ∧ o ≤ 2 ^ 90
  one : 1 ≤ dim
  size : dim * 2 ^ (2 * k + 1) ≤ 2 ^ 120
  prod : ∀ x c, Sized dim k x → Sized dim k c → Order h o dim (A.prod x c)
  nrm : ∀ x, Sized dim k x → NormOk A.ftz A.nrm h o x

theorem sized_norm {dim k : Nat} {x : List F32} (hx : Sized dim k x) : dotVal x x ≤ dim * 2 ^ (2 * k) := by
  obtain ⟨rfl, h⟩ := hx
  rw [dotVal_self]
  induction x with
  | nil => simp
  | cons y x ih =>
    rw [List.map_cons, List.sum_cons, List.length_cons]
    have h1 := ih (fun z hz => h z (List.mem_cons_of_mem _ hz))
    have h2 := (h y (List.mem_cons_self ..)).2
    have h3 : value y ^ 2 ≤ 2 ^ (2 * k) := by
      rw [← sq_abs, show (2 : ℚ) ^ (2 * k) = (2 ^ k) ^ 2 from by rw [← pow_mul, Nat.mul_comm]]
      gcongr
    push_cast
    linarith

/-- Reading tiny numbers as zero changes an inner product little. -/
theorem dot_daz_diff (ftz : Bool) {B : ℚ} (hB : 0 ≤ B) : ∀ {x c : List F32}, x.length = c.length → (∀ y ∈ x, |value y| ≤ B) → (∀ y ∈ c, |value y| ≤ B) →
    |dotVal (x.map (F32.daz ftz)) (c.map (F32.daz ftz)) - dotVal x c| ≤ x.length * (2 * B * 2 ^ (-126 : Int)) := by
  intro x
  induction x with
  | nil => intro c _ _ _; simp [dotVal]
  | cons y x ih =>
    intro c hl hx hc
    cases c with
    | nil => simp at hl
    | cons z c =>
      have h1 := ih (by simpa using hl) (fun w hw => hx w (List.mem_cons_of_mem _ hw)) (fun w hw => hc w (List.mem_cons_of_mem _ hw))
      have hy := hx y (List.mem_cons_self ..)
      have hz := hc z (List.mem_cons_self ..)
      have dy := daz_diff ftz y
      have dz := daz_diff ftz z
      have hy' := (daz_value ftz y).trans hy
      have e : dotVal ((y :: x).map (F32.daz ftz)) ((z :: c).map (F32.daz ftz)) - dotVal (y :: x) (z :: c) =
          (value (F32.daz ftz y) * (value (F32.daz ftz z) - value z) + (value (F32.daz ftz y) - value y) * value z) +
            (dotVal (x.map (F32.daz ftz)) (c.map (F32.daz ftz)) - dotVal x c) := by
        unfold dotVal
        simp only [List.map_cons, List.zipWith_cons_cons, List.sum_cons]
        ring
      rw [e, List.length_cons]
      refine (abs_add_le _ _).trans ?_
      have a1 : |value (F32.daz ftz y) * (value (F32.daz ftz z) - value z)| ≤ B * 2 ^ (-126 : Int) := by
        rw [abs_mul]
        exact mul_le_mul hy' dz (abs_nonneg _) hB
      have a2 : |(value (F32.daz ftz y) - value y) * value z| ≤ 2 ^ (-126 : Int) * B := by
        rw [abs_mul]
        exact mul_le_mul dy hz (abs_nonneg _) (by positivity)
      have a3 := abs_add_le (value (F32.daz ftz y) * (value (F32.daz ftz z) - value z)) ((value (F32.daz ftz y) - value y) * value z)
      push_cast
      generalize (2 : ℚ) ^ (-126 : Int) = t at *
      linarith

/-- **C98.** The distance of a vector to a centre, with one bound for the error. -/
theorem C98_entry_partial {A : KmArith} {h o dim k : Nat} (H : A.OK h o dim k) {x c : List F32} (hx : Sized dim k x) (hc : Sized dim k c) :
    Spec.Finite ((kmF32 A).entry x c) ∧ ((kmF32 A).entry x c).lt F32.fmax = true ∧ |value ((kmF32 A).entry x c) - sqDistVal x c| ≤ kmErr h dim k := by
  have nx := sized_norm hx
  have nc := sized_norm hc
  have hsz : (dim : ℚ) * 2 ^ (2 * k + 1) ≤ 2 ^ 120 := by exact_mod_cast H.size
  have e2 : (dim : ℚ) * 2 ^ (2 * k + 1) = dim * 2 ^ (2 * k) + dim * 2 ^ (2 * k) := by rw [pow_succ]; ring
  have hP := H.prod x c hx hc
  obtain ⟨r, er, fr, lr, hr⟩ := centre_finite A.ftz (h := h) (o := o) (T := A.prod x c) (n := dim) (x := x) (c := c)
    ⟨hP.1, hP.2.1, hP.2.2, ⟨H.small.1, H.small.2.1, H.small.2.2.trans (by norm_num)⟩, hx.1, hc.1, fun y hy => (hx.2 y hy).1, fun y hy => (hc.2 y hy).1,
      H.nrm x hx, H.nrm c hc, by linarith⟩
  have e : (kmF32 A).entry x c = r := by
    unfold kmF32
    dsimp only
    rw [er]
  rw [e]
  refine ⟨fr, lr, ?_⟩
  have hB : (1 : ℚ) ≤ 2 ^ k := one_le_pow₀ (by norm_num)
  have hd := dot_daz_diff A.ftz (B := 2 ^ k) (by positivity) (x := x) (c := c) (by rw [hx.1, hc.1]) (fun y hy => (hx.2 y hy).2) (fun y hy => (hc.2 y hy).2)
  rw [hx.1] at hd
  rw [sqDistVal_expand (by rw [hx.1, hc.1])]
  have hdim : (1 : ℚ) ≤ dim := by exact_mod_cast H.one
  have hkk : (2 : ℚ) ^ k ≤ 2 ^ (2 * k) := pow_le_pow_right₀ (by norm_num) (by omega)
  have hM : (1 : ℚ) ≤ dim * 2 ^ (2 * k) := by
    calc (1 : ℚ) = 1 * 1 := by norm_num
      _ ≤ dim * 2 ^ (2 * k) := mul_le_mul hdim (hB.trans hkk) (by norm_num) (by positivity)
  have hd2 : (dim : ℚ) * (2 * 2 ^ k * 2 ^ (-126 : Int)) ≤ dim * 2 ^ (2 * k) * (1 / 2 ^ 100) := by
    have : (dim : ℚ) * (2 * 2 ^ k * 2 ^ (-126 : Int)) = dim * 2 ^ k * (2 * 2 ^ (-126 : Int)) := by ring
    rw [this]
    refine mul_le_mul (mul_le_mul_of_nonneg_left hkk (by positivity)) (by norm_num) (by positivity) (by positivity)
  have ho : (o : ℚ) ≤ 2 ^ 90 := by exact_mod_cast H.small.2.2
  have ho2 : (o : ℚ) * (if A.ftz then 2 ^ (-121 : Int) else 2 ^ (-145 : Int)) ≤ dim * 2 ^ (2 * k) * (1 / 2 ^ 31) := by
    calc (o : ℚ) * (if A.ftz then 2 ^ (-121 : Int) else 2 ^ (-145 : Int)) ≤ 2 ^ 90 * 2 ^ (-121 : Int) := by
          refine mul_le_mul ho ?_ (by split <;> positivity) (by positivity)
          cases A.ftz <;> norm_num
      _ = 1 * (1 / 2 ^ 31) := by norm_num
      _ ≤ _ := mul_le_mul_of_nonneg_right hM (by norm_num)
  unfold expandErr at hr
  have hn : ((h : ℚ) + 3) * 2 ^ (-22 : Int) * (dotVal x x + dotVal c c) ≤ (h + 3) * 2 ^ (-22 : Int) * (dim * 2 ^ (2 * k + 1)) := by
    refine mul_le_mul_of_nonneg_left (by linarith) (by positivity)
  unfold kmErr
  have e3 : ((h : ℚ) + 5) * 2 ^ (-22 : Int) * (dim * 2 ^ (2 * k + 1)) = (h + 3) * 2 ^ (-22 : Int) * (dim * 2 ^ (2 * k + 1)) + dim * 2 ^ (2 * k) * (1 / 2 ^ 20) := by
    rw [e2]
    have : (2 : ℚ) ^ (-22 : Int) = 1 / 4194304 := by norm_num
    rw [this]
    norm_num
    ring
  rw [e3]
  have b1 := abs_le.1 hr
  have b2 := abs_le.1 (hd.trans hd2)
  have k1 : (dim : ℚ) * 2 ^ (2 * k) * (1 / 2 ^ 100) ≤ dim * 2 ^ (2 * k) * (1 / 2 ^ 31) := mul_le_mul_of_nonneg_left (by norm_num) (by positivity)
  have k2 : (dim : ℚ) * 2 ^ (2 * k) * (1 / 2 ^ 20) = 2048 * (dim * 2 ^ (2 * k) * (1 / 2 ^ 31)) := by norm_num; ring
  rw [k2]
  generalize (dim : ℚ) * 2 ^ (2 * k) * (1 / 2 ^ 31) = u at *
  generalize (dim : ℚ) * 2 ^ (2 * k) * (1 / 2 ^ 100) = v at *
  generalize ((h : ℚ) + 3) * 2 ^ (-22 : Int) * (dim * 2 ^ (2 * k + 1)) = w at *
  generalize ((h : ℚ) + 3) * 2 ^ (-22 : Int) * (dotVal x x + dotVal c c) = w' at *
  generalize (o : ℚ) * (if A.ftz then 2 ^ (-121 : Int) else 2 ^ (-145 : Int)) = z at *
  have hu : 0 ≤ u := by linarith
  refine abs_le.2 ⟨by linarith, by linarith⟩

theorem sized_coord {dim k : Nat} {x : List F32} (h : Sized dim k x) (j : Nat) : Spec.Finite (x.getD j F32.zero) ∧ |value (x.getD j F32.zero)| ≤ 2 ^ k := by
  by_cases hj : j < x.length
  · rw [List.getD_eq_getElem?_getD, List.getElem?_eq_getElem hj, Option.getD_some]
    exact h.2 _ (List.getElem_mem _)
  · rw [List.getD_eq_getElem?_getD, List.getElem?_eq_none (by omega), Option.getD_none]
    refine ⟨by unfold Spec.Finite; decide, ?_⟩
    rw [value_zero', abs_zero]
    positivity

/-- **C98 (means).** A centre computed as the mean of up to 2^23 points has values of the same size as theirs, and is close to the exact mean. -/
theorem C98_mean (A : KmArith) {dim k : Nat} (hk : k ≤ 120) {pts : List (List F32)} (h0 : pts ≠ []) (hn : pts.length ≤ 8388608)
    (hx : ∀ x ∈ pts, Sized dim k x) :
    Sized dim k (Spec.meanRow (kmF32 A).kpp.zero (kmF32 A).kpp.add (kmF32 A).divn dim pts) ∧
    ∀ j, j < dim → |value ((Spec.meanRow (kmF32 A).kpp.zero (kmF32 A).kpp.add (kmF32 A).divn dim pts).getD j F32.zero) - Spec.exactMean pts j| ≤
      2 ^ k * 2 ^ (-23 : Int) := by
  have key : ∀ j, (if pts = [] then F32.zero else (kmF32 A).divn (pts.foldl (fun s x => (kmF32 A).kpp.add s (x.getD j F32.zero)) (kmF32 A).kpp.zero) pts.length) =
      meanF32 A (sumF32 A.ftz (pts.map (fun x => x.getD j F32.zero))) (pts.map (fun x => x.getD j F32.zero)).length := by
    intro j
    rw [if_neg h0, List.length_map]
    unfold sumF32
    rw [List.foldl_map]
    rfl
  have hm : ∀ j, _ := fun j => mean_float A hk (xs := pts.map (fun x => x.getD j F32.zero)) (by simpa using h0) (by simpa using hn) (by
    intro y hy
    obtain ⟨x, hxm, rfl⟩ := List.mem_map.1 hy
    exact sized_coord (hx x hxm) j)
  unfold Spec.meanRow
  refine ⟨⟨by simp, ?_⟩, ?_⟩
  · intro y hy
    obtain ⟨j, hj, rfl⟩ := List.mem_map.1 hy
    rw [key]
    exact ⟨(hm j).1, (hm j).2.1⟩
  · intro j hj
    rw [List.getD_eq_getElem?_getD, List.getElem?_map, List.getElem?_range hj, Option.map_some, Option.getD_some, key, List.length_map]
    have := (hm j).2.2
    rw [List.map_map, List.length_map] at this
    exact this

theorem sized_zero (dim k : Nat) : Sized dim k (List.replicate dim F32.zero) := by
  refine ⟨by simp, fun y hy => ?_⟩
  rw [List.eq_of_mem_replicate hy, value_zero', abs_zero]
  exact ⟨by unfold Spec.Finite; decide, by positivity⟩

theorem KmArith.OK.k_le {A : KmArith} {h o dim k : Nat} (H : A.OK h o dim k) : k ≤ 59 := by
  by_contra hc
  have h1 : 2 ^ 121 ≤ 2 ^ (2 * k + 1) := Nat.pow_le_pow_right (by norm_num) (by omega)
  have h2 : 2 ^ (2 * k + 1) ≤ dim * 2 ^ (2 * k + 1) := Nat.le_mul_of_pos_left _ H.one
  have h3 := H.size
  have h4 : 2 ^ 120 < 2 ^ 121 := by norm_num
  omega

/-- **C98.** The arithmetic of the program meets the conditions of the theorems about k-means. -/
theorem C98_tame {A : KmArith} {h o dim k : Nat} (H : A.OK h o dim k) : Tame (kmF32 A) dim (Sized dim k) :=
  ⟨sized_zero dim k, fun _ h0 hn hx => (C98_mean A (by have := H.k_le; omega) h0 hn (fun x hm => (hx x hm).1)).1, fun _ _ hx hc => (C98_entry_partial H hx hc).2.1⟩

theorem entry_le {A : KmArith} {h o dim k : Nat} (H : A.OK h o dim k) {x c c' : List F32} (hx : Sized dim k x) (hc : Sized dim k c) (hc' : Sized dim k c')
    (hle : ((kmF32 A).entry x c).le ((kmF32 A).entry x c') = true) : sqDistVal x c ≤ sqDistVal x c' + 2 * kmErr h dim k := by
  obtain ⟨f1, -, h1⟩ := C98_entry_partial H hx hc
  obtain ⟨f2, -, h2⟩ := C98_entry_partial H hx hc'
  rw [le_iff_value f1 f2] at hle
  have := (abs_le.1 h1).1
  have := (abs_le.1 h2).2
  linarith

theorem firstMin_nearly {A : KmArith} {h o dim k : Nat} (H : A.OK h o dim k) {x : List F32} {cs : List (List F32)} (hx : Sized dim k x)
    (hcs : ∀ c ∈ cs, Sized dim k c) {c : Nat} (hc : Spec.FirstMin (cs.map ((kmF32 A).entry x)) c) :
    Nearly (2 * kmErr h dim k) cs.length (fun c => sqDistVal x (cs.getD c [])) c := by
  obtain ⟨v, hv, hle, -⟩ := hc
  rw [List.getElem?_map] at hv
  cases e : cs[c]? with
  | none => rw [e] at hv; cases hv
  | some u =>
    rw [e, Option.map_some] at hv
    cases hv
    obtain ⟨hcl, -⟩ := List.getElem?_eq_some_iff.1 e
    refine ⟨hcl, fun j hj => ?_⟩
    have e1 : cs.getD c [] = u := by rw [List.getD_eq_getElem?_getD, e, Option.getD_some]
    have e2 : cs.getD j [] = cs[j] := by rw [List.getD_eq_getElem?_getD, List.getElem?_eq_getElem hj, Option.getD_some]
    dsimp only
    rw [e1, e2]
    exact entry_le H hx (hcs u (List.mem_of_getElem? e)) (hcs cs[j] (List.getElem_mem _)) (hle _ (List.mem_map_of_mem (f := (kmF32 A).entry x) (List.getElem_mem hj)))

theorem exactMean_perm {p q : List (List F32)} (h : p.Perm q) (j : Nat) : exactMean p j = exactMean q j := by
  unfold exactMean
  rw [(h.map _).sum_eq, h.length_eq]

/-- A step of Lloyd's algorithm, in exact arithmetic up to errors. -/
theorem lloyd_approx {A : KmArith} {h o dim k : Nat} (H : A.OK h o dim k) {ch : Nat} {data old new : List (List F32)} {r : F32}
    (hd : ∀ x ∈ data, Sized dim k x) (hn : data.length ≤ 8388608) (hc : ∀ c ∈ old, Sized dim k c) (S : LloydStep (kmF32 A) ch dim data old new r) :
    ApproxStep (2 * kmErr h dim k) (2 ^ k * 2 ^ (-23 : Int)) dim data old new ∧ ∀ c ∈ new, Sized dim k c := by
  obtain ⟨near, hnear, hmean, -⟩ := S.step
  have hpts : ∀ docs : List Nat, ∀ c, docs.Perm ((List.range data.length).filter (fun d => near d == c)) →
      (∀ x ∈ docs.map (fun d => data.getD d []), Sized dim k x) ∧ docs.length ≤ 8388608 := by
    intro docs c hp
    refine ⟨fun x hx => ?_, ?_⟩
    · obtain ⟨d, hdm, rfl⟩ := List.mem_map.1 hx
      have hdl : d < data.length := List.mem_range.1 (List.mem_of_mem_filter (hp.mem_iff.1 hdm))
      rw [List.getD_eq_getElem?_getD, List.getElem?_eq_getElem hdl, Option.getD_some]
      exact hd _ (List.getElem_mem _)
    · rw [hp.length_eq]
      refine (List.length_filter_le _ _).trans ?_
      rw [List.length_range]
      exact hn
  refine ⟨⟨S.len, near, ?_, ?_⟩, ?_⟩
  · intro d hdl
    have e : data.getD d [] = data[d] := by rw [List.getD_eq_getElem?_getD, List.getElem?_eq_getElem hdl, Option.getD_some]
    rw [e]
    exact firstMin_nearly H (hd _ (List.getElem_mem _)) hc (hnear d _ (List.getElem?_eq_getElem hdl))
  · intro c hcl
    obtain ⟨docs, hp, e⟩ := hmean c hcl
    have e1 : new.getD c [] = Spec.meanRow (kmF32 A).kpp.zero (kmF32 A).kpp.add (kmF32 A).divn dim (docs.map (fun d => data.getD d [])) := by
      rw [List.getD_eq_getElem?_getD, e, Option.getD_some]
    rw [e1]
    constructor
    · intro h0
      rw [h0] at hp
      rw [hp.eq_nil]
      unfold Spec.meanRow
      simp [List.map_const']
    · intro h0 j hj
      have hne : docs.map (fun d => data.getD d []) ≠ [] := by
        intro hc0
        rw [List.map_eq_nil_iff] at hc0
        rw [hc0] at hp
        exact h0 hp.symm.eq_nil
      have := (C98_mean A (by have := H.k_le; omega) hne (by rw [List.length_map]; exact (hpts docs c hp).2) (hpts docs c hp).1).2 j hj
      rwa [exactMean_perm (hp.map _)] at this
  · intro v hv
    obtain ⟨c, hcl, rfl⟩ := List.getElem_of_mem hv
    obtain ⟨docs, hp, e⟩ := hmean c (by rw [← S.len]; exact hcl)
    rw [List.getElem?_eq_getElem hcl] at e
    rw [Option.some.inj e]
    by_cases hne : docs.map (fun d => data.getD d []) = []
    · rw [hne]
      have : Spec.meanRow (kmF32 A).kpp.zero (kmF32 A).kpp.add (kmF32 A).divn dim [] = List.replicate dim F32.zero := by
        unfold Spec.meanRow; simp [List.map_const']
      rw [this]
      exact sized_zero dim k
    · exact (C98_mean A (by have := H.k_le; omega) hne (by rw [List.length_map]; exact (hpts docs c hp).2) (hpts docs c hp).1).1

/-- Steps of Lloyd's algorithm from points to centres, up to errors. -/
def ApproxRun (e m : ℚ) (dim maxReps : Nat) (data first last : List (List F32)) : Prop :=
  ∃ (t : Nat) (cs : Nat → List (List F32)), t ≤ maxReps ∧ cs 0 = first ∧ cs t = last ∧ ∀ i, i < t → ApproxStep e m dim data (cs i) (cs (i + 1))

theorem run_approx {A : KmArith} {h o dim k : Nat} (H : A.OK h o dim k) {ch maxReps : Nat} {data first last : List (List F32)}
    (hd : ∀ x ∈ data, Sized dim k x) (hn : data.length ≤ 8388608) (hf : ∀ c ∈ first, c ∈ data) (S : LloydRun (kmF32 A) ch dim maxReps data first last) :
    ApproxRun (2 * kmErr h dim k) (2 ^ k * 2 ^ (-23 : Int)) dim maxReps data first last ∧ ∀ c ∈ last, Sized dim k c := by
  obtain ⟨t, cs, r, ht, h0, h1, -, hs, -, -⟩ := S
  have hsz : ∀ i, i ≤ t → ∀ c ∈ cs i, Sized dim k c := by
    intro i
    induction i with
    | zero => intro _ c hc; rw [h0] at hc; exact hd c (hf c hc)
    | succ i ih => intro hi; exact (lloyd_approx H hd hn (ih (by omega)) (hs i (by omega))).2
  exact ⟨⟨t, cs, ht, h0, h1, fun i hi => (lloyd_approx H hd hn (hsz i (by omega)) (hs i hi)).1⟩, h1 ▸ hsz t (Nat.le_refl _)⟩

/-! ## Files -/

/-- The values of the vectors of a file have sizes of at most 2^k. -/
def FileSized (e : Elem) (dim k : Nat) (rows : List Bytes) : Prop :=
  ∀ r ∈ rows, ∀ x ∈ Spec.valuesOf e.size dim (elemF32 e) r, Spec.Finite x ∧ |value x| ≤ 2 ^ k

/-- Files of bytes do. -/
theorem fileSized_bytes {e : Elem} (he : e.IsByte) {dim k : Nat} (hk : 8 ≤ k) (rows : List Bytes) : FileSized e dim k rows := by
  intro r _ x hx
  unfold Spec.valuesOf at hx
  obtain ⟨d, _, rfl⟩ := List.mem_map.1 hx
  have hb := byte_lt (r.getD d 0)
  have hf := elemF32_byte he r d
  refine ⟨hf.1, ?_⟩
  rw [hf.2]
  have h1 : |(byteCoord e r d : ℚ)| ≤ 2 ^ 8 := by
    have : |byteCoord e r d| ≤ 2 ^ 8 := by
      rcases he with rfl | rfl <;> unfold byteCoord <;> simp only
      · split <;> rw [abs_le] <;> omega
      · rw [abs_le]; omega
    exact_mod_cast this
  exact h1.trans (pow_le_pow_right₀ (by norm_num) hk)

theorem elem_zero (e : Elem) (m : Nat) : elemF32 e (List.replicate m 0) = F32.zero := by
  cases e <;> unfold elemF32 <;> simp only <;> rw [zero_bytes] <;> decide

theorem conv_padTo {e : Elem} {dim n : Nat} {r : Bytes} (hr : r.length = dim * e.size) (hn : dim ≤ n) :
    convF32 e (padTo (n * e.size) r) = Spec.valuesOf e.size dim (elemF32 e) r ++ List.replicate (n - dim) F32.zero := by
  have hs : 0 < e.size := by cases e <;> decide
  have hle : dim * e.size ≤ n * e.size := Nat.mul_le_mul_right _ hn
  have hl : (padTo (n * e.size) r).length / e.size = n := by rw [padTo_len (by omega)]; exact Nat.mul_div_cancel _ hs
  unfold convF32 Spec.valuesOf
  rw [hl]
  obtain ⟨m, rfl⟩ : ∃ m, n = dim + m := ⟨n - dim, by omega⟩
  rw [Nat.add_sub_cancel_left, List.range_add, List.map_append]
  congr 1
  · refine List.map_congr_left (fun d hd => ?_)
    have hd := List.mem_range.1 hd
    have h1 : (d + 1) * e.size ≤ dim * e.size := Nat.mul_le_mul_right _ hd
    rw [Nat.add_mul, Nat.one_mul] at h1
    congr 1
    unfold padTo
    rw [List.drop_append_of_le_length (by omega), List.take_append_of_le_length (by rw [List.length_drop]; omega)]
  · rw [List.eq_replicate_iff]
    refine ⟨by simp, fun x hx => ?_⟩
    rw [List.map_map] at hx
    obtain ⟨d, _, rfl⟩ := List.mem_map.1 hx
    rw [Function.comp_apply]
    unfold padTo
    have : dim * e.size ≤ (dim + d) * e.size := Nat.mul_le_mul_right _ (by omega)
    rw [List.drop_append, List.drop_eq_nil_of_le (by omega), List.nil_append, List.drop_replicate, List.take_replicate]
    exact elem_zero e _

theorem conv_take {e : Elem} (b : Bytes) (m : Nat) (h : m * e.size ≤ b.length) : convF32 e (b.take (m * e.size)) = (convF32 e b).take m := by
  have hs : 0 < e.size := by cases e <;> decide
  have hm : m ≤ b.length / e.size := (Nat.le_div_iff_mul_le hs).2 h
  unfold convF32
  rw [List.length_take, Nat.min_eq_left h, Nat.mul_div_cancel _ hs, ← List.map_take, List.take_range, Nat.min_eq_left hm]
  refine List.map_congr_left (fun d hd => ?_)
  have hd := List.mem_range.1 hd
  have h1 : (d + 1) * e.size ≤ m * e.size := Nat.mul_le_mul_right _ hd
  rw [Nat.add_mul, Nat.one_mul] at h1
  rw [List.drop_take, List.take_take, Nat.min_eq_left (by omega)]

/-- A vector of a file in memory, padded with zeros and cut off. -/
theorem conv_sized {e : Elem} {qdim adim k : Nat} {rows : List Bytes} (hm : Spec.Matrix e.size qdim rows) (H : FileSized e qdim k rows) (ha : adim ≤ roundUp8 qdim)
    {r : Bytes} (hr : r ∈ rows) : Sized adim k (convF32 e ((padTo (roundUp8 qdim * e.size) r).take (adim * e.size))) := by
  have hle : qdim ≤ roundUp8 qdim := (roundUp8_spec qdim).1
  have hrl := hm r hr
  have hpl : (padTo (roundUp8 qdim * e.size) r).length = roundUp8 qdim * e.size := padTo_len (by rw [hrl]; exact Nat.mul_le_mul_right _ hle)
  rw [conv_take _ _ (by rw [hpl]; exact Nat.mul_le_mul_right _ ha), conv_padTo hrl hle]
  refine ⟨by rw [List.length_take, List.length_append, valuesOf_length, List.length_replicate]; omega, fun y hy => ?_⟩
  rcases List.mem_append.1 (List.mem_of_mem_take hy) with h | h
  · exact H r hr y h
  · rw [List.eq_of_mem_replicate h, value_zero', abs_zero]
    exact ⟨by unfold Spec.Finite; decide, by positivity⟩

end Grann
