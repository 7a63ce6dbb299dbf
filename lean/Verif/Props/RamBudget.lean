import Verif.Model.RamBudget
import Verif.Proofs.Centers
import Verif.Proofs.Shard
import Verif.Props.Centers
import Verif.Props.Recall
/-!
# C72: choosing the number of parts for a memory budget
-/

namespace Grann

/-! ## Estimated sizes -/

/-- The distances of a test point from the centres that make its closest centres well defined. -/
def GoodDists (kb nc : Nat) (row : List F32) : Prop :=
  row.length = nc ∧ (∀ x ∈ row, x.IsNum) ∧ (kb = 1 → ∃ x ∈ row, x.lt F32.fmax = true)

theorem estPoint_ok (nc : Nat) (cl : List (Option Nat)) (base : Nat) : ∀ (l : List Nat) (p1 : Nat) (f : Nat → Nat),
    (∀ t (h : t < l.length), cl[base + p1 + t]? = some (some l[t])) → (∀ c ∈ l, c < nc) →
    estPoint cl base l.length p1 ((List.range nc).map f) = .ok ((List.range nc).map (fun c => f c + l.count c)) := by
  intro l
  induction l with
  | nil => intro p1 f _ _; simp [estPoint]
  | cons c0 l ih =>
    intro p1 f hcl hlt
    have h0 := hcl 0 (by simp)
    have hc0 := hlt c0 (by simp)
    rw [List.length_cons]
    unfold estPoint
    rw [rd_eq_ok_iff.mpr (by rw [Nat.add_zero] at h0; exact h0), Res.ok_bind]
    dsimp only [List.getElem_cons_zero]
    rw [rd_map_range _ hc0, Res.ok_bind, wr_ok (by simpa using hc0), Res.ok_bind, map_range_set,
      ih (p1 + 1) (fun i => if i = c0 then f c0 + 1 else f i) (by
        intro t ht
        have := hcl (t + 1) (by simpa using ht)
        rw [show base + p1 + (t + 1) = base + (p1 + 1) + t by omega] at this
        simpa using this) (fun c hc => hlt c (by simp [hc]))]
    congr 2
    funext c
    by_cases hc : c = c0
    · subst hc
      rw [if_pos rfl, List.count_cons_self]; omega
    · rw [if_neg hc, List.count_cons_of_ne (by omega)]

theorem estBlock_ok (nc kb : Nat) (g : List F32 → List Nat) : ∀ (blk done : List (List F32)) (cl : List (Option Nat))
    (f : Nat → Nat), (∀ r ∈ done ++ blk, (g r).length = kb) → (∀ r ∈ blk, ∀ c ∈ g r, c < nc) →
    (∀ t < (done ++ blk).length * kb, cl[t]? = (((done ++ blk).flatMap g).map some)[t]?) →
    estBlock cl kb blk.length done.length ((List.range nc).map f) =
      .ok ((List.range nc).map (fun c => f c + (blk.flatMap g).count c)) := by
  intro blk
  induction blk with
  | nil => intro done cl f _ _ _; simp [estBlock]
  | cons r blk ih =>
    intro done cl f hlen hlt hcl
    have hr := hlen r (by simp)
    have hd : (done.flatMap g).length = done.length * kb :=
      flatMap_length_const _ _ _ (fun x hx => hlen x (by simp [hx]))
    rw [List.length_cons]
    unfold estBlock
    have h1 := estPoint_ok nc cl (done.length * kb) (g r) 0 f (by
      intro t ht
      rw [hcl _ (by
        rw [List.length_append, List.length_cons, Nat.add_mul, Nat.succ_mul]
        rw [hr] at ht
        omega), List.getElem?_map, List.flatMap_append, List.getElem?_append_right (by omega), List.flatMap_cons,
        List.getElem?_append_left (by omega), hd, Nat.add_zero, Nat.add_sub_cancel_left, List.getElem?_eq_getElem ht]
      rfl) (hlt r (by simp))
    rw [hr] at h1
    rw [h1, Res.ok_bind]
    have h2 := ih (done ++ [r]) cl (fun c => f c + (g r).count c) (by
      intro x hx; apply hlen; simpa using hx) (fun x hx => hlt x (by simp [hx])) (by
      intro t ht
      rw [List.append_assoc, List.singleton_append] at ht ⊢
      exact hcl t ht)
    rw [List.length_append, List.length_singleton] at h2
    rw [h2]
    congr 2
    funext c
    rw [List.flatMap_cons, List.count_append]; omega

theorem closestInto_ok {P : EstPar} (hpops : IsPopOrder P.pops) (hcc : 1 ≤ P.ccBlk) {nc : Nat} (hk : P.kb ≤ nc)
    {rows : List (List F32)} (hn : 1 ≤ rows.length) (hgood : ∀ r ∈ rows, GoodDists P.kb nc r)
    {cl : List (Option Nat)} (hcl : rows.length * P.kb ≤ cl.length) :
    closestInto P nc rows cl =
      .ok ((rows.flatMap (pick P.kb P.pops)).map some ++ cl.drop (rows.length * P.kb)) := by
  have hp : ∀ row ∈ rows, _ := fun row hr =>
    pick_spec hpops (hgood row hr).1 hk (hgood row hr).2.1 (hgood row hr).2.2
  obtain ⟨inv', e, h1, _⟩ := closestCenters_spec (maxBlk := P.ccBlk) (nc := nc) (k := P.kb) (pops := P.pops)
    (sched := fun _ l => l) (fun _ _ => List.Perm.refl _) (rows := rows)
    (out0 := List.replicate (rows.length * P.kb) 0) (inv0 := none) hcc hn hk (fun r hr => (hp r hr).1)
    (fun r hr => (hp r hr).2.1) (by intro _ h; cases h) (by simp)
  have hfl : (rows.flatMap (pick P.kb P.pops)).length = rows.length * P.kb :=
    flatMap_length_const _ _ _ (fun r hr => (hp r hr).1)
  unfold closestInto
  rw [if_neg (by omega), e, Res.ok_bind]
  dsimp only
  rw [List.drop_of_length_le (by simp), List.append_nil, wrList_ok _ _ _ (by simp [hfl]; omega)]
  simp [hfl]

theorem estBlocks_ok {P : EstPar} (hpops : IsPopOrder P.pops) (hcc : 1 ≤ P.ccBlk) {nc : Nat} (hk : P.kb ≤ nc)
    {rows : List (List F32)} (hgood : ∀ r ∈ rows, GoodDists P.kb nc r) {bs : Nat} (hbs : 1 ≤ bs) :
    ∀ (todo b : Nat) (cl : List (Option Nat)) (f : Nat → Nat), cl.length = bs * P.kb →
      (todo = 0 → rows.length ≤ b * bs) → (0 < todo → (b + todo - 1) * bs < rows.length ∧ rows.length ≤ (b + todo) * bs) →
      estBlocks P nc bs rows todo b cl ((List.range nc).map f) =
        .ok ((List.range nc).map (fun c => f c + ((rows.drop (b * bs)).flatMap (pick P.kb P.pops)).count c)) := by
  intro todo
  induction todo with
  | zero =>
    intro b cl f _ h0 _
    rw [List.drop_of_length_le (h0 rfl)]
    simp [estBlocks]
  | succ todo ih =>
    intro b cl f hcl _ hpos
    obtain ⟨h1, h2⟩ := hpos (by omega)
    have hb : b * bs < rows.length := lt_of_le_of_lt (Nat.mul_le_mul_right _ (by omega)) h1
    have hs : (b + 1) * bs = b * bs + bs := Nat.succ_mul _ _
    obtain ⟨blk, hblk⟩ : ∃ blk, blk = (rows.drop (b * bs)).take (min ((b + 1) * bs) rows.length - b * bs) := ⟨_, rfl⟩
    have hbl : blk.length = min ((b + 1) * bs) rows.length - b * bs := by
      rw [hblk, List.length_take, List.length_drop]; omega
    have hmem : ∀ r ∈ blk, r ∈ rows := fun r hr => by
      rw [hblk] at hr; exact List.mem_of_mem_drop (List.mem_of_mem_take hr)
    have hlb : blk.length * P.kb ≤ cl.length := by
      rw [hcl]; exact Nat.mul_le_mul_right _ (by omega)
    unfold estBlocks
    dsimp only
    rw [← hblk, closestInto_ok hpops hcc hk (by omega) (fun r hr => hgood r (hmem r hr)) hlb, Res.ok_bind]
    have hp : ∀ row ∈ blk, _ := fun row hr =>
      pick_spec hpops (hgood row (hmem row hr)).1 hk (hgood row (hmem row hr)).2.1 (hgood row (hmem row hr)).2.2
    have hfl : (blk.flatMap (pick P.kb P.pops)).length = blk.length * P.kb :=
      flatMap_length_const _ _ _ (fun r hr => (hp r hr).1)
    have hB := estBlock_ok nc P.kb (pick P.kb P.pops) blk []
      ((blk.flatMap (pick P.kb P.pops)).map some ++ cl.drop (blk.length * P.kb)) f
      (fun r hr => (hp r (by simpa using hr)).1) (fun r hr => (hp r hr).2.1) (by
        intro t ht
        rw [List.nil_append] at ht ⊢
        rw [List.getElem?_append_left (by rw [List.length_map, hfl]; exact ht)])
    rw [List.length_nil] at hB
    rw [← hbl, hB, Res.ok_bind, ih (b + 1) _ _ (by
      rw [List.length_append, List.length_map, hfl, List.length_drop]; omega) (by
        intro h; subst h; exact h2) (by
        intro h
        rw [show b + 1 + todo = b + (todo + 1) from by omega]
        exact ⟨h1, h2⟩)]
    congr 2
    funext c
    have hsplit : rows.drop (b * bs) = blk ++ rows.drop ((b + 1) * bs) := by
      by_cases hc : (b + 1) * bs ≤ rows.length
      · rw [hblk, Nat.min_eq_left hc, hs, Nat.add_sub_cancel_left, ← List.drop_drop, List.take_append_drop]
      · rw [hblk, Nat.min_eq_right (by omega), List.take_of_length_le (by rw [List.length_drop]),
          List.drop_of_length_le (l := rows) (i := (b + 1) * bs) (by omega), List.append_nil]
    rw [hsplit, List.flatMap_append, List.count_append]; omega

theorem estimateSizes_pick {P : EstPar} (hpops : IsPopOrder P.pops) (hblk : 1 ≤ P.blk) (hcc : 1 ≤ P.ccBlk) {nc : Nat}
    (hk : P.kb ≤ nc) {rows : List (List F32)} (hn : 1 ≤ rows.length) (hgood : ∀ r ∈ rows, GoodDists P.kb nc r) :
    estimateSizes P nc rows =
      .ok ((List.range nc).map (fun c => u32 ((rows.flatMap (pick P.kb P.pops)).count c))) := by
  obtain ⟨bs, hbs⟩ : ∃ bs, bs = (if rows.length ≤ P.blk then rows.length else P.blk) := ⟨_, rfl⟩
  have hbs1 : 1 ≤ bs := by rw [hbs]; split <;> omega
  obtain ⟨h1, h2⟩ := numBlocks rows.length bs hn hbs1
  have h3 : 0 < rows.length / bs + if rows.length % bs ≠ 0 then 1 else 0 := by
    rcases Nat.eq_zero_or_pos (rows.length / bs + if rows.length % bs ≠ 0 then 1 else 0) with h | h
    · rw [h] at h1; omega
    · exact h
  unfold estimateSizes
  dsimp only
  rw [← hbs, if_neg (by omega)]
  have hz : List.replicate nc 0 = (List.range nc).map (fun _ => 0) := by simp
  rw [hz, estBlocks_ok hpops hcc hk hgood hbs1 _ 0 _ _ (by simp) (by omega) (by
    intro _; rw [Nat.zero_add]; exact ⟨h2, h1⟩), Res.ok_bind, List.map_map]
  simp [Function.comp_def]

/-- **C72, sizes.** The estimated sizes are the numbers of test points (modulo 2^32) that have the part's centre among
their `k_base` nearest. -/
theorem C72_sizes {P : EstPar} (hpops : IsPopOrder P.pops) (hblk : 1 ≤ P.blk) (hcc : 1 ≤ P.ccBlk) {nc : Nat}
    (hk : P.kb ≤ nc) {rows : List (List F32)} (hn : 1 ≤ rows.length) (hgood : ∀ r ∈ rows, GoodDists P.kb nc r) :
    ∃ near : List F32 → List Nat,
      (∀ r ∈ rows, (near r).Nodup ∧ (near r).length = P.kb ∧ (∀ c ∈ near r, c < nc) ∧
        Spec.KNearest P.kb (Finset.range nc) (fun c => r.getD c F32.nan)
          ((near r).map (fun c => (c, r.getD c F32.nan)))) ∧
      estimateSizes P nc rows =
        .ok ((List.range nc).map (fun c => (rows.filter (fun r => (near r).contains c)).length % 4294967296)) := by
  have hp : ∀ row ∈ rows, _ := fun row hr =>
    pick_spec hpops (hgood row hr).1 hk (hgood row hr).2.1 (hgood row hr).2.2
  refine ⟨pick P.kb P.pops, fun r hr => ⟨(hp r hr).2.2.1, (hp r hr).1, (hp r hr).2.1, (hp r hr).2.2.2⟩, ?_⟩
  rw [estimateSizes_pick hpops hblk hcc hk hn hgood]
  congr 2
  funext c
  unfold u32
  congr 1
  have hnd : ∀ r ∈ rows, (pick P.kb P.pops r).Nodup := fun r hr => (hp r hr).2.2.1
  clear hp hgood hn
  induction rows with
  | nil => rfl
  | cons r rows ih =>
    rw [List.flatMap_cons, List.count_append, ih (fun x hx => hnd x (by simp [hx])), (hnd r (by simp)).count]
    by_cases hc : c ∈ pick P.kb P.pops r
    · rw [List.filter_cons_of_pos (by simpa using hc), if_pos hc, List.length_cons]; omega
    · rw [List.filter_cons_of_neg (by simpa using hc), if_neg hc, Nat.zero_add]

/-- The estimated sizes add up to `k_base` times the number of test points. -/
theorem sum_count (l : List Nat) (nc : Nat) (h : ∀ c ∈ l, c < nc) : ((List.range nc).map (fun c => l.count c)).sum = l.length := by
  induction l with
  | nil => simp
  | cons a l ih =>
    have ih := ih (fun c hc => h c (by simp [hc]))
    have ha := h a (by simp)
    have : (fun c => (a :: l).count c) = (fun c => l.count c + if c = a then 1 else 0) := by
      funext c
      by_cases hc : c = a
      · subst hc; rw [List.count_cons_self, if_pos rfl]
      · rw [List.count_cons_of_ne (by omega), if_neg hc, Nat.add_zero]
    rw [this, List.length_cons, ← ih]
    clear ih this h
    have key : ∀ m, ((List.range m).map (fun c => l.count c + if c = a then 1 else 0)).sum =
        ((List.range m).map (fun c => l.count c)).sum + if a < m then 1 else 0 := by
      intro m
      induction m with
      | zero => simp
      | succ m ihm =>
        rw [List.range_succ, List.map_append, List.map_append, List.sum_append, List.sum_append, ihm]
        simp only [List.map_cons, List.map_nil, List.sum_cons, List.sum_nil, Nat.add_zero]
        by_cases h1 : a < m
        · rw [if_pos h1, if_neg (by omega), if_pos (by omega)]; omega
        · by_cases h2 : m = a
          · rw [if_neg h1, if_pos h2, if_pos (by omega)]; omega
          · rw [if_neg h1, if_neg h2, if_neg (by omega)]; omega
    rw [key, if_pos ha]

theorem C72_total {P : EstPar} (hpops : IsPopOrder P.pops) (hblk : 1 ≤ P.blk) (hcc : 1 ≤ P.ccBlk) {nc : Nat}
    (hk : P.kb ≤ nc) {rows : List (List F32)} (hn : 1 ≤ rows.length) (hgood : ∀ r ∈ rows, GoodDists P.kb nc r)
    (hsmall : rows.length * P.kb < 4294967296) :
    ∃ s, estimateSizes P nc rows = .ok s ∧ s.length = nc ∧ s.sum = rows.length * P.kb := by
  have hp : ∀ row ∈ rows, _ := fun row hr =>
    pick_spec hpops (hgood row hr).1 hk (hgood row hr).2.1 (hgood row hr).2.2
  have hfl : (rows.flatMap (pick P.kb P.pops)).length = rows.length * P.kb :=
    flatMap_length_const _ _ _ (fun r hr => (hp r hr).1)
  refine ⟨_, estimateSizes_pick hpops hblk hcc hk hn hgood, by simp, ?_⟩
  rw [← hfl, ← sum_count _ nc (by
    intro c hc
    obtain ⟨r, hr, hc⟩ := List.mem_flatMap.1 hc
    exact (hp r hr).2.1 c hc)]
  congr 2
  funext c
  unfold u32
  apply Nat.mod_eq_of_lt
  have := List.count_le_length (a := c) (l := rows.flatMap (pick P.kb P.pops))
  omega

/-- With more closest centres than centres, indeterminate values are used as indices. -/
theorem estimateSizes_uninit {P : EstPar} {nc : Nat} (hk : nc < P.kb) (hblk : 1 ≤ P.blk) {rows : List (List F32)}
    (hn : 1 ≤ rows.length) : estimateSizes P nc rows = .error .ub := by
  obtain ⟨bs, hbs⟩ : ∃ bs, bs = (if rows.length ≤ P.blk then rows.length else P.blk) := ⟨_, rfl⟩
  have hbs1 : 1 ≤ bs := by rw [hbs]; split <;> omega
  obtain ⟨h1, h2⟩ := numBlocks rows.length bs hn hbs1
  obtain ⟨nb, hnb⟩ : ∃ nb, (rows.length / bs + if rows.length % bs ≠ 0 then 1 else 0) = nb + 1 := by
    rcases Nat.eq_zero_or_pos (rows.length / bs + if rows.length % bs ≠ 0 then 1 else 0) with h | h
    · rw [h] at h1; omega
    · exact ⟨_, (Nat.succ_pred_eq_of_pos h).symm⟩
  obtain ⟨cur, hcur⟩ : ∃ cur, min ((0 + 1) * bs) rows.length - 0 * bs = cur + 1 :=
    ⟨min bs rows.length - 1, by simp; omega⟩
  obtain ⟨kb, hkb⟩ : ∃ kb, P.kb = kb + 1 := ⟨P.kb - 1, by omega⟩
  unfold estimateSizes
  dsimp only
  rw [← hbs, if_neg (by omega), hnb]
  unfold estBlocks
  dsimp only
  unfold closestInto
  rw [if_pos hk, Res.ok_bind, hcur]
  unfold estBlock
  rw [hkb]
  unfold estPoint
  rw [rd_ok (by
    rw [List.length_replicate]
    have := Nat.mul_le_mul hbs1 (Nat.le_add_left 1 kb)
    omega), Res.ok_bind]
  simp only [List.getElem_replicate]
  rfl

/-! ## Memory estimates -/

/-- `a` differs from `x` by at most `k` roundings to 53 digits. -/
def Rounded (k : Nat) (a x : ℚ) : Prop := x * (1 - (1 / 2) ^ 53) ^ k ≤ a ∧ a ≤ x * (1 + (1 / 2) ^ 53) ^ k

theorem Rounded.weaken {j k : Nat} (h : j ≤ k) {a x : ℚ} (hx : 0 ≤ x) (ha : Rounded j a x) : Rounded k a x := by
  constructor
  · refine le_trans (mul_le_mul_of_nonneg_left ?_ hx) ha.1
    exact pow_le_pow_of_le_one (by norm_num) (by norm_num) h
  · refine le_trans ha.2 (mul_le_mul_of_nonneg_left ?_ hx)
    exact pow_le_pow_right₀ (by norm_num) h

theorem Rounded.round {k : Nat} {x : Nat × Nat} {y : ℚ} (hd : 0 < x.2) (h : Rounded k (fval x) y) :
    Rounded (k + 1) (fval (roundBin 53 x)) y := by
  have he := abs_le.1 (roundBin_err 53 (by decide) x hd)
  have hx := fval_nonneg x
  constructor
  · rw [pow_succ, ← mul_assoc]
    refine le_trans (mul_le_mul_of_nonneg_right h.1 (by norm_num)) ?_
    linarith [he.1]
  · rw [pow_succ, ← mul_assoc]
    refine le_trans ?_ (mul_le_mul_of_nonneg_right h.2 (by norm_num))
    linarith [he.2]

theorem Rounded.mul {i j : Nat} {a b x y : ℚ} (hx : 0 ≤ x) (hy : 0 ≤ y) (ha : Rounded i a x) (hb : Rounded j b y) :
    Rounded (i + j) (a * b) (x * y) := by
  have l1 : (0 : ℚ) ≤ x * (1 - (1 / 2) ^ 53) ^ i := mul_nonneg hx (pow_nonneg (by norm_num) _)
  have l2 : (0 : ℚ) ≤ y * (1 - (1 / 2) ^ 53) ^ j := mul_nonneg hy (pow_nonneg (by norm_num) _)
  constructor
  · rw [pow_add, show x * y * ((1 - (1 / 2) ^ 53) ^ i * (1 - (1 / 2) ^ 53) ^ j) =
      (x * (1 - (1 / 2) ^ 53) ^ i) * (y * (1 - (1 / 2) ^ 53) ^ j) by ring]
    exact mul_le_mul ha.1 hb.1 l2 (le_trans l1 ha.1)
  · rw [pow_add, show x * y * ((1 + (1 / 2) ^ 53) ^ i * (1 + (1 / 2) ^ 53) ^ j) =
      (x * (1 + (1 / 2) ^ 53) ^ i) * (y * (1 + (1 / 2) ^ 53) ^ j) by ring]
    exact mul_le_mul ha.2 hb.2 (le_trans l2 hb.1) (mul_nonneg hx (pow_nonneg (by norm_num) _))

theorem Rounded.add {k : Nat} {a b x y : ℚ} (ha : Rounded k a x) (hb : Rounded k b y) : Rounded k (a + b) (x + y) := by
  constructor
  · rw [add_mul]; exact add_le_add ha.1 hb.1
  · rw [add_mul]; exact add_le_add ha.2 hb.2

theorem Rounded.refl (x : ℚ) : Rounded 0 x x := by constructor <;> simp

theorem dmul_pos (a b : Nat × Nat) : 0 < (dmul a b).2 := roundBin_den_pos _ _
theorem dadd_pos (a b : Nat × Nat) : 0 < (dadd a b).2 := roundBin_den_pos _ _
theorem dconv_pos (n : Nat) : 0 < (dconv n).2 := roundBin_den_pos _ _

theorem Rounded.dmul {i j : Nat} {a b : Nat × Nat} {x y : ℚ} (h1 : 0 < a.2) (h2 : 0 < b.2) (hx : 0 ≤ x) (hy : 0 ≤ y)
    (ha : Rounded i (fval a) x) (hb : Rounded j (fval b) y) : Rounded (i + j + 1) (fval (Grann.dmul a b)) (x * y) := by
  refine Rounded.round (x := (a.1 * b.1, a.2 * b.2)) (Nat.mul_pos h1 h2) ?_
  rw [fval_mul]
  exact Rounded.mul hx hy ha hb

theorem Rounded.dadd {k : Nat} {a b : Nat × Nat} {x y : ℚ} (h1 : 0 < a.2) (h2 : 0 < b.2)
    (ha : Rounded k (fval a) x) (hb : Rounded k (fval b) y) : Rounded (k + 1) (fval (Grann.dadd a b)) (x + y) := by
  refine Rounded.round (x := (a.1 * b.2 + b.1 * a.2, a.2 * b.2)) (Nat.mul_pos h1 h2) ?_
  have : fval (a.1 * b.2 + b.1 * a.2, a.2 * b.2) = fval a + fval b := by
    have h1' : (a.2 : ℚ) ≠ 0 := by positivity
    have h2' : (b.2 : ℚ) ≠ 0 := by positivity
    unfold fval
    push_cast
    field_simp
  rw [this]
  exact Rounded.add ha hb

theorem Rounded.dconv (n : Nat) : Rounded 1 (fval (Grann.dconv n)) n := by
  have := Rounded.round (x := (n, 1)) Nat.one_pos (Rounded.refl (fval (n, 1)))
  have e : fval (n, 1) = n := by simp [fval]
  rw [e] at this
  exact this

/-- The memory of a graph index with `size` points, in exact arithmetic: 1.3 times the bytes of the vectors plus 1.3 times
the full degree. -/
def Spec.ramNeed (size dim es deg : Nat) : ℚ :=
  13 / 10 * (size * dim * es + size * deg * 4 * (13 / 10))

/-- **C72, estimate.** The estimate differs from the formula by at most nine roundings. -/
theorem C72_estimate (size dim es deg : Nat) :
    Rounded 9 (fval (ramEstimate size dim es deg)) (Spec.ramNeed size dim es deg) := by
  have c13 : Rounded 1 (fval (roundBin 53 (13, 10))) (13 / 10) := by
    have := Rounded.round (x := (13, 10)) (by decide) (Rounded.refl (fval (13, 10)))
    have e : fval (13, 10) = 13 / 10 := by norm_num [fval]
    rw [e] at this; exact this
  have c130 : Rounded 1 (fval (roundBin 53 (130, 100))) (13 / 10) := by
    have := Rounded.round (x := (130, 100)) (by decide) (Rounded.refl (fval (130, 100)))
    have e : fval (130, 100) = 13 / 10 := by norm_num [fval]
    rw [e] at this; exact this
  have c4 : Rounded 0 (fval (4, 1)) 4 := by
    have e : fval (4, 1) = 4 := by norm_num [fval]
    rw [e]; exact Rounded.refl _
  have hs := Rounded.dconv size
  have a1 := Rounded.dmul (dconv_pos _) (dconv_pos _) (by positivity) (by positivity) hs (Rounded.dconv dim)
  have a2 := Rounded.dmul (dmul_pos _ _) (dconv_pos _) (by positivity) (by positivity) a1 (Rounded.dconv es)
  have b1 := Rounded.dmul (dconv_pos _) (dconv_pos _) (by positivity) (by positivity) hs (Rounded.dconv deg)
  have b2 := Rounded.dmul (dmul_pos _ _) (by decide) (by positivity) (by positivity) b1 c4
  have b3 := Rounded.dmul (dmul_pos _ _) (roundBin_den_pos _ _) (by positivity) (by positivity) b2 c13
  have s := Rounded.dadd (dmul_pos _ _) (dmul_pos _ _) (Rounded.weaken (k := 6) (by decide) (by positivity) a2)
    (Rounded.weaken (k := 6) (by decide) (by positivity) b3)
  exact Rounded.dmul (roundBin_den_pos _ _) (dadd_pos _ _) (by positivity) (by positivity) c130 s

theorem ramEstimate_pos (size dim es deg : Nat) : 0 < (ramEstimate size dim es deg).2 := dmul_pos _ _

/-! ## The loop -/

theorem dlt_iff {a b : Nat × Nat} (ha : 0 < a.2) (hb : 0 < b.2) : dlt a b = true ↔ fval a < fval b := by
  unfold dlt fval
  rw [decide_eq_true_eq, div_lt_div_iff₀ (by exact_mod_cast ha) (by exact_mod_cast hb)]
  norm_cast

theorem maxRam_spec {rate : Nat × Nat} {dim es deg : Nat} : ∀ (sizes : List Nat) (m0 m : Nat × Nat), 0 < m0.2 →
    sizes.foldlM (fun m p => do
      let p ← scaleUp rate p
      let e := ramEstimate p dim es deg
      .ok (if dlt m e then e else m)) m0 = .ok m →
    0 < m.2 ∧ fval m0 ≤ fval m ∧
      (∀ x ∈ sizes, ∃ p, scaleUp rate x = .ok p ∧ fval (ramEstimate p dim es deg) ≤ fval m) ∧
      (m = m0 ∨ ∃ x ∈ sizes, ∃ p, scaleUp rate x = .ok p ∧ m = ramEstimate p dim es deg) := by
  intro sizes
  induction sizes with
  | nil =>
    intro m0 m h0 h
    rw [List.foldlM_nil, Res.pure_eq] at h
    injection h with h
    subst h
    exact ⟨h0, le_refl _, by simp, Or.inl rfl⟩
  | cons x xs ih =>
    intro m0 m h0 h
    rw [List.foldlM_cons] at h
    obtain ⟨m1, h1, h2⟩ := Res.bind_eq_ok.1 h
    obtain ⟨p, hp, h3⟩ := Res.bind_eq_ok.1 h1
    dsimp only at h3
    injection h3 with h3
    have hm1 : 0 < m1.2 ∧ fval m0 ≤ fval m1 ∧ fval (ramEstimate p dim es deg) ≤ fval m1 ∧
        (m1 = m0 ∨ m1 = ramEstimate p dim es deg) := by
      by_cases hd : dlt m0 (ramEstimate p dim es deg) = true
      · rw [if_pos hd] at h3
        subst h3
        exact ⟨ramEstimate_pos _ _ _ _, le_of_lt ((dlt_iff h0 (ramEstimate_pos _ _ _ _)).1 hd), le_refl _, Or.inr rfl⟩
      · rw [if_neg hd] at h3
        subst h3
        exact ⟨h0, le_refl _, not_lt.1 (fun hh => hd ((dlt_iff h0 (ramEstimate_pos _ _ _ _)).2 hh)), Or.inl rfl⟩
    obtain ⟨r1, r2, r3, r4⟩ := ih m1 m hm1.1 h2
    refine ⟨r1, le_trans hm1.2.1 r2, ?_, ?_⟩
    · intro y hy
      rcases List.mem_cons.1 hy with rfl | hy
      · exact ⟨p, hp, le_trans hm1.2.2.1 r2⟩
      · exact r3 y hy
    · rcases r4 with rfl | ⟨y, hy, q, hq, hm⟩
      · rcases hm1.2.2.2 with h | h
        · exact Or.inl h
        · exact Or.inr ⟨x, by simp, p, hp, h⟩
      · exact Or.inr ⟨y, by simp [hy], q, hq, hm⟩

/-- Every part needs at most the budget (in units of 2^30 bytes), by the estimate for the size scaled to the whole data. -/
def Spec.Fits (sizes : Nat → Res (List Nat)) (rate : Nat × Nat) (dim es deg : Nat) (budget : Nat × Nat) (parts : Nat) :
    Prop :=
  ∃ s, sizes parts = .ok s ∧ ∀ x ∈ s, ∃ p, scaleUp rate x = .ok p ∧
    fval (ramEstimate p dim es deg) ≤ 1073741824 * fval budget

/-- Some part needs more than the budget. -/
def Spec.Exceeds (sizes : Nat → Res (List Nat)) (rate : Nat × Nat) (dim es deg : Nat) (budget : Nat × Nat) (parts : Nat) :
    Prop :=
  ∃ s, sizes parts = .ok s ∧ ∃ x ∈ s, ∃ p, scaleUp rate x = .ok p ∧
    1073741824 * fval budget < fval (ramEstimate p dim es deg)

theorem ramLoop_spec {sizes : Nat → Res (List Nat)} {rate : Nat × Nat} {dim es deg : Nat} {budget : Nat × Nat}
    (hb : 0 < budget.2) : ∀ (fuel parts r : Nat), ramLoop sizes rate dim es deg (fun m => dlt (1073741824 * budget.1, budget.2) m) fuel parts = .ok r →
    ∃ j, r = parts + 2 * j ∧ Spec.Fits sizes rate dim es deg budget r ∧
      ∀ i < j, Spec.Exceeds sizes rate dim es deg budget (parts + 2 * i) := by
  have hbv : fval (1073741824 * budget.1, budget.2) = 1073741824 * fval budget := by
    unfold fval; push_cast; ring
  intro fuel
  induction fuel with
  | zero => intro parts r h; exact absurd h (by simp [ramLoop])
  | succ fuel ih =>
    intro parts r h
    unfold ramLoop at h
    obtain ⟨s, hs, h⟩ := Res.bind_eq_ok.1 h
    obtain ⟨m, hm, h⟩ := Res.bind_eq_ok.1 h
    obtain ⟨m1, m2, m3, m4⟩ := maxRam_spec s (0, 1) m (by decide) hm
    by_cases hd : dlt (1073741824 * budget.1, budget.2) m = true
    · rw [if_pos hd] at h
      have hlt := (dlt_iff (a := (1073741824 * budget.1, budget.2)) hb m1).1 hd
      rw [hbv] at hlt
      split at h
      · cases h
      · obtain ⟨j, rfl, hf, he⟩ := ih _ _ h
        refine ⟨j + 1, by omega, hf, fun i hi => ?_⟩
        cases i with
        | zero =>
          refine ⟨s, hs, ?_⟩
          rcases m4 with rfl | ⟨x, hx, p, hp, rfl⟩
          · exfalso
            have : fval (0, 1) = 0 := by simp [fval]
            rw [this] at hlt
            have := fval_nonneg budget
            linarith
          · exact ⟨x, hx, p, hp, hlt⟩
        | succ i =>
          have := he i (by omega)
          rw [show parts + 2 * (i + 1) = parts + 2 + 2 * i from by omega]
          exact this
    · rw [if_neg hd] at h
      injection h with h
      subst h
      refine ⟨0, by omega, ⟨s, hs, fun x hx => ?_⟩, fun i hi => absurd hi (by omega)⟩
      obtain ⟨p, hp, hle⟩ := m3 x hx
      refine ⟨p, hp, le_trans hle ?_⟩
      rw [← hbv]
      exact not_lt.1 (fun hh => hd ((dlt_iff (a := (1073741824 * budget.1, budget.2)) hb m1).2 hh))

/-- The sizes the loop works with. -/
abbrev partSizes (P : EstPar) (rowsOf : Nat → Res (List (List F32))) (parts : Nat) : Res (List Nat) := do
  let rows ← rowsOf parts
  estimateSizes P parts rows

/-- **C72, what is returned.** If the loop ends, the number of parts is the smallest of 3, 5, 7, ... for which every part
fits the budget.  Missing: the loop need not end; see `C72_duplicates` and `C72_tiny_budget`. -/
theorem C72_fits_partial (P : EstPar) (rowsOf : Nat → Res (List (List F32))) (rate : Nat × Nat) (dim es deg : Nat)
    (budget : Nat × Nat) (hb : 0 < budget.2) (fuel r : Nat) (h : partitionRam P rowsOf rate dim es deg budget fuel = .ok r) :
    ∃ j, r = 3 + 2 * j ∧ Spec.Fits (partSizes P rowsOf) rate dim es deg budget r ∧
      ∀ i < j, Spec.Exceeds (partSizes P rowsOf) rate dim es deg budget (3 + 2 * i) :=
  ramLoop_spec hb fuel 3 r h

theorem ramLoop_never {sizes : Nat → Res (List Nat)} {rate : Nat × Nat} {dim es deg : Nat} {budget : Nat × Nat}
    (hb : 0 < budget.2)
    (hbad : ∀ q s, 3 ≤ q → sizes q = .ok s → ∃ x ∈ s, ∀ p, scaleUp rate x = .ok p →
      1073741824 * fval budget < fval (ramEstimate p dim es deg)) (fuel r : Nat) :
    ramLoop sizes rate dim es deg (fun m => dlt (1073741824 * budget.1, budget.2) m) fuel 3 ≠ .ok r := by
  intro h
  obtain ⟨j, hj, ⟨s, hs, hf⟩, -⟩ := ramLoop_spec hb fuel 3 r h
  obtain ⟨x, hx, hlt⟩ := hbad r s (by omega) hs
  obtain ⟨p, hp, hle⟩ := hf x hx
  have := hlt p hp
  linarith

theorem count_same {α : Type} (g : α → List Nat) (r : α) (c : Nat) : ∀ (rows : List α), (∀ x ∈ rows, x = r) →
    (rows.flatMap g).count c = rows.length * (g r).count c := by
  intro rows
  induction rows with
  | nil => intro _; simp
  | cons x rows ih =>
    intro h
    rw [List.flatMap_cons, List.count_append, ih (fun y hy => h y (by simp [hy])), h x (by simp), List.length_cons,
      Nat.succ_mul]
    omega

/-- **C72 fails: equal points.** If all test points are equal and together need more memory than the budget, the loop never
ends with a result, whatever k-means does: more parts do not separate equal points. -/
theorem C72_duplicates (P : EstPar) (hpops : IsPopOrder P.pops) (hblk : 1 ≤ P.blk) (hcc : 1 ≤ P.ccBlk) (hkb : 1 ≤ P.kb)
    (rowsOf : Nat → Res (List (List F32))) (n : Nat) (hn : 1 ≤ n) (hn' : n < 4294967296)
    (hrows : ∀ q rows, rowsOf q = .ok rows → rows.length = n ∧ (∀ r ∈ rows, GoodDists P.kb q r) ∧
      ∃ r0, ∀ r ∈ rows, r = r0)
    (rate : Nat × Nat) (dim es deg : Nat) (budget : Nat × Nat) (hb : 0 < budget.2)
    (hover : ∀ p, scaleUp rate n = .ok p → 1073741824 * fval budget < fval (ramEstimate p dim es deg)) (fuel r : Nat) :
    partitionRam P rowsOf rate dim es deg budget fuel ≠ .ok r := by
  refine ramLoop_never hb ?_ fuel r
  intro q s hq hs
  obtain ⟨rows, hr, hs⟩ := Res.bind_eq_ok.1 hs
  obtain ⟨hl, hgood, r0, hsame⟩ := hrows q rows hr
  by_cases hk : q < P.kb
  · rw [estimateSizes_uninit hk hblk (by omega)] at hs; cases hs
  · rw [estimateSizes_pick hpops hblk hcc (by omega) (by omega) hgood] at hs
    injection hs with hs
    have hr0 : r0 ∈ rows := by
      obtain ⟨x, hx⟩ := List.exists_mem_of_length_pos (l := rows) (by omega)
      rw [← hsame x hx]; exact hx
    obtain ⟨p1, p2, p3, -⟩ := pick_spec hpops (hgood r0 hr0).1 (by omega : P.kb ≤ q) (hgood r0 hr0).2.1 (hgood r0 hr0).2.2
    obtain ⟨c, hc⟩ := List.exists_mem_of_length_pos (l := pick P.kb P.pops r0) (by omega)
    refine ⟨n, ?_, hover⟩
    rw [← hs, List.mem_map]
    refine ⟨c, List.mem_range.2 (p2 c hc), ?_⟩
    rw [count_same _ r0 c rows hsame, p3.count, if_pos hc, hl, Nat.mul_one]
    exact Nat.mod_eq_of_lt hn'

/-- Scaling a positive count by a rate of at most 1 does not make it 0. -/
theorem scaleUp_pos {rate : Nat × Nat} (hr : 0 < rate.2) (hr1 : rate.1 ≤ rate.2) {x p : Nat} (hx : 1 ≤ x)
    (hx' : x < 4294967296) (h : scaleUp rate x = .ok p) : 1 ≤ p := by
  unfold scaleUp at h
  split at h
  · cases h
  rename_i h0
  have hd : (1 : ℚ) ≤ fval (dconv x) := by
    have := roundBin_ge 53 (x, 1) Nat.one_pos 1 (by
      have : fval (x, 1) = x := by simp [fval]
      rw [this]
      calc (x : ℚ) < 4294967296 := by exact_mod_cast hx'
        _ < 2 ^ 53 := by norm_num) (by
      have : fval (x, 1) = x := by simp [fval]
      rw [this]; exact_mod_cast hx)
    exact_mod_cast this
  have hq : (1 : ℚ) ≤ fval (ddiv (dconv x) rate) := by
    have e : fval ((dconv x).1 * rate.2, (dconv x).2 * rate.1) = fval (dconv x) * (rate.2 / rate.1) := by
      unfold fval; push_cast
      rw [mul_div_mul_comm]
    have hge : (1 : ℚ) ≤ fval ((dconv x).1 * rate.2, (dconv x).2 * rate.1) := by
      rw [e]
      have : (1 : ℚ) ≤ (rate.2 : ℚ) / rate.1 := by
        rw [le_div_iff₀ (by exact_mod_cast Nat.pos_of_ne_zero h0), one_mul]; exact_mod_cast hr1
      nlinarith
    have hpos : 0 < ((dconv x).1 * rate.2, (dconv x).2 * rate.1).2 :=
      Nat.mul_pos (dconv_pos x) (Nat.pos_of_ne_zero h0)
    unfold ddiv
    by_cases hb : fval ((dconv x).1 * rate.2, (dconv x).2 * rate.1) < 2 ^ 53
    · have := roundBin_ge 53 _ hpos 1 hb (by exact_mod_cast hge)
      exact_mod_cast this
    · have := (abs_le.1 (roundBin_err 53 (by decide) _ hpos)).1
      have hb := not_lt.1 hb
      have h2 : (2 : ℚ) ^ 53 * (1 - (1 / 2) ^ 53) ≥ 1 := by norm_num
      nlinarith
  dsimp only at h
  split at h
  · injection h with h
    have hden : 0 < (ddiv (dconv x) rate).2 := roundBin_den_pos _ _
    rw [← h, Nat.le_div_iff_mul_le hden, Nat.one_mul]
    unfold fval at hq
    rw [le_div_iff₀ (by exact_mod_cast hden), one_mul] at hq
    exact_mod_cast hq
  · cases h

/-- **C72 fails: tiny budgets.** If the budget is below the memory for a single point, the loop never ends with a result,
whatever the data. -/
theorem C72_tiny_budget (P : EstPar) (hpops : IsPopOrder P.pops) (hblk : 1 ≤ P.blk) (hcc : 1 ≤ P.ccBlk) (hkb : 1 ≤ P.kb)
    (rowsOf : Nat → Res (List (List F32)))
    (hrows : ∀ q rows, rowsOf q = .ok rows → 1 ≤ rows.length ∧ rows.length * P.kb < 4294967296 ∧
      ∀ r ∈ rows, GoodDists P.kb q r)
    (rate : Nat × Nat) (hr : 0 < rate.2) (hr1 : rate.1 ≤ rate.2) (dim es deg : Nat) (budget : Nat × Nat)
    (hb : 0 < budget.2)
    (hover : 1073741824 * fval budget < Spec.ramNeed 1 dim es deg * (1 - (1 / 2) ^ 53) ^ 9) (fuel r : Nat) :
    partitionRam P rowsOf rate dim es deg budget fuel ≠ .ok r := by
  refine ramLoop_never hb ?_ fuel r
  intro q s hq hs
  obtain ⟨rows, hr', hs⟩ := Res.bind_eq_ok.1 hs
  obtain ⟨hl, hsmall, hgood⟩ := hrows q rows hr'
  by_cases hk : q < P.kb
  · rw [estimateSizes_uninit hk hblk (by omega)] at hs; cases hs
  · obtain ⟨s', hs', hlen, hsum⟩ := C72_total hpops hblk hcc (by omega : P.kb ≤ q) hl hgood hsmall
    rw [hs'] at hs
    injection hs with hs
    subst hs
    have hpos : 1 ≤ s'.sum := by rw [hsum]; exact Nat.mul_pos hl hkb
    have : ∃ x ∈ s', 1 ≤ x := by
      by_contra hno
      push Not at hno
      have : s'.sum = 0 := List.sum_eq_zero (fun x hx => by have := hno x hx; omega)
      omega
    obtain ⟨x, hx, hx1⟩ := this
    refine ⟨x, hx, fun p hp => ?_⟩
    have hxle : x ≤ s'.sum := List.le_sum_of_mem hx
    have hp1 := scaleUp_pos hr hr1 hx1 (by omega) hp
    refine lt_of_lt_of_le hover (le_trans (mul_le_mul_of_nonneg_right ?_ (pow_nonneg (by norm_num) _))
      (C72_estimate p dim es deg).1)
    unfold Spec.ramNeed
    have hpq : (1 : ℚ) ≤ p := by exact_mod_cast hp1
    have h1 : (0 : ℚ) ≤ dim * es := by positivity
    have h2 : (0 : ℚ) ≤ deg * 4 * (13 / 10) := by positivity
    push_cast
    nlinarith

/-- **C72 fails: counts wrap.** If 2^32 test points (or a multiple) are equal, the estimated sizes are 0 and three parts are
returned, whatever the budget. -/
theorem C72_wraps (P : EstPar) (hpops : IsPopOrder P.pops) (hblk : 1 ≤ P.blk) (hcc : 1 ≤ P.ccBlk) (hk : P.kb ≤ 3)
    (rowsOf : Nat → Res (List (List F32))) (rows : List (List F32)) (hrows : rowsOf 3 = .ok rows) (hn : 1 ≤ rows.length)
    (hmul : 4294967296 ∣ rows.length) (hgood : ∀ r ∈ rows, GoodDists P.kb 3 r) (r0 : List F32) (hsame : ∀ r ∈ rows, r = r0)
    (rate : Nat × Nat) (hr : 0 < rate.1) (dim es deg : Nat) (budget : Nat × Nat) (fuel : Nat) :
    partitionRam P rowsOf rate dim es deg budget (fuel + 1) = .ok 3 := by
  have hz : ∀ x : Nat × Nat, dmul x (0, 1) = (0, 1) := fun x => by simp [dmul, roundBin]
  have hz' : ∀ x : Nat × Nat, dmul (0, 1) x = (0, 1) := fun x => by simp [dmul, roundBin]
  have h0 : dconv 0 = (0, 1) := by simp [dconv, roundBin]
  have hs0 : scaleUp rate 0 = .ok 0 := by
    unfold scaleUp
    rw [if_neg (by omega), h0]
    simp [ddiv, roundBin]
  have he : ramEstimate 0 dim es deg = (0, 1) := by
    unfold ramEstimate
    rw [h0, hz', hz', hz', hz', hz', show dadd (0, 1) (0, 1) = (0, 1) by simp [dadd, roundBin], hz]
  unfold partitionRam ramLoop
  rw [hrows, Res.ok_bind, estimateSizes_pick hpops hblk hcc hk hn hgood, Res.ok_bind]
  have hzero : (List.range 3).map (fun c => u32 ((rows.flatMap (pick P.kb P.pops)).count c)) = [0, 0, 0] := by
    have : ∀ c, u32 ((rows.flatMap (pick P.kb P.pops)).count c) = 0 := by
      intro c
      rw [count_same _ r0 c rows hsame]
      exact Nat.mod_eq_zero_of_dvd (Dvd.dvd.mul_right hmul _)
    simp [this, List.range_succ]
  rw [hzero]
  have hm : maxRam rate dim es deg [0, 0, 0] = .ok (0, 1) := by
    unfold maxRam
    simp only [List.foldlM_cons, List.foldlM_nil, hs0, Res.ok_bind, he, ite_self, Res.pure_eq]
  rw [hm, Res.ok_bind, if_neg (by simp [dlt])]

/-- **C72, more than three.** The loop starts with three parts: with `k_base` above 3, indeterminate values are used as
indices. -/
theorem C72_uninit (P : EstPar) (hk : 3 < P.kb) (hblk : 1 ≤ P.blk) (rowsOf : Nat → Res (List (List F32)))
    (rows : List (List F32)) (hrows : rowsOf 3 = .ok rows) (hn : 1 ≤ rows.length)
    (rate : Nat × Nat) (dim es deg : Nat) (budget : Nat × Nat) (fuel : Nat) :
    partitionRam P rowsOf rate dim es deg budget (fuel + 1) = .error .ub := by
  unfold partitionRam ramLoop
  rw [hrows, Res.ok_bind, estimateSizes_uninit hk hblk hn, Res.err_bind]

/-! ## Examples -/

/-- Blocks of two points, two closest centres. -/
def exEst (kb : Nat) : EstPar := ⟨2, 3, kb, exPops⟩

/-- Distances 0, 1, ... from the centres. -/
def exRow (q : Nat) : List F32 := List.replicate q F32.one

theorem exRow_good (kb q : Nat) (hq : 1 ≤ q) : GoodDists kb q (exRow q) := by
  refine ⟨by simp [exRow], ?_, ?_⟩
  · intro x hx
    rw [exRow, List.mem_replicate] at hx
    rw [hx.2]; decide
  · intro _
    exact ⟨F32.one, by rw [exRow, List.mem_replicate]; exact ⟨by omega, rfl⟩, by decide⟩

example : estimateSizes (exEst 2) 3 [[F32.zero, F32.one, F32.inf], [F32.inf, F32.one, F32.zero],
    [F32.one, F32.inf, F32.zero]] = .ok [2, 2, 2] := by decide +kernel

example : estimateSizes (exEst 1) 3 [[F32.zero, F32.one, F32.inf], [F32.inf, F32.one, F32.zero],
    [F32.one, F32.inf, F32.zero]] = .ok [1, 0, 2] := by decide +kernel

/-- A run that needs five parts: three points that three centres do not separate. -/
example : partitionRam (exEst 1) (fun q => .ok (if q = 3 then [exRow 3, exRow 3, exRow 3] else
      [exRow 5, F32.inf :: exRow 4, F32.inf :: F32.inf :: exRow 3])) (1, 1) 100 4 32 (1, 1048576) 10 = .ok 5 := by
  decide +kernel

/-- The hypotheses of `C72_duplicates` can be met: three equal points, a budget of 2^10 bytes. -/
example (fuel r : Nat) : partitionRam (exEst 1) (fun q => if 1 ≤ q then .ok [exRow q, exRow q, exRow q] else .error .ub)
    (1, 1) 100 4 32 (1, 1048576) fuel ≠ .ok r := by
  refine C72_duplicates (exEst 1) exPops_isPopOrder (by decide) (by decide) (by decide) _ 3 (by decide) (by decide) ?_
    _ _ _ _ _ (by decide) ?_ fuel r
  · intro q rows h
    split at h
    · rename_i hq
      injection h with h
      subst h
      refine ⟨rfl, ?_, exRow q, by simp⟩
      intro r hr
      have : r = exRow q := by simpa using hr
      rw [this]; exact exRow_good _ q hq
    · cases h
  · intro p hp
    have : p = 3 := by
      have h3 : scaleUp (1, 1) 3 = .ok 3 := by decide +kernel
      rw [h3] at hp; injection hp with hp; exact hp.symm
    subst this
    have h := (C72_estimate 3 100 4 32).1
    refine lt_of_lt_of_le ?_ h
    unfold Spec.ramNeed fval
    norm_num

/-- The hypotheses of `C72_tiny_budget` can be met: a budget of zero. -/
example (fuel r : Nat) : partitionRam (exEst 2) (fun q => if 1 ≤ q then .ok [exRow q, exRow q] else .error .ub)
    (1, 2) 100 4 32 (0, 1) fuel ≠ .ok r := by
  refine C72_tiny_budget (exEst 2) exPops_isPopOrder (by decide) (by decide) (by decide) _ ?_
    _ (by decide) (by decide) _ _ _ _ (by decide) ?_ fuel r
  · intro q rows h
    split at h
    · rename_i hq
      injection h with h
      subst h
      refine ⟨by simp, by simp [exEst], ?_⟩
      intro r hr
      have : r = exRow q := by simpa using hr
      rw [this]; exact exRow_good _ q hq
    · cases h
  · unfold Spec.ramNeed fval
    norm_num

/-- The hypotheses of `C72_wraps` can be met. -/
example (fuel : Nat) : partitionRam (exEst 1) (fun _ => .ok (List.replicate 4294967296 (exRow 3))) (1, 1) 100 4 32 (0, 1)
    (fuel + 1) = .ok 3 :=
  C72_wraps (exEst 1) exPops_isPopOrder (by decide) (by decide) (by decide) _ _ rfl
    (by rw [List.length_replicate]; decide) (by rw [List.length_replicate])
    (fun r hr => by rw [(List.mem_replicate.1 hr).2]; exact exRow_good _ 3 (by decide)) (exRow 3)
    (fun r hr => (List.mem_replicate.1 hr).2) _ (by decide) _ _ _ _ _

/-! ## The theorems applied to the examples -/

example := C72_sizes (P := exEst 2) exPops_isPopOrder (by decide) (by decide) (nc := 3) (by decide)
  (rows := [exRow 3, exRow 3]) (by decide) (by intro r hr; rw [show r = exRow 3 by simpa using hr]; exact exRow_good _ 3 (by decide))

example := C72_total (P := exEst 2) exPops_isPopOrder (by decide) (by decide) (nc := 3) (by decide)
  (rows := [exRow 3, exRow 3]) (by decide) (by intro r hr; rw [show r = exRow 3 by simpa using hr]; exact exRow_good _ 3 (by decide))
  (by decide)

example := C72_fits_partial (exEst 1) (fun q => .ok (if q = 3 then [exRow 3, exRow 3, exRow 3] else
      [exRow 5, F32.inf :: exRow 4, F32.inf :: F32.inf :: exRow 3])) (1, 1) 100 4 32 (1, 1048576) (by decide) 10 5
  (by decide +kernel)

example := C72_uninit (exEst 4) (by decide) (by decide) (fun _ => .ok [exRow 3]) [exRow 3] rfl (by decide) (1, 1) 100 4 32
  (1, 1) 5

end Grann
