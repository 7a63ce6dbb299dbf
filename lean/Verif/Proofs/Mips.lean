import Verif.Model.Mips
import Verif.Proofs.Shard
/-!
# The reduction of inner products to distances: the passes over the file
-/

namespace Grann

theorem mipsRead_ok {K : Type} (conv : Bytes → List K) {g : Nat → Bytes} {rb start cur left : Nat} {buf : Bytes}
    (hg : ∀ k, start ≤ k → k < start + (cur + left) → (g k).length = rb) (hbuf : cur * rb ≤ buf.length) :
    ∃ buf', mipsRead conv rb cur ⟨((List.range' start (cur + left)).map g).flatten, false, false⟩ buf =
      .ok ((List.range cur).map (fun p => conv (g (start + p))),
        ⟨((List.range' (start + cur) left).map g).flatten, false, false⟩, buf') ∧ buf'.length = buf.length := by
  have hrows : ∀ x ∈ (List.range' start cur).map g, x.length = rb := by
    intro x hx
    obtain ⟨k, hk, rfl⟩ := List.mem_map.mp hx
    rw [List.mem_range'_1] at hk
    exact hg k (by omega) (by omega)
  have hlen : ((List.range' start cur).map g).flatten.length = cur * rb := by
    rw [flatten_length_of hrows]; simp
  have e1 := IStream.read_append ((List.range' start cur).map g).flatten ((List.range' (start + cur) left).map g).flatten
  rw [hlen, ← List.flatten_append, ← List.map_append, List.range'_append_1] at e1
  refine ⟨((List.range' start cur).map g).flatten ++ buf.drop (cur * rb), ?_, ?_⟩
  · unfold mipsRead
    rw [e1]
    dsimp only
    have e2 := blit_at (pre := []) (mid := buf.take (cur * rb)) (suf := buf.drop (cur * rb))
      (b := ((List.range' start cur).map g).flatten) (off := 0) rfl (by rw [List.length_take, hlen]; omega)
    rw [List.nil_append, List.take_append_drop, List.nil_append] at e2
    rw [e2, Res.ok_bind, mapM_eq_map _ (fun p => g (start + p)) _ (fun p hp => by
      rw [flatten_slice hrows _ (by simpa using List.mem_range.mp hp)]
      unfold rowAt
      rw [List.getD_eq_getElem?_getD, List.getElem?_map, List.getElem?_range' (List.mem_range.mp hp), Nat.one_mul]
      rfl), Res.ok_bind, List.map_map]
    rfl
  · rw [List.length_append, hlen, List.length_drop]; omega

theorem mipsNorms_eq {K : Type} (O : MOps K) : ∀ (xs : List (List K)) (norms : List K) (m : K),
    mipsNorms O xs norms m = (norms ++ xs.map (mipsNorm O), xs.foldl (fun m x => mipsMax O m (mipsNorm O x)) m) := by
  intro xs
  induction xs with
  | nil => intro norms m; simp [mipsNorms]
  | cons x xs ih => intro norms m; unfold mipsNorms; rw [ih]; simp

theorem mipsRows_ok {K : Type} (O : MOps K) (norms : List K) (m : K) (nf : List K → K) : ∀ (xs : List (List K)) (id : Nat),
    (∀ k x, xs[k]? = some x → norms[id + k]? = some (nf x)) →
    mipsRows O norms m id xs = .ok (xs.map (fun x => mipsRow O m (nf x) x)) := by
  intro xs
  induction xs with
  | nil => intro id _; rfl
  | cons x xs ih =>
    intro id h
    unfold mipsRows
    have h0 := h 0 x rfl
    rw [Nat.add_zero] at h0
    rw [rd_eq_ok_iff.mpr h0, Res.ok_bind, ih (id + 1) (fun k y hy => by
      have := h (k + 1) y (by simpa using hy)
      rwa [show id + (k + 1) = id + 1 + k by omega] at this), Res.ok_bind]
    rfl

/-- The shape of the block loops: the size of the current block. -/
theorem blk_cur {npts bs b : Nat} (todo : Nat) (h1 : npts ≤ (b + (todo + 1)) * bs)
    (h2 : (b + (todo + 1) - 1) * bs < npts) :
    ∃ cur left, (if (b + 1) * bs < npts then (b + 1) * bs else npts) - b * bs = cur ∧ npts - b * bs = cur + left ∧
      cur ≤ bs ∧ (0 < todo → b * bs + cur = (b + 1) * bs) ∧ left = npts - (b + 1) * bs := by
  have hstart : b * bs < npts := by
    have hm : b * bs ≤ (b + (todo + 1) - 1) * bs := Nat.mul_le_mul_right _ (by omega)
    omega
  have hsucc : (b + 1) * bs = b * bs + bs := Nat.succ_mul _ _
  refine ⟨_, npts - (b + 1) * bs, rfl, ?_, ?_, ?_, rfl⟩
  · split <;> omega
  · split <;> omega
  · intro h0
    have hm : (b + 1) * bs ≤ (b + (todo + 1) - 1) * bs := Nat.mul_le_mul_right _ (by omega)
    rw [if_pos (by omega)]; omega

theorem mipsPass1_ok {K : Type} (O : MOps K) (conv : Bytes → List K) (g : Nat → Bytes) (rb npts bs : Nat)
    (hg : ∀ k, k < npts → (g k).length = rb) :
    ∀ (todo b : Nat) (buf : Bytes) (norms : List K) (m : K), npts ≤ (b + todo) * bs →
    (0 < todo → (b + todo - 1) * bs < npts) → buf.length = bs * rb →
    ∃ buf', mipsPass1 O conv rb npts bs todo b ⟨((List.range' (b * bs) (npts - b * bs)).map g).flatten, false, false⟩ buf
        norms m = .ok (norms ++ (List.range' (b * bs) (npts - b * bs)).map (fun p => mipsNorm O (conv (g p))),
          (List.range' (b * bs) (npts - b * bs)).foldl (fun m p => mipsMax O m (mipsNorm O (conv (g p)))) m,
          ⟨[], false, false⟩, buf') ∧ buf'.length = bs * rb := by
  intro todo
  induction todo with
  | zero =>
    intro b buf norms m h1 _ hb
    rw [Nat.add_zero] at h1
    rw [Nat.sub_eq_zero_of_le h1]
    exact ⟨buf, by simp [mipsPass1], hb⟩
  | succ todo ih =>
    intro b buf norms m h1 h2 hb
    obtain ⟨cur, left, ec, hcl, hcb, hnext, hleft⟩ := blk_cur todo h1 (h2 (by omega))
    obtain ⟨buf1, e1, hb1⟩ := mipsRead_ok conv (g := g) (rb := rb) (start := b * bs) (cur := cur) (left := left) (buf := buf)
      (fun k _ hk => hg k (by omega)) (by rw [hb]; exact Nat.mul_le_mul_right _ hcb)
    unfold mipsPass1
    dsimp only
    rw [ec, hcl, e1, Res.ok_bind]
    dsimp only
    rw [mipsNorms_eq]
    dsimp only
    have ex : (List.range cur).map (fun p => conv (g (b * bs + p))) = (List.range' (b * bs) cur).map (fun p => conv (g p)) := by
      rw [List.range'_eq_map_range, List.map_map]; rfl
    rw [ex, List.map_map, List.foldl_map]
    have hfin : left = npts - (b + 1) * bs ∧ (todo = 0 → left = 0) := by
      refine ⟨hleft, fun h => ?_⟩
      subst h
      rw [show b + (0 + 1) = b + 1 by omega] at h1
      omega
    by_cases h0 : todo = 0
    · have hl0 := hfin.2 h0
      subst h0
      subst hl0
      refine ⟨buf1, ?_, by rw [hb1, hb]⟩
      simp only [mipsPass1, List.range'_zero, List.map_nil, List.flatten_nil, Nat.add_zero]
      rfl
    · have hn := hnext (by omega)
      obtain ⟨buf2, e2, hb2⟩ := ih (b + 1) buf1
        (norms ++ (List.range' (b * bs) cur).map (mipsNorm O ∘ fun p => conv (g p)))
        ((List.range' (b * bs) cur).foldl (fun m p => mipsMax O m (mipsNorm O (conv (g p)))) m)
        (by rw [show b + 1 + todo = b + (todo + 1) by omega]; exact h1)
        (fun _ => by rw [show b + 1 + todo - 1 = b + (todo + 1) - 1 by omega]; exact h2 (by omega))
        (by rw [hb1, hb])
      refine ⟨buf2, ?_, hb2⟩
      rw [hn, hleft, e2, ← List.range'_append_1, hn, List.map_append, List.foldl_append, List.append_assoc]
      rfl

theorem mipsPass2_ok {K : Type} (O : MOps K) (conv : Bytes → List K) (g : Nat → Bytes) (rb npts bs : Nat)
    (hg : ∀ k, k < npts → (g k).length = rb) (m : K) :
    ∀ (todo b : Nat) (buf : Bytes) (out : List (List K)), npts ≤ (b + todo) * bs →
    (0 < todo → (b + todo - 1) * bs < npts) → buf.length = bs * rb →
    mipsPass2 O conv rb npts bs ((List.range npts).map (fun p => mipsNorm O (conv (g p)))) m todo b
        ⟨((List.range' (b * bs) (npts - b * bs)).map g).flatten, false, false⟩ buf out =
      .ok (out ++ (List.range' (b * bs) (npts - b * bs)).map (fun p => mipsRow O m (mipsNorm O (conv (g p))) (conv (g p)))) := by
  intro todo
  induction todo with
  | zero =>
    intro b buf out h1 _ hb
    rw [Nat.add_zero] at h1
    rw [Nat.sub_eq_zero_of_le h1]
    simp [mipsPass2]
  | succ todo ih =>
    intro b buf out h1 h2 hb
    obtain ⟨cur, left, ec, hcl, hcb, hnext, hleft⟩ := blk_cur todo h1 (h2 (by omega))
    obtain ⟨buf1, e1, hb1⟩ := mipsRead_ok conv (g := g) (rb := rb) (start := b * bs) (cur := cur) (left := left) (buf := buf)
      (fun k _ hk => hg k (by omega)) (by rw [hb]; exact Nat.mul_le_mul_right _ hcb)
    unfold mipsPass2
    dsimp only
    rw [ec, hcl, e1, Res.ok_bind]
    dsimp only
    have ex : (List.range cur).map (fun p => conv (g (b * bs + p))) = (List.range' (b * bs) cur).map (fun p => conv (g p)) := by
      rw [List.range'_eq_map_range, List.map_map]; rfl
    rw [mipsRows_ok O _ m (mipsNorm O) _ (b * bs) (by
      intro k x hk
      rw [List.getElem?_map] at hk
      have hlt : k < cur := by
        by_contra hc
        rw [List.getElem?_eq_none (by simp; omega)] at hk
        cases hk
      rw [List.getElem?_range hlt] at hk
      simp only [Option.map_some, Option.some.injEq] at hk
      rw [List.getElem?_map, List.getElem?_range (by omega), Option.map_some, ← hk]), Res.ok_bind, ex, List.map_map]
    by_cases h0 : todo = 0
    · have hl0 : left = 0 := by
        subst h0
        rw [show b + (0 + 1) = b + 1 by omega] at h1
        omega
      subst h0
      subst hl0
      simp only [mipsPass2, Nat.add_zero]
      rfl
    · have hn := hnext (by omega)
      rw [hn, hleft, ih (b + 1) buf1 _
        (by rw [show b + 1 + todo = b + (todo + 1) by omega]; exact h1)
        (fun _ => by rw [show b + 1 + todo - 1 = b + (todo + 1) - 1 by omega]; exact h2 (by omega))
        (by rw [hb1, hb]), ← List.range'_append_1, hn, List.map_append, List.append_assoc]
      rfl

/-- The whole function. -/
theorem mipsPrepare_ok {K : Type} (O : MOps K) (conv : Bytes → List K) (es blk dim : Nat) (rows : List Bytes) (j1 j2 : Bytes)
    (hj1 : j1.length = 4) (hj2 : j2.length = 4) (hblk : 1 ≤ blk) (h0 : 1 ≤ rows.length) (hn : rows.length < 4294967296)
    (hd : dim < 4294967296) (hrow : ∀ x ∈ rows, x.length = dim * es) :
    mipsPrepare O conv es blk (some (Spec.binFile dim rows)) j1 j2 =
      .ok ⟨rows.length, u32 (dim + 1),
        rows.map (fun x => mipsRow O (O.sqrt (rows.foldl (fun m x => mipsMax O m (mipsNorm O (conv x))) O.zero))
          (mipsNorm O (conv x)) (conv x)),
        O.sqrt (rows.foldl (fun m x => mipsMax O m (mipsNorm O (conv x))) O.zero)⟩ := by
  unfold mipsPrepare
  have hfile : Spec.binFile dim rows = le 4 rows.length ++ (le 4 dim ++ rows.flatten) := by
    unfold Spec.binFile; rw [List.append_assoc]
  rw [hfile, readHeader_le hn hd hj1 hj2]
  dsimp only
  obtain ⟨bs, hbs⟩ : ∃ bs, bs = (if rows.length ≤ blk then rows.length else blk) := ⟨_, rfl⟩
  have hbs1 : 1 ≤ bs := by rw [hbs]; split <;> omega
  rw [← hbs, if_neg (by omega)]
  obtain ⟨n1, n2⟩ := numBlocks rows.length bs h0 hbs1
  have hg : ∀ k, k < rows.length → (rowAt rows k).length = dim * es := fun k hk => rowAt_length hrow hk
  have hflat : rows.flatten = ((List.range' (0 * bs) (rows.length - 0 * bs)).map (rowAt rows)).flatten := by
    rw [Nat.zero_mul, Nat.sub_zero, ← List.range_eq_range', ← rows_eq_map]
  obtain ⟨buf, e1, hb⟩ := mipsPass1_ok O conv (rowAt rows) (dim * es) rows.length bs hg
    (rows.length / bs + if rows.length % bs ≠ 0 then 1 else 0) 0 (List.replicate (bs * (dim * es)) 0) [] O.zero
    (by rw [Nat.zero_add]; exact n1) (fun _ => by rw [Nat.zero_add]; exact n2) (by simp)
  rw [← hflat] at e1
  rw [e1, Res.ok_bind]
  dsimp only
  have hseek : (IStream.mk [] false false).seek8 (some (le 4 rows.length ++ (le 4 dim ++ rows.flatten))) =
      ⟨rows.flatten, false, false⟩ := by
    unfold IStream.seek8
    rw [if_neg (by simp), Option.getD_some, ← List.append_assoc, List.drop_left' (by simp)]
  have hmap : ∀ {β : Type} (f : Bytes → β), (List.range rows.length).map (fun p => f (rowAt rows p)) = rows.map f := by
    intro β f
    conv_rhs => rw [rows_eq_map rows]
    rw [List.map_map]; rfl
  have hfold : ∀ (m : K), (List.range rows.length).foldl (fun m p => mipsMax O m (mipsNorm O (conv (rowAt rows p)))) m =
      rows.foldl (fun m x => mipsMax O m (mipsNorm O (conv x))) m := by
    intro m
    conv_rhs => rw [rows_eq_map rows]
    rw [List.foldl_map]
  rw [hseek, Nat.zero_mul, Nat.sub_zero, ← List.range_eq_range', hfold, List.nil_append]
  rw [hflat, mipsPass2_ok O conv (rowAt rows) (dim * es) rows.length bs hg _ _ 0 buf []
    (by rw [Nat.zero_add]; exact n1) (fun _ => by rw [Nat.zero_add]; exact n2) hb, Res.ok_bind, List.nil_append,
    Nat.zero_mul, Nat.sub_zero, ← List.range_eq_range',
    hmap (fun x => mipsRow O _ (mipsNorm O (conv x)) (conv x))]

end Grann
