import Verif.Props.ParFor
import Verif.Proofs.ParWp
import Verif.Model.Centers
/-!
# C91: what the parallel loops compute

For every completed execution, in terms of the arrays at the start.
-/

namespace Grann

open Par

/-- The array holds `f 0, ..., f (n - 1)`. -/
def Holds (m : Mem Nat) (arr : String) (n : Nat) (f : Nat → Nat) : Prop := ∀ x, x < n → m ⟨arr, x, 0⟩ = some (f x)

theorem Holds.has {m : Mem Nat} {arr : String} {n : Nat} {f : Nat → Nat} (h : Holds m arr n f) : HasArr m arr n :=
  fun x hx => ⟨_, h x hx⟩

/-- Row `i` of an array with rows of length `dim`. -/
def rowOf (f : Nat → Nat) (dim i : Nat) : List Nat := (List.range dim).map fun j => f (i * dim + j)

/-- Every completed execution leaves a memory with `P`. -/
def LoopLeaves (m : Mem Nat) (ps : List (Par Nat Unit)) (P : Mem Nat → Prop) : Prop :=
  ∀ sched c, Cfg.run sched (Cfg.start m ps) = .ok c → c.Done → P c.mem

/-! ## One iteration on its own -/

section
variable {α : Type} {m : Mem Nat}

theorem wp_forN {body : Nat → Par Nat Unit} (I : Nat → Mem Nat → Prop) {n : Nat} {Q : Unit → Mem Nat → Prop} (h0 : I 0 m)
    (hs : ∀ j m, j < n → I j m → Wp (body j) m fun _ m' => I (j + 1) m') (hQ : ∀ m, I n m → Q () m) : Wp (forN n body) m Q := by
  refine wp_loop (fun j _ m => I j m) h0 (fun j _ m _ h2 h3 => hs j m (by omega) h3) fun _ m h => hQ m ?_
  rwa [Nat.zero_add] at h

theorem wp_row {arr : String} {start n : Nat} {d : Nat → Nat} {f : List Nat → Par Nat α} {Q : α → Mem Nat → Prop}
    (hd : ∀ j, j < n → m ⟨arr, start + j, 0⟩ = some (d (start + j)))
    (h : Wp (f ((List.range n).map fun j => d (start + j))) m Q) : Wp ((loadRow arr start n).bind f) m Q := by
  refine wp_bind (wp_loop (fun j s m' => m' = m ∧ s = (List.range j).map fun j => d (start + j)) ⟨rfl, rfl⟩ ?_ ?_)
  · rintro j s m' - hj ⟨rfl, rfl⟩
    refine wp_rd (hd j (by omega)) (wp_ret ⟨rfl, ?_⟩)
    rw [List.range_succ, List.map_append]; rfl
  · rintro s m' ⟨rfl, rfl⟩
    rw [Nat.zero_add]; exact h

end

theorem row_bound {n dim i j : Nat} (hi : i < n) (hj : j < dim) : i * dim + j < n * dim :=
  Nat.lt_of_lt_of_le (by rw [Nat.succ_mul]; omega : i * dim + j < (i + 1) * dim) (Nat.mul_le_mul_right _ hi)

theorem RowLoop.leaves {own : Nat → Loc → Prop} {m : Mem Nat} {n : Nat} {body : Nat → Par Nat Unit} (h : RowLoop own m n body)
    {i : Nat} (hi : i < n) {l : Loc} (hl : own i l) {v : Option Nat} (hw : Wp (body i) m fun _ r => r l = v) :
    LoopLeaves m (iters n body) fun M => M l = v := by
  intro sched c hr hd
  obtain ⟨F, hF, hs⟩ := h.1.2
  obtain ⟨r, h1, h2⟩ := h.2 F hF i hi
  obtain ⟨_, r', h3, h4⟩ := hw
  rw [h1] at h3
  cases h3
  rw [hs sched c hr hd, h2 l hl, h4]

/-- A loop that fills `w` consecutive elements. -/
theorem wp_fill {body : Nat → Par Nat Unit} {m : Mem Nat} {arr : String} {base w : Nat} (val : Nat → Nat) {Q : Unit → Mem Nat → Prop}
    (hb : ∀ j m', j < w → (∀ l, (∀ x, x < j → l ≠ ⟨arr, base + x, 0⟩) → m' l = m l) →
      Wp (body j) m' fun _ r => r = m'.upd ⟨arr, base + j, 0⟩ (val j))
    (hQ : ∀ r, (∀ x, x < w → r ⟨arr, base + x, 0⟩ = some (val x)) → (∀ l, (∀ x, x < w → l ≠ ⟨arr, base + x, 0⟩) → r l = m l) → Q () r) :
    Wp (forN w body) m Q := by
  refine wp_forN (fun t m' => (∀ x, x < t → m' ⟨arr, base + x, 0⟩ = some (val x)) ∧
    ∀ l, (∀ x, x < t → l ≠ ⟨arr, base + x, 0⟩) → m' l = m l) ⟨fun _ h => absurd h (Nat.not_lt_zero _), fun _ _ => rfl⟩ ?_
    fun m' h => hQ m' h.1 h.2
  rintro t m' ht ⟨a1, a2⟩
  refine wp_mono (hb t m' ht a2) ?_
  rintro - r rfl
  refine ⟨fun x hx => ?_, fun l hl => ?_⟩
  · by_cases e : x = t
    · subst e; exact upd_self
    · rw [upd_ne (by simpa using e)]; exact a1 x (by omega)
  · rw [upd_ne (hl t (by omega))]; exact a2 l fun x hx => hl x (by omega)

theorem off_ne {a : String} {b x y : Nat} (h : x < y) : (⟨a, b + y, 0⟩ : Loc) ≠ ⟨a, b + x, 0⟩ := fun e => by
  have := congrArg Loc.i e
  simp only at this
  omega

/-- The `float` with the given bits. -/
def ofBits (x : Nat) : F32 := ⟨BitVec.ofNat 32 x⟩

theorem ofBits_fmax : ofBits F32.fmax.bits.toNat = F32.fmax := by decide

theorem holds_arrMem {a : List (String × List Nat)} {arr : String} {n : Nat} (h : n ≤ ((a.lookup arr).getD []).length) :
    Holds (arrMem a) arr n fun x => ((a.lookup arr).getD []).getD x 0 := by
  intro x hx
  have := List.getElem?_eq_getElem (Nat.lt_of_lt_of_le hx h)
  simp only [arrMem, if_true, List.getD_eq_getElem?_getD, this, Option.getD_some]

/-! ## The loops -/

theorem C91_vecs_l2sq_value (nrm : List Nat → Nat) (mul : Nat → Nat → Nat) (dim n : Nat) (m : Mem Nat) (data : Nat → Nat)
    (h1 : Holds m "data" (n * dim) data) (h2 : HasArr m "vecs_l2sq" n) (i : Nat) (hi : i < n) :
    LoopLeaves m (iters n (vecsL2sqIter nrm mul dim)) fun M =>
      M ⟨"vecs_l2sq", i, 0⟩ = some (mul (nrm (rowOf data dim i)) (nrm (rowOf data dim i))) := by
  refine (vecs_l2sq_rows nrm mul dim n m h1.has h2).leaves hi inRow_one ?_
  refine wp_row (fun j hj => h1 _ (row_bound hi hj)) (wp_wr (h2 i hi) (wp_rd upd_self (wp_rd upd_self (wp_wrl ⟨_, upd_self⟩ upd_self))))

example : LoopLeaves (arrMem [("data", [1, 2, 3, 4]), ("vecs_l2sq", [0, 0])]) (iters 2 (vecsL2sqIter List.sum (· * ·) 2)) fun M => M ⟨"vecs_l2sq", 1, 0⟩ = some 49 :=
  C91_vecs_l2sq_value List.sum (· * ·) 2 2 _ _ (holds_arrMem (by decide)) (hasArr_arrMem (by decide)) 1 (by decide)

theorem C91_nearest_value (nc n : Nat) (m : Mem Nat) (dist : Nat → Nat)
    (h1 : Holds m "dist_matrix" (n * nc) dist) (h2 : HasArr m "center_ids" n) (i : Nat) (hi : i < n) :
    LoopLeaves m (iters n (nearestIter (fun a b => (ofBits a).lt (ofBits b)) F32.fmax.bits.toNat nc)) fun M =>
      M ⟨"center_ids", i, 0⟩ = argminLoop ((rowOf dist nc i).map ofBits) 0 F32.fmax (m ⟨"center_ids", i, 0⟩) := by
  refine (nearest_rows _ _ nc n m h1.has h2).leaves hi inRow_one ?_
  refine wp_bind (wp_loop (fun j min m' => (∀ l, l ≠ ⟨"center_ids", i, 0⟩ → m' l = m l) ∧ (∃ w, m' ⟨"center_ids", i, 0⟩ = some w) ∧
    argminLoop ((rowOf dist nc i).map ofBits) 0 F32.fmax (m ⟨"center_ids", i, 0⟩) =
      argminLoop (((rowOf dist nc i).drop j).map ofBits) j (ofBits min) (m' ⟨"center_ids", i, 0⟩))
    ⟨fun _ _ => rfl, h2 i hi, by rw [ofBits_fmax]; rfl⟩ ?_ ?_)
  · rintro j min m' - hj ⟨a1, a2, a3⟩
    have hj' : j < nc := by omega
    have hv : m' ⟨"dist_matrix", i * nc + j, 0⟩ = some (dist (i * nc + j)) := by
      rw [a1 _ (loc_ne (by decide))]; exact h1 _ (row_bound hi hj')
    have hdrop : (rowOf dist nc i).drop j = dist (i * nc + j) :: (rowOf dist nc i).drop (j + 1) := by
      rw [List.drop_eq_getElem_cons (by simpa [rowOf] using hj')]
      simp [rowOf]
    refine wp_rd hv ?_
    rw [hdrop, List.map_cons, argminLoop] at a3
    split
    · rename_i hlt
      rw [if_pos hlt] at a3
      refine wp_wr a2 (wp_rdl (v := dist (i * nc + j)) ?_ ⟨?_, ⟨_, upd_self⟩, ?_⟩)
      · rw [upd_ne (loc_ne (by decide))]; exact hv
      · intro l hl; rw [upd_ne hl]; exact a1 l hl
      · rw [upd_self]; exact a3
    · rename_i hlt
      rw [if_neg hlt] at a3
      exact wp_ret ⟨a1, a2, a3⟩
  · rintro min m' ⟨-, -, a3⟩
    refine wp_ret ?_
    rw [a3, List.drop_of_length_le (by simp [rowOf])]
    rfl

example : LoopLeaves (arrMem [("dist_matrix", [5, 3, 4, 1, 2, 7]), ("center_ids", [9, 9])]) (iters 2 (nearestIter (fun a b => (ofBits a).lt (ofBits b)) F32.fmax.bits.toNat 3)) fun M => M ⟨"center_ids", 0, 0⟩ = some 1 :=
  C91_nearest_value 3 2 _ _ (holds_arrMem (by decide)) (hasArr_arrMem (by decide)) 0 (by decide)

theorem C91_nearest_k_value (pops : List Nat → Nat → Nat) (nc k n : Nat) (m : Mem Nat) (dist : Nat → Nat)
    (h1 : Holds m "dist_matrix" (n * nc) dist) (h2 : HasArr m "center_ids" (n * k)) (i j : Nat) (hi : i < n) (hj : j < k) :
    LoopLeaves m (iters n (nearestKIter pops nc k)) fun M =>
      M ⟨"center_ids", i * k + j, 0⟩ = some (pops (rowOf dist nc i) j) := by
  refine (nearest_k_rows pops nc k n m h1.has h2).leaves hi (inRow_mk hj) ?_
  refine wp_row (fun j hj => h1 _ (row_bound hi hj)) ?_
  refine wp_fill (pops (rowOf dist nc i)) (fun t m' ht a => wp_wrl ?_ rfl) fun r h _ => h j hj
  rw [a _ fun x hx => off_ne hx]
  exact h2 _ (row_bound hi ht)

example : LoopLeaves (arrMem [("dist_matrix", [5, 3, 4, 1, 2, 7]), ("center_ids", [0, 0, 0, 0])]) (iters 2 (nearestKIter (fun row j => row.getD j 0) 3 2)) fun M => M ⟨"center_ids", 3, 0⟩ = some 2 :=
  C91_nearest_k_value (fun row j => row.getD j 0) 3 2 2 _ _ (holds_arrMem (by decide)) (hasArr_arrMem (by decide)) 1 1 (by decide) (by decide)

theorem C91_assign_value (b bs k n : Nat) (m : Mem Nat) (ids : Nat → Nat)
    (h1 : Holds m "closest_centers" (n * k) ids) (h2 : HasArr m "closest_centers_ivf" ((b * bs + n) * k)) (t l : Nat)
    (ht : t < n) (hl : l < k) :
    LoopLeaves m (iters n (assignIter false b bs k)) fun M =>
      M ⟨"closest_centers_ivf", (b * bs + t) * k + l, 0⟩ = some (ids (t * k + l)) := by
  refine (assign_rows b bs k n m h1.has h2).leaves ht (inRow_mk hl) ?_
  refine wp_fill (fun l => ids (t * k + l)) (fun j m' hj a => wp_rd (v := ids (t * k + j)) ?_ (wp_wr ?_ (wp_ret rfl))) fun r h _ => h l hl
  · rw [a _ fun x hx => loc_ne (by decide), Nat.add_sub_cancel_left]
    exact h1 _ (row_bound ht hj)
  · rw [a _ fun x hx => off_ne hx]
    exact h2 _ (row_bound (by omega) hj)

example : LoopLeaves (arrMem [("closest_centers", [5, 3, 4, 1]), ("closest_centers_ivf", [9, 9, 9, 9, 0, 0, 0, 0])]) (iters 2 (assignIter false 1 2 2)) fun M => M ⟨"closest_centers_ivf", 6, 0⟩ = some 4 :=
  C91_assign_value 1 2 2 2 _ _ (holds_arrMem (by decide)) (hasArr_arrMem (by decide)) 1 0 (by decide) (by decide)

theorem C91_process_residuals_value (op : Nat → Nat → Nat) (dim nc n : Nat) (m : Mem Nat) (base cc cs : Nat → Nat)
    (h1 : Holds m "base_data" (n * dim) base) (h2 : Holds m "closest_centers" n cc) (hc : ∀ x, x < n → cc x < nc)
    (h3 : Holds m "centers" (nc * dim) cs) (i d : Nat) (hi : i < n) (hd : d < dim) :
    LoopLeaves m (iters n (residualIter op dim)) fun M =>
      M ⟨"base_data", i * dim + d, 0⟩ = some (op (base (i * dim + d)) (cs (cc i * dim + d))) := by
  refine (process_residuals_rows op dim nc n m h1.has (fun x hx => ⟨_, h2 x hx, hc x hx⟩) h3.has).leaves hi (inRow_mk hd) ?_
  refine wp_fill (fun d => op (base (i * dim + d)) (cs (cc i * dim + d)))
    (fun j m' hj a => wp_rd (v := base (i * dim + j)) ?_ (wp_rd (v := cc i) ?_ (wp_rd (v := cs (cc i * dim + j)) ?_ (wp_wrl ?_ rfl))))
    fun r h _ => h d hd
  · rw [a _ fun x hx => off_ne hx]; exact h1 _ (row_bound hi hj)
  · rw [a _ fun x hx => loc_ne (by decide)]; exact h2 i hi
  · rw [a _ fun x hx => loc_ne (by decide)]; exact h3 _ (row_bound (hc i hi) hj)
  · rw [a _ fun x hx => off_ne hx]; exact ⟨_, h1 _ (row_bound hi hj)⟩

example : LoopLeaves (arrMem [("base_data", [5, 6, 7, 8, 9, 10]), ("closest_centers", [1, 0, 1]), ("centers", [1, 2, 3, 4])]) (iters 3 (residualIter (· - ·) 2)) fun M => M ⟨"base_data", 3, 0⟩ = some 6 :=
  C91_process_residuals_value (· - ·) 2 2 3 _ _ _ _ (holds_arrMem (by decide)) (holds_arrMem (by decide)) (by decide) (holds_arrMem (by decide)) 1 1 (by decide) (by decide)

/-- The center of a non-empty cluster becomes the average of its points; the center of an empty cluster stays. -/
theorem C91_new_centers_value {S : Type} (zero : S) (add : S → List Nat → S) (avg : S → Nat → Nat → Nat) (dim nc n : Nat) (m : Mem Nat)
    (docs : List (List Nat)) (data : Nat → Nat) (hlen : docs.length = nc) (hlt : ∀ l ∈ docs, ∀ p ∈ l, p < n)
    (h1 : HasArr m "centers" (nc * dim)) (h2 : Holds m "data" (n * dim) data)
    (h3 : ∀ (c : Nat) (l : List Nat), docs[c]? = some l → m ⟨"closest_docs.size", c, 0⟩ = some l.length)
    (h4 : ∀ (c : Nat) (l : List Nat), docs[c]? = some l → ∀ (x y : Nat), l[x]? = some y → m ⟨"closest_docs", c, x⟩ = some y)
    (c : Nat) (l : List Nat) (hc : docs[c]? = some l) (d : Nat) (hd : d < dim) :
    LoopLeaves m (iters nc (centerIter zero add avg dim)) fun M =>
      M ⟨"centers", c * dim + d, 0⟩ =
        if l = [] then m ⟨"centers", c * dim + d, 0⟩
        else some (avg ((l.map (rowOf data dim)).foldl add zero) d l.length) := by
  have hcn : c < nc := by
    rcases Nat.lt_or_ge c nc with h | h
    · exact h
    · rw [List.getElem?_eq_none (by omega)] at hc; cases hc
  refine (new_centers_rows zero add avg dim nc n (fun c => (docs.getD c []).length) m h1 h2.has ?_ ?_).leaves hcn (inRow_mk hd) ?_
  · intro c hc
    have hg := List.getElem?_eq_getElem (hlen.symm ▸ hc)
    exact ⟨_, h3 c _ hg, by rw [List.getD_eq_getElem?_getD, hg]; exact Nat.le_refl _⟩
  · intro c hc j hj
    have hg := List.getElem?_eq_getElem (hlen.symm ▸ hc)
    rw [List.getD_eq_getElem?_getD, hg] at hj
    have hj' := List.getElem?_eq_getElem (show j < (docs[c]'(hlen.symm ▸ hc)).length from hj)
    exact ⟨_, h4 c _ hg j _ hj', hlt _ (List.getElem_mem _) _ (List.getElem_mem _)⟩
  · refine wp_rd (h3 c l hc) (wp_bind (wp_loop (fun j s m' => m' = m ∧ s = ((l.take j).map (rowOf data dim)).foldl add zero)
      ⟨rfl, rfl⟩ ?_ ?_))
    · rintro j s m' - hj ⟨rfl, rfl⟩
      have hj' : j < l.length := by omega
      have hp := List.getElem?_eq_getElem hj'
      refine wp_rd (h4 c l hc j _ hp) (wp_row (d := data) (fun x hx => h2 _ (row_bound (hlt l (List.mem_of_getElem? hc) _ (List.getElem_mem _)) hx))
        (wp_ret ⟨rfl, ?_⟩))
      rw [List.take_add_one, hp, List.map_append, List.foldl_append]
      rfl
    · rintro s m' ⟨rfl, rfl⟩
      rw [Nat.zero_add, List.take_length]
      cases l with
      | nil => exact wp_ret rfl
      | cons p ps =>
        rw [if_neg (List.cons_ne_nil p ps)]
        show Wp (if 0 < ps.length + 1 then _ else _) m' _
        rw [if_pos (by omega)]
        refine wp_fill (fun i => avg (((p :: ps).map (rowOf data dim)).foldl add zero) i (p :: ps).length)
          (fun j m1 hj a => wp_wrl ?_ rfl) fun r h _ => h d hd
        rw [a _ fun x hx => off_ne hx]; exact h1 _ (row_bound hcn hj)

example : LoopLeaves exDocs (iters 2 (centerIter [0, 0] (List.zipWith (· + ·)) (fun s i n => s.getD i 0 / n) 2)) fun M =>
    M ⟨"centers", 1, 0⟩ = some 5 := by
  refine C91_new_centers_value [0, 0] (List.zipWith (· + ·)) (fun s i n => s.getD i 0 / n) 2 2 3 exDocs [[1, 2], []] (fun x => x + 1)
    rfl (by decide) ?_ ?_ ?_ ?_ 0 [1, 2] rfl 1 (by decide)
  · intro x hx
    obtain rfl | rfl | rfl | rfl : x = 0 ∨ x = 1 ∨ x = 2 ∨ x = 3 := by omega
    all_goals exact ⟨_, rfl⟩
  · intro x hx
    obtain rfl | rfl | rfl | rfl | rfl | rfl : x = 0 ∨ x = 1 ∨ x = 2 ∨ x = 3 ∨ x = 4 ∨ x = 5 := by omega
    all_goals rfl
  · intro c l h
    match c, h with
    | 0, h => cases h; rfl
    | 1, h => cases h; rfl
    | c + 2, h => cases h
  · intro c l h x y hx
    match c, h with
    | 0, h =>
      cases h
      match x, hx with
      | 0, hx => cases hx; rfl
      | 1, hx => cases hx; rfl
      | x + 2, hx => cases hx
    | 1, h => cases h; cases hx
    | c + 2, h => cases h

theorem C91_chunks_value (dist : List Nat → List Nat → Nat) (add : Nat → Nat → Nat) (dim n chunkSize pad nc nchunks : Nat) (hpad : 0 < pad)
    (m : Mem Nat) (res data cc cs : Nat → Nat) (h1 : Holds m "residuals" (nchunks * pad) res) (h2 : Holds m "data" (n * dim) data)
    (h3 : Holds m "closest_center" n cc) (hc : ∀ x, x < n → cc x < nc) (h4 : Holds m "centers" (nc * dim) cs) (i : Nat) (hi : i < nchunks) :
    LoopLeaves m (iters nchunks (chunkIter dist add dim n chunkSize pad)) fun M =>
      M ⟨"residuals", i * pad, 0⟩ =
        some (((List.range (min n ((i + 1) * chunkSize) - i * chunkSize)).map fun t =>
          dist (rowOf data dim (i * chunkSize + t)) (rowOf cs dim (cc (i * chunkSize + t)))).foldl add (res (i * pad))) := by
  refine (chunks_rows dist add dim n chunkSize pad nc nchunks hpad m h1.has h2.has (fun x hx => ⟨_, h3 x hx, hc x hx⟩) h4.has).leaves hi
    (inRow_mk hpad) ?_
  refine wp_forN (fun j m' => (∀ l, l ≠ ⟨"residuals", i * pad, 0⟩ → m' l = m l) ∧ m' ⟨"residuals", i * pad, 0⟩ =
    some (((List.range j).map fun t =>
      dist (rowOf data dim (i * chunkSize + t)) (rowOf cs dim (cc (i * chunkSize + t)))).foldl add (res (i * pad))))
    ⟨fun _ _ => rfl, h1 _ (row_bound (j := 0) hi hpad)⟩ ?_ fun m' h => h.2
  rintro j m' hj ⟨a1, a2⟩
  have hx : i * chunkSize + j < n := by omega
  refine wp_row (d := data) (fun x hx' => ?_) (wp_rd (v := cc (i * chunkSize + j)) ?_ (wp_row (d := cs) (fun x hx' => ?_)
    (wp_rd a2 (wp_wrl ⟨_, a2⟩ ⟨?_, ?_⟩))))
  · rw [a1 _ (loc_ne (by decide))]; exact h2 _ (row_bound hx hx')
  · rw [a1 _ (loc_ne (by decide))]; exact h3 _ hx
  · rw [a1 _ (loc_ne (by decide))]; exact h4 _ (row_bound (hc _ hx) hx')
  · intro l hl; rw [upd_ne hl]; exact a1 l hl
  · rw [upd_self, List.range_succ, List.map_append, List.foldl_append]; rfl

example : LoopLeaves (arrMem [("residuals", [0, 0, 0, 0]), ("data", [1, 2, 3]), ("closest_center", [0, 1, 0]), ("centers", [5, 7])]) (iters 2 (chunkIter (fun x y => x.sum + y.sum) (· + ·) 1 3 2 2)) fun M => M ⟨"residuals", 0, 0⟩ = some 15 :=
  C91_chunks_value (fun x y => x.sum + y.sum) (· + ·) 1 3 2 2 2 2 (by decide) _ _ _ _ _ (holds_arrMem (by decide)) (holds_arrMem (by decide)) (holds_arrMem (by decide)) (by decide) (holds_arrMem (by decide)) 0 (by decide)

theorem C91_first_dist_value (dist : List Nat → List Nat → Nat) (dim n init : Nat) (hinit : init < n) (m : Mem Nat) (data : Nat → Nat)
    (h1 : Holds m "data" (n * dim) data) (h2 : HasArr m "dist" n) (i : Nat) (hi : i < n) :
    LoopLeaves m (iters n (firstDistIter dist dim init)) fun M =>
      M ⟨"dist", i, 0⟩ = some (dist (rowOf data dim i) (rowOf data dim init)) := by
  refine (first_dist_rows dist dim n init hinit m h1.has h2).leaves hi inRow_one ?_
  exact wp_row (fun j hj => h1 _ (row_bound hi hj)) (wp_row (fun j hj => h1 _ (row_bound hinit hj)) (wp_wrl (h2 i hi) upd_self))

example : LoopLeaves (arrMem [("data", [1, 2, 3, 4]), ("dist", [0, 0])]) (iters 2 (firstDistIter (fun x y => x.sum + y.sum) 2 1)) fun M => M ⟨"dist", 0, 0⟩ = some 10 :=
  C91_first_dist_value (fun x y => x.sum + y.sum) 2 2 1 (by decide) _ _ (holds_arrMem (by decide)) (hasArr_arrMem (by decide)) 0 (by decide)

theorem C91_next_dist_value (dist : List Nat → List Nat → Nat) (mn : Nat → Nat → Nat) (dim n center : Nat) (hc : center < n) (m : Mem Nat)
    (data ds : Nat → Nat) (h1 : Holds m "data" (n * dim) data) (h2 : Holds m "dist" n ds) (i : Nat) (hi : i < n) :
    LoopLeaves m (iters n (nextDistIter dist mn dim center)) fun M =>
      M ⟨"dist", i, 0⟩ = some (mn (ds i) (dist (rowOf data dim i) (rowOf data dim center))) := by
  refine (next_dist_rows dist mn dim n center hc m h1.has h2.has).leaves hi inRow_one ?_
  exact wp_row (fun j hj => h1 _ (row_bound hi hj)) (wp_row (fun j hj => h1 _ (row_bound hc hj))
    (wp_rd (h2 i hi) (wp_wrl ⟨_, h2 i hi⟩ upd_self)))

example : LoopLeaves (arrMem [("data", [1, 2, 3, 4]), ("dist", [4, 20])]) (iters 2 (nextDistIter (fun x y => x.sum + y.sum) Nat.min 2 1)) fun M => M ⟨"dist", 1, 0⟩ = some 14 :=
  C91_next_dist_value (fun x y => x.sum + y.sum) Nat.min 2 2 1 (by decide) _ _ _ (holds_arrMem (by decide)) (holds_arrMem (by decide)) 1 (by decide)

theorem C91_medoid_value (z : Nat) (diff : Nat → Nat → Nat → Nat → Nat) (add : Nat → Nat → Nat) (dim n : Nat) (m : Mem Nat)
    (center data : Nat → Nat) (h1 : Holds m "center" dim center) (h2 : Holds m "data" (n * dim) data) (h3 : HasArr m "distances" n)
    (i : Nat) (hi : i < n) :
    LoopLeaves m (iters n (medoidIter z diff add dim)) fun M =>
      M ⟨"distances", i, 0⟩ =
        some (((List.range dim).map fun j => diff (center j) (data (i * dim + j)) (center j) (data (i * dim + j))).foldl add z) := by
  refine (medoid_rows z diff add dim n m h1.has h2.has h3).leaves hi inRow_one ?_
  refine wp_wr (h3 i hi) (wp_forN (fun k m' => (∀ l, l ≠ ⟨"distances", i, 0⟩ → m' l = m l) ∧ m' ⟨"distances", i, 0⟩ =
    some (((List.range k).map fun j => diff (center j) (data (i * dim + j)) (center j) (data (i * dim + j))).foldl add z))
    ⟨fun l hl => upd_ne hl, upd_self⟩ ?_ fun m' h => h.2)
  rintro j m' hj ⟨a1, a2⟩
  have e1 : m' ⟨"center", j, 0⟩ = some (center j) := by rw [a1 _ (loc_ne (by decide))]; exact h1 j hj
  have e2 : m' ⟨"data", i * dim + j, 0⟩ = some (data (i * dim + j)) := by
    rw [a1 _ (loc_ne (by decide))]; exact h2 _ (row_bound hi hj)
  refine wp_rd e1 (wp_rd e2 (wp_rd e1 (wp_rd e2 (wp_rd a2 (wp_wrl ⟨_, a2⟩ ⟨?_, ?_⟩)))))
  · intro l hl; rw [upd_ne hl]; exact a1 l hl
  · rw [upd_self, List.range_succ, List.map_append, List.foldl_append]; rfl

example : LoopLeaves (arrMem [("center", [1, 2]), ("data", [4, 6, 1, 3]), ("distances", [9, 9])]) (iters 2 (medoidIter 0 (fun a b c d => (b - a) * (d - c)) (· + ·) 2)) fun M => M ⟨"distances", 0, 0⟩ = some 25 :=
  C91_medoid_value 0 (fun a b c d => (b - a) * (d - c)) (· + ·) 2 2 _ _ _ (holds_arrMem (by decide)) (holds_arrMem (by decide)) (hasArr_arrMem (by decide)) 0 (by decide)

theorem C91_cut_value (src dst : String) (hne : dst ≠ src) (dim off w n : Nat) (hw : off + w ≤ dim) (m : Mem Nat) (data : Nat → Nat)
    (h1 : Holds m src (n * dim) data) (h2 : HasArr m dst (n * w)) (i j : Nat) (hi : i < n) (hj : j < w) :
    LoopLeaves m (iters n (cutIter src dst dim off w)) fun M => M ⟨dst, i * w + j, 0⟩ = some (data (i * dim + off + j)) := by
  refine (cut_rows src dst hne dim off w n hw m h1.has h2).leaves hi (inRow_mk hj) ?_
  refine wp_fill (fun k => data (i * dim + off + k)) (fun k m' hk a => wp_rd (v := data (i * dim + off + k)) ?_ (wp_wrl ?_ rfl))
    fun r h _ => h j hj
  · rw [a _ fun x hx => loc_ne hne.symm]
    refine h1 _ ?_
    rw [Nat.add_assoc]; exact row_bound hi (by omega)
  · rw [a _ fun x hx => off_ne hx]; exact h2 _ (row_bound hi hk)

example : LoopLeaves (arrMem [("base", [1, 2, 3, 4, 5, 6]), ("cur", [0, 0, 0, 0])]) (iters 2 (cutIter "base" "cur" 3 1 2)) fun M => M ⟨"cur", 3, 0⟩ = some 6 :=
  C91_cut_value "base" "cur" (by decide) 3 1 2 2 (by decide) _ _ (holds_arrMem (by decide)) (hasArr_arrMem (by decide)) 1 1 (by decide) (by decide)

theorem C91_codes_value (chunks i n : Nat) (hi : i < chunks) (m : Mem Nat) (cc : Nat → Nat) (h1 : Holds m "closest_center" n cc)
    (h2 : HasArr m "block_compressed_base" (n * chunks)) (j : Nat) (hj : j < n) :
    LoopLeaves m (iters n (codeIter chunks i)) fun M =>
      M ⟨"block_compressed_base", j * chunks + i, 0⟩ = some (cc j) ∧
      ∀ x, x < chunks → x ≠ i → M ⟨"block_compressed_base", j * chunks + x, 0⟩ = m ⟨"block_compressed_base", j * chunks + x, 0⟩ := by
  intro sched c hr hd
  refine ⟨(codes_rows chunks i n hi m h1.has h2).leaves hj (inRow_mk hi) ?_ sched c hr hd, fun x hx hxi =>
    (codes_rows chunks i n hi m h1.has h2).leaves hj (inRow_mk hx) ?_ sched c hr hd⟩
  · exact wp_rd (h1 j hj) (wp_wrl (h2 _ (row_bound hj hi)) upd_self)
  · exact wp_rd (h1 j hj) (wp_wrl (h2 _ (row_bound hj hi)) (upd_ne (by simpa using hxi)))

example : LoopLeaves (arrMem [("closest_center", [7, 8]), ("block_compressed_base", [0, 0, 0, 5, 0, 0])]) (iters 2 (codeIter 3 1)) fun M =>
    M ⟨"block_compressed_base", 4, 0⟩ = some 8 ∧ M ⟨"block_compressed_base", 3, 0⟩ = some 5 := by
  intro sched c hr hd
  obtain ⟨h, h'⟩ := C91_codes_value 3 1 2 (by decide) _ _ (holds_arrMem (by decide)) (hasArr_arrMem (by decide)) 1 (by decide) sched c hr hd
  exact ⟨h, h' 0 (by decide) (by decide)⟩

theorem C91_convert_value (conv : Nat → Nat) (src dst : String) (hne : dst ≠ src) (dim n : Nat) (m : Mem Nat) (data : Nat → Nat)
    (h1 : Holds m src (n * dim) data) (h2 : HasArr m dst (n * dim)) (i j : Nat) (hi : i < n) (hj : j < dim) :
    LoopLeaves m (iters n (convertIter conv src dst dim)) fun M => M ⟨dst, i * dim + j, 0⟩ = some (conv (data (i * dim + j))) := by
  refine (convert_rows conv src dst hne dim n m h1.has h2).leaves hi (inRow_mk hj) ?_
  refine wp_fill (fun k => conv (data (i * dim + k))) (fun k m' hk a => wp_rd (v := data (i * dim + k)) ?_ (wp_wrl ?_ rfl))
    fun r h _ => h j hj
  · rw [a _ fun x hx => loc_ne hne.symm]; exact h1 _ (row_bound hi hk)
  · rw [a _ fun x hx => off_ne hx]; exact h2 _ (row_bound hi hk)

example : LoopLeaves (arrMem [("src", [1, 2, 3, 4]), ("dst", [0, 0, 0, 0])]) (iters 2 (convertIter (· + 10) "src" "dst" 2)) fun M => M ⟨"dst", 2, 0⟩ = some 13 :=
  C91_convert_value (· + 10) "src" "dst" (by decide) 2 2 _ _ (holds_arrMem (by decide)) (hasArr_arrMem (by decide)) 1 0 (by decide) (by decide)

theorem C91_l2sq_value (dot : List Nat → List Nat → Nat) (dim n : Nat) (m : Mem Nat) (data : Nat → Nat)
    (h1 : Holds m "matrix" (n * dim) data) (h2 : HasArr m "points_l2sq" n) (i : Nat) (hi : i < n) :
    LoopLeaves m (iters n (l2sqIter dot dim)) fun M =>
      M ⟨"points_l2sq", i, 0⟩ = some (dot (rowOf data dim i) (rowOf data dim i)) := by
  refine (l2sq_rows dot dim n m h1.has h2).leaves hi inRow_one ?_
  exact wp_row (fun j hj => h1 _ (row_bound hi hj)) (wp_row (fun j hj => h1 _ (row_bound hi hj)) (wp_wrl (h2 i hi) upd_self))

example : LoopLeaves (arrMem [("matrix", [1, 2, 3, 4]), ("points_l2sq", [0, 0])]) (iters 2 (l2sqIter (fun x y => (List.zipWith (· * ·) x y).sum) 2)) fun M => M ⟨"points_l2sq", 1, 0⟩ = some 25 :=
  C91_l2sq_value (fun x y => (List.zipWith (· * ·) x y).sum) 2 2 _ _ (holds_arrMem (by decide)) (hasArr_arrMem (by decide)) 1 (by decide)

theorem C91_norms_value (add mul : Nat → Nat → Nat) (sqrt : Nat → Nat) (dim n : Nat) (m : Mem Nat) (data ns : Nat → Nat)
    (h1 : Holds m "data" (n * dim) data) (h2 : Holds m "norms" n ns) (i : Nat) (hi : i < n) :
    LoopLeaves m (iters n (normIter add mul sqrt dim)) fun M =>
      M ⟨"norms", i, 0⟩ = some (sqrt (((rowOf data dim i).map fun x => mul x x).foldl add (ns i))) := by
  refine (norms_rows add mul sqrt dim n m h1.has h2.has).leaves hi inRow_one ?_
  refine wp_bind (wp_forN (fun k m' => (∀ l, l ≠ ⟨"norms", i, 0⟩ → m' l = m l) ∧ m' ⟨"norms", i, 0⟩ =
    some (((List.range k).map fun j => mul (data (i * dim + j)) (data (i * dim + j))).foldl add (ns i)))
    ⟨fun _ _ => rfl, h2 i hi⟩ ?_ fun m' h => ?_)
  · rintro j m' hj ⟨a1, a2⟩
    have e2 : m' ⟨"data", i * dim + j, 0⟩ = some (data (i * dim + j)) := by
      rw [a1 _ (loc_ne (by decide))]; exact h1 _ (row_bound hi hj)
    refine wp_rd e2 (wp_rd e2 (wp_rd a2 (wp_wrl ⟨_, a2⟩ ⟨?_, ?_⟩)))
    · intro l hl; rw [upd_ne hl]; exact a1 l hl
    · rw [upd_self, List.range_succ, List.map_append, List.foldl_append]; rfl
  · refine wp_rd h.2 (wp_wrl ⟨_, h.2⟩ ?_)
    rw [upd_self, rowOf, List.map_map]; rfl

example : LoopLeaves (arrMem [("data", [3, 4, 6, 8]), ("norms", [0, 0])]) (iters 2 (normIter (· + ·) (· * ·) (· / 5) 2)) fun M => M ⟨"norms", 1, 0⟩ = some 20 :=
  C91_norms_value (· + ·) (· * ·) (· / 5) 2 2 _ _ _ (holds_arrMem (by decide)) (holds_arrMem (by decide)) 1 (by decide)

theorem C91_normalize_value (add mul div : Nat → Nat → Nat) (sqrt : Nat → Nat) (z dim n : Nat) (m : Mem Nat) (data : Nat → Nat)
    (h1 : Holds m "data" (n * dim) data) (i d : Nat) (hi : i < n) (hd : d < dim) :
    LoopLeaves m (iters n (normalizeIter add mul div sqrt z dim)) fun M =>
      M ⟨"data", i * dim + d, 0⟩ =
        some (div (data (i * dim + d)) (sqrt (((rowOf data dim i).map fun x => mul x x).foldl add z))) := by
  refine (normalize_rows add mul div sqrt z dim n m h1.has).leaves hi (inRow_mk hd) ?_
  refine wp_bind (wp_loop (fun k s m' => m' = m ∧ s =
    ((List.range k).map fun j => mul (data (i * dim + j)) (data (i * dim + j))).foldl add z) ⟨rfl, rfl⟩ ?_ ?_)
  · rintro j s m' - hj ⟨rfl, rfl⟩
    have e2 : m' ⟨"data", i * dim + j, 0⟩ = some (data (i * dim + j)) := h1 _ (row_bound hi (by omega))
    refine wp_rd e2 (wp_rd e2 (wp_ret ⟨rfl, ?_⟩))
    rw [List.range_succ, List.map_append, List.foldl_append]; rfl
  · rintro s m' ⟨rfl, rfl⟩
    refine wp_fill (fun j => div (data (i * dim + j)) (sqrt (((rowOf data dim i).map fun x => mul x x).foldl add z)))
      (fun j m1 hj a => wp_rd (v := data (i * dim + j)) ?_ (wp_wrl ?_ ?_)) fun r h _ => h d hd
    · rw [a _ fun x hx => off_ne hx]; exact h1 _ (row_bound hi hj)
    · rw [a _ fun x hx => off_ne hx]; exact ⟨_, h1 _ (row_bound hi hj)⟩
    · rw [Nat.zero_add, rowOf, List.map_map]; rfl

example : LoopLeaves (arrMem [("data", [30, 40, 60, 80])]) (iters 2 (normalizeIter (· + ·) (· * ·) (· / ·) (· / 500) 0 2)) fun M => M ⟨"data", 3, 0⟩ = some 4 :=
  C91_normalize_value (· + ·) (· * ·) (· / ·) (· / 500) 0 2 2 _ _ (holds_arrMem (by decide)) 1 1 (by decide) (by decide)

theorem C91_relng_value (prune : List (List Nat) → Nat → List Nat) (n dim : Nat) (m : Mem Nat) (data : Nat → Nat)
    (h1 : Holds m "data" (n * dim) data) (h2 : Holds m "out_nbrs.size" n fun _ => 0)
    (h3 : ∀ v, v < n → ∀ x, ∃ y, m ⟨"out_nbrs", v, x⟩ = some y) (v : Nat) (hv : v < n) :
    LoopLeaves m (iters n (relngIter prune n dim)) fun M =>
      let res := prune ((List.range n).map (rowOf data dim)) v
      M ⟨"out_nbrs.size", v, 0⟩ = some res.length ∧ ∀ x, x < res.length → M ⟨"out_nbrs", v, x⟩ = res[x]? := by
  intro sched c hr hd
  have key : Wp (relngIter prune n dim v) m fun _ r =>
      r ⟨"out_nbrs.size", v, 0⟩ = some (prune ((List.range n).map (rowOf data dim)) v).length ∧
      ∀ x, x < (prune ((List.range n).map (rowOf data dim)) v).length →
        r ⟨"out_nbrs", v, x⟩ = (prune ((List.range n).map (rowOf data dim)) v)[x]? := by
    refine wp_bind (wp_loop (fun k s m' => m' = m ∧ s = (List.range k).map (rowOf data dim)) ⟨rfl, rfl⟩ ?_ ?_)
    · rintro j s m' - hj ⟨rfl, rfl⟩
      refine wp_row (fun x hx => h1 _ (row_bound (show j < n by omega) hx)) (wp_ret ⟨rfl, ?_⟩)
      rw [List.range_succ, List.map_append]; rfl
    · rintro s m' ⟨rfl, rfl⟩
      rw [Nat.zero_add]
      generalize prune ((List.range n).map (rowOf data dim)) v = res
      refine wp_forN (fun k m1 => m1 ⟨"out_nbrs.size", v, 0⟩ = some k ∧ (∀ x, ∃ y, m1 ⟨"out_nbrs", v, x⟩ = some y) ∧
        ∀ x, x < k → m1 ⟨"out_nbrs", v, x⟩ = res[x]?) ⟨h2 v hv, h3 v hv, fun _ h => absurd h (Nat.not_lt_zero _)⟩ ?_ fun m1 h => ⟨h.1, h.2.2⟩
      rintro j m1 hj ⟨a1, a2, a3⟩
      refine wp_rd a1 (wp_wr (a2 j) (wp_wrl ⟨j, ?_⟩ ⟨upd_self, fun x => ?_, fun x hx => ?_⟩))
      · rw [upd_ne (loc_ne (by decide))]; exact a1
      · rw [upd_ne (loc_ne (by decide))]
        by_cases e : x = j
        · subst e; exact ⟨_, upd_self⟩
        · rw [upd_ne (by simpa using e)]; exact a2 x
      · rw [upd_ne (loc_ne (by decide))]
        by_cases e : x = j
        · subst e; rw [upd_self, List.getD_eq_getElem?_getD, List.getElem?_eq_getElem hj]; rfl
        · rw [upd_ne (by simpa using e)]; exact a3 x (by omega)
  refine ⟨(relng_rows prune n dim m h1.has h2.has h3).leaves hv (.inr ⟨rfl, rfl, rfl⟩) (wp_mono key fun _ _ h => h.1) sched c hr hd,
    fun x hx => (relng_rows prune n dim m h1.has h2.has h3).leaves hv (.inl ⟨rfl, rfl⟩) (wp_mono key fun _ _ h => h.2 x hx) sched c hr hd⟩

example : LoopLeaves exNbrs (iters 2 (relngIter (fun rows v => [1 - v, (rows.getD v []).sum]) 2 2)) fun M =>
    M ⟨"out_nbrs.size", 1, 0⟩ = some 2 ∧ M ⟨"out_nbrs", 1, 1⟩ = some 7 := by
  intro sched c hr hd
  have H := C91_relng_value (fun rows v => [1 - v, (rows.getD v []).sum]) 2 2 exNbrs (fun x => x + 1) ?_ ?_
    (fun v _ x => ⟨0, by simp [exNbrs]⟩) 1 (by decide) sched c hr hd
  · exact ⟨H.1, H.2 1 (by decide)⟩
  · intro x hx
    obtain rfl | rfl | rfl | rfl : x = 0 ∨ x = 1 ∨ x = 2 ∨ x = 3 := by omega
    all_goals rfl
  · intro x hx
    obtain rfl | rfl : x = 0 ∨ x = 1 := by omega
    all_goals rfl

/-- The heap after the first `k` points, then the rest. -/
def knnHeap {S : Type} (empty : S) (push : S → Nat → Nat → S) (above : S → Nat → Bool) (trim : S → S) (npoints k : Nat)
    (d : Nat → Nat) : S :=
  (List.range' k (npoints - k)).foldl (fun s p => trim (if above s (d p) then push s p (d p) else s))
    ((List.range k).foldl (fun s p => push s p (d p)) empty)

/-- The rows of `exact_knn` hold the heap from its last element to its first. -/
theorem C91_knn_value {S : Type} (empty : S) (push : S → Nat → Nat → S) (above : S → Nat → Bool) (trim : S → S)
    (top : S → Nat × Nat) (pop : S → S) (npoints k qb n : Nat) (hk : k ≤ npoints) (m : Mem Nat) (dist : Nat → Nat)
    (h1 : Holds m "dist_matrix" (n * npoints) dist) (h2 : HasArr m "closest_points" ((qb + n) * k))
    (h3 : HasArr m "dist_closest_points" ((qb + n) * k)) (t l : Nat) (ht : t < n) (hl : l < k) :
    LoopLeaves m (iters n (knnIter empty push above trim top pop npoints k qb)) fun M =>
      let h := Nat.repeat pop l (knnHeap empty push above trim npoints k fun p => dist (t * npoints + p))
      M ⟨"closest_points", (qb + t) * k + (k - 1 - l), 0⟩ = some (top h).1 ∧
      M ⟨"dist_closest_points", (qb + t) * k + (k - 1 - l), 0⟩ = some (top h).2 := by
  have key : Wp (knnIter empty push above trim top pop npoints k qb t) m fun _ r => ∀ l, l < k →
      r ⟨"closest_points", (qb + t) * k + (k - 1 - l), 0⟩ =
        some (top (Nat.repeat pop l (knnHeap empty push above trim npoints k fun p => dist (t * npoints + p)))).1 ∧
      r ⟨"dist_closest_points", (qb + t) * k + (k - 1 - l), 0⟩ =
        some (top (Nat.repeat pop l (knnHeap empty push above trim npoints k fun p => dist (t * npoints + p)))).2 := by
    have hd : ∀ p, p < npoints → m ⟨"dist_matrix", p + t * npoints, 0⟩ = some (dist (t * npoints + p)) := fun p hp => by
      rw [Nat.add_comm]; exact h1 _ (row_bound ht hp)
    refine wp_bind (wp_loop (fun j s m' => m' = m ∧ s = (List.range j).foldl (fun s p => push s p (dist (t * npoints + p))) empty)
      ⟨rfl, rfl⟩ ?_ ?_)
    · rintro j s m' - hj ⟨rfl, rfl⟩
      refine wp_rd (hd j (by omega)) (wp_ret ⟨rfl, ?_⟩)
      rw [List.range_succ, List.foldl_append]; rfl
    rintro s m' ⟨rfl, rfl⟩
    rw [Nat.zero_add]
    refine wp_bind (wp_loop (fun j s m1 => m1 = m' ∧ s =
      (List.range' k (j - k)).foldl (fun s p => trim (if above s (dist (t * npoints + p)) then push s p (dist (t * npoints + p)) else s))
        ((List.range k).foldl (fun s p => push s p (dist (t * npoints + p))) empty)) ⟨rfl, by simp⟩ ?_ ?_)
    · rintro j s m1 hkj hj ⟨rfl, hs⟩
      have e : (List.range' k (j + 1 - k)).foldl (fun s p => trim (if above s (dist (t * npoints + p)) then push s p (dist (t * npoints + p)) else s))
          ((List.range k).foldl (fun s p => push s p (dist (t * npoints + p))) empty) =
          trim (if above s (dist (t * npoints + j)) then push s j (dist (t * npoints + j)) else s) := by
        rw [show j + 1 - k = (j - k) + 1 by omega, List.range'_concat, List.foldl_append, ← hs]
        simp only [List.foldl_cons, List.foldl_nil]
        rw [show k + 1 * (j - k) = j by omega]
      refine wp_rd (hd j (by omega)) ?_
      split
      · rename_i ha
        refine wp_rd (hd j (by omega)) (wp_ret ⟨rfl, ?_⟩)
        rw [e, if_pos ha]
      · rename_i ha
        refine wp_ret ⟨rfl, ?_⟩
        rw [e, if_neg ha]
    rintro s m1 ⟨rfl, rfl⟩
    rw [show k + (npoints - k) - k = npoints - k by omega]
    show Wp (Par.bind _ _) m1 _
    change Wp (Par.bind (Par.loop _ k 0 (knnHeap empty push above trim npoints k fun p => dist (t * npoints + p))) _) m1 _
    generalize knnHeap empty push above trim npoints k (fun p => dist (t * npoints + p)) = h0
    have hb : ∀ l, l < k → (qb + t) * k + (k - 1 - l) < (qb + n) * k := fun l hl => row_bound (by omega) (by omega)
    refine wp_bind (wp_loop (fun j s m2 => s = Nat.repeat pop j h0 ∧ HasArr m2 "closest_points" ((qb + n) * k) ∧
      HasArr m2 "dist_closest_points" ((qb + n) * k) ∧ ∀ l, l < j →
        m2 ⟨"closest_points", (qb + t) * k + (k - 1 - l), 0⟩ = some (top (Nat.repeat pop l h0)).1 ∧
        m2 ⟨"dist_closest_points", (qb + t) * k + (k - 1 - l), 0⟩ = some (top (Nat.repeat pop l h0)).2)
      ⟨rfl, h2, h3, fun _ h => absurd h (Nat.not_lt_zero _)⟩ ?_ ?_)
    · rintro j s m2 - hj ⟨rfl, a2, a3, a4⟩
      have hj' : j < k := by omega
      rw [Nat.add_comm (k - 1 - j)]
      refine wp_wr (a2 _ (hb j hj')) (wp_wr ?_ (wp_ret ⟨rfl, ?_, ?_, fun l hl => ⟨?_, ?_⟩⟩))
      · rw [upd_ne (loc_ne (by decide))]; exact a3 _ (hb j hj')
      · intro x hx
        rw [upd_ne (loc_ne (by decide))]
        by_cases e : x = (qb + t) * k + (k - 1 - j)
        · subst e; exact ⟨_, upd_self⟩
        · rw [upd_ne (by simpa using e)]; exact a2 x hx
      · intro x hx
        by_cases e : x = (qb + t) * k + (k - 1 - j)
        · subst e; exact ⟨_, upd_self⟩
        · rw [upd_ne (by simpa using e), upd_ne (loc_ne (by decide))]; exact a3 x hx
      · rw [upd_ne (loc_ne (by decide))]
        by_cases e : l = j
        · subst e; exact upd_self
        · rw [upd_ne (by intro h; have := congrArg Loc.i h; simp only at this; omega)]; exact (a4 l (by omega)).1
      · by_cases e : l = j
        · subst e; exact upd_self
        · rw [upd_ne (by intro h; have := congrArg Loc.i h; simp only at this; omega), upd_ne (loc_ne (by decide))]
          exact (a4 l (by omega)).2
    · rintro s m2 ⟨rfl, -, -, a4⟩
      rw [Nat.zero_add] at a4
      exact wp_ret a4
  intro sched c hr hd
  exact ⟨(knn_rows empty push above trim top pop npoints k qb n hk m h1.has h2 h3).leaves ht (.inl (inRow_mk (by omega)))
      (wp_mono key fun _ _ h => (h l hl).1) sched c hr hd,
    (knn_rows empty push above trim top pop npoints k qb n hk m h1.has h2 h3).leaves ht (.inr (inRow_mk (by omega)))
      (wp_mono key fun _ _ h => (h l hl).2) sched c hr hd⟩

example : LoopLeaves (arrMem [("dist_matrix", [5, 3, 4, 1, 2, 7]), ("closest_points", [9, 9, 0, 0]), ("dist_closest_points", [9, 9, 0, 0])])
      (iters 2 (knnIter ([] : List (Nat × Nat)) (fun s p d => (p, d) :: s) (fun s d => s.any (d < ·.2))
        (fun s => s.filter fun x => s.all (x.2 ≤ ·.2)) (fun s => s.headD (0, 0)) List.tail 3 1 1)) fun M =>
    M ⟨"closest_points", 1, 0⟩ = some 1 ∧ M ⟨"dist_closest_points", 1, 0⟩ = some 3 :=
  C91_knn_value _ _ _ _ _ _ 3 1 1 2 (by decide) _ _ (holds_arrMem (by decide)) (hasArr_arrMem (by decide))
    (hasArr_arrMem (by decide)) 0 0 (by decide) (by decide)

end Grann
