import Verif.Model.ParLoops
import Verif.Proofs.ParFor
import Verif.Proofs.ParAssign
import Verif.Proofs.ParDrive
/-!
# C91: the parallel loops have no data race and compute what the serial loops compute
-/

namespace Grann

open Par

/-! ## What is claimed -/

/-- The array has (at least) `n` elements. -/
def HasArr {W : Type} (m : Mem W) (arr : String) (n : Nat) : Prop := ∀ x, x < n → ∃ v, m ⟨arr, x, 0⟩ = some v

/-- The same, and the elements satisfy `P`. -/
def HasArrOf {W : Type} (m : Mem W) (arr : String) (n : Nat) (P : W → Prop) : Prop :=
  ∀ x, x < n → ∃ v, m ⟨arr, x, 0⟩ = some v ∧ P v

/-- Whatever the scheduler does: nothing undefined happens, no two iterations are ever about to access the same element
with one of them storing, and the loop can be completed. -/
def RaceFree {W : Type} (m : Mem W) (ps : List (Par W Unit)) : Prop :=
  ∀ sched, ∃ c, Cfg.run sched (Cfg.start m ps) = .ok c ∧ ¬ c.Racy ∧ ∃ sched' c', Cfg.run sched' c = .ok c' ∧ c'.Done

/-- Race-free, and every completed execution leaves the memory that the serial loop leaves. -/
def RunsAsSerial {W : Type} (m : Mem W) (ps : List (Par W Unit)) : Prop :=
  RaceFree m ps ∧ ∃ F, serialLoop ps m = .ok F ∧
    ∀ sched c, Cfg.run sched (Cfg.start m ps) = .ok c → c.Done → c.mem = F

/-! ## Iterations that write elements of their own -/

/-- `own i` is written by iteration `i` only, `ins` by nobody. -/
def rowDisc {W : Type} (own : Nat → Loc → Prop) (ins : Loc → Prop) (inv : Loc → W → Prop) : Disc W where
  acc i l := own i l ∨ ins l
  own := own
  inv := inv

/-- Row `i` of an array with rows of length `w`. -/
def InRow (arr : String) (w i : Nat) (l : Loc) : Prop := l.arr = arr ∧ i * w ≤ l.i ∧ l.i < (i + 1) * w ∧ l.j = 0

theorem InRow.unique {arr : String} {w i j : Nat} {l : Loc} (h : InRow arr w i l) (h' : InRow arr w j l) : i = j := by
  obtain ⟨-, h1, h2, -⟩ := h
  obtain ⟨-, h3, h4, -⟩ := h'
  have a : i * w < (j + 1) * w := Nat.lt_of_le_of_lt h1 h4
  have b : j * w < (i + 1) * w := Nat.lt_of_le_of_lt h3 h2
  have a' := Nat.lt_of_mul_lt_mul_right a
  have b' := Nat.lt_of_mul_lt_mul_right b
  omega

theorem inRow_mk {arr : String} {w i j : Nat} (h : j < w) : InRow arr w i ⟨arr, i * w + j, 0⟩ :=
  ⟨rfl, by simp, by simp only [Nat.add_mul]; omega, rfl⟩

theorem inRow_one {arr : String} {i : Nat} : InRow arr 1 i ⟨arr, i, 0⟩ := ⟨rfl, by simp, by simp, rfl⟩

theorem InRow.lt {arr : String} {w i n : Nat} {l : Loc} (h : InRow arr w i l) (hi : i < n) : l.i < n * w :=
  Nat.lt_of_lt_of_le h.2.2.1 (Nat.mul_le_mul_right w hi)

theorem iters_get {W : Type} {n i : Nat} {body : Nat → Par W Unit} {p : Par W Unit} (h : (iters n body)[i]? = some p) :
    i < n ∧ p = body i := by
  simp only [iters, List.getElem?_map] at h
  rcases Nat.lt_or_ge i n with hi | hi
  · rw [List.getElem?_range hi] at h
    exact ⟨hi, by simpa using h.symm⟩
  · rw [List.getElem?_eq_none (by simpa using hi)] at h; simp at h

/-- Besides, the elements of iteration `i` get the values that the iteration computes on its own. -/
def RowLoop {W : Type} (own : Nat → Loc → Prop) (m : Mem W) (n : Nat) (body : Nat → Par W Unit) : Prop :=
  RunsAsSerial m (iters n body) ∧ ∀ F, serialLoop (iters n body) m = .ok F → ∀ i, i < n →
    ∃ r, (body i).solo m = .ok ((), r) ∧ ∀ l, own i l → F l = r l

theorem row_serial {W : Type} {own : Nat → Loc → Prop} {ins : Loc → Prop} {inv : Loc → W → Prop} {n : Nat}
    {body : Nat → Par W Unit} {m : Mem W} (h1 : ∀ i j l, own i l → own j l → i = j) (h2 : ∀ i l, own i l → ¬ ins l)
    (h3 : ∀ l, ins l → ∃ v, m l = some v ∧ inv l v) (h4 : ∀ i l, i < n → own i l → ∃ v, m l = some v ∧ inv l v)
    (h5 : ∀ i, i < n → (body i).Obeys (rowDisc own ins inv) i false EndsFree) : RowLoop own m n body := by
  have hA : (rowDisc own ins inv).Apart := by
    refine ⟨fun i l h => .inl h, ?_, fun _ _ _ h => h.elim, fun _ h => h.elim⟩
    intro i j l hij ho ha
    rcases ha with h | h
    · exact hij (h1 i j l ho h)
    · exact h2 i l ho h
  have hs : ∀ l, ¬ (rowDisc own ins inv).slack l := fun _ h => h.elim
  have hl : ¬ (rowDisc own ins inv).locks := fun h => h.elim
  have hlen : (iters n body).length = n := by simp [iters]
  have hm : (rowDisc own ins inv).MemOK (iters n body).length m := by
    rw [hlen]
    rintro l (⟨i, hi, h | h⟩ | h)
    · exact h4 i l hi h
    · exact h3 l h
    · exact h.elim
  have hp : ∀ (i : Nat) (p : Par W Unit), (iters n body)[i]? = some p → p.Obeys (rowDisc own ins inv) i false EndsFree := by
    intro i p h
    obtain ⟨hi, rfl⟩ := iters_get h
    exact h5 i hi
  refine ⟨⟨fun sched => ?_, Disc.deterministic hA hs hl hm hp⟩, fun F hF i hi => ?_⟩
  rotate_left
  · obtain ⟨F', hF', h6, -⟩ := Disc.serial_spec hA hs hl (iters n body) 0 (by omega) hm (by simpa using hp)
    rw [hF] at hF'
    cases hF'
    obtain ⟨r, e1, e2⟩ := h6 i (body i) (by simp [iters, List.getElem?_map, List.getElem?_range hi])
    exact ⟨r, e1, fun l hl => (e2 l (by rw [Nat.zero_add]; exact hl)).symm⟩
  obtain ⟨c, hc, hg⟩ := Disc.good_run hA sched (Disc.good_start hm hp)
  obtain ⟨s', c', h, -, hd⟩ := Disc.good_ends hA hg
  exact ⟨c, hc, Disc.good_no_race hA hs hg, s', c', h, hd⟩

section
variable {W α β : Type} {own : Nat → Loc → Prop} {ins : Loc → Prop} {inv : Loc → W → Prop} {i : Nat}

theorem ob_ret {Q : α → Bool → Prop} {a : α} (h : Q a false) : (Par.ret a : Par W α).Obeys (rowDisc own ins inv) i false Q := h

theorem ob_rd {Q : α → Bool → Prop} {l : Loc} {f : W → Par W α} (h : own i l ∨ ins l)
    (hf : ∀ v, inv l v → (f v).Obeys (rowDisc own ins inv) i false Q) :
    ((rdAt l).bind f).Obeys (rowDisc own ins inv) i false Q := ⟨.inl (.inl h), hf⟩

theorem ob_rdl {Q : W → Bool → Prop} {l : Loc} (h : own i l ∨ ins l) (hf : ∀ v, inv l v → Q v false) :
    (rdAt l).Obeys (rowDisc own ins inv) i false Q := ⟨.inl (.inl h), hf⟩

theorem ob_wr {Q : α → Bool → Prop} {l : Loc} {v : W} {f : Unit → Par W α} (h : own i l) (hv : inv l v)
    (hf : (f ()).Obeys (rowDisc own ins inv) i false Q) : ((wrAt l v).bind f).Obeys (rowDisc own ins inv) i false Q :=
  ⟨.inl h, hv, hf⟩

theorem ob_wrl {Q : Unit → Bool → Prop} {l : Loc} {v : W} (h : own i l) (hv : inv l v) (hf : Q () false) :
    (wrAt l v).Obeys (rowDisc own ins inv) i false Q := ⟨.inl h, hv, hf⟩

theorem ob_loop {σ : Type} {Q : α → Bool → Prop} {g : Nat → σ → Par W σ} {f : σ → Par W α} {n a : Nat} {s : σ}
    (hg : ∀ j s, a ≤ j → j < a + n → (g j s).Obeys (rowDisc own ins inv) i false fun _ b => b = false)
    (hf : ∀ s, (f s).Obeys (rowDisc own ins inv) i false Q) :
    ((loop g n a s).bind f).Obeys (rowDisc own ins inv) i false Q := by
  refine Par.obeys_bind _ _ _ _ _ _ (Par.obeys_mono _ _ _ _ (Par.obeys_loop _ i g (fun _ _ => True) n a s trivial
    fun j s h1 h2 _ => Par.obeys_mono _ _ _ _ (hg j s h1 h2) fun _ _ h => ⟨h, trivial⟩) ?_)
  rintro s b ⟨rfl, -⟩
  exact hf s

theorem ob_forN {g : Nat → Par W Unit} {n : Nat}
    (hg : ∀ j, j < n → (g j).Obeys (rowDisc own ins inv) i false EndsFree) :
    (forN n g).Obeys (rowDisc own ins inv) i false EndsFree := by
  refine Par.obeys_mono _ _ _ _ (Par.obeys_loop _ i _ (fun _ _ => True) n 0 () trivial
    fun j s _ h2 _ => Par.obeys_mono _ _ _ _ (hg j (by omega)) fun _ _ h => ⟨h, trivial⟩) ?_
  rintro s b ⟨rfl, -⟩
  rfl

theorem ob_forN_bind {Q : α → Bool → Prop} {g : Nat → Par W Unit} {f : Unit → Par W α} {n : Nat}
    (hg : ∀ j, j < n → (g j).Obeys (rowDisc own ins inv) i false EndsFree)
    (hf : (f ()).Obeys (rowDisc own ins inv) i false Q) : ((forN n g).bind f).Obeys (rowDisc own ins inv) i false Q := by
  refine Par.obeys_bind _ _ _ _ _ _ (Par.obeys_mono _ _ _ _ (ob_forN hg) ?_)
  rintro ⟨⟩ b rfl
  exact hf

theorem ob_row {Q : α → Bool → Prop} {arr : String} {start n : Nat} {f : List W → Par W α}
    (h : ∀ j, j < n → own i ⟨arr, start + j, 0⟩ ∨ ins ⟨arr, start + j, 0⟩)
    (hf : ∀ row, (f row).Obeys (rowDisc own ins inv) i false Q) :
    ((loadRow arr start n).bind f).Obeys (rowDisc own ins inv) i false Q := by
  refine ob_loop (fun j s _ h2 => ob_rd (h j (by omega)) fun v _ => rfl) hf

end

/-- The elements of an input array. -/
def InArr (arr : String) (n : Nat) (l : Loc) : Prop := l.arr = arr ∧ l.i < n ∧ l.j = 0

theorem HasArr.elem {W : Type} {m : Mem W} {arr : String} {n : Nat} (h : HasArr m arr n) {l : Loc} (hl : InArr arr n l) :
    ∃ v, m l = some v ∧ True := by
  obtain ⟨v, hv⟩ := h l.i hl.2.1
  obtain ⟨a, x, y⟩ := l
  obtain ⟨rfl, -, rfl⟩ := hl
  exact ⟨v, hv, trivial⟩

theorem HasArr.row {W : Type} {m : Mem W} {arr : String} {n w i : Nat} (h : HasArr m arr (n * w)) {l : Loc} (hi : i < n)
    (hl : InRow arr w i l) : ∃ v, m l = some v ∧ True :=
  h.elem ⟨hl.1, hl.lt hi, hl.2.2.2⟩

theorem elem_ne {a b : String} {n w i : Nat} {l : Loc} (hab : a ≠ b) (h : InRow a w i l) : ¬ InArr b n l :=
  fun h' => hab (h.1.symm.trans h'.1)

/-- An array whose elements are not restricted. -/
theorem HasArr.elem' {m : Mem Nat} {arr A : String} {n : Nat} {P : Nat → Prop} (h : HasArr m arr n) (hne : arr ≠ A) {l : Loc}
    (hl : InArr arr n l) : ∃ v, m l = some v ∧ (l.arr = A → P v) := by
  obtain ⟨v, hv, -⟩ := h.elem hl
  exact ⟨v, hv, fun e => absurd (hl.1.symm.trans e) hne⟩

theorem HasArrOf.elem {m : Mem Nat} {arr : String} {n : Nat} {P : Nat → Prop} (h : HasArrOf m arr n P) {l : Loc}
    (hl : InArr arr n l) : ∃ v, m l = some v ∧ (l.arr = arr → P v) := by
  obtain ⟨v, hv, hp⟩ := h l.i hl.2.1
  obtain ⟨a, x, y⟩ := l
  obtain ⟨rfl, -, rfl⟩ := hl
  exact ⟨v, hv, fun _ => hp⟩

theorem elem_mk {arr : String} {n w i j : Nat} (hi : i < n) (hj : j < w) : InArr arr (n * w) ⟨arr, i * w + j, 0⟩ :=
  ⟨rfl, (inRow_mk (arr := arr) hj).lt hi, rfl⟩

/-! ## The loops -/

/-! ## Memories for the examples -/

/-- A memory with the given arrays. -/
def arrMem (a : List (String × List Nat)) : Mem Nat := fun l => if l.j = 0 then ((a.lookup l.arr).getD [])[l.i]? else none

theorem hasArr_arrMem {a : List (String × List Nat)} {arr : String} {n : Nat}
    (h : n ≤ ((a.lookup arr).getD []).length) : HasArr (arrMem a) arr n := by
  intro x hx
  exact ⟨_, by simp only [arrMem, if_true]; exact List.getElem?_eq_getElem (Nat.lt_of_lt_of_le hx h)⟩

theorem hasArrOf_arrMem {a : List (String × List Nat)} {arr : String} {n : Nat} {P : Nat → Prop}
    (h : n ≤ ((a.lookup arr).getD []).length) (hP : ∀ v ∈ (a.lookup arr).getD [], P v) : HasArrOf (arrMem a) arr n P := by
  intro x hx
  exact ⟨_, by simp only [arrMem, if_true]; exact List.getElem?_eq_getElem (Nat.lt_of_lt_of_le hx h), hP _ (List.getElem_mem _)⟩

/-- The first elements of an array after the serial loop. -/
def after (ps : List (Par Nat Unit)) (m : Mem Nat) (arr : String) (n : Nat) : Option (List (Option Nat)) :=
  match serialLoop ps m with
  | .ok F => some ((List.range n).map fun x => F ⟨arr, x, 0⟩)
  | .error _ => none

/-- `compute_vecs_l2sq` (src/math_utils.cpp:23-31). -/
theorem vecs_l2sq_rows (nrm : List Nat → Nat) (mul : Nat → Nat → Nat) (dim n : Nat) (m : Mem Nat)
    (h1 : HasArr m "data" (n * dim)) (h2 : HasArr m "vecs_l2sq" n) :
    RowLoop (InRow "vecs_l2sq" 1) m n (vecsL2sqIter nrm mul dim) := by
  rw [← Nat.mul_one n] at h2
  refine row_serial (own := InRow "vecs_l2sq" 1) (ins := InArr "data" (n * dim)) (inv := fun _ _ => True)
    (fun _ _ _ => InRow.unique) (fun _ l h => elem_ne (by decide) h) (fun l h => h1.elem h)
    (fun i l hi h => h2.row hi h) fun i hi => ?_
  refine ob_row (fun j hj => .inr (elem_mk hi hj)) fun row => ?_
  refine ob_wr inRow_one trivial ?_
  exact ob_rd (.inl inRow_one) fun a _ => ob_rd (.inl inRow_one) fun b _ => ob_wrl inRow_one trivial rfl

/-- `compute_vecs_l2sq` (src/math_utils.cpp:23-31). -/
theorem C91_vecs_l2sq (nrm : List Nat → Nat) (mul : Nat → Nat → Nat) (dim n : Nat) (m : Mem Nat)
    (h1 : HasArr m "data" (n * dim)) (h2 : HasArr m "vecs_l2sq" n) :
    RunsAsSerial m (iters n (vecsL2sqIter nrm mul dim)) :=
  (vecs_l2sq_rows nrm mul dim n m h1 h2).1

example : RunsAsSerial (arrMem [("data", [1, 2, 3, 4]), ("vecs_l2sq", [0, 0])]) (iters 2 (vecsL2sqIter List.sum (· * ·) 2)) ∧
    after (iters 2 (vecsL2sqIter List.sum (· * ·) 2)) (arrMem [("data", [1, 2, 3, 4]), ("vecs_l2sq", [0, 0])]) "vecs_l2sq" 3 = some [some 9, some 49, none] :=
  ⟨C91_vecs_l2sq List.sum (· * ·) 2 2 _ (hasArr_arrMem (by decide)) (hasArr_arrMem (by decide)), by decide +kernel⟩

/-- The closest center of every point of a block, `k == 1` (src/math_utils.cpp:95-106). -/
theorem nearest_rows (lt : Nat → Nat → Bool) (big nc n : Nat) (m : Mem Nat)
    (h1 : HasArr m "dist_matrix" (n * nc)) (h2 : HasArr m "center_ids" n) :
    RowLoop (InRow "center_ids" 1) m n (nearestIter lt big nc) := by
  rw [← Nat.mul_one n] at h2
  refine row_serial (own := InRow "center_ids" 1) (ins := InArr "dist_matrix" (n * nc)) (inv := fun _ _ => True)
    (fun _ _ _ => InRow.unique) (fun _ l h => elem_ne (by decide) h) (fun l h => h1.elem h)
    (fun i l hi h => h2.row hi h) fun i hi => ?_
  refine ob_loop (fun j s _ hj => ?_) fun s => rfl
  have hj' : j < nc := by omega
  refine ob_rd (.inr (elem_mk hi hj')) fun cur _ => ?_
  split
  · exact ob_wr inRow_one trivial (ob_rdl (.inr (elem_mk hi hj')) fun _ _ => rfl)
  · rfl

/-- The closest center of every point of a block, `k == 1` (src/math_utils.cpp:95-106). -/
theorem C91_nearest (lt : Nat → Nat → Bool) (big nc n : Nat) (m : Mem Nat)
    (h1 : HasArr m "dist_matrix" (n * nc)) (h2 : HasArr m "center_ids" n) :
    RunsAsSerial m (iters n (nearestIter lt big nc)) :=
  (nearest_rows lt big nc n m h1 h2).1

example : RunsAsSerial (arrMem [("dist_matrix", [5, 3, 4, 1, 2, 7]), ("center_ids", [0, 0])]) (iters 2 (nearestIter (fun a b => decide (a < b)) 100 3)) ∧
    after (iters 2 (nearestIter (fun a b => decide (a < b)) 100 3)) (arrMem [("dist_matrix", [5, 3, 4, 1, 2, 7]), ("center_ids", [0, 0])]) "center_ids" 2 = some [some 1, some 0] :=
  ⟨C91_nearest (fun a b => decide (a < b)) 100 3 2 _ (hasArr_arrMem (by decide)) (hasArr_arrMem (by decide)), by decide +kernel⟩

/-- The `k` closest centers, `k > 1` (src/math_utils.cpp:107-121). -/
theorem nearest_k_rows (pops : List Nat → Nat → Nat) (nc k n : Nat) (m : Mem Nat)
    (h1 : HasArr m "dist_matrix" (n * nc)) (h2 : HasArr m "center_ids" (n * k)) :
    RowLoop (InRow "center_ids" k) m n (nearestKIter pops nc k) := by
  refine row_serial (own := InRow "center_ids" k) (ins := InArr "dist_matrix" (n * nc)) (inv := fun _ _ => True)
    (fun _ _ _ => InRow.unique) (fun _ l h => elem_ne (by decide) h) (fun l h => h1.elem h)
    (fun i l hi h => h2.row hi h) fun i hi => ?_
  refine ob_row (fun j hj => .inr (elem_mk hi hj)) fun row => ?_
  exact ob_forN fun j hj => ob_wrl (inRow_mk hj) trivial rfl

/-- The `k` closest centers, `k > 1` (src/math_utils.cpp:107-121). -/
theorem C91_nearest_k (pops : List Nat → Nat → Nat) (nc k n : Nat) (m : Mem Nat)
    (h1 : HasArr m "dist_matrix" (n * nc)) (h2 : HasArr m "center_ids" (n * k)) :
    RunsAsSerial m (iters n (nearestKIter pops nc k)) :=
  (nearest_k_rows pops nc k n m h1 h2).1

example : RunsAsSerial (arrMem [("dist_matrix", [5, 3, 4, 1, 2, 7]), ("center_ids", [0, 0, 0, 0])]) (iters 2 (nearestKIter (fun row j => (row.getD j 0)) 3 2)) ∧
    after (iters 2 (nearestKIter (fun row j => (row.getD j 0)) 3 2)) (arrMem [("dist_matrix", [5, 3, 4, 1, 2, 7]), ("center_ids", [0, 0, 0, 0])]) "center_ids" 4 = some [some 5, some 3, some 1, some 2] :=
  ⟨C91_nearest_k (fun row j => (row.getD j 0)) 3 2 2 _ (hasArr_arrMem (by decide)) (hasArr_arrMem (by decide)), by decide +kernel⟩

/-- The copy of block `b` to the result, without an inverted index (src/math_utils.cpp:176-189). -/
theorem assign_rows (b bs k n : Nat) (m : Mem Nat)
    (h1 : HasArr m "closest_centers" (n * k)) (h2 : HasArr m "closest_centers_ivf" ((b * bs + n) * k)) :
    RowLoop (fun t => InRow "closest_centers_ivf" k (b * bs + t)) m n (assignIter false b bs k) := by
  refine row_serial (own := fun t => InRow "closest_centers_ivf" k (b * bs + t)) (ins := InArr "closest_centers" (n * k))
    (inv := fun _ _ => True) (fun _ _ _ h h' => by have := InRow.unique h h'; omega) (fun _ l h => elem_ne (by decide) h)
    (fun l h => h1.elem h) (fun i l hi h => h2.row (by omega) h) fun i hi => ?_
  refine ob_forN fun j hj => ?_
  refine ob_rd (.inr ?_) fun c _ => ob_wr (inRow_mk hj) trivial rfl
  rw [Nat.add_sub_cancel_left]
  exact elem_mk hi hj

/-- The copy of block `b` to the result, without an inverted index (src/math_utils.cpp:176-189). -/
theorem C91_assign (b bs k n : Nat) (m : Mem Nat)
    (h1 : HasArr m "closest_centers" (n * k)) (h2 : HasArr m "closest_centers_ivf" ((b * bs + n) * k)) :
    RunsAsSerial m (iters n (assignIter false b bs k)) :=
  (assign_rows b bs k n m h1 h2).1

example : RunsAsSerial (arrMem [("closest_centers", [5, 3, 4, 1]), ("closest_centers_ivf", [9, 9, 9, 9, 0, 0, 0, 0])]) (iters 2 (assignIter false 1 2 2)) ∧
    after (iters 2 (assignIter false 1 2 2)) (arrMem [("closest_centers", [5, 3, 4, 1]), ("closest_centers_ivf", [9, 9, 9, 9, 0, 0, 0, 0])]) "closest_centers_ivf" 8 = some [some 9, some 9, some 9, some 9, some 5, some 3, some 4, some 1] :=
  ⟨C91_assign 1 2 2 2 _ (hasArr_arrMem (by decide)) (hasArr_arrMem (by decide)), by decide +kernel⟩

/-- `process_residuals` (src/math_utils.cpp:201-219), if the closest centers are centers. -/
theorem process_residuals_rows (op : Nat → Nat → Nat) (dim nc n : Nat) (m : Mem Nat)
    (h1 : HasArr m "base_data" (n * dim)) (h2 : HasArrOf m "closest_centers" n (· < nc)) (h3 : HasArr m "centers" (nc * dim)) :
    RowLoop (InRow "base_data" dim) m n (residualIter op dim) := by
  refine row_serial (own := InRow "base_data" dim)
    (ins := fun l => InArr "closest_centers" n l ∨ InArr "centers" (nc * dim) l)
    (inv := fun l v => l.arr = "closest_centers" → v < nc)
    (fun _ _ _ => InRow.unique) (fun _ l h h' => h'.elim (elem_ne (by decide) h) (elem_ne (by decide) h))
    (fun l h => h.elim (fun h => h2.elem h) fun h => h3.elem' (by decide) h)
    (fun i l hi h => h1.elem' (by decide) ⟨h.1, h.lt hi, h.2.2.2⟩) fun i hi => ?_
  refine ob_forN fun d hd => ?_
  refine ob_rd (.inl (inRow_mk hd)) fun x _ => ob_rd (.inr (.inl ⟨rfl, hi, rfl⟩)) fun c hc => ?_
  exact ob_rd (.inr (.inr (elem_mk (hc rfl) hd))) fun y _ => ob_wrl (inRow_mk hd) (fun e => absurd e (by simp)) rfl

/-- `process_residuals` (src/math_utils.cpp:201-219), if the closest centers are centers. -/
theorem C91_process_residuals (op : Nat → Nat → Nat) (dim nc n : Nat) (m : Mem Nat)
    (h1 : HasArr m "base_data" (n * dim)) (h2 : HasArrOf m "closest_centers" n (· < nc)) (h3 : HasArr m "centers" (nc * dim)) :
    RunsAsSerial m (iters n (residualIter op dim)) :=
  (process_residuals_rows op dim nc n m h1 h2 h3).1

example : RunsAsSerial (arrMem [("base_data", [5, 6, 7, 8, 9, 10]), ("closest_centers", [1, 0, 1]), ("centers", [1, 2, 3, 4])]) (iters 3 (residualIter (· - ·) 2)) ∧
    after (iters 3 (residualIter (· - ·) 2)) (arrMem [("base_data", [5, 6, 7, 8, 9, 10]), ("closest_centers", [1, 0, 1]), ("centers", [1, 2, 3, 4])]) "base_data" 6 = some [some 2, some 2, some 6, some 6, some 6, some 6] :=
  ⟨C91_process_residuals (· - ·) 2 2 3 _ (hasArr_arrMem (by decide)) (hasArrOf_arrMem (by decide) (by decide)) (hasArr_arrMem (by decide)), by decide +kernel⟩

/-- The new centers (src/math_utils.cpp:253-271): `cap c` bounds the length of the list of center `c`. -/
theorem new_centers_rows {S : Type} (zero : S) (add : S → List Nat → S) (avg : S → Nat → Nat → Nat) (dim nc n : Nat) (cap : Nat → Nat)
    (m : Mem Nat) (h1 : HasArr m "centers" (nc * dim)) (h2 : HasArr m "data" (n * dim))
    (h3 : ∀ c, c < nc → ∃ v, m ⟨"closest_docs.size", c, 0⟩ = some v ∧ v ≤ cap c)
    (h4 : ∀ c, c < nc → ∀ j, j < cap c → ∃ v, m ⟨"closest_docs", c, j⟩ = some v ∧ v < n) :
    RowLoop (InRow "centers" dim) m nc (centerIter zero add avg dim) := by
  refine row_serial (own := InRow "centers" dim)
    (ins := fun l => InArr "data" (n * dim) l ∨ InArr "closest_docs.size" nc l ∨
      (l.arr = "closest_docs" ∧ l.i < nc ∧ l.j < cap l.i))
    (inv := fun l v => (l.arr = "closest_docs" → v < n) ∧ (l.arr = "closest_docs.size" → v ≤ cap l.i))
    (fun _ _ _ => InRow.unique) ?_ ?_ ?_ fun i hi => ?_
  · rintro _ l h (h' | h' | h')
    · exact elem_ne (by decide) h h'
    · exact elem_ne (by decide) h h'
    · exact absurd (h.1.symm.trans h'.1) (by decide)
  · rintro ⟨arr, x, y⟩ (h | ⟨rfl, h, rfl⟩ | ⟨rfl, h, h'⟩)
    · obtain ⟨v, hv, -⟩ := h2.elem h
      obtain ⟨rfl, -⟩ := h
      exact ⟨v, hv, fun e => absurd e (by simp), fun e => absurd e (by simp)⟩
    · obtain ⟨v, hv, hc⟩ := h3 x h
      exact ⟨v, hv, fun e => absurd e (by simp), fun _ => hc⟩
    · obtain ⟨v, hv, hc⟩ := h4 x h y h'
      exact ⟨v, hv, fun _ => hc, fun e => absurd e (by simp)⟩
  · intro i l hi h
    obtain ⟨v, hv, -⟩ := h1.row hi h
    exact ⟨v, hv, fun e => absurd (h.1.symm.trans e) (by decide), fun e => absurd (h.1.symm.trans e) (by decide)⟩
  · refine ob_rd (.inr (.inr (.inl ⟨rfl, hi, rfl⟩))) fun size hsize => ?_
    have hs : size ≤ cap i := hsize.2 rfl
    refine ob_loop (fun j s _ hj => ?_) fun sum => ?_
    · refine ob_rd (.inr (.inr (.inr ⟨rfl, hi, by show j < cap i; omega⟩))) fun p hp => ?_
      exact ob_row (fun d hd => .inr (.inl (elem_mk (hp.1 rfl) hd))) fun row => rfl
    · split
      · exact ob_forN fun j hj => ob_wrl (inRow_mk hj) ⟨fun e => absurd e (by simp), fun e => absurd e (by simp)⟩ rfl
      · rfl

/-- The new centers (src/math_utils.cpp:253-271): `cap c` bounds the length of the list of center `c`. -/
theorem C91_new_centers {S : Type} (zero : S) (add : S → List Nat → S) (avg : S → Nat → Nat → Nat) (dim nc n : Nat) (cap : Nat → Nat)
    (m : Mem Nat) (h1 : HasArr m "centers" (nc * dim)) (h2 : HasArr m "data" (n * dim))
    (h3 : ∀ c, c < nc → ∃ v, m ⟨"closest_docs.size", c, 0⟩ = some v ∧ v ≤ cap c)
    (h4 : ∀ c, c < nc → ∀ j, j < cap c → ∃ v, m ⟨"closest_docs", c, j⟩ = some v ∧ v < n) :
    RunsAsSerial m (iters nc (centerIter zero add avg dim)) :=
  (new_centers_rows zero add avg dim nc n cap m h1 h2 h3 h4).1

/-- Two centers, the second without points. -/
def exDocs : Mem Nat := fun l =>
  if l.arr = "closest_docs" then (if l.i = 0 ∧ l.j < 2 then some (l.j + 1) else none)
  else arrMem [("centers", [0, 0, 7, 7]), ("data", [1, 2, 3, 4, 5, 6]), ("closest_docs.size", [2, 0])] l

example : RunsAsSerial exDocs (iters 2 (centerIter [0, 0] (List.zipWith (· + ·)) (fun s i n => s.getD i 0 / n) 2)) ∧
    after (iters 2 (centerIter [0, 0] (List.zipWith (· + ·)) (fun s i n => s.getD i 0 / n) 2)) exDocs "centers" 4 =
      some [some 4, some 5, some 7, some 7] := by
  refine ⟨C91_new_centers _ _ _ 2 2 3 (fun c => if c = 0 then 2 else 0) _ ?_ ?_ ?_ ?_, by decide +kernel⟩
  · intro x hx
    obtain ⟨v, hv⟩ := hasArr_arrMem (a := [("centers", [0, 0, 7, 7]), ("data", [1, 2, 3, 4, 5, 6]), ("closest_docs.size", [2, 0])]) (arr := "centers") (n := 4) (by decide) x hx
    exact ⟨v, by simpa [exDocs] using hv⟩
  · intro x hx
    obtain ⟨v, hv⟩ := hasArr_arrMem (a := [("centers", [0, 0, 7, 7]), ("data", [1, 2, 3, 4, 5, 6]), ("closest_docs.size", [2, 0])]) (arr := "data") (n := 6) (by decide) x hx
    exact ⟨v, by simpa [exDocs] using hv⟩
  · intro c hc
    obtain rfl | rfl : c = 0 ∨ c = 1 := by omega
    · exact ⟨2, rfl, by decide⟩
    · exact ⟨0, rfl, by decide⟩
  · intro c hc j hj
    obtain rfl | rfl : c = 0 ∨ c = 1 := by omega
    · have hj : j < 2 := hj
      exact ⟨j + 1, by simp [exDocs, hj], by omega⟩
    · exact absurd hj (by simp)

/-- The residuals of the chunks (src/math_utils.cpp:281-288). -/
theorem chunks_rows (dist : List Nat → List Nat → Nat) (add : Nat → Nat → Nat) (dim n chunkSize pad nc nchunks : Nat) (hpad : 0 < pad)
    (m : Mem Nat) (h1 : HasArr m "residuals" (nchunks * pad)) (h2 : HasArr m "data" (n * dim))
    (h3 : HasArrOf m "closest_center" n (· < nc)) (h4 : HasArr m "centers" (nc * dim)) :
    RowLoop (InRow "residuals" pad) m nchunks (chunkIter dist add dim n chunkSize pad) := by
  refine row_serial (own := InRow "residuals" pad)
    (ins := fun l => InArr "data" (n * dim) l ∨ InArr "closest_center" n l ∨ InArr "centers" (nc * dim) l)
    (inv := fun l v => l.arr = "closest_center" → v < nc)
    (fun _ _ _ => InRow.unique)
    (fun _ l h h' => h'.elim (elem_ne (by decide) h) fun h' => h'.elim (elem_ne (by decide) h) (elem_ne (by decide) h))
    (fun l h => h.elim (fun h => h2.elem' (by decide) h) fun h => h.elim (fun h => h3.elem h) fun h => h4.elem' (by decide) h)
    (fun i l hi h => h1.elem' (by decide) ⟨h.1, h.lt hi, h.2.2.2⟩) fun i hi => ?_
  refine ob_forN fun t ht => ?_
  have hd : i * chunkSize + t < n := by omega
  refine ob_row (fun j hj => .inr (.inl (elem_mk hd hj))) fun x => ?_
  refine ob_rd (.inr (.inr (.inl ⟨rfl, hd, rfl⟩))) fun c hc => ?_
  refine ob_row (fun j hj => .inr (.inr (.inr (elem_mk (hc rfl) hj)))) fun y => ?_
  have hr : InRow "residuals" pad i ⟨"residuals", i * pad, 0⟩ := by simpa using inRow_mk (arr := "residuals") (i := i) hpad
  exact ob_rd (.inl hr) fun r _ => ob_wrl hr (fun e => absurd e (by simp)) rfl

/-- The residuals of the chunks (src/math_utils.cpp:281-288). -/
theorem C91_chunks (dist : List Nat → List Nat → Nat) (add : Nat → Nat → Nat) (dim n chunkSize pad nc nchunks : Nat) (hpad : 0 < pad)
    (m : Mem Nat) (h1 : HasArr m "residuals" (nchunks * pad)) (h2 : HasArr m "data" (n * dim))
    (h3 : HasArrOf m "closest_center" n (· < nc)) (h4 : HasArr m "centers" (nc * dim)) :
    RunsAsSerial m (iters nchunks (chunkIter dist add dim n chunkSize pad)) :=
  (chunks_rows dist add dim n chunkSize pad nc nchunks hpad m h1 h2 h3 h4).1

example : RunsAsSerial (arrMem [("residuals", [0, 0, 0, 0]), ("data", [1, 2, 3]), ("closest_center", [0, 1, 0]), ("centers", [5, 7])]) (iters 2 (chunkIter (fun x y => x.sum + y.sum) (· + ·) 1 3 2 2)) ∧
    after (iters 2 (chunkIter (fun x y => x.sum + y.sum) (· + ·) 1 3 2 2)) (arrMem [("residuals", [0, 0, 0, 0]), ("data", [1, 2, 3]), ("closest_center", [0, 1, 0]), ("centers", [5, 7])]) "residuals" 4 = some [some 15, some 0, some 8, some 0] :=
  ⟨C91_chunks (fun x y => x.sum + y.sum) (· + ·) 1 3 2 2 2 2 (by decide) _ (hasArr_arrMem (by decide)) (hasArr_arrMem (by decide)) (hasArrOf_arrMem (by decide) (by decide)) (hasArr_arrMem (by decide)), by decide +kernel⟩

/-- The distances to the first center of k-means++ (src/math_utils.cpp:404-408). -/
theorem first_dist_rows (dist : List Nat → List Nat → Nat) (dim n init : Nat) (hinit : init < n) (m : Mem Nat)
    (h1 : HasArr m "data" (n * dim)) (h2 : HasArr m "dist" n) : RowLoop (InRow "dist" 1) m n (firstDistIter dist dim init) := by
  rw [← Nat.mul_one n] at h2
  refine row_serial (own := InRow "dist" 1) (ins := InArr "data" (n * dim)) (inv := fun _ _ => True)
    (fun _ _ _ => InRow.unique) (fun _ l h => elem_ne (by decide) h) (fun l h => h1.elem h)
    (fun i l hi h => h2.row hi h) fun i hi => ?_
  refine ob_row (fun j hj => .inr (elem_mk hi hj)) fun x => ob_row (fun j hj => .inr (elem_mk hinit hj)) fun y => ?_
  exact ob_wrl inRow_one trivial rfl

/-- The distances to the first center of k-means++ (src/math_utils.cpp:404-408). -/
theorem C91_first_dist (dist : List Nat → List Nat → Nat) (dim n init : Nat) (hinit : init < n) (m : Mem Nat)
    (h1 : HasArr m "data" (n * dim)) (h2 : HasArr m "dist" n) : RunsAsSerial m (iters n (firstDistIter dist dim init)) :=
  (first_dist_rows dist dim n init hinit m h1 h2).1

example : RunsAsSerial (arrMem [("data", [1, 2, 3, 4]), ("dist", [0, 0])]) (iters 2 (firstDistIter (fun x y => x.sum + y.sum) 2 1)) ∧
    after (iters 2 (firstDistIter (fun x y => x.sum + y.sum) 2 1)) (arrMem [("data", [1, 2, 3, 4]), ("dist", [0, 0])]) "dist" 2 = some [some 10, some 14] :=
  ⟨C91_first_dist (fun x y => x.sum + y.sum) 2 2 1 (by decide) _ (hasArr_arrMem (by decide)) (hasArr_arrMem (by decide)), by decide +kernel⟩

/-- Their update with the next center (src/math_utils.cpp:443-448). -/
theorem next_dist_rows (dist : List Nat → List Nat → Nat) (mn : Nat → Nat → Nat) (dim n center : Nat) (hc : center < n) (m : Mem Nat)
    (h1 : HasArr m "data" (n * dim)) (h2 : HasArr m "dist" n) :
    RowLoop (InRow "dist" 1) m n (nextDistIter dist mn dim center) := by
  rw [← Nat.mul_one n] at h2
  refine row_serial (own := InRow "dist" 1) (ins := InArr "data" (n * dim)) (inv := fun _ _ => True)
    (fun _ _ _ => InRow.unique) (fun _ l h => elem_ne (by decide) h) (fun l h => h1.elem h)
    (fun i l hi h => h2.row hi h) fun i hi => ?_
  refine ob_row (fun j hj => .inr (elem_mk hi hj)) fun x => ob_row (fun j hj => .inr (elem_mk hc hj)) fun y => ?_
  exact ob_rd (.inl inRow_one) fun d _ => ob_wrl inRow_one trivial rfl

/-- Their update with the next center (src/math_utils.cpp:443-448). -/
theorem C91_next_dist (dist : List Nat → List Nat → Nat) (mn : Nat → Nat → Nat) (dim n center : Nat) (hc : center < n) (m : Mem Nat)
    (h1 : HasArr m "data" (n * dim)) (h2 : HasArr m "dist" n) :
    RunsAsSerial m (iters n (nextDistIter dist mn dim center)) :=
  (next_dist_rows dist mn dim n center hc m h1 h2).1

example : RunsAsSerial (arrMem [("data", [1, 2, 3, 4]), ("dist", [4, 20])]) (iters 2 (nextDistIter (fun x y => x.sum + y.sum) Nat.min 2 1)) ∧
    after (iters 2 (nextDistIter (fun x y => x.sum + y.sum) Nat.min 2 1)) (arrMem [("data", [1, 2, 3, 4]), ("dist", [4, 20])]) "dist" 2 = some [some 4, some 14] :=
  ⟨C91_next_dist (fun x y => x.sum + y.sum) Nat.min 2 2 1 (by decide) _ (hasArr_arrMem (by decide)) (hasArr_arrMem (by decide)), by decide +kernel⟩

/-- The distances to the centroid (src/index.cpp:313-324, src/relative_ng.cpp:108-119). -/
theorem medoid_rows (z : Nat) (diff : Nat → Nat → Nat → Nat → Nat) (add : Nat → Nat → Nat) (dim n : Nat) (m : Mem Nat)
    (h1 : HasArr m "center" dim) (h2 : HasArr m "data" (n * dim)) (h3 : HasArr m "distances" n) :
    RowLoop (InRow "distances" 1) m n (medoidIter z diff add dim) := by
  rw [← Nat.mul_one n] at h3
  refine row_serial (own := InRow "distances" 1) (ins := fun l => InArr "center" dim l ∨ InArr "data" (n * dim) l)
    (inv := fun _ _ => True) (fun _ _ _ => InRow.unique)
    (fun _ l h h' => h'.elim (elem_ne (by decide) h) (elem_ne (by decide) h))
    (fun l h => h.elim (fun h => h1.elem h) fun h => h2.elem h) (fun i l hi h => h3.row hi h) fun i hi => ?_
  refine ob_wr inRow_one trivial (ob_forN fun j hj => ?_)
  refine ob_rd (.inr (.inl ⟨rfl, hj, rfl⟩)) fun a _ => ob_rd (.inr (.inr (elem_mk hi hj))) fun b _ => ?_
  refine ob_rd (.inr (.inl ⟨rfl, hj, rfl⟩)) fun c _ => ob_rd (.inr (.inr (elem_mk hi hj))) fun d _ => ?_
  exact ob_rd (.inl inRow_one) fun r _ => ob_wrl inRow_one trivial rfl

/-- The distances to the centroid (src/index.cpp:313-324, src/relative_ng.cpp:108-119). -/
theorem C91_medoid (z : Nat) (diff : Nat → Nat → Nat → Nat → Nat) (add : Nat → Nat → Nat) (dim n : Nat) (m : Mem Nat)
    (h1 : HasArr m "center" dim) (h2 : HasArr m "data" (n * dim)) (h3 : HasArr m "distances" n) :
    RunsAsSerial m (iters n (medoidIter z diff add dim)) :=
  (medoid_rows z diff add dim n m h1 h2 h3).1

example : RunsAsSerial (arrMem [("center", [1, 2]), ("data", [4, 6, 1, 3]), ("distances", [9, 9])]) (iters 2 (medoidIter 0 (fun a b c d => (b - a) * (d - c)) (· + ·) 2)) ∧
    after (iters 2 (medoidIter 0 (fun a b c d => (b - a) * (d - c)) (· + ·) 2)) (arrMem [("center", [1, 2]), ("data", [4, 6, 1, 3]), ("distances", [9, 9])]) "distances" 2 = some [some 25, some 1] :=
  ⟨C91_medoid 0 (fun a b c d => (b - a) * (d - c)) (· + ·) 2 2 _ (hasArr_arrMem (by decide)) (hasArr_arrMem (by decide)) (hasArr_arrMem (by decide)), by decide +kernel⟩

/-- The columns of a chunk: the training data (src/partition_and_pq.cpp:300-305), a block of the base (489-494), the
pivots (496-501). -/
theorem cut_rows (src dst : String) (hne : dst ≠ src) (dim off w n : Nat) (hw : off + w ≤ dim) (m : Mem Nat)
    (h1 : HasArr m src (n * dim)) (h2 : HasArr m dst (n * w)) : RowLoop (InRow dst w) m n (cutIter src dst dim off w) := by
  refine row_serial (own := InRow dst w) (ins := InArr src (n * dim)) (inv := fun _ _ => True)
    (fun _ _ _ => InRow.unique) (fun _ l h => elem_ne hne h) (fun l h => h1.elem h)
    (fun i l hi h => h2.row hi h) fun i hi => ?_
  refine ob_forN fun j hj => ob_rd (.inr ?_) fun x _ => ob_wrl (inRow_mk hj) trivial rfl
  rw [Nat.add_assoc]
  exact elem_mk hi (by omega)

/-- The columns of a chunk: the training data (src/partition_and_pq.cpp:300-305), a block of the base (489-494), the
pivots (496-501). -/
theorem C91_cut (src dst : String) (hne : dst ≠ src) (dim off w n : Nat) (hw : off + w ≤ dim) (m : Mem Nat)
    (h1 : HasArr m src (n * dim)) (h2 : HasArr m dst (n * w)) : RunsAsSerial m (iters n (cutIter src dst dim off w)) :=
  (cut_rows src dst hne dim off w n hw m h1 h2).1

example : RunsAsSerial (arrMem [("base", [1, 2, 3, 4, 5, 6]), ("cur", [0, 0, 0, 0])]) (iters 2 (cutIter "base" "cur" 3 1 2)) ∧
    after (iters 2 (cutIter "base" "cur" 3 1 2)) (arrMem [("base", [1, 2, 3, 4, 5, 6]), ("cur", [0, 0, 0, 0])]) "cur" 4 = some [some 2, some 3, some 5, some 6] :=
  ⟨C91_cut "base" "cur" (by decide) 3 1 2 2 (by decide) _ (hasArr_arrMem (by decide)) (hasArr_arrMem (by decide)), by decide +kernel⟩

/-- The codes of a chunk (src/partition_and_pq.cpp:507-515): the rows are shared with the other chunks, which are processed one
after the other. -/
theorem codes_rows (chunks i n : Nat) (hi : i < chunks) (m : Mem Nat) (h1 : HasArr m "closest_center" n)
    (h2 : HasArr m "block_compressed_base" (n * chunks)) : RowLoop (InRow "block_compressed_base" chunks) m n (codeIter chunks i) := by
  refine row_serial (own := InRow "block_compressed_base" chunks) (ins := InArr "closest_center" n) (inv := fun _ _ => True)
    (fun _ _ _ => InRow.unique) (fun _ l h => elem_ne (by decide) h) (fun l h => h1.elem h)
    (fun i l hi h => h2.row hi h) fun j hj => ?_
  exact ob_rd (.inr ⟨rfl, hj, rfl⟩) fun c _ => ob_wrl (inRow_mk hi) trivial rfl

/-- The codes of a chunk (src/partition_and_pq.cpp:507-515): the rows are shared with the other chunks, which are processed one
after the other. -/
theorem C91_codes (chunks i n : Nat) (hi : i < chunks) (m : Mem Nat) (h1 : HasArr m "closest_center" n)
    (h2 : HasArr m "block_compressed_base" (n * chunks)) : RunsAsSerial m (iters n (codeIter chunks i)) :=
  (codes_rows chunks i n hi m h1 h2).1

example : RunsAsSerial (arrMem [("closest_center", [7, 8]), ("block_compressed_base", [0, 0, 0, 0, 0, 0])]) (iters 2 (codeIter 3 1)) ∧
    after (iters 2 (codeIter 3 1)) (arrMem [("closest_center", [7, 8]), ("block_compressed_base", [0, 0, 0, 0, 0, 0])]) "block_compressed_base" 6 = some [some 0, some 7, some 0, some 0, some 8, some 0] :=
  ⟨C91_codes 3 1 2 (by decide) _ (hasArr_arrMem (by decide)) (hasArr_arrMem (by decide)), by decide +kernel⟩

/-- `convert_types` and the conversions of the ground-truth tools (include/utils.h:268-273,
src/aux_compute_groundtruth.cpp:226-233, tests/utils/compute_groundtruth.cpp:253-260). -/
theorem convert_rows (conv : Nat → Nat) (src dst : String) (hne : dst ≠ src) (dim n : Nat) (m : Mem Nat)
    (h1 : HasArr m src (n * dim)) (h2 : HasArr m dst (n * dim)) : RowLoop (InRow dst dim) m n (convertIter conv src dst dim) := by
  refine row_serial (own := InRow dst dim) (ins := InArr src (n * dim)) (inv := fun _ _ => True)
    (fun _ _ _ => InRow.unique) (fun _ l h => elem_ne hne h) (fun l h => h1.elem h)
    (fun i l hi h => h2.row hi h) fun i hi => ?_
  exact ob_forN fun j hj => ob_rd (.inr (elem_mk hi hj)) fun x _ => ob_wrl (inRow_mk hj) trivial rfl

/-- `convert_types` and the conversions of the ground-truth tools (include/utils.h:268-273,
src/aux_compute_groundtruth.cpp:226-233, tests/utils/compute_groundtruth.cpp:253-260). -/
theorem C91_convert (conv : Nat → Nat) (src dst : String) (hne : dst ≠ src) (dim n : Nat) (m : Mem Nat)
    (h1 : HasArr m src (n * dim)) (h2 : HasArr m dst (n * dim)) : RunsAsSerial m (iters n (convertIter conv src dst dim)) :=
  (convert_rows conv src dst hne dim n m h1 h2).1

example : RunsAsSerial (arrMem [("src", [1, 2, 3, 4]), ("dst", [0, 0, 0, 0])]) (iters 2 (convertIter (· + 10) "src" "dst" 2)) ∧
    after (iters 2 (convertIter (· + 10) "src" "dst" 2)) (arrMem [("src", [1, 2, 3, 4]), ("dst", [0, 0, 0, 0])]) "dst" 4 = some [some 11, some 12, some 13, some 14] :=
  ⟨C91_convert (· + 10) "src" "dst" (by decide) 2 2 _ (hasArr_arrMem (by decide)) (hasArr_arrMem (by decide)), by decide +kernel⟩

/-- `compute_l2sq` (src/aux_compute_groundtruth.cpp:67-74, tests/utils/compute_groundtruth.cpp:71-78). -/
theorem l2sq_rows (dot : List Nat → List Nat → Nat) (dim n : Nat) (m : Mem Nat)
    (h1 : HasArr m "matrix" (n * dim)) (h2 : HasArr m "points_l2sq" n) : RowLoop (InRow "points_l2sq" 1) m n (l2sqIter dot dim) := by
  rw [← Nat.mul_one n] at h2
  refine row_serial (own := InRow "points_l2sq" 1) (ins := InArr "matrix" (n * dim)) (inv := fun _ _ => True)
    (fun _ _ _ => InRow.unique) (fun _ l h => elem_ne (by decide) h) (fun l h => h1.elem h)
    (fun i l hi h => h2.row hi h) fun i hi => ?_
  refine ob_row (fun j hj => .inr (elem_mk hi hj)) fun x => ob_row (fun j hj => .inr (elem_mk hi hj)) fun y => ?_
  exact ob_wrl inRow_one trivial rfl

/-- `compute_l2sq` (src/aux_compute_groundtruth.cpp:67-74, tests/utils/compute_groundtruth.cpp:71-78). -/
theorem C91_l2sq (dot : List Nat → List Nat → Nat) (dim n : Nat) (m : Mem Nat)
    (h1 : HasArr m "matrix" (n * dim)) (h2 : HasArr m "points_l2sq" n) : RunsAsSerial m (iters n (l2sqIter dot dim)) :=
  (l2sq_rows dot dim n m h1 h2).1

example : RunsAsSerial (arrMem [("matrix", [1, 2, 3, 4]), ("points_l2sq", [0, 0])]) (iters 2 (l2sqIter (fun x y => (List.zipWith (· * ·) x y).sum) 2)) ∧
    after (iters 2 (l2sqIter (fun x y => (List.zipWith (· * ·) x y).sum) 2)) (arrMem [("matrix", [1, 2, 3, 4]), ("points_l2sq", [0, 0])]) "points_l2sq" 2 = some [some 5, some 25] :=
  ⟨C91_l2sq (fun x y => (List.zipWith (· * ·) x y).sum) 2 2 _ (hasArr_arrMem (by decide)) (hasArr_arrMem (by decide)), by decide +kernel⟩

/-- The queries of a batch of `exact_knn` (src/aux_compute_groundtruth.cpp:136-172,
tests/utils/compute_groundtruth.cpp:173-201). -/
theorem knn_rows {S : Type} (empty : S) (push : S → Nat → Nat → S) (above : S → Nat → Bool) (trim : S → S)
    (top : S → Nat × Nat) (pop : S → S) (npoints k qb n : Nat) (hk : k ≤ npoints) (m : Mem Nat)
    (h1 : HasArr m "dist_matrix" (n * npoints)) (h2 : HasArr m "closest_points" ((qb + n) * k))
    (h3 : HasArr m "dist_closest_points" ((qb + n) * k)) :
    RowLoop (fun t l => InRow "closest_points" k (qb + t) l ∨ InRow "dist_closest_points" k (qb + t) l) m n (knnIter empty push above trim top pop npoints k qb) := by
  refine row_serial
    (own := fun t l => InRow "closest_points" k (qb + t) l ∨ InRow "dist_closest_points" k (qb + t) l)
    (ins := InArr "dist_matrix" (n * npoints)) (inv := fun _ _ => True) ?_
    (fun _ l h => h.elim (elem_ne (by decide)) (elem_ne (by decide))) (fun l h => h1.elem h)
    (fun i l hi h => h.elim (h2.row (by omega)) (h3.row (by omega))) fun i hi => ?_
  · rintro i j l (h | h) (h' | h')
    · have := InRow.unique h h'; omega
    · exact absurd (h.1.symm.trans h'.1) (by decide)
    · exact absurd (h.1.symm.trans h'.1) (by decide)
    · have := InRow.unique h h'; omega
  · have hd : ∀ p, p < npoints → InArr "dist_matrix" (n * npoints) ⟨"dist_matrix", p + i * npoints, 0⟩ := fun p hp => by
      rw [Nat.add_comm]; exact elem_mk hi hp
    refine ob_loop (fun p s _ hp => ob_rd (.inr (hd p (by omega))) fun d _ => rfl) fun h => ?_
    refine ob_loop (fun p s _ hp => ob_rd (.inr (hd p (by omega))) fun d _ => ?_) fun h => ?_
    · split
      · exact ob_rd (.inr (hd p (by omega))) fun d _ => rfl
      · rfl
    · refine ob_loop (fun l s _ hl => ?_) fun s => rfl
      have e : ∀ arr, InRow arr k (qb + i) ⟨arr, k - 1 - l + (qb + i) * k, 0⟩ := fun arr => by
        rw [Nat.add_comm (k - 1 - l)]; exact inRow_mk (by omega)
      exact ob_wr (.inl (e _)) trivial (ob_wr (.inr (e _)) trivial rfl)

/-- The queries of a batch of `exact_knn` (src/aux_compute_groundtruth.cpp:136-172,
tests/utils/compute_groundtruth.cpp:173-201). -/
theorem C91_knn {S : Type} (empty : S) (push : S → Nat → Nat → S) (above : S → Nat → Bool) (trim : S → S)
    (top : S → Nat × Nat) (pop : S → S) (npoints k qb n : Nat) (hk : k ≤ npoints) (m : Mem Nat)
    (h1 : HasArr m "dist_matrix" (n * npoints)) (h2 : HasArr m "closest_points" ((qb + n) * k))
    (h3 : HasArr m "dist_closest_points" ((qb + n) * k)) :
    RunsAsSerial m (iters n (knnIter empty push above trim top pop npoints k qb)) :=
  (knn_rows empty push above trim top pop npoints k qb n hk m h1 h2 h3).1

example : RunsAsSerial (arrMem [("dist_matrix", [5, 3, 4, 1, 2, 7]), ("closest_points", [9, 9, 0, 0]), ("dist_closest_points", [9, 9, 0, 0])])
      (iters 2 (knnIter ([] : List (Nat × Nat)) (fun s p d => (p, d) :: s) (fun s d => s.any (d < ·.2))
        (fun s => s.filter fun x => s.all (x.2 ≤ ·.2)) (fun s => s.headD (0, 0)) List.tail 3 1 1)) ∧
    after (iters 2 (knnIter ([] : List (Nat × Nat)) (fun s p d => (p, d) :: s) (fun s d => s.any (d < ·.2))
        (fun s => s.filter fun x => s.all (x.2 ≤ ·.2)) (fun s => s.headD (0, 0)) List.tail 3 1 1))
      (arrMem [("dist_matrix", [5, 3, 4, 1, 2, 7]), ("closest_points", [9, 9, 0, 0]), ("dist_closest_points", [9, 9, 0, 0])])
      "closest_points" 3 = some [some 9, some 1, some 0] :=
  ⟨C91_knn _ _ _ _ _ _ 3 1 1 2 (by decide) _ (hasArr_arrMem (by decide)) (hasArr_arrMem (by decide))
    (hasArr_arrMem (by decide)), by decide +kernel⟩

/-- `analyze_norm` (tests/utils/vector_analysis.cpp:30-35). -/
theorem norms_rows (add mul : Nat → Nat → Nat) (sqrt : Nat → Nat) (dim n : Nat) (m : Mem Nat)
    (h1 : HasArr m "data" (n * dim)) (h2 : HasArr m "norms" n) : RowLoop (InRow "norms" 1) m n (normIter add mul sqrt dim) := by
  rw [← Nat.mul_one n] at h2
  refine row_serial (own := InRow "norms" 1) (ins := InArr "data" (n * dim)) (inv := fun _ _ => True)
    (fun _ _ _ => InRow.unique) (fun _ l h => elem_ne (by decide) h) (fun l h => h1.elem h)
    (fun i l hi h => h2.row hi h) fun i hi => ?_
  refine ob_forN_bind (fun j hj => ?_) ?_
  · refine ob_rd (.inr (elem_mk hi hj)) fun a _ => ob_rd (.inr (elem_mk hi hj)) fun b _ => ?_
    exact ob_rd (.inl inRow_one) fun r _ => ob_wrl inRow_one trivial rfl
  · exact ob_rd (.inl inRow_one) fun r _ => ob_wrl inRow_one trivial rfl

/-- `analyze_norm` (tests/utils/vector_analysis.cpp:30-35). -/
theorem C91_norms (add mul : Nat → Nat → Nat) (sqrt : Nat → Nat) (dim n : Nat) (m : Mem Nat)
    (h1 : HasArr m "data" (n * dim)) (h2 : HasArr m "norms" n) : RunsAsSerial m (iters n (normIter add mul sqrt dim)) :=
  (norms_rows add mul sqrt dim n m h1 h2).1

example : RunsAsSerial (arrMem [("data", [3, 4, 6, 8]), ("norms", [0, 0])]) (iters 2 (normIter (· + ·) (· * ·) (· / 5) 2)) ∧
    after (iters 2 (normIter (· + ·) (· * ·) (· / 5) 2)) (arrMem [("data", [3, 4, 6, 8]), ("norms", [0, 0])]) "norms" 2 = some [some 5, some 20] :=
  ⟨C91_norms (· + ·) (· * ·) (· / 5) 2 2 _ (hasArr_arrMem (by decide)) (hasArr_arrMem (by decide)), by decide +kernel⟩

/-- `normalize_base` (tests/utils/vector_analysis.cpp:53-61). -/
theorem normalize_rows (add mul div : Nat → Nat → Nat) (sqrt : Nat → Nat) (z dim n : Nat) (m : Mem Nat)
    (h1 : HasArr m "data" (n * dim)) : RowLoop (InRow "data" dim) m n (normalizeIter add mul div sqrt z dim) := by
  refine row_serial (own := InRow "data" dim) (ins := fun _ => False) (inv := fun _ _ => True)
    (fun _ _ _ => InRow.unique) (fun _ l _ h => h) (fun l h => h.elim)
    (fun i l hi h => h1.row hi h) fun i hi => ?_
  refine ob_loop (fun j s _ hj => ?_) fun s => ob_forN fun j hj => ?_
  · exact ob_rd (.inl (inRow_mk (by omega))) fun a _ => ob_rd (.inl (inRow_mk (by omega))) fun b _ => rfl
  · exact ob_rd (.inl (inRow_mk hj)) fun x _ => ob_wrl (inRow_mk hj) trivial rfl

/-- `normalize_base` (tests/utils/vector_analysis.cpp:53-61). -/
theorem C91_normalize (add mul div : Nat → Nat → Nat) (sqrt : Nat → Nat) (z dim n : Nat) (m : Mem Nat)
    (h1 : HasArr m "data" (n * dim)) : RunsAsSerial m (iters n (normalizeIter add mul div sqrt z dim)) :=
  (normalize_rows add mul div sqrt z dim n m h1).1

example : RunsAsSerial (arrMem [("data", [30, 40, 60, 80])]) (iters 2 (normalizeIter (· + ·) (· * ·) (· / ·) (· / 500) 0 2)) ∧
    after (iters 2 (normalizeIter (· + ·) (· * ·) (· / ·) (· / 500) 0 2)) (arrMem [("data", [30, 40, 60, 80])]) "data" 4 = some [some 6, some 8, some 3, some 4] :=
  ⟨C91_normalize (· + ·) (· * ·) (· / ·) (· / 500) 0 2 2 _ (hasArr_arrMem (by decide)), by decide +kernel⟩

/-- `RelativeNG::build` (src/relative_ng.cpp:166-195).  A vector grows with its `emplace_back`s: there is a cell for
every element it may get. -/
theorem relng_rows (prune : List (List Nat) → Nat → List Nat) (n dim : Nat) (m : Mem Nat) (h1 : HasArr m "data" (n * dim))
    (h2 : HasArr m "out_nbrs.size" n) (h3 : ∀ v, v < n → ∀ x, ∃ y, m ⟨"out_nbrs", v, x⟩ = some y) :
    RowLoop (fun v l => (l.arr = "out_nbrs" ∧ l.i = v) ∨ (l.arr = "out_nbrs.size" ∧ l.i = v ∧ l.j = 0)) m n (relngIter prune n dim) := by
  refine row_serial (own := fun v l => (l.arr = "out_nbrs" ∧ l.i = v) ∨ (l.arr = "out_nbrs.size" ∧ l.i = v ∧ l.j = 0))
    (ins := InArr "data" (n * dim)) (inv := fun _ _ => True) ?_ ?_ (fun l h => h1.elem h) ?_ fun i hi => ?_
  · rintro i j l (⟨h, rfl⟩ | ⟨h, rfl, -⟩) (⟨h', rfl⟩ | ⟨h', rfl, -⟩) <;> rfl
  · rintro i l (⟨h, -⟩ | ⟨h, -⟩) ⟨h', -⟩
    · exact absurd (h.symm.trans h') (by decide)
    · exact absurd (h.symm.trans h') (by decide)
  · rintro i ⟨arr, x, y⟩ hi (⟨rfl, rfl⟩ | ⟨rfl, rfl, rfl⟩)
    · obtain ⟨v, hv⟩ := h3 x hi y
      exact ⟨v, hv, trivial⟩
    · obtain ⟨v, hv⟩ := h2 x hi
      exact ⟨v, hv, trivial⟩
  · refine ob_loop (fun j s _ hj => ob_row (fun d hd => .inr (elem_mk (by omega) hd)) fun row => rfl) fun rows => ?_
    refine ob_forN fun t _ => ob_rd (.inl (.inr ⟨rfl, rfl, rfl⟩)) fun s _ => ?_
    exact ob_wr (.inl ⟨rfl, rfl⟩) trivial (ob_wrl (.inr ⟨rfl, rfl, rfl⟩) trivial rfl)

/-- `RelativeNG::build` (src/relative_ng.cpp:166-195).  A vector grows with its `emplace_back`s: there is a cell for
every element it may get. -/
theorem C91_relng (prune : List (List Nat) → Nat → List Nat) (n dim : Nat) (m : Mem Nat) (h1 : HasArr m "data" (n * dim))
    (h2 : HasArr m "out_nbrs.size" n) (h3 : ∀ v, v < n → ∀ x, ∃ y, m ⟨"out_nbrs", v, x⟩ = some y) :
    RunsAsSerial m (iters n (relngIter prune n dim)) :=
  (relng_rows prune n dim m h1 h2 h3).1

def exNbrs : Mem Nat := fun l =>
  if l.arr = "out_nbrs" then some 0 else arrMem [("data", [1, 2, 3, 4]), ("out_nbrs.size", [0, 0])] l

example : RunsAsSerial exNbrs (iters 2 (relngIter (fun rows v => [1 - v, (rows.getD v []).sum]) 2 2)) ∧
    (match serialLoop (iters 2 (relngIter (fun rows v => [1 - v, (rows.getD v []).sum]) 2 2)) exNbrs with
      | .ok F => [F ⟨"out_nbrs", 0, 0⟩, F ⟨"out_nbrs", 0, 1⟩, F ⟨"out_nbrs", 1, 0⟩, F ⟨"out_nbrs", 1, 1⟩, F ⟨"out_nbrs.size", 1, 0⟩]
      | .error _ => []) = [some 1, some 3, some 0, some 7, some 2] := by
  refine ⟨C91_relng _ 2 2 _ ?_ ?_ fun v _ x => ⟨0, by simp [exNbrs]⟩, by decide +kernel⟩
  · intro x hx
    obtain ⟨v, hv⟩ := hasArr_arrMem (a := [("data", [1, 2, 3, 4]), ("out_nbrs.size", [0, 0])]) (arr := "data") (n := 4) (by decide) x hx
    exact ⟨v, by simpa [exNbrs] using hv⟩
  · intro x hx
    obtain ⟨v, hv⟩ := hasArr_arrMem (a := [("data", [1, 2, 3, 4]), ("out_nbrs.size", [0, 0])]) (arr := "out_nbrs.size") (n := 2) (by decide) x hx
    exact ⟨v, by simpa [exNbrs] using hv⟩

/-! ## The loop with a critical section -/

/-- Who accesses what in the loop that fills the inverted lists. -/
def assignDisc (b bs k n nc : Nat) : Disc Nat where
  acc t l := InRow "closest_centers_ivf" k (b * bs + t) l ∨ InArr "closest_centers" (n * k) l
  own t := InRow "closest_centers_ivf" k (b * bs + t)
  guarded l := (l.arr = "inverted_index" ∧ l.i < nc) ∨ InArr "inverted_index.size" nc l
  inv l v := l.arr = "closest_centers" → v < nc
  locks := True

theorem assignDisc_apart (b bs k n nc : Nat) : (assignDisc b bs k n nc).Apart := by
  refine ⟨fun i l h => .inl h, ?_, ?_, fun _ h => h.elim⟩
  · rintro i j l hij ho (h | h)
    · have := InRow.unique ho h; omega
    · exact elem_ne (by decide) ho h
  · rintro i l (h | h) (h' | h')
    · exact absurd (h.1.symm.trans h'.1) (by decide)
    · exact absurd (h.1.symm.trans h'.1) (by decide)
    · exact absurd (h.1.symm.trans h'.1) (by decide)
    · exact absurd (h.1.symm.trans h'.1) (by decide)

theorem assign_obeys (b bs k n nc t : Nat) (ht : t < n) :
    (assignIter true b bs k t).Obeys (assignDisc b bs k n nc) t false EndsFree := by
  refine Par.obeys_mono _ _ _ _ (Par.obeys_loop _ t _ (fun _ _ => True) k 0 () trivial fun j s _ hj _ => ?_) ?_
  · refine ⟨.inl (.inl (.inr ?_)), fun c hc => ⟨.inl (inRow_mk (by omega)), fun e => absurd e (by simp), trivial, rfl, ?_⟩⟩
    · rw [Nat.add_sub_cancel_left]; exact elem_mk ht (by omega)
    · have hc' : c < nc := hc rfl
      refine ⟨.inl (.inr ⟨rfl, .inr ⟨rfl, hc', rfl⟩⟩), fun x _ => ⟨.inr ⟨rfl, .inl ⟨rfl, hc'⟩⟩, fun e => absurd e (by simp), ?_⟩⟩
      exact ⟨.inr ⟨rfl, .inr ⟨rfl, hc', rfl⟩⟩, fun e => absurd e (by simp), rfl, rfl, trivial⟩
  · rintro s b ⟨rfl, -⟩
    rfl

theorem nodup_map_on {α β : Type} {l : List α} {f : α → β} (h : l.Nodup) (hf : ∀ x ∈ l, ∀ y ∈ l, f x = f y → x = y) :
    (l.map f).Nodup := by
  rw [List.Nodup, List.pairwise_map]
  exact List.Pairwise.imp_of_mem (fun hx hy hne e => hne (hf _ hx _ hy e)) h

theorem assign_perm {b bs k n : Nat} {ids : List Nat} (hlen : ids.length = n * k) {done : List (Nat × Nat)} (hn : done.Nodup)
    (hm : ∀ t l, (t, l) ∈ done ↔ t < n ∧ l < k) :
    (done.map fun p => (ids.getD (p.1 * k + p.2) 0, b * bs + p.1)).Perm (ids.mapIdx fun x c => (c, b * bs + x / k)) := by
  have hlt : ∀ p ∈ done, p.1 < n ∧ p.2 < k := fun p hp => (hm p.1 p.2).mp hp
  have hdiv : ∀ p ∈ done, (p.1 * k + p.2) / k = p.1 := fun p hp => by
    have := (hlt p hp).2
    rw [Nat.mul_comm, Nat.mul_add_div (by omega), Nat.div_eq_of_lt this]; rfl
  have h1 : (done.map fun p => p.1 * k + p.2).Perm (List.range (n * k)) := by
    rw [List.perm_ext_iff_of_nodup (nodup_map_on hn fun x hx y hy e => ?_) List.nodup_range]
    · intro x
      rw [List.mem_map, List.mem_range]
      constructor
      · rintro ⟨p, hp, rfl⟩
        exact (inRow_mk (arr := "") (hlt p hp).2).lt (hlt p hp).1
      · intro hx
        have hk : 0 < k := by
          rcases Nat.eq_zero_or_pos k with h | h
          · subst h; simp at hx
          · exact h
        refine ⟨(x / k, x % k), (hm _ _).mpr ⟨?_, Nat.mod_lt _ hk⟩, ?_⟩
        · exact Nat.div_lt_of_lt_mul (by rwa [Nat.mul_comm])
        · show x / k * k + x % k = x
          rw [Nat.mul_comm]; exact Nat.div_add_mod x k
    · have e1 : x.1 = y.1 := by rw [← hdiv x hx, ← hdiv y hy, e]
      rw [e1] at e
      exact Prod.ext e1 (by omega)
  have h2 : (done.map fun p => (ids.getD (p.1 * k + p.2) 0, b * bs + p.1)) =
      (done.map fun p => p.1 * k + p.2).map fun x => (ids.getD x 0, b * bs + x / k) := by
    rw [List.map_map]
    refine List.map_congr_left fun p hp => ?_
    simp only [Function.comp, hdiv p hp]
  have h3 : (ids.mapIdx fun x c => (c, b * bs + x / k)) = (List.range (n * k)).map fun x => (ids.getD x 0, b * bs + x / k) := by
    refine List.ext_getElem (by simp [hlen]) fun x h h' => ?_
    simp only [List.length_mapIdx] at h
    simp [List.getElem?_eq_getElem h]
  rw [h2, h3]
  exact h1.map _

/-- The loop that copies the closest centers of block `b` and fills the inverted lists (src/math_utils.cpp:176-189) has no
data race, and every completed execution leaves in `closest_centers_ivf` the centers and in the lists the result of
`push_back`s in some order: `closestBlockStep` (`Model/Centers.lean`) leaves out no execution. -/
theorem C91_inverted (b bs k n : Nat) (ids : List Nat) (inv : List (List Nat)) (hlen : ids.length = n * k)
    (hlt : ∀ c ∈ ids, c < inv.length) (m : Mem Nat)
    (h1 : ∀ (x c : Nat), ids[x]? = some c → m ⟨"closest_centers", x, 0⟩ = some c)
    (h2 : HasArr m "closest_centers_ivf" ((b * bs + n) * k)) (h3 : HoldsLists m inv)
    (h4 : ∀ c, c < inv.length → ∀ x, ∃ v, m ⟨"inverted_index", c, x⟩ = some v) :
    RaceFree m (iters n (assignIter true b bs k)) ∧
      ∀ sched c, Cfg.run sched (Cfg.start m (iters n (assignIter true b bs k))) = .ok c → c.Done →
        ∃ pushes inv', pushes.Perm (ids.mapIdx fun x c => (c, b * bs + x / k)) ∧ pushAll inv pushes = .ok inv' ∧
          HoldsLists c.mem inv' ∧ (∀ (x d : Nat), ids[x]? = some d → c.mem ⟨"closest_centers_ivf", b * bs * k + x, 0⟩ = some d) ∧
          ∀ x, x < b * bs * k → c.mem ⟨"closest_centers_ivf", x, 0⟩ = m ⟨"closest_centers_ivf", x, 0⟩ := by
  have hA := assignDisc_apart b bs k n inv.length
  have hget : ∀ x, x < n * k → ids[x]? = some (ids.getD x 0) := fun x hx => by
    rw [List.getD_eq_getElem?_getD, List.getElem?_eq_getElem (hlen ▸ hx)]; rfl
  have hlt' : ∀ x, x < n * k → ids.getD x 0 < inv.length := fun x hx => hlt _ (List.mem_of_getElem? (hget x hx))
  have hL : (iters n (assignIter true b bs k)).length = n := by simp [iters]
  have hm : (assignDisc b bs k n inv.length).MemOK (iters n (assignIter true b bs k)).length m := by
    rw [hL]
    rintro ⟨arr, x, y⟩ (⟨t, ht, h | h⟩ | h | h)
    · exact h2.elem' (P := (· < inv.length)) (by decide) ⟨h.1, h.lt (by omega), h.2.2.2⟩
    · obtain ⟨rfl, hx, rfl⟩ := h
      exact ⟨_, h1 x _ (hget x hx), fun _ => hlt' x hx⟩
    · obtain ⟨rfl, hx⟩ := h
      obtain ⟨v, hv⟩ := h4 x hx y
      exact ⟨v, hv, fun e => absurd e (by simp)⟩
    · obtain ⟨rfl, hx, rfl⟩ := h
      exact ⟨_, (h3 x _ (List.getElem?_eq_getElem hx)).1, fun e => absurd e (by simp)⟩
  have hp : ∀ (i : Nat) (p : Par Nat Unit), (iters n (assignIter true b bs k))[i]? = some p →
      p.Obeys (assignDisc b bs k n inv.length) i false EndsFree := by
    intro i p h
    obtain ⟨hi, rfl⟩ := iters_get h
    exact assign_obeys b bs k n inv.length i hi
  refine ⟨fun sched => ?_, fun sched c hrun hd => ?_⟩
  · obtain ⟨c, hc, hg⟩ := Disc.good_run hA sched (Disc.good_start hm hp)
    obtain ⟨s', c', h, -, hd⟩ := Disc.good_ends hA hg
    exact ⟨c, hc, Disc.good_no_race hA (fun _ h => h.elim) hg, s', c', h, hd⟩
  · obtain ⟨s, hs⟩ := Disc.atomic hA hm hp sched hrun hd
    have h0 : AssignInv b bs k n ids inv m [] (fun _ => 0) (m, iters n (assignIter true b bs k)) := by
      refine ⟨hL, by simp, by simp, fun _ _ => Nat.zero_le _, ?_, ⟨inv, rfl, h3, rfl⟩, by simp, fun _ _ _ _ => rfl⟩
      intro t ht
      exact ⟨_, by simp only [iters, List.getElem?_map, List.getElem?_range ht, Option.map_some], .inl (asA_start b bs k t)⟩
    obtain ⟨done, lp, hI⟩ := assign_run (fun x hx => h1 x _ (hget x hx)) hlt' s h0 hs
    have hlp : ∀ t, t < n → lp t = k := by
      intro t ht
      obtain ⟨p, hp, hc⟩ := hI.prog t ht
      have hr := hd p (List.mem_of_getElem? hp)
      subst hr
      rcases hc with hc | ⟨-, hc⟩ | ⟨-, hc, -⟩
      · rcases Nat.lt_or_ge (lp t) k with h | h
        · rw [asA_step b bs k h] at hc; cases hc
        · exact Nat.le_antisymm (hI.le t ht) h
      · cases hc
      · cases hc
    obtain ⟨inv', e1, e2, -⟩ := hI.lists
    refine ⟨_, inv', assign_perm hlen hI.nodup (fun t l => ?_), e1, e2, ?_, ?_⟩
    · rw [hI.mem t l]
      constructor
      · rintro ⟨ht, hl⟩; exact ⟨ht, hlp t ht ▸ hl⟩
      · rintro ⟨ht, hl⟩; exact ⟨ht, (hlp t ht).symm ▸ hl⟩
    · intro x d hx
      have hxl : x < n * k := by
        rcases Nat.lt_or_ge x (n * k) with h | h
        · exact h
        · rw [List.getElem?_eq_none (hlen ▸ h)] at hx; simp at hx
      have hk : 0 < k := by
        rcases Nat.eq_zero_or_pos k with h | h
        · subst h; simp at hxl
        · exact h
      have ht : x / k < n := Nat.div_lt_of_lt_mul (by rwa [Nat.mul_comm])
      have := hI.out (x / k) (x % k) ht (by rw [hlp _ ht]; exact Nat.mod_lt _ hk)
      have e : x / k * k + x % k = x := by rw [Nat.mul_comm]; exact Nat.div_add_mod x k
      rw [Nat.add_mul, Nat.add_assoc, e] at this
      exact this.trans (by rw [← hget x hxl, hx])
    · intro x hx
      refine hI.other _ (by simp) (by simp) fun _ _ t ht => .inl ?_
      show x < (b * bs + t) * k
      rw [Nat.add_mul]
      omega

/-- Two points with two centers each, in the second block; the inverted lists are empty. -/
def exInv : Mem Nat := fun l =>
  if l.arr = "inverted_index" then some 0
  else arrMem [("closest_centers", [0, 1, 1, 2]), ("closest_centers_ivf", [9, 9, 9, 9, 0, 0, 0, 0]), ("inverted_index.size", [0, 0, 0])] l

example : RaceFree exInv (iters 2 (assignIter true 1 2 2)) ∧
    ∀ sched c, Cfg.run sched (Cfg.start exInv (iters 2 (assignIter true 1 2 2))) = .ok c → c.Done →
      ∃ pushes inv', pushes.Perm [(0, 2), (1, 2), (1, 3), (2, 3)] ∧ pushAll [[], [], []] pushes = .ok inv' ∧
        HoldsLists c.mem inv' := by
  have H := C91_inverted 1 2 2 2 [0, 1, 1, 2] [[], [], []] rfl (by decide) exInv
    (fun x c hx => by simpa [exInv, arrMem] using hx) ?_ ?_ fun c _ x => ⟨0, by simp [exInv]⟩
  · refine ⟨H.1, fun sched c hr hd => ?_⟩
    obtain ⟨p, i, h1, h2, h3, -⟩ := H.2 sched c hr hd
    exact ⟨p, i, h1, h2, h3⟩
  · intro x hx
    obtain ⟨v, hv⟩ := hasArr_arrMem (a := [("closest_centers", [0, 1, 1, 2]), ("closest_centers_ivf", [9, 9, 9, 9, 0, 0, 0, 0]),
      ("inverted_index.size", [0, 0, 0])]) (arr := "closest_centers_ivf") (n := 8) (by decide) x hx
    exact ⟨v, by simpa [exInv] using hv⟩
  · intro c xs hc
    have hc3 : c < 3 := by
      rcases Nat.lt_or_ge c 3 with h | h
      · exact h
      · rw [List.getElem?_eq_none (by simpa using h)] at hc; cases hc
    obtain rfl | rfl | rfl : c = 0 ∨ c = 1 ∨ c = 2 := by omega
    all_goals
      cases hc
      exact ⟨rfl, by simp⟩

end Grann
