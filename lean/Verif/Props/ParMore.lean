import Verif.Props.ParFor
/-!
# C91: the final cleanup of the graph builds and the queries of the search programs
-/

namespace Grann

open Par

/-- A program that only loads, and only elements with `ins`; `inv` are the values they can have. -/
def Spec.LoadsOnly {W α : Type} (ins : Loc → Prop) (inv : Loc → W → Prop) : Par W α → Prop
  | .ret _ => True
  | .load l k => ins l ∧ ∀ v, inv l v → Spec.LoadsOnly ins inv (k v)
  | .store _ _ _ => False
  | .enter _ => False
  | .leave _ => False

/-- An element of a list of neighbours, or its length. -/
def OwnList (v : Nat) (l : Loc) : Prop := (l.arr = "out_nbrs" ∧ l.i = v) ∨ (l.arr = "out_nbrs.size" ∧ l.i = v ∧ l.j = 0)

theorem cleanup_rows (prune : Nat → List Nat → List (List Nat) → List Nat) (hp : ∀ v nb rows, ∀ x ∈ prune v nb rows, x ∈ nb) (R n dim : Nat) (m : Mem Nat)
    (h1 : HasArr m "data" (n * dim)) (h2 : HasArr m "out_nbrs.size" n) (h3 : ∀ v, v < n → ∀ x, ∃ y, m ⟨"out_nbrs", v, x⟩ = some y ∧ y < n) :
    RowLoop OwnList m n (cleanupIter prune R dim) := by
  refine row_serial (own := OwnList) (ins := InArr "data" (n * dim)) (inv := fun l y => l.arr = "out_nbrs" → y < n) ?_ ?_ ?_ ?_ fun i hi => ?_
  · rintro i j l (⟨h, rfl⟩ | ⟨h, rfl, -⟩) (⟨h', rfl⟩ | ⟨h', rfl, -⟩) <;> rfl
  · rintro i l (⟨h, -⟩ | ⟨h, -⟩) ⟨h', -⟩
    · exact absurd (h.symm.trans h') (by decide)
    · exact absurd (h.symm.trans h') (by decide)
  · intro l h
    obtain ⟨v, hv, -⟩ := h1.elem h
    exact ⟨v, hv, fun h' => absurd (h.1.symm.trans h') (by decide)⟩
  · rintro i ⟨arr, x, y⟩ hi (⟨rfl, rfl⟩ | ⟨rfl, rfl, rfl⟩)
    · obtain ⟨v, hv, hl⟩ := h3 x hi y
      exact ⟨v, hv, fun _ => hl⟩
    · obtain ⟨v, hv⟩ := h2 x hi
      exact ⟨v, hv, fun h => absurd h (show "out_nbrs.size" ≠ "out_nbrs" by decide)⟩
  · refine ob_rd (.inl (.inr ⟨rfl, rfl, rfl⟩)) fun s _ => ?_
    by_cases hs : R < s
    · rw [if_pos hs]
      refine Par.obeys_bind _ _ _ _ _ _ (Par.obeys_mono _ _ _ _ (Par.obeys_loop _ i _ (fun _ acc => ∀ x ∈ acc, x < n) s 0 [] (by simp) fun j acc _ _ ha =>
        ob_rd (.inl (.inl ⟨rfl, rfl⟩)) fun v hv => ob_ret ⟨rfl, fun x hx => ?_⟩) ?_)
      · rcases List.mem_append.1 hx with hx | hx
        · exact ha x hx
        · rw [List.mem_singleton.1 hx]; exact hv rfl
      · rintro nb b ⟨rfl, hnb⟩
        have hr : ∀ j, nb.getD j i < n := by
          intro j
          rw [List.getD_eq_getElem?_getD]
          cases hj : nb[j]? with
          | none => exact hi
          | some x => exact hnb x (List.mem_of_getElem? hj)
        refine ob_row (fun d hd => .inr (elem_mk hi hd)) fun own => ?_
        refine ob_loop (fun j acc _ _ => ob_row (fun d hd => .inr (elem_mk (hr j) hd)) fun row => rfl) fun rows => ?_
        refine ob_wr (.inr ⟨rfl, rfl, rfl⟩) (fun h => absurd h (show "out_nbrs.size" ≠ "out_nbrs" by decide)) ?_
        refine ob_forN fun t ht => ob_rd (.inl (.inr ⟨rfl, rfl, rfl⟩)) fun s _ => ?_
        refine ob_wr (.inl ⟨rfl, rfl⟩) (fun _ => ?_) (ob_wrl (.inr ⟨rfl, rfl, rfl⟩) (fun h => absurd h (show "out_nbrs.size" ≠ "out_nbrs" by decide)) rfl)
        rw [List.getD_eq_getElem?_getD, List.getElem?_eq_getElem ht]
        exact hnb _ (hp _ _ _ _ (List.getElem_mem ht))
    · rw [if_neg hs]
      exact ob_ret rfl

/-- **C91, final cleanup.** The cleanup loops of `Vamana::build` and `HNSW::build` (src/vamana.cpp:303-330, src/hnsw.cpp:227-258) leave the lists of the serial loop, if all
neighbours are points and pruning keeps some of them. -/
theorem C91_cleanup (prune : Nat → List Nat → List (List Nat) → List Nat) (hp : ∀ v nb rows, ∀ x ∈ prune v nb rows, x ∈ nb) (R n dim : Nat) (m : Mem Nat)
    (h1 : HasArr m "data" (n * dim)) (h2 : HasArr m "out_nbrs.size" n) (h3 : ∀ v, v < n → ∀ x, ∃ y, m ⟨"out_nbrs", v, x⟩ = some y ∧ y < n) :
    RunsAsSerial m (iters n (cleanupIter prune R dim)) :=
  (cleanup_rows prune hp R n dim m h1 h2 h3).1

/-- A loop that only loads keeps every discipline in which what it loads is not written. -/
theorem loads_obey {W α β : Type} {own : Nat → Loc → Prop} {ins : Loc → Prop} {inv : Loc → W → Prop} {i : Nat} {Q : β → Bool → Prop} {f : α → Par W β} : ∀ (p : Par W α),
    Spec.LoadsOnly ins inv p → (∀ a, (f a).Obeys (rowDisc own ins inv) i false Q) → (p.bind f).Obeys (rowDisc own ins inv) i false Q
  | .ret a, _, hf => hf a
  | .load _ k, h, hf => ⟨.inl (.inl (.inr h.1)), fun v hv => loads_obey (k v) (h.2 v hv) hf⟩
  | .store _ _ _, h, _ => h.elim
  | .enter _, h, _ => h.elim
  | .leave _, h, _ => h.elim

/-- What a query stores. -/
def OwnAnswer (k i : Nat) (l : Loc) : Prop :=
  InRow "query_result_ids" k i l ∨ InRow "query_result_dists" k i l ∨ InRow "stats.n_hops" 1 i l ∨ InRow "stats.n_cmps" 1 i l ∨ InRow "latency_stats" 1 i l

/-- The arrays that the queries store to. -/
def Spec.answerArrays : List String := ["query_result_ids", "query_result_dists", "stats.n_hops", "stats.n_cmps", "latency_stats"]

theorem query_rows (find : List Nat → Par Nat (List (Nat × Nat) × Nat × Nat)) (time : Nat → Nat) (index : Loc → Prop) (inv : Loc → Nat → Prop)
    (hi : ∀ l, index l → l.arr ∉ Spec.answerArrays) (hf : ∀ q, Spec.LoadsOnly index inv (find q)) (dim k n : Nat) (m : Mem Nat)
    (h0 : ∀ l, index l → ∃ v, m l = some v ∧ inv l v) (h1 : HasArr m "query" (n * dim)) (h2 : HasArr m "query_result_ids" (n * k)) (h3 : HasArr m "query_result_dists" (n * k))
    (h4 : HasArr m "stats.n_hops" n) (h5 : HasArr m "stats.n_cmps" n) (h6 : HasArr m "latency_stats" n) :
    RowLoop (OwnAnswer k) m n (queryIter find time dim k) := by
  have hown : ∀ i l, OwnAnswer k i l → l.arr ∈ Spec.answerArrays := by
    rintro i l (h | h | h | h | h) <;> rw [h.1] <;> decide
  refine row_serial (own := OwnAnswer k) (ins := fun l => index l ∨ InArr "query" (n * dim) l) (inv := fun l v => index l → inv l v) ?_ ?_ ?_ ?_ fun i hi' => ?_
  · rintro i j l (h | h | h | h | h) (h' | h' | h' | h' | h') <;> first
      | exact h.unique h'
      | exact absurd (h.1.symm.trans h'.1) (by decide)
  · rintro i l h (h' | h')
    · exact hi l h' (hown i l h)
    · have := hown i l h
      rw [h'.1] at this
      exact absurd this (by decide)
  · rintro l (h | h)
    · obtain ⟨v, hv, hv'⟩ := h0 l h
      exact ⟨v, hv, fun _ => hv'⟩
    · obtain ⟨v, hv, -⟩ := h1.elem h
      by_cases hx : index l
      · obtain ⟨w, hw, hw'⟩ := h0 l hx
        exact ⟨w, hw, fun _ => hw'⟩
      · exact ⟨v, hv, fun h => absurd h hx⟩
  · intro i l hi' h
    have hnot : ¬ index l := fun hx => hi l hx (hown i l h)
    have : ∃ v, m l = some v ∧ True := by
      rcases h with h | h | h | h | h
      · exact h2.row hi' h
      · exact h3.row hi' h
      · exact HasArr.row (w := 1) (by rwa [Nat.mul_one]) hi' h
      · exact HasArr.row (w := 1) (by rwa [Nat.mul_one]) hi' h
      · exact HasArr.row (w := 1) (by rwa [Nat.mul_one]) hi' h
    obtain ⟨v, hv, -⟩ := this
    exact ⟨v, hv, fun h => absurd h hnot⟩
  · have hno : ∀ l v, OwnAnswer k i l → index l → inv l v := fun l v h hx => absurd (hown i l h) (hi l hx)
    refine ob_row (fun d hd => .inr (.inr (elem_mk hi' hd))) fun q => ?_
    have hl : Spec.LoadsOnly (fun l => index l ∨ InArr "query" (n * dim) l) (fun l v => index l → inv l v) (find q) := by
      have := hf q
      revert this
      generalize find q = p
      induction p with
      | ret a => intro _; trivial
      | load l f ih => intro h; exact ⟨.inl h.1, fun v hv => ih v (h.2 v (hv h.1))⟩
      | store => intro h; exact h.elim
      | enter => intro h; exact h.elim
      | leave => intro h; exact h.elim
    refine loads_obey _ hl fun r => ?_
    refine ob_forN_bind (fun t ht => ?_) ?_
    · have ht' : t < k := Nat.lt_of_lt_of_le ht (Nat.min_le_right _ _)
      have o1 : OwnAnswer k i ⟨"query_result_ids", i * k + t, 0⟩ := .inl (inRow_mk ht')
      have o2 : OwnAnswer k i ⟨"query_result_dists", i * k + t, 0⟩ := .inr (.inl (inRow_mk ht'))
      exact ob_wr o1 (hno _ _ o1) (ob_wrl o2 (hno _ _ o2) rfl)
    · have o1 : OwnAnswer k i ⟨"stats.n_hops", i, 0⟩ := .inr (.inr (.inl inRow_one))
      have o2 : OwnAnswer k i ⟨"stats.n_cmps", i, 0⟩ := .inr (.inr (.inr (.inl inRow_one)))
      have o3 : OwnAnswer k i ⟨"latency_stats", i, 0⟩ := .inr (.inr (.inr (.inr inRow_one)))
      exact ob_wr o1 (hno _ _ o1) (ob_wr o2 (hno _ _ o2) (ob_wrl o3 (hno _ _ o3) rfl))

/-- **C91, queries.** The loops over the queries in the search programs (tests/search_vamana.cpp:125-136, search_hnsw.cpp:119-130, search_relng.cpp:120-131,
search_ivf.cpp:103-114) leave the answers of the serial loop, if the search only loads from the index, whatever it is and however it chooses what to load. -/
theorem C91_queries (find : List Nat → Par Nat (List (Nat × Nat) × Nat × Nat)) (time : Nat → Nat) (index : Loc → Prop) (inv : Loc → Nat → Prop)
    (hi : ∀ l, index l → l.arr ∉ Spec.answerArrays) (hf : ∀ q, Spec.LoadsOnly index inv (find q)) (dim k n : Nat) (m : Mem Nat)
    (h0 : ∀ l, index l → ∃ v, m l = some v ∧ inv l v) (h1 : HasArr m "query" (n * dim)) (h2 : HasArr m "query_result_ids" (n * k)) (h3 : HasArr m "query_result_dists" (n * k))
    (h4 : HasArr m "stats.n_hops" n) (h5 : HasArr m "stats.n_cmps" n) (h6 : HasArr m "latency_stats" n) :
    RunsAsSerial m (iters n (queryIter find time dim k)) :=
  (query_rows find time index inv hi hf dim k n m h0 h1 h2 h3 h4 h5 h6).1

/-! ## Examples -/

/-- Three points in one dimension; the list of the first has two entries, the others one. -/
def exLists : Mem Nat := fun l =>
  if l.arr = "out_nbrs" then some (if l.i = 0 then (if l.j = 0 then 2 else 1) else 0) else arrMem [("data", [5, 6, 9]), ("out_nbrs.size", [2, 1, 1])] l

theorem exLists_arr {arr : String} {n : Nat} (h : ∀ x < n, (arrMem [("data", [5, 6, 9]), ("out_nbrs.size", [2, 1, 1])] ⟨arr, x, 0⟩).isSome = true) (hne : arr ≠ "out_nbrs") :
    HasArr exLists arr n := by
  intro x hx
  obtain ⟨v, hv⟩ := Option.isSome_iff_exists.1 (h x hx)
  exact ⟨v, by simpa [exLists, hne] using hv⟩

/-- Pruning to one neighbour: the last of the list. -/
example : RunsAsSerial exLists (iters 3 (cleanupIter (fun _ nb _ => nb.drop 1) 1 1)) ∧
    (match serialLoop (iters 3 (cleanupIter (fun _ nb _ => nb.drop 1) 1 1)) exLists with
      | .ok F => [F ⟨"out_nbrs.size", 0, 0⟩, F ⟨"out_nbrs", 0, 0⟩, F ⟨"out_nbrs.size", 1, 0⟩, F ⟨"out_nbrs", 1, 0⟩]
      | .error _ => []) = [some 1, some 1, some 1, some 0] := by
  refine ⟨C91_cleanup _ (fun _ nb _ x hx => List.mem_of_mem_drop hx) 1 3 1 exLists (exLists_arr (by decide) (by decide)) (exLists_arr (by decide) (by decide)) ?_, by decide +kernel⟩
  intro v _ x
  refine ⟨if v = 0 then (if x = 0 then 2 else 1) else 0, by simp [exLists], ?_⟩
  split <;> [split; skip] <;> decide

/-- A search that looks at the point that the query names, and then at the point that this one names. -/
def exFind (q : List Nat) : Par Nat (List (Nat × Nat) × Nat × Nat) := do
  let a ← rdAt ⟨"index", q.getD 0 0 % 2, 0⟩
  let b ← rdAt ⟨"index", a, 0⟩
  .ret ([(a, b)], 2, 2)

def exQueryMem : List (String × List Nat) :=
  [("index", [1, 0]), ("query", [0, 1, 0]), ("query_result_ids", [7, 7, 7]), ("query_result_dists", [7, 7, 7]), ("stats.n_hops", [0, 0, 0]), ("stats.n_cmps", [0, 0, 0]),
    ("latency_stats", [0, 0, 0])]

example : RunsAsSerial (arrMem exQueryMem) (iters 3 (queryIter exFind id 1 1)) ∧
    (match serialLoop (iters 3 (queryIter exFind id 1 1)) (arrMem exQueryMem) with
      | .ok F => [F ⟨"query_result_ids", 0, 0⟩, F ⟨"query_result_ids", 1, 0⟩, F ⟨"query_result_dists", 1, 0⟩, F ⟨"stats.n_cmps", 2, 0⟩]
      | .error _ => []) = [some 1, some 0, some 1, some 2] := by
  refine ⟨C91_queries exFind id (InArr "index" 2) (fun _ v => v < 2) (fun l h => by rw [h.1]; decide) (fun q => ?_) 1 1 3 _ ?_ ?_ ?_ ?_ ?_ ?_ ?_, by decide +kernel⟩
  · exact ⟨⟨rfl, Nat.mod_lt _ (by decide), rfl⟩, fun a ha => ⟨⟨rfl, ha, rfl⟩, fun b _ => trivial⟩⟩
  · rintro ⟨arr, x, y⟩ ⟨rfl, hx, rfl⟩
    exact hasArrOf_arrMem (a := exQueryMem) (arr := "index") (n := 2) (P := fun v => v < 2) (by decide) (by decide) x hx
  all_goals exact hasArr_arrMem (by decide)

end Grann
