import Verif.Model.LabelFile
import Verif.Proofs.Labels0
import Verif.Props.BinFile
/-!
# Label files and the table of label entry points (C36, C37, C38)
-/

namespace Grann

namespace Spec

/-- `parts` are the parts of `b` separated by `sep`, where `sep` after the last part is optional (unless
the last part is empty). -/
def SplitBy (sep : UInt8) (b : Bytes) (parts : List Bytes) : Prop :=
  (∀ p ∈ parts, sep ∉ p) ∧
    (b = parts.flatMap (· ++ [sep]) ∨
      ∃ init last, parts = init ++ [last] ∧ last ≠ [] ∧ b = init.flatMap (· ++ [sep]) ++ last)

/-- A label that a label file can express: no comma, no line end. -/
def PlainLabel (l : Label) : Prop := (44 : UInt8) ∉ l ∧ (10 : UInt8) ∉ l ∧ (13 : UInt8) ∉ l

instance (l : Label) : Decidable (PlainLabel l) := by unfold PlainLabel; infer_instance

end Spec

/-! ## Splitting -/

theorem pieces_sep (sep : UInt8) : ∀ (a b : Bytes), sep ∉ a → pieces sep (a ++ sep :: b) = a :: pieces sep b := by
  intro a
  induction a with
  | nil => intro b _; simp [pieces]
  | cons c a ih =>
    intro b h
    rw [List.mem_cons, not_or] at h
    rw [List.cons_append, pieces, if_neg (fun e => h.1 e.symm), ih b h.2]

theorem pieces_last (sep : UInt8) : ∀ (a : Bytes), a ≠ [] → sep ∉ a → pieces sep a = [a] := by
  intro a
  induction a with
  | nil => intro h; exact absurd rfl h
  | cons c a ih =>
    intro _ h
    rw [List.mem_cons, not_or] at h
    rw [pieces, if_neg (fun e => h.1 e.symm)]
    cases a with
    | nil => rfl
    | cons c' a => rw [ih (by simp) h.2]

theorem pieces_flatMap (sep : UInt8) : ∀ (ps : List Bytes) (b : Bytes), (∀ p ∈ ps, sep ∉ p) →
    pieces sep (ps.flatMap (· ++ [sep]) ++ b) = ps ++ pieces sep b := by
  intro ps
  induction ps with
  | nil => intro b _; rfl
  | cons p ps ih =>
    intro b h
    rw [List.flatMap_cons, List.append_assoc, List.append_assoc, List.singleton_append,
      pieces_sep sep p _ (h p (by simp)), ih b (fun q hq => h q (by simp [hq]))]
    rfl

theorem pieces_split (sep : UInt8) : ∀ (b : Bytes), Spec.SplitBy sep b (pieces sep b) := by
  intro b
  induction b with
  | nil => exact ⟨by simp [pieces], .inl rfl⟩
  | cons c b ih =>
    obtain ⟨h1, h2⟩ := ih
    rw [pieces]
    by_cases hc : c = sep
    · rw [if_pos hc]
      refine ⟨?_, ?_⟩
      · intro p hp
        rcases List.mem_cons.mp hp with rfl | hp
        · simp
        · exact h1 p hp
      · rcases h2 with h2 | ⟨init, last, e, hl, h2⟩
        · left; rw [List.flatMap_cons, ← h2, hc]; rfl
        · right
          refine ⟨[] :: init, last, by rw [e]; rfl, hl, ?_⟩
          rw [List.flatMap_cons, List.append_assoc, ← h2, hc]; rfl
    · rw [if_neg hc]
      cases hp : pieces sep b with
      | nil =>
        rw [hp] at h2
        have hb : b = [] := by
          rcases h2 with h2 | ⟨init, last, e, -, -⟩
          · simpa using h2
          · exact absurd e (by simp)
        subst hb
        refine ⟨by simp; exact fun e => hc e.symm, .inr ⟨[], [c], rfl, by simp, rfl⟩⟩
      | cons p ps =>
        rw [hp] at h1 h2
        refine ⟨?_, ?_⟩
        · intro q hq
          rcases List.mem_cons.mp hq with rfl | hq
          · rw [List.mem_cons, not_or]; exact ⟨fun e => hc e.symm, h1 p (by simp)⟩
          · exact h1 q (by simp [hq])
        · rcases h2 with h2 | ⟨init, last, e, hl, h2⟩
          · left; rw [h2]; rfl
          · right
            cases init with
            | nil =>
              rw [List.nil_append, List.cons.injEq] at e
              obtain ⟨rfl, rfl⟩ := e
              refine ⟨[], c :: p, rfl, by simp, ?_⟩
              rw [h2]; rfl
            | cons i init =>
              rw [List.cons_append, List.cons.injEq] at e
              obtain ⟨rfl, rfl⟩ := e
              exact ⟨(c :: p) :: init, last, rfl, hl, by rw [h2]; rfl⟩

/-- `getline` splits as specified, and there is only one way to split. -/
theorem splitBy_iff (sep : UInt8) (b : Bytes) (ps : List Bytes) :
    Spec.SplitBy sep b ps ↔ ps = pieces sep b := by
  constructor
  · rintro ⟨h, rfl | ⟨init, last, rfl, hl, rfl⟩⟩
    · have := pieces_flatMap sep ps [] h
      simpa [pieces] using this.symm
    · rw [pieces_flatMap sep init last (fun p hp => h p (by simp [hp])),
        pieces_last sep last hl (h last (by simp))]
  · rintro rfl; exact pieces_split sep b

theorem forall₂_pieces {sep : UInt8} : ∀ (ls : List Bytes),
    List.Forall₂ (Spec.SplitBy sep) ls (ls.map (pieces sep))
  | [] => .nil
  | l :: ls => .cons (pieces_split sep l) (forall₂_pieces ls)

theorem pieces_eq_nil (sep : UInt8) (b : Bytes) : pieces sep b = [] ↔ b = [] := by
  constructor
  · intro h
    have := pieces_split sep b
    rw [h] at this
    rcases this.2 with h2 | ⟨init, last, e, -, -⟩
    · simpa using h2
    · exact absurd e (by simp)
  · rintro rfl; rfl

theorem stripEol_plain {l : Label} (h : Spec.PlainLabel l) : stripEol l = l := by
  unfold stripEol
  rw [List.filter_eq_self.mpr, List.filter_eq_self.mpr]
  · intro c hc; simp; rintro rfl; exact h.2.1 hc
  · intro c hc
    rw [List.filter_eq_self.mpr] at hc
    · simp; rintro rfl; exact h.2.2 hc
    · intro c hc; simp; rintro rfl; exact h.2.1 hc

theorem stripEol_plain_of {t : Bytes} (h : (44 : UInt8) ∉ t) : Spec.PlainLabel (stripEol t) := by
  unfold stripEol Spec.PlainLabel
  refine ⟨?_, by simp, by simp⟩
  intro hm
  exact h (List.mem_filter.mp (List.mem_filter.mp hm).1).1

/-! ## C37 -/

theorem parseLines_ok (sortL : List Label → List Label) : ∀ (lines : List Bytes) (pts : List (List Label))
    (seen : List Label), (∀ l ∈ lines, l ≠ []) →
    parseLines sortL lines pts seen =
      .ok (pts ++ lines.map (fun l => sortL ((pieces 44 l).map stripEol)),
        seen ++ lines.flatMap (fun l => (pieces 44 l).map stripEol)) := by
  intro lines
  induction lines with
  | nil => intro pts seen _; simp [parseLines]
  | cons l lines ih =>
    intro pts seen h
    have hl : ¬ ((pieces 44 l).map stripEol).length = 0 := by
      intro e
      rw [List.length_map, List.length_eq_zero_iff, pieces_eq_nil] at e
      exact h l (by simp) e
    rw [parseLines]
    rw [if_neg hl, ih _ _ (fun x hx => h x (by simp [hx]))]
    simp

theorem parseLines_exit (sortL : List Label → List Label) : ∀ (lines : List Bytes) (pts : List (List Label))
    (seen : List Label), ([] : Bytes) ∈ lines → parseLines sortL lines pts seen = .error .exit := by
  intro lines
  induction lines with
  | nil => intro pts seen h; simp at h
  | cons l lines ih =>
    intro pts seen h
    rw [parseLines]
    by_cases hl : l = []
    · subst hl; simp [pieces]
    · have hl' : ¬ ((pieces 44 l).map stripEol).length = 0 := by
        intro e
        rw [List.length_map, List.length_eq_zero_iff, pieces_eq_nil] at e
        exact hl e
      rw [if_neg hl']
      rcases List.mem_cons.mp h with h | h
      · exact absurd h.symm hl
      · exact ih _ _ h

/-- **C37.** A label file is accepted for a fresh object with `n` points exactly if it has `n` lines, none
of them empty; the labels of point `i` are then the comma-separated parts of line `i` without line-end
characters, sorted, and the set of known labels consists of these labels.  In all other cases the process
exits.  Files of arbitrary bytes are covered. -/
theorem C37_label_file_parsed (sortL : List Label → List Label) (hsort : IsStrSort sortL) (b : Bytes)
    (n : Nat) (lines : List Bytes) (fields : List (List Bytes)) (hlines : Spec.SplitBy 10 b lines)
    (hfields : List.Forall₂ (Spec.SplitBy 44) lines fields) :
    (lines.length = n ∧ [] ∉ lines →
      ∃ pts seen, parseLabels sortL (some b) [] [] n = .ok (pts, seen) ∧
        List.Forall₂ (fun ls fs => ls.Perm (fs.map (fun t => t.filter (fun c => c ≠ 10 ∧ c ≠ 13))) ∧
          SortedL ls) pts fields ∧ pts.length = n ∧ ∀ l, l ∈ seen ↔ ∃ ls ∈ pts, l ∈ ls) ∧
    (¬ (lines.length = n ∧ [] ∉ lines) → parseLabels sortL (some b) [] [] n = .error .exit) := by
  have e := (splitBy_iff _ _ _).mp hlines
  have hstrip : ∀ t : Bytes, t.filter (fun c => c ≠ 10 ∧ c ≠ 13) = stripEol t := by
    intro t; unfold stripEol; rw [List.filter_filter]; congr 1; funext c; simp [Bool.and_comm]
  unfold parseLabels
  rw [Option.getD_some, ← e]
  constructor
  · rintro ⟨hn, hne⟩
    rw [parseLines_ok sortL lines [] [] (fun l hl hx => hne (hx ▸ hl)), Res.ok_bind]
    refine ⟨_, _, by rw [if_neg (by simp [hn])], ?_, by simp [hn], ?_⟩
    · clear e hlines hn hne
      rw [List.nil_append]
      induction hfields with
      | nil => exact .nil
      | cons h _ ih =>
        refine .cons ?_ ih
        rw [(splitBy_iff _ _ _).mp h]
        simp only [hstrip]
        exact hsort _
    · intro l
      simp only [List.nil_append, List.mem_flatMap, List.mem_map]
      constructor
      · rintro ⟨line, hl, t, ht, rfl⟩
        exact ⟨_, ⟨line, hl, rfl⟩, (hsort _).1.mem_iff.mpr (List.mem_map.mpr ⟨t, ht, rfl⟩)⟩
      · rintro ⟨ls, ⟨line, hl, rfl⟩, hls⟩
        exact ⟨line, hl, List.mem_map.mp ((hsort _).1.mem_iff.mp hls)⟩
  · intro h
    by_cases hne : [] ∈ lines
    · rw [parseLines_exit sortL lines _ _ hne]; rfl
    · rw [parseLines_ok sortL lines [] [] (fun l hl hx => hne (hx ▸ hl)), Res.ok_bind]
      rw [if_pos]
      simp only [List.nil_append, List.length_map]
      exact fun hn => h ⟨hn, hne⟩

theorem sortedL_perm_eq : ∀ {a b : List Label}, a.Perm b → SortedL a → SortedL b → a = b := by
  intro a b hp ha hb
  exact hp.eq_of_pairwise (fun x y _ _ h1 h2 => strLt_antisymm h2 h1) ha hb

/-- Joining labels with commas, in any order. -/
def joinComma : List Label → Bytes
  | [] => []
  | [l] => l
  | l :: ls => l ++ [44] ++ joinComma ls

theorem joinComma_split : ∀ (ls : List Label) (tail : Bytes), (∀ l ∈ ls, Spec.PlainLabel l) →
    (44 : UInt8) ∉ tail → ∀ (hne : ls ≠ []), ls.getLast hne ++ tail ≠ [] →
    pieces 44 (joinComma ls ++ tail) = ls.dropLast ++ [ls.getLast hne ++ tail] := by
  intro ls
  induction ls with
  | nil => intro _ _ _ h; exact absurd rfl h
  | cons l ls ih =>
    intro tail hp ht hne hlast
    cases ls with
    | nil =>
      simp only [joinComma, List.getLast_singleton, List.dropLast_singleton, List.nil_append] at hlast ⊢
      apply pieces_last _ _ hlast
      rw [List.mem_append, not_or]; exact ⟨(hp l (by simp)).1, ht⟩
    | cons l' ls =>
      rw [joinComma, List.append_assoc, List.append_assoc, List.singleton_append,
        pieces_sep 44 l _ (hp l (by simp)).1]
      · rw [ih tail (fun x hx => hp x (by simp [hx])) ht (by simp) (by simpa using hlast)]
        simp
      · simp

/-- **C37.** The order of the labels on a line does not matter, nor whether lines end in LF or CRLF, as long
as every line has a label and the last label on each line is not empty. -/
theorem C37_order_and_line_ends (sortL : List Label → List Label) (hsort : IsStrSort sortL)
    (rows rows' : List (List Label)) (crs crs' : List Bool) (hlen : crs.length = rows.length)
    (hlen' : crs'.length = rows'.length)
    (hperm : List.Forall₂ List.Perm rows rows')
    (hplain : ∀ r ∈ rows, ∀ l ∈ r, Spec.PlainLabel l)
    (hlast : ∀ r ∈ rows, ∃ l, r.getLast? = some l ∧ l ≠ [])
    (hlast' : ∀ r ∈ rows', ∃ l, r.getLast? = some l ∧ l ≠ [])
    (file : List (List Label) → List Bool → Bytes)
    (hfile : ∀ rs cs, file rs cs =
      (rs.zip cs).flatMap (fun p => joinComma p.1 ++ (if p.2 then [13, 10] else [10]))) :
    ∃ pts seen seen', parseLabels sortL (some (file rows crs)) [] [] rows.length = .ok (pts, seen) ∧
      parseLabels sortL (some (file rows' crs')) [] [] rows.length = .ok (pts, seen') ∧
      List.Forall₂ (fun ls r => ls.Perm r ∧ SortedL ls) pts rows := by
  -- one file
  have one : ∀ (rs : List (List Label)) (cs : List Bool), cs.length = rs.length →
      (∀ r ∈ rs, ∀ l ∈ r, Spec.PlainLabel l) → (∀ r ∈ rs, ∃ l, r.getLast? = some l ∧ l ≠ []) →
      ∃ seen, parseLabels sortL (some (file rs cs)) [] [] rs.length = .ok (rs.map sortL, seen) := by
    intro rs cs hl hp hla
    have hsplit : pieces 10 (file rs cs) =
        (rs.zip cs).map (fun p => joinComma p.1 ++ (if p.2 then [13] else [])) := by
      symm
      rw [← splitBy_iff]
      have hnl : ∀ r : List Label, (∀ l ∈ r, Spec.PlainLabel l) → (10 : UInt8) ∉ joinComma r := by
        intro r
        induction r with
        | nil => intro _; simp [joinComma]
        | cons l r ih =>
          intro h
          cases r with
          | nil => simpa [joinComma] using (h l (by simp)).2.1
          | cons l' r =>
            rw [joinComma, List.mem_append, List.mem_append, not_or, not_or]
            · exact ⟨⟨(h l (by simp)).2.1, by decide⟩, ih (fun x hx => h x (by simp [hx]))⟩
            · simp
      refine ⟨?_, .inl ?_⟩
      · intro p hp'
        obtain ⟨q, hq, rfl⟩ := List.mem_map.mp hp'
        have hq1 : q.1 ∈ rs := (List.of_mem_zip (a := q.1) (b := q.2) hq).1
        rw [List.mem_append, not_or]
        refine ⟨hnl q.1 (hp q.1 hq1), ?_⟩
        split <;> decide
      · rw [hfile, List.flatMap_map]
        congr 1
        funext q
        split <;> simp
    have hrow : ∀ q ∈ rs.zip cs, (pieces 44 (joinComma q.1 ++ (if q.2 then [13] else []))).map stripEol = q.1 := by
      intro q hq
      have hq1 : q.1 ∈ rs := (List.of_mem_zip (a := q.1) (b := q.2) hq).1
      obtain ⟨l, hl1, hl2⟩ := hla q.1 hq1
      have hne : q.1 ≠ [] := by intro e; rw [e] at hl1; simp at hl1
      have hgl : q.1.getLast hne = l := by
        rw [List.getLast?_eq_some_getLast hne] at hl1; simpa using hl1
      rw [joinComma_split q.1 _ (hp q.1 hq1) (by split <;> decide) hne (by rw [hgl]; simp [hl2])]
      rw [List.map_append, List.map_cons, List.map_nil]
      have e1 : q.1.dropLast.map stripEol = q.1.dropLast := by
        conv_rhs => rw [← List.map_id q.1.dropLast]
        apply List.map_congr_left
        intro x hx
        exact stripEol_plain (hp q.1 hq1 x (List.dropLast_subset _ hx))
      have e2 : stripEol (q.1.getLast hne ++ (if q.2 then [13] else [])) = q.1.getLast hne := by
        have : stripEol (q.1.getLast hne ++ (if q.2 then [13] else [])) =
            stripEol (q.1.getLast hne) ++ stripEol (if q.2 then [13] else []) := by
          simp [stripEol]
        rw [this, stripEol_plain (hp q.1 hq1 _ (List.getLast_mem hne))]
        split <;> simp [stripEol]
      rw [e1, e2, List.dropLast_append_getLast]
    unfold parseLabels
    rw [Option.getD_some, hsplit, parseLines_ok]
    · have hpts : (((rs.zip cs).map (fun p => joinComma p.1 ++ (if p.2 then [13] else []))).map
          (fun l => sortL ((pieces 44 l).map stripEol))) = rs.map sortL := by
        rw [List.map_map]
        have : rs.map sortL = ((rs.zip cs).map Prod.fst).map sortL := by
          rw [List.map_fst_zip (by omega)]
        rw [this, List.map_map]
        apply List.map_congr_left
        intro q hq
        simp only [Function.comp_apply]
        rw [hrow q hq]
      rw [List.nil_append, hpts, Res.ok_bind, if_neg (by simp)]
      exact ⟨_, rfl⟩
    · intro l hl' hx
      obtain ⟨q, hq, rfl⟩ := List.mem_map.mp hl'
      have := hrow q hq
      rw [hx] at this
      have hq1 : q.1 ∈ rs := (List.of_mem_zip (a := q.1) (b := q.2) hq).1
      obtain ⟨l, hl1, hl2⟩ := hla q.1 hq1
      rw [← this] at hl1; simp [pieces] at hl1
  have hplain' : ∀ r ∈ rows', ∀ l ∈ r, Spec.PlainLabel l := by
    clear hlast hlast' hlen hlen' one
    induction hperm with
    | nil => simp
    | @cons a b ra rb h _ ih =>
      intro r hr l hl
      rcases List.mem_cons.mp hr with rfl | hr
      · exact hplain a (by simp) l (h.mem_iff.mpr hl)
      · exact ih (fun r hr => hplain r (by simp [hr])) r hr l hl
  have hsame : rows'.map sortL = rows.map sortL ∧ rows'.length = rows.length := by
    clear hlast hlast' hlen hlen' one hplain hplain'
    induction hperm with
    | nil => simp
    | @cons a b ra rb h _ ih =>
      obtain ⟨i1, i2⟩ := ih
      refine ⟨?_, by simp [i2]⟩
      rw [List.map_cons, List.map_cons, i1]
      congr 1
      exact sortedL_perm_eq ((hsort b).1.trans (h.symm.trans (hsort a).1.symm)) (hsort b).2 (hsort a).2
  obtain ⟨seen, h1⟩ := one rows crs hlen hplain hlast
  obtain ⟨seen', h2⟩ := one rows' crs' hlen' hplain' hlast'
  rw [hsame.1, hsame.2] at h2
  refine ⟨_, seen, seen', h1, h2, ?_⟩
  clear h1 h2 one hperm hplain hplain' hlast hlast' hlen hlen' hsame
  induction rows with
  | nil => exact .nil
  | cons r rows ih => exact .cons (hsort r) ih

/-- A concrete sort of strings, for examples. -/
def exStrInsert (x : Label) : List Label → List Label
  | [] => [x]
  | y :: ys => if strLt y x then y :: exStrInsert x ys else x :: y :: ys

def exStrSort : List Label → List Label
  | [] => []
  | x :: xs => exStrInsert x (exStrSort xs)

theorem exStrInsert_perm (x : Label) : ∀ l, (exStrInsert x l).Perm (x :: l)
  | [] => .refl _
  | y :: ys => by
    unfold exStrInsert
    split
    · exact ((exStrInsert_perm x ys).cons y).trans (.swap x y ys)
    · exact .refl _

theorem strLt_asymm {a b : Label} (h : strLt a b = true) : strLt b a = false := by
  by_contra hx
  have := strLt_trans h (by simpa using hx)
  rw [strLt_irrefl] at this; cases this

theorem exStrInsert_sorted (x : Label) : ∀ l, SortedL l → SortedL (exStrInsert x l) := by
  intro l
  induction l with
  | nil => intro _; simp [exStrInsert, SortedL]
  | cons y ys ih =>
    intro h
    have h := List.pairwise_cons.mp h
    unfold exStrInsert
    split
    · rename_i hyx
      refine List.pairwise_cons.mpr ⟨?_, ih h.2⟩
      intro z hz
      rcases List.mem_cons.mp ((exStrInsert_perm x ys).mem_iff.mp hz) with rfl | hz
      · exact strLt_asymm hyx
      · exact h.1 z hz
    · rename_i hyx
      have hyx : strLt y x = false := by simpa using hyx
      refine List.pairwise_cons.mpr ⟨?_, List.pairwise_cons.mpr h⟩
      intro z hz
      rcases List.mem_cons.mp hz with rfl | hz
      · exact hyx
      · exact strLe_trans hyx (h.1 z hz)

theorem exStrSort_isStrSort : IsStrSort exStrSort := by
  intro l
  induction l with
  | nil => exact ⟨.refl _, by simp [exStrSort]⟩
  | cons x xs ih =>
    exact ⟨(exStrInsert_perm x _).trans (ih.1.cons x), exStrInsert_sorted x _ ih.2⟩

-- "b,a\r\nc\n"
example : parseLabels exStrSort (some [98, 44, 97, 13, 10, 99, 10]) [] [] 2 =
    .ok ([[[97], [98]], [[99]]], [[98], [97], [99]]) := by decide

example : Spec.SplitBy 10 [98, 44, 97, 13, 10, 99, 10] [[98, 44, 97, 13], [99]] := by
  rw [splitBy_iff]; decide

/-- Exceptions to the documented format: a blank line is accepted, as the empty label, if lines end in
CRLF; a line that ends in a comma has one label more if lines end in CRLF. -/
theorem C37_crlf_exceptions :
    parseLabels exStrSort (some [97, 10, 10]) [] [] 2 = .error .exit ∧
    parseLabels exStrSort (some [97, 13, 10, 13, 10]) [] [] 2 = .ok ([[[97]], [[]]], [[97], []]) ∧
    parseLabels exStrSort (some [97, 44, 10]) [] [] 1 = .ok ([[[97]]], [[97]]) ∧
    parseLabels exStrSort (some [97, 44, 13, 10]) [] [] 1 = .ok ([[[], [97]]], [[97], []]) := by
  refine ⟨?_, ?_, ?_, ?_⟩ <;> decide

/-- An object that already has labels refuses to parse another non-empty label file for the same
points. -/
theorem C37_second_parse_refused (sortL : List Label → List Label) (b : Bytes) (pts0 : List (List Label))
    (seen0 : List Label) (n : Nat) (h0 : pts0.length = n) (hb : b ≠ []) :
    parseLabels sortL (some b) pts0 seen0 n = .error .exit := by
  unfold parseLabels
  rw [Option.getD_some]
  by_cases hne : [] ∈ pieces 10 b
  · rw [parseLines_exit sortL _ _ _ hne]; rfl
  · rw [parseLines_ok sortL _ _ _ (fun l hl hx => hne (hx ▸ hl)), Res.ok_bind, if_pos]
    have : pieces 10 b ≠ [] := by rw [Ne, pieces_eq_nil]; exact hb
    have := List.length_pos_of_ne_nil this
    simp only [List.length_append, List.length_map]; omega

/-! ## C36 -/

theorem labelRow_eq : ∀ (r : List Label), r ≠ [] → labelRow r = .ok (joinComma r ++ [10]) := by
  intro r
  induction r with
  | nil => intro h; exact absurd rfl h
  | cons l r ih =>
    intro _
    cases r with
    | nil => rfl
    | cons l' r =>
      rw [labelRow, ih (by simp)]
      · simp [joinComma]
      · simp

/-- What `save_labels` leaves in the file. -/
theorem saveLabels_run {P : Type} [DecidableEq P] (p : P) (pts : List (List Label)) (hne : ∀ r ∈ pts, r ≠ [])
    (fs : FS P) :
    ∃ ops, saveLabels p pts = .ok ops ∧ runOps ops fs = fun q => if q = p then
      some (pts.flatMap (fun r => joinComma r ++ [10])) else fs q := by
  refine ⟨[.create p] ++ (pts.map (fun r => joinComma r ++ [10])).map (.append p), ?_, ?_⟩
  · unfold saveLabels
    rw [mapM_eq_map _ (fun r => joinComma r ++ [10])]
    · rfl
    · intro r hr; exact labelRow_eq r (hne r hr)
  · funext q
    rw [runOps_append]
    obtain ⟨f1, f2⟩ := run_append_rows p (pts.map (fun r => joinComma r ++ [10]))
      (runOps [.create p] fs) [] (by simp [runOps, FOp.run])
    by_cases h : q = p
    · rw [if_pos h, h, f1]; simp [List.flatMap]
    · rw [if_neg h, f2 q h]; simp [runOps, FOp.run, h]

/-- Labels that survive: every point has a label that is not empty, labels are plain, lists are sorted. -/
def LabelsFit (pts : List (List Label)) : Prop :=
  ∀ r ∈ pts, SortedL r ∧ (∀ l ∈ r, Spec.PlainLabel l) ∧ ∃ l ∈ r, l ≠ []

theorem strLt_nil_right (a : Label) : strLt a [] = false := by cases a <;> rfl

/-- The last label of a sorted list with a label that is not empty is not empty. -/
theorem last_ne_nil {r : List Label} (hs : SortedL r) (hex : ∃ l ∈ r, l ≠ []) :
    ∃ l, r.getLast? = some l ∧ l ≠ [] := by
  obtain ⟨l, hl, hne⟩ := hex
  have hr : r ≠ [] := List.ne_nil_of_mem hl
  refine ⟨r.getLast hr, List.getLast?_eq_some_getLast hr, ?_⟩
  intro he
  rw [← List.dropLast_append_getLast hr] at hs hl
  rw [List.mem_append, List.mem_singleton] at hl
  rcases hl with hl | hl
  · have := (List.pairwise_append.mp hs).2.2 l hl (r.getLast hr) (by simp)
    rw [he] at this
    cases l with
    | nil => exact hne rfl
    | cons c l => simp [strLt] at this
  · exact hne (hl.trans he)

theorem parseLabels_saved (sortL : List Label → List Label) (hsort : IsStrSort sortL)
    (pts : List (List Label)) (hfit : LabelsFit pts) :
    ∃ seen, parseLabels sortL (some (pts.flatMap (fun r => joinComma r ++ [10]))) [] [] pts.length =
      .ok (pts, seen) := by
  obtain ⟨pts', seen, seen', h1, -, h3⟩ := C37_order_and_line_ends sortL hsort pts pts
    (List.replicate pts.length false) (List.replicate pts.length false) (by simp) (by simp)
    (by clear hfit; induction pts with
        | nil => exact .nil
        | cons r pts ih => exact .cons (.refl _) ih)
    (fun r hr => (hfit r hr).2.1) (fun r hr => last_ne_nil (hfit r hr).1 (hfit r hr).2.2)
    (fun r hr => last_ne_nil (hfit r hr).1 (hfit r hr).2.2) _ (fun _ _ => rfl)
  have hfile : (pts.zip (List.replicate pts.length false)).flatMap
      (fun p => joinComma p.1 ++ (if p.2 then [13, 10] else [10])) =
      pts.flatMap (fun r => joinComma r ++ [10]) := by
    clear h1 h3 hfit
    induction pts with
    | nil => rfl
    | cons r pts ih =>
      rw [List.length_cons, List.replicate_succ, List.zip_cons_cons, List.flatMap_cons, ih,
        List.flatMap_cons]
      rfl
  have hpts : pts' = pts := by
    clear h1 hfile
    induction h3 with
    | nil => rfl
    | @cons a b ra rb h _ ih =>
      rw [ih (fun r hr => hfit r (by simp [hr])), sortedL_perm_eq h.1 h.2 (hfit b (by simp)).1]
  rw [hfile, hpts] at h1
  exact ⟨seen, h1⟩

/-- **C36, under the condition that every point has a label that is not empty.** The labels obtained from
any label file survive saving and loading into a fresh object. -/
theorem C36_labels_round_trip {P : Type} [DecidableEq P] (sortL : List Label → List Label)
    (hsort : IsStrSort sortL) (file : Bytes) (n : Nat) (pts : List (List Label)) (seen : List Label)
    (hparse : parseLabels sortL (some file) [] [] n = .ok (pts, seen))
    (hne : ∀ r ∈ pts, ∃ l ∈ r, l ≠ []) (p : P) (fs : FS P) :
    ∃ ops seen', saveLabels p pts = .ok ops ∧
      parseLabels sortL (runOps ops fs p) [] [] n = .ok (pts, seen') ∧ ∀ l, l ∈ seen' ↔ l ∈ seen := by
  have hspec := C37_label_file_parsed sortL hsort file n (pieces 10 file)
    ((pieces 10 file).map (pieces 44)) (pieces_split _ _) (forall₂_pieces _)
  by_cases hc : (pieces 10 file).length = n ∧ [] ∉ pieces 10 file
  · obtain ⟨pts', seen', h1, h2, h3, h4⟩ := hspec.1 hc
    rw [hparse] at h1
    simp only [Except.ok.injEq, Prod.mk.injEq] at h1
    obtain ⟨rfl, rfl⟩ := h1
    have hplain : ∀ r ∈ pts, SortedL r ∧ ∀ l ∈ r, Spec.PlainLabel l := by
      rw [List.forall₂_map_right_iff] at h2
      clear hparse hspec hne h3 h4 hc
      generalize pieces 10 file = ls at h2
      induction h2 with
      | nil => simp
      | @cons a b ra rb h _ ih =>
        intro r hr
        rcases List.mem_cons.mp hr with rfl | hr
        · refine ⟨h.2, fun l hl => ?_⟩
          obtain ⟨t, ht, rfl⟩ := List.mem_map.mp (h.1.mem_iff.mp hl)
          have h44 := (pieces_split 44 b).1 t ht
          refine ⟨fun hx => h44 (List.mem_filter.mp hx).1, ?_, ?_⟩ <;> simp
        · exact ih r hr
    have hfit : LabelsFit pts := fun r hr => ⟨(hplain r hr).1, (hplain r hr).2, hne r hr⟩
    obtain ⟨ops, ho, hr⟩ := saveLabels_run p pts
      (fun r hr he => by obtain ⟨l, hl, -⟩ := hne r hr; rw [he] at hl; simp at hl) fs
    obtain ⟨seen'', hs⟩ := parseLabels_saved sortL hsort pts hfit
    rw [h3] at hs
    refine ⟨ops, seen'', ho, by rw [hr]; simp only [if_true]; exact hs, ?_⟩
    intro l
    have hspec' := C37_label_file_parsed sortL hsort (pts.flatMap (fun r => joinComma r ++ [10])) n _ _
      (pieces_split _ _) (forall₂_pieces _)
    by_cases hc' : (pieces 10 (pts.flatMap (fun r => joinComma r ++ [10]))).length = n ∧
        [] ∉ pieces 10 (pts.flatMap (fun r => joinComma r ++ [10]))
    · obtain ⟨pts2, seen2, g1, -, -, g4⟩ := hspec'.1 hc'
      rw [hs] at g1
      simp only [Except.ok.injEq, Prod.mk.injEq] at g1
      obtain ⟨rfl, rfl⟩ := g1
      rw [g4, h4]
    · rw [hspec'.2 hc'] at hs; cases hs
  · rw [hspec.2 hc] at hparse; cases hparse

example : parseLabels exStrSort (some [98, 44, 97, 13, 10, 99, 10]) [] [] 2 =
      .ok ([[[97], [98]], [[99]]], [[98], [97], [99]]) ∧
    (∀ r ∈ ([[[97], [98]], [[99]]] : List (List Label)), ∃ l ∈ r, l ≠ []) := by decide

/-- **C36 is false** for points all of whose labels are empty: labels `[""]` (one line `"\r\n"`) are saved
as an empty line, which makes the load exit; labels `["", ""]` come back as `[""]`. -/
theorem C36_empty_labels_lost :
    parseLabels exStrSort (some [13, 10]) [] [] 1 = .ok ([[[]]], [[]]) ∧
    (do let ops ← saveLabels () [[[]]]
        parseLabels exStrSort (runOps ops (fun _ => none) ()) [] [] 1) = .error .exit ∧
    parseLabels exStrSort (some [44, 13, 10]) [] [] 1 = .ok ([[[], []]], [[], []]) ∧
    (do let ops ← saveLabels () [[[], []]]
        parseLabels exStrSort (runOps ops (fun _ => none) ()) [] [] 1) = .ok ([[[]]], [[]]) := by
  refine ⟨?_, ?_, ?_, ?_⟩ <;> decide

/-- The universal label survives if it is not empty and has no white space. -/
theorem C36_universal_label (u old : Label) (hne : u ≠ []) (h : ∀ c ∈ u, isSpace c = false) :
    readWord (u ++ [10]) old = u := by
  unfold readWord
  have h1 : (u ++ [10]).dropWhile isSpace = u ++ [10] := by
    cases u with
    | nil => exact absurd rfl hne
    | cons c u => simp [h c (by simp)]
  have h2 : (u ++ [10]).takeWhile (fun c => !isSpace c) = u := by
    rw [List.takeWhile_append_of_pos (by intro c hc; simp [h c hc])]
    have : isSpace 10 = true := by decide
    simp [this]
  dsimp only
  rw [h1, h2]
  cases u with
  | nil => exact absurd rfl hne
  | cons c u => rfl

example : readWord [48, 10] [55] = [48] ∧ isSpace 48 = false := by decide

/-! ## C38 -/

theorem isDigit_ofNat {d : Nat} (h : d < 10) : isDigit (UInt8.ofNat (48 + d)) = true ∧
    (UInt8.ofNat (48 + d)).toNat - 48 = d := by
  have : d = 0 ∨ d = 1 ∨ d = 2 ∨ d = 3 ∨ d = 4 ∨ d = 5 ∨ d = 6 ∨ d = 7 ∨ d = 8 ∨ d = 9 := by omega
  rcases this with rfl | rfl | rfl | rfl | rfl | rfl | rfl | rfl | rfl | rfl <;> decide

theorem decimal_digits : ∀ (k x : Nat), x < 10 ^ k → 0 < k →
    (∀ c ∈ decimal k x, isDigit c = true) ∧ decimal k x ≠ [] ∧
      (decimal k x).foldl (fun a c => 10 * a + (c.toNat - 48)) 0 = x := by
  intro k
  induction k with
  | zero => intro x _ h; omega
  | succ k ih =>
    intro x hx _
    rw [decimal]
    by_cases h : x < 10
    · rw [if_pos h]
      obtain ⟨d1, d2⟩ := isDigit_ofNat h
      refine ⟨?_, by simp, ?_⟩
      · intro c hc; rw [List.mem_singleton.mp hc]; exact d1
      · rw [List.foldl_cons, List.foldl_nil, d2]; omega
    · rw [if_neg h]
      have hk : 0 < k := by
        by_contra hk
        have : k = 0 := by omega
        subst this; simp at hx; omega
      have hx' : x / 10 < 10 ^ k := by
        rw [Nat.pow_succ] at hx; omega
      obtain ⟨i1, -, i3⟩ := ih (x / 10) hx' hk
      obtain ⟨d1, d2⟩ := isDigit_ofNat (Nat.mod_lt x (by omega : 0 < 10))
      refine ⟨?_, by simp, ?_⟩
      · intro c hc
        rcases List.mem_append.mp hc with hc | hc
        · exact i1 c hc
        · rw [List.mem_singleton.mp hc]; exact d1
      · rw [List.foldl_append, i3]
        simp only [List.foldl_cons, List.foldl_nil, d2]; omega

theorem isDigit_not {c : UInt8} (h : isDigit c = true) : isSpace c = false ∧ c ≠ 43 ∧ c ≠ 45 ∧ c ≠ 44 ∧
    c ≠ 10 ∧ c ≠ 13 := by
  have hlt := c.toNat_lt
  unfold isDigit at h
  simp only [Bool.and_eq_true, decide_eq_true_eq, UInt8.le_iff_toNat_le] at h
  have e48 : (48 : UInt8).toNat = 48 := rfl
  have e57 : (57 : UInt8).toNat = 57 := rfl
  rw [e48, e57] at h
  have ne : ∀ d : UInt8, d.toNat < 48 → c ≠ d := by
    intro d hd e; rw [e] at h; omega
  refine ⟨?_, ne _ (by decide), ne _ (by decide), ne _ (by decide), ne _ (by decide), ne _ (by decide)⟩
  unfold isSpace
  simp only [Bool.or_eq_false_iff, Bool.and_eq_false_iff, decide_eq_false_iff_not,
    UInt8.le_iff_toNat_le]
  have e13 : (13 : UInt8).toNat = 13 := rfl
  refine ⟨.inr (by rw [e13]; omega), ne _ (by decide)⟩

theorem takeWhile_all {p : UInt8 → Bool} : ∀ {l : Bytes}, (∀ c ∈ l, p c = true) → l.takeWhile p = l := by
  intro l h
  have := List.takeWhile_append_of_pos (p := p) (l₁ := l) (l₂ := []) h
  simpa using this

/-- Reading back a printed number. -/
theorem stoul_decimal {x : Nat} (hx : x < 4294967296) : stoul (32 :: decimal 20 x) = .ok x := by
  obtain ⟨h1, h2, h3⟩ := decimal_digits 20 x (by omega) (by omega)
  obtain ⟨c, ds, hd⟩ : ∃ c ds, decimal 20 x = c :: ds := by
    cases hd : decimal 20 x with
    | nil => exact absurd hd h2
    | cons c ds => exact ⟨c, ds, rfl⟩
  have hc := isDigit_not (h1 c (by rw [hd]; simp))
  unfold stoul
  have hs : (32 :: decimal 20 x).dropWhile isSpace = decimal 20 x := by
    have : isSpace 32 = true := by decide
    rw [hd]; simp [this, hc.1]
  dsimp only
  rw [hs]
  have hh : (decimal 20 x).head? = some c := by rw [hd]; rfl
  rw [hh]
  have n1 : ¬ ((some c : Option UInt8) = some 43 ∨ (some c : Option UInt8) = some 45) := by
    simp [hc.2.1, hc.2.2.1]
  have n2 : ¬ (some c : Option UInt8) = some 45 := by simp [hc.2.2.1]
  rw [if_neg n1, takeWhile_all h1, if_neg (by simpa using h2), h3, if_neg (by omega)]
  simp [hc.2.2.1]

/-- Tables that a label file can give rise to. -/
def MedoidsFit (tab : List (Label × Nat)) : Prop :=
  (tab.map Prod.fst).Nodup ∧ ∀ e ∈ tab, Spec.PlainLabel e.1 ∧ e.2 < 4294967296

/-- The line written for an entry. -/
def medoidText (e : Label × Nat) : Bytes := e.1 ++ [44, 32] ++ decimal 20 e.2

theorem decimal_plain {x : Nat} (hx : x < 4294967296) (c : UInt8) (hc : c ∈ decimal 20 x) :
    c ≠ 44 ∧ c ≠ 10 ∧ c ≠ 13 := by
  obtain ⟨h1, -, -⟩ := decimal_digits 20 x (by omega) (by omega)
  have := isDigit_not (h1 c hc)
  exact ⟨this.2.2.2.1, this.2.2.2.2.1, this.2.2.2.2.2⟩

theorem medoidLine_text {e : Label × Nat} (hl : Spec.PlainLabel e.1) (hx : e.2 < 4294967296) :
    medoidLine (medoidText e) = .ok e := by
  have h44 : (44 : UInt8) ∉ 32 :: decimal 20 e.2 := by
    rw [List.mem_cons, not_or]; exact ⟨by decide, fun h => (decimal_plain hx _ h).1 rfl⟩
  have hp : pieces 44 (medoidText e) = [e.1, 32 :: decimal 20 e.2] := by
    unfold medoidText
    rw [List.append_assoc, show ([44, 32] ++ decimal 20 e.2 : Bytes) = 44 :: 32 :: decimal 20 e.2 from rfl,
      pieces_sep 44 e.1 _ hl.1, pieces_last 44 _ (by simp) h44]
  have hpl : Spec.PlainLabel (32 :: decimal 20 e.2) := by
    refine ⟨h44, ?_, ?_⟩
    · rw [List.mem_cons, not_or]; exact ⟨by decide, fun h => (decimal_plain hx _ h).2.1 rfl⟩
    · rw [List.mem_cons, not_or]; exact ⟨by decide, fun h => (decimal_plain hx _ h).2.2 rfl⟩
  unfold medoidLine
  rw [hp]
  dsimp only
  rw [medoidTokens, stripEol_plain hpl, stoul_decimal hx, Res.ok_bind, medoidTokens, Res.ok_bind,
    stripEol_plain hl, u32, Nat.mod_eq_of_lt hx]

theorem medoidLines_text : ∀ (tab tab0 : List (Label × Nat)), (tab0 ++ tab |>.map Prod.fst).Nodup →
    (∀ e ∈ tab, Spec.PlainLabel e.1 ∧ e.2 < 4294967296) →
    medoidLines (tab.map medoidText) tab0 = .ok (tab0 ++ tab) := by
  intro tab
  induction tab with
  | nil => intro tab0 _ _; simp [medoidLines]
  | cons e tab ih =>
    intro tab0 hn h
    rw [List.map_cons, medoidLines, medoidLine_text (h e (by simp)).1 (h e (by simp)).2, Res.ok_bind]
    have hnone : tab0.lookup e.1 = none := by
      by_contra hx
      obtain ⟨v, hv⟩ := Option.ne_none_iff_exists'.mp hx
      have := (mem_keys_iff_lookup tab0 e.1).mpr ⟨v, hv⟩
      rw [List.map_append, List.nodup_append] at hn
      exact hn.2.2 _ this e.1 (by simp) rfl
    rw [aset_of_lookup_none _ _ _ hnone, ih (tab0 ++ [(e.1, e.2)]) (by simpa using hn)
      (fun x hx => h x (by simp [hx]))]
    simp

theorem saveMedoids_run {P : Type} [DecidableEq P] (p : P) (tab : List (Label × Nat)) (fs : FS P) :
    runOps (saveMedoids p tab) fs = fun q => if q = p then
      some (tab.flatMap (fun e => medoidText e ++ [10])) else fs q := by
  have e : saveMedoids p tab = [.create p] ++ (tab.map (fun e => medoidText e ++ [10])).map (.append p) := by
    unfold saveMedoids medoidText
    rw [List.map_map]; rfl
  rw [e]
  funext q
  rw [runOps_append]
  obtain ⟨f1, f2⟩ := run_append_rows p (tab.map (fun e => medoidText e ++ [10]))
    (runOps [.create p] fs) [] (by simp [runOps, FOp.run])
  by_cases h : q = p
  · rw [if_pos h, h, f1]; simp [List.flatMap]
  · rw [if_neg h, f2 q h]; simp [runOps, FOp.run, h]

theorem loadMedoids_saved (tab tab0 : List (Label × Nat)) (hfit : MedoidsFit tab) :
    loadMedoids (some (tab.flatMap (fun e => medoidText e ++ [10]))) tab0 = .ok tab := by
  have hp : pieces 10 (tab.flatMap (fun e => medoidText e ++ [10])) = tab.map medoidText := by
    symm
    rw [← splitBy_iff]
    refine ⟨?_, .inl (by rw [List.flatMap_map])⟩
    intro t ht
    obtain ⟨e, he, rfl⟩ := List.mem_map.mp ht
    obtain ⟨h1, h2⟩ := hfit.2 e he
    unfold medoidText
    rw [List.mem_append, List.mem_append, not_or, not_or]
    exact ⟨⟨h1.2.1, by decide⟩, fun h => (decimal_plain h2 _ h).2.1 rfl⟩
  unfold loadMedoids
  dsimp only
  rw [hp, medoidLines_text tab [] (by simpa using hfit.1) hfit.2, List.nil_append]

/-- **C38, first part.** The table of label entry points round-trips: whatever the object and the file held
before, loading a saved table restores it exactly. -/
theorem C38_medoid_table_round_trip {P : Type} [DecidableEq P] (p : P) (fs : FS P)
    (tab tab0 : List (Label × Nat)) (hfit : MedoidsFit tab) :
    loadMedoids (runOps (saveMedoids p tab) fs p) tab0 = .ok tab := by
  rw [saveMedoids_run]
  simp only [if_true]
  exact loadMedoids_saved tab tab0 hfit

example : MedoidsFit [([97], 7), ([], 4294967295)] ∧
    loadMedoids (runOps (saveMedoids () [([97], 7), ([], 4294967295)]) (fun _ => some [1]) ()) [] =
      .ok [([97], 7), ([], 4294967295)] := by unfold MedoidsFit; decide

/-! ## The theorems applied to the examples -/

/-- C37: two lines, one of them ending in CRLF, labels of the first not sorted. -/
example := C37_label_file_parsed exStrSort exStrSort_isStrSort [98, 44, 97, 13, 10, 99, 10] 2
  [[98, 44, 97, 13], [99]] [[[98], [97, 13]], [[99]]] (by rw [splitBy_iff]; decide)
  (.cons (by rw [splitBy_iff]; decide) (.cons (by rw [splitBy_iff]; decide) .nil))

example := C37_order_and_line_ends exStrSort exStrSort_isStrSort [[[98], [97]], [[99]]] [[[97], [98]], [[99]]]
  [true, false] [false, false] rfl rfl (.cons (by decide) (.cons (by decide) .nil)) (by decide) (by decide)
  (by decide) _ (fun _ _ => rfl)

example : parseLabels exStrSort (some [97, 10]) [[[98]]] [[98]] 1 = .error .exit :=
  C37_second_parse_refused exStrSort [97, 10] [[[98]]] [[98]] 1 rfl (by decide)

example := C36_labels_round_trip exStrSort exStrSort_isStrSort [98, 44, 97, 13, 10, 99, 10] 2
  [[[97], [98]], [[99]]] [[98], [97], [99]] (by decide) (by decide) () (fun _ => some [1, 2])

example : readWord ([48, 49] ++ [10]) [55] = [48, 49] := C36_universal_label [48, 49] [55] (by decide) (by decide)

example := C38_medoid_table_round_trip () (fun _ => some [1]) [([97], 7), ([], 4294967295)] [([98], 3)]
  (by unfold MedoidsFit; decide)

end Grann
