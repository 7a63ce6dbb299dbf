import Verif.Props.Ivf
import Verif.Model.Lsh
/-!
# C17, C18 and the LSH parts of C08, C11, C12, C13
-/

namespace Grann

open Spec (KNearest Matches Reports)

/-- A stored point `i` collides with the query in some table: all its dot products with that table's
hyperplanes have the same signs as the query's. -/
def Collides {H V : Type} (dot : H → V → F32) (hps : List (List H)) (v q : V) : Prop :=
  ∃ h ∈ hps, ∀ x ∈ h, F32.zero.lt (dot x v) = F32.zero.lt (dot x q)

theorem hashOf_eq_iff {H V : Type} (dot : H → V → F32) (v q : V) : ∀ h : List H,
    hashOf dot h v = hashOf dot h q ↔ ∀ x ∈ h, F32.zero.lt (dot x v) = F32.zero.lt (dot x q) := by
  intro h
  induction h with
  | nil => simp [hashOf]
  | cons x h ih =>
    unfold hashOf at ih ⊢
    rw [List.foldr_cons, List.foldr_cons, List.forall_mem_cons, ← ih]
    generalize List.foldr _ 0 h = a
    generalize List.foldr _ 0 h = b
    cases F32.zero.lt (dot x v) <;> cases F32.zero.lt (dot x q) <;> simp <;> omega

/-- What a freshly built table list looks like, and stays like under queries: hyperplanes and, for every
hash, the points with that hash. -/
def LshHolds {H V : Type} (dot : H → V → F32) (data : List V) (tags : List Nat) (hps : List (List H))
    (tables : List (HTable H)) : Prop :=
  List.Forall₂ (fun h t => t.OK ∧ t.hps = h ∧ ∀ key, t.buckets.get key =
    ((data.zipIdx.filter (fun p => hashOf dot h p.1 == key)).map (fun p => tags.getD p.2 0))) hps tables

theorem LshHolds.ok {H V : Type} {dot : H → V → F32} {data : List V} {tags : List Nat} {hps : List (List H)}
    {tables : List (HTable H)} (h : LshHolds dot data tags hps tables) : ∀ t ∈ tables, t.OK := by
  induction h with
  | nil => simp
  | cons a _ ih =>
    intro t ht
    rcases List.mem_cons.1 ht with rfl | ht
    · exact a.1
    · exact ih t ht

theorem lshBuild_holds {H V : Type} (dot : H → V → F32) (data : List V) (tags : List Nat)
    (htags : data.length ≤ tags.length) (tableSize : Nat) (hsize : tableSize ≤ 64) (hps : List (List H))
    (hh : ∀ h ∈ hps, h.length = tableSize) :
    ∃ ts, lshBuild dot data tags tableSize hps = .ok ts ∧ LshHolds dot data tags hps ts := by
  obtain ⟨ts, e, hf⟩ := lshBuild_spec dot data tags htags tableSize hsize hps hh
  exact ⟨ts, e, hf.imp (fun h t hp => ⟨hp.1, hp.2.1, hp.2.2.2⟩)⟩

/-- Candidates of a query, with default tags: exactly the colliding points. -/
theorem lshCands_mem {H V : Type} {dot : H → V → F32} {data : List V} {hps : List (List H)}
    {tables : List (HTable H)} (h : LshHolds dot data (List.range data.length) hps tables) (q : V) :
    ∃ tables' cs, lshCands dot q tables = .ok (tables', cs) ∧
      ∀ i, i ∈ cs ↔ ∃ v, data[i]? = some v ∧ Collides dot hps v q := by
  refine ⟨_, _, lshCands_spec dot q tables h.ok, ?_⟩
  intro i
  induction h with
  | nil => simp [Collides]
  | @cons hp t hps tables a _ ih =>
    obtain ⟨_, hhp, hget⟩ := a
    rw [List.map_cons, List.flatten_cons, List.mem_append, ih, hhp, hget]
    constructor
    · rintro (h1 | ⟨v, hv, hd, hm, hx⟩)
      · obtain ⟨p, hpf, hpi⟩ := List.mem_map.1 h1
        obtain ⟨hpm, hph⟩ := List.mem_filter.1 hpf
        have hlt := (List.mem_zipIdx' hpm).1
        have hv := (List.mem_zipIdx' hpm).2
        have : i = p.2 := by
          rw [← hpi]; simp [List.getD, hlt]
        subst this
        refine ⟨p.1, by rw [List.getElem?_eq_getElem hlt, ← hv], hp, by simp, ?_⟩
        exact (hashOf_eq_iff dot p.1 q hp).1 (by simpa using hph)
      · exact ⟨v, hv, hd, List.mem_cons_of_mem _ hm, hx⟩
    · rintro ⟨v, hv, hd, hm, hx⟩
      rcases List.mem_cons.1 hm with rfl | hm
      · left
        obtain ⟨hlt, hve⟩ := List.getElem?_eq_some_iff.1 hv
        refine List.mem_map.2 ⟨(v, i), List.mem_filter.2 ⟨?_, ?_⟩, ?_⟩
        · rw [List.mem_zipIdx_iff_getElem?]; exact hv
        · simpa using (hashOf_eq_iff dot v q hd).2 hx
        · simp [List.getD, hlt]
      · right; exact ⟨v, hv, hd, hm, hx⟩

/-- The answer of an LSH search with default tags: the exact `res_count` nearest among the colliding,
accepted points. -/
theorem lshSearch_spec {H V : Type} (dot : H → V → F32) (c : Ctx V) (hps : List (List H))
    (tables : List (HTable H)) (h : LshHolds dot c.data (List.range c.data.length) hps tables)
    (q : V) (d : Nat → F32) (hd : ∀ i v, c.data[i]? = some v → d i = c.cmp q v)
    (hfin : ∀ i, i < c.data.length → (d i).lt F32.fmax = true) (filters : List Label)
    (hlab : filters ≠ [] → c.labels.length = c.data.length)
    (rc : Nat) (hrc1 : 1 ≤ rc) (hrc : Spec.ListFits c.data.length rc)
    (ind : List Nat) (dst : Option (List F32)) (hind : rc ≤ ind.length)
    (hdst : ∀ l, dst = some l → rc ≤ l.length) :
    ∃ (tables' : List (HTable H)) (ids : List Nat) (S : Finset Nat),
      lshSearch dot c tables q rc ind dst filters = .ok (tables', ids ++ ind.drop ids.length,
        dst.map (fun l => ids.map d ++ l.drop ids.length), ids.length) ∧
      (∀ i, i ∈ S ↔ (∃ v, c.data[i]? = some v ∧ Collides dot hps v q) ∧
        filterAccepts c filters i = .ok true) ∧
      KNearest rc S d (ids.map (fun i => (i, d i))) := by
  obtain ⟨tables', cs, hc, hm⟩ := lshCands_mem h q
  obtain ⟨ids, e, hk⟩ := scanSearch_spec c q rc ind dst filters cs d hd hrc1 hrc
    (by
      intro i hi
      obtain ⟨v, hv, _⟩ := (hm i).1 hi
      exact (List.getElem?_eq_some_iff.1 hv).1) hlab hfin hind hdst
  refine ⟨tables', ids, accSet c filters cs, ?_, ?_, hk⟩
  · unfold lshSearch
    rw [hc]
    simp only [Res.ok_bind, e]
  · intro i
    rw [mem_accSet, hm]

/-! ## C17 -/

/-- **C17.** For every data set, every choice of at least one table of at most 64 hyperplanes: building
succeeds, and searching (without filter, `res_count ≥ 1`) for a vector equal to an indexed one returns
at least one result; results are distinct indexed points in order of distance, and the first is at
least as close as the indexed vector itself — in particular it is that vector if no other point is as
close. -/
theorem C17_self_found {H V : Type} (dot : H → V → F32) (c : Ctx V) (tableSize : Nat)
    (hsize : tableSize ≤ 64) (hps : List (List H)) (hne : hps ≠ [])
    (hh : ∀ h ∈ hps, h.length = tableSize)
    (q : V) (i : Nat) (hq : c.data[i]? = some q)
    (d : Nat → F32) (hd : ∀ i v, c.data[i]? = some v → d i = c.cmp q v)
    (hfin : ∀ i, i < c.data.length → (d i).lt F32.fmax = true)
    (rc : Nat) (hrc1 : 1 ≤ rc) (hrc : Spec.ListFits c.data.length rc)
    (ind : List Nat) (dst : List F32) (hind : rc ≤ ind.length) (hdst : rc ≤ dst.length) :
    ∃ tables, lshBuild dot c.data (List.range c.data.length) tableSize hps = .ok tables ∧
    ∃ (tables' : List (HTable H)) (b : Nat) (rest : List Nat) (ind' : List Nat) (dst' : List F32),
      lshSearch dot c tables q rc ind (some dst) [] = .ok (tables', ind', some dst', (b :: rest).length) ∧
      Reports id d (fun j => j < c.data.length) (b :: rest) ind' dst' ∧
      (d b).le (d i) = true ∧
      ((∀ j < c.data.length, j ≠ i → (d i).lt (d j) = true) → b = i) := by
  obtain ⟨tables, e, hold⟩ := lshBuild_holds dot c.data (List.range c.data.length) (by simp) tableSize
    hsize hps hh
  refine ⟨tables, e, ?_⟩
  obtain ⟨tables', ids, S, es, hS, hk⟩ := lshSearch_spec dot c hps tables hold q d hd hfin [] (by simp)
    rc hrc1 hrc ind (some dst) hind (by intro l h; cases h; exact hdst)
  have hiS : i ∈ S := (hS i).2 ⟨⟨q, hq, by
    obtain ⟨h, hm⟩ := List.exists_mem_of_ne_nil hps hne
    exact ⟨h, hm, fun _ _ => rfl⟩⟩, by simp [filterAccepts]⟩
  have hlen := hk.length
  have hcard : 1 ≤ S.card := Finset.card_pos.2 ⟨i, hiS⟩
  rw [List.length_map] at hlen
  have hgood : ∀ j ∈ S, j < c.data.length := by
    intro j hj
    obtain ⟨⟨v, hv, _⟩, _⟩ := (hS j).1 hj
    exact (List.getElem?_eq_some_iff.1 hv).1
  cases ids with
  | nil => simp at hlen; omega
  | cons b rest =>
    have hrep := KNearest.reports hk ind dst _ hgood
    have hle : (d b).le (d i) = true := by
      by_cases hib : i ∈ b :: rest
      · rcases List.mem_cons.1 hib with rfl | hir
        · exact F32.le_refl (F32.isNum_of_lt_left (hfin i (hgood i hiS)))
        · exact (List.pairwise_cons.1 hrep.sorted).1 i hir
      · have := hk.best i hiS (by rw [List.map_map]; simpa [Function.comp_def] using hib) (b, d b) (by simp)
        exact this
    refine ⟨tables', b, rest, _, _, es, hrep, hle, ?_⟩
    intro hu
    by_contra hbi
    have := hu b (hrep.good b (by simp)) hbi
    have h2 := F32.lt_eq_false_of_le hle
    rw [this] at h2; cases h2

/-! ## C18 -/

theorem lshHolds_push {H V : Type} {dot : H → V → F32} {data : List V} {tags : List Nat} {hps : List (List H)}
    {tables : List (HTable H)} (h : LshHolds dot data tags hps tables) (q : V) :
    LshHolds dot data tags hps
      (tables.map (fun t => { t with buckets := t.buckets.push (hashOf dot t.hps q) [] })) := by
  induction h with
  | nil => exact .nil
  | cons a _ ih =>
    refine .cons ⟨⟨a.1.hps, Buckets.push_sorted _ a.1.sorted _ _⟩, a.2.1, ?_⟩ ih
    intro key
    rw [← a.2.2 key]
    show (Buckets.push _ _ _).get key = _
    rw [Buckets.get_push _ a.1.sorted]
    simp

/-- Two table lists that no lookup can tell apart. -/
def SameTables {H : Type} (a b : List (HTable H)) : Prop :=
  List.Forall₂ (fun s t => s.OK ∧ t.OK ∧ s.hps = t.hps ∧ ∀ key, s.buckets.get key = t.buckets.get key) a b

theorem SameTables.cands {H V : Type} (dot : H → V → F32) (q : V) {a b : List (HTable H)}
    (h : SameTables a b) : ∃ a' b' cs, lshCands dot q a = .ok (a', cs) ∧ lshCands dot q b = .ok (b', cs) ∧
      SameTables a' a ∧ SameTables b' b := by
  have ha : ∀ t ∈ a, t.OK := by
    induction h with
    | nil => simp
    | cons x _ ih =>
      intro t ht
      rcases List.mem_cons.1 ht with rfl | ht
      · exact x.1
      · exact ih t ht
  have hb : ∀ t ∈ b, t.OK := by
    clear ha
    induction h with
    | nil => simp
    | cons x _ ih =>
      intro t ht
      rcases List.mem_cons.1 ht with rfl | ht
      · exact x.2.1
      · exact ih t ht
  have push : ∀ l : List (HTable H), (∀ t ∈ l, t.OK) → SameTables
      (l.map (fun t => { t with buckets := t.buckets.push (hashOf dot t.hps q) [] })) l := by
    intro l hl
    induction l with
    | nil => exact .nil
    | cons t l ih =>
      have ht := hl t (by simp)
      refine .cons ⟨⟨ht.hps, Buckets.push_sorted _ ht.sorted _ _⟩, ht, rfl, ?_⟩
        (ih (fun t' h' => hl t' (by simp [h'])))
      intro key
      show (Buckets.push _ _ _).get key = _
      rw [Buckets.get_push _ ht.sorted]
      simp
  refine ⟨_, _, _, lshCands_spec dot q a ha, ?_, push a ha, push b hb⟩
  rw [lshCands_spec dot q b hb]
  congr 2
  clear ha hb push
  induction h with
  | nil => rfl
  | cons x _ ih =>
    rw [List.map_cons, List.map_cons, List.flatten_cons, List.flatten_cons, ih, x.2.2.1, x.2.2.2]

/-- The arguments of one search call. -/
structure LshCall (V : Type) where
  q : V
  rc : Nat
  ind : List Nat
  dst : Option (List F32)
  filters : List Label

/-- A sequence of search calls on the index (each continuing with the tables the previous one left). -/
def lshRun {H V : Type} (dot : H → V → F32) (c : Ctx V) :
    List (HTable H) → List (LshCall V) → Res (List (HTable H))
  | ts, [] => .ok ts
  | ts, k :: ks => do
    let r ← lshSearch dot c ts k.q k.rc k.ind k.dst k.filters
    lshRun dot c r.1 ks

theorem SameTables.left_ok {H : Type} {a b : List (HTable H)} (h : SameTables a b) : ∀ t ∈ a, t.OK := by
  unfold SameTables at h
  induction h with
  | nil => simp
  | cons x _ ih =>
    intro t ht
    rcases List.mem_cons.1 ht with rfl | ht
    · exact x.1
    · exact ih t ht

theorem SameTables.refl {H : Type} : ∀ {a : List (HTable H)}, (∀ t ∈ a, t.OK) → SameTables a a
  | [], _ => .nil
  | t :: a, h => .cons ⟨h t (by simp), h t (by simp), rfl, fun _ => rfl⟩ (SameTables.refl (fun t' h' => h t' (by simp [h'])))

theorem SameTables.trans {H : Type} {a b e : List (HTable H)} (h1 : SameTables a b) : SameTables b e → SameTables a e := by
  unfold SameTables at h1
  induction h1 generalizing e with
  | nil => intro h2; cases h2; exact .nil
  | cons x _ ih =>
    intro h2
    cases h2 with
    | cons y hy => exact .cons ⟨x.1, y.2.1, x.2.2.1.trans y.2.2.1,
        fun key => (x.2.2.2 key).trans (y.2.2.2 key)⟩ (ih hy)

/-- Searches leave tables that no lookup can tell from those before. -/
theorem SameTables.run {H V : Type} (dot : H → V → F32) (c : Ctx V) {T : List (HTable H)} : ∀ (ks : List (LshCall V)) (ts ts' : List (HTable H)),
    SameTables ts T → lshRun dot c ts ks = .ok ts' → SameTables ts' T := by
  intro ks
  induction ks with
  | nil => intro ts ts' h1 h2; simp [lshRun] at h2; cases h2; exact h1
  | cons k ks ih =>
    intro ts ts' h1 h2
    unfold lshRun at h2
    obtain ⟨a', b', cs, ea, _, hsa, _⟩ := h1.cands dot k.q
    unfold lshSearch at h2
    rw [ea] at h2
    simp only [Res.ok_bind] at h2
    obtain ⟨r, hr, h2⟩ := Res.bind_eq_ok.1 h2
    obtain ⟨r', hr', h3⟩ := Res.bind_eq_ok.1 hr
    cases h3
    exact ih a' ts' (hsa.trans h1) h2

/-- **C18.** After any sequence of earlier queries, every query gives the answer (buffers and count, or
error) it would have given on the index as built — for any build, with or without custom tags. -/
theorem C18_queries_independent {H V : Type} (dot : H → V → F32) (c : Ctx V) (data : List V)
    (tags : List Nat) (tableSize : Nat) (hps : List (List H)) (hh : ∀ h ∈ hps, h.length = tableSize)
    (htags : data.length ≤ tags.length)
    (tables : List (HTable H)) (hb : lshBuild dot data tags tableSize hps = .ok tables)
    (earlier : List (LshCall V)) (tables' : List (HTable H))
    (hrun : lshRun dot c tables earlier = .ok tables') (k : LshCall V) :
    (lshSearch dot c tables' k.q k.rc k.ind k.dst k.filters).map Prod.snd =
      (lshSearch dot c tables k.q k.rc k.ind k.dst k.filters).map Prod.snd := by
  have hsize : hps = [] ∨ tableSize ≤ 64 := by
    by_cases hs : tableSize ≤ 64
    · right; exact hs
    · left
      cases hps with
      | nil => rfl
      | cons h t =>
        exfalso
        unfold lshBuild at hb
        rw [List.mapM_cons, if_pos (by omega)] at hb
        cases hb
  have hrefl : SameTables tables tables := by
    rcases hsize with rfl | hs
    · have : tables = [] := by
        unfold lshBuild at hb
        simp at hb
        cases hb; rfl
      subst this; exact .nil
    · obtain ⟨ts, e, hold⟩ := lshBuild_holds dot data tags htags tableSize hs hps hh
      rw [hb] at e
      cases e
      have := hold.ok
      clear hb hrun hold
      induction tables with
      | nil => exact .nil
      | cons t l ih =>
        exact .cons ⟨this t (by simp), this t (by simp), rfl, fun _ => rfl⟩
          (ih (fun t' h' => this t' (by simp [h'])))
  have hsame : SameTables tables' tables := SameTables.run dot c earlier tables tables' hrefl hrun
  obtain ⟨a', b', cs, ea, eb, _, _⟩ := hsame.cands dot k.q
  unfold lshSearch
  rw [ea, eb]
  simp only [Res.ok_bind]
  cases scanSearch c k.q k.rc k.ind k.dst k.filters cs <;> rfl

/-! ## C08, C11 -/

/-- **C08 / C11 (LSH, default tags).** At most `res_count` results, distinct, with their distances in
order, all matching the filter; fewer than `res_count` only if every colliding point that the filter
test accepts is reported. -/
theorem C11_lsh_count {H V : Type} (dot : H → V → F32) (c : Ctx V) (tableSize : Nat)
    (hsize : tableSize ≤ 64) (hps : List (List H)) (hh : ∀ h ∈ hps, h.length = tableSize)
    (q : V) (d : Nat → F32) (hd : ∀ i v, c.data[i]? = some v → d i = c.cmp q v)
    (hfin : ∀ i, i < c.data.length → (d i).lt F32.fmax = true) (filters : List Label)
    (hlab : filters ≠ [] → c.labels.length = c.data.length)
    (rc : Nat) (hrc1 : 1 ≤ rc) (hrc : Spec.ListFits c.data.length rc)
    (ind : List Nat) (dst : List F32) (hind : rc ≤ ind.length) (hdst : rc ≤ dst.length) :
    ∃ tables, lshBuild dot c.data (List.range c.data.length) tableSize hps = .ok tables ∧
    ∃ (tables' : List (HTable H)) (ids ind' : List Nat) (dst' : List F32),
      lshSearch dot c tables q rc ind (some dst) filters = .ok (tables', ind', some dst', ids.length) ∧
      ids.length ≤ rc ∧
      Reports id d (fun i => (∃ v, c.data[i]? = some v ∧ Collides dot hps v q) ∧
        Matches c.useUniv c.univ filters (c.labels.getD i [])) ids ind' dst' ∧
      (ids.length < rc → ∀ i v, c.data[i]? = some v → Collides dot hps v q →
        filterAccepts c filters i = .ok true → i ∈ ids) ∧
      ind'.drop ids.length = ind.drop ids.length ∧ dst'.drop ids.length = dst.drop ids.length := by
  obtain ⟨tables, e, hold⟩ := lshBuild_holds dot c.data (List.range c.data.length) (by simp) tableSize
    hsize hps hh
  refine ⟨tables, e, ?_⟩
  obtain ⟨tables', ids, S, es, hS, hk⟩ := lshSearch_spec dot c hps tables hold q d hd hfin filters hlab
    rc hrc1 hrc ind (some dst) hind (by intro l h; cases h; exact hdst)
  refine ⟨tables', ids, _, _, es, ?_, KNearest.reports hk ind dst _ ?_, ?_, ?_, ?_⟩
  · have := hk.length
    rw [List.length_map] at this; omega
  · intro i hi
    obtain ⟨h1, h2⟩ := (hS i).1 hi
    refine ⟨h1, filterAccepts_sound (fun hne => ?_) h2⟩
    obtain ⟨v, hv, _⟩ := h1
    have hlt : i < c.labels.length := by rw [hlab hne]; exact (List.getElem?_eq_some_iff.1 hv).1
    simp [List.getD, List.getElem?_eq_getElem hlt]
  · intro hlt i v hv hc hacc
    have := hk.all_of_short (by rw [List.length_map]; exact hlt) i ((hS i).2 ⟨⟨v, hv, hc⟩, hacc⟩)
    simpa using this
  · simp
  · rw [List.drop_append_of_le_length (by simp), List.drop_of_length_le (by simp)]; rfl

/-- **C08 (LSH).** Every point reported by a filtered LSH search matches the filter. -/
theorem C08_lsh_results_match {H V : Type} (dot : H → V → F32) (c : Ctx V) (tableSize : Nat)
    (hsize : tableSize ≤ 64) (hps : List (List H)) (hh : ∀ h ∈ hps, h.length = tableSize)
    (q : V) (d : Nat → F32) (hd : ∀ i v, c.data[i]? = some v → d i = c.cmp q v)
    (hfin : ∀ i, i < c.data.length → (d i).lt F32.fmax = true) (filters : List Label)
    (hlab : c.labels.length = c.data.length)
    (rc : Nat) (hrc1 : 1 ≤ rc) (hrc : Spec.ListFits c.data.length rc)
    (ind : List Nat) (dst : List F32) (hind : rc ≤ ind.length) (hdst : rc ≤ dst.length) :
    ∃ tables, lshBuild dot c.data (List.range c.data.length) tableSize hps = .ok tables ∧
    ∃ (tables' : List (HTable H)) (ids ind' : List Nat) (dst' : List F32),
      lshSearch dot c tables q rc ind (some dst) filters = .ok (tables', ind', some dst', ids.length) ∧
      Reports id d (fun i => Matches c.useUniv c.univ filters (c.labels.getD i [])) ids ind' dst' := by
  obtain ⟨tables, e, tables', ids, ind', dst', es, _, hr, _⟩ := C11_lsh_count dot c tableSize hsize hps hh
    q d hd hfin filters (fun _ => hlab) rc hrc1 hrc ind dst hind hdst
  exact ⟨tables, e, tables', ids, ind', dst', es, hr.tags, hr.dists, hr.distinct,
    fun i hi => (hr.good i hi).2, hr.sorted⟩

/-! ## Concrete instance, C12 and C13 -/

/-- Three points 0, 1, 3 on a line. -/
def exLshC : Ctx F32 :=
  { data := [F32.zero, F32.one, ⟨0x40400000#32⟩], labels := [[[97]], [[97], [98]], [[98]]],
    useUniv := false, univ := [48], cmp := fun q v => if q = v then F32.zero else F32.one }

/-- Two tables with one hyperplane each; the "dot product" takes the sign from `h` and `v`. -/
def exDot (h : Bool) (v : F32) : F32 := if h then v else F32.zero

def exLshD (i : Nat) : F32 := if i = 1 then F32.zero else F32.one

example : (∀ i v, exLshC.data[i]? = some v → exLshD i = exLshC.cmp F32.one v) ∧
    (∀ i, i < exLshC.data.length → (exLshD i).lt F32.fmax = true) := by
  refine ⟨?_, by decide⟩
  intro i v h
  have hl := (List.getElem?_eq_some_iff.1 h).1
  have : i = 0 ∨ i = 1 ∨ i = 2 := by
    have : i < 3 := hl
    omega
  rcases this with rfl | rfl | rfl <;> (cases h; decide)

/-- Build and query: with one table on the first hyperplane, points 1 and 2 collide with the query 1. -/
example : ∃ ts ts', lshBuild exDot exLshC.data [0, 1, 2] 1 [[true]] = .ok ts ∧
    lshSearch exDot exLshC ts F32.one 2 [9, 9] none [] = .ok (ts', [1, 2], none, 2) ∧
    lshSearch exDot exLshC ts F32.one 2 [9, 9] none [[97]] = .ok (ts', [1, 9], none, 1) :=
  ⟨[⟨[true], 1, [(0, [0]), (1, [1, 2])]⟩], [⟨[true], 1, [(0, [0]), (1, [1, 2])]⟩],
    by decide, by decide, by decide⟩

/-- A query that creates an empty bucket and leaves a later query unchanged. -/
example : ∃ ts', lshBuild exDot [F32.one] [0] 1 [[true]] = .ok [⟨[true], 1, [(1, [0])]⟩] ∧
    lshRun exDot exLshC [⟨[true], 1, [(1, [0])]⟩] [⟨F32.zero, 1, [9], none, []⟩] = .ok ts' ∧
    ts' = [⟨[true], 1, [(0, []), (1, [0])]⟩] := ⟨_, by decide, by decide, rfl⟩

/-- **C12 / C13 (LSH with tags, negative).** With caller-supplied tags the buckets hold tags, and the
search reads vectors at position *tag*: a tag that is not a position of the index makes every search
that meets it read outside the data. -/
theorem C13_lsh_tag_out_of_range {H V : Type} (dot : H → V → F32) (c : Ctx V) (q : V) (rc : Nat)
    (tag : Nat) (htag : c.data.length ≤ tag) (t : HTable H) (ht : t.OK) (rest : List Nat)
    (hget : t.buckets.get (hashOf dot t.hps q) = tag :: rest)
    (ind : List Nat) (dst : Option (List F32)) :
    lshSearch dot c [t] q rc ind dst [] = .error .ub := by
  unfold lshSearch
  rw [lshCands_spec dot q [t] (by simpa using ht)]
  simp only [Res.ok_bind, List.map_cons, List.map_nil, List.flatten_cons, List.flatten_nil,
    List.append_nil, hget]
  unfold scanSearch procCands
  rw [List.foldlM_cons]
  have : ∀ s : PoolSt, s.ins = [] → procOne c q [] rc s tag = .error .ub := by
    intro s hs
    simp [procOne, filterAccepts, hs, rd_ub htag]
  rw [this _ rfl]
  rfl

/-- Witness: one point tagged 100, looked up by itself. -/
theorem C13_lsh_tag_witness :
    ∃ ts, lshBuild exDot [F32.one] [100] 1 [[true]] = .ok ts ∧
      lshSearch exDot { exLshC with data := [F32.one] } ts F32.one 1 [9] none [] = .error .ub :=
  ⟨[⟨[true], 1, [(1, [100])]⟩], by decide, by decide⟩

/-- And with tags that are positions, another point's distance is used for ranking: of two points with
swapped tags, the query equal to point 0 gets tag 0, the tag of point 1. -/
theorem C13_lsh_wrong_tag :
    ∃ ts ts', lshBuild exDot [F32.one, ⟨0x40400000#32⟩] [1, 0] 1 [[true]] = .ok ts ∧
      lshSearch exDot { exLshC with data := [F32.one, ⟨0x40400000#32⟩] } ts F32.one 1 [9]
        (some [F32.inf]) [] = .ok (ts', [0], some [F32.zero], 1) :=
  ⟨[⟨[true], 1, [(1, [1, 0])]⟩], [⟨[true], 1, [(1, [1, 0])]⟩], by decide, by decide⟩

/-! ## The theorems applied to the examples -/

theorem exLshD_eq : ∀ i v, exLshC.data[i]? = some v → exLshD i = exLshC.cmp F32.one v := by
  intro i v h
  have : i < 3 := (List.getElem?_eq_some_iff.1 h).1
  have : i = 0 ∨ i = 1 ∨ i = 2 := by omega
  rcases this with rfl | rfl | rfl <;> (cases h; decide)

/-- C17: the query is point 1; two tables. -/
example := C17_self_found exDot exLshC 1 (by decide) [[true], [false]] (by decide) (by decide) F32.one 1 rfl
  exLshD exLshD_eq (by decide) 2 (by decide) (by decide) [9, 9] [F32.nan, F32.nan] (by decide) (by decide)

/-- C18: the earlier query creates an empty bucket; tags are used. -/
example := C18_queries_independent exDot exLshC [F32.one] [2] 1 [[true]] (by decide) (by decide)
  [⟨[true], 1, [(1, [2])]⟩] (by decide) [⟨F32.zero, 1, [9], none, []⟩]
  [⟨[true], 1, [(0, []), (1, [2])]⟩] (by decide) ⟨F32.one, 1, [9], none, []⟩

example := C11_lsh_count exDot exLshC 1 (by decide) [[true], [false]] (by decide) F32.one exLshD exLshD_eq
  (by decide) [[97]] (by decide) 2 (by decide) (by decide) [9, 9] [F32.nan, F32.nan] (by decide) (by decide)

example := C08_lsh_results_match exDot exLshC 1 (by decide) [[true], [false]] (by decide) F32.one exLshD
  exLshD_eq (by decide) [[97]] (by decide) 2 (by decide) (by decide) [9, 9] [F32.nan, F32.nan] (by decide)
  (by decide)

/-- Two points tagged 100 and 1; the first one's tag is no position. -/
example : lshSearch exDot exLshC [⟨[true], 1, [(1, [100, 1])]⟩] F32.one 1 [9] none [] = .error .ub :=
  C13_lsh_tag_out_of_range exDot exLshC F32.one 1 100 (by decide) ⟨[true], 1, [(1, [100, 1])]⟩ ⟨by decide, by decide⟩
    [1] (by decide) [9] none

end Grann
