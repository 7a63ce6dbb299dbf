import Verif.Proofs.PoolInv
import Verif.Proofs.Greedy
import Verif.Proofs.Centers
import Verif.Model.Lsh

namespace Grann

theorem mapM_rd_ok {α : Type} (a : List α) (dflt : α) : ∀ (l : List Nat), (∀ i ∈ l, i < a.length) →
    l.mapM (rd a) = .ok (l.map (fun i => a.getD i dflt)) := by
  intro l
  induction l with
  | nil => intro _; rfl
  | cons i l ih =>
    intro h
    have hi := h i (by simp)
    rw [List.mapM_cons, rd_ok hi, ih (fun j hj => h j (by simp [hj]))]
    simp [List.getD, List.getElem?_eq_getElem hi]

theorem scanPool_eq {rc : Nat} (h : rc < 2 ^ 32 - 1) :
    (⟨resizePool [] (u32 (rc + 1)), 0, [], 0, rc⟩ : PoolSt) = freshPool rc := by
  have : u32 (rc + 1) = rc + 1 := by unfold u32; omega
  rw [this]
  simp [resizePool, freshPool]

/-- The points a scan accepts. -/
def accSet {V : Type} (c : Ctx V) (filters : List Label) (cands : List Nat) : Finset Nat :=
  (cands.filter (fun i => decide (filterAccepts c filters i = .ok true))).toFinset

theorem mem_accSet {V : Type} {c : Ctx V} {filters : List Label} {cands : List Nat} {i : Nat} :
    i ∈ accSet c filters cands ↔ i ∈ cands ∧ filterAccepts c filters i = .ok true := by
  simp [accSet]

/-- The shared end of the IVF and LSH searches. -/
theorem scanSearch_spec {V : Type} (c : Ctx V) (q : V) (rc : Nat) (ind : List Nat)
    (dst : Option (List F32)) (filters : List Label) (cands : List Nat) (d : Nat → F32)
    (hd : ∀ i v, c.data[i]? = some v → d i = c.cmp q v)
    (hrc1 : 1 ≤ rc) (hrc : Spec.ListFits c.data.length rc)
    (hin : ∀ i ∈ cands, i < c.data.length)
    (hlab : filters ≠ [] → c.labels.length = c.data.length)
    (hfin : ∀ i, i < c.data.length → (d i).lt F32.fmax = true)
    (hind : rc ≤ ind.length) (hdst : ∀ l, dst = some l → rc ≤ l.length) :
    ∃ ids : List Nat, scanSearch c q rc ind dst filters cands =
        .ok (ids ++ ind.drop ids.length, dst.map (fun l => ids.map d ++ l.drop ids.length), ids.length) ∧
      Spec.KNearest rc (accSet c filters cands) d (ids.map (fun i => (i, d i))) := by
  let acc : Nat → Bool := fun i => decide (filterAccepts c filters i = .ok true)
  have hacc : ∀ id ∈ cands, filterAccepts c filters id = .ok (acc id) := by
    intro id hid
    obtain ⟨b, hb⟩ := filterAccepts_ok c filters id (fun h => by rw [hlab h]; exact hin id hid)
    simp only [acc]
    rw [hb]; cases b <;> simp
  obtain ⟨s, e, hs, hi, _, hkk⟩ := procBatches_spec c q filters rc d
    (fun i v h => (hd i v h).symm) hrc1 hrc acc [cands] (freshPool rc) (freshPool_sinv d rc) (by simp [freshPool])
    (by simpa using hin) (by simpa using hacc) (by
      intro _
      refine ⟨rfl, Nbr.dflt, by simp [freshPool, List.replicate_succ], fun id hid => ?_⟩
      exact hfin id (hin id (by simpa using List.mem_of_find?_eq_some hid)))
  have e' : procCands c q filters rc (freshPool rc) cands = .ok s := by
    rw [List.foldlM_cons] at e
    obtain ⟨s1, e1, e2⟩ := Res.bind_eq_ok.1 e
    have : s1 = s := by simpa using e2
    rw [← this]; exact e1
  have hk : KInv d rc s := hkk (freshPool_kinv d rc) (by simp [freshPool])
    (fun i hi _ => F32.isNum_of_lt_left (hfin i (hin i (by simpa using hi))))
  have hcl := hs.cur_le
  have hpl := hs.len
  have hlive : s.live.length = s.cur := hs.live_length
  have hres : rdList s.pool 0 s.cur = .ok s.live := by
    rw [rdList_ok _ _ _ (by omega)]; rfl
  have hcnt : (if s.cur < rc then s.cur else rc) = s.cur := by split <;> omega
  have hdists : s.live.map Nbr.dist = (s.live.map Nbr.id).map d := by
    rw [List.map_map]
    apply List.map_congr_left
    intro x hx
    exact hs.truth x hx
  have hlen : (s.live.map Nbr.id).length = s.cur := by rw [List.length_map, hlive]
  refine ⟨s.live.map Nbr.id, ?_, ?_⟩
  · unfold scanSearch
    rw [scanPool_eq hrc.1, e']
    simp only [Res.ok_bind]
    rw [hcnt, hres]
    simp only [Res.ok_bind]
    rw [wrList_ok _ _ _ (by rw [hlen]; omega)]
    simp only [Res.ok_bind, List.take_zero, List.nil_append, Nat.zero_add]
    cases hdst' : dst with
    | none => simp only [Res.ok_bind, Option.map_none]; rw [hlen]
    | some l =>
      have := hdst l hdst'
      have hl2 : (s.live.map Nbr.dist).length = s.cur := by rw [List.length_map, hlive]
      simp only []
      rw [wrList_ok _ _ _ (by rw [hl2]; omega)]
      simp only [Res.ok_bind, List.take_zero, List.nil_append, Nat.zero_add, Option.map_some]
      rw [hl2, hlen, hdists]
  · have : (s.live.map Nbr.id).map (fun i => (i, d i)) = s.live.map Nbr.pair := by
      rw [List.map_map]
      apply List.map_congr_left
      intro x hx
      show (x.id, d x.id) = (x.id, x.dist)
      rw [hs.truth x hx]
    rw [this]
    have hS : accSet c filters cands = s.ins.toFinset := by
      ext i
      rw [mem_accSet, List.mem_toFinset, hi, mem_addAccepted]
      simp [freshPool, acc]
    rw [hS]
    exact hk

/-- Candidates of an IVF search: the concatenated lists of the picked clusters. -/
theorem ivfCands_spec {V : Type} (pops : List F32 → List Nat) (hpops : IsPopOrder pops) (ix : Ivf V) (q : V)
    (pw : Nat) (hinv : ix.inv.length = ix.nc)
    (hrow : (ix.centreDist q).length = ix.nc) (hnum : ∀ x ∈ ix.centreDist q, x.IsNum)
    (hfin : pw = 1 → ∃ x ∈ ix.centreDist q, x.lt F32.fmax = true) :
    (pw ≤ ix.nc → ivfCands pops ix q pw =
      .ok ((pick pw pops (ix.centreDist q)).map (fun c => ix.inv.getD c [])).flatten) ∧
    (ix.nc < pw → ∀ l0, ix.inv[0]? = some l0 →
      ivfCands pops ix q pw = .ok (List.replicate pw l0).flatten) := by
  constructor
  · intro hk
    obtain ⟨h1, h2, _⟩ := pick_spec hpops hrow hk hnum hfin
    obtain ⟨inv', e, _⟩ := closestCenters_spec (maxBlk := 1000000) (nc := ix.nc) (k := pw) (pops := pops)
      (sched := fun _ l => l) (fun _ _ => List.Perm.refl _) (rows := [ix.centreDist q])
      (out0 := List.replicate pw 0) (inv0 := none) (by decide) (by simp) hk (by simpa using h1)
      (by simpa using h2) (by intro _ h; cases h) (by simp)
    unfold ivfCands
    rw [e]
    simp only [Res.ok_bind, List.flatMap_cons, List.flatMap_nil, List.append_nil]
    rw [List.drop_of_length_le (by simp), List.append_nil, mapM_rd_ok ix.inv []
      _ (by intro c hc; rw [hinv]; exact h2 c hc)]
    rfl
  · intro hk l0 hl0
    unfold ivfCands closestCenters
    rw [if_pos hk]
    simp only [Res.ok_bind]
    rw [mapM_rd_ok ix.inv [] _ (by
      intro i hi
      rw [(List.mem_replicate.1 hi).2]
      exact (List.getElem?_eq_some_iff.1 hl0).1)]
    simp [List.getD, hl0]

/-- Rank-wise comparison of two correct answers over growing sets. -/
theorem _root_.Spec.KNearest.mono {k : Nat} {S1 S2 : Finset Nat} {d : Nat → F32} {A1 A2 : List (Nat × F32)}
    (h1 : Spec.KNearest k S1 d A1) (h2 : Spec.KNearest k S2 d A2) (hS : S1 ⊆ S2)
    (hnum : ∀ i ∈ S2, (d i).IsNum) :
    ∀ r (hr : r < A1.length), ∃ hr2 : r < A2.length, (A2[r]).2.le (A1[r]).2 = true := by
  intro r hr
  have hlen : A1.length ≤ A2.length := by
    rw [h1.length, h2.length]
    have := Finset.card_le_card hS
    omega
  have hr2 : r < A2.length := by omega
  refine ⟨hr2, ?_⟩
  by_contra hcon
  have m1 := h1.mem _ (List.getElem_mem hr)
  have m2 := h2.mem _ (List.getElem_mem hr2)
  have hn1 : (A1[r]).2.IsNum := by rw [m1.2]; exact hnum _ (hS m1.1)
  have hn2 : (A2[r]).2.IsNum := by rw [m2.2]; exact hnum _ m2.1
  have hlt : (A1[r]).2.lt (A2[r]).2 = true :=
    (F32.not_le_iff_lt hn2 hn1).1 (by simpa using hcon)
  -- the first `r + 1` ids of `A1` all appear among the first `r` ids of `A2`
  have hsub : (A1.take (r + 1)).map Prod.fst ⊆ (A2.take r).map Prod.fst := by
    intro i hi
    obtain ⟨x, hx, rfl⟩ := List.mem_map.1 hi
    have hxle : x.2.lt (A2[r]).2 = true := by
      rw [List.take_add_one, List.getElem?_eq_getElem hr] at hx
      rcases List.mem_append.1 hx with hx | hx
      · have hs := h1.sorted
        rw [← List.take_append_drop r A1, List.pairwise_append] at hs
        have : A1[r] ∈ A1.drop r := by
          rw [List.mem_iff_getElem]; exact ⟨0, by simp; omega, by simp⟩
        exact F32.lt_of_le_of_lt (hs.2.2 x hx _ this) hlt
      · have : x = A1[r] := by simpa using hx
        rw [this]; exact hlt
    have mx := h1.mem x (List.mem_of_mem_take hx)
    have hin : x.1 ∈ A2.map Prod.fst := by
      by_contra hnot
      have := h2.best x.1 (hS mx.1) hnot _ (List.getElem_mem hr2)
      rw [← mx.2] at this
      have := F32.lt_eq_false_of_le this
      rw [hxle] at this; cases this
    obtain ⟨y, hy, hyx⟩ := List.mem_map.1 hin
    have my := h2.mem y hy
    have hyd : y.2 = x.2 := by rw [my.2, mx.2, hyx]
    have hs := h2.sorted
    rw [← List.take_append_drop r A2] at hy
    rcases List.mem_append.1 hy with hy | hy
    · exact List.mem_map.2 ⟨y, hy, hyx⟩
    · exfalso
      rw [List.drop_eq_getElem_cons hr2] at hy
      rcases List.mem_cons.1 hy with h | h
      · rw [← hyd, h] at hxle
        rw [F32.lt_irrefl] at hxle; cases hxle
      · rw [← List.take_append_drop r A2, List.pairwise_append, List.drop_eq_getElem_cons hr2,
          List.pairwise_cons] at hs
        have := hs.2.1.1 y h
        rw [hyd] at this
        have := F32.lt_eq_false_of_le this
        rw [hxle] at this; cases this
  have hnd : ((A1.take (r + 1)).map Prod.fst).Nodup := by
    rw [List.map_take]; exact h1.nodup.sublist (List.take_sublist _ _)
  have := (hnd.subperm hsub).length_le
  simp only [List.length_map, List.length_take] at this
  omega

/-! ## LSH buckets -/

theorem Buckets.get_push (b : Buckets) (hs : b.Pairwise (fun x y => x.1 < y.1)) (key : Nat) (vs : List Nat)
    (key' : Nat) : (b.push key vs).get key' = b.get key' ++ (if key' = key then vs else []) := by
  induction b with
  | nil =>
    unfold Buckets.push Buckets.get
    by_cases h : key = key'
    · simp [h, Buckets.get]
    · simp [h, Buckets.get, Ne.symm h]
  | cons p b ih =>
    obtain ⟨k, l⟩ := p
    rw [List.pairwise_cons] at hs
    unfold Buckets.push
    by_cases h1 : key < k
    · rw [if_pos h1]
      by_cases h : key = key'
      · subst h
        have hne : ∀ q ∈ b, q.1 ≠ key := fun q hq => by have := hs.1 q hq; simp only at this; omega
        have hget : Buckets.get b key = [] := by
          clear ih hs
          induction b with
          | nil => rfl
          | cons r b ih2 =>
            unfold Buckets.get
            rw [if_neg (hne r (by simp))]
            exact ih2 (fun q hq => hne q (by simp [hq]))
        simp [Buckets.get, show ¬ k = key by omega, hget]
      · simp [Buckets.get, h, Ne.symm h]
    · rw [if_neg h1]
      by_cases h2 : k = key
      · rw [if_pos h2]
        subst h2
        by_cases h : k = key'
        · simp [Buckets.get, h]
        · simp [Buckets.get, h, Ne.symm h]
      · rw [if_neg h2]
        unfold Buckets.get
        by_cases h : k = key'
        · simp only [if_pos h]
          rw [if_neg (by omega)]; simp
        · simp only [if_neg h]
          exact ih hs.2

theorem Buckets.push_keys (b : Buckets) (key : Nat) (vs : List Nat) :
    ∀ p ∈ b.push key vs, p.1 = key ∨ ∃ q ∈ b, q.1 = p.1 := by
  induction b with
  | nil => intro p hp; simp [Buckets.push] at hp; left; rw [hp]
  | cons r b ih =>
    obtain ⟨k, l⟩ := r
    intro p hp
    unfold Buckets.push at hp
    split at hp
    · rcases List.mem_cons.1 hp with rfl | hp
      · left; rfl
      · right; exact ⟨p, hp, rfl⟩
    · split at hp
      · rcases List.mem_cons.1 hp with rfl | hp
        · right; exact ⟨(k, l), by simp, rfl⟩
        · right; exact ⟨p, by simp [hp], rfl⟩
      · rcases List.mem_cons.1 hp with rfl | hp
        · right; exact ⟨(k, l), by simp, rfl⟩
        · rcases ih p hp with h | ⟨q, hq, h⟩
          · left; exact h
          · right; exact ⟨q, by simp [hq], h⟩

theorem Buckets.push_sorted (b : Buckets) (hs : b.Pairwise (fun x y => x.1 < y.1)) (key : Nat) (vs : List Nat) :
    (b.push key vs).Pairwise (fun x y => x.1 < y.1) := by
  induction b with
  | nil => simp [Buckets.push]
  | cons r b ih =>
    obtain ⟨k, l⟩ := r
    rw [List.pairwise_cons] at hs
    unfold Buckets.push
    split
    · rename_i h
      rw [List.pairwise_cons, List.pairwise_cons]
      refine ⟨?_, hs⟩
      intro p hp
      rcases List.mem_cons.1 hp with rfl | hp
      · exact h
      · have := hs.1 p hp
        simp only at this ⊢
        omega
    · split
      · rw [List.pairwise_cons]
        exact hs
      · rename_i h1 h2
        rw [List.pairwise_cons]
        refine ⟨?_, ih hs.2⟩
        intro p hp
        rcases Buckets.push_keys b key vs p hp with h | ⟨q, hq, h⟩
        · simp only; omega
        · have := hs.1 q hq
          simp only at this ⊢
          omega

/-- A table as `build` and `load` make it: enough hyperplanes, buckets in key order. -/
structure HTable.OK {H : Type} (t : HTable H) : Prop where
  hps : t.hps.length = t.size
  sorted : t.buckets.Pairwise (fun x y => x.1 < y.1)

/-- The hash as a number. -/
def hashOf {H V : Type} (dot : H → V → F32) (hps : List H) (v : V) : Nat :=
  hps.foldr (fun h acc => (if F32.zero.lt (dot h v) then 1 else 0) + 2 * acc) 0

theorem getHash_ok {H V : Type} (dot : H → V → F32) {t : HTable H} (ht : t.hps.length = t.size) (v : V) :
    getHash dot t v = .ok (hashOf dot t.hps v) := by
  unfold getHash
  rw [rdList_ok _ _ _ (by omega)]
  simp only [Res.ok_bind, List.drop_zero]
  rw [List.take_of_length_le (by omega)]
  rfl

theorem lshCands_spec {H V : Type} (dot : H → V → F32) (q : V) : ∀ (tables : List (HTable H)),
    (∀ t ∈ tables, t.OK) →
    lshCands dot q tables = .ok
      (tables.map (fun t => { t with buckets := t.buckets.push (hashOf dot t.hps q) [] }),
       (tables.map (fun t => t.buckets.get (hashOf dot t.hps q))).flatten) := by
  intro tables
  induction tables with
  | nil => intro _; rfl
  | cons t ts ih =>
    intro h
    have ht := h t (by simp)
    unfold lshCands
    rw [getHash_ok dot ht.hps, ih (fun t' h' => h t' (by simp [h']))]
    simp only [Res.ok_bind]
    rw [Buckets.get_push _ ht.sorted]
    simp

/-- Filling one table. -/
theorem lshFill_spec {H V : Type} (dot : H → V → F32) (data : List V) (tags : List Nat)
    (htags : data.length ≤ tags.length) (t : HTable H) (ht : t.OK) :
    ∃ t', lshFill dot data tags t = .ok t' ∧ t'.OK ∧ t'.hps = t.hps ∧ t'.size = t.size ∧
      ∀ key, t'.buckets.get key = t.buckets.get key ++
        ((data.zipIdx.filter (fun p => hashOf dot t.hps p.1 == key)).map (fun p => tags.getD p.2 0)) := by
  unfold lshFill
  have : ∀ (l : List (V × Nat)) (t0 : HTable H), t0.OK → t0.hps = t.hps → (∀ p ∈ l, p.2 < tags.length) →
      ∃ t', l.foldlM (fun t p => do
          let h ← getHash dot t p.1
          let tag ← rd tags p.2
          (.ok (t.add h tag) : Res (HTable H))) t0 = .ok t' ∧ t'.OK ∧ t'.hps = t.hps ∧ t'.size = t0.size ∧
        ∀ key, t'.buckets.get key = t0.buckets.get key ++
          ((l.filter (fun p => hashOf dot t.hps p.1 == key)).map (fun p => tags.getD p.2 0)) := by
    intro l
    induction l with
    | nil => intro t0 h0 h1 _; exact ⟨t0, rfl, h0, h1, rfl, by simp⟩
    | cons p l ih =>
      intro t0 h0 h1 hl
      have hp := hl p (by simp)
      let t1 := t0.add (hashOf dot t.hps p.1) tags[p.2]
      have ht1 : t1.OK := ⟨h0.hps, Buckets.push_sorted _ h0.sorted _ _⟩
      obtain ⟨t', e, o, h2, h3, h4⟩ := ih t1 ht1 h1 (fun p' h' => hl p' (by simp [h']))
      refine ⟨t', ?_, o, h2, h3, ?_⟩
      · rw [List.foldlM_cons, getHash_ok dot h0.hps, h1, rd_ok hp]
        exact e
      · intro key
        rw [h4]
        show (t0.buckets.push _ _).get key ++ _ = _
        rw [Buckets.get_push _ h0.sorted]
        by_cases hk : key = hashOf dot t.hps p.1
        · subst hk
          simp [List.getD, List.getElem?_eq_getElem hp]
        · simp [hk, Ne.symm hk]
  obtain ⟨t', e, o, h1, h2, h3⟩ := this data.zipIdx t ht rfl (by
    intro p hp
    have := (List.mem_zipIdx hp).2.1
    omega)
  exact ⟨t', e, o, h1, h2, h3⟩

theorem mapM_ok_of_forall {α β : Type} {f : α → Res β} {R : α → β → Prop} : ∀ (l : List α),
    (∀ x ∈ l, ∃ y, f x = .ok y ∧ R x y) → ∃ ys, l.mapM f = .ok ys ∧ List.Forall₂ R l ys := by
  intro l
  induction l with
  | nil => intro _; exact ⟨[], rfl, .nil⟩
  | cons x l ih =>
    intro h
    obtain ⟨y, hy, hR⟩ := h x (by simp)
    obtain ⟨ys, hys, hF⟩ := ih (fun x' h' => h x' (by simp [h']))
    refine ⟨y :: ys, ?_, .cons hR hF⟩
    rw [List.mapM_cons, hy, hys]
    rfl

/-- A built LSH index: one table per list of hyperplanes, every point's tag in the bucket of its hash. -/
theorem lshBuild_spec {H V : Type} (dot : H → V → F32) (data : List V) (tags : List Nat)
    (htags : data.length ≤ tags.length) (tableSize : Nat) (hsize : tableSize ≤ 64) (hps : List (List H))
    (hh : ∀ h ∈ hps, h.length = tableSize) :
    ∃ ts, lshBuild dot data tags tableSize hps = .ok ts ∧
      List.Forall₂ (fun h t => t.OK ∧ t.hps = h ∧ t.size = tableSize ∧ ∀ key, t.buckets.get key =
        ((data.zipIdx.filter (fun p => hashOf dot h p.1 == key)).map (fun p => tags.getD p.2 0))) hps ts := by
  have h1 : hps.mapM (fun h => if tableSize > 64 then (.error .exit : Res (HTable H))
      else .ok ⟨h, tableSize, []⟩) = .ok (hps.map (fun h => ⟨h, tableSize, []⟩)) := by
    clear hh
    induction hps with
    | nil => rfl
    | cons h hps ih =>
      rw [List.mapM_cons, if_neg (by omega), ih]
      rfl
  have h2 : ∀ (l : List (List H)), (∀ h ∈ l, h.length = tableSize) →
      ∃ ts, (l.map (fun h => (⟨h, tableSize, []⟩ : HTable H))).mapM (lshFill dot data tags) = .ok ts ∧
      List.Forall₂ (fun h t => t.OK ∧ t.hps = h ∧ t.size = tableSize ∧ ∀ key, t.buckets.get key =
        ((data.zipIdx.filter (fun p => hashOf dot h p.1 == key)).map (fun p => tags.getD p.2 0))) l ts := by
    intro l
    induction l with
    | nil => intro _; exact ⟨[], rfl, .nil⟩
    | cons h l ih =>
      intro hl
      obtain ⟨t', e, o, a, b, c⟩ := lshFill_spec dot data tags htags ⟨h, tableSize, []⟩
        ⟨hl h (by simp), List.Pairwise.nil⟩
      obtain ⟨ts, ets, hF⟩ := ih (fun h' hh' => hl h' (by simp [hh']))
      refine ⟨t' :: ts, ?_, .cons ⟨o, a, b, ?_⟩ hF⟩
      · rw [List.map_cons, List.mapM_cons, e, ets]; rfl
      · intro key; rw [c key]; simp [Buckets.get]
  obtain ⟨ts, e, hF⟩ := h2 hps hh
  refine ⟨ts, ?_, hF⟩
  unfold lshBuild
  rw [h1]
  exact e

end Grann
