import Verif.Model.Shard
import Verif.Proofs.Centers
import Verif.Proofs.MapM
import Verif.Props.Sample
import Verif.Props.BinFile
/-!
# Sharding
-/

namespace Grann

/-- A shard after the points of `l` (with repetitions) have been added. -/
def Shard.of (wd : Bool) (dim : Nat) (g : Nat → Bytes) (l : List Nat) : Shard :=
  ⟨if wd then le 4 0 ++ le 4 dim ++ l.flatMap g else [], le 4 0 ++ le 4 1 ++ l.flatMap (le 4), u64 l.length⟩

theorem Shard.push_of (wd : Bool) (dim : Nat) (g : Nat → Bytes) (l : List Nat) (row : Bytes) (id : Nat)
    (hid : id < 4294967296) (hrow : wd = true → row = g id) :
    (Shard.of wd dim g l).push wd row id = Shard.of wd dim g (l ++ [id]) := by
  unfold Shard.push Shard.of
  have h1 : u32 id = id := Nat.mod_eq_of_lt hid
  have h2 : u64 (u64 l.length + 1) = u64 (l ++ [id]).length := by
    unfold u64; rw [List.length_append, Nat.mod_add_mod]; rfl
  dsimp only
  rw [h1, h2]
  cases wd with
  | false => simp
  | true => rw [hrow rfl]; simp

theorem map_range_set {α : Type} (f : Nat → α) (n c : Nat) (x : α) :
    ((List.range n).map f).set c x = (List.range n).map (fun i => if i = c then x else f i) := by
  apply List.ext_getElem?
  intro i
  rw [List.getElem?_set, List.getElem?_map, List.getElem?_map, List.length_map, List.length_range]
  by_cases hi : i < n
  · rw [List.getElem?_range hi]
    by_cases hc : c = i
    · subst hc; simp [hi]
    · rw [if_neg hc]; simp only [Option.map_some]; rw [if_neg (by omega)]
  · rw [List.getElem?_eq_none (by simp; omega)]
    by_cases hc : c = i
    · subst hc; simp [hi]
    · rw [if_neg hc]; rfl

theorem rd_map_range {α : Type} (f : Nat → α) {n c : Nat} (h : c < n) : rd ((List.range n).map f) c = .ok (f c) := by
  rw [rd_eq_ok_iff, List.getElem?_map, List.getElem?_range h]; rfl

theorem shardPoint_ok (wd : Bool) (dim : Nat) (g : Nat → Bytes) (nc : Nat) (cl : List Nat) (row : Bytes) (id base : Nat)
    (hid : id < 4294967296) (hrow : wd = true → row = g id) : ∀ (l : List Nat) (p1 : Nat) (M : Nat → List Nat),
    (∀ t (h : t < l.length), cl[base + p1 + t]? = some l[t]) → (∀ c ∈ l, c < nc) →
    shardPoint wd cl row id base l.length p1 ((List.range nc).map (fun c => Shard.of wd dim g (M c))) =
      .ok ((List.range nc).map (fun c => Shard.of wd dim g (M c ++ List.replicate (l.count c) id))) := by
  intro l
  induction l with
  | nil => intro p1 M _ _; simp [shardPoint]
  | cons c0 l ih =>
    intro p1 M hcl hlt
    have h0 := hcl 0 (by simp)
    have hc0 := hlt c0 (by simp)
    rw [List.length_cons]
    unfold shardPoint
    rw [rd_eq_ok_iff.mpr (by rw [Nat.add_zero] at h0; exact h0), Res.ok_bind]
    dsimp only [List.getElem_cons_zero]
    rw [rd_map_range _ hc0, Res.ok_bind, wr_ok (by simpa using hc0), Res.ok_bind,
      Shard.push_of wd dim g _ row id hid hrow, map_range_set]
    have hf : (fun i => if i = c0 then Shard.of wd dim g (M c0 ++ [id]) else Shard.of wd dim g (M i)) =
        (fun c => Shard.of wd dim g ((fun c => if c = c0 then M c ++ [id] else M c) c)) := by
      funext i
      dsimp only
      split
      · rename_i h; rw [h]
      · rfl
    rw [hf, ih (p1 + 1) (fun c => if c = c0 then M c ++ [id] else M c) (by
      intro t ht
      have := hcl (t + 1) (by simpa using ht)
      rw [show base + p1 + (t + 1) = base + (p1 + 1) + t by omega] at this
      simpa using this) (fun c hc => hlt c (by simp [hc]))]
    congr 2
    funext c
    congr 1
    by_cases hc : c = c0
    · subst hc
      rw [if_pos rfl, List.count_cons_self, List.append_assoc, List.singleton_append, List.replicate_succ]
    · rw [if_neg hc, List.count_cons_of_ne (by omega)]

/-- The points of shard `c` among the first `i`, as often as they were added. -/
def members (A : Nat → List Nat) (c i : Nat) : List Nat :=
  (List.range i).flatMap (fun p => List.replicate ((A p).count c) p)

theorem members_succ (A : Nat → List Nat) (c i : Nat) :
    members A c (i + 1) = members A c i ++ List.replicate ((A i).count c) i := by
  unfold members
  rw [List.range_succ, List.flatMap_append]
  simp

theorem shardBlock_ok (wd : Bool) (dim : Nat) (g : Nat → Bytes) (nc rb kb start : Nat) (cl : List Nat) (buf : Bytes)
    (A : Nat → List Nat) (cur : Nat) (hid : start + cur ≤ 4294967296)
    (hcl : ∀ p, p < cur → (cl.drop (p * kb)).take kb = A (start + p))
    (hlen : ∀ p, p < cur → (A (start + p)).length = kb)
    (hlt : ∀ p, p < cur → ∀ c ∈ A (start + p), c < nc)
    (hbuf : ∀ p, p < cur → slice buf (p * rb) rb = .ok (g (start + p))) : ∀ (todo p : Nat), p + todo = cur →
    shardBlock wd rb kb start cl buf todo p ((List.range nc).map (fun c => Shard.of wd dim g (members A c (start + p)))) =
      .ok ((List.range nc).map (fun c => Shard.of wd dim g (members A c (start + cur)))) := by
  intro todo
  induction todo with
  | zero => intro p hp; have : p = cur := by omega
            subst this; rfl
  | succ todo ih =>
    intro p hp
    unfold shardBlock
    obtain ⟨row, hrow, hwd⟩ : ∃ row, shardRow wd buf (p * rb) rb = .ok row ∧ (wd = true → row = g (start + p)) := by
      unfold shardRow
      cases wd with
      | false => exact ⟨[], rfl, by simp⟩
      | true => exact ⟨g (start + p), by rw [if_pos rfl]; exact hbuf p (by omega), fun _ => rfl⟩
    have hA := hlen p (by omega)
    have hget : ∀ t (h : t < (A (start + p)).length), cl[p * kb + 0 + t]? = some ((A (start + p))[t]) := by
      intro t ht
      rw [← List.getElem?_eq_getElem ht, ← hcl p (by omega), List.getElem?_take, if_pos (by omega),
        List.getElem?_drop]
      rfl
    have hpt := shardPoint_ok wd dim g nc cl row (start + p) (p * kb) (by omega) hwd (A (start + p)) 0
      (fun c => members A c (start + p)) hget (hlt p (by omega))
    rw [hA] at hpt
    rw [hrow, Res.ok_bind, hpt, Res.ok_bind]
    have : (fun c => Shard.of wd dim g (members A c (start + p) ++ List.replicate (List.count c (A (start + p))) (start + p))) =
        (fun c => Shard.of wd dim g (members A c (start + (p + 1)))) := by
      funext c
      rw [show start + (p + 1) = start + p + 1 by omega, members_succ]
    rw [this]
    exact ih (p + 1) (by omega)

/-- Reading one block of rows. -/
theorem read_block {f : Bytes} {r : CReader} {g : Nat → Bytes} {rb start cur left : Nat} {buf : Bytes}
    (hr : r.At f ((List.range' start (cur + left)).map g).flatten)
    (hg : ∀ k, start ≤ k → k < start + (cur + left) → (g k).length = rb)
    (hbuf : cur * rb ≤ buf.length) :
    ∃ r', r.read (cur * rb) (buf.take (cur * rb)) = .ok (((List.range' start cur).map g).flatten, r') ∧
      r'.At f ((List.range' (start + cur) left).map g).flatten ∧
      ((List.range' start cur).map g).flatten.length = cur * rb ∧
      ∀ rest p, p < cur → slice (((List.range' start cur).map g).flatten ++ rest) (p * rb) rb = .ok (g (start + p)) := by
  have hrows : ∀ x ∈ (List.range' start cur).map g, x.length = rb := by
    intro x hx
    obtain ⟨k, hk, rfl⟩ := List.mem_map.mp hx
    rw [List.mem_range'_1] at hk
    exact hg k (by omega) (by omega)
  have hlen : ((List.range' start cur).map g).flatten.length = cur * rb := by
    rw [flatten_length_of hrows]; simp
  rw [← List.range'_append_1, List.map_append, List.flatten_append] at hr
  have h64 : cur * rb < 18446744073709551616 := by
    have := hr.todo_lt
    rw [List.length_append, hlen] at this
    omega
  have e := hr.read (cur * rb) h64 (buf.take (cur * rb)) (by rw [List.length_take]; omega)
  rw [if_pos (by rw [List.length_append]; omega)] at e
  obtain ⟨r', e, hr'⟩ := e
  rw [List.take_left' hlen] at e
  rw [List.drop_left' hlen] at hr'
  refine ⟨r', e, hr', hlen, ?_⟩
  intro rest p hp
  rw [flatten_slice hrows rest (by simpa using hp)]
  unfold rowAt
  rw [List.getD_eq_getElem?_getD, List.getElem?_map, List.getElem?_range' hp, Nat.one_mul]
  rfl

theorem shardBlocks_ok (wd : Bool) (P : ShardPar) (dim : Nat) (g : Nat → Bytes) (f : Bytes) (rb npts bs : Nat)
    (hbs : 1 ≤ bs) (hn : npts < 4294967296) (hg : ∀ k, k < npts → (g k).length = rb) (A : Nat → List Nat)
    (Q : List Nat → Prop)
    (hA : ∀ p, p < npts → (A p).length = P.kb) (hlt : ∀ p, p < npts → ∀ c ∈ A p, c < P.nc)
    (hcc : ∀ (start cur : Nat) (cl : List Nat), 1 ≤ cur → cur ≤ bs → start + cur ≤ npts → Q cl →
      ∃ cl', closestCenters P.ccBlk P.nc P.kb P.pops (fun _ l => l)
          ((List.range cur).map (fun p => P.dist (g (start + p)))) cl none = .ok (cl', none) ∧ Q cl' ∧
        ∀ p, p < cur → (cl'.drop (p * P.kb)).take P.kb = A (start + p)) :
    ∀ (todo b : Nat) (r : CReader) (buf : Bytes) (cl : List Nat), npts ≤ (b + todo) * bs →
    (0 < todo → (b + todo - 1) * bs < npts) → b * bs ≤ npts ∨ todo = 0 →
    r.At f ((List.range' (b * bs) (npts - b * bs)).map g).flatten → buf.length = bs * rb → Q cl →
    shardBlocks wd P rb npts bs todo b r buf cl
        ((List.range P.nc).map (fun c => Shard.of wd dim g (members A c (min (b * bs) npts)))) =
      .ok ((List.range P.nc).map (fun c => Shard.of wd dim g (members A c npts))) := by
  intro todo
  induction todo with
  | zero =>
    intro b r buf cl h1 _ _ _ _ _
    rw [Nat.add_zero] at h1
    rw [Nat.min_eq_right h1]; rfl
  | succ todo ih =>
    intro b r buf cl h1 h2 h3 hr hbuf hq
    have hstart : b * bs < npts := by
      have := h2 (by omega)
      have hm : b * bs ≤ (b + (todo + 1) - 1) * bs := Nat.mul_le_mul_right _ (by omega)
      omega
    have hsucc : (b + 1) * bs = b * bs + bs := Nat.succ_mul _ _
    obtain ⟨cur, hcur⟩ : ∃ cur, cur = min ((b + 1) * bs) npts - b * bs := ⟨_, rfl⟩
    obtain ⟨left, hleft⟩ : ∃ left, left = npts - b * bs - cur := ⟨_, rfl⟩
    have hc1 : 1 ≤ cur := by omega
    have hcb : cur ≤ bs := by omega
    have hcl : npts - b * bs = cur + left := by omega
    rw [hcl] at hr
    obtain ⟨r', e, hr', hlen, hsl⟩ := read_block (buf := buf) hr (rb := rb) (fun k _ hk => hg k (by omega)) (by
      rw [hbuf]; exact Nat.mul_le_mul_right _ hcb)
    unfold shardBlocks
    dsimp only
    rw [← hcur, e, Res.ok_bind]
    dsimp only
    rw [hlen, mapM_eq_map _ (fun p => g (b * bs + p)) _ (fun p hp => hsl _ p (List.mem_range.mp hp)), Res.ok_bind,
      List.map_map]
    obtain ⟨cl', ecl, hq', hA'⟩ := hcc (b * bs) cur cl hc1 hcb (by omega) hq
    have hcomp : (P.dist ∘ fun p => g (b * bs + p)) = (fun p => P.dist (g (b * bs + p))) := rfl
    rw [hcomp, ecl, Res.ok_bind]
    dsimp only
    have hmin : min (b * bs) npts = b * bs + 0 := by omega
    rw [hmin, shardBlock_ok wd dim g P.nc rb P.kb (b * bs) cl' _ A cur (by omega) hA'
      (fun p hp => hA _ (by omega)) (fun p hp => hlt _ (by omega)) (fun p hp => hsl _ p hp) cur 0 (by omega),
      Res.ok_bind]
    have hnext : b * bs + cur = min ((b + 1) * bs) npts := by omega
    have hlast : (b + 1) * bs ≤ npts ∨ todo = 0 := by
      by_cases h0 : todo = 0
      · exact Or.inr h0
      · left
        have := h2 (by omega)
        have hm : (b + 1) * bs ≤ (b + (todo + 1) - 1) * bs := Nat.mul_le_mul_right _ (by omega)
        omega
    rw [hnext]
    by_cases h0 : todo = 0
    · subst h0
      have : min ((b + 1) * bs) npts = npts := by
        rw [show b + (0 + 1) = b + 1 by omega] at h1; omega
      rw [this]; rfl
    · have hle : (b + 1) * bs ≤ npts := by omega
      apply ih (b + 1) r' _ cl'
      · rw [show b + 1 + todo = b + (todo + 1) by omega]; exact h1
      · intro _
        rw [show b + 1 + todo - 1 = b + (todo + 1) - 1 by omega]; exact h2 (by omega)
      · exact hlast
      · have e1 : b * bs + cur = (b + 1) * bs := by omega
        have e2 : left = npts - (b + 1) * bs := by omega
        rw [← e1, show npts - (b * bs + cur) = left by omega]; exact hr'
      · rw [List.length_append, hlen, List.length_drop, hbuf]
        have : cur * rb ≤ bs * rb := Nat.mul_le_mul_right _ hcb
        omega
      · exact hq'

theorem numBlocks (npts bs : Nat) (h0 : 1 ≤ npts) (hbs : 1 ≤ bs) :
    npts ≤ (npts / bs + if npts % bs ≠ 0 then 1 else 0) * bs ∧
    ((npts / bs + if npts % bs ≠ 0 then 1 else 0) - 1) * bs < npts := by
  have h1 := Nat.div_add_mod npts bs
  have h2 := Nat.mod_lt npts (by omega : 0 < bs)
  rw [Nat.mul_comm] at h1
  generalize npts / bs = q at *
  generalize npts % bs = m at *
  split
  · have : (q + 1) * bs = q * bs + bs := Nat.succ_mul _ _
    rw [Nat.add_sub_cancel]
    omega
  · have hm : m = 0 := by omega
    subst hm
    cases q with
    | zero => omega
    | succ q =>
      have : (q + 1) * bs = q * bs + bs := Nat.succ_mul _ _
      simp only [Nat.add_zero, Nat.add_sub_cancel]
      omega

theorem shardData_ok (wd : Bool) (P : ShardPar) (es dim : Nat) (rows : List Bytes) (j : TruthJunk)
    (hj1 : j.npts.length = 4) (hj2 : j.dim.length = 4) (h0 : 1 ≤ rows.length) (hn : rows.length < 4294967296)
    (hd : dim < 4294967296) (hrow : ∀ x ∈ rows, x.length = dim * es) (hblk : 1 ≤ P.blk)
    (hf : (Spec.binFile dim rows).length < 9223372036854775808) (A : Nat → List Nat) (Q : List Nat → Prop)
    (hQ : Q (List.replicate ((if rows.length ≤ P.blk then rows.length else P.blk) * P.kb) 0))
    (hA : ∀ p, p < rows.length → (A p).length = P.kb) (hlt : ∀ p, p < rows.length → ∀ c ∈ A p, c < P.nc)
    (hcc : ∀ (start cur : Nat) (cl : List Nat), 1 ≤ cur →
      cur ≤ (if rows.length ≤ P.blk then rows.length else P.blk) → start + cur ≤ rows.length → Q cl →
      ∃ cl', closestCenters P.ccBlk P.nc P.kb P.pops (fun _ l => l)
          ((List.range cur).map (fun p => P.dist (rowAt rows (start + p)))) cl none = .ok (cl', none) ∧ Q cl' ∧
        ∀ p, p < cur → (cl'.drop (p * P.kb)).take P.kb = A (start + p)) :
    shardData wd P es dim (some (Spec.binFile dim rows)) j =
      .ok (some ((List.range P.nc).map (fun c =>
        (Shard.of wd dim (rowAt rows) (members A c rows.length)).close wd))) := by
  obtain ⟨r1, r2, e1, e2, hr⟩ := CReader.open_header rows.length dim rows.flatten hn hd hf truthBlk j.cache
    j.npts j.dim hj1 hj2
  unfold shardData
  dsimp only
  unfold Spec.binFile at hf ⊢
  rw [e1, Res.ok_bind]
  dsimp only
  rw [e2, Res.ok_bind]
  dsimp only
  obtain ⟨bs, hbs⟩ : ∃ bs, bs = (if rows.length ≤ P.blk then rows.length else P.blk) := ⟨_, rfl⟩
  have hbs1 : 1 ≤ bs := by rw [hbs]; split <;> omega
  rw [← hbs] at hcc hQ ⊢
  rw [if_neg (by simp), if_neg (by omega)]
  obtain ⟨n1, n2⟩ := numBlocks rows.length bs h0 hbs1
  have hinit : List.replicate P.nc (Shard.open wd dim) =
      (List.range P.nc).map (fun c => Shard.of wd dim (rowAt rows) (members A c (min (0 * bs) rows.length))) := by
    rw [Nat.zero_mul, Nat.zero_min]
    have : ∀ c, Shard.of wd dim (rowAt rows) (members A c 0) = Shard.open wd dim := by
      intro c
      unfold members Shard.of Shard.open
      simp [u64]
    simp only [this]
    rw [List.map_const', List.length_range]
  rw [hinit, shardBlocks_ok wd P dim (rowAt rows) _ (dim * es) rows.length bs hbs1 hn
    (fun k hk => rowAt_length hrow hk) A Q hA hlt hcc _ 0 r2 _ _ (by rw [Nat.zero_add]; exact n1)
    (fun _ => by rw [Nat.zero_add]; exact n2) (Or.inl (by omega)) (by
      rw [Nat.zero_mul, Nat.sub_zero, ← List.range_eq_range', ← rows_eq_map]; exact hr) (by simp) hQ, Res.ok_bind,
    List.map_map]
  rfl

theorem close_of (wd : Bool) (dim : Nat) (g : Nat → Bytes) (l : List Nat) (hl : l.length < 4294967296) :
    (Shard.of wd dim g l).close wd =
      (if wd then Spec.binFile dim (l.map g) else [], Spec.idFile l) := by
  unfold Shard.close Shard.of Spec.binFile Spec.idFile
  have h1 : u32 (u64 l.length) = l.length := by unfold u32 u64; omega
  dsimp only
  have h2 : patchCount (le 4 0 ++ le 4 1 ++ l.flatMap (le 4)) l.length = le 4 l.length ++ le 4 1 ++ l.flatMap (le 4) := by
    rw [List.append_assoc, patchCount_append, List.append_assoc]
  have h3 : patchCount (le 4 0 ++ le 4 dim ++ l.flatMap g) l.length = le 4 l.length ++ le 4 dim ++ l.flatMap g := by
    rw [List.append_assoc, patchCount_append, List.append_assoc]
  rw [h1, h2]
  cases wd with
  | false => rfl
  | true =>
    simp only [if_true]
    rw [h3, List.length_map, List.flatMap_def]

theorem members_filter (A : Nat → List Nat) (c n : Nat) (h : ∀ p, p < n → (A p).Nodup) :
    members A c n = (List.range n).filter (fun p => decide (c ∈ A p)) := by
  induction n with
  | zero => rfl
  | succ n ih =>
    rw [members_succ, ih (fun p hp => h p (by omega)), List.range_succ, List.filter_append]
    congr 1
    have hn := h n (by omega)
    by_cases hc : c ∈ A n
    · rw [List.count_eq_one_of_mem hn hc]; simp [hc]
    · rw [List.count_eq_zero_of_not_mem hc]; simp [hc]

end Grann
