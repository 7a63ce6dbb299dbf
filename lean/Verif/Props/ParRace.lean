import Verif.Props.ParFor
import Verif.Proofs.ParDrive
/-!
# C79: the loop with a data race
-/

namespace Grann

open Par

/-- Up to the first access to `max_norm`. -/
def maxNormHead (add mul : Nat → Nat → Nat) (dim i : Nat) : Par Nat Nat := do
  forN dim fun d => do
    let a ← rdAt ⟨"data", i * dim + d, 0⟩
    let b ← rdAt ⟨"data", i * dim + d, 0⟩
    let r ← rdAt ⟨"norms", i, 0⟩
    wrAt ⟨"norms", i, 0⟩ (add r (mul a b))
  rdAt ⟨"norms", i, 0⟩

theorem maxNorm_head (add mul : Nat → Nat → Nat) (gt : Nat → Nat → Bool) (dim i : Nat) :
    maxNormIter add mul gt dim i = (maxNormHead add mul dim i).bind fun x => .load ⟨"max_norm", 0, 0⟩ fun y =>
      (if gt x y then (rdAt ⟨"norms", i, 0⟩).bind fun x' => wrAt ⟨"max_norm", 0, 0⟩ x'
      else (rdAt ⟨"max_norm", 0, 0⟩).bind fun y' => wrAt ⟨"max_norm", 0, 0⟩ y') := by
  unfold maxNormHead
  exact (Par.bind_assoc _ _ _).symm

/-- Up to the store to `max_norm`. -/
def maxNormPre (add mul : Nat → Nat → Nat) (gt : Nat → Nat → Bool) (dim i : Nat) : Par Nat Nat :=
  (maxNormHead add mul dim i).bind fun x => .load ⟨"max_norm", 0, 0⟩ fun y =>
    if gt x y then rdAt ⟨"norms", i, 0⟩ else rdAt ⟨"max_norm", 0, 0⟩

theorem maxNorm_pre (add mul : Nat → Nat → Nat) (gt : Nat → Nat → Bool) (dim i : Nat) :
    maxNormIter add mul gt dim i = (maxNormPre add mul gt dim i).bind fun v => wrAt ⟨"max_norm", 0, 0⟩ v := by
  rw [maxNorm_head, maxNormPre, Par.bind_assoc]
  congr 1; funext x
  show Par.load _ _ = Par.load _ _
  congr 1; funext y
  show _ = (if gt x y then _ else _ : Par Nat Nat).bind _
  split <;> rfl

theorem maxNormPre_within (add mul : Nat → Nat → Nat) (gt : Nat → Nat → Bool) {dim n i : Nat} (hi : i < n) :
    (maxNormPre add mul gt dim i).Within fun l => InArr "data" (n * dim) l ∨ InArr "norms" n l ∨ InArr "max_norm" 1 l := by
  have hn : InArr "norms" n ⟨"norms", i, 0⟩ := ⟨rfl, hi, rfl⟩
  have hx : InArr "max_norm" 1 ⟨"max_norm", 0, 0⟩ := ⟨rfl, by decide, rfl⟩
  refine Par.within_bind (Par.within_bind (Par.within_loop _ _ _ fun j s _ hj => ?_) fun _ => ⟨.inr (.inl hn), fun _ => trivial⟩) fun x =>
    ⟨.inr (.inr hx), fun y => (?_ : Par.Within _ (if gt x y then _ else _))⟩
  · have hd : InArr "data" (n * dim) ⟨"data", i * dim + j, 0⟩ := elem_mk hi (by omega)
    exact ⟨.inl hd, fun _ => ⟨.inl hd, fun _ => ⟨.inr (.inl hn), fun _ => ⟨.inr (.inl hn), trivial⟩⟩⟩⟩
  · split
    · exact ⟨.inr (.inl hn), fun _ => trivial⟩
    · exact ⟨.inr (.inr hx), fun _ => trivial⟩

/-- `augment_base` (tests/utils/vector_analysis.cpp:76-80) has a data race on `max_norm` as soon as there are two points. -/
theorem C79_max_norm_race (add mul : Nat → Nat → Nat) (gt : Nat → Nat → Bool) (dim n : Nat) (hn : 2 ≤ n) (m : Mem Nat)
    (h1 : HasArr m "data" (n * dim)) (h2 : HasArr m "norms" n) (h3 : HasArr m "max_norm" 1) :
    ∃ sched c, Cfg.run sched (Cfg.start m (iters n (maxNormIter add mul gt dim))) = .ok c ∧ c.Racy := by
  let S : Loc → Prop := fun l => InArr "data" (n * dim) l ∨ InArr "norms" n l ∨ InArr "max_norm" 1 l
  have hS : ∀ l, S l → ∃ v, m l = some v := by
    rintro ⟨arr, x, y⟩ (⟨rfl, hx, rfl⟩ | ⟨rfl, hx, rfl⟩ | ⟨rfl, hx, rfl⟩)
    · exact h1 x hx
    · exact h2 x hx
    · exact h3 x hx
  have hget : ∀ i, i < n → (iters n (maxNormIter add mul gt dim))[i]? = some (maxNormIter add mul gt dim i) := fun i hi => by
    simp [iters, List.getElem?_map, List.getElem?_range hi]
  have hlen : (iters n (maxNormIter add mul gt dim)).length = n := by simp [iters]
  have w1 := maxNormPre_within add mul gt (dim := dim) (show 1 < n by omega)
  obtain ⟨v, m1, e1, hm1⟩ := w1.solo hS
  obtain ⟨s1, r1⟩ := Cfg.run_solo _ w1.flat (fun v => wrAt ⟨"max_norm", 0, 0⟩ v) (c := Cfg.start m (iters n (maxNormIter add mul gt dim)))
    (i := 1) (by rw [← maxNorm_pre]; exact hget 1 (by omega)) e1
  have w0 : (maxNormHead add mul dim 0).Within S := by
    have hn : InArr "norms" n ⟨"norms", 0, 0⟩ := ⟨rfl, by show 0 < n; omega, rfl⟩
    refine Par.within_bind (Par.within_loop _ _ _ fun j s _ hj => ?_) fun _ => ⟨.inr (.inl hn), fun _ => trivial⟩
    have hd : InArr "data" (n * dim) ⟨"data", 0 * dim + j, 0⟩ := elem_mk (by omega) (by omega)
    exact ⟨.inl hd, fun _ => ⟨.inl hd, fun _ => ⟨.inr (.inl hn), fun _ => ⟨.inr (.inl hn), trivial⟩⟩⟩⟩
  obtain ⟨x, m2, e2, -⟩ := w0.solo hm1
  obtain ⟨s2, r2⟩ := Cfg.run_solo _ w0.flat _
    (c := { Cfg.start m (iters n (maxNormIter add mul gt dim)) with
      mem := m1, ts := (iters n (maxNormIter add mul gt dim)).set 1 (wrAt ⟨"max_norm", 0, 0⟩ v) })
    (i := 0) (by rw [List.getElem?_set_ne (by decide), hget 0 (by omega), maxNorm_head]) e2
  have g0 := List.getElem?_set_self (i := 0) (l := (iters n (maxNormIter add mul gt dim)).set 1 (wrAt ⟨"max_norm", 0, 0⟩ v))
    (a := Par.load ⟨"max_norm", 0, 0⟩ fun y =>
      (if gt x y then (rdAt ⟨"norms", 0, 0⟩).bind fun x' => wrAt ⟨"max_norm", 0, 0⟩ x'
      else (rdAt ⟨"max_norm", 0, 0⟩).bind fun y' => wrAt ⟨"max_norm", 0, 0⟩ y')) (by rw [List.length_set, hlen]; omega)
  refine ⟨s1 ++ s2, _, by rw [Cfg.run_append, r1]; exact r2, 0, 1, _, wrAt ⟨"max_norm", 0, 0⟩ v, ⟨"max_norm", 0, 0⟩, false, true,
    by decide, g0, ?_, rfl, rfl, .inr rfl⟩
  rw [List.getElem?_set_ne (by decide)]
  exact List.getElem?_set_self (by rw [hlen]; omega)

example : ∃ sched c, Cfg.run sched (Cfg.start (arrMem [("data", [1, 2, 3, 4]), ("norms", [0, 0]), ("max_norm", [0])])
    (iters 2 (maxNormIter (· + ·) (· * ·) (fun a b => decide (b < a)) 2))) = .ok c ∧ c.Racy :=
  C79_max_norm_race _ _ _ 2 2 (by decide) _ (hasArr_arrMem (by decide)) (hasArr_arrMem (by decide)) (hasArr_arrMem (by decide))

end Grann
