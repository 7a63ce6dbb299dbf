import Verif.Basic.F32
import Mathlib.Data.Finset.Card
/-!
# Specifications for searching

Nothing here refers to the model of the code.
-/

namespace Spec

open Grann (F32)

/-- `out` is a correct answer to "the `k` nearest points of `S`", where `d i` is the distance of
point `i` to the query: listed by increasing distance, without repetition, each with its true
distance, as many as there are (at most `k`), and no omitted point of `S` is strictly closer than
a listed one. -/
structure KNearest (k : Nat) (S : Finset Nat) (d : Nat → F32) (out : List (Nat × F32)) : Prop where
  sorted : out.Pairwise (fun x y => x.2.le y.2 = true)
  nodup : (out.map Prod.fst).Nodup
  mem : ∀ x ∈ out, x.1 ∈ S ∧ x.2 = d x.1
  length : out.length = min k S.card
  best : ∀ i ∈ S, i ∉ out.map Prod.fst → ∀ x ∈ out, x.2.le (d i) = true

/-- A point with labels `labs` matches the filter `filters`: the filter is empty, or they share a
label, or (with a universal label in use) one of them contains the universal label. -/
def Matches {L : Type} (useUniv : Bool) (univ : L) (filters labs : List L) : Prop :=
  filters = [] ∨ (∃ l ∈ filters, l ∈ labs) ∨ (useUniv = true ∧ (univ ∈ filters ∨ univ ∈ labs))

instance {L : Type} [DecidableEq L] (u : Bool) (univ : L) (f l : List L) :
    Decidable (Matches u univ f l) := by unfold Matches; infer_instance

end Spec

namespace Spec

open Grann (F32)

/-- The first `ids.length` slots of the output buffers `ind`, `dst` report the points `ids` under
their tags and with their distances, in order of distance, no point twice, and every reported point
satisfies `good`. -/
structure Reports (tag : Nat → Nat) (d : Nat → F32) (good : Nat → Prop) (ids : List Nat)
    (ind : List Nat) (dst : List F32) : Prop where
  tags : ind.take ids.length = ids.map tag
  dists : dst.take ids.length = ids.map d
  distinct : ids.Nodup
  good : ∀ i ∈ ids, good i
  sorted : ids.Pairwise (fun i j => (d i).le (d j) = true)

/-- A result list of `L` entries over `n` points can be kept with 32-bit positions: `L + 1` fits into
32 bits, and so does the sum of any two positions that are in use when an entry is added. -/
def ListFits (n L : Nat) : Prop := L < 2 ^ 32 - 1 ∧ (L ≤ 2 ^ 31 + 1 ∨ n ≤ 2 ^ 31 + 2)

instance (n L : Nat) : Decidable (ListFits n L) := by unfold ListFits; infer_instance

theorem ListFits.of_le {n L : Nat} (h : L ≤ 2 ^ 31) : ListFits n L := ⟨by omega, Or.inl (by omega)⟩

theorem ListFits.mono {m n L : Nat} (h : ListFits n L) (hm : m ≤ n) : ListFits m L :=
  ⟨h.1, h.2.imp id (fun h => Nat.le_trans hm h)⟩

end Spec
