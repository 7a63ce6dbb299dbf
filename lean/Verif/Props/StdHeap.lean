import Verif.Proofs.StdHeap
import Verif.Props.Ivf
/-!
# C16 with equally close centres
-/

namespace Grann

/-- **C16, ties, partial.** With the heap of the GNU library the centre that comes out first is the one that width 1 takes, the first of the
closest ones.  So, whatever the ties, a larger probe width up to the number of clusters never makes a returned distance worse.
Missing: probe widths above the number of clusters, where the claim is false (`C16_beyond_clusters_scans_first`). -/
theorem C16_ties_partial {V : Type} (ix : Ivf V) (hix : ix.OK) (q : V) (d : Nat → F32) (hdist : ix.Dist q d) (filters : List Label)
    (hlab : filters ≠ [] → ix.ctx.labels.length = ix.ctx.data.length)
    (rc pw1 pw2 : Nat) (hrc1 : 1 ≤ rc) (hrc : Spec.ListFits ix.ctx.data.length rc) (hpw : pw1 ≤ pw2) (hpw2 : pw2 ≤ ix.nc)
    (ind : List Nat) (dst : List F32) (hind : rc ≤ ind.length) (hdst : rc ≤ dst.length) :
    ∃ i1 d1 n1 i2 d2 n2, ivfSearch gnuPops ix q rc pw1 ind (some dst) filters = .ok (i1, some d1, n1) ∧
      ivfSearch gnuPops ix q rc pw2 ind (some dst) filters = .ok (i2, some d2, n2) ∧ n1 ≤ n2 ∧
      ∀ r < n1, (d2.getD r F32.nan).le (d1.getD r F32.nan) = true := by
  refine ivf_probes_mono gnuPops gnuPops_isPopOrder ix hix q d hdist filters hlab rc pw1 pw2 hrc1 hrc hpw hpw2 ?_ ind dst hind hdst
  intro h1 h2
  unfold pick
  rw [if_pos rfl, if_neg h2, ← gnuPops_head hdist.rowNum (hdist.rowFin (by omega))]
  cases gnuPops (ix.centreDist q) with
  | nil => simp
  | cons c t =>
    obtain ⟨n, rfl⟩ : ∃ n, pw2 = n + 1 := ⟨pw2 - 1, by omega⟩
    simp

/-- Three clusters whose centres are equally far from the query, one point each; the first point is nearest. -/
def exTies : Ivf F32 where
  ctx := { data := [F32.zero, F32.one, F32.one], labels := [], useUniv := false, univ := [48], cmp := fun _ v => v }
  tags := []
  nc := 3
  inv := [[0], [1], [2]]
  centreDist := fun _ => [F32.one, F32.one, F32.one]

/-- A queue that yields these centres from the last to the first. -/
def exLate (row : List F32) : List Nat := if row = [F32.one, F32.one, F32.one] then [2, 1, 0] else exPops row

theorem exLate_isPopOrder : IsPopOrder exLate where
  perm row := by
    unfold exLate
    split
    · rename_i h; rw [h]; decide
    · exact exPops_isPopOrder.perm row
  sorted row hn := by
    unfold exLate
    split
    · rename_i h; rw [h]; decide +kernel
    · exact exPops_isPopOrder.sorted row hn

/-- **C16 (ties, what the standard allows).** The order in which a `std::priority_queue` yields equal elements is not specified; with one that
satisfies the standard, probing two clusters instead of one loses the nearest point. -/
theorem C16_ties_open : ∃ pops, IsPopOrder pops ∧
    ivfSearch pops exTies F32.zero 1 1 [9] (some [F32.nan]) [] = .ok ([0], some [F32.zero], 1) ∧
    ivfSearch pops exTies F32.zero 1 2 [9] (some [F32.nan]) [] = .ok ([2], some [F32.one], 1) :=
  ⟨exLate, exLate_isPopOrder, by decide +kernel, by decide +kernel⟩

/-- With the heap, the point stays: five elements, three of them equal, in the order in which they come out. -/
example : gnuPops [⟨0x40000000#32⟩, F32.one, F32.one, F32.zero, F32.one] = [3, 2, 4, 1, 0] ∧
    ivfSearch gnuPops exTies F32.zero 1 1 [9] (some [F32.nan]) [] = .ok ([0], some [F32.zero], 1) ∧
    ivfSearch gnuPops exTies F32.zero 1 2 [9] (some [F32.nan]) [] = .ok ([0], some [F32.zero], 1) := by decide +kernel

example := C16_ties_partial exTies ⟨by decide, by decide⟩ F32.zero (fun i => exTies.ctx.data.getD i F32.zero)
  ⟨by intro i v h; simp only [List.getD, h]; rfl, by decide +kernel, rfl, by decide, fun _ => ⟨F32.one, by decide, by decide⟩⟩ [] (by simp) 1 1 2
  (by decide) (by decide) (by decide) (by decide) [9] [F32.nan] (by decide) (by decide)

end Grann
