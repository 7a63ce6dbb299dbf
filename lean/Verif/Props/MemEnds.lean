import Verif.Props.MemProg
/-!
# C104: the statements about normal ends are not empty
-/

namespace Grann
open _root_.Grann.Spec

def ranClean (c : Ms) (d : List Bool) (k : Nat) : Bool :=
  match runM 100 c d Spec.fresh with
  | some (.ok s, _) => s.heap.live.isEmpty && s.heap.next == k
  | _ => false

theorem endsAfter_of {c : Ms} {k : Nat} (d : List Bool) (h : ranClean c d k = true) : Spec.EndsAfter c k := by
  unfold ranClean at h
  split at h
  · rename_i s _ e
    simp only [Bool.and_eq_true, List.isEmpty_iff, beq_iff_eq] at h
    exact ⟨s, runM_sound e, h.1, h.2⟩
  · cases h

/-- The decisions of one run of each of the functions and programs of C104, and the number of blocks it allocates. -/
def exMemEnds : List (Ms × Nat × List Bool) :=
  let ft (n : Nat) : List Bool := (List.replicate n [false, true]).flatten
  let ffft (n : Nat) : List Bool := (List.replicate n [false, false, false, true]).flatten
  [(centersInBlockMem, 2, []), (closestCentersMem false, 16, ft 6), (closestCentersMem true, 15, ft 6),
    (runLloydsMem false false, 16, true :: ft 5), (lloydsCallerMem, 16, true :: ft 5), (kmeansPPMem, 1, []), (medoidMem, 2, []),
    (estimateSizesMem, 20, [true, false, true, false, false, true, false, false, true, false, false, true]),
    (sampleToFilesMem, 2, []), (pqPivotsMem, 21, ffft 3), (pqDataMem, 9, []), (shardDataMem, 17, ffft 3),
    (generatePqMem, 28, [false, false, false, false, true, false, false, true, false, false, false, true]),
    (partitionMem, 22, [false, false, false, false, true, false, true, false, true, false, true]),
    (ramBudgetMem, 28, List.replicate 9 false ++ [true, false, true]), (retrieveShardMem, 3, []), (pruneTruthMem, 3, []),
    (convertMem, 2, []), (analyzeMem, 1, []), (ivfSearchMem, 15, false :: ft 5),
    (exactKnnMem, 15, List.replicate 12 true), (groundTruthMem, 47, [true, true] ++ ft 5), (blockConvertMem, 2, []),
    (binToTsvMem, 1, []), (tsvToBinMem, 12, List.replicate 12 true), (randomDataMem, 1, []), (lshSearchMem, 1, [])]

/-- **C104 (normal ends).**  Every function and program that the theorems above say releases everything after a normal
end has a run that ends normally after allocating something. -/
theorem C104_ends {c : Ms} (h : c ∈ [centersInBlockMem, closestCentersMem false, closestCentersMem true, runLloydsMem false false,
      lloydsCallerMem, kmeansPPMem, medoidMem, estimateSizesMem, sampleToFilesMem, pqPivotsMem, pqDataMem, shardDataMem,
      generatePqMem, partitionMem, ramBudgetMem, retrieveShardMem, pruneTruthMem, convertMem, analyzeMem, ivfSearchMem,
      exactKnnMem, groundTruthMem, blockConvertMem, binToTsvMem, tsvToBinMem, randomDataMem, lshSearchMem]) :
    ∃ k, 0 < k ∧ Spec.EndsAfter c k := by
  have hall : ∀ p ∈ exMemEnds, ranClean p.1 p.2.2 p.2.1 = true ∧ 0 < p.2.1 := by decide +kernel
  have hc : c ∈ exMemEnds.map Prod.fst := h
  obtain ⟨p, hp, rfl⟩ := List.mem_map.1 hc
  exact ⟨p.2.1, (hall p hp).2, endsAfter_of p.2.2 (hall p hp).1⟩

/-- The ground-truth program, with 47 blocks. -/
example : Spec.EndsAfter groundTruthMem 47 :=
  endsAfter_of [true, true, false, true, false, true, false, true, false, true, false, true] (by decide +kernel)

example := C104_ends (c := partitionMem) (by simp)

end Grann
