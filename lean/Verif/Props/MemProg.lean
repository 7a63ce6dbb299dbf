import Verif.Proofs.MemProg
/-!
# C104: memory managed by hand inside functions
-/

namespace Grann
open _root_.Grann.Spec

/-- **C104 (k-means).**  The k-means functions release everything they allocate, never twice and never in the wrong way,
whether or not the caller provides the norms or the two output arrays, and throw nothing. -/
theorem C104_kmeans {c : Ms} (h : c ∈ [centersInBlockMem, closestCentersMem false, closestCentersMem true,
      runLloydsMem false false, lloydsCallerMem, kmeansPPMem, medoidMem, estimateSizesMem]) :
    NeverUb c ∧ ReleasesAll c ∧ NeverThrows c := by
  have hall : ∀ c ∈ [centersInBlockMem, closestCentersMem false, closestCentersMem true,
      runLloydsMem false false, lloydsCallerMem, kmeansPPMem, medoidMem, estimateSizesMem], atMost 0 0 c = true ∧ c.quiet = true := by
    decide +kernel
  obtain ⟨h1, h2⟩ := hall c h
  exact ⟨(tidy_sound h1).1, (tidy_sound h1).2.1, neverThrows_of h2⟩

/-- Full runs of them (every loop once). -/
example : CanKeep (runLloydsMem false false) 0 := canKeep_of [true, false, false, false] (by decide +kernel)
example : CanKeep (closestCentersMem false) 0 := canKeep_of [false, true, false, false] (by decide +kernel)

/-- **C104 (one iteration of Lloyd's algorithm).**  Called with null pointers, as its comment allows, it keeps a block
that nobody can release. -/
theorem C104_lloyds_null : NeverUb lloydsNullMem ∧ ¬ ReleasesAll lloydsNullMem ∧ CanKeep lloydsNullMem 1 := by
  have hk : CanKeep lloydsNullMem 1 := canKeep_of [] (by decide +kernel)
  refine ⟨fun s hs => ?_, fun h => ?_, hk⟩
  · exact (atMost_sound (n := 1) (m := 0) (by decide +kernel)).1 s hs
  · obtain ⟨s', he, hl⟩ := hk
    have := (h _ _ good_fresh he).length_eq
    rw [hl] at this
    exact absurd this (by decide)

/-- **C104 (samples).**  The two functions that return a sample hand over exactly one array, and when reading the file
throws, nothing is lost; so does `load_bin`, and `load_aligned_bin` with memory for `aligned_free`. -/
theorem C104_slices : HandsOver (sampleMem "x") "x" .arr ∧ ReleasesOnThrow (sampleMem "x") ∧
    HandsOver (sampleOfDataMem "x") "x" .arr ∧
    HandsOver (loadBinMem "x") "x" .arr ∧ ReleasesOnThrow (loadBinMem "x") ∧
    HandsOver (loadAlignedMem "x") "x" .malloc ∧ ReleasesOnThrow (loadAlignedMem "x") ∧
    HandsOver (loadFloatMem "x") "x" .malloc :=
  ⟨handsOver_sound (by decide +kernel), releasesOnThrow_of (atMost_sound (n := 1) (by decide +kernel)).2.2,
    handsOver_sound (by decide +kernel),
    handsOver_sound (by decide +kernel), releasesOnThrow_of (atMost_sound (n := 1) (by decide +kernel)).2.2,
    handsOver_sound (by decide +kernel), releasesOnThrow_of (atMost_sound (n := 1) (by decide +kernel)).2.2,
    handsOver_sound (by decide +kernel)⟩

example : CanKeep (sampleMem "x") 1 ∧ CanLose (sampleMem "x") 0 :=
  ⟨canKeep_of [false, false, true, false] (by decide +kernel), canLose_of [false, false, true, false, true, true] (by decide +kernel)⟩

/-- **C104 (owners).**  The functions that keep all their memory in `std::unique_ptr` and cached files release it
however they end. -/
theorem C104_owners {c : Ms} (h : c ∈ [sampleToFilesMem, pqPivotsMem, pqDataMem, shardDataMem]) :
    NeverUb c ∧ ReleasesAll c ∧ ReleasesOnThrow c := by
  have hall : ∀ c ∈ [sampleToFilesMem, pqPivotsMem, pqDataMem, shardDataMem], atMost 0 0 c = true := by decide +kernel
  exact tidy_sound (hall c h)

/-- Encoding a block and then failing to read the next one. -/
example : CanLose pqDataMem 0 := by
  refine canLose_of (List.replicate 12 false ++ [true, false, true, false, false, false, false, true, true, true]) ?_
  decide +kernel

/-- **C104 (generating product quantisation, partitioning, extracting a shard, pruning a truth file).**  After a normal
end everything is released, and undefined behaviour never occurs.  An exception loses at most the listed number of
blocks … -/
theorem C104_exceptions {c : Ms} {n : Nat} (h : (c, n) ∈ [(generatePqMem, 1), (partitionMem, 2), (ramBudgetMem, 3),
      (retrieveShardMem, 1), (pruneTruthMem, 2), (convertMem, 0), (analyzeMem, 0), (ivfSearchMem, 0)]) :
    NeverUb c ∧ ReleasesAll c ∧ LosesAtMost c n := by
  have hall : ∀ p ∈ [(generatePqMem, 1), (partitionMem, 2), (ramBudgetMem, 3),
      (retrieveShardMem, 1), (pruneTruthMem, 2), (convertMem, 0), (analyzeMem, 0), (ivfSearchMem, 0)], atMost 0 p.2 p.1 = true := by decide +kernel
  exact clean_sound (hall (c, n) h)

/-- … and can lose that many. -/
theorem C104_exceptions_lose {c : Ms} {n : Nat} (h : (c, n) ∈ [(generatePqMem, 1), (partitionMem, 2), (ramBudgetMem, 3),
      (retrieveShardMem, 1), (pruneTruthMem, 2)]) : CanLose c n ∧ ¬ ReleasesOnThrow c := by
  have hall : ∀ p ∈ [(generatePqMem, 1), (partitionMem, 2), (ramBudgetMem, 3),
      (retrieveShardMem, 1), (pruneTruthMem, 2)], ∃ d ∈ [
        [false, false, false, false, false, true],
        [false, false, false, false, false, true],
        [false, false, false, false, false, false, false, false, false, false, true],
        [false, false, false, true, true],
        [false, false, false, false, true]], runThrown p.1 d = some p.2 := by decide +kernel
  obtain ⟨d, _, hd⟩ := hall (c, n) h
  have hl := canLose_of d hd
  refine ⟨hl, fun hr => ?_⟩
  obtain ⟨s', he, hl⟩ := hl
  have h0 := (hr _ _ good_fresh he).length_eq
  rw [hl] at h0
  have hn : ∀ p ∈ [(generatePqMem, 1), (partitionMem, 2), (ramBudgetMem, 3),
      (retrieveShardMem, 1), (pruneTruthMem, 2)], p.2 ≠ 0 := by decide +kernel
  exact hn (c, n) h h0

/-- **C104 (pruning a truth file without distances).**  If the check let such files pass, an uninitialised pointer would
be released. -/
theorem C104_prune_ids : ¬ NeverUb pruneTruthIdsMem := fun h =>
  h _ good_fresh (canUb_of [] (by decide +kernel))

/-- **C104 (programs).**  The ground truth programs, the conversions and the generators of random data release
everything, in the right way (`aligned_free` for the points, `delete[]` for the rest). -/
theorem C104_programs {c : Ms} (h : c ∈ [exactKnnMem, groundTruthMem, blockConvertMem, binToTsvMem, tsvToBinMem,
      randomDataMem, lshSearchMem]) : NeverUb c ∧ ReleasesAll c ∧ NeverThrows c := by
  have hall : ∀ c ∈ [exactKnnMem, groundTruthMem, blockConvertMem, binToTsvMem, tsvToBinMem,
      randomDataMem, lshSearchMem], atMost 0 0 c = true ∧ c.quiet = true := by decide +kernel
  obtain ⟨h1, h2⟩ := hall c h
  exact ⟨(tidy_sound h1).1, (tidy_sound h1).2.1, neverThrows_of h2⟩

/-- Two parts with one batch each. -/
example : CanKeep groundTruthMem 0 := canKeep_of [true, true, false, true, true, false, false] (by decide +kernel)

/-- **C104 (building an inverted file).**  Exactly the centres remain, owned by the member; an exception can only come
before anything is allocated. -/
theorem C104_ivf_build : NeverUb ivfBuildMem ∧ HandsOver ivfBuildMem "_cluster_centers" .arr ∧ ReleasesOnThrow ivfBuildMem :=
  ⟨(atMost_sound (n := 1) (m := 0) (by decide +kernel)).1, handsOver_sound (by decide +kernel),
    releasesOnThrow_of (atMost_sound (n := 1) (by decide +kernel)).2.2⟩

example : CanKeep ivfBuildMem 1 := canKeep_of [false, false, true, true, false] (by decide +kernel)

/-- **C104 (search and recall programs).**  They never release the truth arrays: up to two (or four) blocks are left at
the end, or three with the queries when an exception is thrown. -/
theorem C104_search_programs : NeverUb searchProgramMem ∧ KeepsAtMost searchProgramMem 2 ∧ LosesAtMost searchProgramMem 3 ∧
    CanKeep searchProgramMem 2 ∧ CanLose searchProgramMem 3 ∧
    NeverUb recallProgramMem ∧ KeepsAtMost recallProgramMem 4 ∧ CanKeep recallProgramMem 4 := by
  have h1 := atMost_sound (c := searchProgramMem) (n := 2) (m := 3) (by decide +kernel)
  have h2 := atMost_sound (c := recallProgramMem) (n := 4) (m := 4) (by decide +kernel)
  exact ⟨h1.1, h1.2.1, h1.2.2, canKeep_of [false, false, true, false, false, false, false, true, false, false] (by decide +kernel),
    canLose_of [false, false, true, false, false, false, false, true, false, true] (by decide +kernel),
    h2.1, h2.2.1, canKeep_of [false, false, false, false, true, false, false, false, false, false, true] (by decide +kernel)⟩

/-- **C104 (constructors that throw).**  The constructor with a data file loses the points if the metric is unsupported
for the element type, and three blocks if the tags do not match the points; the constructor without data loses
nothing. -/
theorem C104_constructors : NeverUb constructMem ∧ LosesAtMost constructMem 3 ∧ CanLose constructMem 1 ∧ CanLose constructMem 3 ∧
    NeverUb constructEmptyMem ∧ ReleasesOnThrow constructEmptyMem ∧ KeepsAtMost constructEmptyMem 2 := by
  have h1 := atMost_sound (c := constructMem) (n := 4) (m := 3) (by decide +kernel)
  have h2 := atMost_sound (c := constructEmptyMem) (n := 2) (m := 0) (by decide +kernel)
  exact ⟨h1.1, h1.2.2, canLose_of [false, true] (by decide +kernel), canLose_of [false, false, true] (by decide +kernel),
    h2.1, releasesOnThrow_of h2.2.2, h2.2.1⟩

example := C104_kmeans (c := kmeansPPMem) (by simp)

example := C104_owners (c := pqDataMem) (by simp)

example := C104_exceptions (c := partitionMem) (n := 2) (by simp)

example := C104_exceptions_lose (c := partitionMem) (n := 2) (by simp)

example := C104_programs (c := groundTruthMem) (by simp)

end Grann
