# Formal model of grann: design

The code under study is the C++ library in `/repo` (rakri/grann at the pinned
commit).  It is read as text only; nothing is compiled or run.  The model is
written in Lean 4 (4.33.0, Mathlib available) under `lean/Verif/`.

## Layout

* `Verif/Basic/*`  – outcome type, binary32 comparison, bytes, list accessors.
* `Verif/Model/*`  – the model, one definition per C++ function, every
  definition cites file and lines.
* `Verif/Spec/*`   – small specifications that do not mention the model.
* `Verif/Proofs/*` – helper lemmas and invariants.
* `Verif/Props/*`  – the property theorems (named `Cnn_...`), each followed by
  `example`s showing a concrete non-trivial instance of its hypotheses.

`MANIFEST.json` maps properties to theorem names, `seeded/LOG.jsonl` records
the mutation tests.

## Trusted base

* Lean's kernel, and the axioms `propext`, `Classical.choice`, `Quot.sound`
  (no other axiom is used; no `sorry`, `native_decide`, `bv_decide`).
  `AXIOMS.md` lists the axioms of every property theorem.
* The reading of the C++ code into Lean: the correspondence between a
  definition in `Verif/Model` and the cited lines is by inspection.
* Assumptions about the C++ environment, listed per item below.

### Modelling conventions

* **Outcomes.** A modelled call returns `Res α = Except Err α` where `Err` is
  `ub` (undefined behaviour: out-of-bounds access, division by zero, read of an
  uninitialised object, mismatched free …), `throw` (C++ exception), `exit`
  (process exit with an error code) or `loop` (the given amount of fuel did
  not suffice; theorems about termination show it never occurs, theorems about
  divergence show it occurs for every amount of fuel).
* **Undefined behaviour is never totalised away.** Array reads are `Res`-valued.
* **float.** Distances are bit patterns of IEEE-754 binary32 (`F32`).  `<`, `<=`
  and `>` are modelled exactly, including NaN, infinities and signed zeros.
  Floating-point *arithmetic* is in most theorems a parameter of the model
  (distance functions, division); a theorem that needs a law of arithmetic
  states it as a hypothesis.  C93 to C103 compute with binary32 exactly (round
  to nearest even, overflow, subnormals or flush-to-zero), for any order of the
  additions and with or without fused operations, as `-Ofast` permits.  Ordering theorems carry the explicit hypothesis that the
  distances involved are not NaN; structural theorems (bounds, no duplicates,
  memory safety) usually do not.  Numeric kernels (L2, inner product, k-means)
  are modelled over exact integers or an ordered field; this is stated at each
  such theorem.  The release build uses `-Ofast`, under which the compiler may
  assume NaN/Inf do not occur; this is outside the model.
* **Unsigned integers** are natural numbers; wrap-around is written out where
  the code can reach it (`K - 1` with `K = 0`, `L + 1`, size computations).
* **List sizes.** Theorems about searches assume `Spec.ListFits n L`: the list of
  candidates has fewer than 2^32 - 1 places, and positions in use stay where the
  32-bit sum of the binary search does not wrap.  `C01_endless` and its
  companions show that the search hangs beyond it.  The search programs (C82)
  assume the simpler `L < 2^31`, which holds for every number that is not written with a minus sign.
* **std::sort, std::priority_queue, std::unordered_map iteration** are
  unstable/unspecified on ties: the model takes the sort (or the choice made
  by the heap) as a parameter constrained only by the standard's contract, so
  theorems hold for every implementation.
* **Randomness** (rand(), random_device) is an arbitrary oracle argument.
* **Threads.** A parallel loop is a transition system whose steps are the
  critical sections (lock-protected regions); theorems quantify over all
  interleavings.  For the graph build this is justified inside the model: a
  second machine (`Model/Locks`, `Model/BuildFine`) makes every load and store
  of a shared vector a step of its own, with reader-writer locks, and C76 shows
  that it refines the first and where it has data races.  `std::shared_timed_mutex`
  is taken at its meaning.  Parallel loops whose iterations touch disjoint data
  (distances, norms, conversions) are modelled sequentially, or with the
  insertions in an arbitrary order; a third machine (`Model/ParFor`,
  `Model/ParLoops`), again with a step for every load and store, shows that this
  leaves out no execution (C91, C92).
* **double.** Where a double decides something (slack factors, PQ chunk sizes,
  recall, sizes for a memory budget) it is a fraction rounded to 53 bits after
  every operation; range limits (overflow, subnormals) are out of reach there.
  The sums of k-means (C98) are multiples of 2^-1074 rounded after every
  addition, in the order of the loop, but for the sum of all distances, whose
  order is a parameter (C99); they are too small to overflow.  The
  library function `cblas_snrm2` is a parameter with a stated accuracy.
* **Files** are byte lists in a map from path to contents; a crash leaves an
  arbitrary prefix of the issued operations (and of the bytes of the last one).
* Standard-library containers are trusted to behave as documented, except that
  the vendored hash set (`tsl::robin_set`) gets its own model (C61).

### Modelled

| part of the code | model |
|------------------|-------|
| candidate pool, greedy search, all five `search` functions (src/index.cpp, graph_index.cpp, vamana.cpp, hnsw.cpp, relative_ng.cpp, ivf.cpp, lsh.cpp) | `Pool`, `Greedy`, `Search`, `Ivf`, `Lsh` |
| filters and labels, label files, label entry points | `Search`, `LabelFile`, `LabelMedoids` |
| `build` of the five index types, pruning, reverse edges, medoid, HNSW levels | `Build`, `BuildFine`, `Locks`, `Prune`, `Medoid`, `Hnsw`, `RelNG`, `Ivf`, `Lsh` |
| several searches of an LSH index at the same time | `LshPar` |
| building or loading an object twice, destructors, ownership of raw pointers | `Again`, `Lifecycle` |
| `save`/`load` of all index types at the level of bytes and stream states, crashes during a save | `BinFile`, `GraphFile`, `LabelFile`, `Persist`, `IvfFile`, `LshFile` |
| distances in binary32 arithmetic (include/distance.h:63-182, `distsq_to_points`, `compute_l2sq`) | `FloatArith`, `FloatLoops` |
| include/cached_io.h, include/parameters.h (incl. printing of float and int) | `CachedIo`, `Params`, `FloatText` |
| distance functions (include/distance.h), k-means, closest centres, initial centres (src/math_utils.cpp), as IVF training, partitioning and PQ training call them | `Distance`, `Centers`, `Kmeans`, `KmeansRun` |
| sampling, sharding, partitioning with a memory budget, PQ chunks, training and codes, preparation for inner products (src/partition_and_pq.cpp) | `Shard`, `RamBudget`, `Pq`, `PqTrain`, `PqData`, `Mips` |
| recall, percentiles, truth sets, ground truth programs, search drivers' recall, conversion tools (include/recall_utils.h, percentile_stats.h, src/aux_compute_groundtruth.cpp, tests/) | `Recall`, `Stats`, `Truthset`, `GroundTruth`, `TruthProg`, `FilteredTruth`, `Driver`, `SearchProg`, `Convert`, `FloatTable` |
| command lines of the build and search programs: `atoi`, `atof`, optional arguments, file names, parameters set (tests/build_*.cpp, tests/search_*.cpp); `main` of the ten programs as a whole (`rand` and the hyperplanes drawn are parameters) | `CommandLine` |
| `main` of the conversion and analysis tools (tests/utils) | `UtilLine` |
| `main` of the sampling, quantisation and partition tools (tests/utils) | `UtilTrain` |
| all other loops marked `omp parallel for`, as programs of single loads and stores | `ParFor`, `ParLoops`, `ParMedoid` |
| `main` of compute_filtered_groundtruth, build_random_dist, dist_gen and load_random_dist (tests/) | `FiltProg`, `RandProg` |
| a whole run: constructor, build, save, load, search on one object | `Pipeline`, `PipelineHnsw` |
| several HNSW builds on one machine (temporary file) | `TempFile` |
| vector analysis, recall tool, random data generator (tests/, include/random_dist_gen.h) | `VecTool`, `RecallTool`, `RandGen` |
| vendored hash set (include/tsl): insertion, lookup, growth | `Robin` |

### Not modelled

Console output, timers, prefetching, memory exhaustion, the memory of the standard library, MKL internals (BLAS
calls are replaced by the mathematical matrix operation), Windows branches,
functions without callers,
CPU-level weak memory effects for racing accesses (a race is reported as such),
reordering and errors of the file system below the level of the issued
operations, the rewriting of divisions that `-Ofast` permits, erasure from the
hash set and its stored hashes.  `tests/utils/bin_to_fvecs.cpp` does not
compile and has no meaning to model; `tests/utils/create_disk_layout.cpp` and
`merge_shards.cpp` call functions that are defined nowhere.

## Plan per property

| id | model | proof |
|----|-------|-------|
| C01 | `InsertIntoPool` on a bounds-checked array, binary search with fuel | binary-search invariant; result = permutation + sorted; the middle is computed in 32 bits, so beyond 2^31 + 1 entries the search can go on for ever (`PoolLarge`), and `Spec.ListFits` is the exact limit under which C02, C04 and the searches are stated |
| C02 | `process_candidates…` as a fold over candidates, robin_set as a finite set | invariant over the fold: pool = best-k of accepted points so far; refinement to `Spec.IsTopK` |
| C03 | same, out-of-bounds = `ub` | invariant gives `ok`; witnesses for k = 0 and for an infinite first distance |
| C04–C06 | `greedy_search_to_fixed_point` as a loop over an explicit state; adjacency read through a time-indexed oracle so that concurrent modification is covered | loop invariant; termination measure (unexpanded points, position) |
| C07 | same with constant adjacency | invariant "pool not full" + induction on reachability |
| C08–C10 | filter test with the concrete merge algorithm of `std::set_intersection`; search wrappers of all five index types | soundness for any order, completeness for sorted lists, counterexample for unsorted; witness for HNSW/RelativeNG |
| C11–C13 | search wrappers incl. output slots, tag map | from C02/C04; witnesses for the overruns and for IVF/LSH tags |
| C14–C16 | closest centres, inverted lists built in any order, IVF search; the binary heap of the GNU library (Model/StdHeap.lean) | permutation argument; exact top-k via C02; witness for probe width > clusters; the root of the heap is the first of the largest elements pushed |
| C17–C19 | LSH tables as finite maps hash → bucket, hyperplane dot product as a parameter, byte format of the file | bucket membership; extensional equality of bucket lookups; parser/printer round trip; witness for the second generation |
| C20–C21 | both prune functions, sort as any sorted permutation, division as parameter | loop invariant on (result, occlude_factor) |
| C22–C25 | build as a transition system over interleaved critical sections, search results and prunes abstracted to their proven contracts, sequential build executed concretely | invariant by induction over steps; witnesses for duplicates and lost update |
| C26 | progress milestone, medoid | arithmetic; witnesses |
| C27 | RelativeNG build + search | occlusion gives a strictly closer neighbour; contradiction with fixed point |
| C28 | label medoid computation as fold over any order with oracle draws | invariant |
| C29 | HNSW level sampling, nested search | induction on levels |
| C30–C32 | byte-level readers and writers | encode/decode lemmas; arithmetic mod 2^64 |
| C33–C35 | graph file writer/reader with stream state (eof/fail bits) | induction over nodes; prefix analysis; divergence for every fuel |
| C36–C38 | label parser/printer on bytes, medoid table | split/join lemmas; witnesses |
| C39 | sequence of file operations with crash prefix | case analysis; witness for torn save |
| C40–C41 | composition of the above | rewriting with round trips |
| C42–C43 | cached reader/writer as state machines | simulation relation |
| C44 | string-valued map, decimal printing/parsing | map laws; digit round trip |
| C45–C46 | recall loop, truth-set file | set cardinality; byte lemmas |
| C47–C48 | heap selection as nondeterministic max-removal; part merging | invariant; witness for shrinking k |
| C49 | closest centres per block | block decomposition lemma |
| C50–C52 | integer kernels with 32-bit accumulators, dispatch table, blocked inner product | bounds, ring identities; witness for FAST_L2 |
| C53 | chunk assignment loop | invariant on fill order |
| C54–C56 | shard writers and random slice as folds | list lemmas |
| C57–C58 | Lloyd step over an ordered field, centre selection with oracle | variance decomposition; invariants |
| C59 | argmin loop; the entry points left by the builds of Vamana, RelativeNG and every HNSW level (`Props/BuiltStart.lean`) | invariant |
| C60 | ownership state machine of the raw pointers | case analysis; witnesses |
| C61 | robin-hood table with arbitrary hash function | representation invariant, refinement to a set |
| C62 | `Build` | a measure that every step of an unfinished task lowers; fair schedules |
| C63 | `Build` | reachability over schedules; witness; sequential argument for large R |
| C64–C66 | range-search recall, range truth files | counting; parser analysis; witness |
| C67, C73 | PQ training and coding | argmin loops, block decomposition, file reuse; witnesses |
| C68 | inner-product preparation over the reals | algebra |
| C69 | percentile and degree statistics | sortedness of the sample |
| C70 | filtered ground truth program | composition with C47; overflow for bytes |
| C71 | recall as computed by the search programs | exact count for every order of the stores; refutation |
| C72 | search for the number of parts | exact characterisation of the returned value; non-termination |
| C74 | conversion tools on bytes and text | parser/printer lemmas; refutations |
| C75 | the build and load functions applied to used objects | general statements of what is left over |
| C76 | `Locks`, `BuildFine` | simulation by whole critical sections; capacity invariant; lexicographic measure; races found by evaluation |
| C77 | `LshPar` | invariant over interleavings; construction of a racing schedule |
| C78 | `Pipeline`, `PipelineHnsw` | composition of C22–C29, C30, C41, C62 and the search theorems on objects |
| C79 | `VecTool` | algebra of C68; construction of a schedule that loses the maximum |
| C80 | `RandGen` | invariants over interleavings; a cell outside the array; paired schedule |
| C81 | `TempFile` | calls one after the other; general bad schedules |
| C82 | `SearchProg`, `SearchProgs`, `LshProg` | refinement to the slots of every query for every order; composition with C78 and C11 |
| C83 | `CommandLine` | which arguments are accepted, as an equivalence; nearest-double characterisation of `atof`; composition with C78 and C82 |
| C84 | k-means over any `float` arithmetic, in the caller's memory, with sampling and conversion; IVF training, `partition`, PQ training; build program | refinement of each iteration to a Lloyd step, induction over the iterations, composition with C54, C56, C58, C73, C83 |
| C85 | `TruthProg`: the ground-truth program with its command line and files | loading of parts, independence of distances outside the data, composition with C46, C47 |
| C86 | `Chain`: ground truth, build and search one after the other | counting points with fewer than K nearer ones, composition of C85, C46, C45 and C83 |
| C87 | `UtilLine`: the tools with command line and files | arguments from their places, composition with C74, C45 and C79 |
| C88 | `UtilTrain`, `UtilPq`, `UtilPart`, `UtilRam`: the tools that sample and run k-means, with command line and files | composition with C56, C73, C54, C84 and C72; rounding of the quotient by the rate |
| C89 | `FiltProg`: the filtered ground-truth program with its command line and all its files | composition with C70, C83, C85; independence of distances outside the data |
| C90 | `RandProg`: the random data programs with command line and files | composition with C80; the static schedule is a partition |
| C91 | `ParFor`, `ParLoops`: the other parallel loops, access by access | a discipline (own, read-only and guarded elements) that excludes races and fixes the result; critical sections as single steps; `ParMore`: cleanup and queries, with pruning and search as parameters |
| C92 | `ParMedoid`: the loop over the labels, access by access | the discipline of C91; the stages of an iteration (choice, count, message) as an invariant over the schedule of critical sections, whose order becomes the order of `labelMedoids` |
| C93 | `FloatArith`, `FloatLoops`: binary32 addition, product, fused product, over trees of additions | error of one rounding, induction over the tree; signs and comparisons by bit patterns; pruning of a tree for the padding; composition with C02, C15 |
| C94 | `expandF32`: the expansion in the ground-truth programs | error by linear arithmetic over the three products; a counterexample on an axis, valid for every tree by pruning; composition with C47 |
| C95 | `FloatProg`: conversion of the values of files, matrix of distances, `compare` | integers up to 2^24 (times powers of two) are floats and operations on them exact; bounds on the norms; composition with C85, C86; beyond: a sum that is rounded once in every order |
| C96 | `FloatProg.cmpF32`: `compare` of an index, for the dimension it was built with | operations are commutative and `sqDiff` does not depend on the order; a sum of squares is never NaN; norms bound sums; composition with C83 |
| C97 | `FloatLoops.ipCompareF`, `FloatProg.truthF32` and `cmpF32` with inner products | integer sums below 2^24 are exact; the bound of C93 for inner products; negation and the sign flip of the file are exact |
| C98 | `FloatKmeans`: distances to centres in binary32, sums and quotients in `double`, conversion to `float` | error of the expansion with library norms; errors of sums, reciprocal and quotient in units of 2^-1074; a mean rounded to `float` stays within the range of the points; instance of the arithmetic of C84; composition with C83, C84, C88, C96 |
| C99 | `Kmeans`, `FloatKmeans`: k-means++ with the sum of all distances in any order, the test for ending Lloyd's algorithm | prefix sums in `double` are monotone and do not pass the sum; a dart below 1 times the sum stays below it; sums of whole numbers are exact in any order; error of the quotient in binary32; instance of a general law for C58 |
| C100 | pruning and RelativeNG with `F32.div` as the division and the distances of C93 | error of one rounded quotient, also near the subnormal numbers; a quotient above 1 means a larger dividend, which is the law that C27 assumes |
| C101 | `FloatLsh`: the loop of `get_hash`, and the same in any order; build and search of `Lsh` with it | error bound of C93 for inner products decides the sign; LSH specification of C17 |
| C102 | `FloatMedoid`: the loops of `calculate_medoid_of_data`, and the same with the sums in any order | error of C93 for a sum and of one quotient; sums of ones stop at 2^24, so that 2^26 equal points lose against one other point |
| C103 | `FloatReduce`: `Mips` and `VecTool` with the arithmetic of `float`; division and root are parameters with a bound for the relative error, which those of IEEE-754 and multiplication by the reciprocal meet | errors of quotients, root and norm of one vector, `C103_ties` and `C103_zero_vector` show what the hypotheses exclude |
| C104 | `MemProg`: the functions as statements over pointers and blocks; conditions on data are open, loops run any number of times, calls that can throw may throw; sizes, contents and the memory of the standard library are left out | a checker over abstract states with a proof of soundness, run in the kernel for every function; losses on exceptions with the executions that have them |
| C105 | `Aligned`: addresses as numbers, the arguments of `aligned_alloc`, the addresses of vectors | divisibility for every dimension and base address; contract of `aligned_alloc` characterised for the ground-truth programs |
| C106 | `Generations`: save and load functions of the index types iterated | every file is settled by the operations of a save, so they can be repeated; byte equality after every number of generations |
| C107 | load and search models of the index types (`Damage`, `HnswDamage`, `LshDamage`) | false: a flipped bit of the entry point, of an edge of the entry point (Vamana, HNSW), of a member of an inverted list or of an LSH bucket is accepted and makes searches read outside of the data; a changed marker of a stored hash table is reported; partial: load returns on all bytes, and valid lists are searched safely |

Properties that the code violates are stated in full in `properties.jsonl`;
for these the model proves the negation on a concrete witness and the part
that does hold under the suffix `_partial`.
