{"id": "C01", "title": "Inserting into a candidate list keeps it sorted, complete and duplicate-free", "statement": "Inserting a neighbour into a distance-sorted candidate list of any length either reports that the same identifier is already there (list unchanged; this is always reported when it is there at the same distance), or yields a list of one more entry that is sorted by distance and is a permutation of the old list plus the new entry; the reported position is the position of the new entry and nothing in front of it moved.", "quantifier": "every list length K from 1 to 2^31 + 1 (for every larger K some insertions never end, which is proved), every sorted list content (including ties), every new neighbour; distances range over any totally pre-ordered set of values", "why_tests_cant": "the binary search has boundary cases at every length and every tie pattern; a test can only sample finitely many lists", "anchors": ["include/index.h: InsertIntoPool, Neighbor"]}
{"id": "C02", "title": "A candidate scan keeps exactly the k closest distinct candidates", "statement": "After offering any sequence of candidate points (with repetitions, in any order, possibly in several batches) to a result list of capacity k, the list is sorted by distance, holds distinct offered points with their true distances to the query, holds min(k, number of distinct accepted points) entries, and no accepted point left out is strictly closer than a point that was kept.", "quantifier": "every candidate sequence, every capacity k >= 1 (up to 2^31 + 1, or up to 2^32 - 2 if there are at most 2^31 + 2 points; beyond that some scans never end, which is proved), every distance assignment (ties included), every filter set, every split of the sequence into batches", "why_tests_cant": "correctness depends on the interaction of eviction, ties and duplicates over sequences of unbounded length", "anchors": ["src/index.cpp: ANNIndex::process_candidates_into_best_candidates_pool", "include/index.h: InsertIntoPool"]}
{"id": "C03", "title": "The result pool never reads or writes outside its buffer", "statement": "Searching never touches memory outside the result pool allocated for the requested size: for every requested size k >= 1 and distances below FLT_MAX the scan is memory safe. (For k = 0 two candidates suffice to read far outside the pool, and a first distance of FLT_MAX or more does the same for any k.)", "quantifier": "every requested result count including 0 (up to 2^31 + 1, or up to 2^32 - 2 if there are at most 2^31 + 2 points), every candidate sequence, every distance value including the largest finite value and infinity", "why_tests_cant": "out-of-bounds accesses may go unnoticed at run time and depend on values (k = 0, infinite distance) that tests rarely use", "anchors": ["include/index.h: InsertIntoPool", "src/index.cpp: ANNIndex::process_candidates_into_best_candidates_pool", "src/ivf.cpp: IVFIndex::search", "src/lsh.cpp: LSHIndex::search"]}
{"id": "C04", "title": "A graph search answer is sorted, distinct and truthful", "statement": "For any directed graph over the indexed points, any entry points and any list size L >= 1, the list produced by the graph search is sorted by distance to the query, contains each point at most once, contains only points of the index, and every reported distance is the distance of that point to the query.", "quantifier": "every graph (cycles, self loops, repeated edges, unreachable nodes), every query, every list of entry points, every L >= 1 (up to 2^31 + 1, or up to 2^32 - 2 if there are at most 2^31 + 2 points; L = 2^32 - 1 writes outside of the list, which is proved)", "why_tests_cant": "unit tests fix one graph; the claim must hold for whatever graph a concurrent randomised build produces", "anchors": ["src/graph_index.cpp: GraphIndex::greedy_search_to_fixed_point"]}
{"id": "C05", "title": "Graph search always terminates and never repeats work", "statement": "The graph search terminates on every finite graph; it expands each point at most once and computes the distance of each non-entry point at most once, so the reported hop count and comparison count never exceed the number of indexed points.", "quantifier": "every graph, entry list, query and L >= 1 (up to 2^31 + 1, or up to 2^32 - 2 if there are at most 2^31 + 2 points); also when the adjacency lists change arbitrarily between reads as they do during a parallel build", "why_tests_cant": "non-termination cannot be observed by a test, and the cost bound ranges over all graphs and schedules", "anchors": ["src/graph_index.cpp: GraphIndex::greedy_search_to_fixed_point", "include/percentile_stats.h: QueryStats"]}
{"id": "C06", "title": "Graph search stops only at a fixed point", "statement": "When the graph search returns, every point in the answer list has been expanded, and every filter-passing out-neighbour of a point in the list is itself in the list or is no closer to the query than the worst list entry of a full list. The list is the best-L selection of all points the search looked at.", "quantifier": "every graph, entry list, query, filter and L >= 1 (up to 2^31 + 1, or up to 2^32 - 2 if there are at most 2^31 + 2 points)", "why_tests_cant": "local optimality is a statement about all edges at the final state of an execution of unbounded length", "anchors": ["src/graph_index.cpp: GraphIndex::greedy_search_to_fixed_point"]}
{"id": "C07", "title": "With a list large enough, graph search is exact on the reachable part", "statement": "If the list size L is at least the number of points, an unfiltered search returns every point reachable from the entry point and, as its first k results, the exact k nearest reachable points.", "quantifier": "every graph, query, k <= L and L >= number of points (up to 2^31 + 1, or up to 2^32 - 2 if there are at most 2^31 + 2 points)", "why_tests_cant": "exactness has to hold for every graph and distance assignment", "anchors": ["src/graph_index.cpp: GraphIndex::greedy_search_to_fixed_point", "src/vamana.cpp: Vamana::search", "src/relative_ng.cpp: RelativeNG::search"]}
{"id": "C08", "title": "A filtered search never returns a point that does not match the filter", "statement": "A Vamana, IVF or LSH search with a non-empty label filter returns only points that carry one of the filter's labels, or the universal label, unless the filter itself contains the universal label (then every point matches).", "quantifier": "every graph, label assignment, filter list (sorted or not, with duplicates, with unknown labels), query and parameters; for Vamana every medoid table produced by a build", "why_tests_cant": "soundness must hold for every combination of labels and reachable points", "anchors": ["src/index.cpp: ANNIndex::process_candidates_into_best_candidates_pool", "src/vamana.cpp: Vamana::search, Vamana::calculate_label_specific_medoids", "src/ivf.cpp: IVFIndex::search", "src/lsh.cpp: LSHIndex::search"]}
{"id": "C09", "title": "A point matching the filter is never rejected by the filter test", "statement": "The per-point filter test accepts every point that shares a label with the filter. (Holds when the caller passes the filter labels in sorted order; the search API does not require or enforce this, and for an unsorted filter a matching point can be rejected.)", "quantifier": "every filter list and every label list of a point", "why_tests_cant": "the failing cases depend on the relative order of labels; tests with one label per filter never see it", "anchors": ["src/index.cpp: ANNIndex::process_candidates_into_best_candidates_pool (std::set_intersection)"]}
{"id": "C10", "title": "Every index type honours the search filter", "statement": "Passing a label filter to search restricts the answer to matching points, whatever the index type. (Vamana, IVF and LSH do; HNSW and RelativeNG accept the argument and ignore it.)", "quantifier": "every index type, label assignment, filter and query", "why_tests_cant": "the claim quantifies over index types and all label assignments", "anchors": ["src/hnsw.cpp: HNSW::search", "src/relative_ng.cpp: RelativeNG::search", "include/index.h: ANNIndex::search"]}
{"id": "C11", "title": "The returned count is honest", "statement": "search returns a count c <= res_count; the first c output slots hold c distinct real results in order of distance, and c is smaller than res_count only when the search found fewer points.", "quantifier": "every index type, query, res_count and parameter setting for which the call is memory safe", "why_tests_cant": "must hold for every query and every index contents, including empty candidate sets", "anchors": ["src/vamana.cpp: Vamana::search", "src/hnsw.cpp: HNSW::search", "src/relative_ng.cpp: RelativeNG::search", "src/ivf.cpp: IVFIndex::search", "src/lsh.cpp: LSHIndex::search"]}
{"id": "C12", "title": "Search stays inside the caller's and its own buffers for any requested count", "statement": "For every res_count, search writes only the first res_count output slots and reads only memory it owns. (Graph indices read past their pool when res_count > L+1; a multi-level HNSW overruns its entry-point buffers as soon as res_count > L.)", "quantifier": "every res_count and L, every number of HNSW levels", "why_tests_cant": "a memory-safety claim over all parameter combinations; overruns need not crash a test", "anchors": ["src/vamana.cpp: Vamana::search", "src/hnsw.cpp: HNSW::search", "src/relative_ng.cpp: RelativeNG::search"]}
{"id": "C13", "title": "Results are reported as the caller's tags", "statement": "When the caller supplied tags for the points, the identifiers returned by search are the tags of the points whose distances are returned. (True for the graph indices; IVF returns internal positions, LSH stores tags but then reads vectors at position tag.)", "quantifier": "every tag assignment, index type and query", "why_tests_cant": "needs all tag assignments, not only the identity assignment used by the tools", "anchors": ["src/vamana.cpp: Vamana::search", "src/ivf.cpp: IVFIndex::search", "src/lsh.cpp: LSHIndex::build, LSHIndex::search"]}
{"id": "C14", "title": "Inverted lists partition the data set", "statement": "After an IVF build every indexed point is in exactly one inverted list, namely that of a closest cluster centre, whatever the thread schedule.", "quantifier": "every data set, every set of centres, every order in which threads append to the lists", "why_tests_cant": "ranges over all thread schedules", "anchors": ["src/ivf.cpp: IVFIndex::build", "src/math_utils.cpp: compute_closest_centers"]}
{"id": "C15", "title": "IVF search with all clusters probed is exact", "statement": "An IVF search that probes as many clusters as exist returns the exact k nearest points of the data set (or of the matching points when a sorted filter is given).", "quantifier": "every data set, query, k >= 1 (up to 2^31 + 1, or up to 2^32 - 2 if there are at most 2^31 + 2 points), set of centres and list order", "why_tests_cant": "exactness for all inputs", "anchors": ["src/ivf.cpp: IVFIndex::search, IVFIndex::build"]}
{"id": "C16", "title": "Probing more clusters never loses results", "statement": "Increasing the probe width of an IVF search never makes the answer worse: each returned distance rank is at least as good. (True up to the number of clusters; asking for more clusters than exist silently searches only the first cluster.)", "quantifier": "every pair of probe widths, data set and query", "why_tests_cant": "the failing case is a parameter combination outside what tests use", "anchors": ["src/ivf.cpp: IVFIndex::search", "src/math_utils.cpp: compute_closest_centers, compute_closest_centers_in_block"]}
{"id": "C17", "title": "LSH always finds a stored vector queried by itself", "statement": "Querying an LSH index (built with default tags, at least one table, no filter, k >= 1) with a vector equal to an indexed vector yields at least one result, and the best result is at least as close as that vector.", "quantifier": "every data set, every random choice of hyperplanes, every table count >= 1 and table size <= 64, every indexed vector", "why_tests_cant": "holds for all random hyperplanes; a test samples a few", "anchors": ["src/lsh.cpp: HashTable::get_hash, HashTable::add_vector, HashTable::get_bucket, LSHIndex::build, LSHIndex::search"]}
{"id": "C18", "title": "LSH queries do not disturb later queries", "statement": "An LSH query never changes the answer of any later query nor the index obtained by saving and re-loading, although looking up a bucket may create an empty one.", "quantifier": "every index state and every sequence of queries", "why_tests_cant": "ranges over all query histories", "anchors": ["src/lsh.cpp: HashTable::get_bucket, LSHIndex::search, HashTable::write_to_file"]}
{"id": "C19", "title": "LSH indices survive save and load, repeatedly", "statement": "Loading a saved LSH index gives an index that answers every query as the original did, and this remains true for any number of save/load generations. (One generation is faithful; the second save after a load writes an index that loads as empty.)", "quantifier": "every built index, every query, every number of save/load rounds", "why_tests_cant": "needs the byte-level format for all contents and arbitrary histories", "anchors": ["src/lsh.cpp: LSHIndex::save, LSHIndex::load, HashTable::write_to_file"]}
{"id": "C20", "title": "Pruning respects the degree bound and never invents neighbours", "statement": "Pruning a candidate list for a point returns at most R identifiers, all of them candidates, never the point itself, without repetitions if the candidates had none, in order of increasing distance, and keeps the closest candidate (other than the point) whenever R >= 1.", "quantifier": "every candidate list, R, C, alpha, label assignment and tie-breaking of the sort", "why_tests_cant": "all inputs and all behaviours of an unstable sort", "anchors": ["src/graph_index.cpp: GraphIndex::prune_candidates_alpha_rng, GraphIndex::prune_candidates_top_K"]}
{"id": "C21", "title": "Pruning drops a candidate only for a permitted reason", "statement": "Among the candidates examined, a candidate is dropped only if it is the point itself, the degree bound was reached, or some kept candidate that is at least as close dominates it: distance(point, dropped) / distance(kept, dropped) > alpha and, on a labelled index, the kept one carries all labels of the dropped one. No kept candidate is dominated by another kept closer candidate.", "quantifier": "every candidate list, R, C, alpha, label assignment, pairwise distances (including zero) and sort tie-breaking", "why_tests_cant": "a structural claim on all inputs", "anchors": ["src/graph_index.cpp: GraphIndex::prune_candidates_alpha_rng"]}
{"id": "C22", "title": "Built graphs respect the degree bound under every schedule", "statement": "After a Vamana or HNSW build with degree bound R, every point has at most R out-neighbours, for every interleaving of the build threads; during the build no list exceeds R plus ceil(1.3 R).", "quantifier": "every data set, parameter setting, number of threads and interleaving of the per-list critical sections", "why_tests_cant": "schedules cannot be enumerated by tests", "anchors": ["src/vamana.cpp: Vamana::build", "src/hnsw.cpp: HNSW::build", "src/graph_index.cpp: GraphIndex::add_reciprocal_edges"]}
{"id": "C23", "title": "Built graphs contain only valid edges under every schedule", "statement": "At every moment of a build and afterwards, every edge leads to an indexed point and no point is its own out-neighbour, for every interleaving of the build threads.", "quantifier": "every data set, parameter setting, number of threads and interleaving", "why_tests_cant": "schedules cannot be enumerated by tests", "anchors": ["src/vamana.cpp: Vamana::build", "src/hnsw.cpp: HNSW::build", "src/graph_index.cpp: GraphIndex::add_reciprocal_edges"]}
{"id": "C24", "title": "Built graphs contain no repeated edge", "statement": "No out-neighbour list of a built graph contains the same point twice. (False: a point's own selected neighbours are appended to reverse edges already present; repeated edges survive when the list is not longer than R. RelativeNG graphs and lists rewritten by a prune are free of repetitions.)", "quantifier": "every data set, parameter setting and interleaving", "why_tests_cant": "depends on build order and schedule", "anchors": ["src/vamana.cpp: Vamana::build", "src/hnsw.cpp: HNSW::build", "src/relative_ng.cpp: RelativeNG::build"]}
{"id": "C25", "title": "No edge is lost by concurrent reverse-edge insertion", "statement": "When two build threads add reverse edges to the same point, each edge is still present afterwards unless pruning removed it. (False: the list is copied, pruned outside the lock and written back, so an edge added in between disappears. Holds when insertions to one point are not interleaved.)", "quantifier": "every interleaving of two or more threads updating one list", "why_tests_cant": "a race whose outcome depends on the schedule", "anchors": ["src/graph_index.cpp: GraphIndex::add_reciprocal_edges"]}
{"id": "C26", "title": "Every data set size can be built", "statement": "Building a graph index executes no undefined operation for any number of points. (False: below 10 points the progress milestone is 0 and is used as a divisor; with 0 points the entry-point computation reads outside its array. Holds from 10 points on.)", "quantifier": "every number of points", "why_tests_cant": "an all-sizes claim; tools use large data sets", "anchors": ["src/vamana.cpp: Vamana::build", "src/hnsw.cpp: HNSW::build", "src/relative_ng.cpp: RelativeNG::build", "src/index.cpp: ANNIndex::calculate_medoid_of_data"]}
{"id": "C27", "title": "RelativeNG graphs are navigable: stored vectors are always found", "statement": "On a RelativeNG index, searching for a vector that is stored in the index returns, for every list size L >= 1, a point at the smallest possible distance (a point with distance as small as that of the stored vector itself), from any entry point.", "quantifier": "every data set, every symmetric non-negative distance with zero self-distance that only rounds monotonically in division, every L >= 1 (up to 2^31 + 1, or up to 2^32 - 2 if there are at most 2^31 + 2 points), every query equal to a stored vector, every tie-breaking", "why_tests_cant": "a global property of all data sets", "anchors": ["src/relative_ng.cpp: RelativeNG::build, RelativeNG::search", "src/graph_index.cpp: GraphIndex::prune_candidates_alpha_rng, GraphIndex::greedy_search_to_fixed_point"]}
{"id": "C28", "title": "Every label gets a matching entry point", "statement": "After the label-specific entry points are computed, every label occurring in the data set has exactly one entry point, and that point carries the label or the universal label; the usage counters add up to the number of labels.", "quantifier": "every label assignment, every sequence of random draws, every order in which threads process the labels", "why_tests_cant": "ranges over random draws and schedules", "anchors": ["src/vamana.cpp: Vamana::calculate_label_specific_medoids"]}
{"id": "C29", "title": "HNSW levels are nested and entry points are valid", "statement": "In a multi-level HNSW index each upper level indexes exact copies of points of the level below, its results translate to identifiers of the level below, and therefore every entry point handed down during search is a valid point of the level it is used in.", "quantifier": "every number of levels, every random sample (including everything or few points), every query", "why_tests_cant": "random sampling and any level count", "anchors": ["src/hnsw.cpp: HNSW::build, HNSW::search", "include/utils.h: save_aligned_data_subset_in_orig_dimensions"]}
{"id": "C30", "title": "Vector files round-trip bit for bit", "statement": "Saving a matrix of vectors to a .bin file and loading it again returns the same number of rows, the same dimension and the same element bytes, for every element type, as long as both counts are below 2^32.", "quantifier": "every matrix, element size and contents (including NaN patterns)", "why_tests_cant": "all sizes and contents", "anchors": ["include/utils.h: save_bin, load_bin, load_bin_impl"]}
{"id": "C31", "title": "Aligned loading pads with zeros and saving removes the padding", "statement": "Loading a .bin file into aligned storage keeps every vector unchanged in the first dim entries of its row, fills the remaining entries up to the next multiple of 8 with zeros, and saving in original dimensions reproduces the file byte for byte.", "quantifier": "every file with a consistent header", "why_tests_cant": "all dimensions and contents", "anchors": ["include/utils.h: load_aligned_bin, load_aligned_bin_impl, save_data_in_original_dimensions", "include/essentials.h: ROUND_UP"]}
{"id": "C32", "title": "A vector file whose size contradicts its header is rejected", "statement": "Loading a .bin file whose length is not 8 + rows*dim*sizeof(element) throws, as does loading a missing file. (Exact for 1-byte elements; for 4-byte elements the size computation wraps modulo 2^64, so some contradictory headers pass.)", "quantifier": "every file content, including truncated files, extra bytes and missing files", "why_tests_cant": "all possible corruptions", "anchors": ["include/utils.h: load_bin_impl, load_aligned_bin_impl"]}
{"id": "C33", "title": "Graph files round-trip", "statement": "Saving a graph index and loading it into a fresh object reproduces the entry point, the maximum degree and every adjacency list in order; the size stored in the header equals the file length.", "quantifier": "every graph with fewer than 2^32 points and degrees", "why_tests_cant": "all graphs", "anchors": ["src/vamana.cpp: Vamana::save, Vamana::load", "src/hnsw.cpp: HNSW::save, HNSW::load", "src/relative_ng.cpp: RelativeNG::save, RelativeNG::load"]}
{"id": "C34", "title": "A truncated graph file is detected", "statement": "Loading a graph file that was cut short at any byte reports an error. (False: a cut inside the last adjacency list is accepted and the missing neighbours read as point 0; cuts before the last list's count are reported.)", "quantifier": "every graph file and every cut position", "why_tests_cant": "every crash point", "anchors": ["src/vamana.cpp: Vamana::load", "src/hnsw.cpp: HNSW::load", "src/relative_ng.cpp: RelativeNG::load"]}
{"id": "C35", "title": "Loading with the graph file missing returns", "statement": "load terminates for every state of the file system. (False: if vectors and tags exist but the graph file does not, the read loop waits for an end-of-file that never comes.)", "quantifier": "every state of the files of an index, in particular those left by a crash during save", "why_tests_cant": "non-termination on a crash state", "anchors": ["src/vamana.cpp: Vamana::load", "src/hnsw.cpp: HNSW::load", "src/relative_ng.cpp: RelativeNG::load"]}
{"id": "C36", "title": "Labels survive save and load", "statement": "Saving a labelled index and loading it gives every point the same label list. (Holds whenever no point's largest label is the empty string; a point labelled only with the empty string makes the load abort.)", "quantifier": "every label assignment that a label file can express", "why_tests_cant": "all strings", "anchors": ["src/index.cpp: ANNIndex::parse_label_file, ANNIndex::save_labels"]}
{"id": "C37", "title": "Label files are parsed as documented", "statement": "A label file with one comma-separated line per point gives point i exactly the labels on line i, regardless of order on the line and of LF or CRLF line ends; a file whose line count differs from the number of points, or with an empty line, is refused.", "quantifier": "every file content", "why_tests_cant": "all inputs", "anchors": ["src/index.cpp: ANNIndex::parse_label_file"]}
{"id": "C38", "title": "The label entry-point table round-trips and is not resurrected", "statement": "Loading a saved labelled Vamana index restores the table of label entry points, and loading an index saved without labels gives an empty table. (The first part holds; the second is false when the same path held a labelled index before, because the old table file is left behind.)", "quantifier": "every table, every history of saves to the same path", "why_tests_cant": "depends on the history of saves to a path", "anchors": ["src/vamana.cpp: Vamana::save, Vamana::load", "src/index.cpp: ANNIndex::save_data_and_tags_and_labels"]}
{"id": "C39", "title": "A save interrupted by a crash is never mistaken for a good index", "statement": "If the process dies at any point while saving over an older index at the same path, a later load yields the old index, the new index or an error. (False: new vectors combined with the old graph load without complaint. Shown: which interruption points are safe.)", "quantifier": "every crash point, every pair of old and new index", "why_tests_cant": "crash points cannot be enumerated by unit tests", "anchors": ["src/vamana.cpp: Vamana::save, Vamana::load", "src/index.cpp: ANNIndex::save_data_and_tags_and_labels"]}
{"id": "C40", "title": "IVF indices survive save and load", "statement": "Loading a saved IVF index restores the vectors, tags, centres and inverted lists, hence answers every query as before.", "quantifier": "every IVF index", "why_tests_cant": "all contents", "anchors": ["src/ivf.cpp: IVFIndex::save, IVFIndex::load"]}
{"id": "C41", "title": "A saved and re-loaded index answers every query identically", "statement": "For Vamana, RelativeNG and every level of HNSW: after save and load into a fresh object, every search (any query, filter, L, res_count) gives the same answer as the original index.", "quantifier": "every index, query and search parameters", "why_tests_cant": "all indices and queries", "anchors": ["src/vamana.cpp: Vamana::save, Vamana::load, Vamana::search", "src/hnsw.cpp", "src/relative_ng.cpp", "src/index.cpp: save_data_and_tags_and_labels, load_data_and_tags_and_labels"]}
{"id": "C42", "title": "Buffered reading returns the file's bytes in order", "statement": "A sequence of reads through the cached reader returns consecutive slices of the file for every cache size, and the first read that asks for more than what is left throws.", "quantifier": "every file, cache size and sequence of read sizes", "why_tests_cant": "all sequences of read sizes relative to cache boundaries", "anchors": ["include/cached_io.h: cached_ifstream"]}
{"id": "C43", "title": "Buffered writing loses nothing", "statement": "After the cached writer is destroyed, the file consists of all written blocks in order, for every cache size and every sequence of writes.", "quantifier": "every cache size and sequence of writes (and rewinds)", "why_tests_cant": "all sequences of write sizes relative to cache boundaries", "anchors": ["include/cached_io.h: cached_ofstream"]}
{"id": "C44", "title": "Parameters return what was last set", "statement": "After any sequence of Set calls, Get<unsigned>(name) returns the value last set for that name, for every 32-bit value; a name never set throws, or yields the supplied default. Setting one name never affects another. A finite float that was set is read back as the float nearest to the nearest number of six digits; it is read back unchanged if it is the rounded value of a number of six digits in the normal range.", "quantifier": "every sequence of Set calls over any names and any unsigned values, every finite float", "why_tests_cant": "all histories and all 2^32 values through their decimal text", "anchors": ["include/parameters.h: Parameters::Set, Parameters::Get"]}
{"id": "C45", "title": "Recall lies between 0 and 100 and means what it says", "statement": "The recall computed from a ground truth and answers is between 0 and 100; it is 100 exactly when for every query the first recall_at answers are distinct and all are true neighbours (ground-truth entries tied with the last counted one included). (True of the number of hits; the double that is returned is off by rounding, more than 100 for perfect answers at recall_at = 11.)", "quantifier": "every ground truth with at least recall_at entries per query, every answer matrix, with or without distances, recall_at >= 1", "why_tests_cant": "all inputs, including ties and repeated answers", "anchors": ["src/recall_utils.cpp: calculate_recall", "include/recall_utils.h"]}
{"id": "C46", "title": "Ground-truth files round-trip in both formats", "statement": "A ground-truth file written with identifiers and distances loads with exactly those identifiers and distances, one with identifiers only loads with no distances, and a file of any other size is rejected.", "quantifier": "every ground-truth matrix and every file length", "why_tests_cant": "all sizes", "anchors": ["include/recall_utils.h: load_truthset", "src/aux_compute_groundtruth.cpp: save_groundtruth_as_one_file"]}
{"id": "C47", "title": "Ground truth computation is exact", "statement": "The ground-truth computation returns, for every query, k distinct points in order of distance such that no other point is strictly closer; merging partial results of several file parts gives the same distances as a single pass.", "quantifier": "every distance matrix, k, number of parts", "why_tests_cant": "all inputs and all behaviours of heap and sort on ties", "anchors": ["src/aux_compute_groundtruth.cpp: exact_knn, aux_main"]}
{"id": "C48", "title": "Ground truth has as many neighbours as requested", "statement": "If the data set has at least k points, the ground-truth file lists k neighbours per query. (False when the data set spans several file parts and one part has fewer than k points: k is reduced for good.)", "quantifier": "every data set size, part size and k", "why_tests_cant": "needs data sets larger than the part size", "anchors": ["src/aux_compute_groundtruth.cpp: aux_main"]}
{"id": "C49", "title": "Closest-centre assignment is exact and independent of blocking", "statement": "For every point the k reported centres are distinct, in order of distance, and no unreported centre is strictly closer; the result does not depend on how the points are split into blocks.", "quantifier": "every number of points >= 1, block size >= 1, number of centres and 1 <= k <= number of centres", "why_tests_cant": "block boundaries and ties over all sizes", "anchors": ["src/math_utils.cpp: compute_closest_centers, compute_closest_centers_in_block"]}
{"id": "C50", "title": "Integer vector distances are exact, symmetric and ignore padding", "statement": "For int8 and uint8 vectors the squared L2 distance equals the exact integer sum of squared differences, is symmetric, is zero exactly for equal vectors, and is unchanged by zero padding, as long as the dimension is at most 33025 for int8 (no 32-bit overflow) and 66051 for uint8; beyond that int8 overflows.", "quantifier": "every pair of vectors and every dimension", "why_tests_cant": "overflow needs all dimensions; exactness needs all vectors", "anchors": ["include/distance.h: DistanceL2Int8, DistanceL2UInt8"]}
{"id": "C51", "title": "Every metric name computes that metric", "statement": "An index created with an L2-type metric ranks by Euclidean distance and one created with the inner-product metric ranks by inner product; unsupported combinations throw. (False for FAST_L2 on float vectors: its distance is the negated inner product.)", "quantifier": "every metric, element type and pair of vectors", "why_tests_cant": "all vectors and all metric/type combinations", "anchors": ["src/index.cpp: get_distance_function", "include/distance.h: DistanceFastL2, DistanceInnerProduct, DistanceL2"]}
{"id": "C52", "title": "The vectorised inner product is the inner product", "statement": "In exact arithmetic the blocked inner product (blocks of 16 with an 8-wide tail) equals the sum of products for every dimension that is a multiple of 8, and reads nothing beyond the vectors.", "quantifier": "every dimension that is a multiple of 8 and all vectors over a commutative ring", "why_tests_cant": "all dimensions and values", "anchors": ["include/distance.h: DistanceInnerProduct::inner_product"]}
{"id": "C53", "title": "PQ chunking covers every dimension exactly once", "statement": "For 1 <= chunks <= dim, product quantisation splits the dimensions into contiguous chunks covering every dimension exactly once, with chunk sizes differing by at most one, and its rearrangement table is the identity.", "quantifier": "every dim and number of chunks", "why_tests_cant": "all combinations", "anchors": ["src/partition_and_pq.cpp: generate_pq_pivots"]}
{"id": "C54", "title": "Sharding puts every point into k distinct shards", "statement": "Splitting a data set into shards places every point in exactly k_base distinct shards (its k_base closest), lists identifiers in ascending order, keeps vector j of a shard file equal to the data vector named by identifier j, and the headers hold the true counts.", "quantifier": "every data set, set of centres, k_base <= number of shards, block size", "why_tests_cant": "all data sets and block boundaries", "anchors": ["src/partition_and_pq.cpp: shard_data_into_clusters, shard_data_into_clusters_only_ids"]}
{"id": "C55", "title": "Two-phase sharding equals direct sharding", "statement": "Writing only the identifiers first and collecting the vectors afterwards produces byte-identical shard files to the direct method.", "quantifier": "every data set, set of centres, k_base and block size", "why_tests_cant": "all data sets", "anchors": ["src/partition_and_pq.cpp: shard_data_into_clusters_only_ids, retrieve_shard_data_from_ids, shard_data_into_clusters"]}
{"id": "C56", "title": "A random slice is a faithful subsequence", "statement": "Sampling writes a subsequence of the data in original order, the identifier file names exactly the sampled rows, and both headers hold the true sample size, for every outcome of the random numbers.", "quantifier": "every data set and every sequence of random draws", "why_tests_cant": "all random outcomes", "anchors": ["src/partition_and_pq.cpp: gen_random_slice"]}
{"id": "C57", "title": "k-means iterations never increase the residual", "statement": "In exact arithmetic the residual reported by successive Lloyd iterations never increases.", "quantifier": "every data set, initial centres and number of iterations", "why_tests_cant": "all inputs", "anchors": ["src/math_utils.cpp: lloyds_iter, run_lloyds"]}
{"id": "C58", "title": "Initial cluster centres are data points", "statement": "Every centre chosen by the initialisation procedures is a copy of some data point. (Holds for k-means++; the plain random initialisation leaves a centre unset when it draws the same point twice.)", "quantifier": "every data set and every random outcome", "why_tests_cant": "all random outcomes", "anchors": ["src/math_utils.cpp: random_centers, kmeans_plus_plus_centers"]}
{"id": "C59", "title": "The entry point is a closest point to the centroid", "statement": "The entry point of a graph index is the first point whose computed distance to the centroid is minimal.", "quantifier": "every data set with at least one point", "why_tests_cant": "all data sets including ties", "anchors": ["src/index.cpp: ANNIndex::calculate_medoid_of_data", "src/relative_ng.cpp: RelativeNG::calculate_entry_point"]}
{"id": "C60", "title": "Index objects can be destroyed in any state", "statement": "Every sequence of construct, optional build or load, destroy frees only memory it owns, once, with the matching deallocator. (False: an empty index object destroyed before load frees an uninitialised pointer; a loaded IVF index frees aligned memory with delete[].)", "quantifier": "every life cycle of an index object", "why_tests_cant": "undefined behaviour that tests may not notice; all life cycles", "anchors": ["src/index.cpp: ANNIndex::ANNIndex, ANNIndex::~ANNIndex", "src/ivf.cpp: IVFIndex::~IVFIndex, IVFIndex::load"]}
{"id": "C61", "title": "The hash set used for visited points behaves as a set", "statement": "After any sequence of insertions into the hash set used to remember visited points, a lookup succeeds exactly for the inserted keys, whatever the hash values, collisions and rehashes.", "quantifier": "every sequence of keys and every hash function", "why_tests_cant": "collision patterns and growth for all key sequences", "anchors": ["include/tsl/robin_hash.h: robin_hash::insert_impl, robin_hash::find_impl, robin_hash::rehash_impl"]}
{"id": "C62", "title": "Graph construction always terminates", "statement": "Under every fair schedule of the build threads all iterations of the parallel build loop finish after finitely many steps.", "quantifier": "every data set, parameter setting and fair interleaving", "why_tests_cant": "all schedules; searches run on a graph that other threads keep changing", "anchors": ["src/vamana.cpp: Vamana::build", "src/hnsw.cpp: HNSW::build", "src/graph_index.cpp: GraphIndex::add_reciprocal_edges, GraphIndex::greedy_search_to_fixed_point"]}
{"id": "C63", "title": "Every point of a built graph can be reached from the start node", "statement": "After a Vamana build every point is reachable from the start node. (False: pruning can cut a part off, already in a sequential build; with R = 0 nothing but the start node can be reached, with R = 1 only a chain of points. Holds for every schedule when the degree bound never bites, R >= 2n.)", "quantifier": "every data set, parameter setting and interleaving", "why_tests_cant": "all schedules", "anchors": ["src/vamana.cpp: Vamana::build", "src/graph_index.cpp: GraphIndex::add_reciprocal_edges"]}
{"id": "C64", "title": "Range search recall lies between 0 and 100", "statement": "The recall computed for a range search is between 0 and 100, with the rounding of every floating-point operation taken into account; empty ground truth counts as full recall.", "quantifier": "every ground truth and every result lists, any number of queries below 2^32", "why_tests_cant": "rounding for all inputs", "anchors": ["src/recall_utils.cpp: calculate_range_search_recall"]}
{"id": "C65", "title": "Ground truth restricted to a range keeps exactly the close points", "statement": "Restricting a ground-truth file to a range gives for every query exactly the listed identifiers with a distance of at most the range, in the order of the file, and throws for files of any other length.", "quantifier": "every file and every range value including NaN", "why_tests_cant": "all files and header values including wrap-around", "anchors": ["include/recall_utils.h: prune_truthset_for_range"]}
{"id": "C66", "title": "Range ground-truth files load faithfully", "statement": "A range ground-truth file loads as the lists it contains, and every other file throws. (False for a file that announces zero queries: an array is read out of bounds.)", "quantifier": "every file content", "why_tests_cant": "all header values including negative ones, all list lengths", "anchors": ["include/recall_utils.h: load_range_truthset"]}
{"id": "C67", "title": "Product quantisation stores the nearest centre of every chunk", "statement": "Compressing a data set writes, for every point and every chunk of coordinates, the number of the first centre nearest to the centred vector within that chunk; codes are below the number of centres and survive the conversion to single bytes; the choice has the smallest total error of all choices of centres.", "quantifier": "every data set with at least one point, all tables that fit together, every block size", "why_tests_cant": "all block boundaries, empty chunks, 256 against more centres, ties between centres", "anchors": ["src/partition_and_pq.cpp: generate_pq_data_from_pivots"]}
{"id": "C68", "title": "The reduction of inner products to distances is exact", "statement": "The transformed vectors have one more coordinate and norm 1, and for every query their order by Euclidean distance is the order of the original vectors by decreasing inner product, in exact arithmetic.", "quantifier": "every data set with at least one non-zero vector, every block size, every query", "why_tests_cant": "all data and queries; two passes over all block boundaries", "anchors": ["include/utils.h: prepare_base_for_inner_products"]}
{"id": "C69", "title": "Percentiles and degree statistics are what they claim", "statement": "The percentile reported for a fraction p of n values is the value of a rank within one (and a relative error of 2^-22) of p*n, and no access is out of bounds; the degree statistics after a build report the largest out-degree, exactly the points that are nobody's neighbour, a point with the largest in-degree, and order statistics of the degrees. (Out of bounds for no values, and for the fraction 1.)", "quantifier": "every list of at least one value, every fraction up to 1 - 2^-21, every graph with at least one point", "why_tests_cant": "all numbers of values with all roundings of the position, all graphs", "anchors": ["include/percentile_stats.h: get_percentile_stats", "src/graph_index.cpp: update_degree_stats"]}
{"id": "C70", "title": "The filtered ground truth is the ground truth of the matching points", "statement": "For every data set, label file and filter, the program that computes filtered ground truth writes, for every query, the k nearest of the points with a matching label, named by their numbers in the data set. (False for vectors of bytes, where it writes past the end of an array; undefined if nothing matches.)", "quantifier": "every data set with one line of labels per point, every filter string, every query set, all ways of resolving ties", "why_tests_cant": "all label files and filters, all numbers of matching points against k and the size of a part; the overflow depends on the heap layout and may stay unnoticed", "anchors": ["tests/compute_filtered_groundtruth.cpp: compute_filtered_gt, compute_new_groundtruth"]}
{"id": "C71", "title": "The recall reported by the search programs counts only what the searches returned", "statement": "The number of hits behind the recall that a search program reports is the number of true neighbours among the identifiers its searches returned, in whatever order the threads store them. (False: slots that a search leaves empty hold 0 and count as point 0; a ground truth for fewer queries is read past its end.)", "quantifier": "every ground truth, every outcome of the searches, every order of the stores", "why_tests_cant": "all schedules and all numbers of returned results; the error is a small shift of a percentage", "anchors": ["tests/search_vamana.cpp: search_index", "tests/search_ivf.cpp: search_index", "tests/search_lsh.cpp: search_index", "tests/search_hnsw.cpp: search_index"]}
{"id": "C72", "title": "The number of parts for a memory budget is the smallest that fits", "statement": "The partitioner that is given a memory budget counts how many test points have each centre among their nearest, and returns the smallest number of parts of the form 3, 5, 7, ... for which the memory estimate of every part is within the budget. (False: it does not return if equal points exceed the budget, or if the budget is below the estimate for one point; counts wrap at 2^32; more than three nearest centres read indeterminate values.)", "quantifier": "every data set and outcome of k-means, every budget, rate, dimension and degree", "why_tests_cant": "termination for all budgets and data; rounding of the estimate for all sizes", "anchors": ["src/partition_and_pq.cpp: estimate_cluster_sizes", "src/partition_and_pq.cpp: partition_with_ram_budget", "include/essentials.h: ESTIMATE_VAMANA_RAM_USAGE"]}
{"id": "C73", "title": "Trained centres are those of k-means on the given training data, and compression uses them", "statement": "Training the centres of product quantisation writes, for every chunk of coordinates, exactly the centres k-means found for the centred training vectors in those coordinates, together with the mean, the rearrangement and the offsets; compressing afterwards gives every vector the numbers of the nearest of these centres.", "quantifier": "All training data, numbers of centres and chunks, results of k-means, old files and initial memory contents", "why_tests_cant": "Stale centres of the same shape are kept silently and give plausible codes; the overflow of the table size needs 2^32 numbers; neither is visible in the printed output of a run on small data.", "anchors": ["src/partition_and_pq.cpp:162-333", "tests/utils/generate_pq.cpp:9-34"]}
{"id": "C74", "title": "The conversion tools keep every vector", "statement": "Each conversion tool writes the number of vectors, the dimension and every element of the input converted, in the order of the input, whatever the number of blocks of 131072 vectors: fvecs and ivecs files lose only the dimension in front of each vector, floats become scaled single bytes, a table has one line per vector, and a table of single bytes read back gives the same bytes. (False: values in the upper half of the scale are outside the range of a signed byte, tables of bytes repeat the first vectors after the first block, reading a table of bytes stores characters instead of numbers and loses white space, truncated files are completed from uninitialised memory.)", "quantifier": "All files, block sizes, numbers of vectors, dimensions, element formats and initial memory contents", "why_tests_cant": "The faults of the second block need more than 131072 vectors; characters taken for numbers give a well-formed file.", "anchors": ["tests/utils/fvecs_to_bin.cpp:8-55", "tests/utils/ivecs_to_bin.cpp:8-55", "tests/utils/float_bin_to_int8.cpp:8-61", "tests/utils/bin_to_tsv.cpp:7-67", "tests/utils/tsv_to_bin.cpp:7-72", "tests/utils/uint32_to_uint8.cpp:13-20", "include/utils.h:265-274"]}
{"id": "C75", "title": "Building or loading an index object again replaces its earlier contents", "statement": "An index object that is built or loaded a second time holds what a new object would hold, and its searches answer as those of a new object. (False: lists of clusters, graphs and hash tables are resized or appended to and never cleared; every point is stored twice, a loaded graph comes after the old one and is never used, old edges lead outside the new data, a second label file ends the program.)", "quantifier": "All data sets, earlier contents, files, parameters and queries", "why_tests_cant": "The program uses every object once; the doubled lists of a second build leave the answers of some indexes unchanged and spoil those of others.", "anchors": ["src/ivf.cpp:86-122", "src/relative_ng.cpp:49-83", "src/relative_ng.cpp:135-204", "src/vamana.cpp:102-134", "src/lsh.cpp:129-148", "src/index.cpp:125-158"]}
{"id": "C76", "title": "The parallel build has no data race, cannot deadlock, and its critical sections take effect atomically", "statement": "Executing Vamana::build or HNSW::build with every load and store on a neighbour list as a step of its own: no two threads access the same list, at least one of them changing it, without a lock between them; as long as a task is unfinished some task can go on, and every fair execution ends; every finished execution leaves the lists that some execution of whole critical sections leaves.", "quantifier": "for all data, parameters, numbers of threads, lists left over from an earlier build, and all interleavings of single operations", "why_tests_cant": "A race shows only under a rare interleaving, and usually without a visible effect; a test runs a handful of interleavings, and a race detector sees only those that were run.", "anchors": ["src/vamana.cpp:236-301", "src/hnsw.cpp:155-226", "src/graph_index.cpp:77-110", "src/graph_index.cpp:234-303", "include/index.h:17-18"]}
{"id": "C77", "title": "LSH searches may run at the same time", "statement": "When several LSHIndex::search calls run in different threads (as tests/search_lsh.cpp does), no two of them race on the tables, and each returns what it returns when it runs alone.", "quantifier": "for all tables, queries, numbers of searches and interleavings of the steps of the lookups", "why_tests_cant": "The lookup inserts an empty bucket when there is none; two threads must do so in the same table at nearly the same moment for the damage to happen, and the damage is a corrupted tree that shows later or not at all.", "anchors": ["src/lsh.cpp:42-44", "src/lsh.cpp:151-189", "tests/search_lsh.cpp:104-114"]}
{"id": "C78", "title": "From the data file to the answer", "statement": "Reading a data file (with tags and labels), building the index under any thread schedule, saving it, and loading it in a new object that was made from the same files: every search on that object is defined and returns only tags of vectors of the data file, at most as many as asked for, none twice, each with the distance of that very vector as it stands in the file, in increasing order, and only vectors whose line of the label file matches the filter.", "quantifier": "all data files, tags, label files, build parameters, thread schedules, queries and filters", "why_tests_cant": "The property spans all stages: reading, padding, building in parallel, writing, reading back, searching; a test follows one data set through one schedule.", "anchors": ["src/index.cpp:12-122", "src/vamana.cpp:20-301", "src/relative_ng.cpp:20-204", "src/hnsw.cpp:30-265", "src/ivf.cpp:20-170", "src/graph_index.cpp:36-325"]}
{"id": "C79", "title": "The vector analysis tool prepares vectors for inner product search", "statement": "tests/utils/vector_analysis: the norm analysis prints for each percentage a norm of the corresponding rank; preparing base vectors gives vectors of norm 1 and preparing queries divides by the norm, such that the order by distance is the order by inner product; normalising gives vectors of norm 1; for all element types offered (float, int8, uint8) and all schedules of the threads. (False: the threads update the largest norm without protection, so that the norm of any vector may come out as the largest; in files of integers nearly all vectors are written as zero vectors; an empty file is read out of bounds.)", "quantifier": "all data sets, element types, orders and interleavings of the iterations", "why_tests_cant": "The lost maximum needs a rare interleaving and yields a well-formed file; the percentile and integer cases depend on values and numbers of vectors that a test must happen to choose.", "anchors": ["tests/utils/vector_analysis.cpp:23-44", "tests/utils/vector_analysis.cpp:46-64", "tests/utils/vector_analysis.cpp:67-112"]}
{"id": "C80", "title": "The random data generator writes the numbers drawn", "statement": "random_gaussian and random_cube write a file of num_vectors vectors of dimension dim whose coordinates are the successive numbers of the generator, for all sizes and numbers of threads; nothing is stored outside the array. (False: the size of the array and the positions are computed in 32 bits, so that every run with num_vectors * dim at least 2^32 stores outside the array; the threads share one generator without protection and may get the same numbers, so that half of the vectors are copies of the others.)", "quantifier": "all sizes, generators, distributions of the iterations over threads and schedules", "why_tests_cant": "The overflow needs 16 GB of data; whether two threads draw at the same moment depends on timing, and copies among random vectors are not noticed.", "anchors": ["include/random_dist_gen.h:7-43", "tests/dist_gen.cpp:3-14", "tests/build_random_dist.cpp:3-14"]}
{"id": "C81", "title": "HNSW builds do not disturb each other", "statement": "When several programs build HNSW indexes on one machine at the same time, the inner index of each is made of the vectors sampled from its own data. (False: all builds use the file /tmp/temp_data; a build that reads it after another one has written gets the vectors of the other one, with its own numbers as tags, or ends with an exception.)", "quantifier": "all numbers of builds, data sets, samples and orders of the calls", "why_tests_cant": "It needs two builds within the short time between writing and reading the file, and with equally many sampled points nothing shows but bad recall.", "anchors": ["src/hnsw.cpp:122-140", "include/utils.h:171-214", "src/index.cpp:74-106"]}
{"id": "C82", "title": "A search program writes the answers of its searches and prints their recall", "statement": "For a query file with at least one query, vectors at least as long as those of the index (after rounding up to multiples of 8) and a ground truth for exactly these queries or none, and search parameters from 1 to 2^31 - 1, a search program ends normally for every saved index: for each search parameter that is not left out it leaves a file with the result slots of every query, for every order in which the threads do the queries, and prints the percentage of true neighbours among these slots; no other file is changed. For Vamana, RelativeNG and HNSW the slots are the tags of different vectors matching the filter, nearest first, and the tag of point 0 behind them; for IVF and LSH numbers of matching rows and zeros, for LSH the nearest ones that share a bucket with the query, although its searches change the tables. Without these conditions the program reads outside its arrays.", "quantifier": "all indexes, query files, truth files, search parameters, filters, orders of the queries and initial memory contents", "why_tests_cant": "A run has one set of queries and one order of the threads; that slots behind the results count as point 0 only shows as a slightly wrong percentage.", "anchors": ["tests/search_vamana.cpp:21-190", "tests/search_relng.cpp:21-185", "tests/search_hnsw.cpp:21-184", "tests/search_ivf.cpp:21-168", "tests/search_lsh.cpp:19-169"]}
{"id": "C83", "title": "The programs do what the command line says", "statement": "A build program started with a well-formed command line reads the files named, builds the index with the numbers written in the arguments and leaves the index files under the prefix given; a search program started with the same prefix answers the queries of the file named with the list of search parameters written, and leaves one result file per parameter under the result prefix. Different numbers never share a file name. Numbers are taken at their value, alpha as the nearest float. (False: with too few arguments the programs read behind the argument list, except where the count is checked; arguments behind the last one are ignored; numbers outside the 32-bit range have no defined value; a negative count becomes a large one, and -1 as list size makes build_vamana and the search programs of the graph indexes write behind an empty list; text that is no number counts as 0; alpha is rounded twice and may be one unit away from the nearest float.)", "quantifier": "all argument lists, files, contents of the environment, schedules and orders of the queries", "why_tests_cant": "Whether an argument is taken from the right place for every number of arguments, and what happens for lists that are too short, is never tried; the second rounding of alpha differs for a few texts only.", "anchors": ["tests/build_vamana.cpp:17-106", "tests/build_hnsw.cpp", "tests/build_relng.cpp", "tests/build_ivf.cpp", "tests/build_lsh.cpp", "tests/search_vamana.cpp:21-73", "tests/search_vamana.cpp:182-212", "tests/search_hnsw.cpp", "tests/search_relng.cpp", "tests/search_ivf.cpp", "tests/search_lsh.cpp"]}
{"id": "C84", "title": "Trained centres are those Lloyd's algorithm reaches from sampled vectors", "statement": "The centres of an IVF index, of a partition of a file, and (chunk by chunk) of product quantisation come from k-means on exactly the sampled vectors, converted to floats: it starts with sampled vectors, every iteration puts each vector to the first of its closest centres, makes every centre the mean of its vectors (zero if it has none), and ends with the iteration in which the test on the residuals holds first, at the limit otherwise. A rate of at least 1 (or NaN) samples every vector, a rate of at most 0 none. If training ends, the IVF programs do what they should from the command line on, and a partition puts every vector into the shards of its nearest centres. (False: with no sampled vector, in particular for a rate of 0, or with 0 clusters the behaviour is undefined; k-means++ need not end.)", "quantifier": "all data sets with 1 to 2^23 sampled vectors, rates, random numbers, orders of the threads, limits on the iterations, and all arithmetic without distances from FLT_MAX on", "why_tests_cant": "Tests see one sample and one order of the threads; that an empty cluster becomes the zero vector and that a rate of 0 reads memory that was never allocated shows only for particular data.", "anchors": ["src/ivf.cpp:86-122", "src/math_utils.cpp:230-455", "src/partition_and_pq.cpp:81-160", "src/partition_and_pq.cpp:300-313", "src/partition_and_pq.cpp:857-901"]}
{"id": "C85", "title": "The ground-truth program writes the nearest points of every query", "statement": "compute_groundtruth, started with seven arguments, reads the points and the queries named, and writes to the file named (and to no other) K numbers and distances per query: different points, nearest first, no omitted point nearer than a listed one, which the search programs load unchanged; with inner products the signs are reversed. (False: K must not exceed the number of points in the last part of 10000000; queries behind the first 10000000 are left out; queries with fewer dimensions than the points are read out of bounds and queries with more are cut at the wrong places; 2^31 points or more, missing files and a K of 0 are undefined, a negative K ends with an exception; an unknown type is ignored silently.)", "quantifier": "all files, arguments, part sizes, distance functions without NaN, heaps, sorts and initial memory contents", "why_tests_cant": "A second part of the file needs ten million points; queries of another dimension give plausible but wrong neighbours.", "anchors": ["tests/utils/compute_groundtruth.cpp:66-380"]}
{"id": "C86", "title": "The recall printed is the share of true neighbours", "statement": "If the ground-truth program, a build program and a search program are run one after the other on the same data and queries, the recall printed is, within rounding, the percentage of result slots that hold a point with fewer than K points nearer to the query; an IVF search over all clusters gets 100 percent. (False: the file has a fixed number of neighbours per query; if more points than that tie with the K-th nearest one, some right answers are not counted, and a perfect search gets less than 100 percent.)", "quantifier": "all data, queries, numbers of neighbours K up to the number in the file, both metrics of the ground-truth program, orders of the threads and of ties", "why_tests_cant": "That an exact search gets 75 percent depends on ties at the last place of the truth file; tests look at the recall of one data set and cannot tell a missed neighbour from a tie not counted.", "anchors": ["tests/utils/compute_groundtruth.cpp:66-380", "include/recall_utils.h:45-96", "src/recall_utils.cpp", "tests/search_ivf.cpp:21-168", "tests/build_ivf.cpp"]}
{"id": "C87", "title": "The conversion and analysis tools do what the command line says", "statement": "The programs of tests/utils (fvecs_to_bin, ivecs_to_bin, float_bin_to_int8, int8_to_float, uint8_to_float, uint32_to_uint8, bin_to_tsv, tsv_to_bin, calculate_recall, vector_analysis), started with the expected number of arguments, take every argument from its place, and leave the file named with the converted contents and every other file as it was; with another number of arguments they only print the usage. Finite numbers survive bin_to_tsv followed by tsv_to_bin up to one part in 100000. Bytes converted to floats are exact. (False: of more than 131072 vectors of bytes bin_to_tsv repeats the first ones, and white space among the bytes is lost on the way back; with an unknown type it leaves an empty file and tsv_to_bin one with a header only; a small negative number of points gives a header that claims almost 2^32 vectors, dimension -1 overruns a buffer; vector_analysis reads behind the arguments if the output name is missing; a value out of range has no defined conversion to int8.)", "quantifier": "all argument lists, files, numbers and contents of the memory", "why_tests_cant": "Which argument goes where for every list, and what is left for negative numbers and unknown types, is not tried; the tools have no tests.", "anchors": ["tests/utils/fvecs_to_bin.cpp:18-56", "tests/utils/ivecs_to_bin.cpp:18-56", "tests/utils/float_bin_to_int8.cpp:21-62", "tests/utils/bin_to_tsv.cpp:23-68", "tests/utils/tsv_to_bin.cpp:26-73", "tests/utils/int8_to_float.cpp:7-21", "tests/utils/uint8_to_float.cpp:7-21", "tests/utils/uint32_to_uint8.cpp:7-21", "tests/utils/calculate_recall.cpp:15-53", "tests/utils/vector_analysis.cpp"]}
{"id": "C88", "title": "The sampling, quantisation and partition tools do what the command line says", "statement": "gen_random_slice, generate_pq, partition_data and partition_with_ram_budget, started with the expected number of arguments, take every argument from its place, and leave every other file as it was. gen_random_slice leaves the vectors for which the random number is below the rate, and their numbers. generate_pq leaves 256 centres per chunk that k-means finds for the sampled vectors, and for every vector the nearest of them per chunk. partition_data leaves the centres that k-means finds, and for every centre the vectors that have it among the closest ones. partition_with_ram_budget makes the smallest number of parts, of 3, 5, 7, ..., for which every part is estimated to fit the budget. With another number of arguments they only print the usage. (False: generate_pq uses centres that are left from another run, whatever the rate and the data; with more closest centres than parts, partition_data puts every vector as many times into the first part; partition_with_ram_budget does not end for a negative budget, uses uninitialised numbers for more than three closest centres, and takes every part for empty if the rate is large; negative numbers and an empty sample are undefined or stop the program.)", "quantifier": "all argument lists, files, random numbers, orders of the threads, arithmetic and contents of the memory", "why_tests_cant": "The tools have no tests; what depends on random numbers, on files left from other runs and on unusual numbers cannot be tried exhaustively.", "anchors": ["tests/utils/gen_random_slice.cpp", "tests/utils/generate_pq.cpp", "tests/utils/partition_data.cpp", "tests/utils/partition_with_ram_budget.cpp:11-40", "src/partition_and_pq.cpp:845-988"]}
{"id": "C89", "title": "The filtered ground-truth program writes the nearest matching points of every query", "statement": "compute_filtered_groundtruth, started with seven or eight arguments, takes every argument from its place, and leaves in the file named a ground-truth file in which every query has the nearest of the points that have one of the labels given or the universal label, by their numbers in the data set: K of them, or as many as match in the last part of the filtered file. Its two temporary files are gone and no other file is changed; the search programs load the file unchanged. With another number of arguments or an unknown type nothing is done. (False: with vectors of bytes and at least one query an array is overrun; if no point matches, if K is 0 or negative, or if the queries have a smaller dimension than the vectors, the behaviour is undefined.)", "quantifier": "all files, argument lists, labels, part sizes, distance functions without NaN on the data, heaps, sorts and initial memory contents", "why_tests_cant": "The program has no tests; that it needs float vectors, a match and a positive K shows only as memory corruption.", "anchors": ["tests/compute_filtered_groundtruth.cpp:34-251", "src/aux_compute_groundtruth.cpp:66-338"]}
{"id": "C90", "title": "The random data programs write and print the vectors asked for", "statement": "build_random_dist (and dist_gen), started with four arguments, writes to the file named, and to no other, as many vectors of the dimension as asked for, and every coordinate is a number of the distribution asked for, with any number of threads and any order of their accesses to the generator; load_random_dist prints a line for each vector of a file, with the coordinates in order. (False: if the product of the two numbers, taken as unsigned, is 2^32 or more, no run writes a file; with two threads and a multiple of 128 vectors there is an order in which every vector of every other block of 64 has a copy; with 2^31 vectors or more the counter of the printing program overflows, a file of eight bytes is enough.)", "quantifier": "all argument lists, numbers of threads, orders of accesses, numbers drawn, and files", "why_tests_cant": "Copies caused by a race depend on the order of the threads; sizes from 2^31 on are never tried.", "anchors": ["tests/build_random_dist.cpp", "tests/dist_gen.cpp", "tests/load_random_dist.cpp", "include/random_dist_gen.h"]}
{"id": "C91", "title": "The parallel loops have no data race and compute what the loops compute without threads", "statement": "In every loop marked for parallel execution whose iterations write parts of arrays (squared norms, closest centres of a block, copying the closest centres and filling the inverted lists, residuals, new centres and their residuals, distances of the seeding, distances to the centroid, cutting and coding the chunks, conversions, rows of the ground truth, norms, the build of the relative neighbourhood graph, the final cleanup of the Vamana and HNSW graphs, and the queries of the search programs), for any order of the single loads and stores of the iterations: nothing outside of an array is accessed, no two iterations are about to access the same element with one of them storing, the loop can be completed, and every completed execution leaves the arrays that the loop without threads leaves, with the values the formulas prescribe; the inverted lists are those of some order of the points. (The loops that insert into Vamana and HNSW graphs are in C76, the queries of LSH in C77, the largest norm in C79, the random generators in C80, the label medoids in C92.)", "quantifier": "all numbers of iterations, all array contents, all arithmetic, all interleavings of single accesses", "why_tests_cant": "A race needs a particular interleaving on a particular machine; that none exists cannot be observed.", "anchors": ["src/math_utils.cpp:23-31", "src/math_utils.cpp:95-122", "src/math_utils.cpp:176-189", "src/math_utils.cpp:201-219", "src/math_utils.cpp:253-288", "src/math_utils.cpp:404-448", "src/index.cpp:313-324", "src/relative_ng.cpp:108-195", "src/partition_and_pq.cpp:300-305", "src/partition_and_pq.cpp:489-515", "include/utils.h:268-273", "src/aux_compute_groundtruth.cpp:66-172", "tests/utils/vector_analysis.cpp:30-61", "src/vamana.cpp:303-330", "src/hnsw.cpp:227-258", "tests/search_vamana.cpp:125-136", "tests/search_hnsw.cpp:119-130", "tests/search_relng.cpp:120-131", "tests/search_ivf.cpp:103-114"]}
{"id": "C92", "title": "The parallel loop over the labels: entry points right in every schedule, no data race", "statement": "In the parallel loop that chooses an entry point for every label, for any order of the single loads and stores of the iterations: nothing outside of an array is accessed, the loop can be completed, and every completed execution leaves the entry points and the numbers of uses that the iterations leave when they run one after the other in some order, with all labels counted; each label gets exactly one entry point, a point that carries it. No two iterations are about to access the same object with one of them storing. False: the progress counter is incremented in a critical section and read for the message outside of it, so that with two labels or more there is a data race, though on nothing else.", "quantifier": "all labels, all points with their labels, all results of rand, all interleavings of single accesses", "why_tests_cant": "A race needs a particular interleaving on a particular machine; a message with a stale number shows nothing.", "anchors": ["src/vamana.cpp:157-216"]}
{"id": "C93", "title": "Distances in float arithmetic: bounded error, symmetric, zero on itself; answers right up to the error", "statement": "The L2 distance computed in binary32 arithmetic, with the additions in any order, with or without fused operations, with or without flushing of tiny numbers to zero, is a finite number of no negative sign below FLT_MAX, within an explicit error of the exact squared distance (relative: three more than the number of additions in a row, times 2^-23), for vectors whose exact squared distance is at most 2^125. It is symmetric bit by bit, zero from a vector to itself, and zero padding changes it no more than the order of additions does. The loop of compare and the blocks of eight with a remainder of inner_product are such orders. Two points whose exact distances differ by more than the errors are ordered rightly; a scan and an IVF search of all clusters list the nearest points up to the errors. The inner product has the same error, relative to the sum of absolute values. Not claimed: distance zero does not imply equal vectors.", "quantifier": "all finite vectors of every dimension, all orders of additions, both rounding modes for tiny numbers", "why_tests_cant": "The order of additions depends on the compiler, its flags and the machine; a test sees one of them, on a few vectors.", "anchors": ["include/distance.h:63-182", "src/index.cpp:185-260", "src/ivf.cpp:60-140"]}
{"id": "C94", "title": "Distances of the ground-truth programs in float arithmetic: right order", "statement": "The ground-truth programs compute |p|^2 + |q|^2 - 2 p q by three matrix products. In every order of additions the result is finite and within an explicit error of the exact squared distance, and exact_knn lists the nearest points up to these errors. False: that the points listed are the nearest ones whenever the distances differ noticeably. The error is relative to the norms: in every dimension and in every order of additions there are a query and two points at squared distances 9/16 and 1 for which the computed distances are 1 and 0, so that exact_knn lists the wrong point.", "quantifier": "all finite vectors of every dimension, all orders of additions, all data sets, every choice among equal elements by the queue", "why_tests_cant": "The truth set is what other results are tested against; nobody tests it.", "anchors": ["src/aux_compute_groundtruth.cpp:67-181", "tests/utils/compute_groundtruth.cpp:71-210"]}
{"id": "C95", "title": "The programs with their distances in float arithmetic: exact for bytes up to dimension 258", "statement": "For files of int8 or uint8 vectors of dimension at most 258 all distances of the ground-truth program and of the indices are computed without any rounding error, in every order of the additions, so that the ground-truth program writes exactly nearest points with their exact distances. For float files it writes the nearest points up to the errors of C94. The chain ground truth, build, search of all clusters of an IVF index, with everything computed in float arithmetic, prints a recall of 100 percent: for bytes in these dimensions, and for floats whose exact distances to a query differ by more than the errors, provided the truth file has room for ties. False beyond dimension 258: in every dimension from 259 on and in every order of additions there are uint8 files for which the program writes a point at squared distance 5 as the nearest, though another one is at 4.", "quantifier": "all files of bytes up to dimension 258, all float files within range; for the refutation all dimensions from 259 on; all orders of additions", "why_tests_cant": "The limit lies between two dimensions that tests do not use, and depends on vectors near the largest values.", "anchors": ["tests/utils/compute_groundtruth.cpp:71-210", "tests/utils/compute_groundtruth.cpp:254-255", "include/distance.h:41-79", "tests/search_ivf.cpp:20-160"]}
{"id": "C96", "title": "The indices with their distances in float arithmetic: no condition about the arithmetic is left", "statement": "Every distance of an index (int8, uint8 and float vectors, squared distance, inner product and normalised vectors) is the same for exchanged arguments, bit for bit and for all contents of memory, infinities and NaN included. It is a number for all files of bytes in the dimensions where the integer sums do not overflow, for all finite float values and the squared distance, and for float vectors whose norms do not overflow and the inner product; and it is below the largest float for bytes and for such norms. Therefore the programs that build and search Vamana, RelativeNG, HNSW, LSH and IVF indices work as claimed (C83) with their distances computed in float arithmetic, in any order of the additions; nothing is assumed about the distances, only about the values in the files. For bytes a computed distance differs from the exact one by at most one part in 2^24, and the results of a graph search are sorted by the exact distances up to this error. The bound for inner products is needed: for two vectors of finite values the result is NaN.", "quantifier": "all files, queries and arguments; all orders of the additions; both settings of the treatment of subnormal numbers", "why_tests_cant": "A NaN, an infinite value or an asymmetric distance changes the order of the candidates; a test compares results on a few data sets whose values are small.", "anchors": ["include/distance.h:39-295", "tests/build_vamana.cpp:15-60", "tests/search_hnsw.cpp:20-160", "src/vamana.cpp: Vamana::build, Vamana::search", "src/graph_index.cpp: GraphIndex::greedy_search_to_fixed_point"]}
{"id": "C97", "title": "Inner products in float arithmetic", "statement": "DistanceInnerProduct::compare, the index with this metric and compute_groundtruth with mips compute the negative inner product: for int8 and uint8 files of dimension up to 258 the ground-truth program computes it exactly, in every order of the additions, and writes for every query K points with the largest inner products together with these inner products, in their own sign. For float files the computed numbers are within an explicit error of the exact inner products, so that the points written, and the points an index returns, have the largest inner products up to these errors, largest first. Exactly largest they are not: rounding can reverse the order of two points.", "quantifier": "all files, queries and arguments; all orders of the additions; both settings of the treatment of subnormal numbers", "why_tests_cant": "A lost sign, in the distance or in the file, reverses the order of all results; a test with the wrong sign on both sides still reports full recall.", "anchors": ["include/distance.h:85-191", "tests/utils/compute_groundtruth.cpp:80-127", "tests/utils/compute_groundtruth.cpp:200-300", "src/graph_index.cpp:55-66"]}
{"id": "C98", "title": "k-means in float arithmetic", "statement": "With its distances in float arithmetic (norms from the library, sums in any order) and its means in double arithmetic rounded to float, k-means never leaves finite numbers for data of limited size, every step is a step of Lloyd's algorithm up to explicit errors of rounding, and so are the clusters an inverted index built and searched from the command line looks into, the shards of partition_data and the codes of generate_pq: every vector belongs to a centre that is nearest in exact arithmetic up to the error, and the new centre is the exact mean of its points up to the error. Exactly nearest it is not: a point can be given to the farther one of two centres.", "quantifier": "all files of int8 and uint8 and all float files of limited size; all orders of the additions; both settings of the treatment of subnormal numbers; division or multiplication by the reciprocal; any library function for norms of a stated accuracy", "why_tests_cant": "Rounding errors depend on the data; a computed distance may be negative or zero, and infinities or NaN would put all points into one cluster or none.", "anchors": ["src/math_utils.cpp:12-32", "src/math_utils.cpp:78-96", "src/math_utils.cpp:250-345", "src/ivf.cpp:100-140"]}
{"id": "C99", "title": "k-means++ and Lloyd's algorithm end in float arithmetic", "statement": "With all distances in float arithmetic and all sums in double arithmetic, rounded after every addition, k-means++ picks a new point in every round whatever the random numbers below 1, until every point is at distance zero from a centre; it ends after num_centers - 1 rounds with data points as centres. This needs the sum of all distances to be taken in the order of the loop that looks for the dart, or vectors of bytes in at most 258 dimensions, where any order will do; in another order a dart can miss all points, and the round is wasted. Lloyd's algorithm goes on while the residual falls by a factor of more than 1.00001 and ends once it does not, up to an error of 2^-22 in the last digits, or when the residual is below 2^-23.", "quantifier": "all files of int8 and uint8 and all float files of limited size; all outcomes of the random numbers; all orders of the additions in a distance; both settings of the treatment of subnormal numbers", "why_tests_cant": "A dart between the largest prefix sum and the sum happens with a probability of about 2^-53 per round.", "anchors": ["src/math_utils.cpp:325-337", "src/math_utils.cpp:374-455", "src/math_utils.cpp:12-18"]}
{"id": "C100", "title": "Pruning and RelativeNG in float arithmetic", "statement": "With the distances and the quotient of two distances in float arithmetic, pruning is the greedy selection for a relation of occlusion that is right up to the errors of the distances and one part in 2^23 for the quotient: if a candidate is dropped in favour of another one, alpha times their distance is not above the distance to the point being pruned by more than this, and the reverse holds if it does not occlude it. The graph of RelativeNG is the relative neighbourhood graph up to these errors. A search for a stored vector reports first a point at computed distance +0, whose exact distance is at most a tiny number.", "quantifier": "all vectors whose distances do not overflow; all orders of the additions, with and without fused operations; both settings of the treatment of subnormal numbers; all orders of equal candidates; every alpha of at least 1", "why_tests_cant": "A quotient that is rounded across 1 needs two distances that agree in 23 bits, and a graph in which a walk is stuck because of it needs more points than a test has.", "anchors": ["src/graph_index.cpp:131-200", "src/relative_ng.cpp:150-215", "src/graph_index.cpp:16-128"]}
{"id": "C101", "title": "LSH in float arithmetic", "statement": "With the inner products and distances in float arithmetic, the bit of a hash is right whenever the vector is further from the hyperplane than the error of the inner product. A search answers with the nearest points, up to the errors of the distances, of a set of points that match the filter: the set has every matching point that is for some table on the same side of all hyperplanes as the query by more than the errors, and no point that is for every table on another side of some hyperplane by more than the errors. A search for a stored vector reports first a point at computed distance +0, whatever the hyperplanes are.", "quantifier": "all data, queries, labels and hyperplanes of limited size; all orders of the additions; both settings of the treatment of subnormal numbers; up to 64 hyperplanes a table", "why_tests_cant": "The sign of an inner product near 0 depends on the order of the additions, which the compiler chooses; random hyperplanes seldom come that near.", "anchors": ["src/lsh.cpp:46-64", "src/lsh.cpp:129-148", "src/lsh.cpp:150-180"]}
{"id": "C102", "title": "The entry point in float arithmetic", "statement": "With the sums, the division and the distances in float arithmetic, every coordinate of the centre is the exact mean up to an error that grows with the number of additions one after the other, and the entry point of Vamana and RelativeNG is a point of the data that is nearest to this centre up to the errors of the distances. For whole numbers with sums up to 2^24 the error is that of one division. This fails for large data: from 2^26 points on, the sums of the loops stop growing at 2^24, and the entry point can be the one point that is farthest from the mean.", "quantifier": "all data with coordinates up to 2^40 and up to 2^32 dimensions; all orders of the additions that are up to 2^22 - 6 deep; division or multiplication by the reciprocal; both settings of the treatment of subnormal numbers; for the failure every number of points from 2^26 + 1 and up to 2^20 dimensions", "why_tests_cant": "A test has too few points for a sum to lose anything, and a bad entry point shows as a slow search only.", "anchors": ["src/index.cpp:297-338", "src/relative_ng.cpp:92-133"]}
{"id": "C103", "title": "The reduction of inner products to distances in float arithmetic", "statement": "With sums, products, quotients and square roots in float arithmetic, the file that prepare_base_for_inner_products writes holds vectors of norm 1, the number returned is the largest norm, and the squared distance of a vector from a query is that of exact arithmetic, all up to explicit errors. Of two vectors the one with the larger inner product is nearer, if the inner products differ by more than the errors; for inner products that are closer the order can be reversed. Normalised vectors and queries of the vector analysis tool have norm 1 up to the same errors; vectors of zeros become NaN.", "quantifier": "all files whose vectors have squared norms up to 2^98, one of them at least 2^-59; all block sizes, all dimensions up to 2^21 - 1; the divisions and roots of IEEE-754 and all others with a relative error up to 2^-20, among them multiplication by the reciprocal; both settings of the treatment of subnormal numbers; for the errors of one vector all orders of the additions", "why_tests_cant": "A test compares the answers of a few queries, whose inner products differ by much more than the errors.", "anchors": ["include/utils.h:284-357", "tests/utils/vector_analysis.cpp:46-112"]}
{"id": "C104", "title": "Memory managed by hand inside functions", "statement": "The functions and programs that allocate with new[] or aligned_alloc release every block exactly once and in the matching way before they end normally, or hand it over: k-means, the sampling and loading functions, the medoid, ground truth, partitioning, product quantisation, the search of IVF and LSH, the conversion tools. No pointer is released that is uninitialised or was released before. Functions that keep their memory in owners release it on exceptions as well; the others lose a stated number of blocks then, and do lose as many: a constructor up to three, partitioning two or three, generate_pq and retrieve_shard_data_from_ids one, prune_truthset_for_range two. The search programs never release the truth arrays, and lloyds_iter called with null pointers keeps a block nobody can release.", "quantifier": "all executions: every branch, every number of iterations of every loop, an exception at every call that can throw; from every heap", "why_tests_cant": "A leak or a double release on an early return or on an exception needs that very path to be run, with a tool that watches the heap.", "anchors": ["src/math_utils.cpp:59-345", "src/math_utils.cpp:373-455", "src/index.cpp:74-114", "src/index.cpp:297-338", "src/relative_ng.cpp:92-133", "src/ivf.cpp:86-169", "src/lsh.cpp:151-189", "src/partition_and_pq.cpp:17-160", "src/partition_and_pq.cpp:167-597", "src/partition_and_pq.cpp:599-988", "include/recall_utils.h:46-164", "include/utils.h:72-121", "include/cached_io.h:13-120", "src/aux_compute_groundtruth.cpp:76-339", "tests/utils/compute_groundtruth.cpp:80-366", "tests/utils/generate_pq.cpp:9-34", "tests/search_vamana.cpp:22-191", "tests/utils/calculate_recall.cpp:15-54", "tests/utils/vector_analysis.cpp:25-111", "include/random_dist_gen.h:7-43"]}
{"id": "C105", "title": "Vectors are aligned as the distance functions promise", "statement": "DistanceL2, DistanceL2Int8 and DistanceL2UInt8 tell the compiler that their arguments are aligned to 32, 8 and 8 bytes. Every vector of an index and every query loaded by load_aligned_bin has that alignment, for every dimension, because of the rounding of the dimension (without it exactly the dimensions that 8 divides would do), and the call of aligned_alloc is within its contract (the size is a multiple of the alignment), also when the size wraps around. Unless it wraps around, every padded vector lies inside of the block. The ground-truth programs call aligned_alloc within its contract exactly if the number of elements is a multiple of 128.", "quantifier": "all element types, numbers of vectors, dimensions, base addresses the allocator may return and vector numbers", "why_tests_cant": "Misalignment shows only if the compiler chose aligned instructions and the allocator returned an unlucky address; allocators accept calls outside of the contract silently.", "anchors": ["include/utils.h:18-28", "include/utils.h:240-249", "include/distance.h:39-80", "src/index.cpp:274-276", "src/graph_index.cpp:60-62", "src/graph_index.cpp:186-189", "src/graph_index.cpp:279-282", "src/hnsw.cpp:237-240", "src/relative_ng.cpp:182-185", "src/vamana.cpp:313-316", "src/aux_compute_groundtruth.cpp:53-60", "src/aux_compute_groundtruth.cpp:225", "tests/utils/compute_groundtruth.cpp:57-64", "tests/utils/compute_groundtruth.cpp:252"]}
{"id": "C106", "title": "Saving a loaded index again writes the same files", "statement": "An index that is saved, loaded into a new object, saved again and so on, any number of times under the same name, leaves byte for byte the files of the first save and ends with the object of the beginning, for Vamana, RelativeNG, HNSW with all its levels, and IVF. Saved under another name it gives the same files. (The lines of the table of label entry points are compared in the order in which they are written. LSH loses its tables in the second generation: C19.)", "quantifier": "all indices a build can leave and the formats can express, all numbers of generations, all earlier contents of the file system, all contents of uninitialised memory", "why_tests_cant": "A test saves and loads once; a field that is written from one member and read into another, or a leftover of the earlier files, shows only when the loaded object is saved again.", "anchors": ["src/vamana.cpp:31-134", "src/relative_ng.cpp:25-83", "src/hnsw.cpp:41-110", "src/ivf.cpp:35-83", "src/index.cpp:178-233"]}
{"id": "C107", "title": "A damaged index file is found when it is loaded", "statement": "A graph file, a file of inverted lists or a file of hash tables that differs in a single bit from the one that was saved is reported by load, or the loaded index can still be searched without reading outside of its memory. The size in the header is compared with the size of the file.", "quantifier": "all stored indices, all bits of the index files, all searches", "why_tests_cant": "A test loads the files it has just written; the damage that matters is one bit in a large file, which shows only when the search happens to reach the node.", "anchors": ["src/vamana.cpp:102-134", "src/relative_ng.cpp:49-83", "src/hnsw.cpp:74-110", "src/ivf.cpp:60-83", "src/lsh.cpp:218-304"]}
