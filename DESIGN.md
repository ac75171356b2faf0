# Formal model of fsavje/scclust in Lean 4

The code under study is the C library in `/repo` (scclust, size-constrained clustering).
The model is in `lean/Verif/`; nothing in `/repo` is built or run.

## 1. Layout

| path | role |
| --- | --- |
| `Verif/Base.lean` | C semantics used by the model: outcome monads, buffers, loops, allocation, error state, and their proof rules |
| `Verif/Model/*.lean` | the code, function by function, each definition citing file and lines |
| `Verif/Spec/*.lean` | small independent specification vocabulary (clusters, constraints, digraph rows, nearest neighbours) |
| `Verif/Proofs/*.lean` | helper lemmas and invariants |
| `Verif/Props/*.lean` | the property theorems, with a concrete non-trivial instance beside each |

## 2. Semantics of the model

* **Undefined behaviour is an outcome.** Pure computation on buffers runs in `Option`; `none` means
  undefined behaviour (out-of-bounds access, read of a cell that was never written, runaway `!=` loop,
  use of NULL) or an exhausted loop bound. A theorem of the form "the run is `some r` and `r` satisfies ..."
  therefore includes memory safety and termination.
* **Buffers** (`Buf`) have a length and optional cells; a cell that was never written is `none`.
* **Allocation and error state**: functions that allocate run in `M = StateT World Option`. The `World`
  holds an arbitrary schedule of allocation failures, the multiset of live blocks and the library's static
  error record. The schedule is a function of the request number and of a flag that says whether the code
  checks the result of that request (`checked`); theorems that need the four unchecked requests to succeed
  say so with `World.UncheckedOk`, and `World.NoFail` says that no request fails. Every request gets a fresh
  block name. Freeing a block that is not live, accessing a block that is not live, and `realloc` to size
  zero are undefined behaviour. Leak freedom is `live` being unchanged.
* **Integers**: indices and counts are `Nat`, labels are `Int`. Where the C code computes in 32 or 64 bits and
  the surrounding checks do not bound the result, the wrap-around is explicit (`u32`, `u64`).
  The configurable types (`scc_Clabel`, `scc_PointIndex`, `iscc_ArcIndex`, label NA value, `SIZE_MAX`,
  `UINT_FAST16_MAX`) are a parameter `Cfg`.
* **Floating point**: distances live in an arbitrary type with operations (`FloatOps`) and no laws. Structural
  theorems need no law (so they also cover NaN). Metric theorems state the order laws they use as hypotheses.
  Model/Double.lean gives the operations of `double`, and `C76_laws` shows that it satisfies these laws.
* **Distance back ends (SPI)** are a record of `M` functions (`Spi`). Theorems assume the documented contract of
  the functions they use: `SpiOk` (nearest neighbour search), `MetricOk` (farthest points, distance rows and
  matrices), `MatrixOk` (distance matrices only). A back end may report failure when an allocation fails or, if
  `mayRefuse`, at any time. The built-in implementation (`dist_search_imp.c`) is modelled and proved to
  satisfy all of them (`builtinSpi_ok`, `builtinMetric`, `builtinMatrix`).
* `assert` is not executed in the functions of the model (the library is built with `NDEBUG` unless configured
  otherwise). Builds with assertions have functions of their own (`…Dbg` in Model/Assert*.lean, see C69).
* `qsort` in the hierarchical code is an arbitrary function (`HiEnv`) that returns a sorted permutation when
  the keys can be ordered; the capacity computed with `log2` is any number in a generous range.
* **Histories** of calls (C34, C35, C40) are lists of operations over a table of objects; a step that passes
  a dangling pointer is not part of a history.

## 3. Trusted base

* Lean 4.33.0's kernel, and Mathlib as installed.
* Axioms: only `propext`, `Classical.choice`, `Quot.sound` (checked with `#print axioms`; see section 6).
* The correspondence between the C text and the Lean definitions (by reading; every definition cites lines).
* Not modelled: see section 5.

## 4. Properties: what is modelled and how it is proved

See `properties.jsonl` for the statements.

| id | model | proof plan |
| --- | --- | --- |
| C01, C02, C10 | `nng_core.c`, `nng_findseeds.c`, `nng_clustering.c` over any SPI | NNG rows are distinct, of length S-1 (or S) off the diagonal, contain enough of each type; seeds have disjoint closed rows; assignment invariant on label buffer |
| C03, C04 | `nng_findseeds.c` | invariant: marks = union of closed rows of seeds; queue is a permutation whose processed prefix is decided |
| C05, C06 | assignment stage | maximality of seeds; loop invariants for the to-assign list |
| C07, C08 | search contract + assignment | sortedness of rows, radius contract |
| C09 | assignment stage | expected to fail: the primary radius is not consulted by assignment from the NNG. Prove the negation with a witness and the positive statement for the methods where it holds (`_partial`) |
| C11 | composition of the above with triangle inequality over an ordered field | |
| C12-C14 | `nng_batch_clustering.c` | invariant on `assigned` and labels; refinement to a batch-free sequential loop; C14 expected to fail for products over 2^32 |
| C15-C17 | `hierarchical_clustering.c` | partition invariant over stack plus finished clusters; strictly decreasing sizes; expected failures: duplicate points, stack buffers sized without cluster 0 |
| C18-C20 | `utilities.c` | loop invariants, counts |
| C21-C25 | `dist_search_imp.c` | insertion invariant |
| C26-C30 | `digraph_operations.c`, `digraph_core.c`, exclusion graph | CSR representation predicate against row functions |
| C31 | bucket sort and queue | bucket boundary invariant |
| C32, C33 | `utilities.c`, `nng_clustering.c` | case analysis of all paths |
| C34-C36 | `scclust.c` | heap of live blocks, histories as lists of operations |
| C37 | `data_set.c` | expected to fail for 64-bit point indices (product wraps) |
| C38 | all M-level functions | weakest-precondition proofs for all failure schedules; several expected failures |
| C39 | all functions that call the back end | simulation: a run with a watched back end (stops at the first failure report) has the same outcome or the original ends with an error; expected failures |
| C40, C41 | `error.c`, `scclust_spi.c` | induction over histories; C41 last clause expected to fail |
| C42, C43 | `nng_core.c` | case analysis, loop invariants |
| C44 | queue correctness + graph argument | |
| C45, C46 | `nng_batch_clustering.c` | from the refinement to the sequential loop |
| C47 | both clustering functions | the sequential loop makes the clusters of greedy seeds in index order |
| C48 - C52 | pairs of calls: clustering, hierarchical clustering, check, statistics | the postcondition of the first call gives the precondition of the second |
| C55, C56 | `scc_sc_clustering` | from the specification of a run: each stage assigns exactly the points with a candidate within the radius; C56 expected to fail when secondary points are assigned |
| C57 | all API calls | a simulation between two executions: blocks correspond if they are arguments or come from the same request for memory; every function of the model preserves the correspondence (`Proofs/Repeat*.lean`); stated for two objects with the same contents and for whole histories |
| C58 | `examples/ann/ann_wrapper.cpp` over any ANN library (`AnnLib`) with the hypotheses `AnnOk` | a version of the wrapper without leaks satisfies the search contract (`SpiOk`); the simulation of C57, with a heap that may have more blocks on one side, carries all results over to the wrapper as it is |
| C59 | the same | the simulation with equal heaps, for runs without failures and `scc_PointIndex` other than `int`; expected failures: misplaced braces in the `int` configuration, blocks lost when a second `new` throws |
| C60, C61 | `digraph_debug.c`, `iscc_digraph_is_valid` | loop invariants; strings by induction over the rows of the matrix; expected failures: unchecked `calloc` in the comparison, malformed strings |
| C62 | `nng_findseeds.c` with and without `SCC_STABLE_FINDSEED` | invariant of the queue with ties by index; two orders that follow the strict rule among the vertices that still matter give the same seeds (induction that skips the others) |
| C53, C54 | both clustering functions | case analysis of the outcomes of a call; expected failures: refinement that stops midway, failures while points are assigned |
| C63 | `iscc_sort_nng` and its calls, `scc_sc_clustering` twice | digraphs of two runs are equal because sorted rows are determined by their members; induction over the stages (`RunData.unique`); batches: the run is a function of the sorted answers |
| C64 | `scc_sc_clustering` with answers that are nearest neighbours | counting: a nearest neighbour answer no longer than the group of the query stays in the group; then the arcs, the captured points and the assigned points stay in the group (`RunData.rule`, `RunData.near`); batches from C45 |
| C65 | `scc_hierarchical_clustering` with all its parts | `Spec/HiTree.lean` defines splits and trees of splits without the data structures of the code; sorted edge lists give the nearest points (`Takes`), the search for centers gives `Centers`, and the invariant of the run says that trees for the clusters on the stack extend to trees for the clusters one started with |
| C66 | the same | by C65: the centers are in different groups, the first points of each center stay in its group by counting, and the others join the closer center; the further splits only break up the parts |
| C67 | the whole library | two runs are compared. Clustering: the two runs are related step by step, by induction over the program (`Pair`, Proofs/Press*.lean), for any back end whose searches do not depend on what failed before (`Spi.Firm`, proved for the built-in back end and the ANN wrapper). Other functions: by induction over the program, an outcome "ok" is the one without failing allocations (`Calm`). Expected to fail for secondary points, whose search can fail unnoticed (C39) |
| C68 | `scc_sc_clustering`, `scc_hierarchical_clustering` with the built-in back end | two runs side by side: all data that is not a distance is equal, and arrays of distances correspond cell by cell (`BufAlike`); every branch on distances is a comparison of corresponding numbers. The real numbers as a second number type give exact arithmetic, where estimated radii scale as well |
| C69 | all assertions of src/hierarchical_clustering.c, src/nng_clustering.c, src/nng_core.c, src/nng_batch_clustering.c, src/nng_findseeds.c, src/digraph_core.c, src/digraph_operations.c, src/dist_search_imp.c, src/scclust.c and src/utilities.c, as functions `…Dbg` in Model/Assert*.lean that differ from the functions of the model only by `asrt` in the places of `assert`; `none` if one is false | equality of the call with and without assertions, function by function: the invariants that show that the code does not go out of bounds also imply the assertions. False when 2S points of a cluster coincide (`C69_hierarchical_fails`) and when a supplied radius is a NaN (`C69_clustering_fails`). Assertions that a pointer is not NULL are modelled only where NULL is possible in the model; the one of src/error.c:47 holds because each call passes a constant code. For whole programs (`C69_builtin_…`) the outcomes that the distance functions with and without assertions have in common form a back end that works as documented, and runs are monotone in the back end |
| C70 | `iscc_get_nng_with_type_constraint` in two runs | `TypeNng.takes` describes exactly which points a point takes: the answers for each type and the first new points of the answer for all points; equal answers give equal digraphs, and then the stages are equal (`RunData.unique_rows`). With the sum of the type constraints equal to the size constraint the members suffice. False in general (`C70_fails`) |
| C71 | the same for two sets of options | `Renamed` relates the two numberings; the groups of points of a type are equal, the parts of a row are permuted (`Renamed.typePart`), and sorted rows are equal |
| C72 | `scc_sc_clustering` with and without radius | a run without the radius meets the specification of a run with it (`Undisturbed.accommodate`), and that specification has one solution; for the built-in search the scan never rejects a point |
| C73 | `scc_sc_clustering` with two sets of options | a run with one set of options meets the specification of a run with the other (`Undisturbed.accommodate`), and that specification has one solution |
| C74 | `scc_sc_clustering` with any seed method | a successful run yields a seed whose neighbourhood shows that the constraints can be met (`solvable_of_ok`); conversely C42; `CanMeet` is monotone |
| C75 | `scc_sc_clustering` with any back end that meets `NearestUpTo e d` (Spec/NearApprox.lean) | the argument of C11 with a factor: a row of nearest neighbours up to `e` lies within `e D` (`Close.le_near`), and a search among the labelled points loses another factor |
| C76 | the type `double` (Model/Double.lean: rounding to 53 bits, ties to even, gradual underflow, infinities, NaN) as an instance of `FloatOps`, so that the whole model can be run with it; Euclidean distance is that of Mathlib (Spec/Double.lean) | rounding is monotone and symmetric, which gives the laws of distances; relative errors of differences, squares, sums and roots are multiplied up (`sqd_error`), and (1+2^-53)^(2^20+8) / (1-2^-53)^(2^20+8) <= (1+2^-31)^2 (`slack_le`); then C75, C77, C21 and C25 apply. Small integers are not rounded at all (`sqd_integers`) |
| C77 | `scc_sc_clustering` with radii | points of a neighbourhood are within the radius of the seed, points that join later are within the radius of such a point or of the seed; triangle inequality |
| C78 | `scc_get_clustering_stats` with `double` | the reported numbers as sums, products and quotients of rounded operations on nonnegative numbers; a predicate `Rounded K` (within (1 ± 2^-53)^K and in a range without overflow and underflow) that each operation preserves with a larger K |
| C79 | the built-in searches, `scc_sc_clustering` and `scc_hierarchical_clustering` with `double` | the theorems for arbitrary numbers (C24, C22, C64, C75, C15, C66, C43) applied to `double`; their conditions on computed distances follow from conditions on Euclidean distances with the factor 1 + 2^-31 (`dist_le_near`, `noFarther_near`, `within_le`), and the mean of the estimate is a sum of rounded distances (`mean_rounded`) |
| C80 | `scc_check_clustering`, `scc_get_clustering_stats`, `scc_sc_clustering` for two numberings | a permutation of points and one of clusters map members to members, so what C18 and C20 say of the answers is the same for both numberings; sums over permuted lists are equal if addition is exact, extremes because they are determined by the order; success because the criterion of C74 is invariant |
| C81 | `scc_sc_clustering` for all points and for a group of them | answers for points of the group are answers of a search in the group, so the digraph of the group is the digraph of all points restricted to it (with types, the parts of the digraph for each type); the greedy choice of seeds commutes with the restriction because no arc enters or leaves the group; labels of the two runs correspond by an injective renumbering of clusters in each stage; for batches the states of the sequential algorithm correspond after each point; in `double`, gaps and distinct distances are stated for exact distances with the factor `nearFactor` |
| C82 | histories in which objects share label arrays of the client (Spec/Shared.lean): the contents of the arrays are part of the state | a call is given at most one object, so it suffices to show it the current contents of its array and to store the contents that it leaves behind; label arrays only become more determinate in every function that writes labels, also when it fails (`Grows`, Proofs/Grow.lean), so that the invariant of C34 holds for all objects that use the array |
| C83 | two calls of `hierarchical` that have a cluster in common, up to the names and the order of its points (Spec/HiClear.lean) | by C65 both calls divide the cluster as the specification of the algorithm (`HiTree`) says; names can be changed in the specification (`HiTree.map`), and without ties and with one pair of farthest points in each part it has one solution, up to the order of clusters (`HiTree.unique`, Proofs/HiClear.lean); on a line the outermost points are the only pair of farthest points; in double arithmetic the computed distances compare like the Euclidean ones when these differ by a factor of more than 1 + 2^-31 (`DataSet.ClearPairs.compare`, Proofs/HiClearDouble.lean) |
| C84 | `getStats` in exact and in `double` arithmetic (Spec/Consistent.lean) | the reported values are those of C20; sums over the populated clusters are compared term by term (`consistent_real`, Proofs/Consistent.lean); in `double`, each value has the relative error of C78; a witness shows that an assigned point is needed |
| C85 | `scClustering` and `getStats` for the new clustering, `checkClustering` and `getStats` for a rival (`Accepted`, Spec/Rival.lean) | by C18 and C20 a rival that is accepted is a competitor in the sense of C11, with the reported largest distance as diameter (`feasible_of_meets`, Proofs/Rival.lean); C11 bounds the distances within the new clusters and C20 says that the reported value is one of them; in `double` C76 takes the place of C11 and each reported distance is within the factor 1 + 2^-31 of the Euclidean one. Nine points in the plane attain the factor (`C85_tight`); eight points on a line show that hierarchical clustering in batch mode can be 49 times worse than an accepted clustering (`C85_fails_hierarchical`) |
| C86 | `getStats`, `hierarchical`, `getStats` in a row (`StatsImproved`, Spec/Improve.lean) | by C16 the new clusters refine the old ones, so the pairs of points within new clusters are among the old pairs and every old cluster keeps a new one (`HiRefines.pairs`, `HiRefines.count`, Proofs/Improve.lean); with C20 this compares the statistics; in `double` the sums are compared through C78. `C86_averages_grow`: a regular simplex and two coincident points |
| C87 | `getLabels` followed by `initExisting`, `copyClustering`; `checkClustering` and `getStats` on two objects that agree (`SameClustering`, Spec/SaveLoad.lean) | C36 for the export and the specification of `initExisting`; what the check and the statistics compute depends on the labels only through the lists of members (`members_same`, `SizesTo.unique`, Props/SaveLoad.lean) |
| C88 | `scClustering`, `hierarchical` and `getStats` with `builtinSpi` in the type `Dbl`, for two data sets that differ by a power of two (`Rescaled`, `StatsRescaled`, Spec/Rescale.lean) | rounding to 53 bits commutes with multiplication by a power of two away from underflow (`nearest53_scale`), so all squared distances are multiplied by its square and compare alike: C68 applies; for statistics, every intermediate result is shown to differ by the power of two and to stay in range (`InUnits`, Proofs/RescaleStats.lean), and likewise for the means with which radii are estimated (Proofs/RescaleEst.lean) |
| C89 | `scClustering`, `hierarchical` and `getStats` with `builtinSpi` in the type `Dbl`, for a data set and the same with constant dimensions inserted (`ConstantAdded`, Spec/Constant.lean) | a constant dimension adds the exact zero to a sum that is already rounded, and rounding is idempotent (`nearest53_idem`), so `sqDist` is the same function and so are all functions of the back end (`ConstantAdded.spi`, Proofs/Constant.lean). `C89_asserts` to `C92_asserts` (Props/SameAsserts.lean) are for builds with assertions: `builtinSpiDbg` is the same function too (`spiDbg_same`) |
| C90 | as C89, for two data sets of integers (`DataSet.SmallIntegers`, Spec/Double.lean) with the same Euclidean distances (`Congruent`, Spec/Congruent.lean) | squared distances of small integers are computed exactly (`sqd_integers`), so they are the same numbers in both and the back ends are the same function (`spi_same`, Proofs/Constant.lean) |
| C91 | as C89, for a data set and the same with the opposite sign in some dimensions (`Mirrored`, Spec/Mirror.lean) | rounding commutes with the change of sign (`Dbl.round_neg`), so squared differences are the same values, also infinities and NaNs, and the back ends are the same function (`spi_same`) |
| C92 | as C89, for a data set and the same with each dimension shifted exactly (`Translated`, Spec/Shift.lean) | exact differences of coordinates are the same, so they are rounded alike, and the back ends are the same function (`spi_same`) |
| C93 | `scClustering` and `getStats` with `builtinSpi` in the type `Dbl`, for data sets with enough points at the same place (`DataSet.SamePlace`, `DataSet.EnoughCopies`, Spec/Copies.lean) | places are groups that are infinitely far apart in relation to their size, whatever the rounding error (`place_far`), so C79 applies; the squares of exact zeros add up to zero, and a relative error of zero is zero, so C78 gives the statistics |

## 5. Not modelled

Every other function in `src/*.c` has a definition in `Verif/Model/` that cites it.

* The configure script and doxygen files. Of printing (`iscc_print_digraph`) the characters
  written are modelled, not the stream.
* Of `examples/`, only `examples/ann/ann_wrapper.cpp` is modelled. The ANN library is a parameter (`AnnLib`) whose
  documented behaviour is a hypothesis (`AnnOk`): it does not throw while it searches, it returns positions in the
  array of points, and results are sorted by distance. A tree of the library is one block of memory. The counter
  of open objects is modelled apart from the heap (`annInitCount`, `annCloseCount`).
* `SCC_STABLE_FINDSEED` and `SCC_STABLE_NNG` are parameters of the model (`Cfg.stableSeeds`, `Cfg.stableNng`), so all
  theorems cover builds with and without them (C07 and C58 have a hypothesis about the second).
* `iscc_findseeds_onearc_updating` (nng_findseeds.c:451-453), which is inside a comment.
* `scc_get_compiled_version` (writes three constants).
* The bit patterns of IEEE doubles, the sign of zero, the payloads of NaNs, rounding modes other than to nearest, and
  compilers that keep excess precision or contract operations. The values, the rounding, overflow and underflow of
  `double` are modelled (Model/Double.lean). Where order or arithmetic matters the laws used are hypotheses
  (`FloatLaws`, `ExactAdd`, ...), and `C76_laws` derives those on order and distances for `double`; comparisons with NaN
  are not assumed to be sensible.
* `malloc(n * sizeof(T))`: the multiplication is not modelled. A request of `n` elements either fails or gives `n`
  elements. `malloc(0)` gives a block of length zero or fails.
* A NULL options pointer: the code dereferences options without a check. Option pointers are assumed valid.
* Parallelism (the library is single threaded; its statics are not thread safe).

## 6. Axioms per theorem

`#print axioms` on every theorem in `MANIFEST.json` (regenerate with a file that imports `Verif` and prints
them). No theorem depends on anything but `propext`, `Classical.choice` and `Quot.sound`.

| axioms | theorems |
| --- | --- |
| propext | `C40_text`, `C40_text_reset`, `C41_fails`, `C41_false_partial`, `C41_max_never_mixed`, `C41_nn_never_mixed`, `C41_reset`, `C41_returns`, `C41_set_ok` |
| propext, Classical.choice, Quot.sound | `C01_size_constraint`, `C02_type_constraints`, `C03_seeds_disjoint`, `C04_seeds_maximal`, `C05_primary_assigned`, `C05_primary_assigned_batches`, `C06_secondary_assigned`, `C06_secondary_ignored`, `C07_closest`, `C08_seed_radius`, `C09_fails_anyNeighbor`, `C09_fails_closestAssigned`, `C09_fails_secondary`, `C09_primary_radius_partial`, `C10_ignore_exact`, `C11_four_approximation`, `C11_four_approximation_batches`, `C12_batch_size_constraint`, `C13_batch_size_irrelevant`, `C14_batch_memory_safe_partial`, `C14_fails`, `C15_fails`, `C15_partial`, `C16_fails`, `C16_partial`, `C17_fails`, `C17_partial`, `C17_succeeds`, `C18_check_exact`, `C18_check_rejects`, `C19_check_accepts`, `C19_check_accepts_batches`, `C20_extremes`, `C20_null`, `C20_rejects`, `C20_stats`, `C20_sum`, `C21_nearest_neighbors`, `C22_radius_search`, `C23_same_array`, `C24_max_dist`, `C25_dist_matrix`, `C25_dist_rows`, `C26_union`, `C27_transpose`, `C27_transpose_twice`, `C28_product`, `C29_deleteLoops`, `C29_difference`, `C30_exclusion_graph`, `C31_seed_order`, `C32_default_accepted`, `C32_invalid_rejected`, `C32_ok_valid`, `C33_fails_batches`, `C33_rejected_batches_partial`, `C33_rejected_untouched`, `C34_copy`, `C34_free_all`, `C34_init_existing`, `C34_memory`, `C34_no_undefined`, `C35_copy`, `C35_deep_copy`, `C35_independent`, `C35_kept`, `C35_live`, `C37_complete_partial`, `C38_fails_any_neighbor`, `C38_fails_any_neighbor_witness`, `C38_fails_batches`, `C38_fails_batches_witness`, `C38_fails_closest_seed`, `C38_fails_closest_seed_witness`, `C38_fails_exclusion`, `C38_fails_exclusion_witness`, `C38_fails_leak`, `C38_fails_leak_witness`, `C38_failures_reported_batches_partial`, `C38_failures_reported_partial`, `C38_hierarchical`, `C39_fails_close`, `C39_fails_close_batches`, `C39_fails_search`, `C39_failures_reported_partial`, `C39_hierarchical_reported`, `C39_start_reported`, `C39_stats_reported`, `C40_get`, `C40_get_none`, `C40_history`, `C40_last`, `C42_no_solution`, `C42_no_solution_batches`, `C42_no_solution_types`, `C42_solution`, `C42_solution_batches`, `C42_solution_types`, `C43_estimated_radius`, `C44_inwards_pairs`, `C45_batch_clusters`, `C46_batch_unassigned`, `C47_batches_lexical`, `C48_cluster_count`, `C48_ignore_count`, `C49_fails`, `C49_refine_partial`, `C50_check_hierarchical`, `C51_small_clusters_stay`, `C51_twice`, `C52_stats`, `C53_fails`, `C53_hierarchical_partial`, `C53_sc_clustering`, `C53_then_stats`, `C54_fails`, `C54_no_retry`, `C54_retry_batches`, `C54_retry_hierarchical`, `C54_retry_partial`, `C55_assignment`, `C56_fails`, `C56_primary_settings_partial`, `C57_check`, `C57_copy`, `C57_defined`, `C57_get_labels`, `C57_hierarchical`, `C57_history`, `C57_info`, `C57_process`, `C57_sc_clustering`, `C57_stats`, `C58_close`, `C58_closest`, `C58_leaks_harmless`, `C58_metric`, `C58_open`, `C58_search`, `C58_size_constraint`, `C58_transfer`, `C58_type_constraints`, `C59_fails_init`, `C59_fails_int`, `C59_fails_search`, `C59_no_leak_partial`, `C60_balanced`, `C60_copy`, `C60_pieces`, `C60_print`, `C60_print_read`, `C60_string`, `C60_valid`, `C61_equal_partial`, `C61_fails_emptyRow`, `C61_fails_equal`, `C61_fails_fewRows`, `C61_fails_longRow`, `C61_fails_rows`, `C61_reject_partial`, `C62_default_depends_on_storage`, `C62_seeds_from_arcs`, `C62_ties_by_index`, `C63_ann_builtin`, `C63_default_depends_on_order`, `C63_not_closest`, `C63_same_clusters`, `C63_same_clusters_batches`, `C63_smallest_index`, `C64_groups_of_seeds`, `C64_not_mixed`, `C64_not_mixed_batches`, `C64_small_group_mixed`, `C65_closer`, `C65_from_empty`, `C65_refine`, `C66_fails_batch`, `C66_fails_three`, `C66_from_empty`, `C66_refine`, `C67_backend`, `C67_batches`, `C67_batches_any`, `C67_calls_partial`, `C67_check`, `C67_fails_secondary`, `C67_hierarchical`, `C67_methods_partial`, `C67_objects`, `C67_stats`, `C68_fails_estimated`, `C68_hierarchical`, `C68_moved`, `C68_sc_clustering`, `C68_similar`, `C68_similar_hierarchical`, `C69_builtin_clustering_partial`, `C69_builtin_hierarchical_partial`, `C69_builtin_stats`, `C69_clustering_fails`, `C69_clustering_partial`, `C69_hierarchical_fails`, `C69_hierarchical_partial`, `C69_objects`, `C69_search`, `C70_fails`, `C70_full_types_partial`, `C70_same_order_partial`, `C71_default_depends_on_names`, `C71_type_names`, `C72_free_radius`, `C72_free_radius_batches`, `C72_seed_radius`, `C73_equivalent`, `C73_equivalent_batches`, `C74_solvable`, `C74_weaker`, `C75_inwards_pairs`, `C75_near_neighbours`, `C75_near_neighbours_batches`, `C76_dist_matrix`, `C76_four_approximation`, `C76_four_approximation_batches`, `C76_four_approximation_integers`, `C76_integers`, `C76_laws`, `C76_limits`, `C76_operations`, `C76_radius_diameter`, `C76_rounding`, `C76_search`, `C77_radius_diameter`, `C77_radius_diameter_batches`, `C78_stats`, `C79_estimated_radius`, `C79_farthest`, `C79_hierarchical_groups`, `C79_hierarchical_sizes`, `C79_inwards_pairs`, `C79_not_mixed`, `C79_not_mixed_batches`, `C79_radius_search`, `C80_check`, `C80_stats`, `C80_success`, `C80_success_builtin`, `C81_estimate_depends_on_others`, `C81_groups_independent`, `C81_groups_independent_batches`, `C81_groups_independent_batches_double`, `C81_groups_independent_builtin`, `C81_groups_independent_double`, `C82_current`, `C82_fails_stale`, `C82_memory`, `C82_no_undefined`, `C82_others`, `C83_by_itself`, `C83_double`, `C83_fails_pairs`, `C83_fails_ties`, `C83_line`, `C83_line_double`, `C84_double`, `C84_exact`, `C84_fails_unassigned`, `C85_double`, `C85_exact`, `C85_exact_builtin`, `C85_fails_hierarchical`, `C85_tight`, `C86_averages_grow`, `C86_double`, `C86_improved`, `C86_sum`, `C87_check`, `C87_copy`, `C87_save_load`, `C87_stats`, `C88_distance`, `C88_estimated`, `C88_fails_three`, `C88_hierarchical`, `C88_sc_clustering`, `C88_stats`, `C89_asserts`, `C89_distance`, `C89_fails_infinite`, `C89_hierarchical`, `C89_sc_clustering`, `C89_stats`, `C90_asserts`, `C90_fails_order`, `C90_hierarchical`, `C90_sc_clustering`, `C90_stats`, `C91_asserts`, `C91_distance`, `C91_hierarchical`, `C91_sc_clustering`, `C91_stats`, `C91_symmetric`, `C92_asserts`, `C92_fails_rounded`, `C92_hierarchical`, `C92_sc_clustering`, `C92_stats`, `C93_copies`, `C93_copies_batches`, `C93_distance`, `C93_fails_underflow`, `C93_stats`, `builtin_repeatable` |
| propext, Quot.sound | `C25_dist_matrix_size`, `C34_init_empty`, `C36_export`, `C36_rejects`, `C37_exact_48`, `C37_exact_partial`, `C37_fails` |

## 7. Disagreements between code and property

Proved disagreements, with the theorem that shows them:

| property | what the code does | theorem |
| --- | --- | --- |
| C07 | in builds with SCC_STABLE_NNG the neighbours are sorted by index before points are assigned, so CLOSEST_ASSIGNED without types gives the cluster of the neighbour with the smallest index, not of the closest one | `C63_not_closest` |
| C09 | the primary radius is ignored by ANY_NEIGHBOR, and by CLOSEST_ASSIGNED when neighbours come from the NNG | `C09_fails_anyNeighbor`, `C09_fails_closestAssigned` |
| C14 | the size of the batch scratch array is computed in 32 bits, so it can be too short: write out of bounds | `C14_fails` |
| C15 | hierarchical clustering loses a point (no label) or makes a cluster that is too small when 2S or more points coincide | `C15_fails` |
| C16 | the lost point keeps its old label, which may be the new label of another cluster: clusters of the input are mixed | `C16_fails` |
| C17 | `iscc_hi_init_cl_stack` leaves cluster 0 out when it looks for the largest cluster; its scratch arrays can be too short: write out of bounds | `C17_fails` |
| C33 | a batch run that ends with NO_SOLUTION has already overwritten the label array of the caller | `C33_fails_batches` |
| C37 | `num_data_points * num_dimensions` wraps with 64-bit point indices, so short arrays are accepted | `C37_fails` |
| C38 | four allocations are not checked (exclusion graph, assignment by nearest neighbour and seeds, batches): NULL is used; one error code is used as a count; the exclusion graph is leaked on one path | `C38_fails_*` |
| C39, C67 | a search that fails while secondary points are assigned is ignored (src/nng_core.c:633 returns no error); failures when closing a search object are ignored except in `iscc_make_nng` | `C39_fails_search`, `C67_fails_secondary`, `C39_fails_close`, `C39_fails_close_batches` |
| C41 | `scc_set_dist_functions` replaces functions one after the other and may return false after replacing some | `C41_fails` |
| C49 | default options give clusters of different sizes, so refining such a clustering runs into the defect of C17 | `C49_fails` |
| C53 | a refinement that fails midway leaves new labels with the old number of clusters; statistics or another refinement then go out of bounds | `C53_fails` |
| C56, C09 | the stage for secondary points assigns all points that are left, also primary ones (src/nng_core.c:597-622): with IGNORE, or beyond the radius for primary points, they get a cluster nevertheless | `C56_fails`, `C09_fails_secondary` |
| C54 | a call that fails while it assigns remaining points by search leaves clusters behind; repeating it gives NOT_IMPLEMENTED | `C54_fails`, `C54_no_retry` |
| C59 | with `int` as point index the code that frees the array of indices is reached only for searches with radius (misplaced braces); when the second `new` of a function throws, the first block is lost | `C59_fails_int`, `C59_fails_init`, `C59_fails_search` |
| C61 | `iscc_digraphs_equal` does not check its `calloc`; `iscc_digraph_from_string` divides by zero for an empty first row, writes out of bounds with more rows than columns, and accepts rows that are too long and matrices with too few rows, giving an invalid digraph | `C61_fails_*` |
| C69 | in a build with assertions, hierarchical clustering of 2S coincident points ends in a failed assertion (src/hierarchical_clustering.c:812) | `C69_hierarchical_fails` |
| C69 | the options check accepts a radius that is a NaN: the built-in search then ignores the radius, and a build with assertions ends in a failed assertion (src/nng_core.c:139) | `C69_clustering_fails` |
| C70 | with type constraints that leave points to choose, SCC_STABLE_NNG does not make the clusters independent of the order in which the search reports points: the first points that are new are taken before the arcs are sorted | `C70_fails` |
| C71 | in default builds the numbers by which the types are called can change the cluster of a point that is assigned to any neighbour | `C71_default_depends_on_names` |
| C76 | distances are compared by squares, so that differences of coordinates below 2^-537 or above 2^512 compare as zero or as infinity although the distances themselves are in the range of `double`: a farther point can be taken as the nearest | `C76_limits` |

Observed and excluded by hypotheses or part of the statement:

* Hierarchical: clusters of the input that are smaller than S are kept; labels out of range are undefined
  behaviour; `2*size_constraint` wraps for S >= 2^31; NaN distances are excluded.
* `scc_sc_clustering`: with `num_types >= 2` and all type constraints zero a union of zero digraphs is taken, which
  is undefined; type labels out of range and primary points out of range are undefined (the option check does
  not look at the contents of the arrays); a NaN radius passes the option check.
* Seed methods with batches accept CLOSEST_ASSIGNED and CLOSEST_SEED in the option check, but the batch function
  then rejects them.
* Clustering through one of two objects that share a label array leaves the number of clusters of the other one stale;
  its statistics are then undefined (`C82_fails_stale`).
* `scc_copy_clustering` does not copy labels if `num_clusters == 0`.
* `scc_get_clustering_stats`: without populated clusters `min_cluster_size` is UINT64_MAX and `min_dist` is DBL_MAX
  (`UnpopulatedStats`); a cluster with one point makes `min_dist` zero (`ExtremesAre.alone`); if all distances are
  infinite `min_dist` is DBL_MAX (excluded by `FiniteDists.finite`); labels out of range are undefined.
* `scc_check_clustering` without a list of primary points does not require that all points are assigned.
* A successful call does not clear the latest error.
* The built-in search reports lack of memory as DIST_SEARCH_ERROR.
* On a 32-bit `size_t` some products can wrap: `len_query_indices * k`, `num_types * num_clusters`, the size of
  a distance matrix. Hypotheses (`room` fields) exclude this.
