{"id": "C01", "title": "Size constraint is met by scc_sc_clustering", "statement": "Whenever scc_sc_clustering (any non-batch seed method) returns SCC_ER_OK, the clustering has at least one cluster, every label is either SCC_CLABEL_NA or in [0, num_clusters), and every one of the num_clusters clusters contains at least options.size_constraint data points.", "quantifier": "all data sets and distance-search back ends (SPI) that return distinct in-range neighbours, all seed methods, all assignment methods, radii, primary-point lists, size constraints, with and without type constraints", "why_tests_cant": "The guarantee depends on the shape of the nearest-neighbour graph for arbitrary data (ties, duplicates, NaN distances); tests sample a few hundred random data sets.", "anchors": ["src/nng_clustering.c:scc_sc_clustering", "src/nng_core.c:iscc_make_nng_clusters_from_seeds", "src/nng_core.c:iscc_assign_seeds_and_neighbors"]}
{"id": "C02", "title": "Type constraints are met by scc_sc_clustering", "statement": "With num_types >= 2, whenever scc_sc_clustering returns SCC_ER_OK every cluster contains, for every type t, at least type_constraints[t] data points with type label t (in addition to the total size constraint).", "quantifier": "all type labellings, all type constraint vectors (not all zero), all data and options", "why_tests_cant": "Number of type/label/constraint combinations is unbounded and self-match repair interacts with ties.", "anchors": ["src/nng_core.c:iscc_get_nng_with_type_constraint", "src/nng_core.c:iscc_ensure_self_match", "src/nng_clustering.c:scc_sc_clustering"]}
{"id": "C03", "title": "Closed neighbourhoods of chosen seeds are disjoint", "statement": "For each of the five seed-finding methods, the returned seeds are distinct vertices with at least one outgoing arc, and the sets consisting of a seed and its out-neighbours are pairwise disjoint.", "quantifier": "all valid digraphs (any number of vertices and arcs, with or without self loops; no parallel arcs for the inwards updating method, the library never builds any) and all methods", "why_tests_cant": "Quantifies over all digraphs; the updating methods permute their work queue while iterating.", "anchors": ["src/nng_findseeds.c:iscc_find_seeds", "src/nng_findseeds.c:iscc_findseeds_lexical", "src/nng_findseeds.c:iscc_findseeds_inwards", "src/nng_findseeds.c:iscc_findseeds_exclusion"]}
{"id": "C04", "title": "The seed set is maximal", "statement": "For each seed-finding method, every vertex with at least one outgoing arc that is not a seed has a closed neighbourhood that intersects the closed neighbourhood of some returned seed, so no seed can be added.", "quantifier": "all valid digraphs (no parallel arcs for the inwards updating method) and all methods", "why_tests_cant": "A vertex skipped by a queue-permutation bug only shows on particular digraphs.", "anchors": ["src/nng_findseeds.c:iscc_find_seeds", "src/nng_findseeds.c:iscc_fs_decrease_v_in_sort"]}
{"id": "C05", "title": "All primary points are assigned when nothing restricts assignment", "statement": "If scc_sc_clustering returns SCC_ER_OK with no seed radius, no primary radius, and primary_unassigned_method one of ANY_NEIGHBOR, CLOSEST_ASSIGNED, CLOSEST_SEED, then every primary data point (every point when no primary list is given) has a label different from SCC_CLABEL_NA.", "quantifier": "all data, all seed methods, all primary lists", "why_tests_cant": "Needs maximality of the seed set for arbitrary graphs.", "anchors": ["src/nng_clustering.c:scc_sc_clustering", "src/nng_core.c:iscc_assign_by_nng", "src/nng_core.c:iscc_assign_by_nn_search"]}
{"id": "C06", "title": "Secondary points are treated as requested", "statement": "With a primary list: if secondary_unassigned_method is CLOSEST_ASSIGNED or CLOSEST_SEED and no secondary radius applies, every non-primary point is assigned when SCC_ER_OK is returned and no search failed; if it is IGNORE, a non-primary point is assigned only if it is in a seed's neighbourhood.", "quantifier": "all data, primary lists and options", "why_tests_cant": "Bookkeeping of to-assign lists over arbitrary sorted index lists.", "anchors": ["src/nng_core.c:iscc_make_nng_clusters_from_seeds"]}
{"id": "C07", "title": "Closest-assigned and closest-seed assignment are truly closest", "statement": "A point labelled in the closest-seed (closest-assigned) step gets the label of a seed (of a point labelled in the seed stage) at minimal distance from it among all seeds (all such points), in builds without SCC_STABLE_NNG.", "quantifier": "all data sets, all points", "why_tests_cant": "Depends on ordering of neighbour lists for arbitrary data.", "anchors": ["src/nng_core.c:iscc_assign_by_nn_search", "src/nng_core.c:iscc_assign_by_nng"]}
{"id": "C08", "title": "Seed radius bounds seed clusters", "statement": "With a supplied seed radius r, every point that a seed captures is within r of that seed, and with ANY_NEIGHBOR for primary and IGNORE for secondary points every other assigned point has a neighbour within r that was captured by the seed of its cluster.", "quantifier": "all data and radii", "why_tests_cant": "Radius boundary and ties for arbitrary data.", "anchors": ["src/dist_search_imp.c:iscc_imp_nearest_neighbor_search", "src/nng_core.c:iscc_get_nng_with_size_constraint"]}
{"id": "C09", "title": "Supplied primary radius bounds how far primary points are assigned", "statement": "With primary_radius = USE_SUPPLIED and radius r, no primary point outside the seed neighbourhoods is given a label on the strength of a point further than r away.", "quantifier": "all data, options and unassigned methods", "why_tests_cant": "Interaction of three radii and four assignment methods.", "anchors": ["src/nng_clustering.c:iscc_make_clustering_from_nng", "src/nng_core.c:iscc_make_nng_clusters_from_seeds"]}
{"id": "C10", "title": "Ignore-only clusterings consist of minimal clusters", "statement": "With IGNORE for unassigned points and no type constraints every cluster has exactly size_constraint points.", "quantifier": "all data and seed methods", "why_tests_cant": "Needs exact neighbour counts after self-match repair for arbitrary ties.", "anchors": ["src/nng_core.c:iscc_ensure_self_match", "src/digraph_operations.c:iscc_delete_loops"]}
{"id": "C11", "title": "Four-approximation of the bottleneck objective", "statement": "For a metric: if lambda bounds the maximum within-cluster distance of some clustering that contains all primary points and meets the size and type constraints, then every within-cluster distance of the result is at most 4*lambda. This holds for every way to assign primary points (CLOSEST_ASSIGNED and CLOSEST_SEED: when there is no seed radius), with IGNORE for secondary points, and for SCC_SM_BATCHES when size_constraint times the number of points per batch is below 2^32 (see C14).", "quantifier": "all finite metric spaces, all competing feasible clusterings, all seed methods, type constraints, primary lists and seed radii", "why_tests_cant": "It is an optimality claim against all other clusterings.", "anchors": ["src/nng_clustering.c:scc_sc_clustering", "README.md"]}
{"id": "C12", "title": "Batch clustering meets the size constraint", "statement": "When scc_sc_clustering with SCC_SM_BATCHES returns SCC_ER_OK, and size_constraint times the number of points per batch is below 2^32 (otherwise see C14), num_clusters >= 1, labels are NA or in range and every cluster has at least size_constraint points; with IGNORE exactly size_constraint.", "quantifier": "all data, batch sizes, radii, primary lists", "why_tests_cant": "Labels are overwritten in later batches; depends on all interleavings of batches and neighbourhoods.", "anchors": ["src/nng_batch_clustering.c:scc_nng_clustering_batches", "src/nng_batch_clustering.c:iscc_run_nng_batches"]}
{"id": "C13", "title": "Batch size only affects performance", "statement": "For a deterministic per-query back end without failures, and size_constraint times the number of points per batch below 2^32, the error code, the labels and the number of clusters produced by SCC_SM_BATCHES do not depend on options.batch_size.", "quantifier": "all data, all pairs of positive batch sizes", "why_tests_cant": "Relational property over pairs of runs with unbounded parameters.", "anchors": ["src/nng_batch_clustering.c:iscc_run_nng_batches"]}
{"id": "C14", "title": "Batch clustering is memory safe", "statement": "For every accepted option set the batch run never reads or writes outside its buffers.", "quantifier": "all size constraints, batch sizes and data sets", "why_tests_cant": "Overflowing sizes need gigabytes of data to test.", "anchors": ["src/nng_batch_clustering.c:scc_nng_clustering_batches"]}
{"id": "C15", "title": "Hierarchical clustering of an empty clustering yields valid clusters", "statement": "When scc_hierarchical_clustering succeeds on an empty clustering object, every data point has a label in [0, num_clusters), and every cluster has at least size_constraint and fewer than 2*size_constraint points.", "quantifier": "all data sets, size constraints and both batch_assign modes", "why_tests_cant": "Recursive splitting of arbitrary data.", "anchors": ["src/hierarchical_clustering.c:scc_hierarchical_clustering", "src/hierarchical_clustering.c:iscc_hi_break_cluster_into_two"]}
{"id": "C16", "title": "Hierarchical clustering refines an existing clustering", "statement": "When run on a non-empty clustering, points with the same new label had the same old label, points labelled NA stay NA, and old clusters smaller than twice the size constraint keep their member sets.", "quantifier": "all data sets and input clusterings", "why_tests_cant": "All input partitions.", "anchors": ["src/hierarchical_clustering.c:iscc_hi_init_cl_stack", "src/hierarchical_clustering.c:iscc_hi_run_hierarchical_clustering"]}
{"id": "C17", "title": "Hierarchical clustering terminates and is memory safe", "statement": "For every valid input the run terminates, and never reads uninitialised or out-of-range memory, for any initial stack capacity and any marker width.", "quantifier": "all valid inputs, including refinement of existing clusterings", "why_tests_cant": "Termination and absence of out-of-bounds access for all inputs.", "anchors": ["src/hierarchical_clustering.c:iscc_hi_init_cl_stack", "src/hierarchical_clustering.c:iscc_hi_run_hierarchical_clustering", "src/hierarchical_clustering.c:iscc_hi_get_next_marker"]}
{"id": "C18", "title": "scc_check_clustering is sound and complete", "statement": "For a valid non-empty clustering and valid options, scc_check_clustering sets its output to true exactly when all labels are NA or in range, every cluster has the required size and the required number of points of each type, and every point in the list of primary points (if one is supplied) is assigned; it never accesses memory out of bounds for any label values.", "quantifier": "all label arrays (including garbage labels) and option structs", "why_tests_cant": "Both directions over all label arrays.", "anchors": ["src/utilities.c:scc_check_clustering"]}
{"id": "C19", "title": "scc_check_clustering accepts the output of scc_sc_clustering", "statement": "If scc_sc_clustering returns SCC_ER_OK and leaves no primary point unassigned, scc_check_clustering with the same options reports true.", "quantifier": "all data and options", "why_tests_cant": "Composition over all inputs.", "anchors": ["src/utilities.c:scc_check_clustering", "src/nng_clustering.c:scc_sc_clustering"]}
{"id": "C20", "title": "Clustering statistics are correct", "statement": "scc_get_clustering_stats reports the number of assigned points, the number, minimum, maximum and mean size of the populated clusters, and the minimum, maximum and sums of all within-cluster pairwise distances, each pair counted once. A cluster with one point counts as having smallest distance zero. Other calls are rejected with all statistics zero.", "quantifier": "all valid clusterings (also with empty clusters and unassigned points), all data and distance functions; minimum and maximum for finite, symmetric, non-negative distances; the sum up to rounding", "why_tests_cant": "Aggregates over arbitrary partitions.", "anchors": ["src/utilities.c:scc_get_clustering_stats"]}
{"id": "C21", "title": "Nearest-neighbour search returns the k nearest points", "statement": "For each query with enough candidates, the built-in search returns k distinct search points in non-decreasing order of distance, and no other search point is closer than the last one returned (ties resolved to the earlier search index).", "quantifier": "all data, search sets, query sets and k", "why_tests_cant": "Insertion logic over arbitrary sequences.", "anchors": ["src/dist_search_imp.c:iscc_imp_nearest_neighbor_search", "src/dist_search_imp.c:iscc_add_dist_to_list"]}
{"id": "C22", "title": "Radius search answers exactly the queries with enough close points", "statement": "With a radius, a query is reported exactly when at least k search points are within the radius, reported queries keep their input order, and all returned neighbours are within the radius.", "quantifier": "all data, radii, k, query sets", "why_tests_cant": "Boundary cases of radius and k on arbitrary data.", "anchors": ["src/dist_search_imp.c:iscc_imp_nearest_neighbor_search"]}
{"id": "C23", "title": "Query and output buffers of the search may coincide", "statement": "Calling the built-in nearest neighbour search with the output query buffer being the query buffer gives the same result as with separate buffers.", "quantifier": "all queries and data", "why_tests_cant": "In-place compaction over all answer patterns.", "anchors": ["src/dist_search_imp.c:iscc_imp_nearest_neighbor_search", "src/nng_core.c:iscc_get_nng_with_type_constraint"]}
{"id": "C24", "title": "Max-distance search returns a farthest point", "statement": "For each query the built-in max-distance search returns a search point at maximal distance and that distance.", "quantifier": "all data (without NaN), queries and search sets", "why_tests_cant": "All sequences of distances.", "anchors": ["src/dist_search_imp.c:iscc_imp_get_max_dist"]}
{"id": "C25", "title": "Distance matrices have the documented layout", "statement": "The distance matrix output contains the distances of all pairs (i,j), i<j, of the given points in row-major upper-triangular order; distance rows contain all query-by-column distances in row-major order; nothing else is written.", "quantifier": "all point lists", "why_tests_cant": "All lengths.", "anchors": ["src/dist_search_imp.c:iscc_imp_get_dist_matrix", "src/dist_search_imp.c:iscc_imp_get_dist_rows"]}
{"id": "C26", "title": "Digraph union is the set union", "statement": "The union of digraphs has, for each kept tail vertex, exactly the arcs present in some input (each once, self loops removed unless requested) and no arcs for other vertices; the arrays are large enough.", "quantifier": "all lists of valid digraphs with equal vertex counts", "why_tests_cant": "All digraphs; two-pass count/write consistency.", "anchors": ["src/digraph_operations.c:iscc_digraph_union_and_delete"]}
{"id": "C27", "title": "Digraph transpose reverses arcs", "statement": "The transpose has an arc (v,u) with the same multiplicity as (u,v) in the input; transposing twice gives the same arc multiset per row.", "quantifier": "all valid digraphs", "why_tests_cant": "All digraphs.", "anchors": ["src/digraph_operations.c:iscc_digraph_transpose"]}
{"id": "C28", "title": "Digraph product is relational composition", "statement": "adjacency_product(A,B) has the arc (v,u), u != v, exactly when u is reached from v by an A-arc (or from v itself with force_loops) followed by a B-arc; each once.", "quantifier": "all pairs of valid digraphs", "why_tests_cant": "All digraphs.", "anchors": ["src/digraph_operations.c:iscc_adjacency_product"]}
{"id": "C29", "title": "Loop deletion and digraph difference", "statement": "delete_loops removes exactly the self loops keeping order; digraph_difference keeps, per row, the first max_out_degree arcs of the minuend that are not arcs of the subtrahend, in order; both work in place and keep the digraph valid.", "quantifier": "all valid digraphs", "why_tests_cant": "All digraphs, in-place compaction.", "anchors": ["src/digraph_operations.c:iscc_delete_loops", "src/digraph_operations.c:iscc_digraph_difference"]}
{"id": "C30", "title": "Exclusion graph is the conflict graph", "statement": "In the exclusion graph, u is adjacent from v (v with outgoing arcs) exactly when u != v and the closed neighbourhoods conflict: v->u, u->v or a common head.", "quantifier": "all valid digraphs", "why_tests_cant": "All digraphs.", "anchors": ["src/nng_findseeds.c:iscc_fs_exclusion_graph"]}
{"id": "C31", "title": "Seed orders follow the documentation", "statement": "LEXICAL considers vertices in index order; INWARDS_ORDER in ascending order of the number of incoming arcs, ties by index; the updating variants always take next a vertex with the currently smallest count among those left.", "quantifier": "all valid digraphs (no parallel arcs for the inwards updating method)", "why_tests_cant": "The dynamic bucket queue must stay sorted over all histories of decrements.", "anchors": ["src/nng_findseeds.c:iscc_fs_sort_by_inwards", "src/nng_findseeds.c:iscc_fs_decrease_v_in_sort"]}
{"id": "C32", "title": "Option validation", "statement": "A call with options outside the documented ranges is rejected with the documented error code before anything is changed, and accepted options satisfy every documented range condition; default options plus a size constraint between 2 and n are accepted.", "quantifier": "all option structs and data sizes", "why_tests_cant": "The space of option structs.", "anchors": ["src/utilities.c:iscc_check_cluster_options", "src/nng_clustering.c:scc_sc_clustering"]}
{"id": "C33", "title": "Rejected calls leave the clustering untouched", "statement": "If scc_sc_clustering returns an error because of its arguments (invalid input, not implemented, no feasible neighbourhood), the clustering object still has the labels and cluster count it had before.", "quantifier": "all inputs that are rejected", "why_tests_cant": "All error paths.", "anchors": ["src/nng_clustering.c:scc_sc_clustering", "src/nng_clustering.c:iscc_make_clustering_from_nng"]}
{"id": "C34", "title": "Object lifecycle is memory safe", "statement": "For any history of init, copy, relabel, clustering, hierarchical clustering, check, statistics, export and free calls, with any allocation failing at any time: no block is freed twice or used after being freed, user-supplied label arrays are never freed, failed calls leave no allocation behind and set the output pointer to NULL, and freeing every object releases all library memory.", "quantifier": "all call histories and allocation-failure schedules", "why_tests_cant": "All histories and fault schedules.", "anchors": ["src/scclust.c:scc_init_empty_clustering", "src/scclust.c:scc_init_existing_clustering", "src/scclust.c:scc_copy_clustering", "src/scclust.c:scc_free_clustering"]}
{"id": "C35", "title": "Copies are equal and independent", "statement": "A copied (or deep-copied existing) clustering has the same cluster count and labels as the original and shares no memory with it.", "quantifier": "all clusterings and later modifications", "why_tests_cant": "All later histories.", "anchors": ["src/scclust.c:scc_copy_clustering", "src/scclust.c:scc_init_existing_clustering"]}
{"id": "C36", "title": "Label export", "statement": "scc_get_cluster_labels on a non-empty clustering writes exactly the first min(len, n) labels and fills the remaining buffer with NA; it fails without writing for an empty clustering, empty or NULL buffer.", "quantifier": "all clusterings and buffer lengths", "why_tests_cant": "All lengths.", "anchors": ["src/scclust.c:scc_get_cluster_labels"]}
{"id": "C37", "title": "Data set construction", "statement": "scc_init_data_set succeeds exactly when sizes are positive and representable, the matrix is present and long enough (and memory is available); a successful data set gives in-bounds coordinates for every point.", "quantifier": "all size arguments", "why_tests_cant": "64-bit arithmetic over all argument values.", "anchors": ["src/data_set.c:scc_init_data_set"]}
{"id": "C38", "title": "Every allocation failure is reported cleanly", "statement": "If any memory allocation inside scc_sc_clustering or scc_hierarchical_clustering fails, the call does not crash, returns SCC_ER_NO_MEMORY (or succeeds by falling back), and no temporary memory is leaked.", "quantifier": "all allocation-failure schedules", "why_tests_cant": "Every subset of failing allocations.", "anchors": ["src/nng_findseeds.c:iscc_findseeds_exclusion", "src/nng_core.c:iscc_assign_by_nng", "src/nng_core.c:iscc_assign_by_nn_search", "src/digraph_operations.c:iscc_digraph_union_and_delete"]}
{"id": "C39", "title": "Search failures are reported", "statement": "If a distance-search back end reports failure during scc_sc_clustering, scc_hierarchical_clustering or scc_get_clustering_stats, the call does not return SCC_ER_OK.", "quantifier": "all back ends and failure points", "why_tests_cant": "All failure points.", "anchors": ["src/nng_core.c:iscc_make_nng_clusters_from_seeds"]}
{"id": "C40", "title": "Latest-error reporting", "statement": "After any sequence of operations, scc_get_latest_error describes the most recent raised error (or no error if none was raised since the last reset), for any buffer length writes at most that many characters and always terminates the string.", "quantifier": "all histories and buffer lengths", "why_tests_cant": "All histories.", "anchors": ["src/error.c:scc_get_latest_error", "src/error.c:iscc_make_error__"]}
{"id": "C41", "title": "Distance function registration", "statement": "After any history of scc_set_dist_functions / scc_reset_dist_functions, the nearest-neighbour triple in use comes from one registration call or the defaults (never mixed), likewise the max-distance triple; reset restores all defaults; a call that returns false leaves the functions unchanged.", "quantifier": "all registration histories", "why_tests_cant": "All histories.", "anchors": ["src/scclust_spi.c:scc_set_dist_functions", "src/scclust_spi.c:scc_reset_dist_functions"]}
{"id": "C42", "title": "No solution is reported only when there is none", "statement": "Unless a radius is estimated, scc_sc_clustering returns SCC_ER_NO_SOLUTION only if there are fewer points than the size constraint, too few points of some type, or a seed radius within which no primary point has size_constraint points (and the required number of each type); it never returns OK in the last case, and succeeds when none of this holds, sizes fit and nothing fails.", "quantifier": "all data and radii", "why_tests_cant": "All data.", "anchors": ["src/nng_core.c:iscc_get_nng_with_size_constraint"]}
{"id": "C43", "title": "Estimated radius is the average neighbour distance", "statement": "With an estimated radius the radius used is the mean over the sampled seeds of the mean distance from seed to its neighbours; every sampled seed is valid and at least one is sampled.", "quantifier": "all seed sets", "why_tests_cant": "All lengths of the seed list, stride 1000 boundary.", "anchors": ["src/nng_core.c:iscc_estimate_avg_seed_dist"]}
{"id": "C44", "title": "Size-two distance guarantee of inwards updating", "statement": "With size constraint 2, INWARDS_UPDATING and ANY_NEIGHBOR on a metric, any two points of a common cluster are within twice the largest nearest-neighbour distance.", "quantifier": "all finite metric spaces", "why_tests_cant": "Documented optimality claim over all data.", "anchors": ["templates/scclust.h:SCC_SM_INWARDS_UPDATING", "src/nng_findseeds.c:iscc_findseeds_inwards"]}
{"id": "C45", "title": "Composition of batch clusters", "statement": "When scc_sc_clustering with SCC_SM_BATCHES succeeds, every cluster consists of a primary point, its size_constraint - 1 nearest points, and (with ANY_NEIGHBOR only) primary points that have one of those among their size_constraint nearest points; all these neighbours are within the seed radius.", "quantifier": "all data, batch sizes (with size_constraint times batch size below 2^32), radii and primary lists", "why_tests_cant": "Batches interleave with assignments; all data.", "anchors": ["src/nng_batch_clustering.c:iscc_run_nng_batches"]}
{"id": "C46", "title": "Points left out by batch clustering", "statement": "When scc_sc_clustering with SCC_SM_BATCHES succeeds, a primary point is left unassigned only if fewer than size_constraint points are within the seed radius of it, or if the method is IGNORE and one of its nearest points is in a cluster.", "quantifier": "all data, batch sizes (with size_constraint times batch size below 2^32), radii and primary lists", "why_tests_cant": "Maximality over all data.", "anchors": ["src/nng_batch_clustering.c:iscc_run_nng_batches"]}
{"id": "C47", "title": "Batch clustering agrees with lexical seeds", "statement": "For a deterministic per-query back end that never fails and whose answers contain the queried point (true unless size_constraint other points have the same position), accepted calls with SCC_SM_BATCHES and with SCC_SM_LEXICAL (all else equal) return the same error code and number of clusters, and with IGNORE the same labels.", "quantifier": "all data, batch sizes (with size_constraint times batch size below 2^32), radii and primary lists", "why_tests_cant": "Relational property over pairs of runs of two different algorithms.", "anchors": ["src/nng_batch_clustering.c:scc_nng_clustering_batches", "src/nng_clustering.c:scc_sc_clustering", "src/nng_findseeds.c:iscc_findseeds_lexical"]}
{"id": "C48", "title": "Number of clusters", "statement": "A successful call of scc_sc_clustering makes at most num_data_points / size_constraint clusters; without types and when remaining points are ignored, the number of clusters times size_constraint is the number of assigned points.", "quantifier": "all data, options and back ends", "why_tests_cant": "All data; follows from the sizes of all clusters.", "anchors": ["src/nng_clustering.c:scc_sc_clustering", "src/nng_batch_clustering.c:scc_nng_clustering_batches"]}
{"id": "C49", "title": "Hierarchical refinement of a size-constrained clustering", "statement": "A clustering made by a successful call of scc_sc_clustering can be passed to scc_hierarchical_clustering with a size constraint S' not larger than the first one: the call has no undefined behaviour, and if it succeeds every new cluster lies in an old one, the same points are assigned, and every cluster has at least S' and fewer than 2*S' points.", "quantifier": "all data, options, back ends and failure points of the two calls", "why_tests_cant": "Composition of two algorithms; the sizes of the intermediate clusters depend on the data.", "anchors": ["src/nng_clustering.c:scc_sc_clustering", "src/hierarchical_clustering.c:scc_hierarchical_clustering"]}
{"id": "C50", "title": "The check accepts hierarchical clusterings", "statement": "scc_check_clustering accepts the result of a successful scc_hierarchical_clustering call on an empty clustering, for options with the same size constraint and without types (data without 2*size_constraint coincident points).", "quantifier": "all data sets without 2*size_constraint coincident points, options, primary lists", "why_tests_cant": "All data; two independent pieces of code have to agree.", "anchors": ["src/hierarchical_clustering.c:scc_hierarchical_clustering", "src/utilities.c:scc_check_clustering"]}
{"id": "C51", "title": "Hierarchical clustering leaves small clusters alone", "statement": "If all clusters have at least one and fewer than 2*size_constraint points, a successful call of scc_hierarchical_clustering changes nothing but the numbers of the clusters; in particular a second call with the same size constraint does not change the partition.", "quantifier": "all clusterings, data without 2*size_constraint coincident points (second part)", "why_tests_cant": "All partitions and histories.", "anchors": ["src/hierarchical_clustering.c:scc_hierarchical_clustering"]}
{"id": "C52", "title": "Statistics of a fresh clustering", "statement": "After a successful call of scc_sc_clustering, scc_get_clustering_stats reports the number of points and clusters, that every cluster is populated, and a minimum size of at least the size constraint, unless memory or the back end fails.", "quantifier": "all data, options, back ends and failure points", "why_tests_cant": "Composition of two functions over all data.", "anchors": ["src/nng_clustering.c:scc_sc_clustering", "src/utilities.c:scc_get_clustering_stats"]}
{"id": "C53", "title": "The clustering object is intact after every call", "statement": "After every call of scc_sc_clustering or scc_hierarchical_clustering, whether or not it succeeds, the clustering object is initialized, its label array is allocated and large enough, and unless it is empty every label is one of its clusters or marks the point as unassigned, so that the object can be passed to further calls.", "quantifier": "all data, options, clusterings, allocation-failure schedules and back end failures", "why_tests_cant": "Every failure point leaves a different intermediate state.", "anchors": ["src/nng_clustering.c:scc_sc_clustering", "src/nng_batch_clustering.c:scc_nng_clustering_batches", "src/hierarchical_clustering.c:scc_hierarchical_clustering", "src/utilities.c:scc_get_clustering_stats"]}
{"id": "C54", "title": "A call that failed can be repeated", "statement": "If a clustering call fails because memory ran out or a search failed, repeating the same call with the same object once these work again succeeds.", "quantifier": "all data, options and failure schedules", "why_tests_cant": "All failure points followed by all later calls.", "anchors": ["src/nng_clustering.c:scc_sc_clustering", "src/nng_core.c:iscc_make_nng_clusters_from_seeds", "src/nng_batch_clustering.c:scc_nng_clustering_batches", "src/hierarchical_clustering.c:scc_hierarchical_clustering"]}
{"id": "C55", "title": "Every point is assigned by the rules, and left out only by the rules", "statement": "After a successful call of scc_sc_clustering (digraph methods), a primary point that is in no seed's neighbourhood has the label of its first captured neighbour (ANY_NEIGHBOR; CLOSEST_ASSIGNED without types), else of the nearest seed or captured point within the radius for primary points; every point still left has the label of the nearest seed or captured point within the radius for secondary points. A point is unassigned exactly when none of these exists, unless the last search failed.", "quantifier": "all data, options (methods, supplied, seed and estimated radii), primary lists, types and back ends", "why_tests_cant": "The rules interact over all data; tests see single combinations.", "anchors": ["src/nng_core.c:iscc_make_nng_clusters_from_seeds", "src/nng_core.c:iscc_assign_by_nng", "src/nng_core.c:iscc_assign_by_nn_search", "src/nng_clustering.c:iscc_make_clustering_from_nng"]}
{"id": "C56", "title": "Primary points are governed by the settings for primary points", "statement": "Whether a primary point that no seed captures gets a cluster depends only on primary_unassigned_method and primary_radius; in particular it stays unassigned with SCC_UM_IGNORE.", "quantifier": "all data, options and primary lists", "why_tests_cant": "All combinations of settings and data.", "anchors": ["src/nng_core.c:iscc_make_nng_clusters_from_seeds"]}
{"id": "C57", "title": "The same calls give the same results", "statement": "A history of API calls made with the same arguments gives the same error codes, labels, cluster counts, verdicts, statistics and error records in every process and at every time, whatever else is in memory, wherever blocks are placed and whatever was called before, provided that the same requests for memory fail and the back end answers alike. It has undefined behaviour in all of these situations or in none.", "quantifier": "all histories of API calls, data, options, heaps, block addresses, allocation-failure schedules and repeatable back ends", "why_tests_cant": "Ranges over pairs of executions; a dependence on addresses or left-over state shows only in some process.", "anchors": ["src/nng_clustering.c:scc_sc_clustering", "src/hierarchical_clustering.c:scc_hierarchical_clustering", "src/utilities.c:scc_check_clustering", "src/utilities.c:scc_get_clustering_stats", "src/scclust.c", "src/dist_search_imp.c"]}
{"id": "C58", "title": "The ANN back end gives documented results", "statement": "With the nearest neighbour search of examples/ann installed, and an ANN library that works as documented, every search answers exactly the queries that have an answer, in order, each with neighbours the library allows; searching has no undefined behaviour and fails only if memory runs out or there are more than INT_MAX points. Hence clusterings made with this back end satisfy the same constraints as those made with any other, and memory it leaks never changes a result.", "quantifier": "all data sets, search and query sets, k, radii, libraries (exact or approximate, k-d or bd tree), both configurations of scc_PointIndex, allocation-failure schedules", "why_tests_cant": "All data and all answers of a third-party library.", "anchors": ["examples/ann/ann_wrapper.cpp:iscc_ann_init_nn_search_object", "examples/ann/ann_wrapper.cpp:iscc_ann_nearest_neighbor_search", "examples/ann/ann_wrapper.cpp:iscc_ann_close_nn_search_object", "examples/ann/ann_wrapper.cpp:scc_set_ann_dist_search", "src/nng_clustering.c:scc_sc_clustering"]}
{"id": "C59", "title": "The ANN back end returns its memory", "statement": "After a clustering call with the nearest neighbour search of examples/ann, the heap is as before the call except for the label array of the clustering, whether or not the call succeeds.", "quantifier": "all data, options, configurations of scc_PointIndex and allocation-failure schedules", "why_tests_cant": "A leak has no effect in a test that looks at results; all exits must be considered.", "anchors": ["examples/ann/ann_wrapper.cpp:iscc_ann_init_nn_search_object", "examples/ann/ann_wrapper.cpp:iscc_ann_nearest_neighbor_search", "examples/ann/ann_wrapper.cpp:iscc_ann_close_nn_search_object"]}
{"id": "C60", "title": "Digraphs are checked, built, copied and printed faithfully", "statement": "The validity check accepts exactly the objects that store a digraph, the balance check exactly those in which every vertex has the given number of arcs. A digraph made from its parts, copied, or made from a string with one row of cells per vertex has exactly the arcs that were given. The printed text is the adjacency matrix; reading it back (with slashes as line ends) gives the same arcs. Errors are reported and nothing leaks.", "quantifier": "all digraphs, strings with ignored characters anywhere, and allocation-failure schedules", "why_tests_cant": "All matrices and all failure points.", "anchors": ["src/digraph_core.c:iscc_digraph_is_valid", "src/digraph_debug.c:iscc_is_balanced_digraph", "src/digraph_debug.c:iscc_digraph_from_pieces", "src/digraph_debug.c:iscc_digraph_from_string", "src/digraph_debug.c:iscc_copy_digraph", "src/digraph_debug.c:iscc_print_digraph"]}
{"id": "C61", "title": "Comparing and parsing digraphs is safe", "statement": "Two digraphs are reported as equal exactly when they have the same vertices and the same set of arcs, and a string that does not describe a square matrix is rejected; neither has undefined behaviour, also when memory runs out.", "quantifier": "all pairs of digraphs, all strings, allocation-failure schedules", "why_tests_cant": "All strings; failure of a single request for memory.", "anchors": ["src/digraph_debug.c:iscc_digraphs_equal", "src/digraph_debug.c:iscc_digraph_from_string"]}
{"id": "C62", "title": "Seeds are determined by the arcs", "statement": "Which points become seeds depends only on which arcs the neighbourhood digraph has, not on the order in which they are stored, the memory available or the limits of the build. This holds for the lexical method and the methods without updating in every build, and for the updating methods in builds with SCC_STABLE_FINDSEED, where ties are broken by index.", "quantifier": "all pairs of digraphs with the same arcs in any stored order, methods, builds, capacities, worlds", "why_tests_cant": "Ranges over pairs of executions and all stored orders of the arcs.", "anchors": ["src/nng_findseeds.c:iscc_find_seeds", "src/nng_findseeds.c:iscc_fs_decrease_v_in_sort", "src/nng_findseeds.c:iscc_fs_debug_bucket_sort"]}
{"id": "C63", "title": "Stable builds do not depend on the back end", "statement": "In builds with SCC_STABLE_NNG, a clustering call without type constraints with two back ends that find the same sets of nearest points, each with the point itself among them, reported in any order, gives the same outcome, number of clusters and labels, whatever else is in memory; so does a call in batches. In every build, if no two points are equally far from a point, the built-in back end and the ANN back end give the same clusters. A point that is assigned through the digraph in a stable build joins the cluster of its captured neighbour with the smallest index.", "quantifier": "all data, options, pairs of back ends, heaps, builds, requests for memory that succeed", "why_tests_cant": "Ranges over pairs of back ends and all orders in which they may report neighbours.", "anchors": ["src/nng_core.c:iscc_sort_nng", "src/nng_core.c:iscc_compare_PointIndex", "src/nng_core.c:iscc_get_nng_with_size_constraint", "src/nng_core.c:iscc_get_nng_with_type_constraint", "src/nng_batch_clustering.c", "src/nng_clustering.c:scc_sc_clustering"]}
{"id": "C64", "title": "Groups that are far apart are not mixed", "statement": "If the points fall into groups so that every point is closer to all points of its own group than to any point of another group, and each group with a primary point is large enough for a cluster (it has as many points as the size constraint and, with types, enough points of each type), then clustering without seed radius puts no two points of such groups in the same cluster. With a seed radius this holds for the groups that have a seed. In batches it holds for all clusters, with or without radius. Groups that are too small may be mixed.", "quantifier": "all data, groupings, options, types, seed methods, assignment methods, back ends, builds, worlds", "why_tests_cant": "All data sets and all groupings.", "anchors": ["src/nng_clustering.c:scc_sc_clustering", "src/nng_core.c:iscc_get_nng_with_size_constraint", "src/nng_core.c:iscc_get_nng_with_type_constraint", "src/nng_core.c:iscc_make_nng_clusters_from_seeds", "src/nng_batch_clustering.c"]}
{"id": "C65", "title": "Hierarchical clustering breaks clusters in two by the divisive algorithm", "statement": "A successful call breaks every cluster with at least twice as many points as the size constraint S in two, and goes on with the parts. Each split has two centers: no point is farther from either center than they are from each other, and none is farther from any of a number of checked points (half of the cluster, at most 100) than that. Each center first gets its S-1 nearest points; the center whose nearest points extend farther chooses first. The other points go to the center whose next nearest points are closer, S at a time in batches or one at a time; one at a time means that each point joins the closer center. A clustering that has clusters is refined by applying this to each cluster on its own. The final clusters are numbered from the last part to the first. (For clusters without 2S coincident points.)", "quantifier": "all data, starting clusterings, size constraints, batch flags, sort orders of ties, back ends, capacities and worlds in which the call succeeds", "why_tests_cant": "All data sets and all trees of splits.", "anchors": ["src/hierarchical_clustering.c:scc_hierarchical_clustering", "src/hierarchical_clustering.c:iscc_hi_break_cluster_into_two", "src/hierarchical_clustering.c:iscc_hi_find_centers", "src/hierarchical_clustering.c:iscc_hi_populate_edge_lists", "src/hierarchical_clustering.c:iscc_hi_get_next_k_nn"]}
{"id": "C66", "title": "Hierarchical clustering does not mix two groups that are far apart", "statement": "If a cluster (or the whole data set, for an empty clustering) falls into two groups with at least S points each, so that every point is closer to all points of its own group than to any point of the other group, then after hierarchical clustering without batches no cluster has points of both groups. With batches or with three groups this is not so.", "quantifier": "all data, groupings, starting clusterings, size constraints, back ends, worlds in which the call succeeds", "why_tests_cant": "All data sets and all groupings.", "anchors": ["src/hierarchical_clustering.c:scc_hierarchical_clustering", "src/hierarchical_clustering.c:iscc_hi_break_cluster_into_two", "src/hierarchical_clustering.c:iscc_hi_find_centers"]}
{"id": "C67", "title": "Running out of memory does not change a result unnoticed", "statement": "A call that returns OK in a process in which allocations fail has the result that it has when none fails; otherwise the failure is reported as SCC_ER_NO_MEMORY or SCC_ER_DIST_SEARCH_ERROR. This holds for clustering (with all methods and in batches), hierarchical clustering, statistics, checking, copying and making objects.", "quantifier": "all inputs, back ends, heaps and all schedules of failing allocations", "why_tests_cant": "Ranges over all sets of failing allocations and compares two executions.", "anchors": ["src/nng_clustering.c:scc_sc_clustering", "src/nng_core.c:iscc_make_nng_clusters_from_seeds", "src/nng_batch_clustering.c", "src/hierarchical_clustering.c:scc_hierarchical_clustering", "src/utilities.c:scc_get_clustering_stats", "src/utilities.c:scc_check_clustering", "src/scclust.c:scc_copy_clustering", "src/scclust.c:scc_init_empty_clustering", "src/scclust.c:scc_init_existing_clustering", "src/data_set.c:scc_init_data_set"]}
{"id": "C68", "title": "Only comparisons of distances matter", "statement": "With the built-in back end, two data sets of the same size in which distances compare alike (from each point, for scc_sc_clustering; between any points, for scc_hierarchical_clustering) give the same outcome, code, clusters and labels, if supplied radii cut off the same pairs of points and no radius is estimated. The data may be given in numbers of different types. In exact arithmetic, moving the data and scaling it together with the supplied radii changes nothing, also when a radius is estimated.", "quantifier": "all pairs of data sets that compare alike, options, methods, size constraints, clustering objects, heaps, schedules of failing allocations, builds", "why_tests_cant": "Ranges over all pairs of data sets, including translations and scalings, and compares two executions.", "anchors": ["src/nng_clustering.c:scc_sc_clustering", "src/hierarchical_clustering.c:scc_hierarchical_clustering", "src/dist_search_imp.c:iscc_imp_nearest_neighbor_search", "src/dist_search_imp.c:iscc_imp_get_max_dist", "src/dist_search_imp.c:iscc_imp_get_dist_rows", "src/nng_core.c:iscc_estimate_avg_seed_dist"]}
{"id": "C69", "title": "A build with assertions does the same and does not abort", "statement": "For inputs that satisfy the documented preconditions, a library that is configured with --enable-assert runs every call to its end, without a failed assertion, and the call returns the same code, clustering and memory as in a library without assertions.", "quantifier": "all inputs, options, back ends, heaps, schedules of failing allocations", "why_tests_cant": "An assertion that is false for some input aborts the process of the user; tests can only show that the inputs that were tried do not trigger one.", "anchors": ["configure", "src/hierarchical_clustering.c", "src/nng_batch_clustering.c", "src/nng_clustering.c", "src/nng_core.c", "src/nng_findseeds.c", "src/digraph_operations.c"]}
{"id": "C70", "title": "Stable builds with type constraints do not depend on the back end", "statement": "In builds with SCC_STABLE_NNG, a clustering call with type constraints with two back ends that find the same sets of nearest points, reported in any order, gives the same outcome, number of clusters and labels. In every build this holds for back ends that also report them in the same order.", "quantifier": "all data, options, types, pairs of back ends, heaps, builds, requests for memory that succeed", "why_tests_cant": "Ranges over pairs of back ends and all orders in which they may report neighbours.", "anchors": ["src/nng_core.c:iscc_get_nng_with_type_constraint", "src/nng_core.c:iscc_sort_nng", "src/digraph_operations.c:iscc_digraph_difference", "src/digraph_operations.c:iscc_digraph_union_and_delete", "src/nng_clustering.c:scc_sc_clustering"]}
{"id": "C71", "title": "The names of types have no effect", "statement": "Two clustering calls that differ only in the numbers by which the types are called give the same outcome, number of clusters and labels in builds with SCC_STABLE_NNG, and in every build if the types with constraints are in the same order. Types without constraints may be renumbered, split or merged.", "quantifier": "all data, options, types, renumberings, back ends that determine their answers, heaps, builds, requests for memory that succeed", "why_tests_cant": "Ranges over pairs of calls and all renumberings.", "anchors": ["src/nng_core.c:iscc_get_nng_with_type_constraint", "src/nng_core.c:iscc_type_count", "src/nng_core.c:iscc_sort_nng", "src/nng_clustering.c:scc_sc_clustering"]}
{"id": "C72", "title": "A radius that excludes no point has no effect", "statement": "If no distance between data points exceeds a supplied seed radius, primary radius or secondary radius, the clustering call gives the same outcome, number of clusters and labels as without this radius, also with types and in batches.", "quantifier": "all data, radii, options, back ends that determine their answers, heaps, builds, requests for memory that succeed", "why_tests_cant": "Ranges over all radii above the largest distance and compares two executions on different code paths.", "anchors": ["src/nng_core.c:iscc_get_nng_with_size_constraint", "src/nng_core.c:iscc_get_nng_with_type_constraint", "src/nng_core.c:iscc_assign_by_nn_search", "src/nng_batch_clustering.c", "src/dist_search_imp.c:iscc_imp_nearest_neighbor_search", "src/nng_clustering.c:scc_sc_clustering"]}
{"id": "C73", "title": "Options that say the same give the same result", "statement": "Two clustering calls whose options say the same in different ways give the same outcome, number of clusters and labels: a list of all points as primary points or no list; a stage that uses the seed radius or is supplied with the same radius; one type or none; other values for settings that are not used (radii that are not in force, radii of stages that ignore points, the batch size of methods without batches); and any batch size.", "quantifier": "all data, pairs of options that say the same, back ends that determine their answers, heaps, builds, requests for memory that succeed", "why_tests_cant": "Ranges over pairs of calls that take different paths through the code.", "anchors": ["src/nng_clustering.c:scc_sc_clustering", "src/nng_core.c:iscc_get_nng_with_size_constraint", "src/nng_core.c:iscc_make_nng_clusters_from_seeds", "src/nng_batch_clustering.c", "src/scclust.c:iscc_check_cluster_options"]}
{"id": "C74", "title": "Weaker constraints have a solution when stronger ones do", "statement": "When a clustering call succeeds, a call for the same data with weaker constraints succeeds: a smaller size constraint, more primary points, a wider seed radius or none, smaller type constraints or none. The seed method (also batches) and the treatment of unassigned points may be different. More precisely, a call with valid and supported options, without estimated radius and during which nothing fails, succeeds exactly when there are enough points of each type and, if there is a seed radius, a primary point with enough points (of each type) within it.", "quantifier": "all data, pairs of options, seed methods, types, back ends, heaps, builds, requests for memory that succeed", "why_tests_cant": "Ranges over pairs of options and all data.", "anchors": ["src/nng_clustering.c:scc_sc_clustering", "src/nng_core.c:iscc_get_nng_with_size_constraint", "src/nng_core.c:iscc_get_nng_with_type_constraint", "src/nng_batch_clustering.c"]}
{"id": "C75", "title": "A back end that finds approximately nearest neighbours keeps the guarantee approximately", "statement": "If the back end finds nearest neighbours only up to a factor e (each point found is at most e times as far away as each point not found and as each point found later), and some clustering that meets the constraints has maximum within-cluster distance at most D, then the clustering found has maximum within-cluster distance at most 4 e^2 D; at most 4 e D if no points are assigned by search, and in batches. With clusters of at least two points, inwards updating and assignment to neighbours, 2 e D suffices when every point has another point within D.", "quantifier": "all back ends with this property, metrics, data, options, types, heaps, builds, schedules of failing allocations", "why_tests_cant": "Ranges over all back ends and all competing clusterings.", "anchors": ["src/nng_clustering.c:scc_sc_clustering", "src/nng_batch_clustering.c:scc_nng_clustering_batches", "src/nng_core.c:iscc_get_nng_with_size_constraint", "src/nng_core.c:iscc_get_nng_with_type_constraint", "src/nng_core.c:iscc_assign_by_nn_search", "src/dist_search.h"]}
{"id": "C76", "title": "The guarantees hold for distances computed in double, with rounding", "statement": "With coordinates of type double and the rounding of IEEE 754, the computed distances satisfy the laws that the other properties assume (also with overflow and underflow). Unless squares of differences of coordinates leave the range of double, the points found by a search are nearest points in Euclidean distance up to a factor of 1 + 2^-31, reported distances are right up to this factor, the maximum distance within clusters is at most 4 (1 + 2^-31)^2 times what is possible (4 (1 + 2^-31) in batches), and radii bound distances up to this factor. For integer coordinates with distances up to 2^26.5 comparisons are exact.", "quantifier": "all data sets of finite doubles with at most 2^20 dimensions, search sets, queries, options, heaps, builds", "why_tests_cant": "Ranges over all coordinates; the effect of rounding accumulates over dimensions and comparisons in ways that samples do not exhaust.", "anchors": ["src/dist_search_imp.c:iscc_get_sq_dist", "src/dist_search_imp.c:iscc_imp_nearest_neighbor_search", "src/dist_search_imp.c:iscc_imp_get_dist_matrix", "src/nng_clustering.c:scc_sc_clustering", "src/nng_batch_clustering.c:scc_nng_clustering_batches"]}
{"id": "C77", "title": "A radius bounds the diameter of clusters", "statement": "If there is a seed radius and the radii for the assignment of the remaining points are not larger than R, no two points of a cluster are farther apart than 4 R; not farther than 2 R if no points are assigned after the seeds. The same holds in batches.", "quantifier": "all data, metrics, options, types, back ends, heaps, builds, schedules of failing allocations", "why_tests_cant": "Ranges over all data and all back ends that respect radii.", "anchors": ["src/nng_clustering.c:scc_sc_clustering", "src/nng_batch_clustering.c:scc_nng_clustering_batches", "src/nng_core.c:iscc_assign_by_nn_search", "src/nng_core.c:iscc_get_nng_with_size_constraint"]}
{"id": "C78", "title": "The statistics are right up to rounding", "statement": "The statistics that the library computes in double for the points of a data set differ from those of exact arithmetic by a relative error of at most (dimensions + pairs + 16) 2^-52, where pairs is the number of pairs of points with the same cluster; counts are exact. The sum of distances in exact arithmetic is the sum over all pairs of points with the same cluster, the extremes are the extremes over these pairs.", "quantifier": "all data sets of finite doubles whose squared differences stay in range, with at most 2^20 dimensions, all clusterings with at most 2^51 pairs, heaps, builds", "why_tests_cant": "The error accumulates over the pairs and clusters in the order in which the code sums, and the claim is about the worst case over all coordinates and clusterings.", "anchors": ["src/utilities.c:scc_get_clustering_stats", "src/dist_search_imp.c:iscc_imp_get_dist_matrix", "src/dist_search_imp.c:iscc_get_sq_dist"]}
{"id": "C79", "title": "Groups, pairs, radii, farthest points and hierarchical clustering in double, with rounding", "statement": "With coordinates of type double and the rounding of IEEE 754, for data whose squared differences stay in range: a farthest point search returns a point that is farthest up to a factor of 1 + 2^-31; a radius search returns only points within the radius and answers all queries with enough points within it, up to this factor; groups of points that are farther from each other than within, by more than this factor, are not mixed, by all seed methods and by hierarchical clustering of two groups; pairs found with inwards updating are within 2 (1 + 2^-31) D when every point has another point within D; hierarchical clustering forms clusters of the required size unless many points coincide; and the estimated radius is the mean distance from seeds to their neighbours up to a relative error of (dimensions + 2 points + 11) 2^-52, and bounds the assignment.", "quantifier": "all data sets of finite doubles with at most 2^20 dimensions, search sets, queries, radii, groups, options, heaps, builds", "why_tests_cant": "Ranges over all coordinates and groups; the effect of rounding accumulates over dimensions, comparisons and sums in ways that samples do not exhaust.", "anchors": ["src/dist_search_imp.c:iscc_imp_get_max_dist", "src/dist_search_imp.c:iscc_imp_nearest_neighbor_search", "src/nng_core.c:iscc_estimate_avg_seed_dist", "src/nng_clustering.c:scc_sc_clustering", "src/nng_batch_clustering.c:scc_nng_clustering_batches", "src/hierarchical_clustering.c:scc_hierarchical_clustering"]}
{"id": "C80", "title": "The numbering of points and clusters does not matter", "statement": "When the points of a data set are given in another order, with their types and the primary points, and the clusters are numbered differently: the check of a clustering gives the same answer; the statistics are the same when numbers are added without rounding; and a call that can succeed for one order can succeed for the other, whatever methods are used.", "quantifier": "all permutations of points and of clusters, data, label arrays, constraints, methods, back ends, heaps, builds", "why_tests_cant": "Ranges over all permutations of all inputs.", "anchors": ["src/utilities.c:scc_check_clustering", "src/utilities.c:scc_get_clustering_stats", "src/nng_clustering.c:scc_sc_clustering", "src/nng_batch_clustering.c:scc_nng_clustering_batches"]}
{"id": "C81", "title": "Groups that are far apart are clustered independently", "statement": "When the data fall into groups that are farther from each other than within and each group with a primary point is large enough for a cluster, a call for all points divides the points of a group exactly as a call for this group alone with the same options: the same points stay unassigned and the same points are together. So data can be split at such gaps and clustered in parts. This holds with and without types, for all seed methods and batches of any sizes, all ways to assign the remaining points and all radii that are not estimated, provided distances within the group are distinct; the estimated radius depends on all groups. In double arithmetic it holds when distances differ by a factor of more than 1 + 2^-31.", "quantifier": "all data, groups, types, seed methods, assignment methods, radii, batch sizes, primary points, back ends, heaps, builds with deterministic ties", "why_tests_cant": "Ranges over all data sets and all data that could be added to them.", "anchors": ["src/nng_clustering.c:scc_sc_clustering", "src/nng_batch_clustering.c:scc_nng_clustering_batches", "src/nng_findseeds.c:iscc_find_seeds", "src/nng_core.c:iscc_make_nng_clusters_from_seeds"]}
{"id": "C82", "title": "Objects may share a label array of the client", "statement": "A client may give one label array to several clustering objects. However the objects share arrays, no allowed call has undefined behaviour, the library never frees the array of a client and loses no memory, and the array holds the current labels of every object that uses it. A call changes at most the array of the object that it clusters: the contents of other arrays and of objects with other arrays are unchanged, and the objects that share the array keep their number of points and clusters but have the new labels. The latter can make the number of clusters stale; then asking for statistics is undefined behaviour.", "quantifier": "all histories of calls with any number of objects and arrays, stores of the client, data, options, back ends, heaps, builds, schedules of failing allocations", "why_tests_cant": "Ranges over all histories and all ways to share arrays.", "anchors": ["src/scclust.c:scc_init_empty_clustering", "src/scclust.c:scc_init_existing_clustering", "src/scclust.c:scc_copy_clustering", "src/scclust.c:scc_free_clustering", "src/nng_clustering.c:scc_sc_clustering", "src/hierarchical_clustering.c:scc_hierarchical_clustering", "src/utilities.c:scc_get_clustering_stats"]}
{"id": "C83", "title": "Hierarchical clustering divides each cluster by itself", "statement": "How a call of hierarchical clustering divides a cluster depends only on how the distances between the points of this cluster compare with each other: not on the other points and clusters, the numbers and order of the points, the back end, the way the C library sorts, the build or the memory. So the clusters can be refined one at a time, or in different programs, with the same result. This holds when no two pairs of points of the cluster are equally far apart and no part of the cluster has two pairs of mutually farthest points; for points on a line the first condition is enough. Without either condition it is false. In double arithmetic it holds when the distances in the cluster differ by a factor of more than 1 + 2^-31.", "quantifier": "all data, clusterings, clusters, renumberings, batch flags, back ends, sorting functions, heaps, builds, schedules of failing allocations", "why_tests_cant": "Ranges over all pairs of data sets and clusterings that have a cluster in common.", "anchors": ["src/hierarchical_clustering.c:scc_hierarchical_clustering", "src/hierarchical_clustering.c:iscc_hi_break_cluster_into_two", "src/hierarchical_clustering.c:iscc_hi_find_centers"]}
{"id": "C84", "title": "The statistics are consistent with each other", "statement": "When a call for the statistics of a clustering succeeds and some point is assigned, the reported numbers fit together: there is a populated cluster and there are no more of them than clusters; the number of populated clusters times the smallest cluster size is at most the number of assigned points, which is at most that number times the largest size; the average size is between the smallest and the largest; 0 is at most the smallest distance, which is at most the average of the smallest distances of clusters, which is at most the average distance of clusters, which is at most the average of the largest distances, which is at most the largest distance; and the average weighted by size is between the smallest and the largest distance. This holds exactly in exact arithmetic and up to the rounding error of C78 in double arithmetic.", "quantifier": "all data, clusterings, back ends, builds, heaps, schedules of failing allocations", "why_tests_cant": "The relations must hold for every clustering and data set; tests compare with expected values for a few.", "anchors": ["src/utilities.c:scc_get_clustering_stats", "templates/scclust.h:scc_ClusteringStats"]}
{"id": "C85", "title": "No acceptable clustering has a much smaller reported largest distance", "statement": "Let scc_sc_clustering succeed and scc_get_clustering_stats report the largest distance within its clusters. Take any other clustering of the same points, however it was made, that scc_check_clustering accepts for the same options and that assigns all points if no primary points are given. Then the largest distance reported for the new clustering is at most four times that reported for the other one: nothing that the library accepts is more than four times better. The factor cannot be smaller, and hierarchical clustering gives no such guarantee. With coordinates of type double the factor is 4 (1 + 2^-31)^4.", "quantifier": "all data, options (closest-point assignment without seed radius, secondary points ignored, or batches), rival clusterings, back ends, heaps, builds, schedules of failing allocations", "why_tests_cant": "Ranges over all data and all rival clusterings, of which there are exponentially many.", "anchors": ["src/nng_clustering.c:scc_sc_clustering", "src/nng_batch_clustering.c:scc_nng_clustering_batches", "src/utilities.c:scc_get_clustering_stats", "src/utilities.c:scc_check_clustering"]}
{"id": "C86", "title": "Hierarchical clustering does not make the statistics of a clustering worse", "statement": "Ask for the statistics of a clustering, run scc_hierarchical_clustering on it with a size constraint S, and ask again; let all calls succeed. Then the same number of points is assigned, there are at least as many non-empty clusters as before and no empty ones, the largest cluster is not larger than before and has fewer than 2 S points, the largest distance within clusters is not larger, the smallest is not smaller, and the sum of distances is not larger (with doubles: up to a relative error of (dimensions + pairs + 16) 2^-52). Averages may grow. Excluded are clusters with 2 S or more coincident points and clusterings whose first cluster alone is largest and has 2 S or more points, for which refinement itself fails (C16, C17).", "quantifier": "all data, clusterings with those exceptions, size constraints, batch modes, back ends, sorting functions, heaps, builds, schedules of failing allocations", "why_tests_cant": "The relation between two statistics must hold for every clustering and data set; a test sees one of them.", "anchors": ["src/hierarchical_clustering.c:scc_hierarchical_clustering", "src/utilities.c:scc_get_clustering_stats"]}
{"id": "C87", "title": "A clustering can be exported and built again", "statement": "Let a client export the labels of a non-empty clustering with scc_get_cluster_labels to an array with room for all points, whatever was in it, and call scc_init_existing_clustering with the array and the numbers of points and clusters, with or without a deep copy. The export succeeds, the second call fails only for lack of memory, and otherwise the new object is usable and has the same points, clusters and labels; its label array is the client's exactly if no deep copy was asked for. Two such objects for the same clustering, and likewise a copy, cannot be told apart by scc_check_clustering, and scc_get_clustering_stats reports equal statistics for them in every digit, also if label arrays have different lengths or different back ends give the same distances.", "quantifier": "all clusterings, arrays, options, data, back ends, heaps, builds, schedules of failing allocations", "why_tests_cant": "Ranges over all clusterings and all heaps; a test that writes and reads one clustering says nothing about the others.", "anchors": ["src/scclust.c:scc_get_cluster_labels", "src/scclust.c:scc_init_existing_clustering", "src/scclust.c:scc_copy_clustering", "src/utilities.c:scc_check_clustering", "src/utilities.c:scc_get_clustering_stats"]}
{"id": "C88", "title": "The unit of measurement does not matter, also with rounding errors", "statement": "Multiply all coordinates of a data set by a power of two, and optionally mirror and shift each dimension by an amount that the type double can represent exactly, and multiply the supplied radii by the same power. Then scc_sc_clustering and scc_hierarchical_clustering have the same outcome, down to every label and error, computed distances are exactly multiplied by the power of two, and so are all distances that scc_get_clustering_stats reports, while counts and sizes are the same. No tolerance is needed: both computations make the same rounding errors. Coordinate differences and radii must be between 2^-500 and 2^500 in both units, and at most 2^51 pairs of points may share a cluster for the statistics; with an estimated radius, differences must be between 2^-400 and 2^400.", "quantifier": "all data sets of doubles in that range, powers of two, mirrorings and shifts, options, clusterings, heaps, builds, schedules of failing allocations", "why_tests_cant": "Equality of two computations with rounding errors must hold for all data; a test compares one data set in two units.", "anchors": ["src/dist_search_imp.c:iscc_get_sq_dist", "src/nng_clustering.c:scc_sc_clustering", "src/hierarchical_clustering.c:scc_hierarchical_clustering", "src/utilities.c:scc_get_clustering_stats"]}
{"id": "C89", "title": "A dimension in which all points agree has no effect", "statement": "Insert dimensions into a data set, at any positions, in each of which all points have the same finite coordinate. Then scc_sc_clustering, scc_hierarchical_clustering and scc_get_clustering_stats have exactly the same outcome, down to every label, number and error, although distances are computed in double with rounding. Nothing is assumed about the other coordinates: they may overflow, be infinite or not be numbers. The constant itself must be finite: an infinite one makes distances NaN.", "quantifier": "all data sets of doubles, positions and values of constant dimensions, options, clusterings, heaps, builds, schedules of failing allocations", "why_tests_cant": "Bitwise equality of two computations with rounding must hold for all data; a test compares one pair of data sets.", "anchors": ["src/dist_search_imp.c:iscc_get_sq_dist", "src/nng_clustering.c:scc_sc_clustering", "src/hierarchical_clustering.c:scc_hierarchical_clustering", "src/utilities.c:scc_get_clustering_stats"]}
{"id": "C90", "title": "For integer coordinates only the true distances matter", "statement": "Take two data sets with integer coordinates, not necessarily with the same number of dimensions, in which the points have the same Euclidean distances, none larger than 2^26.5: for instance one is the other shifted, mirrored, turned, with its dimensions in another order, or embedded in a larger space. Then scc_sc_clustering, scc_hierarchical_clustering and scc_get_clustering_stats have exactly the same outcome for both, down to every label, number and error, whatever the options. For larger integers this is false: the order of the dimensions decides whether two points are within a radius.", "quantifier": "all pairs of congruent data sets of integers in that range, options, clusterings, heaps, builds, schedules of failing allocations", "why_tests_cant": "Exact equality must hold for all congruent data sets and all options; tests try some.", "anchors": ["src/dist_search_imp.c:iscc_get_sq_dist", "src/nng_clustering.c:scc_sc_clustering", "src/hierarchical_clustering.c:scc_hierarchical_clustering", "src/utilities.c:scc_get_clustering_stats"]}
{"id": "C91", "title": "Mirroring a dimension has no effect", "statement": "Change the sign of all coordinates in some dimensions of a data set. Then scc_sc_clustering, scc_hierarchical_clustering and scc_get_clustering_stats have exactly the same outcome, down to every label, number and error, although distances are computed in double with rounding. Nothing is assumed about the coordinates: distances may overflow, and coordinates may be infinite or not be numbers. Likewise the computed distance from one point to another is always that of the way back.", "quantifier": "all data sets of doubles, sets of mirrored dimensions, options, clusterings, heaps, builds, schedules of failing allocations", "why_tests_cant": "Bitwise equality of two computations with rounding must hold for all data, also at the limits of the number type; tests try some.", "anchors": ["src/dist_search_imp.c:iscc_get_sq_dist", "src/nng_clustering.c:scc_sc_clustering", "src/hierarchical_clustering.c:scc_hierarchical_clustering", "src/utilities.c:scc_get_clustering_stats"]}
{"id": "C92", "title": "Shifting the data has no effect when the shifted coordinates are exact", "statement": "Shift a data set of finite doubles by an amount in each dimension such that every shifted coordinate is the exact sum. Then scc_sc_clustering, scc_hierarchical_clustering and scc_get_clustering_stats have exactly the same outcome, down to every label, number and error. Distances may overflow or underflow. When the shift is rounded this is false: different points may become the same point.", "quantifier": "all data sets of finite doubles, shifts with exact results, options, clusterings, heaps, builds, schedules of failing allocations", "why_tests_cant": "Bitwise equality of two computations with rounding must hold for all data, also at the limits of the number type; tests try some.", "anchors": ["src/dist_search_imp.c:iscc_get_sq_dist", "src/nng_clustering.c:scc_sc_clustering", "src/hierarchical_clustering.c:scc_hierarchical_clustering", "src/utilities.c:scc_get_clustering_stats"]}
{"id": "C93", "title": "Points with enough copies are clustered with their copies only", "statement": "Let there be as many points with exactly the coordinates of each primary point, counting itself, as a cluster needs (the size constraint and, with types, all type constraints), and let no seed radius be used. When scc_sc_clustering then returns ok, for any seed method and any way of assigning the remaining points, two points of a cluster have the same coordinates, as far as there are primary points with their coordinates; with batches this holds for all points of a cluster. This is exact although distances are computed in double with rounding, for coordinates of which no two different ones differ by less than 2^-500 or more than 2^500. scc_get_clustering_stats then reports exactly zero as the sum of distances and as the largest distance, for any clustering in which points of a cluster have the same coordinates. The computed distance of points with the same finite coordinates is exactly zero in any case. Without the lower limit, different points may have the computed distance zero.", "quantifier": "all data sets of doubles in that range, numbers and positions of copies, options without a seed radius, primary points, types, heaps, builds, schedules of failing allocations", "why_tests_cant": "Repeated points give ties in all comparisons; how ties are broken depends on order and method, and tests try a few orders.", "anchors": ["src/nng_clustering.c:scc_sc_clustering", "src/nng_batch_clustering.c:scc_nng_clustering_batches", "src/dist_search_imp.c:iscc_get_sq_dist", "src/dist_search_imp.c:iscc_imp_nearest_neighbor_search"]}
