{
 "claims": [
  {
   "property": "C01",
   "status": "proved",
   "theorems": [
    "Scc.C01_size_constraint"
   ],
   "note": "All seed methods that build a digraph. SpiOk is the documented contract of the search functions; the built-in ones satisfy it (builtinSpi_ok)."
  },
  {
   "property": "C02",
   "status": "proved",
   "theorems": [
    "Scc.C02_type_constraints"
   ],
   "note": "With at least one positive type constraint (WithinLimits); without any the code reads uninitialised memory."
  },
  {
   "property": "C03",
   "status": "proved",
   "theorems": [
    "Scc.C03_seeds_disjoint"
   ],
   "note": "The exclusion methods are undefined behaviour when exactly their second allocation fails; that schedule is excluded."
  },
  {
   "property": "C04",
   "status": "proved",
   "theorems": [
    "Scc.C04_seeds_maximal"
   ],
   "note": ""
  },
  {
   "property": "C05",
   "status": "proved",
   "theorems": [
    "Scc.C05_primary_assigned",
    "Scc.C05_primary_assigned_batches"
   ],
   "note": ""
  },
  {
   "property": "C06",
   "status": "proved",
   "theorems": [
    "Scc.C06_secondary_assigned",
    "Scc.C06_secondary_ignored"
   ],
   "note": ""
  },
  {
   "property": "C07",
   "status": "proved",
   "theorems": [
    "Scc.C07_closest"
   ],
   "note": "For closest-assigned without types the theorem is about builds without SCC_STABLE_NNG; C63_not_closest shows that it is false in builds with this flag."
  },
  {
   "property": "C08",
   "status": "proved",
   "theorems": [
    "Scc.C08_seed_radius",
    "Scc.C45_batch_clusters"
   ],
   "note": ""
  },
  {
   "property": "C09",
   "status": "partial",
   "theorems": [
    "Scc.C09_primary_radius_partial",
    "Scc.C09_fails_anyNeighbor",
    "Scc.C09_fails_closestAssigned",
    "Scc.C09_fails_secondary"
   ],
   "note": "The code violates the property for ANY_NEIGHBOR, for CLOSEST_ASSIGNED without types, and with other methods when secondary points are assigned (that stage also assigns primary points): all three negations are proved. The partial theorem covers the other methods with IGNORE for secondary points."
  },
  {
   "property": "C10",
   "status": "proved",
   "theorems": [
    "Scc.C10_ignore_exact",
    "Scc.C12_batch_size_constraint"
   ],
   "note": ""
  },
  {
   "property": "C11",
   "status": "proved",
   "theorems": [
    "Scc.C11_four_approximation",
    "Scc.C11_four_approximation_batches"
   ],
   "note": ""
  },
  {
   "property": "C12",
   "status": "proved",
   "theorems": [
    "Scc.C12_batch_size_constraint"
   ],
   "note": ""
  },
  {
   "property": "C13",
   "status": "proved",
   "theorems": [
    "Scc.C13_batch_size_irrelevant"
   ],
   "note": ""
  },
  {
   "property": "C14",
   "status": "partial",
   "theorems": [
    "Scc.C14_batch_memory_safe_partial",
    "Scc.C14_fails"
   ],
   "note": "False when size_constraint * batch_size >= 2^32: the negation is proved for a concrete accepted call. The partial theorem covers smaller products."
  },
  {
   "property": "C15",
   "status": "partial",
   "theorems": [
    "Scc.C15_partial",
    "Scc.C15_fails"
   ],
   "note": "False when 2*size_constraint or more points coincide (negation proved for four copies of a point). Proved for all other data sets."
  },
  {
   "property": "C16",
   "status": "partial",
   "theorems": [
    "Scc.C16_partial",
    "Scc.C16_fails"
   ],
   "note": "False when 2*size_constraint or more points of a cluster coincide (negation proved). Proved for all other clusterings whose first cluster is small or not larger than all others; for the rest see C17_fails."
  },
  {
   "property": "C17",
   "status": "partial",
   "theorems": [
    "Scc.C17_partial",
    "Scc.C17_succeeds",
    "Scc.C17_fails"
   ],
   "note": "Proved for all stack capacities, marker widths and failure schedules, except when the first cluster of a refined clustering is the only largest one and has at least 2*size_constraint points: then the code writes out of bounds (negation proved)."
  },
  {
   "property": "C18",
   "status": "proved",
   "theorems": [
    "Scc.C18_check_exact",
    "Scc.C18_check_rejects"
   ],
   "note": "Exact in both directions for all label contents; on a 32-bit size_t the table num_types * num_clusters has to be representable (CheckOk.room)."
  },
  {
   "property": "C19",
   "status": "proved",
   "theorems": [
    "Scc.C19_check_accepts",
    "Scc.C19_check_accepts_batches"
   ],
   "note": "For successful calls with all seed methods, run on the object that the call left."
  },
  {
   "property": "C20",
   "status": "proved",
   "theorems": [
    "Scc.C20_stats",
    "Scc.C20_extremes",
    "Scc.C20_sum",
    "Scc.C20_rejects",
    "Scc.C20_null"
   ],
   "note": "C20_stats gives every field exactly as the floating point operations compute it; C20_sum says what the sum is if addition is exact. A cluster with one point makes min_dist zero. On a 32-bit size_t n*(n-1) has to be representable (StatsOk.room)."
  },
  {
   "property": "C21",
   "status": "proved",
   "theorems": [
    "Scc.C21_nearest_neighbors"
   ],
   "note": "Assumes the IEEE order laws and no NaN; order of ties by position."
  },
  {
   "property": "C22",
   "status": "proved",
   "theorems": [
    "Scc.C22_radius_search"
   ],
   "note": ""
  },
  {
   "property": "C23",
   "status": "proved",
   "theorems": [
    "Scc.C23_same_array"
   ],
   "note": ""
  },
  {
   "property": "C24",
   "status": "proved",
   "theorems": [
    "Scc.C24_max_dist"
   ],
   "note": "Without NaN the index is always written; with NaN it may stay unwritten (DESIGN section 7)."
  },
  {
   "property": "C25",
   "status": "proved",
   "theorems": [
    "Scc.C25_dist_matrix",
    "Scc.C25_dist_matrix_size",
    "Scc.C25_dist_rows"
   ],
   "note": ""
  },
  {
   "property": "C26",
   "status": "proved",
   "theorems": [
    "Scc.C26_union"
   ],
   "note": ""
  },
  {
   "property": "C27",
   "status": "proved",
   "theorems": [
    "Scc.C27_transpose",
    "Scc.C27_transpose_twice"
   ],
   "note": ""
  },
  {
   "property": "C28",
   "status": "proved",
   "theorems": [
    "Scc.C28_product"
   ],
   "note": ""
  },
  {
   "property": "C29",
   "status": "proved",
   "theorems": [
    "Scc.C29_deleteLoops",
    "Scc.C29_difference"
   ],
   "note": ""
  },
  {
   "property": "C30",
   "status": "proved",
   "theorems": [
    "Scc.C30_exclusion_graph"
   ],
   "note": ""
  },
  {
   "property": "C31",
   "status": "proved",
   "theorems": [
    "Scc.C31_seed_order"
   ],
   "note": ""
  },
  {
   "property": "C32",
   "status": "proved",
   "theorems": [
    "Scc.C32_invalid_rejected",
    "Scc.C32_ok_valid",
    "Scc.C32_default_accepted"
   ],
   "note": ""
  },
  {
   "property": "C33",
   "status": "partial",
   "theorems": [
    "Scc.C33_rejected_untouched",
    "Scc.C33_rejected_batches_partial",
    "Scc.C33_fails_batches"
   ],
   "note": "Proved for the seed methods that build a digraph. With batches the contents of the label array of an empty clustering may be overwritten although there is no solution; the negation is proved, the number of clusters stays the same."
  },
  {
   "property": "C34",
   "status": "proved",
   "theorems": [
    "Scc.C34_no_undefined",
    "Scc.C34_memory",
    "Scc.C34_free_all",
    "Scc.C34_init_empty",
    "Scc.C34_init_existing",
    "Scc.C34_copy"
   ],
   "note": "Histories also include export, check, statistics, and both kinds of clustering calls. Calls for which C14, C16, C17 or C38 fail are left out: oversized batches, hierarchical calls on inputs with many coincident points or with an overfull first cluster, failing unchecked allocations, and failures during the exclusion methods."
  },
  {
   "property": "C35",
   "status": "proved",
   "theorems": [
    "Scc.C35_copy",
    "Scc.C35_deep_copy",
    "Scc.C35_kept",
    "Scc.C35_live",
    "Scc.C35_independent"
   ],
   "note": "An empty clustering has no labels to copy."
  },
  {
   "property": "C36",
   "status": "proved",
   "theorems": [
    "Scc.C36_export",
    "Scc.C36_rejects"
   ],
   "note": ""
  },
  {
   "property": "C37",
   "status": "partial",
   "theorems": [
    "Scc.C37_exact_partial",
    "Scc.C37_exact_48",
    "Scc.C37_complete_partial",
    "Scc.C37_fails"
   ],
   "note": "Proved when num_data_points * num_dimensions < 2^64, in particular for all point types of at most 48 bits (the default has 32). With 64-bit point indices the product wraps and the property is false: the negation is proved."
  },
  {
   "property": "C38",
   "status": "partial",
   "theorems": [
    "Scc.C38_failures_reported_partial",
    "Scc.C38_failures_reported_batches_partial",
    "Scc.C38_hierarchical",
    "Scc.C38_fails_exclusion",
    "Scc.C38_fails_leak",
    "Scc.C38_fails_any_neighbor",
    "Scc.C38_fails_closest_seed",
    "Scc.C38_fails_batches",
    "Scc.C38_fails_exclusion_witness",
    "Scc.C38_fails_leak_witness",
    "Scc.C38_fails_any_neighbor_witness",
    "Scc.C38_fails_closest_seed_witness",
    "Scc.C38_fails_batches_witness"
   ],
   "note": "The property is false as stated. The partial theorems cover all failures of the requests that the code checks (scc_sc_clustering); C38_hierarchical covers all failures during scc_hierarchical_clustering (scc_get_clustering_stats: C20_stats). For the four unchecked requests and for the leak the negation is proved for whole classes of calls and with concrete witnesses."
  },
  {
   "property": "C39",
   "status": "partial",
   "theorems": [
    "Scc.C39_failures_reported_partial",
    "Scc.C39_start_reported",
    "Scc.C39_hierarchical_reported",
    "Scc.C39_stats_reported",
    "Scc.C39_fails_search",
    "Scc.C39_fails_close",
    "Scc.C39_fails_close_batches"
   ],
   "note": "The property is false as stated. Proved for all back ends, options and failure points: failures when starting a search or computing distances are always reported; failures of searches are reported unless secondary points are assigned by search; failures when closing are reported if searches only build the digraph. For hierarchical clustering and statistics all failures are reported. The negation is proved for the other cases with back ends that satisfy the documented contract."
  },
  {
   "property": "C40",
   "status": "proved",
   "theorems": [
    "Scc.C40_get",
    "Scc.C40_get_none",
    "Scc.C40_text",
    "Scc.C40_text_reset",
    "Scc.C40_history",
    "Scc.C40_last"
   ],
   "note": ""
  },
  {
   "property": "C41",
   "status": "partial",
   "theorems": [
    "Scc.C41_returns",
    "Scc.C41_set_ok",
    "Scc.C41_reset",
    "Scc.C41_nn_never_mixed",
    "Scc.C41_max_never_mixed",
    "Scc.C41_false_partial",
    "Scc.C41_fails"
   ],
   "note": "The last clause is false: a call that returns false may have replaced functions (negation proved). The partial theorem says what such a call leaves alone."
  },
  {
   "property": "C42",
   "status": "proved",
   "theorems": [
    "Scc.C42_no_solution",
    "Scc.C42_solution",
    "Scc.C42_no_solution_batches",
    "Scc.C42_solution_batches",
    "Scc.C42_no_solution_types",
    "Scc.C42_solution_types"
   ],
   "note": "With types, points are assumed to be within the radius of themselves."
  },
  {
   "property": "C43",
   "status": "proved",
   "theorems": [
    "Scc.C43_estimated_radius"
   ],
   "note": ""
  },
  {
   "property": "C44",
   "status": "proved",
   "theorems": [
    "Scc.C44_inwards_pairs"
   ],
   "note": ""
  },
  {
   "property": "C45",
   "status": "proved",
   "theorems": [
    "Scc.C45_batch_clusters"
   ],
   "note": "In builds with SCC_STABLE_NNG a hypothesis says that a point no farther from a seed than the seed itself is no farther than any point."
  },
  {
   "property": "C46",
   "status": "proved",
   "theorems": [
    "Scc.C46_batch_unassigned"
   ],
   "note": ""
  },
  {
   "property": "C47",
   "status": "proved",
   "theorems": [
    "Scc.C47_batches_lexical"
   ],
   "note": ""
  },
  {
   "property": "C48",
   "status": "proved",
   "theorems": [
    "Scc.C48_cluster_count",
    "Scc.C48_ignore_count"
   ],
   "note": ""
  },
  {
   "property": "C49",
   "status": "partial",
   "theorems": [
    "Scc.C49_refine_partial",
    "Scc.C49_fails"
   ],
   "note": "False with default options: if the first cluster of the first result is the only largest one, the second call writes out of bounds (negation proved with nine points). The partial theorem requires that this is not so and that no cluster has 2*S' coincident points (see C16, C17)."
  },
  {
   "property": "C50",
   "status": "proved",
   "theorems": [
    "Scc.C50_check_hierarchical"
   ],
   "note": ""
  },
  {
   "property": "C51",
   "status": "proved",
   "theorems": [
    "Scc.C51_small_clusters_stay",
    "Scc.C51_twice"
   ],
   "note": ""
  },
  {
   "property": "C52",
   "status": "proved",
   "theorems": [
    "Scc.C52_stats"
   ],
   "note": ""
  },
  {
   "property": "C53",
   "status": "partial",
   "theorems": [
    "Scc.C53_sc_clustering",
    "Scc.C53_hierarchical_partial",
    "Scc.C53_then_stats",
    "Scc.C53_fails"
   ],
   "note": "scc_sc_clustering: proved for all failures of checked requests. scc_hierarchical_clustering: proved for empty clusterings, successful and rejected calls. It is false when the refinement of a non-empty clustering fails midway: labels are overwritten but the number of clusters stays, and the next call goes out of bounds (negation proved with eleven points)."
  },
  {
   "property": "C54",
   "status": "partial",
   "theorems": [
    "Scc.C54_retry_partial",
    "Scc.C54_retry_batches",
    "Scc.C54_retry_hierarchical",
    "Scc.C54_no_retry",
    "Scc.C54_fails"
   ],
   "note": "False for assignment methods that search: a failure during the search leaves clusters behind, and every further call is rejected as not implemented. Proved for the other methods, for batches, and for hierarchical clustering of an empty clustering."
  },
  {
   "property": "C55",
   "status": "proved",
   "theorems": [
    "Scc.C55_assignment"
   ],
   "note": ""
  },
  {
   "property": "C56",
   "status": "partial",
   "theorems": [
    "Scc.C56_primary_settings_partial",
    "Scc.C56_fails"
   ],
   "note": "Proved with IGNORE for secondary points. False otherwise: the stage for secondary points also assigns primary points that were left (negation proved)."
  },
  {
   "property": "C57",
   "status": "proved",
   "theorems": [
    "Scc.C57_history",
    "Scc.C57_defined",
    "Scc.C57_process",
    "Scc.C57_sc_clustering",
    "Scc.C57_hierarchical",
    "Scc.C57_copy",
    "Scc.C57_check",
    "Scc.C57_stats",
    "Scc.C57_get_labels",
    "Scc.C57_info",
    "Scc.builtin_repeatable"
   ],
   "note": ""
  },
  {
   "property": "C58",
   "status": "proved",
   "theorems": [
    "Scc.C58_open",
    "Scc.C58_search",
    "Scc.C58_leaks_harmless",
    "Scc.C58_transfer",
    "Scc.C58_size_constraint",
    "Scc.C58_type_constraints",
    "Scc.C58_closest",
    "Scc.C58_metric",
    "Scc.C58_close"
   ],
   "note": "The ANN library is a parameter with the hypotheses AnnOk (its documented behaviour)."
  },
  {
   "property": "C59",
   "status": "partial",
   "theorems": [
    "Scc.C59_no_leak_partial",
    "Scc.C59_fails_int",
    "Scc.C59_fails_init",
    "Scc.C59_fails_search"
   ],
   "note": "Proved for scc_PointIndex other than int when no request for memory fails. False otherwise: with int every search without radius loses a block, and failures of the second request for memory in a function lose the first block (negations proved)."
  },
  {
   "property": "C60",
   "status": "proved",
   "theorems": [
    "Scc.C60_valid",
    "Scc.C60_balanced",
    "Scc.C60_pieces",
    "Scc.C60_copy",
    "Scc.C60_string",
    "Scc.C60_print",
    "Scc.C60_print_read"
   ],
   "note": ""
  },
  {
   "property": "C61",
   "status": "partial",
   "theorems": [
    "Scc.C61_equal_partial",
    "Scc.C61_reject_partial",
    "Scc.C61_fails_equal",
    "Scc.C61_fails_emptyRow",
    "Scc.C61_fails_rows",
    "Scc.C61_fails_longRow",
    "Scc.C61_fails_fewRows"
   ],
   "note": "Comparison is proved when the unchecked request for memory succeeds; rejection for the malformed strings that the code looks for. False otherwise (negations proved)."
  },
  {
   "property": "C62",
   "status": "proved",
   "theorems": [
    "Scc.C62_seeds_from_arcs",
    "Scc.C62_ties_by_index",
    "Scc.C62_default_depends_on_storage"
   ],
   "note": "C62_default_depends_on_storage shows that the condition on the build is needed for the updating methods."
  },
  {
   "property": "C63",
   "status": "proved",
   "theorems": [
    "Scc.C63_same_clusters",
    "Scc.C63_same_clusters_batches",
    "Scc.C63_ann_builtin",
    "Scc.C63_smallest_index",
    "Scc.C63_default_depends_on_order",
    "Scc.C63_not_closest"
   ],
   "note": "C63_default_depends_on_order shows that the condition on the build is needed; C63_not_closest shows the price: closest-assigned is not closest in stable builds."
  },
  {
   "property": "C64",
   "status": "proved",
   "theorems": [
    "Scc.C64_not_mixed",
    "Scc.C64_groups_of_seeds",
    "Scc.C64_not_mixed_batches",
    "Scc.C64_small_group_mixed"
   ],
   "note": "C64_small_group_mixed shows that the condition on the size of the groups is needed."
  },
  {
   "property": "C65",
   "status": "proved",
   "theorems": [
    "Scc.C65_from_empty",
    "Scc.C65_refine",
    "Scc.C65_closer"
   ],
   "note": "The specification of the algorithm is Spec/HiTree.lean. C15_fails shows that the condition on coincident points is needed."
  },
  {
   "property": "C66",
   "status": "proved",
   "theorems": [
    "Scc.C66_from_empty",
    "Scc.C66_refine",
    "Scc.C66_fails_batch",
    "Scc.C66_fails_three"
   ],
   "note": "C66_fails_batch and C66_fails_three show that the conditions are needed."
  },
  {
   "property": "C67",
   "status": "partial",
   "theorems": [
    "Scc.C67_calls_partial",
    "Scc.C67_backend",
    "Scc.C67_batches_any",
    "Scc.C67_methods_partial",
    "Scc.C67_batches",
    "Scc.C67_hierarchical",
    "Scc.C67_stats",
    "Scc.C67_check",
    "Scc.C67_objects",
    "Scc.C67_fails_secondary"
   ],
   "note": "Full for batches, hierarchical clustering, statistics, checking and objects. False for secondary points that are assigned by a search: a failure there goes unnoticed and points are left unassigned (negation proved). For the other secondary methods C67_calls_partial is the full property, with all options and in all builds; C67_backend covers any back end, including the ANN wrapper."
  },
  {
   "property": "C68",
   "status": "proved",
   "theorems": [
    "Scc.C68_sc_clustering",
    "Scc.C68_hierarchical",
    "Scc.C68_similar",
    "Scc.C68_similar_hierarchical",
    "Scc.C68_moved",
    "Scc.C68_fails_estimated"
   ],
   "note": "C68_fails_estimated shows that the condition on estimated radii is needed in general. Exact arithmetic is that of the real numbers."
  },
  {
   "property": "C69",
   "status": "partial",
   "theorems": [
    "Scc.C69_hierarchical_partial",
    "Scc.C69_hierarchical_fails",
    "Scc.C69_clustering_partial",
    "Scc.C69_clustering_fails",
    "Scc.C69_search",
    "Scc.C69_objects",
    "Scc.C69_builtin_clustering_partial",
    "Scc.C69_builtin_hierarchical_partial",
    "Scc.C69_builtin_stats"
   ],
   "note": "For scc_hierarchical_clustering, scc_sc_clustering, the built-in distance functions, and the functions on clustering objects, the check and the statistics; and for whole programs in which the library and the built-in distance functions all have assertions (C69_builtin_...). False when many points coincide and when a radius is a NaN (negations proved)."
  },
  {
   "property": "C70",
   "status": "partial",
   "theorems": [
    "Scc.C70_same_order_partial",
    "Scc.C70_full_types_partial",
    "Scc.C70_fails"
   ],
   "note": "Proved for back ends that report points in the same order and, in stable builds, for any order when the type constraints add up to the size constraint. False otherwise (negation proved): the first points in the answer for all points are taken before the arcs are sorted."
  },
  {
   "property": "C71",
   "status": "proved",
   "theorems": [
    "Scc.C71_type_names",
    "Scc.C71_default_depends_on_names"
   ],
   "note": "C71_default_depends_on_names shows that the condition on the build is needed."
  },
  {
   "property": "C72",
   "status": "proved",
   "theorems": [
    "Scc.C72_free_radius",
    "Scc.C72_free_radius_batches",
    "Scc.C72_seed_radius"
   ],
   "note": "C72_seed_radius is the case of a seed radius and the built-in distance functions."
  },
  {
   "property": "C73",
   "status": "proved",
   "theorems": [
    "Scc.C73_equivalent",
    "Scc.C73_equivalent_batches"
   ],
   "note": ""
  },
  {
   "property": "C74",
   "status": "proved",
   "theorems": [
    "Scc.C74_weaker",
    "Scc.C74_solvable"
   ],
   "note": "With types, points are assumed to be within the seed radius of themselves."
  },
  {
   "property": "C75",
   "status": "proved",
   "theorems": [
    "Scc.C75_near_neighbours",
    "Scc.C75_near_neighbours_batches",
    "Scc.C75_inwards_pairs"
   ],
   "note": "The conditions on options are those of C11."
  },
  {
   "property": "C76",
   "status": "proved",
   "theorems": [
    "Scc.C76_rounding",
    "Scc.C76_operations",
    "Scc.C76_laws",
    "Scc.C76_search",
    "Scc.C76_dist_matrix",
    "Scc.C76_four_approximation",
    "Scc.C76_four_approximation_batches",
    "Scc.C76_radius_diameter",
    "Scc.C76_integers",
    "Scc.C76_four_approximation_integers",
    "Scc.C76_limits"
   ],
   "note": "C76_rounding and C76_operations show that the model of double is that of IEEE 754. C76_limits shows that the condition on the range is needed."
  },
  {
   "property": "C77",
   "status": "proved",
   "theorems": [
    "Scc.C77_radius_diameter",
    "Scc.C77_radius_diameter_batches"
   ],
   "note": "Estimated radii are not covered."
  },
  {
   "property": "C78",
   "status": "proved",
   "theorems": [
    "Scc.C78_stats"
   ],
   "note": ""
  },
  {
   "property": "C79",
   "status": "proved",
   "theorems": [
    "Scc.C79_farthest",
    "Scc.C79_radius_search",
    "Scc.C79_not_mixed",
    "Scc.C79_not_mixed_batches",
    "Scc.C79_inwards_pairs",
    "Scc.C79_hierarchical_sizes",
    "Scc.C79_hierarchical_groups",
    "Scc.C79_estimated_radius"
   ],
   "note": "The conditions are those of C64, C44, C15, C66 and C43."
  },
  {
   "property": "C80",
   "status": "proved",
   "theorems": [
    "Scc.C80_check",
    "Scc.C80_stats",
    "Scc.C80_success",
    "Scc.C80_success_builtin"
   ],
   "note": "Which clusters are formed does depend on the order of points: ties and the order of seeds."
  },
  {
   "property": "C81",
   "status": "proved",
   "theorems": [
    "Scc.C81_groups_independent",
    "Scc.C81_groups_independent_builtin",
    "Scc.C81_groups_independent_batches",
    "Scc.C81_groups_independent_double",
    "Scc.C81_groups_independent_batches_double",
    "Scc.C81_estimate_depends_on_others"
   ],
   "note": "C81_estimate_depends_on_others shows by an example that an estimated radius has to be excluded."
  },
  {
   "property": "C82",
   "status": "proved",
   "theorems": [
    "Scc.C82_no_undefined",
    "Scc.C82_memory",
    "Scc.C82_current",
    "Scc.C82_others",
    "Scc.C82_fails_stale"
   ],
   "note": "C82_fails_stale shows that statistics of an object whose labels were replaced through another object can be undefined."
  },
  {
   "property": "C83",
   "status": "proved",
   "theorems": [
    "Scc.C83_by_itself",
    "Scc.C83_line",
    "Scc.C83_double",
    "Scc.C83_line_double",
    "Scc.C83_fails_ties",
    "Scc.C83_fails_pairs"
   ],
   "note": "C83_fails_ties and C83_fails_pairs show that both conditions are needed."
  },
  {
   "property": "C84",
   "status": "proved",
   "theorems": [
    "Scc.C84_exact",
    "Scc.C84_double",
    "Scc.C84_fails_unassigned"
   ],
   "note": "C84_fails_unassigned shows that an assigned point is needed: with none, the minima are the largest values of their types."
  },
  {
   "property": "C85",
   "status": "proved",
   "theorems": [
    "Scc.C85_exact",
    "Scc.C85_exact_builtin",
    "Scc.C85_double",
    "Scc.C85_tight",
    "Scc.C85_fails_hierarchical"
   ],
   "note": "Combines C11, C18 and C20, and C76 for double. C85_tight shows that the factor four is attained, C85_fails_hierarchical that hierarchical clustering has no such guarantee."
  },
  {
   "property": "C86",
   "status": "proved",
   "theorems": [
    "Scc.C86_improved",
    "Scc.C86_sum",
    "Scc.C86_double",
    "Scc.C86_averages_grow"
   ],
   "note": "C86_averages_grow shows that averages are rightly left out. The exceptions for coincident points and the first cluster are those of C16 and C17."
  },
  {
   "property": "C87",
   "status": "proved",
   "theorems": [
    "Scc.C87_save_load",
    "Scc.C87_copy",
    "Scc.C87_stats",
    "Scc.C87_check"
   ],
   "note": "Sizes have to be representable (fewer points and clusters than the largest size_t), as for all objects the library makes."
  },
  {
   "property": "C88",
   "status": "proved",
   "theorems": [
    "Scc.C88_sc_clustering",
    "Scc.C88_estimated",
    "Scc.C88_hierarchical",
    "Scc.C88_distance",
    "Scc.C88_stats",
    "Scc.C88_fails_three"
   ],
   "note": "C88_fails_three shows that a power of two is needed: with the factor three, computed distances compare differently. Estimated radii are excluded in C88_sc_clustering; C88_estimated covers them, when coordinates differ by 2^-400 to 2^400 (otherwise means and their squares may underflow or overflow)."
  },
  {
   "property": "C89",
   "status": "proved",
   "theorems": [
    "Scc.C89_sc_clustering",
    "Scc.C89_asserts",
    "Scc.C89_hierarchical",
    "Scc.C89_stats",
    "Scc.C89_distance",
    "Scc.C89_fails_infinite"
   ],
   "note": "C89_fails_infinite shows that the constant must be finite."
  },
  {
   "property": "C90",
   "status": "proved",
   "theorems": [
    "Scc.C90_sc_clustering",
    "Scc.C90_asserts",
    "Scc.C90_hierarchical",
    "Scc.C90_stats",
    "Scc.C90_fails_order"
   ],
   "note": "C90_fails_order shows that the range is needed: with squared distances above 2^54 the order of dimensions decides whether two points are within a radius."
  },
  {
   "property": "C91",
   "status": "proved",
   "theorems": [
    "Scc.C91_sc_clustering",
    "Scc.C91_asserts",
    "Scc.C91_hierarchical",
    "Scc.C91_stats",
    "Scc.C91_distance",
    "Scc.C91_symmetric"
   ],
   "note": "The sign of zero is not modelled; it has no effect on comparisons."
  },
  {
   "property": "C92",
   "status": "proved",
   "theorems": [
    "Scc.C92_sc_clustering",
    "Scc.C92_asserts",
    "Scc.C92_hierarchical",
    "Scc.C92_stats",
    "Scc.C92_fails_rounded"
   ],
   "note": "C92_fails_rounded shows that the shifted coordinates must be exact. C88 has shifts together with a change of the unit, for a range of values."
  },
  {
   "property": "C93",
   "status": "proved",
   "theorems": [
    "Scc.C93_copies",
    "Scc.C93_copies_batches",
    "Scc.C93_distance",
    "Scc.C93_stats",
    "Scc.C93_fails_underflow"
   ],
   "note": "C93_fails_underflow shows that the lower limit on differences is needed: different points may have the computed distance zero."
  }
 ]
}