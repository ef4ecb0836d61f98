{
 "claims": [
  {
   "property": "C01",
   "status": "proved",
   "theorems": [
    "QuESo.Props.C01_vector_roundtrip",
    "QuESo.Props.C01_matrix_roundtrip",
    "QuESo.Props.C01_injective",
    "QuESo.Props.C01_no_ub",
    "QuESo.Props.C01_64bit",
    "QuESo.Props.C01_zero_cells_ub"
   ],
   "note": ""
  },
  {
   "property": "C02",
   "status": "proved",
   "theorems": [
    "QuESo.Props.C02_step_stays",
    "QuESo.Props.C02_middle_is_neighbour",
    "QuESo.Props.C02_reverse_undoes",
    "QuESo.Props.C02_reverse_is_opposite",
    "QuESo.Props.C02_global_partition"
   ],
   "note": ""
  },
  {
   "property": "C03",
   "status": "proved",
   "theorems": [
    "QuESo.Props.C03_walk_visits_all_once",
    "QuESo.Props.C03_walk_in_grid",
    "QuESo.Props.C03_global_end_iff_last"
   ],
   "note": ""
  },
  {
   "property": "C04",
   "status": "proved",
   "theorems": [
    "QuESo.Props.C04_isEnd_iff",
    "QuESo.Props.C04_directions_complete"
   ],
   "note": ""
  },
  {
   "property": "C05",
   "status": "proved",
   "theorems": [
    "QuESo.Props.C05_cover",
    "QuESo.Props.C05_inside",
    "QuESo.Props.C05_disjoint",
    "QuESo.Props.C05_shared_face",
    "QuESo.Props.C05_volume_sum",
    "QuESo.Props.C05_uvw",
    "QuESo.Props.C05_needs_ordered_bounds"
   ],
   "note": ""
  },
  {
   "property": "C06",
   "status": "proved",
   "theorems": [
    "QuESo.Props.C06_lookup",
    "QuESo.Props.C06_views",
    "QuESo.Props.C06_counts",
    "QuESo.Props.C06_make_result"
   ],
   "note": ""
  },
  {
   "property": "C07",
   "status": "proved",
   "theorems": [
    "QuESo.Props.C07_order_independent"
   ],
   "note": ""
  },
  {
   "property": "C08",
   "status": "proved",
   "theorems": [
    "QuESo.Props.C08_next_element",
    "QuESo.Props.C08_isEnd"
   ],
   "note": ""
  },
  {
   "property": "C09",
   "status": "partial",
   "theorems": [
    "QuESo.Props.C09_false_of_code",
    "QuESo.Props.C09_adjacent_partial"
   ],
   "note": "False of the code at the end of a grid row: the lookup hands out the (wrapped) first element of the next row. C09_false_of_code proves the negation with a concrete witness; C09_adjacent_partial proves the property whenever the adjacent cell exists in the grid."
  },
  {
   "property": "C10",
   "status": "proved",
   "theorems": [
    "QuESo.Props.C10_partitions_tile"
   ],
   "note": ""
  },
  {
   "property": "C11",
   "status": "proved",
   "theorems": [
    "QuESo.Props.C11_trimmed_iff"
   ],
   "note": ""
  },
  {
   "property": "C12",
   "status": "proved",
   "theorems": [
    "QuESo.Props.C12_groups"
   ],
   "note": ""
  },
  {
   "property": "C13",
   "status": "partial",
   "theorems": [
    "QuESo.Props.C13_schedule_independent",
    "QuESo.Props.C13_threads_independent_partial",
    "QuESo.Props.C13_exact_geometry",
    "QuESo.Props.C13_false_of_code",
    "QuESo.Par.C13_reused_marks",
    "QuESo.Par.C13_interleavings"
   ],
   "note": "Schedule independence is unconditional, also for arbitrary interleavings of the steps of the threads (C13_interleavings, C13_reused_marks); thread count independence holds if the geometry answers alike from both sides of a face, which is proved for every exact box test (C13_exact_geometry); C13_false_of_code shows it fails otherwise."
  },
  {
   "property": "C14",
   "status": "proved",
   "theorems": [
    "QuESo.Props.C14_connected_same_state"
   ],
   "note": ""
  },
  {
   "property": "C15",
   "status": "proved",
   "theorems": [
    "QuESo.Props.C15_blocks_partition",
    "QuESo.Props.C15_fuel_irrelevant"
   ],
   "note": ""
  },
  {
   "property": "C16",
   "status": "partial",
   "theorems": [
    "QuESo.Props.C16_false_of_code",
    "QuESo.Props.C16_cuboids_partial",
    "QuESo.Props.C16_interior_partial"
   ],
   "note": "False of the code: on a 2x2x1 grid the box growth uses wrapped neighbours and records a 3x1x1 box (C16_false_of_code). Proved for every grid in which the neighbour lookup hands out no wrapped element (C16_cuboids_partial), in particular when no untrimmed element lies in the outermost layer (C16_interior_partial)."
  },
  {
   "property": "C17",
   "status": "partial",
   "theorems": [
    "QuESo.Props.C17_block_weights",
    "QuESo.Props.C17_point_given_once",
    "QuESo.Props.C17_points_inside",
    "QuESo.Props.C17_assembly_partial",
    "QuESo.Props.C17_false_of_code",
    "QuESo.Props.C17_endpoint_lost"
   ],
   "note": "Proved for every block of cells and every rule whose points keep eps3 away from the upper end (C17_block_weights, C17_point_given_once, C17_points_inside) and for the whole assembly without wrapped neighbours (C17_assembly_partial). False of the code with wrapped neighbours (C17_false_of_code) and for rules with a point at the upper end (C17_endpoint_lost)."
  },
  {
   "property": "C18",
   "status": "proved",
   "theorems": [
    "QuESo.Props.C18_linear_function",
    "QuESo.Props.C18_coefficients_positive",
    "QuESo.Props.C18_single_row_unchanged",
    "QuESo.Props.C18_not_shift_invariant",
    "QuESo.Props.C18_linear_function_rounded",
    "QuESo.Props.C18_linear_function_binary64"
   ],
   "note": ""
  },
  {
   "property": "C19",
   "status": "proved",
   "theorems": [
    "QuESo.Octree.C19_tiles",
    "QuESo.Octree.C19_points",
    "QuESo.Octree.C19_number_of_leafs"
   ],
   "note": ""
  },
  {
   "property": "C20",
   "status": "proved",
   "theorems": [
    "QuESo.Octree.C20_rejected_iff",
    "QuESo.Octree.C20_levels",
    "QuESo.Octree.C20_size_and_status",
    "QuESo.Octree.C20_history"
   ],
   "note": ""
  },
  {
   "property": "C21",
   "status": "proved",
   "theorems": [
    "QuESo.Octree.C21_inside",
    "QuESo.Octree.C21_weights_le",
    "QuESo.Octree.C21_exact"
   ],
   "note": ""
  },
  {
   "property": "C22",
   "status": "partial",
   "theorems": [
    "QuESo.C22_capacity_partial",
    "QuESo.C22_triangulation_never_fails"
   ],
   "note": "Proved in exact arithmetic. With the rounding of double precision the capacity is exceeded for some triangles and the error is thrown (C115_capacity_false_of_code); for triangles of size up to 150 it is not (C115_capacity_binary64_partial)."
  },
  {
   "property": "C23",
   "status": "partial",
   "theorems": [
    "QuESo.C23_in_triangle",
    "QuESo.C23_in_box_partial",
    "QuESo.C23_null",
    "QuESo.C23_inside_unchanged",
    "QuESo.C23_nothing_lost",
    "QuESo.C23_nothing_lost_real",
    "QuESo.C23_false_of_code"
   ],
   "note": "in-box part holds under the condition that the bounding boxes overlap (which the callers' triangle-box test implies); C23_false_of_code: a triangle outside the box is returned unchanged although the comment promises a null pointer; the stored normal is copied by addToMesh (C25_area)"
  },
  {
   "property": "C24",
   "status": "proved",
   "theorems": [
    "QuESo.C24_flags",
    "QuESo.C24_not_all_flagged",
    "QuESo.C24_new_vertices_flagged",
    "QuESo.C24_cut_edge"
   ],
   "note": ""
  },
  {
   "property": "C25",
   "status": "proved",
   "theorems": [
    "QuESo.C25_triangles",
    "QuESo.C25_area",
    "QuESo.C25_partition",
    "QuESo.C25_edges"
   ],
   "note": ""
  },
  {
   "property": "C26",
   "status": "proved",
   "theorems": [
    "QuESo.AABBTree.C26_box_query",
    "QuESo.AABBTree.C26_ray_query",
    "QuESo.AABBTree.C26_structure",
    "QuESo.AABBTree.C26_bad_box_error",
    "QuESo.AABBTree.C26_empty_query_ub",
    "QuESo.AABBTree.C26_capacity_wraps"
   ],
   "note": ""
  },
  {
   "property": "C27",
   "status": "proved",
   "theorems": [
    "QuESo.C27_constructor",
    "QuESo.C27_common_point",
    "QuESo.C27_symmetric",
    "QuESo.C27_merge"
   ],
   "note": ""
  },
  {
   "property": "C28",
   "status": "proved",
   "theorems": [
    "QuESo.C28_exact",
    "QuESo.C28_never_misses",
    "QuESo.C28_zero_component_not_exact"
   ],
   "note": ""
  },
  {
   "property": "C29",
   "status": "proved",
   "theorems": [
    "QuESo.C29_hit",
    "QuESo.C29_complete",
    "QuESo.C29_parallel",
    "QuESo.C29_parallel_writes_nothing"
   ],
   "note": ""
  },
  {
   "property": "C30",
   "status": "proved",
   "theorems": [
    "QuESo.C30_never_misses",
    "QuESo.C30_exact"
   ],
   "note": ""
  },
  {
   "property": "C31",
   "status": "partial",
   "theorems": [
    "QuESo.Trimmed.C31_elimination_partial",
    "QuESo.Trimmed.C31_rule_partial",
    "QuESo.Trimmed.C31_target",
    "QuESo.Trimmed.C31_false_of_code",
    "QuESo.Trimmed.C31_false_for_zero_target"
   ],
   "note": "Proved for every solver if there are at least as many candidates as functions and the target is above the smallest positive number. False otherwise (C31_false_of_code: undefined behaviour; C31_false_for_zero_target: nothing is fitted but a tiny residual reported)."
  },
  {
   "property": "C32",
   "status": "partial",
   "theorems": [
    "QuESo.Trimmed.C32_attempts_partial",
    "QuESo.Trimmed.C32_limit_partial",
    "QuESo.Trimmed.C32_inside_partial",
    "QuESo.Trimmed.C32_false_of_code",
    "QuESo.Trimmed.C32_false_with_fictitious"
   ],
   "note": "Proved without fictitious domain, except for undefined behaviour when five refinements give fewer candidates than functions (C32_false_of_code). With a fictitious domain false: elements whose rule was discarded keep only points outside of the domain (C32_false_with_fictitious)."
  },
  {
   "property": "C33",
   "status": "proved",
   "theorems": [
    "QuESo.Poly.C33_recurrence",
    "QuESo.Poly.C33_above_eight",
    "QuESo.Poly.C33_bound",
    "QuESo.Poly.C33_antiderivative",
    "QuESo.Poly.C33_integral",
    "QuESo.Poly.C33_orthogonal"
   ],
   "note": ""
  },
  {
   "property": "C34",
   "status": "proved",
   "theorems": [
    "QuESo.Mapping.C34_inverse",
    "QuESo.Mapping.C34_box_to_box",
    "QuESo.Mapping.C34_integration_points"
   ],
   "note": ""
  },
  {
   "property": "C35",
   "status": "proved",
   "theorems": [
    "QuESo.MeshUtil.C35_append"
   ],
   "note": ""
  },
  {
   "property": "C36",
   "status": "proved",
   "theorems": [
    "QuESo.MeshUtil.C36_refine",
    "QuESo.MeshUtil.C36_keeps",
    "QuESo.MeshUtil.C36_closed",
    "QuESo.MeshUtil.C36_hanging_nodes"
   ],
   "note": ""
  },
  {
   "property": "C37",
   "status": "proved",
   "theorems": [
    "QuESo.MeshUtil.C37_box"
   ],
   "note": ""
  },
  {
   "property": "C38",
   "status": "proved",
   "theorems": [
    "QuESo.Props.C38_concatenation",
    "QuESo.Props.C38_every_moment"
   ],
   "note": ""
  },
  {
   "property": "C39",
   "status": "proved",
   "theorems": [
    "QuESo.Props.C39_byte_order",
    "QuESo.Props.C39_swap",
    "QuESo.Props.C39_decode"
   ],
   "note": ""
  },
  {
   "property": "C40",
   "status": "partial",
   "theorems": [
    "QuESo.Props.C40_file_size",
    "QuESo.Props.C40_any_lookup",
    "QuESo.Props.C40_round_trip_partial",
    "QuESo.Props.C40_false_big_endian",
    "QuESo.Props.C40_false_close_corners"
   ],
   "note": "Little-endian hosts and corners whose rounded coordinates are equal or further apart than the tolerance (C40_round_trip_partial); counts and indices for any map answer (C40_any_lookup); false on big-endian hosts (C40_false_big_endian) and for corners closer than the tolerance (C40_false_close_corners)."
  },
  {
   "property": "C41",
   "status": "proved",
   "theorems": [
    "QuESo.Props.C41_last_value",
    "QuESo.Props.C41_refused_iff"
   ],
   "note": ""
  },
  {
   "property": "C42",
   "status": "proved",
   "theorems": [
    "QuESo.Props.C42_integer"
   ],
   "note": ""
  },
  {
   "property": "C43",
   "status": "proved",
   "theorems": [
    "QuESo.Props.C43_check_complete",
    "QuESo.Props.C43_data_set"
   ],
   "note": ""
  },
  {
   "property": "C44",
   "status": "proved",
   "theorems": [
    "QuESo.Rules.C44_ggq",
    "QuESo.Rules.C44_gauss",
    "QuESo.Rules.C44_upper_bound_not_checked",
    "QuESo.Rules.C44_zero_spans"
   ],
   "note": "Never below the first entry, GGQ inside the tables (and for all numbers of spans >= 1). Also shown: the check accepts Gauss orders >= 10, which read behind the table, and zero knot spans read before a table."
  },
  {
   "property": "C45",
   "status": "partial",
   "theorems": [
    "QuESo.Props.C45_count",
    "QuESo.Props.C45_names_partial",
    "QuESo.Props.C45_lookup_inverse",
    "QuESo.Props.C45_false_of_code"
   ],
   "note": "Counting and inverse lookup hold for all texts and key sets; the exact-name part holds when blanks occur only in front of names (C45_names_partial); a blank after a name loses the name (C45_false_of_code)."
  },
  {
   "property": "C46",
   "status": "proved",
   "theorems": [
    "QuESo.Plane.C46_collect",
    "QuESo.Plane.C46_indices_stay_valid",
    "QuESo.Plane.C46_merged",
    "QuESo.Plane.C46_same_point_twice"
   ],
   "note": "Valid indices through the whole run and reproduction within the tolerance for every list of edges; unique merging for clustered ends (C46_merged). C46_same_point_twice: without clustering the same point can be stored twice because the comparison with tolerance is not an order."
  },
  {
   "property": "C47",
   "status": "partial",
   "theorems": [
    "QuESo.Props.C47_strict_weak_partial",
    "QuESo.Props.C47_asymmetric",
    "QuESo.Props.C47_false_of_code"
   ],
   "note": "Strict weak order on separated points; false for arbitrary points for every tolerance (C47_false_of_code)."
  },
  {
   "property": "C48",
   "status": "proved",
   "theorems": [
    "QuESo.BRep.C48_majority",
    "QuESo.BRep.C48_always_answers",
    "QuESo.BRep.C48_parity",
    "QuESo.BRep.C48_state"
   ],
   "note": ""
  },
  {
   "property": "C49",
   "status": "proved",
   "theorems": [
    "QuESo.Props.C49_counts",
    "QuESo.Props.C49_condition"
   ],
   "note": ""
  },
  {
   "property": "C50",
   "status": "proved",
   "theorems": [
    "QuESo.Octree.C50_points",
    "QuESo.Octree.C50_constants",
    "QuESo.Octree.C50_exact"
   ],
   "note": ""
  },
  {
   "property": "C51",
   "status": "partial",
   "theorems": [
    "QuESo.Props.C51_majority_partial",
    "QuESo.Props.C51_false_of_code"
   ],
   "note": "The code ignores the end-of-grid flag in MergeGroups and lets cells at the domain end vote against a wrapped cell: C51_false_of_code. Proved when no boundary is reported at the end layers."
  },
  {
   "property": "C52",
   "status": "proved",
   "theorems": [
    "QuESo.Props.C52_any_lookup",
    "QuESo.Props.C52_round_trip",
    "QuESo.Props.C52_name_with_facet",
    "QuESo.Props.C52_six_decimals"
   ],
   "note": ""
  },
  {
   "property": "C53",
   "status": "proved",
   "theorems": [
    "QuESo.CellDomain.C53_point",
    "QuESo.CellDomain.C53_box"
   ],
   "note": ""
  },
  {
   "property": "C54",
   "status": "partial",
   "theorems": [
    "QuESo.Mapping.C54_area_vector",
    "QuESo.Mapping.C54_boundary_points",
    "QuESo.Mapping.C54_boundary_round_trip_partial",
    "QuESo.Mapping.C54_false_of_code"
   ],
   "note": "Area vectors transform correctly and points survive the round trip whenever the scaled lengths exceed the zero tolerance; false otherwise: the normal is replaced by zero (C54_false_of_code)."
  },
  {
   "property": "C55",
   "status": "proved",
   "theorems": [
    "QuESo.GQ.C55_triangle_ids",
    "QuESo.GQ.C55_do_intersect",
    "QuESo.GQ.C55_inverted_box_error",
    "QuESo.GQ.C55_empty_mesh_ub"
   ],
   "note": ""
  },
  {
   "property": "C56",
   "status": "partial",
   "theorems": [
    "QuESo.GQ.C56_bounding_box",
    "QuESo.GQ.C56_closed_parity_partial",
    "QuESo.GQ.C56_open_nearest_partial",
    "QuESo.GQ.C56_closed_edge",
    "QuESo.GQ.C56_closed_surface",
    "QuESo.GQ.C56_open_edge",
    "QuESo.GQ.C56_open_surface",
    "QuESo.GQ.C56_false_of_code"
   ],
   "note": "Proved for rays that clearly hit or clearly miss every triangle (closed surfaces: no triangle parallel to the ray). False of the code otherwise: C56_false_of_code shows that the closed query reads uninitialised variables for a triangle parallel to the ray."
  },
  {
   "property": "C57",
   "status": "partial",
   "theorems": [
    "QuESo.BRep.C57_clip_partial",
    "QuESo.BRep.C57_clip_unique_partial"
   ],
   "note": "Proved in exact arithmetic. With the rounding of double precision clipping a triangle may throw the capacity error (C115_capacity_false_of_code)."
  },
  {
   "property": "C58",
   "status": "proved",
   "theorems": [
    "QuESo.BRep.C58_choice",
    "QuESo.BRep.C58_error_passed_on"
   ],
   "note": ""
  },
  {
   "property": "C59",
   "status": "proved",
   "theorems": [
    "QuESo.BRep.C59_bounding_box",
    "QuESo.BRep.C59_inside",
    "QuESo.BRep.C59_inside_empty",
    "QuESo.BRep.C59_orientation",
    "QuESo.BRep.C59_state",
    "QuESo.BRep.C59_bounded_side"
   ],
   "note": ""
  },
  {
   "property": "C60",
   "status": "proved",
   "theorems": [
    "QuESo.Trimmed.C60_residual",
    "QuESo.Trimmed.C60_assembled",
    "QuESo.Trimmed.C60_accuracy",
    "QuESo.TrimmedRule.C60_solver",
    "QuESo.TrimmedRule.C60_solver_solid",
    "QuESo.TrimmedRule.C60_solid",
    "QuESo.TrimmedRule.C60_volume"
   ],
   "note": "C60_residual, C60_assembled, C60_accuracy, C60_solid and C60_volume hold for every solver that reports its residual; C60_solver and C60_solver_solid are about the solver of the code, with the case that it reaches its iteration limit."
  },
  {
   "property": "C61",
   "status": "proved",
   "theorems": [
    "QuESo.Trimmed.C61_entries",
    "QuESo.Trimmed.C61_divergence",
    "QuESo.TriRule.C61_closed_surface",
    "QuESo.TriRule.C61_box",
    "QuESo.TriRule.C61_moments"
   ],
   "note": ""
  },
  {
   "property": "C62",
   "status": "proved",
   "theorems": [
    "QuESo.Trimmed.C62_appended",
    "QuESo.Trimmed.C62_fictitious",
    "QuESo.Trimmed.C62_weights"
   ],
   "note": ""
  },
  {
   "property": "C63",
   "status": "proved",
   "theorems": [
    "QuESo.MeshUtil.C63_area",
    "QuESo.MeshUtil.C63_volume",
    "QuESo.MeshUtil.C63_direction",
    "QuESo.MeshUtil.C63_translation",
    "QuESo.MeshUtil.C63_parallel",
    "QuESo.MeshUtil.C63_parallel_false_of_code",
    "QuESo.MeshUtil.C63_quality",
    "QuESo.MeshUtil.C63_bounding_box",
    "QuESo.MeshUtil.C63_aspect_ratio"
   ],
   "note": ""
  },
  {
   "property": "C64",
   "status": "proved",
   "theorems": [
    "QuESo.MeshUtil.C64_normal",
    "QuESo.MeshUtil.C64_unit_normals",
    "QuESo.MeshUtil.C64_small_false_of_code"
   ],
   "note": ""
  },
  {
   "property": "C65",
   "status": "proved",
   "theorems": [
    "QuESo.MeshUtil.C65_remove"
   ],
   "note": ""
  },
  {
   "property": "C66",
   "status": "proved",
   "theorems": [
    "QuESo.Rules.C66_optimal",
    "QuESo.Rules.C66_reduced1",
    "QuESo.Rules.C66_reduced2"
   ],
   "note": "Kernel-checked certificates for the tables; the rules for arbitrarily many spans by induction over repetitions of the internal rule. Decimals of the tables, exact arithmetic; error bound 10^-12 of the largest value."
  },
  {
   "property": "C67",
   "status": "proved",
   "theorems": [
    "QuESo.Rules.C67_one_dimension",
    "QuESo.Rules.C67_element"
   ],
   "note": "Table rows 0-9; element rule over rational boxes."
  },
  {
   "property": "C68",
   "status": "partial",
   "theorems": [
    "QuESo.Props.C68_elements_partial",
    "QuESo.Props.C68_false_of_code"
   ],
   "note": "Proved for all grids with fewer than 2^31 cells and all schedules; false for larger grids (the loop counter is a 32 bit int: C68_false_of_code)."
  },
  {
   "property": "C69",
   "status": "proved",
   "theorems": [
    "QuESo.Props.C69_represented_volume",
    "QuESo.Props.C69_full_cell",
    "QuESo.Props.C69_all_full"
   ],
   "note": ""
  },
  {
   "property": "C70",
   "status": "partial",
   "theorems": [
    "QuESo.Props.C70_locked",
    "QuESo.Props.C70_release",
    "QuESo.Props.C70_false_of_code"
   ],
   "note": "In builds with assertions the second computation fails; in release builds it fails if a cell gets an element twice, but with generalised rules and different cells the points of the first computation are doubled (C70_false_of_code)."
  },
  {
   "property": "C71",
   "status": "proved",
   "theorems": [
    "QuESo.Props.C71_warning"
   ],
   "note": ""
  },
  {
   "property": "C72",
   "status": "partial",
   "theorems": [
    "QuESo.Plane.C72_general",
    "QuESo.Plane.C72_safe_partial",
    "QuESo.Plane.C72_false_of_code"
   ],
   "note": "C72_safe_partial: edges within the face if one of them does not face upwards or there are at most two; C72_general: all edges in general position. C72_false_of_code: four upward edges that end five tolerances below the upper side need more vertices than are reserved; the set then holds iterators into moved memory."
  },
  {
   "property": "C73",
   "status": "proved",
   "theorems": [
    "QuESo.Plane.C73_cap",
    "QuESo.Plane.C73_untouched",
    "QuESo.Plane.C73_graph",
    "QuESo.Plane.C73_section",
    "QuESo.Plane.C73_rim"
   ],
   "note": "General cap: plane, normal, area vector of each strip, outward triangles for strips that are not turned over. Exact area for untouched faces, for graph contours, and (C73_section) for every contour in general position with edges that face down: the closed contour bounds a region of the face, and the cap has exactly its area with all triangles outward. Sections whose edges come closer than the tolerances are covered by C73_cap only."
  },
  {
   "property": "C74",
   "status": "proved",
   "theorems": [
    "QuESo.Plane.C74_visible",
    "QuESo.Plane.C74_cut"
   ],
   "note": "C74_cut: the pieces of each edge make it up; C74_visible: it is cut exactly at the vertices from which it is seen"
  },
  {
   "property": "C75",
   "status": "proved",
   "theorems": [
    "QuESo.Plane.C75_partner"
   ],
   "note": ""
  },
  {
   "property": "C76",
   "status": "proved",
   "theorems": [
    "QuESo.TriRule.C76_exact",
    "QuESo.TriRule.C76_points",
    "QuESo.TriRule.C76_unknown",
    "QuESo.TriRule.C76_degree_seven_false_of_code"
   ],
   "note": "Exactness per rule over every triangle and polynomial; degree 7 refuted for the 12 point rule."
  },
  {
   "property": "C77",
   "status": "partial",
   "theorems": [
    "QuESo.Domain.C77_closed",
    "QuESo.Domain.C77_surface",
    "QuESo.Domain.C77_safe_partial",
    "QuESo.Domain.C77_attempt",
    "QuESo.Domain.C77_domain",
    "QuESo.Domain.C77_general",
    "QuESo.Domain.C77_regions"
   ],
   "note": "C77_safe_partial, C77_general: that building never fails is proved for edges in general position, and else unless three or more edges of a face all face upwards, where the code may read freed memory (C72); the contents are proved in full; C77_regions: volume and area vector if the edges bound regions"
  },
  {
   "property": "C78",
   "status": "proved",
   "theorems": [
    "QuESo.Plane.C78_upper_side",
    "QuESo.Plane.C78_area",
    "QuESo.Plane.C78_three_false_of_code"
   ],
   "note": "General position is a hypothesis (Params.General); C78_three_false_of_code shows what goes wrong if edges of all three orientations meet in one point of the upper side, which is in general position otherwise."
  },
  {
   "property": "C79",
   "status": "proved",
   "theorems": [
    "QuESo.Json.C79_valid_json",
    "QuESo.Json.C79_settings",
    "QuESo.Json.C79_false_of_code"
   ],
   "note": "C79_valid_json for all dictionaries whose texts a JSON reader understands; texts are not escaped (C79_false_of_code)."
  },
  {
   "property": "C80",
   "status": "partial",
   "theorems": [
    "QuESo.Json.C80_round_trip_partial",
    "QuESo.Json.C80_values",
    "QuESo.Json.C80_precision",
    "QuESo.Json.C80_short",
    "QuESo.Json.C80_exact",
    "QuESo.Json.C80_stable",
    "QuESo.Json.C80_second",
    "QuESo.Json.C80_false_no_conditions",
    "QuESo.Json.C80_false_negative",
    "QuESo.Json.C80_false_backslash",
    "QuESo.Json.C80_false_not_set"
   ],
   "note": "Round trip proved for all call histories under Readable: at least one condition, no negative whole numbers, no text \"Not Set.\"; each condition is needed (C80_false_*)."
  },
  {
   "property": "C81",
   "status": "proved",
   "theorems": [
    "QuESo.Json.C81_defaults",
    "QuESo.Json.C81_check"
   ],
   "note": ""
  },
  {
   "property": "C82",
   "status": "proved",
   "theorems": [
    "QuESo.Json.C82_accepted",
    "QuESo.Json.C82_values"
   ],
   "note": ""
  },
  {
   "property": "C83",
   "status": "proved",
   "theorems": [
    "QuESo.Props.C83_mesh",
    "QuESo.Props.C83_elements",
    "QuESo.Props.C83_points",
    "QuESo.Props.C83_weights",
    "QuESo.Props.C83_false_large"
   ],
   "note": "the statement is limited to 2^31 point indices: C83_false_large shows what happens beyond. Bit patterns of numbers are parameters; fixed notation is modelled exactly over the rationals."
  },
  {
   "property": "C84",
   "status": "proved",
   "theorems": [
    "QuESo.Props.C84_stl",
    "QuESo.Props.C84_files",
    "QuESo.Props.C84_false_equal_ids"
   ],
   "note": "the statement requires different condition ids: C84_false_equal_ids shows that files are overwritten otherwise. The file system is a list of named files; writing never fails."
  },
  {
   "property": "C85",
   "status": "proved",
   "theorems": [
    "QuESo.NNLS.C85_solution",
    "QuESo.NNLS.C85_dimensions",
    "QuESo.NNLS.C85_unique",
    "QuESo.NNLS.C85_exact",
    "QuESo.NNLS.C85_one_row"
   ],
   "note": "exact arithmetic with an exact square root. Whether the limit of 5 n iterations can be reached in exact arithmetic is not decided (C85_one_row: never with one equation); then the returned value may be smaller than the residual."
  },
  {
   "property": "C86",
   "status": "proved",
   "theorems": [
    "QuESo.BSpline.C86_knots",
    "QuESo.BSpline.C86_curve",
    "QuESo.BSpline.C86_exceptions",
    "QuESo.BSpline.C86_volume",
    "QuESo.BSpline.C86_cells",
    "QuESo.BSpline.C86_kind"
   ],
   "note": ""
  },
  {
   "property": "C87",
   "status": "proved",
   "theorems": [
    "QuESo.BSpline.C87_same",
    "QuESo.BSpline.C87_round_trip"
   ],
   "note": ""
  },
  {
   "property": "C88",
   "status": "partial",
   "theorems": [
    "QuESo.BSpline.C88_points_partial",
    "QuESo.BSpline.C88_false_of_code"
   ],
   "note": "False of the code as soon as a trimmed element has a point (C88_false_of_code: Weight() is not exported by the bindings); proved if trimmed elements have no points (C88_points_partial)."
  },
  {
   "property": "C89",
   "status": "partial",
   "theorems": [
    "QuESo.Kratos.C89_surface_load",
    "QuESo.Kratos.C89_zero_direction_false_of_code"
   ],
   "note": "For a direction of length zero false of the code (C89_zero_direction_false_of_code): the exception is not raised. Everything else is proved."
  },
  {
   "property": "C90",
   "status": "proved",
   "theorems": [
    "QuESo.Kratos.C90_pressure"
   ],
   "note": ""
  },
  {
   "property": "C91",
   "status": "partial",
   "theorems": [
    "QuESo.Kratos.C91_penalty_support",
    "QuESo.Kratos.C91_lagrange_support",
    "QuESo.Kratos.C91_factor_partial",
    "QuESo.Kratos.C91_factor_false_of_code"
   ],
   "note": "Which triangles get conditions is proved. That each penalty support uses its own factor is false of the code (C91_factor_false_of_code); C91_factor_partial: the factor of the last support is used by all, so equal factors are used as given."
  },
  {
   "property": "C92",
   "status": "partial",
   "theorems": [
    "QuESo.Kratos.C92_dirichlet",
    "QuESo.Kratos.C92_neumann",
    "QuESo.Kratos.C92_total_partial",
    "QuESo.Kratos.C92_overlap_false_of_code"
   ],
   "note": "That forces add up is false of the code if two boxes contain the same node (C92_overlap_false_of_code); C92_total_partial proves it otherwise. Dirichlet and single Neumann conditions are proved."
  },
  {
   "property": "C93",
   "status": "partial",
   "theorems": [
    "QuESo.Kratos.C93_mesh_to_model",
    "QuESo.Kratos.C93_model_to_mesh",
    "QuESo.Kratos.C93_round_trip",
    "QuESo.Kratos.C93_append_false_of_code"
   ],
   "note": "Proved for empty targets; reading into a mesh that is not empty is false of the code (C93_append_false_of_code)."
  },
  {
   "property": "C94",
   "status": "proved",
   "theorems": [
    "QuESo.Kratos.C94_elements",
    "QuESo.Kratos.C94_occupied"
   ],
   "note": ""
  },
  {
   "property": "C95",
   "status": "proved",
   "theorems": [
    "QuESo.Kratos.C95_conditions",
    "QuESo.Kratos.C95_order",
    "QuESo.Kratos.C95_unknown",
    "QuESo.Kratos.C95_model"
   ],
   "note": ""
  },
  {
   "property": "C96",
   "status": "partial",
   "theorems": [
    "QuESo.MView.C96_contents",
    "QuESo.MView.C96_view",
    "QuESo.MView.C96_later_partial",
    "QuESo.MView.C96_reserve",
    "QuESo.MView.C96_later_false_of_code",
    "QuESo.MView.C96_each",
    "QuESo.MView.C96_foreign",
    "QuESo.MView.C96_foreign_later_false_of_code"
   ],
   "note": "Views of unchanged meshes, callbacks and views on other mesh types are proved. After changes of the mesh the property is false of the code for single triangles with normals; proved within reserved memory."
  },
  {
   "property": "C97",
   "status": "partial",
   "theorems": [
    "QuESo.MView.C97_triangle_object_partial",
    "QuESo.MView.C97_triangle_object_false_of_code",
    "QuESo.MView.C97_append_self_partial",
    "QuESo.MView.C97_append_self_false_of_code"
   ],
   "note": "False of the code without reserved memory; proved within reserved memory."
  },
  {
   "property": "C98",
   "status": "partial",
   "theorems": [
    "QuESo.MView.C98_add_triangle_partial",
    "QuESo.MView.C98_add_triangle_false_of_code",
    "QuESo.MView.C98_iterate",
    "QuESo.MView.C98_iterate_growing",
    "QuESo.MView.C98_point_item",
    "QuESo.MView.C98_segment_item_partial",
    "QuESo.MView.C98_segment_item_false_of_code"
   ],
   "note": "Valid indices and iteration are proved; indices out of range are undefined behaviour (false of the code)."
  },
  {
   "property": "C99",
   "status": "partial",
   "theorems": [
    "QuESo.Py.C99_directory",
    "QuESo.Py.C99_scope",
    "QuESo.Py.C99_directory_false_of_code",
    "QuESo.Py.C99_output_partial",
    "QuESo.Py.C99_output_false_of_code"
   ],
   "note": "Plain names are proved; false of the code for empty names, '.', '..' and absolute names."
  },
  {
   "property": "C100",
   "status": "partial",
   "theorems": [
    "QuESo.Py.C100_run_partial",
    "QuESo.Py.C100_run_false_of_code"
   ],
   "note": "Proved for settings that pass the check; false of the code for settings that do not."
  },
  {
   "property": "C101",
   "status": "partial",
   "theorems": [
    "QuESo.BRep.C101_closed_partial",
    "QuESo.BRep.C101_closed_unique_partial",
    "QuESo.BRep.C101_false_of_code"
   ],
   "note": "Proved if the box decides clearly about every triangle (some point of it is deeper in the box than a tenth of the snap tolerance, or no point of it is in the box up to the tolerance). Without that the property is false of the code (C101_false_of_code)."
  },
  {
   "property": "C102",
   "status": "partial",
   "theorems": [
    "QuESo.Info.C102_runs",
    "QuESo.Info.C102_report",
    "QuESo.Info.C102_types",
    "QuESo.Info.C102_conditions",
    "QuESo.Info.C102_count",
    "QuESo.Info.C102_complete",
    "QuESo.Info.C102_file",
    "QuESo.Info.C102_total_partial",
    "QuESo.Info.C102_false_of_code"
   ],
   "note": "Everything but the sum of the parts is proved for all sequences of calls; the total time is the sum of its parts only with at most one volume computation and one writing (C102_false_of_code: two writings)."
  },
  {
   "property": "C103",
   "status": "partial",
   "theorems": [
    "QuESo.Domain.C103_sealed",
    "QuESo.Domain.C103_closed_partial"
   ],
   "note": "C103_sealed: closed if the clipped surface is closed except along the recorded edges. C103_closed_partial derives this from a closed input surface if every triangle has a point well inside the cell or none near it (Decided); missing: triangles that only touch a face of the cell. The hypotheses on the contours are in the statement and spelled out in Spec/TrimmedSection.lean; the example is a closed tetrahedron that a cell cuts."
  },
  {
   "property": "C104",
   "status": "partial",
   "theorems": [
    "QuESo.DList.C104_expression",
    "QuESo.DList.C104_indices",
    "QuESo.DList.C104_loop_partial",
    "QuESo.DList.C104_append_false_of_code",
    "QuESo.DList.C104_index_false_of_code",
    "QuESo.DList.C104_history",
    "QuESo.DList.C104_reference",
    "QuESo.DList.C104_released"
   ],
   "note": "Loops whose body appends and indices out of range are undefined behaviour (C104_append_false_of_code, C104_index_false_of_code); everything else is proved."
  },
  {
   "property": "C105",
   "status": "partial",
   "theorems": [
    "QuESo.BRep.C105_unique_partial",
    "QuESo.BRep.C105_clip_partial",
    "QuESo.BRep.C105_condition_partial",
    "QuESo.BRep.C105_lower_face_lost",
    "QuESo.BRep.C105_false_of_code"
   ],
   "note": "Proved for surfaces inside the grid whose parts have corners exactly on a (moved) plane or farther away than ten zero tolerances, and not lying in a plane: clipping by all cells never fails and the pieces make up the surface, under every schedule; areas and volume contributions add up; the reported percentage. Without this it is false of the code: a surface in a lower face of the grid is lost (C105_lower_face_lost, C105_false_of_code)."
  },
  {
   "property": "C106",
   "status": "partial",
   "theorems": [
    "QuESo.Domain.C106_volume_partial"
   ],
   "note": "Proved for surfaces clear of the planes of the grid whose recorded edges bound the sections with the faces (the hypotheses of C77 and C105); missing: surfaces with corners of their parts within the tolerance of a plane and contours not in general position, for which C72 and C105 show that the code can fail or lose parts. Example: a pyramid cut by two cells."
  },
  {
   "property": "C107",
   "status": "partial",
   "theorems": [
    "QuESo.Domain.C107_empty",
    "QuESo.Domain.C107_domain_partial",
    "QuESo.Domain.C107_solid_partial",
    "QuESo.Domain.C107_represented_partial"
   ],
   "note": "C107_empty holds without restriction. C107_domain_partial, C107_solid_partial, C107_represented_partial need the hypotheses of C103 and C106 (surface clear of the planes, every cell decides clearly about every triangle, recorded edges bound the sections), unit normals, and volumes of the parts that are not negative; how well the points of a cell stand for its volume is a hypothesis (C60_volume gives it for trimmed cells). Missing: surfaces not in general position. Example: the pyramid in two cells."
  },
  {
   "property": "C108",
   "status": "partial",
   "theorems": [
    "QuESo.Life.C108_owners_partial",
    "QuESo.Life.C108_tidy_partial",
    "QuESo.Life.C108_elements_false_of_code",
    "QuESo.Life.C108_triangles_false_of_code",
    "QuESo.Life.C108_segments_false_of_code",
    "QuESo.Life.C108_settings_false_of_code",
    "QuESo.Life.C108_refused_false_of_code",
    "QuESo.Life.C108_grid_false_of_code"
   ],
   "note": "False of the code: elements, triangles and segments taken in a loop do not keep the memory they use, references to settings dangle after the hand-over, BackgroundGrid.GetElements always raises (negations with programs). Proved for all programs that hold on to the objects that own memory, and for all programs that do without these calls and hand over settings without other references to them."
  },
  {
   "property": "C109",
   "status": "partial",
   "theorems": [
    "QuESo.Par.C109_same_fill",
    "QuESo.Par.C109_same_merge",
    "QuESo.Par.C109_fill_partial",
    "QuESo.Par.C109_merge_partial",
    "QuESo.Par.C109_volume_partial",
    "QuESo.Par.C109_condition_partial",
    "QuESo.Par.C109_sums_partial",
    "QuESo.Par.C109_false_of_code"
   ],
   "note": "Proved for the fill of the partitions, the merge of the groups, making elements, making conditions and the sums. False for the parallel region that asks for the number of threads (C109_false_of_code): every thread writes the shared variable."
  },
  {
   "property": "C110",
   "status": "partial",
   "theorems": [
    "QuESo.Exc.C110_create_partial",
    "QuESo.Exc.C110_order_partial",
    "QuESo.Exc.C110_twice_false_of_code",
    "QuESo.Exc.C110_order_false_of_code"
   ],
   "note": "In exact arithmetic, creating everything from the settings once on a new model is proved never to terminate the process, and to raise an exception exactly if a file cannot be read or written. False for a second volume computation, and in builds with assertions for a condition before the volume: the exception is raised inside a parallel loop and terminates the process (C110_twice_false_of_code, C110_order_false_of_code). With rounding also clipping a triangle may throw (C115_capacity_false_of_code), which this theorem does not cover."
  },
  {
   "property": "C111",
   "status": "partial",
   "theorems": [
    "QuESo.Props.C111_shared_face",
    "QuESo.Props.C111_tile",
    "QuESo.Props.C111_begin",
    "QuESo.Props.C111_error",
    "QuESo.Props.C111_size_partial",
    "QuESo.Props.C111_binary64",
    "QuESo.Props.C111_end_false_of_code",
    "QuESo.Props.C111_beyond_false_of_code",
    "QuESo.Props.C111_size_false_of_code"
   ],
   "note": "Shared faces, order, unique cell, beginning and error bounds are proved for every arithmetic that keeps the order (IEEE 754 double precision is proved to be one); that the last cell ends at the corner of the box and that cells have a positive size is false of the code in general (negations proved), the latter is proved for cells larger than 10 eps (|lower|+|upper|)."
  },
  {
   "property": "C112",
   "status": "proved",
   "theorems": [
    "QuESo.Props.C112_close",
    "QuESo.Props.C112_inside",
    "QuESo.Props.C112_volume",
    "QuESo.Props.C112_binary64"
   ],
   "note": "For every arithmetic that keeps the order and has relative error at most 1/1000; IEEE 754 double precision is proved to be one (no overflow, no subnormal numbers)."
  },
  {
   "property": "C113",
   "status": "partial",
   "theorems": [
    "QuESo.Props.C113_order",
    "QuESo.Props.C113_lower",
    "QuESo.Props.C113_error",
    "QuESo.Props.C113_round_trip_partial",
    "QuESo.Props.C113_false_of_code"
   ],
   "note": "Order, lower corners, error bounds and a bound for the way there and back are proved; exact upper corners and exact returns are false of the code (C113_false_of_code)."
  },
  {
   "property": "C114",
   "status": "partial",
   "theorems": [
    "QuESo.Props.C114_tiles_partial",
    "QuESo.Props.C114_binary64_partial",
    "QuESo.Props.C114_gap_false_of_code",
    "QuESo.Props.C114_overlap_false_of_code",
    "QuESo.Props.C114_error",
    "QuESo.Props.C114_error_binary64"
   ],
   "note": "Tiling is proved if all coordinates are multiples of a spacing at which nothing is rounded (C114_tiles_partial; for double precision C114_binary64_partial). In general it is false of the code: C114_gap_false_of_code, C114_overlap_false_of_code. The accuracy of the leaves is proved for all boxes (C114_error, C114_error_binary64)."
  },
  {
   "property": "C115",
   "status": "partial",
   "theorems": [
    "QuESo.Props.C115_capacity_partial",
    "QuESo.Props.C115_in_bounds_partial",
    "QuESo.Props.C115_triangulation_partial",
    "QuESo.Props.C115_inside_unchanged",
    "QuESo.Props.C115_capacity_binary64_partial",
    "QuESo.Props.C115_intersection_partial",
    "QuESo.Props.C115_in_triangle",
    "QuESo.Props.C115_in_box_partial",
    "QuESo.Props.C115_flags",
    "QuESo.Props.C115_binary64_partial",
    "QuESo.Props.C115_capacity_false_of_code"
   ],
   "note": "Distance to the triangle and the box, truth of the flags, that triangles inside the box are returned unchanged and that the error 'No valid intersection' never occurs are proved for every arithmetic that keeps the order (double precision: C115_binary64_partial). That clipping never fails is false of the code: the capacity of nine vertices is exceeded for a triangle with coordinates up to 1032 (C115_capacity_false_of_code). It is proved for triangles of size up to 150 in double precision (C115_capacity_binary64_partial), as is that adding the result to a mesh does not fail."
  },
  {
   "property": "C116",
   "status": "partial",
   "theorems": [
    "QuESo.Props.C116_never_misses_partial",
    "QuESo.Props.C116_separated_partial",
    "QuESo.Props.C116_binary64_partial",
    "QuESo.Props.C116_false_of_code"
   ],
   "note": "With every operation rounded the test reports an intersection if the triangle has a point in the box shrunk by the tolerance and by 28 eps B, where B bounds the coordinates (3.2e-15 B in double precision), and reports none if the shrunk box and the triangle are separated along one of the thirteen directions by more than a few rounding errors. Missing: the inputs in between. There the property is false (C116_false_of_code)."
  }
 ]
}