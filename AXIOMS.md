# Axioms of the property theorems

Output of `#print axioms` for each theorem of MANIFEST.json.

| theorem | axioms |
|---|---|
| `QuESo.Props.C01_vector_roundtrip` | propext, Classical.choice, Quot.sound |
| `QuESo.Props.C01_matrix_roundtrip` | propext, Quot.sound |
| `QuESo.Props.C01_injective` | propext, Quot.sound |
| `QuESo.Props.C01_no_ub` | propext |
| `QuESo.Props.C01_64bit` | propext, Quot.sound |
| `QuESo.Props.C01_zero_cells_ub` | propext |
| `QuESo.Props.C02_step_stays` | propext, Quot.sound |
| `QuESo.Props.C02_middle_is_neighbour` | propext, Quot.sound |
| `QuESo.Props.C02_reverse_undoes` | propext, Classical.choice, Quot.sound |
| `QuESo.Props.C02_reverse_is_opposite` | propext, Quot.sound |
| `QuESo.Props.C02_global_partition` | propext, Classical.choice, Quot.sound |
| `QuESo.Props.C03_walk_visits_all_once` | propext, Classical.choice, Quot.sound |
| `QuESo.Props.C03_walk_in_grid` | propext, Classical.choice, Quot.sound |
| `QuESo.Props.C03_global_end_iff_last` | propext, Quot.sound |
| `QuESo.Props.C04_isEnd_iff` | propext, Quot.sound |
| `QuESo.Props.C04_directions_complete` | none |
| `QuESo.Props.C05_cover` | propext, Classical.choice, Quot.sound |
| `QuESo.Props.C05_inside` | propext, Classical.choice, Quot.sound |
| `QuESo.Props.C05_disjoint` | propext, Classical.choice, Quot.sound |
| `QuESo.Props.C05_shared_face` | propext, Quot.sound |
| `QuESo.Props.C05_volume_sum` | propext, Classical.choice, Quot.sound |
| `QuESo.Props.C05_uvw` | propext, Quot.sound |
| `QuESo.Props.C05_needs_ordered_bounds` | propext, Classical.choice, Quot.sound |
| `QuESo.Props.C06_lookup` | propext, Classical.choice, Quot.sound |
| `QuESo.Props.C06_views` | propext, Classical.choice, Quot.sound |
| `QuESo.Props.C06_counts` | propext, Quot.sound |
| `QuESo.Props.C06_make_result` | propext, Classical.choice, Quot.sound |
| `QuESo.Props.C07_order_independent` | propext, Classical.choice, Quot.sound |
| `QuESo.Props.C08_next_element` | propext, Classical.choice, Quot.sound |
| `QuESo.Props.C08_isEnd` | propext, Classical.choice, Quot.sound |
| `QuESo.Props.C09_false_of_code` | propext |
| `QuESo.Props.C09_adjacent_partial` | propext, Classical.choice, Quot.sound |
| `QuESo.Props.C10_partitions_tile` | propext, Classical.choice, Quot.sound |
| `QuESo.Props.C11_trimmed_iff` | propext, Classical.choice, Quot.sound |
| `QuESo.Props.C12_groups` | propext, Classical.choice, Quot.sound |
| `QuESo.Props.C13_schedule_independent` | propext, Classical.choice, Quot.sound |
| `QuESo.Props.C13_threads_independent_partial` | propext, Classical.choice, Quot.sound |
| `QuESo.Props.C13_exact_geometry` | propext, Classical.choice, Quot.sound |
| `QuESo.Props.C13_false_of_code` | propext, Quot.sound |
| `QuESo.Par.C13_reused_marks` | propext, Classical.choice, Quot.sound |
| `QuESo.Par.C13_interleavings` | propext, Classical.choice, Quot.sound |
| `QuESo.Props.C14_connected_same_state` | propext, Classical.choice, Quot.sound |
| `QuESo.Props.C15_blocks_partition` | propext, Classical.choice, Quot.sound |
| `QuESo.Props.C15_fuel_irrelevant` | propext, Quot.sound |
| `QuESo.Props.C16_false_of_code` | propext, Classical.choice, Quot.sound |
| `QuESo.Props.C16_cuboids_partial` | propext, Classical.choice, Quot.sound |
| `QuESo.Props.C16_interior_partial` | propext, Classical.choice, Quot.sound |
| `QuESo.Props.C17_block_weights` | propext, Classical.choice, Quot.sound |
| `QuESo.Props.C17_point_given_once` | propext, Classical.choice, Quot.sound |
| `QuESo.Props.C17_points_inside` | propext, Classical.choice, Quot.sound |
| `QuESo.Props.C17_assembly_partial` | propext, Classical.choice, Quot.sound |
| `QuESo.Props.C17_false_of_code` | propext, Classical.choice, Quot.sound |
| `QuESo.Props.C17_endpoint_lost` | propext, Classical.choice, Quot.sound |
| `QuESo.Props.C18_linear_function` | propext, Classical.choice, Quot.sound |
| `QuESo.Props.C18_coefficients_positive` | propext, Classical.choice, Quot.sound |
| `QuESo.Props.C18_single_row_unchanged` | propext, Quot.sound |
| `QuESo.Props.C18_not_shift_invariant` | propext, Classical.choice, Quot.sound |
| `QuESo.Props.C18_linear_function_rounded` | propext, Classical.choice, Quot.sound |
| `QuESo.Props.C18_linear_function_binary64` | propext, Classical.choice, Quot.sound |
| `QuESo.Octree.C19_tiles` | propext, Classical.choice, Quot.sound |
| `QuESo.Octree.C19_points` | propext, Classical.choice, Quot.sound |
| `QuESo.Octree.C19_number_of_leafs` | propext, Quot.sound |
| `QuESo.Octree.C20_rejected_iff` | propext, Quot.sound |
| `QuESo.Octree.C20_levels` | propext, Classical.choice, Quot.sound |
| `QuESo.Octree.C20_size_and_status` | propext, Classical.choice, Quot.sound |
| `QuESo.Octree.C20_history` | propext, Quot.sound |
| `QuESo.Octree.C21_inside` | propext, Classical.choice, Quot.sound |
| `QuESo.Octree.C21_weights_le` | propext, Classical.choice, Quot.sound |
| `QuESo.Octree.C21_exact` | propext, Classical.choice, Quot.sound |
| `QuESo.C22_capacity_partial` | propext, Classical.choice, Quot.sound |
| `QuESo.C22_triangulation_never_fails` | propext, Classical.choice, Quot.sound |
| `QuESo.C23_in_triangle` | propext, Classical.choice, Quot.sound |
| `QuESo.C23_in_box_partial` | propext, Classical.choice, Quot.sound |
| `QuESo.C23_null` | propext, Classical.choice, Quot.sound |
| `QuESo.C23_inside_unchanged` | propext, Classical.choice, Quot.sound |
| `QuESo.C23_nothing_lost` | propext, Classical.choice, Quot.sound |
| `QuESo.C23_nothing_lost_real` | propext, Classical.choice, Quot.sound |
| `QuESo.C23_false_of_code` | propext, Classical.choice, Quot.sound |
| `QuESo.C24_flags` | propext, Classical.choice, Quot.sound |
| `QuESo.C24_not_all_flagged` | propext, Classical.choice, Quot.sound |
| `QuESo.C24_new_vertices_flagged` | propext, Classical.choice, Quot.sound |
| `QuESo.C24_cut_edge` | propext, Classical.choice, Quot.sound |
| `QuESo.C25_triangles` | propext, Classical.choice, Quot.sound |
| `QuESo.C25_area` | propext, Quot.sound |
| `QuESo.C25_partition` | propext, Classical.choice, Quot.sound |
| `QuESo.C25_edges` | propext, Classical.choice, Quot.sound |
| `QuESo.AABBTree.C26_box_query` | propext, Classical.choice, Quot.sound |
| `QuESo.AABBTree.C26_ray_query` | propext, Classical.choice, Quot.sound |
| `QuESo.AABBTree.C26_structure` | propext, Classical.choice, Quot.sound |
| `QuESo.AABBTree.C26_bad_box_error` | propext, Classical.choice, Quot.sound |
| `QuESo.AABBTree.C26_empty_query_ub` | propext, Classical.choice, Quot.sound |
| `QuESo.AABBTree.C26_capacity_wraps` | propext, Quot.sound |
| `QuESo.C27_constructor` | propext, Quot.sound |
| `QuESo.C27_common_point` | propext, Classical.choice, Quot.sound |
| `QuESo.C27_symmetric` | propext, Quot.sound |
| `QuESo.C27_merge` | propext, Classical.choice, Quot.sound |
| `QuESo.C28_exact` | propext, Classical.choice, Quot.sound |
| `QuESo.C28_never_misses` | propext, Classical.choice, Quot.sound |
| `QuESo.C28_zero_component_not_exact` | propext, Classical.choice, Quot.sound |
| `QuESo.C29_hit` | propext, Classical.choice, Quot.sound |
| `QuESo.C29_complete` | propext, Classical.choice, Quot.sound |
| `QuESo.C29_parallel` | propext, Quot.sound |
| `QuESo.C29_parallel_writes_nothing` | propext, Quot.sound |
| `QuESo.C30_never_misses` | propext, Classical.choice, Quot.sound |
| `QuESo.C30_exact` | propext, Classical.choice, Quot.sound |
| `QuESo.Trimmed.C31_elimination_partial` | propext, Classical.choice, Quot.sound |
| `QuESo.Trimmed.C31_rule_partial` | propext, Classical.choice, Quot.sound |
| `QuESo.Trimmed.C31_target` | propext, Quot.sound |
| `QuESo.Trimmed.C31_false_of_code` | propext, Quot.sound |
| `QuESo.Trimmed.C31_false_for_zero_target` | propext, Quot.sound |
| `QuESo.Trimmed.C32_attempts_partial` | propext, Classical.choice, Quot.sound |
| `QuESo.Trimmed.C32_limit_partial` | propext, Classical.choice, Quot.sound |
| `QuESo.Trimmed.C32_inside_partial` | propext, Classical.choice, Quot.sound |
| `QuESo.Trimmed.C32_false_of_code` | propext, Classical.choice, Quot.sound |
| `QuESo.Trimmed.C32_false_with_fictitious` | propext, Classical.choice, Quot.sound |
| `QuESo.Poly.C33_recurrence` | propext, Classical.choice, Quot.sound |
| `QuESo.Poly.C33_above_eight` | propext, Quot.sound |
| `QuESo.Poly.C33_bound` | propext, Classical.choice, Quot.sound |
| `QuESo.Poly.C33_antiderivative` | propext, Classical.choice, Quot.sound |
| `QuESo.Poly.C33_integral` | propext, Classical.choice, Quot.sound |
| `QuESo.Poly.C33_orthogonal` | propext, Classical.choice, Quot.sound |
| `QuESo.Mapping.C34_inverse` | propext, Classical.choice, Quot.sound |
| `QuESo.Mapping.C34_box_to_box` | propext, Classical.choice, Quot.sound |
| `QuESo.Mapping.C34_integration_points` | propext, Classical.choice, Quot.sound |
| `QuESo.MeshUtil.C35_append` | propext, Classical.choice, Quot.sound |
| `QuESo.MeshUtil.C36_refine` | propext, Classical.choice, Quot.sound |
| `QuESo.MeshUtil.C36_keeps` | propext, Classical.choice, Quot.sound |
| `QuESo.MeshUtil.C36_closed` | propext, Classical.choice, Quot.sound |
| `QuESo.MeshUtil.C36_hanging_nodes` | propext, Classical.choice, Quot.sound |
| `QuESo.MeshUtil.C37_box` | propext, Classical.choice, Quot.sound |
| `QuESo.Props.C38_concatenation` | propext, Quot.sound |
| `QuESo.Props.C38_every_moment` | propext, Quot.sound |
| `QuESo.Props.C39_byte_order` | propext, Quot.sound |
| `QuESo.Props.C39_swap` | propext, Quot.sound |
| `QuESo.Props.C39_decode` | propext, Classical.choice, Quot.sound |
| `QuESo.Props.C40_file_size` | propext, Classical.choice, Quot.sound |
| `QuESo.Props.C40_any_lookup` | propext, Classical.choice, Quot.sound |
| `QuESo.Props.C40_round_trip_partial` | propext, Classical.choice, Quot.sound |
| `QuESo.Props.C40_false_big_endian` | propext, Classical.choice, Quot.sound |
| `QuESo.Props.C40_false_close_corners` | propext, Classical.choice, Quot.sound |
| `QuESo.Props.C41_last_value` | propext, Quot.sound |
| `QuESo.Props.C41_refused_iff` | propext, Quot.sound |
| `QuESo.Props.C42_integer` | propext, Quot.sound |
| `QuESo.Props.C43_check_complete` | propext, Classical.choice, Quot.sound |
| `QuESo.Props.C43_data_set` | propext, Quot.sound |
| `QuESo.Rules.C44_ggq` | propext, Classical.choice, Quot.sound |
| `QuESo.Rules.C44_gauss` | propext, Classical.choice, Quot.sound |
| `QuESo.Rules.C44_upper_bound_not_checked` | propext, Classical.choice, Quot.sound |
| `QuESo.Rules.C44_zero_spans` | propext, Classical.choice, Quot.sound |
| `QuESo.Props.C45_count` | propext, Quot.sound |
| `QuESo.Props.C45_names_partial` | propext, Quot.sound |
| `QuESo.Props.C45_lookup_inverse` | propext, Quot.sound |
| `QuESo.Props.C45_false_of_code` | propext, Classical.choice, Quot.sound |
| `QuESo.Plane.C46_collect` | propext, Classical.choice, Quot.sound |
| `QuESo.Plane.C46_indices_stay_valid` | propext, Classical.choice, Quot.sound |
| `QuESo.Plane.C46_merged` | propext, Classical.choice, Quot.sound |
| `QuESo.Plane.C46_same_point_twice` | propext, Classical.choice, Quot.sound |
| `QuESo.Props.C47_strict_weak_partial` | propext, Classical.choice, Quot.sound |
| `QuESo.Props.C47_asymmetric` | propext, Classical.choice, Quot.sound |
| `QuESo.Props.C47_false_of_code` | propext, Classical.choice, Quot.sound |
| `QuESo.BRep.C48_majority` | propext, Classical.choice, Quot.sound |
| `QuESo.BRep.C48_always_answers` | propext, Classical.choice, Quot.sound |
| `QuESo.BRep.C48_parity` | propext, Classical.choice, Quot.sound |
| `QuESo.BRep.C48_state` | propext, Classical.choice, Quot.sound |
| `QuESo.Props.C49_counts` | propext, Classical.choice, Quot.sound |
| `QuESo.Props.C49_condition` | propext, Classical.choice, Quot.sound |
| `QuESo.Octree.C50_points` | propext, Classical.choice, Quot.sound |
| `QuESo.Octree.C50_constants` | propext, Classical.choice, Quot.sound |
| `QuESo.Octree.C50_exact` | propext, Classical.choice, Quot.sound |
| `QuESo.Props.C51_majority_partial` | propext, Classical.choice, Quot.sound |
| `QuESo.Props.C51_false_of_code` | propext, Classical.choice, Quot.sound |
| `QuESo.Props.C52_any_lookup` | propext, Classical.choice, Quot.sound |
| `QuESo.Props.C52_round_trip` | propext, Classical.choice, Quot.sound |
| `QuESo.Props.C52_name_with_facet` | propext, Classical.choice, Quot.sound |
| `QuESo.Props.C52_six_decimals` | propext, Classical.choice, Quot.sound |
| `QuESo.CellDomain.C53_point` | propext, Quot.sound |
| `QuESo.CellDomain.C53_box` | propext, Classical.choice, Quot.sound |
| `QuESo.Mapping.C54_area_vector` | propext, Quot.sound |
| `QuESo.Mapping.C54_boundary_points` | propext, Classical.choice, Quot.sound |
| `QuESo.Mapping.C54_boundary_round_trip_partial` | propext, Classical.choice, Quot.sound |
| `QuESo.Mapping.C54_false_of_code` | propext, Classical.choice, Quot.sound |
| `QuESo.GQ.C55_triangle_ids` | propext, Classical.choice, Quot.sound |
| `QuESo.GQ.C55_do_intersect` | propext, Classical.choice, Quot.sound |
| `QuESo.GQ.C55_inverted_box_error` | propext, Quot.sound |
| `QuESo.GQ.C55_empty_mesh_ub` | propext, Classical.choice, Quot.sound |
| `QuESo.GQ.C56_bounding_box` | propext, Classical.choice, Quot.sound |
| `QuESo.GQ.C56_closed_parity_partial` | propext, Classical.choice, Quot.sound |
| `QuESo.GQ.C56_open_nearest_partial` | propext, Classical.choice, Quot.sound |
| `QuESo.GQ.C56_closed_edge` | propext, Classical.choice, Quot.sound |
| `QuESo.GQ.C56_closed_surface` | propext, Classical.choice, Quot.sound |
| `QuESo.GQ.C56_open_edge` | propext, Classical.choice, Quot.sound |
| `QuESo.GQ.C56_open_surface` | propext, Classical.choice, Quot.sound |
| `QuESo.GQ.C56_false_of_code` | propext, Classical.choice, Quot.sound |
| `QuESo.BRep.C57_clip_partial` | propext, Classical.choice, Quot.sound |
| `QuESo.BRep.C57_clip_unique_partial` | propext, Classical.choice, Quot.sound |
| `QuESo.BRep.C58_choice` | propext, Classical.choice, Quot.sound |
| `QuESo.BRep.C58_error_passed_on` | propext, Classical.choice, Quot.sound |
| `QuESo.BRep.C59_bounding_box` | propext, Classical.choice, Quot.sound |
| `QuESo.BRep.C59_inside` | propext, Classical.choice, Quot.sound |
| `QuESo.BRep.C59_inside_empty` | propext, Quot.sound |
| `QuESo.BRep.C59_orientation` | propext, Classical.choice, Quot.sound |
| `QuESo.BRep.C59_state` | propext, Classical.choice, Quot.sound |
| `QuESo.BRep.C59_bounded_side` | propext, Classical.choice, Quot.sound |
| `QuESo.Trimmed.C60_residual` | propext, Classical.choice, Quot.sound |
| `QuESo.Trimmed.C60_assembled` | propext, Classical.choice, Quot.sound |
| `QuESo.Trimmed.C60_accuracy` | propext, Classical.choice, Quot.sound |
| `QuESo.TrimmedRule.C60_solver` | propext, Classical.choice, Quot.sound |
| `QuESo.TrimmedRule.C60_solver_solid` | propext, Classical.choice, Quot.sound |
| `QuESo.TrimmedRule.C60_solid` | propext, Classical.choice, Quot.sound |
| `QuESo.TrimmedRule.C60_volume` | propext, Classical.choice, Quot.sound |
| `QuESo.Trimmed.C61_entries` | propext, Classical.choice, Quot.sound |
| `QuESo.Trimmed.C61_divergence` | propext, Classical.choice, Quot.sound |
| `QuESo.TriRule.C61_closed_surface` | propext, Classical.choice, Quot.sound |
| `QuESo.TriRule.C61_box` | propext, Classical.choice, Quot.sound |
| `QuESo.TriRule.C61_moments` | propext, Classical.choice, Quot.sound |
| `QuESo.Trimmed.C62_appended` | propext, Quot.sound |
| `QuESo.Trimmed.C62_fictitious` | propext, Classical.choice, Quot.sound |
| `QuESo.Trimmed.C62_weights` | propext, Classical.choice, Quot.sound |
| `QuESo.MeshUtil.C63_area` | propext, Classical.choice, Quot.sound |
| `QuESo.MeshUtil.C63_volume` | propext, Classical.choice, Quot.sound |
| `QuESo.MeshUtil.C63_direction` | propext, Classical.choice, Quot.sound |
| `QuESo.MeshUtil.C63_translation` | propext, Quot.sound |
| `QuESo.MeshUtil.C63_parallel` | propext, Quot.sound |
| `QuESo.MeshUtil.C63_parallel_false_of_code` | propext, Classical.choice, Quot.sound |
| `QuESo.MeshUtil.C63_quality` | propext, Classical.choice, Quot.sound |
| `QuESo.MeshUtil.C63_bounding_box` | propext, Classical.choice, Quot.sound |
| `QuESo.MeshUtil.C63_aspect_ratio` | propext, Classical.choice, Quot.sound |
| `QuESo.MeshUtil.C64_normal` | propext, Classical.choice, Quot.sound |
| `QuESo.MeshUtil.C64_unit_normals` | propext, Classical.choice, Quot.sound |
| `QuESo.MeshUtil.C64_small_false_of_code` | propext, Classical.choice, Quot.sound |
| `QuESo.MeshUtil.C65_remove` | propext, Classical.choice, Quot.sound |
| `QuESo.Rules.C66_optimal` | propext, Classical.choice, Quot.sound |
| `QuESo.Rules.C66_reduced1` | propext, Classical.choice, Quot.sound |
| `QuESo.Rules.C66_reduced2` | propext, Classical.choice, Quot.sound |
| `QuESo.Rules.C67_one_dimension` | propext, Classical.choice, Quot.sound |
| `QuESo.Rules.C67_element` | propext, Classical.choice, Quot.sound |
| `QuESo.Props.C68_elements_partial` | propext, Classical.choice, Quot.sound |
| `QuESo.Props.C68_false_of_code` | propext, Classical.choice, Quot.sound |
| `QuESo.Props.C69_represented_volume` | propext, Classical.choice, Quot.sound |
| `QuESo.Props.C69_full_cell` | propext, Classical.choice, Quot.sound |
| `QuESo.Props.C69_all_full` | propext, Classical.choice, Quot.sound |
| `QuESo.Props.C70_locked` | propext, Classical.choice, Quot.sound |
| `QuESo.Props.C70_release` | propext, Classical.choice, Quot.sound |
| `QuESo.Props.C70_false_of_code` | propext, Classical.choice, Quot.sound |
| `QuESo.Props.C71_warning` | propext, Classical.choice, Quot.sound |
| `QuESo.Plane.C72_general` | propext, Classical.choice, Quot.sound |
| `QuESo.Plane.C72_safe_partial` | propext, Classical.choice, Quot.sound |
| `QuESo.Plane.C72_false_of_code` | propext, Classical.choice, Quot.sound |
| `QuESo.Plane.C73_cap` | propext, Classical.choice, Quot.sound |
| `QuESo.Plane.C73_untouched` | propext, Classical.choice, Quot.sound |
| `QuESo.Plane.C73_graph` | propext, Classical.choice, Quot.sound |
| `QuESo.Plane.C73_section` | propext, Classical.choice, Quot.sound |
| `QuESo.Plane.C73_rim` | propext, Classical.choice, Quot.sound |
| `QuESo.Plane.C74_visible` | propext, Classical.choice, Quot.sound |
| `QuESo.Plane.C74_cut` | propext, Classical.choice, Quot.sound |
| `QuESo.Plane.C75_partner` | propext, Classical.choice, Quot.sound |
| `QuESo.TriRule.C76_exact` | propext, Classical.choice, Quot.sound |
| `QuESo.TriRule.C76_points` | propext, Classical.choice, Quot.sound |
| `QuESo.TriRule.C76_unknown` | propext, Classical.choice, Quot.sound |
| `QuESo.TriRule.C76_degree_seven_false_of_code` | propext, Classical.choice, Quot.sound |
| `QuESo.Domain.C77_closed` | propext, Classical.choice, Quot.sound |
| `QuESo.Domain.C77_surface` | propext, Classical.choice, Quot.sound |
| `QuESo.Domain.C77_safe_partial` | propext, Classical.choice, Quot.sound |
| `QuESo.Domain.C77_attempt` | propext, Classical.choice, Quot.sound |
| `QuESo.Domain.C77_domain` | propext, Classical.choice, Quot.sound |
| `QuESo.Domain.C77_general` | propext, Classical.choice, Quot.sound |
| `QuESo.Domain.C77_regions` | propext, Classical.choice, Quot.sound |
| `QuESo.Plane.C78_upper_side` | propext, Classical.choice, Quot.sound |
| `QuESo.Plane.C78_area` | propext, Classical.choice, Quot.sound |
| `QuESo.Plane.C78_three_false_of_code` | propext, Classical.choice, Quot.sound |
| `QuESo.Json.C79_valid_json` | propext, Classical.choice, Quot.sound |
| `QuESo.Json.C79_settings` | propext, Classical.choice, Quot.sound |
| `QuESo.Json.C79_false_of_code` | propext, Classical.choice, Quot.sound |
| `QuESo.Json.C80_round_trip_partial` | propext, Classical.choice, Quot.sound |
| `QuESo.Json.C80_values` | propext, Classical.choice, Quot.sound |
| `QuESo.Json.C80_precision` | propext, Classical.choice, Quot.sound |
| `QuESo.Json.C80_short` | propext, Classical.choice, Quot.sound |
| `QuESo.Json.C80_exact` | propext, Classical.choice, Quot.sound |
| `QuESo.Json.C80_stable` | propext, Classical.choice, Quot.sound |
| `QuESo.Json.C80_second` | propext, Classical.choice, Quot.sound |
| `QuESo.Json.C80_false_no_conditions` | propext, Classical.choice, Quot.sound |
| `QuESo.Json.C80_false_negative` | propext, Classical.choice, Quot.sound |
| `QuESo.Json.C80_false_backslash` | propext, Classical.choice, Quot.sound |
| `QuESo.Json.C80_false_not_set` | propext, Classical.choice, Quot.sound |
| `QuESo.Json.C81_defaults` | propext, Classical.choice, Quot.sound |
| `QuESo.Json.C81_check` | propext, Classical.choice, Quot.sound |
| `QuESo.Json.C82_accepted` | propext, Classical.choice, Quot.sound |
| `QuESo.Json.C82_values` | propext, Classical.choice, Quot.sound |
| `QuESo.Props.C83_mesh` | propext, Classical.choice, Quot.sound |
| `QuESo.Props.C83_elements` | propext, Classical.choice, Quot.sound |
| `QuESo.Props.C83_points` | propext, Classical.choice, Quot.sound |
| `QuESo.Props.C83_weights` | propext, Classical.choice, Quot.sound |
| `QuESo.Props.C83_false_large` | propext, Classical.choice, Quot.sound |
| `QuESo.Props.C84_stl` | propext, Classical.choice, Quot.sound |
| `QuESo.Props.C84_files` | propext, Classical.choice, Quot.sound |
| `QuESo.Props.C84_false_equal_ids` | propext, Classical.choice, Quot.sound |
| `QuESo.NNLS.C85_solution` | propext, Classical.choice, Quot.sound |
| `QuESo.NNLS.C85_dimensions` | propext, Quot.sound |
| `QuESo.NNLS.C85_unique` | propext, Classical.choice, Quot.sound |
| `QuESo.NNLS.C85_exact` | propext, Classical.choice, Quot.sound |
| `QuESo.NNLS.C85_one_row` | propext, Classical.choice, Quot.sound |
| `QuESo.BSpline.C86_knots` | propext, Classical.choice, Quot.sound |
| `QuESo.BSpline.C86_curve` | propext, Classical.choice, Quot.sound |
| `QuESo.BSpline.C86_exceptions` | propext, Classical.choice, Quot.sound |
| `QuESo.BSpline.C86_volume` | propext, Classical.choice, Quot.sound |
| `QuESo.BSpline.C86_cells` | propext, Classical.choice, Quot.sound |
| `QuESo.BSpline.C86_kind` | propext, Classical.choice, Quot.sound |
| `QuESo.BSpline.C87_same` | propext, Classical.choice, Quot.sound |
| `QuESo.BSpline.C87_round_trip` | propext, Classical.choice, Quot.sound |
| `QuESo.BSpline.C88_points_partial` | propext, Quot.sound |
| `QuESo.BSpline.C88_false_of_code` | propext, Quot.sound |
| `QuESo.Kratos.C89_surface_load` | propext, Classical.choice, Quot.sound |
| `QuESo.Kratos.C89_zero_direction_false_of_code` | propext, Classical.choice, Quot.sound |
| `QuESo.Kratos.C90_pressure` | propext, Classical.choice, Quot.sound |
| `QuESo.Kratos.C91_penalty_support` | propext, Classical.choice, Quot.sound |
| `QuESo.Kratos.C91_lagrange_support` | propext, Classical.choice, Quot.sound |
| `QuESo.Kratos.C91_factor_partial` | propext, Classical.choice, Quot.sound |
| `QuESo.Kratos.C91_factor_false_of_code` | propext, Classical.choice, Quot.sound |
| `QuESo.Kratos.C92_dirichlet` | propext, Quot.sound |
| `QuESo.Kratos.C92_neumann` | propext, Classical.choice, Quot.sound |
| `QuESo.Kratos.C92_total_partial` | propext, Classical.choice, Quot.sound |
| `QuESo.Kratos.C92_overlap_false_of_code` | propext, Classical.choice, Quot.sound |
| `QuESo.Kratos.C93_mesh_to_model` | propext, Classical.choice, Quot.sound |
| `QuESo.Kratos.C93_model_to_mesh` | propext, Classical.choice, Quot.sound |
| `QuESo.Kratos.C93_round_trip` | propext, Classical.choice, Quot.sound |
| `QuESo.Kratos.C93_append_false_of_code` | propext, Classical.choice, Quot.sound |
| `QuESo.Kratos.C94_elements` | propext, Classical.choice, Quot.sound |
| `QuESo.Kratos.C94_occupied` | propext, Classical.choice, Quot.sound |
| `QuESo.Kratos.C95_conditions` | propext, Classical.choice, Quot.sound |
| `QuESo.Kratos.C95_order` | propext, Classical.choice, Quot.sound |
| `QuESo.Kratos.C95_unknown` | propext, Classical.choice, Quot.sound |
| `QuESo.Kratos.C95_model` | propext, Classical.choice, Quot.sound |
| `QuESo.MView.C96_contents` | propext |
| `QuESo.MView.C96_view` | propext, Quot.sound |
| `QuESo.MView.C96_later_partial` | propext, Quot.sound |
| `QuESo.MView.C96_reserve` | propext, Quot.sound |
| `QuESo.MView.C96_later_false_of_code` | propext, Quot.sound |
| `QuESo.MView.C96_each` | propext, Classical.choice, Quot.sound |
| `QuESo.MView.C96_foreign` | propext, Quot.sound |
| `QuESo.MView.C96_foreign_later_false_of_code` | propext, Quot.sound |
| `QuESo.MView.C97_triangle_object_partial` | propext, Quot.sound |
| `QuESo.MView.C97_triangle_object_false_of_code` | propext, Quot.sound |
| `QuESo.MView.C97_append_self_partial` | propext, Quot.sound |
| `QuESo.MView.C97_append_self_false_of_code` | propext, Quot.sound |
| `QuESo.MView.C98_add_triangle_partial` | propext, Classical.choice, Quot.sound |
| `QuESo.MView.C98_add_triangle_false_of_code` | propext |
| `QuESo.MView.C98_iterate` | propext, Quot.sound |
| `QuESo.MView.C98_iterate_growing` | propext, Quot.sound |
| `QuESo.MView.C98_point_item` | propext, Quot.sound |
| `QuESo.MView.C98_segment_item_partial` | propext, Quot.sound |
| `QuESo.MView.C98_segment_item_false_of_code` | propext, Quot.sound |
| `QuESo.Py.C99_directory` | propext, Classical.choice, Quot.sound |
| `QuESo.Py.C99_scope` | propext, Quot.sound |
| `QuESo.Py.C99_directory_false_of_code` | propext, Quot.sound |
| `QuESo.Py.C99_output_partial` | propext, Classical.choice, Quot.sound |
| `QuESo.Py.C99_output_false_of_code` | propext |
| `QuESo.Py.C100_run_partial` | none |
| `QuESo.Py.C100_run_false_of_code` | none |
| `QuESo.BRep.C101_closed_partial` | propext, Classical.choice, Quot.sound |
| `QuESo.BRep.C101_closed_unique_partial` | propext, Classical.choice, Quot.sound |
| `QuESo.BRep.C101_false_of_code` | propext, Classical.choice, Quot.sound |
| `QuESo.Info.C102_runs` | propext, Classical.choice, Quot.sound |
| `QuESo.Info.C102_report` | propext, Classical.choice, Quot.sound |
| `QuESo.Info.C102_types` | propext, Classical.choice, Quot.sound |
| `QuESo.Info.C102_conditions` | propext, Classical.choice, Quot.sound |
| `QuESo.Info.C102_count` | propext, Classical.choice, Quot.sound |
| `QuESo.Info.C102_complete` | propext, Classical.choice, Quot.sound |
| `QuESo.Info.C102_file` | propext, Classical.choice, Quot.sound |
| `QuESo.Info.C102_total_partial` | propext, Classical.choice, Quot.sound |
| `QuESo.Info.C102_false_of_code` | propext, Classical.choice, Quot.sound |
| `QuESo.Domain.C103_sealed` | propext, Classical.choice, Quot.sound |
| `QuESo.Domain.C103_closed_partial` | propext, Classical.choice, Quot.sound |
| `QuESo.DList.C104_expression` | propext, Quot.sound |
| `QuESo.DList.C104_indices` | propext, Classical.choice, Quot.sound |
| `QuESo.DList.C104_loop_partial` | propext, Classical.choice, Quot.sound |
| `QuESo.DList.C104_append_false_of_code` | propext, Classical.choice, Quot.sound |
| `QuESo.DList.C104_index_false_of_code` | propext |
| `QuESo.DList.C104_history` | propext, Quot.sound |
| `QuESo.DList.C104_reference` | propext, Quot.sound |
| `QuESo.DList.C104_released` | propext, Quot.sound |
| `QuESo.BRep.C105_unique_partial` | propext, Classical.choice, Quot.sound |
| `QuESo.BRep.C105_clip_partial` | propext, Classical.choice, Quot.sound |
| `QuESo.BRep.C105_condition_partial` | propext, Classical.choice, Quot.sound |
| `QuESo.BRep.C105_lower_face_lost` | propext, Classical.choice, Quot.sound |
| `QuESo.BRep.C105_false_of_code` | propext, Classical.choice, Quot.sound |
| `QuESo.Domain.C106_volume_partial` | propext, Classical.choice, Quot.sound |
| `QuESo.Domain.C107_empty` | propext, Classical.choice, Quot.sound |
| `QuESo.Domain.C107_domain_partial` | propext, Classical.choice, Quot.sound |
| `QuESo.Domain.C107_solid_partial` | propext, Classical.choice, Quot.sound |
| `QuESo.Domain.C107_represented_partial` | propext, Classical.choice, Quot.sound |
| `QuESo.Life.C108_owners_partial` | propext, Classical.choice, Quot.sound |
| `QuESo.Life.C108_tidy_partial` | propext, Classical.choice, Quot.sound |
| `QuESo.Life.C108_elements_false_of_code` | propext |
| `QuESo.Life.C108_triangles_false_of_code` | propext |
| `QuESo.Life.C108_segments_false_of_code` | propext |
| `QuESo.Life.C108_settings_false_of_code` | propext |
| `QuESo.Life.C108_refused_false_of_code` | propext |
| `QuESo.Life.C108_grid_false_of_code` | propext |
| `QuESo.Par.C109_same_fill` | propext, Quot.sound |
| `QuESo.Par.C109_same_merge` | propext |
| `QuESo.Par.C109_fill_partial` | propext, Classical.choice, Quot.sound |
| `QuESo.Par.C109_merge_partial` | propext, Quot.sound |
| `QuESo.Par.C109_volume_partial` | propext, Quot.sound |
| `QuESo.Par.C109_condition_partial` | propext, Quot.sound |
| `QuESo.Par.C109_sums_partial` | propext |
| `QuESo.Par.C109_false_of_code` | propext, Quot.sound |
| `QuESo.Exc.C110_create_partial` | propext, Classical.choice, Quot.sound |
| `QuESo.Exc.C110_order_partial` | propext, Classical.choice, Quot.sound |
| `QuESo.Exc.C110_twice_false_of_code` | propext, Classical.choice, Quot.sound |
| `QuESo.Exc.C110_order_false_of_code` | propext, Classical.choice, Quot.sound |
| `QuESo.Props.C111_shared_face` | propext, Quot.sound |
| `QuESo.Props.C111_tile` | propext, Classical.choice, Quot.sound |
| `QuESo.Props.C111_begin` | propext, Quot.sound |
| `QuESo.Props.C111_error` | propext, Classical.choice, Quot.sound |
| `QuESo.Props.C111_size_partial` | propext, Classical.choice, Quot.sound |
| `QuESo.Props.C111_binary64` | propext, Classical.choice, Quot.sound |
| `QuESo.Props.C111_end_false_of_code` | propext, Classical.choice, Quot.sound |
| `QuESo.Props.C111_beyond_false_of_code` | propext, Classical.choice, Quot.sound |
| `QuESo.Props.C111_size_false_of_code` | propext, Classical.choice, Quot.sound |
| `QuESo.Props.C112_close` | propext, Classical.choice, Quot.sound |
| `QuESo.Props.C112_inside` | propext, Classical.choice, Quot.sound |
| `QuESo.Props.C112_volume` | propext, Classical.choice, Quot.sound |
| `QuESo.Props.C112_binary64` | propext, Classical.choice, Quot.sound |
| `QuESo.Props.C113_order` | propext, Classical.choice, Quot.sound |
| `QuESo.Props.C113_lower` | propext, Classical.choice, Quot.sound |
| `QuESo.Props.C113_error` | propext, Classical.choice, Quot.sound |
| `QuESo.Props.C113_round_trip_partial` | propext, Classical.choice, Quot.sound |
| `QuESo.Props.C113_false_of_code` | propext, Classical.choice, Quot.sound |
| `QuESo.Props.C114_tiles_partial` | propext, Classical.choice, Quot.sound |
| `QuESo.Props.C114_binary64_partial` | propext, Classical.choice, Quot.sound |
| `QuESo.Props.C114_gap_false_of_code` | propext, Classical.choice, Quot.sound |
| `QuESo.Props.C114_overlap_false_of_code` | propext, Classical.choice, Quot.sound |
| `QuESo.Props.C114_error` | propext, Classical.choice, Quot.sound |
| `QuESo.Props.C114_error_binary64` | propext, Classical.choice, Quot.sound |
| `QuESo.Props.C115_capacity_partial` | propext, Classical.choice, Quot.sound |
| `QuESo.Props.C115_in_bounds_partial` | propext, Classical.choice, Quot.sound |
| `QuESo.Props.C115_triangulation_partial` | propext, Classical.choice, Quot.sound |
| `QuESo.Props.C115_inside_unchanged` | propext, Classical.choice, Quot.sound |
| `QuESo.Props.C115_capacity_binary64_partial` | propext, Classical.choice, Quot.sound |
| `QuESo.Props.C115_intersection_partial` | propext, Classical.choice, Quot.sound |
| `QuESo.Props.C115_in_triangle` | propext, Classical.choice, Quot.sound |
| `QuESo.Props.C115_in_box_partial` | propext, Classical.choice, Quot.sound |
| `QuESo.Props.C115_flags` | propext, Classical.choice, Quot.sound |
| `QuESo.Props.C115_binary64_partial` | propext, Classical.choice, Quot.sound |
| `QuESo.Props.C115_capacity_false_of_code` | propext, Classical.choice, Quot.sound |
| `QuESo.Props.C116_never_misses_partial` | propext, Classical.choice, Quot.sound |
| `QuESo.Props.C116_separated_partial` | propext, Classical.choice, Quot.sound |
| `QuESo.Props.C116_binary64_partial` | propext, Classical.choice, Quot.sound |
| `QuESo.Props.C116_false_of_code` | propext, Classical.choice, Quot.sound |
