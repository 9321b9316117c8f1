# Axioms of the property theorems

From `#print axioms` on each theorem named in MANIFEST.json (472 theorems).

## `propext` (4)

`C84_any_test`, `C84_any_edge_test`, `C84_plain`, `C84_must_clear`

## `propext`, `Quot.sound` (26)

`C25_history_loop_partial`, `C28_area_exact`, `C29_length_exact`, `C29_no_edges`, `C30_area_postcondition`, `C30_length_postcondition`, `C35_never_accepted_partial`, `C35_area_never_accepted_partial`, `C43_empty_mesh_loop_refuted`, `C45_closed_rings`, `C46_no_data_partial`, `C46_conditional_data_refuted`, `C48_maximum_area_refuted`, `C48_maximum_length_refuted`, `C56_conditional_error`, `C72_runs_double`, `C86_levels_refuted`, `C86_streams_partial`, `C90_not_read_partial`, `C90_point_data_refuted`, `C91_ways`, `C97_carried`, `C97_no_influence`, `C97_two_types`, `C99_unread`, `C99_unread_edge`

## `propext`, `Classical.choice`, `Quot.sound` (442)

`C01_face_split_completes`, `C02_uniform_times_four`, `C03_selective_children`, `C04_output_valid`, `C05_new_points`, `C06_original_points_kept_iterative`, `C06_original_points_kept`, `C06_original_points_kept_edge`, `C07_linear_midpoints_edge`, `C07_linear_midpoints`, `C08_loop_inner_edge`, `C08_loop_boundary_edge`, `C09_loop_inner_point`, `C09_loop_boundary_point`, `C10_butterfly_stencil`, `C11_sqrt3_completes`, `C12_sqrt3_centroids`, `C13_sqrt3_valid`, `C14_cell_data_inherited`, `C14_cell_data_inherited_iterative`, `C14_cell_data_inherited_sqrt3`, `C15_cell_data_complete`, `C15_cell_data_complete_iterative`, `C15_cell_data_complete_sqrt3`, `C16_selection_after_run`, `C16_selection_after_run_sqrt3`, `C17_euler_preserved_iterative`, `C17_euler_preserved_sqrt3`, `C17_euler_preserved`, `C17_euler_preserved_edge`, `C18_closed_iterative`, `C18_boundary_preserved_sqrt3`, `C18_boundary_preserved`, `C18_boundary_preserved_edge`, `C19_affine_linear_sqrt3`, `C19_affine_butterfly`, `C19_affine_loop_partial`, `C19_affine_loop_closed_partial`, `C19_affine_loop_refuted`, `C19_affine_conditional_partial`, `C19_affine_conditional_edge`, `C19_similarity_conditional_partial`, `C19_similarity_conditional_edge`, `C19_affine_edge`, `C19_affine_iterative_partial`, `C20_hull_conditional_partial`, `C20_hull_conditional_edge`, `C20_hull_edge`, `C20_hull_linear`, `C20_hull_sqrt3`, `C20_hull_loop_partial`, `C20_hull_loop_refuted`, `C20_hull_iterative_partial`, `C21_linear_same_surface_conditional`, `C21_linear_same_surface_conditional_edge`, `C21_linear_same_surface`, `C21_linear_edge_same_surface`, `C21_linear_same_surface_iterative`, `C22_iterative_is_iterated`, `C22_two_levels`, `C23_iterative_uniform`, `C24_iterative_selective`, `C25_history_irrelevant`, `C25_set_cells`, `C25_loop_flag`, `C25_history_loop_refuted`, `C26_iterative_history`, `C27_selection_order`, `C31_area_no_op`, `C31_length_no_op`, `C32_area_terminates`, `C32_area_returns`, `C33_length_terminates`, `C33_length_returns`, `C34_negative_area_sqrt3_refuted`, `C34_negative_area_refuted`, `C34_negative_length_refuted`, `C34_zero_area_refuted`, `C34_zero_length_refuted`, `C35_uniform_throws_partial`, `C35_listed_throws_partial`, `C35_unlisted_refuted`, `C35_unlisted_hang_refuted`, `C35_edge_refuted`, `C35_edge_hang_refuted`, `C35_area_refuted`, `C35_hang_is_endless`, `C36_never_accepted_partial`, `C36_absent_id_refuted`, `C37_mesh_without_them`, `C37_isolated_points_partial`, `C37_isolated_points_edge_partial`, `C37_loop_refuted`, `C37_loop_edge_refuted`, `C38_gaps_partial`, `C38_gaps_edge_partial`, `C38_gaps_or_clash`, `C38_clash_edge_refuted`, `C38_clash_sqrt3_refuted`, `C38_gaps_refuted`, `C39_edge_filter_completes`, `C39_edge_filter_points`, `C40_edge_points_as_cell_filter`, `C40_butterfly_edge_stencil`, `C41_repeated_edges_partial`, `C41_repeated_edges_refuted`, `C41_repeated_cells_partial`, `C41_repeated_cells_refuted`, `C42_first_run_smooths_all_refuted`, `C42_later_run_partial`, `C42_first_run_witness_refuted`, `C42_wrong_points_refuted`, `C43_null_edges`, `C43_only_null_edges`, `C43_empty_mesh_partial`, `C44_edge_history_irrelevant`, `C44_set_edges`, `C45_numbering`, `C45_numbering_edge`, `C45_simple_rings`, `C45_iterative`, `C45_conditional_area`, `C45_conditional_length`, `C45_conditional_loop_excluded`, `C47_area_safe`, `C47_length_safe`, `C48_iterative_up_to_date`, `C48_edge_up_to_date`, `C48_uniform_cell_partial`, `C48_cell_set_partial`, `C48_cell_add_partial`, `C48_cell_again_refuted`, `C48_cell_again_other_refuted`, `C48_conditional_partial`, `C48_maximum_area_witness_refuted`, `C48_conditional_edge_partial`, `C48_maximum_length_witness_refuted`, `C48_sqrt3_again_refuted`, `C49_shape_only`, `C49_shape_only_edge`, `C49_shape_only_iterative`, `C50_linear_quarters`, `C50_linear_shapes`, `C50_linear_grid`, `C50_linear_mesh_size`, `C51_boundary_alone`, `C51_patches_fit`, `C51_butterfly_fit_refuted`, `C52_pieces_kept_conditional`, `C52_pieces_kept_conditional_edge`, `C52_pieces_kept`, `C52_pieces_kept_edge`, `C52_pieces_kept_iterative`, `C53_uniform_level`, `C53_uniform_regular`, `C53_sqrt3_level`, `C53_sqrt3_closed`, `C54_select_all_partial`, `C54_select_all_iterative`, `C54_select_all_any_order`, `C54_loop_refuted`, `C55_cells_as_edges_exact`, `C55_cells_as_edges`, `C56_cell_selection_kept`, `C56_cell_again_partial`, `C56_loop_again_partial`, `C56_loop_again_refuted`, `C56_edge_again`, `C56_iterative_error`, `C56_iterative_again`, `C56_conditional_again_partial`, `C56_conditional_edge_again`, `C57_far_cells_kept`, `C57_far_cells_kept_sqrt3`, `C57_far_cells_kept_iterative`, `C57_far_cells_kept_sqrt3_iterative`, `C57_far_cells_kept_edge`, `C57_far_corners_iterative`, `C58_conditional_loop_refuted`, `C58_listing_conditional_partial`, `C58_listing_conditional_edge_partial`, `C58_listing_partial`, `C58_listing_uniform`, `C58_listing_sqrt3`, `C58_listing_edge_partial`, `C58_listing_edge_uniform`, `C58_listing_iterative_partial`, `C58_first_corner_refuted`, `C59_linear_additive`, `C59_linear_additive_edge`, `C59_linear_additive_iterative`, `C59_linear_additive_conditional`, `C59_linear_additive_conditional_edge`, `C59_linear_volume`, `C59_linear_volume_iterative`, `C60_length_exact`, `C60_area_exact_sqrt3`, `C60_area_exact_linear`, `C61_linear_normals`, `C61_linear_normals_edge`, `C61_linear_normals_iterative`, `C61_linear_normals_conditional`, `C61_linear_normals_conditional_edge`, `C62_butterfly_cubic`, `C62_butterfly_cubic_edge`, `C62_loop_quadratic_edge`, `C62_loop_quadratic_point`, `C63_conditional_loop_refuted`, `C63_other_side_partial`, `C63_other_side_uniform`, `C63_other_side_sqrt3`, `C63_other_side_edge_partial`, `C63_other_side_iterative_partial`, `C63_symmetric_iterative_partial`, `C63_mirrored_iterative_partial`, `C63_symmetric_conditional_partial`, `C63_symmetric_conditional_edge_partial`, `C63_other_side_conditional_sqrt3`, `C63_mirrored_conditional_sqrt3`, `C63_symmetric_linear`, `C63_symmetric_linear_edge`, `C63_symmetric_sqrt3`, `C64_positions_cell`, `C64_positions_edge`, `C64_positions_iterative`, `C64_coordinates`, `C64_coordinates_edge`, `C64_superposition`, `C64_superposition_edge`, `C65_cell`, `C65_edge`, `C65_iterative`, `C65_original_points`, `C65_one_point`, `C66_cell`, `C66_edge`, `C66_iterative`, `C67_one_level`, `C67_edges_shrink`, `C67_levels_close`, `C67_converges`, `C68_fan`, `C68_unbounded`, `C68_at_most_doubles`, `C68_linear_slivers`, `C69_cell`, `C69_edge`, `C69_valid`, `C69_points_kept`, `C69_points_kept_edge`, `C69_no_extra_digits`, `C69_convert_first`, `C69_convert_first_edge`, `C69_rounding`, `C69_order_matters`, `C70_sqrt3_area_terminates`, `C70_sqrt3_area_returns`, `C70_area_can_grow`, `C71_sqrt3_vector_area`, `C71_sqrt3_vector_area_iterative`, `C71_sqrt3_normals`, `C71_no_fold_partial`, `C71_apart`, `C71_no_fold_refuted`, `C72_row_of_filters_partial`, `C72_list_before_iterative_refuted`, `C72_runs_once`, `C72_first_update_partial`, `C72_new_lists_partial`, `C72_new_lists_same_input_partial`, `C72_no_iterative`, `C72_sqrt3_list_before_iterative_refuted`, `C73_rim_triangles`, `C73_height`, `C73_conditional_rim`, `C74_area_settled`, `C74_length_settled`, `C75_loop_length_terminates`, `C75_loop_length_returns`, `C76_level_cost`, `C76_edge_cost`, `C76_iterative_cost`, `C76_conditional_cost`, `C76_conditional_total`, `C77_conditional_loop_excluded`, `C77_conditional`, `C77_conditional_edge`, `C77_conditional_linear`, `C77_conditional_linear_edge`, `C77_piece`, `C77_two_pieces`, `C77_two_pieces_edge`, `C77_two_pieces_iterative`, `C77_spared`, `C77_spared_iterative`, `C77_spared_edge`, `C78_butterfly_trap_rounded`, `C78_butterfly_trap`, `C78_butterfly_trap_space`, `C78_butterfly_area_refuted`, `C79_loop_share_partial`, `C79_documented_weight_refuted`, `C80_rim_kept_partial`, `C80_rim_kept_edge_partial`, `C80_rim_kept_iterative_partial`, `C80_rim_kept_conditional_partial`, `C80_rim_kept_conditional_edge_partial`, `C80_butterfly_refuted`, `C81_flat_partial`, `C81_flat_edge`, `C81_flat_iterative_partial`, `C81_flat_conditional_partial`, `C81_flat_conditional_edge`, `C81_area_refuted`, `C82_embedded_partial`, `C82_embedded_edge_partial`, `C82_embedded_iterative_partial`, `C82_embedded_conditional_partial`, `C82_embedded_conditional_edge_partial`, `C82_embedded_refuted`, `C83_butterfly_length_partial`, `C83_butterfly_length_returns_partial`, `C84_cell_criterion`, `C84_edge_criterion`, `C84_giving_up`, `C84_times_is_levels`, `C84_hull`, `C84_surface`, `C85_exact_size`, `C85_smaller_maximum`, `C85_equal_depths`, `C85_iterations`, `C86_flag_after_run_partial`, `C86_flag_after_run_sqrt3_partial`, `C86_flag_after_run_edge_partial`, `C86_before_run_refuted`, `C86_levels_on_console_partial`, `C87_shapes`, `C87_shapes_edge`, `C87_angles`, `C87_angles_edge`, `C87_sizes`, `C87_sizes_edge`, `C87_shapes_edge_proportional`, `C87_sizes_edge_proportional`, `C87_angles_edge_square`, `C88_no_fans`, `C88_no_fans_edge`, `C88_well_shaped`, `C88_no_fans_edge_proportional`, `C89_inner`, `C89_rim`, `C89_tangents`, `C89_inner_near`, `C91_branches_partial`, `C91_shared_work_partial`, `C91_independent_partial`, `C91_shared_list_refuted`, `C92_even_levels`, `C92_two_runs`, `C92_paths`, `C92_parallelogram`, `C93_rounded_length_terminates`, `C93_floating`, `C93_neighbours_never_return`, `C94_rounded_area_terminates`, `C94_neighbours_never_return`, `C95_cell`, `C95_edge`, `C95_iterative`, `C95_no_growth`, `C95_butterfly_reached`, `C95_conditional_jumps`, `C96_parts`, `C96_parts_sqrt3`, `C96_parts_order`, `C96_second_part_kept`, `C96_linear`, `C96_shape`, `C96_sqrt3`, `C96_linear_edge`, `C96_triangle_between`, `C97_converted_once`, `C98_rounded_loop_terminates`, `C98_floating`, `C98_neighbours_never_return`, `C99_cell_partial`, `C99_edge_partial`, `C99_iterative_partial`, `C99_conditional_area_partial`, `C99_conditional_length_partial`, `C99_touching_refuted`, `C100_kept`, `C100_edge`, `C100_sqrt3`, `C100_kept_levels`, `C100_sqrt3_levels`, `C100_loop_inner`, `C100_loop_rim`, `C100_loop`, `C100_loop_levels`, `C101_cell`, `C101_edge`, `C101_iterative`, `C101_conditional_area`, `C101_conditional_length`, `C101_closed`, `C101_closed_levels`, `C101_reached`, `C102_cell`, `C102_edge`, `C102_iterative`, `C102_sqrt3_excluded`, `C103_linear`, `C103_linear_edge`, `C103_linear_levels`, `C103_counts`, `C103_counts_levels`, `C103_sqrt3_excluded`, `C104_rim`, `C104_rim_edge`, `C104_rim_levels`, `C104_rim_conditional`, `C104_rim_conditional_edge`, `C104_length`, `C105_more_cells`, `C105_more_levels`, `C105_sqrt3_size`, `C105_more_sqrt3`, `C105_more_edges`, `C105_more_butterfly`, `C105_repeats_excluded`, `C106_cell`, `C106_edge`, `C106_levels`, `C106_corners`, `C106_linear`, `C106_linear_edge`, `C106_linear_levels`, `C106_sqrt3_excluded`, `C106_linear_conditional`, `C106_linear_conditional_edge`
