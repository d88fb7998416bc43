Axioms of each property theorem, as printed by `#print axioms` (Lean 4.33.0).

C01_set_get_2D: propext, Classical.choice, Quot.sound
C01_set_get_3D: propext, Classical.choice, Quot.sound
C02_panics_exactly_out_of_range_2D: propext, Classical.choice, Quot.sound
C02_panics_exactly_out_of_range_3D: propext, Classical.choice, Quot.sound
C03_try_from_lossless_2D: propext, Classical.choice, Quot.sound
C03_try_from_lossless_3D: propext, Classical.choice, Quot.sound
C04_fixed_pads_zero_2D: propext, Classical.choice, Quot.sound
C04_fixed_pads_zero_3D: propext, Classical.choice, Quot.sound
C05_too_many_cells_2D: propext, Classical.choice, Quot.sound
C05_too_many_cells_3D: propext, Classical.choice, Quot.sound
C06_iterator_2D: propext, Classical.choice, Quot.sound
C06_iterator_3D: propext, Classical.choice, Quot.sound
C07_inverted_2D: propext, Classical.choice, Quot.sound
C07_inverted_3D: propext, Classical.choice, Quot.sound
C08_ancestor_2D: propext, Classical.choice, Quot.sound
C08_ancestor_3D: propext, Classical.choice, Quot.sound
C09_parent_and_with_depth_2D: propext, Classical.choice, Quot.sound
C09_parent_and_with_depth_3D: propext, Classical.choice, Quot.sound
C10_descendant_and_child_2D: propext, Classical.choice, Quot.sound
C10_descendant_and_child_3D: propext, Classical.choice, Quot.sound
C11_refuted: propext, Quot.sound
C11_refuted_raw_3D: propext, Quot.sound
C11_round_trips_2D_partial: propext, Classical.choice, Quot.sound
C11_round_trips_3D_partial: propext, Classical.choice, Quot.sound
C12_static_order_2D: propext, Classical.choice, Quot.sound
C12_static_order_3D: propext, Classical.choice, Quot.sound
C13_dynamic_order_2D: propext, Classical.choice, Quot.sound
C13_dynamic_order_3D: propext, Classical.choice, Quot.sound
C14_fixed_order_2D: propext, Classical.choice, Quot.sound
C14_fixed_order_3D_partial: propext, Classical.choice, Quot.sound
C14_refuted: propext, Quot.sound
C15_cmp_agrees_with_eq_2D_partial: propext, Classical.choice, Quot.sound
C15_cmp_agrees_with_eq_3D_partial: propext, Classical.choice, Quot.sound
C15_refuted: propext, Quot.sound
C15_refuted_raw_3D: propext, Quot.sound
C15_total_order_2D: propext, Classical.choice, Quot.sound
C15_total_order_3D: propext, Classical.choice, Quot.sound
C16_eq_2D_partial: propext, Classical.choice, Quot.sound
C16_eq_3D_partial: propext, Classical.choice, Quot.sound
C16_fixed_eq_2D: propext, Classical.choice, Quot.sound
C16_refuted: propext, Quot.sound
C16_refuted_converted_3D: propext, Quot.sound
C16_refuted_raw_3D: propext, Quot.sound
C17_equal_indices_hash_equally_2D: propext, Quot.sound
C17_equal_indices_hash_equally_3D: propext, Quot.sound
C18_subtree_contiguous_2D: propext, Classical.choice, Quot.sound
C18_subtree_contiguous_3D: propext, Classical.choice, Quot.sound
C19_reads_grid_2D: propext, Classical.choice, Quot.sound
C19_reads_grid_3D: propext, Classical.choice, Quot.sound
C20_deep_grid_2D_partial: propext, Classical.choice, Quot.sound
C20_deep_grid_3D_partial: propext, Classical.choice, Quot.sound
C20_refuted_2D: propext, Classical.choice, Quot.sound
C20_refuted_3D: propext, Classical.choice, Quot.sound
C21_fixed_grid_2D: propext, Classical.choice, Quot.sound
C22_fixed_grid_3D: propext, Classical.choice, Quot.sound
C23_fast_equals_generic_3D: propext, Classical.choice, Quot.sound
C24_elsewhere_2D: propext, Classical.choice, Quot.sound
C24_refuted: propext, Quot.sound
C24_refuted_narrow: propext, Quot.sound
C24_static_grid_2D_partial: propext, Classical.choice, Quot.sound
C25_exact_cells_3D: propext, Classical.choice, Quot.sound
C25_exact_position_3D: propext, Classical.choice, Quot.sound
C25_inexact_loses_levels_3D: propext, Classical.choice, Quot.sound
C25_refuted: propext, Quot.sound
C25_static_grid_3D_partial: propext, Classical.choice, Quot.sound
C26_dynamic_grid_2D: propext, Classical.choice, Quot.sound
C26_dynamic_grid_3D: propext, Classical.choice, Quot.sound
C27_moving_in_the_grid_2D: propext, Classical.choice, Quot.sound
C27_moving_in_the_grid_3D: propext, Classical.choice, Quot.sound
C28_cell_strings_2D: propext, Classical.choice, Quot.sound
C28_cell_strings_3D: propext, Classical.choice, Quot.sound
C29_grid_strings_2D: propext, Classical.choice, Quot.sound
C29_grid_strings_3D: propext, Classical.choice, Quot.sound
C30_orderings_2D: propext, Quot.sound
C30_orderings_3D: propext, Quot.sound
C31_cell_comparisons_2D: (none)
C31_cell_comparisons_3D: (none)
C31_cell_numbers_2D: propext, Classical.choice, Quot.sound
C31_cell_numbers_3D: propext, Classical.choice, Quot.sound
C32_conversions_2D: propext, Classical.choice, Quot.sound
C32_conversions_3D: propext, Classical.choice, Quot.sound
C32_round_trips_2D: propext, Classical.choice, Quot.sound
C32_round_trips_3D: propext, Classical.choice, Quot.sound
C33_any_bits_2D: propext, Classical.choice, Quot.sound
C33_any_bits_3D: propext, Classical.choice, Quot.sound
C33_big_endian_2D_partial: propext, Classical.choice, Quot.sound
C33_big_endian_3D_partial: propext, Classical.choice, Quot.sound
C33_dynamic_to_fixed_2D_partial: propext, Classical.choice, Quot.sound
C33_dynamic_to_fixed_3D_partial: propext, Classical.choice, Quot.sound
C33_exact_bits_2D: propext, Classical.choice, Quot.sound
C33_exact_bits_3D: propext, Classical.choice, Quot.sound
C33_exact_cells_2D: propext, Classical.choice, Quot.sound
C33_kept_iff_2D: propext, Classical.choice, Quot.sound
C33_kept_iff_3D: propext, Classical.choice, Quot.sound
C33_refuted: propext, Quot.sound
C33_refuted_zeroed_2D: propext, Quot.sound
C34_conversions_keep_cmp_2D: propext, Classical.choice, Quot.sound
C34_conversions_keep_cmp_3D: propext, Classical.choice, Quot.sound
C34_conversions_keep_order_2D: propext, Classical.choice, Quot.sound
C34_conversions_keep_order_3D: propext, Classical.choice, Quot.sound
C34_order_any_bits_3D: propext, Classical.choice, Quot.sound
C35_integer_get_bits: propext, Classical.choice, Quot.sound
C35_integer_set_bits: propext, Classical.choice, Quot.sound
C36_kept_iff: propext, Classical.choice, Quot.sound
C36_refuted: propext, Quot.sound
C36_set_bits_stays_in_range_partial: propext, Classical.choice, Quot.sound
C37_vec_get_bits_as_usize: propext, Classical.choice, Quot.sound
C37_vec_set_bits: propext, Classical.choice, Quot.sound
C37_vec_set_bits_from_usize: propext, Classical.choice, Quot.sound
C38_exact_iff: propext, Classical.choice, Quot.sound
C38_refuted: propext, Quot.sound
C38_vec_get_bits_partial: propext, Classical.choice, Quot.sound
C39_exact_by_two: propext, Quot.sound
C39_refuted: propext, Quot.sound
C39_spread_by_three: propext, Classical.choice, Quot.sound
C39_spread_by_two_partial: propext, Classical.choice, Quot.sound
C40_align_to_partial: propext, Quot.sound
C40_refuted: propext, Quot.sound
C41_compare_2D: propext, Classical.choice, Quot.sound
C41_compare_3D_partial: propext, Classical.choice, Quot.sound
C41_compare_elements: propext, Classical.choice, Quot.sound
C41_display: propext, Classical.choice, Quot.sound
C41_display_2D: propext, Classical.choice, Quot.sound
C41_display_3D: propext, Classical.choice, Quot.sound
C41_display_exact_2D: propext, Classical.choice, Quot.sound
C41_display_exact_3D: propext, Classical.choice, Quot.sound
C41_eq_2D_partial: propext, Classical.choice, Quot.sound
C41_eq_3D_partial: propext, Classical.choice, Quot.sound
C41_refuted: propext, Classical.choice, Quot.sound
C42_from_u8_slice: propext, Quot.sound
C43_programs_2D: propext, Classical.choice, Quot.sound
C43_programs_3D: propext, Classical.choice, Quot.sound
C44_no_undefined_behaviour_2D: propext, Classical.choice, Quot.sound
C44_no_undefined_behaviour_3D: propext, Classical.choice, Quot.sound
C45_z_order_2D: propext, Classical.choice, Quot.sound
C45_z_order_3D: propext, Classical.choice, Quot.sound
C46_dynamic_zeroed_2D_partial: propext, Classical.choice, Quot.sound
C46_dynamic_zeroed_3D: propext, Classical.choice, Quot.sound
C46_refuted: propext, Quot.sound
C46_static_zeroed_2D: propext, Classical.choice, Quot.sound
C46_static_zeroed_3D: propext, Classical.choice, Quot.sound
C47_big_endian_stores_zero_2D: propext, Classical.choice, Quot.sound
C47_big_endian_stores_zero_3D: propext, Classical.choice, Quot.sound
C47_dynamic_cells_2D_partial: propext, Classical.choice, Quot.sound
C47_dynamic_cells_3D_partial: propext, Classical.choice, Quot.sound
C47_refuted: propext, Classical.choice, Quot.sound
C48_defaults_2D: propext, Classical.choice, Quot.sound
C48_defaults_3D: propext, Classical.choice, Quot.sound
C48_refuted: propext, Quot.sound
C48_root_2D_partial: propext, Classical.choice, Quot.sound
C48_root_3D_partial: propext, Classical.choice, Quot.sound
C49_fixed_raw_3D: propext, Classical.choice, Quot.sound
C49_static_raw_3D: propext, Classical.choice, Quot.sound
C49_unused_bits_matter_3D: propext, Quot.sound
C50_write_back_restores_2D: propext, Classical.choice, Quot.sound
C50_write_back_restores_3D: propext, Classical.choice, Quot.sound
C51_fixed_grid_16bit_3D: propext, Classical.choice, Quot.sound
C51_position_lost_16bit_3D: propext, Classical.choice, Quot.sound
C52_unchecked_accessors_2D: propext, Classical.choice, Quot.sound
C52_unchecked_accessors_3D: propext, Classical.choice, Quot.sound
C53_bitmask_3D: propext, Classical.choice, Quot.sound
C53_max_depth_2D: propext, Classical.choice, Quot.sound
C53_max_depth_3D: propext, Classical.choice, Quot.sound
C54_integer_conversions: propext, Quot.sound
C54_vec_conversions: propext, Classical.choice, Quot.sound
C54_vec_from_u8_slice: propext, Quot.sound
C54_write_bytes: propext, Classical.choice, Quot.sound
C55_children_ordered_2D: propext, Classical.choice, Quot.sound
C55_children_ordered_3D: propext, Classical.choice, Quot.sound
C55_set_monotone_2D: propext, Classical.choice, Quot.sound
C55_set_monotone_3D: propext, Classical.choice, Quot.sound
C55_set_monotone_any_bits_3D: propext, Classical.choice, Quot.sound
C56_ancestor_descendant_2D: propext, Classical.choice, Quot.sound
C56_ancestor_descendant_3D: propext, Classical.choice, Quot.sound
C56_ancestors_compose_2D: propext, Classical.choice, Quot.sound
C56_ancestors_compose_3D: propext, Classical.choice, Quot.sound
C56_descendants_compose_2D: propext, Classical.choice, Quot.sound
C56_descendants_compose_3D: propext, Classical.choice, Quot.sound
C57_to_fixed_any_bits_3D: propext, Classical.choice, Quot.sound
C57_to_fixed_monotone_2D: propext, Classical.choice, Quot.sound
C57_to_fixed_monotone_3D: propext, Classical.choice, Quot.sound
C58_conversions_commute_2D: propext, Classical.choice, Quot.sound
C58_conversions_commute_3D: propext, Classical.choice, Quot.sound
C59_elsewhere_2D: propext, Classical.choice, Quot.sound
C59_exact_3D: propext, Classical.choice, Quot.sound
C59_grid_constructors_agree_2D: propext, Classical.choice, Quot.sound
C59_grid_constructors_agree_3D_partial: propext, Classical.choice, Quot.sound
C60_debug_release_2D: propext, Quot.sound
C60_debug_release_3D: propext, Quot.sound
C60_debug_release_bits: propext, Quot.sound
C60_debug_release_programs: propext, Quot.sound
C61_interchangeable_2D: propext, Classical.choice, Quot.sound
C61_interchangeable_3D: propext, Classical.choice, Quot.sound
C62_eq_is_equivalence: propext, Quot.sound
C62_eq_is_sound_2D: propext, Classical.choice, Quot.sound
C62_eq_is_sound_3D: propext, Classical.choice, Quot.sound
C63_round_trips_2D: propext, Classical.choice, Quot.sound
C63_round_trips_3D: propext, Classical.choice, Quot.sound
C64_fixed_order_all_bits_3D: propext, Classical.choice, Quot.sound
C65_walk_2D: propext, Classical.choice, Quot.sound
C65_walk_3D: propext, Classical.choice, Quot.sound
C66_order_any_bits_3D: propext, Classical.choice, Quot.sound
C66_order_is_z_order_2D: propext, Classical.choice, Quot.sound
C66_order_is_z_order_3D: propext, Classical.choice, Quot.sound
C67_subtree_is_box_2D: propext, Classical.choice, Quot.sound
C67_subtree_is_box_3D: propext, Classical.choice, Quot.sound
C68_orderings_rename_axes_2D: propext, Quot.sound
C68_orderings_rename_axes_3D: propext, Quot.sound
C69_sorted_is_tree_2D: propext, Classical.choice, Quot.sound
C69_sorted_is_tree_3D: propext, Classical.choice, Quot.sound
C70_write_moves_in_grid_2D: propext, Classical.choice, Quot.sound
C70_write_moves_in_grid_3D: propext, Classical.choice, Quot.sound
C71_inverted_mirrors_grid_2D: propext, Classical.choice, Quot.sound
C71_inverted_mirrors_grid_3D: propext, Classical.choice, Quot.sound
C72_descendant_grid_2D: propext, Classical.choice, Quot.sound
C72_descendant_grid_3D: propext, Classical.choice, Quot.sound
C73_cell_number_message: propext
C73_messages_2D: propext, Classical.choice, Quot.sound
C73_messages_3D: propext, Classical.choice, Quot.sound
C73_messages_distinct: propext, Classical.choice, Quot.sound
C74_subtree_range_2D: propext, Classical.choice, Quot.sound
C74_subtree_range_3D: propext, Classical.choice, Quot.sound
C75_prefix_range_2D: propext, Classical.choice, Quot.sound
C75_prefix_range_3D: propext, Classical.choice, Quot.sound
C75_prefix_range_any_bits_3D: propext, Classical.choice, Quot.sound
C76_integer_reads_partial: propext, Classical.choice, Quot.sound
C76_integer_writes_partial: propext, Classical.choice, Quot.sound
C76_refuted: propext, Classical.choice, Quot.sound
C76_release_builds: propext, Classical.choice, Quot.sound
C76_start_wraps: propext, Quot.sound
C76_vec_first_fault: propext, Classical.choice, Quot.sound
C76_vec_panics_partial: propext, Classical.choice, Quot.sound
C76_vec_short_value: propext, Classical.choice, Quot.sound
C76_vec_usize_reads: propext, Classical.choice, Quot.sound
C76_vec_usize_value: propext, Classical.choice, Quot.sound
C77_common_ancestors_2D: propext, Classical.choice, Quot.sound
C77_common_ancestors_3D: propext, Classical.choice, Quot.sound
C78_debug_text_2D: propext, Classical.choice, Quot.sound
C78_debug_text_3D: propext, Classical.choice, Quot.sound
C78_debug_text_enums: propext, Classical.choice, Quot.sound
C78_pretty_text_2D: propext, Classical.choice, Quot.sound
C78_pretty_text_3D: propext, Classical.choice, Quot.sound
C78_pretty_text_enums: propext, Classical.choice, Quot.sound
C79_release_2D: propext, Classical.choice, Quot.sound
C79_release_3D: propext, Classical.choice, Quot.sound
C79_release_dynamic_2D: propext, Classical.choice, Quot.sound
C79_release_dynamic_3D: propext, Classical.choice, Quot.sound
C79_unchecked_beyond_depth_2D: propext, Classical.choice, Quot.sound
C79_unchecked_beyond_depth_3D: propext, Classical.choice, Quot.sound
C80_bits_2D: propext, Quot.sound
C80_bits_3D: propext, Quot.sound
C80_layout_2D: propext, Classical.choice, Quot.sound
C80_layout_3D: propext, Classical.choice, Quot.sound
C80_navigation_2D: propext, Classical.choice, Quot.sound
C80_navigation_3D: propext, Classical.choice, Quot.sound
C80_order_2D: propext, Classical.choice, Quot.sound
C80_order_3D: propext, Classical.choice, Quot.sound
C80_provided_methods: propext, Quot.sound
C80_unused_bits_split_order_and_equality: propext, Quot.sound
C81_bytes_2D: propext, Classical.choice, Quot.sound
C81_bytes_3D_partial: propext, Classical.choice, Quot.sound
C81_bytes_3D_refuted: propext, Quot.sound
C81_integers_2D: propext, Classical.choice, Quot.sound
C81_integers_3D: propext, Classical.choice, Quot.sound
C82_programs_2D: propext, Classical.choice, Quot.sound
C82_programs_3D: propext, Classical.choice, Quot.sound
C83_access_2D: propext, Classical.choice, Quot.sound
C83_access_3D: propext, Classical.choice, Quot.sound
C83_crate_storages_2D: propext, Classical.choice, Quot.sound
C83_crate_storages_3D: propext, Classical.choice, Quot.sound
C83_grid_2D: propext, Classical.choice, Quot.sound
C83_grid_3D: propext, Classical.choice, Quot.sound
C83_grid_navigation_2D: propext, Classical.choice, Quot.sound
C83_grid_navigation_3D: propext, Classical.choice, Quot.sound
C83_navigation_2D: propext, Classical.choice, Quot.sound
C83_navigation_3D: propext, Classical.choice, Quot.sound
C83_order_2D: propext, Classical.choice, Quot.sound
C83_order_3D: propext, Classical.choice, Quot.sound
C83_programs_2D: propext, Classical.choice, Quot.sound
C83_programs_3D: propext, Classical.choice, Quot.sound
C83_strings_2D: propext, Classical.choice, Quot.sound
C83_strings_3D: propext, Classical.choice, Quot.sound
C84_bytes_2D: propext, Classical.choice, Quot.sound
C84_bytes_3D: propext, Classical.choice, Quot.sound
C84_bytes_big_endian_2D: propext, Classical.choice, Quot.sound
C84_bytes_big_endian_3D: propext, Classical.choice, Quot.sound
C84_containers: propext, Classical.choice, Quot.sound
C84_conversions_2D: propext, Classical.choice, Quot.sound
C84_conversions_3D: propext, Classical.choice, Quot.sound
C84_exact_cells_3D: propext, Classical.choice, Quot.sound
C84_exact_grid_2D: propext, Classical.choice, Quot.sound
C84_exact_position_3D: propext, Classical.choice, Quot.sound
C84_fixed_constructors_2D: propext, Classical.choice, Quot.sound
C84_fixed_constructors_3D: propext, Classical.choice, Quot.sound
C84_fixed_grid_2D: propext, Classical.choice, Quot.sound
C84_fixed_grid_3D: propext, Classical.choice, Quot.sound
C84_hash_2D: propext, Quot.sound
C84_hash_3D: propext, Quot.sound
C84_native_2D: propext, Quot.sound
C84_native_3D: propext, Quot.sound
C84_native_storages_2D: propext, Quot.sound
C84_native_storages_3D: propext, Quot.sound
C84_raw_3D: propext, Quot.sound
C84_static_constructors_2D: propext, Classical.choice, Quot.sound
C84_static_constructors_3D: propext, Classical.choice, Quot.sound
C84_static_grid_2D: propext, Classical.choice, Quot.sound
C84_static_grid_3D: propext, Classical.choice, Quot.sound
C84_storages_2D: propext, Classical.choice, Quot.sound
C84_storages_3D: propext, Classical.choice, Quot.sound
C85_conversions_2D: propext, Classical.choice, Quot.sound
C85_conversions_3D: propext, Classical.choice, Quot.sound
C85_descendant_2D: propext, Classical.choice, Quot.sound
C85_descendant_3D: propext, Classical.choice, Quot.sound
C85_grid_2D: propext, Classical.choice, Quot.sound
C85_grid_3D: propext, Classical.choice, Quot.sound
C85_grid_release_2D: propext, Classical.choice, Quot.sound
C85_grid_release_3D: propext, Classical.choice, Quot.sound
C85_kept_2D: propext, Classical.choice, Quot.sound
C85_kept_3D: propext, Classical.choice, Quot.sound
C85_refuted_2D: propext, Classical.choice, Quot.sound
C85_refuted_3D: propext, Classical.choice, Quot.sound
C85_storages_2D_partial: propext, Classical.choice, Quot.sound
C85_storages_3D_partial: propext, Classical.choice, Quot.sound
C85_try_from_2D: propext, Classical.choice, Quot.sound
C85_try_from_3D: propext, Classical.choice, Quot.sound
C86_cells: propext, Quot.sound
C86_integers: propext, Classical.choice, Quot.sound
C86_integers_dynamic: propext, Classical.choice, Quot.sound
C86_integers_wide: propext, Classical.choice, Quot.sound
C86_max_levels: propext
C86_refuted_nine_dimensions: propext, Quot.sound
C86_vectors: propext, Classical.choice, Quot.sound
C86_vectors_dynamic: propext, Classical.choice, Quot.sound
C86_vectors_dynamic_reads: propext, Classical.choice, Quot.sound
C86_vectors_reads: propext, Classical.choice, Quot.sound
C86_vectors_writes: propext, Classical.choice, Quot.sound
C87_cells: propext, Classical.choice, Quot.sound
C87_inverted: propext, Classical.choice, Quot.sound
C87_navigation: propext, Classical.choice, Quot.sound
C88_crate_types: propext, Classical.choice, Quot.sound
C88_crate_types_vectors: propext, Classical.choice, Quot.sound
C88_storages: propext
C89_hash_cells: propext
C89_hash_input_2D: propext, Quot.sound
C89_hash_input_3D: propext, Quot.sound
C89_hash_lists: propext, Classical.choice, Quot.sound
C89_hash_other_containers: propext, Quot.sound
C90_order_any_bits_3D: propext, Classical.choice, Quot.sound
C90_order_by_corner_2D: propext, Classical.choice, Quot.sound
C90_order_by_corner_3D_partial: propext, Classical.choice, Quot.sound
C90_refuted_stray_bits_3D: propext, Quot.sound
C91_nested_or_disjoint_2D: propext, Classical.choice, Quot.sound
C91_nested_or_disjoint_3D: propext, Classical.choice, Quot.sound
C91_tiles_2D: propext, Classical.choice, Quot.sound
C91_tiles_3D: propext, Classical.choice, Quot.sound
C92_string_order_2D: propext, Classical.choice, Quot.sound
C92_string_order_3D: propext, Classical.choice, Quot.sound
C92_string_order_any_bits_3D: propext, Classical.choice, Quot.sound
C92_string_prefix_2D: propext, Classical.choice, Quot.sound
C92_string_prefix_3D: propext, Classical.choice, Quot.sound
C93_shared_ancestors_2D: propext, Classical.choice, Quot.sound
C93_shared_ancestors_3D: propext, Classical.choice, Quot.sound
C93_steps_2D: propext, Classical.choice, Quot.sound
C93_steps_3D: propext, Classical.choice, Quot.sound
C93_steps_any_bits_2D: propext, Classical.choice, Quot.sound
C93_steps_any_bits_3D: propext, Classical.choice, Quot.sound
C94_bottom_up_2D: propext, Classical.choice, Quot.sound
C94_bottom_up_3D: propext, Classical.choice, Quot.sound
C95_point_location_2D: propext, Classical.choice, Quot.sound
C95_point_location_3D: propext, Classical.choice, Quot.sound
C96_leaves_fill_2D: propext, Classical.choice, Quot.sound
C96_leaves_fill_3D: propext, Classical.choice, Quot.sound
C97_window_corners_2D: propext, Classical.choice, Quot.sound
C97_window_corners_3D: propext, Classical.choice, Quot.sound
C97_window_corners_any_bits_3D: propext, Classical.choice, Quot.sound
C97_window_query_2D: propext, Classical.choice, Quot.sound
C97_window_query_3D: propext, Classical.choice, Quot.sound
C98_counting_2D: propext, Classical.choice, Quot.sound
C98_counting_3D: propext, Classical.choice, Quot.sound
C98_counting_any_bits_3D: propext, Classical.choice, Quot.sound
C98_raw_number_3D: propext, Classical.choice, Quot.sound
C99_morton_code_2D: propext, Classical.choice, Quot.sound
C99_morton_code_3D: propext, Classical.choice, Quot.sound
C99_raw_code_3D: propext, Classical.choice, Quot.sound
C100_stackless_2D: propext, Classical.choice, Quot.sound
C100_stackless_3D: propext, Classical.choice, Quot.sound
C101_encodes_2D: propext, Classical.choice, Quot.sound
C101_encodes_3D: propext, Classical.choice, Quot.sound
C101_sorts_by_code_2D: propext, Classical.choice, Quot.sound
C101_sorts_by_code_3D: propext, Classical.choice, Quot.sound
C101_sorts_by_code_any_bits_3D: propext, Classical.choice, Quot.sound
C102_nested_2D: propext, Classical.choice, Quot.sound
C102_nested_3D: propext, Classical.choice, Quot.sound
C102_points_2D: propext, Classical.choice, Quot.sound
C102_points_3D: propext, Classical.choice, Quot.sound
C102_points_any_bits_3D: propext, Classical.choice, Quot.sound
C103_overlaps_2D: propext, Classical.choice, Quot.sound
C103_overlaps_3D: propext, Classical.choice, Quot.sound
C104_refine_2D: propext, Classical.choice, Quot.sound
C104_refine_3D: propext, Classical.choice, Quot.sound
C104_replace_2D: propext, Classical.choice, Quot.sound
C104_replace_3D: propext, Classical.choice, Quot.sound
C105_complete_2D: propext, Classical.choice, Quot.sound
C105_complete_3D: propext, Classical.choice, Quot.sound
C105_subdivide_2D: propext, Classical.choice, Quot.sound
C105_subdivide_3D: propext, Classical.choice, Quot.sound
C106_fold_2D: propext, Classical.choice, Quot.sound
C106_fold_3D: propext, Classical.choice, Quot.sound
C106_rebuild_2D: propext, Classical.choice, Quot.sound
C106_rebuild_3D: propext, Classical.choice, Quot.sound
C107_regions_2D: propext, Classical.choice, Quot.sound
C107_regions_3D: propext, Classical.choice, Quot.sound
C108_big_endian_refuted: propext, Quot.sound
C108_conversion_tests_2D: propext, Classical.choice, Quot.sound
C108_conversion_tests_3D: propext, Classical.choice, Quot.sound
C108_dynamic_tests_2D: propext, Classical.choice, Quot.sound
C108_dynamic_tests_3D: propext, Classical.choice, Quot.sound
C108_fixed_tests_2D: propext, Classical.choice, Quot.sound
C108_fixed_tests_3D: propext, Classical.choice, Quot.sound
C108_narrow_targets_2D: propext, Classical.choice, Quot.sound
C108_narrow_targets_3D: propext, Classical.choice, Quot.sound
C108_static_tests_2D: propext, Classical.choice, Quot.sound
C108_static_tests_3D: propext, Classical.choice, Quot.sound
C109_conversions_2D: propext, Classical.choice, Quot.sound
C109_conversions_3D: propext, Classical.choice, Quot.sound
C109_equality_2D: propext, Classical.choice, Quot.sound
C109_equality_3D: propext, Classical.choice, Quot.sound
C109_root_2D: propext, Classical.choice, Quot.sound
C109_root_3D: propext, Classical.choice, Quot.sound
C109_round_trips_2D: propext, Classical.choice, Quot.sound
C109_round_trips_3D: propext, Classical.choice, Quot.sound
C109_unspoiled_2D: propext, Classical.choice, Quot.sound
C109_unspoiled_3D: propext, Classical.choice, Quot.sound
C110_hash_maps_2D: propext, Classical.choice, Quot.sound
C110_hash_maps_3D: propext, Classical.choice, Quot.sound
C110_hash_maps_any: propext, Classical.choice, Quot.sound
C110_sorted_maps_2D: propext, Classical.choice, Quot.sound
C110_sorted_maps_3D: propext, Classical.choice, Quot.sound
C110_spoiled_keys: propext, Quot.sound
C111_grid_text_2D: propext, Classical.choice, Quot.sound
C111_grid_text_3D: propext, Classical.choice, Quot.sound
C111_load_exactly_2D: propext, Classical.choice, Quot.sound
C111_load_exactly_3D: propext, Classical.choice, Quot.sound
C111_round_trip_2D: propext, Classical.choice, Quot.sound
C111_round_trip_3D: propext, Classical.choice, Quot.sound
C112_walk_up_2D: propext, Classical.choice, Quot.sound
C112_walk_up_3D: propext, Classical.choice, Quot.sound
C113_move_subtree_2D: propext, Classical.choice, Quot.sound
C113_move_subtree_3D: propext, Classical.choice, Quot.sound
C114_map_cells_2D: propext, Classical.choice, Quot.sound
C114_map_cells_3D: propext, Classical.choice, Quot.sound
C114_maps_exist_2D: Classical.choice
C114_maps_exist_3D: Classical.choice
C114_symmetries_2D: propext, Classical.choice, Quot.sound
C114_symmetries_3D: propext, Classical.choice, Quot.sound
C115_gaps_2D: propext, Classical.choice, Quot.sound
C115_gaps_3D: propext, Classical.choice, Quot.sound
C116_radix_sort_2D: propext, Classical.choice, Quot.sound
C116_radix_sort_3D: propext, Classical.choice, Quot.sound
C116_radix_sort_any_bits_3D: propext, Classical.choice, Quot.sound
C117_nearest_2D: propext, Classical.choice, Quot.sound
C117_nearest_3D: propext, Classical.choice, Quot.sound
C118_shared_levels_2D: propext, Classical.choice, Quot.sound
C118_shared_levels_3D: propext, Classical.choice, Quot.sound
C119_front_to_back_2D: propext, Classical.choice, Quot.sound
C119_front_to_back_3D: propext, Classical.choice, Quot.sound
C119_orders_exist_2D: propext, Classical.choice, Quot.sound
C119_orders_exist_3D: propext, Classical.choice, Quot.sound
C120_location_codes_2D: propext, Classical.choice, Quot.sound
C120_location_codes_3D: propext, Classical.choice, Quot.sound
C121_touching_2D: propext, Classical.choice, Quot.sound
C121_touching_3D: propext, Classical.choice, Quot.sound
C122_differences_2D: propext, Classical.choice, Quot.sound
C122_differences_3D: propext, Classical.choice, Quot.sound
C123_enclosing_2D: propext, Classical.choice, Quot.sound
C123_enclosing_3D: propext, Classical.choice, Quot.sound
C124_jumps_2D: propext, Classical.choice, Quot.sound
C124_jumps_3D: propext, Classical.choice, Quot.sound
C125_locates_all_2D: propext, Classical.choice, Quot.sound
C125_locates_all_3D: propext, Classical.choice, Quot.sound
C126_merges_2D: propext, Classical.choice, Quot.sound
C126_merges_3D: propext, Classical.choice, Quot.sound
C127_grid_xor_2D: propext, Classical.choice, Quot.sound
C127_grid_xor_3D: propext, Classical.choice, Quot.sound
C128_carry_2D: propext, Classical.choice, Quot.sound
C128_carry_3D: propext, Classical.choice, Quot.sound
C129_balance_2D: propext, Classical.choice, Quot.sound
C129_balance_3D: propext, Classical.choice, Quot.sound
C130_box_steps_2D: propext, Classical.choice, Quot.sound
C130_box_steps_3D: propext, Classical.choice, Quot.sound
C131_balancing_2D: propext, Classical.choice, Quot.sound
C131_balancing_3D: propext, Classical.choice, Quot.sound
C132_balanced_alike_2D: propext, Classical.choice, Quot.sound
C132_balanced_alike_3D: propext, Classical.choice, Quot.sound
C133_beside_balanced_2D: propext, Classical.choice, Quot.sound
C133_beside_balanced_3D: propext, Classical.choice, Quot.sound
C134_any_order_2D: propext, Classical.choice, Quot.sound
C134_any_order_3D: propext, Classical.choice, Quot.sound
C135_few_beside_2D: propext, Classical.choice, Quot.sound
C135_few_beside_3D: propext, Classical.choice, Quot.sound
