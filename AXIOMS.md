# Axioms of each property theorem

Generated by `tools/design_tables.py --axioms` from Lean's own report.

## none

C48_not_reading, C53_put_get, C53_put_map, C93_user_file_violated, C145_frame_partial, C229_shape

## propext

C34_set_cf_specs_raises, C34_set_cf_specs_restores, C48_memory, C48_successive, C49_check_defaults, C51_copy, C51_defaults, C53_put_value, C59_idempotent, C63_full_order, C63_violated, C91_pair_reload_violated, C93_edit_ignored_violated, C94_assoc_mixed_counterexample, C94_uniquify_violated, C95_inputs_unchanged_violated, C131_get_specs, C137_path, C137_sec_names, C140_first_partial, C147_eval, C149_title, C150_check_partial, C150_extra_partial, C150_extra_violated, C151_desc_violated, C152_blank_violated, C152_other_violated, C152_show_partial, C155_hash_violated, C162_dict, C180_reset_violated, C207_ignored_violated, C207_none, C215_holes_violated, C215_no_error_partial, C215_not_reading_partial

## propext, Classical.choice, Quot.sound

C01_get_iminmax, C01_get_iminmax_unique, C02_linear1d_affine, C02_linear1d_between, C02_linear1d_inside, C02_linear1d_interpolates, C02_linear1d_node, C02_linear1d_node_masked_counterexample, C03_nearest1d, C04_cubic1d_nan, C04_hermit1d_nan, C04_linear1d_nan, C05_cubic1d_formula, C05_cubic1d_node, C05_hermit1d_const, C05_hermit1d_formula, C05_hermit1d_linear, C05_hermit1d_node, C05_outside_nan, C06_linear1d_nearest1d_rows, C07_cubic1d, C07_extrap1d, C07_hermit1d, C07_linear1d, C07_nearest1d, C07_row_order, C07_runs_agree, C08_extrap1d, C08_extrap1d_allnan, C08_extrap1d_idem, C08_extrap1d_keeps, C09_cellave1d_cell, C09_cellave1d_conserves, C09_cellave1d_total, C10_cellave1d_bounds, C10_cellave1d_const, C10_cellave1d_mean, C10_cellave1d_zero_width, C11_arguments_in_domain, C11_haversine_is_great_circle, C11_haversine_meridian, C11_haversine_periodic, C11_haversine_range, C11_haversine_self, C11_haversine_symmetric, C11_haversine_triangle, C11_haversine_zero_coordinates, C11_haversine_zero_iff, C12_closest_first, C12_closest_minimal, C12_closest_nan, C13_convex_exact, C13_convex_exact_total, C13_error_only, C13_inside_located_inside, C13_location_inverts_bilinear, C13_parallelogram_exact, C14_integer_parts, C14_no_cell, C14_outside_recognised, C14_relloc_sound, C14_rellocs_pointwise, C15_along_axis, C15_edges, C15_enclose, C15_regular, C15_shift, C15_too_small, C16_inner, C16_too_small, C17_classic, C17_duplicate_refused, C17_mode_independent, C17_transpose, C17_transpose_ellipsis, C18_layout, C19_pairing_partial, C19_regrid1d_cellave_partial, C19_regrid1d_partial, C19_violated_1d, C19_violated_nd, C20_accepts, C20_regrid1d_accepts, C20_regrid1d_cellave_accepts, C20_regrid1d_conflict, C20_regrid1d_sizes, C21_cellave, C21_method, C21_unknown_extrap, C21_unknown_method, C22_constant, C22_missing_complete, C22_weighted_mean, C23_convolution, C23_identity, C23_identity_missing, C23_linear_data, C23_linear_kernel, C24_footprint, C25_bounds, C25_default, C25_default_turn, C25_filled_by_mean, C25_kernel_refused, C25_more_turns, C25_refused, C25_two_calls, C25_unreached_stay, C25_valid_kept, C26_all_missing_violated, C26_bound, C26_default_2d, C26_default_terminates, C26_result, C26_returns_iff, C26_terminates_partial, C27_forms, C27_int_three_dims_violated, C27_kernel1d, C27_kernel1d_refused, C27_named_kernel, C27_named_kernel_refused, C27_numpy_kernel, C27_shapiro, C27_sign_symmetry, C27_tensor_product_partial, C27_three_kernels_violated, C27_unknown_dim_violated, C28_atmosphere, C28_ocean_s, C28_ocean_s_g1, C28_ocean_s_g2, C28_ocean_sigma, C29_atmosphere, C29_ocean_s, C29_ocean_s_g1, C29_ocean_s_g2, C29_ocean_sigma, C29_stretching_ok, C30_bottom, C30_increasing, C30_range, C30_surface, C31_ocean_s, C31_ocean_s_g1, C31_ocean_s_g2, C32_decode, C32_repeated, C33_coordinate_violated, C33_decodable_types, C33_g2_partial, C33_shared_variable_violated, C33_sigma_term_violated, C33_types_violated, C34_loaded_nonempty, C34_quiet_body, C34_set_options_restores, C35_set_bool_value, C35_set_option, C35_set_option_raises, C35_set_string_value, C35_set_value, C36_load_partial, C36_load_violated, C36_set_failure_partial, C36_set_unloaded_partial, C36_set_violated, C37_existing, C37_forms_agree, C37_no_option_name, C37_single_raises_iff, C38_format_parse, C38_injective, C38_round_trip, C39_keep_location_partial, C39_keep_location_violated, C39_keep_truncates_violated, C39_remove_location_partial, C39_remove_location_violated, C39_set_location_partial, C39_set_location_violated, C39_true_violated, C40_only_valid, C41_get_location, C42_existing_kept, C42_merge_keep, C42_merge_location, C42_merge_none, C42_no_loss, C42_replace, C42_replace_list, C42_replace_located, C43_criteria_order, C43_criteria_sound, C43_match_any_first, C43_match_iff, C43_search_any_found_iff, C43_search_found_iff, C43_search_priority, C43_single_search, C44_location_text_violated, C44_match_any_total_partial, C44_match_total_partial, C44_none_criterion_violated, C44_number_units_partial, C44_numeric_units_violated, C44_rotated_longitude_violated, C45_cycle_never_ends, C45_example, C45_inheritance, C45_names, C45_self_refused, C45_unknown_parent_refused, C46_entries, C47_consistent, C47_get_dim_type, C47_get_dim_type_error, C47_get_dim_types, C47_get_dims, C47_get_dims_injective, C47_ignore_never_raises, C47_search_dim, C48_every_history, C49_assoc, C49_keys, C49_keys_any, C51_output_short, C51_partition, C51_removed, C52_gunique, C52_gunique_idem, C52_gunique_nodup, C52_gunique_unique, C54_axis_partition, C54_axis_valid, C56_idempotent, C56_list_validator, C56_numerics, C56_range, C56_valid_unchanged, C58_collision_violated, C58_dash_violated, C58_nested_case_violated, C60_attribute_violated, C60_get_dim_violated, C60_history_independent_partial, C61_found_partial, C61_hyps_met, C61_not_found_violated, C61_several_partial, C61_several_violated, C61_strict_found_partial, C61_strict_violated, C61_vertical_partial, C61_vertical_violated, C62_match_string_case, C63_reorder_partial, C64_dim_of_coord, C64_invalid_dim, C64_search_from_dim, C65_match, C65_search, C66_same_array_partial, C66_stale_violated, C67_nearest1d_allnan_violated, C67_nearest1d_inside_violated, C67_nearest1d_nan_partial, C67_nearest1d_nothing_violated, C67_nearest1d_violated, C68_cubic1d_affine_iff_partial, C68_cubic1d_const_partial, C68_cubic1d_linear_violated, C69_cellave1d_any_rows_partial, C69_cellave1d_row_lost, C69_cellave1d_rows_partial, C69_cellave1d_rows_violated, C69_cubic1d_hermit1d_out_of_bounds, C69_cubic1d_hermit1d_rows_partial, C70_closest_antipode_violated, C70_closest_defined_iff_partial, C71_location_error_partial, C71_small_cell_violated, C71_trapezoid_zero_division_violated, C72_border_points_violated, C72_border_violated, C72_inner_points, C72_last_cells_violated, C72_located_partial, C72_two_rows_violated, C73_integer_violated, C73_same_iff_partial, C74_affine_partial, C74_memory_iff_partial, C74_memory_violated, C75_coord_partial, C75_dims_partial, C75_names_violated, C75_unnamed_violated, C76_conserv_violated, C76_defaults_partial, C76_extrap_violated, C76_hermit_options_violated, C77_missing_partial, C77_tolerance_violated, C78_far_missing_violated, C78_local_partial, C78_unreached, C79_dims_iff_partial, C80_ocean_s_g1_violated, C80_ocean_s_violated, C80_order_g1_iff_partial, C80_order_iff_partial, C80_shallow_violated, C81_limit_partial, C81_no_stretching_violated, C81_type_ignored_violated, C82_foreign_violated, C82_other_arguments_violated, C82_right_iff_partial, C82_shared_violated, C82_stale_violated, C83_iff_partial, C83_leading_violated, C83_outer_blanks_violated, C83_trailing_violated, C84_empty_options_counterexample, C84_empty_violated, C84_restored_iff_partial, C85_others_iff_partial, C85_others_partial, C85_others_violated, C86_known_partial, C86_unknown_violated, C87_prefix_violated, C87_recognised_partial, C87_trailing_violated, C88_located_partial, C88_merge_any_violated, C88_unlocated_violated, C89_all_labels_violated, C89_first_partial, C89_search_labels_violated, C90_first_iff_partial, C90_long_name_violated, C91_dims_grow_violated, C91_example, C91_two_loads_differ_violated, C92_located_dim_violated, C92_positional_index_violated, C92_positional_partial, C92_positional_violated, C92_repeated_type_violated, C94_assoc_partial, C94_assoc_three_partial, C94_uniquify_any_violated, C94_uniquify_partial, C96_collision_violated, C96_one_filter_partial, C96_short_name_collision_violated, C97_enum_contains_violated, C98_int_bound_iff_partial, C98_int_bound_violated, C98_minmax_iff_partial, C98_minmax_partial, C98_minmax_violated, C99_bool_string_violated, C99_underscore_violated, C100_attrs, C100_data, C100_given, C100_name, C100_no_attrs, C100_replace, C100_unmatched, C101_coords, C101_variable, C102_rename_partial, C102_unchanged_partial, C102_violated, C103_dataset, C104_values, C105_dataset, C106_no_location_partial, C106_prefix_violated, C106_violated, C107_attrs_partial, C107_attrs_violated, C107_name, C108_array_two_violated, C108_array_violated, C108_dataset_violated, C108_fill_partial, C108_not_formatted_partial, C109_conflict_violated, C109_distinct_partial, C109_exact_partial, C110_array_violated, C110_dataset_partial, C110_existing_violated, C110_named_partial, C111_exclude_violated, C111_list_iff_partial, C111_select_violated, C112_get_cs, C112_missing_parameters, C112_ocean_s, C112_ocean_s_g1, C112_ocean_s_g2, C112_sigma, C113_cf_name_violated, C113_register_partial, C113_xoa_name_violated, C114_answers_partial, C114_are_similar_partial, C114_symmetric_partial, C114_unregistered_violated, C115_array_violated, C115_dataset_violated, C115_own_partial, C116_accepts_iff, C116_command_line, C116_declared, C117_flag_violated, C117_load, C117_no_file, C117_not_given_partial, C117_patch_partial, C118_after_violated, C118_file_last_partial, C118_when, C119_no_file_partial, C119_patch_violated, C120_pivot, C120_refused, C121_cycle_violated, C121_limits_iff_partial, C121_none_violated, C122_bbox, C122_comma_blank_violated, C122_count, C122_default, C122_list_violated, C123_bounds, C123_bounds_refused, C123_bounds_violated, C123_half_open_violated, C123_interval, C123_list, C123_refused, C123_refused_text, C124_as256, C124_color, C124_white_violated, C125_center, C125_isotropic, C125_single_violated, C125_symmetric, C125_value, C125_window_size, C126_ends, C126_one_point_violated, C126_same_size, C126_symmetric, C126_window, C127_different_lists, C127_inconsistent, C127_invalid_dims, C127_list_violated, C127_mix_refused, C127_mixed_violated, C127_sizes, C128_cache, C128_contamination_violated, C128_cross, C128_dims, C128_growth_violated, C128_inherits, C128_lists_grow_partial, C128_long_name, C128_long_text, C128_names, C128_own_first_partial, C129_copy_forgets_violated, C129_example_violated, C129_forgotten_violated, C129_given_partial, C129_names_partial, C130_copy_dims_violated, C130_copy_entries, C130_example, C131_contains_violated, C131_getitem, C132_names_partial, C132_objects_violated, C132_unknown_violated, C133_default, C133_list_violated, C133_one_partial, C134_crash_safe, C134_final, C134_others, C135_growth_violated, C135_plural, C135_register, C135_register_list_partial, C135_stale_violated, C135_update_forms, C135_update_keeps, C136_text_partial, C138_extra, C139_array, C139_array_sub_violated, C139_category, C139_dataset, C139_dataset_sub_violated, C141_completed_partial, C141_own_partial, C141_unknown_violated, C142_array_partial, C142_data_var_partial, C142_invalid_location, C142_upper_case_violated, C143_affine_partial, C143_between_partial, C143_identity_partial, C143_nearest_partial, C143_outside_partial, C143_violated, C144_curved_violated, C144_in_ranges_violated, C144_inside_violated, C144_no_value_violated, C144_out_of_ranges_violated, C144_outside_violated, C144_shapes, C146_date, C146_duration, C146_error_violated, C146_format, C146_items, C146_none, C146_range_violated, C146_timedelta64_violated, C147_braces, C147_call, C147_errors, C147_forms, C147_list, C147_path, C147_settings, C148_comments, C148_default_partial, C148_empty_violated, C148_paren_violated, C148_percent_violated, C149_blocks_partial, C149_description_partial, C149_header_violated, C149_headers_partial, C149_long_help_violated, C149_no_header, C149_success_partial, C149_usage_partial, C149_usage_violated, C150_coding_violated, C150_global_title, C151_desc_partial, C151_entries, C151_name, C151_names, C151_text, C152_distinct, C152_open, C152_path, C153_all_violated, C153_commands_partial, C153_none_violated, C153_refused_partial, C154_paths, C154_versions, C156_braces_violated, C156_doc_partial, C156_docstring_partial, C156_other_violated, C156_refused_partial, C157_rst, C157_text, C158_cellave, C158_coordinate_units, C158_regrid1d, C159_cellave, C159_data_units, C159_extrap_units, C159_linear, C159_regrid1d_linear, C159_regrid1d_units, C160_convolve_units, C160_erode_units, C160_factor, C160_kernel_scale, C160_units, C161_accepts_iff, C161_extra, C161_idempotent, C161_modes_violated, C161_none_violated, C161_shape_error, C161_value, C163_cfgargparse_partial, C163_command_line, C163_flag_violated, C163_not_given_partial, C164_boolean, C164_idempotent, C164_other, C164_specs, C165_boolean_violated, C165_file, C165_filter_violated, C165_partial, C166_given_dims, C166_given_same_violated, C166_known_dims, C166_one_dim_refused, C166_plain_mask, C166_plain_mask_refused, C166_same_dim_violated, C166_unknown_dims, C167_dim, C167_single_partial, C167_single_violated, C168_absent, C168_accepts_iff, C168_default, C168_extra, C168_plain, C168_validate, C168_value, C169_errors, C169_grid2loc_violated, C170_cmap_violated, C171_alone_partial, C171_standardize_violated, C172_by_name_partial, C172_names_violated, C173_by_standard_name_partial, C173_misplaced_violated, C173_standard_names_violated, C174_axis_violated, C174_by_name_partial, C174_by_standard_name_partial, C174_horizontal, C174_names_violated, C174_standard_names_violated, C175_round_trip_partial, C175_round_trip_violated, C176_cut_violated, C176_known_dims_partial, C177_axis, C177_distinct, C177_integer_violated, C177_plain_violated, C177_refused, C177_two_dims_partial, C177_two_dims_refused, C178_found_partial, C178_missing_violated, C178_vertical_violated, C179_chosen_partial, C179_no_dim_violated, C179_usual_partial, C180_first_use, C180_reset_partial, C181_given, C181_linear, C181_rows, C182_found, C182_missing, C183_missing_violated, C183_regrid_partial, C183_regrid_violated, C183_value_partial, C184_decreasing_input_violated, C184_decreasing_output_violated, C184_one_cell_partial, C184_regrid1d_input_violated, C184_regrid1d_output_violated, C185_cell_shift, C185_closest_mirror, C185_closest_turns, C185_regular_turn_violated, C185_relloc_shift, C185_relloc_turns_violated, C185_rellocs_shift, C186_cellave, C186_convolve, C186_erode, C186_interp, C186_regrid1d, C187_cubic_hermit, C187_linear, C187_nearest, C187_regrid1d, C188_convolve, C188_erode, C188_erode_default, C188_erode_until, C188_int, C189_cellave, C189_coords_1d, C189_coords_1d_cellave, C189_regrid1d, C190_2d_inner, C190_array_units, C190_reversed, C190_sum, C190_units, C191_g1_units, C191_g2_units, C191_rise, C191_rise_computed, C191_rise_generic, C191_s_units, C191_sigma_units, C192_cell, C192_covered, C192_own_cells, C192_regrid1d, C192_two_steps, C192_two_steps_plain, C193_cell, C193_closest, C193_closest_flipped, C193_closest_transposed, C193_relloc_flipped_violated, C193_relloc_transposed, C194_empty_config_violated, C194_inline, C194_not_dict_violated, C195_accepted, C195_dot_violated, C195_loc_first, C195_never_warned_violated, C195_no_separator_violated, C195_root_first, C195_unchanged, C196_empty_violated, C196_match, C196_name, C196_order, C196_search_violated, C196_text_violated, C196_total, C197_failure, C197_inconsistent_violated, C197_locations, C197_one, C197_same_location_violated, C198_added, C198_arguments, C198_builtin, C198_errors, C198_existing_violated, C198_formula_error_violated, C198_labels, C198_no_sigma, C198_rename_violated, C199_attribute, C199_case, C199_grid_violated, C199_known, C199_named, C199_unknown, C200_category, C200_item, C200_name, C200_unknown, C201_cut, C201_erode_no_turn_partial, C201_erode_violated, C201_integer_weights_partial, C201_normalized_violated, C201_truncated_violated, C202_fraction, C202_monotone_partial, C202_shrink_violated, C202_type_violated, C202_whole_violated, C203_round_trip, C203_round_trip_cubic_hermit, C203_round_trip_nearest, C203_two_steps, C204_cubic, C204_float64, C204_hermit, C204_linear, C204_nearest, C205_between_partial, C205_constant_partial, C205_exact_violated, C205_node_partial, C206_erode_bounds, C206_erode_kept, C206_full, C206_mean, C206_mean_missing, C206_missing_partial, C206_plain, C206_unreached_violated, C207_own, C207_validated_partial, C208_accurate, C208_enclosed, C208_enclosed_decreasing, C208_exact, C208_float64, C208_values, C209_conserv, C209_float64, C209_mean, C209_missing, C209_no_width, C210_accurate_atmosphere, C210_accurate_g1, C210_accurate_g2, C210_accurate_s, C210_accurate_sigma, C210_bottom_g2, C210_float64, C210_order_atmosphere, C210_order_g1, C210_order_g2, C210_order_s, C210_order_sigma, C210_surface, C210_top, C211_cfgfile_violated, C211_compressed, C211_default_violated, C211_described_partial, C211_names, C211_short_usage_partial, C211_title_violated, C211_usage, C212_accurate, C212_cellave, C212_errors, C212_float64, C212_nearest, C213_atmosphere, C213_get_cs, C213_missing, C213_ocean_s_g1_partial, C213_ocean_s_g2_partial, C213_ocean_s_partial, C213_ocean_s_violated, C213_ocean_sigma, C213_sizes, C213_varying_violated, C214_decoded, C215_one_writer_partial, C215_reading_partial, C216_alone, C216_first_read_violated, C216_key_error_violated, C216_leak_violated, C216_not_lost_partial, C216_only_given_partial, C216_reader_violated, C216_unchanged_partial, C217_final_partial, C217_kept_partial, C217_lost_violated, C219_accurate, C219_between, C219_exact, C219_too_small, C220_cellave_partial, C220_cellave_rows_violated, C220_cubic_hermit_partial, C220_empty_violated, C220_exact_partial, C220_extrap, C220_more_rows_violated, C220_nearest_linear_partial, C220_rows, C221_any_indices, C221_closest_exists, C221_grid_only, C222_light_violated, C222_mean, C222_missing_violated, C222_order, C222_plain, C222_plain_missing_partial, C223_cellave, C223_convolve, C223_erode, C223_interp, C223_regrid1d, C224_far_missing_violated, C224_part, C224_part_available, C225_distance, C225_enough, C225_until, C226_closest, C226_defined, C226_haversine, C226_same, C227_exact, C227_middle_violated, C227_plain_rectangle_violated, C227_rectangle_partial, C227_rounding_violated, C228_again, C228_back, C228_last, C228_target, C229_extrap_steps, C229_two_ends, C230_cellave, C230_convolve, C230_cubic_hermit, C230_erode, C230_extrap, C230_interp, C230_reached, C230_regrid1d, C231_again, C231_attributes, C231_attributes_search, C231_exact, C231_order, C231_other_variables, C232_again, C232_kept, C232_last_call, C232_one_file, C232_order, C232_steps, C233_linear_kept_partial, C233_one_dim_violated, C233_stencil, C233_waves_violated, C234_mean, C234_named_kernel, C234_windows, C235_mean, C235_plain, C236_again, C236_masks, C236_no_turn, C236_then, C236_turns, C237_errors, C237_part, C237_same, C238_order, C239_again, C240_s, C240_s_g1, C240_s_g2, C240_shallow_excluded, C240_sigma, C241_last_wins, C241_parse_and_remove, C241_succeeds, C242_assoc, C242_blank_violated, C242_merge_all

## propext, Quot.sound

C20_conflict, C20_sizes, C22_weight, C49_first_priority, C49_first_priority_any, C49_idempotent, C49_lists, C49_lists_any, C49_nodup, C49_overwriteempty, C49_overwriteempty_values, C49_path_priority, C49_subdicts, C49_tuples, C50_inputs_unchanged, C53_put_kind, C54_axis_others, C55_choices, C55_choices_idem, C55_choices_insensitive, C55_choices_sensitive, C55_enum_lookup, C57_converted, C57_idempotent, C57_not_convertible, C57_others, C57_patched, C57_patched_same_type, C58_distinct_partial, C58_round_trip, C59_default, C59_filter_section, C59_flags, C62_match_attrs, C62_match_string, C62_match_string_order, C63_dash, C79_dims_violated, C93_current_partial, C95_inputs_extended_partial, C95_others_unchanged_partial, C97_enum_contains_partial, C97_number_partial, C98_shape_violated, C99_bool_partial, C99_bool_text_violated, C99_underscored_violated, C136_declared_partial, C136_removed_iff_partial, C136_same_partial, C136_sections, C136_typed_violated, C136_unspecified, C137_injective, C138_keyword_only_violated, C138_wrapped, C140_frozen_violated, C140_given, C140_sub_first_partial, C140_sub_given, C140_sub_stale_violated, C145_file_partial, C145_read_back_partial, C145_rw_violated, C150_check_violated, C150_groups, C155_exact_partial, C156_same_violated, C157_accepted, C161_not_validated, C162_load_partial, C162_load_violated, C162_patch_partial, C162_patch_violated, C186_extrap, C194_class, C194_comments_violated, C194_dicts_merged, C194_given, C194_items, C194_others_skipped, C194_section, C202_int, C207_filtered, C215_clean_violated, C215_ends, C215_failures, C215_stat_violated, C218_first_violated, C218_key_error_violated, C218_leak_violated, C218_one_user_partial, C238_forgotten, C238_many, C238_two, C239_calls, C239_calls_copy
