{
 "claims": [
  {
   "property": "C01",
   "status": "proved",
   "theorems": [
    "C01_get_iminmax",
    "C01_get_iminmax_unique"
   ],
   "note": ""
  },
  {
   "property": "C02",
   "status": "proved",
   "theorems": [
    "C02_linear1d_interpolates",
    "C02_linear1d_inside",
    "C02_linear1d_between",
    "C02_linear1d_node",
    "C02_linear1d_affine",
    "C02_linear1d_node_masked_counterexample"
   ],
   "note": "Interpolation formula, betweenness, nodes and affine exactness; C02_linear1d_node_masked_counterexample shows that the node value is lost when the neighbouring datum is NaN (the node claim is proved for intervals with two valid data)."
  },
  {
   "property": "C03",
   "status": "proved",
   "theorems": [
    "C03_nearest1d"
   ],
   "note": ""
  },
  {
   "property": "C04",
   "status": "proved",
   "theorems": [
    "C04_linear1d_nan",
    "C04_cubic1d_nan",
    "C04_hermit1d_nan"
   ],
   "note": "linear1d, cubic1d and hermit1d, every row, every position; nearest1d is C67."
  },
  {
   "property": "C05",
   "status": "proved",
   "theorems": [
    "C05_cubic1d_formula",
    "C05_hermit1d_formula",
    "C05_cubic1d_node",
    "C05_hermit1d_node",
    "C05_hermit1d_linear",
    "C05_hermit1d_const",
    "C05_outside_nan"
   ],
   "note": "Nodes, NaN outside, hermit1d linear/constant reproduction; cubic1d on linear data is C68."
  },
  {
   "property": "C06",
   "status": "proved",
   "theorems": [
    "C06_linear1d_nearest1d_rows"
   ],
   "note": "linear1d and nearest1d in full; the other routines are C69."
  },
  {
   "property": "C07",
   "status": "proved",
   "theorems": [
    "C07_nearest1d",
    "C07_linear1d",
    "C07_cubic1d",
    "C07_hermit1d",
    "C07_extrap1d",
    "C07_row_order",
    "C07_runs_agree"
   ],
   "note": "Store-level interleavings: every admissible interleaving of the row iterations ends with the sequential array. cellave1d is compiled with parallel=False and is not concerned."
  },
  {
   "property": "C08",
   "status": "proved",
   "theorems": [
    "C08_extrap1d",
    "C08_extrap1d_allnan",
    "C08_extrap1d_keeps",
    "C08_extrap1d_idem"
   ],
   "note": ""
  },
  {
   "property": "C09",
   "status": "proved",
   "theorems": [
    "C09_cellave1d_cell",
    "C09_cellave1d_conserves",
    "C09_cellave1d_total"
   ],
   "note": ""
  },
  {
   "property": "C10",
   "status": "proved",
   "theorems": [
    "C10_cellave1d_mean",
    "C10_cellave1d_bounds",
    "C10_cellave1d_const",
    "C10_cellave1d_zero_width"
   ],
   "note": ""
  },
  {
   "property": "C11",
   "status": "proved",
   "theorems": [
    "C11_haversine_is_great_circle",
    "C11_arguments_in_domain",
    "C11_haversine_symmetric",
    "C11_haversine_range",
    "C11_haversine_zero_iff",
    "C11_haversine_self",
    "C11_haversine_zero_coordinates",
    "C11_haversine_periodic",
    "C11_haversine_triangle",
    "C11_haversine_meridian"
   ],
   "note": ""
  },
  {
   "property": "C12",
   "status": "proved",
   "theorems": [
    "C12_closest_minimal",
    "C12_closest_first",
    "C12_closest_nan"
   ],
   "note": ""
  },
  {
   "property": "C13",
   "status": "proved",
   "theorems": [
    "C13_location_inverts_bilinear",
    "C13_parallelogram_exact",
    "C13_inside_located_inside",
    "C13_error_only",
    "C13_convex_exact",
    "C13_convex_exact_total"
   ],
   "note": ""
  },
  {
   "property": "C14",
   "status": "proved",
   "theorems": [
    "C14_relloc_sound",
    "C14_outside_recognised",
    "C14_integer_parts",
    "C14_no_cell",
    "C14_rellocs_pointwise"
   ],
   "note": ""
  },
  {
   "property": "C15",
   "status": "proved",
   "theorems": [
    "C15_edges",
    "C15_enclose",
    "C15_regular",
    "C15_shift",
    "C15_along_axis",
    "C15_too_small"
   ],
   "note": ""
  },
  {
   "property": "C16",
   "status": "proved",
   "theorems": [
    "C16_inner",
    "C16_too_small"
   ],
   "note": ""
  },
  {
   "property": "C17",
   "status": "proved",
   "theorems": [
    "C17_transpose",
    "C17_transpose_ellipsis",
    "C17_mode_independent",
    "C17_classic",
    "C17_duplicate_refused"
   ],
   "note": ""
  },
  {
   "property": "C18",
   "status": "proved",
   "theorems": [
    "C18_layout"
   ],
   "note": ""
  },
  {
   "property": "C19",
   "status": "partial",
   "theorems": [
    "C19_pairing_partial",
    "C19_violated_1d",
    "C19_violated_nd",
    "C19_regrid1d_partial",
    "C19_regrid1d_cellave_partial"
   ],
   "note": "Proved for the layouts PairOk (coordinate varying along trailing other dimensions, or same other dimensions); for the other layouts the code pairs rows wrongly: refuted by C19_violated_1d and C19_violated_nd."
  },
  {
   "property": "C20",
   "status": "proved",
   "theorems": [
    "C20_conflict",
    "C20_sizes",
    "C20_accepts",
    "C20_regrid1d_conflict",
    "C20_regrid1d_sizes",
    "C20_regrid1d_accepts",
    "C20_regrid1d_cellave_accepts"
   ],
   "note": ""
  },
  {
   "property": "C21",
   "status": "proved",
   "theorems": [
    "C21_method",
    "C21_cellave",
    "C21_unknown_method",
    "C21_unknown_extrap"
   ],
   "note": ""
  },
  {
   "property": "C22",
   "status": "proved",
   "theorems": [
    "C22_weighted_mean",
    "C22_constant",
    "C22_missing_complete",
    "C22_weight"
   ],
   "note": ""
  },
  {
   "property": "C23",
   "status": "proved",
   "theorems": [
    "C23_linear_data",
    "C23_linear_kernel",
    "C23_identity",
    "C23_identity_missing",
    "C23_convolution"
   ],
   "note": ""
  },
  {
   "property": "C24",
   "status": "proved",
   "theorems": [
    "C24_footprint"
   ],
   "note": ""
  },
  {
   "property": "C25",
   "status": "proved",
   "theorems": [
    "C25_valid_kept",
    "C25_filled_by_mean",
    "C25_bounds",
    "C25_more_turns",
    "C25_unreached_stay",
    "C25_default",
    "C25_kernel_refused",
    "C25_refused",
    "C25_default_turn",
    "C25_two_calls"
   ],
   "note": ""
  },
  {
   "property": "C26",
   "status": "partial",
   "theorems": [
    "C26_default_terminates",
    "C26_default_2d",
    "C26_result",
    "C26_returns_iff",
    "C26_terminates_partial",
    "C26_all_missing_violated",
    "C26_bound"
   ],
   "note": "Exact condition for returning (C26_returns_iff), bound on the number of turns, termination when targets are reachable; refuted in general: never returns when valid data cannot reach an unmasked point."
  },
  {
   "property": "C27",
   "status": "partial",
   "theorems": [
    "C27_kernel1d",
    "C27_kernel1d_refused",
    "C27_tensor_product_partial",
    "C27_named_kernel",
    "C27_named_kernel_refused",
    "C27_numpy_kernel",
    "C27_forms",
    "C27_three_kernels_violated",
    "C27_int_three_dims_violated",
    "C27_unknown_dim_violated",
    "C27_sign_symmetry",
    "C27_shapiro"
   ],
   "note": "Tensor product, named/numpy/int forms, symmetry and sign proved; refuted for three or more kernels with middle sizes above 1 and for unknown dimension names."
  },
  {
   "property": "C28",
   "status": "proved",
   "theorems": [
    "C28_atmosphere",
    "C28_ocean_sigma",
    "C28_ocean_s",
    "C28_ocean_s_g1",
    "C28_ocean_s_g2"
   ],
   "note": ""
  },
  {
   "property": "C29",
   "status": "proved",
   "theorems": [
    "C29_ocean_sigma",
    "C29_atmosphere",
    "C29_ocean_s",
    "C29_ocean_s_g1",
    "C29_ocean_s_g2",
    "C29_stretching_ok"
   ],
   "note": ""
  },
  {
   "property": "C30",
   "status": "proved",
   "theorems": [
    "C30_surface",
    "C30_bottom",
    "C30_increasing",
    "C30_range"
   ],
   "note": ""
  },
  {
   "property": "C31",
   "status": "proved",
   "theorems": [
    "C31_ocean_s",
    "C31_ocean_s_g1",
    "C31_ocean_s_g2"
   ],
   "note": ""
  },
  {
   "property": "C32",
   "status": "proved",
   "theorems": [
    "C32_decode",
    "C32_repeated"
   ],
   "note": ""
  },
  {
   "property": "C33",
   "status": "partial",
   "theorems": [
    "C33_types_violated",
    "C33_sigma_term_violated",
    "C33_coordinate_violated",
    "C33_decodable_types",
    "C33_g2_partial",
    "C33_shared_variable_violated"
   ],
   "note": "decodable_types gives the exact list of types that can be decoded; refuted for the others (missing comma in the tuple of types, unknown term sigma, coordinate terms)."
  },
  {
   "property": "C34",
   "status": "proved",
   "theorems": [
    "C34_set_options_restores",
    "C34_loaded_nonempty",
    "C34_set_cf_specs_restores",
    "C34_set_cf_specs_raises",
    "C34_quiet_body"
   ],
   "note": ""
  },
  {
   "property": "C35",
   "status": "proved",
   "theorems": [
    "C35_set_value",
    "C35_set_string_value",
    "C35_set_bool_value",
    "C35_set_option",
    "C35_set_option_raises"
   ],
   "note": ""
  },
  {
   "property": "C36",
   "status": "partial",
   "theorems": [
    "C36_load_partial",
    "C36_set_unloaded_partial",
    "C36_set_failure_partial",
    "C36_set_violated",
    "C36_load_violated"
   ],
   "note": "A failing load_options keeps the loaded options, set_options before any load changes nothing; refuted for set_options with an unknown section (session changes dropped, C36_set_failure_partial says exactly what remains) and for a failing first load."
  },
  {
   "property": "C37",
   "status": "proved",
   "theorems": [
    "C37_forms_agree",
    "C37_existing",
    "C37_no_option_name",
    "C37_single_raises_iff"
   ],
   "note": ""
  },
  {
   "property": "C38",
   "status": "proved",
   "theorems": [
    "C38_format_parse",
    "C38_round_trip",
    "C38_injective"
   ],
   "note": ""
  },
  {
   "property": "C39",
   "status": "partial",
   "theorems": [
    "C39_set_location_partial",
    "C39_set_location_violated",
    "C39_keep_location_partial",
    "C39_keep_location_violated",
    "C39_keep_truncates_violated",
    "C39_remove_location_partial",
    "C39_remove_location_violated",
    "C39_true_violated"
   ],
   "note": "Proved for regular names; refuted by names ending in a non-word character, prefix locations, loc=False stripping one word per call, loc=True with declared locations."
  },
  {
   "property": "C40",
   "status": "proved",
   "theorems": [
    "C40_only_valid"
   ],
   "note": ""
  },
  {
   "property": "C41",
   "status": "proved",
   "theorems": [
    "C41_get_location"
   ],
   "note": ""
  },
  {
   "property": "C42",
   "status": "proved",
   "theorems": [
    "C42_merge_location",
    "C42_merge_keep",
    "C42_merge_none",
    "C42_no_loss",
    "C42_existing_kept",
    "C42_replace",
    "C42_replace_located",
    "C42_replace_list"
   ],
   "note": ""
  },
  {
   "property": "C43",
   "status": "proved",
   "theorems": [
    "C43_match_iff",
    "C43_match_any_first",
    "C43_search_found_iff",
    "C43_search_priority",
    "C43_single_search",
    "C43_criteria_sound",
    "C43_criteria_order",
    "C43_search_any_found_iff"
   ],
   "note": ""
  },
  {
   "property": "C44",
   "status": "partial",
   "theorems": [
    "C44_match_total_partial",
    "C44_match_any_total_partial",
    "C44_none_criterion_violated",
    "C44_rotated_longitude_violated",
    "C44_numeric_units_violated",
    "C44_location_text_violated",
    "C44_number_units_partial"
   ],
   "note": "Totality under explicit conditions on attributes; refuted without them (coords with axis None, numeric attributes, text location)."
  },
  {
   "property": "C45",
   "status": "proved",
   "theorems": [
    "C45_inheritance",
    "C45_names",
    "C45_cycle_never_ends",
    "C45_self_refused",
    "C45_unknown_parent_refused",
    "C45_example"
   ],
   "note": ""
  },
  {
   "property": "C46",
   "status": "proved",
   "theorems": [
    "C46_entries"
   ],
   "note": ""
  },
  {
   "property": "C47",
   "status": "proved",
   "theorems": [
    "C47_get_dim_type",
    "C47_get_dim_type_error",
    "C47_search_dim",
    "C47_get_dims",
    "C47_get_dims_injective",
    "C47_get_dim_types",
    "C47_consistent",
    "C47_ignore_never_raises"
   ],
   "note": ""
  },
  {
   "property": "C48",
   "status": "proved",
   "theorems": [
    "C48_not_reading",
    "C48_every_history",
    "C48_memory",
    "C48_successive"
   ],
   "note": ""
  },
  {
   "property": "C49",
   "status": "proved",
   "theorems": [
    "C49_keys_any",
    "C49_first_priority_any",
    "C49_lists_any",
    "C49_keys",
    "C49_first_priority",
    "C49_subdicts",
    "C49_path_priority",
    "C49_overwriteempty",
    "C49_overwriteempty_values",
    "C49_idempotent",
    "C49_nodup",
    "C49_assoc",
    "C49_lists",
    "C49_tuples",
    "C49_check_defaults"
   ],
   "note": ""
  },
  {
   "property": "C50",
   "status": "proved",
   "theorems": [
    "C50_inputs_unchanged"
   ],
   "note": ""
  },
  {
   "property": "C51",
   "status": "proved",
   "theorems": [
    "C51_removed",
    "C51_copy",
    "C51_output_short",
    "C51_partition",
    "C51_defaults"
   ],
   "note": ""
  },
  {
   "property": "C52",
   "status": "proved",
   "theorems": [
    "C52_gunique",
    "C52_gunique_unique",
    "C52_gunique_nodup",
    "C52_gunique_idem"
   ],
   "note": ""
  },
  {
   "property": "C53",
   "status": "proved",
   "theorems": [
    "C53_put_get",
    "C53_put_map",
    "C53_put_value",
    "C53_put_kind"
   ],
   "note": ""
  },
  {
   "property": "C54",
   "status": "proved",
   "theorems": [
    "C54_axis_valid",
    "C54_axis_others",
    "C54_axis_partition"
   ],
   "note": ""
  },
  {
   "property": "C55",
   "status": "proved",
   "theorems": [
    "C55_choices",
    "C55_choices_idem",
    "C55_choices_sensitive",
    "C55_choices_insensitive",
    "C55_enum_lookup"
   ],
   "note": ""
  },
  {
   "property": "C56",
   "status": "proved",
   "theorems": [
    "C56_numerics",
    "C56_range",
    "C56_idempotent",
    "C56_valid_unchanged",
    "C56_list_validator"
   ],
   "note": ""
  },
  {
   "property": "C57",
   "status": "proved",
   "theorems": [
    "C57_patched",
    "C57_patched_same_type",
    "C57_converted",
    "C57_not_convertible",
    "C57_others",
    "C57_idempotent"
   ],
   "note": ""
  },
  {
   "property": "C58",
   "status": "partial",
   "theorems": [
    "C58_round_trip",
    "C58_distinct_partial",
    "C58_collision_violated",
    "C58_dash_violated",
    "C58_nested_case_violated"
   ],
   "note": "Round trip proved; injectivity only for plain lower-case names, refuted for '-'/'_' and case."
  },
  {
   "property": "C59",
   "status": "proved",
   "theorems": [
    "C59_filter_section",
    "C59_idempotent",
    "C59_default",
    "C59_flags"
   ],
   "note": ""
  },
  {
   "property": "C60",
   "status": "partial",
   "theorems": [
    "C60_history_independent_partial",
    "C60_get_dim_violated",
    "C60_attribute_violated"
   ],
   "note": "History independence proved for the look-up itself; refuted for the accessor get_dim, which always raises TypeError."
  },
  {
   "property": "C61",
   "status": "partial",
   "theorems": [
    "C61_found_partial",
    "C61_not_found_violated",
    "C61_strict_found_partial",
    "C61_strict_violated",
    "C61_vertical_partial",
    "C61_vertical_violated",
    "C61_several_partial",
    "C61_several_violated",
    "C61_hyps_met"
   ],
   "note": "Found case proved for all getters, get_cf_coords included (C61_several_partial); refuted when nothing is found (error mode ignored by some getters, get_cf_coords included, always raise for others)."
  },
  {
   "property": "C62",
   "status": "proved",
   "theorems": [
    "C62_match_string",
    "C62_match_string_order",
    "C62_match_string_case",
    "C62_match_attrs"
   ],
   "note": ""
  },
  {
   "property": "C63",
   "status": "partial",
   "theorems": [
    "C63_violated",
    "C63_reorder_partial",
    "C63_dash",
    "C63_full_order"
   ],
   "note": "refuted: reorder raises TypeError for every input; C63_reorder_partial proves the claim for the code after the failing call."
  },
  {
   "property": "C64",
   "status": "proved",
   "theorems": [
    "C64_dim_of_coord",
    "C64_search_from_dim",
    "C64_invalid_dim"
   ],
   "note": ""
  },
  {
   "property": "C65",
   "status": "proved",
   "theorems": [
    "C65_search",
    "C65_match"
   ],
   "note": ""
  },
  {
   "property": "C66",
   "status": "partial",
   "theorems": [
    "C66_same_array_partial",
    "C66_stale_violated"
   ],
   "note": "Same answer while the array is unchanged; refuted after a change (cached for ever)."
  },
  {
   "property": "C67",
   "status": "partial",
   "theorems": [
    "C67_nearest1d_inside_violated",
    "C67_nearest1d_nothing_violated",
    "C67_nearest1d_nan_partial",
    "C67_nearest1d_violated",
    "C67_nearest1d_allnan_violated"
   ],
   "note": "Refuted by the _violated/_counterexample theorems: nearest1d writes the next value for NaN in the middle of the output coordinate, and reads index -1 for an all-NaN coordinate; proved for NaN at the ends. C67_nearest1d_inside_violated and C67_nearest1d_nothing_violated give the violations for all coordinates, with the values that are written."
  },
  {
   "property": "C68",
   "status": "partial",
   "theorems": [
    "C68_cubic1d_affine_iff_partial",
    "C68_cubic1d_const_partial",
    "C68_cubic1d_linear_violated"
   ],
   "note": "Refuted by C68_cubic1d_linear_violated: cubic1d uses weights that do not reproduce linear data. C68_cubic1d_affine_iff_partial gives the exact error, beta mu (1 - mu) (1 - 2 mu), and the exact points where affine data are reproduced; constant data: C68_cubic1d_const_partial."
  },
  {
   "property": "C69",
   "status": "partial",
   "theorems": [
    "C69_cellave1d_rows_violated",
    "C69_cellave1d_row_lost",
    "C69_cellave1d_rows_partial",
    "C69_cubic1d_hermit1d_rows_partial",
    "C69_cubic1d_hermit1d_out_of_bounds",
    "C69_cellave1d_any_rows_partial"
   ],
   "note": "Refuted by the _violated/_counterexample theorems: cubic1d and hermit1d read the data at row ix, out of bounds for ix >= nxi; cellave1d loses rows; proved when nxi >= nxo."
  },
  {
   "property": "C70",
   "status": "partial",
   "theorems": [
    "C70_closest_defined_iff_partial",
    "C70_closest_antipode_violated"
   ],
   "note": "Refuted by the _violated/_counterexample theorems: exact condition for an answer proved; UnboundLocalError when every point is at the antipode or NaN."
  },
  {
   "property": "C71",
   "status": "partial",
   "theorems": [
    "C71_location_error_partial",
    "C71_small_cell_violated",
    "C71_trapezoid_zero_division_violated"
   ],
   "note": "Refuted by the _violated/_counterexample theorems: error bound proved; gross error in tiny trapezoids and ZeroDivisionError in convex trapezoids."
  },
  {
   "property": "C72",
   "status": "partial",
   "theorems": [
    "C72_located_partial",
    "C72_two_rows_violated",
    "C72_last_cells_violated",
    "C72_border_violated",
    "C72_border_points_violated",
    "C72_inner_points"
   ],
   "note": "Refuted by the _violated/_counterexample theorems: proved for targets whose cell is the one of the closest point; targets in the last row/column of cells, on borders and in two-row grids are not located."
  },
  {
   "property": "C73",
   "status": "partial",
   "theorems": [
    "C73_same_iff_partial",
    "C73_integer_violated"
   ],
   "note": "Refuted by the _violated/_counterexample theorems: the edges are truncated to integers."
  },
  {
   "property": "C74",
   "status": "partial",
   "theorems": [
    "C74_affine_partial",
    "C74_memory_violated",
    "C74_memory_iff_partial"
   ],
   "note": "Refuted by the _violated/_counterexample theorems: borders are added onto uninitialised memory: proved only when this memory is zero."
  },
  {
   "property": "C75",
   "status": "partial",
   "theorems": [
    "C75_names_violated",
    "C75_unnamed_violated",
    "C75_dims_partial",
    "C75_coord_partial"
   ],
   "note": "Refuted by the _violated theorems: UnboundLocalError when both are given, or when the coordinate name is given and the output coordinate has no name; C75_dims_partial and C75_coord_partial give the accepted cases."
  },
  {
   "property": "C76",
   "status": "partial",
   "theorems": [
    "C76_defaults_partial",
    "C76_hermit_options_violated",
    "C76_conserv_violated",
    "C76_extrap_violated"
   ],
   "note": "Refuted by the _violated/_counterexample theorems: bias, tension, conserv and extrap have no effect; the default values of the options do hold (C76_defaults_partial)."
  },
  {
   "property": "C77",
   "status": "partial",
   "theorems": [
    "C77_missing_partial",
    "C77_tolerance_violated"
   ],
   "note": "Refuted by the _violated/_counterexample theorems: exact condition proved: data that weigh at most one millionth of the kernel are lost."
  },
  {
   "property": "C78",
   "status": "partial",
   "theorems": [
    "C78_local_partial",
    "C78_far_missing_violated",
    "C78_unreached"
   ],
   "note": "Refuted by the _violated/_counterexample theorems: proved where the reached data weigh more than one millionth of the kernel or no datum is missing; else the result depends on far missing data."
  },
  {
   "property": "C79",
   "status": "partial",
   "theorems": [
    "C79_dims_iff_partial",
    "C79_dims_violated"
   ],
   "note": "Refuted by the _violated/_counterexample theorems: the in-place addition raises."
  },
  {
   "property": "C80",
   "status": "partial",
   "theorems": [
    "C80_order_iff_partial",
    "C80_order_g1_iff_partial",
    "C80_shallow_violated",
    "C80_ocean_s_violated",
    "C80_ocean_s_g1_violated"
   ],
   "note": "Refuted by the _violated/_counterexample theorems: levels cross where the bathymetry is less than hc."
  },
  {
   "property": "C81",
   "status": "partial",
   "theorems": [
    "C81_limit_partial",
    "C81_type_ignored_violated",
    "C81_no_stretching_violated"
   ],
   "note": "Refuted by the _violated/_counterexample theorems: the type is ignored, theta_s = 0 divides by zero; for theta_s tending to 0 the value tends to s (C81_limit_partial)."
  },
  {
   "property": "C82",
   "status": "partial",
   "theorems": [
    "C82_right_iff_partial",
    "C82_stale_violated",
    "C82_foreign_violated",
    "C82_other_arguments_violated",
    "C82_shared_violated"
   ],
   "note": "Refuted by the _violated/_counterexample theorems: stale constants, KeyError with a foreign cache; C82_right_iff_partial says exactly when the result is right."
  },
  {
   "property": "C83",
   "status": "partial",
   "theorems": [
    "C83_iff_partial",
    "C83_leading_violated",
    "C83_trailing_violated",
    "C83_outer_blanks_violated"
   ],
   "note": "Refuted by the _violated/_counterexample theorems: outer blanks end up in the first term/last variable; C83_iff_partial: only the empty blanks are harmless."
  },
  {
   "property": "C84",
   "status": "partial",
   "theorems": [
    "C84_restored_iff_partial",
    "C84_empty_violated",
    "C84_empty_options_counterexample"
   ],
   "note": "Refuted by the _violated/_counterexample theorems: the empty options are replaced by the default ones; C84_restored_iff_partial: restored exactly when not empty."
  },
  {
   "property": "C85",
   "status": "partial",
   "theorems": [
    "C85_others_partial",
    "C85_others_iff_partial",
    "C85_others_violated"
   ],
   "note": "Refuted by the _violated/_counterexample theorems: an option changed earlier in the session is forgotten; proved for options that have their user/default value."
  },
  {
   "property": "C86",
   "status": "partial",
   "theorems": [
    "C86_known_partial",
    "C86_unknown_violated"
   ],
   "note": "Refuted by the _violated/_counterexample theorems: the error object is returned as the value, never raised; an option that exists is given (C86_known_partial)."
  },
  {
   "property": "C87",
   "status": "partial",
   "theorems": [
    "C87_recognised_partial",
    "C87_prefix_violated",
    "C87_trailing_violated"
   ],
   "note": "Refuted by the _violated/_counterexample theorems: proved for prefix-free locations at a word end."
  },
  {
   "property": "C88",
   "status": "partial",
   "theorems": [
    "C88_located_partial",
    "C88_unlocated_violated",
    "C88_merge_any_violated"
   ],
   "note": "Refuted by the _violated/_counterexample theorems: writes sss_any."
  },
  {
   "property": "C89",
   "status": "partial",
   "theorems": [
    "C89_first_partial",
    "C89_all_labels_violated",
    "C89_search_labels_violated"
   ],
   "note": "Refuted by the _violated/_counterexample theorems: all the objects get the first name."
  },
  {
   "property": "C90",
   "status": "partial",
   "theorems": [
    "C90_long_name_violated",
    "C90_first_iff_partial"
   ],
   "note": "Refuted by the _violated/_counterexample theorems: the generated long name comes first; C90_first_iff_partial says when the parent's name is first."
  },
  {
   "property": "C91",
   "status": "partial",
   "theorems": [
    "C91_dims_grow_violated",
    "C91_two_loads_differ_violated",
    "C91_example",
    "C91_pair_reload_violated"
   ],
   "note": "Refuted by the _violated/_counterexample theorems: one more copy of the coordinate names at each load; KeyError for the pair."
  },
  {
   "property": "C92",
   "status": "partial",
   "theorems": [
    "C92_located_dim_violated",
    "C92_repeated_type_violated",
    "C92_positional_violated",
    "C92_positional_index_violated",
    "C92_positional_partial"
   ],
   "note": "Refuted by the _violated/_counterexample theorems: duplicates, IndexError and XoaCFError proved; the positions are right under C92_positional_partial."
  },
  {
   "property": "C93",
   "status": "partial",
   "theorems": [
    "C93_current_partial",
    "C93_edit_ignored_violated",
    "C93_user_file_violated"
   ],
   "note": "Refuted by the _violated/_counterexample theorems: the cached specifications of the previous file are returned."
  },
  {
   "property": "C94",
   "status": "partial",
   "theorems": [
    "C94_assoc_partial",
    "C94_assoc_three_partial",
    "C94_uniquify_partial",
    "C94_uniquify_any_violated",
    "C94_assoc_mixed_counterexample",
    "C94_uniquify_violated"
   ],
   "note": "Refuted by the _violated/_counterexample theorems: not associative for mixed values; with uniquify the list of a third dictionary is dropped; associative at any depth, for any number of inputs, when no path is a dictionary in one input and something else in another (C94_assoc_partial)."
  },
  {
   "property": "C95",
   "status": "partial",
   "theorems": [
    "C95_others_unchanged_partial",
    "C95_inputs_extended_partial",
    "C95_inputs_unchanged_violated"
   ],
   "note": "Refuted by the _violated/_counterexample theorems: the first list is extended in place; what is extended is described by C95_inputs_extended_partial."
  },
  {
   "property": "C96",
   "status": "partial",
   "theorems": [
    "C96_one_filter_partial",
    "C96_collision_violated",
    "C96_short_name_collision_violated"
   ],
   "note": "Refuted by the _violated/_counterexample theorems: one of the two keywords is lost."
  },
  {
   "property": "C97",
   "status": "partial",
   "theorems": [
    "C97_number_partial",
    "C97_enum_contains_partial",
    "C97_enum_contains_violated"
   ],
   "note": "Refuted by the _violated/_counterexample theorems: agrees for names; membership of the number 0 is false, undeclared numbers and None raise."
  },
  {
   "property": "C98",
   "status": "partial",
   "theorems": [
    "C98_minmax_violated",
    "C98_minmax_partial",
    "C98_int_bound_violated",
    "C98_shape_violated",
    "C98_minmax_iff_partial",
    "C98_int_bound_iff_partial"
   ],
   "note": "Refuted by the _violated/_counterexample theorems: the min/max pair is not ordered, int() of a fractional bound is out of the bounds, no value is accepted with a shape."
  },
  {
   "property": "C99",
   "status": "partial",
   "theorems": [
    "C99_bool_text_violated",
    "C99_underscored_violated",
    "C99_bool_string_violated",
    "C99_underscore_violated",
    "C99_bool_partial"
   ],
   "note": "Refuted by the _violated/_counterexample theorems: bool('False') is True; underscored sections are skipped; boolean values are taken (C99_bool_partial)."
  },
  {
   "property": "C100",
   "status": "proved",
   "theorems": [
    "C100_name",
    "C100_attrs",
    "C100_replace",
    "C100_given",
    "C100_no_attrs",
    "C100_data",
    "C100_unmatched"
   ],
   "note": ""
  },
  {
   "property": "C101",
   "status": "proved",
   "theorems": [
    "C101_coords",
    "C101_variable"
   ],
   "note": ""
  },
  {
   "property": "C102",
   "status": "partial",
   "theorems": [
    "C102_rename_partial",
    "C102_unchanged_partial",
    "C102_violated"
   ],
   "note": "Refuted by C102_violated (the long name SST becomes Sst); what happens to the attributes is given by C102_rename_partial, and they are unchanged with standardize=False when they have no location (C102_unchanged_partial)."
  },
  {
   "property": "C103",
   "status": "proved",
   "theorems": [
    "C103_dataset"
   ],
   "note": ""
  },
  {
   "property": "C104",
   "status": "proved",
   "theorems": [
    "C104_values"
   ],
   "note": ""
  },
  {
   "property": "C105",
   "status": "proved",
   "theorems": [
    "C105_dataset"
   ],
   "note": ""
  },
  {
   "property": "C106",
   "status": "partial",
   "theorems": [
    "C106_no_location_partial",
    "C106_violated",
    "C106_prefix_violated"
   ],
   "note": "Refuted by default (bottom_temp becomes temp_temp) and when a valid location begins the last word; proved when no separator of the name is followed by a valid location."
  },
  {
   "property": "C107",
   "status": "partial",
   "theorems": [
    "C107_name",
    "C107_attrs_partial",
    "C107_attrs_violated"
   ],
   "note": "The name is proved; for the attributes refuted by C107_attrs_violated and proved when the standard form of no text hides a location."
  },
  {
   "property": "C108",
   "status": "partial",
   "theorems": [
    "C108_array_violated",
    "C108_array_two_violated",
    "C108_dataset_violated",
    "C108_not_formatted_partial",
    "C108_fill_partial"
   ],
   "note": "Refuted for every array or dataset with such a coordinate: it is renamed to None; kept when coordinates are not formatted or nothing is renamed."
  },
  {
   "property": "C109",
   "status": "partial",
   "theorems": [
    "C109_conflict_violated",
    "C109_exact_partial",
    "C109_distinct_partial"
   ],
   "note": "Exact condition proved (C109_exact_partial: it succeeds iff the new names are distinct; C109_distinct_partial); refuted: two variables with the same CF name, or two unknown coordinates, raise."
  },
  {
   "property": "C110",
   "status": "partial",
   "theorems": [
    "C110_array_violated",
    "C110_existing_violated",
    "C110_dataset_partial",
    "C110_named_partial"
   ],
   "note": "Refuted: a name is returned instead of the array, and an existing long_name is changed; datasets, and arrays whose CF name is given, are returned filled."
  },
  {
   "property": "C111",
   "status": "partial",
   "theorems": [
    "C111_select_violated",
    "C111_exclude_violated",
    "C111_list_iff_partial"
   ],
   "note": "Refuted: both arguments are ignored and the caller's exclude list is extended; the list is kept exactly when there is no extra attribute."
  },
  {
   "property": "C112",
   "status": "proved",
   "theorems": [
    "C112_get_cs",
    "C112_sigma",
    "C112_ocean_s",
    "C112_ocean_s_g1",
    "C112_ocean_s_g2",
    "C112_missing_parameters"
   ],
   "note": ""
  },
  {
   "property": "C113",
   "status": "partial",
   "theorems": [
    "C113_register_partial",
    "C113_xoa_name_violated",
    "C113_cf_name_violated"
   ],
   "note": "Refuted by the _violated theorems when a name is given as xoa or cf; proved (C113_register_partial) for boolean xoa and cf and any sigma argument."
  },
  {
   "property": "C114",
   "status": "partial",
   "theorems": [
    "C114_are_similar_partial",
    "C114_symmetric_partial",
    "C114_answers_partial",
    "C114_unregistered_violated"
   ],
   "note": "Proved whenever are_similar answers (C114_are_similar_partial), with a sufficient condition for it to answer; refuted without an accessor registered under the name cf (C114_unregistered_violated)."
  },
  {
   "property": "C115",
   "status": "partial",
   "theorems": [
    "C115_own_partial",
    "C115_dataset_violated",
    "C115_array_violated"
   ],
   "note": "Refuted: always an exception for a dataset, independent of the scanned object for an array; right when the scanned object has the same coordinates as the array (C115_own_partial)."
  },
  {
   "property": "C116",
   "status": "proved",
   "theorems": [
    "C116_command_line",
    "C116_declared",
    "C116_accepts_iff"
   ],
   "note": "Long options without abbreviation; sections and keys without dashes, blanks or underscores at their ends."
  },
  {
   "property": "C117",
   "status": "partial",
   "theorems": [
    "C117_load",
    "C117_not_given_partial",
    "C117_flag_violated",
    "C117_no_file",
    "C117_patch_partial"
   ],
   "note": "Proved for options that are not boolean flags (C117_not_given_partial, C117_patch_partial); refuted for boolean options (C117_flag_violated)."
  },
  {
   "property": "C118",
   "status": "partial",
   "theorems": [
    "C118_when",
    "C118_after_violated",
    "C118_file_last_partial"
   ],
   "note": "The priority of the file is proved (C118_file_last_partial); the command line is lost for options that the file does not have (C118_after_violated)."
  },
  {
   "property": "C119",
   "status": "partial",
   "theorems": [
    "C119_patch_violated",
    "C119_no_file_partial"
   ],
   "note": "Refuted when a file is named (C119_patch_violated); proved without file (C119_no_file_partial)."
  },
  {
   "property": "C120",
   "status": "proved",
   "theorems": [
    "C120_pivot",
    "C120_refused"
   ],
   "note": "Reading of numbers and cmocean's crop are parameters."
  },
  {
   "property": "C121",
   "status": "partial",
   "theorems": [
    "C121_cycle_violated",
    "C121_none_violated",
    "C121_limits_iff_partial"
   ],
   "note": "Refuted by C121_cycle_violated and C121_none_violated; the limits before set_vlim are proved in the same theorem; C121_limits_iff_partial says when the limits are right."
  },
  {
   "property": "C122",
   "status": "partial",
   "theorems": [
    "C122_bbox",
    "C122_count",
    "C122_comma_blank_violated",
    "C122_list_violated",
    "C122_default"
   ],
   "note": "C122_bbox, C122_count and C122_default are proved; refuted by C122_comma_blank_violated and C122_list_violated."
  },
  {
   "property": "C123",
   "status": "partial",
   "theorems": [
    "C123_interval",
    "C123_bounds",
    "C123_refused",
    "C123_refused_text",
    "C123_list",
    "C123_bounds_refused",
    "C123_bounds_violated",
    "C123_half_open_violated"
   ],
   "note": "C123_interval, C123_bounds and C123_refused are proved; refuted for other bounds by C123_bounds_violated and C123_half_open_violated. eval is a parameter."
  },
  {
   "property": "C124",
   "status": "partial",
   "theorems": [
    "C124_color",
    "C124_as256",
    "C124_white_violated"
   ],
   "note": "Proved for tuples of numbers over the rationals; matplotlib's conversion of texts is not modelled."
  },
  {
   "property": "C125",
   "status": "partial",
   "theorems": [
    "C125_value",
    "C125_isotropic",
    "C125_symmetric",
    "C125_center",
    "C125_window_size",
    "C125_single_violated"
   ],
   "note": "Proved over the reals for shapes without dimension of size 1; C125_single_violated for the others."
  },
  {
   "property": "C126",
   "status": "partial",
   "theorems": [
    "C126_window",
    "C126_same_size",
    "C126_ends",
    "C126_symmetric",
    "C126_one_point_violated"
   ],
   "note": "Proved over the reals; C126_one_point_violated for one point."
  },
  {
   "property": "C127",
   "status": "partial",
   "theorems": [
    "C127_sizes",
    "C127_inconsistent",
    "C127_mix_refused",
    "C127_different_lists",
    "C127_invalid_dims",
    "C127_mixed_violated",
    "C127_list_violated"
   ],
   "note": "C127_sizes and C127_inconsistent are proved; refuted by C127_mixed_violated and C127_list_violated. The orthogonal kernel of the other dimensions is a parameter."
  },
  {
   "property": "C128",
   "status": "partial",
   "theorems": [
    "C128_inherits",
    "C128_long_text",
    "C128_cross",
    "C128_lists_grow_partial",
    "C128_own_first_partial",
    "C128_names",
    "C128_dims",
    "C128_long_name",
    "C128_cache",
    "C128_contamination_violated",
    "C128_growth_violated"
   ],
   "note": "C128_names, C128_own_first_partial, C128_lists_grow_partial, C128_cache, C128_dims, C128_inherits, C128_long_name and C128_long_text are proved; independence from history is refuted by C128_contamination_violated and C128_growth_violated. Files are in the memory cache from the start."
  },
  {
   "property": "C129",
   "status": "partial",
   "theorems": [
    "C129_names_partial",
    "C129_forgotten_violated",
    "C129_copy_forgets_violated",
    "C129_given_partial",
    "C129_example_violated"
   ],
   "note": "C129_names_partial and C129_given_partial say what is kept; refuted by C129_forgotten_violated, C129_copy_forgets_violated."
  },
  {
   "property": "C130",
   "status": "partial",
   "theorems": [
    "C130_copy_entries",
    "C130_copy_dims_violated",
    "C130_example"
   ],
   "note": "Entries proved (C130_copy_entries); refuted for the dimensions by C130_copy_dims_violated. The copy made by the validation is modelled as new lists."
  },
  {
   "property": "C131",
   "status": "partial",
   "theorems": [
    "C131_getitem",
    "C131_contains_violated",
    "C131_get_specs"
   ],
   "note": "C131_getitem and C131_get_specs are proved; refuted for `in` by C131_contains_violated."
  },
  {
   "property": "C132",
   "status": "partial",
   "theorems": [
    "C132_names_partial",
    "C132_unknown_violated",
    "C132_objects_violated"
   ],
   "note": "C132_names_partial for names known in both categories; refuted by C132_unknown_violated and C132_objects_violated. The truth value of the comparison of arrays is a parameter."
  },
  {
   "property": "C133",
   "status": "partial",
   "theorems": [
    "C133_one_partial",
    "C133_default",
    "C133_list_violated"
   ],
   "note": "C133_one_partial; refuted for lists by C133_list_violated."
  },
  {
   "property": "C134",
   "status": "proved",
   "theorems": [
    "C134_crash_safe",
    "C134_others",
    "C134_final"
   ],
   "note": "Writes are modelled as any prefix of the data; the text of the defaults is a parameter."
  },
  {
   "property": "C135",
   "status": "partial",
   "theorems": [
    "C135_update_keeps",
    "C135_update_forms",
    "C135_plural",
    "C135_register",
    "C135_register_list_partial",
    "C135_stale_violated",
    "C135_growth_violated"
   ],
   "note": "C135_register, C135_update_keeps, C135_update_forms and C135_register_list_partial are proved; refuted by C135_stale_violated and C135_growth_violated."
  },
  {
   "property": "C136",
   "status": "partial",
   "theorems": [
    "C136_removed_iff_partial",
    "C136_sections",
    "C136_typed_violated",
    "C136_text_partial",
    "C136_declared_partial",
    "C136_unspecified",
    "C136_same_partial"
   ],
   "note": "C136_removed_iff_partial, C136_sections and C136_text_partial say what is removed; refuted by C136_typed_violated. The parsing of specifications by validate is a parameter."
  },
  {
   "property": "C137",
   "status": "proved",
   "theorems": [
    "C137_sec_names",
    "C137_path",
    "C137_injective"
   ],
   "note": ""
  },
  {
   "property": "C138",
   "status": "partial",
   "theorems": [
    "C138_wrapped",
    "C138_extra",
    "C138_keyword_only_violated"
   ],
   "note": "C138_wrapped and C138_extra; refuted by C138_keyword_only_violated."
  },
  {
   "property": "C139",
   "status": "partial",
   "theorems": [
    "C139_dataset",
    "C139_category",
    "C139_array",
    "C139_dataset_sub_violated",
    "C139_array_sub_violated"
   ],
   "note": "Searches and attributes proved; refuted for the sub-accessors of the main accessor (C139_dataset_sub_violated, C139_array_sub_violated)."
  },
  {
   "property": "C140",
   "status": "partial",
   "theorems": [
    "C140_given",
    "C140_first_partial",
    "C140_frozen_violated",
    "C140_sub_first_partial",
    "C140_sub_given",
    "C140_sub_stale_violated"
   ],
   "note": "What is used after any history is proved (C140_given, C140_first_partial, C140_frozen_violated, C140_sub_given, C140_sub_first_partial, C140_sub_stale_violated)."
  },
  {
   "property": "C141",
   "status": "partial",
   "theorems": [
    "C141_own_partial",
    "C141_completed_partial",
    "C141_unknown_violated"
   ],
   "note": "C141_own_partial and C141_completed_partial for recognised arrays; refuted by C141_unknown_violated."
  },
  {
   "property": "C142",
   "status": "partial",
   "theorems": [
    "C142_array_partial",
    "C142_data_var_partial",
    "C142_invalid_location",
    "C142_upper_case_violated"
   ],
   "note": "C142_array_partial, C142_data_var_partial: exact conditions of success; refuted for declared locations in upper case (C142_upper_case_violated)."
  },
  {
   "property": "C143",
   "status": "partial",
   "theorems": [
    "C143_identity_partial",
    "C143_affine_partial",
    "C143_between_partial",
    "C143_nearest_partial",
    "C143_outside_partial",
    "C143_violated"
   ],
   "note": "Composes C19 (rows through the flushing of dimensions) with C02, C03, C05 (routines). Proved for the layouts where rows are paired (coordinates one-dimensional, or along the last dimensions of the data); false otherwise (C143_violated), the same defect as C19."
  },
  {
   "property": "C144",
   "status": "partial",
   "theorems": [
    "C144_no_value_violated",
    "C144_inside_violated",
    "C144_outside_violated",
    "C144_in_ranges_violated",
    "C144_out_of_ranges_violated",
    "C144_curved_violated",
    "C144_shapes"
   ],
   "note": "The code violates the property for all the inputs: the function has no return, the test that should skip outside positions skips the inside ones, and the rest of the loop indexes scalars. Proved: no input gives values (C144_no_value_violated); when all the positions are inside, nothing is computed (C144_inside_violated, C144_in_ranges_violated); one outside position raises (C144_outside_violated, C144_out_of_ranges_violated); unsuitable shapes are refused (C144_shapes)."
  },
  {
   "property": "C145",
   "status": "partial",
   "theorems": [
    "C145_file_partial",
    "C145_frame_partial",
    "C145_read_back_partial",
    "C145_rw_violated"
   ],
   "note": "C145_file_partial, C145_frame_partial and C145_read_back_partial are proved; the use of the file in the mode \"rw\" is refuted by C145_rw_violated."
  },
  {
   "property": "C146",
   "status": "partial",
   "theorems": [
    "C146_none",
    "C146_date",
    "C146_duration",
    "C146_items",
    "C146_format",
    "C146_error_violated",
    "C146_range_violated",
    "C146_timedelta64_violated"
   ],
   "note": "The libraries (pandas, numpy, datetime, float) are parameters. Proved: None (C146_none), the documented forms (C146_date, C146_duration, C146_format) and the wrong numbers of items (C146_items). Refuted: C146_error_violated, C146_range_violated, C146_timedelta64_violated."
  },
  {
   "property": "C147",
   "status": "proved",
   "theorems": [
    "C147_settings",
    "C147_braces",
    "C147_call",
    "C147_errors",
    "C147_forms",
    "C147_list",
    "C147_eval",
    "C147_path"
   ],
   "note": "eval and expanduser/expandvars are parameters; the three regular expressions are modelled on the stripped text. Line breaks within the text are in the model (the dot does not match them)."
  },
  {
   "property": "C148",
   "status": "partial",
   "theorems": [
    "C148_default_partial",
    "C148_comments",
    "C148_percent_violated",
    "C148_empty_violated",
    "C148_paren_violated"
   ],
   "note": "The formatting of argparse (help % params) is modelled as: %% gives %, anything else after a percent sign is not printed as it is. C148_comments proves the choice of the comments; C148_default_partial the default value, percent signs included, when the comments have none. Refuted: C148_percent_violated, C148_empty_violated, C148_paren_violated."
  },
  {
   "property": "C149",
   "status": "partial",
   "theorems": [
    "C149_headers_partial",
    "C149_usage_partial",
    "C149_no_header",
    "C149_title",
    "C149_description_partial",
    "C149_header_violated",
    "C149_usage_violated",
    "C149_long_help_violated",
    "C149_blocks_partial",
    "C149_success_partial"
   ],
   "note": "The regular expression of the options is a parameter, that of the headers is modelled. A format with a named field raises KeyError as the dictionary is given as a positional argument. Refuted: C149_header_violated, C149_usage_violated, C149_long_help_violated."
  },
  {
   "property": "C150",
   "status": "partial",
   "theorems": [
    "C150_extra_violated",
    "C150_extra_partial",
    "C150_coding_violated",
    "C150_groups",
    "C150_global_title",
    "C150_check_partial",
    "C150_check_violated"
   ],
   "note": "argparse itself and the regular expression of the coding line are parameters. The options themselves are in C116. Refuted: C150_extra_violated, C150_coding_violated, C150_check_violated."
  },
  {
   "property": "C151",
   "status": "partial",
   "theorems": [
    "C151_entries",
    "C151_names",
    "C151_text",
    "C151_name",
    "C151_desc_partial",
    "C151_desc_violated"
   ],
   "note": "The items of the specifications (mode \"specs\") are given by get_spec, that is not modelled. Refuted: C151_desc_violated."
  },
  {
   "property": "C152",
   "status": "partial",
   "theorems": [
    "C152_path",
    "C152_distinct",
    "C152_open",
    "C152_show_partial",
    "C152_blank_violated",
    "C152_other_violated"
   ],
   "note": "Directory and opener are parameters. Names, paths and opening proved (C152_path, C152_distinct, C152_open); the printed text is unambiguous for names without blanks (C152_show_partial). Refuted: C152_blank_violated, C152_other_violated."
  },
  {
   "property": "C153",
   "status": "partial",
   "theorems": [
    "C153_commands_partial",
    "C153_refused_partial",
    "C153_none_violated",
    "C153_all_violated"
   ],
   "note": "argparse is modelled for words without a dash. C153_commands_partial gives exactly what is printed, C153_refused_partial the refusals; refuted: C153_none_violated (no sub-command: AttributeError), C153_all_violated (specifications instead of values)."
  },
  {
   "property": "C154",
   "status": "proved",
   "theorems": [
    "C154_versions",
    "C154_paths"
   ],
   "note": "Installed versions and the disk are parameters."
  },
  {
   "property": "C155",
   "status": "partial",
   "theorems": [
    "C155_exact_partial",
    "C155_hash_violated"
   ],
   "note": "The lines written by configobj are a parameter. C155_exact_partial: exactly when the options hold no #; refuted by C155_hash_violated."
  },
  {
   "property": "C156",
   "status": "partial",
   "theorems": [
    "C156_refused_partial",
    "C156_other_violated",
    "C156_doc_partial",
    "C156_same_violated",
    "C156_docstring_partial",
    "C156_braces_violated"
   ],
   "note": "repr and format of a value are parameters; str.format is modelled for one named field. C156_refused_partial, C156_doc_partial, C156_docstring_partial; refuted: C156_other_violated (TypeError), C156_same_violated, C156_braces_violated."
  },
  {
   "property": "C157",
   "status": "proved",
   "theorems": [
    "C157_text",
    "C157_accepted",
    "C157_rst"
   ],
   "note": "The decimal text of a number is a parameter."
  },
  {
   "property": "C158",
   "status": "proved",
   "theorems": [
    "C158_cellave",
    "C158_coordinate_units",
    "C158_regrid1d"
   ],
   "note": "Exact arithmetic: the rounding of floating point numbers is not modelled. Cell averages at the level of the routine, with no more rows of output edges than of data."
  },
  {
   "property": "C159",
   "status": "proved",
   "theorems": [
    "C159_cellave",
    "C159_linear",
    "C159_data_units",
    "C159_extrap_units",
    "C159_regrid1d_units",
    "C159_regrid1d_linear"
   ],
   "note": "Exact arithmetic. C159_cellave: data that are missing at the same places; a change of origin is not claimed for cell averages (an output cell of zero width gives 0)."
  },
  {
   "property": "C160",
   "status": "proved",
   "theorems": [
    "C160_units",
    "C160_factor",
    "C160_kernel_scale",
    "C160_convolve_units",
    "C160_erode_units"
   ],
   "note": "Exact arithmetic; scipy's convolution is its mathematical definition. The condition on the weights is needed for the origin only."
  },
  {
   "property": "C161",
   "status": "partial",
   "theorems": [
    "C161_value",
    "C161_accepts_iff",
    "C161_extra",
    "C161_not_validated",
    "C161_shape_error",
    "C161_idempotent",
    "C161_modes_violated",
    "C161_none_violated"
   ],
   "note": "Values, errors, other options, no validation, idempotence proved (C161_value, C161_accepts_iff, C161_extra, C161_not_validated, C161_idempotent, C161_shape_error) when nothing is filtered and names of sections have no underscore at their ends. Violated: modes report and fix raise (C161_modes_violated), load(None) reads nothing (C161_none_violated). __many__ sections are in C168; interpolation not modelled."
  },
  {
   "property": "C162",
   "status": "partial",
   "theorems": [
    "C162_dict",
    "C162_patch_violated",
    "C162_patch_partial",
    "C162_load_violated",
    "C162_load_partial"
   ],
   "note": "Dictionaries proved. Violated for a ConfigObj: the converted values, and the keywords of load, are written in it (C162_patch_violated, C162_load_violated); the partial theorems give the condition."
  },
  {
   "property": "C163",
   "status": "partial",
   "theorems": [
    "C163_command_line",
    "C163_not_given_partial",
    "C163_flag_violated",
    "C163_cfgargparse_partial"
   ],
   "note": "Violated by boolean options that are not given (C163_flag_violated), as in C117."
  },
  {
   "property": "C164",
   "status": "proved",
   "theorems": [
    "C164_boolean",
    "C164_other",
    "C164_idempotent",
    "C164_specs"
   ],
   "note": "Texts of specifications with quotes and list parameters are not modelled."
  },
  {
   "property": "C165",
   "status": "partial",
   "theorems": [
    "C165_file",
    "C165_boolean_violated",
    "C165_filter_violated",
    "C165_partial"
   ],
   "note": "Violated for a ConfigObj by booleans and filters."
  },
  {
   "property": "C166",
   "status": "partial",
   "theorems": [
    "C166_unknown_dims",
    "C166_known_dims",
    "C166_given_dims",
    "C166_same_dim_violated",
    "C166_given_same_violated",
    "C166_plain_mask",
    "C166_one_dim_refused",
    "C166_plain_mask_refused"
   ],
   "note": "Violated when only one of the two dimensions is known or given: the same dimension may be used twice (C166_same_dim_violated, C166_given_same_violated)."
  },
  {
   "property": "C167",
   "status": "partial",
   "theorems": [
    "C167_dim",
    "C167_single_partial",
    "C167_single_violated"
   ],
   "note": "Violated for a single dimension at a location whose name is unknown (C167_single_violated)."
  },
  {
   "property": "C168",
   "status": "proved",
   "theorems": [
    "C168_validate",
    "C168_value",
    "C168_default",
    "C168_absent",
    "C168_extra",
    "C168_accepts_iff",
    "C168_plain"
   ],
   "note": "Names with underscores at their ends excepted (the patches do not find them), and options placed where __many__ is for sections only in C168_validate. The reading of __many__ is the one of ConfigObj.validate, called by load."
  },
  {
   "property": "C169",
   "status": "partial",
   "theorems": [
    "C169_grid2loc_violated",
    "C169_errors"
   ],
   "note": "Violated for all inputs: the function always raises (C169_grid2loc_violated), with TypeError or XoaError as in C169_errors."
  },
  {
   "property": "C170",
   "status": "partial",
   "theorems": [
    "C170_cmap_violated"
   ],
   "note": "Violated for all values but the text None (C170_cmap_violated): the name of an existing colormap raises AttributeError and a list raises ImportError."
  },
  {
   "property": "C171",
   "status": "partial",
   "theorems": [
    "C171_alone_partial",
    "C171_standardize_violated"
   ],
   "note": "C171_alone_partial: proved with standardize=True, when both calls succeed and the names of the dataset are distinct. Violated: standardize=False is ignored for datasets (C171_standardize_violated)."
  },
  {
   "property": "C172",
   "status": "partial",
   "theorems": [
    "C172_by_name_partial",
    "C172_names_violated"
   ],
   "note": "Violated for 15 names that another item has first (C172_names_violated, exact table varNamesTaken): sigma0, u3d, v3d, w3d and wlv are never the answer for an array of this name."
  },
  {
   "property": "C173",
   "status": "partial",
   "theorems": [
    "C173_by_standard_name_partial",
    "C173_standard_names_violated",
    "C173_misplaced_violated"
   ],
   "note": "Violated for 34 standard names that another item has first (C173_standard_names_violated, exact table varStdsTaken), and for 5 standard names that cf.cfg writes at the wrong place or with the wrong key (C173_misplaced_violated)."
  },
  {
   "property": "C174",
   "status": "partial",
   "theorems": [
    "C174_axis_violated",
    "C174_horizontal",
    "C174_by_name_partial",
    "C174_names_violated",
    "C174_by_standard_name_partial",
    "C174_standard_names_violated"
   ],
   "note": "Proved without axis and units for all coordinates, and with the axis for time, lon and lat (C174_horizontal). Violated: aliases and standard names of level that are first those of sig (C174_names_violated, C174_standard_names_violated); every other coordinate with an axis attribute, such as depth with axis Z, raises TypeError (C174_axis_violated)."
  },
  {
   "property": "C175",
   "status": "partial",
   "theorems": [
    "C175_round_trip_partial",
    "C175_round_trip_violated"
   ],
   "note": "Violated for 17 items (C175_round_trip_violated, exact table roundTaken)."
  },
  {
   "property": "C176",
   "status": "partial",
   "theorems": [
    "C176_known_dims_partial",
    "C176_cut_violated"
   ],
   "note": "Violated for nav_lon, nav_lat and model_level, whose end is taken for a location (C176_cut_violated)."
  },
  {
   "property": "C177",
   "status": "partial",
   "theorems": [
    "C177_axis",
    "C177_distinct",
    "C177_refused",
    "C177_two_dims_partial",
    "C177_two_dims_refused",
    "C177_plain_violated",
    "C177_integer_violated"
   ],
   "note": "Violated: get_edges_2d raises AttributeError for plain arrays (C177_plain_violated) and TypeError for integers (C177_integer_violated)."
  },
  {
   "property": "C178",
   "status": "partial",
   "theorems": [
    "C178_found_partial",
    "C178_missing_violated",
    "C178_vertical_violated"
   ],
   "note": "Violated for vertical coordinates: the attribute axis Z alone is a criterion of depth, altitude and level, so get_depth gives an altitude (C178_vertical_violated). When nothing is found, the mode of errors is not followed (C178_missing_violated)."
  },
  {
   "property": "C179",
   "status": "partial",
   "theorems": [
    "C179_chosen_partial",
    "C179_no_dim_violated",
    "C179_usual_partial"
   ],
   "note": "Violated: an AssertionError instead of the intended error when no output dimension is found (C179_no_dim_violated), and UnboundLocalError when all names are given (C75_names_violated)."
  },
  {
   "property": "C180",
   "status": "partial",
   "theorems": [
    "C180_reset_partial",
    "C180_first_use",
    "C180_reset_violated"
   ],
   "note": "Violated: reset_options raises KeyError when no option was loaded, e.g. twice in a row (C180_reset_violated)."
  },
  {
   "property": "C181",
   "status": "proved",
   "theorems": [
    "C181_rows",
    "C181_linear",
    "C181_given"
   ],
   "note": "The whole of regrid1d for the usual call; other calls: C19, C75, C76, C143, C179."
  },
  {
   "property": "C182",
   "status": "proved",
   "theorems": [
    "C182_found",
    "C182_missing"
   ],
   "note": ""
  },
  {
   "property": "C183",
   "status": "partial",
   "theorems": [
    "C183_missing_violated",
    "C183_value_partial",
    "C183_regrid_partial",
    "C183_regrid_violated"
   ],
   "note": "Violated: the output array has the type of the data, so no value is ever missing and values are truncated. Proved: value for value, linear and nearest give the truncation of what they give for floats, hence the same value when it is an integer; same dimensions and sizes through regrid1d."
  },
  {
   "property": "C184",
   "status": "partial",
   "theorems": [
    "C184_decreasing_input_violated",
    "C184_decreasing_output_violated",
    "C184_one_cell_partial",
    "C184_regrid1d_input_violated",
    "C184_regrid1d_output_violated"
   ],
   "note": "Violated: along a decreasing input coordinate every output is missing, for all data and outputs; and along an output coordinate that decreases across an input node, the whole row is missing. Proved: outputs inside one cell of an increasing input are interpolated whatever their order (linear)."
  },
  {
   "property": "C185",
   "status": "partial",
   "theorems": [
    "C185_closest_turns",
    "C185_closest_mirror",
    "C185_cell_shift",
    "C185_relloc_shift",
    "C185_rellocs_shift",
    "C185_relloc_turns_violated",
    "C185_regular_turn_violated"
   ],
   "note": "Proved: shifts for all the routines (C185_relloc_shift, C185_cell_shift), turns and mirror for closest2d (C185_closest_turns, C185_closest_mirror). Refuted for whole turns in grid2relloc: the target is then never located (C185_relloc_turns_violated)."
  },
  {
   "property": "C186",
   "status": "proved",
   "theorems": [
    "C186_interp",
    "C186_regrid1d",
    "C186_cellave",
    "C186_convolve",
    "C186_erode",
    "C186_extrap"
   ],
   "note": "Proved for linear1d, nearest1d (C186_interp), regrid1d with these methods (C186_regrid1d), cellave1d (C186_cellave), extrap1d, convolve and erode_mask; cubic_hermit_overshoot shows that the two other methods are rightly left out."
  },
  {
   "property": "C187",
   "status": "proved",
   "theorems": [
    "C187_linear",
    "C187_nearest",
    "C187_cubic_hermit",
    "C187_regrid1d"
   ],
   "note": "Proved for the four routines (C187_linear, C187_nearest, C187_cubic_hermit) and for regrid1d (C187_regrid1d); cubic_repeated_output shows why repeated output coordinates are left out for cubic1d and hermit1d."
  },
  {
   "property": "C188",
   "status": "proved",
   "theorems": [
    "C188_convolve",
    "C188_erode",
    "C188_erode_until",
    "C188_erode_default",
    "C188_int"
   ],
   "note": "Proved for convolve (C188_convolve, C188_int) and erode_mask (C188_erode, C188_erode_until, C188_erode_default); even_kernel_reversed shows why even sizes are left out along reversed dimensions."
  },
  {
   "property": "C189",
   "status": "proved",
   "theorems": [
    "C189_regrid1d",
    "C189_cellave",
    "C189_coords_1d",
    "C189_coords_1d_cellave"
   ],
   "note": "Proved for regrid1d with each method (C189_regrid1d, C189_cellave), and without condition on the layout for 1-D coordinates (C189_coords_1d, C189_coords_1d_cellave)."
  },
  {
   "property": "C190",
   "status": "proved",
   "theorems": [
    "C190_units",
    "C190_sum",
    "C190_reversed",
    "C190_2d_inner",
    "C190_array_units"
   ],
   "note": "Proved for 1-D edges (units, superposition, reversal), for arrays (units) and for the interior corners of 2-D grids; exact arithmetic."
  },
  {
   "property": "C191",
   "status": "proved",
   "theorems": [
    "C191_sigma_units",
    "C191_s_units",
    "C191_g1_units",
    "C191_g2_units",
    "C191_rise",
    "C191_rise_generic",
    "C191_rise_computed"
   ],
   "note": "Proved with real numbers for each of the functions, without cached stretching; C191_rise_computed shows that the computed stretching meets the conditions."
  },
  {
   "property": "C192",
   "status": "proved",
   "theorems": [
    "C192_cell",
    "C192_two_steps",
    "C192_covered",
    "C192_two_steps_plain",
    "C192_own_cells",
    "C192_regrid1d"
   ],
   "note": "Proved for cellave1d (C192_two_steps, C192_two_steps_plain, C192_covered, C192_cell, C192_own_cells) and for regrid1d (C192_regrid1d); exact arithmetic, no more rows of output edges than of data."
  },
  {
   "property": "C193",
   "status": "partial",
   "theorems": [
    "C193_closest",
    "C193_closest_transposed",
    "C193_closest_flipped",
    "C193_cell",
    "C193_relloc_transposed",
    "C193_relloc_flipped_violated"
   ],
   "note": "Proved for closest2d (C193_closest, C193_closest_transposed, C193_closest_flipped), for a cell (C193_cell) and for the location in a transposed grid (C193_relloc_transposed); violated by the location in a grid whose columns are in the opposite order (C193_relloc_flipped_violated), because only the cell that ends at the closest point is examined (see C72)."
  },
  {
   "property": "C194",
   "status": "partial",
   "theorems": [
    "C194_items",
    "C194_class",
    "C194_given",
    "C194_section",
    "C194_not_dict_violated",
    "C194_comments_violated",
    "C194_inline",
    "C194_empty_config_violated",
    "C194_others_skipped",
    "C194_dicts_merged"
   ],
   "note": "Proved: C194_items, C194_class, C194_given, C194_section, C194_inline. Violated: C194_not_dict_violated, C194_comments_violated, C194_empty_config_violated."
  },
  {
   "property": "C195",
   "status": "partial",
   "theorems": [
    "C195_root_first",
    "C195_loc_first",
    "C195_unchanged",
    "C195_accepted",
    "C195_never_warned_violated",
    "C195_no_separator_violated",
    "C195_dot_violated"
   ],
   "note": "Proved: C195_root_first, C195_loc_first, C195_unchanged, C195_accepted. Violated: C195_never_warned_violated, C195_no_separator_violated, C195_dot_violated."
  },
  {
   "property": "C196",
   "status": "partial",
   "theorems": [
    "C196_match",
    "C196_total",
    "C196_name",
    "C196_order",
    "C196_search_violated",
    "C196_empty_violated",
    "C196_text_violated"
   ],
   "note": "Proved: C196_match, C196_total, C196_name, C196_order. Violated: C196_search_violated, C196_empty_violated, C196_text_violated."
  },
  {
   "property": "C197",
   "status": "partial",
   "theorems": [
    "C197_locations",
    "C197_one",
    "C197_failure",
    "C197_same_location_violated",
    "C197_inconsistent_violated"
   ],
   "note": "Proved: C197_locations, C197_one, C197_failure. Violated: C197_same_location_violated, C197_inconsistent_violated."
  },
  {
   "property": "C198",
   "status": "partial",
   "theorems": [
    "C198_labels",
    "C198_added",
    "C198_builtin",
    "C198_arguments",
    "C198_errors",
    "C198_no_sigma",
    "C198_existing_violated",
    "C198_formula_error_violated",
    "C198_rename_violated"
   ],
   "note": "Proved: C198_labels, C198_arguments, C198_added, C198_builtin, C198_errors, C198_no_sigma. Violated: C198_existing_violated, C198_formula_error_violated, C198_rename_violated. The values of the formulas are C28, C29, C31, C112."
  },
  {
   "property": "C199",
   "status": "partial",
   "theorems": [
    "C199_attribute",
    "C199_case",
    "C199_known",
    "C199_named",
    "C199_unknown",
    "C199_grid_violated"
   ],
   "note": "Proved: C199_attribute, C199_case, C199_known, C199_named, C199_unknown. Violated: C199_grid_violated."
  },
  {
   "property": "C200",
   "status": "proved",
   "theorems": [
    "C200_name",
    "C200_category",
    "C200_item",
    "C200_unknown"
   ],
   "note": "Proved: C200_name, C200_category, C200_item, C200_unknown. Remark: specs_contains_names (name in specs only asks for categories)."
  },
  {
   "property": "C201",
   "status": "partial",
   "theorems": [
    "C201_integer_weights_partial",
    "C201_cut",
    "C201_truncated_violated",
    "C201_normalized_violated",
    "C201_erode_violated",
    "C201_erode_no_turn_partial"
   ],
   "note": "Proved: C201_integer_weights_partial (integer weights, not normalised), C201_cut (what is computed in general). Violated: C201_truncated_violated, C201_normalized_violated, C201_erode_violated."
  },
  {
   "property": "C202",
   "status": "partial",
   "theorems": [
    "C202_int",
    "C202_fraction",
    "C202_monotone_partial",
    "C202_whole_violated",
    "C202_type_violated",
    "C202_shrink_violated"
   ],
   "note": "Proved: C202_int, C202_fraction, C202_monotone_partial. Violated: C202_whole_violated, C202_type_violated, C202_shrink_violated."
  },
  {
   "property": "C203",
   "status": "proved",
   "theorems": [
    "C203_two_steps",
    "C203_round_trip",
    "C203_round_trip_nearest",
    "C203_round_trip_cubic_hermit"
   ],
   "note": "Proved: C203_two_steps, C203_round_trip, C203_round_trip_nearest, C203_round_trip_cubic_hermit. Rows as in the outputs of the routines (one row, or as many as the intermediate array). Remark: linear_beyond_loses_last."
  },
  {
   "property": "C204",
   "status": "proved",
   "theorems": [
    "C204_cubic",
    "C204_hermit",
    "C204_float64",
    "C204_linear",
    "C204_nearest"
   ],
   "note": "Proved for every rounding with a relative error u (at most 1/64 for linear and nearest, 2^-20 for cubic and Hermite): C204_linear, C204_nearest, C204_cubic, C204_hermit; C204_float64 shows that round to nearest even with 53 and 24 bits are such roundings. Exponents are unbounded. cubic1d and hermit1d: rows of the data array (others: C69)."
  },
  {
   "property": "C205",
   "status": "partial",
   "theorems": [
    "C205_constant_partial",
    "C205_node_partial",
    "C205_between_partial",
    "C205_exact_violated"
   ],
   "note": "C205_node_partial, C205_constant_partial and C205_between_partial give the bounds. Refuted: C205_exact_violated (data 0.1 everywhere, coordinates 0 and 3: 0.10000000000000002 at the node 0)."
  },
  {
   "property": "C206",
   "status": "partial",
   "theorems": [
    "C206_plain",
    "C206_missing_partial",
    "C206_mean",
    "C206_mean_missing",
    "C206_full",
    "C206_unreached_violated",
    "C206_erode_kept",
    "C206_erode_bounds"
   ],
   "note": "Proved for every function within δ of the exact sums: C206_plain, C206_missing_partial, C206_mean, C206_mean_missing, C206_full, C206_erode_kept, C206_erode_bounds. Refuted: C206_unreached_violated (complete data, normalised, a point that the kernel joins to no datum: the exact result is NaN, the code divides an error by an error). The division, the clipping and the sum of the weights are exact in the model."
  },
  {
   "property": "C207",
   "status": "partial",
   "theorems": [
    "C207_filtered",
    "C207_validated_partial",
    "C207_own",
    "C207_ignored_violated",
    "C207_none"
   ],
   "note": "C207_filtered (without validation), C207_validated_partial (with validation: filtered options of the specifications take their default), C207_own, C207_none. Refuted: C207_ignored_violated (a manager without filter ignores the one of load), and the resetting shown by C207_validated_partial."
  },
  {
   "property": "C208",
   "status": "proved",
   "theorems": [
    "C208_values",
    "C208_enclosed",
    "C208_enclosed_decreasing",
    "C208_accurate",
    "C208_exact",
    "C208_float64"
   ],
   "note": "C208_values, C208_enclosed, C208_enclosed_decreasing, C208_accurate (for any rounding that keeps the order and commutes with the division by two; rne_ordered proves it for rounding to nearest), C208_exact, C208_float64. Exponents are not bounded in the model. Remark edgesF_not_strict: the enclosure cannot be strict."
  },
  {
   "property": "C209",
   "status": "proved",
   "theorems": [
    "C209_conserv",
    "C209_mean",
    "C209_no_width",
    "C209_missing",
    "C209_float64"
   ],
   "note": "C209_missing, C209_mean, C209_conserv, C209_no_width for any rounding of relative error u; C209_float64 gives float64 and float32. Data and edges of one floating-point type, no overflow or underflow. Remark constF_inexact: the mean of equal values may differ from this value in floating point, so the bound cannot be zero."
  },
  {
   "property": "C210",
   "status": "proved",
   "theorems": [
    "C210_order_sigma",
    "C210_order_atmosphere",
    "C210_order_s",
    "C210_order_g1",
    "C210_order_g2",
    "C210_surface",
    "C210_top",
    "C210_bottom_g2",
    "C210_accurate_atmosphere",
    "C210_accurate_sigma",
    "C210_accurate_s",
    "C210_accurate_g1",
    "C210_accurate_g2",
    "C210_float64"
   ],
   "note": "Order (any rounding that keeps the order): C210_order_sigma, _atmosphere, _s, _g1, _g2. Ends: C210_surface, C210_top, C210_bottom_g2. Accuracy (any rounding of relative error u <= 1/64): C210_accurate_atmosphere, _sigma, _s, _g1, _g2. C210_float64 gives float64 and float32. The stretching value is an argument; sinh and tanh of get_cs are not modelled in floating point. Remarks levelsF_cross and levelsF_cross_generic: with a sea surface below the reference level rounding may invert close levels."
  },
  {
   "property": "C211",
   "status": "partial",
   "theorems": [
    "C211_described_partial",
    "C211_usage",
    "C211_short_usage_partial",
    "C211_title_violated",
    "C211_cfgfile_violated",
    "C211_default_violated",
    "C211_compressed",
    "C211_names"
   ],
   "note": "C211_described_partial (Python up to 3.9), C211_usage, C211_short_usage_partial (default name --cfgfile), C211_names. Refuted: C211_title_violated (the title of the group of options is \"options\" from Python 3.10), C211_cfgfile_violated, C211_default_violated. The layout that argparse gives to the pieces of the help is not modelled."
  },
  {
   "property": "C212",
   "status": "proved",
   "theorems": [
    "C212_accurate",
    "C212_nearest",
    "C212_cellave",
    "C212_errors",
    "C212_float64"
   ],
   "note": "C212_accurate (linear, cubic, Hermite), C212_nearest, C212_cellave, C212_errors, C212_float64. The comparison is with regrid1d in exact arithmetic in the same layout, so it also covers the layouts whose rows are not paired correctly (C19). Overflows and underflows are not modelled."
  },
  {
   "property": "C213",
   "status": "partial",
   "theorems": [
    "C213_atmosphere",
    "C213_ocean_sigma",
    "C213_get_cs",
    "C213_ocean_s_partial",
    "C213_ocean_s_g1_partial",
    "C213_ocean_s_g2_partial",
    "C213_varying_violated",
    "C213_ocean_s_violated",
    "C213_missing",
    "C213_sizes"
   ],
   "note": "C213_atmosphere, C213_ocean_sigma, C213_get_cs, C213_missing and C213_sizes are proved; C213_ocean_s_partial, C213_ocean_s_g1_partial and C213_ocean_s_g2_partial hold outside of the two refuted cases (C213_varying_violated, C213_ocean_s_violated). Arrays have no index; without cache."
  },
  {
   "property": "C214",
   "status": "proved",
   "theorems": [
    "C214_decoded"
   ],
   "note": "C214_decoded, with the built-in specifications; the sigma variables are those of the search (see C43, C65). The other forms cannot be decoded (C33)."
  },
  {
   "property": "C215",
   "status": "partial",
   "theorems": [
    "C215_not_reading_partial",
    "C215_reading_partial",
    "C215_no_error_partial",
    "C215_ends",
    "C215_one_writer_partial",
    "C215_failures",
    "C215_clean_violated",
    "C215_stat_violated",
    "C215_holes_violated"
   ],
   "note": "Every call ends (C215_ends). The specifications are right for every schedule in which no process reads the file (the default), and for every schedule with readers in which no two processes write at the same time (C215_one_writer_partial, C215_reading_partial). Violated: two processes that clean, or a reader and a process that cleans, get FileNotFoundError (C215_clean_violated, C215_stat_violated); two processes that write at the same time leave a file with null bytes in the middle, that a reader may load (C215_holes_violated). The file is read up to its end before it is decoded; pickle.load is assumed to fail on any proper prefix of what pickle.dump has written."
  },
  {
   "property": "C216",
   "status": "partial",
   "theorems": [
    "C216_alone",
    "C216_only_given_partial",
    "C216_unchanged_partial",
    "C216_not_lost_partial",
    "C216_key_error_violated",
    "C216_first_read_violated",
    "C216_leak_violated",
    "C216_reader_violated"
   ],
   "note": "Proved once the options are loaded, for any number of threads that read and load (C216_only_given_partial, C216_unchanged_partial, C216_not_lost_partial); a call that is not interrupted does what the sequential model says (C216_alone). Violated otherwise: get_option raises KeyError during the entry of another thread in a context (C216_key_error_violated), two first readings at the same time may give an exception object (C216_first_read_violated), contexts of two threads leak (C216_leak_violated), and a thread that only reads may destroy the options of the session (C216_reader_violated)."
  },
  {
   "property": "C217",
   "status": "partial",
   "theorems": [
    "C217_kept_partial",
    "C217_final_partial",
    "C217_lost_violated"
   ],
   "note": "Proved when each interruption happens before the new file is opened (C217_kept_partial, C217_final_partial). Violated otherwise: the backup is replaced by the unfinished file by the next run, for all contents (C217_lost_violated)."
  },
  {
   "property": "C218",
   "status": "partial",
   "theorems": [
    "C218_one_user_partial",
    "C218_leak_violated",
    "C218_first_violated",
    "C218_key_error_violated"
   ],
   "note": "Proved when there are current specifications at the start and a single thread uses contexts, any number of others reading (C218_one_user_partial). Violated otherwise: contexts of two threads leak (C218_leak_violated), the first use by two threads gives specifications that are not current any more (C218_first_violated), a reader gets KeyError when another thread leaves the first context (C218_key_error_violated)."
  },
  {
   "property": "C219",
   "status": "proved",
   "theorems": [
    "C219_between",
    "C219_accurate",
    "C219_exact",
    "C219_too_small"
   ],
   "note": "C219_between (rounding to nearest, precision of two bits or more: rne_four proves that m + m + m + m is exactly 4 m), C219_accurate (any rounding that keeps the order and commutes with the division by two), C219_exact, C219_too_small. Exponents are not bounded in the model."
  },
  {
   "property": "C220",
   "status": "partial",
   "theorems": [
    "C220_nearest_linear_partial",
    "C220_cubic_hermit_partial",
    "C220_extrap",
    "C220_cellave_partial",
    "C220_rows",
    "C220_empty_violated",
    "C220_exact_partial",
    "C220_more_rows_violated",
    "C220_cellave_rows_violated"
   ],
   "note": "Same programs with a check at each access (none = IndexError of NUMBA_BOUNDSCHECK=1): C220_nearest_linear_partial, C220_cubic_hermit_partial, C220_cellave_partial, C220_extrap prove that no check fails and that the result is the one of the unchecked model. Violated: more output rows than data rows in cubic1d, hermit1d (C220_rows: a value in such a row always comes from an access outside of the data; C220_more_rows_violated) and cellave1d (C220_cellave_rows_violated); empty output coordinates (C220_empty_violated: the element -1 of an empty row is read)."
  },
  {
   "property": "C221",
   "status": "proved",
   "theorems": [
    "C221_grid_only",
    "C221_closest_exists",
    "C221_any_indices"
   ],
   "note": "C221_grid_only: equality of the results for two grids that agree inside of the arrays (the model reads arbitrary values outside); C221_closest_exists; C221_any_indices for the undefined integers of C70. Both arrays have the same shape, as the documentation asks."
  },
  {
   "property": "C222",
   "status": "partial",
   "theorems": [
    "C222_plain",
    "C222_mean",
    "C222_plain_missing_partial",
    "C222_order",
    "C222_missing_violated",
    "C222_light_violated"
   ],
   "note": "Proved for complete data: C222_plain, C222_mean, C222_order; for plain sums of data with missing values when no weight is lighter than one thousandth of the sum (C222_plain_missing_partial). Violated by means of data with missing values (C222_missing_violated) and by light weights (C222_light_violated)."
  },
  {
   "property": "C223",
   "status": "proved",
   "theorems": [
    "C223_interp",
    "C223_regrid1d",
    "C223_cellave",
    "C223_convolve",
    "C223_erode"
   ],
   "note": "C223_interp, C223_regrid1d, C223_cellave, C223_convolve, C223_erode. The extrapolation is not concerned: it fills the ends only (see the example in MoreDataProps)."
  },
  {
   "property": "C224",
   "status": "partial",
   "theorems": [
    "C224_part",
    "C224_part_available",
    "C224_far_missing_violated"
   ],
   "note": "C224_part when data are missing both in the part and out of it or nowhere; C224_part_available for nonnegative kernels at the points where available data weigh something. False in general (C224_far_missing_violated): where the kernel reaches nothing, the result is 0 or missing depending on whether a datum is missing anywhere, even out of the part (as in C78)."
  },
  {
   "property": "C225",
   "status": "proved",
   "theorems": [
    "C225_distance",
    "C225_enough",
    "C225_until"
   ],
   "note": "C225_distance, C225_enough, C225_until. The values of the filled points are those of C25_default_turn, one turn after the other."
  },
  {
   "property": "C226",
   "status": "proved",
   "theorems": [
    "C226_haversine",
    "C226_closest",
    "C226_defined",
    "C226_same"
   ],
   "note": "C226_haversine, C226_closest, C226_defined, C226_same. With u = 2^-53 the bound of 88 sqrt(u) is 9.3e-7 radian, or 6 m on the Earth. The model does not include the reorderings that numba's fastmath flag allows, nor underflows."
  },
  {
   "property": "C227",
   "status": "partial",
   "theorems": [
    "C227_rectangle_partial",
    "C227_middle_violated",
    "C227_rounding_violated",
    "C227_plain_rectangle_violated",
    "C227_exact"
   ],
   "note": "C227_rectangle_partial (sides along the axes, exact height, no bound on positions), C227_exact, C227_middle_violated, C227_plain_rectangle_violated, C227_rounding_violated: the quadratic formula is used as soon as |AA| >= 2 eps, where (-BB - sDD) loses all its digits. Missing: a bound for general cells, which the violations forbid. The reorderings that numba's fastmath flag allows are not modelled."
  },
  {
   "property": "C228",
   "status": "proved",
   "theorems": [
    "C228_again",
    "C228_last",
    "C228_back",
    "C228_target"
   ],
   "note": "From C17; the data are compared at named positions, and at every index when the array is back in its own order."
  },
  {
   "property": "C229",
   "status": "proved",
   "theorems": [
    "C229_extrap_steps",
    "C229_two_ends",
    "C229_shape"
   ],
   "note": "Built on C08: the first and last known data after the first step."
  },
  {
   "property": "C230",
   "status": "proved",
   "theorems": [
    "C230_interp",
    "C230_cubic_hermit",
    "C230_regrid1d",
    "C230_cellave",
    "C230_extrap",
    "C230_convolve",
    "C230_erode",
    "C230_reached"
   ],
   "note": "Exact arithmetic. Cell averages, extrapolation, filters and erosion are for data that are missing at the same places (otherwise the mean of other values is taken); cubic and Hermite are for the rows of the data (C69)."
  },
  {
   "property": "C231",
   "status": "proved",
   "theorems": [
    "C231_attributes",
    "C231_exact",
    "C231_again",
    "C231_order",
    "C231_other_variables",
    "C231_attributes_search"
   ],
   "note": "Datasets with distinct names for the exact result, the second search and the order. Searches without name keep their labels when non matching variables are removed, but not under reordering (C89)."
  },
  {
   "property": "C232",
   "status": "proved",
   "theorems": [
    "C232_last_call",
    "C232_steps",
    "C232_one_file",
    "C232_order",
    "C232_again",
    "C232_kept"
   ],
   "note": "Calls in one thread (threads: C216). A first call that fails leaves the content of the user file without validation; here one call succeeds."
  },
  {
   "property": "C233",
   "status": "partial",
   "theorems": [
    "C233_stencil",
    "C233_linear_kept_partial",
    "C233_waves_violated",
    "C233_one_dim_violated"
   ],
   "note": "The kernel of two dimensions gives a sixth of twice the datum plus its four neighbours: linear fields are kept, but a third of the shortest waves remains, with a change of sign when they alternate along both dimensions. The kernel of one dimension is [0, 1, 0] and changes nothing (violations)."
  },
  {
   "property": "C234",
   "status": "proved",
   "theorems": [
    "C234_mean",
    "C234_named_kernel",
    "C234_windows"
   ],
   "note": "Exact arithmetic (errors: C206)."
  },
  {
   "property": "C235",
   "status": "proved",
   "theorems": [
    "C235_plain",
    "C235_mean"
   ],
   "note": "Exact arithmetic (errors: C206)."
  },
  {
   "property": "C236",
   "status": "proved",
   "theorems": [
    "C236_turns",
    "C236_no_turn",
    "C236_masks",
    "C236_again",
    "C236_then"
   ],
   "note": "Any kernel accepted by erode_mask (ErodeKernel), masks with the dimensions of the kernel (TargetMask)."
  },
  {
   "property": "C237",
   "status": "proved",
   "theorems": [
    "C237_errors",
    "C237_same",
    "C237_part"
   ],
   "note": "Exact arithmetic (rounding: C226)."
  },
  {
   "property": "C238",
   "status": "proved",
   "theorems": [
    "C238_two",
    "C238_forgotten",
    "C238_many",
    "C238_order"
   ],
   "note": "Patches without validation, as in C57; sections and options compatible between the configuration and the patches."
  },
  {
   "property": "C239",
   "status": "proved",
   "theorems": [
    "C239_calls",
    "C239_calls_copy",
    "C239_again"
   ],
   "note": "Without defaults nor added keywords (C51, C96)."
  },
  {
   "property": "C240",
   "status": "proved",
   "theorems": [
    "C240_sigma",
    "C240_s",
    "C240_s_g1",
    "C240_s_g2",
    "C240_shallow_excluded"
   ],
   "note": "Exact arithmetic, without cache (C31); C240_shallow_excluded shows that the condition on the critical depth is needed for the s coordinate."
  },
  {
   "property": "C241",
   "status": "proved",
   "theorems": [
    "C241_last_wins",
    "C241_succeeds",
    "C241_parse_and_remove"
   ],
   "note": "By induction on the history, from the round trip of C38; relocateAll is a fold of format_attr over the list of locations."
  },
  {
   "property": "C242",
   "status": "partial",
   "theorems": [
    "C242_merge_all",
    "C242_assoc",
    "C242_blank_violated"
   ],
   "note": "By induction on the list, from the round trip of C38; mergeNames is a fold of merge_attr. C242_blank_violated is the counterexample for texts with blanks."
  }
 ]
}