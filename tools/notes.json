{
 "C02": {
  "status": "proved",
  "note": "Interpolation formula, betweenness, nodes and affine exactness; C02_linear1d_node_masked_counterexample shows that the node value is lost when the neighbouring datum is NaN (the node claim is proved for intervals with two valid data)."
 },
 "C04": "linear1d, cubic1d and hermit1d, every row, every position; nearest1d is C67.",
 "C05": "Nodes, NaN outside, hermit1d linear/constant reproduction; cubic1d on linear data is C68.",
 "C06": "linear1d and nearest1d in full; the other routines are C69.",
 "C07": "Store-level interleavings: every admissible interleaving of the row iterations ends with the sequential array. cellave1d is compiled with parallel=False and is not concerned.",
 "C19": "Proved for the layouts PairOk (coordinate varying along trailing other dimensions, or same other dimensions); for the other layouts the code pairs rows wrongly: refuted by C19_violated_1d and C19_violated_nd.",
 "C26": "Exact condition for returning (C26_returns_iff), bound on the number of turns, termination when targets are reachable; refuted in general: never returns when valid data cannot reach an unmasked point.",
 "C27": "Tensor product, named/numpy/int forms, symmetry and sign proved; refuted for three or more kernels with middle sizes above 1 and for unknown dimension names.",
 "C33": "decodable_types gives the exact list of types that can be decoded; refuted for the others (missing comma in the tuple of types, unknown term sigma, coordinate terms).",
 "C36": "A failing load_options keeps the loaded options, set_options before any load changes nothing; refuted for set_options with an unknown section (session changes dropped, C36_set_failure_partial says exactly what remains) and for a failing first load.",
 "C39": "Proved for regular names; refuted by names ending in a non-word character, prefix locations, loc=False stripping one word per call, loc=True with declared locations.",
 "C44": "Totality under explicit conditions on attributes; refuted without them (coords with axis None, numeric attributes, text location).",
 "C58": "Round trip proved; injectivity only for plain lower-case names, refuted for '-'/'_' and case.",
 "C60": "History independence proved for the look-up itself; refuted for the accessor get_dim, which always raises TypeError.",
 "C61": "Found case proved for all getters, get_cf_coords included (C61_several_partial); refuted when nothing is found (error mode ignored by some getters, get_cf_coords included, always raise for others).",
 "C63": "refuted: reorder raises TypeError for every input; C63_reorder_partial proves the claim for the code after the failing call.",
 "C66": "Same answer while the array is unchanged; refuted after a change (cached for ever).",
 "C67": "Refuted by the _violated/_counterexample theorems: nearest1d writes the next value for NaN in the middle of the output coordinate, and reads index -1 for an all-NaN coordinate; proved for NaN at the ends. C67_nearest1d_inside_violated and C67_nearest1d_nothing_violated give the violations for all coordinates, with the values that are written.",
 "C68": "Refuted by C68_cubic1d_linear_violated: cubic1d uses weights that do not reproduce linear data. C68_cubic1d_affine_iff_partial gives the exact error, beta mu (1 - mu) (1 - 2 mu), and the exact points where affine data are reproduced; constant data: C68_cubic1d_const_partial.",
 "C69": "Refuted by the _violated/_counterexample theorems: cubic1d and hermit1d read the data at row ix, out of bounds for ix >= nxi; cellave1d loses rows; proved when nxi >= nxo.",
 "C70": "Refuted by the _violated/_counterexample theorems: exact condition for an answer proved; UnboundLocalError when every point is at the antipode or NaN.",
 "C71": "Refuted by the _violated/_counterexample theorems: error bound proved; gross error in tiny trapezoids and ZeroDivisionError in convex trapezoids.",
 "C72": "Refuted by the _violated/_counterexample theorems: proved for targets whose cell is the one of the closest point; targets in the last row/column of cells, on borders and in two-row grids are not located.",
 "C73": "Refuted by the _violated/_counterexample theorems: the edges are truncated to integers.",
 "C74": "Refuted by the _violated/_counterexample theorems: borders are added onto uninitialised memory: proved only when this memory is zero.",
 "C75": "Refuted by the _violated theorems: UnboundLocalError when both are given, or when the coordinate name is given and the output coordinate has no name; C75_dims_partial and C75_coord_partial give the accepted cases.",
 "C76": "Refuted by the _violated/_counterexample theorems: bias, tension, conserv and extrap have no effect; the default values of the options do hold (C76_defaults_partial).",
 "C77": "Refuted by the _violated/_counterexample theorems: exact condition proved: data that weigh at most one millionth of the kernel are lost.",
 "C78": "Refuted by the _violated/_counterexample theorems: proved where the reached data weigh more than one millionth of the kernel or no datum is missing; else the result depends on far missing data.",
 "C79": "Refuted by the _violated/_counterexample theorems: the in-place addition raises.",
 "C80": "Refuted by the _violated/_counterexample theorems: levels cross where the bathymetry is less than hc.",
 "C81": "Refuted by the _violated/_counterexample theorems: the type is ignored, theta_s = 0 divides by zero; for theta_s tending to 0 the value tends to s (C81_limit_partial).",
 "C82": "Refuted by the _violated/_counterexample theorems: stale constants, KeyError with a foreign cache; C82_right_iff_partial says exactly when the result is right.",
 "C83": "Refuted by the _violated/_counterexample theorems: outer blanks end up in the first term/last variable; C83_iff_partial: only the empty blanks are harmless.",
 "C84": "Refuted by the _violated/_counterexample theorems: the empty options are replaced by the default ones; C84_restored_iff_partial: restored exactly when not empty.",
 "C85": "Refuted by the _violated/_counterexample theorems: an option changed earlier in the session is forgotten; proved for options that have their user/default value.",
 "C86": "Refuted by the _violated/_counterexample theorems: the error object is returned as the value, never raised; an option that exists is given (C86_known_partial).",
 "C87": "Refuted by the _violated/_counterexample theorems: proved for prefix-free locations at a word end.",
 "C88": "Refuted by the _violated/_counterexample theorems: writes sss_any.",
 "C89": "Refuted by the _violated/_counterexample theorems: all the objects get the first name.",
 "C90": "Refuted by the _violated/_counterexample theorems: the generated long name comes first; C90_first_iff_partial says when the parent's name is first.",
 "C91": "Refuted by the _violated/_counterexample theorems: one more copy of the coordinate names at each load; KeyError for the pair.",
 "C92": "Refuted by the _violated/_counterexample theorems: duplicates, IndexError and XoaCFError proved; the positions are right under C92_positional_partial.",
 "C93": "Refuted by the _violated/_counterexample theorems: the cached specifications of the previous file are returned.",
 "C94": "Refuted by the _violated/_counterexample theorems: not associative for mixed values; with uniquify the list of a third dictionary is dropped; associative at any depth, for any number of inputs, when no path is a dictionary in one input and something else in another (C94_assoc_partial).",
 "C95": "Refuted by the _violated/_counterexample theorems: the first list is extended in place; what is extended is described by C95_inputs_extended_partial.",
 "C96": "Refuted by the _violated/_counterexample theorems: one of the two keywords is lost.",
 "C97": "Refuted by the _violated/_counterexample theorems: agrees for names; membership of the number 0 is false, undeclared numbers and None raise.",
 "C98": "Refuted by the _violated/_counterexample theorems: the min/max pair is not ordered, int() of a fractional bound is out of the bounds, no value is accepted with a shape.",
 "C99": "Refuted by the _violated/_counterexample theorems: bool('False') is True; underscored sections are skipped; boolean values are taken (C99_bool_partial).",
 "C102": "Refuted by C102_violated (the long name SST becomes Sst); what happens to the attributes is given by C102_rename_partial, and they are unchanged with standardize=False when they have no location (C102_unchanged_partial).",
 "C106": "Refuted by default (bottom_temp becomes temp_temp) and when a valid location begins the last word; proved when no separator of the name is followed by a valid location.",
 "C107": "The name is proved; for the attributes refuted by C107_attrs_violated and proved when the standard form of no text hides a location.",
 "C108": "Refuted for every array or dataset with such a coordinate: it is renamed to None; kept when coordinates are not formatted or nothing is renamed.",
 "C109": "Exact condition proved (C109_exact_partial: it succeeds iff the new names are distinct; C109_distinct_partial); refuted: two variables with the same CF name, or two unknown coordinates, raise.",
 "C110": "Refuted: a name is returned instead of the array, and an existing long_name is changed; datasets, and arrays whose CF name is given, are returned filled.",
 "C111": "Refuted: both arguments are ignored and the caller's exclude list is extended; the list is kept exactly when there is no extra attribute.",
 "C113": "Refuted by the _violated theorems when a name is given as xoa or cf; proved (C113_register_partial) for boolean xoa and cf and any sigma argument.",
 "C114": "Proved whenever are_similar answers (C114_are_similar_partial), with a sufficient condition for it to answer; refuted without an accessor registered under the name cf (C114_unregistered_violated).",
 "C115": "Refuted: always an exception for a dataset, independent of the scanned object for an array; right when the scanned object has the same coordinates as the array (C115_own_partial).",
 "C116": "Long options without abbreviation; sections and keys without dashes, blanks or underscores at their ends.",
 "C117": "Proved for options that are not boolean flags (C117_not_given_partial, C117_patch_partial); refuted for boolean options (C117_flag_violated).",
 "C118": "The priority of the file is proved (C118_file_last_partial); the command line is lost for options that the file does not have (C118_after_violated).",
 "C119": "Refuted when a file is named (C119_patch_violated); proved without file (C119_no_file_partial).",
 "C120": "Reading of numbers and cmocean's crop are parameters.",
 "C121": "Refuted by C121_cycle_violated and C121_none_violated; the limits before set_vlim are proved in the same theorem; C121_limits_iff_partial says when the limits are right.",
 "C122": "C122_bbox, C122_count and C122_default are proved; refuted by C122_comma_blank_violated and C122_list_violated.",
 "C123": "C123_interval, C123_bounds and C123_refused are proved; refuted for other bounds by C123_bounds_violated and C123_half_open_violated. eval is a parameter.",
 "C124": "Proved for tuples of numbers over the rationals; matplotlib's conversion of texts is not modelled.",
 "C125": "Proved over the reals for shapes without dimension of size 1; C125_single_violated for the others.",
 "C126": "Proved over the reals; C126_one_point_violated for one point.",
 "C127": "C127_sizes and C127_inconsistent are proved; refuted by C127_mixed_violated and C127_list_violated. The orthogonal kernel of the other dimensions is a parameter.",
 "C128": "C128_names, C128_own_first_partial, C128_lists_grow_partial, C128_cache, C128_dims, C128_inherits, C128_long_name and C128_long_text are proved; independence from history is refuted by C128_contamination_violated and C128_growth_violated. Files are in the memory cache from the start.",
 "C129": "C129_names_partial and C129_given_partial say what is kept; refuted by C129_forgotten_violated, C129_copy_forgets_violated.",
 "C130": "Entries proved (C130_copy_entries); refuted for the dimensions by C130_copy_dims_violated. The copy made by the validation is modelled as new lists.",
 "C131": "C131_getitem and C131_get_specs are proved; refuted for `in` by C131_contains_violated.",
 "C132": "C132_names_partial for names known in both categories; refuted by C132_unknown_violated and C132_objects_violated. The truth value of the comparison of arrays is a parameter.",
 "C133": "C133_one_partial; refuted for lists by C133_list_violated.",
 "C134": "Writes are modelled as any prefix of the data; the text of the defaults is a parameter.",
 "C135": "C135_register, C135_update_keeps, C135_update_forms and C135_register_list_partial are proved; refuted by C135_stale_violated and C135_growth_violated.",
 "C136": "C136_removed_iff_partial, C136_sections and C136_text_partial say what is removed; refuted by C136_typed_violated. The parsing of specifications by validate is a parameter.",
 "C138": "C138_wrapped and C138_extra; refuted by C138_keyword_only_violated.",
 "C139": "Searches and attributes proved; refuted for the sub-accessors of the main accessor (C139_dataset_sub_violated, C139_array_sub_violated).",
 "C140": "What is used after any history is proved (C140_given, C140_first_partial, C140_frozen_violated, C140_sub_given, C140_sub_first_partial, C140_sub_stale_violated).",
 "C141": "C141_own_partial and C141_completed_partial for recognised arrays; refuted by C141_unknown_violated.",
 "C142": "C142_array_partial, C142_data_var_partial: exact conditions of success; refuted for declared locations in upper case (C142_upper_case_violated).",
 "C143": "Composes C19 (rows through the flushing of dimensions) with C02, C03, C05 (routines). Proved for the layouts where rows are paired (coordinates one-dimensional, or along the last dimensions of the data); false otherwise (C143_violated), the same defect as C19.",
 "C144": "The code violates the property for all the inputs: the function has no return, the test that should skip outside positions skips the inside ones, and the rest of the loop indexes scalars. Proved: no input gives values (C144_no_value_violated); when all the positions are inside, nothing is computed (C144_inside_violated, C144_in_ranges_violated); one outside position raises (C144_outside_violated, C144_out_of_ranges_violated); unsuitable shapes are refused (C144_shapes).",
 "C145": "C145_file_partial, C145_frame_partial and C145_read_back_partial are proved; the use of the file in the mode \"rw\" is refuted by C145_rw_violated.",
 "C146": "The libraries (pandas, numpy, datetime, float) are parameters. Proved: None (C146_none), the documented forms (C146_date, C146_duration, C146_format) and the wrong numbers of items (C146_items). Refuted: C146_error_violated, C146_range_violated, C146_timedelta64_violated.",
 "C147": "eval and expanduser/expandvars are parameters; the three regular expressions are modelled on the stripped text. Line breaks within the text are in the model (the dot does not match them).",
 "C148": "The formatting of argparse (help % params) is modelled as: %% gives %, anything else after a percent sign is not printed as it is. C148_comments proves the choice of the comments; C148_default_partial the default value, percent signs included, when the comments have none. Refuted: C148_percent_violated, C148_empty_violated, C148_paren_violated.",
 "C149": "The regular expression of the options is a parameter, that of the headers is modelled. A format with a named field raises KeyError as the dictionary is given as a positional argument. Refuted: C149_header_violated, C149_usage_violated, C149_long_help_violated.",
 "C150": "argparse itself and the regular expression of the coding line are parameters. The options themselves are in C116. Refuted: C150_extra_violated, C150_coding_violated, C150_check_violated.",
 "C151": "The items of the specifications (mode \"specs\") are given by get_spec, that is not modelled. Refuted: C151_desc_violated.",
 "C152": "Directory and opener are parameters. Names, paths and opening proved (C152_path, C152_distinct, C152_open); the printed text is unambiguous for names without blanks (C152_show_partial). Refuted: C152_blank_violated, C152_other_violated.",
 "C153": "argparse is modelled for words without a dash. C153_commands_partial gives exactly what is printed, C153_refused_partial the refusals; refuted: C153_none_violated (no sub-command: AttributeError), C153_all_violated (specifications instead of values).",
 "C154": "Installed versions and the disk are parameters.",
 "C155": "The lines written by configobj are a parameter. C155_exact_partial: exactly when the options hold no #; refuted by C155_hash_violated.",
 "C156": "repr and format of a value are parameters; str.format is modelled for one named field. C156_refused_partial, C156_doc_partial, C156_docstring_partial; refuted: C156_other_violated (TypeError), C156_same_violated, C156_braces_violated.",
 "C157": "The decimal text of a number is a parameter.",
 "C158": "Exact arithmetic: the rounding of floating point numbers is not modelled. Cell averages at the level of the routine, with no more rows of output edges than of data.",
 "C159": "Exact arithmetic. C159_cellave: data that are missing at the same places; a change of origin is not claimed for cell averages (an output cell of zero width gives 0).",
 "C160": "Exact arithmetic; scipy's convolution is its mathematical definition. The condition on the weights is needed for the origin only.",
 "C161": "Values, errors, other options, no validation, idempotence proved (C161_value, C161_accepts_iff, C161_extra, C161_not_validated, C161_idempotent, C161_shape_error) when nothing is filtered and names of sections have no underscore at their ends. Violated: modes report and fix raise (C161_modes_violated), load(None) reads nothing (C161_none_violated). __many__ sections are in C168; interpolation not modelled.",
 "C162": "Dictionaries proved. Violated for a ConfigObj: the converted values, and the keywords of load, are written in it (C162_patch_violated, C162_load_violated); the partial theorems give the condition.",
 "C163": "Violated by boolean options that are not given (C163_flag_violated), as in C117.",
 "C164": "Texts of specifications with quotes and list parameters are not modelled.",
 "C165": "Violated for a ConfigObj by booleans and filters.",
 "C166": "Violated when only one of the two dimensions is known or given: the same dimension may be used twice (C166_same_dim_violated, C166_given_same_violated).",
 "C167": "Violated for a single dimension at a location whose name is unknown (C167_single_violated).",
 "C168": "Names with underscores at their ends excepted (the patches do not find them), and options placed where __many__ is for sections only in C168_validate. The reading of __many__ is the one of ConfigObj.validate, called by load.",
 "C169": "Violated for all inputs: the function always raises (C169_grid2loc_violated), with TypeError or XoaError as in C169_errors.",
 "C170": "Violated for all values but the text None (C170_cmap_violated): the name of an existing colormap raises AttributeError and a list raises ImportError.",
 "C171": "C171_alone_partial: proved with standardize=True, when both calls succeed and the names of the dataset are distinct. Violated: standardize=False is ignored for datasets (C171_standardize_violated).",
 "C172": "Violated for 15 names that another item has first (C172_names_violated, exact table varNamesTaken): sigma0, u3d, v3d, w3d and wlv are never the answer for an array of this name.",
 "C173": "Violated for 34 standard names that another item has first (C173_standard_names_violated, exact table varStdsTaken), and for 5 standard names that cf.cfg writes at the wrong place or with the wrong key (C173_misplaced_violated).",
 "C174": "Proved without axis and units for all coordinates, and with the axis for time, lon and lat (C174_horizontal). Violated: aliases and standard names of level that are first those of sig (C174_names_violated, C174_standard_names_violated); every other coordinate with an axis attribute, such as depth with axis Z, raises TypeError (C174_axis_violated).",
 "C175": "Violated for 17 items (C175_round_trip_violated, exact table roundTaken).",
 "C176": "Violated for nav_lon, nav_lat and model_level, whose end is taken for a location (C176_cut_violated).",
 "C177": "Violated: get_edges_2d raises AttributeError for plain arrays (C177_plain_violated) and TypeError for integers (C177_integer_violated).",
 "C178": "Violated for vertical coordinates: the attribute axis Z alone is a criterion of depth, altitude and level, so get_depth gives an altitude (C178_vertical_violated). When nothing is found, the mode of errors is not followed (C178_missing_violated).",
 "C179": "Violated: an AssertionError instead of the intended error when no output dimension is found (C179_no_dim_violated), and UnboundLocalError when all names are given (C75_names_violated).",
 "C180": "Violated: reset_options raises KeyError when no option was loaded, e.g. twice in a row (C180_reset_violated).",
 "C181": "The whole of regrid1d for the usual call; other calls: C19, C75, C76, C143, C179.",
 "C183": "Violated: the output array has the type of the data, so no value is ever missing and values are truncated. Proved: value for value, linear and nearest give the truncation of what they give for floats, hence the same value when it is an integer; same dimensions and sizes through regrid1d.",
 "C184": "Violated: along a decreasing input coordinate every output is missing, for all data and outputs; and along an output coordinate that decreases across an input node, the whole row is missing. Proved: outputs inside one cell of an increasing input are interpolated whatever their order (linear).",
 "C185": "Proved: shifts for all the routines (C185_relloc_shift, C185_cell_shift), turns and mirror for closest2d (C185_closest_turns, C185_closest_mirror). Refuted for whole turns in grid2relloc: the target is then never located (C185_relloc_turns_violated).",
 "C186": "Proved for linear1d, nearest1d (C186_interp), regrid1d with these methods (C186_regrid1d), cellave1d (C186_cellave), extrap1d, convolve and erode_mask; cubic_hermit_overshoot shows that the two other methods are rightly left out.",
 "C187": "Proved for the four routines (C187_linear, C187_nearest, C187_cubic_hermit) and for regrid1d (C187_regrid1d); cubic_repeated_output shows why repeated output coordinates are left out for cubic1d and hermit1d.",
 "C188": "Proved for convolve (C188_convolve, C188_int) and erode_mask (C188_erode, C188_erode_until, C188_erode_default); even_kernel_reversed shows why even sizes are left out along reversed dimensions.",
 "C189": "Proved for regrid1d with each method (C189_regrid1d, C189_cellave), and without condition on the layout for 1-D coordinates (C189_coords_1d, C189_coords_1d_cellave).",
 "C190": "Proved for 1-D edges (units, superposition, reversal), for arrays (units) and for the interior corners of 2-D grids; exact arithmetic.",
 "C191": "Proved with real numbers for each of the functions, without cached stretching; C191_rise_computed shows that the computed stretching meets the conditions.",
 "C192": "Proved for cellave1d (C192_two_steps, C192_two_steps_plain, C192_covered, C192_cell, C192_own_cells) and for regrid1d (C192_regrid1d); exact arithmetic, no more rows of output edges than of data.",
 "C193": "Proved for closest2d (C193_closest, C193_closest_transposed, C193_closest_flipped), for a cell (C193_cell) and for the location in a transposed grid (C193_relloc_transposed); violated by the location in a grid whose columns are in the opposite order (C193_relloc_flipped_violated), because only the cell that ends at the closest point is examined (see C72).",
 "C194": "Proved: C194_items, C194_class, C194_given, C194_section, C194_inline. Violated: C194_not_dict_violated, C194_comments_violated, C194_empty_config_violated.",
 "C195": "Proved: C195_root_first, C195_loc_first, C195_unchanged, C195_accepted. Violated: C195_never_warned_violated, C195_no_separator_violated, C195_dot_violated.",
 "C196": "Proved: C196_match, C196_total, C196_name, C196_order. Violated: C196_search_violated, C196_empty_violated, C196_text_violated.",
 "C197": "Proved: C197_locations, C197_one, C197_failure. Violated: C197_same_location_violated, C197_inconsistent_violated.",
 "C198": "Proved: C198_labels, C198_arguments, C198_added, C198_builtin, C198_errors, C198_no_sigma. Violated: C198_existing_violated, C198_formula_error_violated, C198_rename_violated. The values of the formulas are C28, C29, C31, C112.",
 "C199": "Proved: C199_attribute, C199_case, C199_known, C199_named, C199_unknown. Violated: C199_grid_violated.",
 "C200": "Proved: C200_name, C200_category, C200_item, C200_unknown. Remark: specs_contains_names (name in specs only asks for categories).",
 "C201": "Proved: C201_integer_weights_partial (integer weights, not normalised), C201_cut (what is computed in general). Violated: C201_truncated_violated, C201_normalized_violated, C201_erode_violated.",
 "C202": "Proved: C202_int, C202_fraction, C202_monotone_partial. Violated: C202_whole_violated, C202_type_violated, C202_shrink_violated.",
 "C203": "Proved: C203_two_steps, C203_round_trip, C203_round_trip_nearest, C203_round_trip_cubic_hermit. Rows as in the outputs of the routines (one row, or as many as the intermediate array). Remark: linear_beyond_loses_last.",
 "C204": "Proved for every rounding with a relative error u (at most 1/64 for linear and nearest, 2^-20 for cubic and Hermite): C204_linear, C204_nearest, C204_cubic, C204_hermit; C204_float64 shows that round to nearest even with 53 and 24 bits are such roundings. Exponents are unbounded. cubic1d and hermit1d: rows of the data array (others: C69).",
 "C205": "C205_node_partial, C205_constant_partial and C205_between_partial give the bounds. Refuted: C205_exact_violated (data 0.1 everywhere, coordinates 0 and 3: 0.10000000000000002 at the node 0).",
 "C206": "Proved for every function within δ of the exact sums: C206_plain, C206_missing_partial, C206_mean, C206_mean_missing, C206_full, C206_erode_kept, C206_erode_bounds. Refuted: C206_unreached_violated (complete data, normalised, a point that the kernel joins to no datum: the exact result is NaN, the code divides an error by an error). The division, the clipping and the sum of the weights are exact in the model.",
 "C207": "C207_filtered (without validation), C207_validated_partial (with validation: filtered options of the specifications take their default), C207_own, C207_none. Refuted: C207_ignored_violated (a manager without filter ignores the one of load), and the resetting shown by C207_validated_partial.",
 "C208": "C208_values, C208_enclosed, C208_enclosed_decreasing, C208_accurate (for any rounding that keeps the order and commutes with the division by two; rne_ordered proves it for rounding to nearest), C208_exact, C208_float64. Exponents are not bounded in the model. Remark edgesF_not_strict: the enclosure cannot be strict.",
 "C209": "C209_missing, C209_mean, C209_conserv, C209_no_width for any rounding of relative error u; C209_float64 gives float64 and float32. Data and edges of one floating-point type, no overflow or underflow. Remark constF_inexact: the mean of equal values may differ from this value in floating point, so the bound cannot be zero.",
 "C210": "Order (any rounding that keeps the order): C210_order_sigma, _atmosphere, _s, _g1, _g2. Ends: C210_surface, C210_top, C210_bottom_g2. Accuracy (any rounding of relative error u <= 1/64): C210_accurate_atmosphere, _sigma, _s, _g1, _g2. C210_float64 gives float64 and float32. The stretching value is an argument; sinh and tanh of get_cs are not modelled in floating point. Remarks levelsF_cross and levelsF_cross_generic: with a sea surface below the reference level rounding may invert close levels.",
 "C211": "C211_described_partial (Python up to 3.9), C211_usage, C211_short_usage_partial (default name --cfgfile), C211_names. Refuted: C211_title_violated (the title of the group of options is \"options\" from Python 3.10), C211_cfgfile_violated, C211_default_violated. The layout that argparse gives to the pieces of the help is not modelled.",
 "C212": "C212_accurate (linear, cubic, Hermite), C212_nearest, C212_cellave, C212_errors, C212_float64. The comparison is with regrid1d in exact arithmetic in the same layout, so it also covers the layouts whose rows are not paired correctly (C19). Overflows and underflows are not modelled.",
 "C213": "C213_atmosphere, C213_ocean_sigma, C213_get_cs, C213_missing and C213_sizes are proved; C213_ocean_s_partial, C213_ocean_s_g1_partial and C213_ocean_s_g2_partial hold outside of the two refuted cases (C213_varying_violated, C213_ocean_s_violated). Arrays have no index; without cache.",
 "C214": "C214_decoded, with the built-in specifications; the sigma variables are those of the search (see C43, C65). The other forms cannot be decoded (C33).",
 "C215": "Every call ends (C215_ends). The specifications are right for every schedule in which no process reads the file (the default), and for every schedule with readers in which no two processes write at the same time (C215_one_writer_partial, C215_reading_partial). Violated: two processes that clean, or a reader and a process that cleans, get FileNotFoundError (C215_clean_violated, C215_stat_violated); two processes that write at the same time leave a file with null bytes in the middle, that a reader may load (C215_holes_violated). The file is read up to its end before it is decoded; pickle.load is assumed to fail on any proper prefix of what pickle.dump has written.",
 "C216": "Proved once the options are loaded, for any number of threads that read and load (C216_only_given_partial, C216_unchanged_partial, C216_not_lost_partial); a call that is not interrupted does what the sequential model says (C216_alone). Violated otherwise: get_option raises KeyError during the entry of another thread in a context (C216_key_error_violated), two first readings at the same time may give an exception object (C216_first_read_violated), contexts of two threads leak (C216_leak_violated), and a thread that only reads may destroy the options of the session (C216_reader_violated).",
 "C217": "Proved when each interruption happens before the new file is opened (C217_kept_partial, C217_final_partial). Violated otherwise: the backup is replaced by the unfinished file by the next run, for all contents (C217_lost_violated).",
 "C218": "Proved when there are current specifications at the start and a single thread uses contexts, any number of others reading (C218_one_user_partial). Violated otherwise: contexts of two threads leak (C218_leak_violated), the first use by two threads gives specifications that are not current any more (C218_first_violated), a reader gets KeyError when another thread leaves the first context (C218_key_error_violated).",
 "C219": "C219_between (rounding to nearest, precision of two bits or more: rne_four proves that m + m + m + m is exactly 4 m), C219_accurate (any rounding that keeps the order and commutes with the division by two), C219_exact, C219_too_small. Exponents are not bounded in the model.",
 "C220": "Same programs with a check at each access (none = IndexError of NUMBA_BOUNDSCHECK=1): C220_nearest_linear_partial, C220_cubic_hermit_partial, C220_cellave_partial, C220_extrap prove that no check fails and that the result is the one of the unchecked model. Violated: more output rows than data rows in cubic1d, hermit1d (C220_rows: a value in such a row always comes from an access outside of the data; C220_more_rows_violated) and cellave1d (C220_cellave_rows_violated); empty output coordinates (C220_empty_violated: the element -1 of an empty row is read).",
 "C221": "C221_grid_only: equality of the results for two grids that agree inside of the arrays (the model reads arbitrary values outside); C221_closest_exists; C221_any_indices for the undefined integers of C70. Both arrays have the same shape, as the documentation asks.",
 "C222": "Proved for complete data: C222_plain, C222_mean, C222_order; for plain sums of data with missing values when no weight is lighter than one thousandth of the sum (C222_plain_missing_partial). Violated by means of data with missing values (C222_missing_violated) and by light weights (C222_light_violated).",
 "C223": "C223_interp, C223_regrid1d, C223_cellave, C223_convolve, C223_erode. The extrapolation is not concerned: it fills the ends only (see the example in MoreDataProps).",
 "C224": "C224_part when data are missing both in the part and out of it or nowhere; C224_part_available for nonnegative kernels at the points where available data weigh something. False in general (C224_far_missing_violated): where the kernel reaches nothing, the result is 0 or missing depending on whether a datum is missing anywhere, even out of the part (as in C78).",
 "C225": "C225_distance, C225_enough, C225_until. The values of the filled points are those of C25_default_turn, one turn after the other.",
 "C226": "C226_haversine, C226_closest, C226_defined, C226_same. With u = 2^-53 the bound of 88 sqrt(u) is 9.3e-7 radian, or 6 m on the Earth. The model does not include the reorderings that numba's fastmath flag allows, nor underflows.",
 "C227": "C227_rectangle_partial (sides along the axes, exact height, no bound on positions), C227_exact, C227_middle_violated, C227_plain_rectangle_violated, C227_rounding_violated: the quadratic formula is used as soon as |AA| >= 2 eps, where (-BB - sDD) loses all its digits. Missing: a bound for general cells, which the violations forbid. The reorderings that numba's fastmath flag allows are not modelled.",
 "C228": "From C17; the data are compared at named positions, and at every index when the array is back in its own order.",
 "C229": "Built on C08: the first and last known data after the first step.",
 "C230": "Exact arithmetic. Cell averages, extrapolation, filters and erosion are for data that are missing at the same places (otherwise the mean of other values is taken); cubic and Hermite are for the rows of the data (C69).",
 "C231": "Datasets with distinct names for the exact result, the second search and the order. Searches without name keep their labels when non matching variables are removed, but not under reordering (C89).",
 "C232": "Calls in one thread (threads: C216). A first call that fails leaves the content of the user file without validation; here one call succeeds.",
 "C233": "The kernel of two dimensions gives a sixth of twice the datum plus its four neighbours: linear fields are kept, but a third of the shortest waves remains, with a change of sign when they alternate along both dimensions. The kernel of one dimension is [0, 1, 0] and changes nothing (violations).",
 "C234": "Exact arithmetic (errors: C206).",
 "C235": "Exact arithmetic (errors: C206).",
 "C236": "Any kernel accepted by erode_mask (ErodeKernel), masks with the dimensions of the kernel (TargetMask).",
 "C237": "Exact arithmetic (rounding: C226).",
 "C238": "Patches without validation, as in C57; sections and options compatible between the configuration and the patches.",
 "C239": "Without defaults nor added keywords (C51, C96).",
 "C240": "Exact arithmetic, without cache (C31); C240_shallow_excluded shows that the condition on the critical depth is needed for the s coordinate.",
 "C241": "By induction on the history, from the round trip of C38; relocateAll is a fold of format_attr over the list of locations.",
 "C242": "By induction on the list, from the round trip of C38; mergeNames is a fold of merge_attr. C242_blank_violated is the counterexample for texts with blanks."
}