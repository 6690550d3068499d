{
 "claims": [
  {
   "property": "C01",
   "status": "proved",
   "theorems": [
    "Verif.C01_accepts_iff_strictly_increasing",
    "Verif.C01_rejects_with_timeSeriesError",
    "Verif.C01_stores_data_unchanged",
    "Verif.C01_options_shift_uniformly"
   ],
   "note": ""
  },
  {
   "property": "C02",
   "status": "proved",
   "theorems": [
    "Verif.C02_index_brackets",
    "Verif.C02_index_neighbours",
    "Verif.C02_index_extrapolated",
    "Verif.C02_index_single"
   ],
   "note": ""
  },
  {
   "property": "C03",
   "status": "proved",
   "theorems": [
    "Verif.C03_indexOf_raises_iff",
    "Verif.C03_validTime_raises_iff",
    "Verif.C03_interpAlpha_raises_iff"
   ],
   "note": ""
  },
  {
   "property": "C04",
   "status": "proved",
   "theorems": [
    "Verif.C04_alpha_in_unit_interval",
    "Verif.C04_alpha_interval",
    "Verif.C04_alpha_at_data_times",
    "Verif.C04_alpha_reconstructs_time",
    "Verif.C04_alpha_extrapolated"
   ],
   "note": ""
  },
  {
   "property": "C05",
   "status": "proved",
   "theorems": [
    "Verif.C05_instants_preserved",
    "Verif.C05_path_independent",
    "Verif.C05_round_trip",
    "Verif.C05_none_relabels"
   ],
   "note": ""
  },
  {
   "property": "C06",
   "status": "proved",
   "theorems": [
    "Verif.C06_settable_once",
    "Verif.C06_displacement_applied_once",
    "Verif.C06_fails_iff_already_set"
   ],
   "note": ""
  },
  {
   "property": "C07",
   "status": "partial",
   "theorems": [
    "Verif.C07_refuted",
    "Verif.C07_refuted_caller_array",
    "Verif.C07_allowed",
    "Verif.C07_isolated_partial",
    "Verif.C07_constructor_agrees"
   ],
   "note": "False as listed: Times built from an array or from another Time share its buffer (C07_refuted, C07_refuted_caller_array). Proved for every program that builds Times from lists."
  },
  {
   "property": "C08",
   "status": "proved",
   "theorems": [
    "Verif.C08_offset_resolution",
    "Verif.C08_loaded_data",
    "Verif.C08_naive_new_offset_refused"
   ],
   "note": ""
  },
  {
   "property": "C09",
   "status": "partial",
   "theorems": [
    "Verif.C09_refuted",
    "Verif.C09_exact_partial",
    "Verif.C09_quarter_hours_partial"
   ],
   "note": "False in doubles (4 h 20 min prints +04:19, C09_refuted). Proved in exact arithmetic for all whole minutes and in doubles for all quarter hours."
  },
  {
   "property": "C10",
   "status": "proved",
   "theorems": [
    "Verif.C10_between_is_linear",
    "Verif.C10_at_data_time",
    "Verif.C10_extrapolated",
    "Verif.C10_outside_refused",
    "Verif.C10_single_time_constant",
    "Verif.C10_one_slice_per_time",
    "Verif.C10_single_time_many_slices_refuted"
   ],
   "note": "Exact arithmetic, one data slice per time. The theorem with suffix _refuted shows the accepted combination of one time with several slices is not constant."
  },
  {
   "property": "C11",
   "status": "proved",
   "theorems": [
    "Verif.C11_bracket_surface_first",
    "Verif.C11_bracket_bottom_first",
    "Verif.C11_reconstructs_depth"
   ],
   "note": "Weights in [0,1] under any monotone rounding that keeps nonzero differences nonzero; reconstruction in exact arithmetic."
  },
  {
   "property": "C12",
   "status": "proved",
   "theorems": [
    "Verif.C12_boundary_surface_first",
    "Verif.C12_boundary_bottom_first"
   ],
   "note": ""
  },
  {
   "property": "C13",
   "status": "proved",
   "theorems": [
    "Verif.C13_own_column_surface_first",
    "Verif.C13_own_column_bottom_first",
    "Verif.C13_roms",
    "Verif.C13_fvcom"
   ],
   "note": "For data on levels; C13_roms and C13_fvcom cover the whole depth objects with exact column arithmetic."
  },
  {
   "property": "C14",
   "status": "proved",
   "theorems": [
    "Verif.C14_boundary_surface_first",
    "Verif.C14_boundary_bottom_first"
   ],
   "note": "For data on levels."
  },
  {
   "property": "C15",
   "status": "proved",
   "theorems": [
    "Verif.C15_roms_column",
    "Verif.C15_unknown_transform"
   ],
   "note": ""
  },
  {
   "property": "C16",
   "status": "proved",
   "theorems": [
    "Verif.C16_fvcom_column"
   ],
   "note": ""
  },
  {
   "property": "C17",
   "status": "proved",
   "theorems": [
    "Verif.C17_factory"
   ],
   "note": ""
  },
  {
   "property": "C18",
   "status": "partial",
   "theorems": [
    "Verif.C18_levels_partial",
    "Verif.C18_refuted_beyond_last",
    "Verif.C18_refuted",
    "Verif.C18_layers_partial",
    "Verif.C18_refuted_layers_before_first"
   ],
   "note": "False as listed (C18_refuted; C18_refuted_beyond_last shows it for every query with a point beyond the end listed last). Proved for all other queries on levels and for in-range points on layers."
  },
  {
   "property": "C19",
   "status": "partial",
   "theorems": [
    "Verif.C19_options_ignored",
    "Verif.C19_data_change_ignored",
    "Verif.C19_shape_ignored",
    "Verif.C19_refuted",
    "Verif.C19_provenance_partial",
    "Verif.C19_first_query_fresh_partial",
    "Verif.C19_transparent_partial"
   ],
   "note": "False as listed (C19_refuted): options, data assignments and point shape are ignored by the cache. Proved for histories with one set of options and fixed data, for first queries and with the cache off; every other answer is an earlier fresh answer."
  },
  {
   "property": "C20",
   "status": "proved",
   "theorems": [
    "Verif.C20_cache_bounded",
    "Verif.C20_new_result_kept",
    "Verif.C20_limits_reached"
   ],
   "note": ""
  },
  {
   "property": "C21",
   "status": "partial",
   "theorems": [
    "Verif.C21_mask_write_seen",
    "Verif.C21_refuted",
    "Verif.C21_item_write_seen",
    "Verif.C21_shared_partial",
    "Verif.C21_item_partial",
    "Verif.C21_vector"
   ],
   "note": "False as listed (C21_refuted): mask writes are seen. Proved for element writes of Variable and grid caches, in full for VectorVariable; false for item caches (C21_item_write_seen)."
  },
  {
   "property": "C22",
   "status": "partial",
   "theorems": [
    "Verif.C22_data_change_ignored",
    "Verif.C22_key_collision",
    "Verif.C22_refuted",
    "Verif.C22_transparent_partial"
   ],
   "note": "False as listed (C22_refuted, C22_key_collision). Proved while the data are not assigned and printed forms differ."
  },
  {
   "property": "C23",
   "status": "partial",
   "theorems": [
    "Verif.C23_tree_stale",
    "Verif.C23_memo_stale",
    "Verif.C23_method_ignored",
    "Verif.C23_refuted",
    "Verif.C23_provenance_partial",
    "Verif.C23_simple_no_memo_partial",
    "Verif.C23_fixed_mesh_partial"
   ],
   "note": "False as listed (C23_refuted, C23_memo_stale, C23_method_ignored). Proved for a fixed mesh with one method, and for the simple method with the memo off over every history. The cell tree is a parameter."
  },
  {
   "property": "C24",
   "status": "partial",
   "theorems": [
    "Verif.C24_second_call_array",
    "Verif.C24_argument_reshaped",
    "Verif.C24_refuted",
    "Verif.C24_single_index_partial"
   ],
   "note": "False as listed (C24_refuted, C24_argument_reshaped). Proved for calls that miss the memo."
  },
  {
   "property": "C25",
   "status": "proved",
   "theorems": [
    "Verif.C25_faces_setter",
    "Verif.C25_accepted_indices"
   ],
   "note": ""
  },
  {
   "property": "C26",
   "status": "proved",
   "theorems": [
    "Verif.C26_neighbours",
    "Verif.C26_one_open_per_edge",
    "Verif.C26_boundary_iff"
   ],
   "note": ""
  },
  {
   "property": "C27",
   "status": "proved",
   "theorems": [
    "Verif.C27_edges"
   ],
   "note": ""
  },
  {
   "property": "C28",
   "status": "partial",
   "theorems": [
    "Verif.C28_boundaries",
    "Verif.C28_boundaries_manifold",
    "Verif.C28_stale_table",
    "Verif.C28_refuted"
   ],
   "note": "False as listed: a neighbour table left from earlier faces is reused and gives wrong boundaries (C28_refuted, C28_stale_table). Proved for every mesh whose neighbour table is not already set."
  },
  {
   "property": "C29",
   "status": "proved",
   "theorems": [
    "Verif.C29_even_degree",
    "Verif.C29_closed_loops",
    "Verif.C29_oriented_balanced"
   ],
   "note": ""
  },
  {
   "property": "C30",
   "status": "proved",
   "theorems": [
    "Verif.C30_in_grid",
    "Verif.C30_all_sides",
    "Verif.C30_face_edges"
   ],
   "note": "The nearest-neighbour search tree is a parameter with the contract that it returns a nearest stored point; exact arithmetic."
  },
  {
   "property": "C31",
   "status": "proved",
   "theorems": [
    "Verif.C31_weights",
    "Verif.C31_nonneg_iff",
    "Verif.C31_linear_exact",
    "Verif.C31_no_overshoot",
    "Verif.C31_vertex_value"
   ],
   "note": ""
  },
  {
   "property": "C32",
   "status": "partial",
   "theorems": [
    "Verif.C32_clockwise_always_true",
    "Verif.C32_refuted",
    "Verif.C32_counterclockwise_partial",
    "Verif.C32_closed_triangle_partial",
    "Verif.C32_degenerate_false"
   ],
   "note": "False for clockwise triangles (C32_refuted, C32_clockwise_always_true). Proved for counterclockwise and degenerate ones."
  },
  {
   "property": "C33",
   "status": "partial",
   "theorems": [
    "Verif.C33_refuted",
    "Verif.C33_simple_locate_partial",
    "Verif.C33_answer_unique"
   ],
   "note": "False on a mesh without faces, where the answer is 0 (C33_refuted). Proved for every mesh with a face."
  },
  {
   "property": "C34",
   "status": "partial",
   "theorems": [
    "Verif.C34_refuted",
    "Verif.C34_degenerate_last_face",
    "Verif.C34_fill_partial",
    "Verif.C34_independent"
   ],
   "note": "False when the last face has non-finite data or no area (C34_refuted, C34_degenerate_last_face). Proved otherwise, for triangular meshes."
  },
  {
   "property": "C35",
   "status": "proved",
   "theorems": [
    "Verif.C35_infer_location"
   ],
   "note": ""
  },
  {
   "property": "C36",
   "status": "partial",
   "theorems": [
    "Verif.C36_roundtrip_partial",
    "Verif.C36_same_grid_partial",
    "Verif.C36_three_faces",
    "Verif.C36_refuted",
    "Verif.C36_two_boundaries"
   ],
   "note": "False as listed (C36_refuted): exactly three faces, two edges or two boundaries are transposed on loading (C36_three_faces), and connectivity tables and boundary coordinates are lost. Proved for all other sizes; the theorem says exactly what comes back. Masked faces and data variables not modelled."
  },
  {
   "property": "C37",
   "status": "proved",
   "theorems": [
    "Verif.C37_conserves",
    "Verif.C37_loops_proper",
    "Verif.C37_terminates"
   ],
   "note": ""
  },
  {
   "property": "C38",
   "status": "proved",
   "theorems": [
    "Verif.C38_oriented",
    "Verif.C38_unoriented_raises",
    "Verif.C38_self_segment_open"
   ],
   "note": "C38_unoriented_raises and C38_self_segment_open show the hypotheses are needed."
  },
  {
   "property": "C39",
   "status": "proved",
   "theorems": [
    "Verif.C39_roundtrip",
    "Verif.C39_roundtrip_oriented"
   ],
   "note": "At the level of lines; the two float formats are arbitrary functions that keep zero, so points and depths come back as printed."
  },
  {
   "property": "C40",
   "status": "proved",
   "theorems": [
    "Verif.C40_slices",
    "Verif.C40_indices",
    "Verif.C40_cells",
    "Verif.C40_unknown",
    "Verif.C40_names",
    "Verif.C40_given_for_place"
   ],
   "note": "For the four padding words and None; C40_unknown says what happens with any other word. C40_names: padding, interpolation and slicing take the same names for a place; C40_given_for_place: each place has the pair given for it."
  },
  {
   "property": "C41",
   "status": "proved",
   "theorems": [
    "Verif.C41_inferred",
    "Verif.C41_given",
    "Verif.C41_no_centers",
    "Verif.C41_edges",
    "Verif.C41_declared",
    "Verif.C41_other_sizes"
   ],
   "note": ""
  },
  {
   "property": "C42",
   "status": "partial",
   "theorems": [
    "Verif.C42_refuted",
    "Verif.C42_unrecognised",
    "Verif.C42_partial",
    "Verif.C42_flat"
   ],
   "note": "False as listed (C42_refuted, C42_unrecognised): only sizes relative to the nodes are looked at. Proved for grids of conventional sizes."
  },
  {
   "property": "C43",
   "status": "partial",
   "theorems": [
    "Verif.C43_masked_partial",
    "Verif.C43_unmasked_partial",
    "Verif.C43_refuted",
    "Verif.C43_unbound",
    "Verif.C43_masked_coordinates",
    "Verif.C43_locate_partial"
   ],
   "note": "False as listed (C43_refuted): a cell mask without land, or a node mask alone, raises UnboundLocalError (C43_unbound); masked node coordinates shift the cells (C43_masked_coordinates). Proved for masks with land and without any mask. The search tree is a parameter."
  },
  {
   "property": "C44",
   "status": "proved",
   "theorems": [
    "Verif.C44_cell",
    "Verif.C44_number",
    "Verif.C44_miss"
   ],
   "note": ""
  },
  {
   "property": "C45",
   "status": "proved",
   "theorems": [
    "Verif.C45_maps_back",
    "Verif.C45_unit_square",
    "Verif.C45_recovers"
   ],
   "note": "Exact arithmetic; the square root is a parameter with the contract sqrt k * sqrt k = k."
  },
  {
   "property": "C46",
   "status": "proved",
   "theorems": [
    "Verif.C46_weights",
    "Verif.C46_value",
    "Verif.C46_between",
    "Verif.C46_corner",
    "Verif.C46_linear",
    "Verif.C46_call",
    "Verif.C46_masked"
   ],
   "note": "Exact arithmetic. Unmasked data; C46_masked says what masked nodes do."
  },
  {
   "property": "C47",
   "status": "proved",
   "theorems": [
    "Verif.C47_edge1",
    "Verif.C47_edge2",
    "Verif.C47_sides"
   ],
   "note": "Exact arithmetic, for points whose logical coordinates are finite."
  },
  {
   "property": "C48",
   "status": "partial",
   "theorems": [
    "Verif.C48_zero",
    "Verif.C48_refuted",
    "Verif.C48_mask_exact",
    "Verif.C48_mask_partial",
    "Verif.C48_mirror_many",
    "Verif.C48_mirror_partial",
    "Verif.C48_other"
   ],
   "note": "False under mask (C48_refuted; C48_mask_exact says what happens) and under mirror for three or more points (C48_mirror_many). Proved under zero in full, under mask for one point or uniform masks, under mirror for one or two points."
  },
  {
   "property": "C49",
   "status": "partial",
   "theorems": [
    "Verif.C49_refuted",
    "Verif.C49_swapped",
    "Verif.C49_partial"
   ],
   "note": "False as listed (C49_refuted): the axes are swapped (C49_swapped). Proved for points on the diagonal of their cell."
  },
  {
   "property": "C50",
   "status": "proved",
   "theorems": [
    "Verif.C50_direction",
    "Verif.C50_length",
    "Verif.C50_compose",
    "Verif.C50_inverse",
    "Verif.C50_arrays",
    "Verif.C50_vector_sum",
    "Verif.C50_average_columns",
    "Verif.C50_average_rows"
   ],
   "note": ""
  },
  {
   "property": "C51",
   "status": "proved",
   "theorems": [
    "Verif.C51_parses",
    "Verif.C51_conventional",
    "Verif.C51_nothing",
    "Verif.C51_any",
    "Verif.C51_any_unique",
    "Verif.C51_hyphens"
   ],
   "note": "C51_any and C51_any_unique: any text, also one not written by the library, gives the leftmost declarations found in it."
  },
  {
   "property": "C52",
   "status": "proved",
   "theorems": [
    "Verif.C52_located",
    "Verif.C52_extent",
    "Verif.C52_centers",
    "Verif.C52_centers_located"
   ],
   "note": ""
  },
  {
   "property": "C53",
   "status": "proved",
   "theorems": [
    "Verif.C53_keys",
    "Verif.C53_chosen",
    "Verif.C53_missing",
    "Verif.C53_can_create"
   ],
   "note": ""
  },
  {
   "property": "C54",
   "status": "partial",
   "theorems": [
    "Verif.C54_refuted",
    "Verif.C54_same_partial",
    "Verif.C54_ambiguous",
    "Verif.C54_twice",
    "Verif.C54_refused"
   ],
   "note": "False as listed (C54_refuted): an array of shape (0, 2) comes back with shape (2, 0). Proved for one and for four or more points; two and three points are indistinguishable (C54_ambiguous)."
  },
  {
   "property": "C55",
   "status": "partial",
   "theorems": [
    "Verif.C55_refuted",
    "Verif.C55_flags_partial",
    "Verif.C55_unreadable",
    "Verif.C55_without_table"
   ],
   "note": "False as listed (C55_refuted): a single flag value is a scalar and raises TypeError. Proved for two or more flags; unreadable tables and masks without a table in C55_unreadable and C55_without_table."
  },
  {
   "property": "C56",
   "status": "partial",
   "theorems": [
    "Verif.C56_caller",
    "Verif.C56_topology",
    "Verif.C56_attribute_partial",
    "Verif.C56_topology_variable",
    "Verif.C56_refuted",
    "Verif.C56_no_faces",
    "Verif.C56_faces",
    "Verif.C56_nothing"
   ],
   "note": "False as listed (C56_refuted): an attribute that names a rectangular grid, or one with capitals, is ignored. Proved for the other attribute values, and the caller, topologies, topology variables and contents in the other theorems."
  },
  {
   "property": "C57",
   "status": "proved",
   "theorems": [
    "Verif.C57_both",
    "Verif.C57_file",
    "Verif.C57_parts",
    "Verif.C57_query"
   ],
   "note": ""
  },
  {
   "property": "C58",
   "status": "partial",
   "theorems": [
    "Verif.C58_rows",
    "Verif.C58_error",
    "Verif.C58_first_partial",
    "Verif.C58_transparent_partial",
    "Verif.C58_lons_lats",
    "Verif.C58_no_points",
    "Verif.C58_refuted",
    "Verif.C58_names_refuted",
    "Verif.C58_names_partial",
    "Verif.C58_names_only_partial",
    "Verif.C58_names_order",
    "Verif.C58_single_name",
    "Verif.C58_single_name_error"
   ],
   "note": "The rows of the components for points not asked before (C58_first_partial) and after every history without assignments (C58_transparent_partial); false after new data are assigned to a component (C58_refuted). The last candidate name, not the first, is chosen (C58_names_refuted, C58_names_partial)."
  },
  {
   "property": "C59",
   "status": "proved",
   "theorems": [
    "Verif.C59_each",
    "Verif.C59_start",
    "Verif.C59_direction",
    "Verif.C59_separated",
    "Verif.C59_bounding_box",
    "Verif.C59_convex_inside",
    "Verif.C59_convex_outside",
    "Verif.C59_box"
   ],
   "note": ""
  },
  {
   "property": "C60",
   "status": "partial",
   "theorems": [
    "Verif.C60_two_faces",
    "Verif.C60_refuted",
    "Verif.C60_unrecognised",
    "Verif.C60_zero_based_shifted",
    "Verif.C60_varnames_partial",
    "Verif.C60_varnames_zero_partial",
    "Verif.C60_start_index",
    "Verif.C60_flags",
    "Verif.C60_no_start_index_partial"
   ],
   "note": "False as listed (C60_refuted, C60_unrecognised, C60_zero_based_shifted). Proved for more faces than vertices per face when node 1 or the last node is used, and in full for files that state a start index and do not have three faces."
  },
  {
   "property": "C61",
   "status": "partial",
   "theorems": [
    "Verif.C61_contains_partial",
    "Verif.C61_cells",
    "Verif.C61_same_data",
    "Verif.C61_refuted",
    "Verif.C61_edge2_missing"
   ],
   "note": "False for edges (C61_refuted, C61_edge2_missing): the window grows in the wrong direction. Proved for nodes and centers; addressing of shifted indices proved in full."
  },
  {
   "property": "C62",
   "status": "partial",
   "theorems": [
    "Verif.C62_arrays_partial",
    "Verif.C62_ends",
    "Verif.C62_refuted",
    "Verif.C62_inner_times_partial"
   ],
   "note": "False as listed (C62_refuted); proved strictly inside the series, for one point (C62_inner_times_partial) and for arrays with depths (C62_arrays_partial). At the ends there are no values (C62_ends)."
  },
  {
   "property": "C63",
   "status": "partial",
   "theorems": [
    "Verif.C63_refuted",
    "Verif.C63_below_top_layer_partial"
   ],
   "note": "False as listed (C63_refuted): points above the uppermost layer centre raise. Proved from that layer down for bottom-first columns."
  },
  {
   "property": "C64",
   "status": "partial",
   "theorems": [
    "Verif.C64_refuted",
    "Verif.C64_default_partial",
    "Verif.C64_name"
   ],
   "note": "False as listed (C64_refuted): the index becomes the name and -1 is used."
  },
  {
   "property": "C65",
   "status": "proved",
   "theorems": [
    "Verif.C65_top_level_zero",
    "Verif.C65_zeroed_is_smallest"
   ],
   "note": ""
  },
  {
   "property": "C66",
   "status": "partial",
   "theorems": [
    "Verif.C66_refuted",
    "Verif.C66_no_vertical",
    "Verif.C66_partial",
    "Verif.C66_precedence_partial",
    "Verif.C66_pairs_refused"
   ],
   "note": "False as listed (C66_refuted for high padding, C66_no_vertical for files without vertical dimensions). Proved for the other files; C66_precedence_partial says which of several declarations decides; C66_pairs_refused: grids made with a pair of paddings have none."
  },
  {
   "property": "C67",
   "status": "partial",
   "theorems": [
    "Verif.C67_first_use",
    "Verif.C67_refuted",
    "Verif.C67_not_cut",
    "Verif.C67_partial",
    "Verif.C67_plain_array"
   ],
   "note": "False as listed (C67_first_use: KeyError before the tree is built; C67_not_cut: wrong value). Proved when the tree exists and the location can be inferred. The search tree is a parameter."
  },
  {
   "property": "C68",
   "status": "partial",
   "theorems": [
    "Verif.C68_refuted",
    "Verif.C68_partial"
   ],
   "note": "False as listed (C68_refuted): paddings are taken in the order of the declarations. Proved when that is the order of the axes or the paddings are equal."
  },
  {
   "property": "C69",
   "status": "partial",
   "theorems": [
    "Verif.C69_refuted",
    "Verif.C69_partial"
   ],
   "note": "False as listed (C69_refuted): the tree of the first query is kept. Proved for queries that agree with the first."
  },
  {
   "property": "C70",
   "status": "partial",
   "theorems": [
    "Verif.C70_raises",
    "Verif.C70_refuted",
    "Verif.C70_partial"
   ],
   "note": "False as listed (C70_refuted): UnboundLocalError for nodes and edges (C70_raises). Proved for centers."
  },
  {
   "property": "C71",
   "status": "partial",
   "theorems": [
    "Verif.C71_regular",
    "Verif.C71_rows_north",
    "Verif.C71_refuted",
    "Verif.C71_rows_north_call",
    "Verif.C71_partial"
   ],
   "note": "False as listed (C71_refuted): no point of a cell whose rows have constant longitude is given coordinates (C71_rows_north), and one such point makes a whole evaluation of node data fail (C71_rows_north_call). Proved for cells whose rows keep going east or west, and for every point of a regular cell, whose Jacobian is nowhere zero (C71_regular)."
  },
  {
   "property": "C72",
   "status": "partial",
   "theorems": [
    "Verif.C72_partial",
    "Verif.C72_refused",
    "Verif.C72_by_length",
    "Verif.C72_refuted",
    "Verif.C72_shared_axis"
   ],
   "note": "False as listed (C72_refuted): one array object used for both axes is told apart by identity (C72_shared_axis). Proved for distinct axis objects, with and without dimension names. scipy is a parameter."
  },
  {
   "property": "C73",
   "status": "partial",
   "theorems": [
    "Verif.C73_raises",
    "Verif.C73_refuted",
    "Verif.C73_partial"
   ],
   "note": "False as listed (C73_refuted): AttributeError for one more row or column (C73_raises). Proved for all other shapes."
  },
  {
   "property": "C74",
   "status": "partial",
   "theorems": [
    "Verif.C74_upper_case",
    "Verif.C74_refuted",
    "Verif.C74_partial",
    "Verif.C74_composite",
    "Verif.C74_conventional",
    "Verif.C74_table",
    "Verif.C74_nothing",
    "Verif.C74_found_pair",
    "Verif.C74_found_combined",
    "Verif.C74_found_nothing",
    "Verif.C74_found_errors",
    "Verif.C74_topology_refuted",
    "Verif.C74_topology_names_partial",
    "Verif.C74_topology_combined_found",
    "Verif.C74_topology_combined"
   ],
   "note": "False as listed (C74_refuted): names are compared with lower-cased file names (C74_upper_case), and a composite variable is looked up by the attribute name (C74_composite). Proved for lower-case names and without a topology."
  },
  {
   "property": "C75",
   "status": "partial",
   "theorems": [
    "Verif.C75_refuted",
    "Verif.C75_partial",
    "Verif.C75_any_partial",
    "Verif.C75_any_unique"
   ],
   "note": "False as listed (C75_refuted): names are cut at the first digit. Proved for names of letters and underscores (C75_partial); C75_any_partial and C75_any_unique say what any text gives."
  },
  {
   "property": "C76",
   "status": "proved",
   "theorems": [
    "Verif.C76_direction"
   ],
   "note": ""
  },
  {
   "property": "C77",
   "status": "partial",
   "theorems": [
    "Verif.C77_loaded_partial",
    "Verif.C77_refuted",
    "Verif.C77_partial",
    "Verif.C77_nothing"
   ],
   "note": "False as listed (C77_refuted): any name with a y or x in it counts, such as bathymetry. Proved when one name counts as x and one as y."
  },
  {
   "property": "C78",
   "status": "partial",
   "theorems": [
    "Verif.C78_refuted",
    "Verif.C78_faces_partial",
    "Verif.C78_file_partial"
   ],
   "note": "False as listed (C78_refuted): three triangles stored by rows are transposed; and indices counting from one are kept if no face uses the last node. Proved for all other tables."
  },
  {
   "property": "C79",
   "status": "partial",
   "theorems": [
    "Verif.C79_refuted",
    "Verif.C79_recorded_partial"
   ],
   "note": "False as listed (C79_refuted): for structured grids a node mask mask_psi is recorded whether or not it exists. Proved for all other entries and kinds."
  },
  {
   "property": "C80",
   "status": "partial",
   "theorems": [
    "Verif.C80_refuted",
    "Verif.C80_loads_partial",
    "Verif.C80_conventions",
    "Verif.C80_given"
   ],
   "note": "False as listed (C80_refuted): a file with combined nodes and no faces counts as rectangular and then fails with KeyError. Proved for files with separate longitude and latitude. A file with a topology variable cannot be loaded as rectangular (C80_conventions)."
  },
  {
   "property": "C81",
   "status": "proved",
   "theorems": [
    "Verif.C81_parts",
    "Verif.C81_nodes",
    "Verif.C81_topology"
   ],
   "note": ""
  },
  {
   "property": "C82",
   "status": "partial",
   "theorems": [
    "Verif.C82_refuted",
    "Verif.C82_text_partial",
    "Verif.C82_missing",
    "Verif.C82_common",
    "Verif.C82_different",
    "Verif.C82_collected"
   ],
   "note": "Exactly the texts of one letter or with different letters are reported unchanged (C82_text_partial); \"mm\" becomes \"m\" and the empty text raises IndexError (C82_refuted). Lists are as claimed."
  },
  {
   "property": "C83",
   "status": "partial",
   "theorems": [
    "Verif.C83_refuted",
    "Verif.C83_none_partial",
    "Verif.C83_empty_partial",
    "Verif.C83_one_partial",
    "Verif.C83_made",
    "Verif.C83_too_few"
   ],
   "note": "Two or more variables: proved. Fewer: ValueError for one variable; TypeError for none given and IndexError for an empty list without units and time (C83_refuted, C83_none_partial, C83_empty_partial)."
  },
  {
   "property": "C84",
   "status": "partial",
   "theorems": [
    "Verif.C84_refuted",
    "Verif.C84_partial",
    "Verif.C84_separate"
   ],
   "note": "Dataset.from_netCDF is as claimed (C84_partial); the constructor ignores its argument grid_topology (C84_refuted)."
  },
  {
   "property": "C85",
   "status": "partial",
   "theorems": [
    "Verif.C85_refuted",
    "Verif.C85_loaded_partial",
    "Verif.C85_order",
    "Verif.C85_total",
    "Verif.C85_error"
   ],
   "note": "The variables loaded are exactly those with a location whose name is not a word of any topology value (C85_loaded_partial); this leaves out a variable named like a word of the long name of the topology (C85_refuted)."
  },
  {
   "property": "C86",
   "status": "partial",
   "theorems": [
    "Verif.C86_refuted",
    "Verif.C86_partial",
    "Verif.C86_other"
   ],
   "note": "netcdf4 and other formats as claimed; netcdf3 is accepted and netCDF 4 is written (C86_refuted)."
  },
  {
   "property": "C87",
   "status": "proved",
   "theorems": [
    "Verif.C87_lengths",
    "Verif.C87_time_refused",
    "Verif.C87_data_refused"
   ],
   "note": ""
  },
  {
   "property": "C88",
   "status": "partial",
   "theorems": [
    "Verif.C88_refuted",
    "Verif.C88_partial"
   ],
   "note": "Proved without a time axis or with one as long as the data (C88_partial); refused with a time axis of one entry, which is what static variables of files get (C88_refuted)."
  },
  {
   "property": "C89",
   "status": "partial",
   "theorems": [
    "Verif.C89_refuted",
    "Verif.C89_partial",
    "Verif.C89_misfit"
   ],
   "note": "Proved for new variables (C89_partial); later data are not compared with the grid (C89_refuted)."
  },
  {
   "property": "C90",
   "status": "partial",
   "theorems": [
    "Verif.C90_refuted",
    "Verif.C90_file_partial",
    "Verif.C90_file_given",
    "Verif.C90_given",
    "Verif.C90_unknown"
   ],
   "note": "Proved for locations given and for variables loaded from files; the constructor ignores a stated location on an unstructured grid (C90_refuted)."
  },
  {
   "property": "C91",
   "status": "partial",
   "theorems": [
    "Verif.C91_refuted",
    "Verif.C91_dimensions",
    "Verif.C91_partial",
    "Verif.C91_one",
    "Verif.C91_misfit",
    "Verif.C91_assigned"
   ],
   "note": "Proved but for data with both extra dimensions, where a depth is named without being there (C91_refuted)."
  },
  {
   "property": "C92",
   "status": "partial",
   "theorems": [
    "Verif.C92_refuted",
    "Verif.C92_given_counterexample",
    "Verif.C92_depth_partial",
    "Verif.C92_order_partial"
   ],
   "note": "Proved if the data have a time or no depth (C92_order_partial, C92_depth_partial); data with a depth and no time are taken for a time series (C92_refuted), and lose the depth if a time is given (C92_given_counterexample)."
  },
  {
   "property": "C93",
   "status": "partial",
   "theorems": [
    "Verif.C93_refuted",
    "Verif.C93_refuted_nodes",
    "Verif.C93_partial",
    "Verif.C93_taken_away",
    "Verif.C93_edges_taken_away",
    "Verif.C93_wrong_shape",
    "Verif.C93_current_partial",
    "Verif.C93_boundaries_partial",
    "Verif.C93_boundaries_without_faces_partial"
   ],
   "note": "Proved for histories that assign no faces and delete no nodes while tables are held (C93_partial, C93_current_partial, C93_boundaries_partial); false for others: assigning faces keeps the old tables (C93_refuted), deleting nodes keeps tables without faces (C93_refuted_nodes)."
  },
  {
   "property": "C94",
   "status": "partial",
   "theorems": [
    "Verif.C94_refuted",
    "Verif.C94_refuted_none",
    "Verif.C94_saved_iff",
    "Verif.C94_partial",
    "Verif.C94_taken_away"
   ],
   "note": "Proved for histories that do not replace a part while its points are held (C94_partial); false for others: deleting the faces keeps their points, and the grid can not be saved (C94_refuted, C94_saved_iff)."
  },
  {
   "property": "C95",
   "status": "partial",
   "theorems": [
    "Verif.C95_refuted",
    "Verif.C95_average_partial",
    "Verif.C95_bad_index",
    "Verif.C95_inside"
   ],
   "note": "Proved without padding (C95_average_partial); the padding -1 counts as the last node (C95_refuted)."
  },
  {
   "property": "C96",
   "status": "partial",
   "theorems": [
    "Verif.C96_refuted",
    "Verif.C96_partial"
   ],
   "note": "Proved if the nodes do not change once searched (C96_partial); the search tree is never renewed (C96_refuted)."
  },
  {
   "property": "C97",
   "status": "partial",
   "theorems": [
    "Verif.C97_refuted",
    "Verif.C97_no_faces",
    "Verif.C97_partial",
    "Verif.C97_held"
   ],
   "note": "Proved if no edges were found before (C97_partial); edges of earlier faces are kept (C97_refuted)."
  },
  {
   "property": "C98",
   "status": "partial",
   "theorems": [
    "Verif.C98_equal_iff",
    "Verif.C98_equivalence",
    "Verif.C98_derived",
    "Verif.C98_saved_partial",
    "Verif.C98_refuted"
   ],
   "note": "False as listed for grids read back: three triangles come back as others (C98_refuted). All else proved; grids read back if C36 does not change them (C98_saved_partial)."
  },
  {
   "property": "C99",
   "status": "partial",
   "theorems": [
    "Verif.C99_refuted",
    "Verif.C99_unnamed_partial",
    "Verif.C99_named"
   ],
   "note": "Proved if the dimensions of variables of that role are numbers (C99_unnamed_partial, C99_named); one that is not stops the search (C99_refuted)."
  },
  {
   "property": "C100",
   "status": "partial",
   "theorems": [
    "Verif.C100_made",
    "Verif.C100_refuted",
    "Verif.C100_same_name",
    "Verif.C100_read_partial"
   ],
   "note": "Construction by shapes proved (C100_made), reading proved for distinct names and no additions after reads (C100_read_partial); items read before an addition lack the new variable (C100_refuted), equal names are accepted (C100_same_name)."
  },
  {
   "property": "C101",
   "status": "partial",
   "theorems": [
    "Verif.C101_refuted",
    "Verif.C101_unchanged_partial",
    "Verif.C101_attributes",
    "Verif.C101_none"
   ],
   "note": "The attributes are as claimed (C101_attributes); the dictionary of the caller is changed (C101_refuted)."
  },
  {
   "property": "C102",
   "status": "partial",
   "theorems": [
    "Verif.C102_refuted",
    "Verif.C102_refuted_mesh",
    "Verif.C102_saved_partial",
    "Verif.C102_coordinates",
    "Verif.C102_refused",
    "Verif.C102_refuted_time",
    "Verif.C102_all_partial"
   ],
   "note": "Proved for variables without fill value, location and mesh among their attributes (C102_saved_partial, C102_all_partial); a fill value raises AttributeError (C102_refuted), the mesh of the original file overwrites the name of the mesh (C102_refuted_mesh), several times can not be saved (C102_refuted_time)."
  },
  {
   "property": "C103",
   "status": "proved",
   "theorems": [
    "Verif.C103_found",
    "Verif.C103_refused"
   ],
   "note": ""
  },
  {
   "property": "C104",
   "status": "partial",
   "theorems": [
    "Verif.C104_refuted",
    "Verif.C104_refuted_centers",
    "Verif.C104_axis_partial",
    "Verif.C104_none_partial",
    "Verif.C104_staggered_partial"
   ],
   "note": "Proved: the axis is the number of dimensions after the first padded one (C104_axis_partial, C104_none_partial), which is right for variables on edges whose leading dimensions are not padded (C104_staggered_partial). False for variables without dimensions, which raise (C104_refuted), and for variables at centers, which get an axis (C104_refuted_centers)."
  },
  {
   "property": "C105",
   "status": "partial",
   "theorems": [
    "Verif.C105_refuted",
    "Verif.C105_without_grid_partial",
    "Verif.C105_places_partial",
    "Verif.C105_stated"
   ],
   "note": "The stated location is kept (C105_stated); inferred ones proved in C105_places_partial, C105_without_grid_partial. Variables at nodes have no location (C105_refuted)."
  },
  {
   "property": "C106",
   "status": "partial",
   "theorems": [
    "Verif.C106_stated",
    "Verif.C106_exist",
    "Verif.C106_nothing",
    "Verif.C106_named_partial",
    "Verif.C106_guessed_partial",
    "Verif.C106_refuted",
    "Verif.C106_refuted_spaces"
   ],
   "note": "Named coordinates (C106_stated), nothing (C106_nothing), existence of what is found (C106_exist), and the search where the first variable names them (C106_named_partial). False otherwise: one variable can be taken for both (C106_refuted), two spaces raise KeyError (C106_refuted_spaces). C106_guessed_partial says what is taken when nothing is named."
  },
  {
   "property": "C107",
   "status": "partial",
   "theorems": [
    "Verif.C107_first",
    "Verif.C107_none",
    "Verif.C107_refuted",
    "Verif.C107_dims_partial",
    "Verif.C107_loaded"
   ],
   "note": "First mask of the same shape (C107_first, C107_none); the dimensions can differ where sizes agree (C107_refuted), proved where sizes tell dimensions apart (C107_dims_partial). C107_loaded: what a loaded grid holds."
  },
  {
   "property": "C108",
   "status": "partial",
   "theorems": [
    "Verif.C108_bearing",
    "Verif.C108_range",
    "Verif.C108_direction",
    "Verif.C108_unique",
    "Verif.C108_east",
    "Verif.C108_north",
    "Verif.C108_rows_partial",
    "Verif.C108_refuted",
    "Verif.C108_array"
   ],
   "note": "Direction, range, uniqueness proved (C108_direction, C108_range, C108_unique); each center has an angle in rows of two or more (C108_rows_partial); a single column has none (C108_refuted)."
  },
  {
   "property": "C109",
   "status": "partial",
   "theorems": [
    "Verif.C109_equal",
    "Verif.C109_symmetric",
    "Verif.C109_refuted",
    "Verif.C109_refuted_edges",
    "Verif.C109_copy_partial"
   ],
   "note": "Characterised (C109_equal), symmetric (C109_symmetric), copies without NaN are equal (C109_copy_partial); false with NaN (C109_refuted), edges are not compared (C109_refuted_edges)."
  },
  {
   "property": "C110",
   "status": "partial",
   "theorems": [
    "Verif.C110_texts",
    "Verif.C110_variables",
    "Verif.C110_slices",
    "Verif.C110_refuted",
    "Verif.C110_refuted_centers",
    "Verif.C110_refuted_edges",
    "Verif.C110_loads_partial"
   ],
   "note": "What is loaded is proved (C110_texts, C110_variables, C110_slices), sufficient conditions in C110_loads_partial. False without vertical dimensions (C110_refuted), without centers and angles (C110_refuted_centers)."
  },
  {
   "property": "C111",
   "status": "partial",
   "theorems": [
    "Verif.C111_round_partial",
    "Verif.C111_refuted",
    "Verif.C111_refuted_location",
    "Verif.C111_refuted_centers",
    "Verif.C111_refuted_twice"
   ],
   "note": "Round trip proved for files meeting Survives, all but edge arrays, masks, stated locations and values of other variables (C111_round_partial). False for edges (C111_refuted), stated locations (C111_refuted_location), grids without centers (C111_refuted_centers), variables listed twice (C111_refuted_twice)."
  },
  {
   "property": "C112",
   "status": "partial",
   "theorems": [
    "Verif.C112_named",
    "Verif.C112_refuted",
    "Verif.C112_refuted_load",
    "Verif.C112_arrays_partial",
    "Verif.C112_angles_partial"
   ],
   "note": "Proved where no variable has a name the grid uses itself (C112_arrays_partial, C112_angles_partial); false otherwise (C112_refuted, C112_refuted_load)."
  },
  {
   "property": "C113",
   "status": "partial",
   "theorems": [
    "Verif.C113_levels_partial",
    "Verif.C113_surface",
    "Verif.C113_still_levels_partial",
    "Verif.C113_refuted"
   ],
   "note": "Proved for any horizontal stage and depth object (C113_levels_partial, C113_still_levels_partial; C113_surface for data without levels). False when a point picks the level listed last (C113_refuted)."
  },
  {
   "property": "C114",
   "status": "partial",
   "theorems": [
    "Verif.C114_triangles_partial",
    "Verif.C114_surface_triangles",
    "Verif.C114_quads_partial",
    "Verif.C114_surface_quads",
    "Verif.C114_refuted",
    "Verif.C114_regular_partial"
   ],
   "note": "Proved on triangles and structured grids up to but not including the level listed last (C114_triangles_partial, C114_quads_partial), and without exception for data without levels (C114_surface_triangles, C114_surface_quads). C114_regular_partial covers regular cells of any shape. False at the depth of the level listed last (C114_refuted)."
  },
  {
   "property": "C115",
   "status": "partial",
   "theorems": [
    "Verif.C115_triangles_partial",
    "Verif.C115_surface_triangles",
    "Verif.C115_quads_partial",
    "Verif.C115_refuted"
   ],
   "note": "Proved for every depth object where no point picks the level listed last (C115_triangles_partial, C115_quads_partial) and for data without levels (C115_surface_triangles). False beyond the level listed last, where the result is NaN and not masked (C115_refuted)."
  },
  {
   "property": "C116",
   "status": "partial",
   "theorems": [
    "Verif.C116_levels_partial",
    "Verif.C116_surface",
    "Verif.C116_refuted"
   ],
   "note": "Proved for level depths where no point picks the level listed last (C116_levels_partial) and for data without levels (C116_surface). False otherwise: the value of a point changes when a point below the bottom is asked with it (C116_refuted)."
  },
  {
   "property": "C117",
   "status": "proved",
   "theorems": [
    "Verif.C117_clamps",
    "Verif.C117_neutral",
    "Verif.C117_one_time"
   ],
   "note": ""
  },
  {
   "property": "C118",
   "status": "partial",
   "theorems": [
    "Verif.C118_levels_partial",
    "Verif.C118_layers_partial",
    "Verif.C118_surface_partial",
    "Verif.C118_refuted",
    "Verif.C118_refuted_before_first"
   ],
   "note": "Proved with the two levels and two times between which the point lies (C118_levels_partial, C118_layers_partial, C118_surface_partial). False for the ones without weight: at a depth exactly on a level the mask of the next level is used (C118_refuted), before the first level the mask of the level listed last (C118_refuted_before_first)."
  },
  {
   "property": "C119",
   "status": "partial",
   "theorems": [
    "Verif.C119_refuted",
    "Verif.C119_rows",
    "Verif.C119_columns_partial",
    "Verif.C119_not_aligned",
    "Verif.C119_few",
    "Verif.C119_single",
    "Verif.C119_refuses",
    "Verif.C119_round_trip"
   ],
   "note": "False as listed for a plain list of results and points by columns (C119_refuted). Proved for points by rows, and by columns for results by rows; C119_few, C119_single, C119_refuses cover the remaining shapes."
  },
  {
   "property": "C120",
   "status": "partial",
   "theorems": [
    "Verif.C120_sources",
    "Verif.C120_refuted",
    "Verif.C120_refuted_dataset",
    "Verif.C120_same_partial"
   ],
   "note": "Which argument each dataset comes from is proved for every combination (C120_sources), and one object for both when they are named alike (C120_same_partial). False when the same file is named as a text and as a path (C120_refuted), or as an open dataset and as a grid file (C120_refuted_dataset)."
  },
  {
   "property": "C121",
   "status": "partial",
   "theorems": [
    "Verif.C121_refuted",
    "Verif.C121_refuted_grid",
    "Verif.C121_partial"
   ],
   "note": "False: with a file name the data file and the grid file are ignored (C121_refuted, C121_refuted_grid). Proved without a file name, and for a given dataset (C121_partial)."
  },
  {
   "property": "C122",
   "status": "partial",
   "theorems": [
    "Verif.C122_refuted",
    "Verif.C122_refuted_levels",
    "Verif.C122_values_partial",
    "Verif.C122_flat",
    "Verif.C122_own_grid"
   ],
   "note": "Every number of the new data is the one the source gives (C122_values_partial), masks included without times and levels (C122_flat), and a variable over times regridded to its own nodes keeps its data (C122_own_grid). False for masks when there are times (C122_refuted) and for levels when there are no times (C122_refuted_levels)."
  },
  {
   "property": "C123",
   "status": "partial",
   "theorems": [
    "Verif.C123_refuted",
    "Verif.C123_refuted_centers",
    "Verif.C123_refuted_unstructured",
    "Verif.C123_nodes_partial",
    "Verif.C123_only_partial",
    "Verif.C123_level_depths",
    "Verif.C123_names",
    "Verif.C123_face"
   ],
   "note": "Proved for nodes of structured grids (C123_nodes_partial), which is all there is but for centers as many as nodes (C123_only_partial). False for edges (AttributeError, C123_refuted), for centers (C123_refuted_centers) and for variables on unstructured grids (C123_refuted_unstructured)."
  },
  {
   "property": "C124",
   "status": "partial",
   "theorems": [
    "Verif.C124_inside",
    "Verif.C124_unmasked",
    "Verif.C124_partial",
    "Verif.C124_refuted"
   ],
   "note": "Proved between 360 degrees west and east and within 89.95 degrees of the equator (C124_partial), and everywhere with unmasking (C124_unmasked). False at the poles, where the result is masked (C124_refuted). That the search finds a cell exactly when the point is in one is a hypothesis."
  },
  {
   "property": "C125",
   "status": "partial",
   "theorems": [
    "Verif.C125_roms",
    "Verif.C125_fvcom",
    "Verif.C125_levels_partial",
    "Verif.C125_system",
    "Verif.C125_refuted"
   ],
   "note": "Exact conditions proved for the three systems and for the choice between them (C125_roms, C125_fvcom, C125_levels_partial, C125_system). False for level depths described as depth: the description is searched letter by letter (C125_refuted)."
  },
  {
   "property": "C126",
   "status": "partial",
   "theorems": [
    "Verif.C126_refuted",
    "Verif.C126_same",
    "Verif.C126_partial"
   ],
   "note": "Proved for files whose data file describes no variable as a sigma coordinate (C126_partial). False for files that follow the convention (C126_refuted): there both terms are always the same variable (C126_same)."
  },
  {
   "property": "C127",
   "status": "partial",
   "theorems": [
    "Verif.C127_mean",
    "Verif.C127_masked",
    "Verif.C127_plane",
    "Verif.C127_shape",
    "Verif.C127_refuted",
    "Verif.C127_partial"
   ],
   "note": "Means, masks, planes and shapes proved (C127_mean, C127_masked, C127_plane, C127_shape), and that there is one value per node for data at the nodes or at centers around them (C127_partial). False for centers inside the nodes (C127_refuted)."
  },
  {
   "property": "C128",
   "status": "partial",
   "theorems": [
    "Verif.C128_refuted",
    "Verif.C128_refuted_constant_zeta",
    "Verif.C128_refuted_location",
    "Verif.C128_parts",
    "Verif.C128_served_partial",
    "Verif.C128_roms"
   ],
   "note": "The parts of the loaded object and the exact condition for loading are proved (C128_parts, C128_served_partial, C128_roms). False for a given bathymetry with zeta in the file (C128_refuted), a given zeta without time (C128_refuted_constant_zeta) and zeta at another location than the bathymetry (C128_refuted_location)."
  },
  {
   "property": "C129",
   "status": "partial",
   "theorems": [
    "Verif.C129_refuted",
    "Verif.C129_refuted_others",
    "Verif.C129_partial"
   ],
   "note": "False: named terms are the names themselves (C129_refuted) and the others are not looked up (C129_refuted_others). Proved when none is named (C129_partial)."
  },
  {
   "property": "C130",
   "status": "partial",
   "theorems": [
    "Verif.C130_refuted",
    "Verif.C130_partial"
   ],
   "note": "False: the shallowest level is set to zero in the given array (C130_refuted). Unchanged if it is already zero (C130_partial)."
  },
  {
   "property": "C131",
   "status": "partial",
   "theorems": [
    "Verif.C131_partial",
    "Verif.C131_fails",
    "Verif.C131_fails_kind",
    "Verif.C131_refuted"
   ],
   "note": "Proved when bathymetry, free surface or sigma has a mask array (C131_partial). False without one (C131_refuted): then every query with two or more levels fails (C131_fails)."
  },
  {
   "property": "C132",
   "status": "partial",
   "theorems": [
    "Verif.C132_triangles_partial",
    "Verif.C132_refuted",
    "Verif.C132_quads_partial",
    "Verif.C132_roms_refuted"
   ],
   "note": "Proved on triangles when all nodes share the sigma list (C132_triangles_partial) and on structured grids with plain sigma levels, both transforms (C132_quads_partial). False for sigma lists differing between nodes (C132_refuted) and for stretched levels with a critical depth (C132_roms_refuted). The seafloor itself is excluded (C14)."
  },
  {
   "property": "C133",
   "status": "partial",
   "theorems": [
    "Verif.C133_refuted",
    "Verif.C133_refuted_scalar",
    "Verif.C133_refuted_attribute",
    "Verif.C133_partial",
    "Verif.C133_datavar",
    "Verif.C133_named",
    "Verif.C133_offset"
   ],
   "note": "Proved for files whose time dimension has a coordinate variable (C133_partial, C133_datavar, C133_named). False for a time dimension without one (C133_refuted), for scalar time coordinates (C133_refuted_scalar) and for time attributes naming no variable (C133_refuted_attribute)."
  },
  {
   "property": "C134",
   "status": "proved",
   "theorems": [
    "Verif.C134_serves",
    "Verif.C134_same",
    "Verif.C134_one_value"
   ],
   "note": ""
  },
  {
   "property": "C135",
   "status": "partial",
   "theorems": [
    "Verif.C135_partial",
    "Verif.C135_refuted",
    "Verif.C135_level_fails"
   ],
   "note": "Proved for all but level depths (C135_partial). False for those (C135_refuted): two of them always share their automatic name (C135_level_fails)."
  },
  {
   "property": "C136",
   "status": "partial",
   "theorems": [
    "Verif.C136_refuted",
    "Verif.C136_refuted_halfway",
    "Verif.C136_partial",
    "Verif.C136_components",
    "Verif.C136_only_objects",
    "Verif.C136_refused",
    "Verif.C136_unsized"
   ],
   "note": "Proved for a Time and components it fits alike (C136_partial); what any assignment can do to components is C136_components. False for series of datetimes (C136_refuted, C136_only_objects) and for components of different lengths (C136_refuted_halfway)."
  },
  {
   "property": "C137",
   "status": "partial",
   "theorems": [
    "Verif.C137_refuted",
    "Verif.C137_partial",
    "Verif.C137_list_fails"
   ],
   "note": "Proved for a text or no units (C137_partial). False for lists (C137_refuted): every component gets the whole list (C137_list_fails)."
  },
  {
   "property": "C138",
   "status": "partial",
   "theorems": [
    "Verif.C138_refuted",
    "Verif.C138_refuted_depth",
    "Verif.C138_partial",
    "Verif.C138_all_found"
   ],
   "note": "Proved for variables that agree in their dimensions and time axis (C138_partial, C138_all_found). False for different dimensions (C138_refuted) and for a time dimension that is not recognised (C138_refuted_depth)."
  },
  {
   "property": "C139",
   "status": "partial",
   "theorems": [
    "Verif.C139_refuted",
    "Verif.C139_refuted_first",
    "Verif.C139_partial",
    "Verif.C139_faces"
   ],
   "note": "Proved for triangles that include the first node, unless three are given by rows (C139_partial, C139_faces). False for three triangles (C139_refuted) and without the first node (C139_refuted_first)."
  },
  {
   "property": "C140",
   "status": "proved",
   "theorems": [
    "Verif.C140_edges_once",
    "Verif.C140_range"
   ],
   "note": ""
  },
  {
   "property": "C141",
   "status": "proved",
   "theorems": [
    "Verif.C141_extent",
    "Verif.C141_inside",
    "Verif.C141_empty"
   ],
   "note": ""
  },
  {
   "property": "C142",
   "status": "partial",
   "theorems": [
    "Verif.C142_refuted",
    "Verif.C142_partial",
    "Verif.C142_sound",
    "Verif.C142_nearest"
   ],
   "note": "Proved for grids stored in 0 to 360 or not beyond 180 (C142_partial); every selection contains the click (C142_sound); nearest centres: C142_nearest. False for grids from west of 0 to east of 180 (C142_refuted). Point location is a parameter assumed exact."
  },
  {
   "property": "C143",
   "status": "proved",
   "theorems": [
    "Verif.C143_log"
   ],
   "note": ""
  },
  {
   "property": "C144",
   "status": "partial",
   "theorems": [
    "Verif.C144_partial",
    "Verif.C144_refuted"
   ],
   "note": "Proved for all artists but the centre markers (C144_partial). False for those (C144_refuted): they are never removed."
  },
  {
   "property": "C145",
   "status": "partial",
   "theorems": [
    "Verif.C145_refuted",
    "Verif.C145_partial",
    "Verif.C145_boundaries"
   ],
   "note": "Proved for any other number than three (C145_partial, C145_boundaries). False for three triangles (C145_refuted)."
  },
  {
   "property": "C146",
   "status": "proved",
   "theorems": [
    "Verif.C146_edges"
   ],
   "note": ""
  },
  {
   "property": "C147",
   "status": "proved",
   "theorems": [
    "Verif.C147_unstructured",
    "Verif.C147_structured"
   ],
   "note": ""
  },
  {
   "property": "C148",
   "status": "proved",
   "theorems": [
    "Verif.C148_slice",
    "Verif.C148_eval",
    "Verif.C148_levels"
   ],
   "note": "C148_slice is one interpolation, C148_eval and C148_levels whole evaluations; data finite."
  },
  {
   "property": "C149",
   "status": "partial",
   "theorems": [
    "Verif.C149_columns_partial",
    "Verif.C149_rows_partial",
    "Verif.C149_regular_columns_partial",
    "Verif.C149_regular_rows_partial",
    "Verif.C149_eval_partial",
    "Verif.C149_refuted",
    "Verif.C149_refuted_masks"
   ],
   "note": "Proved for points on edges of cells where the search for the position in the cell is well posed (C149_columns_partial, C149_rows_partial), for regular cells of any shape (C149_regular_columns_partial, C149_regular_rows_partial) and for whole evaluations (C149_eval_partial). False in general (C149_refuted): in a cell whose rows have no extent in longitude the evaluation fails, its neighbour gives the value; also false for masked data, even on squares (C149_refuted_masks)."
  },
  {
   "property": "C150",
   "status": "proved",
   "theorems": [
    "Verif.C150_renumbering"
   ],
   "note": ""
  },
  {
   "property": "C151",
   "status": "proved",
   "theorems": [
    "Verif.C151_unstructured",
    "Verif.C151_structured"
   ],
   "note": "Structured grids: both axes may be reversed, not just one of them."
  },
  {
   "property": "C152",
   "status": "proved",
   "theorems": [
    "Verif.C152_time_shift",
    "Verif.C152_time_zone",
    "Verif.C152_displacement"
   ],
   "note": ""
  },
  {
   "property": "C153",
   "status": "partial",
   "theorems": [
    "Verif.C153_lost",
    "Verif.C153_refuted",
    "Verif.C153_ends",
    "Verif.C153_exact_difference_partial",
    "Verif.C153_whole_numbers_partial"
   ],
   "note": "False at data times other than the first and the last (C153_refuted, C153_lost): with 1e20 in the slice before, 1 comes out as 0. Proved at the first and last time (C153_ends), wherever the difference from the slice before is exact (C153_exact_difference_partial) and for whole numbers up to 2^52 (C153_whole_numbers_partial). Overflow and underflow not modelled."
  },
  {
   "property": "C154",
   "status": "proved",
   "theorems": [
    "Verif.C154_time_error",
    "Verif.C154_time_error_doubles"
   ],
   "note": "C154_time_error for any rounding, C154_time_error_doubles for double precision. Overflow and underflow not modelled."
  },
  {
   "property": "C155",
   "status": "partial",
   "theorems": [
    "Verif.C155_refuted",
    "Verif.C155_monotone_partial"
   ],
   "note": "False (C155_refuted): the value can pass that of the later slice by a last digit. Proved: it moves in one direction between the data times and never goes back past the earlier slice (C155_monotone_partial)."
  },
  {
   "property": "C156",
   "status": "proved",
   "theorems": [
    "Verif.C156_at_level",
    "Verif.C156_depth_error",
    "Verif.C156_masked"
   ],
   "note": "C156_at_level, C156_depth_error and C156_masked, for any number of points; points at or past the level listed last that are not masked are C18 and C114. Overflow and underflow not modelled."
  },
  {
   "property": "C157",
   "status": "proved",
   "theorems": [
    "Verif.C157_triangle_error",
    "Verif.C157_thin_triangle"
   ],
   "note": "C157_triangle_error. C157_thin_triangle shows that the condition on the shape is needed: in a proper but very thin triangle the denominator is rounded to zero. Overflow and underflow not modelled."
  },
  {
   "property": "C158",
   "status": "partial",
   "theorems": [
    "Verif.C158_refuted",
    "Verif.C158_nodes_partial"
   ],
   "note": "False at the node listed first (C158_refuted); proved at the other two (C158_nodes_partial)."
  },
  {
   "property": "C159",
   "status": "partial",
   "theorems": [
    "Verif.C159_refuted",
    "Verif.C159_time_partial",
    "Verif.C159_depth_partial",
    "Verif.C159_triangle_partial"
   ],
   "note": "False inside triangles (C159_refuted), where C159_triangle_partial bounds the error. Proved in time (C159_time_partial) and in depth (C159_depth_partial)."
  },
  {
   "property": "C160",
   "status": "proved",
   "theorems": [
    "Verif.C160_eval_error",
    "Verif.C160_eval_error_doubles"
   ],
   "note": "C160_eval_error for any rounding, C160_eval_error_doubles for double precision. Overflow and underflow not modelled."
  },
  {
   "property": "C161",
   "status": "proved",
   "theorems": [
    "Verif.C161_unstructured",
    "Verif.C161_structured"
   ],
   "note": "C161_unstructured, C161_structured. The depth object has to give weights between 0 and 1: proved for level depths in strict order and for ROMS and FVCOM depths without conditions (Lemmas/Only)."
  },
  {
   "property": "C162",
   "status": "proved",
   "theorems": [
    "Verif.C162_unstructured",
    "Verif.C162_structured",
    "Verif.C162_mirror_reverses"
   ],
   "note": "C162_unstructured, C162_structured. C162_mirror_reverses shows that mirroring has to be left out."
  },
  {
   "property": "C163",
   "status": "proved",
   "theorems": [
    "Verif.C163_unstructured",
    "Verif.C163_structured"
   ],
   "note": "C163_unstructured, C163_structured."
  },
  {
   "property": "C164",
   "status": "partial",
   "theorems": [
    "Verif.C164_refuted",
    "Verif.C164_unstructured_partial",
    "Verif.C164_unstructured_depths_partial",
    "Verif.C164_structured",
    "Verif.C164_structured_depths"
   ],
   "note": "Proved on structured grids (C164_structured, C164_structured_depths). On unstructured grids C164_refuted: a point in no face is NaN or 0 depending on NaN in the last face; proved when all points are in a face or no value is NaN (C164_unstructured_partial, C164_unstructured_depths_partial)."
  },
  {
   "property": "C165",
   "status": "partial",
   "theorems": [
    "Verif.C165_refuted",
    "Verif.C165_unstructured_partial",
    "Verif.C165_structured_partial"
   ],
   "note": "C165_refuted: a point above the first level reads the bottom level too. Proved for depths within the levels, on unstructured and structured grids (C165_unstructured_partial, C165_structured_partial)."
  },
  {
   "property": "C166",
   "status": "proved",
   "theorems": [
    "Verif.C166_unstructured",
    "Verif.C166_unstructured_depths",
    "Verif.C166_structured",
    "Verif.C166_structured_depths"
   ],
   "note": "C166_unstructured, C166_unstructured_depths, C166_structured, C166_structured_depths."
  },
  {
   "property": "C167",
   "status": "partial",
   "theorems": [
    "Verif.C167_refuted",
    "Verif.C167_partial"
   ],
   "note": "C167_refuted: moving one point to the level listed last changes the results of the others. C167_partial for depths before the last level."
  },
  {
   "property": "C168",
   "status": "proved",
   "theorems": [
    "Verif.C168_text"
   ],
   "note": "C168_text. The hypothesis that loops have no common points is in the statement."
  },
  {
   "property": "C169",
   "status": "partial",
   "theorems": [
    "Verif.C169_refuted",
    "Verif.C169_saves_partial",
    "Verif.C169_resave"
   ],
   "note": "C169_refuted: a file without units loads, and saving the dataset raises KeyError. C169_saves_partial for units that are known and boundaries within the points. Second half proved for numbers up to about 4.5e9 with doubles (C169_resave)."
  },
  {
   "property": "C170",
   "status": "partial",
   "theorems": [
    "Verif.C170_triangles_partial",
    "Verif.C170_surface_triangles",
    "Verif.C170_quads_partial",
    "Verif.C170_surface_quads",
    "Verif.C170_refuted"
   ],
   "note": "C170_refuted: at the depth of the level listed last the query raises, even for constant data. C170_triangles_partial and C170_quads_partial for the other depths; without levels there is nothing missing (C170_surface_triangles, C170_surface_quads)."
  },
  {
   "property": "C171",
   "status": "partial",
   "theorems": [
    "Verif.C171_triangles_partial",
    "Verif.C171_surface_triangles",
    "Verif.C171_quads_partial",
    "Verif.C171_surface_quads",
    "Verif.C171_refuted"
   ],
   "note": "C171_refuted, as C170. C171_triangles_partial and C171_quads_partial for the other depths; C171_surface_triangles and C171_surface_quads without levels, nothing missing."
  },
  {
   "property": "C172",
   "status": "partial",
   "theorems": [
    "Verif.C172_triangles_partial",
    "Verif.C172_quads_partial",
    "Verif.C172_refuted"
   ],
   "note": "C172_triangles_partial and C172_quads_partial for depths above the seafloor and levels that are the same shares of the column everywhere. C172_refuted: with sigma lists that differ between nodes even the depth itself comes back wrong (7 for 6 m); C132_roms_refuted shows the same for stretched levels. Missing besides: the seafloor itself, where the query raises, and meshes whose arrays all lack mask arrays."
  },
  {
   "property": "C173",
   "status": "partial",
   "theorems": [
    "Verif.C173_triangles_partial",
    "Verif.C173_quads_partial",
    "Verif.C173_refuted"
   ],
   "note": "C173_triangles_partial and C173_quads_partial for depths above the seafloor, sigma lists differing between nodes and stretched levels included. C173_refuted: at the seafloor itself the query raises. Missing besides: meshes whose arrays all lack mask arrays."
  },
  {
   "property": "C174",
   "status": "partial",
   "theorems": [
    "Verif.C174_refuted",
    "Verif.C174_refused_changes",
    "Verif.C174_in_range",
    "Verif.C174_partial",
    "Verif.C174_twice",
    "Verif.C174_new"
   ],
   "note": "C174_refuted: an array counted from one is lowered in place, so making a grid of three nodes from an array that a grid of four nodes holds moves the triangle of that other grid; C174_refused_changes: a refused construction may already have changed the array it was given. C174_partial holds for faces given as values or counted from zero; C174_in_range holds for all histories."
  },
  {
   "property": "C175",
   "status": "partial",
   "theorems": [
    "Verif.C175_one_coordinate",
    "Verif.C175_refuted",
    "Verif.C175_both",
    "Verif.C175_partial",
    "Verif.C175_columns",
    "Verif.C175_copy"
   ],
   "note": "C175_refuted: longitudes given without latitudes, or the other way round, are accepted and silently dropped. C175_partial is the equivalence when both are given or neither."
  },
  {
   "property": "C176",
   "status": "proved",
   "theorems": [
    "Verif.C176_slice",
    "Verif.C176_surface",
    "Verif.C176_levels"
   ],
   "note": "C176_slice for one slice, C176_surface for data over time, C176_levels for data over times and levels with a change of depth as well."
  },
  {
   "property": "C177",
   "status": "proved",
   "theorems": [
    "Verif.C177_points",
    "Verif.C177_same_cell"
   ],
   "note": "C177_points for one slice, C177_same_cell for whole evaluations."
  },
  {
   "property": "C178",
   "status": "partial",
   "theorems": [
    "Verif.C178_refuted",
    "Verif.C178_refuted_dataset",
    "Verif.C178_refuted_data_file",
    "Verif.C178_partial",
    "Verif.C178_called_partial",
    "Verif.C178_opened_twice"
   ],
   "note": "False: a data and a grid file without the keyword for the file name, or a dataset alone, end in KeyError, and a data file alone is not opened (C178_refuted, C178_refuted_dataset, C178_refuted_data_file). Proved: what the function gets whenever it is called, and that it is called when the keyword for the file name is given, even as None."
  },
  {
   "property": "C179",
   "status": "partial",
   "theorems": [
    "Verif.C179_refuted",
    "Verif.C179_partial",
    "Verif.C179_std_exact"
   ],
   "note": "False: the standard names are compared with the names of variables (C179_refuted, C179_std_exact)."
  },
  {
   "property": "C180",
   "status": "proved",
   "theorems": [
    "Verif.C180_list",
    "Verif.C180_table",
    "Verif.C180_text_refused"
   ],
   "note": ""
  },
  {
   "property": "C181",
   "status": "partial",
   "theorems": [
    "Verif.C181_equivalence",
    "Verif.C181_instants",
    "Verif.C181_unknown_offset",
    "Verif.C181_answers",
    "Verif.C181_refuted",
    "Verif.C181_partial",
    "Verif.C181_offsets"
   ],
   "note": "False: one of two equal series may have been displaced before, and then refuses a displacement the other takes (C181_refuted). Proved: equivalence, instants, answers, and histories for series that both can or both cannot be displaced."
  },
  {
   "property": "C182",
   "status": "partial",
   "theorems": [
    "Verif.C182_loaded",
    "Verif.C182_links",
    "Verif.C182_by_name",
    "Verif.C182_no_such_mesh",
    "Verif.C182_which_mesh",
    "Verif.C182_nodes_needed",
    "Verif.C182_unusable",
    "Verif.C182_points",
    "Verif.C182_two",
    "Verif.C182_file_only_partial",
    "Verif.C182_refuted"
   ],
   "note": "Refuted by C182_refuted: a mesh that names only longitudes is loaded with latitudes from uninitialised memory. C182_file_only_partial covers meshes that name both; the other theorems hold for all meshes."
  },
  {
   "property": "C183",
   "status": "partial",
   "theorems": [
    "Verif.C183_numbers",
    "Verif.C183_white_space",
    "Verif.C183_words",
    "Verif.C183_files_partial",
    "Verif.C183_one_point_first",
    "Verif.C183_without_loops",
    "Verif.C183_joined",
    "Verif.C183_refuted"
   ],
   "note": "False for loops of one point: the segment starts at a point of the loop before (C183_refuted), or, in the first loop, loading stops with UnboundLocalError (C183_one_point_first). Proved for loops of two points or more."
  },
  {
   "property": "C184",
   "status": "partial",
   "theorems": [
    "Verif.C184_refuted",
    "Verif.C184_partial",
    "Verif.C184_exact"
   ],
   "note": "False in double precision: the code computes last + (first - last) * 1, so the value at the other end leaves its rounding error (C184_refuted). Proved: within sixteen roundings of the larger of the two end values (C184_partial), and exact in exact arithmetic (C184_exact)."
  },
  {
   "property": "C185",
   "status": "partial",
   "theorems": [
    "Verif.C185_refuted",
    "Verif.C185_entries",
    "Verif.C185_errors",
    "Verif.C185_structured_partial",
    "Verif.C185_structured_levels_partial",
    "Verif.C185_unstructured"
   ],
   "note": "False on unstructured grids, where a point off the grid gets 0 whatever the fill value (C185_refuted; unmask changes nothing there without depth: C185_unstructured). Proved on every grid: masked entries become the fill value and others stay (C185_entries, C185_errors); on structured grids: numbers everywhere and the fill value off the grid (C185_structured_partial, C185_structured_levels_partial). The result cache, which does not tell the two apart, is C19."
  },
  {
   "property": "C186",
   "status": "partial",
   "theorems": [
    "Verif.C186_exact",
    "Verif.C186_quantised",
    "Verif.C186_refuted",
    "Verif.C186_aligned_partial",
    "Verif.C186_aligned_doubles_partial"
   ],
   "note": "False as listed (C186_refuted): x_to_l tests aa == 0 exactly, so a cell with a corner off by one rounding goes through the quadratic, whose two terms cancel (C186_quantised). Proved with an explicit bound for cells with sides along the axes (C186_aligned_partial; for doubles C186_aligned_doubles_partial)."
  },
  {
   "property": "C187",
   "status": "partial",
   "theorems": [
    "Verif.C187_over",
    "Verif.C187_refuted",
    "Verif.C187_first_row_partial"
   ],
   "note": "False as listed: at an upper corner the value can exceed every node value (C187_over, C187_refuted). Proved for the two corners from which latitude is measured (C187_first_row_partial)."
  },
  {
   "property": "C188",
   "status": "partial",
   "theorems": [
    "Verif.C188_refuted",
    "Verif.C188_refuted_boundary",
    "Verif.C188_written",
    "Verif.C188_named",
    "Verif.C188_all_named_partial",
    "Verif.C188_all_written_partial",
    "Verif.C188_plain_partial",
    "Verif.C188_content"
   ],
   "note": "False as listed: tables of neighbours and of edges of faces are named and not written (C188_refuted), coordinates of boundaries are written and not named (C188_refuted_boundary). These are the only exceptions (C188_all_named_partial, C188_all_written_partial; C188_written and C188_named list both sides)."
  },
  {
   "property": "C189",
   "status": "partial",
   "theorems": [
    "Verif.C189_old_weights",
    "Verif.C189_refuted",
    "Verif.C189_same_mesh_partial",
    "Verif.C189_values_partial"
   ],
   "note": "False as listed: remembered weights are used after the nodes were moved (C189_old_weights, C189_refuted). While the mesh stays and the grid itself locates the points, every answer is that of a new grid (C189_same_mesh_partial) and right (C189_values_partial). The cell tree is a parameter."
  },
  {
   "property": "C190",
   "status": "partial",
   "theorems": [
    "Verif.C190_other_face",
    "Verif.C190_spoils_values",
    "Verif.C190_refuted",
    "Verif.C190_memo_off_partial",
    "Verif.C190_new_points_partial",
    "Verif.C190_weights",
    "Verif.C190_each_point",
    "Verif.C190_one_point",
    "Verif.C190_counts"
   ],
   "note": "False as listed: weights are remembered by the points alone (C190_other_face, C190_refuted), and spoil later values (C190_spoils_values). True with the memory off, over every history (C190_memo_off_partial), and for points not remembered before (C190_new_points_partial); what a new grid gives is right (C190_weights)."
  },
  {
   "property": "C191",
   "status": "partial",
   "theorems": [
    "Verif.C191_flags_swapped",
    "Verif.C191_refuted",
    "Verif.C191_no_copy_partial"
   ],
   "note": "False as listed: the flags _copy and _memo are passed on in the wrong order, so _copy=True, _memo=False remembers (C191_flags_swapped, C191_refuted). True for queries without _copy, after any history (C191_no_copy_partial)."
  },
  {
   "property": "C192",
   "status": "partial",
   "theorems": [
    "Verif.C192_always_raises",
    "Verif.C192_refuted",
    "Verif.C192_structured_partial"
   ],
   "note": "False as listed: on an unstructured grid index_of always raises TypeError (C192_always_raises, C192_refuted); on a structured grid it is locate_faces (C192_structured_partial)."
  },
  {
   "property": "C193",
   "status": "partial",
   "theorems": [
    "Verif.C193_plain_refused",
    "Verif.C193_refuted",
    "Verif.C193_placed_partial",
    "Verif.C193_fits_nowhere",
    "Verif.C193_sticks",
    "Verif.C193_given"
   ],
   "note": "False as listed: plain arrays are refused with AttributeError (C193_plain_refused, C193_refuted); other data are placed where they fit (C193_placed_partial), but stay there on every other grid (C193_sticks). A stated location is used (C193_given)."
  },
  {
   "property": "C194",
   "status": "partial",
   "theorems": [
    "Verif.C194_old_coordinates",
    "Verif.C194_refuted",
    "Verif.C194_same_grid_partial",
    "Verif.C194_before_use_partial",
    "Verif.C194_values_partial"
   ],
   "note": "False as listed: the tree and the coefficients are computed once and used after the coordinates were changed (C194_old_coordinates, C194_refuted). While the grid stays and the mask is used throughout, every answer is that of a new grid (C194_same_grid_partial); what was assigned before the first question is used (C194_before_use_partial); the answers are the values of the located points (C194_values_partial)."
  },
  {
   "property": "C195",
   "status": "partial",
   "theorems": [
    "Verif.C195_remembered",
    "Verif.C195_refuted",
    "Verif.C195_memo_off_partial",
    "Verif.C195_new_points_partial",
    "Verif.C195_own_cells_partial"
   ],
   "note": "False as listed: logical coordinates are remembered by the points alone (C195_remembered, C195_refuted). True without the memory (C195_memo_off_partial), for points not remembered (C195_new_points_partial), and for cells the grid finds if no cells were given with the memory (C195_own_cells_partial)."
  },
  {
   "property": "C196",
   "status": "partial",
   "theorems": [
    "Verif.C196_array",
    "Verif.C196_refuted",
    "Verif.C196_memo_off_partial",
    "Verif.C196_first_partial",
    "Verif.C196_same_cell_partial"
   ],
   "note": "False as listed: a remembered array is handed out for a single point (C196_array, C196_refuted). Without the memory the answer is the pair (C196_memo_off_partial); with it, the pair or an array of it (C196_same_cell_partial)."
  },
  {
   "property": "C197",
   "status": "proved",
   "theorems": [
    "Verif.C197_time_depth",
    "Verif.C197_time",
    "Verif.C197_depth",
    "Verif.C197_flat",
    "Verif.C197_no_axis"
   ],
   "note": ""
  },
  {
   "property": "C198",
   "status": "partial",
   "theorems": [
    "Verif.C198_never",
    "Verif.C198_refuted",
    "Verif.C198_no_levels_partial"
   ],
   "note": "False as listed: a surface-only depth has no number of levels, and evaluating data over depth never succeeds (C198_never, C198_refuted). Data without levels are evaluated as with any depth (C198_no_levels_partial)."
  },
  {
   "property": "C199",
   "status": "partial",
   "theorems": [
    "Verif.C199_first_or_last",
    "Verif.C199_refuted",
    "Verif.C199_time_removed_partial",
    "Verif.C199_with_time_partial"
   ],
   "note": "False as listed: the levels are taken for times; all points get the level listed first or last, by the time asked for (C199_first_or_last, C199_refuted). True if the time axis made up for the variable is removed (C199_time_removed_partial); data over time and depth get both axes (C199_with_time_partial with C197_time_depth)."
  },
  {
   "property": "C200",
   "status": "partial",
   "theorems": [
    "Verif.C200_ignored",
    "Verif.C200_own_units",
    "Verif.C200_refuted",
    "Verif.C200_own_partial"
   ],
   "note": "False as listed: units named in a query are ignored (C200_ignored, C200_refuted). True for the units of the variable itself (C200_own_partial)."
  },
  {
   "property": "C201",
   "status": "partial",
   "theorems": [
    "Verif.C201_sigma",
    "Verif.C201_named",
    "Verif.C201_sigma_default",
    "Verif.C201_levels_text",
    "Verif.C201_sigma_text",
    "Verif.C201_ignored",
    "Verif.C201_refuted",
    "Verif.C201_levels_partial"
   ],
   "note": "False as listed: level depths ignore the options surface_boundary_condition and bottom_boundary_condition (C201_ignored, C201_refuted) and know them by other names (C201_levels_partial). True for sigma depths (C201_sigma); conditions named by the query are used (C201_named)."
  },
  {
   "property": "C202",
   "status": "partial",
   "theorems": [
    "Verif.C202_named",
    "Verif.C202_variable",
    "Verif.C202_vector",
    "Verif.C202_depth_unused",
    "Verif.C202_refuted",
    "Verif.C202_none_partial"
   ],
   "note": "False as listed: a variable made without conditions has conditions of its own, so those of the depth object are never used (C202_depth_unused, C202_refuted). True for queries that name conditions (C202_named), for variables that were given them (C202_variable), and with None in their place (C202_none_partial)."
  },
  {
   "property": "C203",
   "status": "partial",
   "theorems": [
    "Verif.C203_partial",
    "Verif.C203_refuted"
   ],
   "note": "False as listed: three triangles stored by rows are read as another grid, and points of the file get the value zero (C203_refuted). Proved for triangles by columns, and by rows for any other number; counting from one, if the last node is used (C203_partial)."
  },
  {
   "property": "C204",
   "status": "partial",
   "theorems": [
    "Verif.C204_partial",
    "Verif.C204_refuted"
   ],
   "note": "False as listed: on a grid whose first index runs east every query raises an exception (C204_refuted). Proved for grids whose rows keep going east or west in every cell (C204_partial)."
  },
  {
   "property": "C205",
   "status": "partial",
   "theorems": [
    "Verif.C205_no_since",
    "Verif.C205_shift",
    "Verif.C205_partial",
    "Verif.C205_stated_utc",
    "Verif.C205_first_record_refused",
    "Verif.C205_name",
    "Verif.C205_refuted"
   ],
   "note": "False as listed: num2date returns times in UTC, but the axis states the offset of the units as their zone, so all instants are wrong by the offset (C205_refuted, C205_shift), and the first record is refused (C205_first_record_refused). Proved for units without an offset or with the offset zero (C205_partial), and for all if the caller states tz_offset=0 (C205_stated_utc). The date libraries are parameters with their documented behaviour."
  },
  {
   "property": "C206",
   "status": "partial",
   "theorems": [
    "Verif.C206_partial",
    "Verif.C206_closing",
    "Verif.C206_refuted"
   ],
   "note": "False as listed: in a face with fewer nodes than the table has columns, the side from the last node back to the first has no entry (C206_refuted, C206_closing). Proved for all other sides (C206_partial). The search tree is a parameter that returns a nearest edge."
  },
  {
   "property": "C207",
   "status": "partial",
   "theorems": [
    "Verif.C207_refused",
    "Verif.C207_partial",
    "Verif.C207_refuted"
   ],
   "note": "False as listed: a single masked entry makes all three raise TypeError, as the masked constant cannot be a key (C207_refuted, C207_refused). Proved for tables without masked entries (C207_partial)."
  },
  {
   "property": "C208",
   "status": "partial",
   "theorems": [
    "Verif.C208_partial",
    "Verif.C208_upwards",
    "Verif.C208_refuted"
   ],
   "note": "False as listed: the attribute is not read (C208_refuted). Heights of three or more levels load, with the deepest put at zero, and then every question about more than the surface raises ValueError (C208_upwards). Proved for levels that are not declared to count upwards (C208_partial)."
  },
  {
   "property": "C209",
   "status": "partial",
   "theorems": [
    "Verif.C209_refused",
    "Verif.C209_weights_refused",
    "Verif.C209_partial",
    "Verif.C209_refuted"
   ],
   "note": "False as listed: the nodes of a face are unpacked into three names, so on any mesh whose faces are not triangles data on the nodes are refused at every point (C209_refuted, C209_refused), and so are questions for weights (C209_weights_refused). Proved for triangles, after any earlier calls (C209_partial). The cell tree is a parameter that returns a face for each point."
  },
  {
   "property": "C210",
   "status": "partial",
   "theorems": [
    "Verif.C210_long_names",
    "Verif.C210_partial",
    "Verif.C210_one_long_name",
    "Verif.C210_refuted"
   ],
   "note": "False as listed: loading names a variable by its long name, saving writes it under that name, and the attributes of the file are not written (C210_refuted, C210_long_names); two variables with one long name cannot be saved (C210_one_long_name). Proved for variables without another long name (C210_partial). Time and depth are left out."
  },
  {
   "property": "C211",
   "status": "partial",
   "theorems": [
    "Verif.C211_partial",
    "Verif.C211_kept",
    "Verif.C211_refuted"
   ],
   "note": "False as listed: an attribute coordinates read from the old file is written over the right one, and may name variables the new file does not have (C211_refuted, C211_kept). Proved for variables without it (C211_partial)."
  },
  {
   "property": "C212",
   "status": "partial",
   "theorems": [
    "Verif.C212_partial",
    "Verif.C212_refuted"
   ],
   "note": "False as listed: a mesh of three faces is loaded with its face table on its side (C212_refuted). Proved for any other number of faces (C212_partial). That the netCDF library stores its default fill value for masked entries and masks it on reading is part of the model."
  },
  {
   "property": "C213",
   "status": "partial",
   "theorems": [
    "Verif.C213_partial",
    "Verif.C213_mask_ignored",
    "Verif.C213_saved",
    "Verif.C213_refuted"
   ],
   "note": "False as listed, in both directions: the numbers under the mask are compared and the mask is not (C213_refuted, C213_mask_ignored). So a flexible mesh is in general not equal to what is loaded from its own file (C213_saved). Proved for meshes with one number under all masked entries and nowhere else (C213_partial)."
  },
  {
   "property": "C214",
   "status": "partial",
   "theorems": [
    "Verif.C214_partial",
    "Verif.C214_hidden",
    "Verif.C214_loaded",
    "Verif.C214_refuted"
   ],
   "note": "False as listed: the number under a masked entry counts as a node of the face (C214_refuted), and raises IndexError if it is not the index of one (C214_hidden), which is so for every flexible mesh that is loaded from a saved file (C214_loaded). Proved for tables without masked entries (C214_partial)."
  },
  {
   "property": "C215",
   "status": "partial",
   "theorems": [
    "Verif.C215_partial",
    "Verif.C215_first_three",
    "Verif.C215_clockwise",
    "Verif.C215_small",
    "Verif.C215_refuted"
   ],
   "note": "False as listed: a clockwise face is reported for all points, wherever they are, that are in no face before it (C215_refuted, C215_clockwise); of faces with more than three nodes only the triangle of the first three is searched (C215_first_three). Proved for counterclockwise triangles, with any tolerance (C215_partial)."
  },
  {
   "property": "C216",
   "status": "partial",
   "theorems": [
    "Verif.C216_partial",
    "Verif.C216_lost",
    "Verif.C216_structured",
    "Verif.C216_complete",
    "Verif.C216_others",
    "Verif.C216_refuted"
   ],
   "note": "False as listed: the file is opened, which empties it, before anything is checked but the format, so every later failure loses the file (C216_refuted, C216_lost); datasets on structured and rectangular grids always fail in this way, since these grids have no method save (C216_structured). Proved for saves that succeed and unknown formats (C216_partial), what was written then (C216_complete), and for other paths (C216_others)."
  },
  {
   "property": "C217",
   "status": "partial",
   "theorems": [
    "Verif.C217_partial",
    "Verif.C217_nothing",
    "Verif.C217_refuted"
   ],
   "note": "False as listed: nothing is written, and no error is raised (C217_refuted, C217_nothing). Proved for formats that are not known (C217_partial)."
  },
  {
   "property": "C218",
   "status": "partial",
   "theorems": [
    "Verif.C218_partial",
    "Verif.C218_unsaid",
    "Verif.C218_refuted"
   ],
   "note": "False as listed: if the file counts from 1 and does not say so, and the last node is in no face, every face has the nodes after its own (C218_refuted, C218_unsaid); and three faces are turned on their side, as in C212. Proved in all other cases (C218_partial). Variables with flag_values are left out."
  },
  {
   "property": "C219",
   "status": "partial",
   "theorems": [
    "Verif.C219_partial",
    "Verif.C219_square",
    "Verif.C219_unsaid",
    "Verif.C219_large_flag",
    "Verif.C219_refuted"
   ],
   "note": "False as listed: a table with as many rows as columns stored by rows is turned on its side (C219_refuted, C219_square); a file that counts from 1 without saying so and does not use the last node is read with every number one too large (C219_unsaid), and so is one with a missing entry whose flag is greater than the number of nodes (C219_large_flag). Proved in the other cases with a stated first number or first number 0, and for an unstated first number 1 if the last node is in use and the flag is negative or no entry is missing (C219_partial)."
  }
 ]
}