{
 "claims": [
  {
   "property": "C01",
   "status": "proved",
   "theorems": [
    "Shareloc.C01_index_to_physical_is_pixel_centre",
    "Shareloc.C01_index_physical_index",
    "Shareloc.C01_physical_index_physical"
   ],
   "note": "any invertible geotransform"
  },
  {
   "property": "C02",
   "status": "proved",
   "theorems": [
    "Shareloc.C02_py_index_to_ter_ter_to_index",
    "Shareloc.C02_py_ter_to_index_index_to_ter",
    "Shareloc.C02_alt_unchanged",
    "Shareloc.C02_index_to_ter_is_pixel_centre",
    "Shareloc.C02_cpp_ter_to_index",
    "Shareloc.C02_cpp_index_to_ter",
    "Shareloc.C02_cpp_round_trips",
    "Shareloc.C02_batch_pointwise"
   ],
   "note": "any invertible transform, Python and C++"
  },
  {
   "property": "C03",
   "status": "proved",
   "theorems": [
    "Shareloc.C03_window_inside_dataset",
    "Shareloc.C03_window_is_roi_inter_dataset",
    "Shareloc.C03_error_only_if_empty",
    "Shareloc.C03_window_georeferencing",
    "Shareloc.C03_open_image"
   ],
   "note": ""
  },
  {
   "property": "C04",
   "status": "proved",
   "theorems": [
    "Shareloc.C04_physical_roi_covers",
    "Shareloc.C04_window_tight",
    "Shareloc.C04_no_error_when_overlapping",
    "Shareloc.C04_negative_column_step_is_refused"
   ],
   "note": "Axis-aligned transforms. With a negative column step, which the property excludes, a valid ROI is refused (C04_negative_column_step_is_refused)."
  },
  {
   "property": "C05",
   "status": "proved",
   "theorems": [
    "Shareloc.C05_sign_forced",
    "Shareloc.C05_ground_effect",
    "Shareloc.C05_idempotent",
    "Shareloc.C05_noop_when_already",
    "Shareloc.C05_invertible",
    "Shareloc.C05_open_image"
   ],
   "note": ""
  },
  {
   "property": "C06",
   "status": "proved",
   "theorems": [
    "Shareloc.C06_never_out_of_range",
    "Shareloc.C06_depends_on_nodes_only",
    "Shareloc.C06_checked_eq",
    "Shareloc.C06_single_row_reads_outside"
   ],
   "note": "rasters with at least two rows and columns; C06_single_row_reads_outside shows the bound is needed"
  },
  {
   "property": "C07",
   "status": "proved",
   "theorems": [
    "Shareloc.C07_exact_at_nodes"
   ],
   "note": ""
  },
  {
   "property": "C08",
   "status": "proved",
   "theorems": [
    "Shareloc.C08_between_surrounding_nodes",
    "Shareloc.C08_every_inside_position_has_a_cell"
   ],
   "note": ""
  },
  {
   "property": "C09",
   "status": "proved",
   "theorems": [
    "Shareloc.C09_bilinear_on_closed_cells",
    "Shareloc.C09_extends_nearest_cell"
   ],
   "note": ""
  },
  {
   "property": "C10",
   "status": "proved",
   "theorems": [
    "Shareloc.C10_grid_eq_scalar",
    "Shareloc.C10_vectorized_eq_scalar",
    "Shareloc.C10_cpp_eq_python"
   ],
   "note": ""
  },
  {
   "property": "C11",
   "status": "proved",
   "theorems": [
    "Shareloc.C11_cell_envelope",
    "Shareloc.C11_cpp_tables",
    "Shareloc.C11_global_bounds"
   ],
   "note": ""
  },
  {
   "property": "C12",
   "status": "proved",
   "theorems": [
    "Shareloc.C12_entry_on_line_and_in_box",
    "Shareloc.C12_entry_on_line",
    "Shareloc.C12_first_vertex_on_face"
   ],
   "note": "first vertex exactly on a face plane gives parameter -1 in Python (C12_first_vertex_on_face)"
  },
  {
   "property": "C13",
   "status": "proved",
   "theorems": [
    "Shareloc.C13_found_iff_two_faces",
    "Shareloc.C13_entry_is_smallest",
    "Shareloc.C13_straight_line_through_box",
    "Shareloc.C13_line_ending_inside_not_found"
   ],
   "note": "characterised for every polyline; lines ending inside the box are not found (C13_line_ending_inside_not_found)"
  },
  {
   "property": "C14",
   "status": "partial",
   "theorems": [
    "Shareloc.C14_bent_line_partial",
    "Shareloc.C14_enclosing_segment",
    "Shareloc.C14_altitude_within_tolerance",
    "Shareloc.C14_straight_line",
    "Shareloc.C14_vertical_exact",
    "Shareloc.C14_polyline_partial",
    "Shareloc.C14_bent_line_off_line",
    "Shareloc.C14_stale_point_after_vertical_segment"
   ],
   "note": "altitude tolerance: every line and both implementations; on the line: straight lines; bent lines without vertical segments: on the line, or on the extension of a segment less than one row and one column of the DTM after the vertex that ends it (C14_bent_line_partial); the claim is false for bent lines (C14_bent_line_off_line, C14_stale_point_after_vertical_segment)"
  },
  {
   "property": "C15",
   "status": "proved",
   "theorems": [
    "Shareloc.C15_march_terminates",
    "Shareloc.C15_reported_entry_terminates",
    "Shareloc.C15_march_moves_forward",
    "Shareloc.C15_trace_is_the_loop"
   ],
   "note": "Termination of the cell and segment loops: both implementations, from any state (the C++ code can start in a wrong cell). Order of the cells: Python. Termination of the regula falsi is in C16."
  },
  {
   "property": "C16",
   "status": "proved",
   "theorems": [
    "Shareloc.C16_enclosing_segment",
    "Shareloc.C16_sign_change_in_visited_cell_is_found",
    "Shareloc.C16_sign_change_is_found",
    "Shareloc.C16_downward_line_is_intersected",
    "Shareloc.C16_double_crossing_missed"
   ],
   "note": "every visited cell of every segment, and end to end for straight lines; a double crossing inside one cell is not a sign change and is missed (C16_double_crossing_missed)"
  },
  {
   "property": "C17",
   "status": "proved",
   "theorems": [
    "Shareloc.C17_skipped_cell_is_above",
    "Shareloc.C17_rising_from_below_skipped"
   ],
   "note": "coming from above the terrain, the case of a line of sight; C17_rising_from_below_skipped shows the test is unsafe from below"
  },
  {
   "property": "C18",
   "status": "partial",
   "theorems": [
    "Shareloc.C18_nan_iff",
    "Shareloc.C18_line_above_terrain",
    "Shareloc.C18_batch_pointwise",
    "Shareloc.C18_box_miss_is_nan_partial",
    "Shareloc.C18_miss_inside_box_is_not_nan"
   ],
   "note": "pointwise proved; exact condition of NaN proved (C18_nan_iff); a line entering the box and missing the terrain is not NaN: (0, 0, 0) for every straight line that stays above the terrain (C18_line_above_terrain). In the C++ batch an exception on one line of sight ends the whole call (C109_batch, C109_one_line_ends_the_batch)"
  },
  {
   "property": "C19",
   "status": "proved",
   "theorems": [
    "Shareloc.C19_python_polynomial",
    "Shareloc.C19_cpp_polynomial",
    "Shareloc.C19_monomials_complete",
    "Shareloc.C19_monomials_table",
    "Shareloc.C19_coefficients_identified"
   ],
   "note": "Numba and C++ polynomials equal the RPC00B sum written in Spec/Rpc00b.lean; the table is a bijection with the monomials of degree at most 3; the order is identifiable."
  },
  {
   "property": "C20",
   "status": "proved",
   "theorems": [
    "Shareloc.C20_longitude_derivative",
    "Shareloc.C20_latitude_derivative",
    "Shareloc.C20_cpp_derivatives",
    "Shareloc.C20_inverse_derivatives",
    "Shareloc.C20_inverse_derivatives_cpp",
    "Shareloc.C20_derivative_tables"
   ],
   "note": "HasDerivAt over the reals for both derivative polynomials and for the four derivatives of the inverse model; C++ equal to Python; derivative tables of the Python object consistent."
  },
  {
   "property": "C21",
   "status": "proved",
   "theorems": [
    "Shareloc.C21_inverse_loc",
    "Shareloc.C21_python_cpp_agree",
    "Shareloc.C21_cpp_raises"
   ],
   "note": "Batch theorem for Python, agreement with RPCoptim when no denominator vanishes, C++ raises otherwise. A zero denominator gives 'no finite value' in the Python model."
  },
  {
   "property": "C22",
   "status": "proved",
   "theorems": [
    "Shareloc.C22_newton_update",
    "Shareloc.C22_singular",
    "Shareloc.C22_step",
    "Shareloc.C22_affine_one_step"
   ],
   "note": "Update solves the linear system uniquely; exactness in one step for affine models, in Python and C++."
  },
  {
   "property": "C23",
   "status": "partial",
   "theorems": [
    "Shareloc.C23_cpp_bounded",
    "Shareloc.C23_python_bounded",
    "Shareloc.C23_cpp_certified",
    "Shareloc.C23_python_certified_partial",
    "Shareloc.C23_python_counterexample",
    "Shareloc.C23_python_any_altitudes_partial"
   ],
   "note": "Bound on the number of updates: full. Certification: full for C++; for Python without NaN residual: every point but those never moved, which are described exactly (C23_python_any_altitudes_partial), and all points of a batch at one altitude; the claim is false for the others (C23_python_counterexample)."
  },
  {
   "property": "C24",
   "status": "partial",
   "theorems": [
    "Shareloc.C24_python_batch_partial",
    "Shareloc.C24_python_altitude_counterexample",
    "Shareloc.C24_python_nan_counterexample",
    "Shareloc.C24_cpp_batch",
    "Shareloc.C24_python_direct_loc_h_partial"
   ],
   "note": "C++: full. Python: batches at one altitude without NaN residual; false otherwise, two counterexamples proved."
  },
  {
   "property": "C25",
   "status": "proved",
   "theorems": [
    "Shareloc.C25_check_rows",
    "Shareloc.C25_check_idempotent",
    "Shareloc.C25_direct_loc_h",
    "Shareloc.C25_direct_loc_h_optim"
   ],
   "note": "check_lonlat exact and idempotent; direct_loc_h filtering and fill_nan, Python and C++."
  },
  {
   "property": "C26",
   "status": "proved",
   "theorems": [
    "Shareloc.C26_los_extrema_altitudes",
    "Shareloc.C26_los_extrema_positions",
    "Shareloc.C26_los_extrema_cpp",
    "Shareloc.C26_python_counterexample"
   ],
   "note": "Order, number and exact altitudes of the extrema, extrapolation on the line; Python positions inherit the batch bug (C26_python_counterexample)."
  },
  {
   "property": "C27",
   "status": "proved",
   "theorems": [
    "Shareloc.C27_direct_raises",
    "Shareloc.C27_direct_coefficients",
    "Shareloc.C27_direct_coefficients_cpp",
    "Shareloc.C27_inverse"
   ],
   "note": "Dispatch in Python and C++, formulas of the direct coefficients. C++ inverse_loc without inverse coefficients reads uninitialised arrays: not modelled."
  },
  {
   "property": "C28",
   "status": "partial",
   "theorems": [
    "Shareloc.C28_same_size_inverse",
    "Shareloc.C28_same_size_inverse_cpp",
    "Shareloc.C28_same_size_direct_cpp",
    "Shareloc.C28_same_size_direct_coefficients",
    "Shareloc.C28_iterative_python_counterexample",
    "Shareloc.C28_same_size_grid",
    "Shareloc.C28_same_size_grid_inverse",
    "Shareloc.C28_grid_sizes",
    "Shareloc.C28_grid_inverse_sizes",
    "Shareloc.C28_single_altitude_partial",
    "Shareloc.C28_optim_inverse_refuses",
    "Shareloc.C28_wrong_size_truncated"
   ],
   "note": "Proved: single altitude broadcast where it exists; same-size arrays used pointwise (each row is that of the point alone) by RPC.inverse_loc, RPCoptim.inverse_loc, RPCoptim.direct_loc_h, RPC.direct_loc_h by direct coefficients, Grid.direct_loc_h and Grid.inverse_loc; sizes classified for the grids. The claim is false of the code for RPCoptim.inverse_loc (refuses a single altitude), for the iterative RPC.direct_loc_h (starts every point from the first altitude) and for wrong sizes, silently truncated to the first value (all proved)."
  },
  {
   "property": "C29",
   "status": "proved",
   "theorems": [
    "Shareloc.C29_layers_sorted",
    "Shareloc.C29_missing_altitude"
   ],
   "note": "grids with distinct altitudes recorded for every layer; a layer without ALTITUDE metadata is silently at 0 (C29_missing_altitude)"
  },
  {
   "property": "C30",
   "status": "proved",
   "theorems": [
    "Shareloc.C30_bracketing",
    "Shareloc.C30_single_layer"
   ],
   "note": "at least two layers; with one layer the upper index is -1 (C30_single_layer)"
  },
  {
   "property": "C31",
   "status": "proved",
   "theorems": [
    "Shareloc.C31_exact_at_nodes",
    "Shareloc.C31_affine_in_altitude",
    "Shareloc.C31_bilinear_in_cell",
    "Shareloc.C31_pointwise"
   ],
   "note": "node exactness with the validity mask; affine in altitude and bilinear in a cell, also when extrapolating"
  },
  {
   "property": "C32",
   "status": "proved",
   "theorems": [
    "Shareloc.C32_grid_is_pointwise",
    "Shareloc.C32_rpc_counterexample"
   ],
   "note": "np.arange is taken to return exactly n nodes (no rounding) RPC.direct_loc_grid_h, documented alike, raises on every grid with a node: C32_rpc_counterexample."
  },
  {
   "property": "C33",
   "status": "proved",
   "theorems": [
    "Shareloc.C33_inverse_jacobian",
    "Shareloc.C33_bounded",
    "Shareloc.C33_converged",
    "Shareloc.C33_exact_on_affine_grid",
    "Shareloc.C33_pointwise"
   ],
   "note": "inverse Jacobian, bound, convergence certificate up to the last update, exactness on affine grids, independence of points when each alone is answered (otherwise C106); convergence speed on general grids is not claimed"
  },
  {
   "property": "C34",
   "status": "proved",
   "theorems": [
    "Shareloc.C34_normal_equations",
    "Shareloc.C34_least_squares",
    "Shareloc.C34_reproduces",
    "Shareloc.C34_invertible_iff",
    "Shareloc.C34_predictor_exact",
    "Shareloc.C34_affine_in_altitude",
    "Shareloc.C34_samples",
    "Shareloc.C34_own_least_squares",
    "Shareloc.C34_own_predictor_exact"
   ],
   "note": "np.linalg.inv is the exact inverse; the nodes, their min and max are those the grid samples itself"
  },
  {
   "property": "C35",
   "status": "proved",
   "theorems": [
    "Shareloc.C35_extrema",
    "Shareloc.C35_unit_vector"
   ],
   "note": "the direction is the unit vector from the END (lowest altitude) to the START (highest altitude), as the code does; coordinates_conversion is a parameter acting on each point"
  },
  {
   "property": "C36",
   "status": "proved",
   "theorems": [
    "Shareloc.C36_defined_iff",
    "Shareloc.C36_minimises"
   ],
   "note": "any number of views with a regular matrix; singular exactly when all lines are parallel"
  },
  {
   "property": "C37",
   "status": "proved",
   "theorems": [
    "Shareloc.C37_exact",
    "Shareloc.C37_order"
   ],
   "note": ""
  },
  {
   "property": "C38",
   "status": "proved",
   "theorems": [
    "Shareloc.C38_residue_is_distance",
    "Shareloc.C38_two_views_equal"
   ],
   "note": ""
  },
  {
   "property": "C39",
   "status": "partial",
   "theorems": [
    "Shareloc.C39_each_match_alone_partial",
    "Shareloc.C39_no_raise_partial",
    "Shareloc.C39_parallel_match_raises_for_all",
    "Shareloc.C39_raises_iff",
    "Shareloc.C39_nan_view_ignored",
    "Shareloc.C39_nan_start_biases"
   ],
   "note": "false in general: a match with two exactly parallel valid lines raises for the whole batch; proved to be the only case (C39_raises_iff); otherwise each match is alone"
  },
  {
   "property": "C40",
   "status": "proved",
   "theorems": [
    "Shareloc.C40_scatter",
    "Shareloc.C40_sift",
    "Shareloc.C40_unknown_type"
   ],
   "note": "for models which locate points independently; masked entries are 0, residues are NaN when not asked for"
  },
  {
   "property": "C41",
   "status": "proved",
   "theorems": [
    "Shareloc.C41_all_pixels",
    "Shareloc.C41_masked"
   ],
   "note": ""
  },
  {
   "property": "C42",
   "status": "proved",
   "theorems": [
    "Shareloc.C42_angle_of_direction",
    "Shareloc.C42_degenerate",
    "Shareloc.C42_unique",
    "Shareloc.C42_cpp_agrees",
    "Shareloc.C42_nan_difference"
   ],
   "note": "The angle is the angle of the vector start->end for every pair of distinct finite positions (Mathlib's real arctan, cos, sin); Python and C++ agree on numbers and differ on NaN (C42_nan_difference)."
  },
  {
   "property": "C43",
   "status": "proved",
   "theorems": [
    "Shareloc.C43_move",
    "Shareloc.C43_length_and_direction",
    "Shareloc.C43_bad_axis",
    "Shareloc.C43_batch",
    "Shareloc.C43_move_along_line"
   ],
   "note": "Displacement by spacing*step along or across the line; any other axis raises."
  },
  {
   "property": "C44",
   "status": "proved",
   "theorems": [
    "Shareloc.C44_strip",
    "Shareloc.C44_no_overflow",
    "Shareloc.C44_single_layer_raises",
    "Shareloc.C44_grids",
    "Shareloc.C44_right_nodes",
    "Shareloc.C44_regular_distance",
    "Shareloc.C44_local_line"
   ],
   "note": "Strips without adaptive step, for colocalisations that keep the number of points; every node depends on the preceding one and on its local epipolar line."
  },
  {
   "property": "C45",
   "status": "partial",
   "theorems": [
    "Shareloc.C45_ratio_bounds",
    "Shareloc.C45_ratio_value",
    "Shareloc.C45_null_reference",
    "Shareloc.C45_steps_bounded",
    "Shareloc.C45_step_length",
    "Shareloc.C45_no_overflow_partial",
    "Shareloc.C45_fit_condition",
    "Shareloc.C45_slope_overflows",
    "Shareloc.C45_default_parameters_overflow"
   ],
   "note": "Adaptive strips: bounds on the ratio, room of the buffer when the relief cannot exceed it; C45_slope_overflows and C45_default_parameters_overflow show the buffer overflow (IndexError) in the general case."
  },
  {
   "property": "C46",
   "status": "proved",
   "theorems": [
    "Shareloc.C46_box_size",
    "Shareloc.C46_image_in_box",
    "Shareloc.C46_pixel_in_footprint",
    "Shareloc.C46_grid_covers_epipolar_image",
    "Shareloc.C46_grid_covers_box",
    "Shareloc.C46_fractional_step_counterexample",
    "Shareloc.C46_extent"
   ],
   "note": "Bounding box, footprint, number of nodes (the whole box is covered for whole steps, see C46_fractional_step_counterexample), extent (returned latitude first)."
  },
  {
   "property": "C47",
   "status": "proved",
   "theorems": [
    "Shareloc.C47_displacement",
    "Shareloc.C47_round_trip",
    "Shareloc.C47_position_round_trip",
    "Shareloc.C47_altitude_band",
    "Shareloc.C47_yx_exchanges",
    "Shareloc.C47_cell",
    "Shareloc.C47_exact_at_nodes",
    "Shareloc.C47_end_to_end",
    "Shareloc.C47_affine_reproduced",
    "Shareloc.C47_zero_displacement",
    "Shareloc.C47_between_nodes"
   ],
   "note": "Round trip through the file with the default convention; the other convention exchanges rows and columns (C47_yx_exchanges). scipy's interpolator is modelled (bilinear cell, clamped interval)."
  },
  {
   "property": "C48",
   "status": "partial",
   "theorems": [
    "Shareloc.C48_strip_mean",
    "Shareloc.C48_square_grid_partial",
    "Shareloc.C48_constant_ratio_bias",
    "Shareloc.C48_constant_ratio_iff_square"
   ],
   "note": "Mean of each strip proved; the global mean is the mean for square grids only: C48_constant_ratio_bias gives the value for the others, C48_constant_ratio_iff_square shows that a constant ratio is reproduced exactly for square grids and no others."
  },
  {
   "property": "C49",
   "status": "partial",
   "theorems": [
    "Shareloc.C49_rio_of_params",
    "Shareloc.C49_params_of_rio",
    "Shareloc.C49_same_inverse_location",
    "Shareloc.C49_same_iterative_location",
    "Shareloc.C49_geotiff_partial",
    "Shareloc.C49_geotiff_rpb_partial",
    "Shareloc.C49_rpb_partial",
    "Shareloc.C49_json_not_readable",
    "Shareloc.C49_rpb_not_readable_alone",
    "Shareloc.C49_stale_rpb",
    "Shareloc.C49_converter_geotiff",
    "Shareloc.C49_converter_rpb"
   ],
   "note": "Proved for geotiff (no .RPB beside), geotiff_rpb and rpb (RPC found by GDAL in one place, exact printing of numbers, GDAL reads RPB as the specified reader); direct coefficients are lost, JSON and bare .RPB files are not readable by rpc_reader (theorems)."
  },
  {
   "property": "C50",
   "status": "proved",
   "theorems": [
    "Shareloc.C50_location_formula",
    "Shareloc.C50_direct_formula",
    "Shareloc.C50_rasterio_location",
    "Shareloc.C50_recentre_model",
    "Shareloc.C50_dimap2",
    "Shareloc.C50_dimap3",
    "Shareloc.C50_dimap1",
    "Shareloc.C50_ossim",
    "Shareloc.C50_rasterio",
    "Shareloc.C50_inverse_location",
    "Shareloc.C50_first_pixel",
    "Shareloc.C50_shift_inverse",
    "Shareloc.C50_shift_direct"
   ],
   "note": "DIMAP v1, v2, v3, OSSIM and rasterio: parameters are those of the file with the first pixel moved to (1/2, 1/2); effect on inverse and direct location proved. Reading of numbers and the XML parser are parameters. C50_rasterio_location goes from the tags to the coordinates with the RPC00B formula."
  },
  {
   "property": "C51",
   "status": "proved",
   "theorems": [
    "Shareloc.C51_unambiguous",
    "Shareloc.C51_gdal",
    "Shareloc.C51_dimap1",
    "Shareloc.C51_dimap23",
    "Shareloc.C51_ossim",
    "Shareloc.C51_unsupported",
    "Shareloc.C51_result_names_reader",
    "Shareloc.C51_only_these_files",
    "Shareloc.C51_version_mismatch"
   ],
   "note": "The file decides, never two readers, ValueError when none; the version used inside the v2/v3 reader may differ from the one that chose it (C51_version_mismatch)."
  },
  {
   "property": "C52",
   "status": "partial",
   "theorems": [
    "Shareloc.C52_rpb_path",
    "Shareloc.C52_unknown_format",
    "Shareloc.C52_refuses",
    "Shareloc.C52_geotiff_written",
    "Shareloc.C52_other_files",
    "Shareloc.C52_text_formats_ignore_override",
    "Shareloc.C52_not_an_image_is_silent",
    "Shareloc.C52_override_counterexample",
    "Shareloc.C52_writer_partial"
   ],
   "note": "Complete description of the writer; the claim on existing files holds for RPC tags in images only: rpb, geotiff_rpb and json ignore override, and a file that is not an image is silently left (theorems)."
  },
  {
   "property": "C53",
   "status": "proved",
   "theorems": [
    "Shareloc.C53_given_altitude",
    "Shareloc.C53_dtm",
    "Shareloc.C53_default",
    "Shareloc.C53_altitude_overrides",
    "Shareloc.C53_model_error",
    "Shareloc.C53_round_trip",
    "Shareloc.C53_round_trip_dtm",
    "Shareloc.C53_inverse_default",
    "Shareloc.C53_inverse_converted",
    "Shareloc.C53_inverse_ignores_dtm"
   ],
   "note": "For any model (parameter) and any point-wise conversion. Round trip under the hypothesis that the model and the conversions undo each other on these points. Without altitude, inverse() ignores the DTM (C53_inverse_ignores_dtm), as its documentation does not promise otherwise."
  },
  {
   "property": "C54",
   "status": "partial",
   "theorems": [
    "Shareloc.C54_sizes",
    "Shareloc.C54_inverse_of_direct",
    "Shareloc.C54_pointwise",
    "Shareloc.C54_identity_partial",
    "Shareloc.C54_dtm_system_counterexample"
   ],
   "note": "Composition, order and size check proved for every model. Identity of coloc(image, image) proved when the DTM is in the system of the models; false otherwise (C54_dtm_system_counterexample: the ground point is not converted)."
  },
  {
   "property": "C55",
   "status": "proved",
   "theorems": [
    "Shareloc.C55_direct",
    "Shareloc.C55_inverse",
    "Shareloc.C55_nan",
    "Shareloc.C55_round_trip"
   ],
   "note": "Both directions and the round trip, for every invertible geotransform; NaN stays NaN."
  },
  {
   "property": "C56",
   "status": "partial",
   "theorems": [
    "Shareloc.C56_box_of_two_corners",
    "Shareloc.C56_footprint",
    "Shareloc.C56_contains_footprint_partial",
    "Shareloc.C56_affine_corners_iff",
    "Shareloc.C56_rotated_counterexample"
   ],
   "note": "The box is that of two opposite corners: proved to contain the footprint when longitude and latitude vary in one direction with rows and columns; exact condition for affine locations (C56_affine_corners_iff) and a rotated counterexample. Latitude comes first in the result."
  },
  {
   "property": "C57",
   "status": "proved",
   "theorems": [
    "Shareloc.C57_last_registered",
    "Shareloc.C57_unknown",
    "Shareloc.C57_created_by",
    "Shareloc.C57_no_interference",
    "Shareloc.C57_history_irrelevant",
    "Shareloc.C57_names",
    "Shareloc.C57_key_error_ambiguous"
   ],
   "note": "For every registration history. A KeyError inside load is indistinguishable from an unknown name (C57_key_error_ambiguous)."
  },
  {
   "property": "C58",
   "status": "partial",
   "theorems": [
    "Shareloc.C58_no_valid_cell",
    "Shareloc.C58_statistic",
    "Shareloc.C58_constant",
    "Shareloc.C58_constant_missing",
    "Shareloc.C58_untouched",
    "Shareloc.C58_range",
    "Shareloc.C58_rio_keeps_valid_partial",
    "Shareloc.C58_rio_residual",
    "Shareloc.C58_rio_nan_nodata",
    "Shareloc.C58_rio_nan_counterexample",
    "Shareloc.C58_rio_mask_band_counterexample"
   ],
   "note": "Proved in full for min, max, mean, median (midpoint of the interval of medians) and constant, including truncation in integer files. For rio_fillnodata (external, contract as hypothesis) it needs the file mask to mark the no-data value: C58_rio_mask_band_counterexample otherwise; NaN residuals are not filled (C58_rio_nan_counterexample). A DTM without valid cell raises for every strategy."
  },
  {
   "property": "C59",
   "status": "partial",
   "theorems": [
    "Shareloc.C59_global_partial",
    "Shareloc.C59_full_turn",
    "Shareloc.C59_latitude_error",
    "Shareloc.C59_nan",
    "Shareloc.C59_positive_west",
    "Shareloc.C59_positive_west_example",
    "Shareloc.C59_regional_extension",
    "Shareloc.C59_added_pointwise",
    "Shareloc.C59_no_geoid"
   ],
   "note": "Proved for global geoids whose first column is in [-180, 0], all longitudes within one turn, with or without repeated column, and for the addition cell by cell. False when the first column is east of 0 (C59_positive_west: heights are NaN around longitude 0); a regional geoid is extended by its first column (C59_regional_extension)."
  },
  {
   "property": "C60",
   "status": "partial",
   "theorems": [
    "Shareloc.C60_cpp_eq_python_partial",
    "Shareloc.C60_same_point_partial",
    "Shareloc.C60_negative_direction_difference"
   ],
   "note": "equality of entries, marches and reported points unless a segment starts at an integer row or column other than 2 with a negative direction, where the C++ code starts in the cell 1 (C60_negative_direction_difference)"
  },
  {
   "property": "C61",
   "status": "proved",
   "theorems": [
    "Shareloc.C61_los_extrema",
    "Shareloc.C61_compute_los",
    "Shareloc.C61_dtm_altitudes"
   ],
   "note": "without change of EPSG"
  },
  {
   "property": "C62",
   "status": "partial",
   "theorems": [
    "Shareloc.C62_range_same_system",
    "Shareloc.C62_rpc_direct_loc_dtm_partial",
    "Shareloc.C62_optim_direct_loc_dtm_partial",
    "Shareloc.C62_first_residual_counterexample",
    "Shareloc.C62_missed_line_is_origin"
   ],
   "note": "DTM in the system of the model (for the C++ class in EPSG 4326). The English claim is false of the code in two cases, shown by C62_first_residual_counterexample (start residual of the iterative location computed with the altitude of the first point: result 5 pixels away) and C62_missed_line_is_origin (a line that enters the box and leaves it without meeting the terrain gives (0,0,0), or uninitialised memory in C++); DtmAnswer has these and the exceptions as explicit alternatives. A DTM in another system: the points are those of the converted line, see C67."
  },
  {
   "property": "C63",
   "status": "proved",
   "theorems": [
    "Shareloc.C63_located",
    "Shareloc.C63_flat_exact",
    "Shareloc.C63_optim_reprojection",
    "Shareloc.C63_optim_affine_reprojection"
   ],
   "note": "located: any RPC, straight line of sight; flat exact; reprojection for the C++ iterative location (the Python one has the first residual defect, C62), with the bound 1e-6 plus the variation of the model along the line and exactly 1e-6 for models affine in each polynomial."
  },
  {
   "property": "C64",
   "status": "proved",
   "theorems": [
    "Shareloc.C64_nan_pixel",
    "Shareloc.C64_raises"
   ],
   "note": "NaN pixels and failures for Python are also in C62_rpc_direct_loc_dtm_partial; C++ per point"
  },
  {
   "property": "C65",
   "status": "partial",
   "theorems": [
    "Shareloc.C65_any_layers_partial",
    "Shareloc.C65_pointwise",
    "Shareloc.C65_bad_sizes",
    "Shareloc.C65_on_the_terrain",
    "Shareloc.C65_between_layers_partial",
    "Shareloc.C65_located_partial"
   ],
   "note": "DTM in the system of the grid. Everything is proved when no layer of the grid is in the range of altitudes of the DTM (then the line of sight is straight there). With a layer in this range: pointwise, terrain tolerance, valid coordinates, and on the line of sight or within one row and one column of a vertex of it (C65_any_layers_partial); the point may be off the line of sight (C66_layer_inside_counterexample). The (0,0,0) of missed lines is as in C62."
  },
  {
   "property": "C66",
   "status": "partial",
   "theorems": [
    "Shareloc.C66_grid_dtm_agrees_with_altitude_partial",
    "Shareloc.C66_layer_inside_counterexample"
   ],
   "note": "proved exactly when no layer is in the range of altitudes of the DTM; C66_layer_inside_counterexample shows that the claim is false of the code otherwise"
  },
  {
   "property": "C67",
   "status": "partial",
   "theorems": [
    "Shareloc.C67_range",
    "Shareloc.C67_range_covers_partial",
    "Shareloc.C67_line_in_dtm_system",
    "Shareloc.C67_extremum_inside_counterexample",
    "Shareloc.C67_optim_line_in_dtm_system"
   ],
   "note": "C67_range characterises the bounds, C67_line_in_dtm_system describes the whole location for a DTM in another system, C67_range_covers_partial proves the claim when the change of altitude is within one metre of its range at the four corners; C67_extremum_inside_counterexample shows that the claim is false of the code otherwise"
  },
  {
   "property": "C68",
   "status": "partial",
   "theorems": [
    "Shareloc.C68_rpc_strips_agree_partial",
    "Shareloc.C68_strips_agree_located_partial",
    "Shareloc.C68_strips_agree_partial",
    "Shareloc.C68_no_out_of_bounds",
    "Shareloc.C68_inputs_overwritten",
    "Shareloc.C68_nan_difference",
    "Shareloc.C68_wrong_shape"
   ],
   "note": "Agreement proved at every node, for both axes and any sizes, when no local epipolar line has a NaN, and absence of out of bounds access for the documented shapes; the codes differ after a NaN (C68_nan_difference), and the claim on the arrays of the caller is false: they are overwritten by the last layer (C68_inputs_overwritten). Adaptive steps do not exist in C++. For two RPCoptim models over a DTM in EPSG 4326 or a constant altitude the hypotheses on the models are proved (C68_rpc_strips_agree_partial)."
  },
  {
   "property": "C69",
   "status": "proved",
   "theorems": [
    "Shareloc.C69_grids",
    "Shareloc.C69_adaptive_not_homologous",
    "Shareloc.C69_whenever_returned",
    "Shareloc.C69_optim_rpc_by_point",
    "Shareloc.C69_grid_by_point",
    "Shareloc.C69_python_rpc_counterexample"
   ],
   "note": "C69_grids. With the adaptive step, which the property excludes, the right nodes are interpolated, not colocated (C69_adaptive_not_homologous). C69_whenever_returned says the same of models that may raise, whenever the function returns; RPCoptim and Grid satisfy its hypothesis (C69_optim_rpc_by_point, C69_grid_by_point), the Python RPC does not (C69_python_rpc_counterexample)."
  },
  {
   "property": "C70",
   "status": "proved",
   "theorems": [
    "Shareloc.C70_conjugate_rows"
   ],
   "note": "Over the reals, exact arithmetic, affine sensors (for general sensors the epipolar lines are only locally straight and the claim is not true). Witness: affineGeo_points and an example."
  },
  {
   "property": "C71",
   "status": "proved",
   "theorems": [
    "Shareloc.C71_gsd",
    "Shareloc.C71_gsd_square_pixels",
    "Shareloc.C71_nan_line_is_row"
   ],
   "note": "Also proved: a NaN local line silently gives the distances of an epipolar line along the rows (C71_nan_line_is_row)."
  },
  {
   "property": "C72",
   "status": "partial",
   "theorems": [
    "Shareloc.C72_extent",
    "Shareloc.C72_extent_covers_partial",
    "Shareloc.C72_large_pixels_counterexample",
    "Shareloc.C72_whenever_returned"
   ],
   "note": "Box of the four corners proved for every pointwise model; pixels proved for affine sensors and non rotated images; nodes proved when the spacing of the image is at most 1 and false otherwise, since the footprint is widened by epi_step instead of epi_step * spacing (C72_large_pixels_counterexample). C72_whenever_returned: the box for models that may raise (RPCoptim, Grid)."
  },
  {
   "property": "C73",
   "status": "proved",
   "theorems": [
    "Shareloc.C73_python_round_trip",
    "Shareloc.C73_optim_round_trip",
    "Shareloc.C73_python_coloc",
    "Shareloc.C73_optim_coloc",
    "Shareloc.C73_python_extent",
    "Shareloc.C73_optim_extent",
    "Shareloc.C73_python_on_dtm",
    "Shareloc.C73_optim_on_dtm",
    "Shareloc.C73_optim_dtm_round_trip"
   ],
   "note": "Under the explicit hypothesis that the iteration of each pixel settles before its limit (Python: batches at one altitude, as for C23). The DTM is in the system of the model. In the round trip on a DTM the deviation of the image of the line of sight from uniform motion is added to the millionth, and (0, 0, 0), returned for a line that leaves the box without meeting the terrain, is excluded."
  },
  {
   "property": "C74",
   "status": "proved",
   "theorems": [
    "Shareloc.C74_location_grid_node",
    "Shareloc.C74_location_grid_agrees",
    "Shareloc.C74_location_grid_counterexample",
    "Shareloc.C74_alt_min_max",
    "Shareloc.C74_extent",
    "Shareloc.C74_on_dtm",
    "Shareloc.C74_other_system",
    "Shareloc.C74_projected_never_located",
    "Shareloc.C74_coloc_grid"
   ],
   "note": "The English property already restricts the agreement of direct_loc_grid_dtm to grids whose layers enclose the DTM; C74_location_grid_counterexample shows that the restriction is needed."
  },
  {
   "property": "C75",
   "status": "proved",
   "theorems": [
    "Shareloc.C75_inverse_converges",
    "Shareloc.C75_final_distance",
    "Shareloc.C75_round_trip",
    "Shareloc.C75_announced_error",
    "Shareloc.C75_turns",
    "Shareloc.C75_unique",
    "Shareloc.C75_turns_inhabited"
   ],
   "note": "Exact arithmetic over any ordered field. The cosine of the latitude, the Earth radius and the predictor are parameters; the regularity and predictor hypotheses are those of the English statement and are shown to be met by a concrete curved (non affine) grid."
  },
  {
   "property": "C76",
   "status": "proved",
   "theorems": [
    "Shareloc.C76_settles",
    "Shareloc.C76_direct_loc",
    "Shareloc.C76_injective",
    "Shareloc.C76_ground_point_exists",
    "Shareloc.C76_every_pixel",
    "Shareloc.C76_python_ground_round_trip",
    "Shareloc.C76_optim_ground_round_trip"
   ],
   "note": "Over the reals (partial derivatives in the sense of Mathlib's deriv). The condition is checked on a curved model with a non constant denominator over a six degree square (bent_nearlyAffine), where all pixels within 400 of the centre are covered."
  },
  {
   "property": "C77",
   "status": "proved",
   "theorems": [
    "Shareloc.C77_flat_ground",
    "Shareloc.C77_adaptive_grids",
    "Shareloc.C77_covered",
    "Shareloc.C77_whenever_returned"
   ],
   "note": "Over any ordered field with abstract sine, cosine, arctangent and square root. When the function does not return: C45 (overflow of the arrays with the default parameters). C77_whenever_returned: the same for models that may raise (RPCoptim, Grid). C77_flat_ground: on flat ground the grids are those of the plain call."
  },
  {
   "property": "C78",
   "status": "proved",
   "theorems": [
    "Shareloc.C78_own_prediction",
    "Shareloc.C78_inverse_exact",
    "Shareloc.C78_round_trip"
   ],
   "note": "Exact arithmetic. The predictor is modelled from the sampled nodes, their min and max, and the exact inverse of the normal matrix; np.linalg.inv raising LinAlgError and NaN coefficients are merged as no predictor."
  },
  {
   "property": "C79",
   "status": "proved",
   "theorems": [
    "Shareloc.C79_accepted_iff",
    "Shareloc.C79_same_model",
    "Shareloc.C79_load_same",
    "Shareloc.C79_same_inverse_loc",
    "Shareloc.C79_null_counterexample",
    "Shareloc.C79_empty_counterexample"
   ],
   "note": "The equivalence of acceptance between the two classes is false (C79_null_counterexample, C79_empty_counterexample: RPC accepts null or missing coefficients that RPCoptim refuses); the claim is stated for RPCoptim's acceptance. epsg (always 4326 in RPCoptim) is not part of the model object."
  },
  {
   "property": "C80",
   "status": "proved",
   "theorems": [
    "Shareloc.C80_scalar_same",
    "Shareloc.C80_vector_dtm",
    "Shareloc.C80_vector_altitudes",
    "Shareloc.C80_antimeridian_counterexample"
   ],
   "note": "The claim is stated for located rows because plain equality is false: the C++ function does not check longitudes and latitudes (C80_antimeridian_counterexample). Also used to discharge the hypotheses of C68 for RPCs (C68_rpc_strips_agree_partial)."
  },
  {
   "property": "C81",
   "status": "proved",
   "theorems": [
    "Shareloc.C81_documented_grid",
    "Shareloc.C81_order_of_layers",
    "Shareloc.C81_other_driver",
    "Shareloc.C81_bad_tag_refused",
    "Shareloc.C81_other_ref_is_wgs84",
    "Shareloc.C81_without_ref_unchecked",
    "Shareloc.C81_bad_altitude_tags",
    "Shareloc.C81_origin_is_corner"
   ],
   "note": "Over what rasterio gives of the file; int, float and np.argsort are parameters with their specification. Without a REF tag the grid has no coordinate system and positions are not checked (C81_without_ref_unchecked). The first node is at the origin of the geotransform and not half a step further as documented (C81_origin_is_corner)."
  },
  {
   "property": "C82",
   "status": "proved",
   "theorems": [
    "Shareloc.C82_polynomial",
    "Shareloc.C82_inverse_loc",
    "Shareloc.C82_direct_loc",
    "Shareloc.C82_double",
    "Shareloc.C82_implementations_agree",
    "Shareloc.C82_exact_without_rounding"
   ],
   "note": "No overflow or underflow and no NaN input. C82_exact_without_rounding ties this relational model to the exact one."
  },
  {
   "property": "C83",
   "status": "proved",
   "theorems": [
    "Shareloc.C83_certificate",
    "Shareloc.C83_round_trip_double"
   ],
   "note": "One point; the batch of the Python version starts from a residual computed with the first altitude (C24), so for it the hypothesis on the first residual asks a batch with one altitude."
  },
  {
   "property": "C84",
   "status": "proved",
   "theorems": [
    "Shareloc.C84_interpolation",
    "Shareloc.C84_interpolation_double",
    "Shareloc.C84_index_round_trip",
    "Shareloc.C84_index_round_trip_double",
    "Shareloc.C84_exact_at_nodes",
    "Shareloc.C84_index_round_trip_rotated",
    "Shareloc.C84_index_round_trip_rotated_double"
   ],
   "note": "Transforms with rotation terms are covered when the determinant is at least twice the rounding error of its two products."
  },
  {
   "property": "C85",
   "status": "proved",
   "theorems": [
    "Shareloc.C85_any_schedule",
    "Shareloc.C85_inverse_loc",
    "Shareloc.C85_inverse_loc_api",
    "Shareloc.C85_derivatives",
    "Shareloc.C85_has_execution"
   ],
   "note": "Assignments to 8-byte cells are atomic in the model; the local variables of an iteration are private to its thread (numba privatises them)."
  },
  {
   "property": "C86",
   "status": "proved",
   "theorems": [
    "Shareloc.C86_truncated_rpb",
    "Shareloc.C86_truncated_json",
    "Shareloc.C86_other_files",
    "Shareloc.C86_reader",
    "Shareloc.C86_completed",
    "Shareloc.C86_old_model_can_be_lost"
   ],
   "note": "GDAL's reading of .RPB files is the specification Spec/Rpb.lean; the in-place update of a GeoTIFF by GDAL is not modelled at this level"
  },
  {
   "property": "C87",
   "status": "proved",
   "theorems": [
    "Shareloc.C87_json_content",
    "Shareloc.C87_json_unambiguous",
    "Shareloc.C87_json_injective"
   ],
   "note": "json.dump with indent=4 is modelled as the text it writes; NaN and infinities are excluded"
  },
  {
   "property": "C88",
   "status": "proved",
   "theorems": [
    "Shareloc.C88_last_estimate",
    "Shareloc.C88_never_estimated",
    "Shareloc.C88_default",
    "Shareloc.C88_direct",
    "Shareloc.C88_grid_inverse",
    "Shareloc.C88_estimate_sizes",
    "Shareloc.C88_predictor_in_force",
    "Shareloc.C88_nan_predictor",
    "Shareloc.C88_grid_inverse_counterexample"
   ],
   "note": "Exact arithmetic. The same Grid.inverse_loc call can raise or answer according to a call made on another object: C88_grid_inverse_counterexample."
  },
  {
   "property": "C89",
   "status": "proved",
   "theorems": [
    "Shareloc.C89_returned_is_sequential",
    "Shareloc.C89_estimated_first",
    "Shareloc.C89_alone",
    "Shareloc.C89_first_call_counterexample"
   ],
   "note": "Atomic actions are the loads and stores of attributes, as with the global interpreter lock. The explicit estimate with other sizes during inverse locations is not in the model. C89_first_call_counterexample gives the schedule that raises."
  },
  {
   "property": "C90",
   "status": "proved",
   "theorems": [
    "Shareloc.C90_pointwise",
    "Shareloc.C90_point",
    "Shareloc.C90_no_infinity",
    "Shareloc.C90_raises"
   ],
   "note": "rasterio.warp.transform is a parameter that converts each point for itself. The parameter conv of the other models is the conversion of one row."
  },
  {
   "property": "C91",
   "status": "proved",
   "theorems": [
    "Shareloc.C91_altitude",
    "Shareloc.C91_altitude_double"
   ],
   "note": "The march that finds the bracket is not part of this floating point model: the bracket and the number of turns are arbitrary, which includes every bracket the march can find. Overflow, underflow and a loop that never ends are outside."
  },
  {
   "property": "C92",
   "status": "proved",
   "theorems": [
    "Shareloc.C92_exact_nodes",
    "Shareloc.C92_one_more_at_most",
    "Shareloc.C92_rectification_grid",
    "Shareloc.C92_written_grid",
    "Shareloc.C92_tenth_step_counterexample",
    "Shareloc.C92_grid_nodes",
    "Shareloc.C92_grid_counterexample",
    "Shareloc.C92_location_grid",
    "Shareloc.C92_location_grid_raises",
    "Shareloc.C92_default_predictor_nodes",
    "Shareloc.C92_predictor_counterexample"
   ],
   "note": "numpy's arange and mgrid are modelled (number of elements and values) with a rounding of each operation; no overflow or underflow. Files of at least two rows and columns."
  },
  {
   "property": "C93",
   "status": "proved",
   "theorems": [
    "Shareloc.C93_displacement",
    "Shareloc.C93_displacement_values",
    "Shareloc.C93_displacement_repeated",
    "Shareloc.C93_displacement_same_array",
    "Shareloc.C93_geoid_positions",
    "Shareloc.C93_geoid_repeated",
    "Shareloc.C93_geoid_far_longitude",
    "Shareloc.C93_geoid_raises_modified",
    "Shareloc.C93_check_lonlat"
   ],
   "note": "Memory = map from references to array contents. Partial views (slices) of a shared array and integer arrays (numpy refuses the in place addition of a float) are not modelled."
  },
  {
   "property": "C94",
   "status": "proved",
   "theorems": [
    "Shareloc.C94_n_views",
    "Shareloc.C94_sensor",
    "Shareloc.C94_disparity_map"
   ],
   "note": "Exact square root (real numbers); errors of the models themselves enter through e and e'. The models only have to locate, when they return, each pixel by itself."
  },
  {
   "property": "C95",
   "status": "proved",
   "theorems": [
    "Shareloc.C95_affine",
    "Shareloc.C95_other_epsg_counterexample",
    "Shareloc.C95_null_disparity"
   ],
   "note": "The conversion files <-> grids is the model of C47. Models whose ground coordinates are not longitudes and latitudes are excluded: the lines of sight convert from EPSG:4326 whatever the system of the model (C95_other_epsg_counterexample, defect 44)."
  },
  {
   "property": "C96",
   "status": "proved",
   "theorems": [
    "Shareloc.C96_altitude_of_disparity"
   ],
   "note": "Real numbers (square roots, sine and cosine). The factor (1 + (rows - cols) / (rows cols)) is the bias of the returned mean (C48, defect)."
  },
  {
   "property": "C97",
   "status": "proved",
   "theorems": [
    "Shareloc.C97_sensor",
    "Shareloc.C97_disparity_map"
   ],
   "note": "Real numbers. The differentiability and the bound of the acceleration are hypotheses on the model (met by RPC with non null denominators)."
  },
  {
   "property": "C98",
   "status": "proved",
   "theorems": [
    "Shareloc.C98_epsg",
    "Shareloc.C98_altitude",
    "Shareloc.C98_roi_transparent",
    "Shareloc.C98_region_accepted",
    "Shareloc.C98_statistic_depends_on_region",
    "Shareloc.C98_border_is_extrapolated",
    "Shareloc.C98_single_row_refused"
   ],
   "note": "Not claimed, with counterexamples: cells filled by a statistic depend on the region (C98_statistic_depends_on_region); within half a cell of the border of the region the altitude is extrapolated (C98_border_is_extrapolated). Index regions are integer; fractional windows (rasterio resampling) are not modelled."
  },
  {
   "property": "C99",
   "status": "proved",
   "theorems": [
    "Shareloc.C99_optim_on_files",
    "Shareloc.C99_python_on_files",
    "Shareloc.C99_grid_on_files"
   ],
   "note": "The DTM is in the system of the model (EPSG 4326 for the C++ RPC). A DTM with NaN altitudes is not modelled after reading. Grids and C++ models answer (0, 0, 0) for lines that leave the box (C62, C74)."
  },
  {
   "property": "C100",
   "status": "proved",
   "theorems": [
    "Shareloc.C100_python_one_hole_locates_nothing",
    "Shareloc.C100_cpp_first_cell_hole",
    "Shareloc.C100_no_hole",
    "Shareloc.C100_cpp_far_from_holes",
    "Shareloc.C100_located_points",
    "Shareloc.C100_cpp_point_in_a_hole",
    "Shareloc.C100_cpp_point_behind_the_relief"
   ],
   "note": "As for C60 the comparison with the filled DTM excludes the lines that enter the box at a whole row or column (other than 2) in the direction in which they decrease, where the C++ start cell is wrong. The march along a line with NaN vertices is not modelled. The two kinds of wrong points near holes are proved by examples (C100_cpp_point_in_a_hole, C100_cpp_point_behind_the_relief)."
  },
  {
   "property": "C101",
   "status": "proved",
   "theorems": [
    "Shareloc.C101_direct_loc",
    "Shareloc.C101_direct_loc_arrays",
    "Shareloc.C101_inverse_loc",
    "Shareloc.C101_inverse_loc_arrays",
    "Shareloc.C101_predictor",
    "Shareloc.C101_predictor_hole",
    "Shareloc.C101_corner_hole",
    "Shareloc.C101_dtm_same",
    "Shareloc.C101_dtm_nan",
    "Shareloc.C101_dtm_two_layers",
    "Shareloc.C101_march_never_ends",
    "Shareloc.C101_inner_layer_hole_never_ends"
   ],
   "note": "With three layers or more a line of sight may have NaN vertices between others: the march is modelled, and proved endless when it reaches such a vertex above the terrain. A null determinant raises as in C106: a hole never adds this exception, and may avoid it. The DTM has no hole in the theorems that give a point."
  },
  {
   "property": "C102",
   "status": "proved",
   "theorems": [
    "Shareloc.C102_interpolation",
    "Shareloc.C102_double",
    "Shareloc.C102_direct_loc",
    "Shareloc.C102_exact_at_nodes",
    "Shareloc.C102_top_layer_not_exact"
   ],
   "note": "The nodes of the image axes are the exact ones (C92 says when they are); no overflow or underflow."
  },
  {
   "property": "C103",
   "status": "proved",
   "theorems": [
    "Shareloc.C103_moves_with_the_lines",
    "Shareloc.C103_same_lines",
    "Shareloc.C103_residues_do_not_move",
    "Shareloc.C103_other_altitudes"
   ],
   "note": "Motions are the maps that keep distances and reach every point, lines are compared as sets of points. `C103_other_altitudes` is about whole calls of sensor_triangulation, NaN rows and residues included."
  },
  {
   "property": "C104",
   "status": "proved",
   "theorems": [
    "Shareloc.C104_march_ends",
    "Shareloc.C104_no_cell_twice",
    "Shareloc.C104_found",
    "Shareloc.C104_found_float",
    "Shareloc.C104_altitude_double",
    "Shareloc.C104_exact"
   ],
   "note": "The four operations are parameters without hypothesis; comparisons, floor and integer indexes are exact as in floating point. NaN and infinite values are not represented. The number of turns of the regula falsi is cut by fuel here: its termination is proved in exact arithmetic in C16 and in floating point in C105."
  },
  {
   "property": "C105",
   "status": "proved",
   "theorems": [
    "Shareloc.C105_falsi_ends",
    "Shareloc.C105_falsi_ends_double"
   ],
   "note": "Loop only: that the march (C104) always brings a bracket of this kind in floating point is not claimed. Overflow, underflow, NaN and infinite values are not represented. With both ends on the ground the coefficient is 0/0: shown on an example."
  },
  {
   "property": "C106",
   "status": "proved",
   "theorems": [
    "Shareloc.C106_batch",
    "Shareloc.C106_one_turn",
    "Shareloc.C106_regular",
    "Shareloc.C106_repeated_line",
    "Shareloc.C106_null_determinant",
    "Shareloc.C106_batch_lost"
   ],
   "note": "Exact arithmetic; a repeated line gives an exactly null determinant in floating point too. Defect 51: a batch where one point is located alone and lost in the batch is proved."
  },
  {
   "property": "C107",
   "status": "proved",
   "theorems": [
    "Shareloc.C107_residue",
    "Shareloc.C107_residue_double",
    "Shareloc.C107_rounding",
    "Shareloc.C107_double",
    "Shareloc.C107_inhabited"
   ],
   "note": "numpy.linalg.inv (LAPACK) enters only through its residual, a hypothesis of the theorems; overflow and underflow are not modelled. The exact point is the one of the model of C36."
  },
  {
   "property": "C108",
   "status": "proved",
   "theorems": [
    "Shareloc.C108_covers",
    "Shareloc.C108_tight",
    "Shareloc.C108_no_error",
    "Shareloc.C108_double",
    "Shareloc.C108_not_exact"
   ],
   "note": "The inverse transform, the indexes of the corners, the half pixels and the differences round; floor, ceil and comparisons are exact."
  },
  {
   "property": "C109",
   "status": "proved",
   "theorems": [
    "Shareloc.C109_constructor",
    "Shareloc.C109_interpolation_in_range",
    "Shareloc.C109_no_out_of_range",
    "Shareloc.C109_same_answer",
    "Shareloc.C109_batch",
    "Shareloc.C109_short_array_is_read_outside",
    "Shareloc.C109_one_row_is_read_outside",
    "Shareloc.C109_no_vertex_is_read_outside",
    "Shareloc.C109_zero_over_zero_becomes_an_index",
    "Shareloc.C109_one_line_ends_the_batch"
   ],
   "note": "Flat vectors with checked reads and writes (`rd`, `wr`), the parallel vectors sorted in place, the in-place removal of crossings, the strided result array. Needed hypotheses, each with a counterexample in Lean: two rows (a one-row terrain is read before the start of its array), an array as long as its declared size, at least one vertex. A line that follows the terrain divides 0 by 0 and converts the result to an index: undefined behaviour, shown. Not modelled: integer overflow of positions, the memory of numpy arrays, floating point (see C84, C91, C104, C105 for rounding)."
  },
  {
   "property": "C110",
   "status": "proved",
   "theorems": [
    "Shareloc.C110_pickle_roundtrip",
    "Shareloc.C110_state_determines_the_object",
    "Shareloc.C110_setstate_accepts",
    "Shareloc.C110_setter_changes_one_attribute",
    "Shareloc.C110_getter_after_a_history",
    "Shareloc.C110_getters_determine_the_object",
    "Shareloc.C110_set_alt_data_is_stale"
   ],
   "note": "The values of the tuple are Python lists, floats and integers; their own pickling by Python is trusted. `cast<double>` accepts an integer, `cast<int>` refuses a float. The setters do not update what the constructor derives: after `set_alt_data` a line of sight that meets the new terrain is reported as not found (`C110_set_alt_data_is_stale`)."
  },
  {
   "property": "C111",
   "status": "proved",
   "theorems": [
    "Shareloc.C111_exact",
    "Shareloc.C111_entry_in_box_and_near_the_line",
    "Shareloc.C111_found",
    "Shareloc.C111_straight_line",
    "Shareloc.C111_double",
    "Shareloc.C111_parameter_in_its_segment",
    "Shareloc.C111_march_from_the_entry_ends",
    "Shareloc.C111_inhabited",
    "Shareloc.C111_rounding_inhabited",
    "Shareloc.C111_grazing_line_is_lost"
   ],
   "note": "`cubeA` takes the four operations as parameters; with exact ones it is the model of C11-C13 (C111_exact). The signs of the distances to the planes are exact (no underflow), so that the segments crossed are the exact ones. The margin is needed: a line that touches the box at an edge has an entry in exact arithmetic and none in double precision (C111_grazing_line_is_lost). Index coordinates: their conversion is C84. Overflow and underflow are not modelled."
  },
  {
   "property": "C112",
   "status": "proved",
   "theorems": [
    "Shareloc.C112_direct_h",
    "Shareloc.C112_direct_h_in_range",
    "Shareloc.C112_inverse",
    "Shareloc.C112_inverse_in_range",
    "Shareloc.C112_inverse_without_coefficients",
    "Shareloc.C112_raw_inverse",
    "Shareloc.C112_raw_direct",
    "Shareloc.C112_raw_iterative",
    "Shareloc.C112_los_extrema",
    "Shareloc.C112_direct_dtm",
    "Shareloc.C112_short_columns",
    "Shareloc.C112_coloc",
    "Shareloc.C112_nan_point_is_read_outside",
    "Shareloc.C112_no_altitude_is_read_outside",
    "Shareloc.C112_unassigned_coefficients",
    "Shareloc.C112_short_columns_example"
   ],
   "note": "Vectors with checked reads and writes (`vget`, `vset`), coefficient arrays that may be unassigned. Defects shown in Lean: with fewer columns than rows `direct_loc_dtm` reads the column after the last (`C112_short_columns`); the raw functions read after the altitudes (`C112_nan_point_is_read_outside`, `C112_no_altitude_is_read_outside`); without inverse coefficients `inverse_loc` reads arrays that were never assigned exactly when one point is a finite position in range (`C112_inverse_without_coefficients`). Not modelled: values read from memory that is not the vector's, integer overflow of sizes, rounding."
  },
  {
   "property": "C113",
   "status": "proved",
   "theorems": [
    "Shareloc.C113_angle",
    "Shareloc.C113_move",
    "Shareloc.C113_step_length",
    "Shareloc.C113_walk",
    "Shareloc.C113_baseline",
    "Shareloc.C113_exact",
    "Shareloc.C113_walk_doubles"
   ],
   "note": "Angle: 9u + 2tau; coordinate of a move: 25u + 4tau of the step plus u of the position; length of a step; n nodes: n times as much; baseline ratio: 6u + 2tau. The accuracy of the mathematical library (`Trig.Accurate`) is a hypothesis, satisfied by correctly rounded functions (`rounded53_contracts`). The local lines are those that the program computed: the errors of the localisations that give them are the subject of C82 to C111. Without overflow, underflow, NaN, fused operations; without the adaptive step."
  },
  {
   "property": "C114",
   "status": "proved",
   "theorems": [
    "Shareloc.C114_image_size",
    "Shareloc.C114_one_pixel",
    "Shareloc.C114_grid_size",
    "Shareloc.C114_covers",
    "Shareloc.C114_loses_a_pixel",
    "Shareloc.C114_exact"
   ],
   "note": "Defect shown with doubles (`C114_loses_a_pixel`): 30001 columns of 0.7 give an epipolar image of 30000 columns because `int` truncates 30000.999...; the grid still covers it. Not modelled: the rounding of the corners of the footprint; steps that are not whole (see C46_fractional_step_counterexample)."
  },
  {
   "property": "C115",
   "status": "proved",
   "theorems": [
    "Shareloc.C115_constructor",
    "Shareloc.C115_line_of_sight",
    "Shareloc.C115_batch",
    "Shareloc.C115_positions_in_double",
    "Shareloc.C115_strip",
    "Shareloc.C115_largest_square"
   ],
   "note": "Defect: a DTM of 46341 x 46341 cells, accepted by Python, overflows in `init_min_max` (`C115_largest_square`), although `interpolate`, whose positions are doubles, would be exact up to 2^53 cells (`C115_positions_in_double`). For the strips the set of the computed integers is modelled, not the undefined behaviour that follows. 64-bit operations are taken as exact."
  },
  {
   "property": "C116",
   "status": "proved",
   "theorems": [
    "Shareloc.C116_matrix",
    "Shareloc.C116_measured",
    "Shareloc.C116_certificate",
    "Shareloc.C116_double",
    "Shareloc.C116_refined",
    "Shareloc.C116_refined_double"
   ],
   "note": "The pixels before and after the last move are assumed inside the grid, and the altitude between its layers. `coslat`, `rtx`, `deg2mrad` are the computed constants. Overflow and underflow are not modelled."
  },
  {
   "property": "C117",
   "status": "proved",
   "theorems": [
    "Shareloc.C117_extrapolation",
    "Shareloc.C117_interpolation",
    "Shareloc.C117_read_back",
    "Shareloc.C117_read_back_exact",
    "Shareloc.C117_end_to_end",
    "Shareloc.C117_double",
    "Shareloc.C117_not_exact"
   ],
   "note": "The nodes are the exact ones (they are when their coordinates are doubles: C92), the same when the file is written and read, and the file holds doubles. Positions outside the grid are covered by C117_extrapolation in terms of the positions read. Overflow and underflow are not modelled."
  }
 ]
}