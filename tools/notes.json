{
 "C01": {
  "status": "proved",
  "note": "any invertible geotransform"
 },
 "C02": {
  "status": "proved",
  "note": "any invertible transform, Python and C++"
 },
 "C03": {
  "status": "proved",
  "note": ""
 },
 "C04": {
  "status": "proved",
  "note": "Axis-aligned transforms. With a negative column step, which the property excludes, a valid ROI is refused (C04_negative_column_step_is_refused)."
 },
 "C05": {
  "status": "proved",
  "note": ""
 },
 "C06": {
  "status": "proved",
  "note": "rasters with at least two rows and columns; C06_single_row_reads_outside shows the bound is needed"
 },
 "C07": {
  "status": "proved",
  "note": ""
 },
 "C08": {
  "status": "proved",
  "note": ""
 },
 "C09": {
  "status": "proved",
  "note": ""
 },
 "C10": {
  "status": "proved",
  "note": ""
 },
 "C11": {
  "status": "proved",
  "note": ""
 },
 "C12": {
  "status": "proved",
  "note": "first vertex exactly on a face plane gives parameter -1 in Python (C12_first_vertex_on_face)"
 },
 "C13": {
  "status": "proved",
  "note": "characterised for every polyline; lines ending inside the box are not found (C13_line_ending_inside_not_found)"
 },
 "C14": {
  "status": "partial",
  "note": "altitude tolerance: every line and both implementations; on the line: straight lines; bent lines without vertical segments: on the line, or on the extension of a segment less than one row and one column of the DTM after the vertex that ends it (C14_bent_line_partial); the claim is false for bent lines (C14_bent_line_off_line, C14_stale_point_after_vertical_segment)"
 },
 "C15": {
  "status": "proved",
  "note": "Termination of the cell and segment loops: both implementations, from any state (the C++ code can start in a wrong cell). Order of the cells: Python. Termination of the regula falsi is in C16."
 },
 "C16": {
  "status": "proved",
  "note": "every visited cell of every segment, and end to end for straight lines; a double crossing inside one cell is not a sign change and is missed (C16_double_crossing_missed)"
 },
 "C17": {
  "status": "proved",
  "note": "coming from above the terrain, the case of a line of sight; C17_rising_from_below_skipped shows the test is unsafe from below"
 },
 "C18": {
  "status": "partial",
  "note": "pointwise proved; exact condition of NaN proved (C18_nan_iff); a line entering the box and missing the terrain is not NaN: (0, 0, 0) for every straight line that stays above the terrain (C18_line_above_terrain). In the C++ batch an exception on one line of sight ends the whole call (C109_batch, C109_one_line_ends_the_batch)"
 },
 "C60": {
  "status": "partial",
  "note": "equality of entries, marches and reported points unless a segment starts at an integer row or column other than 2 with a negative direction, where the C++ code starts in the cell 1 (C60_negative_direction_difference)"
 },
 "C19": {
  "status": "proved",
  "note": "Numba and C++ polynomials equal the RPC00B sum written in Spec/Rpc00b.lean; the table is a bijection with the monomials of degree at most 3; the order is identifiable."
 },
 "C20": {
  "status": "proved",
  "note": "HasDerivAt over the reals for both derivative polynomials and for the four derivatives of the inverse model; C++ equal to Python; derivative tables of the Python object consistent."
 },
 "C21": {
  "status": "proved",
  "note": "Batch theorem for Python, agreement with RPCoptim when no denominator vanishes, C++ raises otherwise. A zero denominator gives 'no finite value' in the Python model."
 },
 "C22": {
  "status": "proved",
  "note": "Update solves the linear system uniquely; exactness in one step for affine models, in Python and C++."
 },
 "C23": {
  "status": "partial",
  "note": "Bound on the number of updates: full. Certification: full for C++; for Python without NaN residual: every point but those never moved, which are described exactly (C23_python_any_altitudes_partial), and all points of a batch at one altitude; the claim is false for the others (C23_python_counterexample)."
 },
 "C24": {
  "status": "partial",
  "note": "C++: full. Python: batches at one altitude without NaN residual; false otherwise, two counterexamples proved."
 },
 "C25": {
  "status": "proved",
  "note": "check_lonlat exact and idempotent; direct_loc_h filtering and fill_nan, Python and C++."
 },
 "C26": {
  "status": "proved",
  "note": "Order, number and exact altitudes of the extrema, extrapolation on the line; Python positions inherit the batch bug (C26_python_counterexample)."
 },
 "C27": {
  "status": "proved",
  "note": "Dispatch in Python and C++, formulas of the direct coefficients. C++ inverse_loc without inverse coefficients reads uninitialised arrays: not modelled."
 },
 "C28": {
  "status": "partial",
  "note": "Proved: single altitude broadcast where it exists; same-size arrays used pointwise (each row is that of the point alone) by RPC.inverse_loc, RPCoptim.inverse_loc, RPCoptim.direct_loc_h, RPC.direct_loc_h by direct coefficients, Grid.direct_loc_h and Grid.inverse_loc; sizes classified for the grids. The claim is false of the code for RPCoptim.inverse_loc (refuses a single altitude), for the iterative RPC.direct_loc_h (starts every point from the first altitude) and for wrong sizes, silently truncated to the first value (all proved)."
 },
 "C29": {
  "status": "proved",
  "note": "grids with distinct altitudes recorded for every layer; a layer without ALTITUDE metadata is silently at 0 (C29_missing_altitude)"
 },
 "C30": {
  "status": "proved",
  "note": "at least two layers; with one layer the upper index is -1 (C30_single_layer)"
 },
 "C31": {
  "status": "proved",
  "note": "node exactness with the validity mask; affine in altitude and bilinear in a cell, also when extrapolating"
 },
 "C32": {
  "status": "proved",
  "note": "np.arange is taken to return exactly n nodes (no rounding) RPC.direct_loc_grid_h, documented alike, raises on every grid with a node: C32_rpc_counterexample."
 },
 "C33": {
  "status": "proved",
  "note": "inverse Jacobian, bound, convergence certificate up to the last update, exactness on affine grids, independence of points when each alone is answered (otherwise C106); convergence speed on general grids is not claimed"
 },
 "C34": {
  "status": "proved",
  "note": "np.linalg.inv is the exact inverse; the nodes, their min and max are those the grid samples itself"
 },
 "C61": {
  "status": "proved",
  "note": "without change of EPSG"
 },
 "C35": {
  "status": "proved",
  "note": "the direction is the unit vector from the END (lowest altitude) to the START (highest altitude), as the code does; coordinates_conversion is a parameter acting on each point"
 },
 "C36": {
  "status": "proved",
  "note": "any number of views with a regular matrix; singular exactly when all lines are parallel"
 },
 "C37": {
  "status": "proved",
  "note": ""
 },
 "C38": {
  "status": "proved",
  "note": ""
 },
 "C39": {
  "status": "partial",
  "note": "false in general: a match with two exactly parallel valid lines raises for the whole batch; proved to be the only case (C39_raises_iff); otherwise each match is alone"
 },
 "C40": {
  "status": "proved",
  "note": "for models which locate points independently; masked entries are 0, residues are NaN when not asked for"
 },
 "C41": {
  "status": "proved",
  "note": ""
 },
 "C42": {
  "status": "proved",
  "note": "The angle is the angle of the vector start->end for every pair of distinct finite positions (Mathlib's real arctan, cos, sin); Python and C++ agree on numbers and differ on NaN (C42_nan_difference)."
 },
 "C43": {
  "status": "proved",
  "note": "Displacement by spacing*step along or across the line; any other axis raises."
 },
 "C44": {
  "status": "proved",
  "note": "Strips without adaptive step, for colocalisations that keep the number of points; every node depends on the preceding one and on its local epipolar line."
 },
 "C45": {
  "status": "partial",
  "note": "Adaptive strips: bounds on the ratio, room of the buffer when the relief cannot exceed it; C45_slope_overflows and C45_default_parameters_overflow show the buffer overflow (IndexError) in the general case."
 },
 "C46": {
  "status": "proved",
  "note": "Bounding box, footprint, number of nodes (the whole box is covered for whole steps, see C46_fractional_step_counterexample), extent (returned latitude first)."
 },
 "C47": {
  "status": "proved",
  "note": "Round trip through the file with the default convention; the other convention exchanges rows and columns (C47_yx_exchanges). scipy's interpolator is modelled (bilinear cell, clamped interval)."
 },
 "C48": {
  "status": "partial",
  "note": "Mean of each strip proved; the global mean is the mean for square grids only: C48_constant_ratio_bias gives the value for the others, C48_constant_ratio_iff_square shows that a constant ratio is reproduced exactly for square grids and no others."
 },
 "C49": {
  "status": "partial",
  "note": "Proved for geotiff (no .RPB beside), geotiff_rpb and rpb (RPC found by GDAL in one place, exact printing of numbers, GDAL reads RPB as the specified reader); direct coefficients are lost, JSON and bare .RPB files are not readable by rpc_reader (theorems)."
 },
 "C50": {
  "status": "proved",
  "note": "DIMAP v1, v2, v3, OSSIM and rasterio: parameters are those of the file with the first pixel moved to (1/2, 1/2); effect on inverse and direct location proved. Reading of numbers and the XML parser are parameters. C50_rasterio_location goes from the tags to the coordinates with the RPC00B formula."
 },
 "C51": {
  "status": "proved",
  "note": "The file decides, never two readers, ValueError when none; the version used inside the v2/v3 reader may differ from the one that chose it (C51_version_mismatch)."
 },
 "C52": {
  "status": "partial",
  "note": "Complete description of the writer; the claim on existing files holds for RPC tags in images only: rpb, geotiff_rpb and json ignore override, and a file that is not an image is silently left (theorems)."
 },
 "C53": {
  "status": "proved",
  "note": "For any model (parameter) and any point-wise conversion. Round trip under the hypothesis that the model and the conversions undo each other on these points. Without altitude, inverse() ignores the DTM (C53_inverse_ignores_dtm), as its documentation does not promise otherwise."
 },
 "C54": {
  "status": "partial",
  "note": "Composition, order and size check proved for every model. Identity of coloc(image, image) proved when the DTM is in the system of the models; false otherwise (C54_dtm_system_counterexample: the ground point is not converted)."
 },
 "C55": {
  "status": "proved",
  "note": "Both directions and the round trip, for every invertible geotransform; NaN stays NaN."
 },
 "C56": {
  "status": "partial",
  "note": "The box is that of two opposite corners: proved to contain the footprint when longitude and latitude vary in one direction with rows and columns; exact condition for affine locations (C56_affine_corners_iff) and a rotated counterexample. Latitude comes first in the result."
 },
 "C57": {
  "status": "proved",
  "note": "For every registration history. A KeyError inside load is indistinguishable from an unknown name (C57_key_error_ambiguous)."
 },
 "C58": {
  "status": "partial",
  "note": "Proved in full for min, max, mean, median (midpoint of the interval of medians) and constant, including truncation in integer files. For rio_fillnodata (external, contract as hypothesis) it needs the file mask to mark the no-data value: C58_rio_mask_band_counterexample otherwise; NaN residuals are not filled (C58_rio_nan_counterexample). A DTM without valid cell raises for every strategy."
 },
 "C59": {
  "status": "partial",
  "note": "Proved for global geoids whose first column is in [-180, 0], all longitudes within one turn, with or without repeated column, and for the addition cell by cell. False when the first column is east of 0 (C59_positive_west: heights are NaN around longitude 0); a regional geoid is extended by its first column (C59_regional_extension)."
 },
 "C62": {
  "status": "partial",
  "note": "DTM in the system of the model (for the C++ class in EPSG 4326). The English claim is false of the code in two cases, shown by C62_first_residual_counterexample (start residual of the iterative location computed with the altitude of the first point: result 5 pixels away) and C62_missed_line_is_origin (a line that enters the box and leaves it without meeting the terrain gives (0,0,0), or uninitialised memory in C++); DtmAnswer has these and the exceptions as explicit alternatives. A DTM in another system: the points are those of the converted line, see C67."
 },
 "C63": {
  "status": "proved",
  "note": "located: any RPC, straight line of sight; flat exact; reprojection for the C++ iterative location (the Python one has the first residual defect, C62), with the bound 1e-6 plus the variation of the model along the line and exactly 1e-6 for models affine in each polynomial."
 },
 "C64": {
  "status": "proved",
  "note": "NaN pixels and failures for Python are also in C62_rpc_direct_loc_dtm_partial; C++ per point"
 },
 "C65": {
  "status": "partial",
  "note": "DTM in the system of the grid. Everything is proved when no layer of the grid is in the range of altitudes of the DTM (then the line of sight is straight there). With a layer in this range: pointwise, terrain tolerance, valid coordinates, and on the line of sight or within one row and one column of a vertex of it (C65_any_layers_partial); the point may be off the line of sight (C66_layer_inside_counterexample). The (0,0,0) of missed lines is as in C62."
 },
 "C66": {
  "status": "partial",
  "note": "proved exactly when no layer is in the range of altitudes of the DTM; C66_layer_inside_counterexample shows that the claim is false of the code otherwise"
 },
 "C67": {
  "status": "partial",
  "note": "C67_range characterises the bounds, C67_line_in_dtm_system describes the whole location for a DTM in another system, C67_range_covers_partial proves the claim when the change of altitude is within one metre of its range at the four corners; C67_extremum_inside_counterexample shows that the claim is false of the code otherwise"
 },
 "C68": {
  "status": "partial",
  "note": "Agreement proved at every node, for both axes and any sizes, when no local epipolar line has a NaN, and absence of out of bounds access for the documented shapes; the codes differ after a NaN (C68_nan_difference), and the claim on the arrays of the caller is false: they are overwritten by the last layer (C68_inputs_overwritten). Adaptive steps do not exist in C++. For two RPCoptim models over a DTM in EPSG 4326 or a constant altitude the hypotheses on the models are proved (C68_rpc_strips_agree_partial)."
 },
 "C69": {
  "status": "proved",
  "note": "C69_grids. With the adaptive step, which the property excludes, the right nodes are interpolated, not colocated (C69_adaptive_not_homologous). C69_whenever_returned says the same of models that may raise, whenever the function returns; RPCoptim and Grid satisfy its hypothesis (C69_optim_rpc_by_point, C69_grid_by_point), the Python RPC does not (C69_python_rpc_counterexample)."
 },
 "C70": {
  "status": "proved",
  "note": "Over the reals, exact arithmetic, affine sensors (for general sensors the epipolar lines are only locally straight and the claim is not true). Witness: affineGeo_points and an example."
 },
 "C71": {
  "status": "proved",
  "note": "Also proved: a NaN local line silently gives the distances of an epipolar line along the rows (C71_nan_line_is_row)."
 },
 "C72": {
  "status": "partial",
  "note": "Box of the four corners proved for every pointwise model; pixels proved for affine sensors and non rotated images; nodes proved when the spacing of the image is at most 1 and false otherwise, since the footprint is widened by epi_step instead of epi_step * spacing (C72_large_pixels_counterexample). C72_whenever_returned: the box for models that may raise (RPCoptim, Grid)."
 },
 "C73": {
  "status": "proved",
  "note": "Under the explicit hypothesis that the iteration of each pixel settles before its limit (Python: batches at one altitude, as for C23). The DTM is in the system of the model. In the round trip on a DTM the deviation of the image of the line of sight from uniform motion is added to the millionth, and (0, 0, 0), returned for a line that leaves the box without meeting the terrain, is excluded."
 },
 "C74": {
  "status": "proved",
  "note": "The English property already restricts the agreement of direct_loc_grid_dtm to grids whose layers enclose the DTM; C74_location_grid_counterexample shows that the restriction is needed."
 },
 "C75": {
  "status": "proved",
  "note": "Exact arithmetic over any ordered field. The cosine of the latitude, the Earth radius and the predictor are parameters; the regularity and predictor hypotheses are those of the English statement and are shown to be met by a concrete curved (non affine) grid."
 },
 "C76": {
  "status": "proved",
  "note": "Over the reals (partial derivatives in the sense of Mathlib's deriv). The condition is checked on a curved model with a non constant denominator over a six degree square (bent_nearlyAffine), where all pixels within 400 of the centre are covered."
 },
 "C77": {
  "status": "proved",
  "note": "Over any ordered field with abstract sine, cosine, arctangent and square root. When the function does not return: C45 (overflow of the arrays with the default parameters). C77_whenever_returned: the same for models that may raise (RPCoptim, Grid). C77_flat_ground: on flat ground the grids are those of the plain call."
 },
 "C78": {
  "status": "proved",
  "note": "Exact arithmetic. The predictor is modelled from the sampled nodes, their min and max, and the exact inverse of the normal matrix; np.linalg.inv raising LinAlgError and NaN coefficients are merged as no predictor."
 },
 "C79": {
  "status": "proved",
  "note": "The equivalence of acceptance between the two classes is false (C79_null_counterexample, C79_empty_counterexample: RPC accepts null or missing coefficients that RPCoptim refuses); the claim is stated for RPCoptim's acceptance. epsg (always 4326 in RPCoptim) is not part of the model object."
 },
 "C80": {
  "status": "proved",
  "note": "The claim is stated for located rows because plain equality is false: the C++ function does not check longitudes and latitudes (C80_antimeridian_counterexample). Also used to discharge the hypotheses of C68 for RPCs (C68_rpc_strips_agree_partial)."
 },
 "C81": {
  "status": "proved",
  "note": "Over what rasterio gives of the file; int, float and np.argsort are parameters with their specification. Without a REF tag the grid has no coordinate system and positions are not checked (C81_without_ref_unchecked). The first node is at the origin of the geotransform and not half a step further as documented (C81_origin_is_corner)."
 },
 "C82": {
  "status": "proved",
  "note": "No overflow or underflow and no NaN input. C82_exact_without_rounding ties this relational model to the exact one."
 },
 "C83": {
  "status": "proved",
  "note": "One point; the batch of the Python version starts from a residual computed with the first altitude (C24), so for it the hypothesis on the first residual asks a batch with one altitude."
 },
 "C84": {
  "status": "proved",
  "note": "Transforms with rotation terms are covered when the determinant is at least twice the rounding error of its two products."
 },
 "C85": {
  "status": "proved",
  "note": "Assignments to 8-byte cells are atomic in the model; the local variables of an iteration are private to its thread (numba privatises them)."
 },
 "C86": {
  "status": "proved",
  "note": "GDAL's reading of .RPB files is the specification Spec/Rpb.lean; the in-place update of a GeoTIFF by GDAL is not modelled at this level"
 },
 "C87": {
  "status": "proved",
  "note": "json.dump with indent=4 is modelled as the text it writes; NaN and infinities are excluded"
 },
 "C88": {
  "status": "proved",
  "note": "Exact arithmetic. The same Grid.inverse_loc call can raise or answer according to a call made on another object: C88_grid_inverse_counterexample."
 },
 "C89": {
  "status": "proved",
  "note": "Atomic actions are the loads and stores of attributes, as with the global interpreter lock. The explicit estimate with other sizes during inverse locations is not in the model. C89_first_call_counterexample gives the schedule that raises."
 },
 "C90": {
  "status": "proved",
  "note": "rasterio.warp.transform is a parameter that converts each point for itself. The parameter conv of the other models is the conversion of one row."
 },
 "C91": {
  "status": "proved",
  "note": "The march that finds the bracket is not part of this floating point model: the bracket and the number of turns are arbitrary, which includes every bracket the march can find. Overflow, underflow and a loop that never ends are outside."
 },
 "C92": {
  "status": "proved",
  "note": "numpy's arange and mgrid are modelled (number of elements and values) with a rounding of each operation; no overflow or underflow. Files of at least two rows and columns."
 },
 "C93": {
  "status": "proved",
  "note": "Memory = map from references to array contents. Partial views (slices) of a shared array and integer arrays (numpy refuses the in place addition of a float) are not modelled."
 },
 "C94": {
  "status": "proved",
  "note": "Exact square root (real numbers); errors of the models themselves enter through e and e'. The models only have to locate, when they return, each pixel by itself."
 },
 "C95": {
  "status": "proved",
  "note": "The conversion files <-> grids is the model of C47. Models whose ground coordinates are not longitudes and latitudes are excluded: the lines of sight convert from EPSG:4326 whatever the system of the model (C95_other_epsg_counterexample, defect 44)."
 },
 "C96": {
  "status": "proved",
  "note": "Real numbers (square roots, sine and cosine). The factor (1 + (rows - cols) / (rows cols)) is the bias of the returned mean (C48, defect)."
 },
 "C97": {
  "status": "proved",
  "note": "Real numbers. The differentiability and the bound of the acceleration are hypotheses on the model (met by RPC with non null denominators)."
 },
 "C98": {
  "status": "proved",
  "note": "Not claimed, with counterexamples: cells filled by a statistic depend on the region (C98_statistic_depends_on_region); within half a cell of the border of the region the altitude is extrapolated (C98_border_is_extrapolated). Index regions are integer; fractional windows (rasterio resampling) are not modelled."
 },
 "C99": {
  "status": "proved",
  "note": "The DTM is in the system of the model (EPSG 4326 for the C++ RPC). A DTM with NaN altitudes is not modelled after reading. Grids and C++ models answer (0, 0, 0) for lines that leave the box (C62, C74)."
 },
 "C100": {
  "status": "proved",
  "note": "As for C60 the comparison with the filled DTM excludes the lines that enter the box at a whole row or column (other than 2) in the direction in which they decrease, where the C++ start cell is wrong. The march along a line with NaN vertices is not modelled. The two kinds of wrong points near holes are proved by examples (C100_cpp_point_in_a_hole, C100_cpp_point_behind_the_relief)."
 },
 "C101": {
  "status": "proved",
  "note": "With three layers or more a line of sight may have NaN vertices between others: the march is modelled, and proved endless when it reaches such a vertex above the terrain. A null determinant raises as in C106: a hole never adds this exception, and may avoid it. The DTM has no hole in the theorems that give a point."
 },
 "C102": {
  "status": "proved",
  "note": "The nodes of the image axes are the exact ones (C92 says when they are); no overflow or underflow."
 },
 "C103": {
  "status": "proved",
  "note": "Motions are the maps that keep distances and reach every point, lines are compared as sets of points. `C103_other_altitudes` is about whole calls of sensor_triangulation, NaN rows and residues included."
 },
 "C104": {
  "status": "proved",
  "note": "The four operations are parameters without hypothesis; comparisons, floor and integer indexes are exact as in floating point. NaN and infinite values are not represented. The number of turns of the regula falsi is cut by fuel here: its termination is proved in exact arithmetic in C16 and in floating point in C105."
 },
 "C105": {
  "status": "proved",
  "note": "Loop only: that the march (C104) always brings a bracket of this kind in floating point is not claimed. Overflow, underflow, NaN and infinite values are not represented. With both ends on the ground the coefficient is 0/0: shown on an example."
 },
 "C106": {
  "status": "proved",
  "note": "Exact arithmetic; a repeated line gives an exactly null determinant in floating point too. Defect 51: a batch where one point is located alone and lost in the batch is proved."
 },
 "C107": {
  "status": "proved",
  "note": "numpy.linalg.inv (LAPACK) enters only through its residual, a hypothesis of the theorems; overflow and underflow are not modelled. The exact point is the one of the model of C36."
 },
 "C108": {
  "status": "proved",
  "note": "The inverse transform, the indexes of the corners, the half pixels and the differences round; floor, ceil and comparisons are exact."
 },
 "C109": {
  "status": "proved",
  "note": "Flat vectors with checked reads and writes (`rd`, `wr`), the parallel vectors sorted in place, the in-place removal of crossings, the strided result array. Needed hypotheses, each with a counterexample in Lean: two rows (a one-row terrain is read before the start of its array), an array as long as its declared size, at least one vertex. A line that follows the terrain divides 0 by 0 and converts the result to an index: undefined behaviour, shown. Not modelled: integer overflow of positions, the memory of numpy arrays, floating point (see C84, C91, C104, C105 for rounding)."
 },
 "C110": {
  "status": "proved",
  "note": "The values of the tuple are Python lists, floats and integers; their own pickling by Python is trusted. `cast<double>` accepts an integer, `cast<int>` refuses a float. The setters do not update what the constructor derives: after `set_alt_data` a line of sight that meets the new terrain is reported as not found (`C110_set_alt_data_is_stale`)."
 },
 "C111": {
  "status": "proved",
  "note": "`cubeA` takes the four operations as parameters; with exact ones it is the model of C11-C13 (C111_exact). The signs of the distances to the planes are exact (no underflow), so that the segments crossed are the exact ones. The margin is needed: a line that touches the box at an edge has an entry in exact arithmetic and none in double precision (C111_grazing_line_is_lost). Index coordinates: their conversion is C84. Overflow and underflow are not modelled."
 },
 "C112": {
  "status": "proved",
  "note": "Vectors with checked reads and writes (`vget`, `vset`), coefficient arrays that may be unassigned. Defects shown in Lean: with fewer columns than rows `direct_loc_dtm` reads the column after the last (`C112_short_columns`); the raw functions read after the altitudes (`C112_nan_point_is_read_outside`, `C112_no_altitude_is_read_outside`); without inverse coefficients `inverse_loc` reads arrays that were never assigned exactly when one point is a finite position in range (`C112_inverse_without_coefficients`). Not modelled: values read from memory that is not the vector's, integer overflow of sizes, rounding."
 },
 "C113": {
  "status": "proved",
  "note": "Angle: 9u + 2tau; coordinate of a move: 25u + 4tau of the step plus u of the position; length of a step; n nodes: n times as much; baseline ratio: 6u + 2tau. The accuracy of the mathematical library (`Trig.Accurate`) is a hypothesis, satisfied by correctly rounded functions (`rounded53_contracts`). The local lines are those that the program computed: the errors of the localisations that give them are the subject of C82 to C111. Without overflow, underflow, NaN, fused operations; without the adaptive step."
 },
 "C114": {
  "status": "proved",
  "note": "Defect shown with doubles (`C114_loses_a_pixel`): 30001 columns of 0.7 give an epipolar image of 30000 columns because `int` truncates 30000.999...; the grid still covers it. Not modelled: the rounding of the corners of the footprint; steps that are not whole (see C46_fractional_step_counterexample)."
 },
 "C115": {
  "status": "proved",
  "note": "Defect: a DTM of 46341 x 46341 cells, accepted by Python, overflows in `init_min_max` (`C115_largest_square`), although `interpolate`, whose positions are doubles, would be exact up to 2^53 cells (`C115_positions_in_double`). For the strips the set of the computed integers is modelled, not the undefined behaviour that follows. 64-bit operations are taken as exact."
 },
 "C116": {
  "status": "proved",
  "note": "The pixels before and after the last move are assumed inside the grid, and the altitude between its layers. `coslat`, `rtx`, `deg2mrad` are the computed constants. Overflow and underflow are not modelled."
 },
 "C117": {
  "status": "proved",
  "note": "The nodes are the exact ones (they are when their coordinates are doubles: C92), the same when the file is written and read, and the file holds doubles. Positions outside the grid are covered by C117_extrapolation in terms of the positions read. Overflow and underflow are not modelled."
 }
}