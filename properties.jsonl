{"id": "C01", "title": "Index/physical round trip", "statement": "For every image whose geotransform is invertible, converting a (row, col) index to physical coordinates and back returns the same index, and converting a physical point to an index and back returns the same point; the pixel-centre convention (+0.5) is applied once in each direction.", "quantifier": "every invertible geotransform (including rotated, negative pixel sizes and non-zero origins) and every real index or physical point", "why_tests_cant": "the set of geotransforms and points is infinite; a swapped coefficient or a missing half pixel only shows for sheared transforms", "anchors": ["shareloc/proj_utils.py:transform_index_to_physical_point", "shareloc/proj_utils.py:transform_physical_point_to_index", "shareloc/image.py:Image"]}
{"id": "C02", "title": "DTM ground/index conversion are mutual inverses", "statement": "For every DTM with an invertible transform, ter_to_index and index_to_ter are mutual inverses and leave the altitude unchanged; the Python and the C++ class compute the same index and the same ground point.", "quantifier": "every DTM transform with non-zero determinant, every ground point and every DTM index", "why_tests_cant": "infinite inputs; two hand-written implementations of the inverse must agree everywhere", "anchors": ["shareloc/geofunctions/dtm_intersection.py:DTMIntersection.ter_to_index", "shareloc/geofunctions/dtm_intersection.py:DTMIntersection.index_to_ter", "shareloc/bindings/dtm_intersection.cpp:DTMIntersection::ter_to_index", "shareloc/bindings/dtm_intersection.cpp:DTMIntersection::index_to_ter"]}
{"id": "C03", "title": "Index ROI is clamped inside the dataset", "statement": "Opening an image with an index ROI either raises or reads a window that lies inside the dataset and is non-negative in size; for an integer ROI the pixels read are exactly those of the requested ROI that exist in the dataset, and a refused ROI contains none; the pixel (i, j) of the result has the ground position of the dataset pixel it comes from.", "quantifier": "every dataset size, every ROI (possibly partly or fully outside) and every transform", "why_tests_cant": "ROI overlap patterns with image borders are unbounded", "anchors": ["shareloc/image.py:Image.__init__"]}
{"id": "C04", "title": "Physical ROI covers the requested footprint", "statement": "Opening an image whose columns go eastwards (positive column step) with a physical ROI yields an index window inside the dataset that contains every point of the dataset whose coordinates fall in the requested box, for both signs of the vertical pixel size, with less than one pixel of excess on each side, and a box that meets the dataset is never refused.", "quantifier": "every axis-aligned transform with positive column step and either row direction, every physical box", "why_tests_cant": "floor/ceil and row-swap mistakes appear only on particular fractional offsets and directions", "anchors": ["shareloc/image.py:Image.__init__"]}
{"id": "C05", "title": "Vertical direction is enforced consistently", "statement": "With vertical_direction set, the resulting transform has the requested sign of the row step, the ground coordinates of the rows are obtained by negating y, forcing the current direction changes nothing, and forcing twice is the same as forcing once.", "quantifier": "every transform and requested direction", "why_tests_cant": "all sign combinations of origin and step must be covered", "anchors": ["shareloc/image.py:Image.__init__", "shareloc/image.py:Image.set_metadata"]}
{"id": "C06", "title": "Bilinear interpolation never reads outside the raster", "statement": "For every raster with at least two rows and two columns and every finite position, however far outside the raster, the four nodes read by the bilinear interpolation are inside the raster, and they form one unit cell.", "quantifier": "all raster sizes >= 2x2, all real positions", "why_tests_cant": "unbounded positions and sizes", "anchors": ["shareloc/math_utils.py:interpol_bilin", "shareloc/math_utils.py:interpol_bilin_grid", "shareloc/math_utils.py:interpol_bilin_vectorized", "shareloc/bindings/dtm_intersection.cpp:DTMIntersection::interpolate"]}
{"id": "C07", "title": "Bilinear interpolation is exact at the nodes", "statement": "At an integer position inside the raster, interpolation returns exactly the raster value, including on the last row and the last column.", "quantifier": "all raster sizes and contents, all nodes", "why_tests_cant": "the border row/column use a different cell from the interior", "anchors": ["shareloc/math_utils.py:interpol_bilin", "shareloc/geofunctions/dtm_intersection.py:DTMIntersection.interpolate", "shareloc/bindings/dtm_intersection.cpp:DTMIntersection::interpolate"]}
{"id": "C08", "title": "Interpolated altitude stays within the surrounding nodes", "statement": "For a position inside the raster, the interpolated value lies between the minimum and the maximum of the four surrounding nodes.", "quantifier": "all raster contents and all positions inside the raster", "why_tests_cant": "continuous domain", "anchors": ["shareloc/math_utils.py:interpol_bilin", "shareloc/bindings/dtm_intersection.cpp:DTMIntersection::interpolate"]}
{"id": "C09", "title": "Bilinear surface is continuous and extends the border cell outside", "statement": "On a shared cell edge the two neighbouring cells give the same value, and outside the raster the value is the bilinear extension of the nearest border cell.", "quantifier": "all raster contents, all cell edges and all exterior positions", "why_tests_cant": "continuous domain, the two branches (inside, clamped) must agree on the whole edge", "anchors": ["shareloc/math_utils.py:interpol_bilin"]}
{"id": "C10", "title": "All implementations of bilinear interpolation agree", "statement": "The scalar, the grid and the vectorised Python versions and the C++ version return the same value for every position, point by point.", "quantifier": "all rasters, all position lists of any length", "why_tests_cant": "four independent implementations, infinite inputs", "anchors": ["shareloc/math_utils.py:interpol_bilin", "shareloc/math_utils.py:interpol_bilin_grid", "shareloc/math_utils.py:interpol_bilin_vectorized", "shareloc/bindings/dtm_intersection.cpp:DTMIntersection::interpolate"]}
{"id": "C11", "title": "Cell altitude envelope encloses the surface", "statement": "The per-cell minimum and maximum tables built for a DTM enclose the interpolated surface over the whole cell, are integers bracketing the four nodes, and the global bounds used for altitude queries enclose the whole DTM; the Python and C++ builders agree.", "quantifier": "all DTM sizes and contents, all cells, all positions in the cell", "why_tests_cant": "an envelope one unit too small silently loses intersections on rare cells", "anchors": ["shareloc/geofunctions/dtm_intersection.py:DTMIntersection.init_min_max", "shareloc/geofunctions/dtm_intersection.py:DTMIntersection.get_alt_min", "shareloc/bindings/dtm_intersection.cpp:init_min_max", "shareloc/geofunctions/dtm_intersection.py:DTMIntersection.get_alt_max"]}
{"id": "C12", "title": "Entry point belongs to the line of sight and to the DTM box", "statement": "When the line of sight meets the DTM bounding box, the reported entry point lies within the box and, unless the first vertex of the line is exactly on the plane of a face, on the polyline of the line of sight at the reported parameter; the line expressed in DTM index coordinates describes the same ground points.", "quantifier": "all DTM boxes and all polylines of any number of vertices", "why_tests_cant": "continuous geometry, face/edge/corner cases", "anchors": ["shareloc/geofunctions/dtm_intersection.py:DTMIntersection.intersect_dtm_cube", "shareloc/bindings/dtm_intersection.cpp:DTMIntersection::intersect_dtm_cube"]}
{"id": "C13", "title": "Entry is detected, and is the first one", "statement": "If the line of sight properly crosses two faces of the DTM bounding box, the box intersection is reported as found and the reported entry has the smallest parameter among the retained face crossings.", "quantifier": "all boxes and polylines", "why_tests_cant": "each face has its own hand-written code; a wrong face is only seen by particular directions", "anchors": ["shareloc/geofunctions/dtm_intersection.py:DTMIntersection.intersect_dtm_cube", "shareloc/bindings/dtm_intersection.cpp:DTMIntersection::intersect_dtm_cube"]}
{"id": "C14", "title": "Reported intersection is on the terrain and on the line of sight", "statement": "Whenever the DTM marching reports a found intersection, the returned point is on the line of sight and its altitude differs from the interpolated terrain altitude at that location by at most the tolerance (1e-4), or is exactly the terrain altitude for a vertical segment.", "quantifier": "all DTMs, all polylines and entry points", "why_tests_cant": "the output depends on an iterative bracketing whose number of steps is data dependent", "anchors": ["shareloc/geofunctions/dtm_intersection.py:DTMIntersection.intersection", "shareloc/bindings/dtm_intersection.cpp:DTMIntersection::intersection"]}
{"id": "C15", "title": "Cell marching terminates and visits cells in order", "statement": "The marching over DTM cells along a line of sight always terminates, in Python and in C++, from any entry point; in Python each step moves to a position further along the segment, and the visited positions all lie inside the DTM extent.", "quantifier": "all DTMs, lines of sight and entry points", "why_tests_cant": "non-termination cannot be observed by a finite test", "anchors": ["shareloc/geofunctions/dtm_intersection.py:DTMIntersection.intersection", "shareloc/bindings/dtm_intersection.cpp:DTMIntersection::intersection"]}
{"id": "C16", "title": "A sign change across a cell is never missed", "statement": "If along the marching the line of sight is above the terrain when entering a cell and at or below it when leaving it, an intersection is reported in that cell or earlier.", "quantifier": "all DTMs, all segments", "why_tests_cant": "continuous; a wrong comparison loses grazing intersections", "anchors": ["shareloc/geofunctions/dtm_intersection.py:DTMIntersection.intersection"]}
{"id": "C17", "title": "Skipping a cell with the altitude envelope is safe", "statement": "A cell skipped because the line of sight stays above or below its altitude envelope contains no crossing of the terrain by the line of sight.", "quantifier": "all DTMs, segments and cells", "why_tests_cant": "the skip is an optimisation, correct only if the envelope argument holds for every real position", "anchors": ["shareloc/geofunctions/dtm_intersection.py:DTMIntersection.intersection", "shareloc/geofunctions/dtm_intersection.py:DTMIntersection.init_min_max"]}
{"id": "C18", "title": "Batch DTM intersection is pointwise and misses are NaN", "statement": "Intersecting n lines of sight gives, for each one, the result of intersecting it alone, and a line of sight that misses the terrain is reported as NaN coordinates.", "quantifier": "any number of lines of sight, any mixture of hits and misses", "why_tests_cant": "all mixtures of outcomes in a batch", "anchors": ["shareloc/geofunctions/dtm_intersection.py:DTMIntersection.intersection_n_los_dtm", "shareloc/bindings/dtm_intersection.cpp:DTMIntersection::intersection_n_los_dtm"]}
{"id": "C19", "title": "RPC polynomial is the RPC00B cubic, in Python and in C++", "statement": "The evaluated polynomial is the sum of the 20 coefficients times the 20 distinct monomials of total degree at most 3 in (lon, lat, alt) in the RPC00B order, and the Python, numba and C++ evaluations agree for all inputs.", "quantifier": "all coefficient vectors and all normalised coordinates", "why_tests_cant": "a polynomial identity in 23 variables", "anchors": ["shareloc/geomodels/rpc.py:polynomial_equation", "shareloc/bindings/rpc.cpp:polynomial_equation"]}
{"id": "C20", "title": "RPC derivative polynomials are the true partial derivatives", "statement": "The hand-written derivative polynomials are the partial derivatives of the RPC polynomial with respect to longitude and to latitude, and the rational derivative returned for the inverse model is the true derivative of the computed image coordinate, scale factors included, wherever the denominators do not vanish.", "quantifier": "all coefficients, all points where the denominator is non zero", "why_tests_cant": "a wrong coefficient of a cubic monomial only slows convergence and passes tolerance tests", "anchors": ["shareloc/geomodels/rpc.py:derivative_polynomial_latitude", "shareloc/geomodels/rpc.py:derivative_polynomial_longitude", "shareloc/geomodels/rpc.py:compute_loc_inverse_derivates_numba", "shareloc/geomodels/rpc.py:RPC.compute_loc_inverse_derivates", "shareloc/bindings/rpc.cpp:derivative_polynomial_latitude", "shareloc/bindings/rpc.cpp:derivative_polynomial_longitude", "shareloc/bindings/rpc.cpp:compute_loc_inverse_derivates_optimized_unitary"]}
{"id": "C21", "title": "Inverse location is the normalised rational function, pointwise", "statement": "inverse_loc returns for every point the denormalised quotient of the numerator and denominator polynomials evaluated at the normalised coordinates; each output depends only on its own point, non finite inputs give NaN, and Python and C++ agree.", "quantifier": "all batches and all points", "why_tests_cant": "all mixtures of finite and non finite points", "anchors": ["shareloc/geomodels/rpc.py:RPC.inverse_loc", "shareloc/geomodels/rpc.py:compute_rational_function_polynomial", "shareloc/geomodels/rpc_optim.py:RPCoptim.inverse_loc", "shareloc/bindings/rpc.cpp:RPC::inverse_loc", "shareloc/bindings/rpc.cpp:compute_rational_function_polynomial_unitary"]}
{"id": "C22", "title": "Each iteration of the RPC iterative direct location is a Newton step", "statement": "Each update of the iterative direct location solves exactly the linear system given by the derivatives of the inverse model and the current residual; for an inverse model affine in lon/lat one step reaches the exact solution.", "quantifier": "all models, all current estimates with non-singular Jacobian", "why_tests_cant": "algebraic identity over infinitely many states", "anchors": ["shareloc/geomodels/rpc.py:RPC.direct_loc_inverse_iterative", "shareloc/bindings/rpc.cpp:RPC::direct_loc_inverse_iterative"]}
{"id": "C23", "title": "RPC iterative direct location is bounded and certified", "statement": "The iterative direct location performs at most the requested number of updates (10 by default), and if it stops before that number then the inverse location of the returned ground point is within 1e-6 pixel of the requested image point (rows and columns).", "quantifier": "all models, all image points and altitudes, all iteration limits", "why_tests_cant": "no sampling of models bounds the number of iterations or certifies the residual", "anchors": ["shareloc/geomodels/rpc.py:RPC.direct_loc_inverse_iterative", "shareloc/bindings/rpc.cpp:RPC::direct_loc_inverse_iterative"]}
{"id": "C24", "title": "RPC iterative direct location is independent across the points of a batch", "statement": "Direct location by inverse iteration of a batch gives for each point what it would give for the point alone: neighbours, including invalid ones, do not influence it.", "quantifier": "all batches", "why_tests_cant": "the interaction depends on the whole content of the batch", "anchors": ["shareloc/geomodels/rpc.py:RPC.direct_loc_inverse_iterative", "shareloc/bindings/rpc.cpp:RPC::direct_loc_inverse_iterative"]}
{"id": "C25", "title": "Invalid ground points are masked, valid ones untouched", "statement": "Longitude/latitude checks turn exactly the rows outside [-180,180]x[-90,90] into NaN rows and leave every other row unchanged; applying them twice is applying them once; rows with NaN inputs are filtered and their outputs are NaN.", "quantifier": "all arrays", "why_tests_cant": "arbitrary mixtures", "anchors": ["shareloc/geomodels/rpc.py:check_lonlat", "shareloc/geomodels/rpc.py:RPC.filter_coordinates", "shareloc/bindings/rpc.cpp:check_lonlat", "shareloc/geomodels/grid.py:Grid.direct_loc_dtm"]}
{"id": "C26", "title": "Line-of-sight extrema are ordered and at the requested altitudes", "statement": "los_extrema returns for each image point two ground points, the first at the maximum altitude and the second at the minimum altitude, interleaved in the order of the input points, and raises no silent fallback altitude when bounds are given.", "quantifier": "all batches of image points, all altitude bounds", "why_tests_cant": "any batch size and ordering", "anchors": ["shareloc/geomodels/rpc.py:RPC.los_extrema", "shareloc/bindings/rpc.cpp:RPC::los_extrema"]}
{"id": "C27", "title": "Direct or inverse coefficients are used or refused, never silently swapped", "statement": "direct_loc_h uses the direct rational function when direct coefficients are requested and the inverse iteration when they are not, and raises exactly when the coefficients of the requested method are absent (it never falls back on the other method); inverse_loc gives positions exactly when inverse coefficients are present.", "quantifier": "all combinations of available coefficients and options", "why_tests_cant": "every combination of optional fields", "anchors": ["shareloc/geomodels/rpc.py:RPC.direct_loc_h", "shareloc/geomodels/rpc.py:RPC.inverse_loc", "shareloc/geomodels/rpc_optim.py:RPCoptim.__init__", "shareloc/bindings/rpc.cpp:RPC::RPC"]}
{"id": "C28", "title": "Altitude arguments are broadcast or checked by size", "statement": "A single altitude is used for all the points, an altitude array of the same size is used pointwise, in every location function; other sizes are never silently truncated.", "quantifier": "all sizes of row/col/alt arrays", "why_tests_cant": "all size combinations", "anchors": ["shareloc/geomodels/rpc.py:RPC.direct_loc_h", "shareloc/geomodels/rpc.py:RPC.inverse_loc", "shareloc/geomodels/rpc_optim.py:RPCoptim", "shareloc/bindings/rpc.cpp:check_sizes"]}
{"id": "C29", "title": "Grid layers are sorted by decreasing altitude, consistently", "statement": "After loading a multi-layer grid, the altitudes are in decreasing order and each layer of longitudes and latitudes is the one recorded in the file for its altitude, whatever the order of the bands in the file.", "quantifier": "all numbers and orders of layers", "why_tests_cant": "all permutations of layers", "anchors": ["shareloc/geomodels/grid.py:Grid.load"]}
{"id": "C30", "title": "Altitude bracketing picks the enclosing layers", "statement": "The pair of layers chosen for an altitude encloses it when it is within the grid range, the two layers are adjacent, and the interpolation weight is in [0,1] and reproduces the altitude.", "quantifier": "all layer lists of any length >= 2, all altitudes", "why_tests_cant": "all altitudes including those equal to a layer", "anchors": ["shareloc/geomodels/grid.py:Grid.return_grid_index", "shareloc/geomodels/grid.py:Grid.direct_loc_h"]}
{"id": "C31", "title": "Direct location by grid is exact at grid nodes", "statement": "At a grid node (row, col, layer altitude), direct location returns exactly the stored longitude and latitude, and it is affine in altitude between two layers.", "quantifier": "all grids, all nodes, all altitudes", "why_tests_cant": "all nodes of arbitrarily sized grids", "anchors": ["shareloc/geomodels/grid.py:Grid.direct_loc_h", "shareloc/geomodels/grid.py:Grid.interpolate_grid_in_plani"]}
{"id": "C32", "title": "Grid layer projected to one altitude agrees with point location", "statement": "The grid built at a constant altitude holds at each node what direct location returns at this node and altitude.", "quantifier": "all output grid sizes, steps and altitudes", "why_tests_cant": "all nodes", "anchors": ["shareloc/geomodels/grid.py:Grid.direct_loc_grid_h", "shareloc/geomodels/rpc.py:RPC.direct_loc_grid_h"]}
{"id": "C33", "title": "Grid inverse location applies the inverse Jacobian and is bounded", "statement": "The partial-derivative inverse used by the grid inverse location is the inverse matrix of the local forward differences, the loop stops after at most 15 updates, and a converged answer maps back to the requested ground point within the announced error up to the last update.", "quantifier": "all grids and ground points", "why_tests_cant": "iteration over data-dependent steps", "anchors": ["shareloc/geomodels/grid.py:Grid.inverse_loc", "shareloc/geomodels/grid.py:Grid.inverse_partial_derivative"]}
{"id": "C34", "title": "Initial guess of grid inverse location is the least-squares fit", "statement": "The quadratic predictor solves the normal equations of the least-squares problem on the sampled grid, hence reproduces exactly any mapping that is itself quadratic in the normalised coordinates.", "quantifier": "all grids with non-singular normal matrix", "why_tests_cant": "continuous family", "anchors": ["shareloc/geomodels/grid.py:Grid.estimate_inverse_loc_predictor", "shareloc/geomodels/grid.py:Grid.inverse_loc_predictor"]}
{"id": "C35", "title": "Viewing vectors are unit vectors along the line of sight", "statement": "Each line of sight starts at the location of the pixel at the highest altitude, ends at the lowest one, and its viewing vector is the unit vector from the end to the start; identical or NaN extrema give NaN only for that row.", "quantifier": "all sets of extrema", "why_tests_cant": "continuous, degenerate rows", "anchors": ["shareloc/geomodels/los.py:LOS.fill_nan", "shareloc/geomodels/los.py:LOS.compute_los_from_extrema", "shareloc/geomodels/los.py:LOS.__init__"]}
{"id": "C36", "title": "Triangulated point minimises the sum of squared distances", "statement": "For two or more lines of sight not all parallel the triangulated point minimises the sum of the squared distances to the lines, uniquely.", "quantifier": "any number of views, all lines", "why_tests_cant": "continuous optimisation statement", "anchors": ["shareloc/geofunctions/triangulation.py:los_triangulation"]}
{"id": "C37", "title": "Triangulation is exact for meeting lines and independent of the order of views", "statement": "If all the lines of sight meet at one point, this point is returned and residues are zero; permuting the views does not change the point.", "quantifier": "any number of views, all lines", "why_tests_cant": "continuous family, all permutations", "anchors": ["shareloc/geofunctions/triangulation.py:los_triangulation", "shareloc/geofunctions/triangulation.py:distance_point_los"]}
{"id": "C38", "title": "Residues are the distances from the point to the lines", "statement": "The residue of a view is the Euclidean distance between the point and the line of sight; for two views the residues are equal.", "quantifier": "all points and unit-direction lines", "why_tests_cant": "continuous", "anchors": ["shareloc/geofunctions/triangulation.py:distance_point_los", "shareloc/geofunctions/triangulation.py:los_triangulation"]}
{"id": "C39", "title": "Invalid matches do not contaminate the others in triangulation", "statement": "A NaN line of sight yields a NaN point for that match only and each match is computed as if it were alone.", "quantifier": "all batches", "why_tests_cant": "arbitrary mixture", "anchors": ["shareloc/geofunctions/triangulation.py:los_triangulation", "shareloc/geofunctions/triangulation.py:sensor_triangulation"]}
{"id": "C40", "title": "Masked epipolar triangulation writes each result at its own match", "statement": "Each pixel of a disparity map gets the triangulation of its own match; masked-out pixels get zeros; a list of matches is triangulated in order, each as if it were alone.", "quantifier": "all masks and sizes", "why_tests_cant": "arbitrary masks", "anchors": ["shareloc/geofunctions/triangulation.py:epipolar_triangulation"]}
{"id": "C41", "title": "Disparity map is turned into matches by shifting columns only", "statement": "For every pixel of the disparity map the left point is the pixel of the ROI offset and the right point is the same row with the column shifted by the disparity.", "quantifier": "all sizes, ROIs and disparities", "why_tests_cant": "all sizes", "anchors": ["shareloc/geofunctions/triangulation.py:transform_disp_to_matches"]}
{"id": "C42", "title": "Epipolar angle is the direction of the epipolar line", "statement": "The computed angle is the angle of the direction from the start to the end of the local epipolar line in (col,row), including vertical lines and both orientations; Python and C++ agree.", "quantifier": "all start and end points", "why_tests_cant": "quadrants and degenerate cases of a continuous domain", "anchors": ["shareloc/geofunctions/rectification.py:compute_epipolar_angle", "shareloc/bindings/rectification.cpp:compute_epipolar_angle"]}
{"id": "C43", "title": "Moving along an axis advances by exactly the requested step", "statement": "Moving along the epipolar line (axis 1) or its normal (axis 0) displaces the point by exactly spacing times epi_step in a direction parallel respectively orthogonal to the epipolar direction; other axes raise ValueError.", "quantifier": "all angles, spacings, steps and points", "why_tests_cant": "continuous", "anchors": ["shareloc/geofunctions/rectification.py:moving_along_axis", "shareloc/bindings/rectification.cpp:moving_along_axis"]}
{"id": "C44", "title": "Rectification grids have the announced size and regular left steps", "statement": "The grids have the size computed from the epipolar size, and in the non-adaptive mode each left node is exactly one step away from its neighbour in the direction given by the local epipolar angle.", "quantifier": "all strip sizes, all models", "why_tests_cant": "all sizes", "anchors": ["shareloc/geofunctions/rectification.py:compute_strip_of_epipolar_grid", "shareloc/geofunctions/rectification.py:compute_stereorectification_epipolar_grids", "shareloc/bindings/rectification.cpp:compute_strip_of_epipolar_grid"]}
{"id": "C45", "title": "Adaptive epipolar step stays within the capped ratio and its buffers", "statement": "With adaptive step, the number of refined steps is bounded, the loop terminates for each node and writes stay inside the allocated strips.", "quantifier": "all terrains (sequences of ratios)", "why_tests_cant": "worst-case sequences of ratios", "anchors": ["shareloc/geofunctions/rectification.py:compute_strip_of_epipolar_grid"]}
{"id": "C46", "title": "Epipolar grid covers the whole epipolar image", "statement": "The grid extends at least over the epipolar image size in rows and columns, and the announced epipolar size is consistent with the bounding box and spacing.", "quantifier": "all image sizes, steps and margins", "why_tests_cant": "rounding on all combinations", "anchors": ["shareloc/geofunctions/rectification.py:get_epipolar_extent", "shareloc/geofunctions/rectification.py:prepare_rectification", "shareloc/geofunctions/rectification.py:compute_stereorectification_epipolar_grids"]}
{"id": "C47", "title": "Displacement grids convert back to positions", "statement": "The displacement grids plus the regular grid positions restore the computed sensor positions exactly; the rectification grid reader returns them at the nodes.", "quantifier": "all grids", "why_tests_cant": "all sizes and values", "anchors": ["shareloc/geofunctions/rectification.py:positions_to_displacement_grid", "shareloc/geofunctions/rectification.py:write_epipolar_grid", "shareloc/geofunctions/rectification_grid.py:RectificationGrid.__init__", "shareloc/geofunctions/rectification_grid.py:RectificationGrid.interpolate"]}
{"id": "C48", "title": "Mean baseline ratio is the mean over the computed points", "statement": "The returned mean baseline-to-height ratio is the average of the ratios of the computed epipolar points, so a constant ratio is reproduced exactly.", "quantifier": "all grid sizes and ratio fields, with NaN", "why_tests_cant": "weights depend on sizes and NaN counts", "anchors": ["shareloc/geofunctions/rectification.py:compute_stereorectification_epipolar_grids"]}
{"id": "C49", "title": "RPC export / import round trip preserves the inverse model", "statement": "Writing an RPC in a supported format and reading it back gives a model with the same inverse location, for every coefficient set.", "quantifier": "all RPC parameter sets", "why_tests_cant": "infinite parameter space, text format offsets", "anchors": ["shareloc/geomodels/rpc_writers.py:rpc_writer", "shareloc/geomodels/rpc_readers.py:rpc_reader", "shareloc/rpc_converter.py:convert"]}
{"id": "C50", "title": "All readers use the same pixel convention", "statement": "Offsets are converted so that the centre of the top left pixel is at (0.5, 0.5) whatever the source: DIMAP v1/v2/v3, OSSIM, GeoTIFF/RPB.", "quantifier": "all products", "why_tests_cant": "each format has its own offset", "anchors": ["shareloc/geomodels/rpc_readers.py:rpc_reader_dimap_v1", "shareloc/geomodels/rpc_readers.py:rpc_reader_dimap_v23", "shareloc/geomodels/rpc_readers.py:rpc_reader_via_rasterio", "shareloc/geomodels/rpc_readers.py:rpc_reader_ossim"]}
{"id": "C51", "title": "RPC file format dispatch is total and unambiguous", "statement": "For each file exactly one reader is used, determined by the tags found and by the DIMAP version, and an unsupported file raises ValueError.", "quantifier": "all file contents", "why_tests_cant": "all combinations of what the parsers find", "anchors": ["shareloc/geomodels/rpc_readers.py:rpc_reader", "shareloc/geomodels/rpc_readers.py:identify_dimap"]}
{"id": "C52", "title": "RPC writer respects format and override", "statement": "The writer refuses an unknown format and an existing file unless override is set, and otherwise writes exactly the requested format.", "quantifier": "all combinations of format, extension, existence and override", "why_tests_cant": "all combinations", "anchors": ["shareloc/geomodels/rpc_writers.py:rpc_writer", "shareloc/geomodels/rpc_writers.py:writer_rpc_geotiff_rpb", "shareloc/rpc_converter.py:convert"]}
{"id": "C53", "title": "Localization dispatches on altitude, DTM, default", "statement": "direct() uses the given altitude if any, else the DTM if any, else the default elevation, converting geographic coordinates to the requested EPSG; inverse() undoes it for the same altitude.", "quantifier": "all configurations and points", "why_tests_cant": "all combinations of optional arguments", "anchors": ["shareloc/geofunctions/localization.py:Localization.direct", "shareloc/geofunctions/localization.py:Localization.inverse"]}
{"id": "C54", "title": "Colocalization is inverse after direct", "statement": "coloc() maps each point of image 1 to the inverse location in image 2 of its direct location in image 1, and rejects inputs with different sizes.", "quantifier": "all models and points", "why_tests_cant": "all models", "anchors": ["shareloc/geofunctions/localization.py:coloc", "shareloc/geofunctions/rectification.py:compute_epipolar_angle"]}
{"id": "C55", "title": "Image geotransform is transparent to localization", "statement": "With using_geotransform, direct() gives for an index the result it gives without for the physical position of this index, inverse() gives the index of the physical position it gives without, and with an invertible geotransform the two undo each other when the model does.", "quantifier": "all geotransforms and points", "why_tests_cant": "continuous", "anchors": ["shareloc/geofunctions/localization.py:Localization.direct", "shareloc/geofunctions/localization.py:Localization.inverse"]}
{"id": "C56", "title": "Extent contains the localised footprint corners", "statement": "extent() returns a box containing the ground positions of the image footprint, enlarged by the margin.", "quantifier": "all images and models", "why_tests_cant": "rotated footprints", "anchors": ["shareloc/geofunctions/localization.py:Localization.extent"]}
{"id": "C57", "title": "Model registry creates the registered class", "statement": "Creating a geomodel by name uses the class last registered for that name, unknown names raise, and other registrations do not interfere.", "quantifier": "all registration histories", "why_tests_cant": "all histories", "anchors": ["shareloc/geomodels/geomodel.py:GeoModel"]}
{"id": "C58", "title": "No-data filling changes no-data cells only", "statement": "fill_nodata modifies only cells masked as no data, the strategies min/max/mean/median use the valid cells, constant uses the constant.", "quantifier": "all DTMs and masks", "why_tests_cant": "all contents", "anchors": ["shareloc/dtm_reader.py:fill_nodata", "shareloc/dtm_reader.py:dtm_reader"]}
{"id": "C59", "title": "Geoid sampling wraps the longitude", "statement": "With a geoid that covers all longitudes, the geoid height at a longitude within one turn of the geoid is the interpolated height at the longitude modulo 360, a full turn changes nothing, and the DTM altitudes are the file altitudes plus the geoid height at the centre of each cell, cell by cell.", "quantifier": "all longitudes", "why_tests_cant": "all reals, boundary longitudes", "anchors": ["shareloc/dtm_reader.py:interpolate_geoid_height", "shareloc/dtm_reader.py:dtm_reader"]}
{"id": "C60", "title": "Python and C++ DTM intersection agree", "statement": "For the same DTM and the same line of sight, the optimised C++ DTM intersection finds the same entry point and reports the same intersection as the Python one.", "quantifier": "all DTMs and lines of sight", "why_tests_cant": "the two are separate texts of several hundred lines; agreement on samples does not exclude a branch typed differently", "anchors": ["shareloc/geofunctions/dtm_intersection.py:DTMIntersection.intersection", "shareloc/bindings/dtm_intersection.cpp:DTMIntersection::intersection"]}
{"id": "C61", "title": "Lines of sight of a grid follow the direct location", "statement": "The line of sight of a pixel computed from a grid has one vertex per requested altitude, in the requested order, each at the direct location of the pixel at this altitude; for a DTM the altitudes are decreasing and their range contains the range of the DTM and of the grid.", "quantifier": "every grid, list of pixels, list of altitudes and DTM altitude range", "why_tests_cant": "ranges over all grids, all numbers of points and altitudes (repeat/tile index arithmetic)", "anchors": ["shareloc/geomodels/grid.py: compute_los, interpolate_grid_in_plani, direct_loc_dtm"]}
{"id": "C62", "title": "Direct location on a DTM returns a point of the terrain on the line of sight", "statement": "direct_loc_dtm with an RPC model returns one result per pixel, in order; each result is NaN or a point that lies on the segment between the locations of the pixel at one metre above the highest and one metre below the lowest altitude of the DTM, is inside the footprint of the DTM, has an altitude within 1e-4 m of the interpolated terrain, and has a valid longitude and latitude when the DTM is geographic.", "quantifier": "every RPC model (direct and/or inverse coefficients), DTM, transform, list of pixels including NaN, Python and C++ classes", "why_tests_cant": "the marching through cells and the root search have unbounded control flow; sampled pixels cannot exclude a wrong cell or a wrong extrapolation", "anchors": ["shareloc/geomodels/rpc.py:RPC.direct_loc_dtm", "shareloc/geomodels/rpc_optim.py:RPCoptim.direct_loc_dtm", "shareloc/bindings/rpc.cpp:RPC::direct_loc_dtm", "shareloc/geofunctions/dtm_intersection.py:DTMIntersection.intersection_n_los_dtm"]}
{"id": "C63", "title": "A pixel that sees the DTM is located, and projects back to itself", "statement": "A pixel whose line of sight is within the footprint of the DTM at its two extreme altitudes and above the terrain at the highest one is located on the terrain; on a flat terrain the result is exact; and the inverse location of the result is the pixel up to the tolerance of the iterative location and the variation of the model along the line.", "quantifier": "every RPC model, DTM, pixel and iteration budget large enough", "why_tests_cant": "completeness of a search over all terrains, and composition of two iterative algorithms, for all inputs", "anchors": ["shareloc/geomodels/rpc.py:RPC.direct_loc_dtm, inverse_loc", "shareloc/geomodels/rpc_optim.py", "shareloc/geofunctions/dtm_intersection.py"]}
{"id": "C64", "title": "Pixels do not disturb each other in direct location on a DTM", "statement": "In direct_loc_dtm a pixel with a NaN coordinate, or one that cannot be located, gives NaN at its own place and changes no other result; with the C++ class the result of a pixel is that of the pixel alone.", "quantifier": "every list of pixels with NaN at any places", "why_tests_cant": "all subsets of NaN positions and all lengths", "anchors": ["shareloc/geomodels/rpc.py:RPC.direct_loc_dtm", "shareloc/geomodels/rpc_optim.py:RPCoptim.direct_loc_dtm"]}
{"id": "C65", "title": "Direct location on a DTM by a grid", "statement": "Grid.direct_loc_dtm returns one result per pixel, in order, NaN for NaN pixels, independent of the other pixels; a location returned is on the terrain to 1e-4 m, has a valid longitude and latitude when the grid is geographic and lies, in the footprint of the DTM, on the line of sight of the pixel; a pixel whose line of sight crosses the DTM is located.", "quantifier": "every grid (any number of layers, decreasing altitudes), DTM in the system of the grid, list of pixels including NaN", "why_tests_cant": "unbounded numbers of layers, cells and pixels; the polyline and the DTM range can be in any relative position", "anchors": ["shareloc/geomodels/grid.py:Grid.direct_loc_dtm", "shareloc/geofunctions/dtm_intersection.py:DTMIntersection.intersection_n_los_dtm"]}
{"id": "C66", "title": "Location on a DTM agrees with location at the altitude found", "statement": "For a grid, if direct_loc_dtm returns (lon, lat, alt) for a pixel then direct_loc_h of the same pixel at the altitude alt returns (lon, lat, alt).", "quantifier": "every grid, DTM and pixel", "why_tests_cant": "relates two different algorithms (ray marching and layer interpolation) on all inputs", "anchors": ["shareloc/geomodels/grid.py:Grid.direct_loc_dtm, direct_loc_h"]}
{"id": "C67", "title": "Lines of sight cover the altitudes of a DTM in another system", "statement": "When the DTM and the model are in different coordinate systems, the lines of sight intersected with the DTM are computed between altitudes that contain every altitude of the terrain expressed in the system of the model.", "quantifier": "every DTM, pair of systems and conversion", "why_tests_cant": "depends on the conversion at all the points of the footprint while the code samples four", "anchors": ["shareloc/geomodels/geomodel_template.py:get_dtm_alt_offset", "shareloc/geomodels/rpc.py:RPC.direct_loc_dtm"]}
{"id": "C68", "title": "Python and C++ strips of epipolar grids agree", "statement": "For the same models, starting points, given angles, spacing, axis, size and step, compute_strip_of_epipolar_grid of the C++ bindings returns arrays of the same shape as the Python function, with the same left and right positions and the same angle at every node, the same mean baseline ratio and the same count of NaN; it never accesses memory out of its arrays; and it does not modify the arrays of the caller.", "quantifier": "every pair of models (total or throwing), number of starting points, strip size, axis, step, spacing and elevation offset", "why_tests_cant": "index arithmetic over arbitrary sizes and a different order of evaluation (point after point instead of layer after layer)", "anchors": ["shareloc/bindings/rectification.cpp:compute_strip_of_epipolar_grid", "shareloc/geofunctions/rectification.py:compute_strip_of_epipolar_grid", "shareloc/bindings/localization.cpp:coloc"]}
{"id": "C69", "title": "The epipolar grids are what the two models say, end to end", "statement": "compute_stereorectification_epipolar_grids without adaptive step (C77 for the adaptive one), for two models that locate each point by itself, a positive step and spacing and a margin that is not negative, succeeds as soon as the epipolar direction at the origin of the left image is defined; the grids have the announced size; the first left node is the starting point; each left node is one step across (down the first column) or along (in each row) the local epipolar line from the previous one; every right node is the position in the right image of the ground point of the left node at the elevation given by the user; displacement grids are these positions minus the position of the node in the regular grid. For models that raise on some points the same holds whenever the function returns.", "quantifier": "every pair of pointwise models, elevation (none, altitude, DTM), image, step, spacing, elevation offset, margin, with or without adaptive step", "why_tests_cant": "composition of preparation, two strips, colocalisations and output for arbitrary models and sizes", "anchors": ["shareloc/geofunctions/rectification.py:compute_stereorectification_epipolar_grids", "shareloc/geofunctions/rectification.py:init_inputs_rectification", "shareloc/geofunctions/localization.py:coloc"]}
{"id": "C70", "title": "Homologous points are on the same row of the epipolar images", "statement": "For two affine sensors with different viewing directions, whatever the elevation (none, one altitude, any DTM), the left nodes form a regular grid of step epi_step * spacing along two orthogonal directions, the right nodes of a row are on one line, and a ground point of any altitude whose left image is on the line of a row has its right image on the right line of the same row.", "quantifier": "every pair of affine sensors with distinct viewing directions, every image, elevation, step, offset, margin, and every altitude of the observed point", "why_tests_cant": "a statement on all ground points of all altitudes and all pairs of sensors", "anchors": ["shareloc/geofunctions/rectification.py:compute_stereorectification_epipolar_grids", "shareloc/geofunctions/rectification.py:compute_local_epipolar_line"]}
{"id": "C71", "title": "Ground sampling distance of the epipolar grid", "statement": "compute_epipolar_gsd returns the distances on the ground, in the geocentric frame and at the altitude of the point, of one step of length epi_step * spacing across and along the local epipolar direction; with square pixels both are the ground size of a pixel times epi_step * spacing whatever the direction.", "quantifier": "every pair of pointwise models, point, altitude, step, spacing and epipolar direction", "why_tests_cant": "holds for every direction and every model", "anchors": ["shareloc/geofunctions/rectification.py:compute_epipolar_gsd"]}
{"id": "C72", "title": "The epipolar extent contains the left image and the left grid", "statement": "get_epipolar_extent returns the smallest box (latitudes first) that contains the ground positions at altitude 0 of the four corners of the grid, widened by the additional margin; for affine sensors it contains the ground positions at altitude 0 of every pixel of the left image and of every node of the left grid.", "quantifier": "every pair of models, image, elevation, step, offset, margins", "why_tests_cant": "a covering statement over all pixels and nodes of grids of any size", "anchors": ["shareloc/geofunctions/rectification.py:get_epipolar_extent", "shareloc/geofunctions/rectification.py:prepare_rectification"]}
{"id": "C73", "title": "RPC models through Localization and coloc, end to end", "statement": "With an RPC model (Python or C++), Localization.direct at an altitude followed by Localization.inverse finds each pixel of a batch back within a millionth of a pixel, in any output system; coloc between two RPCs at a constant elevation sends each pixel to the image in the second model of a ground point at this elevation that the first model sees at the pixel; with a DTM each located row is NaN or a point of the line of sight on the terrain, and its image is the pixel; NaN pixels give NaN; without image, extent is the box of the pixels offset minus scale and offset plus scale.", "quantifier": "every RPC, batch with or without NaN, altitude(s), DTM, output system whose conversions undo each other", "why_tests_cant": "composition of the iterative location, the rational functions, masking and conversions over all models and batches", "anchors": ["shareloc/geofunctions/localization.py:Localization.direct", "shareloc/geofunctions/localization.py:Localization.inverse", "shareloc/geofunctions/localization.py:coloc", "shareloc/geomodels/rpc.py:RPC", "shareloc/geomodels/rpc_optim.py:RPCoptim"]}
{"id": "C74", "title": "Multilayer grids through Localization, direct_loc_grid_dtm and grid.coloc", "statement": "A grid used through `Localization`: the extent without an image is the box of the two corner nodes seen at altitude 0 enlarged by the margin; `direct` on a DTM of the same coordinate system returns, for each pixel, NaN (always when a coordinate is NaN), or zeros, or a point within 1e-4 of the DTM surface which is also what `direct` returns at that altitude; with a DTM of another system it raises. `direct_loc_grid_dtm` gives at each node the intersection of the DTM with the polyline of the grid's own layers, so it agrees with `direct_loc_dtm` when the layers enclose the DTM, and may be NaN otherwise. `get_alt_min_max` returns the extreme layer altitudes. `grid.coloc` gives at each node what `coloc` gives for that pixel. `inverse_loc` returns NaN for any point that is not a longitude and latitude, even for projected grids.", "quantifier": "all grids, DTMs, altitudes, margins, pixel lists, node grids, converters and predictors", "why_tests_cant": "Tests use one grid and one DTM whose altitudes the layers enclose; the claims range over every grid, DTM and list.", "anchors": ["shareloc/geomodels/grid.py:Grid.direct_loc_grid_dtm", "shareloc/geomodels/grid.py:Grid.get_alt_min_max", "shareloc/geomodels/grid.py:Grid.inverse_loc", "shareloc/geomodels/grid.py:coloc", "shareloc/geofunctions/localization.py:Localization"]}
{"id": "C75", "title": "Grid inverse location converges and round trips on a nearly regular grid", "statement": "On a grid whose cells are nearly regular (at the requested altitude, neighbouring increments differ by at most eps from a fixed invertible step matrix, with delta = q(1+2 rho) eps <= 1/3 where q bounds the inverse of that matrix), if the true image position and its rho-neighbourhood (in grid steps) are covered by the grid and the global predictor starts within rho steps of it, inverse_loc returns a finite position; every turn of the loop multiplies the distance in steps to the true position by at most 2 delta/(1-delta), so after nbiterations turns, or on an early stop, the returned position is at most max((2 delta/(1-delta))^nb rho, a bound proportional to the stopping threshold) steps from the true one; through Localization, direct_loc at an altitude followed by inverse_loc returns the original pixel within that distance. On a nearly affine grid (irregularity below a sixth of the step), no other position of the grid sees the same ground point, the error announced by the loop bounds the distance of the answer to the position, and the number of turns is at most one more than the first j for which the threshold is above the error bound at distance rate^j times that of the prediction.", "quantifier": "for every grid, altitude, pixel, predictor, iteration count and threshold satisfying the stated regularity", "why_tests_cant": "Convergence of a Newton-like loop must hold for every grid content and every pixel, tests sample a few points of one grid.", "anchors": ["shareloc/geomodels/grid.py: Grid.inverse_loc, Grid.inverse_partial_derivative, Grid.inverse_loc_predictor", "shareloc/localization.py: Localization.inverse"]}
{"id": "C76", "title": "The inverse coefficients of an RPC give a direct location that converges to the only ground point", "statement": "On a rectangle of longitudes and latitudes where, at the given altitude, the image of the ground by the inverse rational functions of an RPC is nearly affine (its four partial derivatives differ from those of an invertible affine map by at most eps, with norm of the inverse times eps below one third), both implementations of direct_loc_h started at the scene centre stop before the limit of ten iterations without NaN, agree with each other, and return a longitude and latitude at most norm-of-the-inverse * 1e-6 / (1 - delta) from the ground point imaged on the pixel; different ground points have different images; every pixel near enough to the image of the scene centre has exactly one ground point and is located there; Localization.inverse followed by Localization.direct at the same altitude gives back every ground point up to that distance.", "quantifier": "for every RPC over the reals, altitude, rectangle, nominal matrix and eps satisfying the condition, every ground point or pixel within reach, every batch of them", "why_tests_cant": "convergence within ten iterations and uniqueness of the ground point are statements about a continuum of models and points; a test follows a few pixels of a few products", "anchors": ["shareloc/geomodels/rpc.py: RPC.direct_loc_inverse_iterative, RPC.direct_loc_h, RPC.inverse_loc", "shareloc/bindings/rpc.cpp: RPC::direct_loc_inverse_iterative, RPC::direct_loc_h, RPC::inverse_loc", "shareloc/geofunctions/localization.py: Localization.direct, Localization.inverse"]}
{"id": "C77", "title": "The epipolar grids with the adaptive step are the adaptive walk from the starting point and cover the announced size", "statement": "When compute_stereorectification_epipolar_grids is called with adaptative_step and returns, the nodes of the left grid are the successive adaptive steps from the starting point of the preparation, first across the epipolar lines and then along them: each step goes the fraction 1/ratio of the way of a full step, the ratio being computed from the altitudes of the ground under the position and under the full step, with as reference the ground distance of one full step across for the first column and along for the rows; the right node goes the same fraction of the way to the correspondent of the full step. The first column and every row cover at least the size announced by the preparation, no layer is added when all of them already do, k steps cover at most k requested steps and exactly k on flat ground, and the size of the rectified image returned is the one of the grids. Where the ground is flat the adaptive grids are the plain ones, node by node.", "quantifier": "for every pair of geometric models that locate each point by itself, elevation, image, step, elevation offset, margin, scale and maximal ratio for which the function returns", "why_tests_cant": "the number of nodes and the position of each of them depend on the whole terrain under the walk", "anchors": ["shareloc/geofunctions/rectification.py: compute_stereorectification_epipolar_grids, compute_strip_of_epipolar_grid, compute_epipolar_gsd, positions_to_displacement_grid"]}
{"id": "C78", "title": "A regular grid located back with its own predictor gives the same pixel", "statement": "For a location grid whose nodes sample parallel rays (an invertible affine map of (row, col) at altitude 0 plus alt times a fixed slope), the predictor that Localization has the grid estimate for itself (3 x 3 nodes at the highest and lowest altitudes) exists and predicts exactly the row and column of every ground position at every altitude, in or out of the grid; hence Localization.direct at any altitude followed by Localization.inverse returns exactly the same pixels, NaN for NaN pixels, whatever the output system.", "quantifier": "all grid sizes, steps, altitudes, affine views and slopes, all batches of pixels whose ground positions are in range", "why_tests_cant": "exactness over a continuous family of grids, of altitudes and of pixels; tests compare a few points of one grid", "anchors": ["shareloc/geomodels/grid.py:Grid.estimate_inverse_loc_predictor", "shareloc/geomodels/grid.py:Grid.interpolate_grid_in_altitude", "shareloc/geomodels/grid.py:Grid.inverse_loc_predictor", "shareloc/geomodels/grid.py:Grid.inverse_loc", "shareloc/geofunctions/localization.py:Localization.inverse"]}
{"id": "C79", "title": "RPC and RPCoptim loaded from the same product are the same model", "statement": "RPCoptim can be constructed exactly from the parameters that contain at least one complete set of coefficients (four lists of 20 whose first is not null) and no incomplete or null one; it then has the same coefficients, offsets and scales as RPC built from them. Loading a product as RPCoptim gives the model that RPC loads from it, fails with the same reader error, and succeeds whenever the parameters are usable; inverse_loc then gives the same rows for every batch on which no denominator vanishes.", "quantifier": "all parameter sets, file systems, products and batches of points", "why_tests_cant": "tests compare the two classes on a handful of products, all complete; the claim is about every product and every parameter set", "anchors": ["shareloc/geomodels/rpc_optim.py:RPCoptim.__init__", "shareloc/geomodels/rpc_optim.py:RPCoptim.load", "shareloc/geomodels/rpc.py:RPC.__init__", "shareloc/geomodels/rpc.py:RPC.load", "shareloc/bindings/rpc.cpp:RPC::RPC"]}
{"id": "C80", "title": "The C++ colocation is the Python one wherever the latter locates", "statement": "For two RPCs of the optimised class and a DTM in EPSG 4326 or an altitude: when shareloc.geofunctions.localization.coloc returns, it has one row per pixel, every located row (row, col, alt) and its ground position are those of the scalar bindings_cpp.coloc and direct_loc for that pixel, and every pixel whose C++ ground position has a valid longitude and latitude has these positions in Python; the vector overloads of bindings_cpp.coloc are the scalar one pixel by pixel when they return, and they return when the scalar one locates every pixel.", "quantifier": "all pairs of RPCs with inverse coefficients, all DTMs, altitudes and batches of pixels, NaN included", "why_tests_cant": "tests compare three points of one pair; agreement concerns every model, batch and NaN pattern", "anchors": ["shareloc/bindings/localization.cpp:coloc", "shareloc/geofunctions/localization.py:coloc", "shareloc/bindings/rpc.cpp:RPC::direct_loc_dtm", "shareloc/bindings/rpc.cpp:RPC::inverse_loc"]}
{"id": "C81", "title": "Loading a direct location grid file", "statement": "A GeoTIFF grid in the documented format (two bands per altitude layer, or three with a status band, ALTITUDE_Bx tags, a REF=EPSG:n tag, or a REF tag without EPSG code, which stands for n = 4326) with at least two layers, rows and columns and distinct altitudes is loaded whatever the order of its layers and tags and the namespaces of the tags: the coordinate system is n, and direct_loc_h at the node (i, j) and at the altitude of a layer returns the longitude and latitude stored for it in the bands of that layer (NaN if they are not valid in a geographic grid); two files with the same layers in different orders locate every pixel at every altitude in the same way. A file with another driver, or with an altitude tag which is not a number or is for a band that does not exist, is refused.", "quantifier": "all grid files: number of layers, order of layers and tags, namespaces, presence of status bands, sizes, geotransforms, altitudes and contents", "why_tests_cant": "Tests load a few files written by one tool with layers by increasing altitude; the statement is about every order of layers and tags and every content.", "anchors": ["shareloc/geomodels/grid.py:Grid.read", "shareloc/geomodels/grid.py:Grid.parse_metadata_alti", "shareloc/geomodels/grid.py:Grid.check_status_band", "shareloc/geomodels/grid.py:Grid.direct_loc_h", "shareloc/image.py:Image"]}
{"id": "C82", "title": "Rounding of the rational functions, in any order of evaluation", "statement": "In floating point, the image position inverse_loc returns for a ground point (and the ground position direct_loc_h computes with direct coefficients) differs from the exact value of the RPC00B quotient by at most 64 k^2 u |scale| + u |offset|, where u is the unit roundoff and k bounds the sums of absolute values of the terms of numerator and denominator relatively to the denominator; for double precision, k = 10 and scales and offsets of at most 100000 pixels that is 1e-7 pixel. This holds whatever order of evaluation, factorisation, fused operation or reciprocal the compilers choose (numba compiles with fastmath), so RPC and RPCoptim agree to twice the bound.", "quantifier": "all models, all ground points where the model is conditioned by k, all roundings of each operation within the unit roundoff, all orders of evaluation reached by commutation, reassociation, expansion and factoring, both implementations", "why_tests_cant": "A test observes one compiled version on a few points and compares with a tolerance chosen by hand; the order of operations depends on the compiler, the machine and the batch size.", "anchors": ["shareloc/geomodels/rpc.py:polynomial_equation", "shareloc/geomodels/rpc.py:compute_rational_function_polynomial", "shareloc/geomodels/rpc.py:RPC.inverse_loc", "shareloc/bindings/rpc.cpp:polynomial_equation", "shareloc/bindings/rpc.cpp:compute_rational_function_polynomial_unitary"]}
{"id": "C83", "title": "Residual of the iterative direct location in floating point", "statement": "When the floating point iteration of direct_loc_h for a point stops before its last turn, the exact image of the ground point returned is within eps/(1-u) plus the rounding bound of C82 of the requested pixel, whatever the moves made on the way; in double precision with the conditions of C82, locating that ground point back by inverse_loc of either implementation gives the pixel to 1.3e-6 pixel.", "quantifier": "all models, pixels, altitudes, numbers of turns, sequences of moves and roundings", "why_tests_cant": "The guarantee concerns the residual actually reached under rounding for every model and every order of evaluation.", "anchors": ["shareloc/geomodels/rpc.py:RPC.direct_loc_inverse_iterative", "shareloc/bindings/rpc.cpp:RPC::direct_loc_inverse_iterative", "shareloc/geomodels/rpc.py:RPC.inverse_loc"]}
{"id": "C84", "title": "Rounding of the DTM interpolation and of the index conversions", "statement": "In floating point, the altitude interpolated inside a DTM is within 9((1+u)^12-1)H of the exact bilinear interpolation, H bounding the surrounding altitudes (2e-10 m in double precision below 10000 m), in any order of evaluation; for a raster without rotation the index of the ground position of an index is that index to 1e-7 pixel in double precision when the index is below a million pixels and the origin below ten million pixels. For a rotated raster whose terms are at most s and whose determinant is at least s^2/2 (a rotation has s^2), with the origin below ten million s, it is that index to 2e-7 pixel; in general the error is bounded by the rounding of the determinant and the magnitudes of the products. At a node of the raster the stored altitude is returned exactly (in the order of evaluation of the source).", "quantifier": "all rasters, positions inside, transforms without rotation, roundings of each operation, orders of evaluation of the formula", "why_tests_cant": "Tests check a few positions with tolerances; the bound is for every raster and every rounding.", "anchors": ["shareloc/math_utils.py:interpol_bilin", "shareloc/bindings/dtm_intersection.cpp:interpolate", "shareloc/proj_utils.py:transform_index_to_physical_point", "shareloc/proj_utils.py:transform_physical_point_to_index", "shareloc/bindings/dtm_intersection.cpp:ter_to_index"]}
{"id": "C85", "title": "The parallel loops do not depend on the schedule", "statement": "With the default SHARELOC_NUMBA_PARALLEL=True, inverse_loc and the derivatives used by the iterative location are computed by several threads sharing the output arrays; whatever the number of threads, the points each one handles and the interleaving of their assignments, the result is the one of the sequential loop: the row of each point, in the order of the inputs.", "quantifier": "all models, batches, numbers of threads, dealings of the iterations to the threads, interleavings of the assignments", "why_tests_cant": "A test runs a handful of schedules on one machine; races show up on others.", "anchors": ["shareloc/geomodels/rpc.py:compute_rational_function_polynomial", "shareloc/geomodels/rpc.py:compute_loc_inverse_derivates_numba", "shareloc/geomodels/rpc.py:RPC.inverse_loc"]}
{"id": "C86", "title": "An interrupted export never leaves a third model", "statement": "When an RPC export to a text file (formats geotiff_rpb, rpb and json of rpc_writer) is interrupted at any moment, whatever the number of characters already on the disk, the target file either has no readable model or has exactly the exported one: reading the image afterwards gives the model it had before the export, or what it gives without .RPB file, or the exported model, and no other file is changed. (The export is not atomic: the model that the file had before can be lost, which is proved too.)", "quantifier": "every model, every path, every set of files, every number of characters written before the interruption, every printing of the numbers that float reads back", "why_tests_cant": "a test interrupts the writer at a few chosen points; the claim is about every truncation of every file, including those that cut a number so that a shorter number remains", "anchors": ["shareloc/geomodels/rpc_writers.py: write_rio_rpc_as_rpb, write_rio_rpc_as_json, geotiff_rpc_updater, rpc_writer", "shareloc/geomodels/rpc_readers.py: rpc_reader"]}
{"id": "C87", "title": "Content of the JSON export", "statement": "The file written by rpc_writer with the format json is a JSON object whose members are exactly the 14 parameters of the rasterio convention (offsets, scales and the four lists of coefficients, offsets of the first pixel centre removed), each with its own value; the object is determined by the characters of the file, so that two models with the same file are the same inverse model.", "quantifier": "every model, every length of the lists of coefficients including empty ones, every printing of finite numbers that float reads back", "why_tests_cant": "a test compares the files of a few models", "anchors": ["shareloc/geomodels/rpc_writers.py: write_rio_rpc_as_json, rpc_dict_to_rio_rpcs, rpc_writer"]}
{"id": "C88", "title": "Answers of a grid do not depend on the history but by the estimate of the predictor", "statement": "On a grid and on any number of Localization objects that share it, after any sequence of calls: every call gets the answer of a grid just loaded on which the last explicit estimate_inverse_loc_predictor that did not raise is the only earlier call. If there is none, every call other than Grid.inverse_loc gets the answer of a grid just loaded, Localization.inverse using the default 3 by 3 estimate (or raising what it raises). Direct locations, extents and estimates never depend on the history. Grid.inverse_loc raises TypeError on every array with a point to look for until an estimate is made, explicitly or by some Localization.inverse.", "quantifier": "every grid, every finite history of calls (estimates of any sizes, direct and inverse locations, extents, by the grid or by any Localization), every later call", "why_tests_cant": "a test runs one order of calls; the claim ranges over all histories and all objects sharing the grid", "anchors": ["shareloc/geomodels/grid.py:Grid.__init__", "shareloc/geomodels/grid.py:Grid.estimate_inverse_loc_predictor", "shareloc/geomodels/grid.py:Grid.inverse_loc_predictor", "shareloc/geomodels/grid.py:Grid.inverse_loc", "shareloc/geofunctions/localization.py:Localization.inverse"]}
{"id": "C89", "title": "Threads that share a grid", "statement": "Threads call Localization.inverse on the same grid, their loads and stores of the attributes of the grid interleaving in any way. Every call that returns made, for each of its points, the prediction that a sequential call makes. If the predictor was estimated before the threads start, no schedule makes a call raise; nor does a thread alone. If it was not, a thread that calls while another one makes the first estimate can raise TypeError.", "quantifier": "every number of threads, every number of points of each, every schedule, every state of the grid in which each attribute is None or what the estimate stores", "why_tests_cant": "the outcome depends on the schedule; a test sees a few of them", "anchors": ["shareloc/geofunctions/localization.py:Localization.inverse", "shareloc/geomodels/grid.py:Grid.estimate_inverse_loc_predictor", "shareloc/geomodels/grid.py:Grid.inverse_loc_predictor"]}
{"id": "C90", "title": "Conversion of coordinates point by point", "statement": "coordinates_conversion of an array of N points gives N rows, each of them the conversion of the corresponding point given alone, as an array of one row or as a vector; points of three coordinates are converted with their altitude, others by their first two coordinates. No result is infinite: what the library cannot convert is NaN. It raises exactly on vectors that are not points of two or three coordinates and on arrays of fewer than two columns.", "quantifier": "every array of every number of points and columns, every conversion of single points by the library", "why_tests_cant": "all arrays, all coordinate systems", "anchors": ["shareloc/proj_utils.py:coordinates_conversion"]}
{"id": "C91", "title": "Altitude of the intersection with the terrain in floating point", "statement": "When the intersection of a line of sight with a DTM succeeds, the altitude it returns is the altitude of the DTM at the ground position it returns, up to the tolerance of 0.0001 m and the roundings: in double precision, for a DTM without rotation of at most a million rows and columns whose origin is at most ten million pixels away, with altitudes of at most 10000 m and steps of at most 1000 m between neighbouring nodes, the difference is at most 0.00015 m.", "quantifier": "every DTM, every returned point inside the footprint of the pixel centres, every bracket and number of turns of the root search, every rounding of each operation (relative error at most u), Python and C++", "why_tests_cant": "a test checks the altitude of a few points against a tolerance; rounding errors depend on every coordinate, on the number of turns and on the origin of the raster", "anchors": ["shareloc/geofunctions/dtm_intersection.py:DTMIntersection.intersection", "shareloc/geofunctions/dtm_intersection.py:DTMIntersection.index_to_ter", "shareloc/bindings/dtm_intersection.cpp:DTMIntersection::intersection"]}
{"id": "C92", "title": "Regular grids have the requested nodes in floating point", "statement": "In double precision, when origin, step and nodes are whole numbers, halves, quarters... (multiples of one power of two of at most 52 bits), RectificationGrid reads a grid with exactly one node per pixel at its exact position (so every displacement grid that the library writes with a whole step is readable, positions right to one rounding), a Grid builds its interpolator on exactly its rows and columns, direct_loc_grid_h returns the grid of exact nodes and the default predictor estimate samples exactly its 3 by 3 nodes. For any other step there are as many nodes as asked or one more, never less; with one more, the call raises (ValueError) instead of answering wrongly; this does happen (step 0.1 with 3 nodes, predictor of 6 by 6 nodes on 28 by 28).", "quantifier": "all origins, steps, numbers of nodes, files, and all rounding modes that keep numbers of 53 bits", "why_tests_cant": "The number of nodes depends on the last bit of three roundings for each step and size; a test tries some steps, and the usual whole ones always work.", "anchors": ["shareloc/geofunctions/rectification_grid.py:RectificationGrid.__init__", "shareloc/geomodels/grid.py:Grid.__init__", "shareloc/geomodels/grid.py:Grid.direct_loc_grid_h", "shareloc/geomodels/grid.py:Grid.interpolate_grid_in_altitude"]}
{"id": "C93", "title": "Which arrays of the caller are modified", "statement": "positions_to_displacement_grid returns the two arrays it is given, overwritten: every node becomes its position minus the position of the node, altitudes and all other arrays are unchanged; calling it again, or giving the same array as left and right grid, subtracts again. interpolate_geoid_height overwrites the longitudes of the positions it is given, by at most one turn, whether it returns or raises, and changes nothing else; with a geoid covering all longitudes whose first column is between longitudes -180 and 0, and longitudes of one turn on either side of it, calling it again any number of times with the same array gives the same result; further away it does not (NaN first, a height the second time). check_lonlat returns the array it is given, overwritten: the invalid rows become NaN and nothing else changes.", "quantifier": "all memories, references (equal or different), array contents, geoid files, steps and numbers of successive calls", "why_tests_cant": "A test looks at the returned arrays of one call; the effect on the arrays of the caller shows in later calls, for particular longitudes, or when two arguments are the same array.", "anchors": ["shareloc/geofunctions/rectification.py:positions_to_displacement_grid", "shareloc/dtm_reader.py:interpolate_geoid_height", "shareloc/geomodels/geomodel_template.py:check_lonlat"]}
{"id": "C94", "title": "Error of the triangulation", "statement": "When sensor_triangulation or epipolar_triangulation returns, the error of a point is bounded by the errors of its two lines of sight: if a point P is at squared distance at most e of the straight line through the locations of the left pixel at the two extreme altitudes, and at most e' of the one of the right pixel, then the point returned p satisfies (1 - |cos|) |p - P|^2 <= e + e', where cos is the cosine of the angle between the two lines, its residue r satisfies 2 r^2 <= e + e', and p = P with a null residue when e + e' <= 0, whatever the other matches, masks and pixels. With any number of lines the same bound holds for every pair of lines, with the sum of all the squared distances.", "quantifier": "all models, conversions to and from geocentric coordinates, matches, disparity maps, masks, rectification grids, altitude ranges and points P", "why_tests_cant": "Tests compare points triangulated from a few exact matches with a reference; how an error of matching or of the models is amplified depends on the angle between the lines, for every configuration.", "anchors": ["shareloc/geofunctions/triangulation.py:sensor_triangulation", "shareloc/geofunctions/triangulation.py:epipolar_triangulation", "shareloc/geofunctions/triangulation.py:n_view_triangulation", "shareloc/geofunctions/triangulation.py:distance_point_los", "shareloc/geomodels/los.py:LOS.los_creation"]}
{"id": "C95", "title": "A null disparity is the elevation of the rectification", "statement": "Displacement grids computed from two models and an elevation, written to files and read back, and a disparity map whose disparity at the epipolar position of a node is 0: when epipolar_triangulation returns, the point of this pixel is the ground point of the left node on the elevation, with a null residue, if this point is on the straight lines of sight of the left node and of its right position, and within the bound of C94 of it otherwise. For two affine sensors with different viewing directions, in any affine geocentric frame and with any elevation, no step of the chain raises, whatever the disparities, and the point is exactly the ground point.", "quantifier": "all pairs of models in WGS84, elevations (none, one altitude, DTM), left images, steps, margins, nodes, disparity maps without NaN, masks and altitude ranges", "why_tests_cant": "The end-to-end tests compare a few points of one pair of images with stored results; a row/column or left/right exchange that cancels on that data, or a shift of the grids by half a pixel, goes unnoticed.", "anchors": ["shareloc/geofunctions/rectification.py:compute_stereorectification_epipolar_grids", "shareloc/geofunctions/rectification.py:write_epipolar_grid", "shareloc/geofunctions/rectification_grid.py:RectificationGrid.interpolate", "shareloc/geofunctions/triangulation.py:epipolar_triangulation", "shareloc/geomodels/los.py:LOS.los_creation"]}
{"id": "C96", "title": "Altitudes are the elevation minus the disparity divided by the baseline ratio", "statement": "For two affine sensors with different viewing directions and a constant elevation z0, at every pixel of any disparity map (at the nodes of the grids, between them or outside) the altitude of the triangulated point is z0 - disparity * spacing / k, where k is the displacement in the left image, per unit of altitude, of the points seen by a right pixel, its ground position is the one the left pixel sees at that altitude, and the residue is null. The mean baseline ratio returned with the grids is k (1 + (rows - cols) / (rows cols)), hence k for square grids.", "quantifier": "all affine sensors with different viewing directions, constant elevations, left images, steps, elevation offsets, margins, disparity maps without NaN, masks and altitude ranges", "why_tests_cant": "It is the relation every user of the disparity maps relies on to convert disparities to heights; it involves all the steps of the chain, its sign and scale must be right for all the orientations of the images.", "anchors": ["shareloc/geofunctions/rectification.py:compute_stereorectification_epipolar_grids", "shareloc/geofunctions/rectification.py:compute_strip_of_epipolar_grid", "shareloc/geofunctions/rectification_grid.py:RectificationGrid.interpolate", "shareloc/geofunctions/triangulation.py:epipolar_triangulation"]}
{"id": "C97", "title": "Triangulation of the pixels that see a point, with curved lines of sight", "statement": "When sensor_triangulation or epipolar_triangulation returns and the two pixels of a match see a ground point P (direct_loc_h gives P, up to distances d and d', at some altitudes z and z'), the point p triangulated satisfies (1 - |cos|) |p - P|^2 <= (d + M |z - zmin| |z - zmax| / 2)^2 + (d' + M' |z' - z'min| |z' - z'max| / 2)^2, and its residue r satisfies 2 r^2 <= the same bound, where zmin, zmax are the extreme altitudes used, M bounds the acceleration of the geocentric line of sight as a function of the altitude and cos is the cosine of the angle between the chords. With straight lines of sight and exact pixels p = P whatever the altitude range, also when P is outside of it.", "quantifier": "all models with twice differentiable lines of sight, conversions, matches, disparity maps, masks, rectification grids, altitude ranges, points P inside or outside the altitude range", "why_tests_cant": "the bound is over all models, altitude ranges and points; a test only sees the error of its own scene", "anchors": ["shareloc/geomodels/los.py:LOS.los_creation", "shareloc/geofunctions/triangulation.py:sensor_triangulation", "shareloc/geofunctions/triangulation.py:epipolar_triangulation", "shareloc/geofunctions/triangulation.py:n_view_intersection"]}
{"id": "C98", "title": "A region of interest does not change the terrain", "statement": "A DTM opened with a region of interest, given by indices or by coordinates, has at every ground position lying between four cell centres of the region that have data the altitude the whole file gives there: the bilinear interpolation of the file values plus the geoid heights at the cell centres, whatever the filling strategy. With no filling or a constant, this holds also next to cells without data. A region by indices with two rows, two columns and a valid cell is read if the whole file is; a region of one row is refused.", "quantifier": "all DTM files, transforms (rotated ones too), regions, geoids, filling strategies and ground positions", "why_tests_cant": "The claim ranges over every file, every window and every position; tests compare a few regions of one file.", "anchors": ["shareloc/image.py: Image.__init__", "shareloc/dtm_reader.py: dtm_reader.__init__", "shareloc/geofunctions/dtm_intersection.py: DTMIntersection.interpolate, ter_to_index"]}
{"id": "C99", "title": "From the files to the located points", "statement": "With an elevation read from a DTM file (with or without geoid, region of interest and filling of no-data cells), every point returned by direct location without altitude has, where the files define the terrain, the altitude of the files (DTM value plus geoid height, interpolated) within a tenth of a millimetre; for Python RPC, C++ RPC and grids.", "quantifier": "all DTM and geoid files, regions, strategies, models and batches of pixels", "why_tests_cant": "It composes the reader, the geoid, the intersection and the dispatch for every file and every line of sight.", "anchors": ["shareloc/dtm_reader.py: dtm_reader", "shareloc/geofunctions/localization.py: Localization.direct", "shareloc/geomodels/rpc.py: RPC.direct_loc_dtm", "shareloc/geomodels/grid.py: Grid.direct_loc_dtm", "shareloc/bindings/rpc.cpp: RPC::direct_loc_dtm"]}
{"id": "C100", "title": "Locating on a DTM with cells without altitude", "statement": "A DTM may have cells without altitude (NaN: no-data cells that were not filled). With the Python implementation, one such cell anywhere in the DTM makes every line of sight give NaN: nothing is located. With the C++ implementation the cells without altitude are ignored in the altitude range of the DTM, unless it is the first cell of the DTM (then every line gives NaN or the exception raised for a segment that lies in a side of the DTM); a straight line of sight that stays more than two rows or columns away from the holes gets exactly the answer it gets when the holes are filled with any altitudes of the range of the DTM; any point located by either implementation is within the tolerance of the interpolated terrain or lies where the interpolated altitude is NaN. Without hole both implementations behave as the other properties say. A point may be located inside a hole, at an arbitrary altitude, or on the hidden side of a relief of which the visible side is a hole.", "quantifier": "every size, every set of cells without altitude, every filling of them in the altitude range, every line of sight, Python and C++", "why_tests_cant": "the effect of a hole depends on where it is with respect to every line of sight; the tests fill the no-data cells", "anchors": ["shareloc/geofunctions/dtm_intersection.py: DTMIntersection.__init__, intersect_dtm_cube, intersection, intersection_n_los_dtm", "shareloc/bindings/dtm_intersection.cpp: DTMIntersection::DTMIntersection, intersect_dtm_cube, intersection, intersection_n_los_dtm", "shareloc/dtm_reader.py: dtm_reader"]}
{"id": "C101", "title": "A grid of which some nodes have no data loses the points near them only, unless a hole is sampled by its predictor", "statement": "For a multi altitude grid with NaN longitudes or latitudes at some nodes (at least two layers of decreasing altitudes, two rows, two columns): the direct location at an altitude is NaN (at least in that coordinate) if one of the eight nodes that surround the pixel and the altitude has no data, and is otherwise exactly that of the grid with its holes filled in any way (on arrays: same errors, same number of points, each one equal or NaN); the inverse location with a given predictor is NaN or exactly that of the filled grid, never another pixel; the predictor that the grid estimates is that of the filled grid or NaN, and it is NaN as soon as one sampled position has a hole around it: with a hole at a corner of the highest or lowest layer, whatever the sampling, so that inverse_loc raises for every valid point; on a DTM, a pixel whose line of sight has data at all its altitudes is located as by the filled grid, one with a hole at each of its altitudes is not located, and for a grid of two layers these are the only two cases; with more layers, the intersection never returns (both implementations) for a line of sight that enters the DTM above a NaN vertex and is strictly above the terrain, inside the DTM, at the vertex before it.", "quantifier": "all grids with any holes, all ways of filling them, all pixels, points, altitudes, arrays, predictors, samplings, numbers of iterations, DTMs and both implementations of the intersection", "why_tests_cant": "the tests use grids without holes; the claim is about every position of the holes and every query", "anchors": ["shareloc/geomodels/grid.py:Grid.direct_loc_h", "shareloc/geomodels/grid.py:Grid.compute_los", "shareloc/geomodels/grid.py:Grid.direct_loc_dtm", "shareloc/geomodels/grid.py:Grid.estimate_inverse_loc_predictor", "shareloc/geomodels/grid.py:Grid.inverse_partial_derivative", "shareloc/geomodels/grid.py:Grid.inverse_loc"]}
{"id": "C102", "title": "Location by a grid at an altitude in floating point", "statement": "For a grid of two or more layers of decreasing altitudes, a pixel inside the grid and an altitude between its layers, direct_loc_h computed in floating point (every operation rounded, in any order of evaluation) gives the exact trilinear interpolation up to 36 ((1+w)^38 - 1) H + ((1+w)^5 - 1) n L, where H bounds the values of the nodes, L their differences between two layers, n is the number of layers and w = u/(1-u); in double precision and degrees this is less than 3e-11 degree for up to 1000 layers; the answer is NaN only for points as near as that to the meridian 180 or to a pole. At a node of the lowest layer, or of a layer whose distance to the next one is a power of two, the stored longitude and latitude are returned exactly; at a node of another layer this is not always so.", "quantifier": "all grids, pixels, altitudes, roundings with unit u, orders of evaluation of the interpolation formula", "why_tests_cant": "rounding errors depend on every value and on the order of evaluation chosen by the libraries; tests compare a few points at a tolerance", "anchors": ["shareloc/geomodels/grid.py:Grid.__init__", "shareloc/geomodels/grid.py:Grid.direct_loc_h"]}
{"id": "C103", "title": "Triangulation depends on the lines of sight only and moves with them", "statement": "The triangulated point does not depend on the points and directions that represent the lines of sight: other altitudes used to build the same lines, or reversed directions, give the same points and the same residues. If all the lines are moved by a rigid motion (change of orthonormal frame), the point is moved likewise and the residues are unchanged, and it is defined exactly when the other one is.", "quantifier": "any number of views, all lines, all rigid motions, all representations of the lines, batches with NaN rows", "why_tests_cant": "continuous groups of motions and parametrisations", "anchors": ["shareloc/geofunctions/triangulation.py:sensor_triangulation", "shareloc/geofunctions/triangulation.py:los_triangulation", "shareloc/geofunctions/triangulation.py:distance_point_los", "shareloc/geomodels/los.py:los_creation"]}
{"id": "C104", "title": "The march over the DTM cells ends whatever the rounding errors", "statement": "In the intersection of a line of sight with a DTM, the loops over the segments and over the cells end by themselves whatever the results of the arithmetic operations (rounded, or even wrong) and whatever the DTM: on a segment no cell is visited twice, so there are at most as many turns as cells. A point is reported as found only if the program's own altitude there is the point's, or differs by no more than the tolerance; in double precision, on the DTM sizes and altitudes of C91, the altitude returned by the whole intersection is that of the exact bilinear surface to 0.00015 m.", "quantifier": "all lines of sight, all DTM, all starting points, all results of additions, subtractions, products and divisions", "why_tests_cant": "rounding errors of all inputs; an infinite loop cannot be excluded by tests", "anchors": ["shareloc/geofunctions/dtm_intersection.py:intersection", "shareloc/bindings/dtm_intersection.cpp:intersection"]}
{"id": "C105", "title": "The regula falsi of the DTM intersection ends in floating point", "statement": "In double precision, on a DTM of at most 100000 rows and columns, altitudes of at most 10000 m and steps of at most 1000 m between neighbours, the loop that refines the intersection between a point of the line of sight that is not below the ground and a point at most two pixels further that is at least a nanometre below it always ends (at most 2.5e9 turns), with a finite point at most half a pixel away from the DTM. More generally, in any precision, the number of turns is at most five times the size of the bracket over the tolerance, as long as the accumulated roundings stay within the margins.", "quantifier": "all DTM within the bounds, all brackets, all roundings of each operation", "why_tests_cant": "an infinite loop due to rounding cannot be excluded by tests", "anchors": ["shareloc/geofunctions/dtm_intersection.py:intersection", "shareloc/bindings/dtm_intersection.cpp:intersection"]}
{"id": "C106", "title": "One point with a null determinant makes the grid inverse location of a batch raise", "statement": "Grid.inverse_loc on arrays of the same size raises exactly when one of the points alone makes it raise, always with the same exception; this never happens when inverse_partial_derivative is finite at the altitudes of the points, nor with at most one iteration. If the predicted position of a point is in a cell with a repeated row or column of nodes, further than the threshold from the point, then every call of at least two iterations whose arrays hold the point raises, and no other point of the arrays is answered.", "quantifier": "all grids, predictors, arrays of points and numbers of iterations", "why_tests_cant": "the exception depends on the positions visited by the iterations of every point of the batch", "anchors": ["shareloc/geomodels/grid.py:Grid.inverse_loc", "shareloc/geomodels/grid.py:Grid.inverse_partial_derivative"]}
{"id": "C107", "title": "Rounding of the triangulation", "statement": "From the two ends of the lines of sight of a match, in any number of views, the point that the triangulation computes in floating point (viewing vectors, matrix, right-hand side, inverse, product; every operation rounded, sums in any order, `numpy.linalg.inv` with a residual of at most eta) is near the point that exact arithmetic gives, which exists as soon as two of the lines are not parallel: the error in each coordinate is at most n (((1+u)^(n+23) - 1)(45 S + 9 P) + 32 eta S) / (1 - |cos|), where S and P bound the coordinates of the starting points and of the point. In double precision, for two lines at more than 8 degrees, coordinates of at most 7000 km and eta of at most 1e-13, the error is at most 5 mm. The residue of a view is the distance from the point to its line up to 3((1+u)^12 - 1) times the distance from the point to the start of the line; in double precision, under the same conditions, the residues returned are the exact ones to within 1 cm.", "quantifier": "all numbers of views, all ends of lines of sight with at least two lines that are not parallel, all roundings of each operation, all orders of the sums, all inverses within the residual", "why_tests_cant": "a test runs one rounding of a few matches; the worst case of the error over all the positions, directions and roundings, which grows with the distance to the centre of the Earth and with the inverse of the angle of the lines, cannot be sampled", "anchors": ["shareloc/geofunctions/triangulation.py:n_view_triangulation", "shareloc/geofunctions/triangulation.py:n_view_distance", "shareloc/geomodels/los.py:LOS.los_creation"]}
{"id": "C108", "title": "A physical region of interest in floating point", "statement": "With every operation rounded, for a raster without rotation and with a positive column step, a region of interest in physical coordinates that has a point in the raster is not refused; the window read lies inside the raster, contains every point of the raster in the region up to a distance eps in pixels, and exceeds the region by less than one pixel and eps on each side; eps is ((1+w)^14 - 1)(M + size), with w = u/(1-u), M the distance in pixels from the zero of the coordinates to the corners plus one. In double precision, for rasters of at most a million rows and columns at most ten million pixels away from the zero of the coordinates, eps is at most 1e-7 pixel. The tolerance cannot be dropped: there is a region in doubles whose window misses a part of it.", "quantifier": "all rasters without rotation, all regions, all roundings of each operation", "why_tests_cant": "the floor and the ceiling of a rounded index are off by a whole pixel for the regions aligned on pixels, which a test on a few regions meets by chance only", "anchors": ["shareloc/image.py:Image.__init__", "shareloc/proj_utils.py:transform_physical_point_to_index"]}
{"id": "C109", "title": "The C++ DTM intersection object stays inside its arrays and gives the intersection model's answers", "statement": "A `bindings_cpp.DTMIntersection` built on a terrain array of at least two rows and two columns reads and writes no vector outside of its bounds, neither while it is constructed nor while it intersects a line of sight of at least one vertex; its getters give back the array, its exact extreme altitudes and, for each cell, rounded bounds of its four altitudes; the point that `intersection_n_los_dtm` stores in row i of the array it returns is that of line i of the input buffer, as given by the intersection algorithm of properties C11 to C17; the call raises if and only if one of its lines fails.", "quantifier": "all terrain arrays of at least 2 x 2 values, all transforms, all batches of lines of sight of the same number (at least one) of vertices, any length of the iterations", "why_tests_cant": "an out-of-range read of a vector is undefined behaviour: it may return a plausible number, so a passing test says nothing about the positions read; the positions depend on every input", "anchors": ["shareloc/bindings/dtm_intersection.cpp: DTMIntersection::DTMIntersection, init_min_max, interpolate, intersect_dtm_cube, intersection, intersection_n_los_dtm", "shareloc/bindings/dtm_intersection.hpp: DTMIntersection"]}
{"id": "C110", "title": "Pickling of the C++ DTM object, and histories of its setters", "statement": "Unpickling the pickled state of a `bindings_cpp.DTMIntersection` gives an object with the same sixteen attributes, hence the same answers to every call, after any history of setters; `__setstate__` accepts exactly the tuples of sixteen values of the right types; a setter changes its attribute only, so that after any history each getter gives the last value stored.", "quantifier": "all objects, all histories of setter calls, all state tuples", "why_tests_cant": "the histories and the states are unbounded; a test compares the attributes of one object", "anchors": ["shareloc/bindings/bind.cpp: py::pickle of DTMIntersection", "shareloc/bindings/dtm_intersection.hpp: getters and setters"]}
{"id": "C111", "title": "Entry of a line of sight into the DTM box in floating point", "statement": "With every operation of the intersection of a line of sight with the box of the DTM rounded, the entry reported is in the closed box exactly, and within 8 units of roundoff (times the largest coordinate of the vertices) of a point of the line of sight on the plane of one of the faces; its parameter is in the segment of the line that crosses this face; a line that crosses two faces further from their edges than this error is never reported as missing the box, and a straight line's entry is late or early by no more than the errors are worth along the line.", "quantifier": "all terrains of at least 2 x 2 values, all lines of sight of any number of vertices, every choice of the rounding of each operation within the relative error u (parameter: all non-decreasing roundings that keep 53-bit numbers), both implementations", "why_tests_cant": "the rounding errors depend on every coordinate; tests compare some lines of sight with a tolerance", "anchors": ["shareloc/geofunctions/dtm_intersection.py: DTMIntersection.eq_plan, intersect_dtm_cube", "shareloc/bindings/dtm_intersection.cpp: DTMIntersection::eq_plan, intersect_dtm_cube"]}
{"id": "C112", "title": "The C++ RPC object stays inside its vectors when called through the Python class", "statement": "Calls of `RPCoptim.direct_loc_h`, `inverse_loc` and `los_extrema` never make the C++ code read or write a vector outside of its bounds, whatever the sizes of the arrays, the NaN in them, `fill_nan` and `using_direct_coef`, and what they return or raise is what the per-point location model of C20 to C28 gives; `direct_loc_dtm` with a DTM in EPSG 4326 does not either as soon as there are at least as many columns as rows. The C++ vector functions called directly leave their vectors exactly when they are given points and no altitude, or when a NaN point comes after the end of the altitudes and no earlier point ends the call.", "quantifier": "all RPC models, all arrays of any three sizes with any NaN, both values of fill_nan and using_direct_coef, any number of iterations", "why_tests_cant": "an out-of-range read of a vector is undefined behaviour that may give a plausible number; the positions read depend on the three sizes and on where the NaN are", "anchors": ["shareloc/bindings/rpc.cpp: RPC::direct_loc_h, RPC::inverse_loc, RPC::direct_loc_inverse_iterative, compute_rational_function_polynomial, check_sizes, RPC::direct_loc_dtm, RPC::los_extrema", "shareloc/geomodels/rpc_optim.py: RPCoptim.direct_loc_h, inverse_loc, direct_loc_dtm, los_extrema"]}
{"id": "C113", "title": "Steps of the rectification grids in floating point", "statement": "In floating point the angle computed for a local epipolar line is within a few units of rounding of the angle of the direction from its start to its end, for every line (nearly vertical, very short or very long ones included); each move of a rectification grid displaces the point by `epi_step * spacing` along or across that direction within a relative error of a few units plus the rounding of the position; after n moves the node is within n times that error of the exact moves, and the local baseline ratio has a relative error of a few units. In Python and in C++.", "quantifier": "all local epipolar lines with distinct ends, all spacings, steps, positions and numbers of nodes, all sensor models, all arithmetics of relative error u and libraries of error tau (u, tau at most 1/100; doubles included)", "why_tests_cant": "the slope of a nearly vertical line has an unbounded absolute error; that the angle has not, for any line, and that the errors of the moves add up linearly, cannot be seen on samples", "anchors": ["shareloc/geofunctions/rectification.py: compute_epipolar_angle, moving_along_axis, compute_strip_of_epipolar_grid", "shareloc/bindings/rectification.cpp: compute_epipolar_angle, moving_along_axis, compute_strip_of_epipolar_grid"]}
{"id": "C114", "title": "Sizes of the rectification grids in floating point", "statement": "The size of the epipolar image computed in floating point by `prepare_rectification` counts at least the pixels that fit in the exact bounding box of the rotated image reduced by a relative 8u, and at most those of the box enlarged by as much, hence is within one pixel of the exact size in each dimension; from that size the number of nodes of the grids is computed exactly for a whole step, and the nodes span the box up to that relative error.", "quantifier": "all images, pixel sizes, angles (any cosine and sine), whole steps and margins; all arithmetics of relative error u at most 1/100 that keep whole numbers (doubles included)", "why_tests_cant": "the integer part of a rounded quotient is wrong only for some sizes and pixel sizes: about one size out of ten with pixels of 0.7, none with pixels of 0.5", "anchors": ["shareloc/geofunctions/rectification.py: prepare_rectification"]}
{"id": "C115", "title": "Sizes from which the 32-bit integers of the C++ code overflow", "statement": "The C++ DTM object is built without integer overflow exactly when its array has at most 2^31 values; once built, no line of sight makes an `int` overflow and the answers are those of unbounded integers; the batch call does so for fewer than 2^31/3 lines of sight and never returns for more; and the strips of epipolar grids compute no `int` out of range exactly when the grid has fewer than 2^31/3 nodes.", "quantifier": "all arrays of at least two rows and columns whose sizes are `int`, invertible transforms, lines of sight whose vertices are less than 2^31 cells from the DTM, batches, axes, strip sizes and numbers of points", "why_tests_cant": "the first array that overflows has 2^31 values (16 GB), and an overflow is undefined behaviour that may go unnoticed", "anchors": ["shareloc/bindings/dtm_intersection.cpp: init_min_max", "shareloc/bindings/dtm_intersection.cpp: DTMIntersection::interpolate", "shareloc/bindings/dtm_intersection.cpp: DTMIntersection::intersection", "shareloc/bindings/dtm_intersection.cpp: DTMIntersection::intersection_n_los_dtm", "shareloc/bindings/rectification.cpp: compute_strip_of_epipolar_grid"]}
{"id": "C116", "title": "Certificate of the inverse location by a grid in floating point", "statement": "In floating point, when the inverse location by a grid stops before the last allowed turn, the pixel it returns, whose location it does not measure (it moves once more after the last measure), is exactly located near the requested ground point: within the accepted error (1 mm), the rounding of the location and the effect of one bounded move; in double precision, for a grid whose squared derivatives are at most kappa times the determinants of its Jacobians, at latitudes of at most 60 degrees: (1 + 15 kappa) 9.1e-9 degree in latitude, (2 + 15 kappa) 9.1e-9 degree in longitude, plus 4e-11. If moreover the grid is affine up to epsilon microradians per pixel at the altitude, the last move corrects the measured error: 2.8e-7 epsilon A / delta + 5e-11 degree (A bound of the derivatives, delta of the determinants), 5 micrometres without bending. The computed matrix is bounded even if rounding selects the neighbouring cell near a node.", "quantifier": "all grids with decreasing altitudes and non null Jacobians, ground points, altitudes between the layers, predicted positions, numbers of turns, and all arithmetics with relative error at most u, the operations of the interpolation being done in any order", "why_tests_cant": "the roundings of every turn and the cells selected near nodes are not enumerable, and a test compares to a tolerance chosen from the observed values", "anchors": ["shareloc/geomodels/grid.py: Grid.inverse_loc", "shareloc/geomodels/grid.py: Grid.inverse_partial_derivative"]}
{"id": "C117", "title": "Displacement grids and their interpolation in floating point", "statement": "In floating point, a position written in a displacement grid and read back by RectificationGrid differs from it by at most u |position| + u (1+u) |displacement|, and not always by zero; inside the grid, the interpolated positions differ from the exact bilinear interpolation of the initial positions by at most 9((1+w)^30-1) times the largest position plus that error, in any order of evaluation, w = u/(1-u): 1e-7 pixel in double precision when positions and displacements are below a million pixels. At most A cells and B cells outside, the factor 9 is (3+2A)(3+2B).", "quantifier": "all grids with increasing nodes, all positions at the nodes, all positions to interpolate between the first and the last nodes, all orders of evaluation and all arithmetics with relative error at most u", "why_tests_cant": "roundings depend on every value and on the order of evaluation, and a test compares to a tolerance chosen from the observed values", "anchors": ["shareloc/geofunctions/rectification.py: positions_to_displacement_grid", "shareloc/geofunctions/rectification_grid.py: RectificationGrid.interpolate"]}
