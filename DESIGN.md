# Formal model of CNES/shareloc — design

## 1. Layout

The model is a set of small total Lean 4 functions that mirror the Python functions (and, where a
second implementation exists, the C++ functions) of `/repo/shareloc` branch by branch.

| directory | content |
|-----------|---------|
| `lean/Verif/Model/*.lean` | the model; every definition cites the file and lines it models and says where it simplifies |
| `lean/Verif/Spec/*.lean` | small specifications that do not mention the model (rasters, polylines, the RPC00B monomials, lines in space, RPB text, RPC file formats, the dispatch rule) |
| `lean/Verif/Lemmas/*.lean` | helper lemmas, nothing to read for the meaning of a property |
| `lean/Verif/Props/*.lean` | the property theorems `Cnn_...`, each followed by `example`s meeting its hypotheses |
| `lean/Verif/Validation/*.lean` | the model evaluated on the data of the repository's own tests (written by `tools/validation*.py`; section 7) |
| `properties.jsonl`, `MANIFEST.json` | the English properties; property → theorems (`tools/manifest.py` collects the names, `tools/notes.json` holds status and notes) |
| `seeded/` | `mutate.py` edits one definition in a scratch copy, rebuilds, and logs the theorems that fail in `LOG.jsonl` |

## 2. Modelling decisions

### Numbers
Floating point is replaced by exact arithmetic in an arbitrary linearly ordered field `K` (with a floor
function where `floor`/`ceil`/`int` are used), so every theorem holds at `ℚ` and `ℝ`; the definitions are
executable at `ℚ`, which is how the witnesses are evaluated by the kernel (`decide +kernel`).  Square
roots, trigonometry and derivatives are either parameters with their defining equations or stated over
`ℝ`.  A number that may be NaN/inf is `Option K` (`none` = not finite; NaN and ±inf are conflated), with
the comparisons of IEEE (`none` compares false).  Overflow and signed zero are *not* modelled; neither is the
error model of Numba.  Rounding is left out everywhere except in a second, relational model of the numerical kernels
(`Model/Float.lean`, `Model/FloatDtm.lean`, `Model/FloatFalsi.lean`, `Model/FloatGrid.lean`, `Model/FloatNodes.lean`,
`Model/FloatMarch.lean`, `Model/FloatTri.lean`, `Model/FloatRoi.lean`, `Model/FloatCube.lean`, `Model/FloatRect.lean`, `Model/FloatSize.lean`, `Model/FloatGridInverse.lean`, `Model/FloatRectGrid.lean`, properties C82–C84, C91, C92, C102, C104, C105, C107, C108,
C111, C113, C114, C116, C117): each operation returns any number within a relative
distance `u` of its exact result, expressions may be evaluated in any order allowed by `fastmath`, and the theorems
bound the distance to the exact model.  That model assumes finite inputs (numba's `fastmath` also assumes there are
no NaN, although `inverse_loc` passes NaN for the masked points: what the compiled code returns for them is trusted
to be NaN).

### Control
Exceptions are values (`Except`); `while` loops are structural recursion over the loop's own bound when
the code has one, and over a fuel argument otherwise, with a theorem that the fuel the model uses always
suffices (e.g. `C15`, `C16`).  In-place mutation becomes a returned value (where the mutation of an
*argument* is observable it is mentioned below as a finding).  Arrays are functions on indices or lists;
Python's negative indices are modelled where the code relies on them (`pyGet`, `pyIndex`).

### External calls are parameters
`rasterio`/GDAL (open, read, RPC tags, `fillnodata`), the change of coordinate system
(`coordinates_conversion`, a function on points), `numpy.linalg.inv` (adjugate formula for 2x2 and 3x3
matrices, exact inverse otherwise), `scipy.interpolate` (`interpn`, `RegularGridInterpolator` by
their linear interpolation formula), the printing and reading of numbers (an `IoEnv` with a round-trip
hypothesis), the XML parser (the model starts at the tree of elements).

## 3. Trusted base

* The Lean 4.33.0 kernel; the axioms `propext`, `Classical.choice`, `Quot.sound` only (this is what
  `#print axioms` shows for every theorem of `Props`; `vcheck` checks it).  No axiom of ours, no compiled
  evaluation.
* The faithfulness of the reading of `/repo`: the code is not executed here.  It is tested in two ways: the
  wrong programs of `seeded/LOG.jsonl`, and the reference values of section 7.
* The treatment of floating point as exact arithmetic (C82–C84, C91, C92, C102, C104, C105, C107, C108, C111, C113, C114, C116, C117 excepted), and the external calls listed above.

## 4. What is modelled and what is not

| file | modelled | not modelled |
|------|----------|--------------|
| `proj_utils.py` | `transform_index_to_physical_point`, `transform_physical_point_to_index` | the inside of `coordinates_conversion` (PROJ) |
| `image.py` | `Image.__init__` (ROI, geotransform, vertical direction) | pixel reading |
| `math_utils.py` | all interpolators | |
| `dtm_reader.py` | masks, statistics, every filling strategy, geoid sampling and addition | GDAL `fillnodata` (parameter) |
| `geofunctions/dtm_intersection.py`, `bindings/dtm_intersection.cpp` | all of it: conversions, cube, marching, regula falsi, batch; cells without altitude (C100); lines with NaN vertices (C101); the vectors of the C++ object, setters and pickling (C109, C110); 32-bit integers (C115) | |
| `geomodels/rpc.py`, `rpc_optim.py`, `bindings/rpc.cpp` | polynomials, derivatives, inverse, iterative and direct location at altitude and on a DTM, extrema of lines of sight; the vectors of the C++ class, their accesses and unassigned coefficients (C112) | logging |
| `geomodels/grid.py` | loading, bracketing, location at altitude and on a DTM, lines of sight, predictor, inverse location, also for grids with NaN nodes | infinite values: the one turn that may follow a null determinant with infinite positions (it ends on NaN) |
| `geomodels/los.py`, `geofunctions/triangulation.py` | all of it | netCDF reading |
| `geofunctions/rectification.py`, `rectification_grid.py` | preparation, strips (Python and C++), complete grids, sampling distance, extent, displacement grids, files, interpolation, the complete computation from two models and an elevation | |
| `geofunctions/localization.py` | all of it | |
| `geomodels/geomodel*.py` | registry, creation | |
| `geomodels/rpc_readers.py`, `rpc_writers.py`, `rpc_converter.py` | all of it | XML and GDAL parsing |

## 5. Properties and proofs

| id | modelled | proof |
|----|----------|-------|
| C01 | `proj_utils` conversions, `Affine` application and inversion | field algebra, any non-zero determinant |
| C02 | Python/C++ `ter_to_index`, `index_to_ter` | field algebra |
| C03 | `Image.__init__` index ROI branch | case analysis on min/max, truncation lemmas |
| C04 | `Image.__init__` physical ROI branch | floor/ceil bounds; refused for negative column steps (witness) |
| C05 | `Image.__init__` vertical direction | sign case analysis |
| C06–C10 | `interpol_bilin`, `_grid`, `_vectorized`, C++ `interpolate` | floor bounds, convexity, ring |
| C11 | `init_min_max` (Python, C++) | floor/ceil, convexity |
| C12, C13 | `intersect_dtm_cube` | per-face case analysis, list invariants |
| C14–C17 | `intersection` | invariants of the loop over planes and cells; bisection-style invariant and termination of the regula falsi |
| C18 | `intersection_n_los_dtm` | list induction; "a miss is NaN" is false of the code, negation proved |
| C19, C20 | polynomial and derivative code | `ring` against the monomial table of `Spec/Rpc00b`; `HasDerivAt` over ℝ |
| C21 | `inverse_loc` Python/C++ | list induction |
| C22 | Newton update | 2x2 linear algebra |
| C23, C24 | iteration loop, batch | induction over the loop; false of Python for several altitudes or NaN (witnesses), proved for C++ |
| C25–C28 | checks, dispatch, broadcasting; same-size altitude arrays used pointwise in the RPC and grid functions (C28) | case analysis, list induction |
| C29–C34 | `grid.py` | permutation/sorting lemmas, induction, linear algebra |
| C35–C41 | `los.py`, `triangulation.py` | inner-product algebra in K³, list induction |
| C42–C48 | `rectification.py`, `rectification_grid.py` | ℝ trigonometry, list induction, arithmetic; C48 false as stated, negation proved |
| C49–C52 | readers, writers | record round trip, decision tables, text-layout lemmas |
| C53–C57 | `localization.py`, `geomodel.py` | case analysis, induction over histories; C56 false as stated for rotated images |
| C58, C59 | `dtm_reader.py` | list induction, floor arithmetic |
| C60 | Python against C++ intersection | simulation of one by the other outside one boundary case, which is a witness of difference |
| C61 | `Grid.compute_los` | interpolation algebra |
| C62–C64 | `direct_loc_dtm` of both RPC classes | composition of C12–C18, C23–C26 |
| C65, C66 | `Grid.direct_loc_dtm` | composition of C14, C31, C61; straightness of the polyline between two layers |
| C67 | `get_dtm_alt_offset`, the altitude range of the lines of sight, location on a DTM in another system | min/max lemmas; composition as C62 |
| C68 | C++ `compute_strip_of_epipolar_grid` with its flat vectors and index arithmetic | invariant of the two loops over memory (frame and read-back lemmas), injectivity of the cell index, simulation of the Python layers |
| C69 | `compute_stereorectification_epipolar_grids` from two `Geo` models and an elevation (`Model/Pipeline`) | refinement: models that locate each point by itself make the colocalisations pointwise, invariant of the strips, composition; for models that raise, monotonicity of the whole module in the models (`Lemmas/Defined`) and completion by the answers for each point alone |
| C70 | same, for affine sensors (`Spec/AffineSensor`) | C69, constant epipolar vector, linear algebra, induction on rows and columns |
| C71 | `compute_epipolar_gsd` | C69 lemmas, trigonometry |
| C72 | `get_epipolar_extent` | C46, C69, C70; an affine function on a rectangle is between its values at the corners |
| C73 | RPC models as used by `Localization` and `coloc`, at an altitude and on a DTM | C23, C24, C53, C54, C62, C63 composed; the models are the functions of C19-C28 and C62 |
| C74 | `Grid` as used by `Localization`, `direct_loc_grid_dtm`, `get_alt_min_max`, `grid.coloc` | C33, C53, C61, C65 composed; counterexample for layers that do not enclose the DTM |
| C75 | Grid.inverse_loc loop (Model/Grid), grid partial derivatives, Localization over a grid (Model/GridGeo) | one Newton step contracts the error (Lemmas/Lipschitz: perturbed 2x2 linear system), induction on the iteration counter with the invariant: inside the covered neighbourhood; round trip via C74 |
| C76 | both Newton loops (Model/Rpc), Localization on an RPC (Model/Geos) | mean value inequality in each variable, contraction of the error by 2*delta/(1-delta) per turn, Banach fixed point for existence; loops of both implementations by induction |
| C77 | the two strips with the adaptive step, the reference distances and the size of the image (Model/Pipeline, Model/Rectification) | closed form of the loop state as iterates of one function of a node, by induction on the room left; on flat ground both walks are compared node by node |
| C78 | ownPredictor on the nodes sampled by gridInAltitude, then gridPredict, gridInverse and Localization | the normal matrix of nodes seen by an invertible affine map is invertible (no conic through six nodes of a triangle), the fit reproduces affine functions, the shift of altitude is a shift of pixel; C33 exactness and C53 for the round trip |
| C79 | `rpcOptimOfParams`, `rpcLoad`, `rpcOptimLoad` (Model/RpcOptimCtor) | case analysis of the constructor; C21 for the locations |
| C80 | `colocScalar`, `colocVector`, `directScalar`, `inverseScalar`, `stereoCppOf` (Model/ColocCpp) | pointwise description of the batch functions, case analysis of the checks |
| C81 | Grid.read on tags, namespaces, bands and geotransform (Model/GridFile.lean), composed with direct_loc_h | dictionary merge, induction over the tags, argsort specification, exactness at nodes (C31); uniqueness of the decreasing order for the independence of the order |
| C82 | FExpr, Computes (one rounding per operation, exact allowed), Rewrite (fastmath), ScaledQuotient, FloatCol/Row/Lon/Lat (Model/Float) | calculus of approximations with magnitudes; value, magnitude, degree, weight and number of terms are invariant under the rewritings and bound the number of roundings; then the error of a quotient |
| C83 | FloatResidual, FloatLoop with arbitrary moves (Model/Float) | the residual is an invariant of the loop; stopping condition; C82 |
| C84 | FloatBilin, FloatInverse, FloatIndexToPhysical, FloatPhysicalToIndex (Model/FloatDtm) | the calculus of C82; products of roundings stable under reciprocal; with rotation, the error of the determinant scales the index, the other errors are bounded by the magnitudes (Props/FloatRotation.lean) |
| C85 | ParallelLoop: dealing of the iterations, Interleaving of the threads' assignments on shared arrays, invProg, derivProg (Model/Parallel) | an interleaving is a permutation of all assignments; assignments to distinct cells commute; every iteration assigns its own index |
| C86 | the characters of the file, the lines read back, every truncation (Model/Crash.lean); JSON by a grammar (Spec/Json.lean) | truncation cuts at most one word; the last list of the file is assigned only after its closing parenthesis; the only closing brace is the last character of the JSON object |
| C87 | lexical analysis and grammar of JSON objects as inductive relations on the characters (Spec/Json.lean), text written (Model/RpcIo.lean) | derivation built line by line; lexical analysis deterministic and grammar unambiguous by induction |
| C88 | Model/Session.lean: the attributes of the predictor as a state (None, NaN, usable), the calls of a program, their answers; a history is a list of calls | Induction on the history; the state is the last successful explicit estimate or, lazily, the default one |
| C89 | Model/Race.lean: eight attributes, threads with a program counter, schedules as lists of thread numbers | Invariant of the memory and of each thread, by induction on the schedule |
| C90 | Model/Proj.lean: arrays by rows with infinite and NaN numbers | By cases on the shape |
| C91 | FloatFalsi, FloatFound, FloatReturned (Model/FloatFalsi) | exit condition of the loop; rounding calculus of C82-C84 at positions half a pixel outside; Lipschitz bound of the bilinear surface |
| C92 | `np.arange`/`np.mgrid` node counts and values with a rounding per operation, `RectificationGrid.__init__`, interpolator nodes of `Grid`, `direct_loc_grid_h`, `interpolate_grid_in_altitude` | exactness of dyadic operations, relative error bound of four roundings, ceiling; kernel computed counterexamples |
| C93 | in place assignments of the three functions on a memory of arrays | unfolding of the successive assignments; induction on the number of calls; wrap_global and periodicity of the geoid of C59 |
| C94 | `sensorTriangulation`, `epipolarTriangulation`, `losCreation`, `nViewPoint` | The quadratic form of the triangulation is bounded below by a Gram determinant; minimality (C36) gives the bound; the pixel is followed through the scatter (C40) |
| C95 | `stereoRectification`, `writeEpipolarGrid`, `readRectGrid`, `rectInterpolate`, `epipolarTriangulation`, with `Geo` models | Composition of C69, C47, C40 and C94; for affine sensors the lines of sight are never parallel (C36) and pass through the ground point |
| C96 | `stereoRectification` with its mean baseline ratio, grids through files, `epipolarTriangulation` | C70 (strengthened: the right nodes are the homologous of the left ones), exactness of the bilinear interpolation on affine grids, constant ratio through both strips (C48), C94 with null errors |
| C97 | los_creation replaces a line of sight by its chord; triangulation as in C94 | second derivative bound gives the distance to the chord (convexity of f + M t^2/2), triangle inequality, then C94 |
| C98 | Image window, cells and masks of the window, dtm_reader, interpolation at a ground position (Model/DtmRead.lean) | the window is a shift of rows and columns in cells, masks and transform; each altitude of a cell with data depends on that cell only; interpolation on the same four cells |
| C99 | composition of Model/DtmRead.lean with the models of C73 and C74 | C98_altitude with C73_optim_on_dtm, C73_python_on_dtm, C74_on_dtm |
| C100 | Model/DtmNan.lean: the intersection with altitudes `Option K`, comparisons with NaN false, `np.min` against `min_element` | The NaN range empties the list of crossings; away from holes the march is compared cell by cell with the march on a filled DTM (the entry point is not under the terrain, so a cell not searched by one is not searched by the other) |
| C101 | the functions of grid.py on data cubes with holes (Model/GridNan.lean) | Props/GridNan.lean, Props/NanLine.lean: interpolation is none iff one of the eight nodes is; equality with any filling by following each function; the predictor by the values of min and max on lists with NaN |
| C102 | floating point relation for interp1d and RegularGridInterpolator (Model/FloatGrid.lean) | Props/FloatGrid.lean: relative error calculus of C82-C84, Lipschitz constant in the layer index; evaluation with weights 0 and 1 at the nodes |
| C103 | `nViewPoint`, `nViewDistance`, `sensorTriangulation` (exact arithmetic) | uniqueness of the minimiser (C36) and invariance of the distance to a line; parallelism read on second differences of the distance |
| C104 | `intersectionA` (Model/FloatMarch.lean): the model of C14-C18 with the operations as parameters; with exact ones it is that model (C104_exact) | lexicographic measure: index along the main direction, then distance across it to the position that the program computes for that index; the rest by induction and C91 |
| C105 | `falsiA` with rounded operations, `FloatBilin` ground | each turn removes at least a quarter of the tolerance from the bracket, in a distance weighted by the slope of the DTM, minus the roundings of positions |
| C106 | `gridRaises` follows NaN and infinite positions after a null determinant | cases on the turns; no raise without null determinant by induction on the turns |
| C107 | floating point relation `FloatTriangulation` (Model/FloatTri.lean): each operation of los.py:88-99 and triangulation.py:160-168 rounded, sums in any order, `np.linalg.inv` by its residual | relative error calculus (Lemmas/Float) on the entries; coercivity of the matrix (C94) bounds the inverse and turns the residual into a distance; exact evaluation satisfies the relation (C107_inhabited) |
| C108 | relation `FloatPhysicalRoi` (Model/FloatRoi.lean): image.py:84-131 with each operation rounded | relative error of the indexes (as C84), then one-dimensional windows; C108_not_exact by evaluation of one region in doubles |
| C109 | the object of 16 attributes with checked vector accesses, its loops over vertices, planes, crossings, segments and cells, the input buffer and the strided result | representation relation between the object and the terrain of the intersection model; each loop is shown equal to the model's list function by induction, so no access fails |
| C110 | state tuple of Python values, casts, the sixteen setters and getters, histories as lists | the round trip by computation on every state, the tuples accepted by inversion of the casts, histories by induction |
| C111 | `cubeA` (Model/FloatCube.lean): the box of C11-C13 with the operations as parameters | signs of rounded differences and products are exact; error of a weight, of a coordinate and of a parameter; the two-point filter and the sort as in C12; monotone rounding for the range of the parameter |
| C112 | the vectors of the C++ class with checked accesses, the loops of the rational functions, of the iterative location and of the location on a DTM, and the Python wrappers | each loop is shown equal to the list function of the per-point model by induction on the points; exact characterisation of the failing sizes |
| C113 | the angle, the move, the row of nodes and the baseline ratio over any four operations and any library functions | relative error of the slope, mean value theorem on arctan (the derivative bounds the error uniformly), Lipschitz sine and cosine, induction on the nodes; instance: doubles of 53 bits |
| C114 | the mean spacing, the bounding box, the two truncated quotients and the grid sizes over any four operations | factors (1 +- u)^k of each step, the extent of four corners one of which is a rounded sum by cases on signs, integer parts by bounds; counterexample evaluated with 53 bits |
| C115 | the functions of C109 with every operation on `int` checked; the integers computed by the strips as a set | equality with the unbounded functions by induction on the loops, bounds on positions from the loop conditions; the last cell overflows otherwise |
| C116 | the loop, the measure, the derivatives and the move of `inverse_loc` as relations between rounded values | C102 for the location, propagation of errors (Approx) for the matrix, induction on the turns, Lipschitz bounds of the interpolation for the last move |
| C117 | FloatReadBack, FloatRectInterp, rectSrc (Model/FloatRectGrid.lean) | calculus of C82 on the two-dimensional formula, cell of a position inside the grid (C47), convexity of the weights |

Properties whose full English statement is false of the unchanged code get a theorem proving the negation
on a concrete witness and a theorem with the hypothesis under which it holds; they are `partial` in the
manifest.

## 6. Defects and surprises of the code met while modelling

"(proved)" means a theorem of `Props` exhibits it on a witness.

1. `rpc.py` `direct_loc_inverse_iterative`: the residual of the first iteration uses `alt[0]` for every
   point (proved, `C23_python_counterexample`; end to end 5 pixels, `C62_first_residual_counterexample`).
   The C++ version works point by point and is right.
2. Same loop: one NaN makes `np.max` NaN and stops the iteration for the whole batch (proved, C24).
3. `intersection_n_los_dtm` ignores the `found` flag: a line that enters the box and misses the terrain
   gives (0,0,0) in Python and uninitialised memory in C++ (proved, C18, `C62_missed_line_is_origin`).
4. C++ intersection: `col_c = 1` / `row_c = 1` instead of `-= 1` (proved, C60).
5. Two crossings inside a cell are missed (proved, C16); rising from below is skipped (proved, C17).
6. 0/0 in the regula falsi gives NaN then a `ValueError`.
7. `compute_stereorectification_epipolar_grids`: weights of the mean baseline ratio (proved, C48).
8. Adaptive strips overflow their buffer (proved, C45).
9. `compute_epipolar_angle` of NaN: 0 in Python, NaN in C++ (proved, C42).
10. `Localization.extent` uses two corners only, latitude first (proved, C56); `inverse(h=None)` ignores
    the DTM (proved, C53).
11. `Grid.direct_loc_dtm`: off the line of sight when a layer is in the DTM range (proved, C66);
    `check_lonlat` is applied according to the EPSG of the grid even if the DTM is projected.
12. Writers: `geotiff` silently ignores unreadable images, `rpb`/`geotiff_rpb`/`json` ignore `override`,
    direct coefficients are dropped, JSON and bare RPB outputs are not readable (proved, C49, C52).
13. Geoid: regional geoids get a wrong extra column; `positions + min_lon` for `positions - min_lon`
    (proved, C59); the caller's positions are modified.
14. `fill_nodata` with `rio_fillnodata`: NaN residuals, mask bands (proved, C58).
15. C++ RPC: throws on a zero denominator (proved, C21); altitude not broadcast in `inverse_loc`, arrays of
    the wrong size silently truncated (proved, C28); reads outside `alt` in the NaN branch when the altitude is
    broadcast, outside of an empty `alt`; `inverse_loc` with only direct coefficients uses uninitialised arrays (proved, C112).
16. `prepare_rectification`: names of the corners exchanged, margin in pixels; documented 5-tuple of 4;
    `yx` displacement files not readable (proved, C47); fractional steps do not cover (proved, C46).
17. `Grid.return_grid_index` with one layer (proved, C30); missing ALTITUDE silently 0 (proved, C29).
18. `intersect_dtm_cube`: a first vertex exactly on a face gives the parameter −1 (proved, C12); a line ending
    inside the box is not found (proved, C13).
19. Bent lines, vertical segments: point off the line (proved, C14).
20. Negative column step: valid physical ROI refused (proved, C04).
21. `los_triangulation`: one match with parallel lines raises for all (proved, C39); a NaN start with a valid
    vector counts as a line through the origin (proved, C39).
22. `sensor_triangulation`: documentation says [row, col], code takes (col, row).
23. `coloc`: DTM in another system, the ground point is not converted (proved, C54).
24. `RPC.direct_loc_grid_h` unpacks a (1,3) array in three values: it raises on every grid with a node (proved, `C32_rpc_counterexample`).
25. `identify_dimap`: version of one tag chooses the reader, another is used in it (proved, C51).
26. `create_geomodel`: `KeyError` in `load` is reported as unknown model (proved, C57).
27. `get_dtm_alt_offset` looks at four corners only (proved, C67).
28. `Grid.direct_loc_grid_dtm` ignores the found flag and the altitude range of the DTM.
29. C++ strips: overwrite the arrays of the caller (proved, `C68_inputs_overwritten`); differ from Python after a NaN
    (proved, `C68_nan_difference`); write outside of their vectors for undocumented shapes (proved, `C68_wrong_shape`).
30. Python strip of a single layer with given angles: `ZeroDivisionError` (proved, `C44_single_layer_raises`).
31. Adaptive step: the right nodes are interpolated, not colocated (proved, `C69_adaptive_not_homologous`); the mean uses the
    announced size of the grid and not the one reached.
32. `prepare_rectification`, `compute_epipolar_gsd`: a NaN local epipolar line silently gives the angle 0 (proved, `C71_nan_line_is_row`).
33. `get_epipolar_extent`: latitudes first although documented longitudes first; the footprint is widened by `epi_step` and
    not by `epi_step * spacing`: with pixels larger than 1, nodes of the grid are outside of it (proved, `C72_large_pixels_counterexample`).
34. `Grid.direct_loc_grid_dtm` only looks between the layers of the grid: NaN at nodes which `direct_loc_dtm` locates
    (proved, `C74_location_grid_counterexample`).
35. `Grid.inverse_loc` checks longitudes and latitudes whatever the coordinate system of the grid: points of a projected grid
    are never located (proved, `C74_projected_never_located`).
36. A grid with a DTM of another coordinate system raises in `direct_loc_dtm` (proved, `C74_other_system`).
37. `RPC` accepts null or missing coefficients, which `RPCoptim` refuses (proved, `C79_null_counterexample`, `C79_empty_counterexample`).
38. `bindings_cpp.coloc` and the C++ strips do not check longitudes and latitudes as the Python functions do: across the antimeridian they locate
    pixels for which `coloc` returns NaN (proved, `C80_antimeridian_counterexample`).
39. `Grid` takes the origin of the geotransform as the position of the first node, although documented as the centre of the first pixel
    (proved, `C81_origin_is_corner`); a grid without REF tag has no EPSG code and its positions are not checked
    (proved, `C81_without_ref_unchecked`).

40. `Grid.inverse_loc` raises `TypeError` until some `Localization.inverse` or an explicit estimate set the predictor (proved,
    `C88_grid_inverse_counterexample`); a predictor estimated on NaN nodes is stored, and every later inverse location raises `ValueError`
    (proved, `C88_nan_predictor`).
41. The lazy estimate is not safe with threads: `pred_ofset_scale_lon` is stored before the attributes loaded after it (proved,
    `C89_first_call_counterexample`).
42. `np.arange(start, start + n * step, step)` has one element too many for some fractional steps: `RectificationGrid` and `Grid` cannot
    load such grids, `direct_loc_grid_h` and `estimate_inverse_loc_predictor` with other sizes than 3 by 3 raise `ValueError` (proved,
    `C92_tenth_step_counterexample`, `C92_grid_counterexample`, `C92_predictor_counterexample`).
43. `interpolate_geoid_height` changes the longitudes of its caller's array, also when it raises `RuntimeError`, and a position more than
    one turn away gives NaN at the first call and a height at the second one (proved, `C93_geoid_far_longitude`,
    `C93_geoid_raises_modified`); `positions_to_displacement_grid` overwrites the grids given (twice when left and right are the same array,
    proved, `C93_displacement_same_array`).
44. `LOS.los_creation` (los.py:84-85) converts the ground points from EPSG:4326 whatever the `epsg` of the model, while a multi-layer
    `Grid` has the coordinate system of its file: triangulated points are wrong for such grids (`C95_other_epsg_counterexample`).
45. A DTM or a region of interest of one row or one column raises `IndexError`: `np.squeeze` (image.py:187) removes its axis before
    `self.mask[:, :]` (dtm_reader.py:92) (proved, `C98_single_row_refused`).
46. With `fill_nodata` one of the statistics, the no-data cells are filled with the statistic of the region of interest, not of the DTM
    (proved, `C98_statistic_depends_on_region`).
47. Within half a cell of the border of a region of interest the altitude is extrapolated from the cells of the region, although the
    file has the cells that surround the position (proved, `C98_border_is_extrapolated`).
48. One cell without altitude (NaN) anywhere in the DTM: the Python implementation locates nothing any more (`np.min` is NaN); the C++
    one ignores it, except if it is the first cell, but may locate points inside the hole or on the hidden side of a relief (proved, C100).
49. A grid with one NaN node at a corner of its highest or lowest layer: the estimated predictor is NaN, without any message, and
    `inverse_loc` raises `ValueError` (`int(nan)`) for every valid point (proved, `C101_corner_hole`).
50. A grid with a NaN node in an inner layer: `direct_loc_dtm` never returns for a pixel near it whose line of sight enters the DTM
    above the hole (an endless cell loop, in both implementations; proved, `C101_march_never_ends`, `C101_inner_layer_hole_never_ends`).
51. A grid with a repeated line (or any null determinant): `inverse_loc` warns, then the next turn calls `int(nan)` and the `ValueError`
    loses the whole batch, also the points that are located alone (C106).
52. C++ `intersection`: for a line of sight that enters the DTM box at the level of the terrain and follows it, `c_h` is 0/0 and NaN is converted
    to a position in the altitudes (undefined behaviour; proved, `C109_zero_over_zero_becomes_an_index`).  A one-row or one-column terrain is
    read before the start of its array (`C109_one_row_is_read_outside`).
53. C++ setters: `set_alt_data` leaves the extreme altitudes, the planes of the box and the bounds of the cells as they were, so that lines of
    sight that meet the new terrain are lost (proved, `C110_set_alt_data_is_stale`).
54. A line of sight that touches the DTM box at an edge may be reported as missing it, because one of its two crossings is rounded to a
    point outside of the box (proved, `C111_grazing_line_is_lost`).
55. `RPCoptim.direct_loc_dtm` sizes its loop on the rows: with fewer columns than rows the C++ code reads the column vector after its end
    (proved, `C112_short_columns`).
56. `prepare_rectification` truncates a rounded quotient: an image of 30001 columns of pixel size 0.7 along the epipolar lines gives an epipolar
    image of 30000 columns (proved, `C114_loses_a_pixel`).
57. The C++ code computes positions in the DTM with `int`: the constructor overflows from 2^31 cells on, 46341 x 46341 for a square
    (proved, `C115_largest_square`); the batch intersection and the strips from 2^31 / 3 points on (`C115_batch`, `C115_strip`).

## 7. Checks of the model against the reference values of the repository

The modules of `lean/Verif/Validation` are **tests, not proofs of properties**: no property of `MANIFEST.json` rests on
them.  They evaluate the definitions of `Model` at `ℚ`, in the kernel, on the data files of `/repo/tests/data`, and compare
the results with the numbers that the repository's own tests expect (obtained by its authors with the real code and other
tools), at the tolerance of these tests.  They bound the risk that the model misreads the code.  `tools/validation*.py`
write them from `/repo`; their result is committed.  `RectSupport` gives rational approximations of the cosine, sine,
arctangent, square root and of the conversion to EPSG 4978, and an RPC whose Newton iterates (the model's own step) are
rounded to 2⁻⁸⁰ so that the numbers stay short.

| module | data | compared with |
|--------|------|---------------|
| `RpcGeom` | the two `.geom` files | `test_identify_ossim_kwl`, `test_rpc_drivers`, `test_rpc_ossim_kwl` (reader, inverse location, Python and C++) |
| `RpcDimap2` | DIMAP v2.15 file | `test_rpc_drivers`, `test_rpc_dimap_v2` (reader, inverse location, Python and C++) |
| `GridPhr` | a localization grid file | `test_grid_geotiff`, `test_sensor_loc_nan`, `test_grid_extrapolation` (loading, direct location) |
| `DtmGeoide` | a grid file and a DTM of 147 × 40 cells | `test_sensor_loc_dir_h`, `test_loc_dir_interp_visee_unitaire_gld`, `test_interp_dtm`, `test_loc_dir_instersect_cube_dtm`, `test_loc_intersection` (cube, marching, regula falsi; Python and C++) at 1e-12; `test_sensor_loc_inv` with the reference predictor of `test_pred_loc_inv` |
| `RpcDimap1` | DIMAP v1.4 file | `test_rpc_drivers`, `test_rpc_minmax`, `test_rpc_phrdimap`, direct against iterative location, `test_geomodel_check_lonlat`, `fake_rpc.txt` |
| `RectRpc` | the stereo pair of `tests/data/rectification` | `test_prepare_rectification` (sizes, footprint, ground size of a step), the same with margins, the first nodes of the two epipolar grids of `test_compute_stereorectification_epipolar_grids_geomodel_rpc` (with and without margins) at 1e-8 pixel, `test_epipolar_angle` |
| `Triangulation` | two stereo pairs, their rectification grids and matches | `test_epi_triangulation_sift_rpc`, `test_epi_triangulation_sift_rpc_loc_grid` (ECEF points at 1e-3 m), `test_los_parameters`, `test_triangulation_residues`, `test_rectification_grid_extrapolation` |
