import Verif.Model.Affine

/-!
Model of `shareloc/math_utils.py` (bilinear interpolation), of the C++ `DTMIntersection::interpolate`
and of the DTM altitude envelopes.  A raster is a function of two integer indices together with its
numbers of rows and columns; `…Checked` versions read through a partial function so that an
out-of-range access is observable as `none` (numpy's negative index wrap-around is *not* an in-range
access here).
-/

namespace Shareloc
variable {K : Type*} [Field K] [LinearOrder K] [IsStrictOrderedRing K] [FloorRing K]

/-- shareloc/math_utils.py:111-116 (rows) and 119-124 (columns) of `interpol_bilin`, and the same code
at 76-88 in `interpol_bilin_grid`: lower integer index of the interpolation cell along one axis. -/
def lowerShift (nb : ℤ) (pos : K) : ℤ :=
  if pos < 0 then 0
  else if pos ≥ ((nb - 1 : ℤ) : K) then nb - 2
  else ⌊pos⌋

/-- shareloc/math_utils.py:93-139 `interpol_bilin`. -/
def interpolBilin (mat : ℤ → ℤ → K) (nbRows nbCols : ℤ) (row col : K) : K :=
  let lr := lowerShift nbRows row
  let ur := lr + 1
  let lc := lowerShift nbCols col
  let uc := lc + 1
  let cs := col - lc
  let rs := row - lr
  (1 - cs) * (1 - rs) * mat lr lc + cs * (1 - rs) * mat lr uc
    + (1 - cs) * rs * mat ur lc + cs * rs * mat ur uc

/-- shareloc/math_utils.py:93-139 `interpol_bilin`, with every raster access checked. -/
def interpolBilinChecked (get : ℤ → ℤ → Option K) (nbRows nbCols : ℤ) (row col : K) : Option K := do
  let lr := lowerShift nbRows row
  let ur := lr + 1
  let lc := lowerShift nbCols col
  let uc := lc + 1
  let cs := col - lc
  let rs := row - lr
  let m00 ← get lr lc
  let m01 ← get lr uc
  let m10 ← get ur lc
  let m11 ← get ur uc
  return (1 - cs) * (1 - rs) * m00 + cs * (1 - rs) * m01 + (1 - cs) * rs * m10 + cs * rs * m11

/-- shareloc/math_utils.py:28-57 `inter`, one layer and one position. -/
def interOne (mat : ℤ → ℤ → K) (col row : K) (lc lr : ℤ) : K :=
  let uc := lc + 1
  let ur := lr + 1
  let cs := col - lc
  let rs := row - lr
  (1 - cs) * (1 - rs) * mat lr lc + cs * (1 - rs) * mat lr uc
    + (1 - cs) * rs * mat ur lc + cs * rs * mat ur uc

/-- shareloc/math_utils.py:60-90 `interpol_bilin_grid`: a list of stacks of layers, one position.
The result keeps the list-of-stacks structure. -/
def interpolBilinGrid (mats : List (List (ℤ → ℤ → K))) (nbRows nbCols : ℤ) (row col : K) :
    List (List K) :=
  let lr := if row < 0 then 0 else if row ≥ ((nbRows - 1 : ℤ) : K) then nbRows - 2 else ⌊row⌋
  let lc := if col < 0 then 0 else if col ≥ ((nbCols - 1 : ℤ) : K) then nbCols - 2 else ⌊col⌋
  mats.map fun layers => layers.map fun m => interOne m col row lc lr

/-- shareloc/math_utils.py:160-166 of `interpol_bilin_vectorized`: floor first, then two masked
assignments, the second one winning. -/
def lowerShiftVec (nb : ℤ) (pos : K) : ℤ :=
  let l0 := ⌊pos⌋
  let l1 := if pos < 0 then 0 else l0
  if pos ≥ ((nb - 1 : ℤ) : K) then nb - 2 else l1

/-- shareloc/math_utils.py:142-168 `interpol_bilin_vectorized`: stacks of layers, a list of
`(row, col)` positions; result indexed by stack, layer, position. -/
def interpolBilinVectorized (mats : List (List (ℤ → ℤ → K))) (nbRows nbCols : ℤ)
    (pos : List (K × K)) : List (List (List K)) :=
  mats.map fun layers => layers.map fun m => pos.map fun p =>
    interOne m p.2 p.1 (lowerShiftVec nbCols p.2) (lowerShiftVec nbRows p.1)

/-- shareloc/bindings/dtm_intersection.cpp:144-183 `DTMIntersection::interpolate`: the raster is a
flat row-major vector; the lower/upper shifts are `double`s holding integers (used to index after
conversion), kept as integers here. -/
def interpolateCpp (data : ℤ → K) (nbRows nbCols : ℤ) (row col : K) : K :=
  let lr : ℤ := if row < 0 then 0 else if row ≥ (nbRows : K) - 1 then nbRows - 2 else ⌊row⌋
  let ur := lr + 1
  let lc : ℤ := if col < 0 then 0 else if col ≥ (nbCols : K) - 1 then nbCols - 2 else ⌊col⌋
  let uc := lc + 1
  let cs := col - lc
  let rs := row - lr
  (1 - cs) * (1 - rs) * data (lr * nbCols + lc) + cs * (1 - rs) * data (lr * nbCols + uc)
    + (1 - cs) * rs * data (ur * nbCols + lc) + cs * rs * data (ur * nbCols + uc)

/-- shareloc/geofunctions/dtm_intersection.py:200-226 `init_min_max`, minimum table:
`floor` of the minimum of the four sub-arrays at `(i, j)`. -/
def altMinCellPy (alt : ℤ → ℤ → K) (i j : ℤ) : K :=
  ((⌊min (min (min (alt i j) (alt i (j + 1))) (alt (i + 1) j)) (alt (i + 1) (j + 1))⌋ : ℤ) : K)

/-- shareloc/geofunctions/dtm_intersection.py:200-227 `init_min_max`, maximum table. -/
def altMaxCellPy (alt : ℤ → ℤ → K) (i j : ℤ) : K :=
  ((⌈max (max (max (alt i j) (alt i (j + 1))) (alt (i + 1) j)) (alt (i + 1) (j + 1))⌉ : ℤ) : K)

/-- shareloc/bindings/dtm_intersection.cpp:931-960 `init_min_max`: both flat tables.  The loop writes
position `(nb_columns-1)*i+j` at step `(i, j)`, i.e. it fills the vectors in order. -/
def initMinMaxCpp (data : ℤ → K) (nbRows nbCols : ℕ) : List K × List K :=
  let cells := (List.range (nbRows - 1)).flatMap fun i => (List.range (nbCols - 1)).map fun j => (i, j)
  (cells.map fun (i, j) =>
      ((⌊min (min (min (data (nbCols * i + j)) (data (nbCols * (i + 1) + j)))
        (data (nbCols * i + (j + 1)))) (data (nbCols * (i + 1) + (j + 1)))⌋ : ℤ) : K),
   cells.map fun (i, j) =>
      ((⌈max (max (max (data (nbCols * i + j)) (data (nbCols * (i + 1) + j)))
        (data (nbCols * i + (j + 1)))) (data (nbCols * (i + 1) + (j + 1)))⌉ : ℤ) : K))

/-- All the node altitudes, row by row (`alt_data` flattened). -/
def altValues (alt : ℤ → ℤ → K) (nbRows nbCols : ℕ) : List K :=
  (List.range nbRows).flatMap fun (i : ℕ) => (List.range nbCols).map fun (j : ℕ) => alt i j

/-- numpy's `.min()` (dtm_intersection.py:89) and `min_element` (dtm_intersection.cpp:53) of a
non-empty array; the value on an empty array is irrelevant (numpy raises). -/
def listMin : List K → K
  | [] => 0
  | x :: xs => xs.foldl min x

/-- numpy's `.max()` (dtm_intersection.py:88) and `max_element` (dtm_intersection.cpp:54). -/
def listMax : List K → K
  | [] => 0
  | x :: xs => xs.foldl max x

/-- A digital terrain model as seen by the intersection code: constructor state of
`DTMIntersection` (dtm_intersection.py:46-111, dtm_intersection.cpp:31-93).  `epsg` is not modelled. -/
structure Dtm (K : Type*) where
  alt : ℤ → ℤ → K
  nbRows : ℕ
  nbCols : ℕ
  transform : Affine K

namespace Dtm
/-- dtm_intersection.py:89. -/
def altMin (d : Dtm K) : K := listMin (altValues d.alt d.nbRows d.nbCols)
/-- dtm_intersection.py:88. -/
def altMax (d : Dtm K) : K := listMax (altValues d.alt d.nbRows d.nbCols)
/-- dtm_intersection.py:185-198 `interpolate`. -/
def interpolate (d : Dtm K) (row col : K) : K := interpolBilin d.alt d.nbRows d.nbCols row col
end Dtm

end Shareloc
