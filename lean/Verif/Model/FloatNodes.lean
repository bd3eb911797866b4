import Verif.Model.Rectification
import Verif.Model.Grid

/-! Nodes of regular grids made by `np.arange` in floating point (rectification_grid.py, grid.py).  `rnd` is the rounding of one
operation. -/

namespace Shareloc
variable {K : Type*} [Field K] [LinearOrder K] [IsStrictOrderedRing K] [FloorRing K]

/-- Number of elements of `np.arange(start, stop, step)` and of one axis of `np.mgrid[start:stop:step]` in floating point
(numpy: `ceil((stop - start) / step)`; called at rectification_grid.py:61-62, 70 and grid.py:127-128, 527-528). -/
def arangeCount (rnd : K → K) (start stop step : K) : ℕ := (⌈rnd (rnd (stop - start) / step)⌉).toNat

/-- Number of nodes of `np.arange(start, start + step * n, step)` (rectification_grid.py:58-62, grid.py:127-128, 527-528). -/
def nodeCount (rnd : K → K) (start step : K) (n : ℕ) : ℕ := arangeCount rnd start (rnd (start + rnd (step * n))) step

/-- Element `k` of `np.arange(start, stop, step)` in floating point (numpy computes the second element, and from the third one
multiplies the difference of the first two; called at rectification_grid.py:61-62 and grid.py:127-128, 527-528). -/
def arangeNode (rnd : K → K) (start step : K) (k : ℕ) : K :=
  if k = 0 then start
  else if k = 1 then rnd (start + step)
  else rnd (start + rnd ((k : K) * rnd (rnd (start + step) - start)))

/-- Element `k` of one axis of `np.mgrid[start:stop:step]` (rectification_grid.py:70). -/
def mgridNode (rnd : K → K) (start step : K) (k : ℕ) : K := rnd (rnd ((k : K) * step) + start)

/-- `transform * (0.5, 0.5)` (rectification_grid.py:55) in floating point. -/
def centreFl (rnd : K → K) (t : Affine K) : K × K :=
  (rnd (rnd (rnd (1 / 2 * t.a) + rnd (1 / 2 * t.b)) + t.c), rnd (rnd (rnd (1 / 2 * t.d) + rnd (1 / 2 * t.e)) + t.f))

/-- `RectificationGrid.__init__` (rectification_grid.py:37-84) in floating point, for files of at least two rows and two columns:
`ValueError` of the addition of arrays of different shapes or of `RegularGridInterpolator` when the number of nodes is not the
number of values. -/
def readRectGridFl (rnd : K → K) (f : EpiFile K) (displacement : Bool) : Except RectError (RectGrid K) :=
  let o := centreFl rnd f.transform
  if nodeCount rnd o.1 f.transform.a f.cols = f.cols ∧ nodeCount rnd o.2 f.transform.e f.rows = f.rows then
    .ok ⟨f.cols, f.rows, arangeNode rnd o.1 f.transform.a, arangeNode rnd o.2 f.transform.e,
      fun i j => if displacement then rnd (f.band 2 j i + mgridNode rnd o.2 f.transform.e j) else f.band 2 j i,
      fun i j => if displacement then rnd (f.band 1 j i + mgridNode rnd o.1 f.transform.a i) else f.band 1 j i⟩
  else .error .valueError

/-- The nodes of the interpolator of a `Grid` (grid.py:127-132) in floating point: `ValueError` of `RegularGridInterpolator` when
their number is not that of the values. -/
def gridNodesFl (rnd : K → K) (row0 col0 steprow stepcol : K) (nbrow nbcol : ℕ) : Except RpcError ((ℕ → K) × (ℕ → K)) :=
  if nodeCount rnd row0 steprow nbrow = nbrow ∧ nodeCount rnd col0 stepcol nbcol = nbcol then
    .ok (arangeNode rnd row0 steprow, arangeNode rnd col0 stepcol)
  else .error .badSizes

/-- `Grid.direct_loc_grid_h` (grid.py:502-535) with the nodes computed in floating point (the location of each node is the exact
one): `ValueError` of `reshape` when the number of located points is not `nbrow * nbcol`. -/
def gridDirectLocGridHFl (rnd : K → K) (g : MultiGrid K) (row0 col0 steprow stepcol : K) (nbrow nbcol : ℕ) (alt : K) :
    Except RpcError (ℕ → ℕ → ORow K) :=
  let nr := nodeCount rnd row0 steprow nbrow
  let nc := nodeCount rnd col0 stepcol nbcol
  let pts := (List.range nr).flatMap fun (i : ℕ) => (List.range nc).map fun (j : ℕ) =>
    (arangeNode rnd row0 steprow i, arangeNode rnd col0 stepcol j)
  match gridDirectLocH g (pts.map fun p => some p.1) (pts.map fun p => some p.2) [some alt] with
  | .error e => .error e
  | .ok l => if l.length = nbrow * nbcol then .ok fun i j => l.getD (i * nbcol + j) nanRow else .error .badSizes

/-- One altitude of `interpolate_grid_in_altitude(nbrow, nbcol)` (grid.py:405-438), from which
`estimate_inverse_loc_predictor(nbrow, nbcol)` (grid.py:562) starts: the nodes evenly spread over the grid, computed in floating
point. -/
def gridInAltitudeFl (rnd : K → K) (g : MultiGrid K) (nbrow nbcol : ℕ) (alt : K) : Except RpcError (ℕ → ℕ → ORow K) :=
  let rowmax := rnd (g.row0 + rnd (g.steprow * ((g.nbrow : K) - 1)))
  let colmax := rnd (g.col0 + rnd (g.stepcol * ((g.nbcol : K) - 1)))
  let sr := rnd (rnd (rowmax - g.row0) / ((nbrow : K) - 1))
  let sc := rnd (rnd (colmax - g.col0) / ((nbcol : K) - 1))
  gridDirectLocGridHFl rnd g g.row0 g.col0 sr sc nbrow nbcol alt

end Shareloc
