import Verif.Model.Grid
import Verif.Model.DirectDtm

/-!
The predictor that `estimate_inverse_loc_predictor` computes from the nodes of the grid, called by `Localization.inverse` when the grid
has none: `shareloc/geomodels/grid.py:405-438, 539-631`, `shareloc/geofunctions/localization.py:143-146`.
-/

namespace Shareloc
open scoped BigOperators

variable {K : Type*} [Field K] [LinearOrder K] [IsStrictOrderedRing K] [FloorRing K]

/-- The values of one coordinate of the nodes of `interpolate_grid_in_altitude(nbrow, nbcol, 2)`, all the nodes of both altitudes:
the array whose `min()` and `max()` are taken (grid.py:562-566). -/
def sampledNodes (g : MultiGrid K) (nbrow nbcol : ℕ) (f : ORow K → Option K) : List (Option K) :=
  (List.range 2).flatMap fun k => (List.range nbrow).flatMap fun i => (List.range nbcol).map fun j =>
    f (gridInAltitude g nbrow nbcol 2 k i j)

/-- Determinant of the normal matrix `mat_a.T @ mat_a` (grid.py:613-616) of the nodes of altitude `k`, whose normalised positions are
`x`, `y`. -/
def normalDet {n : ℕ} (x y : Fin n → K) : K :=
  let a : Matrix (Fin n) (Fin 6) K := Matrix.of fun m => predMonomials (x m) (y m)
  (a.transpose * a).det

/-- `estimate_inverse_loc_predictor(nbrow, nbcol)` (grid.py:539-631) on the nodes that the grid samples.  `none`: no usable predictor,
because a node is NaN (`min()` and `max()` are then NaN, and all the coefficients), because all the nodes have the same
longitude or the same latitude (the division by the scale gives NaN or infinite numbers), or because a normal matrix is singular
(`np.linalg.inv` raises `LinAlgError`). -/
noncomputable def ownPredictor (g : MultiGrid K) (nbrow nbcol : ℕ) : Option (Predictor K) :=
  let lons := sampledNodes g nbrow nbcol fun p => p.x
  let lats := sampledNodes g nbrow nbcol fun p => p.y
  match olistMin lons, olistMax lons, olistMin lats, olistMax lats with
  | some lonMin, some lonMax, some latMin, some latMax =>
    let lon (k i j : ℕ) : K := (gridInAltitude g nbrow nbcol 2 k i j).x.getD 0
    let lat (k i j : ℕ) : K := (gridInAltitude g nbrow nbcol 2 k i j).y.getD 0
    let x (k : ℕ) (m : Fin (nbrow * nbcol)) : K := (lon k (m.val / nbcol) (m.val % nbcol) - (lonMax + lonMin) / 2) / ((lonMax - lonMin) / 2)
    let y (k : ℕ) (m : Fin (nbrow * nbcol)) : K := (lat k (m.val / nbcol) (m.val % nbcol) - (latMax + latMin) / 2) / ((latMax - latMin) / 2)
    if lonMax = lonMin ∨ latMax = latMin ∨ normalDet (x 0) (y 0) = 0 ∨ normalDet (x 1) (y 1) = 0 then none
    else some (estimatePredictor g nbrow nbcol lon lat lonMin lonMax latMin latMax)
  | _, _, _, _ => none

end Shareloc
