import Verif.Model.DirectDtm

/-!
The location grids that `shareloc/geomodels/grid.py` computes from a grid (`direct_loc_grid_dtm`, `coloc`) and the grid as a
geometric model of `Localization`.
-/

namespace Shareloc
variable {K : Type*} [Field K] [LinearOrder K] [IsStrictOrderedRing K] [FloorRing K]

/-- `Grid.get_alt_min_max` (grid.py:234-241). -/
def gridAltMinMax (g : MultiGrid K) : K × K := (g.alts (g.nbalt - 1), g.alts 0)

/-- `Grid.direct_loc_grid_dtm` (grid.py:440-476) for a DTM in the system of the grid and at least two layers (`np.squeeze` would
also drop the axis of a single layer): the value stored for node `(i, j)`.  The lines of sight have the altitudes of the layers
only (`compute_los` without `alts`) and neither the flag of `intersection` nor the longitudes are looked at. -/
def gridDirectLocGridDtm (N : ℕ) (g : MultiGrid K) (row0 col0 steprow stepcol : K) (d : Dtm K) (i j : ℕ) : DtmPoint K :=
  let col := col0 + stepcol * j
  let row := row0 + steprow * i
  let los := (List.range g.nbalt).map fun k =>
    let v := gridComputeLos g [(row, col)] none 0 k
    (⟨v.1, v.2.1, v.2.2⟩ : V3 K)
  losDtm .py d N los

/-- `Grid.direct_loc_dtm` (grid.py:318-353) with the bounds computed from the DTM, as an `(N, 3)` array.  A DTM in another system than
the grid makes `coordinates_conversion` receive a three-dimensional array (grid.py:314-315), which is reported as an exception, and so
are bounds that cannot be converted (simplification: the code, which returns NaN at once when no pixel is valid (grid.py:337), does not raise
for such an array). -/
def gridDirectLocDtm (conv : ℕ → ℕ → ORow K → ORow K) (N : ℕ) (g : MultiGrid K) (e : ℕ) (row col : List (Option K)) (d : ℕ × Dtm K) :
    Except RpcError (List (ORow K)) :=
  if d.1 ≠ e then .error .badSizes
  else
    match dtmRange conv d.1 e d.2 with
    | none => .error .badSizes
    | some b =>
      match gridDirectDtm .py N g d.2 b.1 b.2 row col with
      | .error er => .error er
      | .ok l => dtmRows l

/-- A grid as a geometric model (grid.py:183-188 for the bounds); `g.geographic` is `e = 4326`, `p` the predictor estimated at the
first inverse location (localization.py:143-146), and 15 the default number of iterations (grid.py:749). -/
def gridGeo (conv : ℕ → ℕ → ORow K → ORow K) (N : ℕ) (g : MultiGrid K) (p : Predictor K) (rad rtx : K) (cosdeg : K → K) (e : ℕ) :
    Geo K (ℕ × Dtm K) where
  epsg := e
  bounds := ((g.row0, g.col0), (g.row0 + g.steprow * ((g.nbrow : K) - 1), g.col0 + g.stepcol * ((g.nbcol : K) - 1)))
  directH := gridDirectLocH g
  directDtm := gridDirectLocDtm conv N g e
  inverse := fun lon lat h =>
    match gridInverseLoc g p rad rtx cosdeg lon lat h 15 with
    | .error er => .error er
    | .ok l => .ok (some (l.map fun q => (q.x, q.y)))

/-- One node of `grid.coloc` (grid.py:852-862): direct location of the pixel on the DTM by the source, inverse location of the point
by the destination; `(row, col, alt)`. -/
def gridColocNode (conv : ℕ → ℕ → ORow K → ORow K) (N : ℕ) (src dst : MultiGrid K) (p : Predictor K) (rad rtx : K) (cosdeg : K → K)
    (e : ℕ) (d : ℕ × Dtm K) (t : K × K) : Except RpcError (ORow K) :=
  match gridDirectLocDtm conv N src e [some t.1] [some t.2] d with
  | .error er => .error er
  | .ok l =>
    let q := l.headD nanRow
    match gridInverseLoc dst p rad rtx cosdeg [q.x] [q.y] [q.z] 15 with
    | .error er => .error er
    | .ok r => .ok (r.headD nanRow)

/-- The nodes of `grid.coloc` in the order of its loops (grid.py:850-854). -/
def colocNodes (row0 col0 steprow stepcol : K) (nbrow nbcol : ℕ) : List (K × K) :=
  (List.range nbrow).flatMap fun (i : ℕ) => (List.range nbcol).map fun (j : ℕ) => (row0 + steprow * (i : K), col0 + stepcol * (j : K))

/-- `grid.coloc` (grid.py:832-863): value at node `(i, j)` of the result, of shape `(3, nbrow, nbcol)`; an exception at one node stops
the loops. -/
def gridColoc (conv : ℕ → ℕ → ORow K → ORow K) (N : ℕ) (src dst : MultiGrid K) (p : Predictor K) (rad rtx : K) (cosdeg : K → K)
    (e : ℕ) (d : ℕ × Dtm K) (row0 col0 steprow stepcol : K) (nbrow nbcol : ℕ) : Except RpcError (ℕ → ℕ → ORow K) :=
  match mapExcept (gridColocNode conv N src dst p rad rtx cosdeg e d) (colocNodes row0 col0 steprow stepcol nbrow nbcol) with
  | .error er => .error er
  | .ok l => .ok fun i j => l.getD (i * nbcol + j) nanRow

end Shareloc
