import Verif.Model.Rpc
import Mathlib.Algebra.Order.Floor.Ring
import Mathlib.LinearAlgebra.Matrix.NonsingularInverse
import Mathlib.Data.Fin.VecNotation

/-!
Model of the multi altitude direct location grid: `shareloc/geomodels/grid.py`.

Arrays are functions of natural indices; the sizes are fields.  The two scipy interpolators are modelled by their
documented behaviour (piecewise multilinear, the outer cells being extended outwards).  Rounding is not modelled: in
particular `np.arange(x0, x0 + n * step, step)` has exactly `n` elements.
-/

namespace Shareloc
open scoped BigOperators

variable {K : Type*} [Field K] [LinearOrder K] [IsStrictOrderedRing K] [FloorRing K]

/-- A loaded grid (grid.py:81-132, 147-196): sizes, altitudes of the layers, longitudes and latitudes, origin and steps;
`geographic` is `self.epsg == 4326`. -/
structure MultiGrid (K : Type*) where
  nbalt : ℕ
  nbrow : ℕ
  nbcol : ℕ
  alts : ℕ → K
  lon : ℕ → ℕ → ℕ → K
  lat : ℕ → ℕ → ℕ → K
  row0 : K
  col0 : K
  steprow : K
  stepcol : K
  geographic : Bool

/-! ### Loading -/

/-- The entries of the metadata whose key contains `ALTITUDE`, as (band number, altitude), written in order into
`alt_array` (grid.py:224-229); the entries not written stay at 0. -/
def altArray (nbalt : ℕ) (status : Bool) (entries : List (ℕ × K)) : List K :=
  entries.foldl (fun arr e => arr.set (e.1 / (2 + status.toNat)) e.2) (List.replicate nbalt 0)

/-- What `parse_metadata_alti` (grid.py:212-232) returns and stores: the layer indexes and `alts_down`.  `argsort` is
`np.argsort` on the array. -/
def parseMetadataAlti (argsort : List K → List ℕ) (nbalt : ℕ) (status : Bool) (entries : List (ℕ × K)) :
    List ℕ × List K :=
  let arr := altArray nbalt status entries
  let idx := (argsort arr).reverse
  (idx, idx.map fun i => arr.getD i 0)

/-- `Grid.read` (grid.py:147-196) for the bands of the file: `nbalt`, `alts_down` and the two data cubes. -/
def readGrid (argsort : List K → List ℕ) (bands : List (ℕ → ℕ → K)) (status : Bool) (entries : List (ℕ × K)) :
    ℕ × List K × (ℕ → ℕ → ℕ → K) × (ℕ → ℕ → ℕ → K) :=
  let nbalt := bands.length / (2 + status.toNat)
  let m := parseMetadataAlti argsort nbalt status entries
  let band (k : ℕ) : ℕ → ℕ → K := bands.getD k (fun _ _ => 0)
  (nbalt, m.2, (fun i => band (m.1.getD i 0 * (2 + status.toNat))),
    (fun i => band (m.1.getD i 0 * (2 + status.toNat) + 1)))

/-! ### Interpolation -/

/-- Index of the layer just above an altitude among `n` decreasing altitudes, at most `n - 2`: the interval chosen by
`interp1d` (grid.py:119-123), outer intervals extended. -/
def altUp (alts : ℕ → K) (n : ℕ) (alt : K) : ℕ :=
  min (((List.range n).filter fun i => decide (alts i ≥ alt)).length - 1) (n - 2)

/-- `self.alt_normalise_interp` (grid.py:119-123): linear interpolation of the layer index in the altitude. -/
def altNorm (g : MultiGrid K) (alt : K) : K :=
  let i := altUp g.alts g.nbalt alt
  ((i : K) + 1) - (alt - g.alts (i + 1)) / (g.alts i - g.alts (i + 1))

/-- Cell of a normalised coordinate on an axis of `n` nodes, outer cells extended (grid.py:130-132,
`bounds_error=False, fill_value=None`). -/
def gridCell (n : ℕ) (t : K) : ℕ := (max 0 (min ⌊t⌋ ((n : ℤ) - 2))).toNat

/-- Piecewise linear interpolation of the values `f 0 ... f (n-1)` at `t`, outer pieces extended: one axis of
`RegularGridInterpolator` (grid.py:130-132). -/
def lerp (n : ℕ) (f : ℕ → K) (t : K) : K :=
  let i := gridCell n t
  f i + (t - i) * (f (i + 1) - f i)

/-- `self.interpolator_lonlat` (grid.py:125-132) for one of the two data cubes: multilinear interpolation at
(layer index, row, col). -/
def gridInterp (g : MultiGrid K) (data : ℕ → ℕ → ℕ → K) (a row col : K) : K :=
  lerp g.nbalt (fun k => lerp g.nbrow (fun i => lerp g.nbcol (fun j => data k i j) ((col - g.col0) / g.stepcol))
    ((row - g.row0) / g.steprow)) a

/-! ### Direct location -/

/-- One point of `Grid.direct_loc_h` (grid.py:258-284).  A NaN altitude gives a NaN position. -/
def gridPoint (g : MultiGrid K) (row col alt : Option K) : ORow K :=
  let p : ORow K :=
    match row, col, alt with
    | some r, some c, some a =>
      ⟨some (gridInterp g g.lon (altNorm g a) r c), some (gridInterp g g.lat (altNorm g a) r c), some a⟩
    | _, _, a => ⟨none, none, a⟩
  if g.geographic then checkRow p else p

/-- `Grid.direct_loc_h` (grid.py:243-284) on arrays. -/
def gridDirectLocH (g : MultiGrid K) (row col alt : List (Option K)) : Except RpcError (List (ORow K)) :=
  match broadcastAlt col.length alt with
  | .error e => .error e
  | .ok alt' =>
    if row.length = col.length then
      .ok ((row.zip (col.zip alt')).map fun t => gridPoint g t.1 t.2.1 t.2.2)
    else .error .badSizes

/-- `np.meshgrid(rows, cols, indexing="ij")` ravelled (grid.py:526-531): the (row, col) pairs in row-major order, with
`rows = np.arange(row0, row0 + nbrow * steprow, steprow)`. -/
def meshIj (row0 col0 steprow stepcol : K) (nbrow nbcol : ℕ) : List (K × K) :=
  (List.range nbrow).flatMap fun (i : ℕ) => (List.range nbcol).map fun (j : ℕ) =>
    (row0 + (i : K) * steprow, col0 + (j : K) * stepcol)

/-- `Grid.direct_loc_grid_h` (grid.py:502-535): the flat result reshaped to `(nbrow, nbcol, 3)`; value at node
`(i, j)`. -/
def gridDirectLocGridH (g : MultiGrid K) (row0 col0 steprow stepcol : K) (nbrow nbcol : ℕ) (alt : K) :
    Except RpcError (ℕ → ℕ → ORow K) :=
  let pts := meshIj row0 col0 steprow stepcol nbrow nbcol
  match gridDirectLocH g (pts.map fun p => some p.1) (pts.map fun p => some p.2) [some alt] with
  | .error e => .error e
  | .ok l => .ok fun i j => l.getD (i * nbcol + j) nanRow

/-- `Grid.return_grid_index` (grid.py:478-500): `(high_index, low_index)`; with a single layer the high index may be
-1, a Python index from the end. -/
def returnGridIndex (g : MultiGrid K) (alt : K) : ℤ × ℤ :=
  if alt > g.alts 0 then (0, 1)
  else if alt < g.alts (g.nbalt - 1) then ((g.nbalt : ℤ) - 2, (g.nbalt : ℤ) - 1)
  else
    let i := ((List.range g.nbalt).takeWhile fun i => decide (g.alts i ≥ alt)).length
    let i := if i = g.nbalt then g.nbalt - 1 else i
    ((i : ℤ) - 1, (i : ℤ))

/-! ### Lines of sight -/

/-- `interpolate_grid_in_plani` (grid.py:375-403): `np.repeat` of the points, `np.tile` of the altitudes, reshaped to
`(row.size, nb_alt, 2)`; value at `(n, k)`. -/
def gridPlani (g : MultiGrid K) (pts : List (K × K)) (alts : List K) : ℕ → ℕ → K × K :=
  let rep := pts.flatMap fun p => List.replicate alts.length p
  let til := (List.replicate pts.length (alts.map (altNorm g))).flatten
  let res := (rep.zip til).map fun t => (gridInterp g g.lon t.2 t.1.1 t.1.2, gridInterp g g.lat t.2 t.1.1 t.1.2)
  fun n k => res.getD (n * alts.length + k) (0, 0)

/-- `Grid.compute_los` (grid.py:286-316) without change of EPSG: vertex `k` of the line of sight `n`. -/
def gridComputeLos (g : MultiGrid K) (pts : List (K × K)) (alts : Option (List K)) : ℕ → ℕ → K × K × K :=
  let al := alts.getD ((List.range g.nbalt).map g.alts)
  let ll := gridPlani g pts al
  fun n k => ((ll n k).1, (ll n k).2, al.getD k 0)

/-- The altitudes of the lines of sight intersected with a DTM (grid.py:343-348), `minDtm` and `maxDtm` being the
altitude range of the DTM enlarged by one metre and converted. -/
def dtmAlts (alts : List K) (minDtm maxDtm : K) : List K :=
  let a := if minDtm < alts.getLastD 0 then alts ++ [minDtm] else alts
  if maxDtm > alts.headD 0 then maxDtm :: a else a

/-! ### Inverse location -/

/-- Python indexing of an axis of `n` elements by a possibly negative index (grid.py:709-723). -/
def pyIndex (n : ℕ) (i : ℤ) : ℕ := if i < 0 then (i + n).toNat else i.toNat

/-- The forward differences used by `inverse_partial_derivative` (grid.py:695-742), in degrees per pixel:
`(dlon/dcol, dlon/drow, dlat/dcol, dlat/drow)` interpolated in altitude. -/
def gridDiffs (g : MultiGrid K) (row col alt : K) : K × K × K × K :=
  let i := gridCell g.nbrow ((row - g.row0) / g.steprow)
  let j := gridCell g.nbcol ((col - g.col0) / g.stepcol)
  let u := pyIndex g.nbalt (returnGridIndex g alt).1
  let d := pyIndex g.nbalt (returnGridIndex g alt).2
  let h := (alt - g.alts d) / (g.alts u - g.alts d)
  let mix (b t : K) : K := (1 - h) * b + h * t
  (mix ((g.lon d i (j + 1) - g.lon d i j) / g.stepcol) ((g.lon u i (j + 1) - g.lon u i j) / g.stepcol),
   mix ((g.lon d (i + 1) j - g.lon d i j) / g.steprow) ((g.lon u (i + 1) j - g.lon u i j) / g.steprow),
   mix ((g.lat d i (j + 1) - g.lat d i j) / g.stepcol) ((g.lat u i (j + 1) - g.lat u i j) / g.stepcol),
   mix ((g.lat d (i + 1) j - g.lat d i j) / g.steprow) ((g.lat u (i + 1) j - g.lat u i j) / g.steprow))

/-- `inverse_partial_derivative` (grid.py:676-747): the 2x2 matrix `(m00, m01, m10, m11)` from microradians to pixels,
`rad` being `np.deg2rad(1) * 1e6`.  A null determinant gives no finite matrix: see `gridRaises` for what follows. -/
def inversePartial (g : MultiGrid K) (rad : K) (row col alt : K) : Option (K × K × K × K) :=
  let d := gridDiffs g row col alt
  let a := d.1 * rad
  let b := d.2.1 * rad
  let c := d.2.2.1 * rad
  let e := d.2.2.2 * rad
  let det := a * e - b * c
  if det = 0 then none else some (e / det, -b / det, -c / det, a / det)

/-- The variables of the loop of `Grid.inverse_loc` for one point: position and error of the last measure. -/
structure GridIter (K : Type*) where
  row : Option K
  col : Option K
  err : Option K
deriving DecidableEq, Repr

/-- One turn of the loop (grid.py:813-824).  `coslat` is the value of `np.cos(np.deg2rad(lat))`, `rtx` the constant
`1e-12 * 6378000**2`. -/
def gridStep (g : MultiGrid K) (rad rtx coslat lon lat alt : K) (s : GridIter K) : GridIter K :=
  match s.row, s.col with
  | some row, some col =>
    let p := gridPoint g (some row) (some col) (some alt)
    match p.x, p.y with
    | some plon, some plat =>
      let dlon := (plon - lon) * rad
      let dlat := (plat - lat) * rad
      let err := rtx * (dlat ^ 2 + (dlon * coslat) ^ 2)
      match inversePartial g rad row col alt with
      | some m => ⟨some (row - (m.2.2.1 * dlon + m.2.2.2 * dlat)), some (col - (m.1 * dlon + m.2.1 * dlat)), some err⟩
      | none => ⟨none, none, some err⟩
    | _, _ => ⟨none, none, none⟩
  | _, _ => ⟨none, none, none⟩

/-- `m2_error > 1e-6` (grid.py:813), false on NaN. -/
def gridErrBig (e : Option K) : Bool :=
  match e with
  | some x => decide (x > 1 / 1000000)
  | none => false

/-- The loop of `Grid.inverse_loc` (grid.py:813-824), with the number of turns done. -/
def gridLoop (g : MultiGrid K) (rad rtx coslat lon lat alt : K) : ℕ → GridIter K → GridIter K × ℕ
  | 0, s => (s, 0)
  | n + 1, s =>
    if gridErrBig s.err then
      let res := gridLoop g rad rtx coslat lon lat alt n (gridStep g rad rtx coslat lon lat alt s)
      (res.1, res.2 + 1)
    else (s, 0)

/-- The result of `Grid.inverse_loc` (grid.py:807-828) for one valid point from the predicted position: the error
starts at 10 and `None`, stored as NaN, is returned if no turn was done. -/
def gridInverse (g : MultiGrid K) (rad rtx coslat lon lat alt : K) (row col : K) (nbIterations : ℕ) : GridIter K × ℕ :=
  let res := gridLoop g rad rtx coslat lon lat alt nbIterations ⟨some row, some col, some 10⟩
  if res.2 = 0 then (⟨none, none, res.1.err⟩, 0) else res

/-! ### Predictor -/

/-- The coefficients and normalisations stored by `estimate_inverse_loc_predictor` (grid.py:623-631). -/
structure Predictor (K : Type*) where
  colMin : Fin 6 → K
  rowMin : Fin 6 → K
  colMax : Fin 6 → K
  rowMax : Fin 6 → K
  lonOff : K
  lonScale : K
  latOff : K
  latScale : K
  rowOff : K
  rowScale : K
  colOff : K
  colScale : K

/-- The monomials `[1, x, y, x**2, y**2, x*y]` (grid.py:662; rows of the matrices 595-606). -/
def predMonomials (x y : K) : Fin 6 → K := ![1, x, y, x ^ 2, y ^ 2, x * y]

/-- `inverse_loc_predictor` (grid.py:633-672): predicted (row, col) and extrapolation state. -/
def gridPredict (g : MultiGrid K) (p : Predictor K) (lon lat alt : K) : K × K × Bool :=
  let altmin := g.alts (g.nbalt - 1)
  let altmax := g.alts 0
  let x := (lon - p.lonOff) / p.lonScale
  let y := (lat - p.latOff) / p.latScale
  let ext := decide (|x| > 1 + 20 / 100) || decide (|y| > 1 + 20 / 100)
  let v := predMonomials x y
  let colMin := (∑ i, p.colMin i * v i) * p.colScale + p.colOff
  let rowMin := (∑ i, p.rowMin i * v i) * p.rowScale + p.rowOff
  let colMax := (∑ i, p.colMax i * v i) * p.colScale + p.colOff
  let rowMax := (∑ i, p.rowMax i * v i) * p.rowScale + p.rowOff
  let h := (alt - altmin) / (altmax - altmin)
  ((1 - h) * rowMin + h * rowMax, (1 - h) * colMin + h * colMax, ext)

/-- `np.linspace(a, b, n)` at index `k` (grid.py:422, 559-560). -/
def linspace (a b : K) (n k : ℕ) : K := a + k * ((b - a) / ((n : K) - 1))

/-- `interpolate_grid_in_altitude(nbrow, nbcol, 2)` (grid.py:405-438): the located nodes at the first altitude (`k = 0`)
and the last one (`k = 1`), NaN for invalid positions. -/
def gridInAltitude (g : MultiGrid K) (nbrow nbcol nbalt k i j : ℕ) : ORow K :=
  let rowmax := g.row0 + g.steprow * ((g.nbrow : K) - 1)
  let colmax := g.col0 + g.stepcol * ((g.nbcol : K) - 1)
  let sr := (rowmax - g.row0) / ((nbrow : K) - 1)
  let sc := (colmax - g.col0) / ((nbcol : K) - 1)
  match gridDirectLocGridH g g.row0 g.col0 sr sc nbrow nbcol
    (linspace (g.alts 0) (g.alts (g.nbalt - 1)) nbalt k) with
  | .ok f => f i j
  | .error _ => nanRow

/-- `t_aa_inv @ mat_a.T @ b` (grid.py:609-621): the coefficients fitted on `nbMes` measures whose normalised positions
are `x`, `y`, for the values `b`; `np.linalg.inv` is the exact inverse. -/
noncomputable def predFit {n : ℕ} (x y b : Fin n → K) : Fin 6 → K :=
  let a : Matrix (Fin n) (Fin 6) K := Matrix.of fun m => predMonomials (x m) (y m)
  ((a.transpose * a)⁻¹ * a.transpose).mulVec b

/-- `estimate_inverse_loc_predictor` (grid.py:539-631) for the located nodes `lon k i j`, `lat k i j` of
`interpolate_grid_in_altitude` (`k = 0` at the highest altitude): `mn`, `mx` are `min` and `max` of the whole arrays. -/
noncomputable def estimatePredictor (g : MultiGrid K) (nbrow nbcol : ℕ) (lon lat : ℕ → ℕ → ℕ → K) (lonMin lonMax latMin latMax : K) :
    Predictor K :=
  let rowmax := g.row0 + g.steprow * ((g.nbrow : K) - 1)
  let colmax := g.col0 + g.stepcol * ((g.nbcol : K) - 1)
  let lonOff := (lonMax + lonMin) / 2
  let lonScale := (lonMax - lonMin) / 2
  let latOff := (latMax + latMin) / 2
  let latScale := (latMax - latMin) / 2
  let x (k : ℕ) (m : Fin (nbrow * nbcol)) : K := (lon k (m.val / nbcol) (m.val % nbcol) - lonOff) / lonScale
  let y (k : ℕ) (m : Fin (nbrow * nbcol)) : K := (lat k (m.val / nbcol) (m.val % nbcol) - latOff) / latScale
  let bCol (m : Fin (nbrow * nbcol)) : K := linspace (-1) 1 nbcol (m.val % nbcol)
  let bRow (m : Fin (nbrow * nbcol)) : K := linspace (-1) 1 nbrow (m.val / nbcol)
  { colMin := predFit (x 1) (y 1) bCol
    rowMin := predFit (x 1) (y 1) bRow
    colMax := predFit (x 0) (y 0) bCol
    rowMax := predFit (x 0) (y 0) bRow
    lonOff := lonOff, lonScale := lonScale, latOff := latOff, latScale := latScale
    rowOff := (rowmax + g.row0) / 2, rowScale := (rowmax - g.row0) / 2
    colOff := (colmax + g.col0) / 2, colScale := (colmax - g.col0) / 2 }

/-- One point of `Grid.inverse_loc` (grid.py:786-828): `cosdeg x` is `np.cos(np.deg2rad(x))`.  The longitude and latitude
are checked, a NaN point stays NaN (a NaN altitude makes the point NaN: geomodel_template.py:121-123). -/
def gridInversePoint (g : MultiGrid K) (p : Predictor K) (rad rtx : K) (cosdeg : K → K) (nbIterations : ℕ)
    (lon lat alt : Option K) : ORow K :=
  let q := checkRow ⟨lon, lat, alt⟩
  match q.x, q.y, q.z with
  | some lo, some la, some a =>
    let s := gridPredict g p lo la a
    let r := (gridInverse g rad rtx (cosdeg la) lo la a s.1 s.2.1 nbIterations).1
    ⟨r.row, r.col, some a⟩
  | _, _, a => ⟨none, none, a⟩

/-- Is `(p / 0) * dl + (q / 0) * dt` NaN (grid.py:744, 821)?  A null `p` or `q` gives `0 / 0`, a null `dl` or `dt` an infinite number times
zero, and different signs the difference of infinite numbers. -/
def nullNan (p q dl dt : K) : Bool := decide (p = 0 ∨ q = 0 ∨ dl = 0 ∨ dt = 0 ∨ p * dl * (q * dt) < 0)

/-- Does a turn of the loop of `inverse_loc` from `(row, col)` give a NaN row or column after a null determinant (grid.py:741-744,
815-823)?  Otherwise a null determinant gives infinite ones. -/
def gridTurnNan (g : MultiGrid K) (rad lon lat alt row col : K) : Bool :=
  let p := gridPoint g (some row) (some col) (some alt)
  match p.x, p.y with
  | some plon, some plat =>
    let dlon := (plon - lon) * rad
    let dlat := (plat - lat) * rad
    let d := gridDiffs g row col alt
    let a := d.1 * rad
    let b := d.2.1 * rad
    let c := d.2.2.1 * rad
    let e := d.2.2.2 * rad
    decide (a * e - b * c = 0) && (nullNan e (-b) dlon dlat || nullNan (-c) a dlon dlat)
  | _, _ => false

/-- Does the loop of `Grid.inverse_loc` (grid.py:813-824) raise?  With a NaN row or column, an error above the threshold and a turn left, the
next turn reaches `int(index_row)` or `int(index_col)` (grid.py:704-705) with NaN: `ValueError`.  With infinite ones it locates NaN and
the loop ends. -/
def gridRaises (g : MultiGrid K) (rad rtx coslat lon lat alt : K) : ℕ → GridIter K → Bool
  | 0, _ => false
  | n + 1, s =>
    if gridErrBig s.err then
      match s.row, s.col with
      | some row, some col =>
        let s' := gridStep g rad rtx coslat lon lat alt s
        (gridTurnNan g rad lon lat alt row col && gridErrBig s'.err && decide (n ≠ 0)) || gridRaises g rad rtx coslat lon lat alt n s'
      | _, _ => false
    else false

/-- Does one point make `Grid.inverse_loc` raise (grid.py:786-828)? -/
def gridPointRaises (g : MultiGrid K) (p : Predictor K) (rad rtx : K) (cosdeg : K → K) (nbIterations : ℕ) (lon lat alt : Option K) : Bool :=
  let q := checkRow ⟨lon, lat, alt⟩
  match q.x, q.y, q.z with
  | some lo, some la, some a =>
    let s := gridPredict g p lo la a
    gridRaises g rad rtx (cosdeg la) lo la a nbIterations ⟨some s.1, some s.2.1, some 10⟩
  | _, _, _ => false

/-- `Grid.inverse_loc` (grid.py:749-829) on arrays: rows of (row, col, alt).  An exception on one point loses the whole array. -/
def gridInverseLoc (g : MultiGrid K) (p : Predictor K) (rad rtx : K) (cosdeg : K → K)
    (lon lat alt : List (Option K)) (nbIterations : ℕ) : Except RpcError (List (ORow K)) :=
  match broadcastAlt lon.length alt with
  | .error e => .error e
  | .ok alt' =>
    if lon.length = lat.length then
      if (lon.zip (lat.zip alt')).any fun t => gridPointRaises g p rad rtx cosdeg nbIterations t.1 t.2.1 t.2.2 then .error .derivativeNan
      else .ok ((lon.zip (lat.zip alt')).map fun t => gridInversePoint g p rad rtx cosdeg nbIterations t.1 t.2.1 t.2.2)
    else .error .badSizes

end Shareloc
