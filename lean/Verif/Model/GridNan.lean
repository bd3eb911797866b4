import Verif.Model.Session
import Verif.Model.DtmNan

/-!
A multi altitude grid of which some nodes have no longitude or latitude (NaN): the functions of `shareloc/geomodels/grid.py` again, on
arrays that may hold NaN.
-/

namespace Shareloc
variable {K : Type*} [Field K] [LinearOrder K] [IsStrictOrderedRing K] [FloorRing K]

/-- A loaded grid (grid.py:81-132, 147-196) with NaN (`none`) in its two data cubes. -/
structure NanGrid (K : Type*) where
  nbalt : ℕ
  nbrow : ℕ
  nbcol : ℕ
  alts : ℕ → K
  lon : ℕ → ℕ → ℕ → Option K
  lat : ℕ → ℕ → ℕ → Option K
  row0 : K
  col0 : K
  steprow : K
  stepcol : K
  geographic : Bool

/-- One axis of `RegularGridInterpolator` (grid.py:130-132) on values that may be NaN: NaN if one of the two values is, even with a
null weight (the interpolator adds the products of the values and of their weights). -/
def olerp (n : ℕ) (f : ℕ → Option K) (t : K) : Option K :=
  match f (gridCell n t), f (gridCell n t + 1) with
  | some a, some b => some (a + (t - gridCell n t) * (b - a))
  | _, _ => none

namespace NanGrid

/-- The parts of a grid that do not hold NaN: sizes, altitudes, origin and steps (grid.py:164-181). -/
def sizes (g : NanGrid K) : MultiGrid K :=
  ⟨g.nbalt, g.nbrow, g.nbcol, g.alts, fun _ _ _ => 0, fun _ _ _ => 0, g.row0, g.col0, g.steprow, g.stepcol, g.geographic⟩

/-- `self.interpolator_lonlat` (grid.py:125-132) for one of the two data cubes. -/
def interp (g : NanGrid K) (data : ℕ → ℕ → ℕ → Option K) (a row col : K) : Option K :=
  olerp g.nbalt (fun k => olerp g.nbrow (fun i => olerp g.nbcol (fun j => data k i j) ((col - g.col0) / g.stepcol))
    ((row - g.row0) / g.steprow)) a

/-- One point of `Grid.direct_loc_h` (grid.py:258-284). -/
def point (g : NanGrid K) (row col alt : Option K) : ORow K :=
  let p : ORow K :=
    match row, col, alt with
    | some r, some c, some a =>
      ⟨g.interp g.lon (altNorm g.sizes a) r c, g.interp g.lat (altNorm g.sizes a) r c, some a⟩
    | _, _, a => ⟨none, none, a⟩
  if g.geographic then checkRow p else p

/-- `Grid.direct_loc_h` (grid.py:243-284) on arrays. -/
def directLocH (g : NanGrid K) (row col alt : List (Option K)) : Except RpcError (List (ORow K)) :=
  match broadcastAlt col.length alt with
  | .error e => .error e
  | .ok alt' =>
    if row.length = col.length then
      .ok ((row.zip (col.zip alt')).map fun t => g.point t.1 t.2.1 t.2.2)
    else .error .badSizes

/-- The forward differences of `inverse_partial_derivative` (grid.py:695-742) of the data cube `data` along one axis, interpolated in
altitude: NaN if one of the four nodes is. -/
def diff (g : NanGrid K) (data : ℕ → ℕ → ℕ → Option K) (step alt : K) (i j i' j' : ℕ) : Option K :=
  let u := pyIndex g.nbalt (returnGridIndex g.sizes alt).1
  let d := pyIndex g.nbalt (returnGridIndex g.sizes alt).2
  let h := (alt - g.alts d) / (g.alts u - g.alts d)
  match data d i j, data d i' j', data u i j, data u i' j' with
  | some d0, some d1, some u0, some u1 => some ((1 - h) * ((d1 - d0) / step) + h * ((u1 - u0) / step))
  | _, _, _, _ => none

/-- `inverse_partial_derivative` (grid.py:676-747): one NaN difference makes the determinant NaN, and the four coefficients.  A null
determinant: as in `inversePartial`. -/
def inversePartial (g : NanGrid K) (rad : K) (row col alt : K) : Option (K × K × K × K) :=
  let i := gridCell g.nbrow ((row - g.row0) / g.steprow)
  let j := gridCell g.nbcol ((col - g.col0) / g.stepcol)
  match g.diff g.lon g.stepcol alt i j i (j + 1), g.diff g.lon g.steprow alt i j (i + 1) j,
    g.diff g.lat g.stepcol alt i j i (j + 1), g.diff g.lat g.steprow alt i j (i + 1) j with
  | some da, some db, some dc, some de =>
    let a := da * rad
    let b := db * rad
    let c := dc * rad
    let e := de * rad
    let det := a * e - b * c
    if det = 0 then none else some (e / det, -b / det, -c / det, a / det)
  | _, _, _, _ => none

/-- One turn of the loop of `Grid.inverse_loc` (grid.py:813-824): a NaN position gives a NaN error and NaN coordinates. -/
def step (g : NanGrid K) (rad rtx coslat lon lat alt : K) (s : GridIter K) : GridIter K :=
  match s.row, s.col with
  | some row, some col =>
    let p := g.point (some row) (some col) (some alt)
    match p.x, p.y with
    | some plon, some plat =>
      let dlon := (plon - lon) * rad
      let dlat := (plat - lat) * rad
      let err := rtx * (dlat ^ 2 + (dlon * coslat) ^ 2)
      match g.inversePartial rad row col alt with
      | some m => ⟨some (row - (m.2.2.1 * dlon + m.2.2.2 * dlat)), some (col - (m.1 * dlon + m.2.1 * dlat)), some err⟩
      | none => ⟨none, none, some err⟩
    | _, _ => ⟨none, none, none⟩
  | _, _ => ⟨none, none, none⟩

/-- The loop (grid.py:813-824), with the number of turns done. -/
def loop (g : NanGrid K) (rad rtx coslat lon lat alt : K) : ℕ → GridIter K → GridIter K × ℕ
  | 0, s => (s, 0)
  | n + 1, s =>
    if gridErrBig s.err then
      let res := loop g rad rtx coslat lon lat alt n (g.step rad rtx coslat lon lat alt s)
      (res.1, res.2 + 1)
    else (s, 0)

/-- One point of `Grid.inverse_loc` (grid.py:786-828) with the predictor `p`. -/
def inversePoint (g : NanGrid K) (p : Predictor K) (rad rtx : K) (cosdeg : K → K) (nbIterations : ℕ) (lon lat alt : Option K) : ORow K :=
  let q := checkRow ⟨lon, lat, alt⟩
  match q.x, q.y, q.z with
  | some lo, some la, some a =>
    let s := gridPredict g.sizes p lo la a
    let res := g.loop rad rtx (cosdeg la) lo la a nbIterations ⟨some s.1, some s.2.1, some 10⟩
    if res.2 = 0 then ⟨none, none, some a⟩ else ⟨res.1.row, res.1.col, some a⟩
  | _, _, a => ⟨none, none, a⟩

/-- Does a turn give a NaN row or column after a null determinant (grid.py:741-744, 815-823), from a position that is not NaN?  A NaN
difference is one of a NaN position (`partial_of_interp` in Props/GridNan.lean): the error is NaN then and the loop ends. -/
def turnNan (g : NanGrid K) (rad lon lat alt row col : K) : Bool :=
  let p := g.point (some row) (some col) (some alt)
  let i := gridCell g.nbrow ((row - g.row0) / g.steprow)
  let j := gridCell g.nbcol ((col - g.col0) / g.stepcol)
  match p.x, p.y with
  | some plon, some plat =>
    match g.diff g.lon g.stepcol alt i j i (j + 1), g.diff g.lon g.steprow alt i j (i + 1) j,
      g.diff g.lat g.stepcol alt i j i (j + 1), g.diff g.lat g.steprow alt i j (i + 1) j with
    | some da, some db, some dc, some de =>
      decide (da * rad * (de * rad) - db * rad * (dc * rad) = 0) &&
        (nullNan (de * rad) (-(db * rad)) ((plon - lon) * rad) ((plat - lat) * rad) ||
          nullNan (-(dc * rad)) (da * rad) ((plon - lon) * rad) ((plat - lat) * rad))
    | _, _, _, _ => true
  | _, _ => false

/-- Does the loop raise (grid.py:704-705, 813-824), as `gridRaises`? -/
def raises (g : NanGrid K) (rad rtx coslat lon lat alt : K) : ℕ → GridIter K → Bool
  | 0, _ => false
  | n + 1, s =>
    if gridErrBig s.err then
      match s.row, s.col with
      | some row, some col =>
        let s' := g.step rad rtx coslat lon lat alt s
        (g.turnNan rad lon lat alt row col && gridErrBig s'.err && decide (n ≠ 0)) || raises g rad rtx coslat lon lat alt n s'
      | _, _ => false
    else false

/-- Does one point make `Grid.inverse_loc` raise (grid.py:786-828)? -/
def pointRaises (g : NanGrid K) (p : Predictor K) (rad rtx : K) (cosdeg : K → K) (nbIterations : ℕ) (lon lat alt : Option K) : Bool :=
  let q := checkRow ⟨lon, lat, alt⟩
  match q.x, q.y, q.z with
  | some lo, some la, some a =>
    let s := gridPredict g.sizes p lo la a
    g.raises rad rtx (cosdeg la) lo la a nbIterations ⟨some s.1, some s.2.1, some 10⟩
  | _, _, _ => false

/-- `Grid.inverse_loc` (grid.py:749-829) on arrays. -/
def inverseLoc (g : NanGrid K) (p : Predictor K) (rad rtx : K) (cosdeg : K → K) (lon lat alt : List (Option K)) (nbIterations : ℕ) :
    Except RpcError (List (ORow K)) :=
  match broadcastAlt lon.length alt with
  | .error e => .error e
  | .ok alt' =>
    if lon.length = lat.length then
      if (lon.zip (lat.zip alt')).any fun t => g.pointRaises p rad rtx cosdeg nbIterations t.1 t.2.1 t.2.2 then .error .derivativeNan
      else .ok ((lon.zip (lat.zip alt')).map fun t => g.inversePoint p rad rtx cosdeg nbIterations t.1 t.2.1 t.2.2)
    else .error .badSizes

/-- `interpolate_grid_in_altitude(nbrow, nbcol, 2)` (grid.py:405-438): node `(i, j)` at the first (`k = 0`) or last (`k = 1`)
altitude. -/
def inAltitude (g : NanGrid K) (nbrow nbcol k i j : ℕ) : ORow K :=
  let rowmax := g.row0 + g.steprow * ((g.nbrow : K) - 1)
  let colmax := g.col0 + g.stepcol * ((g.nbcol : K) - 1)
  let sr := (rowmax - g.row0) / ((nbrow : K) - 1)
  let sc := (colmax - g.col0) / ((nbcol : K) - 1)
  let pts := meshIj g.row0 g.col0 sr sc nbrow nbcol
  match g.directLocH (pts.map fun p => some p.1) (pts.map fun p => some p.2) [some (linspace (g.alts 0) (g.alts (g.nbalt - 1)) 2 k)] with
  | .ok l => l.getD (i * nbcol + j) nanRow
  | .error _ => nanRow

/-- The values of one coordinate of the sampled nodes (grid.py:562-566). -/
def sampled (g : NanGrid K) (nbrow nbcol : ℕ) (f : ORow K → Option K) : List (Option K) :=
  (List.range 2).flatMap fun k => (List.range nbrow).flatMap fun i => (List.range nbcol).map fun j => f (g.inAltitude nbrow nbcol k i j)

/-- `Grid.estimate_inverse_loc_predictor` (grid.py:539-631), as `estimatePred`. -/
noncomputable def estimate (g : NanGrid K) (nbrow nbcol : ℕ) : Except RpcError (PredState K) :=
  if nbrow = 1 ∨ nbcol = 1 then .error .zeroDivision
  else if nbrow = 0 ∨ nbcol = 0 then .error .badSizes
  else
    match olistMin (g.sampled nbrow nbcol fun p => p.x), olistMax (g.sampled nbrow nbcol fun p => p.x),
      olistMin (g.sampled nbrow nbcol fun p => p.y), olistMax (g.sampled nbrow nbcol fun p => p.y) with
    | some lonMin, some lonMax, some latMin, some latMax =>
      if lonMax = lonMin ∨ latMax = latMin then .ok .nan
      else
        let lon (k i j : ℕ) : K := (g.inAltitude nbrow nbcol k i j).x.getD 0
        let lat (k i j : ℕ) : K := (g.inAltitude nbrow nbcol k i j).y.getD 0
        let x (k : ℕ) (m : Fin (nbrow * nbcol)) : K := (lon k (m.val / nbcol) (m.val % nbcol) - (lonMax + lonMin) / 2) / ((lonMax - lonMin) / 2)
        let y (k : ℕ) (m : Fin (nbrow * nbcol)) : K := (lat k (m.val / nbcol) (m.val % nbcol) - (latMax + latMin) / 2) / ((latMax - latMin) / 2)
        if normalDet (x 0) (y 0) = 0 ∨ normalDet (x 1) (y 1) = 0 then .error .singularMatrix
        else .ok (.fitted (estimatePredictor g.sizes nbrow nbcol lon lat lonMin lonMax latMin latMax))
    | _, _, _, _ => .ok .nan

/-- `Grid.inverse_loc` (grid.py:749-829) of a grid whose predictor is in the state `s`, as `gridInverseIn`. -/
def inverseIn (g : NanGrid K) (s : PredState K) (rad rtx : K) (cosdeg : K → K) (lon lat alt : List (Option K)) (nbIterations : ℕ) :
    Except RpcError (List (ORow K)) :=
  match s with
  | .fitted p => g.inverseLoc p rad rtx cosdeg lon lat alt nbIterations
  | s => gridInverseIn g.sizes s rad rtx cosdeg lon lat alt nbIterations

/-- `compute_los` (grid.py:286-316) for one pixel and the altitudes `alts`, without change of EPSG: a vertex of which the longitude or
the latitude is NaN is `none` (the equation of every plane of the DTM is NaN there). -/
def los (g : NanGrid K) (row col : K) (alts : List K) : List (Option (V3 K)) :=
  alts.map fun a =>
    match g.interp g.lon (altNorm g.sizes a) row col, g.interp g.lat (altNorm g.sizes a) row col with
    | some lon, some lat => some ⟨lon, lat, a⟩
    | _, _ => none

/-- One valid pixel of `direct_loc_dtm` (grid.py:318-353), the grid and the DTM (which may have holes also) being in the same
system. -/
def dtmPixel (impl : Impl) (N : ℕ) (g : NanGrid K) (d : NanDtm K) (minDtm maxDtm : K) (row col : K) : DtmPoint K :=
  let p := d.losDtm impl N (g.los row col (dtmAlts ((List.range g.nbalt).map g.alts) minDtm maxDtm))
  if g.geographic then checkDtmPoint p else p

end NanGrid

end Shareloc
