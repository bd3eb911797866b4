import Verif.Model.Localization

/-!
Model of `compute_stereorectification_epipolar_grids` (`shareloc/geofunctions/rectification.py`) from the two geometric models
and the elevation to the grids, of `get_epipolar_extent` and of `compute_epipolar_gsd`.
-/

namespace Shareloc
variable {K δ : Type*} [Field K] [LinearOrder K]

/-- Which exception of a model a call of `coloc` or `Localization.direct` lets through. -/
def LocError.toRpc : LocError → RpcError
  | .model e => e
  | _ => .badSizes

/-- The colocalisations and locations done by the module with two geometric models: `coloc(left, right, ..., elevation)`,
`coloc(right, left, ..., altitudes)` and `Localization(left, elevation).direct` (rectification.py:207-219, 454, 586-589). -/
def stereoOf (conv : ℕ → ℕ → ORow K → ORow K) (left right : Geo K δ) (el : Elevation K δ) : Stereo K where
  l2r := fun pts =>
    match coloc conv left right (pts.map fun p => p.1) (pts.map fun p => p.2) el none none false with
    | .error e => .error e.toRpc
    | .ok r => .ok (r.1.zip r.2)
  r2l := fun pts =>
    match coloc conv right left (pts.map fun p => p.x) (pts.map fun p => p.y) (.value (pts.map fun p => p.z)) none none false with
    | .error e => .error e.toRpc
    | .ok r => .ok r.1
  directL := fun pts =>
    match Localization.direct conv ⟨left, el, none, none⟩ (pts.map fun p => p.1) (pts.map fun p => p.2) none false with
    | .error e => .error e.toRpc
    | .ok r => .ok r

variable [FloorRing K]

/-- `prepare_rectification` (rectification.py:225-348) with the models: the local epipolar line at the origin of the left image
gives the angle and the altitude.  `int` of a NaN raises; a null spacing or a null step also.  The altitude, which may be NaN, is
given apart. -/
def prepareOf (t : Trig K) (m : Stereo K) (im : LeftImage K) (epiStep off : K) (margin : ℤ) :
    Except RectError (Prepared K × Option K) :=
  let o := indexToPhysical im.transform 0 0
  match localEpipolarLine m [⟨some o.1, some o.2, none⟩] off with
  | .error e => .error e
  | .ok ([s], [e], _) =>
    match epipolarAngle t e s with
    | none => .error .valueError
    | some a =>
      if meanSpacing im = 0 then .error .valueError
      else if epiStep = 0 then .error .zeroDivision
      else .ok (prepareRectification (t.cos a) (t.sin a) 0 im epiStep margin, olift2 (fun u v => (u + v) / 2) s.z e.z)
  | .ok _ => .error .indexError

/-- What `init_inputs_rectification` (rectification.py:710-773) returns. -/
structure RectInputs (K : Type*) where
  left : ORow K
  right : ORow K
  spacing : K
  gridRows : ℤ
  gridCols : ℤ
  imageRows : ℤ
  imageCols : ℤ

/-- `init_inputs_rectification` (rectification.py:710-773). -/
def initInputs (t : Trig K) (m : Stereo K) (im : LeftImage K) (epiStep off : K) (margin : ℤ) : Except RectError (RectInputs K) :=
  match prepareOf t m im epiStep off margin with
  | .error e => .error e
  | .ok (p, alt) =>
    match m.l2r [(some p.start.x, some p.start.y)] with
    | .error e => .error (.model e)
    | .ok [c] => .ok ⟨⟨some p.start.x, some p.start.y, alt⟩, c.1, meanSpacing im, p.gridRows, p.gridCols, p.imageRows, p.imageCols⟩
    | .ok _ => .error .indexError

/-- The distance between two points, NaN if a coordinate is (rectification.py:137). -/
def oDist (t : Trig K) (p q : ORow K) : Option K :=
  match p, q with
  | ⟨some a, some b, some c⟩, ⟨some a', some b', some c'⟩ => some (t.sqrt ((a' - a) ^ 2 + (b' - b) ^ 2 + (c' - c) ^ 2))
  | _, _ => none

/-- `compute_epipolar_gsd` (rectification.py:77-138): the distances on the ground of one step across and along the epipolar
line.  `directH` is the direct location of the left model, `toEcef` the conversion of its coordinates to EPSG 4978. -/
def epipolarGsd (t : Trig K) (m : Stereo K)
    (directH : List (Option K) → List (Option K) → List (Option K) → Except RpcError (List (ORow K))) (toEcef : ORow K → ORow K)
    (left : ORow K) (spacing epiStep off : K) : Except RectError (Option K × Option K) :=
  match localEpipolarLine m [left] off with
  | .error e => .error e
  | .ok ([s], [e], _) =>
    let alpha := epipolarAngle t e s
    let along := movePoint t spacing epiStep 1 left alpha
    let across := movePoint t spacing epiStep 0 left alpha
    match directH [left.x, across.x, along.x] [left.y, across.y, along.y] [left.z, across.z, along.z] with
    | .error e => .error (.model e)
    | .ok [g0, g1, g2] => .ok (oDist t (toEcef g0) (toEcef g1), oDist t (toEcef g0) (toEcef g2))
    | .ok _ => .error .indexError
  | .ok _ => .error .indexError

/-- The two strips and the mean (rectification.py:896-940), with the parameters of the adaptive step of each axis. -/
def twoStrips (t : Trig K) (m : Stereo K) (startL startR : ORow K) (spacing step off : K) (rows cols : ℕ)
    (ad0 ad1 : Option (Adaptive K)) : Except RectError (EpiGrids K) :=
  match stripOfEpipolarGrid t m [startL] [startR] spacing 0 rows step off none ad0 with
  | .error e => .error e
  | .ok s0 =>
    match stripOfEpipolarGrid t m (heads nanRow (s0.layers.map fun l => l.left)) (heads nanRow (s0.layers.map fun l => l.right))
        spacing 1 cols step off (some (heads none (s0.layers.map fun l => l.angles))) ad1 with
    | .error e => .error e
    | .ok s1 => .ok ⟨s1.layers, globalMean rows cols s1.mean s0.mean s1.nanCount s0.nanCount⟩

/-- One node of `positions_to_displacement_grid` (rectification.py:793-803), at row `i` and column `j`, possibly NaN. -/
def nodeDisplacement (step : K) (i j : ℕ) (p : ORow K) : ORow K :=
  let q := indexToPhysical (displacementTransform step) (j : K) (i : K)
  ⟨p.x.map fun x => x - q.2, p.y.map fun y => y - q.1, p.z⟩

/-- The grids as returned: columns of nodes. -/
structure RectResult (K : Type*) where
  left : List (List (ORow K))
  right : List (List (ORow K))
  imageRows : ℤ
  imageCols : ℤ
  mean : Option K
deriving DecidableEq, Repr

/-- The columns of a grid, as positions or displacements (rectification.py:942-944). -/
def outputGrid (displacement : Bool) (step : K) (cols : List (List (ORow K))) : List (List (ORow K)) :=
  if displacement then cols.mapIdx fun j l => l.mapIdx fun i p => nodeDisplacement step i j p else cols

/-- `compute_stereorectification_epipolar_grids` (rectification.py:810-952).  `ad` gives `scale_factor` and `max_ratio` when the
step is adaptive; a NaN reference distance is not modelled (`valueError`).  `np.zeros` refuses a negative size. -/
def stereoRectification (t : Trig K) (conv : ℕ → ℕ → ORow K → ORow K) (left right : Geo K δ) (el : Elevation K δ)
    (im : LeftImage K) (epiStep off : K) (displacement : Bool) (margin : ℤ) (ad : Option (K × K)) :
    Except RectError (RectResult K) :=
  let m := stereoOf conv left right el
  match initInputs t m im epiStep off margin with
  | .error e => .error e
  | .ok inp =>
    if inp.gridRows < 0 ∨ inp.gridCols < 0 then .error .valueError
    else
      let gsd : Except RectError (Option (Adaptive K) × Option (Adaptive K)) :=
        match ad with
        | none => .ok (none, none)
        | some (scale, maxRatio) =>
          match epipolarGsd t m left.directH (conv left.epsg 4978) inp.left inp.spacing epiStep off with
          | .error e => .error e
          | .ok (some a, some b) => .ok (some ⟨a, scale, maxRatio⟩, some ⟨b, scale, maxRatio⟩)
          | .ok _ => .error .valueError
      match gsd with
      | .error e => .error e
      | .ok (ad0, ad1) =>
        match twoStrips t m inp.left inp.right inp.spacing epiStep off inp.gridRows.toNat inp.gridCols.toNat ad0 ad1 with
        | .error e => .error e
        | .ok g =>
          let nr : K := ((g.columns.headD ⟨[], [], [], [], []⟩).left.length : K)
          let nc : K := (g.columns.length : K)
          .ok ⟨outputGrid displacement epiStep (g.columns.map fun l => l.left),
            outputGrid displacement epiStep (g.columns.map fun l => l.right),
            if ad.isSome then pyInt (nr * epiStep - epiStep / 2 - 2 * epiStep * margin) else inp.imageRows,
            if ad.isSome then pyInt (nc * epiStep - epiStep / 2 - 2 * epiStep * margin) else inp.imageCols,
            g.mean⟩

/-- The (lon, lat) of a ground point, if they are not NaN. -/
def lonLat (p : ORow K) : Option (K × K) := olift2 Prod.mk p.x p.y

/-- `get_epipolar_extent` (rectification.py:351-400) with the models: the ground positions, at altitude 0, of the four corners of
the grid.  A NaN corner, whose minimum is NaN, is an error here. -/
def extentOf (t : Trig K) (conv : ℕ → ℕ → ORow K → ORow K) (left right : Geo K δ) (el : Elevation K δ) (im : LeftImage K)
    (epiStep off : K) (gridMargin : ℤ) (additional : K) : Except RectError (K × K × K × K) :=
  match prepareOf t (stereoOf conv left right el) im epiStep off gridMargin with
  | .error e => .error e
  | .ok (p, _) =>
    match Localization.direct conv ⟨left, .missing, some ⟨im.transform, im.nbRows, im.nbCols⟩, none⟩
        (p.footprint.map fun v => some v.x) (p.footprint.map fun v => some v.y) (some [some 0]) false with
    | .error e => .error (.model e.toRpc)
    | .ok g =>
      if g.any fun q => (lonLat q).isNone then .error .valueError
      else
        match epipolarExtent (g.filterMap lonLat) additional with
        | some r => .ok r
        | none => .error .valueError

end Shareloc
