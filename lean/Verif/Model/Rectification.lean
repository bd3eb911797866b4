import Verif.Model.Triangulation

/-!
Model of `shareloc/geofunctions/rectification.py`, `shareloc/geofunctions/rectification_grid.py` and
`shareloc/bindings/rectification.cpp`.

A NaN is `none`; a sensor position is a row (x = row, y = column, z = altitude).  The colocalisation functions and the
trigonometric functions are parameters.
-/

namespace Shareloc
variable {K : Type*} [Field K] [LinearOrder K]

/-- The functions of `math` / `numpy` used by the module. -/
structure Trig (K : Type*) where
  cos : K → K
  sin : K → K
  arctan : K → K
  sqrt : K → K
  pi : K

/-- An operation on two NaN-able numbers. -/
def olift2 {α β γ : Type*} (f : α → β → γ) (a : Option α) (b : Option β) : Option γ :=
  match a, b with
  | some x, some y => some (f x y)
  | _, _ => none

/-! ### Local epipolar line -/

/-- `compute_epipolar_angle` (rectification.py:141-182), one row.  The tests on a NaN are false, so that no assignment
is done and 0 remains when the columns cannot be compared. -/
def epipolarAngle (t : Trig K) (e s : ORow K) : Option K :=
  match e.y, s.y with
  | some ec, some sc =>
    if ec = sc then
      match e.x, s.x with
      | some er, some sr => if er > sr then some (t.pi / 2) else some (-(t.pi / 2))
      | _, _ => some 0
    else
      match e.x, s.x with
      | some er, some sr =>
        let slope := (er - sr) / (ec - sc)
        if ec > sc then some (t.arctan slope) else some (t.pi + t.arctan slope)
      | _, _ => none
  | _, _ => some 0

/-- C++ `compute_epipolar_angle` (rectification.cpp:41-71). -/
def epipolarAngleCpp (t : Trig K) (e s : ORow K) : Option K :=
  match e.y, s.y with
  | some ec, some sc =>
    if ec = sc then
      match e.x, s.x with
      | some er, some sr => if er > sr then some (t.pi / 2) else some (-(t.pi / 2))
      | _, _ => some (-(t.pi / 2))
    else
      match e.x, s.x with
      | some er, some sr =>
        let slope := (er - sr) / (ec - sc)
        if ec > sc then some (t.arctan slope) else some (t.pi + t.arctan slope)
      | _, _ => none
  | _, _ => none

/-- The exceptions of this module. -/
inductive RectError
  | valueError
  | indexError
  | zeroDivision
  /-- undefined behaviour of the C++ code: access outside of a vector -/
  | outOfBounds
  | model (e : RpcError)
deriving DecidableEq, Repr

/-- The three colocalisations used: left to right with the given elevation (right position, ground position), right to
left at given altitudes, and the direct localisation of the left model. -/
structure Stereo (K : Type*) where
  l2r : List (Option K × Option K) → Except RpcError (List (ORow K × ORow K))
  r2l : List (ORow K) → Except RpcError (List (ORow K))
  directL : List (Option K × Option K) → Except RpcError (List (ORow K))

/-- The (row, column) of a position. -/
def rowCol (p : ORow K) : Option K × Option K := (p.x, p.y)

/-- `right_corr[:, 2] = ground_elev + offset` (rectification.py:210-219). -/
def shiftAlt (off : K) (p : ORow K) : ORow K := ⟨p.x, p.y, p.z.map fun z => z + off⟩

/-- `compute_local_epipolar_line` (rectification.py:185-221): starts, ends and ground positions. -/
def localEpipolarLine (m : Stereo K) (left : List (ORow K)) (off : K) :
    Except RectError (List (ORow K) × List (ORow K) × List (ORow K)) :=
  match m.l2r (left.map rowCol) with
  | .error e => .error (.model e)
  | .ok corr =>
    match m.r2l (corr.map fun c => shiftAlt (-off) c.1) with
    | .error e => .error (.model e)
    | .ok starts =>
      match m.r2l (corr.map fun c => shiftAlt off c.1) with
      | .error e => .error (.model e)
      | .ok ends => .ok (starts, ends, corr.map fun c => c.2)

/-- The displacement of one point (rectification.py:444-451). -/
def movePoint (t : Trig K) (spacing step : K) (axis : ℤ) (p : ORow K) (angle : Option K) : ORow K :=
  let a := angle.map fun a => a + (1 - axis) * t.pi / 2
  ⟨olift2 (fun r a => r + step * spacing * t.sin a) p.x a, olift2 (fun c a => c + step * spacing * t.cos a) p.y a, p.z⟩

/-- `moving_along_axis` (rectification.py:403-456): new left, right and ground positions. -/
def movingAlongAxis (t : Trig K) (m : Stereo K) (cur : List (ORow K)) (spacing step : K) (angles : List (Option K))
    (axis : ℤ) : Except RectError (List (ORow K) × List (ORow K) × List (ORow K)) :=
  if axis ≠ 0 ∧ axis ≠ 1 then .error .valueError
  else
    let next := List.zipWith (movePoint t spacing step axis) cur angles
    match m.l2r (next.map rowCol) with
    | .error e => .error (.model e)
    | .ok corr => .ok (next, corr.map fun c => c.1, corr.map fun c => c.2)

/-! ### Strips -/

/-- One layer of a strip: a row of the grid if axis = 0, a column if axis = 1. -/
structure Layer (K : Type*) where
  left : List (ORow K)
  right : List (ORow K)
  angles : List (Option K)
  /-- local baseline ratios computed at this layer (none computed if the angles were given) -/
  baseline : List (Option K)
  /-- ratios of the adaptive step that led to this layer -/
  ratio : List (Option K)
deriving DecidableEq, Repr

/-- `local_baseline_ratio` (rectification.py:576-579, 670-673), one point. -/
def baselineRatio (t : Trig K) (off : K) (s e : ORow K) : Option K :=
  match e.x, e.y, s.x, s.y with
  | some er, some ec, some sr, some sc =>
    some (t.sqrt ((ec - sc) * (ec - sc) + (er - sr) * (er - sr)) / (2 * off))
  | _, _, _, _ => none

/-- The parameters of the adaptive step: `epi_reso[axis]`, `scale` and `max_ratio`. -/
structure Adaptive (K : Type*) where
  ref : K
  scale : K
  maxRatio : K

/-- Ratio of the adaptive step (rectification.py:620-628), one point, from the new and current ground altitudes.  With a reference
distance of 0 the division gives NaN on a flat ground and an infinity, replaced by the largest ratio, elsewhere. -/
def adaptRatio (t : Trig K) (a : Adaptive K) (zNew zCur : Option K) : Option K :=
  match zNew, zCur with
  | some z1, some z0 =>
    let d := |z1 - z0|
    if a.ref = 0 ∧ d = 0 then none
    else
      let q := t.sqrt (d * d + a.ref * a.ref) / a.ref
      let r := if a.ref = 0 ∨ q > a.maxRatio then a.maxRatio else q
      some (r + (r - 1) * a.scale)
  | _, _ => none

/-- `(temp - current) / ratio + current` (rectification.py:634-636), on one position. -/
def rescale (ratio : Option K) (new cur : ORow K) : ORow K :=
  let f (n c : Option K) : Option K := olift2 (fun d r => d + r) (olift2 (fun d r => d / r) (olift2 (fun a b => a - b) n c) ratio) c
  ⟨f new.x cur.x, f new.y cur.y, f new.z cur.z⟩

/-- Three arrays walked together. -/
def zipWith3 {α β γ δ : Type*} (f : α → β → γ → δ) : List α → List β → List γ → List δ
  | a :: as, b :: bs, c :: cs => f a b c :: zipWith3 f as bs cs
  | _, _, _ => []

/-- The variables of the loop. -/
structure StripState (K : Type*) where
  left : List (ORow K)
  right : List (ORow K)
  ground : List (ORow K)
  angles : List (Option K)
  sums : List (Option K)
deriving DecidableEq, Repr

/-- One iteration of the loop (rectification.py:604-676): the new layer and state. -/
def stripStep (t : Trig K) (m : Stereo K) (spacing step off : K) (axis : ℤ) (ad : Option (Adaptive K))
    (st : StripState K) : Except RectError (Layer K × StripState K) :=
  match movingAlongAxis t m st.left spacing step st.angles axis with
  | .error e => .error e
  | .ok (nl, nr, ng) =>
    let ratio : List (Option K) := match ad with
      | some a => List.zipWith (adaptRatio t a) (ng.map fun p => p.z) (st.ground.map fun p => p.z)
      | none => []
    let sums : List (Option K) := match ad with
      | some _ => List.zipWith (olift2 fun s r => s + 1 / r) st.sums ratio
      | none => st.sums.map fun s => s.map fun x => x + 1
    let left : List (ORow K) := match ad with
      | some _ => zipWith3 rescale ratio nl st.left
      | none => nl
    let right : List (ORow K) := match ad with
      | some _ => zipWith3 rescale ratio nr st.right
      | none => nr
    match localEpipolarLine m left off with
    | .error e => .error e
    | .ok (starts, ends, ground) =>
      let angles := List.zipWith (epipolarAngle t) ends starts
      .ok (⟨left, right, angles, List.zipWith (baselineRatio t off) starts ends, ratio⟩,
        ⟨left, right, ground, angles, sums⟩)

/-- `np.any(sum_ratio < strip_size)` (rectification.py:603). -/
def anyBelow (size : ℕ) (sums : List (Option K)) : Bool := sums.any fun s =>
  match s with
  | some x => decide (x < (size : K))
  | none => false

/-- The loop (rectification.py:603-676) with `room` layers left in the output arrays: writing outside of them raises. -/
def stripLoop (t : Trig K) (m : Stereo K) (spacing step off : K) (axis : ℤ) (ad : Option (Adaptive K)) (size : ℕ) :
    ℕ → StripState K → Except RectError (List (Layer K))
  | room, st =>
    if anyBelow size st.sums then
      match room with
      | 0 => .error .indexError
      | room + 1 =>
        match stripStep t m spacing step off axis ad st with
        | .error e => .error e
        | .ok (layer, st') =>
          match stripLoop t m spacing step off axis ad size room st' with
          | .error e => .error e
          | .ok ls => .ok (layer :: ls)
    else .ok []

/-- The result of a strip: the layers, the mean baseline ratio and the number of NaN. -/
structure Strip (K : Type*) where
  layers : List (Layer K)
  mean : Option K
  nanCount : ℕ
deriving DecidableEq, Repr

/-- All the baseline ratios computed in a strip. -/
def stripBaselines (ls : List (Layer K)) : List (Option K) := ls.flatMap fun l => l.baseline

/-- Number of NaN of an array. -/
def countNan (l : List (Option K)) : ℕ := (l.filter fun o => o.isNone).length

/-- `mean_baseline_ratio` of a strip (rectification.py:674-703): `shape` is the number of nodes of the arrays before
they are cut, `nodes` after. A division by zero gives NaN. -/
def stripMean (baselines : List (Option K)) (shape nodes already : ℕ) : Option K :=
  let nan := countNan baselines
  if nan = shape then none
  else
    let d : K := (nodes : K) - nan - already
    if d = 0 then none else some (nansum baselines / d)

variable [FloorRing K]

/-- `max_strip_size` (rectification.py:530-535): `max_ratio` is 1 without adaptive step. -/
def maxStripSize (ad : Option (Adaptive K)) (size : ℕ) : ℕ :=
  match ad with
  | some a => (⌈(size : K) * ((a.maxRatio - 1) * a.scale + 1)⌉).toNat
  | none => (⌈(size : K) * ((1 - 1) * 1 + 1)⌉).toNat

/-- `compute_strip_of_epipolar_grid` (rectification.py:461-705).  The starting points are given as the list of the
points of the first layer (at least one); the layers are the rows (axis 0) or columns (axis 1) of the output. -/
def stripOfEpipolarGrid (t : Trig K) (m : Stereo K) (left right : List (ORow K)) (spacing : K) (axis : ℤ) (size : ℕ)
    (step off : K) (angles : Option (List (Option K))) (ad : Option (Adaptive K)) : Except RectError (Strip K) :=
  let maxSize := maxStripSize ad size
  if maxSize = 0 then .error .indexError
  else
    let first : Except RectError (Layer K × List (ORow K) × ℕ) :=
      match angles with
      | none =>
        match localEpipolarLine m left off with
        | .error e => .error e
        | .ok (starts, ends, ground) =>
          .ok (⟨left, right, List.zipWith (epipolarAngle t) ends starts, List.zipWith (baselineRatio t off) starts ends, []⟩,
            ground, 0)
      | some a =>
        match m.directL (left.map rowCol) with
        | .error e => .error (.model e)
        | .ok ground => .ok (⟨left, right, a, [], []⟩, ground, a.length)
    match first with
    | .error e => .error e
    | .ok (l0, ground, already) =>
      let sums : List (Option K) := match ad with
        | some _ => left.map fun _ => some 1
        | none => [some 1]
      match stripLoop t m spacing step off axis ad size (maxSize - 1) ⟨left, right, ground, l0.angles, sums⟩ with
      | .error e => .error e
      | .ok ls =>
        let layers := l0 :: ls
        let b := stripBaselines layers
        -- nothing computed: `mean_baseline_ratio` is still the integer 0, divided by an integer
        if angles.isSome ∧ ls.length = 0 ∧ left.length = already then .error .zeroDivision
        else .ok ⟨layers, stripMean b (maxSize * left.length) (layers.length * left.length) already, countNan b⟩

/-! ### Size of the grids -/

/-- What is used of the left image: sizes, pixel sizes and geotransform (image.py). -/
structure LeftImage (K : Type*) where
  nbRows : ℕ
  nbCols : ℕ
  pixelSizeRow : K
  pixelSizeCol : K
  transform : Affine K

/-- `mean_spacing` (rectification.py:253, 749). -/
def meanSpacing (im : LeftImage K) : K := (1 / 2) * (|im.pixelSizeCol| + |im.pixelSizeRow|)

/-- A bounding box. -/
structure BBox (K : Type*) where
  minx : K
  miny : K
  maxx : K
  maxy : K
deriving DecidableEq, Repr

/-- Bounding box of the left image in epipolar geometry (rectification.py:281-302), from the cosine and sine of the
epipolar angle. -/
def epipolarBox (c s : K) (im : LeftImage K) : BBox K :=
  let w := (im.nbCols : K) * im.pixelSizeCol
  let h := (im.nbRows : K) * im.pixelSizeRow
  let urx := c * w
  let ury := -s * w
  let llx := s * h
  let lly := c * h
  let lrx := c * w + s * h
  let lry := -s * w + c * h
  ⟨min (min (min urx llx) lrx) 0, min (min (min ury lly) lry) 0, max (max (max urx llx) lrx) 0,
    max (max (max ury lly) lry) 0⟩

/-- What `prepare_rectification` returns. -/
structure Prepared (K : Type*) where
  pixelSize : K
  gridRows : ℤ
  gridCols : ℤ
  imageRows : ℤ
  imageCols : ℤ
  /-- [ul, ll, lr, ur] -/
  footprint : List (V3 K)
  start : V3 K
deriving DecidableEq, Repr

/-- Position in the image of the epipolar coordinates (x, y) (rectification.py:313-333). -/
def epiToImage (c s : K) (origin : K × K) (alt x y : K) : V3 K :=
  ⟨origin.1 + (s * x + c * y), origin.2 + (c * x + -s * y), alt⟩

/-- `prepare_rectification` (rectification.py:225-348) from the cosine and sine of the epipolar angle at the origin and
the altitude of the local epipolar line. -/
def prepareRectification (c s alt : K) (im : LeftImage K) (epiStep : K) (margin : ℤ) : Prepared K :=
  let sp := meanSpacing im
  let o := indexToPhysical im.transform 0 0
  let b := epipolarBox c s im
  let imRows := pyInt ((b.maxy - b.miny) / sp)
  let imCols := pyInt ((b.maxx - b.minx) / sp)
  let mg := (margin : K) * epiStep * sp
  let minx := b.minx - mg
  let miny := b.miny - mg
  let maxx := b.maxx + mg
  let maxy := b.maxy + mg
  let ul := epiToImage c s o alt minx miny
  let lr := epiToImage c s o alt (maxx + epiStep) (maxy + epiStep)
  let ur := epiToImage c s o alt minx (maxy + epiStep)
  let ll := epiToImage c s o alt (maxx + epiStep) miny
  ⟨epiStep * sp, pyInt ((imRows : K) / epiStep + 2) + 2 * margin, pyInt ((imCols : K) / epiStep + 2) + 2 * margin,
    imRows, imCols, [ul, ll, lr, ur], ul⟩

/-- `get_epipolar_extent` (rectification.py:387-400) from the ground positions (lon, lat) of the footprint: minimum and
maximum of each coordinate, latitude first. -/
def epipolarExtent (ground : List (K × K)) (mg : K) : Option (K × K × K × K) :=
  match ground with
  | [] => none
  | p :: ps =>
    let lonMin := ps.foldl (fun a q => min a q.1) p.1
    let lonMax := ps.foldl (fun a q => max a q.1) p.1
    let latMin := ps.foldl (fun a q => min a q.2) p.2
    let latMax := ps.foldl (fun a q => max a q.2) p.2
    some (latMin - mg, lonMin - mg, latMax + mg, lonMax + mg)

/-! ### The grids -/

/-- `mean_baseline_ratio` of both strips (rectification.py:937-940). -/
def globalMean (rows cols : ℕ) (meanBr meanBrCol : Option K) (nan nanCol : ℕ) : Option K :=
  olift2 (fun a b => (a * ((cols : K) * ((rows : K) - 1) - nan) + b * ((rows : K) - nanCol)) /
    ((cols : K) * rows - nan - nanCol)) meanBr meanBrCol

/-- The result of `compute_stereorectification_epipolar_grids`: the columns of the grids. -/
structure EpiGrids (K : Type*) where
  columns : List (Layer K)
  mean : Option K
deriving DecidableEq, Repr

/-- First element of each layer of a strip of width one. -/
def heads {β : Type*} (d : β) (l : List (List β)) : List β := l.map fun x => x.headD d

/-- The two strips of `compute_stereorectification_epipolar_grids` (rectification.py:896-940) from the starting points,
without adaptive step. -/
def stereoGrids (t : Trig K) (m : Stereo K) (startL startR : ORow K) (spacing step off : K) (rows cols : ℕ) :
    Except RectError (EpiGrids K) :=
  match stripOfEpipolarGrid t m [startL] [startR] spacing 0 rows step off none none with
  | .error e => .error e
  | .ok s0 =>
    match stripOfEpipolarGrid t m (heads nanRow (s0.layers.map fun l => l.left)) (heads nanRow (s0.layers.map fun l => l.right))
        spacing 1 cols step off (some (heads none (s0.layers.map fun l => l.angles))) none with
    | .error e => .error e
    | .ok s1 => .ok ⟨s1.layers, globalMean rows cols s1.mean s0.mean s1.nanCount s0.nanCount⟩

/-! ### Displacement grids and files -/

/-- `positions_to_displacement_grid` (rectification.py:776-804) for one of the grids (row, col, altitude). -/
def toDisplacement (step : K) (g : ℕ → ℕ → V3 K) : ℕ → ℕ → V3 K := fun i j =>
  let t : Affine K := ⟨step, 0, -(step * (1 / 2)), 0, step, -(step * (1 / 2))⟩
  let p := indexToPhysical t (j : K) (i : K)
  ⟨(g i j).x - p.2, (g i j).y - p.1, (g i j).z⟩

/-- The geotransform returned with the displacement grids (rectification.py:797). -/
def displacementTransform (step : K) : Affine K := ⟨step, 0, -(step * (1 / 2)), 0, step, -(step * (1 / 2))⟩

/-- A three band file: sizes, geotransform and values (band, row, column). -/
structure EpiFile (K : Type*) where
  rows : ℕ
  cols : ℕ
  transform : Affine K
  band : ℕ → ℕ → ℕ → K

/-- `write_epipolar_grid` (rectification.py:47-74). -/
def writeEpipolarGrid (rows cols : ℕ) (g : ℕ → ℕ → V3 K) (tr : Affine K) (xy : Bool) : EpiFile K :=
  ⟨rows, cols, tr, fun b i j =>
    if xy then (if b = 1 then (g i j).y else if b = 2 then (g i j).x else (g i j).z)
    else (if b = 1 then (g i j).x else if b = 2 then (g i j).y else (g i j).z)⟩

/-- A rectification grid: nodes (columns and rows) and positions (row, column) indexed by (column, row). -/
structure RectGrid (K : Type*) where
  nbCols : ℕ
  nbRows : ℕ
  colNode : ℕ → K
  rowNode : ℕ → K
  rowPos : ℕ → ℕ → K
  colPos : ℕ → ℕ → K

/-- `RectificationGrid.__init__` (rectification_grid.py:37-84).  `np.arange(ori, ori + step * n, step)` is taken to have
exactly n nodes (no rounding). -/
def readRectGrid (f : EpiFile K) (displacement : Bool) : RectGrid K :=
  let o := f.transform.apply (1 / 2) (1 / 2)
  let col (i : ℕ) : K := o.1 + (i : K) * f.transform.a
  let row (j : ℕ) : K := o.2 + (j : K) * f.transform.e
  ⟨f.cols, f.rows, col, row,
   fun i j => if displacement then f.band 2 j i + row j else f.band 2 j i,
   fun i j => if displacement then f.band 1 j i + col i else f.band 1 j i⟩

/-- Index of the interval of scipy's RegularGridInterpolator: `searchsorted(nodes, x) - 1` kept in [0, n - 2]
(called at rectification_grid.py:78-84 and 105). -/
def intervalIndex (n : ℕ) (node : ℕ → K) (x : K) : ℕ :=
  min (((List.range n).filter fun k => decide (node k < x)).length - 1) (n - 2)

/-- Bilinear interpolation and extrapolation of `RectificationGrid.interpolate` (rectification_grid.py:95-105) for one
position (col, row): the interpolated (col, row). -/
def rectInterpolate (g : RectGrid K) (col row : K) : K × K :=
  let i := intervalIndex g.nbCols g.colNode col
  let j := intervalIndex g.nbRows g.rowNode row
  let u := (col - g.colNode i) / (g.colNode (i + 1) - g.colNode i)
  let v := (row - g.rowNode j) / (g.rowNode (j + 1) - g.rowNode j)
  let f (p : ℕ → ℕ → K) : K :=
    p i j * ((1 - u) * (1 - v)) + p i (j + 1) * ((1 - u) * v) + p (i + 1) j * (u * (1 - v)) + p (i + 1) (j + 1) * (u * v)
  (f g.colPos, f g.rowPos)

end Shareloc
