import Verif.Model.Rectification
import Mathlib.Data.List.Sort

/-!
Model of `shareloc/dtm_reader.py`: mask and statistics, filling of no-data cells, geoid heights.

A raster is the list of its cells, row after row; NaN is `none`.  Rounding of floating-point types is not modelled; storing
into an integer raster truncates.  `rasterio.fill.fillnodata` and `coordinates_conversion` are parameters; scipy's `interpn` is
modelled by its formula.
-/

namespace Shareloc
variable {K : Type*} [Field K] [LinearOrder K] [IsStrictOrderedRing K] [FloorRing K]

/-- The exceptions of this module. -/
inductive DtmError
  | valueError
  | typeError
  | runtimeError
  deriving DecidableEq, Repr

/-- The type of the cells of the raster file (image.py:187). -/
inductive DType
  | float
  | int
  deriving DecidableEq, Repr

/-- Value stored by `data[...] = v` (dtm_reader.py:135, 142, 144): truncated in an integer raster, where NaN is refused. -/
def DType.store (t : DType) (v : Option K) : Except DtmError (Option K) :=
  match t, v with
  | .float, v => .ok v
  | .int, some x => .ok (some ((pyInt x : ℤ) : K))
  | .int, none => .error .valueError

/-- `self.mask` (dtm_reader.py:86-90): the mask read with NaN cells set to 0; without a no-data value in the file, 255 for
numbers and 0 for NaN. `nodata`: `none` is `None`, `some none` is NaN. -/
def dtmMask (nodata : Option (Option K)) (read : List ℕ) (data : List (Option K)) : List ℕ :=
  match nodata with
  | some _ => List.zipWith (fun m v => match v with | none => 0 | some _ => m) read data
  | none => data.map fun v => match v with | none => 0 | some _ => 255

/-- `valid_data` (dtm_reader.py:92).  A NaN is never in it, see `dtmMask`. -/
def validData (mask : List ℕ) (data : List (Option K)) : List K :=
  (mask.zip data).filterMap fun p => if p.1 = 255 then p.2 else none

/-- The four statistics (dtm_reader.py:94-97). -/
structure DtmStats (K : Type*) where
  min : K
  max : K
  mean : K
  median : K

/-- `np.median` of numbers: the middle one after sorting, or the mean of the two middle ones (dtm_reader.py:97). -/
def npMedian (l : List K) : K :=
  let s := l.insertionSort (· ≤ ·)
  let n := l.length
  if n % 2 = 1 then s.getD (n / 2) 0 else (s.getD (n / 2 - 1) 0 + s.getD (n / 2) 0) / 2

/-- `self.stats` (dtm_reader.py:94-97): `np.min` of an empty array raises `ValueError`. -/
def dtmStats (valid : List K) : Except DtmError (DtmStats K) :=
  match valid with
  | [] => .error .valueError
  | a :: l => .ok ⟨l.foldl Min.min a, l.foldl Max.max a, (a :: l).sum / ((a :: l).length : K), npMedian (a :: l)⟩

/-- The `strategy` string (dtm_reader.py:119-146). -/
inductive FillStrategy
  | min
  | max
  | mean
  | median
  | rioFillnodata
  | constant
  | other
  deriving DecidableEq, Repr

/-- `strategy in self.stats` and `self.stats[strategy]` (dtm_reader.py:134-135). -/
def DtmStats.get (s : DtmStats K) : FillStrategy → Option K
  | .min => some s.min
  | .max => some s.max
  | .mean => some s.mean
  | .median => some s.median
  | _ => none

/-- `data[mask == 0] = v` (dtm_reader.py:135, 144). -/
def fillMasked (mask : List ℕ) (data : List (Option K)) (v : Option K) : List (Option K) :=
  List.zipWith (fun m x => if m = 0 then v else x) mask data

/-- `x == self.nodata` for one cell (dtm_reader.py:138, 142): never for NaN, never when the file has no no-data value. -/
def isNodata (nodata : Option (Option K)) (x : Option K) : Bool :=
  match nodata, x with
  | some (some n), some v => decide (v = n)
  | _, _ => false

/-- `np.sum(self.data[mask == 0] == self.nodata) != 0` (dtm_reader.py:138). -/
def residual (nodata : Option (Option K)) (mask : List ℕ) (data : List (Option K)) : Bool :=
  (mask.zip data).any fun p => decide (p.1 = 0) && isNodata nodata p.2

/-- `fill_nodata` (dtm_reader.py:119-146); `ext` is `rasterio.fill.fillnodata` with its distance and smoothing; `fill`: `none`
is `None`, `some none` is NaN. -/
def fillNodata (ext : List (Option K) → List ℕ → List (Option K)) (t : DType) (nodata : Option (Option K)) (s : DtmStats K)
    (mask : List ℕ) (data : List (Option K)) (strategy : FillStrategy) (fill : Option (Option K)) :
    Except DtmError (List (Option K)) :=
  match s.get strategy with
  | some v => do
    let v' ← t.store (some v)
    return fillMasked mask data v'
  | none =>
    match strategy with
    | .rioFillnodata =>
      let data' := ext data mask
      if residual nodata mask data' then do
        let v' ← t.store (fill.getD (some s.min))
        return data'.map fun x => if isNodata nodata x then v' else x
      else return data'
    | .constant =>
      match fill, t with
      | none, .int => .error .typeError
      | none, .float => return fillMasked mask data none
      | some v, t => do
        let v' ← t.store v
        return fillMasked mask data v'
    | _ => return data

/-- The altitudes before the geoid, as computed by the constructor (dtm_reader.py:79-101). -/
def readAltitudes (ext : List (Option K) → List ℕ → List (Option K)) (t : DType) (nodata : Option (Option K)) (read : List ℕ)
    (data : List (Option K)) (strategy : Option FillStrategy) (fill : Option (Option K)) : Except DtmError (List (Option K)) := do
  let s ← dtmStats (validData (dtmMask nodata read data) data)
  match strategy with
  | none => return data
  | some st => fillNodata ext t nodata s (dtmMask nodata read data) data st fill

/-! ### Geoid -/

/-- The geoid image (dtm_reader.py:164): size, geotransform, heights by row and column. -/
structure GeoidImage (K : Type*) where
  nbRows : ℕ
  nbCols : ℕ
  transform : Affine K
  data : ℕ → ℕ → K

/-- The first column repeated at the end (dtm_reader.py:166-171). -/
def GeoidImage.overlap (g : GeoidImage K) : GeoidImage K :=
  if (g.nbCols : K) * g.transform.a - 360 < 1 / 10 ^ 8 then
    { g with nbCols := g.nbCols + 1, data := fun i j => if j = g.nbCols then g.data i 0 else g.data i j }
  else g

/-- `min_lon` (dtm_reader.py:179). -/
def GeoidImage.minLon (g : GeoidImage K) : K := g.transform.c + g.transform.a / 2

/-- `max_lon` (dtm_reader.py:180-182), computed after the overlap. -/
def GeoidImage.maxLon (g : GeoidImage K) : K := g.transform.c + (g.nbCols : K) * g.transform.a - g.transform.a / 2

/-- The two changes of longitude (dtm_reader.py:183-184). -/
def GeoidImage.wrap (g : GeoidImage K) (lon : K) : K :=
  let l := if lon + g.minLon < 0 then lon + 360 else lon
  if l - g.maxLon > 0 then l - 360 else l

/-- `interpn` on integer nodes, linear, NaN outside (dtm_reader.py:188-195). -/
def GeoidImage.interpn (g : GeoidImage K) (row col : K) : Option K :=
  if 0 ≤ row ∧ row ≤ ((g.nbRows - 1 : ℕ) : K) ∧ 0 ≤ col ∧ col ≤ ((g.nbCols - 1 : ℕ) : K) then
    let i := intervalIndex g.nbRows (fun k => (k : K)) row
    let j := intervalIndex g.nbCols (fun k => (k : K)) col
    let u := row - (i : K)
    let v := col - (j : K)
    some (g.data i j * ((1 - u) * (1 - v)) + g.data i (j + 1) * ((1 - u) * v) + g.data (i + 1) j * (u * (1 - v)) +
      g.data (i + 1) (j + 1) * (u * v))
  else none

/-- `np.abs(lat) > 90.0` (dtm_reader.py:185); false for NaN. -/
def beyondPole (lat : Option K) : Bool :=
  match lat with
  | some lat => decide (90 < |lat|)
  | none => false

/-- The height of one position (longitude, latitude), after the overlap (dtm_reader.py:183-195). -/
def GeoidImage.heightAt (g : GeoidImage K) (p : Option K × Option K) : Option K :=
  match p with
  | (some lon, some lat) =>
    let rc := physicalToIndex g.transform.inv lat (g.wrap lon)
    g.interpn rc.1 rc.2
  | _ => none

/-- `interpolate_geoid_height` (dtm_reader.py:149-195), positions (longitude, latitude).  The change of the
array of the caller is in Model/InPlace.lean. -/
def interpolateGeoidHeight (g : GeoidImage K) (pos : List (Option K × Option K)) : Except DtmError (List (Option K)) :=
  if pos.any fun p => beyondPole p.2 then .error .runtimeError else .ok (pos.map g.overlap.heightAt)

/-- The positions of the cells (dtm_reader.py:105-107): row after row, (longitude, latitude). -/
def cellPositions (t : Affine K) (nbRows nbCols : ℕ) : List (Option K × Option K) :=
  (List.range (nbRows * nbCols)).map fun k =>
    let p := indexToPhysical t ((k / nbCols : ℕ) : K) ((k % nbCols : ℕ) : K)
    (some p.2, some p.1)

/-- The geoid heights added to the altitudes (dtm_reader.py:103-111); `conv` is the conversion of positions to EPSG 4326. -/
def addGeoid (conv : ℕ → Option K × Option K → Option K × Option K) (epsg : ℕ) (t : Affine K) (nbRows nbCols : ℕ)
    (g : GeoidImage K) (alt : List (Option K)) : Except DtmError (List (Option K)) := do
  let pos := cellPositions t nbRows nbCols
  let pos' := if epsg ≠ 4326 then pos.map (conv epsg) else pos
  let h ← interpolateGeoidHeight g pos'
  return List.zipWith (olift2 fun a b => a + b) alt h

/-- The raster file (image.py:72-192): type, no-data value, EPSG code, geotransform, size, mask and cells. -/
structure DtmFile (K : Type*) where
  dtype : DType
  nodata : Option (Option K)
  epsg : ℕ
  transform : Affine K
  nbRows : ℕ
  nbCols : ℕ
  mask : List ℕ
  data : List (Option K)

/-- `dtm_reader.__init__` (dtm_reader.py:51-117): `alt_data`. -/
def dtmReader (ext : List (Option K) → List ℕ → List (Option K)) (conv : ℕ → Option K × Option K → Option K × Option K)
    (f : DtmFile K) (geoid : Option (GeoidImage K)) (strategy : Option FillStrategy) (fill : Option (Option K)) :
    Except DtmError (List (Option K)) := do
  let alt ← readAltitudes ext f.dtype f.nodata f.mask f.data strategy fill
  match geoid with
  | none => return alt
  | some g => addGeoid conv f.epsg f.transform f.nbRows f.nbCols g alt

end Shareloc
