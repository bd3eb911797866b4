import Verif.Prelude

/-!
Model of the geotransform handling: `affine.Affine` (external library, modelled by its formulas),
`shareloc/proj_utils.py`, the DTM index conversions of `dtm_intersection.py` / `dtm_intersection.cpp`
and the window / orientation logic of `shareloc/image.py`.
-/

namespace Shareloc

/-- A point or vector with three coordinates; numpy arrays of shape (3,) and C++ `array<double,3>`. -/
structure V3 (K : Type*) where
  x : K
  y : K
  z : K
deriving DecidableEq, Repr

/-- `affine.Affine(a, b, c, d, e, f)`, the convention recalled at shareloc/image.py:79-81:
`| a b c |` / `| d e f |`. -/
structure Affine (K : Type*) where
  a : K
  b : K
  c : K
  d : K
  e : K
  f : K
deriving DecidableEq, Repr

namespace Affine
variable {K : Type*} [Field K]

/-- Determinant used by `Affine.__invert__` (external library `affine`). -/
def det (t : Affine K) : K := t.a * t.e - t.b * t.d

/-- `transform * (vx, vy)` of the external library `affine`. -/
def apply (t : Affine K) (vx vy : K) : K × K :=
  (vx * t.a + vy * t.b + t.c, vx * t.d + vy * t.e + t.f)

/-- `~transform` of the external library `affine` (used at image.py:84,135,155,167 and
dtm_intersection.py:108).  The library raises when `det = 0`; callers here carry `det ≠ 0`. -/
def inv (t : Affine K) : Affine K :=
  let idet := 1 / t.det
  let ra := t.e * idet
  let rb := -t.b * idet
  let rd := -t.d * idet
  let re := t.a * idet
  ⟨ra, rb, -t.c * ra - t.f * rb, rd, re, -t.c * rd - t.f * re⟩

end Affine

section Conversions
variable {K : Type*} [Field K]

/-- shareloc/proj_utils.py:55-70 `transform_index_to_physical_point`; returns `(row_geo, col_geo)`. -/
def indexToPhysical (t : Affine K) (row col : K) : K × K :=
  let p := t.apply (col + 1 / 2) (row + 1 / 2)
  (p.2, p.1)

/-- shareloc/proj_utils.py:73-87 `transform_physical_point_to_index`; returns `(row, col)`. -/
def physicalToIndex (tinv : Affine K) (rowGeo colGeo : K) : K × K :=
  let p := tinv.apply colGeo rowGeo
  (p.2 - 1 / 2, p.1 - 1 / 2)

/-- shareloc/geofunctions/dtm_intersection.py:131-142 `ter_to_index` on a 3-vector
(`(lon, lat, alt)` to `(row, col, alt)`); the 2-vector case is the same without `z`. -/
def terToIndexPy (t : Affine K) (v : V3 K) : V3 K :=
  let p := physicalToIndex t.inv v.y v.x
  ⟨p.1, p.2, v.z⟩

/-- shareloc/geofunctions/dtm_intersection.py:158-169 `index_to_ter` on a 3-vector. -/
def indexToTerPy (t : Affine K) (v : V3 K) : V3 K :=
  let p := indexToPhysical t v.x v.y
  ⟨p.2, p.1, v.z⟩

/-- shareloc/geofunctions/dtm_intersection.py:144-156 `ters_to_indexs`. -/
def tersToIndexsPy (t : Affine K) (vs : List (V3 K)) : List (V3 K) := vs.map (terToIndexPy t)

/-- The six coefficients as the C++ class stores them (GDAL order `c a b f d e`,
dtm_intersection.cpp:74, dtm_intersection.py:67-69). -/
structure GdalTransform (K : Type*) where
  t0 : K
  t1 : K
  t2 : K
  t3 : K
  t4 : K
  t5 : K

/-- `Affine.to_gdal()`: the tuple `(c, a, b, f, d, e)` handed to both classes
(dtm_intersection.py:67-69,108). -/
def Affine.toGdal (t : Affine K) : GdalTransform K := ⟨t.c, t.a, t.b, t.f, t.d, t.e⟩

/-- shareloc/bindings/dtm_intersection.cpp:77-91, the inverse computed by the C++ constructor. -/
def GdalTransform.inv (m : GdalTransform K) : GdalTransform K :=
  let idet := 1 / (m.t1 * m.t5 - m.t2 * m.t4)
  let ra := m.t5 * idet
  let rb := -m.t2 * idet
  let rd := -m.t4 * idet
  let re := m.t1 * idet
  ⟨-m.t0 * ra - m.t3 * rb, ra, rb, -m.t0 * rd - m.t3 * re, rd, re⟩

/-- shareloc/bindings/dtm_intersection.cpp:105-117 `ter_to_index`. -/
def terToIndexCpp (m : GdalTransform K) (v : V3 K) : V3 K :=
  let i := m.inv
  ⟨(v.x * i.t4 + v.y * i.t5 + i.t3) - 1 / 2, (v.x * i.t1 + v.y * i.t2 + i.t0) - 1 / 2, v.z⟩

/-- shareloc/bindings/dtm_intersection.cpp:119-132 `index_to_ter`. -/
def indexToTerCpp (m : GdalTransform K) (v : V3 K) : V3 K :=
  let vx := v.y + 1 / 2
  let vy := v.x + 1 / 2
  ⟨vx * m.t1 + vy * m.t2 + m.t0, vx * m.t4 + vy * m.t5 + m.t3, v.z⟩

end Conversions

section Image
variable {K : Type*} [Field K] [LinearOrder K] [IsStrictOrderedRing K] [FloorRing K]

/-- Python's `int(x)` on a finite number: truncation toward zero. -/
def pyInt (x : K) : ℤ := if 0 ≤ x then ⌊x⌋ else ⌈x⌉

/-- `rasterio.windows.Window(col_off, row_off, width, height)`. -/
structure Window (K : Type*) where
  colOff : K
  rowOff : K
  width : ℤ
  height : ℤ
deriving DecidableEq, Repr

/-- Region of interest `[r0, c0, r1, c1]` in the order of the `roi` list (image.py:58-60). -/
structure Roi (K : Type*) where
  r0 : K
  c0 : K
  r1 : K
  c1 : K
deriving DecidableEq, Repr

/-- The errors of `Image.__init__` that the model distinguishes. -/
inductive ImageError
  | negativeWindow
deriving DecidableEq, Repr

/-- shareloc/image.py:113-131: clamp the sizes to the dataset and build the window; rasterio's
`Window` raises on a negative size, re-raised as `RuntimeError`. -/
def mkWindow (dsH dsW : ℤ) (colOff rowOff width height : K) : Except ImageError (Window K) :=
  let w := pyInt (min width ((dsW : K) - colOff))
  let h := pyInt (min height ((dsH : K) - rowOff))
  if w < 0 ∨ h < 0 then .error .negativeWindow else .ok ⟨colOff, rowOff, w, h⟩

/-- shareloc/image.py:105-131, ROI given in index coordinates. -/
def windowOfIndexRoi (dsH dsW : ℤ) (roi : Roi K) : Except ImageError (Window K) :=
  let rowOff := min (max roi.r0 0) (dsH : K)
  let colOff := min (max roi.c0 0) (dsW : K)
  let width := roi.c1 - colOff
  let height := roi.r1 - rowOff
  mkWindow dsH dsW colOff rowOff width height

/-- shareloc/image.py:87-131, ROI given in physical coordinates `[y0, x0, y1, x1]`. -/
def windowOfPhysicalRoi (dsH dsW : ℤ) (t : Affine K) (roi : Roi K) : Except ImageError (Window K) :=
  let p0 := physicalToIndex t.inv roi.r0 roi.c0
  let p1 := physicalToIndex t.inv roi.r1 roi.c1
  let rowOff0 := p0.1 + 1 / 2
  let colOff0 := p0.2 + 1 / 2
  let rowMax0 := p1.1 + 1 / 2
  let colMax := p1.2 + 1 / 2
  let rowMax := if rowOff0 > rowMax0 then rowOff0 else rowMax0
  let rowOff1 := if rowOff0 > rowMax0 then rowMax0 else rowOff0
  let rowOff : K := max ((⌊rowOff1⌋ : ℤ) : K) 0
  let colOff : K := max ((⌊colOff0⌋ : ℤ) : K) 0
  let width : K := ((⌈colMax - colOff⌉ : ℤ) : K)
  let height : K := ((⌈rowMax - rowOff⌉ : ℤ) : K)
  mkWindow dsH dsW colOff rowOff width height

/-- `dataset.window_transform(window)` (rasterio, external; used at image.py:133): the dataset
transform translated by the window offsets. -/
def windowTransform (t : Affine K) (w : Window K) : Affine K :=
  let p := t.apply w.colOff w.rowOff
  ⟨t.a, t.b, p.1, t.d, t.e, p.2⟩

/-- The `vertical_direction` option (image.py:63-67). -/
inductive VDir
  | auto
  | north
  | south
deriving DecidableEq, Repr

/-- shareloc/image.py:147-154 and 159-166, the flipped transform. -/
def flipY (t : Affine K) : Affine K := ⟨t.a, t.b, t.c, -t.d, -t.e, -t.f⟩

/-- shareloc/image.py:144-167, vertical direction handling. -/
def forceVertical (dir : VDir) (t : Affine K) : Affine K :=
  match dir with
  | .north => if t.e < 0 then flipY t else t
  | .south => if t.e > 0 then flipY t else t
  | .auto => t

/-- The geometric attributes of an opened `Image` (image.py:82-84, 133-142, 144-167). -/
structure ImageGeo (K : Type*) where
  transform : Affine K
  nbRows : ℤ
  nbCols : ℤ
  window : Option (Window K)
deriving DecidableEq, Repr

/-- shareloc/image.py:72-179, `Image.__init__` restricted to its geometric attributes.  Pixel values,
masks and CRS are not part of this function. -/
def openImage (dsH dsW : ℤ) (t : Affine K) (roi : Option (Roi K)) (physical : Bool) (dir : VDir) :
    Except ImageError (ImageGeo K) :=
  match roi with
  | none => .ok ⟨forceVertical dir t, dsH, dsW, none⟩
  | some r =>
    match (if physical then windowOfPhysicalRoi dsH dsW t r else windowOfIndexRoi dsH dsW r) with
    | .error e => .error e
    | .ok w => .ok ⟨forceVertical dir (windowTransform t w), w.height, w.width, some w⟩

end Image

end Shareloc
