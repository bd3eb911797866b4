import Verif.Model.DtmReader
import Verif.Model.Bilinear

/-!
Model of the whole construction of a DTM from a raster file: window of the region of interest (`shareloc/image.py`), reading of
its cells and masks, altitudes (`shareloc/dtm_reader.py`), interpolation at a ground position
(`shareloc/geofunctions/dtm_intersection.py`).
-/

namespace Shareloc
variable {K : Type*} [Field K] [LinearOrder K] [IsStrictOrderedRing K] [FloorRing K]

/-- The arguments `roi` and `roi_is_in_physical_space` (dtm_reader.py:51-59).  An index region of interest is made of integers:
what rasterio reads through a window of fractional origin is not modelled. -/
inductive RoiArg (K : Type*)
  | whole
  | index (r : Roi ℤ)
  | physical (r : Roi K)

/-- The geometry of the image opened with this region of interest (image.py:82-142, vertical direction "auto"). -/
def RoiArg.open (H W : ℕ) (t : Affine K) : RoiArg K → Except ImageError (ImageGeo K)
  | .whole => openImage (H : ℤ) (W : ℤ) t none false .auto
  | .index r => openImage (H : ℤ) (W : ℤ) t (some ⟨(r.r0 : K), (r.c0 : K), (r.r1 : K), (r.c1 : K)⟩) false .auto
  | .physical r => openImage (H : ℤ) (W : ℤ) t (some r) true .auto

/-- `dataset.read(window=...)` and `dataset.read_masks(window=...)` of one band (image.py:187, 189; rasterio, external): the cells
of the window, row after row. -/
def cropCells {α : Type*} [Inhabited α] (nbCols : ℕ) (w : Option (Window K)) (l : List α) : List α :=
  match w with
  | none => l
  | some w => (List.range (w.height.toNat * w.width.toNat)).map fun k =>
      l.getD ((⌊w.rowOff⌋.toNat + k / w.width.toNat) * nbCols + (⌊w.colOff⌋.toNat + k % w.width.toNat)) default

/-- The attributes read by `Image.__init__` (image.py:133-142, 175-190). -/
def DtmFile.read (f : DtmFile K) (g : ImageGeo K) : DtmFile K :=
  { f with
    transform := g.transform
    nbRows := g.nbRows.toNat
    nbCols := g.nbCols.toNat
    mask := cropCells f.nbCols g.window f.mask
    data := cropCells f.nbCols g.window f.data }

/-- The exceptions of the construction: the window is refused (image.py:118-131), the squeezed array has less than two dimensions
(`self.mask[:, :]`, dtm_reader.py:92), or an exception of `dtmReader`. -/
inductive DtmReadError
  | badRoi
  | indexError
  | reader (e : DtmError)
  deriving DecidableEq, Repr

/-- The attributes of a `dtm_reader` that `DTMIntersection` takes (dtm_intersection.py:44-53). -/
structure LoadedDtm (K : Type*) where
  epsg : ℕ
  transform : Affine K
  nbRows : ℕ
  nbCols : ℕ
  alt : List (Option K)
  deriving DecidableEq

/-- `dtm_reader(dtm_filename, geoid_filename, roi, roi_is_in_physical_space, fill_nodata, fill_value)` (dtm_reader.py:51-117).
`np.squeeze` (image.py:187) removes the axes of size 1, so that one row or one column raises `IndexError` (dtm_reader.py:92). -/
def readDtm (ext : List (Option K) → List ℕ → List (Option K)) (conv : ℕ → Option K × Option K → Option K × Option K)
    (f : DtmFile K) (roi : RoiArg K) (geoid : Option (GeoidImage K)) (strategy : Option FillStrategy) (fill : Option (Option K)) :
    Except DtmReadError (LoadedDtm K) :=
  match roi.open f.nbRows f.nbCols f.transform with
  | .error _ => .error .badRoi
  | .ok g =>
    let f' := f.read g
    if f'.nbRows = 1 ∨ f'.nbCols = 1 then .error .indexError
    else
      match dtmReader ext conv f' geoid strategy fill with
      | .error e => .error (.reader e)
      | .ok alt => .ok ⟨f.epsg, f'.transform, f'.nbRows, f'.nbCols, alt⟩

/-- `alt_data[row, col]` for a row and a column of the raster; NaN is `none`. -/
def LoadedDtm.cell (d : LoadedDtm K) (i j : ℤ) : Option K :=
  if 0 ≤ i ∧ i < d.nbRows ∧ 0 ≤ j ∧ j < d.nbCols then (d.alt[i.toNat * d.nbCols + j.toNat]?).join else none

/-- `interpolate` at `ter_to_index` of a ground position (dtm_intersection.py:131-142, 185-198); NaN if one of the four cells is NaN. -/
def LoadedDtm.altitudeAt (d : LoadedDtm K) (lon lat : K) : Option K :=
  let p := physicalToIndex d.transform.inv lat lon
  interpolBilinChecked d.cell d.nbRows d.nbCols p.1 p.2

/-- `DTMIntersection(dtm.epsg, dtm.alt_data, dtm.nb_rows, dtm.nb_columns, dtm.transform)` (dtm_intersection.py:44-110,
dtm_intersection.cpp:57-101).  With a NaN among the altitudes, the comparisons of the intersection are those of NaN: Model/DtmNan.lean. -/
def LoadedDtm.toDtm (d : LoadedDtm K) : Option (Dtm K) :=
  if d.alt.any Option.isNone then none
  else some ⟨fun i j => (d.cell i j).getD 0, d.nbRows, d.nbCols, d.transform⟩

end Shareloc
