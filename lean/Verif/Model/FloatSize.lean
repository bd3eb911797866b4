import Verif.Model.FloatMarch
import Verif.Model.Rectification

/-!
The sizes of the rectification grids and of the epipolar image (rectification.py:252-307, 336-342) with any arithmetic: the four operations are those
of `A`.  The cosine `c` and the sine `s` of the epipolar angle are the numbers that the program computed.  Comparisons, changes of sign, conversions
to integers, and the sums of small whole numbers are exact, as in floating point.
-/

namespace Shareloc
variable {K : Type*} [Field K] [LinearOrder K] [IsStrictOrderedRing K] [FloorRing K]

/-- `mean_spacing` (rectification.py:253), as `meanSpacing`. -/
def meanSpacingA (A : Arith K) (im : LeftImage K) : K := A.mul (1 / 2) (A.add |im.pixelSizeCol| |im.pixelSizeRow|)

/-- The bounding box (rectification.py:281-302), as `epipolarBox`: the products are evaluated from the left. -/
def epipolarBoxA (A : Arith K) (c s : K) (im : LeftImage K) : BBox K :=
  let urx := A.mul (A.mul c im.nbCols) im.pixelSizeCol
  let ury := A.mul (A.mul (-s) im.nbCols) im.pixelSizeCol
  let llx := A.mul (A.mul s im.nbRows) im.pixelSizeRow
  let lly := A.mul (A.mul c im.nbRows) im.pixelSizeRow
  let lrx := A.add urx llx
  let lry := A.add ury lly
  ⟨min (min (min urx llx) lrx) 0, min (min (min ury lly) lry) 0, max (max (max urx llx) lrx) 0,
    max (max (max ury lly) lry) 0⟩

/-- `rectified_image_size` (rectification.py:305): rows, columns. -/
def imageSizeA (A : Arith K) (c s : K) (im : LeftImage K) : ℤ × ℤ :=
  let b := epipolarBoxA A c s im
  (pyInt (A.div (A.sub b.maxy b.miny) (meanSpacingA A im)), pyInt (A.div (A.sub b.maxx b.minx) (meanSpacingA A im)))

/-- `grid_size` (rectification.py:339-342), of one dimension. -/
def gridSizeA (A : Arith K) (size : ℤ) (epiStep : K) (margin : ℤ) : ℤ := pyInt (A.add (A.div (size : K) epiStep) 2) + 2 * margin

end Shareloc
