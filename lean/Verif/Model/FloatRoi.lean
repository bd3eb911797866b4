import Verif.Model.FloatDtm
import Verif.Model.Affine

/-!
Floating point evaluation of a region of interest given in physical coordinates (image.py:87-131): the inverse transform, the indexes of the two
corners, the half pixel, the sizes.  `np.floor`, `np.ceil` and the comparisons are exact on doubles, and so are the differences of integers
below 2⁵³; every other operation rounds.
-/

namespace Shareloc
variable {K : Type*} [Field K] [LinearOrder K] [IsStrictOrderedRing K] [FloorRing K]

/-- `Image.__init__` with a physical ROI (image.py:84-131): the window, or the error raised. -/
def FloatPhysicalRoi (u : K) (dsH dsW : ℤ) (t : Affine K) (roi : Roi K) (out : Except ImageError (Window K)) : Prop :=
  ∃ (i : Affine K) (r0 c0 r1 c1 rowOff0 colOff0 rowMax0 colMax : K),
    FloatInverse u t i ∧
    FloatPhysicalToIndex u i roi.c0 roi.r0 r0 c0 ∧ FloatPhysicalToIndex u i roi.c1 roi.r1 r1 c1 ∧
    Rounds u (r0 + 1 / 2) rowOff0 ∧ Rounds u (c0 + 1 / 2) colOff0 ∧
    Rounds u (r1 + 1 / 2) rowMax0 ∧ Rounds u (c1 + 1 / 2) colMax ∧
    let rowMax := if rowOff0 > rowMax0 then rowOff0 else rowMax0
    let rowOff1 := if rowOff0 > rowMax0 then rowMax0 else rowOff0
    let rowOff : K := max ((⌊rowOff1⌋ : ℤ) : K) 0
    let colOff : K := max ((⌊colOff0⌋ : ℤ) : K) 0
    ∃ dw dh, Rounds u (colMax - colOff) dw ∧ Rounds u (rowMax - rowOff) dh ∧
      mkWindow dsH dsW colOff rowOff ((⌈dw⌉ : ℤ) : K) ((⌈dh⌉ : ℤ) : K) = out

end Shareloc
