import Verif.Model.Float
import Verif.Model.Bilinear

/-!
Floating point evaluation of the DTM interpolation and of the index conversions, in the sense of `Model/Float.lean`: every
operation rounds with a relative error of at most `u`.
-/

namespace Shareloc
variable {K : Type*} [Field K] [LinearOrder K] [IsStrictOrderedRing K] [FloorRing K]

/-- The numbers of the interpolation formula (math_utils.py:132-137): shifts inside the cell, four nodes. -/
inductive BilVar
  | cs
  | rs
  | m00
  | m01
  | m10
  | m11

/-- Their values for a raster, a position and computed shifts.  The comparisons and the floor of math_utils.py:111-126
and dtm_intersection.cpp:147-170 are exact in floating point. -/
def bilEnv (mat : ℤ → ℤ → K) (nbRows nbCols : ℤ) (row col cs rs : K) : BilVar → K
  | .cs => cs
  | .rs => rs
  | .m00 => mat (lowerShift nbRows row) (lowerShift nbCols col)
  | .m01 => mat (lowerShift nbRows row) (lowerShift nbCols col + 1)
  | .m10 => mat (lowerShift nbRows row + 1) (lowerShift nbCols col)
  | .m11 => mat (lowerShift nbRows row + 1) (lowerShift nbCols col + 1)

/-- The formula as written (math_utils.py:132-137, dtm_intersection.cpp:177-181). -/
def bilSrc : FExpr BilVar :=
  let cs : FExpr BilVar := .var .cs
  let rs : FExpr BilVar := .var .rs
  (.lit 1 - cs) * (.lit 1 - rs) * .var .m00 + cs * (.lit 1 - rs) * .var .m01
    + (.lit 1 - cs) * rs * .var .m10 + cs * rs * .var .m11

/-- Floating point values of `interpol_bilin` (math_utils.py:93-139) and `DTMIntersection::interpolate`
(dtm_intersection.cpp:144-183): the two shifts, then any order of evaluation of the formula. -/
def FloatBilin (u : K) (mat : ℤ → ℤ → K) (nbRows nbCols : ℤ) (row col v : K) : Prop :=
  ∃ cs rs e, Rounds u (col - (lowerShift nbCols col : K)) cs ∧ Rounds u (row - (lowerShift nbRows row : K)) rs ∧
    bilSrc.Rewrite e ∧ e.Computes u (bilEnv mat nbRows nbCols row col cs rs) v

/-- Floating point values of `vx * p + vy * q + s` in the order written (external library `affine`, as used by
proj_utils.py:66, 83; dtm_intersection.cpp:112-113, 127-128). -/
def FloatApply (u p q s vx vy v : K) : Prop :=
  ∃ a b c, Rounds u (vx * p) a ∧ Rounds u (vy * q) b ∧ Rounds u (a + b) c ∧ Rounds u (c + s) v

/-- Floating point values of `transform_index_to_physical_point` (proj_utils.py:55-70) and `index_to_ter`
(dtm_intersection.cpp:119-132): `(x, y)` of a `(row, col)` index. -/
def FloatIndexToPhysical (u : K) (t : Affine K) (row col x y : K) : Prop :=
  ∃ vx vy, Rounds u (col + 1 / 2) vx ∧ Rounds u (row + 1 / 2) vy ∧
    FloatApply u t.a t.b t.c vx vy x ∧ FloatApply u t.d t.e t.f vx vy y

/-- Floating point values of the inverse transform (external library `affine`; dtm_intersection.cpp:77-91). -/
def FloatInverse (u : K) (t i : Affine K) : Prop :=
  ∃ ae bd det idet k1 k2 k3 k4, Rounds u (t.a * t.e) ae ∧ Rounds u (t.b * t.d) bd ∧ Rounds u (ae - bd) det ∧
    Rounds u (1 / det) idet ∧ Rounds u (t.e * idet) i.a ∧ Rounds u (-t.b * idet) i.b ∧ Rounds u (-t.d * idet) i.d ∧
    Rounds u (t.a * idet) i.e ∧ Rounds u (-t.c * i.a) k1 ∧ Rounds u (t.f * i.b) k2 ∧ Rounds u (k1 - k2) i.c ∧
    Rounds u (-t.c * i.d) k3 ∧ Rounds u (t.f * i.e) k4 ∧ Rounds u (k3 - k4) i.f

/-- Floating point values of `transform_physical_point_to_index` (proj_utils.py:73-87) and `ter_to_index`
(dtm_intersection.cpp:105-117) with the stored inverse `i`: `(row, col)` of a point `(x, y)`. -/
def FloatPhysicalToIndex (u : K) (i : Affine K) (x y row col : K) : Prop :=
  ∃ px py, FloatApply u i.a i.b i.c x y px ∧ FloatApply u i.d i.e i.f x y py ∧
    Rounds u (py - 1 / 2) row ∧ Rounds u (px - 1 / 2) col

end Shareloc
