import Verif.Prelude

/-! Specifications about rasters, independent of the model. -/

namespace Shareloc.Spec
variable {K : Type*} [Field K]

/-- `f` is a bilinear function of `(row, col)`: affine in each variable. -/
def IsBilinear (f : K → K → K) : Prop :=
  ∃ a b c d : K, ∀ row col, f row col = a + b * row + c * col + d * row * col

/-- `f` takes the raster values at the four corners of the unit cell whose lowest corner is `(i, j)`. -/
def MatchesCell (mat : ℤ → ℤ → K) (i j : ℤ) (f : K → K → K) : Prop :=
  f i j = mat i j ∧ f i (j + 1) = mat i (j + 1) ∧ f (i + 1) j = mat (i + 1) j ∧
  f (i + 1) (j + 1) = mat (i + 1) (j + 1)

/-- `(i, j)` is the lowest corner of a cell of an `nbRows x nbCols` raster. -/
def IsCell (nbRows nbCols : ℤ) (i j : ℤ) : Prop := 0 ≤ i ∧ i + 1 ≤ nbRows - 1 ∧ 0 ≤ j ∧ j + 1 ≤ nbCols - 1

/-- `(i, j)` is a node of the raster. -/
def IsNode (nbRows nbCols : ℤ) (i j : ℤ) : Prop := 0 ≤ i ∧ i < nbRows ∧ 0 ≤ j ∧ j < nbCols

variable [LinearOrder K]

/-- The position is in the closed unit cell `(i, j)`. -/
def InCell (i j : ℤ) (row col : K) : Prop := i ≤ row ∧ row ≤ i + 1 ∧ j ≤ col ∧ col ≤ j + 1

end Shareloc.Spec
