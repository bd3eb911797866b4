import Verif.Model.FloatGrid
import Verif.Model.Rectification

/-!
Floating point evaluation of the displacement grids and of their interpolation, in the sense of `Model/Float.lean`: every operation rounds
with a relative error of at most `u`.  The nodes are the exact ones (when they are: C92).
-/

namespace Shareloc
variable {K : Type*} [Field K] [LinearOrder K] [IsStrictOrderedRing K]

/-- Floating point values of a position read back from a displacement grid: the subtraction of `positions_to_displacement_grid`
(rectification.py:793-795) and the addition of `RectificationGrid.__init__` (rectification_grid.py:66-73), the file holding doubles. -/
def FloatReadBack (u pos node p : K) : Prop := ∃ d, Rounds u (pos - node) d ∧ Rounds u (d + node) p

/-- The numbers of the formula of `RegularGridInterpolator` in two dimensions (rectification_grid.py:78-84): the shifts inside the cell
along the columns and the rows, and the four nodes. -/
inductive RectVar
  | tc
  | tr
  | node (i j : Bool)

/-- Their values for the positions `p`, a cell and shifts (rectification_grid.py:78-84). -/
def rectEnv (p : ℕ → ℕ → K) (i j : ℕ) (tc tr : K) : RectVar → K
  | .tc => tc
  | .tr => tr
  | .node a b => p (i + a.toNat) (j + b.toNat)

/-- The weight of a node along one axis (rectification_grid.py:78-84; scipy `_evaluate_linear`: `1 - shift` or `shift`). -/
def rectAxisWeight (t : RectVar) (second : Bool) : FExpr RectVar := if second then .var t else .lit 1 - .var t

/-- One of the four terms (rectification_grid.py:78-84; scipy `_evaluate_linear`: value times the product of the weights). -/
def rectTerm (i j : Bool) : FExpr RectVar := .var (.node i j) * (rectAxisWeight .tc i * rectAxisWeight .tr j)

/-- The formula (rectification_grid.py:78-84; scipy `_evaluate_linear`: sum of the terms, the last axis first). -/
def rectSrc : FExpr RectVar := rectTerm false false + rectTerm false true + rectTerm true false + rectTerm true true

/-- Floating point values of `RectificationGrid.interpolate` (rectification_grid.py:95-105) for one of the two positions: the cell, found
by comparisons of doubles, the two shifts, then any order of evaluation of the formula. -/
def FloatRectInterp (u : K) (g : RectGrid K) (p : ℕ → ℕ → K) (col row v : K) : Prop :=
  let i := intervalIndex g.nbCols g.colNode col
  let j := intervalIndex g.nbRows g.rowNode row
  ∃ tc tr e, FloatShift u (g.colNode i) (g.colNode (i + 1)) col tc ∧ FloatShift u (g.rowNode j) (g.rowNode (j + 1)) row tr ∧
    rectSrc.Rewrite e ∧ e.Computes u (rectEnv p i j tc tr) v

end Shareloc
