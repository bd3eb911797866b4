import Verif.Model.Float
import Verif.Model.Grid

/-!
Floating point evaluation of the location by a multi altitude grid at an altitude, in the sense of `Model/Float.lean`: every operation
rounds with a relative error of at most `u`.  The nodes of the two image axes are the exact ones (when they are: C92).
-/

namespace Shareloc
variable {K : Type*} [Field K] [LinearOrder K] [IsStrictOrderedRing K] [FloorRing K]

/-- Floating point values of `self.alt_normalise_interp(alt)` (grid.py:119-123, 268; scipy `interp1d`: slope of the index between two
layers, then `slope * (alt - lower altitude) + lower index`).  The search of the layers compares doubles and is exact. -/
def FloatAltNorm (u : K) (g : MultiGrid K) (alt a : K) : Prop :=
  let i := altUp g.alts g.nbalt alt
  ∃ d s x p, Rounds u (g.alts i - g.alts (i + 1)) d ∧ Rounds u (-1 / d) s ∧ Rounds u (alt - g.alts (i + 1)) x ∧ Rounds u (s * x) p ∧
    Rounds u (p + ((i : K) + 1)) a

/-- Floating point values of the position of `x` between two nodes of `RegularGridInterpolator` (grid.py:130-132; scipy
`find_indices`: `(x - node) / (next node - node)`). -/
def FloatShift (u node next x t : K) : Prop := ∃ a b, Rounds u (x - node) a ∧ Rounds u (next - node) b ∧ Rounds u (a / b) t

/-- The numbers of the formula of `RegularGridInterpolator` in three dimensions (grid.py:130-132): the shifts inside the cell along the
layers, the rows and the columns, and the eight nodes. -/
inductive GridVar
  | ta
  | tr
  | tc
  | node (k i j : Bool)

/-- Their values for a data cube, a cell and shifts (grid.py:130-132). -/
def gridEnv (data : ℕ → ℕ → ℕ → K) (k i j : ℕ) (ta tr tc : K) : GridVar → K
  | .ta => ta
  | .tr => tr
  | .tc => tc
  | .node a b c => data (k + a.toNat) (i + b.toNat) (j + c.toNat)

/-- The weight of a node along one axis (grid.py:130-132; scipy `_evaluate_linear`: `1 - shift` or `shift`). -/
def gridAxisWeight (t : GridVar) (second : Bool) : FExpr GridVar := if second then .var t else .lit 1 - .var t

/-- One of the eight terms (grid.py:130-132; scipy `_evaluate_linear`: value times the product of the three weights). -/
def gridTerm (k i j : Bool) : FExpr GridVar :=
  .var (.node k i j) * (gridAxisWeight .ta k * gridAxisWeight .tr i * gridAxisWeight .tc j)

/-- The formula (grid.py:130-132; scipy `_evaluate_linear`: sum of the terms, the last axis first). -/
def gridSrc : FExpr GridVar :=
  gridTerm false false false + gridTerm false false true + gridTerm false true false + gridTerm false true true
    + gridTerm true false false + gridTerm true false true + gridTerm true true false + gridTerm true true true

/-- Floating point values of `self.interpolator_lonlat` (grid.py:125-132) for one of the two data cubes at the computed layer index `a`:
the three shifts, then any order of evaluation of the formula. -/
def FloatGridInterp (u : K) (g : MultiGrid K) (data : ℕ → ℕ → ℕ → K) (a row col v : K) : Prop :=
  let k := gridCell g.nbalt a
  let i := gridCell g.nbrow ((row - g.row0) / g.steprow)
  let j := gridCell g.nbcol ((col - g.col0) / g.stepcol)
  ∃ ta tr tc e, FloatShift u k ((k : K) + 1) a ta ∧
    FloatShift u (g.row0 + i * g.steprow) (g.row0 + ((i : K) + 1) * g.steprow) row tr ∧
    FloatShift u (g.col0 + j * g.stepcol) (g.col0 + ((j : K) + 1) * g.stepcol) col tc ∧
    gridSrc.Rewrite e ∧ e.Computes u (gridEnv data k i j ta tr tc) v

/-- Floating point values of one point of `Grid.direct_loc_h` (grid.py:243-284). -/
def FloatGridPoint (u : K) (g : MultiGrid K) (row col alt : K) (p : ORow K) : Prop :=
  ∃ a lon lat, FloatAltNorm u g alt a ∧ FloatGridInterp u g g.lon a row col lon ∧ FloatGridInterp u g g.lat a row col lat ∧
    p = if g.geographic then checkRow ⟨some lon, some lat, some alt⟩ else ⟨some lon, some lat, some alt⟩

end Shareloc
