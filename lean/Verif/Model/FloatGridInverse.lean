import Verif.Model.FloatGrid

/-!
Floating point evaluation of the inverse location by a multi altitude grid at an altitude, in the sense of `Model/Float.lean`: every operation
rounds with a relative error of at most `u`, an operation done in one rounding with the next one (a fused product and sum) being included.
-/

namespace Shareloc
variable {K : Type*} [Field K] [LinearOrder K] [IsStrictOrderedRing K] [FloorRing K]

/-- Floating point values of the cell of a position along one axis (grid.py:695-706): the quotient is rounded, `np.floor` and the bounds
are exact, so near a node the cell may be the neighbouring one. -/
def FloatGridCell (u : K) (n : ℕ) (x0 step x : K) (i : ℕ) : Prop :=
  ∃ a t, Rounds u (x - x0) a ∧ Rounds u (a / step) t ∧ i = gridCell n t

/-- Floating point values of `np.deg2rad(b - a) / step` (grid.py:725-733), `deg` being the constant of `np.deg2rad`. -/
def FloatGridSlope (u deg a b step v : K) : Prop :=
  ∃ d r, Rounds u (b - a) d ∧ Rounds u (d * deg) r ∧ Rounds u (r / step) v

/-- Floating point values of `((1 - h_x) * b + h_x * t) * 1e6` (grid.py:739-742). -/
def FloatGridMix (u h b t v : K) : Prop :=
  ∃ k p q s, Rounds u (1 - h) k ∧ Rounds u (k * b) p ∧ Rounds u (h * t) q ∧ Rounds u (p + q) s ∧ Rounds u (s * 1000000) v

/-- Floating point values of one derivative of `inverse_partial_derivative` (grid.py:709-742): the nodes `(i, j)` and `(i', j')` of the data
cube `data`, in the layers `up` and `down`. -/
def FloatGridDerivative (u deg h : K) (data : ℕ → ℕ → ℕ → K) (up down i j i' j' : ℕ) (step v : K) : Prop :=
  ∃ t b, FloatGridSlope u deg (data up i j) (data up i' j') step t ∧ FloatGridSlope u deg (data down i j) (data down i' j') step b ∧
    FloatGridMix u h b t v

/-- Floating point values of `inverse_partial_derivative` (grid.py:676-747), the matrix being `(m00, m01, m10, m11)`.  The search of the
layers compares doubles and is exact.  A null computed determinant gives infinities or NaN and no value here. -/
def FloatGridMatrix (u deg : K) (g : MultiGrid K) (row col alt : K) (m : K × K × K × K) : Prop :=
  let up := pyIndex g.nbalt (returnGridIndex g alt).1
  let down := pyIndex g.nbalt (returnGridIndex g alt).2
  ∃ i j h a b c e p q det, FloatGridCell u g.nbrow g.row0 g.steprow row i ∧ FloatGridCell u g.nbcol g.col0 g.stepcol col j ∧
    FloatShift u (g.alts down) (g.alts up) alt h ∧
    FloatGridDerivative u deg h g.lon up down i j i (j + 1) g.stepcol a ∧ FloatGridDerivative u deg h g.lon up down i j (i + 1) j g.steprow b ∧
    FloatGridDerivative u deg h g.lat up down i j i (j + 1) g.stepcol c ∧ FloatGridDerivative u deg h g.lat up down i j (i + 1) j g.steprow e ∧
    Rounds u (a * e) p ∧ Rounds u (b * c) q ∧ Rounds u (p - q) det ∧ det ≠ 0 ∧
    Rounds u (e / det) m.1 ∧ Rounds u (-b / det) m.2.1 ∧ Rounds u (-c / det) m.2.2.1 ∧ Rounds u (a / det) m.2.2.2

/-- Floating point values of one line of `mat_dp @ dsol` and of the move (grid.py:820-822). -/
def FloatGridMove (u m m' dlon dlat x x' : K) : Prop :=
  ∃ p q d, Rounds u (m * dlon) p ∧ Rounds u (m' * dlat) q ∧ Rounds u (p + q) d ∧ Rounds u (x + -d) x'

/-- The variables of the loop of `Grid.inverse_loc` in floating point (grid.py:804-811). -/
structure FloatGridIter (K : Type*) where
  row : K
  col : K
  err : K

/-- Floating point values of the measure of the error at a position (grid.py:814-817): `dlon_microrad`, `dlat_microrad` and
`m2_error`, `rad`, `rtx` and `coslat` being the computed values of `deg2mrad`, `rtx` and `coslon`. -/
def FloatGridMeasure (u : K) (g : MultiGrid K) (rad rtx coslat lon lat alt row col dlon dlat err : K) : Prop :=
  ∃ p plon plat x y s c t w, FloatGridPoint u g row col alt p ∧ p.x = some plon ∧ p.y = some plat ∧
    Rounds u (plon - lon) x ∧ Rounds u (x * rad) dlon ∧ Rounds u (plat - lat) y ∧ Rounds u (y * rad) dlat ∧
    Rounds u (dlat * dlat) s ∧ Rounds u (dlon * coslat) c ∧ Rounds u (c * c) t ∧ Rounds u (s + t) w ∧ Rounds u (rtx * w) err

/-- One turn of the loop in floating point (grid.py:813-825), for the points whose values are finite. -/
def FloatGridTurn (u deg : K) (g : MultiGrid K) (rad rtx coslat lon lat alt row col : K) (t : FloatGridIter K) : Prop :=
  ∃ dlon dlat m, FloatGridMeasure u g rad rtx coslat lon lat alt row col dlon dlat t.err ∧ FloatGridMatrix u deg g row col alt m ∧
    FloatGridMove u m.1 m.2.1 dlon dlat col t.col ∧ FloatGridMove u m.2.2.1 m.2.2.2 dlon dlat row t.row

/-- The loop of `Grid.inverse_loc` (grid.py:813-825) in floating point with the threshold `eps`, from a number of remaining turns to
another. -/
inductive FloatGridLoop (u deg eps : K) (g : MultiGrid K) (rad rtx coslat lon lat alt : K) :
    ℕ → FloatGridIter K → FloatGridIter K → ℕ → Prop
  | stop {n : ℕ} {s : FloatGridIter K} : ¬ s.err > eps → FloatGridLoop u deg eps g rad rtx coslat lon lat alt n s s n
  | exhausted {s : FloatGridIter K} : FloatGridLoop u deg eps g rad rtx coslat lon lat alt 0 s s 0
  | turn {n m : ℕ} {s s' t : FloatGridIter K} : s.err > eps →
      FloatGridTurn u deg g rad rtx coslat lon lat alt s.row s.col s' → FloatGridLoop u deg eps g rad rtx coslat lon lat alt n s' t m →
      FloatGridLoop u deg eps g rad rtx coslat lon lat alt (n + 1) s t m

end Shareloc
