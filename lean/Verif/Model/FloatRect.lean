import Verif.Model.FloatMarch
import Verif.Model.Rectification

/-!
The angle of a local epipolar line, the move along an axis of the epipolar grid and the local baseline ratio (rectification.py:141-182, 443-452,
576-579, 604-676; rectification.cpp:41-71, 95-104, 257-261) with any arithmetic: the four operations are those of `A`, the functions `cos`, `sin`,
`arctan`, `sqrt` and the constant `pi` those of `t`.  Comparisons, the step and the axis (whole numbers), 1/2 and 2 are exact, as in floating point.
Positions are finite.
-/

namespace Shareloc
variable {K : Type*} [Field K] [LinearOrder K] [IsStrictOrderedRing K] [FloorRing K]

/-- A local epipolar line: row and column of its start and of its end. -/
structure EpiLine (K : Type*) where
  sr : K
  sc : K
  er : K
  ec : K

/-- `compute_epipolar_angle` (rectification.py:158-182, rectification.cpp:46-70), as `epipolarAngle`. -/
def angleA (A : Arith K) (t : Trig K) (l : EpiLine K) : K :=
  if l.ec = l.sc then
    if l.er > l.sr then A.mul (1 / 2) t.pi else A.mul (-(1 / 2)) t.pi
  else
    let slope := A.div (A.sub l.er l.sr) (A.sub l.ec l.sc)
    if l.ec > l.sc then t.arctan slope else A.add t.pi (t.arctan slope)

/-- The displacement of one point (rectification.py:443-451, rectification.cpp:95-104), as `movePoint`: row and column. -/
def moveA (A : Arith K) (t : Trig K) (spacing step : K) (axis : ℤ) (p : K × K) (angle : K) : K × K :=
  let a := A.add angle (A.div (A.mul ((1 - axis : ℤ) : K) t.pi) 2)
  (A.add p.1 (A.mul (A.mul step spacing) (t.sin a)), A.add p.2 (A.mul (A.mul step spacing) (t.cos a)))

/-- One row of nodes (rectification.py:603-676, rectification.cpp:229-300 without adaptive step): from each node, the local line given there by the
sensor models (`line`, any function), its angle, the move. -/
def walkA (A : Arith K) (t : Trig K) (spacing step : K) (axis : ℤ) (line : K × K → EpiLine K) : ℕ → K × K → K × K
  | 0, p => p
  | n + 1, p =>
    let q := walkA A t spacing step axis line n p
    moveA A t spacing step axis q (angleA A t (line q))

/-- `local_baseline_ratio` (rectification.py:576-579, 670-673; rectification.cpp:257-261), as `baselineRatio`. -/
def baselineA (A : Arith K) (t : Trig K) (off : K) (l : EpiLine K) : K :=
  A.div (t.sqrt (A.add (A.mul (A.sub l.ec l.sc) (A.sub l.ec l.sc)) (A.mul (A.sub l.er l.sr) (A.sub l.er l.sr)))) (A.mul 2 off)

end Shareloc
