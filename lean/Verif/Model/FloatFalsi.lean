import Verif.Model.FloatDtm
import Verif.Model.DtmIntersection

/-!
Floating point evaluation of the last part of `DTMIntersection.intersection`: the vertical line of sight, the regula falsi
and the conversion of its result to ground coordinates, in the sense of `Model/Float.lean` (every operation rounds with a
relative error of at most `u`).  The march that finds the bracket is not modelled here: the bracket is arbitrary.
-/

namespace Shareloc
variable {K : Type*} [Field K] [LinearOrder K] [IsStrictOrderedRing K] [FloorRing K]

/-- Floating point values of `p + c * (q - p)` in the order written (dtm_intersection.py:783-785,
dtm_intersection.cpp:851-855). -/
def FloatLerp (u p q c v : K) : Prop :=
  ∃ e f, Rounds u (q - p) e ∧ Rounds u (c * e) f ∧ Rounds u (p + f) v

/-- One turn of the regula falsi in floating point (dtm_intersection.py:779-791, dtm_intersection.cpp:843-864): the
interpolation coefficient, the interpolated point `q`, the terrain altitude `zv` there and the difference `d2`.  A
division by zero has no value here: it is not finite. -/
def FloatTurn (u : K) (mat : ℤ → ℤ → K) (nbRows nbCols : ℤ) (p1 : V3 K) (alti1 : K) (p2 : V3 K) (h2 : K) (q : V3 K)
    (zv d2 : K) : Prop :=
  ∃ num dh dz den ch, Rounds u (p1.z - alti1) num ∧ Rounds u (h2 - alti1) dh ∧ Rounds u (p2.z - p1.z) dz ∧
    Rounds u (dh - dz) den ∧ den ≠ 0 ∧ Rounds u (num / den) ch ∧
    FloatLerp u p1.x p2.x ch q.x ∧ FloatLerp u p1.y p2.y ch q.y ∧ FloatLerp u p1.z p2.z ch q.z ∧
    FloatBilin u mat nbRows nbCols q.x q.y zv ∧ Rounds u (zv - q.z) d2

/-- The regula falsi in floating point (dtm_intersection.py:777-814, dtm_intersection.cpp:838-884) from the bracket `p1`
(terrain altitude `alti1`), `p2` (terrain altitude `h2`) with the tolerance `tol`: the point with which the loop ends.  `d_2` is
initialised above the tolerance, so the body runs at least once.  There is no bound on the number of turns: a run that
never ends has no value. -/
inductive FloatFalsi (u tol : K) (mat : ℤ → ℤ → K) (nbRows nbCols : ℤ) : V3 K → K → V3 K → K → V3 K → Prop
  | stop {p1 p2 q : V3 K} {alti1 h2 zv d2 : K} : FloatTurn u mat nbRows nbCols p1 alti1 p2 h2 q zv d2 → |d2| ≤ tol →
      FloatFalsi u tol mat nbRows nbCols p1 alti1 p2 h2 q
  | top {p1 p2 q r : V3 K} {alti1 h2 zv d2 : K} : FloatTurn u mat nbRows nbCols p1 alti1 p2 h2 q zv d2 → tol < |d2| → d2 < 0 →
      FloatFalsi u tol mat nbRows nbCols q zv p2 h2 r → FloatFalsi u tol mat nbRows nbCols p1 alti1 p2 h2 r
  | low {p1 p2 q r : V3 K} {alti1 h2 zv d2 : K} : FloatTurn u mat nbRows nbCols p1 alti1 p2 h2 q zv d2 → tol < |d2| → ¬ d2 < 0 →
      FloatFalsi u tol mat nbRows nbCols p1 alti1 q zv r → FloatFalsi u tol mat nbRows nbCols p1 alti1 p2 h2 r

/-- The points, in index coordinates, with which `intersection` ends successfully in floating point: on a vertical line of
sight (dtm_intersection.py:468-481, dtm_intersection.cpp:486-499) or by the regula falsi (dtm_intersection.py:773-819,
dtm_intersection.cpp:833-888) from any bracket. -/
inductive FloatFound (u tol : K) (mat : ℤ → ℤ → K) (nbRows nbCols : ℤ) : V3 K → Prop
  | vertical {row col alti : K} : FloatBilin u mat nbRows nbCols row col alti → FloatFound u tol mat nbRows nbCols ⟨row, col, alti⟩
  | crossing {p1 p2 q : V3 K} {alti1 h2 : K} : FloatFalsi u tol mat nbRows nbCols p1 alti1 p2 h2 q →
      FloatFound u tol mat nbRows nbCols q

/-- The ground points that `intersection` returns with success in floating point: the conversion of the previous ones
(dtm_intersection.py:480, 820; dtm_intersection.cpp:497, 887). -/
def FloatReturned (u tol : K) (mat : ℤ → ℤ → K) (nbRows nbCols : ℤ) (t : Affine K) (p : V3 K) : Prop :=
  ∃ q : V3 K, FloatFound u tol mat nbRows nbCols q ∧ FloatIndexToPhysical u t q.x q.y p.x p.y ∧ p.z = q.z

end Shareloc
