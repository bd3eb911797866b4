import Mathlib.Algebra.Field.Basic
import Mathlib.Tactic.Ring
import Mathlib.Tactic.FieldSimp
import Mathlib.Tactic.LinearCombination

/-!
Specification: an affine sensor, whose pixel (r, c) sees at altitude z the ground point
(a r + b c + p z + u, a' r + b' c + p' z + u').
-/

namespace Shareloc.Spec
variable {K : Type*} [Field K]

/-- The coefficients. -/
structure AffineSensor (K : Type*) where
  a : K
  b : K
  p : K
  u : K
  a' : K
  b' : K
  p' : K
  u' : K

/-- The ground point seen by the pixel (r, c) at the altitude z. -/
def AffineSensor.ground (s : AffineSensor K) (r c z : K) : K × K :=
  (s.a * r + s.b * c + s.p * z + s.u, s.a' * r + s.b' * c + s.p' * z + s.u')

/-- Determinant of the plane part. -/
def AffineSensor.det (s : AffineSensor K) : K := s.a * s.b' - s.b * s.a'

/-- Two pixels of two images are homologous at the altitude z when they see the same point of this altitude. -/
def Homologous (s1 s2 : AffineSensor K) (r1 c1 z r2 c2 : K) : Prop := s1.ground r1 c1 z = s2.ground r2 c2 z

/-- The point (r, c) is on the line through (r0, c0) of direction (dr, dc). -/
def OnLine (r0 c0 dr dc r c : K) : Prop := ∃ t : K, r = r0 + t * dr ∧ c = c0 + t * dc

end Shareloc.Spec
