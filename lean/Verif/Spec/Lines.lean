import Verif.Model.Triangulation

/-!
Specification of the geometry of lines in space: points of a line, distances.
-/

namespace Shareloc
variable {K : Type*} [Field K] [LinearOrder K]

/-- Squared Euclidean distance of two points. -/
def sqDist (p q : V3 K) : K := (p.x - q.x) ^ 2 + (p.y - q.y) ^ 2 + (p.z - q.z) ^ 2

/-- The point at parameter `t` of the line through `s` of direction `v`. -/
def linePoint (s v : V3 K) (t : K) : V3 K := ⟨s.x + t * v.x, s.y + t * v.y, s.z + t * v.z⟩

/-- `d` is the squared distance from `q` to the line: the least squared distance to a point of the line. -/
def IsSqDistLine (s v q : V3 K) (d : K) : Prop :=
  (∃ t, sqDist q (linePoint s v t) = d) ∧ ∀ t, d ≤ sqDist q (linePoint s v t)

/-- A vector of length 1. -/
def IsUnitVec (v : V3 K) : Prop := v.x ^ 2 + v.y ^ 2 + v.z ^ 2 = 1

/-- Two directions are parallel. -/
def Parallel (v w : V3 K) : Prop := ∃ t : K, w = ⟨t * v.x, t * v.y, t * v.z⟩

/-- Specification of a square root. -/
def IsSqrt (sqrt : K → K) : Prop := ∀ x, 0 ≤ x → 0 ≤ sqrt x ∧ sqrt x * sqrt x = x

end Shareloc
