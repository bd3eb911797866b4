import Verif.Model.Affine

/-! Specifications about lines of sight seen as polylines, and boxes; no reference to the algorithms. -/

namespace Shareloc.Spec
variable {K : Type*} [Field K]

/-- Point of parameter `t` on the line from `a` (`t = 0`) to `b` (`t = 1`). -/
def lerp (a b : V3 K) (t : K) : V3 K :=
  ⟨a.x + t * (b.x - a.x), a.y + t * (b.y - a.y), a.z + t * (b.z - a.z)⟩

variable [LinearOrder K]

/-- `p` is the point of parameter `h` of the polyline `vs`: the integer part of `h` is the rank of a
segment, the fractional part the position in it (a vertex has two such writings). -/
def OnPolyline (vs : List (V3 K)) (h : K) (p : V3 K) : Prop :=
  ∃ (i : ℕ) (a b : V3 K) (t : K), vs[i]? = some a ∧ vs[i + 1]? = some b ∧ 0 ≤ t ∧ t ≤ 1 ∧
    h = i + t ∧ p = lerp a b t

/-- The closed box `[0, rows-1] x [0, cols-1] x [lo, hi]`. -/
def InBox (rows cols : ℕ) (lo hi : K) (p : V3 K) : Prop :=
  0 ≤ p.x ∧ p.x ≤ (rows : K) - 1 ∧ 0 ≤ p.y ∧ p.y ≤ (cols : K) - 1 ∧ lo ≤ p.z ∧ p.z ≤ hi

/-- The interior of that box. -/
def InsideBox (rows cols : ℕ) (lo hi : K) (p : V3 K) : Prop :=
  0 < p.x ∧ p.x < (rows : K) - 1 ∧ 0 < p.y ∧ p.y < (cols : K) - 1 ∧ lo < p.z ∧ p.z < hi

/-- `p` is on the plane carrying face number `k` of the box (two faces per axis). -/
def OnFacePlane (rows cols : ℕ) (lo hi : K) (k : Fin 6) (p : V3 K) : Prop :=
  match k with
  | 0 => p.x = 0
  | 1 => p.x = (rows : K) - 1
  | 2 => p.y = 0
  | 3 => p.y = (cols : K) - 1
  | 4 => p.z = lo
  | 5 => p.z = hi

/-- `p` (parameter `h`) is the first point of the polyline on the plane carrying face `k`. -/
def FirstCrossing (rows cols : ℕ) (lo hi : K) (k : Fin 6) (vs : List (V3 K)) (h : K) (p : V3 K) : Prop :=
  OnPolyline vs h p ∧ OnFacePlane rows cols lo hi k p ∧
    ∀ h' p', OnPolyline vs h' p' → OnFacePlane rows cols lo hi k p' → h ≤ h'

/-- The horizontal position is within the DTM footprint spanned by the node centres. -/
def InFootprint (rows cols : ℕ) (p : V3 K) : Prop :=
  0 ≤ p.x ∧ p.x ≤ (rows : K) - 1 ∧ 0 ≤ p.y ∧ p.y ≤ (cols : K) - 1

end Shareloc.Spec
