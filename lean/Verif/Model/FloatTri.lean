import Verif.Model.Float
import Verif.Model.Triangulation
import Mathlib.Algebra.BigOperators.Fin

/-!
Floating point evaluation of the lines of sight (los.py:86-99) and of `n_view_triangulation` (triangulation.py:152-169).

Every operation rounds with a relative error of at most `u` (`Rounds`, Model/Float.lean); sums may be evaluated in any order.  Overflow,
underflow and NaN are not part of this model.  `np.linalg.inv` (LAPACK) is only constrained by its residual: the product of the matrix and of
the matrix returned is the identity up to `η` in every entry.
-/

namespace Shareloc
variable {K : Type*} [Field K] [LinearOrder K] [IsStrictOrderedRing K]

/-- Component of a row (`p[..., i]`, triangulation.py:160-168). -/
def V3.at (v : V3 K) : Fin 3 → K
  | 0 => v.x
  | 1 => v.y
  | 2 => v.z

/-- `np.nansum` of floating point numbers (triangulation.py:162-168) and the sum of `np.linalg.norm` (los.py:92): any order of the
additions, each of them rounded. -/
inductive FloatSum {ι : Type*} [DecidableEq ι] (u : K) (f : ι → K) : Finset ι → K → Prop
  | empty : FloatSum u f ∅ 0
  | one (i : ι) : FloatSum u f {i} (f i)
  | add {s t : Finset ι} {x y v : K} : s.Nonempty → t.Nonempty → Disjoint s t → FloatSum u f s x → FloatSum u f t y →
      Rounds u (x + y) v → FloatSum u f (s ∪ t) v

/-- `np.sqrt` of `np.linalg.norm` (los.py:92): the rounding of the square root. -/
def FloatSqrt (u s r : K) : Prop := ∃ t, 0 ≤ t ∧ t * t = s ∧ Rounds u t r

/-- One viewing vector (los.py:88-99): `vis = start - end`, its norm, the quotient.  Null norms (`NaN`) are excluded. -/
def FloatView (u : K) (a b v : V3 K) : Prop :=
  ∃ (d q : Fin 3 → K) (s r : K),
    (∀ i, Rounds u (a.at i - b.at i) (d i)) ∧
    (∀ i, Rounds u (d i * d i) (q i)) ∧ FloatSum u q Finset.univ s ∧ FloatSqrt u s r ∧ r ≠ 0 ∧
    ∀ i, Rounds u (d i / r) (v.at i)

/-- `id_vivi = np.eye(3) - vivi` of one view (triangulation.py:160-161). -/
def FloatIdVivi (u : K) (v : V3 K) (g : Fin 3 → Fin 3 → K) : Prop :=
  ∀ i j, ∃ p, Rounds u (v.at i * v.at j) p ∧ Rounds u ((if i = j then 1 else 0) - p) (g i j)

/-- `id_vivi_si` of one view (triangulation.py:164). -/
def FloatIdViviSi (u : K) (g : Fin 3 → Fin 3 → K) (s : V3 K) (t : Fin 3 → K) : Prop :=
  ∀ i, ∃ h : Fin 3 → K, (∀ j, Rounds u (g i j * s.at j) (h j)) ∧ FloatSum u h Finset.univ (t i)

/-- The contract of `np.linalg.inv` (triangulation.py:167): `A X = I` up to `η`. -/
def InvContract (η : K) (A X : Fin 3 → Fin 3 → K) : Prop :=
  ∀ i j, |(∑ l, A i l * X l j) - (if i = j then 1 else 0)| ≤ η

/-- `n_view_triangulation` of one match (triangulation.py:152-169), from the starts `s` and the viewing vectors `v` of its views. -/
def FloatNView (u η : K) {n : ℕ} (s v : Fin n → V3 K) (q : V3 K) : Prop :=
  ∃ (g : Fin n → Fin 3 → Fin 3 → K) (A X : Fin 3 → Fin 3 → K) (t : Fin n → Fin 3 → K) (b : Fin 3 → K),
    (∀ k, FloatIdVivi u (v k) (g k)) ∧
    (∀ i j, FloatSum u (fun k => g k i j) Finset.univ (A i j)) ∧
    (∀ k, FloatIdViviSi u (g k) (s k) (t k)) ∧
    (∀ i, FloatSum u (fun k => t k i) Finset.univ (b i)) ∧
    InvContract η A X ∧
    ∀ i, ∃ m : Fin 3 → K, (∀ j, Rounds u (X i j * b j) (m j)) ∧ FloatSum u m Finset.univ (q.at i)

/-- From the two ends of the lines of sight of a match (los.py:86-88: highest, lowest altitude) to its triangulated point (los.py:89-99,
triangulation.py:152-169). -/
def FloatTriangulation (u η : K) {n : ℕ} (a b : Fin n → V3 K) (q : V3 K) : Prop :=
  ∃ v : Fin n → V3 K, (∀ k, FloatView u (a k) (b k) (v k)) ∧ FloatNView u η a v q

/-- One component of `np.cross` (triangulation.py:124): two products and their difference. -/
def FloatCross (u a b c d r : K) : Prop := ∃ m n, Rounds u (a * b) m ∧ Rounds u (c * d) n ∧ Rounds u (m - n) r

/-- `n_view_distance` of one view of one point (triangulation.py:111-125), from the start `s`, the viewing vector `v` and the point `q`. -/
def FloatDistance (u : K) (s v q : V3 K) (r : K) : Prop :=
  ∃ (d c : V3 K) (m : Fin 3 → K) (t : K),
    (∀ i, Rounds u (q.at i - s.at i) (d.at i)) ∧
    FloatCross u d.y v.z d.z v.y c.x ∧ FloatCross u d.z v.x d.x v.z c.y ∧ FloatCross u d.x v.y d.y v.x c.z ∧
    (∀ i, Rounds u (c.at i * c.at i) (m i)) ∧ FloatSum u m Finset.univ t ∧ FloatSqrt u t r

/-- The residue of one view (triangulation.py:91-108) from the ends of its line of sight. -/
def FloatResidue (u : K) (a b q : V3 K) (r : K) : Prop := ∃ v, FloatView u a b v ∧ FloatDistance u a v q r

end Shareloc
