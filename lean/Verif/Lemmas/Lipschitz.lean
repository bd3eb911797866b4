import Verif.Lemmas.Grid
import Mathlib.Tactic.Linarith
import Mathlib.Tactic.Ring
import Mathlib.Tactic.FieldSimp

/-! Piecewise linear and bilinear interpolation of nearly uniform nodes; Newton's method in the plane. -/

set_option linter.unusedSectionVars false

namespace Shareloc
variable {K : Type*} [Field K] [LinearOrder K] [IsStrictOrderedRing K] [FloorRing K]

theorem gridCell_bounds (n : ℕ) (hn : 2 ≤ n) (t : K) :
    (gridCell n t = 0 ∨ (gridCell n t : K) ≤ t) ∧ (gridCell n t + 2 = n ∨ t < (gridCell n t : K) + 1) := by
  constructor
  · by_cases h : gridCell n t = 0
    · exact Or.inl h
    · right
      have : ((gridCell n t : ℕ) : ℤ) ≤ ⌊t⌋ := by unfold gridCell at h ⊢; omega
      have := Int.le_floor.1 this
      simpa using this
  · by_cases h : gridCell n t + 2 = n
    · exact Or.inl h
    · right
      have : ⌊t⌋ < ((gridCell n t : ℕ) : ℤ) + 1 := by unfold gridCell at h ⊢; omega
      have := Int.floor_lt.1 this
      simpa using this

theorem nodes_mono (n : ℕ) (f : ℕ → K) (h : ∀ i, i + 1 < n → f i ≤ f (i + 1)) (i j : ℕ) (hij : i ≤ j) (hj : j < n) : f i ≤ f j := by
  induction j with
  | zero => rw [Nat.le_zero.1 hij]
  | succ j ih =>
    rcases Nat.eq_or_lt_of_le hij with rfl | hlt
    · exact le_rfl
    · exact (ih (by omega) (by omega)).trans (h j hj)

/-- The interpolation of nondecreasing values is nondecreasing, also beyond the outer nodes. -/
theorem lerp_mono (n : ℕ) (hn : 2 ≤ n) (f : ℕ → K) (h : ∀ i, i + 1 < n → f i ≤ f (i + 1)) (s t : K) (hst : s ≤ t) :
    lerp n f s ≤ lerp n f t := by
  have hs := gridCell_le n hn s
  have ht := gridCell_le n hn t
  obtain ⟨s1, s2⟩ := gridCell_bounds n hn s
  obtain ⟨t1, t2⟩ := gridCell_bounds n hn t
  have hle : gridCell n s ≤ gridCell n t := by
    have : ⌊s⌋ ≤ ⌊t⌋ := Int.floor_le_floor hst
    unfold gridCell
    omega
  simp only [lerp]
  rcases Nat.eq_or_lt_of_le hle with heq | hlt
  · rw [heq]
    have := mul_le_mul_of_nonneg_right (sub_le_sub_right hst (gridCell n t : K)) (sub_nonneg.2 (h _ ht))
    linarith
  · have a1 : f (gridCell n s) + (s - gridCell n s) * (f (gridCell n s + 1) - f (gridCell n s)) ≤ f (gridCell n s + 1) := by
      have hs' : s - (gridCell n s : K) ≤ 1 := by
        rcases s2 with h' | h'
        · omega
        · linarith
      have := mul_le_mul_of_nonneg_right hs' (sub_nonneg.2 (h _ hs))
      linarith
    have a2 : f (gridCell n t) ≤ f (gridCell n t) + (t - gridCell n t) * (f (gridCell n t + 1) - f (gridCell n t)) := by
      have ht' : 0 ≤ t - (gridCell n t : K) := by
        rcases t1 with h' | h'
        · omega
        · linarith
      have := mul_nonneg ht' (sub_nonneg.2 (h _ ht))
      linarith
    exact a1.trans ((nodes_mono n f h _ _ hlt (by omega)).trans a2)

/-- If the steps between nodes are all `b` up to `ε`, so are the increments of the interpolation. -/
theorem lerp_increment (n : ℕ) (hn : 2 ≤ n) (f : ℕ → K) (b ε : K) (h : ∀ i, i + 1 < n → |f (i + 1) - f i - b| ≤ ε) (s t : K) :
    |lerp n f t - lerp n f s - b * (t - s)| ≤ ε * |t - s| := by
  have e : ∀ (c u : K), lerp n (fun i => f i + c * i) u = lerp n f u + c * u := by
    intro c u
    simp only [lerp]
    push_cast
    ring
  have e' : ∀ (c u : K), lerp n (fun i => c * i - f i) u = c * u - lerp n f u := by
    intro c u
    simp only [lerp]
    push_cast
    ring
  have main : ∀ s t : K, s ≤ t → |lerp n f t - lerp n f s - b * (t - s)| ≤ ε * (t - s) := by
    intro s t hst
    have up := lerp_mono n hn (fun i => f i + (ε - b) * i) (by
      intro i hi
      have := (abs_le.1 (h i hi)).1
      push_cast
      linarith) s t hst
    have dn := lerp_mono n hn (fun i => (b + ε) * i - f i) (by
      intro i hi
      have := (abs_le.1 (h i hi)).2
      push_cast
      linarith) s t hst
    rw [e, e] at up
    rw [e', e'] at dn
    rw [abs_le]
    constructor <;> linarith
  rcases le_total s t with hst | hst
  · rw [abs_of_nonneg (sub_nonneg.2 hst)]
    exact main s t hst
  · have := main t s hst
    rw [abs_of_nonpos (sub_nonpos.2 hst), ← abs_neg]
    have e1 : -(lerp n f t - lerp n f s - b * (t - s)) = lerp n f s - lerp n f t - b * (s - t) := by ring
    rw [e1]
    linarith

/-- A coordinate at most `σ` steps out of an axis of `n` nodes. -/
def Within (n : ℕ) (σ t : K) : Prop := -σ ≤ t ∧ t ≤ (n : K) - 1 + σ

/-- Values bounded by `ε` are interpolated by values bounded by `ε`, and a little more out of the nodes. -/
theorem lerp_bounded (n : ℕ) (hn : 2 ≤ n) (f : ℕ → K) (ε : K) (h : ∀ i, i < n → |f i| ≤ ε) (σ t : K) (hσ : 0 ≤ σ) (ht : Within n σ t) :
    |lerp n f t| ≤ (1 + 2 * σ) * ε := by
  have hc := gridCell_le n hn t
  obtain ⟨t1, t2⟩ := gridCell_bounds n hn t
  have f0 := h (gridCell n t) (by omega)
  have f1 := h (gridCell n t + 1) hc
  have w0 : -σ ≤ t - (gridCell n t : K) := by
    rcases t1 with h' | h'
    · rw [h']; have := ht.1; push_cast; linarith
    · linarith
  have w1 : t - (gridCell n t : K) ≤ 1 + σ := by
    rcases t2 with h' | h'
    · have : ((gridCell n t : ℕ) : K) = (n : K) - 2 := by
        have : ((gridCell n t + 2 : ℕ) : K) = (n : K) := by rw [h']
        push_cast at this
        linarith
      have := ht.2
      linarith
    · linarith
  have e : lerp n f t = (1 - (t - (gridCell n t : K))) * f (gridCell n t) + (t - (gridCell n t : K)) * f (gridCell n t + 1) := by
    simp only [lerp]; ring
  rw [e]
  set w := t - (gridCell n t : K) with hw
  have hε : 0 ≤ ε := (abs_nonneg _).trans f0
  have habs : |1 - w| + |w| ≤ 1 + 2 * σ := by
    rcases le_total 0 w with a | a <;> rcases le_total w 1 with b | b
    · rw [abs_of_nonneg a, abs_of_nonneg (by linarith : (0:K) ≤ 1 - w)]; linarith
    · rw [abs_of_nonneg a, abs_of_nonpos (by linarith : (1:K) - w ≤ 0)]; linarith
    · rw [abs_of_nonpos a, abs_of_nonneg (by linarith : (0:K) ≤ 1 - w)]; linarith
    · rw [abs_of_nonpos a, abs_of_nonpos (by linarith : (1:K) - w ≤ 0)]; linarith
  calc |(1 - w) * f (gridCell n t) + w * f (gridCell n t + 1)|
      ≤ |(1 - w) * f (gridCell n t)| + |w * f (gridCell n t + 1)| := abs_add_le _ _
    _ = |1 - w| * |f (gridCell n t)| + |w| * |f (gridCell n t + 1)| := by rw [abs_mul, abs_mul]
    _ ≤ |1 - w| * ε + |w| * ε := add_le_add (mul_le_mul_of_nonneg_left f0 (abs_nonneg _)) (mul_le_mul_of_nonneg_left f1 (abs_nonneg _))
    _ = (|1 - w| + |w|) * ε := by ring
    _ ≤ (1 + 2 * σ) * ε := mul_le_mul_of_nonneg_right habs hε

/-- Bilinear interpolation of a table of values. -/
def lerp2 (n m : ℕ) (f : ℕ → ℕ → K) (u v : K) : K := lerp n (fun i => lerp m (fun j => f i j) v) u

/-- If the steps between neighbours are all `a` along the first axis and `b` along the second one up to `ε`, so are the increments
of the bilinear interpolation. -/
theorem lerp2_increment (n m : ℕ) (hn : 2 ≤ n) (hm : 2 ≤ m) (f : ℕ → ℕ → K) (a b ε σ : K) (hσ : 0 ≤ σ)
    (ha : ∀ i j, i + 1 < n → j < m → |f (i + 1) j - f i j - a| ≤ ε) (hb : ∀ i j, i < n → j + 1 < m → |f i (j + 1) - f i j - b| ≤ ε)
    (u v u' v' : K) (hu : Within n σ u) (hv' : Within m σ v') :
    |lerp2 n m f u' v' - lerp2 n m f u v - (a * (u' - u) + b * (v' - v))| ≤ (1 + 2 * σ) * ε * (|u' - u| + |v' - v|) := by
  have h1 : |lerp2 n m f u' v' - lerp2 n m f u v' - a * (u' - u)| ≤ (1 + 2 * σ) * ε * |u' - u| := by
    apply lerp_increment n hn
    intro i hi
    have e : lerp m (fun j => f (i + 1) j) v' - lerp m (fun j => f i j) v' - a = lerp m (fun j => f (i + 1) j - f i j - a) v' := by
      simp only [lerp]; ring
    rw [e]
    exact lerp_bounded m hm _ ε (fun j hj => ha i j hi hj) σ v' hσ hv'
  have h2 : |lerp2 n m f u v' - lerp2 n m f u v - b * (v' - v)| ≤ (1 + 2 * σ) * (ε * |v' - v|) := by
    have e : lerp2 n m f u v' - lerp2 n m f u v - b * (v' - v) =
        lerp n (fun i => lerp m (fun j => f i j) v' - lerp m (fun j => f i j) v - b * (v' - v)) u := by
      simp only [lerp2, lerp]; ring
    rw [e]
    apply lerp_bounded n hn _ _ _ σ u hσ hu
    intro i hi
    exact lerp_increment m hm _ b ε (fun j hj => hb i j hi hj) v v'
  have e : lerp2 n m f u' v' - lerp2 n m f u v - (a * (u' - u) + b * (v' - v)) =
      (lerp2 n m f u' v' - lerp2 n m f u v' - a * (u' - u)) + (lerp2 n m f u v' - lerp2 n m f u v - b * (v' - v)) := by ring
  rw [e]
  refine (abs_add_le _ _).trans ?_
  linarith

/-- Size of the inverse of the matrix `[a b; c d]`: the sum of its entries. -/
def invSize (a b c d : K) : K := (|a| + |b| + |c| + |d|) / |a * d - b * c|

theorem invSize_nonneg (a b c d : K) : 0 ≤ invSize a b c d := by
  unfold invSize; positivity

/-- The solution of a linear system is bounded. -/
theorem solve_bound (a b c d x y w : K) (hdet : a * d - b * c ≠ 0) (h1 : |a * x + b * y| ≤ w) (h2 : |c * x + d * y| ≤ w) :
    |x| + |y| ≤ invSize a b c d * w := by
  have hD : 0 < |a * d - b * c| := abs_pos.2 hdet
  have e1 : (a * d - b * c) * x = d * (a * x + b * y) - b * (c * x + d * y) := by ring
  have e2 : (a * d - b * c) * y = a * (c * x + d * y) - c * (a * x + b * y) := by ring
  have b1 : |a * d - b * c| * |x| ≤ (|d| + |b|) * w := by
    rw [← abs_mul, e1]
    refine (abs_sub _ _).trans ?_
    rw [abs_mul, abs_mul]
    have := mul_le_mul_of_nonneg_left h1 (abs_nonneg d)
    have := mul_le_mul_of_nonneg_left h2 (abs_nonneg b)
    linarith
  have b2 : |a * d - b * c| * |y| ≤ (|a| + |c|) * w := by
    rw [← abs_mul, e2]
    refine (abs_sub _ _).trans ?_
    rw [abs_mul, abs_mul]
    have := mul_le_mul_of_nonneg_left h1 (abs_nonneg c)
    have := mul_le_mul_of_nonneg_left h2 (abs_nonneg a)
    linarith
  unfold invSize
  rw [div_mul_eq_mul_div, le_div_iff₀ hD]
  linarith

/-- A matrix close to a regular one is regular. -/
theorem close_regular (a b c d a' b' c' d' ε : K) (hdet : a * d - b * c ≠ 0) (ha : |a' - a| ≤ ε) (hb : |b' - b| ≤ ε) (hc : |c' - c| ≤ ε)
    (hd : |d' - d| ≤ ε) (hq : invSize a b c d * ε < 1) : a' * d' - b' * c' ≠ 0 := by
  intro h0
  have main : ∀ x y : K, a' * x + b' * y = 0 → c' * x + d' * y = 0 → |x| + |y| = 0 := by
    intro x y h1 h2
    have w1 : |a * x + b * y| ≤ ε * (|x| + |y|) := by
      have e : a * x + b * y = -((a' - a) * x + (b' - b) * y) := by linear_combination h1
      rw [e, abs_neg]
      refine (abs_add_le _ _).trans ?_
      rw [abs_mul, abs_mul]
      have := mul_le_mul_of_nonneg_right ha (abs_nonneg x)
      have := mul_le_mul_of_nonneg_right hb (abs_nonneg y)
      linarith
    have w2 : |c * x + d * y| ≤ ε * (|x| + |y|) := by
      have e : c * x + d * y = -((c' - c) * x + (d' - d) * y) := by linear_combination h2
      rw [e, abs_neg]
      refine (abs_add_le _ _).trans ?_
      rw [abs_mul, abs_mul]
      have := mul_le_mul_of_nonneg_right hc (abs_nonneg x)
      have := mul_le_mul_of_nonneg_right hd (abs_nonneg y)
      linarith
    have := solve_bound a b c d x y _ hdet w1 w2
    have hnn : 0 ≤ |x| + |y| := by positivity
    by_contra hne
    have hpos : 0 < |x| + |y| := lt_of_le_of_ne hnn (Ne.symm hne)
    have : invSize a b c d * ε * (|x| + |y|) < 1 * (|x| + |y|) := mul_lt_mul_of_pos_right hq hpos
    linarith
  have m1 := main d' (-c') (by linear_combination h0) (by ring)
  have m2 := main b' (-a') (by ring) (by linear_combination -h0)
  have z : ∀ x y : K, |x| + |y| = 0 → x = 0 ∧ y = 0 := by
    intro x y h
    have hx := abs_nonneg x
    have hy := abs_nonneg y
    exact ⟨abs_eq_zero.1 (by linarith), abs_eq_zero.1 (by linarith)⟩
  obtain ⟨z1, z2⟩ := z _ _ m1
  obtain ⟨z3, z4⟩ := z _ _ m2
  rw [neg_eq_zero] at z2 z4
  have := main 1 0 (by rw [z4, z3]; ring) (by rw [z2, z1]; ring)
  simp at this

/-- One Newton step with an approximate derivative: `(x, y)` is the current error, `(p, q)` the difference of the values, `(x', y')`
the error after the correction by the solution of the system of the approximate derivative. -/
theorem newton_step (a b c d a' b' c' d' ε x y p q x' y' : K) (hdet : a * d - b * c ≠ 0) (ha : |a' - a| ≤ ε) (hb : |b' - b| ≤ ε)
    (hc : |c' - c| ≤ ε) (hd : |d' - d| ≤ ε) (hp : |p - (a * x + b * y)| ≤ ε * (|x| + |y|)) (hq : |q - (c * x + d * y)| ≤ ε * (|x| + |y|))
    (h1 : a' * (x - x') + b' * (y - y') = p) (h2 : c' * (x - x') + d' * (y - y') = q) :
    (1 - invSize a b c d * ε) * (|x'| + |y'|) ≤ 2 * (invSize a b c d * ε) * (|x| + |y|) := by
  have part : ∀ (a b a' b' p : K), |a' - a| ≤ ε → |b' - b| ≤ ε → |p - (a * x + b * y)| ≤ ε * (|x| + |y|) →
      a' * (x - x') + b' * (y - y') = p → |a * x' + b * y'| ≤ 2 * ε * (|x| + |y|) + ε * (|x'| + |y'|) := by
    intro a b a' b' p ha hb hp h
    have e : a * x' + b * y' = (a' - a) * x + (b' - b) * y - (p - (a * x + b * y)) - ((a' - a) * x' + (b' - b) * y') := by
      linear_combination -h
    rw [e]
    have t1 : |(a' - a) * x| ≤ ε * |x| := by rw [abs_mul]; exact mul_le_mul_of_nonneg_right ha (abs_nonneg x)
    have t2 : |(b' - b) * y| ≤ ε * |y| := by rw [abs_mul]; exact mul_le_mul_of_nonneg_right hb (abs_nonneg y)
    have t3 : |(a' - a) * x'| ≤ ε * |x'| := by rw [abs_mul]; exact mul_le_mul_of_nonneg_right ha (abs_nonneg x')
    have t4 : |(b' - b) * y'| ≤ ε * |y'| := by rw [abs_mul]; exact mul_le_mul_of_nonneg_right hb (abs_nonneg y')
    have s1 := abs_add_le ((a' - a) * x) ((b' - b) * y)
    have s2 := abs_sub ((a' - a) * x + (b' - b) * y) (p - (a * x + b * y))
    have s3 := abs_sub ((a' - a) * x + (b' - b) * y - (p - (a * x + b * y))) ((a' - a) * x' + (b' - b) * y')
    have s4 := abs_add_le ((a' - a) * x') ((b' - b) * y')
    linarith
  have := solve_bound a b c d x' y' _ hdet (part a b a' b' p ha hb hp h1) (part c d c' d' q hc hd hq h2)
  linarith

/-- The error is bounded by the difference of the values. -/
theorem error_bound (a b c d ε x y p q w : K) (hdet : a * d - b * c ≠ 0) (hp : |p - (a * x + b * y)| ≤ ε * (|x| + |y|))
    (hq : |q - (c * x + d * y)| ≤ ε * (|x| + |y|)) (h1 : |p| ≤ w) (h2 : |q| ≤ w) :
    (1 - invSize a b c d * ε) * (|x| + |y|) ≤ invSize a b c d * w := by
  have part : ∀ a b p : K, |p - (a * x + b * y)| ≤ ε * (|x| + |y|) → |p| ≤ w → |a * x + b * y| ≤ w + ε * (|x| + |y|) := by
    intro a b p hp h
    have e : a * x + b * y = p - (p - (a * x + b * y)) := by ring
    rw [e]
    refine (abs_sub _ _).trans ?_
    linarith
  have := solve_bound a b c d x y _ hdet (part a b p hp h1) (part c d q hq h2)
  linarith

end Shareloc
