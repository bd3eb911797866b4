import Mathlib.Analysis.Calculus.Deriv.Pow
import Mathlib.Analysis.Convex.Deriv
import Verif.Props.AffineStereo

/-!
# C97: triangulation of the pixels that see a point, when the lines of sight are curved

A line of sight is replaced by the straight line through its points at the two extreme altitudes (los.py:70-100).  The error of this
replacement is bounded by the curvature of the line of sight, and the error of the triangulated point by C94.
-/

set_option linter.unusedSectionVars false

namespace Shareloc

/-- Specification: on the altitudes between `m` and `n` the function is continuous, and inside twice differentiable with a second derivative
at most `M` in absolute value. -/
def BoundedCurvature (f : ℝ → ℝ) (m n M : ℝ) : Prop :=
  ContinuousOn f (Set.Icc m n) ∧ ∃ f' f'' : ℝ → ℝ, ∀ t ∈ Set.Ioo m n, HasDerivAt f (f' t) t ∧ HasDerivAt f' (f'' t) t ∧ |f'' t| ≤ M

/-- Specification: the geocentric point of a line of sight, as a function of the altitude, has an acceleration of norm at most `M`. -/
def CurvedBy (γ : ℝ → V3 ℝ) (m n M : ℝ) : Prop :=
  ∃ Mx My Mz : ℝ, BoundedCurvature (fun z => (γ z).x) m n Mx ∧ BoundedCurvature (fun z => (γ z).y) m n My ∧
    BoundedCurvature (fun z => (γ z).z) m n Mz ∧ 0 ≤ M ∧ Mx ^ 2 + My ^ 2 + Mz ^ 2 ≤ M ^ 2

/-- A function whose second derivative is at least `-M` is at most the chord plus a parabola. -/
theorem below_chord (f : ℝ → ℝ) (m n M : ℝ) (h : BoundedCurvature f m n M) (p q r : ℝ) (hp : m ≤ p) (hpq : p ≤ q) (hqr : q ≤ r) (hr : r ≤ n) :
    f q * (r - p) ≤ f p * (r - q) + f r * (q - p) + M / 2 * ((r - p) * (q - p) * (r - q)) := by
  obtain ⟨hc, f', f'', hd⟩ := h
  have hconv : ConvexOn ℝ (Set.Icc m n) (fun t => f t + M / 2 * t ^ 2) := by
    refine convexOn_of_hasDerivWithinAt2_nonneg (f' := fun t => f' t + M * t) (f'' := fun t => f'' t + M) (convex_Icc m n)
      (hc.add (by fun_prop)) ?_ ?_ ?_
    · intro t ht
      rw [interior_Icc] at ht
      have h2 : HasDerivAt (fun t : ℝ => M / 2 * t ^ 2) (M * t) t := by
        have h3 := (hasDerivAt_pow 2 t).const_mul (M / 2)
        have e : M * t = M / 2 * (((2 : ℕ) : ℝ) * t ^ (2 - 1)) := by norm_num; ring
        rw [e]
        exact h3
      exact ((hd t ht).1.add h2).hasDerivWithinAt
    · intro t ht
      rw [interior_Icc] at ht
      have h2 : HasDerivAt (fun t : ℝ => M * t) M t := by
        simpa using (hasDerivAt_id t).const_mul M
      exact ((hd t ht).2.1.add h2).hasDerivWithinAt
    · intro t ht
      rw [interior_Icc] at ht
      have := (abs_le.1 (hd t ht).2.2).1
      linarith
  rcases eq_or_lt_of_le (le_trans hpq hqr) with e | hlt
  · have e1 : q = p := le_antisymm (by rw [e]; exact hqr) hpq
    subst e1
    have e2 : r = q := e.symm
    subst e2
    simp
  · have hne : r - p ≠ 0 := by linarith
    obtain ⟨-, hc2⟩ := hconv
    have h2 := hc2 (⟨hp, by linarith⟩ : p ∈ Set.Icc m n) (⟨by linarith, hr⟩ : r ∈ Set.Icc m n)
      (div_nonneg (by linarith : (0 : ℝ) ≤ r - q) (by linarith : (0 : ℝ) ≤ r - p))
      (div_nonneg (by linarith : (0 : ℝ) ≤ q - p) (by linarith : (0 : ℝ) ≤ r - p))
      (by rw [← add_div, div_eq_one_iff_eq hne]; ring)
    simp only [smul_eq_mul] at h2
    have e : (r - q) / (r - p) * p + (q - p) / (r - p) * r = q := by
      field_simp
      ring
    rw [e] at h2
    have h3 := mul_le_mul_of_nonneg_right h2 (by linarith : (0 : ℝ) ≤ r - p)
    have e2 : ((r - q) / (r - p) * (f p + M / 2 * p ^ 2) + (q - p) / (r - p) * (f r + M / 2 * r ^ 2)) * (r - p) =
        (r - q) * (f p + M / 2 * p ^ 2) + (q - p) * (f r + M / 2 * r ^ 2) := by
      field_simp
    rw [e2] at h3
    nlinarith [h3]

theorem neg_curvature {f : ℝ → ℝ} {m n M : ℝ} (h : BoundedCurvature f m n M) : BoundedCurvature (fun t => -f t) m n M := by
  obtain ⟨hc, f', f'', hd⟩ := h
  exact ⟨hc.neg, fun t => -f' t, fun t => -f'' t, fun t ht => ⟨(hd t ht).1.neg, (hd t ht).2.1.neg, by rw [abs_neg]; exact (hd t ht).2.2⟩⟩

theorem sorted_chord (f : ℝ → ℝ) (m n M : ℝ) (h : BoundedCurvature f m n M) (p q r : ℝ) (hp : m ≤ p) (hpq : p ≤ q) (hqr : q ≤ r) (hr : r ≤ n) :
    |f p * (r - q) + f q * (p - r) + f r * (q - p)| ≤ M / 2 * |(r - p) * (q - p) * (r - q)| := by
  have h1 := below_chord f m n M h p q r hp hpq hqr hr
  have h2 := below_chord _ m n M (neg_curvature h) p q r hp hpq hqr hr
  have h0 : 0 ≤ (r - p) * (q - p) * (r - q) := by
    apply mul_nonneg (mul_nonneg _ _) <;> linarith
  rw [abs_of_nonneg h0, abs_le]
  constructor <;> nlinarith

/-- The distance to the chord, for three altitudes in any order. -/
theorem any_chord (f : ℝ → ℝ) (m n M : ℝ) (h : BoundedCurvature f m n M) (p q r : ℝ) (hp : p ∈ Set.Icc m n) (hq : q ∈ Set.Icc m n)
    (hr : r ∈ Set.Icc m n) : |f p * (r - q) + f q * (p - r) + f r * (q - p)| ≤ M / 2 * |(r - p) * (q - p) * (r - q)| := by
  have key := fun a b c => sorted_chord f m n M h a b c
  have fin : ∀ a b c : ℝ, |f a * (c - b) + f b * (a - c) + f c * (b - a)| ≤ M / 2 * |(c - a) * (b - a) * (c - b)| →
      (|f p * (r - q) + f q * (p - r) + f r * (q - p)| = |f a * (c - b) + f b * (a - c) + f c * (b - a)|) →
      |(r - p) * (q - p) * (r - q)| = |(c - a) * (b - a) * (c - b)| →
      |f p * (r - q) + f q * (p - r) + f r * (q - p)| ≤ M / 2 * |(r - p) * (q - p) * (r - q)| := by
    intro a b c h1 h2 h3
    rw [h2, h3]
    exact h1
  have neg : ∀ x y : ℝ, x = -y → |x| = |y| := fun x y e => by rw [e, abs_neg]
  rcases le_total p q with h1 | h1 <;> rcases le_total q r with h2 | h2 <;> rcases le_total p r with h3 | h3
  · exact key p q r hp.1 h1 h2 hr.2
  · exact key p q r hp.1 h1 h2 hr.2
  · exact fin p r q (key p r q hp.1 h3 h2 hq.2) (neg _ _ (by ring)) (neg _ _ (by ring))
  · exact fin r p q (key r p q hr.1 h3 h1 hq.2) (congrArg _ (by ring)) (congrArg _ (by ring))
  · exact fin q p r (key q p r hq.1 h1 h3 hr.2) (neg _ _ (by ring)) (neg _ _ (by ring))
  · exact fin q r p (key q r p hq.1 h2 h3 hp.2) (congrArg _ (by ring)) (congrArg _ (by ring))
  · exact fin r q p (key r q p hr.1 h2 h1 hp.2) (neg _ _ (by ring)) (neg _ _ (by ring))
  · exact fin r q p (key r q p hr.1 h2 h1 hp.2) (neg _ _ (by ring)) (neg _ _ (by ring))

theorem coord_chord (f : ℝ → ℝ) (m n M : ℝ) (h : BoundedCurvature f m n M) (lo hi z : ℝ) (hlo : lo ∈ Set.Icc m n) (hhi : hi ∈ Set.Icc m n)
    (hz : z ∈ Set.Icc m n) (hne : hi ≠ lo) :
    (f z - (f lo + (z - lo) / (hi - lo) * (f hi - f lo))) ^ 2 ≤ (M * (|z - lo| * |z - hi| / 2)) ^ 2 := by
  have h1 := any_chord f m n M h lo z hi hlo hz hhi
  have hne' : hi - lo ≠ 0 := sub_ne_zero.2 hne
  have e1 : f lo * (hi - z) + f z * (lo - hi) + f hi * (z - lo) =
      -(hi - lo) * (f z - (f lo + (z - lo) / (hi - lo) * (f hi - f lo))) := by
    field_simp
    ring
  rw [e1, abs_mul, abs_neg, abs_mul, abs_mul, mul_assoc |hi - lo|, mul_left_comm] at h1
  have h2 := le_of_mul_le_mul_left h1 (abs_pos.2 hne')
  have e2 : M / 2 * (|z - lo| * |hi - z|) = M * (|z - lo| * |z - hi| / 2) := by
    rw [abs_sub_comm hi z]
    ring
  rw [e2] at h2
  exact sq_le_sq' (by linarith [neg_abs_le (f z - (f lo + (z - lo) / (hi - lo) * (f hi - f lo)))]) (le_trans (le_abs_self _) h2)

theorem sqDist_triangle (p q r : V3 ℝ) (u v : ℝ) (hu : 0 ≤ u) (hv : 0 ≤ v) (h1 : sqDist p q ≤ u ^ 2) (h2 : sqDist q r ≤ v ^ 2) :
    sqDist p r ≤ (u + v) ^ 2 := by
  unfold sqDist at *
  set a := p.x - q.x
  set b := p.y - q.y
  set c := p.z - q.z
  set d := q.x - r.x
  set e := q.y - r.y
  set f := q.z - r.z
  have ex : p.x - r.x = a + d := by simp only [a, d]; ring
  have ey : p.y - r.y = b + e := by simp only [b, e]; ring
  have ez : p.z - r.z = c + f := by simp only [c, f]; ring
  rw [ex, ey, ez]
  have hcs : (a * d + b * e + c * f) ^ 2 ≤ (u * v) ^ 2 := by
    have h3 : (a * d + b * e + c * f) ^ 2 ≤ (a ^ 2 + b ^ 2 + c ^ 2) * (d ^ 2 + e ^ 2 + f ^ 2) := by
      nlinarith [sq_nonneg (a * e - b * d), sq_nonneg (a * f - c * d), sq_nonneg (b * f - c * e)]
    have h4 : (a ^ 2 + b ^ 2 + c ^ 2) * (d ^ 2 + e ^ 2 + f ^ 2) ≤ u ^ 2 * v ^ 2 :=
      mul_le_mul h1 h2 (by positivity) (by positivity)
    nlinarith
  have := abs_le_of_sq_le_sq hcs (by positivity)
  nlinarith [le_abs_self (a * d + b * e + c * f)]

/-- A point seen at the altitude `z` is near the chord of the line of sight. -/
theorem near_chord (γ : ℝ → V3 ℝ) (m n M : ℝ) (h : CurvedBy γ m n M) (lo hi z : ℝ) (hlo : lo ∈ Set.Icc m n) (hhi : hi ∈ Set.Icc m n)
    (hz : z ∈ Set.Icc m n) (hne : hi ≠ lo) (P : V3 ℝ) (η : ℝ) (hη : 0 ≤ η) (hP : sqDist P (γ z) ≤ η ^ 2) :
    NearLine (γ hi) (γ lo) P ((η + M * (|z - lo| * |z - hi| / 2)) ^ 2) := by
  obtain ⟨Mx, My, Mz, hx, hy, hzz, hM, hs⟩ := h
  refine ⟨(z - lo) / (hi - lo), sqDist_triangle P (γ z) _ η _ hη (by positivity) hP ?_⟩
  have h1 := coord_chord _ m n Mx hx lo hi z hlo hhi hz hne
  have h2 := coord_chord _ m n My hy lo hi z hlo hhi hz hne
  have h3 := coord_chord _ m n Mz hzz lo hi z hlo hhi hz hne
  simp only [sqDist, linePoint, V3.minus]
  set k := |z - lo| * |z - hi| / 2
  have : (Mx * k) ^ 2 + (My * k) ^ 2 + (Mz * k) ^ 2 ≤ (M * k) ^ 2 := by
    have := mul_le_mul_of_nonneg_right hs (sq_nonneg k)
    nlinarith
  linarith

theorem curved_ne {a b : V3 ℝ} (h : a ≠ b) (γ : ℝ → V3 ℝ) (lo hi : ℝ) (ha : γ hi = a) (hb : γ lo = b) : hi ≠ lo := by
  rintro rfl
  exact h (ha.symm.trans hb)

/-- C97. When `sensor_triangulation` returns: the two pixels of a match see the point `P`, up to a distance `η` (`η'`), at the altitudes `z` and
`z'` (usually the same), and the curvature of their lines of sight is at most `M` (`M'`) on a range of altitudes that contains these and the
extreme ones.  Then the point returned is near `P`: the error comes from `η`, from the curvature times the product of the distances of `z`
to the extreme altitudes, and is divided by one minus the cosine of the angle between the lines.  With straight lines of sight
(`M = M' = 0`) and exact pixels it is `P`, whatever the extreme altitudes. -/
theorem C97_sensor (toEcef toWgs84 : ORow ℝ → ORow ℝ) (mL mR : LosModel ℝ)
    (fL fR : ℝ → Bool → Option ℝ → Option ℝ → ORow ℝ) (hL : mL.LocatesBy fL) (hR : mR.LocatesBy fR)
    (pts : List ((Option ℝ × Option ℝ) × (Option ℝ × Option ℝ))) (minMaxL minMaxR : Option (ℝ × ℝ)) (residues fill : Bool)
    (res : TriResult ℝ) (h : sensorTriangulation Real.sqrt toEcef toWgs84 mL mR pts minMaxL minMaxR residues fill = .ok res)
    (i : ℕ) (cl rl cr rr : Option ℝ) (ht : pts[i]? = some ((cl, rl), (cr, rr)))
    (lo hi lo' hi' : ℝ) (hr : minMaxL.getD mL.altMinMax = (lo, hi)) (hr' : minMaxR.getD mR.altMinMax = (lo', hi'))
    (γ γ' : ℝ → V3 ℝ) (hends : γ hi ≠ γ lo) (hends' : γ' hi' ≠ γ' lo') (m n m' n' : ℝ)
    (hγ : ∀ z ∈ Set.Icc m n, toEcef (fL z fill rl cl) = (γ z).toRow) (hγ' : ∀ z ∈ Set.Icc m' n', toEcef (fR z fill rr cr) = (γ' z).toRow)
    (z z' : ℝ) (hin : lo ∈ Set.Icc m n ∧ hi ∈ Set.Icc m n ∧ z ∈ Set.Icc m n)
    (hin' : lo' ∈ Set.Icc m' n' ∧ hi' ∈ Set.Icc m' n' ∧ z' ∈ Set.Icc m' n') (M M' : ℝ) (hM : CurvedBy γ m n M) (hM' : CurvedBy γ' m' n' M')
    (P : V3 ℝ) (η η' : ℝ) (hη : 0 ≤ η) (hη' : 0 ≤ η') (hP : sqDist P (γ z) ≤ η ^ 2) (hP' : sqDist P (γ' z') ≤ η' ^ 2) :
    ∃ (p : V3 ℝ) (r : ℝ), res.ecef[i]? = some p.toRow ∧ res.wgs84[i]? = some (toWgs84 p.toRow) ∧
      (∀ l, res.residues = some l → l[i]? = some (some r)) ∧ 0 ≤ r ∧
      2 * r ^ 2 ≤ (η + M * (|z - lo| * |z - hi| / 2)) ^ 2 + (η' + M' * (|z' - lo'| * |z' - hi'| / 2)) ^ 2 ∧
      (∀ c, c ^ 2 * (sqDist (γ hi) (γ lo) * sqDist (γ' hi') (γ' lo')) = ((γ hi).minus (γ lo)).dot ((γ' hi').minus (γ' lo')) ^ 2 →
        (1 - |c|) * sqDist p P ≤ (η + M * (|z - lo| * |z - hi| / 2)) ^ 2 + (η' + M' * (|z' - lo'| * |z' - hi'| / 2)) ^ 2) ∧
      (η = 0 → η' = 0 → M = 0 → M' = 0 → p = P ∧ r = 0) := by
  have hsq : IsSqrt Real.sqrt := fun x hx => ⟨Real.sqrt_nonneg x, Real.mul_self_sqrt hx⟩
  obtain ⟨h1, h2, h3⟩ := hin
  obtain ⟨h1', h2', h3'⟩ := hin'
  obtain ⟨p, r, k1, k2, k3, -, k5, k6, k7, k8⟩ := C94_sensor Real.sqrt hsq toEcef toWgs84 mL mR fL fR hL hR pts minMaxL minMaxR residues fill res h i cl rl cr rr ht
    (γ hi) (γ lo) (γ' hi') (γ' lo') hends hends' (by rw [hr]; exact hγ _ h2) (by rw [hr]; exact hγ _ h1) (by rw [hr']; exact hγ' _ h2')
    (by rw [hr']; exact hγ' _ h1') P _ _
    (near_chord γ m n M hM lo hi z h1 h2 h3 (curved_ne hends γ lo hi rfl rfl) P η hη hP)
    (near_chord γ' m' n' M' hM' lo' hi' z' h1' h2' h3' (curved_ne hends' γ' lo' hi' rfl rfl) P η' hη' hP')
  refine ⟨p, r, k1, k2, k3, k5, k6, k7, ?_⟩
  rintro rfl rfl rfl rfl
  exact k8 (by simp)

/-- C97. The same for the pixels of a disparity map: the sensor positions are those that the rectification grids give at the pixel and at the
pixel moved by its disparity. -/
theorem C97_disparity_map (toEcef toWgs84 : ORow ℝ → ORow ℝ) (mL mR : LosModel ℝ)
    (fL fR : ℝ → Bool → Option ℝ → Option ℝ → ORow ℝ) (hL : mL.LocatesBy fL) (hR : mR.LocatesBy fR)
    (gridL gridR : Option ℝ × Option ℝ → Option ℝ × Option ℝ) (d : DispMap ℝ) (mask : Option (ℕ → ℕ → ℝ))
    (minMaxL minMaxR : Option (ℝ × ℝ)) (fill : Bool) (ecef wgs : List (ORow ℝ)) (res : List (Option ℝ))
    (h : epipolarTriangulation Real.sqrt toEcef toWgs84 mL mR gridL gridR (.disp d) mask minMaxL minMaxR true fill = .ok (ecef, wgs, res))
    (i j : ℕ) (r c x : ℝ) (hi : d.rows[i]? = some r) (hj : d.cols[j]? = some c) (hx : d.disp i j = some x) (hmask : ∀ m, mask = some m → m i j > 0)
    (cl rl cr rr : Option ℝ) (hgl : gridL (some c, some r) = (cl, rl)) (hgr : gridR (some (c + x), some r) = (cr, rr))
    (lo hi' lo' hi'' : ℝ) (hr : minMaxL.getD mL.altMinMax = (lo, hi')) (hr' : minMaxR.getD mR.altMinMax = (lo', hi''))
    (γ γ' : ℝ → V3 ℝ) (hends : γ hi' ≠ γ lo) (hends' : γ' hi'' ≠ γ' lo') (m n m' n' : ℝ)
    (hγ : ∀ z ∈ Set.Icc m n, toEcef (fL z fill rl cl) = (γ z).toRow) (hγ' : ∀ z ∈ Set.Icc m' n', toEcef (fR z fill rr cr) = (γ' z).toRow)
    (z z' : ℝ) (hin : lo ∈ Set.Icc m n ∧ hi' ∈ Set.Icc m n ∧ z ∈ Set.Icc m n)
    (hin' : lo' ∈ Set.Icc m' n' ∧ hi'' ∈ Set.Icc m' n' ∧ z' ∈ Set.Icc m' n') (M M' : ℝ) (hM : CurvedBy γ m n M) (hM' : CurvedBy γ' m' n' M')
    (P : V3 ℝ) (η η' : ℝ) (hη : 0 ≤ η) (hη' : 0 ≤ η') (hP : sqDist P (γ z) ≤ η ^ 2) (hP' : sqDist P (γ' z') ≤ η' ^ 2) :
    ∃ (p : V3 ℝ) (ρ : ℝ), ecef[i * d.cols.length + j]? = some p.toRow ∧ wgs[i * d.cols.length + j]? = some (toWgs84 p.toRow) ∧
      res[i * d.cols.length + j]? = some (some ρ) ∧ 0 ≤ ρ ∧
      2 * ρ ^ 2 ≤ (η + M * (|z - lo| * |z - hi'| / 2)) ^ 2 + (η' + M' * (|z' - lo'| * |z' - hi''| / 2)) ^ 2 ∧
      (∀ c, c ^ 2 * (sqDist (γ hi') (γ lo) * sqDist (γ' hi'') (γ' lo')) = ((γ hi').minus (γ lo)).dot ((γ' hi'').minus (γ' lo')) ^ 2 →
        (1 - |c|) * sqDist p P ≤ (η + M * (|z - lo| * |z - hi'| / 2)) ^ 2 + (η' + M' * (|z' - lo'| * |z' - hi''| / 2)) ^ 2) ∧
      (η = 0 → η' = 0 → M = 0 → M' = 0 → p = P ∧ ρ = 0) := by
  have hsq : IsSqrt Real.sqrt := fun x hx => ⟨Real.sqrt_nonneg x, Real.mul_self_sqrt hx⟩
  obtain ⟨h1, h2, h3⟩ := hin
  obtain ⟨h1', h2', h3'⟩ := hin'
  obtain ⟨p, ρ, k1, k2, k3, k5, k6, k7, k8⟩ := C94_disparity_map Real.sqrt hsq toEcef toWgs84 mL mR fL fR hL hR gridL gridR d mask minMaxL minMaxR fill
    ecef wgs res h i j r c x hi hj hx hmask cl rl cr rr hgl hgr
    (γ hi') (γ lo) (γ' hi'') (γ' lo') hends hends' (by rw [hr]; exact hγ _ h2) (by rw [hr]; exact hγ _ h1) (by rw [hr']; exact hγ' _ h2')
    (by rw [hr']; exact hγ' _ h1') P _ _
    (near_chord γ m n M hM lo hi' z h1 h2 h3 (curved_ne hends γ lo hi' rfl rfl) P η hη hP)
    (near_chord γ' m' n' M' hM' lo' hi'' z' h1' h2' h3' (curved_ne hends' γ' lo' hi'' rfl rfl) P η' hη' hP')
  refine ⟨p, ρ, k1, k2, k3, k5, k6, k7, ?_⟩
  rintro rfl rfl rfl rfl
  exact k8 (by simp)

theorem const_curvature (a b m n : ℝ) : BoundedCurvature (fun z => a * z + b) m n 0 := by
  refine ⟨by fun_prop, fun _ => a, fun _ => 0, fun t _ => ⟨?_, hasDerivAt_const t a, by simp⟩⟩
  simpa using ((hasDerivAt_id t).const_mul a).add_const b

/-- The hypotheses of `C97_sensor` are met by a curved line of sight, `x = z²`, and a straight one that meets it at the altitude 1/2: the point
is found with an error of at most 1/2, `M = 2`, for the extreme altitudes 0 and 1. -/
example : ∃ (res : TriResult ℝ) (p : V3 ℝ) (ρ : ℝ),
    sensorTriangulation Real.sqrt id id (pointModel (fun z _ _ r => ⟨some (z ^ 2), r, some z⟩) (0, 1))
      (pointModel (fun z _ _ r => ⟨some (1 / 2 - z / 2), r, some z⟩) (0, 1)) [((some 0, some 0), (some 0, some 0))] none none true false =
      .ok res ∧ res.ecef[0]? = some p.toRow ∧ res.residues = some [some ρ] ∧ 0 ≤ ρ ∧ 2 * ρ ^ 2 ≤ 1 / 16 ∧ sqDist p ⟨1 / 4, 0, 1 / 2⟩ ≤ 1 / 4 := by
  have hsq : IsSqrt Real.sqrt := fun x hx => ⟨Real.sqrt_nonneg x, Real.mul_self_sqrt hx⟩
  have hL : ∀ f : ℝ → Bool → Option ℝ → Option ℝ → ORow ℝ, (pointModel f (0, 1)).LocatesBy f := fun f _ _ _ _ out _ ho => (Except.ok.inj ho).symm
  have hab : (⟨1, 0, 1⟩ : V3 ℝ) ≠ ⟨0, 0, 0⟩ := by simp
  have hab' : (⟨0, 0, 1⟩ : V3 ℝ) ≠ ⟨1 / 2, 0, 0⟩ := by simp
  obtain ⟨out, ho⟩ := forEach_returns (sensorOne Real.sqrt id id (pointModel (fun z _ _ r => ⟨some (z ^ 2), r, some z⟩) (0, 1))
      (pointModel (fun z _ _ r => ⟨some (1 / 2 - z / 2), r, some z⟩) (0, 1)) (fun z _ _ r => ⟨some (z ^ 2), r, some z⟩)
      (fun z _ _ r => ⟨some (1 / 2 - z / 2), r, some z⟩) none none false) [((some 0, some 0), (some 0, some 0))] (by
    intro t ht
    simp only [List.mem_singleton] at ht
    subst ht
    refine sensorOne_returns Real.sqrt hsq _ _ _ _ _ _ _ _ _ _ _ _ _ _ hab hab' ?_ ?_ ?_ ?_ ?_
    · rintro ⟨t, ht⟩
      simp [V3.minus] at ht
      linarith [ht.1, ht.2]
    · simp [pointModel, V3.toRow]
    · simp [pointModel, V3.toRow]
    · simp [pointModel, V3.toRow]
    · simp [pointModel, V3.toRow])
  have hres := sensorTriangulation_eq Real.sqrt id id (pointModel (fun z _ _ r => ⟨some (z ^ 2), r, some z⟩) (0, 1))
      (pointModel (fun z _ _ r => ⟨some (1 / 2 - z / 2), r, some z⟩) (0, 1)) _ _ (pointModel_pointwise _ _) (pointModel_pointwise _ _)
      [((some 0, some 0), (some 0, some 0))] none none true false
  rw [ho] at hres
  simp only at hres
  have hlen := forEach_length _ _ _ ho
  have hcurve : BoundedCurvature (fun z : ℝ => z ^ 2) 0 1 2 := by
    refine ⟨by fun_prop, fun z => 2 * z, fun _ => 2, fun t _ => ⟨?_, ?_, by norm_num⟩⟩
    · simpa using hasDerivAt_pow 2 t
    · simpa using (hasDerivAt_id t).const_mul 2
  have hstraight : BoundedCurvature (fun z : ℝ => 1 / 2 - z / 2) 0 1 0 := by
    have e : (fun z : ℝ => 1 / 2 - z / 2) = fun z => -(1 / 2) * z + 1 / 2 := by funext z; ring
    rw [e]
    exact const_curvature _ _ _ _
  have hz : BoundedCurvature (fun z : ℝ => z) 0 1 0 := by simpa using const_curvature 1 0 0 1
  have h0 : BoundedCurvature (fun _ : ℝ => (0 : ℝ)) 0 1 0 := by simpa using const_curvature 0 0 0 1
  obtain ⟨p, ρ, k1, -, k3, k5, k6, k7, -⟩ := C97_sensor id id _ _ _ _ (hL _) (hL _) _ none none true false _ hres 0 (some 0) (some 0) (some 0) (some 0) rfl
    0 1 0 1 rfl rfl (fun z => ⟨z ^ 2, 0, z⟩) (fun z => ⟨1 / 2 - z / 2, 0, z⟩) (by simp) (by simp) 0 1 0 1
    (fun z _ => rfl) (fun z _ => rfl) (1 / 2) (1 / 2) (by norm_num) (by norm_num) 2 0 ⟨2, 0, 0, hcurve, h0, hz, by norm_num, by norm_num⟩
    ⟨0, 0, 0, hstraight, h0, hz, by norm_num, by norm_num⟩ ⟨1 / 4, 0, 1 / 2⟩ 0 0 le_rfl le_rfl (by norm_num [sqDist]) (by norm_num [sqDist])
  have ek : |(1 / 2 : ℝ) - 0| * |1 / 2 - 1| = 1 / 4 := by
    rw [abs_of_pos (by norm_num), abs_of_neg (by norm_num)]
    norm_num
  rw [ek] at k6 k7
  refine ⟨_, p, ρ, hres, k1, ?_, k5, by linarith, ?_⟩
  · have h3 := k3 _ rfl
    simp only [List.length_cons, List.length_nil] at hlen
    obtain ⟨q, rfl⟩ := List.length_eq_one_iff.1 hlen
    simp at h3
    simp [h3]
  · have hc := k7 (Real.sqrt (1 / 10)) (by
      rw [Real.sq_sqrt (by norm_num)]
      norm_num [sqDist, V3.minus, V3.dot])
    have hle : Real.sqrt (1 / 10) ≤ 3 / 4 := by
      rw [show (3 / 4 : ℝ) = Real.sqrt ((3 / 4) ^ 2) by rw [Real.sqrt_sq (by norm_num)]]
      exact Real.sqrt_le_sqrt (by norm_num)
    rw [abs_of_nonneg (Real.sqrt_nonneg _)] at hc
    have h0 : 0 ≤ sqDist p ⟨1 / 4, 0, 1 / 2⟩ := by unfold sqDist; positivity
    nlinarith

end Shareloc
