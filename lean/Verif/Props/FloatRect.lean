import Verif.Model.FloatRect
import Verif.Props.EpipolarAngle
import Verif.Props.FloatMarch
import Mathlib.Analysis.SpecialFunctions.Trigonometric.ArctanDeriv
import Mathlib.Analysis.Calculus.MeanValue
import Mathlib.Analysis.Real.Pi.Bounds

/-!
C113: the steps of the rectification grids in floating point.
-/

set_option linter.unusedSectionVars false

namespace Shareloc

/-- The functions of the library are within `τ` of the mathematical ones (relatively for the square root). -/
structure Trig.Accurate (t : Trig ℝ) (τ : ℝ) : Prop where
  cos : ∀ x, |t.cos x - Real.cos x| ≤ τ
  sin : ∀ x, |t.sin x - Real.sin x| ≤ τ
  arctan : ∀ x, |t.arctan x - Real.arctan x| ≤ τ
  pi : |t.pi - Real.pi| ≤ τ
  sqrt : ∀ x, |t.sqrt x - Real.sqrt x| ≤ τ * Real.sqrt x

theorem arctan_near {s e δ : ℝ} (hδ0 : 0 ≤ δ) (hδ : δ ≤ 1 / 2) (he : |e| ≤ δ * |s|) :
    |Real.arctan (s + e) - Real.arctan s| ≤ δ := by
  have hb : ∀ x ∈ Set.uIcc s (s + e), ‖deriv Real.arctan x‖ ≤ 1 / (1 + s ^ 2 / 4) := by
    intro x hx
    have h1 : |x - s| ≤ |e| := by
      have := Set.abs_sub_left_of_mem_uIcc hx
      simpa using this
    have h2 : |s| / 2 ≤ |x| := by
      have h3 : |s| - |x - s| ≤ |x| := by
        have := abs_sub_abs_le_abs_sub s (s - x)
        rw [abs_sub_comm x s]
        rw [show s - (s - x) = x by ring] at this
        exact this
      nlinarith [abs_nonneg s]
    have h4 : s ^ 2 / 4 ≤ x ^ 2 := by
      have := mul_self_le_mul_self (by positivity) h2
      rw [← sq_abs s, ← sq_abs x]
      nlinarith
    rw [Real.deriv_arctan, Real.norm_eq_abs]
    dsimp only
    rw [abs_of_pos (by positivity)]
    exact one_div_le_one_div_of_le (by positivity) (by linarith)
  have h := Convex.norm_image_sub_le_of_norm_deriv_le (f := Real.arctan) (C := 1 / (1 + s ^ 2 / 4))
    (fun x _ => Real.differentiableAt_arctan x) hb (convex_uIcc s (s + e)) (Set.left_mem_uIcc) (Set.right_mem_uIcc)
  rw [Real.norm_eq_abs, Real.norm_eq_abs, add_sub_cancel_left] at h
  refine h.trans ?_
  rw [div_mul_eq_mul_div, one_mul, div_le_iff₀ (by positivity)]
  have h5 : |s| ≤ 1 + s ^ 2 / 4 := by
    rw [← sq_abs s]
    nlinarith [sq_nonneg (|s| - 2)]
  exact he.trans (mul_le_mul_of_nonneg_left h5 hδ0)

/-- A quotient of two differences of relative error `u`, rounded: relative error `4 u`. -/
theorem slope_near {u a b a' b' q : ℝ} (hu0 : 0 ≤ u) (hu : u ≤ 1 / 100) (hb : b ≠ 0) (ha' : Rounds u a a') (hb' : Rounds u b b')
    (hq : Rounds u (a' / b') q) : |q - a / b| ≤ 4 * u * |a / b| := by
  have hbp : 0 < |b| := abs_pos.2 hb
  unfold Rounds at *
  have hb2 : (1 - u) * |b| ≤ |b'| := by
    have := abs_sub_abs_le_abs_sub b b'
    rw [abs_sub_comm] at hb'
    linarith
  have hb'0 : b' ≠ 0 := by
    intro h
    rw [h, abs_zero] at hb2
    nlinarith
  have hbp' : 0 < |b'| := abs_pos.2 hb'0
  set s := a / b with hs
  have hab : a = s * b := by rw [hs]; field_simp
  have e1 : a' / b' - s = ((a' - a) - s * (b' - b)) / b' := by
    rw [hab]; field_simp; ring
  have e2 : |a' / b' - s| ≤ 2 * u / (1 - u) * |s| := by
    rw [e1, abs_div, div_le_iff₀ hbp']
    have h1 : |(a' - a) - s * (b' - b)| ≤ 2 * u * |s| * |b| := by
      refine (abs_sub _ _).trans ?_
      rw [abs_mul]
      have : |a' - a| ≤ u * (|s| * |b|) := by rw [← abs_mul, ← hab]; exact ha'
      nlinarith [mul_le_mul_of_nonneg_left hb' (abs_nonneg s)]
    refine h1.trans ?_
    have h2 : 2 * u / (1 - u) * |s| * |b'| ≥ 2 * u / (1 - u) * |s| * ((1 - u) * |b|) :=
      mul_le_mul_of_nonneg_left hb2 (by have : 0 < 1 - u := by linarith
                                        positivity)
    refine le_trans (le_of_eq ?_) h2
    have : (1 - u) ≠ 0 := by linarith
    field_simp
  have hk : 2 * u / (1 - u) ≤ 5 / 2 * u := by
    rw [div_le_iff₀ (by linarith)]
    nlinarith
  have e3 : |a' / b' - s| ≤ 5 / 2 * u * |s| := e2.trans (mul_le_mul_of_nonneg_right hk (abs_nonneg s))
  have e4 : |a' / b'| ≤ (1 + 5 / 2 * u) * |s| := by
    have := abs_sub_abs_le_abs_sub (a' / b') s
    linarith
  have e5 : |q - s| ≤ |q - a' / b'| + |a' / b' - s| := abs_sub_le _ _ _
  have e6 : u * |a' / b'| ≤ u * ((1 + 5 / 2 * u) * |s|) := mul_le_mul_of_nonneg_left e4 hu0
  have e7 : u * (5 / 2 * u) * |s| ≤ 1 / 2 * u * |s| := mul_le_mul_of_nonneg_right (by nlinarith) (abs_nonneg s)
  nlinarith

section
variable {A : Arith ℝ} {t : Trig ℝ} {u τ : ℝ}

theorem pi_le (h : t.Accurate τ) (hτ : τ ≤ 1 / 100) : |t.pi| ≤ 16 / 5 ∧ 0 ≤ τ := by
  have h1 := abs_le.1 h.pi
  have h2 := Real.pi_lt_d2
  have h3 := Real.pi_gt_d2
  have h4 : 0 ≤ τ := (abs_nonneg _).trans h.pi
  refine ⟨abs_le.2 ⟨by norm_num at *; linarith, by norm_num at *; linarith⟩, h4⟩

/-- C113. The angle of a local epipolar line is within `9 u + 2 τ` of the angle of the direction from its start to its end, whatever the line: even
if it is nearly vertical, very short or very long. -/
theorem C113_angle (hA : A.RoundsBy u) (ht : t.Accurate τ) (hu0 : 0 ≤ u) (hu : u ≤ 1 / 100) (hτ : τ ≤ 1 / 100) (l : EpiLine ℝ)
    (hl : l.er ≠ l.sr ∨ l.ec ≠ l.sc) (α : ℝ) (hα : IsAngleOf α (l.ec - l.sc) (l.er - l.sr)) (h1 : -(Real.pi / 2) ≤ α)
    (h2 : α < 3 * Real.pi / 2) : |angleA A t l - α| ≤ 9 * u + 2 * τ := by
  have hα' := C42_unique l.er l.ec 0 l.sr l.sc 0 α hl hα h1 h2
  obtain ⟨hp, hτ0⟩ := pi_le ht hτ
  have hpi := ht.pi
  unfold angleA
  simp only [epipolarAngle, pos3, realTrig] at hα'
  by_cases hc : l.ec = l.sc
  · rw [if_pos hc] at hα' ⊢
    by_cases hr : l.er > l.sr
    · rw [if_pos hr] at hα' ⊢
      injection hα' with hα'
      subst hα'
      have h := hA.mul (1 / 2) t.pi
      unfold Rounds at h
      have e : |1 / 2 * t.pi| ≤ 8 / 5 := by rw [abs_mul, abs_of_pos (by norm_num : (0 : ℝ) < 1 / 2)]; linarith
      have e1 : |1 / 2 * t.pi - Real.pi / 2| ≤ τ / 2 := by
        rw [show 1 / 2 * t.pi - Real.pi / 2 = 1 / 2 * (t.pi - Real.pi) by ring, abs_mul, abs_of_pos (by norm_num : (0 : ℝ) < 1 / 2)]
        linarith
      have e2 := abs_sub_le (A.mul (1 / 2) t.pi) (1 / 2 * t.pi) (Real.pi / 2)
      nlinarith
    · rw [if_neg hr] at hα' ⊢
      injection hα' with hα'
      subst hα'
      have h := hA.mul (-(1 / 2)) t.pi
      unfold Rounds at h
      have e : |-(1 / 2) * t.pi| ≤ 8 / 5 := by rw [abs_mul, abs_neg, abs_of_pos (by norm_num : (0 : ℝ) < 1 / 2)]; linarith
      have e1 : |-(1 / 2) * t.pi - -(Real.pi / 2)| ≤ τ / 2 := by
        rw [show -(1 / 2) * t.pi - -(Real.pi / 2) = -(1 / 2) * (t.pi - Real.pi) by ring, abs_mul, abs_neg,
          abs_of_pos (by norm_num : (0 : ℝ) < 1 / 2)]
        linarith
      have e2 := abs_sub_le (A.mul (-(1 / 2)) t.pi) (-(1 / 2) * t.pi) (-(Real.pi / 2))
      nlinarith
  · rw [if_neg hc] at hα' ⊢
    have hd : l.ec - l.sc ≠ 0 := sub_ne_zero.2 hc
    have hsub := hA.sub l.ec l.sc
    have hb'0 : A.sub l.ec l.sc ≠ 0 := by
      intro h0
      unfold Rounds at hsub
      rw [h0, zero_sub, abs_neg] at hsub
      have := abs_pos.2 hd
      nlinarith
    have hs := slope_near hu0 hu hd (hA.sub l.er l.sr) hsub (hA.div _ _ hb'0)
    set s := (l.er - l.sr) / (l.ec - l.sc)
    set q := A.div (A.sub l.er l.sr) (A.sub l.ec l.sc)
    have hat := arctan_near (s := s) (e := q - s) (δ := 4 * u) (by linarith) (by linarith) hs
    rw [add_sub_cancel] at hat
    have hat2 := ht.arctan q
    have hat3 : |t.arctan q - Real.arctan s| ≤ 4 * u + τ := by
      have := abs_sub_le (t.arctan q) (Real.arctan q) (Real.arctan s)
      linarith
    dsimp only at hα' ⊢
    by_cases hg : l.ec > l.sc
    · rw [if_pos hg] at hα' ⊢
      injection hα' with hα'
      subst hα'
      linarith
    · rw [if_neg hg] at hα' ⊢
      injection hα' with hα'
      subst hα'
      have h := hA.add t.pi (t.arctan q)
      unfold Rounds at h
      have hat4 : |t.arctan q| ≤ 8 / 5 := by
        have b1 := Real.arctan_lt_pi_div_two q
        have b2 := Real.neg_pi_div_two_lt_arctan q
        have b3 := Real.pi_lt_d2
        have b4 := abs_le.1 hat2
        norm_num at b3
        exact abs_le.2 ⟨by linarith, by linarith⟩
      have e : |t.pi + t.arctan q| ≤ 24 / 5 := (abs_add_le _ _).trans (by linarith)
      have e1 : |t.pi + t.arctan q - (Real.pi + Real.arctan s)| ≤ 4 * u + 2 * τ := by
        rw [show t.pi + t.arctan q - (Real.pi + Real.arctan s) = (t.pi - Real.pi) + (t.arctan q - Real.arctan s) by ring]
        refine (abs_add_le _ _).trans (by linarith)
      have e2 := abs_sub_le (A.add t.pi (t.arctan q)) (t.pi + t.arctan q) (Real.pi + Real.arctan s)
      nlinarith

theorem sin_lip (x y : ℝ) : |Real.sin x - Real.sin y| ≤ |x - y| := by
  have h := Convex.norm_image_sub_le_of_norm_deriv_le (f := Real.sin) (C := 1) (s := Set.univ) (x := y) (y := x)
    (fun x _ => Real.differentiableAt_sin) (fun z _ => by rw [Real.deriv_sin, Real.norm_eq_abs]; exact Real.abs_cos_le_one z) convex_univ
    (Set.mem_univ _) (Set.mem_univ _)
  simpa [Real.norm_eq_abs] using h

theorem cos_lip (x y : ℝ) : |Real.cos x - Real.cos y| ≤ |x - y| := by
  have h := sin_lip (x + Real.pi / 2) (y + Real.pi / 2)
  rw [Real.sin_add_pi_div_two, Real.sin_add_pi_div_two] at h
  refine h.trans (le_of_eq ?_)
  congr 1
  ring

/-- One coordinate of a move. -/
theorem moved_near (hA : A.RoundsBy u) (hu0 : 0 ≤ u) (hu : u ≤ 1 / 100) (hτ0 : 0 ≤ τ) (hτ : τ ≤ 1 / 100) (spacing step r S σ : ℝ) (hσ : |σ| ≤ 1)
    (hS : |S - σ| ≤ 20 * u + 7 / 2 * τ) :
    |A.add r (A.mul (A.mul step spacing) S) - (r + step * spacing * σ)| ≤ |step * spacing| * (25 * u + 4 * τ) + u * |r| := by
  have m1 := hA.mul step spacing
  have m2 := hA.mul (A.mul step spacing) S
  have m3 := hA.add r (A.mul (A.mul step spacing) S)
  unfold Rounds at m1 m2 m3
  set D := step * spacing
  set p := A.mul step spacing
  set q := A.mul p S
  set D' := |D| with hD'
  have hD0 : 0 ≤ D' := abs_nonneg D
  have hSa : |S| ≤ 5 / 4 := by
    have := abs_sub_abs_le_abs_sub S σ
    linarith
  have hp : |p| ≤ (1 + u) * D' := by
    have := abs_sub_abs_le_abs_sub p D
    linarith
  have k1 : |p * S - D * σ| ≤ D' * (20 * u + 7 / 2 * τ) + u * D' * (5 / 4) := by
    rw [show p * S - D * σ = D * (S - σ) + (p - D) * S by ring]
    refine (abs_add_le _ _).trans ?_
    rw [abs_mul D, abs_mul (p - D)]
    exact add_le_add (mul_le_mul_of_nonneg_left hS hD0) (mul_le_mul m1 hSa (abs_nonneg _) (mul_nonneg hu0 hD0))
  have k2 : |p * S| ≤ (1 + u) * D' * (5 / 4) := by
    rw [abs_mul]
    exact mul_le_mul hp hSa (abs_nonneg _) (mul_nonneg (by linarith) hD0)
  have k3 : |q - D * σ| ≤ D' * (23 * u + 7 / 2 * τ) := by
    have h1 := abs_sub_le q (p * S) (D * σ)
    have h2 : u * |p * S| ≤ u * ((1 + u) * D' * (5 / 4)) := mul_le_mul_of_nonneg_left k2 hu0
    have h3 : u * u * D' ≤ 1 / 100 * u * D' := mul_le_mul_of_nonneg_right (mul_le_mul_of_nonneg_right hu hu0) hD0
    have h4 : 0 ≤ u * D' := mul_nonneg hu0 hD0
    nlinarith
  have k4 : |q| ≤ 3 / 2 * D' := by
    have h1 := abs_sub_abs_le_abs_sub q (D * σ)
    have h2 : |D * σ| ≤ D' := by
      rw [abs_mul D]
      exact mul_le_of_le_one_right hD0 hσ
    have h3 : D' * (23 * u + 7 / 2 * τ) ≤ D' * (1 / 2) := mul_le_mul_of_nonneg_left (by linarith) hD0
    linarith
  have h1 := abs_sub_le (A.add r q) (r + q) (r + D * σ)
  rw [show r + q - (r + D * σ) = q - D * σ by ring] at h1
  have h2 : u * |r + q| ≤ u * (|r| + 3 / 2 * D') := mul_le_mul_of_nonneg_left ((abs_add_le _ _).trans (by linarith)) hu0
  have h3 : 0 ≤ D' * τ := mul_nonneg hD0 hτ0
  have h4 : 0 ≤ u * D' := mul_nonneg hu0 hD0
  nlinarith

/-- The angle of a move. -/
theorem turned_near (hA : A.RoundsBy u) (ht : t.Accurate τ) (hu0 : 0 ≤ u) (hu : u ≤ 1 / 100) (hτ : τ ≤ 1 / 100) (a α : ℝ)
    (ha : |a - α| ≤ 9 * u + 2 * τ) (h1 : -(Real.pi / 2) ≤ α) (h2 : α < 3 * Real.pi / 2) (axis : ℤ) (hx : axis = 0 ∨ axis = 1) :
    |A.add a (A.div (A.mul ((1 - axis : ℤ) : ℝ) t.pi) 2) - (α + (1 - axis) * (Real.pi / 2))| ≤ 20 * u + 5 / 2 * τ := by
  obtain ⟨hp, hτ0⟩ := pi_le ht hτ
  have hpi := ht.pi
  have b3 := Real.pi_lt_d2
  have b4 := Real.pi_gt_d2
  norm_num at b3 b4
  have ha5 : |a| ≤ 5 := by
    have := abs_le.1 ha
    exact abs_le.2 ⟨by linarith, by linarith⟩
  have m1 := hA.mul ((1 - axis : ℤ) : ℝ) t.pi
  have m2 := hA.div (A.mul ((1 - axis : ℤ) : ℝ) t.pi) 2 (by norm_num)
  have m3 := hA.add a (A.div (A.mul ((1 - axis : ℤ) : ℝ) t.pi) 2)
  unfold Rounds at m1 m2 m3
  set q := A.mul ((1 - axis : ℤ) : ℝ) t.pi
  set d := A.div q 2
  have hd : |d - (1 - axis) * (Real.pi / 2)| ≤ 4 * u + τ / 2 ∧ |d| ≤ 9 / 5 := by
    rcases hx with rfl | rfl
    · norm_num at m1 ⊢
      have hq : |q| ≤ 17 / 5 := by
        have := abs_sub_abs_le_abs_sub q t.pi
        nlinarith
      rw [abs_div, abs_two] at m2
      have e : |d - Real.pi / 2| ≤ |d - q / 2| + (|q / 2 - t.pi / 2| + |t.pi / 2 - Real.pi / 2|) :=
        (abs_sub_le _ (q / 2) _).trans (by linarith [abs_sub_le (q / 2) (t.pi / 2) (Real.pi / 2)])
      rw [← sub_div, ← sub_div, abs_div, abs_div, abs_two] at e
      have hd : |d - Real.pi / 2| ≤ 4 * u + τ / 2 := by nlinarith
      refine ⟨hd, ?_⟩
      have := abs_le.1 hd
      exact abs_le.2 ⟨by linarith, by linarith⟩
    · norm_num at m1 m2 ⊢
      rw [m1] at m2
      norm_num at m2
      rw [m2]
      norm_num
      linarith
  have e := abs_sub_le (A.add a d) (a + d) (α + (1 - axis) * (Real.pi / 2))
  have e1 : |a + d - (α + (1 - axis) * (Real.pi / 2))| ≤ 13 * u + 5 / 2 * τ := by
    rw [show a + d - (α + (1 - axis) * (Real.pi / 2)) = (a - α) + (d - (1 - axis) * (Real.pi / 2)) by ring]
    exact (abs_add_le _ _).trans (by linarith [hd.1])
  have e2 : |a + d| ≤ 7 := (abs_add_le _ _).trans (by linarith [hd.2])
  nlinarith

/-- C113. A move starts from the angle computed for a local epipolar line whose direction has the angle `α`: along the line (axis 1) the row and the
column are those of a displacement of `step * spacing` in the direction of the line, across (axis 0) of the line turned by a right angle, within a
relative error of `25 u + 4 τ` of the displacement and the rounding of the position itself. -/
theorem C113_move (hA : A.RoundsBy u) (ht : t.Accurate τ) (hu0 : 0 ≤ u) (hu : u ≤ 1 / 100) (hτ : τ ≤ 1 / 100) (l : EpiLine ℝ)
    (hl : l.er ≠ l.sr ∨ l.ec ≠ l.sc) (α : ℝ) (hα : IsAngleOf α (l.ec - l.sc) (l.er - l.sr)) (h1 : -(Real.pi / 2) ≤ α)
    (h2 : α < 3 * Real.pi / 2) (spacing step : ℝ) (axis : ℤ) (hx : axis = 0 ∨ axis = 1) (p : ℝ × ℝ) :
    |(moveA A t spacing step axis p (angleA A t l)).1 - (p.1 + step * spacing * Real.sin (α + (1 - axis) * (Real.pi / 2)))| ≤
      |step * spacing| * (25 * u + 4 * τ) + u * |p.1| ∧
    |(moveA A t spacing step axis p (angleA A t l)).2 - (p.2 + step * spacing * Real.cos (α + (1 - axis) * (Real.pi / 2)))| ≤
      |step * spacing| * (25 * u + 4 * τ) + u * |p.2| := by
  have hτ0 := (pi_le ht hτ).2
  have ha := C113_angle hA ht hu0 hu hτ l hl α hα h1 h2
  have hb := turned_near hA ht hu0 hu hτ _ α ha h1 h2 axis hx
  set b := A.add (angleA A t l) (A.div (A.mul ((1 - axis : ℤ) : ℝ) t.pi) 2)
  refine ⟨moved_near hA hu0 hu hτ0 hτ spacing step p.1 _ _ (Real.abs_sin_le_one _) ?_,
    moved_near hA hu0 hu hτ0 hτ spacing step p.2 _ _ (Real.abs_cos_le_one _) ?_⟩
  · have := abs_sub_le (t.sin b) (Real.sin b) (Real.sin (α + (1 - axis) * (Real.pi / 2)))
    linarith [ht.sin b, sin_lip b (α + (1 - axis) * (Real.pi / 2))]
  · have := abs_sub_le (t.cos b) (Real.cos b) (Real.cos (α + (1 - axis) * (Real.pi / 2)))
    linarith [ht.cos b, cos_lip b (α + (1 - axis) * (Real.pi / 2))]

theorem norm_near {x y a b ε δ : ℝ} (hx : |x - a| ≤ ε) (hy : |y - b| ≤ δ) : |Real.sqrt (x ^ 2 + y ^ 2) - Real.sqrt (a ^ 2 + b ^ 2)| ≤ ε + δ := by
  have h := abs_norm_sub_norm_le (⟨x, y⟩ : ℂ) ⟨a, b⟩
  rw [Complex.norm_eq_sqrt_sq_add_sq, Complex.norm_eq_sqrt_sq_add_sq] at h
  refine h.trans ((Complex.norm_le_abs_re_add_abs_im _).trans ?_)
  simpa using add_le_add hx hy

/-- C113. Two consecutive nodes of a computed grid are one step apart: the length of the displacement is `|step * spacing|` up to twice the error of a
coordinate. -/
theorem C113_step_length (hA : A.RoundsBy u) (ht : t.Accurate τ) (hu0 : 0 ≤ u) (hu : u ≤ 1 / 100) (hτ : τ ≤ 1 / 100) (l : EpiLine ℝ)
    (hl : l.er ≠ l.sr ∨ l.ec ≠ l.sc) (spacing step : ℝ) (axis : ℤ) (hx : axis = 0 ∨ axis = 1) (p q : ℝ × ℝ)
    (hq : moveA A t spacing step axis p (angleA A t l) = q) :
    |Real.sqrt ((q.1 - p.1) ^ 2 + (q.2 - p.2) ^ 2) - (|step * spacing|)| ≤ |step * spacing| * (50 * u + 8 * τ) + u * (|p.1| + |p.2|) := by
  obtain ⟨α, -, hα, h1, h2⟩ := C42_angle_of_direction l.er l.ec 0 l.sr l.sc 0 hl
  obtain ⟨k1, k2⟩ := C113_move hA ht hu0 hu hτ l hl α hα h1 h2 spacing step axis hx p
  rw [hq] at k1 k2
  set β := α + (1 - axis) * (Real.pi / 2)
  have h := norm_near (x := q.1 - p.1) (y := q.2 - p.2) (a := step * spacing * Real.sin β) (b := step * spacing * Real.cos β)
    (ε := |step * spacing| * (25 * u + 4 * τ) + u * |p.1|) (δ := |step * spacing| * (25 * u + 4 * τ) + u * |p.2|)
    (by rwa [show q.1 - p.1 - step * spacing * Real.sin β = q.1 - (p.1 + step * spacing * Real.sin β) by ring])
    (by rwa [show q.2 - p.2 - step * spacing * Real.cos β = q.2 - (p.2 + step * spacing * Real.cos β) by ring])
  rw [show (step * spacing * Real.sin β) ^ 2 + (step * spacing * Real.cos β) ^ 2 = (step * spacing) ^ 2 * (Real.sin β ^ 2 + Real.cos β ^ 2) by ring,
    Real.sin_sq_add_cos_sq, mul_one, Real.sqrt_sq_eq_abs] at h
  refine h.trans (le_of_eq ?_)
  ring

/-- C113. After `n` moves the node is where the exact moves in the directions of the local lines of the nodes before it lead, within `n` times the
error of one move: rounding does not grow faster than the number of nodes. -/
theorem C113_walk (hA : A.RoundsBy u) (ht : t.Accurate τ) (hu0 : 0 ≤ u) (hu : u ≤ 1 / 100) (hτ : τ ≤ 1 / 100) (spacing step : ℝ) (axis : ℤ)
    (hx : axis = 0 ∨ axis = 1) (line : ℝ × ℝ → EpiLine ℝ) (p : ℝ × ℝ) (α : ℕ → ℝ) (R : ℝ) (n : ℕ)
    (hn : ∀ k < n, let q := walkA A t spacing step axis line k p
      ((line q).er ≠ (line q).sr ∨ (line q).ec ≠ (line q).sc) ∧ IsAngleOf (α k) ((line q).ec - (line q).sc) ((line q).er - (line q).sr) ∧
        -(Real.pi / 2) ≤ α k ∧ α k < 3 * Real.pi / 2 ∧ |q.1| ≤ R ∧ |q.2| ≤ R) :
    |(walkA A t spacing step axis line n p).1 -
      (p.1 + ∑ k ∈ Finset.range n, step * spacing * Real.sin (α k + (1 - axis) * (Real.pi / 2)))| ≤
        n * (|step * spacing| * (25 * u + 4 * τ) + u * R) ∧
    |(walkA A t spacing step axis line n p).2 -
      (p.2 + ∑ k ∈ Finset.range n, step * spacing * Real.cos (α k + (1 - axis) * (Real.pi / 2)))| ≤
        n * (|step * spacing| * (25 * u + 4 * τ) + u * R) := by
  induction n with
  | zero => simp [walkA]
  | succ n ih =>
    obtain ⟨i1, i2⟩ := ih fun k hk => hn k (Nat.lt_succ_of_lt hk)
    obtain ⟨a1, a2, a3, a4, a5, a6⟩ := hn n (Nat.lt_succ_self n)
    obtain ⟨k1, k2⟩ := C113_move hA ht hu0 hu hτ _ a1 (α n) a2 a3 a4 spacing step axis hx (walkA A t spacing step axis line n p)
    have b1 := mul_le_mul_of_nonneg_left a5 hu0
    have b2 := mul_le_mul_of_nonneg_left a6 hu0
    simp only [walkA, Finset.sum_range_succ]
    push_cast
    set w := walkA A t spacing step axis line n p
    set β := α n + (1 - axis) * (Real.pi / 2)
    set S1 := ∑ k ∈ Finset.range n, step * spacing * Real.sin (α k + (1 - axis) * (Real.pi / 2))
    set S2 := ∑ k ∈ Finset.range n, step * spacing * Real.cos (α k + (1 - axis) * (Real.pi / 2))
    constructor
    · have c := abs_sub_le (moveA A t spacing step axis w (angleA A t (line w))).1 (w.1 + step * spacing * Real.sin β)
        (p.1 + (S1 + step * spacing * Real.sin β))
      rw [show w.1 + step * spacing * Real.sin β - (p.1 + (S1 + step * spacing * Real.sin β)) = w.1 - (p.1 + S1) by ring] at c
      linarith
    · have c := abs_sub_le (moveA A t spacing step axis w (angleA A t (line w))).2 (w.2 + step * spacing * Real.cos β)
        (p.2 + (S2 + step * spacing * Real.cos β))
      rw [show w.2 + step * spacing * Real.cos β - (p.2 + (S2 + step * spacing * Real.cos β)) = w.2 - (p.2 + S2) by ring] at c
      linarith

/-- A positive quantity known within factors `lo` and `hi`. -/
def FactorsOf (lo hi x v : ℝ) : Prop := lo * x ≤ v ∧ v ≤ hi * x

theorem rounds_factors {x v : ℝ} (hx : 0 ≤ x) (h : Rounds u x v) : FactorsOf (1 - u) (1 + u) x v := by
  unfold Rounds at h
  rw [abs_of_nonneg hx] at h
  have := abs_le.1 h
  exact ⟨by linarith, by linarith⟩

theorem square_near (hA : A.RoundsBy u) (hu0 : 0 ≤ u) (hu : u ≤ 1 / 100) (a b : ℝ) :
    FactorsOf ((1 - u) ^ 3) ((1 + u) ^ 3) ((a - b) ^ 2) (A.mul (A.sub a b) (A.sub a b)) := by
  have h := hA.sub a b
  have h1 := rounds_factors (mul_self_nonneg _) (hA.mul (A.sub a b) (A.sub a b))
  set d := A.sub a b
  unfold Rounds at h
  have h2 : (1 - u) * |a - b| ≤ |d| := by
    have := abs_sub_abs_le_abs_sub (a - b) d
    rw [abs_sub_comm] at h
    linarith
  have h3 : |d| ≤ (1 + u) * |a - b| := by
    have := abs_sub_abs_le_abs_sub d (a - b)
    linarith
  have h4 : (1 - u) ^ 2 * (a - b) ^ 2 ≤ d * d := by
    have := mul_self_le_mul_self (mul_nonneg (by linarith) (abs_nonneg _)) h2
    rw [abs_mul_abs_self, show (1 - u) * |a - b| * ((1 - u) * |a - b|) = (1 - u) ^ 2 * |a - b| ^ 2 by ring, sq_abs] at this
    exact this
  have h5 : d * d ≤ (1 + u) ^ 2 * (a - b) ^ 2 := by
    have := mul_self_le_mul_self (abs_nonneg _) h3
    rw [abs_mul_abs_self, show (1 + u) * |a - b| * ((1 + u) * |a - b|) = (1 + u) ^ 2 * |a - b| ^ 2 by ring, sq_abs] at this
    exact this
  constructor
  · refine le_trans ?_ h1.1
    rw [show (1 - u) ^ 3 * (a - b) ^ 2 = (1 - u) * ((1 - u) ^ 2 * (a - b) ^ 2) by ring]
    exact mul_le_mul_of_nonneg_left h4 (by linarith)
  · refine le_trans h1.2 ?_
    rw [show (1 + u) ^ 3 * (a - b) ^ 2 = (1 + u) * ((1 + u) ^ 2 * (a - b) ^ 2) by ring]
    exact mul_le_mul_of_nonneg_left h5 (by linarith)

theorem factor_low (hu0 : 0 ≤ u) (hu : u ≤ 1 / 100) (hτ0 : 0 ≤ τ) (hτ : τ ≤ 1 / 100) :
    1 - (6 * u + 2 * τ) ≤ (1 - u) * ((1 - τ) * (1 - u) ^ 2 / (1 + u)) := by
  have h1 : 1 - 4 * u ≤ (1 - u) ^ 3 / (1 + u) := by
    rw [le_div_iff₀ (by linarith)]
    have : (1 - u) ^ 3 = 1 - 3 * u + u * u * (3 - u) := by ring
    have h2 : 0 ≤ u * u * (3 - u) := mul_nonneg (mul_nonneg hu0 hu0) (by linarith)
    nlinarith
  have h2 : (1 - u) * ((1 - τ) * (1 - u) ^ 2 / (1 + u)) = (1 - τ) * ((1 - u) ^ 3 / (1 + u)) := by
    have : (1 + u) ≠ 0 := by linarith
    field_simp
  rw [h2]
  refine le_trans ?_ (mul_le_mul_of_nonneg_left h1 (by linarith))
  nlinarith [mul_nonneg hu0 hτ0]

theorem factor_high (hu0 : 0 ≤ u) (hu : u ≤ 1 / 100) (hτ0 : 0 ≤ τ) (hτ : τ ≤ 1 / 100) :
    (1 + u) * ((1 + τ) * (1 + u) ^ 2 / (1 - u)) ≤ 1 + (6 * u + 2 * τ) := by
  have h1 : (1 + u) ^ 3 / (1 - u) ≤ 1 + 5 * u := by
    rw [div_le_iff₀ (by linarith)]
    have h3 : u * u ≤ 1 / 100 * u := mul_le_mul_of_nonneg_right hu hu0
    have h4 : u * u * u ≤ 1 / 100 * u := by nlinarith
    nlinarith
  have h2 : (1 + u) * ((1 + τ) * (1 + u) ^ 2 / (1 - u)) = (1 + τ) * ((1 + u) ^ 3 / (1 - u)) := by
    have : (1 - u) ≠ 0 := by linarith
    field_simp
  rw [h2]
  refine le_trans (mul_le_mul_of_nonneg_left h1 (by linarith)) ?_
  nlinarith [mul_le_mul_of_nonneg_left hu hτ0]

/-- C113. The local baseline ratio, the length of the local line divided by twice the elevation offset, has a relative error of at most
`6 u + 2 τ`. -/
theorem C113_baseline (hA : A.RoundsBy u) (ht : t.Accurate τ) (hu0 : 0 ≤ u) (hu : u ≤ 1 / 100) (hτ : τ ≤ 1 / 100) (l : EpiLine ℝ) (off : ℝ)
    (ho : 0 < off) :
    |baselineA A t off l - Real.sqrt ((l.ec - l.sc) ^ 2 + (l.er - l.sr) ^ 2) / (2 * off)| ≤
      (6 * u + 2 * τ) * (Real.sqrt ((l.ec - l.sc) ^ 2 + (l.er - l.sr) ^ 2) / (2 * off)) := by
  have hτ0 := (pi_le ht hτ).2
  unfold baselineA
  obtain ⟨x1, x2⟩ := square_near hA hu0 hu l.ec l.sc
  obtain ⟨y1, y2⟩ := square_near hA hu0 hu l.er l.sr
  set X := A.mul (A.sub l.ec l.sc) (A.sub l.ec l.sc)
  set Y := A.mul (A.sub l.er l.sr) (A.sub l.er l.sr)
  set Q := (l.ec - l.sc) ^ 2 + (l.er - l.sr) ^ 2 with hQ
  have hQ0 : 0 ≤ Q := by positivity
  have hu1 : 0 ≤ 1 - u := by linarith
  have hX : 0 ≤ X := le_trans (by positivity) x1
  have hY : 0 ≤ Y := le_trans (by positivity) y1
  obtain ⟨z1, z2⟩ := rounds_factors (add_nonneg hX hY) (hA.add X Y)
  set Z := A.add X Y
  have w1 : ((1 - u) ^ 2) ^ 2 * Q ≤ Z := by
    have : (1 - u) * ((1 - u) ^ 3 * Q) ≤ (1 - u) * (X + Y) := mul_le_mul_of_nonneg_left (by rw [hQ]; linarith) hu1
    nlinarith
  have w2 : Z ≤ ((1 + u) ^ 2) ^ 2 * Q := by
    have : (1 + u) * (X + Y) ≤ (1 + u) * ((1 + u) ^ 3 * Q) := mul_le_mul_of_nonneg_left (by rw [hQ]; linarith) (by linarith)
    nlinarith
  have v1 : (1 - u) ^ 2 * Real.sqrt Q ≤ Real.sqrt Z := by
    have := Real.sqrt_le_sqrt w1
    rwa [Real.sqrt_mul (by positivity), Real.sqrt_sq (by positivity)] at this
  have v2 : Real.sqrt Z ≤ (1 + u) ^ 2 * Real.sqrt Q := by
    have := Real.sqrt_le_sqrt w2
    rwa [Real.sqrt_mul (by positivity), Real.sqrt_sq (by positivity)] at this
  have hs := abs_le.1 (ht.sqrt Z)
  set s := t.sqrt Z
  set q := Real.sqrt Q
  have hq0 : 0 ≤ q := Real.sqrt_nonneg _
  have r1 : (1 - τ) * ((1 - u) ^ 2 * q) ≤ s := (mul_le_mul_of_nonneg_left v1 (by linarith)).trans (by linarith)
  have r2 : s ≤ (1 + τ) * ((1 + u) ^ 2 * q) := le_trans (by linarith) (mul_le_mul_of_nonneg_left v2 (by linarith : 0 ≤ 1 + τ))
  have hs0 : 0 ≤ s := le_trans (mul_nonneg (by linarith) (by positivity)) r1
  obtain ⟨o1, o2⟩ := rounds_factors (u := u) (by linarith : 0 ≤ 2 * off) (hA.mul 2 off)
  set d := A.mul 2 off
  have hd : 0 < d := lt_of_lt_of_le (mul_pos (by linarith) (by linarith)) o1
  obtain ⟨e1, e2⟩ := rounds_factors (div_nonneg hs0 hd.le) (hA.div s d hd.ne')
  set v := A.div s d
  set D := 2 * off
  have hD : 0 < D := by simp only [D]; linarith
  have f1 : (1 - τ) * (1 - u) ^ 2 / (1 + u) * (q / D) ≤ s / d := by
    rw [div_mul_div_comm, mul_assoc]
    exact div_le_div₀ hs0 r1 hd o2
  have f2 : s / d ≤ (1 + τ) * (1 + u) ^ 2 / (1 - u) * (q / D) := by
    rw [div_mul_div_comm, mul_assoc]
    exact div_le_div₀ (by positivity) r2 (mul_pos (by linarith) hD) o1
  set m := q / D
  have hm : 0 ≤ m := div_nonneg hq0 hD.le
  have g1 : (1 - (6 * u + 2 * τ)) * m ≤ v := by
    refine le_trans ?_ ((mul_le_mul_of_nonneg_left f1 hu1).trans e1)
    rw [← mul_assoc]
    refine mul_le_mul_of_nonneg_right ?_ hm
    exact factor_low hu0 hu hτ0 hτ
  have g2 : v ≤ (1 + (6 * u + 2 * τ)) * m := by
    refine (e2.trans (mul_le_mul_of_nonneg_left f2 (by linarith))).trans ?_
    rw [← mul_assoc]
    refine mul_le_mul_of_nonneg_right ?_ hm
    exact factor_high hu0 hu hτ0 hτ
  exact abs_le.2 ⟨by linarith, by linarith⟩

/-- C113. With exact operations the functions are those of the model of C42 to C46. -/
theorem C113_exact {K : Type*} [Field K] [LinearOrder K] [IsStrictOrderedRing K] [FloorRing K] (t : Trig K) (l : EpiLine K) (z z' : Option K)
    (spacing step : K) (axis : ℤ) (p : K × K) (a off : K) :
    epipolarAngle t ⟨some l.er, some l.ec, z⟩ ⟨some l.sr, some l.sc, z'⟩ = some (angleA Arith.exact t l) ∧
    epipolarAngleCpp t ⟨some l.er, some l.ec, z⟩ ⟨some l.sr, some l.sc, z'⟩ = some (angleA Arith.exact t l) ∧
    movePoint t spacing step axis ⟨some p.1, some p.2, z⟩ (some a) =
      ⟨some (moveA Arith.exact t spacing step axis p a).1, some (moveA Arith.exact t spacing step axis p a).2, z⟩ ∧
    baselineRatio t off ⟨some l.sr, some l.sc, z'⟩ ⟨some l.er, some l.ec, z⟩ = some (baselineA Arith.exact t off l) := by
  have e1 : (1 / 2 : K) * t.pi = t.pi / 2 := by ring
  have e2 : (-(1 / 2) : K) * t.pi = -(t.pi / 2) := by ring
  refine ⟨?_, ?_, ?_, rfl⟩
  · simp only [epipolarAngle, angleA, Arith.exact, e1, e2]
    split_ifs <;> rfl
  · simp only [epipolarAngleCpp, angleA, Arith.exact, e1, e2]
    split_ifs <;> rfl
  · simp [movePoint, moveA, Arith.exact, olift2]

/-- C113: the exact functions and operations satisfy the contracts with 0. -/
example : realTrig.Accurate 0 ∧ (Arith.exact : Arith ℝ).RoundsBy 0 := by
  refine ⟨⟨?_, ?_, ?_, ?_, ?_⟩, ⟨?_, ?_, ?_, ?_⟩⟩ <;> simp [realTrig, Arith.exact, Rounds]

/-- Operations and functions rounded to 53 bits. -/
noncomputable def rounded53 : Arith ℝ × Trig ℝ :=
  (⟨fun x y => rnd53 (x + y), fun x y => rnd53 (x - y), fun x y => rnd53 (x * y), fun x y => rnd53 (x / y)⟩,
    ⟨fun x => rnd53 (Real.cos x), fun x => rnd53 (Real.sin x), fun x => rnd53 (Real.arctan x), fun x => rnd53 (Real.sqrt x), rnd53 Real.pi⟩)

/-- C113: correctly rounded doubles satisfy the contracts, with `u = 2⁻⁵³` and `τ = 2⁻⁵¹`. -/
theorem rounded53_contracts : rounded53.1.RoundsBy doubleUnit ∧ rounded53.2.Accurate (1 / 2 ^ 51) := by
  have hr : ∀ x : ℝ, |rnd53 x - x| ≤ doubleUnit * |x| := fun x => rnd53_rounds x
  have hb : ∀ x : ℝ, |x| ≤ 4 → |rnd53 x - x| ≤ 1 / 2 ^ 51 := fun x hx =>
    (hr x).trans ((mul_le_mul_of_nonneg_left hx (by unfold doubleUnit; positivity)).trans (by unfold doubleUnit; norm_num))
  have b3 := Real.pi_lt_d2
  norm_num at b3
  have b0 := Real.pi_pos
  refine ⟨⟨fun x y => rnd53_rounds _, fun x y => rnd53_rounds _, fun x y => rnd53_rounds _, fun x y _ => rnd53_rounds _⟩,
    ⟨fun x => hb _ ((Real.abs_cos_le_one x).trans (by norm_num)), fun x => hb _ ((Real.abs_sin_le_one x).trans (by norm_num)), fun x => hb _ ?_,
      hb _ (abs_le.2 ⟨by linarith, by linarith⟩), fun x => (hr _).trans ?_⟩⟩
  · have h1 := Real.arctan_lt_pi_div_two x
    have h2 := Real.neg_pi_div_two_lt_arctan x
    exact abs_le.2 ⟨by linarith, by linarith⟩
  · rw [abs_of_nonneg (Real.sqrt_nonneg x)]
    exact mul_le_mul_of_nonneg_right (by unfold doubleUnit; norm_num) (Real.sqrt_nonneg x)

/-- C113, a case: with doubles, a step of 30 pixels from a node of an image of 2 ^ 16 pixels is right to 2 ⁻ 32 pixel, along any line. -/
example (l : EpiLine ℝ) (hl : l.er ≠ l.sr ∨ l.ec ≠ l.sc) (p q : ℝ × ℝ) (h1 : |p.1| ≤ 2 ^ 16) (h2 : |p.2| ≤ 2 ^ 16)
    (hq : moveA rounded53.1 rounded53.2 1 30 1 p (angleA rounded53.1 rounded53.2 l) = q) :
    |Real.sqrt ((q.1 - p.1) ^ 2 + (q.2 - p.2) ^ 2) - 30| ≤ 1 / 2 ^ 32 := by
  have h := C113_step_length rounded53_contracts.1 rounded53_contracts.2 (by unfold doubleUnit; norm_num) (by unfold doubleUnit; norm_num)
    (by norm_num) l hl 1 30 1 (Or.inr rfl) p q hq
  rw [mul_one, abs_of_pos (by norm_num : (0 : ℝ) < 30)] at h
  refine h.trans ?_
  unfold doubleUnit
  nlinarith

/-- C113, with doubles: on an image of 2 ^ 16 pixels, with a step of 30 pixels, a row or column of 1000 nodes is within `n * 2⁻³²` pixel of the exact
moves along the local lines of its nodes, whatever the sensor models. -/
theorem C113_walk_doubles (line : ℝ × ℝ → EpiLine ℝ) (hl : ∀ q, (line q).er ≠ (line q).sr ∨ (line q).ec ≠ (line q).sc) (axis : ℤ)
    (hx : axis = 0 ∨ axis = 1) (p : ℝ × ℝ) (h1 : |p.1| ≤ 2 ^ 16) (h2 : |p.2| ≤ 2 ^ 16) :
    ∃ α : ℕ → ℝ, ∀ n ≤ 1000, let q := walkA rounded53.1 rounded53.2 1 30 axis line n p
      IsAngleOf (α n) ((line q).ec - (line q).sc) ((line q).er - (line q).sr) ∧
      |q.1 - (p.1 + ∑ k ∈ Finset.range n, 30 * Real.sin (α k + (1 - axis) * (Real.pi / 2)))| ≤ n / 2 ^ 32 ∧
      |q.2 - (p.2 + ∑ k ∈ Finset.range n, 30 * Real.cos (α k + (1 - axis) * (Real.pi / 2)))| ≤ n / 2 ^ 32 := by
  have hu0 : (0 : ℝ) ≤ doubleUnit := by unfold doubleUnit; norm_num
  have hu : (doubleUnit : ℝ) ≤ 1 / 100 := by unfold doubleUnit; norm_num
  have hτ : (1 / 2 ^ 51 : ℝ) ≤ 1 / 100 := by norm_num
  choose α hα using fun k => C42_angle_of_direction (line (walkA rounded53.1 rounded53.2 1 30 axis line k p)).er
    (line (walkA rounded53.1 rounded53.2 1 30 axis line k p)).ec 0 (line (walkA rounded53.1 rounded53.2 1 30 axis line k p)).sr
    (line (walkA rounded53.1 rounded53.2 1 30 axis line k p)).sc 0 (hl _)
  have hR : ∀ k ≤ 1000, |(walkA rounded53.1 rounded53.2 1 30 axis line k p).1| ≤ 2 ^ 16 + 31 * k ∧
      |(walkA rounded53.1 rounded53.2 1 30 axis line k p).2| ≤ 2 ^ 16 + 31 * k := by
    intro k
    induction k with
    | zero => intro _; simpa [walkA] using ⟨h1, h2⟩
    | succ k ih =>
      intro hk
      obtain ⟨i1, i2⟩ := ih (by omega)
      obtain ⟨k1, k2⟩ := C113_move rounded53_contracts.1 rounded53_contracts.2 hu0 hu hτ _ (hl _) (α k) (hα k).2.1 (hα k).2.2.1 (hα k).2.2.2
        1 30 axis hx (walkA rounded53.1 rounded53.2 1 30 axis line k p)
      set w := walkA rounded53.1 rounded53.2 1 30 axis line k p with hw
      have hs : walkA rounded53.1 rounded53.2 1 30 axis line (k + 1) p = moveA rounded53.1 rounded53.2 1 30 axis w (angleA rounded53.1 rounded53.2 (line w)) := rfl
      rw [hs]
      set m := moveA rounded53.1 rounded53.2 1 30 axis w (angleA rounded53.1 rounded53.2 (line w))
      set β := α k + (1 - axis) * (Real.pi / 2)
      have hk' : (k : ℝ) ≤ 1000 := by exact_mod_cast (by omega : k ≤ 1000)
      rw [mul_one, abs_of_pos (by norm_num : (0 : ℝ) < 30)] at k1 k2
      have s1 := abs_le.1 (Real.abs_sin_le_one β)
      have s2 := abs_le.1 (Real.abs_cos_le_one β)
      have u1 : doubleUnit * |w.1| ≤ doubleUnit * (2 ^ 17 : ℝ) := mul_le_mul_of_nonneg_left (by norm_num; linarith) hu0
      have u2 : doubleUnit * |w.2| ≤ doubleUnit * (2 ^ 17 : ℝ) := mul_le_mul_of_nonneg_left (by norm_num; linarith) hu0
      have v1 := abs_le.1 (k1.trans (add_le_add_right u1 _))
      have v2 := abs_le.1 (k2.trans (add_le_add_right u2 _))
      have w1 := abs_le.1 i1
      have w2 := abs_le.1 i2
      unfold doubleUnit at v1 v2
      push_cast
      norm_num at v1 v2 w1 w2 ⊢
      exact ⟨abs_le.2 ⟨by linarith, by linarith⟩, abs_le.2 ⟨by linarith, by linarith⟩⟩
  refine ⟨α, fun n hn => ⟨(hα n).2.1, ?_⟩⟩
  have h := C113_walk rounded53_contracts.1 rounded53_contracts.2 hu0 hu hτ 1 30 axis hx line p α (2 ^ 17) n fun k hk => by
    have hk' : (k : ℝ) ≤ 1000 := by exact_mod_cast (by omega : k ≤ 1000)
    obtain ⟨r1, r2⟩ := hR k (by omega)
    exact ⟨hl _, (hα k).2.1, (hα k).2.2.1, (hα k).2.2.2, r1.trans (by norm_num; linarith), r2.trans (by norm_num; linarith)⟩
  rw [mul_one, abs_of_pos (by norm_num : (0 : ℝ) < 30)] at h
  have hb : (n : ℝ) * (30 * (25 * doubleUnit + 4 * (1 / 2 ^ 51)) + doubleUnit * 2 ^ 17) ≤ n / 2 ^ 32 := by
    rw [div_eq_mul_one_div (n : ℝ)]
    exact mul_le_mul_of_nonneg_left (by unfold doubleUnit; norm_num) (Nat.cast_nonneg n)
  exact ⟨h.1.trans hb, h.2.trans hb⟩

end
end Shareloc
