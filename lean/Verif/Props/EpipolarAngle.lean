import Verif.Model.Rectification
import Mathlib.Analysis.SpecialFunctions.Trigonometric.Arctan

/-!
# C42, C43: epipolar angle and moves along the epipolar axes

The theorems are over the real numbers, with the functions of Mathlib.
-/

set_option linter.unusedSectionVars false

namespace Shareloc

/-- The usual functions on the reals. -/
noncomputable def realTrig : Trig ℝ := ⟨Real.cos, Real.sin, Real.arctan, Real.sqrt, Real.pi⟩

/-- A sensor position without NaN. -/
def pos3 {K : Type*} (r c z : K) : ORow K := ⟨some r, some c, some z⟩

/-- Specification: `a` is the angle of the vector (dcol, drow), which has length `rho`. -/
def IsAngleOf (a dcol drow : ℝ) : Prop :=
  Real.sqrt (dcol ^ 2 + drow ^ 2) * Real.cos a = dcol ∧ Real.sqrt (dcol ^ 2 + drow ^ 2) * Real.sin a = drow

theorem arctan_angle (dc dr : ℝ) (h : 0 < dc) : IsAngleOf (Real.arctan (dr / dc)) dc dr := by
  have e : Real.sqrt (dc ^ 2 + dr ^ 2) = dc * Real.sqrt (1 + (dr / dc) ^ 2) := by
    rw [show dc ^ 2 + dr ^ 2 = dc ^ 2 * (1 + (dr / dc) ^ 2) by field_simp, Real.sqrt_mul (sq_nonneg dc),
      Real.sqrt_sq h.le]
  have hp : 0 < Real.sqrt (1 + (dr / dc) ^ 2) := Real.sqrt_pos.2 (by positivity)
  constructor
  · rw [e, Real.cos_arctan]; field_simp
  · rw [e, Real.sin_arctan]; field_simp

theorem IsAngleOf.opp {a dc dr : ℝ} (h : IsAngleOf a (-dc) (-dr)) : IsAngleOf (Real.pi + a) dc dr := by
  obtain ⟨h1, h2⟩ := h
  rw [show (-dc) ^ 2 + (-dr) ^ 2 = dc ^ 2 + dr ^ 2 by ring] at h1 h2
  constructor
  · rw [add_comm Real.pi, Real.cos_add_pi]; linarith
  · rw [add_comm Real.pi, Real.sin_add_pi]; linarith

/-- C42. The angle computed for a local epipolar line with distinct start and end (row, column) is, in
[-pi/2, 3 pi/2), the angle of the direction from the start to the end, whatever its orientation (vertical included). -/
theorem C42_angle_of_direction (er ec ez sr sc sz : ℝ) (h : er ≠ sr ∨ ec ≠ sc) :
    ∃ a, epipolarAngle realTrig (pos3 er ec ez) (pos3 sr sc sz) = some a ∧
      IsAngleOf a (ec - sc) (er - sr) ∧ -(Real.pi / 2) ≤ a ∧ a < 3 * Real.pi / 2 := by
  have hpi := Real.pi_pos
  by_cases hc : ec = sc
  · subst hc
    by_cases hr : er > sr
    · refine ⟨Real.pi / 2, by simp [epipolarAngle, pos3, realTrig, hr], ?_, by linarith, by linarith⟩
      constructor
      · simp
      · simp [abs_of_pos (sub_pos.2 hr), Real.sqrt_sq_eq_abs]
    · have hlt : er < sr := lt_of_le_of_ne (not_lt.1 hr) (by simpa using h)
      refine ⟨-(Real.pi / 2), by simp [epipolarAngle, pos3, realTrig, hr], ?_, le_refl _, by linarith⟩
      constructor
      · simp
      · simp [Real.sqrt_sq_eq_abs, abs_of_neg (sub_neg.2 hlt)]
  · by_cases hp : ec > sc
    · refine ⟨Real.arctan ((er - sr) / (ec - sc)), by simp [epipolarAngle, pos3, realTrig, hc, hp],
        arctan_angle _ _ (sub_pos.2 hp), ?_, ?_⟩
      · exact (Real.neg_pi_div_two_lt_arctan _).le
      · have := Real.arctan_lt_pi_div_two ((er - sr) / (ec - sc)); linarith
    · have hlt : ec < sc := lt_of_le_of_ne (not_lt.1 hp) hc
      refine ⟨Real.pi + Real.arctan ((er - sr) / (ec - sc)), by simp [epipolarAngle, pos3, realTrig, hc, hp], ?_, ?_, ?_⟩
      · apply IsAngleOf.opp
        have := arctan_angle (-(ec - sc)) (-(er - sr)) (by linarith)
        rwa [neg_div_neg_eq] at this
      · have := Real.neg_pi_div_two_lt_arctan ((er - sr) / (ec - sc)); linarith
      · have := Real.arctan_lt_pi_div_two ((er - sr) / (ec - sc)); linarith

/-- C42. When start and end are the same point, the angle is -pi/2. -/
theorem C42_degenerate (r c z z' : ℝ) : epipolarAngle realTrig (pos3 r c z) (pos3 r c z') = some (-(Real.pi / 2)) := by
  simp [epipolarAngle, pos3, realTrig]

/-- An angle of a nonzero vector in a half-open interval of length 2 pi is unique. -/
theorem IsAngleOf.unique {a b dc dr : ℝ} (hd : dc ≠ 0 ∨ dr ≠ 0) (ha : IsAngleOf a dc dr) (hb : IsAngleOf b dc dr)
    (h : |a - b| < 2 * Real.pi) : a = b := by
  obtain ⟨a1, a2⟩ := ha
  obtain ⟨b1, b2⟩ := hb
  have hpos : 0 < Real.sqrt (dc ^ 2 + dr ^ 2) := by
    apply Real.sqrt_pos.2
    rcases hd with h | h <;> positivity
  have hc : Real.cos a = Real.cos b := mul_left_cancel₀ hpos.ne' (a1.trans b1.symm)
  have hs : Real.sin a = Real.sin b := mul_left_cancel₀ hpos.ne' (a2.trans b2.symm)
  have h1 : Real.cos (a - b) = 1 := by
    rw [Real.cos_sub, hc, hs]
    have := Real.sin_sq_add_cos_sq b
    nlinarith
  rw [abs_lt] at h
  have := (Real.cos_eq_one_iff_of_lt_of_lt h.1 h.2).1 h1
  linarith

/-- C42. The computed angle is the only angle of the direction in [-pi/2, 3 pi/2). -/
theorem C42_unique (er ec ez sr sc sz b : ℝ) (h : er ≠ sr ∨ ec ≠ sc) (hb : IsAngleOf b (ec - sc) (er - sr))
    (h1 : -(Real.pi / 2) ≤ b) (h2 : b < 3 * Real.pi / 2) :
    epipolarAngle realTrig (pos3 er ec ez) (pos3 sr sc sz) = some b := by
  obtain ⟨a, e, ha, l, u⟩ := C42_angle_of_direction er ec ez sr sc sz h
  rw [e]
  have : a = b := by
    apply IsAngleOf.unique (dc := ec - sc) (dr := er - sr) _ ha hb
    · rw [abs_lt]; constructor <;> linarith
    · rcases h with h | h
      · exact Or.inr (sub_ne_zero.2 h)
      · exact Or.inl (sub_ne_zero.2 h)
  rw [this]

section
variable {K : Type*} [Field K] [LinearOrder K]

/-- C42. Python and C++ give the same angle for lines without NaN. -/
theorem C42_cpp_agrees (t : Trig K) (er ec ez sr sc sz : K) :
    epipolarAngleCpp t (pos3 er ec ez) (pos3 sr sc sz) = epipolarAngle t (pos3 er ec ez) (pos3 sr sc sz) := rfl

/-- C42. They differ on a NaN column: 0 in Python, NaN in C++. -/
theorem C42_nan_difference (t : Trig K) (r r' : Option K) (c : Option K) (z z' : Option K) :
    epipolarAngle t ⟨r, none, z⟩ ⟨r', c, z'⟩ = some 0 ∧ epipolarAngleCpp t ⟨r, none, z⟩ ⟨r', c, z'⟩ = none := by
  cases c <;> exact ⟨rfl, rfl⟩

end

/-- The hypotheses of `C42_angle_of_direction` are met by a line going down and to the left: 3 pi / 4. -/
example : epipolarAngle realTrig (pos3 11 4 0) (pos3 10 5 0) = some (3 * Real.pi / 4) := by
  apply C42_unique
  · left; norm_num
  · have h2 : Real.sqrt 2 * Real.sqrt 2 = 2 := Real.mul_self_sqrt (by norm_num)
    have e : 3 * Real.pi / 4 = Real.pi - Real.pi / 4 := by ring
    constructor
    · rw [e, Real.cos_pi_sub, Real.cos_pi_div_four, show ((4 : ℝ) - 5) ^ 2 + (11 - 10) ^ 2 = 2 by norm_num]
      linarith
    · rw [e, Real.sin_pi_sub, Real.sin_pi_div_four, show ((4 : ℝ) - 5) ^ 2 + (11 - 10) ^ 2 = 2 by norm_num]
      linarith
  · have := Real.pi_pos; linarith
  · have := Real.pi_pos; linarith

/-! ### C43 -/

/-- C43. One move: along the epipolar line (axis 1) the point moves by step × spacing in the direction of the angle, across
(axis 0) by the same amount in the direction of the angle plus a right angle; the altitude is kept. -/
theorem C43_move (spacing step r c a : ℝ) (z : Option ℝ) :
    movePoint realTrig spacing step 1 ⟨some r, some c, z⟩ (some a) =
      ⟨some (r + step * spacing * Real.sin a), some (c + step * spacing * Real.cos a), z⟩ ∧
    movePoint realTrig spacing step 0 ⟨some r, some c, z⟩ (some a) =
      ⟨some (r + step * spacing * Real.cos a), some (c - step * spacing * Real.sin a), z⟩ := by
  constructor
  · simp [movePoint, realTrig, olift2]
  · simp [movePoint, realTrig, olift2, Real.sin_add_pi_div_two, Real.cos_add_pi_div_two, sub_eq_add_neg]

/-- C43. The length of a move is exactly |step × spacing|; along the epipolar line it is parallel to the direction
(cos a, sin a), across it is orthogonal to it. -/
theorem C43_length_and_direction (spacing step r c a : ℝ) (z : Option ℝ) (axis : ℤ) (hx : axis = 0 ∨ axis = 1) :
    ∃ r' c', movePoint realTrig spacing step axis ⟨some r, some c, z⟩ (some a) = ⟨some r', some c', z⟩ ∧
      (r' - r) ^ 2 + (c' - c) ^ 2 = (step * spacing) ^ 2 ∧
      (axis = 1 → (c' - c) * Real.cos a + (r' - r) * Real.sin a = step * spacing ∧
        (c' - c) * Real.sin a - (r' - r) * Real.cos a = 0) ∧
      (axis = 0 → (c' - c) * Real.cos a + (r' - r) * Real.sin a = 0 ∧
        (r' - r) * Real.cos a - (c' - c) * Real.sin a = step * spacing) := by
  have hsc := Real.sin_sq_add_cos_sq a
  rcases hx with rfl | rfl
  · refine ⟨_, _, (C43_move spacing step r c a z).2, ?_, by simp, fun _ => ⟨by ring, ?_⟩⟩
    · linear_combination (step * spacing) ^ 2 * hsc
    · linear_combination (step * spacing) * hsc
  · refine ⟨_, _, (C43_move spacing step r c a z).1, ?_, fun _ => ⟨?_, by ring⟩, by simp⟩
    · linear_combination (step * spacing) ^ 2 * hsc
    · linear_combination (step * spacing) * hsc

section
variable {K : Type*} [Field K] [LinearOrder K]

/-- C43. Any other axis raises a ValueError. -/
theorem C43_bad_axis (t : Trig K) (m : Stereo K) (cur : List (ORow K)) (spacing step : K) (angles : List (Option K))
    (axis : ℤ) (h0 : axis ≠ 0) (h1 : axis ≠ 1) :
    movingAlongAxis t m cur spacing step angles axis = .error .valueError := by
  simp [movingAlongAxis, h0, h1]

/-- C43. When it succeeds, every left point is moved by its own angle and the right and ground positions are the
colocalisation of the moved points. -/
theorem C43_batch (t : Trig K) (m : Stereo K) (cur : List (ORow K)) (spacing step : K) (angles : List (Option K))
    (axis : ℤ) (nl nr ng : List (ORow K)) (h : movingAlongAxis t m cur spacing step angles axis = .ok (nl, nr, ng)) :
    nl = List.zipWith (movePoint t spacing step axis) cur angles ∧
    ∃ corr, m.l2r (nl.map rowCol) = .ok corr ∧ nr = corr.map (fun c => c.1) ∧ ng = corr.map fun c => c.2 := by
  unfold movingAlongAxis at h
  split at h
  · simp at h
  · simp only at h
    cases hc : m.l2r ((List.zipWith (movePoint t spacing step axis) cur angles).map rowCol) with
    | error e => rw [hc] at h; simp at h
    | ok corr =>
      rw [hc] at h
      simp only [Except.ok.injEq, Prod.mk.injEq] at h
      obtain ⟨rfl, rfl, rfl⟩ := h
      exact ⟨rfl, corr, hc, rfl, rfl⟩

end

/-- The hypotheses of the theorems of C43 are met: a move of two points. -/
example : movePoint realTrig 2 3 0 (pos3 1 1 5) (some 0) = pos3 7 1 5 := by
  have := (C43_move 2 3 1 1 0 (some 5)).2
  rw [pos3, this]
  simp [pos3]; norm_num

/-- Along the line when start and end are those of a line of sight: the move is step × spacing times the unit vector of the
local epipolar line. -/
theorem C43_move_along_line (spacing step r c er ec ez sr sc sz : ℝ) (z : Option ℝ) (h : er ≠ sr ∨ ec ≠ sc) :
    let n := Real.sqrt ((ec - sc) ^ 2 + (er - sr) ^ 2)
    movePoint realTrig spacing step 1 ⟨some r, some c, z⟩ (epipolarAngle realTrig (pos3 er ec ez) (pos3 sr sc sz)) =
      ⟨some (r + step * spacing * ((er - sr) / n)), some (c + step * spacing * ((ec - sc) / n)), z⟩ ∧
    movePoint realTrig spacing step 0 ⟨some r, some c, z⟩ (epipolarAngle realTrig (pos3 er ec ez) (pos3 sr sc sz)) =
      ⟨some (r + step * spacing * ((ec - sc) / n)), some (c - step * spacing * ((er - sr) / n)), z⟩ := by
  obtain ⟨a, e, ⟨h1, h2⟩, -, -⟩ := C42_angle_of_direction er ec ez sr sc sz h
  have hpos : 0 < Real.sqrt ((ec - sc) ^ 2 + (er - sr) ^ 2) := by
    apply Real.sqrt_pos.2
    rcases h with h | h
    · have := sub_ne_zero.2 h; positivity
    · have := sub_ne_zero.2 h; positivity
  have hcos : (ec - sc) / Real.sqrt ((ec - sc) ^ 2 + (er - sr) ^ 2) = Real.cos a := by
    rw [div_eq_iff hpos.ne']
    linarith
  have hsin : (er - sr) / Real.sqrt ((ec - sc) ^ 2 + (er - sr) ^ 2) = Real.sin a := by
    rw [div_eq_iff hpos.ne']
    linarith
  simp only [e, hcos, hsin]
  exact C43_move spacing step r c a z

end Shareloc
