import Verif.Props.Pipeline
import Verif.Spec.AffineSensor

/-!
# C70: the rows of the two grids are conjugate epipolar lines (affine sensors)
-/

set_option linter.unusedSectionVars false

namespace Shareloc
open Spec

/-- The pixel of an affine sensor that sees a ground point. -/
noncomputable def affineImage (s : AffineSensor ℝ) (x y z : ℝ) : ℝ × ℝ :=
  ((s.b' * (x - s.p * z - s.u) - s.b * (y - s.p' * z - s.u')) / s.det,
   (s.a * (y - s.p' * z - s.u') - s.a' * (x - s.p * z - s.u)) / s.det)

theorem affineImage_ground (s : AffineSensor ℝ) (hs : s.det ≠ 0) (x y z : ℝ) :
    s.ground (affineImage s x y z).1 (affineImage s x y z).2 z = (x, y) := by
  have hD : s.a * s.b' - s.b * s.a' = s.det := rfl
  simp only [AffineSensor.ground, affineImage]
  generalize s.det = D at hs hD
  ext
  · simp only
    field_simp
    linear_combination (x - s.p * z - s.u) * hD
  · simp only
    field_simp
    linear_combination (y - s.p' * z - s.u') * hD

theorem solve_hom {a b c d x y : ℝ} (h : a * d - b * c ≠ 0) (h1 : a * x + b * y = 0) (h2 : c * x + d * y = 0) : x = 0 ∧ y = 0 := by
  constructor
  · have : (a * d - b * c) * x = 0 := by linear_combination d * h1 - b * h2
    exact (mul_eq_zero.1 this).resolve_left h
  · have : (a * d - b * c) * y = 0 := by linear_combination a * h2 - c * h1
    exact (mul_eq_zero.1 this).resolve_left h

/-- A model that is an affine sensor: its direct location at an altitude, its inverse location, and on a DTM the ground point at
some altitude `alt d r c`. -/
structure IsAffine {δ : Type*} (s : AffineSensor ℝ) (alt : δ → ℝ → ℝ → ℝ) (ground : Option ℝ → Option ℝ → Option ℝ → ORow ℝ)
    (groundDtm : δ → Option ℝ → Option ℝ → ORow ℝ) (sensor : ORow ℝ → Option ℝ × Option ℝ) : Prop where
  ground : ∀ r c z, ground (some r) (some c) (some z) = pos3 (s.ground r c z).1 (s.ground r c z).2 z
  dtm : ∀ d r c, groundDtm d (some r) (some c) = pos3 (s.ground r c (alt d r c)).1 (s.ground r c (alt d r c)).2 (alt d r c)
  sensor : ∀ x y z r c, s.ground r c z = (x, y) → sensor (pos3 x y z) = (some r, some c)

/-- The angle as a function of the differences. -/
theorem epipolarAngle_diff (er ec ez sr sc sz er' ec' ez' sr' sc' sz' : ℝ) (h1 : er - sr = er' - sr') (h2 : ec - sc = ec' - sc') :
    epipolarAngle realTrig (pos3 er ec ez) (pos3 sr sc sz) = epipolarAngle realTrig (pos3 er' ec' ez') (pos3 sr' sc' sz') := by
  have e1 : (ec = sc) ↔ (ec' = sc') := by constructor <;> intro h <;> linarith
  have e2 : (er > sr) ↔ (er' > sr') := by constructor <;> intro h <;> linarith
  have e3 : (ec > sc) ↔ (ec' > sc') := by constructor <;> intro h <;> linarith
  simp only [epipolarAngle, pos3, e1, e2, e3, h1, h2]

variable {δ : Type*}

/-- The altitude of the ground point of a pixel with an elevation. -/
def elevAlt (alt : δ → ℝ → ℝ → ℝ) (el : UserElevation ℝ δ) (r c : ℝ) : ℝ :=
  match el with
  | .missing => 0
  | .altitude a => a
  | .dtm _ d => alt d r c

theorem groundAt_affine {s : AffineSensor ℝ} {alt : δ → ℝ → ℝ → ℝ} {g : Option ℝ → Option ℝ → Option ℝ → ORow ℝ}
    {gd : δ → Option ℝ → Option ℝ → ORow ℝ} {se : ORow ℝ → Option ℝ × Option ℝ} (h : IsAffine s alt g gd se)
    (el : UserElevation ℝ δ) (r c : ℝ) :
    groundAt g gd el (some r) (some c) =
      pos3 (s.ground r c (elevAlt alt el r c)).1 (s.ground r c (elevAlt alt el r c)).2 (elevAlt alt el r c) := by
  cases el with
  | missing => exact h.ground r c 0
  | altitude a => exact h.ground r c a
  | dtm e d => exact h.dtm d r c

/-- The position in the other image of a ground point of an affine sensor. -/
theorem seenAt_affine {s : AffineSensor ℝ} {alt : δ → ℝ → ℝ → ℝ} {g : Option ℝ → Option ℝ → Option ℝ → ORow ℝ}
    {gd : δ → Option ℝ → Option ℝ → ORow ℝ} {se : ORow ℝ → Option ℝ × Option ℝ} (h : IsAffine s alt g gd se) (hs : s.det ≠ 0)
    (x y z : ℝ) : seenAt se (pos3 x y z) = pos3 (affineImage s x y z).1 (affineImage s x y z).2 z := by
  unfold seenAt
  rw [h.sensor x y z _ _ (affineImage_ground s hs x y z)]
  rfl

/-- The epipolar vector of the left image: displacement of the left pixel, per metre of altitude, of the points seen by a right
pixel. -/
noncomputable def epiVector (l r : AffineSensor ℝ) : ℝ × ℝ :=
  ((l.b' * (r.p - l.p) - l.b * (r.p' - l.p')) / l.det, (l.a * (r.p' - l.p') - l.a' * (r.p - l.p)) / l.det)

theorem epiVector_spec (l r : AffineSensor ℝ) (hl : l.det ≠ 0) :
    l.a * (epiVector l r).1 + l.b * (epiVector l r).2 = r.p - l.p ∧ l.a' * (epiVector l r).1 + l.b' * (epiVector l r).2 = r.p' - l.p' := by
  have hD : l.a * l.b' - l.b * l.a' = l.det := rfl
  simp only [epiVector]
  generalize l.det = D at hl hD
  constructor
  · field_simp
    linear_combination (r.p - l.p) * hD
  · field_simp
    linear_combination (r.p' - l.p') * hD

/-- The local epipolar line of a pixel has the direction of the epipolar vector. -/
theorem line_affine {l r : AffineSensor ℝ} {altL altR : δ → ℝ → ℝ → ℝ} {gl gr : Option ℝ → Option ℝ → Option ℝ → ORow ℝ}
    {dl dr : δ → Option ℝ → Option ℝ → ORow ℝ} {sl sr : ORow ℝ → Option ℝ × Option ℝ} (hL : IsAffine l altL gl dl sl)
    (hR : IsAffine r altR gr dr sr) (hdl : l.det ≠ 0) (hdr : r.det ≠ 0) (el : UserElevation ℝ δ) (off : ℝ) (row col : ℝ)
    (z : Option ℝ) (fr : Option ℝ × Option ℝ → ORow ℝ × ORow ℝ) (fl : ORow ℝ → ORow ℝ)
    (hfr : fr = fun p => (seenAt sr (groundAt gl dl el p.1 p.2), groundAt gl dl el p.1 p.2))
    (hfl : fl = fun p => seenAt sl (gr p.x p.y p.z)) :
    ∃ er ec ez br bc bz : ℝ, lineEnd fr fl off ⟨some row, some col, z⟩ = pos3 er ec ez ∧
      lineStart fr fl off ⟨some row, some col, z⟩ = pos3 br bc bz ∧
      er - br = 2 * off * (epiVector l r).1 ∧ ec - bc = 2 * off * (epiVector l r).2 := by
  have h0 : fr (some row, some col) = (pos3 (affineImage r (l.ground row col (elevAlt altL el row col)).1 (l.ground row col (elevAlt altL el row col)).2 (elevAlt altL el row col)).1
      (affineImage r (l.ground row col (elevAlt altL el row col)).1 (l.ground row col (elevAlt altL el row col)).2 (elevAlt altL el row col)).2 (elevAlt altL el row col),
      pos3 (l.ground row col (elevAlt altL el row col)).1 (l.ground row col (elevAlt altL el row col)).2 (elevAlt altL el row col)) := by
    rw [hfr]
    simp only
    rw [groundAt_affine hL, seenAt_affine hR hdr]
  generalize elevAlt altL el row col = h at h0
  generalize affineImage r (l.ground row col h).1 (l.ground row col h).2 h = q at h0
  have hfl' : ∀ z : ℝ, fl ⟨some q.1, some q.2, some z⟩ =
      pos3 (affineImage l (r.ground q.1 q.2 z).1 (r.ground q.1 q.2 z).2 z).1
        (affineImage l (r.ground q.1 q.2 z).1 (r.ground q.1 q.2 z).2 z).2 z := by
    intro z
    rw [hfl]
    simp only
    rw [hR.ground, seenAt_affine hL hdl]
  refine ⟨(affineImage l (r.ground q.1 q.2 (h + off)).1 (r.ground q.1 q.2 (h + off)).2 (h + off)).1,
    (affineImage l (r.ground q.1 q.2 (h + off)).1 (r.ground q.1 q.2 (h + off)).2 (h + off)).2, h + off,
    (affineImage l (r.ground q.1 q.2 (h - off)).1 (r.ground q.1 q.2 (h - off)).2 (h - off)).1,
    (affineImage l (r.ground q.1 q.2 (h - off)).1 (r.ground q.1 q.2 (h - off)).2 (h - off)).2, h - off, ?_, ?_, ?_, ?_⟩
  · unfold lineEnd
    rw [h0]
    exact hfl' (h + off)
  · unfold lineStart
    rw [h0]
    exact hfl' (h - off)
  · simp only [affineImage, AffineSensor.ground, epiVector]
    generalize l.det = D at hdl
    field_simp
    ring
  · simp only [affineImage, AffineSensor.ground, epiVector]
    generalize l.det = D at hdl
    field_simp
    ring

/-- Conjugate lines: the pixels homologous, at any altitude, to the pixels of a left line of direction the epipolar vector are on
one line of the right image. -/
theorem conjugate_lines (l r : AffineSensor ℝ) (hdl : l.det ≠ 0) (hdr : r.det ≠ 0) (row col k : ℝ) (dr dc : ℝ)
    (h1 : k * dr = (epiVector l r).1) (h2 : k * dc = (epiVector l r).2) (hk : k ≠ 0) (t z rr cc : ℝ)
    (h : Homologous l r (row + t * dr) (col + t * dc) z rr cc) :
    OnLine (affineImage r (l.ground row col 0).1 (l.ground row col 0).2 0).1
      (affineImage r (l.ground row col 0).1 (l.ground row col 0).2 0).2 (epiVector r l).1 (epiVector r l).2 rr cc := by
  obtain ⟨v1, v2⟩ := epiVector_spec l r hdl
  obtain ⟨w1, w2⟩ := epiVector_spec r l hdr
  have g0 := affineImage_ground r hdr (l.ground row col 0).1 (l.ground row col 0).2 0
  generalize affineImage r (l.ground row col 0).1 (l.ground row col 0).2 0 = q at g0 ⊢
  generalize epiVector l r = v at v1 v2 h1 h2
  generalize epiVector r l = w at w1 w2
  simp only [Homologous, AffineSensor.ground, Prod.mk.injEq] at h g0
  obtain ⟨ha, hb⟩ := h
  obtain ⟨ga, gb⟩ := g0
  have e1 : l.a * dr + l.b * dc = (r.p - l.p) / k := by
    rw [eq_div_iff hk]
    linear_combination v1 + l.a * h1 + l.b * h2
  have e2 : l.a' * dr + l.b' * dc = (r.p' - l.p') / k := by
    rw [eq_div_iff hk]
    linear_combination v2 + l.a' * h1 + l.b' * h2
  unfold AffineSensor.det at hdr
  have key := solve_hom (x := rr - q.1 - (z - t / k) * w.1) (y := cc - q.2 - (z - t / k) * w.2) hdr
    (by
      have : r.a * (rr - q.1 - (z - t / k) * w.1) + r.b * (cc - q.2 - (z - t / k) * w.2) =
          (l.a * (row + t * dr) + l.b * (col + t * dc) + l.p * z + l.u) - r.p * z - r.u
          - ((l.a * row + l.b * col + l.p * 0 + l.u) - r.p * 0 - r.u) - (z - t / k) * (l.p - r.p) := by
        linear_combination (-1) * ha - ga - (z - t / k) * w1
      rw [this]
      linear_combination t * e1)
    (by
      have : r.a' * (rr - q.1 - (z - t / k) * w.1) + r.b' * (cc - q.2 - (z - t / k) * w.2) =
          (l.a' * (row + t * dr) + l.b' * (col + t * dc) + l.p' * z + l.u') - r.p' * z - r.u'
          - ((l.a' * row + l.b' * col + l.p' * 0 + l.u') - r.p' * 0 - r.u') - (z - t / k) * (l.p' - r.p') := by
        linear_combination (-1) * hb - gb - (z - t / k) * w2
      rw [this]
      linear_combination t * e2)
  exact ⟨z - t / k, by linarith [key.1], by linarith [key.2]⟩

/-- The grids of two affine sensors: the angle is the same everywhere. -/
theorem affine_grids (conv : ℕ → ℕ → ORow ℝ → ORow ℝ) (left right : Geo ℝ δ)
    (gl gr : Option ℝ → Option ℝ → Option ℝ → ORow ℝ) (dl dr : δ → Option ℝ → Option ℝ → ORow ℝ)
    (sl sr : ORow ℝ → Option ℝ × Option ℝ) (hl : LocatesEachPoint left gl dl sl) (hr : LocatesEachPoint right gr dr sr)
    (l r : AffineSensor ℝ) (altL altR : δ → ℝ → ℝ → ℝ) (hL : IsAffine l altL gl dl sl) (hR : IsAffine r altR gr dr sr)
    (hdl : l.det ≠ 0) (hdr : r.det ≠ 0) (hview : l.p ≠ r.p ∨ l.p' ≠ r.p')
    (el : UserElevation ℝ δ) (im : LeftImage ℝ) (hsp : 0 < meanSpacing im) (epiStep off : ℝ) (hst : 0 < epiStep) (hoff : off ≠ 0)
    (margin : ℤ) (hmg : 0 ≤ margin) :
    ∃ (res : RectResult ℝ) (rows cols : ℕ) (R0 C0 a er ec : ℝ),
      stereoRectification realTrig conv left right el.arg im epiStep off false margin none = .ok res ∧
      angleAt realTrig (fun p => (seenAt sr (groundAt gl dl el p.1 p.2), groundAt gl dl el p.1 p.2))
        (fun p => seenAt sl (gr p.x p.y p.z)) off (leftOrigin im) = some a ∧
      R0 = (prepareRectification (Real.cos a) (Real.sin a) 0 im epiStep margin).start.x ∧
      C0 = (prepareRectification (Real.cos a) (Real.sin a) 0 im epiStep margin).start.y ∧
      (rows : ℤ) = (prepareRectification (Real.cos a) (Real.sin a) 0 im epiStep margin).gridRows ∧
      (cols : ℤ) = (prepareRectification (Real.cos a) (Real.sin a) 0 im epiStep margin).gridCols ∧
      2 ≤ rows ∧ 2 ≤ cols ∧ res.left.length = cols ∧ res.right.length = cols ∧ (∀ c ∈ res.left, c.length = rows) ∧
      (∀ c ∈ res.right, c.length = rows) ∧ (er ≠ 0 ∨ ec ≠ 0) ∧
      (∀ i j : ℕ, i < rows → j < cols → ∃ (z : Option ℝ) (rr cc zz : ℝ),
        gridNode res.left i j = some ⟨some (R0 + i * (epiStep * meanSpacing im * Real.cos a) + j * (epiStep * meanSpacing im * Real.sin a)),
          some (C0 - i * (epiStep * meanSpacing im * Real.sin a) + j * (epiStep * meanSpacing im * Real.cos a)), z⟩ ∧
        gridNode res.right i j = some (pos3 rr cc zz) ∧
        zz = elevAlt altL el (R0 + i * (epiStep * meanSpacing im * Real.cos a) + j * (epiStep * meanSpacing im * Real.sin a))
          (C0 - i * (epiStep * meanSpacing im * Real.sin a) + j * (epiStep * meanSpacing im * Real.cos a)) ∧
        Homologous l r (R0 + i * (epiStep * meanSpacing im * Real.cos a) + j * (epiStep * meanSpacing im * Real.sin a))
          (C0 - i * (epiStep * meanSpacing im * Real.sin a) + j * (epiStep * meanSpacing im * Real.cos a)) zz rr cc) ∧
      (∀ i : ℕ, i < rows → ∃ r1 c1 : ℝ,
        (∀ (j : ℕ) (rr cc zz : ℝ), j < cols → gridNode res.right i j = some (pos3 rr cc zz) → OnLine r1 c1 er ec rr cc) ∧
        ∀ t z rr cc : ℝ, Homologous l r (R0 + i * (epiStep * meanSpacing im * Real.cos a) + t * Real.sin a)
            (C0 - i * (epiStep * meanSpacing im * Real.sin a) + t * Real.cos a) z rr cc → OnLine r1 c1 er ec rr cc) := by
  obtain ⟨fr, hfr⟩ : ∃ fr : Option ℝ × Option ℝ → ORow ℝ × ORow ℝ,
    fr = fun p => (seenAt sr (groundAt gl dl el p.1 p.2), groundAt gl dl el p.1 p.2) := ⟨_, rfl⟩
  obtain ⟨fl, hfl⟩ : ∃ fl : ORow ℝ → ORow ℝ, fl = fun p => seenAt sl (gr p.x p.y p.z) := ⟨_, rfl⟩
  have hline := fun row col z => line_affine hL hR hdl hdr el off row col z fr fl hfr hfl
  -- the epipolar vectors are not null
  have hv : (epiVector l r).1 ≠ 0 ∨ (epiVector l r).2 ≠ 0 := by
    by_contra hcon
    push Not at hcon
    obtain ⟨e1, e2⟩ := epiVector_spec l r hdl
    rw [hcon.1, hcon.2] at e1 e2
    rcases hview with h | h
    · apply h; linarith
    · apply h; linarith
  have hw : (epiVector r l).1 ≠ 0 ∨ (epiVector r l).2 ≠ 0 := by
    by_contra hcon
    push Not at hcon
    obtain ⟨e1, e2⟩ := epiVector_spec r l hdr
    rw [hcon.1, hcon.2] at e1 e2
    rcases hview with h | h
    · apply h; linarith
    · apply h; linarith
  -- the same angle everywhere
  obtain ⟨er0, ec0, ez0, br0, bc0, bz0, q1, q2, q3, q4⟩ := hline 0 0 none
  have hne : er0 ≠ br0 ∨ ec0 ≠ bc0 := by
    by_contra hcon
    push Not at hcon
    rw [hcon.1] at q3; rw [hcon.2] at q4
    rcases hv with h | h
    · exact h (by
        have : 2 * off * (epiVector l r).1 = 0 := by linarith
        exact (mul_eq_zero.1 this).resolve_left (by simpa using hoff))
    · exact h (by
        have : 2 * off * (epiVector l r).2 = 0 := by linarith
        exact (mul_eq_zero.1 this).resolve_left (by simpa using hoff))
  obtain ⟨a, ha, hang, -, -⟩ := C42_angle_of_direction er0 ec0 ez0 br0 bc0 bz0 hne
  have hangle : ∀ row col z, angleAt realTrig fr fl off ⟨some row, some col, z⟩ = some a := by
    intro row col z
    obtain ⟨er, ec, ez, br, bc, bz, p1, p2, p3, p4⟩ := hline row col z
    unfold angleAt
    rw [p1, p2, ← ha]
    exact epipolarAngle_diff _ _ _ _ _ _ _ _ _ _ _ _ (by rw [p3, q3]) (by rw [p4, q4])
  -- direction of the rows
  rw [q3, q4] at hang
  unfold IsAngleOf at hang
  obtain ⟨b1, b2⟩ := hang
  set rho := Real.sqrt ((2 * off * (epiVector l r).2) ^ 2 + (2 * off * (epiVector l r).1) ^ 2) with hrho
  have hrho0 : rho ≠ 0 := by
    intro h0
    rw [h0, zero_mul] at b1 b2
    rcases hv with h | h
    · exact h ((mul_eq_zero.1 b2.symm).resolve_left (by simpa using hoff))
    · exact h ((mul_eq_zero.1 b1.symm).resolve_left (by simpa using hoff))
  have h2off : (2 * off) ≠ 0 := by simpa using hoff
  have hk0 : rho / (2 * off) ≠ 0 := div_ne_zero hrho0 h2off
  have k1 : rho / (2 * off) * Real.sin a = (epiVector l r).1 := by
    rw [div_mul_eq_mul_div, b2]; field_simp
  have k2 : rho / (2 * off) * Real.cos a = (epiVector l r).2 := by
    rw [div_mul_eq_mul_div, b1]; field_simp
  obtain ⟨n1, n2⟩ := prepared_sizes (realTrig.cos a) (realTrig.sin a) 0 im hsp hst hmg
  obtain ⟨res, pos, hres, l1, l2, l3, l4, -, -, hnode, s1, s2, -, hcol, hrow⟩ := C69_grids realTrig conv left right gl gr dl dr sl sr hl hr
    el im hsp epiStep off hst false margin hmg fr fl hfr hfl a (hangle _ _ _) _ rfl
  obtain ⟨rows, hrows⟩ := Int.eq_ofNat_of_zero_le (show 0 ≤ (prepareRectification (realTrig.cos a) (realTrig.sin a) 0 im epiStep margin).gridRows by omega)
  obtain ⟨cols, hcols⟩ := Int.eq_ofNat_of_zero_le (show 0 ≤ (prepareRectification (realTrig.cos a) (realTrig.sin a) 0 im epiStep margin).gridCols by omega)
  rw [hrows] at n1 l3 l4 hnode hcol hrow
  rw [hcols] at n2 l1 l2 hnode hrow
  obtain ⟨st, hstart⟩ : ∃ st, st = (prepareRectification (realTrig.cos a) (realTrig.sin a) 0 im epiStep margin).start := ⟨_, rfl⟩
  rw [← hstart] at s1 s2
  -- the left positions
  have hmove0 : ∀ x y z, movePoint realTrig (meanSpacing im) epiStep 0 ⟨some x, some y, z⟩ (some a) =
      ⟨some (x + epiStep * meanSpacing im * Real.cos a), some (y - epiStep * meanSpacing im * Real.sin a), z⟩ := by
    intro x y z
    have e1 : a + (1 - ((0 : ℤ) : ℝ)) * Real.pi / 2 = a + Real.pi / 2 := by push_cast; ring
    simp only [movePoint, olift2, Option.map_some, realTrig, e1, Real.sin_add_pi_div_two, Real.cos_add_pi_div_two]
    congr 2
    ring
  have hmove1 : ∀ x y z, movePoint realTrig (meanSpacing im) epiStep 1 ⟨some x, some y, z⟩ (some a) =
      ⟨some (x + epiStep * meanSpacing im * Real.sin a), some (y + epiStep * meanSpacing im * Real.cos a), z⟩ := by
    intro x y z
    have e1 : a + (1 - ((1 : ℤ) : ℝ)) * Real.pi / 2 = a := by push_cast; ring
    simp only [movePoint, olift2, Option.map_some, realTrig, e1]
  have hpos0 : ∀ i : ℕ, i < rows → ∃ z, pos i 0 = ⟨some (st.x + i * (epiStep * meanSpacing im * Real.cos a)),
      some (st.y - i * (epiStep * meanSpacing im * Real.sin a)), z⟩ := by
    intro i
    induction i with
    | zero =>
      intro _
      refine ⟨(pos 0 0).z, ?_⟩
      have : pos 0 0 = ⟨(pos 0 0).x, (pos 0 0).y, (pos 0 0).z⟩ := rfl
      rw [this, s1, s2]
      simp
    | succ i ih =>
      intro hi
      obtain ⟨z, hz⟩ := ih (by omega)
      refine ⟨z, ?_⟩
      rw [hcol i (by omega), hz, hangle, hmove0]
      push_cast
      congr 2 <;> ring
  have hpos : ∀ i j : ℕ, i < rows → j < cols → ∃ z, pos i j =
      ⟨some (st.x + i * (epiStep * meanSpacing im * Real.cos a) + j * (epiStep * meanSpacing im * Real.sin a)),
        some (st.y - i * (epiStep * meanSpacing im * Real.sin a) + j * (epiStep * meanSpacing im * Real.cos a)), z⟩ := by
    intro i j hi
    induction j with
    | zero =>
      intro _
      obtain ⟨z, hz⟩ := hpos0 i hi
      exact ⟨z, by rw [hz]; simp⟩
    | succ j ih =>
      intro hj
      obtain ⟨z, hz⟩ := ih (by omega)
      refine ⟨z, ?_⟩
      rw [hrow i j (by omega) (by omega), hz, hangle, hmove1]
      push_cast
      congr 2 <;> ring
  -- the right positions
  have hright : ∀ x y : ℝ, ∃ rr cc zz, seenAt sr (groundAt gl dl el (some x) (some y)) = pos3 rr cc zz ∧ zz = elevAlt altL el x y ∧
      Homologous l r x y zz rr cc := by
    intro x y
    rw [groundAt_affine hL, seenAt_affine hR hdr]
    exact ⟨_, _, _, rfl, rfl, (affineImage_ground r hdr _ _ _).symm⟩
  refine ⟨res, rows, cols, st.x, st.y, a, (epiVector r l).1, (epiVector r l).2, hres,
    by rw [← hfr, ← hfl]; exact hangle _ _ _, by rw [hstart]; rfl, by rw [hstart]; rfl, hrows.symm, hcols.symm, by omega, by omega, by omega, by omega,
    fun c hc => by have := l3 c hc; omega, fun c hc => by have := l4 c hc; omega, hw, ?_, ?_⟩
  · intro i j hi hj
    obtain ⟨z, hz⟩ := hpos i j hi hj
    obtain ⟨m1, m2⟩ := hnode i j (by omega) (by omega)
    simp only [written, Bool.false_eq_true, if_false, hz] at m1 m2
    obtain ⟨rr, cc, zz, hs, hz1, hz2⟩ := hright (st.x + i * (epiStep * meanSpacing im * Real.cos a) + j * (epiStep * meanSpacing im * Real.sin a))
      (st.y - i * (epiStep * meanSpacing im * Real.sin a) + j * (epiStep * meanSpacing im * Real.cos a))
    exact ⟨z, rr, cc, zz, m1, by rw [m2, hs], hz1, hz2⟩
  · intro i hi
    refine ⟨_, _, fun j rr cc zz hj hn => ?_, fun t z rr cc hh =>
      conjugate_lines l r hdl hdr _ _ _ _ _ k1 k2 hk0 t z rr cc hh⟩
    obtain ⟨z, hz⟩ := hpos i j hi hj
    obtain ⟨-, m2⟩ := hnode i j (by omega) (by omega)
    simp only [written, Bool.false_eq_true, if_false, hz] at m2
    obtain ⟨rr', cc', zz', hs, -, hh⟩ := hright (st.x + i * (epiStep * meanSpacing im * Real.cos a) + j * (epiStep * meanSpacing im * Real.sin a))
      (st.y - i * (epiStep * meanSpacing im * Real.sin a) + j * (epiStep * meanSpacing im * Real.cos a))
    rw [hs, hn] at m2
    simp only [pos3, Option.some.injEq, V3.mk.injEq] at m2
    obtain ⟨rfl, rfl, rfl⟩ := m2
    refine conjugate_lines l r hdl hdr _ _ _ _ _ k1 k2 hk0 (j * (epiStep * meanSpacing im)) zz rr cc ?_
    convert hh using 2 <;> ring

/-- C70. For two affine sensors with different viewing directions, with no elevation, one altitude or any DTM, the computed grids
are made of conjugate epipolar lines.  The left nodes form a regular grid of step `epiStep * spacing` along two orthogonal
directions.  Every right node sees the ground point of the left node at the elevation of this point.  The right nodes of each row are on one line, all these lines having the same direction, and a point of
any altitude whose left image is on the left line of a row has its right image on the right line of this row: after resampling,
homologous points are on the same row. -/
theorem C70_conjugate_rows (conv : ℕ → ℕ → ORow ℝ → ORow ℝ) (left right : Geo ℝ δ)
    (gl gr : Option ℝ → Option ℝ → Option ℝ → ORow ℝ) (dl dr : δ → Option ℝ → Option ℝ → ORow ℝ)
    (sl sr : ORow ℝ → Option ℝ × Option ℝ) (hl : LocatesEachPoint left gl dl sl) (hr : LocatesEachPoint right gr dr sr)
    (l r : AffineSensor ℝ) (altL altR : δ → ℝ → ℝ → ℝ) (hL : IsAffine l altL gl dl sl) (hR : IsAffine r altR gr dr sr)
    (hdl : l.det ≠ 0) (hdr : r.det ≠ 0) (hview : l.p ≠ r.p ∨ l.p' ≠ r.p')
    (el : UserElevation ℝ δ) (im : LeftImage ℝ) (hsp : 0 < meanSpacing im) (epiStep off : ℝ) (hst : 0 < epiStep) (hoff : off ≠ 0)
    (margin : ℤ) (hmg : 0 ≤ margin) :
    ∃ (res : RectResult ℝ) (rows cols : ℕ) (R0 C0 a er ec : ℝ),
      stereoRectification realTrig conv left right el.arg im epiStep off false margin none = .ok res ∧
      2 ≤ rows ∧ 2 ≤ cols ∧ res.left.length = cols ∧ res.right.length = cols ∧ (∀ c ∈ res.left, c.length = rows) ∧
      (∀ c ∈ res.right, c.length = rows) ∧ (er ≠ 0 ∨ ec ≠ 0) ∧
      (∀ i j : ℕ, i < rows → j < cols → ∃ (z : Option ℝ) (rr cc zz : ℝ),
        gridNode res.left i j = some ⟨some (R0 + i * (epiStep * meanSpacing im * Real.cos a) + j * (epiStep * meanSpacing im * Real.sin a)),
          some (C0 - i * (epiStep * meanSpacing im * Real.sin a) + j * (epiStep * meanSpacing im * Real.cos a)), z⟩ ∧
        gridNode res.right i j = some (pos3 rr cc zz) ∧
        zz = elevAlt altL el (R0 + i * (epiStep * meanSpacing im * Real.cos a) + j * (epiStep * meanSpacing im * Real.sin a))
          (C0 - i * (epiStep * meanSpacing im * Real.sin a) + j * (epiStep * meanSpacing im * Real.cos a)) ∧
        Homologous l r (R0 + i * (epiStep * meanSpacing im * Real.cos a) + j * (epiStep * meanSpacing im * Real.sin a))
          (C0 - i * (epiStep * meanSpacing im * Real.sin a) + j * (epiStep * meanSpacing im * Real.cos a)) zz rr cc) ∧
      (∀ i : ℕ, i < rows → ∃ r1 c1 : ℝ,
        (∀ (j : ℕ) (rr cc zz : ℝ), j < cols → gridNode res.right i j = some (pos3 rr cc zz) → OnLine r1 c1 er ec rr cc) ∧
        ∀ t z rr cc : ℝ, Homologous l r (R0 + i * (epiStep * meanSpacing im * Real.cos a) + t * Real.sin a)
            (C0 - i * (epiStep * meanSpacing im * Real.sin a) + t * Real.cos a) z rr cc → OnLine r1 c1 er ec rr cc) := by
  obtain ⟨res, rows, cols, R0, C0, a, er, ec, h, -, -, -, -, -, h2⟩ := affine_grids conv left right gl gr dl dr sl sr hl hr l r
    altL altR hL hR hdl hdr hview el im hsp epiStep off hst hoff margin hmg
  exact ⟨res, rows, cols, R0, C0, a, er, ec, h, h2⟩

/-- A model built from an affine sensor, with DTMs given by the altitude of the ground of each pixel. -/
noncomputable def affineGeo (s : AffineSensor ℝ) : Geo ℝ (ℝ → ℝ → ℝ) where
  epsg := 4326
  bounds := ((0, 0), (10, 10))
  directH := fun row col h =>
    let f := fun (r c z : Option ℝ) => (match r, c, z with
      | some r, some c, some z => pos3 (s.ground r c z).1 (s.ground r c z).2 z
      | _, _, _ => nanRow : ORow ℝ)
    match h with
    | [a] => .ok (List.zipWith (fun r c => f r c a) row col)
    | h => .ok ((row.zip (col.zip h)).map fun p => f p.1 p.2.1 p.2.2)
  directDtm := fun row col d => .ok (List.zipWith (fun r c => match r, c with
      | some r, some c => pos3 (s.ground r c (d r c)).1 (s.ground r c (d r c)).2 (d r c)
      | _, _ => nanRow) row col)
  inverse := fun lon lat h => .ok (some ((lon.zip (lat.zip h)).map fun p => match p with
      | (some x, some y, some z) => (some (affineImage s x y z).1, some (affineImage s x y z).2)
      | _ => (none, none)))

/-- The hypotheses of `C70_conjugate_rows` are met by every pair of affine sensors with distinct viewing directions. -/
theorem affineGeo_points (s : AffineSensor ℝ) (hs : s.det ≠ 0) : ∃ g gd se, LocatesEachPoint (affineGeo s) g gd se ∧
    IsAffine s (fun (d : ℝ → ℝ → ℝ) r c => d r c) g gd se := by
  refine ⟨fun r c z => match r, c, z with
      | some r, some c, some z => pos3 (s.ground r c z).1 (s.ground r c z).2 z
      | _, _, _ => nanRow,
    fun d r c => match r, c with
      | some r, some c => pos3 (s.ground r c (d r c)).1 (s.ground r c (d r c)).2 (d r c)
      | _, _ => nanRow,
    fun p => match (p.x, p.y, p.z) with
      | (some x, some y, some z) => (some (affineImage s x y z).1, some (affineImage s x y z).2)
      | _ => (none, none), ⟨fun row col a _ => rfl, fun p => ?_, fun row col d _ => rfl, fun g => ?_⟩, ⟨fun r c z => rfl, fun d r c => rfl, ?_⟩⟩
  · have key : ∀ p : List (ORow ℝ), ((p.map fun q => q.x).zip ((p.map fun q => q.y).zip (p.map fun q => q.z))) =
        p.map fun q => (q.x, q.y, q.z) := by
      intro p; rw [List.zip_map', List.zip_map']
    match p with
    | [] => rfl
    | [q] => rfl
    | q :: q' :: l =>
      have := key (q :: q' :: l)
      simp only [affineGeo, List.map_cons] at this ⊢
      rw [this]
      simp only [List.map_cons, List.map_map]
      rfl
  · simp only [affineGeo]
    rw [List.zip_map', List.zip_map', List.map_map]
    rfl
  · intro x y z r c h
    have h2 := affineImage_ground s hs x y z
    rw [← h] at h2
    simp only [AffineSensor.ground, Prod.mk.injEq] at h2
    have := solve_hom (x := (affineImage s x y z).1 - r) (y := (affineImage s x y z).2 - c) hs
      (by linarith [h2.1]) (by linarith [h2.2])
    simp only [pos3, Prod.mk.injEq, Option.some.injEq]
    exact ⟨by linarith [this.1], by linarith [this.2]⟩

/-- A vertical left view and a slanted right view of a rolling terrain. -/
example : ∃ (res : RectResult ℝ),
    stereoRectification realTrig (fun _ _ p => p) (affineGeo ⟨0, 1, 0, 0, 1, 0, 0, 0⟩) (affineGeo ⟨0, 1, 1 / 2, 0, 1, 0, 1 / 3, 0⟩)
      (UserElevation.dtm 4326 (fun r c => r * c)).arg ⟨5, 7, 1, 1, ⟨1, 0, 0, 0, 1, 0⟩⟩ 3 50 false 1 none = .ok res ∧
    2 ≤ res.left.length := by
  obtain ⟨g, gd, se, h1, h2⟩ := affineGeo_points ⟨0, 1, 0, 0, 1, 0, 0, 0⟩ (by norm_num [AffineSensor.det])
  obtain ⟨g', gd', se', h1', h2'⟩ := affineGeo_points ⟨0, 1, 1 / 2, 0, 1, 0, 1 / 3, 0⟩ (by norm_num [AffineSensor.det])
  obtain ⟨res, rows, cols, R0, C0, a, er, ec, h, -, hc, hl, -⟩ := C70_conjugate_rows (fun _ _ p => p) _ _ g g' gd gd' se se' h1 h1' _ _ _ _ h2 h2'
    (by norm_num [AffineSensor.det]) (by norm_num [AffineSensor.det]) (Or.inl (by norm_num))
    (.dtm 4326 (fun r c => r * c)) ⟨5, 7, 1, 1, ⟨1, 0, 0, 0, 1, 0⟩⟩ (by norm_num [meanSpacing]) 3 50 (by norm_num) (by norm_num) 1 (by norm_num)
  exact ⟨res, h, by omega⟩

end Shareloc
