import Verif.Props.Epipolarity

/-!
# C71 and C72: ground sampling distance and extent of the epipolar grids
-/

set_option linter.unusedSectionVars false

namespace Shareloc
open Shareloc.Spec

/-! ### C71: ground sampling distance -/

/-- Specification: the distance between two points, NaN if one has a NaN coordinate. -/
noncomputable def groundDistance (p q : ORow ℝ) : Option ℝ :=
  p.x.bind fun a => p.y.bind fun b => p.z.bind fun c => q.x.bind fun a' => q.y.bind fun b' => q.z.bind fun c' =>
    some (Real.sqrt ((a - a') ^ 2 + (b - b') ^ 2 + (c - c') ^ 2))

theorem oDist_real (p q : ORow ℝ) : oDist realTrig p q = groundDistance p q := by
  obtain ⟨_ | a, _ | b, _ | c⟩ := p <;> obtain ⟨_ | a', _ | b', _ | c'⟩ := q <;>
    simp only [oDist, groundDistance, Option.bind_none, Option.bind_some, realTrig]
  congr 2
  ring

/-- C71. For models that locate each point by itself, the sampling distances are the distances on the ground, in the geocentric
frame and at the altitude of the point, between the point and the points reached by one step of length `epiStep * spacing` across
(first distance) and along (second distance) the local epipolar direction. -/
theorem C71_gsd (m : Stereo ℝ) (fr : Option ℝ × Option ℝ → ORow ℝ × ORow ℝ) (fl : ORow ℝ → ORow ℝ) (hm : m.PointByPoint fr fl)
    (directH : List (Option ℝ) → List (Option ℝ) → List (Option ℝ) → Except RpcError (List (ORow ℝ)))
    (ground : Option ℝ → Option ℝ → Option ℝ → ORow ℝ)
    (hd : ∀ p : List (ORow ℝ), directH (p.map fun q => q.x) (p.map fun q => q.y) (p.map fun q => q.z) =
      .ok (p.map fun q => ground q.x q.y q.z))
    (toEcef : ORow ℝ → ORow ℝ) (row col : ℝ) (alt : Option ℝ) (spacing epiStep off a : ℝ)
    (ha : angleAt realTrig fr fl off ⟨some row, some col, alt⟩ = some a) :
    epipolarGsd realTrig m directH toEcef ⟨some row, some col, alt⟩ spacing epiStep off =
      .ok (groundDistance (toEcef (ground (some row) (some col) alt))
            (toEcef (ground (some (row + epiStep * spacing * Real.cos a)) (some (col - epiStep * spacing * Real.sin a)) alt)),
          groundDistance (toEcef (ground (some row) (some col) alt))
            (toEcef (ground (some (row + epiStep * spacing * Real.sin a)) (some (col + epiStep * spacing * Real.cos a)) alt))) := by
  have e0 : movePoint realTrig spacing epiStep 0 ⟨some row, some col, alt⟩ (some a) =
      ⟨some (row + epiStep * spacing * Real.cos a), some (col - epiStep * spacing * Real.sin a), alt⟩ := by
    have e1 : a + (1 - ((0 : ℤ) : ℝ)) * Real.pi / 2 = a + Real.pi / 2 := by push_cast; ring
    simp only [movePoint, olift2, Option.map_some, realTrig, e1, Real.sin_add_pi_div_two, Real.cos_add_pi_div_two]
    congr 2
    ring
  have e1 : movePoint realTrig spacing epiStep 1 ⟨some row, some col, alt⟩ (some a) =
      ⟨some (row + epiStep * spacing * Real.sin a), some (col + epiStep * spacing * Real.cos a), alt⟩ := by
    have e1 : a + (1 - ((1 : ℤ) : ℝ)) * Real.pi / 2 = a := by push_cast; ring
    simp only [movePoint, olift2, Option.map_some, realTrig, e1]
  unfold epipolarGsd
  rw [localEpipolarLine_points hm]
  simp only [List.map_cons, List.map_nil]
  unfold angleAt at ha
  rw [ha, e0, e1]
  have h3 := hd [⟨some row, some col, alt⟩,
    ⟨some (row + epiStep * spacing * Real.cos a), some (col - epiStep * spacing * Real.sin a), alt⟩,
    ⟨some (row + epiStep * spacing * Real.sin a), some (col + epiStep * spacing * Real.cos a), alt⟩]
  simp only [List.map_cons, List.map_nil] at h3
  simp only [h3, oDist_real]

/-- C71. When the ground moves by `g` for a move of one pixel in any direction (orthogonal axes of the same length `g`), both
distances are `g * epiStep * spacing`, whatever the epipolar direction. -/
theorem C71_gsd_square_pixels (m : Stereo ℝ) (fr : Option ℝ × Option ℝ → ORow ℝ × ORow ℝ) (fl : ORow ℝ → ORow ℝ)
    (hm : m.PointByPoint fr fl)
    (directH : List (Option ℝ) → List (Option ℝ) → List (Option ℝ) → Except RpcError (List (ORow ℝ)))
    (ground : Option ℝ → Option ℝ → Option ℝ → ORow ℝ)
    (hd : ∀ p : List (ORow ℝ), directH (p.map fun q => q.x) (p.map fun q => q.y) (p.map fun q => q.z) =
      .ok (p.map fun q => ground q.x q.y q.z))
    (toEcef : ORow ℝ → ORow ℝ) (row col : ℝ) (alt : Option ℝ) (spacing epiStep off a g : ℝ) (hg : 0 ≤ g)
    (hs : 0 ≤ spacing) (he : 0 ≤ epiStep) (o u v : V3 ℝ)
    (huu : u.x ^ 2 + u.y ^ 2 + u.z ^ 2 = g ^ 2) (hvv : v.x ^ 2 + v.y ^ 2 + v.z ^ 2 = g ^ 2)
    (huv : u.x * v.x + u.y * v.y + u.z * v.z = 0)
    (hE : ∀ r c, toEcef (ground (some r) (some c) alt) =
      pos3 (o.x + r * u.x + c * v.x) (o.y + r * u.y + c * v.y) (o.z + r * u.z + c * v.z))
    (ha : angleAt realTrig fr fl off ⟨some row, some col, alt⟩ = some a) :
    epipolarGsd realTrig m directH toEcef ⟨some row, some col, alt⟩ spacing epiStep off =
      .ok (some (g * (epiStep * spacing)), some (g * (epiStep * spacing))) := by
  rw [C71_gsd m fr fl hm directH ground hd toEcef row col alt spacing epiStep off a ha]
  simp only [hE, groundDistance, pos3, Option.bind_some]
  have hcs := Real.cos_sq_add_sin_sq a
  have hpos : 0 ≤ g * (epiStep * spacing) := by positivity
  congr 3
  · rw [← Real.sqrt_sq hpos]
    congr 1
    linear_combination (epiStep * spacing) ^ 2 * Real.cos a ^ 2 * huu + (epiStep * spacing) ^ 2 * Real.sin a ^ 2 * hvv
      - 2 * (epiStep * spacing) ^ 2 * Real.cos a * Real.sin a * huv + g ^ 2 * (epiStep * spacing) ^ 2 * hcs
  · rw [← Real.sqrt_sq hpos]
    congr 1
    linear_combination (epiStep * spacing) ^ 2 * Real.sin a ^ 2 * huu + (epiStep * spacing) ^ 2 * Real.cos a ^ 2 * hvv
      + 2 * (epiStep * spacing) ^ 2 * Real.cos a * Real.sin a * huv + g ^ 2 * (epiStep * spacing) ^ 2 * hcs

/-- C71, limit. Where the local epipolar line is not defined (NaN columns), no error is raised: the distances are those of an
epipolar line along the rows of the image. -/
theorem C71_nan_line_is_row (m : Stereo ℝ) (fr : Option ℝ × Option ℝ → ORow ℝ × ORow ℝ) (fl : ORow ℝ → ORow ℝ)
    (hm : m.PointByPoint fr fl)
    (directH : List (Option ℝ) → List (Option ℝ) → List (Option ℝ) → Except RpcError (List (ORow ℝ)))
    (ground : Option ℝ → Option ℝ → Option ℝ → ORow ℝ)
    (hd : ∀ p : List (ORow ℝ), directH (p.map fun q => q.x) (p.map fun q => q.y) (p.map fun q => q.z) =
      .ok (p.map fun q => ground q.x q.y q.z))
    (toEcef : ORow ℝ → ORow ℝ) (row col : ℝ) (alt : Option ℝ) (spacing epiStep off : ℝ)
    (hnan : (lineEnd fr fl off ⟨some row, some col, alt⟩).y = none) :
    epipolarGsd realTrig m directH toEcef ⟨some row, some col, alt⟩ spacing epiStep off =
      .ok (groundDistance (toEcef (ground (some row) (some col) alt))
            (toEcef (ground (some (row + epiStep * spacing)) (some col) alt)),
          groundDistance (toEcef (ground (some row) (some col) alt))
            (toEcef (ground (some row) (some (col + epiStep * spacing)) alt))) := by
  rw [C71_gsd m fr fl hm directH ground hd toEcef row col alt spacing epiStep off 0 (by simp [angleAt, epipolarAngle, hnan])]
  simp

/-- The hypotheses of the theorems of C71 are met: a vertical left view with pixels of size 1 and a slanted right view, step 3 and
spacing 1, at the altitude 20. -/
example : epipolarGsd realTrig (stereoOf (fun _ _ p => p) (affineGeo ⟨0, 1, 0, 0, 1, 0, 0, 0⟩) (affineGeo ⟨0, 1, 1 / 2, 0, 1, 0, 1 / 3, 0⟩)
      (UserElevation.dtm 4326 (fun r c => r * c)).arg) (affineGeo ⟨0, 1, 0, 0, 1, 0, 0, 0⟩).directH id (pos3 4 5 20) 1 3 50 =
    .ok (some 3, some 3) := by
  obtain ⟨g, gd, se, h1, h2⟩ := affineGeo_points ⟨0, 1, 0, 0, 1, 0, 0, 0⟩ (by norm_num [AffineSensor.det])
  obtain ⟨g', gd', se', h1', h2'⟩ := affineGeo_points ⟨0, 1, 1 / 2, 0, 1, 0, 1 / 3, 0⟩ (by norm_num [AffineSensor.det])
  obtain ⟨er, ec, ez, br, bc, bz, e1, e2, e3, e4⟩ := line_affine h2 h2' (by norm_num [AffineSensor.det]) (by norm_num [AffineSensor.det])
    (.dtm 4326 (fun r c => r * c)) 50 4 5 (some 20) _ _ rfl rfl
  have hne : er ≠ br ∨ ec ≠ bc := by
    norm_num [epiVector, AffineSensor.det] at e3 e4
    left; intro h; rw [h] at e3; norm_num at e3
  obtain ⟨a, ha, -⟩ := C42_angle_of_direction er ec ez br bc bz hne
  have h := C71_gsd_square_pixels _ _ _ (stereoOf_points h1 h1' (fun _ _ p => p) (.dtm 4326 (fun r c => r * c))) _ g h1.eachAlt id
    4 5 (some 20) 1 3 50 a 1 (by norm_num) (by norm_num) (by norm_num) ⟨0, 0, 20⟩ ⟨0, 1, 0⟩ ⟨1, 0, 0⟩ (by norm_num) (by norm_num)
    (by norm_num) (by intro r c; rw [h2.ground]; simp [AffineSensor.ground, pos3])
    (by unfold angleAt; rw [e1, e2]; exact ha)
  norm_num at h
  exact h

/-! ### C72: extent -/

variable {δ : Type*}

/-- C72. The extent is the smallest box, latitudes first, that contains the ground positions at altitude 0 of the four corners of
the grid, widened by the additional margin. -/
theorem C72_extent (conv : ℕ → ℕ → ORow ℝ → ORow ℝ) (left right : Geo ℝ δ)
    (gl gr : Option ℝ → Option ℝ → Option ℝ → ORow ℝ) (dl dr : δ → Option ℝ → Option ℝ → ORow ℝ)
    (sl sr : ORow ℝ → Option ℝ × Option ℝ) (hl : LocatesEachPoint left gl dl sl) (hr : LocatesEachPoint right gr dr sr)
    (el : UserElevation ℝ δ) (im : LeftImage ℝ) (hsp : 0 < meanSpacing im) (epiStep off : ℝ) (hst : 0 < epiStep) (margin : ℤ)
    (additional a : ℝ)
    (ha : angleAt realTrig (fun p => (seenAt sr (groundAt gl dl el p.1 p.2), groundAt gl dl el p.1 p.2))
      (fun p => seenAt sl (gr p.x p.y p.z)) off (leftOrigin im) = some a)
    (lon lat : V3 ℝ → ℝ)
    (hg : ∀ q ∈ (prepareRectification (Real.cos a) (Real.sin a) 0 im epiStep margin).footprint, ∃ z,
      gl (some q.x) (some q.y) (some 0) = ⟨some (lon q), some (lat q), z⟩) :
    ∃ latMin lonMin latMax lonMax : ℝ,
      extentOf realTrig conv left right el.arg im epiStep off margin additional =
        .ok (latMin - additional, lonMin - additional, latMax + additional, lonMax + additional) ∧
      (∀ q ∈ (prepareRectification (Real.cos a) (Real.sin a) 0 im epiStep margin).footprint,
        lonMin ≤ lon q ∧ lon q ≤ lonMax ∧ latMin ≤ lat q ∧ lat q ≤ latMax) ∧
      (∃ q ∈ (prepareRectification (Real.cos a) (Real.sin a) 0 im epiStep margin).footprint, lon q = lonMin) ∧
      (∃ q ∈ (prepareRectification (Real.cos a) (Real.sin a) 0 im epiStep margin).footprint, lon q = lonMax) ∧
      (∃ q ∈ (prepareRectification (Real.cos a) (Real.sin a) 0 im epiStep margin).footprint, lat q = latMin) ∧
      (∃ q ∈ (prepareRectification (Real.cos a) (Real.sin a) 0 im epiStep margin).footprint, lat q = latMax) := by
  have hm := stereoOf_points hl hr conv el
  have hp : prepareOf realTrig (stereoOf conv left right el.arg) im epiStep off margin =
      .ok (prepareRectification (Real.cos a) (Real.sin a) 0 im epiStep margin,
        olift2 (fun u v => (u + v) / 2) (lineStart (fun p => (seenAt sr (groundAt gl dl el p.1 p.2), groundAt gl dl el p.1 p.2))
          (fun p => seenAt sl (gr p.x p.y p.z)) off (leftOrigin im)).z
          (lineEnd (fun p => (seenAt sr (groundAt gl dl el p.1 p.2), groundAt gl dl el p.1 p.2))
          (fun p => seenAt sl (gr p.x p.y p.z)) off (leftOrigin im)).z) := by
    unfold prepareOf
    simp only
    rw [show (⟨some (indexToPhysical im.transform 0 0).1, some (indexToPhysical im.transform 0 0).2, none⟩ : ORow ℝ) = leftOrigin im
      from rfl, localEpipolarLine_points hm]
    simp only [List.map_cons, List.map_nil]
    unfold angleAt at ha
    rw [ha]
    simp only [hsp.ne', hst.ne', if_false]
    rfl
  have hne : (prepareRectification (Real.cos a) (Real.sin a) 0 im epiStep margin).footprint ≠ [] := by
    simp [prepareRectification]
  generalize prepareRectification (Real.cos a) (Real.sin a) 0 im epiStep margin = P at hp hg hne ⊢
  have hloc : Localization.direct conv ⟨left, (.missing : Elevation ℝ δ), some ⟨im.transform, im.nbRows, im.nbCols⟩, none⟩
      (P.footprint.map fun v => some v.x) (P.footprint.map fun v => some v.y) (some [some 0]) false =
      .ok (P.footprint.map fun v => gl (some v.x) (some v.y) (some 0)) := by
    simp only [Localization.direct, Localization.toPhysical, Localization.modelDirect]
    rw [hl.oneAlt _ _ _ (by simp)]
    simp only [Except.ok.injEq]
    rw [List.zipWith_map, List.zipWith_self]
  have hll : ∀ q ∈ P.footprint, lonLat (gl (some q.x) (some q.y) (some 0)) = some (lon q, lat q) := by
    intro q hq
    obtain ⟨z, hz⟩ := hg q hq
    rw [hz]; rfl
  have hany : (P.footprint.map fun v => gl (some v.x) (some v.y) (some 0)).any (fun q => (lonLat q).isNone) = false := by
    rw [List.any_eq_false]
    intro x hx
    obtain ⟨q, hq, rfl⟩ := List.mem_map.1 hx
    rw [hll q hq]; simp
  have hfm : (P.footprint.map fun v => gl (some v.x) (some v.y) (some 0)).filterMap lonLat = P.footprint.map fun q => (lon q, lat q) := by
    rw [List.filterMap_map]
    have : ∀ l : List (V3 ℝ), (∀ q ∈ l, lonLat (gl (some q.x) (some q.y) (some 0)) = some (lon q, lat q)) →
        l.filterMap (lonLat ∘ fun v => gl (some v.x) (some v.y) (some 0)) = l.map fun q => (lon q, lat q) := by
      intro l
      induction l with
      | nil => simp
      | cons x xs ih =>
        intro h
        rw [List.filterMap_cons, Function.comp_apply, h x (by simp)]
        simp only [List.map_cons]
        rw [ih fun q hq => h q (by simp [hq])]
    exact this _ hll
  obtain ⟨r, hr'⟩ : ∃ r, epipolarExtent (P.footprint.map fun q => (lon q, lat q)) additional = some r := by
    cases hf : P.footprint with
    | nil => exact absurd hf hne
    | cons x xs => exact ⟨_, rfl⟩
  obtain ⟨latMin, lonMin, latMax, lonMax⟩ := r
  obtain ⟨c0, c1, c2, c3, c4⟩ := C46_extent _ _ _ _ _ _ hr'
  refine ⟨latMin + additional, lonMin + additional, latMax - additional, lonMax - additional, ?_, ?_, ?_, ?_, ?_, ?_⟩
  · unfold extentOf
    rw [hp]
    simp only
    rw [hloc]
    simp only
    rw [hany, hfm, hr']
    simp
  · intro q hq
    exact c0 _ (List.mem_map_of_mem hq)
  · obtain ⟨p, hp', h⟩ := c1
    obtain ⟨q, hq, rfl⟩ := List.mem_map.1 hp'
    exact ⟨q, hq, h⟩
  · obtain ⟨p, hp', h⟩ := c2
    obtain ⟨q, hq, rfl⟩ := List.mem_map.1 hp'
    exact ⟨q, hq, h⟩
  · obtain ⟨p, hp', h⟩ := c3
    obtain ⟨q, hq, rfl⟩ := List.mem_map.1 hp'
    exact ⟨q, hq, h⟩
  · obtain ⟨p, hp', h⟩ := c4
    obtain ⟨q, hq, rfl⟩ := List.mem_map.1 hp'
    exact ⟨q, hq, h⟩

/-- An affine function on a rectangle is between its values at the corners. -/
theorem affine_between_corners {A B C x0 x1 y0 y1 x y lo hi : ℝ} (hx : x0 ≤ x) (hx' : x ≤ x1) (hy : y0 ≤ y) (hy' : y ≤ y1)
    (h00 : lo ≤ A * x0 + B * y0 + C ∧ A * x0 + B * y0 + C ≤ hi) (h10 : lo ≤ A * x1 + B * y0 + C ∧ A * x1 + B * y0 + C ≤ hi)
    (h11 : lo ≤ A * x1 + B * y1 + C ∧ A * x1 + B * y1 + C ≤ hi) (h01 : lo ≤ A * x0 + B * y1 + C ∧ A * x0 + B * y1 + C ≤ hi) :
    lo ≤ A * x + B * y + C ∧ A * x + B * y + C ≤ hi := by
  have kx : ∀ D : ℝ, min (D * x0) (D * x1) ≤ D * x ∧ D * x ≤ max (D * x0) (D * x1) := by
    intro D
    rcases le_total 0 D with hD | hD
    · exact ⟨min_le_of_left_le (mul_le_mul_of_nonneg_left hx hD), le_max_of_le_right (mul_le_mul_of_nonneg_left hx' hD)⟩
    · exact ⟨min_le_of_right_le (mul_le_mul_of_nonpos_left hx' hD), le_max_of_le_left (mul_le_mul_of_nonpos_left hx hD)⟩
  have ky : ∀ D : ℝ, min (D * y0) (D * y1) ≤ D * y ∧ D * y ≤ max (D * y0) (D * y1) := by
    intro D
    rcases le_total 0 D with hD | hD
    · exact ⟨min_le_of_left_le (mul_le_mul_of_nonneg_left hy hD), le_max_of_le_right (mul_le_mul_of_nonneg_left hy' hD)⟩
    · exact ⟨min_le_of_right_le (mul_le_mul_of_nonpos_left hy' hD), le_max_of_le_left (mul_le_mul_of_nonpos_left hy hD)⟩
  obtain ⟨a1, a2⟩ := kx A
  obtain ⟨b1, b2⟩ := ky B
  rcases min_choice (A * x0) (A * x1) with e1 | e1 <;> rcases max_choice (A * x0) (A * x1) with e2 | e2 <;>
    rcases min_choice (B * y0) (B * y1) with e3 | e3 <;> rcases max_choice (B * y0) (B * y1) with e4 | e4 <;>
    rw [e1] at a1 <;> rw [e2] at a2 <;> rw [e3] at b1 <;> rw [e4] at b2 <;>
    exact ⟨by linarith [h00.1, h10.1, h11.1, h01.1], by linarith [h00.2, h10.2, h11.2, h01.2]⟩

/-- The ground at altitude 0 of the affine sensor at the epipolar coordinates (x, y). -/
theorem affine_epi (l : AffineSensor ℝ) (c s : ℝ) (o : ℝ × ℝ) (alt x y : ℝ) :
    (l.ground (epiToImage c s o alt x y).x (epiToImage c s o alt x y).y 0).1 =
      (l.a * s + l.b * c) * x + (l.a * c - l.b * s) * y + (l.a * o.1 + l.b * o.2 + l.u) ∧
    (l.ground (epiToImage c s o alt x y).x (epiToImage c s o alt x y).y 0).2 =
      (l.a' * s + l.b' * c) * x + (l.a' * c - l.b' * s) * y + (l.a' * o.1 + l.b' * o.2 + l.u') := by
  constructor <;> simp only [AffineSensor.ground, epiToImage] <;> ring

/-- Every node of a regular grid of step `epiStep * spacing` along the axes of the preparation is in its footprint, when the
spacing of the image is at most one. -/
theorem node_in_footprint (c s : ℝ) (im : LeftImage ℝ) (hsp : 0 < meanSpacing im) (hsp1 : meanSpacing im ≤ 1) (epiStep : ℝ)
    (hst : 0 < epiStep) (margin : ℤ) (P : Prepared ℝ) (hP : P = prepareRectification c s 0 im epiStep margin) (i j : ℕ)
    (hi : (i : ℤ) < P.gridRows) (hj : (j : ℤ) < P.gridCols) :
    ∃ x0 y0 x1 y1 x y, let o := indexToPhysical im.transform 0 0
      P.footprint = [epiToImage c s o 0 x0 y0, epiToImage c s o 0 x1 y0, epiToImage c s o 0 x1 y1, epiToImage c s o 0 x0 y1] ∧
      x0 ≤ x ∧ x ≤ x1 ∧ y0 ≤ y ∧ y ≤ y1 ∧
      P.start.x + i * (epiStep * meanSpacing im * c) + j * (epiStep * meanSpacing im * s) = (epiToImage c s o 0 x y).x ∧
      P.start.y - i * (epiStep * meanSpacing im * s) + j * (epiStep * meanSpacing im * c) = (epiToImage c s o 0 x y).y := by
  obtain ⟨-, -, -, -, -, -, g1, g2⟩ := C46_grid_covers_epipolar_image c s 0 im epiStep hst margin
  obtain ⟨e1, e2, -⟩ := C46_grid_covers_epipolar_image c s 0 im epiStep hst margin
  rw [← hP] at g1 g2 e1 e2
  set sp := meanSpacing im with hsp'
  set b := epipolarBox c s im with hb
  have f1 := Int.floor_le ((b.maxy - b.miny) / sp)
  have f2 := Int.floor_le ((b.maxx - b.minx) / sp)
  rw [← e1, le_div_iff₀ hsp] at f1
  rw [← e2, le_div_iff₀ hsp] at f2
  have hi' : (i : ℝ) ≤ (P.gridRows : ℝ) - 1 := by
    have : (i : ℤ) ≤ P.gridRows - 1 := by omega
    exact_mod_cast this
  have hj' : (j : ℝ) ≤ (P.gridCols : ℝ) - 1 := by
    have : (j : ℤ) ≤ P.gridCols - 1 := by omega
    exact_mod_cast this
  have hh : 0 < epiStep * sp := by positivity
  have hle : epiStep * sp ≤ epiStep := by nlinarith
  have key : ∀ (n k size ext : ℝ), n ≤ k - 1 → (k - 2 - 2 * margin) * epiStep ≤ size → size * sp ≤ ext →
      n * (epiStep * sp) ≤ ext + 2 * (margin * epiStep * sp) + epiStep := by
    intro n k size ext h1 h2 h3
    have h4 := mul_le_mul_of_nonneg_right h2 hsp.le
    have h5 := mul_le_mul_of_nonneg_right h1 hh.le
    nlinarith
  have k1 := key i _ _ _ hi' g1 f1
  have k2 := key j _ _ _ hj' g2 f2
  have hi0 : (0 : ℝ) ≤ i * (epiStep * sp) := by positivity
  have hj0 : (0 : ℝ) ≤ j * (epiStep * sp) := by positivity
  refine ⟨b.minx - margin * epiStep * sp, b.miny - margin * epiStep * sp, b.maxx + margin * epiStep * sp + epiStep,
    b.maxy + margin * epiStep * sp + epiStep, b.minx - margin * epiStep * sp + j * (epiStep * sp),
    b.miny - margin * epiStep * sp + i * (epiStep * sp), ?_, by linarith, by linarith, by linarith, by linarith, ?_, ?_⟩
  · rw [hP]; rfl
  · rw [hP]
    simp only [prepareRectification, epiToImage, ← hsp', ← hb]
    ring
  · rw [hP]
    simp only [prepareRectification, epiToImage, ← hsp', ← hb]
    ring

/-- C72. For two affine sensors with different viewing directions, the extent contains the ground position at altitude 0 of every
pixel of the left image, if it is not rotated, and of every node of the left grid, if the spacing of the left image is at most 1.
Missing: the nodes for larger spacings (`C72_large_pixels_counterexample`) and rotated images. -/
theorem C72_extent_covers_partial (conv : ℕ → ℕ → ORow ℝ → ORow ℝ) (left right : Geo ℝ δ)
    (gl gr : Option ℝ → Option ℝ → Option ℝ → ORow ℝ) (dl dr : δ → Option ℝ → Option ℝ → ORow ℝ)
    (sl sr : ORow ℝ → Option ℝ × Option ℝ) (hl : LocatesEachPoint left gl dl sl) (hr : LocatesEachPoint right gr dr sr)
    (l r : AffineSensor ℝ) (altL altR : δ → ℝ → ℝ → ℝ) (hL : IsAffine l altL gl dl sl) (hR : IsAffine r altR gr dr sr)
    (hdl : l.det ≠ 0) (hdr : r.det ≠ 0) (hview : l.p ≠ r.p ∨ l.p' ≠ r.p')
    (el : UserElevation ℝ δ) (im : LeftImage ℝ) (hsp : 0 < meanSpacing im) (epiStep off : ℝ) (hst : 0 < epiStep) (hoff : off ≠ 0)
    (margin : ℤ) (hmg : 0 ≤ margin) (additional : ℝ) (hadd : 0 ≤ additional) :
    ∃ (res : RectResult ℝ) (latMin lonMin latMax lonMax : ℝ),
      stereoRectification realTrig conv left right el.arg im epiStep off false margin none = .ok res ∧
      extentOf realTrig conv left right el.arg im epiStep off margin additional = .ok (latMin, lonMin, latMax, lonMax) ∧
      (im.Straight → ∀ i j : ℕ, i < im.nbRows → j < im.nbCols →
        lonMin ≤ (l.ground (indexToPhysical im.transform i j).1 (indexToPhysical im.transform i j).2 0).1 ∧
        (l.ground (indexToPhysical im.transform i j).1 (indexToPhysical im.transform i j).2 0).1 ≤ lonMax ∧
        latMin ≤ (l.ground (indexToPhysical im.transform i j).1 (indexToPhysical im.transform i j).2 0).2 ∧
        (l.ground (indexToPhysical im.transform i j).1 (indexToPhysical im.transform i j).2 0).2 ≤ latMax) ∧
      (meanSpacing im ≤ 1 → ∀ (i j : ℕ) (rr cc : ℝ) (z : Option ℝ), gridNode res.left i j = some ⟨some rr, some cc, z⟩ →
        lonMin ≤ (l.ground rr cc 0).1 ∧ (l.ground rr cc 0).1 ≤ lonMax ∧ latMin ≤ (l.ground rr cc 0).2 ∧ (l.ground rr cc 0).2 ≤ latMax) := by
  obtain ⟨res, rows, cols, R0, C0, a, er, ec, h1, ha, hR0, hC0, hrows, hcols, -, -, l1, -, l3, -, -, hnode, -⟩ :=
    affine_grids conv left right gl gr dl dr sl sr hl hr l r altL altR hL hR hdl hdr hview el im hsp epiStep off hst hoff margin hmg
  obtain ⟨latMin, lonMin, latMax, lonMax, h2, hin, -⟩ := C72_extent conv left right gl gr dl dr sl sr hl hr el im hsp epiStep off hst
    margin additional a ha (fun q => (l.ground q.x q.y 0).1) (fun q => (l.ground q.x q.y 0).2)
    (fun q _ => ⟨some 0, by rw [hL.ground]; rfl⟩)
  have main : ∀ x0 y0 x1 y1 x y : ℝ, (prepareRectification (Real.cos a) (Real.sin a) 0 im epiStep margin).footprint =
        [epiToImage (Real.cos a) (Real.sin a) (indexToPhysical im.transform 0 0) 0 x0 y0,
         epiToImage (Real.cos a) (Real.sin a) (indexToPhysical im.transform 0 0) 0 x1 y0,
         epiToImage (Real.cos a) (Real.sin a) (indexToPhysical im.transform 0 0) 0 x1 y1,
         epiToImage (Real.cos a) (Real.sin a) (indexToPhysical im.transform 0 0) 0 x0 y1] →
      x0 ≤ x → x ≤ x1 → y0 ≤ y → y ≤ y1 → ∀ rr cc,
      rr = (epiToImage (Real.cos a) (Real.sin a) (indexToPhysical im.transform 0 0) 0 x y).x →
      cc = (epiToImage (Real.cos a) (Real.sin a) (indexToPhysical im.transform 0 0) 0 x y).y →
      lonMin - additional ≤ (l.ground rr cc 0).1 ∧ (l.ground rr cc 0).1 ≤ lonMax + additional ∧
      latMin - additional ≤ (l.ground rr cc 0).2 ∧ (l.ground rr cc 0).2 ≤ latMax + additional := by
    rintro x0 y0 x1 y1 x y hf k1 k2 k3 k4 rr cc rfl rfl
    rw [hf] at hin
    have c00 := hin _ (by simp : epiToImage (Real.cos a) (Real.sin a) (indexToPhysical im.transform 0 0) 0 x0 y0 ∈ _)
    have c10 := hin (epiToImage (Real.cos a) (Real.sin a) (indexToPhysical im.transform 0 0) 0 x1 y0) (by simp)
    have c11 := hin (epiToImage (Real.cos a) (Real.sin a) (indexToPhysical im.transform 0 0) 0 x1 y1) (by simp)
    have c01 := hin (epiToImage (Real.cos a) (Real.sin a) (indexToPhysical im.transform 0 0) 0 x0 y1) (by simp)
    simp only [(affine_epi l _ _ _ _ _ _).1, (affine_epi l _ _ _ _ _ _).2] at c00 c10 c11 c01 ⊢
    have lonB := affine_between_corners k1 k2 k3 k4 ⟨c00.1, c00.2.1⟩ ⟨c10.1, c10.2.1⟩ ⟨c11.1, c11.2.1⟩ ⟨c01.1, c01.2.1⟩
    have latB := affine_between_corners k1 k2 k3 k4 c00.2.2 c10.2.2 c11.2.2 c01.2.2
    exact ⟨by linarith [lonB.1], by linarith [lonB.2], by linarith [latB.1], by linarith [latB.2]⟩
  refine ⟨res, _, _, _, _, h1, h2, fun him i j hi hj => ?_, fun hsp1 i j rr cc z hn => ?_⟩
  · obtain ⟨x0, y0, x1, y1, x, y, -, hf, k1, k2, k3, k4, k5⟩ := C46_pixel_in_footprint (Real.cos a) (Real.sin a) 0
      (by nlinarith [Real.cos_sq_add_sin_sq a]) im him epiStep hst.le margin hmg i j hi hj
    exact main _ _ _ _ _ _ hf k1 k2 k3 k4 _ _ (by rw [k5]) (by rw [k5])
  · have hj : j < cols := by
      by_contra hcon
      have : res.left[j]? = none := List.getElem?_eq_none (by omega)
      simp [gridNode, this] at hn
    have hi : i < rows := by
      by_contra hcon
      obtain ⟨c, hc⟩ : ∃ c, res.left[j]? = some c := ⟨_, List.getElem?_eq_getElem (by omega)⟩
      have := l3 c (List.mem_of_getElem? hc)
      have h0 : c[i]? = none := List.getElem?_eq_none (by omega)
      simp [gridNode, hc, h0] at hn
    obtain ⟨z', -, -, -, hn', -⟩ := hnode i j hi hj
    rw [hn] at hn'
    simp only [Option.some.injEq, V3.mk.injEq] at hn'
    obtain ⟨q1, q2, -⟩ := hn'
    obtain ⟨x0, y0, x1, y1, x, y, hf, k1, k2, k3, k4, k5, k6⟩ := node_in_footprint (Real.cos a) (Real.sin a) im hsp hsp1 epiStep hst
      margin _ rfl i j (by omega) (by omega)
    rw [← hR0] at k5
    rw [← hC0] at k6
    exact main _ _ _ _ _ _ hf k1 k2 k3 k4 _ _ (by rw [q1, k5]) (by rw [q2, k6])

/-- C72 needs a spacing of at most one: the footprint is widened by `epiStep` pixels whatever the spacing, so that for an image
whose pixels have size 2 the last node of the first row is outside the footprint. -/
theorem C72_large_pixels_counterexample :
    let im : LeftImage ℚ := ⟨10, 10, 2, 2, ⟨2, 0, 0, 0, 2, 0⟩⟩
    let P := prepareRectification (1 : ℚ) 0 0 im 5 0
    P.gridCols = 4 ∧ (∀ q ∈ P.footprint, q.y ≤ 26) ∧ P.start.y + 3 * (5 * meanSpacing im) = 31 := by
  decide +kernel

/-- The hypotheses of `C72_extent_covers_partial` are met by a vertical left view and a slanted right view over a rolling terrain. -/
example : ∃ (res : RectResult ℝ) (latMin lonMin latMax lonMax : ℝ),
    stereoRectification realTrig (fun _ _ p => p) (affineGeo ⟨0, 1, 0, 0, 1, 0, 0, 0⟩) (affineGeo ⟨0, 1, 1 / 2, 0, 1, 0, 1 / 3, 0⟩)
      (UserElevation.dtm 4326 (fun r c => r * c)).arg ⟨5, 7, 1, 1, ⟨1, 0, 0, 0, 1, 0⟩⟩ 3 50 false 1 none = .ok res ∧
    extentOf realTrig (fun _ _ p => p) (affineGeo ⟨0, 1, 0, 0, 1, 0, 0, 0⟩) (affineGeo ⟨0, 1, 1 / 2, 0, 1, 0, 1 / 3, 0⟩)
      (UserElevation.dtm 4326 (fun r c => r * c)).arg ⟨5, 7, 1, 1, ⟨1, 0, 0, 0, 1, 0⟩⟩ 3 50 1 (1 / 10) = .ok (latMin, lonMin, latMax, lonMax) ∧
    lonMin ≤ (13 / 2 : ℝ) ∧ (13 / 2 : ℝ) ≤ lonMax ∧ latMin ≤ (9 / 2 : ℝ) ∧ (9 / 2 : ℝ) ≤ latMax := by
  obtain ⟨g, gd, se, h1, h2⟩ := affineGeo_points ⟨0, 1, 0, 0, 1, 0, 0, 0⟩ (by norm_num [AffineSensor.det])
  obtain ⟨g', gd', se', h1', h2'⟩ := affineGeo_points ⟨0, 1, 1 / 2, 0, 1, 0, 1 / 3, 0⟩ (by norm_num [AffineSensor.det])
  obtain ⟨res, a, b, c, d, h, he, hp, -⟩ := C72_extent_covers_partial (fun _ _ p => p) _ _ g g' gd gd' se se' h1 h1' _ _ _ _ h2 h2'
    (by norm_num [AffineSensor.det]) (by norm_num [AffineSensor.det]) (Or.inl (by norm_num))
    (.dtm 4326 (fun r c => r * c)) ⟨5, 7, 1, 1, ⟨1, 0, 0, 0, 1, 0⟩⟩ (by norm_num [meanSpacing]) 3 50 (by norm_num) (by norm_num) 1 (by norm_num)
    (1 / 10) (by norm_num)
  have := hp (by simp [LeftImage.Straight]) 4 6 (by norm_num) (by norm_num)
  norm_num [AffineSensor.ground, indexToPhysical, Affine.apply] at this
  exact ⟨res, a, b, c, d, h, he, this.1, this.2.1, this.2.2.1, this.2.2.2⟩

end Shareloc
