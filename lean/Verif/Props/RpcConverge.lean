import Verif.Props.RpcLocalization
import Verif.Lemmas.Lipschitz
import Mathlib.Analysis.Calculus.MeanValue
import Mathlib.Topology.MetricSpace.Contracting

/-!
# C76: convergence of the direct location by the inverse coefficients of an RPC
-/

set_option linter.unusedSectionVars false

namespace Shareloc
open Spec

/-! ### Specification -/

/-- A longitude and a latitude in a rectangle. -/
def InRect (lon0 lon1 lat0 lat1 lon lat : ℝ) : Prop := lon0 ≤ lon ∧ lon ≤ lon1 ∧ lat0 ≤ lat ∧ lat ≤ lat1

/-- Over a rectangle of longitudes and latitudes, at the altitude `alt`, the image of the ground by the inverse rational functions is
nearly affine: it is defined and its four partial derivatives are `colLon`, `colLat`, `rowLon`, `rowLat` up to `ε`, where
`δ`, the size of the inverse of this matrix times `ε`, is less than one third. -/
structure NearlyAffine (r : Rpc ℝ) (q : RatCoefs ℝ) (alt lon0 lon1 lat0 lat1 colLon colLat rowLon rowLat ε δ : ℝ) : Prop where
  hdef : ∀ lon lat, InRect lon0 lon1 lat0 lat1 lon lat → RatDefined r q lon lat alt
  hcolLon : ∀ lon lat, InRect lon0 lon1 lat0 lat1 lon lat → |deriv (fun t => imgCol r q t lat alt) lon - colLon| ≤ ε
  hcolLat : ∀ lon lat, InRect lon0 lon1 lat0 lat1 lon lat → |deriv (fun t => imgCol r q lon t alt) lat - colLat| ≤ ε
  hrowLon : ∀ lon lat, InRect lon0 lon1 lat0 lat1 lon lat → |deriv (fun t => imgRow r q t lat alt) lon - rowLon| ≤ ε
  hrowLat : ∀ lon lat, InRect lon0 lon1 lat0 lat1 lon lat → |deriv (fun t => imgRow r q lon t alt) lat - rowLat| ≤ ε
  hvalid : -180 ≤ lon0 ∧ lon1 ≤ 180 ∧ -90 ≤ lat0 ∧ lat1 ≤ 90
  hε : 0 ≤ ε
  hdet : colLon * rowLat - colLat * rowLon ≠ 0
  hδ : δ = (|colLon| + |colLat| + |rowLon| + |rowLat|) / |colLon * rowLat - colLat * rowLon| * ε
  hsmall : δ < 1 / 3

/-- The distance of two ground points: in longitude plus in latitude. -/
def groundDist (lon lat lon' lat' : ℝ) : ℝ := |lon' - lon| + |lat' - lat|

/-- The square of half side `ρ` around a ground point is in the rectangle. -/
def RoomAround (lon0 lon1 lat0 lat1 ρ lon lat : ℝ) : Prop := lon0 ≤ lon - ρ ∧ lon + ρ ≤ lon1 ∧ lat0 ≤ lat - ρ ∧ lat + ρ ≤ lat1

section
variable {r : Rpc ℝ} {q : RatCoefs ℝ} {alt lon0 lon1 lat0 lat1 colLon colLat rowLon rowLat ε δ : ℝ}

theorem RoomAround.inRect {ρ lon lat lon' lat' : ℝ} (h : RoomAround lon0 lon1 lat0 lat1 ρ lon lat)
    (hd : groundDist lon lat lon' lat' ≤ ρ) : InRect lon0 lon1 lat0 lat1 lon' lat' := by
  unfold groundDist at hd
  have h1 := abs_nonneg (lon' - lon)
  have h2 := abs_nonneg (lat' - lat)
  have h3 := abs_le.1 (by linarith : |lon' - lon| ≤ ρ)
  have h4 := abs_le.1 (by linarith : |lat' - lat| ≤ ρ)
  obtain ⟨a, b, c, d⟩ := h
  exact ⟨by linarith, by linarith, by linarith, by linarith⟩

/-- The increments of a function of two variables whose partial derivatives are nearly constant on a rectangle. -/
theorem increment_bound (f : ℝ → ℝ → ℝ) (fx fy : ℝ → ℝ → ℝ) (a b ε lon0 lon1 lat0 lat1 : ℝ)
    (hx : ∀ x y, InRect lon0 lon1 lat0 lat1 x y → HasDerivAt (fun t => f t y) (fx x y) x ∧ |fx x y - a| ≤ ε)
    (hy : ∀ x y, InRect lon0 lon1 lat0 lat1 x y → HasDerivAt (fun t => f x t) (fy x y) y ∧ |fy x y - b| ≤ ε)
    (x y x' y' : ℝ) (h : InRect lon0 lon1 lat0 lat1 x y) (h' : InRect lon0 lon1 lat0 lat1 x' y') :
    |f x' y' - f x y - (a * (x' - x) + b * (y' - y))| ≤ ε * (|x' - x| + |y' - y|) := by
  have main : ∀ (g g' : ℝ → ℝ) (c lo hi : ℝ), (∀ t, lo ≤ t → t ≤ hi → HasDerivAt g (g' t) t ∧ |g' t - c| ≤ ε) →
      ∀ s t, lo ≤ s → s ≤ hi → lo ≤ t → t ≤ hi → |g t - g s - c * (t - s)| ≤ ε * |t - s| := by
    intro g g' c lo hi hg s t s0 s1 t0 t1
    have := Convex.norm_image_sub_le_of_norm_hasDerivWithin_le (f := fun t => g t - c * t) (f' := fun t => g' t - c) (C := ε)
      (s := Set.Icc lo hi) (x := s) (y := t)
      (fun u hu => (((hg u hu.1 hu.2).1.sub ((hasDerivAt_id u).const_mul c)).congr_deriv (by simp)).hasDerivWithinAt)
      (fun u hu => by rw [Real.norm_eq_abs]; exact (hg u hu.1 hu.2).2) (convex_Icc lo hi) ⟨s0, s1⟩ ⟨t0, t1⟩
    rw [Real.norm_eq_abs, Real.norm_eq_abs] at this
    calc |g t - g s - c * (t - s)| = |g t - c * t - (g s - c * s)| := by congr 1; ring
      _ ≤ _ := this
  obtain ⟨a1, a2, a3, a4⟩ := h
  obtain ⟨b1, b2, b3, b4⟩ := h'
  have h1 := main (fun t => f t y') (fun t => fx t y') a lon0 lon1 (fun t t0 t1 => hx t y' ⟨t0, t1, b3, b4⟩) x x' a1 a2 b1 b2
  have h2 := main (fun t => f x t) (fun t => fy x t) b lat0 lat1 (fun t t0 t1 => hy x t ⟨a1, a2, t0, t1⟩) y y' a3 a4 b3 b4
  beta_reduce at h1 h2
  have e : f x' y' - f x y - (a * (x' - x) + b * (y' - y)) = (f x' y' - f x y' - a * (x' - x)) + (f x y' - f x y - b * (y' - y)) := by ring
  rw [e]
  refine (abs_add_le _ _).trans ?_
  linarith

theorem NearlyAffine.derivs (h : NearlyAffine r q alt lon0 lon1 lat0 lat1 colLon colLat rowLon rowLat ε δ) (lon lat : ℝ)
    (hin : InRect lon0 lon1 lat0 lat1 lon lat) :
    |(invDerivPy r q lon lat alt).1 - colLon| ≤ ε ∧ |(invDerivPy r q lon lat alt).2.1 - colLat| ≤ ε ∧
    |(invDerivPy r q lon lat alt).2.2.1 - rowLon| ≤ ε ∧ |(invDerivPy r q lon lat alt).2.2.2 - rowLat| ≤ ε := by
  obtain ⟨h1, h2, h3, h4⟩ := C20_inverse_derivatives r q lon lat alt (h.hdef lon lat hin)
  rw [← h1.deriv, ← h2.deriv, ← h3.deriv, ← h4.deriv]
  exact ⟨h.hcolLon lon lat hin, h.hcolLat lon lat hin, h.hrowLon lon lat hin, h.hrowLat lon lat hin⟩

theorem NearlyAffine.increments (h : NearlyAffine r q alt lon0 lon1 lat0 lat1 colLon colLat rowLon rowLat ε δ) (lon lat lon' lat' : ℝ)
    (hin : InRect lon0 lon1 lat0 lat1 lon lat) (hin' : InRect lon0 lon1 lat0 lat1 lon' lat') :
    |imgCol r q lon' lat' alt - imgCol r q lon lat alt - (colLon * (lon' - lon) + colLat * (lat' - lat))| ≤
      ε * groundDist lon lat lon' lat' ∧
    |imgRow r q lon' lat' alt - imgRow r q lon lat alt - (rowLon * (lon' - lon) + rowLat * (lat' - lat))| ≤
      ε * groundDist lon lat lon' lat' := by
  constructor
  · exact increment_bound (fun x y => imgCol r q x y alt) (fun x y => (invDerivPy r q x y alt).1) (fun x y => (invDerivPy r q x y alt).2.1)
      colLon colLat ε lon0 lon1 lat0 lat1
      (fun x y hxy => ⟨(C20_inverse_derivatives r q x y alt (h.hdef x y hxy)).1, (h.derivs x y hxy).1⟩)
      (fun x y hxy => ⟨(C20_inverse_derivatives r q x y alt (h.hdef x y hxy)).2.1, (h.derivs x y hxy).2.1⟩) lon lat lon' lat' hin hin'
  · exact increment_bound (fun x y => imgRow r q x y alt) (fun x y => (invDerivPy r q x y alt).2.2.1)
      (fun x y => (invDerivPy r q x y alt).2.2.2) rowLon rowLat ε lon0 lon1 lat0 lat1
      (fun x y hxy => ⟨(C20_inverse_derivatives r q x y alt (h.hdef x y hxy)).2.2.1, (h.derivs x y hxy).2.2.1⟩)
      (fun x y hxy => ⟨(C20_inverse_derivatives r q x y alt (h.hdef x y hxy)).2.2.2, (h.derivs x y hxy).2.2.2⟩) lon lat lon' lat' hin hin'

theorem NearlyAffine.delta_eq (h : NearlyAffine r q alt lon0 lon1 lat0 lat1 colLon colLat rowLon rowLat ε δ) :
    δ = invSize colLon colLat rowLon rowLat * ε := h.hδ

theorem NearlyAffine.delta_nonneg (h : NearlyAffine r q alt lon0 lon1 lat0 lat1 colLon colLat rowLon rowLat ε δ) : 0 ≤ δ := by
  rw [h.delta_eq]; exact mul_nonneg (invSize_nonneg _ _ _ _) h.hε

/-- The factor by which the error decreases. -/
noncomputable def contraction (δ : ℝ) : ℝ := 2 * δ / (1 - δ)

theorem NearlyAffine.contraction (h : NearlyAffine r q alt lon0 lon1 lat0 lat1 colLon colLat rowLon rowLat ε δ) :
    0 ≤ contraction δ ∧ contraction δ < 1 := by
  have h0 := h.delta_nonneg
  have h1 := h.hsmall
  unfold Shareloc.contraction
  refine ⟨div_nonneg (by linarith) (by linarith), ?_⟩
  rw [div_lt_one (by linarith)]
  linarith

theorem NearlyAffine.valid (h : NearlyAffine r q alt lon0 lon1 lat0 lat1 colLon colLat rowLon rowLat ε δ) {lon lat : ℝ}
    (hin : InRect lon0 lon1 lat0 lat1 lon lat) : ValidLonLat lon lat := by
  obtain ⟨a, b, c, d⟩ := hin
  obtain ⟨v1, v2, v3, v4⟩ := h.hvalid
  exact ⟨abs_le.2 ⟨by linarith, by linarith⟩, abs_le.2 ⟨by linarith, by linarith⟩⟩

/-- The state of the iteration at a point. -/
noncomputable def stateAt (r : Rpc ℝ) (q : RatCoefs ℝ) (p : ImgPt ℝ) (alt lon lat : ℝ) : Newton ℝ :=
  ⟨some lon, some lat, some (p.col - imgCol r q lon lat alt), some (p.row - imgRow r q lon lat alt)⟩

/-- One turn of the loop from a point near the ground point of the pixel. -/
theorem NearlyAffine.step (h : NearlyAffine r q alt lon0 lon1 lat0 lat1 colLon colLat rowLon rowLat ε δ) (glon glat ρ : ℝ)
    (hroom : RoomAround lon0 lon1 lat0 lat1 ρ glon glat) (p : ImgPt ℝ) (hp : p.alt = some alt) (hcol : p.col = imgCol r q glon glat alt)
    (hrow : p.row = imgRow r q glon glat alt) (lon lat : ℝ) (hd : groundDist glon glat lon lat ≤ ρ) :
    ∃ lon' lat', groundDist glon glat lon' lat' ≤ Shareloc.contraction δ * groundDist glon glat lon lat ∧
      newtonStep (invPointPy r q) (derivOptPy r q) p (stateAt r q p alt lon lat) = stateAt r q p alt lon' lat' ∧
      newtonStep (invPointCpp r q) (derivOptCpp r q) p (stateAt r q p alt lon lat) = stateAt r q p alt lon' lat' := by
  have hin := hroom.inRect hd
  have hρ : 0 ≤ ρ := le_trans (by unfold groundDist; positivity) hd
  have hin0 : InRect lon0 lon1 lat0 lat1 glon glat := hroom.inRect (by simpa [groundDist] using hρ)
  obtain ⟨d1, d2, d3, d4⟩ := h.derivs lon lat hin
  have hdet := close_regular colLon colLat rowLon rowLat _ _ _ _ ε h.hdet d1 d2 d3 d4 (by rw [← h.delta_eq]; linarith [h.hsmall])
  have hdet' : (invDerivPy r q lon lat alt).1 * (invDerivPy r q lon lat alt).2.2.2 -
      (invDerivPy r q lon lat alt).2.2.1 * (invDerivPy r q lon lat alt).2.1 ≠ 0 := by
    intro e; apply hdet; linear_combination e
  obtain ⟨lon', lat', e1, e2, -, e4, e5⟩ := C22_step r q p lon lat alt (p.col - imgCol r q lon lat alt) (p.row - imgRow r q lon lat alt) hp
    (h.hdef lon lat hin) hdet'
  obtain ⟨i1, i2⟩ := h.increments glon glat lon lat hin0 hin
  have hδ1 : 0 < 1 - δ := by linarith [h.hsmall]
  have hs := newton_step colLon colLat rowLon rowLat _ _ _ _ ε (lon - glon) (lat - glat)
    (imgCol r q lon lat alt - imgCol r q glon glat alt) (imgRow r q lon lat alt - imgRow r q glon glat alt) (lon' - glon) (lat' - glat)
    h.hdet d1 d2 d3 d4 i1 i2 (by rw [hcol] at e1; linear_combination -e1) (by rw [hrow] at e2; linear_combination -e2)
  rw [← h.delta_eq] at hs
  have hcon : groundDist glon glat lon' lat' ≤ Shareloc.contraction δ * groundDist glon glat lon lat := by
    unfold Shareloc.contraction groundDist
    rw [div_mul_eq_mul_div, le_div_iff₀ hδ1]
    linarith
  obtain ⟨k0, k1⟩ := h.contraction
  have hd' : groundDist glon glat lon' lat' ≤ ρ := by
    refine hcon.trans (le_trans ?_ hd)
    have : 0 ≤ groundDist glon glat lon lat := by unfold groundDist; positivity
    nlinarith
  have hin' := hroom.inRect hd'
  refine ⟨lon', lat', hcon, ?_, ?_⟩
  · exact e5 (h.hdef _ _ hin') (h.valid hin')
  · exact e4 (h.hdef _ _ hin')

/-- The residuals at a point near the ground point of the pixel. -/
theorem NearlyAffine.residual (h : NearlyAffine r q alt lon0 lon1 lat0 lat1 colLon colLat rowLon rowLat ε δ) (glon glat : ℝ)
    (lon lat B : ℝ) (hin0 : InRect lon0 lon1 lat0 lat1 glon glat) (hin : InRect lon0 lon1 lat0 lat1 lon lat)
    (hB : |colLon| ≤ B ∧ |colLat| ≤ B ∧ |rowLon| ≤ B ∧ |rowLat| ≤ B) :
    |imgCol r q glon glat alt - imgCol r q lon lat alt| ≤ (B + ε) * groundDist glon glat lon lat ∧
    |imgRow r q glon glat alt - imgRow r q lon lat alt| ≤ (B + ε) * groundDist glon glat lon lat := by
  obtain ⟨i1, i2⟩ := h.increments glon glat lon lat hin0 hin
  have part : ∀ a b v : ℝ, |a| ≤ B → |b| ≤ B → |v - (a * (lon - glon) + b * (lat - glat))| ≤ ε * groundDist glon glat lon lat →
      |v| ≤ (B + ε) * groundDist glon glat lon lat := by
    intro a b v ha hb hv
    have e : v = (v - (a * (lon - glon) + b * (lat - glat))) + (a * (lon - glon) + b * (lat - glat)) := by ring
    rw [e]
    have t1 : |a * (lon - glon)| ≤ B * |lon - glon| := by rw [abs_mul]; exact mul_le_mul_of_nonneg_right ha (abs_nonneg _)
    have t2 : |b * (lat - glat)| ≤ B * |lat - glat| := by rw [abs_mul]; exact mul_le_mul_of_nonneg_right hb (abs_nonneg _)
    have s1 := abs_add_le (v - (a * (lon - glon) + b * (lat - glat))) (a * (lon - glon) + b * (lat - glat))
    have s2 := abs_add_le (a * (lon - glon)) (b * (lat - glat))
    unfold groundDist at hv ⊢
    linarith
  rw [abs_sub_comm, abs_sub_comm (imgRow r q glon glat alt)]
  exact ⟨part _ _ _ hB.1 hB.2.1 i1, part _ _ _ hB.2.2.1 hB.2.2.2 i2⟩

theorem needsIter_stateAt (p : ImgPt ℝ) (lon lat : ℝ) :
    needsIter (stateAt r q p alt lon lat) = false ↔ |p.col - imgCol r q lon lat alt| ≤ 1 / 1000000 ∧
      |p.row - imgRow r q lon lat alt| ≤ 1 / 1000000 := by
  simp [needsIter, overEps, stateAt, newtonEps]

/-- The loops of both implementations from a point near the ground point of the pixel. -/
theorem NearlyAffine.loops (h : NearlyAffine r q alt lon0 lon1 lat0 lat1 colLon colLat rowLon rowLat ε δ) (glon glat ρ B : ℝ)
    (hB : |colLon| ≤ B ∧ |colLat| ≤ B ∧ |rowLon| ≤ B ∧ |rowLat| ≤ B)
    (hroom : RoomAround lon0 lon1 lat0 lat1 ρ glon glat) (p : ImgPt ℝ) (hp : p.alt = some alt) (hcol : p.col = imgCol r q glon glat alt)
    (hrow : p.row = imgRow r q glon glat alt) (n : ℕ) (lon lat : ℝ) (hd : groundDist glon glat lon lat ≤ ρ) :
    ∃ lon' lat' k, loopCpp r q p n (stateAt r q p alt lon lat) = (stateAt r q p alt lon' lat', k) ∧
      loopPy r q n [(p, stateAt r q p alt lon lat)] = ([(p, stateAt r q p alt lon' lat')], k) ∧ k ≤ n ∧
      groundDist glon glat lon' lat' ≤ Shareloc.contraction δ ^ k * groundDist glon glat lon lat ∧
      (k < n → needsIter (stateAt r q p alt lon' lat') = false) ∧
      ∀ j < k, 1 / 1000000 < (B + ε) * (Shareloc.contraction δ ^ j * groundDist glon glat lon lat) := by
  obtain ⟨k0, k1⟩ := h.contraction
  induction n generalizing lon lat with
  | zero => exact ⟨lon, lat, 0, rfl, rfl, le_rfl, by simp, fun hk => absurd hk (by simp), fun j hj => absurd hj (by simp)⟩
  | succ n ih =>
    by_cases hneed : needsIter (stateAt r q p alt lon lat) = true
    · obtain ⟨lon1', lat1', hc, hpy, hcpp⟩ := h.step glon glat ρ hroom p hp hcol hrow lon lat hd
      have hnn : 0 ≤ groundDist glon glat lon lat := by unfold groundDist; positivity
      obtain ⟨lon', lat', k, e1, e2, e3, e4, e5, e6⟩ := ih lon1' lat1' (le_trans hc (le_trans (by nlinarith) hd))
      refine ⟨lon', lat', k + 1, ?_, ?_, by omega, ?_, fun hk => e5 (by omega), ?_⟩
      · simp only [loopCpp, if_pos hneed, hcpp, e1]
      · simp only [loopPy, needsIter_single, if_pos hneed, List.map_cons, List.map_nil, stepPy, hpy, e2]
      · refine e4.trans ?_
        rw [pow_succ, mul_assoc]
        exact mul_le_mul_of_nonneg_left hc (pow_nonneg k0 k)
      · intro j hj
        cases j with
        | zero =>
          have hρ : 0 ≤ ρ := hnn.trans hd
          have hin0 : InRect lon0 lon1 lat0 lat1 glon glat := hroom.inRect (by simpa [groundDist] using hρ)
          obtain ⟨r1, r2⟩ := h.residual glon glat lon lat B hin0 (hroom.inRect hd) hB
          by_contra hcon
          rw [pow_zero, one_mul, not_lt] at hcon
          have := (needsIter_stateAt (r := r) (q := q) (alt := alt) p lon lat).2 ⟨by rw [hcol]; linarith, by rw [hrow]; linarith⟩
          rw [this] at hneed
          cases hneed
        | succ j =>
          refine (e6 j (by omega)).trans_le ?_
          have hBε : 0 ≤ B + ε := add_nonneg ((abs_nonneg _).trans hB.1) h.hε
          apply mul_le_mul_of_nonneg_left _ hBε
          rw [pow_succ, mul_assoc]
          exact mul_le_mul_of_nonneg_left hc (pow_nonneg k0 j)
    · refine ⟨lon, lat, 0, ?_, ?_, by omega, by simp, fun _ => by simpa using hneed, fun j hj => absurd hj (by simp)⟩
      · simp only [loopCpp, if_neg hneed]
      · simp only [loopPy, needsIter_single, if_neg hneed]

/-- The largest distance, in degrees, between a ground point and the result of a converged iteration for its pixel. -/
noncomputable def finalDist (colLon colLat rowLon rowLat δ : ℝ) : ℝ :=
  (|colLon| + |colLat| + |rowLon| + |rowLat|) / |colLon * rowLat - colLat * rowLon| * (1 / 1000000) / (1 - δ)

/-- The hypothesis on a ground point: the rectangle has room around it for the scene centre, and ten iterations are enough. -/
def WithinReach (r : Rpc ℝ) (lon0 lon1 lat0 lat1 colLon colLat rowLon rowLat ε δ glon glat : ℝ) : Prop :=
  RoomAround lon0 lon1 lat0 lat1 (groundDist glon glat r.offX r.offY) glon glat ∧
  ∃ B, |colLon| ≤ B ∧ |colLat| ≤ B ∧ |rowLon| ≤ B ∧ |rowLat| ≤ B ∧
    (B + ε) * (Shareloc.contraction δ ^ 9 * groundDist glon glat r.offX r.offY) ≤ 1 / 1000000

/-- What both implementations compute for the pixel of a ground point within reach. -/
theorem NearlyAffine.iterations (h : NearlyAffine r q alt lon0 lon1 lat0 lat1 colLon colLat rowLon rowLat ε δ) (glon glat : ℝ)
    (hreach : WithinReach r lon0 lon1 lat0 lat1 colLon colLat rowLon rowLat ε δ glon glat) (m : ℕ) :
    ∃ lon lat k, iterCpp r q m ⟨imgRow r q glon glat alt, imgCol r q glon glat alt, some alt⟩ =
        (stateAt r q ⟨imgRow r q glon glat alt, imgCol r q glon glat alt, some alt⟩ alt lon lat, k) ∧
      iterPy r q m [⟨imgRow r q glon glat alt, imgCol r q glon glat alt, some alt⟩] =
        ([(⟨imgRow r q glon glat alt, imgCol r q glon glat alt, some alt⟩,
          stateAt r q ⟨imgRow r q glon glat alt, imgCol r q glon glat alt, some alt⟩ alt lon lat)], k) ∧
      InRect lon0 lon1 lat0 lat1 lon lat ∧ (9 < m → k < m ∧ k < 10) ∧
      (9 < m → groundDist glon glat lon lat ≤ finalDist colLon colLat rowLon rowLat δ) := by
  obtain ⟨hroom, B, b1, b2, b3, b4, hB⟩ := hreach
  set p : ImgPt ℝ := ⟨imgRow r q glon glat alt, imgCol r q glon glat alt, some alt⟩ with hp
  have hnn : 0 ≤ groundDist glon glat r.offX r.offY := by unfold groundDist; positivity
  have hin0 : InRect lon0 lon1 lat0 lat1 glon glat := hroom.inRect (by simpa [groundDist] using hnn)
  have hinc : InRect lon0 lon1 lat0 lat1 r.offX r.offY := hroom.inRect le_rfl
  obtain ⟨lon, lat, k, e1, e2, e3, e4, e5, e6⟩ := h.loops glon glat _ B ⟨b1, b2, b3, b4⟩ hroom p rfl rfl rfl m r.offX r.offY le_rfl
  have hdc := h.hdef _ _ hinc
  have hstart : stateAt r q p alt r.offX r.offY = ⟨some r.offX, some r.offY,
      osub p.col (invPointCpp r q ⟨some r.offX, some r.offY, p.alt⟩).y, osub p.row (invPointCpp r q ⟨some r.offX, some r.offY, p.alt⟩).x⟩ := by
    have : p.alt = some alt := rfl
    rw [this, invPointCpp_defined r q hdc]; rfl
  have hstart' : startPy r q [p] = [(p, stateAt r q p alt r.offX r.offY)] := by
    have : p.alt = some alt := rfl
    simp only [startPy, List.map_cons, List.map_nil, this]
    rw [← invPointCpp_check, checkRow_valid (h.valid hinc), invPointCpp_defined r q hdc]
    rfl
  obtain ⟨c0, c1⟩ := h.contraction
  have hin : InRect lon0 lon1 lat0 lat1 lon lat := by
    apply hroom.inRect
    refine e4.trans ?_
    have := pow_le_one₀ (n := k) c0 c1.le
    nlinarith
  have hk : 9 < m → k < m ∧ k < 10 := by
    intro hm
    by_contra hcon
    have := e6 9 (by omega)
    linarith
  refine ⟨lon, lat, k, ?_, ?_, hin, hk, ?_⟩
  · simp only [iterCpp]
    rw [← hstart, e1]
  · simp only [iterPy]
    rw [hstart', e2]
  · intro hm
    obtain ⟨r1, r2⟩ := (needsIter_stateAt (r := r) (q := q) (alt := alt) p lon lat).1 (e5 (hk hm).1)
    obtain ⟨i1, i2⟩ := h.increments glon glat lon lat hin0 hin
    have hδ1 : 0 < 1 - δ := by linarith [h.hsmall]
    have := error_bound colLon colLat rowLon rowLat ε (lon - glon) (lat - glat) _ _ (1 / 1000000) h.hdet i1 i2
      (by rw [abs_sub_comm]; exact r1) (by rw [abs_sub_comm]; exact r2)
    rw [← h.delta_eq] at this
    unfold finalDist groundDist
    rw [le_div_iff₀ hδ1]
    unfold invSize at this
    linarith

/-- C76. The iteration of both implementations for the pixel of a ground point within reach ends before its limit, without NaN and where
the model is defined: the hypotheses of the theorems of C73 hold. -/
theorem C76_settles (h : NearlyAffine r q alt lon0 lon1 lat0 lat1 colLon colLat rowLon rowLat ε δ) (glon glat : ℝ)
    (hreach : WithinReach r lon0 lon1 lat0 lat1 colLon colLat rowLon rowLat ε δ glon glat) :
    SettlesPy r q (imgRow r q glon glat alt) (imgCol r q glon glat alt) alt ∧
    SettlesCpp r q (imgRow r q glon glat alt) (imgCol r q glon glat alt) alt := by
  obtain ⟨lon, lat, k, e1, e2, e3, e4, -⟩ := h.iterations glon glat hreach 10
  refine ⟨⟨?_, ?_, ?_⟩, ?_, lon, lat, ?_, ?_, h.valid e3, h.hdef _ _ e3⟩
  · rw [e2]; exact (e4 (by norm_num)).2
  · intro m _ t ht
    obtain ⟨lon', lat', k', -, e2', -, -, -⟩ := h.iterations glon glat hreach m
    rw [e2', List.mem_singleton] at ht
    rw [ht]; exact ⟨rfl, rfl⟩
  · intro t ht lon' lat' h1 h2
    rw [e2, List.mem_singleton] at ht
    subst ht
    simp only [stateAt, Option.some.injEq] at h1 h2
    rw [← h1, ← h2]
    exact h.hdef _ _ e3
  · rw [e1]; exact (e4 (by norm_num)).2
  · rw [e1]; rfl
  · rw [e1]; rfl

/-- C76. Both implementations of `direct_loc_h` give for the pixel of a ground point within reach the same point, at most `finalDist` from
the ground point. -/
theorem C76_direct_loc (h : NearlyAffine r q alt lon0 lon1 lat0 lat1 colLon colLat rowLon rowLat ε δ) (hq : r.inverse = some q)
    (glon glat : ℝ) (hreach : WithinReach r lon0 lon1 lat0 lat1 colLon colLat rowLon rowLat ε δ glon glat) :
    ∃ lon lat, |lon - glon| + |lat - glat| ≤ finalDist colLon colLat rowLon rowLat δ ∧
      directLocH r [some (imgRow r q glon glat alt)] [some (imgCol r q glon glat alt)] [some alt] false false =
        .ok [⟨some lon, some lat, some alt⟩] ∧
      directLocHOptim r [some (imgRow r q glon glat alt)] [some (imgCol r q glon glat alt)] [some alt] false false =
        .ok [⟨some lon, some lat, some alt⟩] := by
  obtain ⟨lon, lat, k, e1, e2, e3, -, e5⟩ := h.iterations glon glat hreach 10
  refine ⟨lon, lat, e5 (by norm_num), ?_, ?_⟩
  · have e : ([some (⟨imgRow r q glon glat alt, imgCol r q glon glat alt, some alt⟩ : ImgPt ℝ)].filterMap id) =
        [⟨imgRow r q glon glat alt, imgCol r q glon glat alt, some alt⟩] := rfl
    simp only [directLocH, broadcastAlt, List.length_cons, List.length_nil, if_true, hq, List.zip_cons_cons,
      List.zip_nil_right, List.map_cons, List.map_nil, validPt, e, e2, scatter, checkLonLat, stateAt, checkRow_valid (h.valid e3)]
  · simp only [directLocHOptim, broadcastAlt, List.length_cons, List.length_nil, if_true, min_self, hq, List.zip_cons_cons,
      List.zip_nil_right, List.map_cons, List.map_nil, checkLonLat, iterPointCpp, e1, stateAt, checkRow_valid (h.valid e3)]

/-! ### Every pixel near the image of the scene centre has a ground point -/

/-- C76. Two ground points of the rectangle have different images. -/
theorem C76_injective (h : NearlyAffine r q alt lon0 lon1 lat0 lat1 colLon colLat rowLon rowLat ε δ) (lon lat lon' lat' : ℝ)
    (hin : InRect lon0 lon1 lat0 lat1 lon lat) (hin' : InRect lon0 lon1 lat0 lat1 lon' lat')
    (hcol : imgCol r q lon lat alt = imgCol r q lon' lat' alt) (hrow : imgRow r q lon lat alt = imgRow r q lon' lat' alt) :
    lon = lon' ∧ lat = lat' := by
  obtain ⟨i1, i2⟩ := h.increments lon lat lon' lat' hin hin'
  rw [hcol, sub_self] at i1
  rw [hrow, sub_self] at i2
  have := error_bound colLon colLat rowLon rowLat ε (lon' - lon) (lat' - lat) 0 0 0 h.hdet i1 i2 (by simp) (by simp)
  rw [← h.delta_eq, mul_zero] at this
  have hδ1 : 0 < 1 - δ := by linarith [h.hsmall]
  have h0 : |lon' - lon| + |lat' - lat| ≤ 0 := by
    by_contra hcon
    push Not at hcon
    have := mul_pos hδ1 hcon
    linarith
  have a1 := abs_nonneg (lon' - lon)
  have a2 := abs_nonneg (lat' - lat)
  have z1 := abs_eq_zero.1 (by linarith : |lon' - lon| = 0)
  have z2 := abs_eq_zero.1 (by linarith : |lat' - lat| = 0)
  exact ⟨by linarith, by linarith⟩

/-- The simplified Newton map for a pixel. -/
noncomputable def simpleStep (r : Rpc ℝ) (q : RatCoefs ℝ) (alt colLon colLat rowLon rowLat row col : ℝ) (p : ℝ × ℝ) : ℝ × ℝ :=
  (p.1 + (rowLat * (col - imgCol r q p.1 p.2 alt) - colLat * (row - imgRow r q p.1 p.2 alt)) / (colLon * rowLat - colLat * rowLon),
   p.2 + (-rowLon * (col - imgCol r q p.1 p.2 alt) + colLon * (row - imgRow r q p.1 p.2 alt)) / (colLon * rowLat - colLat * rowLon))

theorem simpleStep_eqs (hdet : colLon * rowLat - colLat * rowLon ≠ 0) (row col : ℝ) (p : ℝ × ℝ) :
    colLon * ((simpleStep r q alt colLon colLat rowLon rowLat row col p).1 - p.1) +
      colLat * ((simpleStep r q alt colLon colLat rowLon rowLat row col p).2 - p.2) = col - imgCol r q p.1 p.2 alt ∧
    rowLon * ((simpleStep r q alt colLon colLat rowLon rowLat row col p).1 - p.1) +
      rowLat * ((simpleStep r q alt colLon colLat rowLon rowLat row col p).2 - p.2) = row - imgRow r q p.1 p.2 alt := by
  simp only [simpleStep]
  generalize imgCol r q p.1 p.2 alt = F
  generalize imgRow r q p.1 p.2 alt = G
  constructor <;> rw [add_sub_cancel_left, add_sub_cancel_left, ← mul_div_assoc, ← mul_div_assoc, ← add_div, div_eq_iff hdet] <;> ring

/-- C76. A pixel at most `w` rows and columns from the image of the scene centre is the image of one and only one ground point of the rectangle,
at most `σ` degrees of longitude and of latitude from the centre, when the rectangle has room for it. -/
theorem C76_ground_point_exists (h : NearlyAffine r q alt lon0 lon1 lat0 lat1 colLon colLat rowLon rowLat ε δ) (σ w row col : ℝ)
    (hroom : RoomAround lon0 lon1 lat0 lat1 σ r.offX r.offY)
    (hw : (|colLon| + |colLat| + |rowLon| + |rowLat|) / |colLon * rowLat - colLat * rowLon| * w ≤ (1 - 2 * δ) * σ)
    (hcol : |col - imgCol r q r.offX r.offY alt| ≤ w) (hrow : |row - imgRow r q r.offX r.offY alt| ≤ w) :
    ∃ lon lat, InRect lon0 lon1 lat0 lat1 lon lat ∧ |lon - r.offX| ≤ σ ∧ |lat - r.offY| ≤ σ ∧
      imgCol r q lon lat alt = col ∧ imgRow r q lon lat alt = row ∧
      ∀ lon' lat', InRect lon0 lon1 lat0 lat1 lon' lat' → imgCol r q lon' lat' alt = col → imgRow r q lon' lat' alt = row →
        lon' = lon ∧ lat' = lat := by
  have hδ0 := h.delta_nonneg
  have hsm := h.hsmall
  have hw0 : 0 ≤ w := (abs_nonneg _).trans hcol
  have hσ : 0 ≤ σ := by
    have : 0 ≤ (|colLon| + |colLat| + |rowLon| + |rowLat|) / |colLon * rowLat - colLat * rowLon| * w :=
      mul_nonneg (invSize_nonneg colLon colLat rowLon rowLat) hw0
    nlinarith
  set T := simpleStep r q alt colLon colLat rowLon rowLat row col with hT
  set s : Set (ℝ × ℝ) := Metric.closedBall (r.offX, r.offY) σ with hs
  have mem : ∀ p : ℝ × ℝ, p ∈ s ↔ |p.1 - r.offX| ≤ σ ∧ |p.2 - r.offY| ≤ σ := by
    intro p
    rw [hs, Metric.mem_closedBall, Prod.dist_eq, max_le_iff, Real.dist_eq, Real.dist_eq]
  have inRect : ∀ p : ℝ × ℝ, p ∈ s → InRect lon0 lon1 lat0 lat1 p.1 p.2 := by
    intro p hp
    obtain ⟨m1, m2⟩ := (mem p).1 hp
    rw [abs_le] at m1 m2
    obtain ⟨a, b, c, d⟩ := hroom
    exact ⟨by linarith, by linarith, by linarith, by linarith⟩
  have lip : ∀ p ∈ s, ∀ p' ∈ s, |(T p').1 - (T p).1| + |(T p').2 - (T p).2| ≤ δ * groundDist p.1 p.2 p'.1 p'.2 := by
    intro p hp p' hp'
    obtain ⟨i1, i2⟩ := h.increments p.1 p.2 p'.1 p'.2 (inRect p hp) (inRect p' hp')
    obtain ⟨t1, t2⟩ := simpleStep_eqs (r := r) (q := q) (alt := alt) h.hdet row col p
    obtain ⟨t1', t2'⟩ := simpleStep_eqs (r := r) (q := q) (alt := alt) h.hdet row col p'
    have := solve_bound colLon colLat rowLon rowLat ((T p').1 - (T p).1) ((T p').2 - (T p).2) (ε * groundDist p.1 p.2 p'.1 p'.2) h.hdet
      (by
        have e : colLon * ((T p').1 - (T p).1) + colLat * ((T p').2 - (T p).2) =
          -(imgCol r q p'.1 p'.2 alt - imgCol r q p.1 p.2 alt - (colLon * (p'.1 - p.1) + colLat * (p'.2 - p.2))) := by
          linear_combination t1' - t1
        rw [e, abs_neg]; exact i1)
      (by
        have e : rowLon * ((T p').1 - (T p).1) + rowLat * ((T p').2 - (T p).2) =
          -(imgRow r q p'.1 p'.2 alt - imgRow r q p.1 p.2 alt - (rowLon * (p'.1 - p.1) + rowLat * (p'.2 - p.2))) := by
          linear_combination t2' - t2
        rw [e, abs_neg]; exact i2)
    rw [h.delta_eq]
    linarith
  have hcs : (r.offX, r.offY) ∈ s := (mem _).2 (by simpa using hσ)
  have hc0 : |(T (r.offX, r.offY)).1 - r.offX| + |(T (r.offX, r.offY)).2 - r.offY| ≤ (1 - 2 * δ) * σ := by
    obtain ⟨t1, t2⟩ := simpleStep_eqs (r := r) (q := q) (alt := alt) h.hdet row col (r.offX, r.offY)
    have := solve_bound colLon colLat rowLon rowLat ((T (r.offX, r.offY)).1 - r.offX) ((T (r.offX, r.offY)).2 - r.offY) w h.hdet
      (by rw [t1]; exact hcol) (by rw [t2]; exact hrow)
    exact this.trans hw
  have maps : Set.MapsTo T s s := by
    intro p hp
    obtain ⟨m1, m2⟩ := (mem p).1 hp
    have hl := lip _ hcs p hp
    unfold groundDist at hl
    simp only at hl
    have b1 := abs_nonneg ((T p).1 - (T (r.offX, r.offY)).1)
    have b2 := abs_nonneg ((T p).2 - (T (r.offX, r.offY)).2)
    have b3 := abs_nonneg ((T (r.offX, r.offY)).1 - r.offX)
    have b4 := abs_nonneg ((T (r.offX, r.offY)).2 - r.offY)
    have bσ : δ * (|p.1 - r.offX| + |p.2 - r.offY|) ≤ δ * (2 * σ) := mul_le_mul_of_nonneg_left (by linarith) hδ0
    refine (mem _).2 ⟨?_, ?_⟩
    · have := abs_sub_le (T p).1 (T (r.offX, r.offY)).1 r.offX
      linarith
    · have := abs_sub_le (T p).2 (T (r.offX, r.offY)).2 r.offY
      linarith
  have hcontr : ContractingWith (Real.toNNReal (2 * δ)) (maps.restrict T s s) := by
    refine ⟨?_, ?_⟩
    · rw [← NNReal.coe_lt_coe, Real.coe_toNNReal _ (by linarith)]
      show 2 * δ < 1
      linarith
    · apply LipschitzWith.of_dist_le_mul
      intro x y
      rw [Real.coe_toNNReal _ (by linarith), Subtype.dist_eq, Subtype.dist_eq, Prod.dist_eq, Prod.dist_eq]
      have hl := lip y.1 y.2 x.1 x.2
      unfold groundDist at hl
      simp only [Set.MapsTo.val_restrict_apply, Real.dist_eq]
      have c1 := le_max_left |x.1.1 - y.1.1| |x.1.2 - y.1.2|
      have c2 := le_max_right |x.1.1 - y.1.1| |x.1.2 - y.1.2|
      have b1 := abs_nonneg ((T x.1).1 - (T y.1).1)
      have b2 := abs_nonneg ((T x.1).2 - (T y.1).2)
      have : δ * (|x.1.1 - y.1.1| + |x.1.2 - y.1.2|) ≤ δ * (2 * max |x.1.1 - y.1.1| |x.1.2 - y.1.2|) :=
        mul_le_mul_of_nonneg_left (by linarith) hδ0
      apply max_le <;> linarith
  obtain ⟨p, hp, hfix, -⟩ := hcontr.exists_fixedPoint' Metric.isClosed_closedBall.isComplete maps hcs (edist_ne_top _ _)
  have hfix : T p = p := hfix
  obtain ⟨t1, t2⟩ := simpleStep_eqs (r := r) (q := q) (alt := alt) h.hdet row col p
  rw [← hT, hfix] at t1 t2
  simp only [sub_self, mul_zero, add_zero] at t1 t2
  obtain ⟨m1, m2⟩ := (mem p).1 hp
  refine ⟨p.1, p.2, inRect p hp, m1, m2, by linarith, by linarith, ?_⟩
  intro lon' lat' hin' e1 e2
  exact C76_injective h lon' lat' p.1 p.2 hin' (inRect p hp) (by linarith) (by linarith)

/-- C76. Every pixel at most `w` rows and columns from the image of the scene centre is located by both implementations of `direct_loc_h`, at the
same point, at most `finalDist` from the only ground point of the rectangle whose image is the pixel. -/
theorem C76_every_pixel (h : NearlyAffine r q alt lon0 lon1 lat0 lat1 colLon colLat rowLon rowLat ε δ) (hq : r.inverse = some q)
    (σ w B row col : ℝ) (hroom : RoomAround lon0 lon1 lat0 lat1 (3 * σ) r.offX r.offY)
    (hw : (|colLon| + |colLat| + |rowLon| + |rowLat|) / |colLon * rowLat - colLat * rowLon| * w ≤ (1 - 2 * δ) * σ)
    (hB : |colLon| ≤ B ∧ |colLat| ≤ B ∧ |rowLon| ≤ B ∧ |rowLat| ≤ B)
    (hten : (B + ε) * ((2 * δ / (1 - δ)) ^ 9 * (2 * σ)) ≤ 1 / 1000000)
    (hcol : |col - imgCol r q r.offX r.offY alt| ≤ w) (hrow : |row - imgRow r q r.offX r.offY alt| ≤ w) :
    ∃ glon glat lon lat, InRect lon0 lon1 lat0 lat1 glon glat ∧ imgCol r q glon glat alt = col ∧ imgRow r q glon glat alt = row ∧
      (∀ lon' lat', InRect lon0 lon1 lat0 lat1 lon' lat' → imgCol r q lon' lat' alt = col → imgRow r q lon' lat' alt = row →
        lon' = glon ∧ lat' = glat) ∧
      |lon - glon| + |lat - glat| ≤ finalDist colLon colLat rowLon rowLat δ ∧
      SeenAt r q row col lon lat alt ∧
      directLocH r [some row] [some col] [some alt] false false = .ok [⟨some lon, some lat, some alt⟩] ∧
      directLocHOptim r [some row] [some col] [some alt] false false = .ok [⟨some lon, some lat, some alt⟩] := by
  have hδ0 := h.delta_nonneg
  have hsm := h.hsmall
  have hw0 : 0 ≤ w := (abs_nonneg _).trans hcol
  have hσ : 0 ≤ σ := by
    have : 0 ≤ (|colLon| + |colLat| + |rowLon| + |rowLat|) / |colLon * rowLat - colLat * rowLon| * w :=
      mul_nonneg (invSize_nonneg colLon colLat rowLon rowLat) hw0
    nlinarith
  obtain ⟨a, b, c, d⟩ := hroom
  obtain ⟨glon, glat, g1, g2, g3, g4, g5, g6⟩ := C76_ground_point_exists h σ w row col
    ⟨by linarith, by linarith, by linarith, by linarith⟩ hw hcol hrow
  have hd : groundDist glon glat r.offX r.offY ≤ 2 * σ := by
    unfold groundDist
    rw [abs_sub_comm r.offX, abs_sub_comm r.offY]
    linarith
  have hreach : WithinReach r lon0 lon1 lat0 lat1 colLon colLat rowLon rowLat ε δ glon glat := by
    rw [abs_le] at g2 g3
    refine ⟨⟨by linarith, by linarith, by linarith, by linarith⟩, B, hB.1, hB.2.1, hB.2.2.1, hB.2.2.2, le_trans ?_ hten⟩
    have hBε : 0 ≤ B + ε := add_nonneg ((abs_nonneg _).trans hB.1) h.hε
    exact mul_le_mul_of_nonneg_left (mul_le_mul_of_nonneg_left hd (pow_nonneg h.contraction.1 9)) hBε
  obtain ⟨lon, lat, l1, l2, l3⟩ := C76_direct_loc h hq glon glat hreach
  rw [g4, g5] at l2 l3
  have hset := (C76_settles h glon glat hreach).1
  rw [g4, g5] at hset
  obtain ⟨lon', lat', s1, s2⟩ := python_single r q hq row col alt hset
  rw [l2] at s1
  simp only [Except.ok.injEq, List.cons.injEq, V3.mk.injEq, Option.some.injEq, and_true] at s1
  rw [← s1.1, ← s1.2] at s2
  exact ⟨glon, glat, lon, lat, g1, g4, g5, g6, l1, s2, l2, l3⟩

/-! ### From the ground to the image and back, through `Localization` -/

/-- The ground points at the altitude `alt`. -/
def groundRows (gs : List (ℝ × ℝ)) (alt : ℝ) : List (ORow ℝ) := gs.map fun g => ⟨some g.1, some g.2, some alt⟩

/-- Specification: one row per ground point, in order, at the altitude `alt` and at most `e` from the point. -/
def FoundOnGround (gs : List (ℝ × ℝ)) (alt e : ℝ) (out : List (ORow ℝ)) : Prop :=
  out.length = gs.length ∧ ∀ (i : ℕ) g, gs[i]? = some g →
    ∃ lon lat, out[i]? = some ⟨some lon, some lat, some alt⟩ ∧ |lon - g.1| + |lat - g.2| ≤ e

theorem WithinReach.inRect {glon glat : ℝ} (h : WithinReach r lon0 lon1 lat0 lat1 colLon colLat rowLon rowLat ε δ glon glat) :
    InRect lon0 lon1 lat0 lat1 glon glat := by
  apply h.1.inRect
  unfold groundDist
  rw [sub_self, sub_self, abs_zero, add_zero]
  positivity

theorem invPoint_ground (h : NearlyAffine r q alt lon0 lon1 lat0 lat1 colLon colLat rowLon rowLat ε δ) (gs : List (ℝ × ℝ))
    (hreach : ∀ g ∈ gs, WithinReach r lon0 lon1 lat0 lat1 colLon colLat rowLon rowLat ε δ g.1 g.2) :
    ((groundRows gs alt).map fun p => ((invPointPy r q p).x, (invPointPy r q p).y)) =
      gs.map fun g => (some (imgRow r q g.1 g.2 alt), some (imgCol r q g.1 g.2 alt)) := by
  rw [groundRows, List.map_map]
  apply List.map_congr_left
  intro g hg
  have hin := (hreach g hg).inRect
  simp only [Function.comp_apply]
  rw [invPointPy_valid r q (h.valid hin) (h.hdef _ _ hin)]

/-- C76. With a Python RPC, `inverse` followed by `direct` at the same altitude finds back each ground point within reach, up to `finalDist`. -/
theorem C76_python_ground_round_trip (h : NearlyAffine r q alt lon0 lon1 lat0 lat1 colLon colLat rowLon rowLat ε δ)
    (hq : r.inverse = some q) (conv : ℕ → ℕ → ORow ℝ → ORow ℝ) (N e : ℕ) (el : Elevation ℝ (ℕ × Dtm ℝ)) (gs : List (ℝ × ℝ))
    (hreach : ∀ g ∈ gs, WithinReach r lon0 lon1 lat0 lat1 colLon colLat rowLon rowLat ε δ g.1 g.2) :
    ∃ rc out, Localization.inverse conv ⟨rpcGeo conv N r e, el, none, none⟩ (gs.map fun g => some g.1) (gs.map fun g => some g.2)
        (some (gs.map fun _ => some alt)) false = .ok (some rc, gs.map fun _ => some alt) ∧
      Localization.direct conv ⟨rpcGeo conv N r e, el, none, none⟩ (rc.map fun p => p.1) (rc.map fun p => p.2) (some [some alt]) false =
        .ok out ∧
      FoundOnGround gs alt (finalDist colLon colLat rowLon rowLat δ) out := by
  have hinv := rpcGeo_inverse conv N r q hq e (groundRows gs alt)
  rw [invPoint_ground h gs hreach] at hinv
  simp only [groundRows, List.map_map, Function.comp_def] at hinv
  have hget : ∀ (i : ℕ) (x y : ℝ), (gs.map fun g => some (imgRow r q g.1 g.2 alt))[i]? = some (some x) →
      (gs.map fun g => some (imgCol r q g.1 g.2 alt))[i]? = some (some y) → ∃ g ∈ gs, gs[i]? = some g ∧
        x = imgRow r q g.1 g.2 alt ∧ y = imgCol r q g.1 g.2 alt := by
    intro i x y hx hy
    rw [List.getElem?_map] at hx hy
    cases hg : gs[i]? with
    | none => rw [hg] at hx; cases hx
    | some g =>
      rw [hg] at hx hy
      simp only [Option.map_some, Option.some.injEq] at hx hy
      exact ⟨g, List.mem_of_getElem? hg, rfl, hx.symm, hy.symm⟩
  obtain ⟨out, o1, o2, o3⟩ := C24_python_direct_loc_h_partial r q hq (gs.map fun g => some (imgRow r q g.1 g.2 alt))
    (gs.map fun g => some (imgCol r q g.1 g.2 alt)) (some alt) false (by simp) (by
      intro i x y hx hy
      obtain ⟨g, hg, -, rfl, rfl⟩ := hget i x y hx hy
      exact (C76_settles h g.1 g.2 (hreach g hg)).1.2.1)
  refine ⟨gs.map fun g => (some (imgRow r q g.1 g.2 alt), some (imgCol r q g.1 g.2 alt)), out, ?_, ?_, by simpa using o2, ?_⟩
  · simp only [Localization.inverse, Localization.toModel, Option.getD_some, hinv]
  · have : directLocH r (gs.map fun g => some (imgRow r q g.1 g.2 alt)) (gs.map fun g => some (imgCol r q g.1 g.2 alt)) [some alt] false
        false = .ok out := by
      rw [(C28_single_altitude_partial r _ _ [] [] (some alt) false false).1]
      simpa using o1
    simp only [Localization.direct, Localization.toPhysical, Localization.modelDirect, rpcGeo, List.map_map, Function.comp_def, this]
  · intro i g hg
    obtain ⟨o, e1, e2⟩ := o3 i _ _ (by rw [List.getElem?_map, hg]; rfl) (by rw [List.getElem?_map, hg]; rfl)
    obtain ⟨lon, lat, d, e3, -⟩ := C76_direct_loc h hq g.1 g.2 (hreach g (List.mem_of_getElem? hg))
    rw [e3] at e1
    simp only [Except.ok.injEq, List.cons.injEq, and_true] at e1
    exact ⟨lon, lat, by rw [e2, ← e1], d⟩

/-- C76. The same with a C++ RPC. -/
theorem C76_optim_ground_round_trip (h : NearlyAffine r q alt lon0 lon1 lat0 lat1 colLon colLat rowLon rowLat ε δ)
    (hq : r.inverse = some q) (conv : ℕ → ℕ → ORow ℝ → ORow ℝ) (N : ℕ) (el : Elevation ℝ (ℕ × Dtm ℝ)) (gs : List (ℝ × ℝ))
    (hreach : ∀ g ∈ gs, WithinReach r lon0 lon1 lat0 lat1 colLon colLat rowLon rowLat ε δ g.1 g.2) :
    ∃ rc out, Localization.inverse conv ⟨rpcOptimGeo conv N r, el, none, none⟩ (gs.map fun g => some g.1) (gs.map fun g => some g.2)
        (some (gs.map fun _ => some alt)) false = .ok (some rc, gs.map fun _ => some alt) ∧
      Localization.direct conv ⟨rpcOptimGeo conv N r, el, none, none⟩ (rc.map fun p => p.1) (rc.map fun p => p.2) (some [some alt]) false =
        .ok out ∧
      FoundOnGround gs alt (finalDist colLon colLat rowLon rowLat δ) out := by
  have hinv := rpcOptimGeo_inverse conv N r q hq (groundRows gs alt) (by
    intro p hp
    obtain ⟨g, hg, rfl⟩ := List.mem_map.1 hp
    have hin := (hreach g hg).inRect
    exact Or.inr ⟨g.1, g.2, alt, rfl, h.valid hin, h.hdef _ _ hin⟩)
  rw [invPoint_ground h gs hreach] at hinv
  simp only [groundRows, List.map_map, Function.comp_def] at hinv
  obtain ⟨out, o1, o2, o3⟩ := C24_cpp_batch r q hq (gs.map fun g => some (imgRow r q g.1 g.2 alt))
    (gs.map fun g => some (imgCol r q g.1 g.2 alt)) (gs.map fun _ => some alt) false (by simp) (by simp)
  refine ⟨gs.map fun g => (some (imgRow r q g.1 g.2 alt), some (imgCol r q g.1 g.2 alt)), out, ?_, ?_, by simpa using o2, ?_⟩
  · simp only [Localization.inverse, Localization.toModel, Option.getD_some, hinv]
  · have : directLocHOptim r (gs.map fun g => some (imgRow r q g.1 g.2 alt)) (gs.map fun g => some (imgCol r q g.1 g.2 alt)) [some alt] false
        false = .ok out := by
      rw [(C28_single_altitude_partial r _ _ [] [] (some alt) false false).2.2]
      rw [← o1]
      simp
    simp only [Localization.direct, Localization.toPhysical, Localization.modelDirect, rpcOptimGeo, List.map_map, Function.comp_def, this]
  · intro i g hg
    obtain ⟨o, e1, e2⟩ := o3 i _ _ _ (by rw [List.getElem?_map, hg]; rfl) (by rw [List.getElem?_map, hg]; rfl)
      (by rw [List.getElem?_map, hg]; rfl)
    obtain ⟨lon, lat, d, -, e3⟩ := C76_direct_loc h hq g.1 g.2 (hreach g (List.mem_of_getElem? hg))
    rw [e3] at e1
    simp only [Except.ok.injEq, List.cons.injEq, and_true] at e1
    exact ⟨lon, lat, by rw [e2, ← e1], d⟩

end

/-! ### A curved example -/

/-- Column `(x + z + x²/1000) / (1 + y/1000)`, row `y + z/2 + x y/1000` in normalised coordinates. -/
noncomputable def bentCoefs : RatCoefs ℝ where
  numA := ![0, 1, 0, 1, 0, 0, 0, 1 / 1000, 0, 0, 0, 0, 0, 0, 0, 0, 0, 0, 0, 0]
  denA := ![1, 0, 1 / 1000, 0, 0, 0, 0, 0, 0, 0, 0, 0, 0, 0, 0, 0, 0, 0, 0, 0]
  numB := ![0, 0, 1, 1 / 2, 1 / 1000, 0, 0, 0, 0, 0, 0, 0, 0, 0, 0, 0, 0, 0, 0, 0]
  denB := ![1, 0, 0, 0, 0, 0, 0, 0, 0, 0, 0, 0, 0, 0, 0, 0, 0, 0, 0, 0]

/-- Its normalisation. -/
noncomputable def bentRpc : Rpc ℝ where
  inverse := some bentCoefs
  direct := none
  offX := 10
  scX := 1
  offY := 20
  scY := 1
  offAlt := 100
  scAlt := 100
  offCol := 1000
  scCol := 1000
  offRow := 1000
  scRow := 1000

theorem bent_values (lon lat : ℝ) :
    polyPy (lon - 10) (lat - 20) (1 / 2) bentCoefs.numA = (lon - 10) + 1 / 2 + (lon - 10) ^ 2 / 1000 ∧
    polyPy (lon - 10) (lat - 20) (1 / 2) bentCoefs.denA = 1 + (lat - 20) / 1000 ∧
    polyPy (lon - 10) (lat - 20) (1 / 2) bentCoefs.numB = (lat - 20) + 1 / 4 + (lon - 10) * (lat - 20) / 1000 ∧
    polyPy (lon - 10) (lat - 20) (1 / 2) bentCoefs.denB = 1 ∧
    dLonPy (lon - 10) (lat - 20) (1 / 2) bentCoefs.numA = 1 + (lon - 10) / 500 ∧
    dLonPy (lon - 10) (lat - 20) (1 / 2) bentCoefs.denA = 0 ∧
    dLonPy (lon - 10) (lat - 20) (1 / 2) bentCoefs.numB = (lat - 20) / 1000 ∧
    dLonPy (lon - 10) (lat - 20) (1 / 2) bentCoefs.denB = 0 ∧
    dLatPy (lon - 10) (lat - 20) (1 / 2) bentCoefs.numA = 0 ∧
    dLatPy (lon - 10) (lat - 20) (1 / 2) bentCoefs.denA = 1 / 1000 ∧
    dLatPy (lon - 10) (lat - 20) (1 / 2) bentCoefs.numB = 1 + (lon - 10) / 1000 ∧
    dLatPy (lon - 10) (lat - 20) (1 / 2) bentCoefs.denB = 0 := by
  simp only [polyPy, dLonPy, dLatPy, bentCoefs, Matrix.cons_val]
  refine ⟨?_, ?_, ?_, ?_, ?_, ?_, ?_, ?_, ?_, ?_, ?_, ?_⟩ <;> ring

theorem bent_norm (lon lat : ℝ) : (lon - bentRpc.offX) / bentRpc.scX = lon - 10 ∧ (lat - bentRpc.offY) / bentRpc.scY = lat - 20 ∧
    ((150 : ℝ) - bentRpc.offAlt) / bentRpc.scAlt = 1 / 2 := by
  simp only [bentRpc]
  refine ⟨by ring, by ring, by norm_num⟩

/-- The hypotheses of C76 hold for the example at the altitude 150 on a square of six degrees. -/
theorem bent_nearlyAffine : NearlyAffine bentRpc bentCoefs 150 7 13 17 23 1000 0 0 1000 10 (1 / 50) := by
  have hdef : ∀ lon lat, InRect 7 13 17 23 lon lat → RatDefined bentRpc bentCoefs lon lat 150 := by
    intro lon lat h
    obtain ⟨h1, h2, h3, h4⟩ := h
    obtain ⟨n1, n2, n3⟩ := bent_norm lon lat
    obtain ⟨-, v2, -, v4, -⟩ := bent_values lon lat
    unfold RatDefined
    rw [n1, n2, n3, ← polyPy_eq, ← polyPy_eq, v2, v4]
    exact ⟨by intro e; linarith, one_ne_zero⟩
  have hval : ∀ lon lat, invDerivPy bentRpc bentCoefs lon lat 150 =
      (1000 * ((1 + (lon - 10) / 500) / (1 + (lat - 20) / 1000)),
       -(((lon - 10) + 1 / 2 + (lon - 10) ^ 2 / 1000) / (1 + (lat - 20) / 1000) ^ 2), lat - 20, 1000 + (lon - 10)) := by
    intro lon lat
    obtain ⟨n1, n2, n3⟩ := bent_norm lon lat
    obtain ⟨v1, v2, v3, v4, v5, v6, v7, v8, v9, v10, v11, v12⟩ := bent_values lon lat
    unfold invDerivPy
    rw [n1, n2, n3]
    dsimp only
    rw [v1, v2, v3, v4, v5, v6, v7, v8, v9, v10, v11, v12]
    simp only [bentRpc, Prod.mk.injEq]
    refine ⟨?_, ?_, by ring, by ring⟩
    · by_cases hz : 1 + (lat - 20) / 1000 = 0
      · rw [hz]; simp
      · generalize 1 + (lat - 20) / 1000 = D at hz ⊢
        field_simp
        ring
    · rw [← neg_div]; congr 1; ring
  have hd : ∀ lon lat, InRect 7 13 17 23 lon lat →
      |(invDerivPy bentRpc bentCoefs lon lat 150).1 - 1000| ≤ 10 ∧ |(invDerivPy bentRpc bentCoefs lon lat 150).2.1 - 0| ≤ 10 ∧
      |(invDerivPy bentRpc bentCoefs lon lat 150).2.2.1 - 0| ≤ 10 ∧ |(invDerivPy bentRpc bentCoefs lon lat 150).2.2.2 - 1000| ≤ 10 := by
    intro lon lat h
    obtain ⟨h1, h2, h3, h4⟩ := h
    rw [hval]
    have hpos : 0 < 1 + (lat - 20) / 1000 := by linarith
    refine ⟨?_, ?_, abs_le.2 ⟨by linarith, by linarith⟩, abs_le.2 ⟨by linarith, by linarith⟩⟩
    · have e : 1000 * ((1 + (lon - 10) / 500) / (1 + (lat - 20) / 1000)) - 1000 = (2 * (lon - 10) - (lat - 20)) / (1 + (lat - 20) / 1000) := by
        have hL : 2 * (lon - 10) - (lat - 20) = 1000 * (1 + (lon - 10) / 500) - 1000 * (1 + (lat - 20) / 1000) := by ring
        rw [hL]
        generalize 1 + (lat - 20) / 1000 = D at hpos ⊢
        field_simp
      rw [e, abs_le, le_div_iff₀ hpos, div_le_iff₀ hpos]
      constructor <;> linarith
    · rw [sub_zero, abs_neg, abs_le, le_div_iff₀ (by positivity), div_le_iff₀ (by positivity)]
      constructor <;> nlinarith
  refine ⟨hdef, ?_, ?_, ?_, ?_, by norm_num, by norm_num, by norm_num, by norm_num, by norm_num⟩ <;> intro lon lat h <;>
    obtain ⟨c1, c2, c3, c4⟩ := C20_inverse_derivatives bentRpc bentCoefs lon lat 150 (hdef lon lat h) <;>
    obtain ⟨d1, d2, d3, d4⟩ := hd lon lat h
  · rw [c1.deriv]; exact d1
  · rw [c2.deriv]; exact d2
  · rw [c3.deriv]; exact d3
  · rw [c4.deriv]; exact d4

/-- Every pixel at most 400 rows and columns from the image of the centre is located. -/
example (row col : ℝ) (hcol : |col - imgCol bentRpc bentCoefs 10 20 150| ≤ 400) (hrow : |row - imgRow bentRpc bentCoefs 10 20 150| ≤ 400) :
    ∃ glon glat lon lat, imgCol bentRpc bentCoefs glon glat 150 = col ∧ imgRow bentRpc bentCoefs glon glat 150 = row ∧
      |lon - glon| + |lat - glat| ≤ 2041 / 1000000000000 ∧
      directLocH bentRpc [some row] [some col] [some 150] false false = .ok [⟨some lon, some lat, some 150⟩] ∧
      directLocHOptim bentRpc [some row] [some col] [some 150] false false = .ok [⟨some lon, some lat, some 150⟩] := by
  obtain ⟨glon, glat, lon, lat, -, e1, e2, -, e3, -, e4, e5⟩ := C76_every_pixel bent_nearlyAffine rfl 1 400 1000 row col
    (by unfold RoomAround bentRpc; norm_num) (by norm_num) (by norm_num) (by norm_num) hcol hrow
  exact ⟨glon, glat, lon, lat, e1, e2, e3.trans (by unfold finalDist; norm_num), e4, e5⟩

/-- Ground points within reach. -/
example : WithinReach bentRpc 7 13 17 23 1000 0 0 1000 10 (1 / 50) (21 / 2) (81 / 4) := by
  refine ⟨?_, 1000, by norm_num, by norm_num, by norm_num, by norm_num, ?_⟩
  · unfold RoomAround groundDist bentRpc; norm_num [abs_le]
  · unfold contraction groundDist bentRpc; norm_num [abs_le]

end Shareloc
