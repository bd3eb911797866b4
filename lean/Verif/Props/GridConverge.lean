import Verif.Props.GridLocalization
import Verif.Props.RpcLocalization
import Verif.Lemmas.Lipschitz

/-!
# C75: convergence of the inverse location by grid
-/

set_option linter.unusedSectionVars false

namespace Shareloc
open Spec
variable {K : Type*} [Field K] [LinearOrder K] [IsStrictOrderedRing K] [FloorRing K]

/-! ### Specification -/

/-- The ground position (lon, lat) of a node of the grid at an altitude. -/
def nodeLonLat (g : MultiGrid K) (alt : K) (i j : ℕ) : K × K := gridLonLat g (g.row0 + g.steprow * i) (g.col0 + g.stepcol * j) alt

/-- Distance between two positions of the image, in steps of the grid: along the rows plus along the columns. -/
def stepDist (g : MultiGrid K) (row col row' col' : K) : K := |(row' - row) / g.steprow| + |(col' - col) / g.stepcol|

/-- Seen at altitude `alt`, the nodes of the grid are nearly regularly spaced on the ground: between two neighbours of a column the
longitude and the latitude change by `lonRow` and `latRow`, between two neighbours of a row by `lonCol` and `latCol`, all up to `ε`. -/
structure NearlyRegular (g : MultiGrid K) (alt lonRow lonCol latRow latCol ε : K) : Prop where
  hlonRow : ∀ i j, i + 1 < g.nbrow → j < g.nbcol → |(nodeLonLat g alt (i + 1) j).1 - (nodeLonLat g alt i j).1 - lonRow| ≤ ε
  hlonCol : ∀ i j, i < g.nbrow → j + 1 < g.nbcol → |(nodeLonLat g alt i (j + 1)).1 - (nodeLonLat g alt i j).1 - lonCol| ≤ ε
  hlatRow : ∀ i j, i + 1 < g.nbrow → j < g.nbcol → |(nodeLonLat g alt (i + 1) j).2 - (nodeLonLat g alt i j).2 - latRow| ≤ ε
  hlatCol : ∀ i j, i < g.nbrow → j + 1 < g.nbcol → |(nodeLonLat g alt i (j + 1)).2 - (nodeLonLat g alt i j).2 - latCol| ≤ ε

/-- A grid whose inverse location converges at altitude `alt` from predictions within `ρ` steps of the positions of the image: its
nodes are nearly regularly spaced, `q` is the size of the inverse of the mean displacement, and the irregularity, multiplied by `1 + 2 ρ`
because a prediction may be out of the grid, is small: `δ = q (1 + 2 ρ) ε` is at most one third. -/
structure Converges (g : MultiGrid K) (alt lonRow lonCol latRow latCol ε ρ δ : K) : Prop where
  hn : 2 ≤ g.nbalt
  hr : 2 ≤ g.nbrow
  hc : 2 ≤ g.nbcol
  hdec : Decreasing g.nbalt g.alts
  hsr : g.steprow ≠ 0
  hsc : g.stepcol ≠ 0
  hreg : NearlyRegular g alt lonRow lonCol latRow latCol ε
  hdet : lonRow * latCol - lonCol * latRow ≠ 0
  hρ : 0 ≤ ρ
  hδ : δ = (|lonRow| + |lonCol| + |latRow| + |latCol|) / |lonRow * latCol - lonCol * latRow| * ((1 + 2 * ρ) * ε)
  hsmall : δ ≤ 1 / 3

/-- A position of the image covered by the grid. -/
def Covered (g : MultiGrid K) (row col : K) : Prop :=
  0 ≤ (row - g.row0) / g.steprow ∧ (row - g.row0) / g.steprow ≤ (g.nbrow : K) - 1 ∧
  0 ≤ (col - g.col0) / g.stepcol ∧ (col - g.col0) / g.stepcol ≤ (g.nbcol : K) - 1

/-- The ground point `(lon, lat)` is a longitude and a latitude far enough from the bounds for its neighbourhood of `ρ` steps. -/
def FarFromBounds (lonRow lonCol latRow latCol ε ρ lon lat : K) : Prop :=
  |lon| + (|lonRow| + |lonCol| + (1 + 2 * ρ) * ε) * ρ ≤ 180 ∧ |lat| + (|latRow| + |latCol| + (1 + 2 * ρ) * ε) * ρ ≤ 90

/-! ### The interpolation of the nodes -/

theorem gridInterp_lerp2 (g : MultiGrid K) (data : ℕ → ℕ → ℕ → K) (alt row col : K) (hn : 2 ≤ g.nbalt) (hr : 2 ≤ g.nbrow) (hc : 2 ≤ g.nbcol)
    (hdec : Decreasing g.nbalt g.alts) (hsr : g.steprow ≠ 0) (hsc : g.stepcol ≠ 0) :
    gridInterp g data (altNorm g alt) row col =
      lerp2 g.nbrow g.nbcol (fun i j => gridInterp g data (altNorm g alt) (g.row0 + g.steprow * i) (g.col0 + g.stepcol * j))
        ((row - g.row0) / g.steprow) ((col - g.col0) / g.stepcol) := by
  rw [gridInterp_alt g data row col alt hn hdec]
  set h := (alt - g.alts (altUp g.alts g.nbalt alt + 1)) /
          (g.alts (altUp g.alts g.nbalt alt) - g.alts (altUp g.alts g.nbalt alt + 1)) with hh
  set k := altUp g.alts g.nbalt alt with hk
  unfold lerp2
  have e : ∀ i < g.nbrow, lerp g.nbcol (fun j : ℕ => gridInterp g data (altNorm g alt) (g.row0 + g.steprow * i) (g.col0 + g.stepcol * j))
        ((col - g.col0) / g.stepcol) =
      h * lerp g.nbcol (fun j => data k i j) ((col - g.col0) / g.stepcol) +
        (1 - h) * lerp g.nbcol (fun j => data (k + 1) i j) ((col - g.col0) / g.stepcol) := by
    intro i hi
    rw [← lerp_mix]
    apply lerp_congr _ hc
    intro j hj
    rw [gridInterp_alt g data _ _ alt hn hdec, gridLayer_node g data _ i j hr hc hsr hsc hi hj, gridLayer_node g data _ i j hr hc hsr hsc hi hj]
  rw [lerp_congr g.nbrow hr _ _ _ e, lerp_mix]
  rfl

theorem stepDist_nonneg (g : MultiGrid K) (row col row' col' : K) : 0 ≤ stepDist g row col row' col' := by
  unfold stepDist; positivity

section
variable {g : MultiGrid K} {alt lonRow lonCol latRow latCol ε ρ δ : K}

theorem Converges.eps_nonneg (h : Converges g alt lonRow lonCol latRow latCol ε ρ δ) : 0 ≤ ε :=
  (abs_nonneg _).trans (h.hreg.hlonRow 0 0 (by have := h.hr; omega) (by have := h.hc; omega))

/-- The ground displacement between two positions. -/
theorem Converges.increment (h : Converges g alt lonRow lonCol latRow latCol ε ρ δ) (row col row' col' : K) (hcov : Covered g row col)
    (hd : stepDist g row col row' col' ≤ ρ) :
    |(gridLonLat g row' col' alt).1 - (gridLonLat g row col alt).1 -
        (lonRow * ((row' - row) / g.steprow) + lonCol * ((col' - col) / g.stepcol))| ≤
      (1 + 2 * ρ) * ε * stepDist g row col row' col' ∧
    |(gridLonLat g row' col' alt).2 - (gridLonLat g row col alt).2 -
        (latRow * ((row' - row) / g.steprow) + latCol * ((col' - col) / g.stepcol))| ≤
      (1 + 2 * ρ) * ε * stepDist g row col row' col' := by
  have hv1 : Within g.nbrow ρ ((row - g.row0) / g.steprow) := ⟨by have := hcov.1; have := h.hρ; linarith, by have := hcov.2.1; have := h.hρ; linarith⟩
  have ec : (col' - g.col0) / g.stepcol = (col - g.col0) / g.stepcol + (col' - col) / g.stepcol := by ring
  have er : (row' - g.row0) / g.steprow = (row - g.row0) / g.steprow + (row' - row) / g.steprow := by ring
  have hab : |(col' - col) / g.stepcol| ≤ ρ := by
    unfold stepDist at hd
    have := abs_nonneg ((row' - row) / g.steprow)
    linarith
  have hv2 : Within g.nbcol ρ ((col' - g.col0) / g.stepcol) := by
    rw [ec]
    obtain ⟨l, u⟩ := abs_le.1 hab
    exact ⟨by have := hcov.2.2.1; linarith, by have := hcov.2.2.2; linarith⟩
  have main : ∀ (data : ℕ → ℕ → ℕ → K) (a b : K),
      (∀ i j : ℕ, i + 1 < g.nbrow → j < g.nbcol →
        |gridInterp g data (altNorm g alt) (g.row0 + g.steprow * ((i + 1 : ℕ) : K)) (g.col0 + g.stepcol * (j : K)) -
          gridInterp g data (altNorm g alt) (g.row0 + g.steprow * (i : K)) (g.col0 + g.stepcol * (j : K)) - a| ≤ ε) →
      (∀ i j : ℕ, i < g.nbrow → j + 1 < g.nbcol →
        |gridInterp g data (altNorm g alt) (g.row0 + g.steprow * (i : K)) (g.col0 + g.stepcol * ((j + 1 : ℕ) : K)) -
          gridInterp g data (altNorm g alt) (g.row0 + g.steprow * (i : K)) (g.col0 + g.stepcol * (j : K)) - b| ≤ ε) →
      |gridInterp g data (altNorm g alt) row' col' - gridInterp g data (altNorm g alt) row col -
        (a * ((row' - row) / g.steprow) + b * ((col' - col) / g.stepcol))| ≤ (1 + 2 * ρ) * ε * stepDist g row col row' col' := by
    intro data a b h1 h2
    rw [gridInterp_lerp2 g data alt row' col' h.hn h.hr h.hc h.hdec h.hsr h.hsc,
      gridInterp_lerp2 g data alt row col h.hn h.hr h.hc h.hdec h.hsr h.hsc]
    have := lerp2_increment g.nbrow g.nbcol h.hr h.hc
      (fun i j => gridInterp g data (altNorm g alt) (g.row0 + g.steprow * i) (g.col0 + g.stepcol * j)) a b ε ρ h.hρ
      h1 h2 ((row - g.row0) / g.steprow) ((col - g.col0) / g.stepcol) ((row' - g.row0) / g.steprow) ((col' - g.col0) / g.stepcol) hv1 hv2
    have x1 : (row' - g.row0) / g.steprow - (row - g.row0) / g.steprow = (row' - row) / g.steprow := by ring
    have x2 : (col' - g.col0) / g.stepcol - (col - g.col0) / g.stepcol = (col' - col) / g.stepcol := by ring
    rw [x1, x2] at this
    exact this
  exact ⟨main g.lon lonRow lonCol h.hreg.hlonRow h.hreg.hlonCol, main g.lat latRow latCol h.hreg.hlatRow h.hreg.hlatCol⟩

theorem Converges.q_eq (h : Converges g alt lonRow lonCol latRow latCol ε ρ δ) :
    invSize lonRow lonCol latRow latCol * ((1 + 2 * ρ) * ε) = δ := h.hδ.symm

theorem Converges.delta_nonneg (h : Converges g alt lonRow lonCol latRow latCol ε ρ δ) : 0 ≤ δ := by
  rw [← h.q_eq]
  have h1 := invSize_nonneg lonRow lonCol latRow latCol
  have h2 := h.eps_nonneg
  have h3 := h.hρ
  positivity

/-- Positions near a covered one are valid. -/
theorem Converges.valid (h : Converges g alt lonRow lonCol latRow latCol ε ρ δ) (row col row' col' : K) (hcov : Covered g row col)
    (hd : stepDist g row col row' col' ≤ ρ)
    (hfar : FarFromBounds lonRow lonCol latRow latCol ε ρ (gridLonLat g row col alt).1 (gridLonLat g row col alt).2) :
    ValidLonLat (gridLonLat g row' col' alt).1 (gridLonLat g row' col' alt).2 := by
  obtain ⟨i1, i2⟩ := h.increment row col row' col' hcov hd
  have hε := h.eps_nonneg
  have hρ := h.hρ
  have hf : 0 ≤ (1 + 2 * ρ) * ε := by positivity
  have hx : |(row' - row) / g.steprow| ≤ stepDist g row col row' col' := by
    unfold stepDist; have := abs_nonneg ((col' - col) / g.stepcol); linarith
  have hy : |(col' - col) / g.stepcol| ≤ stepDist g row col row' col' := by
    unfold stepDist; have := abs_nonneg ((row' - row) / g.steprow); linarith
  have main : ∀ (a b p p' B : K), |p' - p - (a * ((row' - row) / g.steprow) + b * ((col' - col) / g.stepcol))| ≤
      (1 + 2 * ρ) * ε * stepDist g row col row' col' → |p| + (|a| + |b| + (1 + 2 * ρ) * ε) * ρ ≤ B → |p'| ≤ B := by
    intro a b p p' B hi hB
    have e : p' = p + ((a * ((row' - row) / g.steprow) + b * ((col' - col) / g.stepcol)) +
        (p' - p - (a * ((row' - row) / g.steprow) + b * ((col' - col) / g.stepcol)))) := by ring
    have t1 : |a * ((row' - row) / g.steprow)| ≤ |a| * ρ := by rw [abs_mul]; exact mul_le_mul_of_nonneg_left (hx.trans hd) (abs_nonneg a)
    have t2 : |b * ((col' - col) / g.stepcol)| ≤ |b| * ρ := by rw [abs_mul]; exact mul_le_mul_of_nonneg_left (hy.trans hd) (abs_nonneg b)
    have t3 : (1 + 2 * ρ) * ε * stepDist g row col row' col' ≤ (1 + 2 * ρ) * ε * ρ := mul_le_mul_of_nonneg_left hd hf
    rw [e]
    refine (abs_add_le _ _).trans ((add_le_add_right ((abs_add_le _ _).trans (add_le_add (abs_add_le _ _) hi)) _).trans ?_)
    linarith
  exact ⟨main lonRow lonCol _ _ 180 i1 hfar.1, main latRow latCol _ _ 90 i2 hfar.2⟩

/-- One turn of the loop. -/
theorem Converges.step (h : Converges g alt lonRow lonCol latRow latCol ε ρ δ) (rad rtx coslat : K) (hrad : rad ≠ 0)
    (row col row' col' : K) (e : Option K) (hcov : Covered g row col) (hd : stepDist g row col row' col' ≤ ρ)
    (hfar : g.geographic = true →
      FarFromBounds lonRow lonCol latRow latCol ε ρ (gridLonLat g row col alt).1 (gridLonLat g row col alt).2) :
    ∃ row'' col'' e'', gridStep g rad rtx coslat (gridLonLat g row col alt).1 (gridLonLat g row col alt).2 alt ⟨some row', some col', e⟩ =
        ⟨some row'', some col'', some e''⟩ ∧
      (1 - δ) * stepDist g row col row'' col'' ≤ 2 * δ * stepDist g row col row' col' ∧
      ∀ m, 0 ≤ rtx → 0 ≤ m → 1 / 1000000 < rtx * (rad * m) ^ 2 → 1 / 1000000 < rtx * (rad * coslat * m) ^ 2 →
        e'' ≤ 1 / 1000000 → (1 - δ) * stepDist g row col row' col' ≤ invSize lonRow lonCol latRow latCol * m := by
  set P := gridLonLat g row col alt with hP
  obtain ⟨i, j, hcell⟩ := exists_inCell g row' col' h.hr h.hc
  obtain ⟨J1, J2⟩ := C33_inverse_jacobian g rad row' col' alt i j h.hn h.hr h.hc h.hdec h.hsr h.hsc hcell
  obtain ⟨hi, hj, -, -, -, -⟩ := hcell
  obtain ⟨i1, i2⟩ := h.increment row col row' col' hcov hd
  have hp := gridPoint_eq_gridLonLat g row' col' alt fun hg => h.valid row col row' col' hcov hd (hfar hg)
  set P' := gridLonLat g row' col' alt with hP'
  have hε := h.eps_nonneg
  have hρ := h.hρ
  have hle : ε ≤ (1 + 2 * ρ) * ε := by
    have := mul_nonneg hρ hε
    linarith
  set a' := (nodeLonLat g alt (i + 1) j).1 - (nodeLonLat g alt i j).1 with ha'
  set b' := (nodeLonLat g alt i (j + 1)).1 - (nodeLonLat g alt i j).1 with hb'
  set c' := (nodeLonLat g alt (i + 1) j).2 - (nodeLonLat g alt i j).2 with hc'
  set d' := (nodeLonLat g alt i (j + 1)).2 - (nodeLonLat g alt i j).2 with hd'
  have n1 : |a' - lonRow| ≤ (1 + 2 * ρ) * ε := (h.hreg.hlonRow i j hi (by omega)).trans hle
  have n2 : |b' - lonCol| ≤ (1 + 2 * ρ) * ε := (h.hreg.hlonCol i j (by omega) hj).trans hle
  have n3 : |c' - latRow| ≤ (1 + 2 * ρ) * ε := (h.hreg.hlatRow i j hi (by omega)).trans hle
  have n4 : |d' - latCol| ≤ (1 + 2 * ρ) * ε := (h.hreg.hlatCol i j (by omega) hj).trans hle
  have hδ1 : δ < 1 := by have := h.hsmall; linarith
  have hreg' : a' * d' - b' * c' ≠ 0 := close_regular lonRow lonCol latRow latCol a' b' c' d' _ h.hdet n1 n2 n3 n4 (by rw [h.q_eq]; exact hδ1)
  have hJ : cellJacobian g rad alt i j = !![rad * b' / g.stepcol, rad * a' / g.steprow; rad * d' / g.stepcol, rad * c' / g.steprow] := by
    simp only [cellJacobian, ha', hb', hc', hd', nodeLonLat]
  have hdetJ : (cellJacobian g rad alt i j).det ≠ 0 := by
    rw [hJ, Matrix.det_fin_two_of]
    have e : rad * b' / g.stepcol * (rad * c' / g.steprow) - rad * a' / g.steprow * (rad * d' / g.stepcol) =
        -(rad ^ 2 * (a' * d' - b' * c') / (g.stepcol * g.steprow)) := by
      have := h.hsr
      have := h.hsc
      field_simp
      ring
    rw [e]
    exact neg_ne_zero.2 (div_ne_zero (mul_ne_zero (pow_ne_zero _ hrad) hreg') (mul_ne_zero h.hsc h.hsr))
  obtain ⟨m, hm⟩ : ∃ m, inversePartial g rad row' col' alt = some m := by
    cases hx : inversePartial g rad row' col' alt with
    | none => exact absurd (J2.1 hx) hdetJ
    | some m => exact ⟨m, rfl⟩
  have hJm := (J1 m hm).2
  rw [hJ, Matrix.mul_fin_two, Matrix.one_fin_two] at hJm
  have k1 := congrFun (congrFun hJm 0) 0
  have k2 := congrFun (congrFun hJm 0) 1
  have k3 := congrFun (congrFun hJm 1) 0
  have k4 := congrFun (congrFun hJm 1) 1
  simp at k1 k2 k3 k4
  refine ⟨row' - (m.2.2.1 * ((P'.1 - P.1) * rad) + m.2.2.2 * ((P'.2 - P.2) * rad)),
    col' - (m.1 * ((P'.1 - P.1) * rad) + m.2.1 * ((P'.2 - P.2) * rad)),
    rtx * (((P'.2 - P.2) * rad) ^ 2 + ((P'.1 - P.1) * rad * coslat) ^ 2), ?_, ?_, ?_⟩
  · simp only [gridStep, hp, hm]
  · set R := m.2.2.1 * ((P'.1 - P.1) * rad) + m.2.2.2 * ((P'.2 - P.2) * rad) with hR
    set C := m.1 * ((P'.1 - P.1) * rad) + m.2.1 * ((P'.2 - P.2) * rad) with hC
    have s1 : a' * (R / g.steprow) + b' * (C / g.stepcol) = P'.1 - P.1 := by
      apply mul_right_cancel₀ hrad
      have : (a' * (R / g.steprow) + b' * (C / g.stepcol)) * rad =
          (rad * b' / g.stepcol * m.1 + rad * a' / g.steprow * m.2.2.1) * ((P'.1 - P.1) * rad) +
          (rad * b' / g.stepcol * m.2.1 + rad * a' / g.steprow * m.2.2.2) * ((P'.2 - P.2) * rad) := by
        rw [hR, hC]; ring
      rw [this, k1, k2]; ring
    have s2 : c' * (R / g.steprow) + d' * (C / g.stepcol) = P'.2 - P.2 := by
      apply mul_right_cancel₀ hrad
      have : (c' * (R / g.steprow) + d' * (C / g.stepcol)) * rad =
          (rad * d' / g.stepcol * m.1 + rad * c' / g.steprow * m.2.2.1) * ((P'.1 - P.1) * rad) +
          (rad * d' / g.stepcol * m.2.1 + rad * c' / g.steprow * m.2.2.2) * ((P'.2 - P.2) * rad) := by
        rw [hR, hC]; ring
      rw [this, k3, k4]; ring
    have := newton_step lonRow lonCol latRow latCol a' b' c' d' ((1 + 2 * ρ) * ε) ((row' - row) / g.steprow) ((col' - col) / g.stepcol)
      (P'.1 - P.1) (P'.2 - P.2) ((row' - R - row) / g.steprow) ((col' - C - col) / g.stepcol) h.hdet n1 n2 n3 n4 i1 i2
      (by rw [← s1]; ring) (by rw [← s2]; ring)
    rw [h.q_eq] at this
    exact this
  · intro w hrtx hw hm1 hm2 he
    have small : ∀ z c : K, 1 / 1000000 < rtx * (rad * c * w) ^ 2 → rtx * (z * rad * c) ^ 2 ≤ 1 / 1000000 → |z| ≤ w := by
      intro z c hbig hsm
      by_contra hcon
      push Not at hcon
      have h2 : w ^ 2 ≤ z ^ 2 := by
        rw [← sq_abs z]
        exact pow_le_pow_left₀ hw hcon.le 2
      have h3 : rtx * (rad * c) ^ 2 * w ^ 2 ≤ rtx * (rad * c) ^ 2 * z ^ 2 := mul_le_mul_of_nonneg_left h2 (by positivity)
      have e1 : rtx * (rad * c * w) ^ 2 = rtx * (rad * c) ^ 2 * w ^ 2 := by ring
      have e2 : rtx * (z * rad * c) ^ 2 = rtx * (rad * c) ^ 2 * z ^ 2 := by ring
      rw [e1] at hbig
      rw [e2] at hsm
      linarith
    have z1 : 0 ≤ rtx * ((P'.2 - P.2) * rad) ^ 2 := by positivity
    have z2 : 0 ≤ rtx * ((P'.1 - P.1) * rad * coslat) ^ 2 := by positivity
    have g1 : |P'.1 - P.1| ≤ w := small _ coslat hm2 (by linarith)
    have g2 : |P'.2 - P.2| ≤ w := small _ 1 (by simpa using hm1) (by simp only [mul_one]; linarith)
    have := error_bound lonRow lonCol latRow latCol ((1 + 2 * ρ) * ε) ((row' - row) / g.steprow) ((col' - col) / g.stepcol)
      (P'.1 - P.1) (P'.2 - P.2) w h.hdet i1 i2 g1 g2
    rw [h.q_eq] at this
    exact this

/-- The loop. -/
theorem Converges.loop (h : Converges g alt lonRow lonCol latRow latCol ε ρ δ) (rad rtx coslat : K) (hrad : rad ≠ 0)
    (row col : K) (hcov : Covered g row col)
    (hfar : g.geographic = true →
      FarFromBounds lonRow lonCol latRow latCol ε ρ (gridLonLat g row col alt).1 (gridLonLat g row col alt).2) (n : ℕ) :
    ∀ (row' col' : K) (e : Option K) (D : K), stepDist g row col row' col' ≤ D → D ≤ ρ →
    ∃ r c e' k, gridLoop g rad rtx coslat (gridLonLat g row col alt).1 (gridLonLat g row col alt).2 alt n ⟨some row', some col', e⟩ =
        (⟨some r, some c, e'⟩, k) ∧ k ≤ n ∧ stepDist g row col r c ≤ (2 * δ / (1 - δ)) ^ k * D ∧ (k = 0 → r = row' ∧ c = col' ∧ e' = e) ∧
      (k < n → gridErrBig e' = false) ∧
      ∀ m, 0 ≤ rtx → 0 ≤ m → 1 / 1000000 < rtx * (rad * m) ^ 2 → 1 / 1000000 < rtx * (rad * coslat * m) ^ 2 → k < n → k ≠ 0 →
        stepDist g row col r c ≤ 2 * δ / (1 - δ) * (invSize lonRow lonCol latRow latCol * m / (1 - δ)) := by
  have hδ0 := h.delta_nonneg
  have hδ1 : 0 < 1 - δ := by have := h.hsmall; linarith
  have hκ : 0 ≤ 2 * δ / (1 - δ) := by positivity
  have hκ1 : 2 * δ / (1 - δ) ≤ 1 := by
    rw [div_le_one hδ1]
    have := h.hsmall
    linarith
  induction n with
  | zero =>
    intro row' col' e D hd hD
    exact ⟨row', col', e, 0, rfl, le_rfl, by simpa using hd, fun _ => ⟨rfl, rfl, rfl⟩, fun hk => by omega, fun m _ _ _ _ hk => by omega⟩
  | succ n ih =>
    intro row' col' e D hd hD
    simp only [gridLoop]
    by_cases hb : gridErrBig e = true
    · rw [if_pos hb]
      obtain ⟨row'', col'', e'', hs, hcontr, herr⟩ := h.step rad rtx coslat hrad row col row' col' e hcov (hd.trans hD) hfar
      rw [hs]
      have hc' : stepDist g row col row'' col'' ≤ 2 * δ / (1 - δ) * stepDist g row col row' col' := by
        rw [div_mul_eq_mul_div, le_div_iff₀ hδ1]
        linarith
      have hD' : stepDist g row col row'' col'' ≤ 2 * δ / (1 - δ) * D := hc'.trans (mul_le_mul_of_nonneg_left hd hκ)
      have hD0 : 0 ≤ D := (stepDist_nonneg g row col row' col').trans hd
      have hDρ : 2 * δ / (1 - δ) * D ≤ ρ := (mul_le_of_le_one_left hD0 hκ1).trans hD
      obtain ⟨r, c, e3, k, hl, hk, hdist, hzero, hstop, hend⟩ := ih row'' col'' (some e'') _ hD' hDρ
      rw [hl]
      refine ⟨r, c, e3, k + 1, rfl, by omega, ?_, fun h0 => by omega, fun hlt => hstop (by omega), ?_⟩
      · rw [pow_succ, mul_assoc]
        exact hdist
      · intro m h1 h2 h3 h4 hlt _
        by_cases hk0 : k = 0
        · obtain ⟨rfl, rfl, rfl⟩ := hzero hk0
          have hst := hstop (by omega)
          have hle : e'' ≤ 1 / 1000000 := by simpa [gridErrBig] using hst
          have := herr m h1 h2 h3 h4 hle
          refine hc'.trans (mul_le_mul_of_nonneg_left ?_ hκ)
          rw [le_div_iff₀ hδ1]
          linarith
        · exact hend m h1 h2 h3 h4 (by omega) hk0
    · rw [if_neg hb]
      exact ⟨row', col', e, 0, rfl, by omega, by simpa using hd, fun _ => ⟨rfl, rfl, rfl⟩, fun _ => by simpa using hb,
        fun m _ _ _ _ _ hk => absurd rfl hk⟩

/-! ### Convergence -/

/-- C75. Inverse location of the ground point seen from a position of the grid, from a prediction within `ρ` steps: it is always
finite, each turn divides the distance to that position by at least `(1 - δ) / (2 δ)`, and when the loop stops before the maximum
number of turns, because the ground error is below the threshold, the distance is bounded by the one this threshold gives: `m` is any
number of degrees over the threshold in latitude and in longitude. -/
theorem C75_inverse_converges (h : Converges g alt lonRow lonCol latRow latCol ε ρ δ) (rad rtx coslat : K) (hrad : rad ≠ 0)
    (row col : K) (hcov : Covered g row col)
    (hfar : g.geographic = true →
      FarFromBounds lonRow lonCol latRow latCol ε ρ (gridLonLat g row col alt).1 (gridLonLat g row col alt).2)
    (rowp colp : K) (hpred : stepDist g row col rowp colp ≤ ρ) (nb : ℕ) (hnb : 0 < nb) :
    ∃ r c e k, gridInverse g rad rtx coslat (gridLonLat g row col alt).1 (gridLonLat g row col alt).2 alt rowp colp nb =
        (⟨some r, some c, e⟩, k) ∧ 1 ≤ k ∧ k ≤ nb ∧
      stepDist g row col r c ≤ (2 * δ / (1 - δ)) ^ k * ρ ∧
      ∀ m, 0 ≤ rtx → 0 ≤ m → 1 / 1000000 < rtx * (rad * m) ^ 2 → 1 / 1000000 < rtx * (rad * coslat * m) ^ 2 → k < nb →
        stepDist g row col r c ≤ 2 * δ / (1 - δ) * ((|lonRow| + |lonCol| + |latRow| + |latCol|) /
          |lonRow * latCol - lonCol * latRow| * m / (1 - δ)) := by
  obtain ⟨r, c, e, k, hl, hk, hdist, hzero, hstop, hend⟩ := h.loop rad rtx coslat hrad row col hcov hfar nb rowp colp (some 10) ρ hpred le_rfl
  have hk0 : k ≠ 0 := by
    intro h0
    obtain ⟨-, -, rfl⟩ := hzero h0
    have := hstop (by omega)
    simp only [gridErrBig, decide_eq_false_iff_not] at this
    norm_num at this
  refine ⟨r, c, e, k, ?_, by omega, hk, hdist, fun m h1 h2 h3 h4 hlt => hend m h1 h2 h3 h4 hlt hk0⟩
  simp only [gridInverse, hl]
  rw [if_neg hk0]

/-- C75. Hence, whatever the number of turns, the final distance to the position. -/
theorem C75_final_distance (h : Converges g alt lonRow lonCol latRow latCol ε ρ δ) (rad rtx coslat m : K) (hrad : rad ≠ 0) (hrtx : 0 ≤ rtx)
    (hm : 0 ≤ m) (hm1 : 1 / 1000000 < rtx * (rad * m) ^ 2) (hm2 : 1 / 1000000 < rtx * (rad * coslat * m) ^ 2)
    (row col : K) (hcov : Covered g row col)
    (hfar : g.geographic = true →
      FarFromBounds lonRow lonCol latRow latCol ε ρ (gridLonLat g row col alt).1 (gridLonLat g row col alt).2)
    (rowp colp : K) (hpred : stepDist g row col rowp colp ≤ ρ) (nb : ℕ) (hnb : 0 < nb) :
    ∃ r c e, (gridInverse g rad rtx coslat (gridLonLat g row col alt).1 (gridLonLat g row col alt).2 alt rowp colp nb).1 =
        ⟨some r, some c, e⟩ ∧
      stepDist g row col r c ≤ max ((2 * δ / (1 - δ)) ^ nb * ρ) (2 * δ / (1 - δ) * ((|lonRow| + |lonCol| + |latRow| + |latCol|) /
          |lonRow * latCol - lonCol * latRow| * m / (1 - δ))) := by
  obtain ⟨r, c, e, k, hg, -, hk, hdist, hend⟩ := C75_inverse_converges h rad rtx coslat hrad row col hcov hfar rowp colp hpred nb hnb
  refine ⟨r, c, e, by rw [hg], ?_⟩
  rcases Nat.lt_or_ge k nb with hlt | hge
  · exact (hend m hrtx hm hm1 hm2 hlt).trans (le_max_right _ _)
  · have : k = nb := by omega
    rw [this] at hdist
    exact hdist.trans (le_max_left _ _)

end

/-! ### The round trip -/

/-- Specification: positions found back: NaN for a NaN pixel, else within `tol` steps of the grid. -/
def FoundBackWithin (g : MultiGrid K) (tol : K) (row col : List (Option K)) (rc : List (Option K × Option K)) : Prop :=
  rc.length = row.length ∧ ∀ (i : ℕ) (x y : Option K), row[i]? = some x → col[i]? = some y →
    (x = none ∨ y = none → rc[i]? = some (none, none)) ∧
    ∀ u v, x = some u → y = some v → ∃ u' v', rc[i]? = some (some u', some v') ∧ stepDist g u v u' v' ≤ tol

/-- C75. With a geographic grid and any elevation, image and output system: the pixels of a batch located at a given altitude and
located back are found, each at its place, within a number of steps of the grid that the irregularity of the grid, the error of the
prediction and the threshold of the loop give; NaN pixels give NaN. -/
theorem C75_round_trip (conv : ℕ → ℕ → ORow K → ORow K) (N : ℕ) (g : MultiGrid K) (hgeo : g.geographic = true) (p : Predictor K)
    (rad rtx : K) (cosdeg : K → K) (e : ℕ) (L : Localization K (ℕ × Dtm K)) (hL : L.model = gridGeo conv N g p rad rtx cosdeg e)
    (alt lonRow lonCol latRow latCol ε ρ δ : K) (h : Converges g alt lonRow lonCol latRow latCol ε ρ δ) (hrad : rad ≠ 0) (hrtx : 0 ≤ rtx)
    (m : K) (hm : 0 ≤ m) (hm1 : 1 / 1000000 < rtx * (rad * m) ^ 2) (row col : List (Option K)) (hcol : col.length = row.length)
    (hpix : ∀ (i : ℕ) (u v : K), row[i]? = some (some u) → col[i]? = some (some v) → Covered g u v ∧
      FarFromBounds lonRow lonCol latRow latCol ε ρ (gridLonLat g u v alt).1 (gridLonLat g u v alt).2 ∧
      1 / 1000000 < rtx * (rad * cosdeg (gridLonLat g u v alt).2 * m) ^ 2 ∧
      stepDist g u v (gridPredict g p (gridLonLat g u v alt).1 (gridLonLat g u v alt).2 alt).1
        (gridPredict g p (gridLonLat g u v alt).1 (gridLonLat g u v alt).2 alt).2.1 ≤ ρ)
    (hconv : ∀ e', L.epsg = some e' → e' ≠ e → UndoEachOther conv e e') :
    ∃ out rc alts, L.direct conv row col (some [some alt]) false = .ok out ∧
      L.inverse conv (out.map fun p => p.x) (out.map fun p => p.y) (some (out.map fun p => p.z)) false = .ok (some rc, alts) ∧
      FoundBackWithin g (max ((2 * δ / (1 - δ)) ^ 15 * ρ) (2 * δ / (1 - δ) * ((|lonRow| + |lonCol| + |latRow| + |latCol|) /
          |lonRow * latCol - lonCol * latRow| * m / (1 - δ)))) row col rc := by
  set G : List (ORow K) := (row.zip col).map fun t => gridPoint g t.1 t.2 (some alt) with hG
  have hval : ∀ (i : ℕ) (u v : K), row[i]? = some (some u) → col[i]? = some (some v) →
      ValidLonLat (gridLonLat g u v alt).1 (gridLonLat g u v alt).2 := by
    intro i u v hu hv
    obtain ⟨c1, c2, -, -⟩ := hpix i u v hu hv
    exact h.valid u v u v c1 (by unfold stepDist; simpa using h.hρ) c2
  have hpt : ∀ (i : ℕ) (x y : Option K), row[i]? = some x → col[i]? = some y →
      G[i]? = some (gridPoint g x y (some alt)) := by
    intro i x y hx hy
    rw [hG, List.getElem?_map, (List.getElem?_zip_eq_some (z := (x, y))).2 ⟨hx, hy⟩]
    rfl
  have hnanpt : ∀ x y : Option K, x = none ∨ y = none → gridPoint g x y (some alt) = nanRow := by
    intro x y hxy
    simp only [gridPoint, hgeo, if_true]
    rcases hxy with rfl | rfl
    · exact checkRow_nan (Or.inl rfl)
    · cases x <;> exact checkRow_nan (Or.inl rfl)
  have hmem : ∀ q ∈ G, q = nanRow ∨ ∃ lon lat, q = ⟨some lon, some lat, some alt⟩ ∧ ValidLonLat lon lat := by
    intro q hq
    obtain ⟨i, hi⟩ := List.getElem?_of_mem hq
    have hlt : i < row.length := by
      have := (List.getElem?_eq_some_iff.1 hi).1
      rw [hG] at this
      simpa [hcol] using this
    have hx : row[i]? = some row[i] := by simp [hlt]
    have hy : col[i]? = some (col[i]'(by omega)) := by simp [hcol, hlt]
    have hq' := hpt i _ _ hx hy
    rw [hi] at hq'
    simp only [Option.some.injEq] at hq'
    subst hq'
    cases hxv : row[i] with
    | none => left; exact hnanpt _ _ (Or.inl rfl)
    | some u =>
      cases hyv : col[i]'(by omega) with
      | none => left; exact hnanpt _ _ (Or.inr rfl)
      | some v =>
        right
        have := hval i u v (by rw [hx, hxv]) (by rw [hy, hyv])
        exact ⟨_, _, gridPoint_eq_gridLonLat g u v alt (fun _ => this), this⟩
  have hnr : ∀ q ∈ G, gridPointRaises g p rad rtx cosdeg 15 q.x q.y q.z = false := by
    intro q hq
    obtain ⟨i, hi⟩ := List.getElem?_of_mem hq
    have hlt : i < row.length := by
      have := (List.getElem?_eq_some_iff.1 hi).1
      rw [hG] at this
      simpa [hcol] using this
    have hx : row[i]? = some row[i] := by simp [hlt]
    have hy : col[i]? = some (col[i]'(by omega)) := by simp [hcol, hlt]
    have hq' := hpt i _ _ hx hy
    rw [hi] at hq'
    simp only [Option.some.injEq] at hq'
    subst hq'
    cases hxv : row[i] with
    | none => rw [hnanpt _ _ (Or.inl rfl)]; exact not_raises_of_nan rfl
    | some u =>
      cases hyv : col[i]'(by omega) with
      | none => rw [hnanpt _ _ (Or.inr rfl)]; exact not_raises_of_nan rfl
      | some v =>
        have hx' : row[i]? = some (some u) := by rw [hx, hxv]
        have hy' : col[i]? = some (some v) := by rw [hy, hyv]
        have hv := hval i u v hx' hy'
        obtain ⟨c1, c2, c3, c4⟩ := hpix i u v hx' hy'
        rw [gridPoint_eq_gridLonLat g u v alt (fun _ => hv)]
        obtain ⟨r, c, er, hg, hd⟩ := C75_final_distance h rad rtx (cosdeg (gridLonLat g u v alt).2) m hrad hrtx hm hm1 c3 u v c1 (fun _ => c2)
          _ _ c4 15 (by norm_num)
        refine not_raises_of_located (.inl ?_)
        simp only [gridInversePoint, checkRow_valid hv, hg]
        simp
  obtain ⟨out, h1, h2⟩ := C53_round_trip conv L row col [some alt] G
    (G.map fun q => ((gridInversePoint g p rad rtx cosdeg 15 q.x q.y q.z).x, (gridInversePoint g p rad rtx cosdeg 15 q.x q.y q.z).y))
    (by
      rw [hL, show (gridGeo conv N g p rad rtx cosdeg e).directH = gridDirectLocH g from rfl]
      exact gridDirectLocH_pts g row col (some alt) hcol)
    (by
      rw [hL]
      simp only [gridGeo, gridInverseLoc_rows _ _ _ _ _ _ _ hnr]
      simp)
    (by
      intro e' he' hne q hq
      rw [hL] at hne ⊢
      obtain ⟨c1, c2⟩ := hconv e' he' hne
      rcases hmem q hq with rfl | ⟨lon, lat, rfl, hv⟩
      · exact c1
      · exact c2 _ _ _ hv)
  refine ⟨out, _, _, h1, h2, by simp [hG, hcol], fun i x y hx hy => ⟨fun hnan => ?_, fun u v hu hv => ?_⟩⟩
  · rw [List.getElem?_map, hpt i x y hx hy, hnanpt x y hnan]
    rfl
  · subst hu hv
    obtain ⟨c1, c2, c3, c4⟩ := hpix i u v hx hy
    have hv := hval i u v hx hy
    rw [List.getElem?_map, hpt i _ _ hx hy, gridPoint_eq_gridLonLat g u v alt (fun _ => hv)]
    obtain ⟨r, c, er, hg, hd⟩ := C75_final_distance h rad rtx (cosdeg (gridLonLat g u v alt).2) m hrad hrtx hm hm1 c3 u v c1 (fun _ => c2)
      _ _ c4 15 (by norm_num)
    refine ⟨r, c, ?_, hd⟩
    simp only [Option.map_some, gridInversePoint, checkRow_valid hv, hg]

/-! ### A case -/

/-- A grid whose cells are not parallelograms, all different. -/
def curvedGrid : MultiGrid ℚ := { demoGrid with lon := fun k i j => 2 + i / 100 + j / 50 + k / 200 + i * j / 10000 }

/-- A predictor, affine at each of the two altitudes, which neglects the curvature. -/
def linearPredictor : Predictor ℚ where
  colMin := ![-8 / 19, 800 / 19, 600 / 19, 0, 0, 0]
  rowMin := ![-3 / 19, 300 / 19, -1200 / 19, 0, 0, 0]
  colMax := ![0, 400 / 9, 200 / 9, 0, 0, 0]
  rowMax := ![0, 100 / 9, -400 / 9, 0, 0, 0]
  lonOff := 2
  lonScale := 1
  latOff := 40
  latScale := 1
  rowOff := 1 / 2
  rowScale := 100
  colOff := 3 / 2
  colScale := 200

theorem curvedGrid_converges : Converges curvedGrid 100 (101 / 10000) (401 / 20000) (-17 / 1140) (1 / 200) (1 / 10000) (1 / 4) (171213 / 7968400) where
  hn := by decide
  hr := by decide
  hc := by decide
  hdec := by
    intro i j hij hj
    have hj' : j < 3 := hj
    interval_cases j <;> interval_cases i <;> decide +kernel
  hsr := by decide +kernel
  hsc := by decide +kernel
  hreg := by
    constructor
    · intro i j hi hj
      have hi' : i + 1 < 2 := hi
      have hi'' : i < 1 := by omega
      have hj' : j < 3 := hj
      interval_cases i; interval_cases j <;> decide +kernel
    · intro i j hi hj
      have hi' : i < 2 := hi
      have hj' : j + 1 < 3 := hj
      have hj'' : j < 2 := by omega
      interval_cases i <;> interval_cases j <;> decide +kernel
    · intro i j hi hj
      have hi' : i + 1 < 2 := hi
      have hi'' : i < 1 := by omega
      have hj' : j < 3 := hj
      interval_cases i; interval_cases j <;> decide +kernel
    · intro i j hi hj
      have hi' : i < 2 := hi
      have hj' : j + 1 < 3 := hj
      have hj'' : j < 2 := by omega
      interval_cases i <;> interval_cases j <;> decide +kernel
  hdet := by norm_num
  hρ := by norm_num
  hδ := by norm_num [abs_of_pos, abs_of_neg]
  hsmall := by norm_num

/-- The hypotheses of `C75_round_trip` for three pixels, one at a corner of the grid and one NaN, and what it says: they are found
back within a millionth of a step. -/
example (L : Localization ℚ (ℕ × Dtm ℚ))
    (hL : L.model = gridGeo (fun _ _ p => p) 50 curvedGrid linearPredictor 17453 (40678884 / 1000000) (fun _ => 766 / 1000) 4326) :
    ∃ out rc alts, L.direct (fun _ _ p => p) [some 60, none, some (1 / 2)] [some 250, some 10, some (3 / 2)] (some [some 100]) false = .ok out ∧
      L.inverse (fun _ _ p => p) (out.map fun p => p.x) (out.map fun p => p.y) (some (out.map fun p => p.z)) false = .ok (some rc, alts) ∧
      FoundBackWithin curvedGrid (1 / 1000000) [some 60, none, some (1 / 2)] [some 250, some 10, some (3 / 2)] rc := by
  have key : ∀ u v : ℚ, (u, v) = (60, 250) ∨ (u, v) = (1 / 2, 3 / 2) → Covered curvedGrid u v ∧
      FarFromBounds (101 / 10000) (401 / 20000) (-17 / 1140) (1 / 200) (1 / 10000) (1 / 4) (gridLonLat curvedGrid u v 100).1
        (gridLonLat curvedGrid u v 100).2 ∧
      stepDist curvedGrid u v (gridPredict curvedGrid linearPredictor (gridLonLat curvedGrid u v 100).1 (gridLonLat curvedGrid u v 100).2 100).1
        (gridPredict curvedGrid linearPredictor (gridLonLat curvedGrid u v 100).1 (gridLonLat curvedGrid u v 100).2 100).2.1 ≤ 1 / 4 := by
    rintro u v (huv | huv)
    all_goals
      obtain ⟨rfl, rfl⟩ := Prod.mk.inj huv
      unfold Covered FarFromBounds
      decide +kernel
  obtain ⟨out, rc, alts, h1, h2, h3⟩ := C75_round_trip (fun _ _ p => p) 50 curvedGrid rfl linearPredictor 17453 (40678884 / 1000000)
    (fun _ => 766 / 1000) 4326 L hL 100 _ _ _ _ _ _ _ curvedGrid_converges (by norm_num) (by norm_num) (2 / 100000000) (by norm_num) (by norm_num)
    [some 60, none, some (1 / 2)] [some 250, some 10, some (3 / 2)] rfl (by
      intro i u v hu hv
      have : (u, v) = ((60 : ℚ), (250 : ℚ)) ∨ (u, v) = (1 / 2, 3 / 2) := by
        match i with
        | 0 => left; simp at hu hv; simp [← hu, ← hv]
        | 1 => simp at hu
        | 2 => right; simp at hu hv; simp [← hu, ← hv]
        | (n + 3) => simp at hu
      obtain ⟨k1, k2, k3⟩ := key u v this
      exact ⟨k1, k2, by norm_num, k3⟩)
    (fun _ _ _ => ⟨rfl, fun _ _ _ _ => rfl⟩)
  refine ⟨out, rc, alts, h1, h2, h3.1, fun i x y hx hy => ⟨(h3.2 i x y hx hy).1, fun u v hu hv => ?_⟩⟩
  obtain ⟨u', v', e1, e2⟩ := (h3.2 i x y hx hy).2 u v hu hv
  refine ⟨u', v', e1, e2.trans ?_⟩
  rw [max_le_iff]
  constructor <;> norm_num [abs_of_pos, abs_of_neg]

end Shareloc
