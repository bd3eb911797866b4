import Verif.Model.GridPredictor
import Verif.Props.GridConverge
import Verif.Props.DtmRange

/-!
# C34, C78: the predictor that a grid estimates for itself
-/

set_option linter.unusedSectionVars false

namespace Shareloc
open Spec
open scoped BigOperators
variable {K : Type*} [Field K] [LinearOrder K] [IsStrictOrderedRing K] [FloorRing K]

/-! ### Specification -/

/-- Row number `i` of `n` rows evenly spaced from the first to the last row of the grid. -/
def evenRow (g : MultiGrid K) (n i : ℕ) : K := g.row0 + (i : K) / ((n : K) - 1) * (g.steprow * ((g.nbrow : K) - 1))

/-- Column number `j` of `n` columns evenly spaced from the first to the last column of the grid. -/
def evenCol (g : MultiGrid K) (n j : ℕ) : K := g.col0 + (j : K) / ((n : K) - 1) * (g.stepcol * ((g.nbcol : K) - 1))

/-- The highest altitude of the grid (`false`) or the lowest one (`true`). -/
def extremeAlt (g : MultiGrid K) (low : Bool) : K := if low then g.alts (g.nbalt - 1) else g.alts 0

/-! ### The sampled nodes -/

theorem evenRow_ends (g : MultiGrid K) (n : ℕ) (hn : 2 ≤ n) :
    evenRow g n 0 = g.row0 ∧ evenRow g n (n - 1) = g.row0 + g.steprow * ((g.nbrow : K) - 1) := by
  have : (n : K) - 1 ≠ 0 := by
    have : (2 : K) ≤ n := by exact_mod_cast hn
    intro h; linarith
  unfold evenRow
  rw [Nat.cast_sub (by omega)]
  refine ⟨by simp, ?_⟩
  push_cast
  rw [div_self this, one_mul]

theorem evenCol_ends (g : MultiGrid K) (n : ℕ) (hn : 2 ≤ n) :
    evenCol g n 0 = g.col0 ∧ evenCol g n (n - 1) = g.col0 + g.stepcol * ((g.nbcol : K) - 1) := by
  have : (n : K) - 1 ≠ 0 := by
    have : (2 : K) ≤ n := by exact_mod_cast hn
    intro h; linarith
  unfold evenCol
  rw [Nat.cast_sub (by omega)]
  refine ⟨by simp, ?_⟩
  push_cast
  rw [div_self this, one_mul]

/-- C34. The nodes on which the predictor is fitted are the locations, by the grid itself, of positions evenly spaced over the whole
grid, at its highest altitude and at its lowest one. -/
theorem C34_samples (g : MultiGrid K) (nbrow nbcol : ℕ) (low : Bool) (i j : ℕ) (hi : i < nbrow) (hj : j < nbcol) :
    gridDirectLocH g [some (evenRow g nbrow i)] [some (evenCol g nbcol j)] [some (extremeAlt g low)] =
      .ok [gridInAltitude g nbrow nbcol 2 low.toNat i j] := by
  have halt : linspace (g.alts 0) (g.alts (g.nbalt - 1)) 2 low.toNat = extremeAlt g low := by
    cases low
    · simp [linspace, extremeAlt]
    · simp only [linspace, extremeAlt, Bool.toNat_true, if_true]
      push_cast
      ring
  obtain ⟨f, hf, hget⟩ := C32_grid_is_pointwise g g.row0 g.col0
    ((g.row0 + g.steprow * ((g.nbrow : K) - 1) - g.row0) / ((nbrow : K) - 1))
    ((g.col0 + g.stepcol * ((g.nbcol : K) - 1) - g.col0) / ((nbcol : K) - 1)) nbrow nbcol (extremeAlt g low)
  have e1 : g.row0 + (i : K) * ((g.row0 + g.steprow * ((g.nbrow : K) - 1) - g.row0) / ((nbrow : K) - 1)) = evenRow g nbrow i := by
    unfold evenRow; ring
  have e2 : g.col0 + (j : K) * ((g.col0 + g.stepcol * ((g.nbcol : K) - 1) - g.col0) / ((nbcol : K) - 1)) = evenCol g nbcol j := by
    unfold evenCol; ring
  have := hget i hi j hj
  rw [e1, e2] at this
  rw [this]
  unfold gridInAltitude
  simp only [halt, hf]

/-! ### The fit -/

theorem sum_cells (f : ℕ → ℕ → K) (n c : ℕ) (hc : 0 < c) :
    ∑ m : Fin (n * c), f (m.val / c) (m.val % c) = ∑ i ∈ Finset.range n, ∑ j ∈ Finset.range c, f i j := by
  rw [Fin.sum_univ_eq_sum_range (fun m => f (m / c) (m % c)) (n * c)]
  induction n with
  | zero => simp
  | succ n ih =>
    rw [Nat.succ_mul, Finset.sum_range_add, ih, Finset.sum_range_succ]
    congr 1
    apply Finset.sum_congr rfl
    intro j hj
    have hj := Finset.mem_range.1 hj
    rw [show n * c + j = j + n * c by ring, Nat.add_mul_div_right _ _ hc, Nat.div_eq_of_lt hj, Nat.zero_add, Nat.add_mul_mod_self_right,
      Nat.mod_eq_of_lt hj]

/-- A quadratic polynomial of the longitude and latitude is one of the normalised longitude and latitude. -/
theorem quad6_normalised (c : Fin 6 → K) (xo xs yo ys o s : K) (hs : s ≠ 0) (hx : xs ≠ 0) (hy : ys ≠ 0) :
    ∃ c' : Fin 6 → K, ∀ x y, quad6 c x y = quad6 c' ((x - xo) / xs) ((y - yo) / ys) * s + o := by
  refine ⟨![(quad6 c xo yo - o) / s, xs * (c 1 + 2 * c 3 * xo + c 5 * yo) / s, ys * (c 2 + 2 * c 4 * yo + c 5 * xo) / s,
    c 3 * xs ^ 2 / s, c 4 * ys ^ 2 / s, c 5 * xs * ys / s], fun x y => ?_⟩
  obtain ⟨u, hu⟩ : ∃ u, u = (x - xo) / xs := ⟨_, rfl⟩
  obtain ⟨v, hv⟩ : ∃ v, v = (y - yo) / ys := ⟨_, rfl⟩
  have ex : x = xo + xs * u := by rw [hu]; field_simp; ring
  have ey : y = yo + ys * v := by rw [hv]; field_simp; ring
  rw [← hu, ← hv, ex, ey]
  simp [quad6]
  field_simp
  ring

theorem predict_sum (c : Fin 6 → K) (a b : K) : ∑ i, c i * predMonomials a b i = quad6 c a b := by
  simp [predMonomials, quad6, Fin.sum_univ_succ]
  ring

theorem normalDet_eq {n : ℕ} (x y : Fin n → K) :
    normalDet x y = ((designMatrix x y).transpose * designMatrix x y).det := rfl

theorem sampledNodes_mem (g : MultiGrid K) (nbrow nbcol : ℕ) (f : ORow K → Option K) (low : Bool) (i j : ℕ) (hi : i < nbrow)
    (hj : j < nbcol) : f (gridInAltitude g nbrow nbcol 2 low.toNat i j) ∈ sampledNodes g nbrow nbcol f := by
  simp only [sampledNodes, List.mem_flatMap, List.mem_map, List.mem_range]
  exact ⟨low.toNat, by cases low <;> decide, i, hi, j, hj, rfl⟩

/-- The parts of a predictor estimated by the grid. -/
theorem ownPredictor_some (g : MultiGrid K) (nbrow nbcol : ℕ) (p : Predictor K) (hp : ownPredictor g nbrow nbcol = some p) :
    ∃ (lon lat : ℕ → ℕ → ℕ → K) (lonMin lonMax latMin latMax : K),
      (∀ (low : Bool), ∀ i < nbrow, ∀ j < nbcol, (gridInAltitude g nbrow nbcol 2 low.toNat i j).x = some (lon low.toNat i j) ∧
        (gridInAltitude g nbrow nbcol 2 low.toNat i j).y = some (lat low.toNat i j)) ∧
      lonMin ≠ lonMax ∧ latMin ≠ latMax ∧
      (∀ low : Bool, normalDet (n := nbrow * nbcol) (fun m => normPos lon lonMin lonMax low.toNat (m.val / nbcol) (m.val % nbcol))
        (fun m => normPos lat latMin latMax low.toNat (m.val / nbcol) (m.val % nbcol)) ≠ 0) ∧
      p = estimatePredictor g nbrow nbcol lon lat lonMin lonMax latMin latMax := by
  unfold ownPredictor at hp
  simp only at hp
  split at hp
  case h_2 => cases hp
  case h_1 a b c d ha hb hc hd =>
    split_ifs at hp with hcond
    push Not at hcond
    obtain ⟨h1, h2, h3, h4⟩ := hcond
    refine ⟨_, _, a, b, c, d, ?_, h1.symm, h2.symm, ?_, (Option.some.inj hp).symm⟩
    · intro low i hi j hj
      obtain ⟨v, hv, -⟩ := (olistMin_spec _ _ ha).1 _ (sampledNodes_mem g nbrow nbcol (fun p => p.x) low i j hi hj)
      obtain ⟨w, hw, -⟩ := (olistMin_spec _ _ hc).1 _ (sampledNodes_mem g nbrow nbcol (fun p => p.y) low i j hi hj)
      exact ⟨by simp [hv], by simp [hw]⟩
    · intro low
      cases low
      · exact h3
      · exact h4

theorem gridPoint_defined (g : MultiGrid K) (row col alt x : K) (h : (gridPoint g (some row) (some col) (some alt)).x = some x) :
    gridPoint g (some row) (some col) (some alt) = ⟨some (gridLonLat g row col alt).1, some (gridLonLat g row col alt).2, some alt⟩ := by
  by_cases hv : g.geographic = true → ValidLonLat (gridLonLat g row col alt).1 (gridLonLat g row col alt).2
  · exact gridPoint_eq_gridLonLat g row col alt hv
  · push Not at hv
    simp only [gridPoint, hv.1, if_true] at h
    have hv2 : ¬ ValidLonLat (gridInterp g g.lon (altNorm g alt) row col) (gridInterp g g.lat (altNorm g alt) row col) := hv.2
    rw [checkRow_invalid hv2] at h
    cases h

theorem gridDirectLocH_one (g : MultiGrid K) (r c a : Option K) : gridDirectLocH g [r] [c] [a] = .ok [gridPoint g r c a] := by
  simp [gridDirectLocH, broadcastAlt]

/-- The prediction at one of the two altitudes of the fit. -/
theorem gridPredict_extreme (g : MultiGrid K) (p : Predictor K) (halt : g.alts 0 ≠ g.alts (g.nbalt - 1)) (low : Bool) (lon lat : K) :
    (gridPredict g p lon lat (extremeAlt g low)).1 =
      quad6 (if low then p.rowMin else p.rowMax) ((lon - p.lonOff) / p.lonScale) ((lat - p.latOff) / p.latScale) * p.rowScale + p.rowOff ∧
    (gridPredict g p lon lat (extremeAlt g low)).2.1 =
      quad6 (if low then p.colMin else p.colMax) ((lon - p.lonOff) / p.lonScale) ((lat - p.latOff) / p.latScale) * p.colScale + p.colOff := by
  have hd : g.alts 0 - g.alts (g.nbalt - 1) ≠ 0 := sub_ne_zero.2 halt
  cases low
  · simp [gridPredict, predict_sum, extremeAlt, div_self hd]
  · simp [gridPredict, predict_sum, extremeAlt]

theorem range_scale_ne (s : K) (hs : s ≠ 0) (n : ℕ) (hn : 2 ≤ n) (o : K) : (o + s * ((n : K) - 1) - o) / 2 ≠ 0 := by
  have : (2 : K) ≤ n := by exact_mod_cast hn
  have h1 : (n : K) - 1 ≠ 0 := by intro h; linarith
  have h2 : o + s * ((n : K) - 1) - o = s * ((n : K) - 1) := by ring
  rw [h2]
  exact div_ne_zero (mul_ne_zero hs h1) two_ne_zero

/-- C34. The predictor that a grid estimates for itself is, at each of the two altitudes of the fit, the least squares fit of the rows
and of the columns of the nodes: no quadratic polynomial of the longitude and the latitude has a smaller sum of squared errors on the
nodes, and the nodes are located by the grid itself. -/
theorem C34_own_least_squares (g : MultiGrid K) (nbrow nbcol : ℕ) (hr : 2 ≤ nbrow) (hc : 2 ≤ nbcol) (hgr : 2 ≤ g.nbrow) (hgc : 2 ≤ g.nbcol)
    (hsr : g.steprow ≠ 0) (hsc : g.stepcol ≠ 0) (halt : g.alts 0 ≠ g.alts (g.nbalt - 1)) (p : Predictor K)
    (hp : ownPredictor g nbrow nbcol = some p) (low : Bool) :
    ∃ lon lat : ℕ → ℕ → K,
      (∀ i < nbrow, ∀ j < nbcol, gridDirectLocH g [some (evenRow g nbrow i)] [some (evenCol g nbcol j)] [some (extremeAlt g low)] =
        .ok [⟨some (lon i j), some (lat i j), some (extremeAlt g low)⟩]) ∧
      ∀ c : Fin 6 → K,
        ∑ i ∈ Finset.range nbrow, ∑ j ∈ Finset.range nbcol,
            (evenRow g nbrow i - (gridPredict g p (lon i j) (lat i j) (extremeAlt g low)).1) ^ 2 ≤
          ∑ i ∈ Finset.range nbrow, ∑ j ∈ Finset.range nbcol, (evenRow g nbrow i - quad6 c (lon i j) (lat i j)) ^ 2 ∧
        ∑ i ∈ Finset.range nbrow, ∑ j ∈ Finset.range nbcol,
            (evenCol g nbcol j - (gridPredict g p (lon i j) (lat i j) (extremeAlt g low)).2.1) ^ 2 ≤
          ∑ i ∈ Finset.range nbrow, ∑ j ∈ Finset.range nbcol, (evenCol g nbcol j - quad6 c (lon i j) (lat i j)) ^ 2 := by
  obtain ⟨lon, lat, lonMin, lonMax, latMin, latMax, hnode, hx, hy, hdet, rfl⟩ := ownPredictor_some g nbrow nbcol p hp
  refine ⟨lon low.toNat, lat low.toNat, ?_, ?_⟩
  · intro i hi j hj
    obtain ⟨h1, h2⟩ := hnode low i hi j hj
    have hs := C34_samples g nbrow nbcol low i j hi hj
    rw [gridDirectLocH_one] at hs
    simp only [Except.ok.injEq, List.cons.injEq, and_true] at hs
    rw [← hs] at h1 h2
    have hd := gridPoint_defined g _ _ _ _ h1
    rw [hd] at h1 h2
    simp only [Option.some.injEq] at h1 h2
    rw [gridDirectLocH_one, hd, h1, h2]
  · intro c
    have hxs : (lonMax - lonMin) / 2 ≠ 0 := div_ne_zero (sub_ne_zero.2 hx.symm) two_ne_zero
    have hys : (latMax - latMin) / 2 ≠ 0 := div_ne_zero (sub_ne_zero.2 hy.symm) two_ne_zero
    have hrs := range_scale_ne g.steprow hsr g.nbrow hgr g.row0
    have hcs := range_scale_ne g.stepcol hsc g.nbcol hgc g.col0
    set x : Fin (nbrow * nbcol) → K := fun m => normPos lon lonMin lonMax low.toNat (m.val / nbcol) (m.val % nbcol) with hxdef
    set y : Fin (nbrow * nbcol) → K := fun m => normPos lat latMin latMax low.toNat (m.val / nbcol) (m.val % nbcol) with hydef
    have hdet' := hdet low
    rw [normalDet_eq] at hdet'
    have n1 : (nbrow : K) - 1 ≠ 0 := by
      have : (2 : K) ≤ nbrow := by exact_mod_cast hr
      intro h; linarith
    have n2 : (nbcol : K) - 1 ≠ 0 := by
      have : (2 : K) ≤ nbcol := by exact_mod_cast hc
      intro h; linarith
    have key : ∀ (o s : K) (hs : s ≠ 0) (b : ℕ → ℕ → K) (v : ℕ → ℕ → K) (hb : ∀ i j, v i j = b i j * s + o),
        ∑ i ∈ Finset.range nbrow, ∑ j ∈ Finset.range nbcol,
            (v i j - (quad6 (predFit x y fun m => b (m.val / nbcol) (m.val % nbcol))
              ((lon low.toNat i j - (lonMax + lonMin) / 2) / ((lonMax - lonMin) / 2))
              ((lat low.toNat i j - (latMax + latMin) / 2) / ((latMax - latMin) / 2)) * s + o)) ^ 2 ≤
          ∑ i ∈ Finset.range nbrow, ∑ j ∈ Finset.range nbcol, (v i j - quad6 c (lon low.toNat i j) (lat low.toNat i j)) ^ 2 := by
      intro o s hs b v hb
      obtain ⟨c', hc'⟩ := quad6_normalised c ((lonMax + lonMin) / 2) ((lonMax - lonMin) / 2) ((latMax + latMin) / 2)
        ((latMax - latMin) / 2) o s hs hxs hys
      have hls := (C34_least_squares x y (fun m => b (m.val / nbcol) (m.val % nbcol)) hdet' c').1
      rw [← sum_cells _ nbrow nbcol (by omega), ← sum_cells _ nbrow nbcol (by omega)]
      have e1 : ∀ (q : Fin 6 → K) (m : Fin (nbrow * nbcol)),
          (v (m.val / nbcol) (m.val % nbcol) - (quad6 q
              ((lon low.toNat (m.val / nbcol) (m.val % nbcol) - (lonMax + lonMin) / 2) / ((lonMax - lonMin) / 2))
              ((lat low.toNat (m.val / nbcol) (m.val % nbcol) - (latMax + latMin) / 2) / ((latMax - latMin) / 2)) * s + o)) ^ 2 =
            s ^ 2 * (b (m.val / nbcol) (m.val % nbcol) - quad6 q (x m) (y m)) ^ 2 := by
        intro q m
        rw [hb]
        simp only [hxdef, hydef, normPos]
        ring
      simp only [hc', e1]
      rw [← Finset.mul_sum, ← Finset.mul_sum]
      exact mul_le_mul_of_nonneg_left hls (sq_nonneg s)
    constructor
    · have := key ((g.row0 + g.steprow * ((g.nbrow : K) - 1) + g.row0) / 2) ((g.row0 + g.steprow * ((g.nbrow : K) - 1) - g.row0) / 2) hrs
        (fun i _ => linspace (-1) 1 nbrow i) (fun i _ => evenRow g nbrow i) (by
          intro i _
          simp only [linspace, evenRow]
          field_simp
          ring)
      simp only [(gridPredict_extreme g _ halt low _ _).1]
      cases low <;> exact this
    · have := key ((g.col0 + g.stepcol * ((g.nbcol : K) - 1) + g.col0) / 2) ((g.col0 + g.stepcol * ((g.nbcol : K) - 1) - g.col0) / 2) hcs
        (fun _ j => linspace (-1) 1 nbcol j) (fun _ j => evenCol g nbcol j) (by
          intro _ j
          simp only [linspace, evenCol]
          field_simp
          ring)
      simp only [(gridPredict_extreme g _ halt low _ _).2]
      cases low <;> exact this

/-! ### The exact case -/

/-- Six nodes of a triangle, seen through an invertible affine map, are on no quadratic curve. -/
theorem six_nodes_generic (c : Fin 6 → K) (x0 xi xj y0 yi yj : K) (hD : xi * yj - xj * yi ≠ 0)
    (h : ∀ i < 3, ∀ j < 3, quad6 c (x0 + xi * ((i : ℕ) : K) + xj * ((j : ℕ) : K)) (y0 + yi * ((i : ℕ) : K) + yj * ((j : ℕ) : K)) = 0) :
    c = 0 := by
  have h00 := h 0 (by decide) 0 (by decide)
  have h01 := h 0 (by decide) 1 (by decide)
  have h02 := h 0 (by decide) 2 (by decide)
  have h10 := h 1 (by decide) 0 (by decide)
  have h11 := h 1 (by decide) 1 (by decide)
  have h20 := h 2 (by decide) 0 (by decide)
  simp only [quad6] at *
  push_cast at *
  have q1 : c 3 * xi ^ 2 + c 4 * yi ^ 2 + c 5 * xi * yi = 0 := by linear_combination (1 / 2) * h20 - h10 + (1 / 2) * h00
  have q2 : c 3 * xj ^ 2 + c 4 * yj ^ 2 + c 5 * xj * yj = 0 := by linear_combination (1 / 2) * h02 - h01 + (1 / 2) * h00
  have q3 : 2 * c 3 * xi * xj + 2 * c 4 * yi * yj + c 5 * (xi * yj + xj * yi) = 0 := by linear_combination h11 - h10 - h01 + h00
  have hD2 : (xi * yj - xj * yi) ^ 2 ≠ 0 := pow_ne_zero 2 hD
  have c3 : c 3 = 0 := by
    have : (xi * yj - xj * yi) ^ 2 * c 3 = 0 := by linear_combination yj ^ 2 * q1 + yi ^ 2 * q2 - yi * yj * q3
    exact (mul_eq_zero.1 this).resolve_left hD2
  have c4 : c 4 = 0 := by
    have : (xi * yj - xj * yi) ^ 2 * c 4 = 0 := by linear_combination xj ^ 2 * q1 + xi ^ 2 * q2 - xi * xj * q3
    exact (mul_eq_zero.1 this).resolve_left hD2
  have c5 : c 5 = 0 := by
    have : (xi * yj - xj * yi) ^ 2 * c 5 = 0 := by
      linear_combination -2 * xj * yj * q1 - 2 * xi * yi * q2 + (xi * yj + xj * yi) * q3
    exact (mul_eq_zero.1 this).resolve_left hD2
  rw [c3, c4, c5] at h00 h01 h10
  have l1 : c 1 * xi + c 2 * yi = 0 := by linear_combination h10 - h00
  have l2 : c 1 * xj + c 2 * yj = 0 := by linear_combination h01 - h00
  have c1 : c 1 = 0 := by
    have : (xi * yj - xj * yi) * c 1 = 0 := by linear_combination yj * l1 - yi * l2
    exact (mul_eq_zero.1 this).resolve_left hD
  have c2 : c 2 = 0 := by
    have : (xi * yj - xj * yi) * c 2 = 0 := by linear_combination -xj * l1 + xi * l2
    exact (mul_eq_zero.1 this).resolve_left hD
  rw [c1, c2] at h00
  have c0 : c 0 = 0 := by linear_combination h00
  ext i
  fin_cases i <;> simp [c0, c1, c2, c3, c4, c5]

/-- The fit on nodes seen through an invertible affine map. -/
theorem predFit_affine (n c : ℕ) (hn : 3 ≤ n) (hc : 3 ≤ c) (x0 xi xj y0 yi yj : K) (hD : xi * yj - xj * yi ≠ 0)
    (x y b : Fin (n * c) → K) (hx : ∀ m, x m = x0 + xi * ((m.val / c : ℕ) : K) + xj * ((m.val % c : ℕ) : K))
    (hy : ∀ m, y m = y0 + yi * ((m.val / c : ℕ) : K) + yj * ((m.val % c : ℕ) : K))
    (α β γ : K) (hb : ∀ m, b m = α + β * ((m.val / c : ℕ) : K) + γ * ((m.val % c : ℕ) : K)) :
    normalDet x y ≠ 0 ∧
      ∀ s t, quad6 (predFit x y b) (x0 + xi * s + xj * t) (y0 + yi * s + yj * t) = α + β * s + γ * t := by
  have hdet : normalDet x y ≠ 0 := by
    rw [normalDet_eq, C34_invertible_iff]
    intro q hq
    apply six_nodes_generic q x0 xi xj y0 yi yj hD
    intro i hi j hj
    have hlt : i * c + j < n * c := by
      calc i * c + j < i * c + c := by omega
        _ = (i + 1) * c := by ring
        _ ≤ n * c := Nat.mul_le_mul_right _ (by omega)
    have := hq ⟨i * c + j, hlt⟩
    rw [hx, hy] at this
    have e1 : (i * c + j) / c = i := by
      rw [Nat.add_comm, Nat.add_mul_div_right _ _ (by omega), Nat.div_eq_of_lt (by omega), Nat.zero_add]
    have e2 : (i * c + j) % c = j := by
      rw [Nat.add_comm, Nat.add_mul_mod_self_right, Nat.mod_eq_of_lt (by omega)]
    simp only [e1, e2] at this
    exact this
  refine ⟨hdet, ?_⟩
  set D := xi * yj - xj * yi with hDdef
  have hrep := C34_reproduces x y b
    ![α + β * ((-yj * x0 + xj * y0) / D) + γ * ((yi * x0 - xi * y0) / D), (β * yj - γ * yi) / D, (-β * xj + γ * xi) / D, 0, 0, 0]
    (by rw [← normalDet_eq]; exact hdet)
  have hval : ∀ s t, quad6 ![α + β * ((-yj * x0 + xj * y0) / D) + γ * ((yi * x0 - xi * y0) / D), (β * yj - γ * yi) / D,
      (-β * xj + γ * xi) / D, 0, 0, 0] (x0 + xi * s + xj * t) (y0 + yi * s + yj * t) = α + β * s + γ * t := by
    intro s t
    simp [quad6]
    field_simp
    rw [hDdef]
    ring
  rw [hrep (fun m => by rw [hx, hy, hb, hval])]
  exact hval

/-- Specification: an invertible affine view, the ground position of the pixel `(row, col)` being `(lon row col, lat row col)`. -/
structure AffineView (K : Type*) where
  lon0 : K
  lonRow : K
  lonCol : K
  lat0 : K
  latRow : K
  latCol : K

/-- The ground position of a pixel. -/
def AffineView.ground (v : AffineView K) (row col : K) : K × K :=
  (v.lon0 + v.lonRow * row + v.lonCol * col, v.lat0 + v.latRow * row + v.latCol * col)

/-- At altitude `alt` the grid locates every position of the image by the invertible affine view `v`, and the positions of the image that
it covers have a longitude and a latitude in range if the grid is geographic. -/
structure SeesBy (g : MultiGrid K) (alt : K) (v : AffineView K) : Prop where
  hloc : ∀ row col, gridLonLat g row col alt = v.ground row col
  hinv : v.lonRow * v.latCol - v.lonCol * v.latRow ≠ 0
  hvalid : g.geographic = true → ∀ row col, Covered g row col → ValidLonLat (v.ground row col).1 (v.ground row col).2

theorem even_covered (g : MultiGrid K) (hsr : g.steprow ≠ 0) (hsc : g.stepcol ≠ 0) (hgr : 2 ≤ g.nbrow) (hgc : 2 ≤ g.nbcol)
    (n c i j : ℕ) (hn : 2 ≤ n) (hc : 2 ≤ c) (hi : i < n) (hj : j < c) : Covered g (evenRow g n i) (evenCol g c j) := by
  have key : ∀ (o s : K) (N m k : ℕ), s ≠ 0 → 2 ≤ N → 2 ≤ m → k < m →
      0 ≤ (o + (k : K) / ((m : K) - 1) * (s * ((N : K) - 1)) - o) / s ∧
      (o + (k : K) / ((m : K) - 1) * (s * ((N : K) - 1)) - o) / s ≤ (N : K) - 1 := by
    intro o s N m k hs hN hm hk
    have h1 : (2 : K) ≤ N := by exact_mod_cast hN
    have h2 : (2 : K) ≤ m := by exact_mod_cast hm
    have h3 : (k : K) + 1 ≤ m := by exact_mod_cast hk
    have h4 : (0 : K) ≤ k := Nat.cast_nonneg k
    have e : (o + (k : K) / ((m : K) - 1) * (s * ((N : K) - 1)) - o) / s = (k : K) / ((m : K) - 1) * ((N : K) - 1) := by
      field_simp
      ring
    rw [e]
    have h5 : (k : K) / ((m : K) - 1) ≤ 1 := (div_le_one (by linarith)).2 (by linarith)
    have h6 : 0 ≤ (k : K) / ((m : K) - 1) := div_nonneg h4 (by linarith)
    constructor
    · exact mul_nonneg h6 (by linarith)
    · nlinarith
  exact ⟨(key _ _ _ _ _ hsr hgr hn hi).1, (key _ _ _ _ _ hsr hgr hn hi).2, (key _ _ _ _ _ hsc hgc hc hj).1, (key _ _ _ _ _ hsc hgc hc hj).2⟩

/-- The nodes seen by an affine view. -/
theorem sampled_affine (g : MultiGrid K) (nbrow nbcol : ℕ) (hr : 2 ≤ nbrow) (hc : 2 ≤ nbcol) (hgr : 2 ≤ g.nbrow) (hgc : 2 ≤ g.nbcol)
    (hsr : g.steprow ≠ 0) (hsc : g.stepcol ≠ 0) (low : Bool) (v : AffineView K) (h : SeesBy g (extremeAlt g low) v) (i j : ℕ)
    (hi : i < nbrow) (hj : j < nbcol) :
    gridInAltitude g nbrow nbcol 2 low.toNat i j =
      ⟨some (v.ground (evenRow g nbrow i) (evenCol g nbcol j)).1, some (v.ground (evenRow g nbrow i) (evenCol g nbcol j)).2,
        some (extremeAlt g low)⟩ := by
  have hs := C34_samples g nbrow nbcol low i j hi hj
  rw [gridDirectLocH_one] at hs
  simp only [Except.ok.injEq, List.cons.injEq, and_true] at hs
  rw [← hs, gridPoint_eq_gridLonLat, h.hloc]
  intro hgeo
  rw [h.hloc]
  exact h.hvalid hgeo _ _ (even_covered g hsr hsc hgr hgc nbrow nbcol i j hr hc hi hj)

theorem olistMin_some (l : List (Option K)) (hne : l ≠ []) (h : ∀ o ∈ l, o ≠ none) : ∃ m, olistMin l = some m := by
  cases l with
  | nil => exact absurd rfl hne
  | cons o l =>
    cases o with
    | none => exact absurd rfl (h none (by simp))
    | some a => exact foldl_omin_some l a fun o ho => h o (by simp [ho])

theorem olistMax_some (l : List (Option K)) (hne : l ≠ []) (h : ∀ o ∈ l, o ≠ none) : ∃ m, olistMax l = some m := by
  cases l with
  | nil => exact absurd rfl hne
  | cons o l =>
    cases o with
    | none => exact absurd rfl (h none (by simp))
    | some a => exact foldl_omax_some l a fun o ho => h o (by simp [ho])

theorem sampledNodes_range (g : MultiGrid K) (nbrow nbcol : ℕ) (hr : 0 < nbrow) (hc : 0 < nbcol) (f : ORow K → Option K)
    (h : ∀ (low : Bool), ∀ i < nbrow, ∀ j < nbcol, f (gridInAltitude g nbrow nbcol 2 low.toNat i j) ≠ none) :
    ∃ mn mx, olistMin (sampledNodes g nbrow nbcol f) = some mn ∧ olistMax (sampledNodes g nbrow nbcol f) = some mx ∧
      ∀ (low : Bool), ∀ i < nbrow, ∀ j < nbcol, ∀ w, f (gridInAltitude g nbrow nbcol 2 low.toNat i j) = some w → mn ≤ w ∧ w ≤ mx := by
  have hne : sampledNodes g nbrow nbcol f ≠ [] := List.ne_nil_of_mem (sampledNodes_mem g nbrow nbcol f false 0 0 hr hc)
  have hall : ∀ o ∈ sampledNodes g nbrow nbcol f, o ≠ none := by
    intro o ho
    simp only [sampledNodes, List.mem_flatMap, List.mem_map, List.mem_range] at ho
    obtain ⟨k, hk, i, hi, j, hj, rfl⟩ := ho
    have : k = 0 ∨ k = 1 := by omega
    rcases this with rfl | rfl
    · exact h false i hi j hj
    · exact h true i hi j hj
  obtain ⟨mn, hmn⟩ := olistMin_some _ hne hall
  obtain ⟨mx, hmx⟩ := olistMax_some _ hne hall
  refine ⟨mn, mx, hmn, hmx, fun low i hi j hj w hw => ?_⟩
  have hm := sampledNodes_mem g nbrow nbcol f low i j hi hj
  obtain ⟨a, ha, ha'⟩ := (olistMin_spec _ _ hmn).1 _ hm
  obtain ⟨b, hb, hb'⟩ := (olistMax_spec _ _ hmx).1 _ hm
  rw [hw] at ha hb
  simp only [Option.some.injEq] at ha hb
  subst ha hb
  exact ⟨ha', hb'⟩

/-- C34. A grid that sees by invertible affine views at its two extreme altitudes estimates a predictor, and at these altitudes the predictor
gives exactly the row and the column of every ground position, inside or outside the grid. -/
theorem C34_own_predictor_exact (g : MultiGrid K) (nbrow nbcol : ℕ) (hr : 3 ≤ nbrow) (hc : 3 ≤ nbcol) (hgr : 2 ≤ g.nbrow) (hgc : 2 ≤ g.nbcol)
    (hsr : g.steprow ≠ 0) (hsc : g.stepcol ≠ 0) (halt : g.alts 0 ≠ g.alts (g.nbalt - 1)) (v : Bool → AffineView K)
    (hv : ∀ low, SeesBy g (extremeAlt g low) (v low)) :
    ∃ p, ownPredictor g nbrow nbcol = some p ∧ ∀ (low : Bool) (row col : K),
      (gridPredict g p ((v low).ground row col).1 ((v low).ground row col).2 (extremeAlt g low)).1 = row ∧
      (gridPredict g p ((v low).ground row col).1 ((v low).ground row col).2 (extremeAlt g low)).2.1 = col := by
  have hnode := fun low i hi j hj => sampled_affine g nbrow nbcol (by omega) (by omega) hgr hgc hsr hsc low (v low) (hv low) i j hi hj
  obtain ⟨lonMin, lonMax, hm1, hm2, hm3⟩ := sampledNodes_range g nbrow nbcol (by omega) (by omega) (fun p => p.x)
    (fun low i hi j hj => by rw [hnode low i hi j hj]; simp)
  obtain ⟨latMin, latMax, hl1, hl2, hl3⟩ := sampledNodes_range g nbrow nbcol (by omega) (by omega) (fun p => p.y)
    (fun low i hi j hj => by rw [hnode low i hi j hj]; simp)
  have n1 : (nbrow : K) - 1 ≠ 0 := by
    have : (3 : K) ≤ nbrow := by exact_mod_cast hr
    intro h; linarith
  have n2 : (nbcol : K) - 1 ≠ 0 := by
    have : (3 : K) ≤ nbcol := by exact_mod_cast hc
    intro h; linarith
  have g1 : (g.nbrow : K) - 1 ≠ 0 := by
    have : (2 : K) ≤ g.nbrow := by exact_mod_cast hgr
    intro h; linarith
  have g2 : (g.nbcol : K) - 1 ≠ 0 := by
    have : (2 : K) ≤ g.nbcol := by exact_mod_cast hgc
    intro h; linarith
  set sr := g.steprow * ((g.nbrow : K) - 1) / ((nbrow : K) - 1) with hsrd
  set sc := g.stepcol * ((g.nbcol : K) - 1) / ((nbcol : K) - 1) with hscd
  have hsr0 : sr ≠ 0 := div_ne_zero (mul_ne_zero hsr g1) n1
  have hsc0 : sc ≠ 0 := div_ne_zero (mul_ne_zero hsc g2) n2
  have er : ∀ i : ℕ, evenRow g nbrow i = g.row0 + sr * i := by
    intro i; rw [hsrd, evenRow]; ring
  have ec : ∀ j : ℕ, evenCol g nbcol j = g.col0 + sc * j := by
    intro j; rw [hscd, evenCol]; ring
  have hx : lonMin ≠ lonMax := by
    intro he
    have hall : ∀ low, ∀ i < nbrow, ∀ j < nbcol, ((v low).ground (evenRow g nbrow i) (evenCol g nbcol j)).1 = lonMin := by
      intro low i hi j hj
      have := hm3 low i hi j hj _ (by rw [hnode low i hi j hj])
      rw [← he] at this
      exact le_antisymm this.2 this.1
    have h00 := hall false 0 (by omega) 0 (by omega)
    have h01 := hall false 0 (by omega) 1 (by omega)
    have h10 := hall false 1 (by omega) 0 (by omega)
    simp only [AffineView.ground, er, ec] at h00 h01 h10
    push_cast at h00 h01 h10
    have a1 : (v false).lonRow * sr = 0 := by linear_combination h10 - h00
    have a2 : (v false).lonCol * sc = 0 := by linear_combination h01 - h00
    have b1 := (mul_eq_zero.1 a1).resolve_right hsr0
    have b2 := (mul_eq_zero.1 a2).resolve_right hsc0
    exact (hv false).hinv (by rw [b1, b2]; ring)
  have hy : latMin ≠ latMax := by
    intro he
    have hall : ∀ low, ∀ i < nbrow, ∀ j < nbcol, ((v low).ground (evenRow g nbrow i) (evenCol g nbcol j)).2 = latMin := by
      intro low i hi j hj
      have := hl3 low i hi j hj _ (by rw [hnode low i hi j hj])
      rw [← he] at this
      exact le_antisymm this.2 this.1
    have h00 := hall false 0 (by omega) 0 (by omega)
    have h01 := hall false 0 (by omega) 1 (by omega)
    have h10 := hall false 1 (by omega) 0 (by omega)
    simp only [AffineView.ground, er, ec] at h00 h01 h10
    push_cast at h00 h01 h10
    have a1 : (v false).latRow * sr = 0 := by linear_combination h10 - h00
    have a2 : (v false).latCol * sc = 0 := by linear_combination h01 - h00
    have b1 := (mul_eq_zero.1 a1).resolve_right hsr0
    have b2 := (mul_eq_zero.1 a2).resolve_right hsc0
    exact (hv false).hinv (by rw [b1, b2]; ring)
  have hxs : (lonMax - lonMin) / 2 ≠ 0 := div_ne_zero (sub_ne_zero.2 hx.symm) two_ne_zero
  have hys : (latMax - latMin) / 2 ≠ 0 := div_ne_zero (sub_ne_zero.2 hy.symm) two_ne_zero
  set lon : ℕ → ℕ → ℕ → K := fun k i j => (gridInAltitude g nbrow nbcol 2 k i j).x.getD 0 with hlon
  set lat : ℕ → ℕ → ℕ → K := fun k i j => (gridInAltitude g nbrow nbcol 2 k i j).y.getD 0 with hlat
  set xs := (lonMax - lonMin) / 2 with hxsd
  set xo := (lonMax + lonMin) / 2 with hxod
  set ys := (latMax - latMin) / 2 with hysd
  set yo := (latMax + latMin) / 2 with hyod
  have hm : ∀ m : Fin (nbrow * nbcol), m.val / nbcol < nbrow ∧ m.val % nbcol < nbcol := fun m =>
    ⟨(Nat.div_lt_iff_lt_mul (by omega)).2 m.isLt, Nat.mod_lt _ (by omega)⟩
  have hfit : ∀ (low : Bool) (b : Fin (nbrow * nbcol) → K) (α β γ : K)
      (_ : ∀ m, b m = α + β * ((m.val / nbcol : ℕ) : K) + γ * ((m.val % nbcol : ℕ) : K)),
      normalDet (fun m : Fin (nbrow * nbcol) => (lon low.toNat (m.val / nbcol) (m.val % nbcol) - xo) / xs)
        (fun m : Fin (nbrow * nbcol) => (lat low.toNat (m.val / nbcol) (m.val % nbcol) - yo) / ys) ≠ 0 ∧
      ∀ row col, quad6 (predFit (fun m : Fin (nbrow * nbcol) => (lon low.toNat (m.val / nbcol) (m.val % nbcol) - xo) / xs)
        (fun m : Fin (nbrow * nbcol) => (lat low.toNat (m.val / nbcol) (m.val % nbcol) - yo) / ys) b)
          ((((v low).ground row col).1 - xo) / xs) ((((v low).ground row col).2 - yo) / ys) =
        α + β * ((row - g.row0) / sr) + γ * ((col - g.col0) / sc) := by
    intro low b α β γ hb
    have := predFit_affine nbrow nbcol hr hc
      (((v low).lon0 + (v low).lonRow * g.row0 + (v low).lonCol * g.col0 - xo) / xs) ((v low).lonRow * sr / xs) ((v low).lonCol * sc / xs)
      (((v low).lat0 + (v low).latRow * g.row0 + (v low).latCol * g.col0 - yo) / ys) ((v low).latRow * sr / ys) ((v low).latCol * sc / ys)
      (by
        have : (v low).lonRow * sr / xs * ((v low).latCol * sc / ys) - (v low).lonCol * sc / xs * ((v low).latRow * sr / ys) =
            ((v low).lonRow * (v low).latCol - (v low).lonCol * (v low).latRow) * (sr * sc / (xs * ys)) := by
          field_simp
        rw [this]
        exact mul_ne_zero (hv low).hinv (div_ne_zero (mul_ne_zero hsr0 hsc0) (mul_ne_zero hxs hys)))
      (fun m : Fin (nbrow * nbcol) => (lon low.toNat (m.val / nbcol) (m.val % nbcol) - xo) / xs)
      (fun m : Fin (nbrow * nbcol) => (lat low.toNat (m.val / nbcol) (m.val % nbcol) - yo) / ys) b
      (by
        intro m
        simp only [hlon, hnode low _ (hm m).1 _ (hm m).2, Option.getD_some, AffineView.ground, er, ec]
        ring)
      (by
        intro m
        simp only [hlat, hnode low _ (hm m).1 _ (hm m).2, Option.getD_some, AffineView.ground, er, ec]
        ring) α β γ hb
    refine ⟨this.1, fun row col => ?_⟩
    rw [← this.2]
    congr 1
    · simp only [AffineView.ground]
      field_simp
      ring
    · simp only [AffineView.ground]
      field_simp
      ring
  have hdet := fun low => (hfit low (fun _ => 0) 0 0 0 (fun m => by ring)).1
  refine ⟨estimatePredictor g nbrow nbcol lon lat lonMin lonMax latMin latMax, ?_, ?_⟩
  · unfold ownPredictor
    simp only [hm1, hm2, hl1, hl2]
    refine if_neg ?_
    push Not
    exact ⟨hx.symm, hy.symm, hdet false, hdet true⟩
  · intro low row col
    obtain ⟨p1, p2⟩ := gridPredict_extreme g (estimatePredictor g nbrow nbcol lon lat lonMin lonMax latMin latMax) halt low
      ((v low).ground row col).1 ((v low).ground row col).2
    rw [p1, p2]
    have f1 := (hfit low (fun m => linspace (-1) 1 nbrow (m.val / nbcol)) (-1) (2 / ((nbrow : K) - 1)) 0
      (by intro m; simp only [linspace]; ring)).2 row col
    have f2 := (hfit low (fun m => linspace (-1) 1 nbcol (m.val % nbcol)) (-1) 0 (2 / ((nbcol : K) - 1))
      (by intro m; simp only [linspace]; ring)).2 row col
    have e1 : (-1 + 2 / ((nbrow : K) - 1) * ((row - g.row0) / sr) + 0 * ((col - g.col0) / sc)) *
        ((g.row0 + g.steprow * ((g.nbrow : K) - 1) - g.row0) / 2) + (g.row0 + g.steprow * ((g.nbrow : K) - 1) + g.row0) / 2 = row := by
      rw [hsrd]
      field_simp
      ring
    have e2 : (-1 + 0 * ((row - g.row0) / sr) + 2 / ((nbcol : K) - 1) * ((col - g.col0) / sc)) *
        ((g.col0 + g.stepcol * ((g.nbcol : K) - 1) - g.col0) / 2) + (g.col0 + g.stepcol * ((g.nbcol : K) - 1) + g.col0) / 2 = col := by
      rw [hscd]
      field_simp
      ring
    rw [← f1] at e1
    rw [← f2] at e2
    cases low
    · exact ⟨e1, e2⟩
    · exact ⟨e1, e2⟩

/-! ### C78: a grid of parallel rays -/

/-- Specification: the nodes of the grid file sample parallel rays: the pixel `(row, col)` is seen at altitude `alt` at its position
`v.ground row col` at altitude 0 plus `alt` times `(lonUp, latUp)`. -/
structure ParallelRays (g : MultiGrid K) (v : AffineView K) (lonUp latUp : K) : Prop where
  hn : 2 ≤ g.nbalt
  hr : 2 ≤ g.nbrow
  hc : 2 ≤ g.nbcol
  hdec : Decreasing g.nbalt g.alts
  hsr : g.steprow ≠ 0
  hsc : g.stepcol ≠ 0
  hlon : ∀ k < g.nbalt, ∀ i < g.nbrow, ∀ j < g.nbcol,
    g.lon k i j = (v.ground (g.row0 + g.steprow * (i : ℕ)) (g.col0 + g.stepcol * (j : ℕ))).1 + g.alts k * lonUp
  hlat : ∀ k < g.nbalt, ∀ i < g.nbrow, ∀ j < g.nbcol,
    g.lat k i j = (v.ground (g.row0 + g.steprow * (i : ℕ)) (g.col0 + g.stepcol * (j : ℕ))).2 + g.alts k * latUp
  hinv : v.lonRow * v.latCol - v.lonCol * v.latRow ≠ 0

section
variable {g : MultiGrid K} {v : AffineView K} {lonUp latUp : K}

theorem ParallelRays.affine (h : ParallelRays g v lonUp latUp) : AffineLayers g g.lon ∧ AffineLayers g g.lat := by
  refine ⟨⟨fun k => v.lon0 + v.lonRow * g.row0 + v.lonCol * g.col0 + g.alts k * lonUp, fun _ => v.lonRow * g.steprow,
    fun _ => v.lonCol * g.stepcol, fun k hk i hi j hj => ?_⟩, ⟨fun k => v.lat0 + v.latRow * g.row0 + v.latCol * g.col0 + g.alts k * latUp,
    fun _ => v.latRow * g.steprow, fun _ => v.latCol * g.stepcol, fun k hk i hi j hj => ?_⟩⟩
  · rw [h.hlon k hk i hi j hj, AffineView.ground]; ring
  · rw [h.hlat k hk i hi j hj, AffineView.ground]; ring

/-- Such a grid locates every position of the image at every altitude on its ray. -/
theorem ParallelRays.located (h : ParallelRays g v lonUp latUp) (row col alt : K) :
    gridLonLat g row col alt = ((v.ground row col).1 + alt * lonUp, (v.ground row col).2 + alt * latUp) := by
  obtain ⟨u, -, hu1, hu2, -, -⟩ := C30_bracketing g alt h.hn h.hdec
  have hne : g.alts u - g.alts (u + 1) ≠ 0 := sub_ne_zero.2 (ne_of_gt (h.hdec u (u + 1) (by omega) hu1))
  have l1 : ∀ k < g.nbalt, gridLayer g g.lon k row col = (v.ground row col).1 + g.alts k * lonUp := by
    intro k hk
    rw [gridLayer_affine g g.lon (fun k => v.lon0 + v.lonRow * g.row0 + v.lonCol * g.col0 + g.alts k * lonUp) (fun _ => v.lonRow * g.steprow)
      (fun _ => v.lonCol * g.stepcol) h.hr h.hc (fun k hk i hi j hj => by rw [h.hlon k hk i hi j hj, AffineView.ground]; ring) k hk]
    have := h.hsr
    have := h.hsc
    simp only [AffineView.ground]
    field_simp
    ring
  have l2 : ∀ k < g.nbalt, gridLayer g g.lat k row col = (v.ground row col).2 + g.alts k * latUp := by
    intro k hk
    rw [gridLayer_affine g g.lat (fun k => v.lat0 + v.latRow * g.row0 + v.latCol * g.col0 + g.alts k * latUp) (fun _ => v.latRow * g.steprow)
      (fun _ => v.latCol * g.stepcol) h.hr h.hc (fun k hk i hi j hj => by rw [h.hlat k hk i hi j hj, AffineView.ground]; ring) k hk]
    have := h.hsr
    have := h.hsc
    simp only [AffineView.ground]
    field_simp
    ring
  simp only [gridLonLat, gridInterp_alt g _ _ _ alt h.hn h.hdec, ← hu2, l1 u (by omega), l1 (u + 1) hu1, l2 u (by omega), l2 (u + 1) hu1]
  refine Prod.ext ?_ ?_ <;> (simp only; field_simp; ring)

/-- Two pixels seen at the same place from the same altitude are equal. -/
theorem AffineView.ground_inj (v : AffineView K) (hinv : v.lonRow * v.latCol - v.lonCol * v.latRow ≠ 0) (r c r' c' a b : K)
    (h1 : (v.ground r c).1 + a = (v.ground r' c').1 + a) (h2 : (v.ground r c).2 + b = (v.ground r' c').2 + b) : r = r' ∧ c = c' := by
  simp only [AffineView.ground] at h1 h2
  have e1 : (v.lonRow * v.latCol - v.lonCol * v.latRow) * (r - r') = 0 := by linear_combination v.latCol * h1 - v.lonCol * h2
  have e2 : (v.lonRow * v.latCol - v.lonCol * v.latRow) * (c - c') = 0 := by linear_combination -v.latRow * h1 + v.lonRow * h2
  exact ⟨sub_eq_zero.1 ((mul_eq_zero.1 e1).resolve_left hinv), sub_eq_zero.1 ((mul_eq_zero.1 e2).resolve_left hinv)⟩

/-- C78. A grid of parallel rays estimates a predictor that gives exactly the row and the column of every ground position at every
altitude. -/
theorem C78_own_prediction (h : ParallelRays g v lonUp latUp) (nbrow nbcol : ℕ) (hr : 3 ≤ nbrow) (hc : 3 ≤ nbcol)
    (hvalid : g.geographic = true → ∀ (low : Bool) (row col : K), Covered g row col →
      ValidLonLat (gridLonLat g row col (extremeAlt g low)).1 (gridLonLat g row col (extremeAlt g low)).2) :
    ∃ p, ownPredictor g nbrow nbcol = some p ∧ ∀ row col alt : K,
      (gridPredict g p (gridLonLat g row col alt).1 (gridLonLat g row col alt).2 alt).1 = row ∧
      (gridPredict g p (gridLonLat g row col alt).1 (gridLonLat g row col alt).2 alt).2.1 = col := by
  have hne : g.alts 0 ≠ g.alts (g.nbalt - 1) := ne_of_gt (h.hdec 0 (g.nbalt - 1) (by have := h.hn; omega) (by have := h.hn; omega))
  let w : Bool → AffineView K := fun low => { v with lon0 := v.lon0 + extremeAlt g low * lonUp, lat0 := v.lat0 + extremeAlt g low * latUp }
  have hw : ∀ low row col, (w low).ground row col =
      ((v.ground row col).1 + extremeAlt g low * lonUp, (v.ground row col).2 + extremeAlt g low * latUp) := by
    intro low row col
    simp only [w, AffineView.ground]
    refine Prod.ext ?_ ?_ <;> simp only <;> ring
  obtain ⟨p, hp, hex⟩ := C34_own_predictor_exact g nbrow nbcol hr hc h.hr h.hc h.hsr h.hsc hne w (fun low =>
    ⟨fun row col => by rw [h.located, hw], h.hinv, fun hgeo row col hcov => by
      have := hvalid hgeo low row col hcov
      rwa [h.located, ← hw] at this⟩)
  refine ⟨p, hp, fun row col alt => ?_⟩
  set D := v.lonRow * v.latCol - v.lonCol * v.latRow with hD
  have hDne : D ≠ 0 := h.hinv
  -- the same ground position seen from another altitude
  have hshift : ∀ low, gridLonLat g row col alt = (w low).ground
      (row + (alt - extremeAlt g low) * ((v.latCol * lonUp - v.lonCol * latUp) / D))
      (col + (alt - extremeAlt g low) * ((-v.latRow * lonUp + v.lonRow * latUp) / D)) := by
    intro low
    rw [h.located, hw]
    simp only [AffineView.ground]
    refine Prod.ext ?_ ?_
    · simp only
      field_simp
      rw [hD]
      ring
    · simp only
      field_simp
      rw [hD]
      ring
  have h0 := hex false (row + (alt - extremeAlt g false) * ((v.latCol * lonUp - v.lonCol * latUp) / D))
      (col + (alt - extremeAlt g false) * ((-v.latRow * lonUp + v.lonRow * latUp) / D))
  have h1 := hex true (row + (alt - extremeAlt g true) * ((v.latCol * lonUp - v.lonCol * latUp) / D))
      (col + (alt - extremeAlt g true) * ((-v.latRow * lonUp + v.lonRow * latUp) / D))
  rw [← hshift] at h0 h1
  set lon := (gridLonLat g row col alt).1
  set lat := (gridLonLat g row col alt).2
  have hd : g.alts 0 - g.alts (g.nbalt - 1) ≠ 0 := sub_ne_zero.2 hne
  set t := (alt - g.alts (g.nbalt - 1)) / (g.alts 0 - g.alts (g.nbalt - 1)) with ht
  have ea : (1 - t) * g.alts (g.nbalt - 1) + t * g.alts 0 = alt := by
    rw [ht]; field_simp; ring
  obtain ⟨a1, a2⟩ := C34_affine_in_altitude g p lon lat t hne
  simp only [ea] at a1 a2
  simp only [extremeAlt, Bool.false_eq_true, if_false, if_true] at h0 h1
  rw [a1, a2, h0.1, h0.2, h1.1, h1.2]
  constructor
  · linear_combination ((v.latCol * lonUp - v.lonCol * latUp) / D) * (-ea)
  · linear_combination ((-v.latRow * lonUp + v.lonRow * latUp) / D) * (-ea)

theorem ParallelRays.det (h : ParallelRays g v lonUp latUp) {rad : K} (hrad : rad ≠ 0) (alt r c : K) : inversePartial g rad r c alt ≠ none := by
  intro hnone
  obtain ⟨d1, d2⟩ := gridLonLat_affine g h.hn h.hr h.hc h.hdec h.affine.1 h.affine.2 alt r c r (c + 1)
  obtain ⟨d3, d4⟩ := gridLonLat_affine g h.hn h.hr h.hc h.hdec h.affine.1 h.affine.2 alt r c (r + 1) c
  simp only [h.located, AffineView.ground] at d1 d2 d3 d4
  simp only [inversePartial] at hnone
  split_ifs at hnone with h0
  have e1 : (gridDiffs g r c alt).1 = v.lonCol := by linear_combination -d1
  have e2 : (gridDiffs g r c alt).2.1 = v.lonRow := by linear_combination -d3
  have e3 : (gridDiffs g r c alt).2.2.1 = v.latCol := by linear_combination -d2
  have e4 : (gridDiffs g r c alt).2.2.2 = v.latRow := by linear_combination -d4
  rw [e1, e2, e3, e4] at h0
  apply h.hinv
  have : rad * rad * (v.lonRow * v.latCol - v.lonCol * v.latRow) = 0 := by linear_combination -h0
  exact (mul_eq_zero.1 this).resolve_left (mul_ne_zero hrad hrad)

/-- C78. With any start whose location is in range, hence with its own prediction, the inverse location of a grid of parallel rays is exact. -/
theorem C78_inverse_exact (h : ParallelRays g v lonUp latUp) (rad rtx coslat : K) (hrad : rad ≠ 0) (row col alt : K)
    (hvalid : g.geographic = true → ValidLonLat (gridLonLat g row col alt).1 (gridLonLat g row col alt).2) (row0 col0 : K) (nb : ℕ)
    (hnb : 0 < nb)
    (hstart : g.geographic = true → ValidLonLat (gridLonLat g row0 col0 alt).1 (gridLonLat g row0 col0 alt).2) :
    (gridInverse g rad rtx coslat (gridLonLat g row col alt).1 (gridLonLat g row col alt).2 alt row0 col0 nb).1.row = some row ∧
    (gridInverse g rad rtx coslat (gridLonLat g row col alt).1 (gridLonLat g row col alt).2 alt row0 col0 nb).1.col = some col := by
  have hcase : AffineCase g rad (gridLonLat g row col alt).1 (gridLonLat g row col alt).2 alt :=
    ⟨h.hn, h.hr, h.hc, h.hdec, h.affine.1, h.affine.2, hvalid, h.det hrad alt⟩
  obtain ⟨r, c, hrow, hcol, hp⟩ := C33_exact_on_affine_grid g rad rtx coslat _ _ alt hcase row0 col0 nb hnb hstart
  have hd := gridPoint_defined g r c alt _ (by rw [hp])
  rw [hd] at hp
  simp only [V3.mk.injEq, Option.some.injEq, and_true] at hp
  simp only [h.located] at hp
  obtain ⟨rfl, rfl⟩ := v.ground_inj h.hinv r c row col _ _ hp.1 hp.2
  exact ⟨hrow, hcol⟩

/-- Specification: what a batch of pixels located and located back must give: the pixels themselves, NaN if one of the two numbers is. -/
def samePixels (row col : List (Option K)) : List (Option K × Option K) :=
  (row.zip col).map fun t => if t.1 = none ∨ t.2 = none then (none, none) else t

/-- C78. Through `Localization`, with a geographic grid of parallel rays and the predictor that it estimates for itself, whatever the
elevation, the image and the output system: the pixels of a batch located at an altitude and located back are the same pixels. -/
theorem C78_round_trip (h : ParallelRays g v lonUp latUp) (hgeo : g.geographic = true)
    (hvalid : ∀ (low : Bool) (row col : K), Covered g row col →
      ValidLonLat (gridLonLat g row col (extremeAlt g low)).1 (gridLonLat g row col (extremeAlt g low)).2) :
    ∃ p, ownPredictor g 3 3 = some p ∧
      ∀ (conv : ℕ → ℕ → ORow K → ORow K) (N : ℕ) (rad rtx : K) (cosdeg : K → K) (e : ℕ) (L : Localization K (ℕ × Dtm K)) (alt : K)
        (row col : List (Option K)), rad ≠ 0 → L.model = gridGeo conv N g p rad rtx cosdeg e → col.length = row.length →
        (∀ (i : ℕ) (u v : K), row[i]? = some (some u) → col[i]? = some (some v) →
          ValidLonLat (gridLonLat g u v alt).1 (gridLonLat g u v alt).2) →
        (∀ e', L.epsg = some e' → e' ≠ e → UndoEachOther conv e e') →
        ∃ out alts, L.direct conv row col (some [some alt]) false = .ok out ∧
          L.inverse conv (out.map fun p => p.x) (out.map fun p => p.y) (some (out.map fun p => p.z)) false =
            .ok (some (samePixels row col), alts) := by
  obtain ⟨p, hp, hexact⟩ := C78_own_prediction h 3 3 le_rfl le_rfl (fun _ => hvalid)
  refine ⟨p, hp, ?_⟩
  intro conv N rad rtx cosdeg e L alt row col hrad hL hcol hval hconv
  set G : List (ORow K) := (row.zip col).map fun t => gridPoint g t.1 t.2 (some alt) with hG
  have hnanpt : ∀ x y : Option K, x = none ∨ y = none → gridPoint g x y (some alt) = nanRow := by
    intro x y hxy
    simp only [gridPoint, hgeo, if_true]
    rcases hxy with rfl | rfl
    · exact checkRow_nan (Or.inl rfl)
    · cases x <;> exact checkRow_nan (Or.inl rfl)
  have hzip : ∀ t ∈ row.zip col, (t.1 = none ∨ t.2 = none) ∨ ∃ u v, t = (some u, some v) ∧
      ValidLonLat (gridLonLat g u v alt).1 (gridLonLat g u v alt).2 := by
    rintro ⟨x, y⟩ ht
    obtain ⟨i, hi⟩ := List.getElem?_of_mem ht
    obtain ⟨hx, hy⟩ := List.getElem?_zip_eq_some.1 hi
    cases x with
    | none => exact .inl (.inl rfl)
    | some u =>
      cases y with
      | none => exact .inl (.inr rfl)
      | some w => exact .inr ⟨u, w, rfl, hval i u w hx hy⟩
  have hloc : ∀ u w, ValidLonLat (gridLonLat g u w alt).1 (gridLonLat g u w alt).2 →
      (gridInversePoint g p rad rtx cosdeg 15 (some (gridLonLat g u w alt).1) (some (gridLonLat g u w alt).2) (some alt)).x = some u ∧
      (gridInversePoint g p rad rtx cosdeg 15 (some (gridLonLat g u w alt).1) (some (gridLonLat g u w alt).2) (some alt)).y = some w := by
    intro u w hv
    obtain ⟨r1, r2⟩ := hexact u w alt
    simp only [gridInversePoint, checkRow_valid hv, r1, r2]
    exact C78_inverse_exact h rad rtx (cosdeg (gridLonLat g u w alt).2) hrad u w alt (fun _ => hv) u w 15 (by norm_num) (fun _ => hv)
  have hnr : ∀ q ∈ G, gridPointRaises g p rad rtx cosdeg 15 q.x q.y q.z = false := by
    intro q hq
    obtain ⟨t, ht, rfl⟩ := List.mem_map.1 hq
    rcases hzip t ht with hn | ⟨u, w, rfl, hv⟩
    · rw [hnanpt _ _ hn]; exact not_raises_of_nan rfl
    · rw [gridPoint_eq_gridLonLat g u w alt (fun _ => hv)]
      exact not_raises_of_located (.inl (by rw [(hloc u w hv).1]; simp))
  obtain ⟨out, h1, h2⟩ := C53_round_trip conv L row col [some alt] G
    (G.map fun q => ((gridInversePoint g p rad rtx cosdeg 15 q.x q.y q.z).x, (gridInversePoint g p rad rtx cosdeg 15 q.x q.y q.z).y))
    (by
      rw [hL, show (gridGeo conv N g p rad rtx cosdeg e).directH = gridDirectLocH g from rfl]
      exact gridDirectLocH_pts g row col (some alt) hcol)
    (by
      rw [hL]
      simp only [gridGeo, gridInverseLoc_rows _ _ _ _ _ _ _ hnr]
      simp)
    (by
      intro e' he' hne q hq
      rw [hL] at hne ⊢
      obtain ⟨c1, c2⟩ := hconv e' he' hne
      rw [hG] at hq
      obtain ⟨t, ht, rfl⟩ := List.mem_map.1 hq
      rcases hzip t ht with hn | ⟨u, w, rfl, hv⟩
      · rw [hnanpt _ _ hn]; exact c1
      · rw [gridPoint_eq_gridLonLat g u w alt (fun _ => hv)]; exact c2 _ _ _ hv)
  have hrc : (G.map fun q => ((gridInversePoint g p rad rtx cosdeg 15 q.x q.y q.z).x, (gridInversePoint g p rad rtx cosdeg 15 q.x q.y q.z).y)) =
      samePixels row col := by
    rw [hG, samePixels, List.map_map]
    apply List.map_congr_left
    intro t ht
    simp only [Function.comp]
    rcases hzip t ht with hn | ⟨u, w, rfl, hv⟩
    · rw [hnanpt _ _ hn, if_pos hn]; rfl
    · rw [gridPoint_eq_gridLonLat g u w alt (fun _ => hv), if_neg (by simp)]
      obtain ⟨r1, r2⟩ := hexact u w alt
      simp only [gridInversePoint, checkRow_valid hv, r1, r2]
      obtain ⟨i1, i2⟩ := C78_inverse_exact h rad rtx (cosdeg (gridLonLat g u w alt).2) hrad u w alt (fun _ => hv) u w 15 (by norm_num)
        (fun _ => hv)
      rw [i1, i2]
  rw [hrc] at h2
  exact ⟨out, _, h1, h2⟩

end

/-! ### A case -/

/-- A grid of parallel rays, oblique, with rows and columns that are not those of the longitudes and latitudes. -/
def obliqueGrid : MultiGrid ℚ :=
  { demoGrid with
    lon := fun k i j => 2 + i / 100 + j / 50 + demoGrid.alts k / 100000
    lat := fun k i j => 40 - i / 50 + j / 200 - demoGrid.alts k / 200000 }

/-- Its view at altitude 0. -/
def obliqueView : AffineView ℚ :=
  ⟨2 - 1 / 2 / 100 / 100 - 3 / 2 / 50 / 200, 1 / 100 / 100, 1 / 50 / 200, 40 + 1 / 2 / 50 / 100 - 3 / 2 / 200 / 200, -1 / 50 / 100, 1 / 200 / 200⟩

theorem obliqueGrid_parallel : ParallelRays obliqueGrid obliqueView (1 / 100000) (-1 / 200000) where
  hn := by decide
  hr := by decide
  hc := by decide
  hdec := by
    intro i j hij hj
    have hj' : j < 3 := hj
    interval_cases j <;> interval_cases i <;> decide +kernel
  hsr := by decide +kernel
  hsc := by decide +kernel
  hlon := by
    intro k hk i hi j hj
    have : obliqueGrid.row0 = 1 / 2 ∧ obliqueGrid.col0 = 3 / 2 ∧ obliqueGrid.steprow = 100 ∧ obliqueGrid.stepcol = 200 := by decide +kernel
    rw [this.1, this.2.1, this.2.2.1, this.2.2.2]
    simp only [obliqueGrid, obliqueView, AffineView.ground]
    ring
  hlat := by
    intro k hk i hi j hj
    have : obliqueGrid.row0 = 1 / 2 ∧ obliqueGrid.col0 = 3 / 2 ∧ obliqueGrid.steprow = 100 ∧ obliqueGrid.stepcol = 200 := by decide +kernel
    rw [this.1, this.2.1, this.2.2.1, this.2.2.2]
    simp only [obliqueGrid, obliqueView, AffineView.ground]
    ring
  hinv := by decide +kernel

theorem obliqueGrid_valid (low : Bool) (row col : ℚ) (hcov : Covered obliqueGrid row col) :
    ValidLonLat (gridLonLat obliqueGrid row col (extremeAlt obliqueGrid low)).1 (gridLonLat obliqueGrid row col (extremeAlt obliqueGrid low)).2 := by
  have hc : obliqueGrid.row0 = 1 / 2 ∧ obliqueGrid.col0 = 3 / 2 ∧ obliqueGrid.steprow = 100 ∧ obliqueGrid.stepcol = 200 ∧
      obliqueGrid.nbrow = 2 ∧ obliqueGrid.nbcol = 3 := by decide +kernel
  obtain ⟨h1, h2, h3, h4, h5, h6⟩ := hc
  unfold Covered at hcov
  rw [h1, h2, h3, h4, h5, h6] at hcov
  obtain ⟨c1, c2, c3, c4⟩ := hcov
  have ha : extremeAlt obliqueGrid low = 10 ∨ extremeAlt obliqueGrid low = 500 := by
    cases low <;> decide +kernel
  rw [obliqueGrid_parallel.located]
  norm_num at c1 c2 c3 c4
  simp only [ValidLonLat, AffineView.ground, obliqueView, abs_le]
  rcases ha with e | e <;> rw [e] <;> refine ⟨⟨?_, ?_⟩, ?_, ?_⟩ <;> linarith

/-- The hypotheses of `C78_round_trip` for this grid: two pixels and a NaN pixel at an altitude out of the range of the grid, with an
output system that needs no conversion. -/
example : ∃ p, ownPredictor obliqueGrid 3 3 = some p ∧ ∀ (L : Localization ℚ (ℕ × Dtm ℚ)),
    L.model = gridGeo (fun _ _ q => q) 50 obliqueGrid p 17453 40 (fun _ => 766 / 1000) 4326 →
    ∃ out alts, L.direct (fun _ _ q => q) [some 60, none, some 1000] [some 250, some 10, some (-300)] (some [some 900]) false = .ok out ∧
      L.inverse (fun _ _ q => q) (out.map fun p => p.x) (out.map fun p => p.y) (some (out.map fun p => p.z)) false =
        .ok (some [(some 60, some 250), (none, none), (some 1000, some (-300))], alts) := by
  obtain ⟨p, hp, hrt⟩ := C78_round_trip obliqueGrid_parallel rfl obliqueGrid_valid
  refine ⟨p, hp, fun L hL => ?_⟩
  exact hrt (fun _ _ q => q) 50 17453 40 (fun _ => 766 / 1000) 4326 L 900 [some 60, none, some 1000] [some 250, some 10, some (-300)] (by norm_num)
    hL rfl (by
      intro i u v hu hv
      match i with
      | 0 => simp at hu hv; subst hu hv; rw [obliqueGrid_parallel.located]; unfold ValidLonLat; decide +kernel
      | 1 => simp at hu
      | 2 => simp at hu hv; subst hu hv; rw [obliqueGrid_parallel.located]; unfold ValidLonLat; decide +kernel
      | (n + 3) => simp at hu)
    (fun _ _ _ => ⟨rfl, fun _ _ _ _ => rfl⟩)

end Shareloc
