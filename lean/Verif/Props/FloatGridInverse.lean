import Verif.Model.FloatGridInverse
import Verif.Props.FloatGrid
import Verif.Props.GridInverse
import Verif.Props.GridTurns

/-! C116: what the error measured by the inverse location by a grid says of the returned position, in floating point. -/

set_option linter.unusedSectionVars false
set_option linter.unusedSimpArgs false

namespace Shareloc
variable {K : Type*} [Field K] [LinearOrder K] [IsStrictOrderedRing K] [FloorRing K]

/-! ### Specification -/

/-- The values of a data cube change by at most `A` microradians per pixel between two neighbouring nodes of a layer, `deg` converting them
to radians. -/
structure SlopesAtMost (g : MultiGrid K) (deg A : K) (data : ℕ → ℕ → ℕ → K) : Prop where
  along_row : ∀ k < g.nbalt, ∀ i < g.nbrow, ∀ j, j + 1 < g.nbcol → |data k i (j + 1) - data k i j| * (deg * 1000000) ≤ A * |g.stepcol|
  along_col : ∀ k < g.nbalt, ∀ i, i + 1 < g.nbrow → ∀ j < g.nbcol, |data k (i + 1) j - data k i j| * (deg * 1000000) ≤ A * |g.steprow|

/-- The derivatives of a grid are at most `A` microradians per pixel, and the determinants of its Jacobians at an altitude are at least `δ`. -/
structure WellConditioned (g : MultiGrid K) (deg alt A δ : K) : Prop where
  lon : SlopesAtMost g deg A g.lon
  lat : SlopesAtMost g deg A g.lat
  det : ∀ i j, i + 1 < g.nbrow → j + 1 < g.nbcol → δ ≤ |(cellJacobian g (deg * 1000000) alt i j).det|

/-! ### Rounding of the derivatives -/

theorem approx_neg {w : K} {n : ℕ} {m x x' : K} (h : Approx w n m x x') : Approx w n m (-x) (-x') := by
  refine ⟨?_, by rw [abs_neg]; exact h.2⟩
  rw [show -x' - -x = -(x' - x) by ring, abs_neg]
  exact h.1

theorem FloatGridSlope.approx {u : K} (hu : 0 ≤ u) (hu1 : u < 1) {deg a b step v S : K} (hdeg : 0 < deg) (hs : step ≠ 0)
    (hS : |b - a| * (deg * 1000000) ≤ S * 1000000 * |step|) (h : FloatGridSlope u deg a b step v) :
    Approx (unitInv u) 3 S ((b - a) / step * deg) v := by
  obtain ⟨d, r, hd, hr, hv⟩ := h
  have hw := unitInv_nonneg hu hu1
  have r1 := ((Rel.refl u (b - a)).round hu hu1 hd).mul hu1 (Rel.refl u deg)
  have r2 := (r1.round hu hu1 hr).mul hu1 (Rel.refl u (1 / step))
  have e : r * (1 / step) = r / step := by rw [mul_one_div]
  rw [e] at r2
  have r3 := r2.round hu hu1 hv
  have e2 : (b - a) * deg * (1 / step) = (b - a) / step * deg := by ring
  rw [e2] at r3
  refine (r3.approx hu1).mono hw (by norm_num) ?_
  rw [abs_mul, abs_div, abs_of_pos hdeg, div_mul_eq_mul_div, div_le_iff₀ (abs_pos.2 hs)]
  linarith

theorem FloatGridMix.approx {u : K} (hu : 0 ≤ u) (hu1 : u < 1) {h h' b b' t t' v S : K} (hh : Approx (unitInv u) 3 1 h h')
    (hb : Approx (unitInv u) 3 S b b') (ht : Approx (unitInv u) 3 S t t') (hv : FloatGridMix u h' b' t' v) :
    Approx (unitInv u) 10 (3 * S * 1000000) (((1 - h) * b + h * t) * 1000000) v := by
  obtain ⟨k, p, q, s, hk, hp, hq, hs, hv⟩ := hv
  have hw := unitInv_nonneg hu hu1
  have a1 : Approx (unitInv u) 4 2 (1 - h) k := by
    rw [sub_eq_add_neg] at hk ⊢
    refine ((Approx.refl (unitInv u) 1).add hw (approx_neg hh) (hk.unitInv hu hu1)).mono hw (by norm_num) ?_
    rw [abs_one]; norm_num
  have a2 := a1.mul hw hb (hp.unitInv hu hu1)
  have a3 := hh.mul hw ht (hq.unitInv hu hu1)
  have a4 := a2.add hw a3 (hs.unitInv hu hu1)
  have a5 := a4.mul hw (Approx.refl (unitInv u) 1000000) (hv.unitInv hu hu1)
  refine a5.mono hw (by norm_num) ?_
  rw [abs_of_pos (by norm_num : (0 : K) < 1000000)]
  linarith

/-- One entry of the Jacobian. -/
theorem FloatGridDerivative.approx {u : K} (hu : 0 ≤ u) (hu1 : u < 1) {deg h h' A step v : K} (hdeg : 0 < deg) (hs : step ≠ 0)
    {data : ℕ → ℕ → ℕ → K} {up down i j i' j' : ℕ} (hh : Approx (unitInv u) 3 1 h h') (h0 : 0 ≤ h)
    (hup : |data up i' j' - data up i j| * (deg * 1000000) ≤ A * |step|)
    (hdown : |data down i' j' - data down i j| * (deg * 1000000) ≤ A * |step|)
    (hv : FloatGridDerivative u deg h' data up down i j i' j' step v) :
    let d := ((1 - h) * ((data down i' j' - data down i j) / step) + h * ((data up i' j' - data up i j) / step)) * (deg * 1000000)
    Approx (unitInv u) 10 (3 * A) d v ∧ |d| ≤ A := by
  obtain ⟨t, b, ht, hb, hv⟩ := hv
  have r1 := ht.approx hu hu1 hdeg hs (S := A / 1000000) (by linarith)
  have r2 := hb.approx hu hu1 hdeg hs (S := A / 1000000) (by linarith)
  have r3 := FloatGridMix.approx hu hu1 hh r2 r1 hv
  have e : ((1 - h) * ((data down i' j' - data down i j) / step * deg) + h * ((data up i' j' - data up i j) / step * deg)) * 1000000 =
    ((1 - h) * ((data down i' j' - data down i j) / step) + h * ((data up i' j' - data up i j) / step)) * (deg * 1000000) := by ring
  rw [e] at r3
  have h1 : h ≤ 1 := (le_abs_self h).trans hh.2
  refine ⟨by convert r3 using 1; ring, ?_⟩
  rw [← e]
  have b1 := r1.2
  have b2 := r2.2
  generalize (data up i' j' - data up i j) / step * deg = x at *
  generalize (data down i' j' - data down i j) / step * deg = y at *
  rw [abs_mul, abs_of_pos (by norm_num : (0 : K) < 1000000)]
  have k1 : |(1 - h) * y| ≤ (1 - h) * (A / 1000000) := by
    rw [abs_mul, abs_of_nonneg (by linarith)]
    exact mul_le_mul_of_nonneg_left b2 (by linarith)
  have k2 : |h * x| ≤ h * (A / 1000000) := by
    rw [abs_mul, abs_of_nonneg h0]
    exact mul_le_mul_of_nonneg_left b1 h0
  have k3 := abs_add_le ((1 - h) * y) (h * x)
  linarith

/-- What the computed derivatives and determinant are to the Jacobian of a cell. -/
structure FloatEntries (u A δ : K) (J : Matrix (Fin 2) (Fin 2) K) (a b c e p q det : K) (m : K × K × K × K) : Prop where
  ha : Approx (unitInv u) 10 (3 * A) (J 0 0) a
  hb : Approx (unitInv u) 10 (3 * A) (J 0 1) b
  hc : Approx (unitInv u) 10 (3 * A) (J 1 0) c
  he : Approx (unitInv u) 10 (3 * A) (J 1 1) e
  ja : |J 0 0| ≤ A
  jb : |J 0 1| ≤ A
  jc : |J 1 0| ≤ A
  je : |J 1 1| ≤ A
  hp : Rounds u (a * e) p
  hq : Rounds u (b * c) q
  hdet : Rounds u (p - q) det
  det_low : δ / 2 ≤ |det|
  small : (1 + unitInv u) ^ 22 - 1 ≤ 1 / 18
  m1 : Rounds u (e / det) m.1
  m2 : Rounds u (-b / det) m.2.1
  m3 : Rounds u (-c / det) m.2.2.1
  m4 : Rounds u (a / det) m.2.2.2

theorem FloatGridMatrix.entries {u : K} (hu : 0 ≤ u) (hu1 : u < 1) {g : MultiGrid K} (hg : g.Regular) {deg alt A δ row col : K} (hdeg : 0 < deg)
    (hδ : 0 < δ) (h0 : g.alts (g.nbalt - 1) ≤ alt) (h1 : alt ≤ g.alts 0) (hc : WellConditioned g deg alt A δ)
    (hsmall : ((1 + unitInv u) ^ 22 - 1) * (36 * A ^ 2) ≤ δ) {m : K × K × K × K} (hm : FloatGridMatrix u deg g row col alt m) :
    ∃ i j a b c e p q det, i + 1 < g.nbrow ∧ j + 1 < g.nbcol ∧
      FloatEntries u A δ (cellJacobian g (deg * 1000000) alt i j) a b c e p q det m := by
  obtain ⟨i, j, h, a, b, c, e, p, q, det, hi, hj, hh, ha, hb, hcc, he, hp, hq, hdet, hne, m1, m2, m3, m4⟩ := hm
  have hw := unitInv_nonneg hu hu1
  have ci : i + 1 < g.nbrow := by
    obtain ⟨_, _, _, _, rfl⟩ := hi
    exact gridCell_le _ hg.row2 _
  have cj : j + 1 < g.nbcol := by
    obtain ⟨_, _, _, _, rfl⟩ := hj
    exact gridCell_le _ hg.col2 _
  obtain ⟨k, hk, hk1, -, hrange, -⟩ := C30_bracketing g alt hg.alt2 hg.dec
  obtain ⟨-, -, t0, t1⟩ := hrange h0 h1
  have p1 : pyIndex g.nbalt ((k : ℕ) : ℤ) = k := by unfold pyIndex; rw [if_neg (by omega)]; omega
  have p2 : pyIndex g.nbalt ((k + 1 : ℕ) : ℤ) = k + 1 := by unfold pyIndex; rw [if_neg (by omega)]; omega
  have hJ := gridDiffs_eq g (g.row0 + g.steprow * i) (g.col0 + g.stepcol * j) alt i j hg.alt2 hg.row2 hg.col2 hg.dec hg.stepRow hg.stepCol
    ⟨ci, cj, by right; rw [add_sub_cancel_left, mul_div_cancel_left₀ _ hg.stepRow],
      by right; rw [add_sub_cancel_left, mul_div_cancel_left₀ _ hg.stepRow]; exact lt_add_one _,
      by right; rw [add_sub_cancel_left, mul_div_cancel_left₀ _ hg.stepCol],
      by right; rw [add_sub_cancel_left, mul_div_cancel_left₀ _ hg.stepCol]; exact lt_add_one _⟩ (deg * 1000000)
  have gi : gridCell g.nbrow ((g.row0 + g.steprow * i - g.row0) / g.steprow) = i := by
    refine gridCell_eq _ _ i ci ?_ ?_ <;> rw [add_sub_cancel_left, mul_div_cancel_left₀ _ hg.stepRow]
    · exact .inr le_rfl
    · exact .inr (lt_add_one _)
  have gj : gridCell g.nbcol ((g.col0 + g.stepcol * j - g.col0) / g.stepcol) = j := by
    refine gridCell_eq _ _ j cj ?_ ?_ <;> rw [add_sub_cancel_left, mul_div_cancel_left₀ _ hg.stepCol]
    · exact .inr le_rfl
    · exact .inr (lt_add_one _)
  have hD := hc.det i j ci cj
  rw [hJ, Matrix.det_fin_two_of] at hD
  simp only [gridDiffs, gi, gj, hk, p1, p2] at hD hJ
  rw [hk] at hh ha hb hcc he
  simp only [p1, p2] at hh ha hb hcc he
  have hh' : Approx (unitInv u) 3 1 _ h := (hh.rel hu hu1).approx hu1 |>.mono hw le_rfl (by rw [abs_of_nonneg t0]; exact t1)
  obtain ⟨a1, a2⟩ := ha.approx hu hu1 hdeg hg.stepCol hh' t0 (hc.lon.along_row _ (by omega) _ (by omega) _ cj) (hc.lon.along_row _ hk1 _ (by omega) _ cj)
  obtain ⟨b1, b2⟩ := hb.approx hu hu1 hdeg hg.stepRow hh' t0 (hc.lon.along_col _ (by omega) _ ci _ (by omega)) (hc.lon.along_col _ hk1 _ ci _ (by omega))
  obtain ⟨c1, c2⟩ := hcc.approx hu hu1 hdeg hg.stepCol hh' t0 (hc.lat.along_row _ (by omega) _ (by omega) _ cj) (hc.lat.along_row _ hk1 _ (by omega) _ cj)
  obtain ⟨e1, e2⟩ := he.approx hu hu1 hdeg hg.stepRow hh' t0 (hc.lat.along_col _ (by omega) _ ci _ (by omega)) (hc.lat.along_col _ hk1 _ ci _ (by omega))
  generalize hX : (alt - g.alts (k + 1)) / (g.alts k - g.alts (k + 1)) = X at *
  generalize ((1 - X) * ((g.lon (k + 1) i (j + 1) - g.lon (k + 1) i j) / g.stepcol) + X * ((g.lon k i (j + 1) - g.lon k i j) / g.stepcol)) *
    (deg * 1000000) = a0 at *
  generalize ((1 - X) * ((g.lon (k + 1) (i + 1) j - g.lon (k + 1) i j) / g.steprow) + X * ((g.lon k (i + 1) j - g.lon k i j) / g.steprow)) *
    (deg * 1000000) = b0 at *
  generalize ((1 - X) * ((g.lat (k + 1) i (j + 1) - g.lat (k + 1) i j) / g.stepcol) + X * ((g.lat k i (j + 1) - g.lat k i j) / g.stepcol)) *
    (deg * 1000000) = c0 at *
  generalize ((1 - X) * ((g.lat (k + 1) (i + 1) j - g.lat (k + 1) i j) / g.steprow) + X * ((g.lat k (i + 1) j - g.lat k i j) / g.steprow)) *
    (deg * 1000000) = e0 at *
  have dp := a1.mul hw e1 (hp.unitInv hu hu1)
  have dq := b1.mul hw c1 (hq.unitInv hu hu1)
  have dd : Approx (unitInv u) 22 (18 * A ^ 2) (a0 * e0 - b0 * c0) det := by
    rw [sub_eq_add_neg] at hdet ⊢
    refine (dp.add hw (approx_neg dq) (hdet.unitInv hu hu1)).mono hw (by norm_num) (le_of_eq (by ring))
  have hA : 0 ≤ A := (abs_nonneg _).trans a2
  have hprod : |a0 * e0 - b0 * c0| ≤ 2 * A ^ 2 := by
    have k1 : |a0 * e0| ≤ A * A := by rw [abs_mul]; exact mul_le_mul a2 e2 (abs_nonneg _) hA
    have k2 : |b0 * c0| ≤ A * A := by rw [abs_mul]; exact mul_le_mul b2 c2 (abs_nonneg _) hA
    have := abs_sub (a0 * e0) (b0 * c0)
    nlinarith
  have hApos : 0 < A ^ 2 := by nlinarith
  have hE0 : 0 ≤ (1 + unitInv u) ^ 22 - 1 := sub_nonneg.2 (one_le_pow_u hw 22)
  have dd1 : |det - (a0 * e0 - b0 * c0)| ≤ ((1 + unitInv u) ^ 22 - 1) * (18 * A ^ 2) := dd.1
  generalize hEE : (1 + unitInv u) ^ 22 - 1 = E at *
  have hE : E ≤ 1 / 18 := by
    by_contra hlt
    push Not at hlt
    have : 1 / 18 * (36 * A ^ 2) < E * (36 * A ^ 2) := mul_lt_mul_of_pos_right hlt (by linarith)
    linarith
  have hdetlow : δ / 2 ≤ |det| := by
    have k1 := abs_sub_abs_le_abs_sub (a0 * e0 - b0 * c0) det
    rw [abs_sub_comm _ det] at k1
    linarith
  refine ⟨i, j, a, b, c, e, p, q, det, ci, cj, ?_⟩
  rw [hJ]
  exact ⟨a1, b1, c1, e1, a2, b2, c2, e2, hp, hq, hdet, hdetlow, hEE.trans_le hE, m1, m2, m3, m4⟩

/-- The bounds of the computed entries. -/
theorem FloatEntries.le {u A δ : K} (hu : 0 ≤ u) (hu1 : u < 1) {J : Matrix (Fin 2) (Fin 2) K} {a b c e p q det : K} {m : K × K × K × K}
    (h : FloatEntries u A δ J a b c e p q det m) : |a| ≤ 7 / 6 * A ∧ |b| ≤ 7 / 6 * A ∧ |c| ≤ 7 / 6 * A ∧ |e| ≤ 7 / 6 * A := by
  have hw := unitInv_nonneg hu hu1
  have hA : 0 ≤ A := (abs_nonneg _).trans h.ja
  have hE10 : (1 + unitInv u) ^ 10 - 1 ≤ (1 + unitInv u) ^ 22 - 1 := sub_le_sub_right (pow_le_pow_right₀ (by linarith) (by norm_num)) 1
  have k : ∀ {x x' : K}, Approx (unitInv u) 10 (3 * A) x x' → |x| ≤ A → |x'| ≤ 7 / 6 * A := by
    intro x x' hx hx2
    have k2 := abs_sub_abs_le_abs_sub x' x
    have k3 := hx.1
    have k4 : ((1 + unitInv u) ^ 10 - 1) * (3 * A) ≤ 1 / 18 * (3 * A) := mul_le_mul_of_nonneg_right (hE10.trans h.small) (by linarith)
    linarith
  exact ⟨k h.ha h.ja, k h.hb h.jb, k h.hc h.jc, k h.he h.je⟩

/-- C116. The computed matrix of `inverse_partial_derivative` is bounded, at any position, even in a wrong cell near a node: its entries are at
most `5 A / (2 δ)` pixels per microradian. -/
theorem C116_matrix {u : K} (hu : 0 ≤ u) (hu1 : u < 1) {g : MultiGrid K} (hg : g.Regular) {deg alt A δ row col : K} (hdeg : 0 < deg)
    (hδ : 0 < δ) (h0 : g.alts (g.nbalt - 1) ≤ alt) (h1 : alt ≤ g.alts 0) (hc : WellConditioned g deg alt A δ)
    (hsmall : ((1 + unitInv u) ^ 22 - 1) * (36 * A ^ 2) ≤ δ) {m : K × K × K × K} (hm : FloatGridMatrix u deg g row col alt m) :
    |m.1| ≤ 5 * A / (2 * δ) ∧ |m.2.1| ≤ 5 * A / (2 * δ) ∧ |m.2.2.1| ≤ 5 * A / (2 * δ) ∧ |m.2.2.2| ≤ 5 * A / (2 * δ) := by
  obtain ⟨i, j, a, b, c, e, p, q, det, -, -, hm⟩ := hm.entries hu hu1 hg hdeg hδ h0 h1 hc hsmall
  have hw := unitInv_nonneg hu hu1
  have hA : 0 ≤ A := (abs_nonneg _).trans hm.ja
  have hdetlow := hm.det_low
  have hE := hm.small
  obtain ⟨a1, b1, c1, e1⟩ := hm.le hu hu1
  have hu22 : u ≤ 1 / 18 := by
    have : (1 + unitInv u) ^ 1 - 1 ≤ (1 + unitInv u) ^ 22 - 1 := sub_le_sub_right (pow_le_pow_right₀ (by linarith) (by norm_num)) 1
    rw [pow_one] at this
    have k : u ≤ unitInv u := by
      unfold unitInv
      rw [le_div_iff₀ (by linarith)]
      nlinarith
    linarith
  have entry : ∀ {x' y : K}, |x'| ≤ 7 / 6 * A → Rounds u (x' / det) y → |y| ≤ 5 * A / (2 * δ) := by
    intro x' y k1 hy
    have k2 : |x' / det| ≤ 7 / 6 * A * (2 / δ) := by
      rw [abs_div, div_le_iff₀ (lt_of_lt_of_le (by linarith) hdetlow)]
      have : 7 / 6 * A * (2 / δ) * (δ / 2) ≤ 7 / 6 * A * (2 / δ) * |det| := mul_le_mul_of_nonneg_left hdetlow (by positivity)
      have e : 7 / 6 * A * (2 / δ) * (δ / 2) = 7 / 6 * A := by field_simp
      linarith
    have k3 : |y| ≤ (1 + u) * |x' / det| := by
      have := abs_sub_abs_le_abs_sub y (x' / det)
      have h : |y - x' / det| ≤ u * |x' / det| := hy
      linarith
    have k4 : 0 ≤ A / δ := by positivity
    have k5 : (1 + u) * |x' / det| ≤ 19 / 18 * (7 / 6 * A * (2 / δ)) := mul_le_mul (by linarith) k2 (abs_nonneg _) (by norm_num)
    have k6 : 19 / 18 * (7 / 6 * A * (2 / δ)) = 133 / 54 * (A / δ) := by ring
    have k7 : 5 * A / (2 * δ) = 5 / 2 * (A / δ) := by field_simp
    rw [k7]
    linarith
  exact ⟨entry e1 hm.m1, entry (by rwa [abs_neg]) hm.m2, entry (by rwa [abs_neg]) hm.m3, entry a1 hm.m4⟩

/-! ### The measure and the move -/

theorem Rounds.lower {u x v : K} (h : Rounds u x v) : (1 - u) * |x| ≤ |v| := by
  have k := abs_sub_abs_le_abs_sub x v
  rw [abs_sub_comm] at k
  have : |v - x| ≤ u * |x| := h
  linarith

theorem Rounds.upper {u x v : K} (h : Rounds u x v) : |v| ≤ (1 + u) * |x| := by
  have k := abs_sub_abs_le_abs_sub v x
  have : |v - x| ≤ u * |x| := h
  linarith

theorem Rounds.lower_nonneg {u x v : K} (hu1 : u < 1) (hx : 0 ≤ x) (h : Rounds u x v) : (1 - u) * x ≤ v ∧ 0 ≤ v := by
  have k : |v - x| ≤ u * |x| := h
  rw [abs_of_nonneg hx] at k
  have k1 := abs_le.1 k
  have : 0 ≤ (1 - u) * x := mul_nonneg (by linarith) hx
  constructor <;> linarith [k1.1]

/-- A measured error of at most `rtx (1 - u)^5 T²` bounds both components by `T`. -/
theorem FloatGridMeasure.bounds {u : K} (hu : 0 ≤ u) (hu1 : u < 1) {g : MultiGrid K} {rad rtx coslat lon lat alt row col dlon dlat err T : K}
    (hrtx : 0 < rtx) (hT : 0 ≤ T) (herr : err ≤ rtx * (1 - u) ^ 5 * T ^ 2)
    (h : FloatGridMeasure u g rad rtx coslat lon lat alt row col dlon dlat err) :
    |dlat| ≤ T ∧ |dlon| * |coslat| ≤ T ∧ ∃ p plon plat, FloatGridPoint u g row col alt p ∧ p.x = some plon ∧ p.y = some plat ∧
      |plat - lat| * ((1 - u) ^ 2 * |rad|) ≤ |dlat| ∧ |plon - lon| * ((1 - u) ^ 2 * |rad|) ≤ |dlon| := by
  obtain ⟨p, plon, plat, x, y, s, c, t, w, hp, hpx, hpy, hx, hdlon, hy, hdlat, hs, hcc, ht, hw, he⟩ := h
  have q0 : 0 < 1 - u := by linarith
  have q1 : 1 - u ≤ 1 := by linarith
  obtain ⟨s1, s2⟩ := hs.lower_nonneg hu1 (mul_self_nonneg _)
  obtain ⟨t1, t2⟩ := ht.lower_nonneg hu1 (mul_self_nonneg _)
  obtain ⟨w1, w2⟩ := hw.lower_nonneg hu1 (add_nonneg s2 t2)
  obtain ⟨e1, -⟩ := he.lower_nonneg hu1 (mul_nonneg hrtx.le w2)
  have c1 := hcc.lower
  rw [abs_mul] at c1
  have low : ∀ z : K, 0 ≤ z → (1 - u) ^ 3 * z ^ 2 ≤ s + t → z ≤ T := by
    intro z hz hle
    have k1 : (1 - u) * ((1 - u) ^ 3 * z ^ 2) ≤ w := (mul_le_mul_of_nonneg_left hle q0.le).trans w1
    have k2 : (1 - u) * (rtx * ((1 - u) * ((1 - u) ^ 3 * z ^ 2))) ≤ rtx * (1 - u) ^ 5 * T ^ 2 :=
      ((mul_le_mul_of_nonneg_left (mul_le_mul_of_nonneg_left k1 hrtx.le) q0.le).trans e1).trans herr
    have k3 : (1 - u) * (rtx * ((1 - u) * ((1 - u) ^ 3 * z ^ 2))) = rtx * (1 - u) ^ 5 * z ^ 2 := by ring
    rw [k3] at k2
    have k4 : z ^ 2 ≤ T ^ 2 := le_of_mul_le_mul_left k2 (by positivity)
    exact le_of_sq_le_sq k4 hT
  refine ⟨low _ (abs_nonneg _) ?_, low _ (by positivity) ?_, p, plon, plat, hp, hpx, hpy, ?_, ?_⟩
  · rw [sq_abs]
    have : (1 - u) ^ 3 * dlat ^ 2 ≤ (1 - u) * dlat ^ 2 := mul_le_mul_of_nonneg_right (pow_le_of_le_one q0.le q1 (by norm_num)) (sq_nonneg _)
    rw [← sq] at s1
    linarith
  · have k1 : ((1 - u) * (|dlon| * |coslat|)) ^ 2 ≤ c * c := by
      rw [← sq, ← sq_abs c]
      exact pow_le_pow_left₀ (by positivity) c1 2
    have k2 := mul_le_mul_of_nonneg_left k1 q0.le
    have k3 : (1 - u) * ((1 - u) * (|dlon| * |coslat|)) ^ 2 = (1 - u) ^ 3 * (|dlon| * |coslat|) ^ 2 := by ring
    linarith
  · have k1 := hy.lower
    have k2 := hdlat.lower
    rw [abs_mul] at k2
    have k3 : (1 - u) * ((1 - u) * |plat - lat| * |rad|) ≤ (1 - u) * (|y| * |rad|) :=
      mul_le_mul_of_nonneg_left (mul_le_mul_of_nonneg_right k1 (abs_nonneg _)) q0.le
    linarith
  · have k1 := hx.lower
    have k2 := hdlon.lower
    rw [abs_mul] at k2
    have k3 : (1 - u) * ((1 - u) * |plon - lon| * |rad|) ≤ (1 - u) * (|x| * |rad|) :=
      mul_le_mul_of_nonneg_left (mul_le_mul_of_nonneg_right k1 (abs_nonneg _)) q0.le
    linarith

theorem FloatGridMove.bound {u : K} (hu : 0 ≤ u) {m m' dlon dlat x x' M : K} (hm : |m| ≤ M) (hm' : |m'| ≤ M)
    (h : FloatGridMove u m m' dlon dlat x x') : |x' - x| ≤ (1 + u) ^ 3 * (M * (|dlon| + |dlat|)) + u * |x| := by
  obtain ⟨p, q, d, hp, hq, hd, hx⟩ := h
  have k1 := hp.upper
  have k2 := hq.upper
  have k3 := hd.upper
  rw [abs_mul] at k1 k2
  have a1 : |m| * |dlon| ≤ M * |dlon| := mul_le_mul_of_nonneg_right hm (abs_nonneg _)
  have a2 : |m'| * |dlat| ≤ M * |dlat| := mul_le_mul_of_nonneg_right hm' (abs_nonneg _)
  have a3 : |p + q| ≤ (1 + u) * (M * (|dlon| + |dlat|)) := by
    have b1 := abs_add_le p q
    have b2 : (1 + u) * (|m| * |dlon|) ≤ (1 + u) * (M * |dlon|) := mul_le_mul_of_nonneg_left a1 (by linarith)
    have b3 : (1 + u) * (|m'| * |dlat|) ≤ (1 + u) * (M * |dlat|) := mul_le_mul_of_nonneg_left a2 (by linarith)
    linarith
  have a4 : |d| ≤ (1 + u) ^ 2 * (M * (|dlon| + |dlat|)) := by
    have : (1 + u) * |p + q| ≤ (1 + u) * ((1 + u) * (M * (|dlon| + |dlat|))) := mul_le_mul_of_nonneg_left a3 (by linarith)
    linarith
  have k4 : |x' - (x + -d)| ≤ u * |x + -d| := hx
  have k5 : |x + -d| ≤ |x| + |d| := by have := abs_add_le x (-d); rwa [abs_neg] at this
  have k6 : |x' - x| ≤ |x' - (x + -d)| + |d| := by
    have := abs_add_le (x' - (x + -d)) (-d)
    rw [abs_neg] at this
    have e : x' - (x + -d) + -d = x' - x - 0 := by ring
    rw [e, sub_zero] at this
    exact this
  have k7 : u * |x + -d| ≤ u * (|x| + |d|) := mul_le_mul_of_nonneg_left k5 hu
  have k8 : (1 + u) * |d| ≤ (1 + u) * ((1 + u) ^ 2 * (M * (|dlon| + |dlat|))) := mul_le_mul_of_nonneg_left a4 (by linarith)
  linarith

/-- When turns remain at the end, the last turn measured an error of at most the threshold. -/
theorem FloatGridLoop.last {u deg eps : K} {g : MultiGrid K} {rad rtx coslat lon lat alt : K} {n m : ℕ} {s t : FloatGridIter K}
    (h : FloatGridLoop u deg eps g rad rtx coslat lon lat alt n s t m) (hm : 0 < m) :
    t.err ≤ eps ∧ (s.err > eps → ∃ row col, FloatGridTurn u deg g rad rtx coslat lon lat alt row col t) := by
  induction h with
  | stop h => exact ⟨not_lt.1 h, fun h' => absurd h' h⟩
  | exhausted => omega
  | @turn n m s s' t hs ht hl ih =>
    obtain ⟨i1, i2⟩ := ih hm
    refine ⟨i1, fun _ => ?_⟩
    by_cases h : s'.err > eps
    · exact i2 h
    · cases hl with
      | stop _ => exact ⟨_, _, ht⟩
      | exhausted => omega
      | turn h' _ _ => exact absurd h' h

/-! ### The exact location -/

/-- Between two pixels of the grid the exact interpolation changes by at most the slope. -/
theorem gridInterp_pixels {g : MultiGrid K} (hg : g.Regular) {data : ℕ → ℕ → ℕ → K} {deg A : K} (hdeg : 0 < deg) (hd : SlopesAtMost g deg A data)
    {a row col row' col' : K} (ha0 : 0 ≤ a) (ha1 : a ≤ (g.nbalt : K) - 1) (hc : Covered g row col) (hc' : Covered g row' col') :
    |gridInterp g data a row' col' - gridInterp g data a row col| ≤ A / (deg * 1000000) * (|row' - row| + |col' - col|) := by
  have hr0 := abs_pos.2 hg.stepRow
  have hc0 := abs_pos.2 hg.stepCol
  have hD : 0 < deg * 1000000 := by positivity
  have hlin : ∀ (n : ℕ) (f f' : ℕ → K) (t : K), lerp n f t - lerp n f' t = lerp n (fun i => f i - f' i) t := by
    intro n f f' t; simp only [lerp]; ring
  have wa : Within g.nbalt 0 a := ⟨by linarith, by linarith⟩
  have wr : Within g.nbrow 0 ((row' - g.row0) / g.steprow) := ⟨by linarith [hc'.1], by linarith [hc'.2.1]⟩
  have wc : Within g.nbcol 0 ((col - g.col0) / g.stepcol) := ⟨by linarith [hc.2.2.1], by linarith [hc.2.2.2]⟩
  have S1 : ∀ {x s : K}, 0 < |s| → x * (deg * 1000000) ≤ A * |s| → x ≤ A / (deg * 1000000) * |s| := by
    intro x s _ h
    rw [div_mul_eq_mul_div, le_div_iff₀ hD]
    exact h
  have d1 : |gridInterp g data a row' col - gridInterp g data a row col| ≤ A / (deg * 1000000) * |row' - row| := by
    unfold gridInterp
    rw [hlin]
    refine (lerp_bounded g.nbalt hg.alt2 _ (A / (deg * 1000000) * |row' - row|) ?_ 0 a le_rfl wa).trans (by simp)
    intro k hk
    have h := lerp_increment g.nbrow hg.row2 (fun i => lerp g.nbcol (fun j => data k i j) ((col - g.col0) / g.stepcol)) 0
      (A / (deg * 1000000) * |g.steprow|) ?_ ((row - g.row0) / g.steprow) ((row' - g.row0) / g.steprow)
    · rw [zero_mul, sub_zero] at h
      refine h.trans (le_of_eq ?_)
      rw [← sub_div, sub_sub_sub_cancel_right, abs_div, mul_assoc, mul_div_cancel₀ _ hr0.ne']
    · intro i hi
      rw [sub_zero, hlin]
      refine (lerp_bounded g.nbcol hg.col2 _ (A / (deg * 1000000) * |g.steprow|) ?_ 0 _ le_rfl wc).trans (by simp)
      intro j hj
      exact S1 hr0 (hd.along_col k hk i hi j hj)
  have d2 : |gridInterp g data a row' col' - gridInterp g data a row' col| ≤ A / (deg * 1000000) * |col' - col| := by
    unfold gridInterp
    rw [hlin]
    refine (lerp_bounded g.nbalt hg.alt2 _ (A / (deg * 1000000) * |col' - col|) ?_ 0 a le_rfl wa).trans (by simp)
    intro k hk
    rw [hlin]
    refine (lerp_bounded g.nbrow hg.row2 _ (A / (deg * 1000000) * |col' - col|) ?_ 0 _ le_rfl wr).trans (by simp)
    intro i hi
    have h := lerp_increment g.nbcol hg.col2 (fun j => data k i j) 0
      (A / (deg * 1000000) * |g.stepcol|) ?_ ((col - g.col0) / g.stepcol) ((col' - g.col0) / g.stepcol)
    · rw [zero_mul, sub_zero] at h
      refine h.trans (le_of_eq ?_)
      rw [← sub_div, sub_sub_sub_cancel_right, abs_div, mul_assoc, mul_div_cancel₀ _ hc0.ne']
    · intro j hj
      rw [sub_zero]
      exact S1 hc0 (hd.along_row k hk i hi j hj)
  have := abs_sub_le (gridInterp g data a row' col') (gridInterp g data a row' col) (gridInterp g data a row col)
  linarith

/-! ### C116 -/

/-- C116. When turns remain at the end, the exact location of the pixel measured by the last turn is that near to the requested ground point:
the accepted error, plus the rounding of the location. -/
theorem C116_measured {u : K} (hu : 0 ≤ u) (hu1 : u < 1) {g : MultiGrid K} (hg : g.Regular) {Hx Lx Hy Ly : K}
    (hx : DataBounds g g.lon Hx Lx) (hy : DataBounds g g.lat Hy Ly) (hgeo : g.geographic = true → Hx ≤ 180 ∧ Hy ≤ 90)
    {rad rtx coslat lon lat alt row col dlon dlat err T : K} (hrtx : 0 < rtx) (hT : 0 ≤ T) (hrad : rad ≠ 0) (hcos : coslat ≠ 0)
    (h0 : g.alts (g.nbalt - 1) ≤ alt) (h1 : alt ≤ g.alts 0) (hn : ((1 + unitInv u) ^ 5 - 1) * g.nbalt ≤ 1 / 2) (hc : Covered g row col)
    (herr : err ≤ rtx * (1 - u) ^ 5 * T ^ 2) (h : FloatGridMeasure u g rad rtx coslat lon lat alt row col dlon dlat err) :
    |(gridLonLat g row col alt).2 - lat| ≤ gridRounding u g.nbalt Hy Ly + T / ((1 - u) ^ 2 * |rad|) ∧
    |(gridLonLat g row col alt).1 - lon| ≤ gridRounding u g.nbalt Hx Lx + T / ((1 - u) ^ 2 * |rad| * |coslat|) := by
  obtain ⟨b1, b2, p, plon, plat, hp, px, py, k1, k2⟩ := h.bounds hu hu1 hrtx hT herr
  obtain ⟨x, y, hpt, hh⟩ := C102_direct_loc hu hu1 hg hx hy hgeo hc h0 h1 hn hp
  have q0 : 0 < (1 - u) ^ 2 * |rad| := mul_pos (pow_pos (by linarith) 2) (abs_pos.2 hrad)
  have hc0 := abs_pos.2 hcos
  have hxy : x = (gridLonLat g row col alt).1 ∧ y = (gridLonLat g row col alt).2 := by
    simp only [gridPoint] at hpt
    split_ifs at hpt with hgg
    · simp only [checkRow] at hpt
      split_ifs at hpt
      · simp [nanRow] at hpt
      · simp only [V3.mk.injEq, Option.some.injEq] at hpt
        exact ⟨hpt.1.symm, hpt.2.1.symm⟩
    · simp only [V3.mk.injEq, Option.some.injEq] at hpt
      exact ⟨hpt.1.symm, hpt.2.1.symm⟩
  rcases hh with ⟨x', y', rfl, ex, ey⟩ | ⟨-, rfl, -⟩
  · simp only [Option.some.injEq] at px py
    subst px py
    rw [← hxy.1, ← hxy.2]
    constructor
    · have a1 : |y' - lat| ≤ T / ((1 - u) ^ 2 * |rad|) := by
        rw [le_div_iff₀ q0]; linarith
      have a2 := abs_sub_le y y' lat
      rw [abs_sub_comm y y'] at a2
      linarith
    · have a1 : |x' - lon| ≤ T / ((1 - u) ^ 2 * |rad| * |coslat|) := by
        rw [le_div_iff₀ (mul_pos q0 hc0)]
        have := mul_le_mul_of_nonneg_right k2 hc0.le
        linarith
      have a2 := abs_sub_le x x' lon
      rw [abs_sub_comm x x'] at a2
      linarith
  · simp [nanRow] at px

/-- The bound of the last move, in pixels, for a position of at most `P` pixels. -/
def lastMove (u A δ T coslat P : K) : K := (1 + u) ^ 3 * (5 * A / (2 * δ) * (T / |coslat| + T)) + u * P

/-- C116. When the inverse location by a grid stops before the last allowed turn, the exact location of the *returned* pixel, which the code
does not measure, is near the requested ground point: the accepted error, the rounding of the location and the effect of the last move.  The
pixels before and after that move are inside the grid. -/
theorem C116_certificate {u : K} (hu : 0 ≤ u) (hu1 : u < 1) {g : MultiGrid K} (hg : g.Regular) {Hx Lx Hy Ly : K}
    (hx : DataBounds g g.lon Hx Lx) (hy : DataBounds g g.lat Hy Ly) (hgeo : g.geographic = true → Hx ≤ 180 ∧ Hy ≤ 90)
    {deg eps rad rtx coslat lon lat alt T A δ P : K} (hrtx : 0 < rtx) (hT : 0 ≤ T) (hrad : rad ≠ 0) (hcos : coslat ≠ 0) (hdeg : 0 < deg)
    (hδ : 0 < δ) (h0 : g.alts (g.nbalt - 1) ≤ alt) (h1 : alt ≤ g.alts 0) (hn : ((1 + unitInv u) ^ 5 - 1) * g.nbalt ≤ 1 / 2)
    (hc : WellConditioned g deg alt A δ) (hsmall : ((1 + unitInv u) ^ 22 - 1) * (36 * A ^ 2) ≤ δ)
    (heps : eps ≤ rtx * (1 - u) ^ 5 * T ^ 2) (hP : ∀ row col, Covered g row col → |row| ≤ P ∧ |col| ≤ P)
    {n m : ℕ} {s t : FloatGridIter K} (hs : s.err > eps) (hm : 0 < m) (h : FloatGridLoop u deg eps g rad rtx coslat lon lat alt n s t m) :
    ∃ row col, FloatGridTurn u deg g rad rtx coslat lon lat alt row col t ∧ (Covered g row col → Covered g t.row t.col →
      ∃ x y, gridPoint g (some t.row) (some t.col) (some alt) = ⟨some x, some y, some alt⟩ ∧
        |y - lat| ≤ gridRounding u g.nbalt Hy Ly + T / ((1 - u) ^ 2 * |rad|) + A / (deg * 1000000) * (2 * lastMove u A δ T coslat P) ∧
        |x - lon| ≤ gridRounding u g.nbalt Hx Lx + T / ((1 - u) ^ 2 * |rad| * |coslat|) +
          A / (deg * 1000000) * (2 * lastMove u A δ T coslat P)) := by
  obtain ⟨l1, l2⟩ := h.last hm
  obtain ⟨row, col, ht⟩ := l2 hs
  refine ⟨row, col, ht, fun hcov hcov' => ?_⟩
  obtain ⟨dlon, dlat, mat, hmeas, hmat, hcol, hrow⟩ := ht
  have herr : t.err ≤ rtx * (1 - u) ^ 5 * T ^ 2 := l1.trans heps
  obtain ⟨m1, m2, m3, m4⟩ := C116_matrix hu hu1 hg hdeg hδ h0 h1 hc hsmall hmat
  obtain ⟨e1, e2⟩ := C116_measured hu hu1 hg hx hy hgeo hrtx hT hrad hcos h0 h1 hn hcov herr hmeas
  obtain ⟨b1, b2, -⟩ := hmeas.bounds hu hu1 hrtx hT herr
  have hc0 := abs_pos.2 hcos
  have b3 : |dlon| ≤ T / |coslat| := by rwa [le_div_iff₀ hc0]
  have hM : 0 ≤ 5 * A / (2 * δ) := (abs_nonneg _).trans m1
  have hA : 0 ≤ A := by
    by_contra hneg
    push Not at hneg
    have : 5 * A / (2 * δ) < 0 := div_neg_of_neg_of_pos (by linarith) (by linarith)
    linarith
  have mv : (1 + u) ^ 3 * (5 * A / (2 * δ) * (|dlon| + |dlat|)) ≤ (1 + u) ^ 3 * (5 * A / (2 * δ) * (T / |coslat| + T)) :=
    mul_le_mul_of_nonneg_left (mul_le_mul_of_nonneg_left (add_le_add b3 b1) hM) (pow_nonneg (by linarith) 3)
  have mc := hcol.bound hu m1 m2
  have mr := hrow.bound hu m3 m4
  obtain ⟨pr, pc⟩ := hP row col hcov
  have mc' : |t.col - col| ≤ lastMove u A δ T coslat P := by
    have := mul_le_mul_of_nonneg_left pc hu
    unfold lastMove; linarith
  have mr' : |t.row - row| ≤ lastMove u A δ T coslat P := by
    have := mul_le_mul_of_nonneg_left pr hu
    unfold lastMove; linarith
  obtain ⟨k, hk, hk1, hkup, hrange, -⟩ := C30_bracketing g alt hg.alt2 hg.dec
  obtain ⟨-, -, t0, t1⟩ := hrange h0 h1
  have na : 0 ≤ altNorm g alt ∧ altNorm g alt ≤ (g.nbalt : K) - 1 := by
    have e : altNorm g alt = (k : K) + 1 - (alt - g.alts (k + 1)) / (g.alts k - g.alts (k + 1)) := by
      simp only [altNorm, ← hkup]
    have hk0 : (0 : K) ≤ k := Nat.cast_nonneg k
    have hk2 : (k : K) + 2 ≤ g.nbalt := by exact_mod_cast hk1
    rw [e]
    constructor <;> linarith
  have bx := gridInterp_bounded hg hx.value hcov' na.1 na.2
  have byy := gridInterp_bounded hg hy.value hcov' na.1 na.2
  have lx := gridInterp_pixels hg hdeg hc.lon na.1 na.2 hcov hcov'
  have ly := gridInterp_pixels hg hdeg hc.lat na.1 na.2 hcov hcov'
  have hslope : 0 ≤ A / (deg * 1000000) := div_nonneg hA (by positivity)
  have tot : A / (deg * 1000000) * (|t.row - row| + |t.col - col|) ≤ A / (deg * 1000000) * (2 * lastMove u A δ T coslat P) :=
    mul_le_mul_of_nonneg_left (by linarith) hslope
  refine ⟨_, _, gridPoint_eq_gridLonLat g t.row t.col alt fun hgg => ⟨bx.trans (hgeo hgg).1, byy.trans (hgeo hgg).2⟩, ?_, ?_⟩
  · have a := abs_sub_le (gridLonLat g t.row t.col alt).2 (gridLonLat g row col alt).2 lat
    have ly' : |(gridLonLat g t.row t.col alt).2 - (gridLonLat g row col alt).2| ≤ _ := ly
    linarith
  · have a := abs_sub_le (gridLonLat g t.row t.col alt).1 (gridLonLat g row col alt).1 lon
    have lx' : |(gridLonLat g t.row t.col alt).1 - (gridLonLat g row col alt).1| ≤ _ := lx
    linarith

/-- C116. In double precision, for a geographic grid of at most 1000 layers whose Jacobians satisfy `A² ≤ κ δ`, at a latitude of at most 60
degrees: a pixel returned before the last turn is exactly located within `(1 + 15 κ)` 9.1·10⁻⁹ degree in latitude and `(2 + 15 κ)` 9.1·10⁻⁹
degree in longitude (1 millimetre on the ground being 9·10⁻⁹ degree) plus 4·10⁻¹¹. -/
theorem C116_double {g : MultiGrid K} (hg : g.Regular) (hN : g.nbalt ≤ 1000) (hx : DataBounds g g.lon 180 1) (hy : DataBounds g g.lat 90 1)
    {deg eps rad rtx coslat lon lat alt A δ κ : K} (hrtx : 40678 / 1000 ≤ rtx) (hrad : 1745329 / 100 ≤ |rad|) (hcos : 1 / 2 ≤ |coslat|)
    (hdeg : 1745329 / 100 ≤ deg * 1000000) (hδ : 0 < δ) (hA : A ≤ 100) (hκ : A ^ 2 ≤ κ * δ) (hκ1 : κ ≤ 1000000000000)
    (h0 : g.alts (g.nbalt - 1) ≤ alt) (h1 : alt ≤ g.alts 0) (hc : WellConditioned g deg alt A δ)
    (heps : Rounds doubleUnit (1 / 1000000) eps) (hP : ∀ row col, Covered g row col → |row| ≤ 1000000 ∧ |col| ≤ 1000000)
    {n m : ℕ} {s t : FloatGridIter K} (hs : s.err = 10) (hm : 0 < m)
    (h : FloatGridLoop doubleUnit deg eps g rad rtx coslat lon lat alt n s t m) :
    ∃ row col, FloatGridTurn doubleUnit deg g rad rtx coslat lon lat alt row col t ∧ (Covered g row col → Covered g t.row t.col →
      ∃ x y, gridPoint g (some t.row) (some t.col) (some alt) = ⟨some x, some y, some alt⟩ ∧
        |y - lat| ≤ (1 + 15 * κ) * (91 / 10000000000) + 4 / 100000000000 ∧
        |x - lon| ≤ (2 + 15 * κ) * (91 / 10000000000) + 4 / 100000000000) := by
  have eu : (doubleUnit : K) = 1 / 9007199254740992 := by unfold doubleUnit; norm_num
  have hu : (0 : K) ≤ doubleUnit := by rw [eu]; norm_num
  have hu1 : (doubleUnit : K) < 1 := by rw [eu]; norm_num
  have w : unitInv (doubleUnit : K) = 1 / 9007199254740991 := by unfold unitInv; rw [eu]; norm_num
  obtain ⟨d1, d2⟩ := C102_double (K := K) g.nbalt hN
  have d1' := (gridRounding_mono hu hu1 g.nbalt (by norm_num : (90 : K) ≤ 180) (le_refl 1)).trans d1
  have hE : (1 + unitInv (doubleUnit : K)) ^ 22 - 1 ≤ 23 / 9007199254740991 := by
    rw [w]
    refine le_trans (sub_le_sub_right (pow_u_le (u := (1 / 9007199254740991 : K)) (by norm_num) (by norm_num) 22 (by norm_num)) 1) ?_
    norm_num
  have hκδ : 0 ≤ κ * δ := (sq_nonneg A).trans hκ
  have hκ0 : 0 ≤ κ := nonneg_of_mul_nonneg_left hκδ hδ
  have hsmall : ((1 + unitInv (doubleUnit : K)) ^ 22 - 1) * (36 * A ^ 2) ≤ δ := by
    have k1 : ((1 + unitInv (doubleUnit : K)) ^ 22 - 1) * (36 * A ^ 2) ≤ 23 / 9007199254740991 * (36 * A ^ 2) :=
      mul_le_mul_of_nonneg_right hE (by positivity)
    have k2 : κ * δ ≤ 1000000000000 * δ := mul_le_mul_of_nonneg_right hκ1 hδ.le
    linarith
  have hT : eps ≤ rtx * (1 - (doubleUnit : K)) ^ 5 * (157 / 1000000) ^ 2 := by
    have k1 := heps.upper
    rw [eu] at k1 ⊢
    have k2 : |eps| ≤ 10000001 / 10000000000000 := k1.trans (by rw [abs_of_pos (by norm_num : (0 : K) < 1 / 1000000)]; norm_num)
    have k3 : (40678 / 1000 : K) * ((1 - 1 / 9007199254740992) ^ 5 * (157 / 1000000) ^ 2) ≤
        rtx * ((1 - 1 / 9007199254740992) ^ 5 * (157 / 1000000) ^ 2) := mul_le_mul_of_nonneg_right hrtx (by positivity)
    have k4 : (10000001 / 10000000000000 : K) ≤ 40678 / 1000 * ((1 - 1 / 9007199254740992) ^ 5 * (157 / 1000000) ^ 2) := by norm_num
    have := le_abs_self eps
    rw [mul_assoc]
    linarith
  have heps10 : eps < 10 := by
    have k1 := heps.upper
    rw [eu] at k1
    have k2 : |eps| ≤ 1 := k1.trans (by rw [abs_of_pos (by norm_num : (0 : K) < 1 / 1000000)]; norm_num)
    have := le_abs_self eps
    linarith
  have hdeg0 : 0 < deg := by linarith
  have hrad0 : rad ≠ 0 := by
    intro e
    rw [e, abs_zero] at hrad
    norm_num at hrad
  have hcos0 : coslat ≠ 0 := by
    intro e
    rw [e, abs_zero] at hcos
    norm_num at hcos
  obtain ⟨row, col, ht, key⟩ := C116_certificate (T := 157 / 1000000) (P := 1000000) hu hu1 hg hx hy (fun _ => ⟨le_rfl, le_rfl⟩) (by linarith)
    (by norm_num) hrad0 hcos0 hdeg0 hδ h0 h1 d2 hc hsmall hT hP (by rw [hs]; exact heps10) hm h
  refine ⟨row, col, ht, fun hcov hcov' => ?_⟩
  obtain ⟨x, y, hpt, ky, kx⟩ := key hcov hcov'
  have hA0 : 0 ≤ A := by
    have := hc.lon.along_row 0 (by have := hg.alt2; omega) 0 (by have := hg.row2; omega) 0 (by have := hg.col2; omega)
    have k : 0 ≤ A * |g.stepcol| := le_trans (mul_nonneg (abs_nonneg _) (by positivity)) this
    exact nonneg_of_mul_nonneg_left k (abs_pos.2 hg.stepCol)
  have hq : (1745328 / 100 : K) ≤ (1 - (doubleUnit : K)) ^ 2 * |rad| := by
    have : (1 - (doubleUnit : K)) ^ 2 * (1745329 / 100) ≤ (1 - (doubleUnit : K)) ^ 2 * |rad| := mul_le_mul_of_nonneg_left hrad (by positivity)
    rw [eu] at this ⊢
    norm_num at this ⊢
    linarith
  have t1 : (157 / 1000000 : K) / ((1 - (doubleUnit : K)) ^ 2 * |rad|) ≤ 9 / 1000000000 := by
    rw [div_le_iff₀ (by linarith)]
    linarith
  have t2 : (157 / 1000000 : K) / ((1 - (doubleUnit : K)) ^ 2 * |rad| * |coslat|) ≤ 18 / 1000000000 := by
    have : (1745328 / 100 : K) * (1 / 2) ≤ (1 - (doubleUnit : K)) ^ 2 * |rad| * |coslat| := mul_le_mul hq hcos (by norm_num) (by linarith)
    rw [div_le_iff₀ (by linarith)]
    linarith
  have c1 : (157 / 1000000 : K) / |coslat| ≤ 314 / 1000000 := by
    rw [div_le_iff₀ (by linarith)]
    linarith
  have hD : 0 < deg * 1000000 := by linarith
  have mv : A / (deg * 1000000) * (2 * lastMove doubleUnit A δ (157 / 1000000) coslat 1000000) ≤
      15 * κ * (91 / 10000000000) + 1 / 100000000000 := by
    have l1 : 5 * A / (2 * δ) * ((157 / 1000000 : K) / |coslat| + 157 / 1000000) ≤ 5 * A / (2 * δ) * (471 / 1000000) :=
      mul_le_mul_of_nonneg_left (by linarith) (by positivity)
    have l2 : lastMove doubleUnit A δ (157 / 1000000) coslat 1000000 ≤ 10000001 / 10000000 * (5 * A / (2 * δ) * (471 / 1000000)) + 12 / 100000000000 := by
      unfold lastMove
      have hcube : (1 + (doubleUnit : K)) ^ 3 ≤ 10000001 / 10000000 := by rw [eu]; norm_num
      have hpos : 0 ≤ 5 * A / (2 * δ) * ((157 / 1000000 : K) / |coslat| + 157 / 1000000) := by positivity
      have m1 := mul_le_mul hcube l1 hpos (by norm_num)
      have m2 : (doubleUnit : K) * 1000000 ≤ 12 / 100000000000 := by rw [eu]; norm_num
      linarith
    rw [div_mul_eq_mul_div, div_le_iff₀ hD]
    have l3 : A * (2 * lastMove doubleUnit A δ (157 / 1000000) coslat 1000000) ≤
        A * (2 * (10000001 / 10000000 * (5 * A / (2 * δ) * (471 / 1000000)) + 12 / 100000000000)) :=
      mul_le_mul_of_nonneg_left (by linarith) hA0
    have l4 : A * (5 * A / (2 * δ)) ≤ 5 / 2 * κ := by
      have : A * (5 * A / (2 * δ)) = 5 / 2 * (A ^ 2 / δ) := by field_simp
      rw [this]
      have : A ^ 2 / δ ≤ κ := (div_le_iff₀ hδ).2 hκ
      linarith
    have l5 : (15 * κ * (91 / 10000000000) + 1 / 100000000000) * (1745329 / 100) ≤ (15 * κ * (91 / 10000000000) + 1 / 100000000000) * (deg * 1000000) :=
      mul_le_mul_of_nonneg_left hdeg (by positivity)
    have l6 : A * (2 * (10000001 / 10000000 * (5 * A / (2 * δ) * (471 / 1000000)) + 12 / 100000000000)) =
      2 * (10000001 / 10000000 * (471 / 1000000)) * (A * (5 * A / (2 * δ))) + 24 / 100000000000 * A := by ring
    rw [l6] at l3
    linarith
  refine ⟨x, y, hpt, ?_, ?_⟩
  · linarith
  · linarith

/-! ### C116, the returned pixel more precisely -/

theorem Rel.symm {u : K} (hu1 : u < 1) {n : ℕ} {x x' : K} (h : Rel u n x x') : Rel u n x' x := by
  obtain ⟨ρ, rfl, h1, h2⟩ := h
  have hp : 0 < (1 - u) ^ n := pow_pos (by linarith) n
  have hρ : 0 < ρ := lt_of_lt_of_le hp h1
  refine ⟨1 / ρ, by rw [mul_assoc, mul_one_div_cancel hρ.ne', mul_one], ?_, ?_⟩
  · rw [le_div_iff₀ hρ]; linarith
  · rw [one_div, inv_mul_le_iff₀ hρ]; linarith

theorem FloatGridMeasure.rel {u : K} (hu : 0 ≤ u) (hu1 : u < 1) {g : MultiGrid K} {μ rad rtx coslat lon lat alt row col dlon dlat err : K}
    (hrad : Rounds u μ rad) (h : FloatGridMeasure u g rad rtx coslat lon lat alt row col dlon dlat err) :
    ∃ p plon plat, FloatGridPoint u g row col alt p ∧ p.x = some plon ∧ p.y = some plat ∧ Rel u 3 dlon ((plon - lon) * μ) ∧
      Rel u 3 dlat ((plat - lat) * μ) := by
  obtain ⟨p, plon, plat, x, y, s, c, t, w, hp, hpx, hpy, hx, hdlon, hy, hdlat, -⟩ := h
  have r := (Rel.refl u μ).round hu hu1 hrad
  refine ⟨p, plon, plat, hp, hpx, hpy, ?_, ?_⟩
  · exact ((((Rel.refl u _).round hu hu1 hx).mul hu1 r).round hu hu1 hdlon).symm hu1
  · exact ((((Rel.refl u _).round hu hu1 hy).mul hu1 r).round hu hu1 hdlat).symm hu1

/-- One line of the move against the exact product. -/
theorem FloatGridMove.line {u : K} (hu : 0 ≤ u) {A δ n1 n2 det m m' dlon dlat x x' : K} (hA : 0 ≤ A) (hδ : 0 < δ) (hdet : δ / 2 ≤ |det|)
    (h1 : |n1| ≤ 7 / 6 * A) (h2 : |n2| ≤ 7 / 6 * A) (hm : Rounds u (n1 / det) m) (hm' : Rounds u (n2 / det) m')
    (h : FloatGridMove u m m' dlon dlat x x') :
    ∃ d, |d - (n1 * dlon + n2 * dlat) / det| ≤ ((1 + u) ^ 3 - 1) * (7 * A / (3 * δ) * (|dlon| + |dlat|)) ∧ |x' - (x - d)| ≤ u * |x - d| := by
  obtain ⟨p, q, d, hp, hq, hd, hx⟩ := h
  refine ⟨d, ?_, by rw [sub_eq_add_neg x d]; exact hx⟩
  have a1 := (hm.approx).mul hu (Approx.refl u dlon) hp
  have a2 := (hm'.approx).mul hu (Approx.refl u dlat) hq
  have a3 := (a1.add hu a2 hd).1
  have q0 : ∀ {n : K}, |n| ≤ 7 / 6 * A → |n / det| ≤ 7 * A / (3 * δ) := by
    intro n hn
    rw [abs_div, div_le_iff₀ (lt_of_lt_of_le (by linarith) hdet)]
    have : 7 * A / (3 * δ) * (δ / 2) ≤ 7 * A / (3 * δ) * |det| := mul_le_mul_of_nonneg_left hdet (by positivity)
    have e : 7 * A / (3 * δ) * (δ / 2) = 7 / 6 * A := by field_simp; ring
    linarith
  have e : n1 / det * dlon + n2 / det * dlat = (n1 * dlon + n2 * dlat) / det := by ring
  rw [e] at a3
  refine a3.trans (mul_le_mul_of_nonneg_left ?_ (sub_nonneg.2 (one_le_pow_u hu _)))
  have b1 := mul_le_mul_of_nonneg_right (q0 h1) (abs_nonneg dlon)
  have b2 := mul_le_mul_of_nonneg_right (q0 h2) (abs_nonneg dlat)
  linarith

/-- Error of the solution of the two equations: the move solves them up to this part of the measured error. -/
def solveError (u A δ : K) : K := A ^ 2 / δ * (12 * u + 49 / 9 * ((1 + u) ^ 3 - 1))

theorem FloatEntries.solves {u A δ : K} (hu : 0 ≤ u) (hu1 : u < 1) (hδ : 0 < δ) {J : Matrix (Fin 2) (Fin 2) K} {a b c e p q det : K}
    {m : K × K × K × K} (h : FloatEntries u A δ J a b c e p q det m) {dlon dlat row col row' col' : K}
    (hcol : FloatGridMove u m.1 m.2.1 dlon dlat col col') (hrow : FloatGridMove u m.2.2.1 m.2.2.2 dlon dlat row row') :
    ∃ d0 d1, |a * d0 + b * d1 - dlon| ≤ solveError u A δ * (|dlon| + |dlat|) ∧ |c * d0 + e * d1 - dlat| ≤ solveError u A δ * (|dlon| + |dlat|) ∧
      |col' - (col - d0)| ≤ u * |col - d0| ∧ |row' - (row - d1)| ≤ u * |row - d1| := by
  have hw := unitInv_nonneg hu hu1
  have hA : 0 ≤ A := (abs_nonneg _).trans h.ja
  obtain ⟨la, lb, lc, le⟩ := h.le hu hu1
  have hu18 : u ≤ 1 / 18 := by
    have : (1 + unitInv u) ^ 1 - 1 ≤ (1 + unitInv u) ^ 22 - 1 := sub_le_sub_right (pow_le_pow_right₀ (by linarith) (by norm_num)) 1
    rw [pow_one] at this
    have k : u ≤ unitInv u := by
      unfold unitInv
      rw [le_div_iff₀ (by linarith)]
      nlinarith
    have := h.small
    linarith
  obtain ⟨d0, k0, w0⟩ := hcol.line hu hA hδ h.det_low le (by rwa [abs_neg]) h.m1 h.m2
  obtain ⟨d1, k1, w1⟩ := hrow.line hu hA hδ h.det_low (by rwa [abs_neg]) la h.m3 h.m4
  have hpos : 0 < |det| := lt_of_lt_of_le (by linarith) h.det_low
  have hne : det ≠ 0 := abs_pos.1 hpos
  -- the determinant
  have hae : |a * e| ≤ 49 / 36 * A ^ 2 := by
    rw [abs_mul]
    refine (mul_le_mul la le (abs_nonneg _) (by linarith)).trans (le_of_eq (by ring))
  have hbc : |b * c| ≤ 49 / 36 * A ^ 2 := by
    rw [abs_mul]
    refine (mul_le_mul lb lc (abs_nonneg _) (by linarith)).trans (le_of_eq (by ring))
  have hD : |a * e - b * c - det| ≤ 6 * u * A ^ 2 := by
    have p1 : |p - a * e| ≤ u * |a * e| := h.hp
    have q1 : |q - b * c| ≤ u * |b * c| := h.hq
    have s1 : |det - (p - q)| ≤ u * |p - q| := h.hdet
    have p2 := h.hp.upper
    have q2 := h.hq.upper
    have s2 := abs_sub p q
    have f1 := mul_le_mul_of_nonneg_left hae hu
    have f2 := mul_le_mul_of_nonneg_left hbc hu
    have f3 : (1 + u) * |a * e| ≤ 19 / 18 * (49 / 36 * A ^ 2) := mul_le_mul (by linarith) hae (abs_nonneg _) (by norm_num)
    have f4 : (1 + u) * |b * c| ≤ 19 / 18 * (49 / 36 * A ^ 2) := mul_le_mul (by linarith) hbc (abs_nonneg _) (by norm_num)
    have f5 : |p - q| ≤ 19 / 18 * (49 / 18 * A ^ 2) := by linarith
    have f6 := mul_le_mul_of_nonneg_left f5 hu
    have ee : a * e - b * c - det = -(p - a * e) + (q - b * c) - (det - (p - q)) := by ring
    have t1 := abs_sub (-(p - a * e) + (q - b * c)) (det - (p - q))
    have t2 := abs_add_le (-(p - a * e)) (q - b * c)
    rw [abs_neg] at t2
    rw [ee]
    have f7 : 0 ≤ u * A ^ 2 := by positivity
    linarith
  have rel : ∀ z : K, |(a * e - b * c) / det * z - z| ≤ 12 * u * (A ^ 2 / δ) * |z| := by
    intro z
    have ee : (a * e - b * c) / det * z - z = (a * e - b * c - det) / det * z := by field_simp
    rw [ee, abs_mul, abs_div]
    refine mul_le_mul_of_nonneg_right ?_ (abs_nonneg z)
    rw [div_le_iff₀ hpos]
    have : 12 * u * (A ^ 2 / δ) * (δ / 2) ≤ 12 * u * (A ^ 2 / δ) * |det| := mul_le_mul_of_nonneg_left h.det_low (by positivity)
    have e2 : 12 * u * (A ^ 2 / δ) * (δ / 2) = 6 * u * A ^ 2 := by field_simp; ring
    linarith
  have comb : ∀ {v1 v2 z : K}, |v1| ≤ 7 / 6 * A → |v2| ≤ 7 / 6 * A →
      v1 * ((e * dlon + -b * dlat) / det) + v2 * ((-c * dlon + a * dlat) / det) = (a * e - b * c) / det * z → |z| ≤ |dlon| + |dlat| →
      |v1 * d0 + v2 * d1 - z| ≤ solveError u A δ * (|dlon| + |dlat|) := by
    intro v1 v2 z h1 h2 heq hz
    have e1 : v1 * d0 + v2 * d1 - z = v1 * (d0 - (e * dlon + -b * dlat) / det) + v2 * (d1 - (-c * dlon + a * dlat) / det) +
        ((a * e - b * c) / det * z - z) := by rw [← heq]; ring
    have g0 : 0 ≤ ((1 + u) ^ 3 - 1) * (7 * A / (3 * δ) * (|dlon| + |dlat|)) := (abs_nonneg _).trans k0
    have t1 : |v1 * (d0 - (e * dlon + -b * dlat) / det)| ≤ 7 / 6 * A * (((1 + u) ^ 3 - 1) * (7 * A / (3 * δ) * (|dlon| + |dlat|))) := by
      rw [abs_mul]; exact mul_le_mul h1 k0 (abs_nonneg _) (by linarith)
    have t2 : |v2 * (d1 - (-c * dlon + a * dlat) / det)| ≤ 7 / 6 * A * (((1 + u) ^ 3 - 1) * (7 * A / (3 * δ) * (|dlon| + |dlat|))) := by
      rw [abs_mul]; exact mul_le_mul h2 k1 (abs_nonneg _) (by linarith)
    have t3 : |(a * e - b * c) / det * z - z| ≤ 12 * u * (A ^ 2 / δ) * (|dlon| + |dlat|) :=
      (rel z).trans (mul_le_mul_of_nonneg_left hz (by positivity))
    rw [e1]
    refine (abs_add_le _ _).trans ?_
    have t4 := abs_add_le (v1 * (d0 - (e * dlon + -b * dlat) / det)) (v2 * (d1 - (-c * dlon + a * dlat) / det))
    have e2 : solveError u A δ * (|dlon| + |dlat|) = 12 * u * (A ^ 2 / δ) * (|dlon| + |dlat|) +
        2 * (7 / 6 * A * (((1 + u) ^ 3 - 1) * (7 * A / (3 * δ) * (|dlon| + |dlat|)))) := by
      unfold solveError; field_simp; ring
    rw [e2]
    linarith
  refine ⟨d0, d1, comb la lb ?_ (le_add_of_nonneg_right (abs_nonneg _)), comb lc le ?_ (le_add_of_nonneg_left (abs_nonneg _)), w0, w1⟩
  · field_simp; ring
  · field_simp; ring

/-- The bound of `C116_refined`, in microradians: `ε` bounds the bending of the grid in microradians per pixel. -/
def refinedError (u A δ ε T coslat P : K) : K :=
  ((1 + unitInv u) ^ 3 - 1 + solveError u A δ) * (T / |coslat| + T) +
    (2 * ε + ((1 + unitInv u) ^ 10 - 1) * (3 * A)) * (2 * lastMove u A δ T coslat P) + 7 / 3 * A * (unitInv u * P)

/-- C116. For a grid that is an affine map up to `η` degrees per node at the altitude, the location of the returned pixel is nearer to the
ground point than the accepted error: the last move corrects the measured error up to the bending of the grid and to rounding. -/
theorem C116_refined {u : K} (hu : 0 ≤ u) (hu1 : u < 1) {g : MultiGrid K} (hg : g.Regular) {Hx Lx Hy Ly : K}
    (hx : DataBounds g g.lon Hx Lx) (hy : DataBounds g g.lat Hy Ly) (hgeo : g.geographic = true → Hx ≤ 180 ∧ Hy ≤ 90)
    {deg eps rad rtx coslat lon lat alt T A δ P a b c e η ε : K} (hrtx : 0 < rtx) (hT : 0 ≤ T) (hrad : Rounds u (deg * 1000000) rad)
    (hcos : coslat ≠ 0) (hdeg : 0 < deg)
    (hδ : 0 < δ) (h0 : g.alts (g.nbalt - 1) ≤ alt) (h1 : alt ≤ g.alts 0) (hn : ((1 + unitInv u) ^ 5 - 1) * g.nbalt ≤ 1 / 2)
    (hc : WellConditioned g deg alt A δ) (hsmall : ((1 + unitInv u) ^ 22 - 1) * (36 * A ^ 2) ≤ δ)
    (hnear : NearlyAffineAt g alt a b c e η) (hr : η * (deg * 1000000) ≤ ε * |g.steprow|) (hcl : η * (deg * 1000000) ≤ ε * |g.stepcol|)
    (heps : eps ≤ rtx * (1 - u) ^ 5 * T ^ 2) (hP : ∀ row col, Covered g row col → |row| ≤ P ∧ |col| ≤ P)
    {n m : ℕ} {s t : FloatGridIter K} (hs : s.err > eps) (hm : 0 < m) (h : FloatGridLoop u deg eps g rad rtx coslat lon lat alt n s t m) :
    ∃ row col, FloatGridTurn u deg g rad rtx coslat lon lat alt row col t ∧ (Covered g row col → Covered g t.row t.col →
      ∃ x y, gridPoint g (some t.row) (some t.col) (some alt) = ⟨some x, some y, some alt⟩ ∧
        |y - lat| ≤ gridRounding u g.nbalt Hy Ly + refinedError u A δ ε T coslat P / (deg * 1000000) ∧
        |x - lon| ≤ gridRounding u g.nbalt Hx Lx + refinedError u A δ ε T coslat P / (deg * 1000000)) := by
  obtain ⟨l1, l2⟩ := h.last hm
  obtain ⟨row, col, ht⟩ := l2 hs
  refine ⟨row, col, ht, fun hcov hcov' => ?_⟩
  obtain ⟨dlon, dlat, mat, hmeas, hmat, hcol, hrow⟩ := ht
  have hw := unitInv_nonneg hu hu1
  have herr : t.err ≤ rtx * (1 - u) ^ 5 * T ^ 2 := l1.trans heps
  obtain ⟨m1, m2, m3, m4⟩ := C116_matrix hu hu1 hg hdeg hδ h0 h1 hc hsmall hmat
  obtain ⟨i, j, a', b', c', e', p', q', det, hi, hj, hent⟩ := hmat.entries hu hu1 hg hdeg hδ h0 h1 hc hsmall
  obtain ⟨b1, b2, -⟩ := hmeas.bounds hu hu1 hrtx hT herr
  obtain ⟨p, plon, plat, hp, hpx, hpy, rx, ry⟩ := hmeas.rel hu hu1 hrad
  have hA : 0 ≤ A := (abs_nonneg _).trans hent.ja
  have hμ : 0 < deg * 1000000 := by positivity
  have hc0 := abs_pos.2 hcos
  have b3 : |dlon| ≤ T / |coslat| := by rwa [le_div_iff₀ hc0]
  have hM : 0 ≤ 5 * A / (2 * δ) := (abs_nonneg _).trans m1
  have hN0 : 0 ≤ |dlon| + |dlat| := add_nonneg (abs_nonneg _) (abs_nonneg _)
  have hN : |dlon| + |dlat| ≤ T / |coslat| + T := add_le_add b3 b1
  -- the last move
  have mv : (1 + u) ^ 3 * (5 * A / (2 * δ) * (|dlon| + |dlat|)) ≤ (1 + u) ^ 3 * (5 * A / (2 * δ) * (T / |coslat| + T)) :=
    mul_le_mul_of_nonneg_left (mul_le_mul_of_nonneg_left hN hM) (pow_nonneg (by linarith) 3)
  obtain ⟨pr, pc⟩ := hP row col hcov
  obtain ⟨pr', pc'⟩ := hP t.row t.col hcov'
  have mc' : |t.col - col| ≤ lastMove u A δ T coslat P := by
    have := hcol.bound hu m1 m2
    have := mul_le_mul_of_nonneg_left pc hu
    unfold lastMove; linarith
  have mr' : |t.row - row| ≤ lastMove u A δ T coslat P := by
    have := hrow.bound hu m3 m4
    have := mul_le_mul_of_nonneg_left pr hu
    unfold lastMove; linarith
  obtain ⟨d0, d1, s0, s1, w0, w1⟩ := hent.solves hu hu1 hδ hcol hrow
  obtain ⟨la, lb, lc, le⟩ := hent.le hu hu1
  have om : ∀ {x x' d : K}, |x'| ≤ P → |x' - (x - d)| ≤ u * |x - d| → |x' - (x - d)| ≤ unitInv u * P := by
    intro x x' d hx' hr'
    have k1 := abs_sub_abs_le_abs_sub (x - d) x'
    rw [abs_sub_comm (x - d) x'] at k1
    refine hr'.trans ?_
    unfold Shareloc.unitInv
    rw [div_mul_eq_mul_div, le_div_iff₀ (by linarith)]
    have k2 : (1 - u) * |x - d| ≤ P := by linarith
    have := mul_le_mul_of_nonneg_left k2 hu
    linarith
  have o0 := om pc' w0
  have o1 := om pr' w1
  -- the measured pixel
  obtain ⟨x, y, hpt, hh⟩ := C102_direct_loc hu hu1 hg hx hy hgeo hcov h0 h1 hn hp
  have hxy : x = (gridLonLat g row col alt).1 ∧ y = (gridLonLat g row col alt).2 := by
    simp only [gridPoint] at hpt
    split_ifs at hpt with hgg
    · simp only [checkRow] at hpt
      split_ifs at hpt
      · simp [nanRow] at hpt
      · simp only [V3.mk.injEq, Option.some.injEq] at hpt
        exact ⟨hpt.1.symm, hpt.2.1.symm⟩
    · simp only [V3.mk.injEq, Option.some.injEq] at hpt
      exact ⟨hpt.1.symm, hpt.2.1.symm⟩
  have hmm : |x - plon| ≤ gridRounding u g.nbalt Hx Lx ∧ |y - plat| ≤ gridRounding u g.nbalt Hy Ly := by
    rcases hh with ⟨x', y', rfl, ex, ey⟩ | ⟨-, rfl, -⟩
    · simp only [Option.some.injEq] at hpx hpy
      subst hpx hpy
      exact ⟨by rwa [abs_sub_comm], by rwa [abs_sub_comm]⟩
    · simp [nanRow] at hpx
  -- the displacement
  have wig : ∀ {r k : K}, Covered g r k → WellInGrid g 0 r k := fun h => ⟨h.1, by rw [add_zero]; exact h.2.1, h.2.2.1, by rw [add_zero]; exact h.2.2.2⟩
  obtain ⟨e1, e2⟩ := hnear.displacement hg.alt2 hg.row2 hg.col2 hg.dec hg.stepRow hg.stepCol t.row t.col row col (wig hcov') (wig hcov)
  have hsr := abs_pos.2 hg.stepRow
  have hsc := abs_pos.2 hg.stepCol
  have hbend : deg * 1000000 * (η * nodeDist g t.row t.col row col) ≤ ε * (|t.row - row| + |t.col - col|) := by
    have k1 : η * (deg * 1000000) * (|t.row - row| / |g.steprow|) ≤ ε * |t.row - row| := by
      rw [← mul_div_assoc, div_le_iff₀ hsr]
      have := mul_le_mul_of_nonneg_right hr (abs_nonneg (t.row - row))
      linarith
    have k2 : η * (deg * 1000000) * (|t.col - col| / |g.stepcol|) ≤ ε * |t.col - col| := by
      rw [← mul_div_assoc, div_le_iff₀ hsc]
      have := mul_le_mul_of_nonneg_right hcl (abs_nonneg (t.col - col))
      linarith
    unfold nodeDist
    rw [abs_div, abs_div]
    linarith
  -- the derivatives of the affine map and the computed ones
  have near1 : ∀ {v f step w : K}, step ≠ 0 → η * (deg * 1000000) ≤ ε * |step| → |v - w| ≤ η →
      Approx (unitInv u) 10 (3 * A) (deg * 1000000 * v / step) f →
      |deg * 1000000 * (w / step) - f| ≤ ε + ((1 + unitInv u) ^ 10 - 1) * (3 * A) := by
    intro v f step w hstep hle hv hf
    have k1 : |deg * 1000000 * (w / step) - deg * 1000000 * v / step| ≤ ε := by
      have ee : deg * 1000000 * (w / step) - deg * 1000000 * v / step = -(deg * 1000000 * (v - w) / step) := by ring
      rw [ee, abs_neg, abs_div, abs_mul, abs_of_pos hμ, div_le_iff₀ (abs_pos.2 hstep)]
      have := mul_le_mul_of_nonneg_left hv hμ.le
      linarith
    have k2 := hf.1
    rw [abs_sub_comm] at k2
    have := abs_sub_le (deg * 1000000 * (w / step)) (deg * 1000000 * v / step) f
    linarith
  have J00 : (cellJacobian g (deg * 1000000) alt i j) 0 0 = deg * 1000000 * ((nodeLonLat g alt i (j + 1)).1 - (nodeLonLat g alt i j).1) / g.stepcol := rfl
  have J01 : (cellJacobian g (deg * 1000000) alt i j) 0 1 = deg * 1000000 * ((nodeLonLat g alt (i + 1) j).1 - (nodeLonLat g alt i j).1) / g.steprow := rfl
  have J10 : (cellJacobian g (deg * 1000000) alt i j) 1 0 = deg * 1000000 * ((nodeLonLat g alt i (j + 1)).2 - (nodeLonLat g alt i j).2) / g.stepcol := rfl
  have J11 : (cellJacobian g (deg * 1000000) alt i j) 1 1 = deg * 1000000 * ((nodeLonLat g alt (i + 1) j).2 - (nodeLonLat g alt i j).2) / g.steprow := rfl
  have na := near1 hg.stepCol hcl (hnear.colLon i j (by omega) hj) (J00 ▸ hent.ha)
  have nb := near1 hg.stepRow hr (hnear.rowLon i j hi (by omega)) (J01 ▸ hent.hb)
  have nc := near1 hg.stepCol hcl (hnear.colLat i j (by omega) hj) (J10 ▸ hent.hc)
  have ne := near1 hg.stepRow hr (hnear.rowLat i j hi (by omega)) (J11 ▸ hent.he)
  -- one coordinate
  have coord : ∀ {L0 L1 ρ tgt pl z w v f1 f2 : K}, |L0 - pl| ≤ ρ → Rel u 3 z ((pl - tgt) * (deg * 1000000)) → |z| ≤ |dlon| + |dlat| →
      |L1 - L0 - (w * ((t.col - col) / g.stepcol) + v * ((t.row - row) / g.steprow))| ≤ η * nodeDist g t.row t.col row col →
      |deg * 1000000 * (w / g.stepcol) - f1| ≤ ε + ((1 + unitInv u) ^ 10 - 1) * (3 * A) →
      |deg * 1000000 * (v / g.steprow) - f2| ≤ ε + ((1 + unitInv u) ^ 10 - 1) * (3 * A) →
      |f1| ≤ 7 / 6 * A → |f2| ≤ 7 / 6 * A → |f1 * d0 + f2 * d1 - z| ≤ solveError u A δ * (|dlon| + |dlat|) →
      |L1 - tgt| ≤ ρ + refinedError u A δ ε T coslat P / (deg * 1000000) := by
    intro L0 L1 ρ tgt pl z w v f1 f2 k0 k1 kz k2 k3 k4 k5 k6 k7
    have r1 : |(pl - tgt) * (deg * 1000000) - z| ≤ ((1 + unitInv u) ^ 3 - 1) * |z| := (k1.approx hu1).1
    have q1 : |deg * 1000000 * (L0 - pl)| ≤ deg * 1000000 * ρ := by
      rw [abs_mul, abs_of_pos hμ]; exact mul_le_mul_of_nonneg_left k0 hμ.le
    have q2 : |deg * 1000000 * (L1 - L0 - (w * ((t.col - col) / g.stepcol) + v * ((t.row - row) / g.steprow)))| ≤
        ε * (|t.row - row| + |t.col - col|) := by
      rw [abs_mul, abs_of_pos hμ]
      exact (mul_le_mul_of_nonneg_left k2 hμ.le).trans hbend
    have q3 : |(deg * 1000000 * (w / g.stepcol) - f1) * (t.col - col)| ≤ (ε + ((1 + unitInv u) ^ 10 - 1) * (3 * A)) * |t.col - col| := by
      rw [abs_mul]; exact mul_le_mul_of_nonneg_right k3 (abs_nonneg _)
    have q4 : |(deg * 1000000 * (v / g.steprow) - f2) * (t.row - row)| ≤ (ε + ((1 + unitInv u) ^ 10 - 1) * (3 * A)) * |t.row - row| := by
      rw [abs_mul]; exact mul_le_mul_of_nonneg_right k4 (abs_nonneg _)
    have q5 : |f1 * (t.col - (col - d0))| ≤ 7 / 6 * A * (unitInv u * P) := by
      rw [abs_mul]; exact mul_le_mul k5 o0 (abs_nonneg _) (by linarith)
    have q6 : |f2 * (t.row - (row - d1))| ≤ 7 / 6 * A * (unitInv u * P) := by
      rw [abs_mul]; exact mul_le_mul k6 o1 (abs_nonneg _) (by linarith)
    have tot : deg * 1000000 * (L1 - tgt) = deg * 1000000 * (L0 - pl) + ((pl - tgt) * (deg * 1000000) - z) - (f1 * d0 + f2 * d1 - z) +
        deg * 1000000 * (L1 - L0 - (w * ((t.col - col) / g.stepcol) + v * ((t.row - row) / g.steprow))) +
        (deg * 1000000 * (w / g.stepcol) - f1) * (t.col - col) + (deg * 1000000 * (v / g.steprow) - f2) * (t.row - row) +
        f1 * (t.col - (col - d0)) + f2 * (t.row - (row - d1)) := by ring
    have hε : 0 ≤ ε + ((1 + unitInv u) ^ 10 - 1) * (3 * A) := (abs_nonneg _).trans k3
    have hτ : 0 ≤ ((1 + unitInv u) ^ 10 - 1) * (3 * A) := mul_nonneg (sub_nonneg.2 (one_le_pow_u hw 10)) (by linarith)
    have hη : 0 ≤ η := (abs_nonneg _).trans (hnear.colLon i j (by omega) hj)
    have hε0 : 0 ≤ ε := by
      have : 0 ≤ ε * |g.steprow| := (mul_nonneg hη hμ.le).trans hr
      exact nonneg_of_mul_nonneg_left this hsr
    have hβ : 0 ≤ (1 + unitInv u) ^ 3 - 1 := sub_nonneg.2 (one_le_pow_u hw 3)
    have hγ : 0 ≤ solveError u A δ := by
      unfold solveError
      have : 0 ≤ (1 + u) ^ 3 - 1 := sub_nonneg.2 (one_le_pow_u hu 3)
      positivity
    have z1 : ((1 + unitInv u) ^ 3 - 1) * |z| ≤ ((1 + unitInv u) ^ 3 - 1) * (T / |coslat| + T) := mul_le_mul_of_nonneg_left (kz.trans hN) hβ
    have z2 : solveError u A δ * (|dlon| + |dlat|) ≤ solveError u A δ * (T / |coslat| + T) := mul_le_mul_of_nonneg_left hN hγ
    have z3 : (2 * ε + ((1 + unitInv u) ^ 10 - 1) * (3 * A)) * (|t.row - row| + |t.col - col|) ≤
        (2 * ε + ((1 + unitInv u) ^ 10 - 1) * (3 * A)) * (2 * lastMove u A δ T coslat P) := mul_le_mul_of_nonneg_left (by linarith) (by linarith)
    have big : |deg * 1000000 * (L1 - tgt)| ≤ deg * 1000000 * ρ + refinedError u A δ ε T coslat P := by
      rw [tot]
      unfold refinedError
      generalize deg * 1000000 * (L0 - pl) = x1 at *
      generalize (pl - tgt) * (deg * 1000000) - z = x2 at *
      generalize f1 * d0 + f2 * d1 - z = x3 at *
      generalize deg * 1000000 * (L1 - L0 - (w * ((t.col - col) / g.stepcol) + v * ((t.row - row) / g.steprow))) = x4 at *
      generalize (deg * 1000000 * (w / g.stepcol) - f1) * (t.col - col) = x5 at *
      generalize (deg * 1000000 * (v / g.steprow) - f2) * (t.row - row) = x6 at *
      generalize f1 * (t.col - (col - d0)) = x7 at *
      generalize f2 * (t.row - (row - d1)) = x8 at *
      have y1 := abs_add_le (x1 + x2 - x3 + x4 + x5 + x6 + x7) x8
      have y2 := abs_add_le (x1 + x2 - x3 + x4 + x5 + x6) x7
      have y3 := abs_add_le (x1 + x2 - x3 + x4 + x5) x6
      have y4 := abs_add_le (x1 + x2 - x3 + x4) x5
      have y5 := abs_add_le (x1 + x2 - x3) x4
      have y6 := abs_sub (x1 + x2) x3
      have y7 := abs_add_le x1 x2
      linarith
    rw [abs_mul, abs_of_pos hμ] at big
    have : |L1 - tgt| ≤ (deg * 1000000 * ρ + refinedError u A δ ε T coslat P) / (deg * 1000000) := by
      rw [le_div_iff₀ hμ]; linarith
    rwa [add_div, mul_div_cancel_left₀ _ hμ.ne'] at this
  -- the returned pixel is located
  obtain ⟨k, hk, hk1, hkup, hrange, -⟩ := C30_bracketing g alt hg.alt2 hg.dec
  obtain ⟨-, -, t0, t1⟩ := hrange h0 h1
  have na' : 0 ≤ altNorm g alt ∧ altNorm g alt ≤ (g.nbalt : K) - 1 := by
    have ee : altNorm g alt = (k : K) + 1 - (alt - g.alts (k + 1)) / (g.alts k - g.alts (k + 1)) := by
      simp only [altNorm, ← hkup]
    have hk0 : (0 : K) ≤ k := Nat.cast_nonneg k
    have hk2 : (k : K) + 2 ≤ g.nbalt := by exact_mod_cast hk1
    rw [ee]
    constructor <;> linarith
  have bx := gridInterp_bounded hg hx.value hcov' na'.1 na'.2
  have byy := gridInterp_bounded hg hy.value hcov' na'.1 na'.2
  refine ⟨_, _, gridPoint_eq_gridLonLat g t.row t.col alt fun hgg => ⟨bx.trans (hgeo hgg).1, byy.trans (hgeo hgg).2⟩, ?_, ?_⟩
  · exact coord (hxy.2 ▸ hmm.2) ry (le_add_of_nonneg_left (abs_nonneg _)) e2 nc ne lc le s1
  · exact coord (hxy.1 ▸ hmm.1) rx (le_add_of_nonneg_right (abs_nonneg _)) e1 na nb la lb s0

/-- C116. In double precision, for a geographic grid that is at the altitude an affine map up to `ε` microradians per pixel, at a latitude of at
most 60 degrees: a pixel returned before the last turn is exactly located within `2.8·10⁻⁷ ε A / δ` + 5·10⁻¹¹ degree of the ground point (5
micrometres when the bending is negligible), the accepted error being 9·10⁻⁹. -/
theorem C116_refined_double {g : MultiGrid K} (hg : g.Regular) (hN : g.nbalt ≤ 1000) (hx : DataBounds g g.lon 180 1) (hy : DataBounds g g.lat 90 1)
    {deg eps rad rtx coslat lon lat alt A δ κ a b c e η ε : K} (hrtx : 40678 / 1000 ≤ rtx) (hrad : Rounds doubleUnit (deg * 1000000) rad)
    (hcos : 1 / 2 ≤ |coslat|) (hdeg : 1745329 / 100 ≤ deg * 1000000) (hδ : 0 < δ) (hA : A ≤ 100) (hκ : A ^ 2 ≤ κ * δ) (hκ1 : κ ≤ 10000000000)
    (h0 : g.alts (g.nbalt - 1) ≤ alt) (h1 : alt ≤ g.alts 0) (hc : WellConditioned g deg alt A δ) (hnear : NearlyAffineAt g alt a b c e η)
    (hr : η * (deg * 1000000) ≤ ε * |g.steprow|) (hcl : η * (deg * 1000000) ≤ ε * |g.stepcol|) (hε : ε ≤ 100)
    (heps : Rounds doubleUnit (1 / 1000000) eps) (hP : ∀ row col, Covered g row col → |row| ≤ 1000000 ∧ |col| ≤ 1000000)
    {n m : ℕ} {s t : FloatGridIter K} (hs : s.err = 10) (hm : 0 < m)
    (h : FloatGridLoop doubleUnit deg eps g rad rtx coslat lon lat alt n s t m) :
    ∃ row col, FloatGridTurn doubleUnit deg g rad rtx coslat lon lat alt row col t ∧ (Covered g row col → Covered g t.row t.col →
      ∃ x y, gridPoint g (some t.row) (some t.col) (some alt) = ⟨some x, some y, some alt⟩ ∧
        |y - lat| ≤ 28 / 100000000 * (ε * A / δ) + 5 / 100000000000 ∧
        |x - lon| ≤ 28 / 100000000 * (ε * A / δ) + 5 / 100000000000) := by
  have eu : (doubleUnit : K) = 1 / 9007199254740992 := by unfold doubleUnit; norm_num
  have hu : (0 : K) ≤ doubleUnit := by rw [eu]; norm_num
  have hu1 : (doubleUnit : K) < 1 := by rw [eu]; norm_num
  have w : unitInv (doubleUnit : K) = 1 / 9007199254740991 := by unfold unitInv; rw [eu]; norm_num
  obtain ⟨d1, d2⟩ := C102_double (K := K) g.nbalt hN
  have d1' := (gridRounding_mono hu hu1 g.nbalt (by norm_num : (90 : K) ≤ 180) (le_refl 1)).trans d1
  have hE : (1 + unitInv (doubleUnit : K)) ^ 22 - 1 ≤ 23 / 9007199254740991 := by
    rw [w]
    refine le_trans (sub_le_sub_right (pow_u_le (u := (1 / 9007199254740991 : K)) (by norm_num) (by norm_num) 22 (by norm_num)) 1) ?_
    norm_num
  have hκδ : 0 ≤ κ * δ := (sq_nonneg A).trans hκ
  have hκ0 : 0 ≤ κ := nonneg_of_mul_nonneg_left hκδ hδ
  have hsmall : ((1 + unitInv (doubleUnit : K)) ^ 22 - 1) * (36 * A ^ 2) ≤ δ := by
    have k1 : ((1 + unitInv (doubleUnit : K)) ^ 22 - 1) * (36 * A ^ 2) ≤ 23 / 9007199254740991 * (36 * A ^ 2) :=
      mul_le_mul_of_nonneg_right hE (by positivity)
    have k2 : κ * δ ≤ 10000000000 * δ := mul_le_mul_of_nonneg_right hκ1 hδ.le
    linarith
  have hT : eps ≤ rtx * (1 - (doubleUnit : K)) ^ 5 * (157 / 1000000) ^ 2 := by
    have k1 := heps.upper
    rw [eu] at k1 ⊢
    have k2 : |eps| ≤ 10000001 / 10000000000000 := k1.trans (by rw [abs_of_pos (by norm_num : (0 : K) < 1 / 1000000)]; norm_num)
    have k3 : (40678 / 1000 : K) * ((1 - 1 / 9007199254740992) ^ 5 * (157 / 1000000) ^ 2) ≤
        rtx * ((1 - 1 / 9007199254740992) ^ 5 * (157 / 1000000) ^ 2) := mul_le_mul_of_nonneg_right hrtx (by positivity)
    have k4 : (10000001 / 10000000000000 : K) ≤ 40678 / 1000 * ((1 - 1 / 9007199254740992) ^ 5 * (157 / 1000000) ^ 2) := by norm_num
    have := le_abs_self eps
    rw [mul_assoc]
    linarith
  have heps10 : eps < 10 := by
    have k1 := heps.upper
    rw [eu] at k1
    have k2 : |eps| ≤ 1 := k1.trans (by rw [abs_of_pos (by norm_num : (0 : K) < 1 / 1000000)]; norm_num)
    have := le_abs_self eps
    linarith
  have hdeg0 : 0 < deg := by linarith
  have hcos0 : coslat ≠ 0 := by
    intro e
    rw [e, abs_zero] at hcos
    norm_num at hcos
  obtain ⟨row, col, ht, key⟩ := C116_refined (T := 157 / 1000000) (P := 1000000) hu hu1 hg hx hy (fun _ => ⟨le_rfl, le_rfl⟩) (by linarith)
    (by norm_num) hrad hcos0 hdeg0 hδ h0 h1 d2 hc hsmall hnear hr hcl hT hP (by rw [hs]; exact heps10) hm h
  refine ⟨row, col, ht, fun hcov hcov' => ?_⟩
  obtain ⟨x, y, hpt, ky, kx⟩ := key hcov hcov'
  have hA0 : 0 ≤ A := by
    have := hc.lon.along_row 0 (by have := hg.alt2; omega) 0 (by have := hg.row2; omega) 0 (by have := hg.col2; omega)
    have k : 0 ≤ A * |g.stepcol| := le_trans (mul_nonneg (abs_nonneg _) (by positivity)) this
    exact nonneg_of_mul_nonneg_left k (abs_pos.2 hg.stepCol)
  have hε0 : 0 ≤ ε := by
    have hη : 0 ≤ η := (abs_nonneg _).trans (hnear.colLon 0 0 (by have := hg.row2; omega) (by have := hg.col2; omega))
    have : 0 ≤ ε * |g.steprow| := (mul_nonneg hη (by positivity)).trans hr
    exact nonneg_of_mul_nonneg_left this (abs_pos.2 hg.stepRow)
  have c1 : (157 / 1000000 : K) / |coslat| + 157 / 1000000 ≤ 471 / 1000000 := by
    have : (157 / 1000000 : K) / |coslat| ≤ 314 / 1000000 := by
      rw [div_le_iff₀ (by linarith)]
      linarith
    linarith
  have c0 : 0 ≤ (157 / 1000000 : K) / |coslat| + 157 / 1000000 := by positivity
  have hD : 0 < deg * 1000000 := by linarith
  have qκ : A ^ 2 / δ ≤ κ := (div_le_iff₀ hδ).2 hκ
  have qκ0 : 0 ≤ A ^ 2 / δ := by positivity
  have main : refinedError doubleUnit A δ ε (157 / 1000000) coslat 1000000 ≤ (28 / 100000000 * (ε * A / δ) + 2 / 100000000000) * (1745329 / 100) := by
    have l2 : lastMove doubleUnit A δ (157 / 1000000) coslat 1000000 ≤ 12 / 10000 * (A / δ) + 12 / 100000000000 := by
      unfold lastMove
      have hcube : (1 + (doubleUnit : K)) ^ 3 ≤ 10000001 / 10000000 := by rw [eu]; norm_num
      have l1 : 5 * A / (2 * δ) * ((157 / 1000000 : K) / |coslat| + 157 / 1000000) ≤ 5 * A / (2 * δ) * (471 / 1000000) :=
        mul_le_mul_of_nonneg_left c1 (by positivity)
      have hpos : 0 ≤ 5 * A / (2 * δ) * ((157 / 1000000 : K) / |coslat| + 157 / 1000000) := by positivity
      have m1 := mul_le_mul hcube l1 hpos (by norm_num)
      have m2 : (doubleUnit : K) * 1000000 ≤ 12 / 100000000000 := by rw [eu]; norm_num
      have m3 : 5 * A / (2 * δ) = 5 / 2 * (A / δ) := by field_simp
      have m4 : 0 ≤ A / δ := by positivity
      rw [m3] at m1
      rw [m3]
      linarith
    have l0 : 0 ≤ lastMove doubleUnit A δ (157 / 1000000) coslat 1000000 := by unfold lastMove; positivity
    have s1 : (1 + unitInv (doubleUnit : K)) ^ 3 - 1 ≤ 4 / 9007199254740991 := by rw [w]; norm_num
    have s2 : solveError doubleUnit A δ ≤ 40 / 9007199254740991 * κ := by
      unfold solveError
      have : 12 * (doubleUnit : K) + 49 / 9 * ((1 + doubleUnit) ^ 3 - 1) ≤ 40 / 9007199254740991 := by rw [eu]; norm_num
      have h2 : 0 ≤ 12 * (doubleUnit : K) + 49 / 9 * ((1 + doubleUnit) ^ 3 - 1) := by rw [eu]; norm_num
      have := mul_le_mul qκ this h2 hκ0
      linarith
    have s3 : (1 + unitInv (doubleUnit : K)) ^ 10 - 1 ≤ 11 / 9007199254740991 := by
      rw [w]
      refine le_trans (sub_le_sub_right (pow_u_le (u := (1 / 9007199254740991 : K)) (by norm_num) (by norm_num) 10 (by norm_num)) 1) ?_
      norm_num
    have s30 : 0 ≤ (1 + unitInv (doubleUnit : K)) ^ 10 - 1 := sub_nonneg.2 (one_le_pow_u (unitInv_nonneg hu hu1) 10)
    have t1 : ((1 + unitInv (doubleUnit : K)) ^ 3 - 1 + solveError doubleUnit A δ) * ((157 / 1000000 : K) / |coslat| + 157 / 1000000) ≤
        (4 / 9007199254740991 + 40 / 9007199254740991 * κ) * (471 / 1000000) := mul_le_mul (by linarith) c1 c0 (by positivity)
    have t2 : (2 * ε + ((1 + unitInv (doubleUnit : K)) ^ 10 - 1) * (3 * A)) * (2 * lastMove doubleUnit A δ (157 / 1000000) coslat 1000000) ≤
        (2 * ε + 11 / 9007199254740991 * (3 * A)) * (2 * (12 / 10000 * (A / δ) + 12 / 100000000000)) := by
      refine mul_le_mul ?_ (by linarith) (by linarith) (by positivity)
      have := mul_le_mul_of_nonneg_right s3 (by positivity : 0 ≤ 3 * A)
      linarith
    have t3 : 7 / 3 * A * (unitInv (doubleUnit : K) * 1000000) ≤ 27 / 1000000000 := by
      rw [w]
      linarith
    have t4 : (2 * ε + 11 / 9007199254740991 * (3 * A)) * (2 * (12 / 10000 * (A / δ) + 12 / 100000000000)) =
        48 / 10000 * (ε * A / δ) + 66 / 9007199254740991 * (12 / 10000 * (A ^ 2 / δ)) + 48 / 100000000000 * ε +
          66 / 9007199254740991 * (12 / 100000000000) * A := by ring
    have hEA : 0 ≤ ε * A / δ := by positivity
    unfold refinedError
    rw [t4] at t2
    linarith
  have tot : refinedError doubleUnit A δ ε (157 / 1000000) coslat 1000000 / (deg * 1000000) ≤ 28 / 100000000 * (ε * A / δ) + 2 / 100000000000 := by
    rw [div_le_iff₀ hD]
    have hEA : 0 ≤ ε * A / δ := by positivity
    exact main.trans (mul_le_mul_of_nonneg_left hdeg (by positivity))
  refine ⟨x, y, hpt, ?_, ?_⟩
  · linarith
  · linarith

/-! ### Concrete case -/

theorem rounds_self {u : K} (hu : 0 ≤ u) (x : K) : Rounds u x x := by
  unfold Rounds
  rw [sub_self, abs_zero]
  positivity

theorem FloatGridPoint.exact {u : K} (hu : 0 ≤ u) {g : MultiGrid K} (hr : g.steprow ≠ 0) (hc : g.stepcol ≠ 0) (row col alt : K) :
    FloatGridPoint u g row col alt (gridPoint g (some row) (some col) (some alt)) := by
  have hi : ∀ data, FloatGridInterp u g data (altNorm g alt) row col (gridInterp g data (altNorm g alt) row col) := by
    intro data
    refine ⟨_, _, _, _, ⟨_, _, rounds_self hu _, rounds_self hu _, rounds_self hu _⟩, ⟨_, _, rounds_self hu _, rounds_self hu _, rounds_self hu _⟩,
      ⟨_, _, rounds_self hu _, rounds_self hu _, rounds_self hu _⟩, .refl _, ?_⟩
    have h := FExpr.Computes.of_val hu (gridEnv data (gridCell g.nbalt (altNorm g alt)) (gridCell g.nbrow ((row - g.row0) / g.steprow))
      (gridCell g.nbcol ((col - g.col0) / g.stepcol)) (altNorm g alt - gridCell g.nbalt (altNorm g alt))
      ((row - g.row0) / g.steprow - gridCell g.nbrow ((row - g.row0) / g.steprow))
      ((col - g.col0) / g.stepcol - gridCell g.nbcol ((col - g.col0) / g.stepcol))) gridSrc
    rw [gridSrc_val] at h
    rw [axis_shift _ _ _ hr, axis_shift _ _ _ hc, add_sub_cancel_left, div_one]
    exact h
  refine ⟨altNorm g alt, _, _, ⟨_, _, _, _, rounds_self hu _, rounds_self hu _, rounds_self hu _, rounds_self hu _, ?_⟩, hi g.lon, hi g.lat, rfl⟩
  have e : altNorm g alt = -1 / (g.alts (altUp g.alts g.nbalt alt) - g.alts (altUp g.alts g.nbalt alt + 1)) *
      (alt - g.alts (altUp g.alts g.nbalt alt + 1)) + ((altUp g.alts g.nbalt alt : K) + 1) := by
    unfold altNorm; ring
  rw [e]
  exact rounds_self hu _

/-- The exact turn is one of the floating point turns. -/
theorem FloatGridTurn.exact {u : K} (hu : 0 ≤ u) {deg : K} {g : MultiGrid K} (hr : g.steprow ≠ 0) (hc : g.stepcol ≠ 0)
    {rtx coslat lon lat alt row col row' col' err' : K} {e : Option K}
    (h : gridStep g (deg * 1000000) rtx coslat lon lat alt ⟨some row, some col, e⟩ = ⟨some row', some col', some err'⟩) :
    FloatGridTurn u deg g (deg * 1000000) rtx coslat lon lat alt row col ⟨row', col', err'⟩ := by
  have hp := FloatGridPoint.exact hu hr hc row col alt
  simp only [gridStep] at h
  generalize gridPoint g (some row) (some col) (some alt) = p at h hp
  cases hpx : p.x with
  | none => rw [hpx] at h; simp at h
  | some plon =>
    cases hpy : p.y with
    | none => rw [hpx, hpy] at h; simp at h
    | some plat =>
      rw [hpx, hpy] at h
      simp only at h
      cases hm : inversePartial g (deg * 1000000) row col alt with
      | none => rw [hm] at h; simp at h
      | some m =>
        rw [hm] at h
        simp only [GridIter.mk.injEq, Option.some.injEq] at h
        obtain ⟨rfl, rfl, rfl⟩ := h
        unfold inversePartial at hm
        simp only at hm
        split_ifs at hm with hdet
        simp only [Option.some.injEq] at hm
        have hder : ∀ (h step : K) (data : ℕ → ℕ → ℕ → K) (up down i j i' j' : ℕ), FloatGridDerivative u deg h data up down i j i' j' step
            (((1 - h) * ((data down i' j' - data down i j) / step) + h * ((data up i' j' - data up i j) / step)) * (deg * 1000000)) := by
          intro h step data up down i j i' j'
          refine ⟨_, _, ⟨_, _, rounds_self hu _, rounds_self hu _, rounds_self hu _⟩, ⟨_, _, rounds_self hu _, rounds_self hu _, rounds_self hu _⟩,
            _, _, _, _, rounds_self hu _, rounds_self hu _, rounds_self hu _, rounds_self hu _, ?_⟩
          convert rounds_self hu _ using 1
          ring
        refine ⟨_, _, m, ⟨p, plon, plat, _, _, _, _, _, _, hp, hpx, hpy, rounds_self hu _, rounds_self hu _, rounds_self hu _, rounds_self hu _,
          rounds_self hu _, rounds_self hu _, rounds_self hu _, rounds_self hu _, ?_⟩,
          ⟨_, _, _, _, _, _, _, _, _, _, ⟨_, _, rounds_self hu _, rounds_self hu _, rfl⟩, ⟨_, _, rounds_self hu _, rounds_self hu _, rfl⟩,
            ⟨_, _, rounds_self hu _, rounds_self hu _, rounds_self hu _⟩, hder _ _ _ _ _ _ _ _ _, hder _ _ _ _ _ _ _ _ _,
            hder _ _ _ _ _ _ _ _ _, hder _ _ _ _ _ _ _ _ _, rounds_self hu _, rounds_self hu _, rounds_self hu _, ?_, by rw [← hm]; exact rounds_self hu _,
            by rw [← hm]; exact rounds_self hu _, by rw [← hm]; exact rounds_self hu _, by rw [← hm]; exact rounds_self hu _⟩,
          ⟨_, _, _, rounds_self hu _, rounds_self hu _, rounds_self hu _, ?_⟩, ⟨_, _, _, rounds_self hu _, rounds_self hu _, rounds_self hu _, ?_⟩⟩
        · convert rounds_self hu _ using 1
          ring
        · exact hdet
        · convert rounds_self hu _ using 1
          ring
        · convert rounds_self hu _ using 1
          ring

/-- `np.deg2rad(1)` as a decimal. -/
def demoDeg : ℚ := 17453292519943295 / 1000000000000000000

/-- A ground point at 10⁻⁹ degree from the location of the pixel (60, 250) of `demoGrid` at 100 metres. -/
def demoTarget : ℚ × ℚ := ((gridLonLat demoGrid 60 250 100).1 + 1 / 1000000000, (gridLonLat demoGrid 60 250 100).2 - 1 / 1000000000)

theorem demoGrid_conditioned : WellConditioned demoGrid demoDeg 100 4 4 := by
  refine ⟨⟨?_, ?_⟩, ⟨?_, ?_⟩, ?_⟩
  · intro k hk i hi j hj
    have hk' : k < 3 := hk
    have hi' : i < 2 := hi
    have hj' : j + 1 < 3 := hj
    have : j < 2 := by omega
    interval_cases k <;> interval_cases i <;> interval_cases j <;> decide +kernel
  · intro k hk i hi j hj
    have hk' : k < 3 := hk
    have hi' : i + 1 < 2 := hi
    have hj' : j < 3 := hj
    have : i < 1 := by omega
    interval_cases k <;> interval_cases i <;> interval_cases j <;> decide +kernel
  · intro k hk i hi j hj
    have hk' : k < 3 := hk
    have hi' : i < 2 := hi
    have hj' : j + 1 < 3 := hj
    have : j < 2 := by omega
    interval_cases k <;> interval_cases i <;> interval_cases j <;> decide +kernel
  · intro k hk i hi j hj
    have hk' : k < 3 := hk
    have hi' : i + 1 < 2 := hi
    have hj' : j < 3 := hj
    have : i < 1 := by omega
    interval_cases k <;> interval_cases i <;> interval_cases j <;> decide +kernel
  · intro i j hi hj
    have hi' : i + 1 < 2 := hi
    have hj' : j + 1 < 3 := hj
    have h1 : i < 1 := by omega
    have h2 : j < 2 := by omega
    rw [cellJacobian, Matrix.det_fin_two_of]
    interval_cases i <;> interval_cases j <;> decide +kernel

/-- The inverse location of `demoTarget` by `demoGrid` from the pixel (60, 250): the first turn measures a small error and moves, 14 turns
remain. -/
theorem demoGrid_loop : ∃ t : FloatGridIter ℚ, FloatGridLoop doubleUnit demoDeg (1 / 1000000) demoGrid (demoDeg * 1000000)
    (40678884 / 1000000) (3 / 4) demoTarget.1 demoTarget.2 100 15 ⟨60, 250, 10⟩ t 14 ∧ Covered demoGrid t.row t.col ∧ t.row ≠ 60 := by
  have hu : (0 : ℚ) ≤ doubleUnit := by unfold doubleUnit; norm_num
  have h : ∃ r c e : ℚ, gridStep demoGrid (demoDeg * 1000000) (40678884 / 1000000) (3 / 4) demoTarget.1 demoTarget.2 100
      ⟨some 60, some 250, some 10⟩ = ⟨some r, some c, some e⟩ ∧ ¬ e > 1 / 1000000 ∧ Covered demoGrid r c ∧ r ≠ 60 := by
    generalize hs : gridStep demoGrid (demoDeg * 1000000) (40678884 / 1000000) (3 / 4) demoTarget.1 demoTarget.2 100 ⟨some 60, some 250, some 10⟩ = s
    have k : ∃ x ∈ s.row, ∃ y ∈ s.col, ∃ z ∈ s.err, ¬ z > 1 / 1000000 ∧ Covered demoGrid x y ∧ x ≠ 60 := by
      rw [← hs]
      unfold Covered
      decide +kernel
    obtain ⟨x, hx, y, hy, z, hz, hk⟩ := k
    refine ⟨x, y, z, ?_, hk⟩
    cases s
    simp only [Option.mem_def] at hx hy hz
    rw [hx, hy, hz]
  obtain ⟨r, c, e, hstep, he, hcov, hr⟩ := h
  exact ⟨⟨r, c, e⟩, .turn (by norm_num) (FloatGridTurn.exact hu (by decide +kernel) (by decide +kernel) hstep) (.stop he), hcov, hr⟩

theorem demoGrid_pixels (row col : ℚ) (hc : Covered demoGrid row col) : |row| ≤ 1000000 ∧ |col| ≤ 1000000 := by
  obtain ⟨a, b, c, d⟩ := hc
  have e1 : demoGrid.row0 = 1 / 2 := rfl
  have e2 : demoGrid.steprow = 100 := rfl
  have e3 : demoGrid.col0 = 3 / 2 := rfl
  have e4 : demoGrid.stepcol = 200 := rfl
  have e5 : demoGrid.nbrow = 2 := rfl
  have e6 : demoGrid.nbcol = 3 := rfl
  rw [e1, e2] at a b
  rw [e3, e4] at c d
  rw [e5] at b
  rw [e6] at d
  norm_num at a b c d
  rw [abs_le, abs_le]
  refine ⟨⟨?_, ?_⟩, ⟨?_, ?_⟩⟩ <;> linarith

/-- The hypotheses of `C116_double`. -/
example : ∃ t : FloatGridIter ℚ, FloatGridLoop doubleUnit demoDeg (1 / 1000000) demoGrid (demoDeg * 1000000)
    (40678884 / 1000000) (3 / 4) demoTarget.1 demoTarget.2 100 15 ⟨60, 250, 10⟩ t 14 ∧ ∃ row col,
      FloatGridTurn doubleUnit demoDeg demoGrid (demoDeg * 1000000) (40678884 / 1000000) (3 / 4) demoTarget.1 demoTarget.2 100 row col t ∧
      (Covered demoGrid row col → Covered demoGrid t.row t.col →
        ∃ x y, gridPoint demoGrid (some t.row) (some t.col) (some 100) = ⟨some x, some y, some 100⟩ ∧
        |y - demoTarget.2| ≤ 6 / 10000000 ∧ |x - demoTarget.1| ≤ 6 / 10000000) := by
  obtain ⟨t, ht, -, -⟩ := demoGrid_loop
  have hu : (0 : ℚ) ≤ doubleUnit := by unfold doubleUnit; norm_num
  obtain ⟨row, col, h1, h2⟩ := C116_double (κ := 4) demoGrid_regular (by decide) demoGrid_bounds.1 demoGrid_bounds.2 (by norm_num)
    (by decide +kernel) (by decide +kernel) (by decide +kernel) (by norm_num) (by norm_num) (by norm_num) (by norm_num) (by decide +kernel)
    (by decide +kernel) demoGrid_conditioned (rounds_self hu _) demoGrid_pixels rfl (by norm_num) ht
  refine ⟨t, ht, row, col, h1, fun c1 c2 => ?_⟩
  obtain ⟨x, y, hp, hy, hx⟩ := h2 c1 c2
  exact ⟨x, y, hp, hy.trans (by norm_num), hx.trans (by norm_num)⟩

/-- `demoGrid` at 100 metres is an affine map up to 0.0015 degree per node. -/
theorem demoGrid_near : NearlyAffineAt demoGrid 100 (41 / 2000) (11 / 1000) (1 / 200) (-149 / 10000) (15 / 10000) := by
  refine ⟨?_, ?_, ?_, ?_⟩
  · intro i j hi hj
    have hi' : i < 2 := hi
    have hj' : j + 1 < 3 := hj
    have : j < 2 := by omega
    interval_cases i <;> interval_cases j <;> decide +kernel
  · intro i j hi hj
    have hi' : i + 1 < 2 := hi
    have hj' : j < 3 := hj
    have : i < 1 := by omega
    interval_cases i; interval_cases j <;> decide +kernel
  · intro i j hi hj
    have hi' : i < 2 := hi
    have hj' : j + 1 < 3 := hj
    have : j < 2 := by omega
    interval_cases i <;> interval_cases j <;> decide +kernel
  · intro i j hi hj
    have hi' : i + 1 < 2 := hi
    have hj' : j < 3 := hj
    have : i < 1 := by omega
    interval_cases i; interval_cases j <;> decide +kernel

/-- The hypotheses of `C116_refined_double`. -/
example : ∃ t : FloatGridIter ℚ, FloatGridLoop doubleUnit demoDeg (1 / 1000000) demoGrid (demoDeg * 1000000)
    (40678884 / 1000000) (3 / 4) demoTarget.1 demoTarget.2 100 15 ⟨60, 250, 10⟩ t 14 ∧ ∃ row col,
      FloatGridTurn doubleUnit demoDeg demoGrid (demoDeg * 1000000) (40678884 / 1000000) (3 / 4) demoTarget.1 demoTarget.2 100 row col t ∧
      (Covered demoGrid row col → Covered demoGrid t.row t.col →
        ∃ x y, gridPoint demoGrid (some t.row) (some t.col) (some 100) = ⟨some x, some y, some 100⟩ ∧
        |y - demoTarget.2| ≤ 8 / 100000000 ∧ |x - demoTarget.1| ≤ 8 / 100000000) := by
  obtain ⟨t, ht, -, -⟩ := demoGrid_loop
  have hu : (0 : ℚ) ≤ doubleUnit := by unfold doubleUnit; norm_num
  obtain ⟨row, col, h1, h2⟩ := C116_refined_double (κ := 4) (ε := 27 / 100) demoGrid_regular (by decide) demoGrid_bounds.1 demoGrid_bounds.2
    (by norm_num) (rounds_self hu _) (by decide +kernel) (by decide +kernel) (by norm_num) (by norm_num) (by norm_num) (by norm_num)
    (by decide +kernel) (by decide +kernel) demoGrid_conditioned demoGrid_near (by decide +kernel) (by decide +kernel) (by norm_num)
    (rounds_self hu _) demoGrid_pixels rfl (by norm_num) ht
  refine ⟨t, ht, row, col, h1, fun c1 c2 => ?_⟩
  obtain ⟨x, y, hp, hy, hx⟩ := h2 c1 c2
  exact ⟨x, y, hp, hy.trans (by norm_num), hx.trans (by norm_num)⟩

end Shareloc
