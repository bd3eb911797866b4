import Verif.Model.FloatGrid
import Verif.Props.FloatDtm
import Verif.Props.FloatNodes
import Verif.Props.GridNan
import Verif.Props.GridConverge

/-! C102: rounding of the location by a grid at an altitude. -/

set_option linter.unusedSectionVars false
set_option linter.unusedSimpArgs false

namespace Shareloc
variable {K : Type*} [Field K] [LinearOrder K] [IsStrictOrderedRing K] [FloorRing K]

/-! ### Specification -/

/-- A grid that can interpolate: two layers of decreasing altitudes, two rows, two columns, non null steps. -/
structure MultiGrid.Regular (g : MultiGrid K) : Prop where
  alt2 : 2 ≤ g.nbalt
  row2 : 2 ≤ g.nbrow
  col2 : 2 ≤ g.nbcol
  dec : Decreasing g.nbalt g.alts
  stepRow : g.steprow ≠ 0
  stepCol : g.stepcol ≠ 0

/-- The values of a data cube are bounded by `H`, and their differences between two successive layers by `L`. -/
structure DataBounds (g : MultiGrid K) (data : ℕ → ℕ → ℕ → K) (H L : K) : Prop where
  value : ∀ k < g.nbalt, ∀ i < g.nbrow, ∀ j < g.nbcol, |data k i j| ≤ H
  layers : ∀ k, k + 1 < g.nbalt → ∀ i < g.nbrow, ∀ j < g.nbcol, |data (k + 1) i j - data k i j| ≤ L

/-! ### Rounding of the shifts -/

/-- Roundings of the numbers of the formula. -/
def gridWeight : GridVar → ℕ
  | .node _ _ _ => 0
  | _ => 3

theorem gridSrc_weight : gridSrc.weight gridWeight + gridSrc.deg + gridSrc.terms - 2 = 38 := by
  simp only [gridSrc, gridTerm, gridAxisWeight, HAdd.hAdd, HMul.hMul, HSub.hSub]
  simp only [Add.add, Mul.mul, Sub.sub, FExpr.weight, FExpr.deg, FExpr.terms, gridWeight, if_true, if_false, Bool.false_eq_true]
  simp

theorem FloatShift.rel {u : K} (hu : 0 ≤ u) (hu1 : u < 1) {node next x t : K} (h : FloatShift u node next x t) :
    Rel u 3 ((x - node) / (next - node)) t := by
  obtain ⟨a, b, ha, hb, ht⟩ := h
  have r1 := (Rel.refl u (x - node)).round hu hu1 ha
  have r2 := ((Rel.refl u (next - node)).round hu hu1 hb).inv hu1
  have r3 := r1.mul hu1 r2
  rw [mul_one_div, mul_one_div] at r3
  exact r3.round hu hu1 ht

theorem FloatAltNorm.error {u : K} (hu : 0 ≤ u) (hu1 : u < 1) {g : MultiGrid K} {alt a : K} (h : FloatAltNorm u g alt a) :
    |a - altNorm g alt| ≤ ((1 + unitInv u) ^ 5 - 1) *
      (|(alt - g.alts (altUp g.alts g.nbalt alt + 1)) / (g.alts (altUp g.alts g.nbalt alt) - g.alts (altUp g.alts g.nbalt alt + 1))| +
        ((altUp g.alts g.nbalt alt : K) + 1)) := by
  obtain ⟨d, s, x, p, hd, hs, hx, hp, ha⟩ := h
  set i := altUp g.alts g.nbalt alt
  have hw := unitInv_nonneg hu hu1
  have r1 := (((Rel.refl u _).round hu hu1 hd).inv hu1).neg
  have e : -(1 / d) = -1 / d := by ring
  rw [e] at r1
  have r2 := r1.round hu hu1 hs
  have r3 := (r2.mul hu1 ((Rel.refl u _).round hu hu1 hx)).round hu hu1 hp
  have e2 : -(1 / (g.alts i - g.alts (i + 1))) * (alt - g.alts (i + 1)) = -((alt - g.alts (i + 1)) / (g.alts i - g.alts (i + 1))) := by ring
  rw [e2] at r3
  have r4 := (r3.approx hu1).add hw (Approx.refl _ ((i : K) + 1)) (ha.unitInv hu hu1)
  have r5 := r4.1
  rw [abs_neg, abs_of_pos (by positivity : (0 : K) < (i : K) + 1)] at r5
  have e3 : altNorm g alt = -((alt - g.alts (i + 1)) / (g.alts i - g.alts (i + 1))) + ((i : K) + 1) := by
    unfold altNorm; ring
  rw [e3]
  exact r5

/-- Between the lowest and the highest layer. -/
theorem FloatAltNorm.error_inside {u : K} (hu : 0 ≤ u) (hu1 : u < 1) {g : MultiGrid K} (hg : g.Regular) {alt a : K}
    (h0 : g.alts (g.nbalt - 1) ≤ alt) (h1 : alt ≤ g.alts 0) (h : FloatAltNorm u g alt a) :
    |a - altNorm g alt| ≤ ((1 + unitInv u) ^ 5 - 1) * g.nbalt ∧ 0 ≤ altNorm g alt ∧ altNorm g alt ≤ (g.nbalt : K) - 1 := by
  have key := h.error hu hu1
  obtain ⟨⟨l1, l2, l3⟩, -⟩ := layersOf_altUp g hg.alt2 hg.dec alt
  have e : altNorm g alt = ((altUp g.alts g.nbalt alt : K) + 1) - (alt - g.alts (altUp g.alts g.nbalt alt + 1)) /
      (g.alts (altUp g.alts g.nbalt alt) - g.alts (altUp g.alts g.nbalt alt + 1)) := rfl
  rw [e] at key ⊢
  set i := altUp g.alts g.nbalt alt
  have hD : 0 < g.alts i - g.alts (i + 1) := sub_pos.2 (hg.dec _ _ (by omega) l1)
  have a1 : alt ≤ g.alts i := by
    rcases l2 with l | l
    · rw [l]; exact h1
    · exact l
  have a2 : g.alts (i + 1) ≤ alt := by
    rcases l3 with l | l
    · have : i + 1 = g.nbalt - 1 := by omega
      rw [this]; exact h0
    · exact l.le
  have t0 : 0 ≤ (alt - g.alts (i + 1)) / (g.alts i - g.alts (i + 1)) := div_nonneg (by linarith) hD.le
  have t1 : (alt - g.alts (i + 1)) / (g.alts i - g.alts (i + 1)) ≤ 1 := (div_le_one hD).2 (by linarith)
  have hi : (i : K) + 2 ≤ g.nbalt := by exact_mod_cast l1
  have hi0 : (0 : K) ≤ i := Nat.cast_nonneg i
  refine ⟨key.trans (mul_le_mul_of_nonneg_left ?_ ?_), by linarith, by linarith⟩
  · rw [abs_of_nonneg t0]; linarith
  · exact sub_nonneg.2 (one_le_pow_u (unitInv_nonneg hu hu1) 5)

/-! ### Interpolation -/

theorem axis_shift (o st x : K) (hst : st ≠ 0) (i : ℕ) :
    (x - (o + i * st)) / (o + ((i : K) + 1) * st - (o + i * st)) = (x - o) / st - i := by
  have : o + ((i : K) + 1) * st - (o + i * st) = st := by ring
  rw [this]
  field_simp
  ring

theorem gridSrc_val (g : MultiGrid K) (data : ℕ → ℕ → ℕ → K) (a row col : K) :
    gridSrc.val (gridEnv data (gridCell g.nbalt a) (gridCell g.nbrow ((row - g.row0) / g.steprow)) (gridCell g.nbcol ((col - g.col0) / g.stepcol))
      (a - gridCell g.nbalt a) ((row - g.row0) / g.steprow - gridCell g.nbrow ((row - g.row0) / g.steprow))
      ((col - g.col0) / g.stepcol - gridCell g.nbcol ((col - g.col0) / g.stepcol))) = gridInterp g data a row col := by
  simp only [gridSrc, gridTerm, gridAxisWeight, gridInterp, lerp, val_hadd, val_hmul, val_hsub, FExpr.val, gridEnv, if_true, if_false,
    Bool.false_eq_true, Bool.toNat_true, Bool.toNat_false, Nat.cast_one, add_zero]
  ring

theorem gridSrc_mag (data : ℕ → ℕ → ℕ → K) (k i j : ℕ) (ta tr tc H : K) (A R C : K)
    (hH : ∀ a b c : Bool, |data (k + a.toNat) (i + b.toNat) (j + c.toNat)| ≤ H) (hA : |ta| ≤ A) (hR : |tr| ≤ R) (hC : |tc| ≤ C) :
    gridSrc.mag (gridEnv data k i j ta tr tc) ≤ (1 + 2 * A) * (1 + 2 * R) * (1 + 2 * C) * H := by
  have hH0 : 0 ≤ H := le_trans (abs_nonneg _) (hH false false false)
  have a0 := abs_nonneg ta
  have r0 := abs_nonneg tr
  have c0 := abs_nonneg tc
  have hmul : ∀ (m w : K), 0 ≤ w → m ≤ H → m * w ≤ H * w := fun m w hw hm => mul_le_mul_of_nonneg_right hm hw
  simp only [gridSrc, gridTerm, gridAxisWeight, mag_hadd, mag_hmul, mag_hsub, FExpr.mag, gridEnv, if_true, if_false,
    Bool.false_eq_true, Nat.cast_one]
  generalize |ta| = x at *
  generalize |tr| = y at *
  generalize |tc| = z at *
  have k1 := hmul _ ((1 + x) * (1 + y) * (1 + z)) (by positivity) (hH false false false)
  have k2 := hmul _ ((1 + x) * (1 + y) * z) (by positivity) (hH false false true)
  have k3 := hmul _ ((1 + x) * y * (1 + z)) (by positivity) (hH false true false)
  have k4 := hmul _ ((1 + x) * y * z) (by positivity) (hH false true true)
  have k5 := hmul _ (x * (1 + y) * (1 + z)) (by positivity) (hH true false false)
  have k6 := hmul _ (x * (1 + y) * z) (by positivity) (hH true false true)
  have k7 := hmul _ (x * y * (1 + z)) (by positivity) (hH true true false)
  have k8 := hmul _ (x * y * z) (by positivity) (hH true true true)
  have hx : 1 + 2 * x ≤ 1 + 2 * A := by linarith
  have hy : 1 + 2 * y ≤ 1 + 2 * R := by linarith
  have hz : 1 + 2 * z ≤ 1 + 2 * C := by linarith
  have tot : (1 + 2 * x) * (1 + 2 * y) * (1 + 2 * z) * H ≤ (1 + 2 * A) * (1 + 2 * R) * (1 + 2 * C) * H := by
    have h1 : (1 + 2 * x) * (1 + 2 * y) ≤ (1 + 2 * A) * (1 + 2 * R) := mul_le_mul hx hy (by positivity) (by linarith)
    have h2 : (1 + 2 * x) * (1 + 2 * y) * (1 + 2 * z) ≤ (1 + 2 * A) * (1 + 2 * R) * (1 + 2 * C) :=
      mul_le_mul h1 hz (by positivity) (mul_nonneg (by linarith) (by linarith))
    exact mul_le_mul_of_nonneg_right h2 hH0
  refine le_trans ?_ tot
  calc _ ≤ H * ((1 + x) * (1 + y) * (1 + z)) + H * ((1 + x) * (1 + y) * z) + H * ((1 + x) * y * (1 + z)) + H * ((1 + x) * y * z)
        + H * (x * (1 + y) * (1 + z)) + H * (x * (1 + y) * z) + H * (x * y * (1 + z)) + H * (x * y * z) := by linarith
    _ = (1 + 2 * x) * (1 + 2 * y) * (1 + 2 * z) * H := by ring

theorem shift_inside (n : ℕ) (hn : 2 ≤ n) (t σ : K) (hσ : 0 ≤ σ) (h0 : -σ ≤ t) (h1 : t ≤ (n : K) - 1 + σ) : |t - gridCell n t| ≤ 1 + σ := by
  obtain ⟨b1, b2⟩ := gridCell_bounds n hn t
  rw [abs_le]
  constructor
  · rcases b1 with b | b
    · rw [b]; push_cast; linarith
    · linarith
  · rcases b2 with b | b
    · have : (gridCell n t : K) + 2 = n := by exact_mod_cast b
      linarith
    · linarith

/-- Rounding of the interpolation at a computed layer index at most half a layer out. -/
theorem FloatGridInterp.error {u : K} (hu : 0 ≤ u) (hu1 : u < 1) {g : MultiGrid K} (hg : g.Regular) {data : ℕ → ℕ → ℕ → K} {H : K}
    (hH : ∀ k < g.nbalt, ∀ i < g.nbrow, ∀ j < g.nbcol, |data k i j| ≤ H) {a row col v : K} (ha0 : -(1 / 2) ≤ a)
    (ha1 : a ≤ (g.nbalt : K) - 1 + 1 / 2) (hc : Covered g row col) (h : FloatGridInterp u g data a row col v) :
    |v - gridInterp g data a row col| ≤ 36 * ((1 + unitInv u) ^ 38 - 1) * H := by
  obtain ⟨ta, tr, tc, e, hta, htr, htc, he, hv⟩ := h
  have hw := unitInv_nonneg hu hu1
  have c1 := gridCell_le g.nbalt hg.alt2 a
  have c2 := gridCell_le g.nbrow hg.row2 ((row - g.row0) / g.steprow)
  have c3 := gridCell_le g.nbcol hg.col2 ((col - g.col0) / g.stepcol)
  have sa := shift_inside g.nbalt hg.alt2 a (1 / 2) (by norm_num) ha0 ha1
  have sr := shift_inside g.nbrow hg.row2 ((row - g.row0) / g.steprow) 0 le_rfl (by linarith [hc.1]) (by linarith [hc.2.1])
  have sc := shift_inside g.nbcol hg.col2 ((col - g.col0) / g.stepcol) 0 le_rfl (by linarith [hc.2.2.1]) (by linarith [hc.2.2.2])
  have r1 := (hta.rel hu hu1).approx hu1
  have r2 := (htr.rel hu hu1).approx hu1
  have r3 := (htc.rel hu hu1).approx hu1
  rw [add_sub_cancel_left, div_one] at r1
  rw [axis_shift _ _ _ hg.stepRow] at r2
  rw [axis_shift _ _ _ hg.stepCol] at r3
  have up : ∀ {e : FExpr GridVar} {env : GridVar → K} {v : K}, e.Computes u env v → e.Computes (unitInv u) env v := by
    intro e env v h
    induction h with
    | var i => exact .var i
    | lit n => exact .lit n
    | neg _ h => exact .neg h
    | add _ _ hr h1 h2 => exact .add h1 h2 (hr.unitInv hu hu1)
    | mul _ _ hr h1 h2 => exact .mul h1 h2 (hr.unitInv hu hu1)
  have henv : ∀ x, Approx (unitInv u) (gridWeight x)
      |gridEnv data (gridCell g.nbalt a) (gridCell g.nbrow ((row - g.row0) / g.steprow)) (gridCell g.nbcol ((col - g.col0) / g.stepcol))
        (a - gridCell g.nbalt a) ((row - g.row0) / g.steprow - gridCell g.nbrow ((row - g.row0) / g.steprow))
        ((col - g.col0) / g.stepcol - gridCell g.nbcol ((col - g.col0) / g.stepcol)) x|
      (gridEnv data (gridCell g.nbalt a) (gridCell g.nbrow ((row - g.row0) / g.steprow)) (gridCell g.nbcol ((col - g.col0) / g.stepcol))
        (a - gridCell g.nbalt a) ((row - g.row0) / g.steprow - gridCell g.nbrow ((row - g.row0) / g.steprow))
        ((col - g.col0) / g.stepcol - gridCell g.nbcol ((col - g.col0) / g.stepcol)) x)
      (gridEnv data (gridCell g.nbalt a) (gridCell g.nbrow ((row - g.row0) / g.steprow)) (gridCell g.nbcol ((col - g.col0) / g.stepcol))
        ta tr tc x) := by
    intro x
    cases x with
    | ta => exact r1
    | tr => exact r2
    | tc => exact r3
    | node k i j => exact Approx.refl _ _
  have key := (he.approx hw henv (up hv)).1
  rw [gridSrc_weight, gridSrc_val] at key
  refine key.trans ?_
  have hm := gridSrc_mag data (gridCell g.nbalt a) (gridCell g.nbrow ((row - g.row0) / g.steprow))
    (gridCell g.nbcol ((col - g.col0) / g.stepcol)) _ _ _ H (1 + 1 / 2) (1 + 0) (1 + 0) ?_ sa sr sc
  · have hg0 : 0 ≤ (1 + unitInv u) ^ 38 - 1 := sub_nonneg.2 (one_le_pow_u hw 38)
    refine (mul_le_mul_of_nonneg_left hm hg0).trans (le_of_eq ?_)
    ring
  · intro x y z
    refine hH _ ?_ _ ?_ _ ?_
    · cases x <;> simp <;> omega
    · cases y <;> simp <;> omega
    · cases z <;> simp <;> omega

/-- The interpolation changes by at most `L` per layer. -/
theorem gridInterp_layers {g : MultiGrid K} (hg : g.Regular) {data : ℕ → ℕ → ℕ → K} {H L : K} (hd : DataBounds g data H L) {row col : K}
    (hc : Covered g row col) (a b : K) : |gridInterp g data a row col - gridInterp g data b row col| ≤ L * |a - b| := by
  have h := lerp_increment g.nbalt hg.alt2 (fun k => lerp g.nbrow (fun i => lerp g.nbcol (fun j => data k i j) ((col - g.col0) / g.stepcol))
    ((row - g.row0) / g.steprow)) 0 L ?_ b a
  · simpa only [zero_mul, sub_zero, gridInterp] using h
  · intro k hk
    have hlin : ∀ (n : ℕ) (f f' : ℕ → K) (t : K), lerp n f t - lerp n f' t = lerp n (fun i => f i - f' i) t := by
      intro n f f' t; simp only [lerp]; ring
    rw [sub_zero, hlin]
    have hrow : Within g.nbrow 0 ((row - g.row0) / g.steprow) := ⟨by linarith [hc.1], by linarith [hc.2.1]⟩
    have hcol : Within g.nbcol 0 ((col - g.col0) / g.stepcol) := ⟨by linarith [hc.2.2.1], by linarith [hc.2.2.2]⟩
    refine (lerp_bounded g.nbrow hg.row2 _ L ?_ 0 _ le_rfl hrow).trans (by simp)
    intro i hi
    rw [hlin]
    refine (lerp_bounded g.nbcol hg.col2 _ L ?_ 0 _ le_rfl hcol).trans (by simp)
    intro j hj
    exact hd.layers k hk i hi j hj

/-- C102. In floating point, in any order of evaluation, the longitude (or the latitude) of a pixel of the grid at an altitude between its
layers is within `36 ((1+w)^38 - 1) H + ((1+w)^5 - 1) n L` of the exact one, `w = u / (1 - u)`, `n` being the number of layers, `H` a bound of
the values and `L` of their differences between two successive layers. -/
theorem C102_interpolation {u : K} (hu : 0 ≤ u) (hu1 : u < 1) {g : MultiGrid K} (hg : g.Regular) {data : ℕ → ℕ → ℕ → K} {H L : K}
    (hd : DataBounds g data H L) {a row col alt v : K} (hc : Covered g row col) (h0 : g.alts (g.nbalt - 1) ≤ alt) (h1 : alt ≤ g.alts 0)
    (hn : ((1 + unitInv u) ^ 5 - 1) * g.nbalt ≤ 1 / 2) (ha : FloatAltNorm u g alt a) (h : FloatGridInterp u g data a row col v) :
    |v - gridInterp g data (altNorm g alt) row col| ≤ 36 * ((1 + unitInv u) ^ 38 - 1) * H + ((1 + unitInv u) ^ 5 - 1) * g.nbalt * L := by
  obtain ⟨e1, e2, e3⟩ := ha.error_inside hu hu1 hg h0 h1
  have e4 := abs_le.1 (e1.trans hn)
  have k1 := h.error hu hu1 hg hd.value (by linarith) (by linarith) hc
  have k2 := gridInterp_layers hg hd hc a (altNorm g alt)
  have hL : 0 ≤ L := (abs_nonneg _).trans (hd.layers 0 hg.alt2 0 (by have := hg.row2; omega) 0 (by have := hg.col2; omega))
  have k3 := mul_le_mul_of_nonneg_left e1 hL
  have e : v - gridInterp g data (altNorm g alt) row col =
      (v - gridInterp g data a row col) + (gridInterp g data a row col - gridInterp g data (altNorm g alt) row col) := by ring
  rw [e]
  refine (abs_add_le _ _).trans ?_
  linarith

/-- The bound of `C102_interpolation`. -/
def gridRounding (u : K) (nbalt : ℕ) (H L : K) : K := 36 * ((1 + unitInv u) ^ 38 - 1) * H + ((1 + unitInv u) ^ 5 - 1) * nbalt * L

/-- C102. In double precision, for a grid of at most 1000 layers with values of at most 180 that change by at most 1 between two layers (such
as degrees), the bound is 3·10⁻¹¹ (3 micrometres on the ground). -/
theorem C102_double (nbalt : ℕ) (h : nbalt ≤ 1000) : gridRounding (doubleUnit : K) nbalt 180 1 ≤ 3 / 10 ^ 11 ∧
    ((1 + unitInv (doubleUnit : K)) ^ 5 - 1) * nbalt ≤ 1 / 2 := by
  have e : (doubleUnit : K) = 1 / 9007199254740992 := by unfold doubleUnit; norm_num
  have w : unitInv (doubleUnit : K) = 1 / 9007199254740991 := by unfold unitInv; rw [e]; norm_num
  have h1 := pow_u_le (u := (1 / 9007199254740991 : K)) (by norm_num) (by norm_num) 38 (by norm_num)
  have h2 := pow_u_le (u := (1 / 9007199254740991 : K)) (by norm_num) (by norm_num) 5 (by norm_num)
  have g1 : (1 + (1 / 9007199254740991 : K)) ^ 38 - 1 ≤ 39 / 9007199254740991 := by
    refine le_trans (sub_le_sub_right h1 1) ?_
    norm_num
  have g2 : (1 + (1 / 9007199254740991 : K)) ^ 5 - 1 ≤ 6 / 9007199254740991 := by
    refine le_trans (sub_le_sub_right h2 1) ?_
    norm_num
  have g20 : 0 ≤ (1 + (1 / 9007199254740991 : K)) ^ 5 - 1 := sub_nonneg.2 (one_le_pow_u (by norm_num) 5)
  have hn : (nbalt : K) ≤ 1000 := by exact_mod_cast h
  have hn0 : (0 : K) ≤ nbalt := Nat.cast_nonneg _
  unfold gridRounding
  rw [w]
  generalize (1 + (1 / 9007199254740991 : K)) ^ 38 - 1 = x at *
  generalize (1 + (1 / 9007199254740991 : K)) ^ 5 - 1 = y at *
  have hy : y * nbalt ≤ 6 / 9007199254740991 * 1000 := mul_le_mul g2 hn hn0 (by norm_num)
  constructor
  · have : 36 * x * 180 + y * nbalt * 1 ≤ 36 * (39 / 9007199254740991) * 180 + 6 / 9007199254740991 * 1000 := by linarith
    exact this.trans (by norm_num)
  · exact hy.trans (by norm_num)

/-- The exact interpolation at an altitude between the layers is bounded as the nodes are. -/
theorem gridInterp_bounded {g : MultiGrid K} (hg : g.Regular) {data : ℕ → ℕ → ℕ → K} {H : K}
    (hd : ∀ k < g.nbalt, ∀ i < g.nbrow, ∀ j < g.nbcol, |data k i j| ≤ H) {a row col : K} (hc : Covered g row col) (h0 : 0 ≤ a)
    (h1 : a ≤ (g.nbalt : K) - 1) : |gridInterp g data a row col| ≤ H := by
  have hrow : Within g.nbrow 0 ((row - g.row0) / g.steprow) := ⟨by linarith [hc.1], by linarith [hc.2.1]⟩
  have hcol : Within g.nbcol 0 ((col - g.col0) / g.stepcol) := ⟨by linarith [hc.2.2.1], by linarith [hc.2.2.2]⟩
  refine (lerp_bounded g.nbalt hg.alt2 _ H ?_ 0 a le_rfl ⟨by linarith, by linarith⟩).trans (by simp)
  intro k hk
  refine (lerp_bounded g.nbrow hg.row2 _ H ?_ 0 _ le_rfl hrow).trans (by simp)
  intro i hi
  refine (lerp_bounded g.nbcol hg.col2 _ H ?_ 0 _ le_rfl hcol).trans (by simp)
  intro j hj
  exact hd k hk i hi j hj

/-- C102. The direct location of a pixel of the grid at an altitude between its layers, in floating point: the exact location is a point, and
the computed one is that point up to the rounding, or NaN for a geographic grid and a point as near as that to the meridian 180 or to a
pole. -/
theorem C102_direct_loc {u : K} (hu : 0 ≤ u) (hu1 : u < 1) {g : MultiGrid K} (hg : g.Regular) {Hx Lx Hy Ly : K}
    (hx : DataBounds g g.lon Hx Lx) (hy : DataBounds g g.lat Hy Ly) (hgeo : g.geographic = true → Hx ≤ 180 ∧ Hy ≤ 90)
    {row col alt : K} (hc : Covered g row col) (h0 : g.alts (g.nbalt - 1) ≤ alt) (h1 : alt ≤ g.alts 0)
    (hn : ((1 + unitInv u) ^ 5 - 1) * g.nbalt ≤ 1 / 2) {p : ORow K} (hp : FloatGridPoint u g row col alt p) :
    ∃ x y, gridPoint g (some row) (some col) (some alt) = ⟨some x, some y, some alt⟩ ∧
      ((∃ x' y', p = ⟨some x', some y', some alt⟩ ∧ |x' - x| ≤ gridRounding u g.nbalt Hx Lx ∧ |y' - y| ≤ gridRounding u g.nbalt Hy Ly) ∨
       (g.geographic = true ∧ p = nanRow ∧ (180 - gridRounding u g.nbalt Hx Lx < |x| ∨ 90 - gridRounding u g.nbalt Hy Ly < |y|))) := by
  obtain ⟨a, lon, lat, ha, hlon, hlat, rfl⟩ := hp
  have kx := C102_interpolation hu hu1 hg hx hc h0 h1 hn ha hlon
  have ky := C102_interpolation hu hu1 hg hy hc h0 h1 hn ha hlat
  obtain ⟨-, b0, b1⟩ := ha.error_inside hu hu1 hg h0 h1
  have vx := gridInterp_bounded hg hx.value hc b0 b1
  have vy := gridInterp_bounded hg hy.value hc b0 b1
  refine ⟨gridInterp g g.lon (altNorm g alt) row col, gridInterp g g.lat (altNorm g alt) row col, ?_, ?_⟩
  · unfold gridPoint
    dsimp only
    split_ifs with hgg
    · exact checkRow_valid ⟨vx.trans (hgeo hgg).1, vy.trans (hgeo hgg).2⟩
    · rfl
  · split_ifs with hgg
    · by_cases hv : |lon| ≤ 180 ∧ |lat| ≤ 90
      · exact .inl ⟨lon, lat, checkRow_valid hv, kx, ky⟩
      · refine .inr ⟨hgg, ?_, ?_⟩
        · simp only [checkRow]
          rw [if_pos]
          by_contra h
          push Not at h
          exact hv h
        · have tri : ∀ a b c : K, |a - b| ≤ c → |a| ≤ |b| + c := by
            intro a b c h
            have := abs_add_le (a - b) b
            rw [sub_add_cancel] at this
            linarith
          have tx := tri _ _ _ kx
          have ty := tri _ _ _ ky
          rw [not_and_or, not_le, not_le] at hv
          unfold gridRounding
          rcases hv with hv | hv
          · left; linarith
          · right; linarith
    · exact .inl ⟨lon, lat, rfl, kx, ky⟩

/-! ### Nodes -/

/-- The layer index in the order written, with a rounding function. -/
def runAltNorm (rnd : K → K) (g : MultiGrid K) (alt : K) : K :=
  let i := altUp g.alts g.nbalt alt
  rnd (rnd (rnd (-1 / rnd (g.alts i - g.alts (i + 1))) * rnd (alt - g.alts (i + 1))) + ((i : K) + 1))

/-- The shift between two nodes with a rounding function. -/
def runShift (rnd : K → K) (node next x : K) : K := rnd (rnd (x - node) / rnd (next - node))

/-- The interpolation in the order written, with a rounding function. -/
def runGridInterp (rnd : K → K) (g : MultiGrid K) (data : ℕ → ℕ → ℕ → K) (a row col : K) : K :=
  let k := gridCell g.nbalt a
  let i := gridCell g.nbrow ((row - g.row0) / g.steprow)
  let j := gridCell g.nbcol ((col - g.col0) / g.stepcol)
  gridSrc.run rnd (gridEnv data k i j (runShift rnd k ((k : K) + 1) a)
    (runShift rnd (g.row0 + i * g.steprow) (g.row0 + ((i : K) + 1) * g.steprow) row)
    (runShift rnd (g.col0 + j * g.stepcol) (g.col0 + ((j : K) + 1) * g.stepcol) col))

/-- These values are floating point values of the code. -/
theorem run_float {u : K} {rnd : K → K} (h : ∀ x, Rounds u x (rnd x)) (g : MultiGrid K) (data : ℕ → ℕ → ℕ → K) (alt a row col : K) :
    FloatAltNorm u g alt (runAltNorm rnd g alt) ∧ FloatGridInterp u g data a row col (runGridInterp rnd g data a row col) :=
  ⟨⟨_, _, _, _, h _, h _, h _, h _, h _⟩,
    ⟨_, _, _, _, ⟨_, _, h _, h _, h _⟩, ⟨_, _, h _, h _, h _⟩, ⟨_, _, h _, h _, h _⟩, .refl _, FExpr.run_computes h _ _⟩⟩

theorem Keeps53.zero {rnd : K → K} (h : Keeps53 rnd) : rnd 0 = 0 := by simpa using h 0 0 (by norm_num)
theorem Keeps53.one {rnd : K → K} (h : Keeps53 rnd) : rnd 1 = 1 := by simpa using h 1 0 (by norm_num)

/-- On one axis, at a node: the shift is 0 in the cell that starts at the node, or 1 in the last cell. -/
theorem runShift_node {u : K} (hu1 : u < 1) {rnd : K → K} (hr : ∀ x, Rounds u x (rnd x)) (hk : Keeps53 rnd) (n : ℕ) (hn : 2 ≤ n) (o st : K)
    (hst : st ≠ 0) (i : ℕ) (hi : i < n) :
    let c := gridCell n (i : K)
    (c = i ∧ runShift rnd (o + c * st) (o + ((c : K) + 1) * st) (o + i * st) = 0) ∨
    (c + 1 = i ∧ runShift rnd (o + c * st) (o + ((c : K) + 1) * st) (o + i * st) = 1) := by
  intro c
  by_cases h : i + 1 < n
  · have hc : c = i := gridCell_eq n _ i h (.inr le_rfl) (.inr (by linarith))
    left
    refine ⟨hc, ?_⟩
    rw [hc, runShift, sub_self, hk.zero, zero_div, hk.zero]
  · have hc : c = n - 2 := by
      apply gridCell_eq n _ (n - 2) (by omega) (.inr ?_) (.inl (by omega))
      exact_mod_cast (by omega : n - 2 ≤ i)
    have hc1 : c + 1 = i := by omega
    right
    refine ⟨hc1, ?_⟩
    have e : (i : K) = (c : K) + 1 := by exact_mod_cast hc1.symm
    have e1 : o + ((c : K) + 1) * st - (o + c * st) = st := by ring
    rw [runShift, e, e1]
    have hne : rnd st ≠ 0 := by
      intro h0
      have := hr st
      unfold Rounds at this
      rw [h0, zero_sub, abs_neg] at this
      have hp := abs_pos.2 hst
      nlinarith
    rw [div_self hne, hk.one]

/-- C102. At a node of the grid, at a layer that is the lowest one or whose distance to the next one is a power of two, the computed longitude
(or latitude) is exactly the stored one. -/
theorem C102_exact_at_nodes {u : K} (hu1 : u < 1) {rnd : K → K} (hr : ∀ x, Rounds u x (rnd x)) (hk : Keeps53 rnd) {g : MultiGrid K}
    (hg : g.Regular) (data : ℕ → ℕ → ℕ → K) (k i j : ℕ) (hkn : k < g.nbalt) (hi : i < g.nbrow) (hj : j < g.nbcol)
    (hn : (g.nbalt : ℤ) ≤ 2 ^ 53) (hlay : k + 1 = g.nbalt ∨ ∃ e : ℤ, g.alts k - g.alts (k + 1) = 2 ^ e)
    (hrep : rnd (data k i j) = data k i j) :
    runGridInterp rnd g data (runAltNorm rnd g (g.alts k)) (g.row0 + i * g.steprow) (g.col0 + j * g.stepcol) = data k i j := by
  have hnat : ∀ m : ℕ, m ≤ g.nbalt → rnd (m : K) = m := fun m hm => hk.nat m (le_trans (by exact_mod_cast hm) hn)
  have ha : runAltNorm rnd g (g.alts k) = k := by
    obtain ⟨hl, -⟩ := layersOf_altUp g hg.alt2 hg.dec (g.alts k)
    have hup : altUp g.alts g.nbalt (g.alts k) = if k + 1 = g.nbalt then k - 1 else k := by
      symm
      rw [← layersOf_iff g hg.alt2 hg.dec]
      have h2 := hg.alt2
      split_ifs with h
      · exact ⟨by omega, .inr (hg.dec _ _ (by omega) hkn).le, .inl (by omega)⟩
      · exact ⟨by omega, .inr le_rfl, .inr (hg.dec _ _ (by omega) (by omega))⟩
    unfold runAltNorm
    dsimp only
    rw [hup]
    have h2 := hg.alt2
    by_cases h : k + 1 = g.nbalt
    · have e : k - 1 + 1 = k := by omega
      rw [if_pos h, e, sub_self, hk.zero, mul_zero, hk.zero, zero_add]
      have := hnat k hkn.le
      have e' : ((k - 1 : ℕ) : K) + 1 = k := by exact_mod_cast e
      rw [e', this]
    · obtain ⟨e, he⟩ := hlay.resolve_left h
      have p0 : (2 : K) ^ e ≠ 0 := by positivity
      have r1 : rnd ((2 : K) ^ e) = 2 ^ e := by simpa using hk 1 e (by norm_num)
      have r2 : rnd (-1 / (2 : K) ^ e) = -1 / 2 ^ e := by
        have := hk (-1) (-e) (by norm_num)
        rw [zpow_neg] at this
        push_cast at this
        rw [div_eq_mul_inv]
        exact this
      have r3 : rnd (-1 : K) = -1 := by simpa using hk (-1) 0 (by norm_num)
      rw [if_neg h, he, r1, r2, div_mul_cancel₀ _ p0, r3]
      have : (-1 : K) + (k + 1) = k := by ring
      rw [this, hnat k hkn.le]
  rw [ha]
  have er : (g.row0 + i * g.steprow - g.row0) / g.steprow = (i : K) := by rw [add_sub_cancel_left, mul_div_cancel_right₀ _ hg.stepRow]
  have ec : (g.col0 + j * g.stepcol - g.col0) / g.stepcol = (j : K) := by rw [add_sub_cancel_left, mul_div_cancel_right₀ _ hg.stepCol]
  unfold runGridInterp
  dsimp only
  rw [er, ec]
  have s1 := runShift_node hu1 hr hk g.nbalt hg.alt2 0 1 one_ne_zero k hkn
  have s2 := runShift_node hu1 hr hk g.nbrow hg.row2 g.row0 g.steprow hg.stepRow i hi
  have s3 := runShift_node hu1 hr hk g.nbcol hg.col2 g.col0 g.stepcol hg.stepCol j hj
  simp only [zero_add, mul_one] at s1 s2 s3
  have z := hk.zero
  have o := hk.one
  rcases s1 with ⟨c1, t1⟩ | ⟨c1, t1⟩ <;> rcases s2 with ⟨c2, t2⟩ | ⟨c2, t2⟩ <;> rcases s3 with ⟨c3, t3⟩ | ⟨c3, t3⟩ <;>
    rw [t1, t2, t3] <;>
    simp only [gridSrc, gridTerm, gridAxisWeight, HAdd.hAdd, HMul.hMul, HSub.hSub] <;>
    simp only [Add.add, Mul.mul, Sub.sub, FExpr.run, gridEnv, if_true, if_false, Bool.false_eq_true] <;>
    simp [z, o, c1, c2, c3, hrep]

/-! ### Nodes of a DTM (C84) -/

/-- The DTM interpolation in the order written, with a rounding function. -/
def runBilin (rnd : K → K) (mat : ℤ → ℤ → K) (nbRows nbCols : ℤ) (row col : K) : K :=
  bilSrc.run rnd (bilEnv mat nbRows nbCols row col (rnd (col - (lowerShift nbCols col : K))) (rnd (row - (lowerShift nbRows row : K))))

/-- It is a floating point value of the code. -/
theorem runBilin_float {u : K} {rnd : K → K} (h : ∀ x, Rounds u x (rnd x)) (mat : ℤ → ℤ → K) (nbRows nbCols : ℤ) (row col : K) :
    FloatBilin u mat nbRows nbCols row col (runBilin rnd mat nbRows nbCols row col) :=
  ⟨_, _, _, h _, h _, .refl _, FExpr.run_computes h _ _⟩

theorem lowerShift_node {n i : ℤ} (h0 : 0 ≤ i) (h1 : i ≤ n - 1) :
    (lowerShift n (i : K) = i ∧ i + 1 ≤ n - 1) ∨ (lowerShift n (i : K) + 1 = i ∧ i = n - 1) := by
  unfold lowerShift
  have hneg : ¬ (i : K) < 0 := not_lt.2 (by exact_mod_cast h0)
  rw [if_neg hneg]
  by_cases h : i = n - 1
  · right
    rw [if_pos (by rw [h])]
    omega
  · left
    rw [if_neg (by rw [ge_iff_le, not_le]; exact_mod_cast (by omega : i < n - 1)), Int.floor_intCast]
    omega

/-- C84. In floating point, in the order written, the altitude interpolated at a node of a raster is exactly the stored one. -/
theorem C84_exact_at_nodes {rnd : K → K} (hk : Keeps53 rnd) (mat : ℤ → ℤ → K) (nbRows nbCols : ℤ) (i j : ℤ)
    (hn : Spec.IsNode nbRows nbCols i j) (hrep : rnd (mat i j) = mat i j) :
    runBilin rnd mat nbRows nbCols (i : K) (j : K) = mat i j := by
  obtain ⟨i0, i1, j0, j1⟩ := hn
  have z := hk.zero
  have o := hk.one
  have sh : ∀ n m : ℤ, 0 ≤ m → m ≤ n - 1 → (lowerShift n (m : K) = m ∧ rnd ((m : K) - (lowerShift n (m : K) : K)) = 0) ∨
      (lowerShift n (m : K) = m - 1 ∧ rnd ((m : K) - (lowerShift n (m : K) : K)) = 1) := by
    intro n m h0 h1
    rcases lowerShift_node (K := K) h0 h1 with ⟨h, -⟩ | ⟨h, -⟩
    · left; rw [h, sub_self]; exact ⟨rfl, z⟩
    · right
      have h' : lowerShift n (m : K) = m - 1 := by omega
      rw [h']
      push_cast
      rw [sub_sub_cancel]
      exact ⟨rfl, o⟩
  unfold runBilin
  rcases sh nbRows i i0 (by omega) with ⟨c1, t1⟩ | ⟨c1, t1⟩ <;> rcases sh nbCols j j0 (by omega) with ⟨c2, t2⟩ | ⟨c2, t2⟩ <;>
    rw [t1, t2] <;> simp only [bilSrc, HAdd.hAdd, HMul.hMul, HSub.hSub] <;>
    simp only [Add.add, Mul.mul, Sub.sub, FExpr.run, bilEnv] <;> rw [c1, c2] <;> simp [z, o, hrep]

/-- The last node of a raster of three rows and two columns. -/
example : runBilin rnd53 (fun i j => rnd53 ((i + j : ℚ) / 10 + 100)) 3 2 2 1 = rnd53 (1003 / 10) := by
  have h := C84_exact_at_nodes (K := ℚ) rnd53_keeps (fun i j => rnd53 ((i + j : ℚ) / 10 + 100)) 3 2 2 1
    (by unfold Spec.IsNode; decide) (by decide +kernel)
  push_cast at h
  rw [h]
  norm_num

/-! ### Concrete cases -/

theorem demoGrid_regular : demoGrid.Regular where
  alt2 := by decide
  row2 := by decide
  col2 := by decide
  dec := demoNan_usable.dec
  stepRow := by decide +kernel
  stepCol := by decide +kernel

theorem demoGrid_bounds : DataBounds demoGrid demoGrid.lon 180 1 ∧ DataBounds demoGrid demoGrid.lat 90 1 := by
  refine ⟨⟨?_, ?_⟩, ⟨?_, ?_⟩⟩
  · intro k hk i hi j hj
    have hk' : k < 3 := hk
    have hi' : i < 2 := hi
    have hj' : j < 3 := hj
    interval_cases k <;> interval_cases i <;> interval_cases j <;> decide +kernel
  · intro k hk i hi j hj
    have hk' : k + 1 < 3 := hk
    have hi' : i < 2 := hi
    have hj' : j < 3 := hj
    have : k < 2 := by omega
    interval_cases k <;> interval_cases i <;> interval_cases j <;> decide +kernel
  · intro k hk i hi j hj
    have hk' : k < 3 := hk
    have hi' : i < 2 := hi
    have hj' : j < 3 := hj
    interval_cases k <;> interval_cases i <;> interval_cases j <;> decide +kernel
  · intro k hk i hi j hj
    have hk' : k + 1 < 3 := hk
    have hi' : i < 2 := hi
    have hj' : j < 3 := hj
    have : k < 2 := by omega
    interval_cases k <;> interval_cases i <;> interval_cases j <;> decide +kernel

theorem gridRounding_mono {u : K} (hu : 0 ≤ u) (hu1 : u < 1) (n : ℕ) {H H' L L' : K} (hH : H ≤ H') (hL : L ≤ L') :
    gridRounding u n H L ≤ gridRounding u n H' L' := by
  have h1 : 0 ≤ (1 + unitInv u) ^ 38 - 1 := sub_nonneg.2 (one_le_pow_u (unitInv_nonneg hu hu1) 38)
  have h2 : 0 ≤ (1 + unitInv u) ^ 5 - 1 := sub_nonneg.2 (one_le_pow_u (unitInv_nonneg hu hu1) 5)
  unfold gridRounding
  exact add_le_add (mul_le_mul_of_nonneg_left hH (by positivity)) (mul_le_mul_of_nonneg_left hL (by positivity))

/-- A pixel and an altitude inside the grid, with any values allowed by the rounding of doubles: the point to 3·10⁻¹¹ degree. -/
example (p : ORow ℚ) (hp : FloatGridPoint doubleUnit demoGrid (613 / 10) (2501 / 10) (3333 / 10) p) :
    ∃ x y x' y', gridPoint demoGrid (some (613 / 10)) (some (2501 / 10)) (some (3333 / 10)) = ⟨some x, some y, some (3333 / 10)⟩ ∧
      p = ⟨some x', some y', some (3333 / 10)⟩ ∧ |x' - x| ≤ 3 / 10 ^ 11 ∧ |y' - y| ≤ 3 / 10 ^ 11 := by
  have e : (doubleUnit : ℚ) = 1 / 9007199254740992 := by unfold doubleUnit; norm_num
  have hu : (0 : ℚ) ≤ doubleUnit := by rw [e]; norm_num
  have hu1 : (doubleUnit : ℚ) < 1 := by rw [e]; norm_num
  obtain ⟨d1, d2⟩ := C102_double (K := ℚ) 3 (by norm_num)
  obtain ⟨x, y, hq, h⟩ := C102_direct_loc hu hu1 demoGrid_regular demoGrid_bounds.1 demoGrid_bounds.2 (fun _ => ⟨le_rfl, le_rfl⟩)
    (by unfold Covered; decide +kernel) (by decide +kernel) (by decide +kernel) d2 hp
  have m := gridRounding_mono hu hu1 3 (by norm_num : (90 : ℚ) ≤ 180) (le_refl 1)
  have hxy : |x| ≤ 3 ∧ |y| ≤ 41 := by
    have : gridPoint demoGrid (some (613 / 10)) (some (2501 / 10)) (some (3333 / 10)) =
        ⟨some (gridInterp demoGrid demoGrid.lon (altNorm demoGrid (3333 / 10)) (613 / 10) (2501 / 10)),
          some (gridInterp demoGrid demoGrid.lat (altNorm demoGrid (3333 / 10)) (613 / 10) (2501 / 10)), some (3333 / 10)⟩ := by
      decide +kernel
    rw [this] at hq
    simp only [V3.mk.injEq, Option.some.injEq, and_true] at hq
    rw [← hq.1, ← hq.2]
    decide +kernel
  rcases h with ⟨x', y', hp', hx', hy'⟩ | ⟨-, -, hfar⟩
  · exact ⟨x, y, x', y', hq, hp', hx'.trans d1, hy'.trans (m.trans d1)⟩
  · exfalso
    have n1 : demoGrid.nbalt = 3 := rfl
    rw [n1] at hfar
    have : (3 : ℚ) / 10 ^ 11 ≤ 1 := by norm_num
    rcases hfar with h | h
    · linarith [hxy.1, d1]
    · linarith [hxy.2, m.trans d1]

/-- The hypotheses of `C102_exact_at_nodes`: the lowest layer of `demoGrid`, whose values are not doubles here, so rounded first. -/
example : runGridInterp rnd53 demoGrid (fun k i j => rnd53 (demoGrid.lon k i j)) (runAltNorm rnd53 demoGrid 10) (201 / 2) (803 / 2) =
    rnd53 (demoGrid.lon 2 1 2) ∧ rnd53 (demoGrid.lon 2 1 2) ≠ demoGrid.lon 2 1 2 := by
  have h := C102_exact_at_nodes (u := (doubleUnit : ℚ)) (by unfold doubleUnit; norm_num) rnd53_rounds rnd53_keeps demoGrid_regular
    (fun k i j => rnd53 (demoGrid.lon k i j)) 2 1 2 (by decide) (by decide) (by decide) (by decide) (.inl rfl) (by decide +kernel)
  refine ⟨?_, by decide +kernel⟩
  have e1 : demoGrid.alts 2 = 10 := by decide +kernel
  have e2 : demoGrid.row0 + ((1 : ℕ) : ℚ) * demoGrid.steprow = 201 / 2 := by decide +kernel
  have e3 : demoGrid.col0 + ((2 : ℕ) : ℚ) * demoGrid.stepcol = 803 / 2 := by decide +kernel
  rw [e1, e2, e3] at h
  exact h

/-- Two layers at 49 metres from each other. -/
def gap49 : MultiGrid ℚ :=
  { demoGrid with nbalt := 2, alts := fun k => if k = 0 then 49 else 0, lon := fun k _ _ => if k = 0 then 1 / 1024 else 1 / 256 }

/-- C102. In double precision a node of the highest layer does not always get its stored longitude: here `1 / 49 * 49` is not 1, the layer
index is not 0, and the longitude 1/1024 (near the Greenwich meridian) is not returned exactly. -/
theorem C102_top_layer_not_exact : runAltNorm rnd53 gap49 49 ≠ 0 ∧
    runGridInterp rnd53 gap49 gap49.lon (runAltNorm rnd53 gap49 49) gap49.row0 gap49.col0 ≠ gap49.lon 0 0 0 := by
  decide +kernel

end Shareloc
