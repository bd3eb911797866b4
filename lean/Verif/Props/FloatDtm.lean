import Verif.Props.Float
import Verif.Model.FloatDtm
import Verif.Lemmas.Bilinear

/-!
C84 (rounding of the DTM interpolation and of the index conversions).
-/

set_option linter.unusedSectionVars false
set_option linter.unusedSimpArgs false

namespace Shareloc
variable {K : Type*} [Field K] [LinearOrder K] [IsStrictOrderedRing K] [FloorRing K]

open Spec

/-! ### Interpolation -/

/-- Roundings of the numbers of the formula. -/
def bilWeight : BilVar → ℕ
  | .cs => 1
  | .rs => 1
  | _ => 0

theorem bilSrc_weight : bilSrc.weight bilWeight + bilSrc.deg + bilSrc.terms - 2 = 12 := by
  simp only [bilSrc, HAdd.hAdd, HMul.hMul, HSub.hSub]
  simp only [Add.add, Mul.mul, Sub.sub, FExpr.weight, FExpr.deg, FExpr.terms, bilWeight]
  simp

theorem val_hadd {ι : Type*} (env : ι → K) (a b : FExpr ι) : (a + b).val env = a.val env + b.val env := rfl
theorem val_hmul {ι : Type*} (env : ι → K) (a b : FExpr ι) : (a * b).val env = a.val env * b.val env := rfl
theorem val_hsub {ι : Type*} (env : ι → K) (a b : FExpr ι) : (a - b).val env = a.val env + -b.val env := rfl
theorem mag_hadd {ι : Type*} (env : ι → K) (a b : FExpr ι) : (a + b).mag env = a.mag env + b.mag env := rfl
theorem mag_hmul {ι : Type*} (env : ι → K) (a b : FExpr ι) : (a * b).mag env = a.mag env * b.mag env := rfl
theorem mag_hsub {ι : Type*} (env : ι → K) (a b : FExpr ι) : (a - b).mag env = a.mag env + b.mag env := rfl

theorem bilSrc_val (mat : ℤ → ℤ → K) (nbRows nbCols : ℤ) (row col : K) :
    bilSrc.val (bilEnv mat nbRows nbCols row col (col - (lowerShift nbCols col : K)) (row - (lowerShift nbRows row : K))) =
      interpolBilin mat nbRows nbCols row col := by
  simp only [bilSrc, interpolBilin, val_hadd, val_hmul, val_hsub, FExpr.val, bilEnv]
  push_cast
  ring

/-- Any order of evaluation of the formula. -/
theorem bilin_error {u : K} (hu : 0 ≤ u) (mat : ℤ → ℤ → K) (nbRows nbCols : ℤ) (row col v : K)
    (h : FloatBilin u mat nbRows nbCols row col v) :
    |v - interpolBilin mat nbRows nbCols row col| ≤ ((1 + u) ^ 12 - 1) * bilSrc.mag (bilEnv mat nbRows nbCols row col
      (col - (lowerShift nbCols col : K)) (row - (lowerShift nbRows row : K))) := by
  obtain ⟨cs, rs, e, hcs, hrs, he, hv⟩ := h
  have henv : ∀ i, Approx u (bilWeight i)
      |bilEnv mat nbRows nbCols row col (col - (lowerShift nbCols col : K)) (row - (lowerShift nbRows row : K)) i|
      (bilEnv mat nbRows nbCols row col (col - (lowerShift nbCols col : K)) (row - (lowerShift nbRows row : K)) i)
      (bilEnv mat nbRows nbCols row col cs rs i) := by
    intro i
    cases i with
    | cs => exact hcs.approx
    | rs => exact hrs.approx
    | m00 => exact Approx.refl u _
    | m01 => exact Approx.refl u _
    | m10 => exact Approx.refl u _
    | m11 => exact Approx.refl u _
  have := (he.approx hu henv hv).1
  rwa [bilSrc_weight, bilSrc_val] at this

/-- C84. In floating point, in any order of evaluation, the altitude interpolated at a position inside the raster is
within `9 ((1+u)^12 - 1) H` of the exact bilinear interpolation, `H` bounding the absolute altitudes of the
surrounding nodes. -/
theorem C84_interpolation {u : K} (hu : 0 ≤ u) (mat : ℤ → ℤ → K) (nbRows nbCols : ℤ) (hr2 : 2 ≤ nbRows) (hc2 : 2 ≤ nbCols)
    (row col v H : K) (hr0 : 0 ≤ row) (hr1 : row ≤ nbRows - 1) (hc0 : 0 ≤ col) (hc1 : col ≤ nbCols - 1)
    (hH : ∀ a b, IsNode nbRows nbCols a b → |row - (a : K)| ≤ 1 → |col - (b : K)| ≤ 1 → |mat a b| ≤ H)
    (h : FloatBilin u mat nbRows nbCols row col v) :
    |v - interpolBilin mat nbRows nbCols row col| ≤ 9 * ((1 + u) ^ 12 - 1) * H := by
  refine (bilin_error hu mat nbRows nbCols row col v h).trans ?_
  have lr := lowerShift_inside hr0 hr1
  have lc := lowerShift_inside hc0 hc1
  have rr := lowerShift_range hr2 row
  have rc := lowerShift_range hc2 col
  have hg : 0 ≤ (1 + u) ^ 12 - 1 := sub_nonneg.mpr (one_le_pow_u hu 12)
  generalize (1 + u) ^ 12 - 1 = g at *
  simp only [bilSrc, mag_hadd, mag_hmul, mag_hsub, FExpr.mag, bilEnv]
  generalize lowerShift nbRows row = a at *
  generalize lowerShift nbCols col = b at *
  have ra : |row - (a : K)| ≤ 1 := by rw [abs_le]; constructor <;> linarith
  have ra' : |row - ((a + 1 : ℤ) : K)| ≤ 1 := by push_cast; rw [abs_le]; constructor <;> linarith
  have cb : |col - (b : K)| ≤ 1 := by rw [abs_le]; constructor <;> linarith
  have cb' : |col - ((b + 1 : ℤ) : K)| ≤ 1 := by push_cast; rw [abs_le]; constructor <;> linarith
  have h00 := hH a b ⟨by omega, by omega, by omega, by omega⟩ ra cb
  have h01 := hH a (b + 1) ⟨by omega, by omega, by omega, by omega⟩ ra cb'
  have h10 := hH (a + 1) b ⟨by omega, by omega, by omega, by omega⟩ ra' cb
  have h11 := hH (a + 1) (b + 1) ⟨by omega, by omega, by omega, by omega⟩ ra' cb'
  have hH0 : 0 ≤ H := le_trans (abs_nonneg _) h00
  have s0 := abs_nonneg (row - (a : K))
  have t0 := abs_nonneg (col - (b : K))
  generalize |row - (a : K)| = s at *
  generalize |col - (b : K)| = t at *
  have e : ∀ w m W : K, 0 ≤ w → w ≤ W → m ≤ H → 0 ≤ m → w * m ≤ W * H :=
    fun w m W hw hW hm hm0 => mul_le_mul hW hm hm0 (le_trans hw hW)
  have k1 := e ((1 + t) * (1 + s)) _ 4 (by positivity) (by nlinarith) h00 (abs_nonneg _)
  have k2 := e (t * (1 + s)) _ 2 (by positivity) (by nlinarith) h01 (abs_nonneg _)
  have k3 := e ((1 + t) * s) _ 2 (by positivity) (by nlinarith) h10 (abs_nonneg _)
  have k4 := e (t * s) _ 1 (by positivity) (by nlinarith) h11 (abs_nonneg _)
  have : g * ((1 + t) * (1 + s) * |mat a b| + t * (1 + s) * |mat a (b + 1)| + (1 + t) * s * |mat (a + 1) b| +
      t * s * |mat (a + 1) (b + 1)|) ≤ g * (9 * H) := mul_le_mul_of_nonneg_left (by linarith) hg
  push_cast
  linarith

/-- C84. In double precision, with altitudes of at most 10000 metres, the interpolated altitude is right to
2·10⁻¹⁰ metre. -/
theorem C84_interpolation_double (mat : ℤ → ℤ → K) (nbRows nbCols : ℤ) (hr2 : 2 ≤ nbRows) (hc2 : 2 ≤ nbCols)
    (row col v : K) (hr0 : 0 ≤ row) (hr1 : row ≤ nbRows - 1) (hc0 : 0 ≤ col) (hc1 : col ≤ nbCols - 1)
    (hH : ∀ a b, IsNode nbRows nbCols a b → |mat a b| ≤ 10000)
    (h : FloatBilin doubleUnit mat nbRows nbCols row col v) :
    |v - interpolBilin mat nbRows nbCols row col| ≤ 2 / 10 ^ 10 := by
  have hu : (0 : K) ≤ doubleUnit := by unfold doubleUnit; positivity
  refine (C84_interpolation hu mat nbRows nbCols hr2 hc2 row col v 10000 hr0 hr1 hc0 hc1 (fun a b hn _ _ => hH a b hn) h).trans ?_
  have h1 : (1 + doubleUnit : K) ^ 12 ≤ 1 / (1 - (12 : ℕ) * doubleUnit) :=
    pow_u_le hu (by unfold doubleUnit; norm_num) 12 (by unfold doubleUnit; norm_num)
  have h2 : 1 / (1 - ((12 : ℕ) : K) * doubleUnit) ≤ 1 + 13 * doubleUnit := by
    unfold doubleUnit; norm_num
  have e : (doubleUnit : K) = 1 / 9007199254740992 := by unfold doubleUnit; norm_num
  have : (1 + doubleUnit : K) ^ 12 - 1 ≤ 13 * (1 / 9007199254740992) := by rw [← e]; linarith
  norm_num at this ⊢
  linarith

/-! ### Index conversions -/

/-- `x'` is `x` after `n` roundings, in the strong sense that is preserved by the reciprocal. -/
def Rel (u : K) (n : ℕ) (x x' : K) : Prop := ∃ ρ, x' = x * ρ ∧ (1 - u) ^ n ≤ ρ ∧ ρ * (1 - u) ^ n ≤ 1

theorem Rel.refl (u x : K) : Rel u 0 x x := ⟨1, by simp, by simp, by simp⟩

theorem Rel.round {u : K} (hu : 0 ≤ u) (hu1 : u < 1) {n : ℕ} {x x' v : K} (h : Rel u n x x') (hv : Rounds u x' v) :
    Rel u (n + 1) x v := by
  obtain ⟨ρ, rfl, h1, h2⟩ := h
  have hp : 0 < (1 - u) ^ n := pow_pos (by linarith) n
  have hρ : 0 < ρ := lt_of_lt_of_le hp h1
  unfold Rounds at hv
  by_cases hx : x * ρ = 0
  · rw [hx, abs_zero, mul_zero] at hv
    have hx0 : x = 0 := (mul_eq_zero.mp hx).resolve_right hρ.ne'
    have : v = 0 := by linarith [abs_nonpos_iff.mp hv]
    refine ⟨ρ, by rw [this, hx0, zero_mul], ?_, ?_⟩
    · rw [pow_succ]; nlinarith
    · rw [pow_succ]; nlinarith [mul_pos hρ hp]
  · have hx' := abs_pos.mpr hx
    have hd : |v / (x * ρ) - 1| ≤ u := by
      have : v / (x * ρ) - 1 = (v - x * ρ) / (x * ρ) := by rw [sub_div, div_self hx]
      rw [this, abs_div, div_le_iff₀ hx']
      exact hv
    obtain ⟨l1, l2⟩ := abs_le.mp hd
    refine ⟨ρ * (v / (x * ρ)), by rw [← mul_assoc, mul_comm, div_mul_cancel₀ _ hx], ?_, ?_⟩
    · rw [pow_succ]
      exact mul_le_mul h1 (by linarith) (by linarith) hρ.le
    · rw [pow_succ]
      have h3 : v / (x * ρ) * (1 - u) ≤ 1 := by nlinarith
      have h4 : 0 ≤ v / (x * ρ) * (1 - u) := mul_nonneg (by linarith) (by linarith)
      calc ρ * (v / (x * ρ)) * ((1 - u) ^ n * (1 - u)) = (ρ * (1 - u) ^ n) * (v / (x * ρ) * (1 - u)) := by ring
        _ ≤ 1 * 1 := mul_le_mul h2 h3 h4 (by norm_num)
        _ = 1 := one_mul 1

theorem Rel.mul {u : K} (hu1 : u < 1) {n p : ℕ} {x x' y y' : K} (hx : Rel u n x x') (hy : Rel u p y y') :
    Rel u (n + p) (x * y) (x' * y') := by
  obtain ⟨ρ, rfl, h1, h2⟩ := hx
  obtain ⟨σ, rfl, h3, h4⟩ := hy
  have hp : 0 < (1 - u) ^ n := pow_pos (by linarith) n
  have hq : 0 < (1 - u) ^ p := pow_pos (by linarith) p
  have hρ : 0 < ρ := lt_of_lt_of_le hp h1
  have hσ : 0 < σ := lt_of_lt_of_le hq h3
  refine ⟨ρ * σ, by ring, ?_, ?_⟩
  · rw [pow_add]; exact mul_le_mul h1 h3 hq.le hρ.le
  · rw [pow_add]
    calc ρ * σ * ((1 - u) ^ n * (1 - u) ^ p) = (ρ * (1 - u) ^ n) * (σ * (1 - u) ^ p) := by ring
      _ ≤ 1 * 1 := mul_le_mul h2 h4 (mul_pos hσ hq).le (by norm_num)
      _ = 1 := one_mul 1

theorem Rel.inv {u : K} (hu1 : u < 1) {n : ℕ} {x x' : K} (h : Rel u n x x') : Rel u n (1 / x) (1 / x') := by
  obtain ⟨ρ, rfl, h1, h2⟩ := h
  have hp : 0 < (1 - u) ^ n := pow_pos (by linarith) n
  have hρ : 0 < ρ := lt_of_lt_of_le hp h1
  refine ⟨1 / ρ, by rw [one_div_mul_one_div_rev, mul_comm], ?_, ?_⟩
  · rw [le_div_iff₀ hρ]; linarith
  · rw [one_div, inv_mul_le_iff₀ hρ]; linarith

theorem Rel.neg {u : K} {n : ℕ} {x x' : K} (h : Rel u n x x') : Rel u n (-x) (-x') := by
  obtain ⟨ρ, rfl, h1, h2⟩ := h
  exact ⟨ρ, by ring, h1, h2⟩

/-- The rounding unit that also bounds the errors of reciprocals. -/
def unitInv (u : K) : K := u / (1 - u)

theorem one_add_unitInv {u : K} (hu1 : u < 1) : 1 + unitInv u = 1 / (1 - u) := by
  have : 1 - u ≠ 0 := by linarith [sub_pos.mpr hu1]
  unfold unitInv
  field_simp
  ring

theorem unitInv_nonneg {u : K} (hu : 0 ≤ u) (hu1 : u < 1) : 0 ≤ unitInv u := div_nonneg hu (by linarith)

theorem Rel.approx {u : K} (hu1 : u < 1) {n : ℕ} {x x' : K} (h : Rel u n x x') : Approx (unitInv u) n |x| x x' := by
  obtain ⟨ρ, rfl, h1, h2⟩ := h
  refine ⟨?_, le_rfl⟩
  have e : x * ρ - x = (ρ - 1) * x := by ring
  rw [e, abs_mul]
  apply mul_le_mul_of_nonneg_right _ (abs_nonneg x)
  rw [one_add_unitInv hu1, div_pow, one_pow]
  have hp : 0 < (1 - u) ^ n := pow_pos (by linarith) n
  generalize (1 - u) ^ n = p at *
  have hb : ρ ≤ 1 / p := by rw [le_div_iff₀ hp]; exact h2
  have h3 : 1 - p ≤ 1 / p - 1 := by
    have : 1 / p * p = 1 := by field_simp
    nlinarith [mul_self_nonneg (p - 1), sq_nonneg (1 / p - 1), mul_nonneg hp.le (sq_nonneg (1 / p - 1))]
  rw [abs_le]
  constructor <;> linarith

theorem Rounds.unitInv {u : K} (hu : 0 ≤ u) (hu1 : u < 1) {x v : K} (h : Rounds u x v) : Rounds (unitInv u) x v := by
  refine le_trans h (mul_le_mul_of_nonneg_right ?_ (abs_nonneg x))
  unfold Shareloc.unitInv
  rw [le_div_iff₀ (by linarith)]
  nlinarith

theorem FloatApply.approx {u : K} (hu : 0 ≤ u) {p q s vx vy p' q' s' vx' vy' v mp ms mx : K} {n : ℕ}
    (hq : q = 0) (hq' : q' = 0) (hp : Approx u n mp p p') (hs : Approx u (2 * n + 2) ms s s') (hx : Approx u n mx vx vx')
    (h : FloatApply u p' q' s' vx' vy' v) : Approx u (2 * n + 3) (mx * mp + ms) (vx * p + vy * q + s) v := by
  obtain ⟨a, b, c, ha, hb, hc, hv⟩ := h
  subst hq hq'
  have hb0 : b = 0 := by
    unfold Rounds at hb
    simp only [mul_zero, abs_zero, sub_zero] at hb
    exact abs_nonpos_iff.mp hb
  subst hb0
  have a1 := hx.mul hu hp ha
  have a2 := a1.add hu (Approx.refl u 0) hc
  simp only [abs_zero, add_zero] at a2
  have a2' := a2.mono hu (p := 2 * n + 2) (by simp only [Nat.max_zero]; omega) le_rfl
  have a3 := a2'.add hu hs hv
  simp only [max_self, mul_zero, add_zero] at a3 ⊢
  exact a3

theorem rounds_of_zero {u v : K} (h : Rounds u 0 v) : v = 0 := by
  unfold Rounds at h
  simp only [abs_zero, mul_zero, sub_zero] at h
  exact abs_nonpos_iff.mp h

theorem FloatApply.swap {u p q s vx vy v : K} (h : FloatApply u p q s vx vy v) : FloatApply u q p s vy vx v := by
  obtain ⟨a, b, c, ha, hb, hc, hv⟩ := h
  exact ⟨b, a, c, hb, ha, by rwa [add_comm], hv⟩

/-- One axis of the round trip: `k` is the stored reciprocal of the scale, `o` the stored opposite of the offset over
the scale. -/
theorem axis_round_trip {u : K} (hu : 0 ≤ u) (hu1 : u < 1) {p s k o t vt vo x y px t' : K} (hp : p ≠ 0)
    (hk : Rel u 4 (1 / p) k) (ho : Rel u 6 (-s * (1 / p)) o)
    (h1 : Rounds u (t + 1 / 2) vt) (h2 : FloatApply u p 0 s vt vo x) (h3 : FloatApply u k 0 o x y px)
    (h4 : Rounds u (px - 1 / 2) t') :
    |t' - t| ≤ ((1 + unitInv u) ^ 14 - 1) * (|t + 1 / 2| + 2 * |s / p| + 1 / 2) := by
  have hw := unitInv_nonneg hu hu1
  have up : ∀ {p q s vx vy v : K}, FloatApply u p q s vx vy v → FloatApply (unitInv u) p q s vx vy v := by
    rintro p q s vx vy v ⟨a, b, c, ha, hb, hc, hv⟩
    exact ⟨a, b, c, ha.unitInv hu hu1, hb.unitInv hu hu1, hc.unitInv hu hu1, hv.unitInv hu hu1⟩
  have a1 := (h1.unitInv hu hu1).approx
  have a2 := (up h2).approx hw (vy := vo) rfl rfl ((Approx.refl _ p).mono hw (Nat.zero_le 1) le_rfl)
    ((Approx.refl _ s).mono hw (Nat.zero_le _) le_rfl) a1
  have a3 := (up h3).approx hw (vy := y) rfl rfl ((hk.approx hu1).mono hw (by norm_num : 4 ≤ 2 * 1 + 3) le_rfl)
    ((ho.approx hu1).mono hw (by norm_num) le_rfl) a2
  have a4 := a3.add hw (Approx.refl _ (-(1 / 2))) (by rw [← sub_eq_add_neg]; exact h4.unitInv hu hu1)
  have e : (((t + 1 / 2) * p + vo * 0 + s) * (1 / p) + y * 0 + -s * (1 / p)) + -(1 / 2) = t := by field_simp; ring
  have a5 := a4.1
  rw [e] at a5
  have em : (|t + 1 / 2| * |p| + |s|) * |1 / p| + |-s * (1 / p)| + |-(1 / 2 : K)| = |t + 1 / 2| + 2 * |s / p| + 1 / 2 := by
    have hp' : |p| ≠ 0 := abs_ne_zero.mpr hp
    have : |-(1 / 2 : K)| = 1 / 2 := by rw [abs_neg, abs_of_pos (by norm_num)]
    rw [this, abs_mul, abs_neg, abs_div, abs_one, abs_div]
    field_simp
    ring
  rw [em] at a5
  exact a5

/-- C84. For a raster without rotation, the index of the ground position of an index is that index up to
`((1+w)^14 - 1) (|index + 1/2| + 2 |origin / pixel size| + 1/2)`, `w = u / (1 - u)`: rounding in the inverse transform,
in the ground position and in the index itself. -/
theorem C84_index_round_trip {u : K} (hu : 0 ≤ u) (hu1 : u < 1) (t i : Affine K) (hb : t.b = 0) (hd : t.d = 0)
    (ha : t.a ≠ 0) (he : t.e ≠ 0) (hi : FloatInverse u t i) (row col x y row' col' : K)
    (h1 : FloatIndexToPhysical u t row col x y) (h2 : FloatPhysicalToIndex u i x y row' col') :
    |col' - col| ≤ ((1 + unitInv u) ^ 14 - 1) * (|col + 1 / 2| + 2 * |t.c / t.a| + 1 / 2) ∧
    |row' - row| ≤ ((1 + unitInv u) ^ 14 - 1) * (|row + 1 / 2| + 2 * |t.f / t.e| + 1 / 2) := by
  obtain ⟨ae, bd, det, idet, k1, k2, k3, k4, hae, hbd, hdet, hidet, hia, hib, hid, hie, hk1, hk2, hic, hk3, hk4, hif⟩ := hi
  obtain ⟨vx, vy, hvx, hvy, hx, hy⟩ := h1
  obtain ⟨px, py, hpx, hpy, hr, hc⟩ := h2
  rw [hb, zero_mul] at hbd
  have := rounds_of_zero hbd
  subst this
  rw [sub_zero] at hdet
  rw [hb, neg_zero, zero_mul] at hib
  rw [hd, neg_zero, zero_mul] at hid
  have ib := rounds_of_zero hib
  have id' := rounds_of_zero hid
  rw [ib, mul_zero] at hk2
  rw [id', mul_zero] at hk3
  have := rounds_of_zero hk2
  subst this
  have := rounds_of_zero hk3
  subst this
  rw [sub_zero] at hic
  rw [zero_sub] at hif
  have r0 : Rel u 2 (t.a * t.e) det := ((Rel.refl u _).round hu hu1 hae).round hu hu1 hdet
  have r1 : Rel u 3 (1 / (t.a * t.e)) idet := (r0.inv hu1).round hu hu1 hidet
  have r2 : Rel u 4 (1 / t.a) i.a := by
    have := ((Rel.refl u t.e).mul hu1 r1).round hu hu1 hia
    have e : t.e * (1 / (t.a * t.e)) = 1 / t.a := by field_simp
    rwa [e] at this
  have r3 : Rel u 4 (1 / t.e) i.e := by
    have := ((Rel.refl u t.a).mul hu1 r1).round hu hu1 hie
    have e : t.a * (1 / (t.a * t.e)) = 1 / t.e := by field_simp
    rwa [e] at this
  have r4 : Rel u 6 (-t.c * (1 / t.a)) i.c := (((Rel.refl u (-t.c)).mul hu1 r2).round hu hu1 hk1).round hu hu1 hic
  have r5 : Rel u 6 (-t.f * (1 / t.e)) i.f := by
    have := (((Rel.refl u t.f).mul hu1 r3).round hu hu1 hk4).neg.round hu hu1 hif
    have e : -(t.f * (1 / t.e)) = -t.f * (1 / t.e) := by ring
    rwa [e] at this
  rw [hb] at hx
  rw [hd] at hy
  rw [ib] at hpx
  rw [id'] at hpy
  exact ⟨axis_round_trip hu hu1 ha r2 r4 hvx hx hpx hc,
    axis_round_trip hu hu1 he r3 r5 hvy hy.swap hpy.swap hr⟩

/-- C84. In double precision, for indices of at most a million pixels and an origin at most ten million pixels away from
the zero of the coordinates, the round trip is right to 10⁻⁷ pixel. -/
theorem C84_index_round_trip_double (t i : Affine K) (hb : t.b = 0) (hd : t.d = 0) (ha : t.a ≠ 0) (he : t.e ≠ 0)
    (hi : FloatInverse doubleUnit t i) (row col x y row' col' : K) (hrow : |row + 1 / 2| ≤ 1000000)
    (hcol : |col + 1 / 2| ≤ 1000000) (hc : |t.c / t.a| ≤ 10000000) (hf : |t.f / t.e| ≤ 10000000)
    (h1 : FloatIndexToPhysical doubleUnit t row col x y) (h2 : FloatPhysicalToIndex doubleUnit i x y row' col') :
    |col' - col| ≤ 1 / 10 ^ 7 ∧ |row' - row| ≤ 1 / 10 ^ 7 := by
  have e : (doubleUnit : K) = 1 / 9007199254740992 := by unfold doubleUnit; norm_num
  have hu : (0 : K) ≤ doubleUnit := by rw [e]; norm_num
  have hu1 : (doubleUnit : K) < 1 := by rw [e]; norm_num
  have key := C84_index_round_trip hu hu1 t i hb hd ha he hi row col x y row' col' h1 h2
  have w : unitInv (doubleUnit : K) = 1 / 9007199254740991 := by unfold unitInv; rw [e]; norm_num
  have hg : (1 + unitInv (doubleUnit : K)) ^ 14 - 1 ≤ 15 / 9007199254740991 := by
    have := pow_u_le (u := (1 / 9007199254740991 : K)) (by norm_num) (by norm_num) 14 (by norm_num)
    rw [w]
    norm_num at this ⊢
  have hg0 : 0 ≤ (1 + unitInv (doubleUnit : K)) ^ 14 - 1 := sub_nonneg.mpr (one_le_pow_u (unitInv_nonneg hu hu1) 14)
  generalize (1 + unitInv (doubleUnit : K)) ^ 14 - 1 = g at *
  have hb : ∀ p q : K, |p| ≤ 1000000 → |q| ≤ 10000000 → g * (|p| + 2 * |q| + 1 / 2) ≤ 1 / 10 ^ 7 := by
    intro p q hp hq
    have h0 : 0 ≤ |p| + 2 * |q| + 1 / 2 := by positivity
    calc g * (|p| + 2 * |q| + 1 / 2) ≤ 15 / 9007199254740991 * (1000000 + 2 * 10000000 + 1 / 2) :=
          mul_le_mul hg (by linarith) h0 (by norm_num)
      _ ≤ 1 / 10 ^ 7 := by norm_num
  exact ⟨key.1.trans (hb _ _ hcol hc), key.2.trans (hb _ _ hrow hf)⟩

/-! ### The hypotheses are met -/

theorem exists_floatInverse {u : K} {rnd : K → K} (h : ∀ x, Rounds u x (rnd x)) (t : Affine K) : ∃ i, FloatInverse u t i := by
  let idet := rnd (1 / rnd (rnd (t.a * t.e) - rnd (t.b * t.d)))
  refine ⟨⟨rnd (t.e * idet), rnd (-t.b * idet), rnd (rnd (-t.c * rnd (t.e * idet)) - rnd (t.f * rnd (-t.b * idet))),
    rnd (-t.d * idet), rnd (t.a * idet), rnd (rnd (-t.c * rnd (-t.d * idet)) - rnd (t.f * rnd (t.a * idet)))⟩,
    rnd (t.a * t.e), rnd (t.b * t.d), rnd (rnd (t.a * t.e) - rnd (t.b * t.d)), idet, _, _, _, _, h _, h _, h _, h _, h _, h _,
    h _, h _, h _, h _, h _, h _, h _, h _⟩

theorem exists_floatApply {u : K} {rnd : K → K} (h : ∀ x, Rounds u x (rnd x)) (p q s vx vy : K) :
    ∃ v, FloatApply u p q s vx vy v := ⟨_, _, _, _, h _, h _, h _, h _⟩

/-- With a rounding function, both conversions have values. -/
theorem exists_floatRoundTrip {u : K} {rnd : K → K} (h : ∀ x, Rounds u x (rnd x)) (t : Affine K) (row col : K) :
    ∃ i x y row' col', FloatInverse u t i ∧ FloatIndexToPhysical u t row col x y ∧ FloatPhysicalToIndex u i x y row' col' := by
  obtain ⟨i, hi⟩ := exists_floatInverse h t
  obtain ⟨x, hx⟩ := exists_floatApply h t.a t.b t.c (rnd (col + 1 / 2)) (rnd (row + 1 / 2))
  obtain ⟨y, hy⟩ := exists_floatApply h t.d t.e t.f (rnd (col + 1 / 2)) (rnd (row + 1 / 2))
  obtain ⟨px, hpx⟩ := exists_floatApply h i.a i.b i.c x y
  obtain ⟨py, hpy⟩ := exists_floatApply h i.d i.e i.f x y
  exact ⟨i, x, y, _, _, hi, ⟨_, _, h _, h _, hx, hy⟩, ⟨px, py, hpx, hpy, h _, h _⟩⟩

/-- A raster of a third of a degree with an origin that is not a double, and the rounding of doubles. -/
example : ∃ row' col' : ℚ, |col' - 27 / 10| ≤ 1 / 10 ^ 7 ∧ |row' - 13 / 10| ≤ 1 / 10 ^ 7 := by
  obtain ⟨i, x, y, row', col', hi, h1, h2⟩ := exists_floatRoundTrip (K := ℚ) rnd53_rounds
    ⟨1 / 3, 0, 10 / 7, 0, -1 / 3, 45 / 7⟩ (13 / 10) (27 / 10)
  exact ⟨row', col', C84_index_round_trip_double ⟨1 / 3, 0, 10 / 7, 0, -1 / 3, 45 / 7⟩ i rfl rfl (by norm_num) (by norm_num) hi
    (13 / 10) (27 / 10) x y row' col' (by norm_num [abs_of_pos]) (by norm_num [abs_of_pos]) (by norm_num [abs_of_pos])
    (by rw [abs_le]; norm_num) h1 h2⟩

/-- An interpolation whose computed value differs from the exact one. -/
example : ∃ v, FloatBilin (K := ℚ) doubleUnit (fun i j => ((100 + 7 * i + 3 * j + i * j : ℤ) : ℚ)) 3 3 (13 / 10) (7 / 10) v ∧
    v ≠ interpolBilin (fun i j => ((100 + 7 * i + 3 * j + i * j : ℤ) : ℚ)) 3 3 (13 / 10) (7 / 10) := by
  refine ⟨bilSrc.run rnd53 (bilEnv (fun i j => ((100 + 7 * i + 3 * j + i * j : ℤ) : ℚ)) 3 3 (13 / 10) (7 / 10)
    (rnd53 (7 / 10 - (lowerShift 3 (7 / 10 : ℚ) : ℚ))) (rnd53 (13 / 10 - (lowerShift 3 (13 / 10 : ℚ) : ℚ)))),
    ⟨_, _, _, rnd53_rounds _, rnd53_rounds _, .refl _, FExpr.run_computes rnd53_rounds _ _⟩, ?_⟩
  decide +kernel

end Shareloc
