import Verif.Lemmas.Float
import Verif.Spec.Float
import Verif.Props.Rpc

/-!
C82 (rounding of the rational functions, any order of evaluation) and C83 (the iterative location in floating point).
-/

set_option linter.unusedSectionVars false

namespace Shareloc
variable {K : Type*} [Field K] [LinearOrder K] [IsStrictOrderedRing K]

/-! ### Helpers -/

theorem pow_u_le {u : K} (hu : 0 ≤ u) (hu1 : u ≤ 1) (n : ℕ) (hn : (n : K) * u < 1) :
    (1 + u) ^ n ≤ 1 / (1 - n * u) := by
  have h1 : 1 - (n : K) * u ≤ (1 - u) ^ n := by
    have := one_add_mul_le_pow (a := -u) (by linarith) n
    rw [mul_neg] at this
    simpa [sub_eq_add_neg] using this
  have h2 : (1 + u) ^ n * (1 - u) ^ n ≤ 1 := by
    rw [← mul_pow]
    apply pow_le_one₀
    · apply mul_nonneg <;> linarith
    · nlinarith [mul_self_nonneg u]
  have h3 : 0 < (1 + u) ^ n := by positivity
  rw [le_div_iff₀ (by linarith)]
  calc (1 + u) ^ n * (1 - n * u) ≤ (1 + u) ^ n * (1 - u) ^ n := mul_le_mul_of_nonneg_left h1 h3.le
    _ ≤ 1 := h2

theorem Conditioned.one_le {κ : K} {num den : Coef K} {x y z : K} (h : Conditioned κ num den x y z) : 1 ≤ κ := by
  have h1 := (FloatPoly.approx (u := 0) (imp := .python) (c := den) le_rfl (Approx.refl 0 x)
    (Approx.refl 0 y) (Approx.refl 0 z) ⟨_, .refl _, FExpr.Computes.of_val le_rfl _ _⟩).2
  have h2 := abs_pos.mpr h.defined
  have h3 := h1.trans h.den_le
  by_contra h4
  push Not at h4
  nlinarith

theorem Conditioned.abs_quot {κ : K} {num den : Coef K} {x y z : K} (h : Conditioned κ num den x y z) :
    |rpcPoly num x y z / rpcPoly den x y z| ≤ κ := by
  have h1 := (FloatPoly.approx (u := 0) (imp := .python) (c := num) le_rfl (Approx.refl 0 x)
    (Approx.refl 0 y) (Approx.refl 0 z) ⟨_, .refl _, FExpr.Computes.of_val le_rfl _ _⟩).2
  have h2 := abs_pos.mpr h.defined
  rw [abs_div, div_le_iff₀ h2]
  exact h1.trans h.num_le

/-- The general bound. -/
theorem ratOut_error {u : K} (hu : 0 ≤ u) {imp : RpcImpl} {num den : Coef K} {k : ℕ} {x y z x' y' z' sc off v : K}
    (hx : Approx u k |x| x x') (hy : Approx u k |y| y y') (hz : Approx u k |z| z z')
    (hden : ((1 + u) ^ (3 * k + 22) - 1) * rpcPoly (fun i => |den i|) |x| |y| |z| < |rpcPoly den x y z|)
    (h : FloatRatOut u imp num den x' y' z' sc off v) :
    |v - (rpcPoly num x y z / rpcPoly den x y z * sc + off)| ≤
      ((1 + u) ^ 4 * (|rpcPoly num x y z / rpcPoly den x y z| +
          ((1 + u) ^ (3 * k + 22) - 1) * (rpcPoly (fun i => |num i|) |x| |y| |z| +
            |rpcPoly num x y z / rpcPoly den x y z| * rpcPoly (fun i => |den i|) |x| |y| |z|) /
          (|rpcPoly den x y z| - ((1 + u) ^ (3 * k + 22) - 1) * rpcPoly (fun i => |den i|) |x| |y| |z|)) -
        |rpcPoly num x y z / rpcPoly den x y z|) * |sc| + u * |off| := by
  obtain ⟨n', d', p, hn, hd, hp, hv⟩ := h
  have an := hn.approx hu hx hy hz
  have ad := hd.approx hu hx hy hz
  unfold Approx at an ad
  have hG := one_le_pow_u hu (3 * k + 22)
  have h3 := one_le_pow_u hu 3
  have hp' := hp.approx hu
  unfold Rounds at hv
  generalize rpcPoly num x y z = n at *
  generalize rpcPoly den x y z = d at *
  generalize rpcPoly (fun i => |num i|) |x| |y| |z| = Mn at *
  generalize rpcPoly (fun i => |den i|) |x| |y| |z| = Md at *
  generalize (1 + u) ^ (3 * k + 22) = G at *
  obtain ⟨en, _⟩ := an
  obtain ⟨ed, _⟩ := ad
  have hMd : 0 ≤ Md := by
    by_contra hc
    push Not at hc
    have := abs_nonneg d
    linarith
  have hd0 : 0 < |d| := lt_of_le_of_lt (mul_nonneg (by linarith) hMd) hden
  have hd' : |d| - (G - 1) * Md ≤ |d'| := by
    have := abs_sub_abs_le_abs_sub d d'
    rw [abs_sub_comm] at this
    linarith
  have hd'0 : 0 < |d'| := by linarith
  have hdne : d ≠ 0 := abs_pos.mp hd0
  have hd'ne : d' ≠ 0 := abs_pos.mp hd'0
  have hq : |n' / d' - n / d| ≤ (G - 1) * (Mn + |n / d| * Md) / (|d| - (G - 1) * Md) := by
    have e : n' / d' - n / d = ((n' - n) - n / d * (d' - d)) / d' := by field_simp; ring
    have hnum : |(n' - n) - n / d * (d' - d)| ≤ (G - 1) * (Mn + |n / d| * Md) := by
      have h1 := abs_sub (n' - n) (n / d * (d' - d))
      rw [abs_mul] at h1
      have h2 : |n / d| * |d' - d| ≤ |n / d| * ((G - 1) * Md) := mul_le_mul_of_nonneg_left ed (abs_nonneg _)
      nlinarith
    rw [e, abs_div]
    apply div_le_div₀ (le_trans (abs_nonneg _) hnum) hnum (by linarith) hd'
  generalize (G - 1) * (Mn + |n / d| * Md) / (|d| - (G - 1) * Md) = E at *
  generalize hQ' : n' / d' = Q' at *
  generalize n / d = Q at *
  have hE : 0 ≤ E := le_trans (abs_nonneg _) hq
  have hQ'le : |Q'| ≤ |Q| + E := by
    have := abs_sub_abs_le_abs_sub Q' Q
    linarith
  have hs := abs_nonneg sc
  have hQs : |Q' * sc| ≤ (|Q| + E) * |sc| := by rw [abs_mul]; exact mul_le_mul_of_nonneg_right hQ'le hs
  have hps : |p - Q' * sc| ≤ ((1 + u) ^ 3 - 1) * ((|Q| + E) * |sc|) :=
    hp'.trans (mul_le_mul_of_nonneg_left hQs (by linarith))
  have hpQ : |p - Q * sc| ≤ ((1 + u) ^ 3 * (|Q| + E) - |Q|) * |sc| := by
    have e : p - Q * sc = (p - Q' * sc) + (Q' - Q) * sc := by ring
    have h1 := abs_add_le (p - Q' * sc) ((Q' - Q) * sc)
    rw [abs_mul] at h1
    have h2 : |Q' - Q| * |sc| ≤ E * |sc| := mul_le_mul_of_nonneg_right hq hs
    rw [e]
    nlinarith
  have hpabs : |p| ≤ (1 + u) ^ 3 * (|Q| + E) * |sc| := by
    have := abs_sub_abs_le_abs_sub p (Q' * sc)
    nlinarith
  have e : v - (Q * sc + off) = (v - (p + off)) + (p - Q * sc) := by ring
  have h1 := abs_add_le (v - (p + off)) (p - Q * sc)
  have h2 := abs_add_le p off
  have h5 : u * |p + off| ≤ u * ((1 + u) ^ 3 * (|Q| + E) * |sc| + |off|) := mul_le_mul_of_nonneg_left (by linarith) hu
  have e4 : (1 + u) ^ 4 = (1 + u) ^ 3 + u * (1 + u) ^ 3 := by ring
  rw [e, e4]
  nlinarith

theorem ratOut_conditioned {u κ : K} (hu : 0 ≤ u) (hκ : u * κ ≤ 1 / 4096) {imp : RpcImpl} {num den : Coef K}
    {x y z x' y' z' sc off v : K}
    (hx : Approx u 2 |x| x x') (hy : Approx u 2 |y| y y') (hz : Approx u 2 |z| z z')
    (hc : Conditioned κ num den x y z) (h : FloatRatOut u imp num den x' y' z' sc off v) :
    |v - (rpcPoly num x y z / rpcPoly den x y z * sc + off)| ≤ 64 * κ ^ 2 * u * |sc| + u * |off| := by
  have hκ1 := hc.one_le
  have hQ := hc.abs_quot
  have hu' : u ≤ 1 / 4096 := by nlinarith
  have hG : (1 + u) ^ (3 * 2 + 22) - 1 ≤ (57 / 2) * u := by
    have h1 := pow_u_le hu (by linarith) 28 (by push_cast; linarith)
    have h2 : 1 / (1 - ((28 : ℕ) : K) * u) ≤ 1 + (57 / 2) * u := by
      push_cast
      rw [div_le_iff₀ (by linarith)]
      nlinarith
    have : (1 + u) ^ (3 * 2 + 22) = (1 + u) ^ 28 := by norm_num
    linarith
  have hG1 : (1 + u) ^ 4 ≤ 1 + 5 * u := by nlinarith [mul_self_nonneg u, pow_nonneg hu 3]
  have hG0 := one_le_pow_u hu (3 * 2 + 22)
  have hG4 := one_le_pow_u hu 4
  have hn := hc.num_le
  have hd := hc.den_le
  have hd0 := abs_pos.mpr hc.defined
  have hGM : ((1 + u) ^ (3 * 2 + 22) - 1) * rpcPoly (fun i => |den i|) |x| |y| |z| ≤ 57 / 8192 * |rpcPoly den x y z| := by
    have hM : 0 ≤ rpcPoly (fun i => |den i|) |x| |y| |z| := by
      have := (FloatPoly.approx (u := 0) (imp := .python) (c := den) le_rfl (Approx.refl 0 x)
        (Approx.refl 0 y) (Approx.refl 0 z) ⟨_, .refl _, FExpr.Computes.of_val le_rfl _ _⟩).nonneg
      exact this
    calc _ ≤ (57 / 2) * u * (κ * |rpcPoly den x y z|) := mul_le_mul hG hd hM (by linarith)
      _ = (57 / 2) * (u * κ) * |rpcPoly den x y z| := by ring
      _ ≤ (57 / 2) * (1 / 4096) * |rpcPoly den x y z| := by
        apply mul_le_mul_of_nonneg_right _ hd0.le
        linarith
      _ = _ := by ring
  have hg0 : 0 ≤ (1 + u) ^ (3 * 2 + 22) - 1 := sub_nonneg.mpr hG0
  have key := ratOut_error hu hx hy hz (lt_of_le_of_lt hGM (by linarith)) h
  refine key.trans ?_
  generalize (1 + u) ^ (3 * 2 + 22) - 1 = g at *
  generalize (1 + u) ^ 4 = f at *
  generalize rpcPoly num x y z / rpcPoly den x y z = Q at *
  generalize |rpcPoly den x y z| = d at *
  generalize rpcPoly (fun i => |num i|) |x| |y| |z| = Mn at *
  generalize rpcPoly (fun i => |den i|) |x| |y| |z| = Md at *
  have hnum : g * (Mn + |Q| * Md) ≤ (57 / 2) * u * ((κ + κ * κ) * d) := by
    have h1 : Mn + |Q| * Md ≤ (κ + κ * κ) * d := by
      have : |Q| * Md ≤ κ * (κ * d) := by
        by_cases hM : 0 ≤ Md
        · exact mul_le_mul hQ hd hM (by linarith)
        · push Not at hM
          have h0 := abs_nonneg Q
          have : |Q| * Md ≤ 0 := mul_nonpos_of_nonneg_of_nonpos h0 hM.le
          have : 0 ≤ κ * (κ * d) := by positivity
          linarith
      linarith
    have h2 : 0 ≤ (κ + κ * κ) * d := by positivity
    calc g * (Mn + |Q| * Md) ≤ g * ((κ + κ * κ) * d) := mul_le_mul_of_nonneg_left h1 hg0
      _ ≤ _ := mul_le_mul_of_nonneg_right hG h2
  have hE : g * (Mn + |Q| * Md) / (d - g * Md) ≤ 58 * u * κ ^ 2 := by
    rw [div_le_iff₀ (by linarith)]
    have h1 : (57 / 2) * u * ((κ + κ * κ) * d) ≤ 57 * u * κ ^ 2 * d := by
      have : κ + κ * κ ≤ 2 * κ ^ 2 := by nlinarith
      have h3 : 0 ≤ (57 / 2) * u * d := by positivity
      nlinarith
    have h2 : 58 * u * κ ^ 2 * (d - 57 / 8192 * d) ≤ 58 * u * κ ^ 2 * (d - g * Md) := by
      apply mul_le_mul_of_nonneg_left _ (by positivity)
      linarith
    have h3 : 0 ≤ u * κ ^ 2 * d := by positivity
    nlinarith
  have hQ0 := abs_nonneg Q
  generalize g * (Mn + |Q| * Md) / (d - g * Md) = E at *
  have hfin : f * (|Q| + E) - |Q| ≤ 64 * κ ^ 2 * u := by
    have h1 : (f - 1) * |Q| ≤ 5 * u * κ := mul_le_mul (by linarith) hQ hQ0 (by linarith)
    have h2 : f * E ≤ (1 + 5 * u) * (58 * u * κ ^ 2) := by
      have hb : 0 ≤ 58 * u * κ ^ 2 := by positivity
      calc f * E ≤ f * (58 * u * κ ^ 2) := mul_le_mul_of_nonneg_left hE (by linarith)
        _ ≤ _ := mul_le_mul_of_nonneg_right hG1 hb
    have h3 : 5 * u * κ ≤ 5 * u * κ ^ 2 := by nlinarith [mul_nonneg hu (by linarith : 0 ≤ κ)]
    have h4 : 5 * u * (58 * u * κ ^ 2) ≤ 1 * (u * κ ^ 2) := by
      have hb : 0 ≤ u * κ ^ 2 := by positivity
      have : 5 * u * (58 * u * κ ^ 2) = (290 * u) * (u * κ ^ 2) := by ring
      rw [this]
      exact mul_le_mul_of_nonneg_right (by linarith) hb
    nlinarith
  have := mul_le_mul_of_nonneg_right hfin (abs_nonneg sc)
  linarith

/-! ### C82 -/

/-- C82. Whatever the order in which the compiler evaluates the sums and products of the polynomial of either
implementation, and whatever it fuses, the value computed from given normalised coordinates is within
`((1+u)^22 - 1)` times the sum of the absolute values of the terms of the RPC00B polynomial. -/
theorem C82_polynomial {u : K} (hu : 0 ≤ u) (imp : RpcImpl) (c : Coef K) (x y z v : K) (h : FloatPoly u imp c x y z v) :
    |v - rpcPoly c x y z| ≤ ((1 + u) ^ 22 - 1) * rpcPoly (fun i => |c i|) |x| |y| |z| :=
  (h.approx (k := 0) hu (Approx.refl u x) (Approx.refl u y) (Approx.refl u z)).1

/-- C82. The image position computed in floating point by `inverse_loc` of either implementation, in any order of
evaluation, is within `64 κ² u |scale| + u |offset|` of the exact one, at a ground point where the model is conditioned by
`κ`. -/
theorem C82_inverse_loc {u κ : K} (hu : 0 ≤ u) (hκ : u * κ ≤ 1 / 4096) (imp : RpcImpl) (r : Rpc K) (q : RatCoefs K)
    (lon lat alt col row : K) (hc : GroundConditioned κ r q lon lat alt) (h1 : FloatCol u imp r q lon lat alt col)
    (h2 : FloatRow u imp r q lon lat alt row) :
    |col - imgCol r q lon lat alt| ≤ 64 * κ ^ 2 * u * |r.scCol| + u * |r.offCol| ∧
    |row - imgRow r q lon lat alt| ≤ 64 * κ ^ 2 * u * |r.scRow| + u * |r.offRow| := by
  obtain ⟨x, y, z, hx, hy, hz, h⟩ := h1
  obtain ⟨x', y', z', hx', hy', hz', h'⟩ := h2
  exact ⟨ratOut_conditioned hu hκ (hx.approx hu) (hy.approx hu) (hz.approx hu) hc.1 h,
    ratOut_conditioned hu hκ (hx'.approx hu) (hy'.approx hu) (hz'.approx hu) hc.2 h'⟩

/-- C82. The same for the ground position computed by `direct_loc_h` with direct coefficients. -/
theorem C82_direct_loc {u κ : K} (hu : 0 ≤ u) (hκ : u * κ ≤ 1 / 4096) (imp : RpcImpl) (r : Rpc K) (q : RatCoefs K)
    (row col alt lon lat : K) (hc : ImageConditioned κ r q row col alt) (h1 : FloatLon u imp r q row col alt lon)
    (h2 : FloatLat u imp r q row col alt lat) :
    |lon - directLon r q row col alt| ≤ 64 * κ ^ 2 * u * |r.scX| + u * |r.offX| ∧
    |lat - directLat r q row col alt| ≤ 64 * κ ^ 2 * u * |r.scY| + u * |r.offY| := by
  obtain ⟨x, y, z, hx, hy, hz, h⟩ := h1
  obtain ⟨x', y', z', hx', hy', hz', h'⟩ := h2
  exact ⟨ratOut_conditioned hu hκ (hx.approx hu) (hy.approx hu) (hz.approx hu) hc.1 h,
    ratOut_conditioned hu hκ (hx'.approx hu) (hy'.approx hu) (hz'.approx hu) hc.2 h'⟩

/-- C82. In double precision, for a model conditioned by 10 whose scales and offsets are at most 100000 pixels, the
column and row are right to 10⁻⁷ pixel. -/
theorem C82_double (imp : RpcImpl) (r : Rpc K) (q : RatCoefs K) (lon lat alt col row : K)
    (hc : GroundConditioned 10 r q lon lat alt) (s1 : |r.scCol| ≤ 100000) (o1 : |r.offCol| ≤ 100000)
    (s2 : |r.scRow| ≤ 100000) (o2 : |r.offRow| ≤ 100000) (h1 : FloatCol doubleUnit imp r q lon lat alt col)
    (h2 : FloatRow doubleUnit imp r q lon lat alt row) :
    |col - imgCol r q lon lat alt| ≤ 1 / 10 ^ 7 ∧ |row - imgRow r q lon lat alt| ≤ 1 / 10 ^ 7 := by
  have hu : (0 : K) ≤ doubleUnit := by unfold doubleUnit; positivity
  have key := C82_inverse_loc hu (by unfold doubleUnit; norm_num) imp r q lon lat alt col row hc h1 h2
  have hb : ∀ s o : K, |s| ≤ 100000 → |o| ≤ 100000 →
      64 * 10 ^ 2 * (doubleUnit : K) * |s| + doubleUnit * |o| ≤ 1 / 10 ^ 7 := by
    intro s o hs ho
    have e : (doubleUnit : K) = 1 / 9007199254740992 := by unfold doubleUnit; norm_num
    rw [e]
    have : (64 * 10 ^ 2 * (1 / 9007199254740992 : K)) * |s| ≤ (64 * 10 ^ 2 * (1 / 9007199254740992)) * 100000 :=
      mul_le_mul_of_nonneg_left hs (by norm_num)
    have : (1 / 9007199254740992 : K) * |o| ≤ (1 / 9007199254740992) * 100000 :=
      mul_le_mul_of_nonneg_left ho (by norm_num)
    norm_num at *
    linarith
  exact ⟨key.1.trans (hb _ _ s1 o1), key.2.trans (hb _ _ s2 o2)⟩

/-- C82. Two floating point evaluations of the image of a ground point — by the Python and the C++ implementation, or by
one of them compiled or called in two ways — agree to twice the bound. -/
theorem C82_implementations_agree {u κ : K} (hu : 0 ≤ u) (hκ : u * κ ≤ 1 / 4096) (imp imp' : RpcImpl) (r : Rpc K)
    (q : RatCoefs K) (lon lat alt col row col' row' : K) (hc : GroundConditioned κ r q lon lat alt)
    (h1 : FloatCol u imp r q lon lat alt col) (h2 : FloatRow u imp r q lon lat alt row)
    (h1' : FloatCol u imp' r q lon lat alt col') (h2' : FloatRow u imp' r q lon lat alt row') :
    |col - col'| ≤ 2 * (64 * κ ^ 2 * u * |r.scCol| + u * |r.offCol|) ∧
    |row - row'| ≤ 2 * (64 * κ ^ 2 * u * |r.scRow| + u * |r.offRow|) := by
  have a := C82_inverse_loc hu hκ imp r q lon lat alt col row hc h1 h2
  have b := C82_inverse_loc hu hκ imp' r q lon lat alt col' row' hc h1' h2'
  constructor
  · have := abs_sub_le col (imgCol r q lon lat alt) col'
    have := abs_sub_comm (imgCol r q lon lat alt) col'
    linarith [a.1, b.1]
  · have := abs_sub_le row (imgRow r q lon lat alt) row'
    have := abs_sub_comm (imgRow r q lon lat alt) row'
    linarith [a.2, b.2]

theorem rounds_zero {x v : K} (h : Rounds 0 x v) : v = x := by
  unfold Rounds at h
  rw [zero_mul] at h
  linarith [abs_nonpos_iff.mp h]

/-- C82. Without rounding, every order of evaluation gives the position of the exact model of `inverse_loc`: both models
describe the same function. -/
theorem C82_exact_without_rounding (imp : RpcImpl) (r : Rpc K) (q : RatCoefs K) (lon lat alt col row : K)
    (hv : ValidLonLat lon lat) (hd : RatDefined r q lon lat alt)
    (h1 : FloatCol 0 imp r q lon lat alt col) (h2 : FloatRow 0 imp r q lon lat alt row) :
    invPointPy r q ⟨some lon, some lat, some alt⟩ = ⟨some row, some col, some alt⟩ := by
  have hn : ∀ {t off sc v : K}, FloatNorm 0 t off sc v → v = (t - off) / sc := by
    rintro t off sc v ⟨d, h, h'⟩
    rw [rounds_zero h', rounds_zero h]
  have hp : ∀ {c : Coef K} {x y z v : K}, FloatPoly 0 imp c x y z v → v = rpcPoly c x y z := by
    rintro c x y z v ⟨e, he, h⟩
    rw [h.exact, ← he.val_eq, RpcImpl.src_val]
  have ho : ∀ {num den : Coef K} {x y z sc off v : K}, FloatRatOut 0 imp num den x y z sc off v →
      v = rpcPoly num x y z / rpcPoly den x y z * sc + off := by
    rintro num den x y z sc off v ⟨n, d, p, ha, hb, hs, h⟩
    have h3 := hs.approx le_rfl
    rw [add_zero, one_pow, sub_self, zero_mul] at h3
    rw [rounds_zero h, ← hp ha, ← hp hb]
    linarith [abs_nonpos_iff.mp h3]
  obtain ⟨x, y, z, hx, hy, hz, h⟩ := h1
  obtain ⟨x', y', z', hx', hy', hz', h'⟩ := h2
  rw [hn hx, hn hy, hn hz] at h
  rw [hn hx', hn hy', hn hz'] at h'
  rw [invPointPy_valid r q hv hd, ho h, ho h']
  rfl

/-! ### C83 -/

theorem FloatLoop.residual {u eps : K} {imp : RpcImpl} {r : Rpc K} {q : RatCoefs K} {row col alt : K} {n m : ℕ}
    {s t : FloatNewton K} (h : FloatLoop u eps imp r q row col alt n s t m)
    (hs : FloatResidual u imp r q row col alt s) : FloatResidual u imp r q row col alt t := by
  induction h with
  | stop _ _ => exact hs
  | exhausted => exact hs
  | turn _ h1 _ ih => exact ih h1

theorem FloatLoop.stopped {u eps : K} {imp : RpcImpl} {r : Rpc K} {q : RatCoefs K} {row col alt : K} {n m : ℕ}
    {s t : FloatNewton K} (h : FloatLoop u eps imp r q row col alt n s t m) (hm : 0 < m) :
    |t.dcol| ≤ eps ∧ |t.drow| ≤ eps := by
  induction h with
  | stop h1 h2 => exact ⟨h1, h2⟩
  | exhausted => exact absurd hm (lt_irrefl 0)
  | turn _ _ _ ih => exact ih hm

theorem rounds_sub_le {u a b v e : K} (hu1 : u < 1) (h : Rounds u (a - b) v) (hv : |v| ≤ e) :
    |a - b| ≤ e / (1 - u) := by
  unfold Rounds at h
  rw [le_div_iff₀ (by linarith)]
  have := abs_sub_abs_le_abs_sub (a - b) v
  rw [abs_sub_comm (a - b) v] at this
  nlinarith

/-- C83. When the floating point iteration stops before the last turn, whatever moves it made (right or wrong
derivatives, any rounding), the *exact* image of the ground point it returns is within `eps / (1 - u)` plus the rounding
bound of the requested pixel. -/
theorem C83_certificate {u κ eps : K} (hu : 0 ≤ u) (hκ : u * κ ≤ 1 / 4096) (imp : RpcImpl) (r : Rpc K) (q : RatCoefs K)
    (row col alt : K) (n m : ℕ) (s t : FloatNewton K) (hs : FloatResidual u imp r q row col alt s)
    (h : FloatLoop u eps imp r q row col alt n s t m) (hm : 0 < m)
    (hc : GroundConditioned κ r q t.lon t.lat alt) :
    |imgCol r q t.lon t.lat alt - col| ≤ eps / (1 - u) + (64 * κ ^ 2 * u * |r.scCol| + u * |r.offCol|) ∧
    |imgRow r q t.lon t.lat alt - row| ≤ eps / (1 - u) + (64 * κ ^ 2 * u * |r.scRow| + u * |r.offRow|) := by
  have hu1 : u < 1 := by
    have := hc.1.one_le
    nlinarith
  obtain ⟨c, w, hcol, hrow, hdc, hdr⟩ := h.residual hs
  obtain ⟨hc1, hr1⟩ := h.stopped hm
  have key := C82_inverse_loc hu hκ imp r q t.lon t.lat alt c w hc hcol hrow
  have e1 := rounds_sub_le hu1 hdc hc1
  have e2 := rounds_sub_le hu1 hdr hr1
  constructor
  · have := abs_sub_le (imgCol r q t.lon t.lat alt) c col
    rw [abs_sub_comm _ c, abs_sub_comm c col] at this
    linarith [key.1]
  · have := abs_sub_le (imgRow r q t.lon t.lat alt) w row
    rw [abs_sub_comm _ w, abs_sub_comm w row] at this
    linarith [key.2]

/-- C83. In double precision with the threshold of the code (a double within one rounding of 10⁻⁶): for a model
conditioned by 10 with scales and offsets of at most 100000 pixels, a ground point returned before the last turn is
located back — by either implementation — within 1.3·10⁻⁶ pixel of the requested pixel. -/
theorem C83_round_trip_double (imp imp' : RpcImpl) (r : Rpc K) (q : RatCoefs K) (row col alt eps : K) (n m : ℕ)
    (s t : FloatNewton K) (heps : Rounds doubleUnit newtonEps eps) (hs : FloatResidual doubleUnit imp r q row col alt s)
    (h : FloatLoop doubleUnit eps imp r q row col alt n s t m) (hm : 0 < m)
    (hc : GroundConditioned 10 r q t.lon t.lat alt) (s1 : |r.scCol| ≤ 100000) (o1 : |r.offCol| ≤ 100000)
    (s2 : |r.scRow| ≤ 100000) (o2 : |r.offRow| ≤ 100000) (col' row' : K)
    (h1 : FloatCol doubleUnit imp' r q t.lon t.lat alt col') (h2 : FloatRow doubleUnit imp' r q t.lon t.lat alt row') :
    |col' - col| ≤ 13 / 10 ^ 7 ∧ |row' - row| ≤ 13 / 10 ^ 7 := by
  have e : (doubleUnit : K) = 1 / 9007199254740992 := by unfold doubleUnit; norm_num
  obtain ⟨c, w, hcol, hrow, hdc, hdr⟩ := h.residual hs
  obtain ⟨hc1, hr1⟩ := h.stopped hm
  have k1 := C82_double imp r q t.lon t.lat alt c w hc s1 o1 s2 o2 hcol hrow
  have k2 := C82_double imp' r q t.lon t.lat alt col' row' hc s1 o1 s2 o2 h1 h2
  have e1 := rounds_sub_le (by rw [e]; norm_num) hdc hc1
  have e2 := rounds_sub_le (by rw [e]; norm_num) hdr hr1
  have he : eps / (1 - doubleUnit) ≤ 11 / 10 ^ 7 := by
    unfold Rounds newtonEps at heps
    have h3 := le_of_abs_le heps
    rw [abs_of_pos (by norm_num), e] at h3
    rw [e, div_le_iff₀ (by norm_num)]
    norm_num at *
    linarith
  have tri : ∀ a b c d : K, |a - d| ≤ |a - b| + (|c - b| + |d - c|) := by
    intro a b c d
    have := abs_sub_le a b d
    have := abs_sub_le b c d
    rw [abs_sub_comm b c, abs_sub_comm c d] at this
    linarith
  norm_num at *
  constructor
  · have := tri col' (imgCol r q t.lon t.lat alt) c col
    linarith [k1.1, k2.1]
  · have := tri row' (imgRow r q t.lon t.lat alt) w row
    linarith [k1.2, k2.2]

/-! ### The hypotheses are met -/

/-- Rounding to 53 bits has a relative error of at most `2⁻⁵³`. -/
theorem rnd53_rounds [FloorRing K] (x : K) : Rounds doubleUnit x (rnd53 x) := by
  unfold Rounds rnd53 doubleUnit
  by_cases hx : x = 0
  · simp [hx]
  · rw [if_neg hx]
    simp only
    have hx' := abs_pos.mpr hx
    have hlog : ((2 : ℕ) : K) ^ Int.log 2 |x| ≤ |x| := Int.zpow_log_le_self (by norm_num) hx'
    push_cast at hlog
    have hulp : (2 : K) ^ (Int.log 2 |x| - 52) = 2 ^ Int.log 2 |x| / 2 ^ 52 := by
      rw [zpow_sub₀ (by norm_num)]; norm_cast
    have hpos : (0 : K) < 2 ^ (Int.log 2 |x| - 52) := by positivity
    generalize hg : (2 : K) ^ (Int.log 2 |x| - 52) = ulp at *
    have h1 : (round (x / ulp) : K) * ulp - x = ((round (x / ulp) : K) - x / ulp) * ulp := by field_simp
    have h2 := abs_sub_round (x / ulp)
    rw [h1, abs_mul, abs_sub_comm, abs_of_pos hpos]
    calc |x / ulp - round (x / ulp)| * ulp ≤ 1 / 2 * ulp := mul_le_mul_of_nonneg_right h2 hpos.le
      _ = 1 / 2 * (2 ^ Int.log 2 |x| / 2 ^ 52) := by rw [hulp]
      _ ≤ 1 / 2 * (|x| / 2 ^ 52) := by gcongr
      _ = 1 / 2 ^ 53 * |x| := by ring

/-- Evaluation in the order written, with a rounding function. -/
def FExpr.run {ι : Type*} (rnd : K → K) (env : ι → K) : FExpr ι → K
  | .var i => env i
  | .lit n => (n : K)
  | .neg a => -a.run rnd env
  | .add a b => rnd (a.run rnd env + b.run rnd env)
  | .mul a b => rnd (a.run rnd env * b.run rnd env)

theorem FExpr.run_computes {ι : Type*} {u : K} {rnd : K → K} (h : ∀ x, Rounds u x (rnd x)) (env : ι → K) (e : FExpr ι) :
    e.Computes u env (e.run rnd env) := by
  induction e with
  | var i => exact .var i
  | lit n => exact .lit n
  | neg a ha => exact .neg ha
  | add a b ha hb => exact .add ha hb (h _)
  | mul a b ha hb => exact .mul ha hb (h _)

/-- One coordinate in the order written, with a rounding function. -/
def runRatOut (rnd : K → K) (imp : RpcImpl) (num den : Coef K) (x y z sc off : K) : K :=
  rnd (rnd (rnd (imp.src.run rnd (polyEnv num x y z) / imp.src.run rnd (polyEnv den x y z)) * sc) + off)

theorem runRatOut_float {u : K} {rnd : K → K} (h : ∀ x, Rounds u x (rnd x)) (imp : RpcImpl) (num den : Coef K)
    (x y z sc off : K) : FloatRatOut u imp num den x y z sc off (runRatOut rnd imp num den x y z sc off) :=
  ⟨_, _, _, ⟨_, .refl _, FExpr.run_computes h _ _⟩, ⟨_, .refl _, FExpr.run_computes h _ _⟩, .divMul (h _) (h _), h _⟩

/-- The column of a ground point in the order written, with a rounding function. -/
def runCol (rnd : K → K) (imp : RpcImpl) (r : Rpc K) (q : RatCoefs K) (lon lat alt : K) : K :=
  runRatOut rnd imp q.numA q.denA (rnd (rnd (lon - r.offX) / r.scX)) (rnd (rnd (lat - r.offY) / r.scY))
    (rnd (rnd (alt - r.offAlt) / r.scAlt)) r.scCol r.offCol

/-- The row of a ground point in the order written, with a rounding function. -/
def runRow (rnd : K → K) (imp : RpcImpl) (r : Rpc K) (q : RatCoefs K) (lon lat alt : K) : K :=
  runRatOut rnd imp q.numB q.denB (rnd (rnd (lon - r.offX) / r.scX)) (rnd (rnd (lat - r.offY) / r.scY))
    (rnd (rnd (alt - r.offAlt) / r.scAlt)) r.scRow r.offRow

theorem runCol_float {u : K} {rnd : K → K} (h : ∀ x, Rounds u x (rnd x)) (imp : RpcImpl) (r : Rpc K) (q : RatCoefs K)
    (lon lat alt : K) : FloatCol u imp r q lon lat alt (runCol rnd imp r q lon lat alt) :=
  ⟨_, _, _, ⟨_, h _, h _⟩, ⟨_, h _, h _⟩, ⟨_, h _, h _⟩, runRatOut_float h imp _ _ _ _ _ _ _⟩

theorem runRow_float {u : K} {rnd : K → K} (h : ∀ x, Rounds u x (rnd x)) (imp : RpcImpl) (r : Rpc K) (q : RatCoefs K)
    (lon lat alt : K) : FloatRow u imp r q lon lat alt (runRow rnd imp r q lon lat alt) :=
  ⟨_, _, _, ⟨_, h _, h _⟩, ⟨_, h _, h _⟩, ⟨_, h _, h _⟩, runRatOut_float h imp _ _ _ _ _ _ _⟩

theorem curved_conditioned : GroundConditioned (10 : ℚ) demoRpc curvedCoefs (103 / 10) (201 / 10) 130 := by
  constructor <;> constructor <;> simp only [← polyPy_eq] <;> decide +kernel

/-- The rounding of doubles, and a model with curvature: the column computed is not the exact one, and C82 applies. -/
example : runCol rnd53 .python demoRpc curvedCoefs (103 / 10) (201 / 10) 130 ≠
    imgCol demoRpc curvedCoefs (103 / 10) (201 / 10) 130 := by
  simp only [imgCol, ← polyPy_eq]
  decide +kernel

example : |runCol rnd53 .python demoRpc curvedCoefs (103 / 10) (201 / 10) 130 -
    imgCol demoRpc curvedCoefs (103 / 10) (201 / 10) 130| ≤ 1 / 10 ^ 7 :=
  (C82_double .python demoRpc curvedCoefs (103 / 10) (201 / 10) 130 _ _ curved_conditioned (by decide +kernel)
    (by decide +kernel) (by decide +kernel) (by decide +kernel) (runCol_float rnd53_rounds _ _ _ _ _ _)
    (runRow_float rnd53_rounds _ _ _ _ _ _)).1

/-- A pixel for which the point above is the answer: the loop stops at once. -/
example : ∃ (s t : FloatNewton ℚ) (m : ℕ), FloatResidual doubleUnit .cpp demoRpc curvedCoefs
      (runRow rnd53 .cpp demoRpc curvedCoefs (103 / 10) (201 / 10) 130)
      (runCol rnd53 .cpp demoRpc curvedCoefs (103 / 10) (201 / 10) 130) 130 s ∧
    FloatLoop doubleUnit newtonEps .cpp demoRpc curvedCoefs
      (runRow rnd53 .cpp demoRpc curvedCoefs (103 / 10) (201 / 10) 130)
      (runCol rnd53 .cpp demoRpc curvedCoefs (103 / 10) (201 / 10) 130) 130 10 s t m ∧ 0 < m ∧
      GroundConditioned 10 demoRpc curvedCoefs t.lon t.lat 130 ∧ s.lon ≠ t.lon := by
  refine ⟨⟨10, 20, rnd53 (runCol rnd53 .cpp demoRpc curvedCoefs (103 / 10) (201 / 10) 130 -
      runCol rnd53 .cpp demoRpc curvedCoefs 10 20 130), rnd53 (runRow rnd53 .cpp demoRpc curvedCoefs (103 / 10) (201 / 10) 130 -
      runRow rnd53 .cpp demoRpc curvedCoefs 10 20 130)⟩, ⟨103 / 10, 201 / 10, 0, 0⟩, 9, ?_, ?_, by norm_num, curved_conditioned,
      by norm_num⟩
  · exact ⟨_, _, runCol_float rnd53_rounds _ _ _ _ _ _, runRow_float rnd53_rounds _ _ _ _ _ _, rnd53_rounds _, rnd53_rounds _⟩
  · refine .turn (s' := ⟨103 / 10, 201 / 10, 0, 0⟩) (Or.inl ?_) ?_ (.stop (by decide +kernel) (by decide +kernel))
    · decide +kernel
    · refine ⟨_, _, runCol_float rnd53_rounds _ _ _ _ _ _, runRow_float rnd53_rounds _ _ _ _ _ _, ?_, ?_⟩ <;> simp [Rounds]

end Shareloc
