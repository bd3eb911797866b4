import Verif.Model.Float
import Mathlib.Tactic.Ring
import Mathlib.Tactic.Linarith
import Mathlib.Tactic.NormNum
import Mathlib.Tactic.FieldSimp
import Mathlib.Tactic.Positivity
import Mathlib.Tactic.GCongr
import Mathlib.Algebra.Order.Ring.Pow

/-! Rounding error analysis used by `Props/Float.lean`. -/

set_option linter.unusedSectionVars false
set_option linter.unusedSimpArgs false

namespace Shareloc
variable {K : Type*} [Field K] [LinearOrder K] [IsStrictOrderedRing K]

/-- `x'` approximates `x` after `n` roundings, relatively to the magnitude `m`. -/
def Approx (u : K) (n : ℕ) (m x x' : K) : Prop := |x' - x| ≤ ((1 + u) ^ n - 1) * m ∧ |x| ≤ m

theorem one_le_pow_u {u : K} (hu : 0 ≤ u) (n : ℕ) : 1 ≤ (1 + u) ^ n := one_le_pow₀ (by linarith)

theorem Approx.nonneg {u : K} {n : ℕ} {m x x' : K} (h : Approx u n m x x') : 0 ≤ m := le_trans (abs_nonneg _) h.2

theorem Approx.refl (u : K) (x : K) : Approx u 0 |x| x x := by simp [Approx]

theorem Approx.abs_le {u : K} {n : ℕ} {m x x' : K} (h : Approx u n m x x') : |x'| ≤ (1 + u) ^ n * m := by
  have h1 := abs_sub_abs_le_abs_sub x' x
  have := h.1
  have := h.2
  nlinarith

theorem Approx.mono {u : K} (hu : 0 ≤ u) {n p : ℕ} {m m' x x' : K} (h : Approx u n m x x') (hn : n ≤ p) (hm : m ≤ m') :
    Approx u p m' x x' := by
  refine ⟨h.1.trans ?_, h.2.trans hm⟩
  have h1 : (1 + u) ^ n ≤ (1 + u) ^ p := pow_le_pow_right₀ (by linarith) hn
  have h2 := one_le_pow_u hu n
  have h3 := h.nonneg
  apply mul_le_mul (by linarith) hm h3 (by linarith)

theorem Approx.add {u : K} (hu : 0 ≤ u) {n p : ℕ} {a b x x' y y' v : K} (hx : Approx u n a x x') (hy : Approx u p b y y')
    (hv : Rounds u (x' + y') v) : Approx u (max n p + 1) (a + b) (x + y) v := by
  have hx := hx.mono hu (le_max_left n p) le_rfl
  have hy := hy.mono hu (le_max_right n p) le_rfl
  generalize max n p = k at *
  refine ⟨?_, (abs_add_le _ _).trans (add_le_add hx.2 hy.2)⟩
  have e1 : v - (x + y) = (v - (x' + y')) + ((x' - x) + (y' - y)) := by ring
  have h1 := abs_add_le (v - (x' + y')) ((x' - x) + (y' - y))
  have h2 := abs_add_le (x' - x) (y' - y)
  have h3 := abs_add_le x' y'
  have h4 := hx.abs_le
  have h5 := hy.abs_le
  have h6 := hx.1
  have h7 := hy.1
  unfold Rounds at hv
  have h8 : u * |x' + y'| ≤ u * ((1 + u) ^ k * a + (1 + u) ^ k * b) :=
    mul_le_mul_of_nonneg_left (by linarith) hu
  rw [e1, pow_succ]
  nlinarith

theorem Approx.mul {u : K} (hu : 0 ≤ u) {n p : ℕ} {a b x x' y y' v : K} (hx : Approx u n a x x') (hy : Approx u p b y y')
    (hv : Rounds u (x' * y') v) : Approx u (n + p + 1) (a * b) (x * y) v := by
  have ha := hx.nonneg
  have hb := hy.nonneg
  refine ⟨?_, by rw [abs_mul]; exact mul_le_mul hx.2 hy.2 (abs_nonneg _) ha⟩
  have e1 : v - x * y = (v - x' * y') + ((x' - x) * y' + x * (y' - y)) := by ring
  have h1 := abs_add_le (v - x' * y') ((x' - x) * y' + x * (y' - y))
  have h2 := abs_add_le ((x' - x) * y') (x * (y' - y))
  rw [abs_mul, abs_mul] at h2
  have h4 := hx.abs_le
  have h5 := hy.abs_le
  have h6 := hx.1
  have h7 := hy.1
  unfold Rounds at hv
  rw [abs_mul] at hv
  have n1 := one_le_pow_u hu n
  have n2 := one_le_pow_u hu p
  have A : |x' - x| * |y'| ≤ (((1 + u) ^ n - 1) * a) * ((1 + u) ^ p * b) :=
    mul_le_mul h6 h5 (abs_nonneg _) (mul_nonneg (by linarith) ha)
  have B : |x| * |y' - y| ≤ a * (((1 + u) ^ p - 1) * b) := mul_le_mul hx.2 h7 (abs_nonneg _) ha
  have C : u * (|x'| * |y'|) ≤ u * (((1 + u) ^ n * a) * ((1 + u) ^ p * b)) :=
    mul_le_mul_of_nonneg_left (mul_le_mul h4 h5 (abs_nonneg _) (mul_nonneg (by linarith) ha)) hu
  have e2 : ((1 + u) ^ (n + p + 1) - 1) * (a * b) = u * (((1 + u) ^ n * a) * ((1 + u) ^ p * b)) +
      ((((1 + u) ^ n - 1) * a) * ((1 + u) ^ p * b) + a * (((1 + u) ^ p - 1) * b)) := by ring
  rw [e1, e2]
  linarith

namespace FExpr
variable {ι : Type*}

/-- Magnitude: the value with absolute values everywhere. -/
def mag (env : ι → K) : FExpr ι → K
  | var i => |env i|
  | lit n => (n : K)
  | neg a => mag env a
  | add a b => mag env a + mag env b
  | mul a b => mag env a * mag env b

/-- Roundings along the worst path, `w` being those of the variables. -/
def cost (w : ι → ℕ) : FExpr ι → ℕ
  | var i => w i
  | lit _ => 0
  | neg a => cost w a
  | add a b => max (cost w a) (cost w b) + 1
  | mul a b => cost w a + cost w b + 1

/-- Weight of the heaviest monomial. -/
def weight (w : ι → ℕ) : FExpr ι → ℕ
  | var i => w i
  | lit _ => 0
  | neg a => weight w a
  | add a b => max (weight w a) (weight w b)
  | mul a b => weight w a + weight w b

/-- Number of factors of the longest monomial. -/
def deg : FExpr ι → ℕ
  | var _ => 1
  | lit _ => 1
  | neg a => deg a
  | add a b => max (deg a) (deg b)
  | mul a b => deg a + deg b

/-- Number of monomials of the expansion. -/
def terms : FExpr ι → ℕ
  | var _ => 1
  | lit _ => 1
  | neg a => terms a
  | add a b => terms a + terms b
  | mul a b => terms a * terms b

theorem deg_pos (e : FExpr ι) : 1 ≤ e.deg := by
  induction e with
  | var i => simp [deg]
  | lit n => simp [deg]
  | neg a ha => simpa [deg] using ha
  | add a b ha hb => simp only [deg]; omega
  | mul a b ha hb => simp only [deg]; omega

theorem terms_pos (e : FExpr ι) : 1 ≤ e.terms := by
  induction e with
  | var i => simp [terms]
  | lit n => simp [terms]
  | neg a ha => simpa [terms] using ha
  | add a b ha hb => simp only [terms]; omega
  | mul a b ha hb => simp only [terms]; nlinarith

theorem cost_le (w : ι → ℕ) (e : FExpr ι) : e.cost w + 2 ≤ e.weight w + e.deg + e.terms := by
  induction e with
  | var i => simp [cost, weight, deg, terms]
  | lit n => simp [cost, weight, deg, terms]
  | neg a ha => simpa [cost, weight, deg, terms] using ha
  | add a b ha hb =>
    have := terms_pos a
    have := terms_pos b
    simp only [cost, weight, deg, terms]
    omega
  | mul a b ha hb =>
    have h1 := terms_pos a
    have h2 := terms_pos b
    have h3 : a.terms + b.terms ≤ a.terms * b.terms + 1 := by nlinarith
    simp only [cost, weight, deg, terms]
    omega

theorem Rewrite.val_eq {a b : FExpr ι} (h : a.Rewrite b) (env : ι → K) : a.val env = b.val env := by
  induction h with
  | refl a => rfl
  | symm _ ih => exact ih.symm
  | trans _ _ h1 h2 => exact h1.trans h2
  | neg _ h1 => simp only [val, h1]
  | add _ _ h1 h2 => simp only [val, h1, h2]
  | mul _ _ h1 h2 => simp only [val, h1, h2]
  | addComm a b => simp only [val]; ring
  | addAssoc a b c => simp only [val]; ring
  | mulComm a b => simp only [val]; ring
  | mulAssoc a b c => simp only [val]; ring
  | distrib a b c => simp only [val]; ring
  | negAdd a b => simp only [val]; ring
  | negMul a b => simp only [val]; ring

theorem Rewrite.mag_eq {a b : FExpr ι} (h : a.Rewrite b) (env : ι → K) : a.mag env = b.mag env := by
  induction h with
  | refl a => rfl
  | symm _ ih => exact ih.symm
  | trans _ _ h1 h2 => exact h1.trans h2
  | neg _ h1 => simp only [mag, h1]
  | add _ _ h1 h2 => simp only [mag, h1, h2]
  | mul _ _ h1 h2 => simp only [mag, h1, h2]
  | addComm a b => simp only [mag]; ring
  | addAssoc a b c => simp only [mag]; ring
  | mulComm a b => simp only [mag]; ring
  | mulAssoc a b c => simp only [mag]; ring
  | distrib a b c => simp only [mag]; ring
  | negAdd a b => simp only [mag]
  | negMul a b => simp only [mag]

theorem Rewrite.weight_eq {a b : FExpr ι} (h : a.Rewrite b) (w : ι → ℕ) : a.weight w = b.weight w := by
  induction h with
  | refl a => rfl
  | symm _ ih => exact ih.symm
  | trans _ _ h1 h2 => exact h1.trans h2
  | neg _ h1 => simp only [weight, h1]
  | add _ _ h1 h2 => simp only [weight, h1, h2]
  | mul _ _ h1 h2 => simp only [weight, h1, h2]
  | addComm a b => simp only [weight]; omega
  | addAssoc a b c => simp only [weight]; omega
  | mulComm a b => simp only [weight]; omega
  | mulAssoc a b c => simp only [weight]; omega
  | distrib a b c => simp only [weight]; omega
  | negAdd a b => simp only [weight]
  | negMul a b => simp only [weight]

theorem Rewrite.deg_eq {a b : FExpr ι} (h : a.Rewrite b) : a.deg = b.deg := by
  induction h with
  | refl a => rfl
  | symm _ ih => exact ih.symm
  | trans _ _ h1 h2 => exact h1.trans h2
  | neg _ h1 => simp only [deg, h1]
  | add _ _ h1 h2 => simp only [deg, h1, h2]
  | mul _ _ h1 h2 => simp only [deg, h1, h2]
  | addComm a b => simp only [deg]; omega
  | addAssoc a b c => simp only [deg]; omega
  | mulComm a b => simp only [deg]; omega
  | mulAssoc a b c => simp only [deg]; omega
  | distrib a b c => simp only [deg]; omega
  | negAdd a b => simp only [deg]
  | negMul a b => simp only [deg]

theorem Rewrite.terms_eq {a b : FExpr ι} (h : a.Rewrite b) : a.terms = b.terms := by
  induction h with
  | refl a => rfl
  | symm _ ih => exact ih.symm
  | trans _ _ h1 h2 => exact h1.trans h2
  | neg _ h1 => simp only [terms, h1]
  | add _ _ h1 h2 => simp only [terms, h1, h2]
  | mul _ _ h1 h2 => simp only [terms, h1, h2]
  | addComm a b => simp only [terms]; ring
  | addAssoc a b c => simp only [terms]; ring
  | mulComm a b => simp only [terms]; ring
  | mulAssoc a b c => simp only [terms]; ring
  | distrib a b c => simp only [terms]; ring
  | negAdd a b => simp only [terms]
  | negMul a b => simp only [terms]

theorem Computes.approx {u : K} (hu : 0 ≤ u) {env env' : ι → K} {w : ι → ℕ}
    (henv : ∀ i, Approx u (w i) |env i| (env i) (env' i)) {e : FExpr ι} {v : K} (h : e.Computes u env' v) :
    Approx u (e.cost w) (e.mag env) (e.val env) v := by
  induction h with
  | var i => exact henv i
  | lit n =>
    have := Approx.refl u (n : K)
    rwa [abs_of_nonneg (Nat.cast_nonneg n)] at this
  | neg _ h1 =>
    obtain ⟨h1, h2⟩ := h1
    refine ⟨?_, by simpa only [val, mag, abs_neg] using h2⟩
    simp only [val, mag, cost]
    rw [neg_sub_neg, abs_sub_comm]
    exact h1
  | add _ _ hv h1 h2 => exact h1.add hu h2 hv
  | mul _ _ hv h1 h2 => exact h1.mul hu h2 hv

/-- Any order of evaluation. -/
theorem Rewrite.approx {u : K} (hu : 0 ≤ u) {env env' : ι → K} {w : ι → ℕ}
    (henv : ∀ i, Approx u (w i) |env i| (env i) (env' i)) {s e : FExpr ι} (hs : s.Rewrite e) {v : K}
    (h : e.Computes u env' v) : Approx u (s.weight w + s.deg + s.terms - 2) (s.mag env) (s.val env) v := by
  have h1 := h.approx hu henv
  rw [hs.val_eq, hs.mag_eq, hs.weight_eq, hs.deg_eq, hs.terms_eq]
  exact h1.mono hu (by have := cost_le w e; omega) le_rfl

/-- Without rounding every order gives the exact value. -/
theorem Computes.exact {env : ι → K} {e : FExpr ι} {v : K} (h : e.Computes 0 env v) : v = e.val env := by
  induction h with
  | var i => rfl
  | lit n => rfl
  | neg _ h1 => simp only [val, ← h1]
  | add _ _ hv h1 h2 =>
    unfold Rounds at hv
    rw [zero_mul] at hv
    have := abs_nonpos_iff.mp hv
    simp only [val, ← h1, ← h2]
    linarith
  | mul _ _ hv h1 h2 =>
    unfold Rounds at hv
    rw [zero_mul] at hv
    have := abs_nonpos_iff.mp hv
    simp only [val, ← h1, ← h2]
    linarith

/-- The exact value is one of the values allowed. -/
theorem Computes.of_val {u : K} (hu : 0 ≤ u) (env : ι → K) (e : FExpr ι) : e.Computes u env (e.val env) := by
  induction e with
  | var i => exact .var i
  | lit n => exact .lit n
  | neg a ha => exact .neg ha
  | add a b ha hb => exact .add ha hb (by simp only [Rounds, val, sub_self, abs_zero]; positivity)
  | mul a b ha hb => exact .mul ha hb (by simp only [Rounds, val, sub_self, abs_zero]; positivity)

end FExpr

/-- Roundings of the arguments of the polynomial. -/
def polyWeight (k : ℕ) : PolyVar → ℕ
  | .coeff _ => 0
  | _ => k

theorem Rounds.approx {u : K} {x v : K} (h : Rounds u x v) : Approx u 1 |x| x v := by
  refine ⟨?_, le_rfl⟩
  rw [pow_one, add_sub_cancel_left]
  exact h

theorem FloatNorm.approx {u : K} (hu : 0 ≤ u) {t off sc v : K} (h : FloatNorm u t off sc v) :
    Approx u 2 |(t - off) / sc| ((t - off) / sc) v := by
  obtain ⟨d, h1, h2⟩ := h
  have a1 := h1.approx
  have a2 := Approx.refl u (1 / sc)
  have h2' : Rounds u (d * (1 / sc)) v := by rwa [mul_one_div]
  have := a1.mul hu a2 h2'
  rw [← abs_mul, mul_one_div] at this
  exact this

theorem polyEnv_approx {u : K} {c : Coef K} {k : ℕ} {x y z x' y' z' : K}
    (hx : Approx u k |x| x x') (hy : Approx u k |y| y y') (hz : Approx u k |z| z z') (i : PolyVar) :
    Approx u (polyWeight k i) |polyEnv c x y z i| (polyEnv c x y z i) (polyEnv c x' y' z' i) := by
  cases i with
  | coeff i => exact Approx.refl u _
  | x => exact hx
  | y => exact hy
  | z => exact hz

theorem RpcImpl.src_weight (imp : RpcImpl) (k : ℕ) :
    imp.src.weight (polyWeight k) + imp.src.deg + imp.src.terms - 2 = 3 * k + 22 := by
  cases imp <;>
  simp only [RpcImpl.src, polySrcPy, polySrcCpp, HAdd.hAdd, HMul.hMul] <;>
  simp only [Add.add, Mul.mul, FExpr.weight, FExpr.deg, FExpr.terms, polyWeight] <;>
  simp <;> omega

theorem RpcImpl.src_val (imp : RpcImpl) (c : Coef K) (x y z : K) : imp.src.val (polyEnv c x y z) = rpcPoly c x y z := by
  cases imp <;>
  · show FExpr.val _ _ = _
    simp only [RpcImpl.src, polySrcPy, polySrcCpp, HAdd.hAdd, HMul.hMul]
    simp only [Add.add, Mul.mul, FExpr.val, polyEnv]
    simp [rpcPoly, Fin.sum_univ_succ, rpc00bOrder]
    ring

theorem RpcImpl.src_mag (imp : RpcImpl) (c : Coef K) (x y z : K) :
    imp.src.mag (polyEnv c x y z) = rpcPoly (fun i => |c i|) |x| |y| |z| := by
  rw [← RpcImpl.src_val imp]
  cases imp <;>
  · simp only [RpcImpl.src, polySrcPy, polySrcCpp, HAdd.hAdd, HMul.hMul]
    simp only [Add.add, Mul.mul, FExpr.val, FExpr.mag, polyEnv]

theorem FloatPoly.approx {u : K} (hu : 0 ≤ u) {imp : RpcImpl} {c : Coef K} {k : ℕ} {x y z x' y' z' v : K}
    (hx : Approx u k |x| x x') (hy : Approx u k |y| y y') (hz : Approx u k |z| z z')
    (h : FloatPoly u imp c x' y' z' v) :
    Approx u (3 * k + 22) (rpcPoly (fun i => |c i|) |x| |y| |z|) (rpcPoly c x y z) v := by
  obtain ⟨e, he, hv⟩ := h
  have := he.approx hu (polyEnv_approx hx hy hz) hv
  rwa [RpcImpl.src_weight, RpcImpl.src_val, RpcImpl.src_mag] at this

theorem ScaledQuotient.approx {u : K} (hu : 0 ≤ u) {n d s p : K} (h : ScaledQuotient u n d s p) :
    |p - n / d * s| ≤ ((1 + u) ^ 3 - 1) * |n / d * s| := by
  have key : Approx u 3 |n / d * s| (n / d * s) p := by
    cases h with
    | divMul h1 h2 =>
      have := h1.approx.mul hu (Approx.refl u s) h2
      rw [← abs_mul] at this
      exact this.mono hu (by norm_num) le_rfl
    | mulDiv h1 h2 =>
      rw [← mul_one_div] at h2
      have := h1.approx.mul hu (Approx.refl u (1 / d)) h2
      rw [← abs_mul] at this
      have e : n * s * (1 / d) = n / d * s := by ring
      rw [e] at this
      exact this.mono hu (by norm_num) le_rfl
    | scaleDiv h1 h2 =>
      have := (Approx.refl u n).mul hu h1.approx h2
      rw [← abs_mul] at this
      have e : n * (s / d) = n / d * s := by ring
      rw [e] at this
      exact this.mono hu (by norm_num) le_rfl
    | recipMul h1 h2 h3 =>
      have := ((Approx.refl u n).mul hu h1.approx h2).mul hu (Approx.refl u s) h3
      rw [← abs_mul, ← abs_mul] at this
      have e : n * (1 / d) * s = n / d * s := by ring
      rw [e] at this
      exact this
    | mulRecip h1 h2 h3 =>
      have := h2.approx.mul hu h1.approx h3
      rw [← abs_mul] at this
      have e : n * s * (1 / d) = n / d * s := by ring
      rw [e] at this
      exact this
    | scaleRecip h1 h2 h3 =>
      have := (Approx.refl u n).mul hu ((Approx.refl u s).mul hu h1.approx h2) h3
      rw [← abs_mul, ← abs_mul] at this
      have e : n * (s * (1 / d)) = n / d * s := by ring
      rw [e] at this
      exact this
  exact key.1

end Shareloc
