import Verif.Spec.Rpc00b

/-!
Floating point evaluation of the rational functions.  The other models of this project compute with exact numbers; this
one keeps the rounding of every operation, and the freedom the compilers have in ordering them.

`polynomial_equation` and the loop that calls it are compiled by numba with `fastmath=True` (rpc.py:626, 669-674): the
compiler may reassociate, commute, factor and expand the sums and products, fuse a product with a sum, and replace a
division by a product with a reciprocal.  The C++ functions (rpc.cpp:621-788) are compiled at `-O3`, where a product may
be fused with a sum.  The evaluation is therefore a *relation*: every order reached by those rewritings, every operation
rounded with a relative error of at most `u` (`2⁻⁵³` for doubles), an exact intermediate result being allowed (fused
operations).  Overflow, underflow and NaN inputs are not part of this model.
-/

namespace Shareloc
variable {K : Type*} [Field K] [LinearOrder K] [IsStrictOrderedRing K]

/-- IEEE 754 rounding of the result `x` of one operation of rpc.py:644-665 (no overflow or underflow): any `v` within a
relative distance `u`.  The exact result is allowed, hence fused operations are. -/
def Rounds (u x v : K) : Prop := |v - x| ≤ u * |x|

/-- Sums and products of the source of a function (rpc.py:644-665, rpc.cpp:734-788), as written: variables, integer
literals, `+`, `*`; `a - b` is `a + (-b)`. -/
inductive FExpr (ι : Type*) where
  | var (i : ι)
  | lit (n : ℕ)
  | neg (a : FExpr ι)
  | add (a b : FExpr ι)
  | mul (a b : FExpr ι)

namespace FExpr
variable {ι : Type*}

/-- Exact value of an expression such as rpc.py:644-665. -/
def val (env : ι → K) : FExpr ι → K
  | var i => env i
  | lit n => (n : K)
  | neg a => -val env a
  | add a b => val env a + val env b
  | mul a b => val env a * val env b

/-- Floating point values of an expression such as rpc.py:644-665: each operation rounds, except the
change of sign. -/
inductive Computes (u : K) (env : ι → K) : FExpr ι → K → Prop
  | var (i : ι) : Computes u env (.var i) (env i)
  | lit (n : ℕ) : Computes u env (.lit n) (n : K)
  | neg {a : FExpr ι} {x : K} : Computes u env a x → Computes u env (.neg a) (-x)
  | add {a b : FExpr ι} {x y v : K} : Computes u env a x → Computes u env b y → Rounds u (x + y) v →
      Computes u env (.add a b) v
  | mul {a b : FExpr ι} {x y v : K} : Computes u env a x → Computes u env b y → Rounds u (x * y) v →
      Computes u env (.mul a b) v

/-- The orders of evaluation a compiler may choose under `fastmath=True` (rpc.py:626, 673, flags `reassoc` and
`contract` of LLVM): commute, reassociate, expand and factor, anywhere in the expression. -/
inductive Rewrite : FExpr ι → FExpr ι → Prop
  | refl (a : FExpr ι) : Rewrite a a
  | symm {a b : FExpr ι} : Rewrite a b → Rewrite b a
  | trans {a b c : FExpr ι} : Rewrite a b → Rewrite b c → Rewrite a c
  | neg {a a' : FExpr ι} : Rewrite a a' → Rewrite (.neg a) (.neg a')
  | add {a a' b b' : FExpr ι} : Rewrite a a' → Rewrite b b' → Rewrite (.add a b) (.add a' b')
  | mul {a a' b b' : FExpr ι} : Rewrite a a' → Rewrite b b' → Rewrite (.mul a b) (.mul a' b')
  | addComm (a b : FExpr ι) : Rewrite (.add a b) (.add b a)
  | addAssoc (a b c : FExpr ι) : Rewrite (.add (.add a b) c) (.add a (.add b c))
  | mulComm (a b : FExpr ι) : Rewrite (.mul a b) (.mul b a)
  | mulAssoc (a b c : FExpr ι) : Rewrite (.mul (.mul a b) c) (.mul a (.mul b c))
  | distrib (a b c : FExpr ι) : Rewrite (.mul a (.add b c)) (.add (.mul a b) (.mul a c))
  | negAdd (a b : FExpr ι) : Rewrite (.neg (.add a b)) (.add (.neg a) (.neg b))
  | negMul (a b : FExpr ι) : Rewrite (.mul (.neg a) b) (.neg (.mul a b))

instance : Add (FExpr ι) := ⟨.add⟩
instance : Mul (FExpr ι) := ⟨.mul⟩
instance : Sub (FExpr ι) := ⟨fun a b => .add a (.neg b)⟩

end FExpr

/-- The arguments of `polynomial_equation` (rpc.py:627): the coefficients and the three normalised coordinates. -/
inductive PolyVar
  | coeff (i : Fin 20)
  | x
  | y
  | z

/-- The values of the arguments (rpc.py:627). -/
def polyEnv (c : Coef K) (x y z : K) : PolyVar → K
  | .coeff i => c i
  | .x => x
  | .y => y
  | .z => z

/-- The expression of `polynomial_equation` (rpc.py:644-665) as written; `t**2` is `t*t` and `t**3` is `t*t*t` (numba
expands literal powers). -/
def polySrcPy : FExpr PolyVar :=
  let c (i : Fin 20) : FExpr PolyVar := .var (.coeff i)
  let x : FExpr PolyVar := .var .x
  let y : FExpr PolyVar := .var .y
  let z : FExpr PolyVar := .var .z
  c 0 + c 1 * x + c 2 * y + c 3 * z + c 4 * x * y + c 5 * x * z + c 6 * y * z
    + c 7 * (x * x) + c 8 * (y * y) + c 9 * (z * z) + c 10 * x * y * z + c 11 * (x * x * x)
    + c 12 * x * (y * y) + c 13 * x * (z * z) + c 14 * (x * x) * y + c 15 * (y * y * y)
    + c 16 * y * (z * z) + c 17 * (x * x) * z + c 18 * (y * y) * z + c 19 * (z * z * z)

/-- The expression computed by `pre_polynomial_equation` followed by `polynomial_equation` in C++ (rpc.cpp:734-788). -/
def polySrcCpp : FExpr PolyVar :=
  let c (i : Fin 20) : FExpr PolyVar := .var (.coeff i)
  let x : FExpr PolyVar := .var .x
  let y : FExpr PolyVar := .var .y
  let z : FExpr PolyVar := .var .z
  .lit 1 * c 0 + x * c 1 + y * c 2 + z * c 3 + x * y * c 4 + x * z * c 5 + y * z * c 6 + x * x * c 7
    + y * y * c 8 + z * z * c 9 + x * y * z * c 10 + x * x * x * c 11 + x * y * y * c 12 + x * z * z * c 13
    + x * x * y * c 14 + y * y * y * c 15 + y * z * z * c 16 + x * x * z * c 17 + y * y * z * c 18 + z * z * z * c 19

/-- Which of the two implementations is compiled (rpc.py:626 or rpc.cpp:763). -/
inductive RpcImpl
  | python
  | cpp

/-- The source expression of the polynomial in each implementation (rpc.py:644-665, rpc.cpp:734-788). -/
def RpcImpl.src : RpcImpl → FExpr PolyVar
  | .python => polySrcPy
  | .cpp => polySrcCpp

/-- Floating point values of a polynomial (rpc.py:723-726, rpc.cpp:625-631): any order of evaluation of the source. -/
def FloatPoly (u : K) (imp : RpcImpl) (c : Coef K) (x y z v : K) : Prop :=
  ∃ e, imp.src.Rewrite e ∧ e.Computes u (polyEnv c x y z) v

/-- Floating point values of `n / d * s` (rpc.py:727-728, rpc.cpp:633-634): under `fastmath` (flags `arcp`, `reassoc`)
the product may come first, and the division may become a product with the reciprocal. -/
inductive ScaledQuotient (u n d s : K) : K → Prop
  | divMul {q p : K} : Rounds u (n / d) q → Rounds u (q * s) p → ScaledQuotient u n d s p
  | mulDiv {m p : K} : Rounds u (n * s) m → Rounds u (m / d) p → ScaledQuotient u n d s p
  | scaleDiv {m p : K} : Rounds u (s / d) m → Rounds u (n * m) p → ScaledQuotient u n d s p
  | recipMul {i q p : K} : Rounds u (1 / d) i → Rounds u (n * i) q → Rounds u (q * s) p → ScaledQuotient u n d s p
  | mulRecip {i m p : K} : Rounds u (1 / d) i → Rounds u (n * s) m → Rounds u (m * i) p → ScaledQuotient u n d s p
  | scaleRecip {i m p : K} : Rounds u (1 / d) i → Rounds u (s * i) m → Rounds u (n * m) p → ScaledQuotient u n d s p

/-- Floating point values of one output coordinate (rpc.py:723-728, rpc.cpp:621-634) at normalised coordinates. -/
def FloatRatOut (u : K) (imp : RpcImpl) (num den : Coef K) (x y z sc off v : K) : Prop :=
  ∃ n d p, FloatPoly u imp num x y z n ∧ FloatPoly u imp den x y z d ∧ ScaledQuotient u n d sc p ∧ Rounds u (p + off) v

/-- Floating point values of `(t - off) / sc` (rpc.py:363-365, 228-230; rpc.cpp:596-612): two operations. -/
def FloatNorm (u t off sc v : K) : Prop := ∃ d, Rounds u (t - off) d ∧ Rounds u (d / sc) v

/-- Floating point columns of `inverse_loc` (rpc.py:361-387, rpc.cpp:586-640) at a ground point. -/
def FloatCol (u : K) (imp : RpcImpl) (r : Rpc K) (q : RatCoefs K) (lon lat alt v : K) : Prop :=
  ∃ x y z, FloatNorm u lon r.offX r.scX x ∧ FloatNorm u lat r.offY r.scY y ∧ FloatNorm u alt r.offAlt r.scAlt z ∧
    FloatRatOut u imp q.numA q.denA x y z r.scCol r.offCol v

/-- Floating point rows of `inverse_loc` (rpc.py:361-387, rpc.cpp:586-640) at a ground point. -/
def FloatRow (u : K) (imp : RpcImpl) (r : Rpc K) (q : RatCoefs K) (lon lat alt v : K) : Prop :=
  ∃ x y z, FloatNorm u lon r.offX r.scX x ∧ FloatNorm u lat r.offY r.scY y ∧ FloatNorm u alt r.offAlt r.scAlt z ∧
    FloatRatOut u imp q.numB q.denB x y z r.scRow r.offRow v

/-- Floating point longitudes of `direct_loc_h` with direct coefficients (rpc.py:228-258, rpc.cpp:586-640). -/
def FloatLon (u : K) (imp : RpcImpl) (r : Rpc K) (q : RatCoefs K) (row col alt v : K) : Prop :=
  ∃ x y z, FloatNorm u col r.offCol r.scCol x ∧ FloatNorm u row r.offRow r.scRow y ∧ FloatNorm u alt r.offAlt r.scAlt z ∧
    FloatRatOut u imp q.numA q.denA x y z r.scX r.offX v

/-- Floating point latitudes of `direct_loc_h` with direct coefficients (rpc.py:228-258, rpc.cpp:586-640). -/
def FloatLat (u : K) (imp : RpcImpl) (r : Rpc K) (q : RatCoefs K) (row col alt v : K) : Prop :=
  ∃ x y z, FloatNorm u col r.offCol r.scCol x ∧ FloatNorm u row r.offRow r.scRow y ∧ FloatNorm u alt r.offAlt r.scAlt z ∧
    FloatRatOut u imp q.numB q.denB x y z r.scY r.offY v

/-- One point of the iterative location in floating point: the current longitude and latitude and the two residuals
(rpc.py:512-517, rpc.cpp:386-390). -/
structure FloatNewton (K : Type*) where
  lon : K
  lat : K
  dcol : K
  drow : K

/-- The residuals are those computed at the current point (rpc.py:512-518, 540-543; rpc.cpp:386-390, 411-420): a
floating point inverse location, subtracted from the requested column and row. -/
def FloatResidual (u : K) (imp : RpcImpl) (r : Rpc K) (q : RatCoefs K) (row col alt : K) (s : FloatNewton K) : Prop :=
  ∃ c w, FloatCol u imp r q s.lon s.lat alt c ∧ FloatRow u imp r q s.lon s.lat alt w ∧
    Rounds u (col - c) s.dcol ∧ Rounds u (row - w) s.drow

/-- The iteration for one point (rpc.py:520-545, rpc.cpp:393-423) in floating point with the threshold `eps`: while a
residual exceeds the threshold and turns remain, the point moves — by any amount: nothing is assumed of the
derivatives — and the residuals are computed again.  `turns` is the number of turns that remain. -/
inductive FloatLoop (u eps : K) (imp : RpcImpl) (r : Rpc K) (q : RatCoefs K) (row col alt : K) :
    ℕ → FloatNewton K → FloatNewton K → ℕ → Prop
  | stop {n : ℕ} {s : FloatNewton K} : |s.dcol| ≤ eps → |s.drow| ≤ eps → FloatLoop u eps imp r q row col alt n s s n
  | exhausted {s : FloatNewton K} : FloatLoop u eps imp r q row col alt 0 s s 0
  | turn {n m : ℕ} {s s' t : FloatNewton K} : (eps < |s.dcol| ∨ eps < |s.drow|) →
      FloatResidual u imp r q row col alt s' → FloatLoop u eps imp r q row col alt n s' t m →
      FloatLoop u eps imp r q row col alt (n + 1) s t m

end Shareloc
