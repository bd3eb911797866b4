import Verif.Model.Affine
import Mathlib.Data.Fin.VecNotation

/-!
Model of the RPC geometric model: `shareloc/geomodels/rpc.py`, `shareloc/geomodels/rpc_optim.py`,
`shareloc/bindings/rpc.cpp` and `check_lonlat` of `shareloc/geomodels/geomodel_template.py`.

Numbers that may be non finite are `Option K`, `none` standing for NaN.  A division by zero (infinite or
NaN in floating point) gives `none` too: infinities are not distinguished from NaN.  Rounding is not
modelled.  The scale factors of a model are nonzero numbers (theorems that need it say so).
-/

namespace Shareloc
variable {K : Type*} [Field K] [LinearOrder K] [IsStrictOrderedRing K]

/-- The 20 coefficients of a polynomial. -/
abbrev Coef (K : Type*) := Fin 20 → K

/-- shareloc/geomodels/rpc.py:626-666 `polynomial_equation`. -/
def polyPy (x y z : K) (c : Coef K) : K :=
  c 0 + c 1 * x + c 2 * y + c 3 * z + c 4 * x * y + c 5 * x * z + c 6 * y * z
    + c 7 * x ^ 2 + c 8 * y ^ 2 + c 9 * z ^ 2 + c 10 * x * y * z + c 11 * x ^ 3
    + c 12 * x * y ^ 2 + c 13 * x * z ^ 2 + c 14 * x ^ 2 * y + c 15 * y ^ 3
    + c 16 * y * z ^ 2 + c 17 * x ^ 2 * z + c 18 * y ^ 2 * z + c 19 * z ^ 3

/-- shareloc/bindings/rpc.cpp:734-761 `pre_polynomial_equation`: the 20 monomials. -/
def preNorms (x y z : K) : Coef K :=
  ![1, x, y, z, x * y, x * z, y * z, x * x, y * y, z * z, x * y * z, x * x * x, x * y * y, x * z * z,
    x * x * y, y * y * y, y * z * z, x * x * z, y * y * z, z * z * z]

/-- shareloc/bindings/rpc.cpp:763-788 `polynomial_equation(norms, coeffs)`. -/
def polyCpp (n c : Coef K) : K :=
  n 0 * c 0 + n 1 * c 1 + n 2 * c 2 + n 3 * c 3 + n 4 * c 4 + n 5 * c 5 + n 6 * c 6 + n 7 * c 7
    + n 8 * c 8 + n 9 * c 9 + n 10 * c 10 + n 11 * c 11 + n 12 * c 12 + n 13 * c 13 + n 14 * c 14
    + n 15 * c 15 + n 16 * c 16 + n 17 * c 17 + n 18 * c 18 + n 19 * c 19

/-- shareloc/geomodels/rpc.py:734-763 `derivative_polynomial_latitude`. -/
def dLatPy (lon lat alt : K) (c : Coef K) : K :=
  c 2 + c 4 * lon + c 6 * alt + 2 * c 8 * lat + c 10 * lon * alt + 2 * c 12 * lon * lat
    + c 14 * lon ^ 2 + 3 * c 15 * lat ^ 2 + c 16 * alt ^ 2 + 2 * c 18 * lat * alt

/-- shareloc/geomodels/rpc.py:766-796 `derivative_polynomial_longitude`. -/
def dLonPy (lon lat alt : K) (c : Coef K) : K :=
  c 1 + c 4 * lat + c 5 * alt + 2 * c 7 * lon + c 10 * lat * alt + 3 * c 11 * lon ^ 2
    + c 12 * lat ^ 2 + c 13 * alt ^ 2 + 2 * c 14 * lat * lon + 2 * c 17 * lon * alt

/-- shareloc/bindings/rpc.cpp:790-807 `derivative_polynomial_latitude`. -/
def dLatCpp (lon lat alt : K) (c : Coef K) : K :=
  c 2 + lon * c 4 + alt * c 6 + 2 * lat * c 8 + lon * alt * c 10 + 2 * lat * lon * c 12
    + lon * lon * c 14 + lat * lat * 3 * c 15 + alt * alt * c 16 + 2 * lat * alt * c 18

/-- shareloc/bindings/rpc.cpp:809-826 `derivative_polynomial_longitude`. -/
def dLonCpp (lon lat alt : K) (c : Coef K) : K :=
  c 1 + lat * c 4 + alt * c 5 + 2 * lon * c 7 + lat * alt * c 10 + lon * lon * 3 * c 11
    + lat * lat * c 12 + alt * alt * c 13 + 2 * lon * lat * c 14 + 2 * lon * alt * c 17

/-- `self.monomes` (rpc.py:80-103): coefficient and exponents of each monomial. -/
def monomesTable : Fin 20 → ℕ × ℕ × ℕ × ℕ :=
  ![(1, 0, 0, 0), (1, 1, 0, 0), (1, 0, 1, 0), (1, 0, 0, 1), (1, 1, 1, 0), (1, 1, 0, 1), (1, 0, 1, 1),
    (1, 2, 0, 0), (1, 0, 2, 0), (1, 0, 0, 2), (1, 1, 1, 1), (1, 3, 0, 0), (1, 1, 2, 0), (1, 1, 0, 2),
    (1, 2, 1, 0), (1, 0, 3, 0), (1, 0, 1, 2), (1, 2, 0, 1), (1, 0, 2, 1), (1, 0, 0, 3)]

/-- `self.monomes_deriv_1` (rpc.py:106-129). -/
def monomesDeriv1 : Fin 20 → ℕ × ℕ × ℕ × ℕ :=
  ![(0, 0, 0, 0), (1, 0, 0, 0), (0, 0, 1, 0), (0, 0, 0, 1), (1, 0, 1, 0), (1, 0, 0, 1), (0, 0, 1, 1),
    (2, 1, 0, 0), (0, 0, 2, 0), (0, 0, 0, 2), (1, 0, 1, 1), (3, 2, 0, 0), (1, 0, 2, 0), (1, 0, 0, 2),
    (2, 1, 1, 0), (0, 0, 3, 0), (0, 0, 1, 2), (2, 1, 0, 1), (0, 0, 2, 1), (0, 0, 0, 3)]

/-- `self.monomes_deriv_2` (rpc.py:132-155). -/
def monomesDeriv2 : Fin 20 → ℕ × ℕ × ℕ × ℕ :=
  ![(0, 0, 0, 0), (0, 1, 0, 0), (1, 0, 0, 0), (0, 0, 0, 1), (1, 1, 0, 0), (0, 1, 0, 1), (1, 0, 0, 1),
    (0, 2, 0, 0), (2, 0, 1, 0), (0, 0, 0, 2), (1, 1, 0, 1), (0, 3, 0, 0), (2, 1, 1, 0), (0, 1, 0, 2),
    (1, 2, 0, 0), (3, 0, 2, 0), (1, 0, 0, 2), (0, 2, 0, 1), (2, 0, 1, 1), (0, 0, 0, 3)]

/-- Numerators and denominators of the two coordinates of a rational model.  For the inverse model:
`num_col, den_col, num_row, den_row`; for the direct model: `num_x, den_x, num_y, den_y`. -/
structure RatCoefs (K : Type*) where
  numA : Coef K
  denA : Coef K
  numB : Coef K
  denB : Coef K

/-- An RPC model (rpc.py:53-180; rpc.cpp:30-77 `RPC::RPC`): optional coefficients and normalisation. -/
structure Rpc (K : Type*) where
  inverse : Option (RatCoefs K)
  direct : Option (RatCoefs K)
  offX : K
  scX : K
  offY : K
  scY : K
  offAlt : K
  scAlt : K
  offCol : K
  scCol : K
  offRow : K
  scRow : K

/-- Floating point quotient (rpc.py:727-728, rpc.cpp:633-634), `none` for a zero denominator: the infinity, NaN or
`ZeroDivisionError` numba may give is not distinguished. -/
def fdiv (a b : K) : Option K := if b = 0 then none else some (a / b)

/-- The result of a division followed by an affine rescaling (rpc.py:727-728). -/
def ratOut (num den sc off : K) : Option K := (fdiv num den).map fun q => q * sc + off

/-- One iteration of the loop of `compute_rational_function_polynomial` (rpc.py:722-728) on normalised
coordinates: the pair `(coordinate A, coordinate B)` denormalised. -/
def ratPointPy (q : RatCoefs K) (x y z scA offA scB offB : K) : Option K × Option K :=
  (ratOut (polyPy x y z q.numA) (polyPy x y z q.denA) scA offA,
   ratOut (polyPy x y z q.numB) (polyPy x y z q.denB) scB offB)

/-- The same in `compute_rational_function_polynomial_unitary` (rpc.cpp:621-634), coordinates already checked. -/
def ratPointCpp (q : RatCoefs K) (x y z scA offA scB offB : K) : Option K × Option K :=
  let n := preNorms x y z
  (ratOut (polyCpp n q.numA) (polyCpp n q.denA) scA offA,
   ratOut (polyCpp n q.numB) (polyCpp n q.denB) scB offB)

/-- Data representation (rpc.py:221 `points`): a row of an (N,3) array whose entries may be NaN. -/
abbrev ORow (K : Type*) := V3 (Option K)

/-- `[nan, nan, nan]` (geomodel_template.py:123 `lonlath[filtering, :] = np.nan`). -/
def nanRow : ORow K := ⟨none, none, none⟩

/-- One row of `check_lonlat` (geomodel_template.py:111-124). -/
def checkRow (p : ORow K) : ORow K :=
  match p with
  | ⟨some x, some y, some z⟩ => if |x| > 180 ∨ |y| > 90 then nanRow else ⟨some x, some y, some z⟩
  | _ => nanRow

/-- `check_lonlat` (geomodel_template.py:111-124). -/
def checkLonLat (l : List (ORow K)) : List (ORow K) := l.map checkRow

/-- Errors raised by the location functions. -/
inductive RpcError
  /-- rpc.py:264 `ValueError`, rpc.cpp:112, 152 `runtime_error` in `direct_loc_h`. -/
  | coefficientsMismatch
  /-- numpy cannot assemble or index arrays of these sizes. -/
  | badSizes
  /-- rpc.cpp:712 `0 divison`; `ZeroDivisionError` in grid.py:431-432. -/
  | zeroDivision
  /-- `TypeError` of grid.py:652 when `pred_ofset_scale_lon` is `None`. -/
  | predictorMissing
  /-- `ValueError` of `int(nan)` in grid.py:704 when the predicted row is NaN. -/
  | predictorNan
  /-- `ValueError` of `int(nan)` in grid.py:704-706 at the turn that follows a null determinant (grid.py:744). -/
  | derivativeNan
  /-- `LinAlgError` of grid.py:615-616. -/
  | singularMatrix
  deriving DecidableEq, Repr

/-- `if alt.shape[0] != n: alt = np.full(n, fill_value=alt[0])` (rpc.py:218-219, 358-359, 439-440, 489-490;
rpc_optim.py:184-185; second half of `check_sizes`, rpc.cpp:856-860). -/
def broadcastAlt (n : ℕ) (alt : List (Option K)) : Except RpcError (List (Option K)) :=
  if alt.length = n then .ok alt
  else match alt with
    | [] => .error .badSizes
    | a :: _ => .ok (List.replicate n a)

/-- rpc.py:361-387 on one point: check, normalise, evaluate; result `(row, col, alt)`. -/
def invPointPy (r : Rpc K) (q : RatCoefs K) (p : ORow K) : ORow K :=
  match checkRow p with
  | ⟨some lon, some lat, some alt⟩ =>
    let cr := ratPointPy q ((lon - r.offX) / r.scX) ((lat - r.offY) / r.scY) ((alt - r.offAlt) / r.scAlt)
      r.scCol r.offCol r.scRow r.offRow
    ⟨cr.2, cr.1, some alt⟩
  | _ => nanRow

/-- Result of `RPC.inverse_loc`. -/
inductive InvResult (K : Type*)
  /-- `(None, None, alt)` with a logged warning (rpc.py:388-390). -/
  | unavailable
  | rows (l : List (ORow K))

/-- `np.array([lon, lat, alt]).transpose()` (rpc.py:361, rpc_optim.py:279): the rows, refused when the sizes differ. -/
def stack3 (a b c : List (Option K)) : Except RpcError (List (ORow K)) :=
  if a.length = b.length ∧ a.length = c.length then
    .ok ((a.zip (b.zip c)).map fun t => ⟨t.1, t.2.1, t.2.2⟩)
  else .error .badSizes

/-- `RPC.inverse_loc` (rpc.py:338-390) on arrays. -/
def inverseLocPy (r : Rpc K) (lon lat alt : List (Option K)) : Except RpcError (InvResult K) :=
  match r.inverse with
  | none => .ok .unavailable
  | some q =>
    match broadcastAlt lon.length alt with
    | .error e => .error e
    | .ok alt' =>
      match stack3 lon lat alt' with
      | .error e => .error e
      | .ok rows => .ok (.rows (rows.map (invPointPy r q)))

/-- `compute_rational_function_polynomial_unitary` with direction `inverse` and `fill_nan` false, as called
by the scalar `RPC::inverse_loc` (rpc.cpp:256-285, 574-640); result `(row, col, alt)`.  No longitude/latitude check
here. -/
def invPointCpp (r : Rpc K) (q : RatCoefs K) (p : ORow K) : ORow K :=
  match p with
  | ⟨some lon, some lat, alt⟩ =>
    match alt with
    | some a =>
      let cr := ratPointCpp q ((lon - r.offX) / r.scX) ((lat - r.offY) / r.scY) ((a - r.offAlt) / r.scAlt)
        r.scCol r.offCol r.scRow r.offRow
      ⟨cr.2, cr.1, some a⟩
    | none => nanRow
  | ⟨_, _, alt⟩ => ⟨none, none, alt⟩

/-- One point of the vector `compute_rational_function_polynomial` (rpc.cpp:642-718): as the scalar one,
but a zero denominator throws. -/
def invPointCppThrow (r : Rpc K) (q : RatCoefs K) (p : ORow K) : Except RpcError (ORow K) :=
  match p with
  | ⟨some lon, some lat, some a⟩ =>
    let n := preNorms ((lon - r.offX) / r.scX) ((lat - r.offY) / r.scY) ((a - r.offAlt) / r.scAlt)
    if polyCpp n q.denA ≠ 0 ∧ polyCpp n q.denB ≠ 0 then .ok (invPointCpp r q p) else .error .zeroDivision
  | _ => .ok (invPointCpp r q p)

/-- A loop body that may throw (rpc.cpp:673-715): evaluate in order, stopping at the first exception. -/
def mapExcept {α β : Type*} (f : α → Except RpcError β) : List α → Except RpcError (List β)
  | [] => .ok []
  | a :: as =>
    match f a with
    | .error e => .error e
    | .ok b =>
      match mapExcept f as with
      | .error e => .error e
      | .ok bs => .ok (b :: bs)

/-- `RPCoptim.inverse_loc` (rpc_optim.py:260-282) for a model with inverse coefficients: no altitude
broadcast before the arrays are assembled. -/
def inverseLocOptim (r : Rpc K) (q : RatCoefs K) (lon lat alt : List (Option K)) :
    Except RpcError (List (ORow K)) :=
  match stack3 lon lat alt with
  | .error e => .error e
  | .ok rows => mapExcept (invPointCppThrow r q) (checkLonLat rows)

/-- `compute_loc_inverse_derivates` and `compute_loc_inverse_derivates_numba` on one point
(rpc.py:426-460, 799-end): `(dcol_dlon, dcol_dlat, drow_dlon, drow_dlat)`. -/
def invDerivPy (r : Rpc K) (q : RatCoefs K) (lon lat alt : K) : K × K × K × K :=
  let x := (lon - r.offX) / r.scX
  let y := (lat - r.offY) / r.scY
  let z := (alt - r.offAlt) / r.scAlt
  let nc := polyPy x y z q.numA
  let dc := polyPy x y z q.denA
  let nr := polyPy x y z q.numB
  let dr := polyPy x y z q.denB
  (r.scCol / r.scX * (dLonPy x y z q.numA * dc - dLonPy x y z q.denA * nc) / dc ^ 2,
   r.scCol / r.scY * (dLatPy x y z q.numA * dc - dLatPy x y z q.denA * nc) / dc ^ 2,
   r.scRow / r.scX * (dLonPy x y z q.numB * dr - dLonPy x y z q.denB * nr) / dr ^ 2,
   r.scRow / r.scY * (dLatPy x y z q.numB * dr - dLatPy x y z q.denB * nr) / dr ^ 2)

/-- `RPC::compute_loc_inverse_derivates` (rpc.cpp:317-351). -/
def invDerivCpp (r : Rpc K) (q : RatCoefs K) (lon lat alt : K) : K × K × K × K :=
  let x := (lon - r.offX) / r.scX
  let y := (lat - r.offY) / r.scY
  let z := (alt - r.offAlt) / r.scAlt
  let n := preNorms x y z
  let nc := polyCpp n q.numA
  let dc := polyCpp n q.denA
  let nr := polyCpp n q.numB
  let dr := polyCpp n q.denB
  (r.scCol / r.scX * (dLonCpp x y z q.numA * dc - dLonCpp x y z q.denA * nc) / (dc * dc),
   r.scCol / r.scY * (dLatCpp x y z q.numA * dc - dLatCpp x y z q.denA * nc) / (dc * dc),
   r.scRow / r.scX * (dLonCpp x y z q.numB * dr - dLonCpp x y z q.denB * nr) / (dr * dr),
   r.scRow / r.scY * (dLatCpp x y z q.numB * dr - dLatCpp x y z q.denB * nr) / (dr * dr))

/-- Whether the denominators are nonzero at a ground point: the quotients of rpc.py:856-859 / rpc.cpp:345-348 are
then finite. -/
def denominatorsOk (r : Rpc K) (q : RatCoefs K) (lon lat alt : K) : Bool :=
  decide (polyPy ((lon - r.offX) / r.scX) ((lat - r.offY) / r.scY) ((alt - r.offAlt) / r.scAlt) q.denA ≠ 0) &&
  decide (polyPy ((lon - r.offX) / r.scX) ((lat - r.offY) / r.scY) ((alt - r.offAlt) / r.scAlt) q.denB ≠ 0)

/-- An image point to locate, with finite row and column (arguments of rpc.py:462, rpc.cpp:353). -/
structure ImgPt (K : Type*) where
  row : K
  col : K
  alt : Option K
deriving DecidableEq, Repr

/-- The mutable variables of the iteration for one point: `lon, lat, delta_col, delta_row`
(rpc.py:512-517, rpc.cpp:386-390). -/
structure Newton (K : Type*) where
  lon : Option K
  lat : Option K
  dcol : Option K
  drow : Option K
deriving DecidableEq, Repr

/-- `eps = 1e-6` (rpc.py:508, rpc.cpp:365, 448). -/
def newtonEps : K := 1 / 1000000

/-- `abs(d) > eps`, false on NaN (rpc.py:522, rpc.cpp:394). -/
def overEps (d : Option K) : Bool :=
  match d with
  | some x => decide (|x| > newtonEps)
  | none => false

/-- The points that require another iteration (rpc.py:522; loop condition rpc.cpp:394). -/
def needsIter (s : Newton K) : Bool := overEps s.dcol || overEps s.drow

/-- `lon += delta_lon; lat += delta_lat` (rpc.py:529-536, rpc.cpp:402-409) on finite values. -/
def newtonMove (d : K × K × K × K) (lon lat dcol drow : K) : Option (K × K) :=
  let det := d.1 * d.2.2.2 - d.2.2.1 * d.2.1
  if det = 0 then none
  else some (lon + (d.2.2.2 * dcol - d.2.1 * drow) / det, lat + (-d.2.2.1 * dcol + d.1 * drow) / det)

/-- Difference of a number and a possibly NaN number (rpc.py:513, 542). -/
def osub (a : K) (b : Option K) : Option K := b.map fun y => a - y

/-- rpc.py:524-543 / rpc.cpp:396-420 for one point: derivatives, move, new residual.  `inv` is the inverse
location of one point (it differs between Python and C++ by the longitude/latitude check) and `deriv` the
derivatives. -/
def newtonStep (inv : ORow K → ORow K) (deriv : K → K → K → Option (K × K × K × K)) (p : ImgPt K)
    (s : Newton K) : Newton K :=
  let moved : Option (K × K) := do
    let lon ← s.lon
    let lat ← s.lat
    let alt ← p.alt
    let dc ← s.dcol
    let dr ← s.drow
    let d ← deriv lon lat alt
    newtonMove d lon lat dc dr
  let lon' := moved.map (·.1)
  let lat' := moved.map (·.2)
  let e := inv ⟨lon', lat', p.alt⟩
  ⟨lon', lat', osub p.col e.y, osub p.row e.x⟩

/-- rpc.py:525 derivatives, `none` when a denominator vanishes. -/
def derivOptPy (r : Rpc K) (q : RatCoefs K) (lon lat alt : K) : Option (K × K × K × K) :=
  if denominatorsOk r q lon lat alt then some (invDerivPy r q lon lat alt) else none

/-- The same for C++ (rpc.cpp:397). -/
def derivOptCpp (r : Rpc K) (q : RatCoefs K) (lon lat alt : K) : Option (K × K × K × K) :=
  if denominatorsOk r q lon lat alt then some (invDerivCpp r q lon lat alt) else none

/-- One turn of the Python loop for one point: only points above the threshold are updated
(rpc.py:522-543). -/
def stepPy (r : Rpc K) (q : RatCoefs K) (p : ImgPt K) (s : Newton K) : Newton K :=
  if needsIter s then newtonStep (invPointPy r q) (derivOptPy r q) p s else s

/-- `np.max(abs(delta)) > eps` (rpc.py:520): false as soon as one entry is NaN. -/
def maxOverEps (ds : List (Option K)) : Bool := ds.all Option.isSome && ds.any overEps

/-- Condition of the Python `while` (rpc.py:520), iteration counter apart. -/
def batchContinues (l : List (ImgPt K × Newton K)) : Bool :=
  maxOverEps (l.map fun t => t.2.dcol) || maxOverEps (l.map fun t => t.2.drow)

/-- The Python `while` loop (rpc.py:520-545); also returns the number of iterations done. -/
def loopPy (r : Rpc K) (q : RatCoefs K) : ℕ → List (ImgPt K × Newton K) → List (ImgPt K × Newton K) × ℕ
  | 0, l => (l, 0)
  | n + 1, l =>
    if batchContinues l then
      let res := loopPy r q n (l.map fun t => (t.1, stepPy r q t.1 t.2))
      (res.1, res.2 + 1)
    else (l, 0)

/-- Start of the Python iteration (rpc.py:502-518): the scene centre, whose image is computed with the
*first* altitude of the batch (`inverse_loc` truncates the altitudes to the size of `lon`). -/
def startPy (r : Rpc K) (q : RatCoefs K) (pts : List (ImgPt K)) : List (ImgPt K × Newton K) :=
  match pts with
  | [] => []
  | p0 :: _ =>
    let s := invPointPy r q ⟨some r.offX, some r.offY, p0.alt⟩
    pts.map fun p => (p, ⟨some r.offX, some r.offY, osub p.col s.y, osub p.row s.x⟩)

/-- rpc.py:462-554 `direct_loc_inverse_iterative` on points with finite row and column. -/
def iterPy (r : Rpc K) (q : RatCoefs K) (nmax : ℕ) (pts : List (ImgPt K)) :
    List (ImgPt K × Newton K) × ℕ :=
  loopPy r q nmax (startPy r q pts)

/-- The C++ `while` loop for one point (rpc.cpp:393-423, 480-508). -/
def loopCpp (r : Rpc K) (q : RatCoefs K) (p : ImgPt K) : ℕ → Newton K → Newton K × ℕ
  | 0, s => (s, 0)
  | n + 1, s =>
    if needsIter s then
      let res := loopCpp r q p n (newtonStep (invPointCpp r q) (derivOptCpp r q) p s)
      (res.1, res.2 + 1)
    else (s, 0)

/-- `RPC::direct_loc_inverse_iterative` (rpc.cpp:353-425) for one point with finite row and column. -/
def iterCpp (r : Rpc K) (q : RatCoefs K) (nmax : ℕ) (p : ImgPt K) : Newton K × ℕ :=
  let s := invPointCpp r q ⟨some r.offX, some r.offY, p.alt⟩
  loopCpp r q p nmax ⟨some r.offX, some r.offY, osub p.col s.y, osub p.row s.x⟩

/-- The rows and columns that are not NaN (`filter_coordinates`, rpc.py:409, 392-424). -/
def validPt (row col alt : Option K) : Option (ImgPt K) :=
  match row, col with
  | some a, some b => some ⟨a, b, alt⟩
  | _, _ => none

/-- The outputs written back with the boolean mask, the others keeping the fill value
(`long_out[filter_nan] = lon`, rpc.py:547-548, 221-232). -/
def scatter {α β : Type*} (fill : β) : List (Option α) → List β → List β
  | [], _ => []
  | none :: ms, rs => fill :: scatter fill ms rs
  | some _ :: ms, r :: rs => r :: scatter fill ms rs
  | some _ :: ms, [] => fill :: scatter fill ms []

/-- Fill value of the filtered points: NaN or the scene centre (rpc.py:411-422). -/
def fillLonLat (r : Rpc K) (fillNan : Bool) : Option K × Option K :=
  if fillNan then (some r.offX, some r.offY) else (none, none)

/-- `RPC.direct_loc_h` (rpc.py:198-267) on arrays. -/
def directLocH (r : Rpc K) (row col alt : List (Option K)) (fillNan useDirect : Bool) :
    Except RpcError (List (ORow K)) :=
  match broadcastAlt col.length alt with
  | .error e => .error e
  | .ok alt' =>
    if row.length = col.length then
      let mask := (row.zip (col.zip alt')).map fun t => validPt t.1 t.2.1 t.2.2
      let pts := mask.filterMap id
      let write (vals : List (Option K × Option K)) : List (ORow K) :=
        ((scatter (fillLonLat r fillNan) mask vals).zip alt').map fun t => ⟨t.1.1, t.1.2, t.2⟩
      match useDirect, r.inverse, r.direct with
      | false, some q, _ =>
        .ok (checkLonLat (write ((iterPy r q 10 pts).1.map fun t => (t.2.lon, t.2.lat))))
      | true, _, some q =>
        .ok (checkLonLat (write (pts.map fun p =>
          match p.alt with
          | some a => ratPointPy q ((p.col - r.offCol) / r.scCol) ((p.row - r.offRow) / r.scRow)
              ((a - r.offAlt) / r.scAlt) r.scX r.offX r.scY r.offY
          | none => (none, none))))
      | _, _, _ => .error .coefficientsMismatch
    else .error .badSizes

/-- One point of `RPC::direct_loc_inverse_iterative` (vector version, rpc.cpp:427-513) in `fill_nan` mode or not:
`(lon, lat, alt)`. -/
def iterPointCpp (r : Rpc K) (q : RatCoefs K) (fillNan : Bool) (t : Option K × Option K × Option K) : ORow K :=
  match t with
  | (some row, some col, alt) =>
    let s := (iterCpp r q 10 ⟨row, col, alt⟩).1
    ⟨s.lon, s.lat, alt⟩
  | (_, _, alt) => ⟨(fillLonLat r fillNan).1, (fillLonLat r fillNan).2, alt⟩

/-- One point of the vector `compute_rational_function_polynomial` in direction `direct` (rpc.cpp:117-155, 642-718).
A NaN altitude gives a NaN quotient. -/
def directPointCpp (r : Rpc K) (q : RatCoefs K) (fillNan : Bool) (t : Option K × Option K × Option K) :
    Except RpcError (ORow K) :=
  match t with
  | (some row, some col, some a) =>
    let n := preNorms ((col - r.offCol) / r.scCol) ((row - r.offRow) / r.scRow) ((a - r.offAlt) / r.scAlt)
    if polyCpp n q.denA ≠ 0 ∧ polyCpp n q.denB ≠ 0 then
      let cr := ratPointCpp q ((col - r.offCol) / r.scCol) ((row - r.offRow) / r.scRow)
        ((a - r.offAlt) / r.scAlt) r.scX r.offX r.scY r.offY
      .ok ⟨cr.1, cr.2, some a⟩
    else .error .zeroDivision
  | (some _, some _, none) => .ok nanRow
  | (_, _, alt) => .ok ⟨(fillLonLat r fillNan).1, (fillLonLat r fillNan).2, alt⟩

/-- The altitude of a NaN pixel is read in the argument and not in the vector of common size (rpc.cpp:675-691). -/
def nanAltitude (t : Option K × Option K × Option K × Option K) : Option K × Option K × Option K :=
  (t.1, t.2.1, if t.1.isNone || t.2.1.isNone then t.2.2.2 else t.2.2.1)

/-- `RPCoptim.direct_loc_h` (rpc_optim.py:165-204) over the vector `RPC::direct_loc_h` (rpc.cpp:117-155).  The
altitudes are extended to the number of columns; rows and columns are truncated to the shorter (`check_sizes`,
rpc.cpp:831-863), and if this changes their number the altitudes are replaced by the first one, except that of a NaN pixel with
the direct coefficients. -/
def directLocHOptim (r : Rpc K) (row col alt : List (Option K)) (fillNan useDirect : Bool) :
    Except RpcError (List (ORow K)) :=
  match broadcastAlt col.length alt with
  | .error e => .error e
  | .ok alt' =>
    match broadcastAlt (min row.length col.length) alt' with
    | .error e => .error e
    | .ok alt'' =>
      let pts := row.zip (col.zip alt'')
      match useDirect, r.inverse, r.direct with
      | false, some q, _ => .ok (checkLonLat (pts.map (iterPointCpp r q fillNan)))
      | true, _, some q =>
        match mapExcept (directPointCpp r q fillNan) ((row.zip (col.zip (alt''.zip alt'))).map nanAltitude) with
        | .error e => .error e
        | .ok l => .ok (checkLonLat l)
      | _, _, _ => .error .coefficientsMismatch

/-- `get_alt_min_max` (rpc.py:556-563; rpc.cpp:515-518). -/
def rpcAltMinMax (r : Rpc K) : K × K := (r.offAlt - r.scAlt / 2, r.offAlt + r.scAlt / 2)

/-- The altitudes at which `los_extrema` calls `direct_loc_h`, and the bounds to extrapolate to
(rpc.py:582-591): `(los_alt_min, los_alt_max, extrapolation)`. -/
def losAltitudes (r : Rpc K) (altMin altMax : Option K) : K × K × Option (K × K) :=
  match altMin, altMax with
  | some lo, some hi =>
    if lo ≥ r.offAlt - r.scAlt ∧ hi ≤ r.offAlt + r.scAlt then (lo, hi, none)
    else ((rpcAltMinMax r).1, (rpcAltMinMax r).2, some (lo, hi))
  | _, _ => ((rpcAltMinMax r).1, (rpcAltMinMax r).2, none)

/-- Repeat each element twice (`array[0::2] = x; array[1::2] = x`, rpc.py:598-601). -/
def dup {α : Type*} : List α → List α
  | [] => []
  | a :: as => a :: a :: dup as

/-- `alt_array` (rpc.py:602-603). -/
def alternate {α : Type*} (n : ℕ) (a b : α) : List α :=
  match n with
  | 0 => []
  | n + 1 => a :: b :: alternate n a b

/-- `base + diff * coeff` (rpc.py:618-619) on possibly NaN numbers. -/
def axpy (base diff c : Option K) : Option K := do
  let b ← base
  let d ← diff
  let k ← c
  return b + d * k

/-- Subtraction of possibly NaN numbers (rpc.py:612). -/
def osub2 (a b : Option K) : Option K := do
  let x ← a
  let y ← b
  return x - y

/-- `(bound - alt) / delta` (rpc.py:614, 616). -/
def altCoef (bound : K) (alt delta : Option K) : Option K := do
  let a ← alt
  let d ← delta
  fdiv (bound - a) d

/-- rpc.py:611-619: extrapolation of the pairs `(top, bottom)`. -/
def extrapolateLos (lo hi : K) : List (ORow K) → List (ORow K)
  | top :: bot :: rest =>
    let d : ORow K := ⟨osub2 top.x bot.x, osub2 top.y bot.y, osub2 top.z bot.z⟩
    let cmax := altCoef hi bot.z d.z
    let cmin := altCoef lo bot.z d.z
    ⟨axpy bot.x d.x cmax, axpy bot.y d.y cmax, axpy bot.z d.z cmax⟩ ::
    ⟨axpy bot.x d.x cmin, axpy bot.y d.y cmin, axpy bot.z d.z cmin⟩ :: extrapolateLos lo hi rest
  | l => l

/-- `RPC.los_extrema` (rpc.py:565-623) for arrays of rows and columns, without conversion to another
EPSG. -/
def losExtrema (r : Rpc K) (row col : List (Option K)) (altMin altMax : Option K) (fillNan : Bool) :
    Except RpcError (List (ORow K)) :=
  let a := losAltitudes r altMin altMax
  match directLocH r (dup row) (dup col) (alternate row.length (some a.2.1) (some a.1)) fillNan false with
  | .error e => .error e
  | .ok edges =>
    match a.2.2 with
    | some b => .ok (extrapolateLos b.1 b.2 edges)
    | none => .ok edges

/-- `RPC::los_extrema` (rpc.cpp:520-572) for one point: not filtered by `check_lonlat`.  A missing bound is NaN
there. -/
def losExtremaCpp (r : Rpc K) (row col : Option K) (altMin altMax : Option K) (fillNan : Bool) :
    Except RpcError (List (ORow K)) :=
  let a := losAltitudes r altMin altMax
  match r.inverse with
  | none => .error .coefficientsMismatch
  | some q =>
    let edges := [iterPointCpp r q fillNan (row, col, some a.2.1), iterPointCpp r q fillNan (row, col, some a.1)]
    match a.2.2 with
    | some b => .ok (extrapolateLos b.1 b.2 edges)
    | none => .ok edges

end Shareloc
