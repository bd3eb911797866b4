import Verif.Model.ColocCpp

/-!
The vector functions of the C++ `RPC` as they work on memory (shareloc/bindings/rpc.cpp:117-155, 201-252, 287-317, 427-572, 642-718, 831-863):
copies of the arguments, truncation to a common size, loops over an index that read and write vectors in place.

Every read and write of a vector is checked: a position outside of the vector is the fault `outOfRange` (undefined behaviour in C++); the
coefficients that the constructor did not copy (rpc.cpp:50-63) are `none`, and using them is the fault `uninitialised`.  Numbers are exact.
-/

namespace Shareloc
variable {K : Type} [Field K] [LinearOrder K] [IsStrictOrderedRing K] [FloorRing K]

/-- How a call may go wrong. -/
inductive VecFault
  /-- a vector is read or written outside of its bounds (undefined behaviour). -/
  | outOfRange
  /-- a coefficient array that was never assigned is read. -/
  | uninitialised
  /-- a C++ exception. -/
  | throws (e : RpcError)
  /-- the search on the DTM fails: `losDtmO` is `failure` (dtm_intersection.cpp:271-273, or a NaN position converted to an index). -/
  | search
deriving DecidableEq, Repr

/-- `v[i]`. -/
def vget {α : Type*} (v : List α) (i : ℕ) : Except VecFault α :=
  match v[i]? with
  | some x => .ok x
  | none => .error .outOfRange

/-- `v[i] = x`. -/
def vset {α : Type*} (v : List α) (i : ℕ) (x : α) : Except VecFault (List α) :=
  if i < v.length then .ok (v.set i x) else .error .outOfRange

/-- `for (size_t i = 0; i < n; ++i)` (rpc.cpp:224, 451, 673), `m` turns from `i` on. -/
def forFrom {σ : Type*} (body : ℕ → σ → Except VecFault σ) : ℕ → ℕ → σ → Except VecFault σ
  | 0, _, s => .ok s
  | m + 1, i, s =>
    match body i s with
    | .error e => .error e
    | .ok s' => forFrom body m (i + 1) s'

/-- `check_sizes` (rpc.cpp:831-863): the longer of the first two vectors is cut; altitudes of another size are replaced by the first one. -/
def checkSizes (a b alt : List (Option K)) : Except VecFault (List (Option K) × List (Option K) × List (Option K)) :=
  let ab := if b.length < a.length then (a.take b.length, b) else if a.length < b.length then (a, b.take a.length) else (a, b)
  if alt.length ≠ ab.1.length then
    match vget alt 0 with
    | .error e => .error e
    | .ok z => .ok (ab.1, ab.2, List.replicate ab.1.length z)
  else .ok (ab.1, ab.2, alt)

/-- The vectors of `compute_rational_function_polynomial` (rpc.cpp:666-671): the copies, then the results. -/
structure RatVecs (K : Type) where
  lon : List (Option K)
  lat : List (Option K)
  alt : List (Option K)
  outA : List (Option K)
  outB : List (Option K)
  outAlt : List (Option K)

/-- The numbers given to `compute_rational_function_polynomial` (rpc.cpp:651-664): scales and offsets of the input, of the output. -/
structure RatNorm (K : Type) where
  scX : K
  offX : K
  scY : K
  offY : K
  scAlt : K
  offAlt : K
  scA : K
  offA : K
  scB : K
  offB : K

/-- `isnan(x[i]) || isnan(y[i])` (rpc.cpp:454, 675). -/
def nanAt (x y : List (Option K)) (i : ℕ) : Except VecFault Bool :=
  match vget x i with
  | .error e => .error e
  | .ok none => .ok true
  | .ok (some _) =>
    match vget y i with
    | .error e => .error e
    | .ok v => .ok v.isNone

/-- `v[i] = (v[i] - offset) / scale` (rpc.cpp:695-697). -/
def normAt (v : List (Option K)) (i : ℕ) (off sc : K) : Except VecFault (List (Option K)) := do
  let x ← vget v i
  vset v i (x.map fun x => (x - off) / sc)

/-- The body of the loop of `compute_rational_function_polynomial` (rpc.cpp:673-715).  The altitude of a NaN point is read in the argument
`alt0`, not in the copy of common size. -/
def ratBody (q : Option (RatCoefs K)) (c : RatNorm K) (fill : Option K × Option K) (alt0 : List (Option K)) (i : ℕ) (s : RatVecs K) :
    Except VecFault (RatVecs K) := do
  if ← nanAt s.lon s.lat i then
    let outA ← vset s.outA i fill.1
    let outB ← vset s.outB i fill.2
    let z ← vget alt0 i
    let outAlt ← vset s.outAlt i z
    return { s with outA := outA, outB := outB, outAlt := outAlt }
  else
    let z0 ← vget s.alt i
    let outAlt ← vset s.outAlt i z0
    let lon ← normAt s.lon i c.offX c.scX
    let lat ← normAt s.lat i c.offY c.scY
    let alt ← normAt s.alt i c.offAlt c.scAlt
    let x ← vget lon i
    let y ← vget lat i
    let z ← vget alt i
    match q with
    | none => .error .uninitialised
    | some q =>
      match x, y, z with
      | some x, some y, some z =>
        let n := preNorms x y z
        if polyCpp n q.denA ≠ 0 ∧ polyCpp n q.denB ≠ 0 then
          let outA ← vset s.outA i (ratOut (polyCpp n q.numA) (polyCpp n q.denA) c.scA c.offA)
          let outB ← vset s.outB i (ratOut (polyCpp n q.numB) (polyCpp n q.denB) c.scB c.offB)
          return ⟨lon, lat, alt, outA, outB, outAlt⟩
        else .error (.throws .zeroDivision)
      | _, _, _ =>
        let outA ← vset s.outA i none
        let outB ← vset s.outB i none
        return ⟨lon, lat, alt, outA, outB, outAlt⟩

/-- `vector<double> v(n)` (rpc.cpp:669-671, 441-442): `n` zeros. -/
def zeros (n : ℕ) : List (Option K) := List.replicate n (some 0)

/-- `compute_rational_function_polynomial` (rpc.cpp:642-718): the three vectors returned. -/
def ratVector (q : Option (RatCoefs K)) (c : RatNorm K) (fill : Option K × Option K) (a b alt : List (Option K)) :
    Except VecFault (List (Option K) × List (Option K) × List (Option K)) := do
  let t ← checkSizes a b alt
  let n := t.1.length
  let s ← forFrom (ratBody q c fill alt) n 0 ⟨t.1, t.2.1, t.2.2, zeros n, zeros n, zeros n⟩
  return (s.outA, s.outB, s.outAlt)

/-- The normalisation of the inverse location (rpc.cpp:301-311). -/
def invNorm (r : Rpc K) : RatNorm K :=
  ⟨r.scX, r.offX, r.scY, r.offY, r.scAlt, r.offAlt, r.scCol, r.offCol, r.scRow, r.offRow⟩

/-- The normalisation of the direct location (rpc.cpp:137-147). -/
def dirNorm (r : Rpc K) : RatNorm K :=
  ⟨r.scCol, r.offCol, r.scRow, r.offRow, r.scAlt, r.offAlt, r.scX, r.offX, r.scY, r.offY⟩

/-- The vector `RPC::inverse_loc` (rpc.cpp:287-317): `(row, col, alt)`. -/
def inverseVec (r : Rpc K) (lon lat alt : List (Option K)) :
    Except VecFault (List (Option K) × List (Option K) × List (Option K)) := do
  let t ← ratVector r.inverse (invNorm r) (none, none) lon lat alt
  return (t.2.1, t.1, t.2.2)

/-- The scalar `RPC::inverse_loc` (rpc.cpp:256-285, 574-640), which does not read the coefficients for a NaN position. -/
def inverseOne (r : Rpc K) (p : ORow K) : Except VecFault (ORow K) :=
  match r.inverse with
  | some q => .ok (invPointCpp r q p)
  | none =>
    match p with
    | ⟨some _, some _, _⟩ => .error .uninitialised
    | ⟨_, _, alt⟩ => .ok ⟨none, none, alt⟩

/-- The vectors of `direct_loc_inverse_iterative` (rpc.cpp:441-442). -/
structure IterVecs (K : Type) where
  lon : List (Option K)
  lat : List (Option K)

/-- The body of the `while` (rpc.cpp:482-508): the ground position is in the vectors, the residuals `(delta_col, delta_row)` in variables. -/
def iterTurn (r : Rpc K) (row col alt : List (Option K)) (i : ℕ) (s : IterVecs K) (d : Option K × Option K) :
    Except VecFault (IterVecs K × (Option K × Option K)) := do
  let lon ← vget s.lon i
  let lat ← vget s.lat i
  let z ← vget alt i
  match r.inverse with
  | none => .error .uninitialised
  | some q =>
    let moved : Option (K × K) := do
      let x ← lon
      let y ← lat
      let a ← z
      let dc ← d.1
      let dr ← d.2
      let g ← derivOptCpp r q x y a
      newtonMove g x y dc dr
    let lon' ← vset s.lon i (moved.map (·.1))
    let lat' ← vset s.lat i (moved.map (·.2))
    let x ← vget lon' i
    let y ← vget lat' i
    let e ← inverseOne r ⟨x, y, z⟩
    let c ← vget col i
    let w ← vget row i
    return (⟨lon', lat'⟩, (osub2 c e.y, osub2 w e.x))

/-- The `while` (rpc.cpp:481-509). -/
def iterWhile (r : Rpc K) (row col alt : List (Option K)) (i : ℕ) :
    ℕ → IterVecs K → Option K × Option K → Except VecFault (IterVecs K)
  | 0, s, _ => .ok s
  | n + 1, s, d =>
    if overEps d.1 || overEps d.2 then
      match iterTurn r row col alt i s d with
      | .error e => .error e
      | .ok t => iterWhile r row col alt i n t.1 t.2
    else .ok s

/-- The body of the loop over the points (rpc.cpp:451-510). -/
def iterBody (r : Rpc K) (nmax : ℕ) (fillNan : Bool) (row col alt : List (Option K)) (i : ℕ) (s : IterVecs K) : Except VecFault (IterVecs K) := do
  if ← nanAt row col i then
    let lon ← vset s.lon i (fillLonLat r fillNan).1
    let lat ← vset s.lat i (fillLonLat r fillNan).2
    return ⟨lon, lat⟩
  else
    let lon ← vset s.lon i (some r.offX)
    let lat ← vset s.lat i (some r.offY)
    let x ← vget lon i
    let y ← vget lat i
    let z ← vget alt i
    let e ← inverseOne r ⟨x, y, z⟩
    let c ← vget col i
    let w ← vget row i
    iterWhile r row col alt i nmax ⟨lon, lat⟩ (osub2 c e.y, osub2 w e.x)

/-- The vector `direct_loc_inverse_iterative` (rpc.cpp:427-513). -/
def iterVector (r : Rpc K) (nmax : ℕ) (fillNan : Bool) (row col alt : List (Option K)) :
    Except VecFault (List (Option K) × List (Option K) × List (Option K)) := do
  let t ← checkSizes col row alt
  let n := t.1.length
  let s ← forFrom (iterBody r nmax fillNan t.2.1 t.1 t.2.2) n 0 ⟨zeros n, zeros n⟩
  return (s.lon, s.lat, t.2.2)

/-- The vector `RPC::direct_loc_h` (rpc.cpp:117-155). -/
def directHVec (r : Rpc K) (row col alt : List (Option K)) (fillNan useDirect : Bool) :
    Except VecFault (List (Option K) × List (Option K) × List (Option K)) :=
  if !useDirect && r.inverse.isSome then iterVector r 10 fillNan row col alt
  else if useDirect && r.direct.isSome then ratVector r.direct (dirNorm r) (fillLonLat r fillNan) col row alt
  else .error (.throws .coefficientsMismatch)

/-- `RPC::los_extrema` (rpc.cpp:520-572): two points, read back and extrapolated in place; the two vertices, top first. -/
def losVec (r : Rpc K) (row col altMin altMax : Option K) (fillNan : Bool) :
    Except VecFault (List (Option K) × List (Option K) × List (Option K)) := do
  let a := losAltitudes r altMin altMax
  let t ← directHVec r [row, row] [col, col] [some a.2.1, some a.1] fillNan false
  match a.2.2 with
  | none => return t
  | some b =>
    let lon0 ← vget t.1 0
    let lon1 ← vget t.1 1
    let lat0 ← vget t.2.1 0
    let lat1 ← vget t.2.1 1
    let alt0 ← vget t.2.2 0
    let alt1 ← vget t.2.2 1
    let dlon := osub2 lon0 lon1
    let dlat := osub2 lat0 lat1
    let dalt := osub2 alt0 alt1
    let cmax := altCoef b.2 alt1 dalt
    let cmin := altCoef b.1 alt1 dalt
    let lon ← vset t.1 0 (axpy lon1 dlon cmax)
    let lat ← vset t.2.1 0 (axpy lat1 dlat cmax)
    let alt ← vset t.2.2 0 (axpy alt1 dalt cmax)
    let lon1 ← vget lon 1
    let lon ← vset lon 1 (axpy lon1 dlon cmin)
    let lat1 ← vget lat 1
    let lat ← vset lat 1 (axpy lat1 dlat cmin)
    let alt1 ← vget alt 1
    let alt ← vset alt 1 (axpy alt1 dalt cmin)
    return (lon, lat, alt)

/-- The rows of three vectors of the same size. -/
def rowsOf (t : List (Option K) × List (Option K) × List (Option K)) : List (ORow K) :=
  (t.1.zip (t.2.1.zip t.2.2)).map fun u => ⟨u.1, u.2.1, u.2.2⟩

/-- The body of the loop of the vector `RPC::direct_loc_dtm` (rpc.cpp:224-250); the result of a line of sight is stored in one vector of points
instead of three of coordinates.  The search on the DTM, modelled apart, is that of `losDtmO`. -/
def dtmBody (N : ℕ) (r : Rpc K) (d : Dtm K) (row col : List (Option K)) (i : ℕ) (out : List (DtmPoint K)) :
    Except VecFault (List (DtmPoint K)) := do
  let x ← vget row i
  let y ← vget col i
  let t ← losVec r x y (some (d.altMin - 1)) (some (d.altMax + 1)) false
  match losDtmO .cpp d N (rowsOf t) with
  | .failure => .error .search
  | p => vset out i p

/-- The vector `RPC::direct_loc_dtm` (rpc.cpp:201-252) for a DTM in EPSG 4326. -/
def directDtmVec (N : ℕ) (r : Rpc K) (d : Dtm K) (row col : List (Option K)) : Except VecFault (List (DtmPoint K)) :=
  forFrom (dtmBody N r d row col) row.length 0 (List.replicate row.length .uninitialised)

/-- `RPCoptim.direct_loc_h` (rpc_optim.py:165-204): altitudes of another size are replaced by the first one, whose absence raises. -/
def optimDirectHVec (r : Rpc K) (row col alt : List (Option K)) (fillNan useDirect : Bool) : Except VecFault (List (ORow K)) :=
  match broadcastAlt col.length alt with
  | .error e => .error (.throws e)
  | .ok alt' =>
    match directHVec r row col alt' fillNan useDirect with
    | .error e => .error e
    | .ok t => .ok (checkLonLat (rowsOf t))

/-- `RPCoptim.inverse_loc` (rpc_optim.py:260-282): the three arrays are stacked, checked and separated again. -/
def optimInverseVec (r : Rpc K) (lon lat alt : List (Option K)) : Except VecFault (List (ORow K)) :=
  match stack3 lon lat alt with
  | .error e => .error (.throws e)
  | .ok rows =>
    let c := checkLonLat rows
    match inverseVec r (c.map (·.x)) (c.map (·.y)) (c.map (·.z)) with
    | .error e => .error e
    | .ok t => .ok (rowsOf t)

/-- `RPCoptim.direct_loc_dtm` (rpc_optim.py:206-234) for a DTM in EPSG 4326. -/
def optimDirectDtmVec (N : ℕ) (r : Rpc K) (d : Dtm K) (row col : List (Option K)) : Except VecFault (List (DtmPoint K)) :=
  match directDtmVec N r d row col with
  | .error e => .error e
  | .ok l => .ok (l.map checkDtmPoint)

/-- The vector `coloc` with altitudes (localization.cpp:59-72). -/
def colocVec (r1 r2 : Rpc K) (row col alt : List (Option K)) :
    Except VecFault (List (Option K) × List (Option K) × List (Option K)) := do
  let t ← directHVec r1 row col alt false false
  inverseVec r2 t.1 t.2.1 t.2.2

end Shareloc
