import Verif.Model.DirectDtm

/-!
The C++ RPC (`shareloc/geomodels/rpc_optim.py` over `shareloc/bindings/rpc.cpp`) as a geometric model of `Localization`, with its
direct location on a DTM in any coordinate system.
-/

namespace Shareloc
variable {K : Type*} [Field K] [LinearOrder K] [IsStrictOrderedRing K] [FloorRing K]

/-- `RPCoptim.los_extrema` in another system than EPSG 4326 (rpc_optim.py:307-368) before the conversion, for arrays of rows and
columns: a Python copy of `RPC.los_extrema` over the C++ `direct_loc_h`, whose result is not filtered by `check_lonlat`. -/
def losExtremaOptim (r : Rpc K) (row col : List (Option K)) (altMin altMax : Option K) (fillNan : Bool) :
    Except RpcError (List (ORow K)) :=
  let a := losAltitudes r altMin altMax
  if row.length = col.length then
    match r.inverse with
    | none => .error .coefficientsMismatch
    | some q =>
      let edges := ((dup row).zip ((dup col).zip (alternate row.length (some a.2.1) (some a.1)))).map (iterPointCpp r q fillNan)
      match a.2.2 with
      | some b => .ok (extrapolateLos b.1 b.2 edges)
      | none => .ok edges
  else .error .badSizes

/-- `RPCoptim.direct_loc_dtm` for a DTM in another system than EPSG 4326 (rpc_optim.py:234-258): the lines of sight are built and
converted in Python, intersected in C++, and the result is not filtered by `check_lonlat`. -/
def rpcOptimDirectDtmOther (conv : ℕ → ℕ → ORow K → ORow K) (N : ℕ) (r : Rpc K) (eDtm : ℕ) (d : Dtm K)
    (row col : List (Option K)) : Except RpcError (List (DtmPoint K)) :=
  match dtmRange conv eDtm 4326 d with
  | some b =>
    match losExtremaOptim r row col (some b.1) (some b.2) false with
    | .error e => .error e
    | .ok edges => .ok ((pairs (edges.map (conv 4326 eDtm))).map (losDtmO .cpp d N))
  | none =>
    match losExtremaOptim r row col none none false with
    | .error e => .error e
    | .ok edges => .ok ((pairs (edges.map fun _ => (nanRow : ORow K))).map (losDtmO .cpp d N))

/-- `RPCoptim.direct_loc_dtm` (rpc_optim.py:206-258). -/
def rpcOptimDirectDtmAny (conv : ℕ → ℕ → ORow K → ORow K) (N : ℕ) (r : Rpc K) (eDtm : ℕ) (d : Dtm K)
    (row col : List (Option K)) : Except RpcError (List (DtmPoint K)) :=
  if eDtm = 4326 then rpcOptimDirectDtm N r d row col else rpcOptimDirectDtmOther conv N r eDtm d row col

/-- A C++ RPC as a geometric model (rpc_optim.py:141-147 for the bounds and the system, which is always EPSG 4326).  Without
inverse coefficients the inverse location reads arrays that were not initialised, which is reported as an exception. -/
def rpcOptimGeo (conv : ℕ → ℕ → ORow K → ORow K) (N : ℕ) (r : Rpc K) : Geo K (ℕ × Dtm K) where
  epsg := 4326
  bounds := ((r.offRow - r.scRow, r.offCol - r.scCol), (r.offRow + r.scRow, r.offCol + r.scCol))
  directH := fun row col h => directLocHOptim r row col h false false
  directDtm := fun row col d =>
    match rpcOptimDirectDtmAny conv N r d.1 d.2 row col with
    | .error e => .error e
    | .ok l => dtmRows l
  inverse := fun lon lat h =>
    match r.inverse with
    | none => .error .coefficientsMismatch
    | some q =>
      match inverseLocOptim r q lon lat h with
      | .error e => .error e
      | .ok l => .ok (some (l.map fun p => (p.x, p.y)))

end Shareloc
