import Verif.Model.Geos
import Verif.Model.Pipeline
import Verif.Model.RectificationCpp

/-!
The C++ colocalisation (`shareloc/bindings/localization.cpp`) of two RPCs, and the two functions that the C++ epipolar strips call.
-/

namespace Shareloc
variable {K : Type*} [Field K] [LinearOrder K] [IsStrictOrderedRing K] [FloorRing K]

/-- The elevations of the scalar `coloc` (localization.cpp:45-49, 74-78): a DTM with the number of its system, or a number. -/
inductive CppElevation (K : Type*)
  | dtm (epsg : ℕ) (d : Dtm K)
  | value (h : Option K)

/-- The scalar `RPC::direct_loc_h` with the default arguments (rpc.cpp:79-115, 326-395). -/
def directHScalar (r : Rpc K) (row col alt : Option K) : Except RpcError (ORow K) :=
  match r.inverse with
  | none => .error .coefficientsMismatch
  | some q => .ok (iterPointCpp r q false (row, col, alt))

/-- The scalar `RPC::direct_loc_dtm` (rpc.cpp:157-199): a DTM in another system than EPSG 4326 throws.  A search that throws or leaves
the position uninitialised is reported as an exception. -/
def directDtmScalar (N : ℕ) (r : Rpc K) (eDtm : ℕ) (d : Dtm K) (row col : Option K) : Except RpcError (ORow K) :=
  if eDtm ≠ 4326 then .error .badSizes
  else
    match losExtremaCpp r row col (some (d.altMin - 1)) (some (d.altMax + 1)) false with
    | .error e => .error e
    | .ok edges =>
      match losDtmO .cpp d N edges with
      | .point v => .ok ⟨some v.x, some v.y, some v.z⟩
      | .nan => .ok nanRow
      | _ => .error .badSizes

/-- The direct location of one pixel in `coloc` (localization.cpp:54-55, 83-84). -/
def directScalar (N : ℕ) (r : Rpc K) (el : CppElevation K) (row col : Option K) : Except RpcError (ORow K) :=
  match el with
  | .dtm e d => directDtmScalar N r e d row col
  | .value h => directHScalar r row col h

/-- The scalar `RPC::inverse_loc` (rpc.cpp:256-285).  Without inverse coefficients it reads arrays that were not initialised, which is
reported as an exception. -/
def inverseScalar (r : Rpc K) (p : ORow K) : Except RpcError (ORow K) :=
  match r.inverse with
  | none => .error .coefficientsMismatch
  | some q => .ok (invPointCpp r q p)

/-- The scalar `coloc` (localization.cpp:45-57, 74-86). -/
def colocScalar (N : ℕ) (r1 r2 : Rpc K) (el : CppElevation K) (row col : Option K) : Except RpcError (ORow K) :=
  match directScalar N r1 el row col with
  | .error e => .error e
  | .ok p => inverseScalar r2 p

/-- The elevations of the vector `coloc` (localization.cpp:31-35, 59-63): a DTM, or a vector of altitudes. -/
inductive CppElevations (K : Type*)
  | dtm (epsg : ℕ) (d : Dtm K)
  | values (h : List (Option K))

/-- The vector `RPC::direct_loc_dtm` (rpc.cpp:201-252) and `RPC::direct_loc_h` (rpc.cpp:117-155, 427-513, 831-863).  The former reads
the columns out of bounds when there are fewer than rows, and ignores those in excess; both are refused here. -/
def directVector (N : ℕ) (r : Rpc K) (el : CppElevations K) (row col : List (Option K)) : Except RpcError (List (ORow K)) :=
  match el with
  | .dtm e d =>
    if row.length = col.length then
      if e ≠ 4326 then .error .badSizes else mapExcept (fun t => directDtmScalar N r e d t.1 t.2) (row.zip col)
    else .error .badSizes
  | .values h =>
    match r.inverse with
    | none => .error .coefficientsMismatch
    | some q =>
      match broadcastAlt (min row.length col.length) h with
      | .error e => .error e
      | .ok h' => .ok ((row.zip (col.zip h')).map (iterPointCpp r q false))

/-- The vector `RPC::inverse_loc` (rpc.cpp:287-317, 642-718). -/
def inverseVector (r : Rpc K) (l : List (ORow K)) : Except RpcError (List (ORow K)) :=
  match r.inverse with
  | none => .error .coefficientsMismatch
  | some q => mapExcept (invPointCppThrow r q) l

/-- The vector `coloc` (localization.cpp:31-43, 59-72). -/
def colocVector (N : ℕ) (r1 r2 : Rpc K) (el : CppElevations K) (row col : List (Option K)) : Except RpcError (List (ORow K)) :=
  match directVector N r1 el row col with
  | .error e => .error e
  | .ok l => inverseVector r2 l

/-- The colocalisations of the C++ functions of rectification.cpp:110-112, 135-137, 144-157, with the left and the right models. -/
def stereoCppOf (N : ℕ) (left right : Rpc K) (el : CppElevation K) : StereoCpp K where
  l2r := fun q => colocScalar N left right el q.1 q.2
  r2l := fun p => colocScalar N right left (.value p.z) p.x p.y

end Shareloc
