import Verif.Model.Localization
import Verif.Model.DtmIntersection
import Verif.Model.Grid

/-!
Model of the direct location on a DTM: `direct_loc_dtm` of `shareloc/geomodels/rpc.py`, `rpc_optim.py` (with
`shareloc/bindings/rpc.cpp`) and `grid.py`, and `get_dtm_alt_offset` of `geomodel_template.py`.

`coordinates_conversion` is a parameter that works point by point (NaN when it fails, proj_utils.py:51).
-/

namespace Shareloc
variable {K : Type*} [Field K] [LinearOrder K] [IsStrictOrderedRing K] [FloorRing K]

/-- `get_footprint_corners` (dtm_intersection.py:171-183): the four outer corners, in rows and columns. -/
def footprintCorners (d : Dtm K) : List (K × K) :=
  [((0 : K), (0 : K)), (0, (d.nbCols : K)), ((d.nbRows : K), (d.nbCols : K)), ((d.nbRows : K), 0)].map fun c =>
    (c.1 - 1 / 2, c.2 - 1 / 2)

/-- `np.min` of possibly NaN numbers (geomodel_template.py:147). -/
def olistMin : List (Option K) → Option K
  | [] => none
  | a :: l => l.foldl omin a

/-- `np.max` of possibly NaN numbers (geomodel_template.py:147). -/
def olistMax : List (Option K) → Option K
  | [] => none
  | a :: l => l.foldl omax a

/-- `ground_corners` (geomodel_template.py:138-145): the corners in the system of the DTM at the mean of the extreme
altitudes. -/
def groundCorners (d : Dtm K) : List (ORow K) :=
  (footprintCorners d).map fun c =>
    ⟨some (indexToPhysical d.transform c.1 c.2).2, some (indexToPhysical d.transform c.1 c.2).1,
      some ((d.altMin + d.altMax) / 2)⟩

/-- `get_dtm_alt_offset` (geomodel_template.py:126-147, rpc_optim.py:284-305). -/
def dtmAltOffset (conv : ℕ → ℕ → ORow K → ORow K) (eDtm eModel : ℕ) (d : Dtm K) : Option K × Option K :=
  let z := (groundCorners d).map fun p => (conv eDtm eModel p).z
  ((olistMin z).map fun v => v - (d.altMin + d.altMax) / 2, (olistMax z).map fun v => v - (d.altMin + d.altMax) / 2)

/-- `min_dtm, max_dtm` (rpc.py:318-320, rpc_optim.py:236-242, grid.py:340-342); `none` if one corner cannot be converted, as
the NaN is then in both. -/
def dtmRange (conv : ℕ → ℕ → ORow K → ORow K) (eDtm eModel : ℕ) (d : Dtm K) : Option (K × K) :=
  match dtmAltOffset conv eDtm eModel d with
  | (some a, some b) => some (d.altMin - 1 + a, d.altMax + 1 + b)
  | _ => none

/-- A vertex of a line of sight, `none` if one of its coordinates is NaN. -/
def vertex (p : ORow K) : Option (V3 K) :=
  match p with
  | ⟨some x, some y, some z⟩ => some ⟨x, y, z⟩
  | _ => none

/-- `faceScan` when vertices may be NaN (dtm_intersection.py:265-335, dtm_intersection.cpp:252-336): the comparison with 0 is
false for NaN. -/
def faceScanO (impl : Impl) (d : Dtm K) (k : Fin 6) :
    Option (V3 K) → ℕ → List (Option (V3 K)) → Except CubeError (Option (Crossing K))
  | _, _, [] => .ok none
  | some a, layer, some b :: rest =>
    if eqPlan d k a * eqPlan d k b ≤ 0 then
      if impl = .cpp ∧ eqPlan d k a = 0 ∧ eqPlan d k b = 0 then .error .tooManySolutions
      else .ok (some (crossingOf d k layer a b))
    else faceScanO impl d k (some b) (layer + 1) rest
  | some _, layer, none :: rest => faceScanO impl d k none (layer + 1) rest
  | none, layer, b :: rest => faceScanO impl d k b (layer + 1) rest

/-- `faceHit` when vertices may be NaN (dtm_intersection.py:252-335). -/
def faceHitO (impl : Impl) (d : Dtm K) (k : Fin 6) (los : List (Option (V3 K))) : Except CubeError (Option (Crossing K)) :=
  match los with
  | [] => .ok none
  | v :: _ => faceScanO impl d k v 0 los

/-- `faceHits` when vertices may be NaN (dtm_intersection.py:252-335). -/
def faceHitsO (impl : Impl) (d : Dtm K) (los : List (Option (V3 K))) : List (Fin 6) → Except CubeError (List (Crossing K))
  | [] => .ok []
  | k :: ks =>
    match faceHitO impl d k los with
    | .error e => .error e
    | .ok none => faceHitsO impl d los ks
    | .ok (some c) =>
      match faceHitsO impl d los ks with
      | .error e => .error e
      | .ok cs => .ok (c :: cs)

/-- `cubeOfIndex` when vertices may be NaN (dtm_intersection.py:356-402). -/
def cubeOfIndexO (impl : Impl) (d : Dtm K) (los : List (Option (V3 K))) : Except CubeError (Option (Crossing K)) :=
  match faceHitsO impl d los [0, 1, 2, 3, 4, 5] with
  | .error e => .error e
  | .ok cs =>
    match (exchangeSort cs).filter (fun c => onCube d c.p) with
    | c :: _ :: _ => .ok (some c)
    | _ => .ok none

/-- The vertices when none is NaN. -/
def allVertices : List (ORow K) → Option (List (V3 K))
  | [] => some []
  | p :: l =>
    match vertex p, allVertices l with
    | some v, some vs => some (v :: vs)
    | _, _ => none

/-- One line of sight of `intersection_n_los_dtm` (dtm_intersection.py:857-864) whose vertices may be NaN.  The march from an
entry point of a line with a NaN vertex is not modelled (`failure`); C63 shows that it does not happen when the line starts
above the DTM. -/
def losDtmO (impl : Impl) (d : Dtm K) (N : ℕ) (los : List (ORow K)) : DtmPoint K :=
  match allVertices los with
  | some vs => losDtm impl d N vs
  | none =>
    match cubeOfIndexO impl d (los.map fun p => (vertex p).map (terToIndexPy d.transform)) with
    | .error _ => .failure
    | .ok none => .nan
    | .ok (some _) => .failure

/-- `check_lonlat` (geomodel_template.py:110-124) on the result of the intersection; uninitialised memory stays so. -/
def checkDtmPoint (p : DtmPoint K) : DtmPoint K :=
  match p with
  | .point v => if |v.x| > 180 ∨ |v.y| > 90 then .nan else .point v
  | o => o

/-- `los.reshape((len(col), 2, 3))` (rpc.py:328-332, rpc_optim.py:250-254). -/
def pairs {α : Type*} : List α → List (List α)
  | a :: b :: l => [a, b] :: pairs l
  | _ => []

/-- The conversion to the system of the DTM at the end of `los_extrema` (rpc.py:620-621). -/
def convertEdges (conv : ℕ → ℕ → ORow K → ORow K) (eModel eDtm : ℕ) (edges : List (ORow K)) : List (ORow K) :=
  if eDtm ≠ eModel then edges.map (conv eModel eDtm) else edges

/-- The end of `RPC.direct_loc_dtm` (rpc.py:327-336): intersection of the lines and longitude/latitude check. -/
def intersectEdges (impl : Impl) (N : ℕ) (eDtm : ℕ) (d : Dtm K) (edges : List (ORow K)) : List (DtmPoint K) :=
  if eDtm = 4326 then (pairs edges).map fun l => checkDtmPoint (losDtmO impl d N l)
  else (pairs edges).map (losDtmO impl d N)

/-- `RPC.direct_loc_dtm` (rpc.py:301-336).  `impl` is the class of the DTM, `N` the fuel of the root search.  When a corner of
the DTM cannot be converted the bounds are NaN and so are the lines of sight. -/
def rpcDirectDtm (conv : ℕ → ℕ → ORow K → ORow K) (impl : Impl) (N : ℕ) (r : Rpc K) (eModel eDtm : ℕ) (d : Dtm K)
    (row col : List (Option K)) : Except RpcError (List (DtmPoint K)) :=
  match dtmRange conv eDtm eModel d with
  | some b =>
    match losExtrema r row col (some b.1) (some b.2) false with
    | .error e => .error e
    | .ok edges => .ok (intersectEdges impl N eDtm d (convertEdges conv eModel eDtm edges))
  | none =>
    match losExtrema r row col none none false with
    | .error e => .error e
    | .ok edges => .ok (intersectEdges impl N eDtm d (edges.map fun _ => nanRow))

/-- One point of the C++ `RPC::direct_loc_dtm` (rpc.cpp:157-199, 233-251) followed by `check_lonlat` (rpc_optim.py:220-234),
for a DTM in EPSG 4326. -/
def rpcOptimDtmPoint (N : ℕ) (r : Rpc K) (d : Dtm K) (t : Option K × Option K) : Except RpcError (DtmPoint K) :=
  match losExtremaCpp r t.1 t.2 (some (d.altMin - 1)) (some (d.altMax + 1)) false with
  | .error e => .error e
  | .ok edges => .ok (checkDtmPoint (losDtmO .cpp d N edges))

/-- `RPCoptim.direct_loc_dtm` (rpc_optim.py:206-258) for a DTM in EPSG 4326.  Vectors of different sizes, read out of bounds
by the C++ code, are refused. -/
def rpcOptimDirectDtm (N : ℕ) (r : Rpc K) (d : Dtm K) (row col : List (Option K)) : Except RpcError (List (DtmPoint K)) :=
  if row.length = col.length then mapExcept (rpcOptimDtmPoint N r d) (row.zip col) else .error .badSizes

/-! ### Grids -/

/-- A pixel that is not NaN (grid.py:332). -/
def validPixel (t : Option K × Option K) : Option (K × K) :=
  match t with
  | (some r, some c) => some (r, c)
  | _ => none

/-- The line of sight number `n` of `compute_los` (grid.py:349). -/
def gridLosList (g : MultiGrid K) (pts : List (K × K)) (alts : List K) (n : ℕ) : List (V3 K) :=
  (List.range alts.length).map fun k =>
    ⟨(gridComputeLos g pts (some alts) n k).1, (gridComputeLos g pts (some alts) n k).2.1,
      (gridComputeLos g pts (some alts) n k).2.2⟩

/-- `Grid.direct_loc_dtm` (grid.py:318-353) for a DTM in the system of the grid, `minDtm` and `maxDtm` being the bounds of
`dtmRange`.  (In another system `coordinates_conversion` is called with a three-dimensional array, which is not modelled.) -/
def gridDirectDtm (impl : Impl) (N : ℕ) (g : MultiGrid K) (d : Dtm K) (minDtm maxDtm : K) (row col : List (Option K)) :
    Except RpcError (List (DtmPoint K)) :=
  if row.length = col.length then
    let mask := (row.zip col).map validPixel
    let pts := mask.filterMap id
    let alts := dtmAlts ((List.range g.nbalt).map g.alts) minDtm maxDtm
    let res := (List.range pts.length).map fun n => losDtm impl d N (gridLosList g pts alts n)
    let out := scatter .nan mask res
    .ok (if g.geographic then out.map checkDtmPoint else out)
  else .error .badSizes

/-- `Grid.los_extrema` (grid.py:355-373) for one pixel: the two rows of the result. -/
def gridLosExtrema (g : MultiGrid K) (row col altMin altMax : Option K) : Except RpcError (ORow K × ORow K) :=
  match gridDirectLocH g [row] [col] [altMax], gridDirectLocH g [row] [col] [altMin] with
  | .ok [a], .ok [b] => .ok (a, b)
  | _, _ => .error .badSizes

/-! ### Models as used by `Localization` -/

/-- The rows of an `(N, 3)` array of results (localization.py:93). -/
def DtmPoint.toRow (p : DtmPoint K) : ORow K :=
  match p with
  | .point v => ⟨some v.x, some v.y, some v.z⟩
  | _ => nanRow

/-- A DTM given as elevation (localization.py:62-67): a search that raises (`failure`) is reported as an exception, and so is one that
returns uninitialised memory, about which nothing can be said. -/
def dtmRows (l : List (DtmPoint K)) : Except RpcError (List (ORow K)) :=
  if l.any fun p => match p with | .failure => true | .uninitialised => true | _ => false then .error .badSizes
  else .ok (l.map DtmPoint.toRow)

/-- A Python RPC as a geometric model (rpc.py:177-180 for the bounds). -/
def rpcGeo (conv : ℕ → ℕ → ORow K → ORow K) (N : ℕ) (r : Rpc K) (e : ℕ) : Geo K (ℕ × Dtm K) where
  epsg := e
  bounds := ((r.offRow - r.scRow, r.offCol - r.scCol), (r.offRow + r.scRow, r.offCol + r.scCol))
  directH := fun row col h => directLocH r row col h false false
  directDtm := fun row col d =>
    match rpcDirectDtm conv .py N r e d.1 d.2 row col with
    | .error e => .error e
    | .ok l => dtmRows l
  inverse := fun lon lat h =>
    match inverseLocPy r lon lat h with
    | .error e => .error e
    | .ok .unavailable => .ok none
    | .ok (.rows l) => .ok (some (l.map fun p => (p.x, p.y)))

end Shareloc
