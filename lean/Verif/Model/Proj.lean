import Verif.Model.Rpc

/-!
`coordinates_conversion` (shareloc/proj_utils.py:30-52) around `rasterio.warp.transform`, and `RPC.direct_loc_grid_h`
(rpc.py:270-299).
-/

namespace Shareloc
variable {K : Type*} [Field K] [LinearOrder K] [IsStrictOrderedRing K]

/-- A number that `warp.transform` gives (proj_utils.py:49): GDAL gives `inf` for a point that it cannot convert. -/
inductive XNum (K : Type*)
  | num (x : K)
  | inf
  | nan
  deriving DecidableEq, Repr

/-- The argument (proj_utils.py:34): one point in a vector, or an array of `width` columns, row by row. -/
inductive CoordArray (K : Type*)
  | vector (l : List (XNum K))
  | rows (width : ℕ) (l : List (List (XNum K)))

/-- `rasterio.warp.transform(srs_in, srs_out, xs, ys, zs)` (proj_utils.py:49) for one point, with or without altitude: a parameter.  GDAL
converts each point of the arrays for itself. -/
structure WarpTransform (K : Type*) where
  flat : XNum K → XNum K → XNum K × XNum K
  high : XNum K → XNum K → XNum K → XNum K × XNum K × XNum K

/-- `coords[np.isinf(coords)] = np.nan` (proj_utils.py:51). -/
def XNum.noInf : XNum K → XNum K
  | .inf => .nan
  | x => x

/-- The conversion of one row (proj_utils.py:46-51): three columns are converted with the altitude, other widths by the first two
columns. -/
def convertRow (t : WarpTransform K) (width : ℕ) (r : List (XNum K)) : List (XNum K) :=
  let g (i : ℕ) := r.getD i .nan
  if width = 3 then
    let c := t.high (g 0) (g 1) (g 2)
    [c.1.noInf, c.2.1.noInf, c.2.2.noInf]
  else
    let c := t.flat (g 0) (g 1)
    [c.1.noInf, c.2.noInf]

/-- `coordinates_conversion` (proj_utils.py:30-52): rows of the result, or `IndexError`: on a vector that is not a point of two or three
numbers, `coords.shape[1]` fails, and so does `coords[:, 1]` on fewer than two columns. -/
def coordinatesConversion (t : WarpTransform K) : CoordArray K → Except RpcError (List (List (XNum K)))
  | .vector l =>
    if l.length = 3 ∨ l.length = 2 then .ok [convertRow t l.length l]
    else .error .badSizes
  | .rows width l => if width < 2 then .error .badSizes else .ok (l.map (convertRow t width))

/-- `RPC.direct_loc_grid_h` (rpc.py:270-299) for an RPC, at an altitude: the nodes column by column; the result of `direct_loc_h`, an
array with one row for the pixel, is unpacked into three variables, and `ValueError` is raised (by the unpacking, or, with three rows,
by the assignment of a row to an element). -/
def rpcDirectLocGridH (r : Rpc K) (row0 col0 steprow stepcol : K) (nbrow nbcol : ℕ) (alt : Option K) :
    Except RpcError (List (Option K × Option K)) :=
  mapExcept (fun t : K × K =>
    match directLocH r [some t.1] [some t.2] [alt] false false with
    | .error e => .error e
    | .ok _ => .error .badSizes)
    ((List.range nbcol).flatMap fun (j : ℕ) => (List.range nbrow).map fun (i : ℕ) => (row0 + steprow * (i : K), col0 + stepcol * (j : K)))

end Shareloc
