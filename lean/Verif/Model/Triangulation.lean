import Verif.Model.Rpc

/-!
Model of `shareloc/geomodels/los.py` and `shareloc/geofunctions/triangulation.py`.

A NaN is `none`.  The conversion between reference systems (`coordinates_conversion`, PROJ) is a parameter acting on
each row, `np.linalg.norm` uses a parameter `sqrt`, and the arrays are lists of rows.
-/

namespace Shareloc
variable {K : Type*} [Field K] [LinearOrder K]

/-! ### Vectors -/

/-- Scalar product of two rows. -/
def V3.dot (a b : V3 K) : K := a.x * b.x + a.y * b.y + a.z * b.z

/-- `np.cross` (triangulation.py:124). -/
def V3.cross (a b : V3 K) : V3 K := ⟨a.y * b.z - a.z * b.y, a.z * b.x - a.x * b.z, a.x * b.y - a.y * b.x⟩

/-- Difference of two rows. -/
def V3.minus (a b : V3 K) : V3 K := ⟨a.x - b.x, a.y - b.y, a.z - b.z⟩

/-- The row if none of its components is NaN. -/
def rowSome (p : ORow K) : Option (V3 K) :=
  match p.x, p.y, p.z with
  | some x, some y, some z => some ⟨x, y, z⟩
  | _, _, _ => none

/-- A row without NaN. -/
def V3.toRow (p : V3 K) : ORow K := ⟨some p.x, some p.y, some p.z⟩

/-! ### Lines of sight (los.py) -/

/-- `los_extrema[0::2] = a; los_extrema[1::2] = b` (los.py:75-82). -/
def interleave {α : Type*} : List α → List α → List α
  | a :: as, b :: bs => a :: b :: interleave as bs
  | _, _ => []

/-- `l[0::2]` (los.py:87). -/
def evens {α : Type*} : List α → List α
  | [] => []
  | [a] => [a]
  | a :: _ :: l => a :: evens l

/-- `l[1::2]` (los.py:88-89). -/
def odds {α : Type*} : List α → List α
  | [] => []
  | [_] => []
  | _ :: b :: l => b :: odds l

/-- What LOS uses of a geometric model: `direct_loc_h(row, col, alt, fill_nan)` and `get_alt_min_max()`. -/
structure LosModel (K : Type*) where
  directLocH : List (Option K) → List (Option K) → K → Bool → Except RpcError (List (ORow K))
  altMinMax : K × K

/-- `starting_points`, `ending_points` and `viewing_vectors` (los.py:101-128). -/
structure Los (K : Type*) where
  start : List (ORow K)
  stop : List (ORow K)
  vis : List (ORow K)
deriving DecidableEq, Repr

/-- One viewing vector: `vis / norm(vis)` with `vis = start - end`, NaN if the norm is null (los.py:89-99). -/
def viewingVector (sqrt : K → K) (s e : ORow K) : ORow K :=
  match rowSome s, rowSome e with
  | some s, some e =>
    let v := s.minus e
    let n := sqrt (v.x * v.x + v.y * v.y + v.z * v.z)
    if n = 0 then nanRow else ⟨some (v.x / n), some (v.y / n), some (v.z / n)⟩
  | _, _ => nanRow

/-- `LOS.los_creation` (los.py:58-99): the sensor positions are (col, row) pairs. -/
def losCreation (sqrt : K → K) (conv : ORow K → ORow K) (m : LosModel K) (positions : List (Option K × Option K))
    (altMinMax : Option (K × K)) (fillNan : Bool) : Except RpcError (Los K) :=
  let (altMin, altMax) := altMinMax.getD m.altMinMax
  let col := positions.map fun p => p.1
  let row := positions.map fun p => p.2
  match m.directLocH row col altMax fillNan, m.directLocH row col altMin fillNan with
  | .ok a, .ok b =>
    let ecef := (interleave a b).map conv
    .ok ⟨evens ecef, odds ecef, List.zipWith (viewingVector sqrt) (evens ecef) (odds ecef)⟩
  | .error e, _ => .error e
  | _, .error e => .error e

/-! ### Triangulation (triangulation.py) -/

/-- A 3x3 matrix as its rows. -/
abbrev M3 (K : Type*) := V3 (V3 K)

/-- Determinant. -/
def M3.det (m : M3 K) : K :=
  m.x.x * (m.y.y * m.z.z - m.y.z * m.z.y) - m.x.y * (m.y.x * m.z.z - m.y.z * m.z.x) +
    m.x.z * (m.y.x * m.z.y - m.y.y * m.z.x)

/-- `np.linalg.inv` (triangulation.py:167) for one 3x3 matrix: cofactors over the determinant. -/
def M3.inv (m : M3 K) : M3 K :=
  let d := M3.det m
  ⟨⟨(m.y.y * m.z.z - m.y.z * m.z.y) / d, (m.x.z * m.z.y - m.x.y * m.z.z) / d, (m.x.y * m.y.z - m.x.z * m.y.y) / d⟩,
   ⟨(m.y.z * m.z.x - m.y.x * m.z.z) / d, (m.x.x * m.z.z - m.x.z * m.z.x) / d, (m.x.z * m.y.x - m.x.x * m.y.z) / d⟩,
   ⟨(m.y.x * m.z.y - m.y.y * m.z.x) / d, (m.x.y * m.z.x - m.x.x * m.z.y) / d, (m.x.x * m.y.y - m.x.y * m.y.x) / d⟩⟩

/-- Product of NaN-able numbers. -/
def omul (a b : Option K) : Option K :=
  match a, b with
  | some x, some y => some (x * y)
  | _, _ => none

/-- An element of `np.eye(3) - vis vis^T` (triangulation.py:160-161). -/
def idMinus (e : K) (a b : Option K) : Option K := (omul a b).map fun p => e - p

/-- `id_vivi` of one view (triangulation.py:160-161). -/
def idVivi (v : ORow K) : V3 (ORow K) :=
  ⟨⟨idMinus 1 v.x v.x, idMinus 0 v.x v.y, idMinus 0 v.x v.z⟩,
   ⟨idMinus 0 v.y v.x, idMinus 1 v.y v.y, idMinus 0 v.y v.z⟩,
   ⟨idMinus 0 v.z v.x, idMinus 0 v.z v.y, idMinus 1 v.z v.z⟩⟩

/-- `np.nansum` of a list: NaN count as 0. -/
def nansum (l : List (Option K)) : K := (l.map fun o => o.getD 0).sum

/-- `sum_id_vivi` (triangulation.py:162). -/
def sumIdVivi (views : List (ORow K × ORow K)) : M3 K :=
  let s (f : V3 (ORow K) → Option K) : K := nansum (views.map fun w => f (idVivi w.2))
  ⟨⟨s fun m => m.x.x, s fun m => m.x.y, s fun m => m.x.z⟩,
   ⟨s fun m => m.y.x, s fun m => m.y.y, s fun m => m.y.z⟩,
   ⟨s fun m => m.z.x, s fun m => m.z.y, s fun m => m.z.z⟩⟩

/-- One component of `id_vivi_si` (triangulation.py:164). -/
def idViviSi (r s : ORow K) : K := nansum [omul r.x s.x, omul r.y s.y, omul r.z s.z]

/-- `sum_id_vivi_si` (triangulation.py:164-165). -/
def sumIdViviSi (views : List (ORow K × ORow K)) : V3 K :=
  let s (f : V3 (ORow K) → ORow K) : K := (views.map fun w => idViviSi (f (idVivi w.2)) w.1).sum
  ⟨s fun m => m.x, s fun m => m.y, s fun m => m.z⟩

/-- The exceptions of this module. -/
inductive TriError
  | singular  -- numpy.linalg.LinAlgError
  | keyError
  | badSizes
  | model (e : RpcError)
deriving DecidableEq, Repr

/-- `n_view_triangulation` (triangulation.py:152-169) for one match, from the (start, viewing vector) of its views. -/
def nViewPoint (views : List (ORow K × ORow K)) : Except TriError (V3 K) :=
  let m := sumIdVivi views
  let b := sumIdViviSi views
  if M3.det m = 0 then .error .singular
  else
    let i := M3.inv m
    .ok ⟨i.x.dot b, i.y.dot b, i.z.dot b⟩

/-- A computation on each element, the first error being raised for the whole array. -/
def forEach {α β : Type*} (f : α → Except TriError β) : List α → Except TriError (List β)
  | [] => .ok []
  | a :: as =>
    match f a with
    | .error e => .error e
    | .ok b =>
      match forEach f as with
      | .error e => .error e
      | .ok bs => .ok (b :: bs)

/-- `n_view_triangulation` (triangulation.py:152-169) on an array of matches; a singular matrix raises for all. -/
def nViewTriangulation (pts : List (List (ORow K × ORow K))) : Except TriError (List (V3 K)) := forEach nViewPoint pts

/-- No component of the row is NaN. -/
def rowOk (p : ORow K) : Bool := p.x.isSome && p.y.isSome && p.z.isSome

/-- Boolean indexing `results[filtering] = values` of an array filled with `fill` (triangulation.py:145-148, 268-274). -/
def scatterMask {β : Type*} (fill : β) : List Bool → List β → List β
  | [], _ => []
  | true :: m, v :: vs => v :: scatterMask fill m vs
  | true :: m, [] => fill :: scatterMask fill m []
  | false :: m, vs => fill :: scatterMask fill m vs

/-- `los_triangulation` (triangulation.py:128-149). -/
def losTriangulation (left right : Los K) : Except TriError (List (ORow K)) :=
  let ms := (left.start.zip left.vis).zip (right.start.zip right.vis)
  let ok := ms.map fun t => rowOk t.1.1 && rowOk t.1.2 && rowOk t.2.1 && rowOk t.2.2
  let valid := ms.filter fun t => rowOk t.1.1 && rowOk t.1.2 && rowOk t.2.1 && rowOk t.2.2
  match nViewTriangulation (valid.map fun t => [t.1, t.2]) with
  | .error e => .error e
  | .ok r => .ok (scatterMask nanRow ok (r.map V3.toRow))

/-- `n_view_distance` (triangulation.py:111-125) for one view of one point. -/
def nViewDistance (sqrt : K → K) (s v p : ORow K) : Option K :=
  match rowSome s, rowSome v, rowSome p with
  | some s, some v, some p =>
    let c := (p.minus s).cross v
    some (sqrt (c.x * c.x + c.y * c.y + c.z * c.z))
  | _, _, _ => none

/-- `distance_point_los` (triangulation.py:91-108). -/
def distancePointLos (sqrt : K → K) (los : Los K) (points : List (ORow K)) : List (Option K) :=
  ((los.start.zip los.vis).zip points).map fun t => nViewDistance sqrt t.1.1 t.1.2 t.2

/-- The result of `sensor_triangulation`. -/
structure TriResult (K : Type*) where
  ecef : List (ORow K)
  wgs84 : List (ORow K)
  residues : Option (List (Option K))
deriving DecidableEq, Repr

/-- `sensor_triangulation` (triangulation.py:33-88): `matches` are (col left, row left, col right, row right) since LOS
takes (col, row) positions; `toEcef` and `toWgs84` are the conversions 4326 -> 4978 and back. -/
def sensorTriangulation (sqrt : K → K) (toEcef toWgs84 : ORow K → ORow K) (mL mR : LosModel K)
    (pts : List ((Option K × Option K) × (Option K × Option K))) (minMaxL minMaxR : Option (K × K))
    (residues fillNan : Bool) : Except TriError (TriResult K) :=
  match losCreation sqrt toEcef mL (pts.map fun t => t.1) minMaxL fillNan,
        losCreation sqrt toEcef mR (pts.map fun t => t.2) minMaxR fillNan with
  | .ok l, .ok r =>
    match losTriangulation l r with
    | .error e => .error e
    | .ok e => .ok ⟨e, e.map toWgs84, if residues then some (distancePointLos sqrt l e) else none⟩
  | .error e, _ => .error (.model e)
  | _, .error e => .error (.model e)

/-! ### Epipolar triangulation -/

/-- A disparity map: coordinates of the columns and rows, disparities (NaN = `none`). -/
structure DispMap (K : Type*) where
  cols : List K
  rows : List K
  disp : ℕ → ℕ → Option K

/-- The pixels of the map in row-major order, with their indexes (triangulation.py:184-196: `np.meshgrid(disp.col,
disp.row)`, then `flatten`). -/
def dispPixels (d : DispMap K) : List ((ℕ × ℕ) × K × K) :=
  (d.rows.zipIdx).flatMap fun r => (d.cols.zipIdx).map fun c => ((r.2, c.2), c.1, r.1)

/-- `transform_disp_to_matches` (triangulation.py:172-198): left and right positions as (col, row) and `values_ok`. -/
def transformDispToMatches (d : DispMap K) (mask : Option (ℕ → ℕ → K)) :
    List (Option K × Option K) × List (Option K × Option K) × List Bool :=
  let px := dispPixels d
  let okAt (ij : ℕ × ℕ) : Bool := match mask with
    | some m => decide (m ij.1 ij.2 > 0)
    | none => true
  let sel := px.filter fun t => okAt t.1
  (sel.map fun t => (some t.2.1, some t.2.2),
   sel.map fun t => ((d.disp t.1.1 t.1.2).map fun x => t.2.1 + x, some t.2.2),
   px.map fun t => okAt t.1)

/-- The matches given to `epipolar_triangulation`. -/
inductive EpiMatches (K : Type*)
  | sift (m : List ((Option K × Option K) × (Option K × Option K)))
  | disp (d : DispMap K)
  | other

/-- `epipolar_triangulation` (triangulation.py:201-276): `gridL`, `gridR` are the `interpolate` of the rectification
grids acting on each position.  Masked values are 0; residues not asked are NaN. -/
def epipolarTriangulation (sqrt : K → K) (toEcef toWgs84 : ORow K → ORow K) (mL mR : LosModel K)
    (gridL gridR : Option K × Option K → Option K × Option K) (ms : EpiMatches K) (mask : Option (ℕ → ℕ → K))
    (minMaxL minMaxR : Option (K × K)) (residues fillNan : Bool) :
    Except TriError (List (ORow K) × List (ORow K) × List (Option K)) :=
  let go (l r : List (Option K × Option K)) (ok : List Bool) :
      Except TriError (List (ORow K) × List (ORow K) × List (Option K)) :=
    match sensorTriangulation sqrt toEcef toWgs84 mL mR ((l.map gridL).zip (r.map gridR)) minMaxL minMaxR residues
      fillNan with
    | .error e => .error e
    | .ok t =>
      let zero : ORow K := ⟨some 0, some 0, some 0⟩
      .ok (scatterMask zero ok t.ecef, scatterMask zero ok t.wgs84,
        scatterMask (some 0) ok (t.residues.getD (t.ecef.map fun _ => none)))
  match ms with
  | .sift m => go (m.map fun t => t.1) (m.map fun t => t.2) (m.map fun _ => true)
  | .disp d =>
    let t := transformDispToMatches d mask
    go t.1 t.2.1 t.2.2
  | .other => .error .keyError

end Shareloc
