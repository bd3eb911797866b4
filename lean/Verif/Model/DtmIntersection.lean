import Verif.Model.Bilinear

/-!
Model of the line-of-sight / DTM intersection:
`shareloc/geofunctions/dtm_intersection.py` (`intersect_dtm_cube`, `intersection`,
`intersection_n_los_dtm`) and `shareloc/bindings/dtm_intersection.cpp` (same functions).
Both implementations are the same text up to the points where `Impl` is inspected below.
Index coordinates: `x` is the row index, `y` the column index, `z` the altitude (the Python names
`col_*` for coordinate 0 and `row_*` for coordinate 1 are kept).
-/

namespace Shareloc
variable {K : Type*} [Field K] [LinearOrder K] [IsStrictOrderedRing K] [FloorRing K]

/-- Which of the two implementations is modelled. -/
inductive Impl
  | py
  | cpp
deriving DecidableEq, Repr

/-- One crossing of the line of sight with a face plane: the entries of the four parallel lists
`coord_col_i, coord_row_i, coord_alt_i, alti_layer_i` (dtm_intersection.py:244). -/
structure Crossing (K : Type*) where
  p : V3 K
  h : K
deriving DecidableEq, Repr

/-- `plane_coef_d` (dtm_intersection.py:93-95, dtm_intersection.cpp:59-63). -/
def planeD (d : Dtm K) (k : Fin 6) : K :=
  match k with
  | 0 => 0
  | 1 => (d.nbRows : K) - 1
  | 2 => 0
  | 3 => (d.nbCols : K) - 1
  | 4 => d.altMin
  | 5 => d.altMax

/-- `eq_plan` (dtm_intersection.py:90-92,113-129, dtm_intersection.cpp:96-103); the products with the
0/1 coefficients are evaluated. -/
def eqPlan (d : Dtm K) (k : Fin 6) (p : V3 K) : K :=
  match k with
  | 0 => p.x - planeD d 0
  | 1 => p.x - planeD d 1
  | 2 => p.y - planeD d 2
  | 3 => p.y - planeD d 3
  | 4 => p.z - planeD d 4
  | 5 => p.z - planeD d 5

/-- Errors of the cube intersection. -/
inductive CubeError
  /-- `throw runtime_error("... too many solutions ...")`, C++ only (dtm_intersection.cpp:271-273);
  Python logs a warning and goes on. -/
  | tooManySolutions
deriving DecidableEq, Repr

/-- dtm_intersection.py:280-330, dtm_intersection.cpp:270-328: the body executed when `A` (previous
vertex) and `B` (vertex of rank `layer`) are not strictly on the same side of plane `k`. -/
def crossingOf (d : Dtm K) (k : Fin 6) (layer : ℕ) (a b : V3 K) : Crossing K :=
  let losA := eqPlan d k a
  let losB := eqPlan d k b
  if losA = 0 then ⟨a, (layer : K) - 1⟩
  else if losB = 0 then ⟨b, layer⟩
  else
    let ca := losB / (losB - losA)
    let cb := -losA / (losB - losA)
    ⟨⟨if k.val < 2 then planeD d k else ca * a.x + cb * b.x,
      if 1 < k.val ∧ k.val < 4 then planeD d k else ca * a.y + cb * b.y,
      if k.val > 3 then planeD d k else ca * a.z + cb * b.z⟩, (layer : K) - ca⟩

/-- dtm_intersection.py:265-335, dtm_intersection.cpp:252-336: loop over the vertices for one plane,
stopping at the first crossing.  `a` is the previous vertex, `layer` the rank of the next one. -/
def faceScan (impl : Impl) (d : Dtm K) (k : Fin 6) (a : V3 K) (layer : ℕ) :
    List (V3 K) → Except CubeError (Option (Crossing K))
  | [] => .ok none
  | b :: rest =>
    if eqPlan d k a * eqPlan d k b ≤ 0 then
      if impl = .cpp ∧ eqPlan d k a = 0 ∧ eqPlan d k b = 0 then .error .tooManySolutions
      else .ok (some (crossingOf d k layer a b))
    else faceScan impl d k b (layer + 1) rest

/-- dtm_intersection.py:252-335, dtm_intersection.cpp:234-337: the scan of one plane starts with
`A = B =` first vertex. -/
def faceHit (impl : Impl) (d : Dtm K) (k : Fin 6) (los : List (V3 K)) :
    Except CubeError (Option (Crossing K)) :=
  match los with
  | [] => .ok none
  | v :: _ => faceScan impl d k v 0 los

/-- The candidates of the six planes, in plane order. -/
def faceHits (impl : Impl) (d : Dtm K) (los : List (V3 K)) : List (Fin 6) →
    Except CubeError (List (Crossing K))
  | [] => .ok []
  | k :: ks =>
    match faceHit impl d k los with
    | .error e => .error e
    | .ok none => faceHits impl d los ks
    | .ok (some c) =>
      match faceHits impl d los ks with
      | .error e => .error e
      | .ok cs => .ok (c :: cs)

/-- dtm_intersection.py:341-354: inner loop of the exchange sort, for the element `x` of the current
position and the elements after it. -/
def exchangePass (x : Crossing K) : List (Crossing K) → Crossing K × List (Crossing K)
  | [] => (x, [])
  | y :: ys =>
    if y.h < x.h then let r := exchangePass y ys; (r.1, x :: r.2)
    else let r := exchangePass x ys; (r.1, y :: r.2)

/-- dtm_intersection.py:337-354, dtm_intersection.cpp:342-365: the exchange sort; the first argument
counts the remaining positions of the outer loop `range(nbi)`. -/
def exchangeLoop : ℕ → List (Crossing K) → List (Crossing K)
  | 0, l => l
  | _ + 1, [] => []
  | n + 1, x :: xs =>
    let r := exchangePass x xs
    r.1 :: exchangeLoop n r.2

/-- The whole sort, `nbi` being the number of candidates. -/
def exchangeSort (l : List (Crossing K)) : List (Crossing K) := exchangeLoop l.length l

/-- `test_on_cube` (dtm_intersection.py:361-368, dtm_intersection.cpp:371-378). -/
def onCube (d : Dtm K) (p : V3 K) : Bool :=
  decide (planeD d 0 ≤ p.x) && decide (p.x ≤ planeD d 1) && decide (planeD d 2 ≤ p.y) &&
  decide (p.y ≤ planeD d 3) && decide (planeD d 4 ≤ p.z) && decide (p.z ≤ planeD d 5)

/-- dtm_intersection.py:356-402, dtm_intersection.cpp:366-420 on index coordinates: filter the sorted
candidates, answer the first one if at least two remain.  (`while` loop with in-place deletion =
`List.filter`.) -/
def cubeOfIndex (impl : Impl) (d : Dtm K) (losIndex : List (V3 K)) :
    Except CubeError (Option (Crossing K)) :=
  match faceHits impl d losIndex [0, 1, 2, 3, 4, 5] with
  | .error e => .error e
  | .ok cs =>
    match (exchangeSort cs).filter (fun c => onCube d c.p) with
    | c :: _ :: _ => .ok (some c)
    | _ => .ok none

/-- `intersect_dtm_cube` (dtm_intersection.py:231-402, dtm_intersection.cpp:193-421): the entry point
(if any) and the line of sight in index coordinates. -/
def intersectDtmCube (impl : Impl) (d : Dtm K) (los : List (V3 K)) :
    Except CubeError (Option (Crossing K) × List (V3 K)) :=
  let li := tersToIndexsPy d.transform los
  match cubeOfIndex impl d li with
  | .error e => .error e
  | .ok r => .ok (r, li)

/-- Result of `intersection` in index coordinates. -/
inductive Outcome (K : Type*)
  /-- `b_trouve = True`. -/
  | found (p : V3 K)
  /-- `b_trouve = False`. -/
  | notFound
  /-- the interpolation coefficient `c_h` is a division by zero, hence not finite: Python's
  `interpolate(nan, ..)` raises `ValueError`, C++ goes on with NaN. -/
  | nonFinite
  /-- the fuel of the `while abs(d_2) > tol_z` loop is exhausted (an artefact of the model). -/
  | falsiFuel
  /-- the fuel of the cell or plane loop is exhausted (an artefact of the model, proved impossible). -/
  | marchFuel
deriving DecidableEq, Repr

/-- `self.tol_z` (dtm_intersection.py:82, dtm_intersection.cpp:40). -/
def tolZ : K := 1 / 10000

/-- dtm_intersection.py:777-819, dtm_intersection.cpp:838-888: the regula falsi between `p1` (terrain
altitude `alti1`) and `p2` (terrain altitude `h2`).  `d_2` is initialised above the tolerance, so the
body runs at least once. -/
def falsi (interp : K → K → K) : ℕ → V3 K → K → V3 K → K → Outcome K
  | 0, _, _, _, _ => .falsiFuel
  | n + 1, p1, alti1, p2, h2 =>
    if (h2 - alti1) - (p2.z - p1.z) = 0 then .nonFinite
    else
      let ch := (p1.z - alti1) / ((h2 - alti1) - (p2.z - p1.z))
      let q : V3 K := ⟨p1.x + ch * (p2.x - p1.x), p1.y + ch * (p2.y - p1.y), p1.z + ch * (p2.z - p1.z)⟩
      let zv := interp q.x q.y
      let d2 := zv - q.z
      if |d2| > tolZ then
        if d2 < 0 then falsi interp n q zv p2 h2 else falsi interp n p1 alti1 q zv
      else .found q

/-- The mutable variables of the cell loop: `p_2`, `col_c`, `row_c`, `a_2`. -/
structure March (K : Type*) where
  p2 : V3 K
  colC : ℤ
  rowC : ℤ
  a2 : K
deriving DecidableEq, Repr

/-- dtm_intersection.py:535-745, dtm_intersection.cpp:558-801: exit of the current cell, in the same
branch order.  `v0` is the segment's first vertex (`col_0,row_0,z_0`), `dir` is `los_dtm`.  The final
`else` of each direction is the state reached when none of the five comparisons holds (impossible for
ordered numbers). -/
def cellExit (v0 dir : V3 K) (s : March K) : March K :=
  let c : K := s.colC
  let r : K := s.rowC
  if dir.x = 0 then
    if dir.y < 0 then
      let a := (r - v0.y) / dir.y
      ⟨⟨s.p2.x, r, v0.z + a * dir.z⟩, s.colC, s.rowC - 1, a⟩
    else
      let a := (r + 1 - v0.y) / dir.y
      ⟨⟨s.p2.x, r + 1, v0.z + a * dir.z⟩, s.colC, s.rowC + 1, a⟩
  else if dir.y = 0 then
    if dir.x < 0 then
      let a := (c - v0.x) / dir.x
      ⟨⟨c, s.p2.y, v0.z + a * dir.z⟩, s.colC - 1, s.rowC, a⟩
    else
      let a := (c + 1 - v0.x) / dir.x
      ⟨⟨c + 1, s.p2.y, v0.z + a * dir.z⟩, s.colC + 1, s.rowC, a⟩
  else if dir.x < 0 ∧ dir.x ≤ dir.y ∧ dir.x ≤ -dir.y then
    -- mainly north
    let a := (c - v0.x) / dir.x
    let y := v0.y + a * dir.y
    if y > r ∧ y < r + 1 then ⟨⟨c, y, v0.z + a * dir.z⟩, s.colC - 1, s.rowC, a⟩
    else if y < r then
      let a := (r - v0.y) / dir.y
      ⟨⟨v0.x + a * dir.x, r, v0.z + a * dir.z⟩, s.colC, s.rowC - 1, a⟩
    else if y > r + 1 then
      let a := (r + 1 - v0.y) / dir.y
      ⟨⟨v0.x + a * dir.x, r + 1, v0.z + a * dir.z⟩, s.colC, s.rowC + 1, a⟩
    else if y = r then ⟨⟨c, r, v0.z + a * dir.z⟩, s.colC - 1, s.rowC - 1, a⟩
    else if y = r + 1 then ⟨⟨c, r + 1, v0.z + a * dir.z⟩, s.colC - 1, s.rowC + 1, a⟩
    else ⟨⟨s.p2.x, y, s.p2.z⟩, s.colC, s.rowC, a⟩
  else if dir.y > 0 ∧ dir.y ≥ dir.x ∧ dir.y ≥ -dir.x then
    -- mainly east
    let a := (r + 1 - v0.y) / dir.y
    let x := v0.x + a * dir.x
    if x > c ∧ x < c + 1 then ⟨⟨x, r + 1, v0.z + a * dir.z⟩, s.colC, s.rowC + 1, a⟩
    else if x < c then
      let a := (c - v0.x) / dir.x
      ⟨⟨c, v0.y + a * dir.y, v0.z + a * dir.z⟩, s.colC - 1, s.rowC, a⟩
    else if x > c + 1 then
      let a := (c + 1 - v0.x) / dir.x
      ⟨⟨c + 1, v0.y + a * dir.y, v0.z + a * dir.z⟩, s.colC + 1, s.rowC, a⟩
    else if x = c then ⟨⟨c, r + 1, v0.z + a * dir.z⟩, s.colC - 1, s.rowC + 1, a⟩
    else if x = c + 1 then ⟨⟨c + 1, r + 1, v0.z + a * dir.z⟩, s.colC + 1, s.rowC + 1, a⟩
    else ⟨⟨x, s.p2.y, s.p2.z⟩, s.colC, s.rowC, a⟩
  else if dir.x > 0 ∧ dir.x ≥ dir.y ∧ dir.x ≥ -dir.y then
    -- mainly south
    let a := (c + 1 - v0.x) / dir.x
    let y := v0.y + a * dir.y
    if y > r ∧ y < r + 1 then ⟨⟨c + 1, y, v0.z + a * dir.z⟩, s.colC + 1, s.rowC, a⟩
    else if y < r then
      let a := (r - v0.y) / dir.y
      ⟨⟨v0.x + a * dir.x, r, v0.z + a * dir.z⟩, s.colC, s.rowC - 1, a⟩
    else if y > r + 1 then
      let a := (r + 1 - v0.y) / dir.y
      ⟨⟨v0.x + a * dir.x, r + 1, v0.z + a * dir.z⟩, s.colC, s.rowC + 1, a⟩
    else if y = r then ⟨⟨c + 1, r, v0.z + a * dir.z⟩, s.colC + 1, s.rowC - 1, a⟩
    else if y = r + 1 then ⟨⟨c + 1, r + 1, v0.z + a * dir.z⟩, s.colC + 1, s.rowC + 1, a⟩
    else ⟨⟨s.p2.x, y, s.p2.z⟩, s.colC, s.rowC, a⟩
  else if dir.y < 0 ∧ dir.y ≤ dir.x ∧ dir.y ≤ -dir.x then
    -- mainly west
    let a := (r - v0.y) / dir.y
    let x := v0.x + a * dir.x
    if x > c ∧ x < c + 1 then ⟨⟨x, r, v0.z + a * dir.z⟩, s.colC, s.rowC - 1, a⟩
    else if x < c then
      let a := (c - v0.x) / dir.x
      ⟨⟨c, v0.y + a * dir.y, v0.z + a * dir.z⟩, s.colC - 1, s.rowC, a⟩
    else if x > c + 1 then
      let a := (c + 1 - v0.x) / dir.x
      ⟨⟨c + 1, v0.y + a * dir.y, v0.z + a * dir.z⟩, s.colC + 1, s.rowC, a⟩
    else if x = c then ⟨⟨c, r, v0.z + a * dir.z⟩, s.colC - 1, s.rowC - 1, a⟩
    else if x = c + 1 then ⟨⟨c + 1, r, v0.z + a * dir.z⟩, s.colC + 1, s.rowC - 1, a⟩
    else ⟨⟨x, s.p2.y, s.p2.z⟩, s.colC, s.rowC, a⟩
  else s

/-- Loop condition of the cell loop (dtm_intersection.py:519,524, dtm_intersection.cpp:535,545). -/
def marchInside (d : Dtm K) (s : March K) : Bool :=
  decide (s.a2 < 1) && decide (-1 < s.colC) && decide (s.colC < (d.nbRows : ℤ) - 1) &&
  decide (-1 < s.rowC) && decide (s.rowC < (d.nbCols : ℤ) - 1)

/-- `b_intersect` (dtm_intersection.py:747-759, dtm_intersection.cpp:804-819). -/
def bIntersect (z0 z1 hI hS p1z p2z : K) : Bool :=
  if p2z > z0 then !(decide (p1z > hS ∧ z0 > hS) || decide (p1z < hI ∧ z0 < hI))
  else if p2z < z1 then !(decide (p1z > hS ∧ z1 > hS) || decide (p1z < hI ∧ z1 < hI))
  else !(decide (p1z > hS ∧ p2z > hS) || decide (p1z < hI ∧ p2z < hI))

/-- dtm_intersection.py:523-821, dtm_intersection.cpp:545-891: the cell loop on one segment from `v0`
to `v1`.  `.inl` is a `return`, `.inr` is the normal exit of the loop. -/
def marchCells (d : Dtm K) (falsiN : ℕ) (v0 v1 : V3 K) : ℕ → March K → Outcome K ⊕ March K
  | 0, _ => .inl .marchFuel
  | n + 1, s =>
    if marchInside d s then
      let hI := altMinCellPy d.alt s.colC s.rowC
      let hS := altMaxCellPy d.alt s.colC s.rowC
      let p1 := s.p2
      let s' := cellExit v0 ⟨v1.x - v0.x, v1.y - v0.y, v1.z - v0.z⟩ s
      if bIntersect v0.z v1.z hI hS p1.z s'.p2.z then
        let alti1 := d.interpolate p1.x p1.y
        let h2 := d.interpolate s'.p2.x s'.p2.y
        if (p1.z - alti1) * (s'.p2.z - h2) ≤ 0 then
          .inl (falsi d.interpolate falsiN p1 alti1 s'.p2 h2)
        else marchCells d falsiN v0 v1 n s'
      else marchCells d falsiN v0 v1 n s'
    else .inr s

/-- Python list/array indexing `l[i]` with negative indices counted from the end; only used in range. -/
def pyGet (l : List (V3 K)) (i : ℤ) : V3 K :=
  if i < 0 then l.getD ((l.length : ℤ) + i).toNat ⟨0, 0, 0⟩ else l.getD i.toNat ⟨0, 0, 0⟩

/-- `alti[i]` (dtm_intersection.py:425 `np.arange(npl, -1, -1)`; dtm_intersection.cpp:433-434). -/
def altiAt (impl : Impl) (npl : ℕ) (i : ℤ) : K :=
  match impl with
  | .py => (npl : K) - i
  | .cpp => i

/-- The cell containing the starting point, corrected when it is on the lower side with a negative
direction: `col_c -= 1` in Python (dtm_intersection.py:504-516), `col_c = 1` in C++
(dtm_intersection.cpp:523-532). -/
def startCell (impl : Impl) (p dir : K) : ℤ :=
  if p = ((⌊p⌋ : ℤ) : K) ∧ dir < 0 then
    match impl with
    | .py => ⌊p⌋ - 1
    | .cpp => 1
  else ⌊p⌋

/-- Fuel given to the cell loop: more than the number of cells, proved sufficient (C15). -/
def cellFuel (d : Dtm K) : ℕ := d.nbRows * d.nbCols + d.nbRows + d.nbCols + 1

/-- dtm_intersection.py:456-843, dtm_intersection.cpp:468-926: loop over the segments. -/
def marchPlanes (impl : Impl) (d : Dtm K) (falsiN : ℕ) (los : List (V3 K)) :
    ℕ → ℤ → V3 K → K → Outcome K
  | 0, _, _, _ => .marchFuel
  | n + 1, i0, p2, hp2 =>
    if i0 < (los.length : ℤ) - 1 then
      let v0 := pyGet los i0
      let v1 := pyGet los (i0 + 1)
      if v1.x - v0.x = 0 ∧ v1.y - v0.y = 0 then
        let alti1 := d.interpolate v0.x v0.y
        if v1.z ≤ alti1 then .found ⟨v0.x, v0.y, alti1⟩
        else marchPlanes impl d falsiN los n (i0 + 1) p2 hp2
      else
        let a2 := hp2 - i0
        let a2 := if a2 ≥ 1 then 0 else a2
        let s : March K := ⟨p2, startCell impl p2.x (v1.x - v0.x), startCell impl p2.y (v1.y - v0.y), a2⟩
        if !marchInside d s then .notFound
        else
          match marchCells d falsiN v0 v1 (cellFuel d) s with
          | .inl o => o
          | .inr s' =>
            if s'.a2 ≥ 1 then
              marchPlanes impl d falsiN los n (i0 + 1) (pyGet los (i0 + 1)) (altiAt impl los.length (i0 + 1))
            else .notFound
    else .notFound

/-- `intersection` (dtm_intersection.py:409-843, dtm_intersection.cpp:423-927), result in index
coordinates. -/
def intersectionIdx (impl : Impl) (d : Dtm K) (falsiN : ℕ) (losIndex : List (V3 K)) (pb : V3 K) (h : K) :
    Outcome K :=
  if pb.z - d.interpolate pb.x pb.y < 0 then .notFound
  else marchPlanes impl d falsiN losIndex (losIndex.length + 2) ⌊h⌋ pb h

/-- What `intersection_n_los_dtm` stores for one line of sight. -/
inductive DtmPoint (K : Type*)
  | point (p : V3 K)
  /-- `[nan, nan, nan]`. -/
  | nan
  /-- the uninitialised `array<double,3> point_r` of the C++ code (dtm_intersection.cpp:431). -/
  | uninitialised
  /-- an exception, a non-finite position or (artefact) exhausted fuel. -/
  | failure
deriving DecidableEq, Repr

/-- One iteration of `intersection_n_los_dtm` (dtm_intersection.py:857-864,
dtm_intersection.cpp:994-1017); the `found` flag is discarded by both. -/
def losDtm (impl : Impl) (d : Dtm K) (falsiN : ℕ) (los : List (V3 K)) : DtmPoint K :=
  match intersectDtmCube impl d los with
  | .error _ => .failure
  | .ok (none, _) => .nan
  | .ok (some c, li) =>
    match intersectionIdx impl d falsiN li c.p c.h with
    | .found p => .point (indexToTerPy d.transform p)
    | .notFound =>
      match impl with
      | .py => .point ⟨0, 0, 0⟩
      | .cpp => .uninitialised
    | _ => .failure

/-- `intersection_n_los_dtm` (dtm_intersection.py:845-866, dtm_intersection.cpp:964-1039). -/
def losDtmBatch (impl : Impl) (d : Dtm K) (falsiN : ℕ) (los : List (List (V3 K))) : List (DtmPoint K) :=
  los.map (losDtm impl d falsiN)

end Shareloc
