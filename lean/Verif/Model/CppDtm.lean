import Verif.Model.DtmIntersection
import Mathlib.Data.Fin.VecNotation

/-!
The C++ object `DTMIntersection` as it is in memory (shareloc/bindings/dtm_intersection.hpp:167-203): flat vectors read at computed positions,
arrays of six plane coefficients, setters, pickling (shareloc/bindings/bind.cpp:82-129), and the numpy buffers of the batch call.

Every read and write of a vector is checked: a position outside of the vector is the fault `outOfRange` (undefined behaviour in C++).  Numbers
are exact.  Integers are unbounded (Model/Cpp32 for `int` of 32 bits).
-/

namespace Shareloc
variable {K : Type} [Field K] [LinearOrder K] [IsStrictOrderedRing K] [FloorRing K]

/-- How a call may go wrong. -/
inductive CppFault
  /-- a vector is read or written outside of its bounds (undefined behaviour). -/
  | outOfRange
  /-- `throw runtime_error("C++ : too many solutions in DTM intersection")` (dtm_intersection.cpp:271-273). -/
  | tooMany
  /-- `c_h` is 0/0 (dtm_intersection.cpp:844) and NaN is converted to an index (dtm_intersection.cpp:155,169): undefined behaviour. -/
  | nanIndex
  /-- the bound that the model puts on a loop is reached (artefact of the model). -/
  | fuel
deriving DecidableEq, Repr

/-- `v[i]`. -/
def rd {α : Type*} (v : List α) (i : ℤ) : Except CppFault α :=
  if i < 0 then .error .outOfRange
  else match v[i.toNat]? with
    | some x => .ok x
    | none => .error .outOfRange

/-- `v[i] = x`. -/
def wr {α : Type*} (v : List α) (i : ℤ) (x : α) : Except CppFault (List α) :=
  if 0 ≤ i ∧ i < v.length then .ok (v.set i.toNat x) else .error .outOfRange

/-- The attributes (dtm_intersection.hpp:167-203). -/
structure CppDtm (K : Type) where
  altData : List K
  altMin : K
  altMax : K
  coefA : Fin 6 → K
  coefB : Fin 6 → K
  coefC : Fin 6 → K
  coefD : Fin 6 → K
  altMinCell : List K
  altMaxCell : List K
  tolZ : K
  epsg : ℤ
  plans : List K
  transInv : GdalTransform K
  transform : GdalTransform K
  nbRows : ℤ
  nbCols : ℤ

namespace CppDtm

/-- Body of `init_min_max` (dtm_intersection.cpp:939-956): the bounds of cell `(i, j)`. -/
def cellBounds (data : List K) (nbCols i j : ℕ) : Except CppFault (K × K) := do
  let v1 ← rd data (nbCols * i + j)
  let v2 ← rd data (nbCols * (i + 1) + j)
  let v3 ← rd data (nbCols * i + (j + 1))
  let v4 ← rd data (nbCols * (i + 1) + (j + 1))
  return (((⌊min (min (min v1 v2) v3) v4⌋ : ℤ) : K), ((⌈max (max (max v1 v2) v3) v4⌉ : ℤ) : K))

/-- The cells in the order of the loops (dtm_intersection.cpp:936-937). -/
def cells (nbRows nbCols : ℕ) : List (ℕ × ℕ) :=
  (List.range (nbRows - 1)).flatMap fun i => (List.range (nbCols - 1)).map fun j => (i, j)

/-- `init_min_max` (dtm_intersection.cpp:931-961): the values are written at `(nb_columns-1)*i+j`, that is in order. -/
def initMinMax (data : List K) (nbRows nbCols : ℕ) : Except CppFault (List (K × K)) :=
  (cells nbRows nbCols).mapM fun c => cellBounds data nbCols c.1 c.2

/-- The constructor (dtm_intersection.cpp:31-93): `data` is the array in row-major order.  Sizes are at least one. -/
def ctor (epsg : ℤ) (data : List K) (nbRows nbCols : ℕ) (t : GdalTransform K) : Except CppFault (CppDtm K) := do
  let b ← initMinMax data nbRows nbCols
  let _ ← rd data 0
  let lo := listMin data
  let hi := listMax data
  return {
    altData := data, altMin := lo, altMax := hi
    coefA := ![1, 1, 0, 0, 0, 0], coefB := ![0, 0, 1, 1, 0, 0], coefC := ![0, 0, 0, 0, 1, 1]
    coefD := ![0, (nbRows : K) - 1, 0, (nbCols : K) - 1, lo, hi]
    altMinCell := b.map Prod.fst, altMaxCell := b.map Prod.snd
    tolZ := 1 / 10000, epsg := epsg
    plans := [1, 0, 0, 0, 1, 0, 0, (nbRows : K) - 1, 0, 1, 0, 0, 0, 1, 0, (nbCols : K) - 1, 0, 0, 1, lo, 0, 0, 1, hi]
    transInv := t.inv, transform := t, nbRows := nbRows, nbCols := nbCols }

/-- `eq_plan` (dtm_intersection.cpp:96-103). -/
def eqPlan (o : CppDtm K) (k : Fin 6) (p : V3 K) : K := o.coefA k * p.x + o.coefB k * p.y + o.coefC k * p.z - o.coefD k

/-- `ter_to_index` (dtm_intersection.cpp:105-117). -/
def terToIndex (o : CppDtm K) (v : V3 K) : V3 K :=
  ⟨(v.x * o.transInv.t4 + v.y * o.transInv.t5 + o.transInv.t3) - 1 / 2, (v.x * o.transInv.t1 + v.y * o.transInv.t2 + o.transInv.t0) - 1 / 2, v.z⟩

/-- `index_to_ter` (dtm_intersection.cpp:119-132). -/
def indexToTer (o : CppDtm K) (v : V3 K) : V3 K :=
  ⟨(v.y + 1 / 2) * o.transform.t1 + (v.x + 1 / 2) * o.transform.t2 + o.transform.t0,
    (v.y + 1 / 2) * o.transform.t4 + (v.x + 1 / 2) * o.transform.t5 + o.transform.t3, v.z⟩

/-- `get_footprint_corners` (dtm_intersection.cpp:134-142). -/
def footprintCorners (o : CppDtm K) : List (K × K) :=
  [(-(1 / 2), -(1 / 2)), (-(1 / 2), (o.nbCols : K) - 1 / 2), ((o.nbRows : K) - 1 / 2, (o.nbCols : K) - 1 / 2), ((o.nbRows : K) - 1 / 2, -(1 / 2))]

/-- `lower_shift_row`, `lower_shift_col` (dtm_intersection.cpp:147-156,160-170). -/
def lowerShift (nb : ℤ) (pos : K) : ℤ := if pos < 0 then 0 else if pos ≥ (nb : K) - 1 then nb - 2 else ⌊pos⌋

/-- `interpolate` (dtm_intersection.cpp:144-183). -/
def interpolate (o : CppDtm K) (row col : K) : Except CppFault K := do
  let lr := lowerShift o.nbRows row
  let lc := lowerShift o.nbCols col
  let cs := col - lc
  let rs := row - lr
  let m00 ← rd o.altData (lr * o.nbCols + lc)
  let m01 ← rd o.altData (lr * o.nbCols + (lc + 1))
  let m10 ← rd o.altData ((lr + 1) * o.nbCols + lc)
  let m11 ← rd o.altData ((lr + 1) * o.nbCols + (lc + 1))
  return (1 - cs) * (1 - rs) * m00 + cs * (1 - rs) * m01 + (1 - cs) * rs * m10 + cs * rs * m11

/-- dtm_intersection.cpp:270-328: the point stored for plane `k` between `a` and `b`. -/
def crossing (o : CppDtm K) (k : Fin 6) (layer : ℕ) (a b : V3 K) : Crossing K :=
  if o.eqPlan k a = 0 then ⟨a, (layer : K) - 1⟩
  else if o.eqPlan k b = 0 then ⟨b, layer⟩
  else
    let ca := o.eqPlan k b / (o.eqPlan k b - o.eqPlan k a)
    let cb := -o.eqPlan k a / (o.eqPlan k b - o.eqPlan k a)
    ⟨⟨if k.val < 2 then o.coefD k else ca * a.x + cb * b.x,
      if 1 < k.val ∧ k.val < 4 then o.coefD k else ca * a.y + cb * b.y,
      if k.val > 3 then o.coefD k else ca * a.z + cb * b.z⟩, (layer : K) - ca⟩

/-- The loop over the vertices for one plane (dtm_intersection.cpp:252-336); the first argument counts the turns left. -/
def faceLoop (o : CppDtm K) (k : Fin 6) (los : List (V3 K)) : ℕ → ℕ → V3 K → Except CppFault (Option (Crossing K))
  | 0, _, _ => .ok none
  | n + 1, layer, a => do
    let b ← rd los layer
    if o.eqPlan k a * o.eqPlan k b ≤ 0 then
      if o.eqPlan k a = 0 ∧ o.eqPlan k b = 0 then .error .tooMany else .ok (some (o.crossing k layer a b))
    else faceLoop o k los n (layer + 1) b

/-- The loop over the planes (dtm_intersection.cpp:234-337): `push_back` of the crossings. -/
def planeLoop (o : CppDtm K) (los : List (V3 K)) : List (Fin 6) → List (Crossing K) → Except CppFault (List (Crossing K))
  | [], v => .ok v
  | k :: ks, v => do
    let a ← rd los 0
    match ← o.faceLoop k los los.length 0 a with
    | none => planeLoop o los ks v
    | some c => planeLoop o los ks (v ++ [c])

/-- Inner loop of the sort (dtm_intersection.cpp:344-363): positions `j`, `j+1`, ... against position `i`, in place.  The four parallel vectors
are one vector of crossings. -/
def sortInner (i : ℕ) : ℕ → ℕ → List (Crossing K) → Except CppFault (List (Crossing K))
  | 0, _, v => .ok v
  | n + 1, j, v => do
    let y ← rd v j
    let x ← rd v i
    if y.h < x.h then do
      let v ← wr v i y
      let v ← wr v j x
      sortInner i n (j + 1) v
    else sortInner i n (j + 1) v

/-- Outer loop of the sort (dtm_intersection.cpp:343-365); `nbi` is the number of crossings. -/
def sortOuter (nbi : ℕ) : ℕ → ℕ → List (Crossing K) → Except CppFault (List (Crossing K))
  | 0, _, v => .ok v
  | n + 1, i, v => do
    let v ← sortInner i (nbi - (i + 1)) (i + 1) v
    sortOuter nbi n (i + 1) v

/-- `test_on_cube` (dtm_intersection.cpp:371-378). -/
def onCube (o : CppDtm K) (p : V3 K) : Bool :=
  decide (o.coefD 0 ≤ p.x) && decide (p.x ≤ o.coefD 1) && decide (o.coefD 2 ≤ p.y) && decide (p.y ≤ o.coefD 3) &&
    decide (o.coefD 4 ≤ p.z) && decide (p.z ≤ o.coefD 5)

/-- dtm_intersection.cpp:382-389: the crossings after the one removed are moved, in place. -/
def shiftLoop : ℕ → ℕ → List (Crossing K) → Except CppFault (List (Crossing K))
  | 0, _, v => .ok v
  | n + 1, j, v => do
    let y ← rd v j
    let v ← wr v ((j : ℤ) - 1) y
    shiftLoop n (j + 1) v

/-- dtm_intersection.cpp:368-396: the `while` that removes the crossings that are not on the box; the first argument bounds the turns. -/
def filterLoop (o : CppDtm K) : ℕ → ℕ → ℕ → List (Crossing K) → Except CppFault (ℕ × List (Crossing K))
  | 0, _, _, _ => .error .fuel
  | n + 1, i, nbi, v =>
    if i < nbi then do
      let x ← rd v i
      if o.onCube x.p then filterLoop o n (i + 1) nbi v
      else do
        let v ← shiftLoop (nbi - (i + 1)) (i + 1) v
        filterLoop o n i (nbi - 1) v
    else .ok (nbi, v)

/-- `intersect_dtm_cube` (dtm_intersection.cpp:193-421): the entry point and the vertices in index coordinates. -/
def cube (o : CppDtm K) (los : List (V3 K)) : Except CppFault (Option (Crossing K) × List (V3 K)) := do
  let li := los.map o.terToIndex
  let v ← o.planeLoop li [0, 1, 2, 3, 4, 5] []
  let v' ← sortOuter v.length v.length 0 v
  let r ← o.filterLoop (v.length + 1) 0 v.length v'
  if r.1 < 2 then .ok (none, li)
  else do
    let c ← rd r.2 0
    .ok (some c, li)

/-- The `while (abs(d_2) > m_tol_z)` (dtm_intersection.cpp:840-878). -/
def falsi (o : CppDtm K) : ℕ → V3 K → K → V3 K → K → Except CppFault (V3 K)
  | 0, _, _, _, _ => .error .fuel
  | n + 1, p1, alti1, p2, h2 =>
    if (h2 - alti1) - (p2.z - p1.z) = 0 then .error .nanIndex
    else do
      let ch := (p1.z - alti1) / ((h2 - alti1) - (p2.z - p1.z))
      let q : V3 K := ⟨p1.x + ch * (p2.x - p1.x), p1.y + ch * (p2.y - p1.y), p1.z + ch * (p2.z - p1.z)⟩
      let zv ← o.interpolate q.x q.y
      let d2 := zv - q.z
      if |d2| > o.tolZ then
        if d2 < 0 then falsi o n q zv p2 h2 else falsi o n p1 alti1 q zv
      else .ok q

/-- The condition of the cell loop (dtm_intersection.cpp:535,545). -/
def inside (o : CppDtm K) (s : March K) : Bool :=
  decide (s.a2 < 1) && decide (-1 < s.colC) && decide (s.colC < o.nbRows - 1) && decide (-1 < s.rowC) && decide (s.rowC < o.nbCols - 1)

/-- The cell loop of one segment (dtm_intersection.cpp:545-891): the point found, or the state in which the loop ends. -/
def cellLoop (o : CppDtm K) (falsiN : ℕ) (v0 v1 : V3 K) : ℕ → March K → Except CppFault (V3 K ⊕ March K)
  | 0, _ => .error .fuel
  | n + 1, s =>
    if o.inside s then do
      let hI ← rd o.altMinCell (s.colC * (o.nbCols - 1) + s.rowC)
      let hS ← rd o.altMaxCell (s.colC * (o.nbCols - 1) + s.rowC)
      let p1 := s.p2
      let s' := cellExit v0 ⟨v1.x - v0.x, v1.y - v0.y, v1.z - v0.z⟩ s
      if bIntersect v0.z v1.z hI hS p1.z s'.p2.z then do
        let alti1 ← o.interpolate p1.x p1.y
        let h2 ← o.interpolate s'.p2.x s'.p2.y
        if (p1.z - alti1) * (s'.p2.z - h2) ≤ 0 then do
          let q ← o.falsi falsiN p1 alti1 s'.p2 h2
          .ok (.inl q)
        else cellLoop o falsiN v0 v1 n s'
      else cellLoop o falsiN v0 v1 n s'
    else .ok (.inr s)

/-- Bound put on the cell loop. -/
def cellBudget (o : CppDtm K) : ℕ := o.nbRows.toNat * o.nbCols.toNat + o.nbRows.toNat + o.nbCols.toNat + 1

/-- The cell in which the march of a segment starts (dtm_intersection.cpp:520-532). -/
def startCell (p dir : K) : ℤ := if p = ((⌊p⌋ : ℤ) : K) ∧ dir < 0 then 1 else ⌊p⌋

/-- The loop over the segments (dtm_intersection.cpp:468-926); `none` is `return make_tuple(false, ...)`. -/
def segmentLoop (o : CppDtm K) (falsiN : ℕ) (los : List (V3 K)) (alti : List K) : ℕ → ℤ → V3 K → K → Except CppFault (Option (V3 K))
  | 0, _, _, _ => .error .fuel
  | n + 1, i0, p2, hp2 =>
    if i0 < (los.length : ℤ) - 1 then do
      let v0 ← rd los i0
      let v1 ← rd los (i0 + 1)
      if v1.x - v0.x = 0 ∧ v1.y - v0.y = 0 then do
        let alti1 ← o.interpolate v0.x v0.y
        if v1.z ≤ alti1 then .ok (some ⟨v0.x, v0.y, alti1⟩)
        else segmentLoop o falsiN los alti n (i0 + 1) p2 hp2
      else
        let a2 := hp2 - i0
        let a2 := if a2 ≥ 1 then 0 else a2
        let s : March K := ⟨p2, startCell p2.x (v1.x - v0.x), startCell p2.y (v1.y - v0.y), a2⟩
        if !o.inside s then .ok none
        else do
          match ← o.cellLoop falsiN v0 v1 o.cellBudget s with
          | .inl q => .ok (some q)
          | .inr s' =>
            if s'.a2 ≥ 1 then do
              let p ← rd los (i0 + 1)
              let h ← rd alti (i0 + 1)
              segmentLoop o falsiN los alti n (i0 + 1) p h
            else .ok none
    else .ok none

/-- `intersection` (dtm_intersection.cpp:423-927), before the conversion to ground coordinates. -/
def intersection (o : CppDtm K) (falsiN : ℕ) (los : List (V3 K)) (pb : V3 K) (h : K) : Except CppFault (Option (V3 K)) := do
  let alti1 ← o.interpolate pb.x pb.y
  if pb.z - alti1 < 0 then .ok none
  else o.segmentLoop falsiN los ((List.range (los.length + 1)).map fun (i : ℕ) => (i : K)) (los.length + 2) ⌊h⌋ pb h

/-- One turn of `intersection_n_los_dtm` (dtm_intersection.cpp:1002-1018). -/
def locate (o : CppDtm K) (falsiN : ℕ) (los : List (V3 K)) : Except CppFault (DtmPoint K) := do
  match ← o.cube los with
  | (none, _) => .ok .nan
  | (some c, li) =>
    match ← o.intersection falsiN li c.p c.h with
    | some p => .ok (.point (o.indexToTer p))
    | none => .ok .uninitialised

/-- What is in a cell of the array returned. -/
inductive CppVal (K : Type)
  | num (x : K)
  | nan
  /-- an uninitialised double. -/
  | garbage
deriving DecidableEq, Repr

/-- The three numbers stored for one line of sight (dtm_intersection.cpp:1009-1022). -/
def valsOf : DtmPoint K → V3 (CppVal K)
  | .point p => ⟨.num p.x, .num p.y, .num p.z⟩
  | .nan => ⟨.nan, .nan, .nan⟩
  | _ => ⟨.garbage, .garbage, .garbage⟩

/-- Line of sight `i` in the input buffer of shape `(nb_points, m, s)` (dtm_intersection.cpp:996-1000). -/
def lineOf (buf : List K) (m s i : ℕ) : Except CppFault (List (V3 K)) :=
  (List.range m).mapM fun (a : ℕ) => do
    let x ← rd buf ((i * m * s + a * s + 0 : ℕ) : ℤ)
    let y ← rd buf ((i * m * s + a * s + 1 : ℕ) : ℤ)
    let z ← rd buf ((i * m * s + a * s + 2 : ℕ) : ℤ)
    return (⟨x, y, z⟩ : V3 K)

/-- `intersection_n_los_dtm` (dtm_intersection.cpp:964-1039): the flat buffer returned, longitudes then latitudes then altitudes.  An exception
ends the whole call. -/
def batch (o : CppDtm K) (falsiN : ℕ) (buf : List K) (n m s : ℕ) : Except CppFault (List (CppVal K)) := do
  let r ← (List.range n).mapM fun i => do
    let los ← lineOf buf m s i
    let p ← o.locate falsiN los
    return valsOf p
  return r.map V3.x ++ r.map V3.y ++ r.map V3.z

/-- Element `(i, j)` of the array returned: the strides are one double along the rows and `n` doubles along the columns
(dtm_intersection.cpp:1032-1036). -/
def batchAt (n : ℕ) (res : List (CppVal K)) (i j : ℕ) : Except CppFault (CppVal K) := rd res ((i + j * n : ℕ) : ℤ)

/-- The setters (dtm_intersection.hpp:133-165). -/
inductive Setter (K : Type)
  | altData (v : List K)
  | altMin (v : K)
  | altMax (v : K)
  | coefA (v : Fin 6 → K)
  | coefB (v : Fin 6 → K)
  | coefC (v : Fin 6 → K)
  | coefD (v : Fin 6 → K)
  | altMinCell (v : List K)
  | altMaxCell (v : List K)
  | tolZ (v : K)
  | epsg (v : ℤ)
  | plans (v : List K)
  | transInv (v : GdalTransform K)
  | transform (v : GdalTransform K)
  | nbRows (v : ℤ)
  | nbCols (v : ℤ)

/-- dtm_intersection.hpp:133-165: a setter changes its attribute, and nothing else. -/
def set (o : CppDtm K) : Setter K → CppDtm K
  | .altData v => { o with altData := v }
  | .altMin v => { o with altMin := v }
  | .altMax v => { o with altMax := v }
  | .coefA v => { o with coefA := v }
  | .coefB v => { o with coefB := v }
  | .coefC v => { o with coefC := v }
  | .coefD v => { o with coefD := v }
  | .altMinCell v => { o with altMinCell := v }
  | .altMaxCell v => { o with altMaxCell := v }
  | .tolZ v => { o with tolZ := v }
  | .epsg v => { o with epsg := v }
  | .plans v => { o with plans := v }
  | .transInv v => { o with transInv := v }
  | .transform v => { o with transform := v }
  | .nbRows v => { o with nbRows := v }
  | .nbCols v => { o with nbCols := v }

/-- A history of calls to the setters. -/
def run (o : CppDtm K) (l : List (Setter K)) : CppDtm K := l.foldl set o

/-- The Python values of the state tuple (bind.cpp:85-101). -/
inductive PyVal (K : Type)
  | list (v : List K)
  | float (v : K)
  | int (v : ℤ)

/-- A list of six numbers as an array (bind.cpp:114-117,123-124, `cast<std::array<double,6>>`). -/
def six (v : List K) : Option (Fin 6 → K) :=
  match v with
  | [a, b, c, d, e, f] => some ![a, b, c, d, e, f]
  | _ => none

/-- `std::array<double,6>` to a Python list. -/
def ofSix (f : Fin 6 → K) : List K := [f 0, f 1, f 2, f 3, f 4, f 5]

/-- `cast<std::vector<double>>`. -/
def PyVal.toVec : PyVal K → Option (List K)
  | .list v => some v
  | _ => none

/-- `cast<double>`: integers are accepted. -/
def PyVal.toNum : PyVal K → Option K
  | .float v => some v
  | .int v => some v
  | _ => none

/-- `cast<int>`: floats are refused. -/
def PyVal.toInt : PyVal K → Option ℤ
  | .int v => some v
  | _ => none

/-- `cast<std::array<double,6>>`. -/
def PyVal.toSix : PyVal K → Option (Fin 6 → K)
  | .list v => six v
  | _ => none

/-- The six numbers of a transform. -/
def PyVal.toGdal (p : PyVal K) : Option (GdalTransform K) := p.toSix.map fun f => ⟨f 0, f 1, f 2, f 3, f 4, f 5⟩

/-- The six numbers of a transform, as a Python list. -/
def ofGdal (t : GdalTransform K) : List K := [t.t0, t.t1, t.t2, t.t3, t.t4, t.t5]

/-- `__getstate__` (bind.cpp:83-102). -/
def getState (o : CppDtm K) : List (PyVal K) :=
  [.list o.altData, .float o.altMin, .float o.altMax, .list (ofSix o.coefA), .list (ofSix o.coefB), .list (ofSix o.coefC), .list (ofSix o.coefD),
    .list o.altMinCell, .list o.altMaxCell, .float o.tolZ, .int o.epsg, .list o.plans, .list (ofGdal o.transInv), .list (ofGdal o.transform),
    .int o.nbRows, .int o.nbCols]

/-- `__setstate__` (bind.cpp:103-128): `none` is an exception, for a tuple of another size or a value of another type. -/
def setState : List (PyVal K) → Option (CppDtm K)
  | [a0, a1, a2, a3, a4, a5, a6, a7, a8, a9, a10, a11, a12, a13, a14, a15] => do
    let altData ← a0.toVec
    let altMin ← a1.toNum
    let altMax ← a2.toNum
    let coefA ← a3.toSix
    let coefB ← a4.toSix
    let coefC ← a5.toSix
    let coefD ← a6.toSix
    let altMinCell ← a7.toVec
    let altMaxCell ← a8.toVec
    let tolZ ← a9.toNum
    let epsg ← a10.toInt
    let plans ← a11.toVec
    let transInv ← a12.toGdal
    let transform ← a13.toGdal
    let nbRows ← a14.toInt
    let nbCols ← a15.toInt
    return ⟨altData, altMin, altMax, coefA, coefB, coefC, coefD, altMinCell, altMaxCell, tolZ, epsg, plans, transInv, transform, nbRows, nbCols⟩
  | _ => none

end CppDtm
end Shareloc
