import Verif.Model.CppDtm
import Verif.Model.RectificationCpp

/-!
The `int` (32 bits) arithmetic of the C++ code on positions in its vectors: shareloc/bindings/dtm_intersection.cpp (`init_min_max`, the cells of the
march, the batch call) and shareloc/bindings/rectification.cpp.  The functions are those of Model/CppDtm and Model/RectificationCpp with every
operation on `int` checked: a result that is not an `int` is the fault `overflow` (undefined behaviour in C++, and so is the conversion of a double
that is not in the range of `int`).

`DTMIntersection::interpolate` computes its positions in double (dtm_intersection.cpp:178-181): only `int(floor(...))` is of type `int`.
Operations on `size_t` and `ssize_t` (64 bits) are exact.
-/

namespace Shareloc
variable {K : Type} [Field K] [LinearOrder K] [IsStrictOrderedRing K] [FloorRing K]

/-- How a call may go wrong when `int` has 32 bits. -/
inductive Fault32
  /-- the result of an operation is not an `int` (undefined behaviour). -/
  | overflow
  /-- a fault that does not depend on the size of `int`. -/
  | other (f : CppFault)
deriving DecidableEq, Repr

/-- The faults of the functions of Model/CppDtm. -/
def up {α : Type} : Except CppFault α → Except Fault32 α
  | .ok x => .ok x
  | .error e => .error (.other e)

/-- A value of type `int`, if it is one: from -2^31 to 2^31 - 1. -/
def i32 (x : ℤ) : Except Fault32 ℤ := if -2147483648 ≤ x ∧ x ≤ 2147483647 then .ok x else .error .overflow

/-- `a + b`, `a - b`, `a * b` of two `int`. -/
def add32 (a b : ℤ) : Except Fault32 ℤ := i32 (a + b)
def sub32 (a b : ℤ) : Except Fault32 ℤ := i32 (a - b)
def mul32 (a b : ℤ) : Except Fault32 ℤ := i32 (a * b)

namespace CppDtm

/-- `nb_columns * i + j` (dtm_intersection.cpp:941-951). -/
def at32 (n i j : ℤ) : Except Fault32 ℤ := do
  let k ← mul32 n i
  add32 k j

/-- Body of `init_min_max` (dtm_intersection.cpp:940-955): the bounds of cell `(i, j)`, then the position at which they are written. -/
def cellBounds32 (data : List K) (nbCols i j : ℤ) : Except Fault32 (K × K) := do
  let k1 ← at32 nbCols i j
  let v1 ← up (rd data k1)
  let i1 ← add32 i 1
  let k2 ← at32 nbCols i1 j
  let v2 ← up (rd data k2)
  let j1 ← add32 j 1
  let k3 ← at32 nbCols i j1
  let v3 ← up (rd data k3)
  let k4 ← at32 nbCols i1 j1
  let v4 ← up (rd data k4)
  let c ← sub32 nbCols 1
  let _ ← at32 c i j
  return (((⌊min (min (min v1 v2) v3) v4⌋ : ℤ) : K), ((⌈max (max (max v1 v2) v3) v4⌉ : ℤ) : K))

/-- `init_min_max` (dtm_intersection.cpp:931-961): the size of the vectors is computed first. -/
def initMinMax32 (data : List K) (nbRows nbCols : ℕ) : Except Fault32 (List (K × K)) := do
  let r ← sub32 nbRows 1
  let c ← sub32 nbCols 1
  let _ ← mul32 r c
  (cells nbRows nbCols).mapM fun c => cellBounds32 data nbCols c.1 c.2

/-- The constructor (dtm_intersection.cpp:31-93): the only operations on `int` are those of `init_min_max`; the sizes are given as `int`. -/
def ctor32 (epsg : ℤ) (data : List K) (nbRows nbCols : ℕ) (t : GdalTransform K) : Except Fault32 (CppDtm K) := do
  let _ ← initMinMax32 data nbRows nbCols
  up (ctor epsg data nbRows nbCols t)

/-- `lower_shift_row`, `lower_shift_col` (dtm_intersection.cpp:147-156,160-170). -/
def lowerShift32 (nb : ℤ) (pos : K) : Except Fault32 ℤ :=
  if pos < 0 then .ok 0 else if pos ≥ (nb : K) - 1 then .ok (nb - 2) else i32 ⌊pos⌋

/-- `interpolate` (dtm_intersection.cpp:144-183). -/
def interpolate32 (o : CppDtm K) (row col : K) : Except Fault32 K := do
  let lr ← lowerShift32 o.nbRows row
  let lc ← lowerShift32 o.nbCols col
  let cs := col - lc
  let rs := row - lr
  let m00 ← up (rd o.altData (lr * o.nbCols + lc))
  let m01 ← up (rd o.altData (lr * o.nbCols + (lc + 1)))
  let m10 ← up (rd o.altData ((lr + 1) * o.nbCols + lc))
  let m11 ← up (rd o.altData ((lr + 1) * o.nbCols + (lc + 1)))
  return (1 - cs) * (1 - rs) * m00 + cs * (1 - rs) * m01 + (1 - cs) * rs * m10 + cs * rs * m11

/-- The `while (abs(d_2) > m_tol_z)` (dtm_intersection.cpp:840-878). -/
def falsi32 (o : CppDtm K) : ℕ → V3 K → K → V3 K → K → Except Fault32 (V3 K)
  | 0, _, _, _, _ => .error (.other .fuel)
  | n + 1, p1, alti1, p2, h2 =>
    if (h2 - alti1) - (p2.z - p1.z) = 0 then .error (.other .nanIndex)
    else do
      let ch := (p1.z - alti1) / ((h2 - alti1) - (p2.z - p1.z))
      let q : V3 K := ⟨p1.x + ch * (p2.x - p1.x), p1.y + ch * (p2.y - p1.y), p1.z + ch * (p2.z - p1.z)⟩
      let zv ← o.interpolate32 q.x q.y
      let d2 := zv - q.z
      if |d2| > o.tolZ then
        if d2 < 0 then falsi32 o n q zv p2 h2 else falsi32 o n p1 alti1 q zv
      else .ok q

/-- The condition of the cell loop (dtm_intersection.cpp:535,545): `n_row - 1` and `n_col - 1` are `int`. -/
def inside32 (o : CppDtm K) (s : March K) : Except Fault32 Bool := do
  let r ← sub32 o.nbRows 1
  let c ← sub32 o.nbCols 1
  return decide (s.a2 < 1) && decide (-1 < s.colC) && decide (s.colC < r) && decide (-1 < s.rowC) && decide (s.rowC < c)

/-- The cell loop of one segment (dtm_intersection.cpp:545-891): the position of the cell, and the indexes of the next cell, are `int`. -/
def cellLoop32 (o : CppDtm K) (falsiN : ℕ) (v0 v1 : V3 K) : ℕ → March K → Except Fault32 (V3 K ⊕ March K)
  | 0, _ => .error (.other .fuel)
  | n + 1, s => do
    if ← o.inside32 s then
      let c ← sub32 o.nbCols 1
      let k ← at32 s.colC c s.rowC
      let hI ← up (rd o.altMinCell k)
      let hS ← up (rd o.altMaxCell k)
      let p1 := s.p2
      let s' := cellExit v0 ⟨v1.x - v0.x, v1.y - v0.y, v1.z - v0.z⟩ s
      let _ ← i32 s'.colC
      let _ ← i32 s'.rowC
      if bIntersect v0.z v1.z hI hS p1.z s'.p2.z then do
        let alti1 ← o.interpolate32 p1.x p1.y
        let h2 ← o.interpolate32 s'.p2.x s'.p2.y
        if (p1.z - alti1) * (s'.p2.z - h2) ≤ 0 then do
          let q ← o.falsi32 falsiN p1 alti1 s'.p2 h2
          .ok (.inl q)
        else cellLoop32 o falsiN v0 v1 n s'
      else cellLoop32 o falsiN v0 v1 n s'
    else .ok (.inr s)

/-- The cell in which the march of a segment starts (dtm_intersection.cpp:520-532): `int(floor(p))`, then a comparison. -/
def startCell32 (p dir : K) : Except Fault32 ℤ := do
  let c ← i32 ⌊p⌋
  return if p = (c : K) ∧ dir < 0 then 1 else c

/-- The loop over the segments (dtm_intersection.cpp:468-926); `i_0` is a `size_t`. -/
def segmentLoop32 (o : CppDtm K) (falsiN : ℕ) (los : List (V3 K)) (alti : List K) : ℕ → ℤ → V3 K → K → Except Fault32 (Option (V3 K))
  | 0, _, _, _ => .error (.other .fuel)
  | n + 1, i0, p2, hp2 =>
    if i0 < (los.length : ℤ) - 1 then do
      let v0 ← up (rd los i0)
      let v1 ← up (rd los (i0 + 1))
      if v1.x - v0.x = 0 ∧ v1.y - v0.y = 0 then do
        let alti1 ← o.interpolate32 v0.x v0.y
        if v1.z ≤ alti1 then .ok (some ⟨v0.x, v0.y, alti1⟩)
        else segmentLoop32 o falsiN los alti n (i0 + 1) p2 hp2
      else do
        let a2 := hp2 - i0
        let a2 := if a2 ≥ 1 then 0 else a2
        let colC ← startCell32 p2.x (v1.x - v0.x)
        let rowC ← startCell32 p2.y (v1.y - v0.y)
        let s : March K := ⟨p2, colC, rowC, a2⟩
        let b ← o.inside32 s
        if !b then .ok none
        else do
          match ← o.cellLoop32 falsiN v0 v1 o.cellBudget s with
          | .inl q => .ok (some q)
          | .inr s' =>
            if s'.a2 ≥ 1 then do
              let p ← up (rd los (i0 + 1))
              let h ← up (rd alti (i0 + 1))
              segmentLoop32 o falsiN los alti n (i0 + 1) p h
            else .ok none
    else .ok none

/-- `intersection` (dtm_intersection.cpp:423-927), before the conversion to ground coordinates. -/
def intersection32 (o : CppDtm K) (falsiN : ℕ) (los : List (V3 K)) (pb : V3 K) (h : K) : Except Fault32 (Option (V3 K)) := do
  let alti1 ← o.interpolate32 pb.x pb.y
  if pb.z - alti1 < 0 then .ok none
  else o.segmentLoop32 falsiN los ((List.range (los.length + 1)).map fun (i : ℕ) => (i : K)) (los.length + 2) ⌊h⌋ pb h

/-- One turn of `intersection_n_los_dtm` (dtm_intersection.cpp:1002-1018).  The `int` of `intersect_dtm_cube` count at most six crossings. -/
def locate32 (o : CppDtm K) (falsiN : ℕ) (los : List (V3 K)) : Except Fault32 (DtmPoint K) := do
  match ← up (o.cube los) with
  | (none, _) => .ok .nan
  | (some c, li) =>
    match ← o.intersection32 falsiN li c.p c.h with
    | some p => .ok (.point (o.indexToTer p))
    | none => .ok .uninitialised

/-- `intersection_n_los_dtm` (dtm_intersection.cpp:964-1039): the numbers of lines and of vertices are stored in `int` (972-973), the positions in
the buffer of the caller are `ssize_t` (997-999), and `nb_points*3` is an `int` (1022). -/
def batch32 (o : CppDtm K) (falsiN : ℕ) (buf : List K) (n m s : ℕ) : Except Fault32 (List (CppVal K)) := do
  let _ ← i32 n
  let _ ← i32 m
  let r ← (List.range n).mapM fun i => do
    let los ← up (lineOf buf m s i)
    let p ← o.locate32 falsiN los
    return valsOf p
  let _ ← mul32 n 3
  return r.map V3.x ++ r.map V3.y ++ r.map V3.z

end CppDtm

/-! ### Strips of epipolar grids -/

/-- The `int` computed before the loops (rectification.cpp:204-216, 236-237): the number of nodes and of coordinates. -/
def stripSizeInts (gridRows gridCols : ℤ) : List ℤ := [gridRows * gridCols, gridRows * gridCols * 3]

/-- Every `int` computed to obtain `a * b * 3 + c * 3 + 0`, `+ 1` and `+ 2`. -/
def tripleInts (a b c : ℤ) : List ℤ :=
  [a * b, a * b * 3, c * 3, a * b * 3 + c * 3, a * b * 3 + c * 3 + 0, a * b * 3 + c * 3 + 1, a * b * 3 + c * 3 + 2]

/-- The `int` computed for the starting point `(row, col)` (rectification.cpp:255-268 and 305). -/
def stripPointInts (size nbCols gridCols row col : ℤ) : List ℤ :=
  [row * gridCols, row * gridCols + col, row * nbCols, row * nbCols + col] ++ tripleInts row nbCols col ++ tripleInts row gridCols col ++
    tripleInts row size col

/-- The `int` computed to store the node number `point` of a starting point (rectification.cpp:360-384). -/
def stripStepInts (axis size nbCols gridCols row col point : ℤ) : List ℤ :=
  if axis = 0 then
    [point * gridCols, row * gridCols + col + point * gridCols, point * nbCols, point * nbCols * 3] ++
      (List.map (fun k => row * nbCols * 3 + col * 3 + k + point * nbCols * 3) [0, 1, 2])
  else
    [row * gridCols + col + point, row * gridCols, row * gridCols + col, point * 3] ++
      (List.map (fun k => row * size * 3 + col * 3 + k + point * 3) [0, 1, 2])

/-- `x` is an `int` computed by `compute_strip_of_epipolar_grid` (rectification.cpp:165-428) on arrays of shape `(nbRows, nbCols, 3)`, if no model
throws. -/
def StripComputes (axis : ℤ) (size nbRows nbCols : ℕ) (x : ℤ) : Prop :=
  let gridRows : ℕ := if axis = 0 then size else nbRows
  let gridCols : ℕ := if axis = 0 then nbCols else size
  x ∈ stripSizeInts gridRows gridCols ∨
  ∃ row col : ℕ, row < nbRows ∧ col < nbCols ∧ (x ∈ stripPointInts size nbCols gridCols row col ∨
    ∃ point : ℕ, 1 ≤ point ∧ point < size ∧ x ∈ stripStepInts axis size nbCols gridCols row col point)

end Shareloc
