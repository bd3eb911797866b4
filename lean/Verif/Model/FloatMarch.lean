import Verif.Model.DtmIntersection

/-!
The intersection of a line of sight with a DTM (dtm_intersection.py:409-843, dtm_intersection.cpp:423-927) with any arithmetic: the
four operations on numbers are parameters without any hypothesis (they stand for rounded operations, of any precision), and so are
the interpolated altitude and the lowest and highest altitudes of the cells.  Comparisons, `floor` and the integer indexes are exact,
as they are in floating point.  NaN and infinite values are not represented.
-/

namespace Shareloc
variable {K : Type*} [Field K] [LinearOrder K] [IsStrictOrderedRing K] [FloorRing K]

/-- The four operations of the program on numbers. -/
structure Arith (K : Type*) where
  add : K → K → K
  sub : K → K → K
  mul : K → K → K
  div : K → K → K

/-- The exact operations. -/
def Arith.exact : Arith K := ⟨fun x y => x + y, fun x y => x - y, fun x y => x * y, fun x y => x / y⟩

/-- What the loops use of the DTM: `interpolate`, `alt_min_cell`, `alt_max_cell`, the sizes and `tol_z`
(dtm_intersection.py:82-110, 205-227; dtm_intersection.cpp:40-64, 941-954). -/
structure GroundA (K : Type*) where
  interp : K → K → K
  lowCell : ℤ → ℤ → K
  highCell : ℤ → ℤ → K
  nbRows : ℕ
  nbCols : ℕ
  tol : K

/-- The ground of a DTM with exact operations. -/
def Dtm.ground (d : Dtm K) : GroundA K :=
  ⟨d.interpolate, altMinCellPy d.alt, altMaxCellPy d.alt, d.nbRows, d.nbCols, tolZ⟩

/-- The regula falsi (dtm_intersection.py:777-819, dtm_intersection.cpp:838-888), as `falsi`. -/
def falsiA (A : Arith K) (G : GroundA K) : ℕ → V3 K → K → V3 K → K → Outcome K
  | 0, _, _, _, _ => .falsiFuel
  | n + 1, p1, alti1, p2, h2 =>
    let den := A.sub (A.sub h2 alti1) (A.sub p2.z p1.z)
    if den = 0 then .nonFinite
    else
      let ch := A.div (A.sub p1.z alti1) den
      let q : V3 K := ⟨A.add p1.x (A.mul ch (A.sub p2.x p1.x)), A.add p1.y (A.mul ch (A.sub p2.y p1.y)),
        A.add p1.z (A.mul ch (A.sub p2.z p1.z))⟩
      let zv := G.interp q.x q.y
      let d2 := A.sub zv q.z
      if |d2| > G.tol then
        if d2 < 0 then falsiA A G n q zv p2 h2 else falsiA A G n p1 alti1 q zv
      else .found q

/-- Exit of the current cell (dtm_intersection.py:535-745, dtm_intersection.cpp:558-801), as `cellExit`. -/
def cellExitA (A : Arith K) (v0 dir : V3 K) (s : March K) : March K :=
  let c : K := s.colC
  let r : K := s.rowC
  if dir.x = 0 then
    if dir.y < 0 then
      let a := A.div (A.sub r v0.y) dir.y
      ⟨⟨s.p2.x, r, A.add v0.z (A.mul a dir.z)⟩, s.colC, s.rowC - 1, a⟩
    else
      let a := A.div (A.sub (r + 1) v0.y) dir.y
      ⟨⟨s.p2.x, r + 1, A.add v0.z (A.mul a dir.z)⟩, s.colC, s.rowC + 1, a⟩
  else if dir.y = 0 then
    if dir.x < 0 then
      let a := A.div (A.sub c v0.x) dir.x
      ⟨⟨c, s.p2.y, A.add v0.z (A.mul a dir.z)⟩, s.colC - 1, s.rowC, a⟩
    else
      let a := A.div (A.sub (c + 1) v0.x) dir.x
      ⟨⟨c + 1, s.p2.y, A.add v0.z (A.mul a dir.z)⟩, s.colC + 1, s.rowC, a⟩
  else if dir.x < 0 ∧ dir.x ≤ dir.y ∧ dir.x ≤ -dir.y then
    -- mainly north
    let a := A.div (A.sub c v0.x) dir.x
    let y := A.add v0.y (A.mul a dir.y)
    if y > r ∧ y < r + 1 then ⟨⟨c, y, A.add v0.z (A.mul a dir.z)⟩, s.colC - 1, s.rowC, a⟩
    else if y < r then
      let a := A.div (A.sub r v0.y) dir.y
      ⟨⟨A.add v0.x (A.mul a dir.x), r, A.add v0.z (A.mul a dir.z)⟩, s.colC, s.rowC - 1, a⟩
    else if y > r + 1 then
      let a := A.div (A.sub (r + 1) v0.y) dir.y
      ⟨⟨A.add v0.x (A.mul a dir.x), r + 1, A.add v0.z (A.mul a dir.z)⟩, s.colC, s.rowC + 1, a⟩
    else if y = r then ⟨⟨c, r, A.add v0.z (A.mul a dir.z)⟩, s.colC - 1, s.rowC - 1, a⟩
    else if y = r + 1 then ⟨⟨c, r + 1, A.add v0.z (A.mul a dir.z)⟩, s.colC - 1, s.rowC + 1, a⟩
    else ⟨⟨s.p2.x, y, s.p2.z⟩, s.colC, s.rowC, a⟩
  else if dir.y > 0 ∧ dir.y ≥ dir.x ∧ dir.y ≥ -dir.x then
    -- mainly east
    let a := A.div (A.sub (r + 1) v0.y) dir.y
    let x := A.add v0.x (A.mul a dir.x)
    if x > c ∧ x < c + 1 then ⟨⟨x, r + 1, A.add v0.z (A.mul a dir.z)⟩, s.colC, s.rowC + 1, a⟩
    else if x < c then
      let a := A.div (A.sub c v0.x) dir.x
      ⟨⟨c, A.add v0.y (A.mul a dir.y), A.add v0.z (A.mul a dir.z)⟩, s.colC - 1, s.rowC, a⟩
    else if x > c + 1 then
      let a := A.div (A.sub (c + 1) v0.x) dir.x
      ⟨⟨c + 1, A.add v0.y (A.mul a dir.y), A.add v0.z (A.mul a dir.z)⟩, s.colC + 1, s.rowC, a⟩
    else if x = c then ⟨⟨c, r + 1, A.add v0.z (A.mul a dir.z)⟩, s.colC - 1, s.rowC + 1, a⟩
    else if x = c + 1 then ⟨⟨c + 1, r + 1, A.add v0.z (A.mul a dir.z)⟩, s.colC + 1, s.rowC + 1, a⟩
    else ⟨⟨x, s.p2.y, s.p2.z⟩, s.colC, s.rowC, a⟩
  else if dir.x > 0 ∧ dir.x ≥ dir.y ∧ dir.x ≥ -dir.y then
    -- mainly south
    let a := A.div (A.sub (c + 1) v0.x) dir.x
    let y := A.add v0.y (A.mul a dir.y)
    if y > r ∧ y < r + 1 then ⟨⟨c + 1, y, A.add v0.z (A.mul a dir.z)⟩, s.colC + 1, s.rowC, a⟩
    else if y < r then
      let a := A.div (A.sub r v0.y) dir.y
      ⟨⟨A.add v0.x (A.mul a dir.x), r, A.add v0.z (A.mul a dir.z)⟩, s.colC, s.rowC - 1, a⟩
    else if y > r + 1 then
      let a := A.div (A.sub (r + 1) v0.y) dir.y
      ⟨⟨A.add v0.x (A.mul a dir.x), r + 1, A.add v0.z (A.mul a dir.z)⟩, s.colC, s.rowC + 1, a⟩
    else if y = r then ⟨⟨c + 1, r, A.add v0.z (A.mul a dir.z)⟩, s.colC + 1, s.rowC - 1, a⟩
    else if y = r + 1 then ⟨⟨c + 1, r + 1, A.add v0.z (A.mul a dir.z)⟩, s.colC + 1, s.rowC + 1, a⟩
    else ⟨⟨s.p2.x, y, s.p2.z⟩, s.colC, s.rowC, a⟩
  else if dir.y < 0 ∧ dir.y ≤ dir.x ∧ dir.y ≤ -dir.x then
    -- mainly west
    let a := A.div (A.sub r v0.y) dir.y
    let x := A.add v0.x (A.mul a dir.x)
    if x > c ∧ x < c + 1 then ⟨⟨x, r, A.add v0.z (A.mul a dir.z)⟩, s.colC, s.rowC - 1, a⟩
    else if x < c then
      let a := A.div (A.sub c v0.x) dir.x
      ⟨⟨c, A.add v0.y (A.mul a dir.y), A.add v0.z (A.mul a dir.z)⟩, s.colC - 1, s.rowC, a⟩
    else if x > c + 1 then
      let a := A.div (A.sub (c + 1) v0.x) dir.x
      ⟨⟨c + 1, A.add v0.y (A.mul a dir.y), A.add v0.z (A.mul a dir.z)⟩, s.colC + 1, s.rowC, a⟩
    else if x = c then ⟨⟨c, r, A.add v0.z (A.mul a dir.z)⟩, s.colC - 1, s.rowC - 1, a⟩
    else if x = c + 1 then ⟨⟨c + 1, r, A.add v0.z (A.mul a dir.z)⟩, s.colC + 1, s.rowC - 1, a⟩
    else ⟨⟨x, s.p2.y, s.p2.z⟩, s.colC, s.rowC, a⟩
  else s

/-- Loop condition of the cell loop (dtm_intersection.py:519,524, dtm_intersection.cpp:535,545). -/
def marchInsideA (G : GroundA K) (s : March K) : Bool :=
  decide (s.a2 < 1) && decide (-1 < s.colC) && decide (s.colC < (G.nbRows : ℤ) - 1) &&
  decide (-1 < s.rowC) && decide (s.rowC < (G.nbCols : ℤ) - 1)

/-- The cell loop on one segment (dtm_intersection.py:523-821, dtm_intersection.cpp:545-891), as `marchCells`; `dir` is `los_dtm`. -/
def marchCellsA (A : Arith K) (G : GroundA K) (falsiN : ℕ) (v0 v1 dir : V3 K) : ℕ → March K → Outcome K ⊕ March K
  | 0, _ => .inl .marchFuel
  | n + 1, s =>
    if marchInsideA G s then
      let hI := G.lowCell s.colC s.rowC
      let hS := G.highCell s.colC s.rowC
      let p1 := s.p2
      let s' := cellExitA A v0 dir s
      if bIntersect v0.z v1.z hI hS p1.z s'.p2.z then
        let alti1 := G.interp p1.x p1.y
        let h2 := G.interp s'.p2.x s'.p2.y
        if A.mul (A.sub p1.z alti1) (A.sub s'.p2.z h2) ≤ 0 then
          .inl (falsiA A G falsiN p1 alti1 s'.p2 h2)
        else marchCellsA A G falsiN v0 v1 dir n s'
      else marchCellsA A G falsiN v0 v1 dir n s'
    else .inr s

/-- Fuel given to the cell loop: the number of cells of the DTM and one turn to leave the loop, proved sufficient (C104). -/
def cellFuelA (G : GroundA K) : ℕ := (G.nbRows - 1) * (G.nbCols - 1) + 1

/-- The loop over the segments (dtm_intersection.py:456-843, dtm_intersection.cpp:468-926), as `marchPlanes`. -/
def marchPlanesA (A : Arith K) (impl : Impl) (G : GroundA K) (falsiN : ℕ) (los : List (V3 K)) : ℕ → ℤ → V3 K → K → Outcome K
  | 0, _, _, _ => .marchFuel
  | n + 1, i0, p2, hp2 =>
    if i0 < (los.length : ℤ) - 1 then
      let v0 := pyGet los i0
      let v1 := pyGet los (i0 + 1)
      let dir : V3 K := ⟨A.sub v1.x v0.x, A.sub v1.y v0.y, A.sub v1.z v0.z⟩
      if dir.x = 0 ∧ dir.y = 0 then
        let alti1 := G.interp v0.x v0.y
        if v1.z ≤ alti1 then .found ⟨v0.x, v0.y, alti1⟩
        else marchPlanesA A impl G falsiN los n (i0 + 1) p2 hp2
      else
        let a2 := A.sub hp2 i0
        let a2 := if a2 ≥ 1 then 0 else a2
        let s : March K := ⟨p2, startCell impl p2.x dir.x, startCell impl p2.y dir.y, a2⟩
        if !marchInsideA G s then .notFound
        else
          match marchCellsA A G falsiN v0 v1 dir (cellFuelA G) s with
          | .inl o => o
          | .inr s' =>
            if s'.a2 ≥ 1 then
              marchPlanesA A impl G falsiN los n (i0 + 1) (pyGet los (i0 + 1)) (altiAt impl los.length (i0 + 1))
            else .notFound
    else .notFound

/-- `intersection` (dtm_intersection.py:409-843, dtm_intersection.cpp:423-927), in index coordinates, as `intersectionIdx`. -/
def intersectionA (A : Arith K) (impl : Impl) (G : GroundA K) (falsiN : ℕ) (losIndex : List (V3 K)) (pb : V3 K) (h : K) : Outcome K :=
  if A.sub pb.z (G.interp pb.x pb.y) < 0 then .notFound
  else marchPlanesA A impl G falsiN losIndex (losIndex.length + 2) ⌊h⌋ pb h

end Shareloc
