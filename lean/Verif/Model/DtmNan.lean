import Verif.Model.DirectDtm

/-!
Model of the intersection with a DTM of which some cells have no altitude (NaN): the functions of
`shareloc/geofunctions/dtm_intersection.py` and `shareloc/bindings/dtm_intersection.cpp` again, with NaN altitudes.  A comparison with NaN
is false.
-/

namespace Shareloc
variable {K : Type*} [Field K] [LinearOrder K] [IsStrictOrderedRing K] [FloorRing K]

/-- The arguments of the constructor of `DTMIntersection` (dtm_intersection.py:46-76, dtm_intersection.cpp:31-47); an altitude is
`none` for NaN. -/
structure NanDtm (K : Type*) where
  alt : ℤ → ℤ → Option K
  nbRows : ℕ
  nbCols : ℕ
  transform : Affine K

/-- `x < y` for numbers that may be NaN (IEEE 754: false with a NaN). -/
def nanLt (x y : Option K) : Bool :=
  match x, y with
  | some a, some b => decide (a < b)
  | _, _ => false

/-- `*min_element(...)` of the C++ standard library: the first element, replaced by each later one that is lower
(dtm_intersection.cpp:53; `min` of an initializer list at 946). -/
def minElement : List (Option K) → Option K
  | [] => none
  | a :: l => l.foldl (fun m x => if nanLt x m then x else m) a

/-- `*max_element(...)` of the C++ standard library (dtm_intersection.cpp:54; `max` of an initializer list at 951). -/
def maxElement : List (Option K) → Option K
  | [] => none
  | a :: l => l.foldl (fun m x => if nanLt m x then x else m) a

namespace NanDtm

/-- `alt_data`, row by row. -/
def values (d : NanDtm K) : List (Option K) :=
  (List.range d.nbRows).flatMap fun (i : ℕ) => (List.range d.nbCols).map fun (j : ℕ) => d.alt i j

/-- `alt_min` (dtm_intersection.py:89: `np.min` is NaN as soon as one value is; dtm_intersection.cpp:53). -/
def lowest (impl : Impl) (d : NanDtm K) : Option K :=
  match impl with
  | .py => olistMin d.values
  | .cpp => minElement d.values

/-- `alt_max` (dtm_intersection.py:88, dtm_intersection.cpp:54). -/
def highest (impl : Impl) (d : NanDtm K) : Option K :=
  match impl with
  | .py => olistMax d.values
  | .cpp => maxElement d.values

/-- `plane_coef_d` (dtm_intersection.py:93-95, dtm_intersection.cpp:59-63). -/
def planeD (impl : Impl) (d : NanDtm K) (k : Fin 6) : Option K :=
  match k with
  | 0 => some 0
  | 1 => some ((d.nbRows : K) - 1)
  | 2 => some 0
  | 3 => some ((d.nbCols : K) - 1)
  | 4 => d.lowest impl
  | 5 => d.highest impl

/-- `interpolate` (dtm_intersection.py:185-198, dtm_intersection.cpp:144-183): NaN if one of the four nodes is, even with a null
weight. -/
def interpolate (d : NanDtm K) (row col : K) : Option K := interpolBilinChecked d.alt d.nbRows d.nbCols row col

/-- `alt_min_cell` (dtm_intersection.py:205-226, dtm_intersection.cpp:941-949; the four nodes are not taken in the same order). -/
def altMinCell (impl : Impl) (d : NanDtm K) (i j : ℤ) : Option K :=
  (match impl with
  | .py => olistMin [d.alt i j, d.alt i (j + 1), d.alt (i + 1) j, d.alt (i + 1) (j + 1)]
  | .cpp => minElement [d.alt i j, d.alt (i + 1) j, d.alt i (j + 1), d.alt (i + 1) (j + 1)]).map fun z => ((⌊z⌋ : ℤ) : K)

/-- `alt_max_cell` (dtm_intersection.py:205-227, dtm_intersection.cpp:941-954). -/
def altMaxCell (impl : Impl) (d : NanDtm K) (i j : ℤ) : Option K :=
  (match impl with
  | .py => olistMax [d.alt i j, d.alt i (j + 1), d.alt (i + 1) j, d.alt (i + 1) (j + 1)]
  | .cpp => maxElement [d.alt i j, d.alt (i + 1) j, d.alt i (j + 1), d.alt (i + 1) (j + 1)]).map fun z => ((⌈z⌉ : ℤ) : K)

/-- The sizes only, for the conditions on the current cell. -/
def sizes (d : NanDtm K) : Dtm K := ⟨fun _ _ => 0, d.nbRows, d.nbCols, d.transform⟩

/-- The coordinate of a point that a plane constrains (dtm_intersection.py:90-92, 113-129). -/
def coord (k : Fin 6) (p : V3 K) : K :=
  match k with
  | 0 => p.x
  | 1 => p.x
  | 2 => p.y
  | 3 => p.y
  | 4 => p.z
  | 5 => p.z

/-- dtm_intersection.py:280-330, dtm_intersection.cpp:270-328: the crossing of the plane `k` of equation `coord k p = D`. -/
def crossingOf (k : Fin 6) (D : K) (layer : ℕ) (a b : V3 K) : Crossing K :=
  let losA := coord k a - D
  let losB := coord k b - D
  if losA = 0 then ⟨a, (layer : K) - 1⟩
  else if losB = 0 then ⟨b, layer⟩
  else
    let ca := losB / (losB - losA)
    let cb := -losA / (losB - losA)
    ⟨⟨if k.val < 2 then D else ca * a.x + cb * b.x,
      if 1 < k.val ∧ k.val < 4 then D else ca * a.y + cb * b.y,
      if k.val > 3 then D else ca * a.z + cb * b.z⟩, (layer : K) - ca⟩

/-- dtm_intersection.py:265-335, dtm_intersection.cpp:252-336: the vertices and the plane may be NaN. -/
def faceScan (impl : Impl) (d : NanDtm K) (k : Fin 6) :
    Option (V3 K) → ℕ → List (Option (V3 K)) → Except CubeError (Option (Crossing K))
  | _, _, [] => .ok none
  | a, layer, b :: rest =>
    match d.planeD impl k, a, b with
    | some D, some a, some b =>
      if (coord k a - D) * (coord k b - D) ≤ 0 then
        if impl = .cpp ∧ coord k a - D = 0 ∧ coord k b - D = 0 then .error .tooManySolutions
        else .ok (some (crossingOf k D layer a b))
      else faceScan impl d k (some b) (layer + 1) rest
    | _, _, _ => faceScan impl d k b (layer + 1) rest

/-- dtm_intersection.py:252-335, dtm_intersection.cpp:234-337. -/
def faceHit (impl : Impl) (d : NanDtm K) (k : Fin 6) (los : List (Option (V3 K))) : Except CubeError (Option (Crossing K)) :=
  match los with
  | [] => .ok none
  | v :: _ => faceScan impl d k v 0 los

/-- dtm_intersection.py:252-335: the candidates of the planes, in order. -/
def faceHits (impl : Impl) (d : NanDtm K) (los : List (Option (V3 K))) : List (Fin 6) → Except CubeError (List (Crossing K))
  | [] => .ok []
  | k :: ks =>
    match faceHit impl d k los with
    | .error e => .error e
    | .ok none => faceHits impl d los ks
    | .ok (some c) =>
      match faceHits impl d los ks with
      | .error e => .error e
      | .ok cs => .ok (c :: cs)

/-- `test_on_cube` (dtm_intersection.py:361-368, dtm_intersection.cpp:371-378). -/
def onCube (impl : Impl) (d : NanDtm K) (p : V3 K) : Bool :=
  decide ((0 : K) ≤ p.x) && decide (p.x ≤ (d.nbRows : K) - 1) && decide ((0 : K) ≤ p.y) && decide (p.y ≤ (d.nbCols : K) - 1) &&
  (match d.lowest impl with
  | some m => decide (m ≤ p.z)
  | none => false) &&
  (match d.highest impl with
  | some m => decide (p.z ≤ m)
  | none => false)

/-- dtm_intersection.py:356-402, dtm_intersection.cpp:366-420. -/
def cubeOfIndex (impl : Impl) (d : NanDtm K) (los : List (Option (V3 K))) : Except CubeError (Option (Crossing K)) :=
  match faceHits impl d los [0, 1, 2, 3, 4, 5] with
  | .error e => .error e
  | .ok cs =>
    match (exchangeSort cs).filter (fun c => onCube impl d c.p) with
    | c :: _ :: _ => .ok (some c)
    | _ => .ok none

/-- The root search when the terrain may be NaN between the ends (dtm_intersection.py:777-819, dtm_intersection.cpp:838-888):
`abs(d_2) > tol_z` is then false and the search ends with the current point. -/
def falsi (interp : K → K → Option K) : ℕ → V3 K → K → V3 K → K → Outcome K
  | 0, _, _, _, _ => .falsiFuel
  | n + 1, p1, alti1, p2, h2 =>
    if (h2 - alti1) - (p2.z - p1.z) = 0 then .nonFinite
    else
      let ch := (p1.z - alti1) / ((h2 - alti1) - (p2.z - p1.z))
      let q : V3 K := ⟨p1.x + ch * (p2.x - p1.x), p1.y + ch * (p2.y - p1.y), p1.z + ch * (p2.z - p1.z)⟩
      match interp q.x q.y with
      | none => .found q
      | some zv =>
        let d2 := zv - q.z
        if |d2| > tolZ then
          if d2 < 0 then falsi interp n q zv p2 h2 else falsi interp n p1 alti1 q zv
        else .found q

/-- `b_intersect` (dtm_intersection.py:747-759, dtm_intersection.cpp:804-819). -/
def bIntersect (z0 z1 : K) (hI hS : Option K) (p1z p2z : K) : Bool :=
  if p2z > z0 then !((nanLt hS (some p1z) && nanLt hS (some z0)) || (nanLt (some p1z) hI && nanLt (some z0) hI))
  else if p2z < z1 then !((nanLt hS (some p1z) && nanLt hS (some z1)) || (nanLt (some p1z) hI && nanLt (some z1) hI))
  else !((nanLt hS (some p1z) && nanLt hS (some p2z)) || (nanLt (some p1z) hI && nanLt (some p2z) hI))

/-- The cell loop (dtm_intersection.py:523-821, dtm_intersection.cpp:545-891). -/
def marchCells (impl : Impl) (d : NanDtm K) (falsiN : ℕ) (v0 v1 : V3 K) : ℕ → March K → Outcome K ⊕ March K
  | 0, _ => .inl .marchFuel
  | n + 1, s =>
    if marchInside d.sizes s then
      let p1 := s.p2
      let s' := cellExit v0 ⟨v1.x - v0.x, v1.y - v0.y, v1.z - v0.z⟩ s
      if bIntersect v0.z v1.z (d.altMinCell impl s.colC s.rowC) (d.altMaxCell impl s.colC s.rowC) p1.z s'.p2.z then
        match d.interpolate p1.x p1.y, d.interpolate s'.p2.x s'.p2.y with
        | some alti1, some h2 =>
          if (p1.z - alti1) * (s'.p2.z - h2) ≤ 0 then .inl (falsi d.interpolate falsiN p1 alti1 s'.p2 h2)
          else marchCells impl d falsiN v0 v1 n s'
        | _, _ => marchCells impl d falsiN v0 v1 n s'
      else marchCells impl d falsiN v0 v1 n s'
    else .inr s

/-- The loop on the segments (dtm_intersection.py:456-843, dtm_intersection.cpp:468-926). -/
def marchPlanes (impl : Impl) (d : NanDtm K) (falsiN : ℕ) (los : List (V3 K)) : ℕ → ℤ → V3 K → K → Outcome K
  | 0, _, _, _ => .marchFuel
  | n + 1, i0, p2, hp2 =>
    if i0 < (los.length : ℤ) - 1 then
      let v0 := pyGet los i0
      let v1 := pyGet los (i0 + 1)
      if v1.x - v0.x = 0 ∧ v1.y - v0.y = 0 then
        match d.interpolate v0.x v0.y with
        | some alti1 =>
          if v1.z ≤ alti1 then .found ⟨v0.x, v0.y, alti1⟩ else marchPlanes impl d falsiN los n (i0 + 1) p2 hp2
        | none => marchPlanes impl d falsiN los n (i0 + 1) p2 hp2
      else
        let a2 := hp2 - i0
        let a2 := if a2 ≥ 1 then 0 else a2
        let s : March K := ⟨p2, startCell impl p2.x (v1.x - v0.x), startCell impl p2.y (v1.y - v0.y), a2⟩
        if !marchInside d.sizes s then .notFound
        else
          match marchCells impl d falsiN v0 v1 (cellFuel d.sizes) s with
          | .inl o => o
          | .inr s' =>
            if s'.a2 ≥ 1 then
              marchPlanes impl d falsiN los n (i0 + 1) (pyGet los (i0 + 1)) (altiAt impl los.length (i0 + 1))
            else .notFound
    else .notFound

/-- `intersection` (dtm_intersection.py:409-843, dtm_intersection.cpp:423-927): `z - NaN < 0` is false. -/
def intersectionIdx (impl : Impl) (d : NanDtm K) (falsiN : ℕ) (losIndex : List (V3 K)) (pb : V3 K) (h : K) : Outcome K :=
  match d.interpolate pb.x pb.y with
  | some z =>
    if pb.z - z < 0 then .notFound else marchPlanes impl d falsiN losIndex (losIndex.length + 2) ⌊h⌋ pb h
  | none => marchPlanes impl d falsiN losIndex (losIndex.length + 2) ⌊h⌋ pb h

/-- The cell loop on a segment with a NaN vertex (dtm_intersection.py:523-821, dtm_intersection.cpp:545-891): the direction of the segment
is NaN, no comparison with it holds, so that the cell, the point and `a_2` do not change from one turn to the next.  Each turn only tests whether
the point is on the terrain (`d_alti_1 * d_2 <= 0` with `d_alti_1 = d_2`); `b_intersect` is true when it is, since the altitude of the
terrain is between the lowest and the highest of the cell; the division that follows is `0 / 0`. -/
def nanCells (d : NanDtm K) : ℕ → March K → Outcome K ⊕ March K
  | 0, _ => .inl .marchFuel
  | n + 1, s =>
    if marchInside d.sizes s then
      match d.interpolate s.p2.x s.p2.y with
      | some z => if (s.p2.z - z) * (s.p2.z - z) ≤ 0 then .inl .nonFinite else nanCells d n s
      | none => nanCells d n s
    else .inr s

/-- `los_index[i]` when vertices may be NaN. -/
def pyGetO (l : List (Option (V3 K))) (i : ℤ) : Option (V3 K) :=
  if i < 0 then l.getD ((l.length : ℤ) + i).toNat (some ⟨0, 0, 0⟩) else l.getD i.toNat (some ⟨0, 0, 0⟩)

/-- The loop on the segments (dtm_intersection.py:456-843, dtm_intersection.cpp:468-926) when vertices may be NaN, as `marchPlanes`.  On a segment
with a NaN vertex the cell of the start is not corrected (`los_dtm < 0` is false), and `turns` turns of the cell loop are made. -/
def marchPlanesNan (impl : Impl) (d : NanDtm K) (falsiN turns : ℕ) (los : List (Option (V3 K))) : ℕ → ℤ → V3 K → K → Outcome K
  | 0, _, _, _ => .marchFuel
  | n + 1, i0, p2, hp2 =>
    if i0 < (los.length : ℤ) - 1 then
      let a2 := if hp2 - i0 ≥ 1 then 0 else hp2 - i0
      match pyGetO los i0, pyGetO los (i0 + 1) with
      | some v0, some v1 =>
        if v1.x - v0.x = 0 ∧ v1.y - v0.y = 0 then
          match d.interpolate v0.x v0.y with
          | some alti1 =>
            if v1.z ≤ alti1 then .found ⟨v0.x, v0.y, alti1⟩ else marchPlanesNan impl d falsiN turns los n (i0 + 1) p2 hp2
          | none => marchPlanesNan impl d falsiN turns los n (i0 + 1) p2 hp2
        else
          let s : March K := ⟨p2, startCell impl p2.x (v1.x - v0.x), startCell impl p2.y (v1.y - v0.y), a2⟩
          if !marchInside d.sizes s then .notFound
          else
            match marchCells impl d falsiN v0 v1 (cellFuel d.sizes) s with
            | .inl o => o
            | .inr s' =>
              if s'.a2 ≥ 1 then marchPlanesNan impl d falsiN turns los n (i0 + 1) v1 (altiAt impl los.length (i0 + 1))
              else .notFound
      | _, _ =>
        let s : March K := ⟨p2, ⌊p2.x⌋, ⌊p2.y⌋, a2⟩
        if !marchInside d.sizes s then .notFound
        else
          match nanCells d turns s with
          | .inl o => o
          -- the loop does not change the state and `marchInside` holds: not reached
          | .inr _ => .notFound
    else .notFound

/-- `intersection` (dtm_intersection.py:409-843, dtm_intersection.cpp:423-927) when vertices may be NaN. -/
def intersectionNan (impl : Impl) (d : NanDtm K) (falsiN turns : ℕ) (losIndex : List (Option (V3 K))) (pb : V3 K) (h : K) : Outcome K :=
  match d.interpolate pb.x pb.y with
  | some z =>
    if pb.z - z < 0 then .notFound else marchPlanesNan impl d falsiN turns losIndex (losIndex.length + 2) ⌊h⌋ pb h
  | none => marchPlanesNan impl d falsiN turns losIndex (losIndex.length + 2) ⌊h⌋ pb h

/-- What is stored for the outcome of `intersection` (dtm_intersection.py:861-864, dtm_intersection.cpp:1004-1016). -/
def stored (impl : Impl) (d : NanDtm K) : Outcome K → DtmPoint K
  | .found p => .point (indexToTerPy d.transform p)
  | .notFound =>
    match impl with
    | .py => .point ⟨0, 0, 0⟩
    | .cpp => .uninitialised
  | _ => .failure

/-- One line of sight of `intersection_n_los_dtm` (dtm_intersection.py:857-864, dtm_intersection.cpp:994-1017).  A vertex with a NaN
coordinate is `none`.  A march that does not end within `turns` turns of the cell loop of a segment with a NaN vertex is a `failure`
(`C101_march_never_ends`: it never ends). -/
def losDtmTurns (impl : Impl) (d : NanDtm K) (falsiN turns : ℕ) (los : List (Option (V3 K))) : DtmPoint K :=
  let li := los.map fun v => v.map (terToIndexPy d.transform)
  match cubeOfIndex impl d li with
  | .error _ => .failure
  | .ok none => .nan
  | .ok (some c) => stored impl d (intersectionNan impl d falsiN turns li c.p c.h)

/-- `losDtmTurns` with one turn on a segment with a NaN vertex: more turns give the same (`NanDtm.losDtmTurns_eq`). -/
def losDtm (impl : Impl) (d : NanDtm K) (falsiN : ℕ) (los : List (Option (V3 K))) : DtmPoint K := losDtmTurns impl d falsiN 1 los

end NanDtm

end Shareloc
