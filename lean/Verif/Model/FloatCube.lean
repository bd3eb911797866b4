import Verif.Model.FloatMarch

/-!
The intersection of a line of sight with the box of the DTM (dtm_intersection.py:231-402, dtm_intersection.cpp:193-421) with any arithmetic: the four
operations on numbers are those of `A`.  Comparisons, the ranks of the vertices and the coefficients 0 and 1 of the planes are exact, as in floating
point.  The line of sight is in index coordinates (their conversion is the subject of C84).
-/

namespace Shareloc
variable {K : Type*} [Field K] [LinearOrder K] [IsStrictOrderedRing K] [FloorRing K]

/-- `eq_plan` (dtm_intersection.py:113-129, dtm_intersection.cpp:96-103), as `eqPlan`: one subtraction. -/
def eqPlanA (A : Arith K) (d : Dtm K) (k : Fin 6) (p : V3 K) : K :=
  match k with
  | 0 => A.sub p.x (planeD d 0)
  | 1 => A.sub p.x (planeD d 1)
  | 2 => A.sub p.y (planeD d 2)
  | 3 => A.sub p.y (planeD d 3)
  | 4 => A.sub p.z (planeD d 4)
  | 5 => A.sub p.z (planeD d 5)

/-- dtm_intersection.py:280-330, dtm_intersection.cpp:270-328, as `crossingOf`. -/
def crossingA (A : Arith K) (d : Dtm K) (k : Fin 6) (layer : ℕ) (a b : V3 K) : Crossing K :=
  let losA := eqPlanA A d k a
  let losB := eqPlanA A d k b
  if losA = 0 then ⟨a, (layer : K) - 1⟩
  else if losB = 0 then ⟨b, layer⟩
  else
    let ca := A.div losB (A.sub losB losA)
    let cb := A.div (-losA) (A.sub losB losA)
    ⟨⟨if k.val < 2 then planeD d k else A.add (A.mul ca a.x) (A.mul cb b.x),
      if 1 < k.val ∧ k.val < 4 then planeD d k else A.add (A.mul ca a.y) (A.mul cb b.y),
      if k.val > 3 then planeD d k else A.add (A.mul ca a.z) (A.mul cb b.z)⟩, A.sub (layer : K) ca⟩

/-- dtm_intersection.py:265-335, dtm_intersection.cpp:252-336, as `faceScan`. -/
def faceScanA (A : Arith K) (impl : Impl) (d : Dtm K) (k : Fin 6) (a : V3 K) (layer : ℕ) : List (V3 K) → Except CubeError (Option (Crossing K))
  | [] => .ok none
  | b :: rest =>
    if A.mul (eqPlanA A d k a) (eqPlanA A d k b) ≤ 0 then
      if impl = .cpp ∧ eqPlanA A d k a = 0 ∧ eqPlanA A d k b = 0 then .error .tooManySolutions
      else .ok (some (crossingA A d k layer a b))
    else faceScanA A impl d k b (layer + 1) rest

/-- dtm_intersection.py:252-335, dtm_intersection.cpp:234-337, as `faceHit`. -/
def faceHitA (A : Arith K) (impl : Impl) (d : Dtm K) (k : Fin 6) (los : List (V3 K)) : Except CubeError (Option (Crossing K)) :=
  match los with
  | [] => .ok none
  | v :: _ => faceScanA A impl d k v 0 los

/-- The candidates of the six planes, in plane order, as `faceHits`. -/
def faceHitsA (A : Arith K) (impl : Impl) (d : Dtm K) (los : List (V3 K)) : List (Fin 6) → Except CubeError (List (Crossing K))
  | [] => .ok []
  | k :: ks =>
    match faceHitA A impl d k los with
    | .error e => .error e
    | .ok none => faceHitsA A impl d los ks
    | .ok (some c) =>
      match faceHitsA A impl d los ks with
      | .error e => .error e
      | .ok cs => .ok (c :: cs)

/-- dtm_intersection.py:337-402, dtm_intersection.cpp:342-420, as `cubeOfIndex`: sort, filter, first of at least two. -/
def cubeA (A : Arith K) (impl : Impl) (d : Dtm K) (losIndex : List (V3 K)) : Except CubeError (Option (Crossing K)) :=
  match faceHitsA A impl d losIndex [0, 1, 2, 3, 4, 5] with
  | .error e => .error e
  | .ok cs =>
    match (exchangeSort cs).filter (fun c => onCube d c.p) with
    | c :: _ :: _ => .ok (some c)
    | _ => .ok none

end Shareloc
