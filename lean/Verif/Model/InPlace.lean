import Verif.Model.DtmReader
import Verif.Model.Rectification

/-!
# Arrays modified in place

`positions_to_displacement_grid` (rectification.py:776-804), `interpolate_geoid_height` (dtm_reader.py:149-195) and
`check_lonlat` (geomodel_template.py:111-124) assign into slices of the numpy arrays given by the caller.  The memory is a map
from references to the contents of arrays; two arguments may be the same reference.  Views sharing part of another array
(slices given as arguments) are not modelled.
-/

namespace Shareloc

set_option linter.unusedSectionVars false

variable {K : Type*} [Field K] [LinearOrder K] [IsStrictOrderedRing K] [FloorRing K]

/-- The memory: contents of the arrays, by reference.  (Not a definition of the code: the meaning of its references.) -/
abbrev Memory (A : Type*) := ℕ → A

/-- Assignment of the whole contents of an array (the numpy statements `a[:, :, k] = …` are assignments of one component of
every element). -/
def Memory.put {A : Type*} (s : Memory A) (r : ℕ) (a : A) : Memory A := fun q => if q = r then a else s q

/-- `a[:, :, 0] = a[:, :, 0] - v` (rectification.py:800, 802). -/
def subtractFirst (s : Memory (ℕ → ℕ → V3 K)) (r : ℕ) (v : ℕ → ℕ → K) : Memory (ℕ → ℕ → V3 K) :=
  s.put r fun i j => { s r i j with x := (s r i j).x - v i j }

/-- `a[:, :, 1] = a[:, :, 1] - v` (rectification.py:801, 803). -/
def subtractSecond (s : Memory (ℕ → ℕ → V3 K)) (r : ℕ) (v : ℕ → ℕ → K) : Memory (ℕ → ℕ → V3 K) :=
  s.put r fun i j => { s r i j with y := (s r i j).y - v i j }

/-- `positions_to_displacement_grid` (rectification.py:776-804) on references: the memory after the call, the two references and
the geotransform returned.  `grids_cols, grids_rows` are those of line 798 (columns given first). -/
def positionsToDisplacementGrid (step : K) (s : Memory (ℕ → ℕ → V3 K)) (left right : ℕ) :
    Memory (ℕ → ℕ → V3 K) × ℕ × ℕ × Affine K :=
  let t : Affine K := ⟨step, 0, -(step * (1 / 2)), 0, step, -(step * (1 / 2))⟩
  let gridsCols : ℕ → ℕ → K := fun i j => (indexToPhysical t (j : K) (i : K)).1
  let gridsRows : ℕ → ℕ → K := fun i j => (indexToPhysical t (j : K) (i : K)).2
  let s1 := subtractFirst s left gridsRows
  let s2 := subtractSecond s1 left gridsCols
  let s3 := subtractFirst s2 right gridsRows
  let s4 := subtractSecond s3 right gridsCols
  (s4, left, right, t)

/-- The two in place changes of the longitudes (dtm_reader.py:183-184) on one position; NaN comparisons are false. -/
def GeoidImage.wrapPosition (g : GeoidImage K) (p : Option K × Option K) : Option K × Option K := (p.1.map g.wrap, p.2)

/-- The end of `interpolate_geoid_height` (dtm_reader.py:187-195) for one position whose longitude has already been changed. -/
def GeoidImage.heightWrapped (g : GeoidImage K) (p : Option K × Option K) : Option K :=
  match p with
  | (some lon, some lat) =>
    let rc := physicalToIndex g.transform.inv lat lon
    g.interpn rc.1 rc.2
  | _ => none

/-- `interpolate_geoid_height` (dtm_reader.py:149-195) on a reference: the memory after the call, whether it returned or raised.
The longitudes are changed (lines 183-184) before the latitudes are checked (lines 185-186). -/
def interpolateGeoidInPlace (g : GeoidImage K) (s : Memory (List (Option K × Option K))) (r : ℕ) :
    Memory (List (Option K × Option K)) × Except DtmError (List (Option K)) :=
  let o := g.overlap
  let s' := s.put r ((s r).map o.wrapPosition)
  if (s' r).any fun p => beyondPole p.2 then (s', .error .runtimeError) else (s', .ok ((s' r).map o.heightWrapped))

/-- `check_lonlat` (geomodel_template.py:111-124) on a reference: the memory after the call and the reference returned. -/
def checkLonLatInPlace (s : Memory (List (ORow K))) (r : ℕ) : Memory (List (ORow K)) × ℕ :=
  (s.put r ((s r).map checkRow), r)

end Shareloc
