import Verif.Model.Rectification

/-!
Model of `shareloc/geofunctions/localization.py` and `shareloc/geomodels/geomodel.py`.

A geometric model is what `Localization` calls.  Scalars are lists of one number.  `coordinates_conversion` is a parameter
that works point by point.
-/

namespace Shareloc
variable {K δ : Type*} [Field K] [LinearOrder K]

/-- What `Localization` uses of a geometric model (localization.py:60-166). `inverse` gives `none` when the model has no
inverse coefficients and returns `(None, None, alt)`; `bounds` is (row0, col0), (rowmax, colmax) (grid.py:185-188,
rpc.py:177-180, rpc_optim.py:141-144). -/
structure Geo (K δ : Type*) where
  epsg : ℕ
  bounds : (K × K) × (K × K)
  directH : List (Option K) → List (Option K) → List (Option K) → Except RpcError (List (ORow K))
  directDtm : List (Option K) → List (Option K) → δ → Except RpcError (List (ORow K))
  inverse : List (Option K) → List (Option K) → List (Option K) → Except RpcError (Option (List (Option K × Option K)))

/-- The `elevation` argument (localization.py:62-67): nothing, numbers, or a DTM and its EPSG code. -/
inductive Elevation (K δ : Type*)
  | missing
  | value (l : List (Option K))
  | dtm (epsg : ℕ) (d : δ)

/-- The image: its transform and size (localization.py:68, 117-118). -/
structure LocImage (K : Type*) where
  transform : Affine K
  nbRows : ℕ
  nbCols : ℕ

/-- The object (localization.py:42-69). -/
structure Localization (K δ : Type*) where
  model : Geo K δ
  elevation : Elevation K δ
  image : Option (LocImage K)
  epsg : Option ℕ

/-- The exceptions of this module. -/
inductive LocError
  | valueError
  | typeError
  | model (e : RpcError)
  deriving DecidableEq, Repr

/-- `self.default_elevation` (localization.py:62-65). -/
def Localization.defaultElevation (L : Localization K δ) : List (Option K) :=
  match L.elevation with
  | .value l => l
  | _ => [some 0]

/-- `transform_index_to_physical_point` on one point that may be NaN (proj_utils.py:55-70). -/
def oIndexToPhysical (t : Affine K) (row col : Option K) : Option K × Option K :=
  match row, col with
  | some r, some c => (some (indexToPhysical t r c).1, some (indexToPhysical t r c).2)
  | _, _ => (none, none)

/-- `transform_physical_point_to_index` on one point that may be NaN (proj_utils.py:73-87). -/
def oPhysicalToIndex (tinv : Affine K) (row col : Option K) : Option K × Option K :=
  match row, col with
  | some r, some c => (some (physicalToIndex tinv r c).1, some (physicalToIndex tinv r c).2)
  | _, _ => (none, none)

/-- The rows and columns given to the model (localization.py:86-87).  Arrays of different sizes are refused (numpy would
broadcast an array of one element). -/
def Localization.toPhysical (L : Localization K δ) (geo : Bool) (row col : List (Option K)) :
    Except LocError (List (Option K) × List (Option K)) :=
  match geo, L.image with
  | true, some im =>
    if row.length = col.length then
      let l := List.zipWith (oIndexToPhysical im.transform) row col
      .ok (l.map fun p => p.1, l.map fun p => p.2)
    else .error .valueError
  | _, _ => .ok (row, col)

/-- The model call of `Localization.direct` and the EPSG code of its result (localization.py:89-97). -/
def Localization.modelDirect (L : Localization K δ) (row col : List (Option K)) (h : Option (List (Option K))) :
    Except RpcError (List (ORow K)) × ℕ :=
  match h with
  | some h => (L.model.directH row col h, L.model.epsg)
  | none =>
    match L.elevation with
    | .dtm epsg d => (L.model.directDtm row col d, epsg)
    | _ => (L.model.directH row col L.defaultElevation, L.model.epsg)

/-- `Localization.direct` (localization.py:71-100). -/
def Localization.direct (conv : ℕ → ℕ → ORow K → ORow K) (L : Localization K δ) (row col : List (Option K))
    (h : Option (List (Option K))) (geo : Bool) : Except LocError (List (ORow K)) :=
  match L.toPhysical geo row col with
  | .error e => .error e
  | .ok rc =>
    let r := L.modelDirect rc.1 rc.2 h
    match r.1 with
    | .error e => .error (.model e)
    | .ok coords =>
      match L.epsg with
      | none => .ok coords
      | some e => if e ≠ r.2 then .ok (coords.map (conv r.2 e)) else .ok coords

/-- `coords[:, 1] = lat` and `coords[:, 2] = h` (localization.py:156-157): one number or as many as points. -/
def fillColumn (n : ℕ) (h : List (Option K)) : Except LocError (List (Option K)) :=
  if h.length = n then .ok h
  else match h with
    | [a] => .ok (List.replicate n a)
    | _ => .error .valueError

/-- The longitudes, latitudes and altitudes given to the model (localization.py:147-162). -/
def Localization.toModel (conv : ℕ → ℕ → ORow K → ORow K) (L : Localization K δ) (lon lat h : List (Option K)) :
    Except LocError (List (Option K) × List (Option K) × List (Option K)) :=
  match L.epsg with
  | none => .ok (lon, lat, h)
  | some e =>
    if L.model.epsg ≠ e then
      match fillColumn lon.length lat, fillColumn lon.length h with
      | .ok lat', .ok h' =>
        let c := ((lon.zip (lat'.zip h')).map fun t => (⟨t.1, t.2.1, t.2.2⟩ : ORow K)).map (conv e L.model.epsg)
        .ok (c.map fun p => p.x, c.map fun p => p.y, c.map fun p => p.z)
      | _, _ => .error .valueError
    else .ok (lon, lat, h)

/-- `Localization.inverse` (localization.py:130-166): rows and columns (`none` for `None`) and the altitudes. -/
def Localization.inverse (conv : ℕ → ℕ → ORow K → ORow K) (L : Localization K δ) (lon lat : List (Option K))
    (h : Option (List (Option K))) (geo : Bool) :
    Except LocError (Option (List (Option K × Option K)) × List (Option K)) :=
  match L.toModel conv lon lat (h.getD L.defaultElevation) with
  | .error e => .error e
  | .ok c =>
    match L.model.inverse c.1 c.2.1 c.2.2 with
    | .error e => .error (.model e)
    | .ok rc =>
      match geo, L.image with
      | true, some im =>
        match rc with
        | none => .error .typeError
        | some l => .ok (some (l.map fun p => oPhysicalToIndex im.transform.inv p.1 p.2), c.2.2)
      | _, _ => .ok (rc, c.2.2)

/-- `coloc` (localization.py:169-217): sensor positions in image 2 and ground positions. -/
def coloc (conv : ℕ → ℕ → ORow K → ORow K) (m1 m2 : Geo K δ) (row col : List (Option K)) (elevation : Elevation K δ)
    (image1 image2 : Option (LocImage K)) (geo : Bool) : Except LocError (List (ORow K) × List (ORow K)) :=
  if row.length ≠ col.length then .error .valueError
  else
    match Localization.direct conv ⟨m1, elevation, image1, none⟩ row col none geo with
    | .error e => .error e
    | .ok ground =>
      match Localization.inverse conv ⟨m2, elevation, image2, none⟩ (ground.map fun p => p.x) (ground.map fun p => p.y)
          (some (ground.map fun p => p.z)) geo with
      | .error e => .error e
      | .ok (rc, h) =>
        let l := rc.getD (ground.map fun _ => (none, none))
        .ok ((l.zip h).map fun t => ⟨t.1.1, t.1.2, t.2⟩, ground)

/-- `np.min(on_ground_pos, 0)` and `np.max` for two points: a NaN stays (localization.py:126-127). -/
def omin (a b : Option K) : Option K := olift2 min a b

/-- See `omin` (localization.py:127). -/
def omax (a b : Option K) : Option K := olift2 max a b

/-- The four numbers returned by `extent` (localization.py:128). -/
structure LocExtent (K : Type*) where
  e0 : Option K
  e1 : Option K
  e2 : Option K
  e3 : Option K
  deriving DecidableEq, Repr

/-- The two corners used by `extent` and whether the geotransform is used (localization.py:114-124). -/
def Localization.footprint (L : Localization K δ) : ((K × K) × (K × K)) × Bool :=
  match L.image with
  | some im => (((-1 / 2, -1 / 2), (-1 / 2 + im.nbRows, -1 / 2 + im.nbCols)), true)
  | none => (L.model.bounds, false)

/-- The minima and maxima of two ground points and the margin (localization.py:126-128). -/
def boxOf (p q : ORow K) (margin : K) : LocExtent K :=
  let lonMin := omin p.x q.x
  let latMin := omin p.y q.y
  let lonMax := omax p.x q.x
  let latMax := omax p.y q.y
  ⟨latMin.map fun v => v - margin, lonMin.map fun v => v - margin, latMax.map fun v => v + margin,
    lonMax.map fun v => v + margin⟩

/-- `Localization.extent` (localization.py:102-128). -/
def Localization.extent (conv : ℕ → ℕ → ORow K → ORow K) (L : Localization K δ) (margin : K) :
    Except LocError (LocExtent K) :=
  let b := L.footprint.1
  match L.direct conv [some b.1.1, some b.2.1] [some b.1.2, some b.2.2] (some [some 0]) L.footprint.2 with
  | .error e => .error e
  | .ok [p, q] => .ok (boxOf p q margin)
  | .ok _ => .error .valueError

/-! ### The registry of models -/

/-- `available_geomodels` (geomodel.py:45): a dictionary, in order of insertion. -/
abbrev Registry (C : Type*) := List (String × C)

/-- `cls.available_geomodels[geomodel_type] = geomodel_subclass` (geomodel.py:110): an existing key keeps its place. -/
def Registry.set {C : Type*} (name : String) (c : C) : Registry C → Registry C
  | [] => [(name, c)]
  | (n, c') :: r => if n = name then (n, c) :: r else (n, c') :: Registry.set name c r

/-- The exceptions of `create_geomodel`: a missing key, or what `load` raises. -/
inductive CreateError (E : Type*)
  | keyError
  | load (e : E)
  deriving DecidableEq, Repr

/-- `create_geomodel` (geomodel.py:62-83), with what the `load` function of a class does on a path: a model, an exception, or
a `KeyError` (`none`), which the factory logs as an unknown type and raises again. -/
def createGeomodel {C E M : Type*} (load : C → String → Except (Option E) M) (r : Registry C) (path : String) (name : String) :
    Except (CreateError E) M :=
  match r.lookup name with
  | none => .error .keyError
  | some c =>
    match load c path with
    | .ok m => .ok m
    | .error none => .error .keyError
    | .error (some e) => .error (.load e)

/-- `print_avalaible_geomodels` (geomodel.py:85-91): the names printed. -/
def Registry.names {C : Type*} (r : Registry C) : List String := r.map fun p => p.1

/-- The registry after a sequence of `register` decorations (geomodel.py:93-113). -/
def registerAll {C : Type*} (h : List (String × C)) : Registry C := h.foldl (fun r p => Registry.set p.1 p.2 r) []

end Shareloc
