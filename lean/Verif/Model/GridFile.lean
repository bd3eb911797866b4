import Verif.Model.Grid
import Verif.Model.RpcIo

/-!
Model of the loading of a grid file: `Grid.__init__` and `Grid.read` (`shareloc/geomodels/grid.py`), over what rasterio gives of the
file: driver, tags of the namespaces, bands, sizes and geotransform.  `int`, `float` and `np.argsort` are parameters.
-/

namespace Shareloc
variable {K : Type} [Field K] [LinearOrder K] [IsStrictOrderedRing K] [FloorRing K]

/-- A dictionary of tags in insertion order (`dataset.tags()`, grid.py:162). -/
abbrev Tags := List (Line × Line)

/-- `d[key] = value` (inside `metadata.update`, grid.py:164): the value is replaced in place, a new key goes to the end. -/
def Tags.insert (d : Tags) (kv : Line × Line) : Tags :=
  if kv.1 ∈ d.map (·.1) then d.map fun e => if e.1 = kv.1 then kv else e else d ++ [kv]

/-- `metadata.update(other)` (grid.py:164). -/
def Tags.update (d other : Tags) : Tags := other.foldl Tags.insert d

/-- What rasterio gives of the file (image.py:75-187, grid.py:157-165). -/
structure GridFile (K : Type) where
  driver : Line
  tags : Tags
  namespaces : List Tags
  bands : List (ℕ → ℕ → K)
  height : ℕ
  width : ℕ
  transform : Affine K

/-- The exceptions of `Grid.read`. -/
inductive GridError
  | typeError
  | indexError
  | valueError
  deriving DecidableEq, Repr

/-- The libraries: `int(s)`, `float(s)`, `np.argsort`. -/
structure GridEnv (K : Type) where
  toInt : Line → Option ℤ
  toFloat : Line → Option K
  argsort : List K → List ℕ

/-- `sub in s` (grid.py:227). -/
def isInfix (sub : Line) : Line → Bool
  | [] => decide (sub = [])
  | c :: cs => sub.isPrefixOf (c :: cs) || isInfix sub cs

/-- `s.split(c)` for a separator of one character (grid.py:228 `"B"`, grid.py:193 `":"`). -/
def splitChar (sep : Char) : Line → List Line
  | [] => [[]]
  | c :: cs =>
    if c = sep then [] :: splitChar sep cs
    else
      match splitChar sep cs with
      | [] => [[c]]
      | p :: ps => (c :: p) :: ps

/-- `s.split(c)[1]` (grid.py:193, 228). -/
def secondPart (sep : Char) (s : Line) : Except GridError Line :=
  match splitChar sep s with
  | _ :: b :: _ => .ok b
  | _ => .error .indexError

/-- `int(s)` (grid.py:193, 228). -/
def gridInt (env : GridEnv K) (s : Line) : Except GridError ℤ :=
  match env.toInt s with
  | some n => .ok n
  | none => .error .valueError

/-- `float(s)` (grid.py:229). -/
def gridFloat (env : GridEnv K) (s : Line) : Except GridError K :=
  match env.toFloat s with
  | some x => .ok x
  | none => .error .valueError

/-- `check_status_band` (grid.py:198-210). -/
def checkStatusBand (metadata : Tags) : Bool := metadata.any fun e => decide (e.2 = "status".toList)

/-- The index of an assignment `array[i] = v` in an array of `n` elements: negative ones count from the end (grid.py:229). -/
def storeIndex (n : ℕ) (i : ℤ) : Except GridError ℕ :=
  if 0 ≤ i then (if i < n then .ok i.toNat else .error .indexError)
  else if 0 ≤ i + n then .ok (i + n).toNat
  else .error .indexError

/-- One tag in the loop of `parse_metadata_alti` (grid.py:226-229); `int(x / s)` truncates towards zero. -/
def altitudeStep (env : GridEnv K) (status : Bool) (arr : List K) (e : Line × Line) : Except GridError (List K) :=
  if isInfix "ALTITUDE".toList e.1 then do
    let b ← secondPart 'B' e.1
    let n ← gridInt env b
    let v ← gridFloat env e.2
    let i ← storeIndex arr.length (n.tdiv (2 + status.toNat : ℕ))
    return arr.set i v
  else .ok arr

/-- `alt_array` of `parse_metadata_alti` (grid.py:224-229). -/
def altitudeArray (env : GridEnv K) (status : Bool) : List K → Tags → Except GridError (List K)
  | arr, [] => .ok arr
  | arr, e :: es =>
    match altitudeStep env status arr e with
    | .error err => .error err
    | .ok arr' => altitudeArray env status arr' es

/-- One tag of the loop on the `REF` keys (grid.py:186-196). -/
def refStep (env : GridEnv K) (epsg : Option ℤ) (e : Line × Line) : Except GridError (Option ℤ) :=
  if "REF".toList.isSuffixOf e.1 then
    if "EPSG:".toList.isPrefixOf e.2 then do
      let s ← secondPart ':' e.2
      let n ← gridInt env s
      return some n
    else .ok (some 4326)
  else .ok epsg

/-- The loop on the `REF` keys (grid.py:186-196): the last one is kept. -/
def refLoop (env : GridEnv K) : Option ℤ → Tags → Except GridError (Option ℤ)
  | epsg, [] => .ok epsg
  | epsg, e :: es =>
    match refStep env epsg e with
    | .error err => .error err
    | .ok epsg' => refLoop env epsg' es

/-- `Grid.load` / `Grid.__init__` / `Grid.read` (grid.py:81-196): the grid and its EPSG code.  The data are squeezed when read
(image.py:187): with one row, one column or one band they have no longer three dimensions.  The constructors of the interpolators
(grid.py:117-132) are not modelled: they refuse less than two layers or layers at the same altitude, depending on scipy. -/
def gridLoad (env : GridEnv K) (f : GridFile K) : Except GridError (MultiGrid K × Option ℤ) :=
  if f.driver ≠ "GTiff".toList then .error .typeError
  else
    let metadata := f.namespaces.foldl Tags.update f.tags
    let status := checkStatusBand metadata
    let s := 2 + status.toNat
    let nbalt := f.bands.length / s
    match altitudeArray env status (List.replicate nbalt 0) metadata with
    | .error err => .error err
    | .ok arr =>
      let idx := (env.argsort arr).reverse
      let band (k : ℕ) : ℕ → ℕ → K := f.bands.getD k (fun _ _ => 0)
      if f.height = 1 ∨ f.width = 1 ∨ f.bands.length = 1 then .error .indexError
      else
        match refLoop env none metadata with
        | .error err => .error err
        | .ok epsg =>
          .ok ({ nbalt := nbalt, nbrow := f.height, nbcol := f.width, alts := fun i => arr.getD (idx.getD i 0) 0,
                 lon := fun i => band (idx.getD i 0 * s), lat := fun i => band (idx.getD i 0 * s + 1),
                 row0 := f.transform.f, col0 := f.transform.c, steprow := f.transform.e, stepcol := f.transform.a,
                 geographic := decide (epsg = some 4326) }, epsg)

end Shareloc
