import Verif.Model.GridGeo
import Verif.Model.GridPredictor

/-!
A grid used during a session: the attributes of the predictor start as `None`, are assigned by
`Grid.estimate_inverse_loc_predictor`, and are read by `Grid.inverse_loc` and `Localization.inverse`
(grid.py:107-115, 539-672, 749-829; localization.py:143-146).
-/

namespace Shareloc
variable {K : Type*} [Field K] [LinearOrder K] [IsStrictOrderedRing K] [FloorRing K]

/-- The attributes `pred_*` of a grid (grid.py:107-115, 624-631): `None`, NaN numbers, or usable numbers.  They are assigned together,
after everything that can raise. -/
inductive PredState (K : Type*)
  | unset
  | nan
  | fitted (p : Predictor K)

/-- `Grid.estimate_inverse_loc_predictor` (grid.py:539-631, with 431-432 for the sizes): the attributes that it assigns, or its exception.
One row or one column divides by zero, none gives empty arrays, whose `min()` raises.  A NaN node, or nodes all at the same
longitude or latitude, give NaN coefficients without an exception; a singular normal matrix raises. -/
noncomputable def estimatePred (g : MultiGrid K) (nbrow nbcol : ℕ) : Except RpcError (PredState K) :=
  if nbrow = 1 ∨ nbcol = 1 then .error .zeroDivision
  else if nbrow = 0 ∨ nbcol = 0 then .error .badSizes
  else
    match olistMin (sampledNodes g nbrow nbcol fun p => p.x), olistMax (sampledNodes g nbrow nbcol fun p => p.x),
      olistMin (sampledNodes g nbrow nbcol fun p => p.y), olistMax (sampledNodes g nbrow nbcol fun p => p.y) with
    | some lonMin, some lonMax, some latMin, some latMax =>
      if lonMax = lonMin ∨ latMax = latMin then .ok .nan
      else
        match ownPredictor g nbrow nbcol with
        | some p => .ok (.fitted p)
        | none => .error .singularMatrix
    | _, _, _, _ => .ok .nan

/-- Does the loop of `Grid.inverse_loc` have a point (grid.py:792, 795, 800)? -/
def someValidPoint (lon lat alt : List (Option K)) : Bool :=
  (lon.zip (lat.zip alt)).any fun t =>
    match checkRow (⟨t.1, t.2.1, t.2.2⟩ : ORow K) with
    | ⟨some _, some _, _⟩ => true
    | _ => false

/-- `Grid.inverse_loc` (grid.py:749-829) of a grid whose predictor is in the state `s`.  Without predictor, or with a NaN one, an array
of NaN points is still answered; otherwise the first valid point raises: a subscript of `None` (grid.py:652), or, the predicted row
being NaN, `int(nan)` at the first turn (grid.py:704), if there is one. -/
def gridInverseIn (g : MultiGrid K) (s : PredState K) (rad rtx : K) (cosdeg : K → K) (lon lat alt : List (Option K))
    (nbIterations : ℕ) : Except RpcError (List (ORow K)) :=
  match s with
  | .fitted p => gridInverseLoc g p rad rtx cosdeg lon lat alt nbIterations
  | .unset =>
    match broadcastAlt lon.length alt with
    | .error e => .error e
    | .ok alt' =>
      if lon.length = lat.length then
        if someValidPoint lon lat alt' then .error .predictorMissing
        else .ok (lon.map fun _ => nanRow)
      else .error .badSizes
  | .nan =>
    match broadcastAlt lon.length alt with
    | .error e => .error e
    | .ok alt' =>
      if lon.length = lat.length then
        if nbIterations ≠ 0 ∧ someValidPoint lon lat alt' then .error .predictorNan
        else .ok ((lon.zip (lat.zip alt')).map fun t => ⟨none, none, (checkRow (⟨t.1, t.2.1, t.2.2⟩ : ORow K)).z⟩)
      else .error .badSizes

/-- The parameters that a session does not change: the conversions, the numbers of `inverse_loc` and the system of the grid
(grid.py:183-188, 800-807). -/
structure GridWorld (K : Type*) where
  conv : ℕ → ℕ → ORow K → ORow K
  N : ℕ
  grid : MultiGrid K
  rad : K
  rtx : K
  cosdeg : K → K
  epsg : ℕ

/-- The grid as a geometric model, in a state of its predictor: as `gridGeo` (localization.py:60-166). -/
def GridWorld.geo (w : GridWorld K) (s : PredState K) : Geo K (ℕ × Dtm K) where
  epsg := w.epsg
  bounds := ((w.grid.row0, w.grid.col0),
    (w.grid.row0 + w.grid.steprow * ((w.grid.nbrow : K) - 1), w.grid.col0 + w.grid.stepcol * ((w.grid.nbcol : K) - 1)))
  directH := gridDirectLocH w.grid
  directDtm := gridDirectLocDtm w.conv w.N w.grid w.epsg
  inverse := fun lon lat h =>
    match gridInverseIn w.grid s w.rad w.rtx w.cosdeg lon lat h 15 with
    | .error er => .error er
    | .ok l => .ok (some (l.map fun q => (q.x, q.y)))

/-- The arguments of the constructor of a `Localization` other than the model (localization.py:42-69). -/
structure View (K : Type*) where
  elevation : Elevation K (ℕ × Dtm K)
  image : Option (LocImage K)
  epsg : Option ℕ

/-- A `Localization` of the grid (localization.py:42-69). -/
def GridWorld.loc (w : GridWorld K) (v : View K) (s : PredState K) : Localization K (ℕ × Dtm K) :=
  ⟨w.geo s, v.elevation, v.image, v.epsg⟩

/-- What a program can call on a grid and on the `Localization` objects that share it (grid.py:243, 318, 539, 749;
localization.py:71, 102, 130). -/
inductive GridCall (K : Type*)
  | estimate (nbrow nbcol : ℕ)
  | directLocH (row col alt : List (Option K))
  | directLocDtm (row col : List (Option K)) (d : ℕ × Dtm K)
  | inverseLoc (lon lat alt : List (Option K)) (nbIterations : ℕ)
  | direct (v : View K) (row col : List (Option K)) (h : Option (List (Option K))) (geotransform : Bool)
  | extent (v : View K) (margin : K)
  | inverse (v : View K) (lon lat : List (Option K)) (h : Option (List (Option K))) (geotransform : Bool)

/-- What the caller gets. -/
inductive GridAnswer (K : Type*)
  | estimated (r : Except RpcError Unit)
  | rows (r : Except RpcError (List (ORow K)))
  | ground (r : Except LocError (List (ORow K)))
  | box (r : Except LocError (LocExtent K))
  | pixels (r : Except LocError (Option (List (Option K × Option K)) × List (Option K)))

/-- The lazy estimate of `Localization.inverse` (localization.py:143-146), with its default sizes (grid.py:539). -/
noncomputable def GridWorld.lazyEstimate (w : GridWorld K) (s : PredState K) : Except RpcError (PredState K) :=
  match s with
  | .unset => estimatePred w.grid 3 3
  | s => .ok s

/-- One call: the attributes after it and the answer. -/
noncomputable def GridWorld.call (w : GridWorld K) (s : PredState K) : GridCall K → PredState K × GridAnswer K
  | .estimate nbrow nbcol =>
    match estimatePred w.grid nbrow nbcol with
    | .ok s' => (s', .estimated (.ok ()))
    | .error e => (s, .estimated (.error e))
  | .directLocH row col alt => (s, .rows (gridDirectLocH w.grid row col alt))
  | .directLocDtm row col d => (s, .rows (gridDirectLocDtm w.conv w.N w.grid w.epsg row col d))
  | .inverseLoc lon lat alt n => (s, .rows (gridInverseIn w.grid s w.rad w.rtx w.cosdeg lon lat alt n))
  | .direct v row col h geo => (s, .ground ((w.loc v s).direct w.conv row col h geo))
  | .extent v margin => (s, .box ((w.loc v s).extent w.conv margin))
  | .inverse v lon lat h geo =>
    match w.lazyEstimate s with
    | .error e => (s, .pixels (.error (.model e)))
    | .ok s' => (s', .pixels ((w.loc v s').inverse w.conv lon lat h geo))

/-- The attributes after a history of calls on a grid just loaded (grid.py:107-115). -/
noncomputable def GridWorld.after (w : GridWorld K) (h : List (GridCall K)) : PredState K :=
  h.foldl (fun s c => (w.call s c).1) .unset

/-- The answer to a call after a history. -/
noncomputable def GridWorld.answer (w : GridWorld K) (h : List (GridCall K)) (c : GridCall K) : GridAnswer K :=
  (w.call (w.after h) c).2

end Shareloc
