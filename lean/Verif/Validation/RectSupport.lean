import Verif.Validation.RasterSupport
import Verif.Model.Pipeline
import Verif.Model.DirectDtm
import Verif.Model.Triangulation

/-!
Evaluation of the rectification on the data of the tests: rational approximations of the functions of `math`, and an RPC whose
iterates are rounded, so that the numbers stay short.
-/

namespace Shareloc.Validation

/-- Rounding to a multiple of 2⁻⁸⁰. -/
def rnd (x : ℚ) : ℚ := mkRat (x.num * 2 ^ 80 / (x.den : ℤ)) (2 ^ 80)

/-- Rounding of a number that may be NaN. -/
def rndO (x : Option ℚ) : Option ℚ := x.map rnd

/-- Integer square root by Newton's iteration. -/
def isqrt (n : ℕ) : ℕ → ℕ → ℕ
  | 0, x => x
  | k + 1, x => isqrt n k ((x + n / x) / 2)

/-- Square root, truncated. -/
def rsqrt (x : ℚ) : ℚ :=
  let n := (x.num * 2 ^ 160 / (x.den : ℤ)).toNat
  if n = 0 then 0 else mkRat (isqrt n 9 (2 ^ (Nat.log2 n / 2 + 1)) : ℕ) (2 ^ 80)

/-- Sum of a power series in `y` with terms `s / n`: arctangent. -/
def atanSeries (y2 : ℚ) : ℕ → ℕ → ℚ → ℚ → ℚ
  | 0, _, _, acc => acc
  | k + 1, n, p, acc => atanSeries y2 k (n + 2) (rnd (-(p * y2))) (acc + rnd (p / n))

/-- One reduction of the arctangent. -/
def atanHalf (y : ℚ) : ℚ := rnd (y / (1 + rsqrt (1 + y * y)))

/-- Arctangent, by three reductions and its series. -/
def ratan (x : ℚ) : ℚ :=
  let y := atanHalf (atanHalf (atanHalf (rnd x)))
  8 * atanSeries (rnd (y * y)) 20 1 y 0

/-- Series of the cosine and of the sine. -/
def trigSeries (x2 : ℚ) : ℕ → ℕ → ℚ → ℚ → ℚ
  | 0, _, _, acc => acc
  | k + 1, n, p, acc => trigSeries x2 k (n + 2) (rnd (-(p * x2) / ((n + 1) * (n + 2)))) (acc + p)

/-- Cosine. -/
def rcos (x : ℚ) : ℚ := trigSeries (rnd (x * x)) 25 0 1 0

/-- Sine. -/
def rsin (x : ℚ) : ℚ := trigSeries (rnd (x * x)) 25 1 (rnd x) 0

/-- π with 30 digits. -/
def rpi : ℚ := 3141592653589793238462643383280 / 10 ^ 30

/-- The functions used by the rectification. -/
def rtrig : Trig ℚ := ⟨rcos, rsin, ratan, rsqrt, rpi⟩

/-- A rounded state of the iteration. -/
def rndNewton (s : Newton ℚ) : Newton ℚ := ⟨rndO s.lon, rndO s.lat, rndO s.dcol, rndO s.drow⟩

/-- `loopPy` with rounded states. -/
def loopR (r : Rpc ℚ) (q : RatCoefs ℚ) : ℕ → List (ImgPt ℚ × Newton ℚ) → List (ImgPt ℚ × Newton ℚ)
  | 0, l => l
  | n + 1, l => if batchContinues l then loopR r q n (l.map fun t => (t.1, rndNewton (stepPy r q t.1 t.2))) else l

/-- `directLocH` (points without NaN) with rounded states. -/
def directR (r : Rpc ℚ) (row col alt : List (Option ℚ)) : Except RpcError (List (ORow ℚ)) :=
  match broadcastAlt col.length alt, r.inverse with
  | .ok alt', some q =>
    let pts := ((row.zip (col.zip alt')).map fun t => validPt t.1 t.2.1 t.2.2).filterMap id
    .ok (checkLonLat ((loopR r q 10 ((startPy r q pts).map fun t => (t.1, rndNewton t.2))).map fun t => ⟨t.2.lon, t.2.lat, t.1.alt⟩))
  | .error e, _ => .error e
  | _, none => .error .coefficientsMismatch

/-- `rpcGeo` with rounded results, without a DTM. -/
def geoR (r : Rpc ℚ) : Geo ℚ Unit where
  epsg := 4326
  bounds := ((r.offRow - r.scRow, r.offCol - r.scCol), (r.offRow + r.scRow, r.offCol + r.scCol))
  directH := directR r
  directDtm := fun _ _ _ => .error .badSizes
  inverse := fun lon lat h =>
    match inverseLocPy r lon lat h with
    | .error e => .error e
    | .ok .unavailable => .ok none
    | .ok (.rows l) => .ok (some (l.map fun p => (rndO p.x, rndO p.y)))

/-- Geodetic coordinates in degrees to EPSG 4978 on the ellipsoid of WGS 84. -/
def ecefR (p : ORow ℚ) : ORow ℚ :=
  match p with
  | ⟨some lon, some lat, some h⟩ =>
    let a : ℚ := 6378137
    let f : ℚ := 1000000000 / 298257223563
    let e2 := f * (2 - f)
    let l := rnd (lon * rpi / 180)
    let b := rnd (lat * rpi / 180)
    let n := rnd (a / rsqrt (1 - e2 * rsin b * rsin b))
    ⟨some (rnd ((n + h) * rcos b * rcos l)), some (rnd ((n + h) * rcos b * rsin l)), some (rnd ((n * (1 - e2) + h) * rsin b))⟩
  | _ => nanRow

/-- Only the conversion to EPSG 4978 is used. -/
def convR (_ b : ℕ) (p : ORow ℚ) : ORow ℚ := if b = 4978 then ecefR p else p

/-- A position near the reference. -/
def posNear (tol row col : ℚ) (p : ORow ℚ) : Bool := near tol row p.x && near tol col p.y

/-- A direct location followed by the inverse location comes back near the image position. -/
def thenInverse (tol row col : ℚ) (r : Rpc ℚ) (x : Except RpcError (List (ORow ℚ))) : Bool :=
  match x with
  | .ok [p] => invNear tol row col (inverseLocPy r [p.x] [p.y] [p.z])
  | _ => false

/-- Two located points are near each other. -/
def bothNear (tol : ℚ) (x y : Except RpcError (List (ORow ℚ))) : Bool :=
  match x, y with
  | .ok [p], .ok [⟨some a, some b, some c⟩] => near tol a p.x && near tol b p.y && near 0 c p.z
  | _, _ => false

/-- An exception. -/
def isErr {ε α : Type} (x : Except ε α) : Bool :=
  match x with
  | .error _ => true
  | .ok _ => false

/-- Two lists of the same length, compared element by element. -/
def all2 {α β : Type} (f : α → β → Bool) : List α → List β → Bool
  | [], [] => true
  | a :: as, b :: bs => f a b && all2 f as bs
  | _, _ => false

/-- The sizes and the footprint near the reference. -/
def preparedNear (tol : ℚ) (gr gc ir ic : ℤ) (pts : List (ℚ × ℚ)) (r : Except RectError (Prepared ℚ × Option ℚ)) : Bool :=
  match r with
  | .ok (p, some alt) =>
    decide (p.gridRows = gr ∧ p.gridCols = gc ∧ p.imageRows = ir ∧ p.imageCols = ic) && near 0 0 (some alt) &&
      all2 (fun a b => nearXY tol a.1 a.2 b) pts p.footprint
  | _ => false

/-- A computation from the start of the grid. -/
def startOf {α : Type} (r : Except RectError (Prepared ℚ × Option ℚ)) (f : ORow ℚ → Except RectError α) : Except RectError α :=
  match r with
  | .ok (p, alt) => f ⟨some p.start.x, some p.start.y, alt⟩
  | .error e => .error e

/-- Two distances near the reference. -/
def gsdNear (tol a b : ℚ) (r : Except RectError (Option ℚ × Option ℚ)) : Bool :=
  match r with
  | .ok (x, y) => near tol a x && near tol b y
  | _ => false

/-- The first rows and columns of the grids. -/
def gridsOf (t : Trig ℚ) (m : Stereo ℚ) (im : LeftImage ℚ) (step off : ℚ) (margin : ℤ) (rows cols : ℕ) : Except RectError (EpiGrids ℚ) :=
  match initInputs t m im step off margin with
  | .error e => .error e
  | .ok i => twoStrips t m i.left i.right i.spacing step off rows cols none none

/-- The nodes of the two grids near the reference. -/
def gridsNear (tol : ℚ) (l r : List (List (ℚ × ℚ))) (g : Except RectError (EpiGrids ℚ)) : Bool :=
  match g with
  | .ok g =>
    all2 (fun a b => all2 (fun x y => posNear tol x.1 x.2 y) a b) l (g.columns.map fun c => c.left) &&
    all2 (fun a b => all2 (fun x y => posNear tol x.1 x.2 y) a b) r (g.columns.map fun c => c.right)
  | _ => false

/-- What `LOS` uses of an RPC, rounded. -/
def losR (r : Rpc ℚ) : LosModel ℚ := ⟨fun row col alt _ => directR r row col [some alt], rpcAltMinMax r⟩

/-- A file of which only some nodes (band 1, band 2) are kept. -/
def fewCells (l : List ((ℕ × ℕ) × ℚ × ℚ)) (b i j : ℕ) : ℚ :=
  match l.find? fun t => t.1 = (i, j) with
  | some t => if b = 1 then t.2.1 else t.2.2
  | none => 0

/-- `interpolate` of a rectification grid. -/
def interpR (g : RectGrid ℚ) (p : Option ℚ × Option ℚ) : Option ℚ × Option ℚ :=
  match p with
  | (some c, some r) => let q := rectInterpolate g c r; (some q.1, some q.2)
  | _ => (none, none)

/-- One triangulated point near the reference. -/
def ecefNear (tol x y z : ℚ) (r : Except TriError (List (ORow ℚ) × List (ORow ℚ) × List (Option ℚ))) : Bool :=
  match r with
  | .ok ([p], _, _) => near tol x p.x && near tol y p.y && near tol z p.z
  | _ => false

/-- One line of sight near the reference. -/
def losNear (tol tolV : ℚ) (s e v : V3 ℚ) (r : Except RpcError (Los ℚ)) : Bool :=
  match r with
  | .ok ⟨[a], [b], [c]⟩ =>
    near tol s.x a.x && near tol s.y a.y && near tol s.z a.z && near tol e.x b.x && near tol e.y b.y && near tol e.z b.z &&
      near tolV v.x c.x && near tolV v.y c.y && near tolV v.z c.z
  | _ => false

end Shareloc.Validation
