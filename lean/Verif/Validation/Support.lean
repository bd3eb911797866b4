import Verif.Model.RpcOptimCtor

/-!
Evaluation of the model on the data of the tests of the repository: reading of decimal numbers and comparison with the reference values.
The generated modules beside this one are tests of the model, not proofs of properties.
-/

namespace Shareloc.Validation

/-- Decimal digits to a number: the number read and the number of digits, then the rest. -/
def digits : ℕ → ℕ → Line → ℕ × ℕ × Line
  | n, k, [] => (n, k, [])
  | n, k, c :: cs => if '0' ≤ c ∧ c ≤ '9' then digits (10 * n + (c.toNat - 48)) (k + 1) cs else (n, k, c :: cs)

/-- Sign of a number. -/
def sign : Line → Bool × Line
  | '-' :: cs => (true, cs)
  | '+' :: cs => (false, cs)
  | cs => (false, cs)

/-- Power of ten. -/
def pow10 (neg : Bool) (k : ℕ) : ℚ := if neg then 1 / (10 ^ k : ℕ) else (10 ^ k : ℕ)

/-- `float` of Python for decimal numbers, with their exact value: `[+-]ddd[.ddd][e[+-]dd]`. -/
def decFloat (s : Line) : Option ℚ :=
  let (neg, s) := sign (strip s)
  let (n, k, s) := digits 0 0 s
  let (n, frac, s) := match s with
    | '.' :: cs => let (m, j, cs) := digits n 0 cs; (m, j, cs)
    | cs => (n, 0, cs)
  if k + frac = 0 then none
  else
    let x : ℚ := (if neg then -(n : ℚ) else n) * pow10 true frac
    match s with
    | [] => some x
    | c :: cs =>
      if c = 'e' ∨ c = 'E' then
        let (eneg, cs) := sign cs
        match digits 0 0 cs with
        | (e, j, []) => if j = 0 then none else some (x * pow10 eneg e)
        | _ => none
      else none

/-- The libraries for text files and one XML document; no raster file. -/
def textEnv (doc : Option Xml) : IoEnv ℚ where
  gdal := fun a b => match a with | some r => some r | none => b
  readRpb := fun _ => none
  parseXml := fun _ => doc
  toFloat := decFloat
  fmt := fun _ => []

/-- One text file. -/
def oneFile (path : Line) (t : Text) : Files ℚ := fun p => if p = path then some (.text t) else none

/-- The number is within the tolerance of the reference value. -/
def near (tol ref : ℚ) (x : Option ℚ) : Bool :=
  match x with
  | some v => decide (|v - ref| ≤ tol)
  | none => false

/-- The inverse location returned one row, near the reference. -/
def invNear (tol row col : ℚ) (x : Except RpcError (InvResult ℚ)) : Bool :=
  match x with
  | .ok (.rows [r]) => near tol row r.x && near tol col r.y
  | _ => false

/-- `inverse_loc` of the C++ model built from the dictionary. -/
def optimInverse (p : RpcParams ℚ) (lon lat alt : ℚ) : Except RpcError (InvResult ℚ) :=
  match rpcOptimOfParams p with
  | .error _ => .error .badSizes
  | .ok r =>
    match r.inverse with
    | none => .ok .unavailable
    | some q =>
      match inverseLocOptim r q [some lon] [some lat] [some alt] with
      | .error e => .error e
      | .ok l => .ok (.rows l)

end Shareloc.Validation

