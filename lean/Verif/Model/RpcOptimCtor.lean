import Verif.Model.RpcIo

/-!
The two RPC classes built from a product: `shareloc/geomodels/rpc.py:52-176`, `shareloc/geomodels/rpc_optim.py:56-163`,
`shareloc/bindings/rpc.cpp:30-77`.
-/

namespace Shareloc
variable {K : Type} [Field K] [LinearOrder K] [IsStrictOrderedRing K]

/-- What the construction of an RPC raises: an error of the reader, `ValueError` of the constructor, `TypeError` of the binding. -/
inductive LoadError
  | reader (e : IoError)
  | valueError
  | typeError
  deriving DecidableEq, Repr

/-- The conversion by pybind11 of a list to `array<double, 20>` (rpc.cpp:32-39): any other length, or `None`, raises `TypeError`. -/
def array20 (l : Option (List K)) : Except LoadError (Coef K) :=
  match l with
  | some l => if l.length = 20 then .ok (coefOf l) else .error .typeError
  | none => .error .typeError

/-- The conversion of four lists (rpc.cpp:32-39). -/
def arrays4 (a b c d : Option (List K)) : Except LoadError (RatCoefs K) :=
  match array20 a, array20 b, array20 c, array20 d with
  | .ok a, .ok b, .ok c, .ok d => .ok ⟨a, b, c, d⟩
  | _, _, _, _ => .error .typeError

/-- The members of the C++ object (rpc.cpp:46-76) for the given coefficients; `norm_coeffs` are passed in the order in which they are
read (rpc_optim.py:66-77). -/
def cppRpc (p : RpcParams K) (inv dir : Option (RatCoefs K)) : Rpc K :=
  { inverse := inv, direct := dir, offX := p.offsetX, scX := p.scaleX, offY := p.offsetY, scY := p.scaleY, offAlt := p.offsetAlt,
    scAlt := p.scaleAlt, offCol := p.offsetCol, scCol := p.scaleCol, offRow := p.offsetRow, scRow := p.scaleRow }

/-- Truth value of a list or `None` in Python. -/
def truthy (l : Option (List K)) : Bool := match l with
  | some (_ :: _) => true
  | _ => false

/-- `all(i == 0 for i in l)` (rpc_optim.py:82-84, 101, 119). -/
def allZero (l : Option (List K)) : Bool := (l.getD []).all fun x => decide (x = 0)

/-- `RPCoptim.__init__` (rpc_optim.py:56-146). -/
def rpcOptimOfParams (p : RpcParams K) : Except LoadError (Rpc K) :=
  let col := some p.numCol
  if truthy col && truthy p.numX then
    if !allZero col && !allZero p.numX then
      match arrays4 col (some p.denCol) (some p.numRow) (some p.denRow), arrays4 p.numX p.denX p.numY p.denY with
      | .ok i, .ok d => .ok (cppRpc p (some i) (some d))
      | _, _ => .error .typeError
    else .error .valueError
  else if truthy col then
    if !allZero col then
      match arrays4 col (some p.denCol) (some p.numRow) (some p.denRow) with
      | .ok i => .ok (cppRpc p (some i) none)
      | .error e => .error e
    else .error .valueError
  else if truthy p.numX then
    if !allZero p.numX then
      match arrays4 p.numX p.denX p.numY p.denY with
      | .ok d => .ok (cppRpc p none (some d))
      | .error e => .error e
    else .error .valueError
  else .error .valueError

/-- `RPC.load` (rpc.py:180-196). -/
def rpcLoad (env : IoEnv K) (fs : Files K) (path : Line) : Except LoadError (Rpc K) :=
  match rpcReader env fs path true with
  | .error e => .error (.reader e)
  | .ok p => .ok (rpcOfParams p)

/-- `RPCoptim.load` (rpc_optim.py:148-163). -/
def rpcOptimLoad (env : IoEnv K) (fs : Files K) (path : Line) : Except LoadError (Rpc K) :=
  match rpcReader env fs path true with
  | .error e => .error (.reader e)
  | .ok p => rpcOptimOfParams p

end Shareloc
