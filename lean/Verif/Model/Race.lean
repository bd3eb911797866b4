import Verif.Model.Grid

/-!
Threads that call `Localization.inverse` on the same grid, at the granularity of the loads and stores of the attributes of the grid:
localization.py:143-146, grid.py:624-631 (stores) and 652-667 (loads).
-/

namespace Shareloc
variable {K : Type*} [Field K] [LinearOrder K] [IsStrictOrderedRing K] [FloorRing K]

/-- The value of one attribute: six coefficients, or an offset and a scale (grid.py:624-631). -/
inductive PredAttr (K : Type*)
  | coefs (c : Fin 6 → K)
  | pair (offset scale : K)

/-- The attributes (grid.py:624-631), numbered in the order in which `estimate_inverse_loc_predictor` assigns them. -/
def predAttr (p : Predictor K) : Fin 8 → PredAttr K
  | 0 => .coefs p.colMin
  | 1 => .coefs p.rowMin
  | 2 => .coefs p.colMax
  | 3 => .coefs p.rowMax
  | 4 => .pair p.lonOff p.lonScale
  | 5 => .pair p.latOff p.latScale
  | 6 => .pair p.rowOff p.rowScale
  | 7 => .pair p.colOff p.colScale

/-- The attributes of the grid object: `none` for `None` (grid.py:107-115). -/
abbrev PredMem (K : Type*) := Fin 8 → Option (PredAttr K)

/-- The attributes that `inverse_loc_predictor` loads for one point, in order (grid.py:652-653, 663-667: coefficients, then scale, then
offset). -/
def predLoads : List (Fin 8) := [4, 4, 5, 5, 0, 7, 7, 1, 6, 6, 2, 7, 7, 3, 6, 6]

/-- The `(row, col)` that `inverse_loc_predictor` (grid.py:646-672) computes from the values it loaded. -/
def predictFrom (g : MultiGrid K) (l : List (PredAttr K)) (lon lat alt : K) : Option (K × K) :=
  match l with
  | [.pair lonO _, .pair _ lonS, .pair latO _, .pair _ latS,
      .coefs c0, .pair _ cS, .pair cO _, .coefs r0, .pair _ rS, .pair rO _,
      .coefs c1, .pair _ cS', .pair cO' _, .coefs r1, .pair _ rS', .pair rO' _] =>
    let altmin := g.alts (g.nbalt - 1)
    let altmax := g.alts 0
    let v := predMonomials ((lon - lonO) / lonS) ((lat - latO) / latS)
    let colMin := (∑ i, c0 i * v i) * cS + cO
    let rowMin := (∑ i, r0 i * v i) * rS + rO
    let colMax := (∑ i, c1 i * v i) * cS' + cO'
    let rowMax := (∑ i, r1 i * v i) * rS' + rO'
    let h := (alt - altmin) / (altmax - altmin)
    some ((1 - h) * rowMin + h * rowMax, (1 - h) * colMin + h * colMax)
  | _ => none

/-- Where a thread is in `Localization.inverse` (localization.py:143-163): about to test `pred_ofset_scale_lon is None`, about to store
attribute `k` or the next ones, about to load the attributes of a list, for a number of points that follow, or stopped by
`TypeError` on a `None`. -/
inductive ThreadPc
  | test
  | store (k : Fin 8)
  | load (now : List (Fin 8)) (points : ℕ)
  | raised
  deriving DecidableEq

/-- A thread: where it is, the values loaded for the current point, and those loaded for each point before. -/
structure InvThread (K : Type*) where
  pc : ThreadPc
  current : List (PredAttr K)
  past : List (List (PredAttr K))

/-- A thread about to call `Localization.inverse` (localization.py:130). -/
def InvThread.start : InvThread K := ⟨.test, [], []⟩

/-- One atomic action of a thread that has `points` points to locate; `p` is what `estimate_inverse_loc_predictor` computes from the
grid (a deterministic function of arrays that nobody modifies). -/
def InvThread.step (p : Predictor K) (points : ℕ) (m : PredMem K) (t : InvThread K) : PredMem K × InvThread K :=
  match t.pc with
  | .test => if (m 4).isNone then (m, { t with pc := .store 0 }) else (m, { t with pc := .load [] points })
  | .store k =>
    (Function.update m k (some (predAttr p k)),
      { t with pc := if h : k.val + 1 < 8 then .store ⟨k.val + 1, h⟩ else .load [] points })
  | .load [] 0 => (m, t)
  | .load [] (n + 1) => (m, { t with pc := .load predLoads n })
  | .load (k :: l) n =>
    match m k with
    | none => (m, { t with pc := .raised })
    | some a =>
      match l with
      | [] => (m, ⟨.load [] n, [], t.past ++ [t.current ++ [a]]⟩)
      | _ => (m, { t with pc := .load l n, current := t.current ++ [a] })
  | .raised => (m, t)

/-- The call returned: nothing is left to load (grid.py:829). -/
def InvThread.finished (t : InvThread K) : Prop := t.pc = .load [] 0

/-- The memory and the threads. -/
structure RaceState (K : Type*) where
  mem : PredMem K
  threads : ℕ → InvThread K

/-- Thread `i` executes its next action; `points i` is the number of its points. -/
def RaceState.step (p : Predictor K) (points : ℕ → ℕ) (s : RaceState K) (i : ℕ) : RaceState K :=
  let r := (s.threads i).step p (points i) s.mem
  ⟨r.1, Function.update s.threads i r.2⟩

/-- A schedule: the thread that executes the next action, at each time. -/
def RaceState.run (p : Predictor K) (points : ℕ → ℕ) (s : RaceState K) (schedule : List ℕ) : RaceState K :=
  schedule.foldl (RaceState.step p points) s

end Shareloc
