import Verif.Model.Rectification

/-!
Model of `compute_strip_of_epipolar_grid` of `shareloc/bindings/rectification.cpp` and of the functions it calls.

The C++ code walks one starting point after the other and stores the nodes at computed indexes of flat vectors.  The
vectors are modelled with their size: an access outside is the error `outOfBounds` (undefined behaviour in C++).
-/

namespace Shareloc
variable {K : Type*} [Field K] [LinearOrder K]

/-- The two `coloc` used, one point at a time (localization.cpp:45-57, 74-86): left to right with the elevation, right to
left at the altitude of the point.  The models may throw. -/
structure StereoCpp (K : Type*) where
  l2r : Option K × Option K → Except RpcError (ORow K)
  r2l : ORow K → Except RpcError (ORow K)

/-- A `std::vector<double>`, or the memory of a numpy array. -/
structure Buf (K : Type*) where
  size : ℕ
  get : ℕ → Option K

/-- `b[i] = v`. -/
def Buf.set (b : Buf K) (i : ℕ) (v : Option K) : Except RectError (Buf K) :=
  if i < b.size then .ok ⟨b.size, fun j => if j = i then v else b.get j⟩ else .error .outOfBounds

/-- `b[i]`. -/
def Buf.at (b : Buf K) (i : ℕ) : Except RectError (Option K) :=
  if i < b.size then .ok (b.get i) else .error .outOfBounds

/-- Three consecutive assignments, at the indexes `i0`, `i1`, `i2`. -/
def Buf.set3 (b : Buf K) (i0 i1 i2 : ℕ) (p : ORow K) : Except RectError (Buf K) :=
  match b.set i0 p.x with
  | .error e => .error e
  | .ok b =>
    match b.set i1 p.y with
    | .error e => .error e
    | .ok b => b.set i2 p.z

/-- Three consecutive reads. -/
def Buf.at3 (b : Buf K) (i0 i1 i2 : ℕ) : Except RectError (ORow K) :=
  match b.at i0, b.at i1, b.at i2 with
  | .ok x, .ok y, .ok z => .ok ⟨x, y, z⟩
  | _, _, _ => .error .outOfBounds

/-- C++ `moving_along_axis` (rectification.cpp:80-118): new left and right positions. -/
def movingAlongAxisCpp (t : Trig K) (c : StereoCpp K) (cur : ORow K) (spacing step : K) (angle : Option K) (axis : ℤ) :
    Except RectError (ORow K × ORow K) :=
  if axis ≠ 0 ∧ axis ≠ 1 then .error .valueError
  else
    let a := angle.map fun a => a + (1 - axis) * t.pi / 2
    let ux := a.map fun a => step * spacing * t.cos a
    let uy := a.map fun a => step * spacing * t.sin a
    let next : ORow K := ⟨olift2 (fun r u => r + u) cur.x uy, olift2 (fun r u => r + u) cur.y ux, cur.z⟩
    match c.l2r (next.x, next.y) with
    | .error e => .error (.model e)
    | .ok right => .ok (next, right)

/-- C++ `compute_local_epipolar_line` (rectification.cpp:120-163): start and end. -/
def localEpipolarLineCpp (c : StereoCpp K) (left : ORow K) (off : K) : Except RectError (ORow K × ORow K) :=
  match c.l2r (left.x, left.y) with
  | .error e => .error (.model e)
  | .ok corr =>
    match c.r2l ⟨corr.x, corr.y, corr.z.map fun z => z - off⟩ with
    | .error e => .error (.model e)
    | .ok start =>
      match c.r2l ⟨corr.x, corr.y, corr.z.map fun z => z + off⟩ with
      | .error e => .error (.model e)
      | .ok finish => .ok (start, finish)

/-- The vectors and counters of the function (rectification.cpp:183-243): the input arrays (used as current positions and
overwritten), the current angles, the outputs, the sum of the ratios and the number of NaN. -/
structure CppState (K : Type*) where
  inLeft : Buf K
  inRight : Buf K
  angles : Buf K
  left : Buf K
  right : Buf K
  anglesOut : Buf K
  sum : K
  nan : ℕ

/-- Add a ratio to the sum or count it as NaN (rectification.cpp:297-302, 388-393). -/
def CppState.addRatio (s : CppState K) (r : Option K) : CppState K :=
  match r with
  | some x => { s with sum := s.sum + x }
  | none => { s with nan := s.nan + 1 }

/-- The ratio of the first node, if computed. -/
def CppState.addFirst (s : CppState K) (r : Option (Option K)) : CppState K :=
  match r with
  | some r => s.addRatio r
  | none => s

/-- One iteration of the loop on `point` (rectification.cpp:328-395) for the starting point (row, col). -/
def pointStepCpp (t : Trig K) (c : StereoCpp K) (spacing step off : K) (axis : ℤ) (size nbCols gridCols row col point : ℕ)
    (s : CppState K) : Except RectError (CppState K) :=
  let irc := row * gridCols + col
  let i0 := row * nbCols * 3 + col * 3 + 0
  let i1 := row * nbCols * 3 + col * 3 + 1
  let i2 := row * nbCols * 3 + col * 3 + 2
  let s0 := row * size * 3 + col * 3 + 0
  let s1 := row * size * 3 + col * 3 + 1
  let s2 := row * size * 3 + col * 3 + 2
  match s.inLeft.at3 i0 i1 i2, s.angles.at irc with
  | .error e, _ => .error e
  | _, .error e => .error e
  | .ok cur, .ok angle =>
    match movingAlongAxisCpp t c cur spacing step angle axis with
    | .error e => .error e
    | .ok (nl, nr) =>
      match s.inLeft.set3 i0 i1 i2 nl, s.inRight.set3 i0 i1 i2 nr with
      | .error e, _ => .error e
      | _, .error e => .error e
      | .ok inL, .ok inR =>
        match localEpipolarLineCpp c nl off with
        | .error e => .error e
        | .ok (start, finish) =>
          let a := epipolarAngleCpp t finish start
          match s.angles.set irc a with
          | .error e => .error e
          | .ok angles =>
            match s.anglesOut.set (if axis = 0 then irc + point * gridCols else irc + point) a,
              s.left.set3 (if axis = 0 then i0 + point * nbCols * 3 else s0 + point * 3)
                (if axis = 0 then i1 + point * nbCols * 3 else s1 + point * 3)
                (if axis = 0 then i2 + point * nbCols * 3 else s2 + point * 3) nl,
              s.right.set3 (if axis = 0 then i0 + point * nbCols * 3 else s0 + point * 3)
                (if axis = 0 then i1 + point * nbCols * 3 else s1 + point * 3)
                (if axis = 0 then i2 + point * nbCols * 3 else s2 + point * 3) nr with
            | .ok ao, .ok l, .ok r =>
              .ok (CppState.addRatio { s with inLeft := inL, inRight := inR, angles := angles, left := l, right := r,
                                              anglesOut := ao } (baselineRatio t off start finish))
            | _, _, _ => .error .outOfBounds

/-- A loop: `for (i = first; i < first + n; ++i)`. -/
def cppFor {σ : Type*} (body : ℕ → σ → Except RectError σ) : ℕ → ℕ → σ → Except RectError σ
  | _, 0, s => .ok s
  | i, n + 1, s =>
    match body i s with
    | .error e => .error e
    | .ok s' => cppFor body (i + 1) n s'

/-- The first angle of a starting point, and the baseline ratio when it is computed (rectification.cpp:274-306). -/
def firstAngleCpp (t : Trig K) (c : StereoCpp K) (off : K) (first : Option (Buf K)) (i : ℕ) (l : ORow K) :
    Except RectError (Option K × Option (Option K)) :=
  match first with
  | none =>
    match localEpipolarLineCpp c l off with
    | .error e => .error e
    | .ok (start, finish) => .ok (epipolarAngleCpp t finish start, some (baselineRatio t off start finish))
  | some b =>
    match b.at i with
    | .error e => .error e
    | .ok a => .ok (a, none)

/-- What is done for one starting point (rectification.cpp:251-396). `first` are the given angles, if any. -/
def pointCpp (t : Trig K) (c : StereoCpp K) (spacing step off : K) (axis : ℤ) (size nbCols gridCols : ℕ)
    (first : Option (Buf K)) (row col : ℕ) (s : CppState K) : Except RectError (CppState K) :=
  let irc := row * gridCols + col
  let i0 := row * nbCols * 3 + col * 3 + 0
  let i1 := row * nbCols * 3 + col * 3 + 1
  let i2 := row * nbCols * 3 + col * 3 + 2
  let g0 := row * gridCols * 3 + col * 3 + 0
  let g1 := row * gridCols * 3 + col * 3 + 1
  let g2 := row * gridCols * 3 + col * 3 + 2
  match s.inLeft.at3 i0 i1 i2, s.inRight.at3 i0 i1 i2 with
  | .ok l, .ok r =>
    match s.left.set3 g0 g1 g2 l, s.right.set3 g0 g1 g2 r with
    | .ok left, .ok right =>
      match firstAngleCpp t c off first (row * nbCols + col) l with
      | .error e => .error e
      | .ok (a, ratio) =>
        match s.angles.set irc a, s.anglesOut.set irc a with
        | .ok angles, .ok ao =>
          cppFor (pointStepCpp t c spacing step off axis size nbCols gridCols row col) 1 (size - 1)
            (CppState.addFirst { s with left := left, right := right, angles := angles, anglesOut := ao } ratio)
        | _, _ => .error .outOfBounds
    | _, _ => .error .outOfBounds
  | _, _ => .error .outOfBounds

/-- What the function returns, and the memory of the arrays given by the caller after the call. -/
structure StripCpp (K : Type*) where
  rows : ℕ
  cols : ℕ
  left : Buf K
  right : Buf K
  angles : Buf K
  mean : Option K
  nan : ℕ
  inLeft : Buf K
  inRight : Buf K

/-- `std::vector<double> v(n)`: zeros. -/
def Buf.zeros (n : ℕ) : Buf K := ⟨n, fun _ => some 0⟩

/-- C++ `compute_strip_of_epipolar_grid` (rectification.cpp:165-428).  The inputs are the memory of arrays of shape
(nbRows, nbCols, 3) in double precision and row order, which is used without a copy, and the angles.  An array of angles
with a NaN as its single value stands for "not given".  A division by zero gives NaN or infinity. -/
def stripCpp (t : Trig K) (c : StereoCpp K) (nbRows nbCols : ℕ) (left right angles : Buf K) (spacing : K) (axis : ℤ)
    (size : ℕ) (step off : K) : Except RectError (StripCpp K) :=
  let gridRows := if axis = 0 then size else nbRows
  let gridCols := if axis = 0 then nbCols else size
  match angles.at 0 with
  | .error e => .error e
  | .ok a0 =>
    let compute : Bool := a0.isNone && angles.size == 1
    let already := if compute then 0 else angles.size
    let first : Option (Buf K) := if compute then none else some angles
    let s0 : CppState K := ⟨left, right, Buf.zeros (gridRows * gridCols), Buf.zeros (gridRows * gridCols * 3),
      Buf.zeros (gridRows * gridCols * 3), Buf.zeros (gridRows * gridCols), 0, 0⟩
    match cppFor (fun row => cppFor (fun col => pointCpp t c spacing step off axis size nbCols gridCols first row col) 0 nbCols)
        0 nbRows s0 with
    | .error e => .error e
    | .ok s =>
      let d : K := (gridRows : K) * gridCols - already - s.nan
      .ok ⟨gridRows, gridCols, s.left, s.right, s.anglesOut, if d = 0 then none else some (s.sum / d), s.nan, s.inLeft,
        s.inRight⟩

end Shareloc
