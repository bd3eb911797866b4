import Verif.Model.RpcIo

/-!
Specification of the `.RPB` text format (object description language: assignments `name = value;` and
`name = (value, value, ...);`), as read by GDAL.  Only the characters of the file are used.
-/

namespace Shareloc

/-- The lexical elements. -/
inductive Tok
  | word (w : Line)
  | eq | semi | open | close | comma
  deriving DecidableEq, Repr

/-- The separators. -/
def special (c : Char) : Option Tok :=
  if c = '=' then some .eq else if c = ';' then some .semi else if c = '(' then some .open
  else if c = ')' then some .close else if c = ',' then some .comma else none

/-- A character of a word. -/
def IsWordChar (c : Char) : Prop := special c = none ∧ isWhite c = false

/-- The word being read, if any. -/
def flush (cur : Line) : List Tok := if cur = [] then [] else [.word cur.reverse]

/-- Lexical analysis; `cur` is the word being read, reversed. -/
def tokAux : Line → List Char → List Tok
  | cur, [] => flush cur
  | cur, c :: cs =>
    match special c with
    | some t => flush cur ++ t :: tokAux [] cs
    | none => if isWhite c then flush cur ++ tokAux [] cs else tokAux (c :: cur) cs

/-- Lexical analysis of a text. -/
def tokens (t : Text) : List Tok := t.flatMap fun l => tokAux [] l

/-- The assignments of a text; the first argument is the list being read. -/
def assigns : Option (Line × List Line) → List Tok → List (Line × List Line)
  | some (k, acc), .word w :: ts => assigns (some (k, acc ++ [w])) ts
  | some (k, acc), .close :: ts => (k, acc) :: assigns none ts
  | some s, _ :: ts => assigns (some s) ts
  | none, .word k :: .eq :: .word v :: ts => (k, [v]) :: assigns none ts
  | none, .word k :: .eq :: .open :: ts => assigns (some (k, [])) ts
  | none, _ :: ts => assigns none ts
  | _, [] => []

variable {K : Type}

/-- The number assigned to a name. -/
def rpbNumber (toFloat : Line → Option K) (d : List (Line × List Line)) (k : String) : Option K :=
  match d.lookup k.toList with
  | some [v] => toFloat v
  | _ => none

/-- All of a list of strings as numbers. -/
def allFloats (toFloat : Line → Option K) : List Line → Option (List K)
  | [] => some []
  | w :: ws =>
    match toFloat w, allFloats toFloat ws with
    | some x, some xs => some (x :: xs)
    | _, _ => none

/-- The list of numbers assigned to a name. -/
def rpbNumbers (toFloat : Line → Option K) (d : List (Line × List Line)) (k : String) : Option (List K) :=
  match d.lookup k.toList with
  | some l => allFloats toFloat l
  | none => none

/-- The RPC of a `.RPB` text. -/
def rpbRead (toFloat : Line → Option K) (t : Text) : Option (RioRpc K) :=
  let d := assigns none (tokens t)
  match rpbNumber toFloat d "lineOffset", rpbNumber toFloat d "sampOffset", rpbNumber toFloat d "latOffset",
    rpbNumber toFloat d "longOffset", rpbNumber toFloat d "heightOffset" with
  | some lineOff, some sampOff, some latOff, some longOff, some heightOff =>
    match rpbNumber toFloat d "lineScale", rpbNumber toFloat d "sampScale", rpbNumber toFloat d "latScale",
      rpbNumber toFloat d "longScale", rpbNumber toFloat d "heightScale" with
    | some lineScale, some sampScale, some latScale, some longScale, some heightScale =>
      match rpbNumbers toFloat d "lineNumCoef", rpbNumbers toFloat d "lineDenCoef", rpbNumbers toFloat d "sampNumCoef",
        rpbNumbers toFloat d "sampDenCoef" with
      | some lineNum, some lineDen, some sampNum, some sampDen =>
        some ⟨heightOff, heightScale, latOff, latScale, lineDen, lineNum, lineOff, lineScale, longOff, longScale, sampDen,
          sampNum, sampOff, sampScale⟩
      | _, _, _, _ => none
    | _, _, _, _, _ => none
  | _, _, _, _, _ => none

/-- The printing of numbers gives words that `float` reads back (the shortest representation printed by Python). -/
structure ExactPrinting (toFloat : Line → Option K) (fmt : K → Line) : Prop where
  back : ∀ x, toFloat (fmt x) = some x
  nonempty : ∀ x, fmt x ≠ []
  wordChars : ∀ x, ∀ c ∈ fmt x, IsWordChar c

end Shareloc
