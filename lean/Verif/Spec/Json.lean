import Verif.Spec.RpcFormats

/-!
Specification of the JSON files: the lexical elements, and the objects whose values are numbers or lists of numbers.  Only the
characters of the file are used.
-/

namespace Shareloc
variable {K : Type}

/-- The lexical elements. -/
inductive JTok
  | str (s : Line)
  | num (w : Line)
  | lbrace | rbrace | lbrack | rbrack | colon | comma
  deriving DecidableEq, Repr

/-- A character of a number. -/
def NumChar (c : Char) : Prop := c ∈ "0123456789+-.eE".toList

/-- The structural characters. -/
inductive Structural : Char → JTok → Prop
  | lbrace : Structural '{' .lbrace
  | rbrace : Structural '}' .rbrace
  | lbrack : Structural '[' .lbrack
  | rbrack : Structural ']' .rbrack
  | colon : Structural ':' .colon
  | comma : Structural ',' .comma

/-- Lexical analysis: white space is skipped, a string is what is between two quotes, a number is as long as possible.
(No escape sequence in the strings.) -/
inductive JLex : List Char → List JTok → Prop
  | done : JLex [] []
  | white (c : Char) (cs : List Char) (ts : List JTok) : White c → JLex cs ts → JLex (c :: cs) ts
  | mark (c : Char) (t : JTok) (cs : List Char) (ts : List JTok) : Structural c t → JLex cs ts → JLex (c :: cs) (t :: ts)
  | str (s : Line) (cs : List Char) (ts : List JTok) : '"' ∉ s → '\\' ∉ s → JLex cs ts →
      JLex ('"' :: (s ++ '"' :: cs)) (.str s :: ts)
  | num (w : Line) (cs : List Char) (ts : List JTok) : w ≠ [] → (∀ c ∈ w, NumChar c) →
      (∀ c, cs.head? = some c → ¬ NumChar c) → JLex cs ts → JLex (w ++ cs) (.num w :: ts)

/-- A value: a number or a list of numbers. -/
inductive JVal (K : Type)
  | num (x : K)
  | list (l : List K)

variable (toFloat : Line → Option K)

/-- `x, x, ..., x`. -/
inductive JElems : List JTok → List K → Prop
  | one (w : Line) (x : K) : toFloat w = some x → JElems [.num w] [x]
  | more (w : Line) (x : K) (ts : List JTok) (l : List K) : toFloat w = some x → JElems ts l →
      JElems (.num w :: .comma :: ts) (x :: l)

/-- `x`, `[]` or `[x, ..., x]`. -/
inductive JValue : List JTok → JVal K → Prop
  | num (w : Line) (x : K) : toFloat w = some x → JValue [.num w] (.num x)
  | empty : JValue [.lbrack, .rbrack] (.list [])
  | list (ts : List JTok) (l : List K) : JElems toFloat ts l → JValue (.lbrack :: (ts ++ [.rbrack])) (.list l)

/-- `"k": value, ..., "k": value`. -/
inductive JMembers : List JTok → List (Line × JVal K) → Prop
  | one (k : Line) (ts : List JTok) (v : JVal K) : JValue toFloat ts v → JMembers (.str k :: .colon :: ts) [(k, v)]
  | more (k : Line) (ts ts' : List JTok) (v : JVal K) (d : List (Line × JVal K)) : JValue toFloat ts v → JMembers ts' d →
      JMembers (.str k :: .colon :: (ts ++ .comma :: ts')) ((k, v) :: d)

/-- The file contains the object with these members, in this order. -/
def JsonObject (cs : List Char) (d : List (Line × JVal K)) : Prop :=
  ∃ ts, JLex cs (.lbrace :: (ts ++ [.rbrace])) ∧ JMembers toFloat ts d

/-- The dictionary of an RPC with the names of rasterio. -/
def rioDict (r : RioRpc K) : List (Line × JVal K) :=
  [("height_off".toList, .num r.heightOff), ("height_scale".toList, .num r.heightScale),
   ("lat_off".toList, .num r.latOff), ("lat_scale".toList, .num r.latScale),
   ("line_den_coeff".toList, .list r.lineDen), ("line_num_coeff".toList, .list r.lineNum),
   ("line_off".toList, .num r.lineOff), ("line_scale".toList, .num r.lineScale),
   ("long_off".toList, .num r.longOff), ("long_scale".toList, .num r.longScale),
   ("samp_den_coeff".toList, .list r.sampDen), ("samp_num_coeff".toList, .list r.sampNum),
   ("samp_off".toList, .num r.sampOff), ("samp_scale".toList, .num r.sampScale)]

/-- The printing of numbers gives JSON numbers that `float` reads back (the shortest representation printed by Python; it is
not the case of NaN and of the infinities). -/
structure JsonPrinting (toFloat : Line → Option K) (fmt : K → Line) : Prop where
  back : ∀ x, toFloat (fmt x) = some x
  nonempty : ∀ x, fmt x ≠ []
  numChars : ∀ x, ∀ c ∈ fmt x, NumChar c

end Shareloc
