import Verif.Model.RpcIo

/-!
Specification of the RPC products: where each parameter is in a DIMAP document or in an OSSIM keyword list, and which
position the file gives to the centre of the first pixel.
-/

namespace Shareloc
variable {K : Type} [Field K] [LinearOrder K]

/-- An element named `t` occurs among these nodes or inside one of them. -/
inductive OccursIn (t : Tag) : List Xml → Prop
  | here (a : List Line) (cs xs : List Xml) : OccursIn t (.elem t a cs :: xs)
  | inside (t' : Tag) (a : List Line) (cs xs : List Xml) : OccursIn t cs → OccursIn t (.elem t' a cs :: xs)
  | after (x : Xml) (xs : List Xml) : OccursIn t xs → OccursIn t (x :: xs)

/-- `y` is the first element named `t` among these nodes and their contents, in the order of the opening tags of the
document: an element comes before its contents, and the contents of a node before the nodes that follow it. -/
inductive FirstAmong (t : Tag) : List Xml → Xml → Prop
  | here (a : List Line) (cs xs : List Xml) : FirstAmong t (.elem t a cs :: xs) (.elem t a cs)
  | inside (t' : Tag) (a : List Line) (cs xs : List Xml) (y : Xml) :
      t' ≠ t → FirstAmong t cs y → FirstAmong t (.elem t' a cs :: xs) y
  | after (x : Xml) (xs : List Xml) (y : Xml) : ¬ OccursIn t [x] → FirstAmong t xs y → FirstAmong t (x :: xs) y

/-- `y` is the first element named `t` inside `x`, in document order. -/
def IsFirstIn (x : Xml) (t : Tag) (y : Xml) : Prop :=
  ∃ t' a cs, x = .elem t' a cs ∧ FirstAmong t cs y

/-- `y` is reached from `x` by following first elements of the given names. -/
def Reaches (x : Xml) : List Tag → Xml → Prop
  | [], y => y = x
  | t :: ts, y => ∃ z, IsFirstIn x t z ∧ Reaches z ts y

/-- The text of the element reached. -/
def TextAt (x : Xml) (path : List Tag) (s : Line) : Prop :=
  ∃ y rest, Reaches x path y ∧ y.children = .text s :: rest

/-- The number of the element reached. -/
def NumberAt (env : IoEnv K) (x : Xml) (path : List Tag) (v : K) : Prop :=
  ∃ s, TextAt x path s ∧ env.toFloat s = some v

/-- The 20 numbers of the elements `name1` to `name20`. -/
def NumbersAt (env : IoEnv K) (x : Xml) (path : List Tag) (name : String) (l : List K) : Prop :=
  l.length = 20 ∧ ∀ i v, l[i]? = some v → NumberAt env x (path ++ [⟨name, some (i + 1)⟩]) v

/-- The first attribute of the element reached. -/
def AttributeAt (x : Xml) (path : List Tag) (s : Line) : Prop :=
  ∃ t rest cs, Reaches x path (.elem t (s :: rest) cs)

/-- The normalisation of a DIMAP v2 or v3 document, as written in the file. -/
def DimapNormalisation (env : IoEnv K) (doc : Xml) (p : RpcParams K) : Prop :=
  let at' (s : String) := NumberAt env doc [tag "Global_RFM", tag "RFM_Validity", tag s]
  at' "LINE_OFF" p.offsetRow ∧ at' "SAMP_OFF" p.offsetCol ∧ at' "SAMP_SCALE" p.scaleCol ∧ at' "LINE_SCALE" p.scaleRow ∧
  at' "HEIGHT_OFF" p.offsetAlt ∧ at' "HEIGHT_SCALE" p.scaleAlt ∧ at' "LONG_OFF" p.offsetX ∧ at' "LONG_SCALE" p.scaleX ∧
  at' "LAT_OFF" p.offsetY ∧ at' "LAT_SCALE" p.scaleY

/-- Coefficients in an element: the inverse ones are named after lines and samples, the direct ones as given. -/
def DimapCoefficients (env : IoEnv K) (doc : Xml) (inverse direct lon lat : String) (p : RpcParams K) : Prop :=
  NumbersAt env doc [tag "Global_RFM", tag inverse] "SAMP_NUM_COEFF_" p.numCol ∧
  NumbersAt env doc [tag "Global_RFM", tag inverse] "SAMP_DEN_COEFF_" p.denCol ∧
  NumbersAt env doc [tag "Global_RFM", tag inverse] "LINE_NUM_COEFF_" p.numRow ∧
  NumbersAt env doc [tag "Global_RFM", tag inverse] "LINE_DEN_COEFF_" p.denRow ∧
  (∃ l, p.numX = some l ∧ NumbersAt env doc [tag "Global_RFM", tag direct] (lon ++ "_NUM_COEFF_") l) ∧
  (∃ l, p.denX = some l ∧ NumbersAt env doc [tag "Global_RFM", tag direct] (lon ++ "_DEN_COEFF_") l) ∧
  (∃ l, p.numY = some l ∧ NumbersAt env doc [tag "Global_RFM", tag direct] (lat ++ "_NUM_COEFF_") l) ∧
  (∃ l, p.denY = some l ∧ NumbersAt env doc [tag "Global_RFM", tag direct] (lat ++ "_DEN_COEFF_") l)

/-- `p` is what a DIMAP v2 document says, in the conventions of the file. -/
def IsDimap2 (env : IoEnv K) (doc : Xml) (p : RpcParams K) : Prop :=
  DimapNormalisation env doc p ∧ DimapCoefficients env doc "Inverse_Model" "Direct_Model" "SAMP" "LINE" p

/-- `p` is what a DIMAP v3 document says, in the conventions of the file. -/
def IsDimap3 (env : IoEnv K) (doc : Xml) (p : RpcParams K) : Prop :=
  DimapNormalisation env doc p ∧
  DimapCoefficients env doc "GroundtoImage_Values" "ImagetoGround_Values" "LON" "LAT" p

/-- A space, a tab or an end of line. -/
def White (c : Char) : Prop := c = ' ' ∨ c = '\t' ∨ c = '\n' ∨ c = '\r'

/-- `s` is made of these words in this order: non-empty, without white space, separated by white space. -/
inductive MadeOf : Line → List Line → Prop
  | blank (s : Line) : (∀ c ∈ s, White c) → MadeOf s []
  | word (lead w rest : Line) (ws : List Line) : (∀ c ∈ lead, White c) → w ≠ [] → (∀ c ∈ w, ¬ White c) →
      (∀ c, rest.head? = some c → White c) → MadeOf rest ws → MadeOf (lead ++ w ++ rest) (w :: ws)

/-- The numbers separated by white space in the text of an element. -/
def WordsAt (env : IoEnv K) (x : Xml) (path : List Tag) (l : List K) : Prop :=
  ∃ s ws, TextAt x path s ∧ MadeOf s ws ∧ ws.map env.toFloat = l.map some

/-- `p` is what a DIMAP v1 document says, in the conventions of the file. -/
def IsDimap1 (env : IoEnv K) (doc : Xml) (p : RpcParams K) : Prop :=
  let at' (s u : String) := NumberAt env doc [tag "RFM_Validity", tag s, tag u]
  at' "Lon" "A" p.scaleX ∧ at' "Lon" "B" p.offsetX ∧ at' "Lat" "A" p.scaleY ∧ at' "Lat" "B" p.offsetY ∧
  at' "Alt" "A" p.scaleAlt ∧ at' "Alt" "B" p.offsetAlt ∧ at' "Col" "A" p.scaleCol ∧ at' "Col" "B" p.offsetCol ∧
  at' "Row" "A" p.scaleRow ∧ at' "Row" "B" p.offsetRow ∧
  (∃ nx dx ny dy, p.numX = some nx ∧ p.denX = some dx ∧ p.numY = some ny ∧ p.denY = some dy ∧
    WordsAt env doc [tag "Global_RFM", tag "F_LON"] (nx ++ dx) ∧ nx.length = 20 ∧ dx.length = 20 ∧
    WordsAt env doc [tag "Global_RFM", tag "F_LAT"] (ny ++ dy) ∧ ny.length = 20 ∧ dy.length = 20) ∧
  WordsAt env doc [tag "Global_RFM", tag "F_COL"] (p.numCol ++ p.denCol) ∧ p.numCol.length = 20 ∧ p.denCol.length = 20 ∧
  WordsAt env doc [tag "Global_RFM", tag "F_ROW"] (p.numRow ++ p.denRow) ∧ p.numRow.length = 20 ∧ p.denRow.length = 20

/-- Position given by the file to the centre of the first pixel. -/
inductive Product
  | dimap1 | dimap2 | dimap3 | ossim | rasterio
  deriving DecidableEq

/-- The centre of the first pixel is at (1, 1) in DIMAP v1 and v2, at (1/2, 1/2) in v3, at (0, 0) in OSSIM and GDAL. -/
def Product.firstPixel : Product → K
  | .dimap1 => 1
  | .dimap2 => 1
  | .dimap3 => 1 / 2
  | .ossim => 0
  | .rasterio => 0

/-- A string without the separator ": ". -/
def NoSep (s : Line) : Prop := ¬ [':', ' '] <:+: s

/-- A keyword list: every line is `key: value`. -/
def IsKwl (t : Text) (l : List (Line × Line)) : Prop :=
  t = l.map (fun kv => kv.1 ++ ": ".toList ++ kv.2) ∧ ∀ kv ∈ l, NoSep kv.1 ∧ NoSep kv.2

/-- The value of a key: that of its last line, trailing white space removed. -/
def KwlValue (l : List (Line × Line)) (k v : Line) : Prop :=
  ∃ before after w, l = before ++ (k, w) :: after ∧ (∀ kv ∈ after, kv.1 ≠ k) ∧
    ∃ white, w = v ++ white ∧ (∀ c ∈ white, White c) ∧ (∀ c, v.getLast? = some c → ¬ White c)

/-- The number of a key. -/
def KwlNumber (env : IoEnv K) (l : List (Line × Line)) (k : Line) (x : K) : Prop :=
  ∃ v, KwlValue l k v ∧ env.toFloat v = some x

/-- The names of the coefficients end with two digits. -/
def digits2 : List Line := ["00".toList, "01".toList, "02".toList, "03".toList, "04".toList, "05".toList, "06".toList,
  "07".toList, "08".toList, "09".toList, "10".toList, "11".toList, "12".toList, "13".toList, "14".toList, "15".toList,
  "16".toList, "17".toList, "18".toList, "19".toList]

/-- The 20 numbers of the keys `pre00` to `pre19`. -/
def KwlNumbers (env : IoEnv K) (l : List (Line × Line)) (pre : String) (xs : List K) : Prop :=
  List.Forall₂ (fun d x => KwlNumber env l (pre.toList ++ d) x) digits2 xs

/-- `p` is what a keyword list says, in the conventions of the file. -/
def IsOssimRpc (env : IoEnv K) (t : Text) (p : RpcParams K) : Prop :=
  ∃ l, IsKwl t l ∧
  KwlNumber env l "samp_off".toList p.offsetCol ∧ KwlNumber env l "samp_scale".toList p.scaleCol ∧
  KwlNumber env l "line_off".toList p.offsetRow ∧ KwlNumber env l "line_scale".toList p.scaleRow ∧
  KwlNumber env l "height_off".toList p.offsetAlt ∧ KwlNumber env l "height_scale".toList p.scaleAlt ∧
  KwlNumber env l "long_off".toList p.offsetX ∧ KwlNumber env l "long_scale".toList p.scaleX ∧
  KwlNumber env l "lat_off".toList p.offsetY ∧ KwlNumber env l "lat_scale".toList p.scaleY ∧
  KwlNumbers env l "line_num_coeff_" p.numRow ∧ KwlNumbers env l "line_den_coeff_" p.denRow ∧
  KwlNumbers env l "samp_num_coeff_" p.numCol ∧ KwlNumbers env l "samp_den_coeff_" p.denCol ∧
  p.numX = none ∧ p.denX = none ∧ p.numY = none ∧ p.denY = none

/-- The parameters with the conventions of the library: the first pixel is centred at `c` in the file, and at
`target` for the library. -/
def recentre (p : RpcParams K) (c target : K) : RpcParams K :=
  { p with offsetRow := p.offsetRow - c + target, offsetCol := p.offsetCol - c + target }

/-- Centre of the first pixel for the library: (1/2, 1/2), or (0, 0) without the top left convention. -/
def libraryCentre (topleft : Bool) : K := if topleft then 1 / 2 else 0

end Shareloc
