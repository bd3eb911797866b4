import Verif.Model.Rpc

/-!
Model of `shareloc/geomodels/rpc_readers.py`, `shareloc/geomodels/rpc_writers.py` and `shareloc/rpc_converter.py`.

A text is the list of its lines, a line the list of its characters without the end of line.  Paths are lists of
characters.  An XML document is a tree.  The libraries (rasterio / GDAL, the XML parser, `float`, the printing of a
number) are the fields of `IoEnv`.  Non finite numbers in files are not modelled.
-/

namespace Shareloc
variable {K : Type} [Field K] [LinearOrder K]

/-- A line of text, or a path. -/
abbrev Line := List Char

/-- A text file, as read by `readlines` (rpc_readers.py:247, 347). -/
abbrev Text := List Line

/-- The exceptions of the readers and writers. -/
inductive IoError
  | valueError
  | indexError
  | attributeError
  | keyError
  | runtimeError
  deriving DecidableEq, Repr

/-- The dictionary of rasterio (`RPC.to_dict()`, rpc_readers.py:367-398; rpc_writers.py:147-162). -/
structure RioRpc (K : Type) where
  heightOff : K
  heightScale : K
  latOff : K
  latScale : K
  lineDen : List K
  lineNum : List K
  lineOff : K
  lineScale : K
  longOff : K
  longScale : K
  sampDen : List K
  sampNum : List K
  sampOff : K
  sampScale : K
  deriving DecidableEq, Repr

/-- The dictionary returned by the readers (rpc_readers.py:379-404). -/
structure RpcParams (K : Type) where
  driver : Line
  offsetAlt : K
  scaleAlt : K
  offsetY : K
  scaleY : K
  denRow : List K
  numRow : List K
  offsetRow : K
  scaleRow : K
  offsetX : K
  scaleX : K
  denCol : List K
  numCol : List K
  offsetCol : K
  scaleCol : K
  numX : Option (List K)
  denX : Option (List K)
  numY : Option (List K)
  denY : Option (List K)
  deriving DecidableEq, Repr

/-- The half pixel added to (subtracted from) the offsets (rpc_readers.py:174-176, 401-403; rpc_writers.py:164-166). -/
def halfIf (topleft : Bool) : K := if topleft then 1 / 2 else 0

/-- `convert_rio_rpc_to_rpc_dict` (rpc_readers.py:367-404). -/
def convertRio (r : RioRpc K) (topleft : Bool) : RpcParams K :=
  { driver := "rasterio_rpc".toList, offsetAlt := r.heightOff, scaleAlt := r.heightScale, offsetY := r.latOff,
    scaleY := r.latScale, denRow := r.lineDen, numRow := r.lineNum, offsetRow := r.lineOff + halfIf topleft,
    scaleRow := r.lineScale, offsetX := r.longOff, scaleX := r.longScale, denCol := r.sampDen, numCol := r.sampNum,
    offsetCol := r.sampOff + halfIf topleft, scaleCol := r.sampScale, numX := none, denX := none, numY := none,
    denY := none }

/-- `rpc_dict_to_rio_rpcs` (rpc_writers.py:135-169). -/
def toRio (p : RpcParams K) (topleft : Bool) : RioRpc K :=
  { heightOff := p.offsetAlt, heightScale := p.scaleAlt, latOff := p.offsetY, latScale := p.scaleY, lineDen := p.denRow,
    lineNum := p.numRow, lineOff := p.offsetRow - halfIf topleft, lineScale := p.scaleRow, longOff := p.offsetX,
    longScale := p.scaleX, sampDen := p.denCol, sampNum := p.numCol, sampOff := p.offsetCol - halfIf topleft,
    sampScale := p.scaleCol }

/-- A list of 20 coefficients as an array indexed from 0 (rpc.py:161-174 `np.array`); other lengths are not modelled. -/
def coefOf (l : List K) : Coef K := fun i => l.getD i.val 0

/-- `RPC.__init__` (rpc.py:52-176): the model built from the dictionary.  Lists of coefficients are taken as present when
not empty. -/
def rpcOfParams (p : RpcParams K) : Rpc K :=
  { inverse := if p.numCol = [] then none else some ⟨coefOf p.numCol, coefOf p.denCol, coefOf p.numRow, coefOf p.denRow⟩,
    direct := match p.numX with
      | none => none
      | some [] => none
      | some l => some ⟨coefOf l, coefOf (p.denX.getD []), coefOf (p.numY.getD []), coefOf (p.denY.getD [])⟩,
    offX := p.offsetX, scX := p.scaleX, offY := p.offsetY, scY := p.scaleY, offAlt := p.offsetAlt, scAlt := p.scaleAlt,
    offCol := p.offsetCol, scCol := p.scaleCol, offRow := p.offsetRow, scRow := p.scaleRow }

/-! ### XML documents -/

/-- A tag name: a prefix and the index that ends the names of the coefficients (rpc_readers.py:92-109). -/
structure Tag where
  name : String
  index : Option ℕ
  deriving DecidableEq, Repr

/-- A name without index. -/
def tag (s : String) : Tag := ⟨s, none⟩

/-- A node of an XML document: an element (its attribute values in order and its children) or a text
(`xml.dom.minidom`, used from rpc_readers.py:81). -/
inductive Xml
  | elem (tag : Tag) (attrs : List Line) (children : List Xml)
  | text (data : Line)

mutual
/-- The elements among a node and its descendants, in document order. -/
def Xml.elems : Xml → List Xml
  | .elem t a cs => .elem t a cs :: Xml.elemsList cs
  | .text _ => []
/-- The elements of a list of nodes, in document order. -/
def Xml.elemsList : List Xml → List Xml
  | [] => []
  | x :: xs => Xml.elems x ++ Xml.elemsList xs
end

/-- The children of a node (minidom, rpc_readers.py:81-84). -/
def Xml.children : Xml → List Xml
  | .elem _ _ cs => cs
  | .text _ => []

/-- The node is an element of this name (minidom, rpc_readers.py:83). -/
def Xml.hasTag (t : Tag) : Xml → Bool
  | .elem t' _ _ => decide (t' = t)
  | .text _ => false

/-- `node.getElementsByTagName(t)[0]` (rpc_readers.py:83-86): the first proper descendant of that name. -/
def Xml.first (x : Xml) (t : Tag) : Except IoError Xml :=
  match (Xml.elemsList x.children).filter (Xml.hasTag t) with
  | [] => .error .indexError
  | y :: _ => .ok y

/-- `node.firstChild.data` (rpc_readers.py:88-89): an element without child or whose first child is not a text raises. -/
def Xml.firstData (x : Xml) : Except IoError Line :=
  match x.children with
  | .text d :: _ => .ok d
  | _ => .error .attributeError

/-- `node.attributes.items()[0][1]` (rpc_readers.py:84). -/
def Xml.firstAttr : Xml → Except IoError Line
  | .elem _ (a :: _) _ => .ok a
  | _ => .error .indexError

/-- The libraries. -/
structure IoEnv (K : Type) where
  /-- `rio.open(path).rpcs` from the RPC tag of the file and the `.RPB` file beside it -/
  gdal : Option (RioRpc K) → Option (RioRpc K) → Option (RioRpc K)
  /-- GDAL's reading of a `.RPB` file -/
  readRpb : Text → Option (RioRpc K)
  /-- `minidom.parse` -/
  parseXml : Text → Option Xml
  /-- `float` -/
  toFloat : Line → Option K
  /-- printing of a number -/
  fmt : K → Line

/-- `float(s)` (rpc_readers.py:88); a string that is not a number raises `ValueError`. -/
def pyFloat (env : IoEnv K) (s : Line) : Except IoError K :=
  match env.toFloat s with
  | some x => .ok x
  | none => .error .valueError

/-- `float(node.getElementsByTagName(t)[0].firstChild.data)` (rpc_readers.py:88-89). -/
def Xml.floatAt (env : IoEnv K) (x : Xml) (t : Tag) : Except IoError K := do
  let y ← x.first t
  let d ← y.firstData
  pyFloat env d

/-- A loop that may raise (rpc_readers.py:94-97 list comprehension). -/
def eachOf {α β : Type} (f : α → Except IoError β) : List α → Except IoError (List β)
  | [] => .ok []
  | a :: as => do
    let b ← f a
    let bs ← eachOf f as
    return b :: bs

/-- `[float(node.getElementsByTagName(f"{name}{index}")[0].firstChild.data) for index in range(1, 21)]`
(rpc_readers.py:94-97). -/
def Xml.floats20 (env : IoEnv K) (x : Xml) (name : String) : Except IoError (List K) :=
  eachOf (fun i => x.floatAt env ⟨name, some (i + 1)⟩) (List.range 20)

/-! ### Readers -/

/-- File part of a path (`os.path.basename`, rpc_readers.py:59, 83). -/
def basename (path : Line) : Line := (path.reverse.takeWhile fun c => c ≠ '/').reverse

/-- `basename(path).upper().endswith("XML")` (rpc_readers.py:59, 83, 195), for ASCII names. -/
def isXmlPath (path : Line) : Bool := ((basename path).map Char.toUpper).reverse.take 3 == "LMX".toList

/-- `rpc_reader_dimap_v23` (rpc_readers.py:72-178) on the parsed document. -/
def readDimapV23 (env : IoEnv K) (doc : Xml) (topleft : Bool) : Except IoError (RpcParams K) := do
  let mtd ← doc.first (tag "Metadata_Identification")
  let fmt ← mtd.first (tag "METADATA_FORMAT")
  let version ← fmt.firstAttr
  let rfm ← doc.first (tag "Global_RFM")
  let norm ← rfm.first (tag "RFM_Validity")
  let offRow ← norm.floatAt env (tag "LINE_OFF")
  let offCol ← norm.floatAt env (tag "SAMP_OFF")
  let v ← pyFloat env version
  let v3 := decide (v ≥ 3)
  let direct ← rfm.first (tag (if v3 then "ImagetoGround_Values" else "Direct_Model"))
  let inverse ← rfm.first (tag (if v3 then "GroundtoImage_Values" else "Inverse_Model"))
  let numX ← direct.floats20 env (if v3 then "LON_NUM_COEFF_" else "SAMP_NUM_COEFF_")
  let denX ← direct.floats20 env (if v3 then "LON_DEN_COEFF_" else "SAMP_DEN_COEFF_")
  let numY ← direct.floats20 env (if v3 then "LAT_NUM_COEFF_" else "LINE_NUM_COEFF_")
  let denY ← direct.floats20 env (if v3 then "LAT_DEN_COEFF_" else "LINE_DEN_COEFF_")
  let shift : K := if v3 then 1 / 2 else 1
  let numCol ← inverse.floats20 env "SAMP_NUM_COEFF_"
  let denCol ← inverse.floats20 env "SAMP_DEN_COEFF_"
  let numRow ← inverse.floats20 env "LINE_NUM_COEFF_"
  let denRow ← inverse.floats20 env "LINE_DEN_COEFF_"
  let scaleCol ← norm.floatAt env (tag "SAMP_SCALE")
  let scaleRow ← norm.floatAt env (tag "LINE_SCALE")
  let offsetAlt ← norm.floatAt env (tag "HEIGHT_OFF")
  let scaleAlt ← norm.floatAt env (tag "HEIGHT_SCALE")
  let offsetX ← norm.floatAt env (tag "LONG_OFF")
  let scaleX ← norm.floatAt env (tag "LONG_SCALE")
  let offsetY ← norm.floatAt env (tag "LAT_OFF")
  let scaleY ← norm.floatAt env (tag "LAT_SCALE")
  return {
    driver := "dimap_v".toList ++ version, offsetAlt := offsetAlt, scaleAlt := scaleAlt, offsetY := offsetY,
    scaleY := scaleY, denRow := denRow, numRow := numRow, offsetRow := offRow - shift + halfIf topleft, scaleRow := scaleRow,
    offsetX := offsetX, scaleX := scaleX, denCol := denCol, numCol := numCol, offsetCol := offCol - shift + halfIf topleft,
    scaleCol := scaleCol, numX := some numX, denX := some denX, numY := some numY, denY := some denY }

/-- White space (`str.split()`, rpc_readers.py:206-209; `str.strip`, rpc_readers.py:353), ASCII. -/
def isWhite (c : Char) : Bool := c == ' ' || c == '\t' || c == '\n' || c == '\r'

/-- `s.split()` (rpc_readers.py:206-209); `cur` is the word being read, reversed. -/
def wordsAux : Line → Line → List Line
  | cur, [] => if cur = [] then [] else [cur.reverse]
  | cur, c :: cs =>
    if isWhite c then (if cur = [] then wordsAux [] cs else cur.reverse :: wordsAux [] cs)
    else wordsAux (c :: cur) cs

/-- `s.split()` (rpc_readers.py:206-209). -/
def words (s : Line) : List Line := wordsAux [] s

/-- `[float(el) for el in node.getElementsByTagName(t)[0].firstChild.data.split()]` (rpc_readers.py:206-209). -/
def Xml.floatsOf (env : IoEnv K) (x : Xml) (t : Tag) : Except IoError (List K) := do
  let y ← x.first t
  let d ← y.firstData
  eachOf (pyFloat env) (words d)

/-- `float(node.getElementsByTagName(t)[0].getElementsByTagName(u)[0].firstChild.data)` (rpc_readers.py:211-220). -/
def Xml.floatAt2 (env : IoEnv K) (x : Xml) (t u : Tag) : Except IoError K := do
  let y ← x.first t
  y.floatAt env u

/-- `rpc_reader_dimap_v1` (rpc_readers.py:181-247) on the parsed document. -/
def readDimapV1 (env : IoEnv K) (doc : Xml) (topleft : Bool) : Except IoError (RpcParams K) := do
  let mtd ← doc.first (tag "Metadata_Identification")
  let prof ← mtd.first (tag "METADATA_PROFILE")
  let version ← prof.firstAttr
  let rfm ← doc.first (tag "Global_RFM")
  let lon ← rfm.floatsOf env (tag "F_LON")
  let lat ← rfm.floatsOf env (tag "F_LAT")
  let col ← rfm.floatsOf env (tag "F_COL")
  let row ← rfm.floatsOf env (tag "F_ROW")
  let val ← doc.first (tag "RFM_Validity")
  let scaleX ← val.floatAt2 env (tag "Lon") (tag "A")
  let offsetX ← val.floatAt2 env (tag "Lon") (tag "B")
  let scaleY ← val.floatAt2 env (tag "Lat") (tag "A")
  let offsetY ← val.floatAt2 env (tag "Lat") (tag "B")
  let scaleAlt ← val.floatAt2 env (tag "Alt") (tag "A")
  let offsetAlt ← val.floatAt2 env (tag "Alt") (tag "B")
  let scaleCol ← val.floatAt2 env (tag "Col") (tag "A")
  let offsetCol ← val.floatAt2 env (tag "Col") (tag "B")
  let scaleRow ← val.floatAt2 env (tag "Row") (tag "A")
  let offsetRow ← val.floatAt2 env (tag "Row") (tag "B")
  return {
    driver := "dimap_v".toList ++ version, offsetAlt := offsetAlt, scaleAlt := scaleAlt, offsetY := offsetY,
    scaleY := scaleY, denRow := row.drop 20, numRow := row.take 20, offsetRow := offsetRow - 1 + halfIf topleft,
    scaleRow := scaleRow, offsetX := offsetX, scaleX := scaleX, denCol := col.drop 20, numCol := col.take 20,
    offsetCol := offsetCol - 1 + halfIf topleft, scaleCol := scaleCol, numX := some (lon.take 20),
    denX := some (lon.drop 20), numY := some (lat.take 20), denY := some (lat.drop 20) }

/-- The tag that has the version (rpc_readers.py:318-321). -/
def versionTag (format : Line) : Tag :=
  if format = "DIMAP_PHR".toList then tag "METADATA_PROFILE" else tag "METADATA_FORMAT"

/-- The body of `identify_dimap` (rpc_readers.py:314-323). -/
def dimapVersion (doc : Option Xml) : Except IoError Line :=
  match doc with
  | none => .error .valueError
  | some d => do
    let mtd ← d.first (tag "Metadata_Identification")
    let f ← mtd.first (tag "METADATA_FORMAT")
    let data ← f.firstData
    let v ← mtd.first (versionTag data)
    v.firstAttr

/-- `identify_dimap` (rpc_readers.py:308-326); any exception gives `None`. -/
def identifyDimap (doc : Option Xml) : Option Line :=
  match dimapVersion doc with
  | .ok v => some v
  | .error _ => none

/-- `line.split(": ")` (rpc_readers.py:267, 357). -/
def splitColon : Line → List Line
  | [] => [[]]
  | ':' :: ' ' :: cs => [] :: splitColon cs
  | c :: cs =>
    match splitColon cs with
    | [] => [[c]]
    | p :: ps => (c :: p) :: ps

/-- `s.rstrip()` (rpc_readers.py:268). -/
def rstrip (s : Line) : Line := (s.reverse.dropWhile isWhite).reverse

/-- `s.strip()` (rpc_readers.py:360). -/
def strip (s : Line) : Line := rstrip (s.dropWhile isWhite)

/-- The dictionary of a keyword list (rpc_readers.py:265-268, 354-358), last assignment first: a line must have exactly
one separator. -/
def kwlDict (t : Text) : Except IoError (List (Line × Line)) := do
  let l ← eachOf (fun line => match splitColon line with
    | [k, v] => .ok (k, rstrip v)
    | _ => .error .valueError) t
  return l.reverse

/-- `geom_dict[key]` (rpc_readers.py:278). -/
def kwlGet (d : List (Line × Line)) (k : Line) : Except IoError Line :=
  match d.lookup k with
  | some v => .ok v
  | none => .error .keyError

/-- `float(geom_dict[key])` (rpc_readers.py:278). -/
def kwlFloat (env : IoEnv K) (d : List (Line × Line)) (k : Line) : Except IoError K := do
  let s ← kwlGet d k
  pyFloat env s

/-- `f"{i:02d}"` (rpc_readers.py:277) for i < 100. -/
def twoDigits (i : ℕ) : Line := [Char.ofNat (48 + i / 10 % 10), Char.ofNat (48 + i % 10)]

/-- The 20 coefficients of a keyword list (rpc_readers.py:274-288). -/
def kwlCoefs (env : IoEnv K) (d : List (Line × Line)) (pre : Line) : Except IoError (List K) :=
  eachOf (fun i => kwlFloat env d (pre ++ twoDigits i)) (List.range 20)

/-- `rpc_reader_ossim_kwl` (rpc_readers.py:250-305).  The order in which the missing keys are noticed is not modelled. -/
def readOssim (env : IoEnv K) (t : Text) (topleft : Bool) : Except IoError (RpcParams K) := do
  let d ← kwlDict t
  let denRow ← kwlCoefs env d "line_den_coeff_".toList
  let numRow ← kwlCoefs env d "line_num_coeff_".toList
  let numCol ← kwlCoefs env d "samp_num_coeff_".toList
  let denCol ← kwlCoefs env d "samp_den_coeff_".toList
  let offsetCol ← kwlFloat env d "samp_off".toList
  let scaleCol ← kwlFloat env d "samp_scale".toList
  let offsetRow ← kwlFloat env d "line_off".toList
  let scaleRow ← kwlFloat env d "line_scale".toList
  let offsetAlt ← kwlFloat env d "height_off".toList
  let scaleAlt ← kwlFloat env d "height_scale".toList
  let offsetX ← kwlFloat env d "long_off".toList
  let scaleX ← kwlFloat env d "long_scale".toList
  let offsetY ← kwlFloat env d "lat_off".toList
  let scaleY ← kwlFloat env d "lat_scale".toList
  return {
    driver := "ossim_kwl".toList, offsetAlt := offsetAlt, scaleAlt := scaleAlt, offsetY := offsetY, scaleY := scaleY,
    denRow := denRow, numRow := numRow, offsetRow := offsetRow + halfIf topleft, scaleRow := scaleRow, offsetX := offsetX,
    scaleX := scaleX, denCol := denCol, numCol := numCol, offsetCol := offsetCol + halfIf topleft, scaleCol := scaleCol,
    numX := none, denX := none, numY := none, denY := none }

/-- `identify_ossim_kwl` (rpc_readers.py:344-364); any exception gives `None`. -/
def identifyOssim (t : Option Text) : Option Line :=
  match t with
  | none => none
  | some t =>
    match kwlDict t with
    | .error _ => none
    | .ok d =>
      match d.lookup "type".toList with
      | none => none
      | some v => if (strip v).take 5 = "ossim".toList then some (strip v) else none

/-- A file: an image readable by rasterio with its optional RPC tag, or a text. -/
inductive RpcFile (K : Type)
  | tiff (rpc : Option (RioRpc K))
  | text (t : Text)

/-- The files, by path. -/
abbrev Files (K : Type) := Line → Option (RpcFile K)

/-- `os.path.splitext(path)[0]` (rpc_writers.py:74): the path without its extension; the leading dots of the name are not
an extension. -/
def splitext (path : Line) : Line :=
  let base := basename path
  let dir := path.take (path.length - base.length)
  let lead := base.takeWhile fun c => c = '.'
  let body := base.dropWhile fun c => c = '.'
  if '.' ∈ body then dir ++ lead ++ ((body.reverse.dropWhile fun c => c ≠ '.').drop 1).reverse
  else path

/-- `os.path.splitext(filename)[0] + ".RPB"` (rpc_writers.py:74). -/
def rpbPath (path : Line) : Line := splitext path ++ ".RPB".toList

/-- The text of a path, if it is a text file. -/
def textAt (fs : Files K) (path : Line) : Option Text :=
  match fs path with
  | some (.text t) => some t
  | _ => none

/-- `src.rpcs` (rpc_readers.py:417-426, rpc_writers.py:79-80): outer `none` if rasterio cannot open the file. -/
def rioRpcs (env : IoEnv K) (fs : Files K) (path : Line) : Option (Option (RioRpc K)) :=
  match fs path with
  | some (.tiff rpc) => some (env.gdal rpc ((textAt fs (rpbPath path)).bind env.readRpb))
  | _ => none

/-- `rpc_reader_via_rasterio` (rpc_readers.py:407-426). -/
def readRasterio (env : IoEnv K) (fs : Files K) (path : Line) (topleft : Bool) : Option (RpcParams K) :=
  match rioRpcs env fs path with
  | some (some r) => some (convertRio r topleft)
  | _ => none

/-- `rpc_reader` (rpc_readers.py:38-69).  A version number is not a NaN. -/
def rpcReader (env : IoEnv K) (fs : Files K) (path : Line) (topleft : Bool) : Except IoError (RpcParams K) :=
  match readRasterio env fs path topleft with
  | some p => .ok p
  | none =>
    let ossim : Except IoError (RpcParams K) :=
      match identifyOssim (textAt fs path) with
      | some _ => readOssim env ((textAt fs path).getD []) topleft
      | none => .error .valueError
    if isXmlPath path then
      let doc := (textAt fs path).bind env.parseXml
      match identifyDimap doc, doc with
      | some version, some d =>
        match env.toFloat version with
        | none => .error .valueError
        | some v => if v < 2 then readDimapV1 env d topleft else readDimapV23 env d topleft
      | _, _ => ossim
    else ossim

/-! ### Writers -/

/-- `write_coeff` (rpc_writers.py:99-105): the lines of one list. -/
def rpbCoefs (env : IoEnv K) (name : Line) (l : List K) : Text :=
  ["\t".toList ++ name ++ " = (".toList] ++
    (l.zipIdx.map fun ci => "\t\t".toList ++ env.fmt ci.1 ++ (if ci.2 < l.length - 1 then ",".toList else [])) ++ ["\t);".toList]

/-- One assignment of the IMAGE group (rpc_writers.py:115-124). -/
def rpbLine (env : IoEnv K) (name : Line) (x : K) : Line := "\t".toList ++ name ++ " = ".toList ++ env.fmt x ++ ";".toList

/-- `write_rio_rpc_as_rpb` (rpc_writers.py:89-132): the text written. -/
def rpbText (env : IoEnv K) (r : RioRpc K) : Text :=
  ["satId =  'UNKNOWN';".toList, "bandId = 'P';".toList, "SpecId = \"RPC00B\";".toList, "BEGIN_GROUP = IMAGE".toList,
   "\terrBias = -1;".toList, "\terrRand = -1;".toList, rpbLine env "lineOffset".toList r.lineOff,
   rpbLine env "sampOffset".toList r.sampOff, rpbLine env "latOffset".toList r.latOff,
   rpbLine env "longOffset".toList r.longOff, rpbLine env "heightOffset".toList r.heightOff,
   rpbLine env "lineScale".toList r.lineScale, rpbLine env "sampScale".toList r.sampScale,
   rpbLine env "latScale".toList r.latScale, rpbLine env "longScale".toList r.longScale,
   rpbLine env "heightScale".toList r.heightScale] ++
  rpbCoefs env "lineNumCoef".toList r.lineNum ++ rpbCoefs env "lineDenCoef".toList r.lineDen ++
  rpbCoefs env "sampNumCoef".toList r.sampNum ++ rpbCoefs env "sampDenCoef".toList r.sampDen ++
  ["END_GROUP = IMAGE".toList, "END;".toList]

/-- One number of the JSON object (`json.dump(..., indent=4)`, rpc_writers.py:181). -/
def jsonNum (env : IoEnv K) (name : Line) (x : K) (comma : Bool) : Line :=
  "    \"".toList ++ name ++ "\": ".toList ++ env.fmt x ++ (if comma then ",".toList else [])

/-- One list of numbers of the JSON object, one number per line (`json.dump(..., indent=4)`, rpc_writers.py:181). -/
def jsonList (env : IoEnv K) (name : Line) (l : List K) : Text :=
  if l = [] then ["    \"".toList ++ name ++ "\": [],".toList]
  else ["    \"".toList ++ name ++ "\": [".toList] ++
    (l.zipIdx.map fun ci => "        ".toList ++ env.fmt ci.1 ++ (if ci.2 < l.length - 1 then ",".toList else [])) ++
    ["    ],".toList]

/-- `write_rio_rpc_as_json` (rpc_writers.py:172-181): the text written, in the order of the dictionary (147-162). -/
def jsonText (env : IoEnv K) (r : RioRpc K) : Text :=
  ["{".toList, jsonNum env "height_off".toList r.heightOff true, jsonNum env "height_scale".toList r.heightScale true,
   jsonNum env "lat_off".toList r.latOff true, jsonNum env "lat_scale".toList r.latScale true] ++
  jsonList env "line_den_coeff".toList r.lineDen ++ jsonList env "line_num_coeff".toList r.lineNum ++
  [jsonNum env "line_off".toList r.lineOff true, jsonNum env "line_scale".toList r.lineScale true,
   jsonNum env "long_off".toList r.longOff true, jsonNum env "long_scale".toList r.longScale true] ++
  jsonList env "samp_den_coeff".toList r.sampDen ++ jsonList env "samp_num_coeff".toList r.sampNum ++
  [jsonNum env "samp_off".toList r.sampOff true, jsonNum env "samp_scale".toList r.sampScale false, "}".toList]

/-- Creation or replacement of a file (`open(path, "w")`, rpc_writers.py:107, 180). -/
def writeFile (fs : Files K) (path : Line) (f : RpcFile K) : Files K := fun p => if p = path then some f else fs p

/-- `geotiff_rpc_updater` (rpc_writers.py:63-87): the new files, or an exception. -/
def geotiffUpdate (env : IoEnv K) (fs : Files K) (r : RioRpc K) (path : Line) (rpb force : Bool) : Except IoError (Files K) :=
  if rpb then .ok (writeFile fs (rpbPath path) (.text (rpbText env r)))
  else
    match rioRpcs env fs path with
    | none => .ok fs
    | some rpcs =>
      if rpcs.isSome && !force then .error .runtimeError
      else .ok (writeFile fs path (.tiff (some r)))

/-- `rpc_writer` (rpc_writers.py:39-60). -/
def rpcWriter (env : IoEnv K) (fs : Files K) (p : RpcParams K) (path : Line) (format : String) (force : Bool) :
    Except IoError (Files K) :=
  if format ∉ ["geotiff", "geotiff_rpb", "rpb", "json"] then .error .valueError
  else
    let r := toRio p true
    if format = "geotiff" then geotiffUpdate env fs r path false force
    else if format = "geotiff_rpb" then geotiffUpdate env fs r path true force
    else if format = "rpb" then .ok (writeFile fs path (.text (rpbText env r)))
    else .ok (writeFile fs path (.text (jsonText env r)))

/-- `rpc_converter` (rpc_converter.py:34-49). -/
def rpcConverter (env : IoEnv K) (fs : Files K) (input output : Line) (format : String) (force : Bool) :
    Except IoError (Files K) :=
  match rpcReader env fs input true with
  | .error e => .error e
  | .ok p => rpcWriter env fs p output format force

end Shareloc
