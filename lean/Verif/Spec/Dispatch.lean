import Verif.Spec.RpcFormats

/-!
Specification of the choice of the RPC reader: what is found in the file decides.
-/

namespace Shareloc
variable {K : Type} [Field K] [LinearOrder K]

/-- The name ends with `xml`, in capitals or not. -/
def EndsWithXml (path : Line) : Prop := ∃ pre ext, path = pre ++ ext ∧ ext.map Char.toUpper = "XML".toList

/-- The file is an image and GDAL finds the RPC `r`, in the image or beside it. -/
def HasGdalRpc (env : IoEnv K) (fs : Files K) (path : Line) (r : RioRpc K) : Prop :=
  ∃ internal, fs path = some (.tiff internal) ∧
    ((∃ t, fs (rpbPath path) = some (.text t) ∧ env.gdal internal (env.readRpb t) = some r) ∨
     ((∀ t, fs (rpbPath path) ≠ some (.text t)) ∧ env.gdal internal none = some r))

/-- The version of a DIMAP document: that of its profile for the format `DIMAP_PHR`, that of its format otherwise. -/
def DimapVersion (doc : Xml) (v : Line) : Prop :=
  ∃ format, TextAt doc [tag "Metadata_Identification", tag "METADATA_FORMAT"] format ∧
    (format = "DIMAP_PHR".toList → AttributeAt doc [tag "Metadata_Identification", tag "METADATA_PROFILE"] v) ∧
    (format ≠ "DIMAP_PHR".toList → AttributeAt doc [tag "Metadata_Identification", tag "METADATA_FORMAT"] v)

/-- The file is an XML text with a DIMAP version. -/
def IsDimapFile (env : IoEnv K) (fs : Files K) (path : Line) (doc : Xml) (v : Line) : Prop :=
  EndsWithXml path ∧ ∃ t, fs path = some (.text t) ∧ env.parseXml t = some doc ∧ DimapVersion doc v

/-- The text is a keyword list whose type starts with `ossim`. -/
def IsOssimText (t : Text) : Prop :=
  ∃ l v white rest, IsKwl t l ∧ KwlValue l "type".toList v ∧ v = white ++ "ossim".toList ++ rest ∧
    ∀ c ∈ white, White c

/-- The readers. -/
inductive Reader
  | gdal | dimap1 | dimap23 | ossim
  deriving DecidableEq, Repr

/-- Which reader a file is for. -/
def IsFor (env : IoEnv K) (fs : Files K) (path : Line) : Reader → Prop
  | .gdal => ∃ r, HasGdalRpc env fs path r
  | .dimap1 => (∀ r, ¬ HasGdalRpc env fs path r) ∧ ∃ doc v x, IsDimapFile env fs path doc v ∧ env.toFloat v = some x ∧ x < 2
  | .dimap23 => (∀ r, ¬ HasGdalRpc env fs path r) ∧ ∃ doc v x, IsDimapFile env fs path doc v ∧ env.toFloat v = some x ∧ 2 ≤ x
  | .ossim => (∀ r, ¬ HasGdalRpc env fs path r) ∧ (∀ doc v, ¬ IsDimapFile env fs path doc v) ∧
      ∃ t, fs path = some (.text t) ∧ IsOssimText t

/-- `path` is `stem.ext`: the extension has no dot, and the name of the file has another character than dots before it. -/
def HasExtension (path stem ext : Line) : Prop :=
  path = stem ++ '.' :: ext ∧ '.' ∉ ext ∧ '/' ∉ ext ∧
    ∃ before c after, stem = before ++ c :: after ∧ c ≠ '.' ∧ c ≠ '/' ∧ '/' ∉ after

/-- The `.RPB` file beside a file: its extension replaced, or added when it has none. -/
def IsRpbOf (path q : Line) : Prop :=
  (∃ stem ext, HasExtension path stem ext ∧ q = stem ++ ".RPB".toList) ∨
  ((∀ stem ext, ¬ HasExtension path stem ext) ∧ q = path ++ ".RPB".toList)

end Shareloc
