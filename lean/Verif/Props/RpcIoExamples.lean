import Verif.Props.RpcDispatch
import Verif.Props.RpcReaders

/-!
Small files that meet the hypotheses of the theorems on the readers, and the counterexample on the DIMAP version.
-/

set_option linter.unusedSectionVars false

namespace Shareloc.IoExamples

/-- Decimal digits. -/
def digit (c : Char) : Option ℕ := if '0' ≤ c ∧ c ≤ '9' then some (c.toNat - 48) else none

/-- Natural numbers in decimal, read from the left. -/
def natFloatAux : ℕ → Line → Option ℕ
  | n, [] => some n
  | n, c :: cs =>
    match digit c with
    | some d => natFloatAux (10 * n + d) cs
    | none => none

/-- A simple `float`: natural numbers in decimal. -/
def natFloat (s : Line) : Option ℚ := if s = [] then none else (natFloatAux 0 s).map fun n => (n : ℚ)

/-- One element with a text. -/
def leaf (t : Tag) (s : String) : Xml := .elem t [] [.text s.toList]

/-- Twenty coefficients: the index as a number, prefixed by `d`. -/
def coefLeaves (pre : String) (d : Char) : List Xml :=
  (List.range 20).map fun i => .elem ⟨pre, some (i + 1)⟩ [] [.text (d :: twoDigits i)]

/-- The normalisation of the example. -/
def exNorm : Xml := .elem (tag "RFM_Validity") []
  [leaf (tag "LINE_OFF") "101", leaf (tag "SAMP_OFF") "201", leaf (tag "LINE_SCALE") "10", leaf (tag "SAMP_SCALE") "20",
   leaf (tag "LONG_OFF") "5", leaf (tag "LONG_SCALE") "1", leaf (tag "LAT_OFF") "45", leaf (tag "LAT_SCALE") "2",
   leaf (tag "HEIGHT_OFF") "100", leaf (tag "HEIGHT_SCALE") "50"]

/-- A DIMAP document with both layouts; `fmt` and `prof` are the two version numbers and `name` the name of the format. -/
def exDoc (name fmt prof : String) : Xml := .elem (tag "#document") []
  [.elem (tag "Dimap_Document") []
    [.elem (tag "Metadata_Identification") []
      [.elem (tag "METADATA_FORMAT") [fmt.toList] [.text name.toList],
       .elem (tag "METADATA_PROFILE") [prof.toList] [.text "S6".toList]],
     .elem (tag "Global_RFM") []
      [.elem (tag "Direct_Model") [] (coefLeaves "SAMP_NUM_COEFF_" '1' ++ coefLeaves "SAMP_DEN_COEFF_" '2' ++
          coefLeaves "LINE_NUM_COEFF_" '3' ++ coefLeaves "LINE_DEN_COEFF_" '4'),
       .elem (tag "Inverse_Model") [] (coefLeaves "SAMP_NUM_COEFF_" '5' ++ coefLeaves "SAMP_DEN_COEFF_" '6' ++
          coefLeaves "LINE_NUM_COEFF_" '7' ++ coefLeaves "LINE_DEN_COEFF_" '8'),
       .elem (tag "ImagetoGround_Values") [] (coefLeaves "LON_NUM_COEFF_" '1' ++ coefLeaves "LON_DEN_COEFF_" '2' ++
          coefLeaves "LAT_NUM_COEFF_" '3' ++ coefLeaves "LAT_DEN_COEFF_" '4'),
       .elem (tag "GroundtoImage_Values") [] (coefLeaves "SAMP_NUM_COEFF_" '5' ++ coefLeaves "SAMP_DEN_COEFF_" '6' ++
          coefLeaves "LINE_NUM_COEFF_" '7' ++ coefLeaves "LINE_DEN_COEFF_" '8'),
       exNorm]]]

/-- The libraries of the examples; the XML parser knows the text of one document. -/
def exEnv (doc : Xml) : IoEnv ℚ where
  gdal := fun a b => match a with | some r => some r | none => b
  readRpb := fun _ => none
  parseXml := fun t => if t = ["<xml/>".toList] then some doc else none
  toFloat := natFloat
  fmt := fun _ => []

/-- Twenty numbers from `k`. -/
def twentyFrom (k : ℚ) : List ℚ := (List.range 20).map fun i => k + i

/-- What the document says. -/
def exRaw (version : String) : RpcParams ℚ :=
  ⟨"dimap_v".toList ++ version.toList, 100, 50, 45, 2, twentyFrom 800, twentyFrom 700, 101, 10, 5, 1, twentyFrom 600,
    twentyFrom 500, 201, 20, some (twentyFrom 100), some (twentyFrom 200), some (twentyFrom 300), some (twentyFrom 400)⟩

example : readDimapV23 (exEnv (exDoc "DIMAP" "2" "1")) (exDoc "DIMAP" "2" "1") true =
    .ok { exRaw "2" with offsetRow := 201 / 2, offsetCol := 401 / 2 } := by decide +kernel

example : readDimapV23 (exEnv (exDoc "DIMAP" "3" "1")) (exDoc "DIMAP" "3" "1") true =
    .ok { exRaw "3" with offsetRow := 101, offsetCol := 201 } := by decide +kernel

example : dimapVersion (some (exDoc "DIMAP_PHR" "2" "1")) = .ok "1".toList := by decide +kernel

/-- The version of the example document, in the words of the specification. -/
theorem exDoc_version (name fmt prof : String) (h : name ≠ "DIMAP_PHR") : DimapVersion (exDoc name fmt prof) fmt.toList := by
  have key : identifyDimap (some (exDoc name fmt prof)) = some fmt.toList := by
    have hv : versionTag name.toList = tag "METADATA_FORMAT" := by
      unfold versionTag
      rw [if_neg (fun h' => h (String.toList_inj.1 h'))]
    have : dimapVersion (some (exDoc name fmt prof)) = .ok fmt.toList := by
      change (Xml.first _ (versionTag name.toList) >>= Xml.firstAttr) = _
      rw [hv]
      rfl
    unfold identifyDimap
    rw [this]
  obtain ⟨d, h1, h2⟩ := (identifyDimap_iff _ _).1 key
  simp only [Option.some.injEq] at h1
  rw [h1]; exact h2

/-- Files with one DIMAP document. -/
def exFiles : Files ℚ := fun p => if p = "dir/RPC_P.XML".toList then some (.text ["<xml/>".toList]) else none

theorem exFiles_isFor : IsFor (exEnv (exDoc "DIMAP" "2" "1")) exFiles "dir/RPC_P.XML".toList .dimap23 := by
  refine ⟨?_, exDoc "DIMAP" "2" "1", "2".toList, 2, ⟨?_, ["<xml/>".toList], ?_, ?_, exDoc_version _ _ _ (by decide)⟩, ?_, le_refl _⟩
  · rintro r ⟨i, hi, -⟩
    rw [exFiles, if_pos rfl] at hi
    simp at hi
  · exact ⟨"dir/RPC_P.".toList, "XML".toList, by decide +kernel, by decide +kernel⟩
  · rw [exFiles, if_pos rfl]
  · simp only [exEnv, if_true]
  · decide +kernel

end Shareloc.IoExamples

namespace Shareloc
open IoExamples

/-- C51, not claimed by the code: the version that chooses the reader and the version used by the reader may differ.  For the
format `DIMAP_PHR` the profile version 2 chooses the reader of versions 2 and 3, which then takes the format version 3: the
same document with the profile version in both places is read with another position of the first pixel. -/
theorem C51_version_mismatch :
    ∃ p q : RpcParams ℚ,
      rpcReader (exEnv (exDoc "DIMAP_PHR" "3" "2")) exFiles "dir/RPC_P.XML".toList true = .ok p ∧
      rpcReader (exEnv (exDoc "DIMAP_PHR" "2" "2")) exFiles "dir/RPC_P.XML".toList true = .ok q ∧
      dimapVersion (some (exDoc "DIMAP_PHR" "3" "2")) = dimapVersion (some (exDoc "DIMAP_PHR" "2" "2")) ∧
      p.offsetRow = q.offsetRow + 1 / 2 := by
  refine ⟨{ exRaw "3" with offsetRow := 101, offsetCol := 201 }, { exRaw "2" with offsetRow := 201 / 2, offsetCol := 401 / 2 }, ?_⟩
  decide +kernel

end Shareloc

namespace Shareloc.IoExamples

/-- Forty numbers separated by white space. -/
def exWords (d : Char) : Line := ((List.range 40).map fun i => d :: twoDigits i ++ [' ', '\n']).flatten

/-- A DIMAP v1 document. -/
def exDoc1 : Xml := .elem (tag "#document") []
  [.elem (tag "Metadata_Identification") []
      [.elem (tag "METADATA_FORMAT") ["1".toList] [.text "DIMAP_PHR".toList],
       .elem (tag "METADATA_PROFILE") ["1".toList] [.text "PHR_SENSOR".toList]],
    .elem (tag "Global_RFM") []
      [.elem (tag "F_LON") [] [.text (exWords '1')], .elem (tag "F_LAT") [] [.text (exWords '2')],
       .elem (tag "F_COL") [] [.text (exWords '3')], .elem (tag "F_ROW") [] [.text (exWords '4')]],
    .elem (tag "RFM_Validity") []
      [.elem (tag "Lon") [] [leaf (tag "A") "1", leaf (tag "B") "5"], .elem (tag "Lat") [] [leaf (tag "A") "2", leaf (tag "B") "45"],
       .elem (tag "Alt") [] [leaf (tag "A") "50", leaf (tag "B") "100"], .elem (tag "Col") [] [leaf (tag "A") "20", leaf (tag "B") "201"],
       .elem (tag "Row") [] [leaf (tag "A") "10", leaf (tag "B") "101"]]]

example : rpcReader (exEnv exDoc1) exFiles "dir/RPC_P.XML".toList true = .ok
    ⟨"dimap_v1".toList, 100, 50, 45, 2, twentyFrom 420, twentyFrom 400, 201 / 2, 10, 5, 1, twentyFrom 320,
    twentyFrom 300, 401 / 2, 20, some (twentyFrom 100), some (twentyFrom 120), some (twentyFrom 200), some (twentyFrom 220)⟩ := by
  decide +kernel

/-- An OSSIM keyword list. -/
def exKwl : Text :=
  ["type:  ossimPleiadesModel \n".toList, "samp_off:  201\n".toList, "samp_scale:  20\n".toList, "line_off:  101\n".toList, "line_scale:  10\n".toList,
    "height_off:  100\n".toList, "height_scale:  50\n".toList, "long_off:  5\n".toList, "long_scale:  1\n".toList, "lat_off:  7\n".toList,
    "lat_scale:  2\n".toList, "lat_off:  45\n".toList] ++
  ["line_den_coeff_", "line_num_coeff_", "samp_num_coeff_", "samp_den_coeff_"].flatMap fun s =>
    (List.range 20).map fun i => s.toList ++ twoDigits i ++ ": ".toList ++ twoDigits i

/-- The OSSIM example. -/
def exKwlFiles : Files ℚ := fun p => if p = "a.geom".toList then some (.text exKwl) else none

/-- `float` also skips leading spaces. -/
def exEnv' : IoEnv ℚ := { exEnv exDoc1 with toFloat := fun s => natFloat (s.dropWhile isWhite) }

example : rpcReader exEnv' exKwlFiles "a.geom".toList true = .ok
    ⟨"ossim_kwl".toList, 100, 50, 45, 2, twentyFrom 0, twentyFrom 0, 203 / 2, 10, 5, 1, twentyFrom 0,
    twentyFrom 0, 403 / 2, 20, none, none, none, none⟩ := by
  decide +kernel

end Shareloc.IoExamples
