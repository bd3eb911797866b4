import Verif.Validation.RectSupport

/-!
Written by tools/validation.py from the DIMAP v1 file of tests/data/rpc and tests/geomodels/test_rpc.py of /repo.  The model evaluated on the data of the tests: a check of the model
against the reference values of the repository, not a proof of a property.
-/

set_option maxRecDepth 100000

namespace Shareloc.Validation

/-- The document of PHRDIMAP_P1BP--2018122638935449CP.XML: the parts read by `rpc_reader`. -/
def dimap1 : Xml :=
  .elem ⟨"#document", none⟩ [] [(.elem ⟨"PHR_Dimap_Document", none⟩ [] [(.elem ⟨"Metadata_Identification", none⟩ [] [(.text ['\n',' ',' ',' ',' ']),
  (.elem ⟨"METADATA_PROFILE", none⟩ [['1','.','4']] [(.text ['P','H','R','_','S','Y','S','T','E','M','_','R','E','C','T','I','F','I','E','D','_','P','R','O','D','U','C','T'])]),
  (.text ['\n',' ',' ',' ',' ']),
  (.elem ⟨"METADATA_FORMAT", none⟩ [] [(.text ['D','I','M','A','P','_','P','H','R'])]),
  (.text ['\n',' ',' '])]),
 (.elem ⟨"Geoposition", none⟩ [] [(.elem ⟨"Rational_Sensor_Model", none⟩ [] [(.elem ⟨"Global_RFM", none⟩ [] [(.text ['\n',' ',' ',' ',' ',' ',' ',' ',' ']),
    (.elem ⟨"Direct_Model", none⟩ [] [(.text ['\n',' ',' ',' ',' ',' ',' ',' ',' ',' ',' ']),
     (.elem ⟨"F_LON", none⟩ [] [(.text ['-','0','.','0','0','2','3','4','0','3','8','0','8','3','8','8','0','0','0','9',' ','0','.','9','9','7','1','0','1','3','4','3','3','3','3','9','4','5',' ','-','0','.','0','0','0','6','8','1','2','5','3','8','9','6','0','3','7','9','3','6',' ','-','0','.','0','0','1','7','5','2','1','5','2','0','7','1','3','0','9','2','6',' ','0','.','0','0','0','3','3','1','1','6','3','4','1','0','1','5','2','0','8','7',' ','-','6','.','8','5','8','3','8','9','6','0','4','5','2','5','1','4','e','-','0','5',' ','-','2','.','6','7','9','8','4','2','8','2','3','2','9','7','1','8','e','-','0','5',' ','0','.','0','0','2','8','3','6','6','5','7','7','0','2','1','4','2','6','6',' ','-','0','.','0','0','1','2','2','2','1','0','2','4','3','4','2','6','2','7','6',' ','-','9','.','9','6','9','1','2','3','3','4','1','7','4','3','4','1','e','-','0','8',' ','-','1','.','2','5','3','7','5','1','8','3','6','6','2','6','8','1','e','-','0','7',' ','1','.','7','5','4','8','0','9','3','4','0','5','4','4','1','e','-','0','5',' ','2','.','2','1','7','5','1','4','5','7','4','6','1','3','6','4','e','-','0','6',' ','2','.','9','6','5','5','1','1','1','5','1','7','0','3','5','3','e','-','0','6',' ','5','.','3','2','6','5','1','2','0','9','0','1','8','0','9','8','e','-','0','5',' ','0','.','0','0','0','2','9','0','3','7','4','2','0','7','2','6','1','2','1',' ','-','2','.','5','9','3','0','4','6','4','1','4','4','6','9','5','5','e','-','0','9',' ','-','1','.','3','6','6','3','7','2','9','2','2','4','2','2','2','e','-','0','7',' ','1','.','1','2','9','3','7','3','7','1','7','8','9','0','9','1','e','-','0','7',' ','-','5','.','2','7','0','7','2','2','8','3','2','5','9','4','6','8','e','-','0','9',' ','1',' ','-','0','.','0','0','0','4','9','4','8','4','3','8','8','2','7','2','8','5','1','4',' ','-','0','.','0','0','0','3','3','2','0','3','5','4','1','9','8','9','9','5','8','9',' ','6','.','4','3','0','1','2','3','4','8','0','3','0','1','1','5','e','-','0','5',' ','-','7','.','9','8','4','4','2','7','4','2','5','1','6','0','1','3','e','-','0','6',' ','8','.','6','8','2','3','8','9','2','5','6','6','4','5','4','3','e','-','0','8',' ','-','1','.','2','1','9','9','1','2','6','4','7','6','8','7','9','e','-','0','7',' ','-','4','.','6','7','2','7','4','5','0','5','9','5','3','2','6','1','e','-','0','6',' ','-','2','.','0','5','5','6','2','8','1','3','1','7','4','0','1','4','e','-','0','6',' ','2','.','9','7','3','5','7','8','7','5','3','4','0','0','1','2','e','-','0','6',' ','3','.','8','1','3','9','5','4','3','4','9','7','6','1','5','5','e','-','0','9',' ','-','1','.','4','2','3','9','8','1','1','3','1','6','2','8','2','4','e','-','0','7',' ','1','.','6','0','2','5','6','4','5','5','3','7','3','1','6','7','e','-','0','7',' ','-','1','.','0','0','7','3','1','4','2','3','0','2','6','2','1','7','e','-','0','8',' ','-','4','.','0','2','9','1','0','7','5','1','2','9','0','9','5','2','e','-','0','7',' ','-','1','.','6','9','4','5','3','8','3','6','6','5','6','4','0','2','e','-','0','6',' ','-','1','.','9','8','2','3','6','8','1','1','1','9','3','8','5','9','e','-','0','9',' ','2','.','4','3','3','9','3','3','0','1','5','3','7','6','3','3','e','-','0','9',' ','3','.','4','9','6','4','7','2','5','2','9','9','4','8','2','5','e','-','1','0',' ','3','.','8','9','3','9','1','9','1','1','6','3','5','4','0','2','e','-','1','0'])]),
     (.text ['\n',' ',' ',' ',' ',' ',' ',' ',' ',' ',' ']),
     (.elem ⟨"F_LAT", none⟩ [] [(.text ['0','.','0','0','4','4','0','1','6','0','1','0','2','3','2','5','4','3','8',' ','-','0','.','0','4','7','1','2','4','5','6','3','9','7','8','5','7','7','8',' ','-','0','.','9','5','0','9','7','5','2','2','1','3','8','6','1','2','3',' ','0','.','0','0','1','7','9','3','0','6','7','6','3','4','3','3','4','9','6',' ','-','0','.','0','0','1','7','7','7','8','9','6','7','7','5','5','7','0','8','1',' ','5','.','9','8','8','6','9','5','4','4','5','1','5','3','7','3','e','-','0','6',' ','1','.','0','6','7','5','0','9','6','6','4','1','9','7','5','2','e','-','0','5',' ','-','0','.','0','0','0','7','7','0','7','4','6','7','6','2','6','1','5','1','8','4',' ','-','0','.','0','0','2','2','6','3','0','9','5','1','4','3','3','9','8','3','8',' ','1','.','8','2','5','5','1','6','7','0','4','1','4','1','9','8','e','-','0','8',' ','2','.','8','2','6','0','3','3','6','7','8','8','3','8','8','6','e','-','0','7',' ','-','4','.','5','9','6','8','5','7','7','0','1','7','0','1','4','4','e','-','0','6',' ','-','2','.','6','4','3','9','9','2','0','0','9','3','9','1','1','9','e','-','0','5',' ','-','4','.','5','8','6','3','5','9','9','4','3','0','9','3','4','7','e','-','0','7',' ','-','1','.','3','2','9','8','6','3','9','4','7','7','0','4','9','8','e','-','0','5',' ','-','3','.','9','8','7','3','8','1','8','5','7','6','6','0','1','3','e','-','0','5',' ','-','9','.','2','5','0','1','0','0','7','3','3','7','5','2','2','3','e','-','0','6',' ','1','.','9','9','2','5','5','8','0','1','3','8','4','4','9','2','e','-','0','7',' ','6','.','5','6','0','4','1','5','6','2','7','7','0','3','3','9','e','-','0','8',' ','1','.','7','4','9','0','8','4','0','0','7','7','7','0','7','5','e','-','0','8',' ','1',' ','-','0','.','0','0','1','5','1','9','7','6','9','8','1','3','6','6','1','0','6',' ','0','.','0','0','1','9','4','9','8','7','4','9','1','6','4','4','1','8',' ','2','.','5','4','0','1','4','7','9','5','1','2','1','7','9','6','e','-','0','6',' ','-','1','.','0','7','2','9','2','3','1','0','5','0','9','4','3','9','e','-','0','5',' ','1','.','7','0','0','8','9','8','5','4','4','1','0','4','6','4','e','-','0','7',' ','-','1','.','9','8','0','9','8','5','8','1','4','3','2','3','6','7','e','-','0','8',' ','2','.','6','8','0','5','4','3','0','3','0','6','7','8','6','5','e','-','0','6',' ','-','1','.','4','1','9','8','3','3','2','6','9','1','3','2','8','e','-','0','5',' ','9','.','7','1','8','5','5','7','6','8','7','8','7','0','8','e','-','0','6',' ','5','.','0','2','9','1','1','3','1','6','4','5','2','9','7','8','e','-','0','9',' ','-','1','.','7','6','0','7','5','6','6','1','9','6','7','2','1','e','-','0','7',' ','2','.','0','8','2','8','3','7','9','7','9','4','1','3','5','9','e','-','0','7',' ','-','3','.','2','0','3','3','1','7','7','1','5','9','5','9','1','2','e','-','0','8',' ','-','2','.','5','4','8','7','3','6','5','9','0','1','0','9','9','e','-','0','7',' ','-','5','.','0','2','6','2','3','3','8','5','8','4','8','8','0','7','e','-','0','7',' ','-','4','.','5','7','8','5','2','0','7','1','7','8','5','6','1','2','e','-','0','9',' ','1','.','1','9','6','1','7','4','7','7','4','2','4','2','8','5','e','-','0','9',' ','7','.','0','9','9','5','4','2','3','4','1','6','6','7','3','5','e','-','0','9',' ','9','.','3','1','7','7','2','5','6','4','6','3','4','4','8','1','e','-','1','1'])]),
     (.text ['\n',' ',' ',' ',' ',' ',' ',' ',' ',' ',' ']),
     (.elem ⟨"MODEL_PRECISION_X", none⟩ [] [(.text ['0','.','0','0','0','2','7','7','8','6','9','0','0','2','4','5','8','9','4','9','6'])]),
     (.text ['\n',' ',' ',' ',' ',' ',' ',' ',' ',' ',' ']),
     (.elem ⟨"MODEL_PRECISION_Y", none⟩ [] [(.text ['0','.','0','0','0','1','7','0','0','1','3','1','1','6','1','7','9','5','9','8','2'])]),
     (.text ['\n',' ',' ',' ',' ',' ',' ',' ',' '])]),
    (.text ['\n',' ',' ',' ',' ',' ',' ',' ',' ']),
    (.elem ⟨"Inverse_Model", none⟩ [] [(.text ['\n',' ',' ',' ',' ',' ',' ',' ',' ',' ',' ']),
     (.elem ⟨"F_COL", none⟩ [] [(.text ['0','.','0','0','2','3','5','0','2','4','4','8','0','1','8','5','8','6','9',' ','1','.','0','0','2','8','5','6','1','0','6','4','9','0','7','9',' ','-','0','.','0','0','0','7','3','0','1','6','5','4','0','3','9','2','8','3','4','7',' ','0','.','0','0','1','7','5','8','6','0','2','7','6','7','6','5','1','8','4',' ','0','.','0','0','0','4','1','7','2','7','8','7','0','2','2','6','0','9','1',' ','5','.','8','1','0','4','8','0','4','1','7','7','7','7','5','e','-','0','5',' ','-','3','.','2','9','9','0','4','6','7','8','4','2','4','5','9','e','-','0','5',' ','-','0','.','0','0','2','8','3','5','2','8','9','2','2','5','5','9','7','6',' ','0','.','0','0','1','3','5','0','6','6','5','8','0','2','4','1','6','9','5',' ','1','.','4','4','4','4','4','9','1','2','8','9','0','8','7','1','e','-','0','7',' ','2','.','7','2','3','8','8','6','8','8','5','9','7','8','8','e','-','0','7',' ','2','.','0','2','6','4','3','5','7','5','0','0','7','9','0','8','e','-','0','6',' ','9','.','9','4','6','7','7','9','0','2','6','6','9','4','e','-','0','6',' ','-','3','.','0','1','9','2','5','4','1','0','7','2','1','0','6','1','e','-','0','7',' ','5','.','1','3','1','9','5','7','5','1','8','2','8','1','2','5','e','-','0','5',' ','0','.','0','0','0','3','3','9','8','7','5','6','2','5','4','6','3','1','3','3',' ','3','.','1','9','7','8','9','8','9','3','0','1','7','0','1','1','e','-','0','9',' ','-','4','.','2','6','8','1','1','5','2','6','9','0','7','0','1','4','e','-','0','7',' ','-','1','.','9','1','3','7','7','0','3','6','1','4','3','6','0','7','e','-','0','6',' ','-','4','.','2','8','3','2','1','9','7','9','8','4','2','6','4','e','-','1','0',' ','1',' ','0','.','0','0','0','4','8','6','8','1','0','5','1','6','0','7','0','1','5','2',' ','-','0','.','0','0','0','4','1','6','4','3','7','8','0','0','9','3','6','9','4','1',' ','-','6','.','2','4','0','3','4','1','4','0','9','2','5','1','3','e','-','0','5',' ','-','9','.','6','6','6','1','1','8','7','4','6','7','3','4','7','6','e','-','0','6',' ','2','.','3','9','7','0','1','0','5','6','5','1','0','3','6','2','e','-','0','7',' ','-','5','.','1','9','8','3','8','1','7','9','9','7','5','7','7','e','-','0','8',' ','1','.','9','4','5','5','7','3','5','0','6','2','2','8','3','4','e','-','0','6',' ','-','1','.','7','2','0','7','5','9','4','5','2','8','9','0','4','5','e','-','0','5',' ','-','3','.','1','4','3','2','9','3','4','5','4','0','8','5','9','5','e','-','0','7',' ','-','5','.','5','1','8','4','8','0','5','0','7','1','4','1','6','9','e','-','0','9',' ','-','5','.','1','7','1','4','8','8','3','7','1','9','2','3','2','4','e','-','0','8',' ','-','7','.','7','0','3','4','7','0','3','8','9','6','0','9','8','e','-','0','7',' ','-','7','.','7','5','5','1','6','1','2','3','0','7','5','8','4','4','e','-','1','0',' ','4','.','4','1','9','9','2','9','1','6','7','2','9','2','5','2','e','-','0','7',' ','3','.','1','0','6','8','7','8','3','2','0','1','1','6','0','3','e','-','0','6',' ','4','.','6','5','3','9','9','5','9','4','3','2','2','1','3','9','e','-','1','0',' ','-','1','.','6','0','2','0','0','5','9','1','8','1','8','1','9','2','e','-','0','9',' ','-','9','.','1','5','9','7','8','2','6','1','3','9','9','5','6','6','e','-','0','9',' ','1','.','8','4','9','3','9','7','4','6','3','6','1','4','0','2','e','-','1','1'])]),
     (.text ['\n',' ',' ',' ',' ',' ',' ',' ',' ',' ',' ']),
     (.elem ⟨"F_ROW", none⟩ [] [(.text ['0','.','0','0','4','5','1','1','9','6','9','3','0','6','1','1','2','5','9',' ','-','0','.','0','4','9','6','9','8','5','8','1','9','5','7','7','8','2','8',' ','-','1','.','0','5','1','4','8','5','0','9','0','1','4','1','9','1',' ','0','.','0','0','1','7','9','8','3','3','5','9','0','7','7','3','3','4','6',' ','0','.','0','0','1','4','6','5','0','2','4','6','1','1','6','6','9','2','3',' ','-','2','.','5','6','9','8','3','8','4','2','6','0','2','6','1','5','e','-','0','6',' ','5','.','2','2','2','2','0','5','5','7','8','6','4','1','3','4','e','-','0','6',' ','-','0','.','0','0','0','6','4','9','2','6','3','0','5','4','5','1','8','0','3','1',' ','-','0','.','0','0','2','6','6','4','4','4','8','4','1','0','9','2','6','0','7',' ','-','6','.','4','2','9','9','9','1','9','2','9','5','4','4','0','6','e','-','0','8',' ','4','.','3','6','6','2','9','7','6','7','8','5','2','7','8','6','e','-','0','9',' ','1','.','1','7','5','3','3','4','1','5','1','6','0','6','2','5','e','-','0','6',' ','-','1','.','0','1','4','4','6','0','2','7','1','6','2','2','5','4','e','-','0','5',' ','4','.','4','7','5','7','0','4','4','2','0','0','2','5','5','2','e','-','0','7',' ','4','.','3','1','8','8','1','1','2','3','1','6','5','0','1','8','e','-','0','7',' ','2','.','4','8','6','8','9','4','1','4','1','0','1','6','8','1','e','-','0','5',' ','9','.','4','8','5','9','5','5','7','3','3','0','6','5','2','1','e','-','0','6',' ','-','3','.','3','2','7','1','6','8','1','6','8','1','0','5','3','8','e','-','0','9',' ','-','1','.','1','8','1','5','0','6','4','3','5','6','6','4','4','3','e','-','0','7',' ','-','1','.','6','1','1','6','7','2','9','5','0','5','3','9','3','7','e','-','0','8',' ','1',' ','0','.','0','0','1','7','3','2','7','3','8','0','2','4','4','1','2','3',' ','0','.','0','0','2','0','1','5','2','1','8','1','3','0','7','3','4','2','9',' ','-','2','.','7','4','8','7','8','4','5','6','9','6','9','5','5','1','e','-','0','6',' ','-','8','.','5','4','1','0','7','9','9','1','9','5','0','1','8','5','e','-','0','6',' ','4','.','9','0','1','2','4','1','9','2','4','7','6','4','9','7','e','-','0','8',' ','-','1','.','8','4','8','5','2','8','2','0','9','8','1','2','1','9','e','-','0','7',' ','-','9','.','2','4','8','7','2','5','8','8','7','1','5','2','4','7','e','-','0','6',' ','2','.','4','3','0','5','1','4','1','5','9','9','7','2','5','2','e','-','0','5',' ','-','9','.','0','3','0','4','7','6','5','7','3','0','7','2','5','2','e','-','0','6',' ','3','.','6','4','7','6','2','9','9','0','4','2','4','6','7','1','e','-','0','9',' ','-','2','.','8','1','9','0','5','6','5','8','0','0','2','9','6','2','e','-','0','8',' ','-','1','.','2','1','4','0','3','5','6','6','1','4','1','6','9','6','e','-','0','6',' ','-','2','.','9','2','3','7','7','9','7','1','3','7','7','0','3','2','e','-','0','8',' ','1','.','6','5','8','0','9','4','2','1','2','0','8','5','3','1','e','-','0','7',' ','8','.','2','1','8','5','9','4','1','4','5','1','7','8','0','1','e','-','0','7',' ','5','.','3','2','3','9','3','2','6','3','2','6','8','2','0','1','e','-','0','9',' ','-','2','.','2','7','1','2','4','3','9','4','6','7','9','8','9','8','e','-','1','0',' ','-','1','.','1','0','5','0','8','4','3','2','5','1','1','8','9','8','e','-','0','8',' ','1','.','4','5','6','1','7','3','5','5','6','9','5','8','9','9','e','-','1','1'])]),
     (.text ['\n',' ',' ',' ',' ',' ',' ',' ',' ',' ',' ']),
     (.elem ⟨"MODEL_PRECISION_ROW", none⟩ [] [(.text ['0','.','0','0','0','4','0','4','8','2','3','7','4','3','7','3','2','7','7','5','4'])]),
     (.text ['\n',' ',' ',' ',' ',' ',' ',' ',' ',' ',' ']),
     (.elem ⟨"MODEL_PRECISION_COL", none⟩ [] [(.text ['0','.','0','0','1','0','4','1','0','1','7','6','2','1','3','9','1','8','0','1'])]),
     (.text ['\n',' ',' ',' ',' ',' ',' ',' ',' '])]),
    (.text ['\n',' ',' ',' ',' ',' ',' ',' ',' ']),
    (.elem ⟨"RFM_Validity", none⟩ [] [(.text ['\n',' ',' ',' ',' ',' ',' ',' ',' ',' ',' ']),
     (.elem ⟨"Direct_Model_Validity_Domain", none⟩ [] [(.text ['\n',' ',' ',' ',' ',' ',' ',' ',' ',' ',' ',' ',' ']),
      (.elem ⟨"FIRST_ROW", none⟩ [] [(.text ['1'])]),
      (.text ['\n',' ',' ',' ',' ',' ',' ',' ',' ',' ',' ',' ',' ']),
      (.elem ⟨"FIRST_COL", none⟩ [] [(.text ['1'])]),
      (.text ['\n',' ',' ',' ',' ',' ',' ',' ',' ',' ',' ',' ',' ']),
      (.elem ⟨"LAST_ROW", none⟩ [] [(.text ['3','8','2','4','8'])]),
      (.text ['\n',' ',' ',' ',' ',' ',' ',' ',' ',' ',' ',' ',' ']),
      (.elem ⟨"LAST_COL", none⟩ [] [(.text ['4','0','0','0','0'])]),
      (.text ['\n',' ',' ',' ',' ',' ',' ',' ',' ',' ',' '])]),
     (.text ['\n',' ',' ',' ',' ',' ',' ',' ',' ',' ',' ']),
     (.elem ⟨"Inverse_Model_Validity_Domain", none⟩ [] [(.text ['\n',' ',' ',' ',' ',' ',' ',' ',' ',' ',' ',' ',' ']),
      (.elem ⟨"FIRST_LON", none⟩ [] [(.text ['2','.','1','1','1','3','9','0','7','7','7','7','6','3','9','2','2'])]),
      (.text ['\n',' ',' ',' ',' ',' ',' ',' ',' ',' ',' ',' ',' ']),
      (.elem ⟨"FIRST_LAT", none⟩ [] [(.text ['3','0','.','9','2','1','2','1','8','8','9','5','0','6','6','8','6'])]),
      (.text ['\n',' ',' ',' ',' ',' ',' ',' ',' ',' ',' ',' ',' ']),
      (.elem ⟨"LAST_LON", none⟩ [] [(.text ['2','.','3','4','9','1','5','5','6','3','8','6','7','6','9','5','9'])]),
      (.text ['\n',' ',' ',' ',' ',' ',' ',' ',' ',' ',' ',' ',' ']),
      (.elem ⟨"LAST_LAT", none⟩ [] [(.text ['3','1','.','1','1','6','1','4','0','8','7','7','9','8','9','1','3'])]),
      (.text ['\n',' ',' ',' ',' ',' ',' ',' ',' ',' ',' '])]),
     (.text ['\n',' ',' ',' ',' ',' ',' ',' ',' ',' ',' ']),
     (.elem ⟨"Lon", none⟩ [] [(.text ['\n',' ',' ',' ',' ',' ',' ',' ',' ',' ',' ',' ',' ']),
      (.elem ⟨"A", none⟩ [] [(.text ['0','.','1','1','1','8','0','5','1','8','8','6','7','8','6','4','7','5'])]),
      (.text ['\n',' ',' ',' ',' ',' ',' ',' ',' ',' ',' ',' ',' ']),
      (.elem ⟨"B", none⟩ [] [(.text ['2','.','2','3','0','2','0','6','9','4','9','7','5','5','2','9','8'])]),
      (.text ['\n',' ',' ',' ',' ',' ',' ',' ',' ',' ',' '])]),
     (.text ['\n',' ',' ',' ',' ',' ',' ',' ',' ',' ',' ']),
     (.elem ⟨"Lat", none⟩ [] [(.text ['\n',' ',' ',' ',' ',' ',' ',' ',' ',' ',' ',' ',' ']),
      (.elem ⟨"A", none⟩ [] [(.text ['0','.','0','9','5','5','4','9','9','9','1','6','2','8','5','6','9','5','9'])]),
      (.text ['\n',' ',' ',' ',' ',' ',' ',' ',' ',' ',' ',' ',' ']),
      (.elem ⟨"B", none⟩ [] [(.text ['3','1','.','0','1','8','6','7','9','8','8','6','5','2','7','9','9'])]),
      (.text ['\n',' ',' ',' ',' ',' ',' ',' ',' ',' ',' '])]),
     (.text ['\n',' ',' ',' ',' ',' ',' ',' ',' ',' ',' ']),
     (.elem ⟨"Alt", none⟩ [] [(.text ['\n',' ',' ',' ',' ',' ',' ',' ',' ',' ',' ',' ',' ']),
      (.elem ⟨"A", none⟩ [] [(.text ['8','5'])]),
      (.text ['\n',' ',' ',' ',' ',' ',' ',' ',' ',' ',' ',' ',' ']),
      (.elem ⟨"B", none⟩ [] [(.text ['5','7','5'])]),
      (.text ['\n',' ',' ',' ',' ',' ',' ',' ',' ',' ',' '])]),
     (.text ['\n',' ',' ',' ',' ',' ',' ',' ',' ',' ',' ']),
     (.elem ⟨"Col", none⟩ [] [(.text ['\n',' ',' ',' ',' ',' ',' ',' ',' ',' ',' ',' ',' ']),
      (.elem ⟨"A", none⟩ [] [(.text ['1','9','9','9','9','.','5'])]),
      (.text ['\n',' ',' ',' ',' ',' ',' ',' ',' ',' ',' ',' ',' ']),
      (.elem ⟨"B", none⟩ [] [(.text ['2','0','0','0','0','.','5'])]),
      (.text ['\n',' ',' ',' ',' ',' ',' ',' ',' ',' ',' '])]),
     (.text ['\n',' ',' ',' ',' ',' ',' ',' ',' ',' ',' ']),
     (.elem ⟨"Row", none⟩ [] [(.text ['\n',' ',' ',' ',' ',' ',' ',' ',' ',' ',' ',' ',' ']),
      (.elem ⟨"A", none⟩ [] [(.text ['1','9','1','2','3','.','5'])]),
      (.text ['\n',' ',' ',' ',' ',' ',' ',' ',' ',' ',' ',' ',' ']),
      (.elem ⟨"B", none⟩ [] [(.text ['1','9','1','2','4','.','5'])]),
      (.text ['\n',' ',' ',' ',' ',' ',' ',' ',' ',' ',' '])]),
     (.text ['\n',' ',' ',' ',' ',' ',' ',' ',' '])]),
    (.text ['\n',' ',' ',' ',' ',' ',' '])])])])])]

/-- The parameters of rpc/PHRDIMAP_P1BP--2018122638935449CP.XML, read by a separate script. -/
def dimap1Params : RpcParams ℚ :=
  { driver := ['d','i','m','a','p','_','v','1','.','4'],
    offsetAlt := 575,
    scaleAlt := 85,
    offsetY := (3101867988652799/100000000000000),
    scaleY := (9554999162856959/100000000000000000),
    offsetRow := 19124,
    scaleRow := (38247/2),
    offsetX := (1115103474877649/500000000000000),
    scaleX := (44722075471459/400000000000000),
    offsetCol := 20000,
    scaleCol := (39999/2),
    denRow := [1, (17327380244123/10000000000000000), (201521813073429/100000000000000000), (-274878456969551/100000000000000000000), (-170821598390037/20000000000000000000), (490124192476497/10000000000000000000000), (-184852820981219/1000000000000000000000), (-924872588715247/100000000000000000000), (60762853999313/2500000000000000000), (-225761914326813/25000000000000000000), (364762990424671/100000000000000000000000), (-140952829001481/5000000000000000000000), (-474232680241/390625000000000000), (-36547246422129/1250000000000000000000), (165809421208531/1000000000000000000000), (821859414517801/1000000000000000000000), (532393263268201/100000000000000000000000), (-113562197339949/500000000000000000000000), (-55254216255949/5000000000000000000000), (145617355695899/10000000000000000000000000)],
    numRow := [(451196930611259/100000000000000000), (-124246454894457/2500000000000000), (-105148509014191/100000000000000), (89916795386673/50000000000000000), (146502461166923/100000000000000000), (-51396768520523/20000000000000000000), (261110278932067/50000000000000000000), (-649263054518031/1000000000000000000), (-266444841092607/100000000000000000), (-321499596477203/5000000000000000000000), (218314883926393/50000000000000000000000), (188053464257/160000000000000000), (-50723013581127/5000000000000000000), (55946305250319/125000000000000000000), (215940561582509/500000000000000000000), (248689414101681/10000000000000000000), (948595573306521/100000000000000000000), (-166358408405269/50000000000000000000000), (-118150643566443/1000000000000000000000), (-161167295053937/10000000000000000000000)],
    denCol := [1, (60851314508769/125000000000000000), (-416437800936941/1000000000000000000), (-62403414092513/1000000000000000000), (-241652968668369/25000000000000000000), (119850528255181/500000000000000000000), (-51983817997577/1000000000000000000000), (97278675311417/50000000000000000000), (-34415189057809/2000000000000000000), (-62865869081719/200000000000000000000), (-551848050714169/100000000000000000000000), (-129287209298081/2500000000000000000000), (-38517351948049/50000000000000000000), (-193879030768961/250000000000000000000000), (110498229182313/250000000000000000000), (310687832011603/100000000000000000000), (465399594322139/1000000000000000000000000), (-10012536988637/6250000000000000000000), (-457989130699783/50000000000000000000000), (92469873180701/5000000000000000000000000)],
    numCol := [(235024480185869/100000000000000000), (100285610649079/100000000000000), (-730165403928347/1000000000000000000), (343477103057/195312500000000), (41727870226091/100000000000000000), (2324192167111/40000000000000000), (-32990467842459/1000000000000000000), (-3544111531997/1250000000000000), (27013316048339/20000000000000000), (144444912890871/1000000000000000000000), (6809717214947/25000000000000000000), (50660893751977/25000000000000000000), (4973389513347/500000000000000000), (-301925410721061/1000000000000000000000), (32844528117/640000000000000), (339875625463133/1000000000000000000), (319789893017011/100000000000000000000000), (-213405763453507/500000000000000000000), (-191377036143607/100000000000000000000), (-5354024748033/12500000000000000000000)],
    numX := some [(-234038083880009/100000000000000000), (199420268666789/200000000000000), (-42578368502371/62500000000000000), (-87607603565463/50000000000000000), (331163410152087/1000000000000000000), (-342919480226257/5000000000000000000), (-133992141164859/5000000000000000000), (141832885107133/50000000000000000), (-30552560856569/25000000000000000), (-996912334174341/10000000000000000000000), (-125375183662681/1000000000000000000000), (17548093405441/1000000000000000000), (55437864365341/25000000000000000000), (296551115170353/100000000000000000000), (266325604509049/5000000000000000000), (29037420726121/100000000000000000), (-51860928289391/20000000000000000000000), (-6831864612111/50000000000000000000), (112937371789091/1000000000000000000000), (-131768070814867/25000000000000000000000)],
    denX := some [1, (-247421941364257/500000000000000000), (-332035419899589/1000000000000000000), (128602469606023/2000000000000000000), (-798442742516013/100000000000000000000), (868238925664543/10000000000000000000000), (-12199126476879/100000000000000000000), (-467274505953261/100000000000000000000), (-102781406587007/50000000000000000000), (74339468835003/25000000000000000000), (76279086995231/20000000000000000000000), (-17799764145353/125000000000000000000), (160256455373167/1000000000000000000000), (-100731423026217/10000000000000000000000), (-50363843911369/125000000000000000000), (-84726918328201/50000000000000000000), (-198236811193859/100000000000000000000000), (243393301537633/100000000000000000000000), (13985890119793/40000000000000000000000), (194695955817701/500000000000000000000000)],
    numY := some [(220080051162719/50000000000000000), (-235622819892889/5000000000000000), (-950975221386123/1000000000000000), (22413345429187/12500000000000000), (-177789677557081/100000000000000000), (598869544515373/100000000000000000000), (13343870802469/1250000000000000000), (-48171672663449/62500000000000000), (-113154757169919/50000000000000000), (91275835207099/5000000000000000000000), (141301683941943/500000000000000000000), (-14365180317817/3125000000000000000), (-264399200939119/10000000000000000000), (-458635994309347/1000000000000000000000), (-66493197385249/5000000000000000000), (-398738185766013/10000000000000000000), (-925010073375223/100000000000000000000), (49813950346123/250000000000000000000), (656041562770339/10000000000000000000000), (6996336031083/400000000000000000000)],
    denY := some [1, (-75988490683053/50000000000000000), (9749374582209/5000000000000000), (63503698780449/25000000000000000000), (-107292310509439/10000000000000000000), (5315307950327/31250000000000000000), (-198098581432367/10000000000000000000000), (53610860613573/20000000000000000000), (-110924474151/7812500000000000), (24296394219677/2500000000000000000), (251455658226489/50000000000000000000000), (-17607566196721/100000000000000000000), (208283797941359/1000000000000000000000), (-40041471449489/1250000000000000000000), (-25487365901099/100000000000000000000), (-502623385848807/1000000000000000000000), (-114463017946403/25000000000000000000000), (23923495484857/20000000000000000000000), (141990846833347/20000000000000000000000), (931772564634481/10000000000000000000000000)] }

/-- `rpc_reader` of the model reads these parameters in the file (test_rpc_drivers: the driver). -/
theorem dimap1_read :
    rpcReader (textEnv (some dimap1)) (oneFile ['r','p','c','/','P','H','R','D','I','M','A','P','_','P','1','B','P','-','-','2','0','1','8','1','2','2','6','3','8','9','3','5','4','4','9','C','P','.','X','M','L'] []) ['r','p','c','/','P','H','R','D','I','M','A','P','_','P','1','B','P','-','-','2','0','1','8','1','2','2','6','3','8','9','3','5','4','4','9','C','P','.','X','M','L'] true = .ok dimap1Params := by
  decide +kernel

/-- `test_rpc_drivers`. -/
example : dimap1Params.driver = ['d','i','m','a','p','_','v','1','.','4'] := by
  decide +kernel

/-- `test_rpc_minmax`. -/
example : rpcAltMinMax (rpcOfParams dimap1Params) = (1065 / 2, 1235 / 2) := by
  decide +kernel

/-- `test_rpc_phrdimap`: the direct model, then the inverse one. -/
example : thenInverse (2 / 100) 200 600 (rpcOfParams dimap1Params)
    (directLocH (rpcOfParams dimap1Params) [some 200] [some 600] [some 125] false true) = true := by
  decide +kernel

/-- `test_rpc_phrdimap` with the iterative direct location. -/
example : thenInverse (1 / 10 ^ 9) 200 600 (rpcOfParams dimap1Params)
    (directR (rpcOfParams dimap1Params) [some 200] [some 600] [some 125]) = true := by
  decide +kernel

/-- `test_rpc_direct_inverse_iterative`: the direct model and the iteration. -/
example : bothNear (10 / 111111000) (directLocH (rpcOfParams dimap1Params) [some 200] [some 600] [some 125] false true)
    (directR (rpcOfParams dimap1Params) [some 200] [some 600] [some 125]) = true := by
  decide +kernel

/-- `test_rpc_direct_iterative_all_nan`. -/
example : directLocH (rpcOfParams dimap1Params) [none, none] [none, none] [some 125] false false = .ok [⟨none, none, none⟩, ⟨none, none, none⟩] := by
  decide +kernel

/-- `test_geomodel_check_lonlat`. -/
example : checkLonLat [⟨some 10, some 20, some 100⟩, ⟨none, some 20, some 100⟩, ⟨some 10, some (-5), none⟩, ⟨none, none, none⟩,
      ⟨some 185, some 20, some 100⟩, ⟨some 100, some (-95), some 100⟩, ⟨some (-185), some 20, some 100⟩, ⟨some 100, some 95, some 100⟩] =
    (⟨some 10, some 20, some 100⟩ : ORow ℚ) :: List.replicate 7 nanRow := by
  decide +kernel

/-- The lines of fake_rpc.txt. -/
def fakeRpc : Text :=
  [['F','A','K','E']]

/-- `test_rpc_drivers`: ValueError. -/
example : isErr (rpcReader (textEnv none) (oneFile ['r','p','c','/','f','a','k','e','_','r','p','c','.','t','x','t'] fakeRpc) ['r','p','c','/','f','a','k','e','_','r','p','c','.','t','x','t'] true) = true := by
  decide +kernel


end Shareloc.Validation
