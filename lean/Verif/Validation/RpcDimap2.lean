import Verif.Validation.Support

/-!
Written by tools/validation.py from the DIMAP v2 file of tests/data/rpc and tests/geomodels/test_rpc.py of /repo.  The model evaluated on the data of the tests: a check of the model
against the reference values of the repository, not a proof of a property.
-/

set_option maxRecDepth 100000

namespace Shareloc.Validation

/-- The document of RPC_PHR1B_P_201709281038393_SEN_PRG_FC_178609-001.XML. -/
def dimap178609 : Xml :=
  .elem ⟨"#document", none⟩ [] [(.elem ⟨"Dimap_Document", none⟩ [] [(.text ['\n',' ',' ']),
 (.elem ⟨"Metadata_Identification", none⟩ [] [(.text ['\n',' ',' ',' ',' ']),
  (.elem ⟨"METADATA_FORMAT", none⟩ [['2','.','1','5']] [(.text ['D','I','M','A','P'])]),
  (.text ['\n',' ',' ',' ',' ']),
  (.elem ⟨"METADATA_PROFILE", none⟩ [] [(.text ['P','H','R','_','S','E','N','S','O','R'])]),
  (.text ['\n',' ',' ',' ',' ']),
  (.elem ⟨"METADATA_SUBPROFILE", none⟩ [] [(.text ['R','P','C'])]),
  (.text ['\n',' ',' ',' ',' ']),
  (.elem ⟨"METADATA_LANGUAGE", none⟩ [] [(.text ['e','n'])]),
  (.text ['\n',' ',' '])]),
 (.text ['\n',' ',' ']),
 (.elem ⟨"Rational_Function_Model", none⟩ [] [(.text ['\n',' ',' ',' ',' ']),
  (.elem ⟨"Resource_Reference", none⟩ [] [(.text ['\n',' ',' ',' ',' ',' ',' ']),
   (.elem ⟨"RESOURCE_TITLE", none⟩ [['2','.','1']] [(.text ['N','I','T','F'])]),
   (.text ['\n',' ',' ',' ',' ',' ',' ']),
   (.elem ⟨"RESOURCE_ID", none⟩ [] [(.text ['R','P','C','0','0','B'])]),
   (.text ['\n',' ',' ',' ',' '])]),
  (.text ['\n',' ',' ',' ',' ']),
  (.elem ⟨"Global_RFM", none⟩ [] [(.text ['\n',' ',' ',' ',' ',' ',' ']),
   (.elem ⟨"Direct_Model", none⟩ [] [(.text ['\n',' ',' ',' ',' ',' ',' ',' ',' ']),
    (.elem ⟨"SAMP_NUM_COEFF_", some 1⟩ [] [(.text ['-','0','.','0','0','3','7','0','0','3','5','2','2','9','3','5','6','0','9','1'])]),
    (.text ['\n',' ',' ',' ',' ',' ',' ',' ',' ']),
    (.elem ⟨"SAMP_NUM_COEFF_", some 2⟩ [] [(.text ['0','.','9','8','8','5','0','2','8','8','4','2','2','2','5','4','6'])]),
    (.text ['\n',' ',' ',' ',' ',' ',' ',' ',' ']),
    (.elem ⟨"SAMP_NUM_COEFF_", some 3⟩ [] [(.text ['-','9','.','9','8','4','9','4','5','9','0','3','4','9','9','5','3','e','-','0','5'])]),
    (.text ['\n',' ',' ',' ',' ',' ',' ',' ',' ']),
    (.elem ⟨"SAMP_NUM_COEFF_", some 4⟩ [] [(.text ['-','0','.','0','1','1','2','0','0','3','7','7','5','1','0','0','3','9','9'])]),
    (.text ['\n',' ',' ',' ',' ',' ',' ',' ',' ']),
    (.elem ⟨"SAMP_NUM_COEFF_", some 5⟩ [] [(.text ['-','0','.','0','0','0','1','1','8','9','9','9','5','5','8','5','3','6','9','8','7'])]),
    (.text ['\n',' ',' ',' ',' ',' ',' ',' ',' ']),
    (.elem ⟨"SAMP_NUM_COEFF_", some 6⟩ [] [(.text ['-','0','.','0','0','0','5','3','4','4','8','9','4','9','3','5','1','3','5','9','1'])]),
    (.text ['\n',' ',' ',' ',' ',' ',' ',' ',' ']),
    (.elem ⟨"SAMP_NUM_COEFF_", some 7⟩ [] [(.text ['-','0','.','0','0','0','1','3','0','6','1','0','7','8','3','4','4','6','4','0','6'])]),
    (.text ['\n',' ',' ',' ',' ',' ',' ',' ',' ']),
    (.elem ⟨"SAMP_NUM_COEFF_", some 8⟩ [] [(.text ['0','.','0','0','3','3','1','2','2','8','7','0','9','3','2','8','5','8','8'])]),
    (.text ['\n',' ',' ',' ',' ',' ',' ',' ',' ']),
    (.elem ⟨"SAMP_NUM_COEFF_", some 9⟩ [] [(.text ['-','0','.','0','0','0','4','0','9','4','5','8','7','3','0','2','7','5','5','0','9'])]),
    (.text ['\n',' ',' ',' ',' ',' ',' ',' ',' ']),
    (.elem ⟨"SAMP_NUM_COEFF_", some 10⟩ [] [(.text ['-','4','.','0','8','6','1','7','8','6','0','9','3','4','4','1','2','e','-','0','6'])]),
    (.text ['\n',' ',' ',' ',' ',' ',' ',' ',' ']),
    (.elem ⟨"SAMP_NUM_COEFF_", some 11⟩ [] [(.text ['6','.','3','7','0','3','8','0','8','4','5','3','3','5','8','6','e','-','0','9'])]),
    (.text ['\n',' ',' ',' ',' ',' ',' ',' ',' ']),
    (.elem ⟨"SAMP_NUM_COEFF_", some 12⟩ [] [(.text ['1','.','9','3','8','4','0','3','1','2','0','1','4','9','0','3','e','-','0','5'])]),
    (.text ['\n',' ',' ',' ',' ',' ',' ',' ',' ']),
    (.elem ⟨"SAMP_NUM_COEFF_", some 13⟩ [] [(.text ['1','.','5','4','8','7','0','2','5','4','5','6','5','5','4','6','e','-','0','6'])]),
    (.text ['\n',' ',' ',' ',' ',' ',' ',' ',' ']),
    (.elem ⟨"SAMP_NUM_COEFF_", some 14⟩ [] [(.text ['2','.','4','2','7','0','9','1','1','4','0','9','9','1','1','1','e','-','0','6'])]),
    (.text ['\n',' ',' ',' ',' ',' ',' ',' ',' ']),
    (.elem ⟨"SAMP_NUM_COEFF_", some 15⟩ [] [(.text ['9','.','2','3','1','8','4','0','1','0','5','0','2','2','7','1','e','-','0','6'])]),
    (.text ['\n',' ',' ',' ',' ',' ',' ',' ',' ']),
    (.elem ⟨"SAMP_NUM_COEFF_", some 16⟩ [] [(.text ['-','0','.','0','0','0','1','4','6','4','7','9','6','4','3','4','6','3','2','1','5'])]),
    (.text ['\n',' ',' ',' ',' ',' ',' ',' ',' ']),
    (.elem ⟨"SAMP_NUM_COEFF_", some 17⟩ [] [(.text ['-','4','.','6','4','8','5','4','9','4','3','6','0','1','9','6','5','e','-','0','8'])]),
    (.text ['\n',' ',' ',' ',' ',' ',' ',' ',' ']),
    (.elem ⟨"SAMP_NUM_COEFF_", some 18⟩ [] [(.text ['-','1','.','8','1','6','5','3','0','9','5','9','2','0','0','6','2','e','-','0','6'])]),
    (.text ['\n',' ',' ',' ',' ',' ',' ',' ',' ']),
    (.elem ⟨"SAMP_NUM_COEFF_", some 19⟩ [] [(.text ['2','.','9','1','7','9','6','1','5','3','3','1','2','1','7','3','e','-','0','7'])]),
    (.text ['\n',' ',' ',' ',' ',' ',' ',' ',' ']),
    (.elem ⟨"SAMP_NUM_COEFF_", some 20⟩ [] [(.text ['-','3','.','1','5','1','0','4','9','3','2','0','8','2','2','5','8','e','-','0','8'])]),
    (.text ['\n',' ',' ',' ',' ',' ',' ',' ',' ']),
    (.elem ⟨"SAMP_DEN_COEFF_", some 1⟩ [] [(.text ['1'])]),
    (.text ['\n',' ',' ',' ',' ',' ',' ',' ',' ']),
    (.elem ⟨"SAMP_DEN_COEFF_", some 2⟩ [] [(.text ['0','.','0','0','0','3','7','7','5','3','9','3','3','1','2','6','7','3','0','2'])]),
    (.text ['\n',' ',' ',' ',' ',' ',' ',' ',' ']),
    (.elem ⟨"SAMP_DEN_COEFF_", some 3⟩ [] [(.text ['0','.','0','0','0','1','1','5','2','1','7','0','1','4','2','6','3','1','9','8'])]),
    (.text ['\n',' ',' ',' ',' ',' ',' ',' ',' ']),
    (.elem ⟨"SAMP_DEN_COEFF_", some 4⟩ [] [(.text ['0','.','0','0','0','4','8','6','8','8','4','2','2','2','8','4','5','4','8','6'])]),
    (.text ['\n',' ',' ',' ',' ',' ',' ',' ',' ']),
    (.elem ⟨"SAMP_DEN_COEFF_", some 5⟩ [] [(.text ['-','1','.','7','8','1','3','0','4','3','0','5','4','5','9','8','1','e','-','0','5'])]),
    (.text ['\n',' ',' ',' ',' ',' ',' ',' ',' ']),
    (.elem ⟨"SAMP_DEN_COEFF_", some 6⟩ [] [(.text ['6','.','2','6','5','0','8','2','8','6','3','8','3','5','9','e','-','0','7'])]),
    (.text ['\n',' ',' ',' ',' ',' ',' ',' ',' ']),
    (.elem ⟨"SAMP_DEN_COEFF_", some 7⟩ [] [(.text ['-','1','.','5','4','9','5','1','1','9','6','7','7','2','8','4','7','e','-','0','7'])]),
    (.text ['\n',' ',' ',' ',' ',' ',' ',' ',' ']),
    (.elem ⟨"SAMP_DEN_COEFF_", some 8⟩ [] [(.text ['-','2','.','7','4','8','8','0','7','2','0','8','6','6','5','1','1','e','-','0','6'])]),
    (.text ['\n',' ',' ',' ',' ',' ',' ',' ',' ']),
    (.elem ⟨"SAMP_DEN_COEFF_", some 9⟩ [] [(.text ['-','4','.','3','6','4','9','5','4','8','2','8','4','8','1','0','4','e','-','0','7'])]),
    (.text ['\n',' ',' ',' ',' ',' ',' ',' ',' ']),
    (.elem ⟨"SAMP_DEN_COEFF_", some 10⟩ [] [(.text ['2','.','8','2','2','4','4','3','9','1','2','1','0','9','1','e','-','0','6'])]),
    (.text ['\n',' ',' ',' ',' ',' ',' ',' ',' ']),
    (.elem ⟨"SAMP_DEN_COEFF_", some 11⟩ [] [(.text ['-','2','.','3','2','7','1','2','5','7','0','7','9','9','3','4','2','e','-','0','9'])]),
    (.text ['\n',' ',' ',' ',' ',' ',' ',' ',' ']),
    (.elem ⟨"SAMP_DEN_COEFF_", some 12⟩ [] [(.text ['-','1','.','3','9','9','5','9','2','7','9','3','0','0','0','5','9','e','-','0','7'])]),
    (.text ['\n',' ',' ',' ',' ',' ',' ',' ',' ']),
    (.elem ⟨"SAMP_DEN_COEFF_", some 13⟩ [] [(.text ['1','.','0','2','2','3','2','1','0','0','4','9','1','9','7','1','e','-','0','7'])]),
    (.text ['\n',' ',' ',' ',' ',' ',' ',' ',' ']),
    (.elem ⟨"SAMP_DEN_COEFF_", some 14⟩ [] [(.text ['-','7','.','0','8','7','0','6','6','3','2','4','8','1','6','0','6','e','-','0','9'])]),
    (.text ['\n',' ',' ',' ',' ',' ',' ',' ',' ']),
    (.elem ⟨"SAMP_DEN_COEFF_", some 15⟩ [] [(.text ['-','1','.','3','7','1','6','9','1','9','0','6','8','7','3','0','1','e','-','0','7'])]),
    (.text ['\n',' ',' ',' ',' ',' ',' ',' ',' ']),
    (.elem ⟨"SAMP_DEN_COEFF_", some 16⟩ [] [(.text ['2','.','9','3','8','9','8','4','9','5','9','5','5','3','8','2','e','-','0','6'])]),
    (.text ['\n',' ',' ',' ',' ',' ',' ',' ',' ']),
    (.elem ⟨"SAMP_DEN_COEFF_", some 17⟩ [] [(.text ['4','.','8','9','9','3','3','6','8','6','1','6','5','9','8','4','e','-','1','0'])]),
    (.text ['\n',' ',' ',' ',' ',' ',' ',' ',' ']),
    (.elem ⟨"SAMP_DEN_COEFF_", some 18⟩ [] [(.text ['2','.','1','8','8','4','2','9','2','6','7','3','1','2','7','3','e','-','0','8'])]),
    (.text ['\n',' ',' ',' ',' ',' ',' ',' ',' ']),
    (.elem ⟨"SAMP_DEN_COEFF_", some 19⟩ [] [(.text ['-','2','.','3','4','7','0','1','0','6','3','5','3','8','8','9','5','e','-','1','0'])]),
    (.text ['\n',' ',' ',' ',' ',' ',' ',' ',' ']),
    (.elem ⟨"SAMP_DEN_COEFF_", some 20⟩ [] [(.text ['2','.','8','1','8','4','6','5','5','3','8','9','2','6','4','9','e','-','0','9'])]),
    (.text ['\n',' ',' ',' ',' ',' ',' ',' ',' ']),
    (.elem ⟨"LINE_NUM_COEFF_", some 1⟩ [] [(.text ['-','0','.','0','0','1','9','3','0','1','9','2','0','7','6','2','4','7','8','1'])]),
    (.text ['\n',' ',' ',' ',' ',' ',' ',' ',' ']),
    (.elem ⟨"LINE_NUM_COEFF_", some 2⟩ [] [(.text ['0','.','0','6','3','1','8','1','2','3','6','8','6','3','9','8','1','6'])]),
    (.text ['\n',' ',' ',' ',' ',' ',' ',' ',' ']),
    (.elem ⟨"LINE_NUM_COEFF_", some 3⟩ [] [(.text ['-','0','.','9','1','5','4','4','7','8','4','7','1','7','9','7','3','1'])]),
    (.text ['\n',' ',' ',' ',' ',' ',' ',' ',' ']),
    (.elem ⟨"LINE_NUM_COEFF_", some 4⟩ [] [(.text ['-','0','.','0','2','0','6','8','5','6','8','5','4','3','6','3','0','2','5'])]),
    (.text ['\n',' ',' ',' ',' ',' ',' ',' ',' ']),
    (.elem ⟨"LINE_NUM_COEFF_", some 5⟩ [] [(.text ['-','0','.','0','0','1','4','6','7','3','9','9','4','0','5','9','2','1','3','9'])]),
    (.text ['\n',' ',' ',' ',' ',' ',' ',' ',' ']),
    (.elem ⟨"LINE_NUM_COEFF_", some 6⟩ [] [(.text ['-','1','.','5','7','9','9','9','8','8','2','1','3','1','9','6','6','e','-','0','5'])]),
    (.text ['\n',' ',' ',' ',' ',' ',' ',' ',' ']),
    (.elem ⟨"LINE_NUM_COEFF_", some 7⟩ [] [(.text ['6','.','4','9','0','4','7','2','5','2','3','6','7','1','7','8','e','-','0','5'])]),
    (.text ['\n',' ',' ',' ',' ',' ',' ',' ',' ']),
    (.elem ⟨"LINE_NUM_COEFF_", some 8⟩ [] [(.text ['-','0','.','0','0','0','8','7','8','3','6','5','4','6','7','3','0','2','3','0','5'])]),
    (.text ['\n',' ',' ',' ',' ',' ',' ',' ',' ']),
    (.elem ⟨"LINE_NUM_COEFF_", some 9⟩ [] [(.text ['0','.','0','0','0','9','0','9','6','4','7','4','0','3','4','4','1','2','8','9'])]),
    (.text ['\n',' ',' ',' ',' ',' ',' ',' ',' ']),
    (.elem ⟨"LINE_NUM_COEFF_", some 10⟩ [] [(.text ['1','.','2','5','5','5','1','3','1','1','5','2','0','1','4','9','e','-','0','6'])]),
    (.text ['\n',' ',' ',' ',' ',' ',' ',' ',' ']),
    (.elem ⟨"LINE_NUM_COEFF_", some 11⟩ [] [(.text ['1','.','7','3','0','2','8','0','4','3','6','2','5','0','6','9','e','-','0','6'])]),
    (.text ['\n',' ',' ',' ',' ',' ',' ',' ',' ']),
    (.elem ⟨"LINE_NUM_COEFF_", some 12⟩ [] [(.text ['1','.','6','4','5','3','4','5','9','7','1','9','6','4','3','2','e','-','0','6'])]),
    (.text ['\n',' ',' ',' ',' ',' ',' ',' ',' ']),
    (.elem ⟨"LINE_NUM_COEFF_", some 13⟩ [] [(.text ['-','1','.','4','6','3','4','1','6','5','7','2','2','4','1','4','7','e','-','0','5'])]),
    (.text ['\n',' ',' ',' ',' ',' ',' ',' ',' ']),
    (.elem ⟨"LINE_NUM_COEFF_", some 14⟩ [] [(.text ['7','.','9','5','6','2','0','0','6','9','0','4','4','5','1','4','e','-','0','6'])]),
    (.text ['\n',' ',' ',' ',' ',' ',' ',' ',' ']),
    (.elem ⟨"LINE_NUM_COEFF_", some 15⟩ [] [(.text ['-','7','.','7','7','1','7','5','4','9','6','4','8','9','9','0','8','e','-','0','5'])]),
    (.text ['\n',' ',' ',' ',' ',' ',' ',' ',' ']),
    (.elem ⟨"LINE_NUM_COEFF_", some 16⟩ [] [(.text ['-','0','.','0','0','0','4','7','0','1','9','5','0','1','4','7','7','2','1','1','6'])]),
    (.text ['\n',' ',' ',' ',' ',' ',' ',' ',' ']),
    (.elem ⟨"LINE_NUM_COEFF_", some 17⟩ [] [(.text ['-','0','.','0','0','0','1','1','6','1','3','1','7','0','3','0','2','0','0','3','8'])]),
    (.text ['\n',' ',' ',' ',' ',' ',' ',' ',' ']),
    (.elem ⟨"LINE_NUM_COEFF_", some 18⟩ [] [(.text ['2','.','7','4','6','1','6','7','5','5','2','4','2','4','4','9','e','-','0','7'])]),
    (.text ['\n',' ',' ',' ',' ',' ',' ',' ',' ']),
    (.elem ⟨"LINE_NUM_COEFF_", some 19⟩ [] [(.text ['3','.','2','4','0','5','5','6','5','1','9','4','6','9','6','3','e','-','0','6'])]),
    (.text ['\n',' ',' ',' ',' ',' ',' ',' ',' ']),
    (.elem ⟨"LINE_NUM_COEFF_", some 20⟩ [] [(.text ['-','2','.','6','2','2','3','6','7','1','9','8','3','2','0','3','3','e','-','0','6'])]),
    (.text ['\n',' ',' ',' ',' ',' ',' ',' ',' ']),
    (.elem ⟨"LINE_DEN_COEFF_", some 1⟩ [] [(.text ['1'])]),
    (.text ['\n',' ',' ',' ',' ',' ',' ',' ',' ']),
    (.elem ⟨"LINE_DEN_COEFF_", some 2⟩ [] [(.text ['-','0','.','0','0','1','1','6','6','1','5','1','9','7','1','9','2','9','9','5'])]),
    (.text ['\n',' ',' ',' ',' ',' ',' ',' ',' ']),
    (.elem ⟨"LINE_DEN_COEFF_", some 3⟩ [] [(.text ['-','0','.','0','0','0','8','4','0','3','9','7','8','2','3','4','0','5','9','2','3'])]),
    (.text ['\n',' ',' ',' ',' ',' ',' ',' ',' ']),
    (.elem ⟨"LINE_DEN_COEFF_", some 4⟩ [] [(.text ['2','.','0','3','1','2','1','6','0','3','4','9','8','7','1','2','e','-','0','5'])]),
    (.text ['\n',' ',' ',' ',' ',' ',' ',' ',' ']),
    (.elem ⟨"LINE_DEN_COEFF_", some 5⟩ [] [(.text ['-','1','.','2','8','7','8','3','7','3','2','2','2','6','1','1','5','e','-','0','5'])]),
    (.text ['\n',' ',' ',' ',' ',' ',' ',' ',' ']),
    (.elem ⟨"LINE_DEN_COEFF_", some 6⟩ [] [(.text ['1','.','4','2','5','7','9','8','8','7','1','7','2','2','3','2','e','-','0','6'])]),
    (.text ['\n',' ',' ',' ',' ',' ',' ',' ',' ']),
    (.elem ⟨"LINE_DEN_COEFF_", some 7⟩ [] [(.text ['1','.','8','3','3','9','4','2','9','8','9','0','7','2','3','1','e','-','0','6'])]),
    (.text ['\n',' ',' ',' ',' ',' ',' ',' ',' ']),
    (.elem ⟨"LINE_DEN_COEFF_", some 8⟩ [] [(.text ['8','.','2','4','6','6','1','7','4','1','3','2','9','3','8','3','e','-','0','5'])]),
    (.text ['\n',' ',' ',' ',' ',' ',' ',' ',' ']),
    (.elem ⟨"LINE_DEN_COEFF_", some 9⟩ [] [(.text ['-','0','.','0','0','0','2','4','7','8','6','9','0','1','1','5','9','6','5','7','4'])]),
    (.text ['\n',' ',' ',' ',' ',' ',' ',' ',' ']),
    (.elem ⟨"LINE_DEN_COEFF_", some 10⟩ [] [(.text ['0','.','0','0','0','1','2','6','7','3','3','2','2','7','4','8','7','6','7','8'])]),
    (.text ['\n',' ',' ',' ',' ',' ',' ',' ',' ']),
    (.elem ⟨"LINE_DEN_COEFF_", some 11⟩ [] [(.text ['1','.','0','0','9','3','2','4','6','1','8','0','2','8','5','1','e','-','0','7'])]),
    (.text ['\n',' ',' ',' ',' ',' ',' ',' ',' ']),
    (.elem ⟨"LINE_DEN_COEFF_", some 12⟩ [] [(.text ['-','2','.','9','4','1','9','5','5','1','7','8','1','1','8','1','1','e','-','0','7'])]),
    (.text ['\n',' ',' ',' ',' ',' ',' ',' ',' ']),
    (.elem ⟨"LINE_DEN_COEFF_", some 13⟩ [] [(.text ['-','1','.','6','1','8','4','0','8','6','3','4','4','1','2','9','9','e','-','0','6'])]),
    (.text ['\n',' ',' ',' ',' ',' ',' ',' ',' ']),
    (.elem ⟨"LINE_DEN_COEFF_", some 14⟩ [] [(.text ['-','3','.','3','8','7','5','8','8','5','2','1','8','4','0','4','2','e','-','0','7'])]),
    (.text ['\n',' ',' ',' ',' ',' ',' ',' ',' ']),
    (.elem ⟨"LINE_DEN_COEFF_", some 15⟩ [] [(.text ['5','.','2','8','1','8','4','9','4','0','4','5','0','5','4','5','e','-','0','8'])]),
    (.text ['\n',' ',' ',' ',' ',' ',' ',' ',' ']),
    (.elem ⟨"LINE_DEN_COEFF_", some 16⟩ [] [(.text ['6','.','0','1','8','2','0','7','3','8','3','1','8','1','6','e','-','0','7'])]),
    (.text ['\n',' ',' ',' ',' ',' ',' ',' ',' ']),
    (.elem ⟨"LINE_DEN_COEFF_", some 17⟩ [] [(.text ['3','.','7','1','4','7','0','6','7','8','2','2','5','3','6','6','e','-','0','9'])]),
    (.text ['\n',' ',' ',' ',' ',' ',' ',' ',' ']),
    (.elem ⟨"LINE_DEN_COEFF_", some 18⟩ [] [(.text ['5','.','4','5','3','9','7','8','1','8','3','5','9','9','2','3','e','-','0','9'])]),
    (.text ['\n',' ',' ',' ',' ',' ',' ',' ',' ']),
    (.elem ⟨"LINE_DEN_COEFF_", some 19⟩ [] [(.text ['7','.','1','2','9','0','9','5','7','9','8','1','0','4','1','3','e','-','0','7'])]),
    (.text ['\n',' ',' ',' ',' ',' ',' ',' ',' ']),
    (.elem ⟨"LINE_DEN_COEFF_", some 20⟩ [] [(.text ['8','.','9','7','4','4','9','9','3','0','8','9','6','7','5','2','e','-','0','9'])]),
    (.text ['\n',' ',' ',' ',' ',' ',' ',' ',' ']),
    (.elem ⟨"ERR_BIAS_X", none⟩ [] [(.text ['0','.','0','0','1','0','1','3','5','4','6','7','6','4','9','9','7','5','4','9'])]),
    (.text ['\n',' ',' ',' ',' ',' ',' ',' ',' ']),
    (.elem ⟨"ERR_BIAS_Y", none⟩ [] [(.text ['0','.','0','0','0','4','7','8','4','0','4','2','5','4','5','3','9','3','1','6','4'])]),
    (.text ['\n',' ',' ',' ',' ',' ',' '])]),
   (.text ['\n',' ',' ',' ',' ',' ',' ']),
   (.elem ⟨"Inverse_Model", none⟩ [] [(.text ['\n',' ',' ',' ',' ',' ',' ',' ',' ']),
    (.elem ⟨"SAMP_NUM_COEFF_", some 1⟩ [] [(.text ['0','.','0','0','3','7','4','3','2','1','4','5','6','5','0','0','4','8','7'])]),
    (.text ['\n',' ',' ',' ',' ',' ',' ',' ',' ']),
    (.elem ⟨"SAMP_NUM_COEFF_", some 2⟩ [] [(.text ['1','.','0','1','1','6','1','2','0','1','5','4','9','3','0','5'])]),
    (.text ['\n',' ',' ',' ',' ',' ',' ',' ',' ']),
    (.elem ⟨"SAMP_NUM_COEFF_", some 3⟩ [] [(.text ['-','0','.','0','0','0','1','0','8','6','5','0','1','7','6','2','5','5','1','3','5'])]),
    (.text ['\n',' ',' ',' ',' ',' ',' ',' ',' ']),
    (.elem ⟨"SAMP_NUM_COEFF_", some 4⟩ [] [(.text ['0','.','0','1','1','3','2','8','0','7','1','3','0','9','1','7','9','3'])]),
    (.text ['\n',' ',' ',' ',' ',' ',' ',' ',' ']),
    (.elem ⟨"SAMP_NUM_COEFF_", some 5⟩ [] [(.text ['-','0','.','0','0','0','1','5','8','4','0','0','3','4','8','2','0','5','9','8','1'])]),
    (.text ['\n',' ',' ',' ',' ',' ',' ',' ',' ']),
    (.elem ⟨"SAMP_NUM_COEFF_", some 6⟩ [] [(.text ['0','.','0','0','0','4','5','6','1','6','5','2','9','4','7','2','9','9','4','1'])]),
    (.text ['\n',' ',' ',' ',' ',' ',' ',' ',' ']),
    (.elem ⟨"SAMP_NUM_COEFF_", some 7⟩ [] [(.text ['-','0','.','0','0','0','1','2','4','2','4','6','2','5','8','8','7','2','5','3','2'])]),
    (.text ['\n',' ',' ',' ',' ',' ',' ',' ',' ']),
    (.elem ⟨"SAMP_NUM_COEFF_", some 8⟩ [] [(.text ['-','0','.','0','0','3','3','9','0','5','2','3','1','9','6','4','4','3','6','8'])]),
    (.text ['\n',' ',' ',' ',' ',' ',' ',' ',' ']),
    (.elem ⟨"SAMP_NUM_COEFF_", some 9⟩ [] [(.text ['0','.','0','0','0','4','9','2','6','0','2','8','7','4','3','9','4','2','6'])]),
    (.text ['\n',' ',' ',' ',' ',' ',' ',' ',' ']),
    (.elem ⟨"SAMP_NUM_COEFF_", some 10⟩ [] [(.text ['1','.','3','9','3','8','2','1','6','3','4','5','8','5','8','6','e','-','0','6'])]),
    (.text ['\n',' ',' ',' ',' ',' ',' ',' ',' ']),
    (.elem ⟨"SAMP_NUM_COEFF_", some 11⟩ [] [(.text ['1','.','5','2','1','8','4','2','9','3','0','7','8','9','2','5','e','-','0','6'])]),
    (.text ['\n',' ',' ',' ',' ',' ',' ',' ',' ']),
    (.elem ⟨"SAMP_NUM_COEFF_", some 12⟩ [] [(.text ['2','.','6','9','1','4','2','7','2','6','7','2','9','6','4','3','e','-','0','6'])]),
    (.text ['\n',' ',' ',' ',' ',' ',' ',' ',' ']),
    (.elem ⟨"SAMP_NUM_COEFF_", some 13⟩ [] [(.text ['1','.','2','5','2','8','2','6','7','9','8','2','5','3','4','2','e','-','0','5'])]),
    (.text ['\n',' ',' ',' ',' ',' ',' ',' ',' ']),
    (.elem ⟨"SAMP_NUM_COEFF_", some 14⟩ [] [(.text ['-','7','.','4','3','6','2','7','5','7','0','4','7','1','5','2','4','e','-','0','7'])]),
    (.text ['\n',' ',' ',' ',' ',' ',' ',' ',' ']),
    (.elem ⟨"SAMP_NUM_COEFF_", some 15⟩ [] [(.text ['1','.','2','5','5','9','1','7','9','6','2','0','2','9','9','9','e','-','0','5'])]),
    (.text ['\n',' ',' ',' ',' ',' ',' ',' ',' ']),
    (.elem ⟨"SAMP_NUM_COEFF_", some 16⟩ [] [(.text ['-','0','.','0','0','0','1','9','2','6','9','3','2','8','2','6','4','5','2','9','8'])]),
    (.text ['\n',' ',' ',' ',' ',' ',' ',' ',' ']),
    (.elem ⟨"SAMP_NUM_COEFF_", some 17⟩ [] [(.text ['-','3','.','1','3','4','8','1','9','9','4','3','5','3','2','4','5','e','-','0','7'])]),
    (.text ['\n',' ',' ',' ',' ',' ',' ',' ',' ']),
    (.elem ⟨"SAMP_NUM_COEFF_", some 18⟩ [] [(.text ['-','2','.','9','3','3','8','7','3','1','2','5','0','7','2','9','7','e','-','0','6'])]),
    (.text ['\n',' ',' ',' ',' ',' ',' ',' ',' ']),
    (.elem ⟨"SAMP_NUM_COEFF_", some 19⟩ [] [(.text ['-','1','.','2','0','4','2','5','6','9','8','6','9','7','7','7','e','-','0','5'])]),
    (.text ['\n',' ',' ',' ',' ',' ',' ',' ',' ']),
    (.elem ⟨"SAMP_NUM_COEFF_", some 20⟩ [] [(.text ['-','1','.','0','8','9','7','0','8','6','6','3','8','9','1','6','1','e','-','0','8'])]),
    (.text ['\n',' ',' ',' ',' ',' ',' ',' ',' ']),
    (.elem ⟨"SAMP_DEN_COEFF_", some 1⟩ [] [(.text ['1'])]),
    (.text ['\n',' ',' ',' ',' ',' ',' ',' ',' ']),
    (.elem ⟨"SAMP_DEN_COEFF_", some 2⟩ [] [(.text ['-','0','.','0','0','0','3','6','2','0','1','3','7','3','2','7','3','9','1','6','2'])]),
    (.text ['\n',' ',' ',' ',' ',' ',' ',' ',' ']),
    (.elem ⟨"SAMP_DEN_COEFF_", some 3⟩ [] [(.text ['0','.','0','0','0','1','6','1','9','3','6','4','6','3','8','4','8','8','2','9'])]),
    (.text ['\n',' ',' ',' ',' ',' ',' ',' ',' ']),
    (.elem ⟨"SAMP_DEN_COEFF_", some 4⟩ [] [(.text ['-','0','.','0','0','0','5','0','3','7','9','0','5','7','3','3','3','5','6','7','5'])]),
    (.text ['\n',' ',' ',' ',' ',' ',' ',' ',' ']),
    (.elem ⟨"SAMP_DEN_COEFF_", some 5⟩ [] [(.text ['-','1','.','9','6','4','5','9','2','4','0','9','4','1','6','3','1','e','-','0','5'])]),
    (.text ['\n',' ',' ',' ',' ',' ',' ',' ',' ']),
    (.elem ⟨"SAMP_DEN_COEFF_", some 6⟩ [] [(.text ['1','.','2','1','8','1','0','0','2','5','7','8','8','6','1','5','e','-','0','6'])]),
    (.text ['\n',' ',' ',' ',' ',' ',' ',' ',' ']),
    (.elem ⟨"SAMP_DEN_COEFF_", some 7⟩ [] [(.text ['-','1','.','4','6','3','6','1','9','8','9','2','3','6','4','2','3','e','-','0','6'])]),
    (.text ['\n',' ',' ',' ',' ',' ',' ',' ',' ']),
    (.elem ⟨"SAMP_DEN_COEFF_", some 8⟩ [] [(.text ['7','.','5','5','5','7','9','5','5','9','4','1','3','7','6','7','e','-','0','6'])]),
    (.text ['\n',' ',' ',' ',' ',' ',' ',' ',' ']),
    (.elem ⟨"SAMP_DEN_COEFF_", some 9⟩ [] [(.text ['-','1','.','5','8','4','5','0','5','3','7','4','1','2','8','2','4','e','-','0','5'])]),
    (.text ['\n',' ',' ',' ',' ',' ',' ',' ',' ']),
    (.elem ⟨"SAMP_DEN_COEFF_", some 10⟩ [] [(.text ['-','1','.','1','2','2','8','4','4','7','5','5','6','8','3','6','9','e','-','0','6'])]),
    (.text ['\n',' ',' ',' ',' ',' ',' ',' ',' ']),
    (.elem ⟨"SAMP_DEN_COEFF_", some 11⟩ [] [(.text ['-','1','.','2','8','3','9','7','1','9','5','1','6','3','3','5','e','-','0','8'])]),
    (.text ['\n',' ',' ',' ',' ',' ',' ',' ',' ']),
    (.elem ⟨"SAMP_DEN_COEFF_", some 12⟩ [] [(.text ['-','7','.','6','1','9','6','5','8','3','8','0','2','2','5','9','6','e','-','0','8'])]),
    (.text ['\n',' ',' ',' ',' ',' ',' ',' ',' ']),
    (.elem ⟨"SAMP_DEN_COEFF_", some 13⟩ [] [(.text ['2','.','2','4','0','5','7','6','7','7','7','8','6','2','3','5','e','-','0','7'])]),
    (.text ['\n',' ',' ',' ',' ',' ',' ',' ',' ']),
    (.elem ⟨"SAMP_DEN_COEFF_", some 14⟩ [] [(.text ['9','.','2','4','6','9','5','8','2','6','3','4','6','7','5','7','e','-','1','1'])]),
    (.text ['\n',' ',' ',' ',' ',' ',' ',' ',' ']),
    (.elem ⟨"SAMP_DEN_COEFF_", some 15⟩ [] [(.text ['1','.','7','7','1','5','2','8','0','6','8','1','7','5','1','2','e','-','0','7'])]),
    (.text ['\n',' ',' ',' ',' ',' ',' ',' ',' ']),
    (.elem ⟨"SAMP_DEN_COEFF_", some 16⟩ [] [(.text ['7','.','0','8','7','6','0','2','1','8','7','3','2','4','7','6','e','-','0','7'])]),
    (.text ['\n',' ',' ',' ',' ',' ',' ',' ',' ']),
    (.elem ⟨"SAMP_DEN_COEFF_", some 17⟩ [] [(.text ['1','.','0','7','5','7','4','9','3','1','4','9','9','5','5','6','e','-','1','0'])]),
    (.text ['\n',' ',' ',' ',' ',' ',' ',' ',' ']),
    (.elem ⟨"SAMP_DEN_COEFF_", some 18⟩ [] [(.text ['-','2','.','5','3','8','1','5','2','3','4','7','8','3','4','4','9','e','-','0','9'])]),
    (.text ['\n',' ',' ',' ',' ',' ',' ',' ',' ']),
    (.elem ⟨"SAMP_DEN_COEFF_", some 19⟩ [] [(.text ['5','.','8','3','6','8','4','6','2','4','8','7','8','9','7','6','e','-','0','8'])]),
    (.text ['\n',' ',' ',' ',' ',' ',' ',' ',' ']),
    (.elem ⟨"SAMP_DEN_COEFF_", some 20⟩ [] [(.text ['5','.','9','2','0','9','0','1','3','5','1','3','9','5','7','2','e','-','1','0'])]),
    (.text ['\n',' ',' ',' ',' ',' ',' ',' ',' ']),
    (.elem ⟨"LINE_NUM_COEFF_", some 1⟩ [] [(.text ['-','0','.','0','0','1','8','5','0','2','0','9','0','4','0','6','7','4','5','1'])]),
    (.text ['\n',' ',' ',' ',' ',' ',' ',' ',' ']),
    (.elem ⟨"LINE_NUM_COEFF_", some 2⟩ [] [(.text ['0','.','0','6','9','8','1','0','4','4','4','7','4','0','7','5','0','9'])]),
    (.text ['\n',' ',' ',' ',' ',' ',' ',' ',' ']),
    (.elem ⟨"LINE_NUM_COEFF_", some 3⟩ [] [(.text ['-','1','.','0','9','2','3','5','3','2','4','1','1','7','6','1','8'])]),
    (.text ['\n',' ',' ',' ',' ',' ',' ',' ',' ']),
    (.elem ⟨"LINE_NUM_COEFF_", some 4⟩ [] [(.text ['-','0','.','0','2','1','8','1','4','2','4','9','2','7','6','0','7','7'])]),
    (.text ['\n',' ',' ',' ',' ',' ',' ',' ',' ']),
    (.elem ⟨"LINE_NUM_COEFF_", some 5⟩ [] [(.text ['0','.','0','0','1','2','1','1','7','1','4','2','5','4','1','0','8','7','6'])]),
    (.text ['\n',' ',' ',' ',' ',' ',' ',' ',' ']),
    (.elem ⟨"LINE_NUM_COEFF_", some 6⟩ [] [(.text ['2','.','7','6','6','3','8','7','7','2','0','7','6','0','9','6','e','-','0','5'])]),
    (.text ['\n',' ',' ',' ',' ',' ',' ',' ',' ']),
    (.elem ⟨"LINE_NUM_COEFF_", some 7⟩ [] [(.text ['8','.','0','9','8','0','4','6','2','2','9','9','1','7','8','e','-','0','6'])]),
    (.text ['\n',' ',' ',' ',' ',' ',' ',' ',' ']),
    (.elem ⟨"LINE_NUM_COEFF_", some 8⟩ [] [(.text ['-','0','.','0','0','1','1','9','0','9','3','5','3','0','4','8','4','7','3','3'])]),
    (.text ['\n',' ',' ',' ',' ',' ',' ',' ',' ']),
    (.elem ⟨"LINE_NUM_COEFF_", some 9⟩ [] [(.text ['0','.','0','0','1','1','4','8','9','7','0','6','0','8','1','6','5','8','7'])]),
    (.text ['\n',' ',' ',' ',' ',' ',' ',' ',' ']),
    (.elem ⟨"LINE_NUM_COEFF_", some 10⟩ [] [(.text ['2','.','2','4','6','2','0','5','6','8','6','3','9','6','6','1','e','-','0','6'])]),
    (.text ['\n',' ',' ',' ',' ',' ',' ',' ',' ']),
    (.elem ⟨"LINE_NUM_COEFF_", some 11⟩ [] [(.text ['-','3','.','6','0','1','6','1','9','2','2','7','1','4','8','5','3','e','-','0','6'])]),
    (.text ['\n',' ',' ',' ',' ',' ',' ',' ',' ']),
    (.elem ⟨"LINE_NUM_COEFF_", some 12⟩ [] [(.text ['-','5','.','5','1','5','1','7','6','5','8','5','6','2','9','9','e','-','0','6'])]),
    (.text ['\n',' ',' ',' ',' ',' ',' ',' ',' ']),
    (.elem ⟨"LINE_NUM_COEFF_", some 13⟩ [] [(.text ['-','7','.','8','3','5','1','4','7','5','4','7','1','2','9','8','9','e','-','0','5'])]),
    (.text ['\n',' ',' ',' ',' ',' ',' ',' ',' ']),
    (.elem ⟨"LINE_NUM_COEFF_", some 14⟩ [] [(.text ['-','1','.','0','5','7','7','2','1','3','0','4','8','3','3','0','4','e','-','0','5'])]),
    (.text ['\n',' ',' ',' ',' ',' ',' ',' ',' ']),
    (.elem ⟨"LINE_NUM_COEFF_", some 15⟩ [] [(.text ['0','.','0','0','0','1','1','1','6','9','1','1','4','2','8','9','5','3','7','4'])]),
    (.text ['\n',' ',' ',' ',' ',' ',' ',' ',' ']),
    (.elem ⟨"LINE_NUM_COEFF_", some 16⟩ [] [(.text ['0','.','0','0','0','5','4','8','3','3','3','2','2','0','0','7','7','4','1','9'])]),
    (.text ['\n',' ',' ',' ',' ',' ',' ',' ',' ']),
    (.elem ⟨"LINE_NUM_COEFF_", some 17⟩ [] [(.text ['0','.','0','0','0','1','6','4','9','1','0','4','2','4','3','8','9','9','7','4'])]),
    (.text ['\n',' ',' ',' ',' ',' ',' ',' ',' ']),
    (.elem ⟨"LINE_NUM_COEFF_", some 18⟩ [] [(.text ['2','.','2','6','4','6','4','0','5','9','5','2','4','3','3','9','e','-','0','6'])]),
    (.text ['\n',' ',' ',' ',' ',' ',' ',' ',' ']),
    (.elem ⟨"LINE_NUM_COEFF_", some 19⟩ [] [(.text ['1','.','7','8','0','2','9','6','0','0','9','3','3','3','5','9','e','-','0','5'])]),
    (.text ['\n',' ',' ',' ',' ',' ',' ',' ',' ']),
    (.elem ⟨"LINE_NUM_COEFF_", some 20⟩ [] [(.text ['3','.','2','8','8','9','4','9','9','6','8','9','5','6','1','2','e','-','0','6'])]),
    (.text ['\n',' ',' ',' ',' ',' ',' ',' ',' ']),
    (.elem ⟨"LINE_DEN_COEFF_", some 1⟩ [] [(.text ['1'])]),
    (.text ['\n',' ',' ',' ',' ',' ',' ',' ',' ']),
    (.elem ⟨"LINE_DEN_COEFF_", some 2⟩ [] [(.text ['0','.','0','0','1','5','3','7','0','2','9','6','6','6','0','0','7','6','7'])]),
    (.text ['\n',' ',' ',' ',' ',' ',' ',' ',' ']),
    (.elem ⟨"LINE_DEN_COEFF_", some 3⟩ [] [(.text ['-','0','.','0','0','0','8','5','0','2','5','5','1','4','8','5','3','6','9','5','3'])]),
    (.text ['\n',' ',' ',' ',' ',' ',' ',' ',' ']),
    (.elem ⟨"LINE_DEN_COEFF_", some 4⟩ [] [(.text ['-','3','.','3','1','3','0','5','9','3','9','6','8','5','7','9','7','e','-','0','5'])]),
    (.text ['\n',' ',' ',' ',' ',' ',' ',' ',' ']),
    (.elem ⟨"LINE_DEN_COEFF_", some 5⟩ [] [(.text ['-','9','.','5','5','9','7','7','5','0','5','0','5','8','4','5','2','e','-','0','5'])]),
    (.text ['\n',' ',' ',' ',' ',' ',' ',' ',' ']),
    (.elem ⟨"LINE_DEN_COEFF_", some 6⟩ [] [(.text ['-','3','.','4','5','8','6','5','6','9','2','7','2','4','2','2','9','e','-','0','7'])]),
    (.text ['\n',' ',' ',' ',' ',' ',' ',' ',' ']),
    (.elem ⟨"LINE_DEN_COEFF_", some 7⟩ [] [(.text ['2','.','8','7','7','7','4','9','2','2','2','8','4','5','9','2','e','-','0','5'])]),
    (.text ['\n',' ',' ',' ',' ',' ',' ',' ',' ']),
    (.elem ⟨"LINE_DEN_COEFF_", some 8⟩ [] [(.text ['-','9','.','7','1','7','5','2','0','1','5','5','5','7','7','1','2','e','-','0','5'])]),
    (.text ['\n',' ',' ',' ',' ',' ',' ',' ',' ']),
    (.elem ⟨"LINE_DEN_COEFF_", some 9⟩ [] [(.text ['0','.','0','0','0','3','9','3','3','0','3','6','0','0','2','7','7','2','2','3'])]),
    (.text ['\n',' ',' ',' ',' ',' ',' ',' ',' ']),
    (.elem ⟨"LINE_DEN_COEFF_", some 10⟩ [] [(.text ['-','0','.','0','0','0','1','5','0','5','8','4','5','6','8','7','1','0','0','1','5'])]),
    (.text ['\n',' ',' ',' ',' ',' ',' ',' ',' ']),
    (.elem ⟨"LINE_DEN_COEFF_", some 11⟩ [] [(.text ['1','.','1','2','0','5','5','6','5','7','5','3','1','0','1','e','-','0','8'])]),
    (.text ['\n',' ',' ',' ',' ',' ',' ',' ',' ']),
    (.elem ⟨"LINE_DEN_COEFF_", some 12⟩ [] [(.text ['-','4','.','1','9','6','1','5','7','3','1','8','4','9','2','8','1','e','-','0','7'])]),
    (.text ['\n',' ',' ',' ',' ',' ',' ',' ',' ']),
    (.elem ⟨"LINE_DEN_COEFF_", some 13⟩ [] [(.text ['-','2','.','9','1','7','5','6','1','6','5','0','3','1','3','4','4','e','-','0','6'])]),
    (.text ['\n',' ',' ',' ',' ',' ',' ',' ',' ']),
    (.elem ⟨"LINE_DEN_COEFF_", some 14⟩ [] [(.text ['-','4','.','0','8','3','0','2','0','7','7','7','3','5','7','0','5','e','-','0','7'])]),
    (.text ['\n',' ',' ',' ',' ',' ',' ',' ',' ']),
    (.elem ⟨"LINE_DEN_COEFF_", some 15⟩ [] [(.text ['2','.','7','1','7','5','5','1','5','3','7','8','4','9','8','6','e','-','0','6'])]),
    (.text ['\n',' ',' ',' ',' ',' ',' ',' ',' ']),
    (.elem ⟨"LINE_DEN_COEFF_", some 16⟩ [] [(.text ['-','2','.','0','6','6','0','4','7','8','8','1','0','6','0','9','2','e','-','0','6'])]),
    (.text ['\n',' ',' ',' ',' ',' ',' ',' ',' ']),
    (.elem ⟨"LINE_DEN_COEFF_", some 17⟩ [] [(.text ['-','6','.','5','9','8','7','0','6','1','3','5','4','9','8','6','6','e','-','0','8'])]),
    (.text ['\n',' ',' ',' ',' ',' ',' ',' ',' ']),
    (.elem ⟨"LINE_DEN_COEFF_", some 18⟩ [] [(.text ['4','.','4','8','9','9','2','8','3','9','9','0','9','2','4','4','e','-','0','8'])]),
    (.text ['\n',' ',' ',' ',' ',' ',' ',' ',' ']),
    (.elem ⟨"LINE_DEN_COEFF_", some 19⟩ [] [(.text ['-','8','.','2','1','6','7','0','1','5','8','4','0','9','6','4','6','e','-','0','7'])]),
    (.text ['\n',' ',' ',' ',' ',' ',' ',' ',' ']),
    (.elem ⟨"LINE_DEN_COEFF_", some 20⟩ [] [(.text ['6','.','7','0','8','1','5','5','9','2','3','8','7','1','1','6','e','-','0','9'])]),
    (.text ['\n',' ',' ',' ',' ',' ',' ',' ',' ']),
    (.elem ⟨"ERR_BIAS_ROW", none⟩ [] [(.text ['0','.','0','0','1','7','5','4','1','6','5','2','2','9','9','8','6','0','2','2'])]),
    (.text ['\n',' ',' ',' ',' ',' ',' ',' ',' ']),
    (.elem ⟨"ERR_BIAS_COL", none⟩ [] [(.text ['0','.','0','0','1','9','2','1','2','0','8','2','9','4','9','9','6','1','7','5'])]),
    (.text ['\n',' ',' ',' ',' ',' ',' '])]),
   (.text ['\n',' ',' ',' ',' ',' ',' ']),
   (.elem ⟨"RFM_Validity", none⟩ [] [(.text ['\n',' ',' ',' ',' ',' ',' ',' ',' ']),
    (.elem ⟨"Direct_Model_Validity_Domain", none⟩ [] [(.text ['\n',' ',' ',' ',' ',' ',' ',' ',' ',' ',' ']),
     (.elem ⟨"FIRST_ROW", none⟩ [] [(.text ['1'])]),
     (.text ['\n',' ',' ',' ',' ',' ',' ',' ',' ',' ',' ']),
     (.elem ⟨"FIRST_COL", none⟩ [] [(.text ['1'])]),
     (.text ['\n',' ',' ',' ',' ',' ',' ',' ',' ',' ',' ']),
     (.elem ⟨"LAST_ROW", none⟩ [] [(.text ['2','2','9','4','0'])]),
     (.text ['\n',' ',' ',' ',' ',' ',' ',' ',' ',' ',' ']),
     (.elem ⟨"LAST_COL", none⟩ [] [(.text ['4','0','0','0','0'])]),
     (.text ['\n',' ',' ',' ',' ',' ',' ',' ',' '])]),
    (.text ['\n',' ',' ',' ',' ',' ',' ',' ',' ']),
    (.elem ⟨"Inverse_Model_Validity_Domain", none⟩ [] [(.text ['\n',' ',' ',' ',' ',' ',' ',' ',' ',' ',' ']),
     (.elem ⟨"FIRST_LON", none⟩ [] [(.text ['7','.','0','3','9','2','6','9','5','3','6','0','5','0','5','3','8'])]),
     (.text ['\n',' ',' ',' ',' ',' ',' ',' ',' ',' ',' ']),
     (.elem ⟨"FIRST_LAT", none⟩ [] [(.text ['4','3','.','6','1','6','9','8','7','9','2','0','8','7','1','7','7'])]),
     (.text ['\n',' ',' ',' ',' ',' ',' ',' ',' ',' ',' ']),
     (.elem ⟨"LAST_LON", none⟩ [] [(.text ['7','.','3','1','5','6','1','3','8','9','0','3','6','8','4','7','8'])]),
     (.text ['\n',' ',' ',' ',' ',' ',' ',' ',' ',' ',' ']),
     (.elem ⟨"LAST_LAT", none⟩ [] [(.text ['4','3','.','7','3','7','5','3','9','8','2','3','7','4','1'])]),
     (.text ['\n',' ',' ',' ',' ',' ',' ',' ',' '])]),
    (.text ['\n',' ',' ',' ',' ',' ',' ',' ',' ']),
    (.elem ⟨"LONG_SCALE", none⟩ [] [(.text ['0','.','1','3','2','2','1','2','6','1','9','6','6','8','9','0','1','1'])]),
    (.text ['\n',' ',' ',' ',' ',' ',' ',' ',' ']),
    (.elem ⟨"LONG_OFF", none⟩ [] [(.text ['7','.','1','7','7','4','4','8','5','0','3','6','7','5','6','1','2'])]),
    (.text ['\n',' ',' ',' ',' ',' ',' ',' ',' ']),
    (.elem ⟨"LAT_SCALE", none⟩ [] [(.text ['0','.','0','5','9','0','9','4','0','7','0','0','3','3','9','3','5','9','6'])]),
    (.text ['\n',' ',' ',' ',' ',' ',' ',' ',' ']),
    (.elem ⟨"LAT_OFF", none⟩ [] [(.text ['4','3','.','6','7','7','2','6','3','8','7','2','3','0','6','3','8'])]),
    (.text ['\n',' ',' ',' ',' ',' ',' ',' ',' ']),
    (.elem ⟨"HEIGHT_SCALE", none⟩ [] [(.text ['6','3','0'])]),
    (.text ['\n',' ',' ',' ',' ',' ',' ',' ',' ']),
    (.elem ⟨"HEIGHT_OFF", none⟩ [] [(.text ['6','7','0'])]),
    (.text ['\n',' ',' ',' ',' ',' ',' ',' ',' ']),
    (.elem ⟨"SAMP_SCALE", none⟩ [] [(.text ['1','9','9','9','9','.','5'])]),
    (.text ['\n',' ',' ',' ',' ',' ',' ',' ',' ']),
    (.elem ⟨"SAMP_OFF", none⟩ [] [(.text ['2','0','0','0','0','.','5'])]),
    (.text ['\n',' ',' ',' ',' ',' ',' ',' ',' ']),
    (.elem ⟨"LINE_SCALE", none⟩ [] [(.text ['1','1','4','6','9','.','5'])]),
    (.text ['\n',' ',' ',' ',' ',' ',' ',' ',' ']),
    (.elem ⟨"LINE_OFF", none⟩ [] [(.text ['1','1','4','7','0','.','5'])]),
    (.text ['\n',' ',' ',' ',' ',' ',' '])]),
   (.text ['\n',' ',' ',' ',' '])]),
  (.text ['\n',' ',' '])]),
 (.text ['\n'])])]

/-- The version (`test_rpc_drivers`). -/
example : identifyDimap (some dimap178609) = some ['2','.','1','5'] := by decide +kernel

/-- The parameters of rpc/RPC_PHR1B_P_201709281038393_SEN_PRG_FC_178609-001.XML, read by a separate script. -/
def dimap178609Params : RpcParams ℚ :=
  { driver := ['d','i','m','a','p','_','v','2','.','1','5'],
    offsetAlt := 670,
    scaleAlt := 630,
    offsetY := (2183863193615319/50000000000000),
    scaleY := (1477351750848399/25000000000000000),
    offsetRow := 11470,
    scaleRow := (22939/2),
    offsetX := (1794362125918903/250000000000000),
    scaleX := (1322126196689011/10000000000000000),
    offsetCol := 20000,
    scaleCol := (39999/2),
    denRow := [1, (153702966600767/100000000000000000), (-850255148536953/1000000000000000000), (-331305939685797/10000000000000000000), (-238994376264613/2500000000000000000), (-345865692724229/1000000000000000000000), (17985932642787/625000000000000000), (-60734500972357/625000000000000000), (393303600277223/1000000000000000000), (-30116913742003/200000000000000000), (11205565753101/1000000000000000000000), (-419615731849281/1000000000000000000000), (-18234760314459/6250000000000000000), (-81660415547141/200000000000000000000), (135877576892493/50000000000000000000), (-51651197026523/25000000000000000000), (-329935306774933/5000000000000000000000), (112248209977311/2500000000000000000000), (-410835079204823/500000000000000000000), (167703898096779/25000000000000000000000)],
    numRow := [(-185020904067451/100000000000000000), (698104447407509/10000000000000000), (-54617662058809/50000000000000), (-21814249276077/1000000000000000), (30292856352719/25000000000000000), (4322480813689/156250000000000000), (40490231149589/5000000000000000000), (-119093530484733/100000000000000000), (114897060816587/100000000000000000), (224620568639661/100000000000000000000), (-360161922714853/100000000000000000000), (-55151765856299/10000000000000000000), (-783514754712989/10000000000000000000), (-13221516310413/1250000000000000000), (55845571447687/500000000000000000), (548333220077419/1000000000000000000), (82455212194987/500000000000000000), (226464059524339/100000000000000000000), (178029600933359/10000000000000000000), (82223749223903/25000000000000000000)],
    denCol := [1, (-181006866369581/500000000000000000), (161936463848829/1000000000000000000), (-20151622933427/40000000000000000), (-196459240941631/10000000000000000000), (24362005157723/20000000000000000000), (-146361989236423/100000000000000000000), (755579559413767/100000000000000000000), (-19806317176603/1250000000000000000), (-112284475568369/100000000000000000000), (-2567943903267/200000000000000000000), (-190491459505649/2500000000000000000000), (44811535557247/200000000000000000000), (924695826346757/10000000000000000000000000), (22144100852189/125000000000000000000), (177190054683119/250000000000000000000), (26893732874889/250000000000000000000000), (-253815234783449/100000000000000000000000), (4560036131867/78125000000000000000), (148022533784893/250000000000000000000000)],
    numCol := [(374321456500487/100000000000000000), (20232240309861/20000000000000), (-21730035251027/200000000000000000), (113280713091793/10000000000000000), (-158400348205981/1000000000000000000), (456165294729941/1000000000000000000), (-31061564718133/250000000000000000), (-21190769977773/6250000000000000), (24630143719713/50000000000000000), (69691081729293/50000000000000000000), (6087371723157/4000000000000000000), (269142726729643/100000000000000000000), (62641339912671/5000000000000000000), (-185906892617881/250000000000000000000), (125591796202999/10000000000000000000), (-96346641322649/500000000000000000), (-62696398870649/200000000000000000000), (-293387312507297/100000000000000000000), (-12042569869777/1000000000000000000), (-108970866389161/10000000000000000000000)],
    numX := some [(-370035229356091/100000000000000000), (494251442111273/500000000000000), (-998494590349953/10000000000000000000), (-112003775100399/10000000000000000), (-118999558536987/1000000000000000000), (-534489493513591/1000000000000000000), (-65305391723203/500000000000000000), (82807177332147/25000000000000000), (-409458730275509/1000000000000000000), (-102154465233603/25000000000000000000), (318519042266793/50000000000000000000000), (193840312014903/10000000000000000000), (77435127282773/50000000000000000000), (242709114099111/100000000000000000000), (923184010502271/100000000000000000000), (-29295928692643/200000000000000000), (-92970988720393/2000000000000000000000), (-90826547960031/50000000000000000000), (291796153312173/1000000000000000000000), (-157552466041129/5000000000000000000000)],
    denX := some [1, (188769665633651/500000000000000000), (57608507131599/500000000000000000), (243442111422743/500000000000000000), (-178130430545981/10000000000000000000), (62650828638359/100000000000000000000), (-154951196772847/1000000000000000000000), (-274880720866511/100000000000000000000), (-54561935356013/125000000000000000000), (28224439121091/10000000000000000000), (-116356285399671/50000000000000000000000), (-139959279300059/1000000000000000000000), (102232100491971/1000000000000000000000), (-354353316240803/50000000000000000000000), (-137169190687301/1000000000000000000000), (146949247977691/50000000000000000000), (15310427692687/31250000000000000000000), (218842926731273/10000000000000000000000), (-46940212707779/200000000000000000000000), (281846553892649/100000000000000000000000)],
    numY := some [(-193019207624781/100000000000000000), (78976546079977/1250000000000000), (-915447847179731/1000000000000000), (-8274274174521/400000000000000), (-146739940592139/100000000000000000), (-78999941065983/5000000000000000000), (324523626183589/5000000000000000000), (-175673093460461/200000000000000000), (909647403441289/1000000000000000000), (125551311520149/100000000000000000000), (173028043625069/100000000000000000000), (10283412324777/6250000000000000000), (-146341657224147/10000000000000000000), (397810034522257/50000000000000000000), (-194293874122477/2500000000000000000), (-117548753693029/250000000000000000), (-58065851510019/500000000000000000), (274616755242449/1000000000000000000000), (324055651946963/100000000000000000000), (-262236719832033/100000000000000000000)],
    denY := some [1, (-23323039438599/20000000000000000), (-840397823405923/1000000000000000000), (25390200437339/1250000000000000000), (-25756746445223/2000000000000000000), (17822485896529/12500000000000000000), (183394298907231/100000000000000000000), (824661741329383/10000000000000000000), (-123934505798287/500000000000000000), (63366613743839/500000000000000000), (100932461802851/1000000000000000000000), (-294195517811811/1000000000000000000000), (-161840863441299/100000000000000000000), (-169379426092021/500000000000000000000), (105636988090109/2000000000000000000000), (7522759228977/12500000000000000000), (185735339112683/50000000000000000000000), (545397818359923/100000000000000000000000), (712909579810413/1000000000000000000000), (56090620681047/6250000000000000000000)] }

/-- `rpc_reader` of the model reads these parameters in the file (test_rpc_drivers: the driver). -/
theorem dimap178609_read :
    rpcReader (textEnv (some dimap178609)) (oneFile ['r','p','c','/','R','P','C','_','P','H','R','1','B','_','P','_','2','0','1','7','0','9','2','8','1','0','3','8','3','9','3','_','S','E','N','_','P','R','G','_','F','C','_','1','7','8','6','0','9','-','0','0','1','.','X','M','L'] []) ['r','p','c','/','R','P','C','_','P','H','R','1','B','_','P','_','2','0','1','7','0','9','2','8','1','0','3','8','3','9','3','_','S','E','N','_','P','R','G','_','F','C','_','1','7','8','6','0','9','-','0','0','1','.','X','M','L'] true = .ok dimap178609Params := by
  decide +kernel

/-- `test_rpc_dimap_v2`: the reference image position of a ground point. -/
example : invNear (1/100) (401/2) (201/2) (inverseLocPy (rpcOfParams dimap178609Params) [some (881082832592221199/125000000000000000)] [some (2186387419721772929/50000000000000000)] [some 0]) = true := by
  decide +kernel

/-- `test_rpc_dimap_v2` with the C++ model. -/
example : invNear (1/100) (401/2) (201/2) (optimInverse dimap178609Params (881082832592221199/125000000000000000) (2186387419721772929/50000000000000000) 0) = true := by
  decide +kernel


end Shareloc.Validation
