import Verif.Validation.Support

/-!
Written by tools/validation.py from the .geom files of tests/data/rpc and tests/geomodels/test_rpc.py of /repo.  The model evaluated on the data of the tests: a check of the model
against the reference values of the repository, not a proof of a property.
-/

set_option maxRecDepth 100000

namespace Shareloc.Validation

/-- The lines of PHR1B_P_201709281038393_SEN_PRG_FC_178609-001.geom, without the adjustment part. -/
def geom178609 : Text :=
  [['b','i','a','s','_','e','r','r','o','r',':',' ',' ','0'],
   ['c','e','9','0','_','a','b','s','o','l','u','t','e',':',' ',' ','0'],
   ['c','e','9','0','_','r','e','l','a','t','i','v','e',':',' ',' ','0'],
   ['c','u','r','r','e','n','t','_','a','d','j','u','s','t','m','e','n','t',':',' ',' ','0'],
   ['h','e','i','g','h','t','_','o','f','f',':',' ',' ','6','7','0'],
   ['h','e','i','g','h','t','_','s','c','a','l','e',':',' ',' ','6','3','0'],
   ['i','m','a','g','e','_','i','d',':',' ',' ','P','R','G','_','F','C','_','1','7','8','6','0','9','-','0','0','1'],
   ['l','a','t','_','o','f','f',':',' ',' ','4','3','.','6','7','7','2','6','3','8','7','2','3','0','6','4'],
   ['l','a','t','_','s','c','a','l','e',':',' ',' ','0','.','0','5','9','0','9','4','0','7','0','0','3','3','9','3','6'],
   ['l','i','n','e','_','d','e','n','_','c','o','e','f','f','_','0','0',':',' ',' ','1'],
   ['l','i','n','e','_','d','e','n','_','c','o','e','f','f','_','0','1',':',' ',' ','0','.','0','0','1','5','3','7','0','2','9','6','6','6','0','0','7','6','7'],
   ['l','i','n','e','_','d','e','n','_','c','o','e','f','f','_','0','2',':',' ',' ','-','0','.','0','0','0','8','5','0','2','5','5','1','4','8','5','3','6','9','5','3'],
   ['l','i','n','e','_','d','e','n','_','c','o','e','f','f','_','0','3',':',' ',' ','-','3','.','3','1','3','0','5','9','3','9','6','8','5','7','9','7','e','-','0','5'],
   ['l','i','n','e','_','d','e','n','_','c','o','e','f','f','_','0','4',':',' ',' ','-','9','.','5','5','9','7','7','5','0','5','0','5','8','4','5','2','e','-','0','5'],
   ['l','i','n','e','_','d','e','n','_','c','o','e','f','f','_','0','5',':',' ',' ','-','3','.','4','5','8','6','5','6','9','2','7','2','4','2','2','9','e','-','0','7'],
   ['l','i','n','e','_','d','e','n','_','c','o','e','f','f','_','0','6',':',' ',' ','2','.','8','7','7','7','4','9','2','2','2','8','4','5','9','2','e','-','0','5'],
   ['l','i','n','e','_','d','e','n','_','c','o','e','f','f','_','0','7',':',' ',' ','-','9','.','7','1','7','5','2','0','1','5','5','5','7','7','1','2','e','-','0','5'],
   ['l','i','n','e','_','d','e','n','_','c','o','e','f','f','_','0','8',':',' ',' ','0','.','0','0','0','3','9','3','3','0','3','6','0','0','2','7','7','2','2','3'],
   ['l','i','n','e','_','d','e','n','_','c','o','e','f','f','_','0','9',':',' ',' ','-','0','.','0','0','0','1','5','0','5','8','4','5','6','8','7','1','0','0','1','5'],
   ['l','i','n','e','_','d','e','n','_','c','o','e','f','f','_','1','0',':',' ',' ','1','.','1','2','0','5','5','6','5','7','5','3','1','0','1','e','-','0','8'],
   ['l','i','n','e','_','d','e','n','_','c','o','e','f','f','_','1','1',':',' ',' ','-','4','.','1','9','6','1','5','7','3','1','8','4','9','2','8','1','e','-','0','7'],
   ['l','i','n','e','_','d','e','n','_','c','o','e','f','f','_','1','2',':',' ',' ','-','2','.','9','1','7','5','6','1','6','5','0','3','1','3','4','4','e','-','0','6'],
   ['l','i','n','e','_','d','e','n','_','c','o','e','f','f','_','1','3',':',' ',' ','-','4','.','0','8','3','0','2','0','7','7','7','3','5','7','0','5','e','-','0','7'],
   ['l','i','n','e','_','d','e','n','_','c','o','e','f','f','_','1','4',':',' ',' ','2','.','7','1','7','5','5','1','5','3','7','8','4','9','8','6','e','-','0','6'],
   ['l','i','n','e','_','d','e','n','_','c','o','e','f','f','_','1','5',':',' ',' ','-','2','.','0','6','6','0','4','7','8','8','1','0','6','0','9','2','e','-','0','6'],
   ['l','i','n','e','_','d','e','n','_','c','o','e','f','f','_','1','6',':',' ',' ','-','6','.','5','9','8','7','0','6','1','3','5','4','9','8','6','6','e','-','0','8'],
   ['l','i','n','e','_','d','e','n','_','c','o','e','f','f','_','1','7',':',' ',' ','4','.','4','8','9','9','2','8','3','9','9','0','9','2','4','4','e','-','0','8'],
   ['l','i','n','e','_','d','e','n','_','c','o','e','f','f','_','1','8',':',' ',' ','-','8','.','2','1','6','7','0','1','5','8','4','0','9','6','4','6','e','-','0','7'],
   ['l','i','n','e','_','d','e','n','_','c','o','e','f','f','_','1','9',':',' ',' ','6','.','7','0','8','1','5','5','9','2','3','8','7','1','1','6','e','-','0','9'],
   ['l','i','n','e','_','n','u','m','_','c','o','e','f','f','_','0','0',':',' ',' ','-','0','.','0','0','1','8','5','0','2','0','9','0','4','0','6','7','4','5','1'],
   ['l','i','n','e','_','n','u','m','_','c','o','e','f','f','_','0','1',':',' ',' ','0','.','0','6','9','8','1','0','4','4','4','7','4','0','7','5','0','9'],
   ['l','i','n','e','_','n','u','m','_','c','o','e','f','f','_','0','2',':',' ',' ','-','1','.','0','9','2','3','5','3','2','4','1','1','7','6','1','8'],
   ['l','i','n','e','_','n','u','m','_','c','o','e','f','f','_','0','3',':',' ',' ','-','0','.','0','2','1','8','1','4','2','4','9','2','7','6','0','7','7'],
   ['l','i','n','e','_','n','u','m','_','c','o','e','f','f','_','0','4',':',' ',' ','0','.','0','0','1','2','1','1','7','1','4','2','5','4','1','0','8','7','6'],
   ['l','i','n','e','_','n','u','m','_','c','o','e','f','f','_','0','5',':',' ',' ','2','.','7','6','6','3','8','7','7','2','0','7','6','0','9','6','e','-','0','5'],
   ['l','i','n','e','_','n','u','m','_','c','o','e','f','f','_','0','6',':',' ',' ','8','.','0','9','8','0','4','6','2','2','9','9','1','7','8','e','-','0','6'],
   ['l','i','n','e','_','n','u','m','_','c','o','e','f','f','_','0','7',':',' ',' ','-','0','.','0','0','1','1','9','0','9','3','5','3','0','4','8','4','7','3','3'],
   ['l','i','n','e','_','n','u','m','_','c','o','e','f','f','_','0','8',':',' ',' ','0','.','0','0','1','1','4','8','9','7','0','6','0','8','1','6','5','8','7'],
   ['l','i','n','e','_','n','u','m','_','c','o','e','f','f','_','0','9',':',' ',' ','2','.','2','4','6','2','0','5','6','8','6','3','9','6','6','1','e','-','0','6'],
   ['l','i','n','e','_','n','u','m','_','c','o','e','f','f','_','1','0',':',' ',' ','-','3','.','6','0','1','6','1','9','2','2','7','1','4','8','5','3','e','-','0','6'],
   ['l','i','n','e','_','n','u','m','_','c','o','e','f','f','_','1','1',':',' ',' ','-','5','.','5','1','5','1','7','6','5','8','5','6','2','9','9','e','-','0','6'],
   ['l','i','n','e','_','n','u','m','_','c','o','e','f','f','_','1','2',':',' ',' ','-','7','.','8','3','5','1','4','7','5','4','7','1','2','9','8','9','e','-','0','5'],
   ['l','i','n','e','_','n','u','m','_','c','o','e','f','f','_','1','3',':',' ',' ','-','1','.','0','5','7','7','2','1','3','0','4','8','3','3','0','4','e','-','0','5'],
   ['l','i','n','e','_','n','u','m','_','c','o','e','f','f','_','1','4',':',' ',' ','0','.','0','0','0','1','1','1','6','9','1','1','4','2','8','9','5','3','7','4'],
   ['l','i','n','e','_','n','u','m','_','c','o','e','f','f','_','1','5',':',' ',' ','0','.','0','0','0','5','4','8','3','3','3','2','2','0','0','7','7','4','1','9'],
   ['l','i','n','e','_','n','u','m','_','c','o','e','f','f','_','1','6',':',' ',' ','0','.','0','0','0','1','6','4','9','1','0','4','2','4','3','8','9','9','7','4'],
   ['l','i','n','e','_','n','u','m','_','c','o','e','f','f','_','1','7',':',' ',' ','2','.','2','6','4','6','4','0','5','9','5','2','4','3','3','9','e','-','0','6'],
   ['l','i','n','e','_','n','u','m','_','c','o','e','f','f','_','1','8',':',' ',' ','1','.','7','8','0','2','9','6','0','0','9','3','3','3','5','9','e','-','0','5'],
   ['l','i','n','e','_','n','u','m','_','c','o','e','f','f','_','1','9',':',' ',' ','3','.','2','8','8','9','4','9','9','6','8','9','5','6','1','2','e','-','0','6'],
   ['l','i','n','e','_','o','f','f',':',' ',' ','1','1','4','6','9','.','5'],
   ['l','i','n','e','_','s','c','a','l','e',':',' ',' ','1','1','4','6','9','.','5'],
   ['l','l','_','l','a','t',':',' ',' ','4','3','.','6','1','9','3','8','3','4','9','7','0','1','3','1'],
   ['l','l','_','l','o','n',':',' ',' ','7','.','0','4','6','6','0','3','3','1','0','7','3','8','6','9'],
   ['l','o','n','g','_','o','f','f',':',' ',' ','7','.','1','7','7','4','4','8','5','0','3','6','7','5','6','1'],
   ['l','o','n','g','_','s','c','a','l','e',':',' ',' ','0','.','1','3','2','2','1','2','6','1','9','6','6','8','9','0','1'],
   ['l','r','_','l','a','t',':',' ',' ','4','3','.','6','2','6','5','5','4','7','6','7','5','5','3','8'],
   ['l','r','_','l','o','n',':',' ',' ','7','.','3','0','7','9','3','2','6','4','7','6','1','1','5','7'],
   ['m','e','t','e','r','s','_','p','e','r','_','p','i','x','e','l','_','x',':',' ',' ','0','.','5','2','7','6','0','9','1','7','5','7','3','3','3','0','2'],
   ['m','e','t','e','r','s','_','p','e','r','_','p','i','x','e','l','_','y',':',' ',' ','0','.','5','2','4','1','8','8','3','2','3','4','0','1','6','5','2'],
   ['n','u','m','b','e','r','_','l','i','n','e','s',':',' ',' ','2','2','9','4','0'],
   ['n','u','m','b','e','r','_','o','f','_','a','d','j','u','s','t','m','e','n','t','s',':',' ',' ','1'],
   ['n','u','m','b','e','r','_','s','a','m','p','l','e','s',':',' ',' ','4','0','0','0','0'],
   ['p','o','l','y','n','o','m','i','a','l','_','f','o','r','m','a','t',':',' ',' ','B'],
   ['r','a','n','d','_','e','r','r','o','r',':',' ',' ','0'],
   ['r','e','c','t',':',' ',' ','0',' ','0',' ','3','9','9','9','9',' ','2','2','9','3','9'],
   ['r','e','f','_','p','o','i','n','t','_','h','g','t',':',' ',' ','6','7','0'],
   ['r','e','f','_','p','o','i','n','t','_','l','a','t',':',' ',' ','4','3','.','6','7','7','1','4','7','5','3','9','2','4','3'],
   ['r','e','f','_','p','o','i','n','t','_','l','i','n','e',':',' ',' ','1','1','4','6','9','.','5'],
   ['r','e','f','_','p','o','i','n','t','_','l','o','n',':',' ',' ','7','.','1','7','6','9','6','2','5','2','4','2','9','2','1','2'],
   ['r','e','f','_','p','o','i','n','t','_','s','a','m','p',':',' ',' ','1','9','9','9','9','.','5'],
   ['s','a','m','p','_','d','e','n','_','c','o','e','f','f','_','0','0',':',' ',' ','1'],
   ['s','a','m','p','_','d','e','n','_','c','o','e','f','f','_','0','1',':',' ',' ','-','0','.','0','0','0','3','6','2','0','1','3','7','3','2','7','3','9','1','6','2'],
   ['s','a','m','p','_','d','e','n','_','c','o','e','f','f','_','0','2',':',' ',' ','0','.','0','0','0','1','6','1','9','3','6','4','6','3','8','4','8','8','2','9'],
   ['s','a','m','p','_','d','e','n','_','c','o','e','f','f','_','0','3',':',' ',' ','-','0','.','0','0','0','5','0','3','7','9','0','5','7','3','3','3','5','6','7','5'],
   ['s','a','m','p','_','d','e','n','_','c','o','e','f','f','_','0','4',':',' ',' ','-','1','.','9','6','4','5','9','2','4','0','9','4','1','6','3','1','e','-','0','5'],
   ['s','a','m','p','_','d','e','n','_','c','o','e','f','f','_','0','5',':',' ',' ','1','.','2','1','8','1','0','0','2','5','7','8','8','6','1','5','e','-','0','6'],
   ['s','a','m','p','_','d','e','n','_','c','o','e','f','f','_','0','6',':',' ',' ','-','1','.','4','6','3','6','1','9','8','9','2','3','6','4','2','3','e','-','0','6'],
   ['s','a','m','p','_','d','e','n','_','c','o','e','f','f','_','0','7',':',' ',' ','7','.','5','5','5','7','9','5','5','9','4','1','3','7','6','7','e','-','0','6'],
   ['s','a','m','p','_','d','e','n','_','c','o','e','f','f','_','0','8',':',' ',' ','-','1','.','5','8','4','5','0','5','3','7','4','1','2','8','2','4','e','-','0','5'],
   ['s','a','m','p','_','d','e','n','_','c','o','e','f','f','_','0','9',':',' ',' ','-','1','.','1','2','2','8','4','4','7','5','5','6','8','3','6','9','e','-','0','6'],
   ['s','a','m','p','_','d','e','n','_','c','o','e','f','f','_','1','0',':',' ',' ','-','1','.','2','8','3','9','7','1','9','5','1','6','3','3','5','e','-','0','8'],
   ['s','a','m','p','_','d','e','n','_','c','o','e','f','f','_','1','1',':',' ',' ','-','7','.','6','1','9','6','5','8','3','8','0','2','2','5','9','6','e','-','0','8'],
   ['s','a','m','p','_','d','e','n','_','c','o','e','f','f','_','1','2',':',' ',' ','2','.','2','4','0','5','7','6','7','7','7','8','6','2','3','5','e','-','0','7'],
   ['s','a','m','p','_','d','e','n','_','c','o','e','f','f','_','1','3',':',' ',' ','9','.','2','4','6','9','5','8','2','6','3','4','6','7','5','7','e','-','1','1'],
   ['s','a','m','p','_','d','e','n','_','c','o','e','f','f','_','1','4',':',' ',' ','1','.','7','7','1','5','2','8','0','6','8','1','7','5','1','2','e','-','0','7'],
   ['s','a','m','p','_','d','e','n','_','c','o','e','f','f','_','1','5',':',' ',' ','7','.','0','8','7','6','0','2','1','8','7','3','2','4','7','6','e','-','0','7'],
   ['s','a','m','p','_','d','e','n','_','c','o','e','f','f','_','1','6',':',' ',' ','1','.','0','7','5','7','4','9','3','1','4','9','9','5','5','6','e','-','1','0'],
   ['s','a','m','p','_','d','e','n','_','c','o','e','f','f','_','1','7',':',' ',' ','-','2','.','5','3','8','1','5','2','3','4','7','8','3','4','4','9','e','-','0','9'],
   ['s','a','m','p','_','d','e','n','_','c','o','e','f','f','_','1','8',':',' ',' ','5','.','8','3','6','8','4','6','2','4','8','7','8','9','7','6','e','-','0','8'],
   ['s','a','m','p','_','d','e','n','_','c','o','e','f','f','_','1','9',':',' ',' ','5','.','9','2','0','9','0','1','3','5','1','3','9','5','7','2','e','-','1','0'],
   ['s','a','m','p','_','n','u','m','_','c','o','e','f','f','_','0','0',':',' ',' ','0','.','0','0','3','7','4','3','2','1','4','5','6','5','0','0','4','8','7'],
   ['s','a','m','p','_','n','u','m','_','c','o','e','f','f','_','0','1',':',' ',' ','1','.','0','1','1','6','1','2','0','1','5','4','9','3','0','5'],
   ['s','a','m','p','_','n','u','m','_','c','o','e','f','f','_','0','2',':',' ',' ','-','0','.','0','0','0','1','0','8','6','5','0','1','7','6','2','5','5','1','3','5'],
   ['s','a','m','p','_','n','u','m','_','c','o','e','f','f','_','0','3',':',' ',' ','0','.','0','1','1','3','2','8','0','7','1','3','0','9','1','7','9','3'],
   ['s','a','m','p','_','n','u','m','_','c','o','e','f','f','_','0','4',':',' ',' ','-','0','.','0','0','0','1','5','8','4','0','0','3','4','8','2','0','5','9','8','1'],
   ['s','a','m','p','_','n','u','m','_','c','o','e','f','f','_','0','5',':',' ',' ','0','.','0','0','0','4','5','6','1','6','5','2','9','4','7','2','9','9','4','1'],
   ['s','a','m','p','_','n','u','m','_','c','o','e','f','f','_','0','6',':',' ',' ','-','0','.','0','0','0','1','2','4','2','4','6','2','5','8','8','7','2','5','3','2'],
   ['s','a','m','p','_','n','u','m','_','c','o','e','f','f','_','0','7',':',' ',' ','-','0','.','0','0','3','3','9','0','5','2','3','1','9','6','4','4','3','6','8'],
   ['s','a','m','p','_','n','u','m','_','c','o','e','f','f','_','0','8',':',' ',' ','0','.','0','0','0','4','9','2','6','0','2','8','7','4','3','9','4','2','6'],
   ['s','a','m','p','_','n','u','m','_','c','o','e','f','f','_','0','9',':',' ',' ','1','.','3','9','3','8','2','1','6','3','4','5','8','5','8','6','e','-','0','6'],
   ['s','a','m','p','_','n','u','m','_','c','o','e','f','f','_','1','0',':',' ',' ','1','.','5','2','1','8','4','2','9','3','0','7','8','9','2','5','e','-','0','6'],
   ['s','a','m','p','_','n','u','m','_','c','o','e','f','f','_','1','1',':',' ',' ','2','.','6','9','1','4','2','7','2','6','7','2','9','6','4','3','e','-','0','6'],
   ['s','a','m','p','_','n','u','m','_','c','o','e','f','f','_','1','2',':',' ',' ','1','.','2','5','2','8','2','6','7','9','8','2','5','3','4','2','e','-','0','5'],
   ['s','a','m','p','_','n','u','m','_','c','o','e','f','f','_','1','3',':',' ',' ','-','7','.','4','3','6','2','7','5','7','0','4','7','1','5','2','4','e','-','0','7'],
   ['s','a','m','p','_','n','u','m','_','c','o','e','f','f','_','1','4',':',' ',' ','1','.','2','5','5','9','1','7','9','6','2','0','2','9','9','9','e','-','0','5'],
   ['s','a','m','p','_','n','u','m','_','c','o','e','f','f','_','1','5',':',' ',' ','-','0','.','0','0','0','1','9','2','6','9','3','2','8','2','6','4','5','2','9','8'],
   ['s','a','m','p','_','n','u','m','_','c','o','e','f','f','_','1','6',':',' ',' ','-','3','.','1','3','4','8','1','9','9','4','3','5','3','2','4','5','e','-','0','7'],
   ['s','a','m','p','_','n','u','m','_','c','o','e','f','f','_','1','7',':',' ',' ','-','2','.','9','3','3','8','7','3','1','2','5','0','7','2','9','7','e','-','0','6'],
   ['s','a','m','p','_','n','u','m','_','c','o','e','f','f','_','1','8',':',' ',' ','-','1','.','2','0','4','2','5','6','9','8','6','9','7','7','7','e','-','0','5'],
   ['s','a','m','p','_','n','u','m','_','c','o','e','f','f','_','1','9',':',' ',' ','-','1','.','0','8','9','7','0','8','6','6','3','8','9','1','6','1','e','-','0','8'],
   ['s','a','m','p','_','o','f','f',':',' ',' ','1','9','9','9','9','.','5'],
   ['s','a','m','p','_','s','c','a','l','e',':',' ',' ','1','9','9','9','9','.','5'],
   ['s','e','n','s','o','r',':',' ',' ','P','H','R',' ','1','B'],
   ['s','u','p','p','o','r','t','_','d','a','t','a','.','a','c','r','o','s','s','_','t','r','a','c','k','_','i','n','c','i','d','e','n','c','e','_','a','n','g','l','e',':',' ',' ','"','"','"','-','1','0','.','6','2','2','2','5','7','7','4','4','2','6','2',' ','-','1','0','.','7','3','3','6','7','3','6','7','3','1','6','6','5',' ','-','1','0','.','8','3','9','1','6','0','5','2','2','7','2','9','8',' ','"','"','"'],
   ['s','u','p','p','o','r','t','_','d','a','t','a','.','a','l','o','n','g','_','t','r','a','c','k','_','i','n','c','i','d','e','n','c','e','_','a','n','g','l','e',':',' ',' ','"','"','"','1','2','.','2','0','1','9','0','7','7','6','7','4','7','7','5',' ','1','2','.','1','7','2','1','7','7','0','3','8','7','3','9','5',' ','1','2','.','1','5','8','2','9','4','5','6','1','6','0','0','4',' ','"','"','"'],
   ['s','u','p','p','o','r','t','_','d','a','t','a','.','a','z','i','m','u','t','h','_','a','n','g','l','e',':',' ',' ','"','"','"','1','6','4','.','8','7','6','6','7','8','9','9','3','3','5','7',' ','1','6','4','.','8','6','4','9','0','6','6','4','3','8','0','9',' ','1','6','4','.','8','5','0','9','6','9','6','4','1','8','9','8',' ','"','"','"'],
   ['s','u','p','p','o','r','t','_','d','a','t','a','.','b','a','n','d','_','n','a','m','e','_','l','i','s','t',':',' ',' ','"','"','"','P',' ','"','"','"'],
   ['s','u','p','p','o','r','t','_','d','a','t','a','.','e','l','e','v','a','t','i','o','n','_','a','n','g','l','e',':',' ',' ','"','"','"','4','3','.','2','3','1','1','6','5','8','0','3','8','8','6','4',' ','4','3','.','2','7','7','6','5','0','5','4','6','2','4','0','9',' ','4','3','.','3','3','1','8','7','0','2','2','2','5','8','4','9',' ','"','"','"'],
   ['s','u','p','p','o','r','t','_','d','a','t','a','.','i','m','a','g','e','_','d','a','t','e',':',' ',' ','2','0','1','7','-','0','9','-','2','8','T','1','0',':','3','8',':','3','9','.','3','Z'],
   ['s','u','p','p','o','r','t','_','d','a','t','a','.','i','m','a','g','e','_','i','d',':',' ',' ','P','R','G','_','F','C','_','1','7','8','6','0','9','-','0','0','1'],
   ['s','u','p','p','o','r','t','_','d','a','t','a','.','i','m','a','g','e','_','s','i','z','e',':',' ',' ','4','0','0','0','0',' ','2','2','9','4','0'],
   ['s','u','p','p','o','r','t','_','d','a','t','a','.','i','n','c','i','d','e','n','t','_','a','n','g','l','e',':',' ',' ','"','"','"','1','5','.','9','7','3','3','6','6','5','1','7','4','1','8','5',' ','1','6','.','0','2','1','8','2','2','7','8','3','1','3','2','3',' ','1','6','.','0','7','8','6','2','5','7','2','5','7','8','9','1',' ','"','"','"'],
   ['s','u','p','p','o','r','t','_','d','a','t','a','.','i','n','s','t','r','u','m','e','n','t',':',' ',' ','P','H','R'],
   ['s','u','p','p','o','r','t','_','d','a','t','a','.','i','n','s','t','r','u','m','e','n','t','_','i','n','d','e','x',':',' ',' ','1','B'],
   ['s','u','p','p','o','r','t','_','d','a','t','a','.','l','i','n','e','_','p','e','r','i','o','d',':',' ',' ','0','.','0','7','3','5'],
   ['s','u','p','p','o','r','t','_','d','a','t','a','.','l','l','_','g','r','o','u','n','d','_','p','o','i','n','t',':',' ',' ','4','3','.','6','2','0','3','2','8','5','0','2','3','1','8','5',' ','7','.','0','4','7','6','6','3','5','9','4','0','8','6','2','3',' ','0',' ','W','G','E'],
   ['s','u','p','p','o','r','t','_','d','a','t','a','.','l','r','_','g','r','o','u','n','d','_','p','o','i','n','t',':',' ',' ','4','3','.','6','2','7','7','5','9','7','4','3','2','8','3','1',' ','7','.','3','0','9','5','4','3','5','9','4','8','3','7','1','5',' ','0',' ','W','G','E'],
   ['s','u','p','p','o','r','t','_','d','a','t','a','.','n','u','m','b','e','r','_','b','a','n','d','s',':',' ',' ','1'],
   ['s','u','p','p','o','r','t','_','d','a','t','a','.','n','u','m','b','e','r','_','o','f','_','a','c','r','o','s','s','_','t','r','a','c','k','_','i','n','c','i','d','e','n','c','e','_','a','n','g','l','e',':',' ',' ','3'],
   ['s','u','p','p','o','r','t','_','d','a','t','a','.','n','u','m','b','e','r','_','o','f','_','a','l','o','n','g','_','t','r','a','c','k','_','i','n','c','i','d','e','n','c','e','_','a','n','g','l','e',':',' ',' ','3'],
   ['s','u','p','p','o','r','t','_','d','a','t','a','.','n','u','m','b','e','r','_','o','f','_','a','z','i','m','u','t','h','_','a','n','g','l','e',':',' ',' ','3'],
   ['s','u','p','p','o','r','t','_','d','a','t','a','.','n','u','m','b','e','r','_','o','f','_','e','l','e','v','a','t','i','o','n','_','a','n','g','l','e',':',' ',' ','3'],
   ['s','u','p','p','o','r','t','_','d','a','t','a','.','n','u','m','b','e','r','_','o','f','_','i','n','c','i','d','e','n','t','_','a','n','g','l','e',':',' ',' ','3'],
   ['s','u','p','p','o','r','t','_','d','a','t','a','.','n','u','m','b','e','r','_','o','f','_','s','c','e','n','e','_','o','r','i','e','n','t','a','t','i','o','n',':',' ',' ','3'],
   ['s','u','p','p','o','r','t','_','d','a','t','a','.','n','u','m','b','e','r','_','o','f','_','v','i','e','w','i','n','g','_','a','n','g','l','e',':',' ',' ','3'],
   ['s','u','p','p','o','r','t','_','d','a','t','a','.','p','h','y','s','i','c','a','l','_','b','i','a','s',':',' ',' ','"','"','"','0',' ','"','"','"'],
   ['s','u','p','p','o','r','t','_','d','a','t','a','.','p','h','y','s','i','c','a','l','_','g','a','i','n',':',' ',' ','"','"','"','1','2','.','1','9',' ','"','"','"'],
   ['s','u','p','p','o','r','t','_','d','a','t','a','.','p','r','o','c','e','s','s','i','n','g','_','l','e','v','e','l',':',' ',' ','S','E','N','S','O','R'],
   ['s','u','p','p','o','r','t','_','d','a','t','a','.','p','r','o','d','u','c','t','i','o','n','_','d','a','t','e',':',' ',' ','2','0','1','8','-','0','7','-','1','9','T','0','7',':','0','6',':','4','9','.','9','8','1'],
   ['s','u','p','p','o','r','t','_','d','a','t','a','.','r','e','f','e','r','e','n','c','e','_','g','r','o','u','n','d','_','p','o','i','n','t',':',' ',' ','4','3','.','6','7','7','8','2','9','0','9','6','3','6','7','7',' ','7','.','1','7','8','2','2','2','1','6','1','3','5','1','2','1',' ','0',' ','W','G','E'],
   ['s','u','p','p','o','r','t','_','d','a','t','a','.','r','e','f','e','r','e','n','c','e','_','i','m','a','g','e','_','p','o','i','n','t',':',' ',' ','2','0','0','0','0',' ','1','1','4','7','0'],
   ['s','u','p','p','o','r','t','_','d','a','t','a','.','s','c','e','n','e','_','o','r','i','e','n','t','a','t','i','o','n',':',' ',' ','"','"','"','1','7','9','.','9','6','8','0','8','5','1','7','6','5','7','2',' ','1','7','9','.','9','9','1','7','1','2','9','9','6','1','8','6',' ','1','8','0','.','1','3','2','9','4','9','8','9','2','5','4','9',' ','"','"','"'],
   ['s','u','p','p','o','r','t','_','d','a','t','a','.','s','e','n','s','o','r','I','D',':',' ',' ','P','H','R',' ','1','B'],
   ['s','u','p','p','o','r','t','_','d','a','t','a','.','s','o','l','a','r','_','i','r','r','a','d','i','a','n','c','e',':',' ',' ','"','"','"','1','5','4','8',' ','"','"','"'],
   ['s','u','p','p','o','r','t','_','d','a','t','a','.','s','w','a','t','h','_','f','i','r','s','t','_','c','o','l',':',' ',' ','1'],
   ['s','u','p','p','o','r','t','_','d','a','t','a','.','s','w','a','t','h','_','l','a','s','t','_','c','o','l',':',' ',' ','4','0','0','0','0'],
   ['s','u','p','p','o','r','t','_','d','a','t','a','.','t','i','m','e','_','r','a','n','g','e','_','e','n','d',':',' ',' ','2','0','1','7','-','0','9','-','2','8','T','1','0',':','3','8',':','4','1','.','0','1','1','0','0','0','0','Z'],
   ['s','u','p','p','o','r','t','_','d','a','t','a','.','t','i','m','e','_','r','a','n','g','e','_','s','t','a','r','t',':',' ',' ','2','0','1','7','-','0','9','-','2','8','T','1','0',':','3','8',':','3','9','.','3','2','4','0','0','0','0','Z'],
   ['s','u','p','p','o','r','t','_','d','a','t','a','.','t','y','p','e',':',' ',' ','o','s','s','i','m','P','l','e','i','a','d','e','s','D','i','m','a','p','S','u','p','p','o','r','t','D','a','t','a'],
   ['s','u','p','p','o','r','t','_','d','a','t','a','.','u','l','_','g','r','o','u','n','d','_','p','o','i','n','t',':',' ',' ','4','3','.','7','2','7','0','1','1','6','7','8','8','3','5','4',' ','7','.','0','4','6','2','1','1','6','1','9','5','0','2','0','4',' ','0',' ','W','G','E'],
   ['s','u','p','p','o','r','t','_','d','a','t','a','.','u','r','_','g','r','o','u','n','d','_','p','o','i','n','t',':',' ',' ','4','3','.','7','3','6','2','1','6','4','6','1','0','3','3','8',' ','7','.','3','0','9','4','6','9','8','3','6','9','7','9','4','3',' ','0',' ','W','G','E'],
   ['s','u','p','p','o','r','t','_','d','a','t','a','.','v','i','e','w','i','n','g','_','a','n','g','l','e',':',' ',' ','"','"','"','1','4','.','2','1','7','9','0','6','1','3','8','8','8','7','9',' ','1','4','.','2','6','2','0','3','6','8','1','8','5','1','9',' ','1','4','.','3','1','3','7','5','9','6','2','2','8','9','0','3',' ','"','"','"'],
   ['t','y','p','e',':',' ',' ','o','s','s','i','m','P','l','e','i','a','d','e','s','M','o','d','e','l'],
   ['u','l','_','l','a','t',':',' ',' ','4','3','.','7','2','7','3','6','8','0','6','8','6','2','4','2'],
   ['u','l','_','l','o','n',':',' ',' ','7','.','0','4','6','5','9','9','0','0','8','9','6','8','7','8'],
   ['u','r','_','l','a','t',':',' ',' ','4','3','.','7','3','5','1','2','6','7','1','1','8','7','4','9'],
   ['u','r','_','l','o','n',':',' ',' ','7','.','3','0','8','0','5','2','9','3','8','9','4','8','8','4']]

/-- `test_identify_ossim_kwl`. -/
example : identifyOssim (some geom178609) = some "ossimPleiadesModel".toList := by decide +kernel

/-- The parameters of rpc/PHR1B_P_201709281038393_SEN_PRG_FC_178609-001.geom, read by a separate script. -/
def geom178609Params : RpcParams ℚ :=
  { driver := ['o','s','s','i','m','_','k','w','l'],
    offsetAlt := 670,
    scaleAlt := 630,
    offsetY := (54596579840383/1250000000000),
    scaleY := (3693379377121/62500000000000),
    offsetRow := 11470,
    scaleRow := (22939/2),
    offsetX := (717744850367561/100000000000000),
    scaleX := (132212619668901/1000000000000000),
    offsetCol := 20000,
    scaleCol := (39999/2),
    denRow := [1, (153702966600767/100000000000000000), (-850255148536953/1000000000000000000), (-331305939685797/10000000000000000000), (-238994376264613/2500000000000000000), (-345865692724229/1000000000000000000000), (17985932642787/625000000000000000), (-60734500972357/625000000000000000), (393303600277223/1000000000000000000), (-30116913742003/200000000000000000), (11205565753101/1000000000000000000000), (-419615731849281/1000000000000000000000), (-18234760314459/6250000000000000000), (-81660415547141/200000000000000000000), (135877576892493/50000000000000000000), (-51651197026523/25000000000000000000), (-329935306774933/5000000000000000000000), (112248209977311/2500000000000000000000), (-410835079204823/500000000000000000000), (167703898096779/25000000000000000000000)],
    numRow := [(-185020904067451/100000000000000000), (698104447407509/10000000000000000), (-54617662058809/50000000000000), (-21814249276077/1000000000000000), (30292856352719/25000000000000000), (4322480813689/156250000000000000), (40490231149589/5000000000000000000), (-119093530484733/100000000000000000), (114897060816587/100000000000000000), (224620568639661/100000000000000000000), (-360161922714853/100000000000000000000), (-55151765856299/10000000000000000000), (-783514754712989/10000000000000000000), (-13221516310413/1250000000000000000), (55845571447687/500000000000000000), (548333220077419/1000000000000000000), (82455212194987/500000000000000000), (226464059524339/100000000000000000000), (178029600933359/10000000000000000000), (82223749223903/25000000000000000000)],
    denCol := [1, (-181006866369581/500000000000000000), (161936463848829/1000000000000000000), (-20151622933427/40000000000000000), (-196459240941631/10000000000000000000), (24362005157723/20000000000000000000), (-146361989236423/100000000000000000000), (755579559413767/100000000000000000000), (-19806317176603/1250000000000000000), (-112284475568369/100000000000000000000), (-2567943903267/200000000000000000000), (-190491459505649/2500000000000000000000), (44811535557247/200000000000000000000), (924695826346757/10000000000000000000000000), (22144100852189/125000000000000000000), (177190054683119/250000000000000000000), (26893732874889/250000000000000000000000), (-253815234783449/100000000000000000000000), (4560036131867/78125000000000000000), (148022533784893/250000000000000000000000)],
    numCol := [(374321456500487/100000000000000000), (20232240309861/20000000000000), (-21730035251027/200000000000000000), (113280713091793/10000000000000000), (-158400348205981/1000000000000000000), (456165294729941/1000000000000000000), (-31061564718133/250000000000000000), (-21190769977773/6250000000000000), (24630143719713/50000000000000000), (69691081729293/50000000000000000000), (6087371723157/4000000000000000000), (269142726729643/100000000000000000000), (62641339912671/5000000000000000000), (-185906892617881/250000000000000000000), (125591796202999/10000000000000000000), (-96346641322649/500000000000000000), (-62696398870649/200000000000000000000), (-293387312507297/100000000000000000000), (-12042569869777/1000000000000000000), (-108970866389161/10000000000000000000000)],
    numX := none,
    denX := none,
    numY := none,
    denY := none }

/-- `rpc_reader` of the model reads these parameters in the file (test_rpc_drivers: the driver). -/
theorem geom178609_read :
    rpcReader (textEnv none) (oneFile ['r','p','c','/','P','H','R','1','B','_','P','_','2','0','1','7','0','9','2','8','1','0','3','8','3','9','3','_','S','E','N','_','P','R','G','_','F','C','_','1','7','8','6','0','9','-','0','0','1','.','g','e','o','m'] geom178609) ['r','p','c','/','P','H','R','1','B','_','P','_','2','0','1','7','0','9','2','8','1','0','3','8','3','9','3','_','S','E','N','_','P','R','G','_','F','C','_','1','7','8','6','0','9','-','0','0','1','.','g','e','o','m'] true = .ok geom178609Params := by
  decide +kernel

/-- `test_rpc_ossim_kwl`: the reference image position of a ground point. -/
example : invNear (1/100) (401/2) (201/2) (inverseLocPy (rpcOfParams geom178609Params) [some (881082832592221199/125000000000000000)] [some (2186387419721772929/50000000000000000)] [some 0]) = true := by
  decide +kernel

/-- `test_rpc_ossim_kwl` with the C++ model. -/
example : invNear (1/100) (401/2) (201/2) (optimInverse geom178609Params (881082832592221199/125000000000000000) (2186387419721772929/50000000000000000) 0) = true := by
  decide +kernel

/-- The lines of PHR1B_P_201709281038045_SEN_PRG_FC_178608-001.geom, without the adjustment part. -/
def geom178608 : Text :=
  [['b','i','a','s','_','e','r','r','o','r',':',' ',' ','0'],
   ['c','e','9','0','_','a','b','s','o','l','u','t','e',':',' ',' ','0'],
   ['c','e','9','0','_','r','e','l','a','t','i','v','e',':',' ',' ','0'],
   ['c','u','r','r','e','n','t','_','a','d','j','u','s','t','m','e','n','t',':',' ',' ','0'],
   ['h','e','i','g','h','t','_','o','f','f',':',' ',' ','5','8','0'],
   ['h','e','i','g','h','t','_','s','c','a','l','e',':',' ',' ','5','4','0'],
   ['i','m','a','g','e','_','i','d',':',' ',' ','P','R','G','_','F','C','_','1','7','8','6','0','8','-','0','0','1'],
   ['l','a','t','_','o','f','f',':',' ',' ','4','3','.','6','7','7','5','3','4','2','8','4','8','8','0','8'],
   ['l','a','t','_','s','c','a','l','e',':',' ',' ','0','.','0','5','4','3','6','2','1','2','9','4','8','9','0','3','9','3'],
   ['l','i','n','e','_','d','e','n','_','c','o','e','f','f','_','0','0',':',' ',' ','1'],
   ['l','i','n','e','_','d','e','n','_','c','o','e','f','f','_','0','1',':',' ',' ','0','.','0','0','0','7','0','2','3','8','3','6','9','9','0','1','6','9','3','3'],
   ['l','i','n','e','_','d','e','n','_','c','o','e','f','f','_','0','2',':',' ',' ','0','.','0','0','1','4','6','3','7','0','9','5','5','5','3','0','9','1','1'],
   ['l','i','n','e','_','d','e','n','_','c','o','e','f','f','_','0','3',':',' ',' ','-','2','.','1','9','4','7','0','9','6','4','6','5','1','4','3','1','e','-','0','5'],
   ['l','i','n','e','_','d','e','n','_','c','o','e','f','f','_','0','4',':',' ',' ','1','.','1','5','3','0','2','7','1','5','9','7','1','3','4','5','e','-','0','5'],
   ['l','i','n','e','_','d','e','n','_','c','o','e','f','f','_','0','5',':',' ',' ','3','.','8','3','1','0','5','0','1','4','8','2','1','4','5','7','e','-','0','7'],
   ['l','i','n','e','_','d','e','n','_','c','o','e','f','f','_','0','6',':',' ',' ','-','1','.','0','9','8','8','9','5','7','4','2','8','5','4','7','6','e','-','0','5'],
   ['l','i','n','e','_','d','e','n','_','c','o','e','f','f','_','0','7',':',' ',' ','-','6','.','2','1','2','3','6','4','2','1','8','4','7','3','0','9','e','-','0','5'],
   ['l','i','n','e','_','d','e','n','_','c','o','e','f','f','_','0','8',':',' ',' ','0','.','0','0','0','2','0','8','5','0','1','7','6','9','5','8','8','1','9','8'],
   ['l','i','n','e','_','d','e','n','_','c','o','e','f','f','_','0','9',':',' ',' ','-','9','.','3','8','7','1','4','1','3','3','9','0','5','4','5','7','e','-','0','5'],
   ['l','i','n','e','_','d','e','n','_','c','o','e','f','f','_','1','0',':',' ',' ','1','.','5','9','5','7','2','7','9','5','2','2','8','2','6','8','e','-','0','8'],
   ['l','i','n','e','_','d','e','n','_','c','o','e','f','f','_','1','1',':',' ',' ','-','8','.','3','5','3','6','4','6','8','8','7','1','0','4','6','9','e','-','0','8'],
   ['l','i','n','e','_','d','e','n','_','c','o','e','f','f','_','1','2',':',' ',' ','-','1','.','6','3','3','7','1','1','8','8','5','3','0','1','7','8','e','-','0','6'],
   ['l','i','n','e','_','d','e','n','_','c','o','e','f','f','_','1','3',':',' ',' ','-','1','.','2','7','5','4','2','0','6','1','9','3','8','7','9','8','e','-','0','7'],
   ['l','i','n','e','_','d','e','n','_','c','o','e','f','f','_','1','4',':',' ',' ','2','.','0','4','4','5','5','5','2','8','4','9','6','7','8','5','e','-','0','6'],
   ['l','i','n','e','_','d','e','n','_','c','o','e','f','f','_','1','5',':',' ',' ','1','.','0','1','4','4','0','5','2','9','1','7','5','4','7','2','e','-','0','6'],
   ['l','i','n','e','_','d','e','n','_','c','o','e','f','f','_','1','6',':',' ',' ','3','.','2','8','2','0','1','0','2','4','2','9','2','3','4','4','e','-','0','8'],
   ['l','i','n','e','_','d','e','n','_','c','o','e','f','f','_','1','7',':',' ',' ','-','1','.','6','7','5','2','4','3','9','0','7','5','7','5','2','4','e','-','0','8'],
   ['l','i','n','e','_','d','e','n','_','c','o','e','f','f','_','1','8',':',' ',' ','-','4','.','3','3','5','9','5','8','4','4','8','7','4','3','0','4','e','-','0','7'],
   ['l','i','n','e','_','d','e','n','_','c','o','e','f','f','_','1','9',':',' ',' ','2','.','2','3','1','5','2','0','8','2','2','3','2','8','3','7','e','-','0','9'],
   ['l','i','n','e','_','n','u','m','_','c','o','e','f','f','_','0','0',':',' ',' ','0','.','0','0','3','1','3','9','2','4','8','1','9','5','0','8','4','1','8'],
   ['l','i','n','e','_','n','u','m','_','c','o','e','f','f','_','0','1',':',' ',' ','-','0','.','0','2','3','7','4','7','4','3','9','2','7','1','6','8','1','8'],
   ['l','i','n','e','_','n','u','m','_','c','o','e','f','f','_','0','2',':',' ',' ','-','1','.','0','3','7','8','5','7','7','8','3','0','7','5','8','1'],
   ['l','i','n','e','_','n','u','m','_','c','o','e','f','f','_','0','3',':',' ',' ','0','.','0','1','3','6','2','1','0','3','5','0','9','1','8','8','3','5'],
   ['l','i','n','e','_','n','u','m','_','c','o','e','f','f','_','0','4',':',' ',' ','0','.','0','0','0','6','3','9','6','9','2','6','2','7','0','2','9','0','4','6'],
   ['l','i','n','e','_','n','u','m','_','c','o','e','f','f','_','0','5',':',' ',' ','-','8','.','6','4','7','3','0','4','5','2','2','4','9','5','8','2','e','-','0','6'],
   ['l','i','n','e','_','n','u','m','_','c','o','e','f','f','_','0','6',':',' ',' ','2','.','0','0','9','0','1','3','1','2','4','3','2','5','6','7','e','-','0','5'],
   ['l','i','n','e','_','n','u','m','_','c','o','e','f','f','_','0','7',':',' ',' ','-','0','.','0','0','1','5','3','6','9','2','0','2','0','1','9','2','9','1','4'],
   ['l','i','n','e','_','n','u','m','_','c','o','e','f','f','_','0','8',':',' ',' ','-','0','.','0','0','1','7','4','3','0','5','8','5','4','9','1','7','3','2','1'],
   ['l','i','n','e','_','n','u','m','_','c','o','e','f','f','_','0','9',':',' ',' ','-','1','.','3','7','3','5','1','3','8','4','0','6','2','1','8','7','e','-','0','6'],
   ['l','i','n','e','_','n','u','m','_','c','o','e','f','f','_','1','0',':',' ',' ','-','5','.','4','4','1','0','5','8','2','4','0','8','3','8','2','5','e','-','0','7'],
   ['l','i','n','e','_','n','u','m','_','c','o','e','f','f','_','1','1',':',' ',' ','2','.','4','2','4','5','1','7','6','6','6','3','5','4','3','7','e','-','0','6'],
   ['l','i','n','e','_','n','u','m','_','c','o','e','f','f','_','1','2',':',' ',' ','5','.','7','5','3','3','4','8','1','1','0','7','5','0','2','3','e','-','0','6'],
   ['l','i','n','e','_','n','u','m','_','c','o','e','f','f','_','1','3',':',' ',' ','2','.','2','3','7','3','6','5','2','3','0','7','1','7','3','8','e','-','0','6'],
   ['l','i','n','e','_','n','u','m','_','c','o','e','f','f','_','1','4',':',' ',' ','6','.','1','1','9','7','2','7','3','1','5','1','5','4','3','2','e','-','0','5'],
   ['l','i','n','e','_','n','u','m','_','c','o','e','f','f','_','1','5',':',' ',' ','0','.','0','0','0','3','2','9','5','3','2','7','9','3','6','5','3','8','6','5'],
   ['l','i','n','e','_','n','u','m','_','c','o','e','f','f','_','1','6',':',' ',' ','9','.','7','5','2','0','1','5','4','3','4','5','1','4','4','1','e','-','0','5'],
   ['l','i','n','e','_','n','u','m','_','c','o','e','f','f','_','1','7',':',' ',' ','-','8','.','3','2','3','5','4','4','1','7','8','0','6','3','5','4','e','-','0','7'],
   ['l','i','n','e','_','n','u','m','_','c','o','e','f','f','_','1','8',':',' ',' ','-','7','.','3','7','1','3','5','0','7','9','2','0','5','4','3','3','e','-','0','6'],
   ['l','i','n','e','_','n','u','m','_','c','o','e','f','f','_','1','9',':',' ',' ','-','1','.','2','7','8','5','3','4','8','9','5','9','3','4','0','6','e','-','0','6'],
   ['l','i','n','e','_','o','f','f',':',' ',' ','1','1','4','6','9','.','5'],
   ['l','i','n','e','_','s','c','a','l','e',':',' ',' ','1','1','4','6','9','.','5'],
   ['l','l','_','l','a','t',':',' ',' ','4','3','.','6','2','6','5','1','0','3','3','4','9','9','4','6'],
   ['l','l','_','l','o','n',':',' ',' ','7','.','0','5','1','8','3','5','0','9','8','2','7','8','3'],
   ['l','o','n','g','_','o','f','f',':',' ',' ','7','.','1','7','8','1','4','1','4','1','5','4','6','6','4','2'],
   ['l','o','n','g','_','s','c','a','l','e',':',' ',' ','0','.','1','2','6','9','1','5','7','2','7','7','5','0','6','0','2'],
   ['l','r','_','l','a','t',':',' ',' ','4','3','.','6','2','3','8','9','3','4','8','1','2','1','7','6'],
   ['l','r','_','l','o','n',':',' ',' ','7','.','3','0','4','2','3','4','1','1','4','5','7','1','5','6'],
   ['m','e','t','e','r','s','_','p','e','r','_','p','i','x','e','l','_','x',':',' ',' ','0','.','5','0','9','4','1','5','1','7','6','1','9','7','2','5','3'],
   ['m','e','t','e','r','s','_','p','e','r','_','p','i','x','e','l','_','y',':',' ',' ','0','.','5','0','7','4','7','9','7','9','4','9','6','4','8','3'],
   ['n','u','m','b','e','r','_','l','i','n','e','s',':',' ',' ','2','2','9','4','0'],
   ['n','u','m','b','e','r','_','o','f','_','a','d','j','u','s','t','m','e','n','t','s',':',' ',' ','1'],
   ['n','u','m','b','e','r','_','s','a','m','p','l','e','s',':',' ',' ','4','0','0','0','0'],
   ['p','o','l','y','n','o','m','i','a','l','_','f','o','r','m','a','t',':',' ',' ','B'],
   ['r','a','n','d','_','e','r','r','o','r',':',' ',' ','0'],
   ['r','e','c','t',':',' ',' ','0',' ','0',' ','3','9','9','9','9',' ','2','2','9','3','9'],
   ['r','e','f','_','p','o','i','n','t','_','h','g','t',':',' ',' ','5','8','0'],
   ['r','e','f','_','p','o','i','n','t','_','l','a','t',':',' ',' ','4','3','.','6','7','7','6','9','9','0','9','1','3','7','3','5'],
   ['r','e','f','_','p','o','i','n','t','_','l','i','n','e',':',' ',' ','1','1','4','6','9','.','5'],
   ['r','e','f','_','p','o','i','n','t','_','l','o','n',':',' ',' ','7','.','1','7','7','8','7','0','0','9','2','6','4','0','6','5'],
   ['r','e','f','_','p','o','i','n','t','_','s','a','m','p',':',' ',' ','1','9','9','9','9','.','5'],
   ['s','a','m','p','_','d','e','n','_','c','o','e','f','f','_','0','0',':',' ',' ','1'],
   ['s','a','m','p','_','d','e','n','_','c','o','e','f','f','_','0','1',':',' ',' ','-','0','.','0','0','0','3','8','1','1','9','4','5','9','4','0','1','3','2','0','2'],
   ['s','a','m','p','_','d','e','n','_','c','o','e','f','f','_','0','2',':',' ',' ','0','.','0','0','0','2','2','3','6','2','2','0','5','9','2','9','7','6','6','5'],
   ['s','a','m','p','_','d','e','n','_','c','o','e','f','f','_','0','3',':',' ',' ','-','0','.','0','0','0','4','2','2','2','1','7','5','7','0','2','0','3','6','4','1'],
   ['s','a','m','p','_','d','e','n','_','c','o','e','f','f','_','0','4',':',' ',' ','-','2','.','2','6','9','2','3','9','5','4','4','4','1','1','5','7','e','-','0','5'],
   ['s','a','m','p','_','d','e','n','_','c','o','e','f','f','_','0','5',':',' ',' ','9','.','0','9','9','2','7','7','4','1','2','4','0','9','6','8','e','-','0','7'],
   ['s','a','m','p','_','d','e','n','_','c','o','e','f','f','_','0','6',':',' ',' ','-','5','.','7','8','2','2','7','6','1','2','3','5','6','1','1','5','e','-','0','7'],
   ['s','a','m','p','_','d','e','n','_','c','o','e','f','f','_','0','7',':',' ',' ','3','.','3','3','9','2','7','4','6','7','6','9','6','3','1','6','e','-','0','6'],
   ['s','a','m','p','_','d','e','n','_','c','o','e','f','f','_','0','8',':',' ',' ','7','.','7','2','1','9','6','9','5','7','1','2','8','2','5','2','e','-','0','6'],
   ['s','a','m','p','_','d','e','n','_','c','o','e','f','f','_','0','9',':',' ',' ','-','3','.','5','6','1','3','9','7','2','1','0','4','7','7','4','e','-','0','6'],
   ['s','a','m','p','_','d','e','n','_','c','o','e','f','f','_','1','0',':',' ',' ','-','4','.','5','8','8','2','7','2','7','5','4','1','2','4','7','8','e','-','0','8'],
   ['s','a','m','p','_','d','e','n','_','c','o','e','f','f','_','1','1',':',' ',' ','-','8','.','0','0','4','3','0','6','7','3','0','3','5','0','2','7','e','-','0','8'],
   ['s','a','m','p','_','d','e','n','_','c','o','e','f','f','_','1','2',':',' ',' ','7','.','2','3','8','1','7','0','6','7','8','6','6','2','1','3','e','-','0','7'],
   ['s','a','m','p','_','d','e','n','_','c','o','e','f','f','_','1','3',':',' ',' ','-','3','.','1','2','9','3','6','1','0','5','2','3','1','2','3','2','e','-','0','9'],
   ['s','a','m','p','_','d','e','n','_','c','o','e','f','f','_','1','4',':',' ',' ','1','.','6','9','5','3','1','8','2','7','3','5','5','1','2','9','e','-','0','7'],
   ['s','a','m','p','_','d','e','n','_','c','o','e','f','f','_','1','5',':',' ',' ','-','1','.','2','1','8','2','9','1','8','7','0','1','3','6','3','6','e','-','0','6'],
   ['s','a','m','p','_','d','e','n','_','c','o','e','f','f','_','1','6',':',' ',' ','-','2','.','3','1','8','4','5','3','6','5','1','7','1','3','6','5','e','-','0','9'],
   ['s','a','m','p','_','d','e','n','_','c','o','e','f','f','_','1','7',':',' ',' ','3','.','1','0','5','5','7','8','5','9','1','0','0','3','2','9','e','-','0','9'],
   ['s','a','m','p','_','d','e','n','_','c','o','e','f','f','_','1','8',':',' ',' ','4','.','7','6','0','1','3','2','2','2','1','0','7','8','8','3','e','-','0','8'],
   ['s','a','m','p','_','d','e','n','_','c','o','e','f','f','_','1','9',':',' ',' ','2','.','6','4','6','6','3','9','9','0','8','1','3','1','3','4','e','-','0','9'],
   ['s','a','m','p','_','n','u','m','_','c','o','e','f','f','_','0','0',':',' ',' ','0','.','0','0','2','1','7','3','7','0','0','9','2','1','0','7','8','7'],
   ['s','a','m','p','_','n','u','m','_','c','o','e','f','f','_','0','1',':',' ',' ','1','.','0','0','5','2','5','7','1','4','3','6','0','9','7','4'],
   ['s','a','m','p','_','n','u','m','_','c','o','e','f','f','_','0','2',':',' ',' ','0','.','0','0','0','1','1','8','9','2','7','4','4','6','0','9','9','4','8','7'],
   ['s','a','m','p','_','n','u','m','_','c','o','e','f','f','_','0','3',':',' ',' ','0','.','0','0','4','9','2','6','9','0','4','5','5','7','6','1','0','7','7'],
   ['s','a','m','p','_','n','u','m','_','c','o','e','f','f','_','0','4',':',' ',' ','-','0','.','0','0','0','2','2','2','2','1','0','3','1','2','9','2','4','2','1','5'],
   ['s','a','m','p','_','n','u','m','_','c','o','e','f','f','_','0','5',':',' ',' ','0','.','0','0','0','4','0','9','4','4','3','1','2','9','6','7','2','2','6','8'],
   ['s','a','m','p','_','n','u','m','_','c','o','e','f','f','_','0','6',':',' ',' ','-','0','.','0','0','0','1','2','6','5','2','8','2','4','3','6','4','7','5','4','3'],
   ['s','a','m','p','_','n','u','m','_','c','o','e','f','f','_','0','7',':',' ',' ','-','0','.','0','0','1','7','9','6','6','4','0','4','0','1','9','8','9','6','2'],
   ['s','a','m','p','_','n','u','m','_','c','o','e','f','f','_','0','8',':',' ',' ','7','.','8','4','4','0','1','0','3','1','3','6','0','4','2','5','e','-','0','5'],
   ['s','a','m','p','_','n','u','m','_','c','o','e','f','f','_','0','9',':',' ',' ','3','.','3','2','5','4','9','5','3','4','3','3','6','8','5','1','e','-','0','6'],
   ['s','a','m','p','_','n','u','m','_','c','o','e','f','f','_','1','0',':',' ',' ','6','.','7','0','0','7','2','5','8','1','3','7','0','6','9','7','e','-','0','7'],
   ['s','a','m','p','_','n','u','m','_','c','o','e','f','f','_','1','1',':',' ',' ','-','5','.','1','1','3','5','7','3','4','9','3','6','9','5','4','e','-','0','6'],
   ['s','a','m','p','_','n','u','m','_','c','o','e','f','f','_','1','2',':',' ',' ','-','1','.','1','4','8','3','1','4','8','0','7','5','0','3','2','6','e','-','0','5'],
   ['s','a','m','p','_','n','u','m','_','c','o','e','f','f','_','1','3',':',' ',' ','-','3','.','3','0','5','9','4','2','8','7','1','7','0','9','3','7','e','-','0','6'],
   ['s','a','m','p','_','n','u','m','_','c','o','e','f','f','_','1','4',':',' ',' ','1','.','5','2','7','7','0','1','7','3','2','6','1','3','2','9','e','-','0','5'],
   ['s','a','m','p','_','n','u','m','_','c','o','e','f','f','_','1','5',':',' ',' ','-','0','.','0','0','0','1','8','3','1','4','2','0','2','8','7','6','2','8','2','2'],
   ['s','a','m','p','_','n','u','m','_','c','o','e','f','f','_','1','6',':',' ',' ','-','1','.','3','7','3','0','4','0','9','6','5','3','8','7','6','8','e','-','0','7'],
   ['s','a','m','p','_','n','u','m','_','c','o','e','f','f','_','1','7',':',' ',' ','-','1','.','8','1','2','1','2','3','3','6','5','0','3','8','8','4','e','-','0','6'],
   ['s','a','m','p','_','n','u','m','_','c','o','e','f','f','_','1','8',':',' ',' ','7','.','1','0','7','8','7','2','5','1','0','3','6','0','8','5','e','-','0','6'],
   ['s','a','m','p','_','n','u','m','_','c','o','e','f','f','_','1','9',':',' ',' ','-','1','.','5','1','2','1','4','7','2','1','7','3','6','9','4','6','e','-','0','8'],
   ['s','a','m','p','_','o','f','f',':',' ',' ','1','9','9','9','9','.','5'],
   ['s','a','m','p','_','s','c','a','l','e',':',' ',' ','1','9','9','9','9','.','5'],
   ['s','e','n','s','o','r',':',' ',' ','P','H','R',' ','1','B'],
   ['s','u','p','p','o','r','t','_','d','a','t','a','.','a','c','r','o','s','s','_','t','r','a','c','k','_','i','n','c','i','d','e','n','c','e','_','a','n','g','l','e',':',' ',' ','"','"','"','-','5','.','1','8','9','9','1','4','5','1','3','9','3','6','3',' ','-','5','.','3','0','2','5','5','8','6','9','0','8','4','8','2','8',' ','-','5','.','4','4','9','9','1','9','7','0','9','6','4','3','9','3',' ','"','"','"'],
   ['s','u','p','p','o','r','t','_','d','a','t','a','.','a','l','o','n','g','_','t','r','a','c','k','_','i','n','c','i','d','e','n','c','e','_','a','n','g','l','e',':',' ',' ','"','"','"','-','8','.','3','9','7','0','9','0','1','2','1','4','1','3','6','8',' ','-','8','.','4','1','9','7','7','2','8','5','5','8','2','3','0','7',' ','-','8','.','4','3','6','7','6','1','8','0','4','5','6','8','7','9',' ','"','"','"'],
   ['s','u','p','p','o','r','t','_','d','a','t','a','.','a','z','i','m','u','t','h','_','a','n','g','l','e',':',' ',' ','"','"','"','1','6','4','.','8','7','6','1','0','0','3','4','1','9','1',' ','1','6','4','.','8','6','4','6','8','5','7','6','9','2','2','8',' ','1','6','4','.','8','5','1','2','8','4','7','2','3','1','5','4',' ','"','"','"'],
   ['s','u','p','p','o','r','t','_','d','a','t','a','.','b','a','n','d','_','n','a','m','e','_','l','i','s','t',':',' ',' ','"','"','"','P',' ','"','"','"'],
   ['s','u','p','p','o','r','t','_','d','a','t','a','.','e','l','e','v','a','t','i','o','n','_','a','n','g','l','e',':',' ',' ','"','"','"','4','3','.','2','3','3','9','9','7','5','8','2','1','0','4',' ','4','3','.','2','7','8','9','6','8','2','8','3','6','9','2','5',' ','4','3','.','3','3','1','4','8','4','2','8','8','6','5','2','4',' ','"','"','"'],
   ['s','u','p','p','o','r','t','_','d','a','t','a','.','i','m','a','g','e','_','d','a','t','e',':',' ',' ','2','0','1','7','-','0','9','-','2','8','T','1','0',':','3','8',':','0','4','.','5','Z'],
   ['s','u','p','p','o','r','t','_','d','a','t','a','.','i','m','a','g','e','_','i','d',':',' ',' ','P','R','G','_','F','C','_','1','7','8','6','0','8','-','0','0','1'],
   ['s','u','p','p','o','r','t','_','d','a','t','a','.','i','m','a','g','e','_','s','i','z','e',':',' ',' ','4','0','0','0','0',' ','2','2','9','4','0'],
   ['s','u','p','p','o','r','t','_','d','a','t','a','.','i','n','c','i','d','e','n','t','_','a','n','g','l','e',':',' ',' ','"','"','"','9','.','8','3','2','8','9','7','2','9','7','5','4','7','0','5',' ','9','.','9','1','0','1','8','4','3','5','5','0','4','2','8','2',' ','1','0','.','0','0','1','7','2','3','8','8','6','8','2','8','1',' ','"','"','"'],
   ['s','u','p','p','o','r','t','_','d','a','t','a','.','i','n','s','t','r','u','m','e','n','t',':',' ',' ','P','H','R'],
   ['s','u','p','p','o','r','t','_','d','a','t','a','.','i','n','s','t','r','u','m','e','n','t','_','i','n','d','e','x',':',' ',' ','1','B'],
   ['s','u','p','p','o','r','t','_','d','a','t','a','.','l','i','n','e','_','p','e','r','i','o','d',':',' ',' ','0','.','0','7','3','5'],
   ['s','u','p','p','o','r','t','_','d','a','t','a','.','l','l','_','g','r','o','u','n','d','_','p','o','i','n','t',':',' ',' ','4','3','.','6','2','5','9','9','4','4','1','2','5','4','0','3',' ','7','.','0','5','2','2','1','5','6','8','8','8','1','9','3','4',' ','0',' ','W','G','E'],
   ['s','u','p','p','o','r','t','_','d','a','t','a','.','l','r','_','g','r','o','u','n','d','_','p','o','i','n','t',':',' ',' ','4','3','.','6','2','3','1','8','0','6','6','1','0','6','0','4',' ','7','.','3','0','4','9','6','6','5','3','8','3','4','6','5','7',' ','0',' ','W','G','E'],
   ['s','u','p','p','o','r','t','_','d','a','t','a','.','n','u','m','b','e','r','_','b','a','n','d','s',':',' ',' ','1'],
   ['s','u','p','p','o','r','t','_','d','a','t','a','.','n','u','m','b','e','r','_','o','f','_','a','c','r','o','s','s','_','t','r','a','c','k','_','i','n','c','i','d','e','n','c','e','_','a','n','g','l','e',':',' ',' ','3'],
   ['s','u','p','p','o','r','t','_','d','a','t','a','.','n','u','m','b','e','r','_','o','f','_','a','l','o','n','g','_','t','r','a','c','k','_','i','n','c','i','d','e','n','c','e','_','a','n','g','l','e',':',' ',' ','3'],
   ['s','u','p','p','o','r','t','_','d','a','t','a','.','n','u','m','b','e','r','_','o','f','_','a','z','i','m','u','t','h','_','a','n','g','l','e',':',' ',' ','3'],
   ['s','u','p','p','o','r','t','_','d','a','t','a','.','n','u','m','b','e','r','_','o','f','_','e','l','e','v','a','t','i','o','n','_','a','n','g','l','e',':',' ',' ','3'],
   ['s','u','p','p','o','r','t','_','d','a','t','a','.','n','u','m','b','e','r','_','o','f','_','i','n','c','i','d','e','n','t','_','a','n','g','l','e',':',' ',' ','3'],
   ['s','u','p','p','o','r','t','_','d','a','t','a','.','n','u','m','b','e','r','_','o','f','_','s','c','e','n','e','_','o','r','i','e','n','t','a','t','i','o','n',':',' ',' ','3'],
   ['s','u','p','p','o','r','t','_','d','a','t','a','.','n','u','m','b','e','r','_','o','f','_','v','i','e','w','i','n','g','_','a','n','g','l','e',':',' ',' ','3'],
   ['s','u','p','p','o','r','t','_','d','a','t','a','.','p','h','y','s','i','c','a','l','_','b','i','a','s',':',' ',' ','"','"','"','0',' ','"','"','"'],
   ['s','u','p','p','o','r','t','_','d','a','t','a','.','p','h','y','s','i','c','a','l','_','g','a','i','n',':',' ',' ','"','"','"','1','2','.','1','9',' ','"','"','"'],
   ['s','u','p','p','o','r','t','_','d','a','t','a','.','p','r','o','c','e','s','s','i','n','g','_','l','e','v','e','l',':',' ',' ','S','E','N','S','O','R'],
   ['s','u','p','p','o','r','t','_','d','a','t','a','.','p','r','o','d','u','c','t','i','o','n','_','d','a','t','e',':',' ',' ','2','0','1','8','-','0','7','-','1','9','T','0','7',':','0','6',':','2','2','.','6','7','3'],
   ['s','u','p','p','o','r','t','_','d','a','t','a','.','r','e','f','e','r','e','n','c','e','_','g','r','o','u','n','d','_','p','o','i','n','t',':',' ',' ','4','3','.','6','7','7','2','6','0','3','8','5','8','4','4','1',' ','7','.','1','7','8','3','7','4','9','8','1','5','4','7','8','5',' ','0',' ','W','G','E'],
   ['s','u','p','p','o','r','t','_','d','a','t','a','.','r','e','f','e','r','e','n','c','e','_','i','m','a','g','e','_','p','o','i','n','t',':',' ',' ','2','0','0','0','0',' ','1','1','4','7','0'],
   ['s','u','p','p','o','r','t','_','d','a','t','a','.','s','c','e','n','e','_','o','r','i','e','n','t','a','t','i','o','n',':',' ',' ','"','"','"','1','8','0','.','0','0','6','2','9','2','5','6','5','6','3','9',' ','1','7','9','.','9','7','3','6','6','1','4','6','8','1','7','9',' ','1','8','0','.','0','4','5','4','7','9','3','2','5','4','3','4',' ','"','"','"'],
   ['s','u','p','p','o','r','t','_','d','a','t','a','.','s','e','n','s','o','r','I','D',':',' ',' ','P','H','R',' ','1','B'],
   ['s','u','p','p','o','r','t','_','d','a','t','a','.','s','o','l','a','r','_','i','r','r','a','d','i','a','n','c','e',':',' ',' ','"','"','"','1','5','4','8',' ','"','"','"'],
   ['s','u','p','p','o','r','t','_','d','a','t','a','.','s','w','a','t','h','_','f','i','r','s','t','_','c','o','l',':',' ',' ','1'],
   ['s','u','p','p','o','r','t','_','d','a','t','a','.','s','w','a','t','h','_','l','a','s','t','_','c','o','l',':',' ',' ','4','0','0','0','0'],
   ['s','u','p','p','o','r','t','_','d','a','t','a','.','t','i','m','e','_','r','a','n','g','e','_','e','n','d',':',' ',' ','2','0','1','7','-','0','9','-','2','8','T','1','0',':','3','8',':','0','6','.','2','6','1','0','0','0','0','Z'],
   ['s','u','p','p','o','r','t','_','d','a','t','a','.','t','i','m','e','_','r','a','n','g','e','_','s','t','a','r','t',':',' ',' ','2','0','1','7','-','0','9','-','2','8','T','1','0',':','3','8',':','0','4','.','5','7','4','0','0','0','0','Z'],
   ['s','u','p','p','o','r','t','_','d','a','t','a','.','t','y','p','e',':',' ',' ','o','s','s','i','m','P','l','e','i','a','d','e','s','D','i','m','a','p','S','u','p','p','o','r','t','D','a','t','a'],
   ['s','u','p','p','o','r','t','_','d','a','t','a','.','u','l','_','g','r','o','u','n','d','_','p','o','i','n','t',':',' ',' ','4','3','.','7','3','1','4','7','8','3','5','3','5','1','8','5',' ','7','.','0','5','1','5','1','9','6','9','4','2','3','5','5','1',' ','0',' ','W','G','E'],
   ['s','u','p','p','o','r','t','_','d','a','t','a','.','u','r','_','g','r','o','u','n','d','_','p','o','i','n','t',':',' ',' ','4','3','.','7','2','8','3','8','8','1','1','6','2','5','7','2',' ','7','.','3','0','4','7','9','8','0','0','4','7','8','9','9','8',' ','0',' ','W','G','E'],
   ['s','u','p','p','o','r','t','_','d','a','t','a','.','v','i','e','w','i','n','g','_','a','n','g','l','e',':',' ',' ','"','"','"','8','.','9','9','3','7','1','7','6','5','8','2','8','0','0','1',' ','9','.','0','6','2','3','0','1','7','6','9','7','7','0','6','8',' ','9','.','1','4','3','5','4','9','5','6','6','8','3','4','1','5',' ','"','"','"'],
   ['t','y','p','e',':',' ',' ','o','s','s','i','m','P','l','e','i','a','d','e','s','M','o','d','e','l'],
   ['u','l','_','l','a','t',':',' ',' ','4','3','.','7','3','1','1','7','8','2','0','4','5','7','7','8'],
   ['u','l','_','l','o','n',':',' ',' ','7','.','0','5','1','7','2','9','6','4','6','7','6','8','3','7'],
   ['u','r','_','l','a','t',':',' ',' ','4','3','.','7','2','8','8','4','3','1','8','6','3','7','1','4'],
   ['u','r','_','l','o','n',':',' ',' ','7','.','3','0','4','3','4','6','6','8','1','2','6','0','3','4']]

/-- `test_identify_ossim_kwl`. -/
example : identifyOssim (some geom178608) = some "ossimPleiadesModel".toList := by decide +kernel

/-- The parameters of rpc/PHR1B_P_201709281038045_SEN_PRG_FC_178608-001.geom, read by a separate script. -/
def geom178608Params : RpcParams ℚ :=
  { driver := ['o','s','s','i','m','_','k','w','l'],
    offsetAlt := 580,
    scaleAlt := 540,
    offsetY := (54596917856101/1250000000000),
    scaleY := (543621294890393/10000000000000000),
    offsetRow := 11470,
    scaleRow := (22939/2),
    offsetX := (358907070773321/50000000000000),
    scaleX := (63457863875301/500000000000000),
    offsetCol := 20000,
    scaleCol := (39999/2),
    denRow := [1, (702383699016933/1000000000000000000), (146370955530911/100000000000000000), (-219470964651431/10000000000000000000), (23060543194269/2000000000000000000), (383105014821457/1000000000000000000000), (-27472393571369/2500000000000000000), (-621236421847309/10000000000000000000), (104250884794099/500000000000000000), (-938714133905457/10000000000000000000), (39893198807067/2500000000000000000000), (-835364688710469/10000000000000000000000), (-81685594265089/50000000000000000000), (-63771030969399/500000000000000000000), (40891105699357/20000000000000000000), (6340033073467/6250000000000000000), (41025128036543/1250000000000000000000), (-41881097689381/2500000000000000000000), (-6774935076161/15625000000000000000), (223152082232837/100000000000000000000000)],
    numRow := [(156962409754209/50000000000000000), (-118737196358409/5000000000000000), (-103785778307581/100000000000000), (27242070183767/2000000000000000), (319846313514523/500000000000000000), (-432365226124791/50000000000000000000), (200901312432567/10000000000000000000), (-76846010096457/50000000000000000), (-174305854917321/100000000000000000), (-137351384062187/100000000000000000000), (-21764232963353/40000000000000000000), (242451766635437/100000000000000000000), (575334811075023/100000000000000000000), (111868261535869/50000000000000000000), (76496591439429/1250000000000000000), (65906558730773/200000000000000000), (975201543451441/10000000000000000000), (-416177208903177/500000000000000000000), (-737135079205433/100000000000000000000), (-63926744796703/50000000000000000000)],
    denCol := [1, (-190597297006601/500000000000000000), (44724411859533/200000000000000000), (-422217570203641/1000000000000000000), (-226923954441157/10000000000000000000), (113740967655121/125000000000000000000), (-115645522471223/200000000000000000000), (83481866924079/25000000000000000000), (193049239282063/25000000000000000000), (-17806986052387/5000000000000000000), (-229413637706239/5000000000000000000000), (-800430673035027/10000000000000000000000), (723817067866213/1000000000000000000000), (-2444813322119/781250000000000000000), (169531827355129/1000000000000000000000), (-30457296753409/25000000000000000000), (-46369073034273/20000000000000000000000), (310557859100329/100000000000000000000000), (476013222107883/10000000000000000000000), (132331995406567/50000000000000000000000)],
    numCol := [(21737009210787/10000000000000000), (50262857180487/50000000000000), (118927446099487/1000000000000000000), (492690455761077/100000000000000000), (-44442062584843/200000000000000000), (102360782418067/250000000000000000), (-126528243647543/1000000000000000000), (-89832020099481/50000000000000000), (31376041254417/400000000000000000), (332549534336851/100000000000000000000), (670072581370697/1000000000000000000000), (-25567867468477/5000000000000000000), (-57415740375163/5000000000000000000), (-330594287170937/100000000000000000000), (152770173261329/10000000000000000000), (-91571014381411/500000000000000000), (-8581506033673/62500000000000000000), (-45303084125971/25000000000000000000), (142157450207217/20000000000000000000), (-75607360868473/5000000000000000000000)],
    numX := none,
    denX := none,
    numY := none,
    denY := none }

/-- `rpc_reader` of the model reads these parameters in the file (test_rpc_drivers: the driver). -/
theorem geom178608_read :
    rpcReader (textEnv none) (oneFile ['r','p','c','/','P','H','R','1','B','_','P','_','2','0','1','7','0','9','2','8','1','0','3','8','0','4','5','_','S','E','N','_','P','R','G','_','F','C','_','1','7','8','6','0','8','-','0','0','1','.','g','e','o','m'] geom178608) ['r','p','c','/','P','H','R','1','B','_','P','_','2','0','1','7','0','9','2','8','1','0','3','8','0','4','5','_','S','E','N','_','P','R','G','_','F','C','_','1','7','8','6','0','8','-','0','0','1','.','g','e','o','m'] true = .ok geom178608Params := by
  decide +kernel

/-- `test_rpc_ossim_kwl`: the reference image position of a ground point. -/
example : invNear (1/100) (10236431/1000) (101215657/10000) (inverseLocPy (rpcOfParams geom178608Params) [some (88940761037094673291392155079/12500000000000000000000000000)] [some (43684281179313565246502548689/1000000000000000000000000000)] [some 850]) = true := by
  decide +kernel

/-- `test_rpc_ossim_kwl` with the C++ model. -/
example : invNear (1/100) (10236431/1000) (101215657/10000) (optimInverse geom178608Params (88940761037094673291392155079/12500000000000000000000000000) (43684281179313565246502548689/1000000000000000000000000000) 850) = true := by
  decide +kernel


end Shareloc.Validation
