import Verif.Validation.RectSupport
import Verif.Model.Triangulation

/-!
Written by tools/validation.py from tests/data, tests/geofunctions/test_triangulation.py, test_rectification.py and tests/geomodels/test_los.py of /repo.  The model evaluated on the data of the tests: a check of the model
against the reference values of the repository, not a proof of a property.
-/

set_option maxRecDepth 100000

namespace Shareloc.Validation

/-- The parameters of PHR1B_P_201709281038045_SEN_PRG_FC_178608-001.geom. -/
def siftLParams : RpcParams ℚ :=
  { driver := ['o','s','s','i','m','_','k','w','l'],
    offsetAlt := 580,
    scaleAlt := 540,
    offsetY := (54596917856101/1250000000000),
    scaleY := (543621294890393/10000000000000000),
    offsetRow := 11470,
    scaleRow := (22939/2),
    offsetX := (358907070773321/50000000000000),
    scaleX := (63457863875301/500000000000000),
    offsetCol := 20000,
    scaleCol := (39999/2),
    denRow := [1, (702383699016933/1000000000000000000), (146370955530911/100000000000000000), (-219470964651431/10000000000000000000), (23060543194269/2000000000000000000), (383105014821457/1000000000000000000000), (-27472393571369/2500000000000000000), (-621236421847309/10000000000000000000), (104250884794099/500000000000000000), (-938714133905457/10000000000000000000), (39893198807067/2500000000000000000000), (-835364688710469/10000000000000000000000), (-81685594265089/50000000000000000000), (-63771030969399/500000000000000000000), (40891105699357/20000000000000000000), (6340033073467/6250000000000000000), (41025128036543/1250000000000000000000), (-41881097689381/2500000000000000000000), (-6774935076161/15625000000000000000), (223152082232837/100000000000000000000000)],
    numRow := [(156962409754209/50000000000000000), (-118737196358409/5000000000000000), (-103785778307581/100000000000000), (27242070183767/2000000000000000), (319846313514523/500000000000000000), (-432365226124791/50000000000000000000), (200901312432567/10000000000000000000), (-76846010096457/50000000000000000), (-174305854917321/100000000000000000), (-137351384062187/100000000000000000000), (-21764232963353/40000000000000000000), (242451766635437/100000000000000000000), (575334811075023/100000000000000000000), (111868261535869/50000000000000000000), (76496591439429/1250000000000000000), (65906558730773/200000000000000000), (975201543451441/10000000000000000000), (-416177208903177/500000000000000000000), (-737135079205433/100000000000000000000), (-63926744796703/50000000000000000000)],
    denCol := [1, (-190597297006601/500000000000000000), (44724411859533/200000000000000000), (-422217570203641/1000000000000000000), (-226923954441157/10000000000000000000), (113740967655121/125000000000000000000), (-115645522471223/200000000000000000000), (83481866924079/25000000000000000000), (193049239282063/25000000000000000000), (-17806986052387/5000000000000000000), (-229413637706239/5000000000000000000000), (-800430673035027/10000000000000000000000), (723817067866213/1000000000000000000000), (-2444813322119/781250000000000000000), (169531827355129/1000000000000000000000), (-30457296753409/25000000000000000000), (-46369073034273/20000000000000000000000), (310557859100329/100000000000000000000000), (476013222107883/10000000000000000000000), (132331995406567/50000000000000000000000)],
    numCol := [(21737009210787/10000000000000000), (50262857180487/50000000000000), (118927446099487/1000000000000000000), (492690455761077/100000000000000000), (-44442062584843/200000000000000000), (102360782418067/250000000000000000), (-126528243647543/1000000000000000000), (-89832020099481/50000000000000000), (31376041254417/400000000000000000), (332549534336851/100000000000000000000), (670072581370697/1000000000000000000000), (-25567867468477/5000000000000000000), (-57415740375163/5000000000000000000), (-330594287170937/100000000000000000000), (152770173261329/10000000000000000000), (-91571014381411/500000000000000000), (-8581506033673/62500000000000000000), (-45303084125971/25000000000000000000), (142157450207217/20000000000000000000), (-75607360868473/5000000000000000000000)],
    numX := none,
    denX := none,
    numY := none,
    denY := none }

/-- The model of PHR1B_P_201709281038045_SEN_PRG_FC_178608-001.geom. -/
def siftLModel : LosModel ℚ := losR (rpcOfParams siftLParams)

/-- The nodes of rectification_grids/left_epipolar_grid.tif around the matches. -/
def siftLGrid : RectGrid ℚ :=
  readRectGrid ⟨12, 12, ⟨30, 0, (-15), 0, 30, (-15)⟩, fewCells [
   ((4, 8), (10140053/1024), (323155/32)),
   ((4, 9), (10101489/1024), (5185331/512)),
   ((5, 8), (631897/64), (10302397/1024)),
   ((5, 9), (2517947/256), (5166049/512))]⟩ true

/-- The parameters of PHR1B_P_201709281038393_SEN_PRG_FC_178609-001.geom. -/
def siftRParams : RpcParams ℚ :=
  { driver := ['o','s','s','i','m','_','k','w','l'],
    offsetAlt := 670,
    scaleAlt := 630,
    offsetY := (54596579840383/1250000000000),
    scaleY := (3693379377121/62500000000000),
    offsetRow := 11470,
    scaleRow := (22939/2),
    offsetX := (717744850367561/100000000000000),
    scaleX := (132212619668901/1000000000000000),
    offsetCol := 20000,
    scaleCol := (39999/2),
    denRow := [1, (153702966600767/100000000000000000), (-850255148536953/1000000000000000000), (-331305939685797/10000000000000000000), (-238994376264613/2500000000000000000), (-345865692724229/1000000000000000000000), (17985932642787/625000000000000000), (-60734500972357/625000000000000000), (393303600277223/1000000000000000000), (-30116913742003/200000000000000000), (11205565753101/1000000000000000000000), (-419615731849281/1000000000000000000000), (-18234760314459/6250000000000000000), (-81660415547141/200000000000000000000), (135877576892493/50000000000000000000), (-51651197026523/25000000000000000000), (-329935306774933/5000000000000000000000), (112248209977311/2500000000000000000000), (-410835079204823/500000000000000000000), (167703898096779/25000000000000000000000)],
    numRow := [(-185020904067451/100000000000000000), (698104447407509/10000000000000000), (-54617662058809/50000000000000), (-21814249276077/1000000000000000), (30292856352719/25000000000000000), (4322480813689/156250000000000000), (40490231149589/5000000000000000000), (-119093530484733/100000000000000000), (114897060816587/100000000000000000), (224620568639661/100000000000000000000), (-360161922714853/100000000000000000000), (-55151765856299/10000000000000000000), (-783514754712989/10000000000000000000), (-13221516310413/1250000000000000000), (55845571447687/500000000000000000), (548333220077419/1000000000000000000), (82455212194987/500000000000000000), (226464059524339/100000000000000000000), (178029600933359/10000000000000000000), (82223749223903/25000000000000000000)],
    denCol := [1, (-181006866369581/500000000000000000), (161936463848829/1000000000000000000), (-20151622933427/40000000000000000), (-196459240941631/10000000000000000000), (24362005157723/20000000000000000000), (-146361989236423/100000000000000000000), (755579559413767/100000000000000000000), (-19806317176603/1250000000000000000), (-112284475568369/100000000000000000000), (-2567943903267/200000000000000000000), (-190491459505649/2500000000000000000000), (44811535557247/200000000000000000000), (924695826346757/10000000000000000000000000), (22144100852189/125000000000000000000), (177190054683119/250000000000000000000), (26893732874889/250000000000000000000000), (-253815234783449/100000000000000000000000), (4560036131867/78125000000000000000), (148022533784893/250000000000000000000000)],
    numCol := [(374321456500487/100000000000000000), (20232240309861/20000000000000), (-21730035251027/200000000000000000), (113280713091793/10000000000000000), (-158400348205981/1000000000000000000), (456165294729941/1000000000000000000), (-31061564718133/250000000000000000), (-21190769977773/6250000000000000), (24630143719713/50000000000000000), (69691081729293/50000000000000000000), (6087371723157/4000000000000000000), (269142726729643/100000000000000000000), (62641339912671/5000000000000000000), (-185906892617881/250000000000000000000), (125591796202999/10000000000000000000), (-96346641322649/500000000000000000), (-62696398870649/200000000000000000000), (-293387312507297/100000000000000000000), (-12042569869777/1000000000000000000), (-108970866389161/10000000000000000000000)],
    numX := none,
    denX := none,
    numY := none,
    denY := none }

/-- The model of PHR1B_P_201709281038393_SEN_PRG_FC_178609-001.geom. -/
def siftRModel : LosModel ℚ := losR (rpcOfParams siftRParams)

/-- The nodes of rectification_grids/right_epipolar_grid.tif around the matches. -/
def siftRGrid : RectGrid ℚ :=
  readRectGrid ⟨12, 12, ⟨30, 0, (-15), 0, 30, (-15)⟩, fewCells [
   ((4, 8), (2818471413438213/274877906944), (5431283524830387/549755813888)),
   ((4, 9), (5616619828680969/549755813888), (5445635919068707/549755813888)),
   ((5, 8), (2810837359351725/274877906944), (1352330951194419/137438953472)),
   ((5, 9), (5601360310442585/549755813888), (1355910191383951/137438953472))]⟩ true

/-- `test_epi_triangulation_sift_rpc`: the first match of matches-crop.npy. -/
example : ecefNear (1 / 1000) (458434137359843123704195022583/100000000000000000000000) (572313675204274943098425865173/1000000000000000000000000) (438278451356450468301773071289/100000000000000000000000)
    (epipolarTriangulation rsqrt ecefR id siftLModel siftRModel (interpR siftLGrid) (interpR siftRGrid)
      (.sift [((some (2148013/8192), some (8925761/65536)), (some (589411934302669/2199023255552), some (1196662742941953/8796093022208)))]) none none none false false) = true := by
  decide +kernel

/-- The parameters of phr_gizeh/img1.geom. -/
def gizehLParams : RpcParams ℚ :=
  { driver := ['o','s','s','i','m','_','k','w','l'],
    offsetAlt := 140,
    scaleAlt := 130,
    offsetY := (37466876729323/1250000000000),
    scaleY := (65783236053023/1250000000000000),
    offsetRow := 6822,
    scaleRow := (13643/2),
    offsetX := (1945483497023/62500000000),
    scaleX := (30205366786471/250000000000000),
    offsetCol := 20000,
    scaleCol := (39999/2),
    denRow := [1, (-163389074703761/50000000000000000), (-869680689632271/1000000000000000000), (721844027172647/100000000000000000000), (-106945100969441/1000000000000000000), (317674547840937/5000000000000000000000), (214005341017041/1000000000000000000000), (-22868328008997/1250000000000000000), (-53576911296601/500000000000000000), (15482149561159/1000000000000000000), (195235423507557/10000000000000000000000), (52382624149953/2000000000000000000000), (-189248062739459/500000000000000000000), (-164550188915539/2500000000000000000000), (68468463435031/250000000000000000000), (-797234856249/500000000000000000), (-936743785088801/100000000000000000000000), (439504944846541/100000000000000000000000), (48056938939021/2000000000000000000000), (71769927758979/500000000000000000000000)],
    numRow := [(-166398678739903/100000000000000000), (-22174853456063/31250000000000), (-161293523407497/100000000000000), (869401000659517/1000000000000000000), (-140049891665949/500000000000000000), (218398153939707/100000000000000000000), (262508331860237/100000000000000000000), (-46072083297133/20000000000000000), (124810936320429/100000000000000000), (-530827297368849/10000000000000000000000), (51847473496319/500000000000000000000), (-51081542969509/5000000000000000000), (-45210880272999/1000000000000000000), (-55254294808083/5000000000000000000), (-26244815974821/1000000000000000000), (-631817997183451/10000000000000000000), (-31348331764411/1250000000000000000), (67509799802251/1250000000000000000000), (34845675640147/625000000000000000000), (34315176243153/2500000000000000000000)],
    denCol := [1, (568017225001563/10000000000000000000), (772770463369359/1000000000000000000), (-487839080635769/5000000000000000000), (135669154023277/2500000000000000000), (-603799595964079/1000000000000000000000), (-195737459565261/10000000000000000000000), (430688536470337/50000000000000000000), (25230565574359/200000000000000000), (-734326309347047/100000000000000000000), (-116842221893371/10000000000000000000000), (20872794987253/62500000000000000000), (304665055993993/100000000000000000000), (384053928510621/10000000000000000000000), (87617444665587/50000000000000000000), (225982647564251/100000000000000000000), (-365006148469011/50000000000000000000000), (-94230810041421/12500000000000000000000), (-130751375329747/5000000000000000000000), (138339863192309/100000000000000000000000)],
    numCol := [(-553762503327069/100000000000000000), (51259967799049/50000000000000), (-3658423911179/31250000000000), (-100833464750029/25000000000000000), (-146290099846167/100000000000000000), (723715795618919/10000000000000000000), (-884033686765469/100000000000000000000), (66438289772291/12500000000000000), (-336002722943391/500000000000000000), (-14926286698301/62500000000000000000), (99730664140033/5000000000000000000000), (137271957646307/100000000000000000000), (-77244538913223/500000000000000000), (-187947010157811/25000000000000000000), (-783790689022153/10000000000000000000), (-11152048854337/50000000000000000), (858554692570267/1000000000000000000000), (428961869794431/500000000000000000000), (-498790362417651/5000000000000000000000), (14783667071979/500000000000000000000)],
    numX := none,
    denX := none,
    numY := none,
    denY := none }

/-- The model of phr_gizeh/img1.geom. -/
def gizehLModel : LosModel ℚ := losR (rpcOfParams gizehLParams)

/-- The nodes of rectification_grids/phr_gizeh/left_epi_grid.tif around the matches. -/
def gizehLGrid : RectGrid ℚ :=
  readRectGrid ⟨29, 29, ⟨30, 0, (-15), 0, 30, (-15)⟩, fewCells [
   ((13, 10), (358805939829427/17179869184), (6057363390340861/1099511627776)),
   ((13, 11), (5740744898002893/274877906944), (1506095877266679/274877906944)),
   ((14, 10), (1437285002289983/68719476736), (3028382592937063/549755813888)),
   ((14, 11), (5748989868967735/274877906944), (6023785304667303/1099511627776))]⟩ false

/-- The parameters of phr_gizeh/img2.geom. -/
def gizehRParams : RpcParams ℚ :=
  { driver := ['o','s','s','i','m','_','k','w','l'],
    offsetAlt := 140,
    scaleAlt := 130,
    offsetY := (18733662979967/625000000000),
    scaleY := (261398280898817/5000000000000000),
    offsetRow := 7226,
    scaleRow := (14451/2),
    offsetX := (62255635640179/2000000000000),
    scaleX := (122502999689379/1000000000000000),
    offsetCol := 20000,
    scaleCol := (39999/2),
    denRow := [1, (-302100649283181/100000000000000000), (-62609389833239/100000000000000000), (152355074494269/25000000000000000000), (4083709850717/31250000000000000), (-259620215515951/500000000000000000000), (-8164675710589/12500000000000000000), (135540332044209/10000000000000000000), (6157580351421/50000000000000000), (-2046228832819/100000000000000000), (-204234606710057/5000000000000000000000), (611529430309903/1000000000000000000000), (41415477555757/25000000000000000000), (789097946651273/10000000000000000000000), (43169688990299/20000000000000000000), (-631761528068969/1000000000000000000000), (-103659246459643/10000000000000000000000), (-16932507841/1562500000000000000), (-187953641795333/5000000000000000000000), (-68879916986657/500000000000000000000000)],
    numRow := [(-9910112204311/6250000000000000), (-592818686716127/1000000000000000), (-30147992922973/20000000000000), (8612211408689/2500000000000000), (-210564855171373/500000000000000000), (383869323608741/100000000000000000000), (-54932637179051/50000000000000000000), (-121927467705829/50000000000000000), (133548905938607/100000000000000000), (-141540344244933/5000000000000000000000), (666790385813277/10000000000000000000000), (352688114923737/50000000000000000000), (665666444487973/10000000000000000000), (120884747721981/10000000000000000000), (39611247430959/1000000000000000000), (350624540252147/5000000000000000000), (307738781798399/10000000000000000000), (574236619035731/10000000000000000000000), (-209835824744957/500000000000000000000), (-699274781008989/10000000000000000000000)],
    denCol := [1, (110601820888193/10000000000000000000), (2012107857413/3125000000000000), (-246371964348911/2500000000000000000), (177773016475549/5000000000000000000), (-163395496631071/250000000000000000000), (-61079343945947/200000000000000000000), (178661640721987/25000000000000000000), (895792108720713/10000000000000000000), (-328147597527323/50000000000000000000), (-788264477921/62500000000000000000), (196702748409807/1000000000000000000000), (49151226821163/25000000000000000000), (170025998741043/5000000000000000000000), (54652082318647/50000000000000000000), (3155547216699/2000000000000000000), (-721380582392389/100000000000000000000000), (-108182790879287/12500000000000000000000), (-64450667201561/2500000000000000000000), (120609973790041/100000000000000000000000)],
    numCol := [(-560465759084967/100000000000000000), (103555664021171/100000000000000), (-57855123218171/500000000000000), (-199956915444177/50000000000000000), (-5171898808251/4000000000000000), (181807198907473/2500000000000000000), (-355682906605291/50000000000000000000), (272475016676531/50000000000000000), (-201522381019729/500000000000000000), (-121060016166759/500000000000000000000), (384300363275917/1000000000000000000000), (370496883840989/50000000000000000000), (-27651081917483/250000000000000000), (-33839790009257/5000000000000000000), (-548689969257299/10000000000000000000), (-17920986117017/100000000000000000), (776708878554717/1000000000000000000000), (47244918277621/50000000000000000000), (217852547434831/250000000000000000000), (51664391494169/2000000000000000000000)],
    numX := none,
    denX := none,
    numY := none,
    denY := none }

/-- The model of phr_gizeh/img2.geom. -/
def gizehRModel : LosModel ℚ := losR (rpcOfParams gizehRParams)

/-- The nodes of rectification_grids/phr_gizeh/right_epi_grid.tif around the matches. -/
def gizehRGrid : RectGrid ℚ :=
  readRectGrid ⟨29, 29, ⟨30, 0, (-15), 0, 30, (-15)⟩, fewCells [
   ((14, 10), (5748330258563147/274877906944), (3309948008257579/549755813888)),
   ((14, 11), (359261497742255/17179869184), (6587223377186543/1099511627776)),
   ((15, 10), (2878271829336279/137438953472), (3310091071657597/549755813888)),
   ((15, 11), (5756397369814051/274877906944), (6587510566447733/1099511627776))]⟩ false

/-- `test_epi_triangulation_sift_rpc_loc_grid`: the first match. -/
example : ecefNear (1 / 1000) (473300744057619/100000000) (142952352531141/50000000) (39604127485881/12500000)
    (epipolarTriangulation rsqrt ecefR id gizehLModel gizehRModel (interpR gizehLGrid) (interpR gizehRGrid)
      (.sift [((some 300, some 400), (some 302, some 420))]) none none none false false) = true := by
  decide +kernel

/-- The parameters of RPC_P1BP--2017092838284574CP.XML. -/
def losPParams : RpcParams ℚ :=
  { driver := ['d','i','m','a','p','_','v','2','.','1','5'],
    offsetAlt := 580,
    scaleAlt := 540,
    offsetY := (4367753428488081/100000000000000),
    scaleY := (5436212948903929/100000000000000000),
    offsetRow := 11470,
    scaleRow := (22939/2),
    offsetX := (7178141415466419/1000000000000000),
    scaleX := (1269157277506023/10000000000000000),
    offsetCol := 20000,
    scaleCol := (39999/2),
    denRow := [1, (702383699016933/1000000000000000000), (146370955530911/100000000000000000), (-219470964651431/10000000000000000000), (23060543194269/2000000000000000000), (383105014821457/1000000000000000000000), (-27472393571369/2500000000000000000), (-621236421847309/10000000000000000000), (104250884794099/500000000000000000), (-938714133905457/10000000000000000000), (39893198807067/2500000000000000000000), (-835364688710469/10000000000000000000000), (-81685594265089/50000000000000000000), (-63771030969399/500000000000000000000), (40891105699357/20000000000000000000), (6340033073467/6250000000000000000), (41025128036543/1250000000000000000000), (-41881097689381/2500000000000000000000), (-6774935076161/15625000000000000000), (223152082232837/100000000000000000000000)],
    numRow := [(156962409754209/50000000000000000), (-118737196358409/5000000000000000), (-103785778307581/100000000000000), (27242070183767/2000000000000000), (319846313514523/500000000000000000), (-432365226124791/50000000000000000000), (200901312432567/10000000000000000000), (-76846010096457/50000000000000000), (-174305854917321/100000000000000000), (-137351384062187/100000000000000000000), (-21764232963353/40000000000000000000), (242451766635437/100000000000000000000), (575334811075023/100000000000000000000), (111868261535869/50000000000000000000), (76496591439429/1250000000000000000), (65906558730773/200000000000000000), (975201543451441/10000000000000000000), (-416177208903177/500000000000000000000), (-737135079205433/100000000000000000000), (-63926744796703/50000000000000000000)],
    denCol := [1, (-190597297006601/500000000000000000), (44724411859533/200000000000000000), (-422217570203641/1000000000000000000), (-226923954441157/10000000000000000000), (113740967655121/125000000000000000000), (-115645522471223/200000000000000000000), (83481866924079/25000000000000000000), (193049239282063/25000000000000000000), (-17806986052387/5000000000000000000), (-229413637706239/5000000000000000000000), (-800430673035027/10000000000000000000000), (723817067866213/1000000000000000000000), (-2444813322119/781250000000000000000), (169531827355129/1000000000000000000000), (-30457296753409/25000000000000000000), (-46369073034273/20000000000000000000000), (310557859100329/100000000000000000000000), (476013222107883/10000000000000000000000), (132331995406567/50000000000000000000000)],
    numCol := [(21737009210787/10000000000000000), (50262857180487/50000000000000), (118927446099487/1000000000000000000), (492690455761077/100000000000000000), (-44442062584843/200000000000000000), (102360782418067/250000000000000000), (-126528243647543/1000000000000000000), (-89832020099481/50000000000000000), (31376041254417/400000000000000000), (332549534336851/100000000000000000000), (670072581370697/1000000000000000000000), (-25567867468477/5000000000000000000), (-57415740375163/5000000000000000000), (-330594287170937/100000000000000000000), (152770173261329/10000000000000000000), (-91571014381411/500000000000000000), (-8581506033673/62500000000000000000), (-45303084125971/25000000000000000000), (142157450207217/20000000000000000000), (-75607360868473/5000000000000000000000)],
    numX := some [(-108133641870239/50000000000000000), (19895333019363/20000000000000), (114508866718507/1000000000000000000), (-49023114890601/10000000000000000), (-26984089623709/125000000000000000), (-427274205517627/1000000000000000000), (-119324243929391/1000000000000000000), (44222177046491/25000000000000000), (-710364364111257/10000000000000000000), (-167556643958707/100000000000000000000), (-821204863921981/10000000000000000000000), (107953107491161/10000000000000000000), (216929327401611/50000000000000000000), (24122158664569/10000000000000000000), (64778987917849/5000000000000000000), (-81610824814631/500000000000000000), (-79273721127077/2000000000000000000000), (-20435165315869/25000000000000000000), (220782708628913/2500000000000000000000), (-133102181603001/10000000000000000000000)],
    denX := some [1, (389649825530527/1000000000000000000), (8576580039147/40000000000000000), (414499991232059/1000000000000000000), (-53822618132849/2500000000000000000), (241883580329737/1000000000000000000000), (-234995514822901/2500000000000000000000), (-267948645657637/100000000000000000000), (-64305889826601/50000000000000000000), (54094362710747/20000000000000000000), (-208739202324809/1000000000000000000000000), (-52382918663479/1000000000000000000000), (-52826605092847/5000000000000000000000), (-84225084739221/25000000000000000000000), (-463442375451253/5000000000000000000000), (369838456996589/1000000000000000000000), (962773384568123/1000000000000000000000000), (31569992596761/2500000000000000000000), (-101482191379087/100000000000000000000000), (57157369663951/25000000000000000000000)],
    numY := some [(153713579068543/50000000000000000), (-22754942567019/1000000000000000), (-96351278038229/100000000000000), (66181174558843/5000000000000000), (-706575591579423/1000000000000000000), (25384922825267/1000000000000000000), (483624536885611/10000000000000000000), (-149711245999419/100000000000000000), (-157284574156877/100000000000000000), (-874685979277811/1000000000000000000000), (861790800612903/1000000000000000000000), (-476753362870271/100000000000000000000), (-237512858131319/25000000000000000000), (-192748026345547/100000000000000000000), (-578364059603347/10000000000000000000), (-38575911960189/125000000000000000), (-203420819539187/2500000000000000000), (1277015479759/390625000000000000), (-176524760259311/200000000000000000000), (111769058518809/100000000000000000000)],
    denY := some [1, (-322737272131583/500000000000000000), (142954980810177/100000000000000000), (637447918276721/100000000000000000000), (-183207120694373/50000000000000000000), (618450147768807/1000000000000000000000), (-7029235627769/6250000000000000000), (566121722032651/10000000000000000000), (-165524734584013/1000000000000000000), (168784669039571/2000000000000000000), (410473938123307/50000000000000000000000), (-105223281683959/500000000000000000000), (517036007137007/1000000000000000000000), (-58005588642737/500000000000000000000), (161367306414579/1000000000000000000000), (-137083683890231/200000000000000000000), (-2339087140279/200000000000000000000), (124103963063179/10000000000000000000000), (78912250828187/200000000000000000000), (151149611343707/50000000000000000000000)] }

/-- The model of RPC_P1BP--2017092838284574CP.XML. -/
def losPModel : LosModel ℚ := losR (rpcOfParams losPParams)

/-- `test_los_parameters`: the first match, the positions at 1e-6 and the direction at 1e-9. -/
example : losNear (1 / 10 ^ 6) (1 / 10 ^ 9)
    ⟨(2290936443408977/500000000), (5668960588669669/10000000000), (877424598926813/200000000)⟩
    ⟨(4581535247284677/1000000000), (1133790146539211/2000000000), (8773384438786339/2000000000)⟩
    ⟨(1233772383609067/2000000000000000), (9003705771539601/5000000000000000000), (7870503056934771/10000000000000000)⟩
    (losCreation rsqrt ecefR losPModel [(some (2148013/8192), some (8925761/65536))] (some (310, 850)) true) = true := by
  decide +kernel

/-- `test_triangulation_residues`. -/
example : distancePointLos rsqrt ⟨[⟨some 100, some 10, some 200⟩, ⟨some 100, some 10, some 200⟩], [],
      [⟨some 0, some 1, some 0⟩, ⟨some 0, some 1, some 0⟩]⟩ [⟨some 100, some 110, some 210⟩, ⟨some 100, some 110, some 210⟩] =
    [some 10, some 10] := by
  decide +kernel

/-- The nodes of rectification_grids/left_epipolar_grid_ventoux.tif around the matches. -/
def ventouxGrid : RectGrid ℚ :=
  readRectGrid ⟨22, 22, ⟨30, 0, (-15), 0, 30, (-15)⟩, fewCells [
   ((0, 0), (180025/32), (161093/32)),
   ((0, 1), (2861055/512), (1296161/256)),
   ((0, 20), (2493495/512), (359271/64)),
   ((0, 21), (9896599/2048), (1444501/256)),
   ((1, 0), (1432783/256), (10232571/2048)),
   ((1, 1), (11384883/2048), (10291907/2048)),
   ((1, 20), (2478661/512), (11419291/2048)),
   ((1, 21), (9837263/2048), (11478627/2048)),
   ((20, 0), (10334879/2048), (2190585/512)),
   ((20, 1), (5128749/1024), (8821677/2048)),
   ((20, 20), (8787267/2048), (4974531/1024)),
   ((20, 21), (4354943/1024), (5004199/1024)),
   ((21, 0), (5137771/1024), (271405/64)),
   ((21, 1), (5099081/1024), (1093037/256)),
   ((21, 20), (2181983/512), (4935841/1024)),
   ((21, 21), (8650551/2048), (4965509/1024))]⟩ true

/-- `test_rectification_grid_extrapolation`: before the first node. -/
example : near (1 / 10 ^ 10) (506572347005208303016 / 10 ^ 17) (interpR ventouxGrid (some 30, some (-10))).2 = true := by
  decide +kernel

/-- `test_rectification_grid_extrapolation`: after the last node. -/
example : near (1 / 10 ^ 10) (488384894205729142413474619389 / 10 ^ 26) (interpR ventouxGrid (some 30, some 691)).2 = true := by
  decide +kernel


end Shareloc.Validation
