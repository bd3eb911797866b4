import Verif.Validation.RectSupport

/-!
Written by tools/validation.py from tests/data/rectification and tests/geofunctions/test_rectification.py of /repo.  The model evaluated on the data of the tests: a check of the model
against the reference values of the repository, not a proof of a property.
-/

set_option maxRecDepth 100000

namespace Shareloc.Validation

/-- The parameters of left_image.geom. -/
def leftParams : RpcParams ℚ :=
  { driver := ['o','s','s','i','m','_','k','w','l'],
    offsetAlt := 1075,
    scaleAlt := 885,
    offsetY := (88274331987469/2000000000000),
    scaleY := (247376733268787/2500000000000000),
    offsetRow := 21110,
    scaleRow := (42275/2),
    offsetX := (105692931185697/20000000000000),
    scaleX := (1608764481533/12500000000000),
    offsetCol := 19208,
    scaleCol := (39999/2),
    denRow := [1, (39134028620737/125000000000000000), (21463485239597/200000000000000000), (-152423452492773/5000000000000000000), (-107881468491547/5000000000000000000), (92794989282883/250000000000000000000), (-50028521513199/10000000000000000000), (-298336322727379/10000000000000000000), (103597971401449/1000000000000000000), (-238715406127821/5000000000000000000), (773863099757773/10000000000000000000000), (-151114122498691/2000000000000000000000), (-589970084341/200000000000000000), (-148922601801993/5000000000000000000000), (93566151990483/125000000000000000000), (920914988311729/10000000000000000000000), (752992768825527/1000000000000000000000000), (-563049432223841/100000000000000000000000), (-38883587193577/125000000000000000000), (67662918085677/25000000000000000000000)],
    numRow := [(131659928461069/2500000000000000000), (204059031462319/10000000000000000), (-103205102244059/100000000000000), (120792382802113/10000000000000000), (143183855385341/500000000000000000), (-163740715880011/50000000000000000000), (-291198652317559/10000000000000000000), (-218944277571731/250000000000000000), (113503015340459/2000000000000000000), (-135238466137459/100000000000000000000), (52132899464949/100000000000000000000), (-70766344206833/200000000000000000000), (-141843971111913/5000000000000000000), (-975673635066849/1000000000000000000000), (65843617276927/2000000000000000000), (168766927357807/1000000000000000000), (98647154867507/2000000000000000000), (-15467996416871/40000000000000000000), (-357500864877713/100000000000000000000), (-576181715211193/1000000000000000000000)],
    denCol := [1, (184583711996889/100000000000000000), (100395951131101/100000000000000000), (-71717314331181/100000000000000000), (-70439881587999/2000000000000000000), (-7599638561509/50000000000000000000), (-623472184864609/10000000000000000000000), (359981072509291/50000000000000000000), (193713367254637/50000000000000000000), (-507374260133059/100000000000000000000), (-52941798527187/500000000000000000000), (-166834227904931/10000000000000000000000), (769789979382629/1000000000000000000000), (235874023268441/500000000000000000000000), (-1400194621701/7812500000000000000), (-694415912245717/1000000000000000000000), (-195187238560577/20000000000000000000000), (79661241078073/5000000000000000000000), (419401817124717/5000000000000000000000), (590483872722103/100000000000000000000000)],
    numCol := [(-8636663576577/2000000000000000), (101915446681969/100000000000000), (168055138420769/10000000000000000), (-87035121903397/25000000000000000), (-916661398454011/1000000000000000000), (347712657356913/500000000000000000), (-384942875908067/1000000000000000000), (126227918770811/50000000000000000), (943366681802647/10000000000000000000), (136400102500299/50000000000000000000), (-26911174288591/25000000000000000000), (-279388397082383/50000000000000000000), (-126892504773103/25000000000000000000), (-109580934686427/25000000000000000000), (73731941932837/2500000000000000000), (-18700584391133/100000000000000000), (-193491731548399/500000000000000000000), (262127978818087/100000000000000000000), (648307226373421/100000000000000000000), (174530251839139/10000000000000000000000)],
    numX := none,
    denX := none,
    numY := none,
    denY := none }

/-- The model of left_image.geom. -/
def leftGeo : Geo ℚ Unit := geoR (rpcOfParams leftParams)

/-- The parameters of right_image.geom. -/
def rightParams : RpcParams ℚ :=
  { driver := ['o','s','s','i','m','_','k','w','l'],
    offsetAlt := 1075,
    scaleAlt := 885,
    offsetY := (27585805275889/625000000000),
    scaleY := (196813100389/1953125000000),
    offsetRow := 20418,
    scaleRow := (42003/2),
    offsetX := (528510551079709/100000000000000),
    scaleX := (64951843805759/500000000000000),
    offsetCol := 19186,
    scaleCol := (39999/2),
    denRow := [1, (103074334218907/100000000000000000), (-144527138893047/200000000000000000), (-39223699310353/1000000000000000000), (-3712837877127/250000000000000000), (-206975751018941/1000000000000000000000), (621998277403711/1000000000000000000000), (-108248033903799/20000000000000000000), (177573019002297/10000000000000000000), (-374592081643813/50000000000000000000), (194243162844093/20000000000000000000000), (-51962018831489/1250000000000000000000), (119824503693771/500000000000000000000), (-145199012692277/10000000000000000000000), (97228890383219/500000000000000000000), (-92405523059441/500000000000000000000), (-386760505122431/100000000000000000000000), (62985517523937/50000000000000000000000), (-447403538246287/10000000000000000000000), (221821221771499/500000000000000000000000)],
    numRow := [(-170866582987503/100000000000000000), (250913355215367/10000000000000000), (-104049790937513/100000000000000), (-6479636997777/400000000000000), (93397983580219/100000000000000000), (80512586304867/5000000000000000000), (-13439326286803/1250000000000000000), (-315898705368389/500000000000000000), (3240030966453/3125000000000000), (4721853525993/2500000000000000000), (-485634911419117/1000000000000000000000), (472207480421131/1000000000000000000000), (-230449838290949/10000000000000000000), (-191966248014777/1000000000000000000000), (582630355610413/100000000000000000000), (63302733786459/2500000000000000000), (194389603889457/25000000000000000000), (117982118537303/2500000000000000000000), (-690185222354529/10000000000000000000000), (119949846381443/1000000000000000000000)],
    denCol := [1, (86855582823119/200000000000000000), (769823670686679/1000000000000000000), (-178821297321211/250000000000000000), (-54894752603973/2000000000000000000), (-276194834705389/1000000000000000000000), (-11856649475247/100000000000000000000), (216694397174453/100000000000000000000), (390020403939113/50000000000000000000), (-130942034452637/25000000000000000000), (-103976979911733/1000000000000000000000), (-541926800207841/10000000000000000000000), (-60585334510951/250000000000000000000), (-184054060918703/50000000000000000000000), (82257402407917/500000000000000000000), (-225469537522797/5000000000000000000000), (-804842849478713/100000000000000000000000), (26421335422591/1000000000000000000000), (420099090134809/10000000000000000000000), (24490992664281/4000000000000000000000)],
    numCol := [(-273484358298427/10000000000000000000), (102022209121473/100000000000000), (169364094018337/10000000000000000), (731581350281/160000000000000), (-776509567873981/1000000000000000000), (706795109550647/1000000000000000000), (-334457716130411/1000000000000000000), (-388457430070953/1000000000000000000), (144233614099151/100000000000000000), (-66341230424983/20000000000000000000), (12626035123029/12500000000000000000), (-120424574636143/10000000000000000000), (-123494098589761/10000000000000000000), (-453823502376133/100000000000000000000), (23956502699571/625000000000000000), (-364496349748621/10000000000000000000), (-74317151823049/200000000000000000000), (-632402487016171/1000000000000000000000), (-271248643242839/100000000000000000000), (-29744644825151/1250000000000000000000)],
    numX := none,
    denX := none,
    numY := none,
    denY := none }

/-- The model of right_image.geom. -/
def rightGeo : Geo ℚ Unit := geoR (rpcOfParams rightParams)

/-- left_image.tif: 500 × 500 pixels of size 1 at (5000, 5000). -/
def leftIm : LeftImage ℚ :=
  ⟨500, 500, 1, 1, ⟨1, 0, 5000, 0, 1, 5000⟩⟩

/-- The colocations at altitude 0. -/
def pair : Stereo ℚ := stereoOf convR leftGeo rightGeo (.value [some 0])

/-- `test_prepare_rectification_footprint`: sizes and footprint. -/
example : preparedNear (1 / 10 ^ 5) 22 22 612 612
    [((100683127097/20000000), (70322267401/12500000)), ((565475411307/100000000), (136476505931/25000000)), ((548803295823/100000000), (241923123951/50000000)), ((486743520001/100000000), (250259181693/50000000))]
    (prepareOf rtrig pair leftIm 30 50 0) = true := by
  decide +kernel

/-- `test_prepare_rectification_footprint_with_margins`: sizes and footprint. -/
example : preparedNear (1 / 10 ^ 5) 32 32 612 612
    [((123205244737/25000000), (72619525457/12500000)), ((116770695151/20000000), (27825034013/5000000)), ((559397952359/100000000), (465468183453/100000000)), ((7318210243/1562500), (489923706849/100000000))]
    (prepareOf rtrig pair leftIm 30 50 5) = true := by
  decide +kernel

/-- `test_prepare_rectification`: the ground size of a step. -/
example : gsdNear (1 / 10 ^ 7) (1517216332 / 10 ^ 8) (1514967040 / 10 ^ 8)
    (startOf (prepareOf rtrig pair leftIm 30 50 0) fun p =>
      epipolarGsd rtrig pair leftGeo.directH (convR 4326 4978) p 1 30 50) = true := by
  decide +kernel

/-- The first 3 rows and columns of shareloc_gt_left_grid.tif, as positions, column by column. -/
def leftRef : List (List (ℚ × ℚ)) :=
  [[((2767556724098339/549755813888), (1546403013979885/274877906944)), ((690819413572051/137438953472), (3076878131960195/549755813888)), ((1379499295358847/274877906944), (1530475117142165/274877906944))],
   [((1391742310048957/274877906944), (3088526958149635/549755813888)), ((2779205551964069/549755813888), (3072599068389685/549755813888)), ((2774926490069067/549755813888), (6113342353901087/1099511627776))],
   [((5598825028405343/1099511627776), (3084247881286465/549755813888)), ((2795133447743849/549755813888), (6136639995522821/1099511627776)), ((5581708775046281/1099511627776), (1526196056277231/274877906944))]]

/-- The first 3 rows and columns of shareloc_gt_right_grid.tif, as positions, column by column. -/
def rightRef : List (List (ℚ × ℚ)) :=
  [[((1438377044955469/274877906944), (379917832530933/68719476736)), ((2872453112167689/549755813888), (3023515987898925/549755813888)), ((1434076067344771/274877906944), (3007689247698683/549755813888))],
   [((2892417456707897/549755813888), (758766163065905/137438953472)), ((1444058258412747/274877906944), (3019237962055807/549755813888)), ((2883815577211437/549755813888), (750852800998043/137438953472))],
   [((2908080820981083/549755813888), (3030786701932551/549755813888)), ((725944979736947/137438953472), (3014959993867745/549755813888)), ((1449739508592189/274877906944), (2999133217943025/549755813888))]]

/-- `test_compute_stereorectification_epipolar_grids_geomodel_rpc`: the first nodes of the two grids, at 1e-8. -/
example : gridsNear (1 / 10 ^ 8) leftRef rightRef (gridsOf rtrig pair leftIm 30 50 0 3 3) = true := by
  decide +kernel

/-- `test_compute_stereorectification_epipolar_grids_geomodel_rpc_with_margins`: the first nodes. -/
example : gridsNear (1 / 10 ^ 8)
    [[((1354655991913709/274877906944), (6387681011491023/1099511627776)), ((676258229539413/137438953472), (198619538039601/34359738368))], [((5450479761878627/1099511627776), (6379122880151491/1099511627776)), ((340120102119473/68719476736), (1586816774620253/274877906944))]]
    [[((1409971174472145/274877906944), (1569932544958405/274877906944)), ((43994394119603/8589934592), (781009716923069/137438953472))], [((708901384856369/137438953472), (3135586882831413/549755813888)), ((707826113010853/137438953472), (1559880321378643/274877906944))]]
    (gridsOf rtrig pair leftIm 30 50 5 2 2) = true := by
  decide +kernel

/-- `test_epipolar_angle`. -/
example : epipolarAngle rtrig ⟨some 2, some 0, some 0⟩ ⟨some 1, some 0, some 0⟩ = some (rpi / 2) := by
  decide +kernel

/-- `test_epipolar_angle`. -/
example : epipolarAngle rtrig ⟨some 1, some 0, some 0⟩ ⟨some 2, some 0, some 0⟩ = some (-(rpi / 2)) := by
  decide +kernel

/-- `test_epipolar_angle`. -/
example : epipolarAngle rtrig ⟨some 1, some 1, some 0⟩ ⟨some 2, some 0, some 0⟩ = some (ratan (-1)) := by
  decide +kernel

/-- `test_epipolar_angle`. -/
example : epipolarAngle rtrig ⟨some 1, some 0, some 0⟩ ⟨some 2, some 1, some 0⟩ = some (rpi + ratan 1) := by
  decide +kernel


end Shareloc.Validation
