import Verif.Validation.RasterSupport

/-!
Written by tools/validation.py from tests/data/ellipsoide and tests/geomodels/test_grid.py of /repo.  The model evaluated on the data of the tests: a check of the model
against the reference values of the repository, not a proof of a property.
-/

set_option maxRecDepth 100000

namespace Shareloc.Validation

/-- Band 0 of loc_direct_grid_PHR_2013072139303958CP.tif. -/
def phrGridB0 : ℕ := 0x22f3a688bc151a0022f236491e36a80022f0c6087a379c0022ef55c6d0146c0022ede5841fc96c0022ec75406953060022eb04fbacad880022e994b5e9d5520022e8246f20c6be0022f3a5f85332ce0022f235b75362e40022f0c5754d684a0022ef5532413f580022ede4ee2ee46c0022ec74a91653d80022eb0462f789fe0022e9941bd2834c0022e823d3a73c120022f3a569bd0e960022f235275b490c0022f0c4e3f34e8e0022ef549f851b980022ede45a10ac700022ec741395fd800022eb03cc150b140022e993838dd19a0022e8233a004d6c0022f3a4dcf972540022f2349935b2da0022f0c4546bb4460022ef540e9b73000022ede3c7c4eb640022ec737fe819c40022eb033704fa800022e992ed1b8a060022e822a22bc4980022f3a4520827680022f2340ce269be0022f0c3c6b662d00022ef537f840f020022ede3374b6aa00022ec72ee0c72140022eb02a3c721c00022e992587b75f60022e8220c296b1c

/-- Band 1 of loc_direct_grid_PHR_2013072139303958CP.tif. -/
def phrGridB1 : ℕ := 0x30f0d1d780ec160030f0d1b1c7e3cc0030f0d18c09df560030f0d16646deac0030f0d1407ee1be0030f0d11ab1e88a0030f0d0f4dff2fe0030f0d0cf0901100030f0d0a92d12ba0030f0ef92881e720030f0ef6cd8bbe00030f0ef47245d240030f0ef216b022c0030f0eefbacaaf80030f0eed5e957720030f0eeb021079a0030f0ee8a53bb5a0030f0ee648172b00030f10d4d9f06d00030f10d27f94a620030f10d024e91c40030f10cdc9edcea0030f10cb6ea2bd00030f10c91307e680030f10c6b71d4a60030f10c45ae2e7c0030f10c1fe58be60030f12b08c5b0a40030f12ae3299abc0030f12abd8888a60030f12a97e27a560030f12a72376fbe0030f12a4c8768d60030f12a26d265920030f12a011865ea0030f129db5969ce0030f148c3fc27500030f1489e69b8580030f14878d24d340030f1485335e5ce0030f1482d9482240030f14807ee22240030f147e242c5ca0030f147bc926d060030f14796dd17cc0

/-- Band 2 of loc_direct_grid_PHR_2013072139303958CP.tif. -/
def phrGridB2 : ℕ := 0x22f837e0372a020022f6c7ecb3329e0022f557f82958e40022f3e8029999200022f2780c03efb00022f108146859040022ef981bc6d16a0022ee28221f55400022ecb82771e0f80022f83776f4d3260022f6c7820f38cc0022f5578c23b1ea0022f3e795323ad60022f2779d3acff00022f107a43d6d9a0022ef97aa3a102e0022ee27af30b4020022ecb7b321558c0022f8370f8503660022f6c7193dc1d20022f55721f0898c0022f3e7299d56ec0022f277304426460022f10735e4f4020022ef973a7fbc820022ee273e147c1e0022ecb740a32f2e0022f836a9e7849a0022f6c6b23e97980022f556b98fa9a80022f3e6bfdab72e0022f276c51fbc980022f106c95eb6240022ef96cc97a04a0022ee26ceca77600022ecb6cff737c60022f836461c20400022f6c64d1183800022f5565300dbaa0022f3e657ea251e0022f2765bcd5c480022f1065eaa7d6a0022ef96608184f40022ee2661526f460022ecb6611d38b4

/-- Band 3 of loc_direct_grid_PHR_2013072139303958CP.tif. -/
def phrGridB3 : ℕ := 0x30f0e8123e8d220030f0e7ec9cdef20030f0e7c6f636b40030f0e7a14a945a0030f0e77b99f7d60030f0e755e461240030f0e73029d0300030f0e70a6a44f20030f0e6e4a5bf640030f105cd0fdfac0030f105a777d5c60030f10581dad1c80030f1055c38d3b20030f1053691db700030f10510e5e8fa0030f104eb34fc440030f104c57f15420030f1049fc433ec0030f12387f0e4f40030f12362627fbe0030f1233ccf206e0030f1231736c6fe0030f122f19973660030f122cbf725980030f122a64fdd860030f12280a39b280030f1225af25e720030f14142e1a8680030f1411d5ce8480030f140f7d32e0c0030f140d24479ae0030f140acb0cb280030f140871822640030f140617a7f5c0030f1403bd7e20a0030f14016304a5c0030f15efde2356c0030f15ed8671ac80030f15eb2e7060a0030f15e8d61f72a0030f15e67d7ee160030f15e4248eaca0030f15e1cb4ed380030f15df71bf5560030f15dd17e03160

/-- Band 4 of loc_direct_grid_PHR_2013072139303958CP.tif. -/
def phrGridB4 : ℕ := 0x22fcc90ac5f9e80022fb596358ecf40022f9e9bae63bbe0022f87a116de2a20022f70a66efddfe0022f59abb6c2a460022f42b0ee2c3be0022f2bb6153a6d00022f14bb2becfdc0022fcc8c8a89ef80022fb591fda3d6e0022f9e976062d860022f879cb2c6b8c0022f70a1f4cf3e20022f59a7267c2f20022f42ac47cd50c0022f2bb158c269a0022f14b6595b3fe0022fcc8885d94100022fb58de2dd9ca0022f9e932f866e00022f87986bd37cc0022f709d97c48de0022f59a2b3596720022f42a7be91cfc0022f2bacb96d8c20022f14b1a3ec6340022fcc849e4a32e0022fb589e538bde0022f9e8f1bcb1ca0022f879442011500022f709957da6d60022f599e5d56eb80022f42a352765680022f2ba837387260022f14ad0b9d0680022fcc80d3d95c20022fb58604b1d1e0022f9e8b252d7a00022f8790354c1820022f7095350d7460022f599a247153a0022f429f03777ca0022f2ba3d21fb480022f14a89069c12

/-- Band 5 of loc_direct_grid_PHR_2013072139303958CP.tif. -/
def phrGridB5 : ℕ := 0x30f0fe4bdec1700030f0fe265465fe0030f0fe00c512920030f0fddb30c71c0030f0fdb597839c0030f0fd8ff948000030f0fd6a56143e0030f0fd44ade8480030f0fd1f00c41a0030f11c067a33340030f11be0f97a920030f11bbb73c9f80030f11b95e921520030f11b7059809c0030f11b4ac4e7ca0030f11b252b56d00030f11aff8ccda20030f11ad9e94c3e0030f139c12554700030f1399bae3f060030f139763231a60030f13950b12c380030f1392b2b2eb60030f13905a039140030f138e0104b4e0030f138ba7b65500030f13894e187100030f1577be0308c0030f1575672beca0030f157310055020030f1570b88f3320030f156e60c994e0030f156c08b47460030f1569b04fd160030f1567579bab20030f1564fe980060030f17536aad2ec0030f175114705320030f174ebde3f760030f174c67081ac0030f174a0fdcbca0030f1747b861dc60030f174560977940030f1743087d92c0030f1740b01427e0

/-- loc_direct_grid_PHR_2013072139303958CP.tif. -/
def phrGridFile : GridFile ℚ where
  driver := ['G','T','i','f','f']
  tags := [(['A','L','T','I','T','U','D','E','_','B','0'], ['-','3','0','.','0']),
    (['A','L','T','I','T','U','D','E','_','B','1'], ['-','3','0','.','0']),
    (['A','L','T','I','T','U','D','E','_','B','2'], ['4','8','5','.','0']),
    (['A','L','T','I','T','U','D','E','_','B','3'], ['4','8','5','.','0']),
    (['A','L','T','I','T','U','D','E','_','B','4'], ['1','0','0','0','.','0']),
    (['A','L','T','I','T','U','D','E','_','B','5'], ['1','0','0','0','.','0']),
    (['R','E','F'], ['E','P','S','G',':','4','3','2','6'])]
  namespaces := []
  bands := [node phrGridB0 0 5 0 9, node phrGridB1 0 5 0 9, node phrGridB2 0 5 0 9, node phrGridB3 0 5 0 9, node phrGridB4 0 5 0 9, node phrGridB5 0 5 0 9]
  height := 5
  width := 9
  transform := ⟨50, 0, (1/2), 0, 100, (1/2)⟩

/-- The grid that `Grid.load` builds. -/
def phrGrid : MultiGrid ℚ := (loadedGrid phrGridFile).1

/-- The EPSG code read by `Grid.load`. -/
example : (loadedGrid phrGridFile).2 = some 4326 := by
  decide +kernel

/-- The altitudes, highest first. -/
example : (List.range 3).map phrGrid.alts = [1000, 485, -30] := by
  decide +kernel

/-- `test_grid_geotiff`. -/
example : rowNear (1/1000000000) (272988621623171/125000000000000) (978863538509513/20000000000000) 1000
    (gridDirectLocH phrGrid [some (1/2)] [some (1/2)] [some 1000]) = true := by
  decide +kernel

/-- `test_grid_geotiff`. -/
example : rowNear (1/1000000000) (21828713504608683/10000000000000000) (24471214998741573/500000000000000) 200
    (gridDirectLocH phrGrid [some 50] [some 100] [some 200]) = true := by
  decide +kernel

/-- `test_sensor_loc_nan`. -/
example : gridDirectLocH phrGrid [none] [none] [some 0] = .ok [⟨none, none, none⟩] := by
  decide +kernel

/-- `test_grid_extrapolation`: the bilinear interpolation on the layer at 1000 m, extrapolated. -/
example : rowNear 0 (4917725818473993/2251799813685248) (6888139792621887/140737488355328) 1000
    (gridDirectLocH phrGrid [some (1/2)] [some (1/2)] [some 1000]) = true := by
  decide +kernel

/-- `test_grid_extrapolation`: the bilinear interpolation on the layer at 1000 m, extrapolated. -/
example : rowNear 0 (12294275049275345741/5629499534213120000) (34440702123954583603/703687441776640000) 1000
    (gridDirectLocH phrGrid [some (-1/2)] [some (-1/2)] [some 1000]) = true := by
  decide +kernel

/-- `test_grid_extrapolation`: the bilinear interpolation on the layer at 1000 m, extrapolated. -/
example : rowNear 0 (98512328923047971449/45035996273704960000) (17219576054923747149/351843720888320000) 1000
    (gridDirectLocH phrGrid [some 490] [some 500] [some 1000]) = true := by
  decide +kernel


end Shareloc.Validation
