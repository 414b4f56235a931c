import Verif.Lemmas.T2bJob

/-!
# Temperature from pressure and enthalpy in subregion 2b, part E of the certificate
-/

namespace PyX.Kron.T2b

set_option Elab.async false

def t100 : CTree :=
  .sx (.sy (.sx (.leaf ⟨3049, 16, 41, 3873, 16, 4312, ⟨[[(412316860416, 0)], [(352187318272, 0)]], 3, 4⟩, ⟨[[(0,
    94099701504), (3909371411538, 0), (98921152, 0), (1209832, 0), (0, 573)], [(110053106093, 0), (149365331, 0),
    (62185, 0), (0, 195), (0, 1)], [(0, 3154072), (0, 10862), (0, 33)], [(0, 151), (0, 1)]], 3, 4⟩, 1099511627776, 0,
    233575, ⟨[[(65997986884678, 0), (0, 8019094790), (1965602, 0), (8528, 0), (42, 0)], [(2529748917, 0), (820159,
    0), (7005, 0), (49, 0)], [(0, 356926), (1764, 0), (20, 0)], [(226, 0), (3, 0)]], 3, 4⟩, 68719476736, 611406,
    2939504968098376193321733582221068825074835544380425578678825642055058072420750490915885622744, lc0⟩) (.sy (.sx
    (.leaf ⟨6145, 16, 82, 7758, 16, 8633, ⟨[[(0, 137438953472)], [(352187318272, 0)]], 3, 4⟩, ⟨[[(0, 435076539158),
    (3923858223210, 0), (48971350, 0), (300064, 0), (0, 79)], [(109489180917, 0), (73885744, 0), (14605, 0), (0,
    26)], [(0, 1586560), (0, 2728), (0, 4)], [(0, 37)]], 3, 4⟩, 1099511627776, 0, 89368, ⟨[[(66041603686068, 0), (0,
    3990990154), (548833, 0), (1262, 0), (3, 0)], [(1257583287, 0), (234936, 0), (1037, 0), (4, 0)], [(0, 84084),
    (262, 0), (1, 0)], [(31, 0)]], 3, 4⟩, 68719476736, 102040,
    2636551573700160816729235012410295759505125910176015919196767237196246692498319838130920464798, lc0⟩) (.out
    ⟨6262, 16, 81, 14388, 16, 8462, ⟨[[(343597383680, 0)], [(347892350976, 0)]], 1, 1⟩, ⟨[[(0, 111197189552), (0,
    3853063381475)], [(0, 107020879662), (0, 71906690)]], 1, 1⟩, 1099511627776, 0, 4119087898, ⟨[], 0, 0⟩, 0, 0, 0,
    lc0⟩ 0 1 112417946276)) (.out ⟨3085, 16, 40, 10963, 16, 6455, ⟨[[], [(343597383680, 0)]], 1, 1⟩, ⟨[[(0,
    58651460616), (0, 2937033674375)], [(0, 164166007491), (0, 110348708)]], 1, 1⟩, 1099511627776, 0, 11641477135,
    ⟨[], 0, 0⟩, 0, 0, 0, lc0⟩ 0 1 167973794722))) (.sx (.sy (.sx (.leaf ⟨6083, 16, 82, 7766, 16, 8616,
    ⟨[[(412316860416, 0)], [(352187318272, 0)]], 3, 4⟩, ⟨[[(0, 236527383231), (3903106610337, 0), (56817028, 0),
    (300960, 0), (0, 62)], [(110777141701, 0), (75154019, 0), (15266, 0), (0, 25)], [(0, 1594772), (0, 2776), (0,
    4)], [(0, 39)]], 3, 4⟩, 1099511627776, 0, 74885, ⟨[[(65870184715919, 0), (0, 3987745468), (575151, 0), (1335, 0),
    (3, 0)], [(1273657969, 0), (251576, 0), (1113, 0), (4, 0)], [(0, 83777), (285, 0), (2, 0)], [(34, 0)]], 3, 4⟩,
    68719476736, 101404,
    3238090445302655537035007186791934781265546165994765060718155028247915109655254779457842813747, lc0⟩) (.out
    ⟨6202, 16, 81, 14338, 16, 8446, ⟨[[(0, 481036337152)], [(347892350976, 0)]], 1, 1⟩, ⟨[[(0, 471023247742), (0,
    3833142735638)], [(0, 108290228736), (0, 73146423)]], 1, 1⟩, 1099511627776, 0, 4210638069, ⟨[], 0, 0⟩, 0, 0, 0,
    lc0⟩ 0 1 141399641023)) (.out ⟨3055, 16, 40, 10893, 16, 6424, ⟨[[], [(343597383680, 0)]], 1, 1⟩, ⟨[[(0,
    206902779352), (0, 2913339471124)], [(0, 165630683493), (0, 111931618)]], 1, 1⟩, 1099511627776, 0, 11725673613,
    ⟨[], 0, 0⟩, 0, 0, 0, lc0⟩ 0 1 195568712632)) (.out ⟨3085, 16, 40, 7143, 16, 4215, ⟨[[], [(343597383680, 0)]], 1,
    1⟩, ⟨[[(0, 100640044911), (0, 3836698727721)], [(0, 107847045657), (0, 144580776)]], 1, 1⟩, 1099511627776, 0,
    8741938681, ⟨[], 0, 0⟩, 0, 0, 0, lc0⟩ 0 1 308763339764))) (.out ⟨1565, 16, 20, 3565, 16, 2105, ⟨[[],
    [(343597383680, 0)]], 1, 1⟩, ⟨[[(494291981480, 0), (0, 3851961807350)], [(0, 106369233794), (0, 281793768)]], 1,
    1⟩, 1099511627776, 0, 18092093479, ⟨[], 0, 0⟩, 0, 0, 0, lc0⟩ 0 1 461787186625)
theorem c100 : checkC job ⟨6, 8, 8, 10, 9, 13⟩ 3 100 lims t100 2480 48 32 129 3 2048 = true := by decide +kernel

def t101 : CTree :=
  .sx (.out ⟨1595, 16, 20, 2101, 16, 1240, ⟨[[], [(343597383680, 0)]], 1, 1⟩, ⟨[[(116847789996, 0), (0,
    4567908245276)], [(0, 61441658170), (0, 320777659)]], 1, 1⟩, 1099511627776, 0, 15308878729, ⟨[], 0, 0⟩, 0, 0, 0,
    lc0⟩ 0 1 582849006115) (.out ⟨1625, 16, 20, 2089, 16, 1236, ⟨[[], [(343597383680, 0)]], 1, 1⟩, ⟨[[(14508662789,
    0), (0, 4583381370567)], [(0, 60509201382), (0, 309553650)]], 1, 1⟩, 1099511627776, 0, 15607648554, ⟨[], 0, 0⟩,
    0, 0, 0, lc0⟩ 0 1 891283769645)
theorem c101 : checkC job ⟨6, 8, 8, 10, 9, 13⟩ 3 100 lims t101 2576 48 32 63 3 1024 = true := by decide +kernel

def t102 : CTree :=
  .out ⟨632, 26, 8, 1330, 16, 793, ⟨[[], [(549755813888, 0)]], 1, 1⟩, ⟨[[(0, 536591999104), (0, 2916484274737)], [(0,
    163128552341), (0, 842256198)]], 1, 1⟩, 1099511627776, 0, 114963515684, ⟨[], 0, 0⟩, 0, 0, 0, lc0⟩ 0 1
    1140609490952
theorem c102 : checkC job ⟨6, 8, 8, 10, 9, 13⟩ 3 100 lims t102 1264 48 16 69 3 1024 = true := by decide +kernel

def t103 : CTree :=
  .out ⟨680, 26, 8, 868, 16, 520, ⟨[[], [(549755813888, 0)]], 1, 1⟩, ⟨[[(63444802844, 0), (0, 3919442464711)], [(0,
    100061028180), (0, 947465506)]], 1, 1⟩, 1099511627776, 0, 96339359490, ⟨[], 0, 0⟩, 0, 0, 0, lc0⟩ 0 1
    2022996657329
theorem c103 : checkC job ⟨6, 8, 8, 10, 9, 13⟩ 3 100 lims t103 1360 48 16 33 3 512 = true := by decide +kernel

def t104 : CTree :=
  .out ⟨656, 50, 8, 404, 16, 250, ⟨[[], [(1099511627776, 0)]], 1, 1⟩, ⟨[[(181975008239, 0), (0, 3757317356485)], [(0,
    107525713127), (0, 1882238860)]], 1, 1⟩, 1099511627776, 0, 347773830985, ⟨[], 0, 0⟩, 0, 0, 0, lc0⟩ 0 1
    3448234993104
theorem c104 : checkC job ⟨6, 8, 8, 10, 9, 13⟩ 3 100 lims t104 656 48 8 21 3 256 = true := by decide +kernel

def t105 : CTree :=
  .sy (.out ⟨752, 50, 8, 435, 16, 261, ⟨[[], [(1099511627776, 0)]], 1, 1⟩, ⟨[[(0, 82955146684), (0, 4052206565312)],
    [(0, 89795246281), (0, 1495293961)]], 1, 1⟩, 1099511627776, 0, 225877057747, ⟨[], 0, 0⟩, 0, 0, 0, lc0⟩ 0 1
    3012756925680) (.out ⟨752, 50, 8, 405, 16, 256, ⟨[[], [(1099511627776, 0)]], 1, 1⟩, ⟨[[(0, 127507829071), (0,
    3984089482195)], [(0, 95374205049), (0, 907194942)]], 1, 1⟩, 1099511627776, 0, 349176525061, ⟨[], 0, 0⟩, 0, 0, 0,
    lc0⟩ 0 1 5597416683403)
theorem c105 : checkC job ⟨6, 8, 8, 10, 9, 13⟩ 3 100 lims t105 752 48 8 9 3 128 = true := by decide +kernel

def t106 : CTree :=
  .sx (.sy (.sy (.sx (.out ⟨632, 26, 8, 443, 16, 287, ⟨[[], [(549755813888, 0)]], 1, 1⟩, ⟨[[(219856332507, 0), (0,
    4373077501503)], [(0, 70534824088), (0, 1057238047)]], 1, 1⟩, 1099511627776, 0, 274723072897, ⟨[], 0, 0⟩, 0, 0,
    0, lc0⟩ 0 1 5029756741574) (.out ⟨680, 26, 8, 440, 16, 289, ⟨[[], [(549755813888, 0)]], 1, 1⟩, ⟨[[(378596308910,
    0), (0, 4485985716121)], [(0, 65076224251), (0, 661640155)]], 1, 1⟩, 1099511627776, 0, 245907004636, ⟨[], 0, 0⟩,
    0, 0, 0, lc0⟩ 0 1 6075871421672)) (.sx (.out ⟨632, 26, 8, 406, 16, 278, ⟨[[], [(549755813888, 0)]], 1, 1⟩, ⟨[[(0,
    233380864035), (0, 4377310532063)], [(0, 73023820023), (0, 450971432)]], 1, 1⟩, 1099511627776, 0, 333797150955,
    ⟨[], 0, 0⟩, 0, 0, 0, lc0⟩ 0 1 6526014722173) (.out ⟨680, 26, 8, 408, 16, 284, ⟨[[], [(549755813888, 0)]], 1, 1⟩,
    ⟨[[(442296946831, 0), (0, 4495042629860)], [(0, 66203574127), (0, 53477856)]], 1, 1⟩, 1099511627776, 0,
    404994451924, ⟨[], 0, 0⟩, 0, 0, 0, lc0⟩ 0 1 7424182621811))) (.sy (.sx (.sy (.out ⟨632, 26, 8, 630, 16, 452,
    ⟨[[], [(549755813888, 0)]], 1, 1⟩, ⟨[[(361194717235, 0), (0, 3639780696643)], [(0, 120446462061), (0, 3455154)]],
    1, 1⟩, 1099511627776, 0, 397312050558, ⟨[], 0, 0⟩, 0, 0, 0, lc0⟩ 0 1 7214141172272) (.sx (.out ⟨775, 16, 10, 731,
    16, 539, ⟨[[], [(343597383680, 0)]], 1, 1⟩, ⟨[[(22553827433, 0), (0, 4371262739162)], [(0, 73230722049),
    (489137390, 0)]], 1, 1⟩, 1099511627776, 0, 502686809839, ⟨[], 0, 0⟩, 0, 0, 0, lc0⟩ 0 1 7251659697125) (.sy (.out
    ⟨805, 16, 10, 1249, 16, 921, ⟨[[], [(343597383680, 0)]], 1, 1⟩, ⟨[[(0, 264765374363), (0, 3690348313055)], [(0,
    115042865489), (695744241, 0)]], 1, 1⟩, 1099511627776, 0, 253644480307, ⟨[], 0, 0⟩, 0, 0, 0, lc0⟩ 0 1
    7551906135212) (.skip)))) (.sy (.sx (.out ⟨835, 16, 10, 770, 16, 559, ⟨[[], [(343597383680, 0)]], 1, 1⟩,
    ⟨[[(333832966002, 0), (0, 4474925692180)], [(0, 66542649396), (447499744, 0)]], 1, 1⟩, 1099511627776, 0,
    292013481068, ⟨[], 0, 0⟩, 0, 0, 0, lc0⟩ 0 1 7763473044124) (.out ⟨865, 16, 10, 784, 16, 573, ⟨[[],
    [(343597383680, 0)]], 1, 1⟩, ⟨[[(0, 113321152522), (0, 4514950494204)], [(0, 62214041106), (1087855524, 0)]], 1,
    1⟩, 1099511627776, 0, 600421742030, ⟨[], 0, 0⟩, 0, 0, 0, lc0⟩ 0 1 8107436177034)) (.skip))) (.skip))) (.sy (.sy
    (.out ⟨752, 50, 8, 377, 16, 252, ⟨[[], [(1099511627776, 0)]], 1, 1⟩, ⟨[[(61792011126, 0), (0, 3965637834366)],
    [(0, 97731611781), (0, 431592296)]], 1, 1⟩, 1099511627776, 0, 519597447436, ⟨[], 0, 0⟩, 0, 0, 0, lc0⟩ 0 1
    7471870169155) (.sx (.sy (.out ⟨728, 26, 8, 714, 16, 496, ⟨[[], [(549755813888, 0)]], 1, 1⟩, ⟨[[(505760703503,
    0), (0, 3916396788227)], [(0, 102453220431), (102024672, 0)]], 1, 1⟩, 1099511627776, 0, 209292328102, ⟨[], 0, 0⟩,
    0, 0, 0, lc0⟩ 0 1 7991018270429) (.out ⟨728, 26, 8, 694, 16, 497, ⟨[[], [(549755813888, 0)]], 1, 1⟩,
    ⟨[[(542299510010, 0), (0, 3921563435423)], [(0, 100945902218), (502724862, 0)]], 1, 1⟩, 1099511627776, 0,
    360919988399, ⟨[], 0, 0⟩, 0, 0, 0, lc0⟩ 0 1 8396011315930)) (.sy (.out ⟨776, 26, 8, 733, 16, 515, ⟨[[],
    [(549755813888, 0)]], 1, 1⟩, ⟨[[(105116229644, 0), (0, 4039016577550)], [(0, 93711729713), (451966648, 0)]], 1,
    1⟩, 1099511627776, 0, 303711985479, ⟨[], 0, 0⟩, 0, 0, 0, lc0⟩ 0 1 8765619127184) (.sy (.out ⟨776, 26, 8, 1138,
    16, 818, ⟨[[], [(549755813888, 0)]], 1, 1⟩, ⟨[[(229264726383, 0), (0, 3202591702000)], [(0, 146952400090), (0,
    209736157)]], 1, 1⟩, 1099511627776, 0, 557453872918, ⟨[], 0, 0⟩, 0, 0, 0, lc0⟩ 0 1 9031820752912) (.skip)))))
    (.sx (.sy (.sx (.sy (.sy (.out ⟨895, 16, 10, 1370, 16, 1000, ⟨[[], [(343597383680, 0)]], 1, 1⟩, ⟨[[(0,
    429293212490), (0, 3900048962022)], [(0, 101061329580), (975935025, 0)]], 1, 1⟩, 1099511627776, 0, 319825650813,
    ⟨[], 0, 0⟩, 0, 0, 0, lc0⟩ 0 1 8399707322428) (.skip)) (.skip)) (.skip)) (.skip)) (.skip)))
theorem c106 : checkC job ⟨6, 8, 8, 10, 9, 13⟩ 3 100 lims t106 352 48 4 9 3 64 = true := by decide +kernel

def t107 : CTree :=
  .sx (.sy (.sx (.sy (.sy (.sx (.sx (.sy (.out ⟨535, 16, 10, 575, 16, 425, ⟨[[], [(343597383680, 0)]], 1, 1⟩, ⟨[[(0,
    58080975666), (0, 3699682027960)], [(0, 114744694626), (0, 572094605)]], 1, 1⟩, 1099511627776, 0, 433754178005,
    ⟨[], 0, 0⟩, 0, 0, 0, lc0⟩ 0 1 4861137358075) (.sy (.sx (.out ⟨1055, 16, 20, 1081, 16, 817, ⟨[[], [(343597383680,
    0)]], 1, 1⟩, ⟨[[(0, 483506538752), (0, 3692279836828)], [(0, 115371433401), (0, 583477502)]], 1, 1⟩,
    1099511627776, 0, 358809155746, ⟨[], 0, 0⟩, 0, 0, 0, lc0⟩ 0 1 4821901133366) (.sy (.out ⟨1085, 16, 20, 1635, 16,
    1242, ⟨[[], [(343597383680, 0)]], 1, 1⟩, ⟨[[(379153365527, 0), (0, 2828746247118)], [(0, 168603743695), (0,
    886289561)]], 1, 1⟩, 1099511627776, 0, 257294465135, ⟨[], 0, 0⟩, 0, 0, 0, lc0⟩ 0 1 4967399043953) (.skip))) (.sx
    (.sy (.sx (.out ⟨2095, 16, 40, 2030, 16, 1553, ⟨[[], [(343597383680, 0)]], 1, 1⟩, ⟨[[(0, 441663709330), (0,
    3670477764257)], [(0, 115393114422), (0, 1038590173)]], 1, 1⟩, 1099511627776, 0, 269094638808, ⟨[], 0, 0⟩, 0, 0,
    0, lc0⟩ 0 1 4766073658188) (.skip)) (.skip)) (.skip)))) (.sy (.sy (.out ⟨565, 16, 10, 901, 16, 671, ⟨[[],
    [(343597383680, 0)]], 1, 1⟩, ⟨[[(0, 432278364492), (0, 2916557149066)], [(0, 164882483266), (0, 166260389)]], 1,
    1⟩, 1099511627776, 0, 328357302902, ⟨[], 0, 0⟩, 0, 0, 0, lc0⟩ 0 1 5183570763869) (.sy (.out ⟨565, 16, 10, 1180,
    16, 891, ⟨[[], [(343597383680, 0)]], 1, 1⟩, ⟨[[(0, 121232285191), (0, 1980227963945)], [(0, 221820230929), (0,
    767909824)]], 1, 1⟩, 1099511627776, 0, 491674638727, ⟨[], 0, 0⟩, 0, 0, 0, lc0⟩ 0 1 5197224573400) (.sx (.out
    ⟨1115, 16, 20, 1677, 16, 1273, ⟨[[], [(343597383680, 0)]], 1, 1⟩, ⟨[[(235310793140, 0), (0, 2883936325320)], [(0,
    164664672375), (0, 1007258362)]], 1, 1⟩, 1099511627776, 0, 272886601788, ⟨[], 0, 0⟩, 0, 0, 0, lc0⟩ 0 1
    5118303526120) (.skip)))) (.skip))) (.sx (.sy (.sy (.sy (.out ⟨595, 16, 10, 1264, 16, 952, ⟨[[], [(343597383680,
    0)]], 1, 1⟩, ⟨[[(0, 140550633121), (0, 2084881629814)], [(0, 215202273037), (0, 806401455)]], 1, 1⟩,
    1099511627776, 0, 475966536291, ⟨[], 0, 0⟩, 0, 0, 0, lc0⟩ 0 1 5497323429815) (.sx (.out ⟨1175, 16, 20, 1768, 16,
    1339, ⟨[[], [(343597383680, 0)]], 1, 1⟩, ⟨[[(248910771342, 0), (0, 2994862403767)], [(0, 157498423931), (0,
    1135363659)]], 1, 1⟩, 1099511627776, 0, 289774422555, ⟨[], 0, 0⟩, 0, 0, 0, lc0⟩ 0 1 5420616270342) (.skip)))
    (.skip)) (.skip)) (.skip))) (.skip)) (.skip)) (.skip)) (.skip)) (.skip)
theorem c107 : checkC job ⟨6, 8, 8, 10, 9, 13⟩ 3 100 lims t107 152 48 2 9 3 32 = true := by decide +kernel

def t108 : CTree :=
  .sx (.sx (.leaf ⟨55, 16, 20, 490, 16, 449, ⟨[[], [(343597383680, 0)]], 3, 4⟩, ⟨[[(331340741362, 0), (3568499935776,
    0), (0, 3418828752), (716356920, 0), (9401414, 0)], [(110841488426, 0), (4655315334, 0), (141906539, 0),
    (4491295, 0), (171934, 0)], [(62321325, 0), (6424179, 0), (391697, 0), (22164, 0), (1288, 0)], [(43751, 0),
    (8380, 0), (974, 0), (85, 0), (6, 0)]], 3, 4⟩, 1099511627776, 0, 1453513757, ⟨[[(41336830069662, 0), (0,
    110838101316), (262427030, 0), (1492706, 0), (2353, 0)], [(35598489835, 0), (290933960, 0), (905452, 0), (0,
    5176), (0, 75)], [(0, 56368826), (0, 1156074), (0, 11533), (0, 49)], [(116149, 0), (3948, 0), (68, 0), (1, 0)]],
    3, 4⟩, 68719476736, 75385829,
    2428969633815477711750114841869076660006315668625671847093630771775785705087704076974251947740, lc0⟩) (.leaf ⟨85,
    16, 20, 433, 16, 388, ⟨[[], [(343597383680, 0)]], 3, 4⟩, ⟨[[(0, 506544004896), (3528852280216, 0), (12879876826,
    0), (1251308266, 0), (38430863, 0)], [(107371205771, 0), (5349133171, 0), (219410453, 0), (10374387, 0), (557737,
    0)], [(68102985, 0), (8630433, 0), (721452, 0), (53266, 0), (3470, 0)], [(63838, 0), (14901, 0), (1924, 0), (173,
    0), (12, 0)]], 3, 4⟩, 1099511627776, 0, 3428246642, ⟨[[(41251987325990, 0), (0, 111493951705), (434624525, 0),
    (2036536, 0), (0, 221)], [(35105218850, 0), (274126854, 0), (164499, 0), (0, 13549), (0, 109)], [(0, 57198760),
    (0, 1146081), (0, 8071), (53, 0), (2, 0)], [(130867, 0), (4652, 0), (75, 0)]], 3, 4⟩, 68719476736, 145470368,
    2840975005199446034973697443469711652820179952773257004895289592094724767858342180731183618926, lc0⟩)) (.sx (.sy
    (.leaf ⟨115, 16, 20, 608, 16, 540, ⟨[[], [(343597383680, 0)]], 3, 4⟩, ⟨[[(182042314627, 0), (2802784727839, 0),
    (10825653390, 0), (391167859, 0), (8031635, 0)], [(156108239976, 0), (4458512305, 0), (113200753, 0), (3261554,
    0), (96539, 0)], [(102305102, 0), (7552607, 0), (369181, 0), (15032, 0), (521, 0)], [(103707, 0), (13184, 0),
    (911, 0), (45, 0), (2, 0)]], 3, 4⟩, 1099511627776, 0, 1795953542, ⟨[[(41861450216877, 0), (0, 72399679228),
    (234049419, 0), (612637, 0), (0, 647)], [(32829612062, 0), (154334313, 0), (0, 139815), (0, 3772), (0, 12)], [(0,
    49995943), (0, 590178), (0, 1210), (30, 0)], [(112487, 0), (2431, 0), (17, 0)]], 3, 4⟩, 68719476736, 57251794,
    1558638827682552285306830343059502028274915538939142336280809628212101240296519653518726023461, lc0⟩) (.sx (.leaf
    ⟨220, 16, 41, 778, 16, 678, ⟨[[(412316860416, 0)], [(352187318272, 0)]], 3, 4⟩, ⟨[[(333219964605, 0),
    (3566655462251, 0), (19835440920, 0), (678654342, 0), (16939957, 0)], [(113153865898, 0), (3542860503, 0),
    (103996717, 0), (3407927, 0), (113099, 0)], [(46994310, 0), (3811368, 0), (204223, 0), (9029, 0), (381, 0)],
    [(30866, 0), (4073, 0), (297, 0), (18, 0), (1, 0)]], 3, 4⟩, 1099511627776, 0, 560092577, ⟨[[(40781708844024, 0),
    (0, 54070378301), (163081226, 0), (312567, 0), (0, 197)], [(17318704111, 0), (61857104, 0), (0, 89879), (0,
    1493), (0, 15)], [(0, 14377449), (0, 127474), (0, 29), (6, 0)], [(18095, 0), (295, 0), (1, 0)]], 3, 4⟩,
    68719476736, 11618161,
    1309846419190590691010055825356246615101603596877633417895678204505300594425081744455585111851, lc0⟩) (.leaf
    ⟨251, 16, 41, 708, 16, 609, ⟨[[(137438953472, 0)], [(352187318272, 0)]], 3, 4⟩, ⟨[[(381894905112, 0),
    (3544311998042, 0), (28750089571, 0), (996528847, 0), (29600809, 0)], [(110593502508, 0), (3955713059, 0),
    (137736041, 0), (5251982, 0), (220916, 0)], [(51560847, 0), (4725778, 0), (290116, 0), (16187, 0), (1084, 0)],
    [(37960, 0), (5619, 0), (520, 0), (48, 0), (5, 0)]], 3, 4⟩, 1099511627776, 0, 1366059821, ⟨[[(40788301462586, 0),
    (0, 54451527321), (208367850, 0), (323585, 0), (0, 1980)], [(17024907608, 0), (58390766, 0), (0, 170996), (0,
    2938), (0, 56)], [(0, 13886289), (0, 113763), (166, 0), (5, 0)], [(17403, 0), (232, 0), (0, 1)]], 3, 4⟩,
    68719476736, 75564549,
    1206646134753148749785846273410892338022601038079961367790574831372678398347552116668634462832, lc0⟩))) (.sy (.sx
    (.leaf ⟨282, 16, 41, 730, 16, 637, ⟨[[(0, 137438953472)], [(352187318272, 0)]], 3, 4⟩, ⟨[[(92054571823, 0),
    (3737680367412, 0), (25113161232, 0), (855437274, 0), (22061866, 0)], [(101849081553, 0), (3414128058, 0),
    (108524159, 0), (3770192, 0), (129891, 0)], [(38227794, 0), (3311029, 0), (190311, 0), (9158, 0), (414, 0)],
    [(22599, 0), (3225, 0), (265, 0), (18, 0), (1, 0)]], 3, 4⟩, 1099511627776, 0, 547040962, ⟨[[(41855707358018, 0),
    (0, 54264759348), (177638226, 0), (291446, 0), (0, 1229)], [(15672760072, 0), (52182660, 0), (0, 96850), (0,
    1180), (0, 16)], [(0, 11447560), (0, 92206), (0, 2), (1, 0)], [(12583, 0), (166, 0), (0, 1)]], 3, 4⟩,
    68719476736, 43548632,
    967954582120049295963632349456267773490252264612494796127507561208570275745692471282827788288, lc0⟩) (.leaf ⟨313,
    16, 41, 671, 16, 578, ⟨[[(0, 412316860416)], [(352187318272, 0)]], 3, 4⟩, ⟨[[(0, 176375688402), (3719444259039,
    0), (34079077961, 0), (1198790637, 0), (36041871, 0)], [(99700668962, 0), (3767618925, 0), (139767788, 0),
    (5608668, 0), (233062, 0)], [(41536709, 0), (4044790, 0), (266905, 0), (15456, 0), (921, 0)], [(27587, 0), (4458,
    0), (439, 0), (37, 0), (3, 0)]], 3, 4⟩, 1099511627776, 0, 1199394897, ⟨[[(41846276165850, 0), (0, 54392724521),
    (219268811, 0), (192877, 0), (0, 6484)], [(15432267531, 0), (49153205, 0), (0, 180796), (0, 3371), (0, 78)], [(0,
    11134972), (0, 89607), (0, 211), (0, 8)], [(11544, 0), (99, 0), (0, 2)]], 3, 4⟩, 68719476736, 213901997,
    2589885250181407660758820267866672899599959066649697389817654879446093508913588863146360644755, lc0⟩)) (.sx (.sy
    (.leaf ⟨282, 16, 41, 1025, 16, 875, ⟨[[(0, 137438953472)], [(352187318272, 0)]], 3, 4⟩, ⟨[[(0, 416966798342),
    (2764630726045, 0), (13768967217, 0), (247092545, 0), (4129780, 0)], [(164585158538, 0), (3214370370, 0),
    (62338452, 0), (1335912, 0), (33792, 0)], [(79729028, 0), (3984072, 0), (137359, 0), (4587, 0), (187, 0)],
    [(61583, 0), (5105, 0), (280, 0), (15, 0), (1, 0)]], 3, 4⟩, 1099511627776, 0, 756610216, ⟨[[(41024360102139, 0),
    (0, 35170510487), (99887086, 0), (43780, 0), (0, 1437)], [(16485968690, 0), (34687061, 0), (0, 108738), (0,
    1539), (0, 24)], [(0, 12940328), (0, 67207), (0, 27), (0, 2)], [(14958, 0), (83, 0), (0, 2)]], 3, 4⟩,
    68719476736, 32152554,
    1048202548062146209114262368462987133059858096504173127331084224845133103497919557253250829232, lc0⟩) (.sx (.leaf
    ⟨548, 16, 82, 1310, 16, 1106, ⟨[[(412316860416, 0)], [(352187318272, 0)]], 3, 4⟩, ⟨[[(0, 269386267026),
    (3621244652093, 0), (21750062364, 0), (427587175, 0), (9507373, 0)], [(114620887992, 0), (2438895308, 0),
    (53773597, 0), (1452940, 0), (54230, 0)], [(32440869, 0), (1782687, 0), (74508, 0), (3535, 0), (199, 0)],
    [(14946, 0), (1456, 0), (107, 0), (8, 0), (1, 0)]], 3, 4⟩, 1099511627776, 0, 251228088, ⟨[[(40500884105235, 0),
    (0, 26221293934), (63483660, 0), (0, 12827), (0, 967)], [(8543380953, 0), (12875908, 0), (0, 57360), (0, 747),
    (0, 9)], [(0, 3525104), (0, 13789), (0, 9)], [(2085, 0), (5, 0)]], 3, 4⟩, 68719476736, 13099530,
    2468655837106458472668476450899179687811135331072587381278878034421067916011697106620808364314, lc0⟩) (.sy (.leaf
    ⟨579, 16, 82, 1921, 16, 1616, ⟨[[(137438953472, 0)], [(352187318272, 0)]], 3, 4⟩, ⟨[[(119699589796, 0),
    (2771746043150, 0), (9199124311, 0), (94816772, 0), (1169713, 0)], [(171260917744, 0), (1919381187, 0),
    (22730184, 0), (338969, 0), (7001, 0)], [(49866708, 0), (1456352, 0), (33345, 0), (871, 0), (26, 0)], [(24037,
    0), (1269, 0), (51, 0), (2, 0)]], 3, 4⟩, 1099511627776, 0, 141671733, ⟨[[(40641227567138, 0), (0, 17283300306),
    (28569011, 0), (0, 20130), (0, 338)], [(8386265922, 0), (7815911, 0), (0, 33225), (0, 312), (0, 2)], [(0,
    3407414), (0, 9441), (0, 18)], [(1847, 0)]], 3, 4⟩, 68719476736, 3695489,
    2939574164571919250630648947517643512355557395210467690704353833840748816761668357946518261673, lc0⟩) (.out ⟨734,
    16, 81, 2123, 16, 1515, ⟨[[(68719476736, 0)], [(347892350976, 0)]], 1, 1⟩, ⟨[[(526832102758, 0), (0,
    2712703951135)], [(0, 172199387363), (0, 2096386404)]], 1, 1⟩, 1099511627776, 0, 269815145235, ⟨[], 0, 0⟩, 0, 0,
    0, lc0⟩ 0 1 165459530039)))) (.sy (.sx (.leaf ⟨610, 16, 82, 1274, 16, 1076, ⟨[[(0, 137438953472)],
    [(352187318272, 0)]], 3, 4⟩, ⟨[[(0, 292292678339), (3712333165471, 0), (23480586283, 0), (460279093, 0),
    (9808117, 0)], [(108906632920, 0), (2386226249, 0), (53901401, 0), (1429894, 0), (49908, 0)], [(29276762, 0),
    (1655426, 0), (69098, 0), (3077, 0), (164, 0)], [(12875, 0), (1262, 0), (88, 0), (6, 0)]], 3, 4⟩, 1099511627776,
    0, 220345091, ⟨[[(41029721250134, 0), (0, 26244498750), (63316669, 0), (0, 63307), (0, 1680)], [(8123057433, 0),
    (11572295, 0), (0, 63126), (0, 873), (0, 11)], [(0, 3175102), (0, 13696), (0, 50), (0, 1)], [(1631, 0), (1, 0)]],
    3, 4⟩, 68719476736, 21257603,
    3460137366267353585609097256465472758027355875128473164456406116370816594981130920682157454132, lc0⟩) (.out ⟨795,
    16, 81, 1421, 16, 1010, ⟨[[(0, 206158430208)], [(347892350976, 0)]], 1, 1⟩, ⟨[[(251032707685, 0), (0,
    3715121042185)], [(0, 107864349714), (0, 2575269764)]], 1, 1⟩, 1099511627776, 0, 419477693205, ⟨[], 0, 0⟩, 0, 0,
    0, lc0⟩ 0 1 196040795304)) (.out ⟨385, 16, 40, 956, 16, 687, ⟨[[], [(343597383680, 0)]], 1, 1⟩, ⟨[[(0,
    109104247420), (0, 2693507114375)], [(0, 165808475691), (0, 4560911172)]], 1, 1⟩, 1099511627776, 0, 778899774101,
    ⟨[], 0, 0⟩, 0, 0, 0, lc0⟩ 0 1 291924744021)))))
theorem c108 : checkC job ⟨6, 8, 8, 10, 9, 13⟩ 3 100 lims t108 112 48 16 51 3 128 = true := by decide +kernel

def t109 : CTree :=
  .sx (.sy (.leaf ⟨343, 16, 41, 1007, 16, 863, ⟨[[(412316860416, 0)], [(352187318272, 0)]], 3, 4⟩, ⟨[[(0,
    90373086911), (2973996933251, 0), (15913172562, 0), (291080565, 0), (4799021, 0)], [(152188881599, 0),
    (3084499039, 0), (62621289, 0), (1380787, 0), (31866, 0)], [(64735096, 0), (3396648, 0), (123092, 0), (3953, 0),
    (128, 0)], [(44480, 0), (3927, 0), (212, 0), (9, 0)]], 3, 4⟩, 1099511627776, 0, 480195798, ⟨[[(42119486643635,
    0), (0, 34508151716), (95873016, 0), (0, 19445), (0, 2534)], [(14942515640, 0), (28445650, 0), (0, 111382), (0,
    1646), (0, 25)], [(0, 10477671), (0, 57498), (0, 252), (0, 5)], [(9768, 0), (31, 0), (0, 1)]], 3, 4⟩,
    68719476736, 48029470,
    3047985565727760860740469205449356382569940106682209893949210689148685677010192543373343064064, lc0⟩) (.sx (.sy
    (.leaf ⟨671, 16, 82, 1983, 16, 1685, ⟨[[(412316860416, 0)], [(352187318272, 0)]], 3, 4⟩, ⟨[[(365253830773, 0),
    (2977206228904, 0), (9063870256, 0), (86186607, 0), (799312, 0)], [(159723487982, 0), (1721163162, 0), (18873298,
    0), (228420, 0), (3179, 0)], [(38224548, 0), (1064172, 0), (20867, 0), (386, 0), (8, 0)], [(14926, 0), (701, 0),
    (21, 0), (1, 0)]], 3, 4⟩, 1099511627776, 0, 61652637, ⟨[[(41714480094069, 0), (0, 16934894285), (24983003, 0),
    (0, 15367), (0, 274)], [(7672508840, 0), (6922006, 0), (0, 21201), (0, 180), (0, 1)], [(0, 2806276), (0, 8105),
    (0, 24)], [(1306, 0), (1, 0)]], 3, 4⟩, 68719476736, 2863644,
    1505613555830647732850191018939123755868084487922335857356017543483110653456282905989589818635, lc0⟩) (.out ⟨825,
    16, 81, 2238, 16, 1584, ⟨[[(206158430208, 0)], [(347892350976, 0)]], 1, 1⟩, ⟨[[(419445432112, 0), (0,
    2910465133186)], [(0, 160546989553), (0, 1857094615)]], 1, 1⟩, 1099511627776, 0, 223562753865, ⟨[], 0, 0⟩, 0, 0,
    0, lc0⟩ 0 1 182137060266)) (.out ⟨856, 16, 81, 1402, 16, 995, ⟨[[(0, 481036337152)], [(347892350976, 0)]], 1, 1⟩,
    ⟨[[(293203566595, 0), (0, 3805934251009)], [(0, 102491307016), (0, 2477125231)]], 1, 1⟩, 1099511627776, 0,
    418495339306, ⟨[], 0, 0⟩, 0, 0, 0, lc0⟩ 0 1 253655447212))) (.sy (.sx (.sy (.out ⟨886, 16, 81, 2385, 16, 1672,
    ⟨[[(0, 68719476736)], [(347892350976, 0)]], 1, 1⟩, ⟨[[(0, 158459929022), (0, 3055857051947)], [(0, 152073923021),
    (0, 1648704596)]], 1, 1⟩, 1099511627776, 0, 188706268825, ⟨[], 0, 0⟩, 0, 0, 0, lc0⟩ 0 1 127796160942) (.out ⟨886,
    16, 81, 2245, 16, 1585, ⟨[[(0, 68719476736)], [(347892350976, 0)]], 1, 1⟩, ⟨[[(0, 388827045541), (0,
    3013581087904)], [(0, 154210527967), (0, 1795788704)]], 1, 1⟩, 1099511627776, 0, 214963040399, ⟨[], 0, 0⟩, 0, 0,
    0, lc0⟩ 0 1 225545954270)) (.out ⟨916, 16, 81, 1397, 16, 989, ⟨[[(343597383680, 0)], [(347892350976, 0)]], 1, 1⟩,
    ⟨[[(410740784749, 0), (0, 3897604773161)], [(0, 97392138808), (0, 2355848860)]], 1, 1⟩, 1099511627776, 0,
    412357644239, ⟨[], 0, 0⟩, 0, 0, 0, lc0⟩ 0 1 297499959930)) (.sy (.out ⟨445, 16, 40, 1384, 16, 988, ⟨[[],
    [(343597383680, 0)]], 1, 1⟩, ⟨[[(143473027300, 0), (0, 2030732821148)], [(0, 212442185597), (0, 2802229131)]], 1,
    1⟩, 1099511627776, 0, 451488025730, ⟨[], 0, 0⟩, 0, 0, 0, lc0⟩ 0 1 375695647122) (.out ⟨445, 16, 40, 1273, 16,
    916, ⟨[[], [(343597383680, 0)]], 1, 1⟩, ⟨[[(0, 332101759426), (0, 1993386394781)], [(0, 214046653257), (0,
    3128131687)]], 1, 1⟩, 1099511627776, 0, 538813729045, ⟨[], 0, 0⟩, 0, 0, 0, lc0⟩ 0 1 453916944128)))
theorem c109 : checkC job ⟨6, 8, 8, 10, 9, 13⟩ 3 100 lims t109 688 48 64 99 3 256 = true := by decide +kernel

def t110 : CTree :=
  .sy (.sx (.out ⟨475, 16, 40, 974, 16, 696, ⟨[[], [(343597383680, 0)]], 1, 1⟩, ⟨[[(75459846674, 0), (0,
    3006655340928)], [(0, 147942414779), (0, 4050066733)]], 1, 1⟩, 1099511627776, 0, 632998147704, ⟨[], 0, 0⟩, 0, 0,
    0, lc0⟩ 0 1 461163729803) (.sy (.out ⟨505, 16, 40, 1241, 16, 895, ⟨[[], [(343597383680, 0)]], 1, 1⟩, ⟨[[(0,
    69371603297), (0, 2146727506032)], [(0, 203985156487), (0, 3190681044)]], 1, 1⟩, 1099511627776, 0, 516319636534,
    ⟨[], 0, 0⟩, 0, 0, 0, lc0⟩ 0 1 623850416818) (.out ⟨505, 16, 40, 1119, 16, 815, ⟨[[], [(343597383680, 0)]], 1, 1⟩,
    ⟨[[(0, 56821725683), (0, 2108102537345)], [(0, 205306595773), (0, 3669265315)]], 1, 1⟩, 1099511627776, 0,
    646187433655, ⟨[], 0, 0⟩, 0, 0, 0, lc0⟩ 0 1 698291564458))) (.sx (.sy (.out ⟨475, 16, 40, 1192, 16, 863, ⟨[[],
    [(343597383680, 0)]], 1, 1⟩, ⟨[[(0, 203263152810), (0, 2049960816297)], [(0, 209641914736), (0, 3393369266)]], 1,
    1⟩, 1099511627776, 0, 590277560324, ⟨[], 0, 0⟩, 0, 0, 0, lc0⟩ 0 1 580500172896) (.sx (.out ⟨947, 16, 81, 1647,
    16, 1199, ⟨[[(0, 343597383680)], [(347892350976, 0)]], 1, 1⟩, ⟨[[(0, 446915418905), (0, 2949256994638)], [(0,
    155466161830), (0, 2734490965)]], 1, 1⟩, 1099511627776, 0, 410495308009, ⟨[], 0, 0⟩, 0, 0, 0, lc0⟩ 0 1
    601852108531) (.out ⟨977, 16, 81, 1487, 16, 1092, ⟨[[(68719476736, 0)], [(347892350976, 0)]], 1, 1⟩, ⟨[[(0,
    241219199644), (0, 2955155259690)], [(0, 153662816466), (0, 3164715981)]], 1, 1⟩, 1099511627776, 0, 516329259444,
    ⟨[], 0, 0⟩, 0, 0, 0, lc0⟩ 0 1 689415461939))) (.sy (.sy (.out ⟨505, 16, 40, 1283, 16, 942, ⟨[[], [(343597383680,
    0)]], 1, 1⟩, ⟨[[(1497929636, 0), (0, 1304612174875)], [(0, 258536086080), (0, 2636361655)]], 1, 1⟩,
    1099511627776, 0, 704249915621, ⟨[], 0, 0⟩, 0, 0, 0, lc0⟩ 0 1 744744515329) (.sx (.out ⟨1007, 16, 81, 2050, 16,
    1507, ⟨[[(481036337152, 0)], [(347892350976, 0)]], 1, 1⟩, ⟨[[(272962892973, 0), (0, 2090191511016)], [(0,
    210851728421), (0, 2197076552)]], 1, 1⟩, 1099511627776, 0, 358310849064, ⟨[], 0, 0⟩, 0, 0, 0, lc0⟩ 0 1
    731440379197) (.out ⟨1038, 16, 81, 1829, 16, 1357, ⟨[[(0, 206158430208)], [(347892350976, 0)]], 1, 1⟩, ⟨[[(0,
    206320126634), (0, 2101022071410)], [(0, 208749708740), (0, 2637614312)]], 1, 1⟩, 1099511627776, 0, 453838949901,
    ⟨[], 0, 0⟩, 0, 0, 0, lc0⟩ 0 1 805227372571))) (.sx (.sy (.out ⟨1007, 16, 81, 1910, 16, 1412, ⟨[[(481036337152,
    0)], [(347892350976, 0)]], 1, 1⟩, ⟨[[(20545425903, 0), (0, 2071175084298)], [(0, 211092084687), (0,
    2477103939)]], 1, 1⟩, 1099511627776, 0, 422770042216, ⟨[], 0, 0⟩, 0, 0, 0, lc0⟩ 0 1 755025681074) (.out ⟨1007,
    16, 81, 1760, 16, 1309, ⟨[[(481036337152, 0)], [(347892350976, 0)]], 1, 1⟩, ⟨[[(0, 146394512594), (0,
    2052259278558)], [(0, 211059310300), (0, 2862725759)]], 1, 1⟩, 1099511627776, 0, 513405575978, ⟨[], 0, 0⟩, 0, 0,
    0, lc0⟩ 0 1 773645472206)) (.sx (.out ⟨2060, 16, 162, 1544, 16, 1154, ⟨[[(481036337152, 0)], [(347892350976,
    0)]], 1, 1⟩, ⟨[[(110940153017, 0), (0, 3865344387781)], [(0, 97641105400), (0, 2951381367)]], 1, 1⟩,
    1099511627776, 0, 737214317412, ⟨[], 0, 0⟩, 0, 0, 0, lc0⟩ 0 1 812103481653) (.sy (.out ⟨2091, 16, 162, 2343, 16,
    1755, ⟨[[(0, 206158430208)], [(347892350976, 0)]], 1, 1⟩, ⟨[[(358814823120, 0), (0, 3033691674944)], [(0,
    151267058430), (0, 2391520797)]], 1, 1⟩, 1099511627776, 0, 388901704335, ⟨[], 0, 0⟩, 0, 0, 0, lc0⟩ 0 1
    834274282204) (.sy (.out ⟨2091, 16, 162, 3008, 16, 2265, ⟨[[(0, 206158430208)], [(347892350976, 0)]], 1, 1⟩,
    ⟨[[(0, 334618219123), (0, 2103606525960)], [(0, 210735563883), (0, 1924983221)]], 1, 1⟩, 1099511627776, 0,
    319099519540, ⟨[], 0, 0⟩, 0, 0, 0, lc0⟩ 0 1 838015705838) (.skip)))))))
theorem c110 : checkC job ⟨6, 8, 8, 10, 9, 13⟩ 3 100 lims t110 784 48 64 99 3 256 = true := by decide +kernel

def t111 : CTree :=
  .sy (.sy (.out ⟨535, 16, 40, 1377, 16, 1006, ⟨[[], [(343597383680, 0)]], 1, 1⟩, ⟨[[(317282900588, 0), (0,
    1379938542100)], [(0, 254465154893), (0, 2396634462)]], 1, 1⟩, 1099511627776, 0, 575375650582, ⟨[], 0, 0⟩, 0, 0,
    0, lc0⟩ 0 1 792559025849) (.out ⟨535, 16, 40, 1292, 16, 949, ⟨[[], [(343597383680, 0)]], 1, 1⟩, ⟨[[(0,
    22416903890), (0, 1365146450334)], [(0, 254634726680), (0, 2619129011)]], 1, 1⟩, 1099511627776, 0, 657173988391,
    ⟨[], 0, 0⟩, 0, 0, 0, lc0⟩ 0 1 821784775269)) (.sx (.out ⟨1068, 16, 81, 1400, 16, 1033, ⟨[[(206158430208, 0)],
    [(347892350976, 0)]], 1, 1⟩, ⟨[[(222059348999, 0), (0, 3067078186049)], [(0, 146383741775), (0, 3257438539)]], 1,
    1⟩, 1099511627776, 0, 548959839285, ⟨[], 0, 0⟩, 0, 0, 0, lc0⟩ 0 1 823009709882) (.sy (.out ⟨1099, 16, 81, 1832,
    16, 1360, ⟨[[(0, 481036337152)], [(347892350976, 0)]], 1, 1⟩, ⟨[[(0, 156336114279), (0, 2180150776001)], [(0,
    203990076547), (0, 2564070794)]], 1, 1⟩, 1099511627776, 0, 425431291497, ⟨[], 0, 0⟩, 0, 0, 0, lc0⟩ 0 1
    882196050279) (.out ⟨1099, 16, 81, 1678, 16, 1254, ⟨[[(0, 481036337152)], [(347892350976, 0)]], 1, 1⟩, ⟨[[(0,
    310415602649), (0, 2160957029822)], [(0, 204010205926), (0, 2985308338)]], 1, 1⟩, 1099511627776, 0, 522372499601,
    ⟨[], 0, 0⟩, 0, 0, 0, lc0⟩ 0 1 897093011173)))
theorem c111 : checkC job ⟨6, 8, 8, 10, 9, 13⟩ 3 100 lims t111 1712 48 128 195 3 512 = true := by decide +kernel

def t112 : CTree :=
  .sy (.sy (.out ⟨565, 16, 40, 1134, 16, 843, ⟨[[], [(343597383680, 0)]], 1, 1⟩, ⟨[[(0, 7198298681), (0,
    1398618309267)], [(0, 250861674176), (0, 3209229191)]], 1, 1⟩, 1099511627776, 0, 838769862941, ⟨[], 0, 0⟩, 0, 0,
    0, lc0⟩ 0 1 941685792190) (.sx (.out ⟨1129, 16, 81, 1767, 16, 1316, ⟨[[(0, 68719476736)], [(347892350976, 0)]],
    1, 1⟩, ⟨[[(0, 49206903254), (0, 2210251468922)], [(0, 201669383555), (0, 2692735936)]], 1, 1⟩, 1099511627776, 0,
    449509117371, ⟨[], 0, 0⟩, 0, 0, 0, lc0⟩ 0 1 927510277949) (.sy (.out ⟨1159, 16, 81, 2015, 16, 1514,
    ⟨[[(343597383680, 0)], [(347892350976, 0)]], 1, 1⟩, ⟨[[(342125932962, 0), (0, 1415128281696)], [(0,
    253369366216), (0, 2036544108)]], 1, 1⟩, 1099511627776, 0, 484371544377, ⟨[], 0, 0⟩, 0, 0, 0, lc0⟩ 0 1
    977212301208) (.sx (.out ⟨2303, 16, 162, 3162, 16, 2378, ⟨[[(481036337152, 0)], [(347892350976, 0)]], 1, 1⟩,
    ⟨[[(0, 30094024000), (0, 2245153891768)], [(0, 202656154061), (0, 1677713304)]], 1, 1⟩, 1099511627776, 0,
    260982206739, ⟨[], 0, 0⟩, 0, 0, 0, lc0⟩ 0 1 968450639837) (.out ⟨2334, 16, 162, 2923, 16, 2211, ⟨[[(0,
    206158430208)], [(347892350976, 0)]], 1, 1⟩, ⟨[[(0, 91928966470), (0, 2253024340520)], [(0, 201413898441), (0,
    1906349191)]], 1, 1⟩, 1099511627776, 0, 302555403631, ⟨[], 0, 0⟩, 0, 0, 0, lc0⟩ 0 1 987216556367))))) (.sx (.sy
    (.out ⟨1129, 16, 81, 1608, 16, 1206, ⟨[[(0, 68719476736)], [(347892350976, 0)]], 1, 1⟩, ⟨[[(0, 242959927269), (0,
    2190511927875)], [(0, 201568034975), (0, 3168099728)]], 1, 1⟩, 1099511627776, 0, 558763409184, ⟨[], 0, 0⟩, 0, 0,
    0, lc0⟩ 0 1 938737407224) (.sx (.out ⟨2243, 16, 162, 2155, 16, 1624, ⟨[[(0, 343597383680)], [(347892350976, 0)]],
    1, 1⟩, ⟨[[(0, 421109554398), (0, 3120139541409)], [(0, 145244033451), (0, 2582126866)]], 1, 1⟩, 1099511627776, 0,
    436857329992, ⟨[], 0, 0⟩, 0, 0, 0, lc0⟩ 0 1 931971004538) (.out ⟨2273, 16, 162, 1969, 16, 1493, ⟨[[(68719476736,
    0)], [(347892350976, 0)]], 1, 1⟩, ⟨[[(0, 306693178408), (0, 3122837284932)], [(0, 143866684807), (0,
    2956506763)]], 1, 1⟩, 1099511627776, 0, 518217447698, ⟨[], 0, 0⟩, 0, 0, 0, lc0⟩ 0 1 947622892010))) (.sy (.sy
    (.out ⟨1159, 16, 81, 1793, 16, 1358, ⟨[[(343597383680, 0)], [(347892350976, 0)]], 1, 1⟩, ⟨[[(128299203399, 0),
    (0, 1402575303626)], [(0, 252769665408), (0, 2475461324)]], 1, 1⟩, 1099511627776, 0, 614103736388, ⟨[], 0, 0⟩, 0,
    0, 0, lc0⟩ 0 1 976441089207) (.sx (.out ⟨2303, 16, 162, 2808, 16, 2129, ⟨[[(481036337152, 0)], [(347892350976,
    0)]], 1, 1⟩, ⟨[[(0, 203835893277), (0, 2229691948529)], [(0, 202501385265), (0, 2052359441)]], 1, 1⟩,
    1099511627776, 0, 331531834680, ⟨[], 0, 0⟩, 0, 0, 0, lc0⟩ 0 1 966223828662) (.out ⟨2334, 16, 162, 2547, 16, 1944,
    ⟨[[(0, 206158430208)], [(347892350976, 0)]], 1, 1⟩, ⟨[[(8229557112, 0), (0, 2238420496303)], [(0, 201032018671),
    (0, 2370780764)]], 1, 1⟩, 1099511627776, 0, 389969922338, ⟨[], 0, 0⟩, 0, 0, 0, lc0⟩ 0 1 974812350550))) (.sx
    (.out ⟨2303, 16, 162, 1775, 16, 1355, ⟨[[(481036337152, 0)], [(347892350976, 0)]], 1, 1⟩, ⟨[[(0, 158103574654),
    (0, 3124875759237)], [(0, 142326457732), (0, 3412092613)]], 1, 1⟩, 1099511627776, 0, 617869528925, ⟨[], 0, 0⟩, 0,
    0, 0, lc0⟩ 0 1 955306636460) (.skip))))
theorem c112 : checkC job ⟨6, 8, 8, 10, 9, 13⟩ 3 100 lims t112 1808 48 128 195 3 512 = true := by decide +kernel

def t113 : CTree :=
  .sx (.sx (.sy (.sy (.sx (.out ⟨2364, 16, 162, 2194, 16, 1652, ⟨[[(206158430208, 0)], [(347892350976, 0)]], 1, 1⟩,
    ⟨[[(0, 422086848812), (0, 3203166896624)], [(0, 140651554585), (0, 2371597826)]], 1, 1⟩, 1099511627776, 0,
    400222155587, ⟨[], 0, 0⟩, 0, 0, 0, lc0⟩ 0 1 1006525019031) (.out ⟨2395, 16, 162, 2025, 16, 1534, ⟨[[(0,
    481036337152)], [(347892350976, 0)]], 1, 1⟩, ⟨[[(164905350392, 0), (0, 3207743360843)], [(0, 139503471755), (0,
    2683677390)]], 1, 1⟩, 1099511627776, 0, 469448339068, ⟨[], 0, 0⟩, 0, 0, 0, lc0⟩ 0 1 1023817629938)) (.sx (.out
    ⟨2364, 16, 162, 1942, 16, 1475, ⟨[[(206158430208, 0)], [(347892350976, 0)]], 1, 1⟩, ⟨[[(172750254801, 0), (0,
    3179523282115)], [(0, 140465840884), (0, 2907183341)]], 1, 1⟩, 1099511627776, 0, 515101854293, ⟨[], 0, 0⟩, 0, 0,
    0, lc0⟩ 0 1 1001844341556) (.out ⟨2395, 16, 162, 1758, 16, 1344, ⟨[[(0, 481036337152)], [(347892350976, 0)]], 1,
    1⟩, ⟨[[(30082359388, 0), (0, 3182937346412)], [(0, 139057122601), (0, 3341557094)]], 1, 1⟩, 1099511627776, 0,
    611698138930, ⟨[], 0, 0⟩, 0, 0, 0, lc0⟩ 0 1 1008674191939))) (.sy (.sx (.sy (.out ⟨2364, 16, 162, 2478, 16, 1895,
    ⟨[[(206158430208, 0)], [(347892350976, 0)]], 1, 1⟩, ⟨[[(0, 399862143379), (0, 2253831593992)], [(0,
    199728348471), (0, 2450025513)]], 1, 1⟩, 1099511627776, 0, 403157186318, ⟨[], 0, 0⟩, 0, 0, 0, lc0⟩ 0 1
    988811024586) (.skip)) (.skip)) (.skip))) (.sy (.sy (.sx (.sx (.out ⟨4835, 16, 324, 2402, 16, 1828, ⟨[[(0,
    343597383680)], [(347892350976, 0)]], 1, 1⟩, ⟨[[(102751021036, 0), (0, 4072165423655)], [(0, 87860639230), (0,
    1878921668)]], 1, 1⟩, 1099511627776, 0, 489096025446, ⟨[], 0, 0⟩, 0, 0, 0, lc0⟩ 0 1 1031926109574) (.out ⟨4865,
    16, 324, 2287, 16, 1746, ⟨[[(68719476736, 0)], [(347892350976, 0)]], 1, 1⟩, ⟨[[(0, 147529393956), (0,
    4071877325735)], [(0, 87372338196), (0, 2010541743)]], 1, 1⟩, 1099511627776, 0, 532636741844, ⟨[], 0, 0⟩, 0, 0,
    0, lc0⟩ 0 1 1035056421452)) (.sy (.out ⟨2455, 16, 162, 2491, 16, 1907, ⟨[[(343597383680, 0)], [(347892350976,
    0)]], 1, 1⟩, ⟨[[(269872293526, 0), (0, 2310072686945)], [(0, 196407887477), (0, 2384539859)]], 1, 1⟩,
    1099511627776, 0, 386043639910, ⟨[], 0, 0⟩, 0, 0, 0, lc0⟩ 0 1 1042180277562) (.out ⟨2455, 16, 162, 2290, 16,
    1762, ⟨[[(343597383680, 0)], [(347892350976, 0)]], 1, 1⟩, ⟨[[(0, 296979343597), (0, 2303168159815)], [(0,
    196065856421), (0, 2681273872)]], 1, 1⟩, 1099511627776, 0, 441217960598, ⟨[], 0, 0⟩, 0, 0, 0, lc0⟩ 0 1
    1026415115475))) (.sx (.out ⟨2425, 16, 162, 1566, 16, 1206, ⟨[[(0, 68719476736)], [(347892350976, 0)]], 1, 1⟩,
    ⟨[[(103467775255, 0), (0, 3182800047127)], [(0, 137362254948), (0, 3853025088)]], 1, 1⟩, 1099511627776, 0,
    726190547568, ⟨[], 0, 0⟩, 0, 0, 0, lc0⟩ 0 1 1004680328334) (.skip))) (.skip))) (.sy (.sx (.sy (.sx (.sy (.out
    ⟨2486, 16, 162, 2232, 16, 1721, ⟨[[(0, 343597383680)], [(347892350976, 0)]], 1, 1⟩, ⟨[[(56247872676, 0), (0,
    2318648439194)], [(0, 194757045586), (0, 2752190720)]], 1, 1⟩, 1099511627776, 0, 452742043029, ⟨[], 0, 0⟩, 0, 0,
    0, lc0⟩ 0 1 1037681045464) (.skip)) (.skip)) (.skip)) (.skip)) (.skip))
theorem c113 : checkC job ⟨6, 8, 8, 10, 9, 13⟩ 3 100 lims t113 976 48 64 195 3 512 = true := by decide +kernel

def t114 : CTree :=
  .sx (.sx (.sy (.sx (.sy (.out ⟨1068, 16, 81, 1751, 16, 1304, ⟨[[(206158430208, 0)], [(347892350976, 0)]], 1, 1⟩,
    ⟨[[(0, 66490866140), (0, 2130476541336)], [(0, 206342590894), (0, 2806836134)]], 1, 1⟩, 1099511627776, 0,
    487050652670, ⟨[], 0, 0⟩, 0, 0, 0, lc0⟩ 0 1 852056525556) (.sx (.out ⟨2121, 16, 162, 2395, 16, 1791,
    ⟨[[(206158430208, 0)], [(347892350976, 0)]], 1, 1⟩, ⟨[[(0, 109342837321), (0, 3058609401282)], [(0,
    149988040090), (0, 2264430033)]], 1, 1⟩, 1099511627776, 0, 364159492327, ⟨[], 0, 0⟩, 0, 0, 0, lc0⟩ 0 1
    850581401856) (.out ⟨2152, 16, 162, 2211, 16, 1663, ⟨[[(0, 481036337152)], [(347892350976, 0)]], 1, 1⟩,
    ⟨[[(197447601310, 0), (0, 3063251322186)], [(0, 148775196306), (0, 2572410496)]], 1, 1⟩, 1099511627776, 0,
    429432198277, ⟨[], 0, 0⟩, 0, 0, 0, lc0⟩ 0 1 875295809002))) (.sy (.sx (.out ⟨2182, 16, 162, 2271, 16, 1705,
    ⟨[[(0, 68719476736)], [(347892350976, 0)]], 1, 1⟩, ⟨[[(0, 88296962719), (0, 3088872579690)], [(0, 147584985857),
    (0, 2420012823)]], 1, 1⟩, 1099511627776, 0, 399377899591, ⟨[], 0, 0⟩, 0, 0, 0, lc0⟩ 0 1 892710181550) (.out
    ⟨2212, 16, 162, 2087, 16, 1576, ⟨[[(343597383680, 0)], [(347892350976, 0)]], 1, 1⟩, ⟨[[(0, 249824060770), (0,
    3093831438691)], [(0, 146349261298), (0, 2762720023)]], 1, 1⟩, 1099511627776, 0, 472897165728, ⟨[], 0, 0⟩, 0, 0,
    0, lc0⟩ 0 1 912632502100)) (.sx (.out ⟨2182, 16, 162, 2018, 16, 1527, ⟨[[(0, 68719476736)], [(347892350976, 0)]],
    1, 1⟩, ⟨[[(0, 33222382600), (0, 3066394717845)], [(0, 147359756771), (0, 2954236909)]], 1, 1⟩, 1099511627776, 0,
    511104976709, ⟨[], 0, 0⟩, 0, 0, 0, lc0⟩ 0 1 893165620537) (.skip)))) (.sx (.sy (.sx (.out ⟨2121, 16, 162, 2152,
    16, 1621, ⟨[[(206158430208, 0)], [(347892350976, 0)]], 1, 1⟩, ⟨[[(0, 246753818142), (0, 3038014251961)], [(0,
    149950242873), (0, 2734681788)]], 1, 1⟩, 1099511627776, 0, 461417982345, ⟨[], 0, 0⟩, 0, 0, 0, lc0⟩ 0 1
    856603800908) (.skip)) (.skip)) (.skip))) (.sy (.sx (.sy (.sy (.out ⟨1129, 16, 81, 1640, 16, 1248, ⟨[[(0,
    68719476736)], [(347892350976, 0)]], 1, 1⟩, ⟨[[(133729588665, 0), (0, 1366452272756)], [(0, 254013655229), (0,
    2853275560)]], 1, 1⟩, 1099511627776, 0, 743348462726, ⟨[], 0, 0⟩, 0, 0, 0, lc0⟩ 0 1 933592825570) (.skip))
    (.skip)) (.skip)) (.skip))) (.skip)
theorem c114 : checkC job ⟨6, 8, 8, 10, 9, 13⟩ 3 100 lims t114 464 48 32 201 3 512 = true := by decide +kernel

def t115 : CTree :=
  .sx (.sx (.sy (.out ⟨415, 16, 40, 1360, 16, 973, ⟨[[], [(343597383680, 0)]], 1, 1⟩, ⟨[[(325154369340, 0), (0,
    1936656899384)], [(0, 218331334008), (0, 2876391231)]], 1, 1⟩, 1099511627776, 0, 491758363781, ⟨[], 0, 0⟩, 0, 0,
    0, lc0⟩ 0 1 323649299506) (.out ⟨415, 16, 40, 1248, 16, 900, ⟨[[], [(343597383680, 0)]], 1, 1⟩, ⟨[[(203205923174,
    0), (0, 1897625607354)], [(0, 219513000548), (0, 3231019074)]], 1, 1⟩, 1099511627776, 0, 596080962829, ⟨[], 0,
    0⟩, 0, 0, 0, lc0⟩ 0 1 398390145109)) (.sy (.out ⟨445, 16, 40, 1154, 16, 838, ⟨[[], [(343597383680, 0)]], 1, 1⟩,
    ⟨[[(38578307654, 0), (0, 1953214714945)], [(0, 215004699678), (0, 3589009494)]], 1, 1⟩, 1099511627776, 0,
    675692035366, ⟨[], 0, 0⟩, 0, 0, 0, lc0⟩ 0 1 527912160960) (.sx (.out ⟨886, 16, 81, 1614, 16, 1178, ⟨[[(0,
    68719476736)], [(347892350976, 0)]], 1, 1⟩, ⟨[[(0, 184346184850), (0, 2843022610694)], [(0, 161231117118), (0,
    2962483731)]], 1, 1⟩, 1099511627776, 0, 462939652897, ⟨[], 0, 0⟩, 0, 0, 0, lc0⟩ 0 1 543001914093) (.sy (.out
    ⟨916, 16, 81, 2042, 16, 1500, ⟨[[(343597383680, 0)], [(347892350976, 0)]], 1, 1⟩, ⟨[[(0, 406259214181), (0,
    1964119521939)], [(0, 218312037652), (0, 2292980243)]], 1, 1⟩, 1099511627776, 0, 399969263501, ⟨[], 0, 0⟩, 0, 0,
    0, lc0⟩ 0 1 615507301323) (.out ⟨916, 16, 81, 1899, 16, 1403, ⟨[[(343597383680, 0)], [(347892350976, 0)]], 1, 1⟩,
    ⟨[[(323120900174, 0), (0, 1946242165675)], [(0, 218389782338), (0, 2615696460)]], 1, 1⟩, 1099511627776, 0,
    477185541240, ⟨[], 0, 0⟩, 0, 0, 0, lc0⟩ 0 1 640383188611))))) (.sx (.sy (.sx (.out ⟨947, 16, 81, 1460, 16, 1074,
    ⟨[[(0, 343597383680)], [(347892350976, 0)]], 1, 1⟩, ⟨[[(0, 166136551756), (0, 2901806371851)], [(0,
    156387299519), (0, 3355257460)]], 1, 1⟩, 1099511627776, 0, 562415278608, ⟨[], 0, 0⟩, 0, 0, 0, lc0⟩ 0 1
    660508391627) (.out ⟨977, 16, 81, 1280, 16, 951, ⟨[[(68719476736, 0)], [(347892350976, 0)]], 1, 1⟩, ⟨[[(0,
    78979941728), (0, 2905336642904)], [(0, 153980042826), (0, 4134505462)]], 1, 1⟩, 1099511627776, 0, 768823930524,
    ⟨[], 0, 0⟩, 0, 0, 0, lc0⟩ 0 1 733867933743)) (.sx (.sy (.sx (.out ⟨1878, 16, 162, 2746, 16, 2032,
    ⟨[[(206158430208, 0)], [(347892350976, 0)]], 1, 1⟩, ⟨[[(0, 433030181182), (0, 2913248650487)], [(0,
    159896663548), (0, 1984052706)]], 1, 1⟩, 1099511627776, 0, 299529696457, ⟨[], 0, 0⟩, 0, 0, 0, lc0⟩ 0 1
    674534394909) (.out ⟨1909, 16, 162, 2554, 16, 1900, ⟨[[(0, 481036337152)], [(347892350976, 0)]], 1, 1⟩, ⟨[[(0,
    215082569051), (0, 2919624146240)], [(0, 158760107615), (0, 2239643854)]], 1, 1⟩, 1099511627776, 0, 351197253902,
    ⟨[], 0, 0⟩, 0, 0, 0, lc0⟩ 0 1 709435868923)) (.out ⟨947, 16, 81, 1634, 16, 1220, ⟨[[(0, 343597383680)],
    [(347892350976, 0)]], 1, 1⟩, ⟨[[(0, 72647124879), (0, 1958179294553)], [(0, 215473351457), (0, 3375956492)]], 1,
    1⟩, 1099511627776, 0, 652924796014, ⟨[], 0, 0⟩, 0, 0, 0, lc0⟩ 0 1 707880244576)) (.sy (.sx (.out ⟨1939, 16, 162,
    2352, 16, 1760, ⟨[[(0, 68719476736)], [(347892350976, 0)]], 1, 1⟩, ⟨[[(385463314676, 0), (0, 2925756064737)],
    [(0, 157462010757), (0, 2560840479)]], 1, 1⟩, 1099511627776, 0, 416928013277, ⟨[], 0, 0⟩, 0, 0, 0, lc0⟩ 0 1
    739178220021) (.skip)) (.skip)))) (.sy (.sx (.sy (.sx (.out ⟨2000, 16, 162, 2438, 16, 1820, ⟨[[(0,
    343597383680)], [(347892350976, 0)]], 1, 1⟩, ⟨[[(0, 488044271444), (0, 2977439045682)], [(0, 154997418496), (0,
    2329881828)]], 1, 1⟩, 1099511627776, 0, 372465750041, ⟨[], 0, 0⟩, 0, 0, 0, lc0⟩ 0 1 773021624316) (.out ⟨2030,
    16, 162, 2240, 16, 1682, ⟨[[(68719476736, 0)], [(347892350976, 0)]], 1, 1⟩, ⟨[[(0, 235413913779), (0,
    2981638742500)], [(0, 153629117467), (0, 2664913822)]], 1, 1⟩, 1099511627776, 0, 442196077983, ⟨[], 0, 0⟩, 0, 0,
    0, lc0⟩ 0 1 799005876721)) (.skip)) (.skip)) (.skip)))
theorem c115 : checkC job ⟨6, 8, 8, 10, 9, 13⟩ 3 100 lims t115 368 48 32 207 3 512 = true := by decide +kernel

def t116 : CTree :=
  .sx (.sx (.sx (.sy (.out ⟨825, 16, 81, 1780, 16, 1289, ⟨[[(206158430208, 0)], [(347892350976, 0)]], 1, 1⟩, ⟨[[(0,
    302403505444), (0, 2783498553687)], [(0, 166050368251), (0, 2625344113)]], 1, 1⟩, 1099511627776, 0, 383582475303,
    ⟨[], 0, 0⟩, 0, 0, 0, lc0⟩ 0 1 413273587868) (.out ⟨825, 16, 81, 1601, 16, 1170, ⟨[[(206158430208, 0)],
    [(347892350976, 0)]], 1, 1⟩, ⟨[[(95140822126, 0), (0, 2740022137375)], [(0, 167197621240), (0, 3189503256)]], 1,
    1⟩, 1099511627776, 0, 518477262781, ⟨[], 0, 0⟩, 0, 0, 0, lc0⟩ 0 1 475357975439)) (.sy (.sy (.out ⟨856, 16, 81,
    2245, 16, 1636, ⟨[[(0, 481036337152)], [(347892350976, 0)]], 1, 1⟩, ⟨[[(0, 95324927804), (0, 1905488048897)],
    [(0, 222943425811), (0, 1987481149)]], 1, 1⟩, 1099511627776, 0, 342105985334, ⟨[], 0, 0⟩, 0, 0, 0, lc0⟩ 0 1
    496171971352) (.sx (.out ⟨1696, 16, 162, 3251, 16, 2375, ⟨[[(0, 68719476736)], [(347892350976, 0)]], 1, 1⟩,
    ⟨[[(0, 91358602220), (0, 2816638796022)], [(0, 167208703207), (0, 1574761475)]], 1, 1⟩, 1099511627776, 0,
    217973968743, ⟨[], 0, 0⟩, 0, 0, 0, lc0⟩ 0 1 501733900926) (.out ⟨1726, 16, 162, 3067, 16, 2251, ⟨[[(343597383680,
    0)], [(347892350976, 0)]], 1, 1⟩, ⟨[[(14677086512, 0), (0, 2824155976889)], [(0, 166332407263), (0,
    1738728129)]], 1, 1⟩, 1099511627776, 0, 249431861130, ⟨[], 0, 0⟩, 0, 0, 0, lc0⟩ 0 1 545800039593))) (.sy (.out
    ⟨856, 16, 81, 1977, 16, 1455, ⟨[[(0, 481036337152)], [(347892350976, 0)]], 1, 1⟩, ⟨[[(170308534690, 0), (0,
    1871207273404)], [(0, 223461992743), (0, 2513166659)]], 1, 1⟩, 1099511627776, 0, 469735459053, ⟨[], 0, 0⟩, 0, 0,
    0, lc0⟩ 0 1 550314909412) (.sy (.out ⟨856, 16, 81, 2274, 16, 1680, ⟨[[(0, 481036337152)], [(347892350976, 0)]],
    1, 1⟩, ⟨[[(0, 163474307847), (0, 1132422405408)], [(0, 272184075188), (0, 1709186187)]], 1, 1⟩, 1099511627776, 0,
    506910569454, ⟨[], 0, 0⟩, 0, 0, 0, lc0⟩ 0 1 566188403849) (.skip))))) (.sx (.sy (.out ⟨886, 16, 81, 1417, 16,
    1045, ⟨[[(0, 68719476736)], [(347892350976, 0)]], 1, 1⟩, ⟨[[(184844402062, 0), (0, 2796328486893)], [(0,
    161827321388), (0, 3768611988)]], 1, 1⟩, 1099511627776, 0, 664920060543, ⟨[], 0, 0⟩, 0, 0, 0, lc0⟩ 0 1
    596201756921) (.sy (.out ⟨886, 16, 81, 1701, 16, 1265, ⟨[[(0, 68719476736)], [(347892350976, 0)]], 1, 1⟩, ⟨[[(0,
    66423902337), (0, 1882884300426)], [(0, 220402223036), (0, 3259989294)]], 1, 1⟩, 1099511627776, 0, 644004499580,
    ⟨[], 0, 0⟩, 0, 0, 0, lc0⟩ 0 1 624026428091) (.skip))) (.sy (.sx (.sy (.out ⟨1817, 16, 162, 2695, 16, 1997,
    ⟨[[(481036337152, 0)], [(347892350976, 0)]], 1, 1⟩, ⟨[[(0, 8885990965), (0, 2862829327991)], [(0, 162704775213),
    (0, 2127823880)]], 1, 1⟩, 1099511627776, 0, 326607866934, ⟨[], 0, 0⟩, 0, 0, 0, lc0⟩ 0 1 641462121727) (.skip))
    (.skip)) (.skip)))) (.skip)
theorem c116 : checkC job ⟨6, 8, 8, 10, 9, 13⟩ 3 100 lims t116 368 48 32 213 3 512 = true := by decide +kernel

def t117 : CTree :=
  .skip
theorem c117 : checkC job ⟨6, 8, 8, 10, 9, 13⟩ 3 100 lims t117 464 48 32 105 3 256 = true := by decide +kernel

def t118 : CTree :=
  .sx (.leaf ⟨55, 16, 20, 679, 16, 604, ⟨[[], [(343597383680, 0)]], 3, 4⟩, ⟨[[(227398872148, 0), (2411850264713, 0),
    (2673091051, 0), (172521253, 0), (2489177, 0)], [(181823168366, 0), (4231276311, 0), (78867799, 0), (1754444, 0),
    (49686, 0)], [(137055021, 0), (8051129, 0), (318412, 0), (11934, 0), (427, 0)], [(150844, 0), (17091, 0), (1112,
    0), (53, 0), (2, 0)]], 3, 4⟩, 1099511627776, 0, 2975590170, ⟨[[(39763621965730, 0), (0, 75891968290), (183207776,
    0), (674066, 0), (1111, 0)], [(40067150611, 0), (232777962, 0), (305733, 0), (0, 4748), (0, 50)], [(0, 76069615),
    (0, 1131100), (0, 7129), (0, 1)], [(191813, 0), (4832, 0), (59, 0)]], 3, 4⟩, 68719476736, 100305488,
    2231877667680188885250824121096447030692982155243814237120252882707361839631370660794596522922, lc0⟩) (.sx (.leaf
    ⟨159, 16, 41, 849, 16, 741, ⟨[[(0, 137438953472)], [(352187318272, 0)]], 3, 4⟩, ⟨[[(0, 288953452790),
    (3393141601677, 0), (12881424681, 0), (471313349, 0), (11261128, 0)], [(125366497892, 0), (3510932945, 0),
    (89990691, 0), (2767568, 0), (93095, 0)], [(55165582, 0), (4047998, 0), (202550, 0), (8663, 0), (339, 0)],
    [(38860, 0), (4855, 0), (329, 0), (17, 0), (1, 0)]], 3, 4⟩, 1099511627776, 0, 543709968, ⟨[[(39736564248968, 0),
    (0, 53792354295), (139433253, 0), (326912, 0), (581, 0)], [(19202783588, 0), (74598151, 0), (0, 47223), (0,
    1781), (0, 16)], [(0, 18066566), (0, 180891), (0, 417), (6, 0)], [(24506, 0), (446, 0), (3, 0)]], 3, 4⟩,
    68719476736, 23692959,
    1607160117233378554180724725950307200486418263940438972278224497059268210290446430802749712419, lc0⟩) (.leaf
    ⟨190, 16, 41, 768, 16, 662, ⟨[[(0, 412316860416)], [(352187318272, 0)]], 3, 4⟩, ⟨[[(520657585194, 0),
    (3370075866573, 0), (21188503776, 0), (746110960, 0), (21916270, 0)], [(122539675800, 0), (3968190278, 0),
    (124799391, 0), (4519558, 0), (181433, 0)], [(61156229, 0), (5149183, 0), (292282, 0), (14857, 0), (886, 0)],
    [(48554, 0), (6525, 0), (525, 0), (43, 0), (4, 0)]], 3, 4⟩, 1099511627776, 0, 1192823306, ⟨[[(39781185941892, 0),
    (0, 54414859911), (183819902, 0), (410164, 0), (919, 0)], [(18828096592, 0), (70115566, 0), (0, 150699), (0,
    3022), (0, 40)], [(0, 17507553), (0, 162934), (64, 0), (12, 0)], [(24767, 0), (431, 0), (2, 0)]], 3, 4⟩,
    68719476736, 44248197,
    1834571463022831983734919391491625973889779614730025432279581541914319906127154317898799213690, lc0⟩))
theorem c118 : checkC job ⟨6, 8, 8, 10, 9, 13⟩ 3 100 lims t118 176 48 32 111 3 256 = true := by decide +kernel

def t119 : CTree :=
  .sx (.sx (.leaf ⟨220, 16, 41, 1069, 16, 914, ⟨[[(412316860416, 0)], [(352187318272, 0)]], 3, 4⟩, ⟨[[(520513377086,
    0), (2557213834237, 0), (10669997668, 0), (191032747, 0), (3196081, 0)], [(177366253647, 0), (3193992386, 0),
    (57091311, 0), (1170166, 0), (29491, 0)], [(93447367, 0), (4319738, 0), (138018, 0), (4457, 0), (188, 0)],
    [(77714, 0), (5848, 0), (304, 0), (17, 0), (1, 0)]], 3, 4⟩, 1099511627776, 0, 930732091, ⟨[[(40009463530738, 0),
    (0, 36331003939), (97330395, 0), (123194, 0), (0, 57)], [(18219034752, 0), (42930152, 0), (0, 104304), (0, 1361),
    (0, 16)], [(0, 16270404), (0, 91701), (168, 0), (4, 0)], [(22644, 0), (225, 0)]], 3, 4⟩, 68719476736, 9993221,
    1023970557940631065224699755860816358129150593894366900673627561564617203917083021653912872995, lc0⟩) (.sx (.leaf
    ⟨487, 16, 82, 1357, 16, 1147, ⟨[[(0, 137438953472)], [(352187318272, 0)]], 3, 4⟩, ⟨[[(298286586927, 0),
    (3528919803559, 0), (19626055907, 0), (385788188, 0), (8623079, 0)], [(120575728527, 0), (2462555109, 0),
    (52364432, 0), (1401369, 0), (52558, 0)], [(35498816, 0), (1876872, 0), (76700, 0), (3682, 0), (209, 0)],
    [(16894, 0), (1601, 0), (120, 0), (9, 0), (1, 0)]], 3, 4⟩, 1099511627776, 0, 257910079, ⟨[[(40007035466356, 0),
    (0, 26286671972), (62155659, 0), (30975, 0), (0, 361)], [(8976552891, 0), (14278828, 0), (0, 51616), (0, 612),
    (0, 7)], [(0, 3934116), (0, 14838), (27, 0)], [(2641, 0), (12, 0)]], 3, 4⟩, 68719476736, 6028471,
    1665382134165781513776213048752465952180010100542620053750365681447805757544879450501408940449, lc0⟩) (.sy (.leaf
    ⟨518, 16, 82, 1958, 16, 1648, ⟨[[(0, 412316860416)], [(352187318272, 0)]], 3, 4⟩, ⟨[[(379818423263, 0),
    (2666224620622, 0), (8314654999, 0), (86153346, 0), (1091228, 0)], [(177792980919, 0), (1922380551, 0),
    (22168758, 0), (334950, 0), (7122, 0)], [(54086986, 0), (1531203, 0), (35090, 0), (953, 0), (29, 0)], [(27159,
    0), (1429, 0), (60, 0), (2, 0)]], 3, 4⟩, 1099511627776, 0, 172672644, ⟨[[(40134711769187, 0), (0, 17510929081),
    (29384633, 0), (0, 992), (0, 173)], [(8815265681, 0), (8869341, 0), (0, 30265), (0, 267), (0, 2)], [(0, 3782411),
    (0, 9582), (4, 0)], [(2380, 0), (4, 0)]], 3, 4⟩, 68719476736, 1929019,
    2053177140463171332783158628165123888082998023420623718531666730049475170104107992504958065161, lc0⟩) (.sx (.leaf
    ⟨1026, 16, 165, 2590, 16, 2168, ⟨[[(103079215104, 0)], [(354334801920, 0)]], 3, 4⟩, ⟨[[(412076235164, 0),
    (3583514984501, 0), (12448792376, 0), (143168430, 0), (2199909, 0)], [(123109900253, 0), (1405029288, 0),
    (18091652, 0), (330107, 0), (8151, 0)], [(20433253, 0), (631047, 0), (17178, 0), (548, 0), (17, 0)], [(5820, 0),
    (356, 0), (17, 0), (1, 0)]], 3, 4⟩, 1099511627776, 0, 36972535, ⟨[[(39876831754190, 0), (0, 12880673851),
    (17072362, 0), (0, 2997), (0, 73)], [(4458071585, 0), (3123142, 0), (0, 11640), (0, 81)], [(0, 974351), (0,
    1796), (1, 0)], [(307, 0)]], 3, 4⟩, 68719476736, 1019215,
    2934033434080971073015080409054464434294666119470134219396754300754634922913483460675879807981, lc0⟩) (.out
    ⟨1362, 16, 162, 2897, 16, 2069, ⟨[[(0, 206158430208)], [(347892350976, 0)]], 1, 1⟩, ⟨[[(0, 124853376890), (0,
    3554473226021)], [(0, 121394853241), (0, 1466840632)]], 1, 1⟩, 1099511627776, 0, 200701191041, ⟨[], 0, 0⟩, 0, 0,
    0, lc0⟩ 0 1 108621325756))))) (.sx (.sx (.out ⟨704, 16, 81, 1386, 16, 992, ⟨[[(0, 343597383680)], [(347892350976,
    0)]], 1, 1⟩, ⟨[[(0, 4477158666), (0, 3533455972936)], [(0, 118036481279), (0, 2970546995)]], 1, 1⟩,
    1099511627776, 0, 495763160565, ⟨[], 0, 0⟩, 0, 0, 0, lc0⟩ 0 1 159377994921) (.out ⟨734, 16, 81, 1263, 16, 911,
    ⟨[[(68719476736, 0)], [(347892350976, 0)]], 1, 1⟩, ⟨[[(15443476892, 0), (0, 3535864396821)], [(0, 116615583101),
    (0, 3378273801)]], 1, 1⟩, 1099511627776, 0, 641410108422, ⟨[], 0, 0⟩, 0, 0, 0, lc0⟩ 0 1 268778397858)) (.sx (.sy
    (.out ⟨764, 16, 81, 1793, 16, 1299, ⟨[[(481036337152, 0)], [(347892350976, 0)]], 1, 1⟩, ⟨[[(279238665123, 0), (0,
    2679865410880)], [(0, 172273919814), (0, 2724381646)]], 1, 1⟩, 1099511627776, 0, 408747068563, ⟨[], 0, 0⟩, 0, 0,
    0, lc0⟩ 0 1 341429365587) (.sy (.sy (.out ⟨764, 16, 81, 2701, 16, 1967, ⟨[[(481036337152, 0)], [(347892350976,
    0)]], 1, 1⟩, ⟨[[(271534365015, 0), (0, 1065224844999)], [(0, 277792066098), (0, 1238651546)]], 1, 1⟩,
    1099511627776, 0, 376857109257, ⟨[], 0, 0⟩, 0, 0, 0, lc0⟩ 0 1 378278224455) (.out ⟨764, 16, 81, 2623, 16, 1914,
    ⟨[[(481036337152, 0)], [(347892350976, 0)]], 1, 1⟩, ⟨[[(0, 281302078332), (0, 1059847476712)], [(0,
    277846410561), (0, 1310683240)]], 1, 1⟩, 1099511627776, 0, 404664911916, ⟨[], 0, 0⟩, 0, 0, 0, lc0⟩ 0 1
    390990564087)) (.out ⟨764, 16, 81, 2081, 16, 1524, ⟨[[(481036337152, 0)], [(347892350976, 0)]], 1, 1⟩,
    ⟨[[(324020901922, 0), (0, 1751566632665)], [(0, 231293310679), (0, 2397639916)]], 1, 1⟩, 1099511627776, 0,
    472518949623, ⟨[], 0, 0⟩, 0, 0, 0, lc0⟩ 0 1 412075540623))) (.sy (.sy (.out ⟨795, 16, 81, 2216, 16, 1616, ⟨[[(0,
    206158430208)], [(347892350976, 0)]], 1, 1⟩, ⟨[[(334467592646, 0), (0, 1812686406541)], [(0, 228329622718), (0,
    2084421933)]], 1, 1⟩, 1099511627776, 0, 382461073498, ⟨[], 0, 0⟩, 0, 0, 0, lc0⟩ 0 1 425343895193) (.out ⟨795, 16,
    81, 2085, 16, 1527, ⟨[[(0, 206158430208)], [(347892350976, 0)]], 1, 1⟩, ⟨[[(0, 357451001118), (0,
    1796854436449)], [(0, 228650013732), (0, 2350053396)]], 1, 1⟩, 1099511627776, 0, 449110931144, ⟨[], 0, 0⟩, 0, 0,
    0, lc0⟩ 0 1 450600400114)) (.sx (.out ⟨1574, 16, 162, 1962, 16, 1444, ⟨[[(481036337152, 0)], [(347892350976,
    0)]], 1, 1⟩, ⟨[[(0, 17384504055), (0, 3579739920497)], [(0, 115955308741), (0, 2753421995)]], 1, 1⟩,
    1099511627776, 0, 560827261247, ⟨[], 0, 0⟩, 0, 0, 0, lc0⟩ 0 1 465253041954) (.skip)))))
theorem c119 : checkC job ⟨6, 8, 8, 10, 9, 13⟩ 3 100 lims t119 272 48 32 219 3 512 = true := by decide +kernel

def t120 : CTree :=
  .sx (.sx (.leaf ⟨220, 16, 41, 982, 16, 828, ⟨[[(412316860416, 0)], [(352187318272, 0)]], 3, 4⟩, ⟨[[(0,
    175148993201), (2454338649820, 0), (13604433330, 0), (279690387, 0), (6801944, 0)], [(180173344212, 0),
    (3660097918, 0), (79643660, 0), (2294969, 0), (92292, 0)], [(113816370, 0), (6075034, 0), (263190, 0), (13730,
    0), (800, 0)], [(117348, 0), (11656, 0), (956, 0), (75, 0), (5, 0)]], 3, 4⟩, 1099511627776, 0, 2771943312,
    ⟨[[(39486971252086, 0), (0, 36791662531), (125227878, 0), (158456, 0), (0, 219)], [(18833740689, 0), (42614998,
    0), (0, 238398), (0, 3920), (0, 56)], [(0, 17595460), (0, 92920), (412, 0), (5, 0)], [(25836, 0), (213, 0), (0,
    2)]], 3, 4⟩, 68719476736, 25429139,
    2594503977357109489836173358546405141956341648770769519891488482773007015387889842335106986790, lc0⟩) (.sx (.sy
    (.leaf ⟨487, 16, 82, 1888, 16, 1578, ⟨[[(0, 137438953472)], [(352187318272, 0)]], 3, 4⟩, ⟨[[(0, 329929652953),
    (2567773257930, 0), (9021796318, 0), (107808231, 0), (1743449, 0)], [(182800935802, 0), (2094315139, 0),
    (27770856, 0), (535217, 0), (13594, 0)], [(63209156, 0), (1992766, 0), (57123, 0), (1893, 0), (60, 0)], [(38100,
    0), (2443, 0), (124, 0), (5, 0)]], 3, 4⟩, 1099511627776, 0, 334763854, ⟨[[(39618767879264, 0), (0, 17710498586),
    (33248329, 0), (0, 364), (0, 201)], [(9180680888, 0), (8831477, 0), (0, 48423), (0, 457), (0, 4)], [(0, 4154784),
    (0, 10131), (16, 0)], [(2781, 0), (4, 0)]], 3, 4⟩, 68719476736, 2853610,
    3951629201957811269869190236058681443970731223869848570357347600391921740072070881439640141619, lc0⟩) (.sy (.out
    ⟨643, 16, 81, 2745, 16, 1965, ⟨[[(0, 68719476736)], [(347892350976, 0)]], 1, 1⟩, ⟨[[(45711874112, 0), (0,
    1653837369123)], [(0, 240136904064), (0, 1483415137)]], 1, 1⟩, 1099511627776, 0, 272516655575, ⟨[], 0, 0⟩, 0, 0,
    0, lc0⟩ 0 1 85742630965) (.out ⟨643, 16, 81, 2641, 16, 1897, ⟨[[(0, 68719476736)], [(347892350976, 0)]], 1, 1⟩,
    ⟨[[(247310823196, 0), (0, 1637906048925)], [(0, 240850446821), (0, 1581362965)]], 1, 1⟩, 1099511627776, 0,
    299294465384, ⟨[], 0, 0⟩, 0, 0, 0, lc0⟩ 0 1 118948268993))) (.out ⟨673, 16, 81, 1315, 16, 947, ⟨[[(343597383680,
    0)], [(347892350976, 0)]], 1, 1⟩, ⟨[[(0, 228014922258), (0, 3443773636858)], [(0, 122571538331), (0,
    3425313260)]], 1, 1⟩, 1099511627776, 0, 628247310266, ⟨[], 0, 0⟩, 0, 0, 0, lc0⟩ 0 1 179637402556))) (.sx (.sx
    (.sy (.out ⟨704, 16, 81, 1831, 16, 1325, ⟨[[(0, 343597383680)], [(347892350976, 0)]], 1, 1⟩, ⟨[[(128681925396,
    0), (0, 2575952816230)], [(0, 178601124701), (0, 2764799713)]], 1, 1⟩, 1099511627776, 0, 422773757931, ⟨[], 0,
    0⟩, 0, 0, 0, lc0⟩ 0 1 258409139245) (.sy (.out ⟨704, 16, 81, 2238, 16, 1629, ⟨[[(0, 343597383680)],
    [(347892350976, 0)]], 1, 1⟩, ⟨[[(0, 105172811416), (0, 1678809892881)], [(0, 236686872005), (0, 2135497909)]], 1,
    1⟩, 1099511627776, 0, 428058046460, ⟨[], 0, 0⟩, 0, 0, 0, lc0⟩ 0 1 300859487537) (.out ⟨704, 16, 81, 2104, 16,
    1538, ⟨[[(0, 343597383680)], [(347892350976, 0)]], 1, 1⟩, ⟨[[(40219598446, 0), (0, 1662447134322)], [(0,
    236714620862), (0, 2422838681)]], 1, 1⟩, 1099511627776, 0, 505827473715, ⟨[], 0, 0⟩, 0, 0, 0, lc0⟩ 0 1
    327543946637))) (.sy (.sy (.out ⟨734, 16, 81, 2222, 16, 1619, ⟨[[(68719476736, 0)], [(347892350976, 0)]], 1, 1⟩,
    ⟨[[(211601299136, 0), (0, 1723554256724)], [(0, 233953753647), (0, 2137395442)]], 1, 1⟩, 1099511627776, 0,
    416542350326, ⟨[], 0, 0⟩, 0, 0, 0, lc0⟩ 0 1 344598558419) (.out ⟨734, 16, 81, 2088, 16, 1528, ⟨[[(68719476736,
    0)], [(347892350976, 0)]], 1, 1⟩, ⟨[[(219620347958, 0), (0, 1707378242341)], [(0, 234060694952), (0,
    2424447396)]], 1, 1⟩, 1099511627776, 0, 492120559894, ⟨[], 0, 0⟩, 0, 0, 0, lc0⟩ 0 1 370947685676)) (.skip)))
    (.skip))
theorem c120 : checkC job ⟨6, 8, 8, 10, 9, 13⟩ 3 100 lims t120 272 48 32 225 3 512 = true := by decide +kernel

def t121 : CTree :=
  .sx (.sx (.leaf ⟨97, 16, 41, 944, 16, 829, ⟨[[(412316860416, 0)], [(352187318272, 0)]], 3, 4⟩, ⟨[[(319437320595,
    0), (3215136615311, 0), (5294786752, 0), (268396732, 0), (5236171, 0)], [(138213310412, 0), (3314102235, 0),
    (67256715, 0), (1768374, 0), (59915, 0)], [(61782847, 0), (3839788, 0), (170181, 0), (7272, 0), (295, 0)],
    [(42917, 0), (5158, 0), (358, 0), (18, 0), (1, 0)]], 3, 4⟩, 1099511627776, 0, 576191635, ⟨[[(38782396567364, 0),
    (0, 54213694062), (106177314, 0), (303851, 0), (839, 0)], [(21222543745, 0), (91439673, 0), (70603, 0), (0,
    1361), (0, 13)], [(0, 21956917), (0, 242706), (0, 1094), (1, 0)], [(29838, 0), (558, 0), (5, 0)]], 3, 4⟩,
    68719476736, 20229933,
    982673266080073340888358904314912486818188820821098785776879443871093075824956484893110210527, lc0⟩) (.leaf ⟨128,
    16, 41, 856, 16, 742, ⟨[[(137438953472, 0)], [(352187318272, 0)]], 3, 4⟩, ⟨[[(539178062201, 0), (3198803432106,
    0), (12246433525, 0), (469051881, 0), (13045296, 0)], [(135551705877, 0), (3777473428, 0), (100049035, 0),
    (3388851, 0), (130736, 0)], [(68997624, 0), (5146718, 0), (272983, 0), (12978, 0), (596, 0)], [(57787, 0), (7414,
    0), (536, 0), (31, 0), (2, 0)]], 3, 4⟩, 1099511627776, 0, 929653858, ⟨[[(38798925403242, 0), (0, 54536944730),
    (147064047, 0), (419683, 0), (1764, 0)], [(20906435669, 0), (86729764, 0), (0, 52458), (0, 2700), (0, 29)], [(0,
    21890242), (0, 235959), (0, 685), (7, 0)], [(32081, 0), (619, 0), (5, 0)]], 3, 4⟩, 68719476736, 46763659,
    1636283502101443997546994274000685697158325587169102746213263271496685155123613708931266209708, lc0⟩)) (.sx
    (.leaf ⟨159, 16, 41, 761, 16, 650, ⟨[[(0, 137438953472)], [(352187318272, 0)]], 3, 4⟩, ⟨[[(235568169712, 0),
    (3167885722731, 0), (21836210595, 0), (833880213, 0), (29932799, 0)], [(131950411515, 0), (4385838345, 0),
    (149960149, 0), (6337825, 0), (318609, 0)], [(78276978, 0), (6907509, 0), (436831, 0), (27651, 0), (2124, 0)],
    [(75023, 0), (10788, 0), (1064, 0), (116, 0), (13, 0)]], 3, 4⟩, 1099511627776, 0, 2606345432, ⟨[[(38789364044234,
    0), (0, 55018281873), (207685831, 0), (636829, 0), (4333, 0)], [(20555877284, 0), (80327927, 0), (0, 254409), (0,
    5900), (0, 85)], [(0, 21514776), (0, 214136), (146, 0), (20, 0)], [(33898, 0), (644, 0), (4, 0)]], 3, 4⟩,
    68719476736, 121117157,
    2189599457380567504085225615219178135982592519803276974030049558301814154252068932834170984127, lc0⟩) (.sy (.leaf
    ⟨190, 16, 41, 1019, 16, 862, ⟨[[(0, 412316860416)], [(352187318272, 0)]], 3, 4⟩, ⟨[[(222234353817, 0),
    (2354436584270, 0), (11396603833, 0), (231215297, 0), (5184410, 0)], [(186767494353, 0), (3555429341, 0),
    (72402167, 0), (1915139, 0), (68007, 0)], [(120014698, 0), (6027222, 0), (237883, 0), (11027, 0), (592, 0)],
    [(124619, 0), (11213, 0), (829, 0), (62, 0), (4, 0)]], 3, 4⟩, 1099511627776, 0, 2570399805, ⟨[[(39028557669998,
    0), (0, 37461646312), (120119263, 0), (234826, 0), (1072, 0)], [(19806255446, 0), (48482718, 0), (0, 211800), (0,
    3297), (0, 42)], [(0, 19827016), (0, 116852), (431, 0), (9, 0)], [(31313, 0), (349, 0)]], 3, 4⟩, 68719476736,
    30349495, 1415242415053406190807800568439503344349775413143956700692176987550622686004654868833611743774, lc0⟩)
    (.sx (.leaf ⟨364, 16, 82, 1377, 16, 1155, ⟨[[(0, 137438953472)], [(352187318272, 0)]], 3, 4⟩, ⟨[[(394133473711,
    0), (3235410377615, 0), (19239552739, 0), (456513996, 0), (13209650, 0)], [(136371691946, 0), (2844161805, 0),
    (69846833, 0), (2436960, 0), (107972, 0)], [(51082186, 0), (2965824, 0), (154267, 0), (9228, 0), (538, 0)],
    [(32921, 0), (3869, 0), (370, 0), (30, 0), (2, 0)]], 3, 4⟩, 1099511627776, 0, 654409230, ⟨[[(38549470794717, 0),
    (0, 26627130088), (72078250, 0), (134482, 0), (680, 0)], [(10274210687, 0), (17060286, 0), (0, 92204), (0, 1107),
    (0, 10)], [(0, 5413088), (0, 21603), (100, 0), (1, 0)], [(4563, 0), (35, 0)]], 3, 4⟩, 68719476736, 8549903,
    710319481875631100402262013686843302802907486788140889266380839997762623191301334267692579795, lc0⟩) (.sy (.leaf
    ⟨395, 16, 82, 1892, 16, 1578, ⟨[[(0, 412316860416)], [(352187318272, 0)]], 3, 4⟩, ⟨[[(179085255574, 0),
    (2364712559272, 0), (8373410581, 0), (111285296, 0), (1923689, 0)], [(194200965175, 0), (2215839329, 0),
    (31737073, 0), (673383, 0), (17090, 0)], [(77464074, 0), (2574666, 0), (81871, 0), (2811, 0), (86, 0)], [(56658,
    0), (4029, 0), (217, 0), (9, 0)]], 3, 4⟩, 1099511627776, 0, 639384004, ⟨[[(38662724213013, 0), (0, 18308270377),
    (38485445, 0), (44757, 0), (133, 0)], [(10069219669, 0), (10431150, 0), (0, 61516), (0, 553), (0, 4)], [(0,
    5154128), (0, 12540), (61, 0)], [(4237, 0), (17, 0)]], 3, 4⟩, 68719476736, 2175868,
    1777214177369622465200093008141575155943719916518552182293277664846933687178713091067743151652, lc0⟩) (.leaf
    ⟨395, 16, 82, 1780, 16, 1474, ⟨[[(0, 412316860416)], [(352187318272, 0)]], 3, 4⟩, ⟨[[(0, 230664821063),
    (2315774756322, 0), (10175487390, 0), (163875069, 0), (3379025, 0)], [(195047873664, 0), (2510145208, 0),
    (45411869, 0), (1189372, 0), (32742, 0)], [(90231034, 0), (3691076, 0), (146417, 0), (5499, 0), (170, 0)],
    [(85073, 0), (7411, 0), (434, 0), (18, 0), (1, 0)]], 3, 4⟩, 1099511627776, 0, 1241941428, ⟨[[(38421135797137, 0),
    (0, 18452087540), (46385784, 0), (65208, 0), (233, 0)], [(10198086630, 0), (9002438, 0), (0, 102044), (0, 998),
    (0, 8)], [(0, 5312256), (0, 11397), (91, 0), (1, 0)], [(4446, 0), (14, 0)]], 3, 4⟩, 68719476736, 3572077,
    3914211213965735273354898659475357008901292295150635729710132578218890311536723385121561316072, lc0⟩)))))
theorem c121 : checkC job ⟨6, 8, 8, 10, 9, 13⟩ 3 100 lims t121 176 48 32 117 3 256 = true := by decide +kernel

def t122 : CTree :=
  .sx (.sx (.sy (.sx (.leaf ⟨425, 16, 82, 1298, 16, 1084, ⟨[[(412316860416, 0)], [(352187318272, 0)]], 3, 4⟩, ⟨[[(0,
    176803574325), (3328560708518, 0), (22985055023, 0), (579126074, 0), (19350605, 0)], [(129724122133, 0),
    (2929285963, 0), (79908165, 0), (3228758, 0), (163503, 0)], [(48523061, 0), (3105664, 0), (187120, 0), (12651,
    0), (788, 0)], [(32395, 0), (4368, 0), (460, 0), (39, 0), (3, 0)]], 3, 4⟩, 1099511627776, 0, 856007162,
    ⟨[[(39005080940411, 0), (0, 26475699091), (77304691, 0), (87487, 0), (71, 0)], [(9746510831, 0), (14556251, 0),
    (0, 115368), (0, 1525), (0, 16)], [(0, 4768668), (0, 16697), (97, 0), (1, 0)], [(3683, 0), (18, 0)]], 3, 4⟩,
    68719476736, 4458275,
    3646423861087779566647913715973004984881450305284249195196277775049486100285222658406616701013, lc0⟩) (.sx (.sy
    (.leaf ⟨902, 16, 165, 2580, 16, 2148, ⟨[[(377957122048, 0)], [(354334801920, 0)]], 3, 4⟩, ⟨[[(0, 503346872458),
    (3441249548257, 0), (13041735222, 0), (175673653, 0), (3227003, 0)], [(131109737099, 0), (1558503563, 0),
    (23171906, 0), (517867, 0), (13932, 0)], [(25246097, 0), (872092, 0), (29019, 0), (1041, 0), (33, 0)], [(8972,
    0), (660, 0), (37, 0), (2, 0)]], 3, 4⟩, 1099511627776, 0, 69608677, ⟨[[(39125642662261, 0), (0, 12891116275),
    (19168875, 0), (6018, 0), (0, 25)], [(4762895039, 0), (3219097, 0), (0, 16581), (0, 114), (0, 1)], [(0, 1132609),
    (0, 1872), (5, 0)], [(413, 0), (1, 0)]], 3, 4⟩, 68719476736, 717393,
    3205857973987113941323427473352620160089715542126160279679604584984047684735667548880649523979, lc0⟩) (.out
    ⟨1210, 16, 162, 2783, 16, 2002, ⟨[[(0, 68719476736)], [(347892350976, 0)]], 1, 1⟩, ⟨[[(58481442340, 0), (0,
    3373988266037)], [(0, 131815069228), (0, 1777551339)]], 1, 1⟩, 1099511627776, 0, 256760722855, ⟨[], 0, 0⟩, 0, 0,
    0, lc0⟩ 0 1 85906954964)) (.out ⟨1240, 16, 162, 1685, 16, 1213, ⟨[[(343597383680, 0)], [(347892350976, 0)]], 1,
    1⟩, ⟨[[(0, 117365327306), (0, 4178784212173)], [(0, 80051661409), (0, 2201715357)]], 1, 1⟩, 1099511627776, 0,
    551342992490, ⟨[], 0, 0⟩, 0, 0, 0, lc0⟩ 0 1 110858569535))) (.sx (.sx (.sy (.leaf ⟨840, 16, 165, 2509, 16, 2078,
    ⟨[[(515396075520, 0)], [(354334801920, 0)]], 3, 4⟩, ⟨[[(0, 40977137674), (3343957199729, 0), (14722307041, 0),
    (234987000, 0), (4915377, 0)], [(135870702720, 0), (1753577204, 0), (31485785, 0), (829728, 0), (23269, 0)],
    [(30391682, 0), (1236073, 0), (49050, 0), (1865, 0), (59, 0)], [(13737, 0), (1192, 0), (70, 0), (3, 0)]], 3, 4⟩,
    1099511627776, 0, 124512704, ⟨[[(38652545767910, 0), (0, 12966604088), (22190143, 0), (15347, 0), (16, 0)],
    [(4951631236, 0), (3018596, 0), (0, 24388), (0, 172), (0, 1)], [(0, 1241206), (0, 1872), (9, 0)], [(489, 0), (1,
    0)]], 3, 4⟩, 68719476736, 307366,
    3931259604156267892749172786499542534422812436807605396935966395205730462543020852539792518583, lc0⟩) (.out
    ⟨1149, 16, 162, 2658, 16, 1921, ⟨[[(206158430208, 0)], [(347892350976, 0)]], 1, 1⟩, ⟨[[(0, 182144391194), (0,
    3282776464016)], [(0, 136577794508), (0, 2075773966)]], 1, 1⟩, 1099511627776, 0, 318820509921, ⟨[], 0, 0⟩, 0, 0,
    0, lc0⟩ 0 1 88309551546)) (.out ⟨1180, 16, 162, 1617, 16, 1170, ⟨[[(0, 481036337152)], [(347892350976, 0)]], 1,
    1⟩, ⟨[[(18015057882, 0), (0, 4103920566443)], [(0, 83689431152), (0, 2620337611)]], 1, 1⟩, 1099511627776, 0,
    701966511674, ⟨[], 0, 0⟩, 0, 0, 0, lc0⟩ 0 1 116730546490)) (.sy (.out ⟨613, 16, 81, 1766, 16, 1282, ⟨[[(0,
    481036337152)], [(347892350976, 0)]], 1, 1⟩, ⟨[[(0, 95575105123), (0, 2379949818319)], [(0, 189477330994), (0,
    3262909812)]], 1, 1⟩, 1099511627776, 0, 558668665205, ⟨[], 0, 0⟩, 0, 0, 0, lc0⟩ 0 1 169868069683) (.skip)))) (.sy
    (.sx (.sy (.out ⟨643, 16, 81, 1898, 16, 1370, ⟨[[(0, 68719476736)], [(347892350976, 0)]], 1, 1⟩, ⟨[[(0,
    460931400177), (0, 2472847171989)], [(0, 185143784518), (0, 2723352303)]], 1, 1⟩, 1099511627776, 0, 419429809511,
    ⟨[], 0, 0⟩, 0, 0, 0, lc0⟩ 0 1 162458018017) (.out ⟨643, 16, 81, 1717, 16, 1249, ⟨[[(0, 68719476736)],
    [(347892350976, 0)]], 1, 1⟩, ⟨[[(254034572656, 0), (0, 2430789506577)], [(0, 186062136911), (0, 3361252210)]], 1,
    1⟩, 1099511627776, 0, 577899080915, ⟨[], 0, 0⟩, 0, 0, 0, lc0⟩ 0 1 221370913520)) (.sy (.sy (.out ⟨673, 16, 81,
    2264, 16, 1646, ⟨[[(343597383680, 0)], [(347892350976, 0)]], 1, 1⟩, ⟨[[(0, 23171402820), (0, 1634771380931)],
    [(0, 239485987890), (0, 2111843549)]], 1, 1⟩, 1099511627776, 0, 434665424105, ⟨[], 0, 0⟩, 0, 0, 0, lc0⟩ 0 1
    254631961410) (.out ⟨673, 16, 81, 2133, 16, 1557, ⟨[[(343597383680, 0)], [(347892350976, 0)]], 1, 1⟩, ⟨[[(0,
    72862686726), (0, 1619506856953)], [(0, 239645595035), (0, 2393444051)]], 1, 1⟩, 1099511627776, 0, 513093224079,
    ⟨[], 0, 0⟩, 0, 0, 0, lc0⟩ 0 1 280830024902)) (.skip))) (.skip))) (.skip)
theorem c122 : checkC job ⟨6, 8, 8, 10, 9, 13⟩ 3 100 lims t122 272 48 32 117 3 256 = true := by decide +kernel

def t123 : CTree :=
  .sy (.sx (.sy (.sx (.sx (.sx (.sy (.sy (.out ⟨825, 16, 81, 1955, 16, 1439, ⟨[[(206158430208, 0)], [(347892350976,
    0)]], 1, 1⟩, ⟨[[(0, 147294320334), (0, 1825252585118)], [(0, 225975286421), (0, 2614821139)]], 1, 1⟩,
    1099511627776, 0, 504973878833, ⟨[], 0, 0⟩, 0, 0, 0, lc0⟩ 0 1 512641671076) (.skip)) (.skip)) (.skip)) (.skip))
    (.skip)) (.skip)) (.skip)) (.skip)
theorem c123 : checkC job ⟨6, 8, 8, 10, 9, 13⟩ 3 100 lims t123 208 48 16 57 3 128 = true := by decide +kernel

def t124 : CTree :=
  .sx (.sx (.leaf ⟨97, 16, 41, 873, 16, 752, ⟨[[(412316860416, 0)], [(352187318272, 0)]], 3, 4⟩, ⟨[[(0,
    319559735688), (3005884777225, 0), (10692319503, 0), (447557217, 0), (14169202, 0)], [(146045519776, 0),
    (3975157340, 0), (107567663, 0), (4030590, 0), (173590, 0)], [(84373764, 0), (6368601, 0), (363326, 0), (19267,
    0), (963, 0)], [(83568, 0), (11303, 0), (895, 0), (58, 0), (4, 0)]], 3, 4⟩, 1099511627776, 0, 1559715743,
    ⟨[[(37823345492363, 0), (0, 55088853114), (152514881, 0), (558721, 0), (3741, 0)], [(22917735763, 0), (101699693,
    0), (0, 48629), (0, 3842), (0, 46)], [(0, 26779772), (0, 309617), (0, 1136), (8, 0)], [(41950, 0), (847, 0), (8,
    0)]], 3, 4⟩, 68719476736, 78932817,
    1575648452406816302052136576501741494785366404757374819147491593593290720635116568213320697923, lc0⟩) (.leaf
    ⟨128, 16, 41, 760, 16, 645, ⟨[[(137438953472, 0)], [(352187318272, 0)]], 3, 4⟩, ⟨[[(157062911442, 0),
    (2965796400551, 0), (21734657023, 0), (929992411, 0), (38972004, 0)], [(141495609944, 0), (4786449462, 0),
    (180477766, 0), (8879023, 0), (499177, 0)], [(98787594, 0), (9279184, 0), (666238, 0), (48445, 0), (3870, 0)],
    [(115782, 0), (18353, 0), (2093, 0), (243, 0), (27, 0)]], 3, 4⟩, 1099511627776, 0, 4962335983,
    ⟨[[(37853248668790, 0), (0, 55992681329), (232642781, 0), (1033534, 0), (10622, 0)], [(22454992974, 0),
    (93368396, 0), (0, 377724), (0, 9800), (0, 145)], [(0, 26376242), (0, 287911), (12, 0), (29, 0)], [(45210, 0),
    (941, 0), (7, 0)]], 3, 4⟩, 68719476736, 243330571,
    2504381798003165758384685822610769837531713711017589324497351765646335631526190619538719760120, lc0⟩)) (.sx (.sx
    (.leaf ⟨302, 16, 82, 875, 16, 733, ⟨[[(412316860416, 0)], [(352187318272, 0)]], 3, 4⟩, ⟨[[(0, 42703160683),
    (3826194516957, 0), (44643085927, 0), (2232214276, 0), (126951690, 0)], [(89671090241, 0), (3691564919, 0),
    (186705695, 0), (13012997, 0), (1070965, 0)], [(37041088, 0), (4366550, 0), (454550, 0), (51522, 0), (5601, 0)],
    [(26800, 0), (6275, 0), (1158, 0), (179, 0), (22, 0)]], 3, 4⟩, 1099511627776, 0, 5765189235, ⟨[[(37842089677630,
    0), (0, 43334750175), (196924627, 0), (854631, 0), (8925, 0)], [(11037556637, 0), (31266461, 0), (0, 278159), (0,
    5393), (0, 76)], [(0, 6422306), (0, 46755), (274, 0), (7, 0)], [(5858, 0), (89, 0)]], 3, 4⟩, 68719476736,
    143682166, 2742067709090290133446535276025661713598466244176175137331464720111267712861456457849133529022, lc0⟩)
    (.sy (.leaf ⟨333, 16, 82, 1359, 16, 1135, ⟨[[(137438953472, 0)], [(352187318272, 0)]], 3, 4⟩, ⟨[[(0,
    301439735480), (3133942935746, 0), (20438531155, 0), (535364869, 0), (16878108, 0)], [(141132968162, 0),
    (3072918089, 0), (84159284, 0), (3281970, 0), (150541, 0)], [(59075929, 0), (3744494, 0), (219699, 0), (13863,
    0), (799, 0)], [(44662, 0), (5904, 0), (599, 0), (48, 0), (3, 0)]], 3, 4⟩, 1099511627776, 0, 1024453774,
    ⟨[[(38066688558804, 0), (0, 26729300884), (81083971, 0), (207515, 0), (1344, 0)], [(10729851064, 0), (17505147,
    0), (0, 126725), (0, 1564), (0, 15)], [(0, 6010411), (0, 24353), (138, 0), (2, 0)], [(5404, 0), (46, 0)]], 3, 4⟩,
    68719476736, 14549892,
    766452632999630949007587515741700977695965990125155072698516110440653917039651987324761716142, lc0⟩) (.sy (.leaf
    ⟨333, 16, 82, 1772, 16, 1466, ⟨[[(137438953472, 0)], [(352187318272, 0)]], 3, 4⟩, ⟨[[(100199846162, 0),
    (2168713626917, 0), (9828622651, 0), (163769213, 0), (3230076, 0)], [(202838657146, 0), (2648870514, 0),
    (49971613, 0), (1283108, 0), (33243, 0)], [(105979219, 0), (4490476, 0), (177640, 0), (6387, 0), (187, 0)],
    [(115336, 0), (10125, 0), (577, 0), (23, 0), (1, 0)]], 3, 4⟩, 1099511627776, 0, 1883000997, ⟨[[(37735615950169,
    0), (0, 18982942415), (54363757, 0), (137081, 0), (757, 0)], [(10930907138, 0), (10303683, 0), (0, 122625), (0,
    1176), (0, 8)], [(0, 6297495), (0, 15306), (132, 0), (1, 0)], [(5974, 0), (32, 0)]], 3, 4⟩, 68719476736, 6799179,
    1448653648438605212256218389117268593356000828209901879871556365752788446361483351247820571473, lc0⟩) (.leaf
    ⟨333, 16, 82, 1635, 16, 1343, ⟨[[(137438953472, 0)], [(352187318272, 0)]], 3, 4⟩, ⟨[[(0, 462413066101),
    (2114003158488, 0), (12495850251, 0), (247928778, 0), (5469720, 0)], [(202327296570, 0), (3134357760, 0),
    (75286361, 0), (2219930, 0), (59863, 0)], [(129148985, 0), (6876333, 0), (315383, 0), (11792, 0), (343, 0)],
    [(185906, 0), (18587, 0), (1090, 0), (44, 0), (1, 0)]], 3, 4⟩, 1099511627776, 0, 3576112588, ⟨[[(37502847175947,
    0), (0, 19128748677), (72006285, 0), (237718, 0), (1489, 0)], [(11039622640, 0), (7126932, 0), (0, 210766), (0,
    2202), (0, 17)], [(0, 6468646), (0, 12392), (214, 0), (2, 0)], [(6359, 0), (30, 0)]], 3, 4⟩, 68719476736,
    12465635, 3813708056955213072826495279195363998809457574548179443362255590802854533900072745976609350849,
    lc0⟩)))) (.sy (.sx (.leaf ⟨364, 16, 82, 1229, 16, 1017, ⟨[[(0, 137438953472)], [(352187318272, 0)]], 3, 4⟩,
    ⟨[[(0, 13095618330), (3109201572773, 0), (27987145447, 0), (926945127, 0), (37782134, 0)], [(137947901693, 0),
    (3594257760, 0), (134426108, 0), (7057754, 0), (379175, 0)], [(68144929, 0), (5738126, 0), (460449, 0), (34043,
    0), (2049, 0)], [(69876, 0), (12367, 0), (1436, 0), (119, 0), (7, 0)]], 3, 4⟩, 1099511627776, 0, 2400035576,
    ⟨[[(38076132023677, 0), (0, 26982138641), (105063470, 0), (302050, 0), (2133, 0)], [(10553083215, 0), (13737520,
    0), (0, 235980), (0, 3295), (0, 35)], [(0, 5774114), (0, 18558), (239, 0), (3, 0)], [(5174, 0), (32, 0)]], 3, 4⟩,
    68719476736, 24796517,
    2527257294441288955200685318164980328180453007357183323846836737422299010693145426696059722984, lc0⟩) (.sy (.sx
    (.leaf ⟨779, 16, 165, 2431, 16, 2004, ⟨[[(0, 446676598784)], [(354334801920, 0)]], 3, 4⟩, ⟨[[(236746956055, 0),
    (3242844120655, 0), (16830432515, 0), (310906299, 0), (6977102, 0)], [(140428199768, 0), (2001027218, 0),
    (43073064, 0), (1256915, 0), (35434, 0)], [(37111663, 0), (1780214, 0), (79363, 0), (3066, 0), (94, 0)], [(21419,
    0), (2073, 0), (125, 0), (5, 0)]], 3, 4⟩, 1099511627776, 0, 217594772, ⟨[[(38194255027518, 0), (0, 13053322097),
    (26555024, 0), (33200, 0), (102, 0)], [(5143266391, 0), (2668266, 0), (0, 35252), (0, 254), (0, 1)], [(0,
    1360193), (0, 1828), (15, 0)], [(581, 0), (1, 0)]], 3, 4⟩, 68719476736, 1057200,
    3523048746720284612955076649683568295340305926879207549212262979183975931027681902619807964920, lc0⟩) (.out
    ⟨1119, 16, 162, 2593, 16, 1878, ⟨[[(0, 206158430208)], [(347892350976, 0)]], 1, 1⟩, ⟨[[(0, 388935118905), (0,
    3236274103831)], [(0, 138901719411), (0, 2258073981)]], 1, 1⟩, 1099511627776, 0, 357175061787, ⟨[], 0, 0⟩, 0, 0,
    0, lc0⟩ 0 1 86563792872)) (.skip))) (.skip)))
theorem c124 : checkC job ⟨6, 8, 8, 10, 9, 13⟩ 3 100 lims t124 176 48 32 123 3 256 = true := by decide +kernel

def t125 : CTree :=
  .sx (.sx (.sx (.leaf ⟨179, 16, 82, 1080, 16, 917, ⟨[[(412316860416, 0)], [(352187318272, 0)]], 3, 4⟩,
    ⟨[[(207259237747, 0), (3737824260229, 0), (22352850658, 0), (1037089828, 0), (43691365, 0)], [(102722153946, 0),
    (3228644951, 0), (119070339, 0), (5942935, 0), (307715, 0)], [(39017040, 0), (3627602, 0), (263376, 0), (17512,
    0), (1107, 0)], [(26730, 0), (4241, 0), (428, 0), (38, 0), (3, 0)]], 3, 4⟩, 1099511627776, 0, 1208583785,
    ⟨[[(36967890115143, 0), (0, 42374959472), (121306591, 0), (497838, 0), (4018, 0)], [(12330795229, 0), (42379437,
    0), (0, 80318), (0, 2045), (0, 21)], [(0, 8026938), (0, 73414), (0, 151), (2, 0)], [(7051, 0), (116, 0), (1,
    0)]], 3, 4⟩, 68719476736, 51185366,
    2049630727896576718929316298896165136567613965195511835347658168928198877796930759698488322774, lc0⟩) (.leaf
    ⟨210, 16, 82, 986, 16, 830, ⟨[[(137438953472, 0)], [(352187318272, 0)]], 3, 4⟩, ⟨[[(155045179867, 0),
    (3697794072504, 0), (33183887947, 0), (1641193231, 0), (79250433, 0)], [(100499289717, 0), (3676067273, 0),
    (167183772, 0), (9801434, 0), (602383, 0)], [(43477526, 0), (4678985, 0), (401102, 0), (33285, 0), (2728, 0)],
    [(33229, 0), (6194, 0), (828, 0), (100, 0), (11, 0)]], 3, 4⟩, 1099511627776, 0, 2727540520, ⟨[[(36968777731859,
    0), (0, 42846367193), (162373364, 0), (804687, 0), (7893, 0)], [(12200256401, 0), (39711802, 0), (0, 186191), (0,
    3787), (0, 44)], [(0, 7996456), (0, 70773), (5, 0), (5, 0)], [(7455, 0), (127, 0), (1, 0)]], 3, 4⟩, 68719476736,
    107312479, 2606619111582827137745916949733414921371392913900422114694835296007998432426652494246537231610, lc0⟩))
    (.sx (.sy (.leaf ⟨241, 16, 82, 1473, 16, 1235, ⟨[[(0, 137438953472)], [(352187318272, 0)]], 3, 4⟩, ⟨[[(0,
    218915327213), (2943811893463, 0), (15766377700, 0), (401771396, 0), (10567057, 0)], [(153664081220, 0),
    (3034884573, 0), (75420050, 0), (2441818, 0), (86202, 0)], [(68382011, 0), (3944929, 0), (189349, 0), (9237, 0),
    (438, 0)], [(53604, 0), (5695, 0), (457, 0), (32, 0), (2, 0)]], 3, 4⟩, 1099511627776, 0, 820867847,
    ⟨[[(37177313908989, 0), (0, 27156620367), (74748005, 0), (245028, 0), (1643, 0)], [(11863132850, 0), (22880860,
    0), (0, 103484), (0, 1276), (0, 10)], [(0, 7571601), (0, 39680), (61, 0), (2, 0)], [(7183, 0), (76, 0)]], 3, 4⟩,
    68719476736, 15607195,
    1159620541837481851372489527015211295087197477164868571943120212723948801010903772723508272056, lc0⟩) (.sy (.leaf
    ⟨241, 16, 82, 1890, 16, 1572, ⟨[[(0, 137438953472)], [(352187318272, 0)]], 3, 4⟩, ⟨[[(488504825411, 0),
    (1982297073454, 0), (7256314928, 0), (106654285, 0), (1635350, 0)], [(215259302569, 0), (2482723092, 0),
    (38944166, 0), (770706, 0), (15687, 0)], [(115870574, 0), (4083905, 0), (123875, 0), (3575, 0), (91, 0)],
    [(117455, 0), (8011, 0), (381, 0), (14, 0)]], 3, 4⟩, 1099511627776, 0, 1607000495, ⟨[[(36866996987001, 0), (0,
    19855405724), (52478435, 0), (165122, 0), (929, 0)], [(12116967603, 0), (15573222, 0), (0, 97843), (0, 904), (0,
    6)], [(0, 8029399), (0, 29421), (81, 0), (1, 0)], [(8118, 0), (64, 0)]], 3, 4⟩, 68719476736, 7238667,
    2208110906861694186146420874101212915070595778369393838792701776289444553434237600459719494453, lc0⟩) (.sx (.leaf
    ⟨469, 16, 165, 2734, 16, 2266, ⟨[[(240518168576, 0)], [(354334801920, 0)]], 3, 4⟩, ⟨[[(0, 205028350382),
    (2901127138039, 0), (12020224190, 0), (187032638, 0), (2983727, 0)], [(162201620440, 0), (2004874407, 0),
    (34526124, 0), (723787, 0), (15067, 0)], [(48173700, 0), (1848187, 0), (60112, 0), (1784, 0), (45, 0)], [(27663,
    0), (2027, 0), (99, 0), (4, 0)]], 3, 4⟩, 1099511627776, 0, 214875068, ⟨[[(36639712534833, 0), (0, 13351785682),
    (27423138, 0), (67005, 0), (267, 0)], [(6136604827, 0), (5033624, 0), (0, 28501), (0, 181), (0, 1)], [(0,
    2081538), (0, 5106), (12, 0)], [(1082, 0), (6, 0)]], 3, 4⟩, 68719476736, 1519160,
    2393095815236241628744214352728589594049905299288604542974757136889785030245914516924469195204, lc0⟩) (.skip))))
    (.sy (.sy (.leaf ⟨272, 16, 82, 1918, 16, 1598, ⟨[[(0, 412316860416)], [(352187318272, 0)]], 3, 4⟩,
    ⟨[[(153564900509, 0), (2074582041518, 0), (7175381614, 0), (101422478, 0), (1577397, 0)], [(210657289562, 0),
    (2357524829, 0), (35051137, 0), (693384, 0), (14794, 0)], [(102624717, 0), (3464074, 0), (104334, 0), (3128, 0),
    (84, 0)], [(93105, 0), (6315, 0), (310, 0), (12, 0)]], 3, 4⟩, 1099511627776, 0, 1193278506, ⟨[[(37297849816454,
    0), (0, 19391806240), (46686210, 0), (122637, 0), (653, 0)], [(11596104296, 0), (14255188, 0), (0, 82025), (0,
    734), (0, 5)], [(0, 7238747), (0, 24149), (78, 0), (1, 0)], [(7055, 0), (51, 0)]], 3, 4⟩, 68719476736, 5370727,
    1476892751340163065119270795912066505828689282412095601614694127041375118672833057356053524835, lc0⟩) (.sx (.leaf
    ⟨531, 16, 165, 2740, 16, 2275, ⟨[[(103079215104, 0)], [(354334801920, 0)]], 3, 4⟩, ⟨[[(344967490616, 0),
    (2999881979756, 0), (11772303677, 0), (178673059, 0), (2939046, 0)], [(156837501413, 0), (1879143432, 0),
    (31072612, 0), (663797, 0), (14620, 0)], [(42118849, 0), (1564362, 0), (51547, 0), (1605, 0), (43, 0)], [(21907,
    0), (1627, 0), (83, 0), (3, 0)]], 3, 4⟩, 1099511627776, 0, 167209080, ⟨[[(37076221751157, 0), (0, 13250299502),
    (24721673, 0), (51498, 0), (199, 0)], [(5868277621, 0), (4694959, 0), (0, 24391), (0, 152), (0, 1)], [(0,
    1871562), (0, 4213), (12, 0)], [(937, 0), (5, 0)]], 3, 4⟩, 68719476736, 1355701,
    1839448857760907853275572985875165079514762067882245345564676036786551218196324496457783209271, lc0⟩) (.sy (.leaf
    ⟨562, 16, 165, 3653, 16, 3022, ⟨[[(34359738368, 0)], [(354334801920, 0)]], 3, 4⟩, ⟨[[(36291468716, 0),
    (2093534434623, 0), (4717486889, 0), (38743018, 0), (349745, 0)], [(215655866916, 0), (1400374070, 0), (13028978,
    0), (155126, 0), (1837, 0)], [(61823702, 0), (1286005, 0), (23840, 0), (398, 0), (5, 0)], [(36178, 0), (1505, 0),
    (41, 0), (1, 0)]], 3, 4⟩, 1099511627776, 0, 232000006, ⟨[[(37127413970059, 0), (0, 9495271018), (14451746, 0),
    (23327, 0), (68, 0)], [(5796936475, 0), (2955265, 0), (0, 16146), (0, 75)], [(0, 1823747), (0, 2656), (8, 0)],
    [(925, 0), (3, 0)]], 3, 4⟩, 68719476736, 607997,
    2469215494035069415386636718602870073218493950649541624027740331214808852651007740955440284867, lc0⟩) (.skip))))
    (.skip)))) (.sy (.sx (.sx (.sy (.sx (.leaf ⟨593, 16, 165, 2601, 16, 2151, ⟨[[(0, 34359738368)], [(354334801920,
    0)]], 3, 4⟩, ⟨[[(212948567950, 0), (3048960643398, 0), (13977225422, 0), (232980889, 0), (4356787, 0)],
    [(152860447015, 0), (2006703305, 0), (38049772, 0), (937217, 0), (22935, 0)], [(43099918, 0), (1828800, 0),
    (70027, 0), (2404, 0), (68, 0)], [(25146, 0), (2153, 0), (118, 0), (5, 0)]], 3, 4⟩, 1099511627776, 0, 226827877,
    ⟨[[(37293961586258, 0), (0, 13167027688), (27705923, 0), (59182, 0), (239, 0)], [(5689859089, 0), (3879124, 0),
    (0, 31372), (0, 204), (0, 1)], [(0, 1743340), (0, 3310), (17, 0)], [(870, 0), (4, 0)]], 3, 4⟩, 68719476736,
    1264767, 2926479300319052754964373394390727345033939648586091866736765471154856603883867944601657978203, lc0⟩)
    (.skip)) (.skip)) (.skip)) (.skip)) (.skip))
theorem c125 : checkC job ⟨6, 8, 8, 10, 9, 13⟩ 3 100 lims t125 176 48 32 129 3 256 = true := by decide +kernel

def t126 : CTree :=
  .sy (.sx (.sx (.sx (.sy (.leaf ⟨179, 16, 82, 1496, 16, 1252, ⟨[[(412316860416, 0)], [(352187318272, 0)]], 3, 4⟩,
    ⟨[[(437975688015, 0), (2746272791857, 0), (15024170702, 0), (410727598, 0), (10562209, 0)], [(164337675242, 0),
    (3287095389, 0), (87631658, 0), (2828820, 0), (88874, 0)], [(85873437, 0), (5235633, 0), (250771, 0), (10894, 0),
    (439, 0)], [(81963, 0), (8517, 0), (605, 0), (36, 0), (2, 0)]], 3, 4⟩, 1099511627776, 0, 1166544435,
    ⟨[[(36334241490044, 0), (0, 27918851470), (81821194, 0), (342526, 0), (2403, 0)], [(12967422312, 0), (27792507,
    0), (0, 116301), (0, 1556), (0, 12)], [(0, 9207119), (0, 55665), (2, 0), (2, 0)], [(9095, 0), (106, 0), (1, 0)]],
    3, 4⟩, 68719476736, 21061185,
    2223148579499684991401437672633387894269471936476895569111404601148736223346746098813597295979, lc0⟩) (.sx (.leaf
    ⟨345, 16, 165, 1884, 16, 1564, ⟨[[(515396075520, 0)], [(354334801920, 0)]], 3, 4⟩, ⟨[[(0, 314449866597),
    (3589822009813, 0), (27176660912, 0), (818979220, 0), (22788168, 0)], [(113694080446, 0), (2686039950, 0),
    (87394036, 0), (3171311, 0), (107630, 0)], [(36960894, 0), (2664156, 0), (147583, 0), (7121, 0), (304, 0)],
    [(22168, 0), (2707, 0), (218, 0), (14, 0), (1, 0)]], 3, 4⟩, 1099511627776, 0, 408114987, ⟨[[(35906614984062, 0),
    (0, 20767472269), (62907722, 0), (258101, 0), (1516, 0)], [(6677332260, 0), (9955027, 0), (0, 59353), (0, 588),
    (0, 4)], [(0, 2499506), (0, 11361), (11, 0)], [(1318, 0), (12, 0)]], 3, 4⟩, 68719476736, 9790975,
    2964322777678495375410355685847969411545497575786100661043139616916459767758515706774099427702, lc0⟩) (.skip)))
    (.sy (.sy (.leaf ⟨210, 16, 82, 1872, 16, 1555, ⟨[[(137438953472, 0)], [(352187318272, 0)]], 3, 4⟩,
    ⟨[[(145772803287, 0), (1891088718886, 0), (7159475005, 0), (107282020, 0), (1586748, 0)], [(219772821844, 0),
    (2585171094, 0), (41750137, 0), (803539, 0), (15256, 0)], [(129582352, 0), (4665210, 0), (137853, 0), (3730, 0),
    (89, 0)], [(143200, 0), (9467, 0), (426, 0), (15, 0)]], 3, 4⟩, 1099511627776, 0, 1982367243, ⟨[[(36433526329509,
    0), (0, 20310398125), (58317140, 0), (212359, 0), (1236, 0)], [(12681852836, 0), (17259158, 0), (0, 112223), (0,
    1071), (0, 7)], [(0, 8917169), (0, 36072), (74, 0), (1, 0)], [(9277, 0), (80, 0)]], 3, 4⟩, 68719476736, 9393038,
    2900376481238408755202867446101726413597470654367360049244711824668737804347633277918538721879, lc0⟩) (.skip))
    (.skip))) (.skip)) (.skip)) (.skip)
theorem c126 : checkC job ⟨6, 8, 8, 10, 9, 13⟩ 3 100 lims t126 176 48 32 69 3 128 = true := by decide +kernel

def t127 : CTree :=
  .skip
theorem c127 : checkC job ⟨6, 8, 8, 10, 9, 13⟩ 3 100 lims t127 272 48 32 33 3 64 = true := by decide +kernel

def t128 : CTree :=
  .skip
theorem c128 : checkC job ⟨6, 8, 8, 10, 9, 13⟩ 3 100 lims t128 208 48 16 33 3 64 = true := by decide +kernel

def t129 : CTree :=
  .skip
theorem c129 : checkC job ⟨6, 8, 8, 10, 9, 13⟩ 3 100 lims t129 176 48 8 15 3 32 = true := by decide +kernel

def t130 : CTree :=
  .skip
theorem c130 : checkC job ⟨6, 8, 8, 10, 9, 13⟩ 3 100 lims t130 160 48 4 15 3 32 = true := by decide +kernel

def t131 : CTree :=
  .skip
theorem c131 : checkC job ⟨6, 8, 8, 10, 9, 13⟩ 3 100 lims t131 56 48 2 21 3 32 = true := by decide +kernel

def t132 : CTree :=
  .skip
theorem c132 : checkC job ⟨6, 8, 8, 10, 9, 13⟩ 3 100 lims t132 152 48 2 9 3 16 = true := by decide +kernel

end PyX.Kron.T2b
