import Verif.Lemmas.T2bJob

/-!
# Temperature from pressure and enthalpy in subregion 2b, part D of the certificate
-/

namespace PyX.Kron.T2b

set_option Elab.async false

def t79 : CTree :=
  .sy (.sx (.sy (.sx (.sy (.leaf ⟨1375, 16, 20, 2901, 16, 3188, ⟨[[], [(343597383680, 0)]], 3, 4⟩, ⟨[[(5091198682,
    0), (2812613617206, 0), (131813449, 0), (960141, 0), (184, 0)], [(177991772347, 0), (252950676, 0), (139415, 0),
    (0, 156)], [(0, 9346066), (0, 33758), (0, 101)], [(0, 1299), (0, 6)]], 3, 4⟩, 1099511627776, 0, 1101983,
    ⟨[[(64983490033172, 0), (0, 10836474101), (3025726, 0), (14321, 0), (102, 0)], [(5637072678, 0), (1969845, 0),
    (19196, 0), (196, 0), (1, 0)], [(0, 1817989), (7801, 0), (132, 0), (1, 0)], [(1921, 0), (37, 0)]], 3, 4⟩,
    68719476736, 1669220,
    2582696083771253015172036769601195414487186941900048044588605283288051983024748663092086079040, lc0⟩) (.sx (.leaf
    ⟨2803, 16, 41, 3886, 16, 4254, ⟨[[(412316860416, 0)], [(352187318272, 0)]], 3, 4⟩, ⟨[[(319555936652, 0),
    (3747161015159, 0), (194556119, 0), (1293229, 0), (352, 0)], [(120074520867, 0), (170983993, 0), (94483, 0), (0,
    99)], [(0, 3154258), (0, 11513), (0, 35)], [(0, 226), (0, 1)]], 3, 4⟩, 1099511627776, 0, 150363,
    ⟨[[(64818745874429, 0), (0, 8079415820), (1907511, 0), (7439, 0), (38, 0)], [(2774929632, 0), (847264, 0), (6622,
    0), (48, 0)], [(0, 420257), (1802, 0), (21, 0)], [(263, 0), (4, 0)]], 3, 4⟩, 68719476736, 578363,
    2352387227132144553831539907017619045272481270205200941499001589859381675181243699641336116148, lc0⟩) (.sy (.leaf
    ⟨2834, 16, 41, 5825, 16, 6367, ⟨[[(137438953472, 0)], [(352187318272, 0)]], 3, 4⟩, ⟨[[(0, 424779039159),
    (2815958501177, 0), (73912422, 0), (239649, 0), (29, 0)], [(178422361673, 0), (126081433, 0), (33001, 0), (0,
    22)], [(0, 4790834), (0, 8780), (0, 13)], [(0, 328), (0, 1)]], 3, 4⟩, 1099511627776, 0, 181937,
    ⟨[[(64857169896593, 0), (0, 5361939821), (1028014, 0), (3024, 0), (10, 0)], [(2755649400, 0), (715518, 0), (4042,
    0), (18, 0)], [(0, 380683), (1661, 0), (12, 0)], [(321, 0), (3, 0)]], 3, 4⟩, 68719476736, 219166,
    3954257342584946725657572729556648160628680753197285097232318274962075159971360124904869840793, lc0⟩) (.out
    ⟨2845, 16, 40, 10487, 16, 6232, ⟨[[], [(343597383680, 0)]], 1, 1⟩, ⟨[[(47149936508, 0), (0, 2757145014454)], [(0,
    175380865333), (0, 123793440)]], 1, 1⟩, 1099511627776, 0, 11820761980, ⟨[], 0, 0⟩, 0, 0, 0, lc0⟩ 0 1
    150497382225)))) (.sy (.sx (.sy (.leaf ⟨2865, 16, 41, 5838, 16, 6399, ⟨[[(0, 137438953472)], [(352187318272,
    0)]], 3, 4⟩, ⟨[[(543055192684, 0), (2840440539959, 0), (68774084, 0), (237502, 0), (18, 0)], [(176890054060, 0),
    (124254217, 0), (31429, 0), (0, 24)], [(0, 4801994), (0, 8736), (0, 13)], [(0, 312), (0, 1)]], 3, 4⟩,
    1099511627776, 0, 238498, ⟨[[(65028977544516, 0), (0, 5346263817), (995760, 0), (2909, 0), (9, 0)], [(2720774855,
    0), (683935, 0), (3854, 0), (17, 0)], [(0, 377879), (1568, 0), (11, 0)], [(304, 0), (3, 0)]], 3, 4⟩, 68719476736,
    237287, 3711407515618093983207959644419306988354225816527130226838179044944439925983334048247876965419, lc0⟩)
    (.out ⟨2875, 16, 40, 10554, 16, 6263, ⟨[[], [(343597383680, 0)]], 1, 1⟩, ⟨[[(242404461704, 0), (0,
    2780904616184)], [(0, 173861335666), (0, 121979961)]], 1, 1⟩, 1099511627776, 0, 11796354930, ⟨[], 0, 0⟩, 0, 0, 0,
    lc0⟩ 0 1 138698814878)) (.out ⟨2905, 16, 40, 7027, 16, 4173, ⟨[[], [(343597383680, 0)]], 1, 1⟩, ⟨[[(223815829343,
    0), (0, 3720711876550)], [(0, 114988960445), (0, 160069518)]], 1, 1⟩, 1099511627776, 0, 9435497589, ⟨[], 0, 0⟩,
    0, 0, 0, lc0⟩ 0 1 258276712828)) (.out ⟨1445, 16, 20, 5241, 16, 3119, ⟨[[], [(343597383680, 0)]], 1, 1⟩, ⟨[[(0,
    101024279295), (0, 2776979262847)], [(0, 173799080827), (0, 242338667)]], 1, 1⟩, 1099511627776, 0, 24644035609,
    ⟨[], 0, 0⟩, 0, 0, 0, lc0⟩ 0 1 351091290992))) (.sx (.sy (.sx (.sy (.sx (.leaf ⟨5591, 16, 82, 7790, 16, 8499,
    ⟨[[(412316860416, 0)], [(352187318272, 0)]], 3, 4⟩, ⟨[[(0, 293608301758), (3740898624226, 0), (104791385, 0),
    (325311, 0), (54, 0)], [(120871381856, 0), (86105890, 0), (23688, 0), (0, 12)], [(0, 1593360), (0, 2933), (0,
    4)], [(0, 58)]], 3, 4⟩, 1099511627776, 0, 75122, ⟨[[(64692126319654, 0), (0, 4020683518), (545852, 0), (1158, 0),
    (3, 0)], [(1396624322, 0), (253318, 0), (1045, 0), (4, 0)], [(0, 99951), (290, 0), (2, 0)], [(39, 0)]], 3, 4⟩,
    68719476736, 107888,
    2399500990560986767715230894432907533944215128988746365296492316932864304715806139362054728186, lc0⟩) (.out
    ⟨5716, 16, 81, 14013, 16, 8330, ⟨[[(0, 481036337152)], [(347892350976, 0)]], 1, 1⟩, ⟨[[(0, 183612288818), (0,
    3674587175949)], [(0, 118166482911), (0, 83837667)]], 1, 1⟩, 1099511627776, 0, 4660027887, ⟨[], 0, 0⟩, 0, 0, 0,
    lc0⟩ 0 1 114258007506)) (.out ⟨2815, 16, 40, 10419, 16, 6200, ⟨[[], [(343597383680, 0)]], 1, 1⟩, ⟨[[(0,
    384028053296), (0, 2732939476410)], [(0, 176879519154), (0, 125620917)]], 1, 1⟩, 1099511627776, 0, 11832721075,
    ⟨[], 0, 0⟩, 0, 0, 0, lc0⟩ 0 1 158598395787)) (.out ⟨2845, 16, 40, 6977, 16, 4155, ⟨[[], [(343597383680, 0)]], 1,
    1⟩, ⟨[[(0, 140604315426), (0, 3678402604547)], [(0, 117674490997), (0, 165830248)]], 1, 1⟩, 1099511627776, 0,
    9723306244, ⟨[], 0, 0⟩, 0, 0, 0, lc0⟩ 0 1 280768295731)) (.out ⟨1415, 16, 20, 5171, 16, 3086, ⟨[[],
    [(343597383680, 0)]], 1, 1⟩, ⟨[[(0, 221454616277), (0, 2728126376120)], [(0, 176747187059), (0, 249564325)]], 1,
    1⟩, 1099511627776, 0, 24746284711, ⟨[], 0, 0⟩, 0, 0, 0, lc0⟩ 0 1 370975633347)) (.out ⟨1445, 16, 20, 3460, 16,
    2068, ⟨[[], [(343597383680, 0)]], 1, 1⟩, ⟨[[(0, 202585503966), (0, 3686523129650)], [(0, 116686597123), (0,
    323983094)]], 1, 1⟩, 1099511627776, 0, 21063914177, ⟨[], 0, 0⟩, 0, 0, 0, lc0⟩ 0 1 610771290249))) (.out ⟨745, 16,
    10, 1724, 16, 1032, ⟨[[], [(343597383680, 0)]], 1, 1⟩, ⟨[[(86839576461, 0), (0, 3721899030692)], [(0,
    113570189701), (0, 614119738)]], 1, 1⟩, 1099511627776, 0, 45570220916, ⟨[], 0, 0⟩, 0, 0, 0, lc0⟩ 0 1
    926812276612)) (.out ⟨584, 26, 8, 1257, 16, 759, ⟨[[], [(549755813888, 0)]], 1, 1⟩, ⟨[[(0, 192073870224), (0,
    2724859397986)], [(0, 174602404686), (0, 949242356)]], 1, 1⟩, 1099511627776, 0, 122625998548, ⟨[], 0, 0⟩, 0, 0,
    0, lc0⟩ 0 1 1274655141904)
theorem c79 : checkC job ⟨6, 8, 8, 10, 9, 13⟩ 3 100 lims t79 1168 48 16 39 3 512 = true := by decide +kernel

def t80 : CTree :=
  .sx (.sx (.sy (.sx (.sy (.sx (.leaf ⟨2557, 16, 41, 2384, 16, 2568, ⟨[[(412316860416, 0)], [(352187318272, 0)]], 3,
    4⟩, ⟨[[(0, 225088578724), (4379171138517, 0), (698982814, 0), (7017220, 0), (10288, 0)], [(80395518466, 0),
    (240601777, 0), (345357, 0), (152, 0), (1, 0)], [(0, 1835549), (0, 13698), (0, 82)], [(0, 197), (0, 2)]], 3, 4⟩,
    1099511627776, 0, 178280, ⟨[[(63592791654849, 0), (0, 13340681368), (4580536, 0), (23404, 0), (213, 0)],
    [(3055234149, 0), (1281042, 0), (13542, 0), (175, 0), (1, 0)], [(0, 514898), (2399, 0), (52, 0)], [(271, 0), (6,
    0)]], 3, 4⟩, 68719476736, 2478325,
    2280848816220233754660221274548636956427309891254290980117821386890782315324342794850060623048, lc0⟩) (.sy (.leaf
    ⟨2588, 16, 41, 3889, 16, 4188, ⟨[[(137438953472, 0)], [(352187318272, 0)]], 3, 4⟩, ⟨[[(243965334704, 0),
    (3587845598546, 0), (285347178, 0), (1420288, 0), (1015, 0)], [(129947909596, 0), (193195321, 0), (134066, 0),
    (14, 0)], [(0, 3050975), (0, 11449), (0, 35)], [(0, 313), (0, 2)]], 3, 4⟩, 1099511627776, 0, 214412,
    ⟨[[(63678255592084, 0), (0, 8150252153), (1921816, 0), (6915, 0), (37, 0)], [(3025086552, 0), (902572, 0), (6551,
    0), (49, 0)], [(0, 486101), (1914, 0), (23, 0)], [(310, 0), (5, 0)]], 3, 4⟩, 68719476736, 659835,
    1807918113637259560854488960153145855659612774739294101111798390450189894728458530393647225726, lc0⟩) (.sx (.leaf
    ⟨5161, 16, 82, 4779, 16, 5124, ⟨[[(0, 137438953472)], [(352187318272, 0)]], 3, 4⟩, ⟨[[(0, 99998627613),
    (4388363297818, 0), (376705629, 0), (1768236, 0), (1343, 0)], [(80298730703, 0), (119518774, 0), (83234, 0), (12,
    0)], [(0, 947486), (0, 3593), (0, 11)], [(0, 50)]], 3, 4⟩, 1099511627776, 0, 151346, ⟨[[(63517278849837, 0), (0,
    6609487417), (1520364, 0), (5085, 0), (21, 0)], [(1524682152, 0), (462133, 0), (2997, 0), (17, 0)], [(0, 113755),
    (549, 0), (5, 0)], [(49, 0), (1, 0)]], 3, 4⟩, 68719476736, 213014,
    3095444526546411884537001177641901446082407318976393315082259763066047835897191708083739351354, lc0⟩) (.out
    ⟨5290, 16, 81, 8358, 16, 5017, ⟨[[(343597383680, 0)], [(347892350976, 0)]], 1, 1⟩, ⟨[[(250616117018, 0), (0,
    4307926505465)], [(0, 78442465488), (0, 116340298)]], 1, 1⟩, 1099511627776, 0, 5756222141, ⟨[], 0, 0⟩, 0, 0, 0,
    lc0⟩ 0 1 169082190889)))) (.sx (.sy (.sx (.leaf ⟨5099, 16, 82, 4789, 16, 5124, ⟨[[(412316860416, 0)],
    [(352187318272, 0)]], 3, 4⟩, ⟨[[(0, 341981925762), (4369800847311, 0), (392393259, 0), (1798091, 0), (1433, 0)],
    [(81385424605, 0), (121919469, 0), (87725, 0), (24, 0)], [(0, 939777), (0, 3567), (0, 11)], [(0, 52)]], 3, 4⟩,
    1099511627776, 0, 129417, ⟨[[(63356077943982, 0), (0, 6607806393), (1487076, 0), (4863, 0), (20, 0)],
    [(1543590122, 0), (453717, 0), (2891, 0), (16, 0)], [(0, 117374), (536, 0), (5, 0)], [(49, 0), (1, 0)]], 3, 4⟩,
    68719476736, 221957,
    2699465500034742616296723075586499491553688713344335711553904226187766126672876989690886515198, lc0⟩) (.out
    ⟨5230, 16, 81, 8350, 16, 5018, ⟨[[(0, 481036337152)], [(347892350976, 0)]], 1, 1⟩, ⟨[[(245559471946, 0), (0,
    4290832643950)], [(0, 79523702547), (0, 118719058)]], 1, 1⟩, 1099511627776, 0, 5888097040, ⟨[], 0, 0⟩, 0, 0, 0,
    lc0⟩ 0 1 161852060453)) (.out ⟨2575, 16, 40, 6750, 16, 4066, ⟨[[], [(343597383680, 0)]], 1, 1⟩, ⟨[[(0,
    109515342676), (0, 3476096127837)], [(0, 130180915472), (0, 194599202)]], 1, 1⟩, 1099511627776, 0, 10530743306,
    ⟨[], 0, 0⟩, 0, 0, 0, lc0⟩ 0 1 276779971040)) (.out ⟨2605, 16, 40, 4144, 16, 2497, ⟨[[], [(343597383680, 0)]], 1,
    1⟩, ⟨[[(130569342886, 0), (0, 4289711402945)], [(0, 79224334653), (0, 235185497)]], 1, 1⟩, 1099511627776, 0,
    12804232131, ⟨[], 0, 0⟩, 0, 0, 0, lc0⟩ 0 1 369439178407))) (.sy (.sx (.sy (.sx (.leaf ⟨5222, 16, 82, 4768, 16,
    5123, ⟨[[(412316860416, 0)], [(352187318272, 0)]], 3, 4⟩, ⟨[[(0, 99911172237), (4405799195031, 0), (360639153,
    0), (1738111, 0), (1248, 0)], [(79208161330, 0), (117139644, 0), (78903, 0), (1, 0)], [(0, 953591), (0, 3611),
    (0, 11)], [(0, 47)]], 3, 4⟩, 1099511627776, 0, 137496, ⟨[[(63676288117072, 0), (0, 6613299504), (1549854, 0),
    (5285, 0), (21, 0)], [(1506319806, 0), (468632, 0), (3085, 0), (17, 0)], [(0, 110472), (559, 0), (5, 0)], [(48,
    0), (1, 0)]], 3, 4⟩, 68719476736, 230174,
    3449261733226198343979654108703755442333017476090691156345430784917171383196328647525961346000, lc0⟩) (.out
    ⟨5351, 16, 81, 8368, 16, 5017, ⟨[[(68719476736, 0)], [(347892350976, 0)]], 1, 1⟩, ⟨[[(196658184378, 0), (0,
    4325618720439)], [(0, 77388685105), (0, 114030207)]], 1, 1⟩, 1099511627776, 0, 5619719864, ⟨[], 0, 0⟩, 0, 0, 0,
    lc0⟩ 0 1 174822637630)) (.out ⟨2635, 16, 40, 6799, 16, 4086, ⟨[[], [(343597383680, 0)]], 1, 1⟩, ⟨[[(0,
    168236141855), (0, 3522091471029)], [(0, 127325342654), (0, 187790681)]], 1, 1⟩, 1099511627776, 0, 10432292918,
    ⟨[], 0, 0⟩, 0, 0, 0, lc0⟩ 0 1 293773608231)) (.out ⟨2665, 16, 40, 4154, 16, 2497, ⟨[[], [(343597383680, 0)]], 1,
    1⟩, ⟨[[(0, 28077752276), (0, 4324320389604)], [(0, 77097549357), (0, 225775599)]], 1, 1⟩, 1099511627776, 0,
    12209648053, ⟨[], 0, 0⟩, 0, 0, 0, lc0⟩ 0 1 381852815114)) (.out ⟨1325, 16, 20, 3354, 16, 2026, ⟨[[],
    [(343597383680, 0)]], 1, 1⟩, ⟨[[(44008738037, 0), (0, 3507780420276)], [(0, 127640557652), (0, 374436191)]], 1,
    1⟩, 1099511627776, 0, 23035981286, ⟨[], 0, 0⟩, 0, 0, 0, lc0⟩ 0 1 621522918054))) (.out ⟨655, 16, 10, 1641, 16,
    998, ⟨[[], [(343597383680, 0)]], 1, 1⟩, ⟨[[(0, 174565536076), (0, 3451677811480)], [(0, 129763160730), (0,
    765380561)]], 1, 1⟩, 1099511627776, 0, 52872260788, ⟨[], 0, 0⟩, 0, 0, 0, lc0⟩ 0 1 917537799929)) (.out ⟨685, 16,
    10, 1004, 16, 611, ⟨[[], [(343597383680, 0)]], 1, 1⟩, ⟨[[(0, 467766320760), (0, 4301007888442)], [(0,
    76456399044), (0, 870883618)]], 1, 1⟩, 1099511627776, 0, 71361488760, ⟨[], 0, 0⟩, 0, 0, 0, lc0⟩ 0 1
    1252690018279)) (.out ⟨584, 26, 8, 807, 16, 496, ⟨[[], [(549755813888, 0)]], 1, 1⟩, ⟨[[(0, 332485214270), (0,
    3588106663917)], [(0, 119743904846), (0, 1265457216)]], 1, 1⟩, 1099511627776, 0, 135932582152, ⟨[], 0, 0⟩, 0, 0,
    0, lc0⟩ 0 1 2215023120946)
theorem c80 : checkC job ⟨6, 8, 8, 10, 9, 13⟩ 3 100 lims t80 560 48 8 45 3 512 = true := by decide +kernel

def t81 : CTree :=
  .sx (.sy (.leaf ⟨515, 16, 10, 958, 16, 1034, ⟨[[], [(343597383680, 0)]], 3, 4⟩, ⟨[[(0, 437950824572),
    (3255727942714, 0), (1031719563, 0), (23558272, 0), (85254, 0)], [(147977878720, 0), (951371382, 0), (3735611,
    0), (16667, 0), (120, 0)], [(0, 7169084), (0, 85992), (0, 980), (0, 9)], [(0, 7294), (0, 145), (0, 2)]], 3, 4⟩,
    1099511627776, 0, 1424425, ⟨[[(62177981554878, 0), (0, 34333240038), (22245177, 0), (0, 12264), (0, 118)],
    [(14816657446, 0), (12212388, 0), (0, 45384), (0, 189), (9, 0)], [(0, 12009426), (0, 35398), (0, 41), (8, 0)],
    [(7603, 0), (33, 0), (3, 0)]], 3, 4⟩, 68719476736, 21538414,
    1863808437654905224394107436968104846300434779018984654191983797698300473448205374432009960610, lc0⟩) (.leaf
    ⟨515, 16, 10, 957, 16, 1014, ⟨[[], [(343597383680, 0)]], 3, 4⟩, ⟨[[(0, 505843901605), (3207466778160, 0),
    (1446935713, 0), (25318430, 0), (100706, 0)], [(150849019144, 0), (978796762, 0), (3982838, 0), (19112, 0), (108,
    0)], [(0, 7573104), (0, 96956), (0, 1157), (0, 13)], [(0, 8076), (0, 166), (0, 2)]], 3, 4⟩, 1099511627776, 0,
    2544760, ⟨[[(61571289094443, 0), (0, 34210071214), (22730492, 0), (12718, 0), (1187, 0)], [(15020858129, 0),
    (10986793, 0), (0, 20288), (1697, 0), (51, 0)], [(0, 12584524), (0, 23459), (1022, 0), (38, 0), (1, 0)], [(9949,
    0), (295, 0), (14, 0)]], 3, 4⟩, 68719476736, 72710745,
    2815388962501483919857706821511433982237680644782482213247723950231407863044366790940901384966, lc0⟩)) (.sy (.sx
    (.leaf ⟨1075, 16, 20, 1213, 16, 1297, ⟨[[], [(343597383680, 0)]], 3, 4⟩, ⟨[[(306703012626, 0), (4169122730944,
    0), (1624274080, 0), (30985964, 0), (116853, 0)], [(92089536756, 0), (587477909, 0), (2236153, 0), (9410, 0),
    (61, 0)], [(0, 2742399), (0, 36976), (0, 436), (0, 4)], [(0, 1143), (0, 24)]], 3, 4⟩, 1099511627776, 0, 842536,
    ⟨[[(62199277290182, 0), (0, 26861433497), (13444535, 0), (4801, 0), (415, 0)], [(7190655782, 0), (4031214, 0),
    (0, 5784), (384, 0), (9, 0)], [(0, 2937623), (0, 4240), (145, 0), (4, 0)], [(1124, 0), (26, 0), (1, 0)]], 3, 4⟩,
    68719476736, 14304614,
    1325036002891103698310055678806635971623006504829017364927529899889368229423732504644218312597, lc0⟩) (.leaf
    ⟨1105, 16, 20, 1211, 16, 1286, ⟨[[], [(343597383680, 0)]], 3, 4⟩, ⟨[[(0, 68640665590), (4189324858572, 0),
    (1819090761, 0), (31574890, 0), (121015, 0)], [(90755124592, 0), (574806331, 0), (2125576, 0), (8377, 0), (46,
    0)], [(0, 3045152), (0, 43454), (0, 523), (0, 6)], [(0, 1130), (0, 24)]], 3, 4⟩, 1099511627776, 0, 796508,
    ⟨[[(62189803568932, 0), (0, 26739422045), (14585742, 0), (56846, 0), (1420, 0)], [(7050672502, 0), (4169382, 0),
    (30178, 0), (1290, 0), (22, 0)], [(0, 2820357), (4282, 0), (444, 0), (10, 0)], [(1711, 0), (67, 0), (2, 0)]], 3,
    4⟩, 68719476736, 31495740,
    2578181361890805636254631707845063261146097356314608008581293824481367083252456822883107595534, lc0⟩)) (.sx (.sy
    (.leaf ⟨1075, 16, 20, 1926, 16, 2030, ⟨[[], [(343597383680, 0)]], 3, 4⟩, ⟨[[(0, 306594686910), (3275599606866,
    0), (805049877, 0), (6501816, 0), (12943, 0)], [(148343934257, 0), (475959262, 0), (927412, 0), (2035, 0), (5,
    0)], [(0, 4567183), (0, 32237), (0, 198), (0, 1)], [(0, 1966), (0, 21)]], 3, 4⟩, 1099511627776, 0, 278697,
    ⟨[[(61732009869648, 0), (0, 16849080470), (6134902, 0), (17987, 0), (265, 0)], [(7262787605, 0), (2838374, 0),
    (15775, 0), (384, 0), (4, 0)], [(0, 2937630), (4090, 0), (212, 0), (3, 0)], [(1985, 0), (51, 0), (1, 0)]], 3, 4⟩,
    68719476736, 4376326,
    1850907210193562485899193337301806845073764165854534696669342574574485436223883834033885891554, lc0⟩) (.leaf
    ⟨1075, 16, 20, 1924, 16, 2010, ⟨[[], [(343597383680, 0)]], 3, 4⟩, ⟨[[(521879632292, 0), (3253599645658, 0),
    (915827229, 0), (6755311, 0), (13614, 0)], [(149743536245, 0), (482510468, 0), (955403, 0), (2104, 0), (3, 0)],
    [(0, 4721011), (0, 34402), (0, 219), (0, 1)], [(0, 2076), (0, 22)]], 3, 4⟩, 1099511627776, 0, 491016,
    ⟨[[(61445064796493, 0), (0, 16781816489), (7805379, 0), (45102, 0), (528, 0)], [(7318397686, 0), (3846253, 0),
    (44705, 0), (760, 0), (7, 0)], [(0, 2789054), (14467, 0), (410, 0), (5, 0)], [(3207, 0), (96, 0), (2, 0)]], 3,
    4⟩, 68719476736, 7530069,
    3838036159849625737050258410601661562043115724536554855024460748966081929743961527083890742092, lc0⟩)) (.sy (.sx
    (.leaf ⟨2250, 16, 41, 2440, 16, 2559, ⟨[[(0, 137438953472)], [(352187318272, 0)]], 3, 4⟩, ⟨[[(0, 258901730994),
    (4172170592142, 0), (1097652655, 0), (8372703, 0), (16659, 0)], [(93066725846, 0), (296863735, 0), (565165, 0),
    (1166, 0), (2, 0)], [(0, 1573133), (0, 11590), (0, 72)], [(0, 310), (0, 3)]], 3, 4⟩, 1099511627776, 0, 246968,
    ⟨[[(61733923726737, 0), (0, 13205077320), (4814547, 0), (22494, 0), (206, 0)], [(3495749234, 0), (1466645, 0),
    (13854, 0), (183, 0), (1, 0)], [(0, 638606), (2757, 0), (60, 0), (1, 0)], [(363, 0), (9, 0)]], 3, 4⟩,
    68719476736, 2474480,
    2243484282606116133481357900886650439874693587655708499313840298688822779757002561466927501539, lc0⟩) (.sy (.leaf
    ⟨2281, 16, 41, 3870, 16, 4055, ⟨[[(0, 412316860416)], [(352187318272, 0)]], 3, 4⟩, ⟨[[(0, 179284527326),
    (3325419374106, 0), (441028313, 0), (1659944, 0), (1641, 0)], [(146283524034, 0), (232066246, 0), (216208, 0),
    (212, 0)], [(0, 2604404), (0, 9762), (0, 31)], [(0, 482), (0, 3)]], 3, 4⟩, 1099511627776, 0, 182007,
    ⟨[[(61812093835408, 0), (0, 8287472473), (2193269, 0), (7800, 0), (42, 0)], [(3461090762, 0), (1102991, 0),
    (7754, 0), (59, 0)], [(0, 593931), (2494, 0), (30, 0)], [(439, 0), (7, 0)]], 3, 4⟩, 68719476736, 787283,
    2053397929063410303594815186518217373106269291492931799715307135864817621082870773440423979389, lc0⟩) (.out
    ⟨2305, 16, 40, 6496, 16, 3958, ⟨[[], [(343597383680, 0)]], 1, 1⟩, ⟨[[(0, 212509927031), (0, 3251213854740)], [(0,
    144150995355), (0, 229069843)]], 1, 1⟩, 1099511627776, 0, 10545787980, ⟨[], 0, 0⟩, 0, 0, 0, lc0⟩ 0 1
    229117998509))) (.out ⟨1145, 16, 20, 3210, 16, 1962, ⟨[[], [(343597383680, 0)]], 1, 1⟩, ⟨[[(0, 42765486240), (0,
    3220787571843)], [(0, 145226746166), (0, 463928854)]], 1, 1⟩, 1099511627776, 0, 22524011729, ⟨[], 0, 0⟩, 0, 0, 0,
    lc0⟩ 0 1 356358753911))))
theorem c81 : checkC job ⟨6, 8, 8, 10, 9, 13⟩ 3 100 lims t81 880 48 16 51 3 512 = true := by decide +kernel

def t82 : CTree :=
  .sx (.sy (.sx (.leaf ⟨1015, 16, 20, 1226, 16, 1281, ⟨[[], [(343597383680, 0)]], 3, 4⟩, ⟨[[(282592648154, 0),
    (4046270662672, 0), (2299664310, 0), (34598914, 0), (142253, 0)], [(99326276888, 0), (653009618, 0), (2787492,
    0), (14029, 0), (53, 0)], [(0, 2381838), (0, 31107), (0, 398), (0, 6)], [(0, 1440), (0, 31)]], 3, 4⟩,
    1099511627776, 0, 1138387, ⟨[[(61000399654589, 0), (0, 26646115620), (15450623, 0), (52776, 0), (1348, 0)],
    [(7681540161, 0), (4614894, 0), (24820, 0), (1237, 0), (21, 0)], [(0, 3241295), (2904, 0), (447, 0), (10, 0)],
    [(1943, 0), (73, 0), (2, 0)]], 3, 4⟩, 68719476736, 30319379,
    2869160405250871090400420642902352274980087023324359061265419365456854027555572531627319317564, lc0⟩) (.sy (.leaf
    ⟨1045, 16, 20, 1920, 16, 2001, ⟨[[], [(343597383680, 0)]], 3, 4⟩, ⟨[[(279501920822, 0), (3203159182896, 0),
    (938668770, 0), (6837475, 0), (13939, 0)], [(152872305100, 0), (498431813, 0), (1031598, 0), (2441, 0), (3, 0)],
    [(0, 4279337), (0, 30093), (0, 195), (0, 1)], [(0, 2196), (0, 24)]], 3, 4⟩, 1099511627776, 0, 606216,
    ⟨[[(61144789548328, 0), (0, 16897421843), (7270037, 0), (33860, 0), (427, 0)], [(7509139471, 0), (3485024, 0),
    (32198, 0), (616, 0), (6, 0)], [(0, 3003374), (10022, 0), (337, 0), (4, 0)], [(2818, 0), (81, 0), (1, 0)]], 3,
    4⟩, 68719476736, 6756430,
    2914066876890592173425072992242849348090284071280635528519692536719155320647384576607680870440, lc0⟩) (.sx (.leaf
    ⟨2127, 16, 41, 2459, 16, 2544, ⟨[[(0, 137438953472)], [(352187318272, 0)]], 3, 4⟩, ⟨[[(304541717840, 0),
    (4072039512718, 0), (1320752087, 0), (9049976, 0), (18392, 0)], [(99236940470, 0), (325848636, 0), (690652, 0),
    (1639, 0), (1, 0)], [(0, 1366256), (0, 9768), (0, 66), (0, 1)], [(0, 372), (0, 4)]], 3, 4⟩, 1099511627776, 0,
    148967, ⟨[[(60850937793783, 0), (0, 13136079693), (5478966, 0), (28284, 0), (246, 0)], [(3711676028, 0),
    (1736477, 0), (17644, 0), (222, 0), (2, 0)], [(0, 683790), (3676, 0), (75, 0), (1, 0)], [(465, 0), (11, 0)]], 3,
    4⟩, 68719476736, 2801299,
    3171741664675638817725540625357190213762616194081047497337565847312241727693025506623329101183, lc0⟩) (.out
    ⟨2185, 16, 40, 4049, 16, 2484, ⟨[[], [(343597383680, 0)]], 1, 1⟩, ⟨[[(0, 356090644236), (0, 4006453097950)], [(0,
    96630258427), (0, 316221272)]], 1, 1⟩, 1099511627776, 0, 16619513685, ⟨[], 0, 0⟩, 0, 0, 0, lc0⟩ 0 1
    284125494556)))) (.sx (.sy (.sx (.leaf ⟨2065, 16, 41, 2467, 16, 2547, ⟨[[(412316860416, 0)], [(352187318272,
    0)]], 3, 4⟩, ⟨[[(0, 298735379985), (4029079072961, 0), (1348368361, 0), (9169691, 0), (18797, 0)],
    [(101841514369, 0), (338302954, 0), (746848, 0), (1877, 0), (2, 0)], [(0, 1201117), (0, 8102), (0, 57), (0, 1)],
    [(0, 393), (0, 4)]], 3, 4⟩, 1099511627776, 0, 249684, ⟨[[(60550797619407, 0), (0, 13167828825), (4915489, 0),
    (20466, 0), (191, 0)], [(3808746865, 0), (1506622, 0), (12282, 0), (172, 0), (1, 0)], [(0, 748050), (2480, 0),
    (60, 0), (1, 0)], [(395, 0), (9, 0)]], 3, 4⟩, 68719476736, 2349504,
    2083257993079950954346432109638499387037368133401095342649380733787969532126399298949352545179, lc0⟩) (.sy (.leaf
    ⟨2096, 16, 41, 3837, 16, 3957, ⟨[[(137438953472, 0)], [(352187318272, 0)]], 3, 4⟩, ⟨[[(533336945040, 0),
    (3151681325751, 0), (535101355, 0), (1792820, 0), (1823, 0)], [(157063087952, 0), (259787444, 0), (282370, 0),
    (343, 0)], [(0, 2020991), (0, 7115), (0, 25)], [(0, 605), (0, 3)]], 3, 4⟩, 1099511627776, 0, 221436,
    ⟨[[(60632000904576, 0), (0, 8424516820), (2314533, 0), (7744, 0), (43, 0)], [(3768350980, 0), (1147888, 0),
    (7520, 0), (60, 0)], [(0, 698608), (2456, 0), (32, 0)], [(486, 0), (7, 0)]], 3, 4⟩, 68719476736, 854758,
    2220856220899768772687136321486334339203018017405968933807288102037368360163411384411389733408, lc0⟩) (.out
    ⟨2125, 16, 40, 6276, 16, 3860, ⟨[[], [(343597383680, 0)]], 1, 1⟩, ⟨[[(0, 230085126831), (0, 3080876750831)], [(0,
    154743422060), (0, 256760699)]], 1, 1⟩, 1099511627776, 0, 10057803406, ⟨[], 0, 0⟩, 0, 0, 0, lc0⟩ 0 1
    261642753843))) (.out ⟨1055, 16, 20, 3100, 16, 1912, ⟨[[], [(343597383680, 0)]], 1, 1⟩, ⟨[[(0, 531670681250), (0,
    3049984413125)], [(0, 155805907003), (0, 520356540)]], 1, 1⟩, 1099511627776, 0, 21384389009, ⟨[], 0, 0⟩, 0, 0, 0,
    lc0⟩ 0 1 363298488682)) (.out ⟨1085, 16, 20, 1983, 16, 1225, ⟨[[], [(343597383680, 0)]], 1, 1⟩, ⟨[[(0,
    495799014611), (0, 3962274948032)], [(0, 98311753928), (0, 650213684)]], 1, 1⟩, 1099511627776, 0, 39616231267,
    ⟨[], 0, 0⟩, 0, 0, 0, lc0⟩ 0 1 590454233977))) (.sy (.sx (.sy (.sx (.sy (.leaf ⟨2188, 16, 41, 3856, 16, 4006,
    ⟨[[(412316860416, 0)], [(352187318272, 0)]], 3, 4⟩, ⟨[[(0, 544894859206), (3239127139506, 0), (490756963, 0),
    (1732032, 0), (1748, 0)], [(151634937601, 0), (245614961, 0), (247956, 0), (276, 0)], [(0, 2353509), (0, 8655),
    (0, 28)], [(0, 543), (0, 3)]], 3, 4⟩, 1099511627776, 0, 82452, ⟨[[(61209080984026, 0), (0, 8345820909), (2300052,
    0), (8150, 0), (44, 0)], [(3612830643, 0), (1160979, 0), (8073, 0), (62, 0)], [(0, 637429), (2639, 0), (33, 0)],
    [(480, 0), (7, 0)]], 3, 4⟩, 68719476736, 851869,
    2224979014120980455394701531517429249181550445204604952381036915211335178952350720099525990176, lc0⟩) (.out
    ⟨2215, 16, 40, 6384, 16, 3909, ⟨[[], [(343597383680, 0)]], 1, 1⟩, ⟨[[(0, 13527624230), (0, 3166626451081)], [(0,
    149410072753), (0, 242600333)]], 1, 1⟩, 1099511627776, 0, 10423759350, ⟨[], 0, 0⟩, 0, 0, 0, lc0⟩ 0 1
    261464281757)) (.out ⟨2245, 16, 40, 4052, 16, 2483, ⟨[[], [(343597383680, 0)]], 1, 1⟩, ⟨[[(402781996702, 0), (0,
    4048364962415)], [(0, 94151844960), (0, 304122009)]], 1, 1⟩, 1099511627776, 0, 16556050131, ⟨[], 0, 0⟩, 0, 0, 0,
    lc0⟩ 0 1 375916009052)) (.out ⟨1115, 16, 20, 3139, 16, 1932, ⟨[[], [(343597383680, 0)]], 1, 1⟩, ⟨[[(163957197954,
    0), (0, 3151364919089)], [(0, 149633796641), (0, 486709795)]], 1, 1⟩, 1099511627776, 0, 23401747956, ⟨[], 0, 0⟩,
    0, 0, 0, lc0⟩ 0 1 559853182513)) (.out ⟨1145, 16, 20, 1988, 16, 1225, ⟨[[], [(343597383680, 0)]], 1, 1⟩, ⟨[[(0,
    360466539190), (0, 4046044590729)], [(0, 93326782910), (0, 599783285)]], 1, 1⟩, 1099511627776, 0, 39116649594,
    ⟨[], 0, 0⟩, 0, 0, 0, lc0⟩ 0 1 767283812694)) (.out ⟨565, 16, 10, 1516, 16, 943, ⟨[[], [(343597383680, 0)]], 1,
    1⟩, ⟨[[(321504264708, 0), (0, 3121408198321)], [(0, 149909393298), (0, 977309464)]], 1, 1⟩, 1099511627776, 0,
    58163762722, ⟨[], 0, 0⟩, 0, 0, 0, lc0⟩ 0 1 1142943972601))
theorem c82 : checkC job ⟨6, 8, 8, 10, 9, 13⟩ 3 100 lims t82 880 48 16 57 3 512 = true := by decide +kernel

def t83 : CTree :=
  .sy (.sx (.sy (.sx (.sy (.leaf ⟨1135, 16, 20, 1932, 16, 2048, ⟨[[], [(343597383680, 0)]], 3, 4⟩, ⟨[[(0,
    194325459464), (3374778385633, 0), (746197982, 0), (6288663, 0), (11924, 0)], [(142205555000, 0), (445752004, 0),
    (789952, 0), (1394, 0), (4, 0)], [(0, 5247996), (0, 38658), (0, 234), (0, 1)], [(0, 1731), (0, 18)]], 3, 4⟩,
    1099511627776, 0, 552209, ⟨[[(62341431211896, 0), (0, 16664016555), (6582965, 0), (31040, 0), (387, 0)],
    [(6896738307, 0), (3096432, 0), (30158, 0), (554, 0), (5, 0)], [(0, 2620243), (9120, 0), (294, 0), (4, 0)],
    [(2354, 0), (67, 0), (1, 0)]], 3, 4⟩, 68719476736, 5945723,
    2327462994800418867185141228399795681530448754703632087476526393739532981189883057567022103714, lc0⟩) (.sx (.leaf
    ⟨2311, 16, 41, 2431, 16, 2557, ⟨[[(412316860416, 0)], [(352187318272, 0)]], 3, 4⟩, ⟨[[(23834664415, 0),
    (4211895299068, 0), (1051659655, 0), (8178255, 0), (15957, 0)], [(90624346172, 0), (285507251, 0), (516822, 0),
    (956, 0), (2, 0)], [(0, 1671664), (0, 12539), (0, 78)], [(0, 289), (0, 3)]], 3, 4⟩, 1099511627776, 0, 164274,
    ⟨[[(62038176275067, 0), (0, 13192466912), (5239397, 0), (28293, 0), (247, 0)], [(3409775050, 0), (1626509, 0),
    (17562, 0), (216, 0), (1, 0)], [(0, 591076), (3498, 0), (70, 0), (1, 0)], [(399, 0), (10, 0)]], 3, 4⟩,
    68719476736, 2857988,
    3057051752941066410798812787361482936190140684129959825367721860924552371931567851367036110007, lc0⟩) (.sy (.leaf
    ⟨2342, 16, 41, 3877, 16, 4074, ⟨[[(137438953472, 0)], [(352187318272, 0)]], 3, 4⟩, ⟨[[(0, 378826785089),
    (3374504899592, 0), (423635348, 0), (1627149, 0), (1576, 0)], [(143190695535, 0), (224265384, 0), (198134, 0),
    (171, 0)], [(0, 2763822), (0, 10509), (0, 33)], [(0, 451), (0, 2)]], 3, 4⟩, 1099511627776, 0, 223611,
    ⟨[[(62112413249832, 0), (0, 8228468672), (2409522, 0), (9524, 0), (49, 0)], [(3378866749, 0), (1243814, 0),
    (9514, 0), (68, 0)], [(0, 540474), (3050, 0), (34, 0)], [(482, 0), (7, 0)]], 3, 4⟩, 68719476736, 870006,
    3153676359274064897627114258406131240771195910264817363268833545223459202772469513979661514012, lc0⟩) (.out
    ⟨2365, 16, 40, 6539, 16, 3978, ⟨[[], [(343597383680, 0)]], 1, 1⟩, ⟨[[(549535665575, 0), (0, 3300124612134)], [(0,
    141137426415), (0, 221320525)]], 1, 1⟩, 1099511627776, 0, 10756979184, ⟨[], 0, 0⟩, 0, 0, 0, lc0⟩ 0 1
    296242064978)))) (.sy (.sx (.sy (.leaf ⟨2373, 16, 41, 3880, 16, 4103, ⟨[[(0, 137438953472)], [(352187318272,
    0)]], 3, 4⟩, ⟨[[(0, 497949814330), (3410120612574, 0), (387287628, 0), (1580260, 0), (1490, 0)], [(141005394615,
    0), (219195533, 0), (187525, 0), (149, 0)], [(0, 2783350), (0, 10488), (0, 32)], [(0, 423), (0, 2)]], 3, 4⟩,
    1099511627776, 0, 194750, ⟨[[(62418086550643, 0), (0, 8243814939), (2027941, 0), (6972, 0), (38, 0)],
    [(3317259294, 0), (997026, 0), (6872, 0), (52, 0)], [(0, 563877), (2149, 0), (27, 0)], [(379, 0), (6, 0)]], 3,
    4⟩, 68719476736, 737038,
    1782593958456386971985084186444370767149855825379835115106175644708681934455343754683821243554, lc0⟩) (.sx (.out
    ⟨4835, 16, 81, 8281, 16, 5017, ⟨[[(0, 343597383680)], [(347892350976, 0)]], 1, 1⟩, ⟨[[(506307128338, 0), (0,
    4169158434348)], [(0, 87099468457), (0, 135714727)]], 1, 1⟩, 1099511627776, 0, 6744820651, ⟨[], 0, 0⟩, 0, 0, 0,
    lc0⟩ 0 1 129392582240) (.out ⟨4865, 16, 81, 8257, 16, 5007, ⟨[[(68719476736, 0)], [(347892350976, 0)]], 1, 1⟩,
    ⟨[[(408263924096, 0), (0, 4173820580931)], [(0, 86759068873), (0, 134806802)]], 1, 1⟩, 1099511627776, 0,
    6878181436, ⟨[], 0, 0⟩, 0, 0, 0, lc0⟩ 0 1 216047414637))) (.out ⟨2425, 16, 40, 4120, 16, 2498, ⟨[[],
    [(343597383680, 0)]], 1, 1⟩, ⟨[[(0, 373211234538), (0, 4180832316741)], [(0, 85912385138), (0, 265701552)]], 1,
    1⟩, 1099511627776, 0, 14262828508, ⟨[], 0, 0⟩, 0, 0, 0, lc0⟩ 0 1 264824938548)) (.out ⟨1205, 16, 20, 3255, 16,
    1983, ⟨[[], [(343597383680, 0)]], 1, 1⟩, ⟨[[(251120902274, 0), (0, 3318947572335)], [(0, 139239978640), (0,
    432656592)]], 1, 1⟩, 1099511627776, 0, 23296373880, ⟨[], 0, 0⟩, 0, 0, 0, lc0⟩ 0 1 484535771022))) (.out ⟨595, 16,
    10, 1590, 16, 975, ⟨[[], [(343597383680, 0)]], 1, 1⟩, ⟨[[(237236078122, 0), (0, 3260202133369)], [(0,
    141389615046), (0, 886997403)]], 1, 1⟩, 1099511627776, 0, 53143951419, ⟨[], 0, 0⟩, 0, 0, 0, lc0⟩ 0 1
    748660628072)) (.out ⟨625, 16, 10, 990, 16, 608, ⟨[[], [(343597383680, 0)]], 1, 1⟩, ⟨[[(0, 344587906948), (0,
    4153245947365)], [(0, 85060258011), (0, 1035334546)]], 1, 1⟩, 1099511627776, 0, 84697805240, ⟨[], 0, 0⟩, 0, 0, 0,
    lc0⟩ 0 1 1125705675344)) (.out ⟨488, 26, 8, 746, 16, 467, ⟨[[], [(549755813888, 0)]], 1, 1⟩, ⟨[[(0,
    336436985224), (0, 3208306662740)], [(0, 142016980196), (0, 1763288066)]], 1, 1⟩, 1099511627776, 0, 156360674483,
    ⟨[], 0, 0⟩, 0, 0, 0, lc0⟩ 0 1 1881772506756)
theorem c83 : checkC job ⟨6, 8, 8, 10, 9, 13⟩ 3 100 lims t83 976 48 16 27 3 256 = true := by decide +kernel

def t84 : CTree :=
  .out ⟨464, 50, 8, 334, 16, 215, ⟨[[], [(1099511627776, 0)]], 1, 1⟩, ⟨[[(233614397810, 0), (0, 2987127559534)], [(0,
    149513864179), (0, 3880227800)]], 1, 1⟩, 1099511627776, 0, 509850686635, ⟨[], 0, 0⟩, 0, 0, 0, lc0⟩ 0 1
    2703565907273
theorem c84 : checkC job ⟨6, 8, 8, 10, 9, 13⟩ 3 100 lims t84 464 48 8 33 3 256 = true := by decide +kernel

def t85 : CTree :=
  .sy (.sx (.out ⟨440, 26, 8, 382, 16, 256, ⟨[[], [(549755813888, 0)]], 1, 1⟩, ⟨[[(438419920138, 0), (0,
    3715716547337)], [(0, 106544537909), (0, 2827021558)]], 1, 1⟩, 1099511627776, 0, 482589505696, ⟨[], 0, 0⟩, 0, 0,
    0, lc0⟩ 0 1 3637963757306) (.out ⟨488, 26, 8, 369, 16, 253, ⟨[[], [(549755813888, 0)]], 1, 1⟩, ⟨[[(512181548, 0),
    (0, 3901480739015)], [(0, 98387753652), (0, 1934329783)]], 1, 1⟩, 1099511627776, 0, 542896487052, ⟨[], 0, 0⟩, 0,
    0, 0, lc0⟩ 0 1 4752394746782)) (.sx (.sy (.out ⟨440, 26, 8, 511, 16, 357, ⟨[[], [(549755813888, 0)]], 1, 1⟩,
    ⟨[[(273815522621, 0), (0, 2799566550654)], [(0, 166551315475), (0, 1997007946)]], 1, 1⟩, 1099511627776, 0,
    389344607492, ⟨[], 0, 0⟩, 0, 0, 0, lc0⟩ 0 1 4482074170079) (.sx (.out ⟨535, 16, 10, 625, 16, 447, ⟨[[],
    [(343597383680, 0)]], 1, 1⟩, ⟨[[(389902382785, 0), (0, 3666126981847)], [(0, 114465442373), (0, 1322332207)]], 1,
    1⟩, 1099511627776, 0, 326404327898, ⟨[], 0, 0⟩, 0, 0, 0, lc0⟩ 0 1 4632688862815) (.out ⟨565, 16, 10, 620, 16,
    450, ⟨[[], [(343597383680, 0)]], 1, 1⟩, ⟨[[(0, 258717056416), (0, 3792249463684)], [(0, 108636556871), (0,
    753912309)]], 1, 1⟩, 1099511627776, 0, 341213272098, ⟨[], 0, 0⟩, 0, 0, 0, lc0⟩ 0 1 5061801549076))) (.sy (.out
    ⟨488, 26, 8, 514, 16, 369, ⟨[[], [(549755813888, 0)]], 1, 1⟩, ⟨[[(127433756279, 0), (0, 3041646928281)], [(0,
    154708962083), (0, 966675007)]], 1, 1⟩, 1099511627776, 0, 530999338594, ⟨[], 0, 0⟩, 0, 0, 0, lc0⟩ 0 1
    5419990881307) (.sx (.out ⟨595, 16, 10, 624, 16, 460, ⟨[[], [(343597383680, 0)]], 1, 1⟩, ⟨[[(220521087154, 0),
    (0, 3918223027562)], [(0, 102593940837), (0, 127580709)]], 1, 1⟩, 1099511627776, 0, 379031863386, ⟨[], 0, 0⟩, 0,
    0, 0, lc0⟩ 0 1 5450716134987) (.sx (.out ⟨1235, 16, 20, 732, 16, 545, ⟨[[], [(343597383680, 0)]], 1, 1⟩, ⟨[[(0,
    172641216238), (0, 4647511691348)], [(0, 56853232624), (0, 92848408)]], 1, 1⟩, 1099511627776, 0, 556258243207,
    ⟨[], 0, 0⟩, 0, 0, 0, lc0⟩ 0 1 5707979415542) (.sy (.out ⟨1265, 16, 20, 1284, 16, 954, ⟨[[], [(343597383680, 0)]],
    1, 1⟩, ⟨[[(0, 412328639246), (0, 4041257401305)], [(0, 95195147895), (0, 41951740)]], 1, 1⟩, 1099511627776, 0,
    169562123461, ⟨[], 0, 0⟩, 0, 0, 0, lc0⟩ 0 1 5852774802943) (.sx (.out ⟨2515, 16, 40, 1393, 16, 1052, ⟨[[],
    [(343597383680, 0)]], 1, 1⟩, ⟨[[(151333648916, 0), (0, 4644761602307)], [(0, 54870270410), (0, 973086480)]], 1,
    1⟩, 1099511627776, 0, 727947386387, ⟨[], 0, 0⟩, 0, 0, 0, lc0⟩ 0 1 5834679798211) (.skip)))))))
theorem c85 : checkC job ⟨6, 8, 8, 10, 9, 13⟩ 3 100 lims t85 464 48 8 21 3 128 = true := by decide +kernel

def t86 : CTree :=
  .sy (.sy (.out ⟨560, 50, 8, 368, 16, 233, ⟨[[], [(1099511627776, 0)]], 1, 1⟩, ⟨[[(0, 286620539333), (0,
    3390766859592)], [(0, 127178452838), (0, 2687214225)]], 1, 1⟩, 1099511627776, 0, 458009568799, ⟨[], 0, 0⟩, 0, 0,
    0, lc0⟩ 0 1 3266029192718) (.out ⟨560, 50, 8, 325, 16, 217, ⟨[[], [(1099511627776, 0)]], 1, 1⟩, ⟨[[(0,
    168713004576), (0, 3315924870029)], [(0, 132965278780), (0, 2175373521)]], 1, 1⟩, 1099511627776, 0, 733875302582,
    ⟨[], 0, 0⟩, 0, 0, 0, lc0⟩ 0 1 5042789763017)) (.sx (.sy (.sy (.out ⟨536, 26, 8, 598, 16, 413, ⟨[[],
    [(549755813888, 0)]], 1, 1⟩, ⟨[[(0, 70063001247), (0, 3245456949917)], [(0, 141991735177), (0, 943284825)]], 1,
    1⟩, 1099511627776, 0, 341508496869, ⟨[], 0, 0⟩, 0, 0, 0, lc0⟩ 0 1 5489654211048) (.out ⟨536, 26, 8, 563, 16, 401,
    ⟨[[], [(549755813888, 0)]], 1, 1⟩, ⟨[[(93986749300, 0), (0, 3256416789167)], [(0, 142550032822), (0,
    627352820)]], 1, 1⟩, 1099511627776, 0, 423216682581, ⟨[], 0, 0⟩, 0, 0, 0, lc0⟩ 0 1 5938404579473)) (.sy (.sx
    (.out ⟨655, 16, 10, 671, 16, 491, ⟨[[], [(343597383680, 0)]], 1, 1⟩, ⟨[[(348282647779, 0), (0, 4094131823321)],
    [(0, 92012810215), (0, 20383725)]], 1, 1⟩, 1099511627776, 0, 279984008042, ⟨[], 0, 0⟩, 0, 0, 0, lc0⟩ 0 1
    6014335407088) (.sx (.out ⟨1355, 16, 20, 774, 16, 571, ⟨[[], [(343597383680, 0)]], 1, 1⟩, ⟨[[(0, 105600713719),
    (0, 4755229722601)], [(0, 50243097383), (63844915, 0)]], 1, 1⟩, 1099511627776, 0, 264989659614, ⟨[], 0, 0⟩, 0, 0,
    0, lc0⟩ 0 1 6278774111617) (.out ⟨1385, 16, 20, 775, 16, 575, ⟨[[], [(343597383680, 0)]], 1, 1⟩, ⟨[[(0,
    2153774407), (0, 4786528845059)], [(0, 48566999079), (0, 58583184)]], 1, 1⟩, 1099511627776, 0, 644668268024, ⟨[],
    0, 0⟩, 0, 0, 0, lc0⟩ 0 1 6448745891090))) (.sx (.sy (.sy (.out ⟨655, 16, 10, 1448, 16, 1082, ⟨[[],
    [(343597383680, 0)]], 1, 1⟩, ⟨[[(429041122870, 0), (0, 2293020498891)], [(0, 203338962839), (0, 406022239)]], 1,
    1⟩, 1099511627776, 0, 365742189491, ⟨[], 0, 0⟩, 0, 0, 0, lc0⟩ 0 1 6090127304970) (.sx (.out ⟨1295, 16, 20, 1985,
    16, 1491, ⟨[[], [(343597383680, 0)]], 1, 1⟩, ⟨[[(0, 300028017621), (0, 3212826269257)], [(0, 144848901018), (0,
    764432445)]], 1, 1⟩, 1099511627776, 0, 242777153567, ⟨[], 0, 0⟩, 0, 0, 0, lc0⟩ 0 1 6021147065827) (.skip)))
    (.skip)) (.skip)))) (.sy (.sy (.out ⟨584, 26, 8, 610, 16, 430, ⟨[[], [(549755813888, 0)]], 1, 1⟩,
    ⟨[[(402098806804, 0), (0, 3442885876980)], [(0, 131076718087), (0, 397283313)]], 1, 1⟩, 1099511627776, 0,
    336861943317, ⟨[], 0, 0⟩, 0, 0, 0, lc0⟩ 0 1 6411156214901) (.out ⟨584, 26, 8, 583, 16, 424, ⟨[[], [(549755813888,
    0)]], 1, 1⟩, ⟨[[(113397871365, 0), (0, 3470790567042)], [(0, 130561288668), (104853109, 0)]], 1, 1⟩,
    1099511627776, 0, 527554974504, ⟨[], 0, 0⟩, 0, 0, 0, lc0⟩ 0 1 6726050936536)) (.sx (.sy (.sy (.out ⟨715, 16, 10,
    1122, 16, 832, ⟨[[], [(343597383680, 0)]], 1, 1⟩, ⟨[[(0, 135469284660), (0, 3442321273519)], [(0, 132359735434),
    (0, 61893473)]], 1, 1⟩, 1099511627776, 0, 363852681202, ⟨[], 0, 0⟩, 0, 0, 0, lc0⟩ 0 1 6672106820047) (.skip))
    (.skip)) (.skip))))
theorem c86 : checkC job ⟨6, 8, 8, 10, 9, 13⟩ 3 100 lims t86 560 48 8 9 3 64 = true := by decide +kernel

def t87 : CTree :=
  .sx (.sy (.leaf ⟨640, 49, 8, 323, 16, 450, ⟨[[], [(1099511627776, 0)]], 3, 4⟩, ⟨[[(0, 330776688278),
    (3485962552115, 0), (0, 6182371360), (93763372, 0), (0, 105996)], [(128831704144, 0), (1482908071, 0), (2474217,
    0), (111044, 0), (378, 0)], [(0, 45209652), (0, 1245078), (0, 3431), (0, 159)], [(0, 26912), (0, 1521), (70, 0),
    (0, 1)]], 3, 4⟩, 1099511627776, 0, 91096117, ⟨[[(73330772763689, 0), (0, 89283304767), (57560713, 0), (158841,
    0), (470, 0)], [(10481933279, 0), (24239091, 0), (0, 100946), (113, 0), (10, 0)], [(0, 7328555), (0, 30996), (0,
    164), (3, 0)], [(3519, 0), (31, 0)]], 3, 4⟩, 68719476736, 53834564,
    3093063187497884867434045631567622800004837876914192682139234709931896511184090357993727590400, lc0⟩) (.leaf
    ⟨640, 49, 8, 336, 16, 443, ⟨[[], [(1099511627776, 0)]], 3, 4⟩, ⟨[[(247436181804, 0), (3368608610693, 0), (0,
    4438902263), (90937556, 0), (0, 52257)], [(135698466859, 0), (1501171133, 0), (4467632, 0), (113448, 0), (0,
    381)], [(0, 52016405), (0, 1283532), (0, 6364), (0, 194), (0, 5)], [(0, 33219), (0, 786), (49, 0), (0, 1)]], 3,
    4⟩, 1099511627776, 0, 173047746, ⟨[[(71716393690858, 0), (0, 88376624579), (69664375, 0), (220564, 0), (1031,
    0)], [(10893919024, 0), (21282839, 0), (0, 72472), (1033, 0), (8, 0)], [(0, 7927876), (0, 33557), (65, 0), (4,
    0)], [(4218, 0), (47, 0)]], 3, 4⟩, 68719476736, 112412325,
    3612221696256549058267661019038873808923314039589797976676652329278278534972727538736623433650, lc0⟩)) (.sy (.sy
    (.leaf ⟨736, 49, 8, 494, 16, 677, ⟨[[], [(1099511627776, 0)]], 3, 4⟩, ⟨[[(401412176548, 0), (2733519058571, 0),
    (0, 2390729465), (19229088, 0), (0, 12473)], [(177002031540, 0), (895545712, 0), (1616152, 0), (6418, 0), (28,
    0)], [(0, 74881815), (0, 1309366), (11702, 0), (0, 133)], [(0, 30289), (0, 1317), (62, 0), (0, 1)]], 3, 4⟩,
    1099511627776, 0, 106561573, ⟨[[(73806278209587, 0), (0, 57629011575), (22200771, 0), (72177, 0), (390, 0)],
    [(9263406253, 0), (11798598, 0), (0, 46998), (366, 0), (3, 0)], [(0, 6548241), (0, 16496), (4, 0), (1, 0)],
    [(3073, 0), (12, 0)]], 3, 4⟩, 68719476736, 21679642,
    3507360333737604061123395810012146663613506239098849349874980857286501047998286034230721904640, lc0⟩) (.leaf
    ⟨736, 49, 8, 503, 16, 669, ⟨[[], [(1099511627776, 0)]], 3, 4⟩, ⟨[[(208992229077, 0), (2674912005986, 0), (0,
    2022251306), (18837034, 0), (0, 3386)], [(180279112371, 0), (904841445, 0), (1718456, 0), (7131, 0), (24, 0)],
    [(0, 81372324), (0, 1169282), (9204, 0), (0, 132)], [(0, 35657), (0, 627), (51, 0), (0, 1)]], 3, 4⟩,
    1099511627776, 0, 144944375, ⟨[[(72946250494428, 0), (0, 57588915128), (26574097, 0), (96109, 0), (240, 0)],
    [(9431322145, 0), (10790859, 0), (0, 28829), (436, 0), (0, 2)], [(0, 6790694), (0, 15760), (49, 0)], [(3285, 0),
    (16, 0)]], 3, 4⟩, 68719476736, 42736734,
    3083317260562371522527677087462280848830743482510765656548287551730877304363069864896596728686, lc0⟩)) (.sx
    (.leaf ⟨712, 25, 8, 430, 16, 553, ⟨[[], [(549755813888, 0)]], 3, 4⟩, ⟨[[(533213043367, 0), (4331386592742, 0),
    (0, 5153814345), (121766151, 0), (0, 135385)], [(79718013520, 0), (816184498, 0), (2806997, 0), (38025, 0), (0,
    783)], [(0, 18272311), (0, 430004), (2520, 0), (0, 181), (0, 2)], [(0, 4231), (0, 9), (13, 0)]], 3, 4⟩,
    1099511627776, 0, 21830106, ⟨[[(71729387650531, 0), (0, 68761583476), (46731190, 0), (152193, 0), (0, 919)],
    [(9954822905, 0), (13087864, 0), (0, 23931), (29, 0), (0, 27)], [(0, 7310557), (0, 19159), (0, 13), (0, 6)],
    [(3712, 0), (18, 0), (0, 1)]], 3, 4⟩, 68719476736, 73167026,
    3855084016536764626603625304651737234971851583477879996025759284994221646757314263273152322396, lc0⟩) (.sy (.leaf
    ⟨760, 25, 8, 710, 16, 911, ⟨[[], [(549755813888, 0)]], 3, 4⟩, ⟨[[(507247295465, 0), (3641668397061, 0), (0,
    2226593934), (25618215, 0), (0, 12224)], [(123563755254, 0), (595561214, 0), (1529923, 0), (0, 651), (0, 68)],
    [(0, 30875331), (0, 364795), (3388, 0), (0, 63)], [(0, 5916), (20, 0), (8, 0)]], 3, 4⟩, 1099511627776, 0,
    19235957, ⟨[[(72123466656552, 0), (0, 41329736155), (16903596, 0), (28573, 0), (0, 381)], [(9288936949, 0),
    (6844326, 0), (0, 11812), (0, 181), (0, 6)], [(0, 6819692), (0, 10919), (0, 52), (0, 2)], [(3413, 0)]], 3, 4⟩,
    68719476736, 9912743,
    1848135571715092082193960280328649146790580996391855557662804200048034529585455297737088433176, lc0⟩) (.leaf
    ⟨760, 25, 8, 725, 16, 905, ⟨[[], [(549755813888, 0)]], 3, 4⟩, ⟨[[(501666438123, 0), (3593873728444, 0), (0,
    1758176589), (24852158, 0), (0, 40918)], [(126354229507, 0), (609720115, 0), (1483835, 0), (0, 3967), (0, 220)],
    [(0, 32738919), (0, 328945), (2185, 0), (0, 70)], [(0, 5500), (101, 0), (6, 0)]], 3, 4⟩, 1099511627776, 0,
    26790332, ⟨[[(71311645042927, 0), (0, 40911129389), (17613540, 0), (0, 16585), (0, 653)], [(9417594276, 0),
    (6032233, 0), (0, 35233), (0, 523), (1, 0)], [(0, 7071501), (0, 15248), (0, 142), (1, 0)], [(3309, 0), (0, 7)]],
    3, 4⟩, 68719476736, 29156141,
    2679128708036172686160040957738592364558455895658592512750100772892348925411725456482412598841, lc0⟩))))
theorem c87 : checkC job ⟨6, 8, 8, 10, 9, 13⟩ 3 100 lims t87 352 48 4 3 3 256 = true := by decide +kernel

def t88 : CTree :=
  .sy (.sx (.leaf ⟨616, 25, 8, 440, 16, 555, ⟨[[], [(549755813888, 0)]], 3, 4⟩, ⟨[[(108912255654, 0), (4117659641495,
    0), (0, 3733827594), (107507308, 0), (0, 219044)], [(92523800569, 0), (1022318292, 0), (4293831, 0), (58306, 0),
    (0, 1472)], [(0, 17930624), (0, 423027), (0, 4067), (0, 99), (0, 4)], [(0, 6239), (0, 103), (3, 0)]], 3, 4⟩,
    1099511627776, 0, 25966430, ⟨[[(70115543499786, 0), (0, 69112135881), (52008363, 0), (122730, 0), (0, 24)],
    [(11617320237, 0), (17038815, 0), (0, 22000), (246, 0), (0, 14)], [(0, 8789201), (0, 27566), (33, 0), (0, 4)],
    [(5384, 0), (42, 0)]], 3, 4⟩, 68719476736, 47197723,
    2835778470459593398624048292659299779109850262624976319556080296924928917096460983068510896862, lc0⟩) (.sy (.leaf
    ⟨664, 25, 8, 707, 16, 887, ⟨[[], [(549755813888, 0)]], 3, 4⟩, ⟨[[(0, 182749681360), (3374326845630, 0), (0,
    1544352595), (22787553, 0), (0, 29575)], [(139870534819, 0), (742031692, 0), (1369254, 0), (8968, 0), (0, 182)],
    [(0, 30240757), (0, 344040), (0, 927), (0, 30)], [(0, 8196), (0, 15), (2, 0)]], 3, 4⟩, 1099511627776, 0,
    29039916, ⟨[[(70491570215081, 0), (0, 42616546661), (20280317, 0), (27327, 0), (0, 224)], [(10843406083, 0),
    (9089562, 0), (0, 10280), (0, 141), (0, 5)], [(0, 8130110), (0, 14549), (0, 50), (0, 2)], [(4588, 0), (12, 0)]],
    3, 4⟩, 68719476736, 11285576,
    2335531817886887441877780153039253072462593265138096554712722383269910776704581076996969076461, lc0⟩) (.leaf
    ⟨664, 25, 8, 718, 16, 878, ⟨[[], [(549755813888, 0)]], 3, 4⟩, ⟨[[(0, 172670289962), (3324151109036, 0), (0,
    1130515512), (21595466, 0), (0, 51447)], [(142908792642, 0), (751544986, 0), (1467839, 0), (3144, 0), (0, 299)],
    [(0, 32017191), (0, 355151), (0, 1557), (0, 43), (0, 1)], [(0, 8129), (6, 0), (1, 0)]], 3, 4⟩, 1099511627776, 0,
    36265365, ⟨[[(69716106482149, 0), (0, 42280875222), (21538943, 0), (0, 1388), (0, 552)], [(11005335103, 0),
    (8520556, 0), (0, 29727), (0, 546), (0, 4)], [(0, 8428801), (0, 19011), (0, 184), (0, 2)], [(4650, 0), (0, 4)]],
    3, 4⟩, 68719476736, 20356207,
    2917253601372527219440579073083590728867957410199162694180026964526282361012668543152800770812, lc0⟩))) (.sx (.sy
    (.leaf ⟨616, 25, 8, 712, 16, 865, ⟨[[], [(549755813888, 0)]], 3, 4⟩, ⟨[[(101422245164, 0), (3187632459214, 0),
    (0, 902952520), (19812087, 0), (0, 41885)], [(151516496491, 0), (829036854, 0), (1889701, 0), (3942, 0), (0,
    267)], [(0, 31058177), (0, 364209), (0, 2340), (0, 38), (0, 1)], [(0, 10403), (0, 75)]], 3, 4⟩, 1099511627776, 0,
    39262744, ⟨[[(68967514395391, 0), (0, 43158992744), (23506589, 0), (13628, 0), (0, 406)], [(11897455537, 0),
    (10328028, 0), (0, 20637), (0, 431), (0, 6)], [(0, 9272844), (0, 20738), (0, 160), (0, 3)], [(5826, 0), (2, 0),
    (0, 1)]], 3, 4⟩, 68719476736, 14132351,
    2237989192402747783210236777396143774924483439644694057107850630743735169105977766014403050803, lc0⟩) (.leaf
    ⟨616, 25, 8, 720, 16, 854, ⟨[[], [(549755813888, 0)]], 3, 4⟩, ⟨[[(203344213165, 0), (3138472422173, 0), (0,
    549240631), (18417680, 0), (0, 53198)], [(154568307141, 0), (841059780, 0), (1873872, 0), (0, 3227), (0, 325)],
    [(0, 32912787), (0, 391910), (0, 3126), (0, 53), (0, 1)], [(0, 10744), (0, 86), (0, 2)]], 3, 4⟩, 1099511627776,
    0, 46105198, ⟨[[(68229029470546, 0), (0, 42889701245), (23967524, 0), (0, 20332), (0, 425)], [(12067042753, 0),
    (9254360, 0), (0, 50674), (0, 538), (9, 0)], [(0, 9690308), (0, 28218), (0, 197), (5, 0)], [(5781, 0), (3, 0),
    (1, 0)]], 3, 4⟩, 68719476736, 62554441,
    2387158308546872271344096932667893765882790474124424687231187941220773916961196258623312778030, lc0⟩)) (.sy
    (.leaf ⟨664, 25, 8, 728, 16, 869, ⟨[[], [(549755813888, 0)]], 3, 4⟩, ⟨[[(446401333856, 0), (3278908859061, 0),
    (0, 746887144), (19870413, 0), (0, 74133)], [(145959502701, 0), (761330287, 0), (1436659, 0), (0, 5343), (0,
    405)], [(0, 33863547), (0, 375164), (0, 2454), (0, 60), (0, 1)], [(0, 7984), (11, 0)]], 3, 4⟩, 1099511627776, 0,
    43712945, ⟨[[(68981079746568, 0), (0, 41968256541), (20973345, 0), (0, 30187), (119, 0)], [(11142635415, 0),
    (7057180, 0), (0, 54732), (0, 2), (29, 0)], [(0, 8817455), (0, 24571), (9, 0), (14, 0)], [(4711, 0), (31, 0), (3,
    0)]], 3, 4⟩, 68719476736, 112032445,
    3135299323092039253399159952856522151441037932447214376458884049605833230966187476426759389782, lc0⟩) (.sx (.leaf
    ⟨815, 16, 10, 938, 16, 1097, ⟨[[], [(343597383680, 0)]], 3, 4⟩, ⟨[[(0, 102558190072), (4106647417153, 0), (0,
    553851141), (22966592, 0), (0, 103134)], [(96130608100, 0), (503290154, 0), (897206, 0), (0, 7811), (0, 276)],
    [(0, 11240357), (0, 129655), (0, 1125), (0, 23)], [(0, 1376), (0, 4)]], 3, 4⟩, 1099511627776, 0, 4556399,
    ⟨[[(68218095798330, 0), (0, 32811981293), (13218375, 0), (17760, 0), (1235, 0)], [(9168027370, 0), (4008627, 0),
    (0, 5191), (1229, 0), (35, 0)], [(0, 5975472), (0, 7412), (458, 0), (17, 0)], [(3193, 0), (85, 0), (4, 0)]], 3,
    4⟩, 68719476736, 53695522,
    2597879969140631163694475379434700745287722274907497016771034110245065408270923571953055621505, lc0⟩) (.sy (.leaf
    ⟨845, 16, 10, 1488, 16, 1735, ⟨[[], [(343597383680, 0)]], 3, 4⟩, ⟨[[(0, 505517610987), (3286023445975, 0), (0,
    228970302), (4501392, 0), (0, 12531)], [(147436537329, 0), (376619672, 0), (286633, 0), (0, 2115), (0, 31)], [(0,
    18045057), (0, 99887), (0, 434), (0, 5)], [(0, 1796), (3, 0)]], 3, 4⟩, 1099511627776, 0, 5861146,
    ⟨[[(68395505255562, 0), (0, 20622853986), (5737619, 0), (26888, 0), (529, 0)], [(8829666831, 0), (2598660, 0),
    (23859, 0), (831, 0), (11, 0)], [(0, 5653848), (5562, 0), (469, 0), (8, 0)], [(4132, 0), (118, 0), (3, 0)]], 3,
    4⟩, 68719476736, 12586715,
    2384844740672105982790108449811787367863142082619464506398621431390122787487478125511342105612, lc0⟩) (.sx (.leaf
    ⟨1675, 16, 20, 1899, 16, 2193, ⟨[[], [(343597383680, 0)]], 3, 4⟩, ⟨[[(0, 296028006050), (4138986975982, 0), (0,
    198229334), (5377861, 0), (0, 16042)], [(95176624697, 0), (243237897, 0), (168682, 0), (0, 1654), (0, 20)], [(0,
    5855096), (0, 33407), (0, 164), (0, 2)], [(0, 298)]], 3, 4⟩, 1099511627776, 0, 567193, ⟨[[(68032943801874, 0),
    (0, 16188256416), (4520545, 0), (29303, 0), (358, 0)], [(4478925382, 0), (1429274, 0), (19765, 0), (368, 0), (3,
    0)], [(0, 1397456), (4064, 0), (133, 0), (2, 0)], [(765, 0), (21, 0)]], 3, 4⟩, 68719476736, 5004892,
    2493923394192240213822674904310880523186115718945356402961997353714272649966720208202433787423, lc0⟩) (.sy (.leaf
    ⟨1705, 16, 20, 3008, 16, 3469, ⟨[[], [(343597383680, 0)]], 3, 4⟩, ⟨[[(0, 445719894098), (3292319945089, 0), (0,
    81950675), (1049966, 0), (0, 1757)], [(148202992455, 0), (186978852, 0), (57394, 0), (0, 370), (0, 2)], [(0,
    9311675), (0, 25979), (0, 65)], [(0, 421)]], 3, 4⟩, 1099511627776, 0, 890916, ⟨[[(68124638793732, 0), (0,
    10186364713), (2232758, 0), (11886, 0), (83, 0)], [(4401903189, 0), (1195857, 0), (13076, 0), (133, 0), (1, 0)],
    [(0, 1306174), (4472, 0), (75, 0), (1, 0)], [(961, 0), (18, 0)]], 3, 4⟩, 68719476736, 1646556,
    2351993365241287712439872862885835061094567709888270807076965390857556888804922671418351729306, lc0⟩) (.leaf
    ⟨1705, 16, 20, 3016, 16, 3458, ⟨[[], [(343597383680, 0)]], 3, 4⟩, ⟨[[(0, 39192317936), (3281011410779, 0), (0,
    63233104), (1004039, 0), (0, 1796)], [(148853342147, 0), (187030811, 0), (50114, 0), (0, 420), (0, 2)], [(0,
    9439927), (0, 26710), (0, 71)], [(0, 418)]], 3, 4⟩, 1099511627776, 0, 886421, ⟨[[(67946184479405, 0), (0,
    10126890026), (3053955, 0), (19108, 0), (121, 0)], [(4427788984, 0), (1802362, 0), (21745, 0), (196, 0), (1, 0)],
    [(0, 1201042), (7707, 0), (110, 0), (1, 0)], [(1342, 0), (26, 0)]], 3, 4⟩, 68719476736, 1475557,
    3930116324955077480273272048989016312914166605200983476061303783972631464572974971286625607629, lc0⟩)))))))
theorem c88 : checkC job ⟨6, 8, 8, 10, 9, 13⟩ 3 100 lims t88 656 48 8 9 3 256 = true := by decide +kernel

def t89 : CTree :=
  .sx (.sy (.leaf ⟨712, 25, 8, 723, 16, 892, ⟨[[], [(549755813888, 0)]], 3, 4⟩, ⟨[[(0, 177964467631), (3461801015884,
    0), (0, 1427190065), (23447538, 0), (0, 52011)], [(134607615683, 0), (680137254, 0), (1270597, 0), (1355, 0), (0,
    286)], [(0, 32541115), (0, 338324), (0, 142), (0, 52), (0, 1)], [(0, 6519), (69, 0), (3, 0)]], 3, 4⟩,
    1099511627776, 0, 31820365, ⟨[[(70492292823859, 0), (0, 41507167879), (19465329, 0), (0, 12724), (0, 611)],
    [(10181947695, 0), (7079979, 0), (0, 35096), (0, 556)], [(0, 7711641), (0, 17192), (0, 169)], [(3763, 0), (0,
    6)]], 3, 4⟩, 68719476736, 25728573,
    2903705682471550828955925471536228702163806193085040030239689651949527510850664540384748915819, lc0⟩) (.leaf
    ⟨712, 25, 8, 735, 16, 884, ⟨[[], [(549755813888, 0)]], 3, 4⟩, ⟨[[(38469782204, 0), (3416238440930, 0), (0,
    1009752486), (21578704, 0), (0, 87362)], [(137489808643, 0), (689012837, 0), (1210434, 0), (0, 7415), (0, 446)],
    [(0, 34277992), (0, 343091), (0, 1212), (0, 69), (0, 1)], [(0, 5964), (94, 0), (1, 0)]], 3, 4⟩, 1099511627776, 0,
    39208858, ⟨[[(69724745031937, 0), (0, 41175807096), (18301297, 0), (0, 21908), (1077, 0)], [(10298780893, 0),
    (5415159, 0), (0, 45538), (863, 0), (54, 0)], [(0, 8071595), (0, 18920), (300, 0), (24, 0), (1, 0)], [(4044, 0),
    (66, 0), (5, 0)]], 3, 4⟩, 68719476736, 152488817,
    3509954458633996422355675745291943623161301818941601139844467636995849669766541145234609592162, lc0⟩)) (.sy (.sx
    (.leaf ⟨935, 16, 10, 908, 16, 1107, ⟨[[], [(343597383680, 0)]], 3, 4⟩, ⟨[[(0, 207803257018), (4354839458868, 0),
    (0, 1657115059), (28841685, 0), (0, 94336)], [(80559959648, 0), (392672782, 0), (806214, 0), (0, 4764), (0,
    238)], [(0, 10486762), (0, 98230), (170, 0), (0, 23)], [(0, 795), (21, 0), (1, 0)]], 3, 4⟩, 1099511627776, 0,
    3890381, ⟨[[(70493336448834, 0), (0, 33013773444), (11106392, 0), (0, 16573), (254, 0)], [(7749990325, 0),
    (3213932, 0), (0, 24774), (178, 0), (14, 0)], [(0, 4790888), (0, 9092), (64, 0), (6, 0)], [(1787, 0), (16, 0),
    (1, 0)]], 3, 4⟩, 68719476736, 27551782,
    2118166339025294463359176810105238553883809710898586249596219712885765093904559619474563781159, lc0⟩) (.leaf
    ⟨965, 16, 10, 915, 16, 1107, ⟨[[], [(343597383680, 0)]], 3, 4⟩, ⟨[[(0, 267945332655), (4391650351845, 0), (0,
    1577704367), (28152021, 0), (0, 119441)], [(78525881640, 0), (374439713, 0), (852810, 0), (0, 9801), (0, 286)],
    [(0, 10694388), (0, 91391), (315, 0), (0, 29)], [(0, 646), (27, 0)]], 3, 4⟩, 1099511627776, 0, 3879496,
    ⟨[[(70491610728424, 0), (0, 32777936029), (10679878, 0), (31132, 0), (1861, 0)], [(7485902795, 0), (2614632, 0),
    (4611, 0), (1522, 0), (41, 0)], [(0, 4663238), (0, 2471), (470, 0), (17, 0)], [(2195, 0), (67, 0), (3, 0)]], 3,
    4⟩, 68719476736, 69556352,
    3475792119687723532010746225065533425294932033933293252959607551735932549515920497362141880443, lc0⟩)) (.sx (.sy
    (.leaf ⟨935, 16, 10, 1498, 16, 1792, ⟨[[], [(343597383680, 0)]], 3, 4⟩, ⟨[[(397249572241, 0), (3514099961861, 0),
    (0, 518425558), (5410634, 0), (0, 14152)], [(133295618782, 0), (323388675, 0), (286975, 0), (0, 2005), (0, 34)],
    [(0, 17689444), (0, 79486), (0, 71), (0, 6)], [(0, 1124), (19, 0)]], 3, 4⟩, 1099511627776, 0, 4602106,
    ⟨[[(69922783462536, 0), (0, 20156485473), (4474520, 0), (15962, 0), (388, 0)], [(7801073870, 0), (1825838, 0),
    (10703, 0), (545, 0), (8, 0)], [(0, 4883508), (1387, 0), (281, 0), (5, 0)], [(2678, 0), (66, 0), (2, 0)]], 3, 4⟩,
    68719476736, 9423220,
    1907909480979720399868008909205672296918501653656543915070656799968893732984403951666300012733, lc0⟩) (.sx (.leaf
    ⟨1855, 16, 20, 1869, 16, 2211, ⟨[[], [(343597383680, 0)]], 3, 4⟩, ⟨[[(0, 340956269013), (4319056888658, 0), (0,
    530859721), (6290984, 0), (0, 20181)], [(83971231389, 0), (203892023, 0), (155361, 0), (0, 1594), (0, 23)], [(0,
    5581456), (0, 25407), (0, 56), (0, 2)], [(0, 167), (3, 0)]], 3, 4⟩, 1099511627776, 0, 483860, ⟨[[(69526247887287,
    0), (0, 16212677829), (3812609, 0), (25677, 0), (341, 0)], [(3955043392, 0), (1054374, 0), (15020, 0), (307, 0),
    (3, 0)], [(0, 1211374), (2743, 0), (99, 0), (1, 0)], [(515, 0), (14, 0)]], 3, 4⟩, 68719476736, 4251711,
    2445636073464151437500157843049961600376487432142085276359077084318867023848170487483654086882, lc0⟩) (.leaf
    ⟨1885, 16, 20, 1876, 16, 2211, ⟨[[], [(343597383680, 0)]], 3, 4⟩, ⟨[[(0, 27880756834), (4338399011448, 0), (0,
    516457158), (6119984, 0), (0, 22525)], [(82895191337, 0), (199097261, 0), (144713, 0), (0, 1975), (0, 25)], [(0,
    5626127), (0, 24520), (0, 55), (0, 2)], [(0, 143), (3, 0)]], 3, 4⟩, 1099511627776, 0, 513388, ⟨[[(69530803190730,
    0), (0, 16111191573), (5259920, 0), (50163, 0), (564, 0)], [(3893837604, 0), (1625895, 0), (31132, 0), (508, 0),
    (5, 0)], [(0, 1126160), (6109, 0), (161, 0), (2, 0)], [(726, 0), (22, 0)]], 3, 4⟩, 68719476736, 6349482,
    3708054089095403513964851054782658618334910326954430844645134823241946449235705328973018824704, lc0⟩))) (.sy (.sx
    (.leaf ⟨1915, 16, 20, 1863, 16, 2215, ⟨[[], [(343597383680, 0)]], 3, 4⟩, ⟨[[(0, 292821718854), (4371880300144,
    0), (0, 615672303), (6470989, 0), (0, 20686)], [(80795567198, 0), (192986052, 0), (171903, 0), (0, 1787), (0,
    24)], [(0, 5534116), (0, 23147), (0, 16), (0, 2)], [(0, 140), (4, 0)]], 3, 4⟩, 1099511627776, 0, 601422,
    ⟨[[(69910827585382, 0), (0, 16191753052), (3994110, 0), (31338, 0), (399, 0)], [(3803504658, 0), (1106223, 0),
    (18193, 0), (349, 0), (3, 0)], [(0, 1146281), (3332, 0), (108, 0), (1, 0)], [(525, 0), (14, 0)]], 3, 4⟩,
    68719476736, 5235574,
    2431814504118044665088118748225496137487566458008619958951522483253892826184882965832463682874, lc0⟩) (.sy (.leaf
    ⟨1945, 16, 20, 3045, 16, 3619, ⟨[[], [(343597383680, 0)]], 3, 4⟩, ⟨[[(119122816490, 0), (3587987281162, 0), (0,
    256464486), (1310011, 0), (0, 2228)], [(129804888383, 0), (153682185, 0), (72978, 0), (0, 420), (0, 2)], [(0,
    9048781), (0, 18011), (0, 1)], [(0, 203), (3, 0)]], 3, 4⟩, 1099511627776, 0, 641247, ⟨[[(70012856212125, 0), (0,
    9883794047), (1773777, 0), (10213, 0), (73, 0)], [(3737150722, 0), (846579, 0), (9883, 0), (104, 0), (1, 0)],
    [(0, 1092134), (3029, 0), (52, 0)], [(619, 0), (11, 0)]], 3, 4⟩, 68719476736, 1559014,
    1615309985650132211304879008643326493070761985263013294209150886737640200818323728323406735761, lc0⟩) (.leaf
    ⟨1945, 16, 20, 3058, 16, 3611, ⟨[[], [(343597383680, 0)]], 3, 4⟩, ⟨[[(0, 104357591255), (3577124259407, 0), (0,
    232867679), (1250764, 0), (0, 2472)], [(130440529911, 0), (154168832, 0), (64724, 0), (0, 481), (0, 3)], [(0,
    9136750), (0, 18036), (0, 10)], [(0, 183), (3, 0)]], 3, 4⟩, 1099511627776, 0, 668626, ⟨[[(69818190462201, 0), (0,
    9820840001), (2590055, 0), (17529, 0), (112, 0)], [(3758652398, 0), (1381635, 0), (17643, 0), (160, 0), (1, 0)],
    [(0, 1008690), (5607, 0), (80, 0), (1, 0)], [(888, 0), (17, 0)]], 3, 4⟩, 68719476736, 1588637,
    3279658240358987260300491188297006958990968096889416318843072019174373095237247978905189753564, lc0⟩))) (.sx (.sy
    (.leaf ⟨1915, 16, 20, 3052, 16, 3595, ⟨[[], [(343597383680, 0)]], 3, 4⟩, ⟨[[(314576151080, 0), (3543651159485,
    0), (0, 215441529), (1231173, 0), (0, 2436)], [(132548076336, 0), (157770774, 0), (58747, 0), (0, 454), (0, 3)],
    [(0, 9151913), (0, 19008), (0, 18)], [(0, 202), (3, 0)]], 3, 4⟩, 1099511627776, 0, 653230, ⟨[[(69629874641610,
    0), (0, 9866673615), (2483240, 0), (16352, 0), (106, 0)], [(3830523996, 0), (1318676, 0), (16612, 0), (153, 0),
    (1, 0)], [(0, 1046669), (5330, 0), (78, 0), (1, 0)], [(875, 0), (17, 0)]], 3, 4⟩, 68719476736, 1620660,
    3260406115106576647800785985871388773248182559005716155242106605250206028868735918311174744587, lc0⟩) (.out
    ⟨1955, 16, 20, 6148, 16, 3522, ⟨[[], [(343597383680, 0)]], 1, 1⟩, ⟨[[(0, 49136588454), (0, 3469289204283)], [(0,
    130785932538), (0, 155207349)]], 1, 1⟩, 1099511627776, 0, 23180574019, ⟨[], 0, 0⟩, 0, 0, 0, lc0⟩ 0 1
    315761192732)) (.out ⟨1985, 16, 20, 3785, 16, 2169, ⟨[[], [(343597383680, 0)]], 1, 1⟩, ⟨[[(51326277164, 0), (0,
    4292624710330)], [(0, 79187374699), (0, 186456854)]], 1, 1⟩, 1099511627776, 0, 18013266775, ⟨[], 0, 0⟩, 0, 0, 0,
    lc0⟩ 0 1 489602698312)))))
theorem c89 : checkC job ⟨6, 8, 8, 10, 9, 13⟩ 3 100 lims t89 752 48 8 15 3 512 = true := by decide +kernel

def t90 : CTree :=
  .sx (.sy (.leaf ⟨875, 16, 10, 1486, 16, 1761, ⟨[[], [(343597383680, 0)]], 3, 4⟩, ⟨[[(0, 91068220088),
    (3378008981404, 0), (0, 376855006), (5006444, 0), (0, 12680)], [(141761517988, 0), (356906079, 0), (288635, 0),
    (0, 1564), (0, 32)], [(0, 17645401), (0, 90850), (0, 278), (0, 5)], [(0, 1543), (10, 0)]], 3, 4⟩, 1099511627776,
    0, 5204417, ⟨[[(69150472413075, 0), (0, 20498424680), (4766905, 0), (7069, 0), (250, 0)], [(8443166874, 0),
    (2090318, 0), (1080, 0), (367, 0), (6, 0)], [(0, 5374602), (0, 2553), (201, 0), (4, 0)], [(2721, 0), (53, 0), (2,
    0)]], 3, 4⟩, 68719476736, 7861723,
    1449216345654189318916429817512173281322243266236143599222912924600695885823657028959293169963, lc0⟩) (.leaf
    ⟨875, 16, 10, 1497, 16, 1752, ⟨[[], [(343597383680, 0)]], 3, 4⟩, ⟨[[(0, 383494279796), (3356772353736, 0), (0,
    288135051), (4655569, 0), (0, 14449)], [(143177464807, 0), (358331873, 0), (252083, 0), (0, 2355), (0, 35)], [(0,
    18108570), (0, 94249), (0, 369), (0, 5)], [(0, 1478), (9, 0)]], 3, 4⟩, 1099511627776, 0, 5558722,
    ⟨[[(68769105545208, 0), (0, 20408330099), (6001585, 0), (40870, 0), (706, 0)], [(8485897680, 0), (2727827, 0),
    (39160, 0), (1083, 0), (14, 0)], [(0, 5315707), (11294, 0), (593, 0), (10, 0)], [(4429, 0), (142, 0), (3, 0)]],
    3, 4⟩, 68719476736, 14987639,
    3355281323442617068098177331313686448511059390924262256350570853757127797362756527527994873213, lc0⟩)) (.sy (.sx
    (.leaf ⟨1795, 16, 20, 1875, 16, 2208, ⟨[[], [(343597383680, 0)]], 3, 4⟩, ⟨[[(0, 410642668114), (4267093813775,
    0), (0, 448271035), (6103228, 0), (0, 18951)], [(87265453159, 0), (215655622, 0), (155698, 0), (0, 1448), (0,
    23)], [(0, 5627086), (0, 27692), (0, 88), (0, 2)], [(0, 203), (2, 0)]], 3, 4⟩, 1099511627776, 0, 541305,
    ⟨[[(69145664922267, 0), (0, 16232776032), (3613272, 0), (19367, 0), (274, 0)], [(4113377528, 0), (997330, 0),
    (11189, 0), (256, 0), (3, 0)], [(0, 1282426), (1954, 0), (86, 0), (1, 0)], [(498, 0), (13, 0)]], 3, 4⟩,
    68719476736, 3953357,
    2137115316884656292497441526727102998291966040400474151227979031303831271208902881661969035055, lc0⟩) (.leaf
    ⟨1825, 16, 20, 1881, 16, 2207, ⟨[[], [(343597383680, 0)]], 3, 4⟩, ⟨[[(380465325052, 0), (4285601682674, 0), (0,
    433944725), (5944837, 0), (0, 21195)], [(86140664937, 0), (210305624, 0), (138563, 0), (0, 1800), (0, 24)], [(0,
    5679049), (0, 27014), (0, 90), (0, 2)], [(0, 176), (2, 0)]], 3, 4⟩, 1099511627776, 0, 619783, ⟨[[(69157113056957,
    0), (0, 16148321791), (4727036, 0), (39472, 0), (464, 0)], [(4046635110, 0), (1436178, 0), (24866, 0), (432, 0),
    (4, 0)], [(0, 1207004), (4929, 0), (142, 0), (2, 0)], [(688, 0), (20, 0)]], 3, 4⟩, 68719476736, 5276724,
    2927697091266428177566666383721217712985737911013219366670066985964048572740488455243159091933, lc0⟩)) (.sx (.sy
    (.leaf ⟨1795, 16, 20, 3024, 16, 3529, ⟨[[], [(343597383680, 0)]], 3, 4⟩, ⟨[[(83779439426, 0), (3407069733142, 0),
    (0, 147146892), (1147514, 0), (0, 2093)], [(141030403528, 0), (173381741, 0), (53277, 0), (0, 374), (0, 2)], [(0,
    9195940), (0, 22852), (0, 45)], [(0, 309), (2, 0)]], 3, 4⟩, 1099511627776, 0, 839784, ⟨[[(68870308107600, 0), (0,
    10064815666), (2036208, 0), (11137, 0), (78, 0)], [(4135123957, 0), (1038847, 0), (11629, 0), (120, 0), (1, 0)],
    [(0, 1217665), (3813, 0), (64, 0)], [(796, 0), (15, 0)]], 3, 4⟩, 68719476736, 1684986,
    2291443003185382214982680342056915211607490499887644282021553142037019329870504316269353024436, lc0⟩) (.leaf
    ⟨1795, 16, 20, 3035, 16, 3520, ⟨[[], [(343597383680, 0)]], 3, 4⟩, ⟨[[(0, 105360608322), (3396741217273, 0), (0,
    126628782), (1093031, 0), (0, 2206)], [(141710200889, 0), (173534917, 0), (45907, 0), (0, 432), (0, 2)], [(0,
    9310958), (0, 23377), (0, 52)], [(0, 298), (2, 0)]], 3, 4⟩, 1099511627776, 0, 888398, ⟨[[(68682293412225, 0), (0,
    9999869192), (2867264, 0), (18486, 0), (117, 0)], [(4159583837, 0), (1624851, 0), (20046, 0), (181, 0), (1, 0)],
    [(0, 1120009), (6818, 0), (97, 0), (1, 0)], [(1135, 0), (22, 0)]], 3, 4⟩, 68719476736, 1491308,
    3907801296723314888264997722547876941509700920597994603375279749032528004421930671010637205634, lc0⟩)) (.sy (.sx
    (.leaf ⟨3726, 16, 41, 3792, 16, 4412, ⟨[[(0, 137438953472)], [(352187318272, 0)]], 3, 4⟩, ⟨[[(252385572949, 0),
    (4275020943674, 0), (0, 179464284), (1398463, 0), (0, 2841)], [(87328321132, 0), (106341569, 0), (29188, 0), (0,
    269), (0, 2)], [(0, 2893925), (0, 7025), (0, 14)], [(0, 43)]], 3, 4⟩, 1099511627776, 0, 172803,
    ⟨[[(68871994116125, 0), (0, 7993108740), (1770426, 0), (9148, 0), (47, 0)], [(1997069046, 0), (601227, 0), (5958,
    0), (43, 0)], [(0, 264002), (1219, 0), (14, 0)], [(124, 0), (2, 0)]], 3, 4⟩, 68719476736, 533795,
    2520943366784741592025864087734073569786603713140789367182088758974416082259626936894396681921, lc0⟩) (.sx (.out
    ⟨7568, 16, 81, 8579, 16, 4933, ⟨[[(481036337152, 0)], [(347892350976, 0)]], 1, 1⟩, ⟨[[(416407194134, 0), (0,
    4788365636512)], [(0, 48586998208), (0, 58886624)]], 1, 1⟩, 1099511627776, 0, 3748889118, ⟨[], 0, 0⟩, 0, 0, 0,
    lc0⟩ 0 1 160861721138) (.out ⟨7599, 16, 81, 8570, 16, 4930, ⟨[[(0, 206158430208)], [(347892350976, 0)]], 1, 1⟩,
    ⟨[[(0, 78773254080), (0, 4791085392261)], [(0, 48401596446), (0, 58478681)]], 1, 1⟩, 1099511627776, 0,
    3736707850, ⟨[], 0, 0⟩, 0, 0, 0, lc0⟩ 0 1 231557497527))) (.out ⟨1865, 16, 20, 6006, 16, 3463, ⟨[[],
    [(343597383680, 0)]], 1, 1⟩, ⟨[[(0, 60456790664), (0, 3357916217947)], [(0, 137649013271), (0, 166354084)]], 1,
    1⟩, 1099511627776, 0, 22952119390, ⟨[], 0, 0⟩, 0, 0, 0, lc0⟩ 0 1 343230534507))))
theorem c90 : checkC job ⟨6, 8, 8, 10, 9, 13⟩ 3 100 lims t90 1456 48 16 39 3 1024 = true := by decide +kernel

def t91 : CTree :=
  .sx (.sy (.sx (.leaf ⟨1735, 16, 20, 1897, 16, 2198, ⟨[[], [(343597383680, 0)]], 3, 4⟩, ⟨[[(0, 411206761029),
    (4196626442144, 0), (0, 266833530), (5474608, 0), (0, 18916)], [(91727926224, 0), (229492101, 0), (140824, 0),
    (0, 1838), (0, 22)], [(0, 5828197), (0, 31307), (0, 146), (0, 2)], [(0, 239), (1, 0)]], 3, 4⟩, 1099511627776, 0,
    531181, ⟨[[(68398631341608, 0), (0, 16118974046), (5284680, 0), (43977, 0), (494, 0)], [(4308111862, 0),
    (1732270, 0), (29771, 0), (490, 0), (4, 0)], [(0, 1283318), (6283, 0), (171, 0), (2, 0)], [(868, 0), (25, 0)]],
    3, 4⟩, 68719476736, 5760036,
    3349190437893330285440104750557585947056021058754840280435071727917084820406880769138776180700, lc0⟩) (.sy (.leaf
    ⟨1765, 16, 20, 3026, 16, 3503, ⟨[[], [(343597383680, 0)]], 3, 4⟩, ⟨[[(227654325156, 0), (3362091203851, 0), (0,
    111050793), (1076995, 0), (0, 2063)], [(143861382457, 0), (177829156, 0), (48572, 0), (0, 411), (0, 2)], [(0,
    9317750), (0, 24312), (0, 57)], [(0, 336), (1, 0)]], 3, 4⟩, 1099511627776, 0, 820644, ⟨[[(68499450976244, 0), (0,
    10063561079), (2624049, 0), (16087, 0), (105, 0)], [(4237419911, 0), (1461071, 0), (17554, 0), (164, 0), (1, 0)],
    [(0, 1183006), (5999, 0), (90, 0), (1, 0)], [(1073, 0), (21, 0)]], 3, 4⟩, 68719476736, 1575078,
    3434769275529219887485572426604501145861347168090991670765894273731830625888315588345200568077, lc0⟩) (.sx (.leaf
    ⟨3603, 16, 41, 3817, 16, 4396, ⟨[[(0, 137438953472)], [(352187318272, 0)]], 3, 4⟩, ⟨[[(0, 325119236782),
    (4212251340853, 0), (0, 116869988), (1301961, 0), (0, 2620)], [(91222832134, 0), (112672845, 0), (27427, 0), (0,
    282), (0, 1)], [(0, 2962132), (0, 7878), (0, 20)], [(0, 54)]], 3, 4⟩, 1099511627776, 0, 178098,
    ⟨[[(68311201761690, 0), (0, 7955488850), (2131872, 0), (11206, 0), (54, 0)], [(2088428921, 0), (781130, 0),
    (7690, 0), (53, 0)], [(0, 260937), (1648, 0), (18, 0)], [(162, 0), (3, 0)]], 3, 4⟩, 68719476736, 654314,
    3651176220511695384348506003761006814961203101367320090235014128330359015020932924278566035995, lc0⟩) (.out
    ⟨3625, 16, 40, 7458, 16, 4311, ⟨[[], [(343597383680, 0)]], 1, 1⟩, ⟨[[(0, 100973081823), (0, 4141340643596)], [(0,
    88899820317), (0, 109015262)]], 1, 1⟩, 1099511627776, 0, 7950218014, ⟨[], 0, 0⟩, 0, 0, 0, lc0⟩ 0 1
    261273196893)))) (.sx (.sy (.sx (.leaf ⟨3541, 16, 41, 3819, 16, 4391, ⟨[[(412316860416, 0)], [(352187318272,
    0)]], 3, 4⟩, ⟨[[(208448382135, 0), (4184231755276, 0), (0, 98930284), (1292844, 0), (0, 2420)], [(92943736640,
    0), (115974043, 0), (30329, 0), (0, 269), (0, 1)], [(0, 2974119), (0, 8188), (0, 21)], [(0, 61)]], 3, 4⟩,
    1099511627776, 0, 148774, ⟨[[(68129973082414, 0), (0, 7984360044), (1891712, 0), (9451, 0), (47, 0)],
    [(2126620817, 0), (682243, 0), (6554, 0), (47, 0)], [(0, 280188), (1418, 0), (16, 0)], [(150, 0), (2, 0)]], 3,
    4⟩, 68719476736, 569283,
    2454327604599709860398032234825504696535283826256460213111094076209762609029051862300328491821, lc0⟩) (.sy (.leaf
    ⟨3572, 16, 41, 6067, 16, 6971, ⟨[[(137438953472, 0)], [(352187318272, 0)]], 3, 4⟩, ⟨[[(0, 32460083246),
    (3330384625039, 0), (0, 40461659), (254251, 0), (0, 252)], [(146372774413, 0), (90748502, 0), (10920, 0), (0,
    56)], [(0, 4729055), (0, 6425), (0, 8)], [(0, 90)]], 3, 4⟩, 1099511627776, 0, 149752, ⟨[[(68175148896855, 0), (0,
    5008099500), (872030, 0), (2885, 0), (9, 0)], [(2111746367, 0), (514765, 0), (3180, 0), (14, 0)], [(0, 261264),
    (1094, 0), (7, 0)], [(170, 0), (2, 0)]], 3, 4⟩, 68719476736, 192166,
    2917600783872461138601453560741337032289923896511269038641404347898658287094388664189369243417, lc0⟩) (.out
    ⟨3565, 16, 40, 11794, 16, 6829, ⟨[[], [(343597383680, 0)]], 1, 1⟩, ⟨[[(233090573390, 0), (0, 3262095377794)],
    [(0, 143924918343), (0, 89022231)]], 1, 1⟩, 1099511627776, 0, 11230920522, ⟨[], 0, 0⟩, 0, 0, 0, lc0⟩ 0 1
    232713301914))) (.out ⟨1775, 16, 20, 5865, 16, 3402, ⟨[[], [(343597383680, 0)]], 1, 1⟩, ⟨[[(405940709072, 0), (0,
    3245299908582)], [(0, 144648754974), (0, 178965741)]], 1, 1⟩, 1099511627776, 0, 22795730441, ⟨[], 0, 0⟩, 0, 0, 0,
    lc0⟩ 0 1 320405944511)) (.out ⟨1805, 16, 20, 3701, 16, 2148, ⟨[[], [(343597383680, 0)]], 1, 1⟩, ⟨[[(55909970508,
    0), (0, 4119963468567)], [(0, 89855591421), (0, 219492393)]], 1, 1⟩, 1099511627776, 0, 16009486874, ⟨[], 0, 0⟩,
    0, 0, 0, lc0⟩ 0 1 510605646828))) (.sy (.sx (.sy (.sx (.out ⟨3655, 16, 40, 7483, 16, 4317, ⟨[[], [(343597383680,
    0)]], 1, 1⟩, ⟨[[(254027128695, 0), (0, 4158972081325)], [(0, 87815514373), (0, 107430635)]], 1, 1⟩,
    1099511627776, 0, 8071887105, ⟨[], 0, 0⟩, 0, 0, 0, lc0⟩ 0 1 195600324109) (.out ⟨3685, 16, 40, 7474, 16, 4316,
    ⟨[[], [(343597383680, 0)]], 1, 1⟩, ⟨[[(0, 157949313832), (0, 4168251606633)], [(0, 87238817973), (0,
    105990470)]], 1, 1⟩, 1099511627776, 0, 8076865837, ⟨[], 0, 0⟩, 0, 0, 0, lc0⟩ 0 1 340682268136)) (.out ⟨1835, 16,
    20, 5937, 16, 3437, ⟨[[], [(343597383680, 0)]], 1, 1⟩, ⟨[[(0, 358042698201), (0, 3314125982322)], [(0,
    140407730777), (0, 170319727)]], 1, 1⟩, 1099511627776, 0, 22974515142, ⟨[], 0, 0⟩, 0, 0, 0, lc0⟩ 0 1
    481570506355)) (.out ⟨1865, 16, 20, 3717, 16, 2153, ⟨[[], [(343597383680, 0)]], 1, 1⟩, ⟨[[(0, 105147064342), (0,
    4172936190319)], [(0, 86510846337), (0, 207473280)]], 1, 1⟩, 1099511627776, 0, 16465947869, ⟨[], 0, 0⟩, 0, 0, 0,
    lc0⟩ 0 1 670577656065)) (.out ⟨925, 16, 10, 2939, 16, 1711, ⟨[[], [(343597383680, 0)]], 1, 1⟩, ⟨[[(0,
    213228559799), (0, 3306423992439)], [(0, 140403897845), (0, 334998587)]], 1, 1⟩, 1099511627776, 0, 47711088697,
    ⟨[], 0, 0⟩, 0, 0, 0, lc0⟩ 0 1 949165028618))
theorem c91 : checkC job ⟨6, 8, 8, 10, 9, 13⟩ 3 100 lims t91 1456 48 16 45 3 1024 = true := by decide +kernel

def t92 : CTree :=
  .sy (.sx (.sy (.sx (.sy (.leaf ⟨1855, 16, 20, 3039, 16, 3562, ⟨[[], [(343597383680, 0)]], 3, 4⟩, ⟨[[(0,
    11983954764), (3475530658604, 0), (0, 180634405), (1188861, 0), (0, 2299)], [(136763620704, 0), (165279921, 0),
    (52720, 0), (0, 410), (0, 3)], [(0, 9178225), (0, 20966), (0, 33)], [(0, 248), (2, 0)]], 3, 4⟩, 1099511627776, 0,
    798141, ⟨[[(69246048361179, 0), (0, 9961675282), (2280939, 0), (14011, 0), (94, 0)], [(3979795576, 0), (1195797,
    0), (14481, 0), (139, 0), (1, 0)], [(0, 1126016), (4721, 0), (73, 0), (1, 0)], [(850, 0), (16, 0)]], 3, 4⟩,
    68719476736, 1640191,
    2926658840999375674553569391774442860511660989112391423662718405226278232059018397601460716956, lc0⟩) (.sx (.leaf
    ⟨3787, 16, 41, 3787, 16, 4416, ⟨[[(412316860416, 0)], [(352187318272, 0)]], 3, 4⟩, ⟨[[(404315380534, 0),
    (4301318230322, 0), (0, 199403900), (1416772, 0), (0, 2976)], [(85669004841, 0), (103455901, 0), (28963, 0), (0,
    281), (0, 2)], [(0, 2878714), (0, 6686), (0, 13)], [(0, 38)]], 3, 4⟩, 1099511627776, 0, 190291,
    ⟨[[(69060043580322, 0), (0, 7978689523), (1904314, 0), (10218, 0), (51, 0)], [(1960332992, 0), (650457, 0),
    (6573, 0), (47, 0)], [(0, 251768), (1329, 0), (15, 0)], [(128, 0), (2, 0)]], 3, 4⟩, 68719476736, 554569,
    2627092762710970923478947495638426945763732410015349010689787817970070587317174776875562226921, lc0⟩) (.out
    ⟨3805, 16, 40, 7539, 16, 4331, ⟨[[], [(343597383680, 0)]], 1, 1⟩, ⟨[[(0, 197885111376), (0, 4228206113256)], [(0,
    83476956138), (0, 100215018)]], 1, 1⟩, 1099511627776, 0, 8471039010, ⟨[], 0, 0⟩, 0, 0, 0, lc0⟩ 0 1
    262236106623))) (.sy (.sx (.leaf ⟨3849, 16, 41, 3782, 16, 4420, ⟨[[(0, 137438953472)], [(352187318272, 0)]], 3,
    4⟩, ⟨[[(74307311194, 0), (4327335123479, 0), (0, 219649664), (1435832, 0), (0, 3091)], [(84031033802, 0),
    (100695851, 0), (29715, 0), (0, 293), (0, 2)], [(0, 2862859), (0, 6341), (0, 11)], [(0, 34)]], 3, 4⟩,
    1099511627776, 0, 240300, ⟨[[(69247623378539, 0), (0, 7962806613), (2055648, 0), (11393, 0), (56, 0)],
    [(1924175070, 0), (705513, 0), (7235, 0), (51, 0)], [(0, 239346), (1445, 0), (16, 0)], [(132, 0), (2, 0)]], 3,
    4⟩, 68719476736, 620450,
    3253975603944151508961128091281757763960537161868104878747497226043149707120490535353297243174, lc0⟩) (.out
    ⟨3865, 16, 40, 7554, 16, 4335, ⟨[[], [(343597383680, 0)]], 1, 1⟩, ⟨[[(541252558696, 0), (0, 4253541068504)], [(0,
    81875069813), (0, 97576085)]], 1, 1⟩, 1099511627776, 0, 8608148926, ⟨[], 0, 0⟩, 0, 0, 0, lc0⟩ 0 1 333334349930))
    (.out ⟨1925, 16, 20, 6078, 16, 3497, ⟨[[], [(343597383680, 0)]], 1, 1⟩, ⟨[[(353133410438, 0), (0,
    3425545458982)], [(0, 133483296914), (0, 158867623)]], 1, 1⟩, 1099511627776, 0, 23124435324, ⟨[], 0, 0⟩, 0, 0, 0,
    lc0⟩ 0 1 486704334095))) (.out ⟨955, 16, 10, 3008, 16, 1737, ⟨[[], [(343597383680, 0)]], 1, 1⟩, ⟨[[(203169530190,
    0), (0, 3392879813129)], [(0, 134921863061), (0, 320729421)]], 1, 1⟩, 1099511627776, 0, 47390597519, ⟨[], 0, 0⟩,
    0, 0, 0, lc0⟩ 0 1 677129482216)) (.out ⟨985, 16, 10, 1867, 16, 1079, ⟨[[], [(343597383680, 0)]], 1, 1⟩,
    ⟨[[(246626315376, 0), (0, 4254465442412)], [(0, 81015569449), (0, 378391203)]], 1, 1⟩, 1099511627776, 0,
    35934682791, ⟨[], 0, 0⟩, 0, 0, 0, lc0⟩ 0 1 1035829522970)) (.out ⟨776, 26, 8, 1476, 16, 862, ⟨[[],
    [(549755813888, 0)]], 1, 1⟩, ⟨[[(105382514176, 0), (0, 3378959061315)], [(0, 134928866997), (0, 619631691)]], 1,
    1⟩, 1099511627776, 0, 101640077739, ⟨[], 0, 0⟩, 0, 0, 0, lc0⟩ 0 1 1614713850665)
theorem c92 : checkC job ⟨6, 8, 8, 10, 9, 13⟩ 3 100 lims t92 1552 48 16 21 3 512 = true := by decide +kernel

def t93 : CTree :=
  .sx (.leaf ⟨755, 16, 10, 940, 16, 1094, ⟨[[], [(343597383680, 0)]], 3, 4⟩, ⟨[[(12516689685, 0), (3987673220361, 0),
    (0, 351014579), (22147370, 0), (0, 65505)], [(103353291786, 0), (565969538, 0), (1243233, 0), (0, 5254), (0,
    204)], [(0, 11062877), (0, 136676), (0, 1285), (0, 20)], [(0, 1945), (0, 22)]], 3, 4⟩, 1099511627776, 0, 4871446,
    ⟨[[(67494643122869, 0), (0, 33051242881), (14411325, 0), (0, 9627), (224, 0)], [(9943302396, 0), (5270739, 0),
    (0, 26816), (212, 0), (14, 0)], [(0, 6606148), (0, 15186), (90, 0), (8, 0)], [(3302, 0), (31, 0), (2, 0)]], 3,
    4⟩, 68719476736, 24821914,
    1733311292239062453872825244999413498120533968993940272592725445188529705014602586636900458262, lc0⟩) (.leaf
    ⟨785, 16, 10, 946, 16, 1091, ⟨[[], [(343597383680, 0)]], 3, 4⟩, ⟨[[(372578220389, 0), (4029648356455, 0), (0,
    243271867), (21385037, 0), (0, 86672)], [(100900378741, 0), (537710234, 0), (980172, 0), (0, 9499), (0, 242)],
    [(0, 11553840), (0, 141590), (0, 1425), (0, 24)], [(0, 1678), (0, 15), (0, 1)]], 3, 4⟩, 1099511627776, 0,
    4953825, ⟨[[(67505080465330, 0), (0, 32755005371), (14495236, 0), (53286, 0), (2056, 0)], [(9593924300, 0),
    (4508166, 0), (23011, 0), (2208, 0), (52, 0)], [(0, 6367171), (0, 1011), (859, 0), (27, 0)], [(4248, 0), (154,
    0), (7, 0)]], 3, 4⟩, 68719476736, 75371290,
    3380500713295833749732560765414664600136497230395476694592002127735830458930898868803175950395, lc0⟩)
theorem c93 : checkC job ⟨6, 8, 8, 10, 9, 13⟩ 3 100 lims t93 1264 48 16 51 3 1024 = true := by decide +kernel

def t94 : CTree :=
  .sy (.leaf ⟨755, 16, 10, 1463, 16, 1674, ⟨[[], [(343597383680, 0)]], 3, 4⟩, ⟨[[(371569762124, 0), (3049492161532,
    0), (0, 22946824), (4011500, 0), (0, 6109)], [(162082323289, 0), (441272981, 0), (439030, 0), (0, 1699), (0,
    19)], [(0, 17911914), (0, 114416), (0, 606), (0, 5)], [(0, 3141), (0, 20)]], 3, 4⟩, 1099511627776, 0, 6922670,
    ⟨[[(66966036050193, 0), (0, 21295909514), (6362522, 0), (13053, 0), (335, 0)], [(10023417283, 0), (3213866, 0),
    (8421, 0), (582, 0), (9, 0)], [(0, 6780432), (0, 1581), (366, 0), (8, 0)], [(4656, 0), (106, 0), (3, 0)]], 3, 4⟩,
    68719476736, 10546747,
    1699591362437685756734865143781906286652946165355664494015252770027591536143096457366588426277, lc0⟩) (.leaf
    ⟨755, 16, 10, 1468, 16, 1661, ⟨[[], [(343597383680, 0)]], 3, 4⟩, ⟨[[(534018157540, 0), (3025961822021, 0),
    (47596909, 0), (3839942, 0), (0, 5587)], [(163465990486, 0), (442875592, 0), (401321, 0), (0, 2120), (0, 17)],
    [(0, 18476601), (0, 121236), (0, 685), (0, 5)], [(0, 3248), (0, 24)]], 3, 4⟩, 1099511627776, 0, 7254502,
    ⟨[[(66616696713015, 0), (0, 21232598786), (7892427, 0), (50183, 0), (833, 0)], [(10082084919, 0), (4193608, 0),
    (56925, 0), (1474, 0), (18, 0)], [(0, 6666257), (18529, 0), (921, 0), (15, 0)], [(7436, 0), (249, 0), (6, 0)]],
    3, 4⟩, 68719476736, 20409375,
    3640342502126250421165175130971365955417764798586725301652796465829726180152154152406101076210, lc0⟩)
theorem c94 : checkC job ⟨6, 8, 8, 10, 9, 13⟩ 3 100 lims t94 2480 48 32 57 3 1024 = true := by decide +kernel

def t95 : CTree :=
  .sy (.sx (.leaf ⟨1555, 16, 20, 1916, 16, 2176, ⟨[[], [(343597383680, 0)]], 3, 4⟩, ⟨[[(0, 164976469416),
    (4004494310186, 0), (7057304, 0), (5023695, 0), (0, 9810)], [(103636777198, 0), (275897430, 0), (226086, 0), (0,
    1554), (0, 14)], [(0, 6029813), (0, 38497), (0, 215), (0, 2)], [(0, 457), (0, 3)]], 3, 4⟩, 1099511627776, 0,
    732561, ⟨[[(66955988848110, 0), (0, 16201219570), (4907771, 0), (29492, 0), (352, 0)], [(4883718246, 0),
    (1702501, 0), (21888, 0), (395, 0), (4, 0)], [(0, 1567803), (4845, 0), (156, 0), (2, 0)], [(978, 0), (26, 0)]],
    3, 4⟩, 68719476736, 4757817,
    2184309486723867498139286932472319926253609996677230241978544446397780860851816536161108286186, lc0⟩) (.sy (.leaf
    ⟨1585, 16, 20, 2979, 16, 3377, ⟨[[], [(343597383680, 0)]], 3, 4⟩, ⟨[[(0, 334668684328), (3127586234075, 0),
    (1833664, 0), (955687, 0), (0, 1097)], [(158397027024, 0), (207857660, 0), (74454, 0), (0, 348), (0, 1)], [(0,
    9463207), (0, 29926), (0, 85)], [(0, 646), (0, 2)]], 3, 4⟩, 1099511627776, 0, 960438, ⟨[[(67043954083870, 0), (0,
    10375960527), (2580543, 0), (13478, 0), (92, 0)], [(4800215001, 0), (1496363, 0), (16005, 0), (159, 0), (1, 0)],
    [(0, 1442780), (5833, 0), (95, 0), (1, 0)], [(1281, 0), (24, 0)]], 3, 4⟩, 68719476736, 1550109,
    2531249659496326250444680722590090494419557552955164517315322640353894597951046970463345754055, lc0⟩) (.sx (.leaf
    ⟨3234, 16, 41, 3854, 16, 4349, ⟨[[(0, 137438953472)], [(352187318272, 0)]], 3, 4⟩, ⟨[[(0, 508505039897),
    (4021483847374, 0), (22046897, 0), (1208838, 0), (0, 1331)], [(103096306829, 0), (135348415, 0), (46515, 0), (0,
    235), (0, 1)], [(0, 3090165), (0, 9930), (0, 29)], [(0, 108)]], 3, 4⟩, 1099511627776, 0, 208090,
    ⟨[[(66867061623587, 0), (0, 8007045628), (1855408, 0), (8326, 0), (42, 0)], [(2363065741, 0), (721230, 0), (6384,
    0), (46, 0)], [(0, 328354), (1508, 0), (17, 0)], [(184, 0), (3, 0)]], 3, 4⟩, 68719476736, 579908,
    2134856586454527009366968943250952726267734440160629039058465488019617185681598735890703835129, lc0⟩) (.sy (.leaf
    ⟨3265, 16, 41, 5987, 16, 6751, ⟨[[(0, 412316860416)], [(352187318272, 0)]], 3, 4⟩, ⟨[[(304917274019, 0),
    (3131255362926, 0), (8106893, 0), (231637, 0), (0, 139)], [(158801389249, 0), (103468310, 0), (16304, 0), (0,
    49)], [(0, 4820969), (0, 7709), (0, 11)], [(0, 160)]], 3, 4⟩, 1099511627776, 0, 206511, ⟨[[(66917426888827, 0),
    (0, 5135047840), (894959, 0), (2778, 0), (9, 0)], [(2345647318, 0), (558431, 0), (3311, 0), (15, 0)], [(0,
    305185), (1219, 0), (8, 0)], [(211, 0), (2, 0)]], 3, 4⟩, 68719476736, 210329,
    3082430500717406331988917757797196968597942010299872487127625096647015138297870422144353102483, lc0⟩) (.out
    ⟨3265, 16, 40, 11309, 16, 6611, ⟨[[], [(343597383680, 0)]], 1, 1⟩, ⟨[[(0, 272971153400), (0, 3066440073759)],
    [(0, 156116718723), (0, 101508972)]], 1, 1⟩, 1099511627776, 0, 11262736020, ⟨[], 0, 0⟩, 0, 0, 0, lc0⟩ 0 1
    142852947363))))) (.sx (.sy (.leaf ⟨1555, 16, 20, 2973, 16, 3348, ⟨[[], [(343597383680, 0)]], 3, 4⟩, ⟨[[(0,
    55158843641), (3080944288254, 0), (28350372, 0), (933070, 0), (0, 892)], [(161372902608, 0), (213737252, 0),
    (78268, 0), (0, 345), (0, 1)], [(0, 9550956), (0, 31182), (0, 91)], [(0, 723), (0, 2)]], 3, 4⟩, 1099511627776, 0,
    1059848, ⟨[[(66693810524155, 0), (0, 10406209308), (2969563, 0), (16548, 0), (109, 0)], [(4919201864, 0),
    (1819628, 0), (20274, 0), (192, 0), (1, 0)], [(0, 1438195), (7630, 0), (117, 0), (1, 0)], [(1555, 0), (30, 0)]],
    3, 4⟩, 68719476736, 1500075,
    3181997015150553414117063523854279061881488671983356958782053889296237721640160576931059313745, lc0⟩) (.sx (.leaf
    ⟨3172, 16, 41, 3865, 16, 4333, ⟨[[(412316860416, 0)], [(352187318272, 0)]], 3, 4⟩, ⟨[[(0, 256421164768),
    (3981253855897, 0), (55880186, 0), (1191958, 0), (0, 1056)], [(105558228443, 0), (139893672, 0), (49467, 0), (0,
    231), (0, 1)], [(0, 3134467), (0, 10393), (0, 31)], [(0, 122)]], 3, 4⟩, 1099511627776, 0, 246695,
    ⟨[[(66516974835248, 0), (0, 7985628786), (2118588, 0), (9880, 0), (48, 0)], [(2423520719, 0), (870656, 0), (7822,
    0), (54, 0)], [(0, 323210), (1907, 0), (21, 0)], [(223, 0), (3, 0)]], 3, 4⟩, 68719476736, 641767,
    3961454706814383942339966477056607243997414067199144312637927915075836688391190404986843548544, lc0⟩) (.sy (.sx
    (.leaf ⟨6391, 16, 82, 7741, 16, 8676, ⟨[[(0, 137438953472)], [(352187318272, 0)]], 3, 4⟩, ⟨[[(397415040976, 0),
    (3995707739745, 0), (27020199, 0), (295703, 0), (0, 141)], [(105018549534, 0), (69206697, 0), (11524, 0), (0,
    30)], [(0, 1574187), (0, 2601), (0, 4)], [(0, 29)]], 3, 4⟩, 1099511627776, 0, 78915, ⟨[[(66565481121012, 0), (0,
    3975025982), (586026, 0), (1423, 0), (3, 0)], [(1204860876, 0), (245864, 0), (1126, 0), (4, 0)], [(0, 76158),
    (275, 0), (1, 0)], [(30, 0)]], 3, 4⟩, 68719476736, 110427,
    3470397012006006663101561807044201392118429288711606628981374594992798550602545555153079082197, lc0⟩) (.out
    ⟨6505, 16, 81, 14515, 16, 8505, ⟨[[(343597383680, 0)], [(347892350976, 0)]], 1, 1⟩, ⟨[[(265651486614, 0), (0,
    3923443516832)], [(0, 102651602633), (0, 67351722)]], 1, 1⟩, 1099511627776, 0, 3885989771, ⟨[], 0, 0⟩, 0, 0, 0,
    lc0⟩ 0 1 167554763047)) (.out ⟨3205, 16, 40, 11167, 16, 6551, ⟨[[], [(343597383680, 0)]], 1, 1⟩,
    ⟨[[(419284538160, 0), (0, 3019822298993)], [(0, 158989899496), (0, 104331271)]], 1, 1⟩, 1099511627776, 0,
    11495279618, ⟨[], 0, 0⟩, 0, 0, 0, lc0⟩ 0 1 227622848740)))) (.sy (.sx (.sy (.sx (.leaf ⟨6452, 16, 82, 7729, 16,
    8691, ⟨[[(412316860416, 0)], [(352187318272, 0)]], 3, 4⟩, ⟨[[(261338039455, 0), (4015257284647, 0), (18560475,
    0), (297554, 0), (0, 159)], [(103773024031, 0), (68065835, 0), (11164, 0), (0, 31)], [(0, 1562494), (0, 2541),
    (0, 4)], [(0, 28)]], 3, 4⟩, 1099511627776, 0, 63849, ⟨[[(66739418226798, 0), (0, 3982559024), (545648, 0), (1306,
    0), (3, 0)], [(1189550559, 0), (222789, 0), (1018, 0), (3, 0)], [(0, 77431), (245, 0), (1, 0)], [(28, 0)]], 3,
    4⟩, 68719476736, 96907,
    2556476412258142382786514325816348622748479185394430287480454295870099977454389679131565318792, lc0⟩) (.out
    ⟨6566, 16, 81, 14566, 16, 8520, ⟨[[(68719476736, 0)], [(347892350976, 0)]], 1, 1⟩, ⟨[[(0, 33326761772), (0,
    3942637742849)], [(0, 101436393533), (0, 66247142)]], 1, 1⟩, 1099511627776, 0, 3782207976, ⟨[], 0, 0⟩, 0, 0, 0,
    lc0⟩ 0 1 126223466524)) (.out ⟨3235, 16, 40, 11238, 16, 6581, ⟨[[], [(343597383680, 0)]], 1, 1⟩, ⟨[[(0,
    184408766384), (0, 3043100646158)], [(0, 157547436791), (0, 102902832)]], 1, 1⟩, 1099511627776, 0, 11380835614,
    ⟨[], 0, 0⟩, 0, 0, 0, lc0⟩ 0 1 185165218352)) (.out ⟨3265, 16, 40, 7259, 16, 4253, ⟨[[], [(343597383680, 0)]], 1,
    1⟩, ⟨[[(19391468669, 0), (0, 3945762264491)], [(0, 101021767415), (0, 130939385)]], 1, 1⟩, 1099511627776, 0,
    7836191620, ⟨[], 0, 0⟩, 0, 0, 0, lc0⟩ 0 1 293263659377)) (.out ⟨1625, 16, 20, 5585, 16, 3280, ⟨[[],
    [(343597383680, 0)]], 1, 1⟩, ⟨[[(140217462788, 0), (0, 3038692370930)], [(0, 157502561096), (0, 204130430)]], 1,
    1⟩, 1099511627776, 0, 23613297625, ⟨[], 0, 0⟩, 0, 0, 0, lc0⟩ 0 1 412871530336)))
theorem c95 : checkC job ⟨6, 8, 8, 10, 9, 13⟩ 3 100 lims t95 2576 48 32 57 3 1024 = true := by decide +kernel

def t96 : CTree :=
  .sy (.sx (.leaf ⟨1615, 16, 20, 1901, 16, 2189, ⟨[[], [(343597383680, 0)]], 3, 4⟩, ⟨[[(0, 262496659946),
    (4081356791531, 0), (0, 137573402), (5316890, 0), (0, 13076)], [(98753471022, 0), (258187982, 0), (206281, 0),
    (0, 1449), (0, 17)], [(0, 5859379), (0, 35089), (0, 178), (0, 2)], [(0, 366), (0, 1)]], 3, 4⟩, 1099511627776, 0,
    613940, ⟨[[(67670116128426, 0), (0, 16250848153), (3997879, 0), (17338, 0), (241, 0)], [(4660627580, 0),
    (1238536, 0), (11163, 0), (256, 0), (3, 0)], [(0, 1509399), (2011, 0), (97, 0), (1, 0)], [(666, 0), (16, 0)]], 3,
    4⟩, 68719476736, 3915148,
    1775326353881882218186194817900633798083947163870189191624622452295492161661932031550410217414, lc0⟩) (.leaf
    ⟨1645, 16, 20, 1908, 16, 2187, ⟨[[], [(343597383680, 0)]], 3, 4⟩, ⟨[[(0, 451138206807), (4102067237400, 0), (0,
    119330219), (5157633, 0), (0, 14770)], [(97529467872, 0), (251193960, 0), (171067, 0), (0, 1773), (0, 18)], [(0,
    5954525), (0, 35321), (0, 187), (0, 2)], [(0, 332), (0, 1)]], 3, 4⟩, 1099511627776, 0, 657304,
    ⟨[[(67667186847281, 0), (0, 16141730158), (5295949, 0), (39908, 0), (450, 0)], [(4585857898, 0), (1808361, 0),
    (28562, 0), (476, 0), (4, 0)], [(0, 1402449), (6282, 0), (176, 0), (2, 0)], [(974, 0), (28, 0)]], 3, 4⟩,
    68719476736, 5482331,
    2914078756736975821959793234437537915974135967588968905964150624597979870688616055565694593551, lc0⟩)) (.sx (.sy
    (.leaf ⟨1615, 16, 20, 2984, 16, 3407, ⟨[[], [(343597383680, 0)]], 3, 4⟩, ⟨[[(412164601702, 0), (3175433608696,
    0), (0, 26222438), (988334, 0), (0, 1283)], [(155516328293, 0), (202295667, 0), (71844, 0), (0, 342), (0, 2)],
    [(0, 9371256), (0, 28633), (0, 78)], [(0, 579), (0, 1)]], 3, 4⟩, 1099511627776, 0, 903992, ⟨[[(67407636890865,
    0), (0, 10345939759), (2193492, 0), (10301, 0), (74, 0)], [(4684948437, 0), (1190580, 0), (11751, 0), (125, 0),
    (1, 0)], [(0, 1444942), (4100, 0), (74, 0), (1, 0)], [(1023, 0), (19, 0)]], 3, 4⟩, 68719476736, 1667519,
    1868389821722663648287177531605700196007184509185028430336265041034436298487018650586647300726, lc0⟩) (.leaf
    ⟨1615, 16, 20, 2991, 16, 3395, ⟨[[], [(343597383680, 0)]], 3, 4⟩, ⟨[[(142891244640, 0), (3164040922098, 0), (0,
    8678523), (954244, 0), (0, 1270)], [(156180575379, 0), (202404064, 0), (65112, 0), (0, 379), (0, 2)], [(0,
    9512322), (0, 29504), (0, 84)], [(0, 584), (0, 1)]], 3, 4⟩, 1099511627776, 0, 975831, ⟨[[(67226578724794, 0), (0,
    10293782292), (2914349, 0), (16846, 0), (110, 0)], [(4710250551, 0), (1742644, 0), (19978, 0), (187, 0), (1, 0)],
    [(0, 1346677), (7318, 0), (110, 0), (1, 0)], [(1421, 0), (27, 0)]], 3, 4⟩, 68719476736, 1458368,
    3347770008033616734528578841654277878533935430720683203297678031477718347250413374665451310782, lc0⟩)) (.sy (.sx
    (.leaf ⟨3357, 16, 41, 3840, 16, 4369, ⟨[[(0, 137438953472)], [(352187318272, 0)]], 3, 4⟩, ⟨[[(49307820790, 0),
    (4090535650871, 0), (0, 27519775), (1233558, 0), (0, 1801)], [(98843067429, 0), (127053968, 0), (38704, 0), (0,
    251), (0, 1)], [(0, 3042971), (0, 9248), (0, 26)], [(0, 86)]], 3, 4⟩, 1099511627776, 0, 139299,
    ⟨[[(67404789190727, 0), (0, 8000504049), (1816097, 0), (8418, 0), (42, 0)], [(2262433600, 0), (678393, 0), (6179,
    0), (44, 0)], [(0, 310127), (1404, 0), (16, 0)], [(165, 0), (2, 0)]], 3, 4⟩, 68719476736, 592729,
    2132191365600880295331771214101195596568740080801191627314597289636919245500010680087287516843, lc0⟩) (.sy (.leaf
    ⟨3388, 16, 41, 6021, 16, 6845, ⟨[[(0, 412316860416)], [(352187318272, 0)]], 3, 4⟩, ⟨[[(0, 14009633721),
    (3213913001750, 0), (0, 11558472), (238890, 0), (0, 187)], [(153646109062, 0), (98054658, 0), (13650, 0), (0,
    52)], [(0, 4783614), (0, 7212), (0, 10)], [(0, 128)]], 3, 4⟩, 1099511627776, 0, 171745, ⟨[[(67450234183562, 0),
    (0, 5084109926), (862618, 0), (2729, 0), (8, 0)], [(2246129223, 0), (522523, 0), (3145, 0), (14, 0)], [(0,
    288905), (1124, 0), (8, 0)], [(189, 0), (2, 0)]], 3, 4⟩, 68719476736, 180899,
    2675349025535167777155534644588764552242020969951133212347716664686517674680834798433973805420, lc0⟩) (.out
    ⟨3385, 16, 40, 11516, 16, 6704, ⟨[[], [(343597383680, 0)]], 1, 1⟩, ⟨[[(288396533858, 0), (0, 3147598946482)],
    [(0, 151057835401), (0, 96189631)]], 1, 1⟩, 1099511627776, 0, 11120573456, ⟨[], 0, 0⟩, 0, 0, 0, lc0⟩ 0 1
    158797724112))) (.sx (.sy (.leaf ⟨3357, 16, 41, 6017, 16, 6816, ⟨[[(0, 137438953472)], [(352187318272, 0)]], 3,
    4⟩, ⟨[[(0, 105805541293), (3190651079680, 0), (0, 4323494), (234248, 0), (0, 175)], [(155096481988, 0),
    (99366824, 0), (13720, 0), (0, 53)], [(0, 4813050), (0, 7402), (0, 11)], [(0, 135)]], 3, 4⟩, 1099511627776, 0,
    202467, ⟨[[(67270559531353, 0), (0, 5083880706), (953537, 0), (3081, 0), (9, 0)], [(2275844825, 0), (594954, 0),
    (3601, 0), (15, 0)], [(0, 281401), (1304, 0), (9, 0)], [(213, 0), (2, 0)]], 3, 4⟩, 68719476736, 190852,
    3996369642460884710221761534358220513993008113148788756324457032308803261960303317798885735215, lc0⟩) (.out
    ⟨3355, 16, 40, 11446, 16, 6675, ⟨[[], [(343597383680, 0)]], 1, 1⟩, ⟨[[(0, 533678126210), (0, 3124621113348)],
    [(0, 152472399999), (0, 97466817)]], 1, 1⟩, 1099511627776, 0, 11128034799, ⟨[], 0, 0⟩, 0, 0, 0, lc0⟩ 0 1
    204625519937)) (.out ⟨3385, 16, 40, 7326, 16, 4274, ⟨[[], [(343597383680, 0)]], 1, 1⟩, ⟨[[(0, 510870906237), (0,
    4013282848400)], [(0, 96856406474), (0, 122915570)]], 1, 1⟩, 1099511627776, 0, 7297010746, ⟨[], 0, 0⟩, 0, 0, 0,
    lc0⟩ 0 1 306325687517))))
theorem c96 : checkC job ⟨6, 8, 8, 10, 9, 13⟩ 3 100 lims t96 2672 48 32 51 3 1024 = true := by decide +kernel

def t97 : CTree :=
  .sy (.sx (.sy (.leaf ⟨1675, 16, 20, 3006, 16, 3441, ⟨[[], [(343597383680, 0)]], 3, 4⟩, ⟨[[(0, 173898377558),
    (3246059986539, 0), (0, 50054265), (997157, 0), (0, 1623)], [(151062649375, 0), (191936830, 0), (56465, 0), (0,
    395), (0, 2)], [(0, 9428489), (0, 27454), (0, 74)], [(0, 468)]], 3, 4⟩, 1099511627776, 0, 868689,
    ⟨[[(67762938901196, 0), (0, 10199615385), (2736616, 0), (16036, 0), (105, 0)], [(4510484427, 0), (1578106, 0),
    (18343, 0), (172, 0), (1, 0)], [(0, 1282781), (6517, 0), (99, 0), (1, 0)], [(1240, 0), (24, 0)]], 3, 4⟩,
    68719476736, 1505761,
    3258932209396646225598241850818028898051215924615699273167598065867543020668020136226663439682, lc0⟩) (.sx (.leaf
    ⟨3418, 16, 41, 3839, 16, 4374, ⟨[[(412316860416, 0)], [(352187318272, 0)]], 3, 4⟩, ⟨[[(150677198212, 0),
    (4119679542093, 0), (0, 42809971), (1230922, 0), (0, 2024)], [(97036447503, 0), (123257438, 0), (33554, 0), (0,
    269), (0, 1)], [(0, 3038553), (0, 9010), (0, 25)], [(0, 77)]], 3, 4⟩, 1099511627776, 0, 128205,
    ⟨[[(67584602363093, 0), (0, 7967555450), (2077035, 0), (10318, 0), (50, 0)], [(2222044709, 0), (792705, 0),
    (7505, 0), (52, 0)], [(0, 286895), (1695, 0), (19, 0)], [(181, 0), (3, 0)]], 3, 4⟩, 68719476736, 634498,
    3575296234155163988617972586013220120648540340547945731016102663951955065782426547159006432496, lc0⟩) (.out
    ⟨3445, 16, 40, 7377, 16, 4288, ⟨[[], [(343597383680, 0)]], 1, 1⟩, ⟨[[(0, 147454819746), (0, 4050198500945)], [(0,
    94554578140), (0, 119136371)]], 1, 1⟩, 1099511627776, 0, 7490080198, ⟨[], 0, 0⟩, 0, 0, 0, lc0⟩ 0 1
    204075835304))) (.sy (.sx (.sy (.leaf ⟨3480, 16, 41, 6045, 16, 6908, ⟨[[(0, 137438953472)], [(352187318272, 0)]],
    3, 4⟩, ⟨[[(260758183703, 0), (3272198488676, 0), (0, 25471679), (245274, 0), (0, 221)], [(149980495914, 0),
    (94275667, 0), (11946, 0), (0, 55)], [(0, 4760035), (0, 6837), (0, 9)], [(0, 107)]], 3, 4⟩, 1099511627776, 0,
    158846, ⟨[[(67812085998376, 0), (0, 5043899350), (877521, 0), (2850, 0), (9, 0)], [(2178052112, 0), (526035, 0),
    (3214, 0), (14, 0)], [(0, 273104), (1128, 0), (8, 0)], [(181, 0), (2, 0)]], 3, 4⟩, 68719476736, 173343,
    2971630747063517910569069105564770237998232016433295553865556773919645789529723623080636868199, lc0⟩) (.out
    ⟨3475, 16, 40, 11655, 16, 6767, ⟨[[], [(343597383680, 0)]], 1, 1⟩, ⟨[[(0, 151906746192), (0, 3205135600935)],
    [(0, 147473744265), (0, 92485913)]], 1, 1⟩, 1099511627776, 0, 11180518279, ⟨[], 0, 0⟩, 0, 0, 0, lc0⟩ 0 1
    200283561885)) (.out ⟨3505, 16, 40, 7391, 16, 4293, ⟨[[], [(343597383680, 0)]], 1, 1⟩, ⟨[[(319133925935, 0), (0,
    4078034210067)], [(0, 92809488866), (0, 115618119)]], 1, 1⟩, 1099511627776, 0, 7608140814, ⟨[], 0, 0⟩, 0, 0, 0,
    lc0⟩ 0 1 303220993806)) (.out ⟨1745, 16, 20, 5795, 16, 3374, ⟨[[], [(343597383680, 0)]], 1, 1⟩, ⟨[[(0,
    257715157900), (0, 3200240988517)], [(0, 147433613320), (0, 183470070)]], 1, 1⟩, 1099511627776, 0, 22855681810,
    ⟨[], 0, 0⟩, 0, 0, 0, lc0⟩ 0 1 430700973894))) (.out ⟨865, 16, 10, 2865, 16, 1674, ⟨[[], [(343597383680, 0)]], 1,
    1⟩, ⟨[[(328645023819, 0), (0, 3166463306125)], [(0, 148868150230), (0, 370626806)]], 1, 1⟩, 1099511627776, 0,
    47241245315, ⟨[], 0, 0⟩, 0, 0, 0, lc0⟩ 0 1 597405202001)
theorem c97 : checkC job ⟨6, 8, 8, 10, 9, 13⟩ 3 100 lims t97 2768 48 32 51 3 1024 = true := by decide +kernel

def t98 : CTree :=
  .sx (.sy (.sx (.sy (.sx (.sy (.leaf ⟨3295, 16, 41, 5992, 16, 6780, ⟨[[(412316860416, 0)], [(352187318272, 0)]], 3,
    4⟩, ⟨[[(497359294882, 0), (3154479082651, 0), (1280075, 0), (234928, 0), (0, 152)], [(157322657833, 0),
    (102058222, 0), (15985, 0), (0, 49)], [(0, 4794850), (0, 7533), (0, 11)], [(0, 151)]], 3, 4⟩, 1099511627776, 0,
    190074, ⟨[[(67093491298415, 0), (0, 5132632943), (818017, 0), (2477, 0), (8, 0)], [(2316278409, 0), (495873, 0),
    (2911, 0), (13, 0)], [(0, 310691), (1057, 0), (8, 0)], [(189, 0), (2, 0)]], 3, 4⟩, 68719476736, 161020,
    2093579025630861871468921135561463844965656672514336231493420855657891591316577907071247273188, lc0⟩) (.sx (.leaf
    ⟨6575, 16, 82, 7718, 16, 8712, ⟨[[(412316860416, 0)], [(352187318272, 0)]], 3, 4⟩, ⟨[[(0, 305329177690),
    (4050259425629, 0), (6562882, 0), (298771, 0), (0, 190)], [(101619215728, 0), (65926175, 0), (10042, 0), (0,
    32)], [(0, 1551404), (0, 2458), (0, 4)], [(0, 25)]], 3, 4⟩, 1099511627776, 0, 63687, ⟨[[(67002145493451, 0), (0,
    3978126759), (550932, 0), (1345, 0), (3, 0)], [(1164262631, 0), (221583, 0), (1027, 0), (3, 0)], [(0, 74652),
    (243, 0), (1, 0)], [(27, 0)]], 3, 4⟩, 68719476736, 102376,
    2571892070325462971357761528827123919468180885568708942276575909506357790122178830032639425664, lc0⟩) (.out
    ⟨6688, 16, 81, 14632, 16, 8541, ⟨[[(0, 481036337152)], [(347892350976, 0)]], 1, 1⟩, ⟨[[(0, 355903729910), (0,
    3976942981392)], [(0, 99331936394), (0, 64168572)]], 1, 1⟩, 1099511627776, 0, 3646296795, ⟨[], 0, 0⟩, 0, 0, 0,
    lc0⟩ 0 1 137794750056))) (.out ⟨3325, 16, 40, 7311, 16, 4268, ⟨[[], [(343597383680, 0)]], 1, 1⟩, ⟨[[(0,
    545537657046), (0, 3983755676272)], [(0, 98642347662), (0, 126766561)]], 1, 1⟩, 1099511627776, 0, 7396590522,
    ⟨[], 0, 0⟩, 0, 0, 0, lc0⟩ 0 1 200163374451)) (.out ⟨1655, 16, 20, 5656, 16, 3310, ⟨[[], [(343597383680, 0)]], 1,
    1⟩, ⟨[[(99530889272, 0), (0, 3085013760172)], [(0, 154646819056), (0, 198689698)]], 1, 1⟩, 1099511627776, 0,
    23096759638, ⟨[], 0, 0⟩, 0, 0, 0, lc0⟩ 0 1 328911888679)) (.out ⟨1685, 16, 20, 3633, 16, 2128, ⟨[[],
    [(343597383680, 0)]], 1, 1⟩, ⟨[[(129917442084, 0), (0, 3990684996369)], [(0, 97851985967), (0, 247544905)]], 1,
    1⟩, 1099511627776, 0, 15802563028, ⟨[], 0, 0⟩, 0, 0, 0, lc0⟩ 0 1 538535416681)) (.out ⟨835, 16, 10, 2795, 16,
    1645, ⟨[[], [(343597383680, 0)]], 1, 1⟩, ⟨[[(24909460341, 0), (0, 3076450464707)], [(0, 154542989111), (0,
    390241433)]], 1, 1⟩, 1099511627776, 0, 49539989954, ⟨[], 0, 0⟩, 0, 0, 0, lc0⟩ 0 1 778196762474)) (.out ⟨865, 16,
    10, 1795, 16, 1058, ⟨[[], [(343597383680, 0)]], 1, 1⟩, ⟨[[(0, 504046220687), (0, 4003266818371)], [(0,
    96199044800), (0, 469481601)]], 1, 1⟩, 1099511627776, 0, 35385367290, ⟨[], 0, 0⟩, 0, 0, 0, lc0⟩ 0 1
    1173020747232)
theorem c98 : checkC job ⟨6, 8, 8, 10, 9, 13⟩ 3 100 lims t98 1360 48 16 57 3 1024 = true := by decide +kernel

def t99 : CTree :=
  .sx (.leaf ⟨1495, 16, 20, 1926, 16, 2160, ⟨[[], [(343597383680, 0)]], 3, 4⟩, ⟨[[(437219400987, 0), (3922239808524,
    0), (138480806, 0), (4905289, 0), (0, 5770)], [(108620491493, 0), (294961289, 0), (257592, 0), (0, 1477), (0,
    10)], [(0, 6170674), (0, 41607), (0, 244), (0, 2)], [(0, 572), (0, 5)]], 3, 4⟩, 1099511627776, 0, 826269,
    ⟨[[(66264436053448, 0), (0, 16178596322), (5901556, 0), (41427, 0), (456, 0)], [(5122897828, 0), (2273999, 0),
    (33434, 0), (537, 0), (5, 0)], [(0, 1620895), (8156, 0), (221, 0), (3, 0)], [(1355, 0), (39, 0), (1, 0)]], 3, 4⟩,
    68719476736, 5913407,
    3407340304818384753531685606907138506671148745149649062852632322924203060614997846532632845248, lc0⟩) (.sy (.sx
    (.leaf ⟨3111, 16, 41, 3863, 16, 4328, ⟨[[(0, 137438953472)], [(352187318272, 0)]], 3, 4⟩, ⟨[[(379394583000, 0),
    (3950126354330, 0), (67172133, 0), (1209810, 0), (0, 850)], [(107489005729, 0), (144378405, 0), (57401, 0), (0,
    207), (0, 1)], [(0, 3119691), (0, 10475), (0, 31)], [(0, 134), (0, 1)]], 3, 4⟩, 1099511627776, 0, 288055,
    ⟨[[(66348117458467, 0), (0, 8033070814), (1770309, 0), (7395, 0), (38, 0)], [(2466984623, 0), (702072, 0), (5887,
    0), (43, 0)], [(0, 356976), (1435, 0), (17, 0)], [(192, 0), (3, 0)]], 3, 4⟩, 68719476736, 510003,
    1775894148418040006913056241134199720346018317616120049009693625806280322543930471771416843759, lc0⟩) (.sy (.leaf
    ⟨3142, 16, 41, 5946, 16, 6654, ⟨[[(0, 412316860416)], [(352187318272, 0)]], 3, 4⟩, ⟨[[(0, 329915759350),
    (3046942044812, 0), (25763658, 0), (229560, 0), (0, 90)], [(164002252921, 0), (109309303, 0), (20123, 0), (0,
    43)], [(0, 4830346), (0, 8093), (0, 12)], [(0, 198)]], 3, 4⟩, 1099511627776, 0, 248315, ⟨[[(66388321662639, 0),
    (0, 5198019669), (885991, 0), (2652, 0), (8, 0)], [(2449159551, 0), (563015, 0), (3258, 0), (15, 0)], [(0,
    330181), (1232, 0), (9, 0)], [(226, 0), (2, 0)]], 3, 4⟩, 68719476736, 206625,
    2745121332451283364912327420971047394328774679706952223345700239224131535960367407775297973900, lc0⟩) (.sx (.leaf
    ⟨6268, 16, 82, 7750, 16, 8654, ⟨[[(0, 137438953472)], [(352187318272, 0)]], 3, 4⟩, ⟨[[(0, 271038012276),
    (3959773450194, 0), (38243787, 0), (297191, 0), (0, 110)], [(107227329230, 0), (71493009, 0), (12963, 0), (0,
    28)], [(0, 1581773), (0, 2670), (0, 4)], [(0, 33)]], 3, 4⟩, 1099511627776, 0, 47852, ⟨[[(66301637095099, 0), (0,
    3981994589), (571872, 0), (1357, 0), (3, 0)], [(1231031501, 0), (242866, 0), (1095, 0), (4, 0)], [(0, 79699),
    (272, 0), (1, 0)], [(31, 0)]], 3, 4⟩, 68719476736, 103572,
    3128688901873615655301468448685295185060325184096392099660898346493324752065008659322945881731, lc0⟩) (.out
    ⟨6384, 16, 81, 14452, 16, 8484, ⟨[[(0, 206158430208)], [(347892350976, 0)]], 1, 1⟩, ⟨[[(0, 309886079310), (0,
    3888691608660)], [(0, 104822325637), (0, 69584267)]], 1, 1⟩, 1099511627776, 0, 4008191884, ⟨[], 0, 0⟩, 0, 0, 0,
    lc0⟩ 0 1 142409778905)))) (.sx (.sy (.leaf ⟨3111, 16, 41, 5938, 16, 6624, ⟨[[(0, 137438953472)], [(352187318272,
    0)]], 3, 4⟩, ⟨[[(0, 449330449070), (3023351007907, 0), (31912289, 0), (228624, 0), (0, 76)], [(165507943245, 0),
    (110871044, 0), (20864, 0), (0, 42)], [(0, 4847804), (0, 8235), (0, 12)], [(0, 209)]], 3, 4⟩, 1099511627776, 0,
    311734, ⟨[[(66213857562628, 0), (0, 5205260057), (944601, 0), (2876, 0), (9, 0)], [(2480641192, 0), (613883, 0),
    (3577, 0), (16, 0)], [(0, 327611), (1369, 0), (10, 0)], [(246, 0), (2, 0)]], 3, 4⟩, 68719476736, 204984,
    3522351489638131545017229523765095088089143379268289036211576797109973042877574552006190841585, lc0⟩) (.sx (.out
    ⟨6293, 16, 81, 14415, 16, 8471, ⟨[[(0, 343597383680)], [(347892350976, 0)]], 1, 1⟩, ⟨[[(0, 60499593262), (0,
    3863470347563)], [(0, 106404553215), (0, 71306935)]], 1, 1⟩, 1099511627776, 0, 4072908283, ⟨[], 0, 0⟩, 0, 0, 0,
    lc0⟩ 0 1 97674194083) (.out ⟨6323, 16, 81, 14401, 16, 8468, ⟨[[(68719476736, 0)], [(347892350976, 0)]], 1, 1⟩,
    ⟨[[(0, 477202025640), (0, 3868920473812)], [(0, 106066339476), (0, 70767087)]], 1, 1⟩, 1099511627776, 0,
    4104975737, ⟨[], 0, 0⟩, 0, 0, 0, lc0⟩ 0 1 175057799432))) (.out ⟨3145, 16, 40, 7195, 16, 4232, ⟨[[],
    [(343597383680, 0)]], 1, 1⟩, ⟨[[(267856146831, 0), (0, 3876940325297)], [(0, 105352423101), (0, 139773234)]], 1,
    1⟩, 1099511627776, 0, 8354289157, ⟨[], 0, 0⟩, 0, 0, 0, lc0⟩ 0 1 250393890961)))
theorem c99 : checkC job ⟨6, 8, 8, 10, 9, 13⟩ 3 100 lims t99 2480 48 32 123 3 2048 = true := by decide +kernel

end PyX.Kron.T2b
