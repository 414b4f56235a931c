import Verif.Lemmas.T2cJob

/-!
# Temperature from pressure and enthalpy in subregion 2c, part F of the certificate
-/

namespace PyX.Kron.T2c

set_option Elab.async false

def t82 : CTree :=
  .sy (.sx (.leaf ⟨905, 16, 10, 181, 16, 526, ⟨[[], [(343597383680, 0)]], 3, 4⟩, ⟨[[(289825906075, 0),
    (4101926477921, 0), (11514413263, 0), (61527040, 0), (2813379, 0)], [(92818492337, 0), (713180754, 0), (0,
    14073880), (0, 75957), (20701, 0)], [(0, 24375532), (0, 1195027), (0, 12138), (1477, 0), (0, 12)], [(0, 8967),
    (237, 0), (67, 0), (1, 0)]], 3, 4⟩, 1099511627776, 0, 256756730, ⟨[[(57411814267061, 0), (0, 46478067310),
    (73938063, 0), (0, 120290), (78, 0)], [(12552825726, 0), (0, 12837280), (0, 159424), (0, 274), (5, 0)], [(0,
    12150582), (0, 13036), (112, 0)], [(10567, 0), (33, 0)]], 3, 4⟩, 68719476736, 25639141,
    3995958885545878341477102574931987940032098343576589413685782459446168518093994455064858770258, lc0⟩) (.leaf
    ⟨935, 16, 10, 190, 16, 529, ⟨[[], [(343597383680, 0)]], 3, 4⟩, ⟨[[(259283458010, 0), (4183425173726, 0),
    (10169888358, 0), (68423401, 0), (4258718, 0)], [(88428461949, 0), (497762966, 0), (0, 14590387), (203117, 0),
    (3043, 0)], [(0, 26527533), (0, 1061282), (7408, 0), (1162, 0), (0, 198)], [(0, 4828), (716, 0), (61, 0), (0, 4),
    (0, 1)]], 3, 4⟩, 1099511627776, 0, 490536206, ⟨[[(57410666412012, 0), (0, 45540285797), (65632917, 0), (0,
    108190), (836, 0)], [(11734410291, 0), (0, 15897058), (0, 154249), (13, 0), (11, 0)], [(0, 11323019), (0, 8311),
    (124, 0), (1, 0)], [(9723, 0), (30, 0)]], 3, 4⟩, 68719476736, 29022686,
    3928752524927670512432621797883676704782904171093664583953688992194325736765514084249723073412, lc0⟩)) (.sx
    (.leaf ⟨905, 16, 10, 197, 16, 507, ⟨[[], [(343597383680, 0)]], 3, 4⟩, ⟨[[(0, 363121664900), (4095372114761, 0),
    (12506438449, 0), (38837521, 0), (0, 13229840)], [(93091798601, 0), (514715531, 0), (0, 18267105), (0, 1238433),
    (0, 174947)], [(0, 30671267), (0, 1268252), (0, 31015), (0, 6327), (0, 586)], [(0, 5512), (544, 0), (0, 72), (0,
    16), (1, 0)]], 3, 4⟩, 1099511627776, 0, 1547096138, ⟨[[(56364024314135, 0), (0, 44817531152), (71837221, 0), (0,
    108845), (0, 1262)], [(12164187899, 0), (0, 21111860), (0, 164154), (485, 0)], [(0, 12385206), (0, 6535), (222,
    0), (3, 0)], [(11351, 0), (36, 0)]], 3, 4⟩, 68719476736, 157642436,
    2691022960409612673993898721976761440454752206598151562375651395246951802053024745502552597511, lc0⟩) (.leaf
    ⟨935, 16, 10, 207, 16, 513, ⟨[[], [(343597383680, 0)]], 3, 4⟩, ⟨[[(0, 46305247672), (4182458874856, 0),
    (10503721751, 0), (0, 152077365), (0, 34324107)], [(88131730778, 0), (287762807, 0), (0, 27443890), (0, 2819797),
    (0, 228350)], [(0, 31866040), (0, 1162713), (0, 66016), (0, 8838), (417, 0)], [(0, 563), (167, 0), (0, 154), (8,
    0), (8, 0)]], 3, 4⟩, 1099511627776, 0, 3324786784, ⟨[[(56377403059316, 0), (0, 43938247712), (62616694, 0), (0,
    191897), (0, 6045)], [(11280043762, 0), (0, 23306407), (0, 134830), (255, 0), (0, 29)], [(0, 11426763), (790, 0),
    (299, 0), (2, 0)], [(10483, 0), (38, 0)]], 3, 4⟩, 68719476736, 293162553,
    3477653929730545821943265574211259635290139842050249085356971518302738407224838940094888439392, lc0⟩))
theorem c82 : checkC job ⟨6, 8, 8, 10, 9, 13⟩ 1 25 lims t82 1072 48 16 39 3 256 = true := by decide +kernel

def t83 : CTree :=
  .sy (.leaf ⟨905, 16, 10, 331, 16, 785, ⟨[[], [(343597383680, 0)]], 3, 4⟩, ⟨[[(0, 209420137346), (3252887916859, 0),
    (3809186978, 0), (0, 100120211), (0, 3186303)], [(146846697187, 0), (156895331, 0), (0, 22069289), (0, 594095),
    (42990, 0)], [(0, 58341098), (0, 1507231), (0, 26687), (4506, 0), (766, 0)], [(0, 6995), (533, 0), (239, 0), (47,
    0), (4, 0)]], 3, 4⟩, 1099511627776, 0, 1365571584, ⟨[[(55631479117784, 0), (0, 27490922304), (24564724, 0), (0,
    144329), (0, 2139)], [(11765187619, 0), (0, 17095841), (0, 72035), (0, 444), (0, 12)], [(0, 12421179), (1705, 0),
    (117, 0), (0, 1)], [(12025, 0), (29, 0)]], 3, 4⟩, 68719476736, 29943756,
    3966669391478166713971342107429661667414425769712920757929521024770263513793421111036239968377, lc0⟩) (.sy (.sx
    (.leaf ⟨1795, 16, 20, 678, 16, 1560, ⟨[[], [(343597383680, 0)]], 3, 4⟩, ⟨[[(0, 510756983810), (3260054256626, 0),
    (1435379893, 0), (0, 25837017), (579886, 0)], [(149245331289, 0), (8798968, 0), (0, 5711310), (124785, 0),
    (14498, 0)], [(0, 32277286), (0, 369815), (12023, 0), (1482, 0), (73, 0)], [(0, 502), (595, 0), (73, 0), (5,
    0)]], 3, 4⟩, 1099511627776, 0, 155893553, ⟨[[(55266601824422, 0), (0, 13538499162), (4929337, 0), (0, 29116), (0,
    126)], [(5885602069, 0), (0, 4730941), (0, 11974), (0, 59)], [(0, 3168459), (381, 0), (5, 0)], [(1581, 0), (2,
    0)]], 3, 4⟩, 68719476736, 1880627,
    3678474313212909111134252510629290722077327935759645314414957076426173434740757227969133583549, lc0⟩) (.leaf
    ⟨1825, 16, 20, 703, 16, 1588, ⟨[[], [(343597383680, 0)]], 3, 4⟩, ⟨[[(0, 345073146472), (3316660415852, 0),
    (1097015862, 0), (4773598, 0), (2873717, 0)], [(145643507194, 0), (0, 39395033), (0, 745980), (581200, 0),
    (35038, 0)], [(0, 32311699), (0, 82679), (44540, 0), (3420, 0), (144, 0)], [(4825, 0), (1539, 0), (158, 0), (9,
    0)]], 3, 4⟩, 1099511627776, 0, 288662345, ⟨[[(55268591652804, 0), (0, 13340966924), (3182762, 0), (0, 33838), (0,
    30)], [(5638422133, 0), (0, 4941466), (0, 13846), (0, 71)], [(0, 3022127), (628, 0), (2, 0)], [(1527, 0), (2,
    0)]], 3, 4⟩, 68719476736, 3956181,
    4655652668387525091724447523062474217732135287905022701448848781230920807925838157608156050591, lc0⟩)) (.sx
    (.leaf ⟨1795, 16, 20, 694, 16, 1556, ⟨[[], [(343597383680, 0)]], 3, 4⟩, ⟨[[(0, 455671275346), (3267047725244, 0),
    (1253855785, 0), (17662794, 0), (3530337, 0)], [(148761005969, 0), (0, 29220511), (1212396, 0), (749362, 0),
    (41256, 0)], [(0, 33543512), (13799, 0), (59978, 0), (4237, 0), (169, 0)], [(6961, 0), (2158, 0), (207, 0), (11,
    0)]], 3, 4⟩, 1099511627776, 0, 387209923, ⟨[[(55027216876390, 0), (0, 13427488613), (3224272, 0), (0, 33701),
    (45, 0)], [(5797319984, 0), (0, 5232003), (0, 15612), (0, 68)], [(0, 3160624), (478, 0), (1, 0)], [(1616, 0), (2,
    0)]], 3, 4⟩, 68719476736, 5760971,
    5165977685668819949545601464966944214325079485225822342824132100757800219880452342712496353857, lc0⟩) (.sy (.leaf
    ⟨1825, 16, 20, 1012, 16, 2243, ⟨[[], [(343597383680, 0)]], 3, 4⟩, ⟨[[(0, 301092017231), (2350487842666, 0),
    (586788981, 0), (16282432, 0), (648504, 0)], [(205543595547, 0), (3299263, 0), (4447981, 0), (265186, 0), (6244,
    0)], [(0, 44355929), (414911, 0), (39675, 0), (1232, 0), (23, 0)], [(22465, 0), (2566, 0), (114, 0), (3, 0)]], 3,
    4⟩, 1099511627776, 0, 517825453, ⟨[[(55089302303289, 0), (0, 9397320854), (931765, 0), (0, 10392), (59, 0)],
    [(5569146241, 0), (0, 3788919), (0, 8256), (0, 18)], [(0, 3013535), (449, 0), (0, 1)], [(1553, 0), (1, 0)]], 3,
    4⟩, 68719476736, 1838210,
    5017175262272619649679944601774549223885155753056355356233062292380695788208651433436755151250, lc0⟩) (.sx (.leaf
    ⟨3726, 16, 41, 1436, 16, 3158, ⟨[[(0, 137438953472)], [(352187318272, 0)]], 3, 4⟩, ⟨[[(200637100629, 0),
    (3320315796464, 0), (1163724096, 0), (38063686, 0), (1246947, 0)], [(146274001666, 0), (33899240, 0), (5518564,
    0), (259196, 0), (5689, 0)], [(0, 15100290), (268232, 0), (19590, 0), (571, 0), (10, 0)], [(6025, 0), (635, 0),
    (27, 0), (1, 0)]], 3, 4⟩, 1099511627776, 0, 61034834, ⟨[[(54973439594041, 0), (0, 6644588549), (391550, 0), (0,
    2771), (26, 0)], [(2723709905, 0), (0, 1361323), (0, 2111), (0, 2)], [(0, 724597), (69, 0)], [(184, 0)]], 3, 4⟩,
    68719476736, 425333,
    3485654051268448066239585637519716494903338733614179133990364808443816539781491413688364802137, lc0⟩) (.sy (.leaf
    ⟨3757, 16, 41, 2066, 16, 4518, ⟨[[(0, 412316860416)], [(352187318272, 0)]], 3, 4⟩, ⟨[[(317063473848, 0),
    (2375882440489, 0), (577518559, 0), (10391183, 0), (150187, 0)], [(205201869119, 0), (55365047, 0), (3026346, 0),
    (61365, 0), (644, 0)], [(0, 19448985), (290495, 0), (9045, 0), (127, 0), (1, 0)], [(11402, 0), (566, 0), (12,
    0)]], 3, 4⟩, 1099511627776, 0, 80729785, ⟨[[(55003064658334, 0), (0, 4670548235), (131860, 0), (0, 594), (9, 0)],
    [(2668186035, 0), (0, 972434), (0, 1043)], [(0, 707085), (54, 0)], [(180, 0)]], 3, 4⟩, 68719476736, 125661,
    4337112763620604014129799909221180052560750975263466560343759155258189007962005090929805921127, lc0⟩) (.sx (.leaf
    ⟨7498, 16, 82, 2916, 16, 6349, ⟨[[(0, 137438953472)], [(352187318272, 0)]], 3, 4⟩, ⟨[[(0, 421837693207),
    (3347246856606, 0), (988698412, 0), (17812277, 0), (243174, 0)], [(145104804347, 0), (56386917, 0), (2633753, 0),
    (50100, 0), (511, 0)], [(0, 6463242), (127802, 0), (3717, 0), (51, 0)], [(2426, 0), (117, 0), (2, 0)]], 3, 4⟩,
    1099511627776, 0, 8966880, ⟨[[(54939490171756, 0), (0, 3316339211), (65324, 0), (0, 78), (3, 0)], [(1335320652,
    0), (0, 352988), (0, 261)], [(0, 177738), (9, 0)], [(23, 0)]], 3, 4⟩, 68719476736, 31003,
    4510614897735560906057646876422885336200383930143750037108186144904787138141661499143136898037, lc0⟩) (.sy (.sx
    (.leaf ⟨15134, 16, 165, 5862, 16, 12744, ⟨[[(0, 446676598784)], [(354334801920, 0)]], 3, 4⟩, ⟨[[(215636381187,
    0), (3360691990002, 0), (554311349, 0), (5030176, 0), (33391, 0)], [(144627813222, 0), (33846058, 0), (741278,
    0), (6834, 0), (34, 0)], [(0, 3071504), (35703, 0), (503, 0), (3, 0)], [(657, 0), (16, 0)]], 3, 4⟩,
    1099511627776, 0, 1363258, ⟨[[(54955599210488, 0), (0, 1655991671), (14558, 0), (0, 2)], [(658767150, 0), (0,
    87858), (0, 32)], [(0, 43499), (1, 0)], [(3, 0)]], 3, 4⟩, 68719476736, 17740,
    4422068199926531437118016673015418758118943376943320770453642423014897768747595074072422568587, lc0⟩) (.skip))
    (.skip))))))))
theorem c83 : checkC job ⟨6, 8, 8, 10, 9, 13⟩ 1 25 lims t83 2096 48 32 87 3 512 = true := by decide +kernel

def t84 : CTree :=
  .sy (.sy (.sx (.sy (.sx (.leaf ⟨3664, 16, 41, 1402, 16, 3100, ⟨[[(412316860416, 0)], [(352187318272, 0)]], 3, 4⟩,
    ⟨[[(12435631725, 0), (3267765575300, 0), (866846303, 0), (20369552, 0), (832575, 0)], [(149723850674, 0),
    (5359079, 0), (2878128, 0), (179973, 0), (4194, 0)], [(0, 16535213), (140645, 0), (14342, 0), (439, 0), (8, 0)],
    [(4204, 0), (500, 0), (22, 0), (1, 0)]], 3, 4⟩, 1099511627776, 0, 52217414, ⟨[[(54852737198845, 0), (0,
    6691480221), (614411, 0), (0, 3477), (17, 0)], [(2826220224, 0), (0, 1361357), (0, 2129), (0, 3)], [(0, 760000),
    (51, 0)], [(192, 0)]], 3, 4⟩, 68719476736, 328733,
    3902948600864325461843926749332880126962902644640269856437016760339983243503738783195472020119, lc0⟩) (.leaf
    ⟨3695, 16, 41, 1425, 16, 3123, ⟨[[(137438953472, 0)], [(352187318272, 0)]], 3, 4⟩, ⟨[[(491732370096, 0),
    (3294325366125, 0), (1305813385, 0), (42512689, 0), (1327680, 0)], [(147777337897, 0), (48448019, 0), (6349229,
    0), (282618, 0), (6052, 0)], [(0, 15055306), (317508, 0), (21882, 0), (622, 0), (11, 0)], [(7039, 0), (728, 0),
    (30, 0), (1, 0)]], 3, 4⟩, 1099511627776, 0, 70157733, ⟨[[(54855498701189, 0), (0, 6671916059), (429768, 0), (0,
    2240), (33, 0)], [(2762330830, 0), (0, 1401845), (0, 2169), (0, 1)], [(0, 741599), (59, 0)], [(189, 0)]], 3, 4⟩,
    68719476736, 478706,
    3673264192953123090944736907529626303726094069475574173594207464166946430398365172388418557870, lc0⟩)) (.sx
    (.leaf ⟨3664, 16, 41, 1414, 16, 3088, ⟨[[(412316860416, 0)], [(352187318272, 0)]], 3, 4⟩, ⟨[[(418459689924, 0),
    (3268493788619, 0), (1444580838, 0), (46539403, 0), (1396853, 0)], [(149324157296, 0), (63138257, 0), (7140609,
    0), (304354, 0), (6378, 0)], [(0, 15010656), (366383, 0), (24129, 0), (671, 0), (12, 0)], [(8082, 0), (823, 0),
    (33, 0), (1, 0)]], 3, 4⟩, 1099511627776, 0, 80264306, ⟨[[(54735842362823, 0), (0, 6698634646), (479130, 0), (0,
    1584), (40, 0)], [(2801740795, 0), (0, 1443114), (0, 2213), (1, 0)], [(0, 759131), (48, 0)], [(194, 0)]], 3, 4⟩,
    68719476736, 533108,
    3824679022783262285400380639328779098432337461210325643773363456266278858120965185339093880847, lc0⟩) (.sy (.leaf
    ⟨3695, 16, 41, 2022, 16, 4389, ⟨[[(137438953472, 0)], [(352187318272, 0)]], 3, 4⟩, ⟨[[(310219380719, 0),
    (2325335951435, 0), (724849749, 0), (12548826, 0), (168195, 0)], [(208210230578, 0), (87940709, 0), (3858530, 0),
    (72072, 0), (723, 0)], [(0, 18441318), (391076, 0), (11155, 0), (149, 0), (1, 0)], [(15454, 0), (736, 0), (15,
    0)]], 3, 4⟩, 1099511627776, 0, 110398044, ⟨[[(54763787649468, 0), (0, 4739624333), (193493, 0), (51, 0), (14,
    0)], [(2742635319, 0), (0, 1039717), (0, 1072), (1, 0)], [(0, 740806), (40, 0)], [(190, 0)]], 3, 4⟩, 68719476736,
    153354, 4993462884408358424454575754219237771160757118541675517509009955152677218797225365296935438344, lc0⟩)
    (.sx (.leaf ⟨7375, 16, 82, 2870, 16, 6203, ⟨[[(0, 137438953472)], [(352187318272, 0)]], 3, 4⟩, ⟨[[(0,
    419532942220), (3296421743833, 0), (1229882848, 0), (21209570, 0), (271002, 0)], [(148170376763, 0), (83540123,
    0), (3303144, 0), (58529, 0), (573, 0)], [(0, 6027184), (168897, 0), (4558, 0), (60, 0), (1, 0)], [(3261, 0),
    (151, 0), (3, 0)]], 3, 4⟩, 1099511627776, 0, 11614028, ⟨[[(54702026228944, 0), (0, 3345538333), (104855, 0),
    (207, 0), (4, 0)], [(1372324527, 0), (0, 374519), (0, 257)], [(0, 186191), (7, 0)], [(24, 0)]], 3, 4⟩,
    68719476736, 72467,
    5135973343953034286121141976735815593868358406139443314063412739887936524451026283006691519033, lc0⟩) (.skip)))))
    (.sy (.sx (.sy (.leaf ⟨3726, 16, 41, 2045, 16, 4454, ⟨[[(0, 137438953472)], [(352187318272, 0)]], 3, 4⟩, ⟨[[(0,
    249094205498), (2350834177621, 0), (652414101, 0), (11521244, 0), (159865, 0)], [(206712434956, 0), (71620101,
    0), (3451117, 0), (66908, 0), (685, 0)], [(0, 18955709), (340776, 0), (10109, 0), (138, 0), (1, 0)], [(13390, 0),
    (650, 0), (13, 0)]], 3, 4⟩, 1099511627776, 0, 94713713, ⟨[[(54880768681122, 0), (0, 4704343384), (157647, 0), (0,
    272), (12, 0)], [(2704295911, 0), (0, 1007236), (0, 1062), (1, 0)], [(0, 723652), (47, 0)], [(185, 0)]], 3, 4⟩,
    68719476736, 147340,
    4678757777283802978852391300111078393321881558875746932812039891170044355459491053008392711553, lc0⟩) (.sx (.leaf
    ⟨7436, 16, 82, 2893, 16, 6276, ⟨[[(412316860416, 0)], [(352187318272, 0)]], 3, 4⟩, ⟨[[(0, 52992365442),
    (3321767112275, 0), (1111624970, 0), (19592915, 0), (258114, 0)], [(146616801363, 0), (69975163, 0), (2975472,
    0), (54458, 0), (544, 0)], [(0, 6247505), (148341, 0), (4140, 0), (55, 0)], [(2835, 0), (134, 0), (3, 0)]], 3,
    4⟩, 1099511627776, 0, 10488184, ⟨[[(54820934376702, 0), (0, 3330997930), (82761, 0), (51, 0), (4, 0)],
    [(1353824500, 0), (0, 363733), (0, 261)], [(0, 181936), (8, 0)], [(23, 0)]], 3, 4⟩, 68719476736, 61928,
    4840765731207282922701997396848201203462354423976501352782164198997717134488169782280231983630, lc0⟩) (.skip)))
    (.skip)) (.skip))) (.sx (.sy (.sx (.sy (.leaf ⟨3664, 16, 41, 2000, 16, 4325, ⟨[[(412316860416, 0)],
    [(352187318272, 0)]], 3, 4⟩, ⟨[[(0, 289847333242), (2300374517557, 0), (793160110, 0), (13453501, 0), (175071,
    0)], [(209784062073, 0), (103928250, 0), (4240098, 0), (76774, 0), (755, 0)], [(0, 17937360), (440413, 0),
    (12168, 0), (160, 0), (1, 0)], [(17562, 0), (823, 0), (16, 0)]], 3, 4⟩, 1099511627776, 0, 126232534,
    ⟨[[(54642307326896, 0), (0, 4773492194), (238892, 0), (483, 0), (17, 0)], [(2781142700, 0), (0, 1073687), (0,
    1067), (2, 0)], [(0, 758465), (34, 0)], [(196, 0)]], 3, 4⟩, 68719476736, 155131,
    5265141344234194296841432125492369678144547953857596461489259157990414268331168011898370750014, lc0⟩) (.sx (.sy
    (.leaf ⟨7313, 16, 82, 3999, 16, 8628, ⟨[[(412316860416, 0)], [(352187318272, 0)]], 3, 4⟩, ⟨[[(0, 68632867437),
    (2299314514596, 0), (437124478, 0), (3691174, 0), (23399, 0)], [(210597317673, 0), (60742955, 0), (1174113, 0),
    (10331, 0), (50, 0)], [(0, 8563975), (122842, 0), (1647, 0), (11, 0)], [(4854, 0), (112, 0), (1, 0)]], 3, 4⟩,
    1099511627776, 0, 15631354, ⟨[[(54599497893015, 0), (0, 2387637892), (64220, 0), (100, 0), (1, 0)], [(1393795435,
    0), (0, 271656), (0, 130)], [(0, 190683), (4, 0)], [(25, 0)]], 3, 4⟩, 68719476736, 32605,
    3993074145244994795954272533871596713937820820347814841973659507534902852736929057565820394793, lc0⟩) (.sx (.leaf
    ⟨14700, 16, 165, 5691, 16, 12255, ⟨[[(515396075520, 0)], [(354334801920, 0)]], 3, 4⟩, ⟨[[(317139334998, 0),
    (3271461104674, 0), (677456213, 0), (5701834, 0), (35376, 0)], [(150125545856, 0), (49218826, 0), (912248, 0),
    (7840, 0), (38, 0)], [(0, 2896087), (47920, 0), (627, 0), (4, 0)], [(938, 0), (21, 0)]], 3, 4⟩, 1099511627776, 0,
    1853943, ⟨[[(54570636324496, 0), (0, 1678827662), (33666, 0), (48, 0)], [(693064470, 0), (0, 95760), (0, 31)],
    [(0, 47225), (1, 0)], [(3, 0)]], 3, 4⟩, 68719476736, 26514,
    4034243916042878880516341032223476937695834228370624245226832668723770346609116649511120825657, lc0⟩) (.skip)))
    (.skip))) (.skip)) (.skip)) (.skip))) (.skip)
theorem c84 : checkC job ⟨6, 8, 8, 10, 9, 13⟩ 1 25 lims t84 2096 48 32 93 3 512 = true := by decide +kernel

def t85 : CTree :=
  .sx (.leaf ⟨1855, 16, 20, 440, 16, 1016, ⟨[[], [(343597383680, 0)]], 3, 4⟩, ⟨[[(267903963792, 0), (4215123495078,
    0), (2875282773, 0), (0, 123836523), (7778281, 0)], [(89552510879, 0), (0, 26049142), (0, 12441729), (745559, 0),
    (161449, 0)], [(0, 19039474), (0, 362212), (30031, 0), (7401, 0), (752, 0)], [(523, 0), (597, 0), (160, 0), (22,
    0), (2, 0)]], 3, 4⟩, 1099511627776, 0, 780783036, ⟨[[(55641989440255, 0), (0, 21252704270), (10515579, 0), (0,
    113749), (0, 874)], [(5533072289, 0), (0, 7079166), (0, 25769), (0, 229), (0, 2)], [(0, 2899501), (1083, 0), (13,
    0)], [(1426, 0), (3, 0)]], 3, 4⟩, 68719476736, 13139594,
    4303914345950016996873613057875383238730855530341796287808940445566017474145512367044225832599, lc0⟩) (.sy (.leaf
    ⟨1885, 16, 20, 718, 16, 1650, ⟨[[], [(343597383680, 0)]], 3, 4⟩, ⟨[[(90718792242, 0), (3413252030793, 0),
    (931683096, 0), (0, 18963668), (1382554, 0)], [(139706995716, 0), (0, 44306162), (0, 4010201), (247996, 0),
    (21424, 0)], [(0, 29778525), (0, 232651), (17257, 0), (1863, 0), (92, 0)], [(1528, 0), (551, 0), (75, 0), (5,
    0)]], 3, 4⟩, 1099511627776, 0, 135163232, ⟨[[(55760078883425, 0), (0, 13192260852), (3398439, 0), (0, 30011), (0,
    125)], [(5347966924, 0), (0, 4381170), (0, 10083), (0, 62)], [(0, 2771272), (866, 0), (4, 0)], [(1366, 0), (2,
    0)]], 3, 4⟩, 68719476736, 1988534,
    3345105150605400946421984501001295752884127722600598988007534674041982071125914175736690239464, lc0⟩) (.sy (.leaf
    ⟨1885, 16, 20, 1048, 16, 2362, ⟨[[], [(343597383680, 0)]], 3, 4⟩, ⟨[[(0, 36435748550), (2448762423182, 0),
    (339859272, 0), (5580514, 0), (411049, 0)], [(199638384748, 0), (0, 39786691), (1013359, 0), (150882, 0), (4244,
    0)], [(0, 43321781), (54232, 0), (20229, 0), (753, 0), (16, 0)], [(8713, 0), (1161, 0), (62, 0), (2, 0)]], 3, 4⟩,
    1099511627776, 0, 231837316, ⟨[[(55574767358060, 0), (0, 9161993801), (983457, 0), (0, 11698), (0, 1)],
    [(5284043425, 0), (0, 3286863), (0, 6336), (0, 24)], [(0, 2758388), (662, 0), (1, 0)], [(1393, 0), (1, 0)]], 3,
    4⟩, 68719476736, 845883,
    3450471705426467326512674673322114032943688659366682168576656186534985134836678515824623350018, lc0⟩) (.leaf
    ⟨1885, 16, 20, 1061, 16, 2361, ⟨[[], [(343597383680, 0)]], 3, 4⟩, ⟨[[(0, 117518193620), (2452824332500, 0),
    (550941417, 0), (19268647, 0), (756182, 0)], [(199390364763, 0), (0, 7171199), (4810648, 0), (281379, 0), (6806,
    0)], [(0, 42065340), (393349, 0), (37707, 0), (1222, 0), (24, 0)], [(18336, 0), (2128, 0), (102, 0), (3, 0)]], 3,
    4⟩, 1099511627776, 0, 386421528, ⟨[[(55451693786437, 0), (0, 9145686976), (523630, 0), (0, 10755), (41, 0)],
    [(5238632490, 0), (0, 3471678), (0, 7276), (0, 21)], [(0, 2749440), (665, 0)], [(1411, 0), (1, 0)]], 3, 4⟩,
    68719476736, 1461929,
    4910534842370166370807220995836993154280739616713971041379754785536911629217020501674474893555, lc0⟩)))
theorem c85 : checkC job ⟨6, 8, 8, 10, 9, 13⟩ 1 25 lims t85 2192 48 32 171 3 1024 = true := by decide +kernel

def t86 : CTree :=
  .sy (.sx (.sy (.leaf ⟨1855, 16, 20, 1031, 16, 2303, ⟨[[], [(343597383680, 0)]], 3, 4⟩, ⟨[[(0, 465016791012),
    (2399859596474, 0), (451097211, 0), (10898263, 0), (535015, 0)], [(202561557395, 0), (0, 21319438), (2657294, 0),
    (207883, 0), (5272, 0)], [(0, 43964329), (221264, 0), (29541, 0), (989, 0), (20, 0)], [(14919, 0), (1808, 0),
    (87, 0), (2, 0)]], 3, 4⟩, 1099511627776, 0, 359940558, ⟨[[(55328512498008, 0), (0, 9275319204), (911861, 0), (0,
    11457), (25, 0)], [(5421502717, 0), (0, 3537327), (0, 7365), (0, 23)], [(0, 2881524), (562, 0)], [(1471, 0), (1,
    0)]], 3, 4⟩, 68719476736, 1256276,
    4269498180728706616648667970605674992755334019362233633436279012364631588994371637096115918580, lc0⟩) (.sx (.leaf
    ⟨3787, 16, 41, 1456, 16, 3226, ⟨[[(412316860416, 0)], [(352187318272, 0)]], 3, 4⟩, ⟨[[(0, 266445612805),
    (3370889305725, 0), (884326338, 0), (28350272, 0), (1057445, 0)], [(143309155472, 0), (6733465, 0), (3821378, 0),
    (209187, 0), (4877, 0)], [(0, 15142940), (172886, 0), (15031, 0), (465, 0), (9, 0)], [(4154, 0), (462, 0), (21,
    0), (1, 0)]], 3, 4⟩, 1099511627776, 0, 44457476, ⟨[[(55208884359965, 0), (0, 6592122597), (355927, 0), (0, 3603),
    (15, 0)], [(2651537805, 0), (0, 1279497), (0, 1958), (0, 3)], [(0, 692726), (89, 0)], [(174, 0)]], 3, 4⟩,
    68719476736, 307251,
    3018033980796560005504501710142198433595202606005945044899213969155730794025264125320772243019, lc0⟩) (.sy (.leaf
    ⟨3818, 16, 41, 2107, 16, 4644, ⟨[[(137438953472, 0)], [(352187318272, 0)]], 3, 4⟩, ⟨[[(0, 159507657482),
    (2425421284690, 0), (428624401, 0), (7941323, 0), (127695, 0)], [(202212773814, 0), (24695934, 0), (2166035, 0),
    (49626, 0), (551, 0)], [(0, 20298305), (194238, 0), (6944, 0), (103, 0), (1, 0)], [(7779, 0), (411, 0), (9, 0)]],
    3, 4⟩, 1099511627776, 0, 55253285, ⟨[[(55239716941417, 0), (0, 4604065854), (104662, 0), (0, 1033), (6, 0)],
    [(2599229696, 0), (0, 905951), (0, 976), (0, 1)], [(0, 675966), (68, 0)], [(171, 0)]], 3, 4⟩, 68719476736,
    112307, 3632746413947020299619952745651412265173808518855178138799160613695553081314600241553402284689, lc0⟩)
    (.sx (.leaf ⟨7621, 16, 82, 2957, 16, 6491, ⟨[[(0, 137438953472)], [(352187318272, 0)]], 3, 4⟩, ⟨[[(130638358818,
    0), (3396932418961, 0), (741109472, 0), (13924658, 0), (208308, 0)], [(142129255299, 0), (30432360, 0), (1938180,
    0), (40849, 0), (440, 0)], [(0, 6843973), (88338, 0), (2879, 0), (42, 0)], [(1679, 0), (86, 0), (2, 0)]], 3, 4⟩,
    1099511627776, 0, 6369442, ⟨[[(55180692316558, 0), (0, 3287900145), (45152, 0), (0, 295), (2, 0)], [(1300766513,
    0), (0, 330488), (0, 253)], [(0, 169814), (12, 0)], [(22, 0)]], 3, 4⟩, 68719476736, 27518,
    3807232744601220677907029850501206565412311333523836432424761081235689698518331574254315992768, lc0⟩) (.sy (.leaf
    ⟨7652, 16, 82, 4254, 16, 9314, ⟨[[(0, 412316860416)], [(352187318272, 0)]], 3, 4⟩, ⟨[[(297743881391, 0),
    (2437912354932, 0), (314471036, 0), (3008047, 0), (21429, 0)], [(202028877053, 0), (30556774, 0), (835264, 0),
    (8332, 0), (44, 0)], [(0, 9291606), (75417, 0), (1160, 0), (8, 0)], [(2711, 0), (68, 0), (1, 0)]], 3, 4⟩,
    1099511627776, 0, 8257817, ⟨[[(55195637641614, 0), (0, 2298131778), (15154, 0), (0, 79), (1, 0)], [(1287763874,
    0), (0, 232509), (0, 124)], [(0, 167726), (9, 0)], [(21, 0)]], 3, 4⟩, 68719476736, 39932,
    4742643475315451250248011507718103918231869025001025258311029769895082974476993007027460725371, lc0⟩)
    (.skip)))))) (.sy (.sx (.sy (.leaf ⟨3849, 16, 41, 2126, 16, 4706, ⟨[[(0, 137438953472)], [(352187318272, 0)]], 3,
    4⟩, ⟨[[(0, 99771445478), (2450015669936, 0), (358454522, 0), (6680489, 0), (115361, 0)], [(200742356176, 0),
    (10975842, 0), (1749263, 0), (43662, 0), (502, 0)], [(0, 20624195), (150003, 0), (5942, 0), (92, 0), (1, 0)],
    [(6191, 0), (340, 0), (8, 0)]], 3, 4⟩, 1099511627776, 0, 44708208, ⟨[[(55361387418236, 0), (0, 4572648009),
    (102740, 0), (0, 1192), (4, 0)], [(2565852024, 0), (0, 872414), (0, 931), (0, 1)], [(0, 660928), (75, 0)], [(166,
    0)]], 3, 4⟩, 68719476736, 67677,
    3296853296625399360121584013760836968050118226582967598347631176893169502614990877712579596109, lc0⟩) (.sx (.leaf
    ⟨7682, 16, 82, 2976, 16, 6559, ⟨[[(412316860416, 0)], [(352187318272, 0)]], 3, 4⟩, ⟨[[(0, 529590844324),
    (3420800754050, 0), (622581652, 0), (11908214, 0), (189091, 0)], [(140651295626, 0), (18644998, 0), (1599049, 0),
    (36131, 0), (401, 0)], [(0, 6994948), (70105, 0), (2478, 0), (37, 0)], [(1350, 0), (71, 0), (2, 0)]], 3, 4⟩,
    1099511627776, 0, 5552287, ⟨[[(55298628269609, 0), (0, 3274552803), (41020, 0), (0, 372), (1, 0)], [(1284152205,
    0), (0, 319648), (0, 245)], [(0, 166065), (13, 0)], [(21, 0)]], 3, 4⟩, 68719476736, 54977,
    3462447284808929052832050046898200126323528986155980626316940784194007113817173796979693200759, lc0⟩) (.sy (.leaf
    ⟨7713, 16, 82, 4294, 16, 9442, ⟨[[(137438953472, 0)], [(352187318272, 0)]], 3, 4⟩, ⟨[[(306174644372, 0),
    (2462351451794, 0), (263662983, 0), (2589963, 0), (19499, 0)], [(200531225714, 0), (20241112, 0), (694598, 0),
    (7387, 0), (40, 0)], [(0, 9642518), (60360, 0), (1001, 0), (7, 0)], [(2178, 0), (57, 0), (1, 0)]], 3, 4⟩,
    1099511627776, 0, 6855135, ⟨[[(55315684896036, 0), (0, 2281298890), (12599, 0), (0, 111)], [(1271711567, 0), (0,
    223836), (0, 120)], [(0, 164029), (9, 0)], [(21, 0)]], 3, 4⟩, 68719476736, 37248,
    4296134179234593927253641015640562563420010982409515079462136330261304167569682855067604926315, lc0⟩) (.sx (.leaf
    ⟨15505, 16, 165, 5995, 16, 13154, ⟨[[(0, 171798691840)], [(354334801920, 0)]], 3, 4⟩, ⟨[[(155517932756, 0),
    (3434288949546, 0), (411320811, 0), (4028669, 0), (29352, 0)], [(140098947518, 0), (18115504, 0), (545421, 0),
    (5586, 0), (30, 0)], [(0, 3281371), (23902, 0), (380, 0), (3, 0)], [(423, 0), (11, 0)]], 3, 4⟩, 1099511627776, 0,
    880673, ⟨[[(55285099499589, 0), (0, 1636163938), (5489, 0), (0, 35)], [(632190803, 0), (0, 80689), (0, 31)], [(0,
    40606), (2, 0)], [(3, 0)]], 3, 4⟩, 68719476736, 13981,
    4405834628536326504490380079369717507267555781507761057969332119439518439023024298112426387052, lc0⟩) (.skip)))))
    (.sy (.sx (.leaf ⟨7744, 16, 82, 3007, 16, 6615, ⟨[[(0, 137438953472)], [(352187318272, 0)]], 3, 4⟩, ⟨[[(0,
    402818375792), (3446264661672, 0), (728522270, 0), (14532784, 0), (219776, 0)], [(139074556612, 0), (26949120,
    0), (1922567, 0), (41138, 0), (450, 0)], [(0, 6701094), (82077, 0), (2749, 0), (41, 0)], [(1456, 0), (77, 0), (2,
    0)]], 3, 4⟩, 1099511627776, 0, 5578334, ⟨[[(55359349632454, 0), (0, 3266181275), (19431, 0), (0, 334), (2, 0)],
    [(1262030312, 0), (0, 317987), (0, 244)], [(0, 162121), (14, 0)], [(21, 0)]], 3, 4⟩, 68719476736, 39097,
    5176897140867143644039017707111298905974308943378096833702737971320860615508937016551272475036, lc0⟩) (.skip))
    (.skip))) (.sx (.sy (.sx (.sy (.leaf ⟨7682, 16, 82, 4274, 16, 9378, ⟨[[(412316860416, 0)], [(352187318272, 0)]],
    3, 4⟩, ⟨[[(445608766862, 0), (2450089942597, 0), (288773298, 0), (2799311, 0), (20475, 0)], [(201273185925, 0),
    (25295761, 0), (764342, 0), (7859, 0), (42, 0)], [(0, 9473483), (67760, 0), (1080, 0), (8, 0)], [(2438, 0), (62,
    0), (1, 0)]], 3, 4⟩, 1099511627776, 0, 7527508, ⟨[[(55255253986723, 0), (0, 2289597877), (13687, 0), (0, 96)],
    [(1279874236, 0), (0, 228149), (0, 122)], [(0, 165895), (9, 0)], [(21, 0)]], 3, 4⟩, 68719476736, 38136,
    4517002161585393687732293174279255362664303265850250775373859552176374254613014663263499660892, lc0⟩) (.skip))
    (.skip)) (.skip)) (.skip)))) (.sx (.sy (.sx (.sy (.leaf ⟨3787, 16, 41, 2087, 16, 4581, ⟨[[(412316860416, 0)],
    [(352187318272, 0)]], 3, 4⟩, ⟨[[(0, 187020277696), (2400550757877, 0), (502224106, 0), (9187380, 0), (139376,
    0)], [(203685574352, 0), (39595947, 0), (2594543, 0), (55562, 0), (599, 0)], [(0, 19900724), (241317, 0), (7984,
    0), (115, 0), (1, 0)], [(9522, 0), (486, 0), (10, 0)]], 3, 4⟩, 1099511627776, 0, 67473875, ⟨[[(55118678892667,
    0), (0, 4636686144), (114248, 0), (0, 829), (7, 0)], [(2633644297, 0), (0, 939774), (0, 1014)], [(0, 691521),
    (61, 0)], [(176, 0)]], 3, 4⟩, 68719476736, 138407,
    3983632650504090128832953360504840880482390762616068102157229757462995017294902476995756592814, lc0⟩) (.sx (.leaf
    ⟨7559, 16, 82, 2937, 16, 6420, ⟨[[(412316860416, 0)], [(352187318272, 0)]], 3, 4⟩, ⟨[[(0, 332214600912),
    (3371918022951, 0), (864032293, 0), (15905835, 0), (226429, 0)], [(143592687436, 0), (43097422, 0), (2285160, 0),
    (45528, 0), (476, 0)], [(0, 6663786), (107663, 0), (3294, 0), (46, 0)], [(2039, 0), (101, 0), (2, 0)]], 3, 4⟩,
    1099511627776, 0, 7443248, ⟨[[(55058616329362, 0), (0, 3302088306), (52916, 0), (0, 194), (2, 0)], [(1317892803,
    0), (0, 341918), (0, 259)], [(0, 173743), (10, 0)], [(22, 0)]], 3, 4⟩, 68719476736, 50699,
    4161164925110657529967967038196456275964298576517609919175131037739611141390828117648311344425, lc0⟩) (.sy (.leaf
    ⟨7590, 16, 82, 4212, 16, 9184, ⟨[[(137438953472, 0)], [(352187318272, 0)]], 3, 4⟩, ⟨[[(333271483653, 0),
    (2413253187084, 0), (366957480, 0), (3418398, 0), (23247, 0)], [(203535654182, 0), (41589049, 0), (979096, 0),
    (9269, 0), (48, 0)], [(0, 8891267), (91372, 0), (1325, 0), (9, 0)], [(3295, 0), (80, 0), (1, 0)]], 3, 4⟩,
    1099511627776, 0, 9901116, ⟨[[(55074912135030, 0), (0, 2315257087), (20264, 0), (0, 39), (1, 0)], [(1304657304,
    0), (0, 241213), (0, 126)], [(0, 171613), (8, 0)], [(22, 0)]], 3, 4⟩, 68719476736, 27672,
    5201677031940672656564732519385420061335028408346551403728033650248065920391929283324826579133, lc0⟩) (.skip))))
    (.sy (.sx (.sy (.leaf ⟨7621, 16, 82, 4234, 16, 9250, ⟨[[(0, 137438953472)], [(352187318272, 0)]], 3, 4⟩, ⟨[[(0,
    136728270424), (2425811409519, 0), (340610264, 0), (3215040, 0), (22356, 0)], [(202797959814, 0), (35999840, 0),
    (907036, 0), (8803, 0), (46, 0)], [(0, 9097817), (83304, 0), (1242, 0), (9, 0)], [(2997, 0), (74, 0), (1, 0)]],
    3, 4⟩, 1099511627776, 0, 9085739, ⟨[[(55134263336673, 0), (0, 2306430014), (17317, 0), (0, 59), (1, 0)],
    [(1296048189, 0), (0, 236945), (0, 125)], [(0, 169650), (8, 0)], [(22, 0)]], 3, 4⟩, 68719476736, 32333,
    4971530046601964121635110243093218078636931189505494116178224329763587853402304440226335187860, lc0⟩) (.skip))
    (.skip)) (.skip))) (.sx (.sy (.sx (.sy (.sx (.leaf ⟨15195, 16, 165, 5884, 16, 12816, ⟨[[(515396075520, 0)],
    [(354334801920, 0)]], 3, 4⟩, ⟨[[(0, 300148346120), (3372911225715, 0), (518640954, 0), (4764287, 0), (32247, 0)],
    [(143865349131, 0), (29986020, 0), (692323, 0), (6520, 0), (33, 0)], [(0, 3137400), (32866, 0), (473, 0), (3,
    0)], [(603, 0), (15, 0)]], 3, 4⟩, 1099511627776, 0, 1263226, ⟨[[(55013992466855, 0), (0, 1652291946), (12662, 0),
    (0, 10)], [(654456922, 0), (0, 86509), (0, 32)], [(0, 43008), (1, 0)], [(3, 0)]], 3, 4⟩, 68719476736, 16835,
    4247176895233282461072480525682177540361271733840598056679382913403832430016153832199488322078, lc0⟩) (.skip))
    (.skip)) (.skip)) (.skip)) (.skip))) (.skip))
theorem c86 : checkC job ⟨6, 8, 8, 10, 9, 13⟩ 1 25 lims t86 2192 48 32 177 3 1024 = true := by decide +kernel

def t87 : CTree :=
  .skip
theorem c87 : checkC job ⟨6, 8, 8, 10, 9, 13⟩ 1 25 lims t87 2192 48 32 93 3 512 = true := by decide +kernel

def t88 : CTree :=
  .sy (.sx (.leaf ⟨965, 16, 10, 200, 16, 534, ⟨[[], [(343597383680, 0)]], 3, 4⟩, ⟨[[(0, 439552427210),
    (4262041696563, 0), (8966096142, 0), (93739449, 0), (1813111, 0)], [(84030196030, 0), (319594935, 0), (0,
    12019024), (225173, 0), (0, 65889)], [(0, 27526896), (0, 823905), (17557, 0), (0, 1467), (0, 543)], [(0, 390),
    (919, 0), (0, 5), (0, 15), (0, 1)]], 3, 4⟩, 1099511627776, 0, 1135520025, ⟨[[(57382697152839, 0), (0,
    44627093800), (57912607, 0), (0, 64750), (994, 0)], [(10938184553, 0), (0, 18482191), (0, 136778), (507, 0), (12,
    0)], [(0, 10529326), (0, 3282), (170, 0), (2, 0)], [(8995, 0), (29, 0)]], 3, 4⟩, 68719476736, 68055504,
    3323886778477689379723132045062169265911043597318884347395268404198033487432465424887147787140, lc0⟩) (.leaf
    ⟨995, 16, 10, 209, 16, 541, ⟨[[], [(343597383680, 0)]], 3, 4⟩, ⟨[[(457838551077, 0), (4342080488853, 0),
    (8046262158, 0), (86960812, 0), (0, 10941859)], [(79801348592, 0), (187027791, 0), (0, 10106815), (0, 595155),
    (0, 212784)], [(0, 27479061), (0, 611037), (0, 3640), (0, 7743), (0, 960)], [(2859, 0), (484, 0), (0, 159), (0,
    28), (0, 1)]], 3, 4⟩, 1099511627776, 0, 2410498775, ⟨[[(57419266831911, 0), (0, 43932852035), (51931585, 0), (0,
    29315), (0, 361)], [(10207997770, 0), (0, 19838593), (0, 107904), (894, 0), (5, 0)], [(0, 9755160), (1943, 0),
    (238, 0), (3, 0)], [(8334, 0), (30, 0)]], 3, 4⟩, 68719476736, 166864174,
    3732582036231845684294475379259285414229999601697069604971998566532761264994545690368932481374, lc0⟩)) (.sy (.sx
    (.leaf ⟨965, 16, 10, 345, 16, 848, ⟨[[], [(343597383680, 0)]], 3, 4⟩, ⟨[[(0, 65307946811), (3450915179507, 0),
    (3593529397, 0), (0, 44234558), (0, 4275507)], [(135290555136, 0), (138634556, 0), (0, 11363649), (0, 667494),
    (0, 23189)], [(0, 49684291), (0, 794794), (0, 32375), (0, 2021), (89, 0)], [(2953, 0), (0, 258), (0, 94), (2, 0),
    (1, 0)]], 3, 4⟩, 1099511627776, 0, 500288366, ⟨[[(56629696982494, 0), (0, 26881883799), (21146811, 0), (0,
    52192), (0, 1168)], [(10581911795, 0), (0, 14246684), (0, 41951), (30, 0), (0, 6)], [(0, 10520801), (3240, 0),
    (125, 0)], [(9560, 0), (24, 0)]], 3, 4⟩, 68719476736, 28579851,
    2253051158400335800255204938241885202693633674846764162499833337035996464828227455383691554007, lc0⟩) (.leaf
    ⟨995, 16, 10, 366, 16, 872, ⟨[[], [(343597383680, 0)]], 3, 4⟩, ⟨[[(466079315354, 0), (3554221926314, 0),
    (2183709963, 0), (0, 124331761), (0, 4436169)], [(129384053843, 0), (0, 33517135), (0, 20565809), (0, 837622),
    (43204, 0)], [(0, 50496595), (0, 1082215), (0, 56035), (1779, 0), (734, 0)], [(0, 663), (0, 1607), (0, 26), (30,
    0), (4, 0)]], 3, 4⟩, 1099511627776, 0, 1229549994, ⟨[[(56641878217588, 0), (0, 26155117335), (16164925, 0), (0,
    124039), (0, 2197)], [(9818733425, 0), (0, 14349853), (0, 36560), (0, 354), (0, 12)], [(0, 9623762), (8259, 0),
    (132, 0), (0, 1)], [(8995, 0), (27, 0)]], 3, 4⟩, 68719476736, 29837300,
    3115928407179538640444394032139248848437266691904137965240736243248599226307773630109287742115, lc0⟩)) (.sx (.sx
    (.leaf ⟨1915, 16, 20, 444, 16, 1044, ⟨[[], [(343597383680, 0)]], 3, 4⟩, ⟨[[(330256292254, 0), (4292350027471, 0),
    (2973240327, 0), (0, 149418157), (0, 939814)], [(85092612629, 0), (0, 10081454), (0, 13175327), (0, 105605),
    (72487, 0)], [(0, 17172706), (0, 358266), (0, 1894), (2828, 0), (405, 0)], [(139, 0), (37, 0), (49, 0), (10, 0),
    (1, 0)]], 3, 4⟩, 1099511627776, 0, 436395934, ⟨[[(56135849936366, 0), (0, 21251809121), (11040834, 0), (0,
    86574), (0, 977)], [(5253359071, 0), (0, 6401211), (0, 18090), (0, 152), (0, 3)], [(0, 2666479), (1324, 0), (18,
    0)], [(1275, 0), (3, 0)]], 3, 4⟩, 68719476736, 5981405,
    2998820632397577510035046422097883713218709131097907325380086117838749961861284326607641560061, lc0⟩) (.leaf
    ⟨1945, 16, 20, 456, 16, 1054, ⟨[[], [(343597383680, 0)]], 3, 4⟩, ⟨[[(0, 97150707535), (4329215967172, 0),
    (1763230457, 0), (0, 123933640), (10837056, 0)], [(82582921779, 0), (0, 77307683), (0, 11766795), (799678, 0),
    (184197, 0)], [(0, 17296195), (0, 328762), (21210, 0), (7011, 0), (780, 0)], [(133, 0), (223, 0), (118, 0), (19,
    0), (2, 0)]], 3, 4⟩, 1099511627776, 0, 938427813, ⟨[[(56127116834179, 0), (0, 21097182939), (7883583, 0), (0,
    120436), (0, 978)], [(5047226787, 0), (0, 6545478), (0, 21301), (0, 243), (0, 3)], [(0, 2541134), (1827, 0), (14,
    0)], [(1241, 0), (3, 0)]], 3, 4⟩, 68719476736, 13075662,
    4328817374993878988263859360137244992124298324273157611905836340249841921524023393164400932141, lc0⟩)) (.sy (.sx
    (.leaf ⟨1975, 16, 20, 753, 16, 1737, ⟨[[], [(343597383680, 0)]], 3, 4⟩, ⟨[[(310974736746, 0), (3556402871881, 0),
    (485751104, 0), (0, 23434141), (1543747, 0)], [(130929029878, 0), (0, 87618987), (0, 4795530), (209786, 0),
    (22331, 0)], [(0, 27722729), (0, 281863), (9260, 0), (1602, 0), (89, 0)], [(0, 580), (114, 0), (50, 0), (4, 0)]],
    3, 4⟩, 1099511627776, 0, 101993151, ⟨[[(56256795826253, 0), (0, 12911869798), (2540862, 0), (0, 29447), (0,
    140)], [(4892160963, 0), (0, 3923351), (0, 7790), (0, 60)], [(0, 2429866), (1292, 0), (5, 0)], [(1192, 0), (2,
    0)]], 3, 4⟩, 68719476736, 1678067,
    2639956404832110966632745513713993598024851627563823356036436825839816425382161104003208341328, lc0⟩) (.sy (.leaf
    ⟨2005, 16, 20, 1132, 16, 2589, ⟨[[], [(343597383680, 0)]], 3, 4⟩, ⟨[[(276216094320, 0), (2641993227059, 0),
    (55614190, 0), (0, 1404402), (292134, 0)], [(187480844271, 0), (0, 95770360), (0, 1354983), (78199, 0), (3187,
    0)], [(0, 41150850), (0, 207112), (6602, 0), (441, 0), (11, 0)], [(0, 2392), (146, 0), (26, 0), (1, 0)]], 3, 4⟩,
    1099511627776, 0, 79777043, ⟨[[(56317119000333, 0), (0, 8723583223), (750711, 0), (0, 10528), (0, 24)],
    [(4724339210, 0), (0, 2647393), (0, 3965), (0, 22)], [(0, 2315057), (1024, 0), (2, 0)], [(1157, 0), (1, 0)]], 3,
    4⟩, 68719476736, 458382,
    3799872949593729368446868681292807773235904848417448838256225942682091833599297472165711998308, lc0⟩) (.sx (.leaf
    ⟨4095, 16, 41, 1557, 16, 3529, ⟨[[(0, 137438953472)], [(352187318272, 0)]], 3, 4⟩, ⟨[[(447573639098, 0),
    (3605583098684, 0), (139477509, 0), (7292319, 0), (684030, 0)], [(128739983901, 0), (0, 65508249), (92546, 0),
    (99049, 0), (3196, 0)], [(0, 14317714), (0, 36671), (4793, 0), (231, 0), (5, 0)], [(0, 78), (81, 0), (7, 0)]], 3,
    4⟩, 1099511627776, 0, 9940269, ⟨[[(56192523058697, 0), (0, 6376155968), (241243, 0), (0, 4386), (0, 3)],
    [(2307895394, 0), (0, 984699), (0, 1233), (0, 5)], [(0, 554582), (179, 0)], [(137, 0)]], 3, 4⟩, 68719476736,
    159866, 4319759114113489106532309897249626016394576868825447848256123945252812742454133385794970579451, lc0⟩)
    (.sy (.leaf ⟨4126, 16, 41, 2319, 16, 5234, ⟨[[(0, 412316860416)], [(352187318272, 0)]], 3, 4⟩, ⟨[[(70095894680,
    0), (2668579147869, 0), (46994353, 0), (2480229, 0), (82133, 0)], [(187018699660, 0), (0, 53902661), (228824, 0),
    (23396, 0), (357, 0)], [(0, 21217429), (0, 20088), (2210, 0), (51, 0), (1, 0)], [(0, 258), (72, 0), (3, 0)]], 3,
    4⟩, 1099511627776, 0, 5077836, ⟨[[(56221424312290, 0), (0, 4318154056), (51435, 0), (0, 1406)], [(2267450766, 0),
    (0, 667508), (0, 599), (0, 1)], [(0, 540694), (129, 0)], [(135, 0)]], 3, 4⟩, 68719476736, 73009,
    4908946042906397234201576955269994795322106033435595100225705919576912841705964750127595078954, lc0⟩) (.skip)))))
    (.sx (.sy (.leaf ⟨1975, 16, 20, 1120, 16, 2534, ⟨[[], [(343597383680, 0)]], 3, 4⟩, ⟨[[(178380927750, 0),
    (2596872178425, 0), (177856235, 0), (6494499, 0), (505348, 0)], [(190331314627, 0), (0, 78559979), (641929, 0),
    (155018, 0), (4748, 0)], [(0, 41744809), (0, 45194), (16345, 0), (717, 0), (16, 0)], [(2056, 0), (653, 0), (49,
    0), (2, 0)]], 3, 4⟩, 1099511627776, 0, 118985261, ⟨[[(56066993371667, 0), (0, 8813698766), (511195, 0), (0,
    11373), (0, 8)], [(4832451471, 0), (0, 2876445), (0, 5095), (0, 24)], [(0, 2409928), (959, 0), (1, 0)], [(1220,
    0), (1, 0)]], 3, 4⟩, 68719476736, 651254,
    4940312789857931363793865203833265806928703593889657601016081202713809831212076670906582788093, lc0⟩) (.sx (.sy
    (.leaf ⟨4033, 16, 41, 2249, 16, 5058, ⟨[[(412316860416, 0)], [(352187318272, 0)]], 3, 4⟩, ⟨[[(0, 214971394384),
    (2595492500892, 0), (135955533, 0), (3151736, 0), (83299, 0)], [(191632217724, 0), (0, 33331929), (538728, 0),
    (26397, 0), (368, 0)], [(0, 20930707), (18207, 0), (2903, 0), (57, 0), (1, 0)], [(1247, 0), (125, 0), (4, 0)]],
    3, 4⟩, 1099511627776, 0, 12017507, ⟨[[(55970637262074, 0), (0, 4401517960), (81219, 0), (0, 1413)], [(2365865555,
    0), (0, 724077), (0, 684), (0, 1)], [(0, 578687), (112, 0)], [(144, 0)]], 3, 4⟩, 68719476736, 85750,
    4076607967218794290654711164666661132661530546388559267592812918251957853274540547057188237714, lc0⟩) (.sx (.leaf
    ⟨8051, 16, 82, 3097, 16, 6935, ⟨[[(412316860416, 0)], [(352187318272, 0)]], 3, 4⟩, ⟨[[(7700909386, 0),
    (3562301075538, 0), (258551169, 0), (6393427, 0), (140311, 0)], [(131937215464, 0), (0, 17991783), (626383, 0),
    (22630, 0), (298, 0)], [(0, 7147344), (16236, 0), (1271, 0), (23, 0)], [(335, 0), (28, 0), (1, 0)]], 3, 4⟩,
    1099511627776, 0, 1977541, ⟨[[(55909882364886, 0), (0, 3205315381), (24223, 0), (0, 533)], [(1183703562, 0), (0,
    269686), (0, 193)], [(0, 145216), (20, 0)], [(18, 0)]], 3, 4⟩, 68719476736, 47881,
    4330454187787207782658450332348155097901873976848943969347803163536551130868123772679272534552, lc0⟩) (.sy (.leaf
    ⟨8082, 16, 82, 4549, 16, 10165, ⟨[[(137438953472, 0)], [(352187318272, 0)]], 3, 4⟩, ⟨[[(139527357435, 0),
    (2608904185616, 0), (107679791, 0), (1429386, 0), (14580, 0)], [(191424174848, 0), (0, 12128893), (284225, 0),
    (4661, 0), (30, 0)], [(0, 10370585), (15176, 0), (517, 0), (5, 0)], [(525, 0), (23, 0)]], 3, 4⟩, 1099511627776,
    0, 2225225, ⟨[[(55925474939946, 0), (0, 2192378969), (3597, 0), (0, 169)], [(1172993199, 0), (0, 184870), (0,
    92)], [(0, 143396), (14, 0)], [(18, 0)]], 3, 4⟩, 68719476736, 16226,
    4810983989952354579506075147023863926093501342238065962288890472788053258330150431807474763755, lc0⟩) (.skip))))
    (.sy (.sx (.leaf ⟨8113, 16, 82, 3127, 16, 6994, ⟨[[(0, 137438953472)], [(352187318272, 0)]], 3, 4⟩, ⟨[[(0,
    249623855208), (3585824215852, 0), (264620012, 0), (7427570, 0), (156547, 0)], [(130421744381, 0), (0, 19760544),
    (707777, 0), (24621, 0), (322, 0)], [(0, 7126506), (16996, 0), (1337, 0), (25, 0)], [(293, 0), (28, 0), (1, 0)]],
    3, 4⟩, 1099511627776, 0, 1873089, ⟨[[(55971050726480, 0), (0, 3194710679), (6197, 0), (0, 531)], [(1164935517,
    0), (0, 266259), (0, 193)], [(0, 141786), (21, 0)], [(18, 0)]], 3, 4⟩, 68719476736, 53544,
    5284003390434536245381661642168270323240082495478914667751203751643576353807226604873781561506, lc0⟩) (.skip))
    (.skip)))) (.sy (.sx (.sy (.sx (.leaf ⟨8174, 16, 82, 3137, 16, 7055, ⟨[[(412316860416, 0)], [(352187318272, 0)]],
    3, 4⟩, ⟨[[(414844920294, 0), (3607420500531, 0), (148550888, 0), (4869148, 0), (127341, 0)], [(129092775754, 0),
    (0, 29077234), (369437, 0), (19158, 0), (271, 0)], [(0, 7193625), (2821, 0), (980, 0), (20, 0)], [(101, 0), (19,
    0), (1, 0)]], 3, 4⟩, 1099511627776, 0, 1516315, ⟨[[(56096571081447, 0), (0, 3183404975), (22709, 0), (0, 550)],
    [(1152294375, 0), (0, 255011), (0, 175)], [(0, 138932), (22, 0)], [(17, 0)]], 3, 4⟩, 68719476736, 35891,
    4612024307425278490367619300499373982240533831849455193376765905005957912176330357487018049343, lc0⟩) (.skip))
    (.skip)) (.skip)) (.skip))))))
theorem c88 : checkC job ⟨6, 8, 8, 10, 9, 13⟩ 1 25 lims t88 1168 48 16 39 3 256 = true := by decide +kernel

def t89 : CTree :=
  .sx (.sy (.sy (.sy (.sx (.leaf ⟨1915, 16, 20, 743, 16, 1679, ⟨[[], [(343597383680, 0)]], 3, 4⟩, ⟨[[(0,
    150073736486), (3467359242172, 0), (799804368, 0), (27720904, 0), (4565575, 0)], [(136410036583, 0), (0,
    69399406), (2004911, 0), (791196, 0), (46435, 0)], [(0, 29482355), (18144, 0), (49401, 0), (3905, 0), (170, 0)],
    [(4425, 0), (1288, 0), (151, 0), (9, 0)]], 3, 4⟩, 1099511627776, 0, 246682637, ⟨[[(55756362757173, 0), (0,
    13033380973), (1774705, 0), (0, 34553), (0, 29)], [(5131134685, 0), (0, 4514950), (0, 12039), (0, 73)], [(0,
    2637939), (1096, 0), (2, 0)], [(1329, 0), (2, 0)]], 3, 4⟩, 68719476736, 3857991,
    4244753748280899564390453055929117375153792589406297175665649776272723034291882792210590442918, lc0⟩) (.sy (.sx
    (.leaf ⟨3972, 16, 41, 1517, 16, 3411, ⟨[[(0, 137438953472)], [(352187318272, 0)]], 3, 4⟩, ⟨[[(496673010818, 0),
    (3514449839181, 0), (449065684, 0), (15852255, 0), (836300, 0)], [(134424734727, 0), (0, 34972342), (1528381, 0),
    (140416, 0), (3832, 0)], [(0, 14504025), (39580, 0), (8343, 0), (312, 0), (7, 0)], [(1347, 0), (201, 0), (12,
    0)]], 3, 4⟩, 1099511627776, 0, 19754534, ⟨[[(55822029391959, 0), (0, 6460528734), (266300, 0), (0, 4328), (1,
    0)], [(2437740510, 0), (0, 1093609), (0, 1514), (0, 4)], [(0, 605561), (145, 0)], [(150, 0)]], 3, 4⟩,
    68719476736, 206583,
    3531210240689492252455781878592235099566821327964283605854943051215847346850292633384388866868, lc0⟩) (.sy (.leaf
    ⟨4003, 16, 41, 2234, 16, 5000, ⟨[[(0, 412316860416)], [(352187318272, 0)]], 3, 4⟩, ⟨[[(393153441774, 0),
    (2572415792649, 0), (202930246, 0), (4661800, 0), (100509, 0)], [(193083233876, 0), (0, 22127903), (955489, 0),
    (33137, 0), (430, 0)], [(0, 20766517), (55083, 0), (3829, 0), (69, 0), (1, 0)], [(2330, 0), (177, 0), (5, 0)]],
    3, 4⟩, 1099511627776, 0, 18484603, ⟨[[(55851345144581, 0), (0, 4428747494), (58630, 0), (0, 1387), (1, 0)],
    [(2392921422, 0), (0, 754678), (0, 747), (0, 1)], [(0, 590646), (106, 0)], [(148, 0)]], 3, 4⟩, 68719476736,
    79333, 4603891972676613138990507315013966543149954790972953948800185365600404324109073086852414570496, lc0⟩) (.sx
    (.leaf ⟨7990, 16, 82, 3084, 16, 6872, ⟨[[(0, 137438953472)], [(352187318272, 0)]], 3, 4⟩, ⟨[[(440231433886, 0),
    (3539998258602, 0), (376735192, 0), (8848837, 0), (167247, 0)], [(133297679604, 0), (0, 7911497), (970589, 0),
    (27980, 0), (346, 0)], [(0, 7053854), (31653, 0), (1643, 0), (28, 0)], [(562, 0), (39, 0), (1, 0)]], 3, 4⟩,
    1099511627776, 0, 2466811, ⟨[[(55788436135397, 0), (0, 3217275550), (13072, 0), (0, 504), (1, 0)], [(1197423362,
    0), (0, 280681), (0, 208)], [(0, 148293), (19, 0)], [(19, 0)]], 3, 4⟩, 68719476736, 51633,
    4897135991773956365345534677782640936872556189722803073012098681168922109061297646780822592950, lc0⟩) (.skip))))
    (.sx (.sy (.leaf ⟨3972, 16, 41, 2219, 16, 4941, ⟨[[(0, 137438953472)], [(352187318272, 0)]], 3, 4⟩, ⟨[[(0,
    51969824666), (2549299611404, 0), (283264472, 0), (6322331, 0), (118501, 0)], [(194558642668, 0), (0, 8078287),
    (1430836, 0), (40454, 0), (495, 0)], [(0, 20461622), (98690, 0), (4872, 0), (82, 0), (1, 0)], [(3655, 0), (239,
    0), (6, 0)]], 3, 4⟩, 1099511627776, 0, 26567071, ⟨[[(55725954747476, 0), (0, 4456482860), (37507, 0), (0, 1312),
    (2, 0)], [(2421120390, 0), (0, 788038), (0, 810), (0, 1)], [(0, 603403), (100, 0)], [(152, 0)]], 3, 4⟩,
    68719476736, 91179,
    5210085231334147903648994074635050065782179303155291736216096287907636792933984280776699535859, lc0⟩) (.sx (.sy
    (.leaf ⟨7928, 16, 82, 4444, 16, 9867, ⟨[[(412316860416, 0)], [(352187318272, 0)]], 3, 4⟩, ⟨[[(0, 533631251472),
    (2548307049023, 0), (168994387, 0), (1883636, 0), (16520, 0)], [(195222264093, 0), (426725, 0), (439695, 0),
    (5699, 0), (34, 0)], [(0, 10107454), (31720, 0), (694, 0), (6, 0)], [(1108, 0), (35, 0)]], 3, 4⟩, 1099511627776,
    0, 3910670, ⟨[[(55678165673480, 0), (0, 2228265994), (4942, 0), (0, 155)], [(1212867318, 0), (0, 200329), (0,
    104)], [(0, 151608), (12, 0)], [(19, 0)]], 3, 4⟩, 68719476736, 24332,
    4566733541137262486489209333291438154188181615148648094709021307366440290073550101096001536925, lc0⟩) (.skip))
    (.skip))) (.skip)))) (.sx (.sy (.sx (.leaf ⟨3910, 16, 41, 1504, 16, 3349, ⟨[[(412316860416, 0)], [(352187318272,
    0)]], 3, 4⟩, ⟨[[(140784264037, 0), (3469064135711, 0), (771161189, 0), (29898753, 0), (1150935, 0)],
    [(137229380988, 0), (0, 7159804), (3589433, 0), (206455, 0), (5023, 0)], [(0, 14411333), (137453, 0), (13229, 0),
    (435, 0), (9, 0)], [(2935, 0), (352, 0), (17, 0)]], 3, 4⟩, 1099511627776, 0, 32955926, ⟨[[(55573709002978, 0),
    (0, 6502331520), (191223, 0), (0, 3975), (10, 0)], [(2497757994, 0), (0, 1179508), (0, 1758), (0, 4)], [(0,
    632252), (127, 0)], [(158, 0)]], 3, 4⟩, 68719476736, 251417,
    4402336855070951939079299205876178952769852033128076875412057200853808593343510308931032256542, lc0⟩) (.sy (.sx
    (.leaf ⟨7867, 16, 82, 3040, 16, 6750, ⟨[[(0, 137438953472)], [(352187318272, 0)]], 3, 4⟩, ⟨[[(57828712954, 0),
    (3493295809186, 0), (459935310, 0), (9687133, 0), (171492, 0)], [(136238282366, 0), (1526342, 0), (1164803, 0),
    (30316, 0), (360, 0)], [(0, 7041868), (44142, 0), (1903, 0), (31, 0)], [(824, 0), (49, 0), (1, 0)]], 3, 4⟩,
    1099511627776, 0, 3503279, ⟨[[(55604045617339, 0), (0, 3239308203), (24340, 0), (0, 471), (1, 0)], [(1231618133,
    0), (0, 294881), (0, 222)], [(0, 155150), (17, 0)], [(20, 0)]], 3, 4⟩, 68719476736, 38664,
    4160044352203282066770683485769692831797419292476625805241776518124844852362051723301790795720, lc0⟩) (.sy (.leaf
    ⟨7898, 16, 82, 4426, 16, 9805, ⟨[[(0, 412316860416)], [(352187318272, 0)]], 3, 4⟩, ⟨[[(252750403132, 0),
    (2536377466240, 0), (194333909, 0), (2121321, 0), (17732, 0)], [(195950032847, 0), (5074738, 0), (510535, 0),
    (6214, 0), (36, 0)], [(0, 9972455), (38465, 0), (770, 0), (6, 0)], [(1319, 0), (39, 0)]], 3, 4⟩, 1099511627776,
    0, 4380715, ⟨[[(55619449901559, 0), (0, 2236180060), (3669, 0), (0, 147)], [(1219997326, 0), (0, 204438), (0,
    108)], [(0, 153222), (12, 0)], [(19, 0)]], 3, 4⟩, 68719476736, 27160,
    4842683479482318200078285469911829100019229467169176149468484688464703190411041046448028243462, lc0⟩) (.skip)))
    (.sx (.sy (.leaf ⟨7867, 16, 82, 4409, 16, 9743, ⟨[[(0, 137438953472)], [(352187318272, 0)]], 3, 4⟩, ⟨[[(0,
    346939018113), (2524584203304, 0), (221219505, 0), (2365739, 0), (18953, 0)], [(196695513862, 0), (10095264, 0),
    (584700, 0), (6742, 0), (38, 0)], [(0, 9817715), (45648, 0), (850, 0), (7, 0)], [(1547, 0), (44, 0), (1, 0)]], 3,
    4⟩, 1099511627776, 0, 4990370, ⟨[[(55556827887523, 0), (0, 2243917230), (2409, 0), (0, 136)], [(1227271571, 0),
    (0, 208875), (0, 111)], [(0, 154909), (11, 0)], [(20, 0)]], 3, 4⟩, 68719476736, 30006,
    5134107547077012166474416209462655904055655653729481468484329252220642761282431981783234204375, lc0⟩) (.skip))
    (.skip)))) (.sx (.sy (.sx (.leaf ⟨7805, 16, 82, 3024, 16, 6683, ⟨[[(412316860416, 0)], [(352187318272, 0)]], 3,
    4⟩, ⟨[[(0, 119480718218), (3469705637017, 0), (587718250, 0), (12063497, 0), (195655, 0)], [(137637300250, 0),
    (13395970, 0), (1529561, 0), (35621, 0), (405, 0)], [(0, 6894431), (62085, 0), (2310, 0), (36, 0)], [(1118, 0),
    (62, 0), (1, 0)]], 3, 4⟩, 1099511627776, 0, 4646007, ⟨[[(55480976435317, 0), (0, 3252426141), (20008, 0), (0,
    412), (1, 0)], [(1246787474, 0), (0, 306374), (0, 234)], [(0, 158605), (15, 0)], [(20, 0)]], 3, 4⟩, 68719476736,
    42577, 4646746900055669261327003555857554144660813648397787936672942957009251002610242129609154160801, lc0⟩)
    (.skip)) (.skip)) (.skip))) (.skip))) (.skip)) (.skip)) (.skip)
theorem c89 : checkC job ⟨6, 8, 8, 10, 9, 13⟩ 1 25 lims t89 1168 48 16 45 3 256 = true := by decide +kernel

def t90 : CTree :=
  .out ⟨704, 99, 8, 405, 16, 219, ⟨[[], [(2199023255552, 0)]], 1, 1⟩, ⟨[[(0, 36340441001), (0, 3426508859311)], [(0,
    124972762200), (0, 2670329304)]], 1, 1⟩, 1099511627776, 0, 501291132316, ⟨[], 0, 0⟩, 0, 0, 0, lc0⟩ 0 1
    5666385682648
theorem c90 : checkC job ⟨6, 8, 8, 10, 9, 13⟩ 1 25 lims t90 352 48 4 3 3 256 = true := by decide +kernel

def t91 : CTree :=
  .sx (.sy (.out ⟨656, 50, 8, 776, 16, 431, ⟨[[], [(1099511627776, 0)]], 1, 1⟩, ⟨[[(0, 305341529810), (0,
    3235020901257)], [(0, 140965006816), (0, 1523806079)]], 1, 1⟩, 1099511627776, 0, 199779049430, ⟨[], 0, 0⟩, 0, 0,
    0, lc0⟩ 0 1 3770657357432) (.sx (.out ⟨632, 26, 8, 954, 16, 540, ⟨[[], [(549755813888, 0)]], 1, 1⟩,
    ⟨[[(34727454478, 0), (0, 3973831864690)], [(0, 96151649976), (0, 1049350065)]], 1, 1⟩, 1099511627776, 0,
    79059244037, ⟨[], 0, 0⟩, 0, 0, 0, lc0⟩ 0 1 2487116210525) (.sy (.out ⟨680, 26, 8, 1508, 16, 856, ⟨[[],
    [(549755813888, 0)]], 1, 1⟩, ⟨[[(99783908289, 0), (0, 3229857288096)], [(0, 143775988852), (0, 749940996)]], 1,
    1⟩, 1099511627776, 0, 93615410123, ⟨[], 0, 0⟩, 0, 0, 0, lc0⟩ 0 1 1663480320341) (.sx (.out ⟨835, 16, 10, 1879,
    16, 1077, ⟨[[], [(343597383680, 0)]], 1, 1⟩, ⟨[[(431844861007, 0), (0, 4031776908180)], [(0, 94377999019), (0,
    494114399)]], 1, 1⟩, 1099511627776, 0, 34179665308, ⟨[], 0, 0⟩, 0, 0, 0, lc0⟩ 0 1 1068984308759) (.sy (.out ⟨865,
    16, 10, 2973, 16, 1706, ⟨[[], [(343597383680, 0)]], 1, 1⟩, ⟨[[(0, 84057128718), (0, 3231098558405)], [(0,
    144972180221), (0, 370324588)]], 1, 1⟩, 1099511627776, 0, 45417253088, ⟨[], 0, 0⟩, 0, 0, 0, lc0⟩ 0 1
    683958923893) (.leaf ⟨1115, 16, 10, 117, 16, 1725, ⟨[[], [(343597383680, 0)]], 3, 4⟩, ⟨[[(0, 232768084280),
    (3264824382005, 0), (0, 149857107), (4164574, 0), (0, 13381)], [(148843216890, 0), (377614275, 0), (240275, 0),
    (0, 2869), (0, 32)], [(0, 18553593), (0, 105063), (0, 529), (0, 6)], [(0, 1772), (1, 0)]], 3, 4⟩, 1099511627776,
    0, 6376180, ⟨[[(68033625845845, 0), (0, 20548134679), (6347059, 0), (0, 634), (0, 1)], [(8851867675, 0),
    (3065817, 0), (0, 6381), (0, 3)], [(0, 5537572), (0, 6468), (5, 0)], [(3328, 0), (5, 0)]], 3, 4⟩, 68719476736,
    210538, 3041946617869331897766355951325468715646591043805367424379417936663910295593230509661198901852,
    lc0⟩)))))) (.sy (.sx (.out ⟨728, 26, 8, 964, 16, 542, ⟨[[], [(549755813888, 0)]], 1, 1⟩, ⟨[[(279444280229, 0),
    (0, 4197297680506)], [(0, 83037483640), (0, 835803294)]], 1, 1⟩, 1099511627776, 0, 88902365091, ⟨[], 0, 0⟩, 0, 0,
    0, lc0⟩ 0 1 1832769671177) (.sy (.sx (.out ⟨955, 16, 10, 1937, 16, 1088, ⟨[[], [(343597383680, 0)]], 1, 1⟩,
    ⟨[[(0, 472554001382), (0, 4280095150179)], [(0, 79177268380), (0, 385933141)]], 1, 1⟩, 1099511627776, 0,
    42009950643, ⟨[], 0, 0⟩, 0, 0, 0, lc0⟩ 0 1 1463243809538) (.out ⟨985, 16, 10, 1930, 16, 1088, ⟨[[],
    [(343597383680, 0)]], 1, 1⟩, ⟨[[(0, 281343861557), (0, 4316274239212)], [(0, 77178102281), (0, 368013015)]], 1,
    1⟩, 1099511627776, 0, 41738765782, ⟨[], 0, 0⟩, 0, 0, 0, lc0⟩ 0 1 866046914622)) (.leaf ⟨976, 25, 8, 40, 16, 891,
    ⟨[[], [(549755813888, 0)]], 3, 4⟩, ⟨[[(0, 152893625434), (3506874800728, 0), (0, 910853735), (20287815, 0), (0,
    139739)], [(131800517345, 0), (631473425, 0), (1016472, 0), (0, 24176), (0, 634)], [(0, 35940861), (0, 306460),
    (0, 929), (0, 107), (0, 1)], [(0, 3639), (176, 0), (1, 0)]], 3, 4⟩, 1099511627776, 0, 40442615,
    ⟨[[(69717469137529, 0), (0, 40170920401), (21820676, 0), (0, 4722), (0, 29)], [(9639362909, 0), (5506077, 0), (0,
    24172), (0, 22)], [(0, 6811072), (0, 16677), (22, 0)], [(5288, 0), (11, 0)]], 3, 4⟩, 68719476736, 2194071,
    4235962315670954142255845078555010467214083485004268515361346775321822075150111210735755662295, lc0⟩))) (.sx (.sy
    (.sx (.sy (.out ⟨895, 16, 10, 3040, 16, 1731, ⟨[[], [(343597383680, 0)]], 1, 1⟩, ⟨[[(0, 3763741180), (0,
    3320461980017)], [(0, 139346500646), (0, 350825907)]], 1, 1⟩, 1099511627776, 0, 45707096286, ⟨[], 0, 0⟩, 0, 0, 0,
    lc0⟩ 0 1 970901732091) (.leaf ⟨1145, 16, 10, 95, 16, 1752, ⟨[[], [(343597383680, 0)]], 3, 4⟩, ⟨[[(56310371314,
    0), (3356772353736, 0), (0, 288135051), (4655569, 0), (0, 14449)], [(143177464807, 0), (358331873, 0), (252083,
    0), (0, 2355), (0, 35)], [(0, 18108570), (0, 94249), (0, 369), (0, 5)], [(0, 1478), (9, 0)]], 3, 4⟩,
    1099511627776, 0, 5558722, ⟨[[(68777804633632, 0), (0, 20432220528), (6016042, 0), (0, 555), (0, 1)],
    [(8461983060, 0), (2927431, 0), (0, 5724), (0, 2)], [(0, 5101227), (0, 6133), (4, 0)], [(3067, 0), (5, 0)]], 3,
    4⟩, 68719476736, 240241,
    3079229138222713966473646313249635105147438752691031859846090811445775775646463936679783587766, lc0⟩)) (.leaf
    ⟨1175, 16, 10, 62, 16, 1099, ⟨[[], [(343597383680, 0)]], 3, 4⟩, ⟨[[(0, 477486710057), (4255535364151, 0), (0,
    772174434), (23016681, 0), (0, 170999)], [(86968528008, 0), (425761245, 0), (522909, 0), (0, 15205), (0, 393)],
    [(0, 11424569), (0, 111321), (0, 844), (0, 31)], [(0, 727), (18, 0)]], 3, 4⟩, 1099511627776, 0, 4267102,
    ⟨[[(68949119378181, 0), (0, 32369632115), (14843849, 0), (0, 2651), (0, 11)], [(8173865477, 0), (4031965, 0), (0,
    13975), (0, 11)], [(0, 4852976), (0, 9119), (10, 0)], [(2954, 0), (6, 0)]], 3, 4⟩, 68719476736, 243553,
    4248865239077731807603466451699538945262258238938036492072211460306210021037176881904864587089, lc0⟩)) (.leaf
    ⟨928, 25, 8, 64, 16, 865, ⟨[[], [(549755813888, 0)]], 3, 4⟩, ⟨[[(0, 415758383265), (3327508607402, 0), (0,
    321644016), (15418279, 0), (0, 145294)], [(142772943940, 0), (695998804, 0), (469409, 0), (0, 34093), (0, 633)],
    [(0, 37875536), (0, 399507), (0, 4397), (0, 111), (0, 1)], [(0, 4751), (72, 0), (0, 3)]], 3, 4⟩, 1099511627776,
    0, 50746636, ⟨[[(68204633648741, 0), (0, 40470776395), (24034452, 0), (0, 6679), (0, 25)], [(10499109496, 0),
    (5947454, 0), (0, 30244), (0, 35)], [(0, 8070467), (0, 17876), (25, 0)], [(6142, 0), (16, 0)]], 3, 4⟩,
    68719476736, 3096669,
    5263847881990875863229933778780537714265626324928329622997047465895697054017946700304963570101, lc0⟩)) (.sx
    (.leaf ⟨1205, 16, 10, 46, 16, 623, ⟨[[], [(343597383680, 0)]], 3, 4⟩, ⟨[[(0, 229885809222), (4865602187544, 0),
    (0, 1248302815), (84230784, 0), (0, 2118375)], [(48737038734, 0), (460795691, 0), (304291, 0), (0, 124254), (0,
    4329)], [(0, 6761445), (0, 126775), (0, 2863), (0, 188), (0, 3)], [(0, 250), (24, 0), (0, 1)]], 3, 4⟩,
    1099511627776, 0, 9719342, ⟨[[(68577725484571, 0), (0, 55933722799), (44300013, 0), (0, 21368), (0, 113)],
    [(7952563996, 0), (5245382, 0), (0, 44027), (0, 82)], [(0, 4754809), (0, 14617), (27, 0)], [(2915, 0), (8, 0)]],
    3, 4⟩, 68719476736, 1068782,
    4198141126060764673885144204846244921479642521110523442780707890941744136990270438669628953623, lc0⟩) (.leaf
    ⟨1235, 16, 10, 50, 16, 621, ⟨[[], [(343597383680, 0)]], 3, 4⟩, ⟨[[(0, 188131555127), (4892934034000, 0), (0,
    1242564154), (70244979, 0), (0, 2551025)], [(47280853313, 0), (435749496, 0), (0, 279528), (0, 162964), (0,
    4837)], [(0, 6792946), (0, 118952), (0, 3239), (0, 221), (0, 3)], [(0, 121), (27, 0), (0, 2)]], 3, 4⟩,
    1099511627776, 0, 10449757, ⟨[[(68580702543559, 0), (0, 55611252749), (42966336, 0), (0, 26227), (0, 124)],
    [(7692531994, 0), (4042569, 0), (0, 43930), (0, 95)], [(0, 4556749), (0, 13839), (23, 0)], [(2797, 0), (6, 0)]],
    3, 4⟩, 68719476736, 1251480,
    3012089791436507021544966174754405225811039531616405292810603925259812857697059031341848651702, lc0⟩))))
theorem c91 : checkC job ⟨6, 8, 8, 10, 9, 13⟩ 1 25 lims t91 352 48 4 9 3 256 = true := by decide +kernel

def t92 : CTree :=
  .sx (.sy (.out ⟨632, 26, 8, 1441, 16, 830, ⟨[[], [(549755813888, 0)]], 1, 1⟩, ⟨[[(465353875159, 0), (0,
    3045752941131)], [(0, 155193475144), (0, 838658762)]], 1, 1⟩, 1099511627776, 0, 92334234074, ⟨[], 0, 0⟩, 0, 0, 0,
    lc0⟩ 0 1 1157619751671) (.sx (.sy (.out ⟨775, 16, 10, 2841, 16, 1646, ⟨[[], [(343597383680, 0)]], 1, 1⟩, ⟨[[(0,
    287587605572), (0, 2998485124182)], [(0, 159371268897), (0, 433892071)]], 1, 1⟩, 1099511627776, 0, 43571073493,
    ⟨[], 0, 0⟩, 0, 0, 0, lc0⟩ 0 1 886973860433) (.sx (.out ⟨1535, 16, 20, 3661, 16, 2131, ⟨[[], [(343597383680, 0)]],
    1, 1⟩, ⟨[[(196464562014, 0), (0, 3868468455467)], [(0, 105425604678), (0, 287802720)]], 1, 1⟩, 1099511627776, 0,
    14960362799, ⟨[], 0, 0⟩, 0, 0, 0, lc0⟩ 0 1 636420006228) (.sy (.out ⟨1565, 16, 20, 5631, 16, 3281, ⟨[[],
    [(343597383680, 0)]], 1, 1⟩, ⟨[[(33315286268, 0), (0, 2998900993405)], [(0, 159920480936), (0, 215258416)]], 1,
    1⟩, 1099511627776, 0, 21956233984, ⟨[], 0, 0⟩, 0, 0, 0, lc0⟩ 0 1 417234480868) (.leaf ⟨2065, 16, 20, 295, 16,
    3330, ⟨[[], [(343597383680, 0)]], 3, 4⟩, ⟨[[(531490365314, 0), (3044029632360, 0), (36982722, 0), (939936, 0),
    (0, 731)], [(163622998393, 0), (219579399, 0), (89487, 0), (0, 309), (0, 1)], [(0, 9468907), (0, 31337), (0,
    91)], [(0, 794), (0, 3)]], 3, 4⟩, 1099511627776, 0, 920516, ⟨[[(66525872094076, 0), (0, 10544464911), (1840561,
    0), (0, 74)], [(4989861259, 0), (966969, 0), (0, 1021)], [(0, 1675030), (0, 1008)], [(507, 0), (1, 0)]], 3, 4⟩,
    68719476736, 96319,
    4436289209256367371656266054309226251224265433370220757959137078446298142276204167319589189756, lc0⟩)))) (.sx
    (.sy (.out ⟨1595, 16, 20, 3671, 16, 2135, ⟨[[], [(343597383680, 0)]], 1, 1⟩, ⟨[[(273031856762, 0), (0,
    3929041981731)], [(0, 101684062186), (0, 270698995)]], 1, 1⟩, 1099511627776, 0, 14695761133, ⟨[], 0, 0⟩, 0, 0, 0,
    lc0⟩ 0 1 395330487167) (.leaf ⟨2095, 16, 20, 196, 16, 2165, ⟨[[], [(343597383680, 0)]], 3, 4⟩, ⟨[[(0,
    100953820120), (3984866780608, 0), (94929518, 0), (4772314, 0), (0, 8992)], [(104767641062, 0), (277023540, 0),
    (194250, 0), (0, 1860), (0, 12)], [(0, 6237200), (0, 41049), (0, 244), (0, 2)], [(0, 472), (0, 3)]], 3, 4⟩,
    1099511627776, 0, 813111, ⟨[[(66606121355703, 0), (0, 16139253573), (4279014, 0), (0, 300)], [(4896549008, 0),
    (1376565, 0), (0, 2369), (0, 1)], [(0, 1636143), (0, 1471), (1, 0)], [(498, 0), (1, 0)]], 3, 4⟩, 68719476736,
    72359, 3430978058243824573605130276091962601490088516993372494422087909450792076130175213614835301249, lc0⟩))
    (.leaf ⟨2125, 16, 20, 114, 16, 1268, ⟨[[], [(343597383680, 0)]], 3, 4⟩, ⟨[[(0, 377060157564), (4697792891555, 0),
    (162875084, 0), (22036676, 0), (0, 100566)], [(60179690688, 0), (314066211, 0), (386735, 0), (0, 9572), (0,
    130)], [(0, 3657072), (0, 47375), (0, 568), (0, 8)], [(0, 249), (0, 3)]], 3, 4⟩, 1099511627776, 0, 734777,
    ⟨[[(66773379104173, 0), (0, 27507565531), (12273429, 0), (0, 1611), (0, 3)], [(4797961071, 0), (2213841, 0), (0,
    6742), (0, 4)], [(0, 1589991), (0, 2402), (3, 0)], [(484, 0), (1, 0)]], 3, 4⟩, 68719476736, 127116,
    3387858737634434880270157433037544965183835638894601336266732557018341979418697679975146992760, lc0⟩)))) (.sy
    (.sx (.sx (.sy (.out ⟨1655, 16, 20, 3720, 16, 2148, ⟨[[], [(343597383680, 0)]], 1, 1⟩, ⟨[[(0, 395798035562), (0,
    4004912922891)], [(0, 96903817157), (0, 253352118)]], 1, 1⟩, 1099511627776, 0, 15418700469, ⟨[], 0, 0⟩, 0, 0, 0,
    lc0⟩ 0 1 602948340150) (.leaf ⟨2155, 16, 20, 171, 16, 2180, ⟨[[], [(343597383680, 0)]], 3, 4⟩, ⟨[[(135402510572,
    0), (4063492896281, 0), (0, 44525717), (4980401, 0), (0, 13109)], [(99897269892, 0), (259421061, 0), (175784, 0),
    (0, 1849), (0, 17)], [(0, 6051704), (0, 37255), (0, 208), (0, 2)], [(0, 372), (0, 2)]], 3, 4⟩, 1099511627776, 0,
    797915, ⟨[[(67317416588480, 0), (0, 16167220024), (4108824, 0), (0, 301)], [(4672343068, 0), (1315638, 0), (0,
    2169), (0, 1)], [(0, 1513036), (0, 1378), (1, 0)], [(456, 0), (1, 0)]], 3, 4⟩, 68719476736, 98080,
    3288145306861595010179285957315369634141640571433494435829173195625598912227207828301288846527, lc0⟩)) (.leaf
    ⟨2185, 16, 20, 98, 16, 1266, ⟨[[], [(343597383680, 0)]], 3, 4⟩, ⟨[[(0, 71650222048), (4748500195947, 0), (0,
    170678881), (23060935, 0), (0, 137667)], [(56894479941, 0), (291950488, 0), (356861, 0), (0, 9229), (0, 169)],
    [(0, 3509268), (0, 42248), (0, 470), (0, 9)], [(0, 194), (0, 1)]], 3, 4⟩, 1099511627776, 0, 564209,
    ⟨[[(67492516158124, 0), (0, 27804751063), (11998925, 0), (0, 1639), (0, 4)], [(4579994791, 0), (2142479, 0), (0,
    6272), (0, 4)], [(0, 1469553), (0, 2281), (2, 0)], [(443, 0), (1, 0)]], 3, 4⟩, 68719476736, 61404,
    3159218392976125408949361610933804916305321966672633672603947240831982319288043432279144308971, lc0⟩)) (.leaf
    ⟨1115, 16, 10, 90, 16, 1086, ⟨[[], [(343597383680, 0)]], 3, 4⟩, ⟨[[(379473465050, 0), (4108667642499, 0), (0,
    110920620), (18484833, 0), (0, 139926)], [(95856909914, 0), (479914720, 0), (370463, 0), (0, 20282), (0, 317)],
    [(0, 12305661), (0, 146096), (0, 1746), (0, 33)], [(0, 1119), (0, 3), (0, 1)]], 3, 4⟩, 1099511627776, 0, 5000096,
    ⟨[[(67504546895077, 0), (0, 32117439792), (15875622, 0), (0, 3088), (0, 8)], [(8927090167, 0), (4333434, 0), (0,
    16741), (0, 14)], [(0, 5702259), (0, 9886), (12, 0)], [(3467, 0), (8, 0)]], 3, 4⟩, 68719476736, 331715,
    3297901812493496513076872277135228691666244572905820659507708282818670195196123760995806193723, lc0⟩)) (.leaf
    ⟨880, 25, 8, 83, 16, 836, ⟨[[], [(549755813888, 0)]], 3, 4⟩, ⟨[[(513618265735, 0), (3145153657455, 0),
    (145968447, 0), (12675632, 0), (0, 88050)], [(153972994383, 0), (767029107, 0), (248318, 0), (0, 36808), (0,
    378)], [(0, 40255856), (0, 519588), (0, 6885), (0, 103)], [(0, 8126), (0, 91), (0, 5)]], 3, 4⟩, 1099511627776, 0,
    60211927, ⟨[[(66800901251130, 0), (0, 41066301394), (26935347, 0), (0, 7436), (0, 19)], [(11472023718, 0),
    (6515325, 0), (0, 37770), (0, 45)], [(0, 9436976), (0, 20007), (30, 0)], [(7257, 0), (22, 0)]], 3, 4⟩,
    68719476736, 3958980,
    3797480606384548437091623328280622982581792908034045576168577935050801879715943798181960700961, lc0⟩))
theorem c92 : checkC job ⟨6, 8, 8, 10, 9, 13⟩ 1 25 lims t92 656 48 8 27 3 512 = true := by decide +kernel

def t93 : CTree :=
  .sx (.sy (.sx (.sy (.sx (.sy (.out ⟨1535, 16, 20, 5563, 16, 3252, ⟨[[], [(343597383680, 0)]], 1, 1⟩, ⟨[[(0,
    47314539876), (0, 2952287215509)], [(0, 162868943525), (0, 221451170)]], 1, 1⟩, 1099511627776, 0, 22310519009,
    ⟨[], 0, 0⟩, 0, 0, 0, lc0⟩ 0 1 344876021889) (.leaf ⟨2035, 16, 20, 311, 16, 3299, ⟨[[], [(343597383680, 0)]], 3,
    4⟩, ⟨[[(207377841290, 0), (2995589965592, 0), (61275123, 0), (930051, 0), (0, 522)], [(166574311488, 0),
    (225831798, 0), (95769, 0), (0, 293), (0, 1)], [(0, 9520730), (0, 32341), (0, 96)], [(0, 885), (0, 4)]], 3, 4⟩,
    1099511627776, 0, 1021273, ⟨[[(66175231636557, 0), (0, 10602342628), (1902874, 0), (0, 73)], [(5110839094, 0),
    (998492, 0), (0, 1078)], [(0, 1741147), (0, 1054)], [(531, 0), (1, 0)]], 3, 4⟩, 68719476736, 95238,
    4320915200550251980163967571251139104348545777626978422155503718837085220966278628582796273338, lc0⟩)) (.leaf
    ⟨2065, 16, 20, 208, 16, 2157, ⟨[[], [(343597383680, 0)]], 3, 4⟩, ⟨[[(0, 505072395385), (3944682282161, 0),
    (160688966, 0), (4741777, 0), (0, 6715)], [(107271062172, 0), (286449709, 0), (208943, 0), (0, 1793), (0, 10)],
    [(0, 6321095), (0, 42829), (0, 259), (0, 2)], [(0, 532), (0, 4)]], 3, 4⟩, 1099511627776, 0, 816791,
    ⟨[[(66251781784597, 0), (0, 16130502307), (4372324, 0), (0, 294)], [(5014411421, 0), (1409809, 0), (0, 2476), (0,
    1)], [(0, 1701089), (0, 1525), (1, 0)], [(521, 0), (1, 0)]], 3, 4⟩, 68719476736, 66153,
    3401995768034909455849926906966045803783826690922982788646502820593089819000134232639750650873, lc0⟩)) (.leaf
    ⟨1025, 16, 10, 170, 16, 1635, ⟨[[], [(343597383680, 0)]], 3, 4⟩, ⟨[[(21263320357, 0), (2981317666900, 0),
    (178620837, 0), (3555495, 0), (0, 3649)], [(166191481213, 0), (444411473, 0), (306330, 0), (0, 2805), (0, 13)],
    [(0, 19725012), (0, 137655), (0, 855), (0, 5)], [(0, 3522), (0, 31)]], 3, 4⟩, 1099511627776, 0, 7816601,
    ⟨[[(65914470489118, 0), (0, 21119717438), (7650150, 0), (0, 690), (0, 1)], [(10177657918, 0), (3625051, 0), (0,
    8870), (0, 4)], [(0, 6999529), (0, 8081), (7, 0)], [(4338, 0), (9, 0)]], 3, 4⟩, 68719476736, 278410,
    3295133152728517049742881827261168572405671282065633722465493546099932345384557535717598011122, lc0⟩)) (.leaf
    ⟨1055, 16, 10, 115, 16, 1070, ⟨[[], [(343597383680, 0)]], 3, 4⟩, ⟨[[(281783037836, 0), (3954844218732, 0),
    (446114700, 0), (17276267, 0), (0, 58623)], [(105404083726, 0), (544835616, 0), (434556, 0), (0, 19271), (0,
    153)], [(0, 13243577), (0, 183782), (0, 2382), (0, 29)], [(0, 1920), (0, 33), (0, 1)]], 3, 4⟩, 1099511627776, 0,
    5712497, ⟨[[(66093544778644, 0), (0, 31987150277), (17221052, 0), (0, 3007), (0, 5)], [(9787009039, 0), (4683761,
    0), (0, 20018), (0, 16)], [(0, 6661728), (0, 11123), (14, 0)], [(4143, 0), (11, 0)]], 3, 4⟩, 68719476736, 401972,
    2094654680108521308201982360601273336651700991950548440224815651340686100637932674931539006500, lc0⟩)) (.leaf
    ⟨832, 25, 8, 99, 16, 804, ⟨[[], [(549755813888, 0)]], 3, 4⟩, ⟨[[(270335904106, 0), (2956939920414, 0),
    (553970253, 0), (12964967, 0), (0, 15238)], [(165391369586, 0), (853939449, 0), (499067, 0), (0, 28984), (0,
    120)], [(0, 42426249), (0, 627984), (0, 8286), (0, 84)], [(0, 14009), (0, 283), (0, 6)]], 3, 4⟩, 1099511627776,
    0, 67481532, ⟨[[(65413008450056, 0), (0, 41888582974), (30779529, 0), (0, 7152), (0, 10)], [(12585078796, 0),
    (7197514, 0), (0, 47108), (0, 51)], [(0, 11003353), (0, 23258), (37, 0)], [(8722, 0), (30, 0)]], 3, 4⟩,
    68719476736, 5131956,
    2655288988090076899987036534534015847499373373616250151113970227608276596031897740225404299626, lc0⟩)) (.leaf
    ⟨880, 25, 8, 69, 16, 528, ⟨[[], [(549755813888, 0)]], 3, 4⟩, ⟨[[(0, 13674186221), (3979741579553, 0),
    (1139637029, 0), (51498670, 0), (0, 445704)], [(101600428613, 0), (962041898, 0), (0, 2251881), (0, 232295), (0,
    1080)], [(0, 28777956), (0, 844374), (0, 24274), (0, 466), (9, 0)], [(0, 5940), (0, 248), (0, 15)]], 3, 4⟩,
    1099511627776, 0, 58383338, ⟨[[(65741328190051, 0), (0, 62808919197), (65892110, 0), (0, 35259), (0, 38)],
    [(11616174475, 0), (7020165, 0), (0, 104336), (0, 204)], [(0, 9942566), (0, 29378), (64, 0)], [(7793, 0), (30,
    0)]], 3, 4⟩, 68719476736, 8892180,
    3315002164620549644553720923764800699013795446828234710445381923756497895317988915227552082336, lc0⟩)
theorem c93 : checkC job ⟨6, 8, 8, 10, 9, 13⟩ 1 25 lims t93 656 48 8 33 3 512 = true := by decide +kernel

def t94 : CTree :=
  .sx (.sy (.leaf ⟨928, 25, 8, 56, 16, 537, ⟨[[], [(549755813888, 0)]], 3, 4⟩, ⟨[[(436740801498, 0), (4128420056355,
    0), (54749740, 0), (49915618, 0), (0, 1422749)], [(92529130959, 0), (862118025, 0), (0, 1859881), (0, 274724),
    (0, 4882)], [(0, 26020062), (0, 630377), (0, 19137), (0, 640)], [(0, 2756), (0, 15), (0, 15)]], 3, 4⟩,
    1099511627776, 0, 47580739, ⟨[[(67160475777851, 0), (0, 63186347974), (60740272, 0), (0, 38137), (0, 134)],
    [(10633504093, 0), (6896347, 0), (0, 86914), (0, 197), (0, 1)], [(0, 8522463), (0, 26832), (55, 0)], [(6524, 0),
    (22, 0)]], 3, 4⟩, 68719476736, 7235113,
    4878411524084420679891868463795460921147271010571157932609918164938941229168973734053759253592, lc0⟩) (.leaf
    ⟨928, 25, 8, 78, 16, 529, ⟨[[], [(549755813888, 0)]], 3, 4⟩, ⟨[[(0, 263898406536), (4071805338952, 0),
    (687609680, 0), (25173718, 0), (0, 426208)], [(96116983919, 0), (795041165, 0), (0, 7343148), (0, 314021), (2052,
    0)], [(0, 30167644), (0, 910615), (0, 28596), (0, 349), (26, 0)], [(0, 3386), (0, 208), (0, 14), (1, 0)]], 3, 4⟩,
    1099511627776, 0, 59935762, ⟨[[(65727971872976, 0), (0, 61350857778), (59581299, 0), (0, 44596), (82, 0)],
    [(10744089532, 0), (2570512, 0), (0, 104477), (0, 205), (1, 0)], [(0, 9117914), (0, 25034), (41, 0)], [(6974, 0),
    (17, 0)]], 3, 4⟩, 68719476736, 11110558,
    3120900925258211193909371674696243915253027227565483565171265672346397747643317269635258547537, lc0⟩)) (.sy
    (.leaf ⟨976, 25, 8, 64, 16, 538, ⟨[[], [(549755813888, 0)]], 3, 4⟩, ⟨[[(413252197700, 0), (4213198057229, 0), (0,
    315213051), (17316165, 0), (0, 1868318)], [(87639896621, 0), (742275049, 0), (0, 6010224), (0, 409422), (0,
    4023)], [(0, 26556683), (0, 633325), (0, 24308), (0, 752), (10, 0)], [(0, 701), (0, 11), (0, 21)]], 3, 4⟩,
    1099511627776, 0, 47535778, ⟨[[(67159609518525, 0), (0, 61915501900), (55284887, 0), (0, 52119), (0, 100)],
    [(9888540108, 0), (3104430, 0), (0, 87417), (0, 234)], [(0, 7826516), (0, 23700), (35, 0)], [(5886, 0), (12,
    0)]], 3, 4⟩, 68719476736, 8845529,
    3666858829097124002726942654236993003392745750673078570548190666486077560746239523760936395923, lc0⟩) (.leaf
    ⟨976, 25, 8, 86, 16, 532, ⟨[[], [(549755813888, 0)]], 3, 4⟩, ⟨[[(422302852886, 0), (4163028119043, 0), (0,
    294281477), (0, 7369424), (90520, 0)], [(90762662338, 0), (617874023, 0), (0, 13268372), (0, 353815), (9723, 0)],
    [(0, 31021273), (0, 978002), (0, 32370), (5, 0), (56, 0)], [(0, 1496), (0, 238), (0, 11), (2, 0)]], 3, 4⟩,
    1099511627776, 0, 63872964, ⟨[[(65765940765931, 0), (0, 60130067179), (52880503, 0), (0, 47211), (306, 0)],
    [(9910939536, 0), (0, 1282229), (0, 104321), (0, 155), (2, 0)], [(0, 8355168), (0, 22660), (26, 0)], [(6103, 0),
    (7, 0)]], 3, 4⟩, 68719476736, 14627648,
    3457501759723751949633815148044035776973963007359340082595476693808888931065091850045648036929, lc0⟩))
theorem c94 : checkC job ⟨6, 8, 8, 10, 9, 13⟩ 1 25 lims t94 752 48 8 15 3 256 = true := by decide +kernel

def t95 : CTree :=
  .sx (.sx (.leaf ⟨832, 25, 8, 53, 16, 303, ⟨[[], [(549755813888, 0)]], 3, 4⟩, ⟨[[(0, 370811591938), (4495760483972,
    0), (6917881161, 0), (337765625, 0), (4005923, 0)], [(67161761440, 0), (1279150500, 0), (0, 5219832), (0,
    733750), (0, 1192)], [(0, 20340798), (0, 1398026), (0, 68782), (0, 1183), (75, 0)], [(0, 7373), (0, 663), (0,
    16), (5, 0)]], 3, 4⟩, 1099511627776, 0, 210758414, ⟨[[(63721856077717, 0), (0, 104450039733), (210436251, 0), (0,
    114000), (1295, 0)], [(12799367559, 0), (7988832, 0), (0, 374414), (0, 694), (13, 0)], [(0, 11910413), (0,
    54068), (236, 0)], [(9866, 0), (66, 0)]], 3, 4⟩, 68719476736, 78115243,
    4811323231497927868445078267628613797780583728143502993941991243725835477908746734189031216171, lc0⟩) (.sy (.leaf
    ⟨880, 25, 8, 89, 16, 517, ⟨[[], [(549755813888, 0)]], 3, 4⟩, ⟨[[(0, 152473087296), (3915471208002, 0),
    (1989974967, 0), (50055292, 0), (381742, 0)], [(105007026636, 0), (891022290, 0), (0, 6209712), (0, 201035),
    (2944, 0)], [(0, 34078077), (0, 1150378), (0, 28952), (0, 54), (25, 0)], [(0, 7731), (0, 367), (0, 1), (2, 0)]],
    3, 4⟩, 1099511627776, 0, 71387139, ⟨[[(64397428221593, 0), (0, 61249886055), (66407645, 0), (0, 30712), (221,
    0)], [(11717783175, 0), (2219839, 0), (0, 121247), (0, 139), (2, 0)], [(0, 10556966), (0, 27363), (61, 0)],
    [(8392, 0), (25, 0)]], 3, 4⟩, 68719476736, 12081901,
    3543479040889067383601349445976686432260700289432489720378739810314252376990361932583436815880, lc0⟩) (.leaf
    ⟨880, 25, 8, 108, 16, 507, ⟨[[], [(549755813888, 0)]], 3, 4⟩, ⟨[[(186851117020, 0), (3868861245501, 0),
    (2937832672, 0), (60117110, 0), (247474, 0)], [(107960921555, 0), (782122988, 0), (0, 8975919), (0, 130407),
    (1052, 0)], [(0, 41187154), (0, 1451554), (0, 23512), (603, 0), (26, 0)], [(0, 9327), (0, 127), (46, 0), (4,
    0)]], 3, 4⟩, 1099511627776, 0, 134777582, ⟨[[(63132621918935, 0), (0, 59627254635), (67858281, 0), (0, 4052),
    (354, 0)], [(11709731881, 0), (0, 3053071), (0, 127733), (115, 0), (4, 0)], [(0, 11105143), (0, 24769), (98, 0),
    (1, 0)], [(8875, 0), (22, 0)]], 3, 4⟩, 68719476736, 14747598,
    3284606561908288258636619972137360563032078581435621999415815445675057989757549696220440017735, lc0⟩))) (.sx (.sy
    (.leaf ⟨928, 25, 8, 98, 16, 521, ⟨[[], [(549755813888, 0)]], 3, 4⟩, ⟨[[(543833460999, 0), (4020988036296, 0),
    (1139021386, 0), (32278772, 0), (982322, 0)], [(99039355330, 0), (666548834, 0), (0, 11708486), (0, 153489),
    (10451, 0)], [(0, 36139350), (0, 1243001), (0, 26543), (646, 0), (55, 0)], [(0, 4781), (0, 208), (21, 0), (3,
    0)]], 3, 4⟩, 1099511627776, 0, 73286985, ⟨[[(64435777046882, 0), (0, 59746867931), (59039985, 0), (0, 22825),
    (469, 0)], [(10749321773, 0), (0, 2177363), (0, 116153), (0, 10), (4, 0)], [(0, 9637141), (0, 23544), (53, 0),
    (1, 0)], [(7295, 0), (13, 0)]], 3, 4⟩, 68719476736, 13432934,
    3544579298930869793308503444393192293322336574864485904833947396326002983052261513300126491186, lc0⟩) (.leaf
    ⟨928, 25, 8, 119, 16, 514, ⟨[[], [(549755813888, 0)]], 3, 4⟩, ⟨[[(0, 150405614207), (3984847467993, 0),
    (1937590850, 0), (57429670, 0), (629104, 0)], [(101219917460, 0), (512122635, 0), (0, 11918300), (98382, 0),
    (6868, 0)], [(0, 43744576), (0, 1423986), (0, 3040), (1833, 0), (26, 0)], [(0, 4360), (482, 0), (98, 0), (4,
    0)]], 3, 4⟩, 1099511627776, 0, 166562445, ⟨[[(63114343597153, 0), (0, 57865031576), (60630181, 0), (19253, 0),
    (222, 0)], [(10641609576, 0), (0, 7352045), (0, 106778), (373, 0), (3, 0)], [(0, 10132552), (0, 19930), (136, 0),
    (2, 0)], [(7571, 0), (13, 0)]], 3, 4⟩, 68719476736, 28630584,
    3400025703828341531026332366603984508836497992047028845143343040334177174592124691808880641650, lc0⟩)) (.sy
    (.leaf ⟨976, 25, 8, 108, 16, 528, ⟨[[], [(549755813888, 0)]], 3, 4⟩, ⟨[[(298005978138, 0), (4128102944834, 0),
    (0, 207351038), (27208102, 0), (2636480, 0)], [(93226727029, 0), (429376588, 0), (0, 16166811), (80623, 0),
    (24726, 0)], [(0, 37681270), (0, 1296152), (0, 16374), (1896, 0), (91, 0)], [(0, 2713), (0, 46), (53, 0), (5,
    0)]], 3, 4⟩, 1099511627776, 0, 65813048, ⟨[[(64420967038479, 0), (0, 58207203786), (51932813, 0), (3484, 0),
    (736, 0)], [(9826403806, 0), (0, 6168865), (0, 104932), (235, 0), (6, 0)], [(0, 8854952), (0, 21000), (68, 0),
    (1, 0)], [(6234, 0), (5, 0)]], 3, 4⟩, 68719476736, 9825835,
    4234210509246327883966116962324386689364241696968462803799871864013681885174439998086631050086, lc0⟩) (.leaf
    ⟨976, 25, 8, 130, 16, 525, ⟨[[], [(549755813888, 0)]], 3, 4⟩, ⟨[[(62305154242, 0), (4107523265882, 0),
    (880239649, 0), (89167551, 0), (1377551, 0)], [(94729218849, 0), (263653912, 0), (0, 9605818), (565466, 0),
    (5147, 0)], [(0, 45276227), (0, 1216528), (31448, 0), (2784, 0), (0, 74)], [(73, 0), (1139, 0), (132, 0), (1, 0),
    (0, 1)]], 3, 4⟩, 1099511627776, 0, 223449760, ⟨[[(63124251861250, 0), (0, 56128317759), (54572725, 0), (40788,
    0), (0, 319)], [(9636035809, 0), (0, 10390740), (0, 74641), (604, 0)], [(0, 9278526), (0, 15339), (200, 0), (2,
    0)], [(6365, 0), (8, 0)]], 3, 4⟩, 68719476736, 46292483,
    4397653569288084594793738366969213378041277874962659224136058467214149724141216898222440149790, lc0⟩)))
theorem c95 : checkC job ⟨6, 8, 8, 10, 9, 13⟩ 1 25 lims t95 352 48 4 21 3 256 = true := by decide +kernel

def t96 : CTree :=
  .sy (.sy (.leaf ⟨856, 49, 8, 90, 16, 365, ⟨[[], [(1099511627776, 0)]], 3, 4⟩, ⟨[[(0, 499712567235), (2789647515938,
    0), (3223153943, 0), (39240825, 0), (0, 1212838)], [(168596142216, 0), (1183718069, 0), (0, 14759028), (0,
    428116), (0, 15817)], [(0, 141494986), (0, 4980647), (0, 66694), (1100, 0), (6, 0)], [(0, 71656), (1481, 0),
    (478, 0), (20, 0)]], 3, 4⟩, 1099511627776, 0, 3365666868, ⟨[[(61852118391884, 0), (0, 79390566820), (136835762,
    0), (0, 7293), (0, 1140)], [(12189742439, 0), (0, 8644444), (0, 241120), (512, 0), (0, 1)], [(0, 12189272), (0,
    30661), (316, 0), (4, 0)], [(10139, 0), (37, 0)]], 3, 4⟩, 68719476736, 387304016,
    3778991486556108761515936204902122995190735667637072927725056185642127049789894784057892791566, lc0⟩) (.sx (.leaf
    ⟨832, 25, 8, 132, 16, 476, ⟨[[], [(549755813888, 0)]], 3, 4⟩, ⟨[[(0, 358294576865), (3658049345648, 0),
    (5365768952, 0), (9279467, 0), (0, 3473147)], [(119508585185, 0), (801147348, 0), (0, 15118231), (0, 614816), (0,
    12338)], [(0, 55020662), (0, 2001432), (0, 31592), (169, 0), (43, 0)], [(0, 14720), (684, 0), (109, 0), (4, 0)]],
    3, 4⟩, 1099511627776, 0, 431603117, ⟨[[(60681801324486, 0), (0, 58288553039), (82641809, 0), (0, 64319), (0,
    1570)], [(12681372247, 0), (0, 9782391), (0, 147383), (0, 78), (0, 8)], [(0, 13287901), (0, 19513), (242, 0), (1,
    0)], [(11653, 0), (37, 0)]], 3, 4⟩, 68719476736, 44905471,
    3738045380982368105480179155800809725499665110415048969023411714080989452726103050851962003298, lc0⟩) (.leaf
    ⟨880, 25, 8, 145, 16, 488, ⟨[[], [(549755813888, 0)]], 3, 4⟩, ⟨[[(230308507671, 0), (3811190396084, 0),
    (3819795520, 0), (0, 47194168), (0, 4435771)], [(111423300317, 0), (461603641, 0), (0, 18439986), (0, 548488),
    (0, 7470)], [(0, 58394539), (0, 1626271), (590, 0), (181, 0), (0, 17)], [(1515, 0), (2107, 0), (84, 0), (0, 6),
    (0, 1)]], 3, 4⟩, 1099511627776, 0, 596725524, ⟨[[(60713089396214, 0), (0, 55976118131), (69541650, 0), (0,
    142856), (0, 2308)], [(11362609431, 0), (0, 13426186), (0, 121526), (0, 369), (0, 11)], [(0, 11876342), (0,
    9189), (281, 0)], [(9908, 0), (33, 0)]], 3, 4⟩, 68719476736, 29373698,
    2809277422259445067186779381166335644471396948065079634635188702191435360779686536960565080144, lc0⟩))) (.sy (.sx
    (.sx (.leaf ⟨1025, 16, 10, 177, 16, 566, ⟨[[], [(343597383680, 0)]], 3, 4⟩, ⟨[[(287671350794, 0), (4406528613701,
    0), (6442604946, 0), (0, 61142352), (0, 2048542)], [(75435937104, 0), (394332341, 0), (0, 15251758), (0, 331844),
    (19316, 0)], [(0, 20031809), (0, 728792), (0, 6423), (852, 0), (69, 0)], [(0, 1820), (293, 0), (30, 0), (1, 0)]],
    3, 4⟩, 1099511627776, 0, 176336371, ⟨[[(59570712590271, 0), (0, 46602608309), (55353915, 0), (0, 109080), (0,
    806)], [(10243231282, 0), (0, 9893234), (0, 97639), (0, 313), (0, 2)], [(0, 8959980), (0, 6740), (112, 0)],
    [(6632, 0), (20, 0)]], 3, 4⟩, 68719476736, 17689755,
    4299081037800174476128162431814686928383261095876198146397817475817928705737893198604409019276, lc0⟩) (.leaf
    ⟨1055, 16, 10, 185, 16, 571, ⟨[[], [(343597383680, 0)]], 3, 4⟩, ⟨[[(331702861961, 0), (4477163780027, 0),
    (4988489191, 0), (0, 85152485), (427171, 0)], [(72189248922, 0), (266123372, 0), (0, 15840866), (0, 149357),
    (32062, 0)], [(0, 20460741), (0, 631025), (1335, 0), (1006, 0), (57, 0)], [(70, 0), (410, 0), (22, 0)]], 3, 4⟩,
    1099511627776, 0, 258837957, ⟨[[(59572971056113, 0), (0, 45845006906), (49200447, 0), (0, 132350), (0, 411)],
    [(9653818191, 0), (0, 11344713), (0, 95615), (0, 345)], [(0, 8418760), (0, 3515), (113, 0)], [(6134, 0), (19,
    0)]], 3, 4⟩, 68719476736, 32491961,
    3818987833678034002871086412459543545090077151508170087022033681089229786542754495659768395958, lc0⟩)) (.sx
    (.leaf ⟨1085, 16, 10, 193, 16, 576, ⟨[[], [(343597383680, 0)]], 3, 4⟩, ⟨[[(120772867853, 0), (4536644379737, 0),
    (3525309523, 0), (0, 91649868), (3966022, 0)], [(68876538556, 0), (157799935, 0), (0, 15313673), (19753, 0),
    (40103, 0)], [(0, 20374283), (0, 517527), (4386, 0), (668, 0), (20, 0)], [(1685, 0), (383, 0), (0, 3), (0, 2)]],
    3, 4⟩, 1099511627776, 0, 372528971, ⟨[[(59564868342113, 0), (0, 45221985235), (42935177, 0), (0, 139412), (410,
    0)], [(9088344374, 0), (0, 12556327), (0, 93194), (0, 276), (5, 0)], [(0, 7899006), (0, 309), (118, 0)], [(5697,
    0), (19, 0)]], 3, 4⟩, 68719476736, 47157226,
    2686594849878409765457522035658398500586182654442972259445903294964456050576787996420277836684, lc0⟩) (.leaf
    ⟨1115, 16, 10, 201, 16, 582, ⟨[[], [(343597383680, 0)]], 3, 4⟩, ⟨[[(29474528293, 0), (4594693159615, 0),
    (2106965772, 0), (0, 86688649), (7958023, 0)], [(65698649588, 0), (68080028, 0), (0, 15030636), (78001, 0),
    (40674, 0)], [(0, 19948654), (0, 439850), (0, 1500), (0, 100), (0, 13)], [(2559, 0), (157, 0), (0, 38), (0, 3)]],
    3, 4⟩, 1099511627776, 0, 528764285, ⟨[[(59561644418009, 0), (0, 44670800997), (37043474, 0), (0, 117563), (1592,
    0)], [(8552025018, 0), (0, 13422746), (0, 87120), (0, 53), (12, 0)], [(0, 7396294), (2936, 0), (131, 0), (1, 0)],
    [(5314, 0), (20, 0)]], 3, 4⟩, 68719476736, 55533364,
    3550837363163428453899983809423040828213817756141371523356629511992700549678073463089573947315, lc0⟩))) (.sx (.sx
    (.leaf ⟨1025, 16, 10, 198, 16, 557, ⟨[[], [(343597383680, 0)]], 3, 4⟩, ⟨[[(332812524380, 0), (4406574293741, 0),
    (5615638954, 0), (30911128, 0), (9820501, 0)], [(75991999281, 0), (200013820, 0), (0, 13366440), (603621, 0),
    (32756, 0)], [(0, 23972982), (0, 645664), (20802, 0), (1344, 0), (0, 173)], [(1156, 0), (683, 0), (18, 0), (0,
    6), (0, 1)]], 3, 4⟩, 1099511627776, 0, 545202957, ⟨[[(58473659982621, 0), (0, 44851186116), (48180223, 0), (0,
    96728), (1530, 0)], [(9942120688, 0), (0, 15390131), (0, 118458), (97, 0), (13, 0)], [(0, 9059368), (0, 1468),
    (124, 0), (1, 0)], [(7148, 0), (24, 0)]], 3, 4⟩, 68719476736, 42030115,
    3399159848290373111049426829243416729240381979548518714277269758131374667752582631929396320727, lc0⟩) (.leaf
    ⟨1055, 16, 10, 207, 16, 564, ⟨[[], [(343597383680, 0)]], 3, 4⟩, ⟨[[(342064014434, 0), (4475947811809, 0),
    (4583041585, 0), (95707888, 0), (10589077, 0)], [(72338434666, 0), (94504665, 0), (0, 9591723), (641798, 0), (0,
    30606)], [(0, 23645824), (0, 484528), (16417, 0), (0, 1421), (0, 515)], [(2948, 0), (419, 0), (0, 56), (0, 14),
    (0, 1)]], 3, 4⟩, 1099511627776, 0, 1220142296, ⟨[[(58474383020259, 0), (0, 44192007173), (42415907, 0), (0,
    33903), (2266, 0)], [(9313625054, 0), (0, 16592039), (0, 100757), (590, 0), (18, 0)], [(0, 8435500), (2528, 0),
    (165, 0), (2, 0)], [(6661, 0), (25, 0)]], 3, 4⟩, 68719476736, 30210796,
    3738632478466277510604787474945476136538347578633984710819047576153516964817949867013821449719, lc0⟩)) (.sy
    (.leaf ⟨880, 25, 8, 271, 16, 726, ⟨[[], [(549755813888, 0)]], 3, 4⟩, ⟨[[(0, 406240323295), (2877670153462, 0),
    (886343861, 0), (16665336, 0), (682098, 0)], [(169275787201, 0), (0, 8287879), (0, 6557558), (75291, 0), (0,
    14892)], [(0, 111600939), (0, 1141210), (0, 9488), (0, 2380), (0, 214)], [(28190, 0), (0, 780), (0, 248), (0,
    15), (0, 1)]], 3, 4⟩, 1099511627776, 0, 5071189542, ⟨[[(58718918755737, 0), (0, 34695304474), (23198561, 0),
    (19165, 0), (1055, 0)], [(10668640534, 0), (0, 16292817), (0, 56210), (657, 0), (10, 0)], [(0, 11828701), (8909,
    0), (211, 0), (3, 0)], [(11580, 0), (41, 0)]], 3, 4⟩, 68719476736, 39139208,
    4114764228299601253932976416533848777550514311099880010552097395820937836631037587719833509939, lc0⟩) (.sx (.leaf
    ⟨1085, 16, 10, 371, 16, 954, ⟨[[], [(343597383680, 0)]], 3, 4⟩, ⟨[[(407290878689, 0), (3799821117904, 0),
    (1800275540, 0), (15343553, 0), (0, 2517869)], [(114810039521, 0), (0, 18696545), (0, 5262436), (0, 370679), (0,
    42156)], [(0, 39711593), (0, 460163), (0, 24324), (0, 2979), (0, 166)], [(3785, 0), (0, 670), (0, 110), (0, 7)]],
    3, 4⟩, 1099511627776, 0, 385016716, ⟨[[(58201288154433, 0), (0, 25834519213), (14375290, 0), (14735, 0), (0,
    87)], [(8611098481, 0), (0, 10715047), (0, 16369), (304, 0)], [(0, 7769798), (6365, 0), (111, 0), (1, 0)],
    [(6440, 0), (19, 0)]], 3, 4⟩, 68719476736, 16588907,
    2424221700693373458890858207820518144897864647711380777676358128640986258580252171034041386977, lc0⟩) (.leaf
    ⟨1115, 16, 10, 389, 16, 975, ⟨[[], [(343597383680, 0)]], 3, 4⟩, ⟨[[(497230130740, 0), (3876532655839, 0),
    (990700050, 0), (0, 54713891), (0, 8443967)], [(109612819089, 0), (0, 134571401), (0, 13399141), (0, 1146564),
    (0, 80675)], [(0, 40082759), (0, 754605), (0, 58231), (0, 4856), (0, 215)], [(0, 256), (0, 1116), (0, 100), (0,
    5)]], 3, 4⟩, 1099511627776, 0, 577617976, ⟨[[(58202513344986, 0), (0, 25317215368), (13923776, 0), (8739, 0), (0,
    711)], [(8062374008, 0), (0, 10139384), (653, 0), (289, 0), (0, 3)], [(0, 7122433), (10521, 0), (146, 0), (1,
    0)], [(6156, 0), (22, 0)]], 3, 4⟩, 68719476736, 25821548,
    3910139212278758940832878349829785427922519235922153272444780257107370483899459222118641106340, lc0⟩)))))
theorem c96 : checkC job ⟨6, 8, 8, 10, 9, 13⟩ 1 25 lims t96 656 48 8 15 3 128 = true := by decide +kernel

def t97 : CTree :=
  .sy (.sx (.sy (.sx (.sy (.leaf ⟨1025, 16, 10, 352, 16, 907, ⟨[[], [(343597383680, 0)]], 3, 4⟩, ⟨[[(500387288454,
    0), (3633044534893, 0), (2825408438, 0), (19479485, 0), (0, 1514207)], [(124858124579, 0), (91711558, 0), (0,
    3717534), (0, 185173), (0, 28243)], [(0, 43110341), (0, 422998), (0, 7888), (0, 2161), (0, 123)], [(5806, 0),
    (16, 0), (0, 95), (0, 7)]], 3, 4⟩, 1099511627776, 0, 282115487, ⟨[[(57674331877531, 0), (0, 26502263078),
    (17403271, 0), (0, 221), (0, 90)], [(9625602520, 0), (0, 11818938), (0, 31901), (239, 0)], [(0, 9034301), (3101,
    0), (98, 0), (1, 0)], [(7626, 0), (19, 0)]], 3, 4⟩, 68719476736, 15546542,
    2027299326225119995807649261589809214877774476569230938702481269643239008626552863050527037291, lc0⟩) (.leaf
    ⟨1025, 16, 10, 369, 16, 900, ⟨[[], [(343597383680, 0)]], 3, 4⟩, ⟨[[(549684640416, 0), (3638295246313, 0),
    (2438137176, 0), (0, 82797621), (0, 6933525)], [(124223502860, 0), (0, 3892907), (0, 15068970), (0, 1129607), (0,
    35706)], [(0, 46197342), (0, 845934), (0, 69348), (0, 3891), (105, 0)], [(896, 0), (0, 1878), (0, 205), (0, 0),
    (1, 0)]], 3, 4⟩, 1099511627776, 0, 791244321, ⟨[[(57154555604685, 0), (0, 26022845306), (16555090, 0), (0,
    56374), (0, 1504)], [(9379917127, 0), (0, 12939107), (0, 22131), (0, 4), (0, 8)], [(0, 8927868), (7953, 0), (140,
    0)], [(8048, 0), (24, 0)]], 3, 4⟩, 68719476736, 29736410,
    2376782036100617628826788290747728854902752764065454401570633018451521851448752208613788407951, lc0⟩)) (.sy
    (.leaf ⟨1055, 16, 10, 371, 16, 928, ⟨[[], [(343597383680, 0)]], 3, 4⟩, ⟨[[(444610119389, 0), (3721942536055, 0),
    (2345113820, 0), (0, 25517448), (0, 5597436)], [(119430733826, 0), (371994, 0), (0, 8888715), (0, 833650), (0,
    56170)], [(0, 42689352), (0, 604259), (0, 49419), (0, 4580), (0, 147)], [(2829, 0), (0, 1299), (0, 190), (0,
    9)]], 3, 4⟩, 1099511627776, 0, 557828347, ⟨[[(57672267918109, 0), (0, 25901568360), (15849389, 0), (0, 8743), (0,
    724)], [(8978163758, 0), (0, 11759171), (0, 16147), (219, 0), (0, 3)], [(0, 8313400), (7232, 0), (131, 0), (1,
    0)], [(7202, 0), (22, 0)]], 3, 4⟩, 68719476736, 25401154,
    2378763634374445085543432206759033629051315362110364797013404538028436024019047865728218974958, lc0⟩) (.leaf
    ⟨1055, 16, 10, 390, 16, 923, ⟨[[], [(343597383680, 0)]], 3, 4⟩, ⟨[[(0, 365746638763), (3720707817681, 0),
    (168286256, 0), (0, 229676269), (0, 8131854)], [(118217414811, 0), (0, 243982523), (0, 35146082), (0, 1777942),
    (36044, 0)], [(0, 48933205), (0, 1736710), (0, 133140), (0, 1395), (762, 0)], [(0, 13129), (0, 4070), (0, 189),
    (22, 0), (4, 0)]], 3, 4⟩, 1099511627776, 0, 1622023917, ⟨[[(57132184437328, 0), (0, 25425208767), (11859050, 0),
    (0, 150214), (0, 2587)], [(8723726747, 0), (0, 12430631), (0, 20165), (0, 495), (0, 14)], [(0, 8097258), (13390,
    0), (141, 0), (0, 1)], [(7735, 0), (29, 0)]], 3, 4⟩, 68719476736, 27767512,
    4608501635306961744586501766148952383119361190659922977648245604311590119230268176311553621225, lc0⟩))) (.sy (.sx
    (.sy (.leaf ⟨1025, 16, 10, 566, 16, 1325, ⟨[[], [(343597383680, 0)]], 3, 4⟩, ⟨[[(0, 43598522774), (2688778743987,
    0), (189209468, 0), (0, 33877295), (0, 13741)], [(182246591281, 0), (0, 156579809), (0, 11163368), (0, 105715),
    (14580, 0)], [(0, 76047625), (0, 1171381), (0, 26337), (1421, 0), (141, 0)], [(0, 16158), (0, 2204), (31, 0),
    (11, 0), (1, 0)]], 3, 4⟩, 1099511627776, 0, 1484526334, ⟨[[(56756072382590, 0), (0, 17374351682), (5139167, 0),
    (0, 59262), (0, 552)], [(9174140329, 0), (0, 9352524), (0, 17094), (0, 221), (0, 3)], [(0, 8771618), (8261, 0),
    (55, 0)], [(8467, 0), (20, 0)]], 3, 4⟩, 68719476736, 3113041,
    3576990917175917182259432038912877373605738648511313543064150122259730417036533646216872263288, lc0⟩) (.sx (.leaf
    ⟨2035, 16, 20, 780, 16, 1793, ⟨[[], [(343597383680, 0)]], 3, 4⟩, ⟨[[(345676616898, 0), (3645415159683, 0), (0,
    97831435), (0, 24942123), (2375609, 0)], [(125088220607, 0), (0, 153334003), (0, 6063805), (264322, 0), (28766,
    0)], [(0, 27700689), (0, 387108), (6890, 0), (1816, 0), (105, 0)], [(0, 3296), (0, 105), (48, 0), (4, 0)]], 3,
    4⟩, 1099511627776, 0, 137418934, ⟨[[(56507167273329, 0), (0, 12721728706), (1710569, 0), (0, 31793), (0, 134)],
    [(4603169798, 0), (0, 3668438), (0, 7216), (0, 66)], [(0, 2219370), (1617, 0), (5, 0)], [(1106, 0), (2, 0)]], 3,
    4⟩, 68719476736, 1951981,
    4573221691301110695968327239996034174402808382561193363818078483232730263816220659720325527794, lc0⟩) (.sy (.leaf
    ⟨2065, 16, 20, 1187, 16, 2707, ⟨[[], [(343597383680, 0)]], 3, 4⟩, ⟨[[(0, 275851188498), (2739341437769, 0), (0,
    221917638), (0, 1817082), (398099, 0)], [(181164059815, 0), (0, 162365319), (0, 2183803), (88808, 0), (3917, 0)],
    [(0, 42708287), (0, 335149), (5015, 0), (478, 0), (13, 0)], [(0, 7750), (0, 59), (25, 0), (1, 0)]], 3, 4⟩,
    1099511627776, 0, 106297722, ⟨[[(56563570807520, 0), (0, 8488562888), (366937, 0), (0, 10751), (0, 20)],
    [(4450499691, 0), (0, 2424602), (0, 3644), (0, 23)], [(0, 2110319), (1226, 0), (2, 0)], [(1078, 0), (1, 0)]], 3,
    4⟩, 68719476736, 498073,
    4757303548701387036054346536797836774143738182191471809422563320723663757577886309884384076692, lc0⟩) (.skip))))
    (.sy (.sx (.leaf ⟨2095, 16, 20, 806, 16, 1850, ⟨[[], [(343597383680, 0)]], 3, 4⟩, ⟨[[(396767058427, 0),
    (3728728204064, 0), (0, 1014110931), (0, 40582368), (2833005, 0)], [(119332783376, 0), (0, 252105274), (0,
    9568384), (227531, 0), (32426, 0)], [(0, 28561687), (0, 582473), (0, 828), (1764, 0), (112, 0)], [(0, 6589), (0,
    377), (38, 0), (4, 0)]], 3, 4⟩, 1099511627776, 0, 160460578, ⟨[[(56760514772491, 0), (0, 12534243499), (1097726,
    0), (0, 33444), (0, 133)], [(4344464252, 0), (0, 3361745), (0, 6443), (0, 70)], [(0, 2025103), (1929, 0), (5,
    0)], [(1031, 0), (2, 0)]], 3, 4⟩, 68719476736, 2105956,
    4269444995219947821371031759551912400101168167791726595448056766039101408202633133812313038898, lc0⟩) (.skip))
    (.skip))) (.sx (.sy (.sy (.sx (.sx (.sy (.leaf ⟨4156, 16, 41, 2331, 16, 5290, ⟨[[(412316860416, 0)],
    [(352187318272, 0)]], 3, 4⟩, ⟨[[(0, 189466741420), (2691101465095, 0), (0, 10311882), (944658, 0), (62801, 0)],
    [(185626256390, 0), (0, 62075196), (0, 145140), (16697, 0), (291, 0)], [(0, 21202081), (0, 48534), (1404, 0),
    (39, 0)], [(0, 942), (33, 0), (2, 0)]], 3, 4⟩, 1099511627776, 0, 5755782, ⟨[[(56343962409238, 0), (0,
    4293667526), (86375, 0), (0, 1378), (0, 1)], [(2243640329, 0), (0, 638342), (0, 529), (0, 1)], [(0, 530335),
    (133, 0)], [(132, 0)]], 3, 4⟩, 68719476736, 68978,
    4235812504628383878410905777484032978393064987808084604287837106652302394956158984389964838675, lc0⟩) (.sx (.leaf
    ⟨8297, 16, 82, 3175, 16, 7174, ⟨[[(412316860416, 0)], [(352187318272, 0)]], 3, 4⟩, ⟨[[(388571110353, 0),
    (3651558900954, 0), (24293996, 0), (2977009, 0), (109452, 0)], [(126311410749, 0), (0, 40913797), (83299, 0),
    (15106, 0), (238, 0)], [(0, 7250984), (0, 10679), (679, 0), (16, 0)], [(0, 109), (10, 0), (1, 0)]], 3, 4⟩,
    1099511627776, 0, 1144052, ⟨[[(56283377895904, 0), (0, 3161508378), (26152, 0), (0, 558)], [(1122515730, 0), (0,
    240228), (0, 156)], [(0, 132992), (24, 0)], [(17, 0)]], 3, 4⟩, 68719476736, 34412,
    4556489258527876746138617015356464396398553633888541338132325732499395183751116877416540605938, lc0⟩) (.skip)))
    (.skip)) (.skip)) (.skip)) (.skip)) (.skip)))) (.sy (.sx (.sy (.leaf ⟨1085, 16, 10, 391, 16, 950, ⟨[[],
    [(343597383680, 0)]], 3, 4⟩, ⟨[[(0, 529301331779), (3802985426767, 0), (871405066, 0), (0, 158880336), (0,
    12467850)], [(113879480125, 0), (0, 169741180), (0, 24882488), (0, 1985076), (0, 79687)], [(0, 44041661), (0,
    1226169), (0, 116435), (0, 6922), (0, 49)], [(0, 5815), (0, 2815), (0, 247), (0, 5), (1, 0)]], 3, 4⟩,
    1099511627776, 0, 854572099, ⟨[[(57648876943666, 0), (0, 25314335280), (13920638, 0), (0, 57471), (0, 1788)],
    [(8374325400, 0), (0, 11104489), (0, 2907), (0, 21), (0, 9)], [(0, 7571214), (12383, 0), (159, 0)], [(6920, 0),
    (26, 0)]], 3, 4⟩, 68719476736, 30395651,
    4512623665747391086896385125266263716472990415691882840996807145914337897358177150757385484338, lc0⟩) (.sx (.leaf
    ⟨2155, 16, 20, 488, 16, 1134, ⟨[[], [(343597383680, 0)]], 3, 4⟩, ⟨[[(0, 36407682113), (4536622714542, 0), (0,
    3821150190), (0, 434710917), (16292, 0)], [(68123964524, 0), (0, 346023632), (0, 34703736), (0, 904594), (132829,
    0)], [(0, 16348729), (0, 837744), (0, 47958), (2129, 0), (569, 0)], [(0, 4057), (0, 747), (2, 0), (9, 0), (1,
    0)]], 3, 4⟩, 1099511627776, 0, 1196575354, ⟨[[(57139976634822, 0), (0, 20805867220), (4667503, 0), (0, 134518),
    (0, 1337)], [(4142559028, 0), (0, 4917879), (0, 9922), (0, 267), (0, 3)], [(0, 1867602), (3545, 0), (20, 0)],
    [(946, 0), (3, 0)]], 3, 4⟩, 68719476736, 10190189,
    4518512423462571743027139576864413061410609534121203417150603198126735323491817326157888449410, lc0⟩) (.sy (.leaf
    ⟨2185, 16, 20, 830, 16, 1931, ⟨[[], [(343597383680, 0)]], 3, 4⟩, ⟨[[(378028242547, 0), (3843523963764, 0), (0,
    2228822272), (0, 112299373), (0, 498137)], [(111632791175, 0), (0, 341388774), (0, 16913881), (0, 279510),
    (11810, 0)], [(0, 27596581), (0, 759863), (0, 23770), (269, 0), (54, 0)], [(0, 6668), (0, 599), (0, 1), (2, 0)]],
    3, 4⟩, 1099511627776, 0, 99495607, ⟨[[(57274620464746, 0), (0, 12306217891), (1597226, 0), (0, 28240), (0, 173)],
    [(4035721471, 0), (0, 2752065), (0, 2825), (0, 56)], [(0, 1786014), (2249, 0), (8, 0)], [(915, 0), (2, 0)]], 3,
    4⟩, 68719476736, 1120091,
    3758511007453252017480686448195630302250712501976918639832130351747151845051701560120221994773, lc0⟩) (.skip))))
    (.sy (.sy (.leaf ⟨1115, 16, 10, 618, 16, 1486, ⟨[[], [(343597383680, 0)]], 3, 4⟩, ⟨[[(0, 263041953800),
    (2955262778940, 0), (0, 466784384), (0, 58443780), (0, 1824413)], [(165508752397, 0), (0, 273287042), (0,
    15429514), (0, 559900), (0, 9538)], [(0, 68868878), (0, 1256380), (0, 56165), (0, 1475), (1, 0)], [(0, 11777),
    (0, 1739), (0, 56)]], 3, 4⟩, 1099511627776, 0, 868541822, ⟨[[(57788920119520, 0), (0, 16318015945), (5332565, 0),
    (0, 25006), (0, 425)], [(7896363866, 0), (0, 6542852), (2429, 0), (0, 51), (0, 2)], [(0, 6906198), (10395, 0),
    (73, 0)], [(6576, 0), (19, 0)]], 3, 4⟩, 68719476736, 4291409,
    4812047894324802280823985306173585976099064398665481161743557263572995876442810093525833690038, lc0⟩) (.sx (.leaf
    ⟨2215, 16, 20, 828, 16, 1953, ⟨[[], [(343597383680, 0)]], 3, 4⟩, ⟨[[(356188563520, 0), (3881255397036, 0), (0,
    1737959441), (0, 114484427), (0, 2141125)], [(109687622807, 0), (0, 282736632), (0, 15325168), (0, 420446), (0,
    178)], [(0, 25280593), (0, 622356), (0, 24776), (0, 303), (21, 0)], [(0, 4136), (0, 449), (0, 9), (1, 0)]], 3,
    4⟩, 1099511627776, 0, 52218550, ⟨[[(57534651105726, 0), (0, 12291524553), (2339499, 0), (0, 20781), (0, 174)],
    [(3960362975, 0), (0, 2549059), (0, 704), (0, 36)], [(0, 1731393), (2209, 0), (9, 0)], [(865, 0), (2, 0)]], 3,
    4⟩, 68719476736, 1109380,
    3649613335547063411390096597083627830100027723672235544526236223946266946295648838378086480653, lc0⟩) (.skip)))
    (.skip))) (.skip))) (.skip)
theorem c97 : checkC job ⟨6, 8, 8, 10, 9, 13⟩ 1 25 lims t97 656 48 8 21 3 128 = true := by decide +kernel

end PyX.Kron.T2c
