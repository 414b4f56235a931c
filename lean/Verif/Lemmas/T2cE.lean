import Verif.Lemmas.T2cJob

/-!
# Temperature from pressure and enthalpy in subregion 2c, part E of the certificate
-/

namespace PyX.Kron.T2c

set_option Elab.async false

def t64 : CTree :=
  .sy (.sx (.leaf ⟨725, 16, 10, 169, 16, 425, ⟨[[], [(343597383680, 0)]], 3, 4⟩, ⟨[[(0, 336469306311),
    (3430085148536, 0), (23753124649, 0), (262048145, 0), (0, 8458253)], [(127759204128, 0), (2050457781, 0),
    (5079418, 0), (0, 2227316), (0, 195831)], [(0, 17813292), (0, 2145196), (0, 199558), (0, 16855), (0, 736)], [(0,
    49857), (0, 5742), (0, 597), (0, 32), (2, 0)]], 3, 4⟩, 1099511627776, 0, 1624934011, ⟨[[(53504904162617, 0), (0,
    48298911261), (151123726, 0), (0, 266646), (0, 3736)], [(17967485538, 0), (0, 19809276), (0, 345333), (0, 352),
    (0, 12)], [(0, 21539485), (0, 38593), (359, 0), (1, 0)], [(24614, 0), (93, 0)]], 3, 4⟩, 68719476736, 182909867,
    3145839197863112112865708351349791172601458470760879219193648068818748395956035161922798950214, lc0⟩) (.sy (.leaf
    ⟨755, 16, 10, 262, 16, 638, ⟨[[], [(343597383680, 0)]], 3, 4⟩, ⟨[[(427432749947, 0), (2653700503697, 0),
    (8269255675, 0), (7542719, 0), (0, 2117870)], [(181005905734, 0), (1179221301, 0), (0, 10083290), (0, 802562),
    (0, 21074)], [(0, 42576395), (0, 2361863), (0, 104727), (0, 3062), (55, 0)], [(0, 75471), (0, 4515), (0, 161),
    (8, 0), (1, 0)]], 3, 4⟩, 1099511627776, 0, 1173141556, ⟨[[(53758899471244, 0), (0, 31571168645), (60149284, 0),
    (0, 119371), (0, 1498)], [(16607414762, 0), (0, 16997135), (0, 147671), (0, 244), (0, 8)], [(0, 19638879), (0,
    18072), (157, 0)], [(21730, 0), (51, 0)]], 3, 4⟩, 68719476736, 34785941,
    2075495841006278114953969428234122822961240390619851994662008626245394789595868263438372211619, lc0⟩) (.leaf
    ⟨755, 16, 10, 267, 16, 615, ⟨[[], [(343597383680, 0)]], 3, 4⟩, ⟨[[(163222854632, 0), (2652483676976, 0),
    (7595706623, 0), (0, 49335417), (0, 1977852)], [(180762496275, 0), (923719676, 0), (0, 26115111), (0, 837077),
    (35613, 0)], [(0, 58789520), (0, 3658225), (0, 104708), (5756, 0), (887, 0)], [(0, 100262), (0, 3507), (540, 0),
    (92, 0), (7, 0)]], 3, 4⟩, 1099511627776, 0, 3884143049, ⟨[[(53298810908472, 0), (0, 30990460299), (56212692, 0),
    (0, 268028), (0, 2430)], [(16318245843, 0), (0, 22532512), (0, 185850), (0, 1022), (0, 13)], [(0, 19875591), (0,
    14222), (128, 0), (0, 2)], [(22471, 0), (50, 0)]], 3, 4⟩, 68719476736, 93032780,
    3039023577650907238792582273674701667907341260390776484436102941878350775260203771974601020835, lc0⟩))) (.sx (.sy
    (.leaf ⟨725, 16, 10, 253, 16, 586, ⟨[[], [(343597383680, 0)]], 3, 4⟩, ⟨[[(0, 459056171406), (2519750337274, 0),
    (8785381587, 0), (0, 9230117), (0, 1937047)], [(188620153759, 0), (1297827327, 0), (0, 17371146), (0, 934733),
    (4008, 0)], [(0, 45774066), (0, 3474935), (0, 140954), (571, 0), (485, 0)], [(0, 121228), (0, 6883), (135, 0),
    (56, 0), (5, 0)]], 3, 4⟩, 1099511627776, 0, 3626167712, ⟨[[(52835754833159, 0), (0, 32023452297), (69324850, 0),
    (0, 261986), (0, 2627)], [(17605886218, 0), (0, 22008516), (0, 209341), (0, 964), (0, 14)], [(0, 22021580), (0,
    20402), (165, 0), (0, 2)], [(25887, 0), (60, 0)]], 3, 4⟩, 68719476736, 69530156,
    2885640931609945674837222502943934619758267894320403380808375279423871341196044371011872370849, lc0⟩) (.sx (.leaf
    ⟨1435, 16, 20, 350, 16, 781, ⟨[[], [(343597383680, 0)]], 3, 4⟩, ⟨[[(0, 440102928811), (3459873501851, 0),
    (11985004683, 0), (0, 26515127), (216502, 0)], [(132443547173, 0), (820106179, 0), (0, 16600211), (0, 218631),
    (58406, 0)], [(0, 20001967), (0, 1505181), (0, 23361), (5128, 0), (523, 0)], [(0, 25561), (0, 397), (241, 0),
    (31, 0), (2, 0)]], 3, 4⟩, 1099511627776, 0, 522240865, ⟨[[(52402530720569, 0), (0, 22940988607), (35155646, 0),
    (0, 132091), (188, 0)], [(8855811637, 0), (0, 9777600), (0, 68637), (0, 235), (2, 0)], [(0, 5702669), (0, 3589),
    (14, 0)], [(3432, 0), (5, 0)]], 3, 4⟩, 68719476736, 65424136,
    2293296874766275345311448564207677356228979183256150840372562852716172396530905632381568983835, lc0⟩) (.leaf
    ⟨1465, 16, 20, 362, 16, 784, ⟨[[], [(343597383680, 0)]], 3, 4⟩, ⟨[[(399036499627, 0), (3538569987837, 0),
    (10531376649, 0), (35592872, 0), (12951778, 0)], [(128439375938, 0), (551108908, 0), (0, 9995846), (1993921, 0),
    (235904, 0)], [(0, 26477459), (0, 1122357), (122376, 0), (20283, 0), (1448, 0)], [(0, 15951), (3862, 0), (862,
    0), (81, 0), (5, 0)]], 3, 4⟩, 1099511627776, 0, 1571829394, ⟨[[(52420077086426, 0), (0, 22490708937), (29282368,
    0), (0, 58238), (4193, 0)], [(8408883938, 0), (0, 11434147), (0, 70860), (139, 0), (19, 0)], [(0, 5437031), (0,
    2888), (12, 0)], [(3236, 0), (5, 0)]], 3, 4⟩, 68719476736, 204264936,
    2495627313327277886898680762614870498743623662413222602624473349109044768255532787123241036610, lc0⟩))) (.sy (.sx
    (.leaf ⟨1495, 16, 20, 367, 16, 813, ⟨[[], [(343597383680, 0)]], 3, 4⟩, ⟨[[(225308508860, 0), (3597825775536, 0),
    (9706466446, 0), (0, 53811202), (4796371, 0)], [(124955957110, 0), (507975266, 0), (0, 18698447), (585705, 0),
    (136092, 0)], [(0, 24799499), (0, 1346179), (32969, 0), (11080, 0), (913, 0)], [(0, 17760), (1305, 0), (455, 0),
    (48, 0), (3, 0)]], 3, 4⟩, 1099511627776, 0, 893617425, ⟨[[(52854127584178, 0), (0, 22463084476), (27664917, 0),
    (0, 124504), (856, 0)], [(8180399870, 0), (0, 10087613), (0, 63711), (0, 199), (5, 0)], [(0, 5135356), (0, 2532),
    (8, 0)], [(2976, 0), (4, 0)]], 3, 4⟩, 68719476736, 88286176,
    2078411752580957724801144245452566595189042863597066534987572306552030611633790047743119915226, lc0⟩) (.leaf
    ⟨1525, 16, 20, 381, 16, 820, ⟨[[], [(343597383680, 0)]], 3, 4⟩, ⟨[[(163734055388, 0), (3667615122348, 0),
    (8830808600, 0), (159645707, 0), (29794322, 0)], [(120851069383, 0), (330841585, 0), (6258109, 0), (4566459, 0),
    (424239, 0)], [(0, 28118780), (0, 250649), (266950, 0), (33279, 0), (2230, 0)], [(0, 255), (7260, 0), (1269, 0),
    (112, 0), (6, 0)]], 3, 4⟩, 1099511627776, 0, 2302715079, ⟨[[(52853134178128, 0), (0, 22059754821), (22787725, 0),
    (8463, 0), (6157, 0)], [(7762741098, 0), (0, 11517262), (0, 61705), (382, 0), (26, 0)], [(0, 4899072), (0, 1979),
    (12, 0), (1, 0)], [(2818, 0), (4, 0)]], 3, 4⟩, 68719476736, 247314693,
    2584647011192378282100326253736434073257611506602649250821908485448057877926332811144404183967, lc0⟩)) (.sx (.sy
    (.leaf ⟨1495, 16, 20, 554, 16, 1178, ⟨[[], [(343597383680, 0)]], 3, 4⟩, ⟨[[(0, 378036457994), (2670062830889, 0),
    (3782430921, 0), (45698815, 0), (3191499, 0)], [(184006023416, 0), (324464201, 0), (6003667, 0), (1029631, 0),
    (44349, 0)], [(0, 41594248), (51153, 0), (125667, 0), (7326, 0), (236, 0)], [(4662, 0), (7056, 0), (587, 0), (25,
    0), (1, 0)]], 3, 4⟩, 1099511627776, 0, 1721423920, ⟨[[(52515607347084, 0), (0, 14955730269), (12338981, 0),
    (44199, 0), (2157, 0)], [(8010372451, 0), (0, 8308012), (0, 26275), (302, 0), (9, 0)], [(0, 5172116), (0, 1490),
    (14, 0), (1, 0)], [(3039, 0), (3, 0)]], 3, 4⟩, 68719476736, 49051676,
    1802301891327298489435541967467875128022353731561328664881684683186687782697469466534052282232, lc0⟩) (.leaf
    ⟨1495, 16, 20, 556, 16, 1153, ⟨[[], [(343597383680, 0)]], 3, 4⟩, ⟨[[(332040994129, 0), (2666122412700, 0),
    (5448463678, 0), (167021528, 0), (7584377, 0)], [(182501507600, 0), (542606800, 0), (36209140, 0), (2546125, 0),
    (89575, 0)], [(0, 34091273), (2537202, 0), (314738, 0), (14957, 0), (438, 0)], [(72987, 0), (17140, 0), (1198,
    0), (47, 0), (1, 0)]], 3, 4⟩, 1099511627776, 0, 3550262999, ⟨[[(52308061442764, 0), (0, 14866958044), (18617836,
    0), (263698, 0), (5950, 0)], [(7889678478, 0), (0, 8927896), (1515, 0), (1212, 0), (24, 0)], [(0, 5187927), (0,
    545), (66, 0), (2, 0)], [(3080, 0), (3, 0)]], 3, 4⟩, 68719476736, 110376619,
    3530859355456595478200354345083974745664475433699566814616791669193661889497324052450322383436, lc0⟩)) (.sy
    (.leaf ⟨1525, 16, 20, 573, 16, 1186, ⟨[[], [(343597383680, 0)]], 3, 4⟩, ⟨[[(284257346121, 0), (2728624485512, 0),
    (6219122175, 0), (241022541, 0), (10439023, 0)], [(178053331235, 0), (633519329, 0), (52823007, 0), (3374821, 0),
    (115240, 0)], [(0, 28457863), (3787157, 0), (399197, 0), (18362, 0), (532, 0)], [(103466, 0), (20601, 0), (1398,
    0), (54, 0), (1, 0)]], 3, 4⟩, 1099511627776, 0, 3919970293, ⟨[[(52524195447226, 0), (0, 14674587340), (18644779,
    0), (304419, 0), (6398, 0)], [(7577080931, 0), (0, 8686535), (9507, 0), (1342, 0), (26, 0)], [(0, 4920254), (0,
    88), (74, 0), (2, 0)], [(2879, 0), (3, 0)]], 3, 4⟩, 68719476736, 113145497,
    4254292909059989279147883472370404081436931585263582603431733177684401257412403583728079375102, lc0⟩) (.sy (.sx
    (.leaf ⟨3111, 16, 41, 1146, 16, 2342, ⟨[[(0, 137438953472)], [(352187318272, 0)]], 3, 4⟩, ⟨[[(524737273574, 0),
    (2740417828899, 0), (4271176348, 0), (90379795, 0), (1774057, 0)], [(180451864425, 0), (495246065, 0), (20773331,
    0), (585927, 0), (9456, 0)], [(0, 7781281), (1560048, 0), (70400, 0), (1532, 0), (21, 0)], [(42057, 0), (3661,
    0), (118, 0), (2, 0)]], 3, 4⟩, 1099511627776, 0, 489890515, ⟨[[(52361457454386, 0), (0, 7230791771), (7023620,
    0), (67703, 0), (620, 0)], [(3701497787, 0), (0, 2051751), (5820, 0), (140, 0), (1, 0)], [(0, 1185322), (161, 0),
    (8, 0)], [(343, 0)]], 3, 4⟩, 68719476736, 4745033,
    2669933179468031299499837553516673124624927665736868596824371604675941329477142552868412082004, lc0⟩) (.skip))
    (.skip))))))
theorem c64 : checkC job ⟨6, 8, 8, 10, 9, 13⟩ 1 25 lims t64 784 48 16 51 3 256 = true := by decide +kernel

def t65 : CTree :=
  .sy (.sx (.sy (.sx (.leaf ⟨1435, 16, 20, 355, 16, 752, ⟨[[], [(343597383680, 0)]], 3, 4⟩, ⟨[[(190883114445, 0),
    (3470017892698, 0), (12133805633, 0), (179331773, 0), (22968269, 0)], [(131761310940, 0), (663988756, 0),
    (6966462, 0), (3923654, 0), (354968, 0)], [(0, 26784342), (0, 522548), (256878, 0), (32337, 0), (2098, 0)], [(0,
    8830), (7993, 0), (1441, 0), (124, 0), (7, 0)]], 3, 4⟩, 1099511627776, 0, 2532792543, ⟨[[(51985320215236, 0), (0,
    22563742401), (34822269, 0), (166002, 0), (11723, 0)], [(8648320860, 0), (0, 12865476), (0, 64508), (1176, 0),
    (51, 0)], [(0, 5764815), (0, 3041), (44, 0), (2, 0)], [(3524, 0), (5, 0)]], 3, 4⟩, 68719476736, 437839217,
    4169735022555951003199243381936402445040350689695083627817817163505093879721131644418630574711, lc0⟩) (.sy (.leaf
    ⟨1465, 16, 20, 539, 16, 1120, ⟨[[], [(343597383680, 0)]], 3, 4⟩, ⟨[[(0, 393784762499), (2602207952372, 0),
    (4977983309, 0), (107585623, 0), (5192162, 0)], [(187178043924, 0), (501402955, 0), (21928206, 0), (1800710, 0),
    (66350, 0)], [(0, 37804855), (1360663, 0), (231995, 0), (11610, 0), (346, 0)], [(40816, 0), (13360, 0), (979, 0),
    (39, 0), (1, 0)]], 3, 4⟩, 1099511627776, 0, 3072672503, ⟨[[(52082973726803, 0), (0, 15071930263), (18970541, 0),
    (225236, 0), (5510, 0)], [(8219406609, 0), (0, 9138504), (0, 6186), (1087, 0), (23, 0)], [(0, 5474166), (0,
    1008), (59, 0), (2, 0)], [(3304, 0), (3, 0)]], 3, 4⟩, 68719476736, 107535139,
    3924020599585451963948311223723377522481306855846007479046439479337017289181018597870222825630, lc0⟩) (.sx (.sy
    (.leaf ⟨2988, 16, 41, 1078, 16, 2215, ⟨[[(0, 137438953472)], [(352187318272, 0)]], 3, 4⟩, ⟨[[(320640642277, 0),
    (2608421174374, 0), (3017139943, 0), (41040368, 0), (878013, 0)], [(189360815169, 0), (330894752, 0), (9275596,
    0), (312409, 0), (5377, 0)], [(0, 16355289), (670918, 0), (40972, 0), (957, 0), (14, 0)], [(19788, 0), (2373, 0),
    (82, 0), (2, 0)]], 3, 4⟩, 1099511627776, 0, 369167381, ⟨[[(51931008609991, 0), (0, 7454779782), (6222682, 0),
    (48541, 0), (509, 0)], [(4022396979, 0), (0, 2236945), (2235, 0), (108, 0), (1, 0)], [(0, 1321241), (0, 15), (6,
    0)], [(393, 0)]], 3, 4⟩, 68719476736, 4100921,
    3279746248284228047556599689746077529093549918145254730985092265703129788623303926368489742975, lc0⟩) (.leaf
    ⟨2988, 16, 41, 1075, 16, 2180, ⟨[[(0, 137438953472)], [(352187318272, 0)]], 3, 4⟩, ⟨[[(405248607016, 0),
    (2608026323150, 0), (3910030623, 0), (65735645, 0), (1269847, 0)], [(188725063154, 0), (473407084, 0), (15946512,
    0), (458409, 0), (7391, 0)], [(0, 10461145), (1258582, 0), (60524, 0), (1322, 0), (18, 0)], [(36745, 0), (3487,
    0), (113, 0), (2, 0)]], 3, 4⟩, 1099511627776, 0, 523164177, ⟨[[(51826138533581, 0), (0, 7357378268), (9309952,
    0), (88795, 0), (823, 0)], [(3991315699, 0), (0, 2127243), (8607, 0), (191, 0), (2, 0)], [(0, 1319872), (235, 0),
    (12, 0)], [(397, 0)]], 3, 4⟩, 68719476736, 6536192,
    5192338252474340463320115721339691920812712505247327884110351200401351187193122422604347864721, lc0⟩)) (.sy (.sx
    (.leaf ⟨6022, 16, 82, 1487, 16, 3021, ⟨[[(0, 137438953472)], [(352187318272, 0)]], 3, 4⟩, ⟨[[(529091805090, 0),
    (3596155821228, 0), (5360912437, 0), (94282023, 0), (1833848, 0)], [(127793664190, 0), (320376404, 0), (11320612,
    0), (325468, 0), (5254, 0)], [(0, 3508015), (442851, 0), (21107, 0), (461, 0), (6, 0)], [(6378, 0), (596, 0),
    (19, 0)]], 3, 4⟩, 1099511627776, 0, 49447175, ⟨[[(51931782172638, 0), (0, 5370540077), (4679198, 0), (32580, 0),
    (221, 0)], [(1967701375, 0), (0, 775559), (2092, 0), (35, 0)], [(0, 323323), (38, 0), (1, 0)], [(48, 0)]], 3, 4⟩,
    68719476736, 1385342,
    2955172925932340268582716619876246724131353314657570666619016362760495992233263805521381366878, lc0⟩) (.skip))
    (.skip))))) (.sx (.sy (.sx (.sy (.leaf ⟨2926, 16, 41, 1040, 16, 2148, ⟨[[(412316860416, 0)], [(352187318272,
    0)]], 3, 4⟩, ⟨[[(405954310618, 0), (2537441419293, 0), (2736182877, 0), (24909666, 0), (561617, 0)],
    [(193967172396, 0), (306763175, 0), (5130233, 0), (205347, 0), (3749, 0)], [(0, 18265819), (304637, 0), (27969,
    0), (699, 0), (10, 0)], [(8936, 0), (1713, 0), (63, 0), (1, 0)]], 3, 4⟩, 1099511627776, 0, 293373729,
    ⟨[[(51717309614092, 0), (0, 7610723118), (5830246, 0), (36186, 0), (427, 0)], [(4203321354, 0), (0, 2310290),
    (26, 0), (86, 0), (1, 0)], [(0, 1396651), (0, 121), (5, 0)], [(422, 0)]], 3, 4⟩, 68719476736, 3738978,
    3300143210540398145514235247651610653253179625576084070719143592752955063196915831588832474506, lc0⟩) (.leaf
    ⟨2926, 16, 41, 1040, 16, 2119, ⟨[[(412316860416, 0)], [(352187318272, 0)]], 3, 4⟩, ⟨[[(84628867822, 0),
    (2538760313372, 0), (3279280010, 0), (40966156, 0), (827201, 0)], [(193395261321, 0), (388723659, 0), (9606718,
    0), (308539, 0), (5208, 0)], [(0, 15059761), (715623, 0), (42449, 0), (976, 0), (14, 0)], [(21480, 0), (2583, 0),
    (88, 0), (2, 0)]], 3, 4⟩, 1099511627776, 0, 422797457, ⟨[[(51610289884751, 0), (0, 7518742761), (8201537, 0),
    (69605, 0), (701, 0)], [(4170731573, 0), (0, 2276584), (5091, 0), (156, 0), (1, 0)], [(0, 1397141), (74, 0), (9,
    0)], [(426, 0)]], 3, 4⟩, 68719476736, 6101892,
    4812611998878354289985886881829370179242974742190024694020720252214017172308263115931808740072, lc0⟩)) (.sy
    (.leaf ⟨2957, 16, 41, 1058, 16, 2150, ⟨[[(137438953472, 0)], [(352187318272, 0)]], 3, 4⟩, ⟨[[(161203477189, 0),
    (2573862246449, 0), (3552795774, 0), (52337261, 0), (1033406, 0)], [(191046266031, 0), (423840789, 0), (12564533,
    0), (379555, 0), (6247, 0)], [(0, 13066642), (974614, 0), (51185, 0), (1144, 0), (16, 0)], [(28967, 0), (3030,
    0), (100, 0), (2, 0)]], 3, 4⟩, 1099511627776, 0, 473839457, ⟨[[(51717483797102, 0), (0, 7432804288), (8759197,
    0), (79579, 0), (766, 0)], [(4079133855, 0), (0, 2203821), (6908, 0), (174, 0), (2, 0)], [(0, 1357892), (157, 0),
    (11, 0)], [(411, 0)]], 3, 4⟩, 68719476736, 6374482,
    4930987384696974572844367521272783380810744321509511282652060020302049830678673596608558016630, lc0⟩) (.skip)))
    (.sx (.sy (.sx (.sy (.leaf ⟨5837, 16, 82, 2079, 16, 4210, ⟨[[(412316860416, 0)], [(352187318272, 0)]], 3, 4⟩,
    ⟨[[(0, 333397403184), (2542894807541, 0), (1801868632, 0), (12155432, 0), (117879, 0)], [(194653666084, 0),
    (221486442, 0), (2953455, 0), (44488, 0), (366, 0)], [(0, 6531382), (230397, 0), (6176, 0), (69, 0)], [(6955, 0),
    (378, 0), (6, 0)]], 3, 4⟩, 1099511627776, 0, 53017326, ⟨[[(51531173489847, 0), (0, 3718434669), (2447889, 0),
    (11216, 0), (54, 0)], [(2088699899, 0), (0, 552041), (1050, 0), (12, 0)], [(0, 351480), (26, 0), (1, 0)], [(54,
    0)]], 3, 4⟩, 68719476736, 321081,
    2511844258796859171724864588482376364504305008792430875346935073716012193077623201409158972326, lc0⟩) (.skip))
    (.skip)) (.skip)) (.skip))) (.skip))) (.sx (.sy (.sy (.sy (.sx (.leaf ⟨3049, 16, 41, 1114, 16, 2280,
    ⟨[[(412316860416, 0)], [(352187318272, 0)]], 3, 4⟩, ⟨[[(0, 194241418991), (2675884371202, 0), (3529558241, 0),
    (63022055, 0), (1284745, 0)], [(184826598309, 0), (395722206, 0), (14589648, 0), (441302, 0), (7305, 0)], [(0,
    12686599), (1101157, 0), (55452, 0), (1241, 0), (18, 0)], [(31179, 0), (3040, 0), (101, 0), (2, 0)]], 3, 4⟩,
    1099511627776, 0, 435670404, ⟨[[(52139469225828, 0), (0, 7319132159), (6751965, 0), (60451, 0), (582, 0)],
    [(3856071301, 0), (0, 2140739), (4422, 0), (129, 0), (1, 0)], [(0, 1251557), (89, 0), (8, 0)], [(367, 0)]], 3,
    4⟩, 68719476736, 4569550,
    3011784399023683674648675353995651864665892710925411170068997496427207770875634836270009825348, lc0⟩) (.skip))
    (.skip)) (.skip)) (.skip)) (.skip))) (.skip)
theorem c65 : checkC job ⟨6, 8, 8, 10, 9, 13⟩ 1 25 lims t65 784 48 16 57 3 256 = true := by decide +kernel

def t66 : CTree :=
  .sx (.sy (.sx (.sy (.sy (.sx (.sy (.sx (.sy (.leaf ⟨2680, 16, 41, 886, 16, 1801, ⟨[[(412316860416, 0)],
    [(352187318272, 0)]], 3, 4⟩, ⟨[[(0, 265791804429), (2244664989628, 0), (3477156816, 0), (16729079, 0), (255512,
    0)], [(211785456703, 0), (545794720, 0), (3081157, 0), (103267, 0), (1995, 0)], [(0, 10512612), (32448, 0),
    (15758, 0), (444, 0), (7, 0)], [(0, 4447), (1147, 0), (49, 0), (1, 0)]], 3, 4⟩, 1099511627776, 0, 274321272,
    ⟨[[(50475938843782, 0), (0, 8143798052), (10751655, 0), (69716, 0), (847, 0)], [(4938743556, 0), (0, 2647313),
    (2511, 0), (177, 0), (2, 0)], [(0, 1767613), (0, 139), (11, 0)], [(591, 0)]], 3, 4⟩, 68719476736, 8054325,
    5297523137680008981275666965027355958226710858465906788218750817883796720943498035417814311784, lc0⟩) (.sx (.leaf
    ⟨5345, 16, 82, 1260, 16, 2540, ⟨[[(412316860416, 0)], [(352187318272, 0)]], 3, 4⟩, ⟨[[(20118432387, 0),
    (3207477119938, 0), (5253877139, 0), (29322703, 0), (451535, 0)], [(152078469924, 0), (412925361, 0), (3049591,
    0), (93586, 0), (1729, 0)], [(0, 3451705), (54606, 0), (7306, 0), (193, 0), (3, 0)], [(0, 48), (267, 0), (11,
    0)]], 3, 4⟩, 1099511627776, 0, 30843780, ⟨[[(50379224322112, 0), (0, 5638534421), (6311362, 0), (34424, 0), (272,
    0)], [(2472982286, 0), (0, 914085), (1737, 0), (43, 0)], [(0, 445352), (8, 0), (2, 0)], [(75, 0)]], 3, 4⟩,
    68719476736, 1967533,
    4169589905831322359511411351592436201066691868585595515349864704712975489696136094153330673671, lc0⟩) (.sy (.sx
    (.leaf ⟨10802, 16, 165, 2542, 16, 5102, ⟨[[(377957122048, 0)], [(354334801920, 0)]], 3, 4⟩, ⟨[[(78757586112, 0),
    (3235245586258, 0), (2689663228, 0), (8477352, 0), (67336, 0)], [(151611855862, 0), (207583744, 0), (941002, 0),
    (14105, 0), (126, 0)], [(0, 1752149), (23606, 0), (1111, 0), (14, 0)], [(187, 0), (40, 0), (1, 0)]], 3, 4⟩,
    1099511627776, 0, 4105507, ⟨[[(50405483276301, 0), (0, 2781074988), (1733160, 0), (5185, 0), (20, 0)],
    [(1216283718, 0), (0, 220026), (321, 0), (3, 0)], [(0, 108680), (4, 0)], [(9, 0)]], 3, 4⟩, 68719476736, 111623,
    3466637378941638572063689733727588427930818600007862808876202068314875199881501272708480719239, lc0⟩) (.skip))
    (.skip)))) (.sy (.sx (.sy (.leaf ⟨5407, 16, 82, 1803, 16, 3623, ⟨[[(0, 137438953472)], [(352187318272, 0)]], 3,
    4⟩, ⟨[[(426619360344, 0), (2286662804895, 0), (1853802516, 0), (6127443, 0), (50201, 0)], [(210637218101, 0),
    (279235326, 0), (1371509, 0), (20960, 0), (186, 0)], [(0, 5367634), (73840, 0), (3285, 0), (41, 0)], [(1459, 0),
    (237, 0), (4, 0)]], 3, 4⟩, 1099511627776, 0, 42617741, ⟨[[(50507949123456, 0), (0, 3955005911), (3394506, 0),
    (14506, 0), (78, 0)], [(2414958943, 0), (0, 627027), (1258, 0), (17, 0)], [(0, 431600), (23, 0), (1, 0)], [(72,
    0)]], 3, 4⟩, 68719476736, 470729,
    4478382590163618231581880924788538024630244027812461826558551128294950631567728653556031221673, lc0⟩) (.skip))
    (.skip)) (.skip))) (.skip)) (.skip)) (.skip)) (.skip)) (.skip)) (.skip)) (.skip)
theorem c66 : checkC job ⟨6, 8, 8, 10, 9, 13⟩ 1 25 lims t66 368 48 8 33 3 128 = true := by decide +kernel

def t67 : CTree :=
  .sx (.sy (.sx (.sy (.sx (.sy (.sx (.sy (.sx (.sy (.sx (.sy (.leaf ⟨4361, 16, 82, 922, 16, 1866, ⟨[[(412316860416,
    0)], [(352187318272, 0)]], 3, 4⟩, ⟨[[(0, 426270071967), (2466656307811, 0), (7698289097, 0), (46551964, 0),
    (434387, 0)], [(194112045267, 0), (1205690505, 0), (9497913, 0), (116808, 0), (1801, 0)], [(29119649, 0),
    (500945, 0), (10447, 0), (235, 0), (4, 0)], [(5049, 0), (355, 0), (15, 0)]], 3, 4⟩, 1099511627776, 0, 36108565,
    ⟨[[(47451127046174, 0), (0, 6578094805), (11210729, 0), (16715, 0), (236, 0)], [(3640145081, 0), (0, 1077377),
    (0, 2624), (32, 0)], [(0, 783306), (0, 186), (2, 0)], [(174, 0)]], 3, 4⟩, 68719476736, 2426444,
    2416890075222161141425096427915052447252218501337801540483987516500189344140254433596145076798, lc0⟩) (.skip))
    (.skip)) (.skip)) (.skip)) (.skip)) (.skip)) (.skip)) (.skip)) (.skip)) (.skip)) (.skip)) (.skip)
theorem c67 : checkC job ⟨6, 8, 8, 10, 9, 13⟩ 1 25 lims t67 160 48 4 21 3 64 = true := by decide +kernel

def t68 : CTree :=
  .sx (.out ⟨464, 50, 8, 310, 16, 165, ⟨[[], [(1099511627776, 0)]], 1, 1⟩, ⟨[[(91773309784, 0), (0, 4482370759959)],
    [(0, 58542722067), (0, 2854215916)]], 1, 1⟩, 1099511627776, 0, 520404008040, ⟨[], 0, 0⟩, 0, 0, 0, lc0⟩ 0 1
    10290383228109) (.out ⟨560, 50, 8, 294, 16, 159, ⟨[[], [(1099511627776, 0)]], 1, 1⟩, ⟨[[(0, 12100395296), (0,
    4573901967984)], [(0, 53809615767), (0, 2529606495)]], 1, 1⟩, 1099511627776, 0, 439314684599, ⟨[], 0, 0⟩, 0, 0,
    0, lc0⟩ 0 1 7452537598236)
theorem c68 : checkC job ⟨6, 8, 8, 10, 9, 13⟩ 1 25 lims t68 256 48 4 3 3 128 = true := by decide +kernel

def t69 : CTree :=
  .sy (.out ⟨464, 50, 8, 478, 16, 270, ⟨[[], [(1099511627776, 0)]], 1, 1⟩, ⟨[[(104936358881, 0), (0, 3520934395530)],
    [(0, 119247447995), (0, 2921152806)]], 1, 1⟩, 1099511627776, 0, 168392789157, ⟨[], 0, 0⟩, 0, 0, 0, lc0⟩ 0 1
    4754938786293) (.sx (.out ⟨440, 26, 8, 554, 16, 324, ⟨[[], [(549755813888, 0)]], 1, 1⟩, ⟨[[(413898835779, 0), (0,
    4111454849206)], [(0, 83899494036), (0, 2111687059)]], 1, 1⟩, 1099511627776, 0, 75899725968, ⟨[], 0, 0⟩, 0, 0, 0,
    lc0⟩ 0 1 2489855567129) (.sy (.out ⟨488, 26, 8, 889, 16, 521, ⟨[[], [(549755813888, 0)]], 1, 1⟩,
    ⟨[[(273607130129, 0), (0, 3458162964435)], [(0, 126907279294), (0, 1553535197)]], 1, 1⟩, 1099511627776, 0,
    70110472989, ⟨[], 0, 0⟩, 0, 0, 0, lc0⟩ 0 1 1751265171990) (.sy (.sx (.out ⟨595, 16, 10, 1736, 16, 1030, ⟨[[],
    [(343597383680, 0)]], 1, 1⟩, ⟨[[(0, 218202500724), (0, 3390918615163)], [(0, 133514329583), (0, 827355138)]], 1,
    1⟩, 1099511627776, 0, 34818478437, ⟨[], 0, 0⟩, 0, 0, 0, lc0⟩ 0 1 1109908713319) (.sy (.out ⟨625, 16, 10, 2508,
    16, 1494, ⟨[[], [(343597383680, 0)]], 1, 1⟩, ⟨[[(0, 187265146729), (0, 2513658860994)], [(0, 189058769397), (0,
    574363745)]], 1, 1⟩, 1099511627776, 0, 42908679563, ⟨[], 0, 0⟩, 0, 0, 0, lc0⟩ 0 1 564862732228) (.leaf ⟨875, 16,
    10, 196, 16, 1504, ⟨[[], [(343597383680, 0)]], 3, 4⟩, ⟨[[(445976353512, 0), (2535227360842, 0), (432863488, 0),
    (4227352, 0), (6794, 0)], [(193825890388, 0), (589043650, 0), (910444, 0), (863, 0), (4, 0)], [(0, 16558718), (0,
    122653), (0, 734), (0, 4)], [(0, 8109), (0, 86), (0, 1)]], 3, 4⟩, 1099511627776, 0, 5390625, ⟨[[(63289100881071,
    0), (0, 22932470148), (10805047, 0), (0, 221)], [(12871843474, 0), (6375957, 0), (0, 14195), (0, 5)], [(0,
    9823210), (0, 14749), (14, 0)], [(6383, 0), (22, 0)]], 3, 4⟩, 68719476736, 416427,
    4705738514616752873784928712215733198792326321803481964271182084586276427907989011984559484621, lc0⟩))) (.sx (.sy
    (.out ⟨595, 16, 10, 2447, 16, 1464, ⟨[[], [(343597383680, 0)]], 1, 1⟩, ⟨[[(491957839461, 0), (0, 2416130647881)],
    [(0, 195145335678), (0, 606247353)]], 1, 1⟩, 1099511627776, 0, 40262916379, ⟨[], 0, 0⟩, 0, 0, 0, lc0⟩ 0 1
    605167103265) (.leaf ⟨845, 16, 10, 202, 16, 1473, ⟨[[], [(343597383680, 0)]], 3, 4⟩, ⟨[[(205295470967, 0),
    (2436316468711, 0), (483148159, 0), (4369404, 0), (7934, 0)], [(200042673888, 0), (622643071, 0), (1070756, 0),
    (1714, 0), (5, 0)], [(0, 15125876), (0, 110547), (0, 663), (0, 3)], [(0, 9300), (0, 98), (0, 1)]], 3, 4⟩,
    1099511627776, 0, 3654061, ⟨[[(62657923073241, 0), (0, 23389251310), (11719184, 0), (0, 92)], [(13552278537, 0),
    (7162372, 0), (0, 15851), (0, 5)], [(0, 10585128), (0, 16990), (16, 0)], [(6993, 0), (27, 0)]], 3, 4⟩,
    68719476736, 410536,
    4432824717319022885938934901202369175055687275420270812658057372105896673665700872816921499110, lc0⟩)) (.leaf
    ⟨875, 16, 10, 148, 16, 1022, ⟨[[], [(343597383680, 0)]], 3, 4⟩, ⟨[[(0, 454308335570), (3457495245539, 0),
    (1496365383, 0), (24439767, 0), (87754, 0)], [(135361781282, 0), (823106403, 0), (2542505, 0), (5302, 0), (22,
    0)], [(0, 12044338), (0, 185879), (0, 2276), (0, 23)], [(0, 6067), (0, 132), (0, 2)]], 3, 4⟩, 1099511627776, 0,
    4009548, ⟨[[(62794296932884, 0), (0, 33055150559), (23368815, 0), (0, 703)], [(13004047511, 0), (8462429, 0), (0,
    31407), (0, 15)], [(0, 10138317), (0, 20840), (29, 0)], [(6860, 0), (32, 0)]], 3, 4⟩, 68719476736, 582545,
    4054131765006430609644808724672026362794894471875103864779926075604135195271204289659060853233, lc0⟩)))))
theorem c69 : checkC job ⟨6, 8, 8, 10, 9, 13⟩ 1 25 lims t69 464 48 8 9 3 128 = true := by decide +kernel

def t70 : CTree :=
  .sy (.out ⟨560, 50, 8, 711, 16, 406, ⟨[[], [(1099511627776, 0)]], 1, 1⟩, ⟨[[(477609250567, 0), (0, 2850626959307)],
    [(0, 163571954589), (0, 1893124038)]], 1, 1⟩, 1099511627776, 0, 187438231036, ⟨[], 0, 0⟩, 0, 0, 0, lc0⟩ 0 1
    2702853359525) (.sx (.out ⟨536, 26, 8, 910, 16, 528, ⟨[[], [(549755813888, 0)]], 1, 1⟩, ⟨[[(25041209899, 0), (0,
    3639918358514)], [(0, 116029806828), (0, 1367530247)]], 1, 1⟩, 1099511627776, 0, 66996955570, ⟨[], 0, 0⟩, 0, 0,
    0, lc0⟩ 0 1 1834190077395) (.sy (.sx (.out ⟨715, 16, 10, 1824, 16, 1061, ⟨[[], [(343597383680, 0)]], 1, 1⟩,
    ⟨[[(0, 182562718042), (0, 3751737240141)], [(0, 111528554789), (0, 635860336)]], 1, 1⟩, 1099511627776, 0,
    31332803977, ⟨[], 0, 0⟩, 0, 0, 0, lc0⟩ 0 1 1208047191070) (.sy (.out ⟨745, 16, 10, 2771, 16, 1616, ⟨[[],
    [(343597383680, 0)]], 1, 1⟩, ⟨[[(107741280880, 0), (0, 2902004439383)], [(0, 165132535669), (0, 458832376)]], 1,
    1⟩, 1099511627776, 0, 44351096801, ⟨[], 0, 0⟩, 0, 0, 0, lc0⟩ 0 1 731726941122) (.sx (.out ⟨1475, 16, 20, 3611,
    16, 2115, ⟨[[], [(343597383680, 0)]], 1, 1⟩, ⟨[[(0, 157904088593), (0, 3785089411229)], [(0, 110448595235), (0,
    307891453)]], 1, 1⟩, 1099511627776, 0, 16320092847, ⟨[], 0, 0⟩, 0, 0, 0, lc0⟩ 0 1 515046752109) (.leaf ⟨2005, 16,
    20, 209, 16, 2152, ⟨[[], [(343597383680, 0)]], 3, 4⟩, ⟨[[(369391896315, 0), (3880994894111, 0), (200418626, 0),
    (4911114, 0), (0, 3655)], [(111203242268, 0), (305185261, 0), (278891, 0), (0, 1373), (0, 8)], [(0, 6227091), (0,
    42975), (0, 256), (0, 2)], [(0, 640), (0, 6)]], 3, 4⟩, 1099511627776, 0, 827242, ⟨[[(65920591573167, 0), (0,
    16244981477), (4544356, 0), (0, 246)], [(5226646639, 0), (1598241, 0), (0, 2612), (0, 1)], [(0, 1799918), (0,
    1689), (1, 0)], [(550, 0), (1, 0)]], 3, 4⟩, 68719476736, 54216,
    5300851785153754684392593019014456957851392211714684104183711712265957162043416192561832853618, lc0⟩)))) (.sx
    (.sy (.out ⟨715, 16, 10, 2705, 16, 1587, ⟨[[], [(343597383680, 0)]], 1, 1⟩, ⟨[[(46100460142, 0), (0,
    2807740608248)], [(0, 171146491581), (0, 485853386)]], 1, 1⟩, 1099511627776, 0, 45097716812, ⟨[], 0, 0⟩, 0, 0, 0,
    lc0⟩ 0 1 629009408148) (.sx (.out ⟨1415, 16, 20, 3563, 16, 2099, ⟨[[], [(343597383680, 0)]], 1, 1⟩, ⟨[[(0,
    536756645478), (0, 3700868618037)], [(0, 115699553540), (0, 329735478)]], 1, 1⟩, 1099511627776, 0, 17460266072,
    ⟨[], 0, 0⟩, 0, 0, 0, lc0⟩ 0 1 435318093852) (.leaf ⟨1945, 16, 20, 230, 16, 2134, ⟨[[], [(343597383680, 0)]], 3,
    4⟩, ⟨[[(0, 545799556793), (3794359757280, 0), (318209706, 0), (5028988, 0), (454, 0)], [(116442984179, 0),
    (326789577, 0), (333827, 0), (0, 1053), (0, 4)], [(0, 6292246), (0, 45109), (0, 272), (0, 1)], [(0, 793), (0,
    8)]], 3, 4⟩, 1099511627776, 0, 829467, ⟨[[(65227861674985, 0), (0, 16267701787), (4770230, 0), (0, 222)],
    [(5488797142, 0), (1699130, 0), (0, 2851), (0, 1)], [(0, 1944048), (0, 1845), (1, 0)], [(605, 0), (1, 0)]], 3,
    4⟩, 68719476736, 61600,
    4697869504186417881833903068861126052617485085633691508114160447222135215881255959943504919787, lc0⟩))) (.leaf
    ⟨995, 16, 10, 117, 16, 1063, ⟨[[], [(343597383680, 0)]], 3, 4⟩, ⟨[[(0, 396144558298), (3824037940003, 0),
    (631227550, 0), (19338691, 0), (0, 8144)], [(113219009581, 0), (621219664, 0), (1053961, 0), (0, 11476), (0,
    82)], [(0, 12910243), (0, 185649), (0, 2288), (0, 25)], [(0, 2831), (0, 55), (0, 1)]], 3, 4⟩, 1099511627776, 0,
    5624081, ⟨[[(65392046463929, 0), (0, 32420661527), (18701514, 0), (0, 2159), (0, 4)], [(10649812806, 0),
    (6074395, 0), (0, 22268), (0, 15)], [(0, 7489260), (0, 13557), (17, 0)], [(4685, 0), (16, 0)]], 3, 4⟩,
    68719476736, 380136,
    5030018424104056595179471063742829649762191653601899771199140904402600257995251198912744687269, lc0⟩))))
theorem c70 : checkC job ⟨6, 8, 8, 10, 9, 13⟩ 1 25 lims t70 560 48 8 15 3 256 = true := by decide +kernel

def t71 : CTree :=
  .sx (.sy (.sy (.sx (.out ⟨655, 16, 10, 1779, 16, 1046, ⟨[[], [(343597383680, 0)]], 1, 1⟩, ⟨[[(0, 447716776830), (0,
    3577195488263)], [(0, 122243279057), (0, 726916906)]], 1, 1⟩, 1099511627776, 0, 34612843968, ⟨[], 0, 0⟩, 0, 0, 0,
    lc0⟩ 0 1 1085991843927) (.sy (.out ⟨685, 16, 10, 2637, 16, 1556, ⟨[[], [(343597383680, 0)]], 1, 1⟩,
    ⟨[[(486094644770, 0), (0, 2710010224839)], [(0, 177064905756), (0, 513973802)]], 1, 1⟩, 1099511627776, 0,
    45180349968, ⟨[], 0, 0⟩, 0, 0, 0, lc0⟩ 0 1 556309346633) (.sx (.out ⟨1355, 16, 20, 3514, 16, 2082, ⟨[[],
    [(343597383680, 0)]], 1, 1⟩, ⟨[[(544916773396, 0), (0, 3613536440704)], [(0, 121112415166), (0, 353185412)]], 1,
    1⟩, 1099511627776, 0, 18327213410, ⟨[], 0, 0⟩, 0, 0, 0, lc0⟩ 0 1 372160857070) (.leaf ⟨1885, 16, 20, 248, 16,
    2116, ⟨[[], [(343597383680, 0)]], 3, 4⟩, ⟨[[(0, 431855358885), (3706598148615, 0), (429167256, 0), (5259094, 0),
    (4114, 0)], [(121911429607, 0), (350350077, 0), (406576, 0), (0, 615), (0, 1)], [(0, 6281252), (0, 46258), (0,
    280), (0, 1)], [(0, 971), (0, 10)]], 3, 4⟩, 1099511627776, 0, 709683, ⟨[[(64564075006610, 0), (0, 16315471213),
    (5019354, 0), (0, 187)], [(5766393171, 0), (1827479, 0), (0, 3105), (0, 1)], [(0, 2096861), (0, 2037), (1, 0)],
    [(664, 0), (1, 0)]], 3, 4⟩, 68719476736, 82264,
    3911257803319027771679924668999452705913069855731615036785595132144060354919165134495271025237, lc0⟩)))) (.sx
    (.sx (.out ⟨1295, 16, 20, 2131, 16, 1265, ⟨[[], [(343597383680, 0)]], 1, 1⟩, ⟨[[(0, 337811987046), (0,
    4314684523143)], [(0, 76936178403), (0, 459547516)]], 1, 1⟩, 1099511627776, 0, 20243389344, ⟨[], 0, 0⟩, 0, 0, 0,
    lc0⟩ 0 1 553596733404) (.sy (.out ⟨1325, 16, 20, 3490, 16, 2073, ⟨[[], [(343597383680, 0)]], 1, 1⟩,
    ⟨[[(463007234584, 0), (0, 3568354834526)], [(0, 123864109836), (0, 365461826)]], 1, 1⟩, 1099511627776, 0,
    18637274426, ⟨[], 0, 0⟩, 0, 0, 0, lc0⟩ 0 1 365671201446) (.leaf ⟨1825, 16, 20, 263, 16, 2097, ⟨[[],
    [(343597383680, 0)]], 3, 4⟩, ⟨[[(529898515917, 0), (3615467487075, 0), (532841528, 0), (5552369, 0), (7141, 0)],
    [(127534228828, 0), (375667210, 0), (496945, 0), (0, 95), (1, 0)], [(0, 6165233), (0, 46130), (0, 278), (0, 1)],
    [(0, 1170), (0, 12)]], 3, 4⟩, 1099511627776, 0, 816315, ⟨[[(63926321708517, 0), (0, 16398983388), (5298145, 0),
    (0, 145)], [(6060605675, 0), (1990811, 0), (0, 3380), (0, 1)], [(0, 2259147), (0, 2274), (2, 0)], [(727, 0), (2,
    0)]], 3, 4⟩, 68719476736, 96811,
    3078703477381728642169806641302215771628566244892432982341834535956870720259139576651310206804, lc0⟩))) (.leaf
    ⟨935, 16, 10, 134, 16, 1043, ⟨[[], [(343597383680, 0)]], 3, 4⟩, ⟨[[(353952167099, 0), (3645902489734, 0),
    (1092538872, 0), (21599331, 0), (51273, 0)], [(123952244112, 0), (714512148, 0), (1654359, 0), (0, 3949), (0,
    3)], [(0, 12946019), (0, 197077), (0, 2414), (0, 23)], [(0, 4288), (0, 91), (0, 1)]], 3, 4⟩, 1099511627776, 0,
    5648228, ⟨[[(64090126946099, 0), (0, 32667037234), (20799240, 0), (0, 1533), (0, 1)], [(11746040400, 0),
    (7051693, 0), (0, 26426), (0, 16)], [(0, 8704950), (0, 16516), (22, 0)], [(5647, 0), (22, 0)]], 3, 4⟩,
    68719476736, 467777,
    3491808695289754922779900992797161715908771345787169807705745246930440386182250962757210623959, lc0⟩))) (.sy
    (.leaf ⟨736, 25, 8, 107, 16, 750, ⟨[[], [(549755813888, 0)]], 3, 4⟩, ⟨[[(0, 137578082282), (2607131968256, 0),
    (1015136085, 0), (16711259, 0), (52656, 0)], [(186427160236, 0), (1085989665, 0), (2653700, 0), (0, 2450), (0,
    3)], [(0, 38844324), (0, 612108), (0, 7557), (0, 70), (0, 1)], [(0, 29046), (0, 636), (0, 9)]], 3, 4⟩,
    1099511627776, 0, 57924212, ⟨[[(63431461420347, 0), (0, 44709762007), (40887268, 0), (0, 3597)], [(15146236316,
    0), (11734136, 0), (0, 67183), (0, 52)], [(0, 14402861), (0, 36690), (69, 0)], [(12053, 0), (64, 0)]], 3, 4⟩,
    68719476736, 7834146,
    4820536279609373136252051483728295933339325091676170782434861116438741202605887238658476776978, lc0⟩) (.leaf
    ⟨736, 25, 8, 119, 16, 734, ⟨[[], [(549755813888, 0)]], 3, 4⟩, ⟨[[(0, 490154361332), (2565248353493, 0),
    (1299835899, 0), (17723005, 0), (60974, 0)], [(188919936185, 0), (1093711543, 0), (2548368, 0), (0, 3378), (0,
    95)], [(0, 41891772), (0, 695733), (0, 8769), (0, 86), (0, 1)], [(0, 32490), (0, 734), (0, 10)]], 3, 4⟩,
    1099511627776, 0, 62995414, ⟨[[(62787664170514, 0), (0, 44467254211), (42528106, 0), (0, 3606), (8, 0)],
    [(15303012214, 0), (9952003, 0), (0, 72531), (0, 55)], [(0, 14923843), (0, 35474), (69, 0)], [(12958, 0), (61,
    0)]], 3, 4⟩, 68719476736, 9121482,
    3523750778132068947489222170672957183934393620178271377647577088309463192738866892884914388176, lc0⟩))) (.sy (.sy
    (.leaf ⟨784, 25, 8, 98, 16, 784, ⟨[[], [(549755813888, 0)]], 3, 4⟩, ⟨[[(0, 388712638880), (2804734046589, 0),
    (688423820, 0), (14785156, 0), (16855, 0)], [(174521387662, 0), (962944711, 0), (1605902, 0), (0, 15441), (0,
    55)], [(0, 40235510), (0, 607328), (0, 7607), (0, 73)], [(0, 19920), (0, 417), (0, 7)]], 3, 4⟩, 1099511627776, 0,
    64846284, ⟨[[(64719214804617, 0), (0, 43268291183), (34824144, 0), (0, 5259), (0, 7)], [(13718676556, 0),
    (9757043, 0), (0, 54074), (0, 49)], [(0, 12383933), (0, 29119), (51, 0)], [(9940, 0), (45, 0)]], 3, 4⟩,
    68719476736, 6087769,
    4328255870607983835344400470402015407626634748795008950415502741727184902672146241462579584688, lc0⟩) (.leaf
    ⟨784, 25, 8, 111, 16, 769, ⟨[[], [(549755813888, 0)]], 3, 4⟩, ⟨[[(0, 202610384893), (2760760048816, 0),
    (941340085, 0), (15142717, 0), (36335, 0)], [(176902831625, 0), (961748843, 0), (1293419, 0), (0, 16072), (0,
    33)], [(0, 43324184), (0, 693073), (0, 8771), (0, 74)], [(0, 22246), (0, 494), (0, 7)]], 3, 4⟩, 1099511627776, 0,
    70660814, ⟨[[(64071034963165, 0), (0, 43039224450), (35940240, 0), (0, 5803), (1, 0)], [(13854032717, 0),
    (8239908, 0), (0, 58596), (0, 54)], [(0, 12814085), (0, 28162), (50, 0)], [(10597, 0), (43, 0)]], 3, 4⟩,
    68719476736, 6669434,
    2584487083937681531204635555426517151426107901230932369535044724279713313216012568884707275572, lc0⟩)) (.leaf
    ⟨784, 25, 8, 87, 16, 502, ⟨[[], [(549755813888, 0)]], 3, 4⟩, ⟨[[(158279924778, 0), (3631511180013, 0),
    (3580599317, 0), (87663881, 0), (518731, 0)], [(121192419824, 0), (1280765167, 0), (2171426, 0), (0, 99049), (0,
    1813)], [(0, 32853149), (0, 1134945), (0, 28337), (0, 435), (0, 6)], [(0, 17796), (0, 807), (0, 17)]], 3, 4⟩,
    1099511627776, 0, 73926372, ⟨[[(63130192439485, 0), (0, 63490999318), (83472530, 0), (0, 17906), (100, 0)],
    [(14007906036, 0), (8504676, 0), (0, 145476), (0, 162), (1, 0)], [(0, 13417058), (0, 39825), (112, 0)], [(11503,
    0), (59, 0)]], 3, 4⟩, 68719476736, 11802462,
    3211098928158378059511386994115339723373169938245838832962613990561519176395363197959426053938, lc0⟩))
theorem c71 : checkC job ⟨6, 8, 8, 10, 9, 13⟩ 1 25 lims t71 560 48 8 21 3 256 = true := by decide +kernel

def t72 : CTree :=
  .sx (.sy (.sx (.sy (.out ⟨535, 16, 10, 1699, 16, 1015, ⟨[[], [(343597383680, 0)]], 1, 1⟩, ⟨[[(0, 6073191922), (0,
    3195903154598)], [(0, 145258749421), (0, 933889703)]], 1, 1⟩, 1099511627776, 0, 30772516060, ⟨[], 0, 0⟩, 0, 0, 0,
    lc0⟩ 0 1 1291888980265) (.sx (.out ⟨1055, 16, 20, 2121, 16, 1278, ⟨[[], [(343597383680, 0)]], 1, 1⟩,
    ⟨[[(412249313554, 0), (0, 4012872231076)], [(0, 95281948520), (0, 619568370)]], 1, 1⟩, 1099511627776, 0,
    24074133834, ⟨[], 0, 0⟩, 0, 0, 0, lc0⟩ 0 1 869184530012) (.leaf ⟨1585, 16, 20, 189, 16, 1290, ⟨[[],
    [(343597383680, 0)]], 3, 4⟩, ⟨[[(92027944564, 0), (4110316244892, 0), (1961494962, 0), (32782999, 0), (131198,
    0)], [(95714147873, 0), (619463359, 0), (2495649, 0), (11713, 0), (60, 0)], [(0, 2593749), (0, 34674), (0, 420),
    (0, 5)], [(0, 1287), (0, 27)]], 3, 4⟩, 1099511627776, 0, 772363, ⟨[[(61589678728531, 0), (0, 26797462208),
    (16435642, 0), (229, 0)], [(7423479992, 0), (4969455, 0), (0, 11692), (0, 3)], [(0, 3009490), (0, 6135), (7, 0)],
    [(1018, 0), (5, 0)]], 3, 4⟩, 68719476736, 134227,
    5185225340907855862380959527726293698754145728175823887720593998062815656146670753208781738478, lc0⟩))) (.sy (.sx
    (.out ⟨1115, 16, 20, 2119, 16, 1273, ⟨[[], [(343597383680, 0)]], 1, 1⟩, ⟨[[(0, 30939499201), (0, 4091976281027)],
    [(0, 90385489815), (0, 576607076)]], 1, 1⟩, 1099511627776, 0, 24112296597, ⟨[], 0, 0⟩, 0, 0, 0, lc0⟩ 0 1
    739411858552) (.leaf ⟨1645, 16, 20, 182, 16, 1286, ⟨[[], [(343597383680, 0)]], 3, 4⟩, ⟨[[(151261659966, 0),
    (4189324858572, 0), (1819090761, 0), (31574890, 0), (121015, 0)], [(90755124592, 0), (574806331, 0), (2125576,
    0), (8377, 0), (46, 0)], [(0, 3045152), (0, 43454), (0, 523), (0, 6)], [(0, 1130), (0, 24)]], 3, 4⟩,
    1099511627776, 0, 796508, ⟨[[(62195751488385, 0), (0, 26806164554), (15854499, 0), (23, 0)], [(7045101583, 0),
    (4441117, 0), (0, 10955), (0, 3)], [(0, 2797108), (0, 5361), (6, 0)], [(934, 0), (4, 0)]], 3, 4⟩, 68719476736,
    126645, 4499603327852729326443985404378937927170031931253124689234490476714310306314469036260362302950, lc0⟩))
    (.leaf ⟨815, 16, 10, 157, 16, 1002, ⟨[[], [(343597383680, 0)]], 3, 4⟩, ⟨[[(0, 477448222758), (3261330501191, 0),
    (1795072613, 0), (26680670, 0), (106803, 0)], [(147405824391, 0), (944183362, 0), (3651989, 0), (15417, 0), (40,
    0)], [(0, 9789042), (0, 144539), (0, 1827), (0, 23)], [(0, 8016), (0, 174), (0, 3)]], 3, 4⟩, 1099511627776, 0,
    1689539, ⟨[[(61571517852487, 0), (0, 33689034598), (26396894, 0), (223, 0), (1, 0)], [(14430366184, 0),
    (10696092, 0), (0, 37329), (0, 15)], [(0, 11782654), (0, 27374), (39, 0)], [(8284, 0), (46, 0)]], 3, 4⟩,
    68719476736, 692683,
    4938854674550613774554941872549855183513674022925901509868834230602701309087535771426645312663, lc0⟩))) (.sx (.sy
    (.leaf ⟨785, 16, 10, 160, 16, 993, ⟨[[], [(343597383680, 0)]], 3, 4⟩, ⟨[[(0, 525699786756), (3160809743307, 0),
    (1885612121, 0), (27330947, 0), (111979, 0)], [(153620665614, 0), (1007435250, 0), (4257469, 0), (20783, 0), (60,
    0)], [(0, 8029944), (0, 110221), (0, 1439), (0, 22)], [(0, 8973), (0, 193), (0, 3)]], 3, 4⟩, 1099511627776, 0,
    3767802, ⟨[[(60976856185281, 0), (0, 34096839612), (28064225, 0), (693, 0), (2, 0)], [(15214886667, 0),
    (12225181, 0), (0, 40751), (0, 14)], [(0, 12693852), (0, 31820), (46, 0)], [(9075, 0), (56, 0)]], 3, 4⟩,
    68719476736, 800587,
    5264387140139597433766263518573446343918671275544449450525918328807199179345561203751410022017, lc0⟩) (.leaf
    ⟨785, 16, 10, 173, 16, 970, ⟨[[], [(343597383680, 0)]], 3, 4⟩, ⟨[[(0, 284087969916), (3112681734550, 0),
    (2346754887, 0), (29420361, 0), (116191, 0)], [(156121249529, 0), (1036234302, 0), (4531395, 0), (20732, 0), (0,
    31)], [(0, 8545842), (0, 127301), (0, 1911), (0, 36), (0, 1)], [(0, 10010), (0, 228), (0, 4)]], 3, 4⟩,
    1099511627776, 0, 5708283, ⟨[[(60401941770804, 0), (0, 33921992103), (29451198, 0), (866, 0), (2, 0)],
    [(15411972766, 0), (11075439, 0), (0, 43467), (0, 15)], [(0, 13224794), (0, 30992), (47, 0)], [(10007, 0), (55,
    0)]], 3, 4⟩, 68719476736, 898902,
    4021684923065640207176650219528660865038594793931539863504625103018965115542093814659512368838, lc0⟩)) (.leaf
    ⟨815, 16, 10, 113, 16, 615, ⟨[[], [(343597383680, 0)]], 3, 4⟩, ⟨[[(0, 469360494876), (4051445878688, 0),
    (6307844736, 0), (150774682, 0), (1108040, 0)], [(95877780117, 0), (1244350043, 0), (9982766, 0), (70031, 0), (0,
    1248)], [(0, 6909957), (0, 226640), (0, 6710), (0, 230), (0, 9)], [(0, 6024), (0, 283), (0, 10)]], 3, 4⟩,
    1099511627776, 0, 6819434, ⟨[[(60677700395230, 0), (0, 52555828779), (70138004, 0), (1758, 0), (13, 0)],
    [(14692588781, 0), (14077342, 0), (0, 102204), (0, 60)], [(0, 12496365), (0, 41207), (101, 0)], [(9480, 0), (69,
    0)]], 3, 4⟩, 68719476736, 1315490,
    4720578130632075398751537136121856814388264468168595447033221048908578527336228966478528479021, lc0⟩))) (.sy (.sx
    (.sy (.leaf ⟨845, 16, 10, 153, 16, 1012, ⟨[[], [(343597383680, 0)]], 3, 4⟩, ⟨[[(0, 399632896015), (3361102606502,
    0), (1663070834, 0), (25696340, 0), (98976, 0)], [(141346428414, 0), (882628220, 0), (3076030, 0), (10257, 0),
    (29, 0)], [(0, 11114174), (0, 169491), (0, 2099), (0, 23)], [(0, 7036), (0, 153), (0, 2)]], 3, 4⟩, 1099511627776,
    0, 2699097, ⟨[[(62178863281394, 0), (0, 33337934045), (24816616, 0), (0, 245), (1, 0)], [(13693683898, 0),
    (9461190, 0), (0, 34209), (0, 15)], [(0, 10929916), (0, 23770), (33, 0)], [(7542, 0), (38, 0)]], 3, 4⟩,
    68719476736, 586167,
    4540275201827471760279298448060285847449082699851034100333966368388147928584698035201736855768, lc0⟩) (.leaf
    ⟨845, 16, 10, 168, 16, 992, ⟨[[], [(343597383680, 0)]], 3, 4⟩, ⟨[[(0, 376697010082), (3317046683387, 0),
    (2105318219, 0), (27634416, 0), (105039, 0)], [(143854869872, 0), (902462998, 0), (3197071, 0), (9798, 0), (0,
    60)], [(0, 11970884), (0, 193645), (0, 2560), (0, 34), (0, 1)], [(0, 7878), (0, 178), (0, 3)]], 3, 4⟩,
    1099511627776, 0, 2683476, ⟨[[(61574264205489, 0), (0, 33079282156), (25816027, 0), (0, 148), (2, 0)],
    [(13855989013, 0), (8353080, 0), (0, 36459), (0, 16)], [(0, 11355762), (0, 23010), (34, 0)], [(8221, 0), (37,
    0)]], 3, 4⟩, 68719476736, 692917,
    3644104121548136802589122783454537420446179946582480096261848596607992252838727346423216639427, lc0⟩)) (.leaf
    ⟨875, 16, 10, 106, 16, 617, ⟨[[], [(343597383680, 0)]], 3, 4⟩, ⟨[[(289649593002, 0), (4214724916981, 0),
    (5317440512, 0), (134752330, 0), (963653, 0)], [(86319373672, 0), (1050660221, 0), (6472936, 0), (19805, 0), (0,
    1109)], [(0, 8403958), (0, 281774), (0, 7409), (0, 184), (0, 6)], [(0, 4477), (0, 205), (0, 6)]], 3, 4⟩,
    1099511627776, 0, 5657485, ⟨[[(61900441517797, 0), (0, 52620113392), (63969978, 0), (0, 2504), (17, 0)],
    [(13213220740, 0), (11089967, 0), (0, 89621), (0, 67)], [(0, 10691399), (0, 31933), (76, 0)], [(7697, 0), (48,
    0)]], 3, 4⟩, 68719476736, 1287086,
    4039870151698430096276685510151452516197760942460003264766145264034237658759651436158379498227, lc0⟩)) (.leaf
    ⟨688, 25, 8, 96, 16, 472, ⟨[[], [(549755813888, 0)]], 3, 4⟩, ⟨[[(0, 85639069114), (3242656841141, 0),
    (5815100185, 0), (119057409, 0), (551594, 0)], [(143537504609, 0), (1782166953, 0), (11412302, 0), (0, 24904),
    (0, 6622)], [(0, 29213393), (0, 1083557), (0, 33841), (0, 1128), (0, 37)], [(0, 36868), (0, 1831), (0, 62), (0,
    2)]], 3, 4⟩, 1099511627776, 0, 40700254, ⟨[[(60695591608918, 0), (0, 65684593376), (111555563, 0), (0, 367), (37,
    0)], [(17174121674, 0), (13766216, 0), (0, 203928), (0, 143), (1, 0)], [(0, 18250689), (0, 63400), (218, 0)],
    [(17554, 0), (124, 0)]], 3, 4⟩, 68719476736, 19840541,
    4400098869557150948318538688042069542346554296952748930341389390642897299897023787333488259680, lc0⟩))
theorem c72 : checkC job ⟨6, 8, 8, 10, 9, 13⟩ 1 25 lims t72 464 48 8 27 3 256 = true := by decide +kernel

def t73 : CTree :=
  .sx (.sy (.leaf ⟨640, 25, 8, 97, 16, 458, ⟨[[], [(549755813888, 0)]], 3, 4⟩, ⟨[[(100802427568, 0), (3036834147966,
    0), (6479940906, 0), (128861945, 0), (700929, 0)], [(155620114781, 0), (2084610555, 0), (17669774, 0), (60223,
    0), (0, 5977)], [(0, 22071164), (0, 831133), (0, 32276), (0, 1347), (0, 44)], [(0, 47844), (0, 2522), (0, 100),
    (0, 3)]], 3, 4⟩, 1099511627776, 0, 99497588, ⟨[[(59565366072747, 0), (0, 67543014457), (129545985, 0), (7313, 0),
    (0, 20)], [(19134161625, 0), (19598378, 0), (0, 243971), (0, 158)], [(0, 21354798), (0, 85513), (305, 0)],
    [(21769, 0), (185, 0), (0, 1)]], 3, 4⟩, 68719476736, 28264808,
    4864354329451481822041131641322365065989664519128254552494066479754354347563650913659212924540, lc0⟩) (.leaf
    ⟨640, 25, 8, 108, 16, 433, ⟨[[], [(549755813888, 0)]], 3, 4⟩, ⟨[[(0, 346952684000), (2958226109146, 0),
    (8432343629, 0), (132493434, 0), (193570, 0)], [(159555201824, 0), (2171172449, 0), (16053450, 0), (0, 153001),
    (0, 11376)], [(0, 27011498), (0, 1327681), (0, 63046), (0, 2333), (0, 38)], [(0, 63646), (0, 3872), (0, 153), (0,
    3)]], 3, 4⟩, 1099511627776, 0, 182763750, ⟨[[(58439739631749, 0), (0, 66713998958), (145167370, 0), (0, 3455),
    (0, 415)], [(19398688461, 0), (11689727, 0), (0, 281908), (0, 200), (0, 1)], [(0, 22737355), (0, 79176), (353,
    0)], [(24795, 0), (176, 0), (0, 1)]], 3, 4⟩, 68719476736, 45826838,
    4340603081767954874281717002875098436976141324566904587558454933735863806107056765310028599373, lc0⟩)) (.sy
    (.leaf ⟨688, 25, 8, 109, 16, 450, ⟨[[], [(549755813888, 0)]], 3, 4⟩, ⟨[[(0, 521426035820), (3170619583798, 0),
    (7652393274, 0), (117456782, 0), (0, 290107)], [(147418092765, 0), (1819895374, 0), (8501953, 0), (0, 273581),
    (0, 14381)], [(0, 35493690), (0, 1570086), (0, 60211), (0, 2047), (0, 38)], [(0, 48135), (0, 2647), (0, 90), (0,
    1)]], 3, 4⟩, 1099511627776, 0, 92492754, ⟨[[(59529141532278, 0), (0, 64606984510), (122658972, 0), (0, 6190), (0,
    294)], [(17357138031, 0), (6466037, 0), (0, 231542), (0, 127), (0, 1)], [(0, 19337876), (0, 57814), (260, 0), (1,
    0)], [(19696, 0), (116, 0)]], 3, 4⟩, 68719476736, 37114918,
    2348293206027386975100638945301724009131374841759310788786564563140398068988607358970808208216, lc0⟩) (.leaf
    ⟨688, 25, 8, 120, 16, 427, ⟨[[], [(549755813888, 0)]], 3, 4⟩, ⟨[[(0, 378642263987), (3107290149312, 0),
    (9139496129, 0), (93999506, 0), (0, 1045048)], [(150460210192, 0), (1783036363, 0), (231193, 0), (0, 604921), (0,
    11645)], [(0, 45130108), (0, 2405875), (0, 95936), (0, 2018), (53, 0)], [(0, 63840), (0, 3496), (0, 58), (6, 0),
    (1, 0)]], 3, 4⟩, 1099511627776, 0, 314708571, ⟨[[(58438200079786, 0), (0, 63588556615), (134785825, 0), (0,
    61527), (0, 1311)], [(17398641615, 0), (0, 1866200), (0, 268525), (0, 372), (0, 6)], [(0, 20265389), (0, 50867),
    (315, 0)], [(21625, 0), (111, 0)]], 3, 4⟩, 68719476736, 49224889,
    3529016975976440147746963675237342662794780099603051097624964981510831522047814413362964209614, lc0⟩))
theorem c73 : checkC job ⟨6, 8, 8, 10, 9, 13⟩ 1 25 lims t73 464 48 8 33 3 256 = true := by decide +kernel

def t74 : CTree :=
  .sx (.sy (.leaf ⟨640, 25, 8, 117, 16, 407, ⟨[[], [(549755813888, 0)]], 3, 4⟩, ⟨[[(0, 356105296161), (2889228771681,
    0), (10180451714, 0), (125231191, 0), (28517, 0)], [(162717328671, 0), (2196954128, 0), (10194062, 0), (0,
    384130), (0, 6459)], [(0, 35518236), (0, 2215628), (0, 102343), (0, 2263), (46, 0)], [(0, 87132), (0, 5458), (0,
    138), (5, 0)]], 3, 4⟩, 1099511627776, 0, 348980857, ⟨[[(57380022394394, 0), (0, 65901292448), (162935643, 0), (0,
    64127), (0, 1406)], [(19513704776, 0), (2336672, 0), (0, 335209), (0, 504), (0, 6)], [(0, 23944714), (0, 71656),
    (408, 0)], [(27541, 0), (168, 0), (0, 1)]], 3, 4⟩, 68719476736, 58216548,
    4899154117864479752116586323105507147215582384918274342302154764031007665234200047540578281223, lc0⟩) (.leaf
    ⟨640, 25, 8, 125, 16, 382, ⟨[[], [(549755813888, 0)]], 3, 4⟩, ⟨[[(0, 392080204046), (2839304996170, 0),
    (11739312690, 0), (130371429, 0), (1299808, 0)], [(165357183778, 0), (2136065607, 0), (2927865, 0), (0, 313434),
    (8101, 0)], [(0, 49649168), (0, 3404553), (0, 119285), (0, 474), (16, 0)], [(0, 115693), (0, 5866), (20, 0), (8,
    0), (0, 1)]], 3, 4⟩, 1099511627776, 0, 1149076027, ⟨[[(56355980586276, 0), (0, 64677799725), (178648344, 0), (0,
    199719), (0, 1799)], [(19461160133, 0), (0, 9608112), (0, 419462), (0, 1029), (0, 1)], [(0, 24999154), (0,
    62704), (428, 0), (0, 1)], [(30114, 0), (160, 0), (0, 1)]], 3, 4⟩, 68719476736, 100522927,
    3918690013588125044170663995088912750220906364974700856163289896737795372383155587590796908876, lc0⟩)) (.sy
    (.leaf ⟨688, 25, 8, 130, 16, 405, ⟨[[], [(549755813888, 0)]], 3, 4⟩, ⟨[[(0, 138880379615), (3060070442271, 0),
    (10096157460, 0), (74498643, 0), (276648, 0)], [(152729853627, 0), (1626696057, 0), (0, 10923668), (0, 551969),
    (15870, 0)], [(0, 60077546), (0, 3501388), (0, 102824), (1151, 0), (170, 0)], [(0, 80497), (0, 2885), (167, 0),
    (18, 0)]], 3, 4⟩, 1099511627776, 0, 1148884868, ⟨[[(57392076474927, 0), (0, 62281317663), (143385503, 0), (0,
    194937), (0, 1721)], [(17286210858, 0), (0, 12112929), (0, 332646), (0, 928), (0, 3)], [(0, 21042159), (0,
    42488), (329, 0), (0, 1)], [(23449, 0), (108, 0)]], 3, 4⟩, 68719476736, 86458832,
    4361608947325197518953493589545701399814267143398710536267040658115575659282893523466363402690, lc0⟩) (.leaf
    ⟨688, 25, 8, 140, 16, 385, ⟨[[], [(549755813888, 0)]], 3, 4⟩, ⟨[[(0, 370180062927), (3032537175457, 0),
    (11093078684, 0), (98642336, 0), (557468, 0)], [(154000730759, 0), (1379081227, 0), (0, 16903677), (0, 434523),
    (0, 52788)], [(0, 80240388), (0, 4328235), (0, 78436), (0, 3052), (0, 899)], [(0, 84450), (207, 0), (167, 0), (0,
    41), (0, 6)]], 3, 4⟩, 1099511627776, 0, 4578213016, ⟨[[(56357968778375, 0), (0, 60514403823), (145675224, 0), (0,
    264877), (802, 0)], [(16973147066, 0), (0, 25625325), (0, 408867), (0, 151), (32, 0)], [(0, 21680721), (0,
    33011), (385, 0), (4, 0)], [(25243, 0), (105, 0)]], 3, 4⟩, 68719476736, 163390740,
    2840151937205821640092317751058414521670222731463029328153026888762720142228635387694892578510, lc0⟩))
theorem c74 : checkC job ⟨6, 8, 8, 10, 9, 13⟩ 1 25 lims t74 464 48 8 39 3 256 = true := by decide +kernel

def t75 : CTree :=
  .sy (.leaf ⟨640, 25, 8, 131, 16, 357, ⟨[[], [(549755813888, 0)]], 3, 4⟩, ⟨[[(385891454045, 0), (2799566550654, 0),
    (13476695710, 0), (151375617, 0), (0, 525975)], [(166551315475, 0), (1997007946, 0), (0, 4003803), (0, 870265),
    (0, 103123)], [(0, 69748842), (0, 4709669), (0, 175477), (0, 12119), (0, 1352)], [(0, 141180), (0, 6349), (0,
    437), (0, 84), (0, 7)]], 3, 4⟩, 1099511627776, 0, 6224292826, ⟨[[(55414937723870, 0), (0, 63574056763),
    (192191453, 0), (0, 316989), (0, 663)], [(19215398529, 0), (0, 24585963), (0, 522351), (0, 412), (28, 0)], [(0,
    25853782), (0, 53355), (514, 0), (4, 0)], [(32399, 0), (152, 0), (0, 1)]], 3, 4⟩, 68719476736, 244762397,
    2766989313862815637797470591916275036370792071003069299855606739162033130911973594438325159623, lc0⟩) (.sx (.leaf
    ⟨785, 16, 10, 180, 16, 448, ⟨[[], [(343597383680, 0)]], 3, 4⟩, ⟨[[(0, 388806841579), (3674328608205, 0),
    (20129411833, 0), (64008218, 0), (0, 19765655)], [(114721517188, 0), (1325290444, 0), (0, 21728589), (0,
    3294084), (0, 234120)], [(0, 29276956), (0, 2512969), (0, 191458), (0, 14660), (0, 245)], [(0, 34619), (0, 3378),
    (0, 342), (0, 1), (6, 0)]], 3, 4⟩, 1099511627776, 0, 1643289084, ⟨[[(54423511522433, 0), (0, 46624488441),
    (117047148, 0), (0, 271609), (0, 4702)], [(15582355345, 0), (0, 23357910), (0, 275393), (0, 237), (0, 20)], [(0,
    17728738), (0, 22132), (300, 0), (2, 0)], [(18709, 0), (63, 0)]], 3, 4⟩, 68719476736, 228977352,
    2230959963897494880738803884472723744946284563067037797631424570356181302146040411349208700656, lc0⟩) (.sy (.leaf
    ⟨815, 16, 10, 287, 16, 698, ⟨[[], [(343597383680, 0)]], 3, 4⟩, ⟨[[(114348495475, 0), (2902056418053, 0),
    (6701607945, 0), (0, 30291803), (0, 3069589)], [(166554168711, 0), (709097802, 0), (0, 16650218), (0, 855585),
    (0, 17598)], [(0, 53543856), (0, 2163781), (0, 79007), (0, 1744), (144, 0)], [(0, 43756), (0, 1957), (0, 35),
    (14, 0), (2, 0)]], 3, 4⟩, 1099511627776, 0, 892432626, ⟨[[(54678281205600, 0), (0, 29808430400), (43204680, 0),
    (0, 104137), (0, 1459)], [(14459289911, 0), (0, 17139547), (0, 108070), (0, 187), (0, 8)], [(0, 16215200), (0,
    9116), (130, 0)], [(16680, 0), (36, 0)]], 3, 4⟩, 68719476736, 31731211,
    1655863910484209865173354884743516464669351610420548030400689469101555816805255737273904609719, lc0⟩) (.leaf
    ⟨815, 16, 10, 297, 16, 683, ⟨[[], [(343597383680, 0)]], 3, 4⟩, ⟨[[(0, 400891117943), (2912446300248, 0),
    (5353390632, 0), (0, 97298812), (0, 948413)], [(166360418056, 0), (404226660, 0), (0, 30726315), (0, 327349),
    (98633, 0)], [(0, 67886174), (0, 2946940), (0, 18293), (13323, 0), (1451, 0)], [(0, 49353), (1559, 0), (928, 0),
    (122, 0), (9, 0)]], 3, 4⟩, 1099511627776, 0, 3861373828, ⟨[[(54196961645700, 0), (0, 29124157866), (36533221, 0),
    (0, 250906), (0, 2158)], [(14145038959, 0), (0, 21505585), (0, 140489), (0, 988), (0, 12)], [(0, 16331930), (0,
    5370), (89, 0), (0, 2)], [(17286, 0), (38, 0)]], 3, 4⟩, 68719476736, 86849335,
    4426786738016938893294226499427880338712191766686332469187746741050978935256316486751402038880, lc0⟩)))
theorem c75 : checkC job ⟨6, 8, 8, 10, 9, 13⟩ 1 25 lims t75 880 48 16 45 3 256 = true := by decide +kernel

def t76 : CTree :=
  .sx (.leaf ⟨845, 16, 10, 190, 16, 477, ⟨[[], [(343597383680, 0)]], 3, 4⟩, ⟨[[(0, 467285743151), (3897145034200, 0),
    (16103238513, 0), (0, 14103787), (0, 22091166)], [(103202112271, 0), (820761074, 0), (0, 26450018), (0, 2757940),
    (0, 222956)], [(0, 32243281), (0, 1979613), (0, 113752), (0, 10441), (0, 233)], [(0, 17137), (0, 878), (0, 160),
    (0, 2), (5, 0)]], 3, 4⟩, 1099511627776, 0, 1725522866, ⟨[[(55373276311921, 0), (0, 45466852880), (90699313, 0),
    (0, 203375), (0, 3761)], [(13679445956, 0), (0, 23145344), (0, 211279), (112, 0), (0, 15)], [(0, 14738165), (0,
    12204), (263, 0), (2, 0)], [(14474, 0), (47, 0)]], 3, 4⟩, 68719476736, 219523737,
    2382802186049384545101672886236023697925036368644588260958613847437242642096771083943009046480, lc0⟩) (.sy (.leaf
    ⟨875, 16, 10, 309, 16, 764, ⟨[[], [(343597383680, 0)]], 3, 4⟩, ⟨[[(14325538256, 0), (3137538895772, 0),
    (5417050012, 0), (0, 29299662), (0, 3099209)], [(153539224106, 0), (436938821, 0), (0, 13669542), (0, 656284),
    (0, 20566)], [(0, 53385601), (0, 1458048), (0, 42958), (0, 1655), (62, 0)], [(0, 16622), (0, 284), (0, 36), (5,
    0), (1, 0)]], 3, 4⟩, 1099511627776, 0, 561168812, ⟨[[(55636544971192, 0), (0, 28521333575), (32202949, 0), (0,
    63259), (0, 978)], [(12761652666, 0), (0, 15540564), (0, 75626), (0, 6), (0, 5)], [(0, 13530484), (0, 4051),
    (115, 0)], [(13012, 0), (28, 0)]], 3, 4⟩, 68719476736, 28366055,
    2349257530884750867951133502760194799146592543105676619740533715516853424227328368036978844516, lc0⟩) (.leaf
    ⟨875, 16, 10, 321, 16, 752, ⟨[[], [(343597383680, 0)]], 3, 4⟩, ⟨[[(194447334053, 0), (3146151230997, 0),
    (4064415232, 0), (0, 108898026), (0, 1866116)], [(153066333807, 0), (189471870, 0), (0, 26142406), (0, 386475),
    (80757, 0)], [(0, 62815590), (0, 1941829), (0, 11984), (9168, 0), (1150, 0)], [(0, 16161), (1395, 0), (527, 0),
    (79, 0), (7, 0)]], 3, 4⟩, 1099511627776, 0, 2211410428, ⟨[[(55157208495110, 0), (0, 27939664996), (27272286, 0),
    (0, 184849), (0, 2311)], [(12472800275, 0), (0, 18567258), (0, 92378), (0, 659), (0, 13)], [(0, 13565213), (0,
    71), (106, 0), (0, 1)], [(13514, 0), (31, 0)]], 3, 4⟩, 68719476736, 25479250,
    4792310874120459579425598468662664129093595689794706967106645536815086031274689467292295794892, lc0⟩))
theorem c76 : checkC job ⟨6, 8, 8, 10, 9, 13⟩ 1 25 lims t76 976 48 16 87 3 512 = true := by decide +kernel

def t77 : CTree :=
  .sy (.leaf ⟨845, 16, 10, 310, 16, 718, ⟨[[], [(343597383680, 0)]], 3, 4⟩, ⟨[[(0, 227406042625), (3033324833630, 0),
    (4568190195, 0), (0, 107065173), (0, 998692)], [(159597532639, 0), (265297029, 0), (0, 29075176), (0, 258452),
    (102317, 0)], [(0, 66400248), (0, 2426987), (0, 4635), (12648, 0), (1411, 0)], [(0, 29868), (1982, 0), (796, 0),
    (108, 0), (8, 0)]], 3, 4⟩, 1099511627776, 0, 3124116180, ⟨[[(54670077585275, 0), (0, 28455463435), (30872738, 0),
    (0, 223749), (0, 2283)], [(13255241799, 0), (0, 20139561), (0, 116199), (0, 861), (0, 13)], [(0, 14861931), (0,
    2350), (93, 0), (0, 2)], [(15258, 0), (34, 0)]], 3, 4⟩, 68719476736, 50554692,
    5033937352952537758883232714612831609867501795767430428064958400533582999271566741665367712360, lc0⟩) (.sx (.sy
    (.leaf ⟨1675, 16, 20, 632, 16, 1423, ⟨[[], [(343597383680, 0)]], 3, 4⟩, ⟨[[(0, 306726461963), (3038846870106, 0),
    (1940667831, 0), (0, 17204782), (1101216, 0)], [(162382730316, 0), (62495363, 0), (0, 5786272), (270548, 0),
    (20641, 0)], [(0, 37236195), (0, 511011), (27492, 0), (2553, 0), (106, 0)], [(0, 4189), (1410, 0), (154, 0), (8,
    0)]], 3, 4⟩, 1099511627776, 0, 356400486, ⟨[[(54320624479540, 0), (0, 14025582864), (6388798, 0), (0, 34743), (0,
    14)], [(6646108138, 0), (0, 5655169), (0, 18377), (0, 70)], [(0, 3808036), (0, 248), (2, 0)], [(2002, 0), (2,
    0)]], 3, 4⟩, 68719476736, 4943515,
    3842739534287756194041370340316973686982872179331017805454953888797336484779893211668185573981, lc0⟩) (.leaf
    ⟨1675, 16, 20, 645, 16, 1416, ⟨[[], [(343597383680, 0)]], 3, 4⟩, ⟨[[(194064632671, 0), (3046687075124, 0),
    (2041102874, 0), (42026477, 0), (4300994, 0)], [(161840658523, 0), (45142453, 0), (5339901, 0), (1085945, 0),
    (51306, 0)], [(0, 38408967), (206421, 0), (103169, 0), (6363, 0), (226, 0)], [(11988, 0), (4429, 0), (379, 0),
    (18, 0), (1, 0)]], 3, 4⟩, 1099511627776, 0, 822556899, ⟨[[(54095100540947, 0), (0, 13913411236), (4900293, 0),
    (0, 24231), (432, 0)], [(6549465773, 0), (0, 6330369), (0, 21249), (0, 23), (2, 0)], [(0, 3811798), (0, 232), (0,
    1)], [(2036, 0), (2, 0)]], 3, 4⟩, 68719476736, 13445855,
    4832582940221096069569642786383776711298150172169977461284986721694656914465706099404782105774, lc0⟩)) (.sy (.sy
    (.leaf ⟨1705, 16, 20, 903, 16, 2004, ⟨[[], [(343597383680, 0)]], 3, 4⟩, ⟨[[(367992661430, 0), (2138227749148, 0),
    (590497043, 0), (3252228, 0), (285098, 0)], [(218584289905, 0), (9457413, 0), (388719, 0), (137532, 0), (3577,
    0)], [(0, 51480305), (0, 24363), (25249, 0), (846, 0), (16, 0)], [(9335, 0), (2122, 0), (96, 0), (2, 0)]], 3, 4⟩,
    1099511627776, 0, 582223509, ⟨[[(54386472182607, 0), (0, 10010145790), (2443034, 0), (0, 12099), (52, 0)],
    [(6369203497, 0), (0, 4273633), (0, 10170), (0, 21)], [(0, 3633340), (0, 28)], [(1910, 0), (1, 0)]], 3, 4⟩,
    68719476736, 2044438,
    3800595152078556796853333880053811350599834255266916182463897333119771052248746851016858334464, lc0⟩) (.leaf
    ⟨1705, 16, 20, 913, 16, 2000, ⟨[[], [(343597383680, 0)]], 3, 4⟩, ⟨[[(216480508240, 0), (2141669352031, 0),
    (723286357, 0), (12510397, 0), (502766, 0)], [(218253304852, 0), (32373113, 0), (3755764, 0), (244629, 0), (5494,
    0)], [(0, 50411842), (384269, 0), (44276, 0), (1304, 0), (23, 0)], [(26042, 0), (3561, 0), (148, 0), (3, 0)]], 3,
    4⟩, 1099511627776, 0, 888460102, ⟨[[(54268415154900, 0), (0, 9976887958), (2086891, 0), (0, 7812), (140, 0)],
    [(6317211256, 0), (0, 4530274), (0, 10710), (0, 4), (1, 0)], [(0, 3633712), (0, 36)], [(1927, 0), (1, 0)]], 3,
    4⟩, 68719476736, 3377195,
    4824043775091261759041462478758390248304831074062501240903556268781887089325699371169630159434, lc0⟩)) (.sx (.sy
    (.leaf ⟨3480, 16, 41, 1329, 16, 2888, ⟨[[(0, 137438953472)], [(352187318272, 0)]], 3, 4⟩, ⟨[[(0, 391761873580),
    (3104777177686, 0), (1283756978, 0), (28211021, 0), (939474, 0)], [(159522125668, 0), (48165282, 0), (4599071,
    0), (232010, 0), (4903, 0)], [(0, 17877344), (253589, 0), (21155, 0), (590, 0), (10, 0)], [(7070, 0), (849, 0),
    (34, 0), (1, 0)]], 3, 4⟩, 1099511627776, 0, 95128007, ⟨[[(54148151108364, 0), (0, 6864485454), (981582, 0), (0,
    895), (49, 0)], [(3091550064, 0), (0, 1583296), (0, 2482), (2, 0)], [(0, 875084), (0, 12)], [(228, 0)]], 3, 4⟩,
    68719476736, 619483,
    3866200472695180040533586974313394081548221327414945331748020473062518914672179603110336151249, lc0⟩) (.leaf
    ⟨3480, 16, 41, 1338, 16, 2871, ⟨[[(0, 137438953472)], [(352187318272, 0)]], 3, 4⟩, ⟨[[(0, 314259819080),
    (3105760254769, 0), (2019790811, 0), (56844211, 0), (1502137, 0)], [(159091668865, 0), (132321942, 0), (9930943,
    0), (374156, 0), (7218, 0)], [(0, 15361845), (577241, 0), (34019, 0), (873, 0), (14, 0)], [(13485, 0), (1341, 0),
    (50, 0), (1, 0)]], 3, 4⟩, 1099511627776, 0, 142859056, ⟨[[(54032267014254, 0), (0, 6871357143), (1053575, 0),
    (3764, 0), (92, 0)], [(3064065411, 0), (0, 1673103), (0, 2200), (11, 0)], [(0, 875266), (0, 8)], [(230, 0)]], 3,
    4⟩, 68719476736, 1005750,
    3828060523833510847992439431926303440964399051462117817627979601115798696838806047182287660204, lc0⟩)) (.sy
    (.leaf ⟨3511, 16, 41, 1352, 16, 2908, ⟨[[(0, 412316860416)], [(352187318272, 0)]], 3, 4⟩, ⟨[[(0, 302061548000),
    (3134127478096, 0), (1966496030, 0), (57048730, 0), (1524058, 0)], [(157415682471, 0), (124699785, 0), (9781927,
    0), (371433, 0), (7230, 0)], [(0, 15174633), (558355, 0), (33019, 0), (855, 0), (14, 0)], [(12834, 0), (1271, 0),
    (48, 0), (1, 0)]], 3, 4⟩, 1099511627776, 0, 132492488, ⟨[[(54148598261926, 0), (0, 6841259737), (927870, 0),
    (2820, 0), (83, 0)], [(3015791188, 0), (0, 1637878), (0, 2224), (9, 0)], [(0, 854180), (1, 0)], [(223, 0)]], 3,
    4⟩, 68719476736, 905847,
    3943107681965627366757396798540018553492265319065017274768254184170233181290569533668783665252, lc0⟩) (.sx (.sy
    (.leaf ⟨7006, 16, 82, 2710, 16, 5789, ⟨[[(0, 137438953472)], [(352187318272, 0)]], 3, 4⟩, ⟨[[(0, 406452382214),
    (3136057714950, 0), (1290055103, 0), (19355557, 0), (237453, 0)], [(158078885532, 0), (98187077, 0), (3395509,
    0), (58431, 0), (546, 0)], [(0, 6589963), (196828, 0), (5223, 0), (65, 0), (1, 0)], [(4330, 0), (201, 0), (4,
    0)]], 3, 4⟩, 1099511627776, 0, 17905394, ⟨[[(54060865493780, 0), (0, 3420644055), (269908, 0), (798, 0), (7, 0)],
    [(1507025683, 0), (0, 421103), (0, 240), (1, 0)], [(0, 214889)], [(28, 0)]], 3, 4⟩, 68719476736, 44348,
    2881138187776638867753715287130640138032710313696285863847067117926470943166179719564404185253, lc0⟩) (.sx (.leaf
    ⟨14082, 16, 165, 3490, 16, 7418, ⟨[[(0, 309237645312)], [(354334801920, 0)]], 3, 4⟩, ⟨[[(0, 382829502314),
    (4037035144052, 0), (2034379107, 0), (30776803, 0), (357963, 0)], [(101911406640, 0), (85435479, 0), (2734427,
    0), (44302, 0), (403, 0)], [(0, 1795041), (79903, 0), (1986, 0), (24, 0)], [(858, 0), (38, 0), (1, 0)]], 3, 4⟩,
    1099511627776, 0, 2698305, ⟨[[(54002890702153, 0), (0, 2660781347), (190154, 0), (575, 0), (3, 0)], [(747721974,
    0), (0, 165624), (0, 59)], [(0, 53231)], [(3, 0)]], 3, 4⟩, 68719476736, 46181,
    4033785224097213774140858720069950627081111951948276829019442336545540099416070541812124302283, lc0⟩) (.sy (.leaf
    ⟨14113, 16, 165, 5439, 16, 11550, ⟨[[(0, 377957122048)], [(354334801920, 0)]], 3, 4⟩, ⟨[[(0, 313661656003),
    (3144637134636, 0), (841737150, 0), (6409171, 0), (36773, 0)], [(157953055508, 0), (72235454, 0), (1136595, 0),
    (9062, 0), (41, 0)], [(0, 2592927), (66194, 0), (808, 0), (5, 0)], [(1404, 0), (31, 0)]], 3, 4⟩, 1099511627776,
    0, 2775016, ⟨[[(54017480360824, 0), (0, 1711400213), (80086, 0), (166, 0), (1, 0)], [(743900543, 0), (0, 106595),
    (0, 23)], [(0, 52907)], [(3, 0)]], 3, 4⟩, 68719476736, 40281,
    4072762662729764548618517180747659880373604103990590291603680181031429560525673154205989293799, lc0⟩) (.skip))))
    (.sy (.sx (.leaf ⟨14144, 16, 165, 3502, 16, 7454, ⟨[[(0, 446676598784)], [(354334801920, 0)]], 3, 4⟩,
    ⟨[[(274838049528, 0), (4048549864127, 0), (2012569891, 0), (30793768, 0), (359988, 0)], [(101207483810, 0),
    (83570727, 0), (2708619, 0), (44066, 0), (403, 0)], [(0, 1791372), (78354, 0), (1953, 0), (24, 0)], [(833, 0),
    (37, 0), (1, 0)]], 3, 4⟩, 1099511627776, 0, 2677895, ⟨[[(54062173865332, 0), (0, 2659931587), (176520, 0), (525,
    0), (3, 0)], [(741973500, 0), (0, 164196), (0, 62)], [(0, 52588)], [(3, 0)]], 3, 4⟩, 68719476736, 34786,
    4111986052754524497514191020806889537532152558819661145675798984071362942055154768576701240728, lc0⟩) (.sy (.leaf
    ⟨14175, 16, 165, 5467, 16, 11624, ⟨[[(0, 515396075520)], [(354334801920, 0)]], 3, 4⟩, ⟨[[(0, 383842754651),
    (3158384094956, 0), (833471676, 0), (6415233, 0), (37003, 0)], [(157104582369, 0), (70711729, 0), (1126170, 0),
    (9019, 0), (41, 0)], [(0, 2598969), (64919, 0), (795, 0), (5, 0)], [(1364, 0), (30, 0)]], 3, 4⟩, 1099511627776,
    0, 2625889, ⟨[[(54075092015234, 0), (0, 1708111953), (74387, 0), (153, 0), (1, 0)], [(738103871, 0), (0, 105568),
    (0, 24)], [(0, 52268)], [(3, 0)]], 3, 4⟩, 68719476736, 40724,
    4142340047168092955386293867573563748040440066750676944214044379727573856297793561229002750403, lc0⟩) (.skip)))
    (.skip)))))))
theorem c77 : checkC job ⟨6, 8, 8, 10, 9, 13⟩ 1 25 lims t77 1904 48 32 93 3 512 = true := by decide +kernel

def t78 : CTree :=
  .sx (.sy (.leaf ⟨1735, 16, 20, 657, 16, 1493, ⟨[[], [(343597383680, 0)]], 3, 4⟩, ⟨[[(0, 407617046244),
    (3152880912050, 0), (1615777962, 0), (0, 20594605), (1000720, 0)], [(155645189646, 0), (23290692, 0), (0,
    5571593), (230041, 0), (19170, 0)], [(0, 34982201), (0, 417689), (22097, 0), (2160, 0), (95, 0)], [(0, 1476),
    (1065, 0), (118, 0), (7, 0)]], 3, 4⟩, 1099511627776, 0, 257330694, ⟨[[(54789661077590, 0), (0, 13754117374),
    (5421842, 0), (0, 32870), (0, 78)], [(6242229718, 0), (0, 5203465), (0, 15218), (0, 68)], [(0, 3468129), (100,
    0), (3, 0)], [(1776, 0), (2, 0)]], 3, 4⟩, 68719476736, 3240854,
    4140737127356681252391066049775735282755964719336296476665617745575088242952692461934005840713, lc0⟩) (.sx (.leaf
    ⟨3541, 16, 41, 857, 16, 1908, ⟨[[(412316860416, 0)], [(352187318272, 0)]], 3, 4⟩, ⟨[[(0, 182417358936),
    (4052976504246, 0), (2029171303, 0), (20925400, 0), (4191241, 0)], [(100584164267, 0), (0, 103798), (495079, 0),
    (489936, 0), (26082, 0)], [(0, 11728525), (0, 13147), (21801, 0), (1489, 0), (57, 0)], [(1061, 0), (443, 0), (41,
    0), (2, 0)]], 3, 4⟩, 1099511627776, 0, 91268228, ⟨[[(54555953253462, 0), (0, 10627715389), (2567380, 0), (0,
    15225), (49, 0)], [(3035156636, 0), (0, 2159372), (0, 5367), (0, 14)], [(0, 834804), (18, 0)], [(212, 0)]], 3,
    4⟩, 68719476736, 1949360,
    3952606910448626147721921546506666595304828876823147545972596765254432338930748914660666670586, lc0⟩) (.leaf
    ⟨3572, 16, 41, 871, 16, 1919, ⟨[[(137438953472, 0)], [(352187318272, 0)]], 3, 4⟩, ⟨[[(0, 539907772482),
    (4076653501904, 0), (2330594260, 0), (84137043, 0), (7324649, 0)], [(98941592319, 0), (11724883, 0), (5992418,
    0), (844027, 0), (39261, 0)], [(0, 11281124), (147960, 0), (36152, 0), (2198, 0), (80, 0)], [(2598, 0), (686, 0),
    (59, 0), (3, 0)]], 3, 4⟩, 1099511627776, 0, 133489555, ⟨[[(54553101208059, 0), (0, 10593911601), (1991980, 0),
    (0, 12212), (130, 0)], [(2964124736, 0), (0, 2244577), (0, 5616), (0, 8)], [(0, 815023), (33, 0)], [(208, 0)]],
    3, 4⟩, 68719476736, 3038891,
    5039116834473321297329135173788394863161198356608570154562378817254148272578741688515636652000, lc0⟩))) (.sy (.sx
    (.leaf ⟨3603, 16, 41, 867, 16, 1941, ⟨[[(0, 137438953472)], [(352187318272, 0)]], 3, 4⟩, ⟨[[(0, 331850931736),
    (4098957668676, 0), (1795187301, 0), (13045737, 0), (3864680, 0)], [(97906123049, 0), (0, 9781452), (0, 79800),
    (432838, 0), (24150, 0)], [(0, 11244896), (0, 23805), (18493, 0), (1315, 0), (52, 0)], [(917, 0), (361, 0), (34,
    0), (2, 0)]], 3, 4⟩, 1099511627776, 0, 83116984, ⟨[[(54792038947906, 0), (0, 10600436780), (2386462, 0), (0,
    16004), (22, 0)], [(2944142221, 0), (0, 2069461), (0, 4972), (0, 16)], [(0, 796613), (50, 0)], [(200, 0)]], 3,
    4⟩, 68719476736, 1578885,
    3989773114052400004367129909733263254911340707019426490444836714203207190947805323859200370393, lc0⟩) (.leaf
    ⟨3634, 16, 41, 880, 16, 1952, ⟨[[(0, 412316860416)], [(352187318272, 0)]], 3, 4⟩, ⟨[[(124093042308, 0),
    (4121381816437, 0), (2002476280, 0), (68817510, 0), (6755799, 0)], [(96325169488, 0), (0, 2772942), (4567334, 0),
    (744469, 0), (36126, 0)], [(0, 10883007), (106637, 0), (30509, 0), (1929, 0), (72, 0)], [(2098, 0), (554, 0),
    (49, 0), (2, 0)]], 3, 4⟩, 1099511627776, 0, 120911951, ⟨[[(54796930282605, 0), (0, 10571846206), (1829596, 0),
    (0, 14624), (79, 0)], [(2878383995, 0), (0, 2136557), (0, 5261), (0, 13)], [(0, 777694), (66, 0)], [(196, 0)]],
    3, 4⟩, 68719476736, 2381618,
    4919702389983606017091898429598721183788760477398930145873326146710994463823296688555723302711, lc0⟩)) (.sy (.sx
    (.leaf ⟨3603, 16, 41, 1380, 16, 3031, ⟨[[(0, 137438953472)], [(352187318272, 0)]], 3, 4⟩, ⟨[[(0, 374537582112),
    (3215045906506, 0), (1025531541, 0), (24682406, 0), (909710, 0)], [(152895097090, 0), (20569574, 0), (3707867,
    0), (205817, 0), (4591, 0)], [(0, 16917525), (190927, 0), (17165, 0), (503, 0), (9, 0)], [(5352, 0), (627, 0),
    (26, 0), (1, 0)]], 3, 4⟩, 1099511627776, 0, 66394436, ⟨[[(54615309600456, 0), (0, 6745219919), (690603, 0), (0,
    2741), (27, 0)], [(2908067091, 0), (0, 1438915), (0, 2277), (0, 1)], [(0, 795784), (30, 0)], [(203, 0)]], 3, 4⟩,
    68719476736, 430292,
    4080284752240767228009619635742086235118247918738830443463110192912592088084562935338184627007, lc0⟩) (.leaf
    ⟨3634, 16, 41, 1403, 16, 3053, ⟨[[(0, 412316860416)], [(352187318272, 0)]], 3, 4⟩, ⟨[[(0, 19827477159),
    (3242760054930, 0), (1576268789, 0), (50037184, 0), (1452929, 0)], [(150913921055, 0), (77563258, 0), (7871304,
    0), (323914, 0), (6660, 0)], [(0, 14977639), (413597, 0), (26286, 0), (718, 0), (12, 0)], [(9132, 0), (919, 0),
    (37, 0), (1, 0)]], 3, 4⟩, 1099511627776, 0, 90569374, ⟨[[(54617278821433, 0), (0, 6726092314), (539457, 0), (0,
    780), (48, 0)], [(2840409637, 0), (0, 1484938), (0, 2240), (2, 0)], [(0, 776618), (38, 0)], [(199, 0)]], 3, 4⟩,
    68719476736, 564868,
    3936655517935119446146671148084778757377866373338357760304488804205316594294692449802109308769, lc0⟩)) (.sx
    (.leaf ⟨3603, 16, 41, 1391, 16, 3017, ⟨[[(0, 137438953472)], [(352187318272, 0)]], 3, 4⟩, ⟨[[(0, 231333334310),
    (3215993326719, 0), (1696823944, 0), (52895245, 0), (1494172, 0)], [(152495303394, 0), (91285883, 0), (8517751,
    0), (340730, 0), (6889, 0)], [(0, 14963313), (457674, 0), (28295, 0), (760, 0), (13, 0)], [(10160, 0), (1014, 0),
    (40, 0), (1, 0)]], 3, 4⟩, 1099511627776, 0, 100913779, ⟨[[(54497772235398, 0), (0, 6754103574), (617845, 0), (71,
    0), (56, 0)], [(2882255550, 0), (0, 1525422), (0, 2253), (4, 0)], [(0, 795275), (29, 0)], [(205, 0)]], 3, 4⟩,
    68719476736, 675728,
    4006325199758013566111279077819825689864123088089819072078224461899507884092923132694784992767, lc0⟩) (.sy (.sx
    (.leaf ⟨7252, 16, 82, 2815, 16, 6082, ⟨[[(0, 137438953472)], [(352187318272, 0)]], 3, 4⟩, ⟨[[(0, 173698371385),
    (3244053549118, 0), (1074259872, 0), (17646869, 0), (231679, 0)], [(151481144667, 0), (69407512, 0), (2843529,
    0), (52159, 0), (512, 0)], [(0, 6710664), (151563, 0), (4255, 0), (56, 0)], [(3142, 0), (149, 0), (3, 0)]], 3,
    4⟩, 1099511627776, 0, 12173615, ⟨[[(54527056490002, 0), (0, 3364741686), (142589, 0), (189, 0), (4, 0)],
    [(1418857381, 0), (0, 383907), (0, 267)], [(0, 195265), (4, 0)], [(25, 0)]], 3, 4⟩, 68719476736, 71648,
    2905336156441943595870444333091308665292103639861042506479586872770227753591124985751787409735, lc0⟩) (.sy (.leaf
    ⟨7283, 16, 82, 3975, 16, 8563, ⟨[[(0, 412316860416)], [(352187318272, 0)]], 3, 4⟩, ⟨[[(428277757384, 0),
    (2286636813874, 0), (453520734, 0), (3789460, 0), (23732, 0)], [(211386195176, 0), (64809088, 0), (1219564, 0),
    (10599, 0), (51, 0)], [(0, 8426318), (129092, 0), (1710, 0), (11, 0)], [(5134, 0), (118, 0), (1, 0)]], 3, 4⟩,
    1099511627776, 0, 16722891, ⟨[[(54542824809365, 0), (0, 2396687191), (71239, 0), (128, 0), (1, 0)], [(1403619784,
    0), (0, 275553), (0, 129)], [(0, 192891), (4, 0)], [(25, 0)]], 3, 4⟩, 68719476736, 39614,
    4072180939381937439635908899526834278226497994423112082778225366103796093222439967049665616785, lc0⟩) (.sx (.leaf
    ⟨14639, 16, 165, 5666, 16, 12181, ⟨[[(0, 446676598784)], [(354334801920, 0)]], 3, 4⟩, ⟨[[(266858687673, 0),
    (3258498287621, 0), (702753955, 0), (5852296, 0), (35896, 0)], [(150925700959, 0), (52361456, 0), (947236, 0),
    (8047, 0), (38, 0)], [(0, 2845179), (50337, 0), (651, 0), (4, 0)], [(993, 0), (22, 0)]], 3, 4⟩, 1099511627776, 0,
    2016210, ⟨[[(54512424745816, 0), (0, 1682459731), (37480, 0), (59, 0)], [(697954307, 0), (0, 97004), (0, 31)],
    [(0, 47778), (1, 0)], [(3, 0)]], 3, 4⟩, 68719476736, 30085,
    4106811935764160506257036575496601982544469763957598161485367927560567775234294368175426847817, lc0⟩) (.skip))))
    (.sx (.sy (.leaf ⟨7252, 16, 82, 3952, 16, 8498, ⟨[[(0, 137438953472)], [(352187318272, 0)]], 3, 4⟩, ⟨[[(0,
    456840331138), (2273922111252, 0), (468888899, 0), (3876826, 0), (24009, 0)], [(212178976778, 0), (68717336, 0),
    (1262080, 0), (10844, 0), (52, 0)], [(0, 8295663), (135127, 0), (1770, 0), (11, 0)], [(5411, 0), (123, 0), (1,
    0)]], 3, 4⟩, 1099511627776, 0, 17841980, ⟨[[(54481868285003, 0), (0, 2405290778), (79507, 0), (164, 0), (1, 0)],
    [(1413651281, 0), (0, 279733), (0, 127)], [(0, 195204), (3, 0)], [(25, 0)]], 3, 4⟩, 68719476736, 51338,
    4137886124812538248412838613978764315226950641901085531853696734187922215049915491881221824709, lc0⟩) (.sx (.leaf
    ⟨14577, 16, 165, 5641, 16, 12107, ⟨[[(0, 309237645312)], [(354334801920, 0)]], 3, 4⟩, ⟨[[(0, 155093417246),
    (3245490656665, 0), (726490810, 0), (5986527, 0), (36331, 0)], [(151733379842, 0), (55383638, 0), (980055, 0),
    (8237, 0), (39, 0)], [(0, 2797074), (52677, 0), (674, 0), (4, 0)], [(1046, 0), (24, 0)]], 3, 4⟩, 1099511627776,
    0, 2128549, ⟨[[(54453080217012, 0), (0, 1685922304), (41675, 0), (71, 0)], [(702991592, 0), (0, 98245), (0, 30)],
    [(0, 48349), (1, 0)], [(3, 0)]], 3, 4⟩, 68719476736, 31529,
    4165343241030796051249955647778384956108243986025652946890899182437302048831595227101679190087, lc0⟩) (.skip)))
    (.skip))))))
theorem c78 : checkC job ⟨6, 8, 8, 10, 9, 13⟩ 1 25 lims t78 2000 48 32 183 3 1024 = true := by decide +kernel

def t79 : CTree :=
  .sy (.sx (.sy (.leaf ⟨3541, 16, 41, 1355, 16, 2960, ⟨[[(412316860416, 0)], [(352187318272, 0)]], 3, 4⟩,
    ⟨[[(63352403382, 0), (3160477030473, 0), (1168068436, 0), (27391032, 0), (946237, 0)], [(156145695293, 0),
    (35250364, 0), (4309713, 0), (223776, 0), (4834, 0)], [(0, 17350916), (230802, 0), (19517, 0), (555, 0), (10,
    0)], [(6361, 0), (747, 0), (30, 0), (1, 0)]], 3, 4⟩, 1099511627776, 0, 81333308, ⟨[[(54382016501083, 0), (0,
    6803207590), (818834, 0), (0, 1922), (37, 0)], [(2998188760, 0), (0, 1510982), (0, 2392)], [(0, 834535), (9, 0)],
    [(215, 0)]], 3, 4⟩, 68719476736, 520479,
    4072086311674567123390355726041191590197809486850460648654224397983484303363370190833771523733, lc0⟩) (.leaf
    ⟨3541, 16, 41, 1365, 16, 2944, ⟨[[(412316860416, 0)], [(352187318272, 0)]], 3, 4⟩, ⟨[[(0, 75865250863),
    (3161202381645, 0), (1893717910, 0), (56435880, 0), (1529804, 0)], [(155721184130, 0), (115147198, 0), (9487002,
    0), (364735, 0), (7177, 0)], [(0, 15048277), (531245, 0), (31699, 0), (829, 0), (14, 0)], [(12039, 0), (1191, 0),
    (45, 0), (1, 0)]], 3, 4⟩, 1099511627776, 0, 122379315, ⟨[[(54263757231180, 0), (0, 6812308343), (813637, 0),
    (1815, 0), (73, 0)], [(2971152546, 0), (0, 1601029), (0, 2248), (7, 0)], [(0, 834381), (9, 0)], [(217, 0)]], 3,
    4⟩, 68719476736, 799812,
    4010932827682266160824179669020678473721779750089572835153411316503341701960304083037748054955, lc0⟩)) (.sy
    (.leaf ⟨3572, 16, 41, 1378, 16, 2980, ⟨[[(137438953472, 0)], [(352187318272, 0)]], 3, 4⟩, ⟨[[(0, 221617453263),
    (3188116521725, 0), (1803065469, 0), (55034551, 0), (1519634, 0)], [(154063967987, 0), (103906233, 0), (9060006,
    0), (354374, 0), (7061, 0)], [(0, 14979657), (497222, 0), (30107, 0), (797, 0), (13, 0)], [(11137, 0), (1105, 0),
    (43, 0), (1, 0)]], 3, 4⟩, 1099511627776, 0, 111582216, ⟨[[(54380102668473, 0), (0, 6784327739), (710219, 0),
    (941, 0), (65, 0)], [(2925846805, 0), (0, 1564381), (0, 2256), (5, 0)], [(0, 814527), (19, 0)], [(211, 0)]], 3,
    4⟩, 68719476736, 731062,
    4031620499633633479745451155390187185338304689474171888485423976205644312163423476465376573000, lc0⟩) (.sy (.sx
    (.leaf ⟨7129, 16, 82, 2764, 16, 5936, ⟨[[(0, 137438953472)], [(352187318272, 0)]], 3, 4⟩, ⟨[[(0, 190743157974),
    (3190810677951, 0), (1206510852, 0), (18987208, 0), (239354, 0)], [(154731775008, 0), (86104783, 0), (3197640,
    0), (56358, 0), (538, 0)], [(0, 6581034), (178009, 0), (4814, 0), (61, 0)], [(3789, 0), (177, 0), (3, 0)]], 3,
    4⟩, 1099511627776, 0, 15236813, ⟨[[(54293248196537, 0), (0, 3392740366), (199745, 0), (481, 0), (6, 0)],
    [(1461448685, 0), (0, 403136), (0, 257), (1, 0)], [(0, 204781), (2, 0)], [(27, 0)]], 3, 4⟩, 68719476736, 81986,
    2997085513715126514937571854936354663443046561401477856296569596305856482191366494645691067723, lc0⟩) (.sy (.leaf
    ⟨7160, 16, 82, 3878, 16, 8302, ⟨[[(0, 412316860416)], [(352187318272, 0)]], 3, 4⟩, ⟨[[(181605277646, 0),
    (2235192489525, 0), (507801914, 0), (4067827, 0), (24481, 0)], [(214546426703, 0), (79212995, 0), (1369010, 0),
    (11436, 0), (53, 0)], [(0, 7962378), (151512, 0), (1932, 0), (12, 0)], [(6209, 0), (140, 0), (1, 0)]], 3, 4⟩,
    1099511627776, 0, 21088841, ⟨[[(54308397085788, 0), (0, 2432262591), (106249, 0), (262, 0), (2, 0)],
    [(1445262272, 0), (0, 291229), (0, 121)], [(0, 202288), (2, 0)], [(26, 0)]], 3, 4⟩, 68719476736, 52911,
    4243110485862359660405760273864565695704294268116560918792370830391553408421731467790392755113, lc0⟩) (.sx (.leaf
    ⟨14391, 16, 165, 5562, 16, 11884, ⟨[[(103079215104, 0)], [(354334801920, 0)]], 3, 4⟩, ⟨[[(227371169512, 0),
    (3205788856228, 0), (786805091, 0), (6283434, 0), (37111, 0)], [(154183278744, 0), (63513253, 0), (1063235, 0),
    (8701, 0), (40, 0)], [(0, 2676228), (59070, 0), (737, 0), (5, 0)], [(1202, 0), (27, 0)]], 3, 4⟩, 1099511627776,
    0, 2405467, ⟨[[(54278355583825, 0), (0, 1696333289), (55490, 0), (107, 0)], [(718790220, 0), (0, 101734), (0,
    27)], [(0, 50115)], [(3, 0)]], 3, 4⟩, 68719476736, 39913,
    4246137567722510979498296611010907596889348086591402102075755999691906233838098587897526185908, lc0⟩) (.skip))))
    (.sx (.sx (.leaf ⟨14329, 16, 165, 3539, 16, 7562, ⟨[[(240518168576, 0)], [(354334801920, 0)]], 3, 4⟩, ⟨[[(0,
    206780732142), (4082346143178, 0), (1915214099, 0), (30278936, 0), (360858, 0)], [(99136912725, 0), (76288773,
    0), (2581868, 0), (42734, 0), (397, 0)], [(0, 1807145), (72397, 0), (1831, 0), (23, 0)], [(750, 0), (34, 0), (1,
    0)]], 3, 4⟩, 1099511627776, 0, 2655614, ⟨[[(54234126395924, 0), (0, 2656000212), (141035, 0), (399, 0), (3, 0)],
    [(725074100, 0), (0, 159927), (0, 69)], [(0, 50725), (1, 0)], [(3, 0)]], 3, 4⟩, 68719476736, 54831,
    4241066291503915241091496401118635951200257036624855108640621909632722196895786397689488934526, lc0⟩) (.sy (.leaf
    ⟨14360, 16, 165, 5549, 16, 11847, ⟨[[(171798691840, 0)], [(354334801920, 0)]], 3, 4⟩, ⟨[[(0, 133413812903),
    (3199139745049, 0), (795124185, 0), (6316830, 0), (37164, 0)], [(154598831496, 0), (64707652, 0), (1074635, 0),
    (8762, 0), (40, 0)], [(0, 2660468), (60025, 0), (747, 0), (5, 0)], [(1227, 0), (27, 0)]], 3, 4⟩, 1099511627776,
    0, 2399899, ⟨[[(54248693786845, 0), (0, 1697971611), (58121, 0), (114, 0)], [(721465613, 0), (0, 102313), (0,
    27)], [(0, 50417)], [(3, 0)]], 3, 4⟩, 68719476736, 39564,
    4244712428267176183482640485095858435009220573866196223913246741203194162289535972467404023735, lc0⟩) (.skip)))
    (.skip))))) (.sx (.sy (.sx (.sy (.leaf ⟨7067, 16, 82, 2737, 16, 5862, ⟨[[(412316860416, 0)], [(352187318272,
    0)]], 3, 4⟩, ⟨[[(0, 180628852273), (3163320666729, 0), (1254740999, 0), (19295017, 0), (239578, 0)],
    [(156377702615, 0), (92804952, 0), (3317806, 0), (57673, 0), (544, 0)], [(0, 6563891), (188539, 0), (5039, 0),
    (63, 0), (1, 0)], [(4077, 0), (189, 0), (3, 0)]], 3, 4⟩, 1099511627776, 0, 16878662, ⟨[[(54176427493255, 0), (0,
    3406866689), (233398, 0), (635, 0), (6, 0)], [(1484091717, 0), (0, 412282), (0, 249), (1, 0)], [(0, 209800), (1,
    0)], [(27, 0)]], 3, 4⟩, 68719476736, 66906,
    2965952652927350694830136551923574448409520792562325958155081320390579985801792892275803046707, lc0⟩) (.sx (.leaf
    ⟨14205, 16, 165, 3515, 16, 7490, ⟨[[(515396075520, 0)], [(354334801920, 0)]], 3, 4⟩, ⟨[[(0, 393663148050),
    (4059933425009, 0), (1985373074, 0), (30716180, 0), (361151, 0)], [(100510383540, 0), (81415425, 0), (2674389,
    0), (43725, 0), (402, 0)], [(0, 1792384), (76575, 0), (1916, 0), (24, 0)], [(807, 0), (36, 0), (1, 0)]], 3, 4⟩,
    1099511627776, 0, 2567462, ⟨[[(54117640110665, 0), (0, 2658428824), (165114, 0), (488, 0), (3, 0)], [(736234315,
    0), (0, 162876), (0, 64)], [(0, 51964)], [(3, 0)]], 3, 4⟩, 68719476736, 38712,
    4172852207784343756061732407624680057275078226177127946096972630465722939813747476287725683173, lc0⟩) (.sy (.leaf
    ⟨14236, 16, 165, 5494, 16, 11698, ⟨[[(446676598784, 0)], [(354334801920, 0)]], 3, 4⟩, ⟨[[(269567335460, 0),
    (3171999650512, 0), (822909582, 0), (6401742, 0), (37145, 0)], [(156260347309, 0), (68940496, 0), (1112274, 0),
    (8954, 0), (41, 0)], [(0, 2612563), (63456, 0), (781, 0), (5, 0)], [(1321, 0), (29, 0)]], 3, 4⟩, 1099511627776,
    0, 2583841, ⟨[[(54133222118165, 0), (0, 1704801196), (68583, 0), (139, 0), (1, 0)], [(732582050, 0), (0, 104485),
    (0, 25)], [(0, 51649)], [(3, 0)]], 3, 4⟩, 68719476736, 42874,
    4194326236779763169095587419868352712907799358150256377440736989797971812496486335200571548509, lc0⟩) (.skip))))
    (.sy (.sx (.leaf ⟨14267, 16, 165, 3527, 16, 7526, ⟨[[(377957122048, 0)], [(354334801920, 0)]], 3, 4⟩, ⟨[[(0,
    188094530848), (4071195218895, 0), (1952875265, 0), (30544270, 0), (361442, 0)], [(99820161312, 0), (78982808,
    0), (2632025, 0), (43280, 0), (400, 0)], [(0, 1797758), (74584, 0), (1875, 0), (23, 0)], [(779, 0), (35, 0), (1,
    0)]], 3, 4⟩, 1099511627776, 0, 2566407, ⟨[[(54176090150687, 0), (0, 2657289122), (152746, 0), (442, 0), (3, 0)],
    [(730621253, 0), (0, 161410), (0, 66)], [(0, 51340)], [(3, 0)]], 3, 4⟩, 68719476736, 47085,
    4215935060559822195873853519070518563192185317713214355013494788676670178205013941625155819266, lc0⟩) (.sy (.leaf
    ⟨14298, 16, 165, 5522, 16, 11773, ⟨[[(309237645312, 0)], [(354334801920, 0)]], 3, 4⟩, ⟨[[(0, 36120870345),
    (3185762362505, 0), (810154760, 0), (6369253, 0), (37201, 0)], [(155433834568, 0), (66938562, 0), (1095114, 0),
    (8869, 0), (41, 0)], [(0, 2633403), (61823, 0), (764, 0), (5, 0)], [(1275, 0), (28, 0)]], 3, 4⟩, 1099511627776,
    0, 2500043, ⟨[[(54190731337467, 0), (0, 1701311253), (63293, 0), (126, 0)], [(726964682, 0), (0, 103412), (0,
    26)], [(0, 51028)], [(3, 0)]], 3, 4⟩, 68719476736, 42733,
    4228538493521862998358958837249728087743510205123853705436970401128506778103674151502719044131, lc0⟩) (.skip)))
    (.skip))) (.skip)) (.skip))
theorem c79 : checkC job ⟨6, 8, 8, 10, 9, 13⟩ 1 25 lims t79 3952 48 64 189 3 1024 = true := by decide +kernel

def t80 : CTree :=
  .sy (.sy (.sx (.sy (.sx (.leaf ⟨7190, 16, 82, 2790, 16, 6009, ⟨[[(412316860416, 0)], [(352187318272, 0)]], 3, 4⟩,
    ⟨[[(0, 360265315792), (3217516136357, 0), (1145823167, 0), (18432192, 0), (236691, 0)], [(153089997323, 0),
    (78228021, 0), (3037749, 0), (54501, 0), (527, 0)], [(0, 6632197), (165541, 0), (4550, 0), (59, 0)], [(3474, 0),
    (163, 0), (3, 0)]], 3, 4⟩, 1099511627776, 0, 13465665, ⟨[[(54408628710497, 0), (0, 3378592814), (169700, 0),
    (334, 0), (5, 0)], [(1439923994, 0), (0, 393784), (0, 263), (1, 0)], [(0, 199989), (3, 0)], [(26, 0)]], 3, 4⟩,
    68719476736, 63928,
    2975561003997575484490494248727160271294179990204895298936018762207033857489508928286720466452, lc0⟩) (.sy (.leaf
    ⟨7221, 16, 82, 3928, 16, 8433, ⟨[[(137438953472, 0)], [(352187318272, 0)]], 3, 4⟩, ⟨[[(0, 524465397583),
    (2261160781909, 0), (483127739, 0), (3952723, 0), (24227, 0)], [(212974807898, 0), (72439801, 0), (1301368, 0),
    (11067, 0), (52, 0)], [(0, 8173781), (140906, 0), (1827, 0), (12, 0)], [(5684, 0), (129, 0), (1, 0)]], 3, 4⟩,
    1099511627776, 0, 18829244, ⟨[[(54422818205892, 0), (0, 2414012964), (88081, 0), (197, 0), (2, 0)], [(1424065355,
    0), (0, 283669), (0, 125)], [(0, 197555), (3, 0)], [(26, 0)]], 3, 4⟩, 68719476736, 57244,
    4188898926492564417207752124936040996573428499582774544967290340261468694609498742073721886586, lc0⟩) (.sx (.leaf
    ⟨14515, 16, 165, 5615, 16, 12033, ⟨[[(0, 171798691840)], [(354334801920, 0)]], 3, 4⟩, ⟨[[(150303677470, 0),
    (3232423878232, 0), (748512884, 0), (6103683, 0), (36680, 0)], [(152548044228, 0), (58264001, 0), (1010482, 0),
    (8410, 0), (39, 0)], [(0, 2752462), (54924, 0), (696, 0), (4, 0)], [(1100, 0), (25, 0)]], 3, 4⟩, 1099511627776,
    0, 2218763, ⟨[[(54394980940668, 0), (0, 1689396380), (45999, 0), (82, 0)], [(708182224, 0), (0, 99421), (0, 29)],
    [(0, 48929), (1, 0)], [(3, 0)]], 3, 4⟩, 68719476736, 35680,
    4208702708406035108323814864725769069414263466139913464945057293625503699708693073744847848753, lc0⟩) (.skip))))
    (.sx (.sy (.leaf ⟨7190, 16, 82, 3903, 16, 8367, ⟨[[(412316860416, 0)], [(352187318272, 0)]], 3, 4⟩, ⟨[[(0,
    286964462070), (2248074891682, 0), (496086627, 0), (4016202, 0), (24382, 0)], [(213747298747, 0), (75940791, 0),
    (1336992, 0), (11264, 0), (53, 0)], [(0, 8061467), (146369, 0), (1881, 0), (12, 0)], [(5950, 0), (134, 0), (1,
    0)]], 3, 4⟩, 1099511627776, 0, 19981915, ⟨[[(54364564781557, 0), (0, 2423095928), (97067, 0), (230, 0), (2, 0)],
    [(1434741246, 0), (0, 287519), (0, 123)], [(0, 199943), (3, 0)], [(26, 0)]], 3, 4⟩, 68719476736, 53383,
    4224289353252447411149078389226039174617885742261847987254706739145171351742099750340516232765, lc0⟩) (.sx (.leaf
    ⟨14453, 16, 165, 5589, 16, 11958, ⟨[[(0, 34359738368)], [(354334801920, 0)]], 3, 4⟩, ⟨[[(0, 430847850770),
    (3219015005637, 0), (768616514, 0), (6202513, 0), (36939, 0)], [(153356344537, 0), (60976987, 0), (1038217, 0),
    (8565, 0), (40, 0)], [(0, 2711803), (57057, 0), (717, 0), (4, 0)], [(1152, 0), (26, 0)]], 3, 4⟩, 1099511627776,
    0, 2310417, ⟨[[(54335648917632, 0), (0, 1692895527), (50792, 0), (96, 0)], [(713383058, 0), (0, 100626), (0,
    28)], [(0, 49518)], [(3, 0)]], 3, 4⟩, 68719476736, 38600,
    4235887391303088082484366336999931727208599430152056581946004106391683416194231207980484709295, lc0⟩) (.skip)))
    (.skip))) (.skip)) (.skip)) (.skip)
theorem c80 : checkC job ⟨6, 8, 8, 10, 9, 13⟩ 1 25 lims t80 4048 48 64 189 3 1024 = true := by decide +kernel

def t81 : CTree :=
  .sy (.sx (.sy (.leaf ⟨736, 25, 8, 93, 16, 487, ⟨[[], [(549755813888, 0)]], 3, 4⟩, ⟨[[(0, 371014512882),
    (3441019917266, 0), (4797614345, 0), (105270317, 0), (527115, 0)], [(132011721483, 0), (1510480217, 0), (6276431,
    0), (0, 65636), (0, 4829)], [(0, 32467154), (0, 1165175), (0, 31150), (0, 749), (0, 23)], [(0, 26510), (0, 1236),
    (0, 32), (0, 1)]], 3, 4⟩, 1099511627776, 0, 75356226, ⟨[[(61865389335103, 0), (0, 64313428886), (96161532, 0),
    (0, 8349), (91, 0)], [(15480683604, 0), (10267593, 0), (0, 171835), (0, 142), (1, 0)], [(0, 15643880), (0,
    49072), (157, 0)], [(14201, 0), (84, 0)]], 3, 4⟩, 68719476736, 14087508,
    3735378693902726821868908149256731205542840293488660970764555642082708650961594483398640485215, lc0⟩) (.leaf
    ⟨736, 25, 8, 107, 16, 468, ⟨[[], [(549755813888, 0)]], 3, 4⟩, ⟨[[(289849638439, 0), (3373321187183, 0),
    (6491204921, 0), (104061454, 0), (0, 429742)], [(135766129759, 0), (1511379429, 0), (3302648, 0), (0, 276765),
    (0, 13656)], [(0, 39184806), (0, 1579283), (0, 48799), (0, 1423), (0, 33)], [(0, 33819), (0, 1608), (0, 38)]], 3,
    4⟩, 1099511627776, 0, 143253445, ⟨[[(60717939408589, 0), (0, 63259931601), (103787838, 0), (0, 5453), (0, 70)],
    [(15610475124, 0), (4007315, 0), (0, 191810), (0, 62), (1, 0)], [(0, 16489847), (0, 44790), (191, 0), (1, 0)],
    [(15663, 0), (78, 0)]], 3, 4⟩, 68719476736, 26381596,
    2091591277326381091477127761106465265395794045438486463227262306496965983741663400132455313805, lc0⟩)) (.sy
    (.leaf ⟨784, 25, 8, 104, 16, 486, ⟨[[], [(549755813888, 0)]], 3, 4⟩, ⟨[[(0, 348999254637), (3566903307205, 0),
    (5078461430, 0), (91707404, 0), (0, 140807)], [(124820775138, 0), (1252171580, 0), (0, 402075), (0, 211054), (0,
    8894)], [(0, 39487390), (0, 1480728), (0, 37047), (0, 695), (0, 17)], [(0, 22403), (0, 921), (0, 5), (1, 0)]], 3,
    4⟩, 1099511627776, 0, 139143321, ⟨[[(61868148406752, 0), (0, 62078080460), (88232900, 0), (0, 7845), (124, 0)],
    [(14119773028, 0), (2486005, 0), (0, 161895), (0, 36), (2, 0)], [(0, 14182494), (0, 36172), (138, 0), (1, 0)],
    [(12630, 0), (53, 0)]], 3, 4⟩, 68719476736, 17588188,
    1890428887859724329835076516065151362472058094305129806858790320986293116455994787508425754301, lc0⟩) (.leaf
    ⟨784, 25, 8, 119, 16, 469, ⟨[[], [(549755813888, 0)]], 3, 4⟩, ⟨[[(18459574244, 0), (3510055939518, 0),
    (6350431175, 0), (65163156, 0), (0, 1959146)], [(127633185775, 0), (1172165252, 0), (0, 6613308), (0, 523561),
    (0, 17012)], [(0, 48133814), (0, 1944890), (0, 51267), (0, 984), (3, 0)], [(0, 26836), (0, 786), (28, 0), (3,
    0)]], 3, 4⟩, 1099511627776, 0, 283692303, ⟨[[(60702070036922, 0), (0, 60804798606), (94216321, 0), (0, 19173),
    (0, 580)], [(14107369388, 0), (0, 3900353), (0, 173043), (17, 0), (0, 2)], [(0, 14824175), (0, 31026), (203, 0),
    (1, 0)], [(13614, 0), (51, 0)]], 3, 4⟩, 68719476736, 37308131,
    3335213671459395938833965517800817957653946846497510804376590842782911658543565651973454489402, lc0⟩))) (.sx (.sy
    (.leaf ⟨736, 25, 8, 121, 16, 448, ⟨[[], [(549755813888, 0)]], 3, 4⟩, ⟨[[(0, 524103136439), (3313815551052, 0),
    (7812105951, 0), (72011495, 0), (0, 1859294)], [(138682446115, 0), (1443143805, 0), (0, 4947591), (0, 650827),
    (0, 16186)], [(0, 48591670), (0, 2240966), (0, 75762), (0, 1624), (32, 0)], [(0, 42782), (0, 1875), (0, 6), (5,
    0)]], 3, 4⟩, 1099511627776, 0, 332847267, ⟨[[(59529585523779, 0), (0, 61890310133), (112193166, 0), (0, 44408),
    (0, 1058)], [(15615590619, 0), (0, 3663838), (0, 214337), (0, 183), (0, 5)], [(0, 17281696), (0, 38187), (254,
    0), (1, 0)], [(17116, 0), (75, 0)]], 3, 4⟩, 68719476736, 43072028,
    4397871052110171917130357875556442736808378239325282454221054906244672718465607677601502548228, lc0⟩) (.sx (.leaf
    ⟨905, 16, 10, 165, 16, 546, ⟨[[], [(343597383680, 0)]], 3, 4⟩, ⟨[[(331614512958, 0), (4119946571504, 0),
    (11061861916, 0), (55048566, 0), (0, 1776295)], [(91426317206, 0), (888120796, 0), (0, 8757349), (0, 482935),
    (3448, 0)], [(0, 18597423), (0, 960642), (0, 29186), (87, 0), (60, 0)], [(0, 8841), (0, 291), (18, 0), (2, 0)]],
    3, 4⟩, 1099511627776, 0, 94271006, ⟨[[(58473542259462, 0), (0, 48073578883), (75012618, 0), (0, 66501), (0,
    714)], [(12761908912, 0), (0, 6070546), (0, 127349), (0, 250), (0, 2)], [(0, 11807535), (0, 17522), (115, 0)],
    [(9820, 0), (33, 0)]], 3, 4⟩, 68719476736, 4525761,
    4217965085644343534182295383633530985714258866099301742736087556936780626157343547749902070498, lc0⟩) (.leaf
    ⟨935, 16, 10, 173, 16, 545, ⟨[[], [(343597383680, 0)]], 3, 4⟩, ⟨[[(0, 215038076030), (4188468849228, 0),
    (9954818930, 0), (11794985, 0), (0, 798363)], [(87465814296, 0), (696839266, 0), (0, 13632123), (0, 391176),
    (17685, 0)], [(0, 20859848), (0, 1002785), (0, 20767), (889, 0), (86, 0)], [(0, 6997), (0, 2), (40, 0), (3, 0)]],
    3, 4⟩, 1099511627776, 0, 154038898, ⟨[[(58449429339867, 0), (0, 47188208825), (69381739, 0), (0, 99370), (0,
    656)], [(12012030031, 0), (0, 9116987), (0, 128399), (0, 332), (0, 1)], [(0, 11084030), (0, 12915), (109, 0)],
    [(9070, 0), (29, 0)]], 3, 4⟩, 68719476736, 15359004,
    4434396858485341290844994455503747116157441593074014623610063337439868466135236662837944026513, lc0⟩))) (.sy (.sy
    (.leaf ⟨784, 25, 8, 190, 16, 667, ⟨[[], [(549755813888, 0)]], 3, 4⟩, ⟨[[(0, 147296568938), (2538810738196, 0),
    (2465709076, 0), (3214932, 0), (0, 269492)], [(188750183133, 0), (764260817, 0), (0, 5561676), (0, 140234), (0,
    724)], [(0, 82495987), (0, 1748252), (0, 21729), (0, 29), (10, 0)], [(0, 41854), (0, 186), (35, 0), (1, 0)]], 3,
    4⟩, 1099511627776, 0, 534593455, ⟨[[(59834412836333, 0), (0, 40836405116), (45595544, 0), (0, 28298), (0, 373)],
    [(14013468452, 0), (0, 6316723), (0, 87620), (0, 92), (0, 2)], [(0, 15230626), (0, 17205), (119, 0)], [(14360,
    0), (36, 0)]], 3, 4⟩, 68719476736, 15241330,
    4170488114394629013619031871648269325296820050095861233854391997856036496235843311703029671029, lc0⟩) (.leaf
    ⟨784, 25, 8, 200, 16, 655, ⟨[[], [(549755813888, 0)]], 3, 4⟩, ⟨[[(148108246341, 0), (2522308051906, 0),
    (2423079943, 0), (0, 2693005), (0, 195201)], [(189630587351, 0), (669853596, 0), (0, 7965077), (0, 131648),
    (1490, 0)], [(0, 92071992), (0, 1965513), (0, 19046), (329, 0), (21, 0)], [(0, 40591), (420, 0), (69, 0), (2,
    0)]], 3, 4⟩, 1099511627776, 0, 822854659, ⟨[[(59284846416264, 0), (0, 40335928708), (45613557, 0), (0, 53374),
    (0, 441)], [(13910496275, 0), (0, 8943008), (0, 96991), (0, 207), (0, 2)], [(0, 15443176), (0, 14155), (125, 0)],
    [(14863, 0), (38, 0)]], 3, 4⟩, 68719476736, 15425213,
    4364605813473785015543738627195884902992114327370312087396164455294344153515542913067112461919, lc0⟩)) (.sy (.sx
    (.leaf ⟨965, 16, 10, 286, 16, 892, ⟨[[], [(343597383680, 0)]], 3, 4⟩, ⟨[[(0, 461350652636), (3453918629228, 0),
    (3508345665, 0), (0, 3790393), (0, 44068)], [(135014411868, 0), (454136258, 0), (0, 6261659), (0, 64657), (2471,
    0)], [(0, 34556953), (0, 757291), (0, 5450), (242, 0), (9, 0)], [(0, 7952), (145, 0), (18, 0), (1, 0)]], 3, 4⟩,
    1099511627776, 0, 81246777, ⟨[[(58717547329607, 0), (0, 28866020098), (24281101, 0), (0, 26029), (0, 86)],
    [(11353169073, 0), (0, 6259793), (0, 46156), (0, 81)], [(0, 10326880), (0, 6178), (41, 0)], [(8218, 0), (16,
    0)]], 3, 4⟩, 68719476736, 2444600,
    3923416883162884171478209039002222920419541410504559497766962647689274295935231136132105709505, lc0⟩) (.leaf
    ⟨995, 16, 10, 301, 16, 905, ⟨[[], [(343597383680, 0)]], 3, 4⟩, ⟨[[(443103216097, 0), (3541589316615, 0),
    (2915618979, 0), (0, 7428071), (280125, 0)], [(130064504975, 0), (319436711, 0), (0, 6876807), (0, 4833), (4205,
    0)], [(0, 36798177), (0, 693121), (187, 0), (375, 0), (7, 0)], [(0, 3919), (367, 0), (20, 0)]], 3, 4⟩,
    1099511627776, 0, 93371882, ⟨[[(58741402270352, 0), (0, 28168846092), (21348283, 0), (0, 29497), (0, 13)],
    [(10679569381, 0), (0, 7442762), (0, 45009), (0, 75)], [(0, 9670856), (0, 3914), (39, 0)], [(7575, 0), (14, 0)]],
    3, 4⟩, 68719476736, 3762108,
    3939730302126894437369762716358412635134568704095259445433897298570943819594721469154802395582, lc0⟩)) (.leaf
    ⟨784, 25, 8, 221, 16, 636, ⟨[[], [(549755813888, 0)]], 3, 4⟩, ⟨[[(397127807760, 0), (2503984028850, 0),
    (2240953002, 0), (1694163, 0), (439591, 0)], [(190657057732, 0), (430718860, 0), (0, 9254525), (85238, 0), (5847,
    0)], [(0, 113934997), (0, 2053718), (12660, 0), (1240, 0), (0, 8)], [(0, 20607), (3049, 0), (138, 0), (0, 1)]],
    3, 4⟩, 1099511627776, 0, 2158704349, ⟨[[(58204902232394, 0), (0, 39102575818), (42324955, 0), (0, 76368), (369,
    0)], [(13584726130, 0), (0, 15288337), (0, 122832), (0, 127), (6, 0)], [(0, 15742088), (0, 7823), (126, 0)],
    [(15955, 0), (42, 0)]], 3, 4⟩, 68719476736, 36038581,
    4716162810249318611286858341975197542898117381144218807829203801534564469157518854202080034212, lc0⟩))))
theorem c81 : checkC job ⟨6, 8, 8, 10, 9, 13⟩ 1 25 lims t81 560 48 8 15 3 128 = true := by decide +kernel

end PyX.Kron.T2c
