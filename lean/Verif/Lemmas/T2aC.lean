import Verif.Lemmas.T2aJob

/-!
# Temperature from pressure and enthalpy in subregion 2a, part C of the certificate
-/

namespace PyX.Kron.T2a

set_option Elab.async false

def t20 : CTree :=
  .sx (.leaf ⟨15, 16, 7935, 1373, 16, 1710, ⟨[[(547608330240, 0)], [(8520141373440, 0)]], 3, 4⟩, ⟨[[(278739060847,
    0), (5334611184002, 0), (0, 50286165713), (517876001, 0), (0, 3792270)], [(237482731175, 0), (12487511003, 0),
    (388066652, 0), (18700207, 0), (1590781, 0)], [(648019445, 0), (225871743, 0), (47166843, 0), (6674854, 0),
    (691806, 0)], [(68266760, 0), (30945904, 0), (6808043, 0), (968254, 0), (100053, 0)]], 3, 4⟩, 1099511627776, 0,
    281701935, ⟨[[(22205718914397, 0), (0, 42755687010), (0, 314772), (19842, 0), (113, 0)], [(1214084707, 0),
    (14318594, 0), (128130, 0), (1026, 0), (7, 0)], [(74237, 0), (8757, 0), (264, 0), (4, 0)], [(103, 0), (3, 0)]],
    3, 4⟩, 68719476736, 3332155,
    3005892444941726596632981646051188831622440528908505463661734350015534420097673347934931588018, lc0⟩) (.sy (.leaf
    ⟨46, 16, 7935, 2610, 16, 3266, ⟨[[(543313362944, 0)], [(8520141373440, 0)]], 3, 4⟩, ⟨[[(302106667790, 0),
    (5288343701395, 0), (0, 24237050489), (162278487, 0), (991107, 0)], [(428563303702, 0), (12571821200, 0),
    (330259559, 0), (15487248, 0), (776683, 0)], [(1544081186, 0), (298093667, 0), (32312286, 0), (2334572, 0),
    (123173, 0)], [(65754506, 0), (15207032, 0), (1706886, 0), (123855, 0), (6530, 0)]], 3, 4⟩, 1099511627776, 0,
    50252692, ⟨[[(22517112728686, 0), (0, 22172030516), (800337, 0), (6719, 0), (24, 0)], [(1128538079, 0), (6886595,
    0), (33407, 0), (152, 0), (1, 0)], [(35193, 0), (3194, 0), (53, 0)], [(82, 0), (1, 0)]], 3, 4⟩, 68719476736,
    1142538, 1827681890449685539698544869621394671251000247773040260321645313393344326079543335712711104670, lc0⟩)
    (.sx (.leaf ⟨77, 16, 15871, 2850, 16, 3528, ⟨[[(544387104768, 0)], [(8520678244352, 0)]], 3, 4⟩, ⟨[[(0,
    529830071832), (5399311753854, 0), (0, 23396527060), (194326579, 0), (2881641, 0)], [(275937906642, 0),
    (9258245602, 0), (355253691, 0), (19882073, 0), (986967, 0)], [(1199014390, 0), (247313166, 0), (26337534, 0),
    (1835268, 0), (93107, 0)], [(34562181, 0), (7680248, 0), (828258, 0), (57743, 0), (2925, 0)]], 3, 4⟩,
    1099511627776, 0, 73673450, ⟨[[(21879189244627, 0), (0, 20529780236), (975346, 0), (6638, 0), (22, 0)],
    [(675876924, 0), (4210838, 0), (20686, 0), (91, 0)], [(44622, 0), (1763, 0), (24, 0)], [(17, 0)]], 3, 4⟩,
    68719476736, 761475,
    2329802917310243154317572907508156908553109641386258335420039191547168312758673917873889368811, lc0⟩) (.leaf
    ⟨108, 16, 15871, 2825, 16, 3496, ⟨[[(542239621120, 0)], [(8520678244352, 0)]], 3, 4⟩, ⟨[[(0, 345039758469),
    (5391443917588, 0), (0, 21306056676), (304132695, 0), (8429346, 0)], [(284585209968, 0), (11500381191, 0),
    (600242567, 0), (36999083, 0), (1855328, 0)], [(1599559006, 0), (336493825, 0), (35958035, 0), (2505986, 0),
    (127080, 0)], [(34330297, 0), (7628721, 0), (822701, 0), (57356, 0), (2905, 0)]], 3, 4⟩, 1099511627776, 0,
    165966189, ⟨[[(21882682412369, 0), (0, 20581385776), (1695068, 0), (10039, 0), (36, 0)], [(682416058, 0),
    (4399104, 0), (22841, 0), (107, 0)], [(47730, 0), (1846, 0), (25, 0)], [(17, 0)]], 3, 4⟩, 68719476736, 888753,
    3418393371672551167224271255689442135595761204289400174443513384694769476331252914621308501098, lc0⟩)))
theorem c20 : checkC job ⟨6, 8, 8, 10, 9, 13⟩ 3 100 lims t20 2 2 512 75 3 64 = true := by decide +kernel

def t21 : CTree :=
  .sy (.sx (.leaf ⟨77, 16, 7935, 2579, 16, 3225, ⟨[[(539018395648, 0)], [(8520141373440, 0)]], 3, 4⟩,
    ⟨[[(79131250338, 0), (5277284168209, 0), (0, 22009793510), (266136063, 0), (6405720, 0)], [(438504224194, 0),
    (15491147719, 0), (662444129, 0), (39618094, 0), (2050115, 0)], [(2306636429, 0), (475190469, 0), (52204601, 0),
    (3778129, 0), (199278, 0)], [(65484871, 0), (15144686, 0), (1699889, 0), (123348, 0), (6503, 0)]], 3, 4⟩,
    1099511627776, 0, 159213471, ⟨[[(22512899092514, 0), (0, 22227608222), (2002114, 0), (12699, 0), (50, 0)],
    [(1143742334, 0), (7313655, 0), (38700, 0), (195, 0), (1, 0)], [(48856, 0), (3571, 0), (58, 0), (1, 0)], [(83,
    0), (1, 0)]], 3, 4⟩, 68719476736, 1027224,
    2753205176651307322599419927718587025292807056841363947310871941879841365330135760964827238085, lc0⟩) (.sy (.leaf
    ⟨108, 16, 7935, 4824, 16, 6046, ⟨[[(534723428352, 0)], [(8520141373440, 0)]], 3, 4⟩, ⟨[[(406977453390, 0),
    (5067552459815, 0), (0, 9566900522), (93617664, 0), (1546429, 0)], [(810744740349, 0), (15934416846, 0),
    (407467032, 0), (12970436, 0), (340889, 0)], [(4234367293, 0), (442647648, 0), (24583595, 0), (898665, 0),
    (23939, 0)], [(88261896, 0), (10311060, 0), (584636, 0), (21430, 0), (571, 0)]], 3, 4⟩, 1099511627776, 0,
    17470866, ⟨[[(22676704772179, 0), (0, 11752894455), (835859, 0), (2652, 0), (6, 0)], [(1104468566, 0), (3770085,
    0), (10981, 0), (31, 0)], [(36855, 0), (1634, 0), (15, 0)], [(74, 0), (1, 0)]], 3, 4⟩, 68719476736, 247296,
    2306827970344461981410785250093082020513140811778177014208232102454873534504540763704583842895, lc0⟩) (.sx (.leaf
    ⟨201, 16, 15871, 5202, 16, 6483, ⟨[[(535797170176, 0)], [(8520678244352, 0)]], 3, 4⟩, ⟨[[(0, 531888107686),
    (5299966199944, 0), (0, 8738167525), (131910629, 0), (2506152, 0)], [(487267058609, 0), (11212533151, 0),
    (343840300, 0), (11262415, 0), (291574, 0)], [(2004170022, 0), (214062328, 0), (11746011, 0), (421281, 0),
    (10998, 0)], [(23538967, 0), (2694504, 0), (149693, 0), (5376, 0), (140, 0)]], 3, 4⟩, 1099511627776, 0, 18494465,
    ⟨[[(22346838235489, 0), (0, 10942997630), (851412, 0), (2501, 0), (5, 0)], [(607497935, 0), (2055324, 0), (5907,
    0), (16, 0)], [(22949, 0), (603, 0), (5, 0)], [(12, 0)]], 3, 4⟩, 68719476736, 126358,
    2453238536980860261781497374374660042511038623155780441412293621276563627893947856088857436277, lc0⟩) (.sy (.leaf
    ⟨232, 16, 15871, 9738, 16, 12150, ⟨[[(533649686528, 0)], [(8520678244352, 0)]], 3, 4⟩, ⟨[[(6737992718, 0),
    (5033078236026, 0), (0, 3722021190), (38094173, 0), (386695, 0)], [(910463471510, 0), (11071720993, 0),
    (179434115, 0), (2984851, 0), (38869, 0)], [(3649614427, 0), (195891529, 0), (5401375, 0), (97346, 0), (1277,
    0)], [(37606565, 0), (2163314, 0), (60396, 0), (1090, 0), (14, 0)]], 3, 4⟩, 1099511627776, 0, 1949511,
    ⟨[[(22430953641916, 0), (0, 5811136786), (280760, 0), (435, 0)], [(596625755, 0), (1078108, 0), (1678, 0), (2,
    0)], [(20555, 0), (298, 0), (1, 0)], [(11, 0)]], 3, 4⟩, 68719476736, 91510,
    2619149965780626981077580255622543863505227762443508784851431942251565245580896026373295079580, lc0⟩) (.sx (.leaf
    ⟨449, 16, 31743, 10407, 16, 12949, ⟨[[(534186557440, 0)], [(8520946679808, 0)]], 3, 4⟩, ⟨[[(0, 449321487348),
    (5307039258264, 0), (0, 3387537242), (47997575, 0), (507627, 0)], [(519093019552, 0), (6952927500, 0),
    (121394241, 0), (2031901, 0), (26239, 0)], [(1301142749, 0), (70172989, 0), (1920964, 0), (34289, 0), (445, 0)],
    [(7038447, 0), (400825, 0), (11078, 0), (198, 0), (3, 0)]], 3, 4⟩, 1099511627776, 0, 1555151, ⟨[[(22270428397640,
    0), (0, 5445750570), (267569, 0), (389, 0)], [(313186212, 0), (548070, 0), (823, 0), (1, 0)], [(7302, 0), (87,
    0)], [(2, 0)]], 3, 4⟩, 68719476736, 67565,
    3896032814206483820743617852938204570284716599337412644409467555159309253960129832453778118218, lc0⟩)
    (.skip)))))) (.sx (.sy (.sx (.leaf ⟨139, 16, 15871, 5393, 16, 6690, ⟨[[(540092137472, 0)], [(8520678244352, 0)]],
    3, 4⟩, ⟨[[(118920728949, 0), (5263658113544, 0), (0, 9705775353), (96296433, 0), (1586660, 0)], [(534075608692,
    0), (11618013133, 0), (332616575, 0), (10562960, 0), (267899, 0)], [(2799897641, 0), (296803645, 0), (16005632,
    0), (563067, 0), (14414, 0)], [(47193529, 0), (5295428, 0), (288363, 0), (10151, 0), (260, 0)]], 3, 4⟩,
    1099511627776, 0, 12848376, ⟨[[(22042485449146, 0), (0, 10699281213), (591230, 0), (1749, 0), (3, 0)],
    [(655924122, 0), (2194677, 0), (6034, 0), (15, 0)], [(37707, 0), (814, 0), (6, 0)], [(15, 0)]], 3, 4⟩,
    68719476736, 129353,
    2498647771897633970035667277798074591248051548801308552911576250753583184690211863550700819236, lc0⟩) (.sy (.leaf
    ⟨170, 16, 15871, 10021, 16, 12443, ⟨[[(537944653824, 0)], [(8520678244352, 0)]], 3, 4⟩, ⟨[[(38328319530, 0),
    (4966489783887, 0), (0, 4059495381), (30699778, 0), (289641, 0)], [(1001375034693, 0), (12018360202, 0),
    (190465265, 0), (3103749, 0), (39628, 0)], [(5335665856, 0), (285045412, 0), (7727287, 0), (136585, 0), (1757,
    0)], [(74633521, 0), (4207995, 0), (115143, 0), (2037, 0), (26, 0)]], 3, 4⟩, 1099511627776, 0, 1746683,
    ⟨[[(22118074175989, 0), (0, 5719765299), (216702, 0), (335, 0)], [(646815699, 0), (1172312, 0), (1776, 0), (2,
    0)], [(34967, 0), (412, 0), (2, 0)], [(14, 0)]], 3, 4⟩, 68719476736, 99144,
    1851321562251482942190458100146882736701623710983901706173847841116212182426253323203055523209, lc0⟩) (.sx (.leaf
    ⟨325, 16, 31743, 10786, 16, 13358, ⟨[[(538481524736, 0)], [(8520946679808, 0)]], 3, 4⟩, ⟨[[(0, 169837069704),
    (5267917680462, 0), (0, 3953579421), (37366391, 0), (367436, 0)], [(572552972859, 0), (7463897818, 0),
    (126179270, 0), (2065784, 0), (26157, 0)], [(1890182268, 0), (101093815, 0), (2719308, 0), (47610, 0), (606, 0)],
    [(13997180, 0), (781424, 0), (21171, 0), (371, 0), (5, 0)]], 3, 4⟩, 1099511627776, 0, 1170214,
    ⟨[[(21963407694673, 0), (0, 5325593916), (199336, 0), (286, 0)], [(339021843, 0), (588244, 0), (848, 0), (1, 0)],
    [(11638, 0), (117, 0)], [(2, 0)]], 3, 4⟩, 68719476736, 58462,
    2434273876911349676756139612279148615098446593995767218551171306876671879576762180770657966551, lc0⟩) (.sy (.leaf
    ⟨356, 16, 31743, 20061, 16, 24857, ⟨[[(537407782912, 0)], [(8520946679808, 0)]], 3, 4⟩, ⟨[[(124961830060, 0),
    (4940472719513, 0), (0, 1677781419), (10148363, 0), (51977, 0)], [(1072228054146, 0), (7331280885, 0), (64325494,
    0), (531232, 0), (3373, 0)], [(3534193128, 0), (94818608, 0), (1278522, 0), (11219, 0), (72, 0)], [(24045662, 0),
    (672857, 0), (9138, 0), (80, 0), (1, 0)]], 3, 4⟩, 1099511627776, 0, 191496, ⟨[[(22002281605203, 0), (0,
    2853364294), (63803, 0), (49, 0)], [(336593271, 0), (315064, 0), (247, 0)], [(11209, 0), (61, 0)], [(2, 0)]], 3,
    4⟩, 68719476736, 23599,
    2964577062656393982994879295249397375087051791117489864283598544909156039727756982735676246706, lc0⟩) (.skip)))))
    (.sx (.sy (.leaf ⟨139, 16, 15871, 10194, 16, 12595, ⟨[[(540092137472, 0)], [(8520678244352, 0)]], 3, 4⟩, ⟨[[(0,
    406767578882), (4878734994760, 0), (0, 3849716257), (31211214, 0), (296030, 0)], [(1118630123186, 0),
    (14461482289, 0), (241534231, 0), (3914340, 0), (49091, 0)], [(8504760673, 0), (452737048, 0), (12072200, 0),
    (209359, 0), (2641, 0)], [(146666868, 0), (8108197, 0), (217536, 0), (3773, 0), (48, 0)]], 3, 4⟩, 1099511627776,
    0, 2045873, ⟨[[(21810850835431, 0), (0, 5668062867), (201748, 0), (310, 0)], [(706496341, 0), (1316809, 0),
    (2009, 0), (3, 0)], [(58357, 0), (586, 0), (2, 0)], [(18, 0)]], 3, 4⟩, 68719476736, 63887,
    2910597228503904892157206801667799933193024490323696152991891194849451626800645708116587501842, lc0⟩) (.sx (.leaf
    ⟨263, 16, 31743, 11059, 16, 13630, ⟨[[(540629008384, 0)], [(8520946679808, 0)]], 3, 4⟩, ⟨[[(0, 227246917808),
    (5214969609939, 0), (0, 3814215397), (37328270, 0), (364887, 0)], [(645090114978, 0), (8990984815, 0),
    (157812593, 0), (2560481, 0), (31840, 0)], [(3001127472, 0), (159399823, 0), (4215368, 0), (72418, 0), (905, 0)],
    [(27564795, 0), (1509153, 0), (40098, 0), (689, 0), (9, 0)]], 3, 4⟩, 1099511627776, 0, 1191305,
    ⟨[[(21662422396101, 0), (0, 5237517629), (179230, 0), (254, 0)], [(369952343, 0), (652888, 0), (936, 0), (1, 0)],
    [(18532, 0), (162, 0), (1, 0)], [(3, 0)]], 3, 4⟩, 68719476736, 66375,
    3188160457066536432144901400205471233946577406239228953389152752461592575651980630249480675947, lc0⟩) (.skip)))
    (.sy (.sx (.sy (.leaf ⟨325, 16, 31743, 20205, 16, 24974, ⟨[[(538481524736, 0)], [(8520946679808, 0)]], 3, 4⟩,
    ⟨[[(331045459820, 0), (4893418965865, 0), (0, 1589575805), (10467692, 0), (53854, 0)], [(1138384968820, 0),
    (8165528026, 0), (73612216, 0), (605935, 0), (3813, 0)], [(4495934939, 0), (120302286, 0), (1608530, 0), (13981,
    0), (88, 0)], [(33611748, 0), (931351, 0), (12524, 0), (109, 0), (1, 0)]], 3, 4⟩, 1099511627776, 0, 213770,
    ⟨[[(21850730062039, 0), (0, 2843807029), (62445, 0), (48, 0)], [(351868915, 0), (334669, 0), (264, 0)], [(14305,
    0), (72, 0)], [(2, 0)]], 3, 4⟩, 68719476736, 28932,
    3705651812742832572496255669002208191354393374396896719888501567471839754945782491073451673289, lc0⟩) (.skip))
    (.skip)) (.skip)))) (.sy (.sx (.sy (.sx (.leaf ⟨387, 16, 31743, 10588, 16, 13143, ⟨[[(536334041088, 0)],
    [(8520946679808, 0)]], 3, 4⟩, ⟨[[(0, 310592249202), (5286800601928, 0), (0, 3607581134), (43618502, 0), (448954,
    0)], [(546828419251, 0), (7310608451, 0), (126721404, 0), (2101088, 0), (26869, 0)], [(1586900298, 0), (85303035,
    0), (2315026, 0), (40923, 0), (526, 0)], [(9920163, 0), (559320, 0), (15305, 0), (271, 0), (3, 0)]], 3, 4⟩,
    1099511627776, 0, 1395355, ⟨[[(22115760773361, 0), (0, 5387314457), (235705, 0), (339, 0)], [(326075127, 0),
    (569575, 0), (840, 0), (1, 0)], [(9318, 0), (101, 0)], [(2, 0)]], 3, 4⟩, 68719476736, 63959,
    3403865553423319937642651996414668916604744845319922763489227737729960721380456487629313505797, lc0⟩) (.skip))
    (.skip)) (.skip)) (.skip)))
theorem c21 : checkC job ⟨6, 8, 8, 10, 9, 13⟩ 3 100 lims t21 6 2 512 75 3 64 = true := by decide +kernel

def t22 : CTree :=
  .sy (.sx (.sy (.sx (.sy (.leaf ⟨139, 16, 7935, 8663, 16, 10866, ⟨[[(530428461056, 0)], [(8520141373440, 0)]], 3,
    4⟩, ⟨[[(278287921036, 0), (4639167658142, 0), (0, 3679370817), (32077934, 0), (318912, 0)], [(1474239473159, 0),
    (16367011491, 0), (244539100, 0), (4062920, 0), (53871, 0)], [(8131814256, 0), (431831714, 0), (12078453, 0),
    (221957, 0), (2971, 0)], [(137435903, 0), (8069337, 0), (229950, 0), (4236, 0), (57, 0)]], 3, 4⟩, 1099511627776,
    0, 8365350, ⟨[[(22754989284709, 0), (0, 6478487700), (355826, 0), (612, 0), (1, 0)], [(1092487911, 0), (2106030,
    0), (3560, 0), (6, 0)], [(37469, 0), (885, 0), (4, 0)], [(70, 0)]], 3, 4⟩, 68719476736, 98981,
    2110305874107196740977266243127697936123915877653280368947873369145762610503695157176079220736, lc0⟩) (.sx (.leaf
    ⟨263, 16, 15871, 9612, 16, 12023, ⟨[[(531502202880, 0)], [(8520678244352, 0)]], 3, 4⟩, ⟨[[(12479402708, 0),
    (5067208943922, 0), (0, 3694846413), (39624231, 0), (407815, 0)], [(863253308719, 0), (10299951051, 0),
    (164860924, 0), (2757843, 0), (36259, 0)], [(2939672473, 0), (157581949, 0), (4379575, 0), (79706, 0), (1056,
    0)], [(26732239, 0), (1553501, 0), (43816, 0), (799, 0), (11, 0)]], 3, 4⟩, 1099511627776, 0, 1933698,
    ⟨[[(22591021547885, 0), (0, 5854071210), (304601, 0), (474, 0), (1, 0)], [(572111306, 0), (1026138, 0), (1606,
    0), (2, 0)], [(14895, 0), (250, 0), (1, 0)], [(10, 0)]], 3, 4⟩, 68719476736, 73922,
    2483332757807711351383218524546074104943963474751089675161504224136969959833104435901430157557, lc0⟩) (.skip)))
    (.skip)) (.skip)) (.skip)) (.skip)
theorem c22 : checkC job ⟨6, 8, 8, 10, 9, 13⟩ 3 100 lims t22 6 2 256 75 3 64 = true := by decide +kernel

def t23 : CTree :=
  .sx (.sx (.leaf ⟨15, 16, 31743, 1606, 16, 1961, ⟨[[(549218942976, 0)], [(8520946679808, 0)]], 3, 4⟩, ⟨[[(0,
    84308940046), (5455337763906, 0), (0, 48988477959), (459833763, 0), (0, 3871126)], [(91794697086, 0),
    (4704370869, 0), (139406784, 0), (6360475, 0), (508877, 0)], [(179720669, 0), (68986518, 0), (13947003, 0),
    (1853151, 0), (179468, 0)], [(16743883, 0), (7028255, 0), (1431680, 0), (188534, 0), (18039, 0)]], 3, 4⟩,
    1099511627776, 0, 83096959, ⟨[[(21013435089389, 0), (0, 37484509068), (0, 598022), (9589, 0), (40, 0)],
    [(428770919, 0), (5133596, 0), (44738, 0), (324, 0), (2, 0)], [(39500, 0), (2101, 0), (46, 0), (1, 0)], [(4,
    0)]], 3, 4⟩, 68719476736, 980786,
    3103174835532725557627768463421312853194305476090368901991230187951710950738945339113279004821, lc0⟩) (.leaf ⟨46,
    16, 31743, 1600, 16, 1953, ⟨[[(548145201152, 0)], [(8520946679808, 0)]], 3, 4⟩, ⟨[[(0, 321018865751),
    (5453370407078, 0), (0, 47919778861), (524842411, 0), (2181417, 0)], [(93652548718, 0), (5570802023, 0),
    (318399671, 0), (30112027, 0), (2799020, 0)], [(379096861, 0), (152701118, 0), (31000394, 0), (4098797, 0),
    (394320, 0)], [(16676169, 0), (6999832, 0), (1425890, 0), (187772, 0), (17966, 0)]], 3, 4⟩, 1099511627776, 0,
    429782667, ⟨[[(21006087465338, 0), (0, 37475285917), (873834, 0), (20704, 0), (109, 0)], [(434162483, 0),
    (5339021, 0), (48583, 0), (371, 0), (2, 0)], [(41053, 0), (2172, 0), (47, 0), (1, 0)], [(4, 0)]], 3, 4⟩,
    68719476736, 1763131,
    2506252273003452638664877419953890613197750687465542245663719792681955636695142962270272711438, lc0⟩)) (.sy
    (.leaf ⟨46, 16, 15871, 3025, 16, 3709, ⟨[[(546534588416, 0)], [(8520678244352, 0)]], 3, 4⟩, ⟨[[(0, 394492116622),
    (5349053757843, 0), (0, 22884110924), (173425045, 0), (2245844, 0)], [(339453711151, 0), (11748739374, 0),
    (477892392, 0), (26634347, 0), (1279794, 0)], [(2786083587, 0), (572451646, 0), (59104503, 0), (3971664, 0),
    (194147, 0)], [(134229205, 0), (28702811, 0), (2978589, 0), (199821, 0), (9740, 0)]], 3, 4⟩, 1099511627776, 0,
    74770537, ⟨[[(21293016186308, 0), (0, 19622335985), (675265, 0), (4829, 0), (15, 0)], [(801709491, 0), (5100091,
    0), (24719, 0), (103, 0)], [(112645, 0), (3357, 0), (40, 0)], [(26, 0)]], 3, 4⟩, 68719476736, 844334,
    3039012829527951456002027958587902812098004151995703582321304670168516984153322347306880655212, lc0⟩) (.sx (.leaf
    ⟨77, 16, 31743, 3268, 16, 3971, ⟨[[(547071459328, 0)], [(8520946679808, 0)]], 3, 4⟩, ⟨[[(410855368814, 0),
    (5434539129754, 0), (0, 21578463011), (228661444, 0), (5051152, 0)], [(223433895201, 0), (9784947592, 0),
    (544007873, 0), (32176009, 0), (1507112, 0)], [(2170394653, 0), (440647331, 0), (44066963, 0), (2857295, 0),
    (134695, 0)], [(63284088, 0), (13040313, 0), (1304031, 0), (84301, 0), (3960, 0)]], 3, 4⟩, 1099511627776, 0,
    105034444, ⟨[[(20749112146452, 0), (0, 18328504512), (774603, 0), (4613, 0), (13, 0)], [(479300554, 0), (3093773,
    0), (14842, 0), (59, 0)], [(60009, 0), (1465, 0), (15, 0)], [(5, 0)]], 3, 4⟩, 68719476736, 404566,
    2918734986259046238648611715466586755160225122286743092100759932575635073089731892536012079974, lc0⟩) (.sy (.leaf
    ⟨108, 16, 31743, 6276, 16, 7641, ⟨[[(545997717504, 0)], [(8520946679808, 0)]], 3, 4⟩, ⟨[[(190139395267, 0),
    (5330028617883, 0), (0, 9758695810), (81338506, 0), (1214328, 0)], [(432757978162, 0), (10989552826, 0),
    (349978121, 0), (10709361, 0), (253385, 0)], [(4149263122, 0), (425070702, 0), (21433894, 0), (700621, 0),
    (16649, 0)], [(89294454, 0), (9284397, 0), (468478, 0), (15282, 0), (362, 0)]], 3, 4⟩, 1099511627776, 0, 9509711,
    ⟨[[(20880493739795, 0), (0, 9482568909), (304861, 0), (850, 0), (1, 0)], [(463325646, 0), (1554367, 0), (3941,
    0), (8, 0)], [(51667, 0), (669, 0), (4, 0)], [(4, 0)]], 3, 4⟩, 68719476736, 108126,
    2888094352482510347495778457575779252543169104225158075652280506131366878029749459943256784607, lc0⟩) (.sx (.leaf
    ⟨201, 16, 63487, 6607, 16, 8008, ⟨[[(546266152960, 0)], [(8521080897536, 0)]], 3, 4⟩, ⟨[[(333576084886, 0),
    (5457187061951, 0), (0, 8955368484), (108106791, 0), (1826733, 0)], [(261577553993, 0), (7912785824, 0),
    (280234535, 0), (8609651, 0), (200552, 0)], [(1873295259, 0), (189639993, 0), (9402555, 0), (301928, 0), (7047,
    0)], [(21704369, 0), (2216056, 0), (109805, 0), (3517, 0), (82, 0)]], 3, 4⟩, 1099511627776, 0, 11597441,
    ⟨[[(20609459135244, 0), (0, 9042347227), (317153, 0), (815, 0), (1, 0)], [(254694738, 0), (851357, 0), (2119, 0),
    (4, 0)], [(18404, 0), (216, 0), (1, 0)], [(1, 0)]], 3, 4⟩, 68719476736, 60268,
    2739104640593864201019673119902251376713562058085466069630569390209101676353404556699094071985, lc0⟩) (.sy (.leaf
    ⟨232, 16, 63487, 12700, 16, 15408, ⟨[[(545729282048, 0)], [(8521080897536, 0)]], 3, 4⟩, ⟨[[(431155033684, 0),
    (5306606833640, 0), (0, 3995224835), (31800252, 0), (287160, 0)], [(508103246344, 0), (8202584941, 0),
    (150905569, 0), (2340282, 0), (27378, 0)], [(3525712712, 0), (179220287, 0), (4461629, 0), (71933, 0), (843, 0)],
    [(35825576, 0), (1837203, 0), (45722, 0), (736, 0), (9, 0)]], 3, 4⟩, 1099511627776, 0, 843282,
    ⟨[[(20675349044481, 0), (0, 4688259146), (98825, 0), (129, 0)], [(250367437, 0), (435124, 0), (567, 0), (1, 0)],
    [(17120, 0), (105, 0)], [(1, 0)]], 3, 4⟩, 68719476736, 58178,
    3127017259884248899335877661838342703510513736557392535729385004913891801146969747196988879510, lc0⟩) (.sx (.sy
    (.leaf ⟨449, 16, 126974, 25621, 16, 31032, ⟨[[(541971185664, 0)], [(8521080897536, 0)]], 3, 4⟩, ⟨[[(472377063240,
    0), (5300092037898, 0), (0, 1867514019), (8749155, 0), (40481, 0)], [(543354054819, 0), (4668581314, 0),
    (44094346, 0), (341400, 0), (1985, 0)], [(2162150914, 0), (54675222, 0), (676228, 0), (5415, 0), (32, 0)],
    [(11350772, 0), (289083, 0), (3573, 0), (29, 0)]], 3, 4⟩, 1099511627776, 0, 53577, ⟨[[(20573438085478, 0), (0,
    2327340875), (25343, 0), (16, 0)], [(129810650, 0), (113808, 0), (74, 0)], [(4871, 0), (15, 0)]], 3, 4⟩,
    68719476736, 9018,
    2956520825277852937527158923609012868528217904034002477748435169350973652304321091995888761637, lc0⟩) (.skip))
    (.skip)))))))
theorem c23 : checkC job ⟨6, 8, 8, 10, 9, 13⟩ 3 100 lims t23 2 2 1024 81 3 64 = true := by decide +kernel

def t24 : CTree :=
  .sy (.sx (.sy (.leaf ⟨77, 16, 15871, 5711, 16, 7017, ⟨[[(544387104768, 0)], [(8520678244352, 0)]], 3, 4⟩, ⟨[[(0,
    367598011319), (5173187964601, 0), (0, 10076070712), (70676224, 0), (967760, 0)], [(650571153349, 0),
    (14040330981, 0), (391784483, 0), (12006009, 0), (293412, 0)], [(6083219822, 0), (635231636, 0), (33119473, 0),
    (1122391, 0), (27663, 0)], [(184181270, 0), (19879619, 0), (1041311, 0), (35261, 0), (868, 0)]], 3, 4⟩,
    1099511627776, 0, 9712178, ⟨[[(21440969234935, 0), (0, 10295936633), (371281, 0), (1128, 0), (2, 0)],
    [(776284682, 0), (2632236, 0), (6987, 0), (16, 0)], [(95151, 0), (1544, 0), (10, 0)], [(24, 0)]], 3, 4⟩,
    68719476736, 128215,
    2774253463316501964553565965138185024885407208347174472229255593372255754700812245425199289587, lc0⟩) (.sx (.leaf
    ⟨139, 16, 31743, 6106, 16, 7467, ⟨[[(544923975680, 0)], [(8520946679808, 0)]], 3, 4⟩, ⟨[[(0, 133252391908),
    (5365025132232, 0), (0, 9759905954), (88377743, 0), (1376608, 0)], [(388539823888, 0), (9620027443, 0),
    (303137847, 0), (9391624, 0), (226007, 0)], [(2745569601, 0), (284783089, 0), (14605617, 0), (485993, 0), (11757,
    0)], [(46515613, 0), (4926850, 0), (253249, 0), (8415, 0), (203, 0)]], 3, 4⟩, 1099511627776, 0, 10149503,
    ⟨[[(21156668160381, 0), (0, 9675495649), (361352, 0), (1007, 0), (2, 0)], [(425327227, 0), (1416881, 0), (3644,
    0), (8, 0)], [(36028, 0), (506, 0), (3, 0)], [(4, 0)]], 3, 4⟩, 68719476736, 65828,
    2651696654701206018080668266482754044191261399378672838878466022676476480397426206752586812651, lc0⟩) (.sy (.leaf
    ⟨170, 16, 31743, 11537, 16, 14122, ⟨[[(543850233856, 0)], [(8520946679808, 0)]], 3, 4⟩, ⟨[[(0, 506078125614),
    (5138675075230, 0), (0, 4193706578), (28463511, 0), (253581, 0)], [(747921665329, 0), (10332377566, 0),
    (177218275, 0), (2798520, 0), (33860, 0)], [(5344442345, 0), (278740642, 0), (7180704, 0), (119990, 0), (1458,
    0)], [(75083547, 0), (3995021, 0), (103158, 0), (1722, 0), (21, 0)]], 3, 4⟩, 1099511627776, 0, 914899,
    ⟨[[(21225931589703, 0), (0, 5095299177), (127332, 0), (180, 0)], [(419273662, 0), (742740, 0), (1028, 0), (1,
    0)], [(33505, 0), (252, 0), (1, 0)], [(3, 0)]], 3, 4⟩, 68719476736, 48778,
    2072914277415669617057684358506094945135977673603430527306246979850662306842018750810634605224, lc0⟩) (.sx (.leaf
    ⟨325, 16, 63487, 12223, 16, 14927, ⟨[[(544118669312, 0)], [(8521080897536, 0)]], 3, 4⟩, ⟨[[(0, 128880611850),
    (5368775136555, 0), (0, 4066244217), (33769148, 0), (312820, 0)], [(424201624834, 0), (6368734118, 0),
    (114519455, 0), (1809212, 0), (21711, 0)], [(1848128863, 0), (95898877, 0), (2449561, 0), (40560, 0), (488, 0)],
    [(13627881, 0), (718364, 0), (18377, 0), (304, 0), (4, 0)]], 3, 4⟩, 1099511627776, 0, 896012, ⟨[[(21086050166470,
    0), (0, 4819339066), (120007, 0), (159, 0)], [(219671058, 0), (376618, 0), (501, 0), (1, 0)], [(10186, 0), (70,
    0)]], 3, 4⟩, 68719476736, 55981,
    2607708726960191397516642111955352204766442424352893430122551046428957279533495045825792742170, lc0⟩) (.sy (.leaf
    ⟨356, 16, 63487, 23118, 16, 28246, ⟨[[(543581798400, 0)], [(8521080897536, 0)]], 3, 4⟩, ⟨[[(103023451620, 0),
    (5115587439777, 0), (0, 1773988240), (9299074, 0), (44879, 0)], [(812130504748, 0), (6414413862, 0), (59451096,
    0), (472791, 0), (2844, 0)], [(3521112752, 0), (91588283, 0), (1172368, 0), (9727, 0), (59, 0)], [(23836851, 0),
    (629718, 0), (8073, 0), (67, 0)]], 3, 4⟩, 1099511627776, 0, 75924, ⟨[[(21121549257856, 0), (0, 2541488396),
    (37027, 0), (26, 0)], [(218049908, 0), (198122, 0), (140, 0)], [(9820, 0), (36, 0)]], 3, 4⟩, 68719476736, 16057,
    3219381877837523002034219528257889587510885336004320922830082784974426594201011088796177627506, lc0⟩)
    (.skip)))))) (.sy (.sx (.leaf ⟨201, 16, 31743, 5896, 16, 7243, ⟨[[(542776492032, 0)], [(8520946679808, 0)]], 3,
    4⟩, ⟨[[(528013247112, 0), (5389736446929, 0), (0, 8850680584), (121540527, 0), (2188685, 0)], [(357167394517, 0),
    (9490490155, 0), (319277305, 0), (10163560, 0), (249187, 0)], [(1997860706, 0), (210126961, 0), (10966760, 0),
    (371589, 0), (9155, 0)], [(23803025, 0), (2569181, 0), (134576, 0), (4557, 0), (112, 0)]], 3, 4⟩, 1099511627776,
    0, 14837459, ⟨[[(21448724473896, 0), (0, 9912845702), (512067, 0), (1400, 0), (2, 0)], [(391782080, 0), (1317768,
    0), (3521, 0), (8, 0)], [(24604, 0), (382, 0), (2, 0)], [(3, 0)]], 3, 4⟩, 68719476736, 100519,
    2830061734319320102980815603991157586418863520163307591955310935364090299149954229600323566425, lc0⟩) (.sy (.leaf
    ⟨232, 16, 31743, 11206, 16, 13779, ⟨[[(541702750208, 0)], [(8520946679808, 0)]], 3, 4⟩, ⟨[[(0, 219227660088),
    (5188276548769, 0), (0, 3854468358), (35622346, 0), (342661, 0)], [(681507701363, 0), (9645434086, 0),
    (170072353, 0), (2740103, 0), (33765, 0)], [(3708076513, 0), (195920155, 0), (5136315, 0), (87418, 0), (1082,
    0)], [(38560919, 0), (2090991, 0), (55026, 0), (936, 0), (12, 0)]], 3, 4⟩, 1099511627776, 0, 1143722,
    ⟨[[(21515307427891, 0), (0, 5192602945), (164816, 0), (232, 0)], [(386033730, 0), (684358, 0), (974, 0), (1, 0)],
    [(22831, 0), (189, 0), (1, 0)], [(3, 0)]], 3, 4⟩, 68719476736, 61740,
    3177516261324254786628930724648373185059184363111189472909899815432733241606080108522298346999, lc0⟩) (.sx (.sy
    (.leaf ⟨449, 16, 63487, 22598, 16, 27736, ⟨[[(541971185664, 0)], [(8521080897536, 0)]], 3, 4⟩, ⟨[[(0,
    395031895884), (5178002817206, 0), (0, 1778300837), (9866831, 0), (48638, 0)], [(724009908881, 0), (5468967815,
    0), (50013251, 0), (403021, 0), (2467, 0)], [(2292042230, 0), (60370756, 0), (786344, 0), (6645, 0), (41, 0)],
    [(12367635, 0), (332933, 0), (4349, 0), (37, 0)]], 3, 4⟩, 1099511627776, 0, 77985, ⟨[[(21405994601031, 0), (0,
    2578834967), (42401, 0), (30, 0)], [(200031518, 0), (179488, 0), (129, 0)], [(6724, 0), (27, 0)]], 3, 4⟩,
    68719476736, 15992,
    3031005417988592464959616343451035707634334025709185228274660280679017334305306194619902329720, lc0⟩) (.skip))
    (.skip)))) (.sx (.sy (.sx (.leaf ⟨387, 16, 63487, 12007, 16, 14695, ⟨[[(543044927488, 0)], [(8521080897536, 0)]],
    3, 4⟩, ⟨[[(0, 213705997688), (5382154321950, 0), (0, 3740492072), (39526744, 0), (383811, 0)], [(406873204163,
    0), (6302094445, 0), (116070156, 0), (1854807, 0), (22461, 0)], [(1566187401, 0), (81869956, 0), (2109636, 0),
    (35248, 0), (428, 0)], [(9774555, 0), (520081, 0), (13429, 0), (224, 0), (3, 0)]], 3, 4⟩, 1099511627776, 0,
    1080856, ⟨[[(21226597450808, 0), (0, 4879182366), (141349, 0), (187, 0)], [(211109353, 0), (364435, 0), (495, 0),
    (1, 0)], [(8552, 0), (61, 0)]], 3, 4⟩, 68719476736, 56761,
    3754515623864972992118285340137075702921095567060510959314442648734244592221433234936135942144, lc0⟩) (.skip))
    (.skip)) (.skip)))) (.sx (.sy (.sx (.sy (.leaf ⟨139, 16, 31743, 11754, 16, 14323, ⟨[[(544923975680, 0)],
    [(8520946679808, 0)]], 3, 4⟩, ⟨[[(0, 85263900622), (5066967390544, 0), (0, 4014726490), (28653390, 0), (255657,
    0)], [(841934915819, 0), (12478332945, 0), (221393728, 0), (3464156, 0), (41207, 0)], [(8387021479, 0),
    (432101368, 0), (10942179, 0), (179572, 0), (2142, 0)], [(143234603, 0), (7480724, 0), (189603, 0), (3107, 0),
    (37, 0)]], 3, 4⟩, 1099511627776, 0, 972542, ⟨[[(20946842917567, 0), (0, 5035163658), (117356, 0), (164, 0)],
    [(457882555, 0), (827360, 0), (1144, 0), (1, 0)], [(48492, 0), (338, 0), (1, 0)], [(4, 0)]], 3, 4⟩, 68719476736,
    42040, 3011820020642432761166220025775117893317800034209385996205039640921678735751292785806093327152, lc0⟩) (.sx
    (.leaf ⟨263, 16, 63487, 12534, 16, 15239, ⟨[[(545192411136, 0)], [(8521080897536, 0)]], 3, 4⟩, ⟨[[(24528621900,
    0), (5327372820906, 0), (0, 3954912469), (33392518, 0), (306699, 0)], [(480553706105, 0), (7664823709, 0),
    (140935434, 0), (2201480, 0), (25972, 0)], [(2880206321, 0), (147467283, 0), (3702589, 0), (60221, 0), (712, 0)],
    [(26018400, 0), (1346457, 0), (33815, 0), (549, 0), (6, 0)]], 3, 4⟩, 1099511627776, 0, 888859,
    ⟨[[(20809417499003, 0), (0, 4732563095), (107538, 0), (140, 0)], [(239920438, 0), (416008, 0), (547, 0), (1, 0)],
    [(14524, 0), (92, 0)], [(1, 0)]], 3, 4⟩, 68719476736, 58412,
    3208178136829331576404911778280809341900434298910579662456083061672245702548751412099451607270, lc0⟩) (.sy (.sx
    (.leaf ⟨573, 16, 126974, 24960, 16, 30361, ⟨[[(539823702016, 0)], [(8521080897536, 0)]], 3, 4⟩, ⟨[[(0,
    96183873212), (5341907288334, 0), (0, 1830546984), (9535102, 0), (45395, 0)], [(484153367908, 0), (4039825872,
    0), (38069822, 0), (299004, 0), (1768, 0)], [(1436374177, 0), (36856858, 0), (463700, 0), (3779, 0), (22, 0)],
    [(5996595, 0), (155517, 0), (1957, 0), (16, 0)]], 3, 4⟩, 1099511627776, 0, 59279, ⟨[[(20842963721135, 0), (0,
    2371174386), (29683, 0), (19, 0)], [(119070242, 0), (103853, 0), (69, 0)], [(3507, 0), (11, 0)]], 3, 4⟩,
    68719476736, 6667,
    3130219278213525570722585932182040904928941424780316075461666030589193607560179027442488687452, lc0⟩) (.skip))
    (.skip)))) (.sy (.sx (.sy (.leaf ⟨325, 16, 63487, 23306, 16, 28411, ⟨[[(544118669312, 0)], [(8521080897536, 0)]],
    3, 4⟩, ⟨[[(0, 155503124564), (5076513780206, 0), (0, 1698468051), (9529108, 0), (46137, 0)], [(866688911541, 0),
    (7154297390, 0), (67461678, 0), (533876, 0), (3184, 0)], [(4440814864, 0), (114767555, 0), (1456430, 0), (11975,
    0), (72, 0)], [(32855092, 0), (859944, 0), (10923, 0), (90, 0), (1, 0)]], 3, 4⟩, 1099511627776, 0, 79969,
    ⟨[[(20980767849332, 0), (0, 2529178069), (36112, 0), (25, 0)], [(228148374, 0), (209808, 0), (149, 0)], [(11813,
    0), (42, 0)], [(1, 0)]], 3, 4⟩, 68719476736, 16123,
    3877692080136489472796929879917190560803957839421268690242961066721700097280884941526569371485, lc0⟩) (.skip))
    (.skip)) (.skip))) (.sx (.sy (.sx (.sy (.sx (.leaf ⟨511, 16, 126974, 25279, 16, 30683, ⟨[[(540897443840, 0)],
    [(8521080897536, 0)]], 3, 4⟩, ⟨[[(520721852712, 0), (5320579240233, 0), (0, 1828992989), (9285492, 0), (43764,
    0)], [(514397158367, 0), (4385587558, 0), (41514607, 0), (323880, 0), (1899, 0)], [(1774927233, 0), (45217789,
    0), (564033, 0), (4556, 0), (27, 0)], [(8258338, 0), (212232, 0), (2647, 0), (21, 0)]], 3, 4⟩, 1099511627776, 0,
    57350, ⟨[[(20707967398393, 0), (0, 2349763773), (27709, 0), (18, 0)], [(124339065, 0), (108848, 0), (72, 0)],
    [(4143, 0), (13, 0)]], 3, 4⟩, 68719476736, 6532,
    3195520464391069971057516198127830810174311845553164703486470679765818054382107027406455979102, lc0⟩) (.skip))
    (.skip)) (.skip)) (.skip)) (.skip))) (.skip))
theorem c24 : checkC job ⟨6, 8, 8, 10, 9, 13⟩ 3 100 lims t24 6 2 1024 81 3 64 = true := by decide +kernel

def t25 : CTree :=
  .skip
theorem c25 : checkC job ⟨6, 8, 8, 10, 9, 13⟩ 3 100 lims t25 6 2 512 81 3 64 = true := by decide +kernel

def t26 : CTree :=
  .skip
theorem c26 : checkC job ⟨6, 8, 8, 10, 9, 13⟩ 3 100 lims t26 6 2 256 81 3 64 = true := by decide +kernel

def t27 : CTree :=
  .sx (.sx (.leaf ⟨15, 16, 63487, 1825, 16, 2190, ⟨[[(549487378432, 0)], [(8521080897536, 0)]], 3, 4⟩, ⟨[[(0,
    129860842171), (5480178742056, 0), (0, 46599130507), (416144364, 0), (0, 2764846)], [(69416205302, 0),
    (3719678969, 0), (155741899, 0), (11601773, 0), (991216, 0)], [(367454156, 0), (143046711, 0), (27493457, 0),
    (3429051, 0), (311135, 0)], [(26539549, 0), (10371770, 0), (1967060, 0), (241172, 0), (21484, 0)]], 3, 4⟩,
    1099511627776, 0, 129612771, ⟨[[(19952766378347, 0), (0, 33628597860), (0, 144322), (7826, 0), (27, 0)],
    [(307615677, 0), (3820989, 0), (32897, 0), (222, 0), (1, 0)], [(38132, 0), (1510, 0), (27, 0)], [(1, 0)]], 3, 4⟩,
    68719476736, 805192,
    3920821586868569185639625166914055766104839960135146187258362242550240356551894831640000738552, lc0⟩) (.leaf ⟨46,
    16, 63487, 1817, 16, 2180, ⟨[[(548950507520, 0)], [(8521080897536, 0)]], 3, 4⟩, ⟨[[(0, 211831604189),
    (5472904930456, 0), (0, 45203022396), (530418186, 0), (7518648, 0)], [(73293529098, 0), (5337414477, 0),
    (467961884, 0), (50379353, 0), (4490915, 0)], [(682797137, 0), (266286645, 0), (50864884, 0), (6294248, 0),
    (566342, 0)], [(26418481, 0), (10324456, 0), (1958086, 0), (240072, 0), (21386, 0)]], 3, 4⟩, 1099511627776, 0,
    633134159, ⟨[[(19951118441329, 0), (0, 33661793372), (924787, 0), (15298, 0), (68, 0)], [(311297743, 0),
    (3955982, 0), (35122, 0), (246, 0), (1, 0)], [(38742, 0), (1538, 0), (27, 0)], [(1, 0)]], 3, 4⟩, 68719476736,
    1245055, 3499390197283420054833492405777800522270345704791855174301247257793958685805266751192821300119, lc0⟩))
    (.sy (.leaf ⟨46, 16, 31743, 3455, 16, 4162, ⟨[[(548145201152, 0)], [(8520946679808, 0)]], 3, 4⟩, ⟨[[(0,
    124864902494), (5387660010349, 0), (0, 21225834310), (200316356, 0), (3974705, 0)], [(276144086696, 0),
    (12679879804, 0), (727204071, 0), (42184335, 0), (1915515, 0)], [(4905949551, 0), (970338436, 0), (93950437, 0),
    (5891498, 0), (268581, 0)], [(223383459, 0), (44415370, 0), (4285693, 0), (267334, 0), (12116, 0)]], 3, 4⟩,
    1099511627776, 0, 104213614, ⟨[[(20210602661424, 0), (0, 17552306143), (560252, 0), (3383, 0), (9, 0)],
    [(573606541, 0), (3759065, 0), (17626, 0), (66, 0)], [(115883, 0), (2483, 0), (24, 0)], [(7, 0)]], 3, 4⟩,
    68719476736, 469350,
    3846791631758162543753928270322954088625627615763187908705593123823388834189820698385754131774, lc0⟩) (.sx (.sy
    (.leaf ⟨77, 16, 63487, 7220, 16, 8644, ⟨[[(548413636608, 0)], [(8521080897536, 0)]], 3, 4⟩, ⟨[[(0, 238741229225),
    (5389696759841, 0), (0, 9999632328), (60276044, 0), (741027, 0)], [(343349837786, 0), (9540264976, 0),
    (311886346, 0), (9088758, 0), (201952, 0)], [(5307062541, 0), (514170412, 0), (24296585, 0), (743115, 0), (16522,
    0)], [(140255846, 0), (13586029, 0), (638659, 0), (19408, 0), (429, 0)]], 3, 4⟩, 1099511627776, 0, 6046464,
    ⟨[[(19831048123402, 0), (0, 8453886032), (147545, 0), (402, 0)], [(329948782, 0), (1096713, 0), (2546, 0), (5,
    0)], [(45232, 0), (445, 0), (2, 0)], [(1, 0)]], 3, 4⟩, 68719476736, 77208,
    2510592670332381313787092021820114913074766457511802240093059470778736258938217040442216236798, lc0⟩) (.sy (.leaf
    ⟨77, 16, 63487, 13954, 16, 16656, ⟨[[(548413636608, 0)], [(8521080897536, 0)]], 3, 4⟩, ⟨[[(0, 158308350830),
    (5109775966681, 0), (0, 4374948936), (18502842, 0), (134961, 0)], [(758257706711, 0), (12506192193, 0),
    (222857492, 0), (3258517, 0), (35804, 0)], [(15777120960, 0), (755951997, 0), (17641356, 0), (266397, 0), (2924,
    0)], [(416755604, 0), (19929233, 0), (462493, 0), (6938, 0), (76, 0)]], 3, 4⟩, 1099511627776, 0, 512088,
    ⟨[[(19647357659324, 0), (0, 4383696063), (47187, 0), (63, 0)], [(355040588, 0), (630170, 0), (773, 0), (1, 0)],
    [(55910, 0), (280, 0), (1, 0)], [(1, 0)]], 3, 4⟩, 68719476736, 51200,
    2732951302758782027470585008232132801367495229612049279541282421981069188249912688971083077267, lc0⟩) (.leaf ⟨77,
    16, 63487, 13934, 16, 16599, ⟨[[(548413636608, 0)], [(8521080897536, 0)]], 3, 4⟩, ⟨[[(0, 271835006388),
    (5042085553490, 0), (0, 3996225178), (22142174, 0), (175746, 0)], [(839188725036, 0), (15512152204, 0),
    (288955571, 0), (4223046, 0), (46052, 0)], [(20937556548, 0), (995695909, 0), (23046173, 0), (345125, 0), (3757,
    0)], [(552684755, 0), (26208195, 0), (603117, 0), (8972, 0), (97, 0)]], 3, 4⟩, 1099511627776, 0, 652959,
    ⟨[[(19525316073338, 0), (0, 4395962573), (52969, 0), (68, 0)], [(373205333, 0), (677281, 0), (843, 0), (1, 0)],
    [(64226, 0), (319, 0), (1, 0)], [(2, 0)]], 3, 4⟩, 68719476736, 40445,
    3982604796947624963615168368173924516539226956013370790461756379078354346903147731182190280130, lc0⟩))) (.sy (.sx
    (.leaf ⟨201, 16, 126974, 7332, 16, 8777, ⟨[[(546266152960, 0)], [(8521080897536, 0)]], 3, 4⟩, ⟨[[(0,
    144977558548), (5506757133560, 0), (0, 8963892152), (96212315, 0), (1530342, 0)], [(192405135988, 0),
    (6596007366, 0), (241108468, 0), (7143995, 0), (158733, 0)], [(1667614746, 0), (161559677, 0), (7626716, 0),
    (232979, 0), (5173, 0)], [(17802190, 0), (1724428, 0), (81063, 0), (2463, 0), (54, 0)]], 3, 4⟩, 1099511627776, 0,
    9134146, ⟨[[(19831272057392, 0), (0, 8299788333), (203545, 0), (493, 0), (1, 0)], [(166540366, 0), (552699, 0),
    (1286, 0), (2, 0)], [(11430, 0), (111, 0)]], 3, 4⟩, 68719476736, 89020,
    2538872027372499657842884006969124356362028837812047432331781958439450466018482509149189064997, lc0⟩) (.sy (.leaf
    ⟨232, 16, 126974, 14217, 16, 17035, ⟨[[(545729282048, 0)], [(8521080897536, 0)]], 3, 4⟩, ⟨[[(0, 101881037718),
    (5395897241500, 0), (0, 4086589142), (28149505, 0), (238897, 0)], [(379056229628, 0), (6901890968, 0),
    (129828723, 0), (1937275, 0), (21602, 0)], [(3156541660, 0), (153474718, 0), (3635936, 0), (55739, 0), (621, 0)],
    [(29870508, 0), (1452928, 0), (34297, 0), (523, 0), (6, 0)]], 3, 4⟩, 1099511627776, 0, 655360,
    ⟨[[(19893835172110, 0), (0, 4269144480), (61671, 0), (75, 0)], [(163435390, 0), (279087, 0), (336, 0)], [(10699,
    0), (54, 0)]], 3, 4⟩, 68719476736, 36591,
    2892011917497126171109378634578596640637392232561779904488435340329384248123033307765088686115, lc0⟩) (.sx (.leaf
    ⟨449, 16, 253947, 14707, 16, 17587, ⟨[[(540025028608, 0)], [(8521047343104, 0)]], 3, 4⟩, ⟨[[(507742456174, 0),
    (5514721674867, 0), (0, 3807940670), (33311121, 0), (293943, 0)], [(215393962775, 0), (4277962923, 0), (82778286,
    0), (1231467, 0), (13625, 0)], [(1058560046, 0), (51083292, 0), (1200289, 0), (18247, 0), (202, 0)], [(5154721,
    0), (248596, 0), (5818, 0), (88, 0), (1, 0)]], 3, 4⟩, 1099511627776, 0, 731832, ⟨[[(19771381931184, 0), (0,
    4133745969), (61513, 0), (71, 0)], [(85727120, 0), (144355, 0), (170, 0)], [(3081, 0), (15, 0)]], 3, 4⟩,
    68719476736, 17341,
    3919635251220535415719023394052810003809198761821511568694590019091644845712666992340093963066, lc0⟩) (.skip))))
    (.sx (.sy (.sx (.leaf ⟨387, 16, 253947, 14933, 16, 17822, ⟨[[(541367205888, 0)], [(8521047343104, 0)]], 3, 4⟩,
    ⟨[[(0, 395788802320), (5506327687779, 0), (0, 3959360441), (30412246, 0), (261005, 0)], [(226027152890, 0),
    (4456470377, 0), (85529781, 0), (1262766, 0), (13868, 0)], [(1264131594, 0), (60550412, 0), (1411743, 0), (21296,
    0), (233, 0)], [(6967806, 0), (333200, 0), (7732, 0), (116, 0), (1, 0)]], 3, 4⟩, 1099511627776, 0, 654926,
    ⟨[[(19645596661579, 0), (0, 4084923173), (55169, 0), (64, 0)], [(89636395, 0), (150575, 0), (175, 0)], [(3535,
    0), (17, 0)]], 3, 4⟩, 68719476736, 20485,
    3272334109217881432934796798316051266856132922591795403650900197451291330249351275997676793194, lc0⟩) (.skip))
    (.skip)) (.skip)))))
theorem c27 : checkC job ⟨6, 8, 8, 10, 9, 13⟩ 3 100 lims t27 2 2 2048 87 3 64 = true := by decide +kernel

def t28 : CTree :=
  .sy (.sx (.sy (.sx (.leaf ⟨139, 16, 63487, 6831, 16, 8245, ⟨[[(547339894784, 0)], [(8521080897536, 0)]], 3, 4⟩,
    ⟨[[(13164935499, 0), (5440210849109, 0), (0, 9742281218), (79697155, 0), (1166387, 0)], [(282252513513, 0),
    (7926355736, 0), (265692826, 0), (7979280, 0), (182814, 0)], [(2542304147, 0), (253509404, 0), (12364048, 0),
    (390463, 0), (8963, 0)], [(41000582, 0), (4112146, 0), (200149, 0), (6298, 0), (144, 0)]], 3, 4⟩, 1099511627776,
    0, 8016887, ⟨[[(20342484207020, 0), (0, 8821372544), (226584, 0), (599, 0), (1, 0)], [(276818729, 0), (916649,
    0), (2206, 0), (4, 0)], [(25142, 0), (276, 0), (1, 0)], [(1, 0)]], 3, 4⟩, 68719476736, 68399,
    2478116390465501488902841921198042024148820526947983863624252004571219135195959582601699944943, lc0⟩) (.sy (.leaf
    ⟨170, 16, 63487, 13074, 16, 15795, ⟨[[(546803023872, 0)], [(8521080897536, 0)]], 3, 4⟩, ⟨[[(0, 98341584222),
    (5270504884174, 0), (0, 4298186090), (25569421, 0), (213644, 0)], [(555815570730, 0), (8719101855, 0),
    (156257469, 0), (2379569, 0), (27379, 0)], [(5003349648, 0), (250541656, 0), (6133563, 0), (97219, 0), (1120,
    0)], [(67558887, 0), (3402960, 0), (83183, 0), (1315, 0), (15, 0)]], 3, 4⟩, 1099511627776, 0, 661097,
    ⟨[[(20407055829528, 0), (0, 4591712359), (76966, 0), (101, 0)], [(272529077, 0), (472514, 0), (601, 0), (1, 0)],
    [(23511, 0), (136, 0)], [(1, 0)]], 3, 4⟩, 68719476736, 57358,
    1990717871684203055129767440970242982375215469202576940560940884635815585966217258148407297695, lc0⟩) (.sx (.leaf
    ⟨325, 16, 126974, 13688, 16, 16502, ⟨[[(544118669312, 0)], [(8521080897536, 0)]], 3, 4⟩, ⟨[[(485245146344, 0),
    (5444605759614, 0), (0, 4163093414), (29746284, 0), (258455, 0)], [(313992918144, 0), (5338114721, 0), (99044923,
    0), (1505555, 0), (17186, 0)], [(1691498504, 0), (84105613, 0), (2041791, 0), (32085, 0), (366, 0)], [(11919826,
    0), (595115, 0), (14419, 0), (226, 0), (3, 0)]], 3, 4⟩, 1099511627776, 0, 695238, ⟨[[(20278420548572, 0), (0,
    4394332890), (74007, 0), (92, 0)], [(142804392, 0), (241556, 0), (297, 0)], [(6877, 0), (37, 0)]], 3, 4⟩,
    68719476736, 33452,
    2465188603270727686236148088430402237846365751853506243234524427879861950439808186311570514324, lc0⟩) (.sy (.leaf
    ⟨356, 16, 126974, 26227, 16, 31632, ⟨[[(543581798400, 0)], [(8521080897536, 0)]], 3, 4⟩, ⟨[[(0, 294855882712),
    (5251025612466, 0), (0, 1865226932), (8233809, 0), (37282, 0)], [(612039632476, 0), (5465932779, 0), (51927626,
    0), (396688, 0), (2269, 0)], [(3263524180, 0), (81305785, 0), (988857, 0), (7784, 0), (45, 0)], [(21199561, 0),
    (530378, 0), (6439, 0), (51, 0)]], 3, 4⟩, 1099511627776, 0, 50152, ⟨[[(20307939217820, 0), (0, 2289032482),
    (22204, 0), (14, 0)], [(141846521, 0), (125435, 0), (81, 0)], [(6676, 0), (19, 0)]], 3, 4⟩, 68719476736, 6102,
    3045670333503128912968569220598420144643785714487469041120180336191728374595918116388185524176, lc0⟩) (.skip)))))
    (.sx (.sy (.leaf ⟨139, 16, 63487, 13336, 16, 16044, ⟨[[(547339894784, 0)], [(8521080897536, 0)]], 3, 4⟩, ⟨[[(0,
    547376980948), (5212933961389, 0), (0, 4136253590), (25731967, 0), (215435, 0)], [(630687591519, 0),
    (10582039335, 0), (194058804, 0), (2924713, 0), (33122, 0)], [(7731162773, 0), (381521498, 0), (9186969, 0),
    (143182, 0), (1622, 0)], [(124919784, 0), (6182341, 0), (148484, 0), (2305, 0), (26, 0)]], 3, 4⟩, 1099511627776,
    0, 686662, ⟨[[(20145351833831, 0), (0, 4527608095), (71138, 0), (92, 0)], [(298468636, 0), (525246, 0), (664, 0),
    (1, 0)], [(32031, 0), (176, 0)], [(1, 0)]], 3, 4⟩, 68719476736, 58446,
    2814534107036319229453117978831719221721754016382901594779909873007689233987968248527449344393, lc0⟩) (.sx (.leaf
    ⟨263, 16, 126974, 14033, 16, 16848, ⟨[[(545192411136, 0)], [(8521080897536, 0)]], 3, 4⟩, ⟨[[(0, 166498126902),
    (5411775033508, 0), (0, 4058248048), (29430357, 0), (253794, 0)], [(357866849319, 0), (6439538911, 0),
    (121195317, 0), (1820772, 0), (20460, 0)], [(2593906876, 0), (127067793, 0), (3034568, 0), (46898, 0), (527, 0)],
    [(22037849, 0), (1081221, 0), (25743, 0), (396, 0), (4, 0)]], 3, 4⟩, 1099511627776, 0, 688786,
    ⟨[[(20019301124845, 0), (0, 4311653013), (66746, 0), (81, 0)], [(156389411, 0), (266691, 0), (324, 0)], [(9287,
    0), (48, 0)]], 3, 4⟩, 68719476736, 35098,
    2975958045056955315270750731643270829614808208517181582202879712838303676112744642519133426349, lc0⟩) (.sy (.sx
    (.leaf ⟨573, 16, 253947, 27955, 16, 33579, ⟨[[(537340674048, 0)], [(8521047343104, 0)]], 3, 4⟩, ⟨[[(495584756936,
    0), (5424599575457, 0), (0, 1904063251), (8338054, 0), (37269, 0)], [(362224710667, 0), (3400547390, 0),
    (32612259, 0), (246015, 0), (1385, 0)], [(1292612950, 0), (31722779, 0), (379510, 0), (2938, 0), (17, 0)],
    [(5100539, 0), (125393, 0), (1496, 0), (12, 0)]], 3, 4⟩, 1099511627776, 0, 45596, ⟨[[(20052252435921, 0), (0,
    2160681711), (18285, 0), (11, 0)], [(77506830, 0), (66357, 0), (41, 0)], [(2244, 0), (6, 0)]], 3, 4⟩,
    68719476736, 4492,
    2913247803606263790719034878063353066468162073982558857804717729677959611720157045404265908878, lc0⟩) (.skip))
    (.skip)))) (.sy (.sx (.sy (.leaf ⟨325, 16, 126974, 26458, 16, 31845, ⟨[[(544118669312, 0)], [(8521080897536,
    0)]], 3, 4⟩, ⟨[[(383064328840, 0), (5219095099832, 0), (0, 1798468567), (8421233, 0), (38267, 0)],
    [(656438159638, 0), (6105365905, 0), (58666787, 0), (445743, 0), (2529, 0)], [(4080297807, 0), (100899136, 0),
    (1216988, 0), (9500, 0), (54, 0)], [(28775724, 0), (713620, 0), (8588, 0), (67, 0)]], 3, 4⟩, 1099511627776, 0,
    51526, ⟨[[(20179718470166, 0), (0, 2275335437), (21586, 0), (14, 0)], [(148385534, 0), (132328, 0), (85, 0)],
    [(7762, 0), (22, 0)]], 3, 4⟩, 68719476736, 10469,
    3617727194682634061546323575734241541159863085039557473157956487124907982861388196135275418594, lc0⟩) (.skip))
    (.skip)) (.skip)))) (.sy (.sx (.sy (.sx (.leaf ⟨387, 16, 126974, 13457, 16, 16256, ⟨[[(543044927488, 0)],
    [(8521080897536, 0)]], 3, 4⟩, ⟨[[(105847517376, 0), (5453668213964, 0), (0, 3882055901), (34599800, 0), (315209,
    0)], [(302405761944, 0), (5307635338, 0), (100502565, 0), (1542944, 0), (17757, 0)], [(1443796939, 0), (72344052,
    0), (1770780, 0), (28058, 0), (323, 0)], [(8692261, 0), (437832, 0), (10703, 0), (169, 0), (2, 0)]], 3, 4⟩,
    1099511627776, 0, 834357, ⟨[[(20407169843382, 0), (0, 4450390295), (86619, 0), (107, 0)], [(137147817, 0),
    (233486, 0), (292, 0)], [(5939, 0), (33, 0)]], 3, 4⟩, 68719476736, 34923,
    3564002876908911444921792933246167062358197020422843265482743205131483764732023456313269740933, lc0⟩) (.skip))
    (.skip)) (.skip)) (.skip))) (.sx (.sy (.sx (.sy (.sx (.sx (.sy (.leaf ⟨511, 16, 253947, 28309, 16, 33936,
    ⟨[[(538682851328, 0)], [(8521047343104, 0)]], 3, 4⟩, ⟨[[(390927359972, 0), (5407888749491, 0), (0, 1899755815),
    (8138132, 0), (36038, 0)], [(385821275028, 0), (3695083776, 0), (35514966, 0), (266173, 0), (1487, 0)],
    [(1585851708, 0), (38626599, 0), (458376, 0), (3520, 0), (20, 0)], [(6914500, 0), (168525, 0), (1993, 0), (15,
    0)]], 3, 4⟩, 1099511627776, 0, 44128, ⟨[[(19925857985526, 0), (0, 2140150284), (17140, 0), (10, 0)], [(81046347,
    0), (69557, 0), (42, 0)], [(2590, 0), (7, 0)]], 3, 4⟩, 68719476736, 6333,
    2958324949771006796983007742407970957987265458703703638906927639806342646315155438126838728997, lc0⟩) (.skip))
    (.skip)) (.skip)) (.skip)) (.skip)) (.skip)) (.skip))
theorem c28 : checkC job ⟨6, 8, 8, 10, 9, 13⟩ 3 100 lims t28 6 2 2048 87 3 64 = true := by decide +kernel

def t29 : CTree :=
  .sx (.sx (.leaf ⟨15, 16, 126974, 2055, 16, 2428, ⟨[[(549487378432, 0)], [(8521080897536, 0)]], 3, 4⟩, ⟨[[(0,
    379803431726), (5495957508172, 0), (0, 44366443048), (384297921, 0), (0, 1368141)], [(52927691370, 0),
    (3339474839, 0), (231407737, 0), (22229399, 0), (1863830, 0)], [(787099339, 0), (292792762, 0), (53066141, 0),
    (6226457, 0), (531341, 0)], [(35511858, 0), (12982828, 0), (2303405, 0), (264190, 0), (22016, 0)]], 3, 4⟩,
    1099511627776, 0, 206739855, ⟨[[(18988964389993, 0), (0, 30362715029), (197947, 0), (6446, 0), (19, 0)],
    [(224002675, 0), (2848347, 0), (23700, 0), (148, 0), (1, 0)], [(27939, 0), (908, 0), (14, 0)]], 3, 4⟩,
    68719476736, 628335,
    3707394832946451486485757952131433967907176942765799037061313428334644219459167537085881387109, lc0⟩) (.sy (.leaf
    ⟨46, 16, 126974, 4010, 16, 4756, ⟨[[(548950507520, 0)], [(8521080897536, 0)]], 3, 4⟩, ⟨[[(196422501289, 0),
    (5529690992212, 0), (0, 21998044006), (127020553, 0), (1011826, 0)], [(103705946487, 0), (4398965871, 0),
    (229108431, 0), (12442148, 0), (533347, 0)], [(1359218934, 0), (254996640, 0), (23305876, 0), (1378769, 0),
    (59312, 0)], [(40018774, 0), (7435181, 0), (670385, 0), (39075, 0), (1655, 0)]], 3, 4⟩, 1099511627776, 0,
    28536920, ⟨[[(19233415354122, 0), (0, 15461601543), (181973, 0), (1320, 0), (2, 0)], [(204392731, 0), (1300244,
    0), (5513, 0), (18, 0)], [(21619, 0), (366, 0), (3, 0)]], 3, 4⟩, 68719476736, 131493,
    2468131543892259251010136299024194106139770484540860346446542797831985929375455595318609573788, lc0⟩) (.sx (.leaf
    ⟨77, 16, 253947, 4257, 16, 5012, ⟨[[(548078092288, 0)], [(8521047343104, 0)]], 3, 4⟩, ⟨[[(0, 33094284732),
    (5556124729138, 0), (0, 20981061299), (153458691, 0), (2308901, 0)], [(70610876942, 0), (4035487615, 0),
    (258728933, 0), (14255519, 0), (595240, 0)], [(991012109, 0), (180697487, 0), (16022820, 0), (919383, 0), (38360,
    0)], [(15787274, 0), (2840038, 0), (247940, 0), (13993, 0), (574, 0)]], 3, 4⟩, 1099511627776, 0, 40341458,
    ⟨[[(18774653187346, 0), (0, 14670018002), (232674, 0), (1262, 0), (2, 0)], [(123808384, 0), (791915, 0), (3278,
    0), (10, 0)], [(8829, 0), (137, 0), (1, 0)]], 3, 4⟩, 68719476736, 61330,
    3033440687778743676508113546272162921752997371899212117100307162157726082386186632237989104714, lc0⟩) (.leaf
    ⟨108, 16, 253947, 4238, 16, 4989, ⟨[[(547407003648, 0)], [(8521047343104, 0)]], 3, 4⟩, ⟨[[(0, 323591192954),
    (5549754444090, 0), (0, 19583628972), (225048941, 0), (5315841, 0)], [(78932871305, 0), (5591611259, 0),
    (396982466, 0), (22179996, 0), (925397, 0)], [(1175042331, 0), (213792345, 0), (18910918, 0), (1082310, 0),
    (45038, 0)], [(15714835, 0), (2827007, 0), (246802, 0), (13929, 0), (571, 0)]], 3, 4⟩, 1099511627776, 0,
    76676332, ⟨[[(18770623814588, 0), (0, 14712490812), (340906, 0), (1607, 0), (3, 0)], [(124787269, 0), (807694,
    0), (3387, 0), (11, 0)], [(8906, 0), (138, 0), (1, 0)]], 3, 4⟩, 68719476736, 77047,
    3564703629842496871850385034074456285943652661117171211675125185153341130396618116456846362412, lc0⟩)))) (.sy
    (.sx (.leaf ⟨77, 16, 126974, 3986, 16, 4727, ⟨[[(548413636608, 0)], [(8521080897536, 0)]], 3, 4⟩,
    ⟨[[(135558557002, 0), (5517989954580, 0), (0, 20539800557), (200122521, 0), (4174509, 0)], [(115790230607, 0),
    (6754389884, 0), (445003857, 0), (25193353, 0), (1080648, 0)], [(1828228515, 0), (342119992, 0), (31159343, 0),
    (1836406, 0), (78688, 0)], [(39774840, 0), (7389860, 0), (666299, 0), (38837, 0), (1645, 0)]], 3, 4⟩,
    1099511627776, 0, 72685414, ⟨[[(19232771466510, 0), (0, 15515223309), (362601, 0), (1925, 0), (4, 0)],
    [(206335551, 0), (1336258, 0), (5786, 0), (19, 0)], [(21807, 0), (371, 0), (3, 0)]], 3, 4⟩, 68719476736, 91304,
    2864610280701260750049139292243356439605506207451996353575109367180894090601210119045922779472, lc0⟩) (.sy (.leaf
    ⟨108, 16, 126974, 7766, 16, 9226, ⟨[[(547876765696, 0)], [(8521080897536, 0)]], 3, 4⟩, ⟨[[(5723095945, 0),
    (5472491104767, 0), (0, 9560660971), (68497500, 0), (922863, 0)], [(232373343429, 0), (7735210839, 0),
    (273564678, 0), (7868586, 0), (169860, 0)], [(3396331609, 0), (319723898, 0), (14647498, 0), (434192, 0), (9357,
    0)], [(58682241, 0), (5496407, 0), (249837, 0), (7341, 0), (157, 0)]], 3, 4⟩, 1099511627776, 0, 6225901,
    ⟨[[(19348152965717, 0), (0, 7931658417), (129407, 0), (320, 0)], [(198407490, 0), (654869, 0), (1460, 0), (2,
    0)], [(19355, 0), (170, 0), (1, 0)]], 3, 4⟩, 68719476736, 87213,
    2545320010304010020986351539030457452788558037085282106391054397936536575347952355741919204873, lc0⟩) (.sx (.leaf
    ⟨201, 16, 253947, 8067, 16, 9548, ⟨[[(545393737728, 0)], [(8521047343104, 0)]], 3, 4⟩, ⟨[[(415720461400, 0),
    (5541465909020, 0), (0, 8819823940), (88201100, 0), (1339777, 0)], [(144361362234, 0), (5671319053, 0),
    (212363875, 0), (6077656, 0), (129291, 0)], [(1459681693, 0), (135381956, 0), (6105863, 0), (178160, 0), (3779,
    0)], [(13255197, 0), (1221346, 0), (54613, 0), (1579, 0), (33, 0)]], 3, 4⟩, 1099511627776, 0, 7523273,
    ⟨[[(19117043238390, 0), (0, 7661512298), (136703, 0), (309, 0)], [(109138117, 0), (358846, 0), (785, 0), (1, 0)],
    [(6224, 0), (52, 0)]], 3, 4⟩, 68719476736, 61235,
    2312086438661242053465541360260578347301645743388788982699791618739829950457004963525151135836, lc0⟩) (.sy (.leaf
    ⟨232, 16, 253947, 15743, 16, 18649, ⟨[[(544722649088, 0)], [(8521047343104, 0)]], 3, 4⟩, ⟨[[(305068223202, 0),
    (5459888583127, 0), (0, 4084069508), (25550916, 0), (206109, 0)], [(287165706506, 0), (5928449997, 0),
    (113194806, 0), (1628348, 0), (17374, 0)], [(2750581510, 0), (127963065, 0), (2894811, 0), (42366, 0), (451, 0)],
    [(22541558, 0), (1042739, 0), (23408, 0), (340, 0), (4, 0)]], 3, 4⟩, 1099511627776, 0, 533819,
    ⟨[[(19172669699520, 0), (0, 3917957248), (40409, 0), (46, 0)], [(107089008, 0), (179893, 0), (202, 0)], [(5882,
    0), (25, 0)]], 3, 4⟩, 68719476736, 19836,
    2654191326754266914660036013793731030369200612013569818409377079402387874445543032540666925736, lc0⟩) (.sx (.leaf
    ⟨449, 16, 507886, 16192, 16, 19145, ⟨[[(532240400384, 0)], [(8520913125376, 0)]], 3, 4⟩, ⟨[[(162727685932, 0),
    (5550312033156, 0), (0, 3817321376), (29916767, 0), (250947, 0)], [(164261259128, 0), (3668721973, 0), (71426951,
    0), (1023306, 0), (10838, 0)], [(909354530, 0), (41987837, 0), (942464, 0), (13685, 0), (144, 0)], [(3813668, 0),
    (174986, 0), (3896, 0), (56, 0), (1, 0)]], 3, 4⟩, 1099511627776, 0, 594100, ⟨[[(19056263229945, 0), (0,
    3815413749), (40754, 0), (44, 0)], [(56239383, 0), (93438, 0), (103, 0)], [(1668, 0), (7, 0)]], 3, 4⟩,
    68719476736, 10234,
    3574569487965914134101515643334067504132352022438222359353480136617617225718129249012510128528, lc0⟩)
    (.skip)))))) (.sx (.sy (.sx (.leaf ⟨139, 16, 253947, 8311, 16, 9802, ⟨[[(546735915008, 0)], [(8521047343104,
    0)]], 3, 4⟩, ⟨[[(546365699242, 0), (5531549529802, 0), (0, 9356900767), (68821419, 0), (928526, 0)],
    [(155392477994, 0), (5848261191, 0), (213520279, 0), (6020272, 0), (126383, 0)], [(2037991967, 0), (186523341,
    0), (8299639, 0), (238936, 0), (5001, 0)], [(23547966, 0), (2135015, 0), (93941, 0), (2672, 0), (55, 0)]], 3, 4⟩,
    1099511627776, 0, 5574995, ⟨[[(18890349476671, 0), (0, 7478925693), (104247, 0), (240, 0)], [(119111788, 0),
    (388785, 0), (829, 0), (1, 0)], [(7878, 0), (63, 0)]], 3, 4⟩, 68719476736, 57876,
    2489023909303282048519124700841479133537371934012979431639704738423557975655170034598871497180, lc0⟩) (.leaf
    ⟨170, 16, 253947, 8254, 16, 9734, ⟨[[(546064826368, 0)], [(8521047343104, 0)]], 3, 4⟩, ⟨[[(471995742704, 0),
    (5519505302577, 0), (0, 8305989056), (96224299, 0), (1507083, 0)], [(171627755523, 0), (7391294433, 0),
    (282453375, 0), (8004109, 0), (167870, 0)], [(2304469154, 0), (210671829, 0), (9361530, 0), (269122, 0), (5624,
    0)], [(23384643, 0), (2120207, 0), (93289, 0), (2654, 0), (55, 0)]], 3, 4⟩, 1099511627776, 0, 8509573,
    ⟨[[(18889114141224, 0), (0, 7518801107), (132576, 0), (288, 0)], [(119860268, 0), (396551, 0), (858, 0), (1, 0)],
    [(7923, 0), (64, 0)]], 3, 4⟩, 68719476736, 68579,
    3614221989438843448987569467720929326676241595417930901052482956354647466209496925570533295129, lc0⟩)) (.sx (.sy
    (.leaf ⟨139, 16, 253947, 16494, 16, 19400, ⟨[[(546735915008, 0)], [(8521047343104, 0)]], 3, 4⟩, ⟨[[(541322220208,
    0), (5395159582901, 0), (0, 4106302311), (22069863, 0), (168477, 0)], [(369391477644, 0), (8101097955, 0),
    (154478572, 0), (2168781, 0), (22513, 0)], [(6074914304, 0), (274846939, 0), (6043352, 0), (85967, 0), (889, 0)],
    [(69916204, 0), (3131951, 0), (68086, 0), (957, 0), (10, 0)]], 3, 4⟩, 1099511627776, 0, 463933,
    ⟨[[(18720477272965, 0), (0, 3776197819), (30987, 0), (34, 0)], [(128389563, 0), (216556, 0), (236, 0)], [(9433,
    0), (38, 0)]], 3, 4⟩, 68719476736, 21530,
    2251677863538607735239575063810869448876189924178477088588121806238059535968879613618441745113, lc0⟩) (.sx (.leaf
    ⟨263, 16, 507886, 17068, 16, 20039, ⟨[[(539488157696, 0)], [(8520913125376, 0)]], 3, 4⟩, ⟨[[(0, 356152574064),
    (5514408787782, 0), (0, 3987656204), (24783332, 0), (194906, 0)], [(210931061981, 0), (4910071729, 0), (94751300,
    0), (1323860, 0), (13645, 0)], [(1985100161, 0), (89164344, 0), (1946144, 0), (27480, 0), (282, 0)], [(11798599,
    0), (524382, 0), (11310, 0), (158, 0), (2, 0)]], 3, 4⟩, 1099511627776, 0, 473320, ⟨[[(18607194384021, 0), (0,
    3655585188), (30191, 0), (31, 0)], [(67443298, 0), (111573, 0), (118, 0)], [(2653, 0), (10, 0)]], 3, 4⟩,
    68719476736, 12238,
    2322466073783613320041148767333433582972804364948481725270293831332005938152425277617977402230, lc0⟩) (.skip)))
    (.sy (.sx (.sy (.leaf ⟨325, 16, 507886, 32779, 16, 38568, ⟨[[(537072238592, 0)], [(8520913125376, 0)]], 3, 4⟩,
    ⟨[[(128316674824, 0), (5400490179379, 0), (0, 1846690741), (6946888, 0), (28521, 0)], [(391048585470, 0),
    (4609737208, 0), (44917827, 0), (316439, 0), (1644, 0)], [(3113407105, 0), (70498813, 0), (775765, 0), (5522, 0),
    (29, 0)], [(16244376, 0), (364560, 0), (3970, 0), (28, 0)]], 3, 4⟩, 1099511627776, 0, 33465, ⟨[[(18745793753748,
    0), (0, 1897101424), (9083, 0), (5, 0)], [(63776380, 0), (54203, 0), (30, 0)], [(2304, 0), (5, 0)]], 3, 4⟩,
    68719476736, 4269,
    2958335614219770733668476637305625224733063756113354660652507038220729306745515106723530748309, lc0⟩) (.skip))
    (.skip)) (.skip)))) (.sy (.sx (.sy (.sx (.leaf ⟨387, 16, 507886, 16426, 16, 19387, ⟨[[(534656319488, 0)],
    [(8520913125376, 0)]], 3, 4⟩, ⟨[[(53220849220, 0), (5543388885749, 0), (0, 3932284201), (27659635, 0), (226372,
    0)], [(173030036399, 0), (3859822224, 0), (74729712, 0), (1063478, 0), (11187, 0)], [(1091586506, 0), (50052861,
    0), (1115585, 0), (16085, 0), (169, 0)], [(5080170, 0), (231226, 0), (5107, 0), (73, 0), (1, 0)]], 3, 4⟩,
    1099511627776, 0, 539409, ⟨[[(18942147594910, 0), (0, 3771415325), (36940, 0), (40, 0)], [(58800948, 0), (97432,
    0), (106, 0)], [(1878, 0), (8, 0)]], 3, 4⟩, 68719476736, 12315,
    2964889746401309691081386769759845707295544937473775666967745038482166719691200317184980604158, lc0⟩) (.skip))
    (.skip)) (.skip)) (.skip))))
theorem c29 : checkC job ⟨6, 8, 8, 10, 9, 13⟩ 3 100 lims t29 2 2 4096 93 3 64 = true := by decide +kernel

def t30 : CTree :=
  .sy (.sx (.sy (.sx (.sy (.leaf ⟨139, 16, 126974, 14920, 16, 17740, ⟨[[(547339894784, 0)], [(8521080897536, 0)]], 3,
    4⟩, ⟨[[(0, 81264852696), (5320701420223, 0), (0, 4170859244), (23428993, 0), (185813, 0)], [(475694734636, 0),
    (9060606738, 0), (169871367, 0), (2469004, 0), (26728, 0)], [(6845253516, 0), (323152925, 0), (7422505, 0),
    (110301, 0), (1191, 0)], [(98018365, 0), (4609438, 0), (105195, 0), (1552, 0), (17, 0)]], 3, 4⟩, 1099511627776,
    0, 546574, ⟨[[(19406470449164, 0), (0, 4115531034), (45320, 0), (54, 0)], [(195286925, 0), (335944, 0), (393,
    0)], [(18281, 0), (84, 0)]], 3, 4⟩, 68719476736, 41166,
    2599608343677523317074392726916080293663767900894223303421406453913299513083537512969794881637, lc0⟩) (.sx (.leaf
    ⟨263, 16, 253947, 15547, 16, 18450, ⟨[[(544051560448, 0)], [(8521047343104, 0)]], 3, 4⟩, ⟨[[(0, 417532931594),
    (5472995827507, 0), (0, 4073057139), (26486201, 0), (216528, 0)], [(269875090453, 0), (5490298423, 0),
    (104853987, 0), (1517803, 0), (16310, 0)], [(2258765707, 0), (105840176, 0), (2412092, 0), (35563, 0), (381, 0)],
    [(16876912, 0), (787126, 0), (17816, 0), (261, 0), (3, 0)]], 3, 4⟩, 1099511627776, 0, 555204, ⟨[[(19286796058907,
    0), (0, 3957107190), (43450, 0), (49, 0)], [(102476907, 0), (172097, 0), (195, 0)], [(5210, 0), (23, 0)]], 3, 4⟩,
    68719476736, 19422,
    2739729197945409640607657182859252109821758276840126801359056757608449010467056256978871973400, lc0⟩) (.sy (.leaf
    ⟨294, 16, 253947, 29899, 16, 35498, ⟨[[(543380471808, 0)], [(8521047343104, 0)]], 3, 4⟩, ⟨[[(415363888408, 0),
    (5298497331031, 0), (0, 1808207019), (7568402, 0), (32478, 0)], [(537700119361, 0), (5783360417, 0), (56323934,
    0), (409202, 0), (2202, 0)], [(4413950819, 0), (103573093, 0), (1181943, 0), (8726, 0), (47, 0)], [(30275318, 0),
    (707464, 0), (8023, 0), (59, 0)]], 3, 4⟩, 1099511627776, 0, 40390, ⟨[[(19317906392906, 0), (0, 2054272317),
    (13070, 0), (8, 0)], [(101583660, 0), (88743, 0), (52, 0)], [(5054, 0), (12, 0)]], 3, 4⟩, 68719476736, 8390,
    3686967279510519387643849970787431882937824377109136756916161705399849637454451879045517461826, lc0⟩) (.skip))))
    (.sy (.sx (.sy (.leaf ⟨325, 16, 253947, 29628, 16, 35242, ⟨[[(542709383168, 0)], [(8521047343104, 0)]], 3, 4⟩,
    ⟨[[(0, 149421321848), (5325934658644, 0), (0, 1853163968), (7514348, 0), (32251, 0)], [(499829556731, 0),
    (5211405347, 0), (50514675, 0), (369146, 0), (2001, 0)], [(3575296777, 0), (84517045, 0), (971909, 0), (7230, 0),
    (39, 0)], [(22680973, 0), (534409, 0), (6111, 0), (45, 0)]], 3, 4⟩, 1099511627776, 0, 39919, ⟨[[(19435538819211,
    0), (0, 2067989122), (13565, 0), (8, 0)], [(97068407, 0), (84355, 0), (50, 0)], [(4450, 0), (10, 0)]], 3, 4⟩,
    68719476736, 4501,
    3318788872568644591475433865122424249461097248173764070137347753018869980141941040180705546711, lc0⟩) (.skip))
    (.skip)) (.skip))) (.sx (.sy (.sx (.sx (.leaf ⟨511, 16, 507886, 15971, 16, 18918, ⟨[[(529824481280, 0)],
    [(8520913125376, 0)]], 3, 4⟩, ⟨[[(200641867648, 0), (5557882746030, 0), (0, 3771426666), (31271077, 0), (266171,
    0)], [(154333416396, 0), (3410688653, 0), (66544058, 0), (959501, 0), (10233, 0)], [(749014388, 0), (34832220,
    0), (787570, 0), (11520, 0), (122, 0)], [(2858347, 0), (132223, 0), (2968, 0), (43, 0)]], 3, 4⟩, 1099511627776,
    0, 628600, ⟨[[(19171651363590, 0), (0, 3857984314), (44037, 0), (48, 0)], [(53765579, 0), (89435, 0), (99, 0)],
    [(1477, 0), (6, 0)]], 3, 4⟩, 68719476736, 12705,
    3842295498748506300327149166252389739895258684269214653377768614830768925384586398899812917879, lc0⟩) (.skip))
    (.skip)) (.skip)) (.skip))) (.skip)) (.skip)
theorem c30 : checkC job ⟨6, 8, 8, 10, 9, 13⟩ 3 100 lims t30 6 2 4096 93 3 64 = true := by decide +kernel

def t31 : CTree :=
  .skip
theorem c31 : checkC job ⟨6, 8, 8, 10, 9, 13⟩ 3 100 lims t31 6 2 2048 93 3 64 = true := by decide +kernel

def t32 : CTree :=
  .skip
theorem c32 : checkC job ⟨6, 8, 8, 10, 9, 13⟩ 3 100 lims t32 6 2 1024 45 3 32 = true := by decide +kernel

def t33 : CTree :=
  .skip
theorem c33 : checkC job ⟨6, 8, 8, 10, 9, 13⟩ 3 100 lims t33 6 2 512 45 3 32 = true := by decide +kernel

def t34 : CTree :=
  .skip
theorem c34 : checkC job ⟨6, 8, 8, 10, 9, 13⟩ 3 100 lims t34 6 2 256 45 3 32 = true := by decide +kernel

def t35 : CTree :=
  .skip
theorem c35 : checkC job ⟨6, 8, 8, 10, 9, 13⟩ 3 100 lims t35 6 2 128 21 3 16 = true := by decide +kernel

def t36 : CTree :=
  .skip
theorem c36 : checkC job ⟨6, 8, 8, 10, 9, 13⟩ 3 100 lims t36 6 2 64 21 3 16 = true := by decide +kernel

def t37 : CTree :=
  .skip
theorem c37 : checkC job ⟨6, 8, 8, 10, 9, 13⟩ 3 100 lims t37 6 2 32 21 3 16 = true := by decide +kernel

def t38 : CTree :=
  .skip
theorem c38 : checkC job ⟨6, 8, 8, 10, 9, 13⟩ 3 100 lims t38 6 2 16 21 3 16 = true := by decide +kernel

def t39 : CTree :=
  .skip
theorem c39 : checkC job ⟨6, 8, 8, 10, 9, 13⟩ 3 100 lims t39 6 2 8 21 3 16 = true := by decide +kernel

def t40 : CTree :=
  .skip
theorem c40 : checkC job ⟨6, 8, 8, 10, 9, 13⟩ 3 100 lims t40 6 2 4 9 3 8 = true := by decide +kernel

def t41 : CTree :=
  .skip
theorem c41 : checkC job ⟨6, 8, 8, 10, 9, 13⟩ 3 100 lims t41 6 2 2 9 3 8 = true := by decide +kernel

end PyX.Kron.T2a
