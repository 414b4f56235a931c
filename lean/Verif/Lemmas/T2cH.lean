import Verif.Lemmas.T2cJob

/-!
# Temperature from pressure and enthalpy in subregion 2c, part H of the certificate
-/

namespace PyX.Kron.T2c

set_option Elab.async false

def t118 : CTree :=
  .sx (.sx (.sy (.sx (.leaf ⟨2885, 16, 82, 540, 16, 1287, ⟨[[(412316860416, 0)], [(352187318272, 0)]], 3, 4⟩, ⟨[[(0,
    399740072539), (2779179704108, 0), (16410891301, 0), (282590253, 0), (6890683, 0)], [(165792726097, 0),
    (2621270655, 0), (54624404, 0), (1612707, 0), (52638, 0)], [(66777740, 0), (3121191, 0), (134215, 0), (5720, 0),
    (212, 0)], [(51185, 0), (4624, 0), (296, 0), (15, 0), (1, 0)]], 3, 4⟩, 1099511627776, 0, 623916111,
    ⟨[[(40632592499610, 0), (0, 17141822728), (45711777, 0), (1156, 0), (0, 17)], [(8098947662, 0), (6441839, 0), (0,
    26112), (0, 17)], [(0, 3185251), (0, 6467), (17, 0)], [(1810, 0), (5, 0)]], 3, 4⟩, 68719476736, 240435,
    3606638406084770099842023248600186396614485832409003457987671274878608836980298847270513861206, lc0⟩) (.leaf
    ⟨2916, 16, 82, 501, 16, 1163, ⟨[[(137438953472, 0)], [(352187318272, 0)]], 3, 4⟩, ⟨[[(298855459174, 0),
    (2769147825780, 0), (20973390317, 0), (457478199, 0), (13126986, 0)], [(162891337535, 0), (3053931426, 0),
    (82241030, 0), (2938559, 0), (103451, 0)], [(77091927, 0), (4493750, 0), (235170, 0), (11015, 0), (421, 0)],
    [(72803, 0), (7892, 0), (561, 0), (29, 0), (1, 0)]], 3, 4⟩, 1099511627776, 0, 1107546677, ⟨[[(40645646664806, 0),
    (0, 17321739469), (55013687, 0), (0, 579), (0, 30)], [(7988575251, 0), (5889670, 0), (0, 31598), (0, 23)], [(0,
    3107073), (0, 6110), (20, 0)], [(1727, 0), (5, 0)]], 3, 4⟩, 68719476736, 294539,
    4907492831970914082160348188910771634438476891105450672031289412444270257076533193611529904586, lc0⟩)) (.sx (.sy
    (.leaf ⟨2885, 16, 82, 695, 16, 1622, ⟨[[(412316860416, 0)], [(352187318272, 0)]], 3, 4⟩, ⟨[[(0, 164393312328),
    (1857039583615, 0), (6699427661, 0), (71474638, 0), (1004177, 0)], [(225424376006, 0), (2037693918, 0),
    (26611776, 0), (465346, 0), (8012, 0)], [(106069378, 0), (3005132, 0), (76919, 0), (1760, 0), (33, 0)], [(100335,
    0), (5319, 0), (185, 0), (5, 0)]], 3, 4⟩, 1099511627776, 0, 1036688715, ⟨[[(40442183011443, 0), (0, 12769970856),
    (28795854, 0), (170, 0), (0, 7)], [(8169304495, 0), (4631139, 0), (0, 16819), (0, 9)], [(0, 3257095), (0, 4816),
    (11, 0)], [(1870, 0), (4, 0)]], 3, 4⟩, 68719476736, 190780,
    3619921460081293628161529889520826551643849820867221325646840571078415519772296487183960379489, lc0⟩) (.leaf
    ⟨2885, 16, 82, 664, 16, 1528, ⟨[[(412316860416, 0)], [(352187318272, 0)]], 3, 4⟩, ⟨[[(384077425649, 0),
    (1833334402114, 0), (7759114226, 0), (95506521, 0), (1436634, 0)], [(224885841107, 0), (2275084301, 0),
    (34856834, 0), (665592, 0), (11683, 0)], [(119918881, 0), (3909569, 0), (110098, 0), (2593, 0), (48, 0)],
    [(131919, 0), (7656, 0), (275, 0), (7, 0)]], 3, 4⟩, 1099511627776, 0, 1511888982, ⟨[[(40319215096461, 0), (0,
    12953472023), (32448442, 0), (0, 159), (0, 10)], [(8213272949, 0), (4561608, 0), (0, 19253), (0, 11)], [(0,
    3303440), (0, 4877), (13, 0)], [(1909, 0), (4, 0)]], 3, 4⟩, 68719476736, 172149,
    4663449426135558532972842610329745236103093419634019706150126779044414025772635835107967196079, lc0⟩)) (.sy
    (.leaf ⟨2916, 16, 82, 637, 16, 1444, ⟨[[(137438953472, 0)], [(352187318272, 0)]], 3, 4⟩, ⟨[[(0, 8061544588),
    (1857060689206, 0), (9047310576, 0), (122393361, 0), (1935414, 0)], [(221772589361, 0), (2494166774, 0),
    (42784847, 0), (867807, 0), (15679, 0)], [(128232634, 0), (4633085, 0), (139341, 0), (3394, 0), (64, 0)],
    [(152591, 0), (9452, 0), (352, 0), (9, 0)]], 3, 4⟩, 1099511627776, 0, 1843983432, ⟨[[(40445052412684, 0), (0,
    12884315310), (35655056, 0), (0, 1080), (0, 13)], [(8054870292, 0), (4122536, 0), (0, 21047), (0, 13)], [(0,
    3177628), (0, 4515), (14, 0)], [(1785, 0), (4, 0)]], 3, 4⟩, 68719476736, 237992,
    5163601922472199754085107027992392971023814601217539459842095283515964029176624979438276316163, lc0⟩) (.sx (.sy
    (.leaf ⟨5852, 16, 165, 1286, 16, 2903, ⟨[[(377957122048, 0)], [(354334801920, 0)]], 3, 4⟩, ⟨[[(140953590137, 0),
    (1889283365479, 0), (4879257244, 0), (34482435, 0), (275894, 0)], [(228153984527, 0), (1339937532, 0), (12096612,
    0), (124949, 0), (1126, 0)], [(69693412, 0), (1318516, 0), (20256, 0), (247, 0), (2, 0)], [(43914, 0), (1388, 0),
    (26, 0)]], 3, 4⟩, 1099511627776, 0, 218597773, ⟨[[(40348242517413, 0), (0, 6329463341), (8860267, 0), (0, 139),
    (0, 1)], [(4033115208, 0), (1008310, 0), (0, 2627), (0, 1)], [(0, 798168), (0, 556), (1, 0)], [(225, 0)]], 3, 4⟩,
    68719476736, 61479,
    3985401195355585655146299567426573953238755106912403309357355585828578575212827405248612453665, lc0⟩) (.skip))
    (.skip))))) (.sy (.sx (.sy (.leaf ⟨2947, 16, 82, 646, 16, 1468, ⟨[[(0, 137438953472)], [(352187318272, 0)]], 3,
    4⟩, ⟨[[(333558938610, 0), (1907698960610, 0), (8857470446, 0), (113778436, 0), (1785767, 0)], [(219786241332, 0),
    (2391617269, 0), (38814810, 0), (774447, 0), (14226, 0)], [(118625559, 0), (4086182, 0), (120505, 0), (2975, 0),
    (58, 0)], [(130093, 0), (7923, 0), (299, 0), (8, 0)]], 3, 4⟩, 1099511627776, 0, 1507758242, ⟨[[(40711760563028,
    0), (0, 12659687257), (33886474, 0), (0, 1305), (0, 13)], [(7856794213, 0), (3852073, 0), (0, 19507), (0, 11)],
    [(0, 3011986), (0, 4155), (12, 0)], [(1633, 0), (3, 0)]], 3, 4⟩, 68719476736, 207155,
    4641638050610890442189450136095480772950149254803750312311494394205519838049706109599661112993, lc0⟩) (.sx (.leaf
    ⟨5914, 16, 165, 944, 16, 2126, ⟨[[(240518168576, 0)], [(354334801920, 0)]], 3, 4⟩, ⟨[[(203295443036, 0),
    (2839001834463, 0), (14633400991, 0), (204476123, 0), (3305696, 0)], [(165764339273, 0), (1949010974, 0),
    (34811586, 0), (723971, 0), (13322, 0)], [(49048266, 0), (1841036, 0), (56893, 0), (1414, 0), (27, 0)], [(29724,
    0), (1893, 0), (72, 0), (2, 0)]], 3, 4⟩, 1099511627776, 0, 179755221, ⟨[[(40576498602468, 0), (0, 8488730217),
    (16219332, 0), (0, 499), (0, 3)], [(3939477046, 0), (1265413, 0), (0, 4717), (0, 2)], [(0, 759580), (0, 697), (2,
    0)], [(207, 0)]], 3, 4⟩, 68719476736, 74973,
    3407302450328830928091161440671142419841779828307663132879349924767375441209741025840153009029, lc0⟩) (.sy (.leaf
    ⟨5945, 16, 165, 1240, 16, 2761, ⟨[[(171798691840, 0)], [(354334801920, 0)]], 3, 4⟩, ⟨[[(235037056962, 0),
    (1942237032936, 0), (5627698713, 0), (42400677, 0), (354131, 0)], [(224221137753, 0), (1444514022, 0), (14128561,
    0), (153198, 0), (1430, 0)], [(72009984, 0), (1470672, 0), (23819, 0), (301, 0), (3, 0)], [(47116, 0), (1573, 0),
    (31, 0)]], 3, 4⟩, 1099511627776, 0, 241313857, ⟨[[(40608401797075, 0), (0, 6239190572), (9518928, 0), (0, 313),
    (0, 1)], [(3905654352, 0), (864227, 0), (0, 2777), (0, 1)], [(0, 747787), (0, 492), (1, 0)], [(202, 0)]], 3, 4⟩,
    68719476736, 44314,
    3699701400890929515211381832604831315792042505639152676331698855627864809073923199253118977402, lc0⟩) (.skip))))
    (.sy (.sx (.leaf ⟨5976, 16, 165, 901, 16, 1999, ⟨[[(103079215104, 0)], [(354334801920, 0)]], 3, 4⟩, ⟨[[(0,
    539814818377), (2865696458014, 0), (16894226193, 0), (256597510, 0), (4329580, 0)], [(162867724412, 0),
    (2129954900, 0), (42115533, 0), (922807, 0), (17428, 0)], [(52313094, 0), (2160935, 0), (70769, 0), (1811, 0),
    (36, 0)], [(34155, 0), (2307, 0), (91, 0), (2, 0)]], 3, 4⟩, 1099511627776, 0, 220132120, ⟨[[(40701287216412, 0),
    (0, 8465145852), (17987634, 0), (0, 942), (0, 4)], [(3863525528, 0), (1118737, 0), (0, 5216), (0, 2)], [(0,
    731517), (0, 644), (2, 0)], [(194, 0)]], 3, 4⟩, 68719476736, 82066,
    4480335260904569258634876271324414665500162407975783351696070894722927387910937414919263233372, lc0⟩) (.skip))
    (.skip))) (.sx (.sy (.sx (.sy (.sx (.leaf ⟨11813, 16, 330, 1867, 16, 4168, ⟨[[(0, 34359738368)], [(354334801920,
    0)]], 3, 4⟩, ⟨[[(0, 38530227095), (2872441731191, 0), (8221337639, 0), (61701941, 0), (509857, 0)],
    [(169155719076, 0), (1077524683, 0), (10476073, 0), (112450, 0), (1036, 0)], [(27378851, 0), (555290, 0), (8900,
    0), (111, 0), (1, 0)], [(9054, 0), (299, 0), (6, 0)]], 3, 4⟩, 1099511627776, 0, 23856254, ⟨[[(40477383889454, 0),
    (0, 4196964841), (4225682, 0), (0, 77)], [(1980592143, 0), (305208, 0), (0, 623)], [(0, 192502), (0, 86)], [(26,
    0)]], 3, 4⟩, 68719476736, 35982,
    3923892504282293430668454497430581033642773546443420886693919050222999580798692919591618925793, lc0⟩) (.skip))
    (.skip)) (.skip)) (.skip)) (.skip)))) (.skip)
theorem c118 : checkC job ⟨6, 8, 8, 10, 9, 13⟩ 1 25 lims t118 368 48 32 213 3 512 = true := by decide +kernel

def t119 : CTree :=
  .skip
theorem c119 : checkC job ⟨6, 8, 8, 10, 9, 13⟩ 1 25 lims t119 464 48 32 105 3 256 = true := by decide +kernel

def t120 : CTree :=
  .sx (.out ⟨95, 16, 20, 897, 16, 608, ⟨[[], [(343597383680, 0)]], 1, 1⟩, ⟨[[(104589430368, 0), (0, 2427822783022)],
    [(0, 183027295308), (0, 4259298008)]], 1, 1⟩, 1099511627776, 0, 550608283322, ⟨[], 0, 0⟩, 0, 0, 0, lc0⟩ 0 1
    1115071841157) (.sx (.out ⟨235, 16, 40, 1078, 16, 741, ⟨[[], [(343597383680, 0)]], 1, 1⟩, ⟨[[(0, 150851198321),
    (0, 3393141601677)], [(0, 125366497892), (0, 3510932945)]], 1, 1⟩, 1099511627776, 0, 394155192596, ⟨[], 0, 0⟩, 0,
    0, 0, lc0⟩ 0 1 710600312067) (.out ⟨265, 16, 40, 960, 16, 667, ⟨[[], [(343597383680, 0)]], 1, 1⟩, ⟨[[(0,
    85449750665), (0, 3395529611789)], [(0, 123465202052), (0, 3998161503)]], 1, 1⟩, 1099511627776, 0, 545833414596,
    ⟨[], 0, 0⟩, 0, 0, 0, lc0⟩ 0 1 443749995361))
theorem c120 : checkC job ⟨6, 8, 8, 10, 9, 13⟩ 1 25 lims t120 176 48 32 111 3 256 = true := by decide +kernel

def t121 : CTree :=
  .sx (.sy (.out ⟨295, 16, 40, 1311, 16, 917, ⟨[[], [(343597383680, 0)]], 1, 1⟩, ⟨[[(237812559782, 0), (0,
    2565607315093)], [(0, 177948418593), (0, 3204475950)]], 1, 1⟩, 1099511627776, 0, 419746286872, ⟨[], 0, 0⟩, 0, 0,
    0, lc0⟩ 0 1 262162658742) (.leaf ⟨1327, 16, 41, 319, 16, 828, ⟨[[(412316860416, 0)], [(352187318272, 0)]], 3, 4⟩,
    ⟨[[(484557983465, 0), (2454338649820, 0), (13604433330, 0), (279690387, 0), (6801944, 0)], [(180173344212, 0),
    (3660097918, 0), (79643660, 0), (2294969, 0), (92292, 0)], [(113816370, 0), (6075034, 0), (263190, 0), (13730,
    0), (800, 0)], [(117348, 0), (11656, 0), (956, 0), (75, 0), (5, 0)]], 3, 4⟩, 1099511627776, 0, 2771943312,
    ⟨[[(39509009005622, 0), (0, 36808039458), (125251578, 0), (30680, 0), (0, 39)], [(18813399739, 0), (42306641, 0),
    (0, 157221), (0, 205)], [(0, 17711961), (0, 89874), (226, 0), (1, 0)], [(25739, 0), (172, 0)]], 3, 4⟩,
    68719476736, 5341584,
    4611367652093280129038088324442182199148772413206577245219817254975995125924885399894646509517, lc0⟩)) (.sy
    (.leaf ⟨1358, 16, 41, 311, 16, 802, ⟨[[(137438953472, 0)], [(352187318272, 0)]], 3, 4⟩, ⟨[[(174490371822, 0),
    (2553278657371, 0), (15614026558, 0), (323491617, 0), (8182315, 0)], [(173553005077, 0), (3712385608, 0),
    (84831795, 0), (2554704, 0), (108352, 0)], [(106549458, 0), (5973141, 0), (272254, 0), (14792, 0), (890, 0)],
    [(107806, 0), (11275, 0), (947, 0), (76, 0), (5, 0)]], 3, 4⟩, 1099511627776, 0, 2637716251, ⟨[[(40002369187675,
    0), (0, 36212649824), (128694635, 0), (26927, 0), (0, 54)], [(17861208242, 0), (37779825, 0), (0, 154779), (0,
    191)], [(0, 15715074), (0, 77104), (213, 0), (1, 0)], [(21081, 0), (141, 0)]], 3, 4⟩, 68719476736, 4613833,
    3773725447316700727100899037955997648231919125314624047042745788314151971975432623993698723598, lc0⟩) (.sx (.leaf
    ⟨2701, 16, 82, 412, 16, 1027, ⟨[[(0, 137438953472)], [(352187318272, 0)]], 3, 4⟩, ⟨[[(0, 473093843768),
    (3416850260937, 0), (26286045812, 0), (689976610, 0), (25174723, 0)], [(123233140749, 0), (2963865988, 0),
    (87015437, 0), (3821400, 0), (207691, 0)], [(45400173, 0), (3115981, 0), (202840, 0), (14511, 0), (942, 0)],
    [(30397, 0), (4365, 0), (478, 0), (42, 0), (3, 0)]], 3, 4⟩, 1099511627776, 0, 974258437, ⟨[[(39490615041189, 0),
    (0, 26318446091), (79730670, 0), (12305, 0), (0, 25)], [(9250204132, 0), (13860086, 0), (0, 50191), (0, 50)],
    [(0, 4259597), (0, 14729), (36, 0)], [(2967, 0), (14, 0)]], 3, 4⟩, 68719476736, 508928,
    4392627491951097469984985354752257400831001020467728286518118540685056487605194694432961602119, lc0⟩) (.sy (.leaf
    ⟨2732, 16, 82, 591, 16, 1453, ⟨[[(0, 412316860416)], [(352187318272, 0)]], 3, 4⟩, ⟨[[(0, 19169106784),
    (2568746168585, 0), (11370805032, 0), (168049158, 0), (3505333, 0)], [(180601483001, 0), (2358016412, 0),
    (39828314, 0), (1009414, 0), (29448, 0)], [(70554005, 0), (2734884, 0), (102245, 0), (3932, 0), (131, 0)],
    [(52481, 0), (4242, 0), (248, 0), (11, 0)]], 3, 4⟩, 1099511627776, 0, 603909413, ⟨[[(39627593022958, 0), (0,
    17674382153), (39162272, 0), (3600, 0), (0, 7)], [(9067152825, 0), (8786336, 0), (0, 24384), (0, 16)], [(0,
    4073829), (0, 9270), (17, 0)], [(2745, 0), (9, 0)]], 3, 4⟩, 68719476736, 349107,
    2822712207506009241097484665004755444154456756629811444735350872843923426780702129477807556960, lc0⟩) (.sy (.leaf
    ⟨2732, 16, 82, 748, 16, 1806, ⟨[[(0, 412316860416)], [(352187318272, 0)]], 3, 4⟩, ⟨[[(0, 103434339784),
    (1667264377564, 0), (4398125131, 0), (39130264, 0), (470126, 0)], [(238800585663, 0), (1734111470, 0), (17978697,
    0), (269205, 0), (4136, 0)], [(106086319, 0), (2454777, 0), (54383, 0), (1114, 0), (19, 0)], [(96667, 0), (4542,
    0), (141, 0), (3, 0)]], 3, 4⟩, 1099511627776, 0, 1012481481, ⟨[[(39441345376947, 0), (0, 13538444510), (25421247,
    0), (1703, 0), (0, 3)], [(9159149153, 0), (6640687, 0), (0, 16134), (0, 9)], [(0, 4171847), (0, 7149), (12, 0)],
    [(2836, 0), (7, 0)]], 3, 4⟩, 68719476736, 291883,
    3250297765516353531753337341821401298894157473905768507515865701588326248057783123515708091437, lc0⟩) (.leaf
    ⟨2732, 16, 82, 723, 16, 1725, ⟨[[(0, 412316860416)], [(352187318272, 0)]], 3, 4⟩, ⟨[[(217242027976, 0),
    (1647360464714, 0), (4983817704, 0), (50427603, 0), (651614, 0)], [(238707570989, 0), (1893951883, 0), (22778032,
    0), (373319, 0), (5854, 0)], [(117521289, 0), (3099997, 0), (75512, 0), (1589, 0), (26, 0)], [(123959, 0), (6340,
    0), (203, 0), (5, 0)]], 3, 4⟩, 1099511627776, 0, 1429780594, ⟨[[(39322219491079, 0), (0, 13697360453), (27912970,
    0), (1810, 0), (0, 4)], [(9217281828, 0), (6647935, 0), (0, 17947), (0, 10)], [(0, 4234873), (0, 7261), (13, 0)],
    [(2894, 0), (7, 0)]], 3, 4⟩, 68719476736, 301192,
    4671702402077921423904090726790445371721619835940060970494616910826476152899151870172982727196, lc0⟩)))))
theorem c121 : checkC job ⟨6, 8, 8, 10, 9, 13⟩ 1 25 lims t121 496 48 64 111 3 256 = true := by decide +kernel

def t122 : CTree :=
  .sy (.sx (.leaf ⟨2762, 16, 82, 397, 16, 985, ⟨[[(412316860416, 0)], [(352187318272, 0)]], 3, 4⟩, ⟨[[(0,
    237180981421), (3508522311836, 0), (28989937107, 0), (765420412, 0), (28624004, 0)], [(117203562560, 0),
    (2949585474, 0), (89472261, 0), (3995300, 0), (223017, 0)], [(41820694, 0), (2970173, 0), (195642, 0), (14161,
    0), (947, 0)], [(26978, 0), (3886, 0), (424, 0), (38, 0), (3, 0)]], 3, 4⟩, 1099511627776, 0, 986885108,
    ⟨[[(39990743575256, 0), (0, 26304317340), (83546387, 0), (10531, 0), (0, 33)], [(8784870415, 0), (12542053, 0),
    (0, 50321), (0, 48)], [(0, 3792165), (0, 12852), (35, 0)], [(2448, 0), (12, 0)]], 3, 4⟩, 68719476736, 524193,
    4170468740001510581586119382667582117972403035371302670110078266889086658892274749034857994206, lc0⟩) (.sy (.leaf
    ⟨2793, 16, 82, 579, 16, 1419, ⟨[[(137438953472, 0)], [(352187318272, 0)]], 3, 4⟩, ⟨[[(539917328174, 0),
    (2673570506270, 0), (12472668530, 0), (182303874, 0), (3818219, 0)], [(174175761172, 0), (2358607219, 0),
    (40249118, 0), (1012491, 0), (30061, 0)], [(65364116, 0), (2567806, 0), (94695, 0), (3657, 0), (126, 0)],
    [(45751, 0), (3625, 0), (210, 0), (10, 0)]], 3, 4⟩, 1099511627776, 0, 489841800, ⟨[[(40134092282067, 0), (0,
    17437702947), (39582648, 0), (2803, 0), (0, 9)], [(8613283998, 0), (7844065, 0), (0, 23559), (0, 15)], [(0,
    3632671), (0, 7988), (16, 0)], [(2271, 0), (7, 0)]], 3, 4⟩, 68719476736, 245825,
    3027440786491811831968073947768263926542117131646255108096411674415963884266236164527746849289, lc0⟩) (.leaf
    ⟨2793, 16, 82, 547, 16, 1305, ⟨[[(137438953472, 0)], [(352187318272, 0)]], 3, 4⟩, ⟨[[(0, 256646605307),
    (2618233349839, 0), (15478398853, 0), (293450958, 0), (7504403, 0)], [(174773827702, 0), (2743599224, 0),
    (61784768, 0), (1960552, 0), (62919, 0)], [(78322841, 0), (3895001, 0), (181436, 0), (7727, 0), (269, 0)],
    [(71465, 0), (6968, 0), (449, 0), (21, 0), (1, 0)]], 3, 4⟩, 1099511627776, 0, 984885419, ⟨[[(39868728936265, 0),
    (0, 17600182149), (46940842, 0), (2830, 0), (0, 14)], [(8731164124, 0), (7708062, 0), (0, 28726), (0, 20)], [(0,
    3754657), (0, 8117), (20, 0)], [(2379, 0), (7, 0)]], 3, 4⟩, 68719476736, 324227,
    4732111130888486692653480609382245679942213141287602183752394622872700644147236620175563233069, lc0⟩))) (.sy (.sx
    (.sy (.leaf ⟨2762, 16, 82, 744, 16, 1791, ⟨[[(412316860416, 0)], [(352187318272, 0)]], 3, 4⟩, ⟨[[(0,
    30095561025), (1711862997706, 0), (4652017985, 0), (41581074, 0), (507344, 0)], [(235990313277, 0), (1750484300,
    0), (18353672, 0), (277351, 0), (4333, 0)], [(103079716, 0), (2409027, 0), (53585, 0), (1111, 0), (19, 0)],
    [(91252, 0), (4283, 0), (134, 0), (3, 0)]], 3, 4⟩, 1099511627776, 0, 919312503, ⟨[[(39682788255634, 0), (0,
    13344975836), (25376968, 0), (1452, 0), (0, 4)], [(8930070359, 0), (6211648, 0), (0, 15767), (0, 8)], [(0,
    3943405), (0, 6586), (11, 0)], [(2585, 0), (6, 0)]], 3, 4⟩, 68719476736, 251855,
    3072149787832008269905577718593956382528549421141250616778937874386781360107282325562780748745, lc0⟩) (.leaf
    ⟨2762, 16, 82, 719, 16, 1709, ⟨[[(412316860416, 0)], [(352187318272, 0)]], 3, 4⟩, ⟨[[(0, 24337085646),
    (1691500838162, 0), (5272363464, 0), (53809862, 0), (708259, 0)], [(235901121742, 0), (1913044505, 0), (23302962,
    0), (386793, 0), (6179, 0)], [(114247925, 0), (3044187, 0), (74713, 0), (1596, 0), (27, 0)], [(116930, 0), (5997,
    0), (195, 0), (4, 0)]], 3, 4⟩, 1099511627776, 0, 1303810393, ⟨[[(39558321286662, 0), (0, 13479667145), (27913809,
    0), (1502, 0), (0, 5)], [(8987642150, 0), (6193389, 0), (0, 17583), (0, 10)], [(0, 4004934), (0, 6675), (13, 0)],
    [(2641, 0), (6, 0)]], 3, 4⟩, 68719476736, 249358,
    3960180834732196599139167076569242649081220180953998560442109058964138722029346279339616448867, lc0⟩)) (.sy (.sx
    (.leaf ⟨5605, 16, 165, 1086, 16, 2560, ⟨[[(0, 171798691840)], [(354334801920, 0)]], 3, 4⟩, ⟨[[(268059597888, 0),
    (2647500643929, 0), (9018822805, 0), (98148182, 0), (1345340, 0)], [(180426426557, 0), (1556034611, 0),
    (20461894, 0), (355109, 0), (5791, 0)], [(45458543, 0), (1294974, 0), (33207, 0), (725, 0), (13, 0)], [(24291,
    0), (1294, 0), (43, 0), (1, 0)]], 3, 4⟩, 1099511627776, 0, 130472963, ⟨[[(39688582970859, 0), (0, 8683843022),
    (12268633, 0), (343, 0), (0, 1)], [(4392330783, 0), (1885985, 0), (0, 3803), (0, 1)], [(0, 953958), (0, 1008),
    (1, 0)], [(305, 0)]], 3, 4⟩, 68719476736, 97264,
    2546661215453265596270983662582377970765341622542321906484564297558058971532397214832648640333, lc0⟩) (.sy (.leaf
    ⟨5636, 16, 165, 1394, 16, 3248, ⟨[[(0, 240518168576)], [(354334801920, 0)]], 3, 4⟩, ⟨[[(0, 182629990758),
    (1761655019878, 0), (3402822314, 0), (20345457, 0), (146098, 0)], [(237495461559, 0), (1119017178, 0), (8227386,
    0), (75534, 0), (627, 0)], [(64765741, 0), (1018277, 0), (13852, 0), (154, 0), (1, 0)], [(37773, 0), (1061, 0),
    (18, 0)]], 3, 4⟩, 1099511627776, 0, 181725944, ⟨[[(39716083814032, 0), (0, 6555324070), (7555609, 0), (120, 0)],
    [(4356655157, 0), (1363116, 0), (0, 2344), (0, 1)], [(0, 938367), (0, 736), (1, 0)], [(296, 0)]], 3, 4⟩,
    68719476736, 98407,
    3684093888290399006415574294121646426864336098967710438756998045714026995039052949503463975847, lc0⟩) (.sx (.leaf
    ⟨11256, 16, 330, 2113, 16, 4908, ⟨[[(103079215104, 0)], [(354334801920, 0)]], 3, 4⟩, ⟨[[(0, 119495823958),
    (2683773176066, 0), (5407675343, 0), (33418238, 0), (242597, 0)], [(182214666455, 0), (884695851, 0), (6766765,
    0), (63115, 0), (524, 0)], [(25801556, 0), (420379, 0), (5823, 0), (65, 0), (1, 0)], [(7856, 0), (225, 0), (4,
    0)]], 3, 4⟩, 1099511627776, 0, 19622330, ⟨[[(39652853444242, 0), (0, 4301953542), (3317896, 0), (34, 0)],
    [(2188820500, 0), (448183, 0), (0, 518)], [(0, 237180), (0, 122)], [(38, 0)]], 3, 4⟩, 68719476736, 24402,
    4183438215799856220496888764718169416269119311484270950359337328533136086441492870522264111426, lc0⟩) (.skip))))
    (.sx (.sy (.leaf ⟨5605, 16, 165, 1395, 16, 3254, ⟨[[(0, 171798691840)], [(354334801920, 0)]], 3, 4⟩, ⟨[[(0,
    315800033120), (1738323056371, 0), (3344402143, 0), (20065227, 0), (143297, 0)], [(238810325093, 0), (1121134058,
    0), (8273739, 0), (75778, 0), (623, 0)], [(66134855, 0), (1044080, 0), (14199, 0), (157, 0), (1, 0)], [(39506,
    0), (1111, 0), (19, 0)]], 3, 4⟩, 1099511627776, 0, 193890000, ⟨[[(39590509635973, 0), (0, 6610075100), (7600289,
    0), (143, 0)], [(4413478629, 0), (1414620, 0), (0, 2384), (0, 1)], [(0, 965353), (0, 769), (1, 0)], [(310, 0)]],
    3, 4⟩, 68719476736, 97560,
    4679963233874235290983145035216638516832345727143835355063001006663326541085437991387677056469, lc0⟩) (.sx (.leaf
    ⟨11194, 16, 330, 2122, 16, 4935, ⟨[[(240518168576, 0)], [(354334801920, 0)]], 3, 4⟩, ⟨[[(0, 339258078172),
    (2656990338847, 0), (5328649062, 0), (32993945, 0), (237990, 0)], [(183833884089, 0), (888939146, 0), (6815813,
    0), (63349, 0), (521, 0)], [(26425229, 0), (431877, 0), (5973, 0), (66, 0), (1, 0)], [(8234, 0), (235, 0), (4,
    0)]], 3, 4⟩, 1099511627776, 0, 20687959, ⟨[[(39527549270408, 0), (0, 4323915370), (3313497, 0), (41, 0)],
    [(2217458400, 0), (463825, 0), (0, 523)], [(0, 244020), (0, 127)], [(39, 0)]], 3, 4⟩, 68719476736, 24911,
    5165512578187009981303154599090530276370709305922291831468707146670243121299423969025547567514, lc0⟩) (.skip)))
    (.skip)))) (.sx (.sy (.sx (.leaf ⟨5543, 16, 165, 1097, 16, 2594, ⟨[[(0, 34359738368)], [(354334801920, 0)]], 3,
    4⟩, ⟨[[(512404840076, 0), (2595144196621, 0), (8669886069, 0), (94355112, 0), (1276090, 0)], [(183710504946, 0),
    (1560463792, 0), (20480119, 0), (352860, 0), (5654, 0)], [(47363012, 0), (1348785, 0), (34501, 0), (742, 0), (13,
    0)], [(26337, 0), (1404, 0), (46, 0), (1, 0)]], 3, 4⟩, 1099511627776, 0, 146101849, ⟨[[(39442407213649, 0), (0,
    8772761969), (12179581, 0), (430, 0), (0, 1)], [(4507397239, 0), (2016449, 0), (0, 3858), (0, 1)], [(0, 1009819),
    (0, 1092), (1, 0)], [(335, 0), (1, 0)]], 3, 4⟩, 68719476736, 112643,
    3993961661182163634435651281120889474094741469991264243627631593564260899769407910834233940364, lc0⟩) (.sy (.sx
    (.leaf ⟨11132, 16, 330, 2175, 16, 5102, ⟨[[(377957122048, 0)], [(354334801920, 0)]], 3, 4⟩, ⟨[[(464043277690, 0),
    (2640334598595, 0), (4822018724, 0), (28025956, 0), (195928, 0)], [(185239417372, 0), (837422814, 0), (5947088,
    0), (53294, 0), (432, 0)], [(25218653, 0), (385096, 0), (5130, 0), (56, 0)], [(7451, 0), (206, 0), (3, 0)]], 3,
    4⟩, 1099511627776, 0, 18685676, ⟨[[(39469422299684, 0), (0, 4328401898), (3128268, 0), (48, 0)], [(2239272006,
    0), (482916, 0), (0, 495)], [(0, 249096), (0, 131)], [(41, 0)]], 3, 4⟩, 68719476736, 24029,
    3628938447349121132547642741031245757060903891135819250483914916102250597920888438827600339438, lc0⟩) (.sy (.leaf
    ⟨11163, 16, 330, 2809, 16, 6550, ⟨[[(309237645312, 0)], [(354334801920, 0)]], 3, 4⟩, ⟨[[(126154501648, 0),
    (1738510872345, 0), (1699439026, 0), (5179641, 0), (18507, 0)], [(242560073396, 0), (575629663, 0), (2165367, 0),
    (9963, 0), (41, 0)], [(34500512, 0), (277296, 0), (1899, 0), (10, 0)], [(10667, 0), (151, 0), (1, 0)]], 3, 4⟩,
    1099511627776, 0, 24745277, ⟨[[(39482975264162, 0), (0, 3296814657), (1889785, 0), (20, 0)], [(2230043344, 0),
    (359909, 0), (0, 299)], [(0, 247003), (0, 98)], [(40, 0)]], 3, 4⟩, 68719476736, 16627,
    4361039015306457624469643087226100990472159805561206236900614316859731695268638458623325715765, lc0⟩) (.skip)))
    (.skip))) (.sx (.sy (.sx (.leaf ⟨11070, 16, 330, 2188, 16, 5140, ⟨[[(515396075520, 0)], [(354334801920, 0)]], 3,
    4⟩, ⟨[[(0, 231403307880), (2613515753726, 0), (4714152096, 0), (27296717, 0), (189142, 0)], [(186891580022, 0),
    (836964712, 0), (5917474, 0), (52698, 0), (423, 0)], [(25694962, 0), (391226, 0), (5191, 0), (56, 0)], [(7727,
    0), (213, 0), (4, 0)]], 3, 4⟩, 1099511627776, 0, 19701148, ⟨[[(39343495097646, 0), (0, 4346547504), (3112272, 0),
    (53, 0)], [(2269047251, 0), (499066, 0), (0, 498)], [(0, 256451), (0, 137)], [(43, 0)]], 3, 4⟩, 68719476736,
    22736, 4328848199952818603903018172446493079013553989425614314681344278115675549205043952055395548913, lc0⟩)
    (.skip)) (.skip)) (.skip))) (.skip)))
theorem c122 : checkC job ⟨6, 8, 8, 10, 9, 13⟩ 1 25 lims t122 1136 48 128 111 3 256 = true := by decide +kernel

def t123 : CTree :=
  .sy (.sy (.sx (.leaf ⟨2824, 16, 82, 543, 16, 1295, ⟨[[(0, 137438953472)], [(352187318272, 0)]], 3, 4⟩,
    ⟨[[(294653811140, 0), (2671613323395, 0), (15911379176, 0), (295459442, 0), (7525938, 0)], [(171743438151, 0),
    (2715992480, 0), (60200433, 0), (1887543, 0), (61227, 0)], [(74651839, 0), (3664085, 0), (167979, 0), (7197, 0),
    (256, 0)], [(64717, 0), (6204, 0), (401, 0), (19, 0), (1, 0)]], 3, 4⟩, 1099511627776, 0, 862797036,
    ⟨[[(40132504662325, 0), (0, 17485018878), (46784803, 0), (2260, 0), (0, 15)], [(8506413390, 0), (7270117, 0), (0,
    27957), (0, 19)], [(0, 3545123), (0, 7527), (19, 0)], [(2164, 0), (7, 0)]], 3, 4⟩, 68719476736, 315061,
    3998425361519916045007229473452948177314749157189237647205387585774213214392977663687406858171, lc0⟩) (.sy (.leaf
    ⟨2855, 16, 82, 691, 16, 1613, ⟨[[(0, 412316860416)], [(352187318272, 0)]], 3, 4⟩, ⟨[[(231149894039, 0),
    (1809321270885, 0), (6645706526, 0), (73847775, 0), (1048966, 0)], [(227905743467, 0), (2080552338, 0),
    (28260861, 0), (504167, 0), (8578, 0)], [(112411304, 0), (3292644, 0), (86268, 0), (1959, 0), (36, 0)], [(113995,
    0), (6175, 0), (213, 0), (5, 0)]], 3, 4⟩, 1099511627776, 0, 1236452390, ⟨[[(40195986840638, 0), (0, 12993919291),
    (29638455, 0), (459, 0), (0, 7)], [(8369216736, 0), (4964034, 0), (0, 17700), (0, 10)], [(0, 3432213), (0, 5232),
    (12, 0)], [(2040, 0), (5, 0)]], 3, 4⟩, 68719476736, 241588,
    4092209549332041302177293022282883283185506208467857180142342910380139323588909561649914205896, lc0⟩) (.sx (.leaf
    ⟨5729, 16, 165, 1032, 16, 2392, ⟨[[(0, 446676598784)], [(354334801920, 0)]], 3, 4⟩, ⟨[[(333481797545, 0),
    (2730090558793, 0), (10913172437, 0), (131001329, 0), (1920701, 0)], [(174450965552, 0), (1689212011, 0),
    (25032408, 0), (466299, 0), (7967, 0)], [(46345674, 0), (1465926, 0), (40292, 0), (923, 0), (17, 0)], [(25744,
    0), (1459, 0), (51, 0), (1, 0)]], 3, 4⟩, 1099511627776, 0, 142332306, ⟨[[(40066715116137, 0), (0, 8591534276),
    (13543976, 0), (119, 0), (0, 2)], [(4198352261, 0), (1632292, 0), (0, 4076), (0, 2)], [(0, 866110), (0, 869), (1,
    0)], [(259, 0)]], 3, 4⟩, 68719476736, 124949,
    2887384387802782568193738718308023648130313243641103088721683261931921799594714367595938717947, lc0⟩) (.sy (.leaf
    ⟨5760, 16, 165, 1338, 16, 3065, ⟨[[(0, 515396075520)], [(354334801920, 0)]], 3, 4⟩, ⟨[[(0, 282396143785),
    (1836937522962, 0), (4145138617, 0), (27098751, 0), (206672, 0)], [(232161008706, 0), (1228529789, 0), (10075869,
    0), (98586, 0), (857, 0)], [(66750032, 0), (1156185, 0), (16763, 0), (196, 0), (2, 0)], [(40174, 0), (1198, 0),
    (21, 0)]], 3, 4⟩, 1099511627776, 0, 194696929, ⟨[[(40093765626346, 0), (0, 6410492284), (8173704, 0), (0, 3), (0,
    1)], [(4164073057, 0), (1156082, 0), (0, 2464), (0, 1)], [(0, 852548), (0, 626), (1, 0)], [(252, 0)]], 3, 4⟩,
    68719476736, 85110,
    3606157097238866221967612500718194817412664377318439106598549572400912811557687031252156748456, lc0⟩) (.sx (.leaf
    ⟨11504, 16, 330, 2002, 16, 4570, ⟨[[(0, 446676598784)], [(354334801920, 0)]], 3, 4⟩, ⟨[[(19672114676, 0),
    (2770192454825, 0), (6565267025, 0), (44475747, 0), (342845, 0)], [(176262220372, 0), (967016268, 0), (8275294,
    0), (82262, 0), (714, 0)], [(26462946, 0), (476328, 0), (7034, 0), (82, 0), (1, 0)], [(8334, 0), (253, 0), (5,
    0)]], 3, 4⟩, 1099511627776, 0, 21207496, ⟨[[(40030418863165, 0), (0, 4253975111), (3685480, 0), (0, 3)],
    [(2091593102, 0), (383232, 0), (0, 560)], [(0, 215395), (0, 105)], [(32, 0)]], 3, 4⟩, 68719476736, 28273,
    4337795749275032036489706192155819376499668701860906020829168665143596537429664858675783052270, lc0⟩)
    (.skip)))))) (.sx (.sy (.leaf ⟨2824, 16, 82, 689, 16, 1609, ⟨[[(0, 137438953472)], [(352187318272, 0)]], 3, 4⟩,
    ⟨[[(0, 23513304728), (1761804931133, 0), (6531163381, 0), (74650979, 0), (1062193, 0)], [(230335614015, 0),
    (2111446080, 0), (29496512, 0), (531412, 0), (8909, 0)], [(118429264, 0), (3555591, 0), (94449, 0), (2119, 0),
    (38, 0)], [(127785, 0), (7015, 0), (239, 0), (6, 0)]], 3, 4⟩, 1099511627776, 0, 1444492958, ⟨[[(39936959717153,
    0), (0, 13203053988), (30348633, 0), (785, 0), (0, 7)], [(8586557946, 0), (5325690, 0), (0, 18554), (0, 11)],
    [(0, 3629401), (0, 5695), (13, 0)], [(2238, 0), (5, 0)]], 3, 4⟩, 68719476736, 233217,
    4417870729131127154491473572755811889006204133730338164153229933430175833385387311492271277619, lc0⟩) (.sx (.leaf
    ⟨5667, 16, 165, 1036, 16, 2404, ⟨[[(0, 309237645312)], [(354334801920, 0)]], 3, 4⟩, ⟨[[(278367906634, 0),
    (2676253331805, 0), (10794096266, 0), (132464735, 0), (1934492, 0)], [(177493472084, 0), (1726314907, 0),
    (26196706, 0), (489602, 0), (8223, 0)], [(49169483, 0), (1589390, 0), (44002, 0), (993, 0), (17, 0)], [(28986,
    0), (1655, 0), (57, 0), (1, 0)]], 3, 4⟩, 1099511627776, 0, 165452592, ⟨[[(39813230208459, 0), (0, 8684933874),
    (13663950, 0), (221, 0), (0, 1)], [(4306782959, 0), (1745762, 0), (0, 4207), (0, 2)], [(0, 915505), (0, 942), (1,
    0)], [(284, 0)]], 3, 4⟩, 68719476736, 134951,
    5081085408233029080878734025655484279285937822619652652086134742271648724423378207556996398864, lc0⟩) (.sy (.sx
    (.leaf ⟨11380, 16, 330, 2055, 16, 4730, ⟨[[(0, 171798691840)], [(354334801920, 0)]], 3, 4⟩, ⟨[[(0, 286603142610),
    (2726824699015, 0), (5993741149, 0), (38963030, 0), (292045, 0)], [(179202725678, 0), (928271444, 0), (7551133,
    0), (72865, 0), (619, 0)], [(26219955, 0), (451008, 0), (6462, 0), (74, 0), (1, 0)], [(8149, 0), (240, 0), (4,
    0)]], 3, 4⟩, 1099511627776, 0, 20388118, ⟨[[(39839772370233, 0), (0, 4277444524), (3505826, 0), (17, 0)],
    [(2139599974, 0), (414944, 0), (0, 540)], [(0, 225965), (0, 113)], [(35, 0)]], 3, 4⟩, 68719476736, 26537,
    4437985638206087866194429193653547380416894931379961656060474238027541081842936650916143257972, lc0⟩) (.skip))
    (.skip)))) (.sy (.sx (.sy (.leaf ⟨5729, 16, 165, 1334, 16, 3058, ⟨[[(0, 446676598784)], [(354334801920, 0)]], 3,
    4⟩, ⟨[[(309930286691, 0), (1813465984258, 0), (4135980569, 0), (27399309, 0), (208516, 0)], [(233447749480, 0),
    (1243898350, 0), (10357299, 0), (101478, 0), (874, 0)], [(68842922, 0), (1208896, 0), (17582, 0), (204, 0), (2,
    0)], [(42781, 0), (1280, 0), (23, 0)]], 3, 4⟩, 1099511627776, 0, 211038030, ⟨[[(39969961056065, 0), (0,
    6477350503), (8288669, 0), (22, 0), (0, 1)], [(4216534434, 0), (1203186, 0), (0, 2527), (0, 1)], [(0, 875894),
    (0, 655), (1, 0)], [(263, 0)]], 3, 4⟩, 68719476736, 84946,
    5095915711261369845275618475154792425526273128505045360381398601583101120424576842759000945701, lc0⟩) (.skip))
    (.skip)) (.skip)))) (.skip)
theorem c123 : checkC job ⟨6, 8, 8, 10, 9, 13⟩ 1 25 lims t123 1232 48 128 111 3 256 = true := by decide +kernel

def t124 : CTree :=
  .sx (.sx (.out ⟨175, 16, 40, 1207, 16, 826, ⟨[[], [(343597383680, 0)]], 1, 1⟩, ⟨[[(0, 300508770807), (0,
    3203501621529)], [(0, 137713141617), (0, 3302109103)]], 1, 1⟩, 1099511627776, 0, 308373716536, ⟨[], 0, 0⟩, 0, 0,
    0, lc0⟩ 0 1 947890677260) (.out ⟨205, 16, 40, 1076, 16, 744, ⟨[[], [(343597383680, 0)]], 1, 1⟩, ⟨[[(0,
    438682046209), (0, 3207425543783)], [(0, 135917074356), (0, 3787655297)]], 1, 1⟩, 1099511627776, 0, 445380212476,
    ⟨[], 0, 0⟩, 0, 0, 0, lc0⟩ 0 1 676743043057)) (.sx (.sy (.out ⟨235, 16, 40, 1420, 16, 989, ⟨[[], [(343597383680,
    0)]], 1, 1⟩, ⟨[[(0, 335701770168), (0, 2364191421032)], [(0, 191240880778), (0, 3023962716)]], 1, 1⟩,
    1099511627776, 0, 405378833220, ⟨[], 0, 0⟩, 0, 0, 0, lc0⟩ 0 1 479017229006) (.out ⟨235, 16, 40, 1300, 16, 914,
    ⟨[[], [(343597383680, 0)]], 1, 1⟩, ⟨[[(0, 140789178722), (0, 2277592785979)], [(0, 195300351780), (0,
    3433378209)]], 1, 1⟩, 1099511627776, 0, 511276486236, ⟨[], 0, 0⟩, 0, 0, 0, lc0⟩ 0 1 337177147902)) (.sy (.sx
    (.out ⟨521, 16, 81, 1796, 16, 1263, ⟨[[(481036337152, 0)], [(347892350976, 0)]], 1, 1⟩, ⟨[[(386167554832, 0), (0,
    3329560862009)], [(0, 132756527536), (0, 2405882377)]], 1, 1⟩, 1099511627776, 0, 291362461121, ⟨[], 0, 0⟩, 0, 0,
    0, lc0⟩ 0 1 278438701910) (.out ⟨552, 16, 81, 1663, 16, 1177, ⟨[[(0, 206158430208)], [(347892350976, 0)]], 1, 1⟩,
    ⟨[[(0, 113172284855), (0, 3336295378221)], [(0, 131595832289), (0, 2639307959)]], 1, 1⟩, 1099511627776, 0,
    352588540300, ⟨[], 0, 0⟩, 0, 0, 0, lc0⟩ 0 1 155214009163)) (.sx (.out ⟨521, 16, 81, 1630, 16, 1158,
    ⟨[[(481036337152, 0)], [(347892350976, 0)]], 1, 1⟩, ⟨[[(0, 149552002243), (0, 3243814040934)], [(0,
    136725904133), (0, 2851549239)]], 1, 1⟩, 1099511627776, 0, 397311869152, ⟨[], 0, 0⟩, 0, 0, 0, lc0⟩ 0 1
    147776122308) (.sy (.leaf ⟨2609, 16, 82, 630, 16, 1578, ⟨[[(0, 412316860416)], [(352187318272, 0)]], 3, 4⟩,
    ⟨[[(0, 260719395537), (2364712559272, 0), (8373410581, 0), (111285296, 0), (1923689, 0)], [(194200965175, 0),
    (2215839329, 0), (31737073, 0), (673383, 0), (17090, 0)], [(77464074, 0), (2574666, 0), (81871, 0), (2811, 0),
    (86, 0)], [(56658, 0), (4029, 0), (217, 0), (9, 0)]], 3, 4⟩, 1099511627776, 0, 639384005, ⟨[[(38656301622139, 0),
    (0, 18265538828), (35823219, 0), (4873, 0), (0, 4)], [(10084185067, 0), (11188616, 0), (0, 24254), (0, 18)], [(0,
    5187376), (0, 12650), (19, 0)], [(4075, 0), (13, 0)]], 3, 4⟩, 68719476736, 442314,
    2592340919323214327663016852521979182265687061196459877700272610477386612975811006718237950956, lc0⟩) (.sx (.leaf
    ⟨5234, 16, 165, 870, 16, 2151, ⟨[[(0, 446676598784)], [(354334801920, 0)]], 3, 4⟩, ⟨[[(321620143526, 0),
    (3294444751868, 0), (13373368544, 0), (201759767, 0), (3915869, 0)], [(139258198694, 0), (1710975762, 0),
    (28514028, 0), (696628, 0), (18623, 0)], [(30838499, 0), (1170826, 0), (43239, 0), (1577, 0), (48, 0)], [(13440,
    0), (1099, 0), (63, 0), (3, 0)]], 3, 4⟩, 1099511627776, 0, 112800549, ⟨[[(38427872630981, 0), (0, 13028617568),
    (19448745, 0), (1931, 0), (0, 1)], [(5098265127, 0), (4003629, 0), (0, 6687), (0, 4)], [(0, 1331298), (0, 2289),
    (3, 0)], [(528, 0), (1, 0)]], 3, 4⟩, 68719476736, 100161,
    3053760280832259363240352773089428977524196611282397180591919038462974234668478664158056012977, lc0⟩) (.sy (.leaf
    ⟨5265, 16, 165, 1222, 16, 2994, ⟨[[(0, 515396075520)], [(354334801920, 0)]], 3, 4⟩, ⟨[[(137703230256, 0),
    (2382048757722, 0), (5346806268, 0), (43732314, 0), (459514, 0)], [(198649075659, 0), (1295307122, 0), (11956334,
    0), (159615, 0), (2223, 0)], [(46109310, 0), (960852, 0), (19407, 0), (368, 0), (6, 0)], [(21965, 0), (971, 0),
    (29, 0), (1, 0)]], 3, 4⟩, 1099511627776, 0, 120475260, ⟨[[(38483517908369, 0), (0, 9053113313), (9954933, 0),
    (662, 0)], [(5047455079, 0), (2701920, 0), (0, 3411), (0, 1)], [(0, 1300731), (0, 1540), (1, 0)], [(507, 0), (1,
    0)]], 3, 4⟩, 68719476736, 103916,
    2342620323830259104079305041678413289683789903237346932516987661558169791354806448665042176578, lc0⟩) (.sx (.leaf
    ⟨10514, 16, 330, 1699, 16, 4132, ⟨[[(0, 446676598784)], [(354334801920, 0)]], 3, 4⟩, ⟨[[(0, 389171211086),
    (3335776396274, 0), (8130749578, 0), (71393582, 0), (784924, 0)], [(141052418543, 0), (966740847, 0), (9747612,
    0), (137828, 0), (1945, 0)], [(17477985, 0), (394717, 0), (8481, 0), (163, 0), (3, 0)], [(4609, 0), (215, 0), (6,
    0)]], 3, 4⟩, 1099511627776, 0, 16540626, ⟨[[(38361514474154, 0), (0, 6444102329), (5250516, 0), (251, 0)],
    [(2546414243, 0), (965178, 0), (0, 911)], [(0, 331757), (0, 278)], [(65, 0)]], 3, 4⟩, 68719476736, 44986,
    3782805312721595066362975919190304477912638406290292616401193549925292039911368063654883617214, lc0⟩) (.sy (.leaf
    ⟨10545, 16, 330, 2401, 16, 5814, ⟨[[(0, 515396075520)], [(354334801920, 0)]], 3, 4⟩, ⟨[[(94476449024, 0),
    (2395910666721, 0), (3086983017, 0), (14162746, 0), (80568, 0)], [(201203290630, 0), (714340646, 0), (3806727,
    0), (27962, 0), (200, 0)], [(25674045, 0), (305014, 0), (3404, 0), (33, 0)], [(7100, 0), (171, 0), (3, 0)]], 3,
    4⟩, 1099511627776, 0, 19097029, ⟨[[(38393040183477, 0), (0, 4503875799), (2640530, 0), (86, 0)], [(2532986047,
    0), (664377, 0), (0, 457)], [(0, 327772), (0, 191)], [(64, 0)]], 3, 4⟩, 68719476736, 19893,
    3907952964160003518873836541298443028205740037454555717178495684775434807145477841034448499968, lc0⟩) (.sx (.leaf
    ⟨21106, 16, 661, 3351, 16, 8086, ⟨[[(0, 523986010112)], [(354871672832, 0)]], 3, 4⟩, ⟨[[(538798303734, 0),
    (3360735711632, 0), (4531289495, 0), (21549399, 0), (124940, 0)], [(142082355788, 0), (519308062, 0), (2897246,
    0), (21810, 0), (157, 0)], [(9406628, 0), (116573, 0), (1336, 0), (13, 0)], [(1371, 0), (34, 0), (1, 0)]], 3, 4⟩,
    1099511627776, 0, 2562168, ⟨[[(38334984383118, 0), (0, 3210095411), (1368146, 0), (32, 0)], [(1269985138, 0),
    (236800, 0), (0, 119)], [(0, 82480), (0, 34)], [(8, 0)]], 3, 4⟩, 68719476736, 4169,
    4774150734344192479481168872198739762232255333277866745164389437793479801502728827198358476950, lc0⟩)
    (.skip))))))))))
theorem c124 : checkC job ⟨6, 8, 8, 10, 9, 13⟩ 1 25 lims t124 176 48 32 117 3 256 = true := by decide +kernel

def t125 : CTree :=
  .sx (.leaf ⟨2639, 16, 82, 431, 16, 1084, ⟨[[(412316860416, 0)], [(352187318272, 0)]], 3, 4⟩, ⟨[[(0, 396705899880),
    (3328560708518, 0), (22985055023, 0), (579126074, 0), (19350605, 0)], [(129724122133, 0), (2929285963, 0),
    (79908165, 0), (3228758, 0), (163503, 0)], [(48523061, 0), (3105664, 0), (187120, 0), (12651, 0), (788, 0)],
    [(32395, 0), (4368, 0), (460, 0), (39, 0), (3, 0)]], 3, 4⟩, 1099511627776, 0, 856007162, ⟨[[(39000875097131, 0),
    (0, 26381081518), (74334781, 0), (13589, 0), (0, 17)], [(9756351006, 0), (15404480, 0), (0, 48820), (0, 50)],
    [(0, 4810117), (0, 16974), (37, 0)], [(3622, 0), (17, 0)]], 3, 4⟩, 68719476736, 569254,
    4484405360984510243315315095524096507029756318332162425958657571569056418583717535927257287723, lc0⟩) (.sy (.leaf
    ⟨2670, 16, 82, 608, 16, 1506, ⟨[[(137438953472, 0)], [(352187318272, 0)]], 3, 4⟩, ⟨[[(0, 206226054016),
    (2466631271599, 0), (9973473233, 0), (142406659, 0), (2789213, 0)], [(187335430906, 0), (2309580210, 0),
    (36779481, 0), (882764, 0), (24545, 0)], [(74638818, 0), (2737577, 0), (97815, 0), (3632, 0), (117, 0)], [(56439,
    0), (4425, 0), (253, 0), (11, 0)]], 3, 4⟩, 1099511627776, 0, 666474381, ⟨[[(39130144783782, 0), (0, 17959856539),
    (37868576, 0), (4332, 0), (0, 5)], [(9561599249, 0), (9914353, 0), (0, 24625), (0, 17)], [(0, 4592578), (0,
    10832), (18, 0)], [(3342, 0), (10, 0)]], 3, 4⟩, 68719476736, 391404,
    2791599815126336411839781778857286111770176153687934387176732033837420259399873129324443072394, lc0⟩) (.sx (.leaf
    ⟨5357, 16, 165, 825, 16, 2012, ⟨[[(377957122048, 0)], [(354334801920, 0)]], 3, 4⟩, ⟨[[(0, 389835300305),
    (3390841354279, 0), (16003694421, 0), (267878368, 0), (5942168, 0)], [(132473486157, 0), (1786430217, 0),
    (34116865, 0), (952045, 0), (27684, 0)], [(29785402, 0), (1281295, 0), (53565, 0), (2100, 0), (67, 0)], [(13744,
    0), (1242, 0), (75, 0), (3, 0)]], 3, 4⟩, 1099511627776, 0, 134426005, ⟨[[(38887666860738, 0), (0, 12957684341),
    (21393598, 0), (1785, 0), (0, 2)], [(4834004046, 0), (3572780, 0), (0, 7079), (0, 4)], [(0, 1179301), (0, 1981),
    (3, 0)], [(434, 0), (1, 0)]], 3, 4⟩, 68719476736, 76701,
    3428749724718499494644152728560458301779471715934838292126322441986520033678438505196158396808, lc0⟩) (.sy (.leaf
    ⟨5388, 16, 165, 1176, 16, 2844, ⟨[[(309237645312, 0)], [(354334801920, 0)]], 3, 4⟩, ⟨[[(0, 514370114894),
    (2486577056885, 0), (6448089421, 0), (58417139, 0), (689206, 0)], [(191679580768, 0), (1371534225, 0), (14414112,
    0), (215465, 0), (3217, 0)], [(45189458, 0), (1058871, 0), (23697, 0), (477, 0), (8, 0)], [(22511, 0), (1077, 0),
    (33, 0), (1, 0)]], 3, 4⟩, 1099511627776, 0, 122693068, ⟨[[(38947920756136, 0), (0, 8881040539), (10615952, 0),
    (572, 0), (0, 1)], [(4785831402, 0), (2374093, 0), (0, 3499), (0, 1)], [(0, 1153092), (0, 1314), (1, 0)], [(417,
    0), (1, 0)]], 3, 4⟩, 68719476736, 116403,
    2324345561200184270566232526605651208911440351166712429495167022495376203688726066359856869065, lc0⟩) (.sy (.leaf
    ⟨5388, 16, 165, 1487, 16, 3567, ⟨[[(309237645312, 0)], [(354334801920, 0)]], 3, 4⟩, ⟨[[(324002337112, 0),
    (1598143704362, 0), (2297870631, 0), (11388466, 0), (70627, 0)], [(248541640047, 0), (950454750, 0), (5566716,
    0), (44279, 0), (335, 0)], [(63314321, 0), (817839, 0), (9773, 0), (100, 0), (1, 0)], [(35250, 0), (894, 0), (14,
    0)]], 3, 4⟩, 1099511627776, 0, 179506881, ⟨[[(38863659149647, 0), (0, 6918327648), (6758864, 0), (280, 0)],
    [(4808294433, 0), (1839048, 0), (0, 2248), (0, 1)], [(0, 1165581), (0, 1027), (1, 0)], [(423, 0)]], 3, 4⟩,
    68719476736, 97693,
    4053703312540302341515148452875906612520705358741187148713584963947913270715599442409899015270, lc0⟩) (.sx (.leaf
    ⟨10761, 16, 330, 2315, 16, 5540, ⟨[[(103079215104, 0)], [(354334801920, 0)]], 3, 4⟩, ⟨[[(54749051124, 0),
    (2489670846298, 0), (3682516714, 0), (18695859, 0), (117057, 0)], [(195097008973, 0), (760028283, 0), (4585606,
    0), (36980, 0), (280, 0)], [(25529237, 0), (338834, 0), (4112, 0), (42, 0)], [(7371, 0), (190, 0), (3, 0)]], 3,
    4⟩, 1099511627776, 0, 19072852, ⟨[[(38803059559078, 0), (0, 4432456286), (2810208, 0), (75, 0)], [(2416195519,
    0), (591869, 0), (0, 470)], [(0, 294709), (0, 166)], [(54, 0)]], 3, 4⟩, 68719476736, 21090,
    4126829670223726312111023118004142657153354103016186401104233112470233770919705961056013425512, lc0⟩) (.sy (.leaf
    ⟨10792, 16, 330, 2936, 16, 6985, ⟨[[(34359738368, 0)], [(354334801920, 0)]], 3, 4⟩, ⟨[[(260442253338, 0),
    (1609824111485, 0), (1280809716, 0), (3435838, 0), (11092, 0)], [(250879912221, 0), (513543520, 0), (1658379, 0),
    (6929, 0), (26, 0)], [(34351906, 0), (242369, 0), (1525, 0), (8, 0)], [(10504, 0), (139, 0), (1, 0)]], 3, 4⟩,
    1099511627776, 0, 25893167, ⟨[[(38818058287104, 0), (0, 3440627896), (1760490, 0), (35, 0)], [(2405915882, 0),
    (451269, 0), (0, 295)], [(0, 291966), (0, 127)], [(53, 0)]], 3, 4⟩, 68719476736, 13723,
    5101973314027460757336083301457395349370794559646435016430498295886327090295150419142868944448, lc0⟩)
    (.skip)))))))
theorem c125 : checkC job ⟨6, 8, 8, 10, 9, 13⟩ 1 25 lims t125 944 48 128 231 3 512 = true := by decide +kernel

def t126 : CTree :=
  .sx (.sy (.sx (.leaf ⟨5295, 16, 165, 847, 16, 2078, ⟨[[(515396075520, 0)], [(354334801920, 0)]], 3, 4⟩, ⟨[[(0,
    480781788784), (3343957199729, 0), (14722307041, 0), (234987000, 0), (4915377, 0)], [(135870702720, 0),
    (1753577204, 0), (31485785, 0), (829728, 0), (23269, 0)], [(30391682, 0), (1236073, 0), (49050, 0), (1865, 0),
    (59, 0)], [(13737, 0), (1192, 0), (70, 0), (3, 0)]], 3, 4⟩, 1099511627776, 0, 124512703, ⟨[[(38648484333843, 0),
    (0, 12975406251), (20449403, 0), (1872, 0), (0, 1)], [(4966476879, 0), (3778433, 0), (0, 6905), (0, 4)], [(0,
    1253889), (0, 2128), (3, 0)], [(479, 0), (1, 0)]], 3, 4⟩, 68719476736, 104489,
    3288154074723951270060280468007495702436740989142552740158597574620991653862264998709867153634, lc0⟩) (.sy (.leaf
    ⟨5326, 16, 165, 1197, 16, 2914, ⟨[[(446676598784, 0)], [(354334801920, 0)]], 3, 4⟩, ⟨[[(506409915479, 0),
    (2434565166080, 0), (5910497723, 0), (51171575, 0), (574137, 0)], [(195166698094, 0), (1337420562, 0), (13274263,
    0), (189142, 0), (2739, 0)], [(45797201, 0), (1019636, 0), (21873, 0), (429, 0), (7, 0)], [(22508, 0), (1044, 0),
    (32, 0), (1, 0)]], 3, 4⟩, 1099511627776, 0, 124083973, ⟨[[(38717363812754, 0), (0, 8980368718), (10308959, 0),
    (623, 0)], [(4913853872, 0), (2538759, 0), (0, 3464), (0, 1)], [(0, 1223833), (0, 1425), (1, 0)], [(460, 0), (1,
    0)]], 3, 4⟩, 68719476736, 110932,
    2498438229976668687717169719128995073686832200631614634499489272222429204420967655276049585717, lc0⟩) (.sx (.leaf
    ⟨10637, 16, 330, 1650, 16, 3986, ⟨[[(377957122048, 0)], [(354334801920, 0)]], 3, 4⟩, ⟨[[(427151983989, 0),
    (3386642390993, 0), (8989903394, 0), (84164762, 0), (987600, 0)], [(137628992105, 0), (997309040, 0), (10893573,
    0), (164343, 0), (2407, 0)], [(17346326, 0), (421251, 0), (9607, 0), (191, 0), (3, 0)], [(4744, 0), (232, 0), (7,
    0)]], 3, 4⟩, 1099511627776, 0, 17286494, ⟨[[(38598108002028, 0), (0, 6439308263), (5532786, 0), (241, 0)],
    [(2477832336, 0), (912171, 0), (0, 941)], [(0, 311864), (0, 259)], [(59, 0)]], 3, 4⟩, 68719476736, 45927,
    4163163567356213338632876942159289133294515851109438083770289396929304024010168689681026692285, lc0⟩) (.sy (.leaf
    ⟨10668, 16, 330, 2349, 16, 5649, ⟨[[(309237645312, 0)], [(354334801920, 0)]], 3, 4⟩, ⟨[[(524807909378, 0),
    (2449478711345, 0), (3432823520, 0), (16771469, 0), (101323, 0)], [(197699150401, 0), (742317578, 0), (4274772,
    0), (33318, 0), (247, 0)], [(25668103, 0), (326985, 0), (3852, 0), (39, 0)], [(7330, 0), (184, 0), (3, 0)]], 3,
    4⟩, 1099511627776, 0, 19366297, ⟨[[(38626963908688, 0), (0, 4465733719), (2742858, 0), (81, 0)], [(2465319234,
    0), (622602, 0), (0, 466)], [(0, 308329), (0, 177)], [(58, 0)]], 3, 4⟩, 68719476736, 23428,
    4189017014171846783849016628668805979862834513056229192000073391030227092308782869549851482235, lc0⟩) (.sx (.leaf
    ⟨21353, 16, 661, 3254, 16, 7794, ⟨[[(438086664192, 0)], [(354871672832, 0)]], 3, 4⟩, ⟨[[(147270853656, 0),
    (3412929613981, 0), (5025184891, 0), (25524712, 0), (157056, 0)], [(138658227776, 0), (537871741, 0), (3252959,
    0), (25967, 0), (193, 0)], [(9373382, 0), (124888, 0), (1510, 0), (15, 0)], [(1413, 0), (36, 0), (1, 0)]], 3, 4⟩,
    1099511627776, 0, 2746545, ⟨[[(38566030978104, 0), (0, 3202490123), (1443950, 0), (30, 0)], [(1236088331, 0),
    (223060, 0), (0, 123)], [(0, 77598), (0, 32)], [(7, 0)]], 3, 4⟩, 68719476736, 8068,
    5190141914977679113570362451292409258350638221377416840962439308688242021283332818984744152308, lc0⟩)
    (.skip)))))) (.sx (.sy (.sx (.leaf ⟨10575, 16, 330, 1674, 16, 4057, ⟨[[(515396075520, 0)], [(354334801920, 0)]],
    3, 4⟩, ⟨[[(0, 38693026531), (3361435231132, 0), (8563800956, 0), (77753636, 0), (884938, 0)], [(139337673810, 0),
    (982728040, 0), (10333576, 0), (151270, 0), (2177, 0)], [(17426213, 0), (408913, 0), (9073, 0), (178, 0), (3,
    0)], [(4691, 0), (225, 0), (7, 0)]], 3, 4⟩, 1099511627776, 0, 16708530, ⟨[[(38477833764637, 0), (0, 6441344919),
    (5393856, 0), (247, 0)], [(2512165536, 0), (938482, 0), (0, 926)], [(0, 321720), (0, 268)], [(62, 0)]], 3, 4⟩,
    68719476736, 46655,
    4021630855172248360380557962010160393400720541006914793865509712598280276464939276599423815672, lc0⟩) (.sy (.leaf
    ⟨10606, 16, 330, 2375, 16, 5729, ⟨[[(446676598784, 0)], [(354334801920, 0)]], 3, 4⟩, ⟨[[(0, 434336531848),
    (2422813526106, 0), (3261069198, 0), (15463209, 0), (90827, 0)], [(199456774274, 0), (728886967, 0), (4046366,
    0), (30682, 0), (224, 0)], [(25695373, 0), (316778, 0), (3640, 0), (36, 0)], [(7239, 0), (179, 0), (3, 0)]], 3,
    4⟩, 1099511627776, 0, 19231143, ⟨[[(38505333869693, 0), (0, 4481269727), (2693391, 0), (84, 0)], [(2499586683,
    0), (642724, 0), (0, 462)], [(0, 318075), (0, 184)], [(61, 0)]], 3, 4⟩, 68719476736, 22341,
    4098786017197728386438207549365805326505034482597107007100737149050182092169179724114363541002, lc0⟩) (.sx (.leaf
    ⟨21229, 16, 661, 3301, 16, 7935, ⟨[[(506806140928, 0)], [(354871672832, 0)]], 3, 4⟩, ⟨[[(312418210459, 0),
    (3386692920159, 0), (4779925303, 0), (23530665, 0), (140813, 0)], [(140351951350, 0), (528969741, 0), (3079425,
    0), (23922, 0), (175, 0)], [(9398286, 0), (121033, 0), (1428, 0), (14, 0)], [(1397, 0), (35, 0), (1, 0)]], 3, 4⟩,
    1099511627776, 0, 2675184, ⟨[[(38449405698464, 0), (0, 3206645012), (1406897, 0), (31, 0)], [(1252964826, 0),
    (229896, 0), (0, 121)], [(0, 80004), (0, 33)], [(8, 0)]], 3, 4⟩, 68719476736, 6636,
    5036982269381622944439708081240061441645124503124895146477051265935239868847057896739182858384, lc0⟩) (.skip))))
    (.sx (.sy (.sx (.leaf ⟨21167, 16, 661, 3326, 16, 8009, ⟨[[(541165879296, 0)], [(354871672832, 0)]], 3, 4⟩, ⟨[[(0,
    104900276131), (3373575660940, 0), (4655698488, 0), (22535348, 0), (132807, 0)], [(141208196821, 0), (524205172,
    0), (2989051, 0), (22871, 0), (166, 0)], [(9404052, 0), (118867, 0), (1383, 0), (14, 0)], [(1385, 0), (35, 0),
    (1, 0)]], 3, 4⟩, 1099511627776, 0, 2669257, ⟨[[(38389918421525, 0), (0, 3207324527), (1387889, 0), (32, 0)],
    [(1261629372, 0), (233259, 0), (0, 120)], [(0, 81258), (0, 34)], [(8, 0)]], 3, 4⟩, 68719476736, 7128,
    4918750063081452744728795608713287004497245026272181976741954743542823759281943568327731986880, lc0⟩) (.skip))
    (.skip)) (.skip))) (.sy (.sx (.sy (.sx (.leaf ⟨21291, 16, 661, 3277, 16, 7863, ⟨[[(472446402560, 0)],
    [(354871672832, 0)]], 3, 4⟩, ⟨[[(241486701733, 0), (3399666651232, 0), (4903009730, 0), (24527743, 0), (148904,
    0)], [(139496034166, 0), (533510908, 0), (3167440, 0), (24955, 0), (184, 0)], [(9387778, 0), (123040, 0), (1470,
    0), (15, 0)], [(1406, 0), (36, 0), (1, 0)]], 3, 4⟩, 1099511627776, 0, 2631048, ⟨[[(38507657273952, 0), (0,
    3204780782), (1425731, 0), (31, 0)], [(1244484440, 0), (226472, 0), (0, 122)], [(0, 78789), (0, 32)], [(7, 0)]],
    3, 4⟩, 68719476736, 7475,
    5127748341399385318264051374394775400465221207989728316341686064071253168773760404901349210067, lc0⟩) (.skip))
    (.skip)) (.skip)) (.skip)))) (.sy (.sx (.sy (.sy (.leaf ⟨5357, 16, 165, 1497, 16, 3600, ⟨[[(377957122048, 0)],
    [(354334801920, 0)]], 3, 4⟩, ⟨[[(0, 447955126214), (1576150892101, 0), (2191876426, 0), (10613826, 0), (64356,
    0)], [(249975635386, 0), (934472720, 0), (5320357, 0), (41430, 0), (309, 0)], [(63463304, 0), (799657, 0), (9381,
    0), (95, 0), (1, 0)], [(35159, 0), (880, 0), (14, 0)]], 3, 4⟩, 1099511627776, 0, 181341486, ⟨[[(38739533162138,
    0), (0, 6962756705), (6701443, 0), (296, 0)], [(4874682885, 0), (1903688, 0), (0, 2253), (0, 1)], [(0, 1202018),
    (0, 1071), (1, 0)], [(445, 0), (1, 0)]], 3, 4⟩, 68719476736, 96528,
    4174788953576608032171851702066646994958853449431327257240918791533021199946370327772471961258, lc0⟩) (.sx (.leaf
    ⟨10699, 16, 330, 2337, 16, 5611, ⟨[[(240518168576, 0)], [(354334801920, 0)]], 3, 4⟩, ⟨[[(527633256464, 0),
    (2462763871115, 0), (3517244438, 0), (17420704, 0), (106593, 0)], [(196820227095, 0), (748548375, 0), (4383106,
    0), (34584, 0), (258, 0)], [(25634625, 0), (331415, 0), (3946, 0), (40, 0)], [(7356, 0), (187, 0), (3, 0)]], 3,
    4⟩, 1099511627776, 0, 19286855, ⟨[[(38686116481961, 0), (0, 4455686097), (2766494, 0), (79, 0)], [(2448702896,
    0), (612373, 0), (0, 467)], [(0, 303675), (0, 173)], [(57, 0)]], 3, 4⟩, 68719476736, 22259,
    4194868669508067177008947206608505936790984768524435337916863024042542506816744907153388506262, lc0⟩) (.skip)))
    (.skip)) (.skip)) (.skip))
theorem c126 : checkC job ⟨6, 8, 8, 10, 9, 13⟩ 1 25 lims t126 944 48 128 237 3 512 = true := by decide +kernel

def t127 : CTree :=
  .sy (.sx (.sy (.sy (.leaf ⟨2701, 16, 82, 754, 16, 1827, ⟨[[(0, 137438953472)], [(352187318272, 0)]], 3, 4⟩, ⟨[[(0,
    475912836383), (1623208357378, 0), (4106921257, 0), (35864035, 0), (419260, 0)], [(241625261181, 0), (1705363549,
    0), (17216475, 0), (252109, 0), (3793, 0)], [(108398586, 0), (2450302, 0), (53380, 0), (1076, 0), (18, 0)],
    [(100301, 0), (4668, 0), (144, 0), (3, 0)]], 3, 4⟩, 1099511627776, 0, 1082968425, ⟨[[(39190170627943, 0), (0,
    13729994853), (25324565, 0), (1953, 0), (0, 3)], [(9407204227, 0), (7110998, 0), (0, 16429), (0, 9)], [(0,
    4428799), (0, 7780), (12, 0)], [(3127, 0), (7, 0)]], 3, 4⟩, 68719476736, 295317,
    3347829582773009390655221766882234679979911204396971154114041902842153867762823207824301269196, lc0⟩) (.sx (.leaf
    ⟨5419, 16, 165, 1166, 16, 2813, ⟨[[(240518168576, 0)], [(354334801920, 0)]], 3, 4⟩, ⟨[[(0, 305246427460),
    (2512611527104, 0), (6700798779, 0), (61789039, 0), (743700, 0)], [(189954113544, 0), (1385001970, 0), (14884885,
    0), (226596, 0), (3427, 0)], [(44764232, 0), (1069736, 0), (24312, 0), (495, 0), (8, 0)], [(22304, 0), (1079, 0),
    (34, 0), (1, 0)]], 3, 4⟩, 1099511627776, 0, 120473644, ⟨[[(39070169550669, 0), (0, 8845196741), (10746269, 0),
    (544, 0), (0, 1)], [(4722032089, 0), (2299976, 0), (0, 3505), (0, 1)], [(0, 1118871), (0, 1263), (1, 0)], [(397,
    0), (1, 0)]], 3, 4⟩, 68719476736, 116155,
    2161209010641523715298549705186305766329610148724480047289070484959102901423579823602512420417, lc0⟩) (.sy (.leaf
    ⟨5450, 16, 165, 1472, 16, 3511, ⟨[[(171798691840, 0)], [(354334801920, 0)]], 3, 4⟩, ⟨[[(0, 364970380898),
    (1642486226198, 0), (2496976586, 0), (12822843, 0), (82453, 0)], [(245681793441, 0), (976547675, 0), (5972061,
    0), (49081, 0), (380, 0)], [(62588905, 0), (839036, 0), (10302, 0), (108, 0), (1, 0)], [(34722, 0), (898, 0),
    (14, 0)]], 3, 4⟩, 1099511627776, 0, 172406801, ⟨[[(39100146503278, 0), (0, 6802588496), (6841858, 0), (244, 0)],
    [(4682879494, 0), (1707488, 0), (0, 2231), (0, 1)], [(0, 1098794), (0, 941), (1, 0)], [(385, 0)]], 3, 4⟩,
    68719476736, 99117,
    3506391331095564556631912472932006794633212785208280813270055491204486412650619891228482014984, lc0⟩) (.sx (.leaf
    ⟨10885, 16, 330, 2275, 16, 5414, ⟨[[(0, 171798691840)], [(354334801920, 0)]], 3, 4⟩, ⟨[[(0, 154800637623),
    (2543028480567, 0), (3989242493, 0), (21047400, 0), (136777, 0)], [(191649399228, 0), (777847713, 0), (4915312,
    0), (41008, 0), (318, 0)], [(25135876, 0), (347123, 0), (4335, 0), (45, 0)], [(7247, 0), (190, 0), (3, 0)]], 3,
    4⟩, 1099511627776, 0, 18344390, ⟨[[(39042233049854, 0), (0, 4390071023), (2885492, 0), (67, 0)], [(2352581361,
    0), (553383, 0), (0, 473)], [(0, 277669), (0, 153)], [(49, 0)]], 3, 4⟩, 68719476736, 20475,
    3678630190121747934914628964983960546959741841045387929587069822774319815323828043799049526997, lc0⟩) (.sy (.leaf
    ⟨10916, 16, 330, 2904, 16, 6872, ⟨[[(0, 240518168576)], [(354334801920, 0)]], 3, 4⟩, ⟨[[(517169679546, 0),
    (1655001679603, 0), (1393604685, 0), (3876289, 0), (12948, 0)], [(248052706379, 0), (528624067, 0), (1781725, 0),
    (7677, 0), (30, 0)], [(34012217, 0), (248810, 0), (1606, 0), (8, 0)], [(10339, 0), (140, 0), (1, 0)]], 3, 4⟩,
    1099511627776, 0, 24773486, ⟨[[(39059083672523, 0), (0, 3386997797), (1783438, 0), (30, 0)], [(2342430040, 0),
    (419051, 0), (0, 292)], [(0, 275098), (0, 116)], [(48, 0)]], 3, 4⟩, 68719476736, 14497,
    4531117595950481364365757412760050037114216760019441647706259250077077081507384333299653689606, lc0⟩)
    (.skip)))))) (.sy (.sx (.sy (.leaf ⟨5419, 16, 165, 1479, 16, 3537, ⟨[[(240518168576, 0)], [(354334801920, 0)]],
    3, 4⟩, ⟨[[(0, 171510815076), (1620106250316, 0), (2399723695, 0), (12128761, 0), (76698, 0)], [(247087275683, 0),
    (964455467, 0), (5784939, 0), (46845, 0), (359, 0)], [(63018376, 0), (830971, 0), (10081, 0), (104, 0), (1, 0)],
    [(35098, 0), (900, 0), (14, 0)]], 3, 4⟩, 1099511627776, 0, 176679567, ⟨[[(38980560913175, 0), (0, 6859156444),
    (6807528, 0), (262, 0)], [(4745256589, 0), (1771671, 0), (0, 2242), (0, 1)], [(0, 1131691), (0, 983), (1, 0)],
    [(403, 0)]], 3, 4⟩, 68719476736, 98134,
    3828871555805983087075946004568883421262452433608067033922235003222163463748588609580662714562, lc0⟩) (.sx (.leaf
    ⟨10823, 16, 330, 2294, 16, 5474, ⟨[[(0, 34359738368)], [(354334801920, 0)]], 3, 4⟩, ⟨[[(32653891862, 0),
    (2516276572075, 0), (3840261057, 0), (19912219, 0), (127188, 0)], [(193361418554, 0), (769803554, 0), (4764031,
    0), (39136, 0), (300, 0)], [(25362009, 0), (344085, 0), (4243, 0), (44, 0)], [(7334, 0), (191, 0), (3, 0)]], 3,
    4⟩, 1099511627776, 0, 18689480, ⟨[[(38922592363206, 0), (0, 4411899612), (2850294, 0), (71, 0)], [(2384048018,
    0), (572415, 0), (0, 472)], [(0, 286014), (0, 160)], [(51, 0)]], 3, 4⟩, 68719476736, 22223,
    3953329096049644609938584349215713506554958495307655351803287616038812097769718081925517123169, lc0⟩) (.sy (.leaf
    ⟨10854, 16, 330, 2919, 16, 6925, ⟨[[(0, 103079215104)], [(354334801920, 0)]], 3, 4⟩, ⟨[[(308485538317, 0),
    (1632364631133, 0), (1338817192, 0), (3663906, 0), (12046, 0)], [(249465976309, 0), (521732064, 0), (1725181, 0),
    (7330, 0), (28, 0)], [(34227713, 0), (246414, 0), (1572, 0), (8, 0)], [(10457, 0), (140, 0), (1, 0)]], 3, 4⟩,
    1099511627776, 0, 25375127, ⟨[[(38937936824513, 0), (0, 3413551989), (1773582, 0), (33, 0)], [(2373905891, 0),
    (434834, 0), (0, 294)], [(0, 283380), (0, 122)], [(50, 0)]], 3, 4⟩, 68719476736, 16647,
    4872466172396848286639175591814367775069869743769397555147582650866908469559990760229536587134, lc0⟩) (.skip))))
    (.sy (.sx (.sy (.leaf ⟨10885, 16, 330, 2911, 16, 6897, ⟨[[(0, 171798691840)], [(354334801920, 0)]], 3, 4⟩,
    ⟨[[(376220066824, 0), (1643522944642, 0), (1366531165, 0), (3771999, 0), (12504, 0)], [(248736750768, 0),
    (525298704, 0), (1754650, 0), (7510, 0), (29, 0)], [(34128303, 0), (247798, 0), (1591, 0), (8, 0)], [(10406, 0),
    (140, 0), (1, 0)]], 3, 4⟩, 1099511627776, 0, 25004727, ⟨[[(38998301243358, 0), (0, 3400462274), (1779247, 0),
    (32, 0)], [(2358107929, 0), (426891, 0), (0, 293)], [(0, 279204), (0, 119)], [(49, 0)]], 3, 4⟩, 68719476736,
    14738, 4715243390172421031934469482583883928023725354056858732454127726398096599937763043291729814295, lc0⟩)
    (.skip)) (.skip)) (.skip))) (.sx (.sy (.sx (.sy (.leaf ⟨10823, 16, 330, 2927, 16, 6954, ⟨[[(0, 34359738368)],
    [(354334801920, 0)]], 3, 4⟩, ⟨[[(482761516055, 0), (1621052207393, 0), (1310149399, 0), (3551479, 0), (11574,
    0)], [(250168306624, 0), (517783747, 0), (1692952, 0), (7136, 0), (27, 0)], [(34300539, 0), (244590, 0), (1550,
    0), (8, 0)], [(10490, 0), (140, 0), (1, 0)]], 3, 4⟩, 1099511627776, 0, 25635091, ⟨[[(38878519252288, 0), (0,
    3427790728), (1767476, 0), (34, 0)], [(2389755792, 0), (443095, 0), (0, 294)], [(0, 287610), (0, 124)], [(52,
    0)]], 3, 4⟩, 68719476736, 13978,
    5001645574491147143769808349373447859626510801181207583688155033250230622328977190313217342298, lc0⟩) (.skip))
    (.skip)) (.skip)) (.skip)))) (.sy (.sy (.sx (.leaf ⟨5481, 16, 165, 1112, 16, 2638, ⟨[[(103079215104, 0)],
    [(354334801920, 0)]], 3, 4⟩, ⟨[[(0, 316410124612), (2542287667635, 0), (8210224978, 0), (88075656, 0), (1165609,
    0)], [(187013094492, 0), (1549639145, 0), (19977184, 0), (338528, 0), (5319, 0)], [(48880643, 0), (1372528, 0),
    (34703, 0), (734, 0), (12, 0)], [(27924, 0), (1478, 0), (48, 0), (1, 0)]], 3, 4⟩, 1099511627776, 0, 159574501,
    ⟨[[(39190720516317, 0), (0, 8840280272), (12007810, 0), (509, 0), (0, 1)], [(4628902562, 0), (2150020, 0), (0,
    3888), (0, 1)], [(0, 1071093), (0, 1182), (1, 0)], [(369, 0), (1, 0)]], 3, 4⟩, 68719476736, 122191,
    5241458429735178277997058485978037157119515858222346094862698727823053634421841861470825952485, lc0⟩) (.sy (.sx
    (.leaf ⟨11009, 16, 330, 2202, 16, 5184, ⟨[[(0, 446676598784)], [(354334801920, 0)]], 3, 4⟩, ⟨[[(104701358656, 0),
    (2586884167940, 0), (4590433503, 0), (26386795, 0), (180893, 0)], [(188572554130, 0), (834320359, 0), (5848913,
    0), (51657, 0), (411, 0)], [(26114263, 0), (395059, 0), (5211, 0), (56, 0)], [(7967, 0), (219, 0), (4, 0)]], 3,
    4⟩, 1099511627776, 0, 20615489, ⟨[[(39224717934243, 0), (0, 4369578028), (3089049, 0), (59, 0)], [(2298388840,
    0), (516461, 0), (0, 499)], [(0, 263818), (0, 142)], [(45, 0)]], 3, 4⟩, 68719476736, 24770,
    4954171840695295487392531867644085715884655523121721487319181157440248992725342659402534005058, lc0⟩) (.skip))
    (.skip))) (.sx (.sy (.sx (.sy (.leaf ⟨10947, 16, 330, 2897, 16, 6847, ⟨[[(0, 309237645312)], [(354334801920,
    0)]], 3, 4⟩, ⟨[[(439692889949, 0), (1666079627890, 0), (1419358068, 0), (3974571, 0), (13370, 0)],
    [(247305649199, 0), (531468936, 0), (1805513, 0), (7827, 0), (31, 0)], [(33864808, 0), (249343, 0), (1617, 0),
    (9, 0)], [(10253, 0), (139, 0), (1, 0)]], 3, 4⟩, 1099511627776, 0, 24268355, ⟨[[(39119387439672, 0), (0,
    3373693976), (1787720, 0), (29, 0)], [(2326981325, 0), (411343, 0), (0, 292)], [(0, 271092), (0, 114)], [(47,
    0)]], 3, 4⟩, 68719476736, 13290,
    4321452628523593342776828747162569801732028631904164609915606867078511946724639751230155736002, lc0⟩) (.skip))
    (.skip)) (.skip)) (.skip))) (.skip))) (.skip)
theorem c127 : checkC job ⟨6, 8, 8, 10, 9, 13⟩ 1 25 lims t127 1040 48 128 117 3 256 = true := by decide +kernel

def t128 : CTree :=
  .skip
theorem c128 : checkC job ⟨6, 8, 8, 10, 9, 13⟩ 1 25 lims t128 592 48 64 117 3 256 = true := by decide +kernel

def t129 : CTree :=
  .sy (.sx (.sy (.sx (.sx (.sy (.sx (.sy (.sx (.leaf ⟨5790, 16, 165, 985, 16, 2248, ⟨[[(515396075520, 0)],
    [(354334801920, 0)]], 3, 4⟩, ⟨[[(0, 86645955293), (2757844687238, 0), (12849523975, 0), (170863076, 0), (2639849,
    0)], [(171513556065, 0), (1860386025, 0), (31165415, 0), (618161, 0), (10866, 0)], [(49760150, 0), (1757193, 0),
    (51667, 0), (1224, 0), (23, 0)], [(30062, 0), (1818, 0), (66, 0), (2, 0)]], 3, 4⟩, 1099511627776, 0, 176692332,
    ⟨[[(40186357150033, 0), (0, 8583696047), (15057633, 0), (0, 94), (0, 2)], [(4119107117, 0), (1493131, 0), (0,
    4508), (0, 2)], [(0, 833351), (0, 810), (2, 0)], [(242, 0)]], 3, 4⟩, 68719476736, 100342,
    4731384344513519634455879327972737190709918115570376980148395764868080133724496201586264817387, lc0⟩) (.sy (.sx
    (.leaf ⟨11627, 16, 330, 1954, 16, 4427, ⟨[[(377957122048, 0)], [(354334801920, 0)]], 3, 4⟩, ⟨[[(525145955078, 0),
    (2813074877685, 0), (7105895957, 0), (49763619, 0), (393411, 0)], [(173351062680, 0), (999708197, 0), (8916647,
    0), (91034, 0), (809, 0)], [(26518630, 0), (495846, 0), (7528, 0), (90, 0), (1, 0)], [(8415, 0), (263, 0), (5,
    0)]], 3, 4⟩, 1099511627776, 0, 21406562, ⟨[[(40221690205847, 0), (0, 4231404548), (3854629, 0), (0, 26)],
    [(2045312464, 0), (353218, 0), (0, 577)], [(0, 205539), (0, 97)], [(30, 0)]], 3, 4⟩, 68719476736, 28711,
    3874180799590710436135609543365617521352576957369096187909023594345919565343613009655696999789, lc0⟩) (.skip))
    (.skip))) (.skip)) (.skip)) (.skip)) (.skip)) (.skip)) (.skip)) (.skip)) (.skip)
theorem c129 : checkC job ⟨6, 8, 8, 10, 9, 13⟩ 1 25 lims t129 208 48 16 57 3 128 = true := by decide +kernel

def t130 : CTree :=
  .sx (.out ⟨175, 16, 40, 1088, 16, 756, ⟨[[], [(343597383680, 0)]], 1, 1⟩, ⟨[[(273302099454, 0), (0,
    3021873526040)], [(0, 146822357647), (0, 3996301794)]], 1, 1⟩, 1099511627776, 0, 492686164581, ⟨[], 0, 0⟩, 0, 0,
    0, lc0⟩ 0 1 667281790700) (.out ⟨205, 16, 40, 934, 16, 657, ⟨[[], [(343597383680, 0)]], 1, 1⟩, ⟨[[(0,
    93502913697), (0, 3020974008003)], [(0, 144128086408), (0, 4875499684)]], 1, 1⟩, 1099511627776, 0, 765184227337,
    ⟨[], 0, 0⟩, 0, 0, 0, lc0⟩ 0 1 405257414679)
theorem c130 : checkC job ⟨6, 8, 8, 10, 9, 13⟩ 1 25 lims t130 304 48 64 123 3 256 = true := by decide +kernel

def t131 : CTree :=
  .sy (.sx (.out ⟨461, 16, 81, 1757, 16, 1243, ⟨[[(0, 343597383680)], [(347892350976, 0)]], 1, 1⟩, ⟨[[(0,
    248618726856), (0, 3142099041450)], [(0, 143317614392), (0, 2718993053)]], 1, 1⟩, 1099511627776, 0, 350283270098,
    ⟨[], 0, 0⟩, 0, 0, 0, lc0⟩ 0 1 272915088041) (.out ⟨491, 16, 81, 1601, 16, 1141, ⟨[[(68719476736, 0)],
    [(347892350976, 0)]], 1, 1⟩, ⟨[[(0, 339236538355), (0, 3150510034966)], [(0, 141879045527), (0, 3089162590)]], 1,
    1⟩, 1099511627776, 0, 450718520514, ⟨[], 0, 0⟩, 0, 0, 0, lc0⟩ 0 1 148814074892)) (.sx (.sy (.out ⟨461, 16, 81,
    2286, 16, 1630, ⟨[[(0, 343597383680)], [(347892350976, 0)]], 1, 1⟩, ⟨[[(504662317877, 0), (0, 2166562508431)],
    [(0, 205808373667), (0, 2221258309)]], 1, 1⟩, 1099511627776, 0, 331109350211, ⟨[], 0, 0⟩, 0, 0, 0, lc0⟩ 0 1
    180356530722) (.out ⟨461, 16, 81, 2140, 16, 1534, ⟨[[(0, 343597383680)], [(347892350976, 0)]], 1, 1⟩,
    ⟨[[(479679140922, 0), (0, 2128376534263)], [(0, 207401930340), (0, 2507223538)]], 1, 1⟩, 1099511627776, 0,
    400611133573, ⟨[], 0, 0⟩, 0, 0, 0, lc0⟩ 0 1 125378026776)) (.sy (.sx (.out ⟨967, 16, 162, 3035, 16, 2177, ⟨[[(0,
    68719476736)], [(347892350976, 0)]], 1, 1⟩, ⟨[[(166290469754, 0), (0, 3129764239115)], [(0, 146970040174), (0,
    1818780886)]], 1, 1⟩, 1099511627776, 0, 243464363118, ⟨[], 0, 0⟩, 0, 0, 0, lc0⟩ 0 1 91128664599) (.sy (.sy (.out
    ⟨997, 16, 162, 5214, 16, 3748, ⟨[[(343597383680, 0)], [(347892350976, 0)]], 1, 1⟩, ⟨[[(378239408592, 0), (0,
    1398299736764)], [(0, 258133177227), (0, 843098848)]], 1, 1⟩, 1099511627776, 0, 180609409109, ⟨[], 0, 0⟩, 0, 0,
    0, lc0⟩ 0 1 52374384948) (.out ⟨997, 16, 162, 5109, 16, 3678, ⟨[[(343597383680, 0)], [(347892350976, 0)]], 1, 1⟩,
    ⟨[[(459006302046, 0), (0, 1391569584684)], [(0, 258422396279), (0, 877056777)]], 1, 1⟩, 1099511627776, 0,
    190176304268, ⟨[], 0, 0⟩, 0, 0, 0, lc0⟩ 0 1 38834363680)) (.skip))) (.sx (.sy (.out ⟨967, 16, 162, 4030, 16,
    2903, ⟨[[(0, 68719476736)], [(347892350976, 0)]], 1, 1⟩, ⟨[[(0, 99538800346), (0, 2173714743400)], [(0,
    207848706622), (0, 1437100024)]], 1, 1⟩, 1099511627776, 0, 210847822863, ⟨[], 0, 0⟩, 0, 0, 0, lc0⟩ 0 1
    51918292272) (.skip)) (.skip))))
theorem c131 : checkC job ⟨6, 8, 8, 10, 9, 13⟩ 1 25 lims t131 752 48 128 123 3 256 = true := by decide +kernel

def t132 : CTree :=
  .sy (.sx (.sy (.leaf ⟨2578, 16, 82, 615, 16, 1521, ⟨[[(0, 137438953472)], [(352187318272, 0)]], 3, 4⟩, ⟨[[(0,
    19801098432), (2266562572124, 0), (9076905912, 0), (136884839, 0), (2588698, 0)], [(198667646036, 0),
    (2418283805, 0), (40095482, 0), (960451, 0), (24996, 0)], [(90435221, 0), (3410836, 0), (124083, 0), (4435, 0),
    (133, 0)], [(81046, 0), (6558, 0), (370, 0), (15, 0)]], 3, 4⟩, 1099511627776, 0, 1132899775, ⟨[[(38191073349066,
    0), (0, 18710781741), (39527835, 0), (5955, 0), (0, 4)], [(10513013006, 0), (12031827, 0), (0, 27917), (0, 22)],
    [(0, 5699719), (0, 14075), (23, 0)], [(4692, 0), (14, 0)]], 3, 4⟩, 68719476736, 501801,
    5128181044765477000214607887008015347089239863929065412852619244238180480952321442101116416397, lc0⟩) (.sx (.sy
    (.leaf ⟨5172, 16, 165, 1235, 16, 3030, ⟨[[(0, 309237645312)], [(354334801920, 0)]], 3, 4⟩, ⟨[[(0, 100610226750),
    (2282894106475, 0), (5001285202, 0), (40600172, 0), (404029, 0)], [(204625630337, 0), (1311145649, 0), (11944629,
    0), (152951, 0), (2024, 0)], [(50211043, 0), (1031507, 0), (20199, 0), (369, 0), (6, 0)], [(25305, 0), (1097, 0),
    (32, 0), (1, 0)]], 3, 4⟩, 1099511627776, 0, 146932961, ⟨[[(38018049291188, 0), (0, 9241646799), (10037442, 0),
    (764, 0)], [(5298296028, 0), (2985931, 0), (0, 3582), (0, 1)], [(0, 1452245), (0, 1758), (1, 0)], [(602, 0), (1,
    0)]], 3, 4⟩, 68719476736, 109783,
    4427240780031170413469076061992551204867710656477897507080067608694059984481453563427027808938, lc0⟩) (.sx (.sy
    (.out ⟨2040, 16, 324, 8292, 16, 5962, ⟨[[(206158430208, 0)], [(347892350976, 0)]], 1, 1⟩, ⟨[[(162999944280, 0),
    (0, 2259787682595)], [(0, 204813561674), (0, 674749285)]], 1, 1⟩, 1099511627776, 0, 88963468472, ⟨[], 0, 0⟩, 0,
    0, 0, lc0⟩ 0 1 35967667978) (.sy (.out ⟨2040, 16, 324, 10283, 16, 7402, ⟨[[(206158430208, 0)], [(347892350976,
    0)]], 1, 1⟩, ⟨[[(445552205606, 0), (0, 1417716376080)], [(0, 258135369041), (0, 437701341)]], 1, 1⟩,
    1099511627776, 0, 89664390680, ⟨[], 0, 0⟩, 0, 0, 0, lc0⟩ 0 1 25595820480) (.skip))) (.sy (.sx (.leaf ⟨20734, 16,
    661, 3474, 16, 8443, ⟨[[(0, 317827579904)], [(354871672832, 0)]], 3, 4⟩, ⟨[[(0, 257857728052), (3271110599449,
    0), (4024823081, 0), (17832655, 0), (94603, 0)], [(147768651208, 0), (508203952, 0), (2598081, 0), (17982, 0),
    (122, 0)], [(9828571, 0), (112380, 0), (1195, 0), (11, 0)], [(1406, 0), (33, 0)]], 3, 4⟩, 1099511627776, 0,
    2653847, ⟨[[(37930431632151, 0), (0, 3228127997), (1294477, 0), (34, 0)], [(1328512854, 0), (258778, 0), (0,
    116)], [(0, 91347), (0, 38)], [(9, 0)]], 3, 4⟩, 68719476736, 9487,
    5186930654954352566832423374681808491377258703836296926154774425817220794055112298183945883743, lc0⟩) (.skip))
    (.skip)))) (.sy (.sx (.sy (.leaf ⟨10390, 16, 330, 2442, 16, 5942, ⟨[[(0, 171798691840)], [(354334801920, 0)]], 3,
    4⟩, ⟨[[(145683823304, 0), (2319447496850, 0), (2816344538, 0), (12362428, 0), (65879, 0)], [(206008233358, 0),
    (703046875, 0), (3547084, 0), (24549, 0), (168, 0)], [(26718505, 0), (301824, 0), (3200, 0), (30, 0)], [(7413,
    0), (172, 0), (3, 0)]], 3, 4⟩, 1099511627776, 0, 20458205, ⟨[[(38046186906448, 0), (0, 4573871048), (2594596, 0),
    (95, 0)], [(2630923769, 0), (722566, 0), (0, 463)], [(0, 357209), (0, 213)], [(73, 0)]], 3, 4⟩, 68719476736,
    24725, 4722164801526856728887440010552817198360758196221877188358941931751964597818372437256271156194, lc0⟩)
    (.skip)) (.skip)) (.skip)))) (.sy (.sx (.sy (.sx (.leaf ⟨10452, 16, 330, 1725, 16, 4212, ⟨[[(0, 309237645312)],
    [(354334801920, 0)]], 3, 4⟩, ⟨[[(0, 197674027374), (3310456667080, 0), (7697202878, 0), (65216310, 0), (689649,
    0)], [(142805997478, 0), (949888601, 0), (9152034, 0), (124386, 0), (1716, 0)], [(17510807, 0), (379220, 0),
    (7849, 0), (148, 0), (2, 0)], [(4502, 0), (204, 0), (6, 0)]], 3, 4⟩, 1099511627776, 0, 15177445,
    ⟨[[(38246585436798, 0), (0, 6451873647), (5102735, 0), (254, 0)], [(2581509685, 0), (993804, 0), (0, 893)], [(0,
    342265), (0, 288)], [(69, 0)]], 3, 4⟩, 68719476736, 44727,
    3455940268991702635172455430454315497928198267842315644381886999337678527818675477732592054140, lc0⟩) (.sy (.leaf
    ⟨10483, 16, 330, 2429, 16, 5905, ⟨[[(0, 377957122048)], [(354334801920, 0)]], 3, 4⟩, ⟨[[(339824560091, 0),
    (2369212724023, 0), (2913043526, 0), (12896484, 0), (70757, 0)], [(202974162031, 0), (699069958, 0), (3562193,
    0), (25228, 0), (177, 0)], [(25616724, 0), (292105, 0), (3151, 0), (30, 0)], [(6919, 0), (163, 0), (2, 0)]], 3,
    4⟩, 1099511627776, 0, 18593157, ⟨[[(38277835503773, 0), (0, 4525313792), (2585053, 0), (89, 0)], [(2567843728,
    0), (686695, 0), (0, 452)], [(0, 338105), (0, 199)], [(67, 0)]], 3, 4⟩, 68719476736, 22479,
    3624195281139112165152743172595368265742855817514651311845974731804762579467241132571172434845, lc0⟩) (.sx (.leaf
    ⟨20982, 16, 661, 3404, 16, 8245, ⟨[[(0, 455266533376)], [(354871672832, 0)]], 3, 4⟩, ⟨[[(0, 140010311602),
    (3334222666610, 0), (4281109750, 0), (19612789, 0), (109710, 0)], [(143813893579, 0), (508961663, 0), (2710122,
    0), (19678, 0), (139, 0)], [(9399223, 0), (111618, 0), (1237, 0), (12, 0)], [(1336, 0), (32, 0)]], 3, 4⟩,
    1099511627776, 0, 2512078, ⟨[[(38217410419977, 0), (0, 3211796029), (1328998, 0), (32, 0)], [(1287695783, 0),
    (243757, 0), (0, 117)], [(0, 85110), (0, 35)], [(8, 0)]], 3, 4⟩, 68719476736, 9973,
    4411220322398385853755060700230783163613916289686738682117236155514893306544271781040203570957, lc0⟩) (.skip))))
    (.sx (.sy (.leaf ⟨10452, 16, 330, 2411, 16, 5841, ⟨[[(0, 309237645312)], [(354334801920, 0)]], 3, 4⟩, ⟨[[(0,
    119411356868), (2346357478728, 0), (3005323324, 0), (13742305, 0), (76353, 0)], [(204237945730, 0), (721445827,
    0), (3834209, 0), (27697, 0), (194, 0)], [(26890153, 0), (318786, 0), (3520, 0), (34, 0)], [(7704, 0), (185, 0),
    (3, 0)]], 3, 4⟩, 1099511627776, 0, 21134452, ⟨[[(38159817466307, 0), (0, 4552358298), (2658759, 0), (94, 0)],
    [(2594854504, 0), (699029, 0), (0, 470)], [(0, 346150), (0, 204)], [(70, 0)]], 3, 4⟩, 68719476736, 24598,
    5267774055969379063356085530964607875842496790528057941043744398360530352817491883639366733203, lc0⟩) (.skip))
    (.skip))) (.sy (.sx (.sy (.sx (.leaf ⟨21044, 16, 661, 3377, 16, 8164, ⟨[[(0, 489626271744)], [(354871672832,
    0)]], 3, 4⟩, ⟨[[(225621668171, 0), (3347341274209, 0), (4405939520, 0), (20572027, 0), (117219, 0)],
    [(142939231912, 0), (514175608, 0), (2803847, 0), (20742, 0), (148, 0)], [(9404097, 0), (114141, 0), (1287, 0),
    (13, 0)], [(1355, 0), (33, 0)]], 3, 4⟩, 1099511627776, 0, 2594055, ⟨[[(38276182189700, 0), (0, 3211163643),
    (1348796, 0), (32, 0)], [(1278791499, 0), (240276, 0), (0, 118)], [(0, 83781), (0, 35)], [(8, 0)]], 3, 4⟩,
    68719476736, 6698,
    4604483703884839038388311131559480202032648830809625006215499721473477044573144518988072856940, lc0⟩) (.skip))
    (.skip)) (.skip)) (.skip))) (.skip))) (.skip)
theorem c132 : checkC job ⟨6, 8, 8, 10, 9, 13⟩ 1 25 lims t132 848 48 128 123 3 256 = true := by decide +kernel

def t133 : CTree :=
  .sx (.sx (.sx (.out ⟨339, 16, 81, 1311, 16, 922, ⟨[[(206158430208, 0)], [(347892350976, 0)]], 1, 1⟩,
    ⟨[[(133814178151, 0), (0, 3758204981386)], [(0, 103282252932), (0, 3246249340)]], 1, 1⟩, 1099511627776, 0,
    486667470213, ⟨[], 0, 0⟩, 0, 0, 0, lc0⟩ 0 1 502128634816) (.sy (.out ⟨370, 16, 81, 1923, 16, 1356, ⟨[[(0,
    481036337152)], [(347892350976, 0)]], 1, 1⟩, ⟨[[(0, 389901590528), (0, 2947537202108)], [(0, 155745692779), (0,
    2641246213)]], 1, 1⟩, 1099511627776, 0, 322511821405, ⟨[], 0, 0⟩, 0, 0, 0, lc0⟩ 0 1 427686101513) (.sy (.out
    ⟨370, 16, 81, 2467, 16, 1751, ⟨[[(0, 481036337152)], [(347892350976, 0)]], 1, 1⟩, ⟨[[(0, 175400167874), (0,
    1978039114069)], [(0, 218041093107), (0, 2080346642)]], 1, 1⟩, 1099511627776, 0, 330162964627, ⟨[], 0, 0⟩, 0, 0,
    0, lc0⟩ 0 1 345192479772) (.out ⟨370, 16, 81, 2331, 16, 1662, ⟨[[(0, 481036337152)], [(347892350976, 0)]], 1, 1⟩,
    ⟨[[(49791881144, 0), (0, 1940452948111)], [(0, 219757115619), (0, 2307921006)]], 1, 1⟩, 1099511627776, 0,
    385796139495, ⟨[], 0, 0⟩, 0, 0, 0, lc0⟩ 0 1 293272623304)))) (.sy (.sx (.out ⟨400, 16, 81, 1744, 16, 1239, ⟨[[(0,
    68719476736)], [(347892350976, 0)]], 1, 1⟩, ⟨[[(0, 188129745024), (0, 2953346506883)], [(0, 154161778650), (0,
    3044714159)]], 1, 1⟩, 1099511627776, 0, 417915712498, ⟨[], 0, 0⟩, 0, 0, 0, lc0⟩ 0 1 297054366697) (.sy (.out
    ⟨430, 16, 81, 2241, 16, 1601, ⟨[[(343597383680, 0)], [(347892350976, 0)]], 1, 1⟩, ⟨[[(0, 154678860868), (0,
    2078476751233)], [(0, 211052766326), (0, 2361950721)]], 1, 1⟩, 1099511627776, 0, 373847094583, ⟨[], 0, 0⟩, 0, 0,
    0, lc0⟩ 0 1 197910866225) (.out ⟨430, 16, 81, 2089, 16, 1500, ⟨[[(343597383680, 0)], [(347892350976, 0)]], 1, 1⟩,
    ⟨[[(0, 411646123406), (0, 2039918528974)], [(0, 212361522611), (0, 2692124430)]], 1, 1⟩, 1099511627776, 0,
    457237750689, ⟨[], 0, 0⟩, 0, 0, 0, lc0⟩ 0 1 147187938680))) (.sx (.out ⟨400, 16, 81, 1546, 16, 1109, ⟨[[(0,
    68719476736)], [(347892350976, 0)]], 1, 1⟩, ⟨[[(0, 123832268941), (0, 2862662217230)], [(0, 157376500677), (0,
    3864596814)]], 1, 1⟩, 1099511627776, 0, 630763883810, ⟨[], 0, 0⟩, 0, 0, 0, lc0⟩ 0 1 193717566448) (.skip)))) (.sx
    (.sy (.sx (.sy (.sy (.out ⟨461, 16, 81, 2530, 16, 1821, ⟨[[(0, 343597383680)], [(347892350976, 0)]], 1, 1⟩,
    ⟨[[(391826658036, 0), (0, 1313751425308)], [(0, 260720505373), (0, 1751723402)]], 1, 1⟩, 1099511627776, 0,
    436664659964, ⟨[], 0, 0⟩, 0, 0, 0, lc0⟩ 0 1 86911400952) (.skip)) (.skip)) (.skip)) (.skip)) (.skip))
theorem c133 : checkC job ⟨6, 8, 8, 10, 9, 13⟩ 1 25 lims t133 176 48 32 129 3 256 = true := by decide +kernel

def t134 : CTree :=
  .sy (.sx (.sx (.sy (.sx (.out ⟨339, 16, 81, 1770, 16, 1260, ⟨[[(206158430208, 0)], [(347892350976, 0)]], 1, 1⟩,
    ⟨[[(43994450186, 0), (0, 2763820860814)], [(0, 165387756234), (0, 3308099193)]], 1, 1⟩, 1099511627776, 0,
    477314188369, ⟨[], 0, 0⟩, 0, 0, 0, lc0⟩ 0 1 349250143469) (.out ⟨370, 16, 81, 1546, 16, 1110, ⟨[[(0,
    481036337152)], [(347892350976, 0)]], 1, 1⟩, ⟨[[(0, 115011943094), (0, 2765539450731)], [(0, 162700363941), (0,
    4081846018)]], 1, 1⟩, 1099511627776, 0, 678796761858, ⟨[], 0, 0⟩, 0, 0, 0, lc0⟩ 0 1 222120207518)) (.sx (.sy
    (.out ⟨339, 16, 81, 2183, 16, 1564, ⟨[[(206158430208, 0)], [(347892350976, 0)]], 1, 1⟩, ⟨[[(0, 370676587706), (0,
    1818151617182)], [(0, 226360180084), (0, 2677276643)]], 1, 1⟩, 1099511627776, 0, 499303637585, ⟨[], 0, 0⟩, 0, 0,
    0, lc0⟩ 0 1 281194410177) (.skip)) (.skip))) (.skip)) (.skip)) (.skip)
theorem c134 : checkC job ⟨6, 8, 8, 10, 9, 13⟩ 1 25 lims t134 176 48 32 69 3 128 = true := by decide +kernel

def t135 : CTree :=
  .skip
theorem c135 : checkC job ⟨6, 8, 8, 10, 9, 13⟩ 1 25 lims t135 272 48 32 33 3 64 = true := by decide +kernel

def t136 : CTree :=
  .skip
theorem c136 : checkC job ⟨6, 8, 8, 10, 9, 13⟩ 1 25 lims t136 208 48 16 33 3 64 = true := by decide +kernel

def t137 : CTree :=
  .skip
theorem c137 : checkC job ⟨6, 8, 8, 10, 9, 13⟩ 1 25 lims t137 176 48 8 15 3 32 = true := by decide +kernel

def t138 : CTree :=
  .skip
theorem c138 : checkC job ⟨6, 8, 8, 10, 9, 13⟩ 1 25 lims t138 160 48 4 15 3 32 = true := by decide +kernel

def t139 : CTree :=
  .skip
theorem c139 : checkC job ⟨6, 8, 8, 10, 9, 13⟩ 1 25 lims t139 56 48 2 21 3 32 = true := by decide +kernel

def t140 : CTree :=
  .skip
theorem c140 : checkC job ⟨6, 8, 8, 10, 9, 13⟩ 1 25 lims t140 152 48 2 9 3 16 = true := by decide +kernel

end PyX.Kron.T2c
