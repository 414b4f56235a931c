import Verif.Lemmas.T2aJob

/-!
# Temperature from pressure and enthalpy in subregion 2a, part B of the certificate
-/

namespace PyX.Kron.T2a

set_option Elab.async false

def t9 : CTree :=
  .sy (.leaf ⟨105, 16, 30, 325, 16, 565, ⟨[[], [(8246337208320, 0)]], 3, 4⟩, ⟨[[(0, 267803724708), (4068883186063,
    0), (0, 15952032074), (583458116, 0), (1835276, 0)], [(2045843365614, 0), (75684125315, 0), (1887578418, 0),
    (43834131, 0), (1019165, 0)], [(17247657274, 0), (1589467118, 0), (74882735, 0), (2850893, 0), (121978, 0)],
    [(159563005, 0), (23076567, 0), (2142381, 0), (166223, 0), (10922, 0)]], 3, 4⟩, 1099511627776, 0, 206070514,
    ⟨[[(41279717184257, 0), (0, 97001833204), (125578606, 0), (760018, 0), (2065, 0)], [(24138613411, 0), (178928570,
    0), (661904, 0), (0, 466), (3, 0)], [(0, 24789248), (0, 493818), (0, 5866), (0, 11), (1, 0)], [(23939, 0), (312,
    0), (3, 0)]], 3, 4⟩, 68719476736, 278134254,
    1581692907976779530609889065626498473395798212809674593264354462641898007821963154370070577152, lc0⟩) (.sy (.leaf
    ⟨105, 16, 30, 517, 16, 856, ⟨[[], [(8246337208320, 0)]], 3, 4⟩, ⟨[[(0, 132315707337), (3001082747096, 0), (0,
    2924508677), (122770848, 0), (574857, 0)], [(3680246091311, 0), (72567826838, 0), (1002256284, 0), (13834784, 0),
    (244240, 0)], [(39755607443, 0), (1892026254, 0), (51594449, 0), (1345846, 0), (40216, 0)], [(496831860, 0),
    (44106909, 0), (2493849, 0), (111433, 0), (4224, 0)]], 3, 4⟩, 1099511627776, 0, 406532376, ⟨[[(39740529104581,
    0), (0, 60915205081), (72022407, 0), (245986, 0), (131, 0)], [(27218299850, 0), (132133760, 0), (283537, 0), (0,
    28), (0, 2)], [(0, 34325992), (0, 444389), (0, 1991), (17, 0)], [(32355, 0), (627, 0), (20, 0)]], 3, 4⟩,
    68719476736, 144344795,
    1120654503281900486893798746979467082578324704719422841006536788593512669712068927370052972475, lc0⟩) (.leaf
    ⟨105, 16, 30, 503, 16, 807, ⟨[[], [(8246337208320, 0)]], 3, 4⟩, ⟨[[(0, 368888485408), (2809285460613, 0), (0,
    517836240), (135838278, 0), (1249748, 0)], [(3917247644085, 0), (81408082529, 0), (1246440426, 0), (21721434, 0),
    (552011, 0)], [(50267799893, 0), (2547049247, 0), (83171695, 0), (2829467, 0), (104874, 0)], [(831677894, 0),
    (85715117, 0), (5506025, 0), (275822, 0), (11750, 0)]], 3, 4⟩, 1099511627776, 0, 935230480, ⟨[[(38753727527978,
    0), (0, 61870387901), (94952269, 0), (302244, 0), (275, 0)], [(29481108630, 0), (149979970, 0), (304998, 0), (0,
    808), (0, 25)], [(0, 42141391), (0, 526281), (0, 1384), (7, 0), (0, 1)], [(50293, 0), (1788, 0), (52, 0), (1,
    0)]], 3, 4⟩, 68719476736, 268402641,
    1506953428289370300064367491521697736938404310130496528828826497830996768585658699882218824967, lc0⟩))
theorem c9 : checkC job ⟨6, 8, 8, 10, 9, 13⟩ 3 100 lims t9 14 2 4 27 3 64 = true := by decide +kernel

def t10 : CTree :=
  .sy (.leaf ⟨105, 16, 30, 480, 16, 748, ⟨[[], [(8246337208320, 0)]], 3, 4⟩, ⟨[[(148027350258, 0), (2613028436567,
    0), (2140315030, 0), (172999613, 0), (3147099, 0)], [(4130358395712, 0), (92076774542, 0), (1678311556, 0),
    (41775807, 0), (1485771, 0)], [(64259597431, 0), (3682970130, 0), (155959483, 0), (6954480, 0), (306145, 0)],
    [(1504627427, 0), (181207543, 0), (13310339, 0), (752501, 0), (35670, 0)]], 3, 4⟩, 1099511627776, 0, 2232336740,
    ⟨[[(37856260060712, 0), (0, 63481676858), (127300643, 0), (457216, 0), (3105, 0)], [(31773161818, 0), (170560112,
    0), (261009, 0), (0, 3761), (0, 57)], [(0, 50292343), (0, 621624), (0, 2955), (0, 86), (0, 2)], [(90488, 0),
    (4053, 0), (91, 0)]], 3, 4⟩, 68719476736, 656539719,
    2047283367013455571256996262687979136752919097429862956311670531911653720961709817258012125515, lc0⟩) (.sx (.leaf
    ⟨198, 16, 61, 657, 16, 1002, ⟨[[(274877906944, 0)], [(8383776161792, 0)]], 3, 4⟩, ⟨[[(0, 286094343696),
    (3414327895699, 0), (4959710591, 0), (297680238, 0), (7944836, 0)], [(3064926918992, 0), (71286687452, 0),
    (1514854903, 0), (49493167, 0), (2100540, 0)], [(28494725205, 0), (1821638603, 0), (94475939, 0), (5005497, 0),
    (242932, 0)], [(445554311, 0), (60476168, 0), (4980802, 0), (311633, 0), (16061, 0)]], 3, 4⟩, 1099511627776, 0,
    553927895, ⟨[[(36947663406471, 0), (0, 46302867001), (79873136, 0), (296586, 0), (2446, 0)], [(16957826776, 0),
    (68503864, 0), (63178, 0), (0, 646), (0, 1)], [(0, 14786722), (0, 154827), (0, 1133), (0, 13)], [(22887, 0),
    (523, 0), (3, 0)]], 3, 4⟩, 68719476736, 58633877,
    1033036217222175573572787186897916820443482002998377568641297069437971046150905378611597389663, lc0⟩) (.leaf
    ⟨229, 16, 61, 607, 16, 910, ⟨[[(0, 274877906944)], [(8383776161792, 0)]], 3, 4⟩, ⟨[[(0, 33424611054),
    (3390289164707, 0), (11715439235, 0), (544161176, 0), (19506198, 0)], [(3013052915679, 0), (81124264418, 0),
    (2326145469, 0), (98192568, 0), (4582386, 0)], [(31926575343, 0), (2511596293, 0), (158400086, 0), (9262623, 0),
    (483685, 0)], [(615323591, 0), (90156687, 0), (7857649, 0), (537746, 0), (33185, 0)]], 3, 4⟩, 1099511627776, 0,
    942478098, ⟨[[(36966924550345, 0), (0, 46638068620), (111604412, 0), (537537, 0), (5191, 0)], [(16780491802, 0),
    (65946640, 0), (0, 59777), (0, 1798), (31, 0)], [(0, 14639563), (0, 148208), (0, 2115), (0, 51), (0, 1)],
    [(10833, 0), (387, 0), (0, 18), (0, 1)]], 3, 4⟩, 68719476736, 265934921,
    1588539479058077147248943495229653561634307843910697631274015724552697319873933895384225088005, lc0⟩))
theorem c10 : checkC job ⟨6, 8, 8, 10, 9, 13⟩ 3 100 lims t10 14 2 4 63 3 128 = true := by decide +kernel

def t11 : CTree :=
  .sx (.leaf ⟨198, 16, 61, 615, 16, 912, ⟨[[(274877906944, 0)], [(8383776161792, 0)]], 3, 4⟩, ⟨[[(0, 86178817252),
    (3199749945480, 0), (11819384954, 0), (607216579, 0), (24291937, 0)], [(3241541684287, 0), (88612185681, 0),
    (2841699952, 0), (136003703, 0), (6670865, 0)], [(40342003440, 0), (3454007773, 0), (244990100, 0), (15422992,
    0), (819157, 0)], [(985933767, 0), (158666671, 0), (14980404, 0), (1061585, 0), (63120, 0)]], 3, 4⟩,
    1099511627776, 0, 1677564633, ⟨[[(36112402816045, 0), (0, 47169794048), (123702819, 0), (673477, 0), (2921, 0)],
    [(18255994453, 0), (77090289, 0), (28507, 0), (0, 1286), (0, 30)], [(0, 18136853), (0, 224311), (0, 1351), (41,
    0), (2, 0)], [(33663, 0), (690, 0), (4, 0)]], 3, 4⟩, 68719476736, 378173188,
    2203700146160184890720426295646463870705305992587358249674420432493669169930756186288113340101, lc0⟩) (.sy (.leaf
    ⟨229, 16, 61, 825, 16, 1209, ⟨[[(0, 274877906944)], [(8383776161792, 0)]], 3, 4⟩, ⟨[[(214898680159, 0),
    (2350182370082, 0), (7432410952, 0), (186945041, 0), (4164297, 0)], [(4565610340952, 0), (73205014404, 0),
    (1477227138, 0), (39777366, 0), (1043621, 0)], [(63149544776, 0), (3147558202, 0), (123540565, 0), (4229608, 0),
    (128707, 0)], [(1657717865, 0), (140537176, 0), (7326753, 0), (315398, 0), (12433, 0)]], 3, 4⟩, 1099511627776, 0,
    1378867761, ⟨[[(36338916491254, 0), (0, 32483331418), (78621110, 0), (286726, 0), (0, 1568)], [(17686586474, 0),
    (47930525, 0), (0, 47896), (245, 0), (5, 0)], [(0, 17282907), (0, 183456), (0, 2860), (0, 43), (0, 1)], [(6913,
    0), (0, 1175), (0, 87), (0, 3)]], 3, 4⟩, 68719476736, 308979426,
    2941189923062395036343833638872341737896312904672311560970166324747256709954051892533652712023, lc0⟩) (.sx (.leaf
    ⟨446, 16, 123, 1137, 16, 1649, ⟨[[(0, 137438953472)], [(8452495638528, 0)]], 3, 4⟩, ⟨[[(236296476756, 0),
    (3235912354491, 0), (13186414027, 0), (354814185, 0), (8429276, 0)], [(3342440451252, 0), (59087870930, 0),
    (1401868919, 0), (41292546, 0), (1125853, 0)], [(27145131750, 0), (1524931503, 0), (65865622, 0), (2398599, 0),
    (76352, 0)], [(423539083, 0), (39010111, 0), (2209942, 0), (101883, 0), (4167, 0)]], 3, 4⟩, 1099511627776, 0,
    261174380, ⟨[[(35922492752712, 0), (0, 23060974219), (45542150, 0), (53381, 0), (0, 2244)], [(9122271739, 0),
    (18339961, 0), (0, 1842), (0, 0), (0, 6)], [(0, 4701495), (0, 33016), (0, 116), (2, 0)], [(1359, 0), (0, 168),
    (0, 8)]], 3, 4⟩, 68719476736, 70257518,
    2817152471661146799395116531537065807901717084385562889618919320829839175599016512983310509683, lc0⟩) (.sy (.sx
    (.leaf ⟨942, 16, 247, 2249, 16, 3247, ⟨[[(0, 343597383680)], [(8486855376896, 0)]], 3, 4⟩, ⟨[[(0, 510208406400),
    (3324890481541, 0), (7849953689, 0), (106785429, 0), (1308575, 0)], [(3364638995068, 0), (31592192684, 0),
    (399207708, 0), (6106165, 0), (87219, 0)], [(14116694577, 0), (414277040, 0), (9325320, 0), (180471, 0), (3133,
    0)], [(111139137, 0), (5346856, 0), (164436, 0), (4213, 0), (95, 0)]], 3, 4⟩, 1099511627776, 0, 24901303,
    ⟨[[(36014899429409, 0), (0, 11267784674), (11779748, 0), (0, 1622), (0, 260)], [(4476536506, 0), (4093387, 0),
    (0, 3612), (0, 34), (0, 1)], [(0, 1249621), (0, 7756), (0, 70), (0, 1)], [(0, 671), (0, 35), (0, 1)]], 3, 4⟩,
    68719476736, 4698032,
    1995374495225307060320668680476990738776719076227448195006247998447695403509708745144044084470, lc0⟩) (.leaf
    ⟨973, 16, 247, 2174, 16, 3122, ⟨[[(0, 481036337152)], [(8486855376896, 0)]], 3, 4⟩, ⟨[[(0, 58122749682),
    (3325115823489, 0), (9237497082, 0), (129222168, 0), (1648395, 0)], [(3349077227978, 0), (33827379755, 0),
    (463983911, 0), (7482092, 0), (113079, 0)], [(14951853083, 0), (466978818, 0), (11184982, 0), (233230, 0), (4399,
    0)], [(123563255, 0), (6373920, 0), (215893, 0), (6060, 0), (144, 0)]], 3, 4⟩, 1099511627776, 0, 31617683,
    ⟨[[(36019834171590, 0), (0, 11309694109), (12072675, 0), (0, 23965), (0, 549)], [(4437035539, 0), (3340719, 0),
    (0, 15338), (0, 172), (0, 2)], [(0, 1504875), (0, 16240), (0, 205), (0, 2)], [(0, 2087), (0, 78), (0, 1)]], 3,
    4⟩, 68719476736, 7240290,
    3814890245821135553807898778305647189163495995666271674137140540598645029057130205153776618851, lc0⟩)) (.sx (.sy
    (.leaf ⟨942, 16, 247, 3126, 16, 4486, ⟨[[(0, 343597383680)], [(8486855376896, 0)]], 3, 4⟩, ⟨[[(0, 492422810898),
    (2350443342099, 0), (3269212600, 0), (23082302, 0), (146388, 0)], [(4856930469011, 0), (24585468267, 0),
    (170405014, 0), (1370028, 0), (10142, 0)], [(22364524400, 0), (352595331, 0), (4211423, 0), (42921, 0), (390,
    0)], [(191979390, 0), (4919316, 0), (81053, 0), (1096, 0), (13, 0)]], 3, 4⟩, 1099511627776, 0, 35091614,
    ⟨[[(35863582020923, 0), (0, 7926281903), (5951509, 0), (0, 7832), (0, 124)], [(4531515388, 0), (2872381, 0), (0,
    3092), (0, 32)], [(0, 1369849), (0, 7258), (0, 52)], [(0, 1273), (0, 40)]], 3, 4⟩, 68719476736, 2743351,
    2244515344033282564176633185267579529452710195271206533041187855957064879989487694367674489347, lc0⟩) (.leaf
    ⟨942, 16, 247, 3055, 16, 4367, ⟨[[(0, 343597383680)], [(8486855376896, 0)]], 3, 4⟩, ⟨[[(258987696901, 0),
    (2328838549386, 0), (3619611808, 0), (26208699, 0), (169933, 0)], [(4877963805522, 0), (26076926194, 0),
    (192175845, 0), (1596513, 0), (12115, 0)], [(23987846229, 0), (397301001, 0), (4941184, 0), (52149, 0), (489,
    0)], [(218707671, 0), (5862392, 0), (101055, 0), (1411, 0), (17, 0)]], 3, 4⟩, 1099511627776, 0, 43492103,
    ⟨[[(35767374600171, 0), (0, 7997146639), (5844945, 0), (0, 16267), (0, 190)], [(4566165959, 0), (2855171, 0), (0,
    4882), (0, 57), (0, 1)], [(0, 1467151), (0, 8924), (0, 69)], [(0, 1837), (0, 54), (0, 1)]], 3, 4⟩, 68719476736,
    3481440, 3030787249830100201266490782486896094102488964233115351064139155527049973904485330252484342490, lc0⟩))
    (.sy (.sx (.leaf ⟨1934, 16, 495, 4306, 16, 6154, ⟨[[(0, 446676598784)], [(8504035246080, 0)]], 3, 4⟩,
    ⟨[[(157234425359, 0), (3330117783627, 0), (5241273098, 0), (37877065, 0), (247892, 0)], [(3427165455275, 0),
    (18411226327, 0), (135848634, 0), (1138963, 0), (8828, 0)], [(8299220855, 0), (137534767, 0), (1728693, 0),
    (18698, 0), (181, 0)], [(37130350, 0), (1010008, 0), (17924, 0), (258, 0), (3, 0)]], 3, 4⟩, 1099511627776, 0,
    4049784, ⟨[[(35866864444889, 0), (0, 5627097935), (2846859, 0), (0, 6580), (0, 53)], [(2243778078, 0), (827595,
    0), (0, 2346), (0, 16)], [(0, 406104), (0, 2366), (0, 15)], [(0, 339), (0, 6)]], 3, 4⟩, 68719476736, 565174,
    2048971649248403861962358695569384449539239855238332195628620882885496693459352609641528910893, lc0⟩) (.sx (.leaf
    ⟨3918, 16, 991, 5345, 16, 7622, ⟨[[(0, 498216206336)], [(8512625180672, 0)]], 3, 4⟩, ⟨[[(16059853067, 0),
    (4194474553068, 0), (7016200604, 0), (51361801, 0), (341952, 0)], [(2153818704081, 0), (11930028974, 0),
    (90863971, 0), (779363, 0), (6194, 0)], [(2676578978, 0), (45540962, 0), (588723, 0), (6571, 0), (65, 0)],
    [(6129884, 0), (172396, 0), (3176, 0), (47, 0), (1, 0)]], 3, 4⟩, 1099511627776, 0, 866923, ⟨[[(35864975873574,
    0), (0, 4487775344), (1663578, 0), (0, 4893), (0, 28)], [(1114358091, 0), (259181, 0), (0, 1221), (0, 6)], [(0,
    114885), (0, 648), (0, 4)], [(0, 59), (0, 1)]], 3, 4⟩, 68719476736, 215594,
    3749205491386427806611853012254494840237132806732684424409727859388629585551647392211963032520, lc0⟩) (.skip)))
    (.skip))))))
theorem c11 : checkC job ⟨6, 8, 8, 10, 9, 13⟩ 3 100 lims t11 14 2 4 135 3 256 = true := by decide +kernel

def t12 : CTree :=
  .sx (.sy (.sx (.leaf ⟨384, 16, 123, 1218, 16, 1777, ⟨[[(412316860416, 0)], [(8452495638528, 0)]], 3, 4⟩, ⟨[[(0,
    285950580838), (3152034407080, 0), (9197531806, 0), (251063316, 0), (5673089, 0)], [(3501736863388, 0),
    (54910622216, 0), (1155997010, 0), (32275721, 0), (827314, 0)], [(27627108030, 0), (1441271746, 0), (59313741,
    0), (2001893, 0), (55347, 0)], [(449048940, 0), (39964984, 0), (2044659, 0), (77889, 0), (2489, 0)]], 3, 4⟩,
    1099511627776, 0, 246226371, ⟨[[(35503862957095, 0), (0, 23122887218), (38130359, 0), (88339, 0), (0, 505)],
    [(9597855809, 0), (20526080, 0), (0, 9708), (0, 517), (0, 9)], [(0, 5271933), (0, 31490), (78, 0), (5, 0)],
    [(5287, 0), (66, 0), (1, 0)]], 3, 4⟩, 68719476736, 22526939,
    1657157826541770324756248803044097195719398575528020740313320454998529542127035885962998003666, lc0⟩) (.sy (.leaf
    ⟨415, 16, 123, 1646, 16, 2385, ⟨[[(137438953472, 0)], [(8452495638528, 0)]], 3, 4⟩, ⟨[[(0, 128648751155),
    (2251774338538, 0), (4417216461, 0), (60766188, 0), (718399, 0)], [(4895387966898, 0), (42752853873, 0),
    (511617219, 0), (7547709, 0), (100501, 0)], [(41681860610, 0), (1185366868, 0), (25726343, 0), (456712, 0),
    (6840, 0)], [(702437143, 0), (32461506, 0), (888552, 0), (18981, 0), (353, 0)]], 3, 4⟩, 1099511627776, 0,
    264650525, ⟨[[(35610276561344, 0), (0, 16290567051), (21910206, 0), (16484, 0), (0, 499)], [(9442544810, 0),
    (13881490, 0), (0, 5451), (0, 158), (0, 3)], [(0, 5025500), (0, 17858), (152, 0), (4, 0)], [(4599, 0), (3, 0),
    (0, 1)]], 3, 4⟩, 68719476736, 12141741,
    1301411346275057948817258777852206149127449357763147597090334027558999520491559271060488600985, lc0⟩) (.leaf
    ⟨415, 16, 123, 1581, 16, 2274, ⟨[[(137438953472, 0)], [(8452495638528, 0)]], 3, 4⟩, ⟨[[(163018850740, 0),
    (2204414396657, 0), (5419727879, 0), (77337580, 0), (946269, 0)], [(4931379651381, 0), (47484480696, 0),
    (640658117, 0), (9947085, 0), (135918, 0)], [(47509430208, 0), (1477830551, 0), (33987386, 0), (628652, 0),
    (9829, 0)], [(890342025, 0), (43403362, 0), (1259691, 0), (28629, 0), (561, 0)]], 3, 4⟩, 1099511627776, 0,
    373030200, ⟨[[(35415237962086, 0), (0, 16523170390), (24137300, 0), (0, 21426), (0, 1183)], [(9610354378, 0),
    (14319365, 0), (0, 16065), (0, 426), (0, 7)], [(0, 5213264), (0, 12954), (341, 0), (6, 0)], [(4495, 0), (0, 24),
    (0, 2)]], 3, 4⟩, 68719476736, 22672856,
    3524017627026235133090095002422030960548101948711106155322546669227946087265148816732652585236, lc0⟩))) (.sx (.sy
    (.leaf ⟨384, 16, 123, 1634, 16, 2359, ⟨[[(412316860416, 0)], [(8452495638528, 0)]], 3, 4⟩, ⟨[[(0, 51509055728),
    (2158809970107, 0), (4446545053, 0), (63294186, 0), (753626, 0)], [(5012125038892, 0), (44881882899, 0),
    (567805782, 0), (8546093, 0), (112327, 0)], [(47155748937, 0), (1407119450, 0), (31348882, 0), (551729, 0),
    (7936, 0)], [(900806467, 0), (42598270, 0), (1154218, 0), (23482, 0), (404, 0)]], 3, 4⟩, 1099511627776, 0,
    370960580, ⟨[[(35212796856150, 0), (0, 16650702017), (23091051, 0), (14437, 0), (0, 565)], [(9858974665, 0),
    (15005532, 0), (0, 23920), (0, 541), (0, 7)], [(0, 5650580), (0, 19658), (212, 0), (4, 0)], [(6361, 0), (79, 0),
    (1, 0)]], 3, 4⟩, 68719476736, 11766841,
    2833128284482022558170109508920839098850822416311951191571370624394920934046068456615903292420, lc0⟩) (.sx (.leaf
    ⟨756, 16, 247, 2338, 16, 3361, ⟨[[(481036337152, 0)], [(8486855376896, 0)]], 3, 4⟩, ⟨[[(214680658286, 0),
    (3089980773365, 0), (7209210702, 0), (104812337, 0), (1264898, 0)], [(3699847091366, 0), (35045802201, 0),
    (475296980, 0), (7324737, 0), (96617, 0)], [(19018349156, 0), (598814696, 0), (13716955, 0), (243808, 0), (3518,
    0)], [(197121068, 0), (9547131, 0), (262701, 0), (5392, 0), (93, 0)]], 3, 4⟩, 1099511627776, 0, 45556014,
    ⟨[[(35022312574046, 0), (0, 11537228186), (11578773, 0), (447, 0), (0, 182)], [(5004942604, 0), (5187148, 0), (0,
    10290), (0, 145), (0, 1)], [(0, 1472217), (0, 3204), (34, 0)], [(896, 0), (10, 0)]], 3, 4⟩, 68719476736, 2578067,
    2546998330697704336955286034174517370868544559645353544197687601401563032141148510676016762055, lc0⟩) (.sy (.sx
    (.leaf ⟨1562, 16, 495, 4633, 16, 6643, ⟨[[(377957122048, 0)], [(8504035246080, 0)]], 3, 4⟩, ⟨[[(116243883952, 0),
    (3138010136405, 0), (4054673137, 0), (29640301, 0), (181277, 0)], [(3718168975986, 0), (18417663641, 0),
    (130076952, 0), (1019508, 0), (6835, 0)], [(9836537362, 0), (159270836, 0), (1857962, 0), (16881, 0), (126, 0)],
    [(51290885, 0), (1263988, 0), (17941, 0), (193, 0), (2, 0)]], 3, 4⟩, 1099511627776, 0, 5095233,
    ⟨[[(35070101814395, 0), (0, 5707311197), (2882208, 0), (0, 1076), (0, 17)], [(2478802174, 0), (1245745, 0), (0,
    1409), (0, 10)], [(0, 354861), (0, 257), (3, 0)], [(110, 0), (1, 0)]], 3, 4⟩, 68719476736, 207685,
    2126081918364337200153022209945700368748715715137841960044618180076418033305471196268118404856, lc0⟩) (.sy (.leaf
    ⟨1593, 16, 495, 6353, 16, 9091, ⟨[[(309237645312, 0)], [(8504035246080, 0)]], 3, 4⟩, ⟨[[(182801303960, 0),
    (2190106602601, 0), (1524414843, 0), (5604370, 0), (17316, 0)], [(5159393334286, 0), (13223150015, 0), (48140092,
    0), (191217, 0), (650, 0)], [(13986652462, 0), (115728562, 0), (685406, 0), (3172, 0), (12, 0)], [(73544243, 0),
    (920714, 0), (6708, 0), (37, 0)]], 3, 4⟩, 1099511627776, 0, 6656244, ⟨[[(35094235623675, 0), (0, 4104169173),
    (1491800, 0), (0, 814), (0, 6)], [(2468425934, 0), (881589, 0), (0, 784), (0, 4)], [(0, 346718), (0, 107), (2,
    0)], [(104, 0)]], 3, 4⟩, 68719476736, 82383,
    2733178554824475143241354986611170183097562208016955920919025500532705348240042208025316385995, lc0⟩) (.skip)))
    (.sx (.sy (.leaf ⟨1562, 16, 495, 6341, 16, 9067, ⟨[[(377957122048, 0)], [(8504035246080, 0)]], 3, 4⟩,
    ⟨[[(373103758666, 0), (2167707008004, 0), (1527913774, 0), (5648317, 0), (17428, 0)], [(5191759422111, 0),
    (13412051990, 0), (49377610, 0), (196335, 0), (663, 0)], [(14457615267, 0), (120838092, 0), (717238, 0), (3297,
    0), (12, 0)], [(78291048, 0), (981262, 0), (7089, 0), (39, 0)]], 3, 4⟩, 1099511627776, 0, 7208150,
    ⟨[[(34997645486383, 0), (0, 4128032082), (1515530, 0), (0, 798), (0, 6)], [(2494467636, 0), (882506, 0), (0,
    983), (0, 5)], [(0, 357581), (0, 122), (2, 0)], [(117, 0)]], 3, 4⟩, 68719476736, 106533,
    3250533829640428646585120495680780354600183419127990175810191047218897895862982442332548711714, lc0⟩) (.skip))
    (.skip))))) (.sy (.sx (.sy (.leaf ⟨818, 16, 247, 3176, 16, 4555, ⟨[[(206158430208, 0)], [(8486855376896, 0)]], 3,
    4⟩, ⟨[[(163390240186, 0), (2209515690059, 0), (2923414742, 0), (21203077, 0), (130727, 0)], [(5060207444536, 0),
    (25248901593, 0), (177860641, 0), (1401451, 0), (9585, 0)], [(25890706503, 0), (416800385, 0), (4882127, 0),
    (45391, 0), (354, 0)], [(256906406, 0), (6371083, 0), (93261, 0), (1060, 0), (10, 0)]], 3, 4⟩, 1099511627776, 0,
    48169101, ⟨[[(35266014839873, 0), (0, 8194233598), (5953045, 0), (0, 5086), (0, 88)], [(4858602978, 0), (3551103,
    0), (0, 3688), (0, 43)], [(0, 1333339), (0, 1129), (28, 0)], [(664, 0), (1, 0)]], 3, 4⟩, 68719476736, 1390680,
    2557973259276522689816482500199657916628530850399010025453935610994496905859855900527349042150, lc0⟩) (.sx (.leaf
    ⟨1624, 16, 495, 4535, 16, 6489, ⟨[[(240518168576, 0)], [(8504035246080, 0)]], 3, 4⟩, ⟨[[(328599615406, 0),
    (3162492344920, 0), (4466488873, 0), (32780144, 0), (203430, 0)], [(3676967999385, 0), (18950196095, 0),
    (138226663, 0), (1102182, 0), (7561, 0)], [(9865284886, 0), (163253998, 0), (1940813, 0), (18167, 0), (142, 0)],
    [(50999597, 0), (1283180, 0), (18981, 0), (217, 0), (2, 0)]], 3, 4⟩, 1099511627776, 0, 5154498,
    ⟨[[(35168499402392, 0), (0, 5709785438), (2881686, 0), (0, 2595), (0, 25)], [(2447632144, 0), (1225817, 0), (0,
    1292), (0, 10)], [(0, 337651), (0, 122), (4, 0)], [(91, 0)]], 3, 4⟩, 68719476736, 235858,
    3343386499030181396631992239011073659482436816662460875686352439824381428980518966441729085125, lc0⟩) (.skip)))
    (.sy (.sx (.sy (.leaf ⟨1686, 16, 495, 6259, 16, 8945, ⟨[[(103079215104, 0)], [(8504035246080, 0)]], 3, 4⟩, ⟨[[(0,
    365189019140), (2237579719284, 0), (1664033093, 0), (6109515, 0), (19191, 0)], [(5087506491957, 0), (13409208014,
    0), (49671281, 0), (200653, 0), (705, 0)], [(13572614557, 0), (113401229, 0), (683985, 0), (3297, 0), (14, 0)],
    [(68713758, 0), (880282, 0), (6774, 0), (41, 0)]], 3, 4⟩, 1099511627776, 0, 6219406, ⟨[[(35288146746259, 0), (0,
    4065064909), (1452819, 0), (0, 1432), (0, 8)], [(2413294733, 0), (871105, 0), (0, 488), (0, 3)], [(0, 324749),
    (0, 78), (2, 0)], [(50, 0)]], 3, 4⟩, 68719476736, 125656,
    2918335485139350921122600906937183875764574726519174856017159850431627576946927934854101505143, lc0⟩) (.skip))
    (.skip)) (.skip))) (.skip)))) (.sy (.sx (.sy (.sx (.leaf ⟨880, 16, 247, 2242, 16, 3222, ⟨[[(0, 68719476736)],
    [(8486855376896, 0)]], 3, 4⟩, ⟨[[(27316999673, 0), (3230973240666, 0), (8389387363, 0), (119023842, 0), (1476233,
    0)], [(3489419661814, 0), (34333901590, 0), (468307342, 0), (7362837, 0), (103689, 0)], [(16464363281, 0),
    (514449255, 0), (11984230, 0), (229924, 0), (3824, 0)], [(147995251, 0), (7335075, 0), (223578, 0), (5474, 0),
    (116, 0)]], 3, 4⟩, 1099511627776, 0, 34786894, ⟨[[(35613907351442, 0), (0, 11387198048), (11849391, 0), (0,
    12651), (0, 356)], [(4677001398, 0), (4774990, 0), (0, 1369), (0, 43), (0, 1)], [(0, 1251347), (0, 3437), (15,
    0)], [(56, 0), (0, 18)]], 3, 4⟩, 68719476736, 4477628,
    2132507142482731255384182624766812931597706394159197242292373394376623500263030380113550855915, lc0⟩) (.sy (.leaf
    ⟨911, 16, 247, 3099, 16, 4437, ⟨[[(0, 206158430208)], [(8486855376896, 0)]], 3, 4⟩, ⟨[[(0, 11739708606),
    (2304313897479, 0), (3377018976, 0), (24318400, 0), (154761, 0)], [(4918494595892, 0), (25588255564, 0),
    (184244815, 0), (1497488, 0), (10975, 0)], [(24100916699, 0), (392183503, 0), (4751962, 0), (48050, 0), (427,
    0)], [(220992773, 0), (5732502, 0), (93672, 0), (1237, 0), (14, 0)]], 3, 4⟩, 1099511627776, 0, 42166837,
    ⟨[[(35664187631535, 0), (0, 8023315928), (5948232, 0), (0, 11071), (0, 144)], [(4636728406, 0), (3238062, 0), (0,
    1645), (0, 30)], [(0, 1318078), (0, 4521), (0, 18)], [(0, 752), (0, 31)]], 3, 4⟩, 68719476736, 2454493,
    2045888407216745851874268948891234777872869374990522849658892339240280319793326155914611553150, lc0⟩) (.sx (.leaf
    ⟨1810, 16, 495, 4365, 16, 6233, ⟨[[(0, 171798691840)], [(8504035246080, 0)]], 3, 4⟩, ⟨[[(0, 260147827037),
    (3259199048671, 0), (5116282162, 0), (37427280, 0), (240532, 0)], [(3530550751415, 0), (19022026147, 0),
    (142338408, 0), (1176031, 0), (8685, 0)], [(9087278654, 0), (152565507, 0), (1887403, 0), (19328, 0), (173, 0)],
    [(43585800, 0), (1156084, 0), (19222, 0), (256, 0), (3, 0)]], 3, 4⟩, 1099511627776, 0, 4639958,
    ⟨[[(35561784724193, 0), (0, 5661467077), (2852784, 0), (0, 5784), (0, 45)], [(2337459963, 0), (1162589, 0), (0,
    582), (0, 8)], [(0, 332363), (0, 709), (0, 1)], [(0, 102), (0, 3)]], 3, 4⟩, 68719476736, 390925,
    2333778889327009888945308885048688770735109884752877169987963223226419210652272639730401970985, lc0⟩) (.skip))))
    (.sx (.sy (.leaf ⟨880, 16, 247, 3074, 16, 4391, ⟨[[(0, 68719476736)], [(8486855376896, 0)]], 3, 4⟩, ⟨[[(0,
    309944067918), (2258381867970, 0), (3472329060, 0), (25424074, 0), (161886, 0)], [(4979902892776, 0),
    (26599876580, 0), (198146321, 0), (1621784, 0), (11737, 0)], [(25954461081, 0), (434600585, 0), (5318656, 0),
    (53160, 0), (460, 0)], [(253594714, 0), (6627951, 0), (106887, 0), (1373, 0), (15, 0)]], 3, 4⟩, 1099511627776, 0,
    50170354, ⟨[[(35460964842738, 0), (0, 8126941725), (5848966, 0), (0, 14852), (0, 166)], [(4741641391, 0),
    (3451457, 0), (0, 2309), (0, 42)], [(0, 1294846), (0, 2133), (13, 0)], [(0, 260), (0, 22)]], 3, 4⟩, 68719476736,
    2372609, 3768621506262472017091597428939597119556521677560324729273437793597808146342288512953046015648, lc0⟩)
    (.skip)) (.skip))) (.skip)) (.skip))
theorem c12 : checkC job ⟨6, 8, 8, 10, 9, 13⟩ 3 100 lims t12 14 2 4 141 3 256 = true := by decide +kernel

def t13 : CTree :=
  .sx (.sy (.sx (.sy (.sy (.sy (.sy (.sx (.sy (.sx (.leaf ⟨1500, 16, 495, 4647, 16, 6653, ⟨[[(515396075520, 0)],
    [(8504035246080, 0)]], 3, 4⟩, ⟨[[(0, 243752879566), (3090587678126, 0), (4068245577, 0), (30063738, 0), (183402,
    0)], [(3785326630684, 0), (18985717986, 0), (136836797, 0), (1074841, 0), (7122, 0)], [(10537009689, 0),
    (173845234, 0), (2037487, 0), (18296, 0), (133, 0)], [(58258221, 0), (1440173, 0), (20139, 0), (210, 0), (2,
    0)]], 3, 4⟩, 1099511627776, 0, 5956002, ⟨[[(34874583919574, 0), (0, 5735296890), (2959482, 0), (0, 810), (0,
    16)], [(2533046341, 0), (1256256, 0), (0, 2025), (0, 13)], [(0, 379037), (0, 342), (3, 0)], [(127, 0), (1, 0)]],
    3, 4⟩, 68719476736, 213538,
    2732244171297725495706370664588185488918408573320983541248595811077309249289420822886688551153, lc0⟩) (.sy (.leaf
    ⟨1531, 16, 495, 6331, 16, 9045, ⟨[[(446676598784, 0)], [(8504035246080, 0)]], 3, 4⟩, ⟨[[(0, 509153770543),
    (2145138277987, 0), (1528243571, 0), (5677792, 0), (17488, 0)], [(5223576102368, 0), (13591212712, 0), (50545892,
    0), (201082, 0), (674, 0)], [(14933820112, 0), (125983992, 0), (748992, 0), (3420, 0), (13, 0)], [(83245264, 0),
    (1044010, 0), (7476, 0), (40, 0)]], 3, 4⟩, 1099511627776, 0, 7794288, ⟨[[(34897580046876, 0), (0, 4148932655),
    (1544125, 0), (0, 767), (0, 6)], [(2521764105, 0), (881139, 0), (0, 1203), (0, 6)], [(0, 369758), (0, 148), (2,
    0)], [(129, 0), (1, 0)]], 3, 4⟩, 68719476736, 111925,
    3673202928755888737323809269499546508948731308413342192544622379682186231319157372767969353247, lc0⟩) (.skip)))
    (.skip)) (.skip)) (.skip)) (.skip)) (.skip)) (.skip)) (.skip)) (.skip)) (.skip)
theorem c13 : checkC job ⟨6, 8, 8, 10, 9, 13⟩ 3 100 lims t13 14 2 4 21 3 32 = true := by decide +kernel

def t14 : CTree :=
  .sx (.leaf ⟨15, 16, 247, 612, 16, 853, ⟨[[(481036337152, 0)], [(8486855376896, 0)]], 3, 4⟩, ⟨[[(0, 467124102085),
    (4608867171288, 0), (0, 53838691425), (797020967, 0), (0, 8726707)], [(1127652559545, 0), (60170695776, 0),
    (1735341465, 0), (33732394, 0), (581314, 0)], [(9994654887, 0), (1129959076, 0), (57983106, 0), (2412965, 0),
    (179553, 0)], [(19320472, 0), (6857695, 0), (1926532, 0), (395261, 0), (59946, 0)]], 3, 4⟩, 1099511627776, 0,
    770746911, ⟨[[(28574207608761, 0), (0, 82307282140), (6270829, 0), (163579, 0), (1212, 0)], [(10981157319, 0),
    (137226423, 0), (1247843, 0), (9445, 0), (76, 0)], [(0, 6256433), (0, 235172), (0, 4393), (0, 39)], [(4904, 0),
    (931, 0), (43, 0), (1, 0)]], 3, 4⟩, 68719476736, 59593492,
    2554754696615095715861693866753107765936117384726339305066625273176007187819138902287947556455, lc0⟩) (.sy (.leaf
    ⟨46, 16, 247, 1028, 16, 1439, ⟨[[(343597383680, 0)], [(8486855376896, 0)]], 3, 4⟩, ⟨[[(0, 526729189249),
    (4228156855794, 0), (0, 21190339216), (218376022, 0), (0, 160789)], [(1872075776614, 0), (53540118867, 0),
    (904793367, 0), (16604788, 0), (687581, 0)], [(14897436961, 0), (1000081268, 0), (49560640, 0), (3442993, 0),
    (250783, 0)], [(127436219, 0), (39123178, 0), (6398686, 0), (687615, 0), (53825, 0)]], 3, 4⟩, 1099511627776, 0,
    965043173, ⟨[[(29114811148956, 0), (0, 46511852789), (13541037, 0), (84876, 0), (443, 0)], [(10285367580, 0),
    (70872472, 0), (356203, 0), (1775, 0), (13, 0)], [(0, 5408659), (0, 91461), (0, 472), (6, 0)], [(2804, 0), (320,
    0), (8, 0)]], 3, 4⟩, 68719476736, 14952577,
    1440828767226493895550605310785366851014026683728362158984057286081975969860992413012676155802, lc0⟩) (.leaf ⟨46,
    16, 247, 1040, 16, 1425, ⟨[[(343597383680, 0)], [(8486855376896, 0)]], 3, 4⟩, ⟨[[(0, 298674276987),
    (3958883313386, 0), (0, 16959911151), (244695466, 0), (3440531, 0)], [(2209079544906, 0), (66502907440, 0),
    (1474869845, 0), (59586710, 0), (3741832, 0)], [(23680268009, 0), (2305373721, 0), (217044292, 0), (19822223, 0),
    (1442706, 0)], [(837650631, 0), (265372019, 0), (41563305, 0), (4221962, 0), (311796, 0)]], 3, 4⟩, 1099511627776,
    0, 6490396744, ⟨[[(28089177720578, 0), (0, 46209227604), (21444017, 0), (154916, 0), (1226, 0)], [(12059475613,
    0), (91022823, 0), (546101, 0), (4170, 0), (46, 0)], [(0, 7557209), (0, 94671), (688, 0), (35, 0), (1, 0)],
    [(15707, 0), (944, 0), (22, 0)]], 3, 4⟩, 68719476736, 49168412,
    3076305025684413261229179640106891699373008537169280041446897489606715290530188799918718506984, lc0⟩))
theorem c14 : checkC job ⟨6, 8, 8, 10, 9, 13⟩ 3 100 lims t14 2 2 16 51 3 64 = true := by decide +kernel

def t15 : CTree :=
  .sx (.leaf ⟨77, 16, 247, 973, 16, 1354, ⟨[[(206158430208, 0)], [(8486855376896, 0)]], 3, 4⟩, ⟨[[(494585974323, 0),
    (4198858035593, 0), (0, 15146906930), (388683896, 0), (11605916, 0)], [(1884164455776, 0), (61307264660, 0),
    (1785591674, 0), (101932433, 0), (7264726, 0)], [(17444801647, 0), (2063594152, 0), (232263883, 0), (23225880,
    0), (1801760, 0)], [(521808040, 0), (174453459, 0), (28948917, 0), (3119421, 0), (244520, 0)]], 3, 4⟩,
    1099511627776, 0, 3162727460, ⟨[[(29159475872604, 0), (0, 46847394390), (30860663, 0), (213723, 0), (1766, 0)],
    [(10373087109, 0), (74981931, 0), (450176, 0), (3810, 0), (45, 0)], [(0, 5545418), (0, 66658), (526, 0), (25,
    0)], [(4272, 0), (310, 0), (7, 0)]], 3, 4⟩, 68719476736, 46171218,
    2598175916322622988038989657258657878674458829875105578663093419015363331939713360510996342375, lc0⟩) (.sy (.leaf
    ⟨108, 16, 247, 1506, 16, 2092, ⟨[[(68719476736, 0)], [(8486855376896, 0)]], 3, 4⟩, ⟨[[(0, 444018173932),
    (3481235110787, 0), (0, 2770039659), (194101941, 0), (5540395, 0)], [(2992875757649, 0), (58924435643, 0),
    (1506596104, 0), (62839096, 0), (2418801, 0)], [(33444931459, 0), (2960426145, 0), (209209247, 0), (11115500, 0),
    (440839, 0)], [(1388610317, 0), (238275327, 0), (20119397, 0), (1102098, 0), (43924, 0)]], 3, 4⟩, 1099511627776,
    0, 2673913839, ⟨[[(29399087245947, 0), (0, 28748936633), (19862930, 0), (104098, 0), (688, 0)], [(10165816292,
    0), (47495921, 0), (221534, 0), (1646, 0), (14, 0)], [(0, 5259251), (0, 26157), (477, 0), (9, 0)], [(3772, 0),
    (123, 0), (1, 0)]], 3, 4⟩, 68719476736, 11241812,
    3134193529655626206470810686007127557461523586892368594160566999201454493154843876492646862029, lc0⟩) (.sx (.sy
    (.leaf ⟨201, 16, 495, 3055, 16, 4213, ⟨[[(103079215104, 0)], [(8504035246080, 0)]], 3, 4⟩, ⟨[[(0, 279844522032),
    (3421952822064, 0), (0, 821110906), (58633217, 0), (885953, 0)], [(3221447307927, 0), (33902998841, 0),
    (501053002, 0), (10896049, 0), (206800, 0)], [(22271034695, 0), (1097964309, 0), (39774219, 0), (1041796, 0),
    (20215, 0)], [(592971488, 0), (50026862, 0), (2067358, 0), (55364, 0), (1078, 0)]], 3, 4⟩, 1099511627776, 0,
    417805100, ⟨[[(29002932550873, 0), (0, 14241369023), (5350651, 0), (15120, 0), (53, 0)], [(5390115166, 0),
    (13195010, 0), (33786, 0), (134, 0), (1, 0)], [(0, 1395363), (0, 1955), (49, 0)], [(724, 0), (11, 0)]], 3, 4⟩,
    68719476736, 1412743,
    1547996646843301685530636355791232108489978911560936989584663080238637508661211433982972019191, lc0⟩) (.sx (.leaf
    ⟨387, 16, 991, 3823, 16, 5246, ⟨[[(120259084288, 0)], [(8512625180672, 0)]], 3, 4⟩, ⟨[[(126334448936, 0),
    (4208289931553, 0), (0, 287469768), (87067019, 0), (1365645, 0)], [(2108913543298, 0), (23729628531, 0),
    (393298828, 0), (8781331, 0), (165069, 0)], [(8647121781, 0), (459669199, 0), (16880417, 0), (437768, 0), (8374,
    0)], [(134684289, 0), (11228229, 0), (457454, 0), (12071, 0), (232, 0)]], 3, 4⟩, 1099511627776, 0, 54421018,
    ⟨[[(28744505809152, 0), (0, 11385865003), (3748042, 0), (9070, 0), (27, 0)], [(2807647599, 0), (5747727, 0),
    (12783, 0), (43, 0)], [(0, 357731), (0, 94), (11, 0)], [(120, 0), (1, 0)]], 3, 4⟩, 68719476736, 421870,
    1775402501423203254801820299167037862160363475501432076717671336753268511817450591233432436089, lc0⟩) (.sy (.leaf
    ⟨418, 16, 991, 5993, 16, 8219, ⟨[[(85899345920, 0)], [(8512625180672, 0)]], 3, 4⟩, ⟨[[(0, 262872780216),
    (3374253320248, 0), (403532988, 0), (23044343, 0), (190512, 0)], [(3359576016809, 0), (20697522785, 0),
    (194796913, 0), (2257776, 0), (21390, 0)], [(15061960386, 0), (428812956, 0), (8053775, 0), (105176, 0), (1010,
    0)], [(238293972, 0), (9979270, 0), (204120, 0), (2704, 0), (26, 0)]], 3, 4⟩, 1099511627776, 0, 68029697,
    ⟨[[(28806621337555, 0), (0, 7141900578), (1721229, 0), (2793, 0), (5, 0)], [(2798479614, 0), (3705663, 0), (5622,
    0), (13, 0)], [(0, 347061), (51, 0), (5, 0)], [(109, 0), (1, 0)]], 3, 4⟩, 68719476736, 150213,
    2438985275350205263144887292253041652870055751098243660068329880281414819243811690470364162167, lc0⟩) (.sx (.leaf
    ⟨821, 16, 1983, 7513, 16, 10278, ⟨[[(94489280512, 0)], [(8516920147968, 0)]], 3, 4⟩, ⟨[[(162456685250, 0),
    (4200468716279, 0), (790620917, 0), (31843051, 0), (265924, 0)], [(2161076801277, 0), (13918553374, 0),
    (138067520, 0), (1611981, 0), (15186, 0)], [(5332681901, 0), (156515104, 0), (2947736, 0), (38276, 0), (365, 0)],
    [(45052949, 0), (1874886, 0), (38077, 0), (501, 0), (5, 0)]], 3, 4⟩, 1099511627776, 0, 6999136,
    ⟨[[(28678470262183, 0), (0, 5692466850), (1154952, 0), (1548, 0), (2, 0)], [(1429470829, 0), (1550207, 0), (1961,
    0), (4, 0)], [(0, 86910), (38, 0), (1, 0)], [(16, 0)]], 3, 4⟩, 68719476736, 85129,
    2874880161777369029459115260413880540433275519056615046918940637824595342337613411683285731065, lc0⟩) (.skip)))))
    (.sy (.sx (.leaf ⟨449, 16, 991, 3687, 16, 5070, ⟨[[(51539607552, 0)], [(8512625180672, 0)]], 3, 4⟩, ⟨[[(0,
    52853189714), (4254115194690, 0), (1325374327, 0), (123157968, 0), (2070230, 0)], [(2029679463431, 0),
    (25284468432, 0), (483148670, 0), (11337056, 0), (217281, 0)], [(8630157569, 0), (493416043, 0), (18709438, 0),
    (494081, 0), (9602, 0)], [(126859155, 0), (10735278, 0), (444069, 0), (11901, 0), (232, 0)]], 3, 4⟩,
    1099511627776, 0, 49704240, ⟨[[(29005860811073, 0), (0, 11486107653), (4614381, 0), (12050, 0), (37, 0)],
    [(2719397326, 0), (5724686, 0), (13967, 0), (51, 0)], [(0, 338142), (0, 53), (11, 0)], [(87, 0), (1, 0)]], 3, 4⟩,
    68719476736, 460895,
    3108073567240788388338574687322674314766706098345694810992264292157216361776626854794937268061, lc0⟩) (.sy (.leaf
    ⟨480, 16, 991, 5825, 16, 8006, ⟨[[(17179869184, 0)], [(8512625180672, 0)]], 3, 4⟩, ⟨[[(0, 528579972055),
    (3437896531244, 0), (1117347710, 0), (31499622, 0), (273927, 0)], [(3256131881864, 0), (22046890955, 0),
    (232215052, 0), (2796857, 0), (26980, 0)], [(14890883978, 0), (448352867, 0), (8645375, 0), (114859, 0), (1121,
    0)], [(219402541, 0), (9325004, 0), (193662, 0), (2606, 0), (26, 0)]], 3, 4⟩, 1099511627776, 0, 55924716,
    ⟨[[(29069194244870, 0), (0, 7149704541), (2058901, 0), (3559, 0), (7, 0)], [(2709179685, 0), (3659014, 0), (6000,
    0), (14, 0)], [(0, 330494), (39, 0), (5, 0)], [(77, 0)]], 3, 4⟩, 68719476736, 169012,
    3665842681911057295578771244946061668493541509072427039762311549381878381518784684157037374358, lc0⟩) (.skip)))
    (.sx (.sy (.sx (.leaf ⟨883, 16, 1983, 7368, 16, 10090, ⟨[[(60129542144, 0)], [(8516920147968, 0)]], 3, 4⟩,
    ⟨[[(422989013106, 0), (4223690854360, 0), (1308882489, 0), (37861333, 0), (324728, 0)], [(2121845745267, 0),
    (14459548482, 0), (152825887, 0), (1820843, 0), (17310, 0)], [(5342537033, 0), (161771823, 0), (3088928, 0),
    (40457, 0), (389, 0)], [(43567991, 0), (1826636, 0), (37379, 0), (495, 0), (5, 0)]], 3, 4⟩, 1099511627776, 0,
    6534375, ⟨[[(28810029001586, 0), (0, 5720264457), (1286481, 0), (1793, 0), (3, 0)], [(1406981541, 0), (1552905,
    0), (2063, 0), (4, 0)], [(0, 84542), (39, 0), (1, 0)], [(13, 0)]], 3, 4⟩, 68719476736, 40589,
    3733766347381057628304289173527621346410970591861452335468256762785975557427637342283728063106, lc0⟩) (.skip))
    (.skip)) (.skip)))))
theorem c15 : checkC job ⟨6, 8, 8, 10, 9, 13⟩ 3 100 lims t15 6 2 16 99 3 128 = true := by decide +kernel

def t16 : CTree :=
  .sx (.sx (.sy (.leaf ⟨139, 16, 495, 2016, 16, 2762, ⟨[[(240518168576, 0)], [(8504035246080, 0)]], 3, 4⟩,
    ⟨[[(271768105814, 0), (4090805329999, 0), (0, 5780315710), (139224929, 0), (3119223, 0)], [(2189466439222, 0),
    (38966690914, 0), (796910973, 0), (28898951, 0), (1036163, 0)], [(14590928340, 0), (1169623236, 0), (76444258,
    0), (3810843, 0), (142189, 0)], [(425433666, 0), (69181094, 0), (5508662, 0), (284105, 0), (10653, 0)]], 3, 4⟩,
    1099511627776, 0, 604933564, ⟨[[(28361835111138, 0), (0, 22760518398), (9295039, 0), (37920, 0), (189, 0)],
    [(5858284590, 0), (22686875, 0), (81171, 0), (429, 0), (3, 0)], [(0, 1641009), (0, 4938), (128, 0), (2, 0)],
    [(1509, 0), (42, 0)]], 3, 4⟩, 68719476736, 3053227,
    1115259964741525135767565689444943532958159467879832319177613263684015608998347152464905439553, lc0⟩) (.sx (.leaf
    ⟨263, 16, 991, 2375, 16, 3221, ⟨[[(257698037760, 0)], [(8512625180672, 0)]], 3, 4⟩, ⟨[[(0, 460227401146),
    (4652601676698, 0), (0, 4429817729), (232390655, 0), (6210157, 0)], [(1406513162760, 0), (27973223833, 0),
    (750391977, 0), (30203557, 0), (1072174, 0)], [(6510742874, 0), (631148502, 0), (43452801, 0), (2136236, 0),
    (77611, 0)], [(136434979, 0), (21672654, 0), (1678828, 0), (84164, 0), (3067, 0)]], 3, 4⟩, 1099511627776, 0,
    162315600, ⟨[[(27849575977966, 0), (0, 19316136383), (8342960, 0), (33661, 0), (161, 0)], [(3191379236, 0),
    (11412074, 0), (41166, 0), (217, 0), (1, 0)], [(0, 432051), (328, 0), (48, 0)], [(342, 0), (7, 0)]], 3, 4⟩,
    68719476736, 1975068,
    1951281075557909846803009503821736849985221807401298713351049944854324135524974127364770197917, lc0⟩) (.sy (.leaf
    ⟨294, 16, 991, 3987, 16, 5411, ⟨[[(223338299392, 0)], [(8512625180672, 0)]], 3, 4⟩, ⟨[[(0, 98902209306),
    (4015378905815, 0), (0, 938446344), (69020963, 0), (1013866, 0)], [(2380781185816, 0), (26002158653, 0),
    (411208442, 0), (8778289, 0), (157946, 0)], [(12092504306, 0), (639269218, 0), (22710803, 0), (564676, 0),
    (10338, 0)], [(254647459, 0), (20383694, 0), (795337, 0), (20084, 0), (369, 0)]], 3, 4⟩, 1099511627776, 0,
    119765024, ⟨[[(27979661778268, 0), (0, 11306328151), (3354375, 0), (8341, 0), (24, 0)], [(3146617283, 0),
    (6730997, 0), (15271, 0), (50, 0)], [(0, 403497), (474, 0), (18, 0)], [(294, 0), (4, 0)]], 3, 4⟩, 68719476736,
    502912, 2356243936296163812520114360685847943678636719932969493844787813902044232028641137645324473654, lc0⟩)
    (.sx (.leaf ⟨573, 16, 1983, 4682, 16, 6323, ⟨[[(231928233984, 0)], [(8516920147968, 0)]], 3, 4⟩, ⟨[[(0,
    246430812329), (4652522086952, 0), (0, 19552337), (101326975, 0), (1549073, 0)], [(1473039688457, 0),
    (17625281796, 0), (316345642, 0), (6918368, 0), (123309, 0)], [(4586700244, 0), (259805160, 0), (9308949, 0),
    (229081, 0), (4137, 0)], [(55172786, 0), (4360941, 0), (167828, 0), (4179, 0), (76, 0)]], 3, 4⟩, 1099511627776,
    0, 19302232, ⟨[[(27733267658074, 0), (0, 9601849135), (2759543, 0), (6307, 0), (16, 0)], [(1644898468, 0),
    (3154999, 0), (6700, 0), (20, 0)], [(0, 98656), (259, 0), (5, 0)], [(48, 0), (1, 0)]], 3, 4⟩, 68719476736,
    235640, 3482302323296937364555025003530515923436740988318186829020015562055109505350762976517075920794, lc0⟩)
    (.skip))))) (.sy (.sy (.leaf ⟨170, 16, 495, 3078, 16, 4211, ⟨[[(171798691840, 0)], [(8504035246080, 0)]], 3, 4⟩,
    ⟨[[(0, 400490791012), (3259371585275, 0), (0, 891203990), (53684011, 0), (791668, 0)], [(3440740721358, 0),
    (36410778366, 0), (546065482, 0), (11699172, 0), (215968, 0)], [(28352958255, 0), (1435107534, 0), (51368411, 0),
    (1309965, 0), (24678, 0)], [(947783985, 0), (77889511, 0), (3126686, 0), (81274, 0), (1536, 0)]], 3, 4⟩,
    1099511627776, 0, 769513348, ⟨[[(28478826477699, 0), (0, 14423950825), (5341450, 0), (15917, 0), (57, 0)],
    [(5825788023, 0), (15100147, 0), (40911, 0), (166, 0), (1, 0)], [(0, 1516738), (0, 368), (77, 0), (1, 0)],
    [(1324, 0), (22, 0)]], 3, 4⟩, 68719476736, 1511398,
    2258409660042502993886449640814788226995911402512554993275659019662688666912653881252868057705, lc0⟩) (.sx (.leaf
    ⟨325, 16, 991, 3926, 16, 5346, ⟨[[(188978561024, 0)], [(8512625180672, 0)]], 3, 4⟩, ⟨[[(0, 540983888590),
    (4078881338471, 0), (0, 584436950), (77788133, 0), (1179190, 0)], [(2290147954450, 0), (25620140033, 0),
    (420736078, 0), (9175027, 0), (167611, 0)], [(11048219653, 0), (592276334, 0), (21348050, 0), (538527, 0),
    (10004, 0)], [(212105841, 0), (17212499, 0), (681274, 0), (17455, 0), (325, 0)]], 3, 4⟩, 1099511627776, 0,
    93237934, ⟨[[(28224687727967, 0), (0, 11330225730), (3562508, 0), (8863, 0), (26, 0)], [(3035367601, 0),
    (6439984, 0), (14718, 0), (49, 0)], [(0, 385069), (328, 0), (16, 0)], [(221, 0), (3, 0)]], 3, 4⟩, 68719476736,
    456591, 2466491665753159386265684408388064093219986861804041852680978749873318332276591812628579521601, lc0⟩)
    (.sy (.leaf ⟨356, 16, 991, 6019, 16, 8191, ⟨[[(154618822656, 0)], [(8512625180672, 0)]], 3, 4⟩, ⟨[[(0,
    183210190221), (3208660656739, 0), (365492872, 0), (21595069, 0), (174575, 0)], [(3591786719300, 0),
    (22586290959, 0), (216915158, 0), (2471297, 0), (22767, 0)], [(19643705344, 0), (570535632, 0), (10540355, 0),
    (133926, 0), (1249, 0)], [(383318472, 0), (15624553, 0), (310455, 0), (3993, 0), (37, 0)]], 3, 4⟩, 1099511627776,
    0, 125703619, ⟨[[(28291664090028, 0), (0, 7251524486), (1751318, 0), (3000, 0), (6, 0)], [(3027757724, 0),
    (4271405, 0), (6880, 0), (16, 0)], [(0, 364326), (422, 0), (8, 0)], [(200, 0), (2, 0)]], 3, 4⟩, 68719476736,
    177416, 3857945807551142596819289616685046845366688034161682017695542320357385929341122310465600268710, lc0⟩)
    (.skip)))) (.sx (.sy (.sx (.leaf ⟨635, 16, 1983, 4573, 16, 6196, ⟨[[(197568495616, 0)], [(8516920147968, 0)]], 3,
    4⟩, ⟨[[(0, 143273246040), (4694491255020, 0), (598217192, 0), (115669705, 0), (1822206, 0)], [(1408900181267, 0),
    (17425453353, 0), (326803303, 0), (7302949, 0), (132136, 0)], [(4203242410, 0), (242396224, 0), (8819309, 0),
    (220191, 0), (4034, 0)], [(46220307, 0), (3703935, 0), (144579, 0), (3652, 0), (67, 0)]], 3, 4⟩, 1099511627776,
    0, 17546834, ⟨[[(27979187374114, 0), (0, 9692226320), (2988813, 0), (6906, 0), (18, 0)], [(1586076365, 0),
    (3046436, 0), (6591, 0), (20, 0)], [(0, 94462), (215, 0), (4, 0)], [(36, 0)]], 3, 4⟩, 68719476736, 207888,
    3992655008617872903642756457840814560626860795035310883263776247020574527726892865149984062616, lc0⟩) (.skip))
    (.skip)) (.skip)))) (.sy (.sx (.sy (.sx (.sy (.leaf ⟨387, 16, 991, 6001, 16, 8198, ⟨[[(120259084288, 0)],
    [(8512625180672, 0)]], 3, 4⟩, ⟨[[(391396232564, 0), (3290712815281, 0), (419590995, 0), (22708348, 0), (186138,
    0)], [(3476311153418, 0), (21775102525, 0), (208748400, 0), (2403735, 0), (22460, 0)], [(17347739132, 0),
    (501250010, 0), (9349240, 0), (120448, 0), (1140, 0)], [(305786427, 0), (12635029, 0), (254710, 0), (3325, 0),
    (32, 0)]], 3, 4⟩, 1099511627776, 0, 93241888, ⟨[[(28550805498568, 0), (0, 7198403328), (1746260, 0), (2918, 0),
    (6, 0)], [(2909979515, 0), (3984092, 0), (6250, 0), (14, 0)], [(0, 355735), (224, 0), (6, 0)], [(147, 0), (1,
    0)]], 3, 4⟩, 68719476736, 139560,
    3271493121302698557862245160711470162891910947310910259141537412117487644229818760983839613817, lc0⟩) (.sx (.leaf
    ⟨759, 16, 1983, 7595, 16, 10350, ⟨[[(128849018880, 0)], [(8516920147968, 0)]], 3, 4⟩, ⟨[[(326642429915, 0),
    (4133967710908, 0), (790192154, 0), (31368228, 0), (259233, 0)], [(2256558428360, 0), (14741262731, 0),
    (148105624, 0), (1714872, 0), (15931, 0)], [(6180533881, 0), (183309750, 0), (3423801, 0), (43851, 0), (412, 0)],
    [(57920508, 0), (2377915, 0), (47597, 0), (617, 0), (6, 0)]], 3, 4⟩, 1099511627776, 0, 9407931,
    ⟨[[(28421600213643, 0), (0, 5684530933), (1148812, 0), (1570, 0), (2, 0)], [(1487200882, 0), (1651828, 0), (2137,
    0), (4, 0)], [(0, 88618), (78, 0), (1, 0)], [(21, 0)]], 3, 4⟩, 68719476736, 72269,
    3604558774871577775420808247396467134443802297215455070698276263956335688028998003528829326154, lc0⟩) (.skip)))
    (.skip)) (.skip)) (.skip)) (.skip))
theorem c16 : checkC job ⟨6, 8, 8, 10, 9, 13⟩ 3 100 lims t16 6 2 16 105 3 128 = true := by decide +kernel

def t17 : CTree :=
  .sx (.sx (.sx (.leaf ⟨15, 16, 495, 766, 16, 1031, ⟨[[(515396075520, 0)], [(8504035246080, 0)]], 3, 4⟩, ⟨[[(0,
    56088780804), (4785263542460, 0), (0, 52546254165), (708306630, 0), (0, 6995735)], [(919014866612, 0),
    (48962942334, 0), (1374023586, 0), (28538928, 0), (1034350, 0)], [(5788378313, 0), (635938413, 0), (41741965, 0),
    (3750043, 0), (439584, 0)], [(23074045, 0), (12353875, 0), (3514834, 0), (656315, 0), (89217, 0)]], 3, 4⟩,
    1099511627776, 0, 674445405, ⟨[[(26677779530691, 0), (0, 68949150656), (3487499, 0), (105774, 0), (878, 0)],
    [(7431696476, 0), (89668468, 0), (792703, 0), (6543, 0), (65, 0)], [(0, 3776026), (0, 118292), (0, 1364), (9, 0),
    (1, 0)], [(8485, 0), (629, 0), (20, 0)]], 3, 4⟩, 68719476736, 48834027,
    2376567212965646614362452774793050825216749251067886369709274979354675156001201631147653668293, lc0⟩) (.sy (.leaf
    ⟨46, 16, 495, 1327, 16, 1795, ⟨[[(446676598784, 0)], [(8504035246080, 0)]], 3, 4⟩, ⟨[[(530891076934, 0),
    (4471799766177, 0), (0, 21831514049), (198751825, 0), (232125, 0)], [(1547639858124, 0), (43376637442, 0),
    (721032003, 0), (15358013, 0), (713364, 0)], [(9193471586, 0), (642515696, 0), (39336231, 0), (2959449, 0),
    (199357, 0)], [(117367614, 0), (34835905, 0), (5153308, 0), (494946, 0), (34560, 0)]], 3, 4⟩, 1099511627776, 0,
    783513910, ⟨[[(27157405291687, 0), (0, 38172639974), (7871332, 0), (52783, 0), (311, 0)], [(6911452188, 0),
    (45128972, 0), (223732, 0), (1239, 0), (10, 0)], [(0, 2799278), (0, 37746), (0, 28), (5, 0)], [(5409, 0), (235,
    0), (4, 0)]], 3, 4⟩, 68719476736, 8473630,
    2256239749369747508829876071924949544690511041582427890027053552660164008409448405392021965420, lc0⟩) (.sx (.leaf
    ⟨77, 16, 991, 1563, 16, 2079, ⟨[[(463856467968, 0)], [(8512625180672, 0)]], 3, 4⟩, ⟨[[(81613321126, 0),
    (4840099243461, 0), (0, 22160652805), (229865101, 0), (2132063, 0)], [(1047781682141, 0), (29964826672, 0),
    (581466891, 0), (19465353, 0), (1076913, 0)], [(4006865933, 0), (357190497, 0), (30454206, 0), (2499397, 0),
    (163232, 0)], [(61260836, 0), (17604421, 0), (2478577, 0), (225939, 0), (14968, 0)]], 3, 4⟩, 1099511627776, 0,
    295457261, ⟨[[(26242718123507, 0), (0, 32944744903), (7534936, 0), (49701, 0), (305, 0)], [(4052334223, 0),
    (25068333, 0), (126649, 0), (786, 0), (6, 0)], [(0, 970369), (0, 8218), (91, 0), (3, 0)], [(1758, 0), (58, 0),
    (1, 0)]], 3, 4⟩, 68719476736, 4737781,
    1793715516759319568851453395112095127464818020053196187264707675291421773443940206603115317962, lc0⟩) (.leaf
    ⟨108, 16, 991, 1525, 16, 2023, ⟨[[(429496729600, 0)], [(8512625180672, 0)]], 3, 4⟩, ⟨[[(0, 284131259470),
    (4833342669906, 0), (0, 18625716714), (356643450, 0), (10019500, 0)], [(1054785281297, 0), (33101635527, 0),
    (966760226, 0), (53338488, 0), (3308427, 0)], [(5082849069, 0), (689309725, 0), (77783970, 0), (6821992, 0),
    (449679, 0)], [(147513335, 0), (42677031, 0), (6015422, 0), (548496, 0), (36342, 0)]], 3, 4⟩, 1099511627776, 0,
    701019226, ⟨[[(26232072945524, 0), (0, 32959819696), (13312173, 0), (93819, 0), (681, 0)], [(4103738671, 0),
    (26628536, 0), (156252, 0), (1222, 0), (11, 0)], [(0, 824211), (0, 1511), (226, 0), (4, 0)], [(1830, 0), (61, 0),
    (1, 0)]], 3, 4⟩, 68719476736, 9310444,
    2598107237816920629898993036596255834013532362845177175061599038017481505778924099974593864877, lc0⟩)))) (.sy
    (.sx (.leaf ⟨77, 16, 495, 1273, 16, 1714, ⟨[[(377957122048, 0)], [(8504035246080, 0)]], 3, 4⟩, ⟨[[(103280023577,
    0), (4448887762861, 0), (0, 16989558633), (341871555, 0), (9359123, 0)], [(1557779552437, 0), (49262170235, 0),
    (1424112531, 0), (79080519, 0), (5123860, 0)], [(11933253171, 0), (1566967850, 0), (179019098, 0), (16419538, 0),
    (1139793, 0)], [(474101775, 0), (144151580, 0), (21408921, 0), (2057870, 0), (143756, 0)]], 3, 4⟩, 1099511627776,
    0, 2330783461, ⟨[[(27143032172256, 0), (0, 38337963208), (18504200, 0), (134381, 0), (1087, 0)], [(7029337712,
    0), (48699423, 0), (294141, 0), (2439, 0), (25, 0)], [(0, 2434407), (0, 13557), (563, 0), (14, 0)], [(5829, 0),
    (246, 0), (4, 0)]], 3, 4⟩, 68719476736, 22245857,
    3039368074677864449075330954122504298247522106951547284905407546216206475067312532675544926828, lc0⟩) (.sy (.leaf
    ⟨108, 16, 495, 2052, 16, 2764, ⟨[[(309237645312, 0)], [(8504035246080, 0)]], 3, 4⟩, ⟨[[(156777044438, 0),
    (3797579739762, 0), (0, 4356809370), (161518021, 0), (4033227, 0)], [(2560224281642, 0), (49217757133, 0),
    (1236308167, 0), (47682596, 0), (1643204, 0)], [(26283805296, 0), (2491949978, 0), (167058670, 0), (7987835, 0),
    (282182, 0)], [(1323814915, 0), (204744433, 0), (15425848, 0), (751946, 0), (26639, 0)]], 3, 4⟩, 1099511627776,
    0, 2223965154, ⟨[[(27378018536011, 0), (0, 22859811171), (10743393, 0), (52552, 0), (296, 0)], [(6868873721, 0),
    (29864974, 0), (128965, 0), (798, 0), (5, 0)], [(0, 1947650), (3569, 0), (343, 0), (4, 0)], [(4625, 0), (116, 0),
    (1, 0)]], 3, 4⟩, 68719476736, 4836834,
    3232564930638634468392676191900318423009794581263893386860541183548608540615312223068328150136, lc0⟩) (.sx (.leaf
    ⟨201, 16, 991, 2481, 16, 3312, ⟨[[(326417514496, 0)], [(8512625180672, 0)]], 3, 4⟩, ⟨[[(0, 451801949837),
    (4435143175068, 0), (0, 2984401476), (263758481, 0), (7238604, 0)], [(1691520936017, 0), (36568752929, 0),
    (1130403453, 0), (45835570, 0), (1552339, 0)], [(12133995676, 0), (1293812668, 0), (88025139, 0), (4125608, 0),
    (141980, 0)], [(395841406, 0), (59701987, 0), (4379513, 0), (207792, 0), (7165, 0)]], 3, 4⟩, 1099511627776, 0,
    416263663, ⟨[[(26902346755471, 0), (0, 18918561889), (9057288, 0), (41581, 0), (208, 0)], [(3745610128, 0),
    (14721640, 0), (61580, 0), (354, 0), (2, 0)], [(0, 475192), (3606, 0), (105, 0), (1, 0)], [(959, 0), (19, 0)]],
    3, 4⟩, 68719476736, 1749079,
    3859488375274532926647806703330998645824519702344101980590102808191581895967169748999709298525, lc0⟩) (.skip))))
    (.sx (.sx (.leaf ⟨139, 16, 991, 1476, 16, 1953, ⟨[[(395136991232, 0)], [(8512625180672, 0)]], 3, 4⟩, ⟨[[(0,
    254602537186), (4807808015836, 0), (0, 12590216121), (697258291, 0), (32151606, 0)], [(1066501752688, 0),
    (39874578160, 0), (1899853657, 0), (137538215, 0), (8877312, 0)], [(7449521470, 0), (1402185038, 0), (178968944,
    0), (16058880, 0), (1061857, 0)], [(294228077, 0), (85333316, 0), (12034309, 0), (1097583, 0), (72741, 0)]], 3,
    4⟩, 1099511627776, 0, 1539194010, ⟨[[(26233412204492, 0), (0, 33130287450), (21562052, 0), (171223, 0), (1417,
    0)], [(4164690187, 0), (29132886, 0), (205870, 0), (1950, 0), (19, 0)], [(0, 642730), (6678, 0), (397, 0), (7,
    0)], [(1870, 0), (63, 0), (1, 0)]], 3, 4⟩, 68719476736, 17895340,
    3738703228556284885282304635054532252215181858252624397396633944056009455472150988137302925220, lc0⟩) (.sy (.leaf
    ⟨170, 16, 991, 2542, 16, 3370, ⟨[[(360777252864, 0)], [(8512625180672, 0)]], 3, 4⟩, ⟨[[(0, 377845259319),
    (4322025052846, 0), (0, 3143926717), (245725781, 0), (6578051, 0)], [(1841987203553, 0), (39695519390, 0),
    (1215366945, 0), (48203391, 0), (1590952, 0)], [(15259235718, 0), (1625513582, 0), (108402619, 0), (4953176, 0),
    (166026, 0)], [(594621589, 0), (87396246, 0), (6244209, 0), (288515, 0), (9687, 0)]], 3, 4⟩, 1099511627776, 0,
    655810384, ⟨[[(26453902142487, 0), (0, 18761993044), (8871038, 0), (42053, 0), (209, 0)], [(4047261408, 0),
    (16486904, 0), (71788, 0), (416, 0), (2, 0)], [(0, 509154), (5559, 0), (141, 0), (1, 0)], [(1518, 0), (29, 0)]],
    3, 4⟩, 68719476736, 2581549,
    3277010237678470591384295421575142833415626233078783539665839712704966848816114921761782978860, lc0⟩) (.skip)))
    (.skip)))) (.sy (.sx (.sx (.sy (.sx (.sy (.sx (.leaf ⟨511, 16, 1983, 4800, 16, 6463, ⟨[[(266287972352, 0)],
    [(8516920147968, 0)]], 3, 4⟩, ⟨[[(0, 86937260234), (4608622463236, 0), (0, 796762957), (84139756, 0), (1232845,
    0)], [(1535714651914, 0), (17445514320, 0), (291467365, 0), (6191568, 0), (108631, 0)], [(4849562330, 0),
    (266247776, 0), (9363021, 0), (227016, 0), (4042, 0)], [(63372764, 0), (4940633, 0), (187489, 0), (4603, 0), (82,
    0)]], 3, 4⟩, 1099511627776, 0, 21365480, ⟨[[(27493989263869, 0), (0, 9516475949), (2482500, 0), (5562, 0), (14,
    0)], [(1702853270, 0), (3241054, 0), (6668, 0), (19, 0)], [(0, 105123), (279, 0), (5, 0)], [(63, 0), (1, 0)]], 3,
    4⟩, 68719476736, 199043,
    2592120336918022648712383642597309071298027715753183095653389420535883479227203904100220022689, lc0⟩) (.skip))
    (.skip)) (.skip)) (.skip)) (.skip)) (.skip)) (.skip))
theorem c17 : checkC job ⟨6, 8, 8, 10, 9, 13⟩ 3 100 lims t17 2 2 8 57 3 64 = true := by decide +kernel

def t18 : CTree :=
  .sy (.sx (.sy (.sx (.sy (.sx (.sy (.leaf ⟨263, 16, 495, 2913, 16, 4039, ⟨[[(0, 34359738368)], [(8504035246080,
    0)]], 3, 4⟩, ⟨[[(548210620173, 0), (3555123201001, 0), (1050740147, 0), (101567852, 0), (1738770, 0)],
    [(3012654332147, 0), (36451198690, 0), (670702601, 0), (15933788, 0), (314177, 0)], [(20764544496, 0),
    (1147175039, 0), (44026723, 0), (1195145, 0), (23946, 0)], [(487417827, 0), (42337809, 0), (1803826, 0), (49845,
    0), (1002, 0)]], 3, 4⟩, 1099511627776, 0, 280095057, ⟨[[(29555569245872, 0), (0, 14250709149), (7125449, 0),
    (22167, 0), (84, 0)], [(5019132137, 0), (12369988, 0), (35211, 0), (157, 0), (1, 0)], [(0, 1263181), (0, 2142),
    (40, 0)], [(399, 0), (4, 0)]], 3, 4⟩, 68719476736, 1208973,
    2282775547280925344287666729259310826662911368592940659429909260068228221932075816806211020391, lc0⟩) (.sx (.sy
    (.leaf ⟨511, 16, 991, 5845, 16, 8070, ⟨[[(0, 17179869184)], [(8512625180672, 0)]], 3, 4⟩, ⟨[[(0, 437301999494),
    (3525932347424, 0), (895173257, 0), (29461068, 0), (256071, 0)], [(3136960476792, 0), (20234729784, 0),
    (202182515, 0), (2432950, 0), (23783, 0)], [(12429031764, 0), (361775069, 0), (6990307, 0), (94090, 0), (932,
    0)], [(162709759, 0), (7005053, 0), (147627, 0), (2017, 0), (20, 0)]], 3, 4⟩, 1099511627776, 0, 39462386,
    ⟨[[(29339791409793, 0), (0, 7090294567), (1932014, 0), (3177, 0), (6, 0)], [(2596478132, 0), (3334255, 0), (5120,
    0), (12, 0)], [(0, 322780), (0, 137), (3, 0)], [(59, 0)]], 3, 4⟩, 68719476736, 131005,
    2106227257362274648004506594027017338824562398958969016643612499184149547956621754121449019843, lc0⟩) (.sx (.leaf
    ⟨1007, 16, 1983, 7193, 16, 9904, ⟨[[(0, 8589934592)], [(8516920147968, 0)]], 3, 4⟩, ⟨[[(0, 128770875039),
    (4317006485652, 0), (1524835846, 0), (41006954, 0), (360145, 0)], [(1986372045164, 0), (13535896891, 0),
    (143763180, 0), (1744948, 0), (16962, 0)], [(4374285275, 0), (132026615, 0), (2561918, 0), (34291, 0), (337, 0)],
    [(30700473, 0), (1313858, 0), (27491, 0), (373, 0), (4, 0)]], 3, 4⟩, 1099511627776, 0, 4455916,
    ⟨[[(29206159934103, 0), (0, 5746986340), (1361414, 0), (1894, 0), (3, 0)], [(1327471763, 0), (1428552, 0), (1881,
    0), (4, 0)], [(0, 81309), (0, 5), (1, 0)], [(8, 0)]], 3, 4⟩, 68719476736, 71178,
    2852587825972246133204878675896270018060189577287131298761434667538090837459138324225904796671, lc0⟩) (.skip)))
    (.sy (.sx (.leaf ⟨1069, 16, 1983, 7080, 16, 9762, ⟨[[(0, 42949672960)], [(8516920147968, 0)]], 3, 4⟩,
    ⟨[[(544370997687, 0), (4342806546497, 0), (1897692810, 0), (45560001, 0), (406899, 0)], [(1945235659230, 0),
    (13671866215, 0), (150191301, 0), (1847641, 0), (18112, 0)], [(4236250328, 0), (129977815, 0), (2547611, 0),
    (34379, 0), (341, 0)], [(28526746, 0), (1229658, 0), (25926, 0), (354, 0), (4, 0)]], 3, 4⟩, 1099511627776, 0,
    4131704, ⟨[[(29344956204078, 0), (0, 5770184645), (1460354, 0), (2081, 0), (3, 0)], [(1303372807, 0), (1410264,
    0), (1906, 0), (4, 0)], [(0, 79806), (0, 13), (1, 0)], [(7, 0)]], 3, 4⟩, 68719476736, 87958,
    3127192780842560337639056393795638045262890473606016842201019233156793743158504888918119291229, lc0⟩) (.skip))
    (.skip)))) (.sy (.sy (.sx (.leaf ⟨573, 16, 991, 5723, 16, 7925, ⟨[[(0, 85899345920)], [(8512625180672, 0)]], 3,
    4⟩, ⟨[[(321515606470, 0), (3597104879172, 0), (1384516673, 0), (35565042, 0), (319246, 0)], [(3028541412785, 0),
    (20499407509, 0), (216898570, 0), (2677014, 0), (26613, 0)], [(11574631828, 0), (346209805, 0), (6816885, 0),
    (93257, 0), (939, 0)], [(139244796, 0), (6080104, 0), (130104, 0), (1806, 0), (18, 0)]], 3, 4⟩, 1099511627776, 0,
    30998376, ⟨[[(29619219873239, 0), (0, 7086189370), (2146700, 0), (3648, 0), (7, 0)], [(2501273301, 0), (3197609,
    0), (5065, 0), (12, 0)], [(0, 310355), (0, 206), (3, 0)], [(44, 0)]], 3, 4⟩, 68719476736, 119600,
    2294340321899005623006658807477613715573236670886546154508123215857656917460544700153773791642, lc0⟩) (.sy (.leaf
    ⟨604, 16, 991, 8251, 16, 11413, ⟨[[(0, 120259084288)], [(8512625180672, 0)]], 3, 4⟩, ⟨[[(166966721596, 0),
    (2648577158782, 0), (777764258, 0), (8156656, 0), (37515, 0)], [(4455013274657, 0), (16394777633, 0), (94588499,
    0), (596032, 0), (2976, 0)], [(18411795199, 0), (289035101, 0), (2886890, 0), (19831, 0), (100, 0)], [(224549766,
    0), (4917011, 0), (52734, 0), (367, 0), (2, 0)]], 3, 4⟩, 1099511627776, 0, 43217674, ⟨[[(29652124261801, 0), (0,
    4831123848), (1150131, 0), (1423, 0), (2, 0)], [(2502623166, 0), (2259021, 0), (2645, 0), (5, 0)], [(0, 307626),
    (0, 113), (1, 0)], [(40, 0)]], 3, 4⟩, 68719476736, 80356,
    3200216999429454791081259207605333918207238533770007292263776867296920236365515183816137768960, lc0⟩) (.skip)))
    (.sx (.sx (.leaf ⟨1131, 16, 1983, 6977, 16, 9633, ⟨[[(0, 77309411328)], [(8516920147968, 0)]], 3, 4⟩,
    ⟨[[(247373551514, 0), (4369636145489, 0), (2232410451, 0), (49733770, 0), (450571, 0)], [(1903904680212, 0),
    (13711691009, 0), (154596457, 0), (1924106, 0), (19019, 0)], [(4068501283, 0), (126390604, 0), (2499688, 0),
    (34004, 0), (340, 0)], [(26239673, 0), (1139146, 0), (24202, 0), (333, 0), (3, 0)]], 3, 4⟩, 1099511627776, 0,
    3831400, ⟨[[(29479974342212, 0), (0, 5788918719), (1557191, 0), (2268, 0), (4, 0)], [(1280252348, 0), (1390357,
    0), (1921, 0), (4, 0)], [(0, 78443), (0, 22), (1, 0)], [(6, 0)]], 3, 4⟩, 68719476736, 68826,
    3263946719231452622988440854226889080977345844636256039952987748512636684432974224636219108300, lc0⟩) (.skip))
    (.skip))) (.skip))) (.skip)) (.skip)) (.skip)) (.skip)) (.skip)
theorem c18 : checkC job ⟨6, 8, 8, 10, 9, 13⟩ 3 100 lims t18 6 2 8 27 3 32 = true := by decide +kernel

def t19 : CTree :=
  .sx (.sx (.sx (.sy (.sx (.sx (.leaf ⟨15, 16, 991, 936, 16, 1223, ⟨[[(532575944704, 0)], [(8512625180672, 0)]], 3,
    4⟩, ⟨[[(355897192707, 0), (4932487467141, 0), (0, 51034486984), (637713013, 0), (0, 4785689)], [(739255121639,
    0), (39397328045, 0), (1136174679, 0), (35325422, 0), (2564703, 0)], [(3424351228, 0), (500547796, 0), (68853392,
    0), (10044320, 0), (1210751, 0)], [(70238596, 0), (37596056, 0), (9834351, 0), (1664817, 0), (204796, 0)]], 3,
    4⟩, 1099511627776, 0, 776477839, ⟨[[(25015860617164, 0), (0, 58697313772), (2400398, 0), (76025, 0), (639, 0)],
    [(5062221497, 0), (60361195, 0), (548111, 0), (4994, 0), (50, 0)], [(0, 1928540), (0, 34095), (478, 0), (30, 0),
    (1, 0)], [(5234, 0), (277, 0), (7, 0)]], 3, 4⟩, 68719476736, 29040307,
    2249921373974944481767573691996758921628556299394390432112891074885147136661128031062987397388, lc0⟩) (.sy (.leaf
    ⟨46, 16, 991, 1665, 16, 2185, ⟨[[(498216206336, 0)], [(8512625180672, 0)]], 3, 4⟩, ⟨[[(140423838327, 0),
    (4682257497755, 0), (0, 21902725111), (201568407, 0), (1745191, 0)], [(1262781221819, 0), (35700935176, 0),
    (697739296, 0), (24277562, 0), (1314259, 0)], [(5926655930, 0), (563355341, 0), (50203775, 0), (4017119, 0),
    (250432, 0)], [(117094192, 0), (32114960, 0), (4303052, 0), (373117, 0), (23510, 0)]], 3, 4⟩, 1099511627776, 0,
    502957230, ⟨[[(25402057371307, 0), (0, 31905059768), (5362331, 0), (38693, 0), (226, 0)], [(4727191964, 0),
    (30508972, 0), (162401, 0), (1011, 0), (7, 0)], [(0, 1409871), (0, 9286), (209, 0), (5, 0)], [(3837, 0), (115,
    0), (2, 0)]], 3, 4⟩, 68719476736, 4918291,
    1729325006155015772776007897229251470426398704616838567464312312387113912912490058086455523239, lc0⟩) (.leaf ⟨46,
    16, 991, 1700, 16, 2198, ⟨[[(498216206336, 0)], [(8512625180672, 0)]], 3, 4⟩, ⟨[[(65138689180, 0),
    (4470233902495, 0), (0, 17607709991), (320089905, 0), (9775528, 0)], [(1518670799491, 0), (48678401256, 0),
    (1630304752, 0), (94841503, 0), (5470172, 0)], [(12502811327, 0), (1935161090, 0), (216799408, 0), (17538391, 0),
    (1050810, 0)], [(590759222, 0), (155399386, 0), (19871214, 0), (1643087, 0), (98716, 0)]], 3, 4⟩, 1099511627776,
    0, 2348479570, ⟨[[(24610212583528, 0), (0, 31361608668), (9247467, 0), (70975, 0), (468, 0)], [(5608354209, 0),
    (40817984, 0), (271259, 0), (2101, 0), (16, 0)], [(0, 1408220), (14766, 0), (863, 0), (14, 0)], [(7921, 0), (223,
    0), (3, 0)]], 3, 4⟩, 68719476736, 9364708,
    2858041583446318634923807119511945157168284624856030425061500831809926912822697981776002004109, lc0⟩))) (.sy (.sx
    (.leaf ⟨77, 16, 991, 1610, 16, 2107, ⟨[[(463856467968, 0)], [(8512625180672, 0)]], 3, 4⟩, ⟨[[(228828850941, 0),
    (4664195541416, 0), (0, 17294766423), (381227741, 0), (12584083, 0)], [(1271555352397, 0), (41008684553, 0),
    (1359882798, 0), (80394840, 0), (4837222, 0)], [(8191733359, 0), (1224938873, 0), (139804204, 0), (11799323, 0),
    (740912, 0)], [(336604319, 0), (92806236, 0), (12445860, 0), (1079397, 0), (68021, 0)]], 3, 4⟩, 1099511627776, 0,
    1453304681, ⟨[[(25405110317570, 0), (0, 32004446658), (12634516, 0), (95061, 0), (680, 0)], [(4793633264, 0),
    (33181190, 0), (214958, 0), (1755, 0), (15, 0)], [(0, 1058237), (4593, 0), (473, 0), (8, 0)], [(3978, 0), (121,
    0), (2, 0)]], 3, 4⟩, 68719476736, 10318738,
    2932983682897267415511524433543703954505876453813735823010404698226271657446785099022209942929, lc0⟩) (.sy (.leaf
    ⟨108, 16, 991, 2701, 16, 3538, ⟨[[(429496729600, 0)], [(8512625180672, 0)]], 3, 4⟩, ⟨[[(0, 376113095292),
    (4103302102099, 0), (0, 5208477442), (154016126, 0), (3569226, 0)], [(2150985574668, 0), (40826244997, 0),
    (1004134333, 0), (35863831, 0), (1118145, 0)], [(18569276273, 0), (1773141365, 0), (110573192, 0), (4788421, 0),
    (152478, 0)], [(927696475, 0), (129626073, 0), (8801776, 0), (386459, 0), (12329, 0)]], 3, 4⟩, 1099511627776, 0,
    1378192769, ⟨[[(25598132287974, 0), (0, 18476345440), (6782746, 0), (31852, 0), (147, 0)], [(4690204030, 0),
    (19704805, 0), (84792, 0), (462, 0), (2, 0)], [(0, 728064), (8004, 0), (206, 0), (2, 0)], [(3421, 0), (61, 0),
    (1, 0)]], 3, 4⟩, 68719476736, 2591906,
    2972828106471288772031539472780945018386459459320201920045297649669943143357287478879991194669, lc0⟩) (.skip)))
    (.sx (.sy (.sx (.leaf ⟨139, 16, 1983, 3333, 16, 4315, ⟨[[(472446402560, 0)], [(8516920147968, 0)]], 3, 4⟩,
    ⟨[[(407264190760, 0), (4588128146241, 0), (0, 6530618628), (152451723, 0), (3343176, 0)], [(1495626668031, 0),
    (27755109110, 0), (655461615, 0), (22348086, 0), (664365, 0)], [(7671091629, 0), (706720433, 0), (42122331, 0),
    (1738974, 0), (52767, 0)], [(224502322, 0), (29899581, 0), (1934499, 0), (80927, 0), (2460, 0)]], 3, 4⟩,
    1099511627776, 0, 239335338, ⟨[[(24808593691214, 0), (0, 15517171298), (3969518, 0), (15907, 0), (58, 0)],
    [(2730481936, 0), (10311425, 0), (38710, 0), (172, 0), (1, 0)], [(0, 233045), (3223, 0), (62, 0)], [(858, 0),
    (12, 0)]], 3, 4⟩, 68719476736, 1270668,
    1966794120383879981756837037603942062960564304860416580120130307773897258244249770481511817130, lc0⟩) (.skip))
    (.skip)) (.skip)))) (.sx (.sx (.sx (.leaf ⟨15, 16, 1983, 1121, 16, 1427, ⟨[[(541165879296, 0)], [(8516920147968,
    0)]], 3, 4⟩, ⟨[[(26256730530, 0), (5051559929231, 0), (0, 49285251857), (588855554, 0), (0, 1626572)],
    [(587348755798, 0), (31741618362, 0), (1078789387, 0), (60569701, 0), (5704649, 0)], [(2823539165, 0),
    (781527325, 0), (161097609, 0), (24310081, 0), (2724463, 0)], [(215414946, 0), (106081531, 0), (25364982, 0),
    (3921112, 0), (440414, 0)]], 3, 4⟩, 1099511627776, 0, 1203621827, ⟨[[(23513757897712, 0), (0, 50684251062),
    (2099301, 0), (57106, 0), (441, 0)], [(3508262076, 0), (42611041, 0), (406501, 0), (3802, 0), (35, 0)], [(0,
    520736), (18951, 0), (1256, 0), (30, 0)], [(2345, 0), (98, 0), (2, 0)]], 3, 4⟩, 68719476736, 19609866,
    3667047995382574482287465886324377949034831586052397653049059169611176738981736070299825808531, lc0⟩) (.sy (.leaf
    ⟨46, 16, 1983, 2030, 16, 2596, ⟨[[(523986010112, 0)], [(8516920147968, 0)]], 3, 4⟩, ⟨[[(322628360746, 0),
    (4847308607527, 0), (0, 21089032291), (244251562, 0), (5153750, 0)], [(1023422516761, 0), (31678255255, 0),
    (973525275, 0), (52704753, 0), (2896508, 0)], [(5876728081, 0), (980721058, 0), (109066653, 0), (8488566, 0),
    (486504, 0)], [(212625032, 0), (53495863, 0), (6537393, 0), (516526, 0), (29652, 0)]], 3, 4⟩, 1099511627776, 0,
    361466030, ⟨[[(23875383071002, 0), (0, 27204652163), (3959732, 0), (28007, 0), (144, 0)], [(3268908424, 0),
    (21692467, 0), (124128, 0), (762, 0), (5, 0)], [(0, 417236), (8512, 0), (303, 0), (4, 0)], [(1797, 0), (42, 0)]],
    3, 4⟩, 68719476736, 2956574,
    1998480385332289476849943594564886878997931000711832251648402735866208225692879385717140908158, lc0⟩) (.sy (.sx
    (.leaf ⟨77, 16, 3967, 4237, 16, 5369, ⟨[[(528280977408, 0)], [(8519067631616, 0)]], 3, 4⟩, ⟨[[(78931876030, 0),
    (4790337557494, 0), (0, 9697945788), (75487180, 0), (1090953, 0)], [(1206604718782, 0), (20715587189, 0),
    (420560836, 0), (12787432, 0), (346853, 0)], [(6014490373, 0), (581721054, 0), (32822936, 0), (1245994, 0),
    (34592, 0)], [(158207921, 0), (19271850, 0), (1139663, 0), (43571, 0), (1210, 0)]], 3, 4⟩, 1099511627776, 0,
    38154953, ⟨[[(23341379276036, 0), (0, 13164575234), (1069427, 0), (3719, 0), (9, 0)], [(1861913513, 0), (6499454,
    0), (19753, 0), (62, 0)], [(0, 46293), (2843, 0), (35, 0)], [(349, 0), (4, 0)]], 3, 4⟩, 68719476736, 554082,
    1458340218420478459865693300230780659865097003005872263052022309004385086630141118865218970817, lc0⟩) (.leaf
    ⟨108, 16, 3967, 4138, 16, 5238, ⟨[[(519691042816, 0)], [(8519067631616, 0)]], 3, 4⟩, ⟨[[(73889105885, 0),
    (4764614887593, 0), (0, 7234599042), (145794030, 0), (3035575, 0)], [(1231805211789, 0), (25688206384, 0),
    (721936813, 0), (24320521, 0), (667275, 0)], [(7835675000, 0), (807254305, 0), (46198666, 0), (1757586, 0),
    (48804, 0)], [(176030754, 0), (21444050, 0), (1268132, 0), (48483, 0), (1347, 0)]], 3, 4⟩, 1099511627776, 0,
    76701953, ⟨[[(23340914521694, 0), (0, 13268219614), (1887038, 0), (6586, 0), (18, 0)], [(1890509653, 0),
    (7060675, 0), (24154, 0), (85, 0)], [(829, 0), (3623, 0), (41, 0)], [(357, 0), (4, 0)]], 3, 4⟩, 68719476736,
    704067, 3374635820393927706694274423137440500258942763856405065883309424226561207677732970174891436174, lc0⟩))
    (.sx (.leaf ⟨77, 16, 3967, 4256, 16, 5360, ⟨[[(528280977408, 0)], [(8519067631616, 0)]], 3, 4⟩, ⟨[[(0,
    257924169922), (4675393366627, 0), (0, 8025832801), (112785608, 0), (2136010, 0)], [(1347052740785, 0),
    (27451931640, 0), (743352434, 0), (24407228, 0), (655441, 0)], [(10988402541, 0), (1143621126, 0), (64506045, 0),
    (2405266, 0), (65400, 0)], [(325525566, 0), (38825984, 0), (2247746, 0), (84126, 0), (2288, 0)]], 3, 4⟩,
    1099511627776, 0, 75438897, ⟨[[(22997976964996, 0), (0, 13122299902), (1408346, 0), (4883, 0), (13, 0)],
    [(2046545199, 0), (7685634, 0), (25495, 0), (84, 0)], [(55731, 0), (5139, 0), (54, 0)], [(464, 0), (5, 0)]], 3,
    4⟩, 68719476736, 730560,
    3651644744181129114775944451961044509807670985486532134762500597949291376641553771364003780698, lc0⟩) (.sy (.sx
    (.leaf ⟨201, 16, 7935, 8399, 16, 10585, ⟨[[(521838526464, 0)], [(8520141373440, 0)]], 3, 4⟩, ⟨[[(0, 83484504996),
    (4725656430072, 0), (0, 2980634477), (45328481, 0), (499392, 0)], [(1354210303319, 0), (15836270004, 0),
    (252217825, 0), (4320705, 0), (58541, 0)], [(5908047393, 0), (313998079, 0), (8931060, 0), (167460, 0), (2289,
    0)], [(73637509, 0), (4414615, 0), (128463, 0), (2417, 0), (33, 0)]], 3, 4⟩, 1099511627776, 0, 8826762,
    ⟨[[(23084139461705, 0), (0, 6557928204), (506795, 0), (884, 0), (1, 0)], [(1013290516, 0), (1967708, 0), (3491,
    0), (6, 0)], [(18106, 0), (654, 0), (3, 0)], [(55, 0)]], 3, 4⟩, 68719476736, 99752,
    3451502243858118518449467812855027439493519120667952484304407419921420454830281552128163792047, lc0⟩) (.skip))
    (.skip)))))) (.sy (.sx (.sy (.leaf ⟨77, 16, 1983, 3523, 16, 4511, ⟨[[(506806140928, 0)], [(8516920147968, 0)]],
    3, 4⟩, ⟨[[(0, 291950839053), (4380949764920, 0), (0, 7600233065), (106833247, 0), (2042574, 0)], [(1777214412833,
    0), (31891683644, 0), (708769314, 0), (22946737, 0), (651420, 0)], [(11675272635, 0), (1075186168, 0), (61945429,
    0), (2447435, 0), (70950, 0)], [(373422072, 0), (47507279, 0), (2935465, 0), (117272, 0), (3404, 0)]], 3, 4⟩,
    1099511627776, 0, 344060871, ⟨[[(24044756495723, 0), (0, 15286816455), (2548449, 0), (9981, 0), (33, 0)],
    [(3191521121, 0), (12439175, 0), (45233, 0), (181, 0), (1, 0)], [(0, 283792), (6099, 0), (103, 0), (1, 0)],
    [(1607, 0), (21, 0)]], 3, 4⟩, 68719476736, 1120420,
    1467902960178240448971241508541254332328262531654152404092061976853626043432111092143276869256, lc0⟩) (.sx (.leaf
    ⟨139, 16, 3967, 4037, 16, 5138, ⟨[[(511101108224, 0)], [(8519067631616, 0)]], 3, 4⟩, ⟨[[(323545022188, 0),
    (4854296044477, 0), (0, 7169217586), (155872516, 0), (3320262, 0)], [(1116393971126, 0), (22506286831, 0),
    (607298747, 0), (20572000, 0), (575688, 0)], [(5337647210, 0), (534313637, 0), (30899052, 0), (1199104, 0),
    (34017, 0)], [(100479938, 0), (12507074, 0), (755866, 0), (29533, 0), (838, 0)]], 3, 4⟩, 1099511627776, 0,
    66564033, ⟨[[(23693375211791, 0), (0, 13408676243), (2199403, 0), (7736, 0), (22, 0)], [(1740349486, 0),
    (6353662, 0), (21781, 0), (79, 0)], [(0, 36658), (2425, 0), (30, 0)], [(270, 0), (3, 0)]], 3, 4⟩, 68719476736,
    648087, 2228178538277596409588962635978072872301189580975613746864676805769408068550108091685799784922, lc0⟩)
    (.skip))) (.skip)) (.skip))) (.skip))) (.skip)) (.skip)) (.skip)
theorem c19 : checkC job ⟨6, 8, 8, 10, 9, 13⟩ 3 100 lims t19 2 2 4 33 3 32 = true := by decide +kernel

end PyX.Kron.T2a
