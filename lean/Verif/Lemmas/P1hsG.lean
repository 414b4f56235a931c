import Verif.Lemmas.P1hsJob

/-!
# Pressure from enthalpy and entropy in region 1, part G of the certificate
-/

namespace PyX.Kron.P1hs

set_option Elab.async false

def t34 : CTree :=
  .sx (.sy (.sx (.leaf ⟨1149, 16, 2375, 1525, 16, 3035, ⟨[[(425431378078203904, 0), (95436402260969109, 0),
    (1916698150178, 0), (873725116, 0), (173202, 0)], [(7843410915314162, 0), (5672260211086, 0), (1922552197, 0),
    (631483, 0), (208, 0)], [(1261492904863, 0), (1161290574, 0), (681291, 0), (333, 0)], [(197795993, 0), (280300,
    0), (231, 0)]], 3, 4⟩, ⟨[[(337542888037810176, 0), (91026262408160449, 0), (285386633189, 0), (865972371, 0),
    (142253, 0)], [(14693059181542997, 0), (5410143657866, 0), (1742017844, 0), (565259, 0), (185, 0)],
    [(1285862268212, 0), (1107627048, 0), (631036, 0), (304, 0)], [(195127185, 0), (267347, 0), (215, 0)]], 3, 4⟩,
    1152921504606846976, 1387868810919549, 1364430058586153, ⟨[[(6801836465122908, 0), (0, 290546858530908),
    (450852909209, 0), (1443939459, 0), (2155471, 0)], [(277203304590859, 0), (0, 737405622632), (0, 2760947686), (0,
    2992950), (0, 2506)], [(236314164094, 0), (1867754151, 0), (0, 198), (0, 560), (0, 1)], [(0, 458609824),
    (1492312, 0), (506, 0)]], 3, 4⟩, 281474976710656, 38972174782,
    5980248397917249225914625522636731169897561546076726299803539981675813989161262454512868522339093207702087313211263769078072624648014906000,
    lc0⟩) (.leaf ⟨1128, 16, 2328, 1499, 16, 2977, ⟨[[(348956295530807296, 0), (94964092864291928, 0), (2377355443699,
    0), (1027368341, 0), (228136, 0)], [(8323013870399353, 0), (6163347305703, 0), (2251189192, 0), (802714, 0),
    (283, 0)], [(1391674473038, 0), (1363838651, 0), (855628, 0), (438, 0)], [(235066102, 0), (349307, 0), (294,
    0)]], 3, 4⟩, ⟨[[(271562782047731712, 0), (90638529899919208, 0), (732899179177, 0), (1002915382, 0), (191612,
    0)], [(15058581980901057, 0), (5882610176142, 0), (2048948501, 0), (722375, 0), (253, 0)], [(1414284215082, 0),
    (1301716540, 0), (794593, 0), (401, 0)], [(231583406, 0), (333397, 0), (275, 0)]], 3, 4⟩, 1152921504606846976,
    2184854948810074, 2149544072368889, ⟨[[(6363491301306950, 0), (0, 294575179272236), (478016725216, 0),
    (1553852229, 0), (2367012, 0)], [(281232219856053, 0), (0, 778546524047), (0, 2958200573), (0, 3272428), (0,
    2794)], [(249658524143, 0), (1990234134, 0), (0, 3166), (0, 628), (0, 1)], [(0, 485968041), (1621862, 0), (562,
    0)]], 3, 4⟩, 281474976710656, 42343867214,
    5971646952253439802999793384668977787481322440070029980257271331284526486838655446860403351513598660772256764263863191982189301387392041616,
    lc0⟩)) (.sx (.sy (.leaf ⟨2152, 16, 4364, 2745, 16, 5388, ⟨[[(114372377237782528, 0), (88783928728905939, 0),
    (1233509637002, 0), (250512501, 0), (28181, 0)], [(17414392251221777, 0), (6274018462447, 0), (1157498869, 0),
    (207990, 0), (37, 0)], [(2976784080619, 0), (1469451575, 0), (465361, 0), (121, 0)], [(532998218, 0), (399558,
    0), (170, 0)]], 3, 4⟩, ⟨[[(0, 365552996128915456), (81100847791355319, 0), (458893338135, 0), (232168993, 0),
    (22827, 0)], [(28838566990186081, 0), (5731084709224, 0), (1010136608, 0), (179491, 0), (32, 0)],
    [(2887080959202, 0), (1342289874, 0), (414036, 0), (106, 0)], [(501915896, 0), (364981, 0), (152, 0)]], 3, 4⟩,
    1152921504606846976, 933604666671573, 871234401455580, ⟨[[(6753675637471362, 0), (0, 161931885123944),
    (153338299683, 0), (280081631, 0), (239227, 0)], [(147953858969087, 0), (0, 237189643562), (0, 511028644), (0,
    315264), (0, 150)], [(72852183039, 0), (328469485, 0), (0, 288), (0, 33)], [(0, 76582488), (140606, 0), (27,
    0)]], 3, 4⟩, 281474976710656, 3386876468,
    6886760898407249047105082168021248802406253481621775632830112987409278814481425267253701464753976999526006175844112419864517931183314944656,
    lc0⟩) (.leaf ⟨2121, 16, 4247, 2714, 16, 5280, ⟨[[(0, 267529343795200000), (87338519554104150, 0), (1478359049787,
    0), (287410631, 0), (35308, 0)], [(19231791880150156, 0), (6975460635028, 0), (1368676346, 0), (262125, 0), (50,
    0)], [(3458445374678, 0), (1795303074, 0), (598571, 0), (163, 0)], [(677496172, 0), (526158, 0), (231, 0)]], 3,
    4⟩, ⟨[[(0, 172496775154761728), (79877714097797963, 0), (706543974989, 0), (263286338, 0), (29094, 0)],
    [(30355487459218991, 0), (6379588904758, 0), (1200202214, 0), (227443, 0), (43, 0)], [(3344126093590, 0),
    (1641941109, 0), (534169, 0), (143, 0)], [(637471923, 0), (481211, 0), (208, 0)]], 3, 4⟩, 1152921504606846976,
    1474922108851819, 1377815378796491, ⟨[[(6830327802626406, 0), (0, 164144460172666), (166769935101, 0),
    (313924054, 0), (276467, 0)], [(150121991906945, 0), (0, 256356462223), (0, 572298401), (0, 362728), (0, 176)],
    [(78837739348, 0), (366512089, 0), (0, 525), (0, 39)], [(0, 85130896), (159533, 0), (32, 0)]], 3, 4⟩,
    281474976710656, 3831165353,
    7654663678531321205162970296563451771409993078379782603092217997203464639185446725492612881046767307723696385032537633468246528566001779344,
    lc0⟩)) (.sy (.leaf ⟨2097, 16, 4244, 2680, 16, 5250, ⟨[[(0, 426614630709723136), (87908699767767169, 0),
    (1501026990732, 0), (300249160, 0), (37947, 0)], [(18434438595414450, 0), (6867546260352, 0), (1376731652, 0),
    (269313, 0), (52, 0)], [(3313521893377, 0), (1749927927, 0), (591614, 0), (162, 0)], [(639439669, 0), (500204,
    0), (221, 0)]], 3, 4⟩, ⟨[[(498374887980138496, 0), (80457025923352155, 0), (711220509859, 0), (275296220, 0),
    (31323, 0)], [(29553671587685960, 0), (6285411443448, 0), (1208270649, 0), (233867, 0), (45, 0)],
    [(3207699639127, 0), (1601593437, 0), (528276, 0), (143, 0)], [(602213893, 0), (457804, 0), (199, 0)]], 3, 4⟩,
    1152921504606846976, 1358116054453686, 1269746710576391, ⟨[[(6507376417488389, 0), (0, 165512148019660),
    (164035827133, 0), (306958359, 0), (269457, 0)], [(151448140101391, 0), (0, 253226098603), (0, 559079485), (0,
    354377), (0, 173)], [(77883424321, 0), (358401414, 0), (0, 526), (0, 38)], [(0, 83338943), (157595, 0), (32,
    0)]], 3, 4⟩, 281474976710656, 3798168698,
    6906497680131611752047157659300228756176054331574799783610947973808408211707989501650338044431955307310495527222741805317080907137391379088,
    lc0⟩) (.leaf ⟨2058, 16, 4114, 2641, 16, 5126, ⟨[[(510266013759045632, 0), (86348181237714581, 0), (1790315320795,
    0), (350291232, 0), (48561, 0)], [(20375267342787694, 0), (7696769088710, 0), (1650462696, 0), (345756, 0), (72,
    0)], [(3883387876443, 0), (2163212132, 0), (772717, 0), (228, 0)], [(819446547, 0), (667404, 0), (316, 0)]], 3,
    4⟩, ⟨[[(63633832349794304, 0), (79147217102300833, 0), (1001388593961, 0), (318255776, 0), (40693, 0)],
    [(31158589854938611, 0), (7054900813414, 0), (1455809344, 0), (301945, 0), (63, 0)], [(3748996351876, 0),
    (1982812119, 0), (692253, 0), (202, 0)], [(771432880, 0), (611746, 0), (285, 0)]], 3, 4⟩, 1152921504606846976,
    2141514121537400, 2004779877574412, ⟨[[(6321356896539003, 0), (0, 167811789801675), (181179744460, 0),
    (349406922, 0), (317237, 0)], [(153861295110587, 0), (0, 277602451214), (0, 634447803), (0, 414620), (0, 208)],
    [(85540867229, 0), (404177179, 0), (0, 1057), (0, 46)], [(0, 93395105), (181602, 0), (38, 0)]], 3, 4⟩,
    281474976710656, 4363779778,
    7677332343408521097757924565893838840793543590971614382141252960118752430806660502630190804589145243105488223361042369133490696384243155600,
    lc0⟩)))) (.sy (.sx (.leaf ⟨1105, 16, 2276, 1470, 16, 2913, ⟨[[(0, 138226963660668928), (94384344963115605, 0),
    (2910218839318, 0), (1222110845, 0), (302534, 0)], [(8838787136236440, 0), (6736070712100, 0), (2661040551, 0),
    (1026395, 0), (387, 0)], [(1544990630955, 0), (1613164753, 0), (1075563, 0), (579, 0)], [(279974405, 0), (432824,
    0), (376, 0)]], 3, 4⟩, ⟨[[(196963787117166592, 0), (90162462225453501, 0), (1251942087214, 0), (1177854484, 0),
    (258761, 0)], [(15447175233902294, 0), (6434761202874, 0), (2432951941, 0), (928266, 0), (348, 0)],
    [(1565531844513, 0), (1541006680, 0), (1001335, 0), (531, 0)], [(275564164, 0), (413464, 0), (352, 0)]], 3, 4⟩,
    1152921504606846976, 3414896842069533, 3362828243525759, ⟨[[(6024755610144043, 0), (0, 299595916131370),
    (508448381003, 0), (1684238526, 0), (2625653, 0)], [(286169151524247, 0), (0, 824958741813), (0, 3195008579), (0,
    3616285), (0, 3158)], [(264654165196, 0), (2139643143, 0), (0, 6152), (0, 713), (0, 1)], [(0, 519989535),
    (1781945, 0), (633, 0)]], 3, 4⟩, 281474976710656, 46534045823,
    5835396459270828627342322651180397709909527221628485418805031248076898346204891275540580905544100290899575831719654670197014231034420040565,
    lc0⟩) (.sy (.leaf ⟨2052, 16, 4247, 2617, 16, 5198, ⟨[[(0, 293692516947984384), (89115181971995209, 0),
    (1513878882395, 0), (320192937, 0), (42141, 0)], [(16790763021102234, 0), (6586497790728, 0), (1363351596, 0),
    (275110, 0), (54, 0)], [(3000427905103, 0), (1625121319, 0), (560415, 0), (157, 0)], [(555443235, 0), (438796,
    0), (197, 0)]], 3, 4⟩, ⟨[[(0, 97739241498869760), (81650265682601867, 0), (688447175760, 0), (294393402, 0),
    (34818, 0)], [(27914559486317576, 0), (6034766272485, 0), (1197512795, 0), (239059, 0), (47, 0)],
    [(2911784311701, 0), (1488989693, 0), (500731, 0), (138, 0)], [(524028694, 0), (402039, 0), (177, 0)]], 3, 4⟩,
    1152921504606846976, 1113083193339716, 1042125217671123, ⟨[[(5523935307444014, 0), (0, 167380502228384),
    (159597711722, 0), (293522938, 0), (255338, 0)], [(153358704252887, 0), (0, 248034565990), (0, 531536344), (0,
    336343), (0, 164)], [(76289411161, 0), (339821855, 0), (0, 806), (0, 36)], [(0, 78852177), (152459, 0), (30,
    0)]], 3, 4⟩, 281474976710656, 3694691123,
    4087872398497420508075220808275081014526550352820389699342692613785931787273700719946549591551686629981618346768562425343729283153593590875,
    lc0⟩) (.leaf ⟨2016, 16, 4119, 2581, 16, 5078, ⟨[[(361920983758274560, 0), (87578771668575905, 0), (1827362184545,
    0), (376620705, 0), (54394, 0)], [(18694771512363205, 0), (7421548084749, 0), (1646361597, 0), (356238, 0), (77,
    0)], [(3535406619948, 0), (2020250409, 0), (738228, 0), (226, 0)], [(714604839, 0), (591277, 0), (292, 0)]], 3,
    4⟩, ⟨[[(0, 231573216408109056), (80348058860924273, 0), (1002106923058, 0), (342822799, 0), (45625, 0)],
    [(29487598498434695, 0), (6808807328439, 0), (1453285811, 0), (311283, 0), (67, 0)], [(3419965773648, 0),
    (1853453704, 0), (661721, 0), (200, 0)], [(673762043, 0), (542460, 0), (264, 0)]], 3, 4⟩, 1152921504606846976,
    1777513715695810, 1666037642954580, ⟨[[(5416361071119055, 0), (0, 169848378871501), (175755796309, 0),
    (333267187, 0), (299875, 0)], [(155874991889510, 0), (0, 271046661658), (0, 602319431), (0, 392845), (0, 197)],
    [(83516570878, 0), (383188280, 0), (0, 1226), (0, 43)], [(0, 88441677), (175427, 0), (36, 0)]], 3, 4⟩,
    281474976710656, 4238511151,
    5204112165944780136036928095870809126247731592896229017430219967060828458095831804629371680020762087359145931174580790591328947130941006939,
    lc0⟩))) (.sx (.sy (.leaf ⟨2037, 16, 4115, 2610, 16, 5100, ⟨[[(0, 202729065134948352), (86954776640348289, 0),
    (1815345366058, 0), (364730190, 0), (51723, 0)], [(19546206555882073, 0), (7573058278677, 0), (1654751514, 0),
    (352835, 0), (75, 0)], [(3714626817694, 0), (2098780902, 0), (758977, 0), (228, 0)], [(768443267, 0), (631050,
    0), (305, 0)]], 3, 4⟩, ⟨[[(46676744691253248, 0), (79733709697551986, 0), (1007978168943, 0), (331606442, 0),
    (43371, 0)], [(30327877662436695, 0), (6944161708477, 0), (1460148681, 0), (308219, 0), (65, 0)],
    [(3589144360618, 0), (1924489874, 0), (680100, 0), (202, 0)], [(723890993, 0), (578645, 0), (275, 0)]], 3, 4⟩,
    1152921504606846976, 1961825274592672, 1837587216578990, ⟨[[(5974009572304858, 0), (0, 169082086508185),
    (178192270566, 0), (341380869, 0), (308811, 0)], [(155037818963329, 0), (0, 273985279935), (0, 618944119), (0,
    404318), (0, 203)], [(84404048471, 0), (394427900, 0), (0, 1057), (0, 45)], [(0, 91174887), (178840, 0), (37,
    0)]], 3, 4⟩, 281474976710656, 4309054169,
    6734667907942051187732778105526810311209298083702323998160806128590232673998974825746162864319077120488517586218156778807226519283597611893,
    lc0⟩) (.leaf ⟨1991, 16, 3970, 2561, 16, 4957, ⟨[[(0, 322992409786974208), (85255284140828239, 0), (2161557115546,
    0), (433693731, 0), (68316, 0)], [(21625975127769088, 0), (8562668845634, 0), (2015503452, 0), (466979, 0), (112,
    0)], [(4392658130803, 0), (2631271984, 0), (1022266, 0), (345, 0)], [(996816000, 0), (872216, 0), (479, 0)]], 3,
    4⟩, ⟨[[(0, 576165270082551808), (78310114441318341, 0), (1352610462052, 0), (391671779, 0), (58097, 0)],
    [(32027551855629748, 0), (7865126296659, 0), (1787752434, 0), (410466, 0), (98, 0)], [(4233559557571, 0),
    (2416920104, 0), (919457, 0), (308, 0)], [(938863116, 0), (801163, 0), (433, 0)]], 3, 4⟩, 1152921504606846976,
    3087458383901683, 2896197744082000, ⟨[[(5898445616172137, 0), (0, 172271216667789), (198459938248, 0),
    (394340192, 0), (370843, 0)], [(158252329861616, 0), (0, 302958978102), (0, 713229010), (0, 482695), (0, 250)],
    [(93474287675, 0), (451972518, 0), (0, 1715), (0, 56)], [(0, 103898703), (210241, 0), (45, 0)]], 3, 4⟩,
    281474976710656, 5052865197,
    7498280046655234181773727844599252715460374556324524282676275769636721883093053486579170324474468737567985084149432992650266162862575096693,
    lc0⟩)) (.sy (.leaf ⟨1972, 16, 3975, 2533, 16, 4938, ⟨[[(0, 365814022307315712), (85894769308099520, 0),
    (2188015026113, 0), (449802765, 0), (72360, 0)], [(20758526964203194, 0), (8414904240815, 0), (2013549621, 0),
    (475197, 0), (118, 0)], [(4191951217874, 0), (2542100667, 0), (1003360, 0), (350, 0)], [(930345712, 0), (826941,
    0), (472, 0)]], 3, 4⟩, ⟨[[(556410072377327616, 0), (78945769163466331, 0), (1360876708475, 0), (406621789, 0),
    (61579, 0)], [(31179179112341335, 0), (7734127387259, 0), (1786959614, 0), (417930, 0), (103, 0)],
    [(4044696710005, 0), (2336441370, 0), (902946, 0), (312, 0)], [(877038202, 0), (760041, 0), (428, 0)]], 3, 4⟩,
    1152921504606846976, 2816076842970881, 2643582498626408, ⟨[[(5634097750135017, 0), (0, 173631588665441),
    (193837364054, 0), (382473910, 0), (357860, 0)], [(159539246514721, 0), (0, 297293762098), (0, 691710799), (0,
    467263), (0, 242)], [(91734611180, 0), (439203498, 0), (0, 1590), (0, 54)], [(0, 101158009), (205967, 0), (44,
    0)]], 3, 4⟩, 281474976710656, 4967728686,
    6169095307770666780951380897219235993660523656637387282423638657332024077155621488609606687402132405429883222340155226479648336673635001435,
    lc0⟩) (.leaf ⟨1917, 16, 3813, 2472, 16, 4773, ⟨[[(0, 483885678004273152), (84034946181486768, 0), (2609564374942,
    0), (548566017, 0), (100598, 0)], [(22995734907361039, 0), (9613600823852, 0), (2509255266, 0), (663059, 0),
    (192, 0)], [(5009058834693, 0), (3261395205, 0), (1432425, 0), (588, 0)], [(1238272128, 0), (1226871, 0), (833,
    0), (1, 0)]], 3, 4⟩, ⟨[[(171159396830150656, 0), (77384271005280794, 0), (1777661706527, 0), (493786424, 0),
    (86810, 0)], [(32984412037658239, 0), (8852763347792, 0), (2239125177, 0), (587347, 0), (170, 0)],
    [(4821775478021, 0), (3003282585, 0), (1294789, 0), (528, 0)], [(1167046375, 0), (1129774, 0), (758, 0)]], 3, 4⟩,
    1152921504606846976, 4421630768678946, 4159048906740322, ⟨[[(5595121588645540, 0), (0, 177854608417460),
    (218342512665, 0), (449604112, 0), (439850, 0)], [(163734271345770, 0), (0, 332529500508), (0, 811286998), (0,
    571013), (0, 307)], [(102758343157, 0), (512331800, 0), (0, 2474), (0, 70)], [(0, 117375607), (247835, 0), (56,
    0)]], 3, 4⟩, 281474976710656, 5965676433,
    6862854407209047425918146138721848142428280691341327061803302670147499154779805379117033967167062794081915403902504169093043077134440686683,
    lc0⟩))))
theorem c34 : checkC job ⟨6, 8, 6, 7, 9, 13⟩ 3 200 B1.zlims t34 3697 121 640 7043 175 7584 = true := by decide +kernel

def t35 : CTree :=
  .sy (.sx (.sy (.leaf ⟨2082, 16, 4117, 2673, 16, 5154, ⟨[[(0, 326243857341087744), (85776948997069315, 0),
    (1753209884932, 0), (333609902, 0), (44982, 0)], [(21183994036184999, 0), (7793135563916, 0), (1633619279, 0),
    (335097, 0), (69, 0)], [(4040182820230, 0), (2211896657, 0), (778834, 0), (226, 0)], [(866353571, 0), (699311,
    0), (325, 0)]], 3, 4⟩, ⟨[[(0, 182612664879939584), (78553993259560609, 0), (982472567086, 0), (302837930, 0),
    (37629, 0)], [(31964378968147079, 0), (7136904794549, 0), (1439446951, 0), (292356, 0), (60, 0)],
    [(3895714515261, 0), (2025641120, 0), (697183, 0), (200, 0)], [(814714621, 0), (640424, 0), (292, 0)]], 3, 4⟩,
    1152921504606846976, 2312134212293227, 2162299247726933, ⟨[[(6837027030158706, 0), (0, 166782401269008),
    (183323232710, 0), (356717549, 0), (325088, 0)], [(152726218882197, 0), (0, 279981513135), (0, 649086442), (0,
    424276), (0, 212)], [(86205402810, 0), (413648377, 0), (0, 954), (0, 48)], [(0, 95622319), (183878, 0), (38,
    0)]], 3, 4⟩, 281474976710656, 4403967634,
    7935707136626524627705010310294860782992513103046524089795080227519350899190372556447391029190449627063243500391621642893142635846969967248,
    lc0⟩) (.leaf ⟨2034, 16, 3972, 2621, 16, 5010, ⟨[[(0, 329304204612468736), (84066225566571854, 0), (2064669715215,
    0), (392548165, 0), (58611, 0)], [(23277438970473612, 0), (8753304597984, 0), (1971301121, 0), (437049, 0), (99,
    0)], [(4747155248451, 0), (2751598933, 0), (1032219, 0), (327, 0)], [(1116256608, 0), (947187, 0), (482, 0)]], 3,
    4⟩, ⟨[[(527634232491114496, 0), (77142706601321958, 0), (1293904597336, 0), (354170235, 0), (49731, 0)],
    [(33683970642642559, 0), (8032400691757, 0), (1746399218, 0), (383691, 0), (87, 0)], [(4568243506932, 0),
    (2524982985, 0), (927545, 0), (291, 0)], [(1049940211, 0), (869178, 0), (435, 0)]], 3, 4⟩, 1152921504606846976,
    3594271250174396, 3367373548537031, ⟨[[(6942610207073274, 0), (0, 170259946659194), (202714368485, 0),
    (410036215, 0), (388280, 0)], [(156174223998910, 0), (0, 308031416725), (0, 745528745), (0, 504643), (0, 260)],
    [(94977917716, 0), (473318893, 0), (0, 1509), (0, 59)], [(0, 109045970), (215878, 0), (47, 0)]], 3, 4⟩,
    281474976710656, 5161269443,
    8043617699224129762517464491632258439605582004262582690579343325674854347327621856261039116951172054706647273539066553011920486403648373392,
    lc0⟩)) (.sy (.leaf ⟨2011, 16, 3969, 2590, 16, 4981, ⟨[[(435646431560466432, 0), (84646710308771980, 0),
    (2120194884678, 0), (414504857, 0), (63700, 0)], [(22466547378717429, 0), (8675953024388, 0), (2001480173, 0),
    (454200, 0), (106, 0)], [(4578750451412, 0), (2701951523, 0), (1032066, 0), (338, 0)], [(1059372943, 0), (912620,
    0), (482, 0)]], 3, 4⟩, ⟨[[(0, 218764134642614272), (77710490900814947, 0), (1330044157124, 0), (374100276, 0),
    (54119, 0)], [(32863436497211794, 0), (7965017968192, 0), (1774292427, 0), (398998, 0), (93, 0)],
    [(4409032532437, 0), (2480545061, 0), (927819, 0), (300, 0)], [(997042884, 0), (837837, 0), (435, 0)]], 3, 4⟩,
    1152921504606846976, 3349230179965027, 3139672174026182, ⟨[[(6288521739983132, 0), (0, 171068235254163),
    (201540755360, 0), (403432964, 0), (380793, 0)], [(157100736369496, 0), (0, 306716410204), (0, 730788493), (0,
    494830), (0, 256)], [(94629132772, 0), (462967551, 0), (0, 1728), (0, 58)], [(0, 106412425), (213450, 0), (46,
    0)]], 3, 4⟩, 281474976710656, 5115233984,
    7972253636958529789843358453579997048690068448685496467756083148252228521059020037892987793226438532131879430078108782335078086259047252624,
    lc0⟩) (.sx (.leaf ⟨2176, 16, 4241, 2917, 16, 5564, ⟨[[(0, 565221534484922368), (91559079522915264, 0),
    (2626207029216, 0), (516912027, 0), (86098, 0)], [(13409720325995571, 0), (5260747733160, 0), (1281328684, 0),
    (310395, 0), (79, 0)], [(1445987347558, 0), (891340925, 0), (360687, 0), (129, 0)], [(180835068, 0), (164306, 0),
    (95, 0)]], 3, 4⟩, ⟨[[(433285392226058240, 0), (87390677100162967, 0), (1826118028574, 0), (482785408, 0), (76686,
    0)], [(19686605508172220, 0), (5021242118744, 0), (1183892485, 0), (284452, 0), (72, 0)], [(1443185361169, 0),
    (850760923, 0), (337641, 0), (120, 0)], [(176691123, 0), (156826, 0), (90, 0)]], 3, 4⟩, 1152921504606846976,
    137535023870998, 133824417667160, ⟨[[(6618762794374243, 0), (0, 152370765041579), (167525367984, 0), (304228212,
    0), (259700, 0)], [(145365986868838, 0), (0, 263611666752), (0, 572557433), (0, 349349), (0, 162)],
    [(84483505757, 0), (375865883, 0), (0, 1384), (0, 39)], [(0, 89557930), (160447, 0), (31, 0)]], 3, 4⟩,
    281474976710656, 3922105054,
    7925232961807689494852612360163160796937817763744954455280116393976127297834994153449055691172497140461342359582985946028972849063026606736,
    lc0⟩) (.leaf ⟨2137, 16, 4161, 2868, 16, 5462, ⟨[[(355124395931336704, 0), (91134659165434944, 0), (2903052639428,
    0), (589037493, 0), (106372, 0)], [(13876063172750793, 0), (5615051512974, 0), (1446608075, 0), (375659, 0),
    (105, 0)], [(1556788925298, 0), (1003971927, 0), (433018, 0), (170, 0)], [(203899042, 0), (197394, 0), (127,
    0)]], 3, 4⟩, ⟨[[(28539335373488128, 0), (87032686860694850, 0), (2094648032357, 0), (549109305, 0), (95356, 0)],
    [(20043304593647802, 0), (5362317964544, 0), (1339738953, 0), (345354, 0), (97, 0)], [(1551651281970, 0),
    (958783137, 0), (406061, 0), (159, 0)], [(199145500, 0), (188509, 0), (120, 0)]], 3, 4⟩, 1152921504606846976,
    169525946384955, 164962176008021, ⟨[[(6228821579722705, 0), (0, 154210681561533), (176941735008, 0), (325857893,
    0), (283440, 0)], [(147289295230814, 0), (0, 277509202992), (0, 610646864), (0, 379762), (0, 179)],
    [(88964086512, 0), (398798578, 0), (0, 1854), (0, 43)], [(0, 94548027), (173558, 0), (35, 0)]], 3, 4⟩,
    281474976710656, 4238742948,
    7883597893388935583594426833232150868841794931381116682771063576450888122070875247556577475695561721370375003309929557261981311155713813251,
    lc0⟩)))) (.sx (.sy (.sx (.leaf ⟨2207, 16, 4260, 2963, 16, 5616, ⟨[[(368023917343277056, 0), (91222865546627095,
    0), (2550510286816, 0), (487571164, 0), (78620, 0)], [(13894918176657740, 0), (5303630363886, 0), (1257850419,
    0), (296366, 0), (73, 0)], [(1497827451991, 0), (905078259, 0), (357653, 0), (122, 0)], [(189965021, 0), (168693,
    0), (93, 0)]], 3, 4⟩, ⟨[[(0, 202491988492156928), (87020230833272270, 0), (1767635193727, 0), (455216278, 0),
    (69913, 0)], [(20214906674916614, 0), (5059292270134, 0), (1161216981, 0), (271346, 0), (66, 0)],
    [(1493961332445, 0), (863381330, 0), (334575, 0), (114, 0)], [(185490042, 0), (160922, 0), (87, 0)]], 3, 4⟩,
    1152921504606846976, 137585802080791, 133793693039378, ⟨[[(6857535632660611, 0), (0, 150289610529894),
    (169304320925, 0), (307727476, 0), (262273, 0)], [(143381742453848, 0), (0, 265436874777), (0, 578948118), (0,
    351736), (0, 162)], [(85050642178, 0), (379111168, 0), (0, 1524), (0, 39)], [(0, 90147179), (159804, 0), (31,
    0)]], 3, 4⟩, 281474976710656, 3890799850,
    7452798153445517346704377425843904038237294213229910723854653655427912912719631708314106104875414052147234542960968197785537095488736877085,
    lc0⟩) (.leaf ⟨2168, 16, 4178, 2912, 16, 5512, ⟨[[(0, 267108500420165632), (90780149680963385, 0), (2821887285501,
    0), (556263943, 0), (97133, 0)], [(14372735529432411, 0), (5662160111697, 0), (1421054862, 0), (357821, 0), (96,
    0)], [(1614034195600, 0), (1020025678, 0), (427409, 0), (160, 0)], [(214177877, 0), (201070, 0), (122, 0)]], 3,
    4⟩, ⟨[[(228981805342523392, 0), (86662395250367845, 0), (2031250427854, 0), (518418556, 0), (86954, 0)],
    [(20583734787830022, 0), (5405326597231, 0), (1315266182, 0), (328686, 0), (88, 0)], [(1607957413931, 0),
    (973757685, 0), (400577, 0), (149, 0)], [(209098264, 0), (191949, 0), (115, 0)]], 3, 4⟩, 1152921504606846976,
    169370717444530, 164745604925511, ⟨[[(6773951634004896, 0), (0, 152722026170904), (177408818521, 0), (328549204,
    0), (285621, 0)], [(145742533299752, 0), (0, 277710743077), (0, 617231053), (0, 382392), (0, 179)],
    [(88980441890, 0), (403367956, 0), (0, 1785), (0, 43)], [(0, 95736312), (173189, 0), (35, 0)]], 3, 4⟩,
    281474976710656, 4217479933,
    7548804489852304758610667005483756363358283321814890054444243937019247790328888695425670668142337387573788543478553357412367471404291310224,
    lc0⟩)) (.sx (.leaf ⟨2158, 16, 4113, 2904, 16, 5456, ⟨[[(194712358704119808, 0), (89986041504792494, 0),
    (3019847420883, 0), (598720047, 0), (109732, 0)], [(15369862880443756, 0), (6089527967701, 0), (1575956324, 0),
    (413013, 0), (116, 0)], [(1800058566906, 0), (1167298985, 0), (507055, 0), (198, 0)], [(253674072, 0), (246334,
    0), (156, 0)]], 3, 4⟩, ⟨[[(320458696154939392, 0), (85918416646525630, 0), (2238170793451, 0), (557078679, 0),
    (98696, 0)], [(21509854919045552, 0), (5814263994288, 0), (1461058664, 0), (380246, 0), (106, 0)],
    [(1790168750125, 0), (1114533753, 0), (475766, 0), (185, 0)], [(247458886, 0), (235199, 0), (147, 0)]], 3, 4⟩,
    1152921504606846976, 208031616319740, 202377706768536, ⟨[[(6946804226789277, 0), (0, 153179623528254),
    (188042973612, 0), (355471027, 0), (314868, 0)], [(146213790510920, 0), (0, 292925302692), (0, 666567682), (0,
    419569), (0, 199)], [(93811506112, 0), (433599217, 0), (0, 2272), (0, 49)], [(0, 102517158), (187431, 0), (38,
    0)]], 3, 4⟩, 281474976710656, 4546554994,
    6036372160882485917745417446784732169827883116133304924128835371733209898008148544032726564981529526315499552868047171996020211571010853405,
    lc0⟩) (.leaf ⟨2113, 16, 4020, 2845, 16, 5337, ⟨[[(0, 442977869761085440), (89462125084748256, 0), (3355706233845,
    0), (695588465, 0), (139799, 0)], [(15919810910824258, 0), (6549810386573, 0), (1810317743, 0), (515005, 0),
    (159, 0)], [(1954498266924, 0), (1337937214, 0), (627684, 0), (271, 0)], [(291500998, 0), (306021, 0), (216,
    0)]], 3, 4⟩, ⟨[[(509250396087648256, 0), (85488131563235504, 0), (2564702658221, 0), (646803732, 0), (126548,
    0)], [(21933096286736642, 0), (6258861518347, 0), (1682903203, 0), (475849, 0), (147, 0)], [(1941537242439, 0),
    (1278504758, 0), (590202, 0), (254, 0)], [(284287431, 0), (292427, 0), (204, 0)]], 3, 4⟩, 1152921504606846976,
    256669994557128, 249803957591575, ⟨[[(6835179775709590, 0), (0, 156047847995517), (198776783231, 0), (384039743,
    0), (348165, 0)], [(149009502649459, 0), (0, 309064552236), (0, 718757474), (0, 462936), (0, 225)],
    [(98969313455, 0), (466332354, 0), (0, 2710), (0, 55)], [(0, 109993982), (206025, 0), (43, 0)]], 3, 4⟩,
    281474976710656, 4996507326,
    6204669294006049491105163260704759318541558575448052543833102474846665447246797250573917335331688144105093368557540271744812827253539193488,
    lc0⟩))) (.sy (.sx (.leaf ⟨2126, 16, 4092, 2858, 16, 5402, ⟨[[(212930142548262912, 0), (90315020800523141, 0),
    (3126971993293, 0), (639832825, 0), (121858, 0)], [(14880727077064687, 0), (6066347146789, 0), (1617848233, 0),
    (439548, 0), (129, 0)], [(1744944074198, 0), (1158658702, 0), (521040, 0), (215, 0)], [(243719525, 0), (245673,
    0), (166, 0)]], 3, 4⟩, ⟨[[(459364240217604096, 0), (86273608163980224, 0), (2327382044599, 0), (595532803, 0),
    (109790, 0)], [(20973497293540864, 0), (5794890507586, 0), (1501144001, 0), (405116, 0), (119, 0)],
    [(1736130186337, 0), (1106811092, 0), (489261, 0), (201, 0)], [(237851503, 0), (234679, 0), (157, 0)]], 3, 4⟩,
    1152921504606846976, 208980005348546, 203292799415619, ⟨[[(6524411497877089, 0), (0, 155065661310176),
    (187309360262, 0), (353062193, 0), (313374, 0)], [(148098753420099, 0), (0, 292482449670), (0, 661280727), (0,
    418305), (0, 200)], [(93725231031, 0), (430530634, 0), (0, 2231), (0, 49)], [(0, 101818987), (188684, 0), (38,
    0)]], 3, 4⟩, 281474976710656, 4593006961,
    7538212339344524218139755051858655449145867210807952420448061777254978657846773213131077094915265231139108917473854454234083915802371107587,
    lc0⟩) (.leaf ⟨2082, 16, 4000, 2801, 16, 5286, ⟨[[(0, 547799678366253056), (89789477949695707, 0), (3471727062635,
    0), (743286846, 0), (155678, 0)], [(15415926001336360, 0), (6523985114483, 0), (1860118765, 0), (551228, 0),
    (179, 0)], [(1893511553349, 0), (1330347769, 0), (650487, 0), (298, 0)], [(281061195, 0), (308930, 0), (232,
    0)]], 3, 4⟩, ⟨[[(479204579829350400, 0), (85860148347379267, 0), (2663295844676, 0), (691627392, 0), (141196,
    0)], [(21388525097664292, 0), (6238485204920, 0), (1731016386, 0), (510040, 0), (166, 0)], [(1882209288048, 0),
    (1272129646, 0), (612294, 0), (279, 0)], [(274259577, 0), (295411, 0), (219, 0)]], 3, 4⟩, 1152921504606846976,
    258096858577015, 251334528099525, ⟨[[(6407281980747272, 0), (0, 157915011836410), (197894838126, 0), (381090426,
    0), (346096, 0)], [(150910617870507, 0), (0, 308471717327), (0, 712544032), (0, 461063), (0, 226)],
    [(98860706528, 0), (462785228, 0), (0, 2661), (0, 55)], [(0, 109203033), (207260, 0), (43, 0)]], 3, 4⟩,
    281474976710656, 5044763568,
    7511114978511393801511036147926489503946117162897292516018727983326601233488399224279895078168313054660271434772366896136523271321839676163,
    lc0⟩)) (.sx (.leaf ⟨2064, 16, 3922, 2783, 16, 5211, ⟨[[(547458340584161280, 0), (88908589702954119, 0),
    (3740456028999, 0), (817755461, 0), (181581, 0)], [(16507640371657485, 0), (7079301157280, 0), (2104500555, 0),
    (656629, 0), (223, 0)], [(2132656967164, 0), (1553703786, 0), (797028, 0), (380, 0)], [(340402111, 0), (391756,
    0), (305, 0)]], 3, 4⟩, ⟨[[(0, 162229590982918144), (85026180525060143, 0), (2938648905695, 0), (760374048, 0),
    (165383, 0)], [(22384517939651927, 0), (6770166304541, 0), (1961764503, 0), (608932, 0), (207, 0)],
    [(2115955359573, 0), (1485857542, 0), (751066, 0), (356, 0)], [(331833043, 0), (374649, 0), (289, 0)]], 3, 4⟩,
    1152921504606846976, 317342861214299, 309011063066035, ⟨[[(6394929144882261, 0), (0, 158464749642643),
    (213002347949, 0), (419272116, 0), (389399, 0)], [(151568695948910, 0), (0, 329949779561), (0, 780736528), (0,
    515349), (0, 256)], [(105683223545, 0), (503455305, 0), (0, 3590), (0, 63)], [(0, 118066030), (228052, 0), (49,
    0)]], 3, 4⟩, 281474976710656, 5527334791,
    6256294920462375614838320519031098352387062818571668367597200019930898757879175236618601263278297489095111679619797311658249949274360457987,
    lc0⟩) (.leaf ⟨2012, 16, 3816, 2715, 16, 5076, ⟨[[(183590336635600896, 0), (88266899458536700, 0), (4184947619271,
    0), (974948886, 0), (240594, 0)], [(17127994555879540, 0), (7693732361607, 0), (2482514224, 0), (856733, 0),
    (318, 0)], [(2341023945596, 0), (1834194644, 0), (1038643, 0), (542, 0)], [(405666081, 0), (516303, 0), (438,
    0)]], 3, 4⟩, ⟨[[(519022990679080960, 0), (84509704691205828, 0), (3372217144205, 0), (907388762, 0), (220488,
    0)], [(22862872792687971, 0), (7366238690167, 0), (2321528889, 0), (797693, 0), (296, 0)], [(2320563399448, 0),
    (1756119776, 0), (981245, 0), (509, 0)], [(395359465, 0), (494325, 0), (416, 0)]], 3, 4⟩, 1152921504606846976,
    392979933629517, 382941980771262, ⟨[[(6317603796839874, 0), (0, 162151969830510), (226877481426, 0), (458577329,
    0), (437779, 0)], [(155194150492627, 0), (0, 350952679613), (0, 852783458), (0, 578429), (0, 296)],
    [(112422792387, 0), (548814712, 0), (0, 4252), (0, 73)], [(0, 128474895), (255198, 0), (56, 0)]], 3, 4⟩,
    281474976710656, 6189120741,
    6214029066712831212721197509293068068887805007619545772328004015321168087549433455551968466716484779620220296180361698222576203396865796867,
    lc0⟩))))
theorem c35 : checkC job ⟨6, 8, 6, 7, 9, 13⟩ 3 200 B1.zlims t35 7273 121 1280 7393 175 7584 = true := by decide +kernel

def t36 : CTree :=
  .sy (.sx (.sy (.sx (.leaf ⟨2146, 16, 4226, 2874, 16, 5517, ⟨[[(0, 542422208795377664), (91905360081351569, 0),
    (2683861202539, 0), (542646255, 0), (93047, 0)], [(12904887396400376, 0), (5193435924966, 0), (1294003673, 0),
    (321706, 0), (85, 0)], [(1387777861460, 0), (870366649, 0), (360569, 0), (135, 0)], [(170695740, 0), (158911, 0),
    (97, 0)]], 3, 4⟩, ⟨[[(429744842179870720, 0), (87770476745869476, 0), (1866899421966, 0), (507103075, 0), (82982,
    0)], [(19144384043619091, 0), (4959779785206, 0), (1196443616, 0), (295065, 0), (78, 0)], [(1386190290013, 0),
    (831208274, 0), (337754, 0), (125, 0)], [(166899922, 0), (151762, 0), (91, 0)]], 3, 4⟩, 1152921504606846976,
    137154904011485, 133416763367726, ⟨[[(6176847159189345, 0), (0, 153948308944877), (166336540606, 0), (300650932,
    0), (256629, 0)], [(146965822433019, 0), (0, 262489773619), (0, 564935006), (0, 345779), (0, 161)],
    [(84160119396, 0), (370977810, 0), (0, 1396), (0, 38)], [(0, 88394010), (160401, 0), (31, 0)]], 3, 4⟩,
    281474976710656, 3934406480,
    7680341041713305184306994163800075491886427432134999142892016216404194586581713436502863380226319963069578690800440364685335719109499327349,
    lc0⟩) (.leaf ⟨2109, 16, 4148, 2827, 16, 5418, ⟨[[(0, 392910273717469184), (91495019829479073, 0), (2963880027187,
    0), (617620997, 0), (115035, 0)], [(13356807561364939, 0), (5540423434023, 0), (1460010766, 0), (390475, 0),
    (114, 0)], [(1492547545204, 0), (980040662, 0), (435088, 0), (180, 0)], [(192586860, 0), (192521, 0), (131, 0)]],
    3, 4⟩, ⟨[[(0, 217876023846371328), (87424233591913255, 0), (2138544798976, 0), (576105726, 0), (103258, 0)],
    [(19489864971795888, 0), (5293919531327, 0), (1353059694, 0), (359311, 0), (105, 0)], [(1488803114940, 0),
    (936436802, 0), (408302, 0), (168, 0)], [(188213711, 0), (183955, 0), (124, 0)]], 3, 4⟩, 1152921504606846976,
    169150914652691, 164643977160955, ⟨[[(5851658702366485, 0), (0, 155886137329141), (175289665252, 0), (321540386,
    0), (279649, 0)], [(148935008701646, 0), (0, 275743832036), (0, 601918717), (0, 375416), (0, 178)],
    [(88419915794, 0), (393435898, 0), (0, 1811), (0, 42)], [(0, 93322584), (173288, 0), (35, 0)]], 3, 4⟩,
    281474976710656, 4246891063,
    7393942571062141910195381417259088342847746084913901114721831925801533733565184273413504782666410520514044166925841325141540737853281663976,
    lc0⟩)) (.sx (.leaf ⟨2097, 16, 4076, 2816, 16, 5355, ⟨[[(0, 483442653286891520), (90664559761413114, 0),
    (3213437592599, 0), (676971808, 0), (133670, 0)], [(14367589492221453, 0), (6012998798743, 0), (1646847305, 0),
    (463414, 0), (143, 0)], [(1681377163930, 0), (1140998967, 0), (531448, 0), (232, 0)], [(232459543, 0), (243679,
    0), (175, 0)]], 3, 4⟩, ⟨[[(51790878913069056, 0), (86657807006413666, 0), (2396606739600, 0), (630467590, 0),
    (120628, 0)], [(20422993270184541, 0), (5747265423257, 0), (1529313008, 0), (427606, 0), (132, 0)],
    [(1674046534992, 0), (1090574625, 0), (499469, 0), (217, 0)], [(226988691, 0), (232910, 0), (165, 0)]], 3, 4⟩,
    1152921504606846976, 209283779675798, 203740381176780, ⟨[[(6120230005700884, 0), (0, 156803562638690),
    (186067041581, 0), (349438294, 0), (310400, 0)], [(149827039103128, 0), (0, 291299882010), (0, 653743941), (0,
    415072), (0, 200)], [(93387414758, 0), (425960190, 0), (0, 2188), (0, 48)], [(0, 100768054), (189043, 0), (39,
    0)]], 3, 4⟩, 281474976710656, 4616305342,
    7731574308970689823963995208109816569236221244339979661533826946941866429337610200622926628375238547195554841594739222340140077756976763765,
    lc0⟩) (.leaf ⟨2053, 16, 3986, 2760, 16, 5241, ⟨[[(372180130559164416, 0), (90154607780956979, 0), (3565312557272,
    0), (786664351, 0), (171347, 0)], [(14888385190611704, 0), (6465948539201, 0), (1895999230, 0), (584666, 0),
    (200, 0)], [(1823783449154, 0), (1313182935, 0), (669198, 0), (323, 0)], [(269266422, 0), (310060, 0), (246,
    0)]], 3, 4⟩, ⟨[[(434805572574380032, 0), (86240175403037889, 0), (2738943130597, 0), (732326962, 0), (155632,
    0)], [(20822451528395594, 0), (6185202840913, 0), (1765511426, 0), (541541, 0), (185, 0)], [(1813746775006, 0),
    (1256165708, 0), (630360, 0), (303, 0)], [(262812281, 0), (296598, 0), (233, 0)]], 3, 4⟩, 1152921504606846976,
    258894002925256, 252111220617872, ⟨[[(5841219419380606, 0), (0, 159373977264458), (197077109238, 0), (377068893,
    0), (342408, 0)], [(152453648159233, 0), (0, 307789801005), (0, 703300344), (0, 456534), (0, 225)],
    [(98708100297, 0), (456510030, 0), (0, 2730), (0, 54)], [(0, 107601416), (207151, 0), (43, 0)]], 3, 4⟩,
    281474976710656, 5057525811,
    7452331571711612634839648504143151478442687436829526915213932438367303365857678202533188791140328902865680394713745409569826468878850063336,
    lc0⟩))) (.sy (.sx (.leaf ⟨2069, 16, 4065, 2777, 16, 5314, ⟨[[(334242558520590336, 0), (91037273904380641, 0),
    (3277783716561, 0), (709429001, 0), (144881, 0)], [(13832358658639237, 0), (5930292912452, 0), (1662542601, 0),
    (483904, 0), (157, 0)], [(1610598472892, 0), (1114915717, 0), (537730, 0), (247, 0)], [(220135826, 0), (240115,
    0), (182, 0)]], 3, 4⟩, ⟨[[(0, 416708612056416256), (87059139386151228, 0), (2443980958472, 0), (661126110, 0),
    (130924, 0)], [(19856601762896566, 0), (5671151772497, 0), (1544908322, 0), (446976, 0), (145, 0)],
    [(1604818560126, 0), (1066196280, 0), (505775, 0), (231, 0)], [(215065315, 0), (229622, 0), (172, 0)]], 3, 4⟩,
    1152921504606846976, 209044216141425, 203585418293226, ⟨[[(5509260875840170, 0), (0, 158005192922546),
    (185195203231, 0), (345082533, 0), (306138, 0)], [(151152356684700, 0), (0, 290508594836), (0, 643712646), (0,
    409595), (0, 199)], [(93197761139, 0), (418906809, 0), (0, 2310), (0, 47)], [(0, 98938853), (188287, 0), (38,
    0)]], 3, 4⟩, 281474976710656, 4612103124,
    6948339456353915268157862271992749122273859539173790802638727191783126368487237466181534672336175200133301124746608658610820162287753192539,
    lc0⟩) (.leaf ⟨2027, 16, 3977, 2723, 16, 5203, ⟨[[(480601698632990720, 0), (90537983767937434, 0), (3634035321181,
    0), (824627573, 0), (186331, 0)], [(14335618934368950, 0), (6375033558640, 0), (1916692899, 0), (613978, 0),
    (220, 0)], [(1746164754670, 0), (1286402928, 0), (682507, 0), (346, 0)], [(256190674, 0), (308792, 0), (258,
    0)]], 3, 4⟩, ⟨[[(0, 227226732977455104), (86648924954062930, 0), (2790618641260, 0), (768196939, 0), (169479,
    0)], [(20241482572739072, 0), (6101194011766, 0), (1785965463, 0), (569314, 0), (204, 0)], [(1737819856705, 0),
    (1231145494, 0), (643424, 0), (325, 0)], [(250144840, 0), (295527, 0), (245, 0)]], 3, 4⟩, 1152921504606846976,
    258981421573320, 252273018664423, ⟨[[(5294238343757787, 0), (0, 160668361951114), (195702544800, 0), (371763641,
    0), (337124, 0)], [(153821692469987, 0), (0, 306293748315), (0, 691728251), (0, 449880), (0, 223)],
    [(98277803321, 0), (448687629, 0), (0, 2796), (0, 53)], [(0, 105637724), (206031, 0), (43, 0)]], 3, 4⟩,
    281474976710656, 5045188985,
    6316681035846543505093002367796239627673173000110385071639835787590134260021781870421999526853150175291023298659750888052582551733918289101,
    lc0⟩)) (.sx (.leaf ⟨2008, 16, 3891, 2701, 16, 5120, ⟨[[(0, 542393659903180800), (89613068418760201, 0),
    (3970247886134, 0), (927019790, 0), (224388, 0)], [(15444396696130532, 0), (6990938240855, 0), (2215111862, 0),
    (755690, 0), (283, 0)], [(1990252589961, 0), (1536826463, 0), (865660, 0), (459, 0)], [(318471933, 0), (406533,
    0), (353, 0)]], 3, 4⟩, ⟨[[(12487839980716032, 0), (85787678553905538, 0), (3132723433982, 0), (863134273, 0),
    (205064, 0)], [(21247320042144083, 0), (6692510067761, 0), (2068437782, 0), (702596, 0), (263, 0)],
    [(1976784135935, 0), (1471222634, 0), (817251, 0), (431, 0)], [(310629192, 0), (389179, 0), (334, 0)]], 3, 4⟩,
    1152921504606846976, 321021193998665, 312772297631219, ⟨[[(5685079204200280, 0), (0, 162452569876883),
    (209285384776, 0), (409606148, 0), (381239, 0)], [(155462413133849, 0), (0, 326052430253), (0, 762093752), (0,
    506916), (0, 256)], [(104543301513, 0), (493059452, 0), (0, 3296), (0, 62)], [(0, 115856931), (228949, 0), (49,
    0)]], 3, 4⟩, 281474976710656, 5588163183,
    7021970916335502799838272759966217331601399480033414096003149150503312241834290753947429132017341018269965518204516952576892240777268913243,
    lc0⟩) (.leaf ⟨1958, 16, 3789, 2637, 16, 4990, ⟨[[(187665961480880128, 0), (89005104507642886, 0), (4442923260918,
    0), (1110655733, 0), (299920, 0)], [(16036109323645023, 0), (7609524691161, 0), (2634054216, 0), (999565, 0),
    (406, 0)], [(2189164611684, 0), (1835119849, 0), (1148074, 0), (657, 0)], [(385974488, 0), (546968, 0), (508,
    0)]], 3, 4⟩, ⟨[[(0, 139649850794311680), (85277741961855959, 0), (3592790066721, 0), (1035004933, 0), (275673,
    0)], [(21697430676864453, 0), (7290852436550, 0), (2466969999, 0), (932789, 0), (378, 0)], [(2171502621961, 0),
    (1758268560, 0), (1086303, 0), (619, 0)], [(376191474, 0), (524062, 0), (483, 0)]], 3, 4⟩, 1152921504606846976,
    398806346944278, 388715415457560, ⟨[[(5344112619404685, 0), (0, 165561233551062), (224270735193, 0), (448768098,
    0), (428825, 0)], [(158648675269111, 0), (0, 348315163336), (0, 831704151), (0, 568052), (0, 294)],
    [(111703525622, 0), (535490565, 0), (0, 4192), (0, 72)], [(0, 125240926), (255320, 0), (56, 0)]], 3, 4⟩,
    281474976710656, 6231011338,
    6407888219346071260263075670858626507884668016021836788084736760439767525213099315842966452216340494291777039981707527569112736526532136141,
    lc0⟩)))) (.sx (.sx (.sy (.leaf ⟨2034, 16, 3903, 2740, 16, 5162, ⟨[[(348894605372817408, 0), (89233205072952583,
    0), (3867468540080, 0), (874714145, 0), (203026, 0)], [(15987536089404065, 0), (7052248222413, 0), (2167388686,
    0), (707720, 0), (253, 0)], [(2065967134208, 0), (1550517628, 0), (833951, 0), (420, 0)], [(330219029, 0),
    (400499, 0), (330, 0)]], 3, 4⟩, ⟨[[(208077595537833984, 0), (85397461601756868, 0), (3048257898950, 0),
    (814014105, 0), (185280, 0)], [(21826398082679973, 0), (6749103052929, 0), (2022617248, 0), (657308, 0), (235,
    0)], [(2051174408364, 0), (1483867686, 0), (786757, 0), (394, 0)], [(322060078, 0), (383284, 0), (313, 0)]], 3,
    4⟩, 1152921504606846976, 319536523974700, 311290779150168, ⟨[[(6032554024359611, 0), (0, 160548279720308),
    (211421739583, 0), (415167603, 0), (386263, 0)], [(153646804790735, 0), (0, 328492577967), (0, 772973889), (0,
    512523), (0, 257)], [(105305720035, 0), (499428816, 0), (0, 3444), (0, 63)], [(0, 117267458), (229251, 0), (49,
    0)]], 3, 4⟩, 281474976710656, 5577211762,
    7379260040995743114079681006739288616755532496453736322644356134518599991688566231917729454352909212928025911721741787799540410390255539061,
    lc0⟩) (.leaf ⟨1957, 16, 3704, 2643, 16, 4931, ⟨[[(0, 331610763507007488), (87595476035439294, 0), (4710974495141,
    0), (1182858842, 0), (325176, 0)], [(17799709734557112, 0), (8428047756985, 0), (2983310416, 0), (1143649, 0),
    (459, 0)], [(2592967912784, 0), (2210897962, 0), (1387559, 0), (781, 0)], [(495602246, 0), (698321, 0), (634,
    0)]], 3, 4⟩, ⟨[[(0, 389062589108715520), (83934627414944037, 0), (3883815857262, 0), (1102189232, 0), (299598,
    0)], [(23373594012159894, 0), (8075817157830, 0), (2797987706, 0), (1068575, 0), (428, 0)], [(2566789860280, 0),
    (2118498638, 0), (1313661, 0), (735, 0)], [(482667899, 0), (669136, 0), (603, 0)]], 3, 4⟩, 1152921504606846976,
    487689405015374, 475423487924591, ⟨[[(6039113901881480, 0), (0, 165742528749821), (245029418107, 0), (508604408,
    0), (500355, 0)], [(158777249108034, 0), (0, 377729071218), (0, 941945300), (0, 658389), (0, 346)],
    [(120957576384, 0), (603079593, 0), (0, 5406), (0, 86)], [(0, 140501639), (288689, 0), (65, 0)]], 3, 4⟩,
    281474976710656, 6999484391,
    6133159727333459851840624689839934844738172174068038496517992384568619899449664905572984264130904197574079535754337231878129559217622258549,
    lc0⟩)) (.sy (.leaf ⟨1984, 16, 3800, 2674, 16, 5029, ⟨[[(0, 10325526666018816), (88634335121268865, 0),
    (4328658969783, 0), (1045718989, 0), (270342, 0)], [(16599703050263154, 0), (7672893026954, 0), (2567759911, 0),
    (930469, 0), (362, 0)], [(2270714787615, 0), (1841480627, 0), (1097470, 0), (602, 0)], [(397007894, 0), (534041,
    0), (476, 0)]], 3, 4⟩, ⟨[[(170725965095239680, 0), (84878764784494662, 0), (3496248061738, 0), (973694704, 0),
    (248101, 0)], [(22290275688630010, 0), (7347780987599, 0), (2402777530, 0), (867234, 0), (337, 0)],
    [(2251157828840, 0), (1763454318, 0), (1037484, 0), (566, 0)], [(386869462, 0), (511413, 0), (452, 0)]], 3, 4⟩,
    1152921504606846976, 396496506741218, 386354230322859, ⟨[[(5855710302251635, 0), (0, 164012334044878),
    (225893637819, 0), (454820789, 0), (434840, 0)], [(157031960794147, 0), (0, 350058299454), (0, 844395142), (0,
    575241), (0, 296)], [(112181598955, 0), (543585722, 0), (0, 4201), (0, 72)], [(0, 127198616), (256048, 0), (56,
    0)]], 3, 4⟩, 281474976710656, 6228969844,
    7097636844737851172238040497066609505527990273083293361617378674752469110865320074570751451648593662495734433635072755981700912377198410728,
    lc0⟩) (.leaf ⟨1896, 16, 3582, 2563, 16, 4774, ⟨[[(11765469571186688, 0), (86818401745783697, 0), (5342220441553,
    0), (1462320666, 0), (446710, 0)], [(18518848376920982, 0), (9319051716128, 0), (3658371943, 0), (1555622, 0),
    (664, 0)], [(2903843221769, 0), (2725499009, 0), (1890527, 0), (1128, 0), (1, 0)], [(621229716, 0), (962409, 0),
    (919, 0), (1, 0)]], 3, 4⟩, ⟨[[(465887347336019968, 0), (83284481251280018, 0), (4499374319417, 0), (1365340178,
    0), (413660, 0)], [(23921576724798392, 0), (8939722136364, 0), (3442329496, 0), (1458650, 0), (621, 0)],
    [(2871126280859, 0), (2614558280, 0), (1793941, 0), (1065, 0), (1, 0)], [(604756364, 0), (923234, 0), (874, 0),
    (1, 0)]], 3, 4⟩, 1152921504606846976, 599286921162366, 586191337496619, ⟨[[(5896493117910937, 0), (0,
    170410844017225), (264823703994, 0), (567364127, 0), (577143, 0)], [(163400422104506, 0), (0, 407487833970), (0,
    1048579705), (0, 757723), (0, 412)], [(130496594001, 0), (669441783, 0), (0, 6629), (0, 102)], [(0, 155559973),
    (331055, 0), (78, 0)]], 3, 4⟩, 281474976710656, 8033763628,
    5884756014561949984271412338670988227298101440520662344652766848481210892900841498787777592334269854121652530879934644176753528790611262440,
    lc0⟩))) (.sy (.sx (.leaf ⟨1929, 16, 3688, 2603, 16, 4887, ⟨[[(16248531135234048, 0), (87936733706412360, 0),
    (4873789801816, 0), (1272592719, 0), (366697, 0)], [(17250337773366141, 0), (8413876849061, 0), (3100663383, 0),
    (1249406, 0), (522, 0)], [(2519079552163, 0), (2234534733, 0), (1477008, 0), (867, 0)], [(489552219, 0), (728175,
    0), (688, 0)]], 3, 4⟩, ⟨[[(349213011616989184, 0), (84318093351659239, 0), (4028518821014, 0), (1187030472, 0),
    (338449, 0)], [(22791114371914625, 0), (8067641629449, 0), (2911382826, 0), (1169065, 0), (488, 0)],
    [(2494971726382, 0), (2142582516, 0), (1399846, 0), (817, 0)], [(476898857, 0), (698210, 0), (655, 0)]], 3, 4⟩,
    1152921504606846976, 492712011843829, 480439380787206, ⟨[[(5658461493751199, 0), (0, 167904887195746),
    (242735047966, 0), (502221322, 0), (494632, 0)], [(160951955409006, 0), (0, 375369286106), (0, 930140649), (0,
    652678), (0, 346)], [(120328584743, 0), (596838959, 0), (0, 5180), (0, 85)], [(0, 139238320), (289434, 0), (66,
    0)]], 3, 4⟩, 281474976710656, 7044357283,
    6646966456322847899649202490061136241873809724810458640760995610860953445734150365772547426493676252033843846497606336136477518225188021339,
    lc0⟩) (.leaf ⟨1869, 16, 3567, 2525, 16, 4732, ⟨[[(411492206790049792, 0), (87158463305178059, 0), (5533746525201,
    0), (1579586551, 0), (505033, 0)], [(17954550688423972, 0), (9323642461276, 0), (3824587082, 0), (1706837, 0),
    (754, 0)], [(2829878744767, 0), (2775560053, 0), (2022755, 0), (1249, 0), (1, 0)], [(619537893, 0), (1008462, 0),
    (993, 0), (1, 0)]], 3, 4⟩, ⟨[[(571153511460372480, 0), (83666232235863467, 0), (4672294691798, 0), (1476477741,
    0), (468411, 0)], [(23326167698561642, 0), (8950066417729, 0), (3602911127, 0), (1602553, 0), (706, 0)],
    [(2799229506542, 0), (2664350003, 0), (1921336, 0), (1180, 0), (1, 0)], [(603243707, 0), (968056, 0), (946, 0),
    (1, 0)]], 3, 4⟩, 1152921504606846976, 602787734395629, 589649653389717, ⟨[[(5416001565738303, 0), (0,
    172351448970928), (263126852921, 0), (561088110, 0), (571250, 0)], [(165424012295245, 0), (0, 405869476412), (0,
    1035989020), (0, 751449), (0, 411)], [(130123452380, 0), (662126349, 0), (0, 6518), (0, 101)], [(0, 153896348),
    (331774, 0), (78, 0)]], 3, 4⟩, 281474976710656, 8080274163,
    5996901773580228892750586434909762042774353482396112268370369531409842250968640768258452334006478378039534946693719913184981936218592562381,
    lc0⟩)) (.sx (.leaf ⟨1829, 16, 3448, 2476, 16, 4602, ⟨[[(0, 30608011081023488), (85909503996409833, 0),
    (6115060035698, 0), (1843087930, 0), (620920, 0)], [(19294609954073304, 0), (10424866305396, 0), (4580850206, 0),
    (2144923, 0), (960, 0)], [(3297238072644, 0), (3436571396, 0), (2610578, 0), (1626, 0), (1, 0)], [(797769632, 0),
    (1341168, 0), (1323, 0), (1, 0)]], 3, 4⟩, ⟨[[(42741930573430784, 0), (82530796044698349, 0), (5254829835932, 0),
    (1725512167, 0), (577680, 0)], [(24511966952644591, 0), (10014870006467, 0), (4325488612, 0), (2018171, 0), (900,
    0)], [(3256706734289, 0), (3301415556, 0), (2483117, 0), (1537, 0), (1, 0)], [(776555626, 0), (1288421, 0),
    (1261, 0), (1, 0)]], 3, 4⟩, 1152921504606846976, 733042103265333, 717317353820357, ⟨[[(5620191140564926, 0), (0,
    175443932573666), (290592762583, 0), (644322810, 0), (680669, 0)], [(168501452709045, 0), (0, 445838573903), (0,
    1186517573), (0, 890406), (0, 502)], [(142796211127, 0), (753951082, 0), (0, 8581), (0, 125)], [(0, 174440577),
    (387028, 0), (94, 0)]], 3, 4⟩, 281474976710656, 9399819793,
    5438767131258040159708548438599379604071230360772063913677679071649207587337730196423254564749426239034924529202548769648328648064816079963,
    lc0⟩) (.leaf ⟨1755, 16, 3301, 2379, 16, 4412, ⟨[[(52898449170890752, 0), (84874881393349650, 0), (7081928505114,
    0), (2366153672, 0), (868856, 0)], [(20148943321238113, 0), (11829696665671, 0), (5850651925, 0), (2980660, 0),
    (1379, 0)], [(3806781365674, 0), (4423078233, 0), (3629802, 0), (2325, 0), (1, 0)], [(1045386159, 0), (1876303,
    0), (1888, 0), (1, 0)]], 3, 4⟩, ⟨[[(0, 101925455244296192), (81651586043110558, 0), (6199847106141, 0),
    (2221662871, 0), (811582, 0)], [(25156394634597609, 0), (11380439999490, 0), (5543004592, 0), (2813003, 0),
    (1296, 0)], [(3755504472242, 0), (4255102887, 0), (3460001, 0), (2203, 0), (1, 0)], [(1017634608, 0), (1805046,
    0), (1802, 0), (1, 0)]], 3, 4⟩, 1152921504606846976, 907484164914444, 885514772365539, ⟨[[(5364902786940037, 0),
    (0, 181609377253475), (322326539281, 0), (743972113, 0), (820754, 0)], [(174695455569298, 0), (0, 493080479356),
    (0, 1365139908), (0, 1069773), (0, 629)], [(157922459676, 0), (863411789, 0), (0, 11236), (0, 158)], [(0,
    198912097), (462528, 0), (118, 0)]], 3, 4⟩, 281474976710656, 11247811406,
    4791938034083151701050851925955523725617187426400867900211074114792933118570020825688336325380205468643001731810656205753500721069003951309,
    lc0⟩))))
theorem c36 : checkC job ⟨6, 8, 6, 7, 9, 13⟩ 3 200 B1.zlims t36 7515 121 1280 7393 175 7584 = true := by decide +kernel

def t37 : CTree :=
  .sy (.sx (.sy (.leaf ⟨1997, 16, 4126, 2553, 16, 5059, ⟨[[(0, 151444825421905920), (88223638675696552, 0),
    (1826126358984, 0), (385816622, 0), (56524, 0)], [(17824616980107664, 0), (7244402201286, 0), (1625912144, 0),
    (356029, 0), (79, 0)], [(3348412330425, 0), (1930009489, 0), (711330, 0), (222, 0)], [(659282782, 0), (549149,
    0), (278, 0)]], 3, 4⟩, ⟨[[(0, 242897437081468928), (80978981710092826, 0), (983295543352, 0), (351719923, 0),
    (47403, 0)], [(28635500489820181, 0), (6649513918998, 0), (1435502406, 0), (311140, 0), (68, 0)],
    [(3243285783145, 0), (1771522978, 0), (637760, 0), (196, 0)], [(622166947, 0), (504054, 0), (251, 0)]], 3, 4⟩,
    1152921504606846976, 1593023538594051, 1494133398185399, ⟨[[(5043493909846702, 0), (0, 170857451921972),
    (172239329108, 0), (323950995, 0), (289865, 0)], [(156838416169239, 0), (0, 266705239047), (0, 584392011), (0,
    380360), (0, 191)], [(82155236443, 0), (371703771, 0), (0, 1278), (0, 42)], [(0, 85796096), (171605, 0), (35,
    0)]], 3, 4⟩, 281474976710656, 4158105912,
    3342196297753991170880238966432286297460431793434538285547687706280647955231373227507851591227574630182407408596715336888261869928917644608,
    lc0⟩) (.leaf ⟨1954, 16, 3983, 2507, 16, 4921, ⟨[[(0, 326338836312358912), (86546961121046235, 0), (2198597475502,
    0), (462488259, 0), (75719, 0)], [(19862765147741137, 0), (8232937142871, 0), (1995679288, 0), (478597, 0), (122,
    0)], [(3978939749673, 0), (2436563262, 0), (975660, 0), (352, 0)], [(861333937, 0), (777412, 0), (462, 0)]], 3,
    4⟩, ⟨[[(209554737403527168, 0), (79573876708346184, 0), (1353570643474, 0), (418507148, 0), (64445, 0)],
    [(30303345554214950, 0), (7569609801061, 0), (1771353640, 0), (421015, 0), (107, 0)], [(3843183141573, 0),
    (2240249479, 0), (878248, 0), (314, 0)], [(812549288, 0), (714776, 0), (419, 0)]], 3, 4⟩, 1152921504606846976,
    2540935804326886, 2386544618361389, ⟨[[(5136237598598858, 0), (0, 174406161604082), (190525926961, 0),
    (372099300, 0), (346080, 0)], [(160329332896137, 0), (0, 293109342367), (0, 671095359), (0, 452268), (0, 235)],
    [(90437382628, 0), (425607703, 0), (0, 1707), (0, 52)], [(0, 97918265), (201255, 0), (43, 0)]], 3, 4⟩,
    281474976710656, 4866990389,
    4277996867791472207180307491344963994797986404232828482477744712043106917351656325581369001948769834619319025529203699594510784552532587840,
    lc0⟩)) (.sy (.leaf ⟨1937, 16, 3995, 2483, 16, 4908, ⟨[[(304244599713431552, 0), (87237581113217305, 0),
    (2193760420533, 0), (471722943, 0), (78328, 0)], [(18948274685681150, 0), (8022022300536, 0), (1963311165, 0),
    (477244, 0), (125, 0)], [(3758120289550, 0), (2318171488, 0), (940057, 0), (350, 0)], [(791440354, 0), (724596,
    0), (447, 0)]], 3, 4⟩, ⟨[[(0, 469163196230402048), (80231197681125353, 0), (1331094481387, 0), (427373372, 0),
    (66645, 0)], [(29417483728204715, 0), (7377743041278, 0), (1742504471, 0), (419837, 0), (110, 0)],
    [(3634004057957, 0), (2131990279, 0), (846316, 0), (312, 0)], [(747123462, 0), (666401, 0), (405, 0)]], 3, 4⟩,
    1152921504606846976, 2269097552677092, 2132141170100210, ⟨[[(4504888174707794, 0), (0, 174792223262633),
    (187466482116, 0), (361503618, 0), (333771, 0)], [(160806482689748, 0), (0, 289139324778), (0, 649334309), (0,
    436116), (0, 226)], [(89208109335, 0), (410652560, 0), (0, 1942), (0, 50)], [(0, 94228148), (195778, 0), (41,
    0)]], 3, 4⟩, 281474976710656, 4744938590,
    2089572090055663099168037125807992750121143949935149426261632081656613736774925138967149095377543611382574222972130190044846316826510034469,
    lc0⟩) (.leaf ⟨1885, 16, 3835, 2426, 16, 4750, ⟨[[(392723629006389248, 0), (85398451573716383, 0), (2644290807346,
    0), (581074240, 0), (111424, 0)], [(21137184245062487, 0), (9212105974199, 0), (2472689152, 0), (683574, 0),
    (214, 0)], [(4513791948458, 0), (3008740307, 0), (1384964, 0), (619, 0)], [(1069212370, 0), (1119838, 0), (836,
    0), (1, 0)]], 3, 4⟩, ⟨[[(458843584480673792, 0), (78714342530151804, 0), (1776651396437, 0), (524049527, 0),
    (96269, 0)], [(31195340431013304, 0), (8491077434245, 0), (2207884573, 0), (606262, 0), (189, 0)],
    [(4354624405910, 0), (2773247181, 0), (1253287, 0), (556, 0)], [(1009096760, 0), (1032188, 0), (762, 0), (1,
    0)]], 3, 4⟩, 1152921504606846976, 3613239455755093, 3402692421462517, ⟨[[(4633743535245478, 0), (0,
    179301188063481), (209439301993, 0), (421705083, 0), (406805, 0)], [(165280238637165, 0), (0, 321149653508), (0,
    757747795), (0, 529667), (0, 285)], [(99283366784, 0), (478124701, 0), (0, 2570), (0, 64)], [(0, 109433083),
    (234744, 0), (52, 0)]], 3, 4⟩, 281474976710656, 5682711893,
    2739511013172298140607267961992614808696587243774990017334482121277509214376555227279327354612349065874820629492497097433459889779681330725,
    lc0⟩))) (.sx (.sy (.leaf ⟨1900, 16, 3822, 2448, 16, 4759, ⟨[[(227696443151876096, 0), (84702163925586470, 0),
    (2636301352664, 0), (567056238, 0), (106509, 0)], [(22081165164658637, 0), (9432461456385, 0), (2500850704, 0),
    (676771, 0), (204, 0)], [(4767886206090, 0), (3144750614, 0), (1415300, 0), (607, 0)], [(1155103214, 0),
    (1177472, 0), (840, 0), (1, 0)]], 3, 4⟩, ⟨[[(186224635939389440, 0), (78031097963889096, 0), (1786076016345, 0),
    (510840885, 0), (91973, 0)], [(32096938995324983, 0), (8689569307690, 0), (2232326630, 0), (599855, 0), (181,
    0)], [(4594060266458, 0), (2897072894, 0), (1279974, 0), (546, 0)], [(1089319496, 0), (1084735, 0), (765, 0)]],
    3, 4⟩, 1152921504606846976, 4017478313934244, 3781689195634702, ⟨[[(5055787950070554, 0), (0, 178541988453000),
    (214484901033, 0), (436585215, 0), (424340, 0)], [(164497350107223, 0), (0, 327606281545), (0, 785748267), (0,
    551439), (0, 297)], [(101266922995, 0), (495732918, 0), (0, 2575), (0, 67)], [(0, 113450785), (241737, 0), (54,
    0)]], 3, 4⟩, 281474976710656, 5834191480,
    5065840297663042725288031917589850076541681933886328443783500206911853688423641041175586587051161234113298114630424832952528441392800609600,
    lc0⟩) (.leaf ⟨1834, 16, 3639, 2373, 16, 4569, ⟨[[(0, 16882540455395328), (82621466433597557, 0), (3163562570231,
    0), (718225662, 0), (159204, 0)], [(24489813105253922, 0), (10923463904749, 0), (3234589454, 0), (1020369, 0),
    (363, 0)], [(5781957417132, 0), (4203900798, 0), (2201902, 0), (1115, 0), (1, 0)], [(1617353593, 0), (1930959,
    0), (1618, 0), (1, 0)]], 3, 4⟩, ⟨[[(420379594844536832, 0), (76313283774501566, 0), (2305301307045, 0),
    (646230472, 0), (139455, 0)], [(34025605431005912, 0), (10089452980520, 0), (2906089822, 0), (912165, 0), (325,
    0)], [(5561238282703, 0), (3882931257, 0), (2002406, 0), (1009, 0)], [(1525110365, 0), (1783529, 0), (1480, 0),
    (1, 0)]], 3, 4⟩, 1152921504606846976, 6282754637135887, 5926724101360669, ⟨[[(5129237721879269, 0), (0,
    184230011194601), (244430926774, 0), (523578289, 0), (535876, 0)], [(170137582974492, 0), (0, 371142129256), (0,
    941440464), (0, 693172), (0, 390)], [(114930051237, 0), (591582020, 0), (0, 3782), (0, 89)], [(0, 134874791),
    (299637, 0), (70, 0)]], 3, 4⟩, 281474976710656, 7225754086,
    5591017147927982111280882140736282696571007737455681123113959785784136153421076347160290493625288949282943708224717440010699954087096366400,
    lc0⟩)) (.sy (.leaf ⟨1821, 16, 3653, 2354, 16, 4562, ⟨[[(0, 171556023086350336), (83332631830190770, 0),
    (3191073871379, 0), (741642275, 0), (169249, 0)], [(23525212315281713, 0), (10704103478797, 0), (3225807187, 0),
    (1049677, 0), (388, 0)], [(5494351933257, 0), (4063360701, 0), (2201295, 0), (1162, 0), (1, 0)], [(1517636882,
    0), (1884247, 0), (1650, 0), (1, 0)]], 3, 4⟩, ⟨[[(0, 559046354672287744), (76996129971298667, 0), (2314359308750,
    0), (667786802, 0), (148377, 0)], [(33102755374563311, 0), (9890177768066, 0), (2899074682, 0), (939050, 0),
    (348, 0)], [(5289218837747, 0), (3754388189, 0), (2002994, 0), (1052, 0), (1, 0)], [(1431581631, 0), (1740972,
    0), (1510, 0), (1, 0)]], 3, 4⟩, 1152921504606846976, 5692054661832214, 5371164734960356, ⟨[[(4554640923179176,
    0), (0, 184591505381679), (239921479051, 0), (507238970, 0), (515202, 0)], [(170579711831675, 0), (0,
    365097855998), (0, 909211037), (0, 666698), (0, 374)], [(113068600800, 0), (570403671, 0), (0, 3901), (0, 85)],
    [(0, 129806450), (290751, 0), (68, 0)]], 3, 4⟩, 281474976710656, 7026608907,
    3232711100678191606085232735608385955011675593622602817182590513271113844923771452658451744801653493882572266182965178353006392052260341285,
    lc0⟩) (.sx (.leaf ⟨1961, 16, 3883, 2633, 16, 5057, ⟨[[(295557044566753280, 0), (90438461026358254, 0),
    (4091499666194, 0), (1011564054, 0), (263842, 0)], [(14279587892816335, 0), (6760696759533, 0), (2256283539, 0),
    (833384, 0), (339, 0)], [(1814342350446, 0), (1474946181, 0), (904345, 0), (521, 0)], [(289840178, 0), (406293,
    0), (383, 0)]], 3, 4⟩, ⟨[[(0, 34751086304690176), (86645670506411353, 0), (3219688516873, 0), (943170226, 0),
    (241707, 0)], [(20038780055011332, 0), (6477167978919, 0), (2109315053, 0), (776357, 0), (315, 0)],
    [(1804455099116, 0), (1413090176, 0), (854999, 0), (490, 0)], [(282817495, 0), (389254, 0), (364, 0)]], 3, 4⟩,
    1152921504606846976, 320966930279410, 312863164435974, ⟨[[(4683519372479202, 0), (0, 165085204072331),
    (204270738213, 0), (393663845, 0), (364452, 0)], [(158190371446187, 0), (0, 319956919591), (0, 729720781), (0,
    486009), (0, 247)], [(102682016563, 0), (472092071, 0), (0, 3283), (0, 59)], [(0, 110822435), (223991, 0), (48,
    0)]], 3, 4⟩, 281474976710656, 5502152805,
    3184429768246743159622209714259106003608527522456134501939790394265555924612811147312916285289719204721834750771210910295880868896046122533,
    lc0⟩) (.leaf ⟨1915, 16, 3786, 2574, 16, 4935, ⟨[[(321430653158031360, 0), (89864792373910335, 0), (4579159963216,
    0), (1216894197, 0), (354655, 0)], [(14832671445149260, 0), (7365764735532, 0), (2701686722, 0), (1112384, 0),
    (485, 0)], [(1999385236471, 0), (1779038787, 0), (1213067, 0), (746, 0)], [(356415887, 0), (553396, 0), (551,
    0)]], 3, 4⟩, ⟨[[(0, 406681424499834880), (86171621057097517, 0), (3694578702554, 0), (1135747684, 0), (326748,
    0)], [(20459940134707704, 0), (7063054070654, 0), (2533575847, 0), (1040079, 0), (453, 0)], [(1985703503167, 0),
    (1705925671, 0), (1149427, 0), (704, 0)], [(347483505, 0), (530653, 0), (524, 0)]], 3, 4⟩, 1152921504606846976,
    399676376183749, 389670556925727, ⟨[[(4404164360958520, 0), (0, 168221971020063), (217920643106, 0), (429296361,
    0), (407643, 0)], [(161362773605866, 0), (0, 340359332341), (0, 793212566), (0, 541831), (0, 282)],
    [(109245480504, 0), (511057697, 0), (0, 4051), (0, 68)], [(0, 119483490), (248574, 0), (54, 0)]], 3, 4⟩,
    281474976710656, 6105614340,
    1896320633440315799076695544343957542134611490548436155137420568552647035288937782150874029704236518294473120823234874413811371095469747864,
    lc0⟩))))
theorem c37 : checkC job ⟨6, 8, 6, 7, 9, 13⟩ 3 200 B1.zlims t37 7757 121 1280 7043 175 7584 = true := by decide +kernel

end PyX.Kron.P1hs
