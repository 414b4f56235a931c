import Verif.Lemmas.S2cJob

/-!
# Temperature from pressure and entropy in subregion 2c, part E of the certificate
-/

namespace PyX.Kron.S2c

set_option Elab.async false

def t55 : CTree :=
  .sy (.sx (.sy (.sx (.sy (.leaf ⟨775, 16, 10, 1733, 16, 978, ⟨[[], [(343597383680, 0)]], 3, 4⟩, ⟨[[(153141926136,
    0), (0, 3192149812643), (0, 4904490819), (0, 19626924), (1310968, 0)], [(0, 151707923104), (0, 80581735),
    (3205247, 0), (166005, 0), (25001, 0)], [(47653127, 0), (371665, 0), (7212, 0), (1905, 0), (110, 0)], [(0, 9235),
    (0, 14), (83, 0), (6, 0)]], 3, 4⟩, 1099511627776, 0, 274386234, ⟨[[(57658755081722, 0), (30101334413, 0),
    (29370031, 0), (60985, 0), (0, 40)], [(13303055314, 0), (25090185, 0), (0, 9790), (22, 0)], [(0, 8324061), (0,
    15001), (15, 0)], [(6692, 0), (7, 0)]], 3, 4⟩, 68719476736, 9144429,
    4289390581061168410839119084674768881520712159926093709635768157710694262225448147202752777341, ⟨0, 6,
    738093091026547, [68413601664, 13793065, 3708]⟩⟩) (.leaf ⟨775, 16, 10, 1696, 16, 967, ⟨[[], [(343597383680, 0)]],
    3, 4⟩, ⟨[[(288503042068, 0), (0, 3214394011501), (0, 4570905101), (70991325, 0), (6208194, 0)], [(0,
    150290591349), (3439341, 0), (13315856, 0), (1011342, 0), (32671, 0)], [(50126470, 0), (747374, 0), (61830, 0),
    (3499, 0), (0, 89)], [(0, 4844), (1659, 0), (182, 0), (0, 0), (0, 1)]], 3, 4⟩, 1099511627776, 0, 726259004,
    ⟨[[(57134606865049, 0), (29450710175, 0), (26650538, 0), (66059, 0), (0, 43)], [(12855538953, 0), (25757418, 0),
    (0, 12108), (58, 0), (0, 1)], [(0, 8056181), (0, 15270), (0, 12), (1, 0)], [(6542, 0), (11, 0)]], 3, 4⟩,
    68719476736, 9035602,
    5150815698389288863390996068003838345817298014143463991924939992923951397284112876936403713158, ⟨0, 6,
    729791430493529, [67644123527, 13637928, 3666]⟩⟩)) (.sy (.leaf ⟨805, 16, 10, 1766, 16, 1004, ⟨[[],
    [(343597383680, 0)]], 3, 4⟩, ⟨[[(21239970747, 0), (0, 3281227753087), (0, 4556979813), (20404449, 0), (4960247,
    0)], [(0, 146592911325), (0, 327946), (7835955, 0), (742865, 0), (50356, 0)], [(46532365, 0), (532708, 0),
    (43972, 0), (4082, 0), (134, 0)], [(0, 6164), (1145, 0), (168, 0), (8, 0)]], 3, 4⟩, 1099511627776, 0, 517109869,
    ⟨[[(57662420646518, 0), (29350331992, 0), (25299803, 0), (60049, 0), (0, 53)], [(12511229705, 0), (23835665, 0),
    (0, 11019), (78, 0), (0, 1)], [(0, 7568437), (0, 13932), (0, 15), (1, 0)], [(5943, 0), (10, 0)]], 3, 4⟩,
    68719476736, 8900831,
    4682064017984642408989395084492133558372279968010908596295659781252234365733323554178687374012, ⟨0, 6,
    764330281622669, [67615012835, 13124032, 3396]⟩⟩) (.leaf ⟨805, 16, 10, 1731, 16, 994, ⟨[[], [(343597383680, 0)]],
    3, 4⟩, ⟨[[(0, 477225285048), (0, 3294787857797), (0, 2626306155), (203235181, 0), (7430359, 0)], [(0,
    144629535403), (216053152, 0), (31285257, 0), (1605617, 0), (0, 30142)], [(51780378, 0), (1537904, 0), (119056,
    0), (1354, 0), (0, 674)], [(7964, 0), (3604, 0), (170, 0), (0, 19), (0, 3)]], 3, 4⟩, 1099511627776, 0,
    1455721925, ⟨[[(57153772227196, 0), (28804299768, 0), (22475910, 0), (65888, 0), (0, 60)], [(12088172015, 0),
    (24554867, 0), (0, 16752), (133, 0), (0, 1)], [(0, 7332000), (0, 12836), (0, 59), (1, 0)], [(5713, 0), (17, 0)]],
    3, 4⟩, 68719476736, 8467058,
    5152039163755178741143780806405654049323864671361388824291022416974535402731351344472242737858, ⟨0, 6,
    756717430212085, [66941556532, 12993315, 3363]⟩⟩))) (.sy (.sx (.sy (.leaf ⟨775, 16, 10, 2344, 16, 1347, ⟨[[],
    [(343597383680, 0)]], 3, 4⟩, ⟨[[(448578829967, 0), (0, 2262835202410), (0, 1004207874), (28431334, 0), (27534,
    0)], [(0, 208814185969), (131775180, 0), (9444127, 0), (93645, 0), (0, 12220)], [(76566262, 0), (985817, 0),
    (22533, 0), (0, 1185), (0, 119)], [(7915, 0), (1855, 0), (0, 26), (0, 9), (0, 1)]], 3, 4⟩, 1099511627776, 0,
    1289742081, ⟨[[(56748561609224, 0), (20660263668, 0), (12356918, 0), (25288, 0), (0, 12)], [(12511658932, 0),
    (18747582, 0), (0, 7757), (33, 0)], [(0, 7857356), (0, 10469), (0, 21)], [(6367, 0), (12, 0)]], 3, 4⟩,
    68719476736, 8502882,
    3503891507048168399778619265376883787326343797012675658010546690463292889236690384878117164210, ⟨0, 6,
    1016576067088711, [94226095543, 18997197, 5107]⟩⟩) (.leaf ⟨775, 16, 10, 2332, 16, 1347, ⟨[[], [(343597383680,
    0)]], 3, 4⟩, ⟨[[(35324683132, 0), (0, 2272149213941), (0, 615249422), (4827260, 0), (0, 2509684)], [(0,
    207686091221), (238657402, 0), (6372707, 0), (0, 586841), (0, 50705)], [(82838870, 0), (988224, 0), (0, 37482),
    (0, 6377), (0, 345)], [(15370, 0), (12, 0), (0, 340), (0, 29), (0, 1)]], 3, 4⟩, 1099511627776, 0, 2073830781,
    ⟨[[(56502373904484, 0), (20374701908, 0), (11436552, 0), (25845, 0), (0, 12)], [(12285509668, 0), (18949376, 0),
    (0, 9111), (42, 0)], [(0, 7735369), (0, 9813), (0, 34)], [(6209, 0), (15, 0)]], 3, 4⟩, 68719476736, 8494497,
    4948016155261948429167726436621403346706450270100512346022443756552242439408198772138776417947, ⟨0, 6,
    1016576067088711, [94226095543, 18997197, 5107]⟩⟩)) (.sy (.sx (.leaf ⟨1595, 16, 20, 3435, 16, 1985, ⟨[[],
    [(343597383680, 0)]], 3, 4⟩, ⟨[[(234314625020, 0), (0, 3312040609887), (0, 335975572), (36495750, 0), (0,
    2496224)], [(0, 145575480970), (223932360, 0), (8582731, 0), (0, 197873), (0, 28916)], [(29565212, 0), (517381,
    0), (929, 0), (0, 1567), (0, 100)], [(4885, 0), (335, 0), (0, 33), (0, 4)]], 3, 4⟩, 1099511627776, 0, 147106395,
    ⟨[[(56753224024860, 0), (14096281829, 0), (5124198, 0), (8455, 0), (0, 3)], [(5963591904, 0), (6295401, 0), (0,
    2550), (10, 0)], [(0, 1831421), (0, 1467), (0, 5)], [(707, 0), (1, 0)]], 3, 4⟩, 68719476736, 284981,
    3902785328362420617667488730439921534705891105172991659229016707862461359733974846464774285472, ⟨0, 6,
    1507927619978445, [67469132488, 6609437, 863]⟩⟩) (.skip)) (.skip))) (.sx (.sy (.sx (.leaf ⟨1535, 16, 20, 3302,
    16, 1914, ⟨[[], [(343597383680, 0)]], 3, 4⟩, ⟨[[(523210362978, 0), (0, 3249921547320), (0, 1595244546), (0,
    106378061), (0, 9946389)], [(0, 149443335254), (145580033, 0), (0, 7263486), (0, 1386359), (0, 78130)],
    [(30442226, 0), (0, 8306), (0, 63839), (0, 5384), (0, 238)], [(0, 214), (0, 1031), (0, 165), (0, 11)]], 3, 4⟩,
    1099511627776, 0, 275430456, ⟨[[(56245078939522, 0), (14109728996, 0), (5384685, 0), (9024, 0), (0, 3)],
    [(6122897650, 0), (6773002, 0), (0, 2377), (7, 0)], [(0, 1949121), (0, 1686), (0, 5)], [(784, 0), (2, 0)]], 3,
    4⟩, 68719476736, 258165,
    4355917381498142399497202109645841526848378506483956871193624175256924319992983087064117866120, ⟨0, 6,
    1441259942574829, [67598779686, 6880983, 934]⟩⟩) (.skip)) (.skip)) (.skip)))) (.sy (.sy (.sx (.leaf ⟨835, 16, 10,
    1797, 16, 1029, ⟨[[], [(343597383680, 0)]], 3, 4⟩, ⟨[[(299127450998, 0), (0, 3356583123069), (0, 3315842411),
    (139452567, 0), (11163943, 0)], [(0, 141193053378), (149816609, 0), (22075400, 0), (1774281, 0), (72327, 0)],
    [(46977166, 0), (1082239, 0), (103589, 0), (6213, 0), (50, 0)], [(1829, 0), (2484, 0), (220, 0), (5, 0), (0,
    1)]], 3, 4⟩, 1099511627776, 0, 778186788, ⟨[[(57654531831000, 0), (28736795111, 0), (21403019, 0), (62305, 0),
    (0, 75)], [(11778923937, 0), (22837953, 0), (0, 17066), (160, 0), (0, 1)], [(0, 6899966), (0, 11499), (0, 63),
    (1, 0)], [(5249, 0), (17, 0)]], 3, 4⟩, 68719476736, 8296147,
    5055275330992558285350561027806065607286055230970815577872992868826040490235490449781508832481, ⟨0, 6,
    789894114313671, [66808881607, 12501662, 3119]⟩⟩) (.sy (.leaf ⟨865, 16, 10, 2653, 16, 1525, ⟨[[], [(343597383680,
    0)]], 3, 4⟩, ⟨[[(0, 390904379469), (0, 2465689903012), (0, 548068434), (48959346, 0), (1549989, 0)], [(0,
    196518568016), (228013937, 0), (12960137, 0), (473672, 0), (8225, 0)], [(68275116, 0), (1048247, 0), (47259, 0),
    (1254, 0)], [(5489, 0), (1451, 0), (48, 0)]], 3, 4⟩, 1099511627776, 0, 752623016, ⟨[[(57800513042684, 0),
    (19659230132, 0), (8828303, 0), (21854, 0), (0, 23)], [(11224936785, 0), (15200672, 0), (0, 12161), (81, 0)],
    [(0, 6384646), (0, 5684), (0, 53)], [(4664, 0), (17, 0)]], 3, 4⟩, 68719476736, 8559008,
    2373715969545878118470489110610860315067038317937979040655993047565692028646759718317886556910, ⟨0, 6,
    1179978366826324, [95578242097, 17264856, 4158]⟩⟩) (.leaf ⟨865, 16, 10, 2643, 16, 1527, ⟨[[], [(343597383680,
    0)]], 3, 4⟩, ⟨[[(0, 391347403276), (0, 2468821724002), (682059464, 0), (87210600, 0), (1387344, 0)], [(0,
    194827439774), (441176860, 0), (22838669, 0), (579892, 0), (0, 2468)], [(76625227, 0), (1742644, 0), (66185, 0),
    (556, 0), (0, 72)], [(15768, 0), (1913, 0), (17, 0), (0, 4)]], 3, 4⟩, 1099511627776, 0, 1404418011,
    ⟨[[(57537412341904, 0), (19408200658, 0), (7899163, 0), (23054, 0), (0, 25)], [(11017898902, 0), (15554596, 0),
    (0, 15708), (96, 0)], [(0, 6318926), (0, 3989), (0, 72), (1, 0)], [(4402, 0), (22, 0)]], 3, 4⟩, 68719476736,
    8622553, 3587753083507002853443745389321484753206273251394005776881240526037278364595200916845223698022, ⟨0, 6,
    1181525879438555, [95703590611, 17287498, 4164]⟩⟩))) (.sx (.sy (.leaf ⟨835, 16, 10, 2543, 16, 1467, ⟨[[],
    [(343597383680, 0)]], 3, 4⟩, ⟨[[(0, 393194958114), (0, 2404761964373), (11016924, 0), (61809273, 0), (627410,
    0)], [(0, 199427955644), (339864472, 0), (18395908, 0), (377211, 0), (0, 8843)], [(77672093, 0), (1675365, 0),
    (58368, 0), (0, 141), (0, 103)], [(24879, 0), (3068, 0), (36, 0), (0, 6)]], 3, 4⟩, 1099511627776, 0, 1326998700,
    ⟨[[(57277105627842, 0), (19782314649, 0), (9271123, 0), (22925, 0), (0, 19)], [(11472695578, 0), (16402297, 0),
    (0, 12038), (73, 0)], [(0, 6761181), (0, 6475), (0, 54)], [(4975, 0), (18, 0)]], 3, 4⟩, 68719476736, 8607793,
    4303955594878848803055543903733147729786403966862532569602556957724125439922665071194569843604, ⟨0, 6,
    1126117265012785, [95246481358, 17823069, 4447]⟩⟩) (.sx (.leaf ⟨1655, 16, 20, 3553, 16, 2057, ⟨[[],
    [(343597383680, 0)]], 3, 4⟩, ⟨[[(0, 57715163196), (0, 3380223778142), (857183509, 0), (70227666, 0), (0,
    2221591)], [(0, 140845207196), (339321129, 0), (13701730, 0), (0, 59166), (0, 28147)], [(30384181, 0), (716271,
    0), (11081, 0), (0, 1259), (0, 95)], [(6784, 0), (497, 0), (0, 22), (0, 3)]], 3, 4⟩, 1099511627776, 0, 148363501,
    ⟨[[(57012716950949, 0), (13902894337, 0), (4444688, 0), (8361, 0), (0, 5)], [(5711978124, 0), (5963725, 0), (0,
    3359), (14, 0)], [(0, 1704169), (0, 1043), (0, 8)], [(618, 0), (2, 0)]], 3, 4⟩, 68719476736, 238558,
    3848141875238059213030105171255330091764666352198823054348011762221401249344649072925322553304, ⟨0, 6,
    1575800846072123, [67381642932, 6361560, 801]⟩⟩) (.skip))) (.skip))) (.skip))) (.skip)
theorem c55 : checkC job ⟨6, 8, 7, 8, 9, 13⟩ 1 25 lims t55 656 48 8 21 3 128 = true := by decide +kernel

def t56 : CTree :=
  .sx (.sy (.leaf ⟨728, 25, 8, 1060, 16, 574, ⟨[[], [(549755813888, 0)]], 3, 4⟩, ⟨[[(0, 546942449966), (0,
    3403364600507), (0, 7972818025), (0, 28951517), (3130194, 0)], [(0, 136219721445), (0, 322782429), (8317728, 0),
    (71861, 0), (21176, 0)], [(61865470, 0), (1075818, 0), (0, 19636), (0, 507), (136, 0)], [(0, 13678), (0, 1613),
    (0, 92), (6, 0), (1, 0)]], 3, 4⟩, 1099511627776, 0, 439872759, ⟨[[(61920679221238, 0), (65267470023, 0),
    (116370745, 0), (199753, 0), (0, 494)], [(16156415400, 0), (44789676, 0), (0, 22073), (0, 608), (0, 4)], [(0,
    10661778), (0, 20966), (141, 0), (0, 2)], [(11043, 0), (26, 0)]], 3, 4⟩, 68719476736, 964557713,
    2538900717468132909781828566029284285105432601081213958184606931350918264991421516905744667702, ⟨0, 7,
    449186271081791, [68392077800, 23486290, 10754]⟩⟩) (.leaf ⟨728, 25, 8, 1019, 16, 562, ⟨[[], [(549755813888, 0)]],
    3, 4⟩, ⟨[[(0, 96191478472), (0, 3425264584533), (0, 7328062772), (92619168, 0), (5414889, 0)], [(0,
    134924647761), (0, 186296117), (15837777, 0), (817606, 0), (25148, 0)], [(66313893, 0), (922232, 0), (11931, 0),
    (4104, 0), (144, 0)], [(0, 23758), (0, 1300), (194, 0), (23, 0)]], 3, 4⟩, 1099511627776, 0, 1022734519,
    ⟨[[(60706386611980, 0), (62331312253, 0), (107872999, 0), (271735, 0), (0, 1026)], [(15290025188, 0), (46083787,
    0), (0, 458), (0, 58), (0, 12)], [(0, 10196321), (0, 28230), (182, 0), (1, 0)], [(10510, 0), (30, 0)]], 3, 4⟩,
    68719476736, 927110216,
    3183760662902541059427242653547655991610145773814981519156602881172421265172391561016900400769, ⟨0, 7,
    439795617330952, [66962278264, 22995288, 10529]⟩⟩)) (.sy (.sx (.leaf ⟨955, 16, 10, 1331, 16, 727, ⟨[[],
    [(343597383680, 0)]], 3, 4⟩, ⟨[[(0, 23322965434), (0, 4333708935078), (0, 9502942958), (0, 29278390), (7231529,
    0)], [(0, 80771161425), (0, 123237034), (2836796, 0), (97285, 0), (35505, 0)], [(18518170, 0), (221505, 0), (0,
    9414), (684, 0), (116, 0)], [(0, 2737), (0, 275), (3, 0), (3, 0)]], 3, 4⟩, 1099511627776, 0, 182034943,
    ⟨[[(61889178005868, 0), (51154795094, 0), (68929646, 0), (101313, 0), (0, 396)], [(12029678469, 0), (27455651,
    0), (2364, 0), (0, 184), (0, 3)], [(0, 5907909), (0, 9918), (67, 0)], [(6241, 0), (23, 0)]], 3, 4⟩, 68719476736,
    12813641, 1789594849564944729171191252510293865543418987016437559105118877926506933017322002894897683187, ⟨0, 7,
    575004588085248, [41270177965, 6752320, 1473]⟩⟩) (.leaf ⟨985, 16, 10, 1335, 16, 733, ⟨[[], [(343597383680, 0)]],
    3, 4⟩, ⟨[[(7991850621, 0), (0, 4379579908718), (0, 9387104734), (0, 10516626), (11992949, 0)], [(0, 77930848379),
    (0, 88538232), (1313454, 0), (335749, 0), (64022, 0)], [(17854828, 0), (152442, 0), (0, 5495), (1874, 0), (175,
    0)], [(0, 2853), (0, 199), (26, 0), (5, 0)]], 3, 4⟩, 1099511627776, 0, 264324505, ⟨[[(61888173037242, 0),
    (50610164839, 0), (65825941, 0), (108403, 0), (0, 596)], [(11506620586, 0), (26604107, 0), (8926, 0), (0, 69),
    (0, 5)], [(0, 5251234), (0, 8102), (60, 0)], [(6984, 0), (37, 0)]], 3, 4⟩, 68719476736, 13658499,
    3668922754768848013056029108797926399975525692934994457260504309339348379320265102145453790262, ⟨0, 7,
    583683331677985, [40343451118, 6399659, 1354]⟩⟩)) (.sx (.leaf ⟨955, 16, 10, 1282, 16, 713, ⟨[[], [(343597383680,
    0)]], 3, 4⟩, ⟨[[(0, 160116163233), (0, 4356902532183), (0, 7645481760), (229740018, 0), (9655953, 0)], [(0,
    79765262188), (0, 39759833), (13993971, 0), (1101946, 0), (15481, 0)], [(19435046, 0), (281506, 0), (26540, 0),
    (2502, 0), (0, 116)], [(0, 3341), (199, 0), (69, 0), (0, 0), (0, 1)]], 3, 4⟩, 1099511627776, 0, 561920548,
    ⟨[[(60707906157040, 0), (49011560625, 0), (62400361, 0), (161584, 0), (0, 732)], [(11378076436, 0), (27779633,
    0), (1197, 0), (280, 0), (0, 7)], [(0, 5635085), (0, 12923), (28, 0), (2, 0)], [(5662, 0), (27, 0)]], 3, 4⟩,
    68719476736, 13246415,
    3602950432359361583098948912008617722148037836668033335243787315318275479690861174294200192311, ⟨0, 7,
    563931597393098, [40475429008, 6622289, 1445]⟩⟩) (.leaf ⟨985, 16, 10, 1289, 16, 721, ⟨[[], [(343597383680, 0)]],
    3, 4⟩, ⟨[[(392191157639, 0), (0, 4406769846186), (0, 6064253298), (360254251, 0), (8976328, 0)], [(0,
    76969924463), (23166068, 0), (21173858, 0), (1496389, 0), (0, 48807)], [(18851459, 0), (391010, 0), (45028, 0),
    (744, 0), (0, 648)], [(0, 2054), (520, 0), (42, 0), (0, 15), (0, 3)]], 3, 4⟩, 1099511627776, 0, 1246401784,
    ⟨[[(60683687621870, 0), (48407816548, 0), (57091227, 0), (194697, 0), (0, 1036)], [(10857903470, 0), (26829649,
    0), (0, 8679), (628, 0), (0, 9)], [(0, 5027025), (0, 9517), (0, 41), (3, 0)], [(5994, 0), (46, 0)]], 3, 4⟩,
    68719476736, 14049597,
    4521979680283453477366268123053860095266356930935321440025790074782566512016000145888418955899, ⟨0, 7,
    574127806466340, [39682985342, 6294890, 1331]⟩⟩)))
theorem c56 : checkC job ⟨6, 8, 7, 8, 9, 13⟩ 1 25 lims t56 752 48 8 27 3 256 = true := by decide +kernel

def t57 : CTree :=
  .sx (.sy (.sy (.leaf ⟨728, 25, 8, 1437, 16, 804, ⟨[[], [(549755813888, 0)]], 3, 4⟩, ⟨[[(468699872462, 0), (0,
    2492272297478), (0, 2045829260), (20004103, 0), (0, 505432)], [(0, 193651088983), (6070589, 0), (9580469, 0),
    (89885, 0), (0, 6340)], [(101717354, 0), (920798, 0), (22798, 0), (272, 0), (0, 46)], [(0, 34292), (1007, 0),
    (109, 0), (0, 5), (0, 1)]], 3, 4⟩, 1099511627776, 0, 2219761463, ⟨[[(59822613120932, 0), (41508589412, 0),
    (46207851, 0), (116897, 0), (0, 335)], [(14619951189, 0), (32307521, 0), (0, 7299), (266, 0), (0, 4)], [(0,
    9755113), (0, 22206), (14, 0), (2, 0)], [(10027, 0), (27, 0)]], 3, 4⟩, 68719476736, 874135782,
    2569879802252508022204157868610800678718603079182399901599318928625854068159684844492656535890, ⟨0, 7,
    629173801306202, [95796568904, 32897173, 15063]⟩⟩) (.leaf ⟨728, 25, 8, 1417, 16, 800, ⟨[[], [(549755813888, 0)]],
    3, 4⟩, ⟨[[(0, 353200218229), (0, 2502779980943), (0, 1847535916), (0, 1278286), (0, 1007202)], [(0,
    192298015062), (123995454, 0), (9635565, 0), (0, 63250), (0, 1816)], [(107515318, 0), (1171238, 0), (15740, 0),
    (0, 1037), (0, 41)], [(0, 26047), (1217, 0), (0, 132), (0, 24), (0, 1)]], 3, 4⟩, 1099511627776, 0, 5059184621,
    ⟨[[(59293975592869, 0), (40578420895, 0), (41739493, 0), (137668, 0), (0, 398)], [(14200790821, 0), (32829548,
    0), (0, 22208), (507, 0), (0, 5)], [(0, 9470953), (0, 21469), (0, 88), (3, 0)], [(9613, 0), (38, 0), (0, 1)]], 3,
    4⟩, 68719476736, 857459165,
    1908029708695732711048414205200173768455419513770224089412885899992054204189792581630811667556, ⟨0, 7,
    626043583389256, [95319969059, 32733506, 14988]⟩⟩)) (.sy (.sx (.leaf ⟨895, 16, 10, 1930, 16, 1097, ⟨[[],
    [(343597383680, 0)]], 3, 4⟩, ⟨[[(0, 423685430909), (0, 3470067370117), (0, 3018382072), (0, 7017681), (2076645,
    0)], [(0, 134914121054), (120391538, 0), (6831588, 0), (254286, 0), (32921, 0)], [(40033090, 0), (460330, 0),
    (11947, 0), (952, 0), (89, 0)], [(0, 4328), (100, 0), (0, 35), (0, 3)]], 3, 4⟩, 1099511627776, 0, 402011484,
    ⟨[[(58743148940083, 0), (28746373134, 0), (20224714, 0), (56511, 0), (0, 106)], [(11289793639, 0), (19766507, 0),
    (0, 14973), (190, 0), (0, 1)], [(0, 6151011), (0, 9578), (0, 57), (1, 0)], [(4784, 0), (17, 0)]], 3, 4⟩,
    68719476736, 8355297,
    3000694061604066638347179894172616661674231816506998876310227350669055898018077977680578913630, ⟨0, 6,
    855299141636728, [66449068095, 11600745, 2700]⟩⟩) (.leaf ⟨925, 16, 10, 1965, 16, 1124, ⟨[[], [(343597383680,
    0)]], 3, 4⟩, ⟨[[(415571257020, 0), (0, 3539519708549), (0, 2384626328), (21406148, 0), (6094821, 0)], [(0,
    130499039793), (201790308, 0), (6356831, 0), (247584, 0), (46954, 0)], [(39318967, 0), (227477, 0), (0, 32886),
    (0, 1830), (29, 0)], [(0, 9804), (0, 2413), (0, 331), (0, 18)]], 3, 4⟩, 1099511627776, 0, 1089562314,
    ⟨[[(58721354173951, 0), (28185607539, 0), (16452526, 0), (65603, 0), (0, 144)], [(10695391158, 0), (19354556, 0),
    (0, 28309), (307, 0), (0, 1)], [(0, 5645611), (0, 5200), (0, 122), (1, 0)], [(4339, 0), (30, 0)]], 3, 4⟩,
    68719476736, 9252731,
    3401856978149624352024653223236086472633461763363482103143364500062901107561277476562682021265, ⟨0, 7,
    882779221000128, [65876403481, 11127771, 2506]⟩⟩)) (.sx (.leaf ⟨895, 16, 10, 1902, 16, 1092, ⟨[[],
    [(343597383680, 0)]], 3, 4⟩, ⟨[[(0, 137362781015), (0, 3486957775559), (0, 1862842168), (192686246, 0),
    (16646884, 0)], [(0, 133219953781), (272624274, 0), (23758811, 0), (1958871, 0), (111745, 0)], [(43383966, 0),
    (809762, 0), (57795, 0), (4570, 0), (178, 0)], [(0, 5748), (0, 720), (0, 107), (0, 5)]], 3, 4⟩, 1099511627776, 0,
    1221348964, ⟨[[(58195702450829, 0), (28160659800, 0), (16859112, 0), (66185, 0), (0, 123)], [(10901375739, 0),
    (20684464, 0), (0, 28902), (289, 0), (0, 1)], [(0, 5995301), (0, 6152), (0, 127), (1, 0)], [(4365, 0), (28, 0)]],
    3, 4⟩, 68719476736, 9138143,
    3896777443953467446167431923852917998850339223128490181407451264585939819456481117977922883370, ⟨0, 6,
    851400786387700, [66146200875, 11547870, 2688]⟩⟩) (.sy (.leaf ⟨925, 16, 10, 2848, 16, 1641, ⟨[[], [(343597383680,
    0)]], 3, 4⟩, ⟨[[(193166652727, 0), (0, 2595956778961), (0, 281239621), (49014792, 0), (2090445, 0)], [(0,
    188940434198), (217493818, 0), (6740826, 0), (326013, 0), (11392, 0)], [(57713569, 0), (0, 116210), (0, 18162),
    (0, 74), (10, 0)], [(0, 42659), (0, 4866), (0, 230), (0, 5)]], 3, 4⟩, 1099511627776, 0, 2220664842,
    ⟨[[(58322367968160, 0), (19012728431, 0), (6316392, 0), (23844, 0), (0, 35)], [(10412533674, 0), (13950503, 0),
    (0, 20313), (127, 0)], [(0, 5600491), (0, 552), (0, 89), (1, 0)], [(3839, 0), (28, 0)]], 3, 4⟩, 68719476736,
    8580636, 3662640769661153860468524566486076054327423129817748107611213399284322255156574390164859843632, ⟨0, 7,
    1288826247029547, [96177204727, 16246149, 3659]⟩⟩) (.skip))))) (.sy (.sx (.sy (.leaf ⟨955, 16, 10, 2049, 16,
    1156, ⟨[[], [(343597383680, 0)]], 3, 4⟩, ⟨[[(208152744856, 0), (0, 3575161327789), (0, 1750249225), (33547914,
    0), (0, 2238858)], [(0, 129003725105), (116267146, 0), (9501461, 0), (0, 83858), (0, 21925)], [(34617848, 0),
    (446597, 0), (3501, 0), (0, 1786), (0, 135)], [(0, 2748), (144, 0), (0, 75), (0, 10), (0, 1)]], 3, 4⟩,
    1099511627776, 0, 213250385, ⟨[[(59834864390230, 0), (28938426906, 0), (19765897, 0), (52442, 0), (0, 140)],
    [(10870028176, 0), (17387054, 0), (0, 11010), (200, 0), (0, 1)], [(0, 5403237), (0, 7185), (0, 45), (1, 0)],
    [(5085, 0), (23, 0)]], 3, 4⟩, 68719476736, 8856344,
    3001177739250004450782880049584791951255983923002883967663431754042869320298688064885431567581, ⟨0, 7,
    914312660009005, [65623556709, 10736838, 2342]⟩⟩) (.leaf ⟨955, 16, 10, 2026, 16, 1154, ⟨[[], [(343597383680,
    0)]], 3, 4⟩, ⟨[[(125763024969, 0), (0, 3588755483481), (0, 1778785958), (0, 40568198), (0, 2915836)], [(0,
    127793624925), (198334616, 0), (2135462, 0), (0, 766942), (0, 29251)], [(36769891, 0), (154609, 0), (0, 65693),
    (0, 6316), (0, 234)], [(0, 7574), (0, 2407), (0, 405), (0, 28), (0, 1)]], 3, 4⟩, 1099511627776, 0, 732841495,
    ⟨[[(59277989316630, 0), (28281002051, 0), (16420054, 0), (64582, 0), (0, 164)], [(10525317098, 0), (18116206, 0),
    (0, 25972), (313, 0), (0, 2)], [(0, 5287742), (0, 4254), (0, 110), (1, 0)], [(4546, 0), (33, 0)]], 3, 4⟩,
    68719476736, 9163062,
    3030088308645525876180014790018725936381227721876110128192620054404433063109273393737251613680, ⟨0, 7,
    912730804195841, [65510021144, 10718263, 2338]⟩⟩)) (.sy (.leaf ⟨985, 16, 10, 2082, 16, 1181, ⟨[[],
    [(343597383680, 0)]], 3, 4⟩, ⟨[[(322179359264, 0), (0, 3636950182619), (0, 932786381), (0, 3191250), (0,
    6316982)], [(0, 125071838235), (200854398, 0), (6432124, 0), (0, 863639), (0, 69509)], [(34634783, 0), (324436,
    0), (0, 50137), (0, 7171), (0, 389)], [(0, 3310), (0, 1434), (0, 339), (0, 29), (0, 1)]], 3, 4⟩, 1099511627776,
    0, 515358606, ⟨[[(59832393754068, 0), (28432807460, 0), (16556295, 0), (63636, 0), (0, 185)], [(10369161821, 0),
    (17078184, 0), (0, 23069), (315, 0), (0, 2)], [(0, 4889392), (0, 2747), (0, 98), (1, 0)], [(5033, 0), (39, 0)]],
    3, 4⟩, 68719476736, 9219520,
    3271357449425321366226125661920106489358091687805845899620565347260630520548961496008401414482, ⟨0, 7,
    940422939579400, [65000840068, 10311047, 2181]⟩⟩) (.sy (.leaf ⟨985, 16, 10, 3053, 16, 1744, ⟨[[], [(343597383680,
    0)]], 3, 4⟩, ⟨[[(0, 63863419790), (0, 2693705794206), (0, 707077370), (0, 28162038), (0, 884396)], [(0,
    183331850017), (130735546, 0), (0, 5675807), (0, 458272), (0, 9906)], [(50574111, 0), (0, 535425), (0, 75142),
    (0, 2999), (0, 57)], [(0, 29338), (0, 5012), (0, 339), (0, 11)]], 3, 4⟩, 1099511627776, 0, 1300702037,
    ⟨[[(59421358077426, 0), (18956377824, 0), (6204333, 0), (23296, 0), (0, 43)], [(10114334611, 0), (12170417, 0),
    (0, 17896), (130, 0)], [(0, 4874412), (676, 0), (0, 74), (1, 0)], [(4400, 0), (33, 0)]], 3, 4⟩, 68719476736,
    8688707, 2365767450776006465296120993618425274345822935427829802368038044433128917146340456785665017298, ⟨0, 7,
    1388736330759080, [95987692700, 15226474, 3220]⟩⟩) (.sx (.leaf ⟨1955, 16, 20, 4110, 16, 2356, ⟨[[],
    [(343597383680, 0)]], 3, 4⟩, ⟨[[(0, 220975047653), (0, 3656930592128), (0, 1467625204), (0, 45089767), (0,
    625480)], [(0, 125019356421), (50612623, 0), (0, 6908319), (0, 347546), (0, 4969)], [(16378095, 0), (0, 391620),
    (0, 35567), (0, 1174), (0, 18)], [(0, 9036), (0, 1322), (0, 77), (0, 2)]], 3, 4⟩, 1099511627776, 0, 149505524,
    ⟨[[(59145506146500, 0), (13870799252, 0), (3065411, 0), (9780, 0), (0, 13)], [(5028452883, 0), (4650941, 0), (0,
    5743), (28, 0)], [(0, 1245307), (301, 0), (0, 12)], [(504, 0), (3, 0)]], 3, 4⟩, 68719476736, 258761,
    2819927267607560495808262999662882695010346042406638978879690066919222535038381026620033773089, ⟨0, 7,
    1872944093177998, [65333184419, 5221642, 556]⟩⟩) (.sy (.leaf ⟨1985, 16, 20, 6144, 16, 3527, ⟨[[], [(343597383680,
    0)]], 3, 4⟩, ⟨[[(0, 219043559570), (0, 2732101636197), (0, 801773709), (0, 15558757), (0, 135020)], [(0,
    182816741116), (0, 18466961), (0, 5043097), (0, 109522), (0, 878)], [(20863439, 0), (0, 542228), (0, 20738), (0,
    331), (0, 3)], [(0, 20806), (0, 1463), (0, 40), (0, 1)]], 3, 4⟩, 1099511627776, 0, 245273962, ⟨[[(59213097007184,
    0), (9337136284, 0), (1200804, 0), (3284, 0), (0, 3)], [(4927401134, 0), (3177981, 0), (0, 3150), (10, 0)], [(0,
    1204000), (514, 0), (0, 6)], [(482, 0), (3, 0)]], 3, 4⟩, 68719476736, 171945,
    4058224159603259528246952539096516209016614435210481775868133947957124589920097828726100994850, ⟨0, 7,
    2813169396534404, [96327491528, 7582454, 796]⟩⟩) (.sx (.leaf ⟨4054, 16, 41, 8249, 16, 4744, ⟨[[(0,
    137438953472)], [(352187318272, 0)]], 3, 4⟩, ⟨[[(33411179530, 0), (0, 3687820655893), (0, 1279326768), (0,
    20889075), (0, 110272)], [(0, 123738792541), (0, 37057933), (0, 4021459), (0, 75660), (0, 488)], [(6346610, 0),
    (0, 233104), (0, 7994), (0, 118), (0, 1)], [(0, 4514), (0, 297), (0, 8)]], 3, 4⟩, 1099511627776, 0, 27795421,
    ⟨[[(59072642943118, 0), (6904887131, 0), (615910, 0), (1373, 0), (0, 1)], [(2394943936, 0), (1175977, 0), (0,
    913), (2, 0)], [(0, 290462), (107, 0), (0, 1)], [(53, 0)]], 3, 4⟩, 68719476736, 41623,
    4868290020057972614956171172352345127175671928698727988565719318130046885171350788323511423789, ⟨0, 7,
    3780744934096185, [65028463848, 2569076, 135]⟩⟩) (.skip))))))) (.sy (.sx (.sy (.leaf ⟨955, 16, 10, 2951, 16,
    1693, ⟨[[], [(343597383680, 0)]], 3, 4⟩, ⟨[[(0, 163174933418), (0, 2646511140083), (0, 908956215), (0, 7300793),
    (455535, 0)], [(0, 186227241313), (119037661, 0), (0, 3955126), (0, 189232), (881, 0)], [(52024828, 0), (0,
    665800), (0, 66037), (0, 1940), (0, 20)], [(0, 43404), (0, 5969), (0, 335), (0, 9)]], 3, 4⟩, 1099511627776, 0,
    1845040745, ⟨[[(58870907869647, 0), (18981602957, 0), (6223504, 0), (23621, 0), (0, 39)], [(10255971239, 0),
    (13010475, 0), (0, 19351), (129, 0)], [(0, 5253558), (0, 95), (0, 82), (1, 0)], [(3999, 0), (30, 0)]], 3, 4⟩,
    68719476736, 8583554,
    4552576294519404211352936509677943339557670329658127401337941741263772735693925751539659987212, ⟨0, 7,
    1339040945843639, [96107855976, 15724453, 3430]⟩⟩) (.sx (.leaf ⟨1895, 16, 20, 3995, 16, 2300, ⟨[[],
    [(343597383680, 0)]], 3, 4⟩, ⟨[[(0, 313805409435), (0, 3613288118284), (0, 1028492818), (24644164, 0), (2036690,
    0)], [(0, 127708134521), (79137475, 0), (0, 1765394), (0, 8067), (4656, 0)], [(17292181, 0), (0, 339471), (0,
    24536), (0, 550), (0, 2)], [(0, 11284), (0, 1376), (0, 67), (0, 1)]], 3, 4⟩, 1099511627776, 0, 197944534,
    ⟨[[(58599223845174, 0), (13808930155, 0), (3054524, 0), (9658, 0), (0, 11)], [(5099438493, 0), (4943761, 0), (0,
    6003), (27, 0)], [(0, 1336271), (190, 0), (0, 13)], [(465, 0), (3, 0)]], 3, 4⟩, 68719476736, 266045,
    3608157069986824470798908598751184924972049378802203553781913741492217807007356496717145826787, ⟨0, 7,
    1815988234094542, [65799701597, 5425437, 596]⟩⟩) (.skip))) (.sy (.sx (.sy (.sx (.leaf ⟨3992, 16, 41, 8178, 16,
    4702, ⟨[[(412316860416, 0)], [(352187318272, 0)]], 3, 4⟩, ⟨[[(0, 350884403641), (0, 3664859262955), (0,
    930541622), (0, 10230106), (25484, 0)], [(0, 125387438401), (0, 26279), (0, 2437309), (0, 44780), (0, 171)],
    [(7432797, 0), (0, 160834), (0, 5758), (0, 82)], [(0, 3569), (0, 234), (0, 6)]], 3, 4⟩, 1099511627776, 0,
    23933525, ⟨[[(58937028976036, 0), (6896145132, 0), (689020, 0), (1281, 0), (0, 1)], [(2433955825, 0), (1172375,
    0), (0, 811), (2, 0)], [(0, 300198), (64, 0), (0, 1)], [(54, 0)]], 3, 4⟩, 68719476736, 57604,
    2812511582553264424566893142383431898746999191505894394686387695125672638119621237599115554740, ⟨0, 7,
    3734803153060181, [65445601735, 2625385, 140]⟩⟩) (.skip)) (.skip)) (.skip)) (.skip))) (.skip)))
theorem c57 : checkC job ⟨6, 8, 7, 8, 9, 13⟩ 1 25 lims t57 752 48 8 33 3 256 = true := by decide +kernel

def t58 : CTree :=
  .sx (.sy (.sx (.sy (.sy (.sy (.leaf ⟨895, 16, 10, 2745, 16, 1588, ⟨[[], [(343597383680, 0)]], 3, 4⟩, ⟨[[(0,
    42868705605), (0, 2533731280084), (1201712865, 0), (109649176, 0), (2344949, 0)], [(0, 190916698548), (471417255,
    0), (23394305, 0), (714002, 0), (5532, 0)], [(70779305, 0), (1201367, 0), (47346, 0), (828, 0), (0, 35)], [(0,
    17141), (0, 1571), (0, 89), (0, 4)]], 3, 4⟩, 1099511627776, 0, 2363088459, ⟨[[(57794026419436, 0), (19060721776,
    0), (6547543, 0), (23931, 0), (0, 30)], [(10597031357, 0), (14929962, 0), (0, 20378), (120, 0)], [(0, 5937544),
    (0, 1068), (0, 92), (1, 0)], [(3877, 0), (28, 0)]], 3, 4⟩, 68719476736, 8571074,
    2365101594835311251090089338765277187641192966433387735029941132908982336138511462736770744720, ⟨0, 6,
    1238117627091271, [96190629112, 16793057, 3909]⟩⟩) (.skip)) (.skip)) (.skip)) (.skip)) (.skip)) (.skip)
theorem c58 : checkC job ⟨6, 8, 7, 8, 9, 13⟩ 1 25 lims t58 752 48 8 21 3 128 = true := by decide +kernel

def t59 : CTree :=
  .sy (.sy (.sx (.leaf ⟨1055, 16, 20, 1628, 16, 918, ⟨[[], [(343597383680, 0)]], 3, 4⟩, ⟨[[(0, 445017784342), (0,
    3427328861667), (0, 11188028223), (66573142, 0), (3295753, 0)], [(0, 135396541113), (0, 485155988), (15993148,
    0), (580226, 0), (0, 14948)], [(24745258, 0), (1019851, 0), (31309, 0), (0, 1214), (0, 232)], [(10292, 0), (430,
    0), (0, 59), (0, 11), (0, 1)]], 3, 4⟩, 1099511627776, 0, 192597430, ⟨[[(53756074758802, 0), (24470151213, 0),
    (38051049, 0), (78249, 0), (0, 36)], [(9622693446, 0), (17884604, 0), (0, 12639), (0, 7)], [(0, 4277063), (0,
    5026), (7, 0)], [(2496, 0)]], 3, 4⟩, 68719476736, 436309,
    3926477537332467259406638906308568643604134663539811919908965226186640418776884308313812452818, ⟨0, 6,
    631542962895201, [47173220233, 6986555, 1380]⟩⟩) (.leaf ⟨1085, 16, 20, 1632, 16, 927, ⟨[[], [(343597383680, 0)]],
    3, 4⟩, ⟨[[(0, 184645504560), (0, 3498245088346), (0, 9538994411), (99206634, 0), (0, 1270226)], [(0,
    131651542448), (0, 287226140), (19245890, 0), (0, 91428), (0, 93329)], [(27746141, 0), (1032684, 0), (0, 7986),
    (0, 6652), (0, 632)], [(8184, 0), (0, 595), (0, 241), (0, 28), (0, 2)]], 3, 4⟩, 1099511627776, 0, 558490067,
    ⟨[[(53749985864065, 0), (23908262686, 0), (34204928, 0), (77226, 0), (0, 29)], [(9162665413, 0), (17695855, 0),
    (0, 11609), (0, 12)], [(0, 4000596), (0, 5120), (8, 0)], [(2309, 0)]], 3, 4⟩, 68719476736, 378570,
    3942388709733610412309623624734760107249369009318218126307713840893840405701865883087546518435, ⟨0, 6,
    642243775580919, [46318586578, 6670303, 1281]⟩⟩)) (.sx (.sy (.leaf ⟨1055, 16, 20, 2292, 16, 1304, ⟨[[],
    [(343597383680, 0)]], 3, 4⟩, ⟨[[(0, 267550758237), (0, 2502265140275), (0, 3575487137), (13621990, 0), (0,
    401002)], [(0, 194911371252), (0, 226229938), (6604743, 0), (0, 97199), (0, 12006)], [(42228590, 0), (783678, 0),
    (0, 11420), (0, 1782), (0, 76)], [(13567, 0), (0, 867), (0, 133), (0, 7)]], 3, 4⟩, 1099511627776, 0, 375704157,
    ⟨[[(53409951537465, 0), (16486837290, 0), (17154357, 0), (27979, 0), (0, 8)], [(9361462247, 0), (12844062, 0),
    (0, 6066), (0, 4)], [(0, 4202864), (0, 3692), (4, 0)], [(2491, 0)]], 3, 4⟩, 68719476736, 275262,
    3512183294779034399938851018397686993159518240038795231646094689820663267054734188532683047097, ⟨0, 6,
    897093707641985, [67008582988, 9924257, 1960]⟩⟩) (.leaf ⟨1055, 16, 20, 2254, 16, 1290, ⟨[[], [(343597383680,
    0)]], 3, 4⟩, ⟨[[(0, 516953619778), (0, 2516987826949), (0, 3469635102), (0, 12241428), (0, 1978475)], [(0,
    193966135036), (0, 169140088), (1162475, 0), (0, 572671), (0, 30017)], [(45524541, 0), (369595, 0), (0, 64349),
    (0, 4462), (0, 159)], [(1660, 0), (0, 3444), (0, 323), (0, 15)]], 3, 4⟩, 1099511627776, 0, 858728895,
    ⟨[[(53189827316522, 0), (16211877959, 0), (16359291, 0), (29305, 0), (0, 7)], [(9186478022, 0), (13147147, 0),
    (0, 6018), (0, 5)], [(0, 4152102), (0, 3851), (5, 0)], [(2488, 0)]], 3, 4⟩, 68719476736, 267200,
    4071510510254301684158293183062463234963915727087927962918691494671959520293728784048002092201, ⟨0, 6,
    887462333480184, [66289165686, 9817708, 1939]⟩⟩)) (.sy (.leaf ⟨1085, 16, 20, 2326, 16, 1333, ⟨[[],
    [(343597383680, 0)]], 3, 4⟩, ⟨[[(0, 332512778382), (0, 2574024510590), (0, 3271824489), (0, 20514748), (0,
    2563076)], [(0, 190700116769), (0, 124176342), (0, 862577), (0, 721517), (0, 35795)], [(44992467, 0), (170464,
    0), (0, 77847), (0, 5080), (0, 179)], [(0, 4277), (0, 3912), (0, 350), (0, 16)]], 3, 4⟩, 1099511627776, 0,
    879719356, ⟨[[(53411554582045, 0), (15973059851, 0), (14907134, 0), (26486, 0), (0, 6)], [(8904681702, 0),
    (12533541, 0), (0, 5322), (0, 5)], [(0, 3924883), (0, 3734), (4, 0)], [(2304, 0)]], 3, 4⟩, 68719476736, 305786,
    3735270348296347826758238949959965343644754171116422138001846697827357359342201881753898207261, ⟨0, 6,
    923528535975582, [66604828380, 9591709, 1842]⟩⟩) (.sx (.leaf ⟨2209, 16, 41, 3137, 16, 1806, ⟨[[(0,
    137438953472)], [(352187318272, 0)]], 3, 4⟩, ⟨[[(503550322228, 0), (0, 3540431400814), (0, 5408477615), (0,
    116396335), (0, 7215285)], [(0, 131259106451), (0, 132451855), (0, 10111581), (0, 1050918), (0, 42856)],
    [(15063885, 0), (0, 282665), (0, 56986), (0, 3094), (0, 100)], [(0, 4905), (0, 1380), (0, 107), (0, 5)]], 3, 4⟩,
    1099511627776, 0, 190929804, ⟨[[(53178492287520, 0), (11493502547, 0), (7681518, 0), (10759, 0), (0, 2)],
    [(4307062346, 0), (4573128, 0), (0, 1385), (0, 1)], [(0, 936741), (0, 674), (1, 0)], [(272, 0)]], 3, 4⟩,
    68719476736, 84636,
    3045450767581393972159915020729647244746630763176030638000296801296015795308189708120631096152, ⟨0, 6,
    1249058958917548, [45433456018, 3294189, 318]⟩⟩) (.leaf ⟨2240, 16, 41, 3133, 16, 1810, ⟨[[(0, 412316860416)],
    [(352187318272, 0)]], 3, 4⟩, ⟨[[(46921588048, 0), (0, 3565013586268), (0, 7025077689), (0, 250812036), (0,
    12403714)], [(0, 128835922790), (0, 232284571), (0, 24507758), (0, 1792600), (0, 66234)], [(12890385, 0), (0,
    792994), (0, 95071), (0, 4693), (0, 145)], [(0, 10808), (0, 2206), (0, 159), (0, 7)]], 3, 4⟩, 1099511627776, 0,
    284103379, ⟨[[(53184922835561, 0), (11446219262, 0), (7254634, 0), (10711, 0), (0, 1)], [(4200100494, 0),
    (4550280, 0), (0, 1299), (0, 1)], [(0, 904484), (0, 684), (1, 0)], [(262, 0)]], 3, 4⟩, 68719476736, 84122,
    4712292616391955880952358329955950212737603482115357342913430842308307265221002208642537934912, ⟨0, 6,
    1256166548967277, [44908901899, 3211449, 306]⟩⟩))))) (.sy (.sx (.sy (.leaf ⟨1055, 16, 20, 2210, 16, 1273, ⟨[[],
    [(343597383680, 0)]], 3, 4⟩, ⟨[[(176607301620, 0), (0, 2528493931472), (0, 4270846709), (0, 96093169), (0,
    5498950)], [(0, 192537946813), (0, 246030028), (0, 17587047), (0, 1659124), (0, 65526)], [(43640854, 0), (0,
    1035413), (0, 185985), (0, 9818), (0, 310)], [(0, 34114), (0, 9289), (0, 707), (0, 30), (0, 1)]], 3, 4⟩,
    1099511627776, 0, 1847372792, ⟨[[(52958309201654, 0), (15966833946, 0), (15482381, 0), (30900, 0), (0, 7)],
    [(8994767681, 0), (13496012, 0), (0, 5933), (0, 6)], [(0, 4095277), (0, 4050), (5, 0)], [(2485, 0)]], 3, 4⟩,
    68719476736, 324032,
    4816114797670067012462491376516665769491812756061962696515768066638192631408098532941894855034, ⟨0, 6,
    875767093426569, [65415587534, 9688328, 1913]⟩⟩) (.sx (.leaf ⟨2147, 16, 41, 2973, 16, 1720, ⟨[[(412316860416,
    0)], [(352187318272, 0)]], 3, 4⟩, ⟨[[(156542700830, 0), (0, 3488117124514), (0, 8494503739), (0, 299587183), (0,
    13435960)], [(0, 132849494385), (0, 349314093), (0, 31552774), (0, 2086159), (0, 73145)], [(12076850, 0), (0,
    1093570), (0, 118621), (0, 5584), (0, 166)], [(0, 15092), (0, 2944), (0, 204), (0, 8)]], 3, 4⟩, 1099511627776, 0,
    353854742, ⟨[[(52737545762534, 0), (11525341458, 0), (8013991, 0), (12647, 0), (0, 2)], [(4354614902, 0),
    (4936192, 0), (0, 1557), (0, 1)], [(0, 978827), (0, 733), (1, 0)], [(294, 0)]], 3, 4⟩, 68719476736, 74183,
    4399724384499577190491662406721286716544240512440803653218787340308538355179685864164827180937, ⟨0, 6,
    1181154282078846, [44509193190, 3319600, 330]⟩⟩) (.sy (.leaf ⟨2178, 16, 41, 4358, 16, 2527, ⟨[[(137438953472,
    0)], [(352187318272, 0)]], 3, 4⟩, ⟨[[(257089455084, 0), (0, 2570853331870), (0, 3886332652), (0, 80452505), (0,
    1677723)], [(0, 191283405359), (0, 362628670), (0, 17203646), (0, 513159), (0, 8643)], [(13045945, 0), (0,
    1208194), (0, 57135), (0, 1293), (0, 19)], [(0, 31518), (0, 2753), (0, 92), (0, 2)]], 3, 4⟩, 1099511627776, 0,
    345217516, ⟨[[(52793353526819, 0), (7876551345, 0), (3572588, 0), (3989, 0)], [(4261772617, 0), (3342611, 0), (0,
    686)], [(0, 947067), (0, 505)], [(282, 0)]], 3, 4⟩, 68719476736, 96485,
    4221399067217123372636254525275142425506300084700407103945203954053695531509973079658331220803, ⟨0, 6,
    1741568526517148, [64469100367, 4740375, 465]⟩⟩) (.skip)))) (.sy (.sx (.sy (.leaf ⟨2209, 16, 41, 4501, 16, 2603,
    ⟨[[(0, 137438953472)], [(352187318272, 0)]], 3, 4⟩, ⟨[[(0, 7851808863), (0, 2593872726830), (0, 2917608565), (0,
    54476545), (0, 1266670)], [(0, 190505349862), (0, 220091694), (0, 11040171), (0, 375668), (0, 6721)], [(17743302,
    0), (0, 738637), (0, 40786), (0, 977), (0, 15)], [(0, 19843), (0, 1931), (0, 68), (0, 1)]], 3, 4⟩, 1099511627776,
    0, 243802525, ⟨[[(53017485679554, 0), (7828137375, 0), (3477182, 0), (3621, 0)], [(4242127304, 0), (3199574, 0),
    (0, 641)], [(0, 927080), (0, 480)], [(272, 0)]], 3, 4⟩, 68719476736, 86199,
    3291206257448033062933625111934805592827644927183142921327419433318294582419729574648766591045, ⟨0, 6,
    1800277115206188, [65483547074, 4747937, 459]⟩⟩) (.leaf ⟨2209, 16, 41, 4421, 16, 2565, ⟨[[(0, 137438953472)],
    [(352187318272, 0)]], 3, 4⟩, ⟨[[(253557985190, 0), (0, 2597503364552), (0, 4152012063), (0, 90698101), (0,
    1871973)], [(0, 189506355269), (0, 393673268), (0, 19157358), (0, 560726), (0, 9400)], [(11442193, 0), (0,
    1327765), (0, 61025), (0, 1374), (0, 20)], [(0, 33692), (0, 2867), (0, 95), (0, 2)]], 3, 4⟩, 1099511627776, 0,
    349403283, ⟨[[(52904669085449, 0), (7844074016, 0), (3418334, 0), (3802, 0)], [(4195588061, 0), (3265569, 0), (0,
    640)], [(0, 920043), (0, 497)], [(272, 0)]], 3, 4⟩, 68719476736, 89882,
    4803388783401578200294205325566350143757316046761380904986648577404926578499919947818825086787, ⟨0, 6,
    1773995697465952, [64527582883, 4678624, 452]⟩⟩)) (.sy (.leaf ⟨2240, 16, 41, 4484, 16, 2603, ⟨[[(0,
    412316860416)], [(352187318272, 0)]], 3, 4⟩, ⟨[[(538239847977, 0), (0, 2623720458563), (0, 4419410100), (0,
    100867570), (0, 2065639)], [(0, 187777293407), (0, 423919339), (0, 21003032), (0, 605796), (0, 10126)],
    [(9927891, 0), (0, 1433540), (0, 64446), (0, 1446), (0, 21)], [(0, 35417), (0, 2953), (0, 98), (0, 2)]], 3, 4⟩,
    1099511627776, 0, 349530376, ⟨[[(53014333558101, 0), (7812437170, 0), (3273164, 0), (3626, 0)], [(4131357712, 0),
    (3190568, 0), (0, 597)], [(0, 894040), (0, 490)], [(261, 0)]], 3, 4⟩, 68719476736, 86764,
    5318119442061833063083782912649443309970201122782974689996999587829552110957811765811361023051, ⟨0, 6,
    1806520180641891, [64584459471, 4618454, 440]⟩⟩) (.skip))) (.skip))) (.sx (.sy (.sx (.sy (.sx (.leaf ⟨4279, 16,
    82, 5818, 16, 3379, ⟨[[(412316860416, 0)], [(352187318272, 0)]], 3, 4⟩, ⟨[[(258806501947, 0), (0, 3507612756253),
    (0, 6377225697), (0, 133531369), (0, 2624870)], [(0, 133135543542), (0, 332096280), (0, 14853152), (0, 415039),
    (0, 6746)], [(3147417, 0), (0, 540959), (0, 23833), (0, 521), (0, 7)], [(0, 7110), (0, 591), (0, 19)]], 3, 4⟩,
    1099511627776, 0, 47927850, ⟨[[(52573930239683, 0), (5756554289, 0), (1966153, 0), (1680, 0)], [(2156162443, 0),
    (1268155, 0), (0, 197)], [(0, 244234), (0, 96)], [(37, 0)]], 3, 4⟩, 68719476736, 21881,
    3416201544488061905786048160425302327345923591215166754319042151026835981203556446566100618845, ⟨0, 6,
    2318316468140601, [43877008931, 1642104, 82]⟩⟩) (.skip)) (.skip)) (.skip)) (.skip)) (.skip)))
theorem c59 : checkC job ⟨6, 8, 7, 8, 9, 13⟩ 1 25 lims t59 1712 48 32 51 3 256 = true := by decide +kernel

def t60 : CTree :=
  .sy (.sy (.sx (.sy (.leaf ⟨1115, 16, 20, 2432, 16, 1387, ⟨[[], [(343597383680, 0)]], 3, 4⟩, ⟨[[(0, 110790275737),
    (0, 2613108439749), (0, 3079255458), (13965552, 0), (0, 770139)], [(0, 188432699900), (0, 121035568), (5855366,
    0), (0, 197553), (0, 16557)], [(42135701, 0), (602428, 0), (0, 21680), (0, 2241), (0, 93)], [(6262, 0), (0,
    1266), (0, 150), (0, 8)]], 3, 4⟩, 1099511627776, 0, 380401881, ⟨[[(53862103228642, 0), (16039842157, 0),
    (14446581, 0), (23143, 0), (0, 5)], [(8813891079, 0), (11718882, 0), (0, 4841), (0, 5)], [(0, 3766587), (0,
    3474), (4, 0)], [(2140, 0)]], 3, 4⟩, 68719476736, 248992,
    3189181234325139371195811604321627339276316794603483592679713625190563399021396325724763479320, ⟨0, 6,
    967503565478811, [67438343805, 9450441, 1766]⟩⟩) (.leaf ⟨1115, 16, 20, 2398, 16, 1376, ⟨[[], [(343597383680,
    0)]], 3, 4⟩, ⟨[[(403745496422, 0), (0, 2628586471948), (0, 3103712067), (0, 28583746), (0, 3112695)], [(0,
    187518080736), (0, 89876333), (0, 2706945), (0, 846793), (0, 40757)], [(43992894, 0), (2166, 0), (0, 87558), (0,
    5523), (0, 194)], [(0, 8762), (0, 4158), (0, 362), (0, 17), (0, 1)]], 3, 4⟩, 1099511627776, 0, 864381838,
    ⟨[[(53627334786074, 0), (15751612026, 0), (13626047, 0), (23980, 0), (0, 4)], [(8639051589, 0), (11954081, 0),
    (0, 4694), (0, 6)], [(0, 3714209), (0, 3621), (4, 0)], [(2136, 0)]], 3, 4⟩, 68719476736, 276441,
    3277505952571441133899993621930949923388397276257177851247078349801405434673418906823907786359, ⟨0, 6,
    959830501873715, [66903504741, 9375491, 1752]⟩⟩)) (.sy (.leaf ⟨1145, 16, 20, 2472, 16, 1419, ⟨[[],
    [(343597383680, 0)]], 3, 4⟩, ⟨[[(0, 507600525636), (0, 2681247220199), (0, 2951774993), (0, 35012785), (0,
    3568504)], [(0, 184457415692), (0, 62926795), (0, 4086607), (0, 934893), (0, 44453)], [(42729913, 0), (0,
    118970), (0, 92586), (0, 5752), (0, 204)], [(0, 11621), (0, 4172), (0, 359), (0, 17), (0, 1)]], 3, 4⟩,
    1099511627776, 0, 817072193, ⟨[[(53868588567209, 0), (15595168293, 0), (12622782, 0), (21723, 0), (0, 3)],
    [(8411150299, 0), (11389770, 0), (0, 4165), (0, 5)], [(0, 3525729), (0, 3492), (4, 0)], [(1982, 0)]], 3, 4⟩,
    68719476736, 263777,
    3269225708173809970337378223807413527610952955344181934970636221031924848392787645522464449257, ⟨0, 6,
    996361114075360, [67186529938, 9168468, 1668]⟩⟩) (.sx (.leaf ⟨2332, 16, 41, 3292, 16, 1898, ⟨[[(0,
    137438953472)], [(352187318272, 0)]], 3, 4⟩, ⟨[[(0, 489940824884), (0, 3637288772521), (0, 5393763358), (0,
    172913665), (0, 10025400)], [(0, 125141885233), (0, 119782970), (0, 15339380), (0, 1348259), (0, 53807)],
    [(13533994, 0), (0, 455448), (0, 66886), (0, 3542), (0, 115)], [(0, 6568), (0, 1461), (0, 111), (0, 5)]], 3, 4⟩,
    1099511627776, 0, 209470540, ⟨[[(53639682618806, 0), (11397180562, 0), (6677304, 0), (9154, 0), (0, 1)],
    [(4068205965, 0), (4205355, 0), (0, 1102), (0, 1)], [(0, 840477), (0, 638), (1, 0)], [(234, 0)]], 3, 4⟩,
    68719476736, 62458,
    4182127466822866240321152756411407002180616406292095287689454003721658710125985097099435309621, ⟨0, 6,
    1330530547081056, [45229325319, 3106410, 284]⟩⟩) (.leaf ⟨2363, 16, 41, 3282, 16, 1899, ⟨[[(0, 412316860416)],
    [(352187318272, 0)]], 3, 4⟩, ⟨[[(509938801831, 0), (0, 3656353788515), (0, 7594992681), (0, 339812512), (0,
    16394639)], [(0, 122834847794), (0, 254138182), (0, 31687292), (0, 2178726), (0, 80246)], [(10918733, 0), (0,
    979414), (0, 105585), (0, 5188), (0, 162)], [(0, 11968), (0, 2217), (0, 159), (0, 7)]], 3, 4⟩, 1099511627776, 0,
    302963779, ⟨[[(53630704240527, 0), (11368875194, 0), (6315522, 0), (9142, 0), (0, 1)], [(3967758286, 0),
    (4188274, 0), (0, 1024), (0, 1)], [(0, 811614), (0, 647), (1, 0)], [(225, 0)]], 3, 4⟩, 68719476736, 84021,
    5093380012126000219694485267158089235728317906510288485457699210899148571589915190282483144493, ⟨0, 6,
    1335547472732303, [44664177151, 3027669, 274]⟩⟩)))) (.sx (.sy (.sx (.leaf ⟨2270, 16, 41, 3214, 16, 1852,
    ⟨[[(412316860416, 0)], [(352187318272, 0)]], 3, 4⟩, ⟨[[(155844868050, 0), (0, 3589922379520), (0, 5406423118),
    (0, 146951752), (0, 8716078)], [(0, 128111815720), (0, 125372762), (0, 13088804), (0, 1220957), (0, 48982)],
    [(14291566, 0), (0, 386410), (0, 63335), (0, 3376), (0, 109)], [(0, 5996), (0, 1455), (0, 111), (0, 5)]], 3, 4⟩,
    1099511627776, 0, 202855648, ⟨[[(53404557103665, 0), (11435933075, 0), (7140223, 0), (9922, 0), (0, 1)],
    [(4183026516, 0), (4386777, 0), (0, 1235), (0, 1)], [(0, 886851), (0, 657), (1, 0)], [(252, 0)]], 3, 4⟩,
    68719476736, 73005,
    3744028249812061078267873398464529511643133845572757138116065253738178095754005778808164659650, ⟨0, 6,
    1289696450647548, [45328625918, 3197561, 301]⟩⟩) (.leaf ⟨2301, 16, 41, 3208, 16, 1855, ⟨[[(137438953472, 0)],
    [(352187318272, 0)]], 3, 4⟩, ⟨[[(284337672044, 0), (0, 3612808782420), (0, 7367293846), (0, 300392357), (0,
    14579378)], [(0, 125785046220), (0, 246951814), (0, 28805851), (0, 2021357), (0, 74280)], [(11808095, 0), (0,
    915788), (0, 102477), (0, 5027), (0, 156)], [(0, 11769), (0, 2261), (0, 162), (0, 7)]], 3, 4⟩, 1099511627776, 0,
    297035305, ⟨[[(53404800054681, 0), (11397620836, 0), (6748024, 0), (9885, 0), (0, 1)], [(4079986769, 0),
    (4365422, 0), (0, 1152), (0, 1)], [(0, 856426), (0, 666), (1, 0)], [(243, 0)]], 3, 4⟩, 68719476736, 67843,
    5034949923147754580776953437609705193420807904331728303569700125995430796341422122685085606604, ⟨0, 6,
    1296114936176053, [44795343477, 3117716, 289]⟩⟩)) (.sx (.sy (.leaf ⟨2270, 16, 41, 4638, 16, 2685,
    ⟨[[(412316860416, 0)], [(352187318272, 0)]], 3, 4⟩, ⟨[[(376927844743, 0), (0, 2646807401553), (0, 3166578726),
    (0, 67207756), (0, 1530956)], [(0, 187130731489), (0, 245044981), (0, 13345357), (0, 435575), (0, 7734)],
    [(15821300, 0), (0, 874843), (0, 45198), (0, 1074), (0, 16)], [(0, 22182), (0, 2034), (0, 71), (0, 1)]], 3, 4⟩,
    1099511627776, 0, 242875124, ⟨[[(53235682653164, 0), (7745802779, 0), (3185287, 0), (3278, 0)], [(4117381093, 0),
    (3050631, 0), (0, 561)], [(0, 876933), (0, 465)], [(252, 0)]], 3, 4⟩, 68719476736, 77245,
    3448015261386021506806481455310063793744747571648942375477917124637935281495385884729207616735, ⟨0, 6,
    1869781301289777, [65716717382, 4635773, 436]⟩⟩) (.sx (.leaf ⟨4525, 16, 82, 6217, 16, 3607, ⟨[[(412316860416,
    0)], [(352187318272, 0)]], 3, 4⟩, ⟨[[(100032231539, 0), (0, 3604792654505), (0, 5698017544), (0, 131155367), (0,
    2742495)], [(0, 127397101232), (0, 262190143), (0, 13405290), (0, 394907), (0, 6689)], [(3764897, 0), (0,
    449639), (0, 20637), (0, 469), (0, 7)], [(0, 5504), (0, 465), (0, 16)]], 3, 4⟩, 1099511627776, 0, 38822650,
    ⟨[[(53126669486733, 0), (5701361932, 0), (1711875, 0), (1357, 0)], [(2049738388, 0), (1142240, 0), (0, 153)],
    [(0, 219468), (0, 88)], [(32, 0)]], 3, 4⟩, 68719476736, 19175,
    3794124884171057909786758757598076912011387634039333485308891644575691896120112704942920097408, ⟨0, 6,
    2509721614798866, [44291535510, 1567509, 74]⟩⟩) (.skip))) (.sy (.sx (.leaf ⟨4587, 16, 82, 6285, 16, 3648, ⟨[[(0,
    137438953472)], [(352187318272, 0)]], 3, 4⟩, ⟨[[(404805674824, 0), (0, 3627358839155), (0, 5964688844), (0,
    142261573), (0, 2961647)], [(0, 125846114378), (0, 275931504), (0, 14309252), (0, 417461), (0, 7069)], [(3362427,
    0), (0, 471874), (0, 21325), (0, 484), (0, 7)], [(0, 5630), (0, 469), (0, 16)]], 3, 4⟩, 1099511627776, 0,
    39140425, ⟨[[(53237706660127, 0), (5698122291, 0), (1654051, 0), (1307, 0)], [(2019901230, 0), (1119432, 0), (0,
    144)], [(0, 213440), (0, 87)], [(31, 0)]], 3, 4⟩, 68719476736, 19081,
    4028711719060651159116950895187363936938577551221568808668303814803237553010668302551571427840, ⟨0, 6,
    2546791805680079, [44194384761, 1543100, 72]⟩⟩) (.skip)) (.skip)))) (.sy (.sx (.sy (.leaf ⟨2332, 16, 41, 4777,
    16, 2767, ⟨[[(0, 137438953472)], [(352187318272, 0)]], 3, 4⟩, ⟨[[(0, 308295143837), (0, 2697542961944), (0,
    3380914686), (0, 78432547), (0, 1770716)], [(0, 183892134329), (0, 264237248), (0, 15130117), (0, 482875), (0,
    8573)], [(14221036, 0), (0, 962551), (0, 47889), (0, 1137), (0, 17)], [(0, 23179), (0, 2051), (0, 72), (0, 1)]],
    3, 4⟩, 1099511627776, 0, 233412557, ⟨[[(53467309977619, 0), (7682425143, 0), (2944032, 0), (2972, 0)],
    [(4003789855, 0), (2907099, 0), (0, 491)], [(0, 830623), (0, 449)], [(233, 0)]], 3, 4⟩, 68719476736, 71101,
    4105574595242843224235766033580631769417103221199116754293620423862117166675414704738958849743, ⟨0, 6,
    1939714448774122, [65937588597, 4528681, 415]⟩⟩) (.sx (.leaf ⟨4648, 16, 82, 6356, 16, 3690, ⟨[[(412316860416,
    0)], [(352187318272, 0)]], 3, 4⟩, ⟨[[(0, 294829876200), (0, 3650078449166), (0, 6203528267), (0, 152448131), (0,
    3166788)], [(0, 124363821397), (0, 287236247), (0, 15073303), (0, 436902), (0, 7406)], [(3020482, 0), (0,
    488173), (0, 21818), (0, 496), (0, 7)], [(0, 5683), (0, 468), (0, 16)]], 3, 4⟩, 1099511627776, 0, 39156055,
    ⟨[[(53352382523868, 0), (5696087679, 0), (1603060, 0), (1258, 0)], [(1992707057, 0), (1096638, 0), (0, 135)],
    [(0, 207835), (0, 85)], [(29, 0)]], 3, 4⟩, 68719476736, 18963,
    4202042085747580231080443088726510823403597548461109876373827932648844052825673926190380124162, ⟨0, 6,
    2584639406029770, [44111759110, 1519837, 70]⟩⟩) (.skip))) (.sy (.sx (.leaf ⟨4710, 16, 82, 6426, 16, 3732, ⟨[[(0,
    137438953472)], [(352187318272, 0)]], 3, 4⟩, ⟨[[(497877263978, 0), (0, 3671823386962), (0, 6402673734), (0,
    161410915), (0, 3352725)], [(0, 122908651648), (0, 295457724), (0, 15674481), (0, 452691), (0, 7693)], [(2744624,
    0), (0, 498151), (0, 22100), (0, 504), (0, 7)], [(0, 5662), (0, 462), (0, 16)]], 3, 4⟩, 1099511627776, 0,
    39245362, ⟨[[(53461784678087, 0), (5691595215, 0), (1550600, 0), (1210, 0)], [(1964751947, 0), (1074467, 0), (0,
    127)], [(0, 202268), (0, 84)], [(28, 0)]], 3, 4⟩, 68719476736, 16581,
    4315182268499636368084278795951863027976877446074576345781790303464292207770382490520108683461, ⟨0, 6,
    2622567753918208, [44031291257, 1497256, 68]⟩⟩) (.skip)) (.skip))) (.skip)))) (.skip)
theorem c60 : checkC job ⟨6, 8, 7, 8, 9, 13⟩ 1 25 lims t60 1808 48 32 51 3 256 = true := by decide +kernel

def t61 : CTree :=
  .sx (.sy (.sy (.sx (.sy (.sx (.leaf ⟨2393, 16, 41, 3370, 16, 1944, ⟨[[(412316860416, 0)], [(352187318272, 0)]], 3,
    4⟩, ⟨[[(0, 356962563931), (0, 3682873487900), (0, 5317483788), (0, 190805207), (0, 11013861)], [(0,
    122343345311), (0, 111736311), (0, 16595008), (0, 1420416), (0, 56916)], [(12865595, 0), (0, 485106), (0, 67387),
    (0, 3579), (0, 118)], [(0, 6638), (0, 1401), (0, 107), (0, 5)]], 3, 4⟩, 1099511627776, 0, 210264803,
    ⟨[[(53864481985967, 0), (11353220649, 0), (6257558, 0), (8456, 0), (0, 1)], [(3961018220, 0), (4033775, 0), (0,
    984), (0, 1)], [(0, 798118), (0, 618)], [(217, 0)]], 3, 4⟩, 68719476736, 71689,
    4347408830724877710230177118736911209212005436545061362481030550690465147306114051114776705583, ⟨0, 6,
    1371556565070016, [45135127962, 3020284, 269]⟩⟩) (.leaf ⟨2424, 16, 41, 3361, 16, 1945, ⟨[[(137438953472, 0)],
    [(352187318272, 0)]], 3, 4⟩, ⟨[[(0, 194706678632), (0, 3701350970511), (0, 7639432777), (0, 364848035), (0,
    17702829)], [(0, 120159308477), (0, 249567776), (0, 32894789), (0, 2253612), (0, 83762)], [(10301145, 0), (0,
    982729), (0, 104401), (0, 5174), (0, 164)], [(0, 11495), (0, 2089), (0, 152), (0, 6)]], 3, 4⟩, 1099511627776, 0,
    301112271, ⟨[[(53864086559485, 0), (11341133774, 0), (5949917, 0), (8436, 0), (0, 1)], [(3869180367, 0),
    (4013574, 0), (0, 916), (0, 1)], [(0, 771649), (0, 624)], [(209, 0)]], 3, 4⟩, 68719476736, 86203,
    4964764141385639543562699454398914022960559102172330219526145459248734543861983971319656480768, ⟨0, 6,
    1376569686466283, [44585512483, 2945660, 259]⟩⟩)) (.sx (.sy (.leaf ⟨2393, 16, 41, 4918, 16, 2850,
    ⟨[[(412316860416, 0)], [(352187318272, 0)]], 3, 4⟩, ⟨[[(0, 177036361602), (0, 2746743011126), (0, 3517516425),
    (0, 86937880), (0, 1965386)], [(0, 180819540320), (0, 272315087), (0, 16208142), (0, 513427), (0, 9173)],
    [(13103898, 0), (0, 995464), (0, 48670), (0, 1162), (0, 18)], [(0, 22879), (0, 1986), (0, 70), (0, 1)]], 3, 4⟩,
    1099511627776, 0, 215755544, ⟨[[(53691024980758, 0), (7616687890, 0), (2729130, 0), (2697, 0)], [(3898643354, 0),
    (2771565, 0), (0, 432)], [(0, 788480), (0, 432)], [(217, 0)]], 3, 4⟩, 68719476736, 61185,
    4489421409200748081119400886527858619540667612795891347874862666087728450182772753893247075023, ⟨0, 6,
    2010769655581041, [66170326487, 4427886, 395]⟩⟩) (.skip)) (.skip))) (.sy (.sy (.sx (.leaf ⟨2455, 16, 41, 5062,
    16, 2934, ⟨[[(0, 137438953472)], [(352187318272, 0)]], 3, 4⟩, ⟨[[(0, 341959753838), (0, 2794179436261), (0,
    3542618187), (0, 91731482), (0, 2096749)], [(0, 177879847746), (0, 266076507), (0, 16470472), (0, 524483), (0,
    9487)], [(12526050, 0), (0, 973464), (0, 47522), (0, 1149), (0, 18)], [(0, 21450), (0, 1848), (0, 66), (0, 1)]],
    3, 4⟩, 1099511627776, 0, 192774907, ⟨[[(53922565223103, 0), (7559088167, 0), (2543608, 0), (2450, 0)],
    [(3800794129, 0), (2641296, 0), (0, 382)], [(0, 749295), (0, 414)], [(201, 0)]], 3, 4⟩, 68719476736, 52697,
    4562188999888431449269252113009274495708555148462725285165765701116348398929754220127939246639, ⟨0, 6,
    2082948386226832, [66414039194, 4332857, 377]⟩⟩) (.skip)) (.skip)) (.skip))) (.skip)) (.skip)) (.skip)
theorem c61 : checkC job ⟨6, 8, 7, 8, 9, 13⟩ 1 25 lims t61 976 48 16 51 3 256 = true := by decide +kernel

def t62 : CTree :=
  .skip
theorem c62 : checkC job ⟨6, 8, 7, 8, 9, 13⟩ 1 25 lims t62 464 48 8 57 3 256 = true := by decide +kernel

def t63 : CTree :=
  .skip
theorem c63 : checkC job ⟨6, 8, 7, 8, 9, 13⟩ 1 25 lims t63 464 48 8 33 3 128 = true := by decide +kernel

def t64 : CTree :=
  .skip
theorem c64 : checkC job ⟨6, 8, 7, 8, 9, 13⟩ 1 25 lims t64 560 48 8 15 3 64 = true := by decide +kernel

def t65 : CTree :=
  .skip
theorem c65 : checkC job ⟨6, 8, 7, 8, 9, 13⟩ 1 25 lims t65 256 48 4 21 3 64 = true := by decide +kernel

def t66 : CTree :=
  .skip
theorem c66 : checkC job ⟨6, 8, 7, 8, 9, 13⟩ 1 25 lims t66 352 48 4 9 3 32 = true := by decide +kernel

def t67 : CTree :=
  .sx (.sx (.out ⟨175, 16, 40, 779, 16, 354, ⟨[[], [(343597383680, 0)]], 1, 1⟩, ⟨[[(86276776879, 0), (0,
    3103572273986)], [(0, 147350743119), (0, 1955475904)]], 1, 1⟩, 1099511627776, 0, 692680412634, ⟨[], 0, 0⟩, 0, 0,
    0, ⟨0, 2, 90639477630675, [109665624403]⟩⟩ 0 1 5869) (.out ⟨205, 16, 40, 769, 16, 355, ⟨[[], [(343597383680,
    0)]], 1, 1⟩, ⟨[[(12823495943, 0), (0, 3313529505677)], [(0, 134131582377), (0, 2239171953)]], 1, 1⟩,
    1099511627776, 0, 667285100691, ⟨[], 0, 0⟩, 0, 0, 0, ⟨0, 2, 100639941647375, [93881451233]⟩⟩ 0 1 4863)) (.sx (.sy
    (.out ⟨235, 16, 40, 1136, 16, 529, ⟨[[], [(343597383680, 0)]], 1, 1⟩, ⟨[[(287736711628, 0), (0, 2592989511533)],
    [(0, 180692764887), (0, 1701099462)]], 1, 1⟩, 1099511627776, 0, 556969932126, ⟨[], 0, 0⟩, 0, 0, 0, ⟨0, 3,
    162501519519051, [122037446557]⟩⟩ 0 1 4315) (.sx (.out ⟨461, 16, 81, 1471, 16, 691, ⟨[[(0, 343597383680)],
    [(347892350976, 0)]], 1, 1⟩, ⟨[[(0, 96989086373), (0, 3459271151303)], [(0, 127353660217), (0, 1374428578)]], 1,
    1⟩, 1099511627776, 0, 319527613665, ⟨[], 0, 0⟩, 0, 0, 0, ⟨0, 3, 208377469127610, [82332623275]⟩⟩ 0 1 3769) (.out
    ⟨491, 16, 81, 1437, 16, 680, ⟨[[(68719476736, 0)], [(347892350976, 0)]], 1, 1⟩, ⟨[[(0, 326011383922), (0,
    3539598238561)], [(0, 122030000893), (0, 1470863838)]], 1, 1⟩, 1099511627776, 0, 338076408430, ⟨[], 0, 0⟩, 0, 0,
    0, ⟨0, 3, 212592746987318, [76010305224]⟩⟩ 0 1 3314))) (.sy (.sx (.out ⟨521, 16, 81, 1507, 16, 709,
    ⟨[[(481036337152, 0)], [(347892350976, 0)]], 1, 1⟩, ⟨[[(431983368311, 0), (0, 3648007332092)], [(0,
    115834996590), (0, 1262103955)]], 1, 1⟩, 1099511627776, 0, 289468395680, ⟨[], 0, 0⟩, 0, 0, 0, ⟨0, 3,
    229041356452007, [74635304414]⟩⟩ 0 1 3674) (.out ⟨552, 16, 81, 1476, 16, 699, ⟨[[(0, 206158430208)],
    [(347892350976, 0)]], 1, 1⟩, ⟨[[(311319216007, 0), (0, 3720340979637)], [(0, 111493541758), (0, 1336318839)]], 1,
    1⟩, 1099511627776, 0, 308637428395, ⟨[], 0, 0⟩, 0, 0, 0, ⟨0, 3, 232676714397016, [69532200824]⟩⟩ 0 1 3266)) (.out
    ⟨265, 16, 40, 1024, 16, 490, ⟨[[], [(343597383680, 0)]], 1, 1⟩, ⟨[[(0, 68956466278), (0, 2713801890024)], [(0,
    170667577409), (0, 2424672515)]], 1, 1⟩, 1099511627776, 0, 598613706304, ⟨[], 0, 0⟩, 0, 0, 0, ⟨0, 3,
    160734285496847, [100243335386]⟩⟩ 0 1 2629)))
theorem c67 : checkC job ⟨6, 8, 7, 8, 9, 13⟩ 1 25 lims t67 176 48 32 51 3 128 = true := by decide +kernel

def t68 : CTree :=
  .sx (.sy (.sx (.out ⟨295, 16, 40, 1079, 16, 516, ⟨[[], [(343597383680, 0)]], 1, 1⟩, ⟨[[(185146957716, 0), (0,
    2896636021925)], [(0, 160010783088), (0, 2208796751)]], 1, 1⟩, 1099511627776, 0, 524570102632, ⟨[], 0, 0⟩, 0, 0,
    0, ⟨0, 3, 178863329775982, [94827213287]⟩⟩ 0 1 2666) (.out ⟨325, 16, 40, 1030, 16, 499, ⟨[[], [(343597383680,
    0)]], 1, 1⟩, ⟨[[(312219594321, 0), (0, 3023616891144)], [(0, 151006844295), (0, 2513373285)]], 1, 1⟩,
    1099511627776, 0, 560419565684, ⟨[], 0, 0⟩, 0, 0, 0, ⟨0, 3, 181354611319896, [83238162981]⟩⟩ 0 1 1878)) (.sx
    (.out ⟨295, 16, 40, 970, 16, 471, ⟨[[], [(343597383680, 0)]], 1, 1⟩, ⟨[[(102719740003, 0), (0, 2855379555435)],
    [(0, 160391702607), (0, 2836329877)]], 1, 1⟩, 1099511627776, 0, 641669669121, ⟨[], 0, 0⟩, 0, 0, 0, ⟨0, 3,
    163264783574588, [86557398175]⟩⟩ 0 1 1741) (.sx (.out ⟨643, 16, 81, 1204, 16, 591, ⟨[[(0, 68719476736)],
    [(347892350976, 0)]], 1, 1⟩, ⟨[[(122941573171, 0), (0, 3860603175149)], [(0, 100201531155), (0, 2090328077)]], 1,
    1⟩, 1099511627776, 0, 559752576693, ⟨[], 0, 0⟩, 0, 0, 0, ⟨0, 3, 212396971987955, [50456724960]⟩⟩ 0 1 1091) (.sy
    (.out ⟨673, 16, 81, 1867, 16, 919, ⟨[[(343597383680, 0)], [(347892350976, 0)]], 1, 1⟩, ⟨[[(294055648053, 0), (0,
    3069135026827)], [(0, 151146302685), (0, 1629662905)]], 1, 1⟩, 1099511627776, 0, 305994722699, ⟨[], 0, 0⟩, 0, 0,
    0, ⟨0, 3, 337635121472304, [74920241470]⟩⟩ 0 1 925) (.sx (.out ⟨1331, 16, 162, 2257, 16, 1119, ⟨[[(481036337152,
    0)], [(347892350976, 0)]], 1, 1⟩, ⟨[[(0, 129216148878), (0, 3933491005966)], [(0, 98474784757), (0,
    1211666450)]], 1, 1⟩, 1099511627776, 0, 294123801403, ⟨[], 0, 0⟩, 0, 0, 0, ⟨0, 3, 408912089981428,
    [46132781033]⟩⟩ 0 1 499) (.leaf ⟨1387, 16, 165, 2206, 16, 1098, ⟨[[(34359738368, 0)], [(354334801920, 0)]], 3,
    4⟩, ⟨[[(78633245554, 0), (0, 3977550192651), (0, 25229753331), (0, 419849475), (0, 8062367)], [(0, 97107274691),
    (0, 1268206139), (0, 26969373), (0, 639295), (0, 19682)], [(0, 2864845), (0, 434459), (0, 16498), (0, 662), (0,
    33)], [(0, 2556), (0, 158), (0, 10), (0, 1)]], 3, 4⟩, 1099511627776, 0, 87944912, ⟨[[(40507643103454, 0),
    (23810264194, 0), (56331104, 0), (21718, 0), (0, 8)], [(6546677116, 0), (7454371, 0), (0, 302), (0, 2)], [(0,
    1663412), (0, 4056)], [(576, 0), (3, 0)]], 3, 4⟩, 68719476736, 86941,
    4483153468939931651722334539062538942411348702614203872025978518032278130796814824745852555880, ⟨0, 3,
    405534941595501, [44257345114, 5141420, 796]⟩⟩)))))) (.sy (.sx (.sy (.out ⟨355, 16, 40, 1425, 16, 696, ⟨[[],
    [(343597383680, 0)]], 1, 1⟩, ⟨[[(0, 80462295490), (0, 2234865561175)], [(0, 202575097750), (0, 1896406824)]], 1,
    1⟩, 1099511627776, 0, 441777528276, ⟨[], 0, 0⟩, 0, 0, 0, ⟨0, 3, 263612299060179, [106288478175]⟩⟩ 0 1 1389) (.out
    ⟨355, 16, 40, 1329, 16, 655, ⟨[[], [(343597383680, 0)]], 1, 1⟩, ⟨[[(227636043876, 0), (0, 2219093876986)], [(0,
    202498289388), (0, 2188833073)]], 1, 1⟩, 1099511627776, 0, 481545883566, ⟨[], 0, 0⟩, 0, 0, 0, ⟨0, 3,
    248083413627036, [100027231616]⟩⟩ 0 1 851)) (.leaf ⟨395, 16, 41, 895, 16, 445, ⟨[[(0, 412316860416)],
    [(352187318272, 0)]], 3, 4⟩, ⟨[[(494373272391, 0), (0, 3215078913303), (0, 36539546853), (0, 1122745405), (0,
    34578182)], [(0, 133951589245), (0, 3256720982), (0, 127988343), (0, 5202936), (0, 217477)], [(0, 8327479), (0,
    3496307), (0, 238413), (0, 14038), (0, 840)], [(0, 36848), (0, 3853), (0, 388), (0, 33), (0, 3)]], 3, 4⟩,
    1099511627776, 0, 1245900656, ⟨[[(41829603260555, 0), (62773433804, 0), (343465292, 0), (319032, 0), (0, 360)],
    [(23955858980, 0), (60947737, 0), (0, 8618), (0, 120), (0, 1)], [(0, 21990419), (0, 103591), (0, 9)], [(29554,
    0), (277, 0)]], 3, 4⟩, 68719476736, 4283037,
    2992839527983164168733033461623241220798295264113031190708454718943237209822586764731865441427, ⟨0, 3,
    174808083037997, [62662047842, 25431026, 13761]⟩⟩)) (.sx (.sy (.leaf ⟨364, 16, 41, 1234, 16, 614, ⟨[[(0,
    137438953472)], [(352187318272, 0)]], 3, 4⟩, ⟨[[(314157726597, 0), (0, 2221283530660), (0, 13461675086), (0,
    214459441), (0, 3639726)], [(0, 203631266302), (0, 2582633513), (0, 52875774), (0, 1145477), (0, 28889)], [(0,
    19087546), (0, 3201061), (0, 113820), (0, 3845), (0, 157)], [(0, 72158), (0, 4101), (0, 229), (0, 12), (0, 1)]],
    3, 4⟩, 1099511627776, 0, 956024015, ⟨[[(41025472997325, 0), (43723042293, 0), (180216445, 0), (123193, 0), (0,
    91)], [(25364919103, 0), (49494080, 0), (0, 4120), (0, 45)], [(0, 24891385), (0, 97821), (0, 5)], [(34513, 0),
    (296, 0)]], 3, 4⟩, 68719476736, 4892024,
    4591790153149203325509671588677521444669564596416030051219398043356638656673210925321749788441, ⟨0, 3,
    232554528193893, [93765985057, 41270240, 24220]⟩⟩) (.leaf ⟨364, 16, 41, 1112, 16, 559, ⟨[[(0, 137438953472)],
    [(352187318272, 0)]], 3, 4⟩, ⟨[[(266971239228, 0), (0, 2193952161867), (0, 16710375993), (0, 317306218), (0,
    7881581)], [(0, 201500235327), (0, 3072708993), (0, 75672719), (0, 2276887), (0, 94463)], [(0, 39609496), (0,
    4725642), (0, 222110), (0, 11819), (0, 708)], [(0, 99320), (0, 8399), (0, 692), (0, 54), (0, 4)]], 3, 4⟩,
    1099511627776, 0, 2167312941, ⟨[[(40503304180775, 0), (43105637490, 0), (211705438, 0), (169342, 0), (0, 133)],
    [(24741201490, 0), (54456644, 0), (0, 3225), (0, 42)], [(0, 23660521), (0, 107318), (0, 6)], [(30782, 0), (326,
    0)]], 3, 4⟩, 68719476736, 4245544,
    3345330677784180807441097594214852566705211900916244256666804293207617201769634592647028266560, ⟨0, 3,
    211723096515287, [85366751867, 37573394, 22050]⟩⟩)) (.sy (.leaf ⟨395, 16, 41, 1125, 16, 568, ⟨[[(0,
    412316860416)], [(352187318272, 0)]], 3, 4⟩, ⟨[[(179181355183, 0), (0, 2315451713865), (0, 18359053466), (0,
    347245905), (0, 8159795)], [(0, 193745729784), (0, 3087898791), (0, 77313757), (0, 2248427), (0, 86678)], [(0,
    39175754), (0, 4483240), (0, 206822), (0, 10215), (0, 584)], [(0, 85579), (0, 7304), (0, 560), (0, 41), (0, 3)]],
    3, 4⟩, 1099511627776, 0, 1704166644, ⟨[[(41037634459089, 0), (41992928576, 0), (202572039, 0), (162815, 0), (0,
    135)], [(23124547709, 0), (47888524, 0), (0, 2912), (0, 34)], [(0, 20581350), (0, 80971), (0, 5)], [(25784, 0),
    (217, 0)]], 3, 4⟩, 68719476736, 3500268,
    1619058365175722548522674692456873883787967220717861524268265784117309233811935311210024369892, ⟨0, 3,
    223125822844006, [79982119492, 32460276, 17565]⟩⟩) (.leaf ⟨395, 16, 41, 977, 16, 499, ⟨[[(0, 412316860416)],
    [(352187318272, 0)]], 3, 4⟩, ⟨[[(0, 241650908022), (0, 2269135003698), (0, 24003610669), (0, 640527026), (0,
    25643348)], [(0, 189496506310), (0, 3842322574), (0, 133025177), (0, 6402073), (0, 376379)], [(0, 67514600), (0,
    7819879), (0, 561342), (0, 42697), (0, 3007)], [(0, 144351), (0, 20055), (0, 2292), (0, 216), (0, 16)]], 3, 4⟩,
    1099511627776, 0, 5894349153, ⟨[[(40529142142219, 0), (41942663725, 0), (254126368, 0), (250382, 0), (0, 226)],
    [(22506181480, 0), (54580094, 0), (0, 2522), (0, 24), (0, 1)], [(0, 19537409), (0, 92010), (0, 7)], [(22985, 0),
    (247, 0)]], 3, 4⟩, 68719476736, 3074409,
    4794935588724754678511757684425495768280387753681247620883539847509496610898117765779056203399, ⟨0, 3,
    196020749294294, [70265981737, 28517038, 15431]⟩⟩))))
theorem c68 : checkC job ⟨6, 8, 7, 8, 9, 13⟩ 1 25 lims t68 272 48 32 51 3 128 = true := by decide +kernel

def t69 : CTree :=
  .sx (.sx (.leaf ⟨425, 16, 41, 810, 16, 408, ⟨[[(412316860416, 0)], [(352187318272, 0)]], 3, 4⟩, ⟨[[(199322253755,
    0), (0, 3267491911428), (0, 47156257137), (0, 1639709900), (0, 61049566)], [(0, 125260971376), (0, 3717033368),
    (0, 171774107), (0, 8387396), (0, 455825)], [(0, 18160862), (0, 4520477), (0, 365105), (0, 26935), (0, 2178)],
    [(0, 40227), (0, 5853), (0, 709), (0, 76), (0, 9)]], 3, 4⟩, 1099511627776, 0, 3016019382, ⟨[[(41829724091665, 0),
    (61863868504, 0), (394904761, 0), (432420, 0), (0, 546)], [(22071420302, 0), (60607604, 0), (0, 6816), (0, 101),
    (0, 1)], [(0, 18587337), (0, 89822), (0, 10)], [(22760, 0), (214, 0)]], 3, 4⟩, 68719476736, 3338792,
    1241576323316350195489098737641246480124533570456670803978045603413999285353119079133578826314, ⟨0, 3,
    165584528586805, [53298792338, 20067316, 10074]⟩⟩) (.leaf ⟨456, 16, 41, 719, 16, 367, ⟨[[(137438953472, 0)],
    [(352187318272, 0)]], 3, 4⟩, ⟨[[(0, 263564768816), (0, 3302983301405), (0, 60968610918), (0, 2502582943), (0,
    122313740)], [(0, 116904949540), (0, 4301561300), (0, 240794267), (0, 14975553), (0, 1144147)], [(0, 28331123),
    (0, 6113121), (0, 608213), (0, 59877), (0, 6827)], [(0, 48548), (0, 9476), (0, 1446), (0, 213), (0, 32)]], 3, 4⟩,
    1099511627776, 0, 9436467569, ⟨[[(41861538239441, 0), (61572217711, 0), (470307953, 0), (624115, 0), (0, 890)],
    [(20387064975, 0), (61949588, 0), (0, 6312), (0, 64), (0, 2)], [(0, 15852691), (0, 80740), (0, 13)], [(17775, 0),
    (172, 0)]], 3, 4⟩, 68719476736, 2298047,
    2289694055595665955290912895756793856878017503810693804431326111641433205021286902949111697994, ⟨0, 3,
    153388664817700, [44710688296, 15698978, 7350]⟩⟩)) (.sx (.sy (.leaf ⟨487, 16, 41, 1051, 16, 541, ⟨[[(0,
    137438953472)], [(352187318272, 0)]], 3, 4⟩, ⟨[[(467500380220, 0), (0, 2606596280997), (0, 27124862929), (0,
    605946927), (0, 16358293)], [(0, 170987568157), (0, 3511173609), (0, 108254275), (0, 3713957), (0, 156978)], [(0,
    48472343), (0, 5191027), (0, 282267), (0, 15325), (0, 971)], [(0, 75978), (0, 8307), (0, 694), (0, 57), (0, 5)]],
    3, 4⟩, 1099511627776, 0, 1854629246, ⟨[[(42113372227187, 0), (39223216277, 0), (211061420, 0), (201360, 0), (0,
    201)], [(19106733725, 0), (38988993, 0), (0, 2932), (0, 5)], [(0, 13911700), (0, 45280), (0, 6)], [(14583, 0),
    (87, 0)]], 3, 4⟩, 68719476736, 2027125,
    798772308054882733653551718172148388840845292709174447352104480979722182399649317851933554396, ⟨0, 4,
    232235526500120, [61746018378, 20311190, 8908]⟩⟩) (.leaf ⟨487, 16, 41, 871, 16, 455, ⟨[[(0, 137438953472)],
    [(352187318272, 0)]], 3, 4⟩, ⟨[[(499353398430, 0), (0, 2537957021263), (0, 36837865306), (0, 1217977208), (0,
    58666945)], [(0, 165728919551), (0, 4570218679), (0, 203487531), (0, 11970633), (0, 825075)], [(0, 79990879), (0,
    9894460), (0, 867062), (0, 78135), (0, 6433)], [(0, 146065), (0, 25927), (0, 3549), (0, 397), (0, 35)]], 3, 4⟩,
    1099511627776, 0, 8590552300, ⟨[[(41559582605329, 0), (39094951698, 0), (284858803, 0), (359149, 0), (0, 399)],
    [(18506721909, 0), (46467838, 0), (0, 4593), (32, 0), (0, 1)], [(0, 13217069), (0, 53625), (0, 8)], [(13247, 0),
    (103, 0)]], 3, 4⟩, 68719476736, 1642890,
    4289159914849791701669864452746009043768641445679267058491904783428148268123795934186094136424, ⟨0, 4,
    195318233932633, [51930569985, 17082424, 7492]⟩⟩)) (.sy (.leaf ⟨518, 16, 41, 917, 16, 479, ⟨[[(0, 412316860416)],
    [(352187318272, 0)]], 3, 4⟩, ⟨[[(319897225373, 0), (0, 2656531079636), (0, 36251394814), (0, 1044534360), (0,
    41672314)], [(0, 161782489963), (0, 4254440183), (0, 169296628), (0, 8320222), (0, 520022)], [(0, 67167967), (0,
    7755046), (0, 579548), (0, 46822), (0, 3869)], [(0, 106444), (0, 16302), (0, 2007), (0, 224), (0, 21)]], 3, 4⟩,
    1099511627776, 0, 5046599516, ⟨[[(42123170311983, 0), (38487594959, 0), (256945948, 0), (308597, 0), (0, 345)],
    [(17726249307, 0), (41239675, 0), (0, 4595), (27, 0), (0, 1)], [(0, 12062535), (0, 42951), (0, 7)], [(11665, 0),
    (75, 0)]], 3, 4⟩, 68719476736, 1616254,
    2500066806574345507963466684833175949958279301899628395369503183122056966452598582197341313902, ⟨0, 4,
    210709959564874, [51422056081, 15910290, 6564]⟩⟩) (.sy (.leaf ⟨518, 16, 41, 1059, 16, 560, ⟨[[(0, 412316860416)],
    [(352187318272, 0)]], 3, 4⟩, ⟨[[(0, 230635106578), (0, 1793306690558), (0, 17105126034), (0, 379223293), (0,
    11632485)], [(0, 216765997239), (0, 3842708992), (0, 115119961), (0, 4438924), (0, 175121)], [(0, 140696901), (0,
    10546713), (0, 607845), (0, 32051), (0, 1391)], [(0, 295828), (0, 35008), (0, 2828), (0, 167), (0, 7)]], 3, 4⟩,
    1099511627776, 0, 10487786401, ⟨[[(41724664299654, 0), (28108325057, 0), (180231742, 0), (202738, 0), (0, 184)],
    [(17264700274, 0), (35374291, 0), (0, 4380), (35, 0)], [(0, 11583391), (0, 36600), (0, 5)], [(10827, 0), (64,
    0)]], 3, 4⟩, 68719476736, 1414787,
    4370008266321947198024346083854915762254423202449650067987056427272743332574037968636417892894, ⟨0, 4,
    246341497612379, [60117643852, 18600756, 7674]⟩⟩) (.sx (.leaf ⟨1020, 16, 82, 1473, 16, 783, ⟨[[(0,
    137438953472)], [(352187318272, 0)]], 3, 4⟩, ⟨[[(158595462186, 0), (0, 2688558121363), (0, 31217357371), (0,
    858334899), (0, 29378593)], [(0, 164260311269), (0, 3461278262), (0, 128907942), (0, 5676658), (0, 229091)], [(0,
    67819727), (0, 5979809), (0, 395429), (0, 21543), (0, 917)], [(0, 86173), (0, 11696), (0, 978), (0, 57), (0,
    2)]], 3, 4⟩, 1099511627776, 0, 1717844197, ⟨[[(41437846002428, 0), (18490565862, 0), (90477997, 0), (75523, 0),
    (0, 47)], [(8626833485, 0), (12881881, 0), (0, 1262), (8, 0)], [(0, 2909214), (0, 6818), (0, 1)], [(1348, 0), (6,
    0)]], 3, 4⟩, 68719476736, 171401,
    4669293096692098764883815185644601241683205349765706663724391241330001226183447797936834031805, ⟨0, 4,
    342405694251419, [42662272333, 6699477, 1403]⟩⟩) (.sy (.leaf ⟨1051, 16, 82, 1854, 16, 993, ⟨[[(0, 412316860416)],
    [(352187318272, 0)]], 3, 4⟩, ⟨[[(498536252840, 0), (0, 1873118803677), (0, 13184825394), (0, 210995912), (0,
    3872203)], [(0, 219596195749), (0, 2776414493), (0, 61146273), (0, 1466318), (0, 30394)], [(0, 110033402), (0,
    5535753), (0, 200545), (0, 5634), (0, 120)], [(0, 156832), (0, 11688), (0, 504), (0, 15)]], 3, 4⟩, 1099511627776,
    0, 2019244677, ⟨[[(41504213537095, 0), (13331326103, 0), (54642463, 0), (38198, 0), (0, 19)], [(8311812895, 0),
    (9862843, 0), (0, 990), (5, 0)], [(0, 2717765), (0, 4943)], [(1214, 0), (4, 0)]], 3, 4⟩, 68719476736, 148537,
    4264599503885111078979714708883462087563110237416434973078524344403952960625193069966554239613, ⟨0, 4,
    439355885638487, [52520721732, 8006208, 1627]⟩⟩) (.sx (.leaf ⟨2099, 16, 165, 2627, 16, 1411, ⟨[[(0,
    446676598784)], [(354334801920, 0)]], 3, 4⟩, ⟨[[(191285014311, 0), (0, 2804800094409), (0, 22545535824), (0,
    395194388), (0, 7426527)], [(0, 164783596895), (0, 2354702720), (0, 57371306), (0, 1422029), (0, 29354)], [(0,
    48065853), (0, 2620330), (0, 98424), (0, 2760), (0, 58)], [(0, 37675), (0, 2909), (0, 125), (0, 4)]], 3, 4⟩,
    1099511627776, 0, 270832322, ⟨[[(41370851548139, 0), (8926954296, 0), (26768572, 0), (13437, 0), (0, 5)],
    [(4126200278, 0), (3480685, 0), (0, 261), (1, 0)], [(0, 671830), (0, 876)], [(148, 0)]], 3, 4⟩, 68719476736,
    74447, 3723402861064814172067184855614073353010073856729398938543017048096986040548176750727091454810, ⟨0, 4,
    622503579119523, [37589617160, 2886181, 295]⟩⟩) (.sy (.leaf ⟨2130, 16, 165, 3408, 16, 1838, ⟨[[(0,
    515396075520)], [(354334801920, 0)]], 3, 4⟩, ⟨[[(291206117056, 0), (0, 1937143370833), (0, 8694996607), (0,
    81308815), (0, 781903)], [(0, 222649726631), (0, 1772654933), (0, 23273356), (0, 296832), (0, 3086)], [(0,
    72572022), (0, 2103640), (0, 40745), (0, 576), (0, 6)], [(0, 60030), (0, 2390), (0, 52), (0, 1)]], 3, 4⟩,
    1099511627776, 0, 329872310, ⟨[[(41404176863258, 0), (6497626761, 0), (15513374, 0), (6181, 0), (0, 2)],
    [(4048132145, 0), (2635772, 0), (0, 173)], [(0, 649190), (0, 646)], [(141, 0)]], 3, 4⟩, 68719476736, 83360,
    4028217925376708452193355571270921936093734659284815962423639566746796938871581514950894609787, ⟨0, 4,
    815553350378481, [48253714845, 3651159, 368]⟩⟩) (.skip))))))))
theorem c69 : checkC job ⟨6, 8, 7, 8, 9, 13⟩ 1 25 lims t69 368 48 32 99 3 256 = true := by decide +kernel

def t70 : CTree :=
  .sx (.sy (.leaf ⟨548, 16, 41, 1149, 16, 607, ⟨[[(412316860416, 0)], [(352187318272, 0)]], 3, 4⟩, ⟨[[(0,
    22673684642), (0, 1894302139260), (0, 16045223132), (0, 291368880), (0, 7611053)], [(0, 214783514608), (0,
    3451137748), (0, 86366522), (0, 2802282), (0, 106083)], [(0, 113500192), (0, 7485413), (0, 365812), (0, 18279),
    (0, 821)], [(0, 194906), (0, 19726), (0, 1511), (0, 92), (0, 4)]], 3, 4⟩, 1099511627776, 0, 5489863021,
    ⟨[[(42262755006267, 0), (27225921816, 0), (153822209, 0), (159386, 0), (0, 140)], [(16632262176, 0), (30747914,
    0), (0, 3905), (26, 0)], [(0, 10696024), (0, 29049), (0, 4)], [(9686, 0), (47, 0)]], 3, 4⟩, 68719476736, 1198803,
    2436981586144894016359221078471161230611842940452918621795953799824142803419039596931529722149, ⟨0, 4,
    273093491724561, [61509218819, 17964141, 6995]⟩⟩) (.sx (.leaf ⟨1081, 16, 82, 1588, 16, 843, ⟨[[(412316860416,
    0)], [(352187318272, 0)]], 3, 4⟩, ⟨[[(0, 381125173504), (0, 2800891211390), (0, 27800787893), (0, 626070825), (0,
    19574009)], [(0, 160765126868), (0, 2974730484), (0, 91352822), (0, 3601392), (0, 146072)], [(0, 52656542), (0,
    4016775), (0, 237548), (0, 12882), (0, 575)], [(0, 53895), (0, 6582), (0, 547), (0, 33), (0, 2)]], 3, 4⟩,
    1099511627776, 0, 967893200, ⟨[[(41991933500108, 0), (18214525778, 0), (78375827, 0), (60579, 0), (0, 37)],
    [(8310329495, 0), (11246053, 0), (0, 1120), (6, 0)], [(0, 2687425), (0, 5415), (0, 1)], [(1213, 0), (4, 0)]], 3,
    4⟩, 68719476736, 166065,
    2989873076347527683054921351076468983411456175691959131702294480315928065204348395014901201201, ⟨0, 4,
    377206843176573, [43319198972, 6415758, 1267]⟩⟩) (.leaf ⟨1112, 16, 82, 1413, 16, 757, ⟨[[(137438953472, 0)],
    [(352187318272, 0)]], 3, 4⟩, ⟨[[(0, 394401272738), (0, 2811056853297), (0, 35333235221), (0, 1011369182), (0,
    36367498)], [(0, 155023937273), (0, 3570146959), (0, 140592863), (0, 6526361), (0, 278328)], [(0, 65250189), (0,
    6024921), (0, 421790), (0, 24258), (0, 1084)], [(0, 79855), (0, 11551), (0, 1019), (0, 62), (0, 3)]], 3, 4⟩,
    1099511627776, 0, 1729031648, ⟨[[(41994619317548, 0), (18183954624, 0), (93820298, 0), (86956, 0), (0, 58)],
    [(7988778962, 0), (12205310, 0), (0, 1798), (11, 0)], [(0, 2505307), (0, 5578), (0, 1)], [(1086, 0), (4, 0)]], 3,
    4⟩, 68719476736, 205160,
    4415363325343416686060632397457650786211592461062175743811188830652305065454690123155601039742, ⟨0, 4,
    342407763140972, [37824347400, 5447055, 1046]⟩⟩))) (.sy (.sx (.leaf ⟨1143, 16, 82, 1487, 16, 796, ⟨[[(0,
    137438953472)], [(352187318272, 0)]], 3, 4⟩, ⟨[[(535655992027, 0), (0, 2873158659000), (0, 32672359012), (0,
    831933642), (0, 28414548)], [(0, 153992446011), (0, 3248588633), (0, 113962968), (0, 4971345), (0, 212420)], [(0,
    56216058), (0, 4745799), (0, 312028), (0, 17900), (0, 819)], [(0, 60476), (0, 8247), (0, 726), (0, 45), (0, 2)]],
    3, 4⟩, 1099511627776, 0, 1242500395, ⟨[[(42261256767293, 0), (17852312652, 0), (85071683, 0), (74838, 0), (0,
    49)], [(7850105531, 0), (11286032, 0), (0, 1631), (9, 0)], [(0, 2413111), (0, 4939), (0, 1)], [(1030, 0), (4,
    0)]], 3, 4⟩, 68719476736, 143871,
    3393952741438159972361497415187713672675570910508862554102847271745623439543436529445426729546, ⟨0, 4,
    363814699046870, [38702899545, 5423613, 1013]⟩⟩) (.leaf ⟨1174, 16, 82, 1307, 16, 706, ⟨[[(0, 412316860416)],
    [(352187318272, 0)]], 3, 4⟩, ⟨[[(0, 97087309849), (0, 2871401532292), (0, 41918972367), (0, 1350187244), (0,
    51930159)], [(0, 147924973125), (0, 3944910394), (0, 177080881), (0, 8878958), (0, 392513)], [(0, 70075775), (0,
    7200674), (0, 546389), (0, 32617), (0, 1485)], [(0, 90826), (0, 14252), (0, 1303), (0, 81), (0, 4)]], 3, 4⟩,
    1099511627776, 0, 2179246059, ⟨[[(42273793290265, 0), (17997212300, 0), (104175838, 0), (111509, 0), (0, 81)],
    [(7555978030, 0), (12447373, 0), (0, 2630), (16, 0)], [(0, 2258415), (0, 5181), (0, 1)], [(928, 0), (4, 0)]], 3,
    4⟩, 68719476736, 173032,
    4865289456577702657727961212335418183295284798276781439862618101126623671006861650610153699036, ⟨0, 4,
    325931704786522, [33427547665, 4561619, 830]⟩⟩)) (.sx (.sy (.leaf ⟨1143, 16, 82, 1820, 16, 982, ⟨[[(0,
    137438953472)], [(352187318272, 0)]], 3, 4⟩, ⟨[[(0, 311955458370), (0, 1992661457223), (0, 14942761466), (0,
    247411782), (0, 4758248)], [(0, 211543439562), (0, 2881951995), (0, 66448754), (0, 1671118), (0, 36429)], [(0,
    105996550), (0, 5558226), (0, 211574), (0, 6237), (0, 140)], [(0, 144830), (0, 11380), (0, 514), (0, 16)]], 3,
    4⟩, 1099511627776, 0, 1815937401, ⟨[[(42063511317049, 0), (12879113469, 0), (54140740, 0), (41082, 0), (0, 21)],
    [(7717536782, 0), (9182561, 0), (0, 1300), (6, 0)], [(0, 2355279), (0, 3992)], [(986, 0), (3, 0)]], 3, 4⟩,
    68719476736, 109892,
    3454858492606259049230594209946826066960244200063977005283254467882516618902966795030696423742, ⟨0, 4,
    448826676462344, [47746541901, 6690939, 1250]⟩⟩) (.sx (.leaf ⟨2284, 16, 165, 2515, 16, 1362, ⟨[[(240518168576,
    0)], [(354334801920, 0)]], 3, 4⟩, ⟨[[(0, 48406009236), (0, 2933110805173), (0, 25352151659), (0, 464669046), (0,
    9191920)], [(0, 155963593854), (0, 2427347915), (0, 62508690), (0, 1631665), (0, 35417)], [(0, 46048542), (0,
    2640297), (0, 104545), (0, 3076), (0, 68)], [(0, 34984), (0, 2853), (0, 129), (0, 4)]], 3, 4⟩, 1099511627776, 0,
    260356661, ⟨[[(41918984879340, 0), (8714895426, 0), (27718823, 0), (15591, 0), (0, 6)], [(3823252852, 0),
    (3319601, 0), (0, 365), (1, 0)], [(0, 580822), (0, 723)], [(120, 0)]], 3, 4⟩, 68719476736, 63774,
    3716871448154689898718078787941290758032213527689927617402372404095217656049266188325747201951, ⟨0, 4,
    620912343788129, [33335630940, 2351554, 221]⟩⟩) (.leaf ⟨2315, 16, 165, 2303, 16, 1254, ⟨[[(171798691840, 0)],
    [(354334801920, 0)]], 3, 4⟩, ⟨[[(0, 427578995852), (0, 2940021149040), (0, 29868584506), (0, 601567341), (0,
    12242051)], [(0, 152726476610), (0, 2783427895), (0, 79726463), (0, 2156342), (0, 46961)], [(0, 53270953), (0,
    3335408), (0, 137111), (0, 4051), (0, 89)], [(0, 43971), (0, 3716), (0, 168), (0, 5)]], 3, 4⟩, 1099511627776, 0,
    337019188, ⟨[[(41921675646524, 0), (8764152916, 0), (31922815, 0), (20422, 0), (0, 8)], [(3742784358, 0),
    (3569313, 0), (0, 493), (2, 0)], [(0, 560266), (0, 757)], [(113, 0)]], 3, 4⟩, 68719476736, 61501,
    3974450675753002003217595867951349632497050882268210251714986842246926067585256585043370322688, ⟨0, 4,
    574603687250621, [30282135159, 2107610, 196]⟩⟩))) (.sy (.sx (.leaf ⟨2346, 16, 165, 2399, 16, 1305,
    ⟨[[(103079215104, 0)], [(354334801920, 0)]], 3, 4⟩, ⟨[[(123129761058, 0), (0, 2968585452924), (0, 27965844873),
    (0, 540536755), (0, 10965327)], [(0, 152448450970), (0, 2587454716), (0, 70780928), (0, 1900817), (0, 41807)],
    [(0, 48305692), (0, 2914928), (0, 118857), (0, 3543), (0, 79)], [(0, 37694), (0, 3164), (0, 144), (0, 4)]], 3,
    4⟩, 1099511627776, 0, 288149559, ⟨[[(42057259076391, 0), (8665302326, 0), (29589428, 0), (18101, 0), (0, 7)],
    [(3716282715, 0), (3383381, 0), (0, 449), (1, 0)], [(0, 551491), (0, 703)], [(111, 0)]], 3, 4⟩, 68719476736,
    66977, 3838878910576606468864183446582294515739388624430153209360287702916730563336230888579919780672, ⟨0, 4,
    600978017037106, [31098139906, 2135861, 196]⟩⟩) (.leaf ⟨2377, 16, 165, 2184, 16, 1195, ⟨[[(34359738368, 0)],
    [(354334801920, 0)]], 3, 4⟩, ⟨[[(328334213468, 0), (0, 2973215968823), (0, 32961601863), (0, 695813066), (0,
    14462697)], [(0, 149152204152), (0, 2971919283), (0, 89824701), (0, 2487135), (0, 54780)], [(0, 55888996), (0,
    3663989), (0, 154275), (0, 4609), (0, 102)], [(0, 47124), (0, 4076), (0, 186), (0, 6)]], 3, 4⟩, 1099511627776, 0,
    369591817, ⟨[[(42055210108922, 0), (8686517754, 0), (34354854, 0), (24135, 0), (0, 10)], [(3635674269, 0),
    (3662742, 0), (0, 613), (2, 0)], [(0, 531809), (0, 741)], [(105, 0)]], 3, 4⟩, 68719476736, 46399,
    3926150444140853582836342549501177666373108299239350511426052417808917651818377054076808534412, ⟨0, 4,
    553036774896788, [28106209423, 1905247, 172]⟩⟩)) (.sx (.sy (.leaf ⟨2346, 16, 165, 3045, 16, 1665,
    ⟨[[(103079215104, 0)], [(354334801920, 0)]], 3, 4⟩, ⟨[[(0, 313567931554), (0, 2078082067730), (0, 11733615653),
    (0, 124683694), (0, 1289406)], [(0, 211432156303), (0, 2141410040), (0, 32614379), (0, 449848), (0, 4914)], [(0,
    81894257), (0, 2699377), (0, 56639), (0, 840), (0, 9)], [(0, 70546), (0, 3040), (0, 69), (0, 1)]], 3, 4⟩,
    1099511627776, 0, 381954546, ⟨[[(41954496011214, 0), (6224134017, 0), (17760490, 0), (8879, 0), (0, 3)],
    [(3674330440, 0), (2661074, 0), (0, 310), (1, 0)], [(0, 542798), (0, 550)], [(108, 0)]], 3, 4⟩, 68719476736,
    65429, 2778170756979701085165681256972286057116853134216240415954404297450667760713272796392596807780, ⟨0, 4,
    766765056219756, [39676937121, 2725064, 250]⟩⟩) (.skip)) (.skip)))))
theorem c70 : checkC job ⟨6, 8, 7, 8, 9, 13⟩ 1 25 lims t70 880 48 64 195 3 512 = true := by decide +kernel

def t71 : CTree :=
  .sx (.sy (.sx (.sy (.leaf ⟨1204, 16, 82, 1698, 16, 924, ⟨[[(412316860416, 0)], [(352187318272, 0)]], 3, 4⟩,
    ⟨[[(508128657344, 0), (0, 2062399034699), (0, 18000980556), (0, 331120734), (0, 6719197)], [(0, 204679881671),
    (0, 3242052973), (0, 84104648), (0, 2247512), (0, 50395)], [(0, 115359060), (0, 6677440), (0, 270666), (0, 8209),
    (0, 186)], [(0, 165492), (0, 13839), (0, 642), (0, 20)]], 3, 4⟩, 1099511627776, 0, 2092917440,
    ⟨[[(42331473871450, 0), (12528122919, 0), (58859997, 0), (51368, 0), (0, 28)], [(7305941033, 0), (9323437, 0),
    (0, 1846), (8, 0)], [(0, 2130493), (0, 3702)], [(847, 0), (3, 0)]], 3, 4⟩, 68719476736, 125078,
    3743238161661692474502470995203651753003823776888412184542406521714111897566190656059359924810, ⟨0, 4,
    430719366869441, [42632363183, 5669197, 1005]⟩⟩) (.sx (.leaf ⟨2408, 16, 165, 2290, 16, 1251, ⟨[[(0,
    34359738368)], [(354334801920, 0)]], 3, 4⟩, ⟨[[(23682646428, 0), (0, 3002662895620), (0, 30675765592), (0,
    621734701), (0, 12894059)], [(0, 149027721946), (0, 2745471813), (0, 79255535), (0, 2181403), (0, 48543)], [(0,
    50351376), (0, 3180926), (0, 133016), (0, 4011), (0, 90)], [(0, 40114), (0, 3451), (0, 159), (0, 5)]], 3, 4⟩,
    1099511627776, 0, 312695644, ⟨[[(42198537121066, 0), (8635241595, 0), (31561078, 0), (20971, 0), (0, 8)],
    [(3615619749, 0), (3451594, 0), (0, 544), (2, 0)], [(0, 524683), (0, 685)], [(103, 0)]], 3, 4⟩, 68719476736,
    65770, 3856426950086497222753112433712405824888705271472054107945434385635824003631833720277374917590, ⟨0, 4,
    581759557713212, [29045290679, 1943609, 173]⟩⟩) (.leaf ⟨2439, 16, 165, 2075, 16, 1140, ⟨[[(0, 103079215104)],
    [(354334801920, 0)]], 3, 4⟩, ⟨[[(0, 487685195174), (0, 3006165948199), (0, 36144372800), (0, 795320359), (0,
    16841264)], [(0, 145737468783), (0, 3155976400), (0, 99996841), (0, 2825728), (0, 62876)], [(0, 58219644), (0,
    3974984), (0, 170864), (0, 5155), (0, 114)], [(0, 49836), (0, 4398), (0, 203), (0, 6)]], 3, 4⟩, 1099511627776, 0,
    396455081, ⟨[[(42202077187689, 0), (8707179223, 0), (36991452, 0), (28358, 0), (0, 12)], [(3539095199, 0),
    (3758373, 0), (0, 743), (2, 0)], [(0, 506638), (0, 726)], [(97, 0)]], 3, 4⟩, 68719476736, 74824,
    3713181149483265570398107695511889151295173958499346454951111790544884426419321404549338603165, ⟨0, 4,
    532665360207433, [26132382638, 1726505, 152]⟩⟩))) (.sy (.sx (.leaf ⟨2470, 16, 165, 2189, 16, 1201, ⟨[[(0,
    171798691840)], [(354334801920, 0)]], 3, 4⟩, ⟨[[(465159745164, 0), (0, 3036716441051), (0, 33447442155), (0,
    706967482), (0, 14949151)], [(0, 145766802921), (0, 2898314408), (0, 87728637), (0, 2466785), (0, 55481)], [(0,
    52130366), (0, 3429918), (0, 146587), (0, 4466), (0, 100)], [(0, 42152), (0, 3703), (0, 172), (0, 5)]], 3, 4⟩,
    1099511627776, 0, 336058495, ⟨[[(42336466937452, 0), (8573316869, 0), (33524501, 0), (24200, 0), (0, 10)],
    [(3518424442, 0), (3521493, 0), (0, 654), (2, 0)], [(0, 499671), (0, 668)], [(96, 0)]], 3, 4⟩, 68719476736,
    35991, 3753192424995445719615736494512927507744873495585663394668408408845357717750842651616924476563, ⟨0, 4,
    563793953686003, [27185842219, 1773607, 154]⟩⟩) (.leaf ⟨2501, 16, 165, 1973, 16, 1089, ⟨[[(0, 240518168576)],
    [(354334801920, 0)]], 3, 4⟩, ⟨[[(304948865412, 0), (0, 3037712037623), (0, 39340366348), (0, 897673473), (0,
    19324168)], [(0, 142422291050), (0, 3329114857), (0, 109907960), (0, 3161594), (0, 71017)], [(0, 60151267), (0,
    4255603), (0, 186245), (0, 5670), (0, 127)], [(0, 51975), (0, 4666), (0, 217), (0, 7)]], 3, 4⟩, 1099511627776, 0,
    421409979, ⟨[[(42337151828771, 0), (8621714825, 0), (39579175, 0), (33254, 0), (0, 15)], [(3442060579, 0),
    (3858909, 0), (0, 903), (3, 0)], [(0, 482428), (0, 712)], [(90, 0)]], 3, 4⟩, 68719476736, 44947,
    3652324616072922302087971030017538842240246767457117922587425261935406154808359304936078142903, ⟨0, 4,
    513568758703374, [24345653644, 1568663, 135]⟩⟩)) (.sx (.sy (.leaf ⟨2470, 16, 165, 2769, 16, 1528, ⟨[[(0,
    171798691840)], [(354334801920, 0)]], 3, 4⟩, ⟨[[(0, 147643229728), (0, 2154422160132), (0, 14336820706), (0,
    164977353), (0, 1767551)], [(0, 204626281568), (0, 2455564336), (0, 40952722), (0, 587034), (0, 6540)], [(0,
    90312237), (0, 3219459), (0, 70235), (0, 1061), (0, 12)], [(0, 79951), (0, 3576), (0, 83), (0, 1)]], 3, 4⟩,
    1099511627776, 0, 426788213, ⟨[[(42233867798826, 0), (6084681651, 0), (20140927, 0), (11994, 0), (0, 4)],
    [(3474014524, 0), (2781614, 0), (0, 455), (1, 0)], [(0, 491279), (0, 524)], [(93, 0)]], 3, 4⟩, 68719476736,
    40617, 3460387622877313592631082377840463099307286290019317520264170417942897766870283032047315215858, ⟨0, 4,
    717299884456463, [34587815913, 2256512, 196]⟩⟩) (.skip)) (.skip)))) (.sx (.sy (.sx (.sy (.leaf ⟨2408, 16, 165,
    2903, 16, 1595, ⟨[[(0, 34359738368)], [(354334801920, 0)]], 3, 4⟩, ⟨[[(297647206349, 0), (0, 2117561313319), (0,
    13024985964), (0, 144407225), (0, 1521698)], [(0, 208086465232), (0, 2301893032), (0, 36801041), (0, 518143), (0,
    5719)], [(0, 86398171), (0, 2969278), (0, 63616), (0, 952), (0, 10)], [(0, 75673), (0, 3327), (0, 76), (0, 1)]],
    3, 4⟩, 1099511627776, 0, 407350810, ⟨[[(42090772008124, 0), (6132736185, 0), (18903034, 0), (10328, 0), (0, 3)],
    [(3570301131, 0), (2719072, 0), (0, 378), (1, 0)], [(0, 515720), (0, 536)], [(100, 0)]], 3, 4⟩, 68719476736,
    34987, 3160016930339693543004169763281298355490682408065162702222859488365331264952900447017149385090, ⟨0, 4,
    741731810193904, [37032165174, 2478062, 221]⟩⟩) (.skip)) (.skip)) (.skip)) (.skip))) (.sy (.sx (.sy (.sx (.sy
    (.leaf ⟨2532, 16, 165, 2647, 16, 1467, ⟨[[(0, 309237645312)], [(354334801920, 0)]], 3, 4⟩, ⟨[[(0, 178647168968),
    (0, 2191548542972), (0, 15660939169), (0, 186154502), (0, 2024193)], [(0, 201340949809), (0, 2601325609), (0,
    45000960), (0, 655350), (0, 7366)], [(0, 93615791), (0, 3445320), (0, 76366), (0, 1164), (0, 13)], [(0, 83320),
    (0, 3784), (0, 88), (0, 1)]], 3, 4⟩, 1099511627776, 0, 439170325, ⟨[[(42375585442811, 0), (6020660522, 0),
    (21347901, 0), (13839, 0), (0, 5)], [(3381637466, 0), (2843601, 0), (0, 541), (1, 0)], [(0, 468569), (0, 512)],
    [(86, 0)]], 3, 4⟩, 68719476736, 71398,
    3597631535950747913175696510695409980643843806467312044466595556158229549539455510522195233061, ⟨0, 4,
    694961415326760, [32395442743, 2061828, 175]⟩⟩) (.skip)) (.skip)) (.skip)) (.skip)) (.skip))
theorem c71 : checkC job ⟨6, 8, 7, 8, 9, 13⟩ 1 25 lims t71 976 48 64 195 3 512 = true := by decide +kernel

def t72 : CTree :=
  .sx (.sx (.sy (.sx (.sy (.leaf ⟨1081, 16, 82, 1953, 16, 1045, ⟨[[(412316860416, 0)], [(352187318272, 0)]], 3, 4⟩,
    ⟨[[(184491758119, 0), (0, 1920055225958), (0, 12193756857), (0, 178016963), (0, 3195447)], [(0, 218669267173),
    (0, 2529612640), (0, 50649229), (0, 1176304), (0, 24713)], [(0, 95444044), (0, 4459830), (0, 156141), (0, 4430),
    (0, 97)], [(0, 121914), (0, 8800), (0, 383), (0, 11)]], 3, 4⟩, 1099511627776, 0, 1477037019, ⟨[[(41776090672065,
    0), (13133958672, 0), (49500915, 0), (32777, 0), (0, 16)], [(8169366945, 0), (9097227, 0), (0, 892), (4, 0)],
    [(0, 2619735), (0, 4357)], [(1157, 0), (4, 0)]], 3, 4⟩, 68719476736, 140639,
    3046458620621513926839515377488132102665126886897072655018913093311691369097190531338640275411, ⟨0, 4,
    467593299074162, [53699362901, 7953105, 1571]⟩⟩) (.leaf ⟨1081, 16, 82, 1775, 16, 955, ⟨[[(412316860416, 0)],
    [(352187318272, 0)]], 3, 4⟩, ⟨[[(0, 25891540861), (0, 1908857656396), (0, 14822474100), (0, 253631374), (0,
    4815345)], [(0, 215638103973), (0, 3005594552), (0, 71468393), (0, 1782933), (0, 37645)], [(0, 117817835), (0,
    6312956), (0, 238481), (0, 6828), (0, 147)], [(0, 174860), (0, 13599), (0, 597), (0, 18)]], 3, 4⟩, 1099511627776,
    0, 2293240208, ⟨[[(41640912247536, 0), (13222579558, 0), (57995186, 0), (43824, 0), (0, 22)], [(8071714172, 0),
    (9977059, 0), (0, 1232), (6, 0)], [(0, 2573063), (0, 4759)], [(1119, 0), (4, 0)]], 3, 4⟩, 68719476736, 134702,
    4709211682390516505857572063882163529921407221075109127227961823389782865539699062216096821981, ⟨0, 4,
    427322105852464, [49074537388, 7268148, 1435]⟩⟩)) (.sy (.leaf ⟨1112, 16, 82, 1698, 16, 918, ⟨[[(137438953472,
    0)], [(352187318272, 0)]], 3, 4⟩, ⟨[[(244406306098, 0), (0, 1944368762150), (0, 16608485093), (0, 302234454), (0,
    5912774)], [(0, 211814231632), (0, 3248079489), (0, 82877890), (0, 2140072), (0, 45910)], [(0, 125679656), (0,
    7142807), (0, 279759), (0, 8140), (0, 177)], [(0, 193344), (0, 15590), (0, 695), (0, 21)]], 3, 4⟩, 1099511627776,
    0, 2561556591, ⟨[[(41777093663993, 0), (13050298884, 0), (61488339, 0), (50433, 0), (0, 27)], [(7832264742, 0),
    (10107340, 0), (0, 1534), (7, 0)], [(0, 2434029), (0, 4586)], [(1029, 0), (4, 0)]], 3, 4⟩, 68719476736, 152793,
    5098358658016981929380734883036576579578241482866416163042197014588460404318232042877981748437, ⟨0, 4,
    415231607085089, [45868891563, 6605543, 1268]⟩⟩) (.sx (.leaf ⟨2222, 16, 165, 2343, 16, 1271, ⟨[[(377957122048,
    0)], [(354334801920, 0)]], 3, 4⟩, ⟨[[(0, 355223307794), (0, 2879804500778), (0, 28562869075), (0, 565561631), (0,
    11247451)], [(0, 156911810601), (0, 2774471498), (0, 77886133), (0, 2060209), (0, 43850)], [(0, 55227624), (0,
    3391612), (0, 136389), (0, 3944), (0, 85)], [(0, 46643), (0, 3856), (0, 171), (0, 5)]], 3, 4⟩, 1099511627776, 0,
    352200514, ⟨[[(41644047777857, 0), (8863602673, 0), (31628117, 0), (19211, 0), (0, 7)], [(3882183334, 0),
    (3660219, 0), (0, 430), (1, 0)], [(0, 600483), (0, 832)], [(125, 0)]], 3, 4⟩, 68719476736, 86668,
    5022295670417383727892239794543985596944814675122598746489523546691584416831564957201165237175, ⟨0, 4,
    573371818784118, [31974486489, 2318336, 224]⟩⟩) (.skip)))) (.sx (.sy (.sx (.leaf ⟨2160, 16, 165, 2482, 16, 1340,
    ⟨[[(515396075520, 0)], [(354334801920, 0)]], 3, 4⟩, ⟨[[(328844101680, 0), (0, 2842925640316), (0, 25429537277),
    (0, 475159576), (0, 9202514)], [(0, 160785865184), (0, 2559071922), (0, 67161107), (0, 1723743), (0, 36172)],
    [(0, 51636203), (0, 2995353), (0, 116728), (0, 3328), (0, 71)], [(0, 42134), (0, 3376), (0, 148), (0, 4)]], 3,
    4⟩, 1099511627776, 0, 311628801, ⟨[[(41501663460693, 0), (8867896619, 0), (29051487, 0), (16045, 0), (0, 6)],
    [(4000241554, 0), (3564933, 0), (0, 338), (1, 0)], [(0, 634472), (0, 853)], [(136, 0)]], 3, 4⟩, 68719476736,
    63596, 4360860452817324138422750388437516222169544618561222586776182730274083560367266788236062800666, ⟨0, 4,
    597934814809206, [34675766787, 2586200, 257]⟩⟩) (.skip)) (.skip)) (.skip))) (.sy (.sx (.sy (.sx (.sy (.leaf
    ⟨2284, 16, 165, 3197, 16, 1740, ⟨[[(240518168576, 0)], [(354334801920, 0)]], 3, 4⟩, ⟨[[(0, 51821472365), (0,
    2039714255498), (0, 10507706145), (0, 106418122), (0, 1077204)], [(0, 215030361779), (0, 1982290665), (0,
    28569303), (0, 384801), (0, 4156)], [(0, 77108306), (0, 2424284), (0, 49645), (0, 728), (0, 8)], [(0, 64916), (0,
    2732), (0, 61), (0, 1)]], 3, 4⟩, 1099511627776, 0, 353026924, ⟨[[(41814183052904, 0), (6284107170, 0), (16621561,
    0), (7613, 0), (0, 2)], [(3781629544, 0), (2606049, 0), (0, 252), (1, 0)], [(0, 571777), (0, 565)], [(117, 0)]],
    3, 4⟩, 68719476736, 55119,
    2348609382398414445671415088032321399473435206705600174861733989382760533704504554079271020481, ⟨0, 4,
    793236033914350, [42587369923, 3004188, 283]⟩⟩) (.skip)) (.skip)) (.skip)) (.skip)) (.skip))) (.skip)
theorem c72 : checkC job ⟨6, 8, 7, 8, 9, 13⟩ 1 25 lims t72 464 48 32 201 3 512 = true := by decide +kernel

def t73 : CTree :=
  .sx (.sx (.leaf ⟨425, 16, 41, 995, 16, 510, ⟨[[(412316860416, 0)], [(352187318272, 0)]], 3, 4⟩, ⟨[[(0,
    310314998514), (0, 2389426244954), (0, 25462962097), (0, 638519557), (0, 23207940)], [(0, 183141179920), (0,
    3786208467), (0, 126098152), (0, 5513747), (0, 308450)], [(0, 62416065), (0, 6942396), (0, 457392), (0, 32673),
    (0, 2326)], [(0, 118594), (0, 15301), (0, 1639), (0, 155), (0, 12)]], 3, 4⟩, 1099511627776, 0, 4310181317,
    ⟨[[(41039823766837, 0), (40853423203, 0), (240705657, 0), (237003, 0), (0, 222)], [(21221805164, 0), (48602599,
    0), (0, 2615), (0, 15), (0, 1)], [(0, 17331862), (0, 71625), (0, 7)], [(19761, 0), (171, 0)]], 3, 4⟩,
    68719476736, 2802335,
    2720551859818350399581195349216398787166831895146332203575189687536348546065666628267761811599, ⟨0, 3,
    206980660733506, [66623490422, 25084145, 12592]⟩⟩) (.sy (.leaf ⟨456, 16, 41, 1194, 16, 620, ⟨[[(137438953472,
    0)], [(352187318272, 0)]], 3, 4⟩, ⟨[[(0, 382690939378), (0, 1649282005869), (0, 11369763644), (0, 187479721), (0,
    4533926)], [(0, 232406727474), (0, 3030536650), (0, 66226343), (0, 1949327), (0, 65589)], [(0, 110393899), (0,
    6830373), (0, 297705), (0, 13094), (0, 515)], [(0, 215713), (0, 18804), (0, 1251), (0, 67), (0, 3)]], 3, 4⟩,
    1099511627776, 0, 6025478935, ⟨[[(41177742502412, 0), (29807447298, 0), (156487940, 0), (138451, 0), (0, 109)],
    [(19628610981, 0), (36752947, 0), (0, 1996), (6, 0)], [(0, 14867231), (0, 47608), (0, 4)], [(15669, 0), (102,
    0)]], 3, 4⟩, 68719476736, 1828939,
    2794593732698471569763485520011718011479903265594019150908240872839846587094862986094954544013, ⟨0, 3,
    259130714405923, [75533042898, 26521434, 12416]⟩⟩) (.sx (.leaf ⟨897, 16, 82, 1750, 16, 912, ⟨[[(0,
    137438953472)], [(352187318272, 0)]], 3, 4⟩, ⟨[[(0, 8801845234), (0, 2528372959057), (0, 19889822033), (0,
    393612575), (0, 10919938)], [(0, 181054598058), (0, 2634612799), (0, 68430886), (0, 2354110), (0, 83523)], [(0,
    51693134), (0, 3563581), (0, 181212), (0, 8533), (0, 336)], [(0, 57244), (0, 5836), (0, 418), (0, 22), (0, 1)]],
    3, 4⟩, 1099511627776, 0, 822263235, ⟨[[(40905394812295, 0), (19163367582, 0), (71497497, 0), (44064, 0), (0,
    23)], [(9846403031, 0), (12747307, 0), (0, 470), (2, 0)], [(0, 3752448), (0, 8490), (0, 1)], [(1958, 0), (9,
    0)]], 3, 4⟩, 68719476736, 208517,
    2865225952335030721308187682897245331232958251014371929943218601836520991675609915782019659524, ⟨0, 3,
    378483635036297, [56505677658, 10090300, 2402]⟩⟩) (.sy (.leaf ⟨928, 16, 82, 2176, 16, 1142, ⟨[[(0,
    412316860416)], [(352187318272, 0)]], 3, 4⟩, ⟨[[(0, 359978357462), (0, 1714953057157), (0, 8019481198), (0,
    93746475), (0, 1439925)], [(0, 235168957586), (0, 2002094798), (0, 30973191), (0, 601342), (0, 11222)], [(0,
    80878174), (0, 3120754), (0, 90080), (0, 2255), (0, 45)], [(0, 97402), (0, 5693), (0, 218), (0, 6)]], 3, 4⟩,
    1099511627776, 0, 1062521248, ⟨[[(40978257927904, 0), (14230665898, 0), (44541318, 0), (23055, 0), (0, 10)],
    [(9469205220, 0), (9790613, 0), (0, 372), (1, 0)], [(0, 3481522), (0, 6127)], [(1748, 0), (6, 0)]], 3, 4⟩,
    68719476736, 185521,
    2754586068368163390066688705480888162747372980825435799455761182486449627335803244875459144906, ⟨0, 4,
    480613279802380, [68410509838, 11811207, 2719]⟩⟩) (.leaf ⟨928, 16, 82, 2033, 16, 1072, ⟨[[(0, 412316860416)],
    [(352187318272, 0)]], 3, 4⟩, ⟨[[(288415566959, 0), (0, 1710983929962), (0, 9452947790), (0, 128951804), (0,
    2119239)], [(0, 233213955733), (0, 2299515799), (0, 41913657), (0, 887223), (0, 16843)], [(0, 97059616), (0,
    4214376), (0, 133506), (0, 3425), (0, 68)], [(0, 132245), (0, 8521), (0, 336), (0, 9)]], 3, 4⟩, 1099511627776, 0,
    1605255154, ⟨[[(40837073150997, 0), (14195145618, 0), (49736946, 0), (28347, 0), (0, 12)], [(9368828988, 0),
    (10438573, 0), (0, 479), (2, 0)], [(0, 3418763), (0, 6520)], [(1682, 0), (7, 0)]], 3, 4⟩, 68719476736, 152748,
    3836682008724030661158942673560108123665874323151050417543657167990744678840742983720447029059, ⟨0, 4,
    451153621670886, [64217221144, 11087227, 2552]⟩⟩))))) (.sx (.sy (.sx (.leaf ⟨958, 16, 82, 1609, 16, 847,
    ⟨[[(412316860416, 0)], [(352187318272, 0)]], 3, 4⟩, ⟨[[(70478226232, 0), (0, 2611829491193), (0, 25015121202),
    (0, 587491053), (0, 18265797)], [(0, 172429526642), (0, 3019967311), (0, 94405621), (0, 3710191), (0, 141327)],
    [(0, 59651398), (0, 4625138), (0, 270675), (0, 13831), (0, 569)], [(0, 70055), (0, 8337), (0, 652), (0, 37), (0,
    2)]], 3, 4⟩, 1099511627776, 0, 1205543396, ⟨[[(41165292179038, 0), (18786879473, 0), (80113337, 0), (57253, 0),
    (0, 33)], [(9202588217, 0), (12734321, 0), (0, 767), (4, 0)], [(0, 3291539), (0, 7533), (0, 1)], [(1617, 0), (7,
    0)]], 3, 4⟩, 68719476736, 199618,
    3645376148730140517639061998010087746724517242558594659452823778963834091196219352983535543056, ⟨0, 4,
    361253794942599, [49110810529, 8207020, 1829]⟩⟩) (.sy (.leaf ⟨989, 16, 82, 2016, 16, 1069, ⟨[[(137438953472, 0)],
    [(352187318272, 0)]], 3, 4⟩, ⟨[[(89607578267, 0), (0, 1797482241533), (0, 10337647970), (0, 142600389), (0,
    2414813)], [(0, 227506588556), (0, 2360589866), (0, 43911355), (0, 957494), (0, 18955)], [(0, 94987818), (0,
    4182763), (0, 136819), (0, 3659), (0, 76)], [(0, 124039), (0, 8305), (0, 341), (0, 10)]], 3, 4⟩, 1099511627776,
    0, 1497693789, ⟨[[(41234605335698, 0), (13730994501, 0), (49000989, 0), (29321, 0), (0, 13)], [(8859642829, 0),
    (9752356, 0), (0, 612), (3, 0)], [(0, 3065180), (0, 5445)], [(1450, 0), (5, 0)]], 3, 4⟩, 68719476736, 133528,
    3404722339850003273041974569095901787284715224869778313355556369150036261213622143933457781912, ⟨0, 4,
    461795854510841, [60055902008, 9724077, 2099]⟩⟩) (.sx (.leaf ⟨1975, 16, 165, 2924, 16, 1554, ⟨[[(0,
    171798691840)], [(354334801920, 0)]], 3, 4⟩, ⟨[[(0, 434508104812), (0, 2719149786439), (0, 17524699328), (0,
    265815325), (0, 4647593)], [(0, 172808820560), (0, 1983995313), (0, 40885284), (0, 930621), (0, 18437)], [(0,
    41181452), (0, 1961106), (0, 67215), (0, 1805), (0, 37)], [(0, 29457), (0, 2068), (0, 85), (0, 2)]], 3, 4⟩,
    1099511627776, 0, 195199975, ⟨[[(41106672060778, 0), (9088036357, 0), (22998854, 0), (9616, 0), (0, 3)],
    [(4403536852, 0), (3364125, 0), (0, 152)], [(0, 758848), (0, 944)], [(177, 0)]], 3, 4⟩, 68719476736, 79504,
    2716367190155964804967257665560457583997868332554985115568923284090037123186277514813273475794, ⟨0, 4,
    669206888273787, [43993401124, 3589540, 391]⟩⟩) (.sy (.leaf ⟨2006, 16, 165, 3763, 16, 2008, ⟨[[(0,
    240518168576)], [(354334801920, 0)]], 3, 4⟩, ⟨[[(0, 147401825228), (0, 1851439478474), (0, 6640741484), (0,
    54207847), (0, 488515)], [(0, 230136190439), (0, 1463126281), (0, 16392208), (0, 193773), (0, 1943)], [(0,
    61099282), (0, 1553936), (0, 27755), (0, 378), (0, 4)], [(0, 46292), (0, 1696), (0, 36), (0, 1)]], 3, 4⟩,
    1099511627776, 0, 245785361, ⟨[[(41137203605179, 0), (6696525609, 0), (13566165, 0), (4529, 0), (0, 1)],
    [(4317959339, 0), (2562163, 0), (0, 104)], [(0, 731911), (0, 699)], [(168, 0)]], 3, 4⟩, 68719476736, 51752,
    2816864194247090008830152279906462201782281706059682689971258387713583217304849959591362516973, ⟨0, 4,
    870130122430680, [55969239416, 4496244, 482]⟩⟩) (.skip))))) (.sx (.sy (.leaf ⟨958, 16, 82, 1943, 16, 1030,
    ⟨[[(412316860416, 0)], [(352187318272, 0)]], 3, 4⟩, ⟨[[(93527313728, 0), (0, 1751508774252), (0, 10876505203),
    (0, 161249689), (0, 2768254)], [(0, 229028006463), (0, 2527777461), (0, 50665391), (0, 1130216), (0, 22025)],
    [(0, 106378342), (0, 4957248), (0, 166264), (0, 4392), (0, 89)], [(0, 151843), (0, 10409), (0, 423), (0, 12)]],
    3, 4⟩, 1099511627776, 0, 1926692987, ⟨[[(40964632869134, 0), (13989558586, 0), (52855857, 0), (32649, 0), (0,
    15)], [(9059700274, 0), (10487401, 0), (0, 630), (3, 0)], [(0, 3207148), (0, 6184)], [(1533, 0), (6, 0)]], 3, 4⟩,
    68719476736, 127434,
    4835820123977501053033229953493233405200984717178360617611047783040876341539666170876173572924, ⟨0, 4,
    439305087120280, [59721528743, 9980202, 2224]⟩⟩) (.sx (.sy (.leaf ⟨1913, 16, 165, 3871, 16, 2054, ⟨[[(0,
    34359738368)], [(354334801920, 0)]], 3, 4⟩, ⟨[[(0, 540619464006), (0, 1785304577802), (0, 5935798565), (0,
    46278518), (0, 402285)], [(0, 234838170394), (0, 1376662254), (0, 14589535), (0, 165795), (0, 1610)], [(0,
    59125568), (0, 1437831), (0, 24623), (0, 325), (0, 3)], [(0, 44493), (0, 1558), (0, 32)]], 3, 4⟩, 1099511627776,
    0, 233059663, ⟨[[(40872848118224, 0), (6878964646, 0), (13246912, 0), (4128, 0), (0, 1)], [(4516072558, 0),
    (2636893, 0), (0, 80)], [(0, 797557), (0, 783)], [(189, 0)]], 3, 4⟩, 68719476736, 52411,
    4300916722359045371020902646624894721404779027355666540254554267945959383235851415613160042907, ⟨0, 4,
    873181306138438, [60029099383, 5056359, 568]⟩⟩) (.skip)) (.skip))) (.sy (.sx (.sy (.leaf ⟨1975, 16, 165, 3682,
    16, 1965, ⟨[[(0, 171798691840)], [(354334801920, 0)]], 3, 4⟩, ⟨[[(358249309157, 0), (0, 1830253630150), (0,
    6875704192), (0, 57859668), (0, 521956)], [(0, 230966743711), (0, 1527408184), (0, 17697549), (0, 210225), (0,
    2087)], [(0, 65181963), (0, 1701100), (0, 30569), (0, 413), (0, 4)], [(0, 51505), (0, 1898), (0, 39), (0, 1)]],
    3, 4⟩, 1099511627776, 0, 278408073, ⟨[[(40999815918612, 0), (6749365289, 0), (14163681, 0), (4826, 0), (0, 1)],
    [(4362712658, 0), (2663579, 0), (0, 107)], [(0, 747400), (0, 746)], [(172, 0)]], 3, 4⟩, 68719476736, 59780,
    5295038945431770306732671578306001214948613967550377107592663025376587571973513996855556840924, ⟨0, 4,
    846197899265116, [55628721499, 4538897, 494]⟩⟩) (.skip)) (.skip)) (.skip)))) (.sy (.sx (.sy (.sx (.leaf ⟨2037,
    16, 165, 2774, 16, 1482, ⟨[[(0, 309237645312)], [(354334801920, 0)]], 3, 4⟩, ⟨[[(0, 396394503494), (0,
    2762552854579), (0, 19902620408), (0, 325407758), (0, 5910422)], [(0, 168733784421), (0, 2161730802), (0,
    48580041), (0, 1156959), (0, 23431)], [(0, 44547606), (0, 2272879), (0, 81803), (0, 2249), (0, 47)], [(0, 33395),
    (0, 2468), (0, 104), (0, 3)]], 3, 4⟩, 1099511627776, 0, 230186970, ⟨[[(41240573933143, 0), (9017344290, 0),
    (24788065, 0), (11333, 0), (0, 4)], [(4261880853, 0), (3415351, 0), (0, 200), (1, 0)], [(0, 713543), (0, 907)],
    [(162, 0)]], 3, 4⟩, 68719476736, 85644,
    3116078945684133361528923186331409058614203781841125284908897091725525025602801939809774356285, ⟨0, 4,
    646132923867641, [40680511605, 3218395, 339]⟩⟩) (.sy (.leaf ⟨2068, 16, 165, 3586, 16, 1924, ⟨[[(0,
    377957122048)], [(354334801920, 0)]], 3, 4⟩, ⟨[[(497472101922, 0), (0, 1895536040555), (0, 7615389750), (0,
    66728442), (0, 622399)], [(0, 226475696152), (0, 1612193551), (0, 19617420), (0, 241493), (0, 2469)], [(0,
    66730768), (0, 1815489), (0, 33868), (0, 471), (0, 5)], [(0, 52936), (0, 2029), (0, 43), (0, 1)]], 3, 4⟩,
    1099511627776, 0, 287104662, ⟨[[(41267707017003, 0), (6579455406, 0), (14462940, 0), (5269, 0), (0, 1)],
    [(4178387413, 0), (2592216, 0), (0, 135)], [(0, 688401), (0, 669)], [(153, 0)]], 3, 4⟩, 68719476736, 72609,
    3408098000327632034325239664098795891855332414498301706634968354050027562594250672242559873131, ⟨0, 4,
    843871189533564, [52023071891, 4054167, 421]⟩⟩) (.skip))) (.skip)) (.skip)) (.skip)))
theorem c73 : checkC job ⟨6, 8, 7, 8, 9, 13⟩ 1 25 lims t73 368 48 32 207 3 512 = true := by decide +kernel

end PyX.Kron.S2c
