import Verif.Lemmas.S2bJob

/-!
# Temperature from pressure and entropy in subregion 2b, part B of the certificate
-/

namespace PyX.Kron.S2b

set_option Elab.async false

def t14 : CTree :=
  .sx (.sy (.sx (.sy (.out ⟨455, 16, 20, 565, 16, 205, ⟨[[], [(343597383680, 0)]], 1, 1⟩, ⟨[[(0, 136825020344),
    (1867121318199, 0)], [(225555041222, 0), (1700410842, 0)]], 1, 1⟩, 1099511627776, 0, 340223008889, ⟨[], 0, 0⟩, 0,
    0, 0, ⟨0, 5, 413908024311121, [90981456938]⟩⟩ 0 1 1614) (.out ⟨455, 16, 20, 547, 16, 195, ⟨[[], [(343597383680,
    0)]], 1, 1⟩, ⟨[[(251815500938, 0), (1857579529505, 0)], [(224933568430, 0), (1851851416, 0)]], 1, 1⟩,
    1099511627776, 0, 360099199471, ⟨[], 0, 0⟩, 0, 0, 0, ⟨0, 5, 393717388978871, [86543337087]⟩⟩ 0 1 1999)) (.out
    ⟨485, 16, 20, 400, 16, 139, ⟨[[], [(343597383680, 0)]], 1, 1⟩, ⟨[[(317776230834, 0), (2844016406606, 0)],
    [(159434138917, 0), (2890174518, 0)]], 1, 1⟩, 1099511627776, 0, 508194375073, ⟨[], 0, 0⟩, 0, 0, 0, ⟨0, 5,
    286384998732260, [57873997928]⟩⟩ 0 1 2569)) (.sx (.out ⟨455, 16, 20, 384, 16, 133, ⟨[[], [(343597383680, 0)]], 1,
    1⟩, ⟨[[(14015007390, 0), (2740505439586, 0)], [(166163862560, 0), (3183358812, 0)]], 1, 1⟩, 1099511627776, 0,
    566585899217, ⟨[], 0, 0⟩, 0, 0, 0, ⟨0, 5, 268535449918923, [59026994013]⟩⟩ 0 1 2643) (.out ⟨485, 16, 20, 366, 16,
    122, ⟨[[], [(343597383680, 0)]], 1, 1⟩, ⟨[[(0, 228216546822), (2825631229556, 0)], [(158053267299, 0),
    (3610755318, 0)]], 1, 1⟩, 1099511627776, 0, 664182414342, ⟨[], 0, 0⟩, 0, 0, 0, ⟨0, 5, 251359495290185,
    [50795883074]⟩⟩ 0 1 3529))) (.sx (.sy (.sy (.out ⟨515, 16, 20, 552, 16, 187, ⟨[[], [(343597383680, 0)]], 1, 1⟩,
    ⟨[[(0, 226594850854), (2051120575614, 0)], [(213470219647, 0), (2112761025, 0)]], 1, 1⟩, 1099511627776, 0,
    356196662673, ⟨[], 0, 0⟩, 0, 0, 0, ⟨0, 5, 392532968722303, [73323772328]⟩⟩ 0 1 3151) (.out ⟨515, 16, 20, 527, 16,
    175, ⟨[[], [(343597383680, 0)]], 1, 1⟩, ⟨[[(218476813273, 0), (2048366985206, 0)], [(212749460571, 0),
    (2368836935, 0)]], 1, 1⟩, 1099511627776, 0, 395503037262, ⟨[], 0, 0⟩, 0, 0, 0, ⟨0, 5, 367343687306968,
    [68618503516]⟩⟩ 0 1 3619)) (.sy (.out ⟨515, 16, 20, 499, 16, 162, ⟨[[], [(343597383680, 0)]], 1, 1⟩, ⟨[[(0,
    249169715033), (2045140272406, 0)], [(211518710069, 0), (2692510512, 0)]], 1, 1⟩, 1099511627776, 0, 447678252150,
    ⟨[], 0, 0⟩, 0, 0, 0, ⟨0, 5, 340055299107022, [63521128969]⟩⟩ 0 1 4159) (.out ⟨515, 16, 20, 466, 16, 148, ⟨[[],
    [(343597383680, 0)]], 1, 1⟩, ⟨[[(352394585806, 0), (2042810020401, 0)], [(209809763210, 0), (3100435421, 0)]], 1,
    1⟩, 1099511627776, 0, 515444192997, ⟨[], 0, 0⟩, 0, 0, 0, ⟨0, 5, 310667804122464, [58031648687]⟩⟩ 0 1 4696))) (.sy
    (.out ⟨545, 16, 20, 370, 16, 120, ⟨[[], [(343597383680, 0)]], 1, 1⟩, ⟨[[(295276515798, 0), (3027273358583, 0)],
    [(145941140872, 0), (3541037131, 0)]], 1, 1⟩, 1099511627776, 0, 672369459105, ⟨[], 0, 0⟩, 0, 0, 0, ⟨0, 5,
    256283203427237, [44462631898]⟩⟩ 0 1 4183) (.sy (.out ⟨545, 16, 20, 476, 16, 149, ⟨[[], [(343597383680, 0)]], 1,
    1⟩, ⟨[[(173697226812, 0), (2146686689895, 0)], [(204622924223, 0), (3077329281, 0)]], 1, 1⟩, 1099511627776, 0,
    489232416695, ⟨[], 0, 0⟩, 0, 0, 0, ⟨0, 5, 318218310922152, [55207767940]⟩⟩ 0 1 5057) (.out ⟨545, 16, 20, 436, 16,
    133, ⟨[[], [(343597383680, 0)]], 1, 1⟩, ⟨[[(67243237731, 0), (2138574266446, 0)], [(201384162876, 0),
    (3546470396, 0)]], 1, 1⟩, 1099511627776, 0, 568767609470, ⟨[], 0, 0⟩, 0, 0, 0, ⟨0, 5, 284047217131854,
    [49279417020]⟩⟩ 0 1 5714))))
theorem c14 : checkC job ⟨6, 8, 7, 8, 9, 13⟩ 3 100 lims t14 400 48 16 69 3 256 = true := by decide +kernel

def t15 : CTree :=
  .sx (.sx (.sx (.sy (.leaf ⟨179, 16, 41, 145, 16, 100, ⟨[[(412316860416, 0)], [(352187318272, 0)]], 3, 4⟩, ⟨[[(0,
    90596823679), (3266422485063, 0), (0, 6690278935), (317481038, 0), (2233899, 0)], [(137560763908, 0),
    (1014410530, 0), (26932792, 0), (629591, 0), (12638, 0)], [(0, 99464549), (382439, 0), (19714, 0), (659, 0), (18,
    0)], [(123332, 0), (91, 0), (6, 0)]], 3, 4⟩, 1099511627776, 0, 3841284227, ⟨[[(46080699121999, 0), (0,
    150586814419), (389334893, 0), (589287, 0), (1366, 0)], [(58957351698, 0), (0, 158128781), (0, 40561), (0, 908),
    (11, 0)], [(0, 131295065), (481298, 0), (416, 0), (0, 4)], [(412401, 0), (0, 1715), (0, 1)]], 3, 4⟩, 68719476736,
    220813202, 1177641135757563530495413145124975743362940874952610843650772973166268076338801005680262371083, ⟨0, 2,
    95371640338065, [115391116116, 103027782, 122652]⟩⟩) (.leaf ⟨179, 16, 41, 161, 16, 99, ⟨[[(412316860416, 0)],
    [(352187318272, 0)]], 3, 4⟩, ⟨[[(0, 40845367753), (3190522456695, 0), (0, 355171742), (390582438, 0), (4343366,
    0)], [(143323529228, 0), (1404118691, 0), (41207123, 0), (1037559, 0), (24023, 0)], [(0, 95325594), (703874, 0),
    (36966, 0), (1431, 0), (56, 0)], [(122988, 0), (235, 0), (21, 0), (2, 0)]], 3, 4⟩, 1099511627776, 0, 3833377771,
    ⟨[[(43550704346023, 0), (0, 137668419045), (430543694, 0), (641534, 0), (0, 573)], [(56153972423, 0), (0,
    161684268), (0, 58821), (419, 0), (24, 0)], [(0, 122722379), (493027, 0), (0, 149), (0, 17)], [(382209, 0), (0,
    1700), (3, 0)]], 3, 4⟩, 68719476736, 247520300,
    1122049593570059585855845337615984992683601453978775416166838697971042567264259670876797801299, ⟨0, 2,
    94417923934684, [114237204955, 101997504, 121426]⟩⟩)) (.sy (.leaf ⟨210, 16, 41, 162, 16, 104, ⟨[[(137438953472,
    0)], [(352187318272, 0)]], 3, 4⟩, ⟨[[(472698002699, 0), (3502109229254, 0), (0, 4073758405), (399730865, 0),
    (3782032, 0)], [(126232338205, 0), (1134043995, 0), (32144193, 0), (798494, 0), (17507, 0)], [(0, 74172603),
    (426167, 0), (22638, 0), (820, 0), (27, 0)], [(80068, 0), (103, 0), (8, 0), (1, 0)]], 3, 4⟩, 1099511627776, 0,
    2119420417, ⟨[[(46169400239196, 0), (0, 140870731494), (376706695, 0), (543167, 0), (648, 0)], [(50459515834, 0),
    (0, 128310532), (0, 41863), (0, 605), (9, 0)], [(0, 95023756), (339139, 0), (265, 0), (0, 3)], [(267488, 0), (0,
    1148)]], 3, 4⟩, 68719476736, 205144902,
    843955423504598134772142060936805795394504162042431548565630086517744596748281619828903048643, ⟨0, 2,
    109819758142218, [102444795771, 78082924, 79353]⟩⟩) (.leaf ⟨210, 16, 41, 176, 16, 101, ⟨[[(137438953472, 0)],
    [(352187318272, 0)]], 3, 4⟩, ⟨[[(281238524816, 0), (3399337989340, 0), (4042167493, 0), (515190908, 0), (7414210,
    0)], [(130515938072, 0), (1577498914, 0), (49963246, 0), (1392388, 0), (38915, 0)], [(0, 68541964), (795472, 0),
    (45295, 0), (2064, 0), (97, 0)], [(78829, 0), (302, 0), (32, 0), (3, 0)]], 3, 4⟩, 1099511627776, 0, 2127496458,
    ⟨[[(43603952358090, 0), (0, 129511125899), (432839368, 0), (574802, 0), (0, 1283)], [(47974146961, 0), (0,
    134131485), (0, 52828), (429, 0), (15, 0)], [(0, 88442950), (352880, 0), (0, 154), (0, 11)], [(246067, 0), (0,
    1085), (5, 0)]], 3, 4⟩, 68719476736, 217596704,
    707992221009626838729778166263726360429708010371826925036222349158633427619252665369844282349, ⟨0, 2,
    106651880503500, [99489657432, 75830532, 77064]⟩⟩))) (.sx (.sy (.leaf ⟨241, 16, 41, 176, 16, 106, ⟨[[(0,
    137438953472)], [(352187318272, 0)]], 3, 4⟩, ⟨[[(233826404441, 0), (3684517959476, 0), (0, 786344884),
    (493804007, 0), (5857550, 0)], [(116115856058, 0), (1242264479, 0), (37445332, 0), (992176, 0), (24288, 0)], [(0,
    56363911), (466380, 0), (25820, 0), (1034, 0), (40, 0)], [(54440, 0), (118, 0), (11, 0), (1, 0)]], 3, 4⟩,
    1099511627776, 0, 1279770278, ⟨[[(46149289312012, 0), (0, 133775053369), (378138663, 0), (512560, 0), (45, 0)],
    [(44061841718, 0), (0, 108838886), (0, 41902), (0, 382), (8, 0)], [(0, 71902401), (251951, 0), (197, 0), (0, 3)],
    [(172195, 0), (0, 747)]], 3, 4⟩, 68719476736, 115027793,
    775685971200579656707646819254387353579799896380960162411771501379814721520190809777955856712, ⟨0, 3,
    121286577157222, [91085327828, 60562053, 53690]⟩⟩) (.leaf ⟨241, 16, 41, 187, 16, 101, ⟨[[(0, 137438953472)],
    [(352187318272, 0)]], 3, 4⟩, ⟨[[(147549569754, 0), (3558393766800, 0), (9286683044, 0), (670449742, 0),
    (12214390, 0)], [(119265508769, 0), (1739326539, 0), (59646461, 0), (1871857, 0), (63105, 0)], [(0, 49873480),
    (894462, 0), (56220, 0), (2993, 0), (160, 0)], [(53180, 0), (390, 0), (45, 0), (4, 0)]], 3, 4⟩, 1099511627776, 0,
    1359843401, ⟨[[(43598736991102, 0), (0, 123669918640), (449389012, 0), (515853, 0), (0, 2040)], [(41838265916,
    0), (0, 116166533), (0, 45106), (484, 0), (10, 0)], [(0, 66749551), (267462, 0), (0, 90), (0, 6)], [(157463, 0),
    (0, 728), (2, 0)]], 3, 4⟩, 68719476736, 126020386,
    627967679369132291862990917458926416364681024535276617838880654418784534473767032414268629456, ⟨0, 3,
    115565512196976, [86788850100, 57705352, 51157]⟩⟩)) (.sy (.leaf ⟨272, 16, 41, 186, 16, 106, ⟨[[(0,
    412316860416)], [(352187318272, 0)]], 3, 4⟩, ⟨[[(0, 89573276013), (3808181592536, 0), (3056534386, 0),
    (599364970, 0), (8613489, 0)], [(106631405779, 0), (1335227912, 0), (42727631, 0), (1215931, 0), (33725, 0)],
    [(0, 43206775), (502867, 0), (29355, 0), (1313, 0), (59, 0)], [(38230, 0), (136, 0), (14, 0), (1, 0)]], 3, 4⟩,
    1099511627776, 0, 850270860, ⟨[[(46119763289777, 0), (0, 129236655604), (392002756, 0), (494115, 0), (0, 517)],
    [(39094598533, 0), (0, 95837023), (0, 40361), (0, 212), (8, 0)], [(0, 56309085), (197458, 0), (139, 0), (0, 2)],
    [(119605, 0), (0, 516)]], 3, 4⟩, 68719476736, 79149916,
    993785765721726671927297935837442580173239313958247232676825922236934149732956439514681494733, ⟨0, 3,
    129516001948362, [80773781281, 47626050, 37442]⟩⟩) (.leaf ⟨272, 16, 41, 195, 16, 100, ⟨[[(0, 412316860416)],
    [(352187318272, 0)]], 3, 4⟩, ⟨[[(238072000157, 0), (3697011508229, 0), (15420131017, 0), (872824688, 0),
    (19810290, 0)], [(109904012220, 0), (1903825029, 0), (71127716, 0), (2544323, 0), (101277, 0)], [(0, 36550661),
    (1012906, 0), (70931, 0), (4316, 0), (252, 0)], [(37679, 0), (503, 0), (62, 0), (6, 0)]], 3, 4⟩, 1099511627776,
    0, 1073308284, ⟨[[(43616756113619, 0), (0, 119151134997), (471722175, 0), (450266, 0), (0, 2813)], [(37093161794,
    0), (0, 103326123), (0, 35660), (537, 0), (6, 0)], [(0, 52189558), (211007, 0), (0, 77), (0, 3)], [(109147, 0),
    (0, 518), (1, 0)]], 3, 4⟩, 68719476736, 89961574,
    740833667750311619174121937834008891939653371883007666601715019922749437761827453197554800988, ⟨0, 3,
    122184907498455, [76201680454, 44930236, 35323]⟩⟩)))) (.sx (.sy (.sx (.leaf ⟨302, 16, 41, 195, 16, 106,
    ⟨[[(412316860416, 0)], [(352187318272, 0)]], 3, 4⟩, ⟨[[(0, 115501232274), (3941123480268, 0), (7442068907, 0),
    (729282302, 0), (12469578, 0)], [(99287908422, 0), (1435757759, 0), (48783740, 0), (1502955, 0), (47451, 0)],
    [(0, 33777752), (545492, 0), (33924, 0), (1697, 0), (85, 0)], [(27988, 0), (161, 0), (18, 0), (2, 0)]], 3, 4⟩,
    1099511627776, 0, 652366748, ⟨[[(46089429476843, 0), (0, 124793716020), (403772345, 0), (461698, 0), (0, 1052)],
    [(35240682791, 0), (0, 85876777), (0, 37405), (0, 76), (7, 0)], [(0, 45490214), (159869, 0), (88, 0), (0, 2)],
    [(87402, 0), (0, 375)]], 3, 4⟩, 68719476736, 61866777,
    1076805923976107892493901360164804953152639494386994553160077930485153928069241449099702860514, ⟨0, 3,
    136861909654679, [72559498439, 38431938, 27141]⟩⟩) (.leaf ⟨333, 16, 41, 201, 16, 105, ⟨[[(137438953472, 0)],
    [(352187318272, 0)]], 3, 4⟩, ⟨[[(422057173364, 0), (4045602611440, 0), (12337395837, 0), (882271063, 0),
    (17744319, 0)], [(92625649380, 0), (1530631335, 0), (55311207, 0), (1858122, 0), (66471, 0)], [(0, 26502940),
    (590497, 0), (39424, 0), (2190, 0), (120, 0)], [(21024, 0), (190, 0), (23, 0), (2, 0)]], 3, 4⟩, 1099511627776, 0,
    589607476, ⟨[[(46158470950843, 0), (0, 122005496476), (421068013, 0), (432287, 0), (0, 1574)], [(32040271231, 0),
    (0, 78207268), (0, 34526), (12, 0), (7, 0)], [(0, 37317890), (132169, 0), (52, 0), (0, 2)], [(65078, 0), (0,
    280)]], 3, 4⟩, 68719476736, 52069191,
    1248202842577913836060891656044615393199671820542747875405514120027407618619696310005788825355, ⟨0, 3,
    142142017959367, [65240361804, 31365559, 20106]⟩⟩)) (.sx (.leaf ⟨302, 16, 41, 200, 16, 98, ⟨[[(412316860416, 0)],
    [(352187318272, 0)]], 3, 4⟩, ⟨[[(487690748312, 0), (3811797753026, 0), (22502543541, 0), (1139013141, 0),
    (31587765, 0)], [(101756106986, 0), (2071241816, 0), (84929182, 0), (3475849, 0), (158600, 0)], [(0, 26591102),
    (1154964, 0), (90133, 0), (6108, 0), (379, 0)], [(27860, 0), (640, 0), (83, 0), (8, 0), (1, 0)]], 3, 4⟩,
    1099511627776, 0, 1089978721, ⟨[[(43615841591374, 0), (0, 115734816370), (501663746, 0), (375423, 0), (0, 3690)],
    [(33393025541, 0), (0, 94415982), (0, 26881), (565, 0), (2, 0)], [(0, 42066433), (173038, 0), (0, 88), (0, 2)],
    [(79574, 0), (0, 387)]], 3, 4⟩, 68719476736, 73636948,
    865392706414548681607921828131785396483156694976044287811681905892686074832255612595755904793, ⟨0, 3,
    126532708926024, [67083309878, 35531414, 25093]⟩⟩) (.leaf ⟨333, 16, 41, 203, 16, 95, ⟨[[(137438953472, 0)],
    [(352187318272, 0)]], 3, 4⟩, ⟨[[(0, 302998514771), (3898766591156, 0), (30599415590, 0), (1489325809, 0),
    (49286049, 0)], [(94381449462, 0), (2241513859, 0), (101568787, 0), (4735910, 0), (241034, 0)], [(0, 18860979),
    (1323111, 0), (114349, 0), (8450, 0), (553, 0)], [(21437, 0), (799, 0), (108, 0), (10, 0), (1, 0)]], 3, 4⟩,
    1099511627776, 0, 1377508475, ⟨[[(43542258244409, 0), (0, 112431897686), (542453783, 0), (265271, 0), (0, 4835)],
    [(30195915770, 0), (0, 87851286), (0, 18559), (528, 0), (0, 5)], [(0, 34229907), (144810, 0), (0, 93), (1, 0)],
    [(58691, 0), (0, 295)]], 3, 4⟩, 68719476736, 60999415,
    1003162192643980346226116870348441725042528426075722295632409306707495512328527901715420685989, ⟨0, 3,
    128604682915618, [59026994013, 28378363, 18191]⟩⟩))) (.sy (.leaf ⟨185, 16, 20, 162, 16, 80, ⟨[[], [(343597383680,
    0)]], 3, 4⟩, ⟨[[(370312478541, 0), (3260089083869, 0), (16147976094, 0), (915777291, 0), (23066611, 0)],
    [(131278716027, 0), (2611322811, 0), (104023335, 0), (4012501, 0), (169435, 0)], [(0, 57622752), (2087582, 0),
    (156080, 0), (9934, 0), (596, 0)], [(89650, 0), (1524, 0), (196, 0), (18, 0), (1, 0)]], 3, 4⟩, 1099511627776, 0,
    3004214163, ⟨[[(46166379823288, 0), (0, 151521878920), (746308328, 0), (780203, 0), (0, 6885)], [(57748672504,
    0), (0, 183658635), (0, 103782), (567, 0), (33, 0)], [(0, 120064712), (556992, 0), (75, 0), (0, 16)], [(374484,
    0), (0, 2117), (3, 0)]], 3, 4⟩, 68719476736, 497222043,
    1363809629319033882864077444816384614418066377058047007337190733327323850134151177314266062521, ⟨0, 3,
    115002403957638, [87323006790, 73752540, 83055]⟩⟩) (.sy (.leaf ⟨185, 16, 20, 235, 16, 107, ⟨[[], [(343597383680,
    0)]], 3, 4⟩, ⟨[[(532566090312, 0), (2321673037209, 0), (10818425663, 0), (265489673, 0), (4862867, 0)],
    [(194725447076, 0), (2590632684, 0), (63095597, 0), (1595584, 0), (43182, 0)], [(0, 58639048), (2943893, 0),
    (135573, 0), (5275, 0), (181, 0)], [(137569, 0), (3404, 0), (237, 0), (12, 0)]], 3, 4⟩, 1099511627776, 0,
    3574365598, ⟨[[(44232214941567, 0), (0, 97730354675), (429879987, 0), (121406, 0), (0, 3298)], [(55215391893, 0),
    (0, 138986969), (0, 29135), (653, 0), (0, 3)], [(0, 112459067), (411788, 0), (0, 243)], [(346188, 0), (0, 1506),
    (1, 0)]], 3, 4⟩, 68719476736, 295501766,
    788905910056740730621156355431428038246677981285670369412853315786039705395651578170693861067, ⟨0, 3,
    153815715293341, [116794521582, 98644022, 111086]⟩⟩) (.leaf ⟨185, 16, 20, 228, 16, 98, ⟨[[], [(343597383680,
    0)]], 3, 4⟩, ⟨[[(0, 374723057307), (2276184750566, 0), (15520198931, 0), (399161687, 0), (9215190, 0)],
    [(195039982512, 0), (3266502811, 0), (95554929, 0), (2941456, 0), (92078, 0)], [(0, 31750991), (4894356, 0),
    (262203, 0), (11639, 0), (457, 0)], [(155665, 0), (7464, 0), (572, 0), (33, 0), (2, 0)]], 3, 4⟩, 1099511627776,
    0, 3917517735, ⟨[[(42953696652456, 0), (0, 93583530069), (513840517, 0), (0, 84537), (0, 4479)], [(53273871218,
    0), (0, 152340855), (0, 19903), (0, 510), (0, 56)], [(0, 106754645), (446281, 0), (258, 0), (36, 0), (1, 0)],
    [(325005, 0), (0, 1729), (0, 11), (0, 1)]], 3, 4⟩, 68719476736, 359683246,
    1507854248602252964549497595167810966924575453038098292567680169226092575148919098813282074474, ⟨0, 3,
    140877944848107, [106970683318, 90346861, 101742]⟩⟩))))
theorem c15 : checkC job ⟨6, 8, 7, 8, 9, 13⟩ 3 100 lims t15 112 48 16 21 3 64 = true := by decide +kernel

def t16 : CTree :=
  .sx (.sx (.leaf ⟨215, 16, 20, 169, 16, 78, ⟨[[], [(343597383680, 0)]], 3, 4⟩, ⟨[[(51345164859, 0), (3443207091763,
    0), (27072598841, 0), (1375354792, 0), (44996291, 0)], [(119329519364, 0), (2983318100, 0), (136776723, 0),
    (6346175, 0), (319129, 0)], [(0, 35413633), (2549916, 0), (220854, 0), (16173, 0), (1068, 0)], [(59852, 0),
    (2118, 0), (291, 0), (28, 0), (2, 0)]], 3, 4⟩, 1099511627776, 0, 2500002589, ⟨[[(46121809569956, 0), (0,
    143046778532), (804138148, 0), (461927, 0), (0, 10746)], [(49655561858, 0), (0, 161229698), (0, 82141), (1117,
    0), (23, 0)], [(0, 87981068), (415519, 0), (0, 115), (0, 10)], [(233003, 0), (0, 1357), (2, 0)]], 3, 4⟩,
    68719476736, 336316239,
    2122028742633612536364570389074878673074860090571733067276479760888131080518819259801695483331, ⟨0, 3,
    119701993621624, [73259941162, 53241236, 51590]⟩⟩) (.sy (.leaf ⟨245, 16, 20, 266, 16, 119, ⟨[[], [(343597383680,
    0)]], 3, 4⟩, ⟨[[(0, 304805303928), (2777494676214, 0), (12910988290, 0), (327755678, 0), (5891840, 0)],
    [(166470412885, 0), (2316030384, 0), (56752806, 0), (1417293, 0), (37798, 0)], [(0, 37716357), (1876593, 0),
    (86332, 0), (3316, 0), (114, 0)], [(64038, 0), (1464, 0), (104, 0), (5, 0)]], 3, 4⟩, 1099511627776, 0,
    1283297050, ⟨[[(46771290946307, 0), (0, 91060408633), (346980088, 0), (71223, 0), (0, 2197)], [(44186262703, 0),
    (0, 92005420), (0, 30002), (323, 0), (4, 0)], [(0, 68710348), (205567, 0), (0, 35), (0, 1)], [(158635, 0), (0,
    605)]], 3, 4⟩, 68719476736, 87208313,
    1273591255022657800671629668058192790335701067075541974222095664006839304305578725216398260306, ⟨0, 4,
    192666525435453, [98082448699, 62552582, 53191]⟩⟩) (.leaf ⟨245, 16, 20, 258, 16, 109, ⟨[[], [(343597383680, 0)]],
    3, 4⟩, ⟨[[(0, 297189755113), (2724035342746, 0), (18726094112, 0), (489437355, 0), (11234356, 0)],
    [(167415065346, 0), (2922803713, 0), (85471159, 0), (2615336, 0), (84022, 0)], [(0, 20561539), (3115676, 0),
    (166962, 0), (7573, 0), (325, 0)], [(71518, 0), (3264, 0), (259, 0), (16, 0), (1, 0)]], 3, 4⟩, 1099511627776, 0,
    1420434826, ⟨[[(45429731402813, 0), (0, 87524871863), (413366175, 0), (0, 108629), (0, 3807)], [(42738621016, 0),
    (0, 101166314), (0, 13537), (532, 0), (0, 3)], [(0, 65501234), (222703, 0), (0, 46), (3, 0)], [(149244, 0), (0,
    651)]], 3, 4⟩, 68719476736, 90281912,
    1516600481913693153223614048862345476836838577258785710059508256842272664229412969359421841806, ⟨0, 4,
    176476061113146, [89840226119, 57296063, 48721]⟩⟩))) (.sy (.sx (.leaf ⟨275, 16, 20, 273, 16, 116, ⟨[[],
    [(343597383680, 0)]], 3, 4⟩, ⟨[[(0, 75504460838), (2942426862382, 0), (18769923249, 0), (487018056, 0),
    (10545818, 0)], [(156807827611, 0), (2652460561, 0), (74637906, 0), (2169133, 0), (66227, 0)], [(0, 20766855),
    (2306385, 0), (119192, 0), (5140, 0), (207, 0)], [(49932, 0), (1907, 0), (146, 0), (9, 0)]], 3, 4⟩,
    1099511627776, 0, 921735921, ⟨[[(46790789546861, 0), (0, 86066376477), (364896197, 0), (0, 57161), (0, 2904)],
    [(39303720368, 0), (0, 83939675), (0, 17086), (494, 0), (3, 0)], [(0, 54231422), (162502, 0), (0, 53)], [(110419,
    0), (0, 442)]], 3, 4⟩, 68719476736, 57410506,
    1610068304166370941291861742436428829411687006966608358726463697678387584761678266670354960221, ⟨0, 4,
    196468009105373, [85179623897, 48397514, 36665]⟩⟩) (.leaf ⟨305, 16, 20, 272, 16, 110, ⟨[[], [(343597383680, 0)]],
    3, 4⟩, ⟨[[(0, 364297153799), (3053578000083, 0), (25771777015, 0), (712840351, 0), (18381396, 0)],
    [(146157802154, 0), (2990459904, 0), (96910341, 0), (3279959, 0), (119023, 0)], [(0, 7052940), (2793284, 0),
    (162979, 0), (8271, 0), (426, 0)], [(41180, 0), (2446, 0), (218, 0), (17, 0), (1, 0)]], 3, 4⟩, 1099511627776, 0,
    853173792, ⟨[[(46769588169902, 0), (0, 82700342532), (399403313, 0), (0, 247921), (0, 4043)], [(35277958041, 0),
    (0, 79640366), (3856, 0), (773, 0), (2, 0)], [(0, 43793853), (133431, 0), (0, 62), (2, 0)], [(79501, 0), (0,
    351), (0, 1)]], 3, 4⟩, 68719476736, 43937191,
    1760334580591320919408785872096792851330895944691021184278828123003299421477276020130297958892, ⟨0, 4,
    193665638199308, [72828819188, 37309846, 25485]⟩⟩)) (.sx (.leaf ⟨275, 16, 20, 257, 16, 103, ⟨[[], [(343597383680,
    0)]], 3, 4⟩, ⟨[[(269565858947, 0), (2869391287338, 0), (27155400181, 0), (783109671, 0), (22222207, 0)],
    [(156261990874, 0), (3425253303, 0), (119405775, 0), (4437615, 0), (178473, 0)], [(0, 1034896), (4043917, 0),
    (255227, 0), (14452, 0), (820, 0)], [(61695, 0), (4734, 0), (467, 0), (39, 0), (3, 0)]], 3, 4⟩, 1099511627776, 0,
    1449111301, ⟨[[(45474236587234, 0), (0, 83532483904), (452933664, 0), (0, 375436), (0, 5229)], [(37921707267, 0),
    (0, 94690929), (10416, 0), (623, 0), (0, 10)], [(0, 51570240), (182361, 0), (83, 0), (8, 0)], [(103051, 0), (0,
    521), (0, 2)]], 3, 4⟩, 68719476736, 61233084,
    2862918572499261272141939544223883652835372967064904142193114699182855413729273875173451764707, ⟨0, 4,
    174450042567702, [75633631563, 42973654, 32556]⟩⟩) (.sy (.leaf ⟨305, 16, 20, 365, 16, 141, ⟨[[], [(343597383680,
    0)]], 3, 4⟩, ⟨[[(0, 61953532684), (2138666451066, 0), (12268549946, 0), (192890002, 0), (3187294, 0)],
    [(207572400285, 0), (2639268894, 0), (51823672, 0), (1112079, 0), (26507, 0)], [(12564070, 0), (3194148, 0),
    (114780, 0), (3845, 0), (126, 0)], [(75446, 0), (3929, 0), (229, 0), (11, 0)]], 3, 4⟩, 1099511627776, 0,
    1007808518, ⟨[[(45779335566172, 0), (0, 56692315930), (234858179, 0), (0, 218359), (0, 1543)], [(34264642387, 0),
    (0, 61760092), (19885, 0), (310, 0), (0, 3)], [(0, 42096091), (104215, 0), (70, 0), (4, 0)], [(74828, 0), (0,
    304), (0, 2)]], 3, 4⟩, 68719476736, 28592211,
    2117391112981510710023811977969098266690575183606683466145740740071059312883563688417444589529, ⟨0, 4,
    248244136237294, [93353304595, 47824439, 32667]⟩⟩) (.sx (.out ⟨595, 16, 40, 504, 16, 191, ⟨[[], [(343597383680,
    0)]], 1, 1⟩, ⟨[[(133886427122, 0), (3022081776644, 0)], [(151696351510, 0), (2151728939, 0)]], 1, 1⟩,
    1099511627776, 0, 390059450183, ⟨[], 0, 0⟩, 0, 0, 0, ⟨0, 4, 333201057755843, [64822656406]⟩⟩ 0 1 692) (.out ⟨625,
    16, 40, 493, 16, 182, ⟨[[], [(343597383680, 0)]], 1, 1⟩, ⟨[[(88940031716, 0), (3091203252821, 0)],
    [(146838732718, 0), (2368788721, 0)]], 1, 1⟩, 1099511627776, 0, 436433323985, ⟨[], 0, 0⟩, 0, 0, 0, ⟨0, 4,
    323285582982766, [58803312773]⟩⟩ 0 1 1242)))))
theorem c16 : checkC job ⟨6, 8, 7, 8, 9, 13⟩ 3 100 lims t16 208 48 16 39 3 128 = true := by decide +kernel

def t17 : CTree :=
  .sx (.sy (.leaf ⟨215, 16, 20, 243, 16, 103, ⟨[[], [(343597383680, 0)]], 3, 4⟩, ⟨[[(0, 358962176229),
    (2503659583625, 0), (17681188234, 0), (462138692, 0), (10849013, 0)], [(179948890279, 0), (3143827693, 0),
    (93482049, 0), (2925208, 0), (94868, 0)], [(0, 22969506), (4028444, 0), (219347, 0), (10086, 0), (430, 0)],
    [(104642, 0), (5190, 0), (415, 0), (26, 0), (2, 0)]], 3, 4⟩, 1099511627776, 0, 2307623106, ⟨[[(44155702249932,
    0), (0, 89919077851), (463672366, 0), (0, 128549), (0, 4446)], [(47219955618, 0), (0, 123279082), (0, 14063),
    (278, 0), (0, 19)], [(0, 81785099), (310338, 0), (0, 6), (11, 0)], [(213088, 0), (0, 999), (0, 2)]], 3, 4⟩,
    68719476736, 164178159,
    1432261758265227021308757774659126453766279073690780663274620647694852666956071087159325214218, ⟨0, 3,
    158068017218299, [96740691534, 70305735, 68126]⟩⟩) (.sx (.leaf ⟨425, 16, 41, 319, 16, 130, ⟨[[(412316860416, 0)],
    [(352187318272, 0)]], 3, 4⟩, ⟨[[(0, 209873998797), (3369213204087, 0), (31849910932, 0), (911258590, 0),
    (25319733, 0)], [(127890753465, 0), (2723885675, 0), (95755753, 0), (3532277, 0), (131460, 0)], [(216952, 0),
    (2300289, 0), (144184, 0), (7692, 0), (378, 0)], [(24606, 0), (1983, 0), (184, 0), (14, 0), (1, 0)]], 3, 4⟩,
    1099511627776, 0, 613611236, ⟨[[(42964932601769, 0), (0, 63357144994), (287297380, 0), (0, 140749), (0, 1334)],
    [(23055749285, 0), (0, 49710908), (0, 10439), (0, 408), (0, 13)], [(0, 19906692), (64596, 0), (135, 0), (5, 0)],
    [(25959, 0), (0, 118), (0, 1)]], 3, 4⟩, 68719476736, 25522341,
    2005159556226758027171184717018110466776067821089205688836204816212088865577454307798368942625, ⟨0, 3,
    196520592835772, [63256575702, 23816482, 11956]⟩⟩) (.sy (.leaf ⟨456, 16, 41, 478, 16, 191, ⟨[[(137438953472, 0)],
    [(352187318272, 0)]], 3, 4⟩, ⟨[[(0, 395125636657), (2596600703475, 0), (13617652116, 0), (203938980, 0),
    (3040698, 0)], [(182264969930, 0), (2110779516, 0), (39564943, 0), (783907, 0), (15844, 0)], [(5038843, 0),
    (1786845, 0), (59879, 0), (1739, 0), (46, 0)], [(32985, 0), (1565, 0), (79, 0), (3, 0)]], 3, 4⟩, 1099511627776,
    0, 300463362, ⟨[[(43261666060187, 0), (0, 41667142310), (131500221, 0), (0, 59312), (0, 303)], [(21599854998, 0),
    (0, 31375469), (0, 4409), (0, 126), (0, 3)], [(0, 17355086), (38375, 0), (66, 0), (2, 0)], [(20918, 0), (0,
    67)]], 3, 4⟩, 68719476736, 8098377,
    1528508446520082762174154678351422179194573616249907729596004184854813701188856880617200035220, ⟨0, 3,
    297348457888242, [86672990026, 30432932, 14248]⟩⟩) (.sy (.leaf ⟨456, 16, 41, 611, 16, 239, ⟨[[(137438953472, 0)],
    [(352187318272, 0)]], 3, 4⟩, ⟨[[(341249212184, 0), (1709767273633, 0), (5252312610, 0), (42251029, 0), (345500,
    0)], [(241056190413, 0), (1577261515, 0), (16392410, 0), (179199, 0), (1974, 0)], [(18108893, 0), (1533412, 0),
    (28211, 0), (446, 0), (6, 0)], [(52505, 0), (1570, 0), (43, 0), (1, 0)]], 3, 4⟩, 1099511627776, 0, 422175048,
    ⟨[[(42846817673019, 0), (0, 31152399301), (82703471, 0), (0, 35716), (0, 85)], [(21276406464, 0), (0, 25188647),
    (0, 6510), (0, 131), (0, 2)], [(0, 16951292), (32229, 0), (82, 0), (1, 0)], [(20177, 0), (0, 63)]], 3, 4⟩,
    68719476736, 6241724,
    2203109563161415680249435240896960618659550712737629779330522871452669707408201245042230435952, ⟨0, 3,
    372074771912512, [108454683855, 38080999, 17828]⟩⟩) (.sx (.leaf ⟨897, 16, 82, 919, 16, 357, ⟨[[(0,
    137438953472)], [(352187318272, 0)]], 3, 4⟩, ⟨[[(184465206426, 0), (2592616459637, 0), (8414416225, 0),
    (69389025, 0), (585229, 0)], [(186637114880, 0), (1274421657, 0), (13730001, 0), (154842, 0), (1769, 0)],
    [(8942322, 0), (663655, 0), (12565, 0), (205, 0), (3, 0)], [(11382, 0), (365, 0), (10, 0)]], 3, 4⟩,
    1099511627776, 0, 47077220, ⟨[[(42556463122351, 0), (0, 20259170985), (36889809, 0), (0, 10724), (0, 11)],
    [(10712529025, 0), (0, 8622069), (0, 2227), (0, 27)], [(0, 4317594), (5786, 0), (13, 0)], [(2595, 0), (0, 6)]],
    3, 4⟩, 68719476736, 824730,
    2238097754186198947765989602022380750759543942895123903476930324600814573386058859369817241734, ⟨0, 3,
    551855791034084, [82389256907, 14712367, 3503]⟩⟩) (.out ⟨916, 16, 81, 896, 16, 342, ⟨[[(343597383680, 0)],
    [(347892350976, 0)]], 1, 1⟩, ⟨[[(262699058030, 0), (2607074214301, 0)], [(180750449261, 0), (1353398634, 0)]], 1,
    1⟩, 1099511627776, 0, 225867177860, ⟨[], 0, 0⟩, 0, 0, 0, ⟨0, 4, 536118617673838, [76311141431]⟩⟩ 0 1 544))))))
    (.sy (.sx (.leaf ⟨487, 16, 41, 328, 16, 133, ⟨[[(0, 137438953472)], [(352187318272, 0)]], 3, 4⟩,
    ⟨[[(523405778423, 0), (3554889154451, 0), (33220763845, 0), (951807276, 0), (26675164, 0)], [(115067811054, 0),
    (2463740942, 0), (85796859, 0), (3175715, 0), (123259, 0)], [(0, 375738), (1742995, 0), (109667, 0), (6058, 0),
    (320, 0)], [(16015, 0), (1253, 0), (120, 0), (10, 0), (1, 0)]], 3, 4⟩, 1099511627776, 0, 520726478,
    ⟨[[(44218201812814, 0), (0, 63824462035), (273468715, 0), (0, 152002), (0, 1663)], [(20783789750, 0), (0,
    41875601), (0, 1501), (0, 25), (0, 5)], [(0, 15799605), (46706, 0), (41, 0), (2, 0)], [(17913, 0), (0, 71)]], 3,
    4⟩, 68719476736, 10872068,
    1822783246390334775658887534706071286987875515222797301949390709954129303547483198717967036185, ⟨0, 4,
    212661147732871, [56541646897, 18599226, 8158]⟩⟩) (.leaf ⟨518, 16, 41, 321, 16, 126, ⟨[[(0, 412316860416)],
    [(352187318272, 0)]], 3, 4⟩, ⟨[[(0, 313296678461), (3608214867507, 0), (40345867654, 0), (1252641259, 0),
    (39901817, 0)], [(109365206291, 0), (2687609774, 0), (104904988, 0), (4412708, 0), (195514, 0)], [(4062870, 0),
    (2052980, 0), (145318, 0), (9200, 0), (538, 0)], [(15668, 0), (1637, 0), (179, 0), (16, 0), (1, 0)]], 3, 4⟩,
    1099511627776, 0, 826765268, ⟨[[(44174673713107, 0), (0, 62506895096), (297838130, 0), (0, 265402), (0, 2006)],
    [(19428810044, 0), (0, 41332788), (0, 80), (0, 150), (0, 8)], [(0, 13819899), (44063, 0), (95, 0), (3, 0)],
    [(14523, 0), (0, 69), (0, 1)]], 3, 4⟩, 68719476736, 17745026,
    3742123215577379198157935697872669448672655350313829185491559809419063926657288582088243722125, ⟨0, 4,
    206454909970512, [50383645750, 15588999, 6431]⟩⟩)) (.sx (.sy (.leaf ⟨487, 16, 41, 468, 16, 181, ⟨[[(0,
    137438953472)], [(352187318272, 0)]], 3, 4⟩, ⟨[[(0, 242384360465), (2669731554486, 0), (17102560337, 0),
    (282837036, 0), (4826598, 0)], [(174525810915, 0), (2372174525, 0), (50858353, 0), (1160288, 0), (26704, 0)],
    [(14162716, 0), (2215024, 0), (84874, 0), (2810, 0), (81, 0)], [(34424, 0), (2201, 0), (125, 0), (5, 0)]], 3, 4⟩,
    1099511627776, 0, 337768965, ⟨[[(43272395703713, 0), (0, 40615907504), (142490943, 0), (0, 96602), (0, 320)],
    [(20117519631, 0), (0, 30899392), (0, 7535), (0, 233), (0, 4)], [(0, 15035944), (36995, 0), (118, 0), (2, 0)],
    [(16656, 0), (0, 67), (0, 1)]], 3, 4⟩, 68719476736, 8156436,
    3936072548004962406267169040863394393308183497633901349158359484871424775024072033999519840200, ⟨0, 4,
    289411035636464, [76947654799, 25311729, 11102]⟩⟩) (.out ⟨475, 16, 40, 438, 16, 164, ⟨[[], [(343597383680, 0)]],
    1, 1⟩, ⟨[[(0, 430709937087), (2636981917974, 0)], [(172952287203, 0), (2840923651, 0)]], 1, 1⟩, 1099511627776, 0,
    522919977832, ⟨[], 0, 0⟩, 0, 0, 0, ⟨0, 4, 262228783670608, [69720527001]⟩⟩ 0 1 943)) (.sy (.out ⟨505, 16, 40,
    454, 16, 170, ⟨[[], [(343597383680, 0)]], 1, 1⟩, ⟨[[(0, 218208132927), (2742583498581, 0)], [(167416123555, 0),
    (2693579211, 0)]], 1, 1⟩, 1099511627776, 0, 491825773595, ⟨[], 0, 0⟩, 0, 0, 0, ⟨0, 4, 278550275357040,
    [67977934742]⟩⟩ 0 1 942) (.out ⟨505, 16, 40, 420, 16, 152, ⟨[[], [(343597383680, 0)]], 1, 1⟩, ⟨[[(0,
    173096746766), (2728627192739, 0)], [(166697581830, 0), (3340527310, 0)]], 1, 1⟩, 1099511627776, 0, 620691006886,
    ⟨[], 0, 0⟩, 0, 0, 0, ⟨0, 4, 249056716789824, [60780271063]⟩⟩ 0 1 1669))))
theorem c17 : checkC job ⟨6, 8, 7, 8, 9, 13⟩ 3 100 lims t17 368 48 32 45 3 128 = true := by decide +kernel

def t18 : CTree :=
  .sx (.sy (.sx (.leaf ⟨548, 16, 41, 501, 16, 194, ⟨[[(412316860416, 0)], [(352187318272, 0)]], 3, 4⟩, ⟨[[(0,
    477888904039), (2880827521668, 0), (17219246245, 0), (277065874, 0), (4675217, 0)], [(163485860308, 0),
    (2123250975, 0), (43320945, 0), (962752, 0), (22712, 0)], [(8111514, 0), (1598487, 0), (59525, 0), (2001, 0),
    (61, 0)], [(21944, 0), (1269, 0), (74, 0), (3, 0)]], 3, 4⟩, 1099511627776, 0, 193884353, ⟨[[(44471406172544, 0),
    (0, 39689037830), (124075554, 0), (0, 83578), (0, 371)], [(18466336813, 0), (0, 25217037), (1660, 0), (0, 26),
    (0, 1)], [(0, 12435993), (25367, 0), (39, 0), (1, 0)], [(12263, 0), (0, 40)]], 3, 4⟩, 68719476736, 3912657,
    2123355073976227728715501810433793139602376099613709519924537600346230431898575038388033933235, ⟨0, 4,
    325109387241052, [73224829760, 21385756, 8328]⟩⟩) (.out ⟨565, 16, 40, 488, 16, 184, ⟨[[], [(343597383680, 0)]],
    1, 1⟩, ⟨[[(421171171764, 0), (2940793896484, 0)], [(157129649918, 0), (2342446310, 0)]], 1, 1⟩, 1099511627776, 0,
    424876632309, ⟨[], 0, 0⟩, 0, 0, 0, ⟨0, 4, 314838180402136, [65762724583]⟩⟩ 0 1 798)) (.out ⟨275, 16, 20, 311, 16,
    115, ⟨[[], [(343597383680, 0)]], 1, 1⟩, ⟨[[(55320165352, 0), (1933266586058, 0)], [(213661009776, 0),
    (3602856619, 0)]], 1, 1⟩, 1099511627776, 0, 799475939742, ⟨[], 0, 0⟩, 0, 0, 0, ⟨0, 4, 194774319371706,
    [84445316794]⟩⟩ 0 1 1207)) (.sy (.out ⟨305, 16, 20, 321, 16, 116, ⟨[[], [(343597383680, 0)]], 1, 1⟩,
    ⟨[[(83346938743, 0), (2095644408401, 0)], [(205176357273, 0), (3819508250, 0)]], 1, 1⟩, 1099511627776, 0,
    790821091979, ⟨[], 0, 0⟩, 0, 0, 0, ⟨0, 4, 204229218464724, [76801300235]⟩⟩ 0 1 1701) (.sy (.sx (.out ⟨595, 16,
    40, 622, 16, 222, ⟨[[], [(343597383680, 0)]], 1, 1⟩, ⟨[[(382846982619, 0), (2090247396025, 0)], [(210721810695,
    0), (2160730879, 0)]], 1, 1⟩, 1099511627776, 0, 388257752282, ⟨[], 0, 0⟩, 0, 0, 0, ⟨0, 4, 387280810585325,
    [75343611111]⟩⟩ 0 1 1973) (.out ⟨625, 16, 40, 595, 16, 206, ⟨[[], [(343597383680, 0)]], 1, 1⟩, ⟨[[(0,
    63727033554), (2155106764782, 0)], [(204640844965, 0), (2513711416, 0)]], 1, 1⟩, 1099511627776, 0, 438012804748,
    ⟨[], 0, 0⟩, 0, 0, 0, ⟨0, 4, 365916648870604, [66557595776]⟩⟩ 0 1 2652)) (.out ⟨305, 16, 20, 354, 16, 122, ⟨[[],
    [(343597383680, 0)]], 1, 1⟩, ⟨[[(0, 44260439198), (1301745001452, 0)], [(254215899423, 0), (3272955826, 0)]], 1,
    1⟩, 1099511627776, 0, 919107428227, ⟨[], 0, 0⟩, 0, 0, 0, ⟨0, 4, 214792798730141, [80773781281]⟩⟩ 0 1 2757)))
theorem c18 : checkC job ⟨6, 8, 7, 8, 9, 13⟩ 3 100 lims t18 464 48 32 87 3 256 = true := by decide +kernel

def t19 : CTree :=
  .sy (.sx (.sy (.out ⟨535, 16, 40, 609, 16, 223, ⟨[[], [(343597383680, 0)]], 1, 1⟩, ⟨[[(450074170929, 0),
    (1932572569104, 0)], [(220734018906, 0), (2010136949, 0)]], 1, 1⟩, 1099511627776, 0, 391484569735, ⟨[], 0, 0⟩, 0,
    0, 0, ⟨0, 4, 373708213168839, [84170809466]⟩⟩ 0 1 1416) (.out ⟨535, 16, 40, 584, 16, 210, ⟨[[], [(343597383680,
    0)]], 1, 1⟩, ⟨[[(111676854416, 0), (1928600502039, 0)], [(220259024165, 0), (2254391889, 0)]], 1, 1⟩,
    1099511627776, 0, 433263318353, ⟨[], 0, 0⟩, 0, 0, 0, ⟨0, 4, 351922532580521, [79263990977]⟩⟩ 0 1 1809)) (.out
    ⟨565, 16, 40, 413, 16, 145, ⟨[[], [(343597383680, 0)]], 1, 1⟩, ⟨[[(0, 96578056998), (2893375233582, 0)],
    [(154808404095, 0), (3633783852, 0)]], 1, 1⟩, 1099511627776, 0, 695079549417, ⟨[], 0, 0⟩, 0, 0, 0, ⟨0, 4,
    248106174773422, [51823886220]⟩⟩ 0 1 2338)) (.sx (.sy (.out ⟨535, 16, 40, 555, 16, 196, ⟨[[], [(343597383680,
    0)]], 1, 1⟩, ⟨[[(341121215140, 0), (1923831415304, 0)], [(219480155737, 0), (2553667709, 0)]], 1, 1⟩,
    1099511627776, 0, 488643971007, ⟨[], 0, 0⟩, 0, 0, 0, ⟨0, 4, 328461030408486, [73979724912]⟩⟩ 0 1 2207) (.out
    ⟨535, 16, 40, 523, 16, 181, ⟨[[], [(343597383680, 0)]], 1, 1⟩, ⟨[[(0, 131188845519), (1919190221021, 0)],
    [(218466394676, 0), (2938556607, 0)]], 1, 1⟩, 1099511627776, 0, 568927198608, ⟨[], 0, 0⟩, 0, 0, 0, ⟨0, 4,
    303323706652734, [68318011271]⟩⟩ 0 1 2661)) (.sy (.sy (.out ⟨565, 16, 40, 657, 16, 225, ⟨[[], [(343597383680,
    0)]], 1, 1⟩, ⟨[[(0, 221109830927), (1239725679050, 0)], [(264521491494, 0), (1865120469, 0)]], 1, 1⟩,
    1099511627776, 0, 500521987883, ⟨[], 0, 0⟩, 0, 0, 0, ⟨0, 4, 384992340165655, [80416375169]⟩⟩ 0 1 2901) (.out
    ⟨565, 16, 40, 634, 16, 215, ⟨[[], [(343597383680, 0)]], 1, 1⟩, ⟨[[(242924332865, 0), (1240380729599, 0)],
    [(264168009231, 0), (2028297819, 0)]], 1, 1⟩, 1099511627776, 0, 546316446980, ⟨[], 0, 0⟩, 0, 0, 0, ⟨0, 4,
    367881569491626, [76842314051]⟩⟩ 0 1 3127)) (.sy (.sx (.out ⟨1129, 16, 81, 1019, 16, 345, ⟨[[(0, 68719476736)],
    [(347892350976, 0)]], 1, 1⟩, ⟨[[(273253390682, 0), (2007972312256, 0)], [(217081091806, 0), (1706713292, 0)]], 1,
    1⟩, 1099511627776, 0, 289983488497, ⟨[], 0, 0⟩, 0, 0, 0, ⟨0, 4, 587342448558195, [62481960857]⟩⟩ 0 1 3165) (.out
    ⟨1159, 16, 81, 972, 16, 323, ⟨[[(343597383680, 0)], [(347892350976, 0)]], 1, 1⟩, ⟨[[(489664325206, 0),
    (2049591337810, 0)], [(213907678351, 0), (1959063902, 0)]], 1, 1⟩, 1099511627776, 0, 333377083526, ⟨[], 0, 0⟩, 0,
    0, 0, ⟨0, 4, 555430277062971, [56964915620]⟩⟩ 0 1 3602)) (.out ⟨565, 16, 40, 582, 16, 193, ⟨[[], [(343597383680,
    0)]], 1, 1⟩, ⟨[[(140571576000, 0), (1239991518824, 0)], [(262599975418, 0), (2489995825, 0)]], 1, 1⟩,
    1099511627776, 0, 691655889219, ⟨[], 0, 0⟩, 0, 0, 0, ⟨0, 4, 330237874008762, [68979379590]⟩⟩ 0 1 3651))))
theorem c19 : checkC job ⟨6, 8, 7, 8, 9, 13⟩ 3 100 lims t19 880 48 64 93 3 256 = true := by decide +kernel

def t20 : CTree :=
  .sy (.sy (.sy (.out ⟨595, 16, 40, 707, 16, 244, ⟨[[], [(343597383680, 0)]], 1, 1⟩, ⟨[[(345388913337, 0),
    (1299949855392, 0)], [(261396239903, 0), (1696140414, 0)]], 1, 1⟩, 1099511627776, 0, 430820821016, ⟨[], 0, 0⟩, 0,
    0, 0, ⟨0, 4, 425659990012699, [82810095095]⟩⟩ 0 1 2724) (.out ⟨595, 16, 40, 685, 16, 234, ⟨[[], [(343597383680,
    0)]], 1, 1⟩, ⟨[[(298412179160, 0), (1299994877417, 0)], [(261025988459, 0), (1827181245, 0)]], 1, 1⟩,
    1099511627776, 0, 462537703740, ⟨[], 0, 0⟩, 0, 0, 0, ⟨0, 4, 408214908454802, [79416238739]⟩⟩ 0 1 2958)) (.out
    ⟨595, 16, 40, 518, 16, 174, ⟨[[], [(343597383680, 0)]], 1, 1⟩, ⟨[[(0, 274678401107), (2073375856534, 0)],
    [(207555873016, 0), (3296966030, 0)]], 1, 1⟩, 1099511627776, 0, 610568569483, ⟨[], 0, 0⟩, 0, 0, 0, ⟨0, 4,
    303544419107417, [59053100601]⟩⟩ 0 1 3348)) (.sy (.sx (.out ⟨1190, 16, 81, 709, 16, 235, ⟨[[(0, 343597383680)],
    [(347892350976, 0)]], 1, 1⟩, ⟨[[(0, 344197978518), (2991420374041, 0)], [(151460476272, 0), (2743487277, 0)]], 1,
    1⟩, 1099511627776, 0, 492315979651, ⟨[], 0, 0⟩, 0, 0, 0, ⟨0, 4, 408033115404380, [40386890641]⟩⟩ 0 1 3663) (.out
    ⟨1220, 16, 81, 667, 16, 217, ⟨[[(68719476736, 0)], [(347892350976, 0)]], 1, 1⟩, ⟨[[(0, 31857675310),
    (3034626347623, 0)], [(148357522754, 0), (3185886710, 0)]], 1, 1⟩, 1099511627776, 0, 607413633081, ⟨[], 0, 0⟩, 0,
    0, 0, ⟨0, 4, 380314743098269, [36364959622]⟩⟩ 0 1 4108)) (.sx (.sy (.out ⟨1190, 16, 81, 915, 16, 298, ⟨[[(0,
    343597383680)], [(347892350976, 0)]], 1, 1⟩, ⟨[[(0, 67019411738), (2086793817918, 0)], [(210055383272, 0),
    (2309955674, 0)]], 1, 1⟩, 1099511627776, 0, 399834160218, ⟨[], 0, 0⟩, 0, 0, 0, ⟨0, 4, 517420716555342,
    [51214014514]⟩⟩ 0 1 4082) (.out ⟨1190, 16, 81, 858, 16, 276, ⟨[[(0, 343597383680)], [(347892350976, 0)]], 1, 1⟩,
    ⟨[[(381252865136, 0), (2088410432568, 0)], [(208979799241, 0), (2711711048, 0)]], 1, 1⟩, 1099511627776, 0,
    485502144843, ⟨[], 0, 0⟩, 0, 0, 0, ⟨0, 4, 479221871708974, [47433114114]⟩⟩ 0 1 4383)) (.sy (.out ⟨1220, 16, 81,
    846, 16, 270, ⟨[[(68719476736, 0)], [(347892350976, 0)]], 1, 1⟩, ⟨[[(252910488212, 0), (2124130683406, 0)],
    [(205854937265, 0), (2833825531, 0)]], 1, 1⟩, 1099511627776, 0, 506382746906, ⟨[], 0, 0⟩, 0, 0, 0, ⟨0, 4,
    473202675744390, [45246723954]⟩⟩ 0 1 4576) (.out ⟨1220, 16, 81, 776, 16, 244, ⟨[[(68719476736, 0)],
    [(347892350976, 0)]], 1, 1⟩, ⟨[[(0, 285450995752), (2122465975479, 0)], [(203874033888, 0), (3457739811, 0)]], 1,
    1⟩, 1099511627776, 0, 643735043599, ⟨[], 0, 0⟩, 0, 0, 0, ⟨0, 4, 427635010672708, [40889632018]⟩⟩ 0 1 4945))))
theorem c20 : checkC job ⟨6, 8, 7, 8, 9, 13⟩ 3 100 lims t20 1904 48 128 93 3 256 = true := by decide +kernel

def t21 : CTree :=
  .sy (.out ⟨625, 16, 40, 518, 16, 172, ⟨[[], [(343597383680, 0)]], 1, 1⟩, ⟨[[(167788726765, 0), (2153850654443, 0)],
    [(203040990933, 0), (3443448107, 0)]], 1, 1⟩, 1099511627776, 0, 628226084261, ⟨[], 0, 0⟩, 0, 0, 0, ⟨0, 4,
    305522638862834, [55572361521]⟩⟩ 0 1 3620) (.sx (.out ⟨1250, 16, 81, 697, 16, 228, ⟨[[(481036337152, 0)],
    [(347892350976, 0)]], 1, 1⟩, ⟨[[(0, 125476447511), (3074758959065, 0)], [(146402670995, 0), (2871466482, 0)]], 1,
    1⟩, 1099511627776, 0, 531992113292, ⟨[], 0, 0⟩, 0, 0, 0, ⟨0, 4, 403216455916578, [37280206745]⟩⟩ 0 1 3977) (.out
    ⟨1281, 16, 81, 651, 16, 209, ⟨[[(0, 206158430208)], [(347892350976, 0)]], 1, 1⟩, ⟨[[(0, 125749235672),
    (3102269047351, 0)], [(142726597158, 0), (3328499018, 0)]], 1, 1⟩, 1099511627776, 0, 658222510235, ⟨[], 0, 0⟩, 0,
    0, 0, ⟨0, 4, 372856530480826, [33363083573]⟩⟩ 0 1 4431))
theorem c21 : checkC job ⟨6, 8, 7, 8, 9, 13⟩ 3 100 lims t21 2000 48 128 183 3 512 = true := by decide +kernel

def t22 : CTree :=
  .sy (.sy (.out ⟨625, 16, 40, 538, 16, 171, ⟨[[], [(343597383680, 0)]], 1, 1⟩, ⟨[[(0, 18219353591), (1356247224028,
    0)], [(251823101785, 0), (3406454877, 0)]], 1, 1⟩, 1099511627776, 0, 913482163625, ⟨[], 0, 0⟩, 0, 0, 0, ⟨0, 4,
    303746344450841, [55249266396]⟩⟩ 0 1 4677) (.sx (.out ⟨1250, 16, 81, 837, 16, 265, ⟨[[(481036337152, 0)],
    [(347892350976, 0)]], 1, 1⟩, ⟨[[(0, 374068200802), (2163205407093, 0)], [(203170918082, 0), (2953101151, 0)]], 1,
    1⟩, 1099511627776, 0, 526792802998, ⟨[], 0, 0⟩, 0, 0, 0, ⟨0, 4, 468650705341637, [43330064857]⟩⟩ 0 1 4774) (.out
    ⟨1281, 16, 81, 752, 16, 233, ⟨[[(0, 206158430208)], [(347892350976, 0)]], 1, 1⟩, ⟨[[(47733876997, 0),
    (2203309520672, 0)], [(198670622931, 0), (3794656135, 0)]], 1, 1⟩, 1099511627776, 0, 705760321457, ⟨[], 0, 0⟩, 0,
    0, 0, ⟨0, 4, 415672591397285, [37194251064]⟩⟩ 0 1 5315))) (.sx (.sy (.sx (.out ⟨2486, 16, 162, 1134, 16, 356,
    ⟨[[(0, 343597383680)], [(347892350976, 0)]], 1, 1⟩, ⟨[[(214429068348, 0), (3109031519444, 0)], [(146156199094,
    0), (2455749056, 0)]], 1, 1⟩, 1099511627776, 0, 446387131923, ⟨[], 0, 0⟩, 0, 0, 0, ⟨0, 4, 628182303131338,
    [29282552073]⟩⟩ 0 1 4985) (.sy (.out ⟨2516, 16, 162, 1547, 16, 482, ⟨[[(68719476736, 0)], [(347892350976, 0)]],
    1, 1⟩, ⟨[[(310813912824, 0), (2211447356586, 0)], [(204122949410, 0), (1870071708, 0)]], 1, 1⟩, 1099511627776, 0,
    302814473957, ⟨[], 0, 0⟩, 0, 0, 0, ⟨0, 4, 854299495503613, [39167970400]⟩⟩ 0 1 5175) (.out ⟨2516, 16, 162, 1463,
    16, 452, ⟨[[(68719476736, 0)], [(347892350976, 0)]], 1, 1⟩, ⟨[[(0, 373261819909), (2211927417658, 0)],
    [(202930240497, 0), (2098344949, 0)]], 1, 1⟩, 1099511627776, 0, 343810879846, ⟨[], 0, 0⟩, 0, 0, 0, ⟨0, 4,
    801127327733678, [36730129919]⟩⟩ 0 1 5388))) (.sx (.sy (.out ⟨2486, 16, 162, 1479, 16, 459, ⟨[[(0,
    343597383680)], [(347892350976, 0)]], 1, 1⟩, ⟨[[(549459693562, 0), (2195437395209, 0)], [(204662709296, 0),
    (2050640921, 0)]], 1, 1⟩, 1099511627776, 0, 336604430572, ⟨[], 0, 0⟩, 0, 0, 0, ⟨0, 4, 809931677351921,
    [37754751128]⟩⟩ 0 1 5274) (.out ⟨2486, 16, 162, 1391, 16, 428, ⟨[[(0, 343597383680)], [(347892350976, 0)]], 1,
    1⟩, ⟨[[(159372152635, 0), (2197444066353, 0)], [(203456829663, 0), (2310507769, 0)]], 1, 1⟩, 1099511627776, 0,
    383569688493, ⟨[], 0, 0⟩, 0, 0, 0, ⟨0, 4, 755230409382619, [35204865976]⟩⟩ 0 1 5492)) (.sy (.out ⟨2516, 16, 162,
    1374, 16, 421, ⟨[[(68719476736, 0)], [(347892350976, 0)]], 1, 1⟩, ⟨[[(85662224, 0), (2216518510601, 0)],
    [(201931704613, 0), (2369972836, 0)]], 1, 1⟩, 1099511627776, 0, 392758276818, ⟨[], 0, 0⟩, 0, 0, 0, ⟨0, 4,
    746182754371413, [34211028088]⟩⟩ 0 1 5600) (.out ⟨2516, 16, 162, 1278, 16, 388, ⟨[[(68719476736, 0)],
    [(347892350976, 0)]], 1, 1⟩, ⟨[[(0, 95811930178), (2219868253525, 0)], [(200635697015, 0), (2681701152, 0)]], 1,
    1⟩, 1099511627776, 0, 449161099693, ⟨[], 0, 0⟩, 0, 0, 0, ⟨0, 4, 687693369824485, [31529403558]⟩⟩ 0 1 5836))))
    (.sy (.sy (.out ⟨1281, 16, 81, 876, 16, 268, ⟨[[(0, 206158430208)], [(347892350976, 0)]], 1, 1⟩, ⟨[[(0,
    81996747920), (1406389302776, 0)], [(251141444556, 0), (2892084759, 0)]], 1, 1⟩, 1099511627776, 0, 700266173407,
    ⟨[], 0, 0⟩, 0, 0, 0, ⟨0, 4, 478112680233787, [42781370323]⟩⟩ 0 1 5639) (.sx (.out ⟨2546, 16, 162, 1360, 16, 415,
    ⟨[[(481036337152, 0)], [(347892350976, 0)]], 1, 1⟩, ⟨[[(0, 218402058296), (2238748208799, 0)], [(200723339124,
    0), (2430011362, 0)]], 1, 1⟩, 1099511627776, 0, 402025282838, ⟨[], 0, 0⟩, 0, 0, 0, ⟨0, 4, 738766386880832,
    [33321192079]⟩⟩ 0 1 5705) (.out ⟨2577, 16, 162, 1245, 16, 375, ⟨[[(0, 206158430208)], [(347892350976, 0)]], 1,
    1⟩, ⟨[[(293556891910, 0), (2261937759504, 0)], [(197977427489, 0), (2814625428, 0)]], 1, 1⟩, 1099511627776, 0,
    469820744435, ⟨[], 0, 0⟩, 0, 0, 0, ⟨0, 4, 670433397432375, [29754585442]⟩⟩ 0 1 6042))) (.sx (.sy (.out ⟨2546, 16,
    162, 1260, 16, 381, ⟨[[(481036337152, 0)], [(347892350976, 0)]], 1, 1⟩, ⟨[[(105293597974, 0), (2239281141234,
    0)], [(199147098060, 0), (2748066719, 0)]], 1, 1⟩, 1099511627776, 0, 459485838379, ⟨[], 0, 0⟩, 0, 0, 0, ⟨0, 4,
    678240947955655, [30591263090]⟩⟩ 0 1 5941) (.skip)) (.skip))))
theorem c22 : checkC job ⟨6, 8, 7, 8, 9, 13⟩ 3 100 lims t22 2000 48 128 189 3 512 = true := by decide +kernel

def t23 : CTree :=
  .sx (.sx (.leaf ⟨335, 16, 20, 266, 16, 103, ⟨[[], [(343597383680, 0)]], 3, 4⟩, ⟨[[(335240385709, 0),
    (3154391624729, 0), (34458616530, 0), (1050948947, 0), (32940082, 0)], [(136628369707, 0), (3373660821, 0),
    (126925754, 0), (5139661, 0), (234144, 0)], [(4128102, 0), (3407018, 0), (232194, 0), (14761, 0), (965, 0)],
    [(36561, 0), (3311, 0), (371, 0), (36, 0), (3, 0)]], 3, 4⟩, 1099511627776, 0, 1218458575, ⟨[[(46821978876055, 0),
    (0, 80583955172), (442275398, 0), (0, 515296), (0, 5541)], [(31973949174, 0), (0, 77040960), (36370, 0), (1206,
    0), (1, 0)], [(0, 36189100), (110896, 0), (0, 74), (4, 0)], [(59087, 0), (0, 297), (0, 2)]], 3, 4⟩, 68719476736,
    34128592, 3497160300039043665540120151810906391576657341805512101459965612608487388353059464829171044189, ⟨0, 4,
    187585812008944, [62087309492, 28958633, 18009]⟩⟩) (.sy (.leaf ⟨365, 16, 20, 393, 16, 148, ⟨[[], [(343597383680,
    0)]], 3, 4⟩, ⟨[[(149519746089, 0), (2425612877344, 0), (15178027415, 0), (247121492, 0), (4343784, 0)],
    [(190565530727, 0), (2613319180, 0), (53485072, 0), (1204844, 0), (31106, 0)], [(12462483, 0), (2614728, 0),
    (98219, 0), (3532, 0), (127, 0)], [(45839, 0), (2555, 0), (162, 0), (8, 0)]], 3, 4⟩, 1099511627776, 0, 524849508,
    ⟨[[(47153316243636, 0), (0, 53057284466), (208596038, 0), (0, 216235), (0, 1296)], [(29419302405, 0), (0,
    49025407), (29384, 0), (504, 0), (1, 0)], [(0, 30767404), (59614, 0), (0, 63), (1, 0)], [(45828, 0), (0, 162),
    (0, 1)]], 3, 4⟩, 68719476736, 12775266,
    2945553398431407246353179061729330928080022385864617158706816269275787195604988965577269329265, ⟨0, 4,
    277743187654770, [81880271436, 35051486, 20007]⟩⟩) (.sy (.out ⟨365, 16, 20, 485, 16, 178, ⟨[[], [(343597383680,
    0)]], 1, 1⟩, ⟨[[(141153568498, 0), (1550901628081, 0)], [(244789536395, 0), (1913048848, 0)]], 1, 1⟩,
    1099511627776, 0, 470144778937, ⟨[], 0, 0⟩, 0, 0, 0, ⟨0, 4, 334042482449656, [98477623754]⟩⟩ 0 1 1367) (.out
    ⟨365, 16, 20, 469, 16, 169, ⟨[[], [(343597383680, 0)]], 1, 1⟩, ⟨[[(0, 193442178354), (1543921801884, 0)],
    [(244142859437, 0), (2106039230, 0)]], 1, 1⟩, 1099511627776, 0, 503301966011, ⟨[], 0, 0⟩, 0, 0, 0, ⟨0, 4,
    317152694011190, [93498418058]⟩⟩ 0 1 1763)))) (.sy (.sx (.out ⟨395, 16, 20, 382, 16, 138, ⟨[[], [(343597383680,
    0)]], 1, 1⟩, ⟨[[(241179330748, 0), (2520487858270, 0)], [(181126519859, 0), (2982055194, 0)]], 1, 1⟩,
    1099511627776, 0, 539880266768, ⟨[], 0, 0⟩, 0, 0, 0, ⟨0, 4, 266020488752673, [70549252005]⟩⟩ 0 1 1708) (.sy (.out
    ⟨425, 16, 20, 500, 16, 175, ⟨[[], [(343597383680, 0)]], 1, 1⟩, ⟨[[(239969163883, 0), (1749641426737, 0)],
    [(230536806069, 0), (2176488843, 0)]], 1, 1⟩, 1099511627776, 0, 438113819940, ⟨[], 0, 0⟩, 0, 0, 0, ⟨0, 4,
    345622904737469, [83149480731]⟩⟩ 0 1 2407) (.out ⟨425, 16, 20, 481, 16, 165, ⟨[[], [(343597383680, 0)]], 1, 1⟩,
    ⟨[[(0, 101459482388), (1752560250230, 0)], [(230818733980, 0), (2453415130, 0)]], 1, 1⟩, 1099511627776, 0,
    486853180324, ⟨[], 0, 0⟩, 0, 0, 0, ⟨0, 4, 325873024466757, [78398081832]⟩⟩ 0 1 2863))) (.sx (.sy (.sx (.out ⟨775,
    16, 40, 741, 16, 263, ⟨[[], [(343597383680, 0)]], 1, 1⟩, ⟨[[(0, 289860280903), (2514098805271, 0)],
    [(185134626029, 0), (1691624147, 0)]], 1, 1⟩, 1099511627776, 0, 271877567772, ⟨[], 0, 0⟩, 0, 0, 0, ⟨0, 4,
    503723186801706, [68527433797]⟩⟩ 0 1 2096) (.out ⟨805, 16, 40, 725, 16, 252, ⟨[[], [(343597383680, 0)]], 1, 1⟩,
    ⟨[[(441740038869, 0), (2575099395192, 0)], [(181170724401, 0), (1848520508, 0)]], 1, 1⟩, 1099511627776, 0,
    293769205558, ⟨[], 0, 0⟩, 0, 0, 0, ⟨0, 4, 488839455223803, [63214263611]⟩⟩ 0 1 2563)) (.out ⟨395, 16, 20, 453,
    16, 156, ⟨[[], [(343597383680, 0)]], 1, 1⟩, ⟨[[(0, 154859483583), (1639852479233, 0)], [(235908395638, 0),
    (2575477018, 0)]], 1, 1⟩, 1099511627776, 0, 547950106316, ⟨[], 0, 0⟩, 0, 0, 0, ⟨0, 4, 300718813372587,
    [79751328354]⟩⟩ 0 1 2774)) (.sx (.sy (.out ⟨835, 16, 40, 706, 16, 240, ⟨[[], [(343597383680, 0)]], 1, 1⟩,
    ⟨[[(125285955014, 0), (2633883337609, 0)], [(177062525574, 0), (2028406937, 0)]], 1, 1⟩, 1099511627776, 0,
    321732225572, ⟨[], 0, 0⟩, 0, 0, 0, ⟨0, 4, 471235884533695, [58041040442]⟩⟩ 0 1 3071) (.out ⟨835, 16, 40, 667, 16,
    222, ⟨[[], [(343597383680, 0)]], 1, 1⟩, ⟨[[(0, 42340182788), (2631506661307, 0)], [(176334676513, 0),
    (2333548410, 0)]], 1, 1⟩, 1099511627776, 0, 373667799774, ⟨[], 0, 0⟩, 0, 0, 0, ⟨0, 4, 435893193193668,
    [53687962408]⟩⟩ 0 1 3564)) (.out ⟨865, 16, 40, 438, 16, 144, ⟨[[], [(343597383680, 0)]], 1, 1⟩, ⟨[[(0,
    175351769701), (3561453885582, 0)], [(114093805162, 0), (3183882341, 0)]], 1, 1⟩, 1099511627776, 0, 757448644622,
    ⟨[], 0, 0⟩, 0, 0, 0, ⟨0, 4, 286026038619828, [33616833828]⟩⟩ 0 1 3856))))
theorem c23 : checkC job ⟨6, 8, 7, 8, 9, 13⟩ 3 100 lims t23 304 48 16 75 3 256 = true := by decide +kernel

def t24 : CTree :=
  .sx (.sy (.out ⟨335, 16, 20, 356, 16, 131, ⟨[[], [(343597383680, 0)]], 1, 1⟩, ⟨[[(60336997863, 0), (2253483046912,
    0)], [(197100462869, 0), (3145181936, 0)]], 1, 1⟩, 1099511627776, 0, 614743392959, ⟨[], 0, 0⟩, 0, 0, 0, ⟨0, 4,
    238580013331764, [78965413044]⟩⟩ 0 1 1311) (.sx (.out ⟨655, 16, 40, 478, 16, 172, ⟨[[], [(343597383680, 0)]], 1,
    1⟩, ⟨[[(258509282371, 0), (3153951680419, 0)], [(141935146258, 0), (2623607191, 0)]], 1, 1⟩, 1099511627776, 0,
    498055192398, ⟨[], 0, 0⟩, 0, 0, 0, ⟨0, 4, 310733502032821, [53027062520]⟩⟩ 0 1 1794) (.sy (.out ⟨685, 16, 40,
    676, 16, 239, ⟨[[], [(343597383680, 0)]], 1, 1⟩, ⟨[[(0, 442928144139), (2308638478659, 0)], [(197050118184, 0),
    (1977230660, 0)]], 1, 1⟩, 1099511627776, 0, 331330782822, ⟨[], 0, 0⟩, 0, 0, 0, ⟨0, 4, 438691396461248,
    [70455962504]⟩⟩ 0 1 2182) (.out ⟨685, 16, 40, 645, 16, 224, ⟨[[], [(343597383680, 0)]], 1, 1⟩, ⟨[[(425258868171,
    0), (2309539991187, 0)], [(196929685491, 0), (2249340284, 0)]], 1, 1⟩, 1099511627776, 0, 375966276449, ⟨[], 0,
    0⟩, 0, 0, 0, ⟨0, 4, 411158463628952, [66034040171]⟩⟩ 0 1 2582)))) (.sy (.sy (.out ⟨365, 16, 20, 452, 16, 160,
    ⟨[[], [(343597383680, 0)]], 1, 1⟩, ⟨[[(52290852390, 0), (1542678509432, 0)], [(244130072728, 0), (2352553101,
    0)]], 1, 1⟩, 1099511627776, 0, 550276616750, ⟨[], 0, 0⟩, 0, 0, 0, ⟨0, 4, 300262905572724, [88519212363]⟩⟩ 0 1
    2155) (.out ⟨365, 16, 20, 432, 16, 150, ⟨[[], [(343597383680, 0)]], 1, 1⟩, ⟨[[(0, 76204163816), (1538871956448,
    0)], [(243389893187, 0), (2656721268, 0)]], 1, 1⟩, 1099511627776, 0, 612737933735, ⟨[], 0, 0⟩, 0, 0, 0, ⟨0, 4,
    281496473974429, [82986761590]⟩⟩ 0 1 2587)) (.sy (.sx (.out ⟨715, 16, 40, 652, 16, 225, ⟨[[], [(343597383680,
    0)]], 1, 1⟩, ⟨[[(533658287781, 0), (2368972015005, 0)], [(191898039831, 0), (2229867848, 0)]], 1, 1⟩,
    1099511627776, 0, 366945975118, ⟨[], 0, 0⟩, 0, 0, 0, ⟨0, 4, 419226066760452, [63545806952]⟩⟩ 0 1 2726) (.out
    ⟨745, 16, 40, 625, 16, 210, ⟨[[], [(343597383680, 0)]], 1, 1⟩, ⟨[[(0, 53923397145), (2431660859716, 0)],
    [(186935831436, 0), (2536651236, 0)]], 1, 1⟩, 1099511627776, 0, 414945580375, ⟨[], 0, 0⟩, 0, 0, 0, ⟨0, 4,
    396855157750109, [56921121037]⟩⟩ 0 1 3342)) (.out ⟨365, 16, 20, 381, 16, 127, ⟨[[], [(343597383680, 0)]], 1, 1⟩,
    ⟨[[(38770582200, 0), (1524871630034, 0)], [(239764233787, 0), (3506956172, 0)]], 1, 1⟩, 1099511627776, 0,
    810166834079, ⟨[], 0, 0⟩, 0, 0, 0, ⟨0, 4, 238333681298350, [70262124813]⟩⟩ 0 1 3529)))
theorem c24 : checkC job ⟨6, 8, 7, 8, 9, 13⟩ 3 100 lims t24 560 48 32 81 3 256 = true := by decide +kernel

def t25 : CTree :=
  .sx (.sy (.sx (.out ⟨775, 16, 40, 676, 16, 231, ⟨[[], [(343597383680, 0)]], 1, 1⟩, ⟨[[(224258849241, 0),
    (2502750376937, 0)], [(184048771082, 0), (2156249388, 0)]], 1, 1⟩, 1099511627776, 0, 346899413174, ⟨[], 0, 0⟩, 0,
    0, 0, ⟨0, 4, 442433673578685, [60189495084]⟩⟩ 0 1 2951) (.out ⟨805, 16, 40, 651, 16, 217, ⟨[[], [(343597383680,
    0)]], 1, 1⟩, ⟨[[(0, 445291839716), (2563453739093, 0)], [(179508690393, 0), (2415326236, 0)]], 1, 1⟩,
    1099511627776, 0, 388844556659, ⟨[], 0, 0⟩, 0, 0, 0, ⟨0, 4, 420945086442719, [54434504776]⟩⟩ 0 1 3529)) (.sx
    (.out ⟨775, 16, 40, 637, 16, 213, ⟨[[], [(343597383680, 0)]], 1, 1⟩, ⟨[[(0, 438222158982), (2497011527153, 0)],
    [(183040489644, 0), (2484183282, 0)]], 1, 1⟩, 1099511627776, 0, 402744011819, ⟨[], 0, 0⟩, 0, 0, 0, ⟨0, 4,
    407958322390735, [55499404558]⟩⟩ 0 1 3455) (.out ⟨805, 16, 40, 607, 16, 198, ⟨[[], [(343597383680, 0)]], 1, 1⟩,
    ⟨[[(0, 13829676674), (2566548211433, 0)], [(178768357360, 0), (2826668260, 0)]], 1, 1⟩, 1099511627776, 0,
    461964563099, ⟨[], 0, 0⟩, 0, 0, 0, ⟨0, 4, 384088143390131, [49668349980]⟩⟩ 0 1 4045))) (.sy (.out ⟨425, 16, 20,
    395, 16, 127, ⟨[[], [(343597383680, 0)]], 1, 1⟩, ⟨[[(1644054046, 0), (1735524620193, 0)], [(225627576407, 0),
    (3767447484, 0)]], 1, 1⟩, 1099511627776, 0, 752783044313, ⟨[], 0, 0⟩, 0, 0, 0, ⟨0, 4, 250823479438049,
    [60342766016]⟩⟩ 0 1 4395) (.sy (.out ⟨425, 16, 20, 450, 16, 142, ⟨[[], [(343597383680, 0)]], 1, 1⟩, ⟨[[(0,
    60706341216), (1058628558005, 0)], [(273419610900, 0), (2621975099, 0)]], 1, 1⟩, 1099511627776, 0, 786296273564,
    ⟨[], 0, 0⟩, 0, 0, 0, ⟨0, 4, 280448299844118, [67469864364]⟩⟩ 0 1 4856) (.out ⟨425, 16, 20, 427, 16, 133, ⟨[[],
    [(343597383680, 0)]], 1, 1⟩, ⟨[[(19004198083, 0), (1059263233151, 0)], [(272089663336, 0), (2898832606, 0)]], 1,
    1⟩, 1099511627776, 0, 888902345240, ⟨[], 0, 0⟩, 0, 0, 0, ⟨0, 4, 262673407600477, [63193605355]⟩⟩ 0 1 5182)))
theorem c25 : checkC job ⟨6, 8, 7, 8, 9, 13⟩ 3 100 lims t25 656 48 32 159 3 512 = true := by decide +kernel

def t26 : CTree :=
  .sx (.sy (.sx (.out ⟨775, 16, 40, 593, 16, 194, ⟨[[], [(343597383680, 0)]], 1, 1⟩, ⟨[[(0, 212581251408),
    (2497043895752, 0)], [(182100984516, 0), (2906734928, 0)]], 1, 1⟩, 1099511627776, 0, 478699485575, ⟨[], 0, 0⟩, 0,
    0, 0, ⟨0, 4, 371567673914566, [50548753447]⟩⟩ 0 1 3974) (.out ⟨805, 16, 40, 556, 16, 177, ⟨[[], [(343597383680,
    0)]], 1, 1⟩, ⟨[[(0, 185747191062), (2564920557804, 0)], [(177287296418, 0), (3362200045, 0)]], 1, 1⟩,
    1099511627776, 0, 568611068815, ⟨[], 0, 0⟩, 0, 0, 0, ⟨0, 4, 343351522121481, [44400494679]⟩⟩ 0 1 4638)) (.sx (.sy
    (.out ⟨775, 16, 40, 731, 16, 235, ⟨[[], [(343597383680, 0)]], 1, 1⟩, ⟨[[(0, 21998586505), (1641823285339, 0)],
    [(238199436658, 0), (2176924715, 0)]], 1, 1⟩, 1099511627776, 0, 419388295521, ⟨[], 0, 0⟩, 0, 0, 0, ⟨0, 4,
    450094862731562, [61231737423]⟩⟩ 0 1 4398) (.out ⟨775, 16, 40, 696, 16, 221, ⟨[[], [(343597383680, 0)]], 1, 1⟩,
    ⟨[[(131821608855, 0), (1642832742253, 0)], [(237309311308, 0), (2402821055, 0)]], 1, 1⟩, 1099511627776, 0,
    469008325118, ⟨[], 0, 0⟩, 0, 0, 0, ⟨0, 4, 423280700696491, [57583889236]⟩⟩ 0 1 4702)) (.sy (.out ⟨805, 16, 40,
    679, 16, 212, ⟨[[], [(343597383680, 0)]], 1, 1⟩, ⟨[[(0, 57971450482), (1698062890345, 0)], [(232928165407, 0),
    (2606634242, 0)]], 1, 1⟩, 1099511627776, 0, 498704484564, ⟨[], 0, 0⟩, 0, 0, 0, ⟨0, 4, 411245890902565,
    [53180253514]⟩⟩ 0 1 5122) (.sy (.out ⟨805, 16, 40, 777, 16, 240, ⟨[[], [(343597383680, 0)]], 1, 1⟩, ⟨[[(0,
    313827961992), (1018296305536, 0)], [(278023546240, 0), (1721219003, 0)]], 1, 1⟩, 1099511627776, 0, 518472006518,
    ⟨[], 0, 0⟩, 0, 0, 0, ⟨0, 4, 465561385927432, [60204060582]⟩⟩ 0 1 5394) (.out ⟨805, 16, 40, 753, 16, 231, ⟨[[],
    [(343597383680, 0)]], 1, 1⟩, ⟨[[(54255590504, 0), (1022445282942, 0)], [(278126132028, 0), (1860204257, 0)]], 1,
    1⟩, 1099511627776, 0, 567309298645, ⟨[], 0, 0⟩, 0, 0, 0, ⟨0, 4, 448102833955153, [57946408310]⟩⟩ 0 1 5569)))))
    (.sy (.sx (.sy (.out ⟨835, 16, 40, 703, 16, 219, ⟨[[], [(343597383680, 0)]], 1, 1⟩, ⟨[[(0, 256967037269),
    (1750278292418, 0)], [(229668487427, 0), (2492889969, 0)]], 1, 1⟩, 1099511627776, 0, 456672588921, ⟨[], 0, 0⟩, 0,
    0, 0, ⟨0, 4, 430002744636997, [52962449403]⟩⟩ 0 1 5178) (.out ⟨835, 16, 40, 664, 16, 204, ⟨[[], [(343597383680,
    0)]], 1, 1⟩, ⟨[[(0, 145820464750), (1759084670900, 0)], [(229305961071, 0), (2832499860, 0)]], 1, 1⟩,
    1099511627776, 0, 534984753830, ⟨[], 0, 0⟩, 0, 0, 0, ⟨0, 4, 400550501853641, [49334884375]⟩⟩ 0 1 5531)) (.sy
    (.out ⟨865, 16, 40, 648, 16, 196, ⟨[[], [(343597383680, 0)]], 1, 1⟩, ⟨[[(0, 309868899850), (1816873715256, 0)],
    [(225210408752, 0), (3066773627, 0)]], 1, 1⟩, 1099511627776, 0, 575425658465, ⟨[], 0, 0⟩, 0, 0, 0, ⟨0, 4,
    389313219232544, [45756246044]⟩⟩ 0 1 5933) (.sx (.out ⟨1736, 16, 81, 929, 16, 279, ⟨[[(481036337152, 0)],
    [(347892350976, 0)]], 1, 1⟩, ⟨[[(319070578242, 0), (2726708609203, 0)], [(169929667137, 0), (2575071076, 0)]], 1,
    1⟩, 1099511627776, 0, 425301719348, ⟨[], 0, 0⟩, 0, 0, 0, ⟨0, 4, 552605450820196, [32851144282]⟩⟩ 0 1 6119)
    (.skip)))) (.sx (.sy (.sx (.out ⟨1676, 16, 81, 967, 16, 295, ⟨[[(0, 343597383680)], [(347892350976, 0)]], 1, 1⟩,
    ⟨[[(0, 253322508827), (2659999185366, 0)], [(174591105219, 0), (2356299173, 0)]], 1, 1⟩, 1099511627776, 0,
    377713423744, ⟨[], 0, 0⟩, 0, 0, 0, ⟨0, 4, 577507494786239, [35994358728]⟩⟩ 0 1 5712) (.out ⟨1706, 16, 81, 909,
    16, 273, ⟨[[(68719476736, 0)], [(347892350976, 0)]], 1, 1⟩, ⟨[[(213407320014, 0), (2694074789389, 0)],
    [(171447633216, 0), (2694232712, 0)]], 1, 1⟩, 1099511627776, 0, 448660022945, ⟨[], 0, 0⟩, 0, 0, 0, ⟨0, 4,
    537608265277963, [32716976691]⟩⟩ 0 1 6118)) (.out ⟨835, 16, 40, 564, 16, 168, ⟨[[], [(343597383680, 0)]], 1, 1⟩,
    ⟨[[(73816816872, 0), (1761261494791, 0)], [(225280061785, 0), (4011721636, 0)]], 1, 1⟩, 1099511627776, 0,
    843141298929, ⟨[], 0, 0⟩, 0, 0, 0, ⟨0, 4, 329865119173587, [40628728309]⟩⟩ 0 1 6334)) (.skip)))
theorem c26 : checkC job ⟨6, 8, 7, 8, 9, 13⟩ 3 100 lims t26 656 48 32 165 3 512 = true := by decide +kernel

end PyX.Kron.S2b
