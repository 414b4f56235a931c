import Verif.Lemmas.T2cJob

/-!
# Temperature from pressure and enthalpy in subregion 2c, part G of the certificate
-/

namespace PyX.Kron.T2c

set_option Elab.async false

def t98 : CTree :=
  .sy (.sx (.leaf ⟨928, 25, 8, 139, 16, 507, ⟨[[], [(549755813888, 0)]], 3, 4⟩, ⟨[[(0, 255923742184), (3959502410909,
    0), (2826941170, 0), (27543582, 0), (0, 3708983)], [(102473274615, 0), (375527737, 0), (0, 10288522), (0, 61261),
    (0, 24487)], [(0, 51292958), (0, 1251616), (24883, 0), (536, 0), (0, 159)], [(2676, 0), (1876, 0), (104, 0), (0,
    7), (0, 1)]], 3, 4⟩, 1099511627776, 0, 376120012, ⟨[[(61875309266546, 0), (0, 55947791644), (62705597, 0), (0,
    37945), (0, 1780)], [(10433404917, 0), (0, 11616644), (0, 84577), (214, 0), (0, 8)], [(0, 10483814), (0, 11336),
    (269, 0), (2, 0)], [(7911, 0), (20, 0)]], 3, 4⟩, 68719476736, 52203840,
    2334118413922226751175224838292025905781180678454641937315934252702988943015560685959091309083, lc0⟩) (.leaf
    ⟨976, 25, 8, 151, 16, 521, ⟨[[], [(549755813888, 0)]], 3, 4⟩, ⟨[[(390910253552, 0), (4095844176926, 0),
    (2190731430, 0), (16630242, 0), (0, 8750073)], [(95343239295, 0), (196006120, 0), (0, 4049585), (0, 344087), (0,
    89981)], [(0, 50661287), (0, 693130), (32352, 0), (0, 4623), (0, 541)], [(10446, 0), (1872, 0), (0, 104), (0,
    31), (0, 1)]], 3, 4⟩, 1099511627776, 0, 596020993, ⟨[[(61907531925557, 0), (0, 54102894997), (54705789, 0), (0,
    100703), (0, 2742)], [(9375030673, 0), (0, 13061942), (0, 49167), (0, 20), (0, 13)], [(0, 9495153), (0, 3245),
    (336, 0), (1, 0)], [(6686, 0), (22, 0)]], 3, 4⟩, 68719476736, 41764900,
    4056801604648825129936531655586083857533863074696775222423032783357868205298164084323249912132, lc0⟩)) (.sx
    (.leaf ⟨928, 25, 8, 159, 16, 502, ⟨[[], [(549755813888, 0)]], 3, 4⟩, ⟨[[(0, 127639999910), (3952679771831, 0),
    (2142237849, 0), (0, 111443283), (0, 5981626)], [(103273327172, 0), (214981609, 0), (0, 18619867), (0, 903840),
    (0, 26855)], [(0, 57479008), (0, 1064235), (0, 12068), (0, 4710), (0, 155)], [(14729, 0), (1500, 0), (0, 226),
    (0, 26)]], 3, 4⟩, 1099511627776, 0, 1062254727, ⟨[[(60696119157944, 0), (0, 53913252445), (55109716, 0), (0,
    235336), (0, 1546)], [(10143182017, 0), (0, 15546400), (0, 102616), (0, 687), (0, 5)], [(0, 10592186), (1561, 0),
    (310, 0)], [(8508, 0), (36, 0)]], 3, 4⟩, 68719476736, 117680085,
    4932186257704424541684896410233522798916480024856354495040005444017949065314336181540487526546, lc0⟩) (.sy (.leaf
    ⟨976, 25, 8, 262, 16, 812, ⟨[[], [(549755813888, 0)]], 3, 4⟩, ⟨[[(86694844234, 0), (3204830840577, 0),
    (400072184, 0), (0, 39726067), (0, 1279718)], [(149729257605, 0), (78634224, 0), (0, 8366424), (0, 432646), (0,
    7503)], [(0, 83800078), (0, 681859), (0, 35054), (0, 2252), (16, 0)], [(21200, 0), (0, 912), (0, 212), (0, 3),
    (1, 0)]], 3, 4⟩, 1099511627776, 0, 1211293728, ⟨[[(60997320835319, 0), (0, 33604374811), (18523113, 0), (0,
    67208), (0, 104)], [(9135985610, 0), (0, 9635057), (0, 29270), (0, 178)], [(0, 9449554), (5519, 0), (141, 0)],
    [(7197, 0), (24, 0)]], 3, 4⟩, 68719476736, 20929929,
    4279169751148357075634764460730228982759767476791654218165679697507961468984986299663447355260, lc0⟩) (.sx (.leaf
    ⟨1205, 16, 10, 352, 16, 1034, ⟨[[], [(343597383680, 0)]], 3, 4⟩, ⟨[[(0, 239368555938), (4081765223917, 0), (0,
    211675726), (0, 62658790), (0, 268527)], [(98128199846, 0), (0, 9059653), (0, 8827810), (0, 235079), (4704, 0)],
    [(0, 28811224), (0, 350214), (0, 16100), (0, 226), (46, 0)], [(2686, 0), (0, 364), (0, 24), (2, 0)]], 3, 4⟩,
    1099511627776, 0, 115883457, ⟨[[(60406970118462, 0), (0, 25901613631), (9982788, 0), (0, 25972), (210, 0)],
    [(7374331240, 0), (0, 6780445), (0, 18900), (0, 19), (1, 0)], [(0, 6156476), (4283, 0), (54, 0)], [(4048, 0),
    (12, 0)]], 3, 4⟩, 68719476736, 5586851,
    3424819131212346867908571354329843077492808524586963272054710903163491495964430234127715034476, lc0⟩) (.leaf
    ⟨1235, 16, 10, 366, 16, 1050, ⟨[[], [(343597383680, 0)]], 3, 4⟩, ⟨[[(0, 349123755219), (4140388642607, 0), (0,
    1239839848), (0, 85667851), (884047, 0)], [(94080255985, 0), (0, 89604577), (0, 12414626), (0, 174705), (22904,
    0)], [(0, 28865157), (0, 487032), (0, 16784), (1231, 0), (160, 0)], [(0, 141), (0, 465), (36, 0), (9, 0), (1,
    0)]], 3, 4⟩, 1099511627776, 0, 198681782, ⟨[[(60403579681282, 0), (0, 25550953434), (8657968, 0), (0, 14526),
    (389, 0)], [(6959796441, 0), (0, 6648724), (0, 14616), (51, 0), (2, 0)], [(0, 5757589), (6281, 0), (61, 0)],
    [(3831, 0), (13, 0)]], 3, 4⟩, 68719476736, 5979745,
    3224742359973425343938980798871808347716961713851250460601122586421200458195703147613621476670, lc0⟩))))
theorem c98 : checkC job ⟨6, 8, 8, 10, 9, 13⟩ 1 25 lims t98 752 48 8 27 3 256 = true := by decide +kernel

def t99 : CTree :=
  .sx (.sy (.leaf ⟨928, 25, 8, 269, 16, 771, ⟨[[], [(549755813888, 0)]], 3, 4⟩, ⟨[[(0, 96057169500), (3043859013855,
    0), (101870358, 0), (0, 24538337), (646276, 0)], [(159386368876, 0), (0, 7414125), (0, 11694969), (0, 97500),
    (7858, 0)], [(0, 96699911), (0, 1124588), (0, 26958), (0, 303), (57, 0)], [(23023, 0), (0, 1230), (0, 132), (6,
    0), (1, 0)]], 3, 4⟩, 1099511627776, 0, 2479940639, ⟨[[(59838941097786, 0), (0, 34067707920), (18649022, 0), (0,
    42476), (860, 0)], [(9862648636, 0), (0, 12586920), (0, 52729), (74, 0), (7, 0)], [(0, 10487184), (7493, 0),
    (139, 0), (1, 0)], [(9190, 0), (32, 0)]], 3, 4⟩, 68719476736, 29569197,
    4426009266523311669243582251798775617775045761248901867180255100404366890349400086707181396902, lc0⟩) (.leaf
    ⟨928, 25, 8, 286, 16, 771, ⟨[[], [(549755813888, 0)]], 3, 4⟩, ⟨[[(0, 525110401656), (3043220863645, 0), (0,
    127321362), (1686733, 0), (1222719, 0)], [(158911046547, 0), (0, 150770565), (0, 11598627), (88971, 0), (2105,
    0)], [(0, 104399805), (0, 1424151), (0, 18028), (1279, 0), (48, 0)], [(13161, 0), (0, 1480), (161, 0), (29, 0),
    (1, 0)]], 3, 4⟩, 1099511627776, 0, 5914799948, ⟨[[(59265056549694, 0), (0, 33449651658), (18407712, 0), (38464,
    0), (1303, 0)], [(9634471208, 0), (0, 14151775), (0, 33867), (706, 0), (10, 0)], [(0, 10314303), (13282, 0),
    (217, 0), (2, 0)], [(9794, 0), (40, 0)]], 3, 4⟩, 68719476736, 29428891,
    4163232383844115237180465115104767669936887271678330059770461724820757797060904585451105350236, lc0⟩)) (.sy (.sx
    (.leaf ⟨1205, 16, 10, 374, 16, 1035, ⟨[[], [(343597383680, 0)]], 3, 4⟩, ⟨[[(438828706885, 0), (4076701123104, 0),
    (0, 1214218784), (0, 36979397), (2596611, 0)], [(97810416530, 0), (0, 132577627), (0, 10729977), (106887, 0),
    (24874, 0)], [(0, 31489053), (0, 509248), (0, 3592), (2041, 0), (151, 0)], [(465, 0), (0, 164), (85, 0), (12, 0),
    (1, 0)]], 3, 4⟩, 1099511627776, 0, 226371488, ⟨[[(59850966692767, 0), (0, 25469405508), (9190719, 0), (6649, 0),
    (514, 0)], [(7218952837, 0), (0, 7543481), (0, 14560), (175, 0), (3, 0)], [(0, 6036986), (6878, 0), (71, 0), (1,
    0)], [(4331, 0), (15, 0)]], 3, 4⟩, 68719476736, 4240509,
    3315680072727056446206297487162766286407263001450754623002602672762681666540249254408309530106, lc0⟩) (.leaf
    ⟨1235, 16, 10, 390, 16, 1055, ⟨[[], [(343597383680, 0)]], 3, 4⟩, ⟨[[(76957447588, 0), (4137810789204, 0), (0,
    2196874184), (5937160, 0), (7179909, 0)], [(93543007575, 0), (0, 228514951), (0, 7137987), (990069, 0), (77912,
    0)], [(0, 32011376), (0, 369116), (57332, 0), (8099, 0), (432, 0)], [(1295, 0), (1631, 0), (384, 0), (33, 0), (1,
    0)]], 3, 4⟩, 1099511627776, 0, 572286204, ⟨[[(59841784471768, 0), (0, 25048924450), (9064232, 0), (32189, 0),
    (586, 0)], [(6806513445, 0), (0, 7072892), (0, 3078), (309, 0), (3, 0)], [(0, 5584562), (9531, 0), (93, 0), (1,
    0)], [(4158, 0), (17, 0)]], 3, 4⟩, 68719476736, 3884063,
    4889788548117255295095258263344291967370922110249620275142734296895532116879096289735384597725, lc0⟩)) (.sx
    (.leaf ⟨1205, 16, 10, 399, 16, 1040, ⟨[[], [(343597383680, 0)]], 3, 4⟩, ⟨[[(0, 529789447750), (4080541590239, 0),
    (0, 1160407372), (47334344, 0), (3260025, 0)], [(97155949522, 0), (0, 225513455), (0, 2252188), (874382, 0),
    (32236, 0)], [(0, 34169543), (0, 175796), (74832, 0), (7103, 0), (258, 0)], [(5972, 0), (2737, 0), (458, 0), (32,
    0), (1, 0)]], 3, 4⟩, 1099511627776, 0, 824172635, ⟨[[(59268216506993, 0), (0, 24888558651), (11173907, 0),
    (49041, 0), (231, 0)], [(7040094281, 0), (0, 7749572), (7001, 0), (425, 0), (2, 0)], [(0, 5832351), (11227, 0),
    (125, 0), (1, 0)], [(4719, 0), (20, 0)]], 3, 4⟩, 68719476736, 14046003,
    4604671553917988237128988623662986271950344490138398196955242720865224081950708873009993889427, lc0⟩) (.sy (.leaf
    ⟨1235, 16, 10, 647, 16, 1676, ⟨[[], [(343597383680, 0)]], 3, 4⟩, ⟨[[(0, 528024282329), (3273720394615, 0), (0,
    420470061), (34445116, 0), (1054628, 0)], [(146941688683, 0), (0, 158885808), (6960047, 0), (553320, 0), (11714,
    0)], [(0, 50161896), (650714, 0), (91067, 0), (3597, 0), (67, 0)], [(31852, 0), (6092, 0), (409, 0), (13, 0)]],
    3, 4⟩, 1099511627776, 0, 1564410774, ⟨[[(59412100657245, 0), (0, 15545516766), (4611576, 0), (15529, 0), (24,
    0)], [(6685310464, 0), (0, 4305941), (7172, 0), (121, 0)], [(0, 5387799), (8528, 0), (57, 0)], [(4481, 0), (13,
    0)]], 3, 4⟩, 68719476736, 2458193,
    4287362023542895400098831248078796052595092916575391628862664068112455865845300186238484271271, lc0⟩) (.sx (.leaf
    ⟨2455, 16, 20, 839, 16, 2126, ⟨[[], [(343597383680, 0)]], 3, 4⟩, ⟨[[(0, 352160046379), (4153708337907, 0),
    (50766631, 0), (51188673, 0), (680572, 0)], [(94204100427, 0), (0, 57488123), (7869152, 0), (390676, 0), (5416,
    0)], [(0, 15022102), (444820, 0), (40226, 0), (1313, 0), (19, 0)], [(9671, 0), (1501, 0), (86, 0), (2, 0)]], 3,
    4⟩, 1099511627776, 0, 168547509, ⟨[[(59139062498477, 0), (0, 12118377400), (3224442, 0), (6619, 0), (0, 27)],
    [(3352342420, 0), (0, 1645699), (3561, 0), (28, 0)], [(0, 1339609), (1971, 0), (10, 0)], [(594, 0), (1, 0)]], 3,
    4⟩, 68719476736, 850563,
    3524185896868732787662962278923764477103910675118331460624585929536642317845524285683180345999, lc0⟩) (.sx (.leaf
    ⟨5079, 16, 41, 979, 16, 2465, ⟨[[(0, 137438953472)], [(352187318272, 0)]], 3, 4⟩, ⟨[[(533897853291, 0),
    (4814636404404, 0), (998605948, 0), (100978602, 0), (1372525, 0)], [(53463234193, 0), (19514927, 0), (8801562,
    0), (360085, 0), (5076, 0)], [(0, 3560833), (246220, 0), (18161, 0), (556, 0), (8, 0)], [(2335, 0), (332, 0),
    (18, 0)]], 3, 4⟩, 1099511627776, 0, 27245527, ⟨[[(59148935249047, 0), (0, 10451790395), (2545252, 0), (4190, 0),
    (0, 23)], [(1602235235, 0), (0, 634681), (1638, 0), (9, 0)], [(0, 306574), (450, 0), (2, 0)], [(69, 0)]], 3, 4⟩,
    68719476736, 392469,
    4320488550866879872408675441340947517607495020680670747456818056952138354178675426265991762706, lc0⟩) (.leaf
    ⟨5110, 16, 41, 984, 16, 2464, ⟨[[(0, 412316860416)], [(352187318272, 0)]], 3, 4⟩, ⟨[[(0, 300733585737),
    (4817137927105, 0), (2026782357, 0), (141051021, 0), (1937954, 0)], [(52830085968, 0), (76791785, 0), (12814457,
    0), (480535, 0), (6779, 0)], [(0, 2768840), (355346, 0), (23897, 0), (705, 0), (10, 0)], [(3192, 0), (430, 0),
    (22, 0), (1, 0)]], 3, 4⟩, 1099511627776, 0, 31957221, ⟨[[(59141851626455, 0), (0, 10446836539), (2667938, 0),
    (3873, 0), (0, 32)], [(1580203502, 0), (0, 586695), (1912, 0), (9, 0)], [(0, 297671), (488, 0), (2, 0)], [(69,
    0)]], 3, 4⟩, 68719476736, 448543,
    5241403329027057635111937498593613899876159290218199198729816798207426910403793819408833223414, lc0⟩))))))
theorem c99 : checkC job ⟨6, 8, 8, 10, 9, 13⟩ 1 25 lims t99 752 48 8 63 3 512 = true := by decide +kernel

def t100 : CTree :=
  .sx (.sy (.sx (.leaf ⟨1145, 16, 10, 387, 16, 999, ⟨[[], [(343597383680, 0)]], 3, 4⟩, ⟨[[(0, 69725795777),
    (3949998449619, 0), (383293338, 0), (7593324, 0), (0, 2372660)], [(105642242090, 0), (0, 137042408), (0,
    7670531), (0, 281552), (0, 37148)], [(0, 37008265), (0, 523996), (0, 13195), (0, 1070), (0, 100)], [(1795, 0),
    (0, 114), (40, 0), (4, 0)]], 3, 4⟩, 1099511627776, 0, 437625695, ⟨[[(58729237014827, 0), (0, 25296503117),
    (12461977, 0), (31926, 0), (16, 0)], [(7758710963, 0), (0, 9296741), (0, 3052), (369, 0), (1, 0)], [(0, 6710450),
    (9088, 0), (121, 0), (1, 0)], [(5497, 0), (19, 0)]], 3, 4⟩, 68719476736, 16181099,
    3382027205907679439203274582293865094630540105537741825909402712589641381804324226194065760816, lc0⟩) (.sy (.leaf
    ⟨1175, 16, 10, 619, 16, 1583, ⟨[[], [(343597383680, 0)]], 3, 4⟩, ⟨[[(0, 264846094516), (3116372077209, 0), (0,
    141679820), (1094349, 0), (0, 306824)], [(156763306061, 0), (0, 162184079), (0, 2487379), (0, 4948), (0, 2975)],
    [(0, 56277362), (0, 276596), (10878, 0), (414, 0)], [(7694, 0), (1357, 0), (111, 0), (3, 0)]], 3, 4⟩,
    1099511627776, 0, 745477603, ⟨[[(58863243580534, 0), (0, 16076209649), (5161525, 0), (10791, 0), (0, 29)],
    [(7339009290, 0), (0, 5457496), (3723, 0), (110, 0)], [(0, 6191522), (7503, 0), (58, 0)], [(5200, 0), (14, 0)]],
    3, 4⟩, 68719476736, 2874507,
    2709026831034633635792281870425866242879001229754350662702277171113781146435135623407392831603, lc0⟩) (.leaf
    ⟨1175, 16, 10, 638, 16, 1588, ⟨[[], [(343597383680, 0)]], 3, 4⟩, ⟨[[(0, 254858692306), (3124211199034, 0), (0,
    241060284), (0, 15495911), (0, 1160053)], [(156186429128, 0), (0, 196666294), (0, 3540909), (0, 130577), (0,
    7808)], [(0, 57638997), (0, 103057), (17907, 0), (331, 0), (0, 7)], [(20716, 0), (3115, 0), (184, 0), (5, 0)]],
    3, 4⟩, 1099511627776, 0, 1468684282, ⟨[[(58591628297407, 0), (0, 15842621095), (5550175, 0), (4112, 0), (0,
    175)], [(7247877301, 0), (0, 5223755), (8783, 0), (82, 0), (0, 1)], [(0, 6045846), (9690, 0), (71, 0)], [(5451,
    0), (16, 0)]], 3, 4⟩, 68719476736, 3969419,
    4220344418854021925229701297699772325892511438238765120996795653899780822846432284124479980280, lc0⟩))) (.sx (.sy
    (.leaf ⟨1145, 16, 10, 620, 16, 1537, ⟨[[], [(343597383680, 0)]], 3, 4⟩, ⟨[[(218571598064, 0), (3040360309632, 0),
    (0, 62878186), (0, 23393673), (0, 1285826)], [(161276760819, 0), (0, 186183299), (0, 7078881), (0, 290100), (0,
    9889)], [(0, 61205566), (0, 580731), (0, 17120), (0, 748), (0, 20)], [(3780, 0), (378, 0), (37, 0), (1, 0)]], 3,
    4⟩, 1099511627776, 0, 871305145, ⟨[[(58328305301878, 0), (0, 16169363722), (5717892, 0), (168, 0), (0, 201)],
    [(7610863019, 0), (0, 5927271), (5582, 0), (68, 0), (0, 1)], [(0, 6530333), (8903, 0), (70, 0)], [(5846, 0), (16,
    0)]], 3, 4⟩, 68719476736, 4012730,
    3594205638660673441443057547288427137953708982223669566480232168313470208230848159165377424413, lc0⟩) (.sx (.leaf
    ⟨2275, 16, 20, 823, 16, 1998, ⟨[[], [(343597383680, 0)]], 3, 4⟩, ⟨[[(214158037677, 0), (3955338234935, 0), (0,
    651387961), (0, 69301557), (0, 2587486)], [(105932161405, 0), (0, 174479219), (0, 8440691), (0, 333964), (0,
    7994)], [(0, 21377566), (0, 297759), (0, 12135), (0, 409), (0, 5)], [(158, 0), (3, 0), (3, 0)]], 3, 4⟩,
    1099511627776, 0, 63817392, ⟨[[(58060454058131, 0), (0, 12291192241), (3205332, 0), (0, 6549), (0, 121)],
    [(3815646060, 0), (0, 2275275), (1746, 0), (0, 1)], [(0, 1634713), (2003, 0), (11, 0)], [(771, 0), (2, 0)]], 3,
    4⟩, 68719476736, 1241329,
    3002319979059797255508254393378254833054109151658735883188106021581833259271083562226577420094, lc0⟩) (.sy (.leaf
    ⟨2305, 16, 20, 1295, 16, 3129, ⟨[[], [(343597383680, 0)]], 3, 4⟩, ⟨[[(0, 34376784047), (3085112183110, 0), (0,
    446424366), (0, 16748904), (0, 300261)], [(160009299215, 0), (0, 156382049), (0, 3468260), (0, 69342), (0, 850)],
    [(0, 32311890), (0, 176250), (0, 3076), (0, 61)], [(3897, 0), (245, 0), (6, 0)]], 3, 4⟩, 1099511627776, 0,
    125154471, ⟨[[(58125170226867, 0), (0, 7874739802), (1295925, 0), (0, 2264), (0, 24)], [(3711246026, 0), (0,
    1361085), (972, 0), (0, 1)], [(0, 1557765), (1438, 0), (5, 0)], [(755, 0), (1, 0)]], 3, 4⟩, 68719476736, 250140,
    3760845419619490128584824209598983043626410426923316149256407278018620231806368244645395793930, lc0⟩) (.sx (.leaf
    ⟨4710, 16, 41, 1696, 16, 4057, ⟨[[(0, 137438953472)], [(352187318272, 0)]], 3, 4⟩, ⟨[[(346282281695, 0),
    (3996697779307, 0), (0, 910562605), (0, 29285991), (0, 439507)], [(104080635261, 0), (0, 126516701), (0,
    3036843), (0, 55958), (0, 528)], [(0, 10965950), (0, 77832), (0, 1537), (0, 24)], [(615, 0), (37, 0), (1, 0)]],
    3, 4⟩, 1099511627776, 0, 10406158, ⟨[[(57995008717867, 0), (0, 6040696357), (699091, 0), (0, 1647), (0, 10)],
    [(1812999911, 0), (0, 511652), (228, 0), (0, 1)], [(0, 370126), (281, 0), (1, 0)], [(90, 0)]], 3, 4⟩,
    68719476736, 83337,
    4286360855296122303507402853921539017685052338889819559214302722617978901127915499733588931327, lc0⟩) (.skip)))))
    (.sy (.sx (.leaf ⟨2335, 16, 20, 839, 16, 2046, ⟨[[], [(343597383680, 0)]], 3, 4⟩, ⟨[[(290683731421, 0),
    (4025852968172, 0), (0, 847518511), (0, 63345105), (0, 2785501)], [(101573212306, 0), (0, 166921177), (0,
    5551616), (0, 246458), (0, 8252)], [(0, 19410636), (0, 66026), (1636, 0), (0, 86), (0, 5)], [(4708, 0), (615, 0),
    (31, 0), (1, 0)]], 3, 4⟩, 1099511627776, 0, 133299426, ⟨[[(58329464407117, 0), (0, 12153074443), (3253952, 0),
    (0, 4290), (0, 114)], [(3635105610, 0), (0, 1990873), (2951, 0), (5, 0)], [(0, 1508465), (2185, 0), (11, 0)],
    [(720, 0), (2, 0)]], 3, 4⟩, 68719476736, 1260684,
    5211420646184150372343872808870930490763216949401587602997583222947848036035268383850942677245, lc0⟩) (.sy (.sx
    (.leaf ⟨4833, 16, 41, 1700, 16, 4139, ⟨[[(0, 137438953472)], [(352187318272, 0)]], 3, 4⟩, ⟨[[(549377599, 0),
    (4063075060421, 0), (0, 456948366), (0, 15752856), (0, 369183)], [(100247778680, 0), (0, 76750166), (0, 945674),
    (0, 24804), (0, 507)], [(0, 9146002), (22514, 0), (1264, 0), (7, 0)], [(1977, 0), (125, 0), (3, 0)]], 3, 4⟩,
    1099511627776, 0, 16284223, ⟨[[(58394282119045, 0), (0, 6024758033), (808370, 0), (0, 585), (0, 7)],
    [(1739313007, 0), (0, 453375), (417, 0)], [(0, 346727), (275, 0), (1, 0)], [(82, 0)]], 3, 4⟩, 68719476736,
    112640, 4410625021019299148357606197065165808053154615741800756617467511492112033641010598264940777662, lc0⟩)
    (.skip)) (.skip))) (.skip)))) (.sy (.sx (.sy (.sx (.leaf ⟨2395, 16, 20, 829, 16, 2086, ⟨[[], [(343597383680,
    0)]], 3, 4⟩, ⟨[[(0, 491094116196), (4090328776061, 0), (0, 275502682), (5951648, 0), (0, 658360)], [(98084775480,
    0), (0, 109399794), (1056963, 0), (84378, 0), (0, 1341)], [(0, 17312976), (116015, 0), (17306, 0), (524, 0), (5,
    0)], [(5177, 0), (820, 0), (49, 0), (1, 0)]], 3, 4⟩, 1099511627776, 0, 118712680, ⟨[[(58862242908203, 0), (0,
    12206071762), (3251644, 0), (4572, 0), (0, 40)], [(3508716802, 0), (0, 1871228), (2896, 0), (24, 0)], [(0,
    1439245), (1860, 0), (10, 0)], [(638, 0), (1, 0)]], 3, 4⟩, 68719476736, 916648,
    2551044153268585046226497098181430935283843139975892844536748963799892419273136849838093458897, lc0⟩) (.leaf
    ⟨2425, 16, 20, 846, 16, 2109, ⟨[[], [(343597383680, 0)]], 3, 4⟩, ⟨[[(226224495195, 0), (4126769134246, 0),
    (35589387, 0), (20407720, 0), (0, 735576)], [(95998219947, 0), (0, 58976621), (6076454, 0), (229896, 0), (73,
    0)], [(0, 15203609), (457074, 0), (36337, 0), (1013, 0), (10, 0)], [(11362, 0), (1593, 0), (84, 0), (2, 0)]], 3,
    4⟩, 1099511627776, 0, 198567769, ⟨[[(58871119911157, 0), (0, 12074431020), (3379473, 0), (3550, 0), (0, 63)],
    [(3410646902, 0), (0, 1677469), (4023, 0), (22, 0)], [(0, 1366441), (2149, 0), (11, 0)], [(632, 0), (2, 0)]], 3,
    4⟩, 68719476736, 1050515,
    5173900646422887063844916011452973243661739544239948500507544093593719969606357843857517239150, lc0⟩)) (.sx (.sy
    (.leaf ⟨2395, 16, 20, 1325, 16, 3271, ⟨[[], [(343597383680, 0)]], 3, 4⟩, ⟨[[(522072529411, 0), (3205047133987,
    0), (0, 124017986), (0, 3023758), (0, 176341)], [(153076550522, 0), (0, 74859905), (756132, 0), (7121, 0), (0,
    407)], [(0, 25702032), (239306, 0), (9760, 0), (116, 0)], [(15642, 0), (1052, 0), (27, 0)]], 3, 4⟩,
    1099511627776, 0, 228581144, ⟨[[(58667960188706, 0), (0, 7716115537), (1377616, 0), (152, 0), (0, 14)],
    [(3479636256, 0), (0, 1123445), (1582, 0), (4, 0)], [(0, 1406731), (1412, 0), (5, 0)], [(664, 0), (1, 0)]], 3,
    4⟩, 68719476736, 199311,
    4526842552964977266560451284268346975587869872388905951844314588044314362223234411408859202144, lc0⟩) (.skip))
    (.skip))) (.sy (.sx (.sy (.leaf ⟨2455, 16, 20, 1351, 16, 3356, ⟨[[], [(343597383680, 0)]], 3, 4⟩, ⟨[[(0,
    282818026371), (3281383215661, 0), (314142496, 0), (11178178, 0), (0, 17666)], [(148608731783, 0), (30727753, 0),
    (5425941, 0), (93806, 0), (368, 0)], [(0, 19066084), (705380, 0), (23802, 0), (328, 0), (2, 0)], [(29062, 0),
    (1924, 0), (48, 0), (1, 0)]], 3, 4⟩, 1099511627776, 0, 344868549, ⟨[[(58935835765149, 0), (0, 7604952377),
    (1400002, 0), (838, 0), (0, 12)], [(3325756717, 0), (0, 952105), (1948, 0), (5, 0)], [(0, 1303270), (1490, 0),
    (5, 0)], [(621, 0), (1, 0)]], 3, 4⟩, 68719476736, 185190,
    5252514979183375278182351733087629016757395695176872759691192790667807094279296152968035339245, lc0⟩) (.skip))
    (.skip)) (.skip))) (.skip))
theorem c100 : checkC job ⟨6, 8, 8, 10, 9, 13⟩ 1 25 lims t100 752 48 8 69 3 512 = true := by decide +kernel

def t101 : CTree :=
  .sx (.sy (.sx (.sy (.sy (.sy (.sx (.sy (.leaf ⟨2275, 16, 20, 1296, 16, 3085, ⟨[[], [(343597383680, 0)]], 3, 4⟩,
    ⟨[[(16685155429, 0), (3045044948744, 0), (0, 746700626), (0, 23714386), (0, 315703)], [(162035626748, 0), (0,
    211262230), (0, 5370649), (0, 91348), (0, 653)], [(0, 35516148), (0, 334344), (0, 6948), (0, 84)], [(378, 0),
    (30, 0), (2, 0)]], 3, 4⟩, 1099511627776, 0, 111099516, ⟨[[(57860259575890, 0), (0, 7897403375), (1117139, 0), (0,
    4367), (0, 30)], [(3778876993, 0), (0, 1440611), (493, 0), (0, 7)], [(0, 1599051), (1527, 0), (4, 0)], [(801, 0),
    (1, 0)]], 3, 4⟩, 68719476736, 288944,
    4791194758461162437021112440709467342837955580731426157878101664793478898650454043782183572555, lc0⟩) (.skip))
    (.skip)) (.skip)) (.skip)) (.skip)) (.skip)) (.skip)) (.skip)
theorem c101 : checkC job ⟨6, 8, 8, 10, 9, 13⟩ 1 25 lims t101 752 48 8 21 3 128 = true := by decide +kernel

def t102 : CTree :=
  .sy (.sy (.leaf ⟨785, 16, 10, 282, 16, 648, ⟨[[], [(343597383680, 0)]], 3, 4⟩, ⟨[[(140127637762, 0),
    (2784282378254, 0), (6393260597, 0), (0, 78880071), (0, 1478181)], [(173366289575, 0), (621767983, 0), (0,
    30228101), (0, 572368), (72191, 0)], [(0, 65823988), (0, 3415090), (0, 56003), (10683, 0), (1252, 0)], [(0,
    74059), (0, 350), (840, 0), (116, 0), (9, 0)]], 3, 4⟩, 1099511627776, 0, 4172986997, ⟨[[(53750838516229, 0), (0,
    30003505292), (45186179, 0), (0, 263229), (0, 2234)], [(15168755230, 0), (0, 22289328), (0, 162819), (0, 1026),
    (0, 12)], [(0, 17992150), (0, 9313), (102, 0), (0, 2)], [(19646, 0), (43, 0)]], 3, 4⟩, 68719476736, 98690205,
    2989652327599914648219252709421046058017109732471289161094384184652674191581424584271612346368, lc0⟩) (.sx (.leaf
    ⟨1555, 16, 20, 385, 16, 849, ⟨[[], [(343597383680, 0)]], 3, 4⟩, ⟨[[(0, 320387805614), (3727026638464, 0),
    (7679385306, 0), (0, 38839779), (12150261, 0)], [(117933616784, 0), (281664886, 0), (0, 14845783), (1689096, 0),
    (228877, 0)], [(0, 26626475), (0, 971792), (95664, 0), (17020, 0), (1299, 0)], [(0, 9152), (2785, 0), (624, 0),
    (62, 0), (4, 0)]], 3, 4⟩, 1099511627776, 0, 1236852686, ⟨[[(53288500323307, 0), (0, 22022532438), (21275086, 0),
    (0, 111920), (1467, 0)], [(7577344778, 0), (0, 10109981), (0, 58639), (0, 155), (7, 0)], [(0, 4638200), (0,
    1681), (4, 0)], [(2601, 0), (4, 0)]], 3, 4⟩, 68719476736, 103787944,
    2529895136173361283026540637382105455842398603467467840193994102382653715908656026335590448691, lc0⟩) (.sy (.leaf
    ⟨1585, 16, 20, 599, 16, 1305, ⟨[[], [(343597383680, 0)]], 3, 4⟩, ⟨[[(0, 25382568711), (2864326853178, 0),
    (2634386246, 0), (21594238, 0), (2840762, 0)], [(172815729142, 0), (138181136, 0), (911307, 0), (802463, 0),
    (39409, 0)], [(0, 41350218), (0, 189690), (86693, 0), (5612, 0), (196, 0)], [(1822, 0), (4354, 0), (388, 0), (18,
    0), (1, 0)]], 3, 4⟩, 1099511627776, 0, 971398683, ⟨[[(53407324679555, 0), (0, 14410768135), (7693307, 0), (0,
    18614), (662, 0)], [(7256738914, 0), (0, 6997879), (0, 25167), (12, 0), (3, 0)], [(0, 4417874), (0, 861), (1,
    0)], [(2454, 0), (2, 0)]], 3, 4⟩, 68719476736, 19192209,
    2542894891969457072532881578566241909125864478073715573265333196830062237837135248186842591959, lc0⟩) (.leaf
    ⟨1585, 16, 20, 607, 16, 1288, ⟨[[], [(343597383680, 0)]], 3, 4⟩, ⟨[[(0, 335835395171), (2863751328871, 0),
    (3871766722, 0), (139057069, 0), (7610044, 0)], [(171646078597, 0), (274376227, 0), (26342548, 0), (2218445, 0),
    (85057, 0)], [(0, 37367841), (1638590, 0), (238646, 0), (12221, 0), (382, 0)], [(45933, 0), (11325, 0), (841, 0),
    (35, 0), (1, 0)]], 3, 4⟩, 1099511627776, 0, 2089410811, ⟨[[(53178539259762, 0), (0, 14349870399), (8685662, 0),
    (69916, 0), (2357, 0)], [(7138523538, 0), (0, 7833674), (0, 18473), (364, 0), (9, 0)], [(0, 4430736), (0, 686),
    (15, 0), (1, 0)], [(2490, 0), (2, 0)]], 3, 4⟩, 68719476736, 46333620,
    4320579231899419856861217483772029460985605331493704409894936589844004569679741301377830307700, lc0⟩)))) (.sx
    (.sy (.sy (.leaf ⟨1555, 16, 20, 590, 16, 1251, ⟨[[], [(343597383680, 0)]], 3, 4⟩, ⟨[[(0, 486132529171),
    (2800743617246, 0), (3754831309, 0), (104695372, 0), (6036317, 0)], [(175610427503, 0), (272520738, 0),
    (19385737, 0), (1828760, 0), (71626, 0)], [(0, 39547968), (1146898, 0), (205611, 0), (10779, 0), (338, 0)],
    [(34748, 0), (10289, 0), (779, 0), (33, 0), (1, 0)]], 3, 4⟩, 1099511627776, 0, 2043830705, ⟨[[(52953976895873,
    0), (0, 14524413234), (9896448, 0), (69158, 0), (2425, 0)], [(7407728346, 0), (0, 8034276), (0, 20031), (375, 0),
    (10, 0)], [(0, 4662576), (0, 907), (16, 0), (1, 0)], [(2657, 0), (2, 0)]], 3, 4⟩, 68719476736, 49405281,
    2738042494401805646079546897809531051764068804997714304644018916371795557781305263850041558365, lc0⟩) (.sx (.leaf
    ⟨3172, 16, 41, 788, 16, 1639, ⟨[[(412316860416, 0)], [(352187318272, 0)]], 3, 4⟩, ⟨[[(0, 535694449118),
    (3730886347135, 0), (7791164461, 0), (316833613, 0), (14206186, 0)], [(117737210323, 0), (373625981, 0),
    (33619172, 0), (2215800, 0), (77083, 0)], [(0, 10028194), (1169681, 0), (126471, 0), (5914, 0), (174, 0)],
    [(15663, 0), (3149, 0), (217, 0), (9, 0)]], 3, 4⟩, 1099511627776, 0, 376985720, ⟨[[(52732554490034, 0), (0,
    10830122534), (8583236, 0), (99856, 0), (1622, 0)], [(3602945029, 0), (0, 3080100), (508, 0), (215, 0), (3, 0)],
    [(0, 1125997), (0, 43), (7, 0)], [(317, 0)]], 3, 4⟩, 68719476736, 18666456,
    3775625966380047920946374656538572032596392563838353337454632933013344068290400877188997168401, lc0⟩) (.sy (.leaf
    ⟨3203, 16, 41, 1200, 16, 2481, ⟨[[(137438953472, 0)], [(352187318272, 0)]], 3, 4⟩, ⟨[[(0, 258634079376),
    (2836100315159, 0), (3794754249, 0), (87874446, 0), (1827929, 0)], [(174747230202, 0), (400042769, 0), (18909150,
    0), (561726, 0), (9389, 0)], [(0, 10198447), (1332849, 0), (62798, 0), (1412, 0), (20, 0)], [(34123, 0), (3038,
    0), (101, 0), (2, 0)]], 3, 4⟩, 1099511627776, 0, 379525260, ⟨[[(52791538496696, 0), (0, 7158478342), (4527448,
    0), (41211, 0), (402, 0)], [(3519461497, 0), (0, 2018875), (2036, 0), (85, 0), (1, 0)], [(0, 1096885), (44, 0),
    (5, 0)], [(308, 0)]], 3, 4⟩, 68719476736, 3157212,
    4568789863283343946753522313779598348231428487344758552182680643192672915216397935530060167234, lc0⟩) (.skip))))
    (.sy (.sx (.sy (.leaf ⟨3172, 16, 41, 1175, 16, 2399, ⟨[[(412316860416, 0)], [(352187318272, 0)]], 3, 4⟩,
    ⟨[[(316188576373, 0), (2800277772699, 0), (5193723613, 0), (121697955, 0), (2324919, 0)], [(176136079147, 0),
    (616897274, 0), (27345618, 0), (736781, 0), (11708, 0)], [(0, 2321512), (2004382, 0), (84587, 0), (1811, 0), (25,
    0)], [(51377, 0), (4179, 0), (133, 0), (2, 0)]], 3, 4⟩, 1099511627776, 0, 526166633, ⟨[[(52574964334449, 0), (0,
    7164605002), (7304554, 0), (74212, 0), (652, 0)], [(3558448290, 0), (0, 1965873), (7042, 0), (150, 0), (1, 0)],
    [(0, 1124315), (224, 0), (9, 0)], [(322, 0)]], 3, 4⟩, 68719476736, 4835797,
    4521178115367528029869550103908541978816499076371494678061014700505695546029582945790325488757, lc0⟩) (.skip))
    (.skip)) (.skip))) (.sy (.sy (.sx (.sy (.leaf ⟨3234, 16, 41, 1218, 16, 2552, ⟨[[(0, 137438953472)],
    [(352187318272, 0)]], 3, 4⟩, ⟨[[(0, 66409867398), (2869405337144, 0), (2727110338, 0), (59629147, 0), (1385623,
    0)], [(173355139188, 0), (243470806, 0), (12170445, 0), (412743, 0), (7327, 0)], [(0, 15435740), (817098, 0),
    (44976, 0), (1071, 0), (16, 0)], [(21272, 0), (2136, 0), (75, 0), (1, 0)]], 3, 4⟩, 1099511627776, 0, 268734700,
    ⟨[[(53015320981687, 0), (0, 7135689931), (2892480, 0), (20360, 0), (240, 0)], [(3484630022, 0), (0, 1976883), (0,
    830), (44, 0)], [(0, 1068704), (0, 45), (2, 0)], [(296, 0)]], 3, 4⟩, 68719476736, 2394079,
    3192363352401185837588788947060133702496758621433078693006680421476211575186363292953043507464, lc0⟩) (.sx (.leaf
    ⟨6452, 16, 82, 1613, 16, 3346, ⟨[[(412316860416, 0)], [(352187318272, 0)]], 3, 4⟩, ⟨[[(0, 533162513190),
    (3802443312087, 0), (4811194803, 0), (113461196, 0), (2405012, 0)], [(115268102251, 0), (245825040, 0),
    (11992794, 0), (362887, 0), (6135, 0)], [(0, 3654872), (415621, 0), (19926, 0), (453, 0), (7, 0)], [(5263, 0),
    (474, 0), (16, 0)]], 3, 4⟩, 1099511627776, 0, 37592471, ⟨[[(52900719646486, 0), (0, 5367917739), (2253270, 0),
    (15029, 0), (113, 0)], [(1738782094, 0), (0, 752785), (349, 0), (16, 0)], [(0, 269008), (4, 0), (1, 0)], [(38,
    0)]], 3, 4⟩, 68719476736, 771491,
    4002844208793810446432900859904614017602812154618088207454868692618690300085115489217034141982, lc0⟩) (.sy (.leaf
    ⟨6483, 16, 82, 2450, 16, 5069, ⟨[[(137438953472, 0)], [(352187318272, 0)]], 3, 4⟩, ⟨[[(195873840488, 0),
    (2888105300276, 0), (2088147458, 0), (25614405, 0), (262910, 0)], [(173086234094, 0), (222567995, 0), (5423545,
    0), (78705, 0), (654, 0)], [(0, 4083428), (375862, 0), (8552, 0), (96, 0), (1, 0)], [(9323, 0), (401, 0), (7,
    0)]], 3, 4⟩, 1099511627776, 0, 42192161, ⟨[[(52931642422606, 0), (0, 3545518927), (1077981, 0), (5056, 0), (24,
    0)], [(1719042022, 0), (0, 493985), (260, 0), (5, 0)], [(0, 265512), (7, 0)], [(37, 0)]], 3, 4⟩, 68719476736,
    148061, 4429510744015905372539992836768081778082381916586000591371591110518527854059424481901583962606, lc0⟩)
    (.skip)))) (.sy (.sx (.leaf ⟨6514, 16, 82, 1627, 16, 3378, ⟨[[(0, 137438953472)], [(352187318272, 0)]], 3, 4⟩,
    ⟨[[(96749765125, 0), (3828097631825, 0), (5117924619, 0), (126400189, 0), (2652998, 0)], [(113519562731, 0),
    (263600060, 0), (13186772, 0), (391994, 0), (6603, 0)], [(0, 3166687), (450806, 0), (21041, 0), (476, 0), (7,
    0)], [(5566, 0), (488, 0), (16, 0)]], 3, 4⟩, 1099511627776, 0, 38614891, ⟨[[(53015152441156, 0), (0, 5369556619),
    (2168886, 0), (14915, 0), (112, 0)], [(1706916402, 0), (0, 746026), (343, 0), (15, 0)], [(0, 262149), (6, 0), (1,
    0)], [(36, 0)]], 3, 4⟩, 68719476736, 739904,
    4931600632338219998086910564119005533181440933724987499352019626873685345024503125044795289028, lc0⟩) (.skip))
    (.skip))) (.skip)) (.skip)))
theorem c102 : checkC job ⟨6, 8, 8, 10, 9, 13⟩ 1 25 lims t102 1712 48 32 51 3 256 = true := by decide +kernel

def t103 : CTree :=
  .sx (.leaf ⟨1615, 16, 20, 401, 16, 886, ⟨[[], [(343597383680, 0)]], 3, 4⟩, ⟨[[(0, 202526012777), (3845427098597,
    0), (6077995269, 0), (0, 3321551), (19845427, 0)], [(111385202914, 0), (136300694, 0), (0, 8921572), (2654691,
    0), (308100, 0)], [(0, 26337714), (0, 585721), (139427, 0), (20893, 0), (1565, 0)], [(0, 2458), (3522, 0), (691,
    0), (68, 0), (4, 0)]], 3, 4⟩, 1099511627776, 0, 1468793859, ⟨[[(53743883714230, 0), (0, 21714745953), (16569662,
    0), (0, 111701), (1379, 0)], [(7055300566, 0), (0, 9759331), (0, 53203), (0, 169), (6, 0)], [(0, 4198327), (0,
    976), (1, 0)], [(2286, 0), (3, 0)]], 3, 4⟩, 68719476736, 96188935,
    4704919421368327607309165338386705293295933108929260115561271257719916718659715138677189282723, lc0⟩) (.sy (.leaf
    ⟨1645, 16, 20, 630, 16, 1379, ⟨[[], [(343597383680, 0)]], 3, 4⟩, ⟨[[(515362915463, 0), (2986937604593, 0),
    (2229861328, 0), (37951050, 0), (3955179, 0)], [(165342368983, 0), (70101111, 0), (4527682, 0), (1039341, 0),
    (48968, 0)], [(0, 39590384), (132534, 0), (103095, 0), (6359, 0), (223, 0)], [(10386, 0), (4648, 0), (398, 0),
    (18, 0), (1, 0)]], 3, 4⟩, 1099511627776, 0, 904073903, ⟨[[(53869026151265, 0), (0, 14070591978), (5706178, 0),
    (0, 22005), (514, 0)], [(6771689736, 0), (0, 6563388), (0, 22484), (0, 11), (2, 0)], [(0, 4001312), (0, 430)],
    [(2163, 0), (2, 0)]], 3, 4⟩, 68719476736, 15002029,
    4083435203254723955104920286682255080961934687811269225746075000800397962776198917213632260283, lc0⟩) (.sx (.leaf
    ⟨3357, 16, 41, 833, 16, 1785, ⟨[[(0, 137438953472)], [(352187318272, 0)]], 3, 4⟩, ⟨[[(0, 462813695328),
    (3904670384163, 0), (4412470824, 0), (183548795, 0), (10665230, 0)], [(108677381659, 0), (128588364, 0),
    (16421623, 0), (1439645, 0), (57000, 0)], [(0, 11941067), (488929, 0), (71630, 0), (3768, 0), (122, 0)], [(6640,
    0), (1568, 0), (119, 0), (5, 0)]], 3, 4⟩, 1099511627776, 0, 221436928, ⟨[[(53629710616020, 0), (0, 10713723217),
    (3475596, 0), (12946, 0), (520, 0)], [(3287213968, 0), (0, 2692494), (0, 5731), (41, 0), (1, 0)], [(0, 965197),
    (0, 79), (1, 0)], [(258, 0)]], 3, 4⟩, 68719476736, 7098791,
    4375499106224342758245204146181982037133190648590985027305582607785833558602509562524138350549, lc0⟩) (.sy (.leaf
    ⟨3388, 16, 41, 1294, 16, 2761, ⟨[[(0, 412316860416)], [(352187318272, 0)]], 3, 4⟩, ⟨[[(98002943439, 0),
    (3020079719551, 0), (2071580808, 0), (51738308, 0), (1351379, 0)], [(164387025141, 0), (143498959, 0), (9486905,
    0), (358998, 0), (6816, 0)], [(0, 16364997), (577806, 0), (34916, 0), (883, 0), (14, 0)], [(14328, 0), (1480, 0),
    (54, 0), (1, 0)]], 3, 4⟩, 1099511627776, 0, 168757617, ⟨[[(53692111953950, 0), (0, 6964801849), (1461437, 0),
    (6185, 0), (115, 0)], [(3218390451, 0), (0, 1768615), (0, 2148), (16, 0)], [(0, 941756), (0, 35), (1, 0)], [(251,
    0)]], 3, 4⟩, 68719476736, 1249067,
    3206205612054692979504812043759391038567054394124570244599145921272394547803152085613417897440, lc0⟩) (.sx (.leaf
    ⟨6760, 16, 82, 1689, 16, 3568, ⟨[[(0, 137438953472)], [(352187318272, 0)]], 3, 4⟩, ⟨[[(56627813266, 0),
    (3935239245559, 0), (3811815182, 0), (103017371, 0), (2393635, 0)], [(107432479371, 0), (163694111, 0), (9790777,
    0), (321836, 0), (5776, 0)], [(0, 4247604), (306721, 0), (15745, 0), (378, 0), (6, 0)], [(3600, 0), (333, 0),
    (12, 0)]], 3, 4⟩, 1099511627776, 0, 27643813, ⟨[[(53576303644885, 0), (0, 5345628022), (1106001, 0), (6176, 0),
    (61, 0)], [(1605111332, 0), (0, 701910), (0, 392), (7, 0)], [(0, 237046), (0, 3)], [(32, 0)]], 3, 4⟩,
    68719476736, 443314,
    4023310257376003139776870593809912147145251966541653529704584060676285608319959474932133327661, lc0⟩) (.sy (.leaf
    ⟨6791, 16, 82, 2610, 16, 5501, ⟨[[(0, 412316860416)], [(352187318272, 0)]], 3, 4⟩, ⟨[[(244107098504, 0),
    (3037465175749, 0), (1668035635, 0), (23220137, 0), (261173, 0)], [(164051783022, 0), (150758655, 0), (4410614,
    0), (69636, 0), (616, 0)], [(0, 5609779), (275440, 0), (6739, 0), (80, 0), (1, 0)], [(6304, 0), (281, 0), (5,
    0)]], 3, 4⟩, 1099511627776, 0, 26370108, ⟨[[(53605078135798, 0), (0, 3475650735), (493870, 0), (2017, 0), (12,
    0)], [(1587783245, 0), (0, 457076), (0, 125), (2, 0)], [(0, 234112)], [(31, 0)]], 3, 4⟩, 68719476736, 74658,
    4242491058142170368467827794003508842023947307872932934344752613113715918572848732691305210452, lc0⟩) (.sx (.leaf
    ⟨13649, 16, 165, 3394, 16, 7117, ⟨[[(0, 446676598784)], [(354334801920, 0)]], 3, 4⟩, ⟨[[(0, 144138435733),
    (3952905029467, 0), (2602893894, 0), (36450294, 0), (392273, 0)], [(106944062026, 0), (126018074, 0), (3503707,
    0), (52608, 0), (454, 0)], [(0, 1380368), (110350, 0), (2555, 0), (30, 0)], [(1244, 0), (53, 0), (1, 0)]], 3, 4⟩,
    1099511627776, 0, 3394616, ⟨[[(53546318238357, 0), (0, 2672552493), (351657, 0), (1248, 0), (5, 0)], [(787870840,
    0), (0, 176392), (0, 9), (1, 0)], [(0, 58001)], [(4, 0)]], 3, 4⟩, 68719476736, 53364,
    5297973661730048522932935049585354798036155960538884699401972943264149174554145791439181228084, lc0⟩)
    (.skip)))))))
theorem c103 : checkC job ⟨6, 8, 8, 10, 9, 13⟩ 1 25 lims t103 1808 48 32 195 3 1024 = true := by decide +kernel

def t104 : CTree :=
  .sx (.sy (.sx (.leaf ⟨3295, 16, 41, 818, 16, 1749, ⟨[[(412316860416, 0)], [(352187318272, 0)]], 3, 4⟩, ⟨[[(0,
    355917220112), (3853571486012, 0), (4449447933, 0), (155659563, 0), (9274159, 0)], [(111934851456, 0),
    (134580319, 0), (14002777, 0), (1304066, 0), (51892, 0)], [(0, 12623872), (414789, 0), (67841, 0), (3592, 0),
    (115, 0)], [(5991, 0), (1562, 0), (119, 0), (5, 0)]], 3, 4⟩, 1099511627776, 0, 214550264, ⟨[[(53402768073067, 0),
    (0, 10749731087), (4064128, 0), (15018, 0), (553, 0)], [(3404992164, 0), (0, 2757251), (0, 5844), (46, 0), (1,
    0)], [(0, 1014900), (0, 112), (1, 0)], [(275, 0)]], 3, 4⟩, 68719476736, 7497364,
    3336281116618493510667816369224526853660643899949661113238417837722070227204003904810527541739, lc0⟩) (.sy (.leaf
    ⟨3326, 16, 41, 1263, 16, 2687, ⟨[[(137438953472, 0)], [(352187318272, 0)]], 3, 4⟩, ⟨[[(0, 36636612830),
    (2960628418944, 0), (2033538992, 0), (45222336, 0), (1193367, 0)], [(168062658354, 0), (142751201, 0), (8485251,
    0), (330622, 0), (6269, 0)], [(0, 17365198), (527650, 0), (33632, 0), (850, 0), (13, 0)], [(13737, 0), (1498, 0),
    (55, 0), (1, 0)]], 3, 4⟩, 1099511627776, 0, 179242213, ⟨[[(53462980181667, 0), (0, 7031438540), (1758416, 0),
    (7494, 0), (129, 0)], [(3331423357, 0), (0, 1827953), (0, 2146), (19, 0)], [(0, 990108), (0, 54), (1, 0)], [(267,
    0)]], 3, 4⟩, 68719476736, 1385705,
    2582666503180133240603502725335198666409593991798303676997107668591897573034255073005187713238, lc0⟩) (.leaf
    ⟨3326, 16, 41, 1266, 16, 2659, ⟨[[(137438953472, 0)], [(352187318272, 0)]], 3, 4⟩, ⟨[[(0, 143174663536),
    (2959900826610, 0), (3114424773, 0), (80222203, 0), (1812178, 0)], [(167540564519, 0), (283253489, 0), (15806560,
    0), (506997, 0), (8926, 0)], [(0, 12653090), (1024850, 0), (51627, 0), (1217, 0), (18, 0)], [(24716, 0), (2274,
    0), (79, 0), (2, 0)]], 3, 4⟩, 1099511627776, 0, 263175796, ⟨[[(53348659318181, 0), (0, 7038782910), (2422688, 0),
    (19059, 0), (221, 0)], [(3301098995, 0), (0, 1898012), (0, 785), (40, 0)], [(0, 990731), (0, 16), (2, 0)], [(269,
    0)]], 3, 4⟩, 68719476736, 2118936,
    5295471951709834145832989122764704673547469812476214677415093259183421481786140796159438995721, lc0⟩))) (.sx (.sy
    (.leaf ⟨3295, 16, 41, 1250, 16, 2623, ⟨[[(412316860416, 0)], [(352187318272, 0)]], 3, 4⟩, ⟨[[(89968326908, 0),
    (2929777628006, 0), (2992021807, 0), (73694276, 0), (1675271, 0)], [(169417862285, 0), (271242744, 0), (14724607,
    0), (478704, 0), (8435, 0)], [(0, 13503117), (968372, 0), (49860, 0), (1177, 0), (18, 0)], [(23936, 0), (2252,
    0), (78, 0), (2, 0)]], 3, 4⟩, 1099511627776, 0, 267570605, ⟨[[(53237300035324, 0), (0, 7069949746), (2581736, 0),
    (19607, 0), (228, 0)], [(3361115048, 0), (0, 1924586), (0, 781), (42, 0)], [(0, 1016188), (0, 25), (2, 0)],
    [(278, 0)]], 3, 4⟩, 68719476736, 2191936,
    4545014518104050908270201901087153331524485431868838572501425701328455968721075551830534943645, lc0⟩) (.sx (.sy
    (.leaf ⟨6575, 16, 82, 2501, 16, 5214, ⟨[[(412316860416, 0)], [(352187318272, 0)]], 3, 4⟩, ⟨[[(487187335908, 0),
    (2934188098343, 0), (1846327800, 0), (23393600, 0), (250523, 0)], [(170382403067, 0), (183605303, 0), (4773740,
    0), (72311, 0), (617, 0)], [(0, 5184528), (319541, 0), (7583, 0), (87, 0), (1, 0)], [(7767, 0), (343, 0), (6,
    0)]], 3, 4⟩, 1099511627776, 0, 35003462, ⟨[[(53154542025768, 0), (0, 3525917580), (799344, 0), (3511, 0), (18,
    0)], [(1680322804, 0), (0, 485000), (49, 0), (4, 0)], [(0, 255636), (1, 0)], [(35, 0)]], 3, 4⟩, 68719476736,
    131601, 4171782800104121643992738200534379269828598366056357438838214471097924767525084708827487524098, lc0⟩)
    (.skip)) (.skip))) (.sy (.sx (.sy (.leaf ⟨6637, 16, 82, 2532, 16, 5283, ⟨[[(0, 137438953472)], [(352187318272,
    0)]], 3, 4⟩, ⟨[[(0, 78013788111), (2963711865511, 0), (1941628035, 0), (25497796, 0), (271580, 0)],
    [(168460185199, 0), (193505779, 0), (5123175, 0), (76739, 0), (654, 0)], [(0, 4647349), (337443, 0), (7867, 0),
    (90, 0), (1, 0)], [(8005, 0), (348, 0), (6, 0)]], 3, 4⟩, 1099511627776, 0, 34455866, ⟨[[(53265111424839, 0), (0,
    3512770705), (760086, 0), (3444, 0), (18, 0)], [(1650028523, 0), (0, 478640), (47, 0), (4, 0)], [(0, 249207), (2,
    0)], [(34, 0)]], 3, 4⟩, 68719476736, 143102,
    4907246919169275697940370221139487277989882593410064237110646408724069193406824720900180203006, lc0⟩) (.skip))
    (.skip)) (.skip)))) (.sy (.sx (.sy (.sx (.leaf ⟨6698, 16, 82, 1675, 16, 3533, ⟨[[(412316860416, 0)],
    [(352187318272, 0)]], 3, 4⟩, ⟨[[(0, 21432194734), (3910688519470, 0), (3735304706, 0), (97160727, 0), (2262141,
    0)], [(109010700987, 0), (160877536, 0), (9380166, 0), (310716, 0), (5566, 0)], [(0, 4458980), (298567, 0),
    (15548, 0), (373, 0), (6, 0)], [(3587, 0), (337, 0), (12, 0)]], 3, 4⟩, 1099511627776, 0, 27738835,
    ⟨[[(53462124298454, 0), (0, 5348604672), (1201692, 0), (6576, 0), (63, 0)], [(1633054044, 0), (0, 710351), (0,
    369), (7, 0)], [(0, 243068), (0, 5)], [(33, 0)]], 3, 4⟩, 68719476736, 429185,
    3560246498746793664927838584778605224220815192037722107619202839619385361528916319595014611291, lc0⟩) (.sy (.leaf
    ⟨6729, 16, 82, 2580, 16, 5428, ⟨[[(137438953472, 0)], [(352187318272, 0)]], 3, 4⟩, ⟨[[(0, 284385516470),
    (3007963316626, 0), (1628311387, 0), (21966623, 0), (247126, 0)], [(165849104310, 0), (147931772, 0), (4244144,
    0), (67321, 0), (593, 0)], [(0, 5896703), (269705, 0), (6664, 0), (79, 0), (1, 0)], [(6315, 0), (285, 0), (5,
    0)]], 3, 4⟩, 1099511627776, 0, 27422449, ⟨[[(53489544369379, 0), (0, 3488766537), (544457, 0), (2197, 0), (13,
    0)], [(1615029599, 0), (0, 464232), (0, 109), (2, 0)], [(0, 240049), (0, 1)], [(32, 0)]], 3, 4⟩, 68719476736,
    99577, 3788782346592157132328052893720924816061900010832303127791629079819463987652285718067036432113, lc0⟩) (.sx
    (.leaf ⟨13525, 16, 165, 3367, 16, 7049, ⟨[[(0, 171798691840)], [(354334801920, 0)]], 3, 4⟩, ⟨[[(0, 215188685162),
    (3928820413778, 0), (2534135762, 0), (34559905, 0), (371916, 0)], [(108508705450, 0), (123400041, 0), (3381519,
    0), (50964, 0), (439, 0)], [(0, 1491443), (108474, 0), (2532, 0), (29, 0)], [(1252, 0), (54, 0), (1, 0)]], 3, 4⟩,
    1099511627776, 0, 3377273, ⟨[[(53433206383089, 0), (0, 2672228255), (380433, 0), (1319, 0), (5, 0)], [(801468690,
    0), (0, 178257), (0, 3), (1, 0)], [(0, 59466)], [(4, 0)]], 3, 4⟩, 68719476736, 66361,
    4707267648490516631136193300361867550098765790356147827171601708214828445009579141674373799023, lc0⟩) (.skip))))
    (.sx (.sy (.sx (.leaf ⟨13463, 16, 165, 3352, 16, 7014, ⟨[[(0, 34359738368)], [(354334801920, 0)]], 3, 4⟩,
    ⟨[[(516439213164, 0), (3915938416763, 0), (2492131786, 0), (33492630, 0), (360740, 0)], [(109286857886, 0),
    (121543533, 0), (3305170, 0), (49965, 0), (430, 0)], [(0, 1557675), (106967, 0), (2510, 0), (29, 0)], [(1249, 0),
    (54, 0), (1, 0)]], 3, 4⟩, 1099511627776, 0, 3435483, ⟨[[(53378692276260, 0), (0, 2673121714), (391301, 0), (1335,
    0), (5, 0)], [(808581054, 0), (0, 179194), (0, 2), (1, 0)], [(0, 60216)], [(4, 0)]], 3, 4⟩, 68719476736, 69718,
    4405731129061322984289443021926797238379319931429093621866056685801124326100141779987090564402, lc0⟩) (.skip))
    (.skip)) (.skip))) (.sy (.sx (.sy (.sx (.leaf ⟨13587, 16, 165, 3380, 16, 7083, ⟨[[(0, 309237645312)],
    [(354334801920, 0)]], 3, 4⟩, ⟨[[(488430716721, 0), (3940959887917, 0), (2571105533, 0), (35546485, 0), (382429,
    0)], [(107722768952, 0), (124894049, 0), (3447677, 0), (51844, 0), (447, 0)], [(0, 1432191), (109597, 0), (2546,
    0), (29, 0)], [(1250, 0), (54, 0), (1, 0)]], 3, 4⟩, 1099511627776, 0, 3374184, ⟨[[(53491326653216, 0), (0,
    2672797835), (363966, 0), (1273, 0), (5, 0)], [(794715455, 0), (0, 177324), (0, 7), (1, 0)], [(0, 58728)], [(4,
    0)]], 3, 4⟩, 68719476736, 57356,
    5005812462582295345481154692608421651041888990487846921730151292819526138350972951453628434784, lc0⟩) (.skip))
    (.skip)) (.skip)) (.skip))) (.skip))
theorem c104 : checkC job ⟨6, 8, 8, 10, 9, 13⟩ 1 25 lims t104 1808 48 32 201 3 1024 = true := by decide +kernel

def t105 : CTree :=
  .skip
theorem c105 : checkC job ⟨6, 8, 8, 10, 9, 13⟩ 1 25 lims t105 1808 48 32 105 3 512 = true := by decide +kernel

def t106 : CTree :=
  .sx (.sy (.sy (.sx (.sy (.sx (.leaf ⟨3418, 16, 41, 847, 16, 1821, ⟨[[(412316860416, 0)], [(352187318272, 0)]], 3,
    4⟩, ⟨[[(0, 432670191482), (3954648663420, 0), (4308520126, 0), (202849868, 0), (11718799, 0)], [(105601548855,
    0), (119981817, 0), (17777109, 0), (1516836, 0), (60310, 0)], [(0, 11343972), (520904, 0), (72175, 0), (3809, 0),
    (124, 0)], [(6749, 0), (1504, 0), (115, 0), (5, 0)]], 3, 4⟩, 1099511627776, 0, 222032212, ⟨[[(53856577039826, 0),
    (0, 10679698557), (2907513, 0), (9052, 0), (464, 0)], [(3179653197, 0), (0, 2615452), (0, 5725), (32, 0), (1,
    0)], [(0, 919185), (0, 48), (1, 0)], [(243, 0)]], 3, 4⟩, 68719476736, 6574138,
    5233454589967783174739385919168454984461047631535311166302890461233474397573311320173203852195, lc0⟩) (.sy (.leaf
    ⟨3449, 16, 41, 1323, 16, 2834, ⟨[[(137438953472, 0)], [(352187318272, 0)]], 3, 4⟩, ⟨[[(396238677134, 0),
    (3077133687377, 0), (2054228604, 0), (55857549, 0), (1465227, 0)], [(160801960031, 0), (137957388, 0), (9931161,
    0), (372943, 0), (7144, 0)], [(0, 15620740), (587163, 0), (34679, 0), (884, 0), (14, 0)], [(13968, 0), (1400, 0),
    (52, 0), (1, 0)]], 3, 4⟩, 1099511627776, 0, 152263437, ⟨[[(53920939708632, 0), (0, 6903311029), (1178411, 0),
    (4426, 0), (98, 0)], [(3115189050, 0), (0, 1704135), (0, 2198), (12, 0)], [(0, 896993), (0, 18)], [(237, 0)]], 3,
    4⟩, 68719476736, 1060124,
    3666386118544642745858810148059095505109088653999576064910474484525439699176434644536818782581, lc0⟩) (.sx (.leaf
    ⟨6883, 16, 82, 1716, 16, 3639, ⟨[[(0, 137438953472)], [(352187318272, 0)]], 3, 4⟩, ⟨[[(413559241426, 0),
    (3983828435655, 0), (3873901598, 0), (111451300, 0), (2600433, 0)], [(104412020457, 0), (163358700, 0),
    (10229951, 0), (334897, 0), (6062, 0)], [(0, 3948183), (309370, 0), (15661, 0), (379, 0), (6, 0)], [(3477, 0),
    (316, 0), (11, 0)]], 3, 4⟩, 1099511627776, 0, 26906115, ⟨[[(53805449910126, 0), (0, 5338685240), (903670, 0),
    (5096, 0), (54, 0)], [(1552749634, 0), (0, 683213), (0, 457), (6, 0)], [(0, 225630), (0, 1)], [(30, 0)]], 3, 4⟩,
    68719476736, 388883,
    4857375722472126457262331517798042137375198743178595567910690766765004469746204015437906409547, lc0⟩) (.sy (.leaf
    ⟨6914, 16, 82, 2669, 16, 5646, ⟨[[(0, 412316860416)], [(352187318272, 0)]], 3, 4⟩, ⟨[[(0, 394434629976),
    (3094186890744, 0), (1702815394, 0), (24988654, 0), (283058, 0)], [(160489117178, 0), (150546817, 0), (4575326,
    0), (72273, 0), (645, 0)], [(0, 5253188), (275223, 0), (6686, 0), (80, 0), (1, 0)], [(6033, 0), (266, 0), (5,
    0)]], 3, 4⟩, 1099511627776, 0, 24116004, ⟨[[(53830644663791, 0), (0, 3449518180), (400008, 0), (1675, 0), (11,
    0)], [(1535940135, 0), (0, 442608), (0, 154), (2, 0)], [(0, 222858), (1, 0)], [(30, 0)]], 3, 4⟩, 68719476736,
    102251, 5026094847459041027752490910020458676767426214601388084607294267346545083002247906225488247660, lc0⟩)
    (.skip))))) (.sx (.sy (.sx (.leaf ⟨6821, 16, 82, 1703, 16, 3603, ⟨[[(412316860416, 0)], [(352187318272, 0)]], 3,
    4⟩, ⟨[[(0, 339750825256), (3959260012835, 0), (3859286045, 0), (107819045, 0), (2507070, 0)], [(105890916255, 0),
    (164580066, 0), (10075363, 0), (329925, 0), (5942, 0)], [(0, 4076403), (310269, 0), (15781, 0), (380, 0), (6,
    0)], [(3562, 0), (326, 0), (12, 0)]], 3, 4⟩, 1099511627776, 0, 27582422, ⟨[[(53687051153237, 0), (0, 5341441001),
    (1014905, 0), (5788, 0), (58, 0)], [(1578326998, 0), (0, 693357), (0, 413), (6, 0)], [(0, 231299), (0, 2)], [(31,
    0)]], 3, 4⟩, 68719476736, 400441,
    4462845185423709977132098221994256734677109810419441809619642327809213346422156903084267949994, lc0⟩) (.sy (.leaf
    ⟨6852, 16, 82, 2640, 16, 5573, ⟨[[(137438953472, 0)], [(352187318272, 0)]], 3, 4⟩, ⟨[[(0, 507475184910),
    (3065845562019, 0), (1693339057, 0), (24234835, 0), (273215, 0)], [(162246397980, 0), (151665615, 0), (4521368,
    0), (71291, 0), (633, 0)], [(0, 5394072), (277222, 0), (6746, 0), (80, 0), (1, 0)], [(6207, 0), (275, 0), (5,
    0)]], 3, 4⟩, 1099511627776, 0, 25396360, ⟨[[(53715466996567, 0), (0, 3462110108), (449542, 0), (1872, 0), (11,
    0)], [(1561444164, 0), (0, 450104), (0, 136), (2, 0)], [(0, 228446)], [(31, 0)]], 3, 4⟩, 68719476736, 86906,
    4661544643447063856302654955058384878973623662717742393227451966361219510578235364948926135023, lc0⟩) (.skip)))
    (.skip)) (.skip))) (.sy (.sx (.sy (.sx (.leaf ⟨6944, 16, 82, 1729, 16, 3674, ⟨[[(412316860416, 0)],
    [(352187318272, 0)]], 3, 4⟩, ⟨[[(184527234864, 0), (4006752031397, 0), (3850005252, 0), (113740934, 0), (2670021,
    0)], [(102935724060, 0), (159825767, 0), (10246082, 0), (336468, 0), (6131, 0)], [(0, 3860519), (304047, 0),
    (15383, 0), (375, 0), (6, 0)], [(3348, 0), (303, 0), (11, 0)]], 3, 4⟩, 1099511627776, 0, 26128331,
    ⟨[[(53918021202977, 0), (0, 5334946659), (808027, 0), (4551, 0), (51, 0)], [(1527920379, 0), (0, 673463), (0,
    488), (5, 0)], [(0, 220220)], [(29, 0)]], 3, 4⟩, 68719476736, 362305,
    5188741029029459005233029719561267948903009459451159767498662996181608448515359963636838694912, lc0⟩) (.sy (.leaf
    ⟨6975, 16, 82, 2697, 16, 5719, ⟨[[(137438953472, 0)], [(352187318272, 0)]], 3, 4⟩, ⟨[[(64172409380, 0),
    (3121936341636, 0), (1694752990, 0), (25453795, 0), (290411, 0)], [(158748650843, 0), (147306813, 0), (4570666,
    0), (72551, 0), (653, 0)], [(0, 5184564), (269572, 0), (6561, 0), (79, 0), (1, 0)], [(5790, 0), (255, 0), (5,
    0)]], 3, 4⟩, 1099511627776, 0, 22837160, ⟨[[(53945869401277, 0), (0, 3436888718), (350026, 0), (1455, 0), (10,
    0)], [(1511915516, 0), (0, 434706), (0, 174), (2, 0)], [(0, 217523), (1, 0)], [(29, 0)]], 3, 4⟩, 68719476736,
    106598, 5319981410380357819407260578485271231157256396405997165534220396706815856702018396493758690398, lc0⟩)
    (.skip))) (.skip)) (.skip)) (.skip))) (.skip)) (.skip)) (.skip)
theorem c106 : checkC job ⟨6, 8, 8, 10, 9, 13⟩ 1 25 lims t106 976 48 16 51 3 256 = true := by decide +kernel

def t107 : CTree :=
  .skip
theorem c107 : checkC job ⟨6, 8, 8, 10, 9, 13⟩ 1 25 lims t107 464 48 8 57 3 256 = true := by decide +kernel

def t108 : CTree :=
  .skip
theorem c108 : checkC job ⟨6, 8, 8, 10, 9, 13⟩ 1 25 lims t108 464 48 8 33 3 128 = true := by decide +kernel

def t109 : CTree :=
  .skip
theorem c109 : checkC job ⟨6, 8, 8, 10, 9, 13⟩ 1 25 lims t109 560 48 8 15 3 64 = true := by decide +kernel

def t110 : CTree :=
  .skip
theorem c110 : checkC job ⟨6, 8, 8, 10, 9, 13⟩ 1 25 lims t110 256 48 4 21 3 64 = true := by decide +kernel

def t111 : CTree :=
  .skip
theorem c111 : checkC job ⟨6, 8, 8, 10, 9, 13⟩ 1 25 lims t111 352 48 4 9 3 32 = true := by decide +kernel

def t112 : CTree :=
  .sx (.sx (.out ⟨95, 16, 20, 677, 16, 449, ⟨[[], [(343597383680, 0)]], 1, 1⟩, ⟨[[(108463909748, 0), (0,
    3568499935776)], [(0, 110841488426), (0, 4655315334)]], 1, 1⟩, 1099511627776, 0, 434295191215, ⟨[], 0, 0⟩, 0, 0,
    0, lc0⟩ 0 1 1664782361078) (.sx (.out ⟨235, 16, 40, 738, 16, 495, ⟨[[], [(343597383680, 0)]], 1, 1⟩,
    ⟨[[(135722307093, 0), (0, 4344322458664)], [(0, 66472736997), (0, 3163419028)]], 1, 1⟩, 1099511627776, 0,
    357146634083, ⟨[], 0, 0⟩, 0, 0, 0, lc0⟩ 0 1 1252892269627) (.out ⟨265, 16, 40, 682, 16, 461, ⟨[[],
    [(343597383680, 0)]], 1, 1⟩, ⟨[[(0, 161771360745), (0, 4351480659352)], [(0, 65796826992), (0, 3440062360)]], 1,
    1⟩, 1099511627776, 0, 563759475805, ⟨[], 0, 0⟩, 0, 0, 0, lc0⟩ 0 1 990463644281))) (.sx (.sy (.out ⟨155, 16, 20,
    803, 16, 545, ⟨[[], [(343597383680, 0)]], 1, 1⟩, ⟨[[(223498637192, 0), (0, 2828736438282)], [(0, 157553686642),
    (0, 4499794827)]], 1, 1⟩, 1099511627776, 0, 564374257926, ⟨[], 0, 0⟩, 0, 0, 0, lc0⟩ 0 1 785727648639) (.sx (.out
    ⟨295, 16, 40, 987, 16, 680, ⟨[[], [(343597383680, 0)]], 1, 1⟩, ⟨[[(440969000214, 0), (0, 3577176569809)], [(0,
    113487653113), (0, 3553311419)]], 1, 1⟩, 1099511627776, 0, 460119522415, ⟨[], 0, 0⟩, 0, 0, 0, lc0⟩ 0 1
    517458279053) (.sy (.out ⟨325, 16, 40, 1400, 16, 969, ⟨[[], [(343597383680, 0)]], 1, 1⟩, ⟨[[(0, 77145116441), (0,
    2756172101359)], [(0, 166994415492), (0, 2844350926)]], 1, 1⟩, 1099511627776, 0, 335195893855, ⟨[], 0, 0⟩, 0, 0,
    0, lc0⟩ 0 1 359057161914) (.leaf ⟨1358, 16, 41, 331, 16, 891, ⟨[[(137438953472, 0)], [(352187318272, 0)]], 3, 4⟩,
    ⟨[[(0, 312704046276), (2661090480008, 0), (12317755390, 0), (220184981, 0), (3704816, 0)], [(170966557085, 0),
    (3224368341, 0), (60300682, 0), (1269309, 0), (32800, 0)], [(86851618, 0), (4186450, 0), (139576, 0), (4678, 0),
    (201, 0)], [(69860, 0), (5548, 0), (302, 0), (17, 0), (1, 0)]], 3, 4⟩, 1099511627776, 0, 871880278,
    ⟨[[(40497308339953, 0), (0, 35609034080), (103373571, 0), (21383, 0), (0, 25)], [(17341705235, 0), (37559379, 0),
    (0, 119498), (0, 132)], [(0, 14672598), (0, 74186), (157, 0)], [(19184, 0), (134, 0)]], 3, 4⟩, 68719476736,
    3733127, 4813014935257978207599460101910087500591919980502815820290137002816249036795434589551528149414, lc0⟩))))
    (.sy (.sx (.out ⟨355, 16, 40, 932, 16, 641, ⟨[[], [(343597383680, 0)]], 1, 1⟩, ⟨[[(0, 75026627842), (0,
    3761150887772)], [(0, 102488636225), (0, 3435566853)]], 1, 1⟩, 1099511627776, 0, 498922173324, ⟨[], 0, 0⟩, 0, 0,
    0, lc0⟩ 0 1 399936414845) (.sy (.sy (.out ⟨385, 16, 40, 1943, 16, 1338, ⟨[[], [(343597383680, 0)]], 1, 1⟩,
    ⟨[[(187606291235, 0), (0, 2073435012670)], [(0, 212673976293), (0, 1860276540)]], 1, 1⟩, 1099511627776, 0,
    250729709318, ⟨[], 0, 0⟩, 0, 0, 0, lc0⟩ 0 1 301418940321) (.leaf ⟨1420, 16, 41, 458, 16, 1286, ⟨[[(0,
    412316860416)], [(352187318272, 0)]], 3, 4⟩, ⟨[[(168211168393, 0), (2041519262536, 0), (4380077361, 0),
    (38145691, 0), (276168, 0)], [(215708209344, 0), (1984097523, 0), (17784034, 0), (172700, 0), (1703, 0)],
    [(85986246, 0), (2040834, 0), (32676, 0), (453, 0), (6, 0)], [(54457, 0), (2145, 0), (51, 0), (1, 0)]], 3, 4⟩,
    1099511627776, 0, 333379855, ⟨[[(41996921361194, 0), (0, 25059148015), (46033259, 0), (5308, 0), (0, 5)],
    [(15291616369, 0), (22485931, 0), (0, 47275), (0, 30)], [(0, 10965674), (0, 39534), (54, 0)], [(11811, 0), (64,
    0)]], 3, 4⟩, 68719476736, 1694197,
    4419390295690393976615528209916649214235014851822751760039418298722772955459634885331237393483, lc0⟩)) (.leaf
    ⟨1420, 16, 41, 320, 16, 866, ⟨[[(0, 412316860416)], [(352187318272, 0)]], 3, 4⟩, ⟨[[(12727540736, 0),
    (2869407479162, 0), (14985492195, 0), (271156111, 0), (4485693, 0)], [(158347321344, 0), (3167534007, 0),
    (63154542, 0), (1372364, 0), (33092, 0)], [(72309252, 0), (3718893, 0), (131719, 0), (4302, 0), (158, 0)],
    [(53044, 0), (4551, 0), (247, 0), (12, 0), (1, 0)]], 3, 4⟩, 1099511627776, 0, 617094776, ⟨[[(41579635725219, 0),
    (0, 34854691035), (102092415, 0), (15964, 0), (0, 35)], [(15664158226, 0), (30937019, 0), (0, 107723), (0, 102)],
    [(0, 11629040), (0, 55828), (129, 0)], [(12893, 0), (92, 0)]], 3, 4⟩, 68719476736, 2497499,
    4040624048303805899914944662753332632616840258168602432190578359491593939947486847794402962139, lc0⟩))) (.sx (.sy
    (.leaf ⟨1389, 16, 41, 325, 16, 875, ⟨[[(0, 137438953472)], [(352187318272, 0)]], 3, 4⟩, ⟨[[(0, 416966798342),
    (2764630726045, 0), (13768967217, 0), (247092545, 0), (4129780, 0)], [(164585158538, 0), (3214370370, 0),
    (62338452, 0), (1335912, 0), (33792, 0)], [(79729028, 0), (3984072, 0), (137359, 0), (4587, 0), (187, 0)],
    [(61583, 0), (5105, 0), (280, 0), (15, 0), (1, 0)]], 3, 4⟩, 1099511627776, 0, 756610216, ⟨[[(41023316893141, 0),
    (0, 35154893362), (103494289, 0), (18615, 0), (0, 31)], [(16481853420, 0), (33942339, 0), (0, 114411), (0, 118)],
    [(0, 13053157), (0, 64123), (144, 0)], [(15713, 0), (111, 0)]], 3, 4⟩, 68719476736, 3076308,
    4220576836785483976791658857196302761507626852659974771880124010259286540582020930462285076320, lc0⟩) (.leaf
    ⟨1389, 16, 41, 305, 16, 785, ⟨[[(0, 137438953472)], [(352187318272, 0)]], 3, 4⟩, ⟨[[(240860400041, 0),
    (2656357987320, 0), (17400381180, 0), (359448884, 0), (8967922, 0)], [(167281479811, 0), (3720324999, 0),
    (87655562, 0), (2632173, 0), (110163, 0)], [(98605400, 0), (5721636, 0), (262823, 0), (13936, 0), (835, 0)],
    [(96188, 0), (10169, 0), (827, 0), (65, 0), (5, 0)]], 3, 4⟩, 1099511627776, 0, 2257644678, ⟨[[(40520361272906,
    0), (0, 35718501393), (129566335, 0), (22734, 0), (0, 66)], [(16963873572, 0), (33926116, 0), (0, 148920), (0,
    173)], [(0, 13979725), (0, 66445), (196, 0)], [(17323, 0), (116, 0)]], 3, 4⟩, 68719476736, 3857649,
    3890250355560051642547701047128246551070772935255832828862921467989363099987255066674500500239, lc0⟩)) (.sy
    (.leaf ⟨1420, 16, 41, 301, 16, 775, ⟨[[(0, 412316860416)], [(352187318272, 0)]], 3, 4⟩, ⟨[[(0, 121382262032),
    (2759195972615, 0), (18897777147, 0), (386583152, 0), (9097362, 0)], [(161064121920, 0), (3679678509, 0),
    (88156800, 0), (2552391, 0), (99155, 0)], [(90007098, 0), (5342429, 0), (240689, 0), (11826, 0), (677, 0)],
    [(83293, 0), (8704, 0), (658, 0), (48, 0), (3, 0)]], 3, 4⟩, 1099511627776, 0, 1768944266, ⟨[[(41037333655732, 0),
    (0, 35204881112), (128374364, 0), (18500, 0), (0, 76)], [(16140540614, 0), (30541128, 0), (0, 141008), (0, 154)],
    [(0, 12505865), (0, 57437), (177, 0)], [(14345, 0), (96, 0)]], 3, 4⟩, 68719476736, 3244313,
    4006077209779337808801621169697378686262341050650662124872740765160692188726260774998863589056, lc0⟩) (.sy (.leaf
    ⟨1420, 16, 41, 386, 16, 956, ⟨[[(0, 412316860416)], [(352187318272, 0)]], 3, 4⟩, ⟨[[(0, 477464613927),
    (1823753234970, 0), (7902213884, 0), (100319217, 0), (1773642, 0)], [(221659199102, 0), (2884915689, 0),
    (43469572, 0), (913262, 0), (24898, 0)], [(148480585, 0), (5292468, 0), (164700, 0), (5711, 0), (195, 0)],
    [(175282, 0), (11964, 0), (619, 0), (28, 0), (1, 0)]], 3, 4⟩, 1099511627776, 0, 3680569854, ⟨[[(40636012544439,
    0), (0, 26052895927), (84754189, 0), (7669, 0), (0, 42)], [(16484248295, 0), (21979804, 0), (0, 96389), (0, 87)],
    [(0, 13164569), (0, 43000), (126, 0)], [(15454, 0), (73, 0)]], 3, 4⟩, 68719476736, 2631332,
    2955902629838884289069408808127702924039327755243530481389295282919023756635962005689660853060, lc0⟩) (.leaf
    ⟨1420, 16, 41, 364, 16, 879, ⟨[[(0, 412316860416)], [(352187318272, 0)]], 3, 4⟩, ⟨[[(0, 88409210282),
    (1775715871698, 0), (9381315392, 0), (149909955, 0), (3422787, 0)], [(221376854170, 0), (3247572207, 0),
    (61751737, 0), (1700057, 0), (53101, 0)], [(172584673, 0), (7446713, 0), (299137, 0), (12166, 0), (434, 0)],
    [(254746, 0), (21678, 0), (1322, 0), (63, 0), (2, 0)]], 3, 4⟩, 1099511627776, 0, 7194491600, ⟨[[(40386738179435,
    0), (0, 26510256928), (100491760, 0), (7554, 0), (0, 69)], [(16692040030, 0), (21804295, 0), (0, 117133), (0,
    117)], [(0, 13577174), (0, 43993), (156, 0)], [(16158, 0), (75, 0)]], 3, 4⟩, 68719476736, 3106843,
    4830420295779078633134724847400935329350919165556657493528318110961497813294370197431699602688, lc0⟩))))))
theorem c112 : checkC job ⟨6, 8, 8, 10, 9, 13⟩ 1 25 lims t112 112 48 16 51 3 128 = true := by decide +kernel

def t113 : CTree :=
  .sx (.sx (.sy (.leaf ⟨1450, 16, 41, 317, 16, 863, ⟨[[(412316860416, 0)], [(352187318272, 0)]], 3, 4⟩, ⟨[[(0,
    530177738021), (2973996933251, 0), (15913172562, 0), (291080565, 0), (4799021, 0)], [(152188881599, 0),
    (3084499039, 0), (62621289, 0), (1380787, 0), (31866, 0)], [(64735096, 0), (3396648, 0), (123092, 0), (3953, 0),
    (128, 0)], [(44480, 0), (3927, 0), (212, 0), (9, 0)]], 3, 4⟩, 1099511627776, 0, 480195798, ⟨[[(42104269032798,
    0), (0, 34469438317), (99585825, 0), (13534, 0), (0, 37)], [(14946160806, 0), (28297838, 0), (0, 100601), (0,
    88)], [(0, 10469855), (0, 48929), (115, 0)], [(10753, 0), (77, 0)]], 3, 4⟩, 68719476736, 2037500,
    4306297613769246834290249691413687392019736639317849875564646250518632729530012930689665297847, lc0⟩) (.leaf
    ⟨1450, 16, 41, 299, 16, 773, ⟨[[(412316860416, 0)], [(352187318272, 0)]], 3, 4⟩, ⟨[[(0, 473674555745),
    (2867427094115, 0), (20111192062, 0), (407775976, 0), (8866711, 0)], [(155225582127, 0), (3600969811, 0),
    (87004042, 0), (2403746, 0), (82523, 0)], [(81168897, 0), (4889660, 0), (214627, 0), (9467, 0), (489, 0)],
    [(70334, 0), (7240, 0), (499, 0), (33, 0), (2, 0)]], 3, 4⟩, 1099511627776, 0, 1295702987, ⟨[[(41552964210589, 0),
    (0, 34732312799), (124888342, 0), (14724, 0), (0, 80)], [(15393052374, 0), (27730210, 0), (0, 131161), (0, 133)],
    [(0, 11258938), (0, 50101), (157, 0)], [(11998, 0), (80, 0)]], 3, 4⟩, 68719476736, 2716871,
    3918753269695635103656289907714043687974192776897586758525676932456020323719158011016660007012, lc0⟩)) (.sy
    (.leaf ⟨1481, 16, 41, 297, 16, 776, ⟨[[(137438953472, 0)], [(352187318272, 0)]], 3, 4⟩, ⟨[[(88718671270, 0),
    (2972148069096, 0), (20935216732, 0), (423141335, 0), (8590259, 0)], [(149271438945, 0), (3476136653, 0),
    (84214685, 0), (2244693, 0), (66991, 0)], [(72065175, 0), (4377514, 0), (188752, 0), (7488, 0), (328, 0)],
    [(57757, 0), (5905, 0), (376, 0), (21, 0), (1, 0)]], 3, 4⟩, 1099511627776, 0, 905785466, ⟨[[(42127652721592, 0),
    (0, 34545812392), (119927208, 0), (11797, 0), (0, 78)], [(14648326455, 0), (25505255, 0), (0, 119952), (0, 111)],
    [(0, 10093412), (0, 44059), (136, 0)], [(9963, 0), (67, 0)]], 3, 4⟩, 68719476736, 2306440,
    3588465240300249341446648930130988900145073967141392959770356854587048908932084615367409944869, lc0⟩) (.leaf
    ⟨1481, 16, 41, 273, 16, 675, ⟨[[(137438953472, 0)], [(352187318272, 0)]], 3, 4⟩, ⟨[[(221382753363, 0),
    (2851771615044, 0), (27080967546, 0), (670082570, 0), (21268844, 0)], [(151143829731, 0), (4185639238, 0),
    (129071803, 0), (4976334, 0), (251080, 0)], [(93392059, 0), (6884489, 0), (402317, 0), (25523, 0), (1772, 0)],
    [(99229, 0), (12884, 0), (1225, 0), (112, 0), (9, 0)]], 3, 4⟩, 1099511627776, 0, 3203744071, ⟨[[(41579689349644,
    0), (0, 35059248516), (159091053, 0), (8355, 0), (0, 192)], [(15043463349, 0), (24562058, 0), (0, 166342), (0,
    186)], [(0, 10795786), (0, 45110), (198, 0)], [(11035, 0), (70, 0)]], 3, 4⟩, 68719476736, 3560506,
    2770397756737449066818509417011251949552785760430772043741116873539718756334379551411866487551, lc0⟩))) (.sx (.sy
    (.leaf ⟨1512, 16, 41, 275, 16, 686, ⟨[[(0, 137438953472)], [(352187318272, 0)]], 3, 4⟩, ⟨[[(0, 300597011373),
    (2963456269938, 0), (27553004897, 0), (648176245, 0), (17519952, 0)], [(145816805371, 0), (3991876119, 0),
    (118649407, 0), (4047034, 0), (171739, 0)], [(81931797, 0), (5901712, 0), (314368, 0), (16958, 0), (1076, 0)],
    [(78064, 0), (9444, 0), (779, 0), (64, 0), (5, 0)]], 3, 4⟩, 1099511627776, 0, 2009735535, ⟨[[(42119617199115, 0),
    (0, 34519327675), (149187126, 0), (4612, 0), (0, 179)], [(14350513235, 0), (22332712, 0), (0, 148715), (0, 153)],
    [(0, 9751444), (0, 39419), (168, 0)], [(9288, 0), (58, 0)]], 3, 4⟩, 68719476736, 3000864,
    2610637260243057643494493564165464507471970630780546858334652714710825760022356341691888772243, lc0⟩) (.sy (.leaf
    ⟨1512, 16, 41, 357, 16, 851, ⟨[[(0, 137438953472)], [(352187318272, 0)]], 3, 4⟩, ⟨[[(0, 487044648096),
    (2021456146777, 0), (12193388354, 0), (184255242, 0), (3861449, 0)], [(206726847555, 0), (3346184525, 0),
    (64224869, 0), (1624052, 0), (51353, 0)], [(145167136, 0), (6428886, 0), (241026, 0), (9777, 0), (391, 0)],
    [(180340, 0), (14564, 0), (890, 0), (48, 0), (2, 0)]], 3, 4⟩, 1099511627776, 0, 4199650818, ⟨[[(41702787240495,
    0), (0, 24751638518), (96933622, 0), (0, 3089), (0, 98)], [(14611336210, 0), (14875901, 0), (0, 100627), (0,
    88)], [(0, 10227166), (0, 28187), (117, 0)], [(9990, 0), (42, 0)]], 3, 4⟩, 68719476736, 2008069,
    2802662353012055506416926620883100334777099833552084887802967501853688638123895341634746067098, lc0⟩) (.sx (.leaf
    ⟨3008, 16, 82, 510, 16, 1195, ⟨[[(412316860416, 0)], [(352187318272, 0)]], 3, 4⟩, ⟨[[(0, 110292010709),
    (2939417938776, 0), (20073746035, 0), (357296123, 0), (9001684, 0)], [(154947509080, 0), (2725368393, 0),
    (61089505, 0), (1868247, 0), (65204, 0)], [(61358005, 0), (3085259, 0), (138371, 0), (6309, 0), (257, 0)],
    [(44854, 0), (4250, 0), (293, 0), (16, 0), (1, 0)]], 3, 4⟩, 1099511627776, 0, 574758783, ⟨[[(41435061386835, 0),
    (0, 16851278002), (49536479, 0), (0, 1766), (0, 27)], [(7433932153, 0), (5004687, 0), (0, 26436), (0, 17)], [(0,
    2661982), (0, 4931), (16, 0)], [(1333, 0), (4, 0)]], 3, 4⟩, 68719476736, 241568,
    3399349004001140391760866067056995883766332128853822373592329728711463963919831935797046698361, lc0⟩) (.leaf
    ⟨3039, 16, 82, 474, 16, 1082, ⟨[[(137438953472, 0)], [(352187318272, 0)]], 3, 4⟩, ⟨[[(477841879235, 0),
    (2928093398338, 0), (24925416190, 0), (554508988, 0), (16648957, 0)], [(152255647817, 0), (3135735066, 0),
    (88894771, 0), (3323442, 0), (126722, 0)], [(70066765, 0), (4324763, 0), (238405, 0), (12105, 0), (507, 0)],
    [(62417, 0), (7195, 0), (557, 0), (32, 0), (1, 0)]], 3, 4⟩, 1099511627776, 0, 1027805512, ⟨[[(41446365923495, 0),
    (0, 16993147268), (59290736, 0), (0, 5213), (0, 46)], [(7331537143, 0), (4431099, 0), (0, 31911), (0, 23)], [(0,
    2602075), (0, 4628), (19, 0)], [(1278, 0), (3, 0)]], 3, 4⟩, 68719476736, 271146,
    4342656052719358033323072274572675392159161706265444448829913770035585918280643757601843532090, lc0⟩)))) (.sy
    (.leaf ⟨1543, 16, 41, 248, 16, 590, ⟨[[(0, 412316860416)], [(352187318272, 0)]], 3, 4⟩, ⟨[[(0, 129165768818),
    (2933791868726, 0), (36782393462, 0), (1099180267, 0), (44193727, 0)], [(141136950612, 0), (4698473928, 0),
    (181757079, 0), (8919927, 0), (559463, 0)], [(95490222, 0), (8564437, 0), (630540, 0), (50777, 0), (4189, 0)],
    [(112497, 0), (18003, 0), (2197, 0), (244, 0), (22, 0)]], 3, 4⟩, 1099511627776, 0, 5514579047,
    ⟨[[(42129016540208, 0), (0, 34881345101), (195374478, 0), (0, 17872), (0, 449)], [(14013978904, 0), (18908007,
    0), (0, 195433), (0, 236), (0, 1)], [(0, 9382490), (0, 35314), (217, 0)], [(8623, 0), (50, 0)]], 3, 4⟩,
    68719476736, 4755522,
    3228766636329272721237236123909781204415712309645802159587316525580685985154502840567747051520, lc0⟩) (.sy (.sx
    (.leaf ⟨3070, 16, 82, 481, 16, 1104, ⟨[[(0, 137438953472)], [(352187318272, 0)]], 3, 4⟩, ⟨[[(110916700752, 0),
    (2986941815528, 0), (24011478157, 0), (488281543, 0), (13839793, 0)], [(149831428710, 0), (2967229368, 0),
    (77369273, 0), (2705436, 0), (102486, 0)], [(63758156, 0), (3672778, 0), (189519, 0), (9497, 0), (407, 0)],
    [(51039, 0), (5550, 0), (424, 0), (25, 0), (1, 0)]], 3, 4⟩, 1099511627776, 0, 781506571, ⟨[[(41715156048456, 0),
    (0, 16819781054), (56060351, 0), (0, 5114), (0, 42)], [(7162855922, 0), (4226570, 0), (0, 29400), (0, 20)], [(0,
    2476400), (0, 4325), (17, 0)], [(1176, 0), (3, 0)]], 3, 4⟩, 68719476736, 250815,
    3663768597956122537804220912162917855844519471553049572500374751054297337900837538069431300367, lc0⟩) (.leaf
    ⟨3101, 16, 82, 444, 16, 990, ⟨[[(0, 412316860416)], [(352187318272, 0)]], 3, 4⟩, ⟨[[(0, 358762734941),
    (2969511480178, 0), (30167997616, 0), (773247217, 0), (25649859, 0)], [(146816967236, 0), (3465815040, 0),
    (115685140, 0), (4864350, 0), (197220, 0)], [(73906164, 0), (5311728, 0), (332352, 0), (18079, 0), (784, 0)],
    [(73436, 0), (9602, 0), (800, 0), (47, 0), (2, 0)]], 3, 4⟩, 1099511627776, 0, 1405380625, ⟨[[(41710027001042, 0),
    (0, 16881260596), (68233756, 0), (0, 11390), (0, 67)], [(7062952087, 0), (3516556, 0), (0, 36348), (0, 29)], [(0,
    2424952), (0, 4000), (21, 0)], [(1130, 0), (3, 0)]], 3, 4⟩, 68719476736, 419405,
    4674849323513264221996288959583930795695032803189334139107000852342618338827400814052250298811, lc0⟩)) (.sx (.sy
    (.leaf ⟨3070, 16, 82, 628, 16, 1405, ⟨[[(0, 137438953472)], [(352187318272, 0)]], 3, 4⟩, ⟨[[(495049840081, 0),
    (2060907219150, 0), (10422668932, 0), (135224766, 0), (2234327, 0)], [(210045594182, 0), (2464823678, 0),
    (41417126, 0), (868684, 0), (17320, 0)], [(108410148, 0), (3905168, 0), (121736, 0), (3260, 0), (69, 0)],
    [(111197, 0), (7224, 0), (296, 0), (9, 0)]], 3, 4⟩, 1099511627776, 0, 1264335041, ⟨[[(41514266424538, 0), (0,
    12120753736), (34470346, 0), (0, 3527), (0, 17)], [(7210916376, 0), (2737784, 0), (0, 18636), (0, 10)], [(0,
    2527630), (0, 3061), (11, 0)], [(1213, 0), (2, 0)]], 3, 4⟩, 68719476736, 189354,
    3669174574243552707309056881381959974414959904727303746049309110321587072867103723279891932481, lc0⟩) (.leaf
    ⟨3070, 16, 82, 590, 16, 1296, ⟨[[(0, 137438953472)], [(352187318272, 0)]], 3, 4⟩, ⟨[[(451695137346, 0),
    (2031877788397, 0), (12384819573, 0), (188170684, 0), (3326833, 0)], [(208963228532, 0), (2834295328, 0),
    (56728506, 0), (1297814, 0), (26220, 0)], [(126396876, 0), (5337383, 0), (182847, 0), (4996, 0), (105, 0)],
    [(154345, 0), (10966, 0), (460, 0), (13, 0)]], 3, 4⟩, 1099511627776, 0, 1940516604, ⟨[[(41378050107032, 0), (0,
    12273220064), (40352440, 0), (0, 5441), (0, 21)], [(7240201016, 0), (2493811, 0), (0, 22336), (0, 14)], [(0,
    2561722), (0, 3041), (13, 0)], [(1238, 0), (2, 0)]], 3, 4⟩, 68719476736, 248798,
    4947273093098013837250219097857296632610717555815996544403782946020242402830999384451861573012, lc0⟩)) (.sy
    (.leaf ⟨3101, 16, 82, 569, 16, 1234, ⟨[[(0, 412316860416)], [(352187318272, 0)]], 3, 4⟩, ⟨[[(0, 45402766512),
    (2056256673762, 0), (13912415277, 0), (226559818, 0), (4157993, 0)], [(206033074350, 0), (3047869051, 0),
    (66292347, 0), (1585545, 0), (32716, 0)], [(132828201, 0), (6076993, 0), (218493, 0), (6105, 0), (130, 0)],
    [(172180, 0), (12831, 0), (550, 0), (16, 0)]], 3, 4⟩, 1099511627776, 0, 2222070823, ⟨[[(41509784253572, 0), (0,
    12180426464), (43604542, 0), (0, 7453), (0, 21)], [(7101150288, 0), (2081892, 0), (0, 24092), (0, 15)], [(0,
    2471644), (0, 2786), (14, 0)], [(1164, 0), (2, 0)]], 3, 4⟩, 68719476736, 372846,
    5238947213598235547585001184202347459394219682632901946562437087079968870570096976881573387374, lc0⟩) (.sx (.leaf
    ⟨6224, 16, 165, 798, 16, 1711, ⟨[[(0, 446676598784)], [(354334801920, 0)]], 3, 4⟩, ⟨[[(439445180608, 0),
    (2994678379460, 0), (23256714627, 0), (413507999, 0), (7760461, 0)], [(151804659911, 0), (2514110485, 0),
    (60570909, 0), (1496315, 0), (30730, 0)], [(55638712, 0), (2797720, 0), (104325, 0), (2909, 0), (61, 0)],
    [(40298, 0), (3106, 0), (133, 0), (4, 0)]], 3, 4⟩, 1099511627776, 0, 287804050, ⟨[[(41376029657040, 0), (0,
    8384821475), (22702705, 0), (0, 2924), (0, 4)], [(3554857634, 0), (647539, 0), (0, 6360), (0, 3)], [(0, 621708),
    (0, 472), (2, 0)], [(147, 0)]], 3, 4⟩, 68719476736, 137078,
    4236290787954438580620591655847935826980366305988509351225577807530711917356014069248157377022, lc0⟩) (.sy (.leaf
    ⟨6255, 16, 165, 1071, 16, 2268, ⟨[[(0, 515396075520)], [(354334801920, 0)]], 3, 4⟩, ⟨[[(0, 307169873102),
    (2106392759769, 0), (9167787407, 0), (86747913, 0), (832496, 0)], [(211014683835, 0), (1927532868, 0), (25044228,
    0), (318218, 0), (3291, 0)], [(84618857, 0), (2287436, 0), (43994, 0), (618, 0), (6, 0)], [(65467, 0), (2599, 0),
    (56, 0), (1, 0)]], 3, 4⟩, 1099511627776, 0, 359165361, ⟨[[(41404452762812, 0), (0, 5972815161), (12757562, 0),
    (0, 1326)], [(3522277541, 0), (372225, 0), (0, 3599), (0, 1)], [(0, 612641), (0, 317), (1, 0)], [(143, 0)]], 3,
    4⟩, 68719476736, 52948,
    3084629810193856111229237561271313358240375215049544104763878045461506668113096049464442438615, lc0⟩)
    (.skip))))))))
theorem c113 : checkC job ⟨6, 8, 8, 10, 9, 13⟩ 1 25 lims t113 368 48 32 99 3 256 = true := by decide +kernel

def t114 : CTree :=
  .sx (.sy (.leaf ⟨1573, 16, 41, 329, 16, 756, ⟨[[(412316860416, 0)], [(352187318272, 0)]], 3, 4⟩, ⟨[[(0,
    393641706443), (2122399335735, 0), (16796842345, 0), (313997319, 0), (8265562, 0)], [(196825248828, 0),
    (3866697034, 0), (94615555, 0), (3069548, 0), (116296, 0)], [(152554082, 0), (8386749, 0), (405196, 0), (20179,
    0), (903, 0)], [(214053, 0), (22101, 0), (1680, 0), (102, 0), (5, 0)]], 3, 4⟩, 1099511627776, 0, 6112719454,
    ⟨[[(42254918651033, 0), (0, 24215209606), (115006698, 0), (0, 20132), (0, 201)], [(13607249492, 0), (10659438,
    0), (0, 115079), (0, 111)], [(0, 8915818), (0, 21616), (124, 0)], [(7867, 0), (29, 0)]], 3, 4⟩, 68719476736,
    2044939, 2934037964173190661566459217635735751559975480686047019524241653618357785645674251956638749258, lc0⟩)
    (.sx (.leaf ⟨3131, 16, 82, 454, 16, 1022, ⟨[[(412316860416, 0)], [(352187318272, 0)]], 3, 4⟩, ⟨[[(338895496205,
    0), (3034418108560, 0), (28442230222, 0), (657318140, 0), (20661272, 0)], [(144824960401, 0), (3222751391, 0),
    (97188923, 0), (3830068, 0), (155077, 0)], [(66050400, 0), (4351678, 0), (254950, 0), (13768, 0), (611, 0)],
    [(57824, 0), (7130, 0), (589, 0), (36, 0), (2, 0)]], 3, 4⟩, 1099511627776, 0, 1042323807, ⟨[[(41991686478803, 0),
    (0, 16802999273), (63159745, 0), (0, 10054), (0, 61)], [(6905970817, 0), (3466849, 0), (0, 32659), (0, 24)], [(0,
    2310550), (0, 3794), (18, 0)], [(1043, 0), (3, 0)]], 3, 4⟩, 68719476736, 251912,
    3795836441872127198822792915258949636395063255712167997512189963343796446301037128713836036968, lc0⟩) (.leaf
    ⟨3162, 16, 82, 414, 16, 906, ⟨[[(137438953472, 0)], [(352187318272, 0)]], 3, 4⟩, ⟨[[(538902562364, 0),
    (3006476453695, 0), (36128501266, 0), (1055063745, 0), (38021338, 0)], [(141309101575, 0), (3818337133, 0),
    (148257047, 0), (6870848, 0), (291983, 0)], [(77672073, 0), (6443763, 0), (447553, 0), (25615, 0), (1138, 0)],
    [(85262, 0), (12354, 0), (1083, 0), (65, 0), (3, 0)]], 3, 4⟩, 1099511627776, 0, 1845378601, ⟨[[(41996873785961,
    0), (0, 17019812065), (78488311, 0), (0, 19859), (0, 84)], [(6802387716, 0), (2713671, 0), (0, 41353), (0, 34)],
    [(0, 2260329), (0, 3508), (22, 0)], [(1001, 0), (2, 0)]], 3, 4⟩, 68719476736, 1206986,
    4853512589692173275693257177344488827850556004033688287171853278242112693222133388029151742956, lc0⟩))) (.sy (.sx
    (.leaf ⟨3193, 16, 82, 429, 16, 948, ⟨[[(0, 137438953472)], [(352187318272, 0)]], 3, 4⟩, ⟨[[(304972831471, 0),
    (3078219785972, 0), (33292204060, 0), (866621521, 0), (29719544, 0)], [(139765615834, 0), (3480444693, 0),
    (120160924, 0), (5237049, 0), (223212, 0)], [(67975280, 0), (5084513, 0), (331470, 0), (18932, 0), (862, 0)],
    [(64515, 0), (8836, 0), (772, 0), (48, 0), (2, 0)]], 3, 4⟩, 1099511627776, 0, 1327128713, ⟨[[(42274708992008, 0),
    (0, 16780852060), (70757943, 0), (0, 16997), (0, 78)], [(6654401235, 0), (2696741, 0), (0, 36174), (0, 29)], [(0,
    2156818), (0, 3311), (19, 0)], [(926, 0), (2, 0)]], 3, 4⟩, 68719476736, 703786,
    3764794448490119162189855196357122802979509968911673511632364357450969021140487945316072723018, lc0⟩) (.leaf
    ⟨3224, 16, 82, 388, 16, 831, ⟨[[(0, 412316860416)], [(352187318272, 0)]], 3, 4⟩, ⟨[[(0, 499811782286),
    (3040429918537, 0), (42695574734, 0), (1398006053, 0), (53820787, 0)], [(135827599999, 0), (4177132126, 0),
    (185181743, 0), (9264303, 0), (407890, 0)], [(80968840, 0), (7624550, 0), (574312, 0), (34111, 0), (1544, 0)],
    [(96280, 0), (15091, 0), (1372, 0), (84, 0), (4, 0)]], 3, 4⟩, 1099511627776, 0, 2301169040, ⟨[[(42264243531375,
    0), (0, 16898024345), (89602583, 0), (0, 31172), (0, 42)], [(6550751231, 0), (1742875, 0), (0, 47009), (0, 37)],
    [(0, 2112648), (0, 2984), (25, 0)], [(891, 0), (2, 0)]], 3, 4⟩, 68719476736, 4407893,
    4732818919377225429706677004811925304169360794877376953494760384814112177759399036390595362816, lc0⟩)) (.sx (.sy
    (.leaf ⟨3193, 16, 82, 556, 16, 1191, ⟨[[(0, 137438953472)], [(352187318272, 0)]], 3, 4⟩, ⟨[[(20035712071, 0),
    (2163266754643, 0), (15623533264, 0), (262830309, 0), (5056545, 0)], [(199060969864, 0), (3128695503, 0),
    (71272168, 0), (1787899, 0), (38806, 0)], [(125270086, 0), (6034104, 0), (228019, 0), (6687, 0), (149, 0)],
    [(157452, 0), (12354, 0), (555, 0), (17, 0)]], 3, 4⟩, 1099511627776, 0, 1977809426, ⟨[[(42060138316557, 0), (0,
    11837732725), (44345132, 0), (0, 10179), (0, 11)], [(6684245153, 0), (1353216, 0), (0, 23644), (0, 13)], [(0,
    2198156), (0, 2214), (13, 0)], [(953, 0), (1, 0)]], 3, 4⟩, 68719476736, 792401,
    3907223730850495752439240060525885170562132385351150499297853746106277334735292289833794649931, lc0⟩) (.sx (.leaf
    ⟨6409, 16, 165, 764, 16, 1615, ⟨[[(240518168576, 0)], [(354334801920, 0)]], 3, 4⟩, ⟨[[(355811175474, 0),
    (3102848127695, 0), (25963543076, 0), (482011984, 0), (9524452, 0)], [(144439109620, 0), (2567817049, 0),
    (65417861, 0), (1702034, 0), (36762, 0)], [(52305096, 0), (2793090, 0), (109824, 0), (3213, 0), (70, 0)],
    [(37115, 0), (3018, 0), (135, 0), (4, 0)]], 3, 4⟩, 1099511627776, 0, 274240124, ⟨[[(41921578892297, 0), (0,
    8251717034), (24096333, 0), (0, 4074), (2, 0)], [(3343728942, 0), (378408, 0), (0, 6523), (0, 2)], [(0, 552487),
    (0, 375), (2, 0)], [(120, 0)]], 3, 4⟩, 68719476736, 258064,
    4078267587372024681053279881066461747373466216055434744235374325448599730448542689845786887538, lc0⟩) (.leaf
    ⟨6440, 16, 165, 711, 16, 1478, ⟨[[(171798691840, 0)], [(354334801920, 0)]], 3, 4⟩, ⟨[[(504072058116, 0),
    (3091462496403, 0), (30554541965, 0), (621318897, 0), (12615616, 0)], [(142421272702, 0), (2926803078, 0),
    (83026025, 0), (2236886, 0), (48455, 0)], [(59342102, 0), (3507216, 0), (143207, 0), (4207, 0), (91, 0)],
    [(46421, 0), (3908, 0), (176, 0), (5, 0)]], 3, 4⟩, 1099511627776, 0, 354714231, ⟨[[(41922339328678, 0), (0,
    8332479644), (28346723, 0), (0, 4861), (21, 0)], [(3313333096, 0), (206482, 0), (0, 7746), (0, 2)], [(0, 545883),
    (0, 348), (2, 0)], [(118, 0)]], 3, 4⟩, 68719476736, 543029,
    4077485429700275556141239992098855603279866458103132422719220115423963318213774013038372306528, lc0⟩))) (.sy (.sx
    (.leaf ⟨6471, 16, 165, 734, 16, 1535, ⟨[[(103079215104, 0)], [(354334801920, 0)]], 3, 4⟩, ⟨[[(278508717420, 0),
    (3125530237711, 0), (28579518740, 0), (558570143, 0), (11313211, 0)], [(141743400465, 0), (2724249674, 0),
    (73769208, 0), (1974095, 0), (43197, 0)], [(54182451, 0), (3069036, 0), (124291, 0), (3684, 0), (81, 0)],
    [(39828, 0), (3331, 0), (151, 0), (5, 0)]], 3, 4⟩, 1099511627776, 0, 302803255, ⟨[[(42060478493534, 0), (0,
    8247860926), (26119971, 0), (0, 4664), (13, 0)], [(3278897774, 0), (240691, 0), (0, 7038), (0, 2)], [(0, 533643),
    (0, 342), (2, 0)], [(113, 0)]], 3, 4⟩, 68719476736, 416065,
    3943025951634159684435333233826331644796502374404725778645872850930519983854652535366923044669, lc0⟩) (.leaf
    ⟨6502, 16, 165, 680, 16, 1398, ⟨[[(34359738368, 0)], [(354334801920, 0)]], 3, 4⟩, ⟨[[(480585070867, 0),
    (3113450780906, 0), (33654772798, 0), (716215365, 0), (14847578, 0)], [(139682515658, 0), (3112092935, 0),
    (93200255, 0), (2570058, 0), (56297, 0)], [(61600949, 0), (3836805, 0), (160490, 0), (4767, 0), (104, 0)],
    [(49565, 0), (4269, 0), (194, 0), (6, 0)]], 3, 4⟩, 1099511627776, 0, 385775730, ⟨[[(42061596351442, 0), (0,
    8331711322), (31036462, 0), (0, 4665), (52, 0)], [(3247804505, 0), (48523, 0), (0, 8394)], [(0, 527169), (0,
    312), (2, 0)], [(111, 0)]], 3, 4⟩, 68719476736, 1028492,
    3712830890268814311296057169908552214173609498882526165920189812934072911223745568168663709129, lc0⟩)) (.sx
    (.leaf ⟨6471, 16, 165, 654, 16, 1334, ⟨[[(103079215104, 0)], [(354334801920, 0)]], 3, 4⟩, ⟨[[(0, 164057131184),
    (3076445950422, 0), (36116140921, 0), (794125049, 0), (16442086, 0)], [(140120660232, 0), (3359211472, 0),
    (104691153, 0), (2893648, 0), (62681, 0)], [(67772212, 0), (4378665, 0), (183816, 0), (5404, 0), (117, 0)],
    [(57681, 0), (4979, 0), (224, 0), (7, 0)]], 3, 4⟩, 1099511627776, 0, 450255249, ⟨[[(41916504883747, 0), (0,
    8381023616), (34302438, 0), (0, 3868), (86, 0)], [(3280931996, 0), (0, 24754), (0, 9369), (2, 0)], [(0, 539316),
    (0, 310), (3, 0)], [(115, 0)]], 3, 4⟩, 68719476736, 1553204,
    5007931726344738118278668483507265865197943177451504908544718996576505058364565574195294264810, lc0⟩) (.skip)))))
theorem c114 : checkC job ⟨6, 8, 8, 10, 9, 13⟩ 1 25 lims t114 880 48 64 195 3 512 = true := by decide +kernel

def t115 : CTree :=
  .sx (.sy (.sx (.sy (.leaf ⟨3254, 16, 82, 524, 16, 1100, ⟨[[(412316860416, 0)], [(352187318272, 0)]], 3, 4⟩, ⟨[[(0,
    534903447509), (2212398687049, 0), (18693936790, 0), (348260399, 0), (7062375, 0)], [(193380939263, 0),
    (3477849641, 0), (89252875, 0), (2377827, 0), (53067, 0)], [(132620434, 0), (7163094, 0), (288356, 0), (8699, 0),
    (196, 0)], [(178072, 0), (14845, 0), (685, 0), (21, 0)]], 3, 4⟩, 1099511627776, 0, 2253868600,
    ⟨[[(42331922386027, 0), (0, 11685336130), (49912536, 0), (0, 13429), (40, 0)], [(6435844873, 0), (639475, 0), (0,
    26428), (0, 11)], [(0, 2055678), (0, 1850), (14, 0)], [(849, 0), (1, 0)]], 3, 4⟩, 68719476736, 2205558,
    3692011278835818742868503077459781945028629076160546840504268574636963789502753454672637629002, lc0⟩) (.leaf
    ⟨3254, 16, 82, 469, 16, 961, ⟨[[(412316860416, 0)], [(352187318272, 0)]], 3, 4⟩, ⟨[[(0, 538260577041),
    (2167788168131, 0), (23410086827, 0), (499266710, 0), (10445993, 0)], [(190497722501, 0), (4244393170, 0),
    (127405028, 0), (3542686, 0), (78432, 0)], [(164368015, 0), (10271448, 0), (433111, 0), (12993, 0), (287, 0)],
    [(259475, 0), (22532, 0), (1033, 0), (31, 0), (1, 0)]], 3, 4⟩, 1099511627776, 0, 3423316401, ⟨[[(42190119839955,
    0), (0, 11915711789), (64816163, 0), (0, 12675), (289, 0)], [(6439682107, 0), (0, 48514), (0, 34850), (6, 0), (1,
    0)], [(0, 2077119), (0, 1702), (19, 0)], [(862, 0), (1, 0)]], 3, 4⟩, 68719476736, 7831493,
    4927362305523691116581542797092950270364573322382752556264304542704609004180038878766681787929, lc0⟩)) (.sy
    (.leaf ⟨3285, 16, 82, 451, 16, 916, ⟨[[(137438953472, 0)], [(352187318272, 0)]], 3, 4⟩, ⟨[[(76070939583, 0),
    (2188356275531, 0), (25517418982, 0), (565259234, 0), (12036177, 0)], [(187292664031, 0), (4473601323, 0),
    (140414563, 0), (3980644, 0), (89005, 0)], [(168964655, 0), (11023023, 0), (474137, 0), (14362, 0), (320, 0)],
    [(271389, 0), (24013, 0), (1111, 0), (34, 0), (1, 0)]], 3, 4⟩, 1099511627776, 0, 3549685758, ⟨[[(42339343622313,
    0), (0, 11948955198), (70041232, 0), (0, 7156), (541, 0)], [(6312124533, 0), (0, 451632), (0, 36874), (27, 0),
    (1, 0)], [(0, 2005843), (0, 1526), (21, 0)], [(812, 0), (1, 0)]], 3, 4⟩, 68719476736, 13093968,
    4523954763439083569382603679302822674420845522281067004763581602141343190637122633027950290067, lc0⟩) (.sx (.leaf
    ⟨6595, 16, 165, 592, 16, 1180, ⟨[[(0, 171798691840)], [(354334801920, 0)]], 3, 4⟩, ⟨[[(0, 363807067661),
    (3114182467338, 0), (43304695705, 0), (1025094024, 0), (21937142, 0)], [(134400879634, 0), (3769958212, 0),
    (128245503, 0), (3674660, 0), (81108, 0)], [(72413091, 0), (5091825, 0), (221762, 0), (6639, 0), (145, 0)],
    [(63760, 0), (5697, 0), (261, 0), (8, 0)]], 3, 4⟩, 1099511627776, 0, 511354899, ⟨[[(42194962052053, 0), (0,
    8339380296), (42439890, 0), (8794, 0), (377, 0)], [(3148763304, 0), (0, 407198), (0, 10743), (19, 0)], [(0,
    502818), (0, 225), (3, 0)], [(102, 0)]], 3, 4⟩, 68719476736, 5707777,
    4350660189905000550624670494804974328241193423948022471983108670652035602796144303996960318069, lc0⟩) (.skip))))
    (.sx (.sy (.sx (.leaf ⟨6533, 16, 165, 622, 16, 1254, ⟨[[(0, 34359738368)], [(354334801920, 0)]], 3, 4⟩, ⟨[[(0,
    230070250525), (3096152806706, 0), (39708366589, 0), (908141195, 0), (19134987, 0)], [(137273684914, 0),
    (3571244669, 0), (116640425, 0), (3286459, 0), (71888, 0)], [(70322876, 0), (4754276, 0), (203552, 0), (6041, 0),
    (131, 0)], [(61087, 0), (5371, 0), (244, 0), (7, 0)]], 3, 4⟩, 1099511627776, 0, 482944820, ⟨[[(42055469711011,
    0), (0, 8367833846), (38118583, 0), (0, 161), (187, 0)], [(3214346802, 0), (0, 213248), (0, 10132), (8, 0)], [(0,
    520684), (0, 269), (3, 0)], [(108, 0)]], 3, 4⟩, 68719476736, 3009079,
    4888852285596053072719177237957182964834259727609021625893455729983728990837064862964426612391, lc0⟩) (.skip))
    (.skip)) (.skip))) (.sx (.sy (.sy (.sx (.leaf ⟨6657, 16, 165, 565, 16, 1114, ⟨[[(0, 309237645312)],
    [(354334801920, 0)]], 3, 4⟩, ⟨[[(0, 459713202158), (3134987829258, 0), (46890243837, 0), (1143796949, 0),
    (24820356, 0)], [(131697832273, 0), (3954850529, 0), (139350391, 0), (4052693, 0), (90218, 0)], [(74056263, 0),
    (5387064, 0), (238182, 0), (7189, 0), (158, 0)], [(65696, 0), (5953, 0), (274, 0), (8, 0)]], 3, 4⟩,
    1099511627776, 0, 533794140, ⟨[[(42335873550636, 0), (0, 8286144686), (47231347, 0), (26722, 0), (715, 0)],
    [(3084328949, 0), (0, 598361), (0, 11007), (39, 0), (1, 0)], [(0, 485648), (0, 178), (4, 0)], [(96, 0)]], 3, 4⟩,
    68719476736, 10093718,
    4074755824978190460301056469579602382268806847823295779285492056550770324534955911196837787356, lc0⟩) (.skip))
    (.skip)) (.skip)) (.skip))
theorem c115 : checkC job ⟨6, 8, 8, 10, 9, 13⟩ 1 25 lims t115 976 48 64 195 3 512 = true := by decide +kernel

def t116 : CTree :=
  .sx (.sx (.sy (.sx (.sy (.leaf ⟨3131, 16, 82, 591, 16, 1293, ⟨[[(412316860416, 0)], [(352187318272, 0)]], 3, 4⟩,
    ⟨[[(253622682716, 0), (2112504730021, 0), (12835274654, 0), (191155673, 0), (3436914, 0)], [(204601970879, 0),
    (2783158836, 0), (54960839, 0), (1274063, 0), (26665, 0)], [(116833018, 0), (4906844, 0), (170443, 0), (4812, 0),
    (105, 0)], [(133916, 0), (9682, 0), (419, 0), (12, 0)]], 3, 4⟩, 1099511627776, 0, 1627634321, ⟨[[(41781892989450,
    0), (0, 11974620756), (39172936, 0), (0, 6469), (0, 20)], [(6945810417, 0), (2052149, 0), (0, 21015), (0, 12)],
    [(0, 2357227), (0, 2617), (12, 0)], [(1075, 0), (2, 0)]], 3, 4⟩, 68719476736, 279166,
    3776359325032192915943127436873113797623291223507675518608682800692761447725741067097755756120, lc0⟩) (.sx (.leaf
    ⟨6285, 16, 165, 828, 16, 1789, ⟨[[(515396075520, 0)], [(354334801920, 0)]], 3, 4⟩, ⟨[[(0, 28786084845),
    (3055193868729, 0), (21139454375, 0), (348474283, 0), (6484338, 0)], [(149820549258, 0), (2261901357, 0),
    (50012986, 0), (1213508, 0), (25383, 0)], [(48276135, 0), (2247932, 0), (82056, 0), (2323, 0), (50, 0)], [(31225,
    0), (2363, 0), (103, 0), (3, 0)]], 3, 4⟩, 1099511627776, 0, 216814666, ⟨[[(41642348917279, 0), (0, 8243911006),
    (20468310, 0), (0, 2608), (0, 4)], [(3476774454, 0), (637427, 0), (0, 5574), (0, 2)], [(0, 592969), (0, 443), (2,
    0)], [(136, 0)]], 3, 4⟩, 68719476736, 122782,
    4053792414817842504122352943370566244985429906166442969915250681853137820881947967318906979545, lc0⟩) (.leaf
    ⟨6316, 16, 165, 778, 16, 1655, ⟨[[(446676598784, 0)], [(354334801920, 0)]], 3, 4⟩, ⟨[[(503011137714, 0),
    (3048515296584, 0), (24789521277, 0), (452653565, 0), (8736386, 0)], [(148059500834, 0), (2560035701, 0),
    (63817160, 0), (1622398, 0), (34208, 0)], [(54387917, 0), (2835484, 0), (108908, 0), (3115, 0), (67, 0)],
    [(39275, 0), (3119, 0), (137, 0), (4, 0)]], 3, 4⟩, 1099511627776, 0, 285755050, ⟨[[(41646128340184, 0), (0,
    8321882709), (23590980, 0), (0, 3563), (0, 1)], [(3447398726, 0), (504755, 0), (0, 6501), (0, 3)], [(0, 585860),
    (0, 420), (2, 0)], [(133, 0)]], 3, 4⟩, 68719476736, 203591,
    4326406598216963383730223033664486927835342231419100588862582555279140372670410530634504210830, lc0⟩))) (.sy (.sx
    (.leaf ⟨6347, 16, 165, 796, 16, 1700, ⟨[[(377957122048, 0)], [(354334801920, 0)]], 3, 4⟩, ⟨[[(0, 285989388556),
    (3079814302331, 0), (23477067846, 0), (411772357, 0), (7910773, 0)], [(147152185312, 0), (2412916012, 0),
    (57449712, 0), (1446956, 0), (30791, 0)], [(50317542, 0), (2516741, 0), (95612, 0), (2755, 0), (60, 0)], [(34208,
    0), (2691, 0), (119, 0), (4, 0)]], 3, 4⟩, 1099511627776, 0, 247033472, ⟨[[(41778165521049, 0), (0, 8226700201),
    (22200936, 0), (0, 3340), (0, 2)], [(3409923003, 0), (504575, 0), (0, 6033), (0, 2)], [(0, 572442), (0, 407), (2,
    0)], [(128, 0)]], 3, 4⟩, 68719476736, 183404,
    4109351449666224527321624442391770071413313503563564132672025293065737121995673424665291340742, lc0⟩) (.leaf
    ⟨6378, 16, 165, 744, 16, 1564, ⟨[[(309237645312, 0)], [(354334801920, 0)]], 3, 4⟩, ⟨[[(347826710750, 0),
    (3070274346518, 0), (27589612441, 0), (533119997, 0), (10571328, 0)], [(145234926821, 0), (2741684084, 0),
    (73162365, 0), (1918816, 0), (41045, 0)], [(56912889, 0), (3170030, 0), (125841, 0), (3651, 0), (79, 0)],
    [(42945, 0), (3520, 0), (156, 0), (5, 0)]], 3, 4⟩, 1099511627776, 0, 321944088, ⟨[[(41782618578492, 0), (0,
    8319674650), (25856712, 0), (0, 4340), (6, 0)], [(3379926378, 0), (356599, 0), (0, 7106), (0, 2)], [(0, 565489),
    (0, 383), (2, 0)], [(125, 0)]], 3, 4⟩, 68719476736, 325744,
    4275315351835590273636226027039222666129434657687041222294469250965980601886885105049586172193, lc0⟩)) (.sx
    (.leaf ⟨6347, 16, 165, 724, 16, 1513, ⟨[[(377957122048, 0)], [(354334801920, 0)]], 3, 4⟩, ⟨[[(0, 75233255808),
    (3038281079306, 0), (29302287277, 0), (585980639, 0), (11625588, 0)], [(146008717744, 0), (2927151567, 0),
    (81370273, 0), (2143859, 0), (45383, 0)], [(61891626, 0), (3578254, 0), (142914, 0), (4109, 0), (88, 0)],
    [(49396, 0), (4068, 0), (179, 0), (5, 0)]], 3, 4⟩, 1099511627776, 0, 372089030, ⟨[[(41641104934711, 0), (0,
    8374706664), (27807293, 0), (0, 4565), (11, 0)], [(3416888112, 0), (327579, 0), (0, 7759), (0, 2)], [(0, 579034),
    (0, 390), (2, 0)], [(130, 0)]], 3, 4⟩, 68719476736, 414315,
    4173923894005941347661251727521255579762167855068906508040429847674140993203390254587730378950, lc0⟩) (.skip))))
    (.sx (.sy (.sx (.leaf ⟨6285, 16, 165, 761, 16, 1610, ⟨[[(515396075520, 0)], [(354334801920, 0)]], 3, 4⟩, ⟨[[(0,
    191062510457), (3017398485908, 0), (26166194778, 0), (494793432, 0), (9564607, 0)], [(148932690330, 0),
    (2716124416, 0), (70541138, 0), (1803846, 0), (37653, 0)], [(58758577, 0), (3179181, 0), (123023, 0), (3488, 0),
    (74, 0)], [(44852, 0), (3584, 0), (156, 0), (4, 0)]], 3, 4⟩, 1099511627776, 0, 331045105, ⟨[[(41503521025955, 0),
    (0, 8362290395), (25095752, 0), (0, 3793)], [(3486257691, 0), (487843, 0), (0, 7027), (0, 3)], [(0, 600273), (0,
    430), (2, 0)], [(139, 0)]], 3, 4⟩, 68719476736, 226297,
    4232635173088763938294003003014962614363345143128046622502916892189530119065770338602764328261, lc0⟩) (.skip))
    (.skip)) (.skip))) (.sy (.sx (.sy (.sx (.leaf ⟨6409, 16, 165, 688, 16, 1421, ⟨[[(240518168576, 0)],
    [(354334801920, 0)]], 3, 4⟩, ⟨[[(275519608535, 0), (3058328825192, 0), (32639858643, 0), (686353148, 0),
    (13930377, 0)], [(143086926949, 0), (3143736281, 0), (92862248, 0), (2510408, 0), (53795, 0)], [(64945828, 0),
    (3983394, 0), (163433, 0), (4755, 0), (102, 0)], [(53746, 0), (4540, 0), (202, 0), (6, 0)]], 3, 4⟩,
    1099511627776, 0, 412098491, ⟨[[(41781362411486, 0), (0, 8400616239), (30859918, 0), (0, 4899), (34, 0)],
    [(3348404495, 0), (162071, 0), (0, 8548), (0, 1)], [(0, 558626), (0, 352), (2, 0)], [(122, 0)]], 3, 4⟩,
    68719476736, 796875,
    4696161015935306672760540273906668886707978414160634006587461546941267794815740150109778198745, lc0⟩) (.skip))
    (.skip)) (.skip)) (.skip))) (.skip)
theorem c116 : checkC job ⟨6, 8, 8, 10, 9, 13⟩ 1 25 lims t116 464 48 32 201 3 512 = true := by decide +kernel

def t117 : CTree :=
  .sx (.sx (.leaf ⟨1450, 16, 41, 273, 16, 670, ⟨[[(412316860416, 0)], [(352187318272, 0)]], 3, 4⟩, ⟨[[(0, 369268514),
    (2741521828343, 0), (26254468043, 0), (694805645, 0), (25502267, 0)], [(156561493804, 0), (4344127877, 0),
    (139988151, 0), (6124662, 0), (343981, 0)], [(105070071, 0), (7965397, 0), (516190, 0), (36744, 0), (2610, 0)],
    [(124359, 0), (17556, 0), (1862, 0), (175, 0), (14, 0)]], 3, 4⟩, 1099511627776, 0, 4789403381,
    ⟨[[(41030236503844, 0), (0, 35458626175), (166995105, 0), (13338, 0), (0, 196)], [(15801868585, 0), (27039756,
    0), (0, 183426), (0, 222)], [(0, 12017555), (0, 51720), (230, 0), (1, 0)], [(13218, 0), (84, 0)]], 3, 4⟩,
    68719476736, 4184026,
    4177843394377582052792673490310339975350787109570489479567775661207844020007595415510964124129, lc0⟩) (.sy (.leaf
    ⟨1481, 16, 41, 348, 16, 823, ⟨[[(137438953472, 0)], [(352187318272, 0)]], 3, 4⟩, ⟨[[(24041768057, 0),
    (1918252637708, 0), (12184844041, 0), (209253666, 0), (5103302, 0)], [(211156166868, 0), (3524767081, 0),
    (75117357, 0), (2212974, 0), (74487, 0)], [(165638433, 0), (7944294, 0), (341952, 0), (14982, 0), (587, 0)],
    [(240833, 0), (21871, 0), (1443, 0), (77, 0), (3, 0)]], 3, 4⟩, 1099511627776, 0, 6885827352, ⟨[[(41168830426457,
    0), (0, 25511710751), (107095889, 0), (0, 1400), (0, 112)], [(15322483383, 0), (16683527, 0), (0, 116781), (0,
    113)], [(0, 11324679), (0, 32806), (144, 0)], [(11858, 0), (52, 0)]], 3, 4⟩, 68719476736, 2524097,
    4583435872493904332155062377457903186788994395094615041983660973266626304835626016822356173869, lc0⟩) (.sx (.leaf
    ⟨2947, 16, 82, 504, 16, 1171, ⟨[[(0, 137438953472)], [(352187318272, 0)]], 3, 4⟩, ⟨[[(0, 486536639757),
    (2826128588390, 0), (20711101468, 0), (425103989, 0), (11862737, 0)], [(160273037475, 0), (2944879838, 0),
    (74904725, 0), (2577591, 0), (91279, 0)], [(71611990, 0), (3983248, 0), (200409, 0), (9395, 0), (368, 0)],
    [(62297, 0), (6523, 0), (464, 0), (25, 0), (1, 0)]], 3, 4⟩, 1099511627776, 0, 906580652, ⟨[[(40897966379693, 0),
    (0, 17075342693), (53318964, 0), (0, 1187), (0, 29)], [(7798321422, 0), (5513858, 0), (0, 29929), (0, 21)], [(0,
    2950636), (0, 5644), (19, 0)], [(1584, 0), (5, 0)]], 3, 4⟩, 68719476736, 280635,
    4012903028360706287992324767659549296782738227156492721294616807004728743324195174154671270477, lc0⟩) (.sy (.leaf
    ⟨2978, 16, 82, 656, 16, 1495, ⟨[[(0, 412316860416)], [(352187318272, 0)]], 3, 4⟩, ⟨[[(192332768763, 0),
    (1957572456866, 0), (8626372979, 0), (103908838, 0), (1601624, 0)], [(217584330860, 0), (2285336975, 0),
    (34739064, 0), (673931, 0), (12537, 0)], [(109307652, 0), (3562256, 0), (101863, 0), (2537, 0), (51, 0)],
    [(109613, 0), (6498, 0), (247, 0), (7, 0)]], 3, 4⟩, 1099511627776, 0, 1205228814, ⟨[[(40975763212070, 0), (0,
    12438431111), (32110292, 0), (0, 1462), (0, 12)], [(7667908968, 0), (3606723, 0), (0, 18030), (0, 10)], [(0,
    2859100), (0, 3830), (11, 0)], [(1497, 0), (3, 0)]], 3, 4⟩, 68719476736, 147248,
    3881020698849792382731196185174743960215477467270538520469314754155666990118348746510675668984, lc0⟩) (.leaf
    ⟨2978, 16, 82, 622, 16, 1393, ⟨[[(0, 412316860416)], [(352187318272, 0)]], 3, 4⟩, ⟨[[(0, 391976528685),
    (1932370161643, 0), (10156900652, 0), (141998520, 0), (2336223, 0)], [(216833190875, 0), (2597052865, 0),
    (46639157, 0), (985314, 0), (18625, 0)], [(125760245, 0), (4759679, 0), (149501, 0), (3815, 0), (76, 0)],
    [(148297, 0), (9624, 0), (376, 0), (10, 0)]], 3, 4⟩, 1099511627776, 0, 1809673998, ⟨[[(40836440497707, 0), (0,
    12554214341), (36915319, 0), (0, 2507), (0, 16)], [(7707129622, 0), (3419731, 0), (0, 21168), (0, 13)], [(0,
    2901805), (0, 3828), (13, 0)], [(1531, 0), (3, 0)]], 3, 4⟩, 68719476736, 194921,
    5092314559386464387924267228645191219313065531035267100162137789586603350979445310711722806163, lc0⟩))))) (.sx
    (.sy (.sx (.leaf ⟨3008, 16, 82, 468, 16, 1062, ⟨[[(412316860416, 0)], [(352187318272, 0)]], 3, 4⟩,
    ⟨[[(68456917695, 0), (2869383954288, 0), (25927501874, 0), (626697008, 0), (19557767, 0)], [(154639955390, 0),
    (3317768550, 0), (101917755, 0), (4002442, 0), (152011, 0)], [(76984781, 0), (5081226, 0), (294614, 0), (14982,
    0), (613, 0)], [(76009, 0), (9160, 0), (712, 0), (40, 0), (2, 0)]], 3, 4⟩, 1099511627776, 0, 1315967282,
    ⟨[[(41168815573228, 0), (0, 17112174251), (62549567, 0), (0, 5270), (0, 49)], [(7509687285, 0), (4626910, 0), (0,
    34593), (0, 26)], [(0, 2739462), (0, 4943), (21, 0)], [(1392, 0), (4, 0)]], 3, 4⟩, 68719476736, 254206,
    4696828189356328702808044278062455089429825542707480008162430300723657852394731286597079876867, lc0⟩) (.sy (.leaf
    ⟨3039, 16, 82, 612, 16, 1361, ⟨[[(137438953472, 0)], [(352187318272, 0)]], 3, 4⟩, ⟨[[(537208673294, 0),
    (2008418104030, 0), (11005901157, 0), (155353496, 0), (2634973, 0)], [(211986569612, 0), (2637606822, 0),
    (48348810, 0), (1052368, 0), (20752, 0)], [(120379832, 0), (4673613, 0), (151607, 0), (4034, 0), (84, 0)],
    [(137912, 0), (9279, 0), (379, 0), (11, 0)]], 3, 4⟩, 1099511627776, 0, 1673244095, ⟨[[(41242549130894, 0), (0,
    12329468229), (37322033, 0), (0, 3785), (0, 18)], [(7382046972, 0), (2877523, 0), (0, 20734), (0, 12)], [(0,
    2657110), (0, 3295), (12, 0)], [(1319, 0), (2, 0)]], 3, 4⟩, 68719476736, 220790,
    4617797207649171443656071300675687617483784153147766638115738094052690308765378509828652973938, lc0⟩) (.sx (.leaf
    ⟨6100, 16, 165, 875, 16, 1925, ⟨[[(0, 171798691840)], [(354334801920, 0)]], 3, 4⟩, ⟨[[(417908729991, 0),
    (2946526655192, 0), (18193335510, 0), (281483253, 0), (4922051, 0)], [(157508249794, 0), (2149898142, 0),
    (43722767, 0), (992675, 0), (19576, 0)], [(49809076, 0), (2125095, 0), (72261, 0), (1930, 0), (40, 0)], [(31850,
    0), (2241, 0), (92, 0), (3, 0)]], 3, 4⟩, 1099511627776, 0, 210409678, ⟨[[(41106828676682, 0), (0, 8381120248),
    (18694876, 0), (0, 1472), (0, 4)], [(3697726658, 0), (930389, 0), (0, 5259), (0, 2)], [(0, 668989), (0, 556), (2,
    0)], [(167, 0)]], 3, 4⟩, 68719476736, 95789,
    4005913745315598844505626394708726632840752352659203490078699034811050210026640306981905092400, lc0⟩) (.leaf
    ⟨6131, 16, 165, 824, 16, 1784, ⟨[[(0, 240518168576)], [(354334801920, 0)]], 3, 4⟩, ⟨[[(460582267874, 0),
    (2942143308924, 0), (21450955933, 0), (367997280, 0), (6688249, 0)], [(155740055889, 0), (2435609257, 0),
    (56062191, 0), (1338628, 0), (26710, 0)], [(56109961, 0), (2690801, 0), (96813, 0), (2625, 0), (54, 0)], [(40221,
    0), (2990, 0), (125, 0), (3, 0)]], 3, 4⟩, 1099511627776, 0, 281379312, ⟨[[(41106525644992, 0), (0, 8449051934),
    (21497084, 0), (0, 2213), (0, 5)], [(3668352473, 0), (808629, 0), (0, 6117), (0, 3)], [(0, 661027), (0, 532), (2,
    0)], [(163, 0)]], 3, 4⟩, 68719476736, 112719,
    4517685727020204497108505227609338467325439688873732661908854608229545333917934247628939443852, lc0⟩)))) (.sx
    (.sy (.sx (.leaf ⟨6038, 16, 165, 914, 16, 2037, ⟨[[(0, 34359738368)], [(354334801920, 0)]], 3, 4⟩,
    ⟨[[(261593588647, 0), (2920417077285, 0), (16027232343, 0), (229622311, 0), (3852423, 0)], [(160290110062, 0),
    (1988934725, 0), (36858386, 0), (795936, 0), (15312, 0)], [(47169556, 0), (1841495, 0), (59246, 0), (1540, 0),
    (31, 0)], [(28157, 0), (1874, 0), (75, 0), (2, 0)]], 3, 4⟩, 1099511627776, 0, 175494029, ⟨[[(40972366647040, 0),
    (0, 8382064180), (17029523, 0), (0, 956), (0, 4)], [(3770695483, 0), (1062086, 0), (0, 4808), (0, 2)], [(0,
    694379), (0, 600), (1, 0)], [(178, 0)]], 3, 4⟩, 68719476736, 90688,
    3825140837083302808908034280456803954156091230303392392661824293123423085073588457041387046528, lc0⟩) (.leaf
    ⟨6069, 16, 165, 866, 16, 1899, ⟨[[(0, 103079215104)], [(354334801920, 0)]], 3, 4⟩, ⟨[[(0, 286176458436),
    (2918087501952, 0), (18817141142, 0), (300409751, 0), (5266764, 0)], [(158676549664, 0), (2238465094, 0),
    (47162548, 0), (1078382, 0), (21065, 0)], [(52772124, 0), (2322614, 0), (79670, 0), (2111, 0), (43, 0)], [(35399,
    0), (2509, 0), (102, 0), (3, 0)]], 3, 4⟩, 1099511627776, 0, 236076749, ⟨[[(40967678264291, 0), (0, 8416460207),
    (19366848, 0), (0, 1511), (0, 4)], [(3742406124, 0), (947586, 0), (0, 5527), (0, 2)], [(0, 686461), (0, 574), (2,
    0)], [(174, 0)]], 3, 4⟩, 68719476736, 109060,
    3830834193520815112110358008138944752246703689941060676746922171652035337912279072772900650159, lc0⟩)) (.sx (.sy
    (.leaf ⟨6038, 16, 165, 1200, 16, 2639, ⟨[[(0, 34359738368)], [(354334801920, 0)]], 3, 4⟩, ⟨[[(350683182796, 0),
    (1995214172979, 0), (6365462035, 0), (50578706, 0), (439384, 0)], [(220326026369, 0), (1538525176, 0), (16098073,
    0), (182402, 0), (1762, 0)], [(73599252, 0), (1606886, 0), (27302, 0), (358, 0), (4, 0)], [(49629, 0), (1741, 0),
    (35, 0)]], 3, 4⟩, 1099511627776, 0, 259499281, ⟨[[(40872160787748, 0), (0, 6148018952), (10123407, 0), (0, 519),
    (0, 1)], [(3782990299, 0), (728124, 0), (0, 2908), (0, 1)], [(0, 701508), (0, 435), (1, 0)], [(181, 0)]], 3, 4⟩,
    68719476736, 49966,
    2819955122231404064220897587582546422484057792975162218167317972686801963858329882569194467615, lc0⟩) (.skip))
    (.skip))) (.sy (.sx (.sy (.leaf ⟨6100, 16, 165, 1149, 16, 2491, ⟨[[(0, 171798691840)], [(354334801920, 0)]], 3,
    4⟩, ⟨[[(0, 180340535574), (2024716833835, 0), (7333149368, 0), (62688425, 0), (564731, 0)], [(217612819841, 0),
    (1689694265, 0), (19349995, 0), (229082, 0), (2262, 0)], [(78972643, 0), (1881841, 0), (33564, 0), (450, 0), (5,
    0)], [(57005, 0), (2100, 0), (43, 0), (1, 0)]], 3, 4⟩, 1099511627776, 0, 307665436, ⟨[[(41001610358487, 0), (0,
    6103875902), (11127893, 0), (0, 774), (0, 1)], [(3708869794, 0), (613058, 0), (0, 3192), (0, 1)], [(0, 675906),
    (0, 397), (1, 0)], [(170, 0)]], 3, 4⟩, 68719476736, 45576,
    3937896873608853049853882048380858432417901196099134485051361719451844432589645438928597652102, lc0⟩) (.skip))
    (.skip)) (.skip)))) (.sy (.sx (.sy (.sx (.leaf ⟨6162, 16, 165, 837, 16, 1816, ⟨[[(0, 309237645312)],
    [(354334801920, 0)]], 3, 4⟩, ⟨[[(0, 438551327918), (2970895223603, 0), (20597614190, 0), (342498152, 0),
    (6216788, 0)], [(154656764829, 0), (2324761209, 0), (51613083, 0), (1225543, 0), (24699, 0)], [(52634211, 0),
    (2444292, 0), (87309, 0), (2387, 0), (49, 0)], [(35919, 0), (2654, 0), (111, 0), (3, 0)]], 3, 4⟩, 1099511627776,
    0, 247556807, ⟨[[(41234412913154, 0), (0, 8349282683), (20576378, 0), (0, 2145), (0, 5)], [(3626457895, 0),
    (783174, 0), (0, 5782), (0, 2)], [(0, 645219), (0, 510), (2, 0)], [(157, 0)]], 3, 4⟩, 68719476736, 134397,
    4150509881946144108119411589628674674337820174358019186507069216688151143806509119963517353415, lc0⟩) (.sy (.leaf
    ⟨6193, 16, 165, 1119, 16, 2401, ⟨[[(0, 377957122048)], [(354334801920, 0)]], 3, 4⟩, ⟨[[(0, 173621876148),
    (2077695263452, 0), (8065155904, 0), (71681093, 0), (667614, 0)], [(213800542336, 0), (1767123828, 0), (21262732,
    0), (260852, 0), (2653, 0)], [(79352773, 0), (1989956, 0), (36853, 0), (509, 0), (5, 0)], [(58122, 0), (2224, 0),
    (47, 0), (1, 0)]], 3, 4⟩, 1099511627776, 0, 314524662, ⟨[[(41270097420533, 0), (0, 6008705717), (11632576, 0),
    (0, 1024), (0, 1)], [(3593439197, 0), (487986, 0), (0, 3286), (0, 1)], [(0, 635372), (0, 349), (1, 0)], [(153,
    0)]], 3, 4⟩, 68719476736, 35689,
    2561268743936830397169174822222921954148382283697065552123147272051720612845606033773677175568, lc0⟩) (.skip)))
    (.skip)) (.skip)) (.skip)))
theorem c117 : checkC job ⟨6, 8, 8, 10, 9, 13⟩ 1 25 lims t117 368 48 32 207 3 512 = true := by decide +kernel

end PyX.Kron.T2c
