import Verif.Lemmas.S2aJob

/-!
# Temperature from pressure and entropy in subregion 2a, part D of the certificate
-/

namespace PyX.Kron.S2a

set_option Elab.async false

def t32 : CTree :=
  .sx (.sy (.sx (.sy (.leaf ⟨756, 16, 774, 580, 16, 431, ⟨[[(260919263232, 0)], [(415538085888, 0)]], 3, 4⟩, ⟨[[(0,
    32213629404), (0, 1947038447242), (0, 2892729705), (0, 140397904), (0, 4894126)], [(0, 267371916634), (0,
    1246135171), (0, 32868581), (0, 1409567), (0, 61270)], [(0, 1716316), (0, 2600333), (0, 146112), (0, 8312), (0,
    378)], [(0, 79310), (0, 6429), (0, 538), (0, 33), (0, 2)]], 3, 4⟩, 1099511627776, 0, 736150519,
    ⟨[[(31764553206919, 0), (59957547400, 0), (163517310, 0), (0, 764114), (12372, 0)], [(38600157232, 0),
    (108936490, 0), (0, 697868), (17282, 0), (0, 293)], [(3014225, 0), (0, 309068), (9222, 0), (0, 202), (3, 0)],
    [(0, 36728), (2274, 0), (0, 72), (1, 0)]], 3, 4⟩, 68719476736, 1033386112,
    1513995903091823424107877413402862217745047681165734167213244050668468108468380511117042246740, ⟨0, 0,
    -10155535955141, [218603029203, 54623446, 18199]⟩⟩) (.sx (.leaf ⟨1497, 16, 1548, 833, 16, 625, ⟨[[(0,
    22548578304)], [(415538085888, 0)]], 3, 4⟩, ⟨[[(0, 119478974369), (0, 2851760512678), (0, 8027831336), (0,
    398405791), (0, 15528862)], [(0, 199817148653), (0, 1197436657), (0, 45344013), (0, 2272397), (0, 98775)], [(0,
    6020107), (0, 1698979), (0, 118761), (0, 6930), (0, 308)], [(0, 22941), (0, 2626), (0, 231), (0, 14), (0, 1)]],
    3, 4⟩, 1099511627776, 0, 327571696, ⟨[[(31151740492905, 0), (39405896056, 0), (89183993, 0), (0, 427908), (4866,
    0)], [(18942050180, 0), (43304416, 0), (0, 300480), (4861, 0), (0, 54)], [(1583337, 0), (0, 88214), (1861, 0),
    (0, 27)], [(0, 7735), (329, 0), (0, 7)]], 3, 4⟩, 68719476736, 161917054,
    1920147451166829890621687662095011561756838959779664995235926245477636219801955919430051416512, ⟨0, 0,
    -21258717453091, [160140495936, 20214655, 3402]⟩⟩) (.leaf ⟨1528, 16, 1548, 794, 16, 607, ⟨[[(0, 33285996544)],
    [(415538085888, 0)]], 3, 4⟩, ⟨[[(421510565207, 0), (0, 2877670365594), (0, 12323443581), (0, 621671698), (0,
    25340396)], [(0, 195518944221), (0, 1493878682), (0, 68303012), (0, 3635918), (0, 159546)], [(0, 12246040), (0,
    2446589), (0, 186260), (0, 11046), (0, 492)], [(0, 30363), (0, 4042), (0, 363), (0, 22), (0, 1)]], 3, 4⟩,
    1099511627776, 0, 515177780, ⟨[[(31132468010940, 0), (39001093871, 0), (107867377, 0), (0, 666948), (7893, 0)],
    [(18358835288, 0), (49537760, 0), (0, 459796), (7525, 0), (0, 86)], [(2344382, 0), (0, 124149), (2740, 0), (0,
    40)], [(0, 10427), (458, 0), (0, 10)]], 3, 4⟩, 68719476736, 276042289,
    3237304446534613422606460382923113047377217785026262977706896231931087957132757471919109728541, ⟨0, 0,
    -8023348209947, [152374026484, 18844178, 3107]⟩⟩))) (.sy (.sx (.leaf ⟨1559, 16, 1548, 815, 16, 622, ⟨[[(0,
    44023414784)], [(415538085888, 0)]], 3, 4⟩, ⟨[[(407390195750, 0), (0, 2937227072373), (0, 8107260139), (0,
    386578984), (0, 15187477)], [(0, 193805612524), (0, 1196002026), (0, 42349885), (0, 2105981), (0, 93980)], [(0,
    6859962), (0, 1539915), (0, 104915), (0, 6242), (0, 286)], [(0, 20160), (0, 2224), (0, 198), (0, 12), (0, 1)]],
    3, 4⟩, 1099511627776, 0, 308146811, ⟨[[(31758137766019, 0), (39704670571, 0), (89656751, 0), (0, 408526), (4765,
    0)], [(18534741289, 0), (41186426, 0), (0, 280474), (4684, 0), (0, 54)], [(1413927, 0), (0, 80887), (1751, 0),
    (0, 26)], [(0, 6867), (300, 0), (0, 6)]], 3, 4⟩, 68719476736, 165487877,
    1431803543679169279463647662773233242793495278985945810414232973835218434360889948697756958720, ⟨0, 0,
    4453705803530, [153035584286, 18549768, 2998]⟩⟩) (.leaf ⟨1590, 16, 1548, 778, 16, 604, ⟨[[(0, 54760833024)],
    [(415538085888, 0)]], 3, 4⟩, ⟨[[(0, 343209947410), (0, 2958851243153), (0, 12049579655), (0, 591323965), (0,
    24446010)], [(0, 189723542354), (0, 1457428570), (0, 62397422), (0, 3324618), (0, 150044)], [(0, 12220433), (0,
    2164468), (0, 162295), (0, 9844), (0, 453)], [(0, 26100), (0, 3374), (0, 308), (0, 19), (0, 1)]], 3, 4⟩,
    1099511627776, 0, 479461029, ⟨[[(31785337100963, 0), (39573006792, 0), (105146942, 0), (0, 598196), (7261, 0)],
    [(18048081571, 0), (45858569, 0), (0, 403873), (6842, 0), (0, 80)], [(1963793, 0), (0, 107924), (2444, 0), (0,
    37)], [(0, 8805), (398, 0), (0, 9)]], 3, 4⟩, 68719476736, 264061194,
    1945464720982504270947089972702307048215681402427819341589496491018741518230616565738091534835, ⟨0, 0,
    16391048822151, [145710356514, 17317608, 2744]⟩⟩)) (.sx (.sy (.leaf ⟨1559, 16, 1548, 1055, 16, 817, ⟨[[(0,
    44023414784)], [(415538085888, 0)]], 3, 4⟩, ⟨[[(0, 48254227698), (0, 1996863841734), (0, 5179718468), (0,
    131926408), (0, 2747283)], [(0, 263072372738), (0, 1147654456), (0, 28229026), (0, 770918), (0, 17102)], [(0,
    21833066), (0, 1965335), (0, 77324), (0, 2322), (0, 52)], [(0, 46726), (0, 3291), (0, 150), (0, 5)]], 3, 4⟩,
    1099511627776, 0, 231787565, ⟨[[(31302680038207, 0), (28458791935, 0), (63153836, 0), (0, 312756), (2769, 0)],
    [(18000563749, 0), (38196019, 0), (0, 289766), (3521, 0), (0, 30)], [(2661551, 0), (0, 102883), (1704, 0), (0,
    19)], [(0, 11472), (377, 0), (0, 6)]], 3, 4⟩, 68719476736, 62944219,
    1738809698178396555392867988824025130272258489988440688558424326989701909933222047116576328454, ⟨0, 0,
    5849964053832, [201012978074, 24365209, 3938]⟩⟩) (.sy (.leaf ⟨1559, 16, 1548, 1248, 16, 974, ⟨[[(0,
    44023414784)], [(415538085888, 0)]], 3, 4⟩, ⟨[[(0, 206607902101), (0, 1223522314127), (0, 2188381470), (0,
    28672367), (0, 302138)], [(0, 320557237717), (0, 867566750), (0, 12224151), (0, 171046), (0, 1884)], [(0,
    38718790), (0, 1682960), (0, 34553), (0, 518), (0, 6)], [(0, 77539), (0, 2959), (0, 68), (0, 1)]], 3, 4⟩,
    1099511627776, 0, 327463031, ⟨[[(31074671340051, 0), (22948362028, 0), (50684485, 0), (0, 246231), (1814, 0)],
    [(17667261438, 0), (36657894, 0), (0, 273712), (2731, 0), (0, 19)], [(3626194, 0), (0, 113054), (1565, 0), (0,
    14)], [(0, 14989), (410, 0), (0, 5)]], 3, 4⟩, 68719476736, 33637707,
    3286577035052521255284391759887999743263752225342471474804108469493658546210671927651181900059, ⟨0, 0,
    6974130952794, [239640931020, 29047386, 4695]⟩⟩) (.skip))) (.sy (.leaf ⟨1590, 16, 1548, 998, 16, 788, ⟨[[(0,
    54760833024)], [(415538085888, 0)]], 3, 4⟩, ⟨[[(476098093682, 0), (0, 2031469336620), (0, 7820226618), (0,
    206052735), (0, 4403951)], [(0, 258215306349), (0, 1492937888), (0, 42901970), (0, 1216911), (0, 27157)], [(0,
    34395782), (0, 2888243), (0, 120188), (0, 3645), (0, 82)], [(0, 64868), (0, 5041), (0, 233), (0, 7)]], 3, 4⟩,
    1099511627776, 0, 347705333, ⟨[[(31288912646844, 0), (27939672232, 0), (80922514, 0), (0, 505000), (4618, 0)],
    [(17363913152, 0), (46523238, 0), (0, 452734), (5597, 0), (0, 48)], [(3880777, 0), (0, 149116), (2570, 0), (0,
    29)], [(0, 15796), (537, 0), (0, 9)]], 3, 4⟩, 68719476736, 106544809,
    3475924741210587160567875275962721374233007720364494647478604287326568011757783635164486787235, ⟨0, 0,
    21384348463336, [190098941942, 22593171, 3580]⟩⟩) (.skip))))) (.sx (.sy (.sx (.sy (.sy (.leaf ⟨1497, 16, 1548,
    1310, 16, 995, ⟨[[(0, 22548578304)], [(415538085888, 0)]], 3, 4⟩, ⟨[[(307737958396, 0), (0, 1167196040891), (0,
    1408067996), (0, 18027641), (0, 182909)], [(0, 326499106990), (0, 659912491), (0, 8096055), (0, 108282), (0,
    1168)], [(0, 23078490), (0, 1177705), (0, 22821), (0, 334), (0, 4)], [(0, 58772), (0, 2032), (0, 45), (0, 1)]],
    3, 4⟩, 1099511627776, 0, 237240232, ⟨[[(30761999146099, 0), (23519645814, 0), (41712245, 0), (0, 168238), (1201,
    0)], [(18466573106, 0), (32127258, 0), (0, 192193), (1885, 0), (0, 13)], [(2699789, 0), (0, 85112), (1134, 0),
    (0, 10)], [(0, 11882), (315, 0), (0, 4)]], 3, 4⟩, 68719476736, 22490994,
    2172034892107233488814447177472151692279177474333657902337743350410509826490709516038582008580, ⟨0, 0,
    -33843878185321, [254943669530, 32181731, 5416]⟩⟩) (.sx (.leaf ⟨2978, 16, 3096, 2158, 16, 1639, ⟨[[(510027366400,
    0)], [(415538085888, 0)]], 3, 4⟩, ⟨[[(0, 102654310916), (0, 1928964844959), (0, 2596118106), (0, 33476932), (0,
    340151)], [(0, 271457246240), (0, 586354302), (0, 7556391), (0, 101706), (0, 1091)], [(0, 11024979), (0, 550594),
    (0, 10815), (0, 158), (0, 2)], [(0, 13648), (0, 486), (0, 11)]], 3, 4⟩, 1099511627776, 0, 29040897,
    ⟨[[(30616148576966, 0), (14122660302, 0), (15952051, 0), (0, 41076), (177, 0)], [(9211739475, 0), (10174727, 0),
    (0, 38822), (229, 0), (0, 1)], [(747918, 0), (0, 14087), (114, 0), (0, 1)], [(0, 1625), (26, 0)]], 3, 4⟩,
    68719476736, 2331924,
    2611499050099687287493849196990171989311341216034248474273899531792231834793260162054033454638, ⟨0, 0,
    -64380240598393, [211068595501, 13390978, 1133]⟩⟩) (.skip))) (.skip)) (.skip)) (.skip)) (.skip))) (.sy (.sy (.sx
    (.sx (.leaf ⟨1621, 16, 1548, 734, 16, 581, ⟨[[(0, 65498251264)], [(415538085888, 0)]], 3, 4⟩, ⟨[[(415454702892,
    0), (0, 2977148059759), (0, 17746922631), (0, 906324001), (0, 38817655)], [(0, 184991894933), (0, 1819894679),
    (0, 92666985), (0, 5193755), (0, 236303)], [(0, 19046617), (0, 3090753), (0, 249290), (0, 15332), (0, 707)], [(0,
    34899), (0, 5097), (0, 475), (0, 30), (0, 1)]], 3, 4⟩, 1099511627776, 0, 746725115, ⟨[[(31758118011305, 0),
    (39199987863, 0), (132268859, 0), (0, 976223), (12307, 0)], [(17465491564, 0), (54693360, 0), (0, 640107),
    (11030, 0), (0, 131)], [(2913906, 0), (0, 157431), (3734, 0), (0, 58), (1, 0)], [(0, 12208), (574, 0), (0, 13)]],
    3, 4⟩, 68719476736, 459753415,
    2510658623840241086706943493445674567185802918840308513442403645117985268754039032648648678760, ⟨0, 0,
    27149577637689, [137482075657, 16027288, 2491]⟩⟩) (.sy (.leaf ⟨1652, 16, 1548, 990, 16, 794, ⟨[[(0,
    76235669504)], [(415538085888, 0)]], 3, 4⟩, ⟨[[(407515111289, 0), (0, 2102786285988), (0, 7367368485), (0,
    191023594), (0, 4163771)], [(0, 253560354983), (0, 1410750581), (0, 38161401), (0, 1092199), (0, 25106)], [(0,
    31671700), (0, 2484131), (0, 102879), (0, 3200), (0, 75)], [(0, 54266), (0, 4133), (0, 195), (0, 6)]], 3, 4⟩,
    1099511627776, 0, 280910654, ⟨[[(31922856939353, 0), (28040703620, 0), (75519249, 0), (0, 437055), (4033, 0)],
    [(17121542550, 0), (42047017, 0), (0, 392103), (4927, 0), (0, 43)], [(3315433, 0), (0, 129637), (2264, 0), (0,
    26)], [(0, 13606), (470, 0), (0, 8)]], 3, 4⟩, 68719476736, 95341515,
    987768475830379703339802602254789641798733904175211046944681203913317892731765968594374392971, ⟨0, 0,
    52363950885223, [184359571538, 21088947, 3216]⟩⟩) (.skip))) (.sx (.sy (.leaf ⟨1683, 16, 1548, 926, 16, 757,
    ⟨[[(0, 86973087744)], [(415538085888, 0)]], 3, 4⟩, ⟨[[(0, 24465335452), (0, 2133455367234), (0, 10782530533), (0,
    291698252), (0, 6496298)], [(0, 247879914465), (0, 1826369439), (0, 56871881), (0, 1681789), (0, 38871)], [(0,
    45577262), (0, 3593881), (0, 156271), (0, 4905), (0, 114)], [(0, 75028), (0, 6193), (0, 296), (0, 9)]], 3, 4⟩,
    1099511627776, 0, 415595959, ⟨[[(31933996434522, 0), (27659297521, 0), (99305703, 0), (0, 708461), (6747, 0)],
    [(16508445517, 0), (52595330, 0), (0, 609700), (7862, 0), (0, 70)], [(4695488, 0), (0, 187230), (3422, 0), (0,
    40)], [(0, 18529), (667, 0), (0, 11)]], 3, 4⟩, 68719476736, 164369338,
    2680465396945936718121471091659667435021345615199596491471548139864190760024519689880555827311, ⟨0, 0,
    64203308059969, [172531810045, 19372536, 2900]⟩⟩) (.skip)) (.skip))) (.skip)) (.skip))
theorem c32 : checkC job ⟨6, 8, 8, 10, 9, 13⟩ 3 100 lims t32 531 41 512 45 3 64 = true := by decide +kernel

def t33 : CTree :=
  .sx (.sy (.leaf ⟨448, 16, 387, 345, 16, 235, ⟨[[(0, 168577466368)], [(415538085888, 0)]], 3, 4⟩, ⟨[[(0,
    320261618120), (0, 2505186817325), (7001562672, 0), (0, 159329316), (0, 476165)], [(0, 224413697812), (0,
    947581169), (0, 22040002), (0, 427752), (0, 6501)], [(50344645, 0), (0, 1706007), (0, 50403), (0, 1148), (0,
    20)], [(0, 78791), (0, 2082), (0, 79), (0, 2)]], 3, 4⟩, 1099511627776, 0, 481278459, ⟨[[(41362354570311, 0),
    (157918428319, 0), (407981951, 0), (0, 640072), (2897, 0)], [(85210069890, 0), (283304242, 0), (0, 50787), (1361,
    0), (19, 0)], [(0, 16731244), (0, 349829), (332, 0), (13, 0)], [(0, 15230), (354, 0), (5, 0)]], 3, 4⟩,
    68719476736, 1018573964,
    278792252390652919960745511498771162142196032043973180357323470221420455318977710716656549888, ⟨0, 0,
    34827699045292, [201268359202, 84923358, 47777]⟩⟩) (.leaf ⟨448, 16, 387, 330, 16, 234, ⟨[[(0, 168577466368)],
    [(415538085888, 0)]], 3, 4⟩, ⟨[[(0, 191580021272), (0, 2428510410843), (3979616676, 0), (0, 175790544), (0,
    972740)], [(0, 230011117772), (0, 1259029034), (0, 31195067), (0, 613984), (0, 9612)], [(37855404, 0), (0,
    2444279), (0, 75992), (0, 1794), (0, 38)], [(0, 94275), (0, 3306), (0, 132), (0, 4)]], 3, 4⟩, 1099511627776, 0,
    574585058, ⟨[[(39293327418541, 0), (147074913225, 0), (440544485, 0), (0, 768055), (1218, 0)], [(81348058300, 0),
    (286405232, 0), (0, 76994), (0, 292), (38, 0)], [(0, 11958501), (0, 350384), (0, 467), (21, 0)], [(0, 18805),
    (166, 0), (6, 0)]], 3, 4⟩, 68719476736, 1763542252,
    365328249152045828658207130190028755198298366262636993933415129665999804989813637758700793232, ⟨0, 0,
    34679496070631, [200411898099, 84561982, 47574]⟩⟩)) (.sy (.leaf ⟨479, 16, 387, 328, 16, 235, ⟨[[(0,
    179314884608)], [(415538085888, 0)]], 3, 4⟩, ⟨[[(264721235877, 0), (0, 2595614989285), (4806410169, 0), (0,
    203496870), (0, 1177773)], [(0, 217741874950), (0, 1274721816), (0, 32168382), (0, 669006), (0, 11144)],
    [(30990596, 0), (0, 2319948), (0, 74954), (0, 1868), (0, 40)], [(0, 79495), (0, 2974), (0, 125), (0, 4)]], 3, 4⟩,
    1099511627776, 0, 459115586, ⟨[[(41279720177207, 0), (151972273497, 0), (441991230, 0), (0, 772852), (1777, 0)],
    [(79654486466, 0), (264727907, 0), (0, 91711), (688, 0), (34, 0)], [(0, 12399255), (0, 329568), (60, 0), (23,
    0)], [(0, 15640), (227, 0), (9, 0)]], 3, 4⟩, 68719476736, 1805123809,
    297661155893281901813150687074007744366737854551573324175441003734635134253297987185395817326, ⟨0, 0,
    50785726881363, [188242309120, 74286626, 39088]⟩⟩) (.sx (.leaf ⟨942, 16, 774, 438, 16, 323, ⟨[[(196494753792,
    0)], [(415538085888, 0)]], 3, 4⟩, ⟨[[(0, 367711262431), (0, 3472961703727), (2401122650, 0), (0, 305718262), (0,
    2420370)], [(0, 156282113648), (0, 1105132709), (0, 29175541), (0, 616950), (0, 11534)], [(6920907, 0), (0,
    1089399), (0, 36694), (0, 994), (0, 29)], [(0, 17171), (0, 777), (0, 35), (0, 1)]], 3, 4⟩, 1099511627776, 0,
    73948849, ⟨[[(39282753326441, 0), (102850417968, 0), (246101747, 0), (0, 307061), (0, 122)], [(38661062475, 0),
    (98831592, 0), (0, 20457), (0, 244), (5, 0)], [(0, 2231333), (0, 59071), (0, 116), (2, 0)], [(0, 2203), (4, 0)]],
    3, 4⟩, 68719476736, 127142556,
    235641876178152879776727974507453948572913592842277031446891691046744344779934423851762237163, ⟨0, 0,
    64455955335800, [131494091245, 26372662, 7052]⟩⟩) (.leaf ⟨973, 16, 774, 419, 16, 318, ⟨[[(185757335552, 0)],
    [(415538085888, 0)]], 3, 4⟩, ⟨[[(493411702274, 0), (0, 3516077024280), (0, 255156206), (0, 358261023), (0,
    3553174)], [(0, 153093194200), (0, 1280579333), (0, 35433890), (0, 801921), (0, 17850)], [(2526561, 0), (0,
    1283804), (0, 46292), (0, 1434), (0, 53)], [(0, 18033), (0, 964), (0, 49), (0, 2)]], 3, 4⟩, 1099511627776, 0,
    97242938, ⟨[[(39203535792521, 0), (101189164386, 0), (265026583, 0), (0, 316137), (0, 502)], [(37331409011, 0),
    (97251744, 0), (0, 17976), (0, 386), (3, 0)], [(0, 1716385), (0, 56600), (0, 162), (1, 0)], [(0, 2036), (0, 5)]],
    3, 4⟩, 68719476736, 174143408,
    277160588521205500297529198329765146443595689173028302041016695188754635437522710448920130300, ⟨0, 0,
    73902940156351, [125336014540, 24337090, 6301]⟩⟩)))
theorem c33 : checkC job ⟨6, 8, 8, 10, 9, 13⟩ 3 100 lims t33 613 41 512 27 3 64 = true := by decide +kernel

def t34 : CTree :=
  .sx (.sy (.sx (.leaf ⟨880, 16, 774, 450, 16, 328, ⟨[[(217969590272, 0)], [(415538085888, 0)]], 3, 4⟩,
    ⟨[[(143192127565, 0), (0, 3318048954724), (1999209711, 0), (0, 266536952), (0, 2102129)], [(0, 168068472187), (0,
    1099462613), (0, 28179712), (0, 572319), (0, 11759)], [(9559374, 0), (0, 1147375), (0, 37205), (0, 1026), (0,
    38)], [(0, 20451), (0, 861), (0, 39), (0, 2)]], 3, 4⟩, 1099511627776, 0, 93010064, ⟨[[(37380229308456, 0),
    (97500339366, 0), (235103812, 0), (0, 282048), (6, 0)], [(39456533501, 0), (104543778, 0), (0, 12043), (0, 85),
    (0, 8)], [(0, 2091931), (0, 61445), (0, 21), (0, 6)], [(0, 2706), (29, 0), (0, 2)]], 3, 4⟩, 68719476736,
    125767284, 275266163043653276669065556292923073262831235033849581222920929894190861546558068078084687939, ⟨0, 0,
    42801336390613, [142932289184, 30685335, 8784]⟩⟩) (.leaf ⟨911, 16, 774, 431, 16, 323, ⟨[[(207232172032, 0)],
    [(415538085888, 0)]], 3, 4⟩, ⟨[[(0, 30140837133), (0, 3364344701476), (0, 576327029), (0, 316623117), (0,
    3349615)], [(0, 164376571825), (0, 1286568995), (0, 34637732), (0, 773539), (0, 20774)], [(4311721, 0), (0,
    1366174), (0, 48144), (0, 1616), (0, 80)], [(0, 21451), (0, 1089), (0, 57), (0, 3)]], 3, 4⟩, 1099511627776, 0,
    133673303, ⟨[[(37396261591406, 0), (96233358127, 0), (252838740, 0), (0, 293515), (0, 114)], [(38074707604, 0),
    (102669638, 0), (0, 10279), (23, 0), (0, 19)], [(0, 1601468), (0, 59220), (46, 0), (0, 12)], [(0, 2619), (44, 0),
    (0, 3)]], 3, 4⟩, 68719476736, 225909446,
    412172248596566729090221766041658954207789555700629989857679985538695723344724929401273932503, ⟨0, 0,
    53492123056457, [135966308368, 28197078, 7797]⟩⟩)) (.sx (.leaf ⟨880, 16, 774, 421, 16, 320, ⟨[[(217969590272,
    0)], [(415538085888, 0)]], 3, 4⟩, ⟨[[(545809686633, 0), (0, 3244096074007), (0, 3371117967), (0, 349978265), (0,
    7135746)], [(0, 171535621083), (0, 1477651117), (0, 41914126), (0, 1238718), (0, 64826)], [(1010273, 0), (0,
    1721516), (0, 72617), (0, 4111), (0, 333)], [(0, 26966), (0, 1669), (0, 130), (0, 12), (0, 1)]], 3, 4⟩,
    1099511627776, 0, 369218456, ⟨[[(35660952603365, 0), (90731986275, 0), (264233542, 0), (0, 368470), (3183, 0)],
    [(37519327705, 0), (108107146, 0), (0, 71823), (3688, 0), (0, 132)], [(0, 877924), (0, 80542), (1539, 0), (0,
    69), (2, 0)], [(0, 4971), (315, 0), (0, 18), (1, 0)]], 3, 4⟩, 68719476736, 1139666389,
    519953721927318797257896150258746503348814707257048543661180934740666467465693496858094059773, ⟨0, 0,
    41757401356695, [139446135789, 29936912, 8569]⟩⟩) (.sy (.leaf ⟨911, 16, 774, 581, 16, 450, ⟨[[(207232172032, 0)],
    [(415538085888, 0)]], 3, 4⟩, ⟨[[(208334493050, 0), (0, 2361671279685), (0, 1886311456), (0, 72838878), (0,
    838762)], [(0, 238164565596), (0, 1153612028), (0, 17133708), (0, 273582), (0, 7580)], [(0, 4187100), (0,
    1354179), (0, 30734), (0, 932), (0, 39)], [(0, 38978), (0, 1369), (0, 57), (0, 3)]], 3, 4⟩, 1099511627776, 0,
    139031320, ⟨[[(36101932124544, 0), (63878010557, 0), (136853850, 0), (0, 127090), (771, 0)], [(36637016411, 0),
    (74191489, 0), (0, 32106), (1276, 0), (0, 34)], [(0, 709448), (0, 53668), (746, 0), (0, 25)], [(0, 4564), (216,
    0), (0, 9)]], 3, 4⟩, 68719476736, 169607368,
    353799808147075258788836845655078576704809156960762863199466565448013475077754645645679144771, ⟨0, 0,
    74524629645219, [189426745404, 39283854, 10862]⟩⟩) (.leaf ⟨911, 16, 774, 552, 16, 437, ⟨[[(207232172032, 0)],
    [(415538085888, 0)]], 3, 4⟩, ⟨[[(0, 209729556126), (0, 2323979267244), (0, 3355652951), (0, 104233370), (0,
    2262327)], [(0, 238674545642), (0, 1357323436), (0, 23841006), (0, 597905), (0, 23590)], [(0, 13289629), (0,
    1816145), (0, 58828), (0, 2668), (0, 128)], [(0, 48644), (0, 2453), (0, 150), (0, 9)]], 3, 4⟩, 1099511627776, 0,
    254166522, ⟨[[(35320347662709, 0), (62161461281, 0), (151496411, 0), (0, 227515), (3124, 0)], [(35695095999, 0),
    (78216465, 0), (0, 133652), (4522, 0), (0, 98)], [(147618, 0), (0, 91662), (2432, 0), (0, 67), (1, 0)], [(0,
    9289), (607, 0), (0, 23), (1, 0)]], 3, 4⟩, 68719476736, 430402480,
    375545822166628372801133805435457916001536845409920444733457734217761892830703283422494885565, ⟨0, 0,
    72371695899913, [183954417203, 38148987, 10549]⟩⟩)))) (.sy (.sx (.leaf ⟨942, 16, 774, 408, 16, 315,
    ⟨[[(196494753792, 0)], [(415538085888, 0)]], 3, 4⟩, ⟨[[(393629078718, 0), (0, 3393490512739), (0, 3682518993),
    (0, 383424524), (0, 5622040)], [(0, 160049962897), (0, 1496792185), (0, 42808735), (0, 1098104), (0, 39726)],
    [(0, 1174428), (0, 1634696), (0, 64592), (0, 2754), (0, 172)], [(0, 22966), (0, 1423), (0, 91), (0, 7), (0, 1)]],
    3, 4⟩, 1099511627776, 0, 224045752, ⟨[[(37360164602801, 0), (95195396766, 0), (277062123, 0), (0, 307346), (123,
    0)], [(36714477815, 0), (101849412, 0), (0, 10762), (480, 0), (0, 44)], [(0, 1111552), (0, 58309), (235, 0), (0,
    24), (1, 0)], [(0, 2605), (80, 0), (0, 7)]], 3, 4⟩, 68719476736, 469702455,
    590407224804695001690944931815637660754214366602315978013460273708417398225945637971108932972, ⟨0, 0,
    62859523005502, [128237271648, 25719469, 6878]⟩⟩) (.leaf ⟨973, 16, 774, 385, 16, 306, ⟨[[(185757335552, 0)],
    [(415538085888, 0)]], 3, 4⟩, ⟨[[(84519962333, 0), (0, 3427270974777), (0, 7465495598), (0, 482291630), (0,
    10120295)], [(0, 156132757126), (0, 1745712907), (0, 54037984), (0, 1675951), (0, 80603)], [(0, 6980885), (0,
    1992525), (0, 91819), (0, 5042), (0, 373)], [(0, 25394), (0, 1956), (0, 155), (0, 14), (0, 1)]], 3, 4⟩,
    1099511627776, 0, 426484528, ⟨[[(37387616021784, 0), (94408440251, 0), (304453906, 0), (0, 330711), (1075, 0)],
    [(35488995299, 0), (101485544, 0), (0, 18586), (1426, 0), (0, 86)], [(0, 681296), (0, 59004), (565, 0), (0, 43),
    (1, 0)], [(0, 2629), (136, 0), (0, 11)]], 3, 4⟩, 68719476736, 1034092165,
    688328259269539524508782168435147679404087347529643703302812143299449548237992394506475185450, ⟨0, 0,
    71114149961772, [120606353614, 23418709, 6063]⟩⟩)) (.sx (.sy (.leaf ⟨942, 16, 774, 548, 16, 438,
    ⟨[[(196494753792, 0)], [(415538085888, 0)]], 3, 4⟩, ⟨[[(393734796754, 0), (0, 2400448828977), (0, 3441366369),
    (0, 100711007), (0, 1765326)], [(0, 233287185600), (0, 1370154672), (0, 23011464), (0, 489145), (0, 17161)], [(0,
    14173730), (0, 1728431), (0, 49595), (0, 1952), (0, 89)], [(0, 44741), (0, 2083), (0, 111), (0, 6)]], 3, 4⟩,
    1099511627776, 0, 203794894, ⟨[[(36092171684627, 0), (62791113886, 0), (150804564, 0), (0, 167058), (1838, 0)],
    [(35293847169, 0), (74247532, 0), (0, 69797), (2712, 0), (0, 65)], [(0, 149512), (0, 66134), (1480, 0), (0, 46),
    (1, 0)], [(0, 6115), (387, 0), (0, 16)]], 3, 4⟩, 68719476736, 294147257,
    523806449282120239125834062970989928467921494333064193029351849925289559431288520984498016193, ⟨0, 0,
    87404670083841, [178310872958, 35762309, 9563]⟩⟩) (.leaf ⟨942, 16, 774, 516, 16, 422, ⟨[[(196494753792, 0)],
    [(415538085888, 0)]], 3, 4⟩, ⟨[[(0, 466258892588), (0, 2364999035557), (0, 5608755219), (0, 171393182), (0,
    5194766)], [(0, 233613608555), (0, 1656871805), (0, 36206711), (0, 1239792), (0, 55375)], [(0, 25920035), (0,
    2546249), (0, 111023), (0, 5977), (0, 299)], [(0, 60820), (0, 4310), (0, 319), (0, 20), (0, 1)]], 3, 4⟩,
    1099511627776, 0, 444754924, ⟨[[(35335001451269, 0), (61177898035, 0), (172020500, 0), (0, 380671), (6601, 0)],
    [(34352587755, 0), (80838842, 0), (0, 274996), (8943, 0), (0, 184)], [(1014167, 0), (0, 137341), (4566, 0), (0,
    123), (2, 0)], [(0, 14356), (1068, 0), (0, 41), (1, 0)]], 3, 4⟩, 68719476736, 808794674,
    651416223269678735191910930783586225732873914900517634144738162268868189863617424255010318198, ⟨0, 0,
    84211805423244, [171797233763, 34455923, 9214]⟩⟩)) (.sy (.leaf ⟨973, 16, 774, 513, 16, 423, ⟨[[(185757335552,
    0)], [(415538085888, 0)]], 3, 4⟩, ⟨[[(0, 363101180079), (0, 2439236008369), (0, 5539628572), (0, 152788731), (0,
    3850211)], [(0, 228479486948), (0, 1645461779), (0, 32880730), (0, 943617), (0, 38888)], [(0, 25567037), (0,
    2317408), (0, 86758), (0, 4167), (0, 202)], [(0, 54380), (0, 3414), (0, 223), (0, 14), (0, 1)]], 3, 4⟩,
    1099511627776, 0, 335527259, ⟨[[(36135690004677, 0), (62014104190, 0), (168860211, 0), (0, 249668), (3825, 0)],
    [(34066816172, 0), (75481653, 0), (0, 141134), (5194, 0), (0, 117)], [(435455, 0), (0, 88354), (2675, 0), (0,
    80), (1, 0)], [(0, 8541), (651, 0), (0, 27), (1, 0)]], 3, 4⟩, 68719476736, 582545671,
    646953827373747183911750245762315654520763545181432356779436685812269023862801956782477184457, ⟨0, 0,
    98304854358920, [166720547642, 32372922, 8381]⟩⟩) (.sx (.leaf ⟨1931, 16, 1548, 682, 16, 573, ⟨[[(0,
    172872433664)], [(415538085888, 0)]], 3, 4⟩, ⟨[[(194725019292, 0), (0, 3364221663604), (0, 11327031347), (0,
    374587122), (0, 13611592)], [(0, 161276010990), (0, 1376807987), (0, 36879117), (0, 1537897), (0, 72851)], [(0,
    13121711), (0, 1212590), (0, 64995), (0, 3817), (0, 195)], [(0, 13350), (0, 1199), (0, 98), (0, 7)]], 3, 4⟩,
    1099511627776, 0, 254750415, ⟨[[(35310181446633, 0), (42889874180, 0), (99152948, 0), (0, 229715), (3064, 0)],
    [(16650720156, 0), (30572729, 0), (0, 127778), (2831, 0), (0, 40)], [(512382, 0), (0, 37151), (982, 0), (0, 18)],
    [(0, 2735), (154, 0), (0, 4)]], 3, 4⟩, 68719476736, 153185502,
    492271115623025603226211366420643628653037462502186390307422200216274043762405512674705240465, ⟨0, 0,
    128516457463732, [113826848940, 11139836, 1454]⟩⟩) (.leaf ⟨1962, 16, 1548, 649, 16, 555, ⟨[[(0, 183609851904)],
    [(415538085888, 0)]], 3, 4⟩, ⟨[[(14311943622, 0), (0, 3376487498765), (0, 14381727269), (0, 513704097), (0,
    20445721)], [(0, 158572951388), (0, 1552525165), (0, 48246443), (0, 2243060), (0, 109341)], [(0, 16229321), (0,
    1515376), (0, 91699), (0, 5625), (0, 291)], [(0, 15845), (0, 1639), (0, 142), (0, 10), (0, 1)]], 3, 4⟩,
    1099511627776, 0, 378423603, ⟨[[(35317262188077, 0), (42770429007, 0), (110720812, 0), (0, 324488), (4380, 0)],
    [(16318104016, 0), (32564963, 0), (0, 185242), (4018, 0), (0, 55)], [(724968, 0), (0, 49138), (1365, 0), (0,
    25)], [(0, 3563), (209, 0), (0, 6)]], 3, 4⟩, 68719476736, 220689998,
    733396211195430915488491245884449380473233272947528307911369412381253399926804458006382105038, ⟨0, 0,
    133448100276335, [108509546505, 10451700, 1342]⟩⟩)))))
theorem c34 : checkC job ⟨6, 8, 8, 10, 9, 13⟩ 3 100 lims t34 613 41 512 33 3 64 = true := by decide +kernel

def t35 : CTree :=
  .sx (.sy (.sx (.leaf ⟨1004, 16, 774, 426, 16, 317, ⟨[[(175019917312, 0)], [(415538085888, 0)]], 3, 4⟩,
    ⟨[[(514360132114, 0), (0, 3619909064797), (3389356583, 0), (0, 340983049), (0, 2766977)], [(0, 144906454289), (0,
    1077307418), (0, 29001873), (0, 643354), (0, 12152)], [(5384452, 0), (0, 996712), (0, 34738), (0, 965), (0, 26)],
    [(0, 14163), (0, 671), (0, 31), (0, 1)]], 3, 4⟩, 1099511627776, 0, 62333660, ⟨[[(41246318443190, 0),
    (108833947953, 0), (257703193, 0), (0, 332892), (94, 0)], [(37999272948, 0), (93535719, 0), (0, 29888), (8, 0),
    (7, 0)], [(0, 2384057), (0, 58633), (0, 30), (3, 0)], [(0, 1922), (9, 0), (1, 0)]], 3, 4⟩, 68719476736,
    134293622, 222118675795591286303290920998071943002780944124446846946299115877976830377931303279173117075, ⟨0, 0,
    83756029331388, [121085935654, 22786213, 5717]⟩⟩) (.leaf ⟨1035, 16, 774, 409, 16, 312, ⟨[[(164282499072, 0)],
    [(415538085888, 0)]], 3, 4⟩, ⟨[[(142989297557, 0), (0, 3656738559663), (747107304, 0), (0, 394650957), (0,
    3908797)], [(0, 142038274653), (0, 1235494012), (0, 34836860), (0, 817027), (0, 17415)], [(1769136, 0), (0,
    1161718), (0, 42993), (0, 1320), (0, 43)], [(0, 14821), (0, 816), (0, 42), (0, 2)]], 3, 4⟩, 1099511627776, 0,
    78785858, ⟨[[(41283813691358, 0), (107906634004, 0), (275814780, 0), (0, 347508), (0, 219)], [(36903308498, 0),
    (92035031, 0), (0, 32591), (0, 62), (7, 0)], [(0, 1953948), (0, 58385), (0, 51), (4, 0)], [(0, 1850), (0, 2), (1,
    0)]], 3, 4⟩, 68719476736, 177332919,
    211128121329142495225434339934408990487071052522142110923492187829679014065275408072709842067, ⟨0, 0,
    92059628121546, [115608177801, 21104085, 5137]⟩⟩)) (.sx (.leaf ⟨1004, 16, 774, 398, 16, 310, ⟨[[(175019917312,
    0)], [(415538085888, 0)]], 3, 4⟩, ⟨[[(0, 250237935935), (0, 3538955183950), (0, 3413818071), (0, 424251693), (0,
    5329510)], [(0, 149202520455), (0, 1474253109), (0, 43047726), (0, 1068828), (0, 29419)], [(0, 2051752), (0,
    1514603), (0, 59561), (0, 2179), (0, 100)], [(0, 19233), (0, 1217), (0, 72), (0, 4)]], 3, 4⟩, 1099511627776, 0,
    145300200, ⟨[[(39272501893227, 0), (100905669235, 0), (288833618, 0), (0, 326684), (0, 778)], [(36210934991, 0),
    (96624339, 0), (0, 16425), (0, 473)], [(0, 1303679), (0, 55105), (0, 203)], [(0, 1795), (0, 16)]], 3, 4⟩,
    68719476736, 224261893,
    285658887333174868369554527580135095383394083078131640106851986624118679596938243190991293701, ⟨0, 0,
    81906527106404, [118412113731, 22283047, 5591]⟩⟩) (.leaf ⟨1035, 16, 774, 375, 16, 301, ⟨[[(164282499072, 0)],
    [(415538085888, 0)]], 3, 4⟩, ⟨[[(437725956014, 0), (0, 3564179685751), (0, 7173938062), (0, 513906754), (0,
    8350583)], [(0, 145588610738), (0, 1698924790), (0, 52916446), (0, 1487027), (0, 51493)], [(0, 6857443), (0,
    1807839), (0, 79393), (0, 3504), (0, 193)], [(0, 21028), (0, 1589), (0, 110), (0, 8), (0, 1)]], 3, 4⟩,
    1099511627776, 0, 243752043, ⟨[[(39210222307254, 0), (99815850773, 0), (317708226, 0), (0, 332280), (0, 776)],
    [(35023725644, 0), (96446857, 0), (0, 14184), (0, 429), (0, 10)], [(0, 821986), (0, 53867), (0, 215), (0, 4)],
    [(0, 1403), (0, 30), (0, 1)]], 3, 4⟩, 68719476736, 395475075,
    421343110615546409543189283999632861757440450302885911263687522358116125624496651994029905608, ⟨0, 0,
    88813936104440, [111532248455, 20360031, 4956]⟩⟩))) (.sy (.sx (.leaf ⟨1066, 16, 774, 391, 16, 306,
    ⟨[[(153545080832, 0)], [(415538085888, 0)]], 3, 4⟩, ⟨[[(0, 136290181795), (0, 3693907634641), (0, 2376978535),
    (0, 462628820), (0, 5573464)], [(0, 139323097992), (0, 1416037615), (0, 42005443), (0, 1057726), (0, 26187)],
    [(0, 1985362), (0, 1360678), (0, 54109), (0, 1880), (0, 72)], [(0, 15784), (0, 1010), (0, 58), (0, 3)]], 3, 4⟩,
    1099511627776, 0, 109567827, ⟨[[(41311668307325, 0), (106971572483, 0), (296704663, 0), (0, 355794), (0, 506)],
    [(35859669444, 0), (90860394, 0), (0, 34565), (0, 121), (8, 0)], [(0, 1519963), (0, 59246), (0, 58), (4, 0)],
    [(0, 1726), (0, 18), (2, 0)]], 3, 4⟩, 68719476736, 219055003,
    499859173834393277410215464362530002156849855707931465184293058756647566033329695769645098131, ⟨0, 0,
    99450357914491, [110089103352, 19512425, 4611]⟩⟩) (.leaf ⟨1097, 16, 774, 369, 16, 297, ⟨[[(142807662592, 0)],
    [(415538085888, 0)]], 3, 4⟩, ⟨[[(302495267001, 0), (0, 3707419239309), (0, 6037229584), (0, 547331244), (0,
    8070972)], [(0, 135860927899), (0, 1612512345), (0, 50664622), (0, 1396976), (0, 40989)], [(0, 5893568), (0,
    1595059), (0, 69218), (0, 2774), (0, 125)], [(0, 17024), (0, 1268), (0, 82), (0, 5)]], 3, 4⟩, 1099511627776, 0,
    165947773, ⟨[[(41269760376370, 0), (106339322038, 0), (325761476, 0), (0, 367161), (0, 673)], [(34813658252, 0),
    (90545646, 0), (0, 34487), (0, 205), (8, 0)], [(0, 1023117), (0, 62820), (0, 23), (4, 0)], [(0, 1491), (0, 44),
    (2, 0)]], 3, 4⟩, 68719476736, 280111982,
    1337192527753435265579134421018046184939987104329237623441862428146486585321504351695291210606, ⟨0, 1,
    105162217299948, [103833001340, 17883741, 4107]⟩⟩)) (.sx (.leaf ⟨1066, 16, 774, 352, 16, 291, ⟨[[(153545080832,
    0)], [(415538085888, 0)]], 3, 4⟩, ⟨[[(415875826844, 0), (0, 3593124458670), (0, 11713001898), (0, 642258817), (0,
    13760370)], [(0, 142269433454), (0, 1963779867), (0, 66280504), (0, 2177405), (0, 93991)], [(0, 12014888), (0,
    2195737), (0, 110465), (0, 5895), (0, 373)], [(0, 23669), (0, 2154), (0, 175), (0, 14), (0, 1)]], 3, 4⟩,
    1099511627776, 0, 437545126, ⟨[[(39212865635947, 0), (99008469873, 0), (350771446, 0), (0, 351887), (0, 259)],
    [(33952051853, 0), (96664049, 0), (0, 17151), (0, 95), (0, 31)], [(0, 343616), (0, 55550), (0, 129), (0, 12), (1,
    0)], [(0, 793), (0, 54), (0, 2)]], 3, 4⟩, 68719476736, 914107247,
    1196757880663991231193040910481603604970063912596612376255287808593061687367871527225504585416, ⟨0, 0,
    94575340369663, [104692578677, 18555934, 4385]⟩⟩) (.sy (.leaf ⟨1097, 16, 774, 510, 16, 428, ⟨[[(142807662592,
    0)], [(415538085888, 0)]], 3, 4⟩, ⟨[[(63036592998, 0), (0, 2736983246473), (0, 5289073237), (0, 137061102), (0,
    1586496)], [(0, 207934502837), (0, 1565467215), (0, 27594142), (0, 480496), (0, 10669)], [(0, 21316819), (0,
    1765338), (0, 47031), (0, 1308), (0, 41)], [(0, 36040), (0, 1777), (0, 75), (0, 3)]], 3, 4⟩, 1099511627776, 0,
    129893078, ⟨[[(39739721237885, 0), (66797962595, 0), (164421047, 0), (0, 109686), (0, 93)], [(33439749275, 0),
    (63406655, 0), (0, 9745), (0, 51), (0, 5)], [(0, 89523), (0, 42130), (0, 14), (0, 3)], [(0, 325), (0, 72)]], 3,
    4⟩, 68719476736, 47281577,
    934961057785944879627409174960332082759143260511541718604874256078901884810114011697336109508, ⟨0, 1,
    151546899004639, [149631395871, 25771856, 5918]⟩⟩) (.leaf ⟨1097, 16, 774, 473, 16, 409, ⟨[[(142807662592, 0)],
    [(415538085888, 0)]], 3, 4⟩, ⟨[[(0, 56389556046), (0, 2691856593628), (0, 7834224954), (0, 184842662), (0,
    3289155)], [(0, 208744016926), (0, 1873178754), (0, 37681465), (0, 860657), (0, 26299)], [(0, 32443192), (0,
    2405704), (0, 79667), (0, 2890), (0, 111)], [(0, 48007), (0, 2990), (0, 157), (0, 7)]], 3, 4⟩, 1099511627776, 0,
    239859372, ⟨[[(38773452446335, 0), (64652771271, 0), (185450798, 0), (0, 128916), (315, 0)], [(32484513630, 0),
    (66748129, 0), (0, 23787), (929, 0), (0, 34)], [(558328, 0), (0, 48098), (405, 0), (0, 19)], [(624, 0), (0, 37),
    (0, 4)]], 3, 4⟩, 68719476736, 200924986,
    1450664180926591507355022309300720593161325897430333065009790190960582304548025823535110581765, ⟨0, 1,
    144819349749760, [142988880634, 24627778, 5656]⟩⟩))))
theorem c35 : checkC job ⟨6, 8, 8, 10, 9, 13⟩ 3 100 lims t35 695 41 512 27 3 64 = true := by decide +kernel

def t36 : CTree :=
  .sx (.sx (.sy (.leaf ⟨1004, 16, 774, 544, 16, 440, ⟨[[(175019917312, 0)], [(415538085888, 0)]], 3, 4⟩, ⟨[[(0,
    132094962298), (0, 2553292739699), (0, 3546574406), (0, 101681210), (0, 1166362)], [(0, 222584609960), (0,
    1377528133), (0, 22313100), (0, 369045), (0, 9169)], [(0, 14659489), (0, 1587878), (0, 39034), (0, 1123), (0,
    41)], [(0, 37905), (0, 1615), (0, 68), (0, 3)]], 3, 4⟩, 1099511627776, 0, 136668093, ⟨[[(37850091527405, 0),
    (64955215756, 0), (150145154, 0), (0, 106910), (208, 0)], [(34785546856, 0), (68284859, 0), (0, 6954), (366, 0),
    (0, 18)], [(0, 520653), (0, 37930), (184, 0), (0, 13)], [(0, 2038), (66, 0), (0, 5)]], 3, 4⟩, 68719476736,
    119483923, 398118873120477783526062618345186954252739421164439444969047106491406525048502738855097397116, ⟨0, 0,
    116254425570380, [168068806586, 31627551, 7936]⟩⟩) (.leaf ⟨1004, 16, 774, 511, 16, 424, ⟨[[(175019917312, 0)],
    [(415538085888, 0)]], 3, 4⟩, ⟨[[(0, 502364578676), (0, 2513261671972), (0, 5513776079), (0, 141708806), (0,
    2863763)], [(0, 223320495438), (0, 1634055115), (0, 30726945), (0, 739527), (0, 26837)], [(0, 24961764), (0,
    2145907), (0, 70386), (0, 2919), (0, 132)], [(0, 49035), (0, 2798), (0, 159), (0, 9)]], 3, 4⟩, 1099511627776, 0,
    257185227, ⟨[[(36987642629177, 0), (63064367937, 0), (167104723, 0), (0, 167829), (1881, 0)], [(33845801834, 0),
    (71542928, 0), (0, 57818), (2528, 0), (0, 66)], [(79949, 0), (0, 56194), (1279, 0), (0, 45), (1, 0)], [(0, 4332),
    (326, 0), (0, 16)]], 3, 4⟩, 68719476736, 344069051,
    491800496394398516962071702316288833899795134435814791072982240339102685834553451284083531970, ⟨0, 0,
    112026991913276, [161957213619, 30477458, 7647]⟩⟩)) (.sy (.leaf ⟨1035, 16, 774, 509, 16, 425, ⟨[[(164282499072,
    0)], [(415538085888, 0)]], 3, 4⟩, ⟨[[(218335836889, 0), (0, 2586621302523), (0, 5488448436), (0, 136652366), (0,
    2206426)], [(0, 218103513419), (0, 1618249157), (0, 29354669), (0, 608943), (0, 18734)], [(0, 24046602), (0,
    2007446), (0, 59627), (0, 2114), (0, 86)], [(0, 44347), (0, 2366), (0, 119), (0, 6)]], 3, 4⟩, 1099511627776, 0,
    200424002, ⟨[[(37829939495551, 0), (64018172405, 0), (166578109, 0), (0, 129999), (813, 0)], [(33621691257, 0),
    (68659830, 0), (0, 21951), (1072, 0), (0, 36)], [(0, 45895), (0, 41455), (489, 0), (0, 24), (1, 0)], [(0, 1891),
    (121, 0), (0, 8)]], 3, 4⟩, 68719476736, 237472620,
    450554296805979875528271415770104257777735977144704783435901444394658118993251447345947370265, ⟨0, 0,
    125401737024542, [157479088351, 28747552, 6997]⟩⟩) (.leaf ⟨1035, 16, 774, 472, 16, 405, ⟨[[(164282499072, 0)],
    [(415538085888, 0)]], 3, 4⟩, ⟨[[(0, 455704747548), (0, 2544092575995), (0, 8225769380), (0, 217688929), (0,
    5968918)], [(0, 218254296976), (0, 1961453697), (0, 44275838), (0, 1385115), (0, 57410)], [(0, 37011876), (0,
    2911225), (0, 120816), (0, 5868), (0, 281)], [(0, 61492), (0, 4522), (0, 300), (0, 18), (0, 1)]], 3, 4⟩,
    1099511627776, 0, 427482000, ⟨[[(36985044036302, 0), (62302535958, 0), (191121624, 0), (0, 268320), (3985, 0)],
    [(32673183063, 0), (73833562, 0), (0, 138583), (5289, 0), (0, 122)], [(696296, 0), (0, 78686), (2502, 0), (0,
    80), (1, 0)], [(0, 5935), (572, 0), (0, 28), (1, 0)]], 3, 4⟩, 68719476736, 673443299,
    509339809680502893002075377394792785931754583245807540921418122811957765445039341375281771109, ⟨0, 0,
    119500478811622, [150068307723, 27394726, 6668]⟩⟩))) (.sx (.sy (.leaf ⟨1066, 16, 774, 472, 16, 407,
    ⟨[[(153545080832, 0)], [(415538085888, 0)]], 3, 4⟩, ⟨[[(0, 118547751809), (0, 2618478178826), (0, 8018762458),
    (0, 195999583), (0, 4309858)], [(0, 213569411394), (0, 1918533315), (0, 40323867), (0, 1059306), (0, 38140)],
    [(0, 34808678), (0, 2630613), (0, 95792), (0, 4008), (0, 175)], [(0, 54235), (0, 3619), (0, 211), (0, 11), (0,
    1)]], 3, 4⟩, 1099511627776, 0, 315852491, ⟨[[(37849798790629, 0), (63338600832, 0), (187886404, 0), (0, 175543),
    (1682, 0)], [(32542080741, 0), (69997375, 0), (0, 58909), (2451, 0), (0, 66)], [(518804, 0), (0, 52391), (1050,
    0), (0, 41), (1, 0)], [(0, 1508), (189, 0), (0, 13)]], 3, 4⟩, 68719476736, 368396386,
    1055638600352488163933707717759475089024358696448192436695298874330201247559459320040962400521, ⟨0, 0,
    132275476049667, [146425702824, 25952801, 6133]⟩⟩) (.leaf ⟨1066, 16, 774, 429, 16, 382, ⟨[[(153545080832, 0)],
    [(415538085888, 0)]], 3, 4⟩, ⟨[[(226895485373, 0), (0, 2572500913924), (0, 12136087575), (0, 360890889), (0,
    12430840)], [(0, 212892139493), (0, 2404957608), (0, 67713380), (0, 2653026), (0, 120426)], [(0, 51812002), (0,
    4153392), (0, 213780), (0, 11640), (0, 588)], [(0, 81518), (0, 7512), (0, 560), (0, 35), (0, 2)]], 3, 4⟩,
    1099511627776, 0, 755526338, ⟨[[(36947072309694, 0), (61349008032, 0), (226393322, 0), (0, 460313), (7412, 0)],
    [(31472046271, 0), (79438543, 0), (0, 336437), (11046, 0), (0, 209)], [(1717324, 0), (0, 132265), (4860, 0), (0,
    134), (2, 0)], [(0, 8910), (1002, 0), (0, 47), (1, 0)]], 3, 4⟩, 68719476736, 1110232345,
    1069768259190414470878193276000752262940030675306841800800342533962079601223482354376304521442, ⟨0, 0,
    124150446808287, [137431495034, 24358649, 5757]⟩⟩)) (.sy (.leaf ⟨1097, 16, 774, 431, 16, 385, ⟨[[(142807662592,
    0)], [(415538085888, 0)]], 3, 4⟩, ⟨[[(97549268537, 0), (0, 2644634733525), (0, 11451796740), (0, 300004067), (0,
    8477365)], [(0, 208566883938), (0, 2305066645), (0, 58005255), (0, 1893445), (0, 76112)], [(0, 47587790), (0,
    3582038), (0, 158538), (0, 7493), (0, 345)], [(0, 69362), (0, 5678), (0, 370), (0, 21), (0, 1)]], 3, 4⟩,
    1099511627776, 0, 519449411, ⟨[[(37838037348789, 0), (62617750588, 0), (217007006, 0), (0, 227596), (2706, 0)],
    [(31463449255, 0), (73053437, 0), (0, 156813), (5816, 0), (0, 131)], [(1470588, 0), (0, 85564), (2281, 0), (0,
    67), (1, 0)], [(0, 448), (258, 0), (0, 19)]], 3, 4⟩, 68719476736, 689128266,
    1888510460663176046947966050485988752124632629485787044087247002210915523983524339917942085302, ⟨0, 1,
    136321392796229, [134598335071, 23182627, 5324]⟩⟩) (.sx (.leaf ⟨2179, 16, 1548, 540, 16, 495, ⟨[[(0,
    258771779584)], [(415538085888, 0)]], 3, 4⟩, ⟨[[(533436532108, 0), (0, 3548025605468), (0, 22363365790), (0,
    748602239), (0, 29304517)], [(0, 142724593707), (0, 1953480591), (0, 65847834), (0, 2968493), (0, 143716)], [(0,
    22443755), (0, 1909995), (0, 113313), (0, 6700), (0, 368)], [(0, 17785), (0, 1899), (0, 155), (0, 11), (0, 1)]],
    3, 4⟩, 1099511627776, 0, 535774105, ⟨[[(36946282418091, 0), (44438650333, 0), (139978202, 0), (0, 266501), (3871,
    0)], [(15293924239, 0), (31910773, 0), (0, 165193), (3466, 0), (0, 34)], [(744427, 0), (0, 36578), (919, 0), (0,
    13)], [(0, 1320), (119, 0), (0, 4)]], 3, 4⟩, 68719476736, 282314394,
    1274839675079335099614168198542211873780582427857388340281010120162392182668227991756619079358, ⟨0, 1,
    171710149266392, [87142874499, 7557925, 874]⟩⟩) (.sy (.leaf ⟨2210, 16, 1548, 785, 16, 727, ⟨[[(0, 269509197824)],
    [(415538085888, 0)]], 3, 4⟩, ⟨[[(364383150704, 0), (0, 2675085635065), (0, 8979895743), (0, 150159308), (0,
    2937843)], [(0, 210773704477), (0, 1521387987), (0, 26139077), (0, 589011), (0, 14310)], [(0, 35201031), (0,
    1497573), (0, 44549), (0, 1319), (0, 37)], [(0, 27443), (0, 1479), (0, 60), (0, 2)]], 3, 4⟩, 1099511627776, 0,
    95062822, ⟨[[(37175143916830, 0), (29879471441, 0), (64476042, 0), (0, 79856), (1044, 0)], [(15168452224, 0),
    (21439807, 0), (0, 78589), (1112, 0), (0, 7)], [(850299, 0), (0, 24935), (369, 0), (0, 3)], [(0, 700), (56, 0),
    (0, 1)]], 3, 4⟩, 68719476736, 45293244,
    1075875210030357334239614668699096910664467214857851038425443599931666066474468521959943346483, ⟨0, 1,
    262609322652656, [126190688887, 10791063, 1230]⟩⟩) (.leaf ⟨2210, 16, 1548, 731, 16, 690, ⟨[[(0, 269509197824)],
    [(415538085888, 0)]], 3, 4⟩, ⟨[[(216564124476, 0), (0, 2659453030711), (0, 11842201963), (0, 236413568), (0,
    5341735)], [(0, 209744602724), (0, 1816190529), (0, 38648054), (0, 1036628), (0, 28270)], [(0, 43785242), (0,
    2102429), (0, 75244), (0, 2611), (0, 87)], [(0, 37107), (0, 2404), (0, 119), (0, 5)]], 3, 4⟩, 1099511627776, 0,
    167898045, ⟨[[(36747330802412, 0), (29396799111, 0), (77681956, 0), (0, 215739), (3386, 0)], [(14829999918, 0),
    (25888270, 0), (0, 149375), (1536, 0), (4, 0)], [(1306230, 0), (0, 38829), (444, 0), (3, 0)], [(0, 1806), (99,
    0), (0, 1)]], 3, 4⟩, 68719476736, 175728960,
    2078298618659789302304690452992304811655120476920451932437567868886894397048469714346343753370, ⟨0, 1,
    249244061389729, [119768329205, 10241862, 1168]⟩⟩)))))
theorem c36 : checkC job ⟨6, 8, 8, 10, 9, 13⟩ 3 100 lims t36 695 41 512 63 3 128 = true := by decide +kernel

def t37 : CTree :=
  .sx (.sy (.leaf ⟨1004, 16, 774, 473, 16, 404, ⟨[[(175019917312, 0)], [(415538085888, 0)]], 3, 4⟩, ⟨[[(209356299705,
    0), (0, 2475512339899), (0, 8565845647), (0, 255392543), (0, 8475855)], [(0, 223377564896), (0, 2015125778), (0,
    50577076), (0, 1900232), (0, 86742)], [(0, 39282211), (0, 3303639), (0, 160462), (0, 8842), (0, 446)], [(0,
    70705), (0, 5903), (0, 447), (0, 29), (0, 2)]], 3, 4⟩, 1099511627776, 0, 600552737, ⟨[[(36104081960974, 0),
    (60922246013, 0), (196578371, 0), (0, 461040), (8213, 0)], [(32778471490, 0), (79706965, 0), (0, 323293), (10847,
    0), (0, 223)], [(1361111, 0), (0, 143317), (5332, 0), (0, 150), (3, 0)], [(0, 14129), (1218, 0), (0, 50), (1,
    0)]], 3, 4⟩, 68719476736, 1150924913,
    704733462359278430466632683707113810413236160787931449215780958860204935318191273104196678956, ⟨0, 0,
    106742699841895, [154317722411, 29039842, 7286]⟩⟩) (.sx (.leaf ⟨1993, 16, 1548, 614, 16, 535, ⟨[[(0,
    194347270144)], [(415538085888, 0)]], 3, 4⟩, ⟨[[(133491208752, 0), (0, 3388307211212), (0, 18354856729), (0,
    714631449), (0, 30545677)], [(0, 155756550795), (0, 1772100672), (0, 64162533), (0, 3266929), (0, 163085)], [(0,
    19856260), (0, 1926603), (0, 129637), (0, 8248), (0, 434)], [(0, 19184), (0, 2249), (0, 203), (0, 14), (0, 1)]],
    3, 4⟩, 1099511627776, 0, 558762018, ⟨[[(35312680484599, 0), (42595455625, 0), (126269090, 0), (0, 465651), (6156,
    0)], [(15969712681, 0), (35595163, 0), (0, 272333), (5733, 0), (0, 74)], [(1021360, 0), (0, 66943), (1923, 0),
    (0, 35)], [(0, 4758), (287, 0), (0, 8)]], 3, 4⟩, 68719476736, 303794181,
    935731324444923264152089698182730964750400465318815476734330753372912950236429370678963518626, ⟨0, 0,
    137149262076995, [102972677369, 9764145, 1234]⟩⟩) (.leaf ⟨2024, 16, 1548, 576, 16, 512, ⟨[[(0, 205084688384)],
    [(415538085888, 0)]], 3, 4⟩, ⟨[[(524692273072, 0), (0, 3395405290056), (0, 23554106919), (0, 1001670563), (0,
    45288653)], [(0, 152579511118), (0, 2047395661), (0, 86259740), (0, 4737123), (0, 241951)], [(0, 24126605), (0,
    2480753), (0, 183025), (0, 12055), (0, 651)], [(0, 23594), (0, 3086), (0, 292), (0, 21), (0, 1)]], 3, 4⟩,
    1099511627776, 0, 830554511, ⟨[[(35297662397633, 0), (42393124079, 0), (147960023, 0), (0, 669553), (8276, 0)],
    [(15597189351, 0), (40258656, 0), (0, 403447), (8096, 0), (0, 94)], [(1444531, 0), (0, 93393), (2726, 0), (0,
    48), (1, 0)], [(0, 6492), (402, 0), (0, 11)]], 3, 4⟩, 68719476736, 372263076,
    1172897424142332632409922115975469745771470201188825791977871205915025194300496415439702759933, ⟨0, 0,
    139271694662409, [97036803064, 9060392, 1128]⟩⟩))) (.sy (.sx (.leaf ⟨2055, 16, 1548, 610, 16, 535, ⟨[[(0,
    215822106624)], [(415538085888, 0)]], 3, 4⟩, ⟨[[(0, 131993344315), (0, 3460930755989), (0, 16425281899), (0,
    547554548), (0, 21072575)], [(0, 151687315346), (0, 1655510268), (0, 50633313), (0, 2243330), (0, 107954)], [(0,
    17985545), (0, 1554230), (0, 89639), (0, 5320), (0, 277)], [(0, 15579), (0, 1569), (0, 129), (0, 9)]], 3, 4⟩,
    1099511627776, 0, 385053069, ⟨[[(36129249596628, 0), (43669674163, 0), (118077867, 0), (0, 268927), (3433, 0)],
    [(15932877456, 0), (30901043, 0), (0, 143015), (3242, 0), (0, 44)], [(566000, 0), (0, 37419), (1076, 0), (0,
    21)], [(0, 2490), (165, 0), (0, 5)]], 3, 4⟩, 68719476736, 180898402,
    340971931896530068266795505879900644250343350479713104059519400271463609079301894909793088308, ⟨0, 0,
    153779486010406, [99866641120, 9183984, 1126]⟩⟩) (.leaf ⟨2086, 16, 1548, 575, 16, 514, ⟨[[(0, 226559524864)],
    [(415538085888, 0)]], 3, 4⟩, ⟨[[(0, 45547203435), (0, 3466448023745), (0, 20423920993), (0, 742248180), (0,
    30824907)], [(0, 148891405011), (0, 1869400186), (0, 65617551), (0, 3186573), (0, 158268)], [(0, 21382079), (0,
    1931436), (0, 123185), (0, 7644), (0, 411)], [(0, 18568), (0, 2089), (0, 181), (0, 13), (0, 1)]], 3, 4⟩,
    1099511627776, 0, 563692183, ⟨[[(36125943128922, 0), (43580303188, 0), (133443907, 0), (0, 367239), (4498, 0)],
    [(15612558050, 0), (33422837, 0), (0, 208183), (4426, 0), (0, 52)], [(790398, 0), (0, 49783), (1451, 0), (0,
    26)], [(0, 3216), (219, 0), (0, 6)]], 3, 4⟩, 68719476736, 214713355,
    484052563217406033054954675725997104191136628877118896265536758283669163316019370046646656898, ⟨0, 0,
    155552167248212, [94521089549, 8563244, 1034]⟩⟩)) (.sx (.leaf ⟨2055, 16, 1548, 535, 16, 485, ⟨[[(0,
    215822106624)], [(415538085888, 0)]], 3, 4⟩, ⟨[[(160740995161, 0), (0, 3392956567227), (0, 30347818750), (0,
    1405979077), (0, 66581470)], [(0, 148775238310), (0, 2391757625), (0, 116588842), (0, 6833006), (0, 358824)],
    [(0, 29162494), (0, 3220166), (0, 257970), (0, 17699), (0, 1001)], [(0, 29345), (0, 4243), (0, 424), (0, 32), (0,
    2)]], 3, 4⟩, 1099511627776, 0, 1244689576, ⟨[[(35311853124986, 0), (42503493293, 0), (176322570, 0), (0, 907659),
    (9769, 0)], [(15230175754, 0), (46355938, 0), (0, 563714), (10464, 0), (0, 92)], [(1937203, 0), (0, 125098),
    (3642, 0), (0, 60)], [(0, 8488), (540, 0), (0, 15)]], 3, 4⟩, 68719476736, 311450875,
    1385145161324664391314678907974668451853175257983792964099761616241621533507126856508744950808, ⟨0, 0,
    139407571429995, [90533310174, 8325668, 1021]⟩⟩) (.sy (.leaf ⟨2086, 16, 1548, 769, 16, 705, ⟨[[(0,
    226559524864)], [(415538085888, 0)]], 3, 4⟩, ⟨[[(0, 514800032820), (0, 2544190457541), (0, 12244323014), (0,
    285741690), (0, 6840375)], [(0, 218087744825), (0, 1871428164), (0, 46689216), (0, 1383174), (0, 36978)], [(0,
    45916515), (0, 2540798), (0, 102993), (0, 3604), (0, 106)], [(0, 45533), (0, 3344), (0, 171), (0, 7)]], 3, 4⟩,
    1099511627776, 0, 224957401, ⟨[[(35529775257566, 0), (28774368108, 0), (82785427, 0), (0, 266261), (1757, 0)],
    [(15075165726, 0), (31176558, 0), (0, 247095), (2861, 0), (0, 10)], [(1891591, 0), (0, 80747), (1541, 0), (0,
    15)], [(0, 8053), (353, 0), (0, 7)]], 3, 4⟩, 68719476736, 29090168,
    294800477308712020849108016994664479616801740353724814279696433507590421667499699740696105422, ⟨0, 0,
    213354626284026, [129644685081, 11745306, 1419]⟩⟩) (.leaf ⟨2086, 16, 1548, 700, 16, 654, ⟨[[(0, 226559524864)],
    [(415538085888, 0)]], 3, 4⟩, ⟨[[(0, 413288578094), (0, 2531571845538), (0, 17851713665), (0, 479548399), (0,
    12181452)], [(0, 214615263105), (0, 2429959738), (0, 75885279), (0, 2475314), (0, 69451)], [(0, 61049472), (0,
    3969692), (0, 183993), (0, 6971), (0, 222)], [(0, 68292), (0, 5942), (0, 341), (0, 15), (0, 1)]], 3, 4⟩,
    1099511627776, 0, 422190132, ⟨[[(35133122360415, 0), (28245343734, 0), (111916065, 0), (0, 438979), (1066, 0)],
    [(14565651585, 0), (43273485, 0), (0, 434694), (3361, 0), (33, 0)], [(3422378, 0), (0, 145411), (2561, 0), (0,
    17)], [(0, 14722), (634, 0), (0, 11)]], 3, 4⟩, 68719476736, 206793732,
    2158011528997065149162181888185940519756684784250346177494679360875672783606169586775300986035, ⟨0, 0,
    197920461829437, [120266133395, 10895645, 1316]⟩⟩))))
theorem c37 : checkC job ⟨6, 8, 8, 10, 9, 13⟩ 3 100 lims t37 1349 41 1024 69 3 128 = true := by decide +kernel

def t38 : CTree :=
  .sx (.leaf ⟨2117, 16, 1548, 538, 16, 491, ⟨[[(0, 237296943104)], [(415538085888, 0)]], 3, 4⟩, ⟨[[(537978194602, 0),
    (0, 3471370260307), (0, 25546647520), (0, 1015256613), (0, 44942805)], [(0, 145965548175), (0, 2133462658), (0,
    85976396), (0, 4528062), (0, 233283)], [(0, 25334674), (0, 2428097), (0, 169891), (0, 11098), (0, 632)], [(0,
    22421), (0, 2796), (0, 258), (0, 20), (0, 1)]], 3, 4⟩, 1099511627776, 0, 842176523, ⟨[[(36103030141235, 0),
    (43360707127, 0), (153672083, 0), (0, 505569), (5842, 0)], [(15264769125, 0), (37280000, 0), (0, 304074), (5735,
    0), (0, 45)], [(1117645, 0), (0, 67447), (1898, 0), (0, 29)], [(0, 4231), (292, 0), (0, 8)]], 3, 4⟩, 68719476736,
    262337491, 801803523610650303737684911598313854083884116078059028893528300732784286200667361379357221999, ⟨0, 0,
    155941104595360, [88969656464, 7942301, 945]⟩⟩) (.leaf ⟨2148, 16, 1548, 500, 16, 465, ⟨[[(0, 248034361344)],
    [(415538085888, 0)]], 3, 4⟩, ⟨[[(0, 542002807875), (0, 3470289825150), (0, 32103328224), (0, 1395561159), (0,
    65520137)], [(0, 142637298285), (0, 2457888376), (0, 113549008), (0, 6464191), (0, 350945)], [(0, 29930065), (0,
    3081430), (0, 236578), (0, 16612), (0, 1040)], [(0, 27382), (0, 3795), (0, 385), (0, 33), (0, 3)]], 3, 4⟩,
    1099511627776, 0, 1298849731, ⟨[[(36145813707376, 0), (43717463468, 0), (178053956, 0), (0, 687139), (8722, 0)],
    [(14958526908, 0), (41618632, 0), (0, 394409), (6084, 0), (8, 0)], [(1422346, 0), (0, 81164), (2046, 0), (0,
    19)], [(0, 4827), (339, 0), (0, 9)]], 3, 4⟩, 68719476736, 643346462,
    1904579343392010218224361040899275879274150103323225136859185696062502758707557711421086637954, ⟨0, 0,
    154542634430100, [83042667477, 7306235, 857]⟩⟩)
theorem c38 : checkC job ⟨6, 8, 8, 10, 9, 13⟩ 3 100 lims t38 2821 41 2048 135 3 256 = true := by decide +kernel

def t39 : CTree :=
  .sy (.leaf ⟨2179, 16, 1548, 725, 16, 683, ⟨[[(0, 258771779584)], [(415538085888, 0)]], 3, 4⟩, ⟨[[(56930419455, 0),
    (0, 2627528102484), (0, 12934784352), (0, 282128769), (0, 6699471)], [(0, 211375078669), (0, 1928862239), (0,
    45354621), (0, 1305813), (0, 36501)], [(0, 47106237), (0, 2431240), (0, 94569), (0, 3433), (0, 115)], [(0,
    42595), (0, 3007), (0, 159), (0, 7)]], 3, 4⟩, 1099511627776, 0, 213871413, ⟨[[(36329939203657, 0), (29083694495,
    0), (83395113, 0), (0, 251118), (2967, 0)], [(14782284261, 0), (28441909, 0), (0, 180079), (1480, 0), (14, 0)],
    [(1508770, 0), (0, 50948), (670, 0), (2, 0)], [(0, 4013), (189, 0), (0, 3)]], 3, 4⟩, 68719476736, 141045897,
    1478419312111326747178577009412720623488147940768927759356825601234369366825354530665322887452, ⟨0, 1,
    236925317068577, [120239562187, 10428410, 1206]⟩⟩) (.sx (.leaf ⟨4342, 16, 3096, 919, 16, 879, ⟨[[(37580963840,
    0)], [(415538085888, 0)]], 3, 4⟩, ⟨[[(443527265510, 0), (0, 3561591172836), (0, 23565990228), (0, 596214993), (0,
    15386659)], [(0, 143044022678), (0, 1604661227), (0, 46290967), (0, 1507116), (0, 45612)], [(0, 19942854), (0,
    1195116), (0, 54476), (0, 2226), (0, 82)], [(0, 10134), (0, 862), (0, 53), (0, 3)]], 3, 4⟩, 1099511627776, 0,
    141779474, ⟨[[(35907236338239, 0), (20892816029, 0), (57890910, 0), (0, 197702), (1659, 0)], [(7206555009, 0),
    (13148454, 0), (0, 64900), (0, 104), (14, 0)], [(576645, 0), (0, 13583), (67, 0), (2, 0)], [(0, 949), (29, 0)]],
    3, 4⟩, 68719476736, 41141451,
    2702890336641953919538158952062526000485239308440389346956288005680561156904056171408455752451, ⟨0, 1,
    301737680093535, [77648422995, 3379251, 196]⟩⟩) (.sy (.leaf ⟨4373, 16, 3096, 1349, 16, 1298, ⟨[[(26843545600,
    0)], [(415538085888, 0)]], 3, 4⟩, ⟨[[(108021214246, 0), (0, 2675114058589), (0, 9117405165), (0, 115967108), (0,
    1516412)], [(0, 212526799522), (0, 1227539539), (0, 17903600), (0, 295880), (0, 4604)], [(0, 30493626), (0,
    919308), (0, 21331), (0, 450), (0, 9)], [(0, 15500), (0, 674), (0, 22), (0, 1)]], 3, 4⟩, 1099511627776, 0,
    36641084, ⟨[[(36016573601378, 0), (13989364094, 0), (27327705, 0), (0, 77360), (544, 0)], [(7170372442, 0),
    (8835688, 0), (0, 27378), (0, 82), (4, 0)], [(563810, 0), (0, 7831), (1, 0), (1, 0)], [(0, 802), (15, 0)]], 3,
    4⟩, 68719476736, 9137421,
    2320091337350511231799548712078769060352694992550865518049004755910825883507547989089564018323, ⟨0, 1,
    454938273761372, [113849150146, 4919590, 283]⟩⟩) (.sx (.sy (.leaf ⟨8732, 16, 6193, 2648, 16, 2561, ⟨[[(0,
    39929774080)], [(415605194752, 0)]], 3, 4⟩, ⟨[[(0, 137493774656), (0, 2699514292681), (0, 5147358035), (0,
    34428767), (0, 231380)], [(0, 214100477682), (0, 672197057), (0, 5275255), (0, 45477), (0, 364)], [(0, 16752608),
    (0, 268323), (0, 3298), (0, 36)], [(0, 4485), (0, 105), (0, 2)]], 3, 4⟩, 1099511627776, 0, 6016339,
    ⟨[[(35866569226695, 0), (6856843201, 0), (7522591, 0), (0, 12027), (41, 0)], [(3548629167, 0), (2360951, 0), (0,
    3097), (0, 15)], [(159828, 0), (0, 1020), (0, 2)], [(0, 124), (1, 0)]], 3, 4⟩, 68719476736, 585211,
    2386503316277520691237198780328287655853773851669987729294700118004716920198411921820570752579, ⟨0, 1,
    893000370396384, [112513540904, 2435253, 70]⟩⟩) (.skip)) (.skip))))
theorem c39 : checkC job ⟨6, 8, 8, 10, 9, 13⟩ 3 100 lims t39 5765 41 4096 135 3 256 = true := by decide +kernel

def t40 : CTree :=
  .leaf ⟨4404, 16, 3096, 929, 16, 890, ⟨[[(16106127360, 0)], [(415538085888, 0)]], 3, 4⟩, ⟨[[(183378297877, 0), (0,
    3591410118972), (0, 21009316732), (0, 491764297), (0, 12332352)], [(0, 141831532770), (0, 1476244200), (0,
    38485695), (0, 1191643), (0, 35873)], [(0, 18191751), (0, 1003862), (0, 42712), (0, 1709), (0, 64)], [(0, 8573),
    (0, 672), (0, 40), (0, 2)]], 3, 4⟩, 1099511627776, 0, 113580004, ⟨[[(36324081914526, 0), (21234404463, 0),
    (53626003, 0), (0, 202258), (2382, 0)], [(7251648223, 0), (11765502, 0), (0, 57979), (110, 0), (8, 0)], [(462766,
    0), (0, 9577), (26, 0), (2, 0)], [(0, 482), (15, 0)]], 3, 4⟩, 68719476736, 65541239,
    3161532242564318311979201065132410288309470693625127806266192669491766073637613317429554678233, ⟨0, 1,
    318316234502127, [77513661913, 3325910, 190]⟩⟩
theorem c40 : checkC job ⟨6, 8, 8, 10, 9, 13⟩ 3 100 lims t40 11653 41 8192 267 3 512 = true := by decide +kernel

def t41 : CTree :=
  .leaf ⟨4435, 16, 3096, 1368, 16, 1318, ⟨[[(5368709120, 0)], [(415538085888, 0)]], 3, 4⟩, ⟨[[(0, 429328012120), (0,
    2702668897856), (0, 8132488750), (0, 95515082), (0, 1211608)], [(0, 211195649739), (0, 1129943774), (0,
    14869129), (0, 233156), (0, 3604)], [(0, 27840443), (0, 771516), (0, 16661), (0, 344), (0, 7)], [(0, 13098), (0,
    524), (0, 16)]], 3, 4⟩, 1099511627776, 0, 28664365, ⟨[[(36437704588879, 0), (14200477891, 0), (25267796, 0), (0,
    79900), (711, 0)], [(7218864616, 0), (7979791, 0), (0, 26971), (26, 0), (2, 0)], [(471698, 0), (0, 5731), (0, 8),
    (1, 0)], [(0, 340), (6, 0)]], 3, 4⟩, 68719476736, 11192895,
    2738812012790669109578709165456226370520970664267203890303637134372376116841421523045447485661, ⟨0, 1,
    480773961976406, [113987783935, 4856744, 276]⟩⟩
theorem c41 : checkC job ⟨6, 8, 8, 10, 9, 13⟩ 3 100 lims t41 11735 41 8192 531 3 1024 = true := by decide +kernel

def t42 : CTree :=
  .sx (.leaf ⟨8856, 16, 6193, 2689, 16, 2605, ⟨[[(0, 60867739648)], [(415605194752, 0)]], 3, 4⟩, ⟨[[(0,
    180835627548), (0, 2723887433031), (0, 4552592373), (0, 28291041), (0, 185862)], [(0, 212792687747), (0,
    613439046), (0, 4354465), (0, 35934), (0, 288)], [(0, 15184617), (0, 223182), (0, 2575), (0, 28)], [(0, 3751),
    (0, 81), (0, 1)]], 3, 4⟩, 1099511627776, 0, 5080372, ⟨[[(36277466449938, 0), (6952597740, 0), (7048001, 0), (0,
    13452), (59, 0)], [(3574169120, 0), (2142363, 0), (0, 3361), (0, 4)], [(130818, 0), (0, 707), (0, 2)], [(0,
    56)]], 3, 4⟩, 68719476736, 592316,
    1757532108188885615782204811962313404248357074783874991370712308636184595714840498789631074007, ⟨0, 1,
    945617310462826, [112844389020, 2408220, 69]⟩⟩) (.sy (.leaf ⟨8887, 16, 6193, 3506, 16, 3412, ⟨[[(0,
    66102231040)], [(415605194752, 0)]], 3, 4⟩, ⟨[[(0, 172135499148), (0, 1808269924124), (0, 1568173674), (0,
    4944091), (0, 16500)], [(0, 280810644112), (0, 417564416), (0, 1514683), (0, 6378), (0, 26)], [(0, 20677362), (0,
    154498), (0, 914), (0, 5)], [(0, 5168), (0, 58)]], 3, 4⟩, 1099511627776, 0, 6326953, ⟨[[(36303601520875, 0),
    (5223703204, 0), (4371207, 0), (0, 7541), (26, 0)], [(3555931647, 0), (1667146, 0), (0, 1945), (0, 3)], [(134158,
    0), (0, 459), (0, 2)], [(0, 45)]], 3, 4⟩, 68719476736, 251707,
    2792912473773177633746616402166454928677650576245348372270701643155359817523296381214188439134, ⟨0, 1,
    1250657656940099, [147286830030, 3132296, 89]⟩⟩) (.sx (.leaf ⟨17760, 16, 12387, 5281, 16, 5146, ⟨[[(0,
    202433888256)], [(415638749184, 0)]], 3, 4⟩, ⟨[[(0, 516925002774), (0, 2743063123856), (0, 2454973490), (0,
    7869484), (0, 26517)], [(0, 213027901546), (0, 324056793), (0, 1202479), (0, 5137), (0, 21)], [(0, 8031900), (0,
    61149), (0, 369), (0, 2)], [(0, 1020), (0, 12)]], 3, 4⟩, 1099511627776, 0, 3253438, ⟨[[(36252862953646, 0),
    (3428550926, 0), (1974123, 0), (0, 2331), (5, 0)], [(1773005735, 0), (560617, 0), (0, 408), (0, 1)], [(34312, 0),
    (0, 73)], [(0, 6)]], 3, 4⟩, 68719476736, 94719,
    2944506946401536326268976085014933615774812137549812385456995398769817779888377356188473780816, ⟨0, 1,
    1881693961075386, [111166394301, 1183099, 17]⟩⟩) (.sy (.leaf ⟨17791, 16, 12387, 6931, 16, 6770, ⟨[[(0,
    204916916224)], [(415638749184, 0)]], 3, 4⟩, ⟨[[(0, 17790323318), (0, 1817112740903), (0, 828528978), (0,
    1338155), (0, 2274)], [(0, 281360673882), (0, 217444582), (0, 408045), (0, 881), (0, 2)], [(0, 10778882), (0,
    41405), (0, 127)], [(0, 1379), (0, 8)]], 3, 4⟩, 1099511627776, 0, 4055475, ⟨[[(36264686073487, 0), (2580744383,
    0), (1187646, 0), (0, 1160), (2, 0)], [(1768030709, 0), (430677, 0), (0, 232)], [(34641, 0), (0, 48)], [(0, 5)]],
    3, 4⟩, 68719476736, 52682,
    3616668084623481678702912311450479060940426399539854174177013685562041435537826797537584504531, ⟨0, 1,
    2487510150555300, [145994016014, 1551049, 22]⟩⟩) (.sx (.leaf ⟨35568, 16, 24775, 10464, 16, 10228, ⟨[[(0,
    479375392768)], [(415655526400, 0)]], 3, 4⟩, ⟨[[(160071442538, 0), (0, 2753642899712), (0, 1275814256), (0,
    2077694), (0, 3548)], [(0, 213193903165), (0, 166705049), (0, 316430), (0, 688), (0, 1)], [(0, 4133735), (0,
    16033), (0, 49)], [(0, 267), (0, 2)]], 3, 4⟩, 1099511627776, 0, 5403422, ⟨[[(36238725417782, 0), (1698419657, 0),
    (528523, 0), (0, 347)], [(882676097, 0), (143495, 0), (0, 49)], [(8748, 0), (0, 8)], [(0, 1)]], 3, 4⟩,
    68719476736, 37037,
    3695444558133728382760093058277708664935750786501019928293161368115808633844487825340040785378, ⟨0, 1,
    3753565140580495, [110330687476, 586335, 4]⟩⟩) (.sy (.sx (.leaf ⟨71183, 16, 49551, 20901, 16, 20445,
    ⟨[[(69348622336, 0)], [(415663915008, 0)]], 3, 4⟩, ⟨[[(0, 325442243568), (0, 2758599935610), (0, 642639167), (0,
    524438), (0, 449)], [(0, 213338294159), (0, 83820894), (0, 79817), (0, 87)], [(0, 2078370), (0, 4041), (0, 6)],
    [(0, 67)]], 3, 4⟩, 1099511627776, 0, 10445788, ⟨[[(36245466996113, 0), (847110630, 0), (134088, 0), (0, 45)],
    [(440962571, 0), (36000, 0), (0, 6)], [(2190, 0), (0, 1)]], 3, 4⟩, 68719476736, 4358,
    3655216368637923668461982743374301225706839674482181700227306393609137961443495350670146728453, ⟨0, 1,
    7516652346442853, [110199324946, 292627, 1]⟩⟩) (.sy (.leaf ⟨71214, 16, 49551, 27571, 16, 26986, ⟨[[(68929191936,
    0)], [(415663915008, 0)]], 3, 4⟩, ⟨[[(504289945336, 0), (0, 1823852628441), (0, 213446218), (0, 87266), (0, 37)],
    [(0, 281876599907), (0, 55599304), (0, 26549), (0, 15)], [(0, 2757161), (0, 2687), (0, 2)], [(0, 89)]], 3, 4⟩,
    1099511627776, 0, 13768763, ⟨[[(36248307745118, 0), (640015622, 0), (77868, 0), (0, 20)], [(440637206, 0),
    (27351, 0), (0, 3)], [(2194, 0), (0, 1)]], 3, 4⟩, 68719476736, 6047,
    3840974569812162794781616460035920217985057945974788700208346159249707824338857252531720041133, ⟨0, 1,
    9933391143789542, [145392245789, 385912, 1]⟩⟩) (.sx (.leaf ⟨142413, 16, 99102, 41703, 16, 40824, ⟨[[(0,
    411687714816)], [(415663915008, 0)]], 3, 4⟩, ⟨[[(0, 479307024576), (0, 2761252444024), (0, 324456497), (0,
    132927), (0, 57)], [(0, 213376395260), (0, 42213063), (0, 20215), (0, 11)], [(0, 1046781), (0, 1023), (0, 1)],
    [(0, 17)]], 3, 4⟩, 1099511627776, 0, 20770240, ⟨[[(36242475626884, 0), (422528012, 0), (34143, 0), (0, 6)],
    [(220248047, 0), (9052, 0), (0, 1)], [(550, 0)]], 3, 4⟩, 68719476736, 2295,
    3861079818258862742212781692756029924105752351093321472114064564436902127629491346965675954342, ⟨0, 1,
    15022570066901699, [109985530372, 145982, 0]⟩⟩) (.sy (.leaf ⟨142444, 16, 99102, 55062, 16, 53918, ⟨[[(0,
    412107145216)], [(415663915008, 0)]], 3, 4⟩, ⟨[[(342900459120, 0), (0, 1825096927407), (0, 107481382), (0,
    22039), (0, 5)], [(0, 281958602821), (0, 27947132), (0, 6701), (0, 2)], [(0, 1386027), (0, 678)], [(0, 23)]], 3,
    4⟩, 1099511627776, 0, 27458599, ⟨[[(36243888767518, 0), (319464749, 0), (19691, 0), (0, 3)], [(220165997, 0),
    (6864, 0)], [(550, 0)]], 3, 4⟩, 68719476736, 3997,
    3956886372570805861311989027636330262625639183884527150998062699935504892131224833842845231485, ⟨0, 1,
    19852859992544745, [145230973285, 192721, 0]⟩⟩) (.sx (.leaf ⟨284869, 16, 198202, 83307, 16, 81583, ⟨[[(0,
    136293908480)], [(415659720704, 0)]], 3, 4⟩, ⟨[[(367984667216, 0), (0, 2762629349729), (0, 163022499), (0,
    33462), (0, 7)], [(0, 213398874553), (0, 21183200), (0, 5087), (0, 1)], [(0, 525314), (0, 257)], [(0, 4)]], 3,
    4⟩, 1099511627776, 0, 41432824, ⟨[[(36240640734740, 0), (210976685, 0), (8618, 0), (0, 1)], [(110063836, 0),
    (2270, 0)], [(138, 0)]], 3, 4⟩, 68719476736, 1635,
    3966987597289303626395359480967508540158648271193494558824379924866541449343817946254199575501, ⟨0, 1,
    30034737534866609, [109880032282, 72909, 0]⟩⟩) (.skip)))))) (.sx (.sy (.leaf ⟨71183, 16, 49551, 27555, 16, 26969,
    ⟨[[(69348622336, 0)], [(415663915008, 0)]], 3, 4⟩, ⟨[[(231566025048, 0), (0, 1823270416725), (0, 214279213), (0,
    87818), (0, 38)], [(0, 281914248259), (0, 55761374), (0, 26713), (0, 15)], [(0, 2765736), (0, 2703), (0, 2)],
    [(0, 90)]], 3, 4⟩, 1099511627776, 0, 13793665, ⟨[[(36235525515860, 0), (639783598, 0), (77991, 0), (0, 20)],
    [(440538453, 0), (27399, 0), (0, 3)], [(2201, 0), (0, 1)]], 3, 4⟩, 68719476736, 5745,
    3880969660075875667939755519889090155624018386845610942783090956007311134090758828158432603050, ⟨0, 1,
    9915216294018943, [145363932231, 386005, 1]⟩⟩) (.sx (.leaf ⟨142351, 16, 99102, 41682, 16, 40802, ⟨[[(0,
    410848854016)], [(415663915008, 0)]], 3, 4⟩, ⟨[[(0, 233504852464), (0, 2760633330318), (0, 325756298), (0,
    133781), (0, 58)], [(0, 213424788185), (0, 42340507), (0, 20342), (0, 11)], [(0, 1050145), (0, 1029), (0, 1)],
    [(0, 17)]], 3, 4⟩, 1099511627776, 0, 20752373, ⟨[[(36229444620998, 0), (422294723, 0), (34200, 0), (0, 6)],
    [(220193148, 0), (9068, 0), (0, 1)], [(551, 0)]], 3, 4⟩, 68719476736, 2313,
    3900618644343842672647889845480839206413742632864145456159364445170883551358749710700899702883, ⟨0, 1,
    14996442591731425, [109974136478, 146031, 0]⟩⟩) (.skip))) (.sy (.sx (.sy (.leaf ⟨142413, 16, 99102, 55046, 16,
    53901, ⟨[[(0, 411687714816)], [(415663915008, 0)]], 3, 4⟩, ⟨[[(68450156352, 0), (0, 1824810174694), (0,
    107691742), (0, 22109), (0, 5)], [(0, 281977811299), (0, 27988061), (0, 6722), (0, 2)], [(0, 1388191), (0, 680)],
    [(0, 23)]], 3, 4⟩, 1099511627776, 0, 27445373, ⟨[[(36237498728710, 0), (319406236, 0), (19706, 0), (0, 3)],
    [(220141216, 0), (6869, 0)], [(551, 0)]], 3, 4⟩, 68719476736, 4062,
    3977037372698413602606740445648515274641547601134884588718331281365233710174032587390192952592, ⟨0, 1,
    19834694032335599, [145216786023, 192744, 0]⟩⟩) (.skip)) (.skip)) (.skip))))))))
theorem c42 : checkC job ⟨6, 8, 8, 10, 9, 13⟩ 3 100 lims t42 11735 41 8192 1071 3 2048 = true := by decide +kernel

def t43 : CTree :=
  .sx (.sy (.leaf ⟨8856, 16, 6193, 3491, 16, 3396, ⟨[[(0, 60867739648)], [(415605194752, 0)]], 3, 4⟩, ⟨[[(0,
    388951689496), (0, 1803367032955), (0, 1615938407), (0, 5195942), (0, 17460)], [(0, 281124579809), (0,
    426893356), (0, 1589351), (0, 6777), (0, 28)], [(0, 21176096), (0, 161756), (0, 974), (0, 5)], [(0, 5403), (0,
    62), (0, 1)]], 3, 4⟩, 1099511627776, 0, 6616188, ⟨[[(36200993566975, 0), (5208777008, 0), (4438914, 0), (0,
    7381), (25, 0)], [(3549921687, 0), (1698979, 0), (0, 1838), (0, 5)], [(138345, 0), (0, 491), (0, 2)], [(0, 60)]],
    3, 4⟩, 68719476736, 302306,
    3083042928518811713058368952610434206536263471629950473565196994673275902450696147081718262532, ⟨0, 1,
    1232751012027546, [147109230369, 3139469, 89]⟩⟩) (.sx (.leaf ⟨17698, 16, 12387, 5260, 16, 5124, ⟨[[(0,
    197467832320)], [(415638749184, 0)]], 3, 4⟩, ⟨[[(0, 170151776119), (0, 2737401444993), (0, 2532725923), (0,
    8275823), (0, 28062)], [(0, 213381108416), (0, 331695225), (0, 1262974), (0, 5460), (0, 23)], [(0, 8234712), (0,
    64099), (0, 393), (0, 2)], [(0, 1068), (0, 12)]], 3, 4⟩, 1099511627776, 0, 3277956, ⟨[[(36148450132861, 0),
    (3414417202, 0), (2004617, 0), (0, 2281), (5, 0)], [(1769573591, 0), (571179, 0), (0, 378), (0, 1)], [(35532, 0),
    (0, 78)], [(0, 8)]], 3, 4⟩, 68719476736, 58736,
    3207121621630849924779089469932880736825860326517366971324268679341184116368297487166393853242, ⟨0, 1,
    1855464303149854, [111078890781, 1186309, 17]⟩⟩) (.sy (.leaf ⟨17729, 16, 12387, 6900, 16, 6737, ⟨[[(0,
    199950860288)], [(415638749184, 0)]], 3, 4⟩, ⟨[[(0, 471820929147), (0, 1812560685686), (0, 854639006), (0,
    1407023), (0, 2406)], [(0, 281684896878), (0, 222538171), (0, 428545), (0, 936), (0, 2)], [(0, 11048903), (0,
    43403), (0, 135)], [(0, 1444), (0, 9)]], 3, 4⟩, 1099511627776, 0, 4198897, ⟨[[(36162358880276, 0), (2573092997,
    0), (1203497, 0), (0, 1130), (2, 0)], [(1764886409, 0), (437767, 0), (0, 211)], [(35685, 0), (0, 52)], [(0, 7)]],
    3, 4⟩, 68719476736, 62903,
    3909213822684151631554120005668044565955915239657671454862582958408060647851507639320786463827, ⟨0, 1,
    2451516996411424, [145790410547, 1554302, 22]⟩⟩) (.skip)))) (.sy (.sx (.sy (.leaf ⟨17760, 16, 12387, 6916, 16,
    6754, ⟨[[(0, 202433888256)], [(415638749184, 0)]], 3, 4⟩, ⟨[[(0, 250344018836), (0, 1814921466392), (0,
    841465175), (0, 1372285), (0, 2339)], [(0, 281540456325), (0, 219970360), (0, 418187), (0, 909), (0, 2)], [(0,
    10912885), (0, 42392), (0, 131)], [(0, 1411), (0, 8)]], 3, 4⟩, 1099511627776, 0, 4129931, ⟨[[(36213465486577, 0),
    (2576736004, 0), (1195547, 0), (0, 1146), (2, 0)], [(1766466315, 0), (434124, 0), (0, 222)], [(35117, 0), (0,
    50)], [(0, 6)]], 3, 4⟩, 68719476736, 51249,
    3770651306583547215993602596631738156469157243026652724814431595430882211717023869942033118688, ⟨0, 1,
    2469677616226808, [145903192209, 1552789, 22]⟩⟩) (.sx (.leaf ⟨35506, 16, 24775, 10443, 16, 10206, ⟨[[(0,
    477160800256)], [(415655526400, 0)]], 3, 4⟩, ⟨[[(451019729110, 0), (0, 2751076722794), (0, 1296256851), (0,
    2131260), (0, 3650)], [(0, 213382552977), (0, 168711222), (0, 324407), (0, 710), (0, 1)], [(0, 4186759), (0,
    16422), (0, 51)], [(0, 273), (0, 2)]], 3, 4⟩, 1099511627776, 0, 5358974, ⟨[[(36186587130057, 0), (1694742123, 0),
    (532205, 0), (0, 343)], [(881800855, 0), (144630, 0), (0, 46)], [(8879, 0), (0, 8)], [(0, 1)]], 3, 4⟩,
    68719476736, 37865,
    3841944714786399626514352509029950879125773278037228568016564008375338849550813234173393601785, ⟨0, 1,
    3727420311765587, [110285610143, 587119, 4]⟩⟩) (.skip))) (.sy (.sx (.sy (.sx (.leaf ⟨71121, 16, 49551, 20879, 16,
    20422, ⟨[[(70187483136, 0)], [(415663915008, 0)]], 3, 4⟩, ⟨[[(0, 89988991792), (0, 2757192594103), (0,
    647741629), (0, 531152), (0, 455)], [(0, 213423086696), (0, 84320289), (0, 80816), (0, 88)], [(0, 2091571), (0,
    4090), (0, 6)], [(0, 68)]], 3, 4⟩, 1099511627776, 0, 10431239, ⟨[[(36219415787809, 0), (846234138, 0), (134559,
    0), (0, 45)], [(440744705, 0), (36136, 0), (0, 6)], [(2205, 0), (0, 1)]], 3, 4⟩, 68719476736, 3335,
    3732212278834850737718227510130453399172164163088881064534194782608320308233349448271591305377, ⟨0, 1,
    7490136118051440, [110171311412, 292808, 1]⟩⟩) (.sy (.leaf ⟨71152, 16, 49551, 27540, 16, 26953, ⟨[[(69768052736,
    0)], [(415663915008, 0)]], 3, 4⟩, ⟨[[(0, 7940373852), (0, 1822762195867), (0, 215126006), (0, 88377), (0, 38)],
    [(0, 281962762880), (0, 55926715), (0, 26880), (0, 15)], [(0, 2774473), (0, 2719), (0, 2)], [(0, 90)]], 3, 4⟩,
    1099511627776, 0, 13751133, ⟨[[(36222732658377, 0), (639523508, 0), (78107, 0), (0, 20)], [(440438772, 0),
    (27447, 0), (0, 3)], [(2208, 0), (0, 1)]], 3, 4⟩, 68719476736, 5280,
    3920045588521715520302954727205789365085802428112090087875367235980509258157793170699227128097, ⟨0, 1,
    9897418490957580, [145340986388, 386112, 1]⟩⟩) (.skip))) (.skip)) (.skip)) (.skip))) (.skip))
theorem c43 : checkC job ⟨6, 8, 8, 10, 9, 13⟩ 3 100 lims t43 11735 41 8192 1077 3 2048 = true := by decide +kernel

def t44 : CTree :=
  .sx (.sy (.sy (.sx (.leaf ⟨8794, 16, 6193, 2669, 16, 2584, ⟨[[(0, 50398756864)], [(415605194752, 0)]], 3, 4⟩,
    ⟨[[(310647885204, 0), (0, 2711637013312), (0, 4835793281), (0, 31231124), (0, 207894)], [(0, 213492047822), (0,
    641391246), (0, 4792301), (0, 40511), (0, 325)], [(0, 15933599), (0, 244539), (0, 2919), (0, 32)], [(0, 4097),
    (0, 92), (0, 2)]], 3, 4⟩, 1099511627776, 0, 5652867, ⟨[[(36067932606857, 0), (6896930568, 0), (7299923, 0), (0,
    12962), (52, 0)], [(3560956642, 0), (2243748, 0), (0, 3180), (0, 10)], [(142771, 0), (0, 830), (0, 2)], [(0, 88),
    (1, 0)]], 3, 4⟩, 68719476736, 610797,
    2180977539589099945149421905973006483778045279045851781359162679373328210933605163600760331759, ⟨0, 1,
    919572449798833, [112723754816, 2422604, 69]⟩⟩) (.sy (.leaf ⟨8825, 16, 6193, 3474, 16, 3379, ⟨[[(0,
    55633248256)], [(415605194752, 0)]], 3, 4⟩, ⟨[[(539325349992, 0), (0, 1798305233039), (0, 1665935259), (0,
    5458375), (0, 18451)], [(0, 281378749606), (0, 436653773), (0, 1667703), (0, 7192), (0, 30)], [(0, 21695654), (0,
    169407), (0, 1037), (0, 6)], [(0, 5651), (0, 66), (0, 1)]], 3, 4⟩, 1099511627776, 0, 6875094, ⟨[[(36093546034632,
    0), (5185877635, 0), (4528553, 0), (0, 7279), (23, 0)], [(3541980779, 0), (1737467, 0), (0, 1717), (0, 6)],
    [(144500, 0), (0, 529), (0, 2)], [(0, 78)]], 3, 4⟩, 68719476736, 317395,
    3315186633143534274370555246493837966306427641353023472644674039603428737149482664373934010664, ⟨0, 1,
    1214556372633163, [146886912640, 3145734, 90]⟩⟩) (.skip))) (.sx (.sy (.leaf ⟨8794, 16, 6193, 3458, 16, 3362,
    ⟨[[(0, 50398756864)], [(415605194752, 0)]], 3, 4⟩, ⟨[[(440844086346, 0), (0, 1793631531946), (0, 1718699754), (0,
    5732941), (0, 19476)], [(0, 281657511445), (0, 446991542), (0, 1750279), (0, 7625), (0, 31)], [(0, 22243555), (0,
    177514), (0, 1103), (0, 6)], [(0, 5915), (0, 70), (0, 1)]], 3, 4⟩, 1099511627776, 0, 7106018, ⟨[[(35991518476518,
    0), (5171068359, 0), (4594371, 0), (0, 7037), (22, 0)], [(3535408355, 0), (1775859, 0), (0, 1615), (0, 8)],
    [(151731, 0), (0, 585), (0, 2)], [(0, 96), (1, 0)]], 3, 4⟩, 68719476736, 326919,
    3480481871196666429118914610861610709807551261720556174675886063729095991857989188454368454387, ⟨0, 1,
    1196440625473560, [146663027744, 3152010, 90]⟩⟩) (.skip)) (.skip))) (.skip)) (.skip)
theorem c44 : checkC job ⟨6, 8, 8, 10, 9, 13⟩ 3 100 lims t44 5847 41 4096 273 3 512 = true := by decide +kernel

def t45 : CTree :=
  .sx (.sy (.sx (.leaf ⟨2117, 16, 1548, 709, 16, 665, ⟨[[(0, 237296943104)], [(415538085888, 0)]], 3, 4⟩,
    ⟨[[(326814495465, 0), (0, 2562630644960), (0, 15914980906), (0, 403573445), (0, 10137398)], [(0, 213774088271),
    (0, 2231290649), (0, 63829769), (0, 2024795), (0, 57247)], [(0, 55593382), (0, 3351910), (0, 148582), (0, 5619),
    (0, 183)], [(0, 57898), (0, 4753), (0, 269), (0, 12)]], 3, 4⟩, 1099511627776, 0, 340854787, ⟨[[(35507933507479,
    0), (28429370560, 0), (100130446, 0), (0, 350330), (1583, 0)], [(14640711352, 0), (36966531, 0), (0, 314004),
    (2129, 0), (34, 0)], [(2588011, 0), (0, 104259), (1693, 0), (0, 7)], [(0, 10666), (461, 0), (0, 8)]], 3, 4⟩,
    68719476736, 118765879,
    748731687651105210292809803715395785554789826263192523504627858072048778720269900177021292267, ⟨0, 0,
    211203329034448, [120498618226, 10756884, 1280]⟩⟩) (.sy (.leaf ⟨2148, 16, 1548, 884, 16, 844, ⟨[[(0,
    248034361344)], [(415538085888, 0)]], 3, 4⟩, ⟨[[(282901175099, 0), (0, 1718499419667), (0, 6269648585), (0,
    83370817), (0, 1089634)], [(0, 279294413262), (0, 1668638263), (0, 25843428), (0, 432240), (0, 6518)], [(0,
    83401360), (0, 2656324), (0, 63066), (0, 1295), (0, 23)], [(0, 89752), (0, 4021), (0, 127), (0, 3)]], 3, 4⟩,
    1099511627776, 0, 367785815, ⟨[[(35610825745748, 0), (21305467350, 0), (65215687, 0), (0, 205599), (1041, 0)],
    [(14341069491, 0), (29917921, 0), (0, 161117), (0, 459), (41, 0)], [(2839154, 0), (0, 75255), (535, 0), (9, 0)],
    [(0, 10973), (342, 0), (0, 4)]], 3, 4⟩, 68719476736, 50524632,
    2360675191026549898247034213757984412521673392041931528087475919647355221659615864802074389943, ⟨0, 0,
    280503190234418, [150726906131, 13261209, 1556]⟩⟩) (.skip))) (.skip)) (.skip)
theorem c45 : checkC job ⟨6, 8, 8, 10, 9, 13⟩ 3 100 lims t45 1431 41 1024 141 3 256 = true := by decide +kernel

def t46 : CTree :=
  .sy (.sx (.sy (.leaf ⟨880, 16, 774, 557, 16, 437, ⟨[[(217969590272, 0)], [(415538085888, 0)]], 3, 4⟩,
    ⟨[[(379304893944, 0), (0, 2253009423323), (0, 3280337048), (0, 110925176), (0, 2876900)], [(0, 244700354404), (0,
    1344131506), (0, 25211208), (0, 744421), (0, 31574)], [(0, 12001526), (0, 1932397), (0, 71780), (0, 3624), (0,
    177)], [(0, 53261), (0, 2969), (0, 205), (0, 13), (0, 1)]], 3, 4⟩, 1099511627776, 0, 319308878,
    ⟨[[(34516328991719, 0), (61184020276, 0), (153046413, 0), (0, 326147), (5067, 0)], [(36074039470, 0), (83223382,
    0), (0, 238338), (7208, 0), (0, 142)], [(670448, 0), (0, 131266), (3825, 0), (0, 97), (2, 0)], [(0, 14109), (928,
    0), (0, 33), (1, 0)]], 3, 4⟩, 68719476736, 608101403,
    386062550979880852437811714125767822675014230795595407732152322446030957995805413439860375552, ⟨0, 0,
    57024951227737, [190431129187, 40882595, 11702]⟩⟩) (.leaf ⟨880, 16, 774, 524, 16, 420, ⟨[[(217969590272, 0)],
    [(415538085888, 0)]], 3, 4⟩, ⟨[[(0, 309286843948), (0, 2217969311220), (0, 5978952383), (0, 230668476), (0,
    8707037)], [(0, 244009932255), (0, 1696199425), (0, 47265157), (0, 2114643), (0, 99530)], [(0, 26200632), (0,
    3266007), (0, 189040), (0, 11409), (0, 567)], [(0, 79146), (0, 7320), (0, 634), (0, 42), (0, 2)]], 3, 4⟩,
    1099511627776, 0, 791495546, ⟨[[(33816870547474, 0), (59719378490, 0), (184592561, 0), (0, 811114), (14783, 0)],
    [(35044593831, 0), (96766686, 0), (0, 704407), (19612, 0), (0, 363)], [(2945828, 0), (0, 286021), (9751, 0), (0,
    235), (4, 0)], [(0, 31114), (2185, 0), (0, 76), (2, 0)]], 3, 4⟩, 68719476736, 1597980862,
    714700613579201434502923700889246410370012919884759977692333731247764554324229161066269300132, ⟨0, 0,
    54806589280663, [183023053224, 39292197, 11247]⟩⟩)) (.sy (.leaf ⟨911, 16, 774, 519, 16, 421, ⟨[[(207232172032,
    0)], [(415538085888, 0)]], 3, 4⟩, ⟨[[(285108888783, 0), (0, 2291088921335), (0, 5752629604), (0, 197840460), (0,
    6856183)], [(0, 238771176136), (0, 1672768099), (0, 40988996), (0, 1634491), (0, 76014)], [(0, 26105549), (0,
    2856917), (0, 144959), (0, 8408), (0, 423)], [(0, 68899), (0, 5587), (0, 455), (0, 30), (0, 2)]], 3, 4⟩,
    1099511627776, 0, 596576344, ⟨[[(34522477907527, 0), (60182163925, 0), (178405174, 0), (0, 597531), (10860, 0)],
    [(34618895579, 0), (88571695, 0), (0, 493271), (14557, 0), (0, 280)], [(1994636, 0), (0, 213485), (7318, 0), (0,
    184), (3, 0)], [(0, 23002), (1662, 0), (0, 60), (1, 0)]], 3, 4⟩, 68719476736, 1198469725,
    657886634716600638181247908035496441673449687421831153092834577057154908150150247759190487281, ⟨0, 0,
    69721931290305, [177219244033, 36752228, 10162]⟩⟩) (.sx (.leaf ⟨1807, 16, 1548, 702, 16, 578, ⟨[[(0,
    129922760704)], [(415538085888, 0)]], 3, 4⟩, ⟨[[(0, 214633996049), (0, 3215635383688), (0, 13453739143), (0,
    571867946), (0, 24170482)], [(0, 170810609516), (0, 1513668079), (0, 54761712), (0, 2836800), (0, 137548)], [(0,
    14975910), (0, 1755324), (0, 121931), (0, 7731), (0, 388)], [(0, 19233), (0, 2270), (0, 210), (0, 14), (0, 1)]],
    3, 4⟩, 1099511627776, 0, 449545994, ⟨[[(33817008633907, 0), (41186575162, 0), (108634743, 0), (0, 487633), (6497,
    0)], [(16916072347, 0), (38344004, 0), (0, 306881), (5927, 0), (0, 76)], [(1286351, 0), (0, 79127), (2017, 0),
    (0, 34)], [(0, 5962), (306, 0), (0, 8)]], 3, 4⟩, 68719476736, 286015183,
    514591131722220579702813890293777872842174089690256807359562324024942635890211136918900659856, ⟨0, 0,
    90713603925794, [122697323420, 12831764, 1789]⟩⟩) (.leaf ⟨1838, 16, 1548, 663, 16, 556, ⟨[[(0, 140660178944)],
    [(415538085888, 0)]], 3, 4⟩, ⟨[[(0, 285282617996), (0, 3225325921566), (0, 18174554017), (0, 832289090), (0,
    37039368)], [(0, 167080151907), (0, 1783550751), (0, 76651464), (0, 4268690), (0, 209867)], [(0, 19623479), (0,
    2349656), (0, 179578), (0, 11654), (0, 589)], [(0, 24293), (0, 3267), (0, 312), (0, 21), (0, 1)]], 3, 4⟩,
    1099511627776, 0, 679244974, ⟨[[(33819640903774, 0), (41089051438, 0), (128779100, 0), (0, 738592), (10013, 0)],
    [(16500522481, 0), (43577925, 0), (0, 459375), (8905, 0), (0, 114)], [(1814584, 0), (0, 110198), (2929, 0), (0,
    50), (1, 0)], [(0, 8010), (426, 0), (0, 11)]], 3, 4⟩, 68719476736, 451268402,
    1280269027070193495536847261527335527740180655669053062784401307415433009155067721892351652283, ⟨0, 0,
    96857006227028, [116037006440, 11930599, 1636]⟩⟩)))) (.sx (.sy (.sx (.leaf ⟨1745, 16, 1548, 712, 16, 579, ⟨[[(0,
    108447924224)], [(415538085888, 0)]], 3, 4⟩, ⟨[[(0, 535460482282), (0, 3135389913422), (0, 14893631105), (0,
    691633845), (0, 29894411)], [(0, 175357987686), (0, 1606752136), (0, 66829574), (0, 3642561), (0, 174130)], [(0,
    16186216), (0, 2144874), (0, 161189), (0, 10236), (0, 501)], [(0, 23530), (0, 3071), (0, 289), (0, 19), (0, 1)]],
    3, 4⟩, 1099511627776, 0, 556458159, ⟨[[(33121773671199, 0), (40557141124, 0), (115597119, 0), (0, 641796), (8420,
    0)], [(17085610776, 0), (43250375, 0), (0, 411327), (7606, 0), (0, 95)], [(1763703, 0), (0, 103182), (2568, 0),
    (0, 42)], [(0, 7808), (388, 0), (0, 9)]], 3, 4⟩, 68719476736, 352446338,
    638508750910653537643973071530349499883156027897293204909427513451426460230634920005230812608, ⟨0, 0,
    70359537674598, [127275462352, 13783351, 1990]⟩⟩) (.leaf ⟨1776, 16, 1548, 669, 16, 555, ⟨[[(0, 119185342464)],
    [(415538085888, 0)]], 3, 4⟩, ⟨[[(414836829527, 0), (0, 3147352340851), (0, 20739870948), (0, 1026660036), (0,
    46139217)], [(0, 171137700980), (0, 1946044724), (0, 95935536), (0, 5535151), (0, 267262)], [(0, 21992023), (0,
    2957518), (0, 240634), (0, 15543), (0, 765)], [(0, 30657), (0, 4499), (0, 434), (0, 29), (0, 1)]], 3, 4⟩,
    1099511627776, 0, 849459732, ⟨[[(33086939605396, 0), (40176071150, 0), (144493769, 0), (0, 1051630), (14097, 0)],
    [(16569464804, 0), (51883712, 0), (0, 659398), (12293, 0), (0, 155)], [(2635065, 0), (0, 153153), (3975, 0), (0,
    66), (1, 0)], [(0, 11072), (570, 0), (0, 14)]], 3, 4⟩, 68719476736, 595926092,
    1907119277843445969815264376574421876508953567788463414581896821828973973126297753571555633297, ⟨0, 0,
    77359263811509, [119870835477, 12754930, 1810]⟩⟩)) (.sy (.sx (.leaf ⟨1745, 16, 1548, 925, 16, 767, ⟨[[(0,
    108447924224)], [(415538085888, 0)]], 3, 4⟩, ⟨[[(92112929817, 0), (0, 2202392943704), (0, 9655629358), (0,
    254939468), (0, 5777214)], [(0, 244220338553), (0, 1662057903), (0, 47945654), (0, 1424427), (0, 33879)], [(0,
    40114510), (0, 2945878), (0, 126632), (0, 4066), (0, 98)], [(0, 60177), (0, 4821), (0, 234), (0, 8)]], 3, 4⟩,
    1099511627776, 0, 319874224, ⟨[[(32588813943553, 0), (27867775858, 0), (87824854, 0), (0, 559803), (5316, 0)],
    [(16390865107, 0), (45292363, 0), (0, 488845), (6367, 0), (0, 57)], [(3791962, 0), (0, 153387), (2825, 0), (0,
    33)], [(0, 15296), (557, 0), (0, 10)]], 3, 4⟩, 68719476736, 131716670,
    2536469288754231768380107106890021818256305054932157081203058787275717450168328743434596502281, ⟨0, 0,
    93205121582757, [168601519212, 18258774, 2636]⟩⟩) (.sy (.sx (.leaf ⟨3536, 16, 3096, 1813, 16, 1521,
    ⟨[[(316753838080, 0)], [(415538085888, 0)]], 3, 4⟩, ⟨[[(347024941574, 0), (0, 2260544286245), (0, 5765659731),
    (0, 77718213), (0, 891560)], [(0, 244825803459), (0, 941530952), (0, 14382987), (0, 217179), (0, 2599)], [(0,
    23433487), (0, 868199), (0, 19075), (0, 309), (0, 4)], [(0, 17333), (0, 717), (0, 18)]], 3, 4⟩, 1099511627776, 0,
    37501241, ⟨[[(32667207049322, 0), (13608514296, 0), (24185107, 0), (0, 82929), (391, 0)], [(8036499506, 0),
    (12369178, 0), (0, 72418), (469, 0), (0, 2)], [(1108220, 0), (0, 22372), (207, 0), (0, 1)], [(0, 2206), (40,
    0)]], 3, 4⟩, 68719476736, 3731950,
    2212394737836739458448585447110819356054625274956540053209174936028989980871545682012455223861, ⟨0, 0,
    205256992661181, [164975167801, 8815602, 628]⟩⟩) (.skip)) (.skip))) (.skip))) (.sy (.sx (.sy (.leaf ⟨1807, 16,
    1548, 924, 16, 776, ⟨[[(0, 129922760704)], [(415538085888, 0)]], 3, 4⟩, ⟨[[(148988963239, 0), (0, 2270667984614),
    (0, 8455822975), (0, 212652420), (0, 4854128)], [(0, 240395737290), (0, 1505289704), (0, 38943028), (0, 1144033),
    (0, 27892)], [(0, 35229972), (0, 2350829), (0, 97759), (0, 3189), (0, 79)], [(0, 47457), (0, 3594), (0, 175), (0,
    6)]], 3, 4⟩, 1099511627776, 0, 236784976, ⟨[[(33272280543941, 0), (28183417462, 0), (76661592, 0), (0, 413387),
    (3914, 0)], [(16311661001, 0), (38056016, 0), (0, 365615), (4840, 0), (0, 43)], [(2862262, 0), (0, 118276),
    (2203, 0), (0, 26)], [(0, 11956), (442, 0), (0, 8)]], 3, 4⟩, 68719476736, 96576006,
    1100625746282147528991224048131142188883012813222773435008983783199072774844534379356725559066, ⟨0, 0,
    121788506308678, [164728586460, 17227420, 2402]⟩⟩) (.sy (.leaf ⟨1807, 16, 1548, 1116, 16, 947, ⟨[[(0,
    129922760704)], [(415538085888, 0)]], 3, 4⟩, ⟨[[(245970288984, 0), (0, 1441043256664), (0, 3664575568), (0,
    49110509), (0, 569982)], [(0, 302740890000), (0, 1181709903), (0, 17795179), (0, 270496), (0, 3287)], [(0,
    58717042), (0, 2109237), (0, 46378), (0, 760), (0, 9)], [(0, 82721), (0, 3411), (0, 84), (0, 1)]], 3, 4⟩,
    1099511627776, 0, 327012754, ⟨[[(33011409928972, 0), (21794671302, 0), (60995710, 0), (0, 324186), (2429, 0)],
    [(15911849690, 0), (38094887, 0), (0, 355641), (3711, 0), (0, 26)], [(4211714, 0), (0, 137744), (2066, 0), (0,
    20)], [(0, 16944), (504, 0), (0, 7)]], 3, 4⟩, 68719476736, 46189162,
    3214764126070970858286720227185907680678215074494995630247495609663227932727444063232467345209, ⟨0, 0,
    148625922002987, [201028313631, 21023668, 2932]⟩⟩) (.skip))) (.sy (.sy (.leaf ⟨1838, 16, 1548, 1121, 16, 957,
    ⟨[[(0, 140660178944)], [(415538085888, 0)]], 3, 4⟩, ⟨[[(338752465319, 0), (0, 1465721907110), (0, 3398441275),
    (0, 44426507), (0, 517676)], [(0, 301420583311), (0, 1115522512), (0, 15890034), (0, 240251), (0, 2955)], [(0,
    54581418), (0, 1867318), (0, 40390), (0, 667), (0, 8)], [(0, 72821), (0, 2920), (0, 72), (0, 1)]], 3, 4⟩,
    1099511627776, 0, 275796140, ⟨[[(33357209065409, 0), (21898128502, 0), (55633218, 0), (0, 268632), (1991, 0)],
    [(15910012216, 0), (34195033, 0), (0, 298870), (3123, 0), (0, 22)], [(3601250, 0), (0, 118408), (1777, 0), (0,
    17)], [(0, 14785), (441, 0), (0, 6)]], 3, 4⟩, 68719476736, 38347075,
    1747617393687542528016656073863609971071868678732140606799041875379169261378102532271984119866, ⟨0, 0,
    166712508919543, [199725566839, 20535222, 2815]⟩⟩) (.sx (.leaf ⟨3660, 16, 3096, 1753, 16, 1499, ⟨[[(273804165120,
    0)], [(415538085888, 0)]], 3, 4⟩, ⟨[[(0, 412857558547), (0, 2326671158515), (0, 6131908696), (0, 82377359), (0,
    963669)], [(0, 239724576952), (0, 971128057), (0, 14731165), (0, 225392), (0, 2761)], [(0, 24243721), (0,
    862419), (0, 19062), (0, 314), (0, 4)], [(0, 16690), (0, 692), (0, 17)]], 3, 4⟩, 1099511627776, 0, 35231372,
    ⟨[[(33190593336625, 0), (13662158030, 0), (24378894, 0), (0, 80948), (378, 0)], [(7890887056, 0), (11945149, 0),
    (0, 70876), (466, 0), (0, 2)], [(1054220, 0), (0, 21823), (207, 0), (0, 1)], [(0, 2130), (40, 0)]], 3, 4⟩,
    68719476736, 3571332,
    2443479001206059237308377750748760695887235528165681607429300705712260099482806967615952203310, ⟨0, 0,
    254703878091058, [157082571415, 8109580, 558]⟩⟩) (.skip))) (.skip))) (.skip)))
theorem c46 : checkC job ⟨6, 8, 8, 10, 9, 13⟩ 3 100 lims t46 1185 41 1024 39 3 64 = true := by decide +kernel

end PyX.Kron.S2a
