import Verif.Lemmas.P1hsJob

/-!
# Pressure from enthalpy and entropy in region 1, part F of the certificate
-/

namespace PyX.Kron.P1hs

set_option Elab.async false

def t28 : CTree :=
  .sx (.sy (.sy (.leaf ⟨945, 16, 2441, 1057, 16, 2476, ⟨[[(0, 81358979241345024), (100478834526459459, 0), (0,
    1775478638729), (306917989, 0), (9952, 0)], [(0, 358287171077814), (6212539880060, 0), (1195732925, 0), (218516,
    0), (41, 0)], [(2878363008866, 0), (1824314582, 0), (644518, 0), (185, 0)], [(678684479, 0), (624677, 0), (324,
    0)]], 3, 4⟩, ⟨[[(340599062243311616, 0), (85109572546352286, 0), (0, 3524832490659), (428842468, 0), (0, 12229)],
    [(22331909322840593, 0), (5262268577367, 0), (887880533, 0), (160523, 0), (30, 0)], [(2836473398606, 0),
    (1545267071, 0), (509240, 0), (142, 0)], [(620139514, 0), (529126, 0), (262, 0)]], 3, 4⟩, 1152921504606846976,
    526026548631071, 465183243948723, ⟨[[(6287746717559363, 0), (0, 370279356181384), (339409578638, 0), (1207901619,
    0), (1892991, 0)], [(313627768207654, 0), (0, 578383677518), (0, 1985241207), (0, 2390304), (0, 2200)],
    [(160849978344, 0), (1184317148, 0), (0, 30433), (0, 331), (0, 1)], [(0, 266155647), (1132191, 0), (353, 0)]], 3,
    4⟩, 281474976710656, 28659297751,
    5757494880581844628942347457069829253640261496224008137481588064036574995290758926876101444486000261426774905301290128144351676985156374103,
    lc0⟩) (.leaf ⟨974, 16, 2438, 1092, 16, 2497, ⟨[[(65454617223102464, 0), (99228637932054891, 0), (0,
    1442720579518), (324571869, 0), (16140, 0)], [(1970178666076986, 0), (7128707809128, 0), (1457044174, 0),
    (286223, 0), (58, 0)], [(3600110727263, 0), (2349718064, 0), (878349, 0), (268, 0)], [(941935801, 0), (904700,
    0), (492, 0)]], 3, 4⟩, ⟨[[(0, 49060461358088192), (83500223193226421, 0), (0, 3108027726761), (420011548, 0), (0,
    5323)], [(24495838785688639, 0), (5998759083532, 0), (1090026303, 0), (211689, 0), (42, 0)], [(3475587934902, 0),
    (1977271752, 0), (694275, 0), (206, 0)], [(849313795, 0), (761299, 0), (396, 0)]], 3, 4⟩, 1152921504606846976,
    1604191767732164, 1402677293122563, ⟨[[(6123064871265917, 0), (0, 366695066926516), (368787045314, 0),
    (1305817744, 0), (2061208, 0)], [(308579630956074, 0), (0, 606846942752), (0, 2148094479), (0, 2590365), (0,
    2408)], [(168231317005, 0), (1280558909, 0), (0, 24064), (0, 376), (0, 1)], [(0, 285353105), (1188216, 0), (386,
    0)]], 3, 4⟩, 281474976710656, 29875686008,
    5954774383607808587134208660614931692179895767693784908780055172712459371891662663139643443557037872070203924087405629329022027753499463255,
    lc0⟩)) (.sy (.sx (.leaf ⟨1024, 16, 2487, 1250, 16, 2797, ⟨[[(0, 18364486385926144), (99818750454323785, 0), (0,
    1217031718054), (337665700, 0), (20462, 0)], [(2102132276458515, 0), (4032689576351, 0), (849508992, 0), (172700,
    0), (36, 0)], [(1099507169204, 0), (726143882, 0), (278623, 0), (87, 0)], [(155996022, 0), (152622, 0), (84,
    0)]], 3, 4⟩, ⟨[[(0, 421129137621303296), (90813671523999674, 0), (0, 3077191165029), (450421206, 0), (0, 474)],
    [(14693751731852777, 0), (3668883299762, 0), (693284787, 0), (139258, 0), (28, 0)], [(1136412281513, 0),
    (660635318, 0), (239157, 0), (72, 0)], [(151360262, 0), (138854, 0), (74, 0)]], 3, 4⟩, 1152921504606846976,
    71297371589028, 67812772601708, ⟨[[(6480808486685007, 0), (0, 327474319077006), (318837875481, 0), (1019726937,
    0), (1462666, 0)], [(297938498003014, 0), (0, 555455383455), (0, 1831877696), (0, 1993869), (0, 1683)],
    [(166943713817, 0), (1191345750, 0), (0, 12826), (0, 294), (0, 1)], [(0, 287778595), (1051594, 0), (318, 0)]], 3,
    4⟩, 281474976710656, 27594249239,
    5721484880700432579951250711440655851027281414504147150224966017692724944879792753166621725412323702094012643717146144973201851277671992919,
    lc0⟩) (.leaf ⟨1010, 16, 2452, 1237, 16, 2761, ⟨[[(75430454531194880, 0), (99420341515794877, 0), (0,
    979864217251), (379660178, 0), (30229, 0)], [(2625790989870653, 0), (4350922728642, 0), (986576517, 0), (218473,
    0), (49, 0)], [(1205480067173, 0), (838147826, 0), (344484, 0), (116, 0)], [(181836308, 0), (188112, 0), (111,
    0)]], 3, 4⟩, ⟨[[(0, 398676581998657536), (90561501724259884, 0), (0, 2857036495448), (482530296, 0), (7603, 0)],
    [(15075296499600005, 0), (3963234185123, 0), (812696235, 0), (177866, 0), (39, 0)], [(1239561993612, 0),
    (763464746, 0), (297227, 0), (97, 0)], [(176050098, 0), (171351, 0), (98, 0)]], 3, 4⟩, 1152921504606846976,
    146676186621795, 138862450575516, ⟨[[(5582793545059690, 0), (0, 329931578612904), (336326869252, 0), (1078460960,
    0), (1566531, 0)], [(300554396645758, 0), (0, 581548192945), (0, 1926392771), (0, 2125072), (0, 1819)],
    [(175211979885, 0), (1242860032, 0), (0, 16066), (0, 321), (0, 1)], [(0, 297514722), (1114217, 0), (343, 0)]], 3,
    4⟩, 281474976710656, 29215005594,
    4334165789205720546028542647719336207279898183916046181229398039581354352331178814593011819422769982773003030823299660870832808326827830412,
    lc0⟩)) (.sx (.leaf ⟨1050, 16, 2477, 1290, 16, 2826, ⟨[[(0, 78950120467202048), (98696366393258710, 0), (0,
    841791331824), (371428319, 0), (30313, 0)], [(3611039774976397, 0), (4678618203108, 0), (1056153979, 0), (231613,
    0), (51, 0)], [(1386299104555, 0), (953731379, 0), (388226, 0), (127, 0)], [(220511977, 0), (225640, 0), (130,
    0)]], 3, 4⟩, ⟨[[(152875723589943296, 0), (89746446035851545, 0), (0, 2629298821818), (461118494, 0), (9434, 0)],
    [(16235827317670916, 0), (4254354759268, 0), (872026630, 0), (188860, 0), (41, 0)], [(1414871537430, 0),
    (867245724, 0), (335010, 0), (107, 0)], [(212575438, 0), (205178, 0), (114, 0)]], 3, 4⟩, 1152921504606846976,
    195213942691266, 184092411465632, ⟨[[(6658844011104936, 0), (0, 323523846803307), (339747252595, 0), (1087980120,
    0), (1574069, 0)], [(294174655896841, 0), (0, 579334515957), (0, 1967907891), (0, 2145394), (0, 1821)],
    [(174563294240, 0), (1285737418, 0), (0, 7829), (0, 330), (0, 1)], [(0, 310196335), (1108008, 0), (345, 0)]], 3,
    4⟩, 281474976710656, 28941507212,
    5616463491690339636665637099528370691418612159845075285624571030954523026232122357298885947012703565092109215465886404618731332865962610263,
    lc0⟩) (.leaf ⟨1033, 16, 2436, 1273, 16, 2781, ⟨[[(426838904275468288, 0), (98234480373085740, 0), (0,
    552160882040), (428630884, 0), (44293, 0)], [(4251703129117984, 0), (5097572687449, 0), (1248723549, 0), (299922,
    0), (72, 0)], [(1536463002014, 0), (1121073504, 0), (492557, 0), (177, 0)], [(262060576, 0), (286519, 0), (181,
    0)]], 3, 4⟩, ⟨[[(18634455084433408, 0), (89383550497153703, 0), (0, 2358716871884), (505686016, 0), (21019, 0)],
    [(16690278448215163, 0), (4638281222551, 0), (1039886308, 0), (246718, 0), (58, 0)], [(1559030631644, 0),
    (1020064744, 0), (426993, 0), (150, 0)], [(251910679, 0), (260704, 0), (159, 0)]], 3, 4⟩, 1152921504606846976,
    417057998744248, 393114693549845, ⟨[[(5611875807460775, 0), (0, 326463547447487), (362293305914, 0), (1164791157,
    0), (1711893, 0)], [(297120539413044, 0), (0, 612312246560), (0, 2090790070), (0, 2317546), (0, 2000)],
    [(184905511390, 0), (1352172489, 0), (0, 11776), (0, 366), (0, 1)], [(0, 322584098), (1186922, 0), (377, 0)]], 3,
    4⟩, 281474976710656, 30960438403,
    4264663399304525748241634194996329725123535577812085409621505088079437747766419213433989026811135133951675174126569008739358263993833057420,
    lc0⟩)))) (.sy (.sy (.leaf ⟨924, 16, 2387, 1036, 16, 2416, ⟨[[(119681892560797696, 0), (99840192922054141, 0), (0,
    1411251979191), (364478899, 0), (22800, 0)], [(1139983266111627, 0), (7060279802274, 0), (1539948438, 0),
    (328033, 0), (72, 0)], [(3369746197069, 0), (2320627005, 0), (925541, 0), (305, 0)], [(879117094, 0), (890189,
    0), (518, 0)]], 3, 4⟩, ⟨[[(457518407527956480, 0), (84386093388932184, 0), (0, 3196558958935), (466052495, 0),
    (0, 2366)], [(23246807692706448, 0), (5967430684071, 0), (1159885383, 0), (244551, 0), (53, 0)], [(3272101298417,
    0), (1961420961, 0), (735704, 0), (235, 0)], [(796330904, 0), (752398, 0), (420, 0)]], 3, 4⟩,
    1152921504606846976, 2119227216394003, 1861210375092016, ⟨[[(4514526174124274, 0), (0, 376042430979128),
    (374947694755, 0), (1339480640, 0), (2147377, 0)], [(317847477956447, 0), (0, 626241961612), (0, 2168969731), (0,
    2677218), (0, 2529)], [(174144630485, 0), (1268579568, 0), (0, 38798), (0, 387), (0, 1)], [(0, 278735291),
    (1244376, 0), (400, 0)]], 3, 4⟩, 281474976710656, 31409616874,
    2558443240741221828255123585438882450780891764308515505500431580876484998073609322362715690253360301555592125483327324957399503753793620673,
    lc0⟩) (.sx (.leaf ⟨970, 16, 2426, 1182, 16, 2694, ⟨[[(0, 370617361190092800), (100110561730228271, 0), (0,
    1140438634691), (384803673, 0), (29302, 0)], [(1680502561417397, 0), (4020567049271, 0), (911278526, 0), (202516,
    0), (46, 0)], [(1039082163599, 0), (728058859, 0), (300425, 0), (102, 0)], [(147999903, 0), (153921, 0), (92,
    0)]], 3, 4⟩, ⟨[[(437845552975314944, 0), (91338202024795306, 0), (0, 3112278351584), (503064310, 0), (4844, 0)],
    [(13943655433210455, 0), (3668257964531, 0), (748221168, 0), (164465, 0), (37, 0)], [(1077357103798, 0),
    (664261452, 0), (259032, 0), (86, 0)], [(143961939, 0), (140434, 0), (81, 0)]], 3, 4⟩, 1152921504606846976,
    106875709387067, 101543241173973, ⟨[[(5064902460573630, 0), (0, 337855666985999), (327468117542, 0), (1061783339,
    0), (1552804, 0)], [(308180505520791, 0), (0, 577709004179), (0, 1878668759), (0, 2101021), (0, 1813)],
    [(173829525446, 0), (1201184529, 0), (0, 23608), (0, 310), (0, 1)], [(0, 286618483), (1121416, 0), (339, 0)]], 3,
    4⟩, 281474976710656, 29541495127,
    2641533485850528578231625387405493642240462958387635701323216050018029820877665498053743226138779310552662826148740246993107505213413116609,
    lc0⟩) (.leaf ⟨957, 16, 2393, 1170, 16, 2659, ⟨[[(0, 126555107745333248), (99752872449022455, 0), (0,
    888649170079), (434471494, 0), (41938, 0)], [(2180844948355752, 0), (4342263715105, 0), (1060033677, 0), (257002,
    0), (64, 0)], [(1140285151681, 0), (841920647, 0), (373590, 0), (138, 0)], [(172823339, 0), (191238, 0), (124,
    0)]], 3, 4⟩, ⟨[[(0, 42550000472031232), (91068212925400854, 0), (0, 2876930418332), (541336667, 0), (15323, 0)],
    [(14303540194771352, 0), (3964218642300, 0), (877827169, 0), (210590, 0), (52, 0)], [(1175421621075, 0),
    (768621563, 0), (323630, 0), (117, 0)], [(167629944, 0), (174588, 0), (109, 0)]], 3, 4⟩, 1152921504606846976,
    219866487180655, 208374238265329, ⟨[[(3980245230371998, 0), (0, 340126766182806), (346991134414, 0), (1126006288,
    0), (1667200, 0)], [(310487787898579, 0), (0, 606096906231), (0, 1977492804), (0, 2241514), (0, 1962)],
    [(182682591072, 0), (1251306235, 0), (0, 28075), (0, 340), (0, 1)], [(0, 295002580), (1186554, 0), (365, 0)]], 3,
    4⟩, 281474976710656, 31207123200,
    2082537940416266675036128169769963340675743666704535390738192269433384249055509730432457870306854625912220290991345855084273503427763992789,
    lc0⟩))) (.sx (.sy (.leaf ⟨995, 16, 2415, 1222, 16, 2721, ⟨[[(494915146142842880, 0), (99008284837479032, 0), (0,
    708376515549), (433450241, 0), (43708, 0)], [(3194213658659318, 0), (4720109285988, 0), (1157364623, 0), (280328,
    0), (69, 0)], [(1329547966634, 0), (977549005, 0), (433131, 0), (159, 0)], [(214310053, 0), (236540, 0), (152,
    0)]], 3, 4⟩, ⟨[[(0, 91155615252742144), (90241305164326584, 0), (0, 2603188432884), (524235609, 0), (18781, 0)],
    [(15480464920763007, 0), (4302153331765, 0), (961558972, 0), (230263, 0), (56, 0)], [(1359173634550, 0),
    (890989055, 0), (375450, 0), (134, 0)], [(206893341, 0), (215595, 0), (134, 0)]], 3, 4⟩, 1152921504606846976,
    307322325776414, 290411974877927, ⟨[[(4680877365997619, 0), (0, 332876613296181), (355757665196, 0), (1145743007,
    0), (1688011, 0)], [(303480512764618, 0), (0, 610335152557), (0, 2033699031), (0, 2277357), (0, 1979)],
    [(184196887849, 0), (1300817395, 0), (0, 19849), (0, 353), (0, 1)], [(0, 308357886), (1185858, 0), (371, 0)]], 3,
    4⟩, 281474976710656, 31061086978,
    2911375425326562064424390357204686842915795983815561323689336560076301427585763936152927848693601445045234424347323705029221335691931273921,
    lc0⟩) (.leaf ⟨1016, 16, 2392, 1255, 16, 2733, ⟨[[(0, 390419178866081792), (97740209101738686, 0), (0,
    214350067355), (503750889, 0), (64452, 0)], [(4953542655177812, 0), (5592661137014, 0), (1495895296, 0), (396956,
    0), (106, 0)], [(1715948086436, 0), (1336747932, 0), (641128, 0), (256, 0)], [(316600941, 0), (374837, 0), (263,
    0)]], 3, 4⟩, ⟨[[(0, 498286936952406016), (89006487942316886, 0), (0, 2043671417803), (565476062, 0), (37819, 0)],
    [(17190275352897502, 0), (5092920617133, 0), (1256458258, 0), (329563, 0), (87, 0)], [(1731118783322, 0),
    (1217300840, 0), (558559, 0), (219, 0)], [(303463598, 0), (341343, 0), (232, 0)]], 3, 4⟩, 1152921504606846976,
    889247558249718, 838108162956154, ⟨[[(4796529022856700, 0), (0, 330236360055213), (386223911049, 0), (1252562953,
    0), (1874518, 0)], [(300682823884337, 0), (0, 647416190711), (0, 2234592561), (0, 2523049), (0, 2219)],
    [(195760793866, 0), (1433255259, 0), (0, 15418), (0, 411), (0, 1)], [(0, 338721847), (1281384, 0), (416, 0)]], 3,
    4⟩, 281474976710656, 33389285256,
    2951866974515206459363469629052305444447957145564982077420345906164519214939946711085001356465658441404690973267062128116995174858701785793,
    lc0⟩)) (.sy (.leaf ⟨980, 16, 2376, 1206, 16, 2679, ⟨[[(95488802029436928, 0), (98593064645531472, 0), (0,
    394094343049), (503548467, 0), (62926, 0)], [(3815260169223538, 0), (5154115602862, 0), (1374693472, 0), (366972,
    0), (100, 0)], [(1476881400219, 0), (1155370926, 0), (557099, 0), (226, 0)], [(256346515, 0), (305111, 0), (216,
    0)]], 3, 4⟩, ⟨[[(380222739152896000, 0), (89928027527164899, 0), (0, 2310200120612), (579798525, 0), (34799, 0)],
    [(15927335234200303, 0), (4701136448885, 0), (1151897708, 0), (304210, 0), (82, 0)], [(1500968061490, 0),
    (1053828977, 0), (485278, 0), (193, 0)], [(246744326, 0), (278296, 0), (191, 0)]], 3, 4⟩, 1152921504606846976,
    644895261981848, 609276013889899, ⟨[[(4044034385863883, 0), (0, 336649442506920), (375096158656, 0), (1218598882,
    0), (1824036, 0)], [(307054795902971, 0), (0, 639424863721), (0, 2153383434), (0, 2450798), (0, 2166)],
    [(193170606865, 0), (1368872873, 0), (0, 23176), (0, 390), (0, 1)], [(0, 322147024), (1268660, 0), (405, 0)]], 3,
    4⟩, 281474976710656, 33214661502,
    1504482486798351078971611439690590166329747568673720735622990082888068744722229279181941583781408232749593142300929154180882394134584502518,
    lc0⟩) (.leaf ⟨996, 16, 2342, 1234, 16, 2681, ⟨[[(0, 532209471374360576), (97104556207868934, 0), (185375765410,
    0), (604237783, 0), (94607, 0)], [(5721919909491799, 0), (6180922313833, 0), (1820364449, 0), (539284, 0), (161,
    0)], [(1932554527477, 0), (1621576832, 0), (857662, 0), (381, 0)], [(389923951, 0), (503439, 0), (384, 0)]], 3,
    4⟩, ⟨[[(377291326795022336, 0), (88597093679177611, 0), (0, 1670837930619), (647483663, 0), (63212, 0)],
    [(17741477335728100, 0), (5639403284952, 0), (1543761460, 0), (452466, 0), (134, 0)], [(1940154589732, 0),
    (1479508275, 0), (751795, 0), (327, 0)], [(372997809, 0), (459332, 0), (341, 0)]], 3, 4⟩, 1152921504606846976,
    1872839714210054, 1768142050162463, ⟨[[(4208775770462038, 0), (0, 335146536071851), (409946661298, 0),
    (1346962531, 0), (2056050, 0)], [(305656775040677, 0), (0, 684007111478), (0, 2395436264), (0, 2759261), (0,
    2476)], [(207266255370, 0), (1529177717, 0), (0, 18953), (0, 462), (0, 1)], [(0, 359374089), (1396387, 0), (464,
    0)]], 3, 4⟩, 281474976710656, 36415053636,
    2047773502135873361395920624054309439637394848397002659324373575984118028916576508471535882632919813878921917571349408341184301077819566326,
    lc0⟩))))
theorem c28 : checkC job ⟨6, 8, 6, 7, 9, 13⟩ 3 200 B1.zlims t28 1909 121 320 2909 175 3792 = true := by decide +kernel

def t29 : CTree :=
  .sy (.sx (.sy (.leaf ⟨728, 16, 2177, 858, 16, 2226, ⟨[[(162721154786000896, 0), (97421197265351768, 0), (0,
    2371470289102), (314270568, 0), (5426, 0)], [(0, 5215389298347130), (4166724890498, 0), (783749496, 0), (143953,
    0), (25, 0)], [(1406316624179, 0), (936901066, 0), (329036, 0), (92, 0)], [(266803160, 0), (245521, 0), (125,
    0)]], 3, 4⟩, ⟨[[(0, 327663442927157248), (89512187314596659, 0), (0, 4764732377231), (550198760, 0), (0, 27719)],
    [(16056531965800526, 0), (3828454888219, 0), (609527202, 0), (112122, 0), (19, 0)], [(1571930593284, 0),
    (860840003, 0), (277456, 0), (75, 0)], [(269490137, 0), (225589, 0), (108, 0)]], 3, 4⟩, 1152921504606846976,
    71755895748930, 71142152345425, ⟨[[(2473872089964222, 0), (0, 401393208698266), (300777174181, 0), (1143074162,
    0), (1897604, 0)], [(368832774100895, 0), (0, 613532508127), (0, 1896786466), (0, 2481348), (0, 2345)],
    [(183783491325, 0), (1121983375, 0), (0, 95213), (0, 338), (0, 1)], [(0, 257548682), (1416025, 0), (383, 0)]], 3,
    4⟩, 281474976710656, 38007116778,
    6101908952800703389451057181071739537054683972277641008140821151129331663051375770465240018105327074337460138910030502645082186059881954411,
    lc0⟩) (.leaf ⟨777, 16, 2233, 903, 16, 2274, ⟨[[(0, 45381738167926784), (98344100142898357, 0), (0,
    2088734020890), (333597266, 0), (10769, 0)], [(0, 3748452007370027), (4895772952358, 0), (980456219, 0), (191243,
    0), (37, 0)], [(1824638502601, 0), (1236674186, 0), (457681, 0), (138, 0)], [(379895384, 0), (363080, 0), (196,
    0)]], 3, 4⟩, ⟨[[(546667386537115648, 0), (88237201909971681, 0), (0, 4296039938483), (528385695, 0), (0, 19737)],
    [(17853119824465292, 0), (4392630629340, 0), (759123467, 0), (147384, 0), (28, 0)], [(1951928847843, 0),
    (1109580236, 0), (380189, 0), (111, 0)], [(371492866, 0), (325766, 0), (167, 0)]], 3, 4⟩, 1152921504606846976,
    212463011614720, 200804369956891, ⟨[[(2841621564522130, 0), (0, 394982315449364), (321700881862, 0), (1195542292,
    0), (1958250, 0)], [(354412650754113, 0), (0, 617846899793), (0, 1967388538), (0, 2526163), (0, 2387)],
    [(181092738953, 0), (1159748513, 0), (0, 79345), (0, 349), (0, 1)], [(0, 262798406), (1364300, 0), (390, 0)]], 3,
    4⟩, 281474976710656, 35984997760,
    7258945674980749538105178710456401226128180740495532684748291566909291508352417392308536797802917663927621803900021362873049971220186184811,
    lc0⟩)) (.sy (.sx (.leaf ⟨738, 16, 2210, 904, 16, 2340, ⟨[[(446660018842501120, 0), (99698578978802378, 0), (0,
    2251198058921), (348962326, 0), (11072, 0)], [(0, 2373996431546529), (2300765478734, 0), (465291733, 0), (92803,
    0), (18, 0)], [(396838025305, 0), (275428859, 0), (103288, 0), (31, 0)], [(39676089, 0), (38313, 0), (21, 0)]],
    3, 4⟩, ⟨[[(401049062170296320, 0), (94858123287139088, 0), (0, 4882118038608), (602636645, 0), (0, 24753)],
    [(8754070839352489, 0), (2189061245125, 0), (379464811, 0), (75587, 0), (14, 0)], [(454776725489, 0), (262056540,
    0), (90703, 0), (27, 0)], [(41313935, 0), (36452, 0), (19, 0)]], 3, 4⟩, 1152921504606846976, 10174130667328,
    11600970808595, ⟨[[(1313966909871816, 0), (0, 380100953901064), (280067464105, 0), (999084668, 0), (1573819, 0)],
    [(361759696079029, 0), (0, 584057949473), (0, 1703712490), (0, 2119228), (0, 1906)], [(181221571173, 0),
    (1031337439, 0), (0, 86399), (0, 288), (0, 1)], [(0, 241469136), (1286887, 0), (332, 0)]], 3, 4⟩,
    281474976710656, 35246774061,
    8781191947875891308887235585508678761139360874201037379349209065094671898140610313436317972866647180392613066282960800116204417091223838262,
    lc0⟩) (.sx (.leaf ⟨743, 16, 2224, 931, 16, 2404, ⟨[[(0, 345290208819019776), (100759755541302875, 0), (0,
    2176919637956), (369223190, 0), (14783, 0)], [(0, 1120007462497487), (1209952461417, 0), (254071804, 0), (52917,
    0), (11, 0)], [(105501915398, 0), (74834737, 0), (29053, 0), (9, 0)], [(5418816, 0), (5370, 0), (3, 0)]], 3, 4⟩,
    ⟨[[(0, 563154878298062848), (97869813721365334, 0), (0, 4941700291378), (634166642, 0), (0, 22461)],
    [(4583702747484278, 0), (1175249199191, 0), (212834585, 0), (44225, 0), (9, 0)], [(122817868800, 0), (72688364,
    0), (26120, 0), (8, 0)], [(5747501, 0), (5216, 0), (3, 0)]], 3, 4⟩, 1152921504606846976, 8246118230964,
    9775349717321, ⟨[[(589953742166966, 0), (0, 368945759298535), (271161599174, 0), (933697409, 0), (1429743, 0)],
    [(358306434566020, 0), (0, 571615317274), (0, 1617408027), (0, 1957853), (0, 1716)], [(180973629434, 0),
    (992109592, 0), (0, 82335), (0, 267), (0, 1)], [(0, 234768131), (1231149, 0), (311, 0)]], 3, 4⟩, 281474976710656,
    34137221025,
    10202680139814990182267621571732279346344287356533788116980112424106403928673113687254231722930951312854333057010239753858238417133591408411,
    lc0⟩) (.skip))) (.sx (.leaf ⟨784, 16, 2256, 958, 16, 2403, ⟨[[(486459600895213568, 0), (100298267838823945, 0),
    (0, 1913951117883), (377236287, 0), (19186, 0)], [(0, 1538832654470480), (2719473293494, 0), (590060573, 0),
    (126580, 0), (28, 0)], [(517950726334, 0), (368562878, 0), (147171, 0), (49, 0)], [(57240503, 0), (58005, 0),
    (34, 0)]], 3, 4⟩, ⟨[[(0, 279356935321812992), (94126040024388087, 0), (0, 4379774671434), (590953592, 0), (0,
    14232)], [(9827862149261536, 0), (2552120366425, 0), (483697470, 0), (103166, 0), (22, 0)], [(573922816867, 0),
    (345881987, 0), (128621, 0), (41, 0)], [(58278999, 0), (54436, 0), (30, 0)]], 3, 4⟩, 1152921504606846976,
    24772195168838, 25357140290730, ⟨[[(1085488477513910, 0), (0, 370965246725068), (301469129158, 0), (1039267539,
    0), (1605704, 0)], [(348225281934330, 0), (0, 594125681760), (0, 1767874920), (0, 2147179), (0, 1922)],
    [(182226208113, 0), (1070915405, 0), (0, 73965), (0, 299), (0, 1)], [(0, 248198451), (1252691, 0), (341, 0)]], 3,
    4⟩, 281474976710656, 33874621184,
    10087756686147113544812371371144183834540188504212180093806668548695955146463073956562719503220469941630192595218472516145389949102778375734,
    lc0⟩) (.sx (.sx (.leaf ⟨790, 16, 2272, 1008, 16, 2526, ⟨[[(0, 239311572917682176), (101432539235721953, 0), (0,
    1834132655002), (400372969, 0), (23905, 0)], [(0, 346974053932222), (713797811291, 0), (160383875, 0), (35870,
    0), (8, 0)], [(34300469860, 0), (24943513, 0), (10302, 0), (4, 0)], [(972654, 0), (1012, 0), (1, 0)]], 3, 4⟩,
    ⟨[[(171731338224336896, 0), (99358264359361612, 0), (0, 4523846674860), (638650408, 0), (0, 11104)],
    [(2629430005505014, 0), (699200790671, 0), (137912140, 0), (30659, 0), (7, 0)], [(39509983626, 0), (24433424, 0),
    (9421, 0), (3, 0)], [(1031661, 0), (992, 0), (1, 0)]], 3, 4⟩, 1152921504606846976, 16860753412308,
    18211194129306, ⟨[[(897456240767212, 0), (0, 352621155969978), (274718139735, 0), (898996050, 0), (1321115, 0)],
    [(345389334599398, 0), (0, 563398743685), (0, 1594005884), (0, 1841788), (0, 1570)], [(180317125802, 0),
    (1005882742, 0), (0, 66335), (0, 255)], [(0, 242681130), (1168026, 0), (303, 0)]], 3, 4⟩, 281474976710656,
    32542758455,
    10820621017800297189701854503505272880087499959980745339326321990546576178996999505744897330359276502686521976627712400478361465035246257832,
    lc0⟩) (.skip)) (.skip))))) (.sx (.sy (.leaf ⟨827, 16, 2289, 945, 16, 2312, ⟨[[(0, 190685596396945408),
    (99439480238536926, 0), (0, 1772272005766), (362330897, 0), (18490, 0)], [(0, 1953823227453305), (5801329898385,
    0), (1242802555, 0), (261003, 0), (56, 0)], [(2378267474484, 0), (1655647730, 0), (651651, 0), (212, 0)],
    [(548394984, 0), (549721, 0), (317, 0)]], 3, 4⟩, ⟨[[(417146185153773568, 0), (86848598258617607, 0), (0,
    3816252637689), (515613332, 0), (0, 10596)], [(19816003705612093, 0), (5066773966456, 0), (953102538, 0),
    (198629, 0), (42, 0)], [(2432072733450, 0), (1446012029, 0), (531372, 0), (168, 0)], [(517757605, 0), (480116,
    0), (264, 0)]], 3, 4⟩, 1152921504606846976, 715322527553319, 651863826461620, ⟨[[(2837772100191974, 0), (0,
    389377529680550), (348627985097, 0), (1271627365, 0), (2069356, 0)], [(340056316722881, 0), (0, 628470519573),
    (0, 2060954231), (0, 2616257), (0, 2485)], [(179738929913, 0), (1199285817, 0), (0, 66362), (0, 368), (0, 1)],
    [(0, 265702117), (1321600, 0), (398, 0)]], 3, 4⟩, 281474976710656, 34153328808,
    7814049798830002490323169399413716566290148932684403475715573394811293704053700180439846874377275985768276059323902282500141965486780103787,
    lc0⟩) (.sx (.leaf ⟨886, 16, 2367, 1072, 16, 2554, ⟨[[(48727756743376896, 0), (101270627346311812, 0), (0,
    1517185996961), (387527707, 0), (25309, 0)], [(0, 61709510726662), (3371232575196, 0), (753366878, 0), (165795,
    0), (38, 0)], [(752284482764, 0), (531996455, 0), (217760, 0), (74, 0)], [(94637608, 0), (97918, 0), (59, 0)]],
    3, 4⟩, ⟨[[(0, 272460332418203648), (92814811360097836, 0), (0, 3700448330647), (544417962, 0), (0, 3253)],
    [(11797188213729032, 0), (3089744022695, 0), (613566349, 0), (133803, 0), (30, 0)], [(796588278697, 0),
    (487576229, 0), (187443, 0), (62, 0)], [(93181419, 0), (89742, 0), (52, 0)]], 3, 4⟩, 1152921504606846976,
    53120910437601, 51209530945273, ⟨[[(2983054774001510, 0), (0, 353005976075251), (316581760724, 0), (1047946039,
    0), (1563608, 0)], [(323537893032949, 0), (0, 580963350113), (0, 1802999097), (0, 2087032), (0, 1831)],
    [(174841585567, 0), (1115516019, 0), (0, 45122), (0, 297), (0, 1)], [(0, 260591573), (1145196, 0), (331, 0)]], 3,
    4⟩, 281474976710656, 30368848764,
    5078533121971546663564073305458139189977699000976246671157535979807207584702431073115785154893840791598383198382560723416344927428697594528,
    lc0⟩) (.leaf ⟨877, 16, 2343, 1063, 16, 2527, ⟨[[(97434292324007936, 0), (101083651844299478, 0), (0,
    1307830675853), (428038043, 0), (35585, 0)], [(316606672864602, 0), (3610125422440, 0), (861245887, 0), (205072,
    0), (51, 0)], [(817826663246, 0), (604397252, 0), (263978, 0), (97, 0)], [(108394328, 0), (118363, 0), (76, 0)]],
    3, 4⟩, ⟨[[(0, 86877993534750720), (92602993842581176, 0), (0, 3502778558131), (574663455, 0), (5239, 0)],
    [(12070929491814992, 0), (3307245199057, 0), (706679993, 0), (166784, 0), (41, 0)], [(860057734518, 0),
    (553689880, 0), (228051, 0), (82, 0)], [(106325690, 0), (108432, 0), (67, 0)]], 3, 4⟩, 1152921504606846976,
    105273771339669, 100649137365615, ⟨[[(2147170977455726, 0), (0, 355241259117325), (331039003067, 0), (1097257470,
    0), (1653110, 0)], [(325452070323471, 0), (0, 601939664660), (0, 1875894203), (0, 2194803), (0, 1948)],
    [(181138965381, 0), (1150366747, 0), (0, 49265), (0, 318), (0, 1)], [(0, 265866846), (1194972, 0), (351, 0)]], 3,
    4⟩, 281474976710656, 31631099062,
    7790437453490872089290991321674832101513890957195653512430881557350155765629397792243740194578349706116703740169117014880081551946769808491,
    lc0⟩))) (.sx (.sy (.leaf ⟨830, 16, 2299, 1008, 16, 2457, ⟨[[(241123062143123456, 0), (100989754542275028, 0), (0,
    1529815109589), (419480230, 0), (31301, 0)], [(0, 518554444699733), (3245008867509, 0), (760687812, 0), (178095,
    0), (43, 0)], [(680039003783, 0), (501865220, 0), (215797, 0), (78, 0)], [(84050265, 0), (90507, 0), (57, 0)]],
    3, 4⟩, ⟨[[(50065931685068800, 0), (93326597466481658, 0), (0, 3851312754310), (592973281, 0), (0, 1053)],
    [(11027506626968352, 0), (2998775843409, 0), (624641916, 0), (145116, 0), (35, 0)], [(728737009971, 0),
    (463783416, 0), (187308, 0), (66, 0)], [(83562176, 0), (83639, 0), (51, 0)]], 3, 4⟩, 1152921504606846976,
    70685369384082, 68552650730452, ⟨[[(1268223063430806, 0), (0, 363679277738823), (321824774863, 0), (1085347592,
    0), (1658015, 0)], [(336129800799973, 0), (0, 603835303891), (0, 1841333558), (0, 2199170), (0, 1968)],
    [(182826934403, 0), (1116005247, 0), (0, 62351), (0, 314), (0, 1)], [(0, 256535937), (1229003, 0), (350, 0)]], 3,
    4⟩, 281474976710656, 32785825200,
    10626065023114389488868104190158023122979893895475348891280327157957565863581109300539567478268725450175544918921746619952491816761687694902,
    lc0⟩) (.leaf ⟨867, 16, 2316, 1054, 16, 2499, ⟨[[(98443206176276480, 0), (100819115401714975, 0), (0,
    1070309192072), (478388683, 0), (49490, 0)], [(724046268824410, 0), (3879764880104, 0), (992218647, 0), (256889,
    0), (69, 0)], [(892485152450, 0), (692083966, 0), (324340, 0), (130, 0)], [(125151006, 0), (145096, 0), (101,
    0)]], 3, 4⟩, ⟨[[(0, 349029642378149888), (92402077278095957, 0), (0, 3280623955977), (613470644, 0), (16792, 0)],
    [(12368264246216586, 0), (3555856772237, 0), (820884813, 0), (210748, 0), (57, 0)], [(932898348967, 0),
    (634304277, 0), (281476, 0), (110, 0)], [(122394911, 0), (132982, 0), (89, 0)]], 3, 4⟩, 1152921504606846976,
    212147782698765, 202190461580533, ⟨[[(1186558694856301, 0), (0, 357380743943024), (347827730389, 0), (1153670650,
    0), (1755835, 0)], [(327560389411196, 0), (0, 626363567906), (0, 1959772381), (0, 2318965), (0, 2084)],
    [(188607719563, 0), (1190641886, 0), (0, 54274), (0, 344), (0, 1)], [(0, 271991764), (1253363, 0), (373, 0)]], 3,
    4⟩, 281474976710656, 33127886288,
    10641206071252376142610038495777386149229152217820085524976186110943842669757473232589733782498077916257645419617939457888761251908256685622,
    lc0⟩)) (.skip)))
theorem c29 : checkC job ⟨6, 8, 6, 7, 9, 13⟩ 3 200 B1.zlims t29 2151 121 320 2559 175 3792 = true := by decide +kernel

def t30 : CTree :=
  .sx (.sy (.sx (.sy (.leaf ⟨917, 16, 2369, 1117, 16, 2595, ⟨[[(477012375775477760, 0), (100440674377580930, 0), (0,
    1089541854302), (432361170, 0), (39148, 0)], [(1219261462971773, 0), (3970047636897, 0), (960174234, 0), (231402,
    0), (58, 0)], [(969547311355, 0), (716875050, 0), (316508, 0), (117, 0)], [(137608155, 0), (151688, 0), (99,
    0)]], 3, 4⟩, ⟨[[(252221382784712704, 0), (91876169623360050, 0), (0, 3178242018701), (557945240, 0), (10758, 0)],
    [(13168038144848678, 0), (3631524503003, 0), (792070115, 0), (189037, 0), (47, 0)], [(1009129730980, 0),
    (655747625, 0), (273949, 0), (99, 0)], [(134219250, 0), (138753, 0), (87, 0)]], 3, 4⟩, 1152921504606846976,
    153594216184237, 146127503241925, ⟨[[(3024590878718572, 0), (0, 347266873516611), (339003490657, 0), (1108760432,
    0), (1652546, 0)], [(317723639269454, 0), (0, 603746991519), (0, 1922267428), (0, 2209701), (0, 1946)],
    [(181915694364, 0), (1198668529, 0), (0, 38282), (0, 328), (0, 1)], [(0, 280045222), (1188121, 0), (357, 0)]], 3,
    4⟩, 281474976710656, 31364496048,
    5003462834392793852738461001123913284333548226612728877113560525518646199518343446179152511620452664367213739942673569412736660614203513504,
    lc0⟩) (.leaf ⟨943, 16, 2358, 1157, 16, 2622, ⟨[[(467041588933165056, 0), (99380774814559250, 0), (0,
    599427690665), (498375531, 0), (59677, 0)], [(2724558477114512, 0), (4716300654240, 0), (1246813193, 0), (331946,
    0), (91, 0)], [(1259065415250, 0), (984990557, 0), (473720, 0), (193, 0)], [(204370392, 0), (242703, 0), (172,
    0)]], 3, 4⟩, ⟨[[(0, 340563629730430976), (90793975018321967, 0), (0, 2607063539799), (591670044, 0), (30106, 0)],
    [(14696307812924361, 0), (4308798000206, 0), (1041350738, 0), (274501, 0), (75, 0)], [(1290304076524, 0),
    (899884391, 0), (412377, 0), (164, 0)], [(197652555, 0), (221733, 0), (152, 0)]], 3, 4⟩, 1152921504606846976,
    454794957851836, 430825209376956, ⟨[[(2851661061745684, 0), (0, 342545034592866), (368531525887, 0), (1197715958,
    0), (1796928, 0)], [(313026640986312, 0), (0, 637398972665), (0, 2087368383), (0, 2400252), (0, 2132)],
    [(192435728859, 0), (1306696086, 0), (0, 33377), (0, 374), (0, 1)], [(0, 304199256), (1260254, 0), (394, 0)]], 3,
    4⟩, 281474976710656, 33096875967,
    4355907587481856976346920248952719908131304444819622579490794220606439345121475490783372886983563724043480344241165637223605769978162125472,
    lc0⟩)) (.sy (.leaf ⟨906, 16, 2338, 1106, 16, 2562, ⟨[[(0, 332419825262264320), (100118200727003382, 0), (0,
    826178039662), (489537204, 0), (55058, 0)], [(1691662525825521, 0), (4288960957056, 0), (1117788982, 0), (294474,
    0), (81, 0)], [(1064159027182, 0), (829777096, 0), (395185, 0), (160, 0)], [(160792916, 0), (189232, 0), (133,
    0)]], 3, 4⟩, ⟨[[(0, 239221538824126464), (91615427846271889, 0), (0, 2931426227581), (602423636, 0), (24000, 0)],
    [(13507384723038219, 0), (3924710894157, 0), (929665660, 0), (242673, 0), (66, 0)], [(1100802716751, 0),
    (759306331, 0), (343593, 0), (136, 0)], [(156335024, 0), (173161, 0), (118, 0)]], 3, 4⟩, 1152921504606846976,
    313537701948502, 297829059867735, ⟨[[(2220991948549124, 0), (0, 350106046247453), (356957447118, 0), (1172307803,
    0), (1769454, 0)], [(320310621549396, 0), (0, 630015962876), (0, 2020837346), (0, 2354125), (0, 2103)],
    [(189901627516, 0), (1250012376, 0), (0, 42574), (0, 358), (0, 1)], [(0, 289163802), (1255996, 0), (384, 0)]], 3,
    4⟩, 281474976710656, 33109859496,
    7593264320757131708538403374084894746757387585115819089736476906721133048235278413130089985685762586583086331474744558384418540388365941867,
    lc0⟩) (.leaf ⟨928, 16, 2319, 1142, 16, 2582, ⟨[[(495323903056150528, 0), (98919892913239771, 0), (0,
    262875042354), (581699905, 0), (85125, 0)], [(3316518222540549, 0), (5153104214537, 0), (1485090451, 0), (436937,
    0), (132, 0)], [(1399403872707, 0), (1167638028, 0), (612307, 0), (272, 0)], [(245024774, 0), (313394, 0), (238,
    0)]], 3, 4⟩, ⟨[[(188199417985892352, 0), (90490896761194882, 0), (0, 2293029038856), (658799341, 0), (51477, 0)],
    [(15123562247681320, 0), (4714006533411, 0), (1251620277, 0), (364838, 0), (109, 0)], [(1426385266350, 0),
    (1068143213, 0), (535904, 0), (233, 0)], [(236384826, 0), (286690, 0), (211, 0)]], 3, 4⟩, 1152921504606846976,
    936367851369792, 887730044247847, ⟨[[(2121265741928831, 0), (0, 346209605731420), (388774928797, 0), (1273125904,
    0), (1939391, 0)], [(316772462288400, 0), (0, 668177818050), (0, 2209211528), (0, 2580877), (0, 2330)],
    [(202031916179, 0), (1374162557, 0), (0, 38071), (0, 413), (0, 1)], [(0, 317413354), (1348722, 0), (430, 0)]], 3,
    4⟩, 281474976710656, 35418318699,
    6636348487154247488152970202652556496490422100006037196682973838505293315975248153484286340565657779734571806658648861588704792137457515627,
    lc0⟩))) (.sy (.sx (.leaf ⟨963, 16, 2332, 1189, 16, 2633, ⟨[[(0, 235159228091334656), (98062444322483042, 0), (0,
    24956445702), (596212413, 0), (91091, 0)], [(4493639377540523, 0), (5665600436617, 0), (1656170386, 0), (491170,
    0), (148, 0)], [(1652900548500, 0), (1386388321, 0), (733054, 0), (327, 0)], [(311680020, 0), (401936, 0), (307,
    0)]], 3, 4⟩, ⟨[[(0, 22777691858272256), (89566881101646854, 0), (0, 1965701784904), (654885848, 0), (58474, 0)],
    [(16413531639402301, 0), (5174765570876, 0), (1400437037, 0), (411203, 0), (123, 0)], [(1670826269164, 0),
    (1266279652, 0), (642078, 0), (281, 0)], [(299261007, 0), (367114, 0), (272, 0)]], 3, 4⟩, 1152921504606846976,
    1341687139521005, 1268886695082896, ⟨[[(3136036705444406, 0), (0, 340376644595846), (400115265803, 0),
    (1309840793, 0), (1995328, 0)], [(310830629734708, 0), (0, 676498349018), (0, 2300863055), (0, 2666540), (0,
    2401)], [(204729153986, 0), (1450356553, 0), (0, 28175), (0, 437), (0, 1)], [(0, 337947421), (1370483, 0), (447,
    0)]], 3, 4⟩, 281474976710656, 35858059360,
    3192522761057419478987638300466028694368774816296941801343214819054174567547027633783303885316798719810945675124983875956142979708242303648,
    lc0⟩) (.leaf ⟨943, 16, 2282, 1170, 16, 2583, ⟨[[(186800323790766080, 0), (97387057422710515, 0), (414447346734,
    0), (721098521, 0), (132711, 0)], [(5238039179637413, 0), (6277381271086, 0), (2027346472, 0), (668899, 0), (220,
    0)], [(1866292550134, 0), (1690077247, 0), (977858, 0), (466, 0)], [(384343132, 0), (531789, 0), (421, 0)]], 3,
    4⟩, ⟨[[(0, 151387600915791872), (89172806225953903, 0), (0, 1554868859402), (758484475, 0), (93797, 0)],
    [(16950820036962073, 0), (5747906534062, 0), (1731661982, 0), (565826, 0), (184, 0)], [(1878135144474, 0),
    (1547525255, 0), (861810, 0), (402, 0)], [(368546421, 0), (486935, 0), (375, 0)]], 3, 4⟩, 1152921504606846976,
    2754871253492706, 2611611463120020, ⟨[[(2103818327057735, 0), (0, 344402958380222), (429215650092, 0),
    (1416668997, 0), (2199584, 0)], [(315371278471214, 0), (0, 720300743529), (0, 2474425023), (0, 2925119), (0,
    2687)], [(218632358428, 0), (1546594586, 0), (0, 34863), (0, 496), (0, 1)], [(0, 356714668), (1495625, 0), (499,
    0)]], 3, 4⟩, 281474976710656, 39144474427,
    4868126170039720550565488664987826131838371682847964948083262302607028338687934173399268085148714593265997878749037506842913344678765313131,
    lc0⟩)) (.sx (.leaf ⟨973, 16, 2285, 1212, 16, 2624, ⟨[[(0, 482658573948551168), (96300812369219643, 0),
    (665544520197, 0), (741961801, 0), (140391, 0)], [(6567922705392349, 0), (6892770577574, 0), (2256220682, 0),
    (748667, 0), (246, 0)], [(2198890444931, 0), (2004016267, 0), (1167717, 0), (558, 0)], [(488595899, 0), (681169,
    0), (543, 0)]], 3, 4⟩, ⟨[[(0, 195333030183698432), (88140908300327345, 0), (0, 1221348065960), (762573143, 0),
    (102192, 0)], [(18352992582237381, 0), (6308722060245, 0), (1934024524, 0), (635231, 0), (207, 0)],
    [(2199004766196, 0), (1834208972, 0), (1030680, 0), (484, 0)], [(467041294, 0), (623451, 0), (484, 0)]], 3, 4⟩,
    1152921504606846976, 3880793588746216, 3674947057665055, ⟨[[(3151384352114010, 0), (0, 339636810113282),
    (443221294867, 0), (1471314375, 0), (2295545, 0)], [(310757040740003, 0), (0, 734094836916), (0, 2601711140), (0,
    3064994), (0, 2814)], [(223266359842, 0), (1646851318, 0), (0, 25514), (0, 533), (0, 1)], [(0, 383192487),
    (1542911, 0), (526, 0)]], 3, 4⟩, 281474976710656, 40260628357,
    1588480389009776617050448485458606515152111956157347317508853097000828145185364885868408211638384412701788944092741427781208691243073570604,
    lc0⟩) (.sx (.leaf ⟨984, 16, 2310, 1283, 16, 2771, ⟨[[(384818423140188160, 0), (98690273237352869, 0),
    (1129197988403, 0), (907978953, 0), (195295, 0)], [(3749427921396913, 0), (3888717270538, 0), (1384244879, 0),
    (497173, 0), (172, 0)], [(629980193899, 0), (612354774, 0), (379905, 0), (188, 0)], [(75077731, 0), (109050, 0),
    (88, 0)]], 3, 4⟩, ⟨[[(0, 185519720776335360), (94355852296336249, 0), (0, 879965554637), (945629982, 0), (154893,
    0)], [(10138063151431081, 0), (3717927009064, 0), (1246236213, 0), (442923, 0), (152, 0)], [(654578486039, 0),
    (585460499, 0), (351061, 0), (170, 0)], [(74768549, 0), (104261, 0), (82, 0)]], 3, 4⟩, 1152921504606846976,
    1489913791485423, 1472738906002958, ⟨[[(2265771126234184, 0), (0, 319365796698124), (408350996234, 0),
    (1271547173, 0), (1878368, 0)], [(305396568665534, 0), (0, 700938439171), (0, 2331852798), (0, 2602708), (0,
    2264)], [(222803114902, 0), (1527269750, 0), (0, 26065), (0, 452), (0, 1)], [(0, 367249329), (1417573, 0), (459,
    0)]], 3, 4⟩, 281474976710656, 37908223444,
    1859689909224507114311679072752666177592795725040490706078098552558787801683941233316432746708355547968794165473355690436161061709199567750,
    lc0⟩) (.leaf ⟨973, 16, 2281, 1271, 16, 2740, ⟨[[(0, 246712478349656064), (98417557366289063, 0), (1469047675603,
    0), (1026956215, 0), (238699, 0)], [(4017052426910733, 0), (4152469762411, 0), (1564446042, 0), (589667, 0),
    (211, 0)], [(679575710316, 0), (689067453, 0), (443114, 0), (224, 0)], [(84495652, 0), (125174, 0), (101, 0)]],
    3, 4⟩, ⟨[[(0, 431664094219337728), (94225359737090212, 0), (0, 550387683664), (1051541208, 0), (193689, 0)],
    [(10351485411687648, 0), (3975591018830, 0), (1415242299, 0), (527601, 0), (187, 0)], [(704556536505, 0),
    (659715913, 0), (410538, 0), (204, 0)], [(84135149, 0), (119842, 0), (95, 0)]], 3, 4⟩, 1152921504606846976,
    2249217854029180, 2226605455346272, ⟨[[(1924685197693685, 0), (0, 321975434568043), (423699450213, 0),
    (1330097779, 0), (1988750, 0)], [(308202946174799, 0), (0, 724998999537), (0, 2434644737), (0, 2750273), (0,
    2422)], [(230691642663, 0), (1589995168, 0), (0, 28766), (0, 487), (0, 1)], [(0, 380960133), (1493725, 0), (490,
    0)]], 3, 4⟩, 281474976710656, 39949450818,
    2337797681152314733749629832407615628632108586669478538115289183341061620886586277417631873919967639582902038811045912654208067896295418758,
    lc0⟩))))) (.sx (.sy (.sy (.leaf ⟨893, 16, 2304, 1094, 16, 2527, ⟨[[(0, 62572737146781696), (99735784683412322,
    0), (0, 522768179340), (563007674, 0), (77407, 0)], [(2204198488270961, 0), (4658001591730, 0), (1315723348, 0),
    (380904, 0), (114, 0)], [(1174709835054, 0), (971401584, 0), (501566, 0), (221, 0)], [(190063580, 0), (239561,
    0), (180, 0)]], 3, 4⟩, ⟨[[(0, 530718054827950080), (91347093931285884, 0), (0, 2647840290273), (660956186, 0),
    (42722, 0)], [(13877111033878630, 0), (4266221098901, 0), (1103757342, 0), (316792, 0), (94, 0)],
    [(1208174603493, 0), (889697836, 0), (438254, 0), (189, 0)], [(184279434, 0), (219412, 0), (160, 0)]], 3, 4⟩,
    1152921504606846976, 639775495136506, 607777991661946, ⟨[[(1177566512345878, 0), (0, 352753754554282),
    (378045129068, 0), (1244718241, 0), (1903277, 0)], [(323071612320912, 0), (0, 660890455025), (0, 2131227217), (0,
    2517859), (0, 2283)], [(199448036913, 0), (1305415265, 0), (0, 48466), (0, 393), (0, 1)], [(0, 298356890),
    (1333481, 0), (415, 0)]], 3, 4⟩, 281474976710656, 35111517151,
    10245872848617323615618569218266416212295011343387664257766755241262369087955070182327116195764226992236520790664730655703756598031490375222,
    lc0⟩) (.sx (.leaf ⟨933, 16, 2329, 1198, 16, 2702, ⟨[[(0, 1100366822506496), (100326392206595195, 0),
    (28476751474, 0), (673710562, 0), (113437, 0)], [(1933316270890637, 0), (2817199042013, 0), (870195775, 0),
    (276213, 0), (89, 0)], [(387631058648, 0), (340823322, 0), (190561, 0), (89, 0)], [(36032522, 0), (48490, 0),
    (38, 0)]], 3, 4⟩, ⟨[[(0, 251984748806668288), (95630585871808512, 0), (0, 2141990427062), (767531235, 0), (78075,
    0)], [(8197014373326639, 0), (2685339211146, 0), (768555980, 0), (241742, 0), (77, 0)], [(409577825043, 0),
    (324870986, 0), (174273, 0), (80, 0)], [(36119176, 0), (46220, 0), (35, 0)]], 3, 4⟩, 1152921504606846976,
    519142087040727, 512307964428882, ⟨[[(1469884257032029, 0), (0, 329373672131099), (362815919699, 0), (1127737227,
    0), (1641927, 0)], [(313942168572138, 0), (0, 644966777625), (0, 2028527822), (0, 2265878), (0, 1957)],
    [(203178096948, 0), (1305490348, 0), (0, 36465), (0, 364), (0, 1)], [(0, 311549965), (1276161, 0), (390, 0)]], 3,
    4⟩, 281474976710656, 34353301520,
    7672256097270927798798948794921628637560623012612593058550902529082820415154307393059178776553853326409261325423884734762263305157632036176,
    lc0⟩) (.skip))) (.sy (.sx (.leaf ⟨951, 16, 2300, 1233, 16, 2717, ⟨[[(563167844885331968, 0), (99363064168830180,
    0), (823738747123, 0), (866069666, 0), (180628, 0)], [(3001418801201086, 0), (3501156861862, 0), (1223201001, 0),
    (434538, 0), (149, 0)], [(528006908082, 0), (507422450, 0), (311145, 0), (152, 0)], [(57949062, 0), (83231, 0),
    (66, 0)]], 3, 4⟩, ⟨[[(489106500323901440, 0), (94953111881929570, 0), (0, 1272567498899), (921125490, 0),
    (139744, 0)], [(9293993652364122, 0), (3345767786064, 0), (1096335398, 0), (385540, 0), (131, 0)],
    [(551610328039, 0), (484901921, 0), (286817, 0), (138, 0)], [(57842495, 0), (79537, 0), (61, 0)]], 3, 4⟩,
    1152921504606846976, 1344092745010887, 1328894105066356, ⟨[[(1526772808367733, 0), (0, 325997974080521),
    (395134114645, 0), (1232479942, 0), (1819386, 0)], [(311571803483851, 0), (0, 688050135662), (0, 2236205757), (0,
    2514280), (0, 2198)], [(217974264440, 0), (1449589492, 0), (0, 33194), (0, 426), (0, 1)], [(0, 346384533),
    (1391735, 0), (442, 0)]], 3, 4⟩, 281474976710656, 37359437894,
    5444191433220215036683137651519771432318050503344667576732570571750701364344247417227378739292910522846632931065471592512750885146455412048,
    lc0⟩) (.skip)) (.skip))) (.skip))
theorem c30 : checkC job ⟨6, 8, 6, 7, 9, 13⟩ 3 200 B1.zlims t30 2151 121 320 2909 175 3792 = true := by decide +kernel

def t31 : CTree :=
  .sy (.sx (.sy (.leaf ⟨1071, 16, 2457, 1324, 16, 2840, ⟨[[(114679617660911616, 0), (97456048251826492, 0), (0,
    422987620580), (419502724, 0), (43626, 0)], [(5345173099967232, 0), (5468055171479, 0), (1330641058, 0), (314543,
    0), (73, 0)], [(1759403393571, 0), (1269012974, 0), (549001, 0), (191, 0)], [(315700853, 0), (339490, 0), (209,
    0)]], 3, 4⟩, ⟨[[(0, 414542909332520960), (88513847241807743, 0), (0, 2145901814531), (485082041, 0), (22009, 0)],
    [(17928811870442031, 0), (4966326963181, 0), (1109699671, 0), (258876, 0), (59, 0)], [(1773272244783, 0),
    (1152573109, 0), (475686, 0), (162, 0)], [(302281862, 0), (308339, 0), (183, 0)]], 3, 4⟩, 1152921504606846976,
    546598792072987, 513772244412167, ⟨[[(6451994950087411, 0), (0, 320085649208377), (369246574145, 0), (1186962296,
    0), (1742633, 0)], [(290766663928778, 0), (0, 615054358134), (0, 2150701605), (0, 2362824), (0, 2024)],
    [(185807161917, 0), (1402414674, 0), (0, 4891), (0, 380), (0, 1)], [(0, 335891615), (1187700, 0), (382, 0)]], 3,
    4⟩, 281474976710656, 30829236457,
    5081409465796502814213963152469850287751971009085134328869032987059403974115849240281738151938556093643131957963312519357701813559312059991,
    lc0⟩) (.leaf ⟨1085, 16, 2423, 1350, 16, 2839, ⟨[[(490245021179052032, 0), (95975589292235513, 0), (53064464160,
    0), (486282552, 0), (61776, 0)], [(7333753562171501, 0), (6438522797611, 0), (1698191258, 0), (433264, 0), (107,
    0)], [(2248454094118, 0), (1711300220, 0), (791527, 0), (298, 0)], [(458702650, 0), (524033, 0), (350, 0)]], 3,
    4⟩, ⟨[[(0, 200521668120018944), (87163701072772032, 0), (0, 1616077295071), (526677776, 0), (38496, 0)],
    [(19808045348111935, 0), (5847377240606, 0), (1430626243, 0), (360008, 0), (88, 0)], [(2241915032322, 0),
    (1554179161, 0), (689179, 0), (254, 0)], [(436857784, 0), (475920, 0), (309, 0)]], 3, 4⟩, 1152921504606846976,
    1524780753790074, 1431393346030710, ⟨[[(6418164247405376, 0), (0, 318240848953781), (402902581103, 0),
    (1311629857, 0), (1965837, 0)], [(289139527809949, 0), (0, 658362420248), (0, 2382975303), (0, 2653131), (0,
    2303)], [(199548342469, 0), (1552141063, 0), (0, 2378), (0, 448), (0, 1)], [(0, 369744834), (1300871, 0), (433,
    0)]], 3, 4⟩, 281474976710656, 33599138237,
    4002604673647703949903893857812628163815085111714570368258262599008093748412586223494101668497045998851277866122914568480199294041704959575,
    lc0⟩)) (.sy (.leaf ⟨1051, 16, 2408, 1302, 16, 2786, ⟨[[(0, 81054234553352192), (96887272300297444, 0), (0,
    64235749994), (498311038, 0), (64089, 0)], [(6131554984261705, 0), (6025513967763, 0), (1605790216, 0), (419752,
    0), (109, 0)], [(1974763506419, 0), (1524510787, 0), (721178, 0), (282, 0)], [(384597272, 0), (449243, 0), (309,
    0)]], 3, 4⟩, ⟨[[(295799069320151040, 0), (88080667199507754, 0), (0, 1811501213947), (547983284, 0), (39046, 0)],
    [(18485769266861761, 0), (5477822606622, 0), (1350804049, 0), (348668, 0), (89, 0)], [(1979134833263, 0),
    (1385939805, 0), (628041, 0), (240, 0)], [(367248221, 0), (408409, 0), (273, 0)]], 3, 4⟩, 1152921504606846976,
    1186833202986059, 1116026541662710, ⟨[[(5820806317574894, 0), (0, 324701684330817), (392656243354, 0),
    (1277935503, 0), (1913787, 0)], [(295166092787652, 0), (0, 650237799574), (0, 2304840255), (0, 2583478), (0,
    2258)], [(196727797236, 0), (1493582470, 0), (0, 7600), (0, 428), (0, 1)], [(0, 355260031), (1290784, 0), (425,
    0)]], 3, 4⟩, 281474976710656, 33501045599,
    3935902592959525418342044217597325864793483961310779051214360994900244576843028830419790119154208484846505713155804586655226179285986798732,
    lc0⟩) (.leaf ⟨1059, 16, 2360, 1323, 16, 2773, ⟨[[(0, 207872858958331904), (95103269222283533, 0), (502565803276,
    0), (595766264, 0), (92768, 0)], [(8288405455612674, 0), (7178809490159, 0), (2097640406, 0), (601526, 0), (171,
    0)], [(2558450353247, 0), (2110273745, 0), (1086879, 0), (467, 0)], [(576498092, 0), (728271, 0), (546, 0)]], 3,
    4⟩, ⟨[[(0, 433819875809689600), (86615618266144007, 0), (0, 1196091352978), (616670691, 0), (64629, 0)],
    [(20488849951068058, 0), (6538124582780, 0), (1785596565, 0), (505676, 0), (143, 0)], [(2540983913209, 0),
    (1921938821, 0), (953182, 0), (402, 0)], [(548423825, 0), (663275, 0), (485, 0)]], 3, 4⟩, 1152921504606846976,
    3317074642679786, 3122055023650445, ⟨[[(5648497110587467, 0), (0, 323602205462924), (435318679476, 0),
    (1439341635, 0), (2211382, 0)], [(294731276805971, 0), (0, 707253470271), (0, 2603219733), (0, 2971355), (0,
    2644)], [(215060947592, 0), (1684604771, 0), (0, 6109), (0, 520), (0, 1)], [(0, 398403409), (1449233, 0), (496,
    0)]], 3, 4⟩, 281474976710656, 37462408851,
    3107248370176841593629912709537073331322901348342740242774519591594060816834091969858999244496039418454347264036791059270700073656470957196,
    lc0⟩))) (.sx (.sy (.leaf ⟨1090, 16, 2369, 1366, 16, 2818, ⟨[[(0, 293275766776397824), (94059053502139573, 0),
    (601414144620, 0), (577528742, 0), (87271, 0)], [(9596849403013664, 0), (7633117454845, 0), (2195070046, 0),
    (609076, 0), (166, 0)], [(2892982475929, 0), (2342450348, 0), (1172421, 0), (488, 0)], [(679031670, 0), (836463,
    0), (613, 0)]], 3, 4⟩, ⟨[[(0, 50576343571628032), (85595621777547568, 0), (0, 1021999610757), (591375420, 0),
    (61229, 0)], [(21883682625312925, 0), (6946289701222, 0), (1870205354, 0), (511867, 0), (138, 0)],
    [(2861362643893, 0), (2131676714, 0), (1027845, 0), (420, 0)], [(644691109, 0), (761198, 0), (544, 0)]], 3, 4⟩,
    1152921504606846976, 4170010035293168, 3919514873945442, ⟨[[(6657065171526472, 0), (0, 318783814542646),
    (443306440583, 0), (1479506100, 0), (2282686, 0)], [(290077610282185, 0), (0, 713662735195), (0, 2701473282), (0,
    3071715), (0, 2718)], [(217233709270, 0), (1761610193, 0), (417, 0), (0, 547), (0, 1)], [(0, 418680992),
    (1473445, 0), (510, 0)]], 3, 4⟩, 281474976710656, 37938072509,
    2267381196179068710384594258895370401600145407927581101977001126527785457383389273441778180429866126193826283508467507687868781302096137815,
    lc0⟩) (.sx (.leaf ⟨1150, 16, 2438, 1516, 16, 3072, ⟨[[(339614822818381824, 0), (96892852644942292, 0),
    (1139577949268, 0), (694260920, 0), (117056, 0)], [(6230349196056035, 0), (4647538921271, 0), (1423886282, 0),
    (419683, 0), (123, 0)], [(950682238366, 0), (806619536, 0), (428244, 0), (191, 0)], [(126155293, 0), (164297, 0),
    (127, 0)]], 3, 4⟩, ⟨[[(0, 95398378066673664), (92233839222801180, 0), (0, 540378151848), (715286633, 0), (90951,
    0)], [(13149533871254069, 0), (4424065820593, 0), (1277467828, 0), (371491, 0), (108, 0)], [(975933968170, 0),
    (767833897, 0), (394123, 0), (173, 0)], [(124800239, 0), (156397, 0), (118, 0)]], 3, 4⟩, 1152921504606846976,
    604286522616152, 593109480585851, ⟨[[(6712676389398835, 0), (0, 289996092544694), (404564426043, 0), (1257940099,
    0), (1816827, 0)], [(276155460476276, 0), (0, 670784608904), (0, 2403949657), (0, 2540168), (0, 2082)],
    [(214171888669, 0), (1633407394, 0), (743, 0), (0, 451), (0, 1)], [(0, 403508601), (1299104, 0), (424, 0)]], 3,
    4⟩, 281474976710656, 34096244391,
    3313983514604150641127786774848713611759470956929974338115279756652677450024931438565275040311181507224959902232183933851866324584031961744,
    lc0⟩) (.leaf ⟨1133, 16, 2399, 1497, 16, 3028, ⟨[[(264687228557459456, 0), (96498505699889690, 0), (1486996094905,
    0), (795193981, 0), (149398, 0)], [(6606510876428786, 0), (4987989554817, 0), (1629166152, 0), (517905, 0), (164,
    0)], [(1033479943919, 0), (925216132, 0), (525537, 0), (249, 0)], [(146697531, 0), (202178, 0), (163, 0)]], 3,
    4⟩, ⟨[[(0, 27771259902230528), (92014706513022836, 0), (0, 203396429304), (804638076, 0), (119850, 0)],
    [(13449612237510106, 0), (4756222820734, 0), (1469662357, 0), (461464, 0), (145, 0)], [(1058966074651, 0),
    (882226002, 0), (485573, 0), (226, 0)], [(145056913, 0), (192784, 0), (152, 0)]], 3, 4⟩, 1152921504606846976,
    955868684358204, 939872383153821, ⟨[[(6307054366141407, 0), (0, 292902410145620), (423644502804, 0), (1330833286,
    0), (1951552, 0)], [(279377792144202, 0), (0, 700514173307), (0, 2536595331), (0, 2721466), (0, 2264)],
    [(224071915207, 0), (1717262395, 0), (0, 1279), (0, 494), (0, 1)], [(0, 422603528), (1387809, 0), (460, 0)]], 3,
    4⟩, 281474976710656, 36436212671,
    3324371212198597027828812925515339032187632601183013105329408154005580843290894962223944584411663859800091984155555586129918950234362778485,
    lc0⟩))) (.sy (.sx (.leaf ⟨1113, 16, 2417, 1463, 16, 3010, ⟨[[(524896972865011712, 0), (97462571919016732, 0),
    (1063609003890, 0), (720790698, 0), (127194, 0)], [(5468218967818321, 0), (4374403340724, 0), (1372124166, 0),
    (421405, 0), (129, 0)], [(843339303725, 0), (733149901, 0), (402621, 0), (184, 0)], [(108184056, 0), (144721, 0),
    (114, 0)]], 3, 4⟩, ⟨[[(0, 237165935496265728), (92854452088659348, 0), (0, 689060339240), (747847522, 0), (98825,
    0)], [(12278661199527820, 0), (4167577536895, 0), (1230841075, 0), (373381, 0), (113, 0)], [(868713806004, 0),
    (698485900, 0), (370779, 0), (167, 0)], [(107195633, 0), (137879, 0), (106, 0)]], 3, 4⟩, 1152921504606846976,
    646685139096567, 635553987624836, ⟨[[(5748178064632648, 0), (0, 295953411192918), (400882245049, 0), (1239643074,
    0), (1790980, 0)], [(282099606446754, 0), (0, 670324671915), (0, 2350125889), (0, 2503741), (0, 2075)],
    [(213847113644, 0), (1587944362, 0), (0, 3629), (0, 441), (0, 1)], [(0, 390885888), (1303467, 0), (423, 0)]], 3,
    4⟩, 281474976710656, 34387927187,
    1598847271689797080434253117721620357945325519536765137108509597870147257149769209901255524838501995406437350391162504808527071203824200844,
    lc0⟩) (.leaf ⟨1098, 16, 2381, 1446, 16, 2970, ⟨[[(52082323851575296, 0), (97098180568975337, 0), (1399793861851,
    0), (822141309, 0), (160766, 0)], [(5808613676454928, 0), (4685681291089, 0), (1565039150, 0), (515505, 0), (168,
    0)], [(914586654491, 0), (837249951, 0), (488595, 0), (235, 0)], [(124928475, 0), (175416, 0), (142, 0)]], 3, 4⟩,
    ⟨[[(0, 65581070261682176), (92658051849318751, 0), (0, 362996403272), (837618338, 0), (128826, 0)],
    [(12549941608250076, 0), (4471413341373, 0), (1411494381, 0), (459561, 0), (149, 0)], [(940259008349, 0),
    (798963986, 0), (451604, 0), (214, 0)], [(123733478, 0), (167395, 0), (132, 0)]], 3, 4⟩, 1152921504606846976,
    1014317137957114, 998709179800540, ⟨[[(5467881532097886, 0), (0, 299007990142080), (417377697379, 0),
    (1304782081, 0), (1912425, 0)], [(285371270100392, 0), (0, 696395868465), (0, 2469832567), (0, 2668990), (0,
    2244)], [(222485250994, 0), (1664892652, 0), (0, 5169), (0, 479), (0, 1)], [(0, 408746505), (1386418, 0), (457,
    0)]], 3, 4⟩, 281474976710656, 36593833664,
    1479184790166666226979478671504774065423416082239614800984870852991604929109367862624713949192325416558359989617401173738890087865671338689,
    lc0⟩)) (.sx (.leaf ⟨1115, 16, 2358, 1476, 16, 2980, ⟨[[(321250048073793536, 0), (96092005972489737, 0),
    (1881773090555, 0), (920527865, 0), (192460, 0)], [(7012123617777028, 0), (5380568026862, 0), (1881963247, 0),
    (645304, 0), (218, 0)], [(1130174050481, 0), (1071097084, 0), (648534, 0), (322, 0)], [(171829750, 0), (248456,
    0), (205, 0)]], 3, 4⟩, ⟨[[(90957160254275584, 0), (91742539397310452, 0), (180093610202, 0), (916121695, 0),
    (158459, 0)], [(13767402520306364, 0), (5137024346496, 0), (1706264506, 0), (578333, 0), (194, 0)],
    [(1155278602101, 0), (1022615413, 0), (601161, 0), (293, 0)], [(169772961, 0), (237210, 0), (191, 0)]], 3, 4⟩,
    1152921504606846976, 1503040039087640, 1479928519034411, ⟨[[(5882954035353448, 0), (0, 296204204577787),
    (445266862715, 0), (1415087433, 0), (2110126, 0)], [(282881667132516, 0), (0, 733856700112), (0, 2688424467), (0,
    2933181), (0, 2481)], [(235053571396, 0), (1812201052, 0), (0, 3740), (0, 544), (0, 1)], [(0, 443958091),
    (1489887, 0), (503, 0)]], 3, 4⟩, 281474976710656, 39119873763,
    3263928655256303790065049444651882041842876975139989054805449167734587383051741495876126708952876499285767330435026323717070665222467392373,
    lc0⟩) (.leaf ⟨1095, 16, 2313, 1452, 16, 2926, ⟨[[(572937974769254400, 0), (95600621288907255, 0), (2332888364516,
    0), (1076408584, 0), (249343, 0)], [(7446339186268174, 0), (5832549217365, 0), (2192252110, 0), (808358, 0),
    (290, 0)], [(1242680923488, 0), (1248570352, 0), (800991, 0), (414, 0)], [(201920403, 0), (303489, 0), (255,
    0)]], 3, 4⟩, ⟨[[(263271606944006144, 0), (91363018129635468, 0), (619663950505, 0), (1055457170, 0), (209622,
    0)], [(14098051379677021, 0), (5574015029438, 0), (1996863957, 0), (728134, 0), (259, 0)], [(1266814161924, 0),
    (1193226091, 0), (744462, 0), (378, 0)], [(199325802, 0), (290037, 0), (239, 0)]], 3, 4⟩, 1152921504606846976,
    2347109550908751, 2313439078752492, ⟨[[(5424428360180491, 0), (0, 300091078264983), (470604744398, 0),
    (1515953672, 0), (2303844, 0)], [(286907057689739, 0), (0, 772714267296), (0, 2868993057), (0, 3190470), (0,
    2750)], [(247763256378, 0), (1924306279, 0), (0, 6866), (0, 607), (0, 1)], [(0, 468980095), (1612939, 0), (556,
    0)]], 3, 4⟩, 281474976710656, 42352597672,
    3012283653162509932012409603345887309091029379678218233139177553424141158500231047114181441780104961734489884555644406959779869637895480411,
    lc0⟩))))
theorem c31 : checkC job ⟨6, 8, 6, 7, 9, 13⟩ 3 200 B1.zlims t31 3697 121 640 3259 175 3792 = true := by decide +kernel

def t32 : CTree :=
  .sy (.sx (.leaf ⟨1027, 16, 2351, 1279, 16, 2728, ⟨[[(475502485042102272, 0), (96111430858877525, 0), (362707847079,
    0), (604453251, 0), (95239, 0)], [(6991072873347147, 0), (6689547245893, 0), (1970193432, 0), (577318, 0), (170,
    0)], [(2235948111419, 0), (1866107238, 0), (978676, 0), (430, 0)], [(478923385, 0), (614312, 0), (466, 0)]], 3,
    4⟩, ⟨[[(55612365830356992, 0), (87630646689218993, 0), (0, 1413444420657), (635280108, 0), (65336, 0)],
    [(19107264185997194, 0), (6099267755949, 0), (1674949250, 0), (485173, 0), (141, 0)], [(2232230757365, 0),
    (1701443654, 0), (858454, 0), (370, 0)], [(456848188, 0), (560105, 0), (414, 0)]], 3, 4⟩, 1152921504606846976,
    2536302879828405, 2391307351163286, ⟨[[(4729600954563654, 0), (0, 328787129910269), (424314448787, 0),
    (1393288352, 0), (2131164, 0)], [(299861482081448, 0), (0, 697708836615), (0, 2497164920), (0, 2861008), (0,
    2557)], [(211959379202, 0), (1603849591, 0), (0, 13026), (0, 491), (0, 1)], [(0, 377705635), (1421798, 0), (480,
    0)]], 3, 4⟩, 281474976710656, 36918549938,
    2796345185932257428018533409953801900846455545362735227509967106158389793987546200509025809242995020608108229428752997345506770808828185281,
    lc0⟩) (.leaf ⟨1001, 16, 2287, 1253, 16, 2663, ⟨[[(0, 14021091048685568), (95185426144920430, 0), (879565855082,
    0), (752493021, 0), (143982, 0)], [(7943034143617144, 0), (7504574241324, 0), (2469469250, 0), (816625, 0), (267,
    0)], [(2562421571109, 0), (2335751191, 0), (1360334, 0), (651, 0)], [(609543948, 0), (851250, 0), (682, 0)]], 3,
    4⟩, ⟨[[(0, 456551645707763712), (87089279454571046, 0), (0, 928619223342), (759497355, 0), (106924, 0)],
    [(19792240593006364, 0), (6866260831729, 0), (2122762752, 0), (694487, 0), (225, 0)], [(2549045053086, 0),
    (2137080186, 0), (1202093, 0), (565, 0)], [(581160835, 0), (778846, 0), (608, 0)]], 3, 4⟩, 1152921504606846976,
    5318273374347367, 5031359844301403, ⟨[[(3829252859884387, 0), (0, 334215657201958), (460315526464, 0),
    (1534118655, 0), (2406399, 0)], [(305813572839942, 0), (0, 752225179260), (0, 2736764633), (0, 3216234), (0,
    2948)], [(229376268771, 0), (1745407918, 0), (0, 18820), (0, 574), (0, 1)], [(0, 407687892), (1590793, 0), (552,
    0)]], 3, 4⟩, 281474976710656, 41354708864,
    2371083346456975964280356090552107804332511720565123473262148189197230264505831905735563297644798562903104224701928491995115179710216939766,
    lc0⟩)) (.sx (.sx (.leaf ⟨1077, 16, 2398, 1410, 16, 2949, ⟨[[(313356443446673408, 0), (98033919354971212, 0),
    (937517946650, 0), (734027418, 0), (132941, 0)], [(4713827416679993, 0), (4076663604185, 0), (1297035544, 0),
    (409601, 0), (129, 0)], [(738611946370, 0), (652575564, 0), (366298, 0), (171, 0)], [(90516698, 0), (123070, 0),
    (98, 0)]], 3, 4⟩, ⟨[[(92398663068811264, 0), (93446890927585385, 0), (0, 890587204789), (769419733, 0), (102614,
    0)], [(11415982244567907, 0), (3885915626706, 0), (1162150811, 0), (362807, 0), (113, 0)], [(763738481888, 0),
    (622041412, 0), (337282, 0), (154, 0)], [(89846184, 0), (117312, 0), (91, 0)]], 3, 4⟩, 1152921504606846976,
    670320876094325, 659562149476658, ⟨[[(5003336532046145, 0), (0, 302555664083618), (393714183304, 0), (1215517332,
    0), (1756739, 0)], [(288459459605226, 0), (0, 665387924766), (0, 2287521617), (0, 2456921), (0, 2057)],
    [(211876400548, 0), (1537920619, 0), (0, 7883), (0, 427), (0, 1)], [(0, 377664970), (1302863, 0), (420, 0)]], 3,
    4⟩, 281474976710656, 34552217081,
    2301977070400438837110675006523106813279742726407991992550302950351442241245929952327652870578161159405272844411432442294485907442107534017,
    lc0⟩) (.leaf ⟨1064, 16, 2366, 1396, 16, 2914, ⟨[[(0, 103090135395729408), (97738612035005867, 0), (1257308201982,
    0), (832725161, 0), (166252, 0)], [(5020136851820968, 0), (4356660104486, 0), (1472843732, 0), (496092, 0), (164,
    0)], [(798658560855, 0), (741035540, 0), (439330, 0), (213, 0)], [(103703080, 0), (147015, 0), (119, 0)]], 3, 4⟩,
    ⟨[[(0, 285964597757476864), (93304775317503099, 0), (0, 581253597042), (856740207, 0), (132339, 0)],
    [(11662140979491523, 0), (4159023580551, 0), (1326618539, 0), (441909, 0), (145, 0)], [(824091953273, 0),
    (707419035, 0), (405893, 0), (193, 0)], [(102884836, 0), (140346, 0), (111, 0)]], 3, 4⟩, 1152921504606846976,
    1042508181830955, 1027420254185072, ⟨[[(4568050380353947, 0), (0, 304907235035623), (410360004046, 0),
    (1276582693, 0), (1868673, 0)], [(291083798402373, 0), (0, 691136808512), (0, 2395790397), (0, 2606263), (0,
    2210)], [(220409457053, 0), (1604386359, 0), (0, 10199), (0, 461), (0, 1)], [(0, 392253033), (1377278, 0), (451,
    0)]], 3, 4⟩, 281474976710656, 36522068051,
    2125352597733744867908894446337379957252832011465205330852008180660360780061801924850236859556669214894272297906692764026977323822484302070,
    lc0⟩)) (.sx (.leaf ⟨1049, 16, 2331, 1380, 16, 2876, ⟨[[(290169580870434816, 0), (97376399394319600, 0),
    (1616960184049, 0), (951968066, 0), (208466, 0)], [(5345607114043353, 0), (4672692288918, 0), (1682577898, 0),
    (602847, 0), (209, 0)], [(866993170549, 0), (845764283, 0), (526981, 0), (263, 0)], [(119111343, 0), (174657, 0),
    (143, 0)]], 3, 4⟩, ⟨[[(10677145807618048, 0), (93124341975872366, 0), (0, 231726182957), (963201021, 0), (170210,
    0)], [(11922492318609298, 0), (4468653568707, 0), (1523783385, 0), (539981, 0), (186, 0)], [(892927299360, 0),
    (808832970, 0), (488526, 0), (240, 0)], [(118164277, 0), (167030, 0), (133, 0)]], 3, 4⟩, 1152921504606846976,
    1611124035760573, 1590820665382959, ⟨[[(4106543078136146, 0), (0, 307592019331714), (428255211906, 0),
    (1343282880, 0), (1992989, 0)], [(294216028091823, 0), (0, 719350628035), (0, 2514735946), (0, 2773316), (0,
    2384)], [(229865244403, 0), (1677956976, 0), (0, 13002), (0, 501), (0, 1)], [(0, 408579248), (1462632, 0), (486,
    0)]], 3, 4⟩, 281474976710656, 38804804226,
    2304532881235187851179454947251134496357083119913965155520822043510978891615340823432301569673503000919063736097534824146463546744659073041,
    lc0⟩) (.leaf ⟨1034, 16, 2294, 1362, 16, 2834, ⟨[[(0, 292872465253138432), (96994881845093464, 0), (2024481644580,
    0), (1096829934, 0), (261924, 0)], [(5695420929764480, 0), (5033505843018, 0), (1933288514, 0), (734178, 0),
    (266, 0)], [(945282883501, 0), (969267630, 0), (631488, 0), (326, 0)], [(136887686, 0), (206257, 0), (172, 0)]],
    3, 4⟩, ⟨[[(424645726292672512, 0), (92879131888465358, 0), (165179608768, 0), (1092862330, 0), (218246, 0)],
    [(12195789757028329, 0), (4819920846975, 0), (1759224269, 0), (660666, 0), (237, 0)], [(971246088783, 0),
    (928139035, 0), (586971, 0), (298, 0)], [(135751079, 0), (197505, 0), (161, 0)]], 3, 4⟩, 1152921504606846976,
    2475505882130827, 2447751606822148, ⟨[[(3928066682523798, 0), (0, 311470328150146), (445793757050, 0),
    (1417314555, 0), (2136491, 0)], [(298144771303377, 0), (0, 747341097773), (0, 2650744195), (0, 2969222), (0,
    2592)], [(239009558911, 0), (1765860875, 0), (0, 14729), (0, 547), (0, 1)], [(0, 429146430), (1562490, 0), (528,
    0)]], 3, 4⟩, 281474976710656, 41480195246,
    3263746054504056668699694628550905628977673005270445196968069308498991760547269770270447927253539590853242463796804307391485348636544894764,
    lc0⟩)))
theorem c32 : checkC job ⟨6, 8, 6, 7, 9, 13⟩ 3 200 B1.zlims t32 3939 121 640 6343 175 7584 = true := by decide +kernel

def t33 : CTree :=
  .sx (.sy (.sx (.leaf ⟨1082, 16, 2343, 1428, 16, 2928, ⟨[[(0, 267716322959556608), (96715190168864089, 0),
    (1780402294616, 0), (946537419, 0), (204353, 0)], [(6174331923789165, 0), (5042180394365, 0), (1799253023, 0),
    (634514, 0), (218, 0)], [(996978481630, 0), (963009638, 0), (594424, 0), (297, 0)], [(144954642, 0), (211835, 0),
    (174, 0)]], 3, 4⟩, ⟨[[(162660199775076352, 0), (92463109108956400, 0), (6920845275, 0), (948859353, 0), (167989,
    0)], [(12843752239102043, 0), (4820501051978, 0), (1631770494, 0), (569028, 0), (194, 0)], [(1023103556346, 0),
    (920670942, 0), (551410, 0), (271, 0)], [(143555265, 0), (202522, 0), (163, 0)]], 3, 4⟩, 1152921504606846976,
    1581684459071538, 1560261073364160, ⟨[[(5167578864125945, 0), (0, 302278575262702), (435546562497, 0),
    (1377358808, 0), (2049780, 0)], [(288936651276154, 0), (0, 725213766244), (0, 2603315669), (0, 2856014), (0,
    2437)], [(232078704916, 0), (1750724192, 0), (0, 7046), (0, 523), (0, 1)], [(0, 428679534), (1480719, 0), (497,
    0)]], 3, 4⟩, 281474976710656, 39109468735,
    1631018658968468150650062717039783134718410715927549265324886032044474251724018341594968531736163139506926168735179951543938140234686855644,
    lc0⟩) (.leaf ⟨1065, 16, 2303, 1407, 16, 2879, ⟨[[(0, 432121198153826304), (96321972585643377, 0), (2214775826475,
    0), (1099902443, 0), (260764, 0)], [(6569712624085380, 0), (5453402310885, 0), (2083725603, 0), (783988, 0),
    (284, 0)], [(1092571736523, 0), (1113978016, 0), (723214, 0), (374, 0)], [(168528879, 0), (254349, 0), (213,
    0)]], 3, 4⟩, ⟨[[(0, 63526223367372800), (92118766430266959, 0), (429236583922, 0), (1085354554, 0), (218558, 0)],
    [(13141934847555868, 0), (5215431954325, 0), (1897178955, 0), (705888, 0), (253, 0)], [(1117445024960, 0),
    (1065367308, 0), (672123, 0), (342, 0)], [(166668554, 0), (243250, 0), (199, 0)]], 3, 4⟩, 1152921504606846976,
    2451721889901310, 2419714179891192, ⟨[[(4710636024326960, 0), (0, 305899970104041), (459132378702, 0),
    (1469978695, 0), (2226831, 0)], [(292477806845368, 0), (0, 760883876740), (0, 2766190524), (0, 3089124), (0,
    2682)], [(243569544310, 0), (1849873146, 0), (0, 10140), (0, 579), (0, 1)], [(0, 450262143), (1591486, 0), (544,
    0)]], 3, 4⟩, 281474976710656, 42008148436,
    2015591546399284950438300225128838309194244274864516430340464238836788684389124411382497629220019096376032231527116215702746365815724714230,
    lc0⟩)) (.sx (.leaf ⟨1075, 16, 2266, 1426, 16, 2868, ⟨[[(0, 193520007117537280), (95116907409019266, 0),
    (2854959931971, 0), (1272277696, 0), (325012, 0)], [(7921239661154129, 0), (6362294431345, 0), (2575329629, 0),
    (1018314, 0), (390, 0)], [(1375026536198, 0), (1464304916, 0), (991169, 0), (539, 0)], [(237623811, 0), (369652,
    0), (324, 0)]], 3, 4⟩, ⟨[[(470395558870384640, 0), (90946920231338230, 0), (1127311714839, 0), (1231147277, 0),
    (277801, 0)], [(14456075708794516, 0), (6083367299228, 0), (2355236557, 0), (921089, 0), (350, 0)],
    [(1397218541843, 0), (1400108834, 0), (923046, 0), (494, 0)], [(234301956, 0), (353446, 0), (303, 0)]], 3, 4⟩,
    1152921504606846976, 3644110271895703, 3593922414516855, ⟨[[(5231795983863899, 0), (0, 305235682362695),
    (496458501288, 0), (1629944566, 0), (2531219, 0)], [(291775537978043, 0), (0, 812499924975), (0, 3077197944), (0,
    3495324), (0, 3076)], [(260484406688, 0), (2057301800, 0), (0, 8920), (0, 681), (0, 1)], [(0, 499676004),
    (1757850, 0), (620, 0)]], 3, 4⟩, 281474976710656, 46167110896,
    2459219502922777333094435064082966008256103899142523584760768068726870636741799688112603375703921901388698259762012426776395940738543531328,
    lc0⟩) (.leaf ⟨1052, 16, 2214, 1398, 16, 2804, ⟨[[(0, 158250733737869312), (94527719934865993, 0), (3459924603387,
    0), (1518252505, 0), (428001, 0)], [(8433134510281729, 0), (6977230807054, 0), (3046575625, 0), (1296079, 0),
    (547, 0)], [(1528683056075, 0), (1724923479, 0), (1237730, 0), (738, 0)], [(279732384, 0), (454586, 0), (439,
    0)]], 3, 4⟩, ⟨[[(0, 442260688775675904), (90442094100502961, 0), (1716791742375, 0), (1453201318, 0), (371078,
    0)], [(14837476928666726, 0), (6675664721917, 0), (2797272961, 0), (1177362, 0), (494, 0)], [(1548637067925, 0),
    (1650369772, 0), (1155154, 0), (679, 0)], [(275588844, 0), (434938, 0), (412, 0)]], 3, 4⟩, 1152921504606846976,
    5619748559083228, 5546104135547907, ⟨[[(4540095867187823, 0), (0, 309611682887364), (534046987262, 0),
    (1780490497, 0), (2830640, 0)], [(296264219740743, 0), (0, 868540930889), (0, 3339128672), (0, 3883657), (0,
    3498)], [(278630204044, 0), (2213843768, 0), (0, 15133), (0, 781), (0, 1)], [(0, 533043783), (1936603, 0), (701,
    0)]], 3, 4⟩, 281474976710656, 50833597031,
    1553056190748282106658445654400157671696258955234067449774719507636454572856088043638777988321657533746441214885172954345771260010399803638,
    lc0⟩))) (.sy (.sx (.leaf ⟨1046, 16, 2259, 1384, 16, 2826, ⟨[[(0, 352577315855138816), (95843912464157632, 0),
    (2711779493975, 0), (1288502159, 0), (334110, 0)], [(6993647442436003, 0), (5924966176720, 0), (2427073382, 0),
    (972500, 0), (375, 0)], [(1202454492055, 0), (1293126218, 0), (880970, 0), (482, 0)], [(195799403, 0), (304762,
    0), (268, 0)]], 3, 4⟩, ⟨[[(0, 219334433770831872), (91726638705633151, 0), (913582804340, 0), (1254572173, 0),
    (284629, 0)], [(13461306204012849, 0), (5670440801740, 0), (2218849793, 0), (879188, 0), (337, 0)],
    [(1226174905747, 0), (1237575954, 0), (820436, 0), (441, 0)], [(193477818, 0), (291670, 0), (251, 0)]], 3, 4⟩,
    1152921504606846976, 3775583098420056, 3729147499579752, ⟨[[(4209506994893689, 0), (0, 309916245149960),
    (486184322047, 0), (1577796578, 0), (2436923, 0)], [(296551698551172, 0), (0, 802034661281), (0, 2956015943), (0,
    3365942), (0, 2979)], [(256918535007, 0), (1965579022, 0), (0, 14098), (0, 647), (0, 1)], [(0, 475514445),
    (1724023, 0), (602, 0)]], 3, 4⟩, 281474976710656, 45496159160,
    2697692657429559285851886901124285934564930609697177120494733614961223933879947173399235949345611859466698577560427480342975923567447332881,
    lc0⟩) (.sy (.leaf ⟨1969, 16, 4278, 2498, 16, 5117, ⟨[[(276921141261762560, 0), (91663131434419370, 0),
    (1404194732063, 0), (334042179, 0), (45341, 0)], [(13361021333241630, 0), (5801638360148, 0), (1231533819, 0),
    (255256, 0), (52, 0)], [(2330940071073, 0), (1287547061, 0), (450184, 0), (129, 0)], [(382689852, 0), (303362,
    0), (140, 0)]], 3, 4⟩, ⟨[[(105319105322024960, 0), (84148189657845701, 0), (509888078794, 0), (310531840, 0),
    (37254, 0)], [(24547574952181070, 0), (5325994840197, 0), (1081250358, 0), (221624, 0), (44, 0)],
    [(2277613881591, 0), (1181988359, 0), (402331, 0), (113, 0)], [(362608175, 0), (278491, 0), (126, 0)]], 3, 4⟩,
    1152921504606846976, 654259105492433, 614196366601004, ⟨[[(3715507028307260, 0), (0, 170749377447180),
    (147573338613, 0), (262124125, 0), (222465, 0)], [(156759701960612, 0), (0, 233474233750), (0, 468953608), (0,
    294055), (0, 143)], [(71711485159, 0), (297743547, 0), (0, 1433), (0, 30)], [(0, 68794581), (138778, 0), (27,
    0)]], 3, 4⟩, 281474976710656, 3400683240,
    3730598538695204974412105504022072982415388863602317158375599841065651648916595462602390937010160293693521349880307875933382417724921513772,
    lc0⟩) (.leaf ⟨1943, 16, 4161, 2473, 16, 5015, ⟨[[(0, 453627406850457600), (90239809376014664, 0), (1742705734883,
    0), (396565435, 0), (59335, 0)], [(15128845308861133, 0), (6582247261371, 0), (1500950740, 0), (335229, 0), (77,
    0)], [(2765125722922, 0), (1612104430, 0), (602374, 0), (196, 0)], [(495111786, 0), (417253, 0), (224, 0)]], 3,
    4⟩, ⟨[[(457293680847355904, 0), (82939223529112044, 0), (848991988590, 0), (363967787, 0), (49587, 0)],
    [(26025030067519425, 0), (6049729944131, 0), (1324615664, 0), (292791, 0), (67, 0)], [(2691268701983, 0),
    (1481681872, 0), (540194, 0), (174, 0)], [(468667400, 0), (383496, 0), (202, 0)]], 3, 4⟩, 1152921504606846976,
    1074579906486631, 1009634266410505, ⟨[[(3868786352138066, 0), (0, 173354000295953), (160599302114, 0),
    (293967180, 0), (257552, 0)], [(159277259740660, 0), (0, 252171422287), (0, 526599631), (0, 339422), (0, 170)],
    [(77581089931, 0), (334077137, 0), (0, 1583), (0, 36)], [(0, 77037760), (158060, 0), (31, 0)]], 3, 4⟩,
    281474976710656, 3863465013,
    4358890315884788675616750998822786342934218182725360662353483667560830865341378892260446663452950044053194654090859651906750575818879436588,
    lc0⟩))) (.sx (.sy (.leaf ⟨1960, 16, 4147, 2499, 16, 5028, ⟨[[(57006808036540416, 0), (89549532265792401, 0),
    (1783391102589, 0), (395742726, 0), (59007, 0)], [(16036862329198795, 0), (6821318005369, 0), (1551952796, 0),
    (345264, 0), (78, 0)], [(2960574988710, 0), (1723457317, 0), (642429, 0), (207, 0)], [(548559466, 0), (461300,
    0), (243, 0)]], 3, 4⟩, ⟨[[(411598457758285824, 0), (82277549082249637, 0), (906529727668, 0), (362278316, 0),
    (49399, 0)], [(26902080987361064, 0), (6267384237435, 0), (1370162406, 0), (301690, 0), (68, 0)],
    [(2876659706645, 0), (1583501783, 0), (576171, 0), (183, 0)], [(518747741, 0), (423840, 0), (220, 0)]], 3, 4⟩,
    1152921504606846976, 1238452415468909, 1163055207241918, ⟨[[(4231575288259810, 0), (0, 172548795881235),
    (164661627317, 0), (304055876, 0), (268364, 0)], [(158525996741820, 0), (0, 257301882827), (0, 546025645), (0,
    353210), (0, 177)], [(79215785792, 0), (346777151, 0), (0, 1480), (0, 38)], [(0, 79998119), (162802, 0), (33,
    0)]], 3, 4⟩, 281474976710656, 3968342797,
    2639048129252268154905328633185562911243467444942378399435384208678955624671567604183365905479511422226032123799047671003402169904912750609,
    lc0⟩) (.leaf ⟨1921, 16, 4009, 2459, 16, 4898, ⟨[[(349856114290196480, 0), (87927642386038351, 0), (2172631810328,
    0), (477222975, 0), (80083, 0)], [(18010569432250831, 0), (7781922658920, 0), (1916693337, 0), (470949, 0), (126,
    0)], [(3531054100575, 0), (2188708336, 0), (896857, 0), (343, 0)], [(721537134, 0), (668920, 0), (427, 0)]], 3,
    4⟩, ⟨[[(201722628011458560, 0), (80907090319455999, 0), (1293314776937, 0), (433103332, 0), (68107, 0)],
    [(28520597776380061, 0), (7160577747096, 0), (1701185810, 0), (414357, 0), (111, 0)], [(3419674895018, 0),
    (2013951679, 0), (807678, 0), (306, 0)], [(681803876, 0), (615510, 0), (387, 0)]], 3, 4⟩, 1152921504606846976,
    2004535779692314, 1884820589225609, ⟨[[(4159552130823213, 0), (0, 175658262402687), (182523635760, 0),
    (348628325, 0), (319400, 0)], [(161650924154239, 0), (0, 282895775794), (0, 625320630), (0, 418273), (0, 216)],
    [(87262317304, 0), (395568042, 0), (0, 1956), (0, 47)], [(0, 90821261), (189932, 0), (40, 0)]], 3, 4⟩,
    281474976710656, 4617655518,
    2796301008241311473919800730629833903102740189926154461372847699537534627955015119027892844069950335744367961679694261250517882265480550417,
    lc0⟩)) (.sy (.leaf ⟨1906, 16, 4026, 2437, 16, 4891, ⟨[[(323391686949470208, 0), (88644089492571282, 0),
    (2136295141620, 0), (479153138, 0), (80958, 0)], [(17060088128108931, 0), (7518967883073, 0), (1857842312, 0),
    (460018, 0), (126, 0)], [(3302073315660, 0), (2051746968, 0), (847267, 0), (332, 0)], [(652960461, 0), (611459,
    0), (402, 0)]], 3, 4⟩, ⟨[[(0, 118087869937483776), (81607573834817665, 0), (1240639344613, 0), (435750350, 0),
    (68794, 0)], [(27618170892526541, 0), (6922116637355, 0), (1648780508, 0), (404736, 0), (110, 0)],
    [(3203369855420, 0), (1888880501, 0), (763205, 0), (296, 0)], [(617654352, 0), (562922, 0), (365, 0)]], 3, 4⟩,
    1152921504606846976, 1752571554067847, 1648945219828280, ⟨[[(3673758632277868, 0), (0, 176113064755982),
    (178200662923, 0), (336433831, 0), (305578, 0)], [(162156672452800, 0), (0, 277326782761), (0, 601669014), (0,
    400542), (0, 207)], [(85523345892, 0), (379971579, 0), (0, 2101), (0, 44)], [(0, 87131532), (183733, 0), (38,
    0)]], 3, 4⟩, 281474976710656, 4478950273,
    5075998741365174069474586867768622979733943850414927642812590774827361033563533882465635039357975633891122498780800762963290802378723723052,
    lc0⟩) (.leaf ⟨1859, 16, 3872, 2386, 16, 4741, ⟨[[(553539343027011584, 0), (86875651993669597, 0), (2603977547453,
    0), (594842099, 0), (117551, 0)], [(19178388301909441, 0), (8668862802556, 0), (2360693695, 0), (674562, 0),
    (224, 0)], [(3982355990148, 0), (2690158851, 0), (1284526, 0), (614, 0)], [(894410642, 0), (981058, 0), (791, 0),
    (1, 0)]], 3, 4⟩, ⟨[[(369152077233389568, 0), (80114497567868752, 0), (1702391973404, 0), (537685284, 0), (101522,
    0)], [(29334018789221672, 0), (7994202886238, 0), (2107228696, 0), (598444, 0), (199, 0)], [(3851117191907, 0),
    (2480795480, 0), (1162915, 0), (553, 0)], [(845095693, 0), (904707, 0), (722, 0), (1, 0)]], 3, 4⟩,
    1152921504606846976, 2834606708932775, 2671579618362686, ⟨[[(3715033170564812, 0), (0, 180295203859713),
    (199049075805, 0), (391221473, 0), (370777, 0)], [(166282520039942, 0), (0, 307494501414), (0, 699448920), (0,
    483927), (0, 259)], [(95001558990, 0), (440457810, 0), (0, 2700), (0, 57)], [(0, 100644197), (218850, 0), (47,
    0)]], 3, 4⟩, 281474976710656, 5325299521,
    5940807069158021945630069149820065187780365634701801929513395610849230189252122766881080370293673121058406088552701951770601970363687929644,
    lc0⟩))))
theorem c33 : checkC job ⟨6, 8, 6, 7, 9, 13⟩ 3 200 B1.zlims t33 3939 121 640 6693 175 7584 = true := by decide +kernel

end PyX.Kron.P1hs
