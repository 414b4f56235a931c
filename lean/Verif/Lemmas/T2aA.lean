import Verif.Lemmas.T2aJob

/-!
# Temperature from pressure and enthalpy in subregion 2a, part A of the certificate
-/

namespace PyX.Kron.T2a

set_option Elab.async false

def t0 : CTree :=
  .sy (.sy (.sy (.leaf ⟨15, 16, 15, 18, 16, 260, ⟨[[], [(8246337208320, 0)]], 3, 4⟩, ⟨[[(358358995938, 0),
    (5118586860769, 0), (0, 87567295356), (1488890601, 0), (0, 25052837)], [(359240450620, 0), (14042372305, 0),
    (190563182, 0), (284349, 0), (2894, 0)], [(364763104, 0), (29087001, 0), (758065, 0), (67881, 0), (189, 0)], [(0,
    1727163), (145384, 0), (25061, 0), (105, 0), (18, 0)]], 3, 4⟩, 1099511627776, 0, 177410750, ⟨[[(70967753940375,
    0), (0, 227215917901), (0, 106898824), (0, 61204), (33, 0)], [(9869446218, 0), (91763726, 0), (625824, 0), (4557,
    0), (2, 0)], [(0, 2339630), (0, 50559), (0, 1406)]], 3, 4⟩, 68719476736, 3485282,
    1309948508430339422963272579849104668172043371122431489467916787854927270034195328448057049088, lc0⟩) (.leaf ⟨15,
    16, 15, 52, 16, 310, ⟨[[], [(8246337208320, 0)]], 3, 4⟩, ⟨[[(57264636714, 0), (5018995253978, 0), (0,
    77926063480), (1213022496, 0), (0, 18272005)], [(537041517522, 0), (19510745175, 0), (234669596, 0), (527010, 0),
    (12748, 0)], [(693509295, 0), (54637447, 0), (2470551, 0), (97343, 0), (1275, 0)], [(121355, 0), (572479, 0),
    (39646, 0), (1126, 0), (62, 0)]], 3, 4⟩, 1099511627776, 0, 106091426, ⟨[[(65076971285061, 0), (0, 195256823008),
    (0, 78174581), (0, 24983), (212, 0)], [(12708881651, 0), (111681299, 0), (706256, 0), (3352, 0), (13, 0)], [(0,
    4568743), (0, 104514), (0, 1091), (0, 3)]], 3, 4⟩, 68719476736, 7103800,
    886888870104296272097358716518549636291495546198359545487477383080449409889260503877936135724, lc0⟩)) (.leaf ⟨15,
    16, 15, 55, 16, 195, ⟨[[], [(8246337208320, 0)]], 3, 4⟩, ⟨[[(460888771478, 0), (4863092710029, 0), (0,
    131843499135), (3665842289, 0), (0, 97898593)], [(460537986190, 0), (30084094639, 0), (649245641, 0), (6659191,
    0), (329004, 0)], [(923379406, 0), (161443876, 0), (15458003, 0), (972081, 0), (43762, 0)], [(6162940, 0),
    (2248520, 0), (278000, 0), (22613, 0), (1253, 0)]], 3, 4⟩, 1099511627776, 0, 1427834550, ⟨[[(58059077886464, 0),
    (0, 319271176511), (0, 196994415), (177974, 0), (5445, 0)], [(17730869997, 0), (282751394, 0), (3113319, 0),
    (29742, 0), (316, 0)], [(0, 9941243), (0, 338865), (0, 5996), (0, 106), (0, 2)], [(29, 0), (6, 0), (1, 0)]], 3,
    4⟩, 68719476736, 130516873,
    2708100087896330514378214450744825494731005428880406637567454549734421851973663916275854185526, lc0⟩)) (.sy (.sy
    (.leaf ⟨15, 16, 15, 169, 16, 451, ⟨[[], [(8246337208320, 0)]], 3, 4⟩, ⟨[[(240391296824, 0), (4473199715543, 0),
    (0, 53334090829), (673010703, 0), (0, 7996280)], [(1410417587357, 0), (42179694934, 0), (456462004, 0), (4316487,
    0), (87037, 0)], [(4794369221, 0), (438908374, 0), (20642223, 0), (628481, 0), (13414, 0)], [(56748280, 0),
    (7676088, 0), (439899, 0), (14684, 0), (272, 0)]], 3, 4⟩, 1099511627776, 0, 44374861, ⟨[[(52226960799237, 0), (0,
    140977100456), (0, 32307389), (64918, 0), (456, 0)], [(24073025234, 0), (187552124, 0), (1040597, 0), (5329, 0),
    (26, 0)], [(0, 18892144), (0, 309621), (0, 3147), (0, 26)], [(850, 0), (59, 0), (2, 0)]], 3, 4⟩, 68719476736,
    11845234, 2225058033644793049583659235949554950619095397044497361112718112378750636816968751699964365731, lc0⟩)
    (.leaf ⟨15, 16, 15, 207, 16, 486, ⟨[[], [(8246337208320, 0)]], 3, 4⟩, ⟨[[(0, 102686768629), (4202179690328, 0),
    (0, 46073308136), (551810934, 0), (0, 6007157)], [(1811434586209, 0), (51946244434, 0), (598274590, 0), (7308045,
    0), (128429, 0)], [(8971686807, 0), (826890419, 0), (38014225, 0), (1101651, 0), (21125, 0)], [(131663786, 0),
    (15937228, 0), (827147, 0), (23701, 0), (366, 0)]], 3, 4⟩, 1099511627776, 0, 41217351, ⟨[[(48955149918780, 0),
    (0, 132088718882), (0, 22427401), (96987, 0), (604, 0)], [(29033078220, 0), (227955288, 0), (1302840, 0), (6896,
    0), (35, 0)], [(0, 28092850), (0, 469343), (0, 4797), (0, 37)], [(3699, 0), (196, 0), (4, 0)]], 3, 4⟩,
    68719476736, 24336368,
    2433771214244947373777740534590084765284036291786690683908850189196061593082187623648376423098, lc0⟩)) (.sx
    (.leaf ⟨15, 16, 30, 163, 16, 336, ⟨[[], [(8246337208320, 0)]], 3, 4⟩, ⟨[[(281739761813, 0), (4740541540198, 0),
    (0, 95215313178), (2061580013, 0), (0, 41057875)], [(792934861862, 0), (42396527172, 0), (985398193, 0),
    (24794885, 0), (687123, 0)], [(3345850981, 0), (599859468, 0), (51799454, 0), (2710505, 0), (88750, 0)],
    [(31596044, 0), (6560675, 0), (575735, 0), (26741, 0), (656, 0)]], 3, 4⟩, 1099511627776, 0, 414412972,
    ⟨[[(44860385502635, 0), (0, 196059864608), (0, 55633480), (306299, 0), (3335, 0)], [(18781512846, 0), (243884358,
    0), (2381244, 0), (21861, 0), (203, 0)], [(0, 11701997), (0, 313955), (0, 4961), (0, 60), (0, 1)], [(300, 0), (0,
    40), (0, 6)]], 3, 4⟩, 68719476736, 116699990,
    1881149457820132782075543151410622195602260043474278499795123989283618551012770525157641735373, lc0⟩) (.leaf ⟨45,
    16, 30, 161, 16, 325, ⟨[[], [(8246337208320, 0)]], 3, 4⟩, ⟨[[(0, 274164888171), (4759068049738, 0), (0,
    87448248709), (2133650901, 0), (0, 35636598)], [(794323449290, 0), (45953896086, 0), (1380763601, 0), (46230794,
    0), (1387099, 0)], [(3599369232, 0), (656010938, 0), (56825582, 0), (2947660, 0), (95954, 0)], [(29937336, 0),
    (6295941, 0), (569137, 0), (29781, 0), (1247, 0)]], 3, 4⟩, 1099511627776, 0, 448615244, ⟨[[(44761503731757, 0),
    (0, 195308351335), (22686626, 0), (1138183, 0), (11421, 0)], [(18884462399, 0), (248230603, 0), (2426156, 0),
    (21840, 0), (178, 0)], [(0, 12687297), (0, 357959), (0, 6364), (0, 105), (0, 2)], [(3429, 0), (186, 0), (2, 0)]],
    3, 4⟩, 68719476736, 314140678,
    1536449451278128155469986217009102993238479997215269340635803955440913062852874967699687892583, lc0⟩)))
theorem c0 : checkC job ⟨6, 8, 8, 10, 9, 13⟩ 3 100 lims t0 2 2 2 3 3 16 = true := by decide +kernel

def t1 : CTree :=
  .sy (.sx (.leaf ⟨15, 16, 30, 217, 16, 391, ⟨[[], [(8246337208320, 0)]], 3, 4⟩, ⟨[[(0, 135390068188),
    (4410547109790, 0), (0, 76059310379), (1549347078, 0), (0, 25533387)], [(1267390471781, 0), (66980424163, 0),
    (1864534142, 0), (52402477, 0), (1173790, 0)], [(11082738677, 0), (1864499422, 0), (143830969, 0), (6395083, 0),
    (169770, 0)], [(114499429, 0), (19777161, 0), (1425013, 0), (55302, 0), (1447, 0)]], 3, 4⟩, 1099511627776, 0,
    249855015, ⟨[[(40232348553198, 0), (0, 170086371688), (0, 12605647), (574671, 0), (5957, 0)], [(26181226921, 0),
    (349093336, 0), (3652092, 0), (36480, 0), (337, 0)], [(0, 22937240), (0, 615448), (0, 11019), (0, 202), (0, 4)],
    [(0, 12668), (0, 1526), (0, 75), (0, 2)]], 3, 4⟩, 68719476736, 363464176,
    1040012530724564357096130205180920168786685116763014738801083318767224762716958683360945017418, lc0⟩) (.sy (.leaf
    ⟨45, 16, 30, 355, 16, 645, ⟨[[], [(8246337208320, 0)]], 3, 4⟩, ⟨[[(0, 203692408140), (4058917974081, 0), (0,
    30873880934), (409920600, 0), (0, 2364505)], [(2051899514442, 0), (61270221115, 0), (1089605696, 0), (18947245,
    0), (247625, 0)], [(15904952880, 0), (1375418769, 0), (54775808, 0), (1285347, 0), (20048, 0)], [(145318503, 0),
    (13821070, 0), (618962, 0), (21505, 0), (867, 0)]], 3, 4⟩, 1099511627776, 0, 33709134, ⟨[[(41285315903618, 0),
    (0, 97289352476), (28672372, 0), (304940, 0), (1567, 0)], [(24241781268, 0), (181616562, 0), (1011960, 0), (4685,
    0), (12, 0)], [(0, 21989990), (0, 378893), (0, 4646), (0, 52)], [(6697, 0), (73, 0)]], 3, 4⟩, 68719476736,
    39347307, 702424334320025573860837813569962380545555721395008587891126520899395329633420864951590546871, lc0⟩)
    (.leaf ⟨45, 16, 30, 377, 16, 647, ⟨[[], [(8246337208320, 0)]], 3, 4⟩, ⟨[[(216869557634, 0), (3742454655135, 0),
    (0, 24005708035), (366509226, 0), (0, 1385410)], [(2470814888026, 0), (76857699622, 0), (1493688146, 0),
    (25833959, 0), (329223, 0)], [(26517684362, 0), (2198011798, 0), (83337994, 0), (1929663, 0), (36890, 0)],
    [(257503686, 0), (24763610, 0), (1333088, 0), (69469, 0), (4033, 0)]], 3, 4⟩, 1099511627776, 0, 140562683,
    ⟨[[(39273846510517, 0), (0, 95340928210), (51880428, 0), (448376, 0), (1860, 0)], [(28509217121, 0), (229506658,
    0), (1316874, 0), (5010, 0), (0, 8)], [(0, 32463449), (0, 656458), (0, 9212), (0, 98), (0, 1)], [(9169, 0), (266,
    0), (15, 0), (1, 0)]], 3, 4⟩, 68719476736, 88271372,
    1330848078579896603945735129624384507102695558869189599832601664942789421923257057849060702313, lc0⟩))) (.sy (.sx
    (.leaf ⟨15, 16, 30, 420, 16, 703, ⟨[[], [(8246337208320, 0)]], 3, 4⟩, ⟨[[(94994286536, 0), (3426725269166, 0),
    (0, 25989897675), (265350349, 0), (0, 1813701)], [(2898016500246, 0), (78571607311, 0), (1225929559, 0),
    (17173210, 0), (168881, 0)], [(41429904455, 0), (3249651923, 0), (113840009, 0), (2251675, 0), (26753, 0)],
    [(428168637, 0), (32977354, 0), (1101237, 0), (25190, 0), (838, 0)]], 3, 4⟩, 1099511627776, 0, 85739583,
    ⟨[[(37408784949684, 0), (0, 94496101358), (8809234, 0), (195071, 0), (1074, 0)], [(33177170835, 0), (282245956,
    0), (1893447, 0), (11049, 0), (45, 0)], [(0, 37546979), (0, 702279), (0, 10220), (0, 143), (0, 2)], [(0, 70232),
    (0, 3440), (0, 65)]], 3, 4⟩, 68719476736, 209894919,
    1330004551944624299490756318202888821374546243379772883697651483714942043333508517485801492084, lc0⟩) (.leaf ⟨45,
    16, 30, 386, 16, 630, ⟨[[], [(8246337208320, 0)]], 3, 4⟩, ⟨[[(522906685493, 0), (3401188186164, 0), (0,
    17179210191), (335192344, 0), (0, 418742)], [(2913169222379, 0), (95317819932, 0), (1988346402, 0), (35167284,
    0), (587518, 0)], [(42047830807, 0), (3358506492, 0), (126708249, 0), (3564142, 0), (139327, 0)], [(464553062,
    0), (52866363, 0), (4317438, 0), (363581, 0), (30095, 0)]], 3, 4⟩, 1099511627776, 0, 749565477,
    ⟨[[(37445818763023, 0), (0, 95269240454), (86540808, 0), (631861, 0), (1737, 0)], [(33496295436, 0), (293537600,
    0), (1650082, 0), (3296, 0), (0, 45)], [(0, 49479011), (0, 1171785), (0, 16956), (0, 141)], [(26289, 0), (2005,
    0), (91, 0), (2, 0)]], 3, 4⟩, 68719476736, 227262880,
    1978873502659062194247336901226599827893328276308529112319294705970765327952697045170717331589, lc0⟩)) (.sx
    (.leaf ⟨15, 16, 30, 429, 16, 688, ⟨[[], [(8246337208320, 0)]], 3, 4⟩, ⟨[[(0, 396105346226), (3075009074728, 0),
    (0, 21107615920), (223078853, 0), (0, 1296968)], [(3344595297487, 0), (93256383508, 0), (1540058739, 0),
    (21130571, 0), (197769, 0)], [(64150590142, 0), (4779676541, 0), (157382221, 0), (2955282, 0), (39664, 0)],
    [(658456398, 0), (49126320, 0), (1911796, 0), (89984, 0), (6825, 0)]], 3, 4⟩, 1099511627776, 0, 468627768,
    ⟨[[(35678782943922, 0), (0, 95994984502), (22946801, 0), (307513, 0), (1616, 0)], [(39068465820, 0), (371954314,
    0), (2705842, 0), (15220, 0), (46, 0)], [(0, 54984407), (0, 1299873), (0, 23440), (0, 341), (0, 3)], [(0,
    156556), (0, 6053), (0, 58), (1, 0)]], 3, 4⟩, 68719476736, 578952206,
    1801088534090337661917730532884985267564629771309834719577365925169217335300994076439698118058, lc0⟩) (.sx (.leaf
    ⟨76, 16, 61, 512, 16, 804, ⟨[[(274877906944, 0)], [(8383776161792, 0)]], 3, 4⟩, ⟨[[(228881556894, 0),
    (3972535179697, 0), (0, 17502944296), (374431126, 0), (360391, 0)], [(2190331249095, 0), (72258567471, 0),
    (1519911957, 0), (28650071, 0), (798151, 0)], [(20719249141, 0), (1600197635, 0), (63185040, 0), (2561918, 0),
    (171527, 0)], [(136062024, 0), (19457070, 0), (2329149, 0), (264007, 0), (25670, 0)]], 3, 4⟩, 1099511627776, 0,
    326996864, ⟨[[(35724070429680, 0), (0, 74374442583), (63333881, 0), (354153, 0), (1114, 0)], [(19402772825, 0),
    (143985661, 0), (644433, 0), (866, 0), (0, 1)], [(0, 17713463), (0, 364878), (0, 4218), (0, 24)], [(5513, 0),
    (541, 0), (19, 0)]], 3, 4⟩, 68719476736, 56605815,
    930871480592623648459752547365956153612392333627324720460375845765743625209832861285329532960, lc0⟩) (.leaf ⟨107,
    16, 61, 482, 16, 745, ⟨[[(0, 274877906944)], [(8383776161792, 0)]], 3, 4⟩, ⟨[[(321115009077, 0), (3974057392224,
    0), (0, 9450660621), (514392397, 0), (8127445, 0)], [(2190336828422, 0), (80039266394, 0), (2043407189, 0),
    (65375254, 0), (3973426, 0)], [(21158076591, 0), (1844860965, 0), (110457465, 0), (8665747, 0), (785720, 0)],
    [(212922764, 0), (46740821, 0), (7345886, 0), (920137, 0), (92867, 0)]], 3, 4⟩, 1099511627776, 0, 1148561898,
    ⟨[[(35740287307267, 0), (0, 74316894056), (104120392, 0), (533656, 0), (3447, 0)], [(19364753006, 0), (140540046,
    0), (514299, 0), (780, 0), (34, 0)], [(0, 19467367), (0, 379603), (0, 3154), (0, 1)], [(19843, 0), (950, 0), (18,
    0)]], 3, 4⟩, 68719476736, 214397045,
    1790255135889093313953550833136575230798584772787760335662500666107452892215497023398064378550, lc0⟩))))
theorem c1 : checkC job ⟨6, 8, 8, 10, 9, 13⟩ 3 100 lims t1 2 2 2 15 3 32 = true := by decide +kernel

def t2 : CTree :=
  .sx (.leaf ⟨15, 16, 61, 357, 16, 547, ⟨[[(274877906944, 0)], [(8383776161792, 0)]], 3, 4⟩, ⟨[[(0, 394817016829),
    (4178098363491, 0), (0, 55923390045), (1027558416, 0), (0, 12427310)], [(1623739383100, 0), (87558129943, 0),
    (2725726876, 0), (65622236, 0), (1042530, 0)], [(23568634694, 0), (3246401236, 0), (195126458, 0), (6691547, 0),
    (180825, 0)], [(118984814, 0), (16605666, 0), (1536020, 0), (226389, 0), (40412, 0)]], 3, 4⟩, 1099511627776, 0,
    589413980, ⟨[[(33399409540319, 0), (0, 124039206641), (22574289, 0), (555228, 0), (4257, 0)], [(24145066842, 0),
    (334454719, 0), (3548773, 0), (29966, 0), (190, 0)], [(0, 20328611), (0, 758892), (0, 20748), (0, 396), (0, 4)],
    [(0, 69609), (0, 3032), (0, 18), (2, 0)]], 3, 4⟩, 68719476736, 418088837,
    1825595465154626754548890935249465708089729810546162655744816633125602365197955094783906391462, lc0⟩) (.sy (.leaf
    ⟨46, 16, 61, 555, 16, 852, ⟨[[(0, 274877906944)], [(8383776161792, 0)]], 3, 4⟩, ⟨[[(407225834256, 0),
    (3673161068173, 0), (0, 18752248245), (283930384, 0), (0, 449946)], [(2579634593045, 0), (79636893399, 0),
    (1515885541, 0), (24788320, 0), (588918, 0)], [(31793299366, 0), (2299055319, 0), (82336699, 0), (2993062, 0),
    (192539, 0)], [(203878652, 0), (28493502, 0), (3742016, 0), (454549, 0), (44472, 0)]], 3, 4⟩, 1099511627776, 0,
    640567183, ⟨[[(34204691068498, 0), (0, 73579143176), (45624119, 0), (303857, 0), (1321, 0)], [(22562650881, 0),
    (179815620, 0), (948531, 0), (3057, 0), (16, 0)], [(0, 23044759), (0, 521447), (0, 7009), (0, 51)], [(0, 9146),
    (427, 0), (27, 0), (1, 0)]], 3, 4⟩, 68719476736, 82371990,
    647884882900540958359523954607603960313047966292362002192811623486442366144126366983480718517, lc0⟩) (.leaf ⟨46,
    16, 61, 553, 16, 819, ⟨[[(0, 274877906944)], [(8383776161792, 0)]], 3, 4⟩, ⟨[[(0, 449886996766), (3344095728017,
    0), (0, 13052671734), (293506539, 0), (3267070, 0)], [(2997748391203, 0), (97445111637, 0), (2140254845, 0),
    (65010631, 0), (4046688, 0)], [(47697058345, 0), (3781066715, 0), (228758555, 0), (19451973, 0), (1720647, 0)],
    [(679898903, 0), (191601429, 0), (34881638, 0), (4441100, 0), (420202, 0)]], 3, 4⟩, 1099511627776, 0, 5983121206,
    ⟨[[(32733931618510, 0), (0, 74169012754), (74453243, 0), (555545, 0), (4762, 0)], [(26630282545, 0), (232173613,
    0), (1339734, 0), (9128, 0), (168, 0)], [(0, 36886832), (0, 893045), (0, 9851), (2, 0), (2, 0)], [(15371, 0),
    (2319, 0), (66, 0)]], 3, 4⟩, 68719476736, 284495216,
    2083630151414050025928468008271148104974251013093993330321613848768539594817401082837105155750, lc0⟩))
theorem c2 : checkC job ⟨6, 8, 8, 10, 9, 13⟩ 3 100 lims t2 2 2 4 39 3 64 = true := by decide +kernel

def t3 : CTree :=
  .sx (.leaf ⟨15, 16, 123, 475, 16, 691, ⟨[[(412316860416, 0)], [(8452495638528, 0)]], 3, 4⟩, ⟨[[(0, 313853518857),
    (4404530466665, 0), (0, 54938711265), (902551141, 0), (0, 10432758)], [(1364467689468, 0), (72992840803, 0),
    (2188249345, 0), (46402362, 0), (668641, 0)], [(16067251135, 0), (1994630446, 0), (107906208, 0), (3608874, 0),
    (145984, 0)], [(42122471, 0), (7892122, 0), (1580951, 0), (335181, 0), (56981, 0)]], 3, 4⟩, 1099511627776, 0,
    771005850, ⟨[[(30808995231579, 0), (0, 100061193291), (11860165, 0), (288381, 0), (2025, 0)], [(16211646465, 0),
    (212047548, 0), (2070216, 0), (16094, 0), (108, 0)], [(0, 10450591), (0, 412666), (0, 9610), (0, 130), (0, 1)],
    [(0, 20000), (126, 0), (51, 0), (2, 0)]], 3, 4⟩, 68719476736, 111480309,
    2249755664386443487911201199298769359668728742694662139161608328254206673614801778915689521374, lc0⟩) (.sy (.leaf
    ⟨46, 16, 123, 769, 16, 1123, ⟨[[(137438953472, 0)], [(8452495638528, 0)]], 3, 4⟩, ⟨[[(341596844313, 0),
    (3957456361041, 0), (0, 20138760589), (247379196, 0), (0, 275242)], [(2223536535361, 0), (65665425069, 0),
    (1168481608, 0), (20126521, 0), (713258, 0)], [(22574229779, 0), (1538487889, 0), (62515730, 0), (3506974, 0),
    (265564, 0)], [(129433153, 0), (32528315, 0), (5591607, 0), (672735, 0), (59678, 0)]], 3, 4⟩, 1099511627776, 0,
    849013310, ⟨[[(31472296217947, 0), (0, 57913070057), (24373678, 0), (157144, 0), (763, 0)], [(15185489711, 0),
    (111650731, 0), (581328, 0), (2727, 0), (21, 0)], [(0, 10917814), (0, 224158), (0, 2184), (0, 2)], [(0, 6471),
    (193, 0), (10, 0)]], 3, 4⟩, 68719476736, 31224627,
    891478191729958765990099488174092928039323381166397291918980282952262096277410583112790211723, lc0⟩) (.leaf ⟨46,
    16, 123, 771, 16, 1096, ⟨[[(137438953472, 0)], [(8452495638528, 0)]], 3, 4⟩, ⟨[[(324267182206, 0),
    (3652783905444, 0), (0, 15186361662), (270752716, 0), (3873711, 0)], [(2601267911160, 0), (80920413676, 0),
    (1804396936, 0), (68770258, 0), (4567245, 0)], [(34510289825, 0), (3006092106, 0), (245812213, 0), (23265560, 0),
    (1887649, 0)], [(775916350, 0), (259409292, 0), (45244836, 0), (5174610, 0), (431432, 0)]], 3, 4⟩, 1099511627776,
    0, 7019564213, ⟨[[(30268864210020, 0), (0, 58042117845), (38859193, 0), (280174, 0), (2161, 0)], [(17816288996,
    0), (144242795, 0), (885015, 0), (6845, 0), (87, 0)], [(0, 16529782), (0, 310479), (0, 1090), (55, 0), (1, 0)],
    [(4327, 0), (985, 0), (30, 0)]], 3, 4⟩, 68719476736, 93013185,
    2737914198697653921248574449322130021816853676047439457040551890772784099694916796673299742295, lc0⟩))
theorem c3 : checkC job ⟨6, 8, 8, 10, 9, 13⟩ 3 100 lims t3 2 2 8 45 3 64 = true := by decide +kernel

def t4 : CTree :=
  .sy (.sx (.leaf ⟨77, 16, 123, 720, 16, 1040, ⟨[[(0, 137438953472)], [(8452495638528, 0)]], 3, 4⟩, ⟨[[(282726990920,
    0), (3934209290941, 0), (0, 12826761133), (424394232, 0), (12431228, 0)], [(2235824777310, 0), (75027490525, 0),
    (2049708844, 0), (105695746, 0), (8055029, 0)], [(23877772611, 0), (2366201986, 0), (228307755, 0), (23919841,
    0), (2084170, 0)], [(438494593, 0), (150756578, 0), (27721245, 0), (3372864, 0), (300350, 0)]], 3, 4⟩,
    1099511627776, 0, 3344616747, ⟨[[(31472983621340, 0), (0, 58219921267), (55527723, 0), (398757, 0), (3635, 0)],
    [(15367700859, 0), (115711501, 0), (662391, 0), (6008, 0), (93, 0)], [(0, 12891928), (0, 240366), (0, 1250), (26,
    0), (1, 0)], [(4777, 0), (425, 0), (7, 0)]], 3, 4⟩, 68719476736, 102771821,
    2309620048671168480421365687593594791988605007296794846797599049914817422992551987238256558523, lc0⟩) (.sy (.leaf
    ⟨108, 16, 123, 1070, 16, 1539, ⟨[[(0, 412316860416)], [(8452495638528, 0)]], 3, 4⟩, ⟨[[(0, 229927148321),
    (3174425898987, 0), (0, 1539156080), (193310867, 0), (5783691, 0)], [(3422440815297, 0), (67051150582, 0),
    (1497562459, 0), (61524050, 0), (2630834, 0)], [(39253095085, 0), (2846922835, 0), (193811916, 0), (11300993, 0),
    (507917, 0)], [(1139714197, 0), (207835805, 0), (19561306, 0), (1212646, 0), (55050, 0)]], 3, 4⟩, 1099511627776,
    0, 2596228351, ⟨[[(31769673619961, 0), (0, 36743653292), (37003835, 0), (217082, 0), (1793, 0)], [(14905779325,
    0), (71535924, 0), (307272, 0), (2783, 0), (32, 0)], [(0, 12853715), (0, 141580), (0, 370), (5, 0)], [(10143, 0),
    (230, 0), (0, 1)]], 3, 4⟩, 68719476736, 31160698,
    1301255757918954026704402904284930415579442925413838313932232103491681790024036251012586777850, lc0⟩) (.sx (.leaf
    ⟨201, 16, 247, 1374, 16, 1952, ⟨[[(0, 343597383680)], [(8486855376896, 0)]], 3, 4⟩, ⟨[[(462668430250, 0),
    (3925774744831, 0), (1059475518, 0), (373822567, 0), (12939750, 0)], [(2392465942234, 0), (52306768782, 0),
    (1573233023, 0), (73973496, 0), (3144022, 0)], [(18229605307, 0), (1680734379, 0), (127830478, 0), (7441927, 0),
    (325181, 0)], [(419208711, 0), (76998627, 0), (7097004, 0), (427425, 0), (18795, 0)]], 3, 4⟩, 1099511627776, 0,
    678207519, ⟨[[(31161590447661, 0), (0, 28603313654), (27574795, 0), (150705, 0), (1081, 0)], [(8044688799, 0),
    (32938314, 0), (142288, 0), (1195, 0), (11, 0)], [(0, 3741082), (0, 29674), (9, 0), (2, 0)], [(1546, 0), (18,
    0)]], 3, 4⟩, 68719476736, 12324760,
    1639161238390908218102102343067483018551942228502706432466310345162572493119278325405643004379, lc0⟩) (.leaf
    ⟨232, 16, 247, 1282, 16, 1809, ⟨[[(0, 481036337152)], [(8486855376896, 0)]], 3, 4⟩, ⟨[[(78201512434, 0),
    (3862263315248, 0), (9194816594, 0), (760264415, 0), (29755793, 0)], [(2374756713116, 0), (65072261594, 0),
    (2787522418, 0), (146742046, 0), (6337299, 0)], [(23017716816, 0), (2690693124, 0), (223122493, 0), (13207361,
    0), (579161, 0)], [(650187628, 0), (120945107, 0), (11189072, 0), (675346, 0), (29757, 0)]], 3, 4⟩,
    1099511627776, 0, 1113106378, ⟨[[(31152473358669, 0), (0, 29089357291), (44373169, 0), (316715, 0), (2699, 0)],
    [(8121579278, 0), (36850831, 0), (213386, 0), (2206, 0), (21, 0)], [(0, 3864810), (0, 31435), (0, 33), (1, 0)],
    [(1580, 0), (0, 9), (0, 1)]], 3, 4⟩, 68719476736, 29696146,
    2957135504759668704675861221159979069079909899767655279557325221708184079134020365263113189037, lc0⟩)))) (.sx
    (.sx (.sy (.leaf ⟨139, 16, 247, 1489, 16, 2110, ⟨[[(0, 68719476736)], [(8486855376896, 0)]], 3, 4⟩, ⟨[[(0,
    233674766348), (3807705069237, 0), (0, 4407825430), (156362772, 0), (3827497, 0)], [(2586732978576, 0),
    (46855799703, 0), (907018275, 0), (33357855, 0), (1326850, 0)], [(18790506687, 0), (1290118332, 0), (82842047,
    0), (4537301, 0), (190858, 0)], [(387026537, 0), (68602602, 0), (6123391, 0), (356607, 0), (15140, 0)]], 3, 4⟩,
    1099511627776, 0, 645362151, ⟨[[(30540595337514, 0), (0, 28336427254), (16931407, 0), (73417, 0), (416, 0)],
    [(8656561411, 0), (35085825, 0), (127305, 0), (793, 0), (6, 0)], [(0, 4127896), (0, 32458), (50, 0), (3, 0)],
    [(1372, 0), (43, 0)]], 3, 4⟩, 68719476736, 5891630,
    1311134480774964337516374501559590181863417943778814127876812587331711720955579638663052334918, lc0⟩) (.leaf
    ⟨139, 16, 247, 1448, 16, 2024, ⟨[[(0, 68719476736)], [(8486855376896, 0)]], 3, 4⟩, ⟨[[(0, 71422346695),
    (3622111349775, 0), (0, 395166862), (299890465, 0), (9753178, 0)], [(2791243436941, 0), (60271800329, 0),
    (1836712448, 0), (83582313, 0), (3344890, 0)], [(29543296320, 0), (2867074108, 0), (214111251, 0), (11791744, 0),
    (483119, 0)], [(1074656319, 0), (189579439, 0), (16501248, 0), (932952, 0), (38406, 0)]], 3, 4⟩, 1099511627776,
    0, 1784432055, ⟨[[(29966823752913, 0), (0, 28701193363), (24766577, 0), (138730, 0), (981, 0)], [(9438529524, 0),
    (43347154, 0), (213949, 0), (1763, 0), (15, 0)], [(0, 4743780), (0, 26910), (333, 0), (7, 0)], [(2343, 0), (51,
    0)]], 3, 4⟩, 68719476736, 13367822,
    3672678781866662750689665910755247231412058732856187943369096060524707077819953155726023155765, lc0⟩)) (.sy
    (.leaf ⟨170, 16, 247, 1405, 16, 1979, ⟨[[(0, 206158430208)], [(8486855376896, 0)]], 3, 4⟩, ⟨[[(509876758930, 0),
    (3771430876907, 0), (957059037, 0), (365836023, 0), (12533974, 0)], [(2589377645791, 0), (57603584465, 0),
    (1827896330, 0), (86057783, 0), (3557137, 0)], [(23877475411, 0), (2331347505, 0), (178048949, 0), (10106841, 0),
    (427704, 0)], [(709511203, 0), (128142469, 0), (11488340, 0), (670508, 0), (28525, 0)]], 3, 4⟩, 1099511627776, 0,
    1116533136, ⟨[[(30561179517379, 0), (0, 28654436546), (27271002, 0), (154342, 0), (1114, 0)], [(8714898033, 0),
    (38161878, 0), (182674, 0), (1557, 0), (14, 0)], [(0, 4248384), (0, 29441), (144, 0), (4, 0)], [(1764, 0), (24,
    0)]], 3, 4⟩, 68719476736, 13461972,
    2666025320399098289375110287620290588670758911487624488305729193592447575071857380275251188723, lc0⟩) (.sy (.sx
    (.leaf ⟨325, 16, 495, 2814, 16, 3926, ⟨[[(0, 171798691840)], [(8504035246080, 0)]], 3, 4⟩, ⟨[[(0, 249864954458),
    (3701257631371, 0), (2320996134, 0), (133520501, 0), (2416526, 0)], [(2798678306765, 0), (35804782983, 0),
    (708609136, 0), (17556492, 0), (357793, 0)], [(17200822028, 0), (979047336, 0), (38760527, 0), (1085986, 0),
    (22470, 0)], [(336408281, 0), (30013046, 0), (1318053, 0), (37597, 0), (781, 0)]], 3, 4⟩, 1099511627776, 0,
    170771735, ⟨[[(30107798644689, 0), (0, 14199812299), (8360724, 0), (27223, 0), (107, 0)], [(4659979550, 0),
    (11179295, 0), (32688, 0), (154, 0), (1, 0)], [(0, 1159216), (0, 2921), (23, 0)], [(260, 0), (1, 0)]], 3, 4⟩,
    68719476736, 1205431,
    2071988930826103011642156365931140790605647700309509906520571906768936027214235583657079283452, lc0⟩) (.sy (.leaf
    ⟨356, 16, 495, 4078, 16, 5679, ⟨[[(0, 240518168576)], [(8504035246080, 0)]], 3, 4⟩, ⟨[[(0, 366236177236),
    (2781699299616, 0), (1777696837, 0), (36099697, 0), (341514, 0)], [(4178680112085, 0), (30494367605, 0),
    (350704880, 0), (4518182, 0), (46441, 0)], [(28895147749, 0), (898646468, 0), (18298513, 0), (258527, 0), (2689,
    0)], [(583794727, 0), (26200574, 0), (578077, 0), (8284, 0), (86, 0)]], 3, 4⟩, 1099511627776, 0, 216344686,
    ⟨[[(30179380058494, 0), (0, 9509558834), (4740716, 0), (11574, 0), (33, 0)], [(4646949577, 0), (7858339, 0),
    (17570, 0), (61, 0)], [(0, 1151072), (0, 1855), (11, 0)], [(225, 0), (0, 1)]], 3, 4⟩, 68719476736, 518865,
    2887893300004937580456355033641820346979457336157853417627930322094382342830923099642390681092, lc0⟩) (.sx (.leaf
    ⟨697, 16, 991, 5450, 16, 7569, ⟨[[(0, 223338299392)], [(8512625180672, 0)]], 3, 4⟩, ⟨[[(0, 228588892492),
    (3696036251565, 0), (2782220082, 0), (53192997, 0), (504709, 0)], [(2870551446431, 0), (22015242415, 0),
    (265188981, 0), (3429713, 0), (35025, 0)], [(10929049577, 0), (349916114, 0), (7138977, 0), (100239, 0), (1034,
    0)], [(117777502, 0), (5256485, 0), (115146, 0), (1637, 0), (17, 0)]], 3, 4⟩, 1099511627776, 0, 23052083,
    ⟨[[(30036973108793, 0), (0, 7101335878), (2813621, 0), (5317, 0), (11, 0)], [(2375106482, 0), (3109594, 0),
    (5490, 0), (14, 0)], [(0, 293267), (0, 292), (2, 0)], [(28, 0)]], 3, 4⟩, 68719476736, 139945,
    3379478467478629823312084616360294701928265951119604202982459885022812631516498732875233475752, lc0⟩) (.skip))))
    (.sx (.sy (.leaf ⟨325, 16, 495, 4086, 16, 5671, ⟨[[(0, 171798691840)], [(8504035246080, 0)]], 3, 4⟩,
    ⟨[[(416046427592, 0), (2694825824497, 0), (1609061774, 0), (33560068, 0), (312365, 0)], [(4298616480438, 0),
    (31339184218, 0), (359243530, 0), (4569150, 0), (46235, 0)], [(32501095577, 0), (1013190347, 0), (20407294, 0),
    (283998, 0), (2906, 0)], [(725022041, 0), (32119249, 0), (698059, 0), (9846, 0), (101, 0)]], 3, 4⟩,
    1099511627776, 0, 288918078, ⟨[[(29900767416564, 0), (0, 9646867251), (4655945, 0), (11432, 0), (32, 0)],
    [(4832073102, 0), (8481371, 0), (19413, 0), (67, 0)], [(0, 1196399), (0, 1440), (16, 0)], [(265, 0)]], 3, 4⟩,
    68719476736, 565640,
    3835073086617042399731793147893906445044542470905387181963171821956875142919887261218031928537, lc0⟩) (.sx (.sy
    (.leaf ⟨635, 16, 991, 8224, 16, 11393, ⟨[[(0, 154618822656)], [(8512625180672, 0)]], 3, 4⟩, ⟨[[(0, 362970383816),
    (2689815445344, 0), (853484863, 0), (8679808, 0), (40342, 0)], [(4394606157876, 0), (16348717677, 0), (95458168,
    0), (606721, 0), (3054, 0)], [(17555594434, 0), (276957298, 0), (2785939, 0), (19287, 0), (98, 0)], [(204413243,
    0), (4506885, 0), (48705, 0), (341, 0), (2, 0)]], 3, 4⟩, 1099511627776, 0, 37768518, ⟨[[(29789418005367, 0), (0,
    4799879889), (1180545, 0), (1467, 0), (2, 0)], [(2455788306, 0), (2189536, 0), (2564, 0), (4, 0)], [(0, 302560),
    (0, 145), (1, 0)], [(35, 0)]], 3, 4⟩, 68719476736, 67448,
    3006676280221459684774313718640144700805008259573491052120331465058600139053105516926734674637, lc0⟩) (.skip))
    (.skip))) (.skip))))) (.sy (.sx (.sy (.leaf ⟨201, 16, 247, 2028, 16, 2847, ⟨[[(0, 343597383680)],
    [(8486855376896, 0)]], 3, 4⟩, ⟨[[(125599352110, 0), (2890601163712, 0), (2977169597, 0), (131677389, 0),
    (2509949, 0)], [(3891227954038, 0), (52769415141, 0), (1120102599, 0), (28912711, 0), (609422, 0)],
    [(42611957567, 0), (2500130707, 0), (102120535, 0), (2954686, 0), (63192, 0)], [(1396402052, 0), (127784053, 0),
    (5783731, 0), (170395, 0), (3660, 0)]], 3, 4⟩, 1099511627776, 0, 1144181762, ⟨[[(30698854115680, 0), (0,
    18889294393), (17480337, 0), (79953, 0), (435, 0)], [(8631842131, 0), (26615315, 0), (104687, 0), (695, 0), (4,
    0)], [(0, 4218849), (0, 19036), (55, 0), (1, 0)], [(1666, 0), (0, 5), (0, 1)]], 3, 4⟩, 68719476736, 4268493,
    2576612216535457399274053053284547242028385183788774880610132669256618530495917075514341713256, lc0⟩) (.sx (.leaf
    ⟨387, 16, 495, 2657, 16, 3708, ⟨[[(0, 309237645312)], [(8504035246080, 0)]], 3, 4⟩, ⟨[[(223420620631, 0),
    (3747043616767, 0), (5673933754, 0), (216733146, 0), (4180519, 0)], [(2694822832638, 0), (40600500771, 0),
    (965002550, 0), (25274270, 0), (526251, 0)], [(17993759336, 0), (1137577428, 0), (46935712, 0), (1342680, 0),
    (28276, 0)], [(341285882, 0), (30944330, 0), (1381293, 0), (40075, 0), (847, 0)]], 3, 4⟩, 1099511627776, 0,
    162496461, ⟨[[(30403007612323, 0), (0, 14330064686), (11636301, 0), (43984, 0), (190, 0)], [(4510465745, 0),
    (11394127, 0), (38916, 0), (207, 0), (1, 0)], [(0, 1114287), (0, 3209), (17, 0)], [(200, 0), (0, 2)]], 3, 4⟩,
    68719476736, 1265458,
    3805449299609684500533313100421615237192528193427169116242862504303355725410813125941078539920, lc0⟩) (.sy (.sx
    (.leaf ⟨821, 16, 991, 5249, 16, 7318, ⟨[[(0, 360777252864)], [(8512625180672, 0)]], 3, 4⟩, ⟨[[(0, 455435186938),
    (3803917721717, 0), (3815416179, 0), (67024101, 0), (658853, 0)], [(2706735138081, 0), (22048603364, 0),
    (281445358, 0), (3753007, 0), (39308, 0)], [(9558405414, 0), (315023890, 0), (6590103, 0), (94822, 0), (1003,
    0)], [(90596292, 0), (4126453, 0), (92501, 0), (1348, 0), (14, 0)]], 3, 4⟩, 1099511627776, 0, 16343932,
    ⟨[[(30469401617421, 0), (0, 7094414503), (3322139, 0), (6654, 0), (15, 0)], [(2242415187, 0), (2899658, 0),
    (5299, 0), (15, 0)], [(0, 276916), (0, 415), (1, 0)], [(22, 0)]], 3, 4⟩, 68719476736, 147197,
    3001633599580045991455747726976716625748460930817942921359348753300144553831314878557473065389, lc0⟩) (.skip))
    (.skip)))) (.sy (.sx (.sy (.leaf ⟨449, 16, 495, 3920, 16, 5484, ⟨[[(0, 446676598784)], [(8504035246080, 0)]], 3,
    4⟩, ⟨[[(0, 248570379807), (2941924178009, 0), (3067430870, 0), (53411437, 0), (533237, 0)], [(3936041092409, 0),
    (31948270392, 0), (407742896, 0), (5505325, 0), (58590, 0)], [(25310892529, 0), (831245027, 0), (17575528, 0),
    (256778, 0), (2762, 0)], [(435643464, 0), (20085063, 0), (457005, 0), (6767, 0), (73, 0)]], 3, 4⟩, 1099511627776,
    0, 135274699, ⟨[[(30767589861089, 0), (0, 9339426263), (5962699, 0), (15799, 0), (47, 0)], [(4304774645, 0),
    (7081526, 0), (16535, 0), (60, 0)], [(0, 1057717), (0, 2533), (1, 0)], [(169, 0), (0, 2)]], 3, 4⟩, 68719476736,
    475424, 2549674119884197596112693680511065263299057876512052585619724142492878131180735887270136015460, lc0⟩)
    (.skip)) (.skip)) (.skip))) (.skip)))
theorem c4 : checkC job ⟨6, 8, 8, 10, 9, 13⟩ 3 100 lims t4 6 2 8 45 3 64 = true := by decide +kernel

def t5 : CTree :=
  .sx (.sy (.sy (.leaf ⟨76, 16, 61, 513, 16, 774, ⟨[[(274877906944, 0)], [(8383776161792, 0)]], 3, 4⟩,
    ⟨[[(533786348032, 0), (3662245870748, 0), (0, 9941198565), (440494782, 0), (9358349, 0)], [(2586167320592, 0),
    (91281512160, 0), (2326528049, 0), (88838325, 0), (6337867, 0)], [(32282353145, 0), (2824137062, 0), (197106995,
    0), (18445759, 0), (1734472, 0)], [(435994853, 0), (117509876, 0), (21129111, 0), (2768469, 0), (276211, 0)]], 3,
    4⟩, 1099511627776, 0, 2984290415, ⟨[[(34201983478052, 0), (0, 73967154526), (97544297, 0), (630719, 0), (5937,
    0)], [(22700227133, 0), (179134171, 0), (803402, 0), (3999, 0), (106, 0)], [(0, 27363724), (0, 588993), (0,
    5743), (0, 13)], [(28047, 0), (1824, 0), (41, 0)]], 3, 4⟩, 68719476736, 282444742,
    1561384703568356019482332732503234643212752441173611214917063856755827703724399559406812983537, lc0⟩) (.sx (.leaf
    ⟨138, 16, 123, 639, 16, 933, ⟨[[(412316860416, 0)], [(8452495638528, 0)]], 3, 4⟩, ⟨[[(327021048686, 0),
    (4190477551707, 0), (0, 3509256222), (973642080, 0), (55834746, 0)], [(1886922432483, 0), (73672357209, 0),
    (2986226115, 0), (229841675, 0), (20175048, 0)], [(16987399781, 0), (2211351272, 0), (280378112, 0), (33206767,
    0), (3119283, 0)], [(323494426, 0), (115500012, 0), (22267584, 0), (2875734, 0), (273991, 0)]], 3, 4⟩,
    1099511627776, 0, 4186301375, ⟨[[(32770221975971, 0), (0, 59364639329), (94503084, 0), (789174, 0), (10228, 0)],
    [(13210065353, 0), (93025086, 0), (497105, 0), (6209, 0), (117, 0)], [(0, 10028517), (0, 178118), (0, 1280), (0,
    5)], [(8270, 0), (318, 0), (1, 0)]], 3, 4⟩, 68719476736, 252446266,
    1895844143613164261623387209174243714942471717990833280237707183674900812934425539301872039215, lc0⟩) (.sy (.leaf
    ⟨169, 16, 123, 996, 16, 1451, ⟨[[(137438953472, 0)], [(8452495638528, 0)]], 3, 4⟩, ⟨[[(0, 269288102587),
    (3500040781914, 0), (1988118102, 0), (329579038, 0), (11600850, 0)], [(2967159413082, 0), (64249629187, 0),
    (1675720660, 0), (76251336, 0), (3494964, 0)], [(27279849984, 0), (2132861702, 0), (154040756, 0), (9514363, 0),
    (456251, 0)], [(597035792, 0), (109302753, 0), (10692842, 0), (701408, 0), (34014, 0)]], 3, 4⟩, 1099511627776, 0,
    1100871131, ⟨[[(33089415055484, 0), (0, 36217526565), (46732087, 0), (279694, 0), (2543, 0)], [(12732210970, 0),
    (54055873, 0), (182456, 0), (1555, 0), (16, 0)], [(0, 9459955), (0, 99976), (0, 592), (0, 7)], [(8833, 0), (159,
    0), (0, 1)]], 3, 4⟩, 68719476736, 34957652,
    1181918332601144728435553447700840106748261084748861503586931928374886826705065479823601549082, lc0⟩) (.leaf
    ⟨169, 16, 123, 925, 16, 1322, ⟨[[(137438953472, 0)], [(8452495638528, 0)]], 3, 4⟩, ⟨[[(0, 259486002814),
    (3255411753606, 0), (10647376440, 0), (765536520, 0), (31968703, 0)], [(3129815839064, 0), (88091993974, 0),
    (3812025431, 0), (209872041, 0), (9658957, 0)], [(44125964946, 0), (5051533292, 0), (431807989, 0), (27063143,
    0), (1268160, 0)], [(1681505622, 0), (321938059, 0), (31361020, 0), (2014312, 0), (95003, 0)]], 3, 4⟩,
    1099511627776, 0, 3217810920, ⟨[[(32411585243079, 0), (0, 37333884244), (85029653, 0), (780080, 0), (8755, 0)],
    [(13854755104, 0), (69553261, 0), (383319, 0), (4423, 0), (47, 0)], [(0, 11682462), (0, 149770), (0, 1799), (0,
    36), (0, 1)], [(11006, 0), (31, 0), (0, 8)]], 3, 4⟩, 68719476736, 133985346,
    2414191956374104825796849036847783002047098875878106510827193207798329808527640876712179139464, lc0⟩)))) (.sy
    (.sy (.sx (.leaf ⟨138, 16, 123, 953, 16, 1354, ⟨[[(412316860416, 0)], [(8452495638528, 0)]], 3, 4⟩, ⟨[[(0,
    301741875145), (3084194264540, 0), (8090960410, 0), (635481296, 0), (25578568, 0)], [(3354973797090, 0),
    (91579925976, 0), (3868095968, 0), (207360922, 0), (9240084, 0)], [(54413055998, 0), (6216424467, 0), (522004906,
    0), (31793799, 0), (1441120, 0)], [(2494922160, 0), (471912074, 0), (44855297, 0), (2793967, 0), (127340, 0)]],
    3, 4⟩, 1099511627776, 0, 5080397294, ⟨[[(31755695415729, 0), (0, 37873110317), (79257709, 0), (733368, 0), (8230,
    0)], [(15059654868, 0), (82706447, 0), (554837, 0), (7294, 0), (89, 0)], [(0, 13641405), (0, 163367), (0, 1175),
    (0, 18)], [(12249, 0), (0, 21), (0, 13)]], 3, 4⟩, 68719476736, 138565310,
    2783017832193331534251140955544743224161621426171880200131175388800164092181432887896203853824, lc0⟩) (.sx (.sy
    (.leaf ⟨324, 16, 247, 1824, 16, 2579, ⟨[[(206158430208, 0)], [(8486855376896, 0)]], 3, 4⟩, ⟨[[(310334512222, 0),
    (3202398462322, 0), (9213073513, 0), (300513199, 0), (6423596, 0)], [(3395587959340, 0), (58223719079, 0),
    (1564732648, 0), (44707685, 0), (1012682, 0)], [(33035513879, 0), (2207182877, 0), (97679811, 0), (3025172, 0),
    (69326, 0)], [(810068649, 0), (77711725, 0), (3731249, 0), (117400, 0), (2705, 0)]], 3, 4⟩, 1099511627776, 0,
    489004938, ⟨[[(31935626239991, 0), (0, 18441877367), (28973204, 0), (159031, 0), (968, 0)], [(7369754890, 0),
    (20869101, 0), (78043, 0), (521, 0), (3, 0)], [(0, 3382205), (0, 24698), (0, 191), (0, 2)], [(1305, 0), (0, 14),
    (0, 1)]], 3, 4⟩, 68719476736, 7332157,
    1598256254128099300450512393577049950712219515903825864729108312512096323255138138249591790509, lc0⟩) (.skip))
    (.skip))) (.sx (.sx (.sy (.leaf ⟨262, 16, 247, 1897, 16, 2670, ⟨[[(481036337152, 0)], [(8486855376896, 0)]], 3,
    4⟩, ⟨[[(273535850067, 0), (3033243879530, 0), (6760057159, 0), (231621479, 0), (4751112, 0)], [(3640198933302,
    0), (58779249507, 0), (1497278116, 0), (41294779, 0), (904063, 0)], [(39831505458, 0), (2594509806, 0),
    (111641047, 0), (3349814, 0), (74187, 0)], [(1157286139, 0), (108789542, 0), (5078101, 0), (154685, 0), (3441,
    0)]], 3, 4⟩, 1099511627776, 0, 789328005, ⟨[[(31301617914357, 0), (0, 18745818869), (25103855, 0), (133465, 0),
    (796, 0)], [(8010412518, 0), (24636537, 0), (105769, 0), (763, 0), (5, 0)], [(0, 3836259), (0, 22914), (0, 81),
    (0, 1)], [(1390, 0), (0, 20), (0, 1)]], 3, 4⟩, 68719476736, 6525839,
    2243649162555344358765904120168410129032072935540775505593974104173244481992854812996845754626, lc0⟩) (.sy (.leaf
    ⟨262, 16, 247, 2491, 16, 3483, ⟨[[(481036337152, 0)], [(8486855376896, 0)]], 3, 4⟩, ⟨[[(367930307000, 0),
    (2028532753756, 0), (3439264266, 0), (54770609, 0), (568374, 0)], [(5138650805980, 0), (49001575130, 0),
    (711006367, 0), (9969979, 0), (108226, 0)], [(70580604692, 0), (2499835891, 0), (54514663, 0), (811968, 0),
    (8891, 0)], [(2302816695, 0), (107800565, 0), (2492941, 0), (37558, 0), (413, 0)]], 3, 4⟩, 1099511627776, 0,
    1277075157, ⟨[[(31070558701982, 0), (0, 13833447556), (18202083, 0), (81544, 0), (386, 0)], [(8337956397, 0),
    (21230035, 0), (82070, 0), (474, 0), (2, 0)], [(0, 4138166), (0, 19411), (0, 66)], [(989, 0), (0, 35), (0, 1)]],
    3, 4⟩, 68719476736, 3508843,
    3598996770147767078564125911112020778703309533766812094433411554057385400100951489958874771040, lc0⟩) (.skip)))
    (.skip)) (.skip))) (.skip))) (.sy (.sy (.sy (.leaf ⟨107, 16, 61, 732, 16, 1094, ⟨[[(0, 274877906944)],
    [(8383776161792, 0)]], 3, 4⟩, ⟨[[(0, 85163844110), (2881975393940, 0), (0, 201186058), (168477743, 0), (4388683,
    0)], [(3818369534888, 0), (76935172125, 0), (1421399273, 0), (47733283, 0), (2119347, 0)], [(48420498530, 0),
    (2826251507, 0), (154516065, 0), (8975331, 0), (444513, 0)], [(1048334606, 0), (166288065, 0), (15751930, 0),
    (1055782, 0), (53712, 0)]], 3, 4⟩, 1099511627776, 0, 2281437421, ⟨[[(34546388530381, 0), (0, 47909711373),
    (65227064, 0), (338556, 0), (3301, 0)], [(21827968544, 0), (108311038, 0), (299617, 0), (1664, 0), (20, 0)], [(0,
    26595901), (0, 332633), (0, 1783), (0, 17), (0, 1)], [(40571, 0), (1050, 0), (6, 0)]], 3, 4⟩, 68719476736,
    75887105, 1086804790231385620200777060737750640611848757786581556489941644876444205240075952093200846608, lc0⟩)
    (.leaf ⟨107, 16, 61, 687, 16, 1005, ⟨[[(0, 274877906944)], [(8383776161792, 0)]], 3, 4⟩, ⟨[[(0, 157803068097),
    (2666817853831, 0), (3941149030, 0), (338693488, 0), (12974923, 0)], [(3991531163733, 0), (93404911163, 0),
    (2744015814, 0), (133034141, 0), (6308567, 0)], [(67636522161, 0), (5679671398, 0), (427250422, 0), (27100120,
    0), (1339347, 0)], [(2693121393, 0), (490450247, 0), (48524432, 0), (3259257, 0), (163149, 0)]], 3, 4⟩,
    1099511627776, 0, 6932542213, ⟨[[(33805514159850, 0), (0, 49553969266), (104362066, 0), (862716, 0), (10794, 0)],
    [(23626503735, 0), (129930665, 0), (481196, 0), (3399, 0), (3, 0)], [(0, 32428217), (0, 452053), (0, 4779), (0,
    122), (0, 3)], [(58133, 0), (1212, 0), (0, 5)]], 3, 4⟩, 68719476736, 248368793,
    2362790265869646746200784825588173479584206874966781725531329844119807970061703587232100005697, lc0⟩)) (.sy (.sx
    (.leaf ⟨200, 16, 123, 912, 16, 1314, ⟨[[(0, 137438953472)], [(8452495638528, 0)]], 3, 4⟩, ⟨[[(0, 98574629017),
    (3440832120380, 0), (10850879434, 0), (761712676, 0), (32164576, 0)], [(2917238344346, 0), (79710054181, 0),
    (3231002119, 0), (177269627, 0), (8379044, 0)], [(33806130090, 0), (3640539055, 0), (308006274, 0), (19709128,
    0), (952612, 0)], [(1018607902, 0), (194509937, 0), (19284997, 0), (1273224, 0), (62084, 0)]], 3, 4⟩,
    1099511627776, 0, 1946818516, ⟨[[(33098157304885, 0), (0, 36826673265), (79152690, 0), (649270, 0), (6838, 0)],
    [(12724677902, 0), (57226820, 0), (217427, 0), (1543, 0), (5, 0)], [(0, 9741398), (0, 119195), (0, 1536), (0,
    33), (0, 1)], [(9169, 0), (90, 0), (0, 3)]], 3, 4⟩, 68719476736, 95494672,
    2102796797113999132715186088424416533726911618029765890437235211892942216113350115859416190111, lc0⟩) (.sy (.leaf
    ⟨231, 16, 123, 1262, 16, 1806, ⟨[[(0, 412316860416)], [(8452495638528, 0)]], 3, 4⟩, ⟨[[(0, 434094175851),
    (2579604885756, 0), (7814267120, 0), (246556375, 0), (5537626, 0)], [(4234904048010, 0), (70371495917, 0),
    (1800599512, 0), (52962993, 0), (1274625, 0)], [(56887088199, 0), (3587304671, 0), (161081037, 0), (5252850, 0),
    (128663, 0)], [(1852418100, 0), (180063814, 0), (9035609, 0), (302474, 0), (7521, 0)]], 3, 4⟩, 1099511627776, 0,
    1556779330, ⟨[[(33268936673104, 0), (0, 24763604880), (52034715, 0), (325561, 0), (2351, 0)], [(12460639570, 0),
    (37404194, 0), (49763, 0), (0, 673), (0, 15)], [(0, 9712296), (0, 99749), (0, 1353), (0, 22)], [(8473, 0), (63,
    0)]], 3, 4⟩, 68719476736, 28066168,
    1894596285496656909143126437345762931653913549908297075263418065479488360045563901684263323908, lc0⟩) (.sx (.leaf
    ⟨448, 16, 247, 1679, 16, 2384, ⟨[[(0, 343597383680)], [(8486855376896, 0)]], 3, 4⟩, ⟨[[(0, 239758971858),
    (3448584083741, 0), (14381415339, 0), (448959902, 0), (10185962, 0)], [(3018774023921, 0), (57741402103, 0),
    (1688265541, 0), (50761478, 0), (1209952, 0)], [(25144538266, 0), (1748523038, 0), (80416378, 0), (2607878, 0),
    (63047, 0)], [(478547972, 0), (46935249, 0), (2344134, 0), (77656, 0), (1906, 0)]], 3, 4⟩, 1099511627776, 0,
    265418214, ⟨[[(32926402276334, 0), (0, 18131300591), (36154597, 0), (193724, 0), (1140, 0)], [(6478401173, 0),
    (15186329, 0), (15245, 0), (0, 197), (0, 3)], [(0, 2746490), (0, 25393), (0, 306), (0, 4)], [(1126, 0), (3, 0)]],
    3, 4⟩, 68719476736, 8726267,
    3073481086637041437067472690313661723586369780319982248034694349150367572322698406860681344218, lc0⟩) (.skip))))
    (.sx (.sy (.sx (.leaf ⟨386, 16, 247, 1794, 16, 2553, ⟨[[(0, 68719476736)], [(8486855376896, 0)]], 3, 4⟩, ⟨[[(0,
    186795081240), (3384222495378, 0), (9761647940, 0), (315306088, 0), (6909761, 0)], [(3158387120643, 0),
    (52770096367, 0), (1377475060, 0), (39972154, 0), (933792, 0)], [(25229549611, 0), (1635263742, 0), (73056917,
    0), (2324582, 0), (55066, 0)], [(504028227, 0), (48877396, 0), (2403904, 0), (78008, 0), (1862, 0)]], 3, 4⟩,
    1099511627776, 0, 283410688, ⟨[[(32586402283373, 0), (0, 18133241133), (27906037, 0), (142559, 0), (829, 0)],
    [(6764025543, 0), (16770249, 0), (42292, 0), (180, 0)], [(0, 2871719), (0, 21726), (0, 200), (0, 2)], [(1228, 0),
    (0, 2)]], 3, 4⟩, 68719476736, 6475082,
    1861717921382762034999189093979192084510285929568275799984681772626225652177482309422636109118, lc0⟩) (.sy (.leaf
    ⟨417, 16, 247, 2493, 16, 3534, ⟨[[(0, 206158430208)], [(8486855376896, 0)]], 3, 4⟩, ⟨[[(0, 249340755080),
    (2476698820586, 0), (4993035268, 0), (78298408, 0), (878240, 0)], [(4552767809215, 0), (43331757377, 0),
    (632510779, 0), (9431347, 0), (111058, 0)], [(40248110625, 0), (1404090460, 0), (32119162, 0), (515356, 0),
    (6146, 0)], [(823037681, 0), (40230067, 0), (995515, 0), (16271, 0), (196, 0)]], 3, 4⟩, 1099511627776, 0,
    308663783, ⟨[[(32671908482287, 0), (0, 12430772886), (16869021, 0), (64510, 0), (269, 0)], [(6698347725, 0),
    (11434960, 0), (15461, 0), (4, 0)], [(0, 2924734), (0, 18296), (0, 146), (0, 1)], [(1150, 0), (0, 2)]], 3, 4⟩,
    68719476736, 2007970,
    2073317551910250533506163533725802889387506267817470086170783295539811414848539856913351734407, lc0⟩) (.skip)))
    (.sx (.sy (.leaf ⟨386, 16, 247, 2464, 16, 3479, ⟨[[(0, 68719476736)], [(8486855376896, 0)]], 3, 4⟩, ⟨[[(0,
    406701806218), (2380677961653, 0), (5105397994, 0), (79919076, 0), (887470, 0)], [(4671107090310, 0),
    (46314691029, 0), (697689182, 0), (10353574, 0), (120104, 0)], [(46746508594, 0), (1673638771, 0), (38210604, 0),
    (605237, 0), (7098, 0)], [(1063727195, 0), (51788417, 0), (1266818, 0), (20380, 0), (241, 0)]], 3, 4⟩,
    1099511627776, 0, 428118483, ⟨[[(32335654972279, 0), (0, 12656217014), (18899794, 0), (78846, 0), (350, 0)],
    [(7010518734, 0), (13268813, 0), (27197, 0), (82, 0)], [(0, 3226624), (0, 21254), (0, 172), (0, 1)], [(1129, 0),
    (0, 9)]], 3, 4⟩, 68719476736, 2707242,
    3121842613107776499347967713459503481151655763544256613294746395985375129320227707143800610509, lc0⟩) (.skip))
    (.skip))) (.skip)))) (.skip))
theorem c5 : checkC job ⟨6, 8, 8, 10, 9, 13⟩ 3 100 lims t5 6 2 4 21 3 32 = true := by decide +kernel

def t6 : CTree :=
  .sy (.sy (.sy (.leaf ⟨45, 16, 15, 19, 16, 258, ⟨[[], [(8246337208320, 0)]], 3, 4⟩, ⟨[[(535440224534, 0),
    (5135421164600, 0), (0, 86123734157), (1479650647, 0), (0, 24844528)], [(359290112198, 0), (14171772503, 0),
    (196258935, 0), (826029, 0), (5204, 0)], [(341262471, 0), (30439848, 0), (1031940, 0), (68607, 0), (395, 0)],
    [(0, 1735230), (118512, 0), (21752, 0), (104, 0), (17, 0)]], 3, 4⟩, 1099511627776, 0, 176777400,
    ⟨[[(71004038460011, 0), (0, 226455285226), (0, 90516452), (77582, 0), (106, 0)], [(9831587010, 0), (90688207, 0),
    (565807, 0), (4662, 0), (2, 0)], [(0, 2399486), (0, 54202), (0, 1428)]], 3, 4⟩, 68719476736, 6427878,
    1737478703921181653258636892970510874507872077061569901152306896566090921107705261957754912768, lc0⟩) (.leaf ⟨45,
    16, 15, 53, 16, 306, ⟨[[], [(8246337208320, 0)]], 3, 4⟩, ⟨[[(350680233994, 0), (5032167879210, 0), (0,
    75952536997), (1201059720, 0), (0, 17961837)], [(535588706294, 0), (19716372146, 0), (252968451, 0), (1341997,
    0), (25592, 0)], [(683943619, 0), (60261354, 0), (2885351, 0), (109315, 0), (1990, 0)], [(0, 222578), (489682,
    0), (35290, 0), (1089, 0), (60, 0)]], 3, 4⟩, 1099511627776, 0, 106056741, ⟨[[(65128939745845, 0), (0,
    194708439221), (0, 59106316), (79374, 0), (610, 0)], [(12615048993, 0), (109013909, 0), (674250, 0), (3343, 0),
    (10, 0)], [(0, 4748794), (0, 109650), (0, 1138), (0, 4)]], 3, 4⟩, 68719476736, 10441055,
    930303097969285753839280210647632685633812786735855519448800351871170261551582862933608373570, lc0⟩)) (.leaf ⟨45,
    16, 15, 56, 16, 191, ⟨[[], [(8246337208320, 0)]], 3, 4⟩, ⟨[[(0, 69343583669), (4883872904091, 0), (0,
    126335838162), (3633378074, 0), (0, 93837753)], [(458602784806, 0), (30834674691, 0), (769907027, 0), (15192644,
    0), (723301, 0)], [(971789224, 0), (183394767, 0), (18323834, 0), (1213716, 0), (57275, 0)], [(5183902, 0),
    (2004718, 0), (257284, 0), (21326, 0), (1167, 0)]], 3, 4⟩, 1099511627776, 0, 1461403638, ⟨[[(57905618087885, 0),
    (0, 318077146070), (0, 106536381), (1168692, 0), (15998, 0)], [(17718022870, 0), (280522415, 0), (3039558, 0),
    (27120, 0), (252, 0)], [(0, 10698756), (0, 372418), (0, 6854), (0, 121), (0, 2)], [(137, 0), (29, 0), (3, 0)]],
    3, 4⟩, 68719476736, 250265729,
    2619283848496480528522251445222324844533404812989852997938079313060692446215862525207636648368, lc0⟩)) (.sy
    (.leaf ⟨45, 16, 15, 100, 16, 241, ⟨[[], [(8246337208320, 0)]], 3, 4⟩, ⟨[[(0, 252839096163), (4660436817517, 0),
    (0, 96639474581), (2655509958, 0), (0, 51079781)], [(852662250227, 0), (53652329010, 0), (1591890650, 0),
    (54611542, 0), (2125509, 0)], [(3893394134, 0), (755334139, 0), (72677316, 0), (4377635, 0), (173768, 0)],
    [(41405224, 0), (10844765, 0), (1212727, 0), (78548, 0), (3351, 0)]], 3, 4⟩, 1099511627776, 0, 822933968,
    ⟨[[(50472407208088, 0), (0, 253638409830), (34177393, 0), (1998480, 0), (21448, 0)], [(26321562325, 0),
    (383303883, 0), (3911595, 0), (36916, 0), (350, 0)], [(0, 25204734), (0, 789529), (0, 14195), (0, 178), (0, 2)],
    [(8612, 0), (1008, 0), (53, 0), (2, 0)]], 3, 4⟩, 68719476736, 440127073,
    2623247212512254401417838706825083093793246180447677511079876992413900051064088264176602114235, lc0⟩) (.sy (.leaf
    ⟨45, 16, 15, 232, 16, 477, ⟨[[], [(8246337208320, 0)]], 3, 4⟩, ⟨[[(112132201648, 0), (3895351873390, 0), (0,
    32549014575), (493931590, 0), (0, 2990981)], [(2241064843405, 0), (71431538122, 0), (1304629755, 0), (25779025,
    0), (430823, 0)], [(18295317150, 0), (1731161527, 0), (78092983, 0), (2152022, 0), (41168, 0)], [(244937385, 0),
    (28019139, 0), (1469517, 0), (54717, 0), (2182, 0)]], 3, 4⟩, 1099511627776, 0, 52878682, ⟨[[(46128348398222, 0),
    (0, 126381987816), (48045124, 0), (549281, 0), (3056, 0)], [(34301446877, 0), (282210228, 0), (1656395, 0),
    (7890, 0), (11, 0)], [(0, 44209180), (0, 766826), (0, 8316), (0, 95), (0, 1)], [(51249, 0), (2312, 0), (41, 0)]],
    3, 4⟩, 68719476736, 82273505,
    1829452361488212862320638596930032170536018939046710867712071031737161153917361216229437561897, lc0⟩) (.leaf ⟨45,
    16, 15, 251, 16, 475, ⟨[[], [(8246337208320, 0)]], 3, 4⟩, ⟨[[(361482935690, 0), (3540982419890, 0), (0,
    24081523148), (440213629, 0), (0, 1371701)], [(2711371281656, 0), (89899107712, 0), (1865591150, 0), (38019970,
    0), (620027, 0)], [(31884523036, 0), (2929959852, 0), (127325566, 0), (3521759, 0), (81608, 0)], [(479626989, 0),
    (54143856, 0), (3248702, 0), (171373, 0), (9305, 0)]], 3, 4⟩, 1099511627776, 0, 217336163, ⟨[[(43617820978602,
    0), (0, 124203364402), (90291518, 0), (858629, 0), (4465, 0)], [(40691942073, 0), (359652350, 0), (2135727, 0),
    (6768, 0), (0, 46)], [(0, 63958790), (0, 1273700), (0, 18392), (0, 250), (0, 2)], [(116125, 0), (4311, 0), (63,
    0), (1, 0)]], 3, 4⟩, 68719476736, 249328124,
    1870716632350182342031469817985805904738083926832438222133907009911542833317843542165034463001, lc0⟩)))
theorem c6 : checkC job ⟨6, 8, 8, 10, 9, 13⟩ 3 100 lims t6 6 2 2 3 3 16 = true := by decide +kernel

def t7 : CTree :=
  .sy (.sy (.leaf ⟨75, 16, 30, 340, 16, 605, ⟨[[], [(8246337208320, 0)]], 3, 4⟩, ⟨[[(41415669177, 0), (4058592094625,
    0), (0, 24006336747), (476673642, 0), (0, 902805)], [(2050633415751, 0), (68452729140, 0), (1466851102, 0),
    (28925226, 0), (457231, 0)], [(16594572941, 0), (1462076298, 0), (60817621, 0), (1673136, 0), (43463, 0)],
    [(145100173, 0), (16325843, 0), (1082062, 0), (65956, 0), (3867, 0)]], 3, 4⟩, 1099511627776, 0, 88522327,
    ⟨[[(41306884704561, 0), (0, 97319283433), (73298195, 0), (545491, 0), (2097, 0)], [(24188829835, 0), (182348890,
    0), (890762, 0), (1958, 0), (0, 15)], [(0, 23645927), (0, 443725), (0, 5757), (0, 53)], [(23415, 0), (780, 0),
    (17, 0)]], 3, 4⟩, 68719476736, 53221311,
    1044352048189218777843311062645172104236250125254217407883212194153844456090527513864671592448, lc0⟩) (.leaf ⟨75,
    16, 30, 354, 16, 593, ⟨[[], [(8246337208320, 0)]], 3, 4⟩, ⟨[[(354172131985, 0), (3745757837829, 0), (0,
    15198091768), (465559805, 0), (903524, 0)], [(2471067532165, 0), (87862215661, 0), (2068428889, 0), (43643889,
    0), (955250, 0)], [(27435008779, 0), (2376345055, 0), (103534724, 0), (3703941, 0), (166542, 0)], [(297493235,
    0), (40970970, 0), (3789921, 0), (308309, 0), (22585, 0)]], 3, 4⟩, 1099511627776, 0, 436793913,
    ⟨[[(39285668239946, 0), (0, 95298327804), (117759870, 0), (740243, 0), (1351, 0)], [(28461889138, 0), (226459511,
    0), (1000199, 0), (57, 0), (0, 30)], [(0, 36124058), (0, 774140), (0, 9374), (0, 44)], [(52558, 0), (2320, 0),
    (62, 0), (1, 0)]], 3, 4⟩, 68719476736, 237557249,
    1364680746246312498858616098231113420306292871384470277677995512867682300323226830933051687746, lc0⟩)) (.sy (.sy
    (.leaf ⟨75, 16, 30, 531, 16, 853, ⟨[[], [(8246337208320, 0)]], 3, 4⟩, ⟨[[(417456511033, 0), (2616395209639, 0),
    (0, 3129117816), (91209797, 0), (404044, 0)], [(4189897546400, 0), (78813325948, 0), (1015658567, 0), (13320274,
    0), (266835, 0)], [(58480294366, 0), (2605489175, 0), (67595294, 0), (1880322, 0), (67236, 0)], [(862909049, 0),
    (76762506, 0), (4682516, 0), (239977, 0), (10758, 0)]], 3, 4⟩, 1099511627776, 0, 1102081591, ⟨[[(37871771809869,
    0), (0, 63405202756), (73924033, 0), (272234, 0), (385, 0)], [(32120440179, 0), (178261586, 0), (467797, 0), (0,
    386), (1, 0)], [(0, 50127050), (0, 751757), (0, 5175), (0, 6)], [(105063, 0), (3327, 0), (46, 0)]], 3, 4⟩,
    68719476736, 61615208,
    919617280714639100415348356698397162425184712429480949762511195800823941314972116122500790206, lc0⟩) (.leaf ⟨75,
    16, 30, 512, 16, 801, ⟨[[], [(8246337208320, 0)]], 3, 4⟩, ⟨[[(345743088149, 0), (2431317839105, 0), (0,
    1277797219), (101603823, 0), (1082451, 0)], [(4415966582501, 0), (87088135290, 0), (1256988537, 0), (23008891,
    0), (718061, 0)], [(72366452046, 0), (3473657866, 0), (116077506, 0), (4628906, 0), (204212, 0)], [(1466785326,
    0), (161342076, 0), (11864360, 0), (698857, 0), (34362, 0)]], 3, 4⟩, 1099511627776, 0, 2729895700,
    ⟨[[(36984774170872, 0), (0, 65096261472), (97926344, 0), (387420, 0), (2036, 0)], [(34752491004, 0), (203827550,
    0), (520154, 0), (150, 0), (23, 0)], [(0, 61900363), (0, 962421), (0, 6310), (0, 19), (0, 1)], [(161311, 0),
    (4809, 0), (38, 0), (0, 1)]], 3, 4⟩, 68719476736, 188893871,
    2014397070619214666465078771546488620865623845292177010556169606880840498876213259241214323801, lc0⟩)) (.sy (.sx
    (.leaf ⟨137, 16, 61, 727, 16, 1118, ⟨[[(274877906944, 0)], [(8383776161792, 0)]], 3, 4⟩, ⟨[[(377184391923, 0),
    (3249245894158, 0), (0, 1072340165), (148507523, 0), (2326188, 0)], [(3350404260905, 0), (66579803071, 0),
    (1023619031, 0), (23269959, 0), (873739, 0)], [(31652644028, 0), (1590183037, 0), (62659683, 0), (2982189, 0),
    (142181, 0)], [(403405700, 0), (50551739, 0), (4165302, 0), (264495, 0), (13487, 0)]], 3, 4⟩, 1099511627776, 0,
    530401399, ⟨[[(36132462490169, 0), (0, 46535166859), (53898415, 0), (179217, 0), (1093, 0)], [(18549873921, 0),
    (81247904, 0), (163818, 0), (304, 0), (6, 0)], [(0, 18297043), (0, 209355), (0, 948), (0, 2)], [(24320, 0), (509,
    0), (2, 0)]], 3, 4⟩, 68719476736, 24425517,
    1251495244949508647101350163340037493410745525269888868362306820762251924394589169960381764782, lc0⟩) (.leaf
    ⟨168, 16, 61, 675, 16, 1020, ⟨[[(0, 274877906944)], [(8383776161792, 0)]], 3, 4⟩, ⟨[[(167163985041, 0),
    (3234216595702, 0), (3976192839, 0), (283490591, 0), (8389233, 0)], [(3309284284859, 0), (75234213741, 0),
    (1636821193, 0), (58830515, 0), (2649081, 0)], [(34820245484, 0), (2269177124, 0), (127812385, 0), (7305972, 0),
    (366582, 0)], [(647443774, 0), (94949396, 0), (8441941, 0), (556290, 0), (29108, 0)]], 3, 4⟩, 1099511627776, 0,
    947841760, ⟨[[(36132538695909, 0), (0, 46699441511), (80166408, 0), (354589, 0), (2970, 0)], [(18398768649, 0),
    (79386545, 0), (132108, 0), (0, 36), (0, 10)], [(0, 18330908), (0, 211764), (0, 1408), (0, 12)], [(29644, 0),
    (458, 0)]], 3, 4⟩, 68719476736, 58885906,
    1043401875373551778907910198029286629892235334951835735837502816678257455845192549394958600917, lc0⟩)) (.sx
    (.leaf ⟨137, 16, 61, 700, 16, 1050, ⟨[[(274877906944, 0)], [(8383776161792, 0)]], 3, 4⟩, ⟨[[(0, 270193078444),
    (3057198979857, 0), (2231154837, 0), (239726042, 0), (7150044, 0)], [(3562512893727, 0), (77411346898, 0),
    (1630516194, 0), (59995720, 0), (2741459, 0)], [(41638260743, 0), (2664202401, 0), (154814411, 0), (9136658, 0),
    (460096, 0)], [(879801383, 0), (136708164, 0), (12736206, 0), (855810, 0), (44395, 0)]], 3, 4⟩, 1099511627776, 0,
    1549644883, ⟨[[(35298692178890, 0), (0, 47214368298), (75879282, 0), (380598, 0), (3573, 0)], [(20096994963, 0),
    (93373264, 0), (215525, 0), (620, 0), (0, 8)], [(0, 22477889), (0, 265080), (0, 1508), (0, 19)], [(34119, 0),
    (583, 0)]], 3, 4⟩, 68719476736, 79549166,
    1406125465193008103277149345114394776268652456990125931057312100894160616285261338719879810549, lc0⟩) (.sy (.leaf
    ⟨168, 16, 61, 911, 16, 1350, ⟨[[(0, 274877906944)], [(8383776161792, 0)]], 3, 4⟩, ⟨[[(259331416191, 0),
    (2177948750499, 0), (3049311571, 0), (87618391, 0), (1724988, 0)], [(4880736629840, 0), (62720231058, 0),
    (953030971, 0), (22726597, 0), (554419, 0)], [(64150769499, 0), (2670670169, 0), (95671688, 0), (3029916, 0),
    (78487, 0)], [(1735255755, 0), (144629225, 0), (6950077, 0), (240122, 0), (6528, 0)]], 3, 4⟩, 1099511627776, 0,
    1681754161, ⟨[[(35526058161984, 0), (0, 33506024707), (55849242, 0), (230621, 0), (1111, 0)], [(19478256982, 0),
    (62478708, 0), (59316, 0), (0, 853), (0, 26)], [(0, 21425620), (0, 192670), (0, 1027), (0, 2)], [(35974, 0),
    (404, 0), (5, 0)]], 3, 4⟩, 68719476736, 30110140,
    1085274384861599862835090764747679247949362501633395798856742153954804520041917814152546752282, lc0⟩) (.leaf
    ⟨168, 16, 61, 862, 16, 1261, ⟨[[(0, 274877906944)], [(8383776161792, 0)]], 3, 4⟩, ⟨[[(412045760333, 0),
    (2079017526193, 0), (4752688685, 0), (135159349, 0), (2969825, 0)], [(4947878281357, 0), (72087059900, 0),
    (1411470589, 0), (38467904, 0), (965146, 0)], [(78826240527, 0), (3947577751, 0), (160148845, 0), (5297825, 0),
    (139577, 0)], [(2722712642, 0), (243542972, 0), (12212171, 0), (435925, 0), (12321, 0)]], 3, 4⟩, 1099511627776,
    0, 2913311791, ⟨[[(35137610833593, 0), (0, 34344090454), (74329932, 0), (332577, 0), (559, 0)], [(20224204319,
    0), (67763809, 0), (0, 3114), (0, 3666), (0, 92)], [(0, 23851755), (0, 232355), (0, 1130), (7, 0)], [(42037, 0),
    (725, 0), (23, 0), (1, 0)]], 3, 4⟩, 68719476736, 97139184,
    2783724175767327224635804860780300962897857403333345249526951374573687196244733155275835164391, lc0⟩)))))
theorem c7 : checkC job ⟨6, 8, 8, 10, 9, 13⟩ 3 100 lims t7 10 2 4 15 3 32 = true := by decide +kernel

def t8 : CTree :=
  .sy (.sx (.sy (.sy (.leaf ⟨137, 16, 61, 650, 16, 953, ⟨[[(274877906944, 0)], [(8383776161792, 0)]], 3, 4⟩,
    ⟨[[(408039562158, 0), (2830358975465, 0), (8121447863, 0), (518518643, 0), (21507992, 0)], [(3724201470853, 0),
    (96899226464, 0), (3300910215, 0), (170827054, 0), (8358495, 0)], [(59857528937, 0), (5505941444, 0), (431899085,
    0), (28022581, 0), (1426065, 0)], [(2195505591, 0), (395794798, 0), (39363940, 0), (2704600, 0), (140878, 0)]],
    3, 4⟩, 1099511627776, 0, 4682873080, ⟨[[(34557433068291, 0), (0, 48910289286), (123077094, 0), (940890, 0),
    (9584, 0)], [(21663360055, 0), (110628614, 0), (236401, 0), (0, 3572), (0, 180)], [(0, 27276340), (0, 374341),
    (0, 4376), (0, 108), (0, 3)], [(44048, 0), (775, 0), (14, 0), (1, 0)]], 3, 4⟩, 68719476736, 274098761,
    2763496034429118439075483017904197340851864551695302038477173745454391351639606828273071230736, lc0⟩) (.sx (.leaf
    ⟨261, 16, 123, 826, 16, 1188, ⟨[[(412316860416, 0)], [(8452495638528, 0)]], 3, 4⟩, ⟨[[(0, 494438201300),
    (3563676688745, 0), (20887333527, 0), (1292098075, 0), (58578046, 0)], [(2655577528497, 0), (85898594503, 0),
    (4190450571, 0), (245897026, 0), (12065015, 0)], [(30740790600, 0), (3705244644, 0), (329531975, 0), (21789941,
    0), (1094126, 0)], [(842848681, 0), (162436719, 0), (16467300, 0), (1128259, 0), (58135, 0)]], 3, 4⟩,
    1099511627776, 0, 1920274573, ⟨[[(33786060401781, 0), (0, 37027919949), (109270092, 0), (868098, 0), (7674, 0)],
    [(11699724461, 0), (48353867, 0), (1368, 0), (0, 4495), (0, 115)], [(0, 8443572), (0, 118481), (0, 2145), (0,
    50), (0, 1)], [(7308, 0), (144, 0), (4, 0)]], 3, 4⟩, 68719476736, 125020092,
    1832002673623865653626769404597370056514483245482105150189868239812313740523766717234989417274, lc0⟩) (.sy (.sx
    (.leaf ⟨571, 16, 247, 1636, 16, 2348, ⟨[[(206158430208, 0)], [(8486855376896, 0)]], 3, 4⟩, ⟨[[(259261258130, 0),
    (3718372250390, 0), (13860662811, 0), (421670129, 0), (9788828, 0)], [(2677789903095, 0), (47239737686, 0),
    (1253430216, 0), (37744137, 0), (937912, 0)], [(16125188279, 0), (1025625890, 0), (46604108, 0), (1561198, 0),
    (39883, 0)], [(218770001, 0), (21237778, 0), (1089646, 0), (38163, 0), (1022, 0)]], 3, 4⟩, 1099511627776, 0,
    134788901, ⟨[[(33991906631822, 0), (0, 17999671833), (28713997, 0), (99743, 0), (304, 0)], [(5673228935, 0),
    (10759336, 0), (0, 16276), (0, 497), (0, 6)], [(0, 2017011), (0, 14200), (0, 124), (0, 1)], [(922, 0), (14, 0)]],
    3, 4⟩, 68719476736, 2648585,
    1278306702397318780298462861121912279912411446226583450645097869355648458872014996077611423023, lc0⟩) (.leaf
    ⟨602, 16, 247, 1552, 16, 2213, ⟨[[(68719476736, 0)], [(8486855376896, 0)]], 3, 4⟩, ⟨[[(0, 467640244410),
    (3699502202151, 0), (18562015207, 0), (565733627, 0), (13430217, 0)], [(2656064450723, 0), (53296902329, 0),
    (1586421599, 0), (49241667, 0), (1236242, 0)], [(17959780525, 0), (1237106917, 0), (57923435, 0), (1968599, 0),
    (51217, 0)], [(255636701, 0), (25248469, 0), (1319284, 0), (47565, 0), (1336, 0)]], 3, 4⟩, 1099511627776, 0,
    169267515, ⟨[[(33980410948572, 0), (0, 18090488742), (34708786, 0), (103969, 0), (75, 0)], [(5653354917, 0),
    (9761660, 0), (0, 51946), (0, 1065), (0, 11)], [(0, 2079641), (0, 16120), (0, 148), (0, 2)], [(1152, 0), (27, 0),
    (1, 0)]], 3, 4⟩, 68719476736, 5251397,
    3769226557964648309117479492696258067813547251284714547723037979012601438969925576911409818912, lc0⟩)) (.sx
    (.leaf ⟨571, 16, 247, 1513, 16, 2144, ⟨[[(206158430208, 0)], [(8486855376896, 0)]], 3, 4⟩, ⟨[[(116180690603, 0),
    (3597780402729, 0), (21959804201, 0), (677109713, 0), (16085667, 0)], [(2753853829311, 0), (61456944185, 0),
    (1992886322, 0), (62571793, 0), (1554130, 0)], [(22236848717, 0), (1638102485, 0), (77976808, 0), (2633570, 0),
    (67470, 0)], [(360854227, 0), (36056449, 0), (1877313, 0), (66762, 0), (1834, 0)]], 3, 4⟩, 1099511627776, 0,
    227952313, ⟨[[(33628213220230, 0), (0, 18237381633), (42970312, 0), (167370, 0), (535, 0)], [(5885765087, 0),
    (10044181, 0), (0, 79961), (0, 1560), (0, 17)], [(0, 2384191), (0, 23772), (0, 299), (0, 4)], [(1377, 0), (35,
    0), (1, 0)]], 3, 4⟩, 68719476736, 6978738,
    3763210334639258101727085281868440636141247070532768236066159528160674967226975758555627008307, lc0⟩) (.skip)))))
    (.sy (.sx (.sy (.sy (.leaf ⟨261, 16, 123, 1516, 16, 2149, ⟨[[(412316860416, 0)], [(8452495638528, 0)]], 3, 4⟩,
    ⟨[[(0, 43639242914), (1713871605123, 0), (4727793026, 0), (73017421, 0), (854289, 0)], [(5521512936708, 0),
    (59147389798, 0), (935749948, 0), (14493310, 0), (177089, 0)], [(91661214587, 0), (3336169704, 0), (78568372, 0),
    (1305019, 0), (16290, 0)], [(3177568591, 0), (157659077, 0), (4029199, 0), (69296, 0), (902, 0)]], 3, 4⟩,
    1099511627776, 0, 1979561936, ⟨[[(33356828005803, 0), (0, 18768325769), (45412908, 0), (227251, 0), (1195, 0)],
    [(12272615969, 0), (25098672, 0), (0, 91247), (0, 2245), (0, 25)], [(0, 10296112), (0, 110466), (0, 1522), (0,
    19)], [(9946, 0), (179, 0), (4, 0)]], 3, 4⟩, 68719476736, 18836376,
    2310600098415488673396323736495642224880041712190141554583958379347431752069450907202170414326, lc0⟩) (.skip))
    (.skip)) (.skip)) (.skip))) (.sy (.sy (.sx (.sy (.leaf ⟨323, 16, 123, 1247, 16, 1809, ⟨[[(0, 137438953472)],
    [(8452495638528, 0)]], 3, 4⟩, ⟨[[(0, 305128154860), (2963336712048, 0), (8447228920, 0), (246775550, 0),
    (5618119, 0)], [(3755062206023, 0), (59001210543, 0), (1321285279, 0), (38005968, 0), (957463, 0)],
    [(34654486462, 0), (1922974583, 0), (82603023, 0), (2771245, 0), (72787, 0)], [(708794919, 0), (65967765, 0),
    (3368915, 0), (120795, 0), (3398, 0)]], 3, 4⟩, 1099511627776, 0, 438179775, ⟨[[(34729346039697, 0), (0,
    23528213056), (40063315, 0), (130818, 0), (74, 0)], [(10475245031, 0), (24564330, 0), (0, 23293), (0, 1231), (0,
    20)], [(0, 6574340), (0, 47091), (0, 229), (0, 1)], [(5900, 0), (97, 0), (3, 0)]], 3, 4⟩, 68719476736, 14206204,
    2359979779008987708505751617661111462273962957738660623968608587118432752943427152286357697717, lc0⟩) (.sx (.leaf
    ⟨633, 16, 247, 1584, 16, 2275, ⟨[[(0, 68719476736)], [(8486855376896, 0)]], 3, 4⟩, ⟨[[(0, 83174586987),
    (3798304861431, 0), (15435389818, 0), (461941030, 0), (10877813, 0)], [(2559320274183, 0), (46351322062, 0),
    (1242863134, 0), (37753276, 0), (954734, 0)], [(14550299184, 0), (923808543, 0), (42093471, 0), (1432325, 0),
    (37718, 0)], [(179208130, 0), (17350368, 0), (904265, 0), (32883, 0), (940, 0)]], 3, 4⟩, 1099511627776, 0,
    124251608, ⟨[[(34356538207652, 0), (0, 18007212925), (28840002, 0), (71598, 0), (0, 74)], [(5423030047, 0),
    (9536101, 0), (0, 27512), (0, 640), (0, 7)], [(0, 1830231), (0, 11400), (0, 63)], [(932, 0), (18, 0)]], 3, 4⟩,
    68719476736, 5532837,
    3022433005132188408580875038256072317342125044030375307089552091296070165717153086010338220680, lc0⟩) (.sy (.leaf
    ⟨664, 16, 247, 2375, 16, 3403, ⟨[[(0, 206158430208)], [(8486855376896, 0)]], 3, 4⟩, ⟨[[(475663158475, 0),
    (2947032616466, 0), (6906075637, 0), (103323428, 0), (1234133, 0)], [(3898792934301, 0), (37459076545, 0),
    (528860211, 0), (8169123, 0), (104513, 0)], [(22896515846, 0), (751847916, 0), (17401521, 0), (300359, 0), (4048,
    0)], [(281055249, 0), (13741620, 0), (364795, 0), (6861, 0), (104, 0)]], 3, 4⟩, 1099511627776, 0, 70523198,
    ⟨[[(34456798788960, 0), (0, 11706028498), (12733215, 0), (13838, 0), (0, 78)], [(5345141976, 0), (5767033, 0),
    (0, 17095), (0, 230), (0, 2)], [(0, 1779161), (0, 6578), (0, 11)], [(1032, 0), (15, 0)]], 3, 4⟩, 68719476736,
    1621207, 2633791006965885627457271628047506936480908118030259295424171890818558026415623737069117403062, lc0⟩)
    (.sx (.sy (.leaf ⟨1315, 16, 495, 4726, 16, 6746, ⟨[[(0, 171798691840)], [(8504035246080, 0)]], 3, 4⟩, ⟨[[(0,
    157845624879), (2947877488183, 0), (3881273313, 0), (29328314, 0), (176274, 0)], [(3991073523518, 0),
    (20294724484, 0), (151228873, 0), (1183156, 0), (7568, 0)], [(12703933837, 0), (217382223, 0), (2555143, 0),
    (22129, 0), (149, 0)], [(82806525, 0), (2049342, 0), (27383, 0), (259, 0), (2, 0)]], 3, 4⟩, 1099511627776, 0,
    9308851, ⟨[[(34309940217818, 0), (0, 5809188175), (3372525, 0), (1642, 0), (0, 6)], [(2706814594, 0), (1386161,
    0), (0, 3048), (0, 19)], [(0, 464905), (0, 908), (0, 1)], [(147, 0), (1, 0)]], 3, 4⟩, 68719476736, 149220,
    2177694020877211788096216930926211099250782314537986186109010857168682348924668478163165361173, lc0⟩) (.skip))
    (.skip))))) (.sy (.sy (.leaf ⟨354, 16, 123, 1628, 16, 2344, ⟨[[(0, 412316860416)], [(8452495638528, 0)]], 3, 4⟩,
    ⟨[[(182811181019, 0), (2067887099938, 0), (4341273724, 0), (63419630, 0), (754295, 0)], [(5129140398080, 0),
    (46609026002, 0), (612661673, 0), (9307736, 0), (120326, 0)], [(52911565306, 0), (1637233128, 0), (37038900, 0),
    (642796, 0), (8869, 0)], [(1137717101, 0), (54569920, 0), (1454160, 0), (28071, 0), (444, 0)]], 3, 4⟩,
    1099511627776, 0, 509658204, ⟨[[(34836594476157, 0), (0, 17015589344), (24681530, 0), (27876, 0), (0, 448)],
    [(10287625990, 0), (16203700, 0), (0, 43962), (0, 934), (0, 11)], [(0, 6370332), (0, 27909), (91, 0), (3, 0)],
    [(7250, 0), (129, 0), (3, 0)]], 3, 4⟩, 68719476736, 10392356,
    3966305395494269685571504556248602364367278374265342656353122248537978274142035200407343094363, lc0⟩) (.sx (.leaf
    ⟨695, 16, 247, 2359, 16, 3383, ⟨[[(0, 343597383680)], [(8486855376896, 0)]], 3, 4⟩, ⟨[[(360416088990, 0),
    (2994105008230, 0), (7076969217, 0), (105033648, 0), (1260519, 0)], [(3831150078314, 0), (36787723923, 0),
    (514971217, 0), (7963097, 0), (102921, 0)], [(21594442305, 0), (701664721, 0), (16214817, 0), (282656, 0), (3893,
    0)], [(251043382, 0), (12251475, 0), (329121, 0), (6366, 0), (100, 0)]], 3, 4⟩, 1099511627776, 0, 61132850,
    ⟨[[(34644557380636, 0), (0, 11651614042), (12298678, 0), (7933, 0), (0, 123)], [(5226657543, 0), (5503395, 0),
    (0, 15982), (0, 214), (0, 2)], [(0, 1671833), (0, 5215), (8, 0)], [(1015, 0), (15, 0)]], 3, 4⟩, 68719476736,
    2153635, 2898884999448973802355282690847170317573984609049377737746606403726204930293313589326004504116, lc0⟩)
    (.sy (.sx (.leaf ⟨1439, 16, 495, 4666, 16, 6673, ⟨[[(0, 446676598784)], [(8504035246080, 0)]], 3, 4⟩,
    ⟨[[(483516270926, 0), (3043250317120, 0), (4046535259, 0), (30172128, 0), (183351, 0)], [(3853455868491, 0),
    (19501310913, 0), (142791927, 0), (1121906, 0), (7346, 0)], [(11256303337, 0), (188621188, 0), (2216447, 0),
    (19661, 0), (139, 0)], [(65867393, 0), (1630658, 0), (22452, 0), (226, 0), (2, 0)]], 3, 4⟩, 1099511627776, 0,
    6935752, ⟨[[(34689550337754, 0), (0, 5765057752), (3072522, 0), (0, 199), (0, 13)], [(2587234063, 0), (1279910,
    0), (0, 2519), (0, 16)], [(0, 405416), (0, 491), (2, 0)], [(138, 0), (1, 0)]], 3, 4⟩, 68719476736, 160262,
    2945815595744308904673835288523231857841006750720007089608270770141637500948253865680246386082, lc0⟩) (.skip))
    (.skip)))) (.sx (.sy (.sx (.sy (.leaf ⟨1377, 16, 495, 4692, 16, 6703, ⟨[[(0, 309237645312)], [(8504035246080,
    0)]], 3, 4⟩, ⟨[[(107294650540, 0), (2995417230678, 0), (3984867152, 0), (29930889, 0), (180976, 0)],
    [(3921743715419, 0), (19942365204, 0), (147662373, 0), (1158552, 0), (7496, 0)], [(11981942051, 0), (203245545,
    0), (2390401, 0), (20948, 0), (145, 0)], [(74068726, 0), (1834164, 0), (24869, 0), (242, 0), (2, 0)]], 3, 4⟩,
    1099511627776, 0, 8047835, ⟨[[(34498395973620, 0), (0, 5788133715), (3216097, 0), (629, 0), (0, 10)],
    [(2645801885, 0), (1319407, 0), (0, 2901), (0, 18)], [(0, 434678), (0, 686), (1, 0)], [(145, 0), (1, 0)]], 3, 4⟩,
    68719476736, 188902,
    2738089227238338493563794239819649597863300598870675576612362685287664466718182159848059487579, lc0⟩) (.skip))
    (.skip)) (.skip)) (.skip)))) (.sx (.sy (.sx (.sy (.sx (.leaf ⟨1253, 16, 495, 3098, 16, 4412, ⟨[[(0,
    34359738368)], [(8504035246080, 0)]], 3, 4⟩, ⟨[[(0, 382700283763), (3792280819814, 0), (10372222695, 0),
    (158056230, 0), (1892710, 0)], [(2674688217548, 0), (27875238006, 0), (426477988, 0), (6682790, 0), (84611, 0)],
    [(9159301318, 0), (320951343, 0), (7580023, 0), (130108, 0), (1721, 0)], [(64241792, 0), (3191713, 0), (84460,
    0), (1559, 0), (23, 0)]], 3, 4⟩, 1099511627776, 0, 13495435, ⟨[[(34076548926781, 0), (0, 8899715227), (8522760,
    0), (9690, 0), (0, 15)], [(2782232813, 0), (2208446, 0), (0, 8107), (0, 77)], [(0, 504341), (0, 1817), (0, 7)],
    [(155, 0), (2, 0)]], 3, 4⟩, 68719476736, 672886,
    2868775480320502687002567162311710453730109028901535677973023972929504213391593272324615443051, lc0⟩) (.skip))
    (.skip)) (.skip)) (.skip)) (.skip))) (.skip))) (.skip)
theorem c8 : checkC job ⟨6, 8, 8, 10, 9, 13⟩ 3 100 lims t8 10 2 4 21 3 32 = true := by decide +kernel

end PyX.Kron.T2a
