import Verif.Lemmas.P1hsJob

/-!
# Pressure from enthalpy and entropy in region 1, part E of the certificate
-/

namespace PyX.Kron.P1hs

set_option Elab.async false

def t23 : CTree :=
  .sx (.sy (.sy (.leaf ⟨1099, 16, 2528, 1238, 16, 2680, ⟨[[(0, 9568078299398144), (96272226979305027, 0), (0,
    1288202126671), (255875233, 0), (8704, 0)], [(5995355262003592, 0), (7966475275225, 0), (1468188271, 0), (253135,
    0), (45, 0)], [(4830326434496, 0), (2861596337, 0), (964681, 0), (263, 0)], [(1370382792, 0), (1207274, 0), (593,
    0)]], 3, 4⟩, ⟨[[(0, 515492115276627968), (80195126993140894, 0), (0, 2669232399673), (326675631, 0), (0, 5919)],
    [(29163297549572595, 0), (6636103852897, 0), (1090925361, 0), (185445, 0), (33, 0)], [(4565138360536, 0),
    (2383720506, 0), (756139, 0), (200, 0)], [(1217919364, 0), (1005664, 0), (474, 0)]], 3, 4⟩, 1152921504606846976,
    1793025978724466, 1549664032524029, ⟨[[(9521259865067016, 0), (0, 346392348447077), (374637452803, 0),
    (1323321738, 0), (2058252, 0)], [(288576758609781, 0), (0, 589211079349), (0, 2255756744), (0, 2619696), (0,
    2371)], [(162325085327, 0), (1393664005, 0), (5446, 0), (0, 395), (0, 1)], [(0, 316952570), (1143027, 0), (385,
    0)]], 3, 4⟩, 281474976710656, 28390929076,
    8262570910703119419038272409975429247991041923872989788214964230257067631845185997259315012564023361611779550895233370339479967543089927554,
    lc0⟩) (.sx (.leaf ⟨1167, 16, 2616, 1434, 16, 3050, ⟨[[(0, 125327755719999488), (98233383920900190, 0), (0,
    1153399851986), (261630608, 0), (10549, 0)], [(4280798311241563, 0), (4487236580351, 0), (839934617, 0), (147796,
    0), (27, 0)], [(1458258605879, 0), (867214827, 0), (296532, 0), (81, 0)], [(221782462, 0), (196854, 0), (97,
    0)]], 3, 4⟩, ⟨[[(0, 72375572801781760), (88773655051925399, 0), (0, 2737338700325), (350834763, 0), (0, 3910)],
    [(17628440932884620, 0), (4055122366966, 0), (681623237, 0), (118253, 0), (21, 0)], [(1484390753243, 0),
    (783703328, 0), (253013, 0), (68, 0)], [(213087711, 0), (177897, 0), (84, 0)]], 3, 4⟩, 1152921504606846976,
    65466939829826, 61669328943981, ⟨[[(10124963063264778, 0), (0, 304541929054846), (307583987547, 0), (973852654,
    0), (1357268, 0)], [(275224071474498, 0), (0, 517597844304), (0, 1817839544), (0, 1877549), (0, 1512)],
    [(155011354097, 0), (1226651513, 0), (8816, 0), (0, 281)], [(0, 303307859), (948331, 0), (290, 0)]], 3, 4⟩,
    281474976710656, 24567905781,
    6761132416251133893570142934545824789437126951709614576281103666994038775874168477688501803090454822260587564690747607728841301821283865986,
    lc0⟩) (.leaf ⟨1149, 16, 2573, 1416, 16, 3003, ⟨[[(0, 380254870199336960), (97739616236174939, 0), (0,
    915995382500), (297692848, 0), (17901, 0)], [(4945350598254197, 0), (4863112196362, 0), (985589007, 0), (190415,
    0), (37, 0)], [(1607807279045, 0), (1011173288, 0), (370876, 0), (107, 0)], [(261558167, 0), (244467, 0), (125,
    0)]], 3, 4⟩, ⟨[[(0, 506548601157058560), (88419707182412888, 0), (0, 2516902527880), (377915134, 0), (2147, 0)],
    [(18103282689522428, 0), (4399392722789, 0), (807608404, 0), (153914, 0), (29, 0)], [(1628109520149, 0),
    (914753398, 0), (318045, 0), (90, 0)], [(250702293, 0), (221156, 0), (109, 0)]], 3, 4⟩, 1152921504606846976,
    139209871734736, 130699292646161, ⟨[[(9191356915846656, 0), (0, 307304957231690), (327693153413, 0), (1041841121,
    0), (1475152, 0)], [(277991372461244, 0), (0, 547160481095), (0, 1931261862), (0, 2027707), (0, 1660)],
    [(164394033058, 0), (1291502549, 0), (6725, 0), (0, 312), (0, 1)], [(0, 316357730), (1016078, 0), (316, 0)]], 3,
    4⟩, 281474976710656, 26291535306,
    6345733219283059910573736812237047329253302266224240207590208594018283036765228294364116715712731524197707386039437412282085842250677220279,
    lc0⟩))) (.sx (.sy (.leaf ⟨1191, 16, 2603, 1471, 16, 3072, ⟨[[(0, 399400554275012608), (97039537234308043, 0), (0,
    865376857532), (278617579, 0), (15859, 0)], [(5931361235594333, 0), (5108910517595, 0), (1011689753, 0), (190125,
    0), (35, 0)], [(1792941885405, 0), (1102641384, 0), (395155, 0), (111, 0)], [(302534052, 0), (276603, 0), (137,
    0)]], 3, 4⟩, ⟨[[(166634368595918848, 0), (87613449336984910, 0), (0, 2387610216688), (351711405, 0), (1715, 0)],
    [(19274673563765663, 0), (4612648468425, 0), (828850008, 0), (153596, 0), (28, 0)], [(1805747520135, 0),
    (995534581, 0), (338519, 0), (92, 0)], [(288982274, 0), (249734, 0), (119, 0)]], 3, 4⟩, 1152921504606846976,
    159587300279592, 149464590818673, ⟨[[(10252697494821480, 0), (0, 301315281155165), (327048680068, 0),
    (1044054258, 0), (1473874, 0)], [(272012807141754, 0), (0, 540602131730), (0, 1955115253), (0, 2030476), (0,
    1643)], [(162257186098, 0), (1318058169, 0), (11994, 0), (0, 315)], [(0, 324304766), (1000757, 0), (313, 0)]], 3,
    4⟩, 281474976710656, 25772878851,
    4833009324113627727034286653589533489720103391839620612473688080707042092056981094493292820809335976289494534715428982231802315738823497090,
    lc0⟩) (.leaf ⟨1209, 16, 2579, 1501, 16, 3080, ⟨[[(0, 250992608494747648), (95649055176966308, 0), (0,
    554430158423), (302615460, 0), (22497, 0)], [(7779727883035700, 0), (5839139170981, 0), (1228460832, 0), (244815,
    0), (46, 0)], [(2211837297231, 0), (1411401382, 0), (526461, 0), (149, 0)], [(414348952, 0), (387294, 0), (191,
    0)]], 3, 4⟩, ⟨[[(462436040643444736, 0), (86296084884201542, 0), (0, 2020752812084), (359526666, 0), (8297, 0)],
    [(21052349484877439, 0), (5268163377227, 0), (1015511672, 0), (199401, 0), (37, 0)], [(2205657846156, 0),
    (1273388569, 0), (452545, 0), (124, 0)], [(393743839, 0), (349423, 0), (166, 0)]], 3, 4⟩, 1152921504606846976,
    404316315531241, 377264221697136, ⟨[[(10294435714174120, 0), (0, 298991323486439), (351246897338, 0),
    (1135655164, 0), (1631080, 0)], [(269724830482942, 0), (0, 570982793853), (0, 2129676889), (0, 2234132), (0,
    1821)], [(171823384397, 0), (1431182109, 0), (14377, 0), (0, 360), (0, 1)], [(0, 349913407), (1073476, 0), (344,
    0)]], 3, 4⟩, 281474976710656, 27481738230,
    2410858479914837844807497312587754003552149316437440915724642439610778802858221472789410510255588996103428799154067962157041859051288499586,
    lc0⟩)) (.sy (.leaf ⟨1169, 16, 2553, 1448, 16, 3016, ⟨[[(111862485164752896, 0), (96455576901206098, 0), (0,
    583888087491), (325455013, 0), (25526, 0)], [(6724244191042015, 0), (5586003754831, 0), (1205793510, 0), (247939,
    0), (48, 0)], [(1996518331053, 0), (1304715462, 0), (500286, 0), (147, 0)], [(361657257, 0), (347525, 0), (180,
    0)]], 3, 4⟩, ⟨[[(452567925309833216, 0), (87173179020851188, 0), (0, 2125918888446), (387685550, 0), (9669, 0)],
    [(19834559989266936, 0), (5048434947725, 0), (997196707, 0), (202110, 0), (39, 0)], [(2000020047959, 0),
    (1179156231, 0), (430522, 0), (123, 0)], [(344657686, 0), (314081, 0), (157, 0)]], 3, 4⟩, 1152921504606846976,
    361763171100454, 338228162672743, ⟨[[(9328383767857444, 0), (0, 304777961832516), (350236822315, 0), (1125822434,
    0), (1618952, 0)], [(275472575880165, 0), (0, 574848272322), (0, 2093299456), (0, 2216026), (0, 1827)],
    [(173103861540, 0), (1398568412, 0), (9832, 0), (0, 354), (0, 1)], [(0, 340974210), (1083994, 0), (346, 0)]], 3,
    4⟩, 281474976710656, 27893087692,
    4383716731453985127560476673667858768139804610912646840709862519558355009241711609199361896338757764742124816054735082071438840679691580343,
    lc0⟩) (.leaf ⟨1183, 16, 2521, 1474, 16, 3015, ⟨[[(356157460276838400, 0), (94965794210311396, 0), (0,
    218354969468), (363197956, 0), (34896, 0)], [(8727672317229401, 0), (6448257942304, 0), (1486463428, 0), (322137,
    0), (63, 0)], [(2489719083473, 0), (1693957956, 0), (674627, 0), (202, 0)], [(502002701, 0), (494473, 0), (261,
    0)]], 3, 4⟩, ⟨[[(179878454155018240, 0), (85801071134503251, 0), (0, 1709097553047), (407103882, 0), (18489, 0)],
    [(21725745375817161, 0), (5825965475274, 0), (1240357983, 0), (264544, 0), (51, 0)], [(2470374028917, 0),
    (1530481667, 0), (582555, 0), (169, 0)], [(476211483, 0), (446753, 0), (228, 0)]], 3, 4⟩, 1152921504606846976,
    950352563325623, 887018568410291, ⟨[[(9199197886754564, 0), (0, 302661518182185), (381031789664, 0), (1241432912,
    0), (1821751, 0)], [(273532834043569, 0), (0, 614494496655), (0, 2308055298), (0, 2475808), (0, 2063)],
    [(185656051945, 0), (1534409663, 0), (11358, 0), (0, 413), (0, 1)], [(0, 371118682), (1179059, 0), (387, 0)]], 3,
    4⟩, 281474976710656, 30158715081,
    1888911523913993538005724108286911022142096994990436346830604747335412529571477686206137095738241671112031326150309703762931738056727589815,
    lc0⟩)))) (.sy (.sx (.sy (.leaf ⟨1107, 16, 2544, 1360, 16, 2935, ⟨[[(50335729678286848, 0), (98439381913222805,
    0), (0, 992260783023), (313846424, 0), (19377, 0)], [(3973172269208295, 0), (4598369977983, 0), (948762252, 0),
    (187447, 0), (37, 0)], [(1429004217533, 0), (916173710, 0), (342605, 0), (102, 0)], [(223083913, 0), (212520, 0),
    (112, 0)]], 3, 4⟩, ⟨[[(557129634643705856, 0), (89237853167104012, 0), (0, 2675646263039), (403024970, 0), (1967,
    0)], [(16948195095217313, 0), (4168541664199, 0), (777109466, 0), (151522, 0), (30, 0)], [(1456085192300, 0),
    (830535234, 0), (294050, 0), (85, 0)], [(214655753, 0), (192655, 0), (98, 0)]], 3, 4⟩, 1152921504606846976,
    115907909386101, 109252222833378, ⟨[[(8494023820779915, 0), (0, 314189386520011), (323251805619, 0), (1029751105,
    0), (1462619, 0)], [(284825165076201, 0), (0, 547831839093), (0, 1894159815), (0, 2010336), (0, 1663)],
    [(164610805995, 0), (1259862567, 0), (1674, 0), (0, 305), (0, 1)], [(0, 308264142), (1027939, 0), (317, 0)]], 3,
    4⟩, 281474976710656, 26753227109,
    7016632387262541273243574320841159217976652462609293660795129262530427891817841143806626524867664532781424483140139078485461198068407357932,
    lc0⟩) (.leaf ⟨1129, 16, 2527, 1396, 16, 2953, ⟨[[(273587304671739904, 0), (97209840496179399, 0), (0,
    642168889927), (344480402, 0), (27903, 0)], [(5669315397086086, 0), (5302604670612, 0), (1168044992, 0), (246706,
    0), (50, 0)], [(1784416879677, 0), (1190272107, 0), (467674, 0), (144, 0)], [(311073089, 0), (306529, 0), (165,
    0)]], 3, 4⟩, ⟨[[(0, 215976822277931008), (88050399835281244, 0), (0, 2262861547341), (413977504, 0), (10392, 0)],
    [(18622866048163262, 0), (4802975285554, 0), (966281697, 0), (201280, 0), (40, 0)], [(1797737646322, 0),
    (1078120635, 0), (403023, 0), (120, 0)], [(297538159, 0), (277647, 0), (145, 0)]], 3, 4⟩, 1152921504606846976,
    307905777673049, 288812727445309, ⟨[[(8230371387976310, 0), (0, 310356378758660), (349647167942, 0), (1117269070,
    0), (1608510, 0)], [(281189075380538, 0), (0, 579706867706), (0, 2057003079), (0, 2197677), (0, 1831)],
    [(174766247679, 0), (1363436750, 0), (4076, 0), (0, 348), (0, 1)], [(0, 330901456), (1093833, 0), (347, 0)]], 3,
    4⟩, 281474976710656, 28283069228,
    5712015872688094143924237214322650168479952266392881775757253181368691318579620327345986055929270851383187733697887631010428387481708155372,
    lc0⟩)) (.sy (.leaf ⟨1090, 16, 2502, 1343, 16, 2889, ⟨[[(0, 390362188180357120), (97964550274463920, 0), (0,
    728656783893), (359803572, 0), (29529, 0)], [(4628785860102059, 0), (4998336602403, 0), (1117541440, 0), (241210,
    0), (51, 0)], [(1580150920090, 0), (1072230947, 0), (429888, 0), (137, 0)], [(263787247, 0), (265527, 0), (149,
    0)]], 3, 4⟩, ⟨[[(0, 302393742034206720), (88882942277647038, 0), (0, 2430180305254), (438260655, 0), (10342, 0)],
    [(17415695473764299, 0), (4534975789415, 0), (923680584, 0), (196751, 0), (41, 0)], [(1601251846446, 0),
    (972831918, 0), (370674, 0), (115, 0)], [(253181500, 0), (240912, 0), (130, 0)]], 3, 4⟩, 1152921504606846976,
    250256164022130, 235327180000722, ⟨[[(7489601946932991, 0), (0, 316993860457492), (345208802356, 0), (1104171547,
    0), (1593781, 0)], [(287574575983777, 0), (0, 579790614335), (0, 2015729499), (0, 2175488), (0, 1831)],
    [(174667595629, 0), (1327467567, 0), (0, 1232), (0, 340), (0, 1)], [(0, 321349853), (1102277, 0), (347, 0)]], 3,
    4⟩, 281474976710656, 28642035768,
    6144088167357897554475563023497324964248230561362749443553434138946194939723592497848229632408819576339157405095613852603030693242201092129,
    lc0⟩) (.leaf ⟨1108, 16, 2477, 1374, 16, 2898, ⟨[[(176519453071638528, 0), (96617133608316717, 0), (0,
    323034629190), (405445363, 0), (41717, 0)], [(6461055009664951, 0), (5820070495898, 0), (1398853627, 0), (323116,
    0), (71, 0)], [(1994440766796, 0), (1416276340, 0), (599272, 0), (200, 0)], [(374215879, 0), (393060, 0), (232,
    0)]], 3, 4⟩, ⟨[[(0, 293954086647889920), (87617210101503778, 0), (0, 1965872659105), (461854219, 0), (21809, 0)],
    [(19184763985206128, 0), (5277928669587, 0), (1167775157, 0), (265946, 0), (58, 0)], [(1998782972696, 0),
    (1284349649, 0), (518926, 0), (169, 0)], [(357153431, 0), (356446, 0), (204, 0)]], 3, 4⟩, 1152921504606846976,
    687831191660984, 645035935668954, ⟨[[(7352157202778921, 0), (0, 314112122488810), (374444702212, 0), (1206946912,
    0), (1771457, 0)], [(284919746437160, 0), (0, 616303643790), (0, 2207598459), (0, 2405636), (0, 2044)],
    [(186281271260, 0), (1450752925, 0), (1287, 0), (0, 393), (0, 1)], [(0, 348895048), (1188215, 0), (386, 0)]], 3,
    4⟩, 281474976710656, 30700662146,
    4895695334465521496958289740361683661603266602561130087140573190435626272650783611059561097229762750160388905049771967718345852127502577697,
    lc0⟩))) (.sx (.sy (.leaf ⟨1145, 16, 2498, 1424, 16, 2956, ⟨[[(456181356745719808, 0), (95780210733240168, 0), (0,
    254416073438), (386611675, 0), (38734, 0)], [(7591561634759262, 0), (6148856414648, 0), (1451351924, 0), (325530,
    0), (68, 0)], [(2239053662920, 0), (1559180875, 0), (641489, 0), (204, 0)], [(436688641, 0), (445244, 0), (250,
    0)]], 3, 4⟩, ⟨[[(0, 273485542549880832), (86708725494079816, 0), (0, 1820025966771), (435846650, 0), (20566, 0)],
    [(20452309304728394, 0), (5566489140905, 0), (1211836982, 0), (267730, 0), (55, 0)], [(2232356893617, 0),
    (1411508551, 0), (554854, 0), (171, 0)], [(415505204, 0), (403074, 0), (219, 0)]], 3, 4⟩, 1152921504606846976,
    827934278557221, 774742591540133, ⟨[[(8172490487791545, 0), (0, 308109043540767), (379408056069, 0), (1227079147,
    0), (1800749, 0)], [(279048677318834, 0), (0, 617471462861), (0, 2262074245), (0, 2445737), (0, 2059)],
    [(186698066426, 0), (1494769279, 0), (6309, 0), (0, 405), (0, 1)], [(0, 360320318), (1185818, 0), (388, 0)]], 3,
    4⟩, 281474976710656, 30483748085,
    3738372924287464662904376146525528437371178825968382802508837242072091060827419061151880866732279731341370292265774538018941459131497206252,
    lc0⟩) (.leaf ⟨1154, 16, 2455, 1444, 16, 2943, ⟨[[(280506698721918976, 0), (94103171326024815, 0), (180153834132,
    0), (442768436, 0), (52296, 0)], [(9765453734066318, 0), (7171486309770, 0), (1817164673, 0), (430597, 0), (93,
    0)], [(2823531314718, 0), (2057653295, 0), (887453, 0), (298, 0)], [(617699814, 0), (657205, 0), (397, 0)]], 3,
    4⟩, ⟨[[(0, 539341154659074048), (85222458660028510, 0), (0, 1338467549040), (470970971, 0), (32892, 0)],
    [(22462167763656120, 0), (6494698180234, 0), (1531238455, 0), (356924, 0), (76, 0)], [(2790129259157, 0),
    (1863468260, 0), (770868, 0), (253, 0)], [(585412663, 0), (595183, 0), (349, 0)]], 3, 4⟩, 1152921504606846976,
    2209671660748415, 2066215323137512, ⟨[[(8145528120695883, 0), (0, 307116833421005), (416067543717, 0),
    (1371686080, 0), (2063761, 0)], [(278258380949075, 0), (0, 665995061317), (0, 2530490924), (0, 2784449), (0,
    2379)], [(202045562393, 0), (1665466558, 0), (7765, 0), (0, 483), (0, 1)], [(0, 398716576), (1315198, 0), (445,
    0)]], 3, 4⟩, 281474976710656, 33635701623,
    2543265590732852213776725451123612177453157994573951731206919866168557382252015238133074253350219532154818962881269573128814289045213237216,
    lc0⟩)) (.sy (.leaf ⟨1120, 16, 2438, 1396, 16, 2890, ⟨[[(0, 511984639952289792), (95027692014686068, 0),
    (135007603469, 0), (467588269, 0), (57712, 0)], [(8547708894513410, 0), (6822290582292, 0), (1769175502, 0),
    (436683, 0), (102, 0)], [(2532599056193, 0), (1890617726, 0), (847705, 0), (304, 0)], [(537005656, 0), (594630,
    0), (381, 0)]], 3, 4⟩, ⟨[[(330926643751157760, 0), (86176597268089698, 0), (0, 1457517359619), (500772167, 0),
    (36319, 0)], [(21128938592182513, 0), (6186846965253, 0), (1490961670, 0), (362514, 0), (83, 0)],
    [(2512977039730, 0), (1714521304, 0), (737314, 0), (258, 0)], [(510065111, 0), (539245, 0), (335, 0)]], 3, 4⟩,
    1152921504606846976, 1877633719054539, 1759254074462909, ⟨[[(7692906370227148, 0), (0, 313731449053993),
    (405909832710, 0), (1336530746, 0), (2009269, 0)], [(284429787211228, 0), (0, 657576867669), (0, 2455523631), (0,
    2719176), (0, 2344)], [(199201290914, 0), (1614949128, 0), (4987, 0), (0, 465), (0, 1)], [(0, 387302660),
    (1311427, 0), (440, 0)]], 3, 4⟩, 281474976710656, 33733430042,
    3011884663571689525701281687785154473727276780385773983318191112592413610373719543508843131675879200547541610176211576507736212465853313057,
    lc0⟩) (.leaf ⟨1122, 16, 2381, 1410, 16, 2864, ⟨[[(0, 476841941753921536), (93076621535839823, 0), (657871250844,
    0), (550618879, 0), (79296, 0)], [(10911408201749728, 0), (8047978120036, 0), (2260084833, 0), (599819, 0), (153,
    0)], [(3235442672683, 0), (2554714436, 0), (1228750, 0), (486, 0)], [(783046370, 0), (930079, 0), (658, 0)]], 3,
    4⟩, ⟨[[(0, 557300857559056384), (84579529202350150, 0), (0, 892478188761), (559571097, 0), (55557, 0)],
    [(23282519299941033, 0), (7313267168399, 0), (1924898809, 0), (503146, 0), (127, 0)], [(3186963878986, 0),
    (2321491054, 0), (1075671, 0), (418, 0)], [(741822711, 0), (845171, 0), (583, 0)]], 3, 4⟩, 1152921504606846976,
    5025463054766975, 4714087690710850, ⟨[[(7443970589406584, 0), (0, 313326326310306), (453118929424, 0),
    (1523990826, 0), (2360014, 0)], [(284718001051806, 0), (0, 721919255464), (0, 2799922292), (0, 3170910), (0,
    2787)], [(219847153268, 0), (1831917717, 0), (4971, 0), (0, 572), (0, 1)], [(0, 435850541), (1490704, 0), (520,
    0)]], 3, 4⟩, 281474976710656, 38180882882,
    3235426675167098813580606953229709363620690701284804206767771225738218909371805828874695289874873180652130819985280467766037931359397409194,
    lc0⟩))))
theorem c23 : checkC job ⟨6, 8, 6, 7, 9, 13⟩ 3 200 B1.zlims t23 1667 121 320 3259 175 3792 = true := by decide +kernel

def t24 : CTree :=
  .sy (.sx (.sy (.leaf ⟨1221, 16, 2545, 1525, 16, 3075, ⟨[[(523110686399660032, 0), (94118975887786230, 0), (0,
    215324358894), (335285763, 0), (30419, 0)], [(9853495921091184, 0), (6707803581475, 0), (1502146869, 0), (313469,
    0), (58, 0)], [(2740572481109, 0), (1815998656, 0), (698237, 0), (196, 0)], [(568628239, 0), (539680, 0), (266,
    0)]], 3, 4⟩, ⟨[[(0, 94748039255687168), (84877405669030181, 0), (0, 1632709345722), (375691599, 0), (15792, 0)],
    [(22992349172839847, 0), (6049162353953, 0), (1252127602, 0), (256990, 0), (46, 0)], [(2708092330840, 0),
    (1637685208, 0), (601921, 0), (164, 0)], [(537980222, 0), (486689, 0), (232, 0)]], 3, 4⟩, 1152921504606846976,
    1036543227929017, 965196815467791, ⟨[[(9970919165016728, 0), (0, 296680248340877), (384372493261, 0),
    (1258629603, 0), (1845590, 0)], [(267666857345006, 0), (0, 613997963921), (0, 2353685648), (0, 2504284), (0,
    2063)], [(185461161056, 0), (1568744209, 0), (14579, 0), (0, 421), (0, 1)], [(0, 379559812), (1169614, 0), (385,
    0)]], 3, 4⟩, 281474976710656, 29748424661,
    3456189079833027538744052012540739174071311642203526796850186737303673100231258936905117018223241134878120885465589628183399353585257024586,
    lc0⟩) (.leaf ⟨1226, 16, 2497, 1540, 16, 3054, ⟨[[(507417144130273280, 0), (92322359587372014, 0), (158315233752,
    0), (377195356, 0), (39263, 0)], [(12165724810564263, 0), (7736280694084, 0), (1841719040, 0), (396563, 0), (71,
    0)], [(3405295566369, 0), (2339354494, 0), (919691, 0), (259, 0)], [(779558110, 0), (751060, 0), (382, 0)]], 3,
    4⟩, ⟨[[(0, 73348747471355904), (83302821861638425, 0), (0, 1216271683525), (400772841, 0), (23920, 0)],
    [(25102077670726766, 0), (6980475969323, 0), (1547900843, 0), (326994, 0), (57, 0)], [(3339600410282, 0),
    (2110808601, 0), (795402, 0), (217, 0)], [(735399010, 0), (677684, 0), (334, 0)]], 3, 4⟩, 1152921504606846976,
    2638981909115329, 2456210609651988, ⟨[[(9980817506301994, 0), (0, 296248937902684), (421368914860, 0),
    (1412425012, 0), (2126300, 0)], [(267410851177367, 0), (0, 663925676052), (0, 2639481930), (0, 2863352), (0,
    2394)], [(201166930882, 0), (1748824775, 0), (15172, 0), (0, 503), (0, 1)], [(0, 420007585), (1303243, 0), (443,
    0)]], 3, 4⟩, 281474976710656, 32979780938,
    4725795058789502219410080751025473158318056409594345855523239179667196141297550785334375566551005039358824651598455583359727293516600183882,
    lc0⟩)) (.sy (.leaf ⟨1190, 16, 2475, 1492, 16, 2998, ⟨[[(13501843328204800, 0), (93220307975171171, 0),
    (187940337427, 0), (412473585, 0), (46000, 0)], [(10977444589559476, 0), (7479788679412, 0), (1841583735, 0),
    (416563, 0), (82, 0)], [(3116759518619, 0), (2208544455, 0), (910804, 0), (282, 0)], [(699109012, 0), (709437,
    0), (397, 0)]], 3, 4⟩, ⟨[[(0, 485254932083507200), (84280000372560399, 0), (0, 1258486854132), (437529883, 0),
    (28624, 0)], [(23794003447690109, 0), (6762438425492, 0), (1550354534, 0), (344480, 0), (67, 0)],
    [(3067914687302, 0), (1996733668, 0), (789612, 0), (238, 0)], [(661064174, 0), (641398, 0), (348, 0)]], 3, 4⟩,
    1152921504606846976, 2477846253177776, 2311846540842040, ⟨[[(9107166869156548, 0), (0, 301724884586360),
    (419146433338, 0), (1393837010, 0), (2098917, 0)], [(272860039360250, 0), (0, 665401225976), (0, 2589740294), (0,
    2830372), (0, 2393)], [(201761017621, 0), (1711625634, 0), (12061, 0), (0, 495), (0, 1)], [(0, 410671119),
    (1312281, 0), (445, 0)]], 3, 4⟩, 281474976710656, 33387776344,
    4386496775255470279352720205061807960130420275745596979265923742283075574179002742269724955565608066718687544949520485547152252434750352917,
    lc0⟩) (.sx (.leaf ⟨1264, 16, 2569, 1668, 16, 3299, ⟨[[(0, 139596562734514176), (96513266105150552, 0),
    (540549683717, 0), (471980075, 0), (56110, 0)], [(6936375839479220, 0), (4458076931575, 0), (1141293846, 0),
    (261823, 0), (52, 0)], [(996082590448, 0), (721437856, 0), (301980, 0), (96, 0)], [(121604202, 0), (125561, 0),
    (74, 0)]], 3, 4⟩, ⟨[[(0, 172585215973392384), (91433964600417403, 0), (0, 979681473616), (505737691, 0), (39132,
    0)], [(14254478495752342, 0), (4223457197102, 0), (1012322359, 0), (227745, 0), (44, 0)], [(1020801469936, 0),
    (683470014, 0), (274936, 0), (85, 0)], [(120159392, 0), (118953, 0), (68, 0)]], 3, 4⟩, 1152921504606846976,
    186056646762270, 181584727129976, ⟨[[(9448404411599628, 0), (0, 272585584662836), (370375379288, 0), (1142778711,
    0), (1594715, 0)], [(258244615427404, 0), (0, 608998334617), (0, 2228284117), (0, 2240667), (0, 1735)],
    [(193823684146, 0), (1538398982, 0), (9968, 0), (0, 385), (0, 1)], [(0, 385034002), (1113691, 0), (351, 0)]], 3,
    4⟩, 281474976710656, 28909183101,
    5303569658844016212954310511343614302133450762656886432948343818249967294529039781441052567357758211973977358436368444668977349460922522928,
    lc0⟩) (.leaf ⟨1246, 16, 2530, 1648, 16, 3253, ⟨[[(204268854808936448, 0), (96154026454353522, 0), (822872150551,
    0), (533313110, 0), (69517, 0)], [(7327916397175847, 0), (4757525385640, 0), (1282063349, 0), (310874, 0), (68,
    0)], [(1074332079966, 0), (809997238, 0), (359118, 0), (127, 0)], [(138198693, 0), (152066, 0), (99, 0)]], 3, 4⟩,
    ⟨[[(0, 464176129820852224), (91208086460399370, 0), (0, 707552288831), (558465734, 0), (50795, 0)],
    [(14564706898459062, 0), (4512809319712, 0), (1142488627, 0), (271870, 0), (59, 0)], [(1098860180023, 0),
    (768332860, 0), (328110, 0), (114, 0)], [(136476793, 0), (144244, 0), (92, 0)]], 3, 4⟩, 1152921504606846976,
    302065018776782, 295208307759394, ⟨[[(8861420572289199, 0), (0, 274681268597893), (389888134475, 0), (1211274621,
    0), (1714741, 0)], [(260643427611229, 0), (0, 638539592796), (0, 2350372872), (0, 2398511), (0, 1884)],
    [(203658687801, 0), (1612907417, 0), (7840, 0), (0, 421), (0, 1)], [(0, 401314184), (1186280, 0), (380, 0)]], 3,
    4⟩, 281474976710656, 30777096409,
    5908031159875977144877698799583804961526210252598021539044602129107994970129399333827674751367827802052703021754258857113623392284720999957,
    lc0⟩)))) (.sx (.sy (.sx (.leaf ⟨1308, 16, 2606, 1730, 16, 3378, ⟨[[(514825369889538048, 0), (96051924956208462,
    0), (469775971358, 0), (427798605, 0), (46588, 0)], [(7620083847512806, 0), (4603482204284, 0), (1132676500, 0),
    (243963, 0), (42, 0)], [(1084441982824, 0), (757017044, 0), (297767, 0), (83, 0)], [(133762996, 0), (129086, 0),
    (67, 0)]], 3, 4⟩, ⟨[[(0, 509334318032355328), (90829155616349904, 0), (0, 983451016105), (460369109, 0), (31651,
    0)], [(15072821854324387, 0), (4353170451302, 0), (1002663258, 0), (211372, 0), (35, 0)], [(1107991756987, 0),
    (715854669, 0), (270324, 0), (73, 0)], [(131934812, 0), (122067, 0), (62, 0)]], 3, 4⟩, 1152921504606846976,
    159897883701510, 155763679594068, ⟨[[(10107335004245470, 0), (0, 265607231485913), (370413280997, 0),
    (1143139091, 0), (1584917, 0)], [(251266678641202, 0), (0, 604361515967), (0, 2236014671), (0, 2219337), (0,
    1688)], [(192278979462, 0), (1542652950, 0), (10649, 0), (0, 381), (0, 1)], [(0, 385518331), (1081374, 0), (339,
    0)]], 3, 4⟩, 281474976710656, 27882136083,
    4586929609934522158231963451716982259954752925440172038288216643322664846432165225730775816602941374297936457883126702567280186037171600229,
    lc0⟩) (.leaf ⟨1289, 16, 2564, 1708, 16, 3329, ⟨[[(0, 13465729012858880), (95645483834056294, 0), (750066721167,
    0), (484256934, 0), (57185, 0)], [(8037881038194156, 0), (4913559874725, 0), (1269140078, 0), (285723, 0), (54,
    0)], [(1169302839335, 0), (846389686, 0), (349349, 0), (109, 0)], [(151076379, 0), (154446, 0), (91, 0)]], 3, 4⟩,
    ⟨[[(0, 409363121479090176), (90592910555508198, 0), (0, 713526146540), (508758729, 0), (40779, 0)],
    [(15406562531825787, 0), (4653995906513, 0), (1128943347, 0), (248774, 0), (46, 0)], [(1192942509208, 0),
    (801678261, 0), (318294, 0), (97, 0)], [(149012251, 0), (146287, 0), (84, 0)]], 3, 4⟩, 1152921504606846976,
    261149560626584, 254803736479151, ⟨[[(9805104136719066, 0), (0, 268441674547769), (387669306169, 0), (1210385626,
    0), (1704634, 0)], [(254273287122269, 0), (0, 631110138835), (0, 2361986771), (0, 2381136), (0, 1839)],
    [(201119262277, 0), (1624333113, 0), (9775, 0), (0, 417), (0, 1)], [(0, 404688215), (1156571, 0), (369, 0)]], 3,
    4⟩, 281474976710656, 29827226853,
    5159774318436607970713325163505235629036905494898642861163521497052593213504550613453553958629974601618690090724016797987183388996168453194,
    lc0⟩)) (.sx (.leaf ⟨1313, 16, 2557, 1746, 16, 3356, ⟨[[(0, 553191742785978368), (94731076867348656, 0),
    (937770997925, 0), (490895691, 0), (56037, 0)], [(9204781736323958, 0), (5390339043130, 0), (1395498661, 0),
    (304738, 0), (54, 0)], [(1363660414130, 0), (981358741, 0), (396254, 0), (121, 0)], [(185158507, 0), (186505, 0),
    (110, 0)]], 3, 4⟩, ⟨[[(0, 459169544338407424), (89727534040838296, 0), (0, 471522464584), (507611190, 0), (40370,
    0)], [(16619921377427331, 0), (5105630021090, 0), (1244418197, 0), (265382, 0), (45, 0)], [(1386017444732, 0),
    (929524953, 0), (361238, 0), (108, 0)], [(182396009, 0), (176654, 0), (102, 0)]], 3, 4⟩, 1152921504606846976,
    363369534144567, 354474461734617, ⟨[[(10350457923639590, 0), (0, 264933142389463), (404105360904, 0),
    (1282118652, 0), (1823517, 0)], [(250803686305436, 0), (0, 652632347170), (0, 2506064458), (0, 2534559), (0,
    1952)], [(208062455589, 0), (1718018304, 0), (9617, 0), (0, 452), (0, 1)], [(0, 426637138), (1204313, 0), (388,
    0)]], 3, 4⟩, 281474976710656, 30867936896,
    5802841614238706477957299221897930434866314726148969413460622830600061267219028839424024846151811724770244261214130873544835625348340356482,
    lc0⟩) (.leaf ⟨1289, 16, 2508, 1719, 16, 3298, ⟨[[(384601415667941376, 0), (94254329000657586, 0), (1275493473957,
    0), (561704593, 0), (70430, 0)], [(9709416074916674, 0), (5787817478884, 0), (1578573311, 0), (368452, 0), (77,
    0)], [(1480534108710, 0), (1113070034, 0), (484606, 0), (173, 0)], [(213939023, 0), (235200, 0), (160, 0)]], 3,
    4⟩, ⟨[[(0, 77079562714349568), (89447140042449247, 0), (0, 145072368197), (569000508, 0), (52919, 0)],
    [(17025128747218557, 0), (5492625389867, 0), (1414825284, 0), (323099, 0), (67, 0)], [(1503064101220, 0),
    (1056300885, 0), (443882, 0), (156, 0)], [(210725701, 0), (223204, 0), (148, 0)]], 3, 4⟩, 1152921504606846976,
    593159488564897, 579490008487240, ⟨[[(9793383763863896, 0), (0, 267697294529783), (428329333221, 0), (1372815073,
    0), (1987010, 0)], [(254040934405068, 0), (0, 689743263260), (0, 2671735771), (0, 2751227), (0, 2156)],
    [(220477668595, 0), (1821798017, 0), (7086, 0), (0, 503), (0, 1)], [(0, 450175032), (1302825, 0), (428, 0)]], 3,
    4⟩, 281474976710656, 33405000648,
    5012342809565213760781983936797761271384954807922797008008759271530025684060025327289871394761868079457195992735011505365131317417550595228,
    lc0⟩))) (.sy (.sx (.leaf ⟨1269, 16, 2520, 1685, 16, 3278, ⟨[[(0, 476296668994863104), (95223809155479926, 0),
    (1060548631621, 0), (550919589, 0), (71312, 0)], [(8483609864171250, 0), (5260600372145, 0), (1431228066, 0),
    (342218, 0), (74, 0)], [(1265572286443, 0), (955305975, 0), (420961, 0), (150, 0)], [(173092694, 0), (190635, 0),
    (127, 0)]], 3, 4⟩, ⟨[[(0, 311500556481855488), (90362435702460205, 0), (0, 413941704296), (566509179, 0), (53101,
    0)], [(15766166550278620, 0), (4992035784960, 0), (1279694402, 0), (299863, 0), (64, 0)], [(1289517636427, 0),
    (906535618, 0), (385221, 0), (134, 0)], [(170719997, 0), (180903, 0), (118, 0)]], 3, 4⟩, 1152921504606846976,
    425228401163355, 415658981777862, ⟨[[(9490959968178972, 0), (0, 271456094917353), (406672333949, 0), (1285493069,
    0), (1840547, 0)], [(257523217239101, 0), (0, 660634937867), (0, 2502783374), (0, 2564838), (0, 2012)],
    [(210912892148, 0), (1715658274, 0), (8662, 0), (0, 459), (0, 1)], [(0, 426142198), (1242153, 0), (403, 0)]], 3,
    4⟩, 281474976710656, 32047426757,
    5768445437729187933651656634221438344390244663947414334279860873472152338747910450096072074499529332231277017874991956374362144480768089392,
    lc0⟩) (.leaf ⟨1247, 16, 2474, 1660, 16, 3223, ⟨[[(280901107116933120, 0), (94793175053694321, 0), (1407364830426,
    0), (631909750, 0), (91263, 0)], [(8961698195611230, 0), (5654308857790, 0), (1629908280, 0), (421666, 0), (106,
    0)], [(1376871273416, 0), (1092443717, 0), (522198, 0), (211, 0)], [(201840949, 0), (241893, 0), (179, 0)]], 3,
    4⟩, ⟨[[(0, 250289189761318912), (90088975956552605, 0), (0, 78525743553), (637130210, 0), (70697, 0)],
    [(16146471190263677, 0), (5373708544436, 0), (1464556815, 0), (372131, 0), (93, 0)], [(1400491587544, 0),
    (1038230186, 0), (479964, 0), (191, 0)], [(198934772, 0), (229888, 0), (166, 0)]], 3, 4⟩, 1152921504606846976,
    688723241247316, 674097928741688, ⟨[[(8895270542965193, 0), (0, 274106609923194), (430970473289, 0), (1375208328,
    0), (2002955, 0)], [(260565418173257, 0), (0, 697524920948), (0, 2664176273), (0, 2778608), (0, 2217)],
    [(223190744527, 0), (1815148187, 0), (5877, 0), (0, 510), (0, 1)], [(0, 448233768), (1339501, 0), (443, 0)]], 3,
    4⟩, 281474976710656, 34555165444,
    6380338437061363677322425393713084840355928087151397760274501685167799416762821348901383273642245628015908479288643287255152349002976439829,
    lc0⟩)) (.sx (.leaf ⟨1265, 16, 2456, 1689, 16, 3234, ⟨[[(0, 376888242103386112), (93739040330510769, 0),
    (1653391704155, 0), (648797608, 0), (91911, 0)], [(10248958694892146, 0), (6239851214189, 0), (1807059889, 0),
    (462051, 0), (117, 0)], [(1616743352954, 0), (1282923671, 0), (613968, 0), (255, 0)], [(252550175, 0), (305911,
    0), (232, 0)]], 3, 4⟩, ⟨[[(181954373780766720, 0), (89078765575656056, 0), (221262409776, 0), (644948476, 0),
    (71903, 0)], [(17446677106894332, 0), (5929634457275, 0), (1627361447, 0), (408386, 0), (103, 0)],
    [(1638321908041, 0), (1219142596, 0), (564969, 0), (231, 0)], [(248506610, 0), (290702, 0), (216, 0)]], 3, 4⟩,
    1152921504606846976, 961565956911277, 940691274340212, ⟨[[(9583815890412756, 0), (0, 271948978150325),
    (452449410507, 0), (1476869953, 0), (2183153, 0)], [(258253431219585, 0), (0, 726851900216), (0, 2867516829), (0,
    3014840), (0, 2411)], [(232515546292, 0), (1948997327, 0), (5930, 0), (0, 565), (0, 1)], [(0, 480158532),
    (1421593, 0), (478, 0)]], 3, 4⟩, 281474976710656, 36464596336,
    4854480084442292557039853159480980743072258918351278459791802571196311730105147667001279358075225177462491080944155778810195443143238016304,
    lc0⟩) (.leaf ⟨1239, 16, 2401, 1656, 16, 3163, ⟨[[(0, 532169339927003136), (93194089458251952, 0), (2082579512632,
    0), (760359198, 0), (124836, 0)], [(10830918050766129, 0), (6765361460792, 0), (2102541032, 0), (600374, 0),
    (179, 0)], [(1779645684603, 0), (1507548469, 0), (800497, 0), (373, 0)], [(304645259, 0), (404905, 0), (330,
    0)]], 3, 4⟩, ⟨[[(0, 299904665432621056), (88600757567903393, 0), (637247393213, 0), (742707143, 0), (101257, 0)],
    [(17884919705993267, 0), (6431911660184, 0), (1901440003, 0), (534736, 0), (159, 0)], [(1798104368625, 0),
    (1433244718, 0), (739322, 0), (340, 0)], [(299137112, 0), (384949, 0), (308, 0)]], 3, 4⟩, 1152921504606846976,
    1547378968781318, 1514480227031828, ⟨[[(9066302139341108, 0), (0, 275931156781454), (485320126581, 0),
    (1610192797, 0), (2435798, 0)], [(262180255105376, 0), (0, 775646574950), (0, 3106986051), (0, 3343551), (0,
    2734)], [(248234996754, 0), (2096019872, 0), (2425, 0), (0, 644), (0, 1)], [(0, 512742261), (1563526, 0), (539,
    0)]], 3, 4⟩, 281474976710656, 40075271844,
    5700451307442340414761413915052615553475382553388973182871831813351386477796185561216405578200130208907898576363706872706067285172214541845,
    lc0⟩))))
theorem c24 : checkC job ⟨6, 8, 6, 7, 9, 13⟩ 3 200 B1.zlims t24 3213 121 640 3609 175 3792 = true := by decide +kernel

def t25 : CTree :=
  .sx (.sy (.sx (.leaf ⟨1222, 16, 2537, 1608, 16, 3224, ⟨[[(0, 358883526661636096), (97026336522952411, 0),
    (568713380992, 0), (511091834, 0), (65655, 0)], [(6243856180315330, 0), (4283768381905, 0), (1136328643, 0),
    (276977, 0), (62, 0)], [(906295911500, 0), (679402500, 0), (301461, 0), (106, 0)], [(109027096, 0), (119571, 0),
    (77, 0)]], 3, 4⟩, ⟨[[(168324608343146496, 0), (92028378481151743, 0), (0, 1020306399153), (547322954, 0), (46577,
    0)], [(13430084058482737, 0), (4063105669070, 0), (1008932080, 0), (241654, 0), (53, 0)], [(931382897219, 0),
    (644405557, 0), (275011, 0), (95, 0)], [(107873175, 0), (113412, 0), (71, 0)]], 3, 4⟩, 1152921504606846976,
    212443667628852, 207664586141262, ⟨[[(8701102010000019, 0), (0, 279323470752774), (369585723279, 0), (1138223744,
    0), (1595792, 0)], [(264894047320328, 0), (0, 612481406047), (0, 2208258723), (0, 2246745), (0, 1768)],
    [(194873244471, 0), (1522322143, 0), (8241, 0), (0, 385), (0, 1)], [(0, 380953181), (1137916, 0), (360, 0)]], 3,
    4⟩, 281474976710656, 29718384201,
    4828916957751946911487253606626400916861715014852953962701017335579684428165931333159017029022267358034902196176099159220871633109229666042,
    lc0⟩) (.leaf ⟨1205, 16, 2500, 1590, 16, 3181, ⟨[[(241693880834588672, 0), (96673809008421227, 0), (849950161642,
    0), (576428378, 0), (81756, 0)], [(6604848850326024, 0), (4567515080252, 0), (1278195374, 0), (331481, 0), (82,
    0)], [(976947470924, 0), (764490554, 0), (360810, 0), (140, 0)], [(124266580, 0), (145271, 0), (102, 0)]], 3, 4⟩,
    ⟨[[(0, 545524304567861248), (91810015573376696, 0), (0, 748835713333), (603757269, 0), (60689, 0)],
    [(13715344056134389, 0), (4337717060606, 0), (1140370661, 0), (290896, 0), (71, 0)], [(1001964430175, 0),
    (726027974, 0), (330352, 0), (126, 0)], [(122864252, 0), (137962, 0), (94, 0)]], 3, 4⟩, 1152921504606846976,
    342449428429925, 335158366505273, ⟨[[(7949170216516413, 0), (0, 280969533091126), (390106821693, 0), (1206471999,
    0), (1714425, 0)], [(266953887276794, 0), (0, 643286711933), (0, 2326606937), (0, 2400649), (0, 1915)],
    [(205187565917, 0), (1591932992, 0), (5362, 0), (0, 421), (0, 1)], [(0, 395417518), (1208905, 0), (389, 0)]], 3,
    4⟩, 281474976710656, 31544782868,
    5254998889433061361907927510691901943479736143524637847342565077979829489385148786610903728996747325632824603866249424839808853311390306272,
    lc0⟩)) (.sx (.leaf ⟨1228, 16, 2489, 1626, 16, 3205, ⟨[[(0, 517836398902116352), (95777375520872869, 0),
    (1136963466701, 0), (606847684, 0), (87624, 0)], [(7745878579914958, 0), (5094495649676, 0), (1451468898, 0),
    (377185, 0), (94, 0)], [(1163726322455, 0), (918871191, 0), (437164, 0), (173, 0)], [(159278769, 0), (188632, 0),
    (136, 0)]], 3, 4⟩, ⟨[[(409105518937505792, 0), (90984706156314624, 0), (0, 404383086057), (622380033, 0), (66717,
    0)], [(14898666989809926, 0), (4839568710039, 0), (1299878284, 0), (332007, 0), (82, 0)], [(1188164486255, 0),
    (872891169, 0), (401047, 0), (156, 0)], [(157199662, 0), (179193, 0), (126, 0)]], 3, 4⟩, 1152921504606846976,
    488314639481074, 477894256184423, ⟨[[(8795973411054887, 0), (0, 278374162824168), (405083234148, 0), (1277860272,
    0), (1838725, 0)], [(264330739007878, 0), (0, 662792111760), (0, 2478944562), (0, 2570135), (0, 2050)],
    [(211577241244, 0), (1699809024, 0), (7879, 0), (0, 460), (0, 1)], [(0, 422590453), (1269105, 0), (414, 0)]], 3,
    4⟩, 281474976710656, 32952558379,
    6518639406436010985844879114868843297488098324731430276947949644255374438799907471210476937316480364915830194213291880081952455812843208442,
    lc0⟩) (.leaf ⟨1207, 16, 2444, 1604, 16, 3154, ⟨[[(15921318289997824, 0), (95311976774394816, 0), (1488504141991,
    0), (696669592, 0), (112791, 0)], [(8188007716180503, 0), (5474479487954, 0), (1659158652, 0), (468129, 0), (132,
    0)], [(1266588667141, 0), (1054908451, 0), (543594, 0), (238, 0)], [(186266798, 0), (238023, 0), (184, 0)]], 3,
    4⟩, ⟨[[(0, 444892495835824128), (90742406272558449, 0), (0, 63359695409), (701650378, 0), (89132, 0)],
    [(15256282893964984, 0), (5212014886677, 0), (1494576927, 0), (415298, 0), (116, 0)], [(1291671479884, 0),
    (1004332661, 0), (501147, 0), (216, 0)], [(183826327, 0), (226612, 0), (172, 0)]], 3, 4⟩, 1152921504606846976,
    784403474754074, 769335047605566, ⟨[[(8027062096342887, 0), (0, 280419848752963), (430879280828, 0), (1368227212,
    0), (2000957, 0)], [(267043412002301, 0), (0, 701920838404), (0, 2639005469), (0, 2782437), (0, 2256)],
    [(224786073398, 0), (1796456793, 0), (4194, 0), (0, 511), (0, 1)], [(0, 443468606), (1367288, 0), (454, 0)]], 3,
    4⟩, 281474976710656, 35493673259,
    7079262332826085896768070738242476216078536904273242993578867292389062532359466459130778088285266043364321890093937614571544123106931855328,
    lc0⟩))) (.sy (.sx (.leaf ⟨1188, 16, 2461, 1570, 16, 3137, ⟨[[(0, 203466197360181248), (96300010967042820, 0),
    (1163521558358, 0), (655342374, 0), (103377, 0)], [(6989931627417660, 0), (4887609950868, 0), (1449654843, 0),
    (404170, 0), (111, 0)], [(1057861098937, 0), (868988254, 0), (439984, 0), (187, 0)], [(143425382, 0), (179507,
    0), (135, 0)]], 3, 4⟩, ⟨[[(497007276127420416, 0), (91619266771845050, 0), (0, 445823235052), (672889430, 0),
    (79838, 0)], [(14026295187245213, 0), (4650043499149, 0), (1300382799, 0), (357135, 0), (97, 0)],
    [(1083241490086, 0), (826750339, 0), (404587, 0), (169, 0)], [(141758346, 0), (170782, 0), (126, 0)]], 3, 4⟩,
    1152921504606846976, 549318179104802, 538594725216290, ⟨[[(7868813500981716, 0), (0, 284499961457217),
    (404294950456, 0), (1267882465, 0), (1829159, 0)], [(270623337261623, 0), (0, 666361682132), (0, 2445481236), (0,
    2560852), (0, 2073)], [(212831326581, 0), (1672794297, 0), (5234, 0), (0, 457), (0, 1)], [(0, 415349626),
    (1289033, 0), (421, 0)]], 3, 4⟩, 281474976710656, 33674247255,
    5622929612519386104450903047180244397729027952797286947306200746441544168314314432606576433520617782101779893422421748606961655874629673157,
    lc0⟩) (.leaf ⟨1170, 16, 2420, 1549, 16, 3089, ⟨[[(0, 539670589810409472), (95911459606773748, 0), (1516480872622,
    0), (752575272, 0), (132900, 0)], [(7403194971285566, 0), (5253379432389, 0), (1660763492, 0), (501745, 0), (152,
    0)], [(1151880429066, 0), (999164016, 0), (544960, 0), (251, 0)], [(167617238, 0), (224118, 0), (178, 0)]], 3,
    4⟩, ⟨[[(411133490744786944, 0), (91375678081632279, 0), (0, 103897962301), (758554218, 0), (106146, 0)],
    [(14353893230090261, 0), (5004940075177, 0), (1497398533, 0), (446327, 0), (134, 0)], [(1177038692850, 0),
    (951912210, 0), (503055, 0), (228, 0)], [(165529880, 0), (213519, 0), (166, 0)]], 3, 4⟩, 1152921504606846976,
    876206339209782, 860351398849898, ⟨[[(7489378940433585, 0), (0, 287618767060782), (424466622223, 0), (1346699891,
    0), (1975045, 0)], [(273908112899925, 0), (0, 697453162397), (0, 2589652523), (0, 2756582), (0, 2267)],
    [(223079307803, 0), (1764280485, 0), (3519, 0), (0, 503), (0, 1)], [(0, 436276646), (1381985, 0), (459, 0)]], 3,
    4⟩, 281474976710656, 36103227861,
    5880159213581212054893239639341963893482469678263823407057118458413320989827882208658478277239417224042319621724655372055236769587823571370,
    lc0⟩)) (.sx (.leaf ⟨1186, 16, 2397, 1577, 16, 3095, ⟨[[(0, 515258806644244480), (94842526821108824, 0),
    (1887675336643, 0), (809725696, 0), (148332, 0)], [(8665977580386950, 0), (5914762345973, 0), (1920676099, 0),
    (593422, 0), (186, 0)], [(1388148749465, 0), (1228173586, 0), (687326, 0), (326, 0)], [(220986517, 0), (303004,
    0), (247, 0)]], 3, 4⟩, ⟨[[(0, 201318512084647936), (90343739435900612, 0), (324139183158, 0), (801106185, 0),
    (120853, 0)], [(15618101865939913, 0), (5634199827022, 0), (1737645893, 0), (529770, 0), (165, 0)],
    [(1411419707056, 0), (1169916051, 0), (635635, 0), (297, 0)], [(217703600, 0), (288631, 0), (230, 0)]], 3, 4⟩,
    1152921504606846976, 1252122019374077, 1228880154948104, ⟨[[(7770815829226262, 0), (0, 284677641499522),
    (454395093144, 0), (1467430557, 0), (2189839, 0)], [(271114620604625, 0), (0, 737763156650), (0, 2821512995), (0,
    3034844), (0, 2509)], [(236301910888, 0), (1913040302, 0), (2752, 0), (0, 570), (0, 1)], [(0, 470376176),
    (1483195, 0), (503, 0)]], 3, 4⟩, 281474976710656, 38497688386,
    7566209955544415818244142452006367961535664458089210144937399752273628707375989281530869303190295822806941568277413103074734912170645004485,
    lc0⟩) (.leaf ⟨1163, 16, 2347, 1548, 16, 3032, ⟨[[(0, 373491425279737856), (94340605132601133, 0), (2346514654387,
    0), (954378208, 0), (198350, 0)], [(9183744447540143, 0), (6430422137973, 0), (2253306559, 0), (763912, 0), (261,
    0)], [(1533191313965, 0), (1448844118, 0), (877007, 0), (442, 0)], [(265010890, 0), (385547, 0), (324, 0)]], 3,
    4⟩, ⟨[[(14963364770611200, 0), (89911882815891433, 0), (769410241600, 0), (929502677, 0), (165731, 0)],
    [(16009480477792154, 0), (6128552609065, 0), (2047537528, 0), (686008, 0), (234, 0)], [(1553992357692, 0),
    (1380829627, 0), (813308, 0), (404, 0)], [(260628415, 0), (367448, 0), (303, 0)]], 3, 4⟩, 1152921504606846976,
    1985357621092935, 1949489706539807, ⟨[[(7352583411412770, 0), (0, 288975584988294), (482854337207, 0),
    (1584776328, 0), (2416199, 0)], [(275351560879491, 0), (0, 780750944857), (0, 3033447531), (0, 3333667), (0,
    2814)], [(250193711701, 0), (2045321324, 0), (0, 19), (0, 643), (0, 1)], [(0, 500143992), (1619173, 0), (562,
    0)]], 3, 4⟩, 281474976710656, 42017944271,
    7904446324448743093939225131238710908202497590895091840961442999370463761188571501647286909895020978811196121795988882608098124462063546794,
    lc0⟩)))
theorem c25 : checkC job ⟨6, 8, 6, 7, 9, 13⟩ 3 200 B1.zlims t25 3455 121 640 7043 175 7584 = true := by decide +kernel

def t26 : CTree :=
  .sx (.sy (.sx (.leaf ⟨1224, 16, 2424, 1631, 16, 3161, ⟨[[(0, 56782456825053184), (94284360651078779, 0),
    (1798068651171, 0), (732900664, 0), (120251, 0)], [(9470534752207873, 0), (6103786473769, 0), (1879324057, 0),
    (534504, 0), (155, 0)], [(1507057181816, 0), (1268292676, 0), (663986, 0), (300, 0)], [(239567039, 0), (312329,
    0), (248, 0)]], 3, 4⟩, ⟨[[(288644992888209408, 0), (89694437549864761, 0), (300688306100, 0), (725700904, 0),
    (96497, 0)], [(16537154556604448, 0), (5806643762642, 0), (1696564586, 0), (475179, 0), (137, 0)],
    [(1529252240192, 0), (1206550031, 0), (612697, 0), (273, 0)], [(235787521, 0), (297124, 0), (232, 0)]], 3, 4⟩,
    1152921504606846976, 1107425665528805, 1084935262357922, ⟨[[(8661478397589202, 0), (0, 278442686110311),
    (454697719145, 0), (1476649238, 0), (2195592, 0)], [(264828700030766, 0), (0, 734024186844), (0, 2853406644), (0,
    3037438), (0, 2473)], [(235012448383, 0), (1937533723, 0), (4623, 0), (0, 571), (0, 1)], [(0, 476902819),
    (1458009, 0), (493, 0)]], 3, 4⟩, 281474976710656, 37624365973,
    6994191490196303949361320793688596339076836088423420211750246292345590025037934212558452412814683224899220356383997126192634912128346259194,
    lc0⟩) (.leaf ⟨1199, 16, 2371, 1600, 16, 3094, ⟨[[(244163698769264640, 0), (93744988792008224, 0), (2245395206956,
    0), (862868008, 0), (162690, 0)], [(10021072647058278, 0), (6629882151911, 0), (2200451726, 0), (694019, 0),
    (226, 0)], [(1663102308214, 0), (1496988560, 0), (858787, 0), (421, 0)], [(288901935, 0), (405793, 0), (338,
    0)]], 3, 4⟩, ⟨[[(174418432463208448, 0), (89242306644388671, 0), (734805674136, 0), (840629073, 0), (134523, 0)],
    [(16954543592698656, 0), (6311441108918, 0), (1995556088, 0), (621309, 0), (202, 0)], [(1682747047207, 0),
    (1425086437, 0), (795138, 0), (385, 0)], [(283852692, 0), (386303, 0), (316, 0)]], 3, 4⟩, 1152921504606846976,
    1768089607440494, 1733489643181865, ⟨[[(8124974684555751, 0), (0, 282405904856013), (486225377488, 0),
    (1603281034, 0), (2437080, 0)], [(268859347651353, 0), (0, 781245175354), (0, 3080583010), (0, 3353320), (0,
    2790)], [(250348703386, 0), (2077431887, 0), (1083, 0), (0, 648), (0, 1)], [(0, 507953902), (1598424, 0), (554,
    0)]], 3, 4⟩, 281474976710656, 41231932733,
    7560503490791672749942635039925047873235726569867129480834057646185224448354758688113919956948088964800612693982323866747519119428747612128,
    lc0⟩)) (.sx (.leaf ⟨1210, 16, 2341, 1620, 16, 3087, ⟨[[(0, 119358557885300736), (92553647876089049, 0),
    (2577348134237, 0), (907427970, 0), (174956, 0)], [(11456425530239452, 0), (7384793793012, 0), (2491700296, 0),
    (801106, 0), (272, 0)], [(1977274083559, 0), (1805606909, 0), (1061089, 0), (538, 0)], [(373781045, 0), (537376,
    0), (457, 0)]], 3, 4⟩, ⟨[[(0, 331048347842117632), (88078678554445180, 0), (1117958753046, 0), (873472362, 0),
    (146370, 0)], [(18359886281042161, 0), (7027738977468, 0), (2264725801, 0), (719206, 0), (243, 0)],
    [(1992543533334, 0), (1718305806, 0), (983746, 0), (492, 0)], [(366458537, 0), (511394, 0), (428, 0)]], 3, 4⟩,
    1152921504606846976, 2469119327531820, 2419010466366989, ⟨[[(8524656077900349, 0), (0, 280427702581830),
    (522791014995, 0), (1765892943, 0), (2738795, 0)], [(266814328248767, 0), (0, 831745267776), (0, 3387680221), (0,
    3738878), (0, 3133)], [(266453027706, 0), (2269320255, 0), (0, 2088), (0, 743), (0, 1)], [(0, 551460475),
    (1736333, 0), (615, 0)]], 3, 4⟩, 281474976710656, 44506491097,
    6544775016152671624121775770018800130937065548576102176737480036263895037639974060106936679027525697819679031242987143075050537920443875066,
    lc0⟩) (.sy (.leaf ⟨2201, 16, 4275, 2823, 16, 5390, ⟨[[(0, 29188091278262272), (85747925587904992, 0),
    (1352427570980, 0), (240281766, 0), (25893, 0)], [(21504409761320046, 0), (7164348953871, 0), (1287570418, 0),
    (224325, 0), (41, 0)], [(3829348801287, 0), (1848315208, 0), (577898, 0), (152, 0)], [(762598968, 0), (571515,
    0), (248, 0)]], 3, 4⟩, ⟨[[(105580735502483456, 0), (78230352842992622, 0), (635695335463, 0), (220042609, 0),
    (21088, 0)], [(32683350790129744, 0), (6536246127346, 0), (1124710962, 0), (193803, 0), (35, 0)],
    [(3692283972868, 0), (1686272291, 0), (514340, 0), (134, 0)], [(715831794, 0), (521410, 0), (222, 0)]], 3, 4⟩,
    1152921504606846976, 1761895512840060, 1640955741545107, ⟨[[(8156910239086085, 0), (0, 160266122921043),
    (171191515502, 0), (328523636, 0), (290793, 0)], [(146180352750286, 0), (0, 260805378157), (0, 602110409), (0,
    379832), (0, 182)], [(80073330654, 0), (385527943, 0), (0, 363), (0, 41)], [(0, 89550546), (162180, 0), (33,
    0)]], 3, 4⟩, 281474976710656, 3858724445,
    6053124447578854612483228706524362057659643393247289226624751687043373655454046459704054793789220714060095924344837208447256261234984308704,
    lc0⟩) (.leaf ⟨2160, 16, 4147, 2781, 16, 5265, ⟨[[(546734953666183168, 0), (84189106814401191, 0), (1576786108486,
    0), (273105456, 0), (32474, 0)], [(23455943937917110, 0), (7911457467136, 0), (1509855893, 0), (282830, 0), (55,
    0)], [(4417796912004, 0), (2246167097, 0), (744421, 0), (206, 0)], [(966804804, 0), (754220, 0), (337, 0)]], 3,
    4⟩, ⟨[[(0, 122915085424263168), (76933538410326332, 0), (863193359345, 0), (247938732, 0), (26905, 0)],
    [(34303265939980182, 0), (7229633855974, 0), (1325445676, 0), (245844, 0), (48, 0)], [(4250803396067, 0),
    (2052588384, 0), (664853, 0), (182, 0)], [(907224718, 0), (689220, 0), (303, 0)]], 3, 4⟩, 1152921504606846976,
    2717913038023986, 2535118260086430, ⟨[[(8049805884231046, 0), (0, 162419385730509), (188363567911, 0),
    (372719888, 0), (340753, 0)], [(148418772307646, 0), (0, 285250060932), (0, 680907605), (0, 442425), (0, 218)],
    [(87695570565, 0), (433137257, 0), (0, 967), (0, 50)], [(0, 100025020), (186192, 0), (39, 0)]], 3, 4⟩,
    281474976710656, 4417306528,
    4219682006063544776360148663773224307150832405367817531653271411299657755201507043802143042845128378711894664261311882264933546634693660640,
    lc0⟩)))) (.sy (.sx (.sy (.leaf ⟨2206, 16, 4379, 2818, 16, 5460, ⟨[[(0, 544709014166962176), (87701108841786655,
    0), (1184619998972, 0), (226905680, 0), (23551, 0)], [(18931180333303912, 0), (6449616054144, 0), (1131491020,
    0), (191533, 0), (33, 0)], [(3223583285666, 0), (1523572692, 0), (462603, 0), (118, 0)], [(585634900, 0),
    (428249, 0), (181, 0)]], 3, 4⟩, ⟨[[(91036617724657664, 0), (79993906678825147, 0), (445987445425, 0), (210100559,
    0), (18938, 0)], [(30391214148533587, 0), (5882821683362, 0), (985391493, 0), (164857, 0), (28, 0)],
    [(3119636113785, 0), (1389680625, 0), (410926, 0), (103, 0)], [(550641681, 0), (390614, 0), (162, 0)]], 3, 4⟩,
    1152921504606846976, 1075229257414223, 1001681684780702, ⟨[[(7781022187866242, 0), (0, 159733858644230),
    (155809671323, 0), (288984728, 0), (248070, 0)], [(145659450771881, 0), (0, 239599244982), (0, 530158652), (0,
    326379), (0, 154)], [(73524304761, 0), (341492300, 0), (0, 39), (0, 34)], [(0, 79762070), (142823, 0), (28, 0)]],
    3, 4⟩, 281474976710656, 3419708233,
    7288443135127860046824317264900806063736482717910448234764000330481814225408709291861077671311974248700522464554241652848389258041455812805,
    lc0⟩) (.leaf ⟨2173, 16, 4262, 2785, 16, 5350, ⟨[[(0, 411600006345129984), (86250286197836338, 0), (1403119540174,
    0), (257098114, 0), (29208, 0)], [(20765833610137058, 0), (7122668778005, 0), (1323357082, 0), (239408, 0), (44,
    0)], [(3716945402101, 0), (1845022015, 0), (592022, 0), (158, 0)], [(740045350, 0), (562893, 0), (245, 0)]], 3,
    4⟩, ⟨[[(177382074567098368, 0), (78767256485478224, 0), (668011752454, 0), (235398053, 0), (23916, 0)],
    [(31922092182954344, 0), (6504709760743, 0), (1157890045, 0), (207237, 0), (38, 0)], [(3587401944811, 0),
    (1684948870, 0), (527538, 0), (139, 0)], [(695256995, 0), (514056, 0), (220, 0)]], 3, 4⟩, 1152921504606846976,
    1680066771062065, 1566627944004169, ⟨[[(7777064500988434, 0), (0, 161749362143707), (169733974303, 0),
    (324106495, 0), (286685, 0)], [(147669729853204, 0), (0, 259418625486), (0, 593437801), (0, 375242), (0, 181)],
    [(79703120210, 0), (380352162, 0), (0, 360), (0, 41)], [(0, 88418943), (161885, 0), (33, 0)]], 3, 4⟩,
    281474976710656, 3864837051,
    7409050264251174108916697360441997170759040545342479913201865278344864904236045359689130890449504439047951333577851911509018844053222990021,
    lc0⟩)) (.sy (.leaf ⟨2146, 16, 4253, 2749, 16, 5313, ⟨[[(106237519389523968, 0), (86786504589905803, 0),
    (1445488413925, 0), (272934581, 0), (32373, 0)], [(20009537890365389, 0), (7060502475487, 0), (1350750569, 0),
    (252108, 0), (47, 0)], [(3593344526816, 0), (1827337506, 0), (598870, 0), (161, 0)], [(711403650, 0), (547444,
    0), (239, 0)]], 3, 4⟩, ⟨[[(0, 488625728252280832), (79310512348251949, 0), (691863726417, 0), (249891246, 0),
    (26604, 0)], [(31143677680599510, 0), (6452294298673, 0), (1183212863, 0), (218510, 0), (41, 0)],
    [(3470877716697, 0), (1669926385, 0), (534036, 0), (142, 0)], [(668788233, 0), (500286, 0), (215, 0)]], 3, 4⟩,
    1152921504606846976, 1583494788600763, 1477741468081430, ⟨[[(7177230953585509, 0), (0, 162752073677377),
    (169063728107, 0), (320047671, 0), (282536, 0)], [(148762269089140, 0), (0, 258903902827), (0, 584060120), (0,
    369881), (0, 179)], [(79600878240, 0), (373712874, 0), (0, 524), (0, 40)], [(0, 86727152), (160961, 0), (32,
    0)]], 3, 4⟩, 281474976710656, 3852715964,
    7733409374772158052469986335634480513081810545810764147052179680445187277994198141049385818295102522303342207709770728658302836058528870826,
    lc0⟩) (.leaf ⟨2106, 16, 4123, 2707, 16, 5187, ⟨[[(223060636044623872, 0), (85217635831092441, 0), (1704355431691,
    0), (314896633, 0), (41047, 0)], [(21965178694515830, 0), (7859703930777, 0), (1603935721, 0), (320871, 0), (65,
    0)], [(4181961019915, 0), (2242470033, 0), (776420, 0), (221, 0)], [(907434606, 0), (725285, 0), (332, 0)]], 3,
    4⟩, ⟨[[(0, 23539575807803392), (77996880295924871, 0), (952565269456, 0), (285791851, 0), (34264, 0)],
    [(32761131741923146, 0), (7193726752351, 0), (1412010495, 0), (279710, 0), (56, 0)], [(4029522397000, 0),
    (2052458567, 0), (694649, 0), (196, 0)], [(852770013, 0), (663829, 0), (298, 0)]], 3, 4⟩, 1152921504606846976,
    2468168193644594, 2306479637701479, ⟨[[(7227195848967265, 0), (0, 165406381224134), (185411566463, 0),
    (362959551, 0), (331423, 0)], [(151399399511828, 0), (0, 282341549025), (0, 661422279), (0, 431837), (0, 215)],
    [(86915092369, 0), (421339541, 0), (0, 953), (0, 49)], [(0, 97377774), (185365, 0), (39, 0)]], 3, 4⟩,
    281474976710656, 4426305645,
    7851404043313024984374781851734912844966709992710059270165776095303049492133730617667904527431998427590177400809676331077199921166224126378,
    lc0⟩))) (.sx (.sy (.leaf ⟨2132, 16, 4133, 2743, 16, 5224, ⟨[[(493284003254108160, 0), (84688972466837235, 0),
    (1645160643148, 0), (294591342, 0), (36848, 0)], [(22722629672067965, 0), (7898711949404, 0), (1562350704, 0),
    (303350, 0), (60, 0)], [(4308130813172, 0), (2254124864, 0), (765078, 0), (215, 0)], [(941384865, 0), (744072,
    0), (336, 0)]], 3, 4⟩, ⟨[[(0, 15576943218393088), (77457530573311813, 0), (912428336210, 0), (267369741, 0),
    (30663, 0)], [(33541086221998334, 0), (7224254876277, 0), (1373706314, 0), (264118, 0), (52, 0)],
    [(4148183863492, 0), (2061649120, 0), (683985, 0), (190, 0)], [(884040283, 0), (680537, 0), (302, 0)]], 3, 4⟩,
    1152921504606846976, 2604966530941925, 2432219804074553, ⟨[[(7632620855706988, 0), (0, 163950516711612),
    (187093608057, 0), (368310492, 0), (336666, 0)], [(149961793300204, 0), (0, 284099299448), (0, 672066091), (0,
    437914), (0, 217)], [(87412292931, 0), (427860900, 0), (0, 958), (0, 50)], [(0, 98851660), (186140, 0), (39,
    0)]], 3, 4⟩, 281474976710656, 4430908355,
    6789382366075393254310210099789894638421671465805712930696789067604914241225786902163499654405768931491911204437591233556337280833509400773,
    lc0⟩) (.leaf ⟨2085, 16, 3992, 2690, 16, 5080, ⟨[[(0, 356154806933913600), (83023201798425454, 0), (1916595724622,
    0), (342143001, 0), (47451, 0)], [(24816024099768083, 0), (8804155749196, 0), (1864920463, 0), (390855, 0), (84,
    0)], [(5023468386416, 0), (2780864006, 0), (1001947, 0), (301, 0)], [(1205962067, 0), (994261, 0), (476, 0)]], 3,
    4⟩, ⟨[[(399270161303994368, 0), (76044555019978214, 0), (1184466218338, 0), (308455963, 0), (40055, 0)],
    [(35250783883229049, 0), (8064108487411, 0), (1647607332, 0), (342240, 0), (73, 0)], [(4825674541629, 0),
    (2547114076, 0), (898601, 0), (267, 0)], [(1132106573, 0), (910687, 0), (429, 0)]], 3, 4⟩, 1152921504606846976,
    4007371116355015, 3746302148592862, ⟨[[(7803305596234554, 0), (0, 167362766077386), (206387163479, 0),
    (422658104, 0), (401190, 0)], [(153195358027885, 0), (0, 311819378135), (0, 770208310), (0, 519430), (0, 265)],
    [(95974194160, 0), (488162474, 0), (0, 1537), (0, 61)], [(0, 112360842), (217671, 0), (47, 0)]], 3, 4⟩,
    281474976710656, 5169800607,
    5132912382562264864626598754630636340455676943801237949910083432616919754971587449635493371784648179789364835084035954051602130700615033029,
    lc0⟩)) (.sy (.leaf ⟨2058, 16, 3980, 2654, 16, 5042, ⟨[[(349134672039510016, 0), (83532681620169488, 0),
    (1996537657035, 0), (368307926, 0), (53165, 0)], [(24062793942419486, 0), (8796526235369, 0), (1925705815, 0),
    (415874, 0), (92, 0)], [(4896456348642, 0), (2778703826, 0), (1022442, 0), (315, 0)], [(1165864017, 0), (974964,
    0), (480, 0)]], 3, 4⟩, ⟨[[(498767606426632192, 0), (76572920848874268, 0), (1244699446037, 0), (332084240, 0),
    (45003, 0)], [(34473407487873570, 0), (8063618862708, 0), (1703604252, 0), (364610, 0), (80, 0)],
    [(4706840969900, 0), (2547188286, 0), (917778, 0), (280, 0)], [(1095356791, 0), (893732, 0), (433, 0)]], 3, 4⟩,
    1152921504606846976, 3816356539045016, 3571108231811632, ⟨[[(7285607908634247, 0), (0, 168721043079227),
    (205273185095, 0), (417433092, 0), (395908, 0)], [(154639189910544, 0), (0, 310846965930), (0, 759241616), (0,
    513243), (0, 263)], [(95774740251, 0), (481225769, 0), (0, 1596), (0, 61)], [(0, 110723462), (217195, 0), (47,
    0)]], 3, 4⟩, 281474976710656, 5174867073,
    7363274196091399030180584460123863506379249437585901696941045301096995055501855189523075993676039080202520507467504813669071066611592655274,
    lc0⟩) (.leaf ⟨2001, 16, 3821, 2590, 16, 4877, ⟨[[(0, 418321388852215808), (81676753101821929, 0), (2329880930349,
    0), (437862060, 0), (70797, 0)], [(26302309526152391, 0), (9902776301206, 0), (2342744194, 0), (552747, 0), (136,
    0)], [(5769254919560, 0), (3483707351, 0), (1379308, 0), (472, 0)], [(1512907799, 0), (1345321, 0), (738, 0)]],
    3, 4⟩, ⟨[[(220804321235173376, 0), (75035995397832657, 0), (1576995496215, 0), (393311872, 0), (60733, 0)],
    [(36293417349541173, 0), (9097627522442, 0), (2083951441, 0), (487770, 0), (120, 0)], [(5536836218652, 0),
    (3200463275, 0), (1243130, 0), (421, 0)], [(1422027280, 0), (1235939, 0), (668, 0)]], 3, 4⟩, 1152921504606846976,
    5848380137858710, 5483498924552450, ⟨[[(7349181460656108, 0), (0, 172748576557339), (230113692059, 0),
    (488707217, 0), (483864, 0)], [(158605434581724, 0), (0, 346605169495), (0, 886990472), (0, 623969), (0, 332)],
    [(106889877683, 0), (559112934, 0), (0, 2605), (0, 77)], [(0, 128049675), (260249, 0), (59, 0)]], 3, 4⟩,
    281474976710656, 6189591428,
    5881270210614784556910697058987207223927607438524218605605075643207393187598764020796220048848542572320385096057887096005951605194991268266,
    lc0⟩))))
theorem c26 : checkC job ⟨6, 8, 6, 7, 9, 13⟩ 3 200 B1.zlims t26 3455 121 640 7393 175 7584 = true := by decide +kernel

def t27 : CTree :=
  .sy (.sx (.leaf ⟨387, 16, 1132, 471, 16, 1214, ⟨[[(465335256397053952, 0), (98467270041063389, 0), (0,
    5301238484402), (1082060598, 0), (0, 14579)], [(0, 3015404986067395), (3745133373596, 0), (1206825107, 0),
    (369467, 0), (101, 0)], [(628201247496, 0), (760715804, 0), (464184, 0), (216, 0)], [(108616553, 0), (180449, 0),
    (159, 0)]], 3, 4⟩, ⟨[[(530310318643544064, 0), (93948814804163707, 0), (0, 10347947669974), (2125602478, 0), (0,
    266977)], [(8323609040890262, 0), (3573277106049, 0), (950246091, 0), (293203, 0), (76, 0)], [(740757611565, 0),
    (725808161, 0), (402015, 0), (178, 0)], [(114813100, 0), (172169, 0), (142, 0)]], 3, 4⟩, 1152921504606846976,
    223527713298718, 370029658288157, ⟨[[(6212174846757099, 0), (0, 747964829674891), (971303789205, 0), (7060014968,
    0), (21724232, 0)], [(714048784555360, 0), (0, 2107119544043), (0, 12557399619), (0, 30185718), (0, 52728)],
    [(654921567986, 0), (8077138489, 0), (0, 1015912), (0, 7739), (0, 31)], [(0, 2023581878), (19000391, 0), (9695,
    0), (14, 0)]], 3, 4⟩, 281474976710656, 564953382926,
    7125724715095811986756703100408793442139184956511198695968528547659693434871522131924711289023079493034045742016185532100728827080730283607,
    lc0⟩) (.leaf ⟨384, 16, 1124, 468, 16, 1200, ⟨[[(81155676071985152, 0), (98718246282648793, 0), (0,
    4944365652959), (1177392731, 0), (16040, 0)], [(0, 2671958008559770), (4118516378487, 0), (1452356909, 0),
    (491789, 0), (156, 0)], [(710221029676, 0), (903183621, 0), (596536, 0), (309, 0)], [(131346502, 0), (230930, 0),
    (221, 0)]], 3, 4⟩, ⟨[[(0, 243632733620273152), (93764731583494612, 0), (0, 9975872410802), (2182954827, 0), (0,
    240756)], [(8603261723114522, 0), (3911856189639, 0), (1159215378, 0), (393253, 0), (120, 0)], [(822909147262,
    0), (857863394, 0), (518300, 0), (257, 0)], [(137374529, 0), (219342, 0), (197, 0)]], 3, 4⟩, 1152921504606846976,
    346632978610376, 491631680940924, ⟨[[(4189034804779482, 0), (0, 751139160244561), (1051731580867, 0),
    (7542800863, 0), (23384523, 0)], [(713470392948061, 0), (0, 2214770544639), (0, 13174603488), (0, 32018812), (0,
    56682)], [(686026942959, 0), (8267184869, 0), (0, 1123211), (0, 8463), (0, 34)], [(0, 2011167831), (19669380, 0),
    (10228, 0), (15, 0)]], 3, 4⟩, 281474976710656, 581919587989,
    4989596625854521689552307789203061443270929418863444421941044649667964664132640746557416189094053017234393193073975998247430363708634811073,
    lc0⟩)) (.sx (.leaf ⟨436, 16, 1183, 529, 16, 1286, ⟨[[(0, 519140907566694400), (99440008148737404, 0), (0,
    4354660849510), (1136983641, 0), (27282, 0)], [(0, 1608568181501423), (4959658574724, 0), (1761707036, 0),
    (587091, 0), (192, 0)], [(1005498412944, 0), (1237130173, 0), (812284, 0), (423, 0)], [(205630887, 0), (358418,
    0), (345, 0)]], 3, 4⟩, ⟨[[(0, 519783307991449600), (92631167640171678, 0), (0, 8779120165777), (1929709790, 0),
    (0, 178941)], [(10280075984161760, 0), (4620061617313, 0), (1405534303, 0), (465003, 0), (148, 0)],
    [(1115403375704, 0), (1152421592, 0), (697911, 0), (350, 0)], [(208863729, 0), (333876, 0), (304, 0)]], 3, 4⟩,
    1152921504606846976, 412866839299211, 493836316866954, ⟨[[(6133948049724912, 0), (0, 711123270645271),
    (1089526580833, 0), (7426297262, 0), (21969012, 0)], [(662074434299594, 0), (0, 2131503841794), (0, 13202543624),
    (0, 30242528), (0, 52060)], [(649029760698, 0), (8516890445, 0), (0, 638325), (0, 8115), (0, 31)], [(0,
    2095525081), (17677531, 0), (9783, 0), (12, 0)]], 3, 4⟩, 281474976710656, 514795352517,
    6766288870161489817692605854602386565991225114742959559471204682344165695441600389575911175623761993885021252410596095535114542439310626391,
    lc0⟩) (.leaf ⟨431, 16, 1172, 523, 16, 1266, ⟨[[(251982884607885312, 0), (99781676465894453, 0), (0,
    3839295687549), (1295773454, 0), (87419, 0)], [(0, 1072724488573434), (5576110508907, 0), (2203926848, 0),
    (837243, 0), (322, 0)], [(1162899982669, 0), (1528224017, 0), (1111691, 0), (658, 0)], [(258586722, 0), (487449,
    0), (519, 0)]], 3, 4⟩, ⟨[[(0, 562844082087526400), (92362707169921586, 0), (0, 8262780292461), (2034114563, 0),
    (0, 129078)], [(10690685550344634, 0), (5161515423699, 0), (1776909993, 0), (669458, 0), (253, 0)],
    [(1265815755685, 0), (1414597473, 0), (956914, 0), (548, 0)], [(259369213, 0), (451206, 0), (457, 0)]], 3, 4⟩,
    1152921504606846976, 1516703171260660, 1575063074936795, ⟨[[(3904022242342147, 0), (0, 715099643546497),
    (1190139843445, 0), (8025521449, 0), (24025489, 0)], [(662058877232200, 0), (0, 2263844905505), (0, 13964878541),
    (0, 32481808), (0, 56855)], [(686858398051, 0), (8759010593, 0), (0, 759653), (0, 9012), (0, 35)], [(0,
    2087462336), (18466685, 0), (10429, 0), (13, 0)]], 3, 4⟩, 281474976710656, 535209898468,
    4039638663039417773774939676926513082819134242549140172062291229494093572814711472025633386590131128989618082203965408987990046619264973013,
    lc0⟩))
theorem c27 : checkC job ⟨6, 8, 6, 7, 9, 13⟩ 3 200 B1.zlims t27 1909 121 320 2559 175 3792 = true := by decide +kernel

end PyX.Kron.P1hs
