import Verif.Lemmas.P1hsJob

/-!
# Pressure from enthalpy and entropy in region 1, part C of the certificate
-/

namespace PyX.Kron.P1hs

set_option Elab.async false

def t11 : CTree :=
  .sx (.sy (.sx (.sy (.leaf ⟨1427, 16, 3002, 1567, 16, 3253, ⟨[[(0, 187277424481009664), (98046167913022341, 0), (0,
    2274383513148), (100238414, 0), (0, 9072)], [(3734185027822810, 0), (5719391747584, 0), (553897162, 0), (33969,
    0), (1, 0)], [(3875956207326, 0), (1479973288, 0), (268947, 0), (33, 0)], [(815633795, 0), (439906, 0), (116,
    0)]], 3, 4⟩, ⟨[[(252687278874558464, 0), (79297878717021869, 0), (0, 3183442447019), (187046711, 0), (0, 15112)],
    [(30861272834978951, 0), (4625735434529, 0), (369583153, 0), (21107, 0)], [(3672273345185, 0), (1196974291, 0),
    (197233, 0), (23, 0)], [(718668559, 0), (355788, 0), (88, 0)]], 3, 4⟩, 1152921504606846976, 74028959520897,
    64679038711372, ⟨[[(20340305505273248, 0), (0, 301289404524560), (233894524741, 0), (841995448, 0), (1167011,
    0)], [(243679937810683, 0), (0, 365853153599), (0, 1552100405), (0, 1547516), (0, 1199)], [(94202288643, 0),
    (1037513608, 0), (32686, 0), (0, 198)], [(0, 250446142), (647781, 0), (195, 0)]], 3, 4⟩, 281474976710656,
    15700295830,
    8226405367432055438910944303621457402152605025294572942527230638958201732904278113944557862548204013512688099349257765720277289171160716542,
    lc0⟩) (.leaf ⟨1457, 16, 3004, 1606, 16, 3284, ⟨[[(385421174435479552, 0), (96553647817566384, 0), (0,
    2177348861069), (87305078, 0), (0, 9523)], [(5809157473979121, 0), (6123780475641, 0), (590374475, 0), (34740,
    0)], [(4431331389863, 0), (1682266175, 0), (306929, 0), (39, 0)], [(985418852, 0), (529634, 0), (140, 0)]], 3,
    4⟩, ⟨[[(140643950090780672, 0), (77870727750795884, 0), (0, 3026529869472), (168004793, 0), (0, 14536)],
    [(32836427325152362, 0), (4938842322408, 0), (395559040, 0), (21427, 0)], [(4155630466475, 0), (1356751342, 0),
    (225403, 0), (27, 0)], [(862778815, 0), (427151, 0), (106, 0)]], 3, 4⟩, 1152921504606846976, 93480082591433,
    81190470013318, ⟨[[(20191285361303260, 0), (0, 297754981367649), (245198071501, 0), (886467542, 0), (1238539,
    0)], [(240186035643572, 0), (0, 376735306277), (0, 1633060614), (0, 1631086), (0, 1262)], [(97276097457, 0),
    (1084839067, 0), (34547, 0), (0, 214)], [(0, 259541425), (665190, 0), (203, 0)]], 3, 4⟩, 281474976710656,
    16023118586,
    9492559977786905375953944004278955280815074931600009011517136481490622160134992455462878190331285864947995292371826167926706120654589580542,
    lc0⟩)) (.leaf ⟨715, 16, 1487, 870, 16, 1784, ⟨[[(0, 333395007532957696), (97869258998725252, 0), (0,
    4093919884365), (414522890, 0), (0, 70368)], [(3432041304794662, 0), (6710960756956, 0), (1459338058, 0),
    (223784, 0), (24, 0)], [(2417691177067, 0), (1970526203, 0), (794914, 0), (227, 0)], [(569313011, 0), (658016,
    0), (381, 0)]], 3, 4⟩, ⟨[[(0, 224272656957440000), (87123654205172941, 0), (0, 6541670919903), (804844539, 0),
    (0, 127460)], [(18488913632320755, 0), (5974127426275, 0), (1100443262, 0), (160417, 0), (15, 0)],
    [(2484772664308, 0), (1754171282, 0), (649302, 0), (176, 0)], [(547876708, 0), (585769, 0), (320, 0)]], 3, 4⟩,
    1152921504606846976, 121014429267608, 126137230842570, ⟨[[(18509293051103708, 0), (0, 543375324048637),
    (859518652903, 0), (5518147696, 0), (14064141, 0)], [(483631926272348, 0), (0, 1446986999619), (0, 11035295182),
    (0, 20203032), (0, 28684)], [(416653375979, 0), (7960394752, 0), (412533, 0), (0, 5388), (0, 15)], [(0,
    2073680578), (9966447, 0), (5567, 0), (4, 0)]], 3, 4⟩, 281474976710656, 273337903544,
    9478218466329556401812348817542918101559271111271715979840281539197954859689559216034687056606675398528650615743902121190767025923675134100,
    lc0⟩)) (.sx (.sy (.leaf ⟨1484, 16, 3000, 1642, 16, 3309, ⟨[[(505269611404460032, 0), (94933352724607994, 0), (0,
    2090033586672), (73457075, 0), (0, 10138)], [(8015609342512112, 0), (6541152651891, 0), (626278980, 0), (35137,
    0)], [(5052703072554, 0), (1909464469, 0), (350060, 0), (45, 0)], [(1187444661, 0), (636304, 0), (168, 0)]], 3,
    4⟩, ⟨[[(0, 172202111733071872), (76388556175958589, 0), (0, 2882456068261), (149138679, 0), (0, 14173)],
    [(34877904359674262, 0), (5263368378593, 0), (421206852, 0), (21487, 0)], [(4694764644512, 0), (1536459312, 0),
    (257527, 0), (31, 0)], [(1033850052, 0), (512005, 0), (127, 0)]], 3, 4⟩, 1152921504606846976, 117928871065348,
    101937636445820, ⟨[[(20087280627673456, 0), (0, 294696048670561), (257550469722, 0), (938375618, 0), (1324056,
    0)], [(237169035241217, 0), (0, 389486120291), (0, 1727181353), (0, 1731232), (0, 1339)], [(100864046690, 0),
    (1139831516, 0), (36281, 0), (0, 233)], [(0, 270345984), (688162, 0), (213, 0)]], 3, 4⟩, 281474976710656,
    16481123824,
    10026594722092149014284104037964819760498320634008512593395444431921494085701195324759121389404128807355966768614858942464645474624510416126,
    lc0⟩) (.leaf ⟨1508, 16, 2991, 1675, 16, 3329, ⟨[[(575549626959265792, 0), (93215066426097231, 0), (0,
    2014484081757), (58531276, 0), (0, 10935)], [(10352090837728783, 0), (6971505105924, 0), (661259157, 0), (35110,
    0)], [(5748580579365, 0), (2165175519, 0), (399180, 0), (51, 0)], [(1427769594, 0), (763241, 0), (202, 0)]], 3,
    4⟩, ⟨[[(0, 228967342332706816), (74873050814645780, 0), (0, 2752744131082), (130269289, 0), (0, 14025)],
    [(36994857449428175, 0), (5599715540237, 0), (446282561, 0), (21251, 0)], [(5297275697883, 0), (1739131911, 0),
    (294278, 0), (36, 0)], [(1237018887, 0), (613058, 0), (153, 0)]], 3, 4⟩, 1152921504606846976, 148944913296756,
    128185853126596, ⟨[[(20059200785447196, 0), (0, 292079222758854), (270406277334, 0), (996210193, 0), (1421253,
    0)], [(234616812174907, 0), (0, 403448460036), (0, 1832353055), (0, 1845487), (0, 1428)], [(104771573786, 0),
    (1201527555, 0), (37911, 0), (0, 255)], [(0, 282737961), (715934, 0), (225, 0)]], 3, 4⟩, 281474976710656,
    17056630628,
    9873438991239902231702037202473948009424216631652582656760838519564769643158562696660713474926732680767053120593842078414767672264391972094,
    lc0⟩)) (.sy (.leaf ⟨1433, 16, 2893, 1599, 16, 3207, ⟨[[(436178935390666752, 0), (93191216531308673, 0), (0,
    1846996298190), (82023282, 0), (0, 9402)], [(10308162601514589, 0), (7320177347182, 0), (800453345, 0), (60844,
    0), (3, 0)], [(5825124435681, 0), (2372608805, 0), (485727, 0), (71, 0)], [(1500672313, 0), (869606, 0), (256,
    0)]], 3, 4⟩, ⟨[[(0, 484122549197471744), (75363225458199780, 0), (0, 2678240268931), (151685383, 0), (0, 13548)],
    [(36197259831139205, 0), (5919787254031, 0), (554273023, 0), (39883, 0), (2, 0)], [(5381034831261, 0),
    (1918715722, 0), (362646, 0), (51, 0)], [(1305301014, 0), (703246, 0), (196, 0)]], 3, 4⟩, 1152921504606846976,
    176251715788394, 152052030471753, ⟨[[(18256851453909248, 0), (0, 300567198020478), (294504227215, 0),
    (1073576103, 0), (1562134, 0)], [(243108548359659, 0), (0, 441231662745), (0, 1952269224), (0, 2021709), (0,
    1614)], [(116379914755, 0), (1269882830, 0), (36574, 0), (0, 288)], [(0, 297423896), (796906, 0), (256, 0)]], 3,
    4⟩, 281474976710656, 19121138686,
    8460603185709796833867476536032846035814175728734519648292034217966966316368696676702984001633137879575409700247211869727730963717023864980,
    lc0⟩) (.leaf ⟨1451, 16, 2873, 1625, 16, 3215, ⟨[[(429056546600910848, 0), (91291306573203327, 0), (0,
    1755743063924), (67853286, 0), (0, 10129)], [(12881268043531647, 0), (7848795292330, 0), (860851571, 0), (65257,
    0), (4, 0)], [(6671801577946, 0), (2721590042, 0), (564064, 0), (85, 0)], [(1826170348, 0), (1063185, 0), (319,
    0)]], 3, 4⟩, ⟨[[(257796392569798656, 0), (73725344065754141, 0), (0, 2535168178384), (133232568, 0), (0, 13357)],
    [(38434461997797731, 0), (6338556814988, 0), (599152772, 0), (42933, 0), (2, 0)], [(6114508306310, 0),
    (2197910949, 0), (422221, 0), (61, 0)], [(1581212760, 0), (858610, 0), (244, 0)]], 3, 4⟩, 1152921504606846976,
    240207652432251, 206161974173210, ⟨[[(18451014320562632, 0), (0, 299138069775667), (309662064038, 0),
    (1149637133, 0), (1697973, 0)], [(241550465030175, 0), (0, 458624228501), (0, 2092756538), (0, 2185498), (0,
    1752)], [(121130689002, 0), (1355319667, 0), (39186, 0), (0, 319)], [(0, 315564544), (842175, 0), (275, 0)]], 3,
    4⟩, 281474976710656, 20122228105,
    7714235824682454907357260943976157223008844089844685454038694702678703852171668066607043366283593124312444793135902985819485750065327511700,
    lc0⟩)))) (.sx (.sy (.leaf ⟨697, 16, 1448, 852, 16, 1740, ⟨[[(0, 237197513272459264), (97006164059650048, 0), (0,
    3591390889792), (471838971, 0), (0, 58957)], [(4588138302457815, 0), (7590452572948, 0), (1872348673, 0),
    (357953, 0), (61, 0)], [(2815922814484, 0), (2476040900, 0), (1118918, 0), (376, 0)], [(728490013, 0), (917838,
    0), (607, 0)]], 3, 4⟩, ⟨[[(309131155421528064, 0), (86493987443217882, 0), (0, 6078511826882), (834952325, 0),
    (0, 117666)], [(19308450178037980, 0), (6767905069715, 0), (1444386971, 0), (266444, 0), (44, 0)],
    [(2867060926311, 0), (2207722083, 0), (924249, 0), (298, 0)], [(697923308, 0), (818375, 0), (514, 0)]], 3, 4⟩,
    1152921504606846976, 215826323180688, 216654048075101, ⟨[[(16964108725377450, 0), (0, 551856403627109),
    (957213027440, 0), (6148957462, 0), (16062966, 0)], [(491949477045337, 0), (0, 1593740708591), (0, 12146585864),
    (0, 22825591), (0, 33248)], [(464166517080, 0), (8635300549, 0), (407012, 0), (0, 6353), (0, 18)], [(0,
    2219528814), (11124610, 0), (6400, 0), (5, 0)]], 3, 4⟩, 281474976710656, 305470142011,
    7542171452699570270668989444547822860215890375053440441032066738409531907012317999835286668989259353523439961163255180594064742334822571049,
    lc0⟩) (.sy (.leaf ⟨1378, 16, 2776, 1550, 16, 3094, ⟨[[(0, 244203621634539520), (91268564547150620, 0), (0,
    1555125368011), (97752418, 0), (0, 7567)], [(12876249803137358, 0), (8293660980836, 0), (1045816661, 0), (103599,
    0), (10, 0)], [(6806515753486, 0), (3019843458, 0), (704388, 0), (126, 0)], [(1950448590, 0), (1255477, 0), (437,
    0)]], 3, 4⟩, ⟨[[(0, 156859171426271232), (74208907463458547, 0), (0, 2430886354711), (159202823, 0), (0, 12118)],
    [(37678508416317355, 0), (6743433769490, 0), (744340066, 0), (71250, 0), (7, 0)], [(6252231111368, 0),
    (2455383021, 0), (534131, 0), (92, 0)], [(1694918007, 0), (1020807, 0), (339, 0)]], 3, 4⟩, 1152921504606846976,
    399869845743304, 341945756467997, ⟨[[(16726112884159232, 0), (0, 308194004834787), (336720270489, 0),
    (1242530031, 0), (1874839, 0)], [(250537110960477, 0), (0, 500625829523), (0, 2237973080), (0, 2406175), (0,
    1993)], [(133955594209, 0), (1438458872, 0), (37625, 0), (0, 363), (0, 1)], [(0, 333365780), (941866, 0), (315,
    0)]], 3, 4⟩, 281474976710656, 22665892503,
    6354959529099258335835607000831741079796156890992088105029902238729200173119212771118563977682019141699145809585078171712408116094798093353,
    lc0⟩) (.leaf ⟨1389, 16, 2743, 1569, 16, 3088, ⟨[[(0, 429537735890436096), (89142148962140043, 0), (0,
    1440819877003), (85815822, 0), (0, 7929)], [(15722587877028420, 0), (8957828251514, 0), (1148605532, 0), (117692,
    0), (12, 0)], [(7860920960977, 0), (3520824030, 0), (843927, 0), (159, 0)], [(2419714644, 0), (1590275, 0), (576,
    0)]], 3, 4⟩, ⟨[[(104640540979232768, 0), (72423017795903909, 0), (0, 2268109005076), (142279143, 0), (0, 11664)],
    [(40055224659957921, 0), (7277735195138, 0), (822888548, 0), (81677, 0), (9, 0)], [(7167321299053, 0),
    (2860472900, 0), (642295, 0), (117, 0)], [(2093787015, 0), (1292010, 0), (448, 0)]], 3, 4⟩, 1152921504606846976,
    703915454935266, 597557958479853, ⟨[[(16834508943584268, 0), (0, 307628142645570), (359433309740, 0),
    (1354630963, 0), (2084255, 0)], [(249791059065519, 0), (0, 528199727214), (0, 2440017544), (0, 2657913), (0,
    2220)], [(141654789777, 0), (1559790794, 0), (40439, 0), (0, 414), (0, 1)], [(0, 359088917), (1016245, 0), (347,
    0)]], 3, 4⟩, 281474976710656, 24365977918,
    5624387623474703905986118290340817495451058133250215441312279358025852943519649721133198947656639247672911158984927265499696074289423147074,
    lc0⟩))) (.sy (.leaf ⟨677, 16, 1404, 832, 16, 1691, ⟨[[(0, 342632021030862848), (95994141630521438, 0), (0,
    2969696742997), (567936257, 0), (0, 33940)], [(5907757977816597, 0), (8701941287537, 0), (2467179518, 0),
    (591533, 0), (145, 0)], [(3329965815092, 0), (3202756827, 0), (1666741, 0), (689, 0)], [(965871217, 0), (1369070,
    0), (1076, 0), (1, 0)]], 3, 4⟩, ⟨[[(411285763644981248, 0), (85788115994446807, 0), (0, 5506793312371),
    (895267724, 0), (0, 96936)], [(20245062245137311, 0), (7776757371563, 0), (1946259411, 0), (455359, 0), (111,
    0)], [(3360102159748, 0), (2862242107, 0), (1394353, 0), (559, 0)], [(921254896, 0), (1223511, 0), (921, 0), (1,
    0)]], 3, 4⟩, 1152921504606846976, 760982560763956, 735352989317591, ⟨[[(15304212320590212, 0), (0,
    561536715292411), (1079476885511, 0), (6961748557, 0), (18716733, 0)], [(501643762522439, 0), (0, 1776122972624),
    (0, 13573812907), (0, 26286844), (0, 39433)], [(522985895871, 0), (9499175294, 0), (394765, 0), (0, 7679), (0,
    22)], [(0, 2405913965), (12642675, 0), (7526, 0), (6, 0)]], 3, 4⟩, 281474976710656, 347826998124,
    5749651120704806419306578681170190684881930959095667088639088062558652214150436392449307606187198517777429683289153750180207260447463350207,
    lc0⟩) (.sx (.leaf ⟨736, 16, 1466, 960, 16, 1896, ⟨[[(245413715241467904, 0), (97617775374905239, 0), (0,
    2695869496987), (499260465, 0), (0, 39978)], [(4559404799384571, 0), (5291003835694, 0), (1523985926, 0),
    (379545, 0), (102, 0)], [(1151543178586, 0), (1113610059, 0), (599090, 0), (262, 0)], [(189976570, 0), (275585,
    0), (224, 0)]], 3, 4⟩, ⟨[[(568545217490452480, 0), (91600921098811369, 0), (0, 5356941951136), (827539705, 0),
    (0, 95628)], [(12720782675683411, 0), (4964882912211, 0), (1276812446, 0), (311119, 0), (84, 0)],
    [(1206149229929, 0), (1044970619, 0), (529911, 0), (225, 0)], [(189139026, 0), (258599, 0), (203, 0)]], 3, 4⟩,
    1152921504606846976, 84668921679524, 92463326353042, ⟨[[(15540129768569240, 0), (0, 497153176144385),
    (971204449634, 0), (5792820946, 0), (14388758, 0)], [(466427579180818, 0), (0, 1640890604260), (0, 11901393711),
    (0, 21020221), (0, 28512)], [(510687669399, 0), (8686270718, 0), (323931, 0), (0, 6134), (0, 15)], [(0,
    2286961974), (10693717, 0), (5916, 0), (4, 0)]], 3, 4⟩, 281474976710656, 296047430513,
    8148334792274472562299313832311608555273273290980642504435226606539621530488949314628636102552910190259263210852306884811350227542190235583,
    lc0⟩) (.leaf ⟨725, 16, 1441, 947, 16, 1864, ⟨[[(0, 393502755265839104), (97279891780009668, 0), (0,
    2249477402971), (598157910, 0), (0, 8142)], [(5064628078297000, 0), (5782875793742, 0), (1826635870, 0), (523925,
    0), (161, 0)], [(1282252638767, 0), (1321299367, 0), (779878, 0), (372, 0)], [(229499480, 0), (358100, 0), (309,
    0)]], 3, 4⟩, ⟨[[(0, 34630017560084480), (91300168243171422, 0), (0, 4929158439431), (902382055, 0), (0, 68225)],
    [(13114946958124912, 0), (5427406663774, 0), (1546838479, 0), (436274, 0), (134, 0)], [(1335200060103, 0),
    (1240080065, 0), (693665, 0), (323, 0)], [(227633511, 0), (336088, 0), (280, 0)]], 3, 4⟩, 1152921504606846976,
    199455615350312, 204740099271413, ⟨[[(14659909170298898, 0), (0, 501799723170945), (1044595999541, 0),
    (6261139371, 0), (15834342, 0)], [(470665934144669, 0), (0, 1750492020929), (0, 12744383975), (0, 22927896), (0,
    31650)], [(546754475542, 0), (9200193862, 0), (311909, 0), (0, 6873), (0, 17)], [(0, 2397636428), (11523620, 0),
    (6509, 0), (5, 0)]], 3, 4⟩, 281474976710656, 318793491353,
    8178817397273398148877428528407174198539826535265496925223377136705201579461103329251307071627866953053699945253478149600194001440868015277,
    lc0⟩))))
theorem c11 : checkC job ⟨6, 8, 6, 7, 9, 13⟩ 3 200 B1.zlims t11 531 121 160 3609 175 3792 = true := by decide +kernel

def t12 : CTree :=
  .sy (.sy (.sy (.sy (.leaf ⟨146, 16, 2145, 101, 16, 1719, ⟨[[(0, 31113628585623552), (76756332002375856, 0), (0,
    1932923487402), (0, 53024939), (0, 2816)], [(0, 35506317082450965), (2828552194458, 0), (0, 938912974), (520483,
    0), (0, 272)], [(0, 1030134255985), (707263818, 0), (0, 367778), (207, 0)], [(0, 101353569), (101418, 0), (0,
    51)]], 3, 4⟩, ⟨[[(0, 230753989959991296), (99112081815415767, 0), (0, 7146672907260), (472990109, 0), (0,
    49282)], [(1693661501474661, 0), (3652385271714, 0), (0, 1383763043), (762129, 0), (0, 407)], [(0, 791323221751),
    (913258718, 0), (0, 517750), (301, 0)], [(0, 102268931), (130956, 0), (0, 71)]], 3, 4⟩, 1152921504606846976,
    24656163763983, 39536137020909, ⟨[[(12255927026332388, 0), (0, 352625442419285), (0, 79395961214), (63064724, 0),
    (193380, 0)], [(455113288360412, 0), (0, 268300160695), (0, 30989480), (0, 209416), (0, 567)], [(161236130971,
    0), (0, 159650168), (0, 5183), (0, 34)], [(0, 24373104), (329167, 0), (0, 9)]], 3, 4⟩, 281474976710656,
    10352780815,
    10062694720381131520169223677751262456070381832922285795201443790903576107844213355986009558608854507095881050718278299781245057573959900333,
    lc0⟩) (.leaf ⟨173, 16, 2189, 136, 16, 1794, ⟨[[(0, 535864358775750656), (76931439007704585, 0), (0,
    2021949337522), (0, 34027211), (23469, 0)], [(0, 35322517355885052), (2371814706456, 0), (0, 558560955), (265282,
    0), (0, 124)], [(0, 836948293523), (521421549, 0), (0, 215136), (107, 0)], [(0, 72698404), (74251, 0), (0, 33)]],
    3, 4⟩, ⟨[[(0, 202929923837100032), (98390654519464299, 0), (0, 6963818615876), (457470202, 0), (0, 11827)],
    [(2953429529596104, 0), (3033407464843, 0), (0, 849336370), (392376, 0), (0, 186)], [(0, 547117745139),
    (666866604, 0), (0, 304818), (156, 0)], [(0, 66758679), (94962, 0), (0, 47)]], 3, 4⟩, 1152921504606846976,
    9425750579138, 15961850495833, ⟨[[(12458516517043346, 0), (0, 348350780234863), (0, 67963329063), (71720918, 0),
    (186700, 0)], [(445412876366921, 0), (0, 260713732546), (0, 47533412), (0, 242016), (0, 511)], [(148893575794,
    0), (0, 124199088), (0, 8459), (0, 41)], [(0, 26234556), (344187, 0), (0, 11)]], 3, 4⟩, 281474976710656,
    10481962538,
    9603178268533336193366003082547433396923844204051917463298555676349238370826248575966288521436087641767591295132857021673862914694453009581,
    lc0⟩)) (.sy (.leaf ⟨200, 16, 2233, 172, 16, 1871, ⟨[[(0, 452918560896942080), (77025453577061873, 0), (0,
    2080956183678), (0, 638515), (22682, 0)], [(0, 35245537354022358), (2101939662624, 0), (0, 359050811), (146183,
    0), (0, 60)], [(0, 690458281811), (411206986, 0), (0, 134049), (59, 0)], [(0, 51283584), (56343, 0), (0, 22)]],
    3, 4⟩, ⟨[[(58453810274729984, 0), (97703276749689897, 0), (0, 6769421552080), (462715569, 0), (0, 10922)],
    [(4093976906046630, 0), (2666214647643, 0), (0, 568137914), (219684, 0), (0, 91)], [(0, 360159304053),
    (521597317, 0), (0, 192083), (87, 0)], [(0, 40143581), (71468, 0), (0, 31)]], 3, 4⟩, 1152921504606846976,
    6072072974518, 9492513032704, ⟨[[(12501649519471414, 0), (0, 343492367624111), (0, 57353285990), (78225401, 0),
    (184319, 0)], [(435736182383391, 0), (0, 253133043515), (0, 64684294), (0, 264602), (0, 465)], [(138116601093,
    0), (0, 91631885), (0, 11927), (0, 46)], [(0, 27783117), (351946, 0), (0, 12)]], 3, 4⟩, 281474976710656,
    10514723677,
    8698434407790156413496430618476491239927773177932447683561635608774624764488390412178570705450763629940690511178162784672388600563213409453,
    lc0⟩) (.leaf ⟨227, 16, 2277, 209, 16, 1949, ⟨[[(183287115688083456, 0), (77061262180970625, 0), (0,
    2107323526040), (26834511, 0), (15951, 0)], [(0, 35229117324287116), (1932973148431, 0), (0, 245663203), (87423,
    0), (0, 31)], [(0, 571783630443), (342227483, 0), (0, 87945), (35, 0)], [(0, 34617800), (44456, 0), (0, 15)]], 3,
    4⟩, ⟨[[(448217118092525568, 0), (97015228403966830, 0), (0, 6555271008654), (462041809, 0), (0, 17264)],
    [(5172803391956137, 0), (2433490267177, 0), (0, 407157662), (133820, 0), (0, 47)], [(0, 206153202056),
    (430842637, 0), (0, 128047), (51, 0)], [(0, 19228287), (55967, 0), (0, 21)]], 3, 4⟩, 1152921504606846976,
    4349186619767, 6339288215318, ⟨[[(12377745696487376, 0), (0, 338328623118564), (0, 47641543940), (83599645, 0),
    (184171, 0)], [(426125253087537, 0), (0, 245858507400), (0, 81819509), (0, 280123), (0, 427)], [(128724981542,
    0), (0, 62087408), (0, 15330), (0, 49)], [(0, 29076228), (354350, 0), (0, 13)]], 3, 4⟩, 281474976710656,
    10469707461,
    6190233293909322975883032688902903052335842117658303646370463914734607290654230301482055087053352033746178067897976958688072363468536814765,
    lc0⟩))) (.sy (.leaf ⟨152, 16, 1325, 135, 16, 1046, ⟨[[(362211384470798336, 0), (87144491543883331, 0), (0,
    4758343122175), (232713886, 0), (63239, 0)], [(0, 19942684716169406), (2016987431432, 0), (0, 339527702),
    (212369, 0), (0, 115)], [(0, 239792720801), (317723863, 0), (0, 112760), (82, 0)], [(0, 8528255), (38198, 0), (0,
    18)]], 3, 4⟩, ⟨[[(316632923316060160, 0), (97143456417159519, 0), (0, 12580194459456), (1797355916, 0), (0,
    198403)], [(3410382913443726, 0), (2248416706185, 0), (0, 546887698), (297869, 0), (0, 164)], [(0, 4849611849),
    (354179520, 0), (0, 152226), (108, 0)], [(2907237, 0), (42581, 0), (0, 24)]], 3, 4⟩, 1152921504606846976,
    248022524092676, 431363679674793, ⟨[[(12265826756619848, 0), (0, 653329722269763), (0, 135260430561), (699289783,
    0), (2831158, 0)], [(728721994235704, 0), (0, 824625354055), (0, 739823968), (0, 4024904), (0, 10212)],
    [(365097842543, 0), (0, 135649303), (0, 244823), (0, 1212), (0, 2)], [(0, 172551818), (3852802, 0), (0, 247), (0,
    1)]], 3, 4⟩, 281474976710656, 111988282377,
    3512484497604677660127343641865120151794325114463356276399527170131137183105363215850093674449142080922817191008930602391231277938696133805,
    lc0⟩) (.leaf ⟨185, 16, 1376, 177, 16, 1135, ⟨[[(155321648418684928, 0), (87136490858356713, 0), (0,
    4657390584203), (285974649, 0), (7159, 0)], [(0, 20012368784476266), (1912935804664, 0), (0, 184224679), (117196,
    0), (0, 44)], [(0, 144847197710), (272578296, 0), (0, 54246), (42, 0)], [(3281956, 0), (31117, 0), (0, 7)]], 3,
    4⟩, ⟨[[(465311915607162880, 0), (96532528974833383, 0), (0, 11765171313571), (1640830204, 0), (0, 216994)],
    [(4493437515908599, 0), (2119210094091, 0), (0, 349104057), (167186, 0), (0, 67)], [(113136631384, 0),
    (301970759, 0), (0, 80759), (55, 0)], [(16953456, 0), (34472, 0), (0, 10)]], 3, 4⟩, 1152921504606846976,
    132419340333080, 242355810625961, ⟨[[(12476307222206100, 0), (0, 628478109861484), (0, 77055098112), (742742581,
    0), (2763318, 0)], [(696686735169775, 0), (0, 777718625631), (0, 940589435), (0, 4038566), (0, 8524)],
    [(324892949433, 0), (149629033, 0), (0, 299768), (0, 1138), (0, 2)], [(0, 191678416), (3717824, 0), (0, 163), (0,
    1)]], 3, 4⟩, 281474976710656, 107813948219,
    4915262247645244954038025290707422744917241042001496382943013787132816564310705481587759765090959874611413016910620550243249983824066275967,
    lc0⟩))) (.sy (.sy (.leaf ⟨219, 16, 1428, 222, 16, 1225, ⟨[[(93219698729746432, 0), (87155229492194954, 0), (0,
    4522658875183), (290691639, 0), (0, 11880)], [(0, 20092609089873205), (1889677303566, 0), (0, 89352004), (77969,
    0), (0, 21)], [(0, 56580487269), (256872087, 0), (0, 20973), (26, 0)], [(14181716, 0), (30112, 0)]], 3, 4⟩,
    ⟨[[(0, 215258288736600064), (95910367361826430, 0), (0, 11003144212145), (1465825276, 0), (0, 199174)],
    [(5610928859643296, 0), (2079503954453, 0), (0, 228985552), (109845, 0), (0, 34)], [(227673420140, 0),
    (282676053, 0), (0, 40841), (33, 0)], [(30431596, 0), (33137, 0), (0, 2)]], 3, 4⟩, 1152921504606846976,
    75390984619030, 149707362215303, ⟨[[(12150140182321674, 0), (0, 604607621827470), (0, 28038314134), (787264962,
    0), (2700033, 0)], [(665212465076280, 0), (0, 739107568131), (0, 1120182471), (0, 3964573), (0, 7207)],
    [(294075837578, 0), (378661249, 0), (0, 333130), (0, 1019), (0, 1)], [(0, 208177014), (3524881, 0), (0, 59)]], 3,
    4⟩, 281474976710656, 102521184361,
    4982817396530774820617610457169576775075093327397733074960317915292610924246258746724714778232341155133870331168838329783762871169178167935,
    lc0⟩) (.leaf ⟨254, 16, 1480, 268, 16, 1315, ⟨[[(0, 7687028133494784), (87156144841785414, 0), (0, 4381457081475),
    (280617654, 0), (0, 15738)], [(0, 20146967832531634), (1920182243824, 0), (0, 20726355), (58427, 0), (0, 12)],
    [(32940413145, 0), (259885538, 0), (2283, 0), (20, 0)], [(25863126, 0), (33174, 0), (5, 0)]], 3, 4⟩,
    ⟨[[(191290368632094720, 0), (95232219740447481, 0), (0, 10305926584937), (1304220820, 0), (0, 171506)],
    [(6778913604311362, 0), (2098110439803, 0), (0, 144227275), (79420, 0), (0, 20)], [(346590578448, 0), (283967088,
    0), (0, 13960), (23, 0)], [(45121973, 0), (36248, 0), (4, 0)]], 3, 4⟩, 1152921504606846976, 46754008783189,
    96724100393709, ⟨[[(12417420095830270, 0), (0, 582167608306810), (10478343836, 0), (816791510, 0), (2591389, 0)],
    [(636207289785084, 0), (0, 705274561117), (0, 1261055994), (0, 3810484), (0, 6128)], [(270132360789, 0),
    (564198589, 0), (0, 343016), (0, 885), (0, 1)], [(0, 228726791), (3317182, 0), (46, 0)]], 3, 4⟩, 281474976710656,
    97242113735,
    5024620633745423908245613391193612296083433512751212508428356568835393450093807033411936899995026251639309482664162296680189955671588629119,
    lc0⟩)) (.sy (.leaf ⟨290, 16, 1532, 316, 16, 1405, ⟨[[(0, 191024610652979200), (87147601206402101, 0), (0,
    4242127239402), (268516619, 0), (0, 14732)], [(0, 20159354416570135), (1993053824479, 0), (34650398, 0), (47554,
    0), (0, 7)], [(129360925044, 0), (277562288, 0), (21427, 0), (17, 0)], [(39631024, 0), (39644, 0), (10, 0)]], 3,
    4⟩, ⟨[[(332016418773008384, 0), (94524554568632449, 0), (0, 9672881510608), (1164788314, 0), (0, 144902)],
    [(8011936008401366, 0), (2161763747737, 0), (0, 78404719), (61340, 0), (0, 13)], [(475644406855, 0), (301057645,
    0), (7088, 0), (18, 0)], [(62423406, 0), (43000, 0), (8, 0)]], 3, 4⟩, 1152921504606846976, 32293619494361,
    65842549989851, ⟨[[(12578423913262164, 0), (0, 561145175896627), (43210136334, 0), (843735687, 0), (2477982, 0)],
    [(608749310848123, 0), (0, 677374622010), (0, 1379343174), (0, 3638005), (0, 5272)], [(251502327464, 0),
    (714386927, 0), (0, 337400), (0, 761), (0, 1)], [(0, 248599693), (3109583, 0), (142, 0)]], 3, 4⟩,
    281474976710656, 91895149880,
    3780929355135240168543601461657834584663731403056408948638124613192508079928992658622277288490320270924412040384456965471479700522910116479,
    lc0⟩) (.leaf ⟨327, 16, 1584, 366, 16, 1493, ⟨[[(0, 495655598469545984), (87134855076697223, 0), (0,
    4105196024445), (258028081, 0), (0, 12793)], [(0, 20115969385249331), (2102760110212, 0), (82965937, 0), (41304,
    0), (0, 4)], [(237624494693, 0), (308567396, 0), (39261, 0), (16, 0)], [(56731598, 0), (49558, 0), (14, 0)]], 3,
    4⟩, ⟨[[(0, 526993025613561856), (93679778047555210, 0), (0, 9083978063182), (1045358908, 0), (0, 122285)],
    [(9310159355486014, 0), (2260703827860, 0), (0, 23510267), (49929, 0), (0, 9)], [(619106446853, 0), (331744686,
    0), (25671, 0), (16, 0)], [(83568654, 0), (53281, 0), (13, 0)]], 3, 4⟩, 1152921504606846976, 24464550570700,
    47953588314862, ⟨[[(12317973939227842, 0), (0, 542011362422314), (73447734286, 0), (877020329, 0), (2387552, 0)],
    [(582367618661348, 0), (0, 657171855718), (0, 1488035613), (0, 3486214), (0, 4625)], [(237389729250, 0),
    (837142630, 0), (0, 322535), (0, 657), (0, 1)], [(0, 265603099), (2914344, 0), (225, 0)]], 3, 4⟩,
    281474976710656, 86565258994,
    2088733153759219166975954088427959176781592132853941437408780021543860004006227551594300700080698716526879646960880459185415337280399875245,
    lc0⟩)))
theorem c12 : checkC job ⟨6, 8, 6, 7, 9, 13⟩ 3 200 B1.zlims t12 1425 121 320 667 175 1896 = true := by decide +kernel

def t13 : CTree :=
  .sy (.sy (.sy (.sy (.leaf ⟨137, 16, 2120, 100, 16, 1705, ⟨[[(0, 169761678034108416), (76580665155638863, 0), (0,
    2156982984512), (84380142, 0), (0, 74032)], [(0, 35603332905273996), (3152173465086, 0), (0, 1113061007),
    (617386, 0), (0, 321)], [(0, 1093756691344), (775832455, 0), (0, 402116), (221, 0)], [(0, 108153895), (111382,
    0), (0, 56)]], 3, 4⟩, ⟨[[(334779991141351424, 0), (99236505379930826, 0), (0, 7451723086649), (670006419, 0), (0,
    155885)], [(1281644131653005, 0), (4084721363946, 0), (0, 1634025163), (906157, 0), (0, 482)], [(0,
    861746355935), (1005356919, 0), (0, 568255), (323, 0)], [(0, 110296131), (144334, 0), (0, 80)]], 3, 4⟩,
    1152921504606846976, 35755147544275, 57476785268595, ⟨[[(8966698845644396, 0), (0, 353503733978063), (0,
    80508054274), (66069160, 0), (203901, 0)], [(458115148412285, 0), (0, 271222598260), (0, 31679510), (0, 216214),
    (0, 591)], [(165598663419, 0), (0, 172113390), (0, 5171), (0, 34)], [(0, 21159789), (326314, 0), (0, 9)]], 3, 4⟩,
    281474976710656, 10179869996,
    6620141735814040880883969294037588830412860968675747476853534862776841148039776528761379058795189175025282662779775741163343001163609118082,
    lc0⟩) (.leaf ⟨164, 16, 2169, 136, 16, 1782, ⟨[[(0, 496572276730560512), (76828610554729583, 0), (0,
    2150379071531), (36312823, 0), (0, 9483)], [(0, 35414114055117160), (2613588259588, 0), (0, 662673211), (316741,
    0), (0, 148)], [(0, 883369343815), (572898107, 0), (0, 238616), (117, 0)], [(0, 76889291), (81381, 0), (0, 37)]],
    3, 4⟩, ⟨[[(0, 573219540132691968), (98501862693446194, 0), (0, 7139814203315), (558086039, 0), (0, 60954)],
    [(2658697466780916, 0), (3350878143238, 0), (0, 998708963), (468335, 0), (0, 222)], [(0, 593407460034),
    (734511926, 0), (0, 338611), (170, 0)], [(0, 71255009), (104338, 0), (0, 52)]], 3, 4⟩, 1152921504606846976,
    14114915132891, 23447029056891, ⟨[[(8814416756349214, 0), (0, 348862898366762), (0, 68315760569), (75740724, 0),
    (196979, 0)], [(447026178864660, 0), (0, 263030705498), (0, 49173374), (0, 250512), (0, 530)], [(152081273392,
    0), (0, 135122786), (0, 8584), (0, 42)], [(0, 22379373), (340654, 0), (0, 12)]], 3, 4⟩, 281474976710656,
    10230812489,
    6546387468192999277794307881037142326177367333903393221028929218836426110116687873512878654356169177771356001162615183432862583249088779650,
    lc0⟩)) (.leaf ⟨116, 16, 1266, 95, 16, 952, ⟨[[(0, 467482345819930624), (87084804548443622, 0), (0,
    4886074745731), (197909887, 0), (72799, 0)], [(0, 19954751017191217), (2467590050592, 0), (0, 787327587),
    (606956, 0), (0, 463)], [(0, 370481718809), (461333696, 0), (0, 273850), (229, 0)], [(0, 24796843), (61564, 0),
    (0, 45)]], 3, 4⟩, ⟨[[(549006150042484736, 0), (97699040255832427, 0), (0, 13536906319176), (2028454773, 0), (0,
    249490)], [(2242067112052792, 0), (2768349552344, 0), (0, 1111540901), (812147, 0), (0, 626)], [(0,
    150305791592), (517562847, 0), (0, 349902), (297, 0)], [(0, 14992036), (69068, 0), (0, 57)]], 3, 4⟩,
    1152921504606846976, 445921981396330, 848716745344103, ⟨[[(9429373524667046, 0), (0, 680601727063949), (0,
    208609765646), (670593770, 0), (3036057, 0)], [(764187323190273, 0), (0, 887557003420), (0, 525285644), (0,
    3924117), (0, 12833)], [(424462655203, 0), (0, 532567944), (0, 171282), (0, 1203), (0, 3)], [(0, 138336632),
    (3879568, 0), (0, 301), (0, 2)]], 3, 4⟩, 281474976710656, 114134268163,
    6784613585590658269272401502515594461724463608929008634588091912499721150343788350467021319674616801593727283811322392265220718941205403010,
    lc0⟩)) (.sy (.leaf ⟨147, 16, 1317, 135, 16, 1040, ⟨[[(255487296463667200, 0), (87122546379099165, 0), (0,
    4818110685010), (287391632, 0), (32349, 0)], [(0, 19939089031872542), (2164553175529, 0), (0, 395015641),
    (253371, 0), (0, 139)], [(0, 244273752881), (344764282, 0), (0, 125858), (93, 0)], [(0, 7817273), (41867, 0), (0,
    20)]], 3, 4⟩, ⟨[[(242360650675781632, 0), (97148462099502999, 0), (0, 12648824379310), (1865272796, 0), (0,
    240756)], [(3389070745908264, 0), (2413646304829, 0), (0, 621251355), (351566, 0), (0, 197)], [(0, 2242805985),
    (384439175, 0), (0, 169136), (122, 0)], [(4262458, 0), (46685, 0), (0, 25)]], 3, 4⟩, 1152921504606846976,
    239055017422264, 428886613138013, ⟨[[(8772803300691526, 0), (0, 653901014088884), (0, 132053662595), (737416318,
    0), (2971892, 0)], [(729477398173516, 0), (0, 834268243782), (0, 760482595), (0, 4142297), (0, 10544)],
    [(371411150899, 0), (0, 186141168), (0, 250336), (0, 1240), (0, 2)], [(0, 149460544), (3836973, 0), (0, 273), (0,
    1)]], 3, 4⟩, 281474976710656, 110497244569,
    3776590589777300470653074366086952631349355794928717776286063671959438764878415993090566662439300573035268978776460462304388269745311510954,
    lc0⟩) (.leaf ⟨180, 16, 1369, 177, 16, 1129, ⟨[[(7343025350311936, 0), (87170117707461802, 0), (0, 4681308781405),
    (315300560, 0), (0, 4542)], [(0, 19979626555931242), (2040102601207, 0), (0, 210586766), (138309, 0), (0, 53)],
    [(0, 141041012541), (294938720, 0), (0, 58829), (48, 0)], [(5257721, 0), (34557, 0), (0, 7)]], 3, 4⟩,
    ⟨[[(472586448005955584, 0), (96550453163701687, 0), (0, 11791857153107), (1675729741, 0), (0, 233645)],
    [(4527282116638031, 0), (2259637084672, 0), (0, 387871304), (194447, 0), (0, 80)], [(125830991140, 0),
    (326676937, 0), (0, 87513), (62, 0)], [(19837765, 0), (38276, 0), (0, 10)]], 3, 4⟩, 1152921504606846976,
    130071780555479, 247073331121838, ⟨[[(9051250992636272, 0), (0, 628762659695640), (0, 71822832353), (782128474,
    0), (2892046, 0)], [(696838251171852, 0), (0, 788691258495), (0, 964594552), (0, 4147617), (0, 8784)],
    [(330553132754, 0), (105706237, 0), (0, 307198), (0, 1166), (0, 2)], [(0, 168314849), (3708741, 0), (0, 186), (0,
    1)]], 3, 4⟩, 281474976710656, 106525184573,
    5139180210574237434057242200495751902992724774717536055696916925290233431314543545710073145600046421261884972236152419736073856417449308586,
    lc0⟩))) (.sy (.sy (.leaf ⟨214, 16, 1421, 222, 16, 1218, ⟨[[(0, 221986820663083008), (87198466398408177, 0), (0,
    4523222590783), (309653818, 0), (0, 17339)], [(0, 20018696224793651), (2009626083789, 0), (0, 98927429), (91240,
    0), (0, 25)], [(0, 44853995159), (278824259, 0), (0, 20372), (30, 0)], [(17542281, 0), (34134, 0), (1, 0)]], 3,
    4⟩, ⟨[[(0, 312803822339555328), (95879614592800487, 0), (0, 10997768974475), (1485891941, 0), (0, 207035)],
    [(5694012214774124, 0), (2209696825504, 0), (0, 247614177), (126232, 0), (0, 40)], [(250009435973, 0),
    (306582944, 0), (0, 41663), (38, 0)], [(34997341, 0), (37532, 0), (0, 1)]], 3, 4⟩, 1152921504606846976,
    75012113798901, 152053967724878, ⟨[[(8762222808822456, 0), (0, 605200185400821), (0, 20760129720), (831083734,
    0), (2832197, 0)], [(665194664666495, 0), (0, 752773831885), (0, 1151473235), (0, 4082655), (0, 7450)],
    [(299775833380, 0), (341749580, 0), (0, 343476), (0, 1051), (0, 1)], [(0, 185311626), (3530187, 0), (0, 78)]], 3,
    4⟩, 281474976710656, 101688478065,
    5223565248451855960122422849283283830663487540602552387211413503317586060952014282429448124114386052774029601547538072059460783718622491050,
    lc0⟩) (.leaf ⟨249, 16, 1473, 268, 16, 1307, ⟨[[(0, 478310821030952960), (87222039862851982, 0), (0,
    4365512938097), (294562955, 0), (0, 18680)], [(0, 20030996751185137), (2042390193605, 0), (0, 18506914), (68340,
    0), (0, 13)], [(53309834431, 0), (284524706, 0), (6750, 0), (23, 0)], [(30990789, 0), (38490, 0), (7, 0)]], 3,
    4⟩, ⟨[[(0, 38267620450697216), (95174573202987078, 0), (0, 10278675614130), (1316793109, 0), (0, 175694)],
    [(6912670365800180, 0), (2228606614749, 0), (0, 149336600), (90821, 0), (0, 23)], [(379489739299, 0), (310466454,
    0), (0, 10625), (26, 0)], [(51819792, 0), (41999, 0), (6, 0)]], 3, 4⟩, 1152921504606846976, 47858693768111,
    98459517061353, ⟨[[(9042642021979086, 0), (0, 582957350962744), (19658429716, 0), (864301691, 0), (2724459, 0)],
    [(635976389594552, 0), (0, 721376356971), (0, 1299081750), (0, 3933671), (0, 6353)], [(276105947016, 0),
    (533634017, 0), (0, 355468), (0, 919), (0, 1)], [(0, 206500192), (3331968, 0), (33, 0)]], 3, 4⟩, 281474976710656,
    96730927020,
    5267418791585088446858432663947200943659322982988680984165263025469235205024671812310922059124310639394537985003573171124429701441423339946,
    lc0⟩)) (.sy (.leaf ⟨284, 16, 1525, 316, 16, 1395, ⟨[[(351534195389104128, 0), (87246287118180879, 0), (0,
    4213000508788), (279772996, 0), (0, 16440)], [(0, 19997560391019495), (2125018313046, 0), (46689815, 0), (56097,
    0), (0, 8)], [(160106588696, 0), (307560549, 0), (29476, 0), (20, 0)], [(47181485, 0), (47050, 0), (13, 0)]], 3,
    4⟩, ⟨[[(0, 309736897258323968), (94389342558648952, 0), (0, 9622336518999), (1172345053, 0), (0, 147161)],
    [(8194926730435735, 0), (2298998480266, 0), (0, 72839073), (70316, 0), (0, 14)], [(520743912684, 0), (332741243,
    0), (14036, 0), (21, 0)], [(71951170, 0), (50902, 0), (11, 0)]], 3, 4⟩, 1152921504606846976, 33793064680539,
    67727109600731, ⟨[[(8461451553881167, 0), (0, 561707999581608), (56408083130, 0), (902861203, 0), (2629588, 0)],
    [(607591018335262, 0), (0, 698309104778), (0, 1427683161), (0, 3775721), (0, 5499)], [(258717059574, 0),
    (680405109, 0), (0, 352676), (0, 797), (0, 1)], [(0, 221410489), (3121227, 0), (130, 0)]], 3, 4⟩,
    281474976710656, 91115975874,
    4406019360082904976265127526073122653194641151361790089882901034155470013347072014066291800988918844100915877298563831868044952393433149866,
    lc0⟩) (.leaf ⟨321, 16, 1577, 365, 16, 1481, ⟨[[(0, 73854811294990336), (87275133392967692, 0), (0,
    4064556369367), (267821848, 0), (0, 13788)], [(0, 19902032629495901), (2251401866210, 0), (104312223, 0), (49544,
    0), (0, 4)], [(281476589970, 0), (346715062, 0), (51230, 0), (19, 0)], [(67700282, 0), (60091, 0), (19, 0)]], 3,
    4⟩, ⟨[[(0, 489280569267781632), (93489577235984407, 0), (0, 9014921642284), (1049918213, 0), (0, 123447)],
    [(9547908741200084, 0), (2411713399652, 0), (0, 8496816), (57861, 0), (0, 9)], [(679225050344, 0), (371402979,
    0), (36362, 0), (19, 0)], [(96996752, 0), (64370, 0), (18, 0)]], 3, 4⟩, 1152921504606846976, 26534978817596,
    50274756138638, ⟨[[(8603820121483030, 0), (0, 543027545480136), (86940353076, 0), (934321082, 0), (2529137, 0)],
    [(581441972320682, 0), (0, 678937136000), (0, 1536903522), (0, 3618658), (0, 4833)], [(244603112114, 0),
    (809751967, 0), (0, 337765), (0, 692), (0, 1)], [(0, 241551337), (2933456, 0), (218, 0)]], 3, 4⟩,
    281474976710656, 86135770185,
    2713277043725614219945007665762503474387472921908075915369608655590403612641352225292119868025997530288558564217669826254601980634136244650,
    lc0⟩)))
theorem c13 : checkC job ⟨6, 8, 6, 7, 9, 13⟩ 3 200 B1.zlims t13 1667 121 320 667 175 1896 = true := by decide +kernel

def t14 : CTree :=
  .sx (.sy (.sy (.sy (.leaf ⟨365, 16, 1638, 416, 16, 1580, ⟨[[(0, 443021030852919296), (87229645667033462, 0), (0,
    3974156506099), (249829860, 0), (0, 11156)], [(0, 20028403899800449), (2249533077599, 0), (127915287, 0), (37965,
    0), (0, 2)], [(363070316349, 0), (353423804, 0), (57486, 0), (16, 0)], [(78639564, 0), (63488, 0), (20, 0)]], 3,
    4⟩, ⟨[[(0, 48331388645343232), (92794901988239372, 0), (0, 8540176365258), (943735808, 0), (0, 103969)],
    [(10689127654998570, 0), (2393053415027, 0), (24863636, 0), (42684, 0), (0, 6)], [(782079831482, 0), (375972263,
    0), (43681, 0), (15, 0)], [(110031386, 0), (67538, 0), (18, 0)]], 3, 4⟩, 1152921504606846976, 20768345956327,
    37953700192720, ⟨[[(12506782535462128, 0), (0, 524121016612218), (97587252337, 0), (896488345, 0), (2274619, 0)],
    [(557429330259525, 0), (0, 637163386861), (0, 1564415006), (0, 3311339), (0, 4082)], [(224910398109, 0),
    (933193762, 0), (0, 297140), (0, 567), (0, 1)], [(0, 282294996), (2717805, 0), (289, 0)]], 3, 4⟩,
    281474976710656, 81034129405,
    3870439751274836054349186484766705572296693709007733142630939271764034142926707461570697494400964230667485491831789516543442680241500855469,
    lc0⟩) (.leaf ⟨404, 16, 1692, 467, 16, 1665, ⟨[[(0, 503613334703636480), (87324662460146167, 0), (0,
    3842268887433), (243052643, 0), (0, 10022)], [(0, 19857554690921002), (2430221036902, 0), (171779702, 0), (36621,
    0), (0, 1)], [(510810191758, 0), (412837880, 0), (77237, 0), (18, 0)], [(106977686, 0), (82277, 0), (27, 0)]], 3,
    4⟩, ⟨[[(116233705216802816, 0), (91834937164657869, 0), (0, 8030586409648), (856005800, 0), (0, 89214)],
    [(12151858939512864, 0), (2555740725845, 0), (69615170, 0), (38243, 0), (0, 4)], [(969133550959, 0), (434160748,
    0), (62364, 0), (15, 0)], [(143435255, 0), (86526, 0), (25, 0)]], 3, 4⟩, 1152921504606846976, 20133512101401,
    33498261044637, ⟨[[(12598296635636106, 0), (0, 507709463982719), (119621557726, 0), (916327296, 0), (2175643,
    0)], [(533852286970514, 0), (0, 621249845204), (0, 1630569535), (0, 3157165), (0, 3661)], [(214748029812, 0),
    (1012350064, 0), (0, 268283), (0, 496), (0, 1)], [(0, 297044216), (2539221, 0), (340, 0)]], 3, 4⟩,
    281474976710656, 75790680248,
    5110502221478658000153159412126843299804134326745065158377294627739000664513495522792520248422107984043541199699651373612285711335808441517,
    lc0⟩)) (.sy (.leaf ⟨444, 16, 1747, 519, 16, 1748, ⟨[[(0, 414471069261299712), (87476715063866187, 0), (0,
    3710989535769), (237242974, 0), (0, 9306)], [(0, 19601483424775253), (2647103488470, 0), (216427809, 0), (36844,
    0)], [(687165333144, 0), (488916854, 0), (99586, 0), (20, 0)], [(143932383, 0), (107293, 0), (36, 0)]], 3, 4⟩,
    ⟨[[(0, 241110544018178048), (90826217611065051, 0), (0, 7551859568063), (779527671, 0), (0, 77252)],
    [(13707348513924540, 0), (2748461659852, 0), (112787477, 0), (35857, 0), (0, 2)], [(1185694981443, 0),
    (507637587, 0), (82726, 0), (17, 0)], [(185835602, 0), (111402, 0), (33, 0)]], 3, 4⟩, 1152921504606846976,
    22045243813743, 32988003333721, ⟨[[(12394318347801416, 0), (0, 492336401760732), (141039128226, 0), (938557552,
    0), (2093075, 0)], [(511029871445600, 0), (0, 609494426647), (0, 1689121110), (0, 3023716), (0, 3335)],
    [(206560864152, 0), (1075201620, 0), (0, 238160), (0, 442), (0, 1)], [(0, 307890267), (2372263, 0), (379, 0)]],
    3, 4⟩, 281474976710656, 70627063189,
    5851266404014310942676813375901106464641260975932323120377392861530289740476622252989569636171538420815460112495311632673378482257170930861,
    lc0⟩) (.leaf ⟨485, 16, 1803, 570, 16, 1827, ⟨[[(0, 149240570728022016), (87688185047455533, 0), (0,
    3579715628705), (231954014, 0), (0, 8855)], [(0, 19244630777498459), (2902293762914, 0), (263379384, 0), (38399,
    0), (1, 0)], [(899292280750, 0), (584355827, 0), (125591, 0), (23, 0)], [(192275626, 0), (140381, 0), (48, 0)]],
    3, 4⟩, ⟨[[(284589153985888256, 0), (89692042421848368, 0), (0, 7093533749160), (711464821, 0), (0, 67350)],
    [(15348298285275549, 0), (2968617210666, 0), (155805729, 0), (35045, 0), (0, 1)], [(1436342381146, 0),
    (597709573, 0), (105590, 0), (19, 0)], [(239555606, 0), (143589, 0), (43, 0)]], 3, 4⟩, 1152921504606846976,
    26543582181523, 36092939175838, ⟨[[(12494800124652246, 0), (0, 478683366985883), (159232488734, 0), (956339505,
    0), (2018338, 0)], [(489654554961698, 0), (0, 598004616255), (0, 1734951354), (0, 2904572), (0, 3079)],
    [(198720996662, 0), (1126358618, 0), (0, 207357), (0, 401), (0, 1)], [(0, 317699534), (2218584, 0), (405, 0)]],
    3, 4⟩, 281474976710656, 65716540179,
    6420903861919004847703064523801180306235281290248985124189804059293381030038223264640273101952229537244299101865509345067025878794769765762,
    lc0⟩))) (.sy (.sy (.leaf ⟨528, 16, 1861, 622, 16, 1903, ⟨[[(0, 506389159655636992), (88009027624677212, 0), (0,
    3450048547277), (227049437, 0), (0, 8546)], [(0, 18780209479565261), (3200677610387, 0), (314199308, 0), (41214,
    0), (2, 0)], [(1156264131415, 0), (703083771, 0), (156522, 0), (28, 0)], [(255756434, 0), (184124, 0), (63, 0)]],
    3, 4⟩, ⟨[[(0, 494839971888627712), (88511861624848255, 0), (0, 6659193244207), (650892575, 0), (0, 59068)],
    [(17090428510078913, 0), (3218964479013, 0), (200002422, 0), (35571, 0)], [(1728336712544, 0), (707100795, 0),
    (131937, 0), (22, 0)], [(307861174, 0), (185176, 0), (57, 0)]], 3, 4⟩, 1152921504606846976, 34016915357635,
    42658285882330, ⟨[[(12318958726591244, 0), (0, 466085238008197), (178598345609, 0), (981787515, 0), (1969606,
    0)], [(468554182097460, 0), (0, 590586187720), (0, 1783967548), (0, 2816045), (0, 2895)], [(192212461849, 0),
    (1169820993, 0), (0, 177943), (0, 373), (0, 1)], [(0, 324202499), (2077344, 0), (425, 0)]], 3, 4⟩,
    281474976710656, 60962111259,
    6908806063237028933330844458579828555835750718319380612657378397032109096636419266084326360901513738968162384145267546174659330675807851906,
    lc0⟩) (.leaf ⟨571, 16, 1919, 672, 16, 1975, ⟨[[(211575696848977920, 0), (88346172885547546, 0), (0,
    3318084073328), (222168043, 0), (0, 8277)], [(0, 18168826721490330), (3543145048544, 0), (369959855, 0), (45241,
    0), (2, 0)], [(1467085333949, 0), (848962391, 0), (193635, 0), (33, 0)], [(338871619, 0), (241668, 0), (84, 0)]],
    3, 4⟩, ⟨[[(305194350545338368, 0), (87261070104640448, 0), (0, 6244512196766), (596421009, 0), (0, 52013)],
    [(18933318764819723, 0), (3499626733944, 0), (246416289, 0), (37278, 0), (1, 0)], [(2068369691104, 0),
    (838535098, 0), (162744, 0), (26, 0)], [(394601323, 0), (238700, 0), (74, 0)]], 3, 4⟩, 1152921504606846976,
    45043297222226, 53261836174574, ⟨[[(12351061713818372, 0), (0, 454610965463265), (194898257810, 0), (1001028727,
    0), (1922730, 0)], [(449116618571105, 0), (0, 582421133449), (0, 1819597741), (0, 2733486), (0, 2744)],
    [(185825811719, 0), (1202134387, 0), (0, 150176), (0, 352), (0, 1)], [(0, 328755336), (1946932, 0), (435, 0)]],
    3, 4⟩, 281474976710656, 56531788908,
    7133264920959838079673733406985363662193144851700580398172591389582745515745337766038070865053399615889887526868675673408204297866989245826,
    lc0⟩)) (.sy (.leaf ⟨617, 16, 1980, 722, 16, 2042, ⟨[[(0, 395492463152070656), (88840777249455707, 0), (0,
    3189012135474), (217646894, 0), (0, 8007)], [(0, 17418045195078506), (3940580053327, 0), (432706798, 0), (50625,
    0), (3, 0)], [(1846308949158, 0), (1029125656, 0), (238960, 0), (41, 0)], [(448404298, 0), (317824, 0), (110,
    0)]], 3, 4⟩, ⟨[[(0, 235203851146231808), (85919627856831119, 0), (0, 5846369186954), (547051754, 0), (0, 45907)],
    [(20874911040259470, 0), (3811010914180, 0), (295959604, 0), (40087, 0), (1, 0)], [(2463804939572, 0),
    (995287256, 0), (199106, 0), (32, 0)], [(504559542, 0), (307374, 0), (97, 0)]], 3, 4⟩, 1152921504606846976,
    60943580130760, 68535018481657, ⟨[[(12369906886490926, 0), (0, 444602512384315), (212317785783, 0), (1029959968,
    0), (1905943, 0)], [(429882018514112, 0), (0, 576723545252), (0, 1863969879), (0, 2685065), (0, 2651)],
    [(179803655340, 0), (1233126065, 0), (0, 124140), (0, 341), (0, 1)], [(0, 331668336), (1828374, 0), (442, 0)]],
    3, 4⟩, 281474976710656, 52304681810,
    7316547464026723049036374357016364757580905726302063639109081248487742315693450777528014313416091132101168300009392553800952602777604035970,
    lc0⟩) (.leaf ⟨663, 16, 2042, 770, 16, 2104, ⟨[[(506956643336716288, 0), (89401548664547937, 0), (0,
    3059117340569), (213293789, 0), (0, 7693)], [(0, 16484111219219198), (4396145068034, 0), (503728953, 0), (57464,
    0), (4, 0)], [(2307660304450, 0), (1250180815, 0), (294494, 0), (50, 0)], [(592353142, 0), (418305, 0), (146,
    0)]], 3, 4⟩, ⟨[[(0, 38163938471313408), (84510975811991973, 0), (0, 5465076325292), (502293444, 0), (0, 40571)],
    [(22922228222853615, 0), (4155660780605, 0), (349636125, 0), (44000, 0), (2, 0)], [(2924129124231, 0),
    (1181791615, 0), (242399, 0), (39, 0)], [(643967777, 0), (395422, 0), (126, 0)]], 3, 4⟩, 1152921504606846976,
    83361043366812, 89875474262003, ⟨[[(12117756599949680, 0), (0, 435179727168004), (230185024807, 0), (1061762637,
    0), (1903648, 0)], [(411452910403054, 0), (0, 573294522800), (0, 1904629180), (0, 2650228), (0, 2586)],
    [(174732976647, 0), (1253095347, 0), (0, 101603), (0, 335), (0, 1)], [(0, 330152971), (1716542, 0), (442, 0)]],
    3, 4⟩, 281474976710656, 48265057534,
    7487474439584321117544560046762733480854285427210024454261310656561498047186587479886948400847434954123187639690880475957695908367877510530,
    lc0⟩)))) (.sy (.sy (.sy (.leaf ⟨359, 16, 1631, 415, 16, 1566, ⟨[[(0, 125785415685767168), (87420484308444412, 0),
    (0, 3922691195754), (258932032, 0), (0, 11681)], [(0, 19753197086488322), (2422176006302, 0), (158970663, 0),
    (46616, 0), (0, 2)], [(423971823866, 0), (403068227, 0), (74213, 0), (21, 0)], [(94502341, 0), (78597, 0), (27,
    0)]], 3, 4⟩, ⟨[[(0, 533883359501680640), (92569480045946552, 0), (0, 8455726919803), (946555441, 0), (0,
    104450)], [(10989833232723919, 0), (2564840211729, 0), (49137784, 0), (50429, 0), (0, 6)], [(861211831434, 0),
    (426808619, 0), (58749, 0), (19, 0)], [(128908805, 0), (83226, 0), (25, 0)]], 3, 4⟩, 1152921504606846976,
    23775246430360, 41383333602595, ⟨[[(8613696298234305, 0), (0, 525329279007875), (114080529407, 0), (961701014,
    0), (2426669, 0)], [(556022776919698, 0), (0, 662539629223), (0, 1624285244), (0, 3456142), (0, 4292)],
    [(232969040731, 0), (911208872, 0), (0, 313778), (0, 602), (0, 1)], [(0, 258407308), (2742404, 0), (288, 0)]], 3,
    4⟩, 281474976710656, 80748158679,
    2700152030643542708628530412977083766062354135292925040613962704435694658843183114158504038647645708518329714799110237883813768137768408450,
    lc0⟩) (.leaf ⟨398, 16, 1685, 465, 16, 1649, ⟨[[(0, 265258534220857344), (87574379018300082, 0), (0,
    3780054599390), (251998690, 0), (0, 10200)], [(0, 19509211404928525), (2634724278307, 0), (213587385, 0), (46252,
    0), (0, 1)], [(594077958690, 0), (478132323, 0), (100027, 0), (23, 0)], [(129850643, 0), (103991, 0), (37, 0)]],
    3, 4⟩, ⟨[[(217813200132177920, 0), (91591454398127157, 0), (0, 7932735278581), (857930798, 0), (0, 89238)],
    [(12526112708201182, 0), (2755580242685, 0), (103665625, 0), (46425, 0), (0, 4)], [(1072589902728, 0),
    (500064464, 0), (82890, 0), (20, 0)], [(169945845, 0), (108761, 0), (34, 0)]], 3, 4⟩, 1152921504606846976,
    24730949443105, 38654929037230, ⟨[[(9014309127791566, 0), (0, 509229466078388), (136404640392, 0), (980251635,
    0), (2319944, 0)], [(532579760699516, 0), (0, 647015150290), (0, 1691328370), (0, 3297145), (0, 3857)],
    [(222799900353, 0), (995766348, 0), (0, 284194), (0, 529), (0, 1)], [(0, 275854568), (2567180, 0), (343, 0)]], 3,
    4⟩, 281474976710656, 75698220306,
    4353330397283019716214092728276063209809575125980801518254824650220545174444702866626118662738241417217394128347742752761205715597051270530,
    lc0⟩)) (.sy (.leaf ⟨438, 16, 1739, 516, 16, 1728, ⟨[[(0, 518803865962086400), (87743915268727147, 0), (0,
    3635499171664), (246324358, 0), (0, 9194)], [(0, 19153680446137446), (2890974881267, 0), (270510509, 0), (47983,
    0), (1, 0)], [(799538670909, 0), (574961670, 0), (130241, 0), (28, 0)], [(176769037, 0), (138430, 0), (51, 0)]],
    3, 4⟩, ⟨[[(0, 275284824373460992), (90475586053692469, 0), (0, 7433177092888), (780273961, 0), (0, 76856)],
    [(14152214086005606, 0), (2980977607941, 0), (157535826, 0), (44965, 0), (0, 2)], [(1318954796198, 0),
    (592861555, 0), (110153, 0), (23, 0)], [(222796166, 0), (142740, 0), (47, 0)]], 3, 4⟩, 1152921504606846976,
    28553904632252, 40357422881313, ⟨[[(8906405627966312, 0), (0, 494646375561557), (159995426153, 0), (1010179304,
    0), (2251128, 0)], [(509852225923327, 0), (0, 638253095407), (0, 1762294959), (0, 3182061), (0, 3547)],
    [(215223835287, 0), (1067380866, 0), (0, 254734), (0, 477), (0, 1)], [(0, 289135110), (2411241, 0), (387, 0), (1,
    0)]], 3, 4⟩, 281474976710656, 70867139877,
    5676199052117292480296657035765445736621539514343471347828028970240503187937292090696476472542253297010209654696725144567817606666282833282,
    lc0⟩) (.leaf ⟨479, 16, 1795, 566, 16, 1804, ⟨[[(0, 293338320462217216), (88034539876256142, 0), (0,
    3492314254128), (241703900, 0), (0, 8487)], [(0, 18689704726036180), (3197937732134, 0), (332203871, 0), (51688,
    0), (2, 0)], [(1050738369618, 0), (698592286, 0), (166763, 0), (33, 0)], [(239526919, 0), (185119, 0), (69, 0)]],
    3, 4⟩, ⟨[[(373791701447344128, 0), (89308992640040035, 0), (0, 6960228560297), (712132413, 0), (0, 66673)],
    [(15886017653195990, 0), (3244233431378, 0), (212874381, 0), (45638, 0)], [(1608749721440, 0), (708705622, 0),
    (142059, 0), (28, 0)], [(291250558, 0), (187799, 0), (63, 0)]], 3, 4⟩, 1152921504606846976, 36114764852536,
    46543000550649, ⟨[[(9074885111343982, 0), (0, 481316888536526), (179898682279, 0), (1032460219, 0), (2181331,
    0)], [(488301958880227, 0), (0, 628518552857), (0, 1814772139), (0, 3068824), (0, 3293)], [(207699143542, 0),
    (1123332860, 0), (0, 223495), (0, 436), (0, 1)], [(0, 300353326), (2259582, 0), (417, 0)]], 3, 4⟩,
    281474976710656, 66025488673,
    6521903753244549809031236091859216723765999957398145909074870348842157927619741852878285055614245747887892386869408583264543080770294748546,
    lc0⟩))) (.sy (.sy (.leaf ⟨521, 16, 1852, 616, 16, 1876, ⟨[[(170946906752548864, 0), (88397999668993018, 0), (0,
    3347587681124), (237719184, 0), (0, 7922)], [(0, 18084062006213067), (3559452519253, 0), (400707836, 0), (57356,
    0), (4, 0)], [(1358997716715, 0), (854658804, 0), (211657, 0), (41, 0)], [(323542131, 0), (248222, 0), (93, 0)]],
    3, 4⟩, ⟨[[(436692181856681984, 0), (88067592985468003, 0), (0, 6508499650572), (651621450, 0), (0, 58124)],
    [(17730004157980025, 0), (3546148293971, 0), (271428330, 0), (48211, 0), (1, 0)], [(1950274611703, 0),
    (851464331, 0), (180184, 0), (33, 0)], [(379942406, 0), (247294, 0), (84, 0)]], 3, 4⟩, 1152921504606846976,
    47965885544963, 57722747445782, ⟨[[(8902794588708481, 0), (0, 468983280578561), (200872165018, 0), (1061853660,
    0), (2137531, 0)], [(467340785975771, 0), (0, 623010400758), (0, 1868088744), (0, 2985089), (0, 3111)],
    [(201672707626, 0), (1168744533, 0), (0, 194167), (0, 409), (0, 1)], [(0, 307440241), (2120399, 0), (439, 0)]],
    3, 4⟩, 281474976710656, 61358603522,
    7002240192809500710156394361629592711707798772377543850324186463627146344906245967120246830310518761048265945017519922920018283547477644674,
    lc0⟩) (.leaf ⟨565, 16, 1911, 665, 16, 1942, ⟨[[(95929176782536704, 0), (88884948429057931, 0), (0,
    3202490524470), (234399797, 0), (0, 7392)], [(0, 17321431194710780), (3984706679547, 0), (478603422, 0), (65190,
    0), (5, 0)], [(1739622859745, 0), (1051469261, 0), (267726, 0), (52, 0)], [(436452637, 0), (333707, 0), (127,
    0)]], 3, 4⟩, ⟨[[(55383107477438464, 0), (86687690299394949, 0), (0, 6071009385918), (597104034, 0), (0, 50780)],
    [(19675167159419058, 0), (3886203735002, 0), (334627681, 0), (52588, 0), (3, 0)], [(2351784391785, 0),
    (1025476678, 0), (226238, 0), (41, 0)], [(494545519, 0), (325458, 0), (112, 0)]], 3, 4⟩, 1152921504606846976,
    65459338919761, 74660638127701, ⟨[[(8779165221607139, 0), (0, 458346907192271), (222129413240, 0), (1098811740,
    0), (2122889, 0)], [(447040899593566, 0), (0, 619771415437), (0, 1925597993), (0, 2934745), (0, 2996)],
    [(196054224657, 0), (1209738884, 0), (0, 166421), (0, 392), (0, 1)], [(0, 312757450), (1994486, 0), (454, 0)]],
    3, 4⟩, 281474976710656, 56929985846,
    7278991462621579698086116315847798098624227378225381230283475569998560944401083668558001809625681889115609736505888725920044421426731783554,
    lc0⟩)) (.sy (.leaf ⟨610, 16, 1971, 712, 16, 2003, ⟨[[(361733760991232000, 0), (89451129925574726, 0), (0,
    3054601240700), (231643889, 0), (0, 6822)], [(0, 16363405914016176), (4481009915875, 0), (568367838, 0), (75480,
    0), (7, 0)], [(2210046935815, 0), (1298794515, 0), (338324, 0), (66, 0)], [(588201282, 0), (449477, 0), (172,
    0)]], 3, 4⟩, ⟨[[(504641718707290112, 0), (85245143508223883, 0), (0, 5651504304566), (548285587, 0), (0, 44408)],
    [(21740726367743315, 0), (4270313115758, 0), (404357719, 0), (58870, 0), (4, 0)], [(2826348103444, 0),
    (1237725279, 0), (282624, 0), (52, 0)], [(643085380, 0), (428343, 0), (150, 0)]], 3, 4⟩, 1152921504606846976,
    91343645207372, 99290863883447, ⟨[[(8856569368375640, 0), (0, 448976852688205), (241551011475, 0), (1135043686,
    0), (2119749, 0)], [(427998669386847, 0), (0, 616047468623), (0, 1977695267), (0, 2898756), (0, 2918)],
    [(190317794525, 0), (1243904124, 0), (0, 140289), (0, 382), (0, 1)], [(0, 316548777), (1878554, 0), (464, 0)]],
    3, 4⟩, 281474976710656, 52791830543,
    7453937094711993297314397966524386780955035396352360627675953944199497717250271173450690666040865228495828113755940833855716390878908224898,
    lc0⟩) (.leaf ⟨658, 16, 2034, 758, 16, 2058, ⟨[[(0, 554997551294316544), (90190412095473009, 0), (0,
    2906200625061), (229796171, 0), (0, 6167)], [(0, 15192654894449380), (5064695027403, 0), (673818308, 0), (88792,
    0), (9, 0)], [(2795628847438, 0), (1611452046, 0), (428410, 0), (84, 0)], [(793275818, 0), (607244, 0), (235,
    0)]], 3, 4⟩, ⟨[[(0, 8271302472761344), (83720703646908908, 0), (0, 5246967553150), (504387760, 0), (0, 38788)],
    [(23926903633950678, 0), (4701384788023, 0), (482328651, 0), (67223, 0), (6, 0)], [(3387021164278, 0),
    (1495856334, 0), (352130, 0), (65, 0)], [(835459412, 0), (563684, 0), (201, 0)]], 3, 4⟩, 1152921504606846976,
    130112891800228, 135561270074960, ⟨[[(8988144607245987, 0), (0, 441031935356116), (262241143665, 0), (1182342581,
    0), (2149109, 0)], [(409297621728719, 0), (0, 614107464090), (0, 2039642221), (0, 2896705), (0, 2894)],
    [(184672145358, 0), (1277336144, 0), (0, 115786), (0, 380), (0, 1)], [(0, 318873558), (1772888, 0), (470, 0)]],
    3, 4⟩, 281474976710656, 48877085431,
    7678984629733744123260605649102903912695005804155492044183449496513084850367686074657842281271144493786688769627741526327519126962493953410,
    lc0⟩))))
theorem c14 : checkC job ⟨6, 8, 6, 7, 9, 13⟩ 3 200 B1.zlims t14 773 121 160 1017 175 1896 = true := by decide +kernel

def t15 : CTree :=
  .sy (.sy (.sy (.sy (.leaf ⟨128, 16, 2093, 100, 16, 1690, ⟨[[(0, 373990866117967872), (76404911002215512, 0), (0,
    2419502731259), (243947809, 0), (0, 156151)], [(0, 35691746398224477), (3502717291903, 0), (0, 1301174830),
    (719587, 0), (0, 371)], [(0, 1160169881148), (849812746, 0), (0, 439666), (237, 0)], [(0, 114528425), (121082,
    0), (0, 62)]], 3, 4⟩, ⟨[[(0, 426639941351718912), (99403701387150623, 0), (0, 7812259674372), (900758422, 0), (0,
    279866)], [(837238487613256, 0), (4557077014563, 0), (0, 1906682033), (1059821, 0), (0, 559)], [(0,
    936669308122), (1105616528, 0), (0, 623892), (348, 0)], [(0, 117920766), (157529, 0), (0, 88)]], 3, 4⟩,
    1152921504606846976, 48283069378907, 77929295066315, ⟨[[(5296998547464184, 0), (0, 354783604834776), (0,
    81522491690), (70235028, 0), (216922, 0)], [(461314808327441, 0), (0, 274579540932), (0, 33178631), (0, 226550),
    (0, 620)], [(170169901197, 0), (0, 185405081), (0, 5270), (0, 35)], [(0, 17686281), (323687, 0), (0, 11)]], 3,
    4⟩, 281474976710656, 9964746154,
    6506631810373613574345899931422162249568372558227875371473926404513240616072220120194442514123727537175100681293409994357890685259685132501,
    lc0⟩) (.leaf ⟨155, 16, 2147, 135, 16, 1769, ⟨[[(0, 568649824061784064), (76709797245776176, 0), (0,
    2301674250441), (118804504, 0), (0, 47874)], [(0, 35491771544004980), (2876160811407, 0), (0, 776940131),
    (372210, 0), (0, 172)], [(0, 931357860366), (628419783, 0), (0, 264227), (127, 0)], [(0, 80737277), (88436, 0),
    (0, 41)]], 3, 4⟩, ⟨[[(43212893357113344, 0), (98632476975622050, 0), (0, 7348090950590), (676759647, 0), (0,
    118554)], [(2341483389552803, 0), (3698130815029, 0), (0, 1163527105), (550912, 0), (0, 260)], [(0,
    642139056283), (808014126, 0), (0, 375692), (187, 0)], [(0, 75385119), (113710, 0), (0, 57)]], 3, 4⟩,
    1152921504606846976, 19394281821884, 32259020236126, ⟨[[(5512284811468046, 0), (0, 349469307638998), (0,
    68956031861), (79311956, 0), (206863, 0)], [(449327903884268, 0), (0, 265583265686), (0, 50275627), (0, 258048),
    (0, 550)], [(155677295056, 0), (0, 146529756), (0, 8602), (0, 42)], [(0, 18975569), (337728, 0), (0, 13)]], 3,
    4⟩, 281474976710656, 10018583316,
    3430137641633205642595702649191702376103180848720558100606865310141681703689008638017932538010667391710894999938994323656566335177589853783,
    lc0⟩)) (.leaf ⟨111, 16, 1256, 95, 16, 945, ⟨[[(0, 568354336679575552), (87017061046210092, 0), (0,
    5053073610863), (355884478, 0), (0, 49317)], [(0, 19979398156670396), (2680690774694, 0), (0, 920775903),
    (718600, 0), (0, 546)], [(0, 385711393828), (504144140, 0), (0, 305962), (255, 0)], [(0, 25383096), (66948, 0),
    (0, 49)]], 3, 4⟩, ⟨[[(269260529403101184, 0), (97676761844526987, 0), (0, 13725542428007), (2226568489, 0), (0,
    411941)], [(2150734217811505, 0), (3009078808574, 0), (0, 1281671037), (957330, 0), (0, 739)], [(0,
    160117891217), (565902440, 0), (0, 390101), (331, 0)], [(0, 15152315), (75149, 0), (0, 62)]], 3, 4⟩,
    1152921504606846976, 486989576120043, 922056773551521, ⟨[[(5814515076213255, 0), (0, 682263800258727), (0,
    208039637911), (711035261, 0), (3214413, 0)], [(766116146959532, 0), (0, 897355160901), (0, 544406507), (0,
    4071049), (0, 13354)], [(432428604649, 0), (0, 593487633), (0, 175264), (0, 1231), (0, 3)], [(0, 116168164),
    (3858333, 0), (0, 331), (0, 2)]], 3, 4⟩, 281474976710656, 112500899599,
    3724945978564527720255121648130975215792166977382714249600250207150772177699114342286364922301338758053589405316661645780221508752566455895,
    lc0⟩)) (.sy (.leaf ⟨142, 16, 1309, 135, 16, 1033, ⟨[[(178780071648919552, 0), (87134640756222291, 0), (0,
    4891464492013), (352281908, 0), (0, 4494)], [(0, 19936795955071192), (2324813110157, 0), (0, 456673750), (299955,
    0), (0, 166)], [(0, 248109020595), (374414815, 0), (0, 139749), (106, 0)], [(0, 6824619), (45927, 0), (0, 21)]],
    3, 4⟩, ⟨[[(7692852104298496, 0), (97097785534384912, 0), (0, 12723222136263), (1944653899, 0), (0, 291071)],
    [(3366019900215985, 0), (2590636775667, 0), (0, 702924981), (411960, 0), (0, 234)], [(1444990121, 0), (417226135,
    0), (0, 186977), (138, 0)], [(5956963, 0), (51178, 0), (0, 27)]], 3, 4⟩, 1152921504606846976, 228536934709629,
    446451495603896, ⟨[[(5169683656154351, 0), (0, 655100422541315), (0, 128554281510), (781286166, 0), (3137418,
    0)], [(730073182111193, 0), (0, 844715486885), (0, 785058620), (0, 4282117), (0, 10940)], [(377482471731, 0), (0,
    237942926), (0, 256725), (0, 1272), (0, 2)], [(0, 125901277), (3820862, 0), (0, 303), (0, 1)]], 3, 4⟩,
    281474976710656, 108842483914,
    3496632432244622250345466907026340535056757474576678963882111633604039315359096889189791159823891213673994086134076238921136726900430436565,
    lc0⟩) (.leaf ⟨175, 16, 1361, 177, 16, 1122, ⟨[[(0, 255751890012864512), (87169216139732021, 0), (0,
    4708134130913), (349675772, 0), (0, 18500)], [(0, 19929681935590324), (2176371891369, 0), (0, 238798076),
    (162410, 0), (0, 63)], [(0, 135557278606), (319663313, 0), (0, 63113), (55, 0)], [(7711140, 0), (38650, 0), (0,
    6)]], 3, 4⟩, ⟨[[(300828232527708160, 0), (96514832801558072, 0), (0, 11817261749059), (1715890565, 0), (0,
    253315)], [(4563399016947498, 0), (2409705840107, 0), (0, 429292541), (225245, 0), (0, 95)], [(140616215059, 0),
    (353935168, 0), (0, 94099), (71, 0)], [(23290840, 0), (42794, 0), (0, 10)]], 3, 4⟩, 1152921504606846976,
    127296349280014, 252939558860340, ⟨[[(5598139423666451, 0), (0, 629680426708064), (0, 66147555288), (826885475,
    0), (3042455, 0)], [(697407728754338, 0), (0, 801116387402), (0, 993961585), (0, 4280938), (0, 9102)],
    [(336418260742, 0), (62455249, 0), (0, 316281), (0, 1201), (0, 2)], [(0, 145384243), (3711288, 0), (0, 212), (0,
    1)]], 3, 4⟩, 281474976710656, 105510486703,
    5047204337875987114704597677019240340343943541242988093892794339638678643975372045053564378126172291275754985577687263623919931108099289514,
    lc0⟩))) (.sy (.sy (.leaf ⟨208, 16, 1413, 221, 16, 1210, ⟨[[(488167605950316544, 0), (87207880188424543, 0), (0,
    4522725780696), (331726495, 0), (0, 23753)], [(0, 19924282033703767), (2138756700253, 0), (0, 107854645),
    (106495, 0), (0, 29)], [(0, 30453365173), (303734394, 0), (0, 18714), (35, 0)], [(21703946, 0), (39238, 0), (3,
    0)]], 3, 4⟩, ⟨[[(545022551226810368, 0), (95799482011857212, 0), (0, 10987495269544), (1508769952, 0), (0,
    216176)], [(5783249526086795, 0), (2349464103370, 0), (0, 266099994), (144770, 0), (0, 47)], [(275617718187, 0),
    (333657894, 0), (0, 41522), (43, 0)], [(40512200, 0), (43104, 0), (1, 0)]], 3, 4⟩, 1152921504606846976,
    74867228374255, 154807775437956, ⟨[[(5283985651049658, 0), (0, 605553333434939), (0, 14220830294), (873143720,
    0), (2960017, 0)], [(665690004144108, 0), (0, 766204947758), (0, 1175736770), (0, 4191452), (0, 7698)],
    [(305840198094, 0), (296210515, 0), (0, 352167), (0, 1083), (0, 1)], [(0, 161046737), (3529325, 0), (0, 102)]],
    3, 4⟩, 281474976710656, 100646430694,
    5324185119370256064473408637593706106958644209672825699811582846648341651147280804058572569314854094469879645898037049124841276642998546858,
    lc0⟩) (.leaf ⟨243, 16, 1465, 267, 16, 1297, ⟨[[(65061223121551360, 0), (87257041275866305, 0), (0,
    4345751757009), (310816006, 0), (0, 22040)], [(0, 19890766220591514), (2175378584518, 0), (0, 13713455), (79911,
    0), (0, 15)], [(77698268028, 0), (313272010, 0), (13063, 0), (27, 0)], [(37444033, 0), (45536, 0), (10, 0)]], 3,
    4⟩, ⟨[[(433762716701884416, 0), (95000237733138959, 0), (0, 10236425620972), (1330138063, 0), (0, 180317)],
    [(7051557581151044, 0), (2368421845012, 0), (0, 152174644), (103767, 0), (0, 26)], [(416919669303, 0),
    (341071791, 0), (0, 5542), (30, 0)], [(60029343, 0), (49577, 0), (8, 0)]], 3, 4⟩, 1152921504606846976,
    49563713028043, 100774885509186, ⟨[[(5463243975388259, 0), (0, 583985718480623), (28984898463, 0), (915236127,
    0), (2870725, 0)], [(636067267227956, 0), (0, 738534457973), (0, 1335771934), (0, 4066212), (0, 6611)],
    [(282407364797, 0), (495749814, 0), (0, 368265), (0, 956), (0, 1)], [(0, 182111709), (3345604, 0), (15, 0)]], 3,
    4⟩, 281474976710656, 96073389439,
    5253947521697982846439285815033358061167142977123782458192150937894669897474014997638303186626354099723545313037140923648180862056815325610,
    lc0⟩)) (.sy (.leaf ⟨279, 16, 1517, 315, 16, 1384, ⟨[[(0, 407364106358095872), (87318772365710471, 0), (0,
    4177744065017), (293043054, 0), (0, 18299)], [(0, 19806780943794815), (2270729788707, 0), (63167626, 0), (66346,
    0), (0, 8)], [(196787491177, 0), (343482526, 0), (40375, 0), (24, 0)], [(56886051, 0), (57168, 0), (18, 0)]], 3,
    4⟩, ⟨[[(0, 28328811461869568), (94217108940835729, 0), (0, 9562960002132), (1181281807, 0), (0, 149655)],
    [(8393591297067535, 0), (2450121435306, 0), (0, 63301929), (80822, 0), (0, 16)], [(572833203034, 0), (370618250,
    0), (23679, 0), (25, 0)], [(83968773, 0), (61685, 0), (16, 0)]], 3, 4⟩, 1152921504606846976, 35887481140874,
    70338987960722, ⟨[[(5479959613063651, 0), (0, 563487812715912), (66657415057, 0), (954622543, 0), (2772358, 0)],
    [(607885749114586, 0), (0, 716687722890), (0, 1473015099), (0, 3915184), (0, 5740)], [(264711969940, 0),
    (658541677, 0), (0, 367155), (0, 834), (0, 1)], [(0, 202655332), (3154205, 0), (122, 0)]], 3, 4⟩,
    281474976710656, 91219789253,
    4397464117315695756315144021504027101392933537551829773018127876361650657379222608817481589901581792734831043017742175665994298219761430954,
    lc0⟩) (.leaf ⟨315, 16, 1570, 364, 16, 1469, ⟨[[(423754315305123840, 0), (87451267235704305, 0), (0,
    4018100121557), (279791497, 0), (0, 14784)], [(0, 19665418141270790), (2419789062621, 0), (132307130, 0), (59842,
    0), (0, 4)], [(334254853612, 0), (393749750, 0), (67477, 0), (24, 0)], [(82162467, 0), (74861, 0), (27, 0)]], 3,
    4⟩, ⟨[[(0, 409364619178672128), (93333501671109041, 0), (0, 8941536094031), (1056485552, 0), (0, 124743)],
    [(9814522373833100, 0), (2582551330116, 0), (12452722, 0), (67563, 0), (0, 10)], [(749868834958, 0), (420234539,
    0), (51065, 0), (23, 0)], [(114413072, 0), (79896, 0), (24, 0)]], 3, 4⟩, 1152921504606846976, 29627632252815,
    54039858437018, ⟨[[(4871893664311066, 0), (0, 543915610464344), (101321216428, 0), (995241363, 0), (2680003, 0)],
    [(580395046511138, 0), (0, 701057847738), (0, 1587846266), (0, 3757411), (0, 5052)], [(251530066405, 0),
    (781465677, 0), (0, 353599), (0, 728), (0, 1)], [(0, 217243138), (2951892, 0), (211, 0)]], 3, 4⟩,
    281474976710656, 85657624883,
    2772922881687427851059786283816325713467092277048800727431788156464593464970128684955474290569702865228239349024446095886854864844012843434,
    lc0⟩)))
theorem c15 : checkC job ⟨6, 8, 6, 7, 9, 13⟩ 3 200 B1.zlims t15 1909 121 320 667 175 1896 = true := by decide +kernel

def t16 : CTree :=
  .sy (.sy (.sy (.sy (.leaf ⟨118, 16, 2064, 99, 16, 1673, ⟨[[(529308892993732608, 0), (76232989776537635, 0), (0,
    2722778586457), (426356914, 0), (0, 249193)], [(0, 35771236740403395), (3881422344408, 0), (0, 1504075726),
    (827470, 0), (0, 422)], [(0, 1228810920880), (928753568, 0), (0, 480093), (254, 0)], [(0, 120398667), (130534,
    0), (0, 67)]], 3, 4⟩, ⟨[[(0, 284583947126554624), (99561861106559479, 0), (0, 8227884422735), (1166364787, 0),
    (0, 421455)], [(359032668082630, 0), (5069217847583, 0), (0, 2202223940), (1223301, 0), (0, 641)], [(0,
    1015005029746), (1212971365, 0), (0, 683930), (375, 0)], [(0, 124967868), (170480, 0), (0, 96)]], 3, 4⟩,
    1152921504606846976, 62121112162006, 101102017416173, ⟨[[(1458430090678529, 0), (0, 356089066836979), (0,
    82904289044), (74349001, 0), (231262, 0)], [(464912350929678, 0), (0, 278030838586), (0, 34247562), (0, 236226),
    (0, 653)], [(175384356758, 0), (0, 200728423), (0, 5247), (0, 35)], [(0, 14057094), (318655, 0), (0, 12)]], 3,
    4⟩, 281474976710656, 9666114848,
    5189080100033529951923764749571407105872152680205180290942262824774928702742910155593478401040112884120024496630352462813688584148370421973,
    lc0⟩) (.leaf ⟨145, 16, 2123, 134, 16, 1754, ⟨[[(421233288889303040, 0), (76578214592901705, 0), (0,
    2477745873673), (214156316, 0), (0, 91861)], [(0, 35555052510417755), (3160594497372, 0), (0, 901977466),
    (431999, 0), (0, 198)], [(0, 980491976509), (687775060, 0), (0, 291753), (139, 0)], [(0, 84149713), (95462, 0),
    (0, 44)]], 3, 4⟩, ⟨[[(399474068878458880, 0), (98732048515978363, 0), (0, 7587607899330), (814411959, 0), (0,
    184944)], [(2000082493217102, 0), (4074944433124, 0), (0, 1344230321), (640362, 0), (0, 300)], [(0,
    692523274723), (886746198, 0), (0, 415612), (204, 0)], [(0, 78978312), (123079, 0), (0, 62)]], 3, 4⟩,
    1152921504606846976, 25373140952370, 42067310308748, ⟨[[(1715747595919583, 0), (0, 350249145790536), (0,
    69677210214), (83701227, 0), (219009, 0)], [(451732299903798, 0), (0, 268327440061), (0, 51688238), (0, 267328),
    (0, 575)], [(159624425156, 0), (0, 159646119), (0, 8614), (0, 43)], [(0, 15109148), (333171, 0), (0, 15)]], 3,
    4⟩, 281474976710656, 9713401896,
    1433030390102681982267347951927906013236312365165066967638915297380764040238842102115818236197988349712543539669516655003598601699060613120,
    lc0⟩)) (.leaf ⟨105, 16, 1245, 95, 16, 938, ⟨[[(417939154785910784, 0), (86928242717607948, 0), (0,
    5248163528570), (540531937, 0), (0, 191285)], [(0, 19993924871491660), (2911097909941, 0), (0, 1068321126),
    (841965, 0), (0, 637)], [(0, 400812707109), (550130537, 0), (0, 340206), (284, 0)], [(0, 25699581), (72561, 0),
    (0, 53)]], 3, 4⟩, ⟨[[(0, 36947940559503360), (97710010636138730, 0), (0, 13955298982519), (2460028435, 0), (0,
    601594)], [(2055234007324923, 0), (3272163325183, 0), (0, 1470615971), (1118724, 0), (0, 862)], [(0,
    169861756539), (618363594, 0), (0, 433386), (368, 0)], [(0, 15010773), (81561, 0), (0, 66)]], 3, 4⟩,
    1152921504606846976, 543369333746072, 1006808538896899, ⟨[[(1459110636764766, 0), (0, 683077721989726), (0,
    206768547887), (757723059, 0), (3416370, 0)], [(767813565622001, 0), (0, 906410498674), (0, 564530811), (0,
    4226019), (0, 13906)], [(441226227952, 0), (0, 667586043), (0, 178332), (0, 1252), (0, 3)], [(0, 89516665),
    (3806020, 0), (0, 369), (0, 3)]], 3, 4⟩, 281474976710656, 109694220432,
    1547045155162104758230520333093047169526871267421414472473792027489578792081527110213469425446176118087040319535136083668649345883077345280,
    lc0⟩)) (.sy (.leaf ⟨137, 16, 1299, 135, 16, 1026, ⟨[[(0, 111022224152330240), (87049711775812509, 0), (0,
    4972183843474), (428079157, 0), (0, 47898)], [(0, 19904775150498046), (2495169804674, 0), (0, 523972785),
    (352195, 0), (0, 195)], [(0, 250666154499), (406383154, 0), (0, 153919), (120, 0)], [(0, 5409039), (50498, 0),
    (0, 21)]], 3, 4⟩, ⟨[[(0, 237832694041870336), (97087507673593212, 0), (0, 12817219970022), (2038890055, 0), (0,
    350479)], [(3345066753554440, 0), (2782890518720, 0), (0, 792826391), (480049, 0), (0, 276)], [(6506185039, 0),
    (453243633, 0), (0, 205615), (156, 0)], [(8158283, 0), (56321, 0), (0, 28)]], 3, 4⟩, 1152921504606846976,
    234332854060765, 467494029766173, ⟨[[(1694756230935642, 0), (0, 656449086367962), (0, 124926594640), (826644780,
    0), (3310008, 0)], [(731903550885422, 0), (0, 856416169261), (0, 811994499), (0, 4435259), (0, 11373)],
    [(384439297834, 0), (0, 289328978), (0, 264044), (0, 1308), (0, 2)], [(0, 104017075), (3824157, 0), (0, 336), (0,
    2)]], 3, 4⟩, 281474976710656, 107828086448,
    2928003404458588754927754460221876461744838190819613173644608023783706124008092932287337547701917963221099295433084524046764899222925441237,
    lc0⟩) (.leaf ⟨170, 16, 1353, 177, 16, 1114, ⟨[[(0, 478006382634336256), (87199591757725427, 0), (0,
    4741665559696), (390063413, 0), (0, 35000)], [(0, 19876236696281638), (2324430804284, 0), (0, 268763411),
    (189984, 0), (0, 75)], [(0, 128083454186), (347535021, 0), (0, 66739), (63, 0)], [(10874836, 0), (43743, 0), (0,
    5)]], 3, 4⟩, ⟨[[(0, 51353435325038592), (96426862531719601, 0), (0, 11841756095275), (1762070754, 0), (0,
    276360)], [(4602742827563262, 0), (2570397006581, 0), (0, 473091575), (259924, 0), (0, 111)], [(157956109964, 0),
    (384310420, 0), (0, 100099), (80, 0)], [(27586231, 0), (48372, 0), (0, 9)]], 3, 4⟩, 1152921504606846976,
    126998348660238, 259671037657095, ⟨[[(2021080800044284, 0), (0, 631133366083786), (0, 59783071687), (878402444,
    0), (3218914, 0)], [(697794586624640, 0), (0, 814541865729), (0, 1028393206), (0, 4437527), (0, 9476)],
    [(342065447395, 0), (18036426, 0), (0, 326616), (0, 1241), (0, 2)], [(0, 121741728), (3714451, 0), (0, 240), (0,
    1)]], 3, 4⟩, 281474976710656, 104362556824,
    4046033449408016696948762506703045302831886930281461977725240066695735872727361104321648208750879564266257007336577425434654499168408139989,
    lc0⟩))) (.sy (.sy (.leaf ⟨203, 16, 1406, 221, 16, 1201, ⟨[[(263109533417734144, 0), (87309143191253472, 0), (0,
    4527329746691), (357881817, 0), (0, 31268)], [(0, 19836149399095664), (2281678491865, 0), (0, 115642405),
    (124245, 0), (0, 34)], [(0, 12721529554), (332978978, 0), (0, 15426), (41, 0)], [(27083323, 0), (45999, 0), (6,
    0)]], 3, 4⟩, ⟨[[(51545730134867968, 0), (95671291218980337, 0), (0, 10972083018513), (1534929887, 0), (0,
    226744)], [(5880101809437095, 0), (2500209250538, 0), (0, 283809364), (165763, 0), (0, 54)], [(305272431662, 0),
    (364870478, 0), (0, 39828), (49, 0)], [(47431083, 0), (50404, 0), (3, 0)]], 3, 4⟩, 1152921504606846976,
    77433135481512, 158339737976365, ⟨[[(1635383451638095, 0), (0, 607031516399715), (0, 5141620870), (930453188, 0),
    (3139240, 0)], [(665262359724679, 0), (0, 781982037861), (0, 1217833629), (0, 4351432), (0, 8031)],
    [(311138635831, 0), (257667125, 0), (0, 365198), (0, 1124), (0, 1)], [(0, 136661368), (3536571, 0), (0, 125)]],
    3, 4⟩, 281474976710656, 99604270246,
    4303259564471436211155488897378195289353714777491630835140495883913168911610194698070474753347474931892982467768941195426345534055193868501,
    lc0⟩) (.leaf ⟨238, 16, 1458, 267, 16, 1288, ⟨[[(0, 294770891871027200), (87382972401889795, 0), (0,
    4327366400767), (330237704, 0), (0, 25867)], [(0, 19751280708176266), (2324378141160, 0), (0, 5279790), (93681,
    0), (0, 17)], [(107371265912, 0), (348069472, 0), (22149, 0), (32, 0)], [(45908261, 0), (55191, 0), (15, 0)]], 3,
    4⟩, ⟨[[(14455793178705920, 0), (94930771514778489, 0), (0, 10202153497950), (1347707727, 0), (0, 185835)],
    [(7214091202071573, 0), (2525148826680, 0), (0, 152062039), (118860, 0), (0, 30)], [(461126606837, 0),
    (378134351, 0), (2150, 0), (35, 0)], [(70628603, 0), (59958, 0), (13, 0)]], 3, 4⟩, 1152921504606846976,
    51905514222727, 103911800517709, ⟨[[(1929849986586419, 0), (0, 585052331465312), (39955733447, 0), (972837999,
    0), (3034940, 0)], [(635528005350829, 0), (0, 756060590828), (0, 1381400378), (0, 4215207), (0, 6886)],
    [(287999096010, 0), (463579496, 0), (0, 382604), (0, 995), (0, 1)], [(0, 158747506), (3360561, 0), (0, 2)]], 3,
    4⟩, 281474976710656, 95407029002,
    4296084858205219465066469274937472522007642422912671463305869974258603912281926538373878592923999322229591662521395984012452680424116287701,
    lc0⟩)) (.sy (.leaf ⟨273, 16, 1510, 314, 16, 1372, ⟨[[(268956225000964096, 0), (87483707545964521, 0), (0,
    4140622224119), (309181082, 0), (0, 20297)], [(0, 19609914011691723), (2436502399321, 0), (85832793, 0), (78981,
    0), (0, 9)], [(241548243532, 0), (388153658, 0), (55549, 0), (30, 0)], [(69841847, 0), (71337, 0), (25, 0)]], 3,
    4⟩, ⟨[[(24089730206990336, 0), (94010418789165442, 0), (0, 9493609799338), (1191977088, 0), (0, 152367)],
    [(8611179685755562, 0), (2618277361195, 0), (0, 48245884), (93354, 0), (0, 17)], [(633971308350, 0), (417111814,
    0), (37313, 0), (30, 0)], [(99644420, 0), (76659, 0), (23, 0)]], 3, 4⟩, 1152921504606846976, 39010855817146,
    74064198949958, ⟨[[(1630047533965754, 0), (0, 564710498114809), (80156897142, 0), (1019134190, 0), (2945780, 0)],
    [(606899962603491, 0), (0, 737651165834), (0, 1523315523), (0, 4070741), (0, 6011)], [(270992607118, 0),
    (623956004, 0), (0, 383244), (0, 875), (0, 1)], [(0, 176662245), (3168308, 0), (108, 0)]], 3, 4⟩,
    281474976710656, 90446057331,
    3727962269112696116564631621917235272781921544218158669880966183135728274392777597683526522210968209427725062359771570806854310277172263125,
    lc0⟩) (.leaf ⟨310, 16, 1562, 362, 16, 1455, ⟨[[(0, 378429718247243776), (87612325938715034, 0), (0,
    3961429857512), (294331081, 0), (0, 15686)], [(0, 19388817897136327), (2611285869722, 0), (169349078, 0), (73002,
    0), (0, 4)], [(398759093254, 0), (453086622, 0), (90026, 0), (32, 0)], [(101686470, 0), (95762, 0), (37, 0)]], 3,
    4⟩, ⟨[[(298524213070725120, 0), (93088596691637921, 0), (0, 8849998556807), (1064089042, 0), (0, 125943)],
    [(10101684521823160, 0), (2774506150461, 0), (41610622, 0), (79660, 0), (0, 10)], [(833326987484, 0), (481407123,
    0), (71653, 0), (30, 0)], [(137493071, 0), (101747, 0), (35, 0)]], 3, 4⟩, 1152921504606846976, 34057680868611,
    59061799489639, ⟨[[(2091438309574518, 0), (0, 546398452273590), (113407673252, 0), (1054005535, 0), (2837951,
    0)], [(580578376701093, 0), (0, 721534025899), (0, 1641534365), (0, 3912646), (0, 5306)], [(257402941400, 0),
    (765363750, 0), (0, 369659), (0, 766), (0, 1)], [(0, 200136391), (2991643, 0), (207, 0)]], 3, 4⟩,
    281474976710656, 85953266262,
    2499066304114872998673963903713960864930901860331867998801337695220569510658738089691970257148659483529731148916006608430157336207040280789,
    lc0⟩)))
theorem c16 : checkC job ⟨6, 8, 6, 7, 9, 13⟩ 3 200 B1.zlims t16 2151 121 320 667 175 1896 = true := by decide +kernel

end PyX.Kron.P1hs
