import Verif.Lemmas.T3aJob

/-!
# The temperature from pressure and enthalpy in subregion 3a, part A of the certificate
-/

namespace PyX.Kron.T3a

set_option Elab.async false

def t0 : CTree :=
  .sx (.out ⟨22, 16, 51, 94, 16, 63, ⟨[[(31321212518565632, 0), (0, 1273928407560575), (288691427210, 0)],
    [(23332633057440625, 0), (0, 33682270900071), (10130200371, 0)], [(0, 123871170887963), (0, 82480731389),
    (98289500, 0)]], 2, 2⟩, ⟨[[(0, 10016300819179520), (0, 1812519478629400), (304533247290, 0)], [(0,
    23389046522795249), (0, 6932791283582), (1891860603, 0)], [(151537944193189, 0), (119952768638, 0), (13841481,
    0)]], 2, 2⟩, 72057594037927936, 35395498409257941, 23612671841242750, ⟨[], 0, 0⟩, 0, 0, 0, lc0⟩ 2 1
    841751953210956) (.sy (.out ⟨34, 16, 43, 154, 16, 112, ⟨[[(12656166503807488, 0), (0, 1315302302507210),
    (198958459225, 0)], [(25758798692911570, 0), (0, 21026555587352), (3598610497, 0)], [(154496904643363, 0), (0,
    100821455946), (0, 1924788)]], 2, 2⟩, ⟨[[(0, 603188133351424), (0, 1856383515709306), (221274684709, 0)], [(0,
    25522301295839116), (0, 2823147920182), (1581462379, 0)], [(125301549639790, 0), (1107627823, 0), (12790233,
    0)]], 2, 2⟩, 72057594037927936, 27570928797015033, 7855194929553459, ⟨[], 0, 0⟩, 0, 0, 0, lc0⟩ 2 1
    533322237453763) (.out ⟨35, 16, 59, 147, 16, 116, ⟨[[(16532214777965568, 0), (0, 1549861740070990),
    (234842149926, 0)], [(22119979695467587, 0), (0, 23842802178146), (4888957646, 0)], [(144710300064406, 0), (0,
    125356400967), (23194435, 0)]], 2, 2⟩, ⟨[[(0, 14376942495180800), (0, 1733073386423739), (155155659254, 0)], [(0,
    27522571896531627), (0, 1471951440148), (1305983893, 0)], [(133198217757861, 0), (11198550153, 0), (5820021,
    0)]], 2, 2⟩, 72057594037927936, 34099636224388930, 10410677765840740, ⟨[], 0, 0⟩, 0, 0, 0, lc0⟩ 2 1
    356688616614674))
theorem c0 : checkR job con0 false ⟨7, 9, 7, 9, 13, 17⟩ 1 30400 t0 33 21 40 3247 251 4000 = true := by decide +kernel

def t1 : CTree :=
  .sx (.sx (.out ⟨48, 16, 42, 217, 16, 168, ⟨[[(0, 31203049655057408), (0, 2031710568735659), (272318530692, 0)],
    [(21264340125023296, 0), (0, 13165601992263), (0, 40274954)], [(103474865386756, 0), (0, 9097953774), (0,
    37656875)]], 2, 2⟩, ⟨[[(0, 20832878780628992), (0, 2938983390123250), (425944396026, 0)], [(0,
    13524969680096981), (0, 3099411399965), (1763447349, 0)], [(46556576623256, 0), (0, 14475814548), (2899194, 0)]],
    2, 2⟩, 72057594037927936, 6323809167674633, 2698052889236925, ⟨[], 0, 0⟩, 0, 0, 0, lc0⟩ 2 1 297081692707350) (.sy
    (.out ⟨66, 16, 41, 372, 16, 290, ⟨[[(0, 17190721374745600), (0, 1268876587443360), (27402974042, 0)],
    [(32306561392792070, 0), (0, 4552338687783), (0, 1834065582)], [(129802124420196, 0), (51713727761, 0), (0,
    30626175)]], 2, 2⟩, ⟨[[(7733495259959296, 0), (0, 2785629288346200), (230512835558, 0)], [(0, 14699385481829641),
    (0, 4218094333907), (634496412, 0)], [(108039472419642, 0), (0, 13245404320), (0, 4064510)]], 2, 2⟩,
    72057594037927936, 3579210785040136, 3185734985926865, ⟨[], 0, 0⟩, 0, 0, 0, lc0⟩ 0 19 12) (.out ⟨60, 16, 43, 361,
    16, 296, ⟨[[(0, 12031248546552320), (0, 1287566347414181), (55760457042, 0)], [(31073115792927116, 0), (0,
    6282237690499), (0, 1110183162)], [(155989465429339, 0), (26257830957, 0), (0, 23821068)]], 2, 2⟩, ⟨[[(0,
    15334861779079168), (0, 2621801526172050), (205050170910, 0)], [(0, 16984281580186981), (0, 3559006650910),
    (810131106, 0)], [(102728449352226, 0), (0, 16018419087), (0, 999006)]], 2, 2⟩, 72057594037927936,
    5505305697362657, 3228835902937148, ⟨[], 0, 0⟩, 0, 0, 0, lc0⟩ 0 172 68))) (.sx (.out ⟨51, 16, 25, 225, 16, 183,
    ⟨[[(0, 26448512288815104), (0, 1660632842182677), (0, 198073050255)], [(26385833554473356, 0), (1877636398613,
    0), (0, 11813035672)], [(84357953603798, 0), (169562730814, 0), (0, 139386350)]], 2, 2⟩, ⟨[[(0,
    11412828112099328), (0, 3609705303561403), (604290343540, 0)], [(0, 3348975272740261), (0, 6232168737122),
    (680680728, 0)], [(91855650269754, 0), (0, 11368728073), (0, 23021100)]], 2, 2⟩, 72057594037927936,
    12755431982829244, 4695073124751095, ⟨[], 0, 0⟩, 0, 0, 0, lc0⟩ 0 11 11) (.out ⟨60, 16, 22, 202, 16, 164, ⟨[[(0,
    30487325932774400), (0, 1029440556621445), (0, 877196041923)], [(27457417934727546, 0), (21542273670472, 0), (0,
    24313801544)], [(11367135589396, 0), (336190007333, 0), (0, 210494599)]], 2, 2⟩, ⟨[[(0, 1843302793199616), (0,
    3479479027532924), (520380773510, 0)], [(4975942912949429, 0), (0, 5850214081926), (0, 1857001105)],
    [(105902154596112, 0), (4574286665, 0), (0, 37445093)]], 2, 2⟩, 72057594037927936, 26359843497251729,
    4377287921483775, ⟨[], 0, 0⟩, 0, 0, 0, lc0⟩ 0 4 7))
theorem c1 : checkR job con0 false ⟨7, 9, 7, 9, 13, 17⟩ 1 30400 t1 75 21 40 6243 251 8000 = true := by decide +kernel

def t2 : CTree :=
  .sy (.out ⟨63, 16, 70, 331, 16, 275, ⟨[[(0, 36026262850212864), (0, 1516798847098891), (118551366841, 0)],
    [(27293901887276020, 0), (0, 10523495601952), (553269786, 0)], [(159611471822610, 0), (0, 24387900956), (0,
    7120189)]], 2, 2⟩, ⟨[[(0, 10598206642311168), (0, 2176047965110114), (131910044816, 0)], [(0, 23653850101224750),
    (0, 1515028941112), (610020399, 0)], [(68204687032778, 0), (0, 9209643582), (1982743, 0)]], 2, 2⟩,
    72057594037927936, 8177982686048207, 1300694304311914, ⟨[], 0, 0⟩, 0, 0, 0, lc0⟩ 2 1 169745430024458) (.sx (.out
    ⟨94, 16, 133, 438, 16, 377, ⟨[[(0, 20228550104629248), (0, 2467251144785252), (204558831357, 0)],
    [(18390529490945634, 0), (0, 8782846717343), (747432865, 0)], [(58045230846523, 0), (0, 13809201569), (0,
    649073)]], 2, 2⟩, ⟨[[(26336735881637888, 0), (0, 2803631432104544), (146310628395, 0)], [(0, 17551535501688756),
    (0, 565701514362), (314100618, 0)], [(21686933669786, 0), (0, 2023775176), (349081, 0)]], 2, 2⟩,
    72057594037927936, 1810746956096946, 291963250017007, ⟨[], 0, 0⟩, 0, 0, 0, lc0⟩ 2 1 123103546894509) (.sy (.out
    ⟨125, 16, 150, 674, 16, 586, ⟨[[(19806608399452160, 0), (0, 1646346614835224), (66268883605, 0)],
    [(28746340768906124, 0), (0, 5693248871018), (160282272, 0)], [(94125853500100, 0), (0, 7188000028), (0,
    885595)]], 2, 2⟩, ⟨[[(2610511310864384, 0), (0, 2232547971468805), (64740136115, 0)], [(0, 24244491962576606),
    (0, 677662586747), (146379146, 0)], [(35866337642638, 0), (0, 2502423503), (234187, 0)]], 2, 2⟩,
    72057594037927936, 2285418114136717, 339039226554542, ⟨[], 0, 0⟩, 0, 0, 0, lc0⟩ 2 1 75533477351924) (.sx (.out
    ⟨182, 16, 247, 886, 16, 784, ⟨[[(0, 15916957566654464), (0, 2508062011617799), (104429990019, 0)],
    [(19851558484213026, 0), (0, 4405298793599), (162103399, 0)], [(34196632310287, 0), (0, 3308392322), (0,
    180339)]], 2, 2⟩, ⟨[[(9029383985577984, 0), (0, 2895927903315796), (78608091847, 0)], [(0, 16904628652771554),
    (0, 330730127222), (82443890, 0)], [(11390480360639, 0), (0, 705325652), (48750, 0)]], 2, 2⟩, 72057594037927936,
    470801470509217, 89972289879312, ⟨[], 0, 0⟩, 0, 0, 0, lc0⟩ 2 1 53865054360863) (.sy (.sx (.out ⟨364, 16, 460,
    1792, 16, 1589, ⟨[[(18231816415645696, 0), (0, 2493295813584014), (51084199923, 0)], [(21163769741978542, 0), (0,
    2164051954215), (33248014, 0)], [(18218809695035, 0), (0, 733062466), (0, 35742)]], 2, 2⟩, ⟨[[(0,
    26862691206316032), (0, 2966863227833325), (41911416282, 0)], [(0, 16344579799981952), (0, 202738742414),
    (22625134, 0)], [(5989410116722, 0), (0, 206496217), (8425, 0)]], 2, 2⟩, 72057594037927936, 113320788953538,
    27418937728517, ⟨[], 0, 0⟩, 0, 0, 0, lc0⟩ 2 1 38712942815145) (.leaf ⟨473, 16, 446, 677, 16, 1879, ⟨[[(0,
    28004913507909632), (0, 2506774465282931), (50817049569, 0), (0, 139174), (0, 50)], [(22063575360904984, 0), (0,
    2156697443826), (28949351, 0), (2025, 0)], [(19106404178050, 0), (0, 680314079), (0, 43810), (5, 0)],
    [(11699451023, 0), (289647, 0), (0, 78)]], 3, 4⟩, ⟨[[(2774645646008320, 0), (0, 3059861489402196), (44088920314,
    0), (0, 1092640), (64, 0)], [(0, 16282799996795490), (0, 226996424199), (24026547, 0), (0, 1269)],
    [(6317116027057, 0), (0, 228751979), (9465, 0), (0, 1)], [(1385167828, 0), (0, 129362), (6, 0)]], 3, 4⟩,
    72057594037927936, 646848256858, 305142163206, ⟨[[(17362866571420, 0), (4602213390, 0), (0, 934029), (0, 798),
    (0, 18)], [(3404922837, 0), (7873331, 0), (5487, 0), (39, 0)], [(0, 7964168), (0, 19063), (0, 45), (0, 1)],
    [(17645, 0), (58, 0)]], 3, 4⟩, 17592186044416, 12603394,
    4992305132038834052391855570551598276198058207057092539053929776347716909047719327926416557478320996715177198993041462245734468,
    lc0⟩)) (.sx (.leaf ⟨482, 16, 485, 666, 16, 1879, ⟨[[(23300299222867968, 0), (0, 2574923850103789), (53443459498,
    0), (0, 317830), (0, 39)], [(21177620273806510, 0), (0, 2245259671899), (37355804, 0), (1315, 0)],
    [(18812104425143, 0), (0, 806965786), (0, 30281), (5, 0)], [(12256236937, 0), (142680, 0), (0, 65)]], 3, 4⟩,
    ⟨[[(0, 30398158170365952), (0, 3008207673587895), (41624881171, 0), (0, 913731), (62, 0)], [(0,
    16905497680058877), (0, 186006167706), (21490918, 0), (0, 1157)], [(6054153484746, 0), (0, 204488184), (6879, 0),
    (0, 1)], [(1065577116, 0), (0, 123561), (9, 0)]], 3, 4⟩, 72057594037927936, 760302539994, 307894614291,
    ⟨[[(17206007284068, 0), (4373796523, 0), (0, 1085152), (0, 1270), (0, 26)], [(3522750312, 0), (8286143, 0),
    (6404, 0), (52, 0), (1, 0)], [(0, 8058638), (0, 20295), (0, 49), (0, 1)], [(17899, 0), (61, 0)]], 3, 4⟩,
    17592186044416, 12067485,
    5141200646069518573514774613310391812185296853439755536850624387862893961405609647804194370696861546302715766992203272348619995,
    lc0⟩) (.leaf ⟨471, 16, 461, 661, 16, 1894, ⟨[[(0, 26042492183805952), (0, 2538480845376628), (52234600108, 0),
    (0, 241324), (0, 45)], [(21694340986520195, 0), (0, 2197717518338), (32744750, 0), (1654, 0)], [(19385273666401,
    0), (0, 744546059), (0, 37196), (5, 0)], [(12223712553, 0), (223091, 0), (0, 72)]], 3, 4⟩, ⟨[[(7902792056692736,
    0), (0, 3040469521752064), (42879878636, 0), (0, 972300), (63, 0)], [(0, 16521705870010530), (0, 205461413614),
    (22291354, 0), (0, 1273)], [(6254083308779, 0), (0, 221714240), (8032, 0), (0, 1)], [(1332503508, 0), (0,
    123070), (9, 0)]], 3, 4⟩, 72057594037927936, 721742897693, 308698748320, ⟨[[(17206225989125, 0), (4467067529, 0),
    (0, 980086), (0, 72), (0, 11)], [(3403668801, 0), (8006149, 0), (4565, 0), (21, 0)], [(0, 7965599), (0, 19127),
    (0, 26)], [(17729, 0), (55, 0)]], 3, 4⟩, 17592186044416, 11138631,
    2023344360570270781653844113952548329314712253127368502066712462840134653107256796184810822856649159226956552922829684761679091,
    lc0⟩))))))
theorem c2 : checkR job con0 false ⟨7, 9, 7, 9, 13, 17⟩ 1 30400 t2 237 21 160 6745 251 8000 = true := by decide +kernel

def t3 : CTree :=
  .sy (.sy (.out ⟨150, 16, 128, 1022, 16, 858, ⟨[[(0, 14682367671699456), (0, 874931751163804), (13631546315, 0)],
    [(38349159243762505, 0), (0, 2605536569778), (0, 31329034)], [(109084860460551, 0), (513404921, 0), (0,
    687384)]], 2, 2⟩, ⟨[[(0, 34370956827992064), (0, 1789391678960037), (31931709870, 0)], [(0, 28968776353402459),
    (0, 982802168877), (73404838, 0)], [(65201032738073, 0), (0, 2749873412), (50560, 0)]], 2, 2⟩, 72057594037927936,
    1806017214560781, 805611775034499, ⟨[], 0, 0⟩, 0, 0, 0, lc0⟩ 0 86 15) (.out ⟨148, 16, 132, 1009, 16, 858,
    ⟨[[(17387748256364544, 0), (0, 887909427385516), (14541808952, 0)], [(38191519040736658, 0), (0, 2713793671146),
    (0, 21299604)], [(112586740440338, 0), (0, 147533913), (0, 640233)]], 2, 2⟩, ⟨[[(12030749005209600, 0), (0,
    1758043327205037), (30523170244, 0)], [(0, 29443768304295936), (0, 909871073174), (71762075, 0)],
    [(63834676408888, 0), (0, 2691239094), (65727, 0)]], 2, 2⟩, 72057594037927936, 1969396248625016, 790701090858513,
    ⟨[], 0, 0⟩, 0, 0, 0, lc0⟩ 2 1 70345152751719)) (.sx (.out ⟨182, 16, 179, 905, 16, 780, ⟨[[(0, 22624884426637312),
    (0, 2269991671875556), (82036455627, 0)], [(22955356361894123, 0), (0, 3670496929597), (10991217, 0)],
    [(35701479518823, 0), (0, 1076327876), (0, 629313)]], 2, 2⟩, ⟨[[(535611343929344, 0), (0, 3100795488529110),
    (101133951298, 0)], [(0, 14256172424258539), (0, 683278681532), (120523560, 0)], [(13545256818647, 0), (0,
    1112535727), (80026, 0)]], 2, 2⟩, 72057594037927936, 397744107680113, 175436104605989, ⟨[], 0, 0⟩, 0, 0, 0, lc0⟩
    2 1 60264327850550) (.sy (.out ⟨245, 16, 219, 1454, 16, 1257, ⟨[[(0, 2750809983428608), (0, 1496210582883362),
    (24485476062, 0)], [(32563889072641518, 0), (0, 2271958075167), (0, 20085269)], [(49408475291041, 0), (0,
    24229282), (0, 275807)]], 2, 2⟩, ⟨[[(31580841916727296, 0), (0, 2545036317631497), (43814953041, 0)], [(0,
    20908839159974626), (0, 655744372297), (52013602, 0)], [(23824589329205, 0), (0, 1002995648), (25308, 0)]], 2,
    2⟩, 72057594037927936, 442173972836725, 170771518565853, ⟨[], 0, 0⟩, 0, 0, 0, lc0⟩ 0 88 10) (.sx (.out ⟨361, 16,
    344, 1831, 16, 1598, ⟨[[(33786842915332096, 0), (0, 2273350324064065), (39709627775, 0)], [(23874760686793740,
    0), (0, 1790868889267), (0, 4972282)], [(18791080447975, 0), (0, 164533623), (0, 90144)]], 2, 2⟩, ⟨[[(0,
    26801134020886528), (0, 3172838955749002), (52587924444, 0)], [(0, 13799756220747319), (0, 371359103938),
    (31409050, 0)], [(7265505259308, 0), (0, 302707012), (9761, 0)]], 2, 2⟩, 72057594037927936, 98533240275805,
    47083229107797, ⟨[], 0, 0⟩, 0, 0, 0, lc0⟩ 0 1376 68) (.out ⟨358, 16, 328, 1838, 16, 1611, ⟨[[(26848039324135424,
    0), (0, 2239549669698097), (37504054631, 0)], [(24315870704633234, 0), (0, 1716533135863), (0, 12527754)],
    [(19027716623479, 0), (0, 53632441), (0, 99661)]], 2, 2⟩, ⟨[[(0, 29296923663302656), (0, 3214921454307330),
    (54362569918, 0)], [(0, 13284061876609393), (0, 400627925142), (32459220, 0)], [(7632008707266, 0), (0,
    319632268), (9043, 0)]], 2, 2⟩, 72057594037927936, 98455380613622, 50348938199399, ⟨[], 0, 0⟩, 0, 0, 0, lc0⟩ 0 94
    9))))
theorem c3 : checkR job con0 false ⟨7, 9, 7, 9, 13, 17⟩ 1 30400 t3 537 21 320 13239 251 16000 = true := by decide +kernel

def t4 : CTree :=
  .sy (.sx (.sy (.sx (.out ⟨365, 16, 391, 1813, 16, 1587, ⟨[[(0, 31504878334738432), (0, 2369435316721471),
    (45329372331, 0)], [(22771417108508983, 0), (0, 1975597910402), (13938701, 0)], [(18577594703843, 0), (0,
    446245126), (0, 64793)]], 2, 2⟩, ⟨[[(8106579039748096, 0), (0, 3073277100018636), (47546892291, 0)], [(0,
    15025950081301961), (0, 292063361182), (27837448, 0)], [(6570257907023, 0), (0, 258973191), (10810, 0)]], 2, 2⟩,
    72057594037927936, 101835808406523, 38641581207734, ⟨[], 0, 0⟩, 0, 0, 0, lc0⟩ 2 1 40849369977363) (.leaf ⟨458,
    16, 379, 701, 16, 1876, ⟨[[(0, 25173088915435520), (0, 2377868321450961), (44387997183, 0), (313643, 0), (0,
    67)], [(23638353321857798, 0), (0, 1948438011576), (7740510, 0), (3435, 0)], [(19279849194444, 0), (0,
    361885057), (0, 74805), (7, 0)], [(10245088226, 0), (621896, 0), (0, 100)]], 3, 4⟩, ⟨[[(11084498440232960, 0),
    (0, 3172162357942789), (50095658572, 0), (0, 1444835), (57, 0)], [(0, 14868298201976698), (0, 323272968699),
    (29546196, 0), (0, 1168)], [(6992920052047, 0), (0, 282663153), (11040, 0)], [(2026495809, 0), (0, 128513), (0,
    1)]], 3, 4⟩, 72057594037927936, 398025118447, 310091152001, ⟨[[(17683605623273, 0), (5023588257, 0), (0, 714887),
    (0, 346), (0, 9)], [(3165924576, 0), (7023760, 0), (2543, 0), (19, 0)], [(0, 7980647), (0, 20663), (0, 61)],
    [(13904, 0), (0, 5)]], 3, 4⟩, 17592186044416, 20673181,
    4924775798213173098339819394815432831317776707769468840608047908951592050920569402229713450243401238416617809088387969423298052,
    lc0⟩)) (.sx (.leaf ⟨465, 16, 411, 689, 16, 1878, ⟨[[(0, 24063889976561664), (0, 2442678825829789), (47849576656,
    0), (73246, 0), (0, 59)], [(22897794937672012, 0), (0, 2059659733544), (19090114, 0), (2735, 0)],
    [(19276014683015, 0), (0, 532715649), (0, 58770), (6, 0)], [(11036232821, 0), (450105, 0), (0, 89)]], 3, 4⟩,
    ⟨[[(0, 8413085789904896), (0, 3114345314032323), (46914243563, 0), (0, 1274041), (63, 0)], [(0,
    15605699432404148), (0, 272691882114), (26799852, 0), (0, 1269)], [(6629894736059, 0), (0, 255410156), (10869,
    0)], [(1706589172, 0), (0, 131471), (3, 0)]], 3, 4⟩, 72057594037927936, 522278510209, 309612814868,
    ⟨[[(17522675633722, 0), (4816337754, 0), (0, 807214), (0, 513), (0, 13)], [(3292654599, 0), (7497428, 0), (4447,
    0), (30, 0)], [(0, 7904215), (0, 18455), (0, 46)], [(17087, 0), (44, 0)]], 3, 4⟩, 17592186044416, 14024421,
    4784770071757011886238218563202345492926514357793330423397349043678261038764934255185332348099917891414497722164395877159949526,
    lc0⟩) (.leaf ⟨454, 16, 390, 685, 16, 1892, ⟨[[(3391219235549184, 0), (0, 2400814148116478), (46060672647, 0),
    (188963, 0), (0, 65)], [(23320363186122304, 0), (0, 1994428575671), (12962905, 0), (3102, 0)], [(19633925714276,
    0), (0, 444674026), (0, 67112), (6, 0)], [(10838319706, 0), (540227, 0), (0, 95)]], 3, 4⟩, ⟨[[(1454079292080128,
    0), (0, 3149564047905957), (48417449262, 0), (0, 1337675), (61, 0)], [(0, 15151417633020706), (0, 297035108258),
    (27931148, 0), (0, 1296)], [(6912274545004, 0), (0, 273825426), (11202, 0)], [(1978607804, 0), (0, 129596), (1,
    0)]], 3, 4⟩, 72057594037927936, 477096420797, 312832468230, ⟨[[(17520935208067, 0), (4891123300, 0), (0, 742958),
    (87, 0), (0, 6)], [(3188380722, 0), (7286491, 0), (3019, 0), (11, 0)], [(0, 7902657), (0, 18079), (0, 35)],
    [(16713, 0), (29, 0)]], 3, 4⟩, 17592186044416, 15080220,
    2028838456025558059510088030623371577902737133148462581843496690618429332880366784664303137013994726724987856759605713039715305,
    lc0⟩))) (.sy (.sx (.leaf ⟨449, 16, 361, 698, 16, 1891, ⟨[[(35926713777389568, 0), (0, 2343444958567458),
    (42456550581, 0), (447548, 0), (0, 72)], [(24110383198749928, 0), (0, 1881503143334), (862983, 0), (3823, 0)],
    [(19610096950253, 0), (0, 262258951), (0, 83965), (7, 0)], [(10012433658, 0), (718099, 0), (0, 106)]], 3, 4⟩,
    ⟨[[(14358143522144256, 0), (0, 3211724274199189), (51766577183, 0), (0, 1505392), (54, 0)], [(0,
    14383813986860066), (0, 350468831476), (30707558, 0), (0, 1153)], [(7322473770651, 0), (0, 300956066), (10866,
    0)], [(2300862504, 0), (0, 124860), (0, 3)]], 3, 4⟩, 72057594037927936, 342195456919, 317333375650,
    ⟨[[(17680884483029, 0), (5085015528, 0), (0, 679284), (26, 0), (0, 5)], [(3048624035, 0), (6715266, 0), (750, 0),
    (3, 0)], [(0, 8080165), (0, 22517), (0, 63)], [(11260, 0), (0, 47)]], 3, 4⟩, 17592186044416, 26973160,
    3371387238071561959438702755838486669105385794948791942014521665762733767841063662904404210555222062691171594599682700558445852,
    lc0⟩) (.leaf ⟨441, 16, 343, 695, 16, 1906, ⟨[[(0, 6894944977330176), (0, 2302066861179659), (40225651969, 0),
    (589699, 0), (0, 77)], [(24524042856517150, 0), (0, 1804783971556), (0, 6433160), (4209, 0)], [(19844410663128,
    0), (0, 155111202), (0, 93132), (7, 0)], [(9720299820, 0), (812752, 0), (0, 111)]], 3, 4⟩, ⟨[[(33893608867241984,
    0), (0, 3252581448715561), (53496225896, 0), (0, 1565267), (51, 0)], [(0, 13865212148954493), (0, 379386609672),
    (31852714, 0), (0, 1117)], [(7689160243915, 0), (0, 318872371), (10478, 0), (1, 0)], [(2579228318, 0), (0,
    120530), (0, 5)]], 3, 4⟩, 72057594037927936, 288400645943, 320049209846, ⟨[[(17681297259830, 0), (5152049658, 0),
    (0, 674460), (107, 0), (0, 2)], [(2904127960, 0), (6276012, 0), (0, 1304), (0, 7)], [(0, 8316589), (0, 27116),
    (0, 83)], [(5936, 0), (0, 116), (0, 1)]], 3, 4⟩, 17592186044416, 37758236,
    4927878735132128331000984486518127959639638208738705595656833672015087593508972736778340302475496277961526895892128188773544459,
    lc0⟩)) (.leaf ⟨296, 16, 243, 531, 16, 1494, ⟨[[(22172917295177728, 0), (0, 1575189244909645), (29026748490, 0),
    (256110, 0), (0, 49)], [(32306954175726635, 0), (0, 2546255288989), (4122503, 0), (4947, 0)], [(54159095977531,
    0), (0, 809728525), (0, 215980), (18, 0)], [(56505882991, 0), (3647668, 0), (0, 557)]], 3, 4⟩, ⟨[[(0,
    16876813566091264), (0, 2502683883454570), (39657149571, 0), (0, 1120718), (45, 0)], [(0, 22513226245822400), (0,
    525998154093), (46351701, 0), (0, 2033)], [(23130533909320, 0), (0, 940849419), (35520, 0), (1, 0)],
    [(14966060854, 0), (0, 787864), (0, 6)]], 3, 4⟩, 72057594037927936, 4121733175936, 3879438398489,
    ⟨[[(17521446011085, 0), (6400786217, 0), (0, 1132775), (745, 0), (0, 6)], [(4483841871, 0), (13231786, 0), (3863,
    0), (0, 5)], [(0, 17471221), (0, 53805), (0, 136), (0, 1)], [(49667, 0), (0, 22), (0, 1)]], 3, 4⟩,
    17592186044416, 237155584,
    2609785358424361803974667258892557857168380373784784119050328062532850734661833544113493915674670339694019043106121500372006036,
    lc0⟩))) (.sx (.sy (.leaf ⟨312, 16, 282, 515, 16, 1458, ⟨[[(0, 20575747988533248), (0, 1672566313438537),
    (33161284919, 0), (7119, 0), (0, 40)], [(31125293047406671, 0), (0, 2830556131795), (28379076, 0), (3507, 0)],
    [(54093886875441, 0), (0, 1544261785), (0, 151749), (16, 0)], [(62926877959, 0), (2289724, 0), (0, 475)]], 3, 4⟩,
    ⟨[[(0, 30841215970025472), (0, 2386109231412431), (35415348002, 0), (0, 912090), (49, 0)], [(0,
    24005896804177819), (0, 399377395645), (39241000, 0), (0, 2101)], [(20532629836736, 0), (0, 785125491), (32532,
    0), (0, 2)], [(10996596840, 0), (0, 787327), (29, 0)]], 3, 4⟩, 72057594037927936, 6139617260875, 3774147645898,
    ⟨[[(17365935748710, 0), (6157598557, 0), (0, 1395233), (519, 0), (0, 17)], [(4753334038, 0), (14394407, 0),
    (8846, 0), (34, 0), (1, 0)], [(0, 16943509), (0, 49617), (0, 86), (0, 1)], [(55208, 0), (192, 0)]], 3, 4⟩,
    17592186044416, 121585247,
    2597642251414065034796927296263433068500672773333978217323967077962536320898456475454842443555082096786746164338165433991068855,
    lc0⟩) (.leaf ⟨311, 16, 292, 500, 16, 1465, ⟨[[(0, 12765740917366784), (0, 1697417758330157), (34286870110, 0),
    (0, 72970), (0, 38)], [(30765544609392841, 0), (0, 2898839662240), (34383739, 0), (3007, 0)], [(55171916752156,
    0), (0, 1744216990), (0, 132372), (16, 0)], [(66228481344, 0), (1900473, 0), (0, 445)]], 3, 4⟩,
    ⟨[[(33318861630611456, 0), (0, 2362505293953439), (34279907731, 0), (0, 817365), (49, 0)], [(0,
    24312934446699742), (0, 363321253059), (36201336, 0), (0, 2166)], [(20243188645437, 0), (0, 757528972), (29542,
    0), (0, 3)], [(10660938052, 0), (0, 753681), (46, 0)]], 3, 4⟩, 72057594037927936, 6992313455411, 3792849965583,
    ⟨[[(17203670428205, 0), (6006955454, 0), (0, 1530524), (1137, 0), (0, 9)], [(4735246318, 0), (14696067, 0),
    (8892, 0), (12, 0)], [(0, 16861191), (0, 50715), (0, 55)], [(55336, 0), (211, 0)]], 3, 4⟩, 17592186044416,
    114368943,
    2578081591890028932972944798366168612512520794118617652277290807015298341281737961472978396269061103880631849962926164541967446,
    lc0⟩)) (.sy (.leaf ⟨295, 16, 251, 516, 16, 1500, ⟨[[(0, 12040452720246784), (0, 1596770426756136), (30305252327,
    0), (165206, 0), (0, 48)], [(32051956142498450, 0), (0, 2622099661187), (11489313, 0), (4493, 0)],
    [(55468410401909, 0), (0, 1046180646), (0, 195071), (18, 0)], [(60116252963, 0), (3212111, 0), (0, 531)]], 3, 4⟩,
    ⟨[[(0, 33914094923374592), (0, 2473586418109288), (38192078928, 0), (0, 1031146), (48, 0)], [(0,
    22857289433263116), (0, 482981877569), (43310934, 0), (0, 2236)], [(22758281863794, 0), (0, 908459762), (36155,
    0)], [(14629074738, 0), (0, 787968), (12, 0)]], 3, 4⟩, 72057594037927936, 4996807534518, 3904261284031,
    ⟨[[(17365728418687, 0), (6273367336, 0), (0, 1224406), (1069, 0), (0, 3)], [(4474521570, 0), (13639149, 0),
    (6101, 0), (0, 6)], [(0, 17181851), (0, 48646), (0, 78)], [(56107, 0), (122, 0)]], 3, 4⟩, 17592186044416,
    189099093,
    1727218839283208791499756021982265998000152738591368930722953638586944924954073430254122483511063057680381057441702071227070804,
    lc0⟩) (.leaf ⟨293, 16, 259, 501, 16, 1507, ⟨[[(0, 10023556315123712), (0, 1616163059327954), (31454584459, 0),
    (74246, 0), (0, 46)], [(31718838888893288, 0), (0, 2690424532868), (18359592, 0), (4001, 0)], [(56646014596871,
    0), (0, 1267733722), (0, 173876), (18, 0)], [(63561776546, 0), (2786524, 0), (0, 503)]], 3, 4⟩, ⟨[[(0,
    17687443464278016), (0, 2447364704099497), (36883563468, 0), (0, 938182), (49, 0)], [(0, 23196868905080192), (0,
    443286333995), (40016194, 0), (0, 2387)], [(22415418520018, 0), (0, 876574159), (35395, 0), (0, 1)],
    [(14304597043, 0), (0, 769912), (31, 0)]], 3, 4⟩, 72057594037927936, 5856477008260, 3921609596173,
    ⟨[[(17207728310476, 0), (6134022271, 0), (0, 1350476), (1249, 0), (0, 1)], [(4479782255, 0), (13988923, 0),
    (7545, 0), (0, 7)], [(0, 17195861), (0, 48690), (0, 51)], [(58168, 0), (194, 0)]], 3, 4⟩, 17592186044416,
    167409446,
    1902566624274012403682462691839205793394367494197372221189141617178917791744369533323591205932223198843371865714844828528917157,
    lc0⟩)))
theorem c4 : checkR job con0 false ⟨7, 9, 7, 9, 13, 17⟩ 1 30400 t4 537 21 320 13741 251 16000 = true := by decide +kernel

def t5 : CTree :=
  .sy (.out ⟨86, 16, 67, 452, 16, 393, ⟨[[(20501557849075712, 0), (0, 2017803162445574), (103740636139, 0)],
    [(24397366777821248, 0), (0, 5317596808276), (0, 682479414)], [(70446103319588, 0), (6677570473, 0), (0,
    8391259)]], 2, 2⟩, ⟨[[(19895097603948544, 0), (0, 3269594475942380), (241178419943, 0)], [(0, 10943805835979176),
    (0, 2042981081824), (548055676, 0)], [(34365544476762, 0), (0, 5588717017), (145971, 0)]], 2, 2⟩,
    72057594037927936, 1711709661741096, 963326142682020, ⟨[], 0, 0⟩, 0, 0, 0, lc0⟩ 0 90 26) (.sx (.sy (.sy (.out
    ⟨230, 16, 207, 1466, 16, 1309, ⟨[[(1808847232647168, 0), (0, 1458153618110215), (23791075221, 0)],
    [(32759349802103790, 0), (0, 2189270053522), (0, 23602748)], [(52395937939420, 0), (44853318, 0), (0, 279198)]],
    2, 2⟩, ⟨[[(0, 11732188065284096), (0, 2588773926677511), (43867768014, 0)], [(0, 20320053114289268), (0,
    664951165255), (52295494, 0)], [(25947335431675, 0), (0, 1076627755), (29519, 0)]], 2, 2⟩, 72057594037927936,
    473826537414500, 200179833644682, ⟨[], 0, 0⟩, 0, 0, 0, lc0⟩ 0 119 13) (.sx (.leaf ⟨429, 16, 335, 677, 16, 1939,
    ⟨[[(1605824157814784, 0), (0, 2283069840712887), (39874943370, 0), (594438, 0), (0, 81)], [(24738546438249582,
    0), (0, 1782090783633), (0, 7739854), (4272, 0)], [(20541345160062, 0), (0, 142875445), (0, 93998), (7, 0)],
    [(10094521335, 0), (816658, 0), (0, 111)]], 3, 4⟩, ⟨[[(0, 35470403933986816), (0, 3270875907305280),
    (53409665936, 0), (0, 1536143), (54, 0)], [(0, 13633354171034850), (0, 381298470496), (31509233, 0), (0, 1264)],
    [(8001706543359, 0), (0, 328864938), (11093, 0), (1, 0)], [(2827261689, 0), (0, 121586), (0, 4)]], 3, 4⟩,
    72057594037927936, 315376041585, 324892473058, ⟨[[(17523812829906, 0), (5092983697, 0), (0, 668822), (279, 0),
    (0, 1)], [(2810174830, 0), (6450765, 0), (0, 259), (0, 9)], [(0, 7999664), (0, 23088), (0, 62)], [(10317, 0), (0,
    77), (0, 1)]], 3, 4⟩, 17592186044416, 33865084,
    2911412109900962727299523771251126362702887128308589026299911313203797239867871519263185317751785954790653988708212517293202194,
    lc0⟩) (.out ⟨340, 16, 313, 1841, 16, 1668, ⟨[[(0, 23086066231631872), (0, 2203245933450838), (36789772424, 0)],
    [(24776322998773830, 0), (0, 1672009030467), (0, 15175213)], [(20392203214799, 0), (0, 29284891), (0, 101514)]],
    2, 2⟩, ⟨[[(20123214794424320, 0), (0, 3252214098089035), (54164979347, 0)], [(0, 12806911340349612), (0,
    405164498793), (32070682, 0)], [(8284726632383, 0), (0, 340182095), (10402, 0)]], 2, 2⟩, 72057594037927936,
    105717133737116, 54346633202642, ⟨[], 0, 0⟩, 0, 0, 0, lc0⟩ 0 114 10))) (.sy (.leaf ⟨281, 16, 224, 519, 16, 1549,
    ⟨[[(4183305248370688, 0), (0, 1524700413380237), (27131826236, 0), (346334, 0), (0, 55)], [(33051970080072021,
    0), (0, 2401167430966), (0, 7062710), (5509, 0)], [(56464379679985, 0), (0, 495229633), (0, 240418), (20, 0)],
    [(56751862390, 0), (4129423, 0), (0, 580)]], 3, 4⟩, ⟨[[(14681475545153536, 0), (0, 2577052768681300),
    (41384562470, 0), (0, 1161114), (45, 0)], [(0, 21543826095099139), (0, 581818116139), (47890175, 0), (0, 2253)],
    [(25620911714605, 0), (0, 1038777166), (37529, 0), (1, 0)], [(18524805214, 0), (0, 781234), (0, 10)]], 3, 4⟩,
    72057594037927936, 3744831183684, 4007832566385, ⟨[[(17360488273533, 0), (6349369506, 0), (0, 1099966), (773,
    0)], [(4137657432, 0), (12701806, 0), (3093, 0), (0, 22)], [(0, 17376160), (0, 53555), (0, 140)], [(50439, 0),
    (0, 82), (0, 2)]], 3, 4⟩, 17592186044416, 329926589,
    2162725566042633342669126435384797393304726896730282618870370411495499420919615442563706372692449912484485287531497212952517156,
    lc0⟩) (.leaf ⟨278, 16, 230, 504, 16, 1556, ⟨[[(0, 16009273275703296), (0, 1537330031507786), (28309992450, 0),
    (244894, 0), (0, 54)], [(32698485334518668, 0), (0, 2468650398065), (784585, 0), (5017, 0)], [(57661855459861,
    0), (0, 741395571), (0, 217321), (19, 0)], [(60254068459, 0), (3663755, 0), (0, 553)]], 3, 4⟩, ⟨[[(0,
    24580664659288064), (0, 2547819310048648), (39884621756, 0), (0, 1073244), (47, 0)], [(0, 21922747165501050), (0,
    537920169644), (44520143, 0), (0, 2490)], [(25222530197400, 0), (0, 1004730971), (39239, 0), (1, 0)],
    [(18213659520, 0), (0, 785048), (10, 0)]], 3, 4⟩, 72057594037927936, 4593242239105, 4032465929892,
    ⟨[[(17208545288221, 0), (6225812334, 0), (0, 1183625), (939, 0)], [(4163551462, 0), (13176768, 0), (6029, 0), (0,
    14)], [(0, 17329848), (0, 47853), (0, 78)], [(59279, 0), (110, 0), (0, 1)]], 3, 4⟩, 17592186044416, 268723925,
    1551151729815317095309671874581113257925409077120971971514925300243269361550205794648473204723585102872089130199327828138657489,
    lc0⟩))) (.sy (.out ⟨167, 16, 141, 921, 16, 834, ⟨[[(0, 4744619887071232), (0, 2095654826697427), (62289485856,
    0)], [(25115749281537588, 0), (0, 2970321997970), (0, 121387407)], [(39962496758030, 0), (804811167, 0), (0,
    942719)]], 2, 2⟩, ⟨[[(763901213450240, 0), (0, 3307655905462977), (114954436577, 0)], [(0, 11610201506086156),
    (0, 932550046662), (136222840, 0)], [(17979936072850, 0), (0, 1461674447), (64937, 0)]], 2, 2⟩,
    72057594037927936, 428488826901351, 243356007791366, ⟨[], 0, 0⟩, 0, 0, 0, lc0⟩ 0 57 11) (.sy (.out ⟨217, 16, 196,
    1483, 16, 1368, ⟨[[(266969018990592, 0), (0, 1422829425719019), (23070350670, 0)], [(33337226145873932, 0), (0,
    2116088669774), (0, 26704359)], [(55795231047648, 0), (101964356, 0), (0, 280341)]], 2, 2⟩, ⟨[[(0,
    18942229486370816), (0, 2644051104925485), (44139930093, 0)], [(0, 19589030153225911), (0, 683643199251),
    (51741007, 0)], [(28606447385600, 0), (0, 1151840500), (35220, 0)]], 2, 2⟩, 72057594037927936, 507221412660337,
    232237951973712, ⟨[], 0, 0⟩, 0, 0, 0, lc0⟩ 0 157 17) (.sx (.leaf ⟨406, 16, 319, 639, 16, 2010,
    ⟨[[(16503506165723136, 0), (0, 2240913734216169), (38975069531, 0), (586409, 0), (0, 89)], [(25320980062456311,
    0), (0, 1736089371253), (0, 10148433), (4374, 0)], [(22008015584897, 0), (0, 120323162), (0, 94822), (8, 0)],
    [(10854754525, 0), (815678, 0), (0, 110)]], 3, 4⟩, ⟨[[(0, 22136785174953984), (0, 3314413994807584),
    (53383971631, 0), (0, 1486457), (57, 0)], [(0, 13096632922325794), (0, 389818513350), (30358315, 0), (0, 1560)],
    [(8740195633464, 0), (0, 348179403), (12680, 0), (1, 0)], [(3350864168, 0), (0, 123755), (0, 2)]], 3, 4⟩,
    72057594037927936, 350953850283, 330316861363, ⟨[[(17206371962123, 0), (4978180670, 0), (0, 679212), (306, 0)],
    [(2579968750, 0), (6551322, 0), (1596, 0), (0, 7)], [(0, 7615338), (0, 17977), (0, 38)], [(16047, 0), (0, 16)]],
    3, 4⟩, 17592186044416, 28792300,
    1946843811455846908838345174500555600708844050316306352914000072324035820337107405041984464712439648470530943641252316992310657,
    lc0⟩) (.out ⟨321, 16, 297, 1849, 16, 1731, ⟨[[(13417979295457280, 0), (0, 2154394146091724), (35726793789, 0)],
    [(25349738706178280, 0), (0, 1621535908349), (0, 17423301)], [(21776648805009, 0), (0, 8630273), (0, 101782)]],
    2, 2⟩, ⟨[[(32368714244734976, 0), (0, 3299338639973764), (54154827317, 0)], [(0, 12225415471850485), (0,
    415674487827), (31109236, 0)], [(9090845284102, 0), (0, 360070344), (12235, 0)]], 2, 2⟩, 72057594037927936,
    112202545252208, 58763814351351, ⟨[], 0, 0⟩, 0, 0, 0, lc0⟩ 0 149 12)))))
theorem c5 : checkR job con0 false ⟨7, 9, 7, 9, 13, 17⟩ 1 30400 t5 579 21 320 6745 251 8000 = true := by decide +kernel

def t6 : CTree :=
  .sx (.sx (.sy (.out ⟨87, 16, 57, 462, 16, 406, ⟨[[(4308817306046464, 0), (0, 1891058414283022), (49102804846, 0)],
    [(26239652527443919, 0), (0, 3633491564067), (0, 1339221468)], [(70319471401203, 0), (16287933874, 0), (0,
    11091825)]], 2, 2⟩, ⟨[[(0, 30724379397971968), (0, 3476846128039031), (272862759795, 0)], [(0, 8022101399870827),
    (0, 2613167449505), (553820139, 0)], [(42962328262528, 0), (0, 6115621011), (0, 481866)]], 2, 2⟩,
    72057594037927936, 1748601908174810, 1136648549770488, ⟨[], 0, 0⟩, 0, 0, 0, lc0⟩ 0 17 9) (.out ⟨78, 16, 60, 458,
    16, 424, ⟨[[(790324548903936, 0), (0, 1915432542272122), (94584294948, 0)], [(25404301234574872, 0), (0,
    4895673930108), (0, 753310600)], [(79973362978488, 0), (7123961087, 0), (0, 8372796)]], 2, 2⟩, ⟨[[(0,
    22608207659458560), (0, 3367195599491632), (240926904958, 0)], [(0, 9600553678139106), (0, 2145470258063),
    (562177271, 0)], [(41619323338021, 0), (0, 6399772041), (409164, 0)]], 2, 2⟩, 72057594037927936,
    1910146706849680, 1129278625633324, ⟨[], 0, 0⟩, 0, 0, 0, lc0⟩ 0 120 36)) (.out ⟨60, 16, 35, 248, 16, 226, ⟨[[(0,
    25400203605318144), (0, 2469665840302772), (25755913679, 0)], [(19600569776131215, 0), (0, 3393236110982), (0,
    4867517750)], [(51867412027476, 0), (29935909258, 0), (0, 34133747)]], 2, 2⟩, ⟨[[(8762352620175360, 0), (0,
    3845722519365825), (611746346077, 0)], [(0, 2673504817286875), (0, 3191178200742), (1194483959, 0)],
    [(27933560218693, 0), (0, 7140818771), (0, 1394974)]], 2, 2⟩, 72057594037927936, 6193846187098675,
    2740887171260749, ⟨[], 0, 0⟩, 0, 0, 0, lc0⟩ 0 16 11)) (.out ⟨43, 16, 19, 220, 16, 201, ⟨[[(20578521895533056, 0),
    (0, 1368924782952114), (0, 239262316102)], [(28652484222629547, 0), (2708104740475, 0), (0, 11225161554)],
    [(115724041807567, 0), (142767391507, 0), (0, 114982241)]], 2, 2⟩, ⟨[[(6219210080643072, 0), (0,
    3623736094267824), (603486139483, 0)], [(2328644222778708, 0), (0, 7207674330159), (1569934391, 0)],
    [(124168041737526, 0), (0, 22392594127), (0, 12243890)]], 2, 2⟩, 72057594037927936, 12191481261459679,
    4954867043451756, ⟨[], 0, 0⟩, 0, 0, 0, lc0⟩ 0 10 13)
theorem c6 : checkR job con0 false ⟨7, 9, 7, 9, 13, 17⟩ 1 30400 t6 171 21 80 6745 251 8000 = true := by decide +kernel

def t7 : CTree :=
  .sx (.out ⟨33, 16, 129, 119, 16, 87, ⟨[[(0, 21964748953061888), (0, 1940231201056632), (326475119131, 0)],
    [(15947563393321310, 0), (0, 32112256628112), (5385998601, 0)], [(0, 150701757944518), (0, 8324214557),
    (23806867, 0)]], 2, 2⟩, ⟨[[(3111459230843904, 0), (0, 2145604102503021), (123553720879, 0)], [(0,
    21727016148442353), (0, 6011325467027), (0, 3482077790)], [(94504356132893, 0), (43147769213, 0), (0,
    61281792)]], 2, 2⟩, 72057594037927936, 25465761823311218, 27441494601367857, ⟨[], 0, 0⟩, 0, 0, 0, lc0⟩ 2 1
    638066367889089) (.sy (.out ⟨60, 16, 171, 189, 16, 146, ⟨[[(0, 8678606598131200), (0, 2297611446977649),
    (256722303275, 0)], [(16311199751242633, 0), (0, 23016678792451), (4033722293, 0)], [(0, 62016123946457), (0,
    11091331792), (24412655, 0)]], 2, 2⟩, ⟨[[(0, 27256167115184128), (0, 1969578839387411), (77328701314, 0)], [(0,
    25549713349743080), (0, 1948098320816), (179304603, 0)], [(88779977063167, 0), (26132118978, 0), (8820705, 0)]],
    2, 2⟩, 72057594037927936, 9276918028161186, 6300465027621797, ⟨[], 0, 0⟩, 0, 0, 0, lc0⟩ 2 1 466223812604802)
    (.out ⟨62, 16, 236, 164, 16, 137, ⟨[[(0, 24231975214834176), (0, 2875531180716199), (203538374282, 0)],
    [(7952780657978018, 0), (0, 26194433993643), (5859137151, 0)], [(0, 80895302181593), (46719629509, 0),
    (113006495, 0)]], 2, 2⟩, ⟨[[(11293153168625664, 0), (0, 1887576236376899), (0, 243298779668)], [(0,
    25049846321807125), (0, 3077044100888), (0, 3675292940)], [(101016594056434, 0), (56275840091, 0), (71693234,
    0)]], 2, 2⟩, 72057594037927936, 17183415487169622, 16548655685941010, ⟨[], 0, 0⟩, 0, 0, 0, lc0⟩ 2 1
    294675013144640))
theorem c7 : checkR job con0 false ⟨7, 9, 7, 9, 13, 17⟩ 1 30400 t7 45 21 80 3749 251 4000 = true := by decide +kernel

def t8 : CTree :=
  .out ⟨57, 16, 141, 201, 16, 167, ⟨[[(0, 32172129184363008), (0, 2721054326537214), (386592083222, 0)],
    [(12123986711931784, 0), (0, 20794355719537), (4930176619, 0)], [(16944433016534, 0), (0, 38581472506),
    (15188508, 0)]], 2, 2⟩, ⟨[[(0, 10984217045127168), (0, 2302843952262033), (118716783882, 0)], [(0,
    22456379481395706), (0, 376263199958), (1224196200, 0)], [(62936970615670, 0), (13812393047, 0), (9612417, 0)]],
    2, 2⟩, 72057594037927936, 6721831122434150, 5464776899653479, ⟨[], 0, 0⟩, 0, 0, 0, lc0⟩ 2 1 271231168538601
theorem c8 : checkR job con0 false ⟨7, 9, 7, 9, 13, 17⟩ 1 30400 t8 153 21 160 7247 251 8000 = true := by decide +kernel

def t9 : CTree :=
  .sy (.out ⟨158, 16, 493, 324, 16, 283, ⟨[[(9242231507927040, 0), (0, 2170983861155267), (81820739441, 0)],
    [(21362213845599320, 0), (0, 15224184716209), (1350383732, 0)], [(22287812448138, 0), (0, 24890442594), (4035033,
    0)]], 2, 2⟩, ⟨[[(0, 32889571920699392), (0, 962956469532897), (0, 6157108570)], [(0, 38009865396328814),
    (273382779859, 0), (232478119, 0)], [(116759995533504, 0), (11499095155, 0), (4043466, 0)]], 2, 2⟩,
    72057594037927936, 14524645975571654, 5338380661406270, ⟨[], 0, 0⟩, 0, 0, 0, lc0⟩ 2 1 174735139075557) (.out
    ⟨173, 16, 595, 315, 16, 281, ⟨[[(0, 4551126727655424), (0, 2520628012140140), (99793791872, 0)],
    [(16993873364274551, 0), (0, 16582048003494), (1967337118, 0)], [(13137828459230, 0), (0, 24570428946), (6160801,
    0)]], 2, 2⟩, ⟨[[(0, 31858514913255424), (0, 969725174127535), (0, 22091447183)], [(0, 37540752629429589),
    (540650599241, 0), (310695585, 0)], [(122862527763042, 0), (16588106188, 0), (6443859, 0)]], 2, 2⟩,
    72057594037927936, 15323293711367831, 6087638051689974, ⟨[], 0, 0⟩, 0, 0, 0, lc0⟩ 2 1 134848383531304)
theorem c9 : checkR job con0 false ⟨7, 9, 7, 9, 13, 17⟩ 1 30400 t9 153 21 160 15247 251 16000 = true := by decide +kernel

def t10 : CTree :=
  .sy (.out ⟨236, 16, 908, 492, 16, 441, ⟨[[(0, 30085510258143232), (0, 3463124241219899), (118689026159, 0)],
    [(7250948915944751, 0), (0, 10873700663619), (1716926087, 0)], [(0, 12013586911156), (2446321465, 0), (5850463,
    0)]], 2, 2⟩, ⟨[[(0, 18685706275708928), (0, 1584915296734972), (0, 78135606299)], [(0, 31537671870438589),
    (254101096860, 0), (154202509, 0)], [(60242640631662, 0), (12024762722, 0), (4721397, 0)]], 2, 2⟩,
    72057594037927936, 2663757795497431, 1859628186752908, ⟨[], 0, 0⟩, 0, 0, 0, lc0⟩ 2 1 132584463005992) (.out ⟨244,
    16, 1046, 466, 16, 428, ⟨[[(4859316578961408, 0), (0, 3854091189108989), (132954960133, 0)], [(2609726378253310,
    0), (0, 10252482124531), (2592592338, 0)], [(0, 10491423942636), (11039219973, 0), (9845970, 0)]], 2, 2⟩,
    ⟨[[(14672739278901248, 0), (0, 1641052818815139), (0, 132642573687)], [(0, 30443224485499825), (417105874485, 0),
    (193324863, 0)], [(65657016354523, 0), (17361620571, 0), (6890552, 0)]], 2, 2⟩, 72057594037927936,
    2534839134982581, 2271992631372632, ⟨[], 0, 0⟩, 0, 0, 0, lc0⟩ 2 1 86380892486485)
theorem c10 : checkR job con0 false ⟨7, 9, 7, 9, 13, 17⟩ 1 30400 t10 285 21 320 15749 251 16000 = true := by decide +kernel

def t11 : CTree :=
  .sx (.out ⟨243, 16, 926, 747, 16, 688, ⟨[[(29475754620254208, 0), (0, 3883085317184107), (180827856495, 0)],
    [(3625254325296380, 0), (0, 5683906871860), (1000260892, 0)], [(1833606508865, 0), (0, 2976325898), (438774,
    0)]], 2, 2⟩, ⟨[[(0, 10137987125870592), (0, 2443241269371648), (0, 107597657140)], [(0, 21935977234509032),
    (703863724044, 0), (323066158, 0)], [(18837896249310, 0), (3252992536, 0), (1337336, 0)]], 2, 2⟩,
    72057594037927936, 495174495130558, 1068353326306770, ⟨[], 0, 0⟩, 0, 0, 0, lc0⟩ 2 1 72107269074930) (.sy (.out
    ⟨428, 16, 1567, 1089, 16, 1014, ⟨[[(0, 10794879391809536), (0, 3540082586157988), (92081459817, 0)],
    [(7943325803824418, 0), (0, 5322581639923), (398451341, 0)], [(10112941006299, 0), (0, 4727674163), (0,
    128759)]], 2, 2⟩, ⟨[[(0, 21353748265172992), (0, 1759390746135592), (0, 28196539088)], [(0, 30343165220609707),
    (611147677108, 0), (140245006, 0)], [(23097201930046, 0), (1393378202, 0), (298075, 0)]], 2, 2⟩,
    72057594037927936, 624427890515520, 432640807434147, ⟨[], 0, 0⟩, 0, 0, 0, lc0⟩ 2 1 45570206607814) (.sx (.out
    ⟨476, 16, 1852, 1517, 16, 1423, ⟨[[(0, 568633168465920), (0, 4011714450709678), (109023512834, 0)],
    [(3090188162316655, 0), (0, 2836353825613), (269785535, 0)], [(1862125166898, 0), (0, 1258985265), (0, 23551)]],
    2, 2⟩, ⟨[[(0, 24194356876132352), (0, 2527907630170057), (0, 58737243466)], [(0, 21409327050889374),
    (510152220984, 0), (112637006, 0)], [(8763007208024, 0), (689867808, 0), (146792, 0)]], 2, 2⟩, 72057594037927936,
    138836189512524, 270870837710696, ⟨[], 0, 0⟩, 0, 0, 0, lc0⟩ 2 1 34212892029156) (.sy (.out ⟨870, 16, 3321, 2188,
    16, 2064, ⟨[[(0, 12477271626326016), (0, 3732755055397158), (53123046726, 0)], [(6557837226474602, 0), (0,
    2710383280057), (115127334, 0)], [(5236669360649, 0), (0, 1437966637), (0, 32860)]], 2, 2⟩,
    ⟨[[(26696266837426176, 0), (0, 1807574569452966), (0, 17907587942)], [(0, 30131814961944326), (384945844353, 0),
    (42779556, 0)], [(11511305144153, 0), (359100597, 0), (39397, 0)]], 2, 2⟩, 72057594037927936, 152804394162466,
    114252070977994, ⟨[], 0, 0⟩, 0, 0, 0, lc0⟩ 2 1 20875441537368) (.sx (.out ⟨941, 16, 3706, 3058, 16, 2895,
    ⟨[[(891547318566912, 0), (0, 4074887116358610), (59670481379, 0)], [(2865872374676900, 0), (0, 1428831387828),
    (69106491, 0)], [(1150562628887, 0), (0, 387482445), (0, 8599)]], 2, 2⟩, ⟨[[(0, 12230072316788736), (0,
    2569076043033675), (0, 30369475809)], [(0, 21162755567205925), (295404603777, 0), (32277486, 0)],
    [(4201340301849, 0), (151736559, 0), (16522, 0)]], 2, 2⟩, 72057594037927936, 37222807023563, 67493690080576, ⟨[],
    0, 0⟩, 0, 0, 0, lc0⟩ 2 1 15573849297520) (.sy (.out ⟨1755, 16, 6845, 4389, 16, 4166, ⟨[[(0, 34314159245885440),
    (0, 3833686829459620), (28652655793, 0)], [(5829607872608245, 0), (0, 1367091051456), (30977219, 0)],
    [(2626757814728, 0), (0, 398310170), (0, 5434)]], 2, 2⟩, ⟨[[(8027623086161920, 0), (0, 1834253154706980), (0,
    10008051302)], [(0, 30012599066432043), (215053404290, 0), (11798337, 0)], [(5742448611926, 0), (90599373, 0),
    (5031, 0)]], 2, 2⟩, 72057594037927936, 37621348430977, 29358557898459, ⟨[], 0, 0⟩, 0, 0, 0, lc0⟩ 2 1
    9330013709012) (.leaf ⟨3508, 16, 7123, 1458, 16, 4884, ⟨[[(0, 27851635850051584), (0, 3959206890440247),
    (30307289801, 0), (335396, 0), (9, 0)], [(5360433371187550, 0), (0, 1389692347849), (33354671, 0), (763, 0)],
    [(2523913889260, 0), (0, 420335122), (0, 5997)], [(3354235886, 0), (0, 361298), (0, 14)]], 3, 4⟩, ⟨[[(0,
    23059965959323648), (0, 1880572422430538), (0, 11068948894), (0, 589130), (0, 14)], [(0, 30482690352088131),
    (231596629991, 0), (12606719, 0), (394, 0)], [(5901721357791, 0), (97656009, 0), (5424, 0)], [(0, 2272054475),
    (0, 132524), (0, 6)]], 3, 4⟩, 72057594037927936, 329799250994, 73870144109, ⟨[[(15233188371450, 0), (193946743,
    0), (85244, 0), (834, 0), (0, 8)], [(1015404241, 0), (856816, 0), (0, 169), (6, 0)], [(0, 432301), (0, 110), (0,
    3)], [(174, 0)]], 3, 4⟩, 17592186044416, 208427,
    3823710541272475814633978556365000634392629775245814624000025330858046455514062949220495428093279900162463894970965399009683726,
    lc0⟩))))))
theorem c11 : checkR job con0 false ⟨7, 9, 7, 9, 13, 17⟩ 1 30400 t11 327 21 320 31247 251 32000 = true := by decide +kernel

def t12 : CTree :=
  .sx (.sy (.out ⟨470, 16, 1946, 1019, 16, 955, ⟨[[(0, 25161817760477184), (0, 3932961533202603), (100870728864, 0)],
    [(3440657406046163, 0), (0, 5093463248448), (648003795, 0)], [(1639676038409, 0), (0, 2736514131), (293171, 0)]],
    2, 2⟩, ⟨[[(0, 26239838164500480), (0, 1767164721417580), (0, 58566759455)], [(0, 30011493047005275),
    (681903229093, 0), (146352947, 0)], [(28142086014280, 0), (3080389926, 0), (636126, 0)]], 2, 2⟩,
    72057594037927936, 469279158011916, 563782250969874, ⟨[], 0, 0⟩, 0, 0, 0, lc0⟩ 2 1 40489908275450) (.sx (.out
    ⟨495, 16, 2176, 1398, 16, 1321, ⟨[[(0, 17967188481761280), (0, 4230397277345375), (109911986926, 0)],
    [(589677297069408, 0), (0, 2433211733989), (415735866, 0)], [(0, 77508138622), (0, 390031881), (145337, 0)]], 2,
    2⟩, ⟨[[(0, 20158012647227392), (0, 2549417990780274), (0, 108106235503)], [(0, 20936302419416027), (525748852492,
    0), (109484813, 0)], [(10794310010928, 0), (1413598003, 0), (288526, 0)]], 2, 2⟩, 72057594037927936,
    108906494186125, 374795377516443, ⟨[], 0, 0⟩, 0, 0, 0, lc0⟩ 2 1 27052045714269) (.sy (.sy (.out ⟨1837, 16, 7893,
    2603, 16, 2470, ⟨[[(10847352133779456, 0), (0, 3972887723345989), (28271393427, 0)], [(3922164188670885, 0), (0,
    2398659608228), (90786856, 0)], [(1656872307611, 0), (0, 891758299), (10696, 0)]], 2, 2⟩, ⟨[[(25652690151243776,
    0), (0, 1163015458584698), (0, 10916805543)], [(0, 37739952226617460), (274710012511, 0), (14417015, 0)],
    [(18027580935683, 0), (520130892, 0), (27014, 0)]], 2, 2⟩, 72057594037927936, 141387431472702, 132579348856263,
    ⟨[], 0, 0⟩, 0, 0, 0, lc0⟩ 2 1 16655428483068) (.leaf ⟨3893, 16, 8297, 865, 16, 2897, ⟨[[(34184296095776768, 0),
    (0, 4146177515849413), (30167902982, 0), (306826, 0), (8, 0)], [(2881514701384821, 0), (0, 2423780386635),
    (99125500, 0), (2512, 0)], [(1273977580055, 0), (0, 925863459), (11750, 0)], [(12072026660, 0), (0, 4331505), (0,
    178)]], 3, 4⟩, ⟨[[(13021687417479168, 0), (0, 1197703302247091), (0, 11888573023), (0, 512437), (0, 11)], [(0,
    38346222707494424), (295278265913, 0), (15389271, 0), (466, 0)], [(18659525927772, 0), (558848992, 0), (28978,
    0), (1, 0)], [(0, 13881732044), (0, 802522), (0, 38)]], 3, 4⟩, 72057594037927936, 1843209676839, 272262404335,
    ⟨[[(15052127004095, 0), (81759258, 0), (0, 71735), (0, 5824), (0, 156)], [(1007024628, 0), (1305272, 0), (4696,
    0), (86, 0), (1, 0)], [(0, 377963), (0, 231), (0, 23)], [(81, 0)]], 3, 4⟩, 17592186044416, 2975773,
    2969372468055448833097807656604662395470377765684410368785843937004734739260209929350576879739217757824579308371741359236339785,
    lc0⟩)) (.leaf ⟨2034, 16, 4382, 667, 16, 2268, ⟨[[(0, 32183057123819520), (0, 4330989893768640), (65258325733, 0),
    (1407769, 0), (76, 0)], [(588195344203689, 0), (0, 2397893870644), (221843010, 0), (11412, 0), (1, 0)],
    [(308234206736, 0), (0, 958628208), (26601, 0), (2, 0)], [(4598443829, 0), (0, 4869502), (0, 405)]], 3, 4⟩,
    ⟨[[(32968537507921920, 0), (0, 1904742623534113), (0, 40978461378), (0, 3431267), (0, 151)], [(0,
    29839387756927000), (499892833234, 0), (51605271, 0), (3129, 0)], [(14950785963315, 0), (945987487, 0), (97818,
    0), (6, 0)], [(0, 11357917890), (0, 1348522), (0, 126)]], 3, 4⟩, 72057594037927936, 994867525745, 217526874014,
    ⟨[[(15009015952282, 0), (39977209, 0), (0, 129207), (0, 5969), (0, 239)], [(1936329021, 0), (2895108, 0), (10334,
    0), (291, 0), (3, 0)], [(0, 1388584), (1509, 0), (0, 110), (0, 2)], [(408, 0), (0, 6)]], 3, 4⟩, 17592186044416,
    7257144,
    1241475086248557359809716146175154903447762457267358220253987472330256944563142714295187352637090996573058117223711073523309894,
    lc0⟩)))) (.sy (.sx (.sy (.out ⟨913, 16, 3715, 2122, 16, 2009, ⟨[[(14468044198625280, 0), (0, 3939543004529127),
    (57062991862, 0)], [(4136053756570390, 0), (0, 2630012625245), (150308355, 0)], [(2777221071729, 0), (0,
    1282752166), (0, 14799)]], 2, 2⟩, ⟨[[(29649840711335936, 0), (0, 1819628555151356), (0, 26103784892)], [(0,
    29931030964625944), (424327346350, 0), (45654654, 0)], [(12769392391039, 0), (571667701, 0), (60859, 0)]], 2, 2⟩,
    72057594037927936, 127544904432203, 133126136826449, ⟨[], 0, 0⟩, 0, 0, 0, lc0⟩ 2 1 17752034594465) (.sx (.sy
    (.out ⟨1868, 16, 7779, 4219, 16, 4003, ⟨[[(26400892615327744, 0), (0, 4051587246207630), (29709366355, 0)],
    [(3269090498979710, 0), (0, 1302256359875), (41612397, 0)], [(1050842305380, 0), (0, 310225693), (0, 994)]], 2,
    2⟩, ⟨[[(0, 28253695010537472), (0, 1838266384275609), (0, 14741826851)], [(0, 29928647844703366), (222435344278,
    0), (11833472, 0)], [(6628535828888, 0), (163266155, 0), (8629, 0)]], 2, 2⟩, 72057594037927936, 28011118103343,
    34553471118707, ⟨[], 0, 0⟩, 0, 0, 0, lc0⟩ 2 1 14771565707303) (.out ⟨1877, 16, 7934, 4199, 16, 3997, ⟨[[(0,
    6302571450499072), (0, 4101653280465354), (30786088418, 0)], [(2678298204160060, 0), (0, 1284796095092),
    (44042532, 0)], [(912682385195, 0), (0, 317464017), (0, 1091)]], 2, 2⟩, ⟨[[(32041804801572864, 0), (0,
    1850817723257745), (0, 15779754867)], [(0, 29769269503189851), (234242277956, 0), (12372526, 0)],
    [(6702646553917, 0), (171900181, 0), (9074, 0)]], 2, 2⟩, 72057594037927936, 26722251325150, 35715442523370, ⟨[],
    0, 0⟩, 0, 0, 0, lc0⟩ 2 1 8941232590846)) (.leaf ⟨1943, 16, 4059, 985, 16, 3324, ⟨[[(0, 27909146910605312), (0,
    4269287735336936), (66206242144, 0), (1499408, 0), (82, 0)], [(1585498770028286, 0), (0, 1366801404483),
    (88083147, 0), (4319, 0)], [(658712265919, 0), (0, 385139933), (0, 7034), (0, 1)], [(1250091484, 0), (0, 482417),
    (0, 39)]], 3, 4⟩, ⟨[[(0, 16648420381089792), (0, 2651312727699026), (0, 42581335567), (0, 3978899), (0, 182)],
    [(0, 21174664075697795), (349122700630, 0), (37016367, 0), (2280, 0)], [(4588488406511, 0), (215405958, 0),
    (23039, 0), (2, 0)], [(0, 1792600356), (0, 213027), (0, 20)]], 3, 4⟩, 72057594037927936, 159431464291,
    55983308986, ⟨[[(15127878566624, 0), (157683262, 0), (122301, 0), (1263, 0), (0, 41)], [(1923401307, 0),
    (2238311, 0), (1428, 0), (57, 0)], [(0, 1484659), (0, 24), (0, 35)], [(882, 0), (0, 1)]], 3, 4⟩, 17592186044416,
    1969184,
    3364121049281910060755233153910178685104465342150676053920478644770475751863671795592921237319509293614303977763242974936067613,
    lc0⟩))) (.sy (.leaf ⟨1784, 16, 3668, 715, 16, 2415, ⟨[[(30692014098710528, 0), (0, 4001237953456800),
    (62529711319, 0), (1431492, 0), (80, 0)], [(4371612323961685, 0), (0, 2720147966915), (145849355, 0), (6883, 0)],
    [(4149475856850, 0), (0, 1670760964), (0, 46121), (0, 3)], [(12112924082, 0), (0, 3177201), (0, 246)]], 3, 4⟩,
    ⟨[[(29125426519711744, 0), (0, 1882450970153442), (0, 25177561920), (0, 2535925), (0, 118)], [(0,
    30217394381624814), (487786245883, 0), (52497854, 0), (3266, 0)], [(12122508239498, 0), (455544111, 0), (50037,
    0), (4, 0)], [(0, 9514269463), (0, 1129378), (0, 109)]], 3, 4⟩, 72057594037927936, 2616326439043, 565126465192,
    ⟨[[(15186217015888, 0), (312655097, 0), (246100, 0), (7327, 0), (0, 97)], [(2026771293, 0), (3402162, 0), (0,
    921), (103, 0), (1, 0)], [(0, 1713012), (0, 180), (0, 51), (0, 1)], [(1274, 0), (0, 3)]], 3, 4⟩, 17592186044416,
    3782430,
    5157842760662209273954741719196747667746393136203949125915332900557080839071008087840023286864363609162733168872925315884770540,
    lc0⟩) (.leaf ⟨1831, 16, 3822, 701, 16, 2410, ⟨[[(0, 33897020143419392), (0, 4102642675509466), (67530438604, 0),
    (1665484, 0), (90, 0)], [(3171537353300835, 0), (0, 2676157671444), (163351727, 0), (7950, 0)], [(3437180638929,
    0), (0, 1791942409), (0, 53664), (0, 4)], [(10892801941, 0), (0, 3581191), (0, 284)]], 3, 4⟩, ⟨[[(0,
    18491007673622528), (0, 1905753491402853), (0, 29119354260), (0, 2776310), (0, 127)], [(0, 29896846392051998),
    (541917335103, 0), (57532979, 0), (3576, 0)], [(12338668992424, 0), (507539990, 0), (55607, 0), (4, 0)], [(0,
    10088536358), (0, 1241171), (0, 119)]], 3, 4⟩, 72057594037927936, 2793899789524, 567151230106,
    ⟨[[(15127941588339, 0), (218855788, 0), (0, 7580), (7870, 0), (0, 34)], [(1994845546, 0), (3276437, 0), (0,
    2092), (92, 0), (1, 0)], [(0, 1679687), (1374, 0), (0, 37), (0, 1)], [(1143, 0), (0, 10)]], 3, 4⟩,
    17592186044416, 2629385,
    2803222282697547219102136580859294854894314749528706235862685729302615854727760468103295057578264810111264404721385332792602803,
    lc0⟩))) (.leaf ⟨948, 16, 2027, 335, 16, 1172, ⟨[[(13318284349440000, 0), (0, 4187655353850990), (143727627764,
    0), (7466094, 0), (788, 0)], [(1247728474406688, 0), (0, 4969068014413), (784651005, 0), (79683, 0), (8, 0)],
    [(3361931180277, 0), (0, 6886646450), (0, 354551), (0, 48)], [(29530420980, 0), (0, 34721407), (0, 5697), (0,
    1)]], 3, 4⟩, ⟨[[(13333578324967424, 0), (0, 1913724113061560), (0, 72359348371), (0, 12696562), (0, 1127)], [(0,
    29183312762954240), (1182525730157, 0), (246190736, 0), (30389, 0), (3, 0)], [(26182569097522, 0), (2678867150,
    0), (573693, 0), (78, 0)], [(0, 43984608028), (0, 11134549), (0, 2123)]], 3, 4⟩, 72057594037927936,
    21417597609459, 4009489686497, ⟨[[(15036915726126, 0), (167222928, 0), (0, 562350), (38279, 0), (0, 403)],
    [(3977834356, 0), (12031001, 0), (0, 23767), (2097, 0), (29, 0)], [(0, 6608564), (30671, 0), (0, 492), (0, 30)],
    [(7338, 0), (0, 296), (6, 0)]], 3, 4⟩, 17592186044416, 67597531,
    3914790063803095416085121304900104319971098477514800222742399995592121004159738249613139140256521149616657268290184245403883617,
    lc0⟩))
theorem c12 : checkR job con0 false ⟨7, 9, 7, 9, 13, 17⟩ 1 30400 t12 327 21 320 31749 251 32000 = true := by decide +kernel

def t13 : CTree :=
  .sy (.out ⟨75, 16, 148, 302, 16, 261, ⟨[[(0, 20768821998510080), (0, 2017775842954306), (164185330402, 0)],
    [(21022633167140770, 0), (0, 14404822934635), (1550589100, 0)], [(114878295547922, 0), (0, 46232745257),
    (2480242, 0)]], 2, 2⟩, ⟨[[(0, 9806727535128576), (0, 1837391109194036), (76905873098, 0)], [(0,
    28390974291875054), (0, 172528636993), (455479247, 0)], [(65316473244355, 0), (0, 653674003), (0, 749689)]], 2,
    2⟩, 72057594037927936, 10140899523904291, 2029434856516463, ⟨[], 0, 0⟩, 0, 0, 0, lc0⟩ 2 1 154744024019761) (.sx
    (.out ⟨105, 16, 263, 417, 16, 371, ⟨[[(25163511733454848, 0), (0, 3065478577520439), (257414391382, 0)],
    [(11109602369773763, 0), (0, 10677330050940), (1316816799, 0)], [(30080389745816, 0), (0, 17015142570), (0,
    5231)]], 2, 2⟩, ⟨[[(19171423717879808, 0), (0, 2519131982122784), (72563326707, 0)], [(0, 21158376142725906),
    (301531178182, 0), (567963280, 0)], [(25389809914464, 0), (449505194, 0), (0, 31980)]], 2, 2⟩, 72057594037927936,
    1756195071978279, 1163415663952466, ⟨[], 0, 0⟩, 0, 0, 0, lc0⟩ 2 1 113229593921390) (.sy (.sx (.out ⟨205, 16, 462,
    853, 16, 767, ⟨[[(2022223545360384, 0), (0, 3069872682191072), (131179635013, 0)], [(13201190641630214, 0), (0,
    5366635900823), (290346210, 0)], [(21854817190146, 0), (0, 4703381988), (12937, 0)]], 2, 2⟩,
    ⟨[[(21198275629694976, 0), (0, 2618745036043489), (50476952633, 0)], [(0, 20362451634736780), (77806344772, 0),
    (117058962, 0)], [(11445000070735, 0), (0, 262896946), (0, 108089)]], 2, 2⟩, 72057594037927936, 461005816833307,
    160987278410495, ⟨[], 0, 0⟩, 0, 0, 0, lc0⟩ 2 1 79003706063530) (.sy (.out ⟨305, 16, 643, 1245, 16, 1128, ⟨[[(0,
    5209530564358144), (0, 2324236589637241), (50031866784, 0)], [(22304050733124919, 0), (0, 4078226874419),
    (102901366, 0)], [(40124227110867, 0), (0, 3685963919), (10494, 0)]], 2, 2⟩, ⟨[[(0, 30550026821812224), (0,
    1933982782099682), (20766731431, 0)], [(0, 28587658893292507), (15756849672, 0), (36414687, 0)],
    [(15818136367122, 0), (0, 311571090), (0, 47697)]], 2, 2⟩, 72057594037927936, 733238064190691, 80785653053461,
    ⟨[], 0, 0⟩, 0, 0, 0, lc0⟩ 2 1 55215596371565) (.out ⟨305, 16, 678, 1238, 16, 1134, ⟨[[(0, 26209282938433536), (0,
    2397921392330709), (52521496300, 0)], [(21386467006217021, 0), (0, 4192963949990), (105119847, 0)],
    [(40358698284884, 0), (0, 3883489231), (0, 5792)]], 2, 2⟩, ⟨[[(0, 19962997306621952), (0, 1923803661064237),
    (19853753030, 0)], [(0, 28722101107826237), (55311644371, 0), (42314665, 0)], [(15731839288295, 0), (0,
    368077918), (0, 61567)]], 2, 2⟩, 72057594037927936, 755817876676577, 89297042092241, ⟨[], 0, 0⟩, 0, 0, 0, lc0⟩ 2
    1 36761489953544))) (.sx (.sy (.out ⟨327, 16, 798, 1214, 16, 1109, ⟨[[(0, 8686888541532160), (0,
    2565941057169352), (56773728903, 0)], [(19382543625450709, 0), (0, 4448253926286), (122584519, 0)],
    [(34686847706154, 0), (0, 4081787386), (0, 34227)]], 2, 2⟩, ⟨[[(9101051248394240, 0), (0, 1867340126763463),
    (15970284619, 0)], [(0, 29373534849061010), (128408901418, 0), (54301052, 0)], [(16380540710861, 0), (0,
    258675105), (0, 52228)]], 2, 2⟩, 72057594037927936, 738036269666815, 134864280106542, ⟨[], 0, 0⟩, 0, 0, 0, lc0⟩ 2
    1 52085333674009) (.out ⟨328, 16, 846, 1207, 16, 1114, ⟨[[(0, 14328780436086784), (0, 2659600131652610),
    (60768630224, 0)], [(18213709987896637, 0), (0, 4585962753915), (128866218, 0)], [(34588862791227, 0), (0,
    4381745817), (0, 73463)]], 2, 2⟩, ⟨[[(0, 29807531702501376), (0, 1860657025567905), (13952211512, 0)], [(0,
    29426603772449963), (189035539278, 0), (65512382, 0)], [(16309950012542, 0), (0, 317211066), (0, 61910)]], 2, 2⟩,
    72057594037927936, 766471211786338, 150702007120851, ⟨[], 0, 0⟩, 0, 0, 0, lc0⟩ 2 1 35011178462739)) (.sy (.sx
    (.out ⟨395, 16, 939, 1711, 16, 1579, ⟨[[(15052156782407680, 0), (0, 3189119257221704), (71308012099, 0)],
    [(12829162920590427, 0), (0, 2775682031610), (70821448, 0)], [(12473081970414, 0), (0, 1314654519), (0, 10243)]],
    2, 2⟩, ⟨[[(0, 20793252461264896), (0, 2653400241667648), (25090882467, 0)], [(0, 20198334193492392),
    (76757293668, 0), (35883073, 0)], [(5497669804151, 0), (0, 138904242), (0, 25078)]], 2, 2⟩, 72057594037927936,
    125730606280321, 40533897866202, ⟨[], 0, 0⟩, 0, 0, 0, lc0⟩ 2 1 27336422874967) (.leaf ⟨610, 16, 912, 600, 16,
    1870, ⟨[[(21428258069929984, 0), (0, 3212939078779642), (72129465319, 0), (138115, 0), (150, 0)],
    [(13545645704479934, 0), (0, 2806025340675), (67982081, 0), (0, 1780)], [(13751073067927, 0), (0, 1345103010),
    (0, 9045), (0, 6)], [(13549701918, 0), (0, 522612), (10, 0)]], 3, 4⟩, ⟨[[(0, 22398108020244480), (0,
    2729475184232170), (27343565426, 0), (0, 1316244), (0, 168)], [(0, 20332864325675883), (65890994012, 0),
    (34643089, 0), (4006, 0), (1, 0)], [(5483107308257, 0), (0, 169399368), (0, 29001), (0, 4)], [(0, 1258803675),
    (0, 190748), (0, 21)]], 3, 4⟩, 72057594037927936, 1374994887319, 441229004723, ⟨[[(16184318032330, 0),
    (2594475278, 0), (0, 1671028), (0, 719), (0, 146)], [(3921434210, 0), (10016295, 0), (0, 3758), (78, 0), (3, 0)],
    [(0, 7635894), (0, 14568), (55, 0), (0, 1)], [(15285, 0), (0, 3)]], 3, 4⟩, 17592186044416, 9639351,
    2734860594230952985511217199899353324971881712758837171382705158971949732634977327463580301224080801864295718562248191285600922,
    lc0⟩)) (.leaf ⟨495, 16, 772, 422, 16, 1344, ⟨[[(0, 3903228949798912), (0, 2610078925882595), (60272160578, 0),
    (430798, 0), (157, 0)], [(19676176869391832, 0), (0, 4541824710700), (111897923, 0), (0, 2495)],
    [(41490498717714, 0), (0, 4489633933), (0, 65890), (0, 25)], [(86115291305, 0), (0, 3608093), (72, 0)]], 3, 4⟩,
    ⟨[[(0, 23004974729039872), (0, 1944401040910010), (17388426298, 0), (0, 1305529), (0, 168)], [(0,
    29494370424680972), (161239332993, 0), (61832136, 0), (7768, 0), (1, 0)], [(15757770581695, 0), (0, 539006039),
    (0, 96899), (0, 12)], [(0, 8789259515), (0, 1372961), (0, 196)]], 3, 4⟩, 72057594037927936, 18334133684864,
    4738171490390, ⟨[[(16050040485889, 0), (3300253656, 0), (0, 3064804), (12697, 0), (0, 361)], [(4960271851, 0),
    (18015694, 0), (0, 21138), (0, 47), (10, 0)], [(0, 12181366), (0, 31807), (304, 0), (0, 2)], [(31352, 0), (0,
    13), (0, 1)]], 3, 4⟩, 17592186044416, 38954547,
    2151238023593993661034927379773315827796972643746141764174774056024378762825827976168884402804583312084848623366890234231342981,
    lc0⟩)))))
theorem c13 : checkR job con0 false ⟨7, 9, 7, 9, 13, 17⟩ 1 30400 t13 195 21 160 7247 251 8000 = true := by decide +kernel

def t14 : CTree :=
  .sx (.sx (.out ⟨222, 16, 657, 821, 16, 748, ⟨[[(0, 9322060334036992), (0, 3458961528810089), (157909493679, 0)],
    [(8529745418838865, 0), (0, 5806124647080), (461475651, 0)], [(12144337176640, 0), (0, 4951432288), (0,
    212242)]], 2, 2⟩, ⟨[[(15089888426582016, 0), (0, 2510680439806261), (5421830515, 0)], [(0, 21677030924405318),
    (424624901531, 0), (241461889, 0)], [(13765048732130, 0), (420193716, 0), (155140, 0)]], 2, 2⟩,
    72057594037927936, 497140420075007, 472645421726381, ⟨[], 0, 0⟩, 0, 0, 0, lc0⟩ 2 1 75670893146013) (.sx (.out
    ⟨237, 16, 689, 1046, 16, 964, ⟨[[(0, 15753722776446976), (0, 3824684437607806), (180578580691, 0)],
    [(4937997028787862, 0), (0, 3222088056943), (232833080, 0)], [(4228756783333, 0), (0, 1519278731), (0, 87978)]],
    2, 2⟩, ⟨[[(26947710718410752, 0), (0, 3218093191434884), (16922685630, 0)], [(0, 13436233289708849),
    (282222078777, 0), (158787137, 0)], [(4021332910470, 0), (3209825, 0), (1389, 0)]], 2, 2⟩, 72057594037927936,
    175059680436883, 378570583372001, ⟨[], 0, 0⟩, 0, 0, 0, lc0⟩ 2 1 49056963545877) (.sy (.out ⟨423, 16, 1181, 1676,
    16, 1547, ⟨[[(0, 8309385160044544), (0, 3436908949264105), (80505728412, 0)], [(9856655778186028, 0), (0,
    2923853715912), (94867307, 0)], [(8953660724200, 0), (0, 1401027534), (0, 36295)]], 2, 2⟩, ⟨[[(0,
    18097929588834304), (0, 2578094197653511), (12075892140, 0)], [(0, 21088974409105320), (193662345240, 0),
    (57426591, 0)], [(6079773273023, 0), (0, 56112845), (0, 11188)]], 2, 2⟩, 72057594037927936, 130706822406817,
    83824907155989, ⟨[], 0, 0⟩, 0, 0, 0, lc0⟩ 2 1 42120816761402) (.sy (.out ⟨715, 16, 2084, 2371, 16, 2207, ⟨[[(0,
    13139244682485760), (0, 2978413432356504), (36207748171, 0)], [(15474487307338103, 0), (0, 2515981700584),
    (42863030, 0)], [(14858777514043, 0), (0, 1264366098), (0, 21609)]], 2, 2⟩, ⟨[[(35312006427639808, 0), (0,
    1833564401242741), (2862966263, 0)], [(0, 29969994752631814), (171332297301, 0), (23680918, 0)], [(8641184581552,
    0), (0, 46084206), (0, 4042)]], 2, 2⟩, 72057594037927936, 192612905892373, 52641449361635, ⟨[], 0, 0⟩, 0, 0, 0,
    lc0⟩ 2 1 27776217178424) (.out ⟨718, 16, 2155, 2364, 16, 2212, ⟨[[(0, 11098413982244864), (0, 3042001896533613),
    (38040904170, 0)], [(14706879358082645, 0), (0, 2556751492738), (45245484, 0)], [(14702682175320, 0), (0,
    1332004935), (0, 26647)]], 2, 2⟩, ⟨[[(4953035847663616, 0), (0, 1835388102623450), (1750635401, 0)], [(0,
    29945507897839579), (196753206351, 0), (26174123, 0)], [(8636553910496, 0), (0, 50253575), (0, 4040)]], 2, 2⟩,
    72057594037927936, 196423376625672, 56115315911064, ⟨[], 0, 0⟩, 0, 0, 0, lc0⟩ 2 1 19127629084270))))) (.sx (.sy
    (.sx (.out ⟨410, 16, 1129, 1683, 16, 1565, ⟨[[(0, 1574106295742464), (0, 3405400199072662), (80706271059, 0)],
    [(10201800191387426, 0), (0, 2912066761549), (87601223, 0)], [(10015313378188, 0), (0, 1444110936), (0, 38530)]],
    2, 2⟩, ⟨[[(0, 2914695338311680), (0, 2599995553433523), (14630588260, 0)], [(0, 20832031178672875),
    (188849518573, 0), (56731927, 0)], [(5816859556933, 0), (0, 110471181), (0, 20932)]], 2, 2⟩, 72057594037927936,
    136012625908230, 76343442884887, ⟨[], 0, 0⟩, 0, 0, 0, lc0⟩ 2 1 24898530230261) (.leaf ⟨669, 16, 1100, 582, 16,
    1856, ⟨[[(35464133244919808, 0), (0, 3439631722410029), (82150383274, 0), (1168619, 0), (262, 0)],
    [(10824067083107262, 0), (0, 2959501633170), (82107815, 0), (0, 205)], [(11322446206660, 0), (0, 1502118068), (0,
    39354), (0, 11)], [(13028414819, 0), (0, 724886), (0, 7)]], 3, 4⟩, ⟨[[(0, 18601174545424384), (0,
    2673307817603680), (17501728663, 0), (0, 2778033), (0, 345)], [(0, 20992095907389190), (183081880305, 0),
    (56320681, 0), (7338, 0), (1, 0)], [(5700055897905, 0), (0, 162808131), (0, 30192), (0, 3)], [(0, 2188671679),
    (0, 360911), (0, 63)]], 3, 4⟩, 72057594037927936, 1544052329394, 491242119615, ⟨[[(15913609411227, 0),
    (2044527023, 0), (0, 1222179), (4964, 0), (0, 197)], [(3956562400, 0), (9978951, 0), (0, 14297), (40, 0), (4,
    0)], [(0, 7359304), (0, 10776), (96, 0), (0, 1)], [(14553, 0), (0, 8)]], 3, 4⟩, 17592186044416, 11746140,
    3033243583547447226901868328265283585977516893051884597542207559372271395889824710931831004403734356029410976179080941987133889,
    lc0⟩)) (.sy (.leaf ⟨861, 16, 1460, 519, 16, 1678, ⟨[[(20569350214434816, 0), (0, 2201306085216707), (27194718635,
    0), (262522, 0), (24, 0)], [(24651468308072561, 0), (0, 3761687463920), (55947676, 0), (248, 0)],
    [(52916425422400, 0), (0, 3953831180), (0, 68785), (0, 8)], [(128747047399, 0), (0, 4074996), (0, 51)]], 3, 4⟩,
    ⟨[[(0, 7729124570923008), (0, 1205280618810078), (2863188856, 0), (0, 398325), (0, 24)], [(0, 38251505361662074),
    (213443044529, 0), (30135606, 0), (1988, 0)], [(20929476713787, 0), (0, 289158339), (0, 26183), (0, 1)], [(0,
    18272658991), (0, 1607408), (0, 148)]], 3, 4⟩, 72057594037927936, 31240427332164, 6624625017627,
    ⟨[[(15815466215290, 0), (2049480586, 0), (0, 1305622), (14030, 0), (0, 222)], [(3157341011, 0), (8920945, 0), (0,
    17428), (0, 31), (4, 0)], [(0, 4679759), (0, 7557), (86, 0), (0, 1)], [(7530, 0), (0, 4)]], 3, 4⟩,
    17592186044416, 11068090,
    5672924918237107185665154660865837766018589382784963938749797177396751703133345090890521045264058029098862134216114394004618425,
    lc0⟩) (.leaf ⟨883, 16, 1524, 512, 16, 1682, ⟨[[(9528684732219392, 0), (0, 2269080944882828), (28839303393, 0),
    (327705, 0), (28, 0)], [(23775689635361271, 0), (0, 3867721498881), (58887808, 0), (391, 0)], [(53145008928317,
    0), (0, 4205966886), (0, 85413), (0, 9)], [(132241257535, 0), (0, 4311880), (0, 63)]], 3, 4⟩, ⟨[[(0,
    20017656532303872), (0, 1205586551489337), (2231245699, 0), (0, 449842), (0, 26)], [(0, 38227413716250210),
    (245841906182, 0), (33375083, 0), (2218, 0)], [(20827098040135, 0), (0, 317113704), (0, 28082), (0, 1)], [(0,
    19163859384), (0, 1768854), (0, 166)]], 3, 4⟩, 72057594037927936, 33149655294060, 6940523049476,
    ⟨[[(15750957930682, 0), (1928860815, 0), (0, 1455144), (20095, 0), (0, 90)], [(3091803680, 0), (9046603, 0), (0,
    17523), (0, 111), (2, 0)], [(0, 4564108), (0, 8184), (92, 0)], [(7425, 0), (0, 3)]], 3, 4⟩, 17592186044416,
    8399961,
    4757732008875315043230954507428646400670144921837660195678205878260698769012529580336586974095914286990234605104348279240517352,
    lc0⟩))) (.sy (.leaf ⟨506, 16, 819, 410, 16, 1351, ⟨[[(907065157099520, 0), (0, 2704351091519970), (64899624707,
    0), (827702, 0), (204, 0)], [(18484862246196742, 0), (0, 4701094369321), (114901558, 0), (0, 2386)],
    [(41604311290845, 0), (0, 4854695674), (0, 114442), (0, 33)], [(89457575392, 0), (0, 3740536), (97, 0)]], 3, 4⟩,
    ⟨[[(22997256839307264, 0), (0, 1938062537221513), (15224597550, 0), (0, 1696549), (0, 214)], [(0,
    29549908572337542), (230897715349, 0), (75468785, 0), (9937, 0), (1, 0)], [(15541666373343, 0), (0, 649509137),
    (0, 117554), (0, 14)], [(0, 9582687906), (0, 1609179), (0, 261)]], 3, 4⟩, 72057594037927936, 19932450983843,
    5163917711659, ⟨[[(15913964552838, 0), (3034126772, 0), (0, 3492079), (26442, 0), (0, 14)], [(4859857327, 0),
    (18747477, 0), (0, 21975), (0, 372), (2, 0)], [(0, 12038321), (0, 37046), (343, 0), (2, 0)], [(32323, 0), (14,
    0), (0, 2)]], 3, 4⟩, 17592186044416, 25294202,
    2666134591925054379315132284724082908387277022321075307418685383619413682132773166401610001723245002218718058705040427861449544,
    lc0⟩) (.leaf ⟨519, 16, 872, 399, 16, 1359, ⟨[[(0, 4169206432907264), (0, 2809200513582823), (70776925149, 0),
    (1361892, 0), (263, 0)], [(17198925858660178, 0), (0, 4884309748351), (118824165, 0), (0, 2095)],
    [(41666515174415, 0), (0, 5319564724), (0, 180339), (0, 43)], [(93274763190, 0), (0, 3870806), (119, 0)]], 3, 4⟩,
    ⟨[[(15671330726875136, 0), (0, 1935568224187177), (12394202294, 0), (0, 2188766), (0, 266)], [(0,
    29587820241645946), (316657674868, 0), (92838630, 0), (12553, 0), (1, 0)], [(15274038393694, 0), (0, 783407885),
    (0, 141330), (0, 16)], [(0, 10524359342), (0, 1919863), (0, 340)]], 3, 4⟩, 72057594037927936, 21858764833594,
    5705926306115, ⟨[[(15783184335021, 0), (2754273902, 0), (0, 4228357), (29654, 0), (151, 0)], [(4760143795, 0),
    (19469343, 0), (0, 16119), (0, 436), (0, 2)], [(0, 11891218), (0, 42016), (299, 0), (3, 0)], [(33338, 0), (37,
    0), (0, 2)]], 3, 4⟩, 17592186044416, 20521493,
    3807897524435483669707067752089403722542843776857579931671175783083871596759887981639028957262245016942990545303068474096663935,
    lc0⟩)))
theorem c14 : checkR job con0 false ⟨7, 9, 7, 9, 13, 17⟩ 1 30400 t14 195 21 160 30243 251 32000 = true := by decide +kernel

def t15 : CTree :=
  .sx (.sy (.out ⟨388, 16, 1250, 1141, 16, 1056, ⟨[[(24632685472309248, 0), (0, 3174955300407390), (78612426862, 0)],
    [(12198255931910203, 0), (0, 5175037678144), (244904401, 0)], [(19486779193444, 0), (0, 4922456037), (0,
    183921)]], 2, 2⟩, ⟨[[(0, 12280033050427392), (0, 1775286444099804), (0, 6425566214)], [(0, 30323992306647095),
    (447929290775, 0), (112992291, 0)], [(19693232295668, 0), (403018283, 0), (88523, 0)]], 2, 2⟩, 72057594037927936,
    704971999182807, 309318497718448, ⟨[], 0, 0⟩, 0, 0, 0, lc0⟩ 2 1 48610857911896) (.sx (.out ⟨453, 16, 1552, 1601,
    16, 1492, ⟨[[(23854825407696896, 0), (0, 3778579315519966), (98303838571, 0)], [(5790780634264092, 0), (0,
    2988203603431), (169858594, 0)], [(4674346221784, 0), (0, 1485018435), (0, 64640)]], 2, 2⟩, ⟨[[(0,
    30929129063383040), (0, 2530793614795070), (0, 21423060957)], [(0, 21543357808657542), (395996142051, 0),
    (94601072, 0)], [(7327550262445, 0), (236601291, 0), (52888, 0)]], 2, 2⟩, 72057594037927936, 143239394410712,
    179790107180689, ⟨[], 0, 0⟩, 0, 0, 0, lc0⟩ 2 1 38665615693869) (.sx (.out ⟨474, 16, 1615, 2034, 16, 1907,
    ⟨[[(31590508686086144, 0), (0, 4031502149699228), (107788466694, 0)], [(3180678713329101, 0), (0, 1606140552055),
    (85936673, 0)], [(1450241390669, 0), (0, 429127662), (0, 21844)]], 2, 2⟩, ⟨[[(0, 10165687393435648), (0,
    3218527363884495), (0, 23513084189)], [(0, 13481600009394354), (260852727767, 0), (62250326, 0)],
    [(2203134380672, 0), (48051932, 0), (11583, 0)]], 2, 2⟩, 72057594037927936, 71844034732774, 166573281747307, ⟨[],
    0, 0⟩, 0, 0, 0, lc0⟩ 2 1 25312427089838) (.sy (.out ⟨884, 16, 2953, 3253, 16, 3053, ⟨[[(4332009315983360, 0), (0,
    3773543673834537), (50287713820, 0)], [(6430864794698997, 0), (0, 1521467078459), (37504193, 0)],
    [(3063620920781, 0), (0, 412047847), (0, 10626)]], 2, 2⟩, ⟨[[(0, 33464309969485824), (0, 2563659884162906), (0,
    7000676244)], [(0, 21344447338383619), (199062027547, 0), (24054296, 0)], [(3380954761300, 0), (22619998, 0),
    (2993, 0)]], 2, 2⟩, 72057594037927936, 37574260434837, 38927982025074, ⟨[], 0, 0⟩, 0, 0, 0, lc0⟩ 2 1
    21571224366589) (.out ⟨881, 16, 3033, 3235, 16, 3053, ⟨[[(13779624283889664, 0), (0, 3823273822204324),
    (52959327260, 0)], [(5830475135007844, 0), (0, 1523092762105), (40390351, 0)], [(2931282623663, 0), (0,
    434968426), (0, 12529)]], 2, 2⟩, ⟨[[(0, 25376960812810240), (0, 2572062656786835), (0, 9787096116)], [(0,
    21238256223199814), (224418859163, 0), (26497159, 0)], [(3393107585134, 0), (25886284, 0), (3523, 0)]], 2, 2⟩,
    72057594037927936, 39600783924328, 42675030188419, ⟨[], 0, 0⟩, 0, 0, 0, lc0⟩ 2 1 12159120782608))))) (.sy (.sx
    (.sy (.out ⟨749, 16, 2341, 2336, 16, 2181, ⟨[[(0, 16370794712752128), (0, 3150674167401302), (39920410934, 0)],
    [(13422469932846677, 0), (0, 2608610289422), (53040244, 0)], [(12713683038769, 0), (0, 1350197157), (0, 29243)]],
    2, 2⟩, ⟨[[(0, 21866646852829184), (0, 1817895951559687), (0, 712663872)], [(0, 30160073385700590), (223342419837,
    0), (28578807, 0)], [(9101298661389, 0), (3926808, 0), (1576, 0)]], 2, 2⟩, 72057594037927936, 189033517575028,
    65306352104761, ⟨[], 0, 0⟩, 0, 0, 0, lc0⟩ 2 1 27259438188426) (.out ⟨753, 16, 2425, 2326, 16, 2184,
    ⟨[[(3508712303681536, 0), (0, 3221789262143371), (42209687561, 0)], [(12561590936322350, 0), (0, 2646084420665),
    (56916458, 0)], [(12459708140884, 0), (0, 1431555207), (0, 35334)]], 2, 2⟩, ⟨[[(16072525169197056, 0), (0,
    1821858784279249), (0, 2227369285)], [(0, 30081835308972574), (253827161292, 0), (31545645, 0)], [(9116247219066,
    0), (5866695, 0), (2292, 0)]], 2, 2⟩, 72057594037927936, 192216912762336, 69733549883083, ⟨[], 0, 0⟩, 0, 0, 0,
    lc0⟩ 2 1 17632220696689)) (.sx (.sy (.out ⟨849, 16, 2634, 3316, 16, 3114, ⟨[[(21459305028468736, 0), (0,
    3639013003770532), (46762634503, 0)], [(8034434646693448, 0), (0, 1517144671436), (28734713, 0)],
    [(4101222498979, 0), (0, 407135380), (0, 9274)]], 2, 2⟩, ⟨[[(16189642222501888, 0), (0, 2585535804289142),
    (268036549, 0)], [(0, 21132325854248600), (158628522389, 0), (20378137, 0)], [(3082647751152, 0), (0, 14153984),
    (0, 929)]], 2, 2⟩, 72057594037927936, 37407837256612, 29001704337088, ⟨[], 0, 0⟩, 0, 0, 0, lc0⟩ 2 1
    14240808694774) (.leaf ⟨1524, 16, 2757, 1119, 16, 3657, ⟨[[(19762909560356864, 0), (0, 3759293503510736),
    (49985229738, 0), (742213, 0), (54, 0)], [(7620101896450082, 0), (0, 1557339677377), (31007673, 0), (671, 0)],
    [(4076234884189, 0), (0, 436677976), (0, 11293), (0, 1)], [(2955149899, 0), (0, 152759), (0, 6)]], 3, 4⟩,
    ⟨[[(4328592936419328, 0), (0, 2641079639992376), (0, 1795260847), (0, 1451911), (0, 80)], [(0,
    21493477370537362), (183946464135, 0), (22963130, 0), (1503, 0)], [(3140495213960, 0), (0, 15364185), (0, 861)],
    [(0, 903025112), (0, 89528), (0, 9)]], 3, 4⟩, 72057594037927936, 211669799335, 71706015009, ⟨[[(15621606911230,
    0), (711010912, 0), (0, 88614), (2009, 0), (0, 14)], [(1950456807, 0), (2431396, 0), (0, 2872), (1, 0)], [(0,
    1722966), (0, 1056), (3, 0)], [(1700, 0)]], 3, 4⟩, 17592186044416, 764764,
    4617281842979882228102626837052689528896296447788999635737981044200855752683002120752935954165339040349239615146320950099090981,
    lc0⟩)) (.leaf ⟨804, 16, 1437, 703, 16, 2304, ⟨[[(0, 13142231127588864), (0, 4014507505944332), (105722757336, 0),
    (2975244, 0), (446, 0)], [(4368143165806568, 0), (0, 1678100885068), (61741410, 0), (2197, 0)], [(2383640767510,
    0), (0, 468770666), (0, 23206), (0, 5)], [(1651281583, 0), (0, 149362), (0, 10)]], 3, 4⟩, ⟨[[(0,
    2211548454469632), (0, 3317995697247513), (463907524, 0), (0, 6618631), (0, 742)], [(0, 13406090146272965),
    (215469766776, 0), (54787463, 0), (7212, 0), (1, 0)], [(1913059305444, 0), (0, 32009070), (0, 4838)], [(0,
    522977698), (0, 102143), (0, 20)]], 3, 4⟩, 72057594037927936, 182290002108, 118619072399, ⟨[[(15654786605852, 0),
    (1201027702, 0), (0, 403973), (8572, 0), (0, 62)], [(3608213479, 0), (7337841, 0), (0, 13092), (0, 21), (1, 0)],
    [(0, 5995216), (0, 6317), (46, 0), (0, 1)], [(11090, 0), (0, 1)]], 3, 4⟩, 17592186044416, 6421839,
    4240082838636653556531241303436649571138850056481644531147908545452582042241417037372785004538839867870788645904093280288080043,
    lc0⟩))) (.sx (.sy (.sx (.out ⟨870, 16, 2894, 3265, 16, 3076, ⟨[[(10553148016500736, 0), (0, 3761500518812000),
    (50807594332, 0)], [(6568166931059448, 0), (0, 1525974456338), (35828943, 0)], [(3329186398577, 0), (0,
    427143013), (0, 11614)]], 2, 2⟩, ⟨[[(0, 29802463188090880), (0, 2574517493981241), (0, 6030970031)], [(0,
    21224683664013455), (201914560585, 0), (24434329, 0)], [(3274687667782, 0), (9493898, 0), (1724, 0)]], 2, 2⟩,
    72057594037927936, 38968237924085, 37709091389453, ⟨[], 0, 0⟩, 0, 0, 0, lc0⟩ 2 1 13102351976670) (.leaf ⟨1567,
    16, 2891, 1106, 16, 3634, ⟨[[(0, 501570289123328), (0, 3822391769365190), (52237060074, 0), (859684, 0), (59,
    0)], [(6855141126425658, 0), (0, 1561185001061), (34770828, 0), (926, 0)], [(3672622641603, 0), (0, 449161062),
    (0, 12687), (0, 1)], [(2837947370, 0), (0, 174663), (0, 8)]], 3, 4⟩, ⟨[[(14314059555438592, 0), (0,
    2636101537250231), (0, 5139035236), (0, 1678825), (0, 90)], [(0, 21527165919335067), (207690584149, 0),
    (25196133, 0), (1641, 0)], [(3235197283805, 0), (0, 3428035), (487, 0)], [(0, 997203675), (0, 102561), (0, 10)]],
    3, 4⟩, 72057594037927936, 215379017748, 74098265854, ⟨[[(15558424568773, 0), (642306646, 0), (0, 40169), (2359,
    0), (0, 15)], [(1947506274, 0), (2429296, 0), (0, 2943), (2, 0)], [(0, 1707558), (0, 1020), (2, 0)], [(1674,
    0)]], 3, 4⟩, 17592186044416, 836199,
    4909324771149226597068127614306243250430512792537704052932164252056509027229605679966948680810349561262082596482064724396924311,
    lc0⟩)) (.leaf ⟨1416, 16, 2661, 774, 16, 2570, ⟨[[(26972005588320256, 0), (0, 3440091731027471), (48650192868, 0),
    (883577, 0), (58, 0)], [(10933511723302452, 0), (0, 2773012480142), (67867729, 0), (2060, 0)], [(12052011624385,
    0), (0, 1660935280), (0, 51264), (0, 4)], [(19593264574, 0), (0, 1380631), (0, 72)]], 3, 4⟩, ⟨[[(0,
    18743288257888256), (0, 1872335362567922), (0, 5934011428), (0, 1347610), (0, 71)], [(0, 30485769814174616),
    (331309175622, 0), (39244953, 0), (2548, 0)], [(9337170427255, 0), (12423004, 0), (4124, 0), (1, 0)], [(0,
    6101162550), (0, 652984), (0, 64)]], 3, 4⟩, 72057594037927936, 3036508286490, 744467563052, ⟨[[(15494659984091,
    0), (808721052, 0), (0, 92341), (8209, 0), (0, 38)], [(2194945426, 0), (3930253, 0), (0, 6586), (0, 2), (1, 0)],
    [(0, 2180898), (0, 1772), (2, 0)], [(2406, 0)]], 3, 4⟩, 17592186044416, 2609953,
    5111784121083605984626198027193464016715064588758465159753040990396376825980868003613707417068615003165021454176863128531898465,
    lc0⟩)) (.leaf ⟨756, 16, 1401, 544, 16, 1832, ⟨[[(0, 15458245046059008), (0, 3775187689879823), (106782352747, 0),
    (3790052, 0), (508, 0)], [(6734359238764207, 0), (0, 3107412743552), (130592299, 0), (6460, 0), (1, 0)],
    [(7972137978186, 0), (0, 1893401728), (0, 116853), (0, 21)], [(11897254672, 0), (0, 1288472), (0, 109)]], 3, 4⟩,
    ⟨[[(0, 24697329416314880), (0, 2646813701080919), (0, 9620293224), (0, 6703491), (0, 715)], [(0,
    21251762737008064), (441619982688, 0), (106540546, 0), (14012, 0), (1, 0)], [(6147491260255, 0), (0, 92150072),
    (0, 10612), (1, 0)], [(0, 3799041967), (0, 811139), (0, 159)]], 3, 4⟩, 72057594037927936, 1843160406279,
    636534555467, ⟨[[(15527866418244, 0), (1254213144, 0), (0, 977247), (23701, 0), (5, 0)], [(3928322389, 0),
    (10636885, 0), (0, 21617), (0, 126), (1, 0)], [(0, 7296426), (0, 10189), (84, 0), (0, 1)], [(15215, 0), (0,
    16)]], 3, 4⟩, 17592186044416, 9519448,
    5183065184329308442010964607931667723361424930789278004113305315879713289774849080179336972370218824311427653047912570700398201,
    lc0⟩)))
theorem c15 : checkR job con0 false ⟨7, 9, 7, 9, 13, 17⟩ 1 30400 t15 369 21 320 30745 251 32000 = true := by decide +kernel

def t16 : CTree :=
  .sy (.sx (.leaf ⟨589, 16, 1045, 394, 16, 1327, ⟨[[(32984996153122816, 0), (0, 3051402831774563), (81403698637, 0),
    (2292840, 0), (352, 0)], [(14328894415132739, 0), (0, 5181452595652), (164633406, 0), (3407, 0), (1, 0)],
    [(34233561259756, 0), (0, 5967515423), (0, 296985), (0, 59)], [(88423857048, 0), (0, 6063503), (0, 227)]], 3, 4⟩,
    ⟨[[(0, 15039103528120320), (0, 1898254153874782), (3537053859, 0), (0, 3378157), (0, 383)], [(0,
    29997446688960018), (473496956799, 0), (122446335, 0), (16374, 0), (2, 0)], [(16229989943236, 0), (0, 570513510),
    (0, 97790), (0, 8)], [(0, 16248740839), (0, 3221437), (0, 621)]], 3, 4⟩, 72057594037927936, 23771151076877,
    6108536988160, ⟨[[(15652253092581, 0), (2209377224, 0), (0, 3054136), (49866, 0), (114, 0)], [(4670600068, 0),
    (18345943, 0), (0, 38772), (0, 511), (2, 0)], [(0, 10707001), (0, 27869), (333, 0), (1, 0)], [(27667, 0), (0,
    17)]], 3, 4⟩, 17592186044416, 27406793,
    5009092996564904132901994347124624615858028397943576005975950019039574269154507503840201943799442932970706967333719025401356651,
    lc0⟩) (.leaf ⟨533, 16, 931, 388, 16, 1366, ⟨[[(30714813651632128, 0), (0, 2922156206209438), (78208174923, 0),
    (2074489, 0), (339, 0)], [(15776499358432506, 0), (0, 5088946917126), (123979296, 0), (0, 1559)],
    [(41579987155874, 0), (0, 5909752317), (0, 268582), (0, 55)], [(97544263378, 0), (0, 3998959), (138, 0)]], 3, 4⟩,
    ⟨[[(0, 17339118923464704), (0, 1934835398716028), (8713591588, 0), (0, 2791309), (0, 323)], [(0,
    29555237511254339), (422254974531, 0), (114554143, 0), (15674, 0), (2, 0)], [(14919460717689, 0), (0, 943108123),
    (0, 168652), (0, 19)], [(0, 11640965211), (0, 2318670), (0, 436)]], 3, 4⟩, 72057594037927936, 24198117985677,
    6336232715339, ⟨[[(15652839968577, 0), (2456226405, 0), (0, 5053513), (28067, 0), (205, 0)], [(4677807311, 0),
    (20206033, 0), (0, 10151), (0, 388), (0, 3)], [(0, 11857328), (0, 45764), (262, 0), (2, 0)], [(35063, 0), (42,
    0), (0, 2)]], 3, 4⟩, 17592186044416, 20896129,
    5102845874643417221291686222266869256025125632842527523060379295996632873073691392167535669275011956857920649165949189234753288,
    lc0⟩)) (.sx (.leaf ⟨610, 16, 1122, 382, 16, 1333, ⟨[[(27193478442090496, 0), (0, 3186430544327887), (91715684243,
    0), (3291638, 0), (451, 0)], [(12637031919814077, 0), (0, 5382486938314), (183855030, 0), (5833, 0), (1, 0)],
    [(33450826642975, 0), (0, 6778463310), (0, 423692), (0, 76)], [(91602238772, 0), (0, 6800783), (0, 339)]], 3, 4⟩,
    ⟨[[(21160456333897728, 0), (0, 1906038805294379), (0, 2174613016), (0, 4237200), (0, 457)], [(0,
    29861120893732187), (612457820969, 0), (150478617, 0), (20150, 0), (2, 0)], [(15989832190575, 0), (0, 678309682),
    (0, 111590), (0, 9)], [(0, 18116029813), (0, 3936074), (0, 775)]], 3, 4⟩, 72057594037927936, 26772245532079,
    6789187581188, ⟨[[(15524441854745, 0), (1896167462, 0), (0, 4332186), (47029, 0), (309, 0)], [(4545751301, 0),
    (19124940, 0), (0, 28882), (0, 455), (0, 2)], [(0, 10616877), (0, 30442), (297, 0)], [(28839, 0), (0, 39), (0,
    1)]], 3, 4⟩, 17592186044416, 16126925,
    5080180925644635258035725037777101629307589951698727818366795752958879570394753209891522535385009344487448461016667712077877235,
    lc0⟩) (.sx (.leaf ⟨669, 16, 1218, 529, 16, 1907, ⟨[[(10397103595192320, 0), (0, 3650640238312235), (105385311358,
    0), (3689082, 0), (523, 0)], [(8160114275952462, 0), (0, 3163436502107), (84961990, 0), (486, 0)],
    [(11646546236641, 0), (0, 1993614398), (0, 118784), (0, 22)], [(14789739181, 0), (0, 704898), (6, 0)]], 3, 4⟩,
    ⟨[[(0, 33019468698902528), (0, 2700323032193060), (3479004290, 0), (0, 5171689), (0, 564)], [(0,
    20674866171219654), (399760960983, 0), (101080183, 0), (13773, 0), (1, 0)], [(5175994253524, 0), (0, 360858382),
    (0, 63183), (0, 7)], [(0, 2502347709), (0, 545498), (0, 107)]], 3, 4⟩, 72057594037927936, 2069343368640,
    690373671960, ⟨[[(15527153938145, 0), (1497747079, 0), (0, 2866846), (10502, 0), (57, 0)], [(3854028686, 0),
    (12345735, 0), (0, 4932), (0, 104)], [(0, 8208576), (0, 22251), (103, 0)], [(21083, 0), (4, 0), (0, 1)]], 3, 4⟩,
    17592186044416, 10124107,
    4613579385441123372862794772819865199930378846931890011336271907180763916049667559871592963245628163360887565370996983287412827,
    lc0⟩) (.sy (.leaf ⟨1089, 16, 1948, 759, 16, 2778, ⟨[[(0, 9651556711596032), (0, 3050104661934737), (42947615936,
    0), (681191, 0), (51, 0)], [(15416551484295064, 0), (0, 2681521858623), (30230138, 0), (0, 293)],
    [(22190449064251, 0), (0, 1635356446), (0, 43123), (0, 4)], [(26490080263, 0), (0, 453476), (16, 0)]], 3, 4⟩,
    ⟨[[(27827474530000896, 0), (0, 1956640412007786), (3384139058, 0), (0, 793359), (0, 44)], [(0,
    29567427953636724), (250164805652, 0), (32932146, 0), (2271, 0)], [(7201662637042, 0), (0, 294391845), (0,
    26264), (0, 1)], [(0, 2848721680), (0, 302145), (0, 29)]], 3, 4⟩, 72057594037927936, 3275861899680, 850100754461,
    ⟨[[(15558627484844, 0), (1159908505, 0), (0, 1468334), (2525, 0), (9, 0)], [(2233919139, 0), (5084111, 0), (0,
    166), (0, 17)], [(0, 2863407), (0, 6218), (14, 0)], [(4471, 0), (4, 0)]], 3, 4⟩, 17592186044416, 1089340,
    5022613343563777092916070554578790383460339255617410649169555027148270121244812327063109021148465341571068520870162145209028902,
    lc0⟩) (.leaf ⟨1107, 16, 2020, 748, 16, 2786, ⟨[[(16880523657658368, 0), (0, 3117564817476291), (45681751532, 0),
    (818216, 0), (58, 0)], [(14598347216830339, 0), (0, 2749377685103), (30928263, 0), (0, 252)], [(22147512216407,
    0), (0, 1744050303), (0, 51501), (0, 5)], [(27237307590, 0), (0, 453419), (17, 0)]], 3, 4⟩, ⟨[[(0,
    6269659958845440), (0, 1959492085773573), (2126607518, 0), (0, 888605), (0, 48)], [(0, 29518012332765976),
    (285826761389, 0), (36639498, 0), (2524, 0)], [(7067360710602, 0), (0, 322845976), (0, 28683), (0, 2)], [(0,
    3016679370), (0, 334054), (0, 33)]], 3, 4⟩, 72057594037927936, 3472944779396, 902260741592, ⟨[[(15495292803491,
    0), (1084545040, 0), (0, 1553319), (2396, 0), (8, 0)], [(2211065626, 0), (5162581, 0), (0, 162), (0, 16)], [(0,
    2871270), (0, 6375), (15, 0)], [(4654, 0), (4, 0)]], 3, 4⟩, 17592186044416, 1168735,
    5497144327626153981224200933376454225809565602211184794127771869332115850710908812004132813816026996078645613328999680755598988,
    lc0⟩))))
theorem c16 : checkR job con0 false ⟨7, 9, 7, 9, 13, 17⟩ 1 30400 t16 411 21 320 30745 251 32000 = true := by decide +kernel

def t17 : CTree :=
  .sy (.sx (.sy (.out ⟨827, 16, 2958, 2245, 16, 2110, ⟨[[(0, 17258921168568320), (0, 3529017088246213), (48612973518,
    0)], [(8939672860244638, 0), (0, 2720693557456), (87875925, 0)], [(7824552595387, 0), (0, 1466890980), (0,
    38014)]], 2, 2⟩, ⟨[[(0, 16357934482227200), (0, 1803439971733284), (0, 10979105601)], [(0, 30236068135849765),
    (334141656608, 0), (38564389, 0)], [(10499992812825, 0), (198382745, 0), (22676, 0)]], 2, 2⟩, 72057594037927936,
    170493434755317, 96293242860237, ⟨[], 0, 0⟩, 0, 0, 0, lc0⟩ 2 1 23841897612604) (.sx (.out ⟨918, 16, 3389, 3148,
    16, 2970, ⟨[[(0, 164668230631424), (0, 3955070542124620), (56155125993, 0)], [(4269335992070158, 0), (0,
    1488744269039), (53906680, 0)], [(1893636282964, 0), (0, 413863673), (0, 11165)]], 2, 2⟩, ⟨[[(10767685286199296,
    0), (0, 2561301108200079), (0, 19705486835)], [(0, 21313294988016683), (260268123567, 0), (29449848, 0)],
    [(3816913738138, 0), (87618511, 0), (9932, 0)]], 2, 2⟩, 72057594037927936, 38226884967966, 55011295377164, ⟨[],
    0, 0⟩, 0, 0, 0, lc0⟩ 2 1 18126040028871) (.sy (.out ⟨1667, 16, 6089, 4502, 16, 4258, ⟨[[(0, 34765843190595584),
    (0, 3622993144101831), (26037005244, 0)], [(8322147295389367, 0), (0, 1381825588438), (23393624, 0)],
    [(3992333088784, 0), (0, 400877625), (0, 5916)]], 2, 2⟩, ⟨[[(6586541367361536, 0), (0, 1824855159821889), (0,
    6281358744)], [(0, 30154096295035947), (185916311516, 0), (10572102, 0)], [(5218638419670, 0), (48116727, 0),
    (2828, 0)]], 2, 2⟩, 72057594037927936, 42913530707027, 24604325013803, ⟨[], 0, 0⟩, 0, 0, 0, lc0⟩ 2 1
    12073890374318) (.sx (.out ⟨1825, 16, 6774, 6320, 16, 5988, ⟨[[(0, 15253621251276800), (0, 3985459478901528),
    (29121738501, 0)], [(4203097661795958, 0), (0, 750669377757), (13482506, 0)], [(1019635784552, 0), (0,
    110948403), (0, 1674)]], 2, 2⟩, ⟨[[(0, 34244991701811200), (0, 2578520422011192), (0, 9942866372)], [(0,
    21213106173892245), (137592243488, 0), (7751365, 0)], [(1864714187638, 0), (19132947, 0), (1116, 0)]], 2, 2⟩,
    72057594037927936, 9894805806278, 13625460493190, ⟨[], 0, 0⟩, 0, 0, 0, lc0⟩ 2 1 9551788709088) (.leaf ⟨3490, 16,
    6847, 2123, 16, 7055, ⟨[[(16946964644528128, 0), (0, 4060477149712034), (30004860147, 0), (308677, 0), (9, 0)],
    [(4337888938327700, 0), (0, 768369897072), (13479157, 0), (272, 0)], [(1100669039616, 0), (0, 116677599), (0,
    1846)], [(566035442, 0), (0, 35737), (0, 1)]], 3, 4⟩, ⟨[[(0, 874278922715136), (0, 2635773482124838), (0,
    9851109002), (0, 654497), (0, 16)], [(0, 21574447549998994), (142509553692, 0), (8032443, 0), (255, 0)],
    [(1867111696031, 0), (17176375, 0), (1025, 0)], [(0, 340690879), (0, 19164), (0, 1)]], 3, 4⟩, 72057594037927936,
    26579552259, 9116905636, ⟨[[(15355054818538, 0), (206753619, 0), (34884, 0), (343, 0), (0, 2)], [(963996461, 0),
    (587912, 0), (0, 265), (1, 0)], [(0, 402770), (0, 104), (0, 1)], [(178, 0)]], 3, 4⟩, 17592186044416, 101273,
    3787627079318554646697722243429144910426552643055355255017835029413598507366934375546537400673041183986387029709286514773409314,
    lc0⟩))))) (.sy (.sx (.sy (.out ⟨1624, 16, 5739, 4551, 16, 4297, ⟨[[(6906877940006912, 0), (0, 3520495248569483),
    (24728289888, 0)], [(9542707219307144, 0), (0, 1377408872592), (20365715, 0)], [(4666973423956, 0), (0,
    394514936), (0, 5746)]], 2, 2⟩, ⟨[[(13621721125355520, 0), (0, 1823035783244063), (0, 4667926149)], [(0,
    30178993395610587), (170323147803, 0), (9885190, 0)], [(5000973626778, 0), (31550573, 0), (1947, 0)]], 2, 2⟩,
    72057594037927936, 44836281908613, 22378952931827, ⟨[], 0, 0⟩, 0, 0, 0, lc0⟩ 2 1 13179147635783) (.out ⟨1631, 16,
    5850, 4541, 16, 4299, ⟨[[(0, 29096912847536128), (0, 3563100447737995), (25565966165, 0)], [(9027722582894708,
    0), (0, 1382918614220), (21340287, 0)], [(4553853615915, 0), (0, 408220011), (0, 6246)]], 2, 2⟩, ⟨[[(0,
    29978070372384768), (0, 1828868679794359), (0, 5264004622)], [(0, 30104965247839384), (180574215406, 0),
    (10376645, 0)], [(5019649312071, 0), (33589406, 0), (2086, 0)]], 2, 2⟩, 72057594037927936, 44945869174514,
    23163440141300, ⟨[], 0, 0⟩, 0, 0, 0, lc0⟩ 2 1 8675861298693)) (.leaf ⟨1659, 16, 3179, 1078, 16, 3578, ⟨[[(0,
    10981314429648896), (0, 3950816377805954), (57072436693, 0), (1105682, 0), (69, 0)], [(5320589671556533, 0), (0,
    1552810282883), (44564654, 0), (1576, 0)], [(2840061273678, 0), (0, 469996755), (0, 14960), (0, 1)],
    [(2544246153, 0), (0, 231532), (0, 14)]], 3, 4⟩, ⟨[[(0, 25086794037346304), (0, 2632751821102463), (0,
    13127160104), (0, 2203602), (0, 112)], [(0, 21522012003588788), (257171128123, 0), (29747154, 0), (1911, 0)],
    [(3472104127316, 0), (30281778, 0), (4191, 0)], [(0, 1202380728), (0, 131883), (0, 13)]], 3, 4⟩,
    72057594037927936, 218726499286, 78377845650, ⟨[[(15433217905088, 0), (502839358, 0), (48499, 0), (2943, 0), (0,
    16)], [(1942769432, 0), (2418887, 0), (0, 2761), (6, 0)], [(0, 1674868), (0, 901), (0, 4)], [(1580, 0)]], 3, 4⟩,
    17592186044416, 934019,
    4688345378709850331930040856700805058111449228502153802421096044131531092995901930384685084036222323671512218038872447792438050,
    lc0⟩)) (.leaf ⟨1543, 16, 3008, 753, 16, 2527, ⟨[[(0, 34294506324017152), (0, 3653516212410336), (54736994294, 0),
    (1147072, 0), (69, 0)], [(8414595050943464, 0), (0, 2813538205350), (90420043, 0), (3475, 0)], [(9273678572348,
    0), (0, 1780133492), (0, 60324), (0, 5)], [(17692115257, 0), (0, 1899212), (0, 122)]], 3, 4⟩, ⟨[[(0,
    33816635283202048), (0, 1874201937898438), (0, 12222662680), (0, 1753232), (0, 87)], [(0, 30416345164855284),
    (405215459549, 0), (45971152, 0), (2942, 0)], [(10083697416553, 0), (124443267, 0), (16277, 0), (1, 0)], [(0,
    7338185685), (0, 833502), (0, 82)]], 3, 4⟩, 72057594037927936, 3120545198936, 737282385132, ⟨[[(15371779882869,
    0), (611738961, 0), (26366, 0), (9587, 0), (0, 36)], [(2126229378, 0), (3788763, 0), (0, 5737), (14, 0), (1, 0)],
    [(0, 2016204), (0, 1238), (0, 10)], [(2040, 0), (0, 1)]], 3, 4⟩, 17592186044416, 2875727,
    5713899504959766252760595594200937900368103061883693197660404569163576878419014236733835248278694611298518574553435215891169550,
    lc0⟩))) (.sx (.sy (.sx (.sy (.out ⟨1710, 16, 6458, 4448, 16, 4214, ⟨[[(10675488359759872, 0), (0,
    3727608694607803), (27356386637, 0)], [(7082238768320294, 0), (0, 1378865254424), (26916978, 0)],
    [(3308430018595, 0), (0, 402723911), (0, 5840)]], 2, 2⟩, ⟨[[(0, 20011182268743680), (0, 1828379890333488), (0,
    8059491427)], [(0, 30095378917482898), (200945851280, 0), (11215522, 0)], [(5464512461883, 0), (67709814, 0),
    (3852, 0)]], 2, 2⟩, 72057594037927936, 40528337291959, 26933836202657, ⟨[], 0, 0⟩, 0, 0, 0, lc0⟩ 2 1
    10997856570962) (.leaf ⟨3365, 16, 6719, 1483, 16, 4942, ⟨[[(0, 6820180611301376), (0, 3849459701671387),
    (28913458045, 0), (308646, 0), (9, 0)], [(6655435623558186, 0), (0, 1406018050816), (28924022, 0), (627, 0)],
    [(3230239537728, 0), (0, 425288822), (0, 6454)], [(3764341416, 0), (0, 310469), (0, 11)]], 3, 4⟩,
    ⟨[[(28056758604578816, 0), (0, 1873198747516957), (0, 8992183578), (0, 526019), (0, 13)], [(0,
    30585140262875118), (216681920417, 0), (11992254, 0), (377, 0)], [(5608322999008, 0), (73112318, 0), (4166, 0)],
    [(0, 2107889813), (0, 120675), (0, 6)]], 3, 4⟩, 72057594037927936, 344532194029, 80135867650, ⟨[[(15293807956794,
    0), (242703643, 0), (87281, 0), (882, 0), (0, 7)], [(1030777751, 0), (877686, 0), (0, 371), (5, 0)], [(0,
    452574), (0, 155), (0, 2)], [(201, 0)]], 3, 4⟩, 17592186044416, 243049,
    5064076726720872625209040769468425553805865541909539278119058088444527978954858189588047174162886555254965471671933162265689933,
    lc0⟩)) (.leaf ⟨1758, 16, 3492, 1044, 16, 3506, ⟨[[(0, 2927400871264256), (0, 4079118745747395), (62091604938, 0),
    (1350887, 0), (79, 0)], [(3799821067108516, 0), (0, 1514961460133), (57949344, 0), (2442, 0)], [(1995420072049,
    0), (0, 478214348), (0, 15806), (0, 1)], [(2154523640, 0), (0, 309235), (0, 22)]], 3, 4⟩, ⟨[[(29533238039511040,
    0), (0, 2638816066791016), (0, 22991939179), (0, 2824319), (0, 137)], [(0, 21410634247187392), (306587385799, 0),
    (34113215, 0), (2160, 0)], [(3783102802684, 0), (79898030, 0), (9452, 0), (1, 0)], [(0, 1426423499), (0, 164704),
    (0, 16)]], 3, 4⟩, 72057594037927936, 216276832356, 74933526841, ⟨[[(15308867690323, 0), (361808464, 0), (85322,
    0), (3338, 0), (0, 15)], [(1933807603, 0), (2397241, 0), (0, 2127), (13, 0)], [(0, 1631120), (0, 582), (0, 10)],
    [(1407, 0), (0, 1)]], 3, 4⟩, 17592186044416, 996823,
    3586983958306502177336707762946399948717089626558495352038760327500113245414855630222082949422556394972053388225812975063209681,
    lc0⟩)) (.leaf ⟨1681, 16, 3396, 728, 16, 2474, ⟨[[(25374762796482560, 0), (0, 3875816159784032), (61211954587, 0),
    (1417963, 0), (80, 0)], [(5802532596711224, 0), (0, 2790153547885), (121664253, 0), (5410, 0)], [(6334009626228,
    0), (0, 1843768899), (0, 63064), (0, 5)], [(14861751879, 0), (0, 2620050), (0, 191)]], 3, 4⟩,
    ⟨[[(24405041047560192, 0), (0, 1884966191238153), (0, 19928619337), (0, 2230102), (0, 106)], [(0,
    30216590823959040), (477726811185, 0), (52293267, 0), (3297, 0)], [(11069689200142, 0), (286404421, 0), (33224,
    0), (3, 0)], [(0, 8683665880), (0, 1033139), (0, 100)]], 3, 4⟩, 72057594037927936, 3077381143954, 683559600542,
    ⟨[[(15246837201041, 0), (409091530, 0), (38315, 0), (9888, 0), (0, 30)], [(2060168715, 0), (3600887, 0), (0,
    4141), (43, 0), (1, 0)], [(0, 1855177), (0, 235), (0, 24), (0, 1)], [(1621, 0), (0, 5)]], 3, 4⟩, 17592186044416,
    2946928,
    5082463882549779441692723295199001942810636738584237090627874473267414775785441142068273242371030099380424007002555948473095917,
    lc0⟩)) (.leaf ⟨852, 16, 1703, 512, 16, 1766, ⟨[[(0, 4095952297934848), (0, 4041238812654105), (130381606070, 0),
    (6198558, 0), (709, 0)], [(3594428971708206, 0), (0, 3024515035153), (224196873, 0), (18729, 0), (2, 0)],
    [(4470880590675, 0), (0, 2128289297), (0, 163013), (0, 25)], [(9165466985, 0), (0, 2376593), (0, 326)]], 3, 4⟩,
    ⟨[[(10509689300525056, 0), (0, 2649692108273188), (0, 46102437425), (0, 11361124), (0, 1095)], [(0,
    21024170393688241), (670477080000, 0), (148472250, 0), (18955, 0), (2, 0)], [(7119411557414, 0), (211901182, 0),
    (55583, 0), (10, 0)], [(0, 5600888823), (0, 1349961), (0, 264)]], 3, 4⟩, 72057594037927936, 1948492557597,
    643361691366, ⟨[[(15278217936098, 0), (670174320, 0), (0, 755589), (28929, 0), (52, 0)], [(3900227911, 0),
    (10330295, 0), (0, 20829), (45, 0), (2, 0)], [(0, 7017323), (0, 1657), (0, 20), (0, 3)], [(13014, 0), (0, 73),
    (1, 0)]], 3, 4⟩, 17592186044416, 9037972,
    4957999693202878729068683084503215079364932067788848151943627204465861090174794824535504070468924517021102828294144142557582871,
    lc0⟩))
theorem c17 : checkR job con0 false ⟨7, 9, 7, 9, 13, 17⟩ 1 30400 t17 717 21 640 31247 251 32000 = true := by decide +kernel

def t18 : CTree :=
  .sy (.sx (.leaf ⟨802, 16, 1545, 529, 16, 1803, ⟨[[(0, 20708488903794688), (0, 3907752706346957), (118097243000, 0),
    (4963193, 0), (608, 0)], [(5158616362938854, 0), (0, 3097030753090), (169573126, 0), (11648, 0), (1, 0)],
    [(6253322303751, 0), (0, 2027586831), (0, 144068), (0, 23)], [(10747319293, 0), (0, 1740603), (0, 199)]], 3, 4⟩,
    ⟨[[(4110523579228160, 0), (0, 2643027687098626), (0, 25897076760), (0, 8831929), (0, 894)], [(0,
    21196063174695622), (554179544338, 0), (127515744, 0), (16533, 0), (2, 0)], [(6558963448865, 0), (27830427, 0),
    (16181, 0), (4, 0)], [(0, 4652057929), (0, 1062261), (0, 209)]], 3, 4⟩, 72057594037927936, 1954263390778,
    663822358631, ⟨[[(15402389780468, 0), (962948013, 0), (0, 843984), (27597, 0), (34, 0)], [(3912964728, 0),
    (10582213, 0), (0, 21878), (0, 75), (1, 0)], [(0, 7169026), (0, 7170), (37, 0), (0, 2)], [(14413, 0), (0, 36),
    (1, 0)]], 3, 4⟩, 17592186044416, 9208421,
    5713920821961368317155921447550609725646294373231930398529019858961135034055437270165290070371289157731092619068335879678748418,
    lc0⟩) (.leaf ⟨772, 16, 1482, 525, 16, 1832, ⟨[[(4570353392254976, 0), (0, 3876730142917314), (119856107936, 0),
    (5188226, 0), (639, 0)], [(5509348202965007, 0), (0, 3142656497300), (150111329, 0), (9132, 0), (1, 0)],
    [(7393558732192, 0), (0, 2144574274), (0, 159659), (0, 26)], [(11869164022, 0), (0, 1494957), (0, 149)]], 3, 4⟩,
    ⟨[[(12377153244839936, 0), (0, 2661917541841353), (0, 20858261912), (0, 8262550), (0, 840)], [(0,
    21001357608997784), (559908494610, 0), (129851128, 0), (17030, 0), (2, 0)], [(6098654829084, 0), (0, 102201161),
    (0, 9320), (1, 0)], [(0, 4249307557), (0, 988851), (0, 196)]], 3, 4⟩, 72057594037927936, 2088510271910,
    698550963453, ⟨[[(15400951422333, 0), (1010721514, 0), (0, 1795699), (22385, 0), (96, 0)], [(3899027250, 0),
    (11315739, 0), (0, 18015), (0, 110)], [(0, 7550219), (0, 9824), (95, 0), (0, 1)], [(16583, 0), (0, 50)]], 3, 4⟩,
    17592186044416, 6244675,
    4423724028370367571835727217370419736786773721641841245422757828240655401383000848573936642042164032722840742434888766075120075,
    lc0⟩)) (.leaf ⟨733, 16, 1460, 362, 16, 1294, ⟨[[(22647526609182720, 0), (0, 3635688004209236), (123265820472, 0),
    (6231811, 0), (715, 0)], [(7332696747737451, 0), (0, 5692138915397), (343034373, 0), (25862, 0), (3, 0)],
    [(22077808747619, 0), (0, 8736793840), (0, 746179), (0, 113)], [(80566589046, 0), (0, 14021621), (0, 1701)]], 3,
    4⟩, ⟨[[(4985924771729408, 0), (0, 1910182406440174), (0, 26812700332), (0, 7427938), (0, 719)], [(0,
    29589178611934074), (998814340702, 0), (223350952, 0), (28962, 0), (3, 0)], [(17957673573996, 0), (0, 92761226),
    (22451, 0), (10, 0)], [(0, 28632660035), (0, 7141264), (0, 1412)]], 3, 4⟩, 72057594037927936, 32608565678894,
    7569949619972, ⟨[[(15276839657042, 0), (1032580745, 0), (0, 4105894), (55745, 0), (365, 0)], [(4276683766, 0),
    (17615440, 0), (0, 43870), (0, 104), (2, 0)], [(0, 9315424), (0, 8354), (298, 0), (0, 6)], [(22711, 0), (0,
    187)]], 3, 4⟩, 17592186044416, 18262175,
    4997301886918777194790737160742257681754671642942917345812017927761439740573270719059445476512192251996632140007539765411650299,
    lc0⟩)
theorem c18 : checkR job con0 false ⟨7, 9, 7, 9, 13, 17⟩ 1 30400 t18 759 21 640 31247 251 32000 = true := by decide +kernel

def t19 : CTree :=
  .sy (.sx (.leaf ⟨635, 16, 1211, 371, 16, 1339, ⟨[[(13503614615150592, 0), (0, 3336856429138344), (105122171815, 0),
    (4620881, 0), (580, 0)], [(10773985082608096, 0), (0, 5604759831114), (210009429, 0), (9162, 0), (2, 0)],
    [(32305471594534, 0), (0, 7840854241), (0, 591761), (0, 97)], [(95080848012, 0), (0, 7771572), (0, 498)]], 3, 4⟩,
    ⟨[[(0, 24470132361011200), (0, 1920271096158476), (0, 9327506246), (0, 5256538), (0, 538)], [(0,
    29645906999165129), (783341083433, 0), (184862765, 0), (24646, 0), (2, 0)], [(15690290495637, 0), (0, 801279272),
    (0, 127082), (0, 11)], [(0, 20393337892), (0, 4824837), (0, 962)]], 3, 4⟩, 72057594037927936, 30618371171534,
    7683985568737, ⟨[[(15401381259666, 0), (1575582446, 0), (0, 5335842), (39356, 0), (283, 0)], [(4434480453, 0),
    (19594724, 0), (0, 26024), (0, 307), (0, 1)], [(0, 10612337), (0, 29461), (339, 0), (0, 1)], [(30434, 0), (0,
    85), (0, 2)]], 3, 4⟩, 17592186044416, 19154926,
    5315620450328375228894535087595485107741134291066286393584559570920271751275760061613251735829085936541726340053032610066056837,
    lc0⟩) (.sx (.sy (.leaf ⟨1191, 16, 2231, 743, 16, 2754, ⟨[[(8077835194269696, 0), (0, 3269203333812754),
    (50379553351, 0), (1037614, 0), (68, 0)], [(12787327341299618, 0), (0, 2838353212921), (39328300, 0), (267, 0)],
    [(19924977682762, 0), (0, 1916616733), (0, 66422), (0, 6)], [(26605424252, 0), (0, 642479), (1, 0)]], 3, 4⟩,
    ⟨[[(0, 5506825430949888), (0, 1949626143679469), (0, 1033511054), (0, 1096737), (0, 57)], [(0,
    29618517755370398), (348068216661, 0), (42555880, 0), (2889, 0)], [(7265255331144, 0), (0, 297058443), (0,
    25703), (0, 1)], [(0, 3933546897), (0, 457173), (0, 46)]], 3, 4⟩, 72057594037927936, 3734742678419, 950998035005,
    ⟨[[(15432859875517, 0), (931047728, 0), (0, 1537249), (3110, 0), (10, 0)], [(2180212046, 0), (5060375, 0), (0,
    1333), (0, 17)], [(0, 2739079), (0, 5306), (19, 0)], [(4293, 0)]], 3, 4⟩, 17592186044416, 1017221,
    5063095724976653030293983070583073968105946197723609723949454977130622523004714452011095550592629335651870106183063052082146460,
    lc0⟩) (.leaf ⟨1216, 16, 2321, 731, 16, 2762, ⟨[[(0, 24972778337681408), (0, 3347610693735905), (54148361494, 0),
    (1228757, 0), (78, 0)], [(11831193256839086, 0), (0, 2911535673775), (41423932, 0), (401, 0)], [(19709630363324,
    0), (0, 2067918109), (0, 78412), (0, 6)], [(27343395537, 0), (0, 667719)]], 3, 4⟩, ⟨[[(32731884888014848, 0), (0,
    1957191485450307), (0, 2782390846), (0, 1220165), (0, 62)], [(0, 29518186571111235), (394193901682, 0),
    (47265202, 0), (3196, 0)], [(7130132158515, 0), (0, 324855569), (0, 27903), (0, 1)], [(0, 4187076546), (0,
    506918), (0, 51)]], 3, 4⟩, 72057594037927936, 3997237538823, 1013960959858, ⟨[[(15371338410658, 0), (858115476,
    0), (0, 1624162), (2954, 0), (7, 0)], [(2146485705, 0), (5126419, 0), (0, 1528), (0, 16)], [(0, 2743446), (0,
    5422), (23, 0)], [(4473, 0), (0, 1)]], 3, 4⟩, 17592186044416, 1075590,
    5375307305586000854964300991393798551872089018697417175220325289610528115888389079040978950636054284534864675903725008421662908,
    lc0⟩)) (.sy (.leaf ⟨1127, 16, 2097, 737, 16, 2795, ⟨[[(4412239939108864, 0), (0, 3188116458951612), (48796478372,
    0), (976368, 0), (66, 0)], [(13730080116861998, 0), (0, 2822127606737), (31759014, 0), (0, 200)],
    [(22068755485703, 0), (0, 1868024816), (0, 61181), (0, 5)], [(28043824942, 0), (0, 452418), (19, 0)]], 3, 4⟩,
    ⟨[[(0, 25959697002864640), (0, 1964379032852976), (715791629, 0), (0, 992569), (0, 52)], [(0, 29459828189233073),
    (325635327672, 0), (40770132, 0), (2800, 0)], [(6920138163742, 0), (0, 354039187), (0, 31318), (0, 2)], [(0,
    3203259221), (0, 370045), (0, 37)]], 3, 4⟩, 72057594037927936, 3693022097593, 960795027539, ⟨[[(15433384412362,
    0), (1010584361, 0), (0, 1633078), (2319, 0), (6, 0)], [(2184457060, 0), (5238140, 0), (0, 263), (0, 15)], [(0,
    2880227), (0, 6550), (18, 0)], [(4857, 0), (4, 0)]], 3, 4⟩, 17592186044416, 1196175,
    5782623590023520318983914805341464888050747488751959412651259109667262158599201122126697223336639571924011798712755379106316868,
    lc0⟩) (.leaf ⟨1149, 16, 2180, 725, 16, 2804, ⟨[[(0, 17266690178400256), (0, 3262569564997498), (52363436412, 0),
    (1159173, 0), (75, 0)], [(12809035775053463, 0), (0, 2900819655248), (32756565, 0), (0, 136)], [(21950630976348,
    0), (0, 2010158467), (0, 72378), (0, 6)], [(28922644168, 0), (0, 450527), (20, 0)]], 3, 4⟩,
    ⟨[[(20410494990999552, 0), (0, 1970763331717213), (0, 862978501), (0, 1105313), (0, 57)], [(0,
    29380022839837123), (369944988596, 0), (45349494, 0), (3102, 0)], [(6755976488911, 0), (0, 388090436), (0,
    34179), (0, 2)], [(0, 3409585259), (0, 410408), (0, 41)]], 3, 4⟩, 72057594037927936, 3939211117933,
    1025192424250, ⟨[[(15371324741168, 0), (938455520, 0), (0, 1714251), (2325, 0), (5, 0)], [(2152449642, 0),
    (5321925, 0), (0, 438), (0, 16)], [(0, 2891168), (0, 6806), (21, 0)], [(5091, 0), (4, 0)]], 3, 4⟩,
    17592186044416, 1261576,
    5809244429934115446627658079786685557005216285868218298102981490630966836280121376647938411172147284396007351344661749660567804,
    lc0⟩)))) (.sx (.sx (.leaf ⟨760, 16, 1505, 502, 16, 1859, ⟨[[(0, 30810025526427648), (0, 3941941690651299),
    (137390771342, 0), (7140642, 0), (829, 0)], [(4630337838534798, 0), (0, 3237580655774), (150288704, 0), (9312,
    0), (1, 0)], [(7904876012776, 0), (0, 2558785040), (0, 225891), (0, 34)], [(13133624461, 0), (0, 1434012), (0,
    134)]], 3, 4⟩, ⟨[[(0, 6117362035306496), (0, 2699468230491358), (0, 28441841637), (0, 9354805), (0, 909)], [(0,
    20499658771676648), (698700676461, 0), (158563030, 0), (20863, 0), (2, 0)], [(5556297882483, 0), (0, 258575283),
    (0, 36688), (0, 2)], [(0, 4299414372), (0, 1094324), (0, 218)]], 3, 4⟩, 72057594037927936, 2506324915790,
    795311922967, ⟨[[(15280252748704, 0), (862470187, 0), (0, 2938311), (13617, 0), (50, 0)], [(3852860324, 0),
    (12489374, 0), (0, 16362), (0, 66)], [(0, 8320533), (0, 12951), (191, 0), (0, 1)], [(21753, 0), (0, 80), (0,
    1)]], 3, 4⟩, 17592186044416, 9456217,
    4238291239695286378484250674234852526396265935673809675422334600710716714564855913973324144189919530008110262392014282183097889,
    lc0⟩) (.leaf ⟨728, 16, 1437, 498, 16, 1889, ⟨[[(2014784715505664, 0), (0, 3898074924934813), (136821148992, 0),
    (7132010, 0), (839, 0)], [(5124896686146549, 0), (0, 3303310379338), (124807601, 0), (6029, 0), (1, 0)],
    [(9250022556662, 0), (0, 2599180159), (0, 228073), (0, 35)], [(14506639148, 0), (0, 1104485), (0, 68)]], 3, 4⟩,
    ⟨[[(529082029051904, 0), (0, 2713755679317025), (0, 22215403305), (0, 8621882), (0, 840)], [(0,
    20378278160983387), (682275019093, 0), (156864699, 0), (20842, 0), (2, 0)], [(5133350317896, 0), (0, 393703803),
    (0, 63486), (0, 6)], [(0, 3764586171), (0, 964554), (0, 194)]], 3, 4⟩, 72057594037927936, 2556249189865,
    824765081701, ⟨[[(15278562350610, 0), (953926377, 0), (0, 3313890), (11055, 0), (27, 0)], [(3835765104, 0),
    (13152598, 0), (0, 12900), (0, 84)], [(0, 8747498), (0, 19495), (207, 0)], [(25200, 0), (0, 51), (0, 1)]], 3, 4⟩,
    17592186044416, 11093018,
    4999434419575248361110280119537772708248195027015885755489485590586720115291785462643842392463485998604174025074831876756532024,
    lc0⟩)) (.sx (.leaf ⟨696, 16, 1368, 493, 16, 1917, ⟨[[(10407857503141888, 0), (0, 3847417345828407),
    (134854947559, 0), (6970774, 0), (833, 0)], [(5695080649754783, 0), (0, 3357648176043), (100336922, 0), (2873,
    0), (1, 0)], [(10671212690475, 0), (0, 2590396708), (0, 221588), (0, 35)], [(15819617707, 0), (0, 789246), (0,
    6)]], 3, 4⟩, ⟨[[(33075016091992064, 0), (0, 2725674838263565), (0, 15986356840), (0, 7873963), (0, 770)], [(0,
    20261859165053848), (653925486894, 0), (152792626, 0), (20507, 0), (2, 0)], [(4767548114426, 0), (0, 512875515),
    (0, 87232), (0, 9)], [(0, 3192129885), (0, 818811), (0, 165)]], 3, 4⟩, 72057594037927936, 2605442894141,
    847187879713, ⟨[[(15277737091768, 0), (1065225129, 0), (0, 3617957), (9318, 0), (16, 0)], [(3804275141, 0),
    (13740285, 0), (0, 8442), (0, 100)], [(0, 9097632), (0, 26784), (202, 0)], [(28531, 0), (0, 10), (0, 2)]], 3, 4⟩,
    17592186044416, 14005461,
    5627178282850334403583779985690889873852085891151895257511604232704786651415058589005156819419717392111329030208826438001767448,
    lc0⟩) (.sy (.leaf ⟨1173, 16, 2270, 714, 16, 2812, ⟨[[(0, 20781236642217984), (0, 3341566563285776), (56464561334,
    0), (1370810, 0), (85, 0)], [(11830099188192279, 0), (0, 2986419013599), (33958498, 0), (0, 57)],
    [(21786276851864, 0), (0, 2173754946), (0, 85355), (0, 7)], [(29886529349, 0), (0, 447763), (22, 0)]], 3, 4⟩,
    ⟨[[(0, 30356286188830720), (0, 1978122235414162), (0, 2622777807), (0, 1226737), (0, 61)], [(0,
    29265739581283291), (419091545567, 0), (50399961, 0), (3429, 0)], [(6570989842371, 0), (0, 425096798), (0,
    37277), (0, 2)], [(0, 3636728662), (0, 455412), (0, 46)]], 3, 4⟩, 72057594037927936, 4221413660630,
    1095531753521, ⟨[[(15310438811078, 0), (858200618, 0), (0, 1784200), (2490, 0), (3, 0)], [(2129283686, 0),
    (5423829, 0), (0, 789), (0, 18)], [(0, 2925780), (0, 7085), (25, 0)], [(5377, 0), (4, 0)]], 3, 4⟩,
    17592186044416, 1394087,
    5670911574165971718554002357646269191204586342687791943371247431792045372646231084191174947765960666403813579657129922473707745,
    lc0⟩) (.leaf ⟨1199, 16, 2368, 702, 16, 2821, ⟨[[(19003380226244608, 0), (0, 3425563163964183), (61194027060, 0),
    (1616213, 0), (97, 0)], [(10785843753518750, 0), (0, 3079803043258), (35406761, 0), (38, 0)], [(21565121352445,
    0), (0, 2362624222), (0, 100418), (0, 8)], [(30948045815, 0), (0, 444107), (23, 0)]], 3, 4⟩,
    ⟨[[(1885871093661696, 0), (0, 1988056979460727), (0, 4579327296), (0, 1357994), (0, 66)], [(0,
    29135161798550394), (473882495411, 0), (55998958, 0), (3786, 0)], [(6368246348027, 0), (0, 465620874), (0,
    40664), (0, 2)], [(0, 3889789187), (0, 505837), (0, 51)]], 3, 4⟩, 72057594037927936, 4543333559427,
    1178415133737, ⟨[[(15247734100324, 0), (775216432, 0), (0, 1861432), (2794, 0), (2, 0)], [(2103836300, 0),
    (5554313, 0), (0, 1175), (0, 22)], [(0, 2973852), (0, 7529), (29, 0)], [(5721, 0), (5, 0)]], 3, 4⟩,
    17592186044416, 1521061,
    5405907725033293771389659671678024377024463660366506526517974576259343689858370847465070002642630593417503593115336048338083143,
    lc0⟩))))
theorem c19 : checkR job con0 false ⟨7, 9, 7, 9, 13, 17⟩ 1 30400 t19 411 21 320 31247 251 32000 = true := by decide +kernel

def t20 : CTree :=
  .sx (.sy (.sx (.sx (.leaf ⟨905, 16, 1873, 492, 16, 1718, ⟨[[(18047790567677952, 0), (0, 4170764379867972),
    (142736766612, 0), (7394070, 0), (804, 0)], [(2080892986274758, 0), (0, 2864884279548), (297656724, 0), (28011,
    0), (3, 0)], [(2706805411959, 0), (0, 2147835427), (0, 164225), (0, 23)], [(7045426668, 0), (0, 3234737), (0,
    495)]], 3, 4⟩, ⟨[[(0, 1630433321152512), (0, 2665134099266424), (0, 70390214922), (0, 14267222), (0, 1316)], [(0,
    20711658962721442), (781030257096, 0), (167458879, 0), (21059, 0), (2, 0)], [(7850664940603, 0), (473603855, 0),
    (109516, 0), (16, 0)], [(0, 6611821110), (0, 1660569), (0, 322)]], 3, 4⟩, 72057594037927936, 1879206148174,
    587067865388, ⟨[[(15155945932226, 0), (385762409, 0), (0, 691498), (25585, 0), (42, 0)], [(3890529436, 0),
    (9735652, 0), (0, 19815), (260, 0), (3, 0)], [(0, 6818799), (7787, 0), (0, 71), (0, 6)], [(10923, 0), (0, 134),
    (2, 0)]], 3, 4⟩, 17592186044416, 9133968,
    4295340057977884705759682863843394052981389625327815805833400973219800160639644053648751749116457673005599118367855074108502184,
    lc0⟩) (.leaf ⟨876, 16, 1809, 490, 16, 1753, ⟨[[(0, 31628429652992000), (0, 4148351205723435), (149619515340, 0),
    (8232960, 0), (892, 0)], [(2268026497081546, 0), (0, 2957437506991), (271713078, 0), (24812, 0), (3, 0)],
    [(3567168553767, 0), (0, 2455527738), (0, 215912), (0, 31)], [(8374760116, 0), (0, 2912476), (0, 429)]], 3, 4⟩,
    ⟨[[(0, 9267642037338112), (0, 2685230153752468), (0, 64474749706), (0, 13629129), (0, 1258)], [(0,
    20495667844130234), (828664862190, 0), (178533486, 0), (22666, 0), (2, 0)], [(7187760956866, 0), (273396396, 0),
    (70915, 0), (11, 0)], [(0, 6302964521), (0, 1630749), (0, 318)]], 3, 4⟩, 72057594037927936, 2248310504721,
    684579036682, ⟨[[(15158750449480, 0), (424198706, 0), (0, 1531295), (21176, 0), (77, 0)], [(3877813427, 0),
    (10471638, 0), (0, 26226), (125, 0), (2, 0)], [(0, 7328557), (6742, 0), (103, 0), (0, 4)], [(13988, 0), (0,
    163)]], 3, 4⟩, 17592186044416, 6428080,
    3080991191429394606220454418731735110953965648335882154874080193446787891913829666847203926790161221820142420507593466882753715,
    lc0⟩)) (.leaf ⟨773, 16, 1594, 349, 16, 1296, ⟨[[(32322270413889536, 0), (0, 3828700681037633), (146075939619, 0),
    (8512065, 0), (924, 0)], [(4984161837245479, 0), (0, 5815394726407), (422529683, 0), (35736, 0), (4, 0)],
    [(19094214066059, 0), (0, 10454767618), (0, 1015634), (0, 144)], [(79770272804, 0), (0, 17402945), (0, 2329)]],
    3, 4⟩, ⟨[[(13909756067028992, 0), (0, 1946098460923779), (0, 39200749779), (0, 8994236), (0, 831)], [(0,
    29072511420387846), (1248312682364, 0), (271727004, 0), (34944, 0), (3, 0)], [(17945756554803, 0), (0, 62429089),
    (38765, 0), (12, 0)], [(0, 32648434808), (0, 8721668), (0, 1721)]], 3, 4⟩, 72057594037927936, 38522979291375,
    8490856716979, ⟨[[(15155172050600, 0), (693256468, 0), (0, 4732327), (42832, 0), (95, 0)], [(4156410829, 0),
    (17645170, 0), (0, 60625), (17, 0), (6, 0)], [(0, 9446030), (0, 809), (582, 0), (0, 6)], [(24374, 0), (0, 277),
    (0, 3)]], 3, 4⟩, 17592186044416, 19744398,
    4079762993291260430842478651666738678940935093860222474758414503040179464066526524150874850962485060362368691767204306916354387,
    lc0⟩)) (.sx (.leaf ⟨890, 16, 1900, 336, 16, 1235, ⟨[[(0, 31055688492318720), (0, 4134670390917096),
    (164639131412, 0), (10004393, 0), (1037, 0)], [(1613631951699208, 0), (0, 5368668763684), (680132898, 0), (67258,
    0), (7, 0)], [(7883221803549, 0), (0, 10412068377), (0, 972311), (0, 130)], [(49621885971, 0), (0, 29708408), (0,
    4705), (0, 1)]], 3, 4⟩, ⟨[[(0, 6700580483584000), (0, 1960149109291089), (0, 64453263136), (0, 11909679), (0,
    1054)], [(0, 28673128129653541), (1421194756495, 0), (298313367, 0), (37453, 0), (3, 0)], [(21998748401730, 0),
    (1352953377, 0), (321957, 0), (47, 0)], [(0, 42030326800), (0, 11417503), (0, 2211)]], 3, 4⟩, 72057594037927936,
    36344794934458, 6971166551451, ⟨[[(15039495328930, 0), (227118276, 0), (0, 2513503), (40873, 0), (0, 120)],
    [(3999770084, 0), (14294409, 0), (0, 85001), (656, 0), (14, 0)], [(0, 8043150), (28266, 0), (549, 0), (0, 13)],
    [(15627, 0), (0, 392), (0, 2)]], 3, 4⟩, 17592186044416, 18938952,
    2576043853327621409203536610108119229770210032976061290394254378817841142545624353234532434122218539924958085353704885001442016,
    lc0⟩) (.leaf ⟨822, 16, 1753, 335, 16, 1296, ⟨[[(0, 11192776378253312), (0, 4041706703843938), (176371230271, 0),
    (11582876, 0), (1201, 0)], [(2393164019221356, 0), (0, 5896873582699), (530996667, 0), (49039, 0), (5, 0)],
    [(14924627601364, 0), (0, 12745872553), (0, 1376588), (0, 187)], [(77423968853, 0), (0, 22014636), (0, 3186)]],
    3, 4⟩, ⟨[[(34703841028509696, 0), (0, 1992690911846040), (0, 54061373046), (0, 10781316), (0, 951)], [(0,
    28372750823626210), (1549237755068, 0), (329482614, 0), (41948, 0), (4, 0)], [(17925763364566, 0), (0, 13938317),
    (58410, 0), (14, 0)], [(0, 37489582078), (0, 10626692), (0, 2085)]], 3, 4⟩, 72057594037927936, 46379430766823,
    9590964409873, ⟨[[(15038239030676, 0), (348364486, 0), (0, 4536620), (48449, 0), (0, 223)], [(4030607114, 0),
    (18019052, 0), (0, 92325), (0, 198), (10, 0)], [(0, 9698712), (1560, 0), (967, 0), (0, 2)], [(26919, 0), (0,
    314), (0, 6)]], 3, 4⟩, 17592186044416, 17286525,
    2551385777706696339106063066590261275915538733052500278796195492365967234703869829908974400897003137015865446147741475200096653,
    lc0⟩))) (.sy (.sx (.leaf ⟨700, 16, 1437, 346, 16, 1349, ⟨[[(28103369816752128, 0), (0, 3689488582250544),
    (145934545800, 0), (8776315, 0), (967, 0)], [(6371555032675495, 0), (0, 6109195684667), (294683073, 0), (19855,
    0), (3, 0)], [(28158035849958, 0), (0, 11105412573), (0, 1114981), (0, 161)], [(102838195227, 0), (0, 10818942),
    (0, 1030)]], 3, 4⟩, ⟨[[(18669809289433088, 0), (0, 1971867512801443), (0, 28980454623), (0, 7828937), (0, 724)],
    [(0, 28859485222026002), (1248839531024, 0), (277301481, 0), (36259, 0), (3, 0)], [(14856369221144, 0), (0,
    1099718057), (0, 165056), (0, 14)], [(0, 26550621987), (0, 7262467), (0, 1452)]], 3, 4⟩, 72057594037927936,
    42040917218860, 9982182101215, ⟨[[(15155446679448, 0), (915198050, 0), (0, 6443503), (36168, 0), (0, 15)],
    [(4197292571, 0), (20677699, 0), (0, 48635), (0, 336), (4, 0)], [(0, 11035533), (0, 28731), (744, 0), (1, 0)],
    [(36644, 0), (0, 159), (0, 6)]], 3, 4⟩, 17592186044416, 21725397,
    4914874627084310024334429919232705959674802273502201066320195189442718087443645405494545012558102696988637758809900261670251506,
    lc0⟩) (.leaf ⟨624, 16, 1272, 342, 16, 1397, ⟨[[(0, 2270502462922752), (0, 3510937990487489), (138344332463, 0),
    (8245645, 0), (932, 0)], [(8270172151577666, 0), (0, 6275683195514), (174965498, 0), (4980, 0), (1, 0)],
    [(38372706849031, 0), (0, 10733358476), (0, 1035524), (0, 154)], [(123068406621, 0), (0, 4725865), (148, 0)]], 3,
    4⟩, ⟨[[(0, 35282527127420928), (0, 1990238459024354), (0, 18355715305), (0, 6570119), (0, 607)], [(0,
    28724971516963005), (1161687298478, 0), (265597744, 0), (35357, 0), (3, 0)], [(12442507877577, 0), (0,
    1946685443), (0, 333501), (0, 36)], [(0, 19154779076), (0, 5262655), (0, 1068)]], 3, 4⟩, 72057594037927936,
    41540224155580, 10702531400239, ⟨[[(15158127726304, 0), (1209323296, 0), (0, 7731929), (30642, 0), (23, 0)],
    [(4248764259, 0), (23348210, 0), (0, 22928), (0, 502), (2, 0)], [(0, 12589946), (0, 62080), (659, 0), (4, 0)],
    [(50601, 0), (50, 0), (0, 6)]], 3, 4⟩, 17592186044416, 32120270,
    5419184506144477113981568634158533444153547081371798243479344211405351883136362975314505391350462336695339157915763988496127167,
    lc0⟩)) (.leaf ⟨604, 16, 1283, 213, 16, 886, ⟨[[(0, 9685762600083456), (0, 3270544638715109), (149088951284, 0),
    (10125549, 0), (1071, 0)], [(7953793393118510, 0), (0, 11303598067261), (481134220, 0), (31040, 0), (4, 0)],
    [(103546742215849, 0), (0, 46442702005), (0, 5144680), (0, 719)], [(829970499919, 0), (0, 61641385), (0, 4373),
    (0, 1)]], 3, 4⟩, ⟨[[(0, 1171385516668928), (0, 1297289713283215), (0, 22942523127), (0, 5567593), (0, 488)], [(0,
    36250986707933196), (1959332552646, 0), (429660624, 0), (55874, 0), (5, 0)], [(32778925815260, 0), (0,
    4717724321), (0, 767133), (0, 79)], [(0, 136680385826), (0, 39861859), (0, 7990), (0, 1)]], 3, 4⟩,
    72057594037927936, 713661794494092, 124854269601129, ⟨[[(15038427608675, 0), (1054227670, 0), (0, 18588163),
    (184125, 0), (13, 0)], [(4787206739, 0), (42604943, 0), (0, 139953), (0, 3326), (17, 0)], [(0, 16635561), (0,
    115765), (3008, 0), (31, 0)], [(75522, 0), (0, 42), (0, 30)]], 3, 4⟩, 17592186044416, 99719467,
    4123641225848918268525496382192028769200375219146142651253085730562402704748805772718621616115549037921297163471308538780368113,
    lc0⟩))
theorem c20 : checkR job con0 false ⟨7, 9, 7, 9, 13, 17⟩ 1 30400 t20 195 21 160 31749 251 32000 = true := by decide +kernel

def t21 : CTree :=
  .sy (.sy (.out ⟨178, 16, 284, 845, 16, 747, ⟨[[(0, 16365420311152640), (0, 1249743991594652), (26358554661, 0)],
    [(33544386925967202, 0), (0, 4435344895202), (101084971, 0)], [(114601792593729, 0), (0, 7488801597), (0,
    12927)]], 2, 2⟩, ⟨[[(0, 15221370066092032), (0, 1345104682677794), (16773740799, 0)], [(0, 35069999116423034),
    (0, 188045482798), (35050768, 0)], [(41758232156225, 0), (0, 950956094), (0, 5720)]], 2, 2⟩, 72057594037927936,
    3419507144092454, 88497522734581, ⟨[], 0, 0⟩, 0, 0, 0, lc0⟩ 2 1 77742876740823) (.out ⟨178, 16, 299, 838, 16,
    749, ⟨[[(6664823307833344, 0), (0, 1288094280042839), (27344895959, 0)], [(32998702652787157, 0), (0,
    4563224147612), (105340364, 0)], [(116695107834793, 0), (0, 7887716585), (5689, 0)]], 2, 2⟩, ⟨[[(0,
    20686443929288704), (0, 1332040962598681), (16386144332, 0)], [(0, 35249745982611450), (0, 153567523428),
    (34673195, 0)], [(41387827368672, 0), (0, 972000487), (0, 31786)]], 2, 2⟩, 72057594037927936, 3571218743295393,
    105991634727810, ⟨[], 0, 0⟩, 0, 0, 0, lc0⟩ 2 1 59423936991036)) (.sx (.sy (.out ⟨287, 16, 520, 1274, 16, 1145,
    ⟨[[(0, 15394086953099264), (0, 2112839631455025), (44995663333, 0)], [(24769781377377054, 0), (0, 3735579351430),
    (89420007, 0)], [(44170692070542, 0), (0, 3300733714), (13980, 0)]], 2, 2⟩, ⟨[[(34576950691807232, 0), (0,
    2009718165257227), (23865139806, 0)], [(0, 27654442331786630), (0, 75226584224), (27876519, 0)],
    [(15768514072215, 0), (0, 345215101), (0, 25358)]], 2, 2⟩, 72057594037927936, 712138484689510, 40099942955836,
    ⟨[], 0, 0⟩, 0, 0, 0, lc0⟩ 2 1 56162938411208) (.out ⟨286, 16, 546, 1267, 16, 1151, ⟨[[(0, 11903362336223232), (0,
    2171353625656024), (46650700919, 0)], [(24062701698569643, 0), (0, 3829347164758), (91288805, 0)],
    [(44643090327071, 0), (0, 3451302063), (13511, 0)]], 2, 2⟩, ⟨[[(12044382526652416, 0), (0, 1996478559910083),
    (23356618829, 0)], [(0, 27830128076822912), (0, 46675799255), (29816825, 0)], [(15669458389270, 0), (0,
    378998257), (0, 38498)]], 2, 2⟩, 72057594037927936, 737032105606247, 44500222625694, ⟨[], 0, 0⟩, 0, 0, 0, lc0⟩ 2
    1 38418098834453)) (.sy (.sx (.out ⟨375, 16, 653, 1752, 16, 1589, ⟨[[(0, 33113831839481856), (0,
    2805197165663249), (60054937774, 0)], [(17443585579939870, 0), (0, 2479736753363), (56510403, 0)],
    [(16189252342242, 0), (0, 1092418522), (1193, 0)]], 2, 2⟩, ⟨[[(15241004557615104, 0), (0, 2792827089813203),
    (34304117779, 0)], [(0, 18504366259600640), (0, 68736883318), (18287854, 0)], [(5409242401724, 0), (0,
    142213275), (0, 7812)]], 2, 2⟩, 72057594037927936, 130704345497361, 10571996998505, ⟨[], 0, 0⟩, 0, 0, 0, lc0⟩ 2 1
    31296290920760) (.sy (.out ⟨543, 16, 909, 2605, 16, 2370, ⟨[[(12621210532241408, 0), (0, 2037238748639802),
    (21804287780, 0)], [(26723257182611429, 0), (0, 1800625486058), (19747368, 0)], [(25077206469320, 0), (0,
    781228666), (0, 857)]], 2, 2⟩, ⟨[[(0, 13270746977599488), (0, 2091684134379027), (13149114634, 0)], [(0,
    26906390110780757), (0, 63903614916), (6599417, 0)], [(8095795873790, 0), (0, 114850794), (0, 2106)]], 2, 2⟩,
    72057594037927936, 182060798517478, 4120853848455, ⟨[], 0, 0⟩, 0, 0, 0, lc0⟩ 2 1 19665798747788) (.leaf ⟨779, 16,
    948, 935, 16, 2787, ⟨[[(19987188921589760, 0), (0, 2101896303037410), (22577007815, 0), (0, 106782), (2, 0)],
    [(26932278362709157, 0), (0, 1857297085504), (20398139, 0), (0, 149)], [(25743941253950, 0), (0, 815390616), (0,
    406)], [(20016348680, 0), (0, 162369), (0, 9)]], 3, 4⟩, ⟨[[(0, 19193884847054848), (0, 2125460957393652),
    (13290746571, 0), (0, 101430), (1, 0)], [(0, 27544628196554094), (0, 58576987404), (6743384, 0), (14, 0)],
    [(8218907820897, 0), (0, 120014719), (0, 2981), (0, 1)], [(166238310, 0), (0, 75431), (4, 0)]], 3, 4⟩,
    72057594037927936, 1552092872149, 461098194537, ⟨[[(16715832056896, 0), (2442864102, 0), (0, 697280), (0, 556),
    (0, 11)], [(2518725105, 0), (4256885, 0), (1798, 0), (14, 0)], [(0, 3624437), (0, 6348), (0, 5)], [(5368, 0), (8,
    0)]], 3, 4⟩, 17592186044416, 1583978,
    3721024784143419982257312815373929905717680943561263783768310699351107879977821672782421628993718879696808672858392511002838492,
    lc0⟩))) (.sx (.sy (.out ⟨557, 16, 1010, 2573, 16, 2353, ⟨[[(0, 13233565247266816), (0, 2134618903325392),
    (22984014444, 0)], [(25548401719095244, 0), (0, 1885109180226), (21429821, 0)], [(24404221618533, 0), (0,
    843843760), (803, 0)]], 2, 2⟩, ⟨[[(12625380438507520, 0), (0, 2048861920624531), (12473430107, 0)], [(0,
    27435827927755102), (0, 40594133969), (6929241, 0)], [(7928874145221, 0), (0, 110595479), (0, 4171)]], 2, 2⟩,
    72057594037927936, 187530788708141, 4660702284912, ⟨[], 0, 0⟩, 0, 0, 0, lc0⟩ 2 1 17923568918045) (.leaf ⟨819, 16,
    1055, 915, 16, 2767, ⟨[[(27025850841554944, 0), (0, 2205699773305434), (23854157697, 0), (0, 98410), (4, 0)],
    [(25703821126925041, 0), (0, 1946800068866), (22027576, 0), (0, 254)], [(25049276825875, 0), (0, 880541970),
    (932, 0)], [(20607962260, 0), (0, 230535), (0, 4)]], 3, 4⟩, ⟨[[(0, 1922682585219072), (0, 2082359033636545),
    (12599311258, 0), (0, 104564), (0, 2)], [(0, 28073856350153472), (0, 34306619062), (7275472, 0), (150, 0)],
    [(8049835402257, 0), (0, 117846994), (0, 5221), (0, 1)], [(0, 302654503), (0, 76983), (3, 0)]], 3, 4⟩,
    72057594037927936, 1705713961326, 473650641514, ⟨[[(16569965733513, 0), (2283954510, 0), (0, 758734), (0, 543),
    (0, 14)], [(2515131739, 0), (4343154, 0), (1387, 0), (14, 0)], [(0, 3488018), (0, 5928), (0, 1)], [(4998, 0), (6,
    0)]], 3, 4⟩, 17592186044416, 1507349,
    3471779304807670118384607892902660357315287997139063608393344309557727198381177565590286447264108809501804544498546278412151166,
    lc0⟩)) (.leaf ⟨525, 16, 657, 620, 16, 1893, ⟨[[(0, 2227322409615360), (0, 2866507555680452), (61935711396, 0),
    (0, 558088), (28, 0)], [(17703814672807098, 0), (0, 2532168367547), (55445750, 0), (0, 1125)], [(17415930669105,
    0), (0, 1130430907), (388, 0), (1, 0)], [(13784234307, 0), (0, 240756), (0, 17)]], 3, 4⟩, ⟨[[(0,
    8734726348677120), (0, 2860374036143414), (35494469791, 0), (0, 541956), (0, 2)], [(0, 18736353777678577), (0,
    65702543527), (18582083, 0), (396, 0)], [(5519786370174, 0), (0, 170506240), (0, 11820), (0, 3)], [(75832120, 0),
    (0, 94474), (11, 0)]], 3, 4⟩, 72057594037927936, 1131925348480, 351384697358, ⟨[[(16607559498434, 0),
    (3504669096, 0), (0, 1544707), (54, 0), (0, 31)], [(3725826101, 0), (9497877, 0), (3962, 0), (23, 0), (1, 0)],
    [(0, 8000945), (0, 20771), (3, 0)], [(17854, 0), (36, 0)]], 3, 4⟩, 17592186044416, 8981914,
    2596279332736225720689184387219793056768067057571050192457705758322198014073454169881432922212026219623201725549840620761257200,
    lc0⟩))))
theorem c21 : checkR job con0 false ⟨7, 9, 7, 9, 13, 17⟩ 1 30400 t21 453 21 320 14243 251 16000 = true := by decide +kernel

def t22 : CTree :=
  .sy (.sx (.sy (.sx (.out ⟨368, 16, 547, 1772, 16, 1590, ⟨[[(16307663852511232, 0), (0, 2641456843190705),
    (55824961170, 0)], [(19421765432247610, 0), (0, 2330175171302), (47252365, 0)], [(17435886237174, 0), (0,
    943625758), (0, 12895)]], 2, 2⟩, ⟨[[(0, 14290626864496640), (0, 2875120549829627), (37661822525, 0)], [(0,
    17492909768698353), (0, 130731727436), (18748199, 0)], [(5609135593099, 0), (0, 164892590), (1845, 0)]], 2, 2⟩,
    72057594037927936, 125034478997779, 16528553857301, ⟨[], 0, 0⟩, 0, 0, 0, lc0⟩ 2 1 35100457223813) (.leaf ⟨494,
    16, 529, 655, 16, 1880, ⟨[[(31871710728339456, 0), (0, 2650794802125860), (55881842682, 0), (0, 456428), (0,
    25)], [(20263957280133336, 0), (0, 2330345600585), (44403788, 0), (614, 0)], [(18421540476713, 0), (0,
    915720116), (0, 18509), (4, 0)], [(12725481131, 0), (10189, 0), (0, 52)]], 3, 4⟩, ⟨[[(11767115481817088, 0), (0,
    2962052001253068), (39536273886, 0), (0, 753130), (54, 0)], [(0, 17498093582118717), (0, 149279844603),
    (19489601, 0), (0, 922)], [(5845552381586, 0), (0, 184346423), (3198, 0), (0, 2)], [(750277437, 0), (0, 115960),
    (11, 0)]], 3, 4⟩, 72057594037927936, 866009224293, 311775744951, ⟨[[(17049388306025, 0), (4140695493, 0), (0,
    1236168), (0, 1666), (0, 34)], [(3606387584, 0), (8650440, 0), (6860, 0), (62, 0), (1, 0)], [(0, 8054242), (0,
    20975), (0, 49), (0, 1)], [(17877, 0), (57, 0)]], 3, 4⟩, 17592186044416, 10824917,
    5418034829823646444326194797997898596021463828238295835764539671439976355289670938428110987963475934838634525930861562033785679,
    lc0⟩)) (.sx (.leaf ⟨509, 16, 578, 645, 16, 1879, ⟨[[(0, 30618289373327360), (0, 2732331776492866), (58183364821,
    0), (0, 546289), (0, 8)], [(19299023312139584, 0), (0, 2411943567543), (50143585, 0), (0, 64)], [(17920466924907,
    0), (0, 1008305383), (0, 8830), (3, 0)], [(13099303824, 0), (0, 107515), (0, 39)]], 3, 4⟩, ⟨[[(0,
    21490998535258112), (0, 2916187764557918), (37692625659, 0), (0, 626619), (40, 0)], [(0, 18038708061118418), (0,
    115522709216), (18275611, 0), (0, 548)], [(5679196703603, 0), (0, 169176308), (0, 1459), (0, 2)], [(437317462,
    0), (0, 108579), (11, 0)]], 3, 4⟩, 72057594037927936, 966663259504, 323570995361, ⟨[[(16903461142464, 0),
    (3908827029, 0), (0, 1388418), (0, 2146), (0, 45)], [(3671057068, 0), (8979521, 0), (7079, 0), (74, 0), (1, 0)],
    [(0, 7997285), (0, 21121), (0, 46), (0, 1)], [(17661, 0), (51, 0)]], 3, 4⟩, 17592186044416, 9639810,
    5731232549823993173598808051720728378852342130122931509388182412836372343959215790054084246093487095385147486955329259863921364,
    lc0⟩) (.leaf ⟨493, 16, 548, 639, 16, 1894, ⟨[[(19618960620220416, 0), (0, 2688251781296768), (57142538026, 0),
    (0, 515228), (0, 16)], [(19791582604517797, 0), (0, 2367490522212), (46628361, 0), (200, 0)], [(18602640747277,
    0), (0, 964958997), (0, 13527), (3, 0)], [(13174954540, 0), (0, 39259), (0, 45)]], 3, 4⟩, ⟨[[(28170363961622528,
    0), (0, 2944667119509924), (38765499589, 0), (0, 659059), (45, 0)], [(0, 17699059571869833), (0, 131340091064),
    (18360381, 0), (0, 753)], [(5796409753635, 0), (0, 184029337), (41, 0), (0, 2)], [(700077485, 0), (0, 105128),
    (13, 0)]], 3, 4⟩, 72057594037927936, 940196290416, 322383162778, ⟨[[(16898401803806, 0), (4001814838, 0), (0,
    1269146), (0, 237), (0, 20)], [(3594342735, 0), (8802806, 0), (5068, 0), (27, 0), (1, 0)], [(0, 8045325), (0,
    20900), (0, 20)], [(18116, 0), (50, 0)]], 3, 4⟩, 17592186044416, 10878528,
    2114997606474161087032845690661024470108681031473527339864876908422260365281566546500218321513469242825034421368048428068330580,
    lc0⟩))) (.sy (.leaf ⟨332, 16, 342, 488, 16, 1433, ⟨[[(0, 14595937432641536), (0, 1811004001361165), (37879812136,
    0), (0, 259166), (0, 25)], [(29403956317958662, 0), (0, 3161585323486), (53521603, 0), (1517, 0)],
    [(54115869781297, 0), (0, 2334231668), (0, 76916), (13, 0)], [(71281842114, 0), (683773, 0), (0, 347)]], 3, 4⟩,
    ⟨[[(0, 1850154562654208), (0, 2265525029507734), (31083533581, 0), (0, 623811), (44, 0)], [(0,
    25536510848034231), (0, 265065312676), (30522406, 0), (0, 1745)], [(18365793921369, 0), (0, 627902523), (16036,
    0), (0, 5)], [(6920741237, 0), (0, 688700), (67, 0)]], 3, 4⟩, 72057594037927936, 8868227262376, 3685339778246,
    ⟨[[(17053070319706, 0), (5687058544, 0), (0, 1908163), (416, 0), (0, 31)], [(4942641024, 0), (15734171, 0),
    (11284, 0), (51, 0), (1, 0)], [(0, 16363859), (0, 54131), (0, 69), (0, 1)], [(52514, 0), (209, 0)]], 3, 4⟩,
    17592186044416, 80570569,
    3311349248257230295135869760319401701618927734010601055379061521374819371720329695378400496347710392318830281069251573451026014,
    lc0⟩) (.leaf ⟨332, 16, 356, 475, 16, 1440, ⟨[[(27676919304093696, 0), (0, 1845767012633291), (38987402405, 0),
    (0, 316527), (0, 20)], [(28969760551476578, 0), (0, 3234041669337), (57600361, 0), (927, 0)], [(55092879466436,
    0), (0, 2500281495), (0, 60705), (12, 0)], [(74470560588, 0), (375604, 0), (0, 309)]], 3, 4⟩, ⟨[[(0,
    28393055036628992), (0, 2245683764199567), (30355253389, 0), (0, 543891), (38, 0)], [(0, 25787453192915666), (0,
    236849668529), (28161591, 0), (0, 1565)], [(18142152873793, 0), (0, 618867978), (7684, 0), (0, 6)], [(6625396622,
    0), (0, 616792), (83, 0)]], 3, 4⟩, 72057594037927936, 9742784870497, 3718850879944, ⟨[[(16901371060893, 0),
    (5508592279, 0), (0, 2079119), (1458, 0), (0, 17)], [(4935217229, 0), (16148068, 0), (10765, 0), (12, 0), (1,
    0)], [(0, 16318772), (0, 56096), (0, 40)], [(53206, 0), (208, 0)]], 3, 4⟩, 17592186044416, 79956210,
    3028778088176929243429393675456528628248877746468261134096270169938649785196267307643613200315214239671869227139792603355333305,
    lc0⟩))) (.sx (.sy (.leaf ⟨359, 16, 419, 465, 16, 1411, ⟨[[(0, 5518690758254592), (0, 1974937677638999),
    (42332209498, 0), (0, 405861), (0, 1)], [(27328647990448610, 0), (0, 3486200114518), (71752309, 0), (0, 535)],
    [(52908960357013, 0), (0, 2966970290), (0, 20064), (8, 0)], [(77988607588, 0), (0, 662437), (0, 196)]], 3, 4⟩,
    ⟨[[(2544908574904320, 0), (0, 2163376684073961), (27912415418, 0), (0, 426387), (21, 0)], [(0,
    26818248358273493), (0, 157540921527), (26194748, 0), (0, 578)], [(16886879812133, 0), (0, 536404820), (0,
    13943), (0, 9)], [(3098200448, 0), (0, 561703), (81, 0)]], 3, 4⟩, 72057594037927936, 11529098387021,
    3703438901960, ⟨[[(16752960988706, 0), (5133221362, 0), (0, 2499230), (831, 0), (0, 53)], [(5047538586, 0),
    (17050387, 0), (11324, 0), (45, 0), (2, 0)], [(0, 15602933), (0, 55585), (0, 24), (0, 1)], [(49470, 0), (169,
    0)]], 3, 4⟩, 17592186044416, 55685272,
    3730063419055203565917207050157127383772732500990451083325592595355984886046687720063011974044820540277930736788658423063884527,
    lc0⟩) (.leaf ⟨361, 16, 438, 452, 16, 1418, ⟨[[(0, 2119132496289792), (0, 2020384316336090), (43616952241, 0), (0,
    415404), (10, 0)], [(26757273433542787, 0), (0, 3569568242357), (73668415, 0), (0, 1217)], [(53746900894360, 0),
    (0, 3116881584), (0, 10120), (6, 0)], [(81130712490, 0), (0, 869028), (0, 147)]], 3, 4⟩, ⟨[[(21147193824206848,
    0), (0, 2146260709949967), (27432053686, 0), (0, 397582), (9, 0)], [(0, 27024196418306146), (0, 132208284253),
    (25827061, 0), (0, 57)], [(16695384778259, 0), (0, 559977747), (0, 28036), (0, 10)], [(2851474745, 0), (0,
    478174), (91, 0)]], 3, 4⟩, 72057594037927936, 12418969906083, 3784814625510, ⟨[[(16605875122718, 0), (4946827889,
    0), (0, 2711332), (2832, 0), (0, 19)], [(4995099100, 0), (17447220, 0), (10477, 0), (0, 24), (1, 0)], [(0,
    15445061), (0, 57327), (12, 0)], [(49822, 0), (173, 0), (0, 1)]], 3, 4⟩, 17592186044416, 54690455,
    3718153455741601538935470491204311981981915328324377289583742546435994793909802221327568535112162388777353576227929025762640773,
    lc0⟩)) (.sy (.leaf ⟨332, 16, 370, 461, 16, 1447, ⟨[[(16717357176819712, 0), (0, 1877929042868189), (39997192914,
    0), (0, 363648), (0, 13)], [(28436873600554935, 0), (0, 3300560695933), (60805191, 0), (284, 0)],
    [(55940609833770, 0), (0, 2652738529), (0, 45098), (11, 0)], [(77518846708, 0), (95560, 0), (0, 266)]], 3, 4⟩,
    ⟨[[(21464924275240960, 0), (0, 2226370119934168), (29734105039, 0), (0, 477002), (30, 0)], [(0,
    26025344820433612), (0, 210711927605), (26134563, 0), (0, 1284)], [(17919274288484, 0), (0, 619190744), (0,
    2717), (0, 8)], [(6368669735, 0), (0, 528700), (99, 0)]], 3, 4⟩, 72057594037927936, 10593019581481,
    3757945645440, ⟨[[(16750134247045, 0), (5343889389, 0), (0, 2287262), (2135, 0), (0, 5)], [(4895947227, 0),
    (16548863, 0), (11225, 0), (0, 15)], [(0, 16189260), (0, 58433), (0, 30)], [(53828, 0), (216, 0)]], 3, 4⟩,
    17592186044416, 79253774,
    2609137650524234388412842717145127014470023864724373555948128679497722967107489094677270020833213794854599132510091254665905201,
    lc0⟩) (.leaf ⟨333, 16, 386, 448, 16, 1454, ⟨[[(6875905179664384, 0), (0, 1917535899915033), (41138616028, 0), (0,
    398741), (0, 5)], [(27954046546594645, 0), (0, 3379555001791), (63343806, 0), (0, 417)], [(56959980211722, 0),
    (0, 2806214356), (0, 30553), (10, 0)], [(80855969371, 0), (0, 149834), (0, 219)]], 3, 4⟩, ⟨[[(3441450401599488,
    0), (0, 2207491039700888), (29197454356, 0), (0, 427847), (20, 0)], [(0, 26251067698771474), (0, 186246412614),
    (24607007, 0), (0, 886)], [(17691917472409, 0), (0, 631105054), (0, 15427), (0, 9)], [(6159168390, 0), (0,
    423338), (116, 0)]], 3, 4⟩, 72057594037927936, 11469558022804, 3805533443584, ⟨[[(16606477884367, 0),
    (5172451816, 0), (0, 2522949), (2431, 0), (3, 0)], [(4856384723, 0), (16961310, 0), (12391, 0), (0, 28)], [(0,
    16041177), (0, 60898), (0, 32)], [(54397, 0), (229, 0)]], 3, 4⟩, 17592186044416, 79168186,
    2921101988625008788133996214035832612296959577534729570274110573055577827031940563685839694820817691611735707335396750854707516,
    lc0⟩)))
theorem c22 : checkR job con0 false ⟨7, 9, 7, 9, 13, 17⟩ 1 30400 t22 495 21 320 14243 251 16000 = true := by decide +kernel

def t23 : CTree :=
  .sy (.sx (.sy (.sx (.out ⟨383, 16, 782, 1733, 16, 1586, ⟨[[(30020998029987840, 0), (0, 2987474268335578),
    (64802014528, 0)], [(15243746255506362, 0), (0, 2626553608334), (62965597, 0)], [(14527576137071, 0), (0,
    1205460807), (3055, 0)]], 2, 2⟩, ⟨[[(0, 25912143289876480), (0, 2719011474802224), (30742430061, 0)], [(0,
    19409538682162749), (0, 4594119615), (23379154, 0)], [(5373417337821, 0), (0, 138191502), (0, 18235)]], 2, 2⟩,
    72057594037927936, 129537235991618, 20378102310617, ⟨[], 0, 0⟩, 0, 0, 0, lc0⟩ 2 1 29689217726599) (.leaf ⟨563,
    16, 758, 617, 16, 1877, ⟨[[(0, 33165477427642368), (0, 3004807785806934), (65381757161, 0), (0, 412651), (69,
    0)], [(16027442068953292, 0), (0, 2646216171404), (61276784, 0), (0, 1657)], [(15737589296529, 0), (0,
    1218253414), (2814, 0), (0, 1)], [(13642425979, 0), (0, 377311), (0, 2)]], 3, 4⟩, ⟨[[(15895104182763520, 0), (0,
    2798630609393860), (32614664757, 0), (0, 668757), (0, 52)], [(0, 19513862374509044), (0, 17373494111), (22472124,
    0), (1578, 0)], [(5446407505430, 0), (0, 158431635), (0, 18925), (0, 4)], [(0, 521782273), (0, 118380), (1, 0)]],
    3, 4⟩, 72057594037927936, 1228832658183, 378184207175, ⟨[[(16464735651360, 0), (3141778152, 0), (0, 1724888), (0,
    2456), (0, 94)], [(3836208098, 0), (9784725, 0), (3483, 0), (88, 0), (2, 0)], [(0, 7828275), (0, 18506), (2, 0),
    (0, 1)], [(16438, 0), (19, 0)]], 3, 4⟩, 17592186044416, 8350689,
    5202073155011473037863901978486804755968899893085785210943970151441921208184376793605840907880277416264809624958617936595884268,
    lc0⟩)) (.leaf ⟨437, 16, 616, 439, 16, 1365, ⟨[[(0, 5861079315275776), (0, 2345079095014702), (51722544242, 0),
    (0, 172472), (77, 0)], [(22911498139950629, 0), (0, 4120894241895), (95211298, 0), (0, 2964)], [(46468672395034,
    0), (0, 3876454876), (0, 1283), (0, 9)], [(84138729157, 0), (0, 2553475), (41, 0)]], 3, 4⟩, ⟨[[(0,
    5666797924081664), (0, 2011966043677974), (22521145387, 0), (0, 622802), (0, 69)], [(0, 28714770256470095),
    (20330861871, 0), (38463173, 0), (3647, 0), (1, 0)], [(15716213057202, 0), (0, 502147468), (0, 72654), (0, 12)],
    [(0, 4231229131), (0, 764669), (0, 26)]], 3, 4⟩, 72057594037927936, 15679205656565, 4154276219962,
    ⟨[[(16323795065477, 0), (4027845133, 0), (0, 3263227), (1231, 0), (0, 262)], [(5072760461, 0), (18138523, 0), (0,
    551), (105, 0), (8, 0)], [(0, 13548047), (0, 42432), (143, 0), (0, 3)], [(37460, 0), (34, 0), (0, 1)]], 3, 4⟩,
    17592186044416, 37150003,
    4182782787343303486936446779112687426871997518654317217490204216246788652075078183715084390940049378959332330539460588870706567,
    lc0⟩)) (.sy (.leaf ⟨395, 16, 519, 445, 16, 1391, ⟨[[(28131307470307328, 0), (0, 2174901240480749), (47417063890,
    0), (0, 356682), (40, 0)], [(24894151726722453, 0), (0, 3839744518495), (84346436, 0), (0, 2404)],
    [(50566577620700, 0), (0, 3516368986), (5688, 0)], [(83341839331, 0), (0, 1728519), (0, 36)]], 3, 4⟩, ⟨[[(0,
    1063796242903040), (0, 2075296214883891), (25164062946, 0), (0, 433491), (0, 23)], [(0, 27912144681657838), (0,
    57256930295), (29841023, 0), (1600, 0)], [(15969341384086, 0), (0, 527999639), (0, 53256), (0, 12)], [(0,
    628129253), (0, 538448), (51, 0)]], 3, 4⟩, 72057594037927936, 14118894473819, 3927211471653, ⟨[[(16462029643382,
    0), (4492687891, 0), (0, 3071657), (3399, 0), (0, 75)], [(5075585507, 0), (18114012, 0), (6472, 0), (0, 13), (3,
    0)], [(0, 14685765), (0, 52312), (83, 0)], [(44590, 0), (107, 0), (0, 1)]], 3, 4⟩, 17592186044416, 39612549,
    4345981229267669602953370382190269156536760671913713829326828939169630417323151733667162393006969923179147433199336590864142706,
    lc0⟩) (.leaf ⟨399, 16, 545, 433, 16, 1399, ⟨[[(33197510775914496, 0), (0, 2234124209322007), (49299649052, 0),
    (0, 274226), (59, 0)], [(24139125104007272, 0), (0, 3945231806885), (84329202, 0), (0, 3108)], [(51247485337302,
    0), (0, 3687608409), (3084, 0), (0, 3)], [(86601497665, 0), (0, 1821798), (24, 0)]], 3, 4⟩, ⟨[[(6569569220460544,
    0), (0, 2062165952100233), (24605899790, 0), (0, 504771), (0, 45)], [(0, 28093786498458203), (0, 25998968437),
    (33160214, 0), (2605, 0), (1, 0)], [(15779530805678, 0), (0, 594352456), (0, 73050), (0, 14)], [(0, 890926410),
    (0, 491750), (47, 0)]], 3, 4⟩, 72057594037927936, 15109670141568, 4108038688565, ⟨[[(16320648848058, 0),
    (4277887702, 0), (0, 3354731), (6694, 0), (0, 9)], [(5013018313, 0), (18590122, 0), (5991, 0), (0, 114), (1, 0)],
    [(0, 14548077), (0, 55053), (112, 0), (1, 0)], [(44954, 0), (125, 0), (0, 2)]], 3, 4⟩, 17592186044416, 37540181,
    4731791108698146854335013073942007918310923326755801555514773592748972264986738232090798266687654817514599435648809653143299883,
    lc0⟩))) (.sx (.sy (.leaf ⟨443, 16, 649, 427, 16, 1372, ⟨[[(21818519674363904, 0), (0, 2416090583213563),
    (54353334729, 0), (3399, 0), (104, 0)], [(21984260947333641, 0), (0, 4243393596016), (95344763, 0), (0, 3465)],
    [(46906187454162, 0), (0, 4093549606), (0, 18447), (0, 13)], [(87310762062, 0), (0, 2621507), (94, 0)]], 3, 4⟩,
    ⟨[[(11651357437132800, 0), (0, 2000068359917958), (21575250840, 0), (0, 793506), (0, 99)], [(0,
    28841519922673597), (62349888671, 0), (45178094, 0), (5033, 0), (1, 0)], [(15523390083718, 0), (0, 587988474),
    (0, 93309), (0, 14)], [(0, 4647268930), (0, 806539), (0, 50)]], 3, 4⟩, 72057594037927936, 16814219211435,
    4405036557322, ⟨[[(16182740988712, 0), (3790674627, 0), (0, 3451827), (11012, 0), (0, 73)], [(5006133483, 0),
    (18665946, 0), (0, 5211), (0, 160), (3, 0)], [(0, 13441818), (0, 45245), (231, 0), (1, 0)], [(38123, 0), (49, 0),
    (0, 2)]], 3, 4⟩, 17592186044416, 29533280,
    3614200860520162144467144621192466320616645140426526257927545682542593739377855494116624367566918302975833652859690588307340974,
    lc0⟩) (.leaf ⟨451, 16, 686, 416, 16, 1380, ⟨[[(0, 1066380224602112), (0, 2496090183125689), (57637395813, 0),
    (252024, 0), (138, 0)], [(21010897435976250, 0), (0, 4386978787157), (95027653, 0), (0, 3967)], [(47401373628646,
    0), (0, 4358407804), (0, 44427), (0, 19)], [(90927032293, 0), (0, 2643705), (154, 0)]], 3, 4⟩, ⟨[[(0,
    20766140745568256), (0, 1990600443147449), (20332478685, 0), (0, 1030720), (0, 133)], [(0, 28966068449819221),
    (112562800568, 0), (54276136, 0), (6721, 0), (1, 0)], [(15291461597204, 0), (0, 697143744), (0, 117310), (0,
    17)], [(0, 5096813171), (0, 876940), (0, 81)]], 3, 4⟩, 72057594037927936, 18110712595746, 4722339922658,
    ⟨[[(16050042112926, 0), (3549620596, 0), (0, 3872083), (15231, 0), (38, 0)], [(4924159683, 0), (19218262, 0), (0,
    3715), (0, 269)], [(0, 13256284), (0, 49202), (229, 0), (3, 0)], [(38526, 0), (77, 0), (0, 2)]], 3, 4⟩,
    17592186044416, 26425618,
    4376185760455499340494428470374177688998587634969524992473966495128280571412559851479887426681590185637203170191919237846712683,
    lc0⟩)) (.sy (.leaf ⟨404, 16, 573, 421, 16, 1407, ⟨[[(0, 14390899181879296), (0, 2297049294081535), (51501783528,
    0), (0, 143852), (83, 0)], [(23318953894928616, 0), (0, 4061528088861), (83288750, 0), (0, 3866)],
    [(51934355756155, 0), (0, 3877362363), (0, 4695), (0, 7)], [(90101345991, 0), (0, 1855715), (94, 0)]], 3, 4⟩,
    ⟨[[(14758589004337152, 0), (0, 2049522572925518), (23900684610, 0), (0, 624177), (0, 71)], [(0,
    28258791032120558), (9610185795, 0), (38188132, 0), (3845, 0), (1, 0)], [(15549337897045, 0), (0, 682654196), (0,
    96230), (0, 16)], [(0, 1132790203), (0, 449848), (41, 0)]], 3, 4⟩, 72057594037927936, 16165752221755,
    4326429317991, ⟨[[(16185250213968, 0), (4071871815, 0), (0, 3741917), (7901, 0), (30, 0)], [(4928677362, 0),
    (19052338, 0), (8270, 0), (0, 152), (0, 1)], [(0, 14321908), (0, 58395), (97, 0), (2, 0)], [(44960, 0), (151, 0),
    (0, 1)]], 3, 4⟩, 17592186044416, 35624883,
    5251149978358881195523665024404605902866983500366644320326003654698076963792245278113359064413699367174311747255325603066526653,
    lc0⟩) (.sx (.leaf ⟨548, 16, 815, 565, 16, 1935, ⟨[[(0, 34055491326844928), (0, 3134879550157964), (71985977480,
    0), (130069, 0), (156, 0)], [(14422493076804928, 0), (0, 2773493802924), (55085991, 0), (0, 2993)],
    [(16794247808836, 0), (0, 1362617337), (0, 8254), (0, 4)], [(15251337801, 0), (0, 328227), (29, 0)]], 3, 4⟩,
    ⟨[[(31545634713985024, 0), (0, 2787200544959202), (30741146783, 0), (0, 1172492), (0, 148)], [(0,
    19640970440732114), (46554141714, 0), (32761898, 0), (3935, 0), (1, 0)], [(5238933357733, 0), (0, 267304407), (0,
    42379), (0, 6)], [(0, 394145466), (0, 90218), (1, 0)]], 3, 4⟩, 72057594037927936, 1459153070965, 454732124207,
    ⟨[[(16049679995130, 0), (2745271112, 0), (0, 2206211), (3635, 0), (15, 0)], [(3725692606, 0), (10875522, 0),
    (3541, 0), (0, 54)], [(0, 8152078), (0, 25316), (32, 0)], [(19526, 0), (51, 0)]], 3, 4⟩, 17592186044416, 9365007,
    4889347852909782599989833895263201625117938350436877969716910826296062817680855207903229511390924087018254246526041706260980796,
    lc0⟩) (.leaf ⟨526, 16, 771, 559, 16, 1952, ⟨[[(23364123980685312, 0), (0, 3078128548813478), (70276586351, 0),
    (0, 2572), (140, 0)], [(15056791462668788, 0), (0, 2733611471634), (51602165, 0), (0, 3136)], [(17778147116654,
    0), (0, 1325631352), (0, 4311), (0, 3)], [(15588719116, 0), (0, 270178), (28, 0)]], 3, 4⟩, ⟨[[(0,
    1019261996359680), (0, 2810196815298543), (32324130240, 0), (0, 1027592), (0, 126)], [(0, 19371116866128762),
    (23898954206, 0), (29479214, 0), (3419, 0), (1, 0)], [(5255434656613, 0), (0, 278706350), (0, 42068), (0, 7)],
    [(0, 72590682), (0, 53490), (10, 0)]], 3, 4⟩, 72057594037927936, 1435618165502, 445944229752, ⟨[[(16048011090153,
    0), (2854170364, 0), (0, 2232520), (2592, 0), (12, 0)], [(3684165155, 0), (10873759, 0), (5564, 0), (0, 38)],
    [(0, 8309533), (0, 27141), (13, 0)], [(20604, 0), (64, 0)]], 3, 4⟩, 17592186044416, 10167460,
    4965148777003894163079233749297155210474030787615147777087472803720661704525561896524821043948828480241107187070497244875472048,
    lc0⟩))))
theorem c23 : checkR job con0 false ⟨7, 9, 7, 9, 13, 17⟩ 1 30400 t23 453 21 320 14745 251 16000 = true := by decide +kernel

def t24 : CTree :=
  .sy (.sx (.sy (.leaf ⟨363, 16, 458, 440, 16, 1426, ⟨[[(0, 7637930782367744), (0, 2067170046124018), (44975768034,
    0), (0, 401867), (23, 0)], [(26124550303152875, 0), (0, 3656356570045), (74599423, 0), (0, 1959)],
    [(54563071754074, 0), (0, 3265406708), (0, 2300), (4, 0)], [(84345684089, 0), (0, 1031515), (0, 91)]], 3, 4⟩,
    ⟨[[(0, 6890063327363072), (0, 2130971846840333), (26990638133, 0), (0, 397089), (0, 7)], [(0, 27236845331686848),
    (0, 106760932172), (26374149, 0), (617, 0)], [(16498435922130, 0), (0, 599564526), (0, 44820), (0, 12)],
    [(2649890345, 0), (0, 384811), (100, 0)]], 3, 4⟩, 72057594037927936, 13320546000076, 3895950867984,
    ⟨[[(16465064807814, 0), (4751679734, 0), (0, 2979966), (3842, 0), (2, 0)], [(4952709420, 0), (17905005, 0),
    (11296, 0), (0, 59)], [(0, 15349724), (0, 59911), (18, 0), (1, 0)], [(50408, 0), (188, 0), (0, 1)]], 3, 4⟩,
    17592186044416, 52652830,
    3845530300843922870553855534260217785827700229981850710695852899893440683268469609076050375611369812426740257233755233811006323,
    lc0⟩) (.leaf ⟨365, 16, 480, 428, 16, 1434, ⟨[[(28586055096758272, 0), (0, 2119446313035673), (46545007348, 0),
    (0, 358849), (39, 0)], [(25475202512123221, 0), (0, 3755227897551), (74547204, 0), (0, 2776)], [(55465938637044,
    0), (0, 3421747961), (2838, 0), (2, 0)], [(87836242404, 0), (0, 1142442), (0, 27)]], 3, 4⟩, ⟨[[(0,
    33328018748350464), (0, 2115983630942124), (26521805231, 0), (0, 430500), (0, 25)], [(0, 27436754069893147), (0,
    80060111044), (28073052, 0), (1470, 0)], [(16275381753810, 0), (0, 657774143), (0, 64704), (0, 14)],
    [(2496677669, 0), (0, 281128), (110, 0)]], 3, 4⟩, 72057594037927936, 14261047340865, 4036253083757,
    ⟨[[(16323575730325, 0), (4542175584, 0), (0, 3305135), (4261, 0), (16, 0)], [(4921240756, 0), (18455580, 0),
    (13114, 0), (0, 76)], [(0, 15322297), (0, 63205), (10, 0), (1, 0)], [(51249, 0), (209, 0), (0, 1)]], 3, 4⟩,
    17592186044416, 53071523,
    4411121819198181362204381654580736939307504064875428148608998267223182822792455771250049493579993574474143800651051188478605328,
    lc0⟩)) (.sy (.leaf ⟨334, 16, 403, 435, 16, 1462, ⟨[[(0, 2323022616240128), (0, 1959180819210501), (42320785318,
    0), (0, 416237), (6, 0)], [(27430515864735028, 0), (0, 3462515772310), (64912309, 0), (0, 1187)],
    [(57991073407775, 0), (0, 2954205474), (0, 17125), (9, 0)], [(84286060772, 0), (0, 354599), (0, 166)]], 3, 4⟩,
    ⟨[[(10913034523856896, 0), (0, 2190477694366970), (28734959939, 0), (0, 401583), (8, 0)], [(0,
    26483374665568987), (0, 162976413744), (23788645, 0), (0, 352)], [(17465565338955, 0), (0, 657595911), (0,
    30787), (0, 11)], [(6010264053, 0), (0, 299545), (135, 0)]], 3, 4⟩, 72057594037927936, 12350144280876,
    3869863828349, ⟨[[(16463417183148, 0), (4996695159, 0), (0, 2784646), (2479, 0), (7, 0)], [(4810361168, 0),
    (17384380, 0), (14053, 0), (0, 32)], [(0, 15899805), (0, 63565), (0, 42), (1, 0)], [(55007, 0), (245, 0)]], 3,
    4⟩, 17592186044416, 79579859,
    3253011791114136370783186974182663455494071374813778027774726748761319135861052962785979524748553319138361281617162867513693120,
    lc0⟩) (.leaf ⟨335, 16, 421, 422, 16, 1470, ⟨[[(0, 15871283944599552), (0, 2002623964228986), (43571376496, 0),
    (0, 410287), (19, 0)], [(26856788115719991, 0), (0, 3550223959128), (65345291, 0), (0, 2037)], [(59028617705296,
    0), (0, 3097473521), (0, 5108), (8, 0)], [(87826875053, 0), (0, 509748), (0, 104)]], 3, 4⟩,
    ⟨[[(20833539143262208, 0), (0, 2173759274863017), (28288558758, 0), (0, 402891), (0, 7)], [(0,
    26704549096739858), (0, 139956582478), (23888169, 0), (341, 0)], [(17219948124851, 0), (0, 701171132), (0,
    49193), (0, 13)], [(5927760326, 0), (0, 155209), (156, 0)]], 3, 4⟩, 72057594037927936, 13231422309542,
    3954956223016, ⟨[[(16322954203983, 0), (4819917114, 0), (0, 3069135), (2363, 0), (9, 0)], [(4762488693, 0),
    (17828049, 0), (16020, 0), (0, 31)], [(0, 15778832), (0, 66422), (0, 55), (1, 0)], [(55627, 0), (263, 0)]], 3,
    4⟩, 17592186044416, 79305073,
    3535846179976935922532818815322598555721658907488925003449333341618417357987756547896922490939270502915831560810966730888151354,
    lc0⟩))) (.sx (.sy (.leaf ⟨368, 16, 504, 415, 16, 1442, ⟨[[(24004662694875136, 0), (0, 2176612901328369),
    (48375341061, 0), (0, 276963), (59, 0)], [(24788914660008411, 0), (0, 3866797573740), (73309498, 0), (0, 3681)],
    [(56436604846376, 0), (0, 3588686306), (4612, 0)], [(91625148814, 0), (0, 1189710), (48, 0)]], 3, 4⟩,
    ⟨[[(13803171170648064, 0), (0, 2101354334203130), (25969727279, 0), (0, 503799), (0, 46)], [(0,
    27622900321687351), (0, 50794405698), (31222671, 0), (2532, 0), (1, 0)], [(16015870443710, 0), (0, 738076944),
    (0, 88200), (0, 17)], [(2397352216, 0), (0, 166957), (120, 0)]], 3, 4⟩, 72057594037927936, 15250117891662,
    4204532068954, ⟨[[(16182676485619, 0), (4346340882, 0), (0, 3675152), (4120, 0), (22, 0)], [(4849292039, 0),
    (18925810, 0), (15756, 0), (0, 75), (0, 1)], [(0, 15132801), (0, 66378), (0, 11), (1, 0)], [(51351, 0), (233, 0),
    (0, 1)]], 3, 4⟩, 17592186044416, 53810437,
    5000789404513040021177191452759229161488420183779885415736862616161809547647094113564303935699502251001908250035231741420319211,
    lc0⟩) (.leaf ⟨371, 16, 529, 403, 16, 1450, ⟨[[(0, 9736524585500672), (0, 2233787450446740), (50441853690, 0), (0,
    144123), (84, 0)], [(23999981043375168, 0), (0, 3984475087933), (70514028, 0), (0, 4681)], [(57346247177605, 0),
    (0, 3762808933), (2133, 0), (0, 3)], [(95563010655, 0), (0, 1155444), (136, 0)]], 3, 4⟩, ⟨[[(0,
    9745481966374912), (0, 2087203393893247), (25269248552, 0), (0, 622923), (0, 70)], [(0, 27793515796116791), (0,
    17319999485), (36171401, 0), (3837, 0), (1, 0)], [(15707605152411, 0), (0, 844532734), (0, 115935), (0, 20)],
    [(2357563512, 0), (0, 42032), (130, 0)]], 3, 4⟩, 72057594037927936, 16264064758428, 4413238890900,
    ⟨[[(16050336571688, 0), (4147549961, 0), (0, 4056416), (3789, 0), (24, 0)], [(4791087703, 0), (19430226, 0),
    (18413, 0), (0, 68), (0, 1)], [(0, 15004141), (0, 69738), (0, 30), (1, 0)], [(51686, 0), (256, 0)]], 3, 4⟩,
    17592186044416, 53250871,
    5262273868239229102045888541877247879128204250102750591629204556070609946807771579202435409518157816058759011853112565555379690,
    lc0⟩)) (.sy (.leaf ⟨335, 16, 440, 409, 16, 1478, ⟨[[(33569316083007488, 0), (0, 2047596002849994), (44929558948,
    0), (0, 373657), (36, 0)], [(26223121802592634, 0), (0, 3643702759581), (64450653, 0), (0, 2979)],
    [(60067106352283, 0), (0, 3237121991), (5129, 0), (6, 0)], [(91502037359, 0), (0, 603983), (0, 32)]], 3, 4⟩,
    ⟨[[(33132913574526976, 0), (0, 2157345023781500), (27812975563, 0), (0, 436739), (0, 25)], [(0,
    26914398660803599), (0, 116136576319), (25168653, 0), (1217, 0)], [(16945548704966, 0), (0, 765225332), (0,
    71133), (0, 16)], [(5922892895, 0), (11834, 0), (178, 0)]], 3, 4⟩, 72057594037927936, 14109249993545,
    4066101910317, ⟨[[(16180622414551, 0), (4624749233, 0), (0, 3391981), (2182, 0), (10, 0)], [(4743709747, 0),
    (18427785, 0), (18311, 0), (0, 29)], [(0, 15841004), (0, 70327), (0, 70)], [(57095, 0), (288, 0)]], 3, 4⟩,
    17592186044416, 80298071,
    3699355613389097869547602804935518731629833826264374770349734729384666319851518689562057203899929551073314899487896226631797043,
    lc0⟩) (.leaf ⟨337, 16, 461, 397, 16, 1486, ⟨[[(0, 21976878721753088), (0, 2098334789104098), (46549860185, 0),
    (0, 298124), (56, 0)], [(25574834741190507, 0), (0, 3752398714956), (62139691, 0), (0, 4038)], [(61233428089252,
    0), (0, 3382046456), (13153, 0), (4, 0)], [(95549983123, 0), (0, 624609), (51, 0)]], 3, 4⟩, ⟨[[(0,
    24334888248713216), (0, 2141293610180249), (27255323374, 0), (0, 507885), (0, 44)], [(0, 27112131044096859), (0,
    90175382039), (27934008, 0), (2304, 0), (1, 0)], [(16630954946581, 0), (0, 853715341), (0, 97207), (0, 18)],
    [(6008165675, 0), (204259, 0), (204, 0)]], 3, 4⟩, 72057594037927936, 15016366743623, 4190831825799,
    ⟨[[(16051867991608, 0), (4446011025, 0), (0, 3706722), (1967, 0), (9, 0)], [(4690420939, 0), (18870579, 0),
    (20456, 0), (0, 25)], [(0, 15698151), (0, 73299), (0, 84)], [(57309, 0), (309, 0)]], 3, 4⟩, 17592186044416,
    79211993,
    3708375683742197963559825104731428142019399123118774666163377829016800407395715025344571443354026714876890722164552994919887956,
    lc0⟩)))
theorem c24 : checkR job con0 false ⟨7, 9, 7, 9, 13, 17⟩ 1 30400 t24 495 21 320 14745 251 16000 = true := by decide +kernel

def t25 : CTree :=
  .sy (.sx (.sy (.leaf ⟨310, 16, 303, 486, 16, 1472, ⟨[[(27770334621233152, 0), (0, 1725717454552862), (35406926350,
    0), (0, 150617), (0, 35)], [(30423848705337228, 0), (0, 2970025423693), (39889505, 0), (2472, 0)],
    [(56309166347721, 0), (0, 1935638396), (0, 113349), (15, 0)], [(69601019491, 0), (1532571, 0), (0, 414)]], 3, 4⟩,
    ⟨[[(31370346604204032, 0), (0, 2339808418855813), (33280449785, 0), (0, 724284), (47, 0)], [(0,
    24603473328739456), (0, 330184112097), (33097137, 0), (0, 2164)], [(19964933668528, 0), (0, 733588695), (24944,
    0), (0, 4)], [(10344803966, 0), (0, 702178), (64, 0)]], 3, 4⟩, 72057594037927936, 7852102535417, 3809256348890,
    ⟨[[(17047650383287, 0), (5845612824, 0), (0, 1693976), (1483, 0), (0, 4)], [(4737521243, 0), (15072408, 0),
    (9407, 0), (0, 1)], [(0, 16842991), (0, 53209), (0, 44)], [(55624, 0), (224, 0)]], 3, 4⟩, 17592186044416,
    111988140,
    2337028530693986558733570225449969366109156548937108820782483958850744849699167818481929148560692570570920889592174834374455693,
    lc0⟩) (.leaf ⟨309, 16, 314, 472, 16, 1479, ⟨[[(23245557752139776, 0), (0, 1751663855063871), (36405090638, 0),
    (0, 223556), (0, 31)], [(29993985085909425, 0), (0, 3034578385099), (44688063, 0), (1888, 0)], [(57318806526661,
    0), (0, 2112078224), (0, 94317), (15, 0)], [(72821298803, 0), (1183201, 0), (0, 378)]], 3, 4⟩,
    ⟨[[(35029227805147136, 0), (0, 2317889447506657), (32412428170, 0), (0, 636564), (43, 0)], [(0,
    24878906892551677), (0, 299992902166), (30037825, 0), (0, 2084)], [(19695672235685, 0), (0, 715015429), (18587,
    0), (0, 5)], [(10057570963, 0), (0, 631657), (83, 0)]], 3, 4⟩, 72057594037927936, 8683971655363, 3822424991982,
    ⟨[[(16896817639763, 0), (5692555510, 0), (0, 1872579), (1671, 0), (0, 1)], [(4725134378, 0), (15450543, 0),
    (10246, 0), (0, 9)], [(0, 16771643), (0, 55952), (0, 43)], [(56054, 0), (235, 0)]], 3, 4⟩, 17592186044416,
    113100458,
    2403065821388312405275423765895294636754043516107281688112226810307204331557617109997548966785352902773405141690085523302920754,
    lc0⟩)) (.sy (.leaf ⟨292, 16, 268, 486, 16, 1514, ⟨[[(0, 35959614565007360), (0, 1639611000323476), (32592958928,
    0), (0, 15251), (0, 44)], [(31428803458144274, 0), (0, 2761876064318), (24738253, 0), (3484, 0)],
    [(57912838613731, 0), (0, 1478822777), (0, 153074), (17, 0)], [(67090527648, 0), (2383477, 0), (0, 475)]], 3, 4⟩,
    ⟨[[(5720475846508544, 0), (0, 2422217278488324), (35709675727, 0), (0, 844182), (48, 0)], [(0,
    23518356975298438), (0, 406819768320), (36522628, 0), (0, 2476)], [(22086242163118, 0), (0, 846040611), (33116,
    0), (0, 2)], [(13992303668, 0), (0, 732085), (51, 0)]], 3, 4⟩, 72057594037927936, 6714579045773, 3931745051043,
    ⟨[[(17053717101372, 0), (5999828448, 0), (0, 1493247), (1324, 0)], [(4459836999, 0), (14249433, 0), (8597, 0),
    (0, 8)], [(0, 17082675), (0, 50467), (0, 43)], [(57751, 0), (226, 0)]], 3, 4⟩, 17592186044416, 158062249,
    2009192822743216655633096704453146238235321574546458929790500955146333549336228748720511873880136889977745709500045266127769505,
    lc0⟩) (.leaf ⟨290, 16, 277, 471, 16, 1521, ⟨[[(0, 28698463759618048), (0, 1660884566431173), (33597615068, 0),
    (0, 102011), (0, 41)], [(31058103808413068, 0), (0, 2826403277225), (30480486, 0), (2922, 0)], [(59052736178757,
    0), (0, 1674048146), (0, 132005), (17, 0)], [(70460541623, 0), (1994497, 0), (0, 443)]], 3, 4⟩,
    ⟨[[(35887566281543680, 0), (0, 2398014926709277), (34670153613, 0), (0, 752513), (46, 0)], [(0,
    23823331401398098), (0, 373749467097), (32931208, 0), (0, 2493)], [(21769759329640, 0), (0, 818452960), (29200,
    0), (0, 3)], [(13702546136, 0), (0, 673121), (73, 0)]], 3, 4⟩, 72057594037927936, 7547395235272, 3931667674677,
    ⟨[[(16899889107517, 0), (5859117488, 0), (0, 1653542), (1335, 0), (1, 0)], [(4461029123, 0), (14599143, 0),
    (9653, 0), (0, 8)], [(0, 17072925), (0, 53501), (0, 46)], [(57834, 0), (245, 0)]], 3, 4⟩, 17592186044416,
    160840394,
    1863167343924707257558131694837201177424121694891117948779069931475921344223371440714054231349227227647274727346757174236505167,
    lc0⟩))) (.sx (.sy (.leaf ⟨310, 16, 327, 459, 16, 1486, ⟨[[(0, 32235512431104000), (0, 1786312474753476),
    (37516327051, 0), (0, 290880), (0, 26)], [(29661301250179419, 0), (0, 3112180271276), (48969418, 0), (1262, 0)],
    [(58564877719288, 0), (0, 2286788027), (0, 75916), (14, 0)], [(76359931306, 0), (863276, 0), (0, 341)]], 3, 4⟩,
    ⟨[[(0, 28042930798665728), (0, 2296626008851244), (31665454322, 0), (0, 558177), (37, 0)], [(0,
    25140620702329186), (0, 272655162113), (27151467, 0), (0, 1912)], [(19432296567566, 0), (0, 703696471), (10285,
    0), (0, 6)], [(9809313693, 0), (0, 540663), (104, 0)]], 3, 4⟩, 72057594037927936, 9553554228565, 3834481090830,
    ⟨[[(16757064353638, 0), (5545523024, 0), (0, 2055983), (1732, 0), (2, 0)], [(4681758309, 0), (15734664, 0),
    (11255, 0), (0, 13)], [(0, 16494050), (0, 57965), (0, 48)], [(55776, 0), (242, 0)]], 3, 4⟩, 17592186044416,
    111325657,
    2390207720973331313958418084720317535621101603189160275190896528100414168595372518296474768296792117257304050932052462384601300,
    lc0⟩) (.leaf ⟨309, 16, 340, 445, 16, 1493, ⟨[[(4001427905310720, 0), (0, 1818405287659279), (38515897601, 0), (0,
    348205), (0, 19)], [(29229045705342080, 0), (0, 3183979433752), (52338430, 0), (575, 0)], [(59681478693056, 0),
    (0, 2446086606), (0, 57604), (14, 0)], [(79761594343, 0), (569734, 0), (0, 298)]], 3, 4⟩, ⟨[[(0,
    13955620870176768), (0, 2275908636019789), (31022932112, 0), (0, 493285), (29, 0)], [(0, 25389927129052154), (0,
    247938500327), (24587235, 0), (0, 1635)], [(19170681750724, 0), (0, 701733418), (0, 187), (0, 8)], [(9610970788,
    0), (0, 427383), (127, 0)]], 3, 4⟩, 72057594037927936, 10412085835164, 3849474604610, ⟨[[(16607855189486, 0),
    (5380984539, 0), (0, 2275611), (1717, 0), (3, 0)], [(4672473930, 0), (16207838, 0), (12701, 0), (0, 14)], [(0,
    16460799), (0, 61165), (0, 57)], [(57121, 0), (258, 0)]], 3, 4⟩, 17592186044416, 114928987,
    2104608582621758373260393757665567920066401384144772677549991106343634293290614472883126539367457575891075458556856811417693764,
    lc0⟩)) (.sy (.leaf ⟨288, 16, 287, 457, 16, 1529, ⟨[[(13666848337215488, 0), (0, 1685994991459099), (34590635155,
    0), (0, 184429), (0, 36)], [(30717577603333888, 0), (0, 2894620872685), (35610210, 0), (2323, 0)],
    [(60281609944773, 0), (0, 1858817406), (0, 111162), (17, 0)], [(73929948908, 0), (1629776, 0), (0, 410)]], 3, 4⟩,
    ⟨[[(21947224328286208, 0), (0, 2376184709403613), (33781572589, 0), (0, 667184), (42, 0)], [(0,
    24129216903265301), (0, 344358665131), (29378727, 0), (0, 2427)], [(21478182145323, 0), (0, 796065343), (23516,
    0), (0, 4)], [(13455290945, 0), (0, 591705), (96, 0)]], 3, 4⟩, 72057594037927936, 8381819071553, 3930795605463,
    ⟨[[(16750116108621, 0), (5704594658, 0), (0, 1825673), (1307, 0), (2, 0)], [(4477777830, 0), (15013774, 0),
    (10794, 0), (0, 8)], [(0, 17092427), (0, 56961), (0, 53)], [(58674, 0), (260, 0)]], 3, 4⟩, 17592186044416,
    167593324,
    1391074539586188164812049198048886876741713334460713497188895302403320835999579556581924281279088897567208163894997710195529226,
    lc0⟩) (.leaf ⟨287, 16, 298, 443, 16, 1536, ⟨[[(11859388740739072, 0), (0, 1714717969174677), (35574288310, 0),
    (0, 260589), (0, 31)], [(30395712853947739, 0), (0, 2966802356672), (40056336, 0), (1679, 0)], [(61596212317430,
    0), (0, 2033250263), (0, 90388), (16, 0)], [(77509903628, 0), (1290049, 0), (0, 375)]], 3, 4⟩, ⟨[[(0,
    8221703741022208), (0, 2353477247992312), (32988072783, 0), (0, 590974), (36, 0)], [(0, 24406210084454272), (0,
    318109407728), (25960492, 0), (0, 2263)], [(21180400400676, 0), (0, 779726511), (15851, 0), (0, 6)],
    [(13244933121, 0), (0, 484879), (122, 0)]], 3, 4⟩, 72057594037927936, 9208715995317, 3919896680572,
    ⟨[[(16606835834236, 0), (5560777129, 0), (0, 2004373), (1250, 0), (2, 0)], [(4467828305, 0), (15387573, 0),
    (12000, 0), (0, 8)], [(0, 16963498), (0, 59884), (0, 62)], [(59356, 0), (272, 0)]], 3, 4⟩, 17592186044416,
    171865785,
    1883109041004676850488484140839261165383256226775326277340199466629513609637912902488444270083640711875628216875566467308595405,
    lc0⟩)))
theorem c25 : checkR job con0 false ⟨7, 9, 7, 9, 13, 17⟩ 1 30400 t25 537 21 320 14243 251 16000 = true := by decide +kernel

def t26 : CTree :=
  .sy (.sx (.sy (.leaf ⟨275, 16, 237, 488, 16, 1563, ⟨[[(21498588923568128, 0), (0, 1554666785142814), (29469868652,
    0), (144953, 0), (0, 52)], [(32417514347085519, 0), (0, 2539229037111), (8098882, 0), (4513, 0)],
    [(58979307810462, 0), (0, 974107851), (0, 194918), (19, 0)], [(63843144547, 0), (3224986, 0), (0, 527)]], 3, 4⟩,
    ⟨[[(16813979924451328, 0), (0, 2519847759981336), (38512856200, 0), (0, 981733), (48, 0)], [(0,
    22281674654937768), (0, 497377744881), (40820275, 0), (0, 2667)], [(24839328052122, 0), (0, 969500111), (39524,
    0)], [(17903934332, 0), (0, 768334), (31, 0)]], 3, 4⟩, 72057594037927936, 5439714963446, 4040764996464,
    ⟨[[(17049140884447, 0), (6092596103, 0), (0, 1305061), (1009, 0), (1, 0)], [(4187665073, 0), (13536568, 0),
    (7801, 0), (0, 10)], [(0, 17478144), (0, 48077), (0, 51)], [(61645, 0), (205, 0)]], 3, 4⟩, 17592186044416,
    244077021,
    2002448004664499509802873264744722316596988335336659063106265151318854797329971177766520816689448605226091051486629397305473283,
    lc0⟩) (.leaf ⟨274, 16, 245, 473, 16, 1570, ⟨[[(0, 35923026456125440), (0, 1576471721210084), (30611617693, 0),
    (46770, 0), (0, 49)], [(32196734471355258, 0), (0, 2613179172021), (14888825, 0), (3989, 0)], [(60416313836293,
    0), (0, 1194828526), (0, 172915), (19, 0)], [(67538268751, 0), (2809257, 0), (0, 501)]], 3, 4⟩, ⟨[[(0,
    5763630844264448), (0, 2493014086402570), (37273116509, 0), (0, 889644), (47, 0)], [(0, 22622276226697274), (0,
    460492694280), (36886216, 0), (0, 2776)], [(24471623454691, 0), (0, 934556407), (38299, 0), (0, 1)],
    [(17606293859, 0), (0, 729793), (53, 0)]], 3, 4⟩, 72057594037927936, 6288841162697, 4036999327243,
    ⟨[[(16903433685770, 0), (5974641773, 0), (0, 1429326), (1009, 0), (1, 0)], [(4167410643, 0), (13725210, 0),
    (8837, 0), (0, 8)], [(0, 17337089), (0, 49826), (0, 44)], [(60368, 0), (239, 0)]], 3, 4⟩, 17592186044416,
    230310696,
    2084433778570114581232157084429918984377189844314565787711043404966015069948186664334733380998980858889199525183067692125164861,
    lc0⟩)) (.sy (.sx (.leaf ⟨401, 16, 327, 621, 16, 2028, ⟨[[(0, 32129134138023936), (0, 2256590922859237),
    (40722487437, 0), (423118, 0), (0, 86)], [(25060545854683718, 0), (0, 1786807215786), (0, 4023011), (3990, 0)],
    [(22474500165194, 0), (0, 215146642), (0, 85765), (7, 0)], [(11518886720, 0), (726555, 0), (0, 105)]], 3, 4⟩,
    ⟨[[(21694711648968704, 0), (0, 3291122471043965), (51690933039, 0), (0, 1382785), (59, 0)], [(0,
    13403842729825950), (0, 363786077118), (28144505, 0), (0, 1720)], [(8645404410365, 0), (0, 338079073), (13463,
    0)], [(3318078438, 0), (0, 124756), (2, 0)]], 3, 4⟩, 72057594037927936, 430203600814, 329034307584,
    ⟨[[(17051365277323, 0), (4867672761, 0), (0, 724335), (365, 0)], [(2587116103, 0), (6725910, 0), (2742, 0), (0,
    4)], [(0, 7623643), (0, 16123), (0, 20)], [(18244, 0), (29, 0)]], 3, 4⟩, 17592186044416, 21403843,
    3060266005853519333090784264458166677612743241093390227771225950365546343340510156684968430503511758878221307439726220872558563,
    lc0⟩) (.leaf ⟨394, 16, 310, 620, 16, 2048, ⟨[[(7974691645095936, 0), (0, 2210726823486368), (38294240466, 0),
    (572741, 0), (0, 92)], [(25605702666993560, 0), (0, 1707195588159), (0, 11188322), (4399, 0)], [(22699540365154,
    0), (0, 109720605), (0, 94470), (8, 0)], [(11190021795, 0), (808782, 0), (0, 109)]], 3, 4⟩, ⟨[[(0,
    17593338099367936), (0, 3339620566644577), (53418506304, 0), (0, 1468694), (57, 0)], [(0, 12784439712646255), (0,
    396717470961), (29569619, 0), (0, 1700)], [(9170059958534, 0), (0, 357220950), (13679, 0), (1, 0)], [(3622429334,
    0), (0, 124703)]], 3, 4⟩, 72057594037927936, 357694548332, 326291466725, ⟨[[(17052538315470, 0), (4923753541, 0),
    (0, 681650), (275, 0)], [(2459183090, 0), (6516152, 0), (2243, 0), (0, 6)], [(0, 7546541), (0, 16570), (0, 30)],
    [(17818, 0), (5, 0)]], 3, 4⟩, 17592186044416, 27923308,
    4045497878552435494407928577074752152784997426796826516611344578930925754062365560362918978212124005847825790522866332404829175,
    lc0⟩)) (.sx (.leaf ⟨396, 16, 336, 604, 16, 2045, ⟨[[(0, 30840334231244800), (0, 2276403624500249), (42367169178,
    0), (262928, 0), (0, 83)], [(24828081867268315, 0), (0, 1837163843483), (1659653, 0), (3595, 0)],
    [(22960834582381, 0), (0, 303863713), (0, 76889), (7, 0)], [(12184068031, 0), (641779, 0), (0, 101)]], 3, 4⟩,
    ⟨[[(0, 31069672401567744), (0, 3267401899581935), (50114921146, 0), (0, 1273946), (60, 0)], [(0,
    13693424989945288), (0, 339682048451), (25684284, 0), (0, 1838)], [(8550186502315, 0), (0, 327135428), (13792,
    0)], [(3283479830, 0), (0, 122271), (5, 0)]], 3, 4⟩, 72057594037927936, 509081374975, 326031732433,
    ⟨[[(16903889744632, 0), (4753378791, 0), (0, 785462), (384, 0)], [(2609197605, 0), (6859084, 0), (3353, 0), (0,
    3)], [(0, 7729707), (0, 16351), (0, 13)], [(18654, 0), (50, 0)]], 3, 4⟩, 17592186044416, 18734321,
    3007426785721095053635536553906884112440231788785896789301406804323379231935024601750527852818444287484359688311620659604947912,
    lc0⟩) (.leaf ⟨389, 16, 318, 602, 16, 2066, ⟨[[(0, 27325229134389248), (0, 2227940945295452), (40027881799, 0),
    (404281, 0), (0, 88)], [(25385028936511159, 0), (0, 1759491272801), (0, 5061954), (4008, 0)], [(23205394124083,
    0), (0, 204002910), (0, 85348), (8, 0)], [(11867706545, 0), (721028, 0), (0, 105)]], 3, 4⟩, ⟨[[(0,
    5881750454263808), (0, 3315960002753561), (51744295320, 0), (0, 1364864), (59, 0)], [(0, 13090409878650613), (0,
    371587923934), (27142432, 0), (0, 1845)], [(9073297218960, 0), (0, 346139295), (14454, 0)], [(3591280174, 0), (0,
    124576), (3, 0)]], 3, 4⟩, 72057594037927936, 437150737588, 325937825147, ⟨[[(16901944951734, 0), (4815465611, 0),
    (0, 731204), (316, 0)], [(2469646257, 0), (6641166, 0), (3117, 0), (0, 4)], [(0, 7621034), (0, 15713), (0, 16)],
    [(18924, 0), (40, 0)]], 3, 4⟩, 17592186044416, 22198416,
    4356776819468703571622090502832223468569351903088245134612229496232615317971800798162784348071571079567473429876467243773417099,
    lc0⟩)))) (.sx (.sy (.leaf ⟨271, 16, 253, 458, 16, 1577, ⟨[[(14510659977699328, 0), (0, 1596199296148552),
    (31609579559, 0), (0, 48751), (0, 46)], [(31897779345421806, 0), (0, 2680132016510), (21054861, 0), (3424, 0)],
    [(61727094524157, 0), (0, 1398889747), (0, 150444), (18, 0)], [(71073362275, 0), (2404336, 0), (0, 472)]], 3, 4⟩,
    ⟨[[(0, 20710087465398272), (0, 2467192100702171), (36164504924, 0), (0, 800205), (45, 0)], [(0,
    22946354995541245), (0, 427464226447), (32828794, 0), (0, 2805)], [(24118969933857, 0), (0, 901471787), (35462,
    0), (0, 3)], [(17332182539, 0), (0, 667800), (77, 0)]], 3, 4⟩, 72057594037927936, 7110858043042, 4017379264100,
    ⟨[[(16753409790807, 0), (5836081650, 0), (0, 1577233), (987, 0), (1, 0)], [(4204649804, 0), (14111499, 0), (9879,
    0), (0, 6)], [(0, 17468050), (0, 53582), (0, 48)], [(60602, 0), (262, 0)]], 3, 4⟩, 17592186044416, 240821130,
    2342821893352668198294820756245438375952308943948030724313818821593445734384310299733544981519690239897382788445750949992727651,
    lc0⟩) (.leaf ⟨269, 16, 262, 443, 16, 1584, ⟨[[(32243303620710400, 0), (0, 1620177559393602), (32589202976, 0),
    (0, 139874), (0, 42)], [(31645116112327119, 0), (0, 2751082405535), (26601876, 0), (2826, 0)], [(63158793825686,
    0), (0, 1591032727), (0, 128052), (18, 0)], [(74732147428, 0), (2021717, 0), (0, 443)]], 3, 4⟩, ⟨[[(0,
    28419719136460800), (0, 2442258356103527), (35181158879, 0), (0, 716735), (41, 0)], [(0, 23255794252177216), (0,
    398372452233), (28775409, 0), (0, 2743)], [(23780097460650, 0), (0, 871939814), (30885, 0), (0, 4)],
    [(17094009131, 0), (0, 580330), (103, 0)]], 3, 4⟩, 72057594037927936, 7934408883185, 4004311365489,
    ⟨[[(16607202889404, 0), (5703347423, 0), (0, 1730541), (939, 0), (2, 0)], [(4213540667, 0), (14460054, 0),
    (10906, 0), (0, 5)], [(0, 17389745), (0, 56921), (0, 56)], [(60733, 0), (275, 0)]], 3, 4⟩, 17592186044416,
    250744285,
    2768132528615870362541155748501064561137122513424092650857228606452422289884772929573321705409300869049784787207443848226120995,
    lc0⟩)) (.sy (.sx (.leaf ⟨390, 16, 345, 586, 16, 2062, ⟨[[(2631756965859328, 0), (0, 2293540671024780),
    (43783751697, 0), (106502, 0), (0, 78)], [(24547040352329030, 0), (0, 1882001789396), (6875592, 0), (3177, 0)],
    [(23400273272379, 0), (0, 385687157), (0, 67914), (7, 0)], [(12815872195, 0), (559237, 0), (0, 95)]], 3, 4⟩,
    ⟨[[(0, 13783636841152512), (0, 3244770692388299), (48687838892, 0), (0, 1164468), (59, 0)], [(0,
    13972906091110552), (0, 317922461248), (23059462, 0), (0, 1907)], [(8459169356644, 0), (0, 315983811), (13644,
    0)], [(3250533404, 0), (0, 116098), (9, 0)]], 3, 4⟩, 72057594037927936, 583025118320, 327701404223,
    ⟨[[(16753250665400, 0), (4638519822, 0), (0, 856674), (377, 0)], [(2636326636, 0), (7007915, 0), (3766, 0), (0,
    2)], [(0, 7847914), (0, 17475), (0, 12)], [(18626, 0), (59, 0)]], 3, 4⟩, 17592186044416, 19056599,
    2879037988067357273727959076469189912288922404851421419812742998550755102683598062163697470714083997248690421385088227714963075,
    lc0⟩) (.leaf ⟨384, 16, 327, 584, 16, 2084, ⟨[[(0, 14157648128937984), (0, 2249401373491819), (41652658405, 0),
    (239761, 0), (0, 84)], [(25194403814353304, 0), (0, 1811528276378), (613929, 0), (3607, 0)], [(23735692770887,
    0), (0, 292133951), (0, 76376), (7, 0)], [(12549330108, 0), (637275, 0), (0, 100)]], 3, 4⟩, ⟨[[(2907982865784832,
    0), (0, 3293457288205649), (50211085791, 0), (0, 1258265), (59, 0)], [(0, 13385961223114837), (0, 348768083870),
    (24507601, 0), (0, 1943)], [(8980773135814, 0), (0, 334377819), (14778, 0)], [(3560530172, 0), (0, 120905), (7,
    0)]], 3, 4⟩, 72057594037927936, 513591006556, 323772694528, ⟨[[(16752659945013, 0), (4703778732, 0), (0, 793599),
    (323, 0)], [(2487796864, 0), (6744362, 0), (3589, 0), (0, 2)], [(0, 7717884), (0, 16372), (0, 12)], [(18758, 0),
    (55, 0)]], 3, 4⟩, 17592186044416, 20611799,
    4131467998586082072738950185106408883479086634535492616992097500509399529320367537525369654519128562844526516645845763495123924,
    lc0⟩)) (.sx (.leaf ⟨385, 16, 355, 568, 16, 2079, ⟨[[(4192390209269760, 0), (0, 2314743777925980), (45100637207,
    0), (0, 43425), (0, 72)], [(24288579197612163, 0), (0, 1927110497329), (11602082, 0), (2744, 0)],
    [(23862627200957, 0), (0, 461533746), (0, 59015), (7, 0)], [(13452118763, 0), (480725, 0), (0, 90)]], 3, 4⟩,
    ⟨[[(1188224262955008, 0), (0, 3223094341314721), (47409183593, 0), (0, 1058286), (56, 0)], [(0,
    14243402267806068), (0, 298657913667), (20347853, 0), (0, 1921)], [(8372391316938, 0), (0, 305121899), (12984,
    0), (0, 1)], [(3221198620, 0), (0, 105914), (13, 0)]], 3, 4⟩, 72057594037927936, 657503141657, 328894089901,
    ⟨[[(16606536790910, 0), (4527762531, 0), (0, 930350), (356, 0)], [(2652742062, 0), (7149868, 0), (4107, 0), (0,
    2)], [(0, 7881436), (0, 18702), (0, 13)], [(18505, 0), (64, 0)]], 3, 4⟩, 17592186044416, 20592178,
    2858295275862842885371219969554923526124698349249115881810789013706317018878591996585897286188085762885817373992410086253423093,
    lc0⟩) (.leaf ⟨378, 16, 336, 566, 16, 2101, ⟨[[(29894007309971456, 0), (0, 2268197860688377), (43042950946, 0),
    (80110, 0), (0, 79)], [(24954022881112521, 0), (0, 1858083269208), (5818744, 0), (3184, 0)], [(24219456332799,
    0), (0, 373297189), (0, 67263), (7, 0)], [(13198157486, 0), (555318, 0), (0, 95)]], 3, 4⟩, ⟨[[(0,
    10957743629983744), (0, 3270429513016580), (48798598861, 0), (0, 1152027), (57, 0)], [(0, 13665688288788221), (0,
    328297861625), (21730656, 0), (0, 1985)], [(8888547018965, 0), (0, 322247611), (14617, 0)], [(3530367608, 0), (0,
    113352), (10, 0)]], 3, 4⟩, 72057594037927936, 588110526422, 324146132015, ⟨[[(16606363601610, 0), (4592179702,
    0), (0, 863278), (310, 0)], [(2519474241, 0), (6889239, 0), (3930, 0), (0, 2)], [(0, 7824201), (0, 17681), (0,
    12)], [(18545, 0), (62, 0)]], 3, 4⟩, 17592186044416, 21936401,
    3584326515618326513768575221710833563955025037753460091604149287076742957021799851258003307552185777433665812868915845093644375,
    lc0⟩))))
theorem c26 : checkR job con0 false ⟨7, 9, 7, 9, 13, 17⟩ 1 30400 t26 579 21 320 14243 251 16000 = true := by decide +kernel

end PyX.Kron.T3a
