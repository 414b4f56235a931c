import Verif.Lemmas.V3aJob

/-!
# The volume from pressure and enthalpy in subregion 3a, part A of the certificate
-/

namespace PyX.Kron.V3a

set_option Elab.async false

def t0 : CTree :=
  .sx (.out ⟨22, 16, 51, 94, 16, 63, ⟨[[(31321212518565632, 0), (0, 1273928407560575), (288691427210, 0)],
    [(23332633057440625, 0), (0, 33682270900071), (10130200371, 0)], [(0, 123871170887963), (0, 82480731389),
    (98289500, 0)]], 2, 2⟩, ⟨[[(0, 10016300819179520), (0, 1812519478629400), (304533247290, 0)], [(0,
    23389046522795249), (0, 6932791283582), (1891860603, 0)], [(151537944193189, 0), (119952768638, 0), (13841481,
    0)]], 2, 2⟩, 72057594037927936, 35395498409257941, 23612671841242750, ⟨[], 0, 0⟩, 0, 0, 0, lc0⟩ 2 1
    841751953210956) (.sy (.out ⟨34, 16, 43, 154, 16, 112, ⟨[[(12656166503807488, 0), (0, 1315302302507210),
    (198958459225, 0)], [(25758798692911570, 0), (0, 21026555587352), (3598610497, 0)], [(154496904643363, 0), (0,
    100821455946), (0, 1924788)]], 2, 2⟩, ⟨[[(0, 603188133351424), (0, 1856383515709306), (221274684709, 0)], [(0,
    25522301295839116), (0, 2823147920182), (1581462379, 0)], [(125301549639790, 0), (1107627823, 0), (12790233,
    0)]], 2, 2⟩, 72057594037927936, 27570928797015033, 7855194929553459, ⟨[], 0, 0⟩, 0, 0, 0, lc0⟩ 2 1
    533322237453763) (.out ⟨35, 16, 59, 147, 16, 116, ⟨[[(16532214777965568, 0), (0, 1549861740070990),
    (234842149926, 0)], [(22119979695467587, 0), (0, 23842802178146), (4888957646, 0)], [(144710300064406, 0), (0,
    125356400967), (23194435, 0)]], 2, 2⟩, ⟨[[(0, 14376942495180800), (0, 1733073386423739), (155155659254, 0)], [(0,
    27522571896531627), (0, 1471951440148), (1305983893, 0)], [(133198217757861, 0), (11198550153, 0), (5820021,
    0)]], 2, 2⟩, 72057594037927936, 34099636224388930, 10410677765840740, ⟨[], 0, 0⟩, 0, 0, 0, lc0⟩ 2 1
    356688616614674))
theorem c0 : checkR job con0 true ⟨7, 9, 7, 9, 13, 17⟩ 1 9016 t0 33 21 40 3247 251 4000 = true := by decide +kernel

def t1 : CTree :=
  .sx (.sx (.out ⟨48, 16, 42, 217, 16, 168, ⟨[[(0, 31203049655057408), (0, 2031710568735659), (272318530692, 0)],
    [(21264340125023296, 0), (0, 13165601992263), (0, 40274954)], [(103474865386756, 0), (0, 9097953774), (0,
    37656875)]], 2, 2⟩, ⟨[[(0, 20832878780628992), (0, 2938983390123250), (425944396026, 0)], [(0,
    13524969680096981), (0, 3099411399965), (1763447349, 0)], [(46556576623256, 0), (0, 14475814548), (2899194, 0)]],
    2, 2⟩, 72057594037927936, 6323809167674633, 2698052889236925, ⟨[], 0, 0⟩, 0, 0, 0, lc0⟩ 2 1 297081692707350) (.sy
    (.out ⟨66, 16, 41, 372, 16, 290, ⟨[[(0, 17190721374745600), (0, 1268876587443360), (27402974042, 0)],
    [(32306561392792070, 0), (0, 4552338687783), (0, 1834065582)], [(129802124420196, 0), (51713727761, 0), (0,
    30626175)]], 2, 2⟩, ⟨[[(7733495259959296, 0), (0, 2785629288346200), (230512835558, 0)], [(0, 14699385481829641),
    (0, 4218094333907), (634496412, 0)], [(108039472419642, 0), (0, 13245404320), (0, 4064510)]], 2, 2⟩,
    72057594037927936, 3579210785040136, 3185734985926865, ⟨[], 0, 0⟩, 0, 0, 0, lc0⟩ 0 19 12) (.out ⟨60, 16, 43, 361,
    16, 296, ⟨[[(0, 12031248546552320), (0, 1287566347414181), (55760457042, 0)], [(31073115792927116, 0), (0,
    6282237690499), (0, 1110183162)], [(155989465429339, 0), (26257830957, 0), (0, 23821068)]], 2, 2⟩, ⟨[[(0,
    15334861779079168), (0, 2621801526172050), (205050170910, 0)], [(0, 16984281580186981), (0, 3559006650910),
    (810131106, 0)], [(102728449352226, 0), (0, 16018419087), (0, 999006)]], 2, 2⟩, 72057594037927936,
    5505305697362657, 3228835902937148, ⟨[], 0, 0⟩, 0, 0, 0, lc0⟩ 0 172 68))) (.sx (.out ⟨51, 16, 25, 225, 16, 183,
    ⟨[[(0, 26448512288815104), (0, 1660632842182677), (0, 198073050255)], [(26385833554473356, 0), (1877636398613,
    0), (0, 11813035672)], [(84357953603798, 0), (169562730814, 0), (0, 139386350)]], 2, 2⟩, ⟨[[(0,
    11412828112099328), (0, 3609705303561403), (604290343540, 0)], [(0, 3348975272740261), (0, 6232168737122),
    (680680728, 0)], [(91855650269754, 0), (0, 11368728073), (0, 23021100)]], 2, 2⟩, 72057594037927936,
    12755431982829244, 4695073124751095, ⟨[], 0, 0⟩, 0, 0, 0, lc0⟩ 0 11 11) (.out ⟨60, 16, 22, 202, 16, 164, ⟨[[(0,
    30487325932774400), (0, 1029440556621445), (0, 877196041923)], [(27457417934727546, 0), (21542273670472, 0), (0,
    24313801544)], [(11367135589396, 0), (336190007333, 0), (0, 210494599)]], 2, 2⟩, ⟨[[(0, 1843302793199616), (0,
    3479479027532924), (520380773510, 0)], [(4975942912949429, 0), (0, 5850214081926), (0, 1857001105)],
    [(105902154596112, 0), (4574286665, 0), (0, 37445093)]], 2, 2⟩, 72057594037927936, 26359843497251729,
    4377287921483775, ⟨[], 0, 0⟩, 0, 0, 0, lc0⟩ 0 4 7))
theorem c1 : checkR job con0 true ⟨7, 9, 7, 9, 13, 17⟩ 1 9016 t1 75 21 40 6243 251 8000 = true := by decide +kernel

def t2 : CTree :=
  .sy (.out ⟨63, 16, 70, 331, 16, 275, ⟨[[(0, 36026262850212864), (0, 1516798847098891), (118551366841, 0)],
    [(27293901887276020, 0), (0, 10523495601952), (553269786, 0)], [(159611471822610, 0), (0, 24387900956), (0,
    7120189)]], 2, 2⟩, ⟨[[(0, 10598206642311168), (0, 2176047965110114), (131910044816, 0)], [(0, 23653850101224750),
    (0, 1515028941112), (610020399, 0)], [(68204687032778, 0), (0, 9209643582), (1982743, 0)]], 2, 2⟩,
    72057594037927936, 8177982686048207, 1300694304311914, ⟨[], 0, 0⟩, 0, 0, 0, lc0⟩ 2 1 169745430024458) (.sx (.out
    ⟨94, 16, 133, 438, 16, 377, ⟨[[(0, 20228550104629248), (0, 2467251144785252), (204558831357, 0)],
    [(18390529490945634, 0), (0, 8782846717343), (747432865, 0)], [(58045230846523, 0), (0, 13809201569), (0,
    649073)]], 2, 2⟩, ⟨[[(26336735881637888, 0), (0, 2803631432104544), (146310628395, 0)], [(0, 17551535501688756),
    (0, 565701514362), (314100618, 0)], [(21686933669786, 0), (0, 2023775176), (349081, 0)]], 2, 2⟩,
    72057594037927936, 1810746956096946, 291963250017007, ⟨[], 0, 0⟩, 0, 0, 0, lc0⟩ 2 1 123103546894509) (.sy (.out
    ⟨125, 16, 150, 674, 16, 586, ⟨[[(19806608399452160, 0), (0, 1646346614835224), (66268883605, 0)],
    [(28746340768906124, 0), (0, 5693248871018), (160282272, 0)], [(94125853500100, 0), (0, 7188000028), (0,
    885595)]], 2, 2⟩, ⟨[[(2610511310864384, 0), (0, 2232547971468805), (64740136115, 0)], [(0, 24244491962576606),
    (0, 677662586747), (146379146, 0)], [(35866337642638, 0), (0, 2502423503), (234187, 0)]], 2, 2⟩,
    72057594037927936, 2285418114136717, 339039226554542, ⟨[], 0, 0⟩, 0, 0, 0, lc0⟩ 2 1 75533477351924) (.sx (.out
    ⟨182, 16, 247, 886, 16, 784, ⟨[[(0, 15916957566654464), (0, 2508062011617799), (104429990019, 0)],
    [(19851558484213026, 0), (0, 4405298793599), (162103399, 0)], [(34196632310287, 0), (0, 3308392322), (0,
    180339)]], 2, 2⟩, ⟨[[(9029383985577984, 0), (0, 2895927903315796), (78608091847, 0)], [(0, 16904628652771554),
    (0, 330730127222), (82443890, 0)], [(11390480360639, 0), (0, 705325652), (48750, 0)]], 2, 2⟩, 72057594037927936,
    470801470509217, 89972289879312, ⟨[], 0, 0⟩, 0, 0, 0, lc0⟩ 2 1 53865054360863) (.sy (.sx (.out ⟨364, 16, 460,
    1792, 16, 1589, ⟨[[(18231816415645696, 0), (0, 2493295813584014), (51084199923, 0)], [(21163769741978542, 0), (0,
    2164051954215), (33248014, 0)], [(18218809695035, 0), (0, 733062466), (0, 35742)]], 2, 2⟩, ⟨[[(0,
    26862691206316032), (0, 2966863227833325), (41911416282, 0)], [(0, 16344579799981952), (0, 202738742414),
    (22625134, 0)], [(5989410116722, 0), (0, 206496217), (8425, 0)]], 2, 2⟩, 72057594037927936, 113320788953538,
    27418937728517, ⟨[], 0, 0⟩, 0, 0, 0, lc0⟩ 2 1 38712942815145) (.sy (.out ⟨506, 16, 610, 2753, 16, 2447, ⟨[[(0,
    1205914235469824), (0, 1723000887919180), (17392078946, 0)], [(30547449784998705, 0), (0, 1479774077586),
    (9631019, 0)], [(26247893594762, 0), (0, 457541799), (0, 15681)]], 2, 2⟩, ⟨[[(0, 29484778873683968), (0,
    2299598488229938), (16663548180, 0)], [(0, 24342402647183555), (0, 174539221702), (9174269, 0)], [(9503933556063,
    0), (0, 173100427), (3655, 0)]], 2, 2⟩, 72057594037927936, 150158281553359, 23548496508682, ⟨[], 0, 0⟩, 0, 0, 0,
    lc0⟩ 2 1 26022976673252) (.sy (.out ⟨632, 16, 776, 3730, 16, 3330, ⟨[[(19312493007708160, 0), (0,
    1087617336347759), (5523092931, 0)], [(38153374656200162, 0), (0, 936524379833), (3188997, 0)], [(33168855601199,
    0), (0, 298285281), (0, 4654)]], 2, 2⟩, ⟨[[(0, 31954041646317568), (0, 1556226652846851), (5589963543, 0)], [(0,
    33214033523697396), (0, 114128927341), (3030014, 0)], [(12845432886144, 0), (0, 115951967), (1185, 0)]], 2, 2⟩,
    72057594037927936, 190654921818919, 27309159510024, ⟨[], 0, 0⟩, 0, 0, 0, lc0⟩ 2 1 19033539775486) (.out ⟨631, 16,
    784, 3720, 16, 3331, ⟨[[(10850878371332096, 0), (0, 1093230851077163), (5573256860, 0)], [(38072545107161807, 0),
    (0, 942904292898), (3301253, 0)], [(33358353210759, 0), (0, 305970897), (0, 4483)]], 2, 2⟩, ⟨[[(0,
    10730107388264448), (0, 1551105643776539), (5540775807, 0)], [(0, 33280558950846348), (0, 111150761190),
    (2969941, 0)], [(12791360201311, 0), (0, 114818015), (1142, 0)]], 2, 2⟩, 72057594037927936, 193187550900915,
    26996910239932, ⟨[], 0, 0⟩, 0, 0, 0, lc0⟩ 2 1 14184686287562)))) (.sx (.sy (.out ⟨512, 16, 671, 2712, 16, 2426,
    ⟨[[(34411614839734272, 0), (0, 1790499767373012), (18524935155, 0)], [(29690001351531831, 0), (0, 1559606104385),
    (12742304, 0)], [(26166084073536, 0), (0, 552808316), (0, 11092)]], 2, 2⟩, ⟨[[(0, 13131678003429376), (0,
    2241050785477249), (15580814625, 0)], [(0, 25065763937196849), (0, 142134391120), (8139925, 0)], [(9027349854572,
    0), (0, 153138226), (2737, 0)]], 2, 2⟩, 72057594037927936, 159669568241139, 18398336530312, ⟨[], 0, 0⟩, 0, 0, 0,
    lc0⟩ 2 1 24396633024851) (.sx (.out ⟨727, 16, 984, 3577, 16, 3214, ⟨[[(15438162760728576, 0), (0,
    2574771571679762), (26841849584, 0)], [(20803541162198293, 0), (0, 1125352136431), (9740987, 0)],
    [(9295344596064, 0), (0, 207453061), (0, 3371)]], 2, 2⟩, ⟨[[(0, 6206399831244800), (0, 2946580235064187),
    (20194908994, 0)], [(0, 16773847414877775), (0, 86770405224), (5145817, 0)], [(2948874698502, 0), (0, 48930432),
    (745, 0)]], 2, 2⟩, 72057594037927936, 30190884731003, 5780634015514, ⟨[], 0, 0⟩, 0, 0, 0, lc0⟩ 2 1
    19165584179760) (.leaf ⟨859, 16, 977, 1140, 16, 3455, ⟨[[(26337594211581952, 0), (0, 2603745923713436),
    (27050919522, 0), (0, 81473), (0, 5)], [(21447088931171517, 0), (0, 1134568931701), (9369782, 0), (165, 0)],
    [(9618612146590, 0), (0, 203967512), (0, 3848)], [(3129230330, 0), (18625, 0), (0, 4)]], 3, 4⟩,
    ⟨[[(21984565027651584, 0), (0, 3020513824029404), (20898096274, 0), (0, 225335), (8, 0)], [(0,
    16918005984256213), (0, 93123925326), (5335411, 0), (0, 147)], [(3052353705892, 0), (0, 52018315), (836, 0)],
    [(280486332, 0), (0, 15214), (1, 0)]], 3, 4⟩, 72057594037927936, 95845441084, 40112494010, ⟨[[(12416689474160,
    0), (5299531829, 0), (1683450, 0), (0, 2188), (0, 12)], [(0, 6167945593), (0, 8121613), (0, 1926), (20, 0)],
    [(7544390, 0), (12930, 0), (0, 3)], [(0, 10945), (0, 20)]], 3, 4⟩, 17592186044416, 2234129,
    7711782053821439897183891503566456932682482215533452270624112217706762706794908704789521975555299963093312228446203712980092892,
    lc0⟩))) (.leaf ⟨419, 16, 461, 569, 16, 1729, ⟨[[(474702422134784, 0), (0, 2538480845376615), (52234600108, 0),
    (0, 241324), (0, 45)], [(21694340986520195, 0), (0, 2197717518338), (32744750, 0), (1654, 0)], [(19385273666401,
    0), (0, 744546059), (0, 37196), (5, 0)], [(12223712553, 0), (223091, 0), (0, 72)]], 3, 4⟩, ⟨[[(0,
    27718993353646080), (0, 3039934416239610), (42872332019, 0), (0, 972129), (63, 0)], [(0, 16518798142825627), (0,
    205425253563), (22287431, 0), (0, 1273)], [(6252982625338, 0), (0, 221675220), (8031, 0), (0, 1)], [(1332268994,
    0), (0, 123049), (9, 0)]], 3, 4⟩, 72057594037927936, 721742911296, 308669285826, ⟨[[(12228826126262, 0),
    (10120670964, 0), (6549119, 0), (0, 12504), (0, 146)], [(0, 12153093078), (0, 31371102), (0, 18470), (246, 0),
    (2, 0)], [(29803819, 0), (101511, 0), (0, 12), (0, 2)], [(0, 87412), (0, 329), (1, 0)]], 3, 4⟩, 17592186044416,
    74729937,
    8081656726761066945920909311531070718701039185587545160333356321729345211283765771922895524917096066233116168914957542420517336,
    lc0⟩))))))
theorem c2 : checkR job con0 true ⟨7, 9, 7, 9, 13, 17⟩ 1 9016 t2 237 21 160 6745 251 8000 = true := by decide +kernel

def t3 : CTree :=
  .sy (.sy (.out ⟨150, 16, 128, 1022, 16, 858, ⟨[[(0, 14682367671699456), (0, 874931751163804), (13631546315, 0)],
    [(38349159243762505, 0), (0, 2605536569778), (0, 31329034)], [(109084860460551, 0), (513404921, 0), (0,
    687384)]], 2, 2⟩, ⟨[[(0, 34370956827992064), (0, 1789391678960037), (31931709870, 0)], [(0, 28968776353402459),
    (0, 982802168877), (73404838, 0)], [(65201032738073, 0), (0, 2749873412), (50560, 0)]], 2, 2⟩, 72057594037927936,
    1806017214560781, 805611775034499, ⟨[], 0, 0⟩, 0, 0, 0, lc0⟩ 0 86 15) (.out ⟨148, 16, 132, 1009, 16, 858,
    ⟨[[(17387748256364544, 0), (0, 887909427385516), (14541808952, 0)], [(38191519040736658, 0), (0, 2713793671146),
    (0, 21299604)], [(112586740440338, 0), (0, 147533913), (0, 640233)]], 2, 2⟩, ⟨[[(12030749005209600, 0), (0,
    1758043327205037), (30523170244, 0)], [(0, 29443768304295936), (0, 909871073174), (71762075, 0)],
    [(63834676408888, 0), (0, 2691239094), (65727, 0)]], 2, 2⟩, 72057594037927936, 1969396248625016, 790701090858513,
    ⟨[], 0, 0⟩, 0, 0, 0, lc0⟩ 2 1 70345152751719)) (.sx (.out ⟨182, 16, 179, 905, 16, 780, ⟨[[(0, 22624884426637312),
    (0, 2269991671875556), (82036455627, 0)], [(22955356361894123, 0), (0, 3670496929597), (10991217, 0)],
    [(35701479518823, 0), (0, 1076327876), (0, 629313)]], 2, 2⟩, ⟨[[(535611343929344, 0), (0, 3100795488529110),
    (101133951298, 0)], [(0, 14256172424258539), (0, 683278681532), (120523560, 0)], [(13545256818647, 0), (0,
    1112535727), (80026, 0)]], 2, 2⟩, 72057594037927936, 397744107680113, 175436104605989, ⟨[], 0, 0⟩, 0, 0, 0, lc0⟩
    2 1 60264327850550) (.sy (.out ⟨245, 16, 219, 1454, 16, 1257, ⟨[[(0, 2750809983428608), (0, 1496210582883362),
    (24485476062, 0)], [(32563889072641518, 0), (0, 2271958075167), (0, 20085269)], [(49408475291041, 0), (0,
    24229282), (0, 275807)]], 2, 2⟩, ⟨[[(31580841916727296, 0), (0, 2545036317631497), (43814953041, 0)], [(0,
    20908839159974626), (0, 655744372297), (52013602, 0)], [(23824589329205, 0), (0, 1002995648), (25308, 0)]], 2,
    2⟩, 72057594037927936, 442173972836725, 170771518565853, ⟨[], 0, 0⟩, 0, 0, 0, lc0⟩ 0 88 10) (.sx (.out ⟨361, 16,
    344, 1831, 16, 1598, ⟨[[(33786842915332096, 0), (0, 2273350324064065), (39709627775, 0)], [(23874760686793740,
    0), (0, 1790868889267), (0, 4972282)], [(18791080447975, 0), (0, 164533623), (0, 90144)]], 2, 2⟩, ⟨[[(0,
    26801134020886528), (0, 3172838955749002), (52587924444, 0)], [(0, 13799756220747319), (0, 371359103938),
    (31409050, 0)], [(7265505259308, 0), (0, 302707012), (9761, 0)]], 2, 2⟩, 72057594037927936, 98533240275805,
    47083229107797, ⟨[], 0, 0⟩, 0, 0, 0, lc0⟩ 0 1376 68) (.out ⟨358, 16, 328, 1838, 16, 1611, ⟨[[(26848039324135424,
    0), (0, 2239549669698097), (37504054631, 0)], [(24315870704633234, 0), (0, 1716533135863), (0, 12527754)],
    [(19027716623479, 0), (0, 53632441), (0, 99661)]], 2, 2⟩, ⟨[[(0, 29296923663302656), (0, 3214921454307330),
    (54362569918, 0)], [(0, 13284061876609393), (0, 400627925142), (32459220, 0)], [(7632008707266, 0), (0,
    319632268), (9043, 0)]], 2, 2⟩, 72057594037927936, 98455380613622, 50348938199399, ⟨[], 0, 0⟩, 0, 0, 0, lc0⟩ 0 94
    9))))
theorem c3 : checkR job con0 true ⟨7, 9, 7, 9, 13, 17⟩ 1 9016 t3 537 21 320 13239 251 16000 = true := by decide +kernel

def t4 : CTree :=
  .sx (.sy (.sx (.out ⟨365, 16, 391, 1813, 16, 1587, ⟨[[(0, 31504878334738432), (0, 2369435316721471), (45329372331,
    0)], [(22771417108508983, 0), (0, 1975597910402), (13938701, 0)], [(18577594703843, 0), (0, 446245126), (0,
    64793)]], 2, 2⟩, ⟨[[(8106579039748096, 0), (0, 3073277100018636), (47546892291, 0)], [(0, 15025950081301961), (0,
    292063361182), (27837448, 0)], [(6570257907023, 0), (0, 258973191), (10810, 0)]], 2, 2⟩, 72057594037927936,
    101835808406523, 38641581207734, ⟨[], 0, 0⟩, 0, 0, 0, lc0⟩ 2 1 40849369977363) (.sx (.out ⟨470, 16, 490, 2122,
    16, 1864, ⟨[[(0, 23768227804037120), (0, 3047890929264606), (57272583596, 0)], [(15021187366589931, 0), (0,
    1254500965189), (5997952, 0)], [(6127667948671, 0), (0, 123140738), (0, 23169)]], 2, 2⟩, ⟨[[(0,
    2092774345244672), (0, 3620808928518730), (56888403956, 0)], [(0, 8578105771342132), (0, 181325974711),
    (16747719, 0)], [(1979657038878, 0), (0, 79584537), (3164, 0)]], 2, 2⟩, 72057594037927936, 22385012026329,
    29039286575810, ⟨[], 0, 0⟩, 0, 0, 0, lc0⟩ 2 1 27887952308488) (.leaf ⟨540, 16, 489, 709, 16, 2000,
    ⟨[[(13872629869486080, 0), (0, 3094461788061700), (57365129578, 0), (452152, 0), (0, 89)], [(15512929213671406,
    0), (0, 1261741547674), (3958497, 0), (2306, 0)], [(6323348783008, 0), (0, 110249233), (0, 25164), (2, 0)],
    [(1663584669, 0), (105441, 0), (0, 17)]], 3, 4⟩, ⟨[[(22680332292349952, 0), (0, 3707915769726717), (58856914928,
    0), (0, 1701333), (66, 0)], [(0, 8594215148192061), (0, 192222038052), (17384604, 0), (0, 680)], [(2060215927107,
    0), (0, 83688179), (3209, 0)], [(305113835, 0), (0, 18595)]], 3, 4⟩, 72057594037927936, 45375760003, 29651332528,
    ⟨[[(11683482853680, 0), (7213438421, 0), (3066318, 0), (0, 10219), (0, 90)], [(0, 8662717042), (0, 15962512),
    (2402, 0), (170, 0), (1, 0)], [(14956459, 0), (33934, 0), (0, 75), (0, 1)], [(0, 34752), (0, 74)]], 3, 4⟩,
    17592186044416, 16351717,
    9430856035274245548152159995848384903728479530086234611723870750958573926948956770560699248843539278974105039588520307463129950,
    lc0⟩))) (.sx (.sx (.out ⟨464, 16, 526, 2125, 16, 1880, ⟨[[(15090508347084800, 0), (0, 3098551640982644),
    (60973451488, 0)], [(14395658782498152, 0), (0, 1310729887194), (12986806, 0)], [(6056661453035, 0), (0,
    174838006), (0, 17915)]], 2, 2⟩, ⟨[[(22983315500990464, 0), (0, 3582047252791730), (53686259393, 0)], [(0,
    9062653779402264), (0, 153902527322), (15295460, 0)], [(1892943676666, 0), (0, 72313624), (3103, 0)]], 2, 2⟩,
    72057594037927936, 18341455067968, 25744326323042, ⟨[], 0, 0⟩, 0, 0, 0, lc0⟩ 2 1 26528412549892) (.sy (.out ⟨726,
    16, 798, 3633, 16, 3212, ⟨[[(0, 31114882232393728), (0, 2404112876423158), (23298773914, 0)],
    [(22878329578941745, 0), (0, 1007223607494), (4059825, 0)], [(9557191198988, 0), (0, 121914538), (0, 7764)]], 2,
    2⟩, ⟨[[(0, 8385118628052992), (0, 3077325450960241), (23448850590, 0)], [(0, 15175037599069745), (0,
    140112188891), (6762378, 0)], [(3303083693684, 0), (0, 64488916), (1356, 0)]], 2, 2⟩, 72057594037927936,
    25870798030186, 9351916696412, ⟨[], 0, 0⟩, 0, 0, 0, lc0⟩ 2 1 22741278157163) (.leaf ⟨840, 16, 826, 1188, 16,
    3454, ⟨[[(0, 35824296157519872), (0, 2464233518977156), (24155138920, 0), (18131, 0), (0, 8)],
    [(23158815808467654, 0), (0, 1038070381899), (4743919, 0), (346, 0)], [(9827207138605, 0), (0, 133965298), (0,
    7451)], [(2812009170, 0), (57267, 0), (0, 6)]], 3, 4⟩, ⟨[[(0, 26295122254708736), (0, 3127734976389002),
    (23526638826, 0), (0, 316256), (8, 0)], [(0, 15611606270452538), (0, 136661279754), (6683871, 0), (0, 163)],
    [(3349999262288, 0), (0, 64662369), (1364, 0)], [(441757185, 0), (0, 16382)]], 3, 4⟩, 72057594037927936,
    67587556433, 38669876206, ⟨[[(11917030740652, 0), (4530413272, 0), (1240563, 0), (0, 1913), (0, 10)], [(0,
    5765912169), (0, 6670057), (0, 506), (19, 0)], [(6709392, 0), (9883, 0), (0, 7)], [(0, 9479), (0, 14)]], 3, 4⟩,
    17592186044416, 2018786,
    8088663788120979000547695535144902765939126804833470574291086385380711875634642744405023194673173381220098150149700116107931569,
    lc0⟩))) (.leaf ⟨410, 16, 390, 593, 16, 1728, ⟨[[(26449649327845376, 0), (0, 2400814148116469), (46060672647, 0),
    (188963, 0), (0, 65)], [(23320363186122304, 0), (0, 1994428575671), (12962905, 0), (3102, 0)], [(19633925714276,
    0), (0, 444674026), (0, 67112), (6, 0)], [(10838319706, 0), (540227, 0), (0, 95)]], 3, 4⟩, ⟨[[(0,
    7025600496926720), (0, 3150515290445355), (48432072473, 0), (0, 1338079), (61, 0)], [(0, 15155993718081018), (0,
    297124819858), (27939584, 0), (0, 1297)], [(6914362214754, 0), (0, 273908128), (11205, 0)], [(1979205390, 0), (0,
    129635), (1, 0)]], 3, 4⟩, 72057594037927936, 477096263804, 313080931588, ⟨[[(11747029403364, 0), (8679569849, 0),
    (4925020, 0), (0, 10767), (0, 120)], [(0, 11417059433), (0, 25983569), (0, 7918), (241, 0), (2, 0)], [(26633902,
    0), (78658, 0), (0, 70), (0, 2)], [(0, 77353), (0, 238), (1, 0)]], 3, 4⟩, 17592186044416, 86307443,
    7419942032488338289367616835189387586238602962880793789518480501434034013285549903475325029553551013473097650526726355501301618,
    lc0⟩))) (.sy (.sx (.leaf ⟨409, 16, 361, 606, 16, 1726, ⟨[[(4797833153228800, 0), (0, 2343444958567479),
    (42456550581, 0), (447548, 0), (0, 72)], [(24110383198749928, 0), (0, 1881503143334), (862983, 0), (3823, 0)],
    [(19610096950253, 0), (0, 262258951), (0, 83965), (7, 0)], [(10012433658, 0), (718099, 0), (0, 106)]], 3, 4⟩,
    ⟨[[(0, 17799750919749632), (0, 3210672867395917), (51749630607, 0), (0, 1504899), (54, 0)], [(0,
    14379105226520954), (0, 350354100172), (30697505, 0), (0, 1152)], [(7320076647460, 0), (0, 300857544), (10862,
    0)], [(2300109281, 0), (0, 124819), (0, 3)]], 3, 4⟩, 72057594037927936, 342195227547, 317163506165,
    ⟨[[(11517464999785, 0), (8056925835, 0), (4339148, 0), (0, 9710), (0, 109)], [(0, 11054762599), (0, 23612268),
    (0, 3677), (239, 0), (2, 0)], [(24453949, 0), (67056, 0), (0, 98), (0, 2)], [(0, 80285), (0, 220), (1, 0)]], 3,
    4⟩, 17592186044416, 84319943,
    4722505929523430039536510162815812168046658307822100262523722246434023880215517698075147176927972188892123281846367833795583678,
    lc0⟩) (.leaf ⟨402, 16, 343, 602, 16, 1740, ⟨[[(35186689941037056, 0), (0, 2302066861179653), (40225651969, 0),
    (589699, 0), (0, 77)], [(24524042856517150, 0), (0, 1804783971556), (0, 6433160), (4209, 0)], [(19844410663128,
    0), (0, 155111202), (0, 93132), (7, 0)], [(9720299820, 0), (812752, 0), (0, 111)]], 3, 4⟩, ⟨[[(28851949662314496,
    0), (0, 3252093878418896), (53488206675, 0), (0, 1565032), (51, 0)], [(0, 13863133718113972), (0, 379329738647),
    (31847940, 0), (0, 1117)], [(7688007619085, 0), (0, 318824571), (10476, 0), (1, 0)], [(2578841685, 0), (0,
    120512), (0, 5)]], 3, 4⟩, 72057594037927936, 288400493516, 319926087175, ⟨[[(11298187925567, 0), (7598265079, 0),
    (4343341, 0), (0, 4141), (0, 58)], [(0, 10756187068), (0, 22662878), (0, 10508), (137, 0), (1, 0)], [(22825121,
    0), (64423, 0), (0, 30), (0, 1)], [(0, 88848), (0, 264)]], 3, 4⟩, 17592186044416, 97138147,
    7667034881093853573932422406848672593999498422390364497557346694333213309164598842131335595668811255642642098482236381079548093,
    lc0⟩)) (.sx (.leaf ⟨404, 16, 371, 589, 16, 1741, ⟨[[(0, 16342462795313152), (0, 2364242480841116), (44215088815,
    0), (314770, 0), (0, 70)], [(23808288969208670, 0), (0, 1929873045623), (6471048, 0), (3487, 0)],
    [(19997150081228, 0), (0, 350901519), (0, 75907), (7, 0)], [(10633451677, 0), (632551, 0), (0, 101)]], 3, 4⟩,
    ⟨[[(0, 26282127406514176), (0, 3187286638229398), (49998713100, 0), (0, 1403053), (59, 0)], [(0,
    14673823430542677), (0, 323227270678), (29102701, 0), (0, 1305)], [(7234154109881, 0), (0, 292229855), (11368,
    0)], [(2256393131, 0), (0, 127440)]], 3, 4⟩, 72057594037927936, 426736797679, 317611309732, ⟨[[(11515343372366,
    0), (8170675029, 0), (4880289, 0), (0, 4906), (0, 66)], [(0, 11019943301), (0, 24648739), (0, 13983), (138, 0),
    (1, 0)], [(25274088, 0), (75958, 0), (0, 6), (0, 1)], [(0, 76578), (0, 248)]], 3, 4⟩, 17592186044416, 89866830,
    2593062181662487547528818980899504202374035938449147723734870410454365007966095859744614676707921896275749601589117117718451209,
    lc0⟩) (.leaf ⟨398, 16, 353, 585, 16, 1756, ⟨[[(0, 9858969102589952), (0, 2327199531646781), (42193770034, 0),
    (450511, 0), (0, 76)], [(24305479206392448, 0), (0, 1860887537731), (0, 436172), (3882, 0)], [(20319599559712,
    0), (0, 250361444), (0, 84975), (7, 0)], [(10395430643, 0), (725616, 0), (0, 106)]], 3, 4⟩,
    ⟨[[(18824342136872960, 0), (0, 3228969366999127), (51682518317, 0), (0, 1470055), (57, 0)], [(0,
    14174833959378124), (0, 351444924344), (30312926, 0), (0, 1295)], [(7599918287332, 0), (0, 310718816), (11344,
    0)], [(2540562797, 0), (0, 124883), (0, 2)]], 3, 4⟩, 72057594037927936, 370290692575, 322492282386,
    ⟨[[(11292668931917, 0), (7682106040, 0), (4663978, 0), (0, 1645), (0, 34)], [(0, 10657448719), (0, 23287948), (0,
    16898), (75, 0), (1, 0)], [(23812979, 0), (71851, 0), (30, 0), (0, 1)], [(0, 78724), (0, 259)]], 3, 4⟩,
    17592186044416, 92497899,
    2700617576140685742909533982900610073598912715987437592735812832751099503865362782444325552119517175427165856200956022148369481,
    lc0⟩)))
theorem c4 : checkR job con0 true ⟨7, 9, 7, 9, 13, 17⟩ 1 9016 t4 537 21 320 27231 251 32000 = true := by decide +kernel

def t5 : CTree :=
  .sx (.sy (.sx (.leaf ⟨414, 16, 424, 580, 16, 1728, ⟨[[(35501405633994752, 0), (0, 2470353747475906), (49387153209,
    0), (0, 41992), (0, 56)], [(22560709023293918, 0), (0, 2103011205415), (23614546, 0), (2385, 0)],
    [(19595329885581, 0), (0, 605846849), (0, 51583), (6, 0)], [(11595847342, 0), (375847, 0), (0, 84)]], 3, 4⟩,
    ⟨[[(14554086807420928, 0), (0, 3091980673978015), (45441016293, 0), (0, 1155560), (64, 0)], [(0,
    15858095722359899), (0, 248676307381), (25031598, 0), (0, 1339)], [(6554836026829, 0), (0, 246711006), (10246,
    0), (0, 1)], [(1654196476, 0), (0, 128570), (5, 0)]], 3, 4⟩, 72057594037927936, 601847268098, 311143758707,
    ⟨[[(11982426094779, 0), (9371228906, 0), (5678274, 0), (0, 11559), (0, 131)], [(0, 11762741402), (0, 28551688),
    (0, 13081), (240, 0), (2, 0)], [(28179755, 0), (89632, 0), (0, 39), (0, 2)], [(0, 81456), (0, 281), (1, 0)]], 3,
    4⟩, 17592186044416, 80331742,
    8394136275157845698552650284670090000515957450134551775741260089222670250010319762095826159261711853474651841748134469705553013,
    lc0⟩) (.leaf ⟨406, 16, 402, 576, 16, 1742, ⟨[[(0, 5778836539228160), (0, 2426903465734093), (47672604725, 0),
    (65266, 0), (0, 62)], [(23009661079429309, 0), (0, 2040075198536), (17841950, 0), (2752, 0)], [(19991336998413,
    0), (0, 522943934), (0, 59578), (6, 0)], [(11427301430, 0), (462449, 0), (0, 90)]], 3, 4⟩, ⟨[[(0,
    18145012072456192), (0, 3128008763338953), (46887606570, 0), (0, 1222614), (64, 0)], [(0, 15422220928522130), (0,
    272265654984), (26127867, 0), (0, 1394)], [(6834590074098, 0), (0, 264936745), (10920, 0)], [(1930205341, 0), (0,
    127961), (4, 0)]], 3, 4⟩, 72057594037927936, 554844368537, 316394315898, ⟨[[(11743546597581, 0), (8814838136, 0),
    (5575376, 0), (0, 5381), (0, 73)], [(0, 11373637089), (0, 27085194), (0, 18605), (136, 0), (1, 0)], [(27033070,
    0), (86684, 0), (22, 0), (0, 1)], [(0, 78660), (0, 282)]], 3, 4⟩, 17592186044416, 85582013,
    3422337251417314689166709464219590437252476770790941361595557340780781930492979600361256865471780662152620480929293693391099131,
    lc0⟩)) (.sx (.leaf ⟨410, 16, 437, 564, 16, 1743, ⟨[[(0, 25845921764716544), (0, 2495052041797348), (50751494777,
    0), (0, 153882), (0, 52)], [(22170778859538072, 0), (0, 2141309611681), (27701196, 0), (2008, 0)],
    [(19870017342689, 0), (0, 673372865), (0, 44447), (6, 0)], [(12124750236, 0), (304777, 0), (0, 78)]], 3, 4⟩,
    ⟨[[(0, 23848747615420416), (0, 3073650362970867), (44178034739, 0), (0, 1035842), (64, 0)], [(0,
    16115481137837882), (0, 226514663343), (23192351, 0), (0, 1373)], [(6489326139264, 0), (0, 239034755), (9139, 0),
    (0, 1)], [(1604997122, 0), (0, 123089), (8, 0)]], 3, 4⟩, 72057594037927936, 679616352262, 309604231669,
    ⟨[[(11977789146168, 0), (9515060490, 0), (6410660, 0), (0, 5656), (0, 80)], [(0, 11730881417), (0, 29717317), (0,
    23965), (133, 0), (1, 0)], [(28583209, 0), (97888, 0), (51, 0), (0, 1)], [(0, 84138), (0, 330)]], 3, 4⟩,
    17592186044416, 78274096,
    4507884616887199439741112597226487446236919510935023968414074250679357603191408414597698308832837162995038390043517612028317509,
    lc0⟩) (.leaf ⟨402, 16, 415, 559, 16, 1757, ⟨[[(0, 16962512810233856), (0, 2455955209379397), (49221247861, 0),
    (0, 56296), (0, 59)], [(22701505128866161, 0), (0, 2085523149477), (22351363, 0), (2381, 0)], [(20352111938888,
    0), (0, 596875486), (0, 52178), (6, 0)], [(12013829996, 0), (388516, 0), (0, 84)]], 3, 4⟩, ⟨[[(0,
    7945614946353152), (0, 3108362572396302), (45531606206, 0), (0, 1103870), (64, 0)], [(0, 15686411500994627), (0,
    249229709013), (24193090, 0), (0, 1456)], [(6762011777052, 0), (0, 256548546), (10159, 0), (0, 1)], [(1883314507,
    0), (0, 123492), (7, 0)]], 3, 4⟩, 72057594037927936, 632286312042, 316196823983, ⟨[[(11740688895311, 0),
    (8947968958, 0), (6088346, 0), (0, 2026), (0, 43)], [(0, 11326788456), (0, 28022469), (0, 25890), (70, 0), (1,
    0)], [(27360846, 0), (93055, 0), (82, 0), (0, 1)], [(0, 80624), (0, 319)]], 3, 4⟩, 17592186044416, 84933418,
    3127485795076746481937039625897220283964777736977758816412162163898601902190552636473962262589628470672241209443808705207360582,
    lc0⟩))) (.sy (.sx (.leaf ⟨399, 16, 382, 571, 16, 1756, ⟨[[(0, 3931862286057472), (0, 2388424329758708),
    (45906530258, 0), (182616, 0), (0, 68)], [(23518793394040646, 0), (0, 1977803211826), (11728744, 0), (3137, 0)],
    [(20389849142361, 0), (0, 434641012), (0, 68021), (7, 0)], [(11250177981, 0), (551062, 0), (0, 96)]], 3, 4⟩,
    ⟨[[(34926638926102528, 0), (0, 3165155442985821), (48390317673, 0), (0, 1292026), (62, 0)], [(0,
    14956680550541534), (0, 297566934854), (27281931, 0), (0, 1429)], [(7151415160448, 0), (0, 283210647), (11441,
    0)], [(2211511023, 0), (0, 127247), (3, 0)]], 3, 4⟩, 72057594037927936, 507964586444, 320391133864,
    ⟨[[(11510305579266, 0), (8285526427, 0), (5315214, 0), (0, 1880), (0, 38)], [(0, 10976498827), (0, 25539673), (0,
    21104), (72, 0), (1, 0)], [(25777456, 0), (82521, 0), (56, 0), (0, 1)], [(0, 76057), (0, 276)]], 3, 4⟩,
    17592186044416, 91814170,
    2107984652250334167487369133425796813146079017740022760305281173138841054498375517989937593188173004455426760899888435825883906,
    lc0⟩) (.leaf ⟨393, 16, 363, 568, 16, 1771, ⟨[[(0, 27777508336459776), (0, 2349252122213867), (43970378034, 0),
    (310094, 0), (0, 74)], [(24033767943267258, 0), (0, 1911152357533), (5216416, 0), (3531, 0)], [(20744868039063,
    0), (0, 339800350), (0, 76745), (7, 0)], [(11037613248, 0), (640425, 0), (0, 101)]], 3, 4⟩, ⟨[[(0,
    17790317952770048), (0, 3205310540664495), (49979833870, 0), (0, 1363748), (61, 0)], [(0, 14466315509812258), (0,
    324777429041), (28496072, 0), (0, 1445)], [(7510446030738, 0), (0, 301676046), (11786, 0)], [(2498824306, 0), (0,
    126305), (1, 0)]], 3, 4⟩, 72057594037927936, 452723031360, 322821708574, ⟨[[(11293986685586, 0), (7785068035, 0),
    (4948045, 0), (0, 220), (0, 20)], [(0, 10618842115), (0, 23985381), (0, 21292), (38, 0)], [(24505754, 0), (77452,
    0), (69, 0)], [(0, 74985), (0, 268)]], 3, 4⟩, 17592186044416, 98060413,
    1639421264533779945028857596765491821221695987537410616911583629887018190142304524415391927287949381827467102334051242336286078,
    lc0⟩)) (.sx (.leaf ⟨393, 16, 393, 554, 16, 1771, ⟨[[(34614532850896896, 0), (0, 2409676477354832), (47407655892,
    0), (51821, 0), (0, 65)], [(23178023109795358, 0), (0, 2020318619181), (16575511, 0), (2761, 0)],
    [(20735724105351, 0), (0, 512416422), (0, 60113), (6, 0)], [(11834618591, 0), (472249, 0), (0, 90)]], 3, 4⟩,
    ⟨[[(21326701680107520, 0), (0, 3144146828765459), (46937176670, 0), (0, 1175449), (64, 0)], [(0,
    15228348509186923), (0, 273595368416), (25281139, 0), (0, 1519)], [(7071994165573, 0), (0, 274250389), (11049,
    0)], [(2166921998, 0), (0, 124071), (6, 0)]], 3, 4⟩, 72057594037927936, 585212451006, 322537920024,
    ⟨[[(11517750890739, 0), (8423243103, 0), (5693055, 0), (0, 177), (0, 22)], [(0, 10997798621), (0, 26500650), (0,
    26045), (34, 0)], [(26418365, 0), (88658, 0), (95, 0)], [(0, 78380), (0, 307)]], 3, 4⟩, 17592186044416, 94482235,
    2437818124913770556893839330976156528472915354284973251772904567264749314767092991517553197626764383395909309465028256905953741,
    lc0⟩) (.leaf ⟨387, 16, 373, 550, 16, 1786, ⟨[[(0, 16460847866585088), (0, 2368404501109937), (45548627387, 0),
    (170293, 0), (0, 71)], [(23711821874642066, 0), (0, 1955795514323), (10468843, 0), (3156, 0)], [(21122083931363,
    0), (0, 423077705), (0, 68475), (7, 0)], [(11646498344, 0), (557725, 0), (0, 96)]], 3, 4⟩, ⟨[[(15590733022937088,
    0), (0, 3182862565191804), (48425585007, 0), (0, 1250444), (63, 0)], [(0, 14746207411742053), (0, 299806241203),
    (26459378, 0), (0, 1562)], [(7424330029027, 0), (0, 292312153), (11779, 0)], [(2456594102, 0), (0, 124675), (4,
    0)]], 3, 4⟩, 72057594037927936, 533934944065, 324534384086, ⟨[[(11292037776342, 0), (7892085479, 0), (5226760,
    0), (706, 0), (0, 11)], [(0, 10600485643), (0, 24723741), (0, 24778), (15, 0)], [(25065265, 0), (82414, 0), (97,
    0)], [(0, 75013), (0, 287)]], 3, 4⟩, 17592186044416, 100407663,
    1618977527647368165783771703588857393042917898260340786463286840451317300078318587214954904565032660918837216551474266875604378,
    lc0⟩)))
theorem c5 : checkR job con0 true ⟨7, 9, 7, 9, 13, 17⟩ 1 9016 t5 537 21 320 27733 251 32000 = true := by decide +kernel

def t6 : CTree :=
  .sy (.out ⟨86, 16, 67, 452, 16, 393, ⟨[[(20501557849075712, 0), (0, 2017803162445574), (103740636139, 0)],
    [(24397366777821248, 0), (0, 5317596808276), (0, 682479414)], [(70446103319588, 0), (6677570473, 0), (0,
    8391259)]], 2, 2⟩, ⟨[[(19895097603948544, 0), (0, 3269594475942380), (241178419943, 0)], [(0, 10943805835979176),
    (0, 2042981081824), (548055676, 0)], [(34365544476762, 0), (0, 5588717017), (145971, 0)]], 2, 2⟩,
    72057594037927936, 1711709661741096, 963326142682020, ⟨[], 0, 0⟩, 0, 0, 0, lc0⟩ 0 90 26) (.sx (.sy (.sx (.sy
    (.out ⟨349, 16, 321, 1839, 16, 1639, ⟨[[(30710781973143552, 0), (0, 2225548803206273), (37231078581, 0)],
    [(24559518997781909, 0), (0, 1696964446772), (0, 13909976)], [(19728030265224, 0), (0, 41082368), (0, 100895)]],
    2, 2⟩, ⟨[[(9564972588466176, 0), (0, 3232811453578190), (54243477776, 0)], [(0, 13058683870098766), (0,
    402285335496), (32342260, 0)], [(7941357112315, 0), (0, 329983159), (9672, 0)]], 2, 2⟩, 72057594037927936,
    102264583435360, 52305807387570, ⟨[], 0, 0⟩, 0, 0, 0, lc0⟩ 0 107 9) (.leaf ⟨392, 16, 335, 582, 16, 1771, ⟨[[(0,
    35864124742590464), (0, 2283069840712865), (39874943370, 0), (594438, 0), (0, 81)], [(24738546438249582, 0), (0,
    1782090783633), (0, 7739854), (4272, 0)], [(20541345160062, 0), (0, 142875445), (0, 93998), (7, 0)],
    [(10094521335, 0), (816658, 0), (0, 111)]], 3, 4⟩, ⟨[[(8527731324297216, 0), (0, 3272000499331169), (53428029238,
    0), (0, 1536671), (54, 0)], [(0, 13638041588663107), (0, 381429568474), (31520067, 0), (0, 1264)],
    [(8004457688811, 0), (0, 328978008), (11097, 0), (1, 0)], [(2828233758, 0), (0, 121628), (0, 4)]], 3, 4⟩,
    72057594037927936, 315376233205, 325062413187, ⟨[[(11079299129841, 0), (7215005816, 0), (4349765, 0), (0, 31),
    (0, 16)], [(0, 10352773340), (0, 21975381), (0, 17698), (40, 0)], [(22053715, 0), (65989, 0), (46, 0)], [(0,
    86628), (0, 284)]], 3, 4⟩, 17592186044416, 104663279,
    8951296982268006795619038038833672662389453874465730787471661022838985950032183228641069899286141975453923411804927751095619626,
    lc0⟩)) (.out ⟨225, 16, 203, 1047, 16, 943, ⟨[[(21733804673978368, 0), (0, 2881653058322246), (93920917964, 0)],
    [(16340506199448222, 0), (0, 2157778091651), (0, 48561593)], [(13226156586890, 0), (29960265, 0), (0, 278109)]],
    2, 2⟩, ⟨[[(28431013634818048, 0), (0, 3708347398063389), (125204630721, 0)], [(0, 7181711707635416), (0,
    476568047505), (74461445, 0)], [(4732386436276, 0), (0, 390353122), (21944, 0)]], 2, 2⟩, 72057594037927936,
    140390754967360, 135956621767700, ⟨[], 0, 0⟩, 0, 0, 0, lc0⟩ 0 136 15)) (.sy (.sx (.leaf ⟨386, 16, 344, 564, 16,
    1786, ⟨[[(0, 12120084650336256), (0, 2302876419699933), (41740932267, 0), (446302, 0), (0, 80)],
    [(24483057642963758, 0), (0, 1834748040935), (0, 1691365), (3922, 0)], [(20996168384061, 0), (0, 238023017), (0,
    85455), (7, 0)], [(10758618015, 0), (728076, 0), (0, 106)]], 3, 4⟩, ⟨[[(17768004745388032, 0), (0,
    3246761093805698), (51631144148, 0), (0, 1436206), (58, 0)], [(0, 13938808729708157), (0, 353753500215),
    (29738822, 0), (0, 1440)], [(7908598469784, 0), (0, 320126963), (11919, 0)], [(2789939222, 0), (0, 124840), (0,
    1)]], 3, 4⟩, 72057594037927936, 395626199953, 328245955442, ⟨[[(11081945361915, 0), (7313504423, 0), (4566781,
    0), (639, 0), (0, 9)], [(0, 10311103285), (0, 22579781), (0, 20780), (18, 0)], [(23244712, 0), (72414, 0), (74,
    0)], [(0, 77339), (0, 270)]], 3, 4⟩, 17592186044416, 104044782,
    2338901582924353666737627005838618042169592021374017656601488024765677778077956590975862368544656078229934044987023503867248379,
    lc0⟩) (.sx (.leaf ⟨506, 16, 439, 647, 16, 2069, ⟨[[(30092882877833216, 0), (0, 3012871871861070), (53087713629,
    0), (736498, 0), (0, 111)], [(16486776317342717, 0), (0, 1178842941320), (0, 4720920), (2801, 0)],
    [(7026065712858, 0), (0, 52526684), (0, 30580), (2, 0)], [(1748072804, 0), (131770, 0), (0, 18)]], 3, 4⟩, ⟨[[(0,
    19975429559320576), (0, 3774506888913201), (60911211816, 0), (0, 1715847), (65, 0)], [(0, 7780217420690926), (0,
    216799509109), (17658533, 0), (0, 818)], [(2369549700657, 0), (0, 96098588), (3415, 0)], [(433116356, 0), (0,
    17736)]], 3, 4⟩, 72057594037927936, 46543287953, 30668179803, ⟨[[(10937329810678, 0), (6073823210, 0), (3235447,
    0), (601, 0), (0, 3)], [(0, 7626329122), (0, 14159334), (0, 11389), (5, 0)], [(12593929, 0), (33623, 0), (31,
    0)], [(0, 35159), (0, 105)]], 3, 4⟩, 17592186044416, 14460401,
    5096849319104823171546348633459744954256085194347381275832338924832467787546231023253293135359357147513428183086054176974783802,
    lc0⟩) (.out ⟨441, 16, 421, 2108, 16, 1935, ⟨[[(10636237217968128, 0), (0, 2936897888500903), (50667810331, 0)],
    [(16385675859269681, 0), (0, 1134051927117), (0, 7084387)], [(6950377224511, 0), (0, 33792674), (0, 31572)]], 2,
    2⟩, ⟨[[(0, 16880089256034304), (0, 3715660565793770), (60548770428, 0)], [(0, 7442400585538583), (0,
    220914951850), (17620454, 0)], [(2381671085201, 0), (0, 96546821), (3307, 0)]], 2, 2⟩, 72057594037927936,
    30649359431132, 31868786105990, ⟨[], 0, 0⟩, 0, 0, 0, lc0⟩ 0 422 20))) (.sx (.leaf ⟨381, 16, 354, 547, 16, 1802,
    ⟨[[(0, 22403489062117376), (0, 2326388093711317), (43524187165, 0), (299050, 0), (0, 77)], [(24247013199241259,
    0), (0, 1886900629099), (3977492, 0), (3558, 0)], [(21462322815446, 0), (0, 327740751), (0, 77086), (7, 0)],
    [(11420649439, 0), (643664, 0), (0, 101)]], 3, 4⟩, ⟨[[(0, 24540368877568000), (0, 3224610684831387),
    (50001909176, 0), (0, 1328075), (61, 0)], [(0, 14235482435089122), (0, 327930821047), (27714389, 0), (0, 1584)],
    [(7820369084946, 0), (0, 310737925), (12315, 0)], [(2751799289, 0), (0, 125042), (3, 0)]], 3, 4⟩,
    72057594037927936, 476368231481, 326730367317, ⟨[[(11084857565029, 0), (7408232696, 0), (4778597, 0), (1053, 0),
    (0, 5)], [(0, 10268388910), (0, 23142725), (0, 23148), (5, 0)], [(23861353, 0), (76750, 0), (93, 0)], [(0,
    73792), (0, 273)]], 3, 4⟩, 17592186044416, 107542654,
    1263683867325089179944209628931800564488097565448840538801163256086671799030372331290042246188104078823984234979223292777304287,
    lc0⟩) (.leaf ⟨375, 16, 336, 543, 16, 1818, ⟨[[(18454466389876736, 0), (0, 2283818680339713), (41333292781, 0),
    (437841, 0), (0, 83)], [(24783219571520405, 0), (0, 1813648865377), (0, 2896193), (3965, 0)], [(21757197431484,
    0), (0, 226722870), (0, 85887), (7, 0)], [(11156922315, 0), (729744, 0), (0, 106)]], 3, 4⟩,
    ⟨[[(24372734248697856, 0), (0, 3267699798552034), (51642284852, 0), (0, 1406741), (59, 0)], [(0,
    13683960164373425), (0, 357841824541), (29014069, 0), (0, 1583)], [(8256879438587, 0), (0, 329315437), (12620,
    0)], [(3049839946, 0), (0, 124813), (1, 0)]], 3, 4⟩, 72057594037927936, 416776835755, 329463965405,
    ⟨[[(10882762549437, 0), (6956682630, 0), (4361793, 0), (1161, 0), (0, 2)], [(0, 9960828737), (0, 21690106), (0,
    21485), (0, 1)], [(22576764, 0), (71125, 0), (87, 0)], [(0, 75277), (0, 269)]], 3, 4⟩, 17592186044416, 114706200,
    2898444969629008278618382857136512885578897815863461531698924921068208145299855744564779248704193205540956106846309585929285446,
    lc0⟩)))) (.sy (.out ⟨167, 16, 141, 921, 16, 834, ⟨[[(0, 4744619887071232), (0, 2095654826697427), (62289485856,
    0)], [(25115749281537588, 0), (0, 2970321997970), (0, 121387407)], [(39962496758030, 0), (804811167, 0), (0,
    942719)]], 2, 2⟩, ⟨[[(763901213450240, 0), (0, 3307655905462977), (114954436577, 0)], [(0, 11610201506086156),
    (0, 932550046662), (136222840, 0)], [(17979936072850, 0), (0, 1461674447), (64937, 0)]], 2, 2⟩,
    72057594037927936, 428488826901351, 243356007791366, ⟨[], 0, 0⟩, 0, 0, 0, lc0⟩ 0 57 11) (.sx (.sy (.out ⟨330, 16,
    305, 1845, 16, 1699, ⟨[[(18487951150436352, 0), (0, 2179512640496349), (36289601427, 0)], [(25039994041029065,
    0), (0, 1646877034611), (0, 16350350)], [(21076124757942, 0), (0, 18463015), (0, 101811)]], 2, 2⟩,
    ⟨[[(7050207031885824, 0), (0, 3275044787483677), (54150125779, 0)], [(0, 12532928767709228), (0, 409660716881),
    (31663900, 0)], [(8668963788905, 0), (0, 350325340), (11254, 0)]], 2, 2⟩, 72057594037927936, 109052374655456,
    56510622536103, ⟨[], 0, 0⟩, 0, 0, 0, lc0⟩ 0 136 11) (.sx (.leaf ⟨494, 16, 430, 621, 16, 2100,
    ⟨[[(35527540775071744, 0), (0, 2996114634745776), (52666643763, 0), (729667, 0), (0, 116)], [(16756786770122478,
    0), (0, 1168209110933), (0, 5522170), (2842, 0)], [(7301592278308, 0), (0, 49037699), (0, 30797), (2, 0)],
    [(1818624411, 0), (132102, 0), (0, 18)]], 3, 4⟩, ⟨[[(0, 11422747173249024), (0, 3787973149550432), (60722985315,
    0), (0, 1682107), (66, 0)], [(0, 7597481388254319), (0, 218870604734), (17216581, 0), (0, 899)], [(2470413358794,
    0), (0, 98485352), (3639, 0)], [(469632477, 0), (0, 17796)]], 3, 4⟩, 72057594037927936, 49460377463, 30623939909,
    ⟨[[(10739594562271, 0), (5784416065, 0), (3085249, 0), (757, 0)], [(0, 7331177116), (0, 13534079), (0, 11512),
    (0, 1)], [(12100490, 0), (32642, 0), (35, 0)], [(0, 33713), (0, 102)]], 3, 4⟩, 17592186044416, 15249577,
    5470445333845623377860998995522817675396473127370835318723784333938912293623507240694239616894628309777220092829763515749687931,
    lc0⟩) (.out ⟨431, 16, 412, 2106, 16, 1965, ⟨[[(0, 29649939943231488), (0, 2917780105629673), (50186415533, 0)],
    [(16652255471187688, 0), (0, 1122566214692), (0, 7863145)], [(7216737984657, 0), (0, 30390518), (0, 31750)]], 2,
    2⟩, ⟨[[(0, 23881820275539968), (0, 3730887294830892), (60377068529, 0)], [(0, 7258166971392556), (0,
    223260564663), (17214591, 0)], [(2486513633580, 0), (0, 98952969), (3548, 0)]], 2, 2⟩, 72057594037927936,
    31223678944395, 31776457097614, ⟨[], 0, 0⟩, 0, 0, 0, lc0⟩ 0 550 25))) (.out ⟨216, 16, 195, 1046, 16, 973, ⟨[[(0,
    12436895967997952), (0, 2852364381305974), (92292251875, 0)], [(16910223666518647, 0), (0, 2116620602126), (0,
    55268680)], [(14294931996614, 0), (57673035, 0), (0, 282595)]], 2, 2⟩, ⟨[[(4863955567755264, 0), (0,
    3740027541684845), (124406498390, 0)], [(0, 6812179381131292), (0, 485168857926), (72378456, 0)],
    [(5161216874615, 0), (0, 411508698), (25961, 0)]], 2, 2⟩, 72057594037927936, 147094355810636, 136247771471818,
    ⟨[], 0, 0⟩, 0, 0, 0, lc0⟩ 0 156 17))))
theorem c6 : checkR job con0 true ⟨7, 9, 7, 9, 13, 17⟩ 1 9016 t6 579 21 320 6745 251 8000 = true := by decide +kernel

def t7 : CTree :=
  .sx (.sx (.sy (.out ⟨87, 16, 57, 462, 16, 406, ⟨[[(4308817306046464, 0), (0, 1891058414283022), (49102804846, 0)],
    [(26239652527443919, 0), (0, 3633491564067), (0, 1339221468)], [(70319471401203, 0), (16287933874, 0), (0,
    11091825)]], 2, 2⟩, ⟨[[(0, 30724379397971968), (0, 3476846128039031), (272862759795, 0)], [(0, 8022101399870827),
    (0, 2613167449505), (553820139, 0)], [(42962328262528, 0), (0, 6115621011), (0, 481866)]], 2, 2⟩,
    72057594037927936, 1748601908174810, 1136648549770488, ⟨[], 0, 0⟩, 0, 0, 0, lc0⟩ 0 17 9) (.out ⟨78, 16, 60, 458,
    16, 424, ⟨[[(790324548903936, 0), (0, 1915432542272122), (94584294948, 0)], [(25404301234574872, 0), (0,
    4895673930108), (0, 753310600)], [(79973362978488, 0), (7123961087, 0), (0, 8372796)]], 2, 2⟩, ⟨[[(0,
    22608207659458560), (0, 3367195599491632), (240926904958, 0)], [(0, 9600553678139106), (0, 2145470258063),
    (562177271, 0)], [(41619323338021, 0), (0, 6399772041), (409164, 0)]], 2, 2⟩, 72057594037927936,
    1910146706849680, 1129278625633324, ⟨[], 0, 0⟩, 0, 0, 0, lc0⟩ 0 120 36)) (.out ⟨60, 16, 35, 248, 16, 226, ⟨[[(0,
    25400203605318144), (0, 2469665840302772), (25755913679, 0)], [(19600569776131215, 0), (0, 3393236110982), (0,
    4867517750)], [(51867412027476, 0), (29935909258, 0), (0, 34133747)]], 2, 2⟩, ⟨[[(8762352620175360, 0), (0,
    3845722519365825), (611746346077, 0)], [(0, 2673504817286875), (0, 3191178200742), (1194483959, 0)],
    [(27933560218693, 0), (0, 7140818771), (0, 1394974)]], 2, 2⟩, 72057594037927936, 6193846187098675,
    2740887171260749, ⟨[], 0, 0⟩, 0, 0, 0, lc0⟩ 0 16 11)) (.out ⟨43, 16, 19, 220, 16, 201, ⟨[[(20578521895533056, 0),
    (0, 1368924782952114), (0, 239262316102)], [(28652484222629547, 0), (2708104740475, 0), (0, 11225161554)],
    [(115724041807567, 0), (142767391507, 0), (0, 114982241)]], 2, 2⟩, ⟨[[(6219210080643072, 0), (0,
    3623736094267824), (603486139483, 0)], [(2328644222778708, 0), (0, 7207674330159), (1569934391, 0)],
    [(124168041737526, 0), (0, 22392594127), (0, 12243890)]], 2, 2⟩, 72057594037927936, 12191481261459679,
    4954867043451756, ⟨[], 0, 0⟩, 0, 0, 0, lc0⟩ 0 10 13)
theorem c7 : checkR job con0 true ⟨7, 9, 7, 9, 13, 17⟩ 1 9016 t7 171 21 80 6745 251 8000 = true := by decide +kernel

def t8 : CTree :=
  .sx (.out ⟨47, 16, 168, 172, 16, 122, ⟨[[(5690588740926976, 0), (0, 1321200426759412), (122302948847, 0)],
    [(26143836610103384, 0), (0, 21971027044655), (2397362866, 0)], [(0, 194310179705563), (0, 10515944309),
    (12286473, 0)]], 2, 2⟩, ⟨[[(15783137112686592, 0), (0, 1531531803608679), (61938297607, 0)], [(0,
    29447812523157559), (0, 4034125706679), (251971185, 0)], [(123815649176297, 0), (38294102134, 0), (0,
    11411469)]], 2, 2⟩, 72057594037927936, 16961935546014478, 7669767814302868, ⟨[], 0, 0⟩, 0, 0, 0, lc0⟩ 2 1
    715502642588690) (.out ⟨60, 16, 171, 189, 16, 146, ⟨[[(0, 8678606598131200), (0, 2297611446977649),
    (256722303275, 0)], [(16311199751242633, 0), (0, 23016678792451), (4033722293, 0)], [(0, 62016123946457), (0,
    11091331792), (24412655, 0)]], 2, 2⟩, ⟨[[(0, 27256167115184128), (0, 1969578839387411), (77328701314, 0)], [(0,
    25549713349743080), (0, 1948098320816), (179304603, 0)], [(88779977063167, 0), (26132118978, 0), (8820705, 0)]],
    2, 2⟩, 72057594037927936, 9276918028161186, 6300465027621797, ⟨[], 0, 0⟩, 0, 0, 0, lc0⟩ 2 1 466223812604802)
theorem c8 : checkR job con0 true ⟨7, 9, 7, 9, 13, 17⟩ 1 9016 t8 45 21 80 7247 251 8000 = true := by decide +kernel

def t9 : CTree :=
  .sx (.out ⟨57, 16, 141, 201, 16, 167, ⟨[[(0, 32172129184363008), (0, 2721054326537214), (386592083222, 0)],
    [(12123986711931784, 0), (0, 20794355719537), (4930176619, 0)], [(16944433016534, 0), (0, 38581472506),
    (15188508, 0)]], 2, 2⟩, ⟨[[(0, 10984217045127168), (0, 2302843952262033), (118716783882, 0)], [(0,
    22456379481395706), (0, 376263199958), (1224196200, 0)], [(62936970615670, 0), (13812393047, 0), (9612417, 0)]],
    2, 2⟩, 72057594037927936, 6721831122434150, 5464776899653479, ⟨[], 0, 0⟩, 0, 0, 0, lc0⟩ 2 1 271231168538601) (.sy
    (.out ⟨75, 16, 148, 302, 16, 261, ⟨[[(0, 20768821998510080), (0, 2017775842954306), (164185330402, 0)],
    [(21022633167140770, 0), (0, 14404822934635), (1550589100, 0)], [(114878295547922, 0), (0, 46232745257),
    (2480242, 0)]], 2, 2⟩, ⟨[[(0, 9806727535128576), (0, 1837391109194036), (76905873098, 0)], [(0,
    28390974291875054), (0, 172528636993), (455479247, 0)], [(65316473244355, 0), (0, 653674003), (0, 749689)]], 2,
    2⟩, 72057594037927936, 10140899523904291, 2029434856516463, ⟨[], 0, 0⟩, 0, 0, 0, lc0⟩ 2 1 154744024019761) (.sx
    (.out ⟨105, 16, 263, 417, 16, 371, ⟨[[(25163511733454848, 0), (0, 3065478577520439), (257414391382, 0)],
    [(11109602369773763, 0), (0, 10677330050940), (1316816799, 0)], [(30080389745816, 0), (0, 17015142570), (0,
    5231)]], 2, 2⟩, ⟨[[(19171423717879808, 0), (0, 2519131982122784), (72563326707, 0)], [(0, 21158376142725906),
    (301531178182, 0), (567963280, 0)], [(25389809914464, 0), (449505194, 0), (0, 31980)]], 2, 2⟩, 72057594037927936,
    1756195071978279, 1163415663952466, ⟨[], 0, 0⟩, 0, 0, 0, lc0⟩ 2 1 113229593921390) (.sy (.sx (.out ⟨205, 16, 462,
    853, 16, 767, ⟨[[(2022223545360384, 0), (0, 3069872682191072), (131179635013, 0)], [(13201190641630214, 0), (0,
    5366635900823), (290346210, 0)], [(21854817190146, 0), (0, 4703381988), (12937, 0)]], 2, 2⟩,
    ⟨[[(21198275629694976, 0), (0, 2618745036043489), (50476952633, 0)], [(0, 20362451634736780), (77806344772, 0),
    (117058962, 0)], [(11445000070735, 0), (0, 262896946), (0, 108089)]], 2, 2⟩, 72057594037927936, 461005816833307,
    160987278410495, ⟨[], 0, 0⟩, 0, 0, 0, lc0⟩ 2 1 79003706063530) (.sy (.out ⟨305, 16, 643, 1245, 16, 1128, ⟨[[(0,
    5209530564358144), (0, 2324236589637241), (50031866784, 0)], [(22304050733124919, 0), (0, 4078226874419),
    (102901366, 0)], [(40124227110867, 0), (0, 3685963919), (10494, 0)]], 2, 2⟩, ⟨[[(0, 30550026821812224), (0,
    1933982782099682), (20766731431, 0)], [(0, 28587658893292507), (15756849672, 0), (36414687, 0)],
    [(15818136367122, 0), (0, 311571090), (0, 47697)]], 2, 2⟩, 72057594037927936, 733238064190691, 80785653053461,
    ⟨[], 0, 0⟩, 0, 0, 0, lc0⟩ 2 1 55215596371565) (.out ⟨305, 16, 678, 1238, 16, 1134, ⟨[[(0, 26209282938433536), (0,
    2397921392330709), (52521496300, 0)], [(21386467006217021, 0), (0, 4192963949990), (105119847, 0)],
    [(40358698284884, 0), (0, 3883489231), (0, 5792)]], 2, 2⟩, ⟨[[(0, 19962997306621952), (0, 1923803661064237),
    (19853753030, 0)], [(0, 28722101107826237), (55311644371, 0), (42314665, 0)], [(15731839288295, 0), (0,
    368077918), (0, 61567)]], 2, 2⟩, 72057594037927936, 755817876676577, 89297042092241, ⟨[], 0, 0⟩, 0, 0, 0, lc0⟩ 2
    1 36761489953544))) (.sx (.sy (.out ⟨327, 16, 798, 1214, 16, 1109, ⟨[[(0, 8686888541532160), (0,
    2565941057169352), (56773728903, 0)], [(19382543625450709, 0), (0, 4448253926286), (122584519, 0)],
    [(34686847706154, 0), (0, 4081787386), (0, 34227)]], 2, 2⟩, ⟨[[(9101051248394240, 0), (0, 1867340126763463),
    (15970284619, 0)], [(0, 29373534849061010), (128408901418, 0), (54301052, 0)], [(16380540710861, 0), (0,
    258675105), (0, 52228)]], 2, 2⟩, 72057594037927936, 738036269666815, 134864280106542, ⟨[], 0, 0⟩, 0, 0, 0, lc0⟩ 2
    1 52085333674009) (.out ⟨328, 16, 846, 1207, 16, 1114, ⟨[[(0, 14328780436086784), (0, 2659600131652610),
    (60768630224, 0)], [(18213709987896637, 0), (0, 4585962753915), (128866218, 0)], [(34588862791227, 0), (0,
    4381745817), (0, 73463)]], 2, 2⟩, ⟨[[(0, 29807531702501376), (0, 1860657025567905), (13952211512, 0)], [(0,
    29426603772449963), (189035539278, 0), (65512382, 0)], [(16309950012542, 0), (0, 317211066), (0, 61910)]], 2, 2⟩,
    72057594037927936, 766471211786338, 150702007120851, ⟨[], 0, 0⟩, 0, 0, 0, lc0⟩ 2 1 35011178462739)) (.sy (.sx
    (.out ⟨395, 16, 939, 1711, 16, 1579, ⟨[[(15052156782407680, 0), (0, 3189119257221704), (71308012099, 0)],
    [(12829162920590427, 0), (0, 2775682031610), (70821448, 0)], [(12473081970414, 0), (0, 1314654519), (0, 10243)]],
    2, 2⟩, ⟨[[(0, 20793252461264896), (0, 2653400241667648), (25090882467, 0)], [(0, 20198334193492392),
    (76757293668, 0), (35883073, 0)], [(5497669804151, 0), (0, 138904242), (0, 25078)]], 2, 2⟩, 72057594037927936,
    125730606280321, 40533897866202, ⟨[], 0, 0⟩, 0, 0, 0, lc0⟩ 2 1 27336422874967) (.sx (.sy (.out ⟨785, 16, 1812,
    3439, 16, 3182, ⟨[[(0, 10674898931007488), (0, 3180479591244481), (35450119993, 0)], [(13521487111294795, 0), (0,
    1388376725900), (17086913, 0)], [(6703270836253, 0), (0, 329420021), (0, 902)]], 2, 2⟩, ⟨[[(7133378138046464, 0),
    (0, 2677961336561352), (13439712312, 0)], [(0, 20015192167816542), (29708243365, 0), (8256867, 0)],
    [(2712211172407, 0), (0, 38239112), (0, 3280)]], 2, 2⟩, 72057594037927936, 31452571311349, 8279618761832, ⟨[], 0,
    0⟩, 0, 0, 0, lc0⟩ 2 1 18726308958549) (.leaf ⟨1037, 16, 1889, 1015, 16, 3420, ⟨[[(1886499485351936, 0), (0,
    3278502255357254), (37017720503, 0), (60498, 0), (21, 0)], [(13373955167131963, 0), (0, 1429653300077),
    (17489319, 0), (0, 215)], [(6815444617370, 0), (0, 344635518), (0, 1496)], [(3417412035, 0), (0, 68612), (1,
    0)]], 3, 4⟩, ⟨[[(0, 5491932773318656), (0, 2727641116497998), (13244337984, 0), (0, 362825), (0, 23)], [(0,
    20470392206175787), (39274171899, 0), (9223699, 0), (548, 0)], [(2755733293242, 0), (0, 42700834), (0, 3736)],
    [(0, 341282604), (0, 25785), (0, 2)]], 3, 4⟩, 72057594037927936, 177506976027, 55264013782, ⟨[[(14722374952941,
    0), (9857661304, 0), (4552574, 0), (0, 7976), (0, 50)], [(0, 8224824246), (0, 15844277), (0, 1943), (80, 0)],
    [(11001729, 0), (22834, 0), (0, 40)], [(0, 16316), (0, 24)]], 3, 4⟩, 17592186044416, 4245327,
    11173191221148466150661753358959246906850327807406861920809661700261245991949652182489400682053833014929622775018243695318322075,
    lc0⟩)) (.leaf ⟨585, 16, 1046, 627, 16, 2119, ⟨[[(7529087119835136, 0), (0, 3718978730103151), (83544997157, 0),
    (136272, 0), (172, 0)], [(7936141598182991, 0), (0, 1625454335243), (38878401, 0), (0, 1087)], [(4066557864910,
    0), (0, 390360367), (0, 2497), (0, 2)], [(1983842718, 0), (0, 73505), (2, 0)]], 3, 4⟩, ⟨[[(27175481960562688, 0),
    (0, 3386647159519355), (34382851170, 0), (0, 1581934), (0, 201)], [(0, 12546101905955326), (38641803985, 0),
    (21115239, 0), (2430, 0)], [(1689317450387, 0), (0, 54378974), (0, 9193), (0, 1)], [(0, 183099547), (0, 28177),
    (0, 3)]], 3, 4⟩, 72057594037927936, 119833098801, 85718022611, ⟨[[(14537282648516, 0), (15381338766, 0),
    (11875438, 0), (0, 25540), (0, 270)], [(0, 14029837265), (0, 43605194), (0, 18056), (462, 0), (4, 0)],
    [(32736513, 0), (113866, 0), (0, 219), (0, 4)], [(0, 84992), (0, 228), (2, 0)]], 3, 4⟩, 17592186044416, 35038559,
    10450252607885213030265577278536296634132140225798688016791190281851472147017342710292236464182369803569598468314620259081756943,
    lc0⟩))) (.sx (.sx (.sy (.out ⟨798, 16, 1988, 3416, 16, 3173, ⟨[[(9649431384735744, 0), (0, 3288833971285741),
    (37553714296, 0)], [(12223044279595584, 0), (0, 1426570913769), (18456074, 0)], [(6131290727075, 0), (0,
    345864009), (0, 2371)]], 2, 2⟩, ⟨[[(0, 12066877040263168), (0, 2648813410309656), (11479683819, 0)], [(0,
    20375252651516288), (54733181211, 0), (10479436, 0)], [(2759970982804, 0), (0, 38026276), (0, 3507)]], 2, 2⟩,
    72057594037927936, 32661361673870, 11659701869558, ⟨[], 0, 0⟩, 0, 0, 0, lc0⟩ 2 1 17896470337646) (.leaf ⟨1074,
    16, 2074, 998, 16, 3408, ⟨[[(26429066836934656, 0), (0, 3391661136211837), (39413198706, 0), (182551, 0), (27,
    0)], [(12009523002480349, 0), (0, 1469062067230), (19039429, 0), (0, 135)], [(6214704186357, 0), (0, 363704323),
    (0, 3275), (0, 1)], [(3359385465, 0), (0, 80264)]], 3, 4⟩, ⟨[[(0, 24521604995874816), (0, 2698093096257743),
    (10994223069, 0), (0, 529732), (0, 34)], [(0, 20811289904167189), (67272926520, 0), (11782912, 0), (750, 0)],
    [(2802760861511, 0), (0, 42670830), (0, 3932)], [(0, 453439444), (0, 35456), (0, 3)]], 3, 4⟩, 72057594037927936,
    186870865670, 58809596368, ⟨[[(15101900081419, 0), (10783068430, 0), (5018344, 0), (0, 10691), (0, 65)], [(0,
    8613702980), (0, 17234258), (144, 0), (106, 0), (1, 0)], [(11715534, 0), (24377, 0), (0, 53), (0, 1)], [(0,
    17885), (0, 27)]], 3, 4⟩, 17592186044416, 4971068,
    13908700910267754119273746245573226795047404816255004652997517681464060615714502423787624462165570399310093429671042574689174338,
    lc0⟩)) (.leaf ⟨597, 16, 1132, 620, 16, 2122, ⟨[[(0, 8176679825620992), (0, 3792431043607136), (87514260900, 0),
    (649886, 0), (229, 0)], [(7055789267131191, 0), (0, 1647772627257), (41275224, 0), (0, 818)], [(3679474273187,
    0), (0, 406190285), (0, 6132), (0, 2)], [(1929506481, 0), (0, 84395), (1, 0)]], 3, 4⟩, ⟨[[(0, 33350509767139328),
    (0, 3363820403360837), (29502808098, 0), (0, 2328676), (0, 300)], [(0, 12822541455179048), (72102089232, 0),
    (27163265, 0), (3413, 0)], [(1718432137300, 0), (0, 55860769), (0, 10126), (0, 1)], [(0, 250592593), (0, 38890),
    (0, 6)]], 3, 4⟩, 72057594037927936, 129398609715, 100892962358, ⟨[[(14912237708343, 0), (16748493584, 0),
    (13051396, 0), (0, 34401), (0, 352)], [(0, 14901229570), (0, 47935341), (0, 10774), (625, 0), (5, 0)],
    [(35805686, 0), (124120, 0), (0, 326), (0, 6)], [(0, 96532), (0, 255), (3, 0)]], 3, 4⟩, 17592186044416, 42041515,
    12457541287972345495478619120091692753619457471713628184468884326083553265296449876107501638689955141938275581896103717774714349,
    lc0⟩)) (.leaf ⟨508, 16, 953, 493, 16, 1719, ⟨[[(0, 9202296741122048), (0, 3281513784524083), (75844870808, 0),
    (496094, 0), (195, 0)], [(12700320638980178, 0), (0, 2862261137065), (68229184, 0), (0, 1860)], [(13660497445440,
    0), (0, 1419893599), (0, 19492), (0, 8)], [(13887779783, 0), (0, 532981), (16, 0)]], 3, 4⟩, ⟨[[(0,
    9223665148588032), (0, 2721487320143509), (25252411910, 0), (0, 1716558), (0, 222)], [(0, 20428470891574894),
    (104698469089, 0), (41839611, 0), (5248, 0), (1, 0)], [(5426864349179, 0), (0, 203178587), (0, 35941), (0, 5)],
    [(0, 1369749063), (0, 217223), (0, 29)]], 3, 4⟩, 72057594037927936, 1470031882200, 464353018962,
    ⟨[[(14631962768612, 0), (19923153822, 0), (21023713, 0), (0, 34610), (0, 513)], [(0, 16542115658), (0, 67227821),
    (0, 54855), (831, 0), (9, 0)], [(46028017, 0), (215583, 0), (0, 272), (0, 9)], [(0, 145262), (0, 602), (4, 0)]],
    3, 4⟩, 17592186044416, 84581444,
    9586555518876662120375322682272873259514400381030527413844326098416916918287640179948689941842353387403494506650045300284802252,
    lc0⟩)))))))
theorem c9 : checkR job con0 true ⟨7, 9, 7, 9, 13, 17⟩ 1 9016 t9 87 21 80 7247 251 8000 = true := by decide +kernel

def t10 : CTree :=
  .sx (.out ⟨50, 16, 220, 155, 16, 117, ⟨[[(7759229220662784, 0), (0, 1594002463914627), (96313476543, 0)],
    [(20438729094735296, 0), (0, 26617519297128), (533632792, 0)], [(0, 258319548538702), (0, 4075454029), (1196303,
    0)]], 2, 2⟩, ⟨[[(6589677627772928, 0), (0, 1433365354330994), (0, 15079185059)], [(0, 30365612372702805), (0,
    5378244851652), (0, 4599964416)], [(132768196278847, 0), (14771318354, 0), (0, 38012245)]], 2, 2⟩,
    72057594037927936, 27906429920992329, 13575298784903361, ⟨[], 0, 0⟩, 0, 0, 0, lc0⟩ 2 1 560106560187331) (.out
    ⟨62, 16, 236, 164, 16, 137, ⟨[[(0, 24231975214834176), (0, 2875531180716199), (203538374282, 0)],
    [(7952780657978018, 0), (0, 26194433993643), (5859137151, 0)], [(0, 80895302181593), (46719629509, 0),
    (113006495, 0)]], 2, 2⟩, ⟨[[(11293153168625664, 0), (0, 1887576236376899), (0, 243298779668)], [(0,
    25049846321807125), (0, 3077044100888), (0, 3675292940)], [(101016594056434, 0), (56275840091, 0), (71693234,
    0)]], 2, 2⟩, 72057594037927936, 17183415487169622, 16548655685941010, ⟨[], 0, 0⟩, 0, 0, 0, lc0⟩ 2 1
    294675013144640)
theorem c10 : checkR job con0 true ⟨7, 9, 7, 9, 13, 17⟩ 1 9016 t10 45 21 80 7749 251 8000 = true := by decide +kernel

def t11 : CTree :=
  .sy (.out ⟨158, 16, 493, 324, 16, 283, ⟨[[(9242231507927040, 0), (0, 2170983861155267), (81820739441, 0)],
    [(21362213845599320, 0), (0, 15224184716209), (1350383732, 0)], [(22287812448138, 0), (0, 24890442594), (4035033,
    0)]], 2, 2⟩, ⟨[[(0, 32889571920699392), (0, 962956469532897), (0, 6157108570)], [(0, 38009865396328814),
    (273382779859, 0), (232478119, 0)], [(116759995533504, 0), (11499095155, 0), (4043466, 0)]], 2, 2⟩,
    72057594037927936, 14524645975571654, 5338380661406270, ⟨[], 0, 0⟩, 0, 0, 0, lc0⟩ 2 1 174735139075557) (.out
    ⟨173, 16, 595, 315, 16, 281, ⟨[[(0, 4551126727655424), (0, 2520628012140140), (99793791872, 0)],
    [(16993873364274551, 0), (0, 16582048003494), (1967337118, 0)], [(13137828459230, 0), (0, 24570428946), (6160801,
    0)]], 2, 2⟩, ⟨[[(0, 31858514913255424), (0, 969725174127535), (0, 22091447183)], [(0, 37540752629429589),
    (540650599241, 0), (310695585, 0)], [(122862527763042, 0), (16588106188, 0), (6443859, 0)]], 2, 2⟩,
    72057594037927936, 15323293711367831, 6087638051689974, ⟨[], 0, 0⟩, 0, 0, 0, lc0⟩ 2 1 134848383531304)
theorem c11 : checkR job con0 true ⟨7, 9, 7, 9, 13, 17⟩ 1 9016 t11 153 21 160 15247 251 16000 = true := by decide +kernel

def t12 : CTree :=
  .sx (.out ⟨236, 16, 908, 492, 16, 441, ⟨[[(0, 30085510258143232), (0, 3463124241219899), (118689026159, 0)],
    [(7250948915944751, 0), (0, 10873700663619), (1716926087, 0)], [(0, 12013586911156), (2446321465, 0), (5850463,
    0)]], 2, 2⟩, ⟨[[(0, 18685706275708928), (0, 1584915296734972), (0, 78135606299)], [(0, 31537671870438589),
    (254101096860, 0), (154202509, 0)], [(60242640631662, 0), (12024762722, 0), (4721397, 0)]], 2, 2⟩,
    72057594037927936, 2663757795497431, 1859628186752908, ⟨[], 0, 0⟩, 0, 0, 0, lc0⟩ 2 1 132584463005992) (.sx (.out
    ⟨243, 16, 926, 747, 16, 688, ⟨[[(29475754620254208, 0), (0, 3883085317184107), (180827856495, 0)],
    [(3625254325296380, 0), (0, 5683906871860), (1000260892, 0)], [(1833606508865, 0), (0, 2976325898), (438774,
    0)]], 2, 2⟩, ⟨[[(0, 10137987125870592), (0, 2443241269371648), (0, 107597657140)], [(0, 21935977234509032),
    (703863724044, 0), (323066158, 0)], [(18837896249310, 0), (3252992536, 0), (1337336, 0)]], 2, 2⟩,
    72057594037927936, 495174495130558, 1068353326306770, ⟨[], 0, 0⟩, 0, 0, 0, lc0⟩ 2 1 72107269074930) (.sy (.out
    ⟨428, 16, 1567, 1089, 16, 1014, ⟨[[(0, 10794879391809536), (0, 3540082586157988), (92081459817, 0)],
    [(7943325803824418, 0), (0, 5322581639923), (398451341, 0)], [(10112941006299, 0), (0, 4727674163), (0,
    128759)]], 2, 2⟩, ⟨[[(0, 21353748265172992), (0, 1759390746135592), (0, 28196539088)], [(0, 30343165220609707),
    (611147677108, 0), (140245006, 0)], [(23097201930046, 0), (1393378202, 0), (298075, 0)]], 2, 2⟩,
    72057594037927936, 624427890515520, 432640807434147, ⟨[], 0, 0⟩, 0, 0, 0, lc0⟩ 2 1 45570206607814) (.sx (.out
    ⟨476, 16, 1852, 1517, 16, 1423, ⟨[[(0, 568633168465920), (0, 4011714450709678), (109023512834, 0)],
    [(3090188162316655, 0), (0, 2836353825613), (269785535, 0)], [(1862125166898, 0), (0, 1258985265), (0, 23551)]],
    2, 2⟩, ⟨[[(0, 24194356876132352), (0, 2527907630170057), (0, 58737243466)], [(0, 21409327050889374),
    (510152220984, 0), (112637006, 0)], [(8763007208024, 0), (689867808, 0), (146792, 0)]], 2, 2⟩, 72057594037927936,
    138836189512524, 270870837710696, ⟨[], 0, 0⟩, 0, 0, 0, lc0⟩ 2 1 34212892029156) (.sy (.out ⟨870, 16, 3321, 2188,
    16, 2064, ⟨[[(0, 12477271626326016), (0, 3732755055397158), (53123046726, 0)], [(6557837226474602, 0), (0,
    2710383280057), (115127334, 0)], [(5236669360649, 0), (0, 1437966637), (0, 32860)]], 2, 2⟩,
    ⟨[[(26696266837426176, 0), (0, 1807574569452966), (0, 17907587942)], [(0, 30131814961944326), (384945844353, 0),
    (42779556, 0)], [(11511305144153, 0), (359100597, 0), (39397, 0)]], 2, 2⟩, 72057594037927936, 152804394162466,
    114252070977994, ⟨[], 0, 0⟩, 0, 0, 0, lc0⟩ 2 1 20875441537368) (.sx (.out ⟨941, 16, 3706, 3058, 16, 2895,
    ⟨[[(891547318566912, 0), (0, 4074887116358610), (59670481379, 0)], [(2865872374676900, 0), (0, 1428831387828),
    (69106491, 0)], [(1150562628887, 0), (0, 387482445), (0, 8599)]], 2, 2⟩, ⟨[[(0, 12230072316788736), (0,
    2569076043033675), (0, 30369475809)], [(0, 21162755567205925), (295404603777, 0), (32277486, 0)],
    [(4201340301849, 0), (151736559, 0), (16522, 0)]], 2, 2⟩, 72057594037927936, 37222807023563, 67493690080576, ⟨[],
    0, 0⟩, 0, 0, 0, lc0⟩ 2 1 15573849297520) (.sy (.out ⟨1755, 16, 6845, 4389, 16, 4166, ⟨[[(0, 34314159245885440),
    (0, 3833686829459620), (28652655793, 0)], [(5829607872608245, 0), (0, 1367091051456), (30977219, 0)],
    [(2626757814728, 0), (0, 398310170), (0, 5434)]], 2, 2⟩, ⟨[[(8027623086161920, 0), (0, 1834253154706980), (0,
    10008051302)], [(0, 30012599066432043), (215053404290, 0), (11798337, 0)], [(5742448611926, 0), (90599373, 0),
    (5031, 0)]], 2, 2⟩, 72057594037927936, 37621348430977, 29358557898459, ⟨[], 0, 0⟩, 0, 0, 0, lc0⟩ 2 1
    9330013709012) (.leaf ⟨2710, 16, 7123, 1219, 16, 4459, ⟨[[(0, 11710734785806336), (0, 3959206890440258),
    (30307289801, 0), (335396, 0), (9, 0)], [(5360433371187550, 0), (0, 1389692347849), (33354671, 0), (763, 0)],
    [(2523913889260, 0), (0, 420335122), (0, 5997)], [(3354235886, 0), (0, 361298), (0, 14)]], 3, 4⟩,
    ⟨[[(24679144275460096, 0), (0, 1880444073234359), (0, 11068193437), (0, 589089), (0, 14)], [(0,
    30480609906389425), (231580823505, 0), (12605858, 0), (394, 0)], [(5901318564904, 0), (97649344, 0), (5423, 0)],
    [(0, 2271899407), (0, 132515), (0, 6)]], 3, 4⟩, 72057594037927936, 329799003146, 73877864173, ⟨[[(18072382839420,
    0), (14216128041, 0), (4301400, 0), (0, 18602), (0, 100)], [(0, 6773481275), (0, 11945513), (3100, 0), (48, 0)],
    [(6043326, 0), (7956, 0), (0, 10)], [(0, 5609)]], 3, 4⟩, 17592186044416, 1330418,
    15140838972317525555050114795342644067443229181398099684187583822415809608330193327471227535510812382664522248793774917933494421,
    lc0⟩)))))))
theorem c12 : checkR job con0 true ⟨7, 9, 7, 9, 13, 17⟩ 1 9016 t12 153 21 160 31247 251 32000 = true := by decide +kernel

def t13 : CTree :=
  .out ⟨244, 16, 1046, 466, 16, 428, ⟨[[(4859316578961408, 0), (0, 3854091189108989), (132954960133, 0)],
    [(2609726378253310, 0), (0, 10252482124531), (2592592338, 0)], [(0, 10491423942636), (11039219973, 0), (9845970,
    0)]], 2, 2⟩, ⟨[[(14672739278901248, 0), (0, 1641052818815139), (0, 132642573687)], [(0, 30443224485499825),
    (417105874485, 0), (193324863, 0)], [(65657016354523, 0), (17361620571, 0), (6890552, 0)]], 2, 2⟩,
    72057594037927936, 2534839134982581, 2271992631372632, ⟨[], 0, 0⟩, 0, 0, 0, lc0⟩ 2 1 86380892486485
theorem c13 : checkR job con0 true ⟨7, 9, 7, 9, 13, 17⟩ 1 9016 t13 285 21 320 31749 251 32000 = true := by decide +kernel

def t14 : CTree :=
  .sy (.out ⟨470, 16, 1946, 1019, 16, 955, ⟨[[(0, 25161817760477184), (0, 3932961533202603), (100870728864, 0)],
    [(3440657406046163, 0), (0, 5093463248448), (648003795, 0)], [(1639676038409, 0), (0, 2736514131), (293171, 0)]],
    2, 2⟩, ⟨[[(0, 26239838164500480), (0, 1767164721417580), (0, 58566759455)], [(0, 30011493047005275),
    (681903229093, 0), (146352947, 0)], [(28142086014280, 0), (3080389926, 0), (636126, 0)]], 2, 2⟩,
    72057594037927936, 469279158011916, 563782250969874, ⟨[], 0, 0⟩, 0, 0, 0, lc0⟩ 2 1 40489908275450) (.sx (.out
    ⟨495, 16, 2176, 1398, 16, 1321, ⟨[[(0, 17967188481761280), (0, 4230397277345375), (109911986926, 0)],
    [(589677297069408, 0), (0, 2433211733989), (415735866, 0)], [(0, 77508138622), (0, 390031881), (145337, 0)]], 2,
    2⟩, ⟨[[(0, 20158012647227392), (0, 2549417990780274), (0, 108106235503)], [(0, 20936302419416027), (525748852492,
    0), (109484813, 0)], [(10794310010928, 0), (1413598003, 0), (288526, 0)]], 2, 2⟩, 72057594037927936,
    108906494186125, 374795377516443, ⟨[], 0, 0⟩, 0, 0, 0, lc0⟩ 2 1 27052045714269) (.sy (.sx (.out ⟨984, 16, 4259,
    2868, 16, 2720, ⟨[[(0, 29009133236420608), (0, 4245545851494181), (59381274275, 0)], [(890286912688020, 0), (0,
    1260147261347), (99540935, 0)], [(140882082103, 0), (0, 204934289), (8702, 0)]], 2, 2⟩, ⟨[[(32954136161484800,
    0), (0, 2580120938496100), (0, 50366734122)], [(0, 20953847272208987), (297951399963, 0), (31176428, 0)],
    [(5116026563037, 0), (307190284, 0), (31750, 0)]], 2, 2⟩, 72057594037927936, 28698471698832, 88530962194559, ⟨[],
    0, 0⟩, 0, 0, 0, lc0⟩ 2 1 18273588323533) (.sy (.out ⟨1910, 16, 8202, 4141, 16, 3937, ⟨[[(0, 23837159169425408),
    (0, 4154699614952466), (30369791064, 0)], [(2058276600275372, 0), (0, 1256692739842), (47259431, 0)],
    [(542520269918, 0), (0, 264113990), (1454, 0)]], 2, 2⟩, ⟨[[(0, 11686101961998336), (0, 1849074262095914), (0,
    17154624089)], [(0, 29779134018004334), (227440219308, 0), (11932606, 0)], [(7018022956938, 0), (197782900, 0),
    (10319, 0)]], 2, 2⟩, 72057594037927936, 23448560697942, 36932656896837, ⟨[], 0, 0⟩, 0, 0, 0, lc0⟩ 2 1
    12557459713109) (.leaf ⟨3048, 16, 8529, 1143, 16, 4208, ⟨[[(0, 33922625931771904), (0, 4288383983262339),
    (32082495572, 0), (342549, 0), (9, 0)], [(1496867718701114, 0), (0, 1256508052849), (51045091, 0), (1294, 0)],
    [(426664519110, 0), (0, 273095564), (1573, 0)], [(1602546077, 0), (0, 559374), (0, 23)]], 3, 4⟩, ⟨[[(0,
    20045908051361792), (0, 1900366096554998), (0, 18651143392), (0, 807274), (0, 18)], [(0, 30193959310489496),
    (243998352661, 0), (12715289, 0), (386, 0)], [(7247667489787, 0), (212148511, 0), (11050, 0)], [(0, 2749308471),
    (0, 161509), (0, 8)]], 3, 4⟩, 72057594037927936, 149413466191, 34813105476, ⟨[[(19250104437845, 0), (17291233233,
    0), (4514234, 0), (0, 25974), (0, 179)], [(0, 7670346273), (0, 12541762), (6471, 0), (30, 0)], [(6626998, 0),
    (2230, 0), (0, 17)], [(0, 5028), (17, 0)]], 3, 4⟩, 17592186044416, 1998760,
    9201339416729963617867749481314353571422317990545797572915409929506972861039800595827991026631043683385235309389725975326656064,
    lc0⟩))) (.leaf ⟨1543, 16, 4382, 557, 16, 2070, ⟨[[(0, 16618616812142592), (0, 4330989893768721), (65258325733,
    0), (1407769, 0), (76, 0)], [(588195344203689, 0), (0, 2397893870644), (221843010, 0), (11412, 0), (1, 0)],
    [(308234206736, 0), (0, 958628208), (26601, 0), (2, 0)], [(4598443829, 0), (0, 4869502), (0, 405)]], 3, 4⟩,
    ⟨[[(0, 28236777927909376), (0, 1904022766155615), (0, 40962974431), (0, 3429970), (0, 151)], [(0,
    29828110588463531), (499703909261, 0), (51585768, 0), (3128, 0)], [(14945135628486, 0), (945629971, 0), (97781,
    0), (6, 0)], [(0, 11353625404), (0, 1348013), (0, 126)]], 3, 4⟩, 72057594037927936, 994868063692, 217231038786,
    ⟨[[(19416487268001, 0), (36097694017, 0), (20381533, 0), (0, 165237), (0, 2545)], [(0, 15879040720), (0,
    50616111), (63345, 0), (44, 0), (11, 0)], [(27756635, 0), (0, 1133), (0, 414), (5, 0)], [(0, 41218), (383, 0),
    (2, 0)]], 3, 4⟩, 17592186044416, 47377549,
    15837431701672714820865743805871273471226632521902590802802656771301708922011811522626232443344630819397377458207270183375622625,
    lc0⟩)))
theorem c14 : checkR job con0 true ⟨7, 9, 7, 9, 13, 17⟩ 1 9016 t14 633 21 640 31749 251 32000 = true := by decide +kernel

def t15 : CTree :=
  .sy (.sx (.sy (.out ⟨913, 16, 3715, 2122, 16, 2009, ⟨[[(14468044198625280, 0), (0, 3939543004529127), (57062991862,
    0)], [(4136053756570390, 0), (0, 2630012625245), (150308355, 0)], [(2777221071729, 0), (0, 1282752166), (0,
    14799)]], 2, 2⟩, ⟨[[(29649840711335936, 0), (0, 1819628555151356), (0, 26103784892)], [(0, 29931030964625944),
    (424327346350, 0), (45654654, 0)], [(12769392391039, 0), (571667701, 0), (60859, 0)]], 2, 2⟩, 72057594037927936,
    127544904432203, 133126136826449, ⟨[], 0, 0⟩, 0, 0, 0, lc0⟩ 2 1 17752034594465) (.sx (.sy (.out ⟨1868, 16, 7779,
    4219, 16, 4003, ⟨[[(26400892615327744, 0), (0, 4051587246207630), (29709366355, 0)], [(3269090498979710, 0), (0,
    1302256359875), (41612397, 0)], [(1050842305380, 0), (0, 310225693), (0, 994)]], 2, 2⟩, ⟨[[(0,
    28253695010537472), (0, 1838266384275609), (0, 14741826851)], [(0, 29928647844703366), (222435344278, 0),
    (11833472, 0)], [(6628535828888, 0), (163266155, 0), (8629, 0)]], 2, 2⟩, 72057594037927936, 28011118103343,
    34553471118707, ⟨[], 0, 0⟩, 0, 0, 0, lc0⟩ 2 1 14771565707303) (.out ⟨1877, 16, 7934, 4199, 16, 3997, ⟨[[(0,
    6302571450499072), (0, 4101653280465354), (30786088418, 0)], [(2678298204160060, 0), (0, 1284796095092),
    (44042532, 0)], [(912682385195, 0), (0, 317464017), (0, 1091)]], 2, 2⟩, ⟨[[(32041804801572864, 0), (0,
    1850817723257745), (0, 15779754867)], [(0, 29769269503189851), (234242277956, 0), (12372526, 0)],
    [(6702646553917, 0), (171900181, 0), (9074, 0)]], 2, 2⟩, 72057594037927936, 26722251325150, 35715442523370, ⟨[],
    0, 0⟩, 0, 0, 0, lc0⟩ 2 1 8941232590846)) (.leaf ⟨1488, 16, 4059, 823, 16, 3035, ⟨[[(337429952561152, 0), (0,
    4269287735337017), (66206242144, 0), (1499408, 0), (82, 0)], [(1585498770028286, 0), (0, 1366801404483),
    (88083147, 0), (4319, 0)], [(658712265919, 0), (0, 385139933), (0, 7034), (0, 1)], [(1250091484, 0), (0, 482417),
    (0, 39)]], 3, 4⟩, ⟨[[(0, 26852255341592576), (0, 2651350709945475), (0, 42581945580), (0, 3978956), (0, 182)],
    [(0, 21174967420265314), (349127702102, 0), (37016897, 0), (2280, 0)], [(4588554140400, 0), (215409044, 0),
    (23039, 0), (2, 0)], [(0, 1792626036), (0, 213030), (0, 20)]], 3, 4⟩, 72057594037927936, 159431160566,
    55972256641, ⟨[[(18654032054322, 0), (22608225707, 0), (9724581, 0), (0, 59104), (0, 515)], [(0, 14065964721),
    (0, 34849665), (16083, 0), (195, 0), (3, 0)], [(24323375, 0), (30527, 0), (0, 103)], [(0, 40422), (88, 0)]], 3,
    4⟩, 17592186044416, 10615267,
    13464613390269490037789789356469691683919459400668169945847085680446127447060113771203842786429015648486878622801851638754933679,
    lc0⟩))) (.sy (.sx (.sy (.sx (.out ⟨1896, 16, 7640, 6075, 16, 5771, ⟨[[(0, 30988206527709184), (0,
    4138525809824504), (31103220965, 0)], [(2388594413506392, 0), (0, 704661573903), (18814137, 0)], [(492778797308,
    0), (0, 98378544), (0, 1088)]], 2, 2⟩, ⟨[[(0, 11821398356852736), (0, 2588174736010268), (0, 17195580577)], [(0,
    21067510563819419), (158009435880, 0), (8531076, 0)], [(2149177075184, 0), (42531781, 0), (2305, 0)]], 2, 2⟩,
    72057594037927936, 9173504511998, 17782817139249, ⟨[], 0, 0⟩, 0, 0, 0, lc0⟩ 2 1 9933608495535) (.leaf ⟨2910, 16,
    7733, 1699, 16, 6211, ⟨[[(0, 7919728969023488), (0, 4219038684799732), (32279555904, 0), (357511, 0), (10, 0)],
    [(2461646016956558, 0), (0, 721877166212), (18940110, 0), (444, 0)], [(548600102984, 0), (0, 106082583), (0,
    1352)], [(403513438, 0), (0, 51495), (0, 2)]], 3, 4⟩, ⟨[[(0, 18877333388279808), (0, 2645985186083527), (0,
    17254017241), (0, 878061), (0, 21)], [(0, 21411233855308702), (165492211010, 0), (8936644, 0), (278, 0)],
    [(2150295787657, 0), (40537119, 0), (2216, 0)], [(0, 415048891), (0, 24269), (0, 1)]], 3, 4⟩, 72057594037927936,
    21284654039, 9098217550, ⟨[[(18288827615650, 0), (10468890290, 0), (2141841, 0), (0, 7536), (0, 30)], [(0,
    6590608704), (0, 8204625), (1819, 0), (17, 0)], [(5573449, 0), (4754, 0), (0, 5)], [(0, 4783), (2, 0)]], 3, 4⟩,
    17592186044416, 559071,
    11097703387598348835447160546506182162161686429909134916917760853216760938346824768537660643812838983697102359362118293564966829,
    lc0⟩)) (.leaf ⟨2809, 16, 7543, 1195, 16, 4401, ⟨[[(17231933361750016, 0), (0, 4069151078054374), (31624009312,
    0), (359197, 0), (10, 0)], [(4065199855069738, 0), (0, 1361849305363), (38400652, 0), (917, 0)], [(1839659879972,
    0), (0, 406175933), (0, 5071)], [(2878879947, 0), (0, 419008), (0, 16)]], 3, 4⟩, ⟨[[(155218385092608, 0), (0,
    1890234570656495), (0, 13323786562), (0, 656277), (0, 15)], [(0, 30352270418984210), (244950190547, 0),
    (13129547, 0), (407, 0)], [(6230485531002, 0), (125924419, 0), (6850, 0)], [(0, 2437117430), (0, 144355), (0,
    7)]], 3, 4⟩, 72057594037927936, 302153677583, 66565972651, ⟨[[(18359370073370, 0), (15052025376, 0), (4693468,
    0), (0, 18496), (0, 106)], [(0, 7006713121), (0, 12345075), (3179, 0), (38, 0)], [(6271512, 0), (6947, 0), (0,
    11)], [(0, 5613), (4, 0)]], 3, 4⟩, 17592186044416, 1333847,
    8823499901754366398165394008837778865684625451850204883694931972235480661543904346704933194944610060638958950052007232325718585,
    lc0⟩)) (.leaf ⟨1434, 16, 3827, 838, 16, 3116, ⟨[[(0, 12648489867411456), (0, 4204678762928842), (66832442293, 0),
    (1568534, 0), (87, 0)], [(2328135474635343, 0), (0, 1437880593609), (75538341, 0), (3550, 0)], [(1184098190529,
    0), (0, 461802981), (0, 14035), (0, 1)], [(1651717111, 0), (0, 411138), (0, 32)]], 3, 4⟩, ⟨[[(21258581983617024,
    0), (0, 2652882271174143), (0, 34793133907), (0, 3534632), (0, 165)], [(0, 21173224111391427), (351153630682, 0),
    (37810794, 0), (2360, 0)], [(4177501925528, 0), (148379428, 0), (16469, 0), (1, 0)], [(0, 1659952047), (0,
    199146), (0, 19)]], 3, 4⟩, 72057594037927936, 198197865733, 67296613930, ⟨[[(18070463368882, 0), (20796649929,
    0), (10540347, 0), (0, 38794), (0, 310)], [(0, 13116799693), (0, 33824364), (6716, 0), (147, 0), (2, 0)],
    [(22929649, 0), (40484, 0), (0, 83)], [(0, 41214), (27, 0)]], 3, 4⟩, 17592186044416, 9469186,
    10104489785225741902655628178173899150240967838565679612230348459479139253095933796505052372130658506239357634025519715444207235,
    lc0⟩)) (.leaf ⟨1402, 16, 3822, 583, 16, 2201, ⟨[[(33548887876337664, 0), (0, 4102642675509418), (67530438604, 0),
    (1665484, 0), (90, 0)], [(3171537353300835, 0), (0, 2676157671444), (163351727, 0), (7950, 0)], [(3437180638929,
    0), (0, 1791942409), (0, 53664), (0, 4)], [(10892801941, 0), (0, 3581191), (0, 284)]], 3, 4⟩,
    ⟨[[(23569845747064832, 0), (0, 1906243015121246), (0, 29126834039), (0, 2777023), (0, 127)], [(0,
    29904525882330996), (542056535367, 0), (57547758, 0), (3577, 0)], [(12341838379836, 0), (507670360, 0), (55621,
    0), (4, 0)], [(0, 10091127763), (0, 1241489), (0, 119)]], 3, 4⟩, 72057594037927936, 2793900058253, 567140373502,
    ⟨[[(18213792792921, 0), (30545097235, 0), (23209235, 0), (0, 79936), (0, 921)], [(0, 14179456882), (0, 51618394),
    (18779, 0), (160, 0), (4, 0)], [(26597659, 0), (54692, 0), (0, 280), (2, 0)], [(0, 49993), (113, 0), (1, 0)]], 3,
    4⟩, 17592186044416, 22847393,
    11343289162453669902677585246936961875603320268059816436119481420864823319598223118455499280955879748316395239723972735493489300,
    lc0⟩))) (.sy (.sx (.leaf ⟨1474, 16, 4104, 571, 16, 2138, ⟨[[(28599937476755456, 0), (0, 4221320488315076),
    (67334234611, 0), (1588886, 0), (86, 0)], [(1827943274399069, 0), (0, 2546302924693), (192507557, 0), (9691, 0)],
    [(1627298640049, 0), (0, 1454419806), (0, 20878), (0, 2)], [(7644783273, 0), (0, 4239168), (0, 346)]], 3, 4⟩,
    ⟨[[(0, 21173346960072704), (0, 1905705684042591), (0, 35009166516), (0, 3106056), (0, 139)], [(0,
    29854682448762088), (532126172875, 0), (55667768, 0), (3418, 0)], [(13590707907763, 0), (717186229, 0), (75965,
    0), (5, 0)], [(0, 10817185964), (0, 1314589), (0, 125)]], 3, 4⟩, 72057594037927936, 2018373916768, 408451677723,
    ⟨[[(18808547722852, 0), (33261727505, 0), (22282161, 0), (0, 115502), (0, 1537)], [(0, 15026291778), (0,
    51807583), (39507, 0), (119, 0), (7, 0)], [(27364861, 0), (31122, 0), (0, 348), (3, 0)], [(0, 46456), (235, 0),
    (1, 0)]], 3, 4⟩, 17592186044416, 32034645,
    12271107931730994017494894332016454632667922748657595293936024721520161758823819066357654616658970391450406682056779923153538288,
    lc0⟩) (.leaf ⟨1433, 16, 3985, 568, 16, 2195, ⟨[[(0, 19711157209317376), (0, 4205557874572306), (73172117379, 0),
    (1933793, 0), (102, 0)], [(1950067588308256, 0), (0, 2612806758807), (183454759, 0), (9169, 0)], [(2631235167379,
    0), (0, 1927631280), (0, 62173), (0, 4)], [(9405852279, 0), (0, 4046253), (0, 327)]], 3, 4⟩,
    ⟨[[(27846053141233664, 0), (0, 1932369066362934), (0, 33414132329), (0, 3032735), (0, 136)], [(0,
    29536709908630095), (600981208265, 0), (63018888, 0), (3912, 0)], [(12576836047760, 0), (565033763, 0), (61647,
    0), (4, 0)], [(0, 10716077114), (0, 1363304), (0, 131)]], 3, 4⟩, 72057594037927936, 2996359074412, 572717665840,
    ⟨[[(18200522070246, 0), (31454540663, 0), (25070636, 0), (0, 46602), (0, 398)], [(0, 14417343871), (0, 53190056),
    (37284, 0), (0, 39), (0, 1)], [(28020181, 0), (48621, 0), (0, 486), (2, 0)], [(0, 54101), (168, 0), (2, 0)]], 3,
    4⟩, 17592186044416, 20208707,
    12192900609545183887132087819856843685669786463420957697238183669629038872953594023542487022836397703817334870600642755155969671,
    lc0⟩)) (.sx (.leaf ⟨1505, 16, 4273, 555, 16, 2130, ⟨[[(0, 18715038462803968), (0, 4323467474091832),
    (72737058563, 0), (1841081, 0), (97, 0)], [(624154384988557, 0), (0, 2442036591008), (216402032, 0), (11128, 0),
    (1, 0)], [(928444757286, 0), (0, 1537348159), (0, 24159), (0, 2)], [(5649974005, 0), (0, 4794182), (0, 398)]], 3,
    4⟩, ⟨[[(15596408552079360, 0), (0, 1936003462709837), (0, 39753198079), (0, 3383095), (0, 149)], [(0,
    29462427083510534), (588471550715, 0), (60831162, 0), (3734, 0)], [(13918271652681, 0), (794491726, 0), (83775,
    0), (6, 0)], [(0, 11466509292), (0, 1440578), (0, 137)]], 3, 4⟩, 72057594037927936, 2115958595463, 394620373531,
    ⟨[[(18781142507814, 0), (34254307624, 0), (24357348, 0), (0, 55029), (0, 612)], [(0, 15325907623), (0, 52774526),
    (69703, 0), (0, 232), (0, 1)], [(28990919, 0), (18573, 0), (0, 646), (4, 0)], [(0, 50962), (316, 0), (3, 0)]], 3,
    4⟩, 17592186044416, 25501135,
    9418171976379727564985432762028453146526097442343683872695310268379881477166363700790269128296373780680775899343494418298434472,
    lc0⟩) (.leaf ⟨1465, 16, 4159, 553, 16, 2189, ⟨[[(0, 1626694273925120), (0, 4310934633143100), (79572841309, 0),
    (2242223, 0), (116, 0)], [(715806464625887, 0), (0, 2527180427133), (206616135, 0), (10565, 0), (1, 0)],
    [(1719277729554, 0), (0, 2080382680), (0, 71807), (0, 5)], [(7607683470, 0), (0, 4583318), (0, 377)]], 3, 4⟩,
    ⟨[[(20569347197960192, 0), (0, 1962899321932737), (0, 38087263349), (0, 3306136), (0, 145)], [(0,
    29138761245691215), (665477764583, 0), (68998807, 0), (4275, 0)], [(12841373934094, 0), (628536760, 0), (68194,
    0), (5, 0)], [(0, 11403190751), (0, 1496776), (0, 143)]], 3, 4⟩, 72057594037927936, 3219903545077, 576739022382,
    ⟨[[(18207013058138, 0), (32482975314, 0), (25157859, 0), (0, 35914), (28, 0)], [(0, 14798793521), (0, 55259941),
    (74913, 0), (0, 24), (0, 4)], [(30031474, 0), (44359, 0), (0, 784), (2, 0)], [(0, 60021), (216, 0), (4, 0)]], 3,
    4⟩, 17592186044416, 17792790,
    11666112201038033938146167276329743494684656172208795810599696892858845681031685226659049614267409743524513414470845150641060865,
    lc0⟩)))
theorem c15 : checkR job con0 true ⟨7, 9, 7, 9, 13, 17⟩ 1 9016 t15 675 21 640 31749 251 32000 = true := by decide +kernel

def t16 : CTree :=
  .sx (.out ⟨222, 16, 657, 821, 16, 748, ⟨[[(0, 9322060334036992), (0, 3458961528810089), (157909493679, 0)],
    [(8529745418838865, 0), (0, 5806124647080), (461475651, 0)], [(12144337176640, 0), (0, 4951432288), (0,
    212242)]], 2, 2⟩, ⟨[[(15089888426582016, 0), (0, 2510680439806261), (5421830515, 0)], [(0, 21677030924405318),
    (424624901531, 0), (241461889, 0)], [(13765048732130, 0), (420193716, 0), (155140, 0)]], 2, 2⟩,
    72057594037927936, 497140420075007, 472645421726381, ⟨[], 0, 0⟩, 0, 0, 0, lc0⟩ 2 1 75670893146013) (.sx (.out
    ⟨237, 16, 689, 1046, 16, 964, ⟨[[(0, 15753722776446976), (0, 3824684437607806), (180578580691, 0)],
    [(4937997028787862, 0), (0, 3222088056943), (232833080, 0)], [(4228756783333, 0), (0, 1519278731), (0, 87978)]],
    2, 2⟩, ⟨[[(26947710718410752, 0), (0, 3218093191434884), (16922685630, 0)], [(0, 13436233289708849),
    (282222078777, 0), (158787137, 0)], [(4021332910470, 0), (3209825, 0), (1389, 0)]], 2, 2⟩, 72057594037927936,
    175059680436883, 378570583372001, ⟨[], 0, 0⟩, 0, 0, 0, lc0⟩ 2 1 49056963545877) (.sy (.out ⟨423, 16, 1181, 1676,
    16, 1547, ⟨[[(0, 8309385160044544), (0, 3436908949264105), (80505728412, 0)], [(9856655778186028, 0), (0,
    2923853715912), (94867307, 0)], [(8953660724200, 0), (0, 1401027534), (0, 36295)]], 2, 2⟩, ⟨[[(0,
    18097929588834304), (0, 2578094197653511), (12075892140, 0)], [(0, 21088974409105320), (193662345240, 0),
    (57426591, 0)], [(6079773273023, 0), (0, 56112845), (0, 11188)]], 2, 2⟩, 72057594037927936, 130706822406817,
    83824907155989, ⟨[], 0, 0⟩, 0, 0, 0, lc0⟩ 2 1 42120816761402) (.sy (.out ⟨715, 16, 2084, 2371, 16, 2207, ⟨[[(0,
    13139244682485760), (0, 2978413432356504), (36207748171, 0)], [(15474487307338103, 0), (0, 2515981700584),
    (42863030, 0)], [(14858777514043, 0), (0, 1264366098), (0, 21609)]], 2, 2⟩, ⟨[[(35312006427639808, 0), (0,
    1833564401242741), (2862966263, 0)], [(0, 29969994752631814), (171332297301, 0), (23680918, 0)], [(8641184581552,
    0), (0, 46084206), (0, 4042)]], 2, 2⟩, 72057594037927936, 192612905892373, 52641449361635, ⟨[], 0, 0⟩, 0, 0, 0,
    lc0⟩ 2 1 27776217178424) (.out ⟨718, 16, 2155, 2364, 16, 2212, ⟨[[(0, 11098413982244864), (0, 3042001896533613),
    (38040904170, 0)], [(14706879358082645, 0), (0, 2556751492738), (45245484, 0)], [(14702682175320, 0), (0,
    1332004935), (0, 26647)]], 2, 2⟩, ⟨[[(4953035847663616, 0), (0, 1835388102623450), (1750635401, 0)], [(0,
    29945507897839579), (196753206351, 0), (26174123, 0)], [(8636553910496, 0), (0, 50253575), (0, 4040)]], 2, 2⟩,
    72057594037927936, 196423376625672, 56115315911064, ⟨[], 0, 0⟩, 0, 0, 0, lc0⟩ 2 1 19127629084270))))
theorem c16 : checkR job con0 true ⟨7, 9, 7, 9, 13, 17⟩ 1 9016 t16 369 21 320 30243 251 32000 = true := by decide +kernel

def t17 : CTree :=
  .sx (.out ⟨410, 16, 1129, 1683, 16, 1565, ⟨[[(0, 1574106295742464), (0, 3405400199072662), (80706271059, 0)],
    [(10201800191387426, 0), (0, 2912066761549), (87601223, 0)], [(10015313378188, 0), (0, 1444110936), (0, 38530)]],
    2, 2⟩, ⟨[[(0, 2914695338311680), (0, 2599995553433523), (14630588260, 0)], [(0, 20832031178672875),
    (188849518573, 0), (56731927, 0)], [(5816859556933, 0), (0, 110471181), (0, 20932)]], 2, 2⟩, 72057594037927936,
    136012625908230, 76343442884887, ⟨[], 0, 0⟩, 0, 0, 0, lc0⟩ 2 1 24898530230261) (.sx (.sy (.out ⟨813, 16, 2182,
    3388, 16, 3159, ⟨[[(4754584604205056, 0), (0, 3401014713327871), (40103022237, 0)], [(10869697960610054, 0), (0,
    1462443545709), (20567252, 0)], [(5505581521519, 0), (0, 364429007), (0, 4348)]], 2, 2⟩, ⟨[[(701744164536320, 0),
    (0, 2622486639264213), (8783289238, 0)], [(0, 20684382487757437), (84378066422, 0), (13266963, 0)],
    [(2832765512065, 0), (0, 35302244), (0, 3317)]], 2, 2⟩, 72057594037927936, 34045780694783, 16115559399176, ⟨[],
    0, 0⟩, 0, 0, 0, lc0⟩ 2 1 16737122197092) (.sx (.out ⟨906, 16, 2509, 4222, 16, 3954, ⟨[[(10205213900890112, 0),
    (0, 3846798025612904), (46366533263, 0)], [(5766568601590438, 0), (0, 824492339637), (11892272, 0)],
    [(1501566005627, 0), (0, 105321976), (0, 1536)]], 2, 2⟩, ⟨[[(0, 30151439539699712), (0, 3273374823722519),
    (9483273520, 0)], [(0, 12953360001208210), (62062522218, 0), (9202771, 0)], [(886271051222, 0), (0, 11653003),
    (0, 1077)]], 2, 2⟩, 72057594037927936, 10216742331409, 16277491871878, ⟨[], 0, 0⟩, 0, 0, 0, lc0⟩ 2 1
    10171717499636) (.leaf ⟨1242, 16, 2533, 1222, 16, 4243, ⟨[[(33452773386584064, 0), (0, 3918743299963886),
    (47311564623, 0), (375161, 0), (39, 0)], [(5951461028932370, 0), (0, 841381728374), (11875183, 0), (3, 0)],
    [(1573161028840, 0), (0, 108013401), (0, 1564)], [(459821312, 0), (0, 13220)]], 3, 4⟩, ⟨[[(4560334750416896, 0),
    (0, 3342717214490972), (10084843215, 0), (0, 937977), (0, 58)], [(0, 13162618348875101), (62386179638, 0),
    (9309035, 0), (610, 0)], [(894288306932, 0), (0, 12874350), (0, 1187)], [(0, 89245660), (0, 7519), (0, 1)]], 3,
    4⟩, 72057594037927936, 18536074579, 11416554851, ⟨[[(15441250212118, 0), (9381203213, 0), (3587249, 0), (0,
    6657), (0, 33)], [(0, 8035784090), (0, 13454038), (622, 0), (58, 0)], [(10027176, 0), (17422, 0), (0, 30)], [(0,
    14337), (0, 20)]], 3, 4⟩, 17592186044416, 3026424,
    11055255048194422290502756908545641369780943210359192603845445475930016551107828824601387945037826453126444901075220660011388167,
    lc0⟩))) (.sy (.sx (.out ⟨904, 16, 2412, 4233, 16, 3957, ⟨[[(7742279166345216, 0), (0, 3810834124239288),
    (45041569694, 0)], [(6204719887004389, 0), (0, 821136859133), (11215433, 0)], [(1605929754313, 0), (0,
    103064154), (0, 1212)]], 2, 2⟩, ⟨[[(0, 30085753904037888), (0, 3281673392352162), (11521260076, 0)], [(0,
    12843973840160965), (51373224581, 0), (8171421, 0)], [(871401520590, 0), (0, 12318078), (0, 1147)]], 2, 2⟩,
    72057594037927936, 8922793330470, 13668037338339, ⟨[], 0, 0⟩, 0, 0, 0, lc0⟩ 2 1 10711077757534) (.leaf ⟨1228, 16,
    2434, 1231, 16, 4246, ⟨[[(0, 29145426968068096), (0, 3880579664885315), (45925581053, 0), (285563, 0), (35, 0)],
    [(6399890461761698, 0), (0, 837427910914), (11214829, 0), (0, 46)], [(1679104718751, 0), (0, 105547864), (0,
    1226)], [(470023242, 0), (0, 12123)]], 3, 4⟩, ⟨[[(0, 2382332794748928), (0, 3351485136441236), (12122636556, 0),
    (0, 783270), (0, 49)], [(0, 13051373069295874), (51408171722, 0), (8249322, 0), (535, 0)], [(880379724502, 0),
    (0, 13408394), (0, 1241)], [(0, 78724785), (0, 6379), (0, 1)]], 3, 4⟩, 72057594037927936, 16462798536,
    10918952396, ⟨[[(15237460111818, 0), (8969970197, 0), (3441521, 0), (0, 5728), (0, 28)], [(0, 7770108478), (0,
    12774903), (0, 47), (50, 0)], [(9490980, 0), (16327, 0), (0, 27)], [(0, 13151), (0, 17)]], 3, 4⟩, 17592186044416,
    2726522,
    9705708596623141538572899406943406713719336641649273953538938419133789025086684803535609573819254723412223044613414923576421904,
    lc0⟩)) (.leaf ⟨1097, 16, 2226, 973, 16, 3411, ⟨[[(0, 34035055400960000), (0, 3490753206075040), (42229387004, 0),
    (329156, 0), (35, 0)], [(10818416295519109, 0), (0, 1503006218416), (20524060, 0), (0, 40)], [(5841140221858, 0),
    (0, 388324263), (0, 5536), (0, 1)], [(3353356230, 0), (0, 89811)]], 3, 4⟩, ⟨[[(15824020155334656, 0), (0,
    2684134500129945), (8574880820, 0), (0, 723364), (0, 45)], [(0, 20983685991941141), (97556642818, 0), (14714370,
    0), (967, 0)], [(2823126670939, 0), (0, 45839723), (0, 4208)], [(0, 539066501), (0, 45611), (0, 4)]], 3, 4⟩,
    72057594037927936, 196686429883, 64739349797, ⟨[[(15283080753880, 0), (11457776694, 0), (5859332, 0), (0, 9583),
    (0, 62)], [(0, 8826629119), (0, 18715634), (0, 2600), (98, 0), (1, 0)], [(12377898, 0), (28369, 0), (0, 41)],
    [(0, 19961), (0, 39)]], 3, 4⟩, 17592186044416, 5398650,
    8694714909905036290627933059609095510245904204341364421246228977111003038009324938452217218427049412108935467837544692035415803,
    lc0⟩)))
theorem c17 : checkR job con0 true ⟨7, 9, 7, 9, 13, 17⟩ 1 9016 t17 801 21 640 60235 251 64000 = true := by decide +kernel

def t18 : CTree :=
  .sx (.sx (.sy (.out ⟨830, 16, 2397, 3356, 16, 3140, ⟨[[(14666559307808768, 0), (0, 3518375883029644), (43173440250,
    0)], [(9472260271534557, 0), (0, 1494120664132), (23833548, 0)], [(4828923844039, 0), (0, 385274956), (0,
    6723)]], 2, 2⟩, ⟨[[(0, 32114537093857280), (0, 2601098486093320), (5127386998, 0)], [(0, 20941270424726065),
    (119064992937, 0), (16595029, 0)], [(2937698854076, 0), (0, 28147198), (0, 2530)]], 2, 2⟩, 72057594037927936,
    35694237889155, 21838388806900, ⟨[], 0, 0⟩, 0, 0, 0, lc0⟩ 2 1 15930211091250) (.sy (.out ⟨1408, 16, 4157, 4773,
    16, 4485, ⟨[[(3440098205483008, 0), (0, 3022521215761109), (18939202558, 0)], [(15457578034129417, 0), (0,
    1279946576831), (10445520, 0)], [(8121274003307, 0), (0, 338777561), (0, 3326)]], 2, 2⟩, ⟨[[(35085848593301504,
    0), (0, 1855163791445676), (1440652937, 0)], [(0, 29843862748641957), (94295637520, 0), (6381329, 0)],
    [(4180389035519, 0), (0, 21487824), (0, 937)]], 2, 2⟩, 72057594037927936, 50687970392737, 12517169394532, ⟨[], 0,
    0⟩, 0, 0, 0, lc0⟩ 2 1 8705465498357) (.leaf ⟨1991, 16, 4312, 1366, 16, 4810, ⟨[[(0, 20764357337841664), (0,
    3115412335051834), (19815437450, 0), (117709, 0), (5, 0)], [(15370183961695336, 0), (0, 1316748246232),
    (10925945, 0), (64, 0)], [(8246786106917, 0), (0, 355022594), (0, 3750)], [(5374618828, 0), (0, 103164), (0,
    1)]], 3, 4⟩, ⟨[[(0, 32768797084958720), (0, 1893518101937513), (1185465960, 0), (0, 195512), (0, 6)], [(0,
    30432325169791171), (103021764919, 0), (6849111, 0), (226, 0)], [(4258563743070, 0), (0, 22920069), (0, 980)],
    [(0, 1056062205), (0, 48898), (0, 2)]], 3, 4⟩, 72057594037927936, 340385798808, 85693000979, ⟨[[(15905041179888,
    0), (9113988790, 0), (3021976, 0), (0, 6226), (0, 27)], [(0, 5565681773), (0, 8543907), (1029, 0), (33, 0)],
    [(4701890, 0), (7436, 0), (0, 11)], [(0, 4646), (0, 6)]], 3, 4⟩, 17592186044416, 853139,
    14953267142726619870912496509643574968326359042564185706278832896732897315082954020747087558930020866899970453836295254141583483,
    lc0⟩))) (.sy (.sy (.out ⟨1376, 16, 3918, 4807, 16, 4508, ⟨[[(31629397392719872, 0), (0, 2936360051873649),
    (17981944995, 0)], [(16486607152318293, 0), (0, 1252793756375), (9483963, 0)], [(8621155048407, 0), (0,
    324731799), (0, 2719)]], 2, 2⟩, ⟨[[(0, 33396189708877824), (0, 1864685104951612), (2205828237, 0)], [(0,
    29736138152525080), (80639500346, 0), (5726314, 0)], [(4104303803499, 0), (0, 24858016), (0, 1131)]], 2, 2⟩,
    72057594037927936, 50805298185182, 11083316900419, ⟨[], 0, 0⟩, 0, 0, 0, lc0⟩ 2 1 9754324985838) (.leaf ⟨1926, 16,
    4062, 1381, 16, 4834, ⟨[[(0, 12917539833544704), (0, 3025496414902050), (18779562695, 0), (95027, 0), (4, 0)],
    [(16443011312954749, 0), (0, 1288945106167), (9876307, 0), (32, 0)], [(8768272815475, 0), (0, 339630436), (0,
    3086)], [(5433203135, 0), (0, 90970), (0, 1)]], 3, 4⟩, ⟨[[(8201699564732416, 0), (0, 1902174633624729),
    (2009872786, 0), (0, 166132), (0, 5)], [(0, 30325287182352768), (88372461850, 0), (6144912, 0), (202, 0)],
    [(4178495285671, 0), (0, 26564950), (0, 1193)], [(0, 945448511), (0, 41966), (0, 2)]], 3, 4⟩, 72057594037927936,
    330206848315, 82096963781, ⟨[[(15690731571116, 0), (8682310465, 0), (2896224, 0), (0, 5325), (0, 23)], [(0,
    5480540687), (0, 8231595), (693, 0), (30, 0)], [(4605429, 0), (7148, 0), (0, 11)], [(0, 4489), (0, 6)]], 3, 4⟩,
    17592186044416, 825048,
    13390465854139388702915693029458916428014170868499086840730022659747397648765054938462855215000706550345206933801503490870418225,
    lc0⟩)) (.leaf ⟨1143, 16, 2450, 955, 16, 3390, ⟨[[(0, 30189210440531968), (0, 3615342670338219), (45861617392, 0),
    (523102, 0), (44, 0)], [(9335603851183104, 0), (0, 1536843880318), (24025350, 0), (197, 0)], [(5133239891931, 0),
    (0, 415685138), (0, 8470), (0, 1)], [(3235471595, 0), (0, 111122), (0, 2)]], 3, 4⟩, ⟨[[(0, 27267783995686912),
    (0, 2664086923712832), (4536830605, 0), (0, 1018755), (0, 60)], [(0, 21217423926583000), (137424066115, 0),
    (18573131, 0), (1230, 0)], [(2915796112864, 0), (0, 39838637), (0, 3506)], [(0, 685983792), (0, 63152), (0, 6)]],
    3, 4⟩, 72057594037927936, 207223663037, 69658972467, ⟨[[(15694205298580, 0), (12588098741, 0), (6454065, 0), (0,
    13148), (0, 83)], [(0, 9304277324), (0, 20595242), (0, 1046), (125, 0), (1, 0)], [(13467011, 0), (31863, 0), (0,
    47), (0, 1)], [(0, 22822), (0, 48)]], 3, 4⟩, 17592186044416, 5879711,
    11679222907241706136137833421373809277292348953043308564912158114331443244636021075295527335027119237394361397678279546921569352,
    lc0⟩))) (.sy (.sx (.leaf ⟨1119, 16, 2335, 964, 16, 3402, ⟨[[(0, 10659250709626880), (0, 3552341867376165),
    (43959639468, 0), (421571, 0), (40, 0)], [(10082812782107317, 0), (0, 1520763511503), (22079179, 0), (64, 0)],
    [(5494662115168, 0), (0, 401553781), (0, 6946), (0, 1)], [(3299958436, 0), (0, 99428), (0, 1)]], 3, 4⟩,
    ⟨[[(19233527453745152, 0), (0, 2673856301865273), (6707372796, 0), (0, 861386), (0, 52)], [(0,
    21113206703172346), (116729237002, 0), (16569726, 0), (1096, 0)], [(2865438745255, 0), (0, 43581136), (0, 3950)],
    [(0, 609857754), (0, 53793), (0, 5)]], 3, 4⟩, 72057594037927936, 202718697049, 66454888094, ⟨[[(15484386172498,
    0), (12004819302, 0), (6160728, 0), (0, 11180), (0, 71)], [(0, 9058056307), (0, 19628438), (0, 1889), (110, 0),
    (1, 0)], [(12898001, 0), (30044, 0), (0, 44), (0, 1)], [(0, 21323), (0, 44)]], 3, 4⟩, 17592186044416, 5740640,
    10229678985828736925538706968421866417178069364344282327503529044203108518608383313404612926652313791082286393350104932996867985,
    lc0⟩) (.leaf ⟨1098, 16, 2280, 957, 16, 3421, ⟨[[(26745262817558528, 0), (0, 3531734208758873), (43817649272, 0),
    (412827, 0), (39, 0)], [(10313338552812029, 0), (0, 1518383874056), (20985576, 0), (0, 6)], [(5781644684996, 0),
    (0, 404025779), (0, 6861), (0, 1)], [(3388462316, 0), (0, 92259)]], 3, 4⟩, ⟨[[(25025561552732160, 0), (0,
    2683940886298799), (7437282019, 0), (0, 820276), (0, 50)], [(0, 20992241478149717), (113420760241, 0), (16303120,
    0), (1084, 0)], [(2807231612078, 0), (0, 50385511), (0, 4570)], [(0, 564665106), (0, 50032), (0, 5)]], 3, 4⟩,
    72057594037927936, 205720554182, 68170032251, ⟨[[(15289496292856, 0), (11677009512, 0), (6411524, 0), (0, 7506),
    (0, 51)], [(0, 8890660409), (0, 19554970), (0, 5816), (80, 0)], [(12782308, 0), (31437, 0), (0, 26)], [(0,
    21431), (0, 49)]], 3, 4⟩, 17592186044416, 5428965,
    11094042402103120022932824645016472974216825798847573700775302618756020141774055766369306602475272476237890241703694551849291712,
    lc0⟩)) (.sx (.leaf ⟨1121, 16, 2393, 948, 16, 3410, ⟨[[(31661790513070080, 0), (0, 3595000491933878),
    (45765499328, 0), (517382, 0), (44, 0)], [(9556589602778973, 0), (0, 1535758607485), (22762599, 0), (114, 0)],
    [(5422654449290, 0), (0, 419342451), (0, 8469), (0, 1)], [(3330510686, 0), (0, 102987), (0, 1)]], 3, 4⟩, ⟨[[(0,
    8302885256421376), (0, 2674073704607891), (5341613356, 0), (0, 973072), (0, 57)], [(0, 21099791493983549),
    (134540071359, 0), (18355541, 0), (1223, 0)], [(2849225599052, 0), (0, 47805362), (0, 4253)], [(0, 639652925),
    (0, 59175), (0, 6)]], 3, 4⟩, 72057594037927936, 211086773404, 70692048850, ⟨[[(15494895059876, 0), (12252347094,
    0), (6772262, 0), (0, 8883), (0, 60)], [(0, 9137218193), (0, 20570219), (0, 5457), (90, 0), (1, 0)], [(13367608,
    0), (33425, 0), (0, 28)], [(0, 23000), (0, 54)]], 3, 4⟩, 17592186044416, 6036974,
    12761011736413634465524805129561080261553611932067778399831332487259515889163342556367712261013351733762769913307575537015878541,
    lc0⟩) (.leaf ⟨1101, 16, 2337, 941, 16, 3430, ⟨[[(0, 16657339798290432), (0, 3574593945193293), (45613506958, 0),
    (508340, 0), (44, 0)], [(9795308655611959, 0), (0, 1534742293209), (21530209, 0), (34, 0)], [(5716412070571, 0),
    (0, 421849960), (0, 8374), (0, 1)], [(3425607876, 0), (0, 94963)]], 3, 4⟩, ⟨[[(10320190886305792, 0), (0,
    2684162746757480), (6140444985, 0), (0, 927491), (0, 55)], [(0, 20986120474687378), (130982874356, 0), (18075105,
    0), (1211, 0)], [(2788071475913, 0), (0, 55302553), (0, 4952)], [(0, 592525486), (0, 55010), (0, 5)]], 3, 4⟩,
    72057594037927936, 213404861399, 70566033906, ⟨[[(15286809252925, 0), (11881009737, 0), (6918149, 0), (0, 5739),
    (0, 42)], [(0, 8927716266), (0, 20328218), (0, 8676), (65, 0)], [(13137223, 0), (34281, 0), (0, 13)], [(0,
    22832), (0, 57)]], 3, 4⟩, 17592186044416, 5477849,
    12523241263319740551949540725545332698439893630470993126714107414941163300306536907306602824488453700136510225753218857921017849,
    lc0⟩)))
theorem c18 : checkR job con0 true ⟨7, 9, 7, 9, 13, 17⟩ 1 9016 t18 801 21 640 60737 251 64000 = true := by decide +kernel

def t19 : CTree :=
  .sy (.sx (.sy (.leaf ⟨864, 16, 1699, 702, 16, 2458, ⟨[[(0, 29524889481338880), (0, 2770952503971500), (32869885229,
    0), (194585, 0), (25, 0)], [(18898012247766147, 0), (0, 2401179146188), (30596343, 0), (0, 234)],
    [(20456147264571, 0), (0, 1220307375), (0, 13567), (0, 2)], [(22266118391, 0), (0, 512232), (3, 0)]], 3, 4⟩,
    ⟨[[(0, 23649274938277888), (0, 1937132260549601), (7510927405, 0), (0, 421405), (0, 27)], [(0,
    29799345208656786), (112048236351, 0), (18459223, 0), (1201, 0)], [(7937400897734, 0), (0, 141852811), (0,
    12960), (0, 1)], [(0, 2594475400), (0, 212091), (0, 17)]], 3, 4⟩, 72057594037927936, 2443757956909, 621029994386,
    ⟨[[(15001263846913, 0), (15055787096, 0), (10979809, 0), (0, 18463), (0, 174)], [(0, 10544107031), (0, 30683217),
    (0, 11640), (248, 0), (2, 0)], [(18100200, 0), (58544, 0), (0, 86), (0, 2)], [(0, 35491), (0, 100), (1, 0)]], 3,
    4⟩, 17592186044416, 11402954,
    10902453266973566423745343075587622267472320030000868180302107595464923935067423841341798047319079691390338904564093806166441390,
    lc0⟩) (.leaf ⟨871, 16, 1752, 690, 16, 2465, ⟨[[(0, 18571318500204544), (0, 2823196029216506), (34237531168, 0),
    (254773, 0), (28, 0)], [(18252459740672844, 0), (0, 2444581506610), (31210239, 0), (0, 210)], [(20458770521882,
    0), (0, 1274065975), (0, 17324), (0, 2)], [(22696415570, 0), (0, 524712), (4, 0)]], 3, 4⟩, ⟨[[(11664282370760704,
    0), (0, 1935419881507285), (6853883746, 0), (0, 479405), (0, 30)], [(0, 29822978732880524), (131900080601, 0),
    (20435067, 0), (1352, 0)], [(7885218340032, 0), (0, 155899706), (0, 14193), (0, 1)], [(0, 2713204424), (0,
    231293), (0, 20)]], 3, 4⟩, 72057594037927936, 2555505407474, 647824975136, ⟨[[(14995783270084, 0), (15304880311,
    0), (11880904, 0), (0, 13879), (0, 143)], [(0, 10499865143), (0, 31611454), (0, 17844), (200, 0), (2, 0)],
    [(18263717, 0), (62949, 0), (0, 49), (0, 1)], [(0, 36791), (0, 118)]], 3, 4⟩, 17592186044416, 11616487,
    11241401818922753135182319697628221281519400995101985400075995508735161024137101188422837214640083845678494100474794883013846730,
    lc0⟩)) (.leaf ⟨508, 16, 997, 477, 16, 1730, ⟨[[(0, 22864660138434560), (0, 3352856323272370), (80458262835, 0),
    (972699, 0), (250, 0)], [(11801243048120524, 0), (0, 2924203531948), (68496549, 0), (0, 1870)], [(13539312446514,
    0), (0, 1512353026), (0, 33697), (0, 10)], [(14253594896, 0), (0, 538741), (21, 0)]], 3, 4⟩,
    ⟨[[(2203878530703360, 0), (0, 2714813082101963), (22445099591, 0), (0, 2235329), (0, 283)], [(0,
    20494975800803316), (151990543879, 0), (51133195, 0), (6748, 0), (1, 0)], [(5349199924334, 0), (0, 244588306),
    (0, 43900), (0, 5)], [(0, 1496475310), (0, 253020), (0, 39)]], 3, 4⟩, 72057594037927936, 1577211628520,
    496806892673, ⟨[[(14625959575939, 0), (20528478752, 0), (23797512, 0), (0, 17520), (0, 343)], [(0, 16620515725),
    (0, 71589432), (0, 83812), (555, 0), (6, 0)], [(47865527, 0), (247023, 0), (0, 10), (0, 6)], [(0, 160117), (0,
    811), (2, 0)]], 3, 4⟩, 17592186044416, 94877905,
    9312036025693208852008548646471401811753177011385949990524219725548766633505280490796634085849174344982165186761117565518754685,
    lc0⟩)) (.sx (.leaf ⟨528, 16, 1099, 468, 16, 1723, ⟨[[(0, 9682421491245056), (0, 3476592209732997), (87603998564,
    0), (1738177, 0), (327, 0)], [(10305824069045385, 0), (0, 3008328741741), (77285316, 0), (0, 752)],
    [(12224834120403, 0), (0, 1636356958), (0, 57696), (0, 14)], [(13990510275, 0), (0, 651495), (9, 0)]], 3, 4⟩,
    ⟨[[(22476034514120704, 0), (0, 2692446412906020), (15835799503, 0), (0, 3224735), (0, 389)], [(0,
    20767894670873502), (230819551397, 0), (66436662, 0), (8941, 0), (1, 0)], [(5423724671269, 0), (0, 249834129),
    (0, 45107), (0, 5)], [(0, 2026571368), (0, 369078), (0, 67)]], 3, 4⟩, 72057594037927936, 1706195496502,
    527890898524, ⟨[[(14991906286156, 0), (22549208386, 0), (27074549, 0), (0, 25902), (0, 449)], [(0, 17459036486),
    (0, 79283358), (0, 88134), (712, 0), (8, 0)], [(51879580, 0), (278142, 0), (0, 33), (0, 7)], [(0, 182093), (0,
    964), (2, 0)]], 3, 4⟩, 17592186044416, 110628672,
    13618906176210863124097898737206766494238511471649594883165835934153532054820470238653869077359027963160362021270859048557510062,
    lc0⟩) (.leaf ⟨508, 16, 1045, 461, 16, 1741, ⟨[[(0, 4395233666469888), (0, 3428698510688488), (86290218161, 0),
    (1600077, 0), (318, 0)], [(10848632356517329, 0), (0, 2994351373324), (68957479, 0), (0, 1792)],
    [(13385123446100, 0), (0, 1629010183), (0, 52621), (0, 13)], [(14662351002, 0), (0, 540024), (27, 0)]], 3, 4⟩,
    ⟨[[(7573427529785344, 0), (0, 2711250020831868), (18735624826, 0), (0, 2888745), (0, 353)], [(0,
    20534626666725995), (210179760177, 0), (62973186, 0), (8552, 0), (1, 0)], [(5247792166106, 0), (0, 294868685),
    (0, 53089), (0, 6)], [(0, 1644790730), (0, 300405), (0, 52)]], 3, 4⟩, 72057594037927936, 1707045460088,
    531365068493, ⟨[[(14628845556312, 0), (21211808567, 0), (26451703, 0), (0, 6787), (0, 228)], [(0, 16775290177),
    (0, 76621682), (0, 108587), (371, 0), (4, 0)], [(50394042, 0), (283068, 0), (192, 0), (0, 4)], [(0, 180287), (0,
    1041), (1, 0)]], 3, 4⟩, 17592186044416, 111243396,
    10998691133403961912908906283144902455416580097082398836618500897008652672185693614568885241758532702853315086423687574711307111,
    lc0⟩))
theorem c19 : checkR job con0 true ⟨7, 9, 7, 9, 13, 17⟩ 1 9016 t19 843 21 640 30243 251 32000 = true := by decide +kernel

def t20 : CTree :=
  .sx (.out ⟨241, 16, 802, 1017, 16, 943, ⟨[[(7608140018894848, 0), (0, 3955626756940071), (198861493839, 0)],
    [(3385422216232901, 0), (0, 3174246056392), (333900841, 0)], [(2606092320991, 0), (0, 1503664754), (0, 114494)]],
    2, 2⟩, ⟨[[(13100357664391168, 0), (0, 3187336270199212), (0, 39930877200)], [(0, 13675381356685544),
    (443292508720, 0), (217571915, 0)], [(4595767984615, 0), (267653870, 0), (117000, 0)]], 2, 2⟩, 72057594037927936,
    251538895690433, 657115966665228, ⟨[], 0, 0⟩, 0, 0, 0, lc0⟩ 2 1 47194206973536) (.sy (.out ⟨443, 16, 1418, 1631,
    16, 1516, ⟨[[(0, 29799617543409664), (0, 3663938898876913), (92070716409, 0)], [(7163868149593518, 0), (0,
    2995775711948), (136531089, 0)], [(6146636869432, 0), (0, 1484346091), (0, 61006)]], 2, 2⟩,
    ⟨[[(34663341372260352, 0), (0, 2541803171088600), (0, 7508676128)], [(0, 21475263659396002), (326601292971, 0),
    (82250092, 0)], [(6809625429378, 0), (97283325, 0), (22731, 0)]], 2, 2⟩, 72057594037927936, 140305519339319,
    142132091658780, ⟨[], 0, 0⟩, 0, 0, 0, lc0⟩ 2 1 38811558687964) (.sx (.out ⟨474, 16, 1615, 2034, 16, 1907,
    ⟨[[(31590508686086144, 0), (0, 4031502149699228), (107788466694, 0)], [(3180678713329101, 0), (0, 1606140552055),
    (85936673, 0)], [(1450241390669, 0), (0, 429127662), (0, 21844)]], 2, 2⟩, ⟨[[(0, 10165687393435648), (0,
    3218527363884495), (0, 23513084189)], [(0, 13481600009394354), (260852727767, 0), (62250326, 0)],
    [(2203134380672, 0), (48051932, 0), (11583, 0)]], 2, 2⟩, 72057594037927936, 71844034732774, 166573281747307, ⟨[],
    0, 0⟩, 0, 0, 0, lc0⟩ 2 1 25312427089838) (.sy (.out ⟨884, 16, 2953, 3253, 16, 3053, ⟨[[(4332009315983360, 0), (0,
    3773543673834537), (50287713820, 0)], [(6430864794698997, 0), (0, 1521467078459), (37504193, 0)],
    [(3063620920781, 0), (0, 412047847), (0, 10626)]], 2, 2⟩, ⟨[[(0, 33464309969485824), (0, 2563659884162906), (0,
    7000676244)], [(0, 21344447338383619), (199062027547, 0), (24054296, 0)], [(3380954761300, 0), (22619998, 0),
    (2993, 0)]], 2, 2⟩, 72057594037927936, 37574260434837, 38927982025074, ⟨[], 0, 0⟩, 0, 0, 0, lc0⟩ 2 1
    21571224366589) (.out ⟨881, 16, 3033, 3235, 16, 3053, ⟨[[(13779624283889664, 0), (0, 3823273822204324),
    (52959327260, 0)], [(5830475135007844, 0), (0, 1523092762105), (40390351, 0)], [(2931282623663, 0), (0,
    434968426), (0, 12529)]], 2, 2⟩, ⟨[[(0, 25376960812810240), (0, 2572062656786835), (0, 9787096116)], [(0,
    21238256223199814), (224418859163, 0), (26497159, 0)], [(3393107585134, 0), (25886284, 0), (3523, 0)]], 2, 2⟩,
    72057594037927936, 39600783924328, 42675030188419, ⟨[], 0, 0⟩, 0, 0, 0, lc0⟩ 2 1 12159120782608))))
theorem c20 : checkR job con0 true ⟨7, 9, 7, 9, 13, 17⟩ 1 9016 t20 717 21 640 30745 251 32000 = true := by decide +kernel

def t21 : CTree :=
  .sx (.sy (.out ⟨749, 16, 2341, 2336, 16, 2181, ⟨[[(0, 16370794712752128), (0, 3150674167401302), (39920410934, 0)],
    [(13422469932846677, 0), (0, 2608610289422), (53040244, 0)], [(12713683038769, 0), (0, 1350197157), (0, 29243)]],
    2, 2⟩, ⟨[[(0, 21866646852829184), (0, 1817895951559687), (0, 712663872)], [(0, 30160073385700590), (223342419837,
    0), (28578807, 0)], [(9101298661389, 0), (3926808, 0), (1576, 0)]], 2, 2⟩, 72057594037927936, 189033517575028,
    65306352104761, ⟨[], 0, 0⟩, 0, 0, 0, lc0⟩ 2 1 27259438188426) (.out ⟨753, 16, 2425, 2326, 16, 2184,
    ⟨[[(3508712303681536, 0), (0, 3221789262143371), (42209687561, 0)], [(12561590936322350, 0), (0, 2646084420665),
    (56916458, 0)], [(12459708140884, 0), (0, 1431555207), (0, 35334)]], 2, 2⟩, ⟨[[(16072525169197056, 0), (0,
    1821858784279249), (0, 2227369285)], [(0, 30081835308972574), (253827161292, 0), (31545645, 0)], [(9116247219066,
    0), (5866695, 0), (2292, 0)]], 2, 2⟩, 72057594037927936, 192216912762336, 69733549883083, ⟨[], 0, 0⟩, 0, 0, 0,
    lc0⟩ 2 1 17632220696689)) (.sx (.sy (.out ⟨849, 16, 2634, 3316, 16, 3114, ⟨[[(21459305028468736, 0), (0,
    3639013003770532), (46762634503, 0)], [(8034434646693448, 0), (0, 1517144671436), (28734713, 0)],
    [(4101222498979, 0), (0, 407135380), (0, 9274)]], 2, 2⟩, ⟨[[(16189642222501888, 0), (0, 2585535804289142),
    (268036549, 0)], [(0, 21132325854248600), (158628522389, 0), (20378137, 0)], [(3082647751152, 0), (0, 14153984),
    (0, 929)]], 2, 2⟩, 72057594037927936, 37407837256612, 29001704337088, ⟨[], 0, 0⟩, 0, 0, 0, lc0⟩ 2 1
    14240808694774) (.sx (.sy (.out ⟨1710, 16, 5432, 6614, 16, 6230, ⟨[[(16055335950974976, 0), (0,
    3699571620119832), (24326104612, 0)], [(7615307394343645, 0), (0, 766444826442), (7631472, 0)], [(1988898384057,
    0), (0, 105680626), (0, 1317)]], 2, 2⟩, ⟨[[(0, 21420901831933952), (0, 2588555429781978), (0, 730487810)], [(0,
    21141339400372410), (87446368619, 0), (5490438, 0)], [(1552948121489, 0), (0, 3030849), (0, 76)]], 2, 2⟩,
    72057594037927936, 9574392605727, 7727001510087, ⟨[], 0, 0⟩, 0, 0, 0, lc0⟩ 2 1 9743608693833) (.sx (.out ⟨1844,
    16, 5949, 8280, 16, 7817, ⟨[[(0, 20745065824354304), (0, 4016076830101660), (26850592188, 0)],
    [(3938296754626786, 0), (0, 414238174583), (4265630, 0)], [(523808030584, 0), (0, 29144430), (0, 385)]], 2, 2⟩,
    ⟨[[(0, 23485862376374272), (0, 3250436497672394), (0, 1671803543)], [(0, 13255454787626546), (58444317985, 0),
    (3619036, 0)], [(488903574795, 0), (0, 860694), (0, 16)]], 2, 2⟩, 72057594037927936, 4190797933892,
    7813463406970, ⟨[], 0, 0⟩, 0, 0, 0, lc0⟩ 2 1 6199602685776) (.leaf ⟨2647, 16, 6039, 2354, 16, 8384, ⟨[[(0,
    4307296420298752), (0, 4094548019619241), (27437977712, 0), (209669, 0), (7, 0)], [(4043065875076464, 0), (0,
    423004338657), (4297066, 0), (49, 0)], [(544208370361, 0), (0, 29921737), (0, 397)], [(99745192, 0), (0, 2655)]],
    3, 4⟩, ⟨[[(22892925325934592, 0), (0, 3317688987395038), (0, 1552455807), (0, 471002), (0, 13)], [(0,
    13498175987417179), (59615097208, 0), (3694881, 0), (121, 0)], [(494811469961, 0), (0, 1108580), (0, 27)], [(0,
    36130445), (0, 1810)]], 3, 4⟩, 72057594037927936, 4193261826, 1560801220, ⟨[[(16365299878554, 0), (5717945283,
    0), (1057221, 0), (0, 1539), (0, 4)], [(0, 4656614532), (0, 4241011), (420, 0), (6, 0)], [(3226809, 0), (2998,
    0), (0, 2)], [(0, 2633), (0, 2)]], 3, 4⟩, 17592186044416, 271526,
    12396914426684289743302344533992738423165870359551011450542067171332703629023632378070773134755536967962352130717220873827087380,
    lc0⟩))) (.sy (.sy (.out ⟨2954, 16, 9321, 9433, 16, 8896, ⟨[[(0, 35449841112776704), (0, 3207206016468298),
    (10543576949, 0)], [(13527918722576350, 0), (0, 666905019140), (3213272, 0)], [(3594440846114, 0), (0, 92394207),
    (0, 574)]], 2, 2⟩, ⟨[[(0, 15350749608804352), (0, 1845441213811054), (0, 132859368)], [(0, 30019220173876181),
    (61235016457, 0), (1932754, 0)], [(2178983652383, 0), (0, 3101036), (0, 51)]], 2, 2⟩, 72057594037927936,
    12525988396069, 3827257465240, ⟨[], 0, 0⟩, 0, 0, 0, lc0⟩ 2 1 6642818131071) (.out ⟨2958, 16, 9405, 9425, 16,
    8901, ⟨[[(0, 27582608532635648), (0, 3225398990546265), (10696569320, 0)], [(13312846834306720, 0), (0,
    669647473852), (3267174, 0)], [(3579886067403, 0), (0, 93818844), (0, 601)]], 2, 2⟩, ⟨[[(16164489754443776, 0),
    (0, 1846657879818624), (0, 224933862)], [(0, 30004843863793621), (63235158248, 0), (1982149, 0)],
    [(2178638055602, 0), (0, 3153260), (0, 50)]], 2, 2⟩, 72057594037927936, 12588051914960, 3892374162970, ⟨[], 0,
    0⟩, 0, 0, 0, lc0⟩ 2 1 4284150537618)) (.leaf ⟨2437, 16, 5553, 1872, 16, 6699, ⟨[[(14479556018995200, 0), (0,
    3789645919787728), (25477320511, 0), (195543, 0), (7, 0)], [(7563689128739759, 0), (0, 784915792633), (7809255,
    0), (85, 0)], [(2071758233042, 0), (0, 111884970), (0, 1498)], [(750113708, 0), (0, 19199)]], 3, 4⟩, ⟨[[(0,
    18478242005958656), (0, 2647909260964778), (0, 1054555902), (0, 370251), (0, 10)], [(0, 21471728289905402),
    (95010083765, 0), (5897427, 0), (193, 0)], [(1559867749146, 0), (0, 4626913), (0, 140)], [(0, 226039843), (0,
    11365), (0, 1)]], 3, 4⟩, 72057594037927936, 27006702040, 9377256648, ⟨[[(16286643850867, 0), (7108586785, 0),
    (1733359, 0), (0, 2666), (0, 8)], [(0, 4990018130), (0, 5755027), (380, 0), (11, 0)], [(3746283, 0), (4477, 0),
    (0, 4)], [(0, 3318), (0, 3)]], 3, 4⟩, 17592186044416, 419871,
    8419044294651762407281065152525747396917978042578780390220068929524031031410140374780491787977924194652318654007476521014472440,
    lc0⟩)))) (.sy (.sy (.out ⟨1442, 16, 4413, 4740, 16, 4461, ⟨[[(0, 17602834397691904), (0, 3112445229669286),
    (19987336154, 0)], [(14391292009726845, 0), (0, 1306029529104), (11628210, 0)], [(7588686065183, 0), (0,
    353559154), (0, 3967)]], 2, 2⟩, ⟨[[(0, 29117813622505472), (0, 1847463287324372), (563272815, 0)], [(0,
    29936469241923127), (108876441611, 0), (7078801, 0)], [(4272707064419, 0), (0, 16808852), (0, 667)]], 2, 2⟩,
    72057594037927936, 50414729361845, 14082814963710, ⟨[], 0, 0⟩, 0, 0, 0, lc0⟩ 2 1 8435987322283) (.sx (.leaf
    ⟨2405, 16, 5352, 1900, 16, 6712, ⟨[[(0, 2681896687534080), (0, 3733821728217286), (24331356301, 0), (165388, 0),
    (6, 0)], [(8237612504009804, 0), (0, 780308609382), (7193171, 0), (64, 0)], [(2198362772998, 0), (0, 107360976),
    (0, 1282)], [(762327189, 0), (0, 17442)]], 3, 4⟩, ⟨[[(0, 15982741460959232), (0, 2648492384948936), (225492296,
    0), (0, 324465), (0, 9)], [(0, 21472674060555874), (83477054936, 0), (5338523, 0), (175, 0)], [(1540640482018,
    0), (0, 5631720), (0, 210)], [(0, 209242420), (0, 10074)]], 3, 4⟩, 72057594037927936, 27234469486, 8930298850,
    ⟨[[(16173805186092, 0), (6854930440, 0), (1559649, 0), (0, 2817), (0, 9)], [(0, 4889476995), (0, 5434951), (773,
    0), (12, 0)], [(3571695, 0), (4034, 0), (0, 5)], [(0, 3065), (0, 3)]], 3, 4⟩, 17592186044416, 393056,
    16242528462475693658601059638732815313324603937297451857107893647233477202436455592867840938073479134619891900420621271431239825,
    lc0⟩) (.leaf ⟨2383, 16, 5293, 1893, 16, 6733, ⟨[[(18243515664564224, 0), (0, 3725260632982517), (24359654265, 0),
    (166100, 0), (6, 0)], [(8333455890308431, 0), (0, 780716050576), (7005874, 0), (58, 0)], [(2270468485361, 0), (0,
    108326105), (0, 1303)], [(775379004, 0), (0, 16854)]], 3, 4⟩, ⟨[[(14759120744546304, 0), (0, 2653272491866930),
    (450709655, 0), (0, 318097), (0, 9)], [(0, 21411136935522587), (83210680761, 0), (5334968, 0), (176, 0)],
    [(1519416954996, 0), (0, 6905752), (0, 271)], [(0, 203488666), (0, 9836)]], 3, 4⟩, 72057594037927936,
    27828573076, 8580315281, ⟨[[(16063696961684, 0), (6767391404, 0), (1651633, 0), (0, 2334), (0, 7)], [(0,
    4840678199), (0, 5454852), (310, 0), (10, 0)], [(3555817, 0), (4177, 0), (0, 4)], [(0, 3076), (0, 3)]], 3, 4⟩,
    17592186044416, 376710,
    8156042158268016216114420480024164977946928648956042180816097885083270922373935552130455930491349151121032498141600541363827450,
    lc0⟩))) (.leaf ⟨1193, 16, 2697, 934, 16, 3361, ⟨[[(34824764775514112, 0), (0, 3742230087912843), (50151490029,
    0), (751706, 0), (55, 0)], [(7804818440617460, 0), (0, 1560109185122), (29375657, 0), (564, 0)], [(4362562278110,
    0), (0, 445574983), (0, 11725), (0, 1)], [(3063692212, 0), (0, 142551), (0, 5)]], 3, 4⟩, ⟨[[(23489814765887488,
    0), (0, 2650738405042887), (0, 838452476), (0, 1397857), (0, 77)], [(0, 21374272046516276), (183390165538, 0),
    (22996086, 0), (1515, 0)], [(3049950099620, 0), (0, 26543019), (0, 1942)], [(0, 856546666), (0, 85663), (0, 8)]],
    3, 4⟩, 72057594037927936, 218127426170, 74209676010, ⟨[[(16119010781283, 0), (13876482899, 0), (7195582, 0), (0,
    17073), (0, 109)], [(0, 9863914776), (0, 22930594), (0, 437), (147, 0), (1, 0)], [(14904546, 0), (36726, 0), (0,
    46), (0, 1)], [(0, 26642), (0, 58)]], 3, 4⟩, 17592186044416, 6380946,
    14058236211344617227539357014614170877541319001220126769488513940228965645656399613428188779873372942113779353488809640645296899,
    lc0⟩)))
theorem c21 : checkR job con0 true ⟨7, 9, 7, 9, 13, 17⟩ 1 9016 t21 759 21 640 61239 251 64000 = true := by decide +kernel

def t22 : CTree :=
  .sx (.sy (.sx (.out ⟨870, 16, 2894, 3265, 16, 3076, ⟨[[(10553148016500736, 0), (0, 3761500518812000), (50807594332,
    0)], [(6568166931059448, 0), (0, 1525974456338), (35828943, 0)], [(3329186398577, 0), (0, 427143013), (0,
    11614)]], 2, 2⟩, ⟨[[(0, 29802463188090880), (0, 2574517493981241), (0, 6030970031)], [(0, 21224683664013455),
    (201914560585, 0), (24434329, 0)], [(3274687667782, 0), (9493898, 0), (1724, 0)]], 2, 2⟩, 72057594037927936,
    38968237924085, 37709091389453, ⟨[], 0, 0⟩, 0, 0, 0, lc0⟩ 2 1 13102351976670) (.sy (.sx (.out ⟨1731, 16, 5695,
    6563, 16, 6193, ⟨[[(11073147046969344, 0), (0, 3761564697249174), (25390155016, 0)], [(6869312656390191, 0), (0,
    768539315930), (8540333, 0)], [(1792313915889, 0), (0, 108483938), (0, 1477)]], 2, 2⟩, ⟨[[(7138025948839936, 0),
    (0, 2584015222316083), (0, 2338793718)], [(0, 21186637948034572), (98717800494, 0), (6020010, 0)],
    [(1600601321933, 0), (0, 91585), (90, 0)]], 2, 2⟩, 72057594037927936, 9768339771990, 8821382467318, ⟨[], 0, 0⟩,
    0, 0, 0, lc0⟩ 2 1 8820661470439) (.sy (.out ⟨3028, 16, 9901, 9357, 16, 8840, ⟨[[(15909461019394048, 0), (0,
    3303655874424712), (11156674283, 0)], [(12380712395642398, 0), (0, 677920034471), (3639538, 0)], [(3294487027178,
    0), (0, 96297372), (0, 657)]], 2, 2⟩, ⟨[[(9195013761138688, 0), (0, 1840916253333980), (0, 691471301)], [(0,
    30069638652987752), (69331214440, 0), (2123609, 0)], [(2241644512241, 0), (0, 1170096), (4, 0)]], 2, 2⟩,
    72057594037927936, 12348220558004, 4279104954183, ⟨[], 0, 0⟩, 0, 0, 0, lc0⟩ 2 1 5801876636108) (.leaf ⟨4398, 16,
    10192, 2649, 16, 9472, ⟨[[(10630193073487872, 0), (0, 3389188238915923), (11554246600, 0), (47066, 0), (1, 0)],
    [(12395222611204128, 0), (0, 694065300976), (3782524, 0), (24, 0)], [(3341380669321, 0), (0, 99818750), (0,
    700)], [(1274638245, 0), (0, 18927)]], 3, 4⟩, ⟨[[(31079274630971392, 0), (0, 1879362044391738), (0, 814266372),
    (0, 73121), (0, 1)], [(0, 30649088615403404), (72953078536, 0), (2220939, 0), (36, 0)], [(2286932212122, 0), (0,
    1188632), (7, 0)], [(0, 348902917), (0, 8943)]], 3, 4⟩, 72057594037927936, 46298056137, 11229280997,
    ⟨[[(16507615759718, 0), (5202569237, 0), (848975, 0), (0, 1137), (0, 3)], [(0, 2899779228), (0, 2364397), (207,
    0), (3, 0)], [(1244642, 0), (1031, 0), (0, 1)], [(0, 628)]], 3, 4⟩, 17592186044416, 166666,
    12283535348189947218915733781102765485473973038111588911455314858253136535512587277761629200747512130404298540780169004578652467,
    lc0⟩))) (.sx (.sy (.out ⟨3067, 16, 10205, 9317, 16, 8810, ⟨[[(0, 2541840316071936), (0, 3353008587481312),
    (11479286823, 0)], [(11792955913996396, 0), (0, 682775950250), (3884568, 0)], [(3138116475630, 0), (0, 98220768),
    (0, 697)]], 2, 2⟩, ⟨[[(20138168323407872, 0), (0, 1839352925696714), (0, 997565995)], [(0, 30085455512921527),
    (73500897510, 0), (2221026, 0)], [(2276943572101, 0), (0, 13531), (37, 0)]], 2, 2⟩, 72057594037927936,
    12232363867258, 4518356477862, ⟨[], 0, 0⟩, 0, 0, 0, lc0⟩ 2 1 5334069124358) (.leaf ⟨4478, 16, 10506, 2632, 16,
    9440, ⟨[[(13482093992214528, 0), (0, 3440004056288323), (11893065230, 0), (50777, 0), (1, 0)],
    [(11788941366907293, 0), (0, 698878513040), (4041243, 0), (28, 0)], [(3179732137885, 0), (0, 101851174), (0,
    743)], [(1254383013, 0), (0, 20411)]], 3, 4⟩, ⟨[[(13485681341628416, 0), (0, 1878113133186259), (0, 1134641247),
    (0, 78490), (0, 1)], [(0, 30663538305666334), (77310260642, 0), (2322689, 0), (38, 0)], [(2323590364185, 0),
    (25262, 0), (41, 0)], [(0, 366344582), (0, 9557)]], 3, 4⟩, 72057594037927936, 46626524767, 11424779447,
    ⟨[[(16624415732927, 0), (5337199657, 0), (871696, 0), (0, 1205), (0, 3)], [(0, 2929180949), (0, 2417196), (210,
    0), (3, 0)], [(1264031, 0), (1053, 0), (0, 1)], [(0, 639)]], 3, 4⟩, 17592186044416, 151744,
    11930758989782180990557920390195542895778712607644341003416568568274760212724213902522297929838900414905829669140015619100039161,
    lc0⟩)) (.leaf ⟨2494, 16, 5826, 1849, 16, 6659, ⟨[[(0, 7410957292634112), (0, 3854701661996371), (26668250541, 0),
    (226570, 0), (8, 0)], [(6787899758755826, 0), (0, 786929122450), (8778105, 0), (118, 0)], [(1866819709104, 0),
    (0, 115355669), (0, 1687)], [(720397554, 0), (0, 22015), (0, 1)]], 3, 4⟩, ⟨[[(0, 15127190393028608), (0,
    2644357523006604), (0, 2763804279), (0, 428199), (0, 11)], [(0, 21507388962494641), (107365375265, 0), (6479800,
    0), (211, 0)], [(1607131628932, 0), (0, 1653574), (29, 0)], [(0, 250108010), (0, 13046), (0, 1)]], 3, 4⟩,
    72057594037927936, 28919956340, 10613874847, ⟨[[(16510961485608, 0), (7472821282, 0), (1831298, 0), (0, 2988),
    (0, 10)], [(0, 5148606816), (0, 6084196), (396, 0), (12, 0)], [(3955451, 0), (4794, 0), (0, 3)], [(0, 3574), (0,
    4)]], 3, 4⟩, 17592186044416, 480521,
    8096667315223580563166480808174199360209005036676802870641279299362728607740939527812163000674887500964017185033174232716808918,
    lc0⟩)))) (.sx (.sy (.sx (.out ⟨1753, 16, 5971, 6506, 16, 6150, ⟨[[(12935109671632896, 0), (0, 3824405768093095),
    (26508227432, 0)], [(6120717392233286, 0), (0, 768268393462), (9622699, 0)], [(1591431590536, 0), (0, 110994807),
    (0, 1619)]], 2, 2⟩, ⟨[[(21578863534276608, 0), (0, 2581281644382442), (0, 4152161398)], [(0, 21207418007607159),
    (110332310048, 0), (6557965, 0)], [(1655540610214, 0), (3607080, 0), (295, 0)]], 2, 2⟩, 72057594037927936,
    9938353929914, 10018515102332, ⟨[], 0, 0⟩, 0, 0, 0, lc0⟩ 2 1 7867896372720) (.leaf ⟨2546, 16, 6029, 1842, 16,
    6612, ⟨[[(0, 31455273217392640), (0, 3894334810441289), (27170865217, 0), (239155, 0), (8, 0)],
    [(6318718813826743, 0), (0, 785275895793), (9575403, 0), (144, 0)], [(1692302497366, 0), (0, 115174959), (0,
    1716)], [(688690542, 0), (0, 24376), (0, 1)]], 3, 4⟩, ⟨[[(30796699382185984, 0), (0, 2638290252012573), (0,
    3968999326), (0, 466898), (0, 12)], [(0, 21573870249427605), (113206503469, 0), (6736535, 0), (218, 0)],
    [(1660924643975, 0), (1893341, 0), (214, 0)], [(0, 268360176), (0, 14158), (0, 1)]], 3, 4⟩, 72057594037927936,
    27509939596, 9925280210, ⟨[[(16736126755238, 0), (7760093546, 0), (1774044, 0), (0, 3760), (0, 12)], [(0,
    5283140341), (0, 6238976), (877, 0), (14, 0)], [(4082876, 0), (4817, 0), (0, 4)], [(0, 3684), (0, 3)]], 3, 4⟩,
    17592186044416, 426217,
    16286730326171003655559293788626511178462101982117950537036683052360581217244135144319942074164953502497114839101389978626387928,
    lc0⟩)) (.leaf ⟨2294, 16, 5495, 1298, 16, 4688, ⟨[[(0, 7759466883940352), (0, 3509577126584054), (24915255966, 0),
    (229708, 0), (7, 0)], [(10680482660567892, 0), (0, 1404823774073), (18002764, 0), (287, 0)], [(5803181897576, 0),
    (0, 420611072), (0, 6528)], [(4851119697, 0), (0, 184405), (0, 5)]], 3, 4⟩, ⟨[[(0, 20358148159143936), (0,
    1875452558091506), (0, 3431214277), (0, 352306), (0, 9)], [(0, 30608814523223205), (170204389100, 0), (10014774,
    0), (324, 0)], [(4762878066560, 0), (8682714, 0), (807, 0)], [(0, 1582456746), (0, 85113), (0, 4)]], 3, 4⟩,
    72057594037927936, 377393011198, 90774910603, ⟨[[(16803790120584, 0), (11148866167, 0), (3733759, 0), (0, 10163),
    (0, 46)], [(0, 5986642729), (0, 10132633), (1404, 0), (41, 0)], [(5252875, 0), (8864, 0), (0, 9)], [(0, 5361),
    (0, 7)]], 3, 4⟩, 17592186044416, 998528,
    15478403406255093303785082396181161312831780639997122481363565354369788520063439867236962354870321538263572384466609060364956544,
    lc0⟩)) (.leaf ⟨1250, 16, 2970, 911, 16, 3319, ⟨[[(383633529438208, 0), (0, 3872265094761858), (55088500053, 0),
    (1009757, 0), (66, 0)], [(6246461766198567, 0), (0, 1567227730219), (37260547, 0), (1096, 0)], [(3537901462015,
    0), (0, 475453744), (0, 14918), (0, 1)], [(2823224610, 0), (0, 188370), (0, 9)]], 3, 4⟩, ⟨[[(0,
    13599085968138240), (0, 2643373362681865), (0, 7809879773), (0, 1868171), (0, 98)], [(0, 21422797545632107),
    (234340218916, 0), (27801068, 0), (1811, 0)], [(3234595282940, 0), (0, 2809691), (752, 0)], [(0, 1051617668), (0,
    113182), (0, 11)]], 3, 4⟩, 72057594037927936, 227927773679, 77325972871, ⟨[[(16570890439039, 0), (15360048807,
    0), (8067661, 0), (0, 21571), (0, 142)], [(0, 10518709469), (0, 25659611), (0, 340), (163, 0), (1, 0)],
    [(16659999, 0), (41786, 0), (0, 43), (0, 1)], [(0, 30973), (0, 62)]], 3, 4⟩, 17592186044416, 7147417,
    15316479203324615335766561432431785148139466410616882075238910069236771699143349935869081227347064305217721529065909420019269603,
    lc0⟩))) (.sy (.sx (.leaf ⟨1221, 16, 2830, 923, 16, 3342, ⟨[[(0, 2033496678318080), (0, 3806713817656414),
    (52541941184, 0), (877539, 0), (60, 0)], [(7027494462214738, 0), (0, 1566069164021), (32953524, 0), (807, 0)],
    [(3956082309400, 0), (0, 460754238), (0, 13361), (0, 1)], [(2953070008, 0), (0, 163365), (0, 7)]], 3, 4⟩,
    ⟨[[(5931460213211136, 0), (0, 2646396742556400), (0, 4110188684), (0, 1621325), (0, 87)], [(0,
    21414377373485285), (208363883155, 0), (25366987, 0), (1663, 0)], [(3135388584928, 0), (0, 16190634), (0, 753)],
    [(0, 951090409), (0, 98816), (0, 10)]], 3, 4⟩, 72057594037927936, 222896294935, 76496194564, ⟨[[(16338771790758,
    0), (14581414954, 0), (7602759, 0), (0, 19269), (0, 125)], [(0, 10167635201), (0, 24211105), (0, 307), (156, 0),
    (1, 0)], [(15710106, 0), (39213, 0), (0, 44), (0, 1)], [(0, 28680), (0, 61)]], 3, 4⟩, 17592186044416, 6699422,
    14868814616115489516337384668598378871734186710463408255558482906671283154742253137395426033914656276413189168396925843257290837,
    lc0⟩) (.leaf ⟨1199, 16, 2770, 917, 16, 3365, ⟨[[(13872191208390656, 0), (0, 3791193727475317), (52759126706, 0),
    (889943, 0), (61, 0)], [(7219378933943782, 0), (0, 1571581313510), (31122049, 0), (686, 0)], [(4247726090880, 0),
    (0, 470631638), (0, 13873), (0, 1)], [(3071786278, 0), (0, 151847), (0, 6)]], 3, 4⟩, ⟨[[(0, 4053728714260480),
    (0, 2655834055967194), (0, 3067780374), (0, 1562078), (0, 84)], [(0, 21301539742842974), (207910451321, 0),
    (25427153, 0), (1677, 0)], [(3039748298325, 0), (0, 28533326), (0, 1956)], [(0, 902795710), (0, 94590), (0, 9)]],
    3, 4⟩, 72057594037927936, 230460527706, 78124205883, ⟨[[(16122107332682, 0), (14194117210, 0), (8076428, 0), (0,
    13218), (0, 88)], [(0, 9962552908), (0, 24174175), (0, 5507), (112, 0), (1, 0)], [(15548160, 0), (40759, 0), (0,
    26)], [(0, 28867), (0, 66)]], 3, 4⟩, 17592186044416, 6965317,
    15383014761467707877429925168614095992699430354209189689730145884652178081383093204796370590157012273960943433776872759385648781,
    lc0⟩)) (.sx (.leaf ⟨1228, 16, 2908, 905, 16, 3344, ⟨[[(0, 31454636378456064), (0, 3856714097363171),
    (55444347595, 0), (1031435, 0), (67, 0)], [(6421992461764968, 0), (0, 1574576257558), (35208741, 0), (962, 0)],
    [(3823823378889, 0), (0, 488214775), (0, 15703), (0, 1)], [(2948308088, 0), (0, 175539), (0, 8)]], 3, 4⟩,
    ⟨[[(12240241402830848, 0), (0, 2653381208240208), (0, 6691750722), (0, 1805345), (0, 95)], [(0,
    21315919223489935), (235272584888, 0), (28015712, 0), (1836, 0)], [(3128952876800, 0), (0, 16893663), (0, 624)],
    [(0, 1003818782), (0, 109108), (0, 11)]], 3, 4⟩, 72057594037927936, 237229293897, 79047610366,
    ⟨[[(16333825652007, 0), (14925968537, 0), (8613813, 0), (0, 14518), (0, 98)], [(0, 10272703856), (0, 25571435),
    (0, 5890), (114, 0), (1, 0)], [(16426966, 0), (43314, 0), (0, 25)], [(0, 31115), (0, 68)]], 3, 4⟩,
    17592186044416, 7220441,
    15059193693344259211715299835384339895794754031885103686143068294102713355209891977211074479099023334350145575918760966140906213,
    lc0⟩) (.leaf ⟨1205, 16, 2846, 899, 16, 3368, ⟨[[(10751556033626112, 0), (0, 3840064681552467), (55681807536, 0),
    (1046579, 0), (69, 0)], [(6615027045345705, 0), (0, 1582034055539), (33127038, 0), (826, 0)], [(4117770868365,
    0), (0, 498866981), (0, 16299), (0, 1)], [(3076179695, 0), (0, 162402), (0, 7)]], 3, 4⟩, ⟨[[(16494501273460736,
    0), (0, 2662510304202643), (0, 5556572243), (0, 1740517), (0, 92)], [(0, 21209435401228928), (234959689598, 0),
    (28107707, 0), (1853, 0)], [(3027628243184, 0), (0, 30525372), (0, 1958)], [(0, 953548237), (0, 104492), (0,
    10)]], 3, 4⟩, 72057594037927936, 243838923857, 81005159946, ⟨[[(16117802041267, 0), (14519981004, 0), (8912636,
    0), (0, 9843), (0, 68)], [(0, 10068903638), (0, 25459390), (0, 9676), (81, 0)], [(16281827, 0), (44700, 0), (0,
    14)], [(0, 31464), (0, 73)]], 3, 4⟩, 17592186044416, 7338718,
    13903716514660540984211969027291347733999890702292624803947369698411873115263139620900041313342061528192643372411307464556370391,
    lc0⟩)))
theorem c22 : checkR job con0 true ⟨7, 9, 7, 9, 13, 17⟩ 1 9016 t22 759 21 640 61741 251 64000 = true := by decide +kernel

def t23 : CTree :=
  .sy (.sx (.sx (.sy (.sx (.leaf ⟨1167, 16, 2570, 945, 16, 3377, ⟨[[(12685770953310208, 0), (0, 3677819775745931),
    (47914986974, 0), (633188, 0), (49, 0)], [(8573558289942094, 0), (0, 1549841311764), (26424584, 0), (362, 0)],
    [(4754523436332, 0), (0, 430349298), (0, 10075), (0, 1)], [(3156603403, 0), (0, 125299), (0, 3)]], 3, 4⟩, ⟨[[(0,
    11949315473637376), (0, 2656772546109482), (2033437613, 0), (0, 1197361), (0, 68)], [(0, 21308636884166565),
    (159695975813, 0), (20724149, 0), (1371, 0)], [(2977336425355, 0), (0, 34292169), (0, 2848)], [(0, 768239517),
    (0, 73776), (0, 7)]], 3, 4⟩, 72057594037927936, 212619120927, 71276078401, ⟨[[(15907085604900, 0), (13213852121,
    0), (6798658, 0), (0, 15127), (0, 96)], [(0, 9580732733), (0, 21716196), (0, 560), (137, 0), (1, 0)], [(14159758,
    0), (34186, 0), (0, 47), (0, 1)], [(0, 24671), (0, 53)]], 3, 4⟩, 17592186044416, 6130183,
    12974616324851704730002138185645498344428950924934626573320671380497421909624729683921622111821371136842539411844917168088885725,
    lc0⟩) (.leaf ⟨1146, 16, 2512, 938, 16, 3398, ⟨[[(0, 11776989064527872), (0, 3659193660056800), (47900830745, 0),
    (631948, 0), (50, 0)], [(8787067833366302, 0), (0, 1550834935454), (24985604, 0), (267, 0)], [(5046874806722, 0),
    (0, 435672181), (0, 10198), (0, 1)], [(3259618450, 0), (0, 116128), (0, 2)]], 3, 4⟩, ⟨[[(20527520162152448, 0),
    (0, 2666611128290511), (2916334117, 0), (0, 1147064), (0, 66)], [(0, 21193493097897722), (157405760542, 0),
    (20575353, 0), (1369, 0)], [(2901726760519, 0), (0, 43571582), (0, 3735)], [(0, 720940157), (0, 69636), (0, 7)]],
    3, 4⟩, 72057594037927936, 216140332469, 73542485269, ⟨[[(15688739217072, 0), (12836221688, 0), (7174987, 0), (0,
    10105), (0, 68)], [(0, 9366918213), (0, 21618469), (0, 5468), (98, 0), (1, 0)], [(13953851, 0), (35602, 0), (0,
    27)], [(0, 24623), (0, 58)]], 3, 4⟩, 17592186044416, 6298306,
    14114299616705965443268517678173069030379884307528745151460468494708189828500712304287600826728754761184183560550585929777500078,
    lc0⟩)) (.sx (.leaf ⟨1172, 16, 2638, 928, 16, 3383, ⟨[[(0, 4921429936603136), (0, 3725234627365787), (50240586003,
    0), (756434, 0), (55, 0)], [(8008686103203083, 0), (0, 1563314880315), (27745858, 0), (456, 0)], [(4655828869033,
    0), (0, 452947469), (0, 12017), (0, 1)], [(3174671565, 0), (0, 132243), (0, 4)]], 3, 4⟩, ⟨[[(0,
    1718635702157312), (0, 2660389891470695), (124156753, 0), (0, 1343009), (0, 75)], [(0, 21260776525070415),
    (181898399607, 0), (22938899, 0), (1521, 0)], [(2964651257035, 0), (0, 37282093), (0, 2981)], [(0, 808560571),
    (0, 81433), (0, 8)]], 3, 4⟩, 72057594037927936, 223983126771, 75428516436, ⟨[[(15903491219723, 0), (13490129477,
    0), (7598219, 0), (0, 11671), (0, 78)], [(0, 9650749674), (0, 22828132), (0, 5375), (106, 0), (1, 0)],
    [(14695424, 0), (38071, 0), (0, 27)], [(0, 26616), (0, 63)]], 3, 4⟩, 17592186044416, 6566980,
    15028474716566608221673577891941751532812698154749149809584951603891563113035796333007882836541263506265322970695682013433635324,
    lc0⟩) (.leaf ⟨1150, 16, 2578, 922, 16, 3405, ⟨[[(0, 3376223722143744), (0, 3705462120232609), (50215730952, 0),
    (755919, 0), (56, 0)], [(8225463244297816, 0), (0, 1565611277378), (26109910, 0), (349, 0)], [(4952245203434, 0),
    (0, 458466179), (0, 12163), (0, 1)], [(3284785519, 0), (0, 121831), (0, 3)]], 3, 4⟩, ⟨[[(0, 28080504173887488),
    (0, 2670073441086257), (1088789620, 0), (0, 1287628), (0, 72)], [(0, 21152598035025435), (179504361364, 0),
    (22794767, 0), (1521, 0)], [(2884824043031, 0), (0, 47533918), (0, 3973)], [(0, 759203198), (0, 76876), (0, 7)]],
    3, 4⟩, 72057594037927936, 227208947519, 76252424562, ⟨[[(15698924329705, 0), (13111554521, 0), (7812061, 0), (0,
    7880), (0, 56)], [(0, 9459952617), (0, 22666612), (0, 8901), (77, 0)], [(14527610, 0), (39159, 0), (0, 14)], [(0,
    26685), (0, 67)]], 3, 4⟩, 17592186044416, 6470657,
    14692006515809316907393994872983747922271529260943888782701169430535850743281613033746483519479715942596163622663293293250547351,
    lc0⟩))) (.sy (.leaf ⟨939, 16, 2045, 663, 16, 2450, ⟨[[(22106490168647680, 0), (0, 3059891382991438),
    (40243787456, 0), (524719, 0), (42, 0)], [(15407290040852773, 0), (0, 2616611898204), (38551202, 0), (215, 0)],
    [(18524595183770, 0), (0, 1487124578), (0, 34280), (0, 4)], [(23024088164, 0), (0, 691054), (0, 7)]], 3, 4⟩,
    ⟨[[(19346801754226688, 0), (0, 1915646540523873), (3025462929, 0), (0, 765355), (0, 44)], [(0,
    30046239810193274), (217911544233, 0), (28881008, 0), (1939, 0)], [(7997206972104, 0), (0, 161661114), (0,
    14213), (0, 1)], [(0, 3703655639), (0, 359845), (0, 34)]], 3, 4⟩, 72057594037927936, 2924162632145, 739102488659,
    ⟨[[(15388348428397, 0), (17206362579, 0), (14502770, 0), (0, 14786), (0, 156)], [(0, 10780786375), (0, 35438119),
    (0, 23581), (196, 0), (2, 0)], [(19283834, 0), (73026, 0), (0, 21), (0, 1)], [(0, 41157), (0, 150)]], 3, 4⟩,
    17592186044416, 12500686,
    15189817175394840245639796843383374322261085331619091666292037791881826613637632605265170637983743842091367288569912777420777422,
    lc0⟩) (.leaf ⟨950, 16, 2117, 652, 16, 2456, ⟨[[(32909107586179072, 0), (0, 3125362926850883), (42546736853, 0),
    (634884, 0), (48, 0)], [(14600049513153216, 0), (0, 2668475960909), (40318368, 0), (324, 0)], [(18394566922107,
    0), (0, 1577975813), (0, 41278), (0, 4)], [(23473567087, 0), (0, 723758), (0, 9)]], 3, 4⟩, ⟨[[(0,
    34319540048191488), (0, 1917895850817251), (1808478417, 0), (0, 860179), (0, 48)], [(0, 30002614482223610),
    (249035055666, 0), (32037608, 0), (2157, 0)], [(7931760408864, 0), (0, 176892734), (0, 15316), (0, 1)], [(0,
    3902805288), (0, 397246), (0, 38)]], 3, 4⟩, 72057594037927936, 3086475211859, 779675794521, ⟨[[(15403050426280,
    0), (17567724770, 0), (15490745, 0), (0, 11334), (0, 128)], [(0, 10798332227), (0, 36716094), (0, 28809), (156,
    0), (1, 0)], [(19733128, 0), (78109, 0), (2, 0), (0, 1)], [(0, 43507), (0, 166)]], 3, 4⟩, 17592186044416,
    12757531,
    13974660673364378137925908659359102667551591115891568979692428222439173684996970237618237546622589356865089286821239114059509196,
    lc0⟩))) (.sy (.leaf ⟨648, 16, 1389, 415, 16, 1595, ⟨[[(0, 7730893439238144), (0, 2194419395814893), (28890991584,
    0), (355899, 0), (30, 0)], [(24493423212441518, 0), (0, 3819483250546), (46474915, 0), (0, 326)],
    [(63135404855088, 0), (0, 4360145547), (0, 92570), (0, 10)], [(146282587501, 0), (0, 3008809), (51, 0)]], 3, 4⟩,
    ⟨[[(0, 1563804770590720), (0, 1238660263997711), (3112226259, 0), (0, 420889), (0, 25)], [(0, 37862123292247278),
    (252079592081, 0), (34786949, 0), (2375, 0)], [(19227719781249, 0), (0, 576542887), (0, 51681), (0, 3)], [(0,
    14523485948), (0, 1414681), (0, 131)]], 3, 4⟩, 72057594037927936, 35186356144639, 7593224351892,
    ⟨[[(14813586504549, 0), (24501201885, 0), (34587077, 0), (0, 9552), (0, 333)], [(0, 13830573694), (0, 72043460),
    (0, 114083), (399, 0), (5, 0)], [(34362929, 0), (219435, 0), (179, 0), (0, 3)], [(0, 103299), (0, 675)]], 3, 4⟩,
    17592186044416, 51124566,
    13130306882632033352679099141112807105395353099173015021913692766414412384159253233522778361186031814981581365161394367124521203,
    lc0⟩) (.leaf ⟨661, 16, 1452, 408, 16, 1600, ⟨[[(29106273669324800, 0), (0, 2263330519202617), (30810828808, 0),
    (438333, 0), (35, 0)], [(23612212270991162, 0), (0, 3944183023310), (48125888, 0), (0, 264)], [(63685206754369,
    0), (0, 4663109697), (0, 113055), (0, 11)], [(151352023334, 0), (0, 3091160), (55, 0)]], 3, 4⟩, ⟨[[(0,
    26447861865156608), (0, 1239740736663379), (2447593632, 0), (0, 474176), (0, 27)], [(0, 37844769086510513),
    (289772679966, 0), (38682644, 0), (2650, 0)], [(18984220937398, 0), (0, 632669359), (0, 56417), (0, 3)], [(0,
    15315966534), (0, 1559565), (0, 148)]], 3, 4⟩, 72057594037927936, 37479168666941, 8022562792607,
    ⟨[[(14829252400970, 0), (25003824163, 0), (36454167, 0), (0, 5347), (0, 273)], [(0, 13718799601), (0, 73797364),
    (0, 123660), (337, 0), (4, 0)], [(34490676, 0), (229062, 0), (223, 0), (0, 3)], [(0, 106377), (0, 722)]], 3, 4⟩,
    17592186044416, 52287764,
    12848973488584629758281575452402527686257400314411340663063599092656464522734404616428370023954817949820403576857026796922187810,
    lc0⟩))) (.sx (.sy (.sx (.sx (.leaf ⟨1177, 16, 2709, 911, 16, 3388, ⟨[[(317739887919104, 0), (0,
    3773080951500126), (52851291418, 0), (896300, 0), (62, 0)], [(7425570950838319, 0), (0, 1576406241550),
    (29268926, 0), (564, 0)], [(4544374145574, 0), (0, 478455223), (0, 14215), (0, 1)], [(3190887271, 0), (0,
    140112), (0, 5)]], 3, 4⟩, ⟨[[(0, 15543735135019008), (0, 2665252571532573), (0, 2017664392), (0, 1501882), (0,
    82)], [(0, 21194764587185112), (206423540641, 0), (25387058, 0), (1685, 0)], [(2949526623863, 0), (0, 40398559),
    (0, 3113)], [(0, 852765552), (0, 89951), (0, 9)]], 3, 4⟩, 72057594037927936, 235770191401, 80124640200,
    ⟨[[(15907142311366, 0), (13790532385, 0), (8332480, 0), (0, 8916), (0, 62)], [(0, 9749874364), (0, 23995495), (0,
    9242), (81, 0)], [(15344462, 0), (41877, 0), (0, 13)], [(0, 28936), (0, 71)]], 3, 4⟩, 17592186044416, 6927370,
    14733394079416883574770206929204181289193177344264472722094984012548811210412894482428930644425288936414978526186541725865879020,
    lc0⟩) (.leaf ⟨1155, 16, 2648, 905, 16, 3411, ⟨[[(0, 11252986870677504), (0, 3753673649230543), (52838001007, 0),
    (897012, 0), (63, 0)], [(7648336940413585, 0), (0, 1580904442982), (27420770, 0), (443, 0)], [(4847008839596, 0),
    (0, 484398736), (0, 14395), (0, 1)], [(3310376552, 0), (0, 128331), (0, 3)]], 3, 4⟩, ⟨[[(0, 28712842303447040),
    (0, 2674695789542903), (0, 964043076), (0, 1441023), (0, 79)], [(0, 21093649106755154), (203938904735, 0),
    (25250104, 0), (1686, 0)], [(2864980615418, 0), (0, 51732367), (0, 4219)], [(0, 801154978), (0, 84940), (0, 8)]],
    3, 4⟩, 72057594037927936, 240716344288, 82039922541, ⟨[[(15698206606564, 0), (13385990141, 0), (8436988, 0), (0,
    5899), (0, 44)], [(0, 9540865289), (0, 23733250), (0, 11935), (59, 0)], [(15129070, 0), (42723, 0), (0, 4)], [(0,
    28954), (0, 75)]], 3, 4⟩, 17592186044416, 6632796,
    13613054567538154236374433188023646191381251403230800561021476323787523454201828955431908296460209826447947026102706244850892586,
    lc0⟩)) (.leaf ⟨963, 16, 2195, 640, 16, 2463, ⟨[[(4023503321956352, 0), (0, 3195701545520385), (45182865791, 0),
    (762278, 0), (54, 0)], [(13759632130645684, 0), (0, 2724541359092), (42395816, 0), (453, 0)], [(18239652340076,
    0), (0, 1682332676), (0, 49363), (0, 5)], [(23959131041, 0), (0, 761134), (0, 12)]], 3, 4⟩, ⟨[[(0,
    1004183356276736), (0, 1922218533284179), (438978612, 0), (0, 964399), (0, 53)], [(0, 29954377486047000),
    (283694910570, 0), (35559007, 0), (2395, 0)], [(7861349386505, 0), (0, 193382226), (0, 16496), (0, 1)], [(0,
    4123999453), (0, 439308), (0, 43)]], 3, 4⟩, 72057594037927936, 3275201753201, 822616737038, ⟨[[(15390587160680,
    0), (17880596345, 0), (16474368, 0), (0, 7984), (0, 98)], [(0, 10752199703), (0, 37873026), (0, 33666), (120, 0),
    (1, 0)], [(20069133, 0), (82934, 0), (18, 0), (0, 1)], [(0, 45713), (0, 180)]], 3, 4⟩, 17592186044416, 13571916,
    13943563467271131617094047529955869729444107992117501625082678972330633274535931256431044369032723351064858599563047336692256112,
    lc0⟩)) (.sx (.leaf ⟨1024, 16, 2407, 636, 16, 2430, ⟨[[(24896878371930112, 0), (0, 3333730954421186),
    (48801830067, 0), (924271, 0), (61, 0)], [(12130878978433912, 0), (0, 2785499414938), (52436088, 0), (1084, 0)],
    [(15993595842011, 0), (0, 1786712436), (0, 58892), (0, 5)], [(22877189138, 0), (0, 996129), (0, 33)]], 3, 4⟩,
    ⟨[[(0, 33908377648611328), (0, 1910417653391613), (0, 2738860627), (0, 1171649), (0, 62)], [(0,
    30070470557447656), (331749081024, 0), (40030922, 0), (2663, 0)], [(8241564225248, 0), (0, 142724809), (0,
    11043)], [(0, 4994007069), (0, 552292), (0, 55)]], 3, 4⟩, 72057594037927936, 3399780255724, 840786174901,
    ⟨[[(15811536224412, 0), (19483741602, 0), (17758117, 0), (0, 15069), (0, 156)], [(0, 11174871665), (0, 40223081),
    (0, 30007), (165, 0), (1, 0)], [(20952691, 0), (84684, 0), (0, 7), (0, 1)], [(0, 47565), (0, 169)]], 3, 4⟩,
    17592186044416, 13905050,
    14344701068567529218946658559170932719127663868388695698075693240578626824640953642987666416730712871864241757019839957160697356,
    lc0⟩) (.leaf ⟨976, 16, 2277, 628, 16, 2469, ⟨[[(7468189091831808, 0), (0, 3267400230937657), (48149147620, 0),
    (908667, 0), (61, 0)], [(12865991425190379, 0), (0, 2781780185569), (44786439, 0), (604, 0)], [(18031446532080,
    0), (0, 1800270470), (0, 58642), (0, 5)], [(24454533587, 0), (0, 803112), (0, 15)]], 3, 4⟩, ⟨[[(8708430076510208,
    0), (0, 1927217619421591), (0, 1098302454), (0, 1077745), (0, 58)], [(0, 29875291745886494), (322052161756, 0),
    (39450183, 0), (2655, 0)], [(7778918279676, 0), (0, 211057980), (0, 17749), (0, 1)], [(0, 4366393961), (0,
    486137), (0, 48)]], 3, 4⟩, 72057594037927936, 3480977405175, 872083862587, ⟨[[(15388493370998, 0), (18246702249,
    0), (17472453, 0), (0, 5737), (0, 74)], [(0, 10752882803), (0, 39263884), (0, 37549), (97, 0), (1, 0)],
    [(20609758, 0), (88501, 0), (24, 0)], [(0, 48716), (0, 195)]], 3, 4⟩, 17592186044416, 14636126,
    12766568099823238134866136788815367115458961032334468883473226043137327609766276450976463265691759252632853348287302985821119174,
    lc0⟩))) (.sy (.leaf ⟨676, 16, 1520, 401, 16, 1606, ⟨[[(0, 998756053786624), (0, 2336578306928211), (33001193382,
    0), (534895, 0), (40, 0)], [(22657975846397745, 0), (0, 4078502250315), (50030979, 0), (0, 185)],
    [(64185840262295, 0), (0, 5009563754), (0, 137060), (0, 13)], [(156830205825, 0), (0, 3177977), (58, 0)]], 3, 4⟩,
    ⟨[[(0, 36022276053110784), (0, 1242297041284812), (1697699285, 0), (0, 532929), (0, 30)], [(0,
    37830545412894574), (331924921895, 0), (43049419, 0), (2951, 0)], [(18721942958119, 0), (0, 694345205), (0,
    61566), (0, 3)], [(0, 16198253507), (0, 1723906), (0, 167)]], 3, 4⟩, 72057594037927936, 40048227700466,
    8507496733739, ⟨[[(14827024249958, 0), (25435005987, 0), (38260631, 0), (0, 1884), (0, 218)], [(0, 13534679347),
    (0, 75202702), (0, 132280), (294, 0), (2, 0)], [(34381354, 0), (237510, 0), (251, 0), (0, 2)], [(0, 108661), (0,
    764)]], 3, 4⟩, 17592186044416, 51581270,
    12502523509400511600620860993675904130191773339005260305299973704183612016934680626878873692146221056409104034784337786117303158,
    lc0⟩) (.leaf ⟨692, 16, 1595, 393, 16, 1612, ⟨[[(27492207184551936, 0), (0, 2416656088396535), (35539603770, 0),
    (648596, 0), (45, 0)], [(21640745469034734, 0), (0, 4227154176539), (52288755, 0), (0, 84)], [(64676007886323,
    0), (0, 5411781064), (0, 165337), (0, 15)], [(162909881437, 0), (0, 3273374), (61, 0)]], 3, 4⟩,
    ⟨[[(22652518885814272, 0), (0, 1245647155786770), (852243482, 0), (0, 597142), (0, 32)], [(0, 37793357440671726),
    (378865958903, 0), (47907397, 0), (3280, 0)], [(18426011523455, 0), (0, 761629023), (0, 67135), (0, 4)], [(0,
    17171329662), (0, 1908712), (0, 188)]], 3, 4⟩, 72057594037927936, 42987565773787, 9040627487060,
    ⟨[[(14811331250571, 0), (25882736041, 0), (40302048, 0), (639, 0), (0, 172)], [(0, 13331359067), (0, 76888392),
    (0, 141592), (280, 0), (2, 0)], [(34372220, 0), (248437, 0), (269, 0), (0, 2)], [(0, 111971), (0, 819), (1, 0)]],
    3, 4⟩, 17592186044416, 53462217,
    11261897629032007075639915156018596383741418424101425697976590549499859768238295435940596819435875215671708063105048440799005857,
    lc0⟩)))
theorem c23 : checkR job con0 true ⟨7, 9, 7, 9, 13, 17⟩ 1 9016 t23 411 21 320 30745 251 32000 = true := by decide +kernel

def t24 : CTree :=
  .sx (.sy (.out ⟨827, 16, 2958, 2245, 16, 2110, ⟨[[(0, 17258921168568320), (0, 3529017088246213), (48612973518, 0)],
    [(8939672860244638, 0), (0, 2720693557456), (87875925, 0)], [(7824552595387, 0), (0, 1466890980), (0, 38014)]],
    2, 2⟩, ⟨[[(0, 16357934482227200), (0, 1803439971733284), (0, 10979105601)], [(0, 30236068135849765),
    (334141656608, 0), (38564389, 0)], [(10499992812825, 0), (198382745, 0), (22676, 0)]], 2, 2⟩, 72057594037927936,
    170493434755317, 96293242860237, ⟨[], 0, 0⟩, 0, 0, 0, lc0⟩ 2 1 23841897612604) (.sx (.out ⟨918, 16, 3389, 3148,
    16, 2970, ⟨[[(0, 164668230631424), (0, 3955070542124620), (56155125993, 0)], [(4269335992070158, 0), (0,
    1488744269039), (53906680, 0)], [(1893636282964, 0), (0, 413863673), (0, 11165)]], 2, 2⟩, ⟨[[(10767685286199296,
    0), (0, 2561301108200079), (0, 19705486835)], [(0, 21313294988016683), (260268123567, 0), (29449848, 0)],
    [(3816913738138, 0), (87618511, 0), (9932, 0)]], 2, 2⟩, 72057594037927936, 38226884967966, 55011295377164, ⟨[],
    0, 0⟩, 0, 0, 0, lc0⟩ 2 1 18126040028871) (.sy (.out ⟨1667, 16, 6089, 4502, 16, 4258, ⟨[[(0, 34765843190595584),
    (0, 3622993144101831), (26037005244, 0)], [(8322147295389367, 0), (0, 1381825588438), (23393624, 0)],
    [(3992333088784, 0), (0, 400877625), (0, 5916)]], 2, 2⟩, ⟨[[(6586541367361536, 0), (0, 1824855159821889), (0,
    6281358744)], [(0, 30154096295035947), (185916311516, 0), (10572102, 0)], [(5218638419670, 0), (48116727, 0),
    (2828, 0)]], 2, 2⟩, 72057594037927936, 42913530707027, 24604325013803, ⟨[], 0, 0⟩, 0, 0, 0, lc0⟩ 2 1
    12073890374318) (.sx (.out ⟨1825, 16, 6774, 6320, 16, 5988, ⟨[[(0, 15253621251276800), (0, 3985459478901528),
    (29121738501, 0)], [(4203097661795958, 0), (0, 750669377757), (13482506, 0)], [(1019635784552, 0), (0,
    110948403), (0, 1674)]], 2, 2⟩, ⟨[[(0, 34244991701811200), (0, 2578520422011192), (0, 9942866372)], [(0,
    21213106173892245), (137592243488, 0), (7751365, 0)], [(1864714187638, 0), (19132947, 0), (1116, 0)]], 2, 2⟩,
    72057594037927936, 9894805806278, 13625460493190, ⟨[], 0, 0⟩, 0, 0, 0, lc0⟩ 2 1 9551788709088) (.sy (.out ⟨3346,
    16, 12358, 9016, 16, 8554, ⟨[[(21960043688394752, 0), (0, 3671116407611282), (13486730720, 0)],
    [(8003787884738985, 0), (0, 696448642497), (6036227, 0)], [(2012950076425, 0), (0, 104879452), (0, 820)]], 2, 2⟩,
    ⟨[[(28157201834967040, 0), (0, 1835885669022616), (0, 3348593225)], [(0, 30106972990277077), (97956466033, 0),
    (2766744, 0)], [(2600413507310, 0), (11796877, 0), (352, 0)]], 2, 2⟩, 72057594037927936, 10764218541327,
    6217422188438, ⟨[], 0, 0⟩, 0, 0, 0, lc0⟩ 2 1 6313499396387) (.leaf ⟨5050, 16, 12730, 2524, 16, 9163,
    ⟨[[(12865451986059264, 0), (0, 3767621957530886), (14000746291, 0), (72818, 0), (1, 0)], [(7886151066768357, 0),
    (0, 711122794729), (6313036, 0), (64, 0)], [(2019094344103, 0), (0, 108898020), (0, 871)], [(1044004017, 0), (0,
    33504), (0, 1)]], 3, 4⟩, ⟨[[(0, 12270292082851840), (0, 1876461388710126), (0, 3591453462), (0, 117829), (0, 1)],
    [(0, 30663813186300977), (102801776512, 0), (2890849, 0), (46, 0)], [(2659037102518, 0), (12401090, 0), (370,
    0)], [(0, 488071469), (0, 13798)]], 3, 4⟩, 72057594037927936, 45686536196, 12445565751, ⟨[[(17481781625319, 0),
    (6335701884, 0), (977979, 0), (0, 1885), (0, 5)], [(0, 3172350168), (0, 2756262), (322, 0), (3, 0)], [(1401421,
    0), (1092, 0), (0, 1)], [(0, 687)]], 3, 4⟩, 17592186044416, 130062,
    12410051781914047105536463563769657609478701322208475675552613044631202028804869763421361671080277833758462469961176478640683689,
    lc0⟩)))))) (.sy (.sx (.sy (.out ⟨1624, 16, 5739, 4551, 16, 4297, ⟨[[(6906877940006912, 0), (0, 3520495248569483),
    (24728289888, 0)], [(9542707219307144, 0), (0, 1377408872592), (20365715, 0)], [(4666973423956, 0), (0,
    394514936), (0, 5746)]], 2, 2⟩, ⟨[[(13621721125355520, 0), (0, 1823035783244063), (0, 4667926149)], [(0,
    30178993395610587), (170323147803, 0), (9885190, 0)], [(5000973626778, 0), (31550573, 0), (1947, 0)]], 2, 2⟩,
    72057594037927936, 44836281908613, 22378952931827, ⟨[], 0, 0⟩, 0, 0, 0, lc0⟩ 2 1 13179147635783) (.out ⟨1631, 16,
    5850, 4541, 16, 4299, ⟨[[(0, 29096912847536128), (0, 3563100447737995), (25565966165, 0)], [(9027722582894708,
    0), (0, 1382918614220), (21340287, 0)], [(4553853615915, 0), (0, 408220011), (0, 6246)]], 2, 2⟩, ⟨[[(0,
    29978070372384768), (0, 1828868679794359), (0, 5264004622)], [(0, 30104965247839384), (180574215406, 0),
    (10376645, 0)], [(5019649312071, 0), (33589406, 0), (2086, 0)]], 2, 2⟩, 72057594037927936, 44945869174514,
    23163440141300, ⟨[], 0, 0⟩, 0, 0, 0, lc0⟩ 2 1 8675861298693)) (.sy (.sx (.out ⟨1776, 16, 6259, 6443, 16, 6101,
    ⟨[[(0, 9088473557565440), (0, 3887234561476371), (27662083265, 0)], [(5371180272953502, 0), (0, 765002616678),
    (10897705, 0)], [(1387274484775, 0), (0, 112983838), (0, 1730)]], 2, 2⟩, ⟨[[(19452004858331136, 0), (0,
    2580738813093633), (0, 6182993981)], [(0, 21204393308715639), (122134192541, 0), (7095367, 0)], [(1718707761349,
    0), (8166657, 0), (543, 0)]], 2, 2⟩, 72057594037927936, 10070579468768, 11320153960161, ⟨[], 0, 0⟩, 0, 0, 0, lc0⟩
    2 1 6859692964310) (.leaf ⟨2606, 16, 6322, 1816, 16, 6560, ⟨[[(11679947473518592, 0), (0, 3959018478150845),
    (28399681171, 0), (270293, 0), (9, 0)], [(5546314131774103, 0), (0, 782439406832), (10856133, 0), (187, 0)],
    [(1481835889088, 0), (0, 117693274), (0, 1853)], [(650446672, 0), (0, 28093), (0, 1)]], 3, 4⟩,
    ⟨[[(27442072742395904, 0), (0, 2637492587607441), (0, 6025493799), (0, 534165), (0, 14)], [(0,
    21567716793261641), (125686129279, 0), (7308426, 0), (235, 0)], [(1722502237903, 0), (6328057, 0), (457, 0)],
    [(0, 294434842), (0, 16029), (0, 1)]], 3, 4⟩, 72057594037927936, 28979210447, 9935539996, ⟨[[(16978747992498, 0),
    (8180848440, 0), (1886024, 0), (0, 4150), (0, 14)], [(0, 5477470852), (0, 6623645), (855, 0), (14, 0)],
    [(4339704, 0), (5120, 0), (0, 4)], [(0, 3964), (0, 3)]], 3, 4⟩, 17592186044416, 499410,
    14357978448235594440650907670108147524813698282799327794714643110408446978644285372192335235831733373258553511170397997175891032,
    lc0⟩)) (.leaf ⟨2381, 16, 5840, 1279, 16, 4650, ⟨[[(0, 21788512558055424), (0, 3615728260039585), (26405512361,
    0), (261936, 0), (8, 0)], [(9417513502344122, 0), (0, 1415955966225), (20743681, 0), (373, 0)], [(5108555258337,
    0), (0, 435209174), (0, 7091)], [(4620137715, 0), (0, 215905), (0, 7)]], 3, 4⟩, ⟨[[(0, 4655098301448192), (0,
    1876124131629810), (0, 4970271358), (0, 402210), (0, 10)], [(0, 30587410627718894), (188404905504, 0), (10844577,
    0), (348, 0)], [(4947631492152, 0), (22314239, 0), (1549, 0)], [(0, 1735296265), (0, 96193), (0, 5)]], 3, 4⟩,
    72057594037927936, 381124794784, 90816387297, ⟨[[(17041121713679, 0), (11749735983, 0), (3993831, 0), (0, 11019),
    (0, 52)], [(0, 6120575989), (0, 10603112), (1247, 0), (41, 0)], [(5429068, 0), (9096, 0), (0, 8)], [(0, 5519),
    (0, 6)]], 3, 4⟩, 17592186044416, 1025284,
    12933274030807795106421023357781245842083634310651000785889342367484187780019155078200479303024176546027622323300808866242141377,
    lc0⟩))) (.sx (.sy (.sx (.sy (.out ⟨3303, 16, 11995, 9068, 16, 8595, ⟨[[(0, 12939739477409792), (0,
    3618428207789490), (13133480995, 0)], [(8631384882230930, 0), (0, 696161130301), (5621863, 0)], [(2187308919563,
    0), (0, 104005129), (0, 809)]], 2, 2⟩, ⟨[[(0, 26024872667119616), (0, 1834342007753252), (0, 2920175350)], [(0,
    30131252663212209), (93846327560, 0), (2676504, 0)], [(2543782203421, 0), (9582265, 0), (293, 0)]], 2, 2⟩,
    72057594037927936, 11039858647608, 5928954708480, ⟨[], 0, 0⟩, 0, 0, 0, lc0⟩ 2 1 7094220911147) (.out ⟨3310, 16,
    12113, 9056, 16, 8596, ⟨[[(0, 7069558058745856), (0, 3640658418802269), (13362991013, 0)], [(8364822358478513,
    0), (0, 697268076688), (5760476, 0)], [(2155894133162, 0), (0, 105861658), (0, 843)]], 2, 2⟩, ⟨[[(0,
    7009994062168064), (0, 1837568370339011), (0, 3082039452)], [(0, 30086962004587843), (96577254283, 0), (2741786,
    0)], [(2548963746171, 0), (9882725, 0), (303, 0)]], 2, 2⟩, 72057594037927936, 11042556844972, 6032425399681, ⟨[],
    0, 0⟩, 0, 0, 0, lc0⟩ 2 1 4632988651647)) (.leaf ⟨2669, 16, 6628, 1788, 16, 6501, ⟨[[(14237823754305536, 0), (0,
    4023910526061172), (29659670444, 0), (301596, 0), (9, 0)], [(4776476334653550, 0), (0, 776082844771), (12358031,
    0), (236, 0)], [(1269229896117, 0), (0, 119513840), (0, 1950)], [(606333281, 0), (0, 32453), (0, 1)]], 3, 4⟩,
    ⟨[[(33634542707310592, 0), (0, 2639102354526113), (0, 8316176160), (0, 607496), (0, 15)], [(0,
    21535684392777886), (138233732004, 0), (7872605, 0), (252, 0)], [(1793219455267, 0), (11735250, 0), (748, 0)],
    [(0, 321765749), (0, 18017), (0, 1)]], 3, 4⟩, 72057594037927936, 27410825883, 9629703652, ⟨[[(17224288243278, 0),
    (8631826967, 0), (2022544, 0), (0, 4482), (0, 15)], [(0, 5685537159), (0, 7028958), (786, 0), (14, 0)],
    [(4613647, 0), (5357, 0), (0, 4)], [(0, 4237), (0, 3)]], 3, 4⟩, 17592186044416, 483013,
    11236557505932872893117499918120898480822256965195166561190864396465562023135518939697415145523514695056639248095413544463982716,
    lc0⟩)) (.leaf ⟨2472, 16, 6206, 1259, 16, 4608, ⟨[[(0, 6491400345616384), (0, 3724648171167028), (27958653093, 0),
    (295016, 0), (9, 0)], [(8127418020188101, 0), (0, 1420289693572), (23987284, 0), (475, 0)], [(4389215139847, 0),
    (0, 447233934), (0, 7500)], [(4336673380, 0), (0, 253246), (0, 8)]], 3, 4⟩, ⟨[[(5668975622717440, 0), (0,
    1879056139160154), (0, 6682330842), (0, 456597), (0, 11)], [(0, 30536112469358171), (206662521604, 0), (11661167,
    0), (372, 0)], [(5160907803221, 0), (38864165, 0), (2433, 0)], [(0, 1895657597), (0, 107947), (0, 5)]], 3, 4⟩,
    72057594037927936, 382756525128, 89663111085, ⟨[[(17288636381986, 0), (12401732930, 0), (4293578, 0), (0, 11727),
    (0, 57)], [(0, 6276098576), (0, 11095220), (1073, 0), (39, 0)], [(5627111, 0), (9168, 0), (0, 8)], [(0, 5663),
    (0, 5)]], 3, 4⟩, 17592186044416, 1048711,
    10225087315237153402800126149924628344295562478046967908120973854218830494454865698144955379975685067043403014081979468283054641,
    lc0⟩)) (.leaf ⟨1312, 16, 3270, 884, 16, 3264, ⟨[[(0, 847505378705408), (0, 4004072398569172), (60529367932, 0),
    (1286050, 0), (77, 0)], [(4682832388505624, 0), (0, 1549958999141), (48437654, 0), (1831, 0)], [(2674621693513,
    0), (0, 499906479), (0, 17419), (0, 1)], [(2493791755, 0), (0, 253301), (0, 16)]], 3, 4⟩, ⟨[[(0,
    4379740446441472), (0, 2645329801595716), (0, 16605706823), (0, 2436312), (0, 121)], [(0, 21366383577911025),
    (288276307130, 0), (32739653, 0), (2102, 0)], [(3485352229885, 0), (34788281, 0), (4854, 0)], [(0, 1270830418),
    (0, 145376), (0, 14)]], 3, 4⟩, 72057594037927936, 233712779258, 82449855958, ⟨[[(17043789306443, 0),
    (17091507310, 0), (9244901, 0), (0, 25067), (0, 174)], [(0, 11312138148), (0, 28871316), (0, 1073), (157, 0), (1,
    0)], [(18848344, 0), (45925, 0), (0, 42)], [(0, 35786), (0, 53)]], 3, 4⟩, 17592186044416, 7847435,
    14344413731985665358441559012530318371070018887043200688209152929013724387820624395379092356210874680182276389139785147063416283,
    lc0⟩)))
theorem c24 : checkR job con0 true ⟨7, 9, 7, 9, 13, 17⟩ 1 9016 t24 717 21 640 62243 251 64000 = true := by decide +kernel

def t25 : CTree :=
  .sx (.sy (.sx (.leaf ⟨1281, 16, 3117, 898, 16, 3293, ⟨[[(0, 35840626939953152), (0, 3938539303564851),
    (57767705766, 0), (1146755, 0), (72, 0)], [(5464242088036723, 0), (0, 1562421840702), (42393539, 0), (1436, 0)],
    [(3109987436578, 0), (0, 488888510), (0, 16308), (0, 1)], [(2671334971, 0), (0, 218170), (0, 12)]], 3, 4⟩, ⟨[[(0,
    16506713233743872), (0, 2642878539990968), (0, 11966289344), (0, 2139621), (0, 109)], [(0, 21406488771923258),
    (261095797982, 0), (30271807, 0), (1958, 0)], [(3350526525141, 0), (14032367, 0), (2609, 0)], [(0, 1158289295),
    (0, 128732), (0, 13)]], 3, 4⟩, 72057594037927936, 232538225963, 80773561188, ⟨[[(16800350924257, 0),
    (16181638206, 0), (8612535, 0), (0, 23492), (0, 158)], [(0, 10879794047), (0, 27173237), (0, 698), (163, 0), (1,
    0)], [(17651125, 0), (44031, 0), (0, 41)], [(0, 33220), (0, 60)]], 3, 4⟩, 17592186044416, 7465076,
    15233183041081885163812357931840400940030898516802231878934711296860197596428616003356600609471600602789174818475884191065353545,
    lc0⟩) (.leaf ⟨1258, 16, 3054, 892, 16, 3319, ⟨[[(0, 13020103876116480), (0, 3924090583143208), (58315594261, 0),
    (1180238, 0), (74, 0)], [(5623932513935686, 0), (0, 1572193757707), (40132114, 0), (1290, 0)], [(3388496637908,
    0), (0, 505341527), (0, 17439), (0, 1)], [(2803282974, 0), (0, 204083), (0, 11)]], 3, 4⟩, ⟨[[(26310990927060992,
    0), (0, 2652677454470494), (0, 10775611650), (0, 2073141), (0, 106)], [(0, 21297918019975771), (263666951818, 0),
    (30665089, 0), (1995, 0)], [(3233398805469, 0), (0, 1906935), (1052, 0)], [(0, 1111331303), (0, 124921), (0,
    12)]], 3, 4⟩, 72057594037927936, 242043231728, 82383066899, ⟨[[(16560772447106, 0), (15743488983, 0), (9219635,
    0), (0, 15776), (0, 108)], [(0, 10642504609), (0, 27157107), (0, 6223), (112, 0), (1, 0)], [(17489261, 0),
    (45825, 0), (0, 26)], [(0, 33708), (0, 66)]], 3, 4⟩, 17592186044416, 7438970,
    13933444912235816091343470597514344166021741504361836937481929003637509667026818590392656496466286316034628755592746614323716773,
    lc0⟩)) (.leaf ⟨1158, 16, 2877, 624, 16, 2353, ⟨[[(3495456953073664, 0), (0, 3610561375558213), (55875329449, 0),
    (1227853, 0), (74, 0)], [(8887291756790819, 0), (0, 2843393759801), (81049605, 0), (2888, 0)], [(11166380281682,
    0), (0, 1922536736), (0, 71268), (0, 6)], [(19600236370, 0), (0, 1668556), (0, 98)]], 3, 4⟩, ⟨[[(0,
    7529350652207104), (0, 1893837898739410), (0, 10472703106), (0, 1659708), (0, 83)], [(0, 30193997012678132),
    (419496097794, 0), (47844202, 0), (3099, 0)], [(9380340651969, 0), (22944461, 0), (6395, 0), (1, 0)], [(0,
    6844697670), (0, 797632), (0, 79)]], 3, 4⟩, 72057594037927936, 3468231257141, 814807759391, ⟨[[(16687631812630,
    0), (23041174598, 0), (19809822, 0), (0, 39014), (0, 378)], [(0, 12085645848), (0, 44628729), (0, 17487), (275,
    0), (3, 0)], [(22686387, 0), (83255, 0), (0, 67), (0, 1)], [(0, 49475), (0, 119)]], 3, 4⟩, 17592186044416,
    15654936,
    13988368975511423026049112017769463961429298472177436536875303784586907719542088720656948811401067508832961462512343557096950647,
    lc0⟩)) (.sy (.leaf ⟨1089, 16, 2634, 630, 16, 2393, ⟨[[(17916910552383488, 0), (0, 3471631443590123),
    (52414423795, 0), (1082856, 0), (68, 0)], [(10497073215221707, 0), (0, 2825873874654), (65223383, 0), (1892, 0)],
    [(13614756643882, 0), (0, 1871268570), (0, 66687), (0, 6)], [(21424776442, 0), (0, 1296358), (0, 62)]], 3, 4⟩,
    ⟨[[(6890579870482432, 0), (0, 1900632317416395), (0, 6375491747), (0, 1403639), (0, 72)], [(0,
    30142714074053303), (377762052628, 0), (44203277, 0), (2902, 0)], [(8743023947011, 0), (0, 71398381), (0, 3467)],
    [(0, 5905961199), (0, 673065), (0, 67)]], 3, 4⟩, 72057594037927936, 3473783496013, 838784673084,
    ⟨[[(16230374559313, 0), (21179770780, 0), (18939243, 0), (0, 24554), (0, 239)], [(0, 11592176578), (0, 42465243),
    (0, 25042), (213, 0), (2, 0)], [(21782351, 0), (84995, 0), (0, 34), (0, 1)], [(0, 48787), (0, 149)]], 3, 4⟩,
    17592186044416, 14475977,
    14136605983769807874159467165738904904814392601356783521919366294199330923504786043695569343397912736374849959348378744340543338,
    lc0⟩) (.leaf ⟨1109, 16, 2741, 618, 16, 2398, ⟨[[(0, 34482430767824896), (0, 3557007909193137), (56350839143, 0),
    (1275287, 0), (77, 0)], [(9464638723773321, 0), (0, 2870963582941), (71054049, 0), (2260, 0)], [(13172055193887,
    0), (0, 2021433935), (0, 78436), (0, 6)], [(21600922120, 0), (0, 1418083), (0, 73)]], 3, 4⟩,
    ⟨[[(8544753354776576, 0), (0, 1912118648062970), (0, 8619430932), (0, 1557699), (0, 78)], [(0,
    30004122696009173), (425295138872, 0), (48893265, 0), (3202, 0)], [(8724521981038, 0), (0, 74899039), (0, 3194)],
    [(0, 6274276434), (0, 744952), (0, 74)]], 3, 4⟩, 72057594037927936, 3724483324709, 885900874930,
    ⟨[[(16221120482579, 0), (21640002643, 0), (20348085, 0), (0, 17963), (0, 166)], [(0, 11605160747), (0, 44070615),
    (0, 29238), (152, 0), (1, 0)], [(22442694, 0), (89570, 0), (0, 44)], [(0, 51791), (0, 151)]], 3, 4⟩,
    17592186044416, 14143730,
    11889262928070397424759512445074389005527938859344257769828548880748038678901153423863994992566857278075370145125537305632150852,
    lc0⟩))
theorem c25 : checkR job con0 true ⟨7, 9, 7, 9, 13, 17⟩ 1 9016 t25 759 21 640 62243 251 64000 = true := by decide +kernel

end PyX.Kron.V3a
