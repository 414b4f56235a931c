import Verif.Lemmas.S2aJob

/-!
# Temperature from pressure and entropy in subregion 2a, part C of the certificate
-/

namespace PyX.Kron.S2a

set_option Elab.async false

def t20 : CTree :=
  .sx (.sy (.sx (.sy (.leaf ⟨324, 16, 387, 384, 16, 189, ⟨[[(0, 125627793408)], [(415538085888, 0)]], 3, 4⟩, ⟨[[(0,
    370104365502), (0, 2444515132714), (16239381615, 0), (0, 151873704), (1409947, 0)], [(0, 226468673007), (0,
    104376842), (0, 1624040), (0, 15483), (0, 217)], [(125909909, 0), (0, 187496), (0, 3092), (0, 35), (0, 1)], [(0,
    105353), (0, 159), (0, 3)]], 3, 4⟩, 1099511627776, 0, 1066864333, ⟨[[(52299566653914, 0), (258392095204, 0),
    (504557516, 0), (45871, 0), (0, 113)], [(140762558995, 0), (520781034, 0), (254105, 0), (0, 1344), (1, 0)], [(0,
    73109830), (0, 708114), (0, 1283), (5, 0)], [(27798, 0), (944, 0), (6, 0)]], 3, 4⟩, 68719476736, 673702609,
    281797268191373562545604698537907249997029627268473479454847455642605538645097183914792178037, ⟨0, 0,
    -34149981459240, [223824166781, 130585862, 101584]⟩⟩) (.leaf ⟨324, 16, 387, 383, 16, 195, ⟨[[(0, 125627793408)],
    [(415538085888, 0)]], 3, 4⟩, ⟨[[(0, 440378408623), (0, 2336816847804), (14218771870, 0), (0, 126638285),
    (1069167, 0)], [(0, 234368383711), (0, 129736809), (0, 2018425), (0, 22523), (0, 326)], [(128622753, 0), (0,
    236264), (0, 3999), (0, 54), (0, 1)], [(0, 109812), (0, 210), (0, 4)]], 3, 4⟩, 1099511627776, 0, 1102183309,
    ⟨[[(49078493361950, 0), (237959676791, 0), (472298845, 0), (40851, 0), (201, 0)], [(134148890802, 0), (497833030,
    0), (284837, 0), (0, 1015), (0, 9)], [(0, 64271212), (0, 653838), (0, 1203), (0, 4)], [(16548, 0), (805, 0), (2,
    0)]], 3, 4⟩, 68719476736, 640836807,
    311415823345801105054924227778836336875621774867330921736721372840075786902481840193500236866, ⟨0, 0,
    -35234107854771, [230929695885, 134731445, 104809]⟩⟩)) (.sy (.leaf ⟨355, 16, 387, 385, 16, 198, ⟨[[(0,
    136365211648)], [(415538085888, 0)]], 3, 4⟩, ⟨[[(0, 6695308770), (0, 2571303397337), (16849481226, 0), (0,
    160718568), (1453676, 0)], [(0, 217662453799), (0, 145101390), (0, 2303968), (0, 23556), (0, 352)], [(108025643,
    0), (0, 240713), (0, 4146), (0, 53), (0, 1)], [(0, 85337), (0, 194), (0, 4)]], 3, 4⟩, 1099511627776, 0,
    776838149, ⟨[[(52213929814699, 0), (245333113124, 0), (465545973, 0), (5998, 0), (125, 0)], [(128460774668, 0),
    (450886449, 0), (224365, 0), (0, 981), (0, 3)], [(0, 60171865), (0, 566353), (0, 876), (1, 0)], [(20640, 0),
    (709, 0), (3, 0)]], 3, 4⟩, 68719476736, 574348765,
    415369256237093317844181744213547954199706564988627967050766251269469263108187152972288122136, ⟨0, 0,
    -17413716051296, [214005823849, 113954113, 80905]⟩⟩) (.leaf ⟨355, 16, 387, 385, 16, 205, ⟨[[(0, 136365211648)],
    [(415538085888, 0)]], 3, 4⟩, ⟨[[(0, 420689729229), (0, 2469634687543), (14742911554, 0), (0, 135513708),
    (1088514, 0)], [(0, 226350635808), (0, 181840217), (0, 2914932), (0, 35136), (0, 538)], [(110181547, 0), (0,
    307639), (0, 5530), (0, 84), (0, 1)], [(0, 89735), (0, 263), (0, 6)]], 3, 4⟩, 1099511627776, 0, 806528781,
    ⟨[[(49069147754037, 0), (225134491495, 0), (434322562, 0), (0, 10751), (552, 0)], [(122574129999, 0), (429347773,
    0), (239450, 0), (0, 512), (0, 11)], [(0, 52875090), (0, 525671), (0, 707), (0, 6)], [(11740, 0), (634, 0), (1,
    0)]], 3, 4⟩, 68719476736, 543350033,
    359586185237886429277543626495247528522617856475276036191255223731757045484260422130487988312, ⟨0, 0,
    -18029352477352, [221571686308, 117982794, 83765]⟩⟩))) (.sx (.sy (.leaf ⟨324, 16, 387, 380, 16, 200, ⟨[[(0,
    125627793408)], [(415538085888, 0)]], 3, 4⟩, ⟨[[(0, 237495947405), (0, 2234884547066), (12459459095, 0), (0,
    107285239), (800565, 0)], [(0, 241256189906), (0, 160715063), (0, 2566926), (0, 32609), (0, 463)], [(130305821,
    0), (0, 298452), (0, 5333), (0, 83), (0, 1)], [(0, 114103), (0, 281), (0, 7)]], 3, 4⟩, 1099511627776, 0,
    1133459846, ⟨[[(46177721888640, 0), (220514472533, 0), (447874309, 0), (14336, 0), (796, 0)], [(127972196612, 0),
    (478067962, 0), (296052, 0), (0, 307), (0, 16)], [(0, 56274524), (0, 611146), (0, 875), (0, 10)], [(6720, 0),
    (759, 0)]], 3, 4⟩, 68719476736, 671770540,
    385962724681835829732589551424002383386341794505944104273998963708574790506157868107870660199, ⟨0, 0,
    -36137546517714, [236850970138, 138186097, 107496]⟩⟩) (.leaf ⟨324, 16, 387, 377, 16, 205, ⟨[[(0, 125627793408)],
    [(415538085888, 0)]], 3, 4⟩, ⟨[[(192921247380, 0), (0, 2148726803644), (10951007613, 0), (0, 93173410), (588863,
    0)], [(0, 248378585340), (0, 200358553), (0, 3346217), (0, 46674), (0, 635)], [(131511048, 0), (0, 381917), (0,
    7315), (0, 123), (0, 2)], [(0, 118956), (0, 385), (0, 10)]], 3, 4⟩, 1099511627776, 0, 1167345345,
    ⟨[[(43555124480855, 0), (204477905999, 0), (426704786, 0), (0, 42067), (1536, 0)], [(122186308180, 0),
    (459351866, 0), (277484, 0), (543, 0), (0, 18)], [(0, 48932523), (0, 580097), (0, 447), (0, 11)], [(0, 2623),
    (759, 0), (0, 1)]], 3, 4⟩, 68719476736, 692658330,
    382758834709176483986864596111361533701423087451586340055222194341337590478054490665522773707, ⟨0, 0,
    -37040985180657, [242772244392, 141640749, 110183]⟩⟩)) (.sy (.leaf ⟨355, 16, 387, 381, 16, 210, ⟨[[(0,
    136365211648)], [(415538085888, 0)]], 3, 4⟩, ⟨[[(0, 372381351574), (0, 2362744563984), (12819664403, 0), (0,
    116127659), (789861, 0)], [(0, 233105073794), (0, 226515662), (0, 3768002), (0, 51782), (0, 773)], [(110753338,
    0), (0, 393888), (0, 7591), (0, 130), (0, 2)], [(0, 93803), (0, 363), (0, 10)]], 3, 4⟩, 1099511627776, 0,
    831121576, ⟨[[(46200571814324, 0), (208678331600, 0), (415062754, 0), (0, 55159), (1241, 0)], [(117003629386, 0),
    (412871252, 0), (234094, 0), (234, 0), (0, 16)], [(0, 46108838), (0, 498830), (0, 370), (0, 9)], [(3455, 0),
    (626, 0), (0, 1)]], 3, 4⟩, 68719476736, 593822091,
    236397106348831750152532152746302012099010654785984051698668586403900970369124976846651470644, ⟨0, 0,
    -18469092781678, [226975873779, 120860423, 85808]⟩⟩) (.leaf ⟨355, 16, 387, 377, 16, 215, ⟨[[(0, 136365211648)],
    [(415538085888, 0)]], 3, 4⟩, ⟨[[(0, 75271658124), (0, 2273703654787), (11139630064, 0), (0, 102734768), (547683,
    0)], [(0, 240198070292), (0, 284667653), (0, 5002049), (0, 75249), (0, 1070)], [(110659051, 0), (0, 513025), (0,
    10711), (0, 197), (0, 3)], [(0, 98673), (0, 517), (0, 15)]], 3, 4⟩, 1099511627776, 0, 859565797,
    ⟨[[(43604094302522, 0), (193434953155, 0), (399442990, 0), (0, 132872), (2017, 0)], [(111769553923, 0),
    (397677634, 0), (199181, 0), (1022, 0), (0, 15)], [(0, 39780458), (0, 482595), (0, 1), (0, 9)], [(0, 4723), (641,
    0), (0, 1)]], 3, 4⟩, 68719476736, 651647992,
    231128133200576623456900773605211034340470278734533346397612974883941964045373709924099958437, ⟨0, 0,
    -18908833086003, [232380061250, 123738052, 87851]⟩⟩)))) (.sy (.sx (.sy (.leaf ⟨386, 16, 387, 384, 16, 206, ⟨[[(0,
    147102629888)], [(415538085888, 0)]], 3, 4⟩, ⟨[[(336120333339, 0), (0, 2689373267165), (17302153582, 0), (0,
    169645103), (1474718, 0)], [(0, 209683175280), (0, 196330754), (0, 3199950), (0, 35505), (0, 567)], [(92908798,
    0), (0, 304248), (0, 5531), (0, 80), (0, 2)], [(0, 70656), (0, 237), (0, 6)]], 3, 4⟩, 1099511627776, 0,
    581695408, ⟨[[(52140618644003, 0), (234287124756, 0), (437101435, 0), (0, 34131), (393, 0)], [(118195766548, 0),
    (395430020, 0), (202829, 0), (0, 644), (0, 6)], [(0, 50171512), (0, 464305), (0, 562), (0, 2)], [(15581, 0),
    (560, 0), (2, 0)]], 3, 4⟩, 68719476736, 521666960,
    494234658772766856662916752455313311317781993001469691200304757807323623276989095909719635038, ⟨0, 0,
    -613410865024, [204770538541, 100279402, 65478]⟩⟩) (.leaf ⟨386, 16, 387, 383, 16, 213, ⟨[[(0, 147102629888)],
    [(415538085888, 0)]], 3, 4⟩, ⟨[[(0, 282475987095), (0, 2583810812829), (15027409246, 0), (0, 144469496),
    (1073189, 0)], [(0, 218154215296), (0, 247235223), (0, 4115534), (0, 54090), (0, 874)], [(93952351, 0), (0,
    393684), (0, 7603), (0, 130), (0, 2)], [(0, 74768), (0, 331), (0, 9)]], 3, 4⟩, 1099511627776, 0, 604944884,
    ⟨[[(49038186299849, 0), (215076794915, 0), (410750621, 0), (0, 65268), (948, 0)], [(112861907173, 0), (376839659,
    0), (204929, 0), (0, 69), (0, 13)], [(0, 43958173), (0, 436375), (0, 341), (0, 7)], [(8133, 0), (527, 0)]], 3,
    4⟩, 68719476736, 534652042,
    375852080792398821285001070475465612272495916424561459062372300850045548450434368113278094750, ⟨0, 0,
    -634254923544, [211728760725, 103686954, 67703]⟩⟩)) (.sy (.leaf ⟨417, 16, 387, 382, 16, 213, ⟨[[(0,
    157840048128)], [(415538085888, 0)]], 3, 4⟩, ⟨[[(0, 277002214976), (0, 2799662172727), (17576867133, 0), (0,
    179054542), (1464650, 0)], [(0, 202430057059), (0, 259827769), (0, 4376150), (0, 53217), (0, 904)], [(79824329,
    0), (0, 380304), (0, 7377), (0, 121), (0, 2)], [(0, 59727), (0, 291), (0, 8)]], 3, 4⟩, 1099511627776, 0,
    446771659, ⟨[[(52269004156689, 0), (225520877210, 0), (416994033, 0), (0, 75325), (674, 0)], [(109813714374, 0),
    (350868707, 0), (184760, 0), (0, 342), (0, 8)], [(0, 42585429), (0, 389829), (0, 318), (0, 3)], [(12248, 0),
    (464, 0), (1, 0)]], 3, 4⟩, 68719476736, 507913425,
    539366137511287087996007343792136004762351022865235353770919627357896493037101864954555316783, ⟨0, 0,
    16065528469982, [195988272620, 88843279, 53698]⟩⟩) (.leaf ⟨417, 16, 387, 377, 16, 219, ⟨[[(0, 157840048128)],
    [(415538085888, 0)]], 3, 4⟩, ⟨[[(385601828341, 0), (0, 2680358022592), (15045768877, 0), (0, 154126376),
    (1010630, 0)], [(0, 209910307358), (0, 327946091), (0, 5716755), (0, 82424), (0, 1400)], [(79423444, 0), (0,
    497820), (0, 10437), (0, 198), (0, 4)], [(0, 63540), (0, 420), (0, 12)]], 3, 4⟩, 1099511627776, 0, 465161901,
    ⟨[[(48910345609003, 0), (206844644948, 0), (398992246, 0), (0, 131362), (1445, 0)], [(104479429530, 0),
    (335656201, 0), (175098, 0), (371, 0), (0, 14)], [(0, 36667806), (0, 373128), (0, 49), (0, 7)], [(5126, 0), (460,
    0), (0, 1)]], 3, 4⟩, 68719476736, 583710016,
    345401067924022338574548641691441658180328055382810020280980879218881337064718915319995670006, ⟨0, 0,
    16518078567728, [201509069032, 91345906, 55211]⟩⟩))) (.sx (.sy (.leaf ⟨386, 16, 387, 378, 16, 218, ⟨[[(0,
    147102629888)], [(415538085888, 0)]], 3, 4⟩, ⟨[[(0, 249979597822), (0, 2475005226697), (12928369522, 0), (0,
    126006640), (736420, 0)], [(0, 224958283824), (0, 310412007), (0, 5427350), (0, 81161), (0, 1269)], [(93428033,
    0), (0, 512959), (0, 10770), (0, 204), (0, 4)], [(0, 78932), (0, 474), (0, 14)]], 3, 4⟩, 1099511627776, 0,
    626357820, ⟨[[(46175104896242, 0), (199124341406, 0), (396008611, 0), (0, 132373), (1740, 0)], [(107748600641,
    0), (362824880, 0), (182872, 0), (709, 0), (0, 15)], [(0, 38037549), (0, 421510), (0, 5), (0, 9)], [(776, 0),
    (541, 0), (0, 1)]], 3, 4⟩, 68719476736, 600576998,
    215029100659282970882138923547865731809679199499692604035161818843586655530715698181387478631, ⟨0, 0,
    -649143536773, [216698919427, 106120920, 69292]⟩⟩) (.leaf ⟨386, 16, 387, 373, 16, 223, ⟨[[(0, 147102629888)],
    [(415538085888, 0)]], 3, 4⟩, ⟨[[(32827496784, 0), (0, 2386411464066), (11044752966, 0), (0, 114545139), (451859,
    0)], [(0, 232242663436), (0, 394338346), (0, 7359207), (0, 119697), (0, 1774)], [(91975909, 0), (0, 682830), (0,
    15643), (0, 311), (0, 5)], [(0, 84247), (0, 699), (0, 22), (0, 1)]], 3, 4⟩, 1099511627776, 0, 653654779,
    ⟨[[(43585256097292, 0), (184225175352, 0), (385645612, 0), (0, 235826), (2521, 0)], [(102930559533, 0),
    (350427299, 0), (131895, 0), (1411, 0), (0, 12)], [(0, 32385630), (0, 416274), (301, 0), (0, 6)], [(0, 6677),
    (559, 0), (0, 1)]], 3, 4⟩, 68719476736, 661747610,
    184125666385248316548174739672398695465876926504458308241646799240960903878138211416570375652, ⟨0, 0,
    -664032150001, [221669078130, 108554886, 70881]⟩⟩)) (.sy (.leaf ⟨417, 16, 387, 373, 16, 225, ⟨[[(0,
    157840048128)], [(415538085888, 0)]], 3, 4⟩, ⟨[[(151572960658, 0), (0, 2584595739619), (12800785475, 0), (0,
    138549411), (624140, 0)], [(0, 217914605892), (0, 417924710), (0, 7750456), (0, 126364), (0, 2059)], [(78095311,
    0), (0, 665783), (0, 15337), (0, 316), (0, 6)], [(0, 68411), (0, 627), (0, 20), (0, 1)]], 3, 4⟩, 1099511627776,
    0, 488525917, ⟨[[(46103578653231, 0), (190403815533, 0), (385176403, 0), (0, 222161), (2259, 0)], [(99830644781,
    0), (322317684, 0), (134686, 0), (1125, 0), (0, 14)], [(0, 31452553), (0, 366275), (268, 0), (0, 7)], [(0, 1531),
    (483, 0), (0, 1)]], 3, 4⟩, 68719476736, 626598366,
    326008357461297125983401635912204731381692809091989759787859630002050042008922479698531927983, ⟨0, 0,
    16970628665474, [207029865444, 93848534, 56723]⟩⟩) (.leaf ⟨417, 16, 387, 366, 16, 229, ⟨[[(0, 157840048128)],
    [(415538085888, 0)]], 3, 4⟩, ⟨[[(0, 202144270334), (0, 2488965419287), (10600500084, 0), (0, 130191961), (274089,
    0)], [(0, 224655434084), (0, 535874523), (0, 10710000), (0, 188093), (0, 2890)], [(74778468, 0), (0, 905135), (0,
    22803), (0, 487), (0, 8)], [(0, 74331), (0, 954), (0, 33), (0, 1)]], 3, 4⟩, 1099511627776, 0, 515466315,
    ⟨[[(43623200614525, 0), (176799799115, 0), (383132933, 0), (0, 349501), (2958, 0)], [(95534864068, 0),
    (313862799, 0), (73016, 0), (1675, 0), (0, 8)], [(0, 26482532), (0, 370404), (489, 0), (0, 3)], [(0, 8186), (496,
    0)]], 3, 4⟩, 68719476736, 701267760,
    244837114998412548944496287645822417712637904047065133968576533706900686481060261802727781666, ⟨0, 0,
    17272328730638, [210710396385, 95516952, 57732]⟩⟩))))
theorem c20 : checkC job ⟨6, 8, 8, 10, 9, 13⟩ 3 100 lims t20 245 41 256 9 3 32 = true := by decide +kernel

def t21 : CTree :=
  .sx (.sy (.sx (.sy (.leaf ⟨448, 16, 387, 538, 16, 257, ⟨[[(0, 168577466368)], [(415538085888, 0)]], 3, 4⟩,
    ⟨[[(526771450759, 0), (0, 2535223578835), (12410786078, 0), (0, 80872919), (580240, 0)], [(0, 223176523069), (0,
    76888296), (0, 834825), (0, 3442), (0, 5)], [(88950189, 0), (0, 99221), (0, 1084), (0, 6)], [(0, 54538), (0, 60),
    (0, 1)]], 3, 4⟩, 1099511627776, 0, 391597226, ⟨[[(72422142553452, 0), (239865800721, 0), (286554720, 0), (10202,
    0), (0, 362)], [(128792755736, 0), (288385808, 0), (111329, 0), (0, 672), (0, 26)], [(0, 63492745), (0, 278661),
    (0, 257), (0, 21)], [(51015, 0), (410, 0), (0, 8)]], 3, 4⟩, 68719476736, 332771176,
    586439471461942978359660876327744529314231169219344903750437071650169753916443178206733795328, ⟨0, 0,
    38088164487830, [220110503468, 92873630, 52250]⟩⟩) (.leaf ⟨448, 16, 387, 537, 16, 263, ⟨[[(0, 168577466368)],
    [(415538085888, 0)]], 3, 4⟩, ⟨[[(322388182346, 0), (0, 2450466218657), (11327452542, 0), (0, 70374670), (450157,
    0)], [(0, 228890493862), (0, 89320788), (0, 919086), (0, 3689), (0, 9)], [(90376444, 0), (0, 115477), (0, 1216),
    (0, 6)], [(0, 56203), (0, 70), (0, 1)]], 3, 4⟩, 1099511627776, 0, 400327267, ⟨[[(69293977816286, 0),
    (226979499209, 0), (273107839, 0), (11648, 0), (169, 0)], [(124991814358, 0), (278764847, 0), (112781, 0), (155,
    0), (0, 7)], [(0, 59807993), (0, 273211), (215, 0), (0, 5)], [(44647, 0), (514, 0), (0, 2)]], 3, 4⟩, 68719476736,
    147532611, 373707220959529095095683290776480324287160712106920912452430259430493208809679518756707664362, ⟨0, 0,
    38977382335795, [225249270086, 95041886, 53469]⟩⟩)) (.sy (.leaf ⟨479, 16, 387, 539, 16, 265, ⟨[[(0,
    179314884608)], [(415538085888, 0)]], 3, 4⟩, ⟨[[(0, 425724610642), (0, 2621364792686), (12718621030, 0), (0,
    83723775), (597757, 0)], [(0, 216147098554), (0, 97341032), (0, 1058608), (0, 4627), (0, 8)], [(79119607, 0), (0,
    118181), (0, 1299), (0, 7)], [(0, 46638), (0, 68), (0, 1)]], 3, 4⟩, 1099511627776, 0, 309342776,
    ⟨[[(72627029206878, 0), (232460744670, 0), (272515339, 0), (9857, 0), (0, 142)], [(120868724829, 0), (260695335,
    0), (118343, 0), (0, 305), (0, 18)], [(0, 55183106), (0, 230245), (0, 25), (0, 14)], [(43421, 0), (375, 0), (0,
    5)]], 3, 4⟩, 68719476736, 246489667,
    601703085270969738540760119504584103055615384570450380527449894742443673368167711040780369920, ⟨0, 0,
    57269011164090, [212273242199, 83770025, 44078]⟩⟩) (.leaf ⟨479, 16, 387, 539, 16, 272, ⟨[[(0, 179314884608)],
    [(415538085888, 0)]], 3, 4⟩, ⟨[[(0, 473911425327), (0, 2542741351142), (11628212960, 0), (0, 73142718), (464629,
    0)], [(0, 222496273031), (0, 113472441), (0, 1174238), (0, 5013), (0, 14)], [(80432074, 0), (0, 138144), (0,
    1476), (0, 8)], [(0, 48317), (0, 80), (0, 1)]], 3, 4⟩, 1099511627776, 0, 317125337, ⟨[[(69454899448917, 0),
    (219118112160, 0), (258321941, 0), (3629, 0), (248, 0)], [(117275572210, 0), (250761574, 0), (110478, 0), (244,
    0), (0, 3)], [(0, 51967021), (0, 228788), (264, 0), (0, 2)], [(37619, 0), (432, 0), (0, 1)]], 3, 4⟩, 68719476736,
    104674110, 346673057816205996399068562008085743789117039650094593223539883922997306706018911406870432631, ⟨0, 0,
    58781777496726, [217880459917, 85982818, 45242]⟩⟩))) (.sx (.leaf ⟨448, 16, 387, 374, 16, 190, ⟨[[(0,
    168577466368)], [(415538085888, 0)]], 3, 4⟩, ⟨[[(262624913298, 0), (0, 3268966821455), (27806823836, 0), (0,
    327481988), (3737946, 0)], [(0, 165994680247), (0, 154300167), (0, 2959746), (0, 23996), (0, 203)], [(64465622,
    0), (0, 200753), (0, 4036), (0, 42), (0, 1)], [(0, 41108), (0, 124), (0, 3)]], 3, 4⟩, 1099511627776, 0,
    307544849, ⟨[[(65013811737087, 0), (299599818769, 0), (523054581, 0), (0, 23813), (1075, 0)], [(119650558796, 0),
    (380214320, 0), (188484, 0), (581, 0), (11, 0)], [(0, 54438210), (0, 391794), (419, 0), (8, 0)], [(34650, 0),
    (694, 0), (3, 0)]], 3, 4⟩, 68719476736, 1139148066,
    407549536163846806868947438793556124921971235133326957227894450507959181205344115410023159282, ⟨0, 0,
    28158565185555, [162727609568, 68661439, 38628]⟩⟩) (.leaf ⟨479, 16, 387, 370, 16, 194, ⟨[[(0, 179314884608)],
    [(415538085888, 0)]], 3, 4⟩, ⟨[[(0, 154227602875), (0, 3352156396450), (28115015734, 0), (0, 336706695),
    (3795600, 0)], [(0, 159491107965), (0, 193822871), (0, 3760935), (0, 32733), (0, 313)], [(56390448, 0), (0,
    238013), (0, 4913), (0, 58), (0, 1)], [(0, 35036), (0, 142), (0, 4)]], 3, 4⟩, 1099511627776, 0, 245743401,
    ⟨[[(65126391875820, 0), (292551001452, 0), (508781162, 0), (0, 56502), (1129, 0)], [(112243881933, 0),
    (345776841, 0), (186651, 0), (496, 0), (12, 0)], [(0, 47227272), (0, 335275), (388, 0), (8, 0)], [(29015, 0),
    (568, 0), (3, 0)]], 3, 4⟩, 68719476736, 1083490221,
    439874497129969087016552697730301755943770004109848340018731880086951892552146615584703516321, ⟨0, 0,
    41925238361636, [155400033912, 61325980, 32268]⟩⟩))) (.sy (.sx (.sy (.leaf ⟨510, 16, 387, 539, 16, 273, ⟨[[(0,
    190052302848)], [(415538085888, 0)]], 3, 4⟩, ⟨[[(0, 284087715124), (0, 2709581310070), (13003696022, 0), (0,
    86698298), (614936, 0)], [(0, 210219906080), (0, 121700086), (0, 1327042), (0, 6196), (0, 13)], [(70660209, 0),
    (0, 139770), (0, 1551), (0, 10)], [(0, 40476), (0, 77), (0, 1)]], 3, 4⟩, 1099511627776, 0, 248517060,
    ⟨[[(72595091132938, 0), (224823161683, 0), (260007795, 0), (6693, 0), (70, 0)], [(113693526157, 0), (236380143,
    0), (122152, 0), (0, 0), (0, 11)], [(0, 48074822), (0, 192739), (144, 0), (0, 8)], [(37012, 0), (342, 0), (0,
    3)]], 3, 4⟩, 68719476736, 170570914,
    598011795449929063644396795662428005114538676103372117210996532432721341303881693342298275840, ⟨0, 0,
    76373376464267, [205388768808, 76126304, 37621]⟩⟩) (.leaf ⟨510, 16, 387, 538, 16, 280, ⟨[[(0, 190052302848)],
    [(415538085888, 0)]], 3, 4⟩, ⟨[[(0, 208692165468), (0, 2628109099279), (11860319495, 0), (0, 75780094), (476835,
    0)], [(0, 216409473883), (0, 141852804), (0, 1478865), (0, 6767), (0, 22)], [(71552388, 0), (0, 163568), (0,
    1781), (0, 11)], [(0, 42024), (0, 91), (0, 1)]], 3, 4⟩, 1099511627776, 0, 254961431, ⟨[[(69400673129041, 0),
    (211878325014, 0), (247124173, 0), (0, 6506), (306, 0)], [(110302962278, 0), (227123279, 0), (107676, 0), (286,
    0), (0, 1)], [(0, 45243512), (0, 194835), (278, 0)], [(31749, 0), (364, 0)]], 3, 4⟩, 68719476736, 65753970,
    304450413102642706639275392554874429623163488388106381558238129321352145511023039696751676034, ⟨0, 0,
    78331668168479, [210655147496, 78078261, 38586]⟩⟩)) (.sy (.leaf ⟨541, 16, 387, 537, 16, 280, ⟨[[(0,
    200789721088)], [(415538085888, 0)]], 3, 4⟩, ⟨[[(0, 111261779012), (0, 2790301560739), (13214276284, 0), (0,
    89516584), (629349, 0)], [(0, 204519123916), (0, 149976353), (0, 1642120), (0, 8244), (0, 20)], [(63031281, 0),
    (0, 163765), (0, 1843), (0, 13)], [(0, 35488), (0, 87), (0, 1)]], 3, 4⟩, 1099511627776, 0, 202232758,
    ⟨[[(72559044793599, 0), (218240914047, 0), (250718950, 0), (171, 0), (218, 0)], [(107374042331, 0), (215793004,
    0), (123233, 0), (179, 0), (0, 6)], [(0, 42102870), (0, 164086), (229, 0), (0, 4)], [(31831, 0), (306, 0), (0,
    1)]], 3, 4⟩, 68719476736, 123229023,
    740951375813190835317553839890064545670248979542657224529998472587310511205240603727101952000, ⟨0, 0,
    95100741968458, [198584062873, 69386465, 32325]⟩⟩) (.leaf ⟨541, 16, 387, 535, 16, 287, ⟨[[(0, 200789721088)],
    [(415538085888, 0)]], 3, 4⟩, ⟨[[(154144774190, 0), (0, 2706915013672), (12019570510, 0), (0, 78327736), (486491,
    0)], [(0, 210616905638), (0, 174856705), (0, 1840564), (0, 9090), (0, 34)], [(63528931, 0), (0, 192026), (0,
    2143), (0, 15)], [(0, 36956), (0, 105), (0, 1)]], 3, 4⟩, 1099511627776, 0, 207542821, ⟨[[(69331577742620, 0),
    (205552367873, 0), (239012577, 0), (0, 17724), (335, 0)], [(104153693238, 0), (207082636, 0), (105343, 0), (282,
    0), (1, 0)], [(0, 39573586), (0, 168083), (265, 0), (1, 0)], [(27098, 0), (307, 0)]], 3, 4⟩, 68719476736,
    43041706, 459843612717471195451425137489281206422126804177823556663091050232344720510779315664125944175, ⟨0, 0,
    97478260517670, [203548664445, 71121127, 33134]⟩⟩))) (.sx (.leaf ⟨510, 16, 387, 366, 16, 198, ⟨[[(0,
    190052302848)], [(415538085888, 0)]], 3, 4⟩, ⟨[[(0, 351185623510), (0, 3439209960824), (28344154091, 0), (0,
    346827212), (3841448, 0)], [(0, 154023518444), (0, 240701824), (0, 4738170), (0, 44660), (0, 483)], [(49448680,
    0), (0, 280791), (0, 5988), (0, 79), (0, 1)], [(0, 30372), (0, 163), (0, 4)]], 3, 4⟩, 1099511627776, 0,
    201046918, ⟨[[(65176417391156, 0), (285323796752, 0), (496585156, 0), (0, 90659), (1135, 0)], [(105706730035, 0),
    (315428501, 0), (186524, 0), (379, 0), (12, 0)], [(0, 41157050), (0, 289271), (342, 0), (8, 0)], [(24569, 0),
    (469, 0), (2, 0)]], 3, 4⟩, 68719476736, 1079724112,
    451606083601497283691070716980385962085029308260211197363320694574874372526851820244160756356, ⟨0, 0,
    55391679633424, [148963282872, 55212484, 27286]⟩⟩) (.leaf ⟨541, 16, 387, 360, 16, 201, ⟨[[(0, 200789721088)],
    [(415538085888, 0)]], 3, 4⟩, ⟨[[(0, 162280400858), (0, 3513366834685), (28335753631, 0), (0, 356398913),
    (3849909, 0)], [(0, 148716597765), (0, 294586272), (0, 5902428), (0, 60717), (0, 741)], [(43152333, 0), (0,
    328525), (0, 7285), (0, 109), (0, 2)], [(0, 26630), (0, 188), (0, 5)]], 3, 4⟩, 1099511627776, 0, 167433322,
    ⟨[[(65126446557275, 0), (279136185239, 0), (491312955, 0), (0, 127988), (1134, 0)], [(99855200451, 0),
    (289809319, 0), (189648, 0), (254, 0), (11, 0)], [(0, 35947276), (0, 252580), (292, 0), (6, 0)], [(20961, 0),
    (392, 0), (2, 0)]], 3, 4⟩, 68719476736, 1162619782,
    462499212179866354667153938778308806827209557434012865698378641756259644950446493183462102982, ⟨0, 0,
    68268746913072, [142554987991, 49809570, 23205]⟩⟩)))
theorem c21 : checkC job ⟨6, 8, 8, 10, 9, 13⟩ 3 100 lims t21 327 41 256 3 3 64 = true := by decide +kernel

def t22 : CTree :=
  .sx (.sy (.sx (.leaf ⟨448, 16, 387, 378, 16, 201, ⟨[[(0, 168577466368)], [(415538085888, 0)]], 3, 4⟩, ⟨[[(0,
    73310391179), (0, 3139525781812), (23935969909, 0), (0, 267376234), (2732820, 0)], [(0, 176702830797), (0,
    203776975), (0, 3649222), (0, 33113), (0, 448)], [(66759378, 0), (0, 269025), (0, 5230), (0, 64), (0, 1)], [(0,
    44399), (0, 175), (0, 4)]], 3, 4⟩, 1099511627776, 0, 320126440, ⟨[[(60160347801024, 0), (266667086365, 0),
    (469846993, 0), (0, 69140), (521, 0)], [(113356887168, 0), (353684052, 0), (162810, 0), (0, 282), (9, 0)], [(0,
    47827644), (0, 376016), (0, 55), (7, 0)], [(24082, 0), (538, 0), (3, 0)]], 3, 4⟩, 68719476736, 700222496,
    271573905496661213829389811947867862254071485363931235376421872096629568687315484037994305429, ⟨0, 0,
    29788797906824, [172148681701, 72636575, 40864]⟩⟩) (.leaf ⟨479, 16, 387, 372, 16, 205, ⟨[[(0, 179314884608)],
    [(415538085888, 0)]], 3, 4⟩, ⟨[[(449207093182, 0), (0, 3220992687150), (24068721587, 0), (0, 275959186),
    (2740822, 0)], [(0, 169914343516), (0, 256590567), (0, 4690917), (0, 46486), (0, 691)], [(57877406, 0), (0,
    321297), (0, 6529), (0, 91), (0, 2)], [(0, 38075), (0, 204), (0, 5)]], 3, 4⟩, 1099511627776, 0, 254893196,
    ⟨[[(60036456621026, 0), (259483502468, 0), (460056469, 0), (0, 102717), (585, 0)], [(106092102193, 0),
    (321044817, 0), (165475, 0), (0, 305), (6, 0)], [(0, 41129582), (0, 322797), (0, 35), (5, 0)], [(19772, 0), (438,
    0), (2, 0)]], 3, 4⟩, 68719476736, 719533484,
    295248958943614626462688634519858529194484804418291493430877471732448272782775129354047048219, ⟨0, 0,
    44302442598636, [164211376041, 64803227, 34098]⟩⟩)) (.sx (.leaf ⟨448, 16, 387, 378, 16, 210, ⟨[[(0,
    168577466368)], [(415538085888, 0)]], 3, 4⟩, ⟨[[(0, 304165363630), (0, 3007915064226), (20529445310, 0), (0,
    221652102), (1998884, 0)], [(0, 186037723795), (0, 262864876), (0, 4560744), (0, 50021), (0, 841)], [(67849226,
    0), (0, 355092), (0, 6990), (0, 106), (0, 2)], [(0, 47664), (0, 247), (0, 7)]], 3, 4⟩, 1099511627776, 0,
    334272258, ⟨[[(55963975375770, 0), (240607824732, 0), (434219382, 0), (0, 88997), (501, 0)], [(107671640706, 0),
    (333153210, 0), (170255, 0), (0, 474), (0, 2)], [(0, 41775055), (0, 354254), (0, 235), (1, 0)], [(16107, 0),
    (436, 0), (2, 0)]], 3, 4⟩, 68719476736, 558530413,
    464578578303552162761220997015313387619944536501060676902679018716628020849261256796111723945, ⟨0, 0,
    31122624678771, [179856831628, 75888958, 42694]⟩⟩) (.leaf ⟨479, 16, 387, 373, 16, 215, ⟨[[(0, 179314884608)],
    [(415538085888, 0)]], 3, 4⟩, ⟨[[(0, 95274411043), (0, 3104190304806), (20583259965, 0), (0, 231957573), (1958692,
    0)], [(0, 180006204041), (0, 334147379), (0, 5991907), (0, 72717), (0, 1311)], [(58409045, 0), (0, 431316), (0,
    9059), (0, 156), (0, 3)], [(0, 41454), (0, 300), (0, 9)]], 3, 4⟩, 1099511627776, 0, 268137213,
    ⟨[[(55917660507700, 0), (232982759764, 0), (423748321, 0), (0, 127574), (756, 0)], [(100889224179, 0),
    (300667019, 0), (167281, 0), (0, 278), (0, 5)], [(0, 35876276), (0, 304501), (0, 114), (0, 1)], [(13108, 0),
    (368, 0), (1, 0)]], 3, 4⟩, 68719476736, 610525452,
    296683912064416131375959206370848899321695779007855368779428662898975328929225493618909313474, ⟨0, 0,
    46463537359545, [172221687067, 67964360, 35761]⟩⟩))) (.sy (.sx (.leaf ⟨510, 16, 387, 367, 16, 209, ⟨[[(0,
    190052302848)], [(415538085888, 0)]], 3, 4⟩, ⟨[[(107722697777, 0), (0, 3307613820766), (24098200473, 0), (0,
    285930017), (2722757, 0)], [(0, 164295838724), (0, 319724405), (0, 5994982), (0, 65478), (0, 1066)], [(50169895,
    0), (0, 382644), (0, 8192), (0, 130), (0, 3)], [(0, 33285), (0, 241), (0, 7)]], 3, 4⟩, 1099511627776, 0,
    207757869, ⟨[[(60117749454557, 0), (252963269069, 0), (451947362, 0), (0, 135683), (698, 0)], [(99990992869, 0),
    (292445426, 0), (168500, 0), (0, 263), (3, 0)], [(0, 35788183), (0, 279355), (3, 0), (3, 0)], [(16768, 0), (367,
    0), (2, 0)]], 3, 4⟩, 68719476736, 745055936,
    294241635781882217466771931106963426838184745984255173626098726768141504177984421481501742997, ⟨0, 0,
    58468995168615, [157239020809, 58279845, 28802]⟩⟩) (.leaf ⟨541, 16, 387, 360, 16, 212, ⟨[[(0, 200789721088)],
    [(415538085888, 0)]], 3, 4⟩, ⟨[[(256577516757, 0), (0, 3384435160333), (23885394091, 0), (0, 296475996),
    (2652092, 0)], [(0, 158958710024), (0, 393161130), (0, 7600589), (0, 92156), (0, 1633)], [(43130505, 0), (0,
    453174), (0, 10305), (0, 185), (0, 4)], [(0, 29521), (0, 286), (0, 9)]], 3, 4⟩, 1099511627776, 0, 173410828,
    ⟨[[(60084782591827, 0), (247097419338, 0), (450045604, 0), (0, 174437), (889, 0)], [(94507477431, 0), (268079595,
    0), (173263, 0), (0, 184)], [(0, 31164200), (0, 244595), (40, 0), (1, 0)], [(14260, 0), (314, 0), (1, 0)]], 3,
    4⟩, 68719476736, 874747222,
    361494799932722836590480125582838009424386167197971587986572646891409489805245293058841765134, ⟨0, 0,
    72004847490404, [150356504747, 52535466, 24475]⟩⟩)) (.sx (.leaf ⟨510, 16, 387, 365, 16, 218, ⟨[[(0,
    190052302848)], [(415538085888, 0)]], 3, 4⟩, ⟨[[(0, 168530237180), (0, 3178402771697), (20305194822, 0), (0,
    242448635), (1850794, 0)], [(0, 173613243603), (0, 417039073), (0, 7781323), (0, 105115), (0, 2016)], [(49594546,
    0), (0, 519158), (0, 11739), (0, 229), (0, 5)], [(0, 36537), (0, 364), (0, 12)]], 3, 4⟩, 1099511627776, 0,
    219313413, ⟨[[(55932379263538, 0), (227599851456, 0), (423104189, 0), (0, 174907), (1098, 0)], [(95049750512, 0),
    (274635944, 0), (165799, 0), (0, 63), (0, 7)], [(0, 31027016), (0, 266972), (0, 6), (0, 2)], [(10833, 0), (323,
    0)]], 3, 4⟩, 68719476736, 730002598,
    222978142957520027338424651231701588613178201946358178436587805161493244891521935567817507616, ⟨0, 0,
    60986798788316, [164010079122, 60789503, 30042]⟩⟩) (.leaf ⟨541, 16, 387, 357, 16, 221, ⟨[[(0, 200789721088)],
    [(415538085888, 0)]], 3, 4⟩, ⟨[[(34077711114, 0), (0, 3260562649081), (19850557315, 0), (0, 256290301), (1668703,
    0)], [(0, 168474575917), (0, 517041719), (0, 10110246), (0, 152467), (0, 3088)], [(41692280, 0), (0, 626531), (0,
    15366), (0, 334), (0, 8)], [(0, 32977), (0, 449), (0, 16)]], 3, 4⟩, 1099511627776, 0, 185935758,
    ⟨[[(55890543334215, 0), (221715242800, 0), (424473347, 0), (0, 232372), (1525, 0)], [(89859830578, 0),
    (251230694, 0), (161878, 0), (176, 0), (0, 9)], [(0, 26862510), (0, 236271), (92, 0), (0, 3)], [(8921, 0), (290,
    0)]], 3, 4⟩, 68719476736, 883814943,
    566147240745620648451720158518973570696561564524138311559209378949500008309165052889401546603, ⟨0, 0,
    75061657053676, [156739563911, 54765746, 25514]⟩⟩)))
theorem c22 : checkC job ⟨6, 8, 8, 10, 9, 13⟩ 3 100 lims t22 327 41 256 9 3 64 = true := by decide +kernel

def t23 : CTree :=
  .sy (.sx (.sy (.leaf ⟨448, 16, 387, 376, 16, 218, ⟨[[(0, 168577466368)], [(415538085888, 0)]], 3, 4⟩, ⟨[[(0,
    298761014868), (0, 2889977367933), (17566716264, 0), (0, 188671099), (1404206, 0)], [(0, 194945064923), (0,
    336162728), (0, 5894228), (0, 79126), (0, 1422)], [(67933934, 0), (0, 469837), (0, 9824), (0, 181), (0, 4)], [(0,
    51308), (0, 360), (0, 11)]], 3, 4⟩, 1099511627776, 0, 350388512, ⟨[[(52271574693569, 0), (218488200183, 0),
    (407794510, 0), (0, 124693), (1045, 0)], [(102452546751, 0), (315471235, 0), (171465, 0), (0, 30), (0, 10)], [(0,
    36233794), (0, 335063), (0, 118), (0, 5)], [(9455, 0), (400, 0)]], 3, 4⟩, 68719476736, 582966128,
    452563782215439455357933999922465556509927021992014739796067252925142469099899721020360955718, ⟨0, 0,
    32308248476058, [186708520452, 78779966, 44321]⟩⟩) (.leaf ⟨448, 16, 387, 372, 16, 225, ⟨[[(0, 168577466368)],
    [(415538085888, 0)]], 3, 4⟩, ⟨[[(80251961386, 0), (0, 2785111559141), (14896573822, 0), (0, 166860146), (890269,
    0)], [(0, 203525237823), (0, 430197884), (0, 7921543), (0, 125599), (0, 2228)], [(66794981, 0), (0, 630467), (0,
    14464), (0, 302), (0, 6)], [(0, 55655), (0, 542), (0, 18)]], 3, 4⟩, 1099511627776, 0, 370064106,
    ⟨[[(48968430628992, 0), (199277762412, 0), (390163710, 0), (0, 201851), (1895, 0)], [(97580624824, 0),
    (300635103, 0), (145367, 0), (725, 0), (0, 14)], [(0, 31023520), (0, 325167), (167, 0), (0, 7)], [(3073, 0),
    (412, 0), (0, 1)]], 3, 4⟩, 68719476736, 620155041,
    466775411005075462641464140196351497727778664575271167521544570102380370703906794470371095836, ⟨0, 0,
    33345669298684, [192703748173, 81309598, 45744]⟩⟩)) (.sy (.leaf ⟨479, 16, 387, 370, 16, 223, ⟨[[(0,
    179314884608)], [(415538085888, 0)]], 3, 4⟩, ⟨[[(0, 139227411501), (0, 2987904159337), (17401094574, 0), (0,
    201053931), (1287681, 0)], [(0, 189025582698), (0, 430648427), (0, 7923460), (0, 117884), (0, 2226)], [(57519910,
    0), (0, 581070), (0, 13214), (0, 271), (0, 6)], [(0, 45251), (0, 452), (0, 15)]], 3, 4⟩, 1099511627776, 0,
    283772879, ⟨[[(52239039033088, 0), (211214269031, 0), (401178340, 0), (0, 182743), (1470, 0)], [(96041340083, 0),
    (284536360, 0), (156568, 0), (289, 0), (0, 11)], [(0, 30941105), (0, 292097), (54, 0), (0, 5)], [(7176, 0), (355,
    0), (0, 1)]], 3, 4⟩, 68719476736, 655158024,
    413357579464535300598498911702128562178821740213956610092451206750398383466257683966316249088, ⟨0, 0,
    48192413168272, [178629935888, 70493266, 37092]⟩⟩) (.leaf ⟨479, 16, 387, 364, 16, 229, ⟨[[(0, 179314884608)],
    [(415538085888, 0)]], 3, 4⟩, ⟨[[(0, 409633770799), (0, 2875166014268), (14390336818, 0), (0, 182677918), (673508,
    0)], [(0, 197087197501), (0, 555162074), (0, 10889920), (0, 189677), (0, 3490)], [(54930289, 0), (0, 795325), (0,
    20067), (0, 456), (0, 9)], [(0, 49919), (0, 706), (0, 26), (0, 1)]], 3, 4⟩, 1099511627776, 0, 303107511,
    ⟨[[(49055006810010, 0), (193386300098, 0), (391028183, 0), (0, 285152), (2362, 0)], [(91656458578, 0),
    (272730284, 0), (118081, 0), (1033, 0), (0, 13)], [(0, 26367758), (0, 290352), (335, 0), (0, 7)], [(1416, 0),
    (380, 0), (0, 1)]], 3, 4⟩, 68719476736, 707208270,
    518251668726654903397844737520308060274213116832497593374149595244947737007276725193093269897, ⟨0, 0,
    49489070024817, [183436122504, 72389946, 38090]⟩⟩))) (.sx (.sy (.leaf ⟨448, 16, 387, 365, 16, 230, ⟨[[(0,
    168577466368)], [(415538085888, 0)]], 3, 4⟩, ⟨[[(298293543120, 0), (0, 2682016513391), (12317588413, 0), (0,
    154723481), (420406, 0)], [(0, 211009004477), (0, 552964335), (0, 10968658), (0, 194654), (0, 3287)], [(63805002,
    0), (0, 861021), (0, 21836), (0, 486), (0, 9)], [(0, 60996), (0, 837), (0, 30), (0, 1)]], 3, 4⟩, 1099511627776,
    0, 393278203, ⟨[[(46080063269201, 0), (183384553640, 0), (384936973, 0), (0, 325905), (2750, 0)], [(93120013761,
    0), (290509968, 0), (90026, 0), (1456, 0), (0, 12)], [(0, 26106003), (0, 327688), (465, 0), (0, 6)], [(0, 3383),
    (442, 0), (0, 1)]], 3, 4⟩, 68719476736, 685516615,
    421699836140875439505178248264776460521598368003790089876066576109018740666531310583497663448, ⟨0, 0,
    34086684171988, [196986053687, 83116478, 46760]⟩⟩) (.leaf ⟨448, 16, 387, 357, 16, 234, ⟨[[(0, 168577466368)],
    [(415538085888, 0)]], 3, 4⟩, ⟨[[(124698748517, 0), (0, 2595009837907), (9757500389, 0), (0, 152659241), (0,
    27153)], [(0, 218503376786), (0, 721035986), (0, 15535740), (0, 293516), (0, 4671)], [(58739486, 0), (0,
    1204564), (0, 33330), (0, 757), (0, 13)], [(0, 68458), (0, 1319), (0, 49), (0, 1)]], 3, 4⟩, 1099511627776, 0,
    429064225, ⟨[[(43571457544274, 0), (169354426990, 0), (388691755, 0), (0, 477395), (3197, 0)], [(89036485613, 0),
    (284013041, 0), (16688, 0), (1796, 0), (0, 2)], [(0, 21378316), (0, 337632), (592, 0)], [(0, 9731), (440, 0), (1,
    0)]], 3, 4⟩, 68719476736, 725315487,
    272602652151260092045000401891220216932457059298145822640543329220214833302752413140462357833, ⟨0, 0,
    34679496070631, [200411898099, 84561982, 47574]⟩⟩)) (.sy (.leaf ⟨479, 16, 387, 354, 16, 233, ⟨[[(0,
    179314884608)], [(415538085888, 0)]], 3, 4⟩, ⟨[[(504467358469, 0), (0, 2769301113387), (11400069155, 0), (0,
    176719532), (82602, 0)], [(0, 204364479397), (0, 722053702), (0, 15429819), (0, 296801), (0, 5177)], [(50186057,
    0), (0, 1113285), (0, 31083), (0, 739), (0, 14)], [(0, 56224), (0, 1127), (0, 44), (0, 1)]], 3, 4⟩,
    1099511627776, 0, 331851450, ⟨[[(46048316017788, 0), (177448514347, 0), (395082155, 0), (0, 447236), (3131, 0)],
    [(87297076855, 0), (265311385, 0), (47267, 0), (1702, 0), (0, 8)], [(0, 21585332), (0, 300967), (616, 0), (0,
    5)], [(0, 5034), (412, 0), (0, 1)]], 3, 4⟩, 68719476736, 791340840,
    487035357094582969742402788320253392893796873544110922455808151191154363859729555918798664500, ⟨0, 0,
    50353507929181, [186640246915, 73654399, 38755]⟩⟩) (.leaf ⟨479, 16, 387, 344, 16, 236, ⟨[[(0, 179314884608)],
    [(415538085888, 0)]], 3, 4⟩, ⟨[[(64820017507, 0), (0, 2685783434795), (8299937711, 0), (0, 184179127), (0,
    518813)], [(0, 212018760843), (0, 956328626), (0, 22321090), (0, 452026), (0, 7511)], [(42751493, 0), (0,
    1599849), (0, 48483), (0, 1171), (0, 22)], [(0, 65691), (0, 1830), (0, 73), (0, 2)]], 3, 4⟩, 1099511627776, 0,
    378695806, ⟨[[(43580951060058, 0), (163668596392, 0), (407839547, 0), (0, 612222), (3100, 0)], [(83488224740, 0),
    (261707055, 0), (0, 31218), (1771, 0), (6, 0)], [(0, 17123538), (0, 316028), (634, 0), (4, 0)], [(0, 10931),
    (388, 0), (3, 0)]], 3, 4⟩, 68719476736, 931921442,
    266768698223779034724501710573787454267382759790874610023460693859851519111299042261081715075, ⟨0, 0,
    51001836357454, [189043340222, 74602739, 39254]⟩⟩)))
theorem c23 : checkC job ⟨6, 8, 8, 10, 9, 13⟩ 3 100 lims t23 613 41 512 9 3 32 = true := by decide +kernel

def t24 : CTree :=
  .sy (.sy (.sx (.leaf ⟨510, 16, 387, 361, 16, 226, ⟨[[(0, 190052302848)], [(415538085888, 0)]], 3, 4⟩, ⟨[[(0,
    113734829669), (0, 3068115317064), (16877580028, 0), (0, 215662686), (1075023, 0)], [(0, 182895395894), (0,
    542982237), (0, 10568599), (0, 174364), (0, 3433)], [(47688347, 0), (0, 715069), (0, 17803), (0, 403), (0, 9)],
    [(0, 40678), (0, 573), (0, 21), (0, 1)]], 3, 4⟩, 1099511627776, 0, 235527470, ⟨[[(52233579560587, 0),
    (205680453853, 0), (404134386, 0), (0, 255467), (1960, 0)], [(90487987513, 0), (259660655, 0), (142116, 0), (588,
    0), (0, 12)], [(0, 26533570), (0, 260312), (197, 0), (0, 6)], [(5344, 0), (326, 0), (0, 1)]], 3, 4⟩, 68719476736,
    786961895, 438847154731338755254287341419970569848498896953934880299997708526283028810254127791074467096, ⟨0, 0,
    63224846450272, [170028797622, 63020310, 31144]⟩⟩) (.leaf ⟨541, 16, 387, 351, 16, 228, ⟨[[(0, 200789721088)],
    [(415538085888, 0)]], 3, 4⟩, ⟨[[(0, 435753794887), (0, 3145374279802), (16019174898, 0), (0, 235111945), (732401,
    0)], [(0, 177425462978), (0, 678725076), (0, 14085729), (0, 257064), (0, 5244)], [(38477836, 0), (0, 881769), (0,
    24127), (0, 595), (0, 13)], [(0, 37537), (0, 734), (0, 29), (0, 1)]], 3, 4⟩, 1099511627776, 0, 203199270,
    ⟨[[(52291680126995, 0), (200879918784, 0), (412832524, 0), (0, 341185), (2431, 0)], [(85689074324, 0),
    (238576619, 0), (127622, 0), (820, 0), (0, 11)], [(0, 22854090), (0, 235488), (313, 0), (0, 6)], [(3886, 0),
    (306, 0), (0, 1)]], 3, 4⟩, 68719476736, 953982480,
    760971468853056378018533356095871720436302602846741310687700981602616835203581805488462698310, ⟨0, 0,
    77439175602888, [161704165483, 56500407, 26322]⟩⟩)) (.sx (.leaf ⟨510, 16, 387, 352, 16, 231, ⟨[[(0,
    190052302848)], [(415538085888, 0)]], 3, 4⟩, ⟨[[(319526538026, 0), (0, 2952011330575), (13463517620, 0), (0,
    203508492), (319306, 0)], [(0, 190704094868), (0, 707273816), (0, 14893630), (0, 283875), (0, 5392)], [(43601311,
    0), (0, 1002406), (0, 27866), (0, 683), (0, 14)], [(0, 46024), (0, 927), (0, 37), (0, 1)]], 3, 4⟩, 1099511627776,
    0, 258304427, ⟨[[(48928325515274, 0), (187838953317, 0), (402757656, 0), (0, 398153), (2864, 0)], [(86208289564,
    0), (250117808, 0), (88173, 0), (1335, 0), (0, 11)], [(0, 22125129), (0, 266138), (499, 0), (0, 7)], [(0, 420),
    (362, 0), (0, 1)]], 3, 4⟩, 68719476736, 866729895,
    515923497278929885183623855892985740245426625636516176446608538712955443557544853735976423860, ⟨0, 0,
    64623626238995, [173790496684, 64414565, 31833]⟩⟩) (.leaf ⟨541, 16, 387, 340, 16, 232, ⟨[[(0, 200789721088)],
    [(415538085888, 0)]], 3, 4⟩, ⟨[[(0, 245585615487), (0, 3030357769937), (12084793007, 0), (0, 233048302), (0,
    232592)], [(0, 185262061210), (0, 896058380), (0, 20387634), (0, 422937), (0, 8285)], [(32735632, 0), (0,
    1270363), (0, 38867), (0, 1018), (0, 22)], [(0, 43986), (0, 1229), (0, 53), (0, 2)]], 3, 4⟩, 1099511627776, 0,
    233468872, ⟨[[(49023658749397, 0), (183397397967, 0), (419947971, 0), (0, 510200), (3056, 0)], [(81697661700, 0),
    (231123499, 0), (65644, 0), (1442, 0), (0, 8)], [(0, 18764233), (0, 247193), (631, 0), (0, 7)], [(0, 1683), (350,
    0), (0, 1)]], 3, 4⟩, 68719476736, 1041091693,
    846249230376909999220485530695738763148774541023656824723167072408867060448270809056079985643, ⟨0, 0,
    78797757631008, [164541080666, 57491642, 26784]⟩⟩))) (.sx (.sy (.leaf ⟨510, 16, 387, 342, 16, 235, ⟨[[(0,
    190052302848)], [(415538085888, 0)]], 3, 4⟩, ⟨[[(451771120919, 0), (0, 2861014790571), (9984410546, 0), (0,
    208554923), (0, 455483)], [(0, 198939009142), (0, 937782575), (0, 21709214), (0, 450444), (0, 8147)], [(37047015,
    0), (0, 1448707), (0, 44426), (0, 1124), (0, 22)], [(0, 54097), (0, 1535), (0, 64), (0, 2)]], 3, 4⟩,
    1099511627776, 0, 297363274, ⟨[[(46059054972030, 0), (171772871950, 0), (411930402, 0), (0, 570047), (3143, 0)],
    [(82267225188, 0), (244265012, 0), (9565, 0), (1800, 0), (0, 4)], [(0, 17764595), (0, 281656), (742, 0), (0, 3)],
    [(0, 6458), (387, 0)]], 3, 4⟩, 68719476736, 919998318,
    387415470463225351342632326799925721078782156650741841776607347256418752798575521509864017757, ⟨0, 0,
    65742650069973, [176799855934, 65529969, 32384]⟩⟩) (.leaf ⟨510, 16, 387, 327, 16, 235, ⟨[[(0, 190052302848)],
    [(415538085888, 0)]], 3, 4⟩, ⟨[[(91946859712, 0), (0, 2764295520259), (6072915912, 0), (0, 229459920), (0,
    1309481)], [(0, 205455990707), (0, 1254743620), (0, 31838581), (0, 691706), (0, 12357)], [(26480209, 0), (0,
    2125468), (0, 70504), (0, 1843), (0, 40)], [(0, 66086), (0, 2555), (0, 111), (0, 4)]], 3, 4⟩, 1099511627776, 0,
    365245551, ⟨[[(43577226673860, 0), (158988769065, 0), (441656442, 0), (0, 743564), (2376, 0)], [(78599228931, 0),
    (245209068, 0), (0, 71228), (1615, 0), (13, 0)], [(0, 13368462), (0, 304171), (667, 0), (9, 0)], [(0, 12004),
    (327, 0), (5, 0)]], 3, 4⟩, 68719476736, 1669953096,
    345313209085107569368769498295727660715479165302825622174946381999897461779195774132569762990, ⟨0, 0,
    65742650069973, [176799855934, 65529969, 32384]⟩⟩)) (.sy (.leaf ⟨541, 16, 387, 326, 16, 234, ⟨[[(0,
    200789721088)], [(415538085888, 0)]], 3, 4⟩, ⟨[[(416739841875, 0), (0, 2936023574650), (7833237912, 0), (0,
    253155522), (0, 1298327)], [(0, 193126094063), (0, 1204676505), (0, 30334596), (0, 677210), (0, 12923)],
    [(23665603, 0), (0, 1884103), (0, 63321), (0, 1718), (0, 38)], [(0, 54125), (0, 2096), (0, 94), (0, 3)]], 3, 4⟩,
    1099511627776, 0, 287180652, ⟨[[(46066082191607, 0), (167366166728, 0), (443157002, 0), (0, 694352), (2609, 0)],
    [(77829029145, 0), (228306359, 0), (0, 17866), (1758, 0), (0, 1)], [(0, 14404428), (0, 271729), (933, 0), (0,
    4)], [(0, 7862), (371, 0), (1, 0)]], 3, 4⟩, 68719476736, 1540005773,
    813872913907535992498249948342655178736493429093872551984139148291232111818917877798673873634, ⟨0, 0,
    79477048645069, [165959538258, 57987260, 27015]⟩⟩) (.sx (.leaf ⟨1066, 16, 774, 418, 16, 311, ⟨[[(153545080832,
    0)], [(415538085888, 0)]], 3, 4⟩, ⟨[[(0, 266940067012), (0, 3771883606603), (5055324168, 0), (0, 370456613), (0,
    2982328)], [(0, 134298416000), (0, 1024258775), (0, 27745635), (0, 639970), (0, 12551)], [(4637718, 0), (0,
    882012), (0, 31447), (0, 896), (0, 23)], [(0, 11490), (0, 554), (0, 26), (0, 1)]], 3, 4⟩, 1099511627776, 0,
    55293923, ⟨[[(43600027877489, 0), (116651660578, 0), (265830097, 0), (0, 341269), (406, 0)], [(37688241475, 0),
    (88093053, 0), (0, 25572), (305, 0), (3, 0)], [(0, 2715255), (0, 56553), (109, 0), (1, 0)], [(0, 1581), (25, 0),
    (1, 0)]], 3, 4⟩, 68719476736, 133499848,
    366375528181494324881809015774776730737702038062643362702063541779052674343574014633222850058, ⟨0, 0,
    101075363762767, [111887944910, 19831256, 4687]⟩⟩) (.leaf ⟨1097, 16, 774, 401, 16, 306, ⟨[[(142807662592, 0)],
    [(415538085888, 0)]], 3, 4⟩, ⟨[[(228999949526, 0), (0, 3800031853513), (2512226426, 0), (0, 422662196), (0,
    4126767)], [(0, 131622796804), (0, 1161838862), (0, 32943027), (0, 796918), (0, 17074)], [(1709693, 0), (0,
    1015530), (0, 38202), (0, 1177), (0, 36)], [(0, 11932), (0, 661), (0, 34), (0, 1)]], 3, 4⟩, 1099511627776, 0,
    69780792, ⟨[[(43548318875163, 0), (115535772234, 0), (284845459, 0), (0, 359980), (99, 0)], [(36628709725, 0),
    (86523826, 0), (0, 27904), (273, 0), (3, 0)], [(0, 2272867), (0, 57948), (140, 0), (1, 0)], [(0, 1641), (19, 0),
    (1, 0)]], 3, 4⟩, 68719476736, 178425611,
    1184144679346561224863927859140131794857420848524508880914925617768004886725957510385119289499, ⟨0, 1,
    108348951157522, [106979455927, 18425673, 4231]⟩⟩))))
theorem c24 : checkC job ⟨6, 8, 8, 10, 9, 13⟩ 3 100 lims t24 695 41 512 9 3 32 = true := by decide +kernel

def t25 : CTree :=
  .sx (.sy (.sx (.leaf ⟨632, 16, 774, 354, 16, 199, ⟨[[(303868936192, 0)], [(415538085888, 0)]], 3, 4⟩,
    ⟨[[(407643125189, 0), (0, 3819536725283), (34065088436, 0), (0, 585818732), (5412011, 0)], [(0, 124191839257),
    (0, 244842900), (0, 8742269), (0, 258920), (0, 6403)], [(32810548, 0), (0, 248703), (0, 10337), (0, 358), (0,
    10)], [(0, 15905), (0, 141), (0, 8)]], 3, 4⟩, 1099511627776, 0, 138599405, ⟨[[(40164366251123, 0), (196002181613,
    0), (454211983, 0), (0, 167264), (2950, 0)], [(58615757600, 0), (238079131, 0), (128893, 0), (813, 0), (0, 7)],
    [(0, 10374368), (0, 152636), (0, 27), (0, 2)], [(0, 1958), (103, 0)]], 3, 4⟩, 68719476736, 762223776,
    276123209289813087345948757000446238589653941571607293670420971916203694760510406987487828846, ⟨0, 0,
    -40846747107416, [120721084878, 36079224, 14377]⟩⟩) (.leaf ⟨663, 16, 774, 349, 16, 201, ⟨[[(293131517952, 0)],
    [(415538085888, 0)]], 3, 4⟩, ⟨[[(0, 250711323190), (0, 3879973490905), (33608661635, 0), (0, 615771290),
    (4864764, 0)], [(0, 120316388153), (0, 291518256), (0, 10710302), (0, 327876), (0, 8279)], [(29415879, 0), (0,
    288906), (0, 12556), (0, 451), (0, 12)], [(0, 14280), (0, 165), (0, 9)]], 3, 4⟩, 1099511627776, 0, 132561342,
    ⟨[[(40282456384364, 0), (193492230892, 0), (453948835, 0), (0, 241642), (3361, 0)], [(56036972257, 0),
    (224658695, 0), (104215, 0), (925, 0), (0, 6)], [(0, 9302783), (0, 141960), (21, 0), (0, 1)], [(0, 1951), (95,
    0)]], 3, 4⟩, 68719476736, 837104696,
    301839524485250917307332946347280712219752784887578458118754171529886588775900024167029351571, ⟨0, 0,
    -31495960871257, [116237144054, 33115995, 12580]⟩⟩)) (.sx (.leaf ⟨632, 16, 774, 358, 16, 213, ⟨[[(303868936192,
    0)], [(415538085888, 0)]], 3, 4⟩, ⟨[[(75139252995, 0), (0, 3714368165173), (26116622690, 0), (0, 538179892),
    (1832650, 0)], [(0, 134907856163), (0, 410955513), (0, 16079306), (0, 484961), (0, 10670)], [(33025684, 0), (0,
    450529), (0, 20618), (0, 705), (0, 17)], [(0, 18317), (0, 297), (0, 17), (0, 1)]], 3, 4⟩, 1099511627776, 0,
    134366712, ⟨[[(36511318639318, 0), (166271869886, 0), (411905953, 0), (0, 368841), (3155, 0)], [(54008376781, 0),
    (218708641, 0), (65038, 0), (712, 0), (4, 0)], [(0, 7400969), (0, 141566), (0, 65), (2, 0)], [(0, 3794), (75, 0),
    (1, 0)]], 3, 4⟩, 68719476736, 443015713,
    326056344279622173627444742108218936521721075593680328855949830975815763574465882476708026038, ⟨0, 0,
    -43720387607436, [129214025523, 38617461, 15389]⟩⟩) (.leaf ⟨663, 16, 774, 350, 16, 214, ⟨[[(293131517952, 0)],
    [(415538085888, 0)]], 3, 4⟩, ⟨[[(0, 181579824855), (0, 3768878833717), (24765246200, 0), (0, 585815516), (836439,
    0)], [(0, 130458784785), (0, 493511499), (0, 19924911), (0, 618103), (0, 13934)], [(28868792, 0), (0, 532938),
    (0, 25428), (0, 896), (0, 22)], [(0, 16730), (0, 356), (0, 21), (0, 1)]], 3, 4⟩, 1099511627776, 0, 129606246,
    ⟨[[(36550968141102, 0), (164063959065, 0), (421736860, 0), (0, 467722), (3354, 0)], [(51519632036, 0),
    (208177455, 0), (40718, 0), (656, 0), (5, 0)], [(0, 6420701), (0, 133240), (0, 63), (2, 0)], [(0, 3652), (65, 0),
    (1, 0)]], 3, 4⟩, 68719476736, 472756791,
    375505213039572198509311056149514229835125796933664667277848457537870255400616164487783336531, ⟨0, 0,
    -33533013066910, [123754969292, 35257826, 13393]⟩⟩))) (.sy (.sy (.leaf ⟨355, 16, 387, 372, 16, 219, ⟨[[(0,
    136365211648)], [(415538085888, 0)]], 3, 4⟩, ⟨[[(0, 376673677803), (0, 2190711655080), (9567470245, 0), (0,
    93928079), (342067, 0)], [(0, 246608131188), (0, 360395330), (0, 6733872), (0, 106804), (0, 1433)], [(109142011,
    0), (0, 678068), (0, 15268), (0, 288), (0, 4)], [(0, 104287), (0, 749), (0, 23), (0, 1)]], 3, 4⟩, 1099511627776,
    0, 890398300, ⟨[[(41378448977445, 0), (180582682748, 0), (391371574, 0), (0, 235094), (2668, 0)], [(107104882724,
    0), (386313825, 0), (145751, 0), (1556, 0), (0, 9)], [(0, 34075744), (0, 476826), (227, 0), (0, 4)], [(0, 12366),
    (636, 0), (1, 0)]], 3, 4⟩, 68719476736, 728841791,
    271488165096691689417287353525338996845296555468040656556564209901178926565016055081627736942, ⟨0, 0,
    -19260625329464, [236703411227, 126040155, 89485]⟩⟩) (.leaf ⟨355, 16, 387, 365, 16, 222, ⟨[[(0, 136365211648)],
    [(415538085888, 0)]], 3, 4⟩, ⟨[[(0, 77610092658), (0, 2114364389851), (8045746406, 0), (0, 89167842), (161587,
    0)], [(0, 252449427569), (0, 460278094), (0, 9117131), (0, 147943), (0, 1866)], [(105886839, 0), (0, 908587), (0,
    21748), (0, 410), (0, 6)], [(0, 111217), (0, 1097), (0, 34), (0, 1)]], 3, 4⟩, 1099511627776, 0, 925533349,
    ⟨[[(39279839279881, 0), (168810466351, 0), (391458353, 0), (0, 362554), (3069, 0)], [(102513187515, 0),
    (378360208, 0), (83214, 0), (1638, 0), (4, 0)], [(0, 28351137), (0, 476045), (191, 0), (6, 0)], [(0, 19698),
    (570, 0), (4, 0)]], 3, 4⟩, 68719476736, 772436366,
    320494164714477511121076809975828963523931766363354662965303497751210192788280181845715587420, ⟨0, 0,
    -19524469512059, [239945923710, 127766733, 90711]⟩⟩)) (.sx (.leaf ⟨694, 16, 774, 342, 16, 215, ⟨[[(282394099712,
    0)], [(415538085888, 0)]], 3, 4⟩, ⟨[[(0, 149735424034), (0, 3830953780652), (23055277965, 0), (0, 646031463), (0,
    475050)], [(0, 126641764307), (0, 591282704), (0, 24671141), (0, 787520), (0, 18300)], [(25031087, 0), (0,
    631633), (0, 31407), (0, 1141), (0, 30)], [(0, 15555), (0, 427), (0, 26), (0, 1)]], 3, 4⟩, 1099511627776, 0,
    133628326, ⟨[[(36546957984750, 0), (161388962379, 0), (433654092, 0), (0, 572298), (3413, 0)], [(49195468784, 0),
    (198634526, 0), (18899, 0), (549, 0), (6, 0)], [(0, 5510323), (0, 125803), (0, 69), (2, 0)], [(0, 3537), (56,
    0)]], 3, 4⟩, 68719476736, 611424439,
    395773032032695701062130632751652659021288412742386340005819269087890432227697155486931180247, ⟨0, 0,
    -23725394717655, [118783275729, 32330777, 11733]⟩⟩) (.leaf ⟨725, 16, 774, 333, 16, 215, ⟨[[(271656681472, 0)],
    [(415538085888, 0)]], 3, 4⟩, ⟨[[(0, 478886719197), (0, 3883932558893), (20805629606, 0), (0, 718944306), (0,
    2205727)], [(0, 122843915826), (0, 704028952), (0, 30397201), (0, 999504), (0, 24264)], [(21320308, 0), (0,
    746815), (0, 38690), (0, 1459), (0, 43)], [(0, 14672), (0, 512), (0, 33), (0, 1)]], 3, 4⟩, 1099511627776, 0,
    150357653, ⟨[[(36595370893103, 0), (159467139610, 0), (450854848, 0), (0, 679674), (3357, 0)], [(47126112889, 0),
    (190851866, 0), (1200, 0), (420, 0), (5, 0)], [(0, 4728957), (0, 119640), (0, 77)], [(0, 3408), (49, 0)]], 3, 4⟩,
    68719476736, 927380232,
    408668901825256807860104571382613873307797739685861589318174838369399013142962499504990880802, ⟨0, 0,
    -14196298079675, [113707596412, 29626784, 10292]⟩⟩)))
theorem c25 : checkC job ⟨6, 8, 8, 10, 9, 13⟩ 3 100 lims t25 449 41 512 15 3 32 = true := by decide +kernel

def t26 : CTree :=
  .sy (.sx (.sy (.leaf ⟨386, 16, 387, 367, 16, 227, ⟨[[(0, 147102629888)], [(415538085888, 0)]], 3, 4⟩, ⟨[[(0,
    208359696655), (0, 2306556886798), (9223941282, 0), (0, 108770536), (198302, 0)], [(0, 239115406495), (0,
    506145650), (0, 10114898), (0, 172039), (0, 2397)], [(88806476, 0), (0, 925172), (0, 22857), (0, 461), (0, 7)],
    [(0, 90963), (0, 1048), (0, 34), (0, 1)]], 3, 4⟩, 1099511627776, 0, 686834573, ⟨[[(41348988981743, 0),
    (171403928270, 0), (383196143, 0), (0, 361214), (3026, 0)], [(98579301707, 0), (341746822, 0), (67717, 0), (1713,
    0), (0, 2)], [(0, 27140004), (0, 418228), (398, 0), (1, 0)], [(0, 13635), (537, 0), (2, 0)]], 3, 4⟩, 68719476736,
    707673474, 258678509772315890600613636727652489010673423785642505903913185744852823338093601818607840695, ⟨0, 0,
    -675943040584, [225645205092, 110502059, 72153]⟩⟩) (.leaf ⟨386, 16, 387, 358, 16, 229, ⟨[[(0, 147102629888)],
    [(415538085888, 0)]], 3, 4⟩, ⟨[[(0, 409133433970), (0, 2226946843191), (7355873295, 0), (0, 107812384), (0,
    37322)], [(0, 244693923008), (0, 654034273), (0, 13900158), (0, 240059), (0, 3152)], [(83048768, 0), (0,
    1266785), (0, 33107), (0, 662), (0, 10)], [(0, 99554), (0, 1575), (0, 53), (0, 1)]], 3, 4⟩, 1099511627776, 0,
    729301758, ⟨[[(39327497934202, 0), (160514361920, 0), (392162816, 0), (0, 501276), (3074, 0)], [(94441985496, 0),
    (337870988, 0), (7980, 0), (1391, 0), (14, 0)], [(0, 22016311), (0, 422152), (164, 0), (11, 0)], [(0, 19678),
    (441, 0), (5, 0)]], 3, 4⟩, 68719476736, 704798076,
    284117590315416384592319204299822410638536922615638459439776714906733556658108791158112989115, ⟨0, 0,
    -681898485876, [227633268573, 111475646, 72789]⟩⟩)) (.sy (.leaf ⟨417, 16, 387, 357, 16, 232, ⟨[[(0,
    157840048128)], [(415538085888, 0)]], 3, 4⟩, ⟨[[(191673922171, 0), (0, 2406777750911), (8400874928, 0), (0,
    129262486), (0, 54484)], [(0, 231291695114), (0, 696411895), (0, 14981426), (0, 272500), (0, 3941)], [(69306619,
    0), (0, 1255171), (0, 33961), (0, 727), (0, 11)], [(0, 82505), (0, 1471), (0, 52), (0, 1)]], 3, 4⟩,
    1099511627776, 0, 555587730, ⟨[[(41287850987660, 0), (163991826406, 0), (390617822, 0), (0, 505015), (3192, 0)],
    [(91270308165, 0), (308809268, 0), (573, 0), (1660, 0), (8, 0)], [(0, 21345207), (0, 378986), (423, 0), (7, 0)],
    [(0, 14750), (445, 0), (4, 0)]], 3, 4⟩, 68719476736, 736877767,
    244423969909943281795476014141323366431156493347002961370800881964303146814997624746798556307, ⟨0, 0,
    17498603779511, [213470794591, 96768266, 58488]⟩⟩) (.leaf ⟨417, 16, 387, 346, 16, 233, ⟨[[(0, 157840048128)],
    [(415538085888, 0)]], 3, 4⟩, ⟨[[(0, 248322635667), (0, 2330044488634), (6065202477, 0), (0, 135021184), (0,
    380011)], [(0, 237091337811), (0, 913207246), (0, 20917000), (0, 384139), (0, 5340)], [(60640298, 0), (0,
    1759619), (0, 50072), (0, 1067), (0, 17)], [(0, 93922), (0, 2269), (0, 82), (0, 2)]], 3, 4⟩, 1099511627776, 0,
    614046666, ⟨[[(39302363347067, 0), (153316731300, 0), (408894381, 0), (0, 646440), (2578, 0)], [(87411973267, 0),
    (308144278, 0), (0, 47745), (766, 0), (27, 0)], [(0, 16567118), (0, 382758), (0, 58), (17, 0)], [(0, 19552),
    (309, 0), (7, 0)]], 3, 4⟩, 68719476736, 997047438,
    313800998985902122760226025837407255970583430438865475991423630174810242006739195686755722188, ⟨0, 0,
    17574028795802, [214390927326, 97185371, 58740]⟩⟩))) (.sx (.sx (.leaf ⟨756, 16, 774, 322, 16, 214,
    ⟨[[(260919263232, 0)], [(415538085888, 0)]], 3, 4⟩, ⟨[[(23382301059, 0), (0, 3928622549953), (17949733880, 0),
    (0, 807835342), (0, 4511681)], [(0, 119082667520), (0, 833616826), (0, 37288206), (0, 1266633), (0, 32991)],
    [(17702161, 0), (0, 881235), (0, 47605), (0, 1887), (0, 67)], [(0, 14059), (0, 615), (0, 42), (0, 2)]], 3, 4⟩,
    1099511627776, 0, 191267878, ⟨[[(36523590370564, 0), (157248127224, 0), (476043613, 0), (0, 802690), (3112, 0)],
    [(45079883211, 0), (184598479, 0), (0, 13513), (279, 0), (0, 3)], [(0, 3933788), (0, 114327), (0, 73), (0, 4),
    (1, 0)], [(0, 3322), (46, 0), (0, 1)]], 3, 4⟩, 68719476736, 1561567636,
    511270503642478596765809586475689770326201760969637958615374830662421372142214680285645720147, ⟨0, 0,
    -5042423884919, [108540715196, 27121618, 9036]⟩⟩) (.sy (.leaf ⟨787, 16, 774, 496, 16, 333, ⟨[[(250181844992, 0)],
    [(415538085888, 0)]], 3, 4⟩, ⟨[[(0, 26106188899), (0, 3153428860391), (7243456156, 0), (0, 172437751), (0,
    525833)], [(0, 179061032814), (0, 672017357), (0, 15279370), (0, 267881), (0, 3556)], [(24468944, 0), (0,
    689500), (0, 19115), (0, 390), (0, 7)], [(0, 19955), (0, 471), (0, 16)]], 3, 4⟩, 1099511627776, 0, 73569880,
    ⟨[[(37393059699309, 0), (102659708959, 0), (199677151, 0), (0, 221801), (509, 0)], [(44249490631, 0), (114239020,
    0), (0, 8714), (43, 0), (2, 0)], [(0, 3862823), (0, 70584), (0, 41)], [(0, 2992), (25, 0)]], 3, 4⟩, 68719476736,
    39431121, 177511039197285850955814994232456617529783940437090097639048068029449816267519560593343148957, ⟨0, 0,
    5726950967292, [162248599878, 38945895, 12465]⟩⟩) (.leaf ⟨787, 16, 774, 480, 16, 334, ⟨[[(250181844992, 0)],
    [(415538085888, 0)]], 3, 4⟩, ⟨[[(449712529566, 0), (0, 3094948058273), (4004463718, 0), (0, 191644465), (0,
    1123423)], [(0, 184257824840), (0, 890475322), (0, 21093749), (0, 386598), (0, 7424)], [(19607681, 0), (0,
    971495), (0, 28373), (0, 704), (0, 26)], [(0, 23551), (0, 731), (0, 29), (0, 1)]], 3, 4⟩, 1099511627776, 0,
    97888808, ⟨[[(35664902073816, 0), (95197866639, 0), (210872630, 0), (0, 253234), (610, 0)], [(42254614175, 0),
    (114252129, 0), (0, 14251), (383, 0), (0, 18)], [(0, 2638285), (0, 70706), (157, 0), (0, 11)], [(0, 3632), (68,
    0), (0, 3)]], 3, 4⟩, 68719476736, 148585454,
    229063325698857219377942256743906040697081043535272517011351406161815551395501884618478630188, ⟨0, 0,
    5744149018244, [162735832910, 39062850, 12502]⟩⟩))) (.sx (.sy (.leaf ⟨818, 16, 774, 483, 16, 333,
    ⟨[[(239444426752, 0)], [(415538085888, 0)]], 3, 4⟩, ⟨[[(0, 261888580718), (0, 3213442827647), (5852431405, 0),
    (0, 197274923), (0, 869965)], [(0, 175448633191), (0, 795222486), (0, 18772493), (0, 341291), (0, 4950)],
    [(19592617, 0), (0, 817082), (0, 23674), (0, 514), (0, 11)], [(0, 19762), (0, 570), (0, 21), (0, 1)]], 3, 4⟩,
    1099511627776, 0, 72047902, ⟨[[(37415445570903, 0), (100834237383, 0), (208467072, 0), (0, 244835), (378, 0)],
    [(42570660939, 0), (110239667, 0), (0, 11895), (0, 25), (1, 0)], [(0, 3240798), (0, 67220), (0, 50), (0, 1)],
    [(0, 2893), (22, 0)]], 3, 4⟩, 68719476736, 59070075,
    152232310930212477636677295334523319391883223924335943735579052327275590193128516548690224426, ⟨0, 0,
    18776139858451, [156103387319, 36051591, 11101]⟩⟩) (.leaf ⟨818, 16, 774, 463, 16, 331, ⟨[[(239444426752, 0)],
    [(415538085888, 0)]], 3, 4⟩, ⟨[[(0, 458740137192), (0, 3146409292282), (2047778723, 0), (0, 226850451), (0,
    1951172)], [(0, 179889992062), (0, 1056177168), (0, 26178684), (0, 529571), (0, 13984)], [(13625559, 0), (0,
    1163536), (0, 36798), (0, 1142), (0, 60)], [(0, 23977), (0, 920), (0, 43), (0, 3)]], 3, 4⟩, 1099511627776, 0,
    124709206, ⟨[[(35743820333455, 0), (94001996975, 0), (224434921, 0), (0, 278112), (745, 0)], [(40670683659, 0),
    (111362511, 0), (0, 20293), (698, 0), (0, 32)], [(0, 2084194), (0, 69594), (316, 0), (0, 19), (1, 0)], [(0,
    3675), (98, 0), (0, 6)]], 3, 4⟩, 68719476736, 266499203,
    280987364948385222028136009466178363823355392762901828912607386983632609187845377605361128622, ⟨0, 0,
    18663370249692, [155165829437, 35835065, 11035]⟩⟩)) (.sy (.leaf ⟨849, 16, 774, 467, 16, 331, ⟨[[(228707008512,
    0)], [(415538085888, 0)]], 3, 4⟩, ⟨[[(0, 37981580327), (0, 3264749414765), (4116620024, 0), (0, 227723905), (0,
    1356484)], [(0, 171598159454), (0, 935884319), (0, 22981279), (0, 437563), (0, 7308)], [(14621258, 0), (0,
    966704), (0, 29452), (0, 704), (0, 19)], [(0, 19894), (0, 695), (0, 28), (0, 1)]], 3, 4⟩, 1099511627776, 0,
    76238235, ⟨[[(37395631301551, 0), (99168581080, 0), (220762619, 0), (0, 266547), (199, 0)], [(40960564369, 0),
    (107151060, 0), (0, 12963), (0, 82), (0, 2)], [(0, 2641912), (0, 64224), (0, 48), (0, 2)], [(0, 2799), (23, 0),
    (0, 1)]], 3, 4⟩, 68719476736, 83326527,
    183259418690934646512310972084697754019102952072871357349769744417892147328318677648413582105, ⟨0, 0,
    31151929696256, [149503347010, 33267322, 9870]⟩⟩) (.leaf ⟨849, 16, 774, 444, 16, 327, ⟨[[(228707008512, 0)],
    [(415538085888, 0)]], 3, 4⟩, ⟨[[(0, 209851825249), (0, 3202211893246), (0, 368898381), (0, 276304472), (0,
    3600437)], [(0, 175994259773), (0, 1252035050), (0, 32848509), (0, 775375), (0, 29188)], [(7480061, 0), (0,
    1406789), (0, 50014), (0, 2071), (0, 141)], [(0, 25084), (0, 1206), (0, 72), (0, 6), (0, 1)]], 3, 4⟩,
    1099511627776, 0, 196347424, ⟨[[(35722964448072, 0), (92274749013, 0), (241129616, 0), (0, 308753), (1333, 0)],
    [(39073761775, 0), (109057342, 0), (0, 34274), (1561, 0), (0, 63)], [(0, 1492288), (0, 71504), (696, 0), (0, 35),
    (1, 0)], [(0, 4027), (168, 0), (0, 10)]], 3, 4⟩, 68719476736, 458468182,
    345111205112075550005813855357593748982302933344699637455643342935401743922537633554381724814, ⟨0, 0,
    30775471331346, [147696660037, 32865300, 9751]⟩⟩))))
theorem c26 : checkC job ⟨6, 8, 8, 10, 9, 13⟩ 3 100 lims t26 531 41 512 15 3 32 = true := by decide +kernel

def t27 : CTree :=
  .sx (.sx (.leaf ⟨632, 16, 774, 353, 16, 222, ⟨[[(303868936192, 0)], [(415538085888, 0)]], 3, 4⟩, ⟨[[(0,
    159605808741), (0, 3604340114350), (17289772030, 0), (0, 556461671), (0, 1711043)], [(0, 143906430903), (0,
    694864799), (0, 28711988), (0, 863057), (0, 22803)], [(30645065, 0), (0, 825334), (0, 39876), (0, 1484), (0,
    73)], [(0, 21779), (0, 625), (0, 39), (0, 2)]], 3, 4⟩, 1099511627776, 0, 217818787, ⟨[[(33457182572540, 0),
    (143781439668, 0), (405726686, 0), (0, 568456), (4089, 0)], [(49804302573, 0), (208192611, 0), (14498, 0), (1649,
    0), (0, 63)], [(0, 4690194), (0, 135611), (340, 0), (0, 31), (1, 0)], [(0, 5357), (132, 0), (0, 7)]], 3, 4⟩,
    68719476736, 1233658720,
    930705330602838888261729040327958540399230414557793469319406990569717963866936617433842303940, ⟨0, 0,
    -45567727928877, [134673773080, 40249185, 16039]⟩⟩) (.sy (.leaf ⟨663, 16, 774, 519, 16, 332, ⟨[[(293131517952,
    0)], [(415538085888, 0)]], 3, 4⟩, ⟨[[(479966119530, 0), (0, 2778201604717), (6531906203, 0), (0, 115808247), (0,
    219486)], [(0, 206562284434), (0, 555406018), (0, 11721924), (0, 181608), (0, 2382)], [(40124749, 0), (0,
    640707), (0, 15933), (0, 300), (0, 7)], [(0, 29251), (0, 476), (0, 15)]], 3, 4⟩, 1099511627776, 0, 125744768,
    ⟨[[(34116679716635, 0), (97095981485, 0), (186285749, 0), (0, 184454), (760, 0)], [(48307852153, 0), (133671566,
    0), (2567, 0), (389, 0), (0, 10)], [(0, 4373886), (0, 85600), (103, 0), (0, 7)], [(0, 4744), (70, 0), (0, 3)]],
    3, 4⟩, 68719476736, 87559286,
    403459318024776607510117116648292386613904660448457357730710168886020547114682150302843589331, ⟨0, 0,
    -52023179150534, [191993690677, 54699057, 20778]⟩⟩) (.leaf ⟨663, 16, 774, 506, 16, 333, ⟨[[(293131517952, 0)],
    [(415538085888, 0)]], 3, 4⟩, ⟨[[(0, 15142175837), (0, 2720758955968), (4386909454, 0), (0, 126458073), (0,
    772909)], [(0, 210993296548), (0, 720502021), (0, 15779274), (0, 286336), (0, 8188)], [(35736597, 0), (0,
    876488), (0, 24283), (0, 760), (0, 44)], [(0, 32879), (0, 737), (0, 33), (0, 2)]], 3, 4⟩, 1099511627776, 0,
    160109899, ⟨[[(32746768728091, 0), (91283465672, 0), (194421166, 0), (0, 251778), (1928, 0)], [(46365662122, 0),
    (133651523, 0), (0, 39708), (1941, 0), (0, 52)], [(0, 3072833), (0, 97030), (887, 0), (0, 34), (1, 0)], [(0,
    6751), (246, 0), (0, 11)]], 3, 4⟩, 68719476736, 303023062,
    589868127336738883217374359471823552501355371133800686079020581312918796626895722813858283982, ⟨0, 0,
    -52179875473276, [192571984926, 54863813, 20841]⟩⟩))) (.sx (.sy (.leaf ⟨694, 16, 774, 507, 16, 334,
    ⟨[[(282394099712, 0)], [(415538085888, 0)]], 3, 4⟩, ⟨[[(329885563002, 0), (0, 2845367553652), (5487514599, 0),
    (0, 133790349), (0, 477855)], [(0, 201770451815), (0, 674816042), (0, 14758481), (0, 242771), (0, 4096)],
    [(33296604, 0), (0, 775410), (0, 20370), (0, 446), (0, 15)], [(0, 28181), (0, 590), (0, 21), (0, 1)]], 3, 4⟩,
    1099511627776, 0, 118503308, ⟨[[(34131639488457, 0), (94853487179, 0), (192952279, 0), (0, 215710), (925, 0)],
    [(46091731368, 0), (127785165, 0), (0, 9571), (635, 0), (0, 19)], [(0, 3547808), (0, 82486), (242, 0), (0, 13)],
    [(0, 4730), (96, 0), (0, 4)]], 3, 4⟩, 68719476736, 146377730,
    430150357116267124964926380761738073904222841702360154037845558540329528760914304591444142442, ⟨0, 0,
    -36857124817194, [184528437644, 50225487, 18227]⟩⟩) (.leaf ⟨694, 16, 774, 490, 16, 333, ⟨[[(282394099712, 0)],
    [(415538085888, 0)]], 3, 4⟩, ⟨[[(497837803182, 0), (0, 2786171420226), (2908411507, 0), (0, 156585240), (0,
    1873054)], [(0, 205792227012), (0, 880693546), (0, 20586807), (0, 472265), (0, 20724)], [(27700384, 0), (0,
    1088200), (0, 35552), (0, 1644), (0, 122)], [(0, 32657), (0, 1010), (0, 63), (0, 6)]], 3, 4⟩, 1099511627776, 0,
    205483433, ⟨[[(32706108175978, 0), (88952305078, 0), (206299818, 0), (0, 331638), (3404, 0)], [(44101062172, 0),
    (129403022, 0), (0, 93300), (3742, 0), (0, 97)], [(0, 2131833), (0, 107506), (1706, 0), (0, 59), (1, 0)], [(0,
    8064), (406, 0), (0, 19), (1, 0)]], 3, 4⟩, 68719476736, 586589266,
    835835491051674208539879222911844015928322840514703412357605094356490148232557644553382065455, ⟨0, 0,
    -36746774144089, [183975957292, 50075111, 18173]⟩⟩)) (.sy (.leaf ⟨725, 16, 774, 494, 16, 335, ⟨[[(271656681472,
    0)], [(415538085888, 0)]], 3, 4⟩, ⟨[[(0, 92099855761), (0, 2914962071762), (4140149991, 0), (0, 157699072), (0,
    955760)], [(0, 197463211950), (0, 817268975), (0, 18630221), (0, 337763), (0, 8095)], [(26517689, 0), (0,
    941133), (0, 26664), (0, 739), (0, 37)], [(0, 27789), (0, 746), (0, 31), (0, 2)]], 3, 4⟩, 1099511627776, 0,
    126104339, ⟨[[(34168789558763, 0), (92742297054, 0), (201359637, 0), (0, 249340), (1241, 0)], [(44079061181, 0),
    (122820138, 0), (0, 24454), (1094, 0), (0, 34)], [(0, 2807271), (0, 81511), (473, 0), (0, 22), (1, 0)], [(0,
    4884), (140, 0), (0, 7)]], 3, 4⟩, 68719476736, 246487473,
    466768730464914877511151670799773566796721653254816884443962304460649838596351351354342013049, ⟨0, 0,
    -22119813286936, [177172301386, 46162663, 16037]⟩⟩) (.leaf ⟨725, 16, 774, 474, 16, 332, ⟨[[(271656681472, 0)],
    [(415538085888, 0)]], 3, 4⟩, ⟨[[(0, 186007739486), (0, 2857712121944), (936277749, 0), (0, 209692410), (0,
    4736499)], [(0, 201306984885), (0, 1079186973), (0, 27985076), (0, 897404), (0, 54978)], [(19496072, 0), (0,
    1388976), (0, 58478), (0, 3923), (0, 332)], [(0, 33749), (0, 1525), (0, 136), (0, 14), (0, 1)]], 3, 4⟩,
    1099511627776, 0, 349215993, ⟨[[(32761983164536, 0), (86977997026, 0), (220245088, 0), (0, 441256), (5837, 0)],
    [(42135390432, 0), (126378766, 0), (0, 173153), (6539, 0), (0, 166)], [(0, 1279601), (0, 126049), (2890, 0), (0,
    96), (2, 0)], [(0, 10000), (625, 0), (0, 28), (1, 0)]], 3, 4⟩, 68719476736, 982103911,
    1192410726973334854869213180750104174087718679320043764684661540378189882091885015930047347583, ⟨0, 0,
    -21921725406754, [175585683761, 45749266, 15893]⟩⟩)))
theorem c27 : checkC job ⟨6, 8, 8, 10, 9, 13⟩ 3 100 lims t27 449 41 512 39 3 64 = true := by decide +kernel

def t28 : CTree :=
  .sx (.sy (.leaf ⟨756, 16, 774, 476, 16, 333, ⟨[[(260919263232, 0)], [(415538085888, 0)]], 3, 4⟩, ⟨[[(523603706489,
    0), (0, 2970901739444), (2399376309, 0), (0, 190395409), (0, 1953004)], [(0, 192519474662), (0, 982134117), (0,
    23603494), (0, 502303), (0, 17927)], [(19539203, 0), (0, 1143904), (0, 36355), (0, 1387), (0, 93)], [(0, 27974),
    (0, 971), (0, 52), (0, 4)]], 3, 4⟩, 1099511627776, 0, 164294305, ⟨[[(34118565905800, 0), (90763628514, 0),
    (215127000, 0), (0, 302867), (2134, 0)], [(42100688220, 0), (119509049, 0), (0, 53571), (2245, 0), (0, 68)], [(0,
    2030311), (0, 86153), (993, 0), (0, 40), (1, 0)], [(0, 5551), (238, 0), (0, 12)]], 3, 4⟩, 68719476736, 417006142,
    581524145288390637991487028522097823107475245627397793593431071946283494383654009280069416117, ⟨0, 0,
    -7846388568589, [168897468038, 42203265, 14061]⟩⟩) (.sy (.leaf ⟨756, 16, 774, 625, 16, 448, ⟨[[(260919263232,
    0)], [(415538085888, 0)]], 3, 4⟩, ⟨[[(0, 325641958973), (0, 1992371760684), (0, 184792220), (0, 44122355), (0,
    629834)], [(0, 265669486821), (0, 830798227), (0, 11524196), (0, 213947), (0, 7230)], [(18126144, 0), (0,
    1083219), (0, 25820), (0, 975), (0, 43)], [(0, 45702), (0, 1273), (0, 64), (0, 4)]], 3, 4⟩, 1099511627776, 0,
    188208386, ⟨[[(33109291066741, 0), (63706270161, 0), (126045353, 0), (0, 202400), (2173, 0)], [(40722215858, 0),
    (90809842, 0), (0, 116780), (3274, 0), (0, 62)], [(0, 834814), (0, 98221), (1904, 0), (0, 47), (1, 0)], [(0,
    10538), (529, 0), (0, 18)]], 3, 4⟩, 68719476736, 227414180,
    694233189014613511229993688685148029861677544279419803434543476059942025484283084975813408740, ⟨0, 0,
    -10556102338522, [227225422466, 56777967, 18917]⟩⟩) (.leaf ⟨756, 16, 774, 604, 16, 441, ⟨[[(260919263232, 0)],
    [(415538085888, 0)]], 3, 4⟩, ⟨[[(247397192904, 0), (0, 1968820016279), (0, 1157768837), (0, 69404903), (0,
    1743029)], [(0, 266890859819), (0, 984971481), (0, 17427728), (0, 520885), (0, 21267)], [(10252807, 0), (0,
    1524699), (0, 56507), (0, 2838), (0, 130)], [(0, 55815), (0, 2589), (0, 182), (0, 11), (0, 1)]], 3, 4⟩,
    1099511627776, 0, 327150834, ⟨[[(32398993093239, 0), (61697932821, 0), (139609967, 0), (0, 376116), (5372, 0)],
    [(39664518336, 0), (96716572, 0), (0, 301560), (7849, 0), (0, 139)], [(618323, 0), (0, 167900), (4383, 0), (0,
    100), (2, 0)], [(0, 19581), (1141, 0), (0, 37), (1, 0)]], 3, 4⟩, 68719476736, 520960719,
    987603385405655375063364308397424072459710322505397425007238223027967116231737496858451630377, ⟨0, 0,
    -10391163239483, [223675025240, 55890811, 18621]⟩⟩))) (.sy (.leaf ⟨787, 16, 774, 458, 16, 330, ⟨[[(250181844992,
    0)], [(415538085888, 0)]], 3, 4⟩, ⟨[[(65470513412, 0), (0, 3032143309819), (184160376, 0), (0, 241474599), (0,
    4260513)], [(0, 188175926164), (0, 1180826312), (0, 30589021), (0, 831646), (0, 42836)], [(12399800, 0), (0,
    1413059), (0, 53653), (0, 2923), (0, 236)], [(0, 29091), (0, 1347), (0, 98), (0, 10), (0, 1)]], 3, 4⟩,
    1099511627776, 0, 274852703, ⟨[[(34157283565728, 0), (89105349850, 0), (230718059, 0), (0, 372340), (3728, 0)],
    [(40367680173, 0), (117008019, 0), (0, 98856), (4136, 0), (0, 121)], [(0, 1345400), (0, 95995), (1783, 0), (0,
    68), (2, 0)], [(0, 6616), (380, 0), (0, 19), (1, 0)]], 3, 4⟩, 68719476736, 876445795,
    753761353551143800723916467151956924735909859350996924919206749343925053697595034675054579472, ⟨0, 0,
    5675356814433, [160786900780, 38595031, 12352]⟩⟩) (.sy (.leaf ⟨787, 16, 774, 600, 16, 444, ⟨[[(250181844992, 0)],
    [(415538085888, 0)]], 3, 4⟩, ⟨[[(0, 465890705527), (0, 2050120134517), (0, 1335560557), (0, 70146509), (0,
    1619793)], [(0, 261301002525), (0, 1030299178), (0, 17351208), (0, 471609), (0, 19011)], [(6114316, 0), (0,
    1490384), (0, 50228), (0, 2426), (0, 113)], [(0, 51894), (0, 2262), (0, 150), (0, 9)]], 3, 4⟩, 1099511627776, 0,
    278318369, ⟨[[(33117484352881, 0), (61944053569, 0), (137847771, 0), (0, 306999), (4205, 0)], [(38932358910, 0),
    (90942650, 0), (0, 226242), (6172, 0), (0, 113)], [(230703, 0), (0, 136016), (3431, 0), (0, 81), (1, 0)], [(0,
    15261), (886, 0), (0, 30), (1, 0)]], 3, 4⟩, 68719476736, 418871581,
    817286788366638094590392306367668250315955867729391061499533642357689059951911951057736677348, ⟨0, 0,
    7635934623056, [216331466503, 51927860, 16620]⟩⟩) (.leaf ⟨787, 16, 774, 574, 16, 433, ⟨[[(250181844992, 0)],
    [(415538085888, 0)]], 3, 4⟩, ⟨[[(0, 271356234234), (0, 2024173969902), (0, 3038991254), (0, 136582434), (0,
    4648446)], [(0, 261595080663), (0, 1279225384), (0, 31228119), (0, 1278621), (0, 56483)], [(0, 5214862), (0,
    2426486), (0, 127620), (0, 7275), (0, 340)], [(0, 71760), (0, 5438), (0, 450), (0, 28), (0, 1)]], 3, 4⟩,
    1099511627776, 0, 616344579, ⟨[[(32428720286106, 0), (60134485440, 0), (160681277, 0), (0, 655908), (10695, 0)],
    [(37853038251, 0), (101868219, 0), (0, 581349), (14898, 0), (0, 260)], [(2377142, 0), (0, 261751), (7869, 0), (0,
    177), (3, 0)], [(0, 30320), (1909, 0), (0, 62), (1, 0)]], 3, 4⟩, 68719476736, 961048208,
    1208414712627274478849037267230718074275575858129872453965711541670409155851570051246872429674, ⟨0, 0,
    7446756062574, [210971903144, 50641359, 16208]⟩⟩)))
theorem c28 : checkC job ⟨6, 8, 8, 10, 9, 13⟩ 3 100 lims t28 1021 41 1024 39 3 64 = true := by decide +kernel

def t29 : CTree :=
  .sy (.sx (.sy (.leaf ⟨818, 16, 774, 617, 16, 454, ⟨[[(239444426752, 0)], [(415538085888, 0)]], 3, 4⟩, ⟨[[(0,
    174637796213), (0, 2155257258954), (0, 465538813), (0, 49656863), (0, 525909)], [(0, 254060119148), (0,
    913065568), (0, 12406713), (0, 186503), (0, 5270)], [(10293470, 0), (0, 1096795), (0, 22680), (0, 685), (0, 29)],
    [(0, 40268), (0, 1093), (0, 44), (0, 2)]], 3, 4⟩, 1099511627776, 0, 142333234, ⟨[[(34546219897712, 0),
    (64114066983, 0), (125930021, 0), (0, 148047), (1147, 0)], [(39198608277, 0), (82172592, 0), (0, 56823), (1782,
    0), (0, 39)], [(0, 1048481), (0, 69158), (1045, 0), (0, 29), (1, 0)], [(0, 6569), (297, 0), (0, 11)]], 3, 4⟩,
    68719476736, 171679904,
    382964967007700213441802961734229960086047229924524427319899052230396375980284624015255867152, ⟨0, 0,
    25598701188399, [212825639167, 49151418, 15135]⟩⟩) (.leaf ⟨818, 16, 774, 594, 16, 446, ⟨[[(239444426752, 0)],
    [(415538085888, 0)]], 3, 4⟩, ⟨[[(431544919236, 0), (0, 2128616777682), (0, 1494943108), (0, 70079633), (0,
    1428874)], [(0, 255452031811), (0, 1069087290), (0, 17171942), (0, 413098), (0, 16050)], [(2652276, 0), (0,
    1451424), (0, 43873), (0, 1978), (0, 93)], [(0, 48217), (0, 1962), (0, 119), (0, 7)]], 3, 4⟩, 1099511627776, 0,
    233851890, ⟨[[(33774217657539, 0), (62018406896, 0), (137766418, 0), (0, 261596), (3443, 0)], [(38171065240, 0),
    (86279468, 0), (0, 177475), (5089, 0), (0, 98)], [(33088, 0), (0, 114928), (2823, 0), (0, 70), (1, 0)], [(0,
    12468), (726, 0), (0, 25), (1, 0)]], 3, 4⟩, 68719476736, 375139509,
    579283846708369339166364474521842106198562962207386754210962870762710436663679691434833392766, ⟨0, 0,
    25147622753361, [209075407640, 48285314, 14868]⟩⟩)) (.sy (.leaf ⟨849, 16, 774, 590, 16, 448, ⟨[[(228707008512,
    0)], [(415538085888, 0)]], 3, 4⟩, ⟨[[(37061494122, 0), (0, 2208597407797), (0, 1642969161), (0, 70191782), (0,
    1213379)], [(0, 249867790997), (0, 1103788717), (0, 17056503), (0, 356630), (0, 12915)], [(0, 189075), (0,
    1416554), (0, 38333), (0, 1559), (0, 72)], [(0, 44914), (0, 1713), (0, 93), (0, 5)]], 3, 4⟩, 1099511627776, 0,
    196111565, ⟨[[(34534643300874, 0), (62515154465, 0), (136672827, 0), (0, 202239), (2342, 0)], [(37604939206, 0),
    (81542499, 0), (0, 113864), (3533, 0), (0, 73)], [(0, 289541), (0, 88868), (1979, 0), (0, 52), (1, 0)], [(0,
    9128), (517, 0), (0, 19)]], 3, 4⟩, 68719476736, 280095894,
    412066867090463302587461234023737937604328900864944861335959590952306449104392004888671073461, ⟨0, 0,
    42163336869857, [202348940968, 45026467, 13359]⟩⟩) (.leaf ⟨849, 16, 774, 562, 16, 436, ⟨[[(228707008512, 0)],
    [(415538085888, 0)]], 3, 4⟩, ⟨[[(475306221707, 0), (0, 2177370531049), (0, 3207034631), (0, 119596594), (0,
    3539854)], [(0, 250313758417), (0, 1325832993), (0, 27012669), (0, 918835), (0, 40400)], [(0, 10244570), (0,
    2074488), (0, 88226), (0, 4775), (0, 232)], [(0, 58567), (0, 3645), (0, 275), (0, 18), (0, 1)]], 3, 4⟩,
    1099511627776, 0, 401572635, ⟨[[(33773132026372, 0), (60592784882, 0), (155730742, 0), (0, 442123), (7173, 0)],
    [(36556046105, 0), (89170829, 0), (0, 358899), (10076, 0), (0, 188)], [(1263037, 0), (0, 176211), (5301, 0), (0,
    128), (2, 0)], [(0, 19532), (1272, 0), (0, 44), (1, 0)]], 3, 4⟩, 68719476736, 707810323,
    667726050227760975779769413734076262537842450057263717671088118557526826629354706682497781318, ⟨0, 0,
    41033961775128, [196928880049, 43820401, 13001]⟩⟩))) (.sx (.sy (.leaf ⟨818, 16, 774, 567, 16, 434,
    ⟨[[(239444426752, 0)], [(415538085888, 0)]], 3, 4⟩, ⟨[[(36841036610, 0), (0, 2097779284699), (0, 3128862731), (0,
    128672590), (0, 4158799)], [(0, 255535142988), (0, 1302706067), (0, 29081258), (0, 1103584), (0, 49040)], [(0,
    7996650), (0, 2239871), (0, 107275), (0, 6029), (0, 289)], [(0, 64651), (0, 4475), (0, 358), (0, 23), (0, 1)]],
    3, 4⟩, 1099511627776, 0, 500176620, ⟨[[(33090119046497, 0), (60397790898, 0), (158707052, 0), (0, 553949), (9076,
    0)], [(37162139883, 0), (95517021, 0), (0, 473386), (12646, 0), (0, 228)], [(1818593, 0), (0, 219323), (6636, 0),
    (0, 154), (2, 0)], [(0, 24810), (1591, 0), (0, 53), (1, 0)]], 3, 4⟩, 68719476736, 845891468,
    919073094273700043542063688753364201309038656161112036762804861452383568972503786539476419945, ⟨0, 0,
    24471005100804, [203450060349, 46986157, 14468]⟩⟩) (.sx (.leaf ⟨1621, 16, 1548, 798, 16, 618, ⟨[[(0,
    65498251264)], [(415538085888, 0)]], 3, 4⟩, ⟨[[(0, 46436530576), (0, 3016509220425), (0, 7946666998), (0,
    357795980), (0, 13969982)], [(0, 187779446667), (0, 1180499042), (0, 38140890), (0, 1846223), (0, 84236)], [(0,
    7354037), (0, 1360975), (0, 88290), (0, 5315), (0, 251)], [(0, 17459), (0, 1807), (0, 161), (0, 10)]], 3, 4⟩,
    1099511627776, 0, 276839013, ⟨[[(32425448207400, 0), (40326836267, 0), (88290697, 0), (0, 355454), (4251, 0)],
    [(18223491729, 0), (38303535, 0), (0, 237302), (4135, 0), (0, 49)], [(1133688, 0), (0, 68478), (1520, 0), (0,
    23)], [(0, 5647), (254, 0), (0, 6)]], 3, 4⟩, 68719476736, 156033450,
    1112486487462246081288541801158705318848769213108910626753711403307982377358990283031751905139, ⟨0, 0,
    28878552461431, [146237388564, 17047959, 2650]⟩⟩) (.leaf ⟨1652, 16, 1548, 764, 16, 602, ⟨[[(0, 76235669504)],
    [(415538085888, 0)]], 3, 4⟩, ⟨[[(0, 435385379950), (0, 3042704602861), (0, 11463167454), (0, 537060154), (0,
    22278903)], [(0, 184466380419), (0, 1408515610), (0, 54967693), (0, 2885548), (0, 133519)], [(0, 11929001), (0,
    1866267), (0, 135011), (0, 8326), (0, 395)], [(0, 22097), (0, 2705), (0, 249), (0, 16), (0, 1)]], 3, 4⟩,
    1099511627776, 0, 427156152, ⟨[[(32439785101044, 0), (40064696270, 0), (101838773, 0), (0, 518304), (6437, 0)],
    [(17765466511, 0), (42184462, 0), (0, 343856), (6036, 0), (0, 72)], [(1608234, 0), (0, 91931), (2133, 0), (0,
    33)], [(0, 7342), (342, 0), (0, 8)]], 3, 4⟩, 68719476736, 244652822,
    1123151864276262355476474202928850593127745743558801038255413115888418404047078942268514465355, ⟨0, 0,
    39701635305925, [139778919478, 15989352, 2439]⟩⟩))) (.sy (.sx (.leaf ⟨1683, 16, 1548, 783, 16, 615, ⟨[[(0,
    86973087744)], [(415538085888, 0)]], 3, 4⟩, ⟨[[(221623551826, 0), (0, 3099907659873), (0, 7684164997), (0,
    319903342), (0, 12159438)], [(0, 182316724121), (0, 1162231699), (0, 33609113), (0, 1543038), (0, 71465)], [(0,
    7662048), (0, 1190109), (0, 71471), (0, 4301), (0, 209)], [(0, 15081), (0, 1425), (0, 125), (0, 8)]], 3, 4⟩,
    1099511627776, 0, 237365248, ⟨[[(33093530679948, 0), (40860402212, 0), (86738817, 0), (0, 298853), (3649, 0)],
    [(17936484952, 0), (35538639, 0), (0, 193856), (3535, 0), (0, 44)], [(883298, 0), (0, 56752), (1288, 0), (0,
    21)], [(0, 4576), (212, 0), (0, 5)]], 3, 4⟩, 68719476736, 143945884,
    615878261867843767292899268803058494017470470813219033854109252755831246908685433929357217619, ⟨0, 0,
    52159886997200, [140167850961, 15738586, 2356]⟩⟩) (.leaf ⟨1714, 16, 1548, 750, 16, 599, ⟨[[(0, 97710505984)],
    [(415538085888, 0)]], 3, 4⟩, ⟨[[(0, 517890624610), (0, 3120727266080), (0, 10711926163), (0, 467915758), (0,
    19158983)], [(0, 179117055540), (0, 1354315265), (0, 47019030), (0, 2377673), (0, 112155)], [(0, 11518549), (0,
    1580774), (0, 107421), (0, 6668), (0, 325)], [(0, 18546), (0, 2090), (0, 191), (0, 13), (0, 1)]], 3, 4⟩,
    1099511627776, 0, 364756492, ⟨[[(33121102753857, 0), (40720128724, 0), (98121409, 0), (0, 423791), (5384, 0)],
    [(17529588481, 0), (38405991, 0), (0, 274901), (5043, 0), (0, 62)], [(1234905, 0), (0, 74499), (1773, 0), (0,
    29)], [(0, 5846), (281, 0), (0, 7)]], 3, 4⟩, 68719476736, 217672559,
    643785773969713016740818264821937787663406537549089274398612757946824116365231575115942452210, ⟨0, 0,
    61895795925670, [134052687501, 14779789, 2173]⟩⟩)) (.sx (.leaf ⟨1683, 16, 1548, 722, 16, 580, ⟨[[(0,
    86973087744)], [(415538085888, 0)]], 3, 4⟩, ⟨[[(397975695655, 0), (0, 3056484840512), (0, 16410484899), (0,
    808951423), (0, 35031522)], [(0, 180084646974), (0, 1713030781), (0, 79966242), (0, 4462024), (0, 208574)], [(0,
    17589653), (0, 2601585), (0, 205021), (0, 12865), (0, 612)], [(0, 28814), (0, 4033), (0, 380), (0, 25), (0, 1)]],
    3, 4⟩, 1099511627776, 0, 659715857, ⟨[[(32409634286866, 0), (39727596167, 0), (125279174, 0), (0, 835962),
    (10746, 0)], [(17234660885, 0), (49464239, 0), (0, 542899), (9640, 0), (0, 117)], [(2396673, 0), (0, 133716),
    (3247, 0), (0, 52), (1, 0)], [(0, 10210), (492, 0), (0, 11)]], 3, 4⟩, 68719476736, 422351021,
    1293078734988663178852884073354371543846540756748118030884846011496938385449460490213268832821, ⟨0, 0,
    49191438143701, [132190818793, 14842895, 2222]⟩⟩) (.sy (.leaf ⟨1714, 16, 1548, 984, 16, 800, ⟨[[(0,
    97710505984)], [(415538085888, 0)]], 3, 4⟩, ⟨[[(0, 378741265048), (0, 2173165174056), (0, 6738001553), (0,
    168644356), (0, 3719567)], [(0, 248995579605), (0, 1317742210), (0, 32598659), (0, 929601), (0, 21955)], [(0,
    28814769), (0, 2071348), (0, 83879), (0, 2661), (0, 64)], [(0, 44435), (0, 3244), (0, 155), (0, 5)]], 3, 4⟩,
    1099511627776, 0, 217951688, ⟨[[(32600720699743, 0), (28334194934, 0), (68434228, 0), (0, 346643), (3230, 0)],
    [(16959517332, 0), (36691199, 0), (0, 311534), (4004, 0), (0, 35)], [(2607929, 0), (0, 104684), (1856, 0), (0,
    21)], [(0, 10963), (385, 0), (0, 6)]], 3, 4⟩, 68719476736, 76678046,
    625711560757832820394637790895728494710906611036392208438577869677055372829269373349637833269, ⟨0, 0,
    82665503740461, [179035308850, 19739284, 2902]⟩⟩) (.leaf ⟨1714, 16, 1548, 925, 16, 762, ⟨[[(0, 97710505984)],
    [(415538085888, 0)]], 3, 4⟩, ⟨[[(428725010067, 0), (0, 2167842905607), (0, 10238679853), (0, 274347619), (0,
    6169109)], [(0, 246038700913), (0, 1744292702), (0, 52481182), (0, 1557994), (0, 36542)], [(0, 42796314), (0,
    3266416), (0, 141535), (0, 4496), (0, 107)], [(0, 67376), (0, 5494), (0, 265), (0, 9)]], 3, 4⟩, 1099511627776, 0,
    366564711, ⟨[[(32248194367052, 0), (27684268842, 0), (94317541, 0), (0, 643823), (6118, 0)], [(16426049000, 0),
    (49380061, 0), (0, 558179), (7222, 0), (0, 64)], [(4313551, 0), (0, 172919), (3170, 0), (0, 37)], [(0, 17159),
    (621, 0), (0, 11)]], 3, 4⟩, 68719476736, 149585980,
    2892435645187893299878492159927653269902091392591511273143276655772670818817808463291363776799, ⟨0, 0,
    78738892312789, [170531131679, 18801668, 2764]⟩⟩)))))
theorem c29 : checkC job ⟨6, 8, 8, 10, 9, 13⟩ 3 100 lims t29 1103 41 1024 39 3 64 = true := by decide +kernel

def t30 : CTree :=
  .sx (.sy (.leaf ⟨632, 16, 774, 505, 16, 331, ⟨[[(303868936192, 0)], [(415538085888, 0)]], 3, 4⟩, ⟨[[(0,
    535036042997), (0, 2597078824627), (3464514403, 0), (0, 124179842), (0, 1500842)], [(0, 220229618525), (0,
    759886851), (0, 17160202), (0, 406213), (0, 19113)], [(38663738, 0), (0, 995756), (0, 32838), (0, 1663), (0,
    124)], [(0, 38467), (0, 1009), (0, 69), (0, 6), (0, 1)]], 3, 4⟩, 1099511627776, 0, 239117421, ⟨[[(31486080468413,
    0), (88371824949, 0), (197205380, 0), (0, 328561), (3862, 0)], [(46820909052, 0), (141016578, 0), (0, 111147),
    (4447, 0), (0, 106)], [(0, 2510741), (0, 126965), (2149, 0), (0, 69), (1, 0)], [(0, 10676), (549, 0), (0, 24),
    (1, 0)]], 3, 4⟩, 68719476736, 589584926,
    1128108133570458055080597775021685289445365256297346938957178214398354961926835415669800449882, ⟨0, 0,
    -67941071821884, [200797382385, 60011172, 23914]⟩⟩) (.sx (.leaf ⟨1249, 16, 1548, 678, 16, 454, ⟨[[(63350767616,
    0)], [(415538085888, 0)]], 3, 4⟩, ⟨[[(500665918524, 0), (0, 3498295756212), (1655747033, 0), (0, 266997518), (0,
    9843083)], [(0, 155581652670), (0, 665498013), (0, 19761885), (0, 971448), (0, 69394)], [(11620570, 0), (0,
    539947), (0, 33587), (0, 2964), (0, 242)], [(0, 8240), (0, 476), (0, 60), (0, 7), (0, 1)]], 3, 4⟩, 1099511627776,
    0, 322327690, ⟨[[(30224876182877, 0), (60451903446, 0), (113987729, 0), (0, 271171), (3374, 0)], [(22651216494,
    0), (54278579, 0), (0, 119341), (2804, 0), (0, 44)], [(0, 75674), (0, 43516), (931, 0), (0, 19)], [(0, 3043),
    (150, 0), (0, 4)]], 3, 4⟩, 68719476736, 189205351,
    1440089134377132205404810921493636023575370645369057049971181098944828732510414301593263447958, ⟨0, 0,
    -98868918390129, [139415282541, 21091571, 4254]⟩⟩) (.leaf ⟨1280, 16, 1548, 663, 16, 451, ⟨[[(52613349376, 0)],
    [(415538085888, 0)]], 3, 4⟩, ⟨[[(0, 536326042818), (0, 3533284812456), (0, 226652660), (0, 368275289), (0,
    17392064)], [(0, 152828842405), (0, 760004367), (0, 26532413), (0, 1605575), (0, 121617)], [(9465720, 0), (0,
    679396), (0, 52413), (0, 5054), (0, 418)], [(0, 8770), (0, 709), (0, 99), (0, 11), (0, 1)]], 3, 4⟩,
    1099511627776, 0, 555111545, ⟨[[(30282042341856, 0), (60061147693, 0), (120941998, 0), (0, 342967), (4519, 0)],
    [(22077828202, 0), (54638429, 0), (0, 157844), (3661, 0), (0, 57)], [(115636, 0), (0, 50567), (1176, 0), (0,
    24)], [(0, 3501), (182, 0), (0, 5)]], 3, 4⟩, 68719476736, 258192889,
    1689381418808509980274869041021308840578263496604054713526345632453528762546667576653814584946, ⟨0, 0,
    -86997683403435, [135141065715, 19949965, 3927]⟩⟩))) (.sy (.leaf ⟨663, 16, 774, 488, 16, 331, ⟨[[(293131517952,
    0)], [(415538085888, 0)]], 3, 4⟩, ⟨[[(336604060762, 0), (0, 2666710355581), (1789031579, 0), (0, 173282925), (0,
    4300801)], [(0, 214665173773), (0, 947060116), (0, 24428365), (0, 864579), (0, 55604)], [(29169661, 0), (0,
    1313109), (0, 59671), (0, 4385), (0, 363)], [(0, 39113), (0, 1657), (0, 165), (0, 18), (0, 2)]], 3, 4⟩,
    1099511627776, 0, 384434667, ⟨[[(31417863496592, 0), (85736881612, 0), (212619139, 0), (0, 503537), (7547, 0)],
    [(44334792029, 0), (138035733, 0), (0, 248334), (8762, 0), (0, 203)], [(0, 1245351), (0, 162142), (4072, 0), (0,
    124), (3, 0)], [(0, 14537), (930, 0), (0, 39), (1, 0)]], 3, 4⟩, 68719476736, 1143536413,
    1519569715050296447897093048702931693827850750549469044726171833788799118459886287515794892745, ⟨0, 0,
    -51866482827791, [191415396428, 54534301, 20716]⟩⟩) (.sx (.leaf ⟨1311, 16, 1548, 644, 16, 446, ⟨[[(41875931136,
    0)], [(415538085888, 0)]], 3, 4⟩, ⟨[[(0, 56424698961), (0, 3560691642409), (0, 2785835035), (0, 534916920), (0,
    30428004)], [(0, 149780295180), (0, 878154515), (0, 37097760), (0, 2672713), (0, 210555)], [(7111994, 0), (0,
    887279), (0, 83273), (0, 8543), (0, 714)], [(0, 9702), (0, 1081), (0, 163), (0, 19), (0, 2)]], 3, 4⟩,
    1099511627776, 0, 965924685, ⟨[[(30256215133253, 0), (59484982216, 0), (132088454, 0), (0, 479672), (6756, 0)],
    [(21445501248, 0), (56221376, 0), (0, 231381), (5299, 0), (0, 83)], [(418452, 0), (0, 64343), (1634, 0), (0,
    33)], [(0, 4402), (240, 0), (0, 7)]], 3, 4⟩, 68719476736, 398150635,
    1861793936251968275606850169319122430456521908680420533309874704361739318377166598396497999580, ⟨0, 0,
    -75205027364587, [130483787126, 18807118, 3614]⟩⟩) (.leaf ⟨1342, 16, 1548, 623, 16, 439, ⟨[[(31138512896, 0)],
    [(415538085888, 0)]], 3, 4⟩, ⟨[[(0, 126857612449), (0, 3582216456737), (0, 6388726994), (0, 810309532), (0,
    52647216)], [(0, 146484118190), (0, 1032693040), (0, 53830633), (0, 4451206), (0, 359938)], [(4458761, 0), (0,
    1204339), (0, 133562), (0, 14300), (0, 1203)], [(0, 11257), (0, 1676), (0, 268), (0, 31), (0, 3)]], 3, 4⟩,
    1099511627776, 0, 1658823380, ⟨[[(30260382175173, 0), (59149213358, 0), (146632372, 0), (0, 672700), (10019, 0)],
    [(20851589105, 0), (58721474, 0), (0, 330746), (7566, 0), (0, 119)], [(759570, 0), (0, 82104), (2234, 0), (0,
    46), (1, 0)], [(0, 5481), (311, 0), (0, 9)]], 3, 4⟩, 68719476736, 592486552,
    2598732367244225039902183722555185611060255889039265297665189450246356113839278885388046786667, ⟨0, 0,
    -63615487773142, [125469983861, 17666852, 3317]⟩⟩)))
theorem c30 : checkC job ⟨6, 8, 8, 10, 9, 13⟩ 3 100 lims t30 857 41 1024 45 3 64 = true := by decide +kernel

def t31 : CTree :=
  .sx (.sy (.sy (.leaf ⟨694, 16, 774, 633, 16, 440, ⟨[[(282394099712, 0)], [(415538085888, 0)]], 3, 4⟩,
    ⟨[[(34121745916, 0), (0, 1830359789594), (137697877, 0), (0, 37839216), (0, 628556)], [(0, 277777614785), (0,
    730839416), (0, 10384958), (0, 223604), (0, 7968)], [(28886663, 0), (0, 1042757), (0, 28157), (0, 1179), (0,
    51)], [(0, 51901), (0, 1457), (0, 83), (0, 5)]], 3, 4⟩, 1099511627776, 0, 245655149, ⟨[[(31758653908138, 0),
    (63798566883, 0), (126430633, 0), (0, 256827), (3129, 0)], [(42668396542, 0), (100995662, 0), (0, 180630), (4736,
    0), (0, 83)], [(0, 652505), (0, 132178), (2818, 0), (0, 65), (1, 0)], [(0, 15585), (807, 0), (0, 26), (1, 0)]],
    3, 4⟩, 68719476736, 295776850,
    832251510245228655563116687571901624887580115924705132705947181655253151294311675043220022356, ⟨0, 0,
    -48554296166364, [243091354980, 66165312, 24012]⟩⟩) (.leaf ⟨694, 16, 774, 615, 16, 434, ⟨[[(282394099712, 0)],
    [(415538085888, 0)]], 3, 4⟩, ⟨[[(0, 502486918448), (0, 1808501829896), (0, 728042100), (0, 62846474), (0,
    1683567)], [(0, 278744109754), (0, 876607258), (0, 16688723), (0, 551717), (0, 22123)], [(20988842, 0), (0,
    1545157), (0, 64624), (0, 3298), (0, 143)], [(0, 64126), (0, 3170), (0, 233), (0, 14), (0, 1)]], 3, 4⟩,
    1099511627776, 0, 429768700, ⟨[[(31164368638894, 0), (62162372602, 0), (139668959, 0), (0, 442967), (6367, 0)],
    [(41688051437, 0), (107508128, 0), (0, 381451), (9439, 0), (0, 159)], [(921315, 0), (0, 209915), (5448, 0), (0,
    119), (2, 0)], [(0, 26090), (1486, 0), (0, 46), (1, 0)]], 3, 4⟩, 68719476736, 536930934,
    1255222298836462879007370294192788721820318405015752622959962832499031887224145016887762598092, ⟨0, 0,
    -47892192127732, [239776472867, 65263057, 23685]⟩⟩)) (.sy (.sx (.leaf ⟨1373, 16, 1548, 915, 16, 651,
    ⟨[[(20401094656, 0)], [(415538085888, 0)]], 3, 4⟩, ⟨[[(0, 84763996451), (0, 2704868303743), (0, 2639982099), (0,
    158503846), (0, 5208875)], [(0, 213916476034), (0, 791025469), (0, 20540892), (0, 853218), (0, 34979)],
    [(5257953, 0), (0, 897493), (0, 49708), (0, 2692), (0, 115)], [(0, 16158), (0, 1214), (0, 98), (0, 6)]], 3, 4⟩,
    1099511627776, 0, 134400768, ⟨[[(30548695284055, 0), (39914526070, 0), (67537334, 0), (0, 208272), (2114, 0)],
    [(20550794816, 0), (38864712, 0), (0, 149647), (2336, 0), (0, 25)], [(745844, 0), (0, 54051), (1004, 0), (0,
    14)], [(0, 5237), (203, 0), (0, 4)]], 3, 4⟩, 68719476736, 64712014,
    923247161693761765971104853187514648911672743948538474168540188106062308721959966778422147205, ⟨0, 0,
    -79252863586175, [181861841724, 25029155, 4593]⟩⟩) (.leaf ⟨1404, 16, 1548, 887, 16, 642, ⟨[[(9663676416, 0)],
    [(415538085888, 0)]], 3, 4⟩, ⟨[[(0, 478864943719), (0, 2738135432492), (0, 4654721075), (0, 246689031), (0,
    8880302)], [(0, 210453315223), (0, 953538143), (0, 30611296), (0, 1411839), (0, 58923)], [(823404, 0), (0,
    1258670), (0, 79807), (0, 4453), (0, 191)], [(0, 19839), (0, 1896), (0, 159), (0, 9)]], 3, 4⟩, 1099511627776, 0,
    211910456, ⟨[[(30563130240726, 0), (39500434065, 0), (75439281, 0), (0, 290973), (3086, 0)], [(19991912864, 0),
    (41129400, 0), (0, 211011), (3293, 0), (0, 36)], [(1148535, 0), (0, 69610), (1361, 0), (0, 19)], [(0, 6575),
    (263, 0), (0, 5)]], 3, 4⟩, 68719476736, 97323389,
    1374787974635029746984807313576919115616127078469809797149351083977110997130254766821440381886, ⟨0, 0,
    -63614210325213, [175388940329, 23605510, 4236]⟩⟩)) (.sx (.leaf ⟨1373, 16, 1548, 874, 16, 632, ⟨[[(20401094656,
    0)], [(415538085888, 0)]], 3, 4⟩, ⟨[[(0, 253986793256), (0, 2678993927301), (0, 6891352277), (0, 360138870), (0,
    13448246)], [(0, 213232034024), (0, 1135054447), (0, 45357977), (0, 2220873), (0, 91066)], [(0, 2604169), (0,
    1858851), (0, 129886), (0, 7201), (0, 300)], [(0, 27753), (0, 3184), (0, 268), (0, 15), (0, 1)]], 3, 4⟩,
    1099511627776, 0, 329704816, ⟨[[(29976388373753, 0), (38893279675, 0), (85080277, 0), (0, 418428), (4506, 0)],
    [(19937289682, 0), (46521935, 0), (0, 310723), (4744, 0), (0, 50)], [(1811080, 0), (0, 97525), (1944, 0), (0,
    27)], [(0, 9295), (373, 0), (0, 7)]], 3, 4⟩, 68719476736, 140258443,
    3224465032361389018705790533494123370420825768125527565304222170925538197245578059906348469203, ⟨0, 0,
    -76939799979205, [176554046036, 24298658, 4459]⟩⟩) (.sy (.leaf ⟨1404, 16, 1548, 1132, 16, 830, ⟨[[(9663676416,
    0)], [(415538085888, 0)]], 3, 4⟩, ⟨[[(0, 493524354971), (0, 1809292468115), (0, 3034494511), (0, 78139803), (0,
    1502198)], [(0, 278633141636), (0, 866839863), (0, 19070819), (0, 482896), (0, 10018)], [(0, 8990754), (0,
    1507729), (0, 55018), (0, 1547), (0, 33)], [(0, 42190), (0, 2632), (0, 113), (0, 3)]], 3, 4⟩, 1099511627776, 0,
    202406420, ⟨[[(30122936909917, 0), (29118393343, 0), (52807771, 0), (0, 219294), (1821, 0)], [(19489848039, 0),
    (36713669, 0), (0, 213088), (2475, 0), (0, 20)], [(2151052, 0), (0, 84537), (1303, 0), (0, 14)], [(0, 10377),
    (320, 0), (0, 5)]], 3, 4⟩, 68719476736, 40420978,
    2640399603151396144627461471798811522698246191024797758562142871286430256991246355126974793872, ⟨0, 0,
    -82242670669668, [226748941546, 30518027, 5477]⟩⟩) (.sy (.sx (.leaf ⟨2793, 16, 3096, 2246, 16, 1651, ⟨[[(0,
    525059751936)], [(415538085888, 0)]], 3, 4⟩, ⟨[[(505784475187, 0), (0, 1810961266242), (0, 1877662143), (0,
    24196548), (0, 234359)], [(0, 280808184633), (0, 492319999), (0, 5936505), (0, 76331), (0, 786)], [(0, 6822080),
    (0, 468895), (0, 8801), (0, 123), (0, 1)], [(0, 12839), (0, 426), (0, 9)]], 3, 4⟩, 1099511627776, 0, 27208596,
    ⟨[[(29894342136293, 0), (14336930782, 0), (14315671, 0), (0, 33356), (139, 0)], [(9672148111, 0), (9916345, 0),
    (0, 32576), (187, 0), (0, 1)], [(668116, 0), (0, 12644), (98, 0), (0, 1)], [(0, 1551), (24, 0)]], 3, 4⟩,
    68719476736, 2478548,
    2840696362684374451376995347607691870190410696460368399175527890004001424393956895751653700114, ⟨0, 0,
    -172865461690609, [226770940320, 15345171, 1385]⟩⟩) (.skip)) (.skip)))))) (.sy (.sx (.leaf ⟨1435, 16, 1548, 605,
    16, 435, ⟨[[(0, 1073741824)], [(415538085888, 0)]], 3, 4⟩, ⟨[[(535614980034, 0), (0, 3727432352509), (0,
    4886770496), (0, 623829204), (0, 36183086)], [(0, 137230451843), (0, 971875558), (0, 39805689), (0, 2820014), (0,
    232639)], [(3500021, 0), (0, 876908), (0, 78880), (0, 8330), (0, 739)], [(0, 8218), (0, 929), (0, 142), (0, 17),
    (0, 2)]], 3, 4⟩, 1099511627776, 0, 1190734795, ⟨[[(31426283243497, 0), (61281002451, 0), (145585140, 0), (0,
    517589), (7741, 0)], [(20262947679, 0), (53205643, 0), (0, 228193), (5637, 0), (0, 95)], [(379552, 0), (0,
    58108), (1585, 0), (0, 35), (1, 0)], [(0, 3560), (209, 0), (0, 7)]], 3, 4⟩, 68719476736, 523270074,
    1692508656478410740442436632812963899714527499014531654776035841595226874557043824252052640962, ⟨0, 0,
    -33464335229825, [116271869124, 15311018, 2688]⟩⟩) (.leaf ⟨1466, 16, 1548, 584, 16, 427, ⟨[[(0, 11811160064)],
    [(415538085888, 0)]], 3, 4⟩, ⟨[[(354409793173, 0), (0, 3743456688703), (0, 8608502666), (0, 904767272), (0,
    60062470)], [(0, 134313880688), (0, 1116363165), (0, 55089662), (0, 4508120), (0, 383353)], [(1300215, 0), (0,
    1138433), (0, 121404), (0, 13477), (0, 1205)], [(0, 9395), (0, 1382), (0, 225), (0, 27), (0, 2)]], 3, 4⟩,
    1099511627776, 0, 1979355450, ⟨[[(31436810453052, 0), (61050586613, 0), (161070043, 0), (0, 719371), (11466, 0)],
    [(19753581514, 0), (55593298, 0), (0, 325175), (8052, 0), (0, 137)], [(663611, 0), (0, 74191), (2173, 0), (0,
    48), (1, 0)], [(0, 4452), (273, 0), (0, 9)]], 3, 4⟩, 68719476736, 782962154,
    2047153395084099419213340733999156823549310098200965841407415708305145492178258071099522055307, ⟨0, 0,
    -23589575364301, [111720813562, 14400724, 2475]⟩⟩)) (.sy (.sx (.leaf ⟨1435, 16, 1548, 853, 16, 629, ⟨[[(0,
    1073741824)], [(415538085888, 0)]], 3, 4⟩, ⟨[[(252080860086, 0), (0, 2768744876231), (0, 7643259937), (0,
    390194356), (0, 14941434)], [(0, 206488223248), (0, 1180526750), (0, 46550234), (0, 2318166), (0, 97927)], [(0,
    4673548), (0, 1815797), (0, 127840), (0, 7282), (0, 314)], [(0, 25604), (0, 2968), (0, 256), (0, 15), (0, 1)]],
    3, 4⟩, 1099511627776, 0, 335334136, ⟨[[(30537127541689, 0), (39000666105, 0), (88171677, 0), (0, 439816), (4866,
    0)], [(19382904949, 0), (45377545, 0), (0, 317736), (4976, 0), (0, 54)], [(1767933, 0), (0, 95759), (1964, 0),
    (0, 28)], [(0, 8737), (361, 0), (0, 7)]], 3, 4⟩, 68719476736, 156287198,
    2690168003340355537146260789829823021716265184715829424145323932833983729697764520295874469782, ⟨0, 0,
    -48388659447264, [168126449837, 22139380, 3887]⟩⟩) (.sy (.leaf ⟨1466, 16, 1548, 1117, 16, 835, ⟨[[(0,
    11811160064)], [(415538085888, 0)]], 3, 4⟩, ⟨[[(384208961668, 0), (0, 1889140099222), (0, 3293320425), (0,
    83540358), (0, 1645328)], [(0, 273014698755), (0, 897374846), (0, 19337184), (0, 497651), (0, 10638)], [(0,
    11154780), (0, 1458049), (0, 53556), (0, 1547), (0, 34)], [(0, 38790), (0, 2431), (0, 107), (0, 3)]], 3, 4⟩,
    1099511627776, 0, 180673892, ⟨[[(30684106078933, 0), (28869903457, 0), (53377336, 0), (0, 221733), (1870, 0)],
    [(18968063465, 0), (35427348, 0), (0, 212385), (2502, 0), (0, 21)], [(2090540, 0), (0, 82090), (1287, 0), (0,
    14)], [(0, 9778), (307, 0), (0, 5)]], 3, 4⟩, 68719476736, 43089035,
    1612937384201079104175100022101582971788510211818457720477762789763612747753786156904451339783, ⟨0, 0,
    -46129497492252, [218470443382, 28160666, 4840]⟩⟩) (.sy (.leaf ⟨1466, 16, 1548, 1314, 16, 989, ⟨[[(0,
    11811160064)], [(415538085888, 0)]], 3, 4⟩, ⟨[[(203334916774, 0), (0, 1139728253954), (0, 1376513514), (0,
    17692906), (0, 177387)], [(0, 328673158427), (0, 654940963), (0, 8151233), (0, 108141), (0, 1149)], [(0,
    22452562), (0, 1212600), (0, 23422), (0, 338), (0, 4)], [(0, 61838), (0, 2138), (0, 47), (0, 1)]], 3, 4⟩,
    1099511627776, 0, 255030667, ⟨[[(30467694833430, 0), (23653423124, 0), (42160366, 0), (0, 172473), (1227, 0)],
    [(18685117213, 0), (33037802, 0), (0, 197580), (1928, 0), (0, 13)], [(2795808, 0), (0, 88000), (1167, 0), (0,
    10)], [(0, 12406), (327, 0), (0, 4)]], 3, 4⟩, 68719476736, 23272985,
    3101001170612738312967823349076725256300547737861817697490529950164444260511805935226179693684, ⟨0, 0,
    -54637213197410, [258763195814, 33354369, 5732]⟩⟩) (.sx (.leaf ⟨2916, 16, 3096, 2172, 16, 1635, ⟨[[(531502202880,
    0)], [(415538085888, 0)]], 3, 4⟩, ⟨[[(518497347305, 0), (0, 1890002326086), (0, 2539940109), (0, 32805294), (0,
    329123)], [(0, 274228701081), (0, 583568917), (0, 7602508), (0, 101368), (0, 1071)], [(0, 10812144), (0, 567098),
    (0, 11082), (0, 159), (0, 2)], [(0, 14379), (0, 510), (0, 11)]], 3, 4⟩, 1099511627776, 0, 31103346,
    ⟨[[(30314367547947, 0), (14135251097, 0), (16068550, 0), (0, 41942), (180, 0)], [(9315984088, 0), (10460267, 0),
    (0, 39913), (233, 0), (0, 1)], [(781109, 0), (0, 14614), (117, 0), (0, 1)], [(0, 1709), (27, 0)]], 3, 4⟩,
    68719476736, 2349385,
    3547889582252922142323225593139075052517160003928494959931770820313423156747897223443660793919, ⟨0, 0,
    -99118238766205, [215028116563, 13932106, 1204]⟩⟩) (.skip))))) (.sx (.sy (.sy (.sx (.leaf ⟨2855, 16, 3096, 2229,
    16, 1654, ⟨[[(0, 546534588416)], [(415538085888, 0)]], 3, 4⟩, ⟨[[(0, 167190971084), (0, 1849678600699), (0,
    1971977416), (0, 25349218), (0, 248943)], [(0, 277684599443), (0, 502618497), (0, 6045182), (0, 78591), (0,
    821)], [(0, 7434654), (0, 465153), (0, 8798), (0, 125), (0, 1)], [(0, 12387), (0, 414), (0, 9)]], 3, 4⟩,
    1099511627776, 0, 25837626, ⟨[[(30188363788831, 0), (14315432957, 0), (14361668, 0), (0, 33328), (140, 0)],
    [(9547043303, 0), (9714945, 0), (0, 32229), (187, 0), (0, 1)], [(648759, 0), (0, 12336), (96, 0), (0, 1)], [(0,
    1487), (23, 0)]], 3, 4⟩, 68719476736, 2497289,
    2336359837068307295523044536864591131564478648847290268288086656555295915931255960471546826413, ⟨0, 0,
    -136329015603364, [222250125413, 14712705, 1299]⟩⟩) (.skip)) (.skip)) (.skip)) (.skip))))
theorem c31 : checkC job ⟨6, 8, 8, 10, 9, 13⟩ 3 100 lims t31 939 41 1024 45 3 64 = true := by decide +kernel

end PyX.Kron.S2a
