import Verif.Lemmas.T2bJob

/-!
# Temperature from pressure and enthalpy in subregion 2b, part A of the certificate
-/

namespace PyX.Kron.T2b

set_option Elab.async false

def t0 : CTree :=
  .sx (.sy (.sx (.leaf ⟨40, 25, 8, 135, 16, 231, ⟨[[], [(549755813888, 0)]], 3, 4⟩, ⟨[[(335686417402, 0),
    (4701295531212, 0), (0, 75636630232), (1334698688, 0), (0, 22176791)], [(40784755317, 0), (1642772965, 0),
    (24235952, 0), (217509, 0), (1655, 0)], [(4184494, 0), (457042, 0), (20701, 0), (994, 0), (11, 0)], [(0, 3108),
    (118, 0), (27, 0)]], 3, 4⟩, 1099511627776, 0, 180907346, ⟨[[(70969825457372, 0), (0, 247431505446), (0,
    69143328), (357182, 0), (2226, 0)], [(18305118132, 0), (181263795, 0), (1286279, 0), (7043, 0), (35, 0)], [(0,
    9488560), (0, 198010), (0, 2568), (0, 30)], [(898, 0), (121, 0), (3, 0)]], 3, 4⟩, 68719476736, 36885124,
    3428091567877880891374374202093738821728828773348042922174002468358042854827624855978800840704, lc0⟩) (.leaf ⟨88,
    25, 8, 135, 16, 224, ⟨[[], [(549755813888, 0)]], 3, 4⟩, ⟨[[(0, 341091800158), (4715916597107, 0), (0,
    70883471926), (1323532218, 0), (0, 21227124)], [(40243650282, 0), (1680070144, 0), (27945459, 0), (400553, 0),
    (4417, 0)], [(3174906, 0), (457813, 0), (25493, 0), (1011, 0), (18, 0)], [(0, 3115), (0, 12), (11, 0)]], 3, 4⟩,
    1099511627776, 0, 187847441, ⟨[[(70817518018318, 0), (0, 246725511805), (0, 4981277), (757165, 0), (4212, 0)],
    [(18108178536, 0), (177634580, 0), (1186005, 0), (5176, 0), (18, 0)], [(0, 10144947), (0, 206919), (0, 2689), (0,
    29)], [(1692, 0), (146, 0), (3, 0)]], 3, 4⟩, 68719476736, 41141784,
    2401267998360680545047044009307247048664250330843142955896598168149768632561112775690219945984, lc0⟩)) (.sx
    (.leaf ⟨40, 25, 8, 179, 16, 260, ⟨[[], [(549755813888, 0)]], 3, 4⟩, ⟨[[(0, 386527062944), (4413191538719, 0), (0,
    62643917071), (1036039645, 0), (0, 14954248)], [(58037500269, 0), (2205423008, 0), (32436455, 0), (349916, 0),
    (7271, 0)], [(8900587, 0), (932006, 0), (48280, 0), (1783, 0), (44, 0)], [(0, 1498), (562, 0), (45, 0), (2, 0)]],
    3, 4⟩, 1099511627776, 0, 168885836, ⟨[[(64988775801700, 0), (0, 222105193363), (0, 26483933), (469097, 0), (2930,
    0)], [(23515114151, 0), (228728712, 0), (1526385, 0), (7905, 0), (36, 0)], [(0, 16250409), (0, 347312), (0,
    4637), (0, 46)], [(6396, 0), (355, 0), (9, 0)]], 3, 4⟩, 68719476736, 59836044,
    2706572530458817719939264410285479576354885314108301981507684352537651567265785153267206979584, lc0⟩) (.leaf ⟨88,
    25, 8, 177, 16, 250, ⟨[[], [(549755813888, 0)]], 3, 4⟩, ⟨[[(0, 307800702826), (4455688942682, 0), (0,
    56778522447), (1045587315, 0), (0, 13250685)], [(57393897508, 0), (2304310445, 0), (41119512, 0), (705003, 0),
    (17115, 0)], [(7913835, 0), (1000462, 0), (56048, 0), (2101, 0), (61, 0)], [(0, 3021), (186, 0), (23, 0), (1,
    0)]], 3, 4⟩, 1099511627776, 0, 177584138, ⟨[[(65005425777857, 0), (0, 219909789017), (53205662, 0), (951637, 0),
    (5486, 0)], [(23033232833, 0), (218011141, 0), (1303254, 0), (5263, 0), (17, 0)], [(0, 16959587), (0, 351150),
    (0, 4325), (0, 35)], [(7975, 0), (403, 0), (9, 0)]], 3, 4⟩, 68719476736, 65659013,
    1928351769798310224638303649716537312018114762574179838637014348674442879227775905635717296948, lc0⟩))) (.sy (.sy
    (.leaf ⟨160, 49, 8, 191, 16, 321, ⟨[[], [(1099511627776, 0)]], 3, 4⟩, ⟨[[(0, 296711041743), (3708596065154, 0),
    (0, 26121895601), (274981531, 0), (0, 2160654)], [(109850467002, 0), (2443877402, 0), (23309162, 0), (233159, 0),
    (991, 0)], [(7070424, 0), (984324, 0), (30712, 0), (677, 0), (5, 0)], [(0, 34224), (0, 911), (0, 26)]], 3, 4⟩,
    1099511627776, 0, 86623870, ⟨[[(72472875512163, 0), (0, 164111693406), (30438717, 0), (328775, 0), (1116, 0)],
    [(16420278850, 0), (102712200, 0), (406407, 0), (616, 0), (1, 0)], [(0, 9446271), (0, 118041), (0, 969), (0, 6)],
    [(1798, 0), (91, 0), (1, 0)]], 3, 4⟩, 68719476736, 29422419,
    2681093106250589212898899990439981242006318796921945325359912655887833782820679093511159545856, lc0⟩) (.leaf
    ⟨160, 49, 8, 211, 16, 322, ⟨[[], [(1099511627776, 0)]], 3, 4⟩, ⟨[[(0, 199101070036), (3433784737562, 0), (0,
    21654860496), (232192597, 0), (0, 1502488)], [(125795679041, 0), (2758608831, 0), (27945479, 0), (280813, 0),
    (2900, 0)], [(14281466, 0), (1436716, 0), (44745, 0), (900, 0), (13, 0)], [(0, 40724), (0, 1212), (0, 23)]], 3,
    4⟩, 1099511627776, 0, 224020344, ⟨[[(69312119351121, 0), (0, 162024802524), (52026832, 0), (428827, 0), (1596,
    0)], [(18563930896, 0), (118794568, 0), (442575, 0), (738, 0), (2, 0)], [(0, 12137346), (0, 162034), (0, 1326),
    (0, 6)], [(4093, 0), (152, 0), (2, 0)]], 3, 4⟩, 68719476736, 42537236,
    1890920443858303472595306173971236454959659494606376429539366969525804308240506740667940030617, lc0⟩)) (.sx
    (.leaf ⟨136, 25, 8, 174, 16, 239, ⟨[[], [(549755813888, 0)]], 3, 4⟩, ⟨[[(0, 224487764787), (4480018129166, 0),
    (0, 49997392028), (1083561207, 0), (0, 10528295)], [(56228016902, 0), (2388452909, 0), (50029876, 0), (1082076,
    0), (28423, 0)], [(6527557, 0), (960745, 0), (57131, 0), (2210, 0), (65, 0)], [(0, 4299), (0, 144), (2, 0)]], 3,
    4⟩, 1099511627776, 0, 196222790, ⟨[[(65022824043357, 0), (0, 218675474287), (136483808, 0), (1445823, 0), (8071,
    0)], [(22419616720, 0), (205663483, 0), (1078610, 0), (3120, 0)], [(0, 17413205), (0, 346269), (0, 3834), (0,
    25)], [(9476, 0), (436, 0), (9, 0)]], 3, 4⟩, 68719476736, 78331148,
    3062657189087165578587020872791658509050463840211131547551498215845759809315685308921836987071, lc0⟩) (.leaf
    ⟨184, 25, 8, 171, 16, 229, ⟨[[], [(549755813888, 0)]], 3, 4⟩, ⟨[[(304381920115, 0), (4520565022173, 0), (0,
    42801158461), (1157392275, 0), (0, 6903346)], [(54950825442, 0), (2458793110, 0), (58337752, 0), (1445293, 0),
    (38967, 0)], [(4890125, 0), (839692, 0), (52709, 0), (2099, 0), (58, 0)], [(0, 5327), (0, 418), (0, 16)]], 3, 4⟩,
    1099511627776, 0, 228580657, ⟨[[(65127477814205, 0), (0, 216925309382), (220041799, 0), (1922153, 0), (9638, 0)],
    [(21610132032, 0), (190108225, 0), (850084, 0), (1132, 0), (0, 32)], [(0, 17445762), (0, 328665), (0, 3243), (0,
    19)], [(10546, 0), (433, 0), (7, 0)]], 3, 4⟩, 68719476736, 80023537,
    3350331550774198808063809063957752012873512529760923068740833707448362536829386214843403648556, lc0⟩)))
theorem c0 : checkC job ⟨6, 8, 8, 10, 9, 13⟩ 3 100 lims t0 64 48 4 3 3 64 = true := by decide +kernel

def t1 : CTree :=
  .sy (.sx (.sy (.leaf ⟨256, 49, 8, 192, 16, 307, ⟨[[], [(1099511627776, 0)]], 3, 4⟩, ⟨[[(0, 423076399289),
    (3778968770016, 0), (0, 22606944747), (290400642, 0), (0, 1924976)], [(105465732943, 0), (2487083268, 0),
    (26709712, 0), (348430, 0), (2045, 0)], [(0, 2459918), (585254, 0), (14173, 0), (658, 0), (6, 0)], [(0, 31264),
    (0, 1572), (0, 76)]], 3, 4⟩, 1099511627776, 0, 76020502, ⟨[[(72455362711903, 0), (0, 160979052461), (78933449,
    0), (451855, 0), (1855, 0)], [(15488749940, 0), (91295803, 0), (264852, 0), (0, 182), (4, 0)], [(0, 9839412), (0,
    111619), (0, 851), (0, 3)], [(3119, 0), (110, 0), (1, 0)]], 3, 4⟩, 68719476736, 36707034,
    2549113967577806871586528814363447515322178503550901549490080335303730333456692549516993232896, lc0⟩) (.leaf
    ⟨256, 49, 8, 211, 16, 306, ⟨[[], [(1099511627776, 0)]], 3, 4⟩, ⟨[[(0, 151022657283), (3526066002320, 0), (0,
    17670918531), (254246611, 0), (0, 1057403)], [(121033029084, 0), (2838432317, 0), (33544357, 0), (432870, 0),
    (4823, 0)], [(1708123, 0), (830339, 0), (27640, 0), (851, 0), (8, 0)], [(0, 43282), (0, 2475), (0, 77)]], 3, 4⟩,
    1099511627776, 0, 142603472, ⟨[[(69320114710529, 0), (0, 157795739226), (111337830, 0), (636583, 0), (2590, 0)],
    [(17388284036, 0), (101982971, 0), (266102, 0), (134, 0), (1, 0)], [(0, 12388323), (0, 148747), (0, 1008), (0,
    2)], [(5791, 0), (166, 0), (2, 0)]], 3, 4⟩, 68719476736, 57512993,
    2503558246703314046563393906434601347816808304969211130181162527218088653798901697764018414913, lc0⟩)) (.sy
    (.leaf ⟨352, 49, 8, 194, 16, 296, ⟨[[], [(1099511627776, 0)]], 3, 4⟩, ⟨[[(0, 457240596756), (3877511964938, 0),
    (0, 19269280894), (318090671, 0), (0, 1609587)], [(100413149715, 0), (2459573011, 0), (26128564, 0), (457478, 0),
    (3156, 0)], [(0, 10812620), (55092, 0), (0, 10452), (626, 0), (6, 0)], [(0, 28411), (0, 1979), (0, 88)]], 3, 4⟩,
    1099511627776, 0, 63929048, ⟨[[(72452587774293, 0), (0, 156862482802), (118449843, 0), (568678, 0), (3267, 0)],
    [(14368303041, 0), (77807261, 0), (124521, 0), (0, 370), (7, 0)], [(0, 9721858), (0, 96554), (0, 676), (0, 1)],
    [(4202, 0), (114, 0), (1, 0)]], 3, 4⟩, 68719476736, 44153043,
    2755738326414160689557085588778148774226200872484524701602922088085654796720781644485439258624, lc0⟩) (.leaf
    ⟨352, 49, 8, 212, 16, 293, ⟨[[], [(1099511627776, 0)]], 3, 4⟩, ⟨[[(3189321733, 0), (3642218354359, 0), (0,
    13664651730), (290343169, 0), (0, 544927)], [(115037172851, 0), (2797316292, 0), (34899933, 0), (556605, 0),
    (4542, 0)], [(0, 10608072), (1049, 0), (1492, 0), (626, 0), (0, 11)], [(0, 43042), (0, 3027), (0, 94), (0, 1)]],
    3, 4⟩, 1099511627776, 0, 41638528, ⟨[[(69341959602060, 0), (0, 152835446667), (163566008, 0), (811487, 0), (1341,
    0)], [(15986009074, 0), (83316655, 0), (106152, 0), (0, 703), (0, 21)], [(0, 11957898), (0, 127279), (0, 820),
    (0, 3)], [(6813, 0), (146, 0), (1, 0)]], 3, 4⟩, 68719476736, 136416685,
    2795401218312433545550660577562186934333748817760326382407737577381675442452762858620376427505, lc0⟩))) (.sx (.sy
    (.leaf ⟨256, 49, 8, 225, 16, 300, ⟨[[], [(1099511627776, 0)]], 3, 4⟩, ⟨[[(80381244523, 0), (3275210569870, 0),
    (0, 13011484265), (232640899, 0), (0, 361284)], [(136638699371, 0), (3227744232, 0), (41683081, 0), (560772, 0),
    (6740, 0)], [(7722881, 0), (1234562, 0), (43334, 0), (953, 0), (4, 0)], [(0, 59817), (0, 3402), (0, 92), (0,
    2)]], 3, 4⟩, 1099511627776, 0, 322159346, ⟨[[(66443330789295, 0), (0, 156017144218), (157953862, 0), (863187, 0),
    (2020, 0)], [(19366664478, 0), (114130588, 0), (274667, 0), (0, 521), (0, 23)], [(0, 15502547), (0, 192879), (0,
    1250), (0, 6)], [(9472, 0), (239, 0), (2, 0)]], 3, 4⟩, 68719476736, 131906972,
    3590082081738502344177764924782626082206878023531671345330088353755978939457696206533408565307, lc0⟩) (.sx (.leaf
    ⟨232, 25, 8, 305, 16, 383, ⟨[[], [(549755813888, 0)]], 3, 4⟩, ⟨[[(324077059693, 0), (3899051520532, 0), (0,
    12892797707), (274021883, 0), (144661, 0)], [(100016249965, 0), (2360442131, 0), (32104165, 0), (452542, 0),
    (6828, 0)], [(7255319, 0), (696200, 0), (22741, 0), (464, 0), (10, 0)], [(0, 12404), (0, 647), (0, 17)]], 3, 4⟩,
    1099511627776, 0, 67086897, ⟨[[(63792171396369, 0), (0, 120746002694), (116282813, 0), (472125, 0), (502, 0)],
    [(21912796134, 0), (104038363, 0), (182182, 0), (0, 948), (0, 16)], [(0, 19429229), (0, 199790), (0, 1086), (0,
    5)], [(14177, 0), (274, 0), (2, 0)]], 3, 4⟩, 68719476736, 19825552,
    2456148811074073685118509386050063899748697635253597674728814684631473499539089575996434491028, lc0⟩) (.leaf
    ⟨280, 25, 8, 302, 16, 368, ⟨[[], [(549755813888, 0)]], 3, 4⟩, ⟨[[(0, 245144428934), (3969641371547, 0), (0,
    9241828356), (308820448, 0), (861552, 0)], [(97090327166, 0), (2377250840, 0), (34501371, 0), (509791, 0), (8541,
    0)], [(3267126, 0), (459274, 0), (15785, 0), (323, 0), (11, 0)], [(0, 13715), (0, 827), (0, 26), (0, 1)]], 3, 4⟩,
    1099511627776, 0, 62870432, ⟨[[(63730056260546, 0), (0, 118429824837), (145384568, 0), (456537, 0), (0, 409)],
    [(20953901248, 0), (91463816, 0), (50969, 0), (0, 1980), (0, 10)], [(0, 19137611), (0, 188938), (0, 949)],
    [(14461, 0), (252, 0), (2, 0)]], 3, 4⟩, 68719476736, 37096158,
    3197854575357416266736123096651251352119972689664573637051891664206152943797065099076314879019, lc0⟩))) (.sy (.sx
    (.leaf ⟨328, 25, 8, 281, 16, 360, ⟨[[], [(549755813888, 0)]], 3, 4⟩, ⟨[[(0, 172154776640), (4215163668595, 0),
    (0, 11789190512), (332538655, 0), (131058, 0)], [(82070296264, 0), (2008258015, 0), (27753383, 0), (396238, 0),
    (3459, 0)], [(0, 1775894), (116996, 0), (5594, 0), (107, 0), (0, 6)], [(0, 9855), (0, 648), (0, 20), (0, 1)]], 3,
    4⟩, 1099511627776, 0, 25928979, ⟨[[(66412600998478, 0), (0, 121138510915), (134419960, 0), (443674, 0), (0,
    813)], [(18106461687, 0), (76229221, 0), (48604, 0), (0, 1396), (0, 15)], [(0, 15031037), (0, 139309), (0, 716),
    (0, 1)], [(10007, 0), (163, 0), (1, 0)]], 3, 4⟩, 68719476736, 32398492,
    2538317806789028853715335461103795148936197870709061570568773258029921870704475029211246928107, lc0⟩) (.leaf
    ⟨376, 25, 8, 279, 16, 349, ⟨[[], [(549755813888, 0)]], 3, 4⟩, ⟨[[(205231046173, 0), (4273746960084, 0), (0,
    8814120661), (359667701, 0), (376421, 0)], [(78965624278, 0), (1950846602, 0), (27375025, 0), (386496, 0), (1621,
    0)], [(0, 4504360), (0, 74127), (0, 684), (0, 91), (0, 13)], [(0, 9712), (0, 667), (0, 23), (0, 1)]], 3, 4⟩,
    1099511627776, 0, 20899848, ⟨[[(66454330814191, 0), (0, 119548277230), (151675545, 0), (376410, 0), (0, 1162)],
    [(17163530926, 0), (65558124, 0), (0, 42707), (0, 1464), (9, 0)], [(0, 14487258), (0, 128883), (0, 493), (7, 0)],
    [(10028, 0), (161, 0), (2, 0)]], 3, 4⟩, 68719476736, 71248679,
    2479478526787814388975617981208387283573513749363961029002861599984289763804859719461178966016, lc0⟩)) (.sx
    (.leaf ⟨328, 25, 8, 298, 16, 354, ⟨[[], [(549755813888, 0)]], 3, 4⟩, ⟨[[(512868381331, 0), (4041486625720, 0),
    (0, 5587907831), (346459737, 0), (1717279, 0)], [(93623104080, 0), (2348100440, 0), (35341902, 0), (532006, 0),
    (10295, 0)], [(0, 840933), (189127, 0), (6813, 0), (106, 0), (11, 0)], [(0, 14375), (0, 952), (0, 34), (0, 1)]],
    3, 4⟩, 1099511627776, 0, 61153546, ⟨[[(63811295760157, 0), (0, 116543867432), (166877126, 0), (412422, 0), (736,
    0)], [(19793626716, 0), (77256610, 0), (0, 61703), (0, 1318), (28, 0)], [(0, 18437003), (0, 170143), (0, 399),
    (14, 0)], [(14476, 0), (265, 0), (4, 0)]], 3, 4⟩, 68719476736, 100807326,
    3288414800688503087946812003209082153515536922641150147997796069926102579836067331597783678752, lc0⟩) (.sy (.leaf
    ⟨376, 25, 8, 470, 16, 553, ⟨[[], [(549755813888, 0)]], 3, 4⟩, ⟨[[(0, 126856065263), (3340587880238, 0), (0,
    1530818149), (74897079, 0), (188070, 0)], [(139969101959, 0), (1760104694, 0), (13052518, 0), (90656, 0), (769,
    0)], [(0, 7708356), (0, 71146), (0, 1240), (0, 46)], [(0, 21009), (0, 737), (0, 15)]], 3, 4⟩, 1099511627776, 0,
    11197425, ⟨[[(64397164207076, 0), (0, 71857727650), (68356077, 0), (109011, 0), (523, 0)], [(18299050455, 0),
    (39844708, 0), (0, 30329), (137, 0), (5, 0)], [(0, 16853858), (0, 85626), (70, 0), (3, 0)], [(13601, 0), (156,
    0), (1, 0)]], 3, 4⟩, 68719476736, 21464317,
    2021027718351428452709724619760453435964131533020853101359879617060909941425010821760178960861, lc0⟩) (.leaf
    ⟨376, 25, 8, 473, 16, 536, ⟨[[], [(549755813888, 0)]], 3, 4⟩, ⟨[[(82158997903, 0), (3228120706277, 0), (0,
    125871297), (79015137, 0), (365626, 0)], [(146377817235, 0), (1868108160, 0), (14449254, 0), (115285, 0), (1584,
    0)], [(0, 7937839), (0, 88009), (0, 1937), (0, 33), (1, 0)], [(0, 25209), (0, 911), (0, 19)]], 3, 4⟩,
    1099511627776, 0, 20978385, ⟨[[(63126440064419, 0), (0, 71474201643), (80240670, 0), (163801, 0), (355, 0)],
    [(19007601645, 0), (40170079, 0), (0, 23023), (0, 66), (0, 18)], [(0, 18361941), (0, 84618), (43, 0), (0, 7)],
    [(16474, 0), (152, 0), (0, 2)]], 3, 4⟩, 68719476736, 70312817,
    3507403920078143885023712282158824408946210779294219116553652180462990766659604227876868861980, lc0⟩)))))
theorem c1 : checkC job ⟨6, 8, 8, 10, 9, 13⟩ 3 100 lims t1 160 48 4 3 3 64 = true := by decide +kernel

def t2 : CTree :=
  .sx (.sx (.sy (.leaf ⟨40, 25, 8, 218, 16, 282, ⟨[[], [(549755813888, 0)]], 3, 4⟩, ⟨[[(0, 149543640180),
    (4080171462187, 0), (0, 50718349404), (815131108, 0), (0, 9980350)], [(78661240999, 0), (2863649401, 0),
    (44271151, 0), (663860, 0), (16234, 0)], [(18094693, 0), (1898551, 0), (100568, 0), (3601, 0), (93, 0)], [(4312,
    0), (1479, 0), (104, 0), (5, 0)]], 3, 4⟩, 1099511627776, 0, 244455504, ⟨[[(60097016693811, 0), (0, 205084578263),
    (13206651, 0), (668889, 0), (4548, 0)], [(29377196905, 0), (284963416, 0), (1846339, 0), (9419, 0), (43, 0)],
    [(0, 26711058), (0, 585687), (0, 7606), (0, 72), (0, 1)], [(20360, 0), (953, 0), (21, 0)]], 3, 4⟩, 68719476736,
    106316619, 2993751624625510871405586270490514672767028252802527422402268347304891283618615013870408992445, lc0⟩)
    (.leaf ⟨40, 25, 8, 249, 16, 294, ⟨[[], [(549755813888, 0)]], 3, 4⟩, ⟨[[(0, 250495281248), (3703099521007, 0), (0,
    39489367440), (654793488, 0), (0, 6102941)], [(101757314318, 0), (3631038725, 0), (63046910, 0), (1231206, 0),
    (28559, 0)], [(35466806, 0), (3739368, 0), (197655, 0), (6821, 0), (164, 0)], [(18939, 0), (3527, 0), (238, 0),
    (10, 0)]], 3, 4⟩, 1099511627776, 0, 415612018, ⟨[[(55836500167109, 0), (0, 195160803485), (64522182, 0),
    (1070710, 0), (7567, 0)], [(36210335264, 0), (360502931, 0), (2352473, 0), (11802, 0), (39, 0)], [(0, 42995948),
    (0, 980501), (0, 12995), (0, 130), (0, 1)], [(52986, 0), (2296, 0), (49, 0), (1, 0)]], 3, 4⟩, 68719476736,
    179382789, 2569722174961796619704095142707024507789885914805498286990739084044716747288862640394909829071, lc0⟩))
    (.sy (.leaf ⟨88, 25, 8, 212, 16, 266, ⟨[[], [(549755813888, 0)]], 3, 4⟩, ⟨[[(139217757818, 0), (4125565359462,
    0), (0, 42878667023), (863881819, 0), (0, 7010755)], [(77542555271, 0), (3076973072, 0), (62350442, 0), (1387592,
    0), (36119, 0)], [(17534384, 0), (2088905, 0), (117782, 0), (4483, 0), (131, 0)], [(0, 818), (670, 0), (60, 0),
    (3, 0)]], 3, 4⟩, 1099511627776, 0, 262009323, ⟨[[(60151212806542, 0), (0, 202857067224), (121412010, 0),
    (1370215, 0), (8357, 0)], [(28590526061, 0), (267384096, 0), (1498963, 0), (5186, 0), (0, 3)], [(0, 27362978),
    (0, 571118), (0, 6664), (0, 55)], [(23294, 0), (1010, 0), (20, 0)]], 3, 4⟩, 68719476736, 125710417,
    2826041338558298495824801554641481964960493864493325348952025880845999626133305526694827399923, lc0⟩) (.leaf ⟨88,
    25, 8, 236, 16, 269, ⟨[[], [(549755813888, 0)]], 3, 4⟩, ⟨[[(34004850051, 0), (3741258302376, 0), (0,
    28742716974), (773789598, 0), (0, 1301484)], [(99714007804, 0), (4056966666, 0), (98118075, 0), (2620743, 0),
    (69056, 0)], [(35879640, 0), (4175361, 0), (239883, 0), (9699, 0), (342, 0)], [(6553, 0), (2067, 0), (210, 0),
    (17, 0), (1, 0)]], 3, 4⟩, 1099511627776, 0, 426850226, ⟨[[(55887298277759, 0), (0, 193240522659), (231119854, 0),
    (2202284, 0), (11990, 0)], [(35036168960, 0), (334117840, 0), (1729203, 0), (1987, 0), (0, 82)], [(0, 43253055),
    (0, 941068), (0, 11405), (0, 99)], [(57045, 0), (2293, 0), (44, 0), (1, 0)]], 3, 4⟩, 68719476736, 227825184,
    2427573556385146818864904577352900503464028074991135620048583599733611983674895181775945117397, lc0⟩))) (.sy (.sx
    (.leaf ⟨136, 25, 8, 205, 16, 249, ⟨[[], [(549755813888, 0)]], 3, 4⟩, ⟨[[(47694926750, 0), (4156838069232, 0), (0,
    33476954161), (974786008, 0), (0, 1983702)], [(75675889014, 0), (3266843640, 0), (80773628, 0), (2191095, 0),
    (64245, 0)], [(15552254, 0), (2038501, 0), (121577, 0), (5121, 0), (207, 0)], [(0, 5173), (0, 45), (23, 0), (4,
    0)]], 3, 4⟩, 1099511627776, 0, 319114381, ⟨[[(60134449795698, 0), (0, 201352194024), (244217016, 0), (2108011,
    0), (10322, 0)], [(27695048018, 0), (248563785, 0), (1130946, 0), (0, 101), (0, 75)], [(0, 27633104), (0,
    547300), (0, 5834), (0, 47)], [(25365, 0), (987, 0), (17, 0)]], 3, 4⟩, 68719476736, 113227077,
    3372085554763730484651675335546431588220069426507578512703110388448311897569375864109373132154, lc0⟩) (.leaf
    ⟨184, 25, 8, 199, 16, 234, ⟨[[], [(549755813888, 0)]], 3, 4⟩, ⟨[[(20351347578, 0), (4218634012623, 0), (0,
    23106413739), (1161467753, 0), (6173480, 0)], [(73752775170, 0), (3431124875, 0), (98217263, 0), (3092757, 0),
    (112556, 0)], [(12656285, 0), (1817178, 0), (116971, 0), (6042, 0), (365, 0)], [(0, 8678), (0, 634), (0, 2), (5,
    0), (1, 0)]], 3, 4⟩, 1099511627776, 0, 484314124, ⟨[[(60128877195763, 0), (0, 198376512871), (372527972, 0),
    (2608005, 0), (6905, 0)], [(26600548763, 0), (223948674, 0), (637721, 0), (0, 7821), (0, 133)], [(0, 27417020),
    (0, 517731), (0, 5229), (0, 34)], [(25819, 0), (885, 0), (14, 0)]], 3, 4⟩, 68719476736, 152923439,
    3019882215161669738661617476232752371336794643656671035497630735298938259130352750940883641614, lc0⟩)) (.sx
    (.leaf ⟨136, 25, 8, 222, 16, 244, ⟨[[], [(549755813888, 0)]], 3, 4⟩, ⟨[[(294390859193, 0), (3783231260269, 0),
    (0, 15336905389), (1028927011, 0), (9039000, 0)], [(96775905339, 0), (4452452054, 0), (136792710, 0), (4666583,
    0), (167910, 0)], [(32961565, 0), (4233040, 0), (285403, 0), (16020, 0), (860, 0)], [(0, 2811), (1311, 0), (296,
    0), (35, 0), (3, 0)]], 3, 4⟩, 1099511627776, 0, 611060672, ⟨[[(55932236551297, 0), (0, 191312707082), (426436948,
    0), (3169153, 0), (9364, 0)], [(33555160350, 0), (299218669, 0), (866063, 0), (0, 10641), (0, 139)], [(0,
    42661416), (0, 890328), (0, 9553), (0, 37), (1, 0)], [(56566, 0), (2089, 0), (38, 0), (1, 0)]], 3, 4⟩,
    68719476736, 275881669,
    2403698938475609536918827263560578692714596424501910773702771821971743220677125684992331391576, lc0⟩) (.sy (.leaf
    ⟨184, 25, 8, 336, 16, 364, ⟨[[], [(549755813888, 0)]], 3, 4⟩, ⟨[[(0, 71331321270), (3177081067347, 0), (0,
    2357747372), (275612148, 0), (2366128, 0)], [(142364483208, 0), (3543442831, 0), (61911733, 0), (1256821, 0),
    (28016, 0)], [(37256648, 0), (2664031, 0), (104410, 0), (3636, 0), (110, 0)], [(0, 16659), (25, 0), (79, 0), (5,
    0)]], 3, 4⟩, 1099511627776, 0, 247478289, ⟨[[(56877506793100, 0), (0, 117847780142), (213684761, 0), (814117, 0),
    (1203, 0)], [(30543955942, 0), (152185444, 0), (31120, 0), (0, 3233), (6, 0)], [(0, 37831174), (0, 454956), (0,
    2138), (14, 0)], [(46310, 0), (1051, 0), (13, 0)]], 3, 4⟩, 68719476736, 83110252,
    2023932660811259149554967098236569850317458819418938945753695694573263069252172155938473815765, lc0⟩) (.leaf
    ⟨184, 25, 8, 326, 16, 336, ⟨[[], [(549755813888, 0)]], 3, 4⟩, ⟨[[(87131129040, 0), (2936302926115, 0),
    (3000225772, 0), (328758734, 0), (4195498, 0)], [(153384567444, 0), (4108122476, 0), (84930588, 0), (2010994, 0),
    (47103, 0)], [(53488104, 0), (4079890, 0), (183519, 0), (6625, 0), (177, 0)], [(0, 11377), (1547, 0), (190, 0),
    (8, 0)]], 3, 4⟩, 1099511627776, 0, 413151653, ⟨[[(54921642135427, 0), (0, 118916726463), (302105436, 0),
    (1105259, 0), (0, 242)], [(33149955253, 0), (163090019, 0), (0, 145854), (0, 3906), (0, 26)], [(0, 46181393), (0,
    554971), (0, 1417), (16, 0), (0, 1)], [(68557, 0), (1665, 0), (14, 0)]], 3, 4⟩, 68719476736, 284998934,
    2250873913728446168640498096002409906971617539882792003093903839251721721624520157429951161573, lc0⟩))))
theorem c2 : checkC job ⟨6, 8, 8, 10, 9, 13⟩ 3 100 lims t2 64 48 4 9 3 64 = true := by decide +kernel

def t3 : CTree :=
  .sx (.sy (.leaf ⟨232, 25, 8, 319, 16, 375, ⟨[[], [(549755813888, 0)]], 3, 4⟩, ⟨[[(429017632073, 0), (3695436543864,
    0), (0, 7691577352), (284196723, 0), (1275182, 0)], [(113031294730, 0), (2743136277, 0), (41262994, 0), (677975,
    0), (13972, 0)], [(12110992, 0), (1010592, 0), (34047, 0), (961, 0), (37, 0)], [(0, 16606), (0, 857), (0, 19)]],
    3, 4⟩, 1099511627776, 0, 114842401, ⟨[[(61334671082791, 0), (0, 117740117069), (152969613, 0), (529665, 0), (293,
    0)], [(24144651276, 0), (112152529, 0), (85596, 0), (0, 2313), (0, 10)], [(0, 24097729), (0, 255995), (0, 1368)],
    [(20946, 0), (399, 0), (4, 0)]], 3, 4⟩, 68719476736, 43393594,
    2407518160485730632421216882348985177289198268524669663352706846607794531421575251483475823131, lc0⟩) (.leaf
    ⟨232, 25, 8, 325, 16, 359, ⟨[[], [(549755813888, 0)]], 3, 4⟩, ⟨[[(0, 129194456168), (3480176984662, 0), (0,
    2087615570), (321427584, 0), (3052665, 0)], [(125547847107, 0), (3184361632, 0), (54964759, 0), (1126634, 0),
    (27788, 0)], [(18826954, 0), (1496941, 0), (59668, 0), (2262, 0), (78, 0)], [(0, 21327), (0, 955), (0, 1), (2,
    0)]], 3, 4⟩, 1099511627776, 0, 185201654, ⟨[[(58991623937348, 0), (0, 115726647352), (204074372, 0), (679683, 0),
    (1787, 0)], [(26457474607, 0), (117704978, 0), (0, 59345), (0, 2064), (23, 0)], [(0, 29880999), (0, 318624), (0,
    913), (20, 0)], [(31501, 0), (691, 0), (9, 0)]], 3, 4⟩, 68719476736, 78229237,
    3305041966608342457033416513571417385035511667700212217660229748924903108038753793921957063408, lc0⟩)) (.sy
    (.leaf ⟨280, 25, 8, 313, 16, 356, ⟨[[], [(549755813888, 0)]], 3, 4⟩, ⟨[[(0, 374234833382), (3766246365119, 0),
    (0, 3261838587), (340188290, 0), (2839551, 0)], [(109043933564, 0), (2762740685, 0), (44771490, 0), (823784, 0),
    (20966, 0)], [(6464512, 0), (676601, 0), (25309, 0), (938, 0), (43, 0)], [(0, 19066), (0, 1147), (0, 32)]], 3,
    4⟩, 1099511627776, 0, 114539062, ⟨[[(61249871295058, 0), (0, 115292124374), (186990147, 0), (543652, 0), (2040,
    0)], [(22928225603, 0), (93931664, 0), (0, 74316), (0, 1267), (32, 0)], [(0, 23606792), (0, 229186), (0, 401),
    (19, 0)], [(21549, 0), (444, 0), (6, 0)]], 3, 4⟩, 68719476736, 88964425,
    3548650524794917977160893356226646828891439681276317806870329676369319832500238634217255041348, lc0⟩) (.sx (.leaf
    ⟨335, 16, 10, 391, 16, 421, ⟨[[], [(343597383680, 0)]], 3, 4⟩, ⟨[[(0, 300553773453), (4358715998199, 0),
    (2552528835, 0), (486261198, 0), (6392180, 0)], [(74996145653, 0), (1983522624, 0), (37182739, 0), (858959, 0),
    (22563, 0)], [(4022492, 0), (364379, 0), (16580, 0), (685, 0), (18, 0)], [(0, 3800), (0, 208), (0, 5)]], 3, 4⟩,
    1099511627776, 0, 66175431, ⟨[[(58979689127791, 0), (0, 92388664679), (158625883, 0), (438731, 0), (709, 0)],
    [(20187889601, 0), (65228413, 0), (0, 63304), (0, 485), (0, 21)], [(0, 18444028), (0, 135907), (41, 0), (0, 3)],
    [(16657, 0), (280, 0)]], 3, 4⟩, 68719476736, 81636913,
    2384251073441688879274415787939707086522005918931762014366205190726053592256141626320286652909, lc0⟩) (.sy (.leaf
    ⟨365, 16, 10, 637, 16, 686, ⟨[[], [(343597383680, 0)]], 3, 4⟩, ⟨[[(317726346902, 0), (3696623052975, 0),
    (1545684851, 0), (107274123, 0), (748749, 0)], [(118421751228, 0), (1574832214, 0), (14706041, 0), (170780, 0),
    (2290, 0)], [(3993430, 0), (209205, 0), (4904, 0), (104, 0), (1, 0)], [(0, 6292), (0, 194), (0, 3)]], 3, 4⟩,
    1099511627776, 0, 14654667, ⟨[[(59575633043071, 0), (0, 55582691297), (59003400, 0), (96607, 0), (0, 45)],
    [(19120587319, 0), (35457386, 0), (0, 23535), (0, 233), (0, 7)], [(0, 17011943), (0, 69894), (0, 21), (0, 3)],
    [(14979, 0), (127, 0), (0, 1)]], 3, 4⟩, 68719476736, 12984641,
    1646741452825639153800493255480276630781025197456633464882759792118826287047388225243584752368, lc0⟩) (.leaf
    ⟨365, 16, 10, 634, 16, 661, ⟨[[], [(343597383680, 0)]], 3, 4⟩, ⟨[[(0, 471309804543), (3591622035274, 0),
    (3524732865, 0), (123874752, 0), (992752, 0)], [(123759392655, 0), (1707269551, 0), (17644413, 0), (223230, 0),
    (2641, 0)], [(5250352, 0), (269858, 0), (6691, 0), (112, 0)], [(0, 7321), (0, 237), (0, 6)]], 3, 4⟩,
    1099511627776, 0, 21687250, ⟨[[(58436398906393, 0), (0, 54991565876), (69307477, 0), (70390, 0), (0, 854)],
    [(19850156993, 0), (35087574, 0), (0, 69944), (0, 1273), (0, 11)], [(0, 18534334), (0, 81053), (0, 449), (0, 8)],
    [(16976, 0), (55, 0), (0, 2)]], 3, 4⟩, 68719476736, 24885512,
    2009767428053725410623760569837103630388863519312005445971413363020463600353305332988238724510, lc0⟩))))
theorem c3 : checkC job ⟨6, 8, 8, 10, 9, 13⟩ 3 100 lims t3 272 48 8 15 3 128 = true := by decide +kernel

def t4 : CTree :=
  .sx (.sy (.leaf ⟨328, 25, 8, 476, 16, 535, ⟨[[], [(549755813888, 0)]], 3, 4⟩, ⟨[[(0, 44882880028), (3032462621169,
    0), (0, 233314244), (75017459, 0), (389334, 0)], [(158624209270, 0), (2042718844, 0), (16714203, 0), (155836, 0),
    (2190, 0)], [(247742, 0), (198551, 0), (3934, 0), (92, 0), (3, 0)], [(0, 29355), (0, 992), (0, 18)]], 3, 4⟩,
    1099511627776, 0, 56592174, ⟨[[(61884770624493, 0), (0, 73111287418), (83803156, 0), (169882, 0), (649, 0)],
    [(21082472830, 0), (49402760, 0), (0, 32574), (118, 0), (0, 3)], [(0, 21359149), (0, 112534), (135, 0)], [(20015,
    0), (246, 0)]], 3, 4⟩, 68719476736, 45848433,
    2758451964284970620189871116705456017473256111463409676665946893910394344582905385346089325622, lc0⟩) (.sx (.leaf
    ⟨395, 16, 10, 629, 16, 688, ⟨[[], [(343597383680, 0)]], 3, 4⟩, ⟨[[(0, 492632891696), (3837390005867, 0),
    (949314011, 0), (105035582, 0), (683093, 0)], [(110195968863, 0), (1445273373, 0), (12683048, 0), (136050, 0),
    (1924, 0)], [(1337147, 0), (110738, 0), (2502, 0), (59, 0), (1, 0)], [(0, 5618), (0, 187), (0, 3)]], 3, 4⟩,
    1099511627776, 0, 10543761, ⟨[[(60676303217970, 0), (0, 55536149367), (55282678, 0), (90545, 0), (19, 0)],
    [(17826319484, 0), (31906967, 0), (0, 18315), (0, 152), (0, 7)], [(0, 15149588), (0, 59327), (0, 0), (0, 3)],
    [(12437, 0), (101, 0), (0, 1)]], 3, 4⟩, 68719476736, 12601225,
    1928245482663277301521708455030331203788674585996504892344382193350592459422847559277902987476, lc0⟩) (.leaf
    ⟨425, 16, 10, 622, 16, 671, ⟨[[], [(343597383680, 0)]], 3, 4⟩, ⟨[[(451859654106, 0), (3878717439388, 0),
    (2132680137, 0), (115643165, 0), (851989, 0)], [(107568924078, 0), (1425034053, 0), (12736984, 0), (141565, 0),
    (1961, 0)], [(0, 321424), (51961, 0), (1329, 0), (32, 0)], [(0, 5801), (0, 207), (0, 4)]], 3, 4⟩, 1099511627776,
    0, 10422673, ⟨[[(60723556263680, 0), (0, 55012856876), (59604310, 0), (71407, 0), (0, 761)], [(17198204280, 0),
    (28799239, 0), (0, 39701), (0, 952), (0, 17)], [(0, 14553572), (0, 56635), (0, 291), (0, 8)], [(11604, 0), (33,
    0), (0, 2)]], 3, 4⟩, 68719476736, 19741542,
    2622781971548083244767918051757859207009496433409260369871159807207992099843864270641313432504, lc0⟩))) (.sy (.sx
    (.leaf ⟨455, 16, 10, 614, 16, 675, ⟨[[], [(343597383680, 0)]], 3, 4⟩, ⟨[[(0, 436059724211), (4012381931312, 0),
    (1240589161, 0), (109263102, 0), (704229, 0)], [(99795314797, 0), (1296473178, 0), (10706648, 0), (103511, 0),
    (1543, 0)], [(0, 1981054), (0, 9754), (0, 181), (5, 0)], [(0, 4886), (0, 178), (0, 4)]], 3, 4⟩, 1099511627776, 0,
    6910272, ⟨[[(61865298724586, 0), (0, 55201280894), (55364624, 0), (76011, 0), (0, 511)], [(16052145388, 0),
    (26268432, 0), (0, 25569), (0, 648), (0, 15)], [(0, 12985894), (0, 47763), (0, 187), (0, 7)], [(9816, 0), (35,
    0), (0, 2)]], 3, 4⟩, 68719476736, 20304948,
    2708266467805263904850179536291888356708638880732337384352257424063738301648022200561137821804, lc0⟩) (.leaf
    ⟨485, 16, 10, 609, 16, 661, ⟨[[], [(343597383680, 0)]], 3, 4⟩, ⟨[[(427973190979, 0), (4050796518499, 0),
    (2216297566, 0), (116696248, 0), (833572, 0)], [(97219614147, 0), (1262792877, 0), (10341208, 0), (99882, 0),
    (1461, 0)], [(0, 3334741), (0, 61826), (0, 1351), (0, 21), (0, 1)], [(0, 4893), (0, 188), (0, 4)]], 3, 4⟩,
    1099511627776, 0, 6567439, ⟨[[(61908721946095, 0), (0, 54724198054), (57504561, 0), (12501, 0), (0, 1509)],
    [(15480623153, 0), (23063096, 0), (0, 75052), (0, 1573), (0, 7)], [(0, 12543522), (0, 53560), (0, 470), (0, 2)],
    [(8597, 0), (0, 11)]], 3, 4⟩, 68719476736, 43703352,
    3796558179352223088867093404415822372313735681456704401763095808759182186524579192694426608048, lc0⟩)) (.sx
    (.leaf ⟨455, 16, 10, 617, 16, 655, ⟨[[], [(343597383680, 0)]], 3, 4⟩, ⟨[[(0, 296453694169), (3920053390415, 0),
    (3283210868, 0), (126329268, 0), (1010003, 0)], [(104784537989, 0), (1394963262, 0), (12548985, 0), (140563, 0),
    (1750, 0)], [(0, 1984643), (0, 11238), (0, 160), (0, 10), (0, 2)], [(0, 5933), (0, 228), (0, 6)]], 3, 4⟩,
    1099511627776, 0, 9486835, ⟨[[(60686741529510, 0), (0, 54318649310), (61261892, 0), (0, 18339), (0, 1259)],
    [(16603352715, 0), (24315016, 0), (0, 114130), (0, 1572), (21, 0)], [(0, 14190253), (0, 66860), (0, 469), (11,
    0), (1, 0)], [(9932, 0), (6, 0), (3, 0)]], 3, 4⟩, 68719476736, 98631880,
    3300799958311738707349276341742623840593447884608532771185243450594494046424042455155467132559, lc0⟩) (.sy (.leaf
    ⟨485, 16, 10, 954, 16, 1007, ⟨[[], [(343597383680, 0)]], 3, 4⟩, ⟨[[(0, 321049752264), (3106435406600, 0),
    (1486763099, 0), (25529612, 0), (103906, 0)], [(157100077083, 0), (1037829380, 0), (4520883, 0), (24081, 0),
    (133, 0)], [(0, 5549424), (0, 57651), (0, 683), (0, 10)], [(0, 8898), (0, 180), (0, 2)]], 3, 4⟩, 1099511627776,
    0, 5470769, ⟨[[(60983861397572, 0), (0, 34632669055), (24171541, 0), (0, 7888), (417, 0)], [(15847939087, 0),
    (12695650, 0), (0, 49499), (518, 0), (29, 0)], [(0, 13565613), (0, 38312), (366, 0), (22, 0)], [(9504, 0), (147,
    0), (8, 0)]], 3, 4⟩, 68719476736, 50648601,
    2369979329290540094703146606389559819268934004198053113535982382392102168407131108532766401305, lc0⟩) (.sx (.leaf
    ⟨955, 16, 20, 1236, 16, 1287, ⟨[[], [(343597383680, 0)]], 3, 4⟩, ⟨[[(64988787190, 0), (3963009084408, 0),
    (2364066620, 0), (35193685, 0), (146720, 0)], [(104648368884, 0), (701426307, 0), (3207865, 0), (17677, 0), (73,
    0)], [(0, 1661617), (0, 16614), (0, 224), (0, 5)], [(0, 1594), (0, 33)]], 3, 4⟩, 1099511627776, 0, 1412105,
    ⟨[[(60413624928403, 0), (0, 26671737443), (15158575, 0), (16139, 0), (643, 0)], [(8109627759, 0), (4804390, 0),
    (0, 2961), (571, 0), (12, 0)], [(0, 3557863), (0, 4445), (217, 0), (6, 0)], [(1569, 0), (41, 0), (1, 0)]], 3, 4⟩,
    68719476736, 18645699,
    2030781431389338995014780327975555713741402730009366299789575279567652309102694544035141979205, lc0⟩) (.sy (.leaf
    ⟨985, 16, 20, 1911, 16, 1984, ⟨[[], [(343597383680, 0)]], 3, 4⟩, ⟨[[(71973165984, 0), (3100405588283, 0),
    (965705029, 0), (6924540, 0), (14358, 0)], [(159160986124, 0), (530269073, 0), (1185804, 0), (3128, 0), (5, 0)],
    [(0, 3216047), (0, 19557), (0, 133), (0, 1)], [(0, 2423), (0, 26)]], 3, 4⟩, 1099511627776, 0, 951191,
    ⟨[[(60557240342984, 0), (0, 17136407589), (6662029, 0), (15671, 0), (248, 0)], [(7917865283, 0), (3123520, 0),
    (11301, 0), (352, 0), (4, 0)], [(0, 3399193), (2113, 0), (199, 0), (3, 0)], [(2108, 0), (52, 0), (1, 0)]], 3, 4⟩,
    68719476736, 4422363,
    1836948990878740059868088936866462559803320837430863614420840982178170208681757295223949190717, lc0⟩) (.leaf
    ⟨985, 16, 20, 1907, 16, 1962, ⟨[[], [(343597383680, 0)]], 3, 4⟩, ⟨[[(0, 397972054836), (3078238013837, 0),
    (1081368669, 0), (7195941, 0), (14787, 0)], [(160585320440, 0), (538798984, 0), (1229287, 0), (3190, 0), (3, 0)],
    [(0, 3301435), (0, 21061), (0, 157), (0, 2)], [(0, 2557), (0, 28)]], 3, 4⟩, 1099511627776, 0, 1081844,
    ⟨[[(60261475040845, 0), (0, 17073633748), (8237001, 0), (41936, 0), (512, 0)], [(7977820356, 0), (3972921, 0),
    (38969, 0), (732, 0), (7, 0)], [(0, 3285267), (12259, 0), (403, 0), (5, 0)], [(3375, 0), (99, 0), (2, 0)]], 3,
    4⟩, 68719476736, 7424610,
    3403312240167253046217775782160784263629607936843867252001849890872841971451320399683124304449, lc0⟩))))))
theorem c4 : checkC job ⟨6, 8, 8, 10, 9, 13⟩ 3 100 lims t4 368 48 8 27 3 256 = true := by decide +kernel

def t5 : CTree :=
  .sy (.sx (.leaf ⟨395, 16, 10, 629, 16, 666, ⟨[[], [(343597383680, 0)]], 3, 4⟩, ⟨[[(0, 247697245612),
    (3737322182484, 0), (2911937191, 0), (120909177, 0), (946628, 0)], [(115539598855, 0), (1562334543, 0),
    (15087400, 0), (182304, 0), (2305, 0)], [(2038052, 0), (143024, 0), (3579, 0), (66, 0)], [(0, 6658), (0, 229),
    (0, 5)]], 3, 4⟩, 1099511627776, 0, 14920689, ⟨[[(59547042070657, 0), (0, 54882187130), (64393066, 0), (66035, 0),
    (0, 916)], [(18478345032, 0), (31622060, 0), (0, 57900), (0, 1223), (0, 15)], [(0, 16424121), (0, 68209), (0,
    403), (0, 9)], [(13935, 0), (35, 0), (0, 2)]], 3, 4⟩, 68719476736, 22998421,
    2444887912290764917523850356725558706037146497012797075089761832956027009715394541453338493136, lc0⟩) (.sy (.leaf
    ⟨425, 16, 10, 948, 16, 997, ⟨[[], [(343597383680, 0)]], 3, 4⟩, ⟨[[(510733927148, 0), (2901306481692, 0),
    (1414156066, 0), (24724473, 0), (101165, 0)], [(169762241881, 0), (1150785647, 0), (5532685, 0), (33133, 0),
    (192, 0)], [(0, 86045), (48815, 0), (627, 0), (3, 0)], [(0, 10160), (0, 191), (0, 3)]], 3, 4⟩, 1099511627776, 0,
    12437806, ⟨[[(59857669587919, 0), (0, 35712976390), (27841887, 0), (550, 0), (0, 222)], [(17644489810, 0),
    (17866825, 0), (0, 48147), (0, 472), (2, 0)], [(0, 15566986), (0, 47992), (0, 240), (1, 0)], [(11722, 0), (0, 0),
    (1, 0)]], 3, 4⟩, 68719476736, 13533127,
    1613915206832714715588804378309050649612592423218861783902212562290801625558378771975201112272, lc0⟩) (.leaf
    ⟨425, 16, 10, 941, 16, 973, ⟨[[], [(343597383680, 0)]], 3, 4⟩, ⟨[[(147479405941, 0), (2850721241921, 0),
    (1836763618, 0), (26663710, 0), (112261, 0)], [(172615798022, 0), (1191530075, 0), (6021335, 0), (36695, 0),
    (172, 0)], [(224218, 0), (55090, 0), (610, 0), (0, 4)], [(0, 11130), (0, 221), (0, 3)]], 3, 4⟩, 1099511627776, 0,
    16055148, ⟨[[(59286044819868, 0), (0, 35671095754), (29074646, 0), (0, 988), (367, 0)], [(17919803252, 0),
    (16428565, 0), (0, 62410), (254, 0), (26, 0)], [(0, 16390688), (0, 52920), (150, 0), (19, 0)], [(12305, 0), (108,
    0), (7, 0)]], 3, 4⟩, 68719476736, 50061252,
    2434239003114536474496517412892851993799070022251888218961626646246583405319351923989130972992, lc0⟩))) (.sx (.sy
    (.leaf ⟨395, 16, 10, 938, 16, 970, ⟨[[], [(343597383680, 0)]], 3, 4⟩, ⟨[[(169285095307, 0), (2746323644887, 0),
    (1699792835, 0), (25481310, 0), (106503, 0)], [(178988586175, 0), (1245306073, 0), (6493487, 0), (40906, 0),
    (214, 0)], [(4019586, 0), (130301, 0), (1581, 0), (7, 0)], [(0, 11381), (0, 211), (0, 3)]], 3, 4⟩, 1099511627776,
    0, 20385922, ⟨[[(58736942423248, 0), (0, 36331729645), (31121116, 0), (3144, 0), (0, 99)], [(18935769338, 0),
    (19853549, 0), (0, 57865), (0, 389), (7, 0)], [(0, 17562562), (0, 57592), (0, 228), (4, 0)], [(14156, 0), (15,
    0), (2, 0)]], 3, 4⟩, 68719476736, 22627612,
    1709314523305937669053686957224493886436736597536192851499363709430901762886141206338738961720, lc0⟩) (.leaf
    ⟨395, 16, 10, 928, 16, 944, ⟨[[], [(343597383680, 0)]], 3, 4⟩, ⟨[[(0, 383040705031), (2695332180829, 0),
    (2123916463, 0), (27439853, 0), (116376, 0)], [(181698879952, 0), (1292236872, 0), (7080130, 0), (44651, 0),
    (193, 0)], [(4729252, 0), (145789, 0), (1601, 0), (0, 1)], [(0, 12431), (0, 249), (0, 4)]], 3, 4⟩, 1099511627776,
    0, 26912089, ⟨[[(58179192050284, 0), (0, 36334183763), (33190554, 0), (21724, 0), (957, 0)], [(19229878586, 0),
    (18458198, 0), (0, 57044), (952, 0), (43, 0)], [(0, 18482291), (0, 58945), (445, 0), (30, 0), (1, 0)], [(15326,
    0), (186, 0), (11, 0)]], 3, 4⟩, 68719476736, 69625000,
    2367810540625836801793983196847397614634154718867687386381451517619239677229462615479605613641, lc0⟩)) (.sy (.sx
    (.leaf ⟨835, 16, 20, 1252, 16, 1278, ⟨[[], [(343597383680, 0)]], 3, 4⟩, ⟨[[(0, 545037984190), (3737265467765, 0),
    (2864626034, 0), (37468927, 0), (158356, 0)], [(118172759452, 0), (830420993, 0), (4391642, 0), (26919, 0), (105,
    0)], [(483141, 0), (26434, 0), (256, 0), (0, 3)], [(0, 2019), (0, 42), (0, 1)]], 3, 4⟩, 1099511627776, 0,
    2299505, ⟨[[(58718218792989, 0), (0, 26703299313), (17357544, 0), (14974, 0), (497, 0)], [(9184636056, 0),
    (6049096, 0), (0, 10482), (396, 0), (10, 0)], [(0, 4326110), (0, 8582), (141, 0), (5, 0)], [(1840, 0), (30, 0),
    (1, 0)]], 3, 4⟩, 68719476736, 15254293,
    1698841025319936027209055391444335240704738092272138173288137663734796569066007020921471348050, lc0⟩) (.leaf
    ⟨865, 16, 20, 1244, 16, 1260, ⟨[[], [(343597383680, 0)]], 3, 4⟩, ⟨[[(57570206666, 0), (3763428192990, 0),
    (3241602816, 0), (39449595, 0), (164369, 0)], [(116543898558, 0), (822545026, 0), (4357233, 0), (25576, 0), (66,
    0)], [(0, 110694), (13489, 0), (27, 0), (0, 7)], [(0, 2086), (0, 46), (0, 1)]], 3, 4⟩, 1099511627776, 0, 2174477,
    ⟨[[(58732373971660, 0), (0, 26553429475), (19298436, 0), (82721, 0), (1729, 0)], [(8986207833, 0), (6027708, 0),
    (34574, 0), (1562, 0), (26, 0)], [(0, 4168645), (2887, 0), (562, 0), (12, 0)], [(2723, 0), (99, 0), (3, 0)]], 3,
    4⟩, 68719476736, 35959774,
    3529874040298520653962794422214911686033476303688970910031868439710971894417803198940370968526, lc0⟩)) (.sx (.sy
    (.leaf ⟨835, 16, 20, 1865, 16, 1881, ⟨[[], [(343597383680, 0)]], 3, 4⟩, ⟨[[(0, 442389805884), (2771003020121, 0),
    (1247433267, 0), (7436383, 0), (15571, 0)], [(179564968694, 0), (641436922, 0), (1754056, 0), (5266, 0), (8, 0)],
    [(893306, 0), (20968, 0), (71, 0), (0, 1)], [(0, 3271), (0, 36)]], 3, 4⟩, 1099511627776, 0, 3287359,
    ⟨[[(58318278035799, 0), (0, 17772663878), (8804669, 0), (21991, 0), (308, 0)], [(9275736277, 0), (4193938, 0),
    (11790, 0), (412, 0), (5, 0)], [(0, 4403293), (34, 0), (219, 0), (3, 0)], [(2667, 0), (59, 0), (1, 0)]], 3, 4⟩,
    68719476736, 5972333,
    1589781993548869439572503857474318160718952201350475036432454654031538029012908259901292186275, lc0⟩) (.leaf
    ⟨835, 16, 20, 1854, 16, 1855, ⟨[[], [(343597383680, 0)]], 3, 4⟩, ⟨[[(0, 243685424044), (2748268726133, 0),
    (1365555613, 0), (7709298, 0), (15943, 0)], [(180941771935, 0), (653895366, 0), (1824777, 0), (5352, 0), (6, 0)],
    [(1007278, 0), (21376, 0), (44, 0), (0, 2)], [(0, 3453), (0, 40)]], 3, 4⟩, 1099511627776, 0, 3788977,
    ⟨[[(58054006167773, 0), (0, 17734228857), (10596423, 0), (49226, 0), (584, 0)], [(9342881545, 0), (4964895, 0),
    (38837, 0), (806, 0), (8, 0)], [(0, 4340585), (9443, 0), (428, 0), (6, 0)], [(3876, 0), (108, 0), (2, 0)]], 3,
    4⟩, 68719476736, 8659823,
    2883635556530065239667439365006501896035545630334565418652579347257094727427962411233513603223, lc0⟩)) (.sy (.sx
    (.leaf ⟨1758, 16, 41, 2493, 16, 2499, ⟨[[(0, 137438953472)], [(352187318272, 0)]], 3, 4⟩, ⟨[[(0, 181850850168),
    (3742895298737, 0), (1825373468, 0), (10373304, 0), (21254, 0)], [(119331584719, 0), (427709525, 0), (1168232,
    0), (3347, 0), (3, 0)], [(57133, 0), (4238, 0), (0, 3), (0, 1)], [(0, 566), (0, 7)]], 3, 4⟩, 1099511627776, 0,
    476326, ⟨[[(58323607226472, 0), (0, 13134642084), (6082237, 0), (24679, 0), (212, 0)], [(4456005493, 0),
    (1878035, 0), (13677, 0), (193, 0), (1, 0)], [(0, 976655), (2506, 0), (67, 0), (1, 0)], [(501, 0), (11, 0)]], 3,
    4⟩, 68719476736, 2525258,
    2281562355513821726284543423813551418693803001226636418554265695992720249197458421482050859122, lc0⟩) (.out
    ⟨1825, 16, 40, 3892, 16, 2435, ⟨[[], [(343597383680, 0)]], 1, 1⟩, ⟨[[(0, 159110084744), (0, 3687079655318)], [(0,
    116270780313), (0, 417366659)]], 1, 1⟩, 1099511627776, 0, 18591145132, ⟨[], 0, 0⟩, 0, 0, 0, lc0⟩ 0 1
    318479363488)) (.out ⟨905, 16, 20, 2866, 16, 1800, ⟨[[], [(343597383680, 0)]], 1, 1⟩, ⟨[[(0, 164848041268), (0,
    2727851858435)], [(0, 175670061058), (0, 637361642)]], 1, 1⟩, 1099511627776, 0, 15368866809, ⟨[], 0, 0⟩, 0, 0, 0,
    lc0⟩ 0 1 450067916123)))))
theorem c5 : checkC job ⟨6, 8, 8, 10, 9, 13⟩ 3 100 lims t5 688 48 16 33 3 256 = true := by decide +kernel

def t6 : CTree :=
  .sx (.sy (.leaf ⟨455, 16, 10, 945, 16, 978, ⟨[[], [(343597383680, 0)]], 3, 4⟩, ⟨[[(0, 87600235994), (2954654757047,
    0), (1911513222, 0), (27357084, 0), (114896, 0)], [(166229395177, 0), (1132587349, 0), (5468861, 0), (31676, 0),
    (129, 0)], [(0, 3046368), (0, 10553), (0, 228), (0, 12)], [(0, 10594), (0, 219), (0, 3)]], 3, 4⟩, 1099511627776,
    0, 11570299, ⟨[[(59838515865356, 0), (0, 35087088755), (27243993, 0), (25280, 0), (1502, 0)], [(16958018869, 0),
    (13714069, 0), (0, 30162), (1932, 0), (61, 0)], [(0, 15249460), (0, 34530), (1120, 0), (45, 0), (1, 0)], [(12701,
    0), (347, 0), (17, 0)]], 3, 4⟩, 68719476736, 84859366,
    3543629638908102733107481489230335737808663561393472750191875782695305265128273178775407021095, lc0⟩) (.sx (.leaf
    ⟨895, 16, 20, 1242, 16, 1269, ⟨[[], [(343597383680, 0)]], 3, 4⟩, ⟨[[(196443766228, 0), (3830099584020, 0),
    (2963305684, 0), (38161701, 0), (159506, 0)], [(112469936217, 0), (779826558, 0), (3945987, 0), (22851, 0), (65,
    0)], [(0, 733565), (1232, 0), (0, 76), (0, 7)], [(0, 1920), (0, 42), (0, 1)]], 3, 4⟩, 1099511627776, 0, 1924336,
    ⟨[[(59285572433090, 0), (0, 26591254586), (17591344, 0), (56233, 0), (1333, 0)], [(8680092089, 0), (5492580, 0),
    (19356, 0), (1195, 0), (21, 0)], [(0, 3958691), (6, 0), (436, 0), (10, 0)], [(2289, 0), (78, 0), (2, 0)]], 3, 4⟩,
    68719476736, 29819337,
    2882851890830691794255850019880483423394085748988386877307974472677408804637792039602911229689, lc0⟩) (.sy (.leaf
    ⟨925, 16, 20, 1889, 16, 1923, ⟨[[], [(343597383680, 0)]], 3, 4⟩, ⟨[[(178491647686, 0), (2951315626905, 0),
    (1197777813, 0), (7445502, 0), (15300, 0)], [(168381140594, 0), (581363246, 0), (1445407, 0), (3984, 0), (3, 0)],
    [(0, 1939681), (0, 7923), (0, 97), (0, 2)], [(0, 2912), (0, 33)]], 3, 4⟩, 1099511627776, 0, 1950103,
    ⟨[[(59422298179881, 0), (0, 17320430074), (8850681, 0), (41998, 0), (517, 0)], [(8476687187, 0), (4191443, 0),
    (36281, 0), (729, 0), (7, 0)], [(0, 3672760), (10600, 0), (400, 0), (5, 0)], [(3488, 0), (101, 0), (2, 0)]], 3,
    4⟩, 68719476736, 7705928,
    3417496374589932024269013610121999468003687532310684535084100047006282384330141442287118151976, lc0⟩) (.sx (.leaf
    ⟨1881, 16, 41, 2485, 16, 2513, ⟨[[(0, 137438953472)], [(352187318272, 0)]], 3, 4⟩, ⟨[[(0, 27652942772),
    (3857869462977, 0), (1697073075, 0), (10087831, 0), (20440, 0)], [(112393970279, 0), (391732863, 0), (995433, 0),
    (2703, 0), (1, 0)], [(0, 577473), (0, 2190), (0, 36), (0, 1)], [(0, 505), (0, 6)]], 3, 4⟩, 1099511627776, 0,
    313038, ⟨[[(59142312276609, 0), (0, 13095277272), (6155972, 0), (29896, 0), (253, 0)], [(4189825286, 0),
    (1936659, 0), (17825, 0), (231, 0), (2, 0)], [(0, 850532), (3657, 0), (81, 0), (1, 0)], [(548, 0), (13, 0)]], 3,
    4⟩, 68719476736, 2746552,
    3263700091579387477070062416218715193709907359125171032508250595656788332541528858762655138048, lc0⟩) (.out
    ⟨1945, 16, 40, 3938, 16, 2450, ⟨[[], [(343597383680, 0)]], 1, 1⟩, ⟨[[(0, 263424291806), (0, 3797792904540)], [(0,
    109454508631), (0, 381343313)]], 1, 1⟩, 1099511627776, 0, 18645442029, ⟨[], 0, 0⟩, 0, 0, 0, lc0⟩ 0 1
    363749345159))))) (.sy (.sx (.sy (.leaf ⟨955, 16, 20, 1901, 16, 1954, ⟨[[], [(343597383680, 0)]], 3, 4⟩,
    ⟨[[(389830119934, 0), (3026254252411, 0), (1084593134, 0), (7199130, 0), (14911, 0)], [(163776757515, 0),
    (555223972, 0), (1311148, 0), (3558, 0), (4, 0)], [(0, 2643906), (0, 14402), (0, 116), (0, 1)], [(0, 2664), (0,
    29)]], 3, 4⟩, 1099511627776, 0, 1297577, ⟨[[(59988482402419, 0), (0, 17227915164), (7583489, 0), (26839, 0),
    (366, 0)], [(8189539635, 0), (3563384, 0), (21909, 0), (518, 0), (5, 0)], [(0, 3542273), (5770, 0), (288, 0), (4,
    0)], [(2720, 0), (74, 0), (1, 0)]], 3, 4⟩, 68719476736, 6371596,
    2745792102118869671871646758356595968246573849852917447970964526036702216230193613231314575464, lc0⟩) (.sx (.leaf
    ⟨1942, 16, 41, 2480, 16, 2532, ⟨[[(412316860416, 0)], [(352187318272, 0)]], 3, 4⟩, ⟨[[(548740738208, 0),
    (3921540383709, 0), (1534660593, 0), (9685688, 0), (19848, 0)], [(108382583789, 0), (370636557, 0), (895732, 0),
    (2409, 0), (2, 0)], [(0, 819766), (0, 4432), (0, 41), (0, 1)], [(0, 458), (0, 5)]], 3, 4⟩, 1099511627776, 0,
    241950, ⟨[[(59704563127579, 0), (0, 13157113820), (5187607, 0), (20660, 0), (190, 0)], [(4045554936, 0),
    (1588020, 0), (11926, 0), (172, 0), (1, 0)], [(0, 832483), (2352, 0), (60, 0), (1, 0)], [(424, 0), (10, 0)]], 3,
    4⟩, 68719476736, 2323690,
    2199134012045402906572537635048127847798302016158260402863693885174474413167888288938077715242, lc0⟩) (.out
    ⟨2005, 16, 40, 3995, 16, 2471, ⟨[[], [(343597383680, 0)]], 1, 1⟩, ⟨[[(0, 404418057336), (0, 3861743676065)], [(0,
    105605451296), (0, 360737089)]], 1, 1⟩, 1099511627776, 0, 17595796895, ⟨[], 0, 0⟩, 0, 0, 0, lc0⟩ 0 1
    238314290857))) (.sy (.sx (.leaf ⟨2004, 16, 41, 2474, 16, 2528, ⟨[[(0, 137438953472)], [(352187318272, 0)]], 3,
    4⟩, ⟨[[(0, 277681412151), (3966844380773, 0), (1524433479, 0), (9634390, 0), (19538, 0)], [(105670378742, 0),
    (357523795, 0), (834812, 0), (2141, 0), (1, 0)], [(0, 1042848), (0, 6737), (0, 55), (0, 1)], [(0, 438), (0, 5)]],
    3, 4⟩, 1099511627776, 0, 190203, ⟨[[(59979531965263, 0), (0, 13093190161), (6007595, 0), (31678, 0), (268, 0)],
    [(3943637643, 0), (1923188, 0), (19594, 0), (244, 0), (2, 0)], [(0, 749858), (4142, 0), (84, 0), (1, 0)], [(542,
    0), (13, 0)]], 3, 4⟩, 68719476736, 2729948,
    3588050737364609889417154252006062271759706989743708426273632567524242437307566233425294164383, lc0⟩) (.out
    ⟨2065, 16, 40, 3991, 16, 2467, ⟨[[], [(343597383680, 0)]], 1, 1⟩, ⟨[[(163511653480, 0), (0, 3904554647363)], [(0,
    102913321694), (0, 347500170)]], 1, 1⟩, 1099511627776, 0, 17936580474, ⟨[], 0, 0⟩, 0, 0, 0, lc0⟩ 0 1
    358502329883)) (.out ⟨1025, 16, 20, 3029, 16, 1880, ⟨[[], [(343597383680, 0)]], 1, 1⟩, ⟨[[(0, 319136650157), (0,
    2977532050593)], [(0, 160244102847), (0, 545879991)]], 1, 1⟩, 1099511627776, 0, 21437737550, ⟨[], 0, 0⟩, 0, 0, 0,
    lc0⟩ 0 1 515403429074))) (.out ⟨505, 16, 10, 1475, 16, 921, ⟨[[], [(343597383680, 0)]], 1, 1⟩, ⟨[[(323705739254,
    0), (0, 2915208984726)], [(0, 162247447121), (0, 1121573999)]], 1, 1⟩, 1099511627776, 0, 48016139188, ⟨[], 0, 0⟩,
    0, 0, 0, lc0⟩ 0 1 717302814651))
theorem c6 : checkC job ⟨6, 8, 8, 10, 9, 13⟩ 3 100 lims t6 784 48 16 63 3 512 = true := by decide +kernel

def t7 : CTree :=
  .sx (.sy (.sx (.sy (.sx (.leaf ⟨1819, 16, 41, 2492, 16, 2519, ⟨[[(412316860416, 0)], [(352187318272, 0)]], 3, 4⟩,
    ⟨[[(0, 43402442148), (3810801691428, 0), (1685218561, 0), (10057655, 0), (20677, 0)], [(115223472003, 0),
    (405274289, 0), (1059183, 0), (3004, 0), (3, 0)], [(0, 286946), (881, 0), (0, 16), (0, 1)], [(0, 521), (0, 6)]],
    3, 4⟩, 1099511627776, 0, 318574, ⟨[[(58865104979180, 0), (0, 13161269814), (5356744, 0), (18767, 0), (172, 0)],
    [(4302760990, 0), (1631486, 0), (10048, 0), (156, 0), (1, 0)], [(0, 937015), (1777, 0), (55, 0), (1, 0)], [(420,
    0), (9, 0)]], 3, 4⟩, 68719476736, 2134844,
    1950662368488315237364993847247537593686405237424929757673605351228506425151296816559091538798, lc0⟩) (.out
    ⟨1885, 16, 40, 3946, 16, 2456, ⟨[[], [(343597383680, 0)]], 1, 1⟩, ⟨[[(172898317994, 0), (0, 3753429857727)], [(0,
    112273878211), (0, 395140955)]], 1, 1⟩, 1099511627776, 0, 17944842120, ⟨[], 0, 0⟩, 0, 0, 0, lc0⟩ 0 1
    233003187634)) (.out ⟨935, 16, 20, 2932, 16, 1832, ⟨[[], [(343597383680, 0)]], 1, 1⟩, ⟨[[(0, 40377074782), (0,
    2801605920927)], [(0, 171146059184), (0, 608471346)]], 1, 1⟩, 1099511627776, 0, 16793176511, ⟨[], 0, 0⟩, 0, 0, 0,
    lc0⟩ 0 1 372794095360)) (.out ⟨965, 16, 20, 1924, 16, 1205, ⟨[[], [(343597383680, 0)]], 1, 1⟩, ⟨[[(0,
    214066527746), (0, 3750331354531)], [(0, 111188567918), (0, 786332241)]], 1, 1⟩, 1099511627776, 0, 43749553044,
    ⟨[], 0, 0⟩, 0, 0, 0, lc0⟩ 0 1 627576426514)) (.out ⟨475, 16, 10, 1405, 16, 887, ⟨[[], [(343597383680, 0)]], 1,
    1⟩, ⟨[[(0, 352817701034), (0, 2768844365841)], [(0, 171035287338), (0, 1235397226)]], 1, 1⟩, 1099511627776, 0,
    45175037903, ⟨[], 0, 0⟩, 0, 0, 0, lc0⟩ 0 1 895870320690)) (.out ⟨505, 16, 10, 914, 16, 580, ⟨[[], [(343597383680,
    0)]], 1, 1⟩, ⟨[[(0, 115301926066), (0, 3745780985262)], [(0, 108821926726), (0, 1543610228)]], 1, 1⟩,
    1099511627776, 0, 122372809701, ⟨[], 0, 0⟩, 0, 0, 0, lc0⟩ 0 1 1407113854339)
theorem c7 : checkC job ⟨6, 8, 8, 10, 9, 13⟩ 3 100 lims t7 784 48 16 69 3 512 = true := by decide +kernel

def t8 : CTree :=
  .sx (.sx (.leaf ⟨275, 16, 10, 413, 16, 435, ⟨[[], [(343597383680, 0)]], 3, 4⟩, ⟨[[(0, 215200159479),
    (4118143830060, 0), (3189822658, 0), (462238389, 0), (5964552, 0)], [(88094089478, 0), (2345328391, 0),
    (46655803, 0), (1107386, 0), (26951, 0)], [(9809923, 0), (781650, 0), (35556, 0), (1351, 0), (35, 0)], [(0,
    3641), (0, 80), (7, 0)]], 3, 4⟩, 1099511627776, 0, 69234124, ⟨[[(56867402686847, 0), (0, 90899149509),
    (163987978, 0), (453431, 0), (367, 0)], [(23329722202, 0), (81205596, 0), (0, 70023), (0, 855), (0, 8)], [(0,
    23511921), (0, 195204), (0, 185), (2, 0)], [(24263, 0), (439, 0), (2, 0)]], 3, 4⟩, 68719476736, 46563856,
    2055709458104543672941052021588574976373928637064685193376997521528289797129620959606679887273, lc0⟩) (.leaf
    ⟨305, 16, 10, 400, 16, 414, ⟨[[], [(343597383680, 0)]], 3, 4⟩, ⟨[[(298419572558, 0), (4140389505991, 0),
    (7614415910, 0), (553011665, 0), (8419440, 0)], [(85530774551, 0), (2372056057, 0), (51004238, 0), (1300827, 0),
    (31098, 0)], [(8223598, 0), (709281, 0), (34449, 0), (1244, 0), (21, 0)], [(0, 4280), (0, 172), (0, 3), (0, 1)]],
    3, 4⟩, 1099511627776, 0, 87092022, ⟨[[(56909449851535, 0), (0, 90574012155), (188695801, 0), (465843, 0), (0,
    2060)], [(22492096185, 0), (72786790, 0), (0, 120845), (0, 2439), (0, 58)], [(0, 22625779), (0, 170878), (0,
    408), (0, 22)], [(24011, 0), (339, 0), (0, 4)]], 3, 4⟩, 68719476736, 123236700,
    2217471949012947361200807589355945485648658565567166224641424577090090894689539462800050103671, lc0⟩)) (.sy (.sx
    (.leaf ⟨335, 16, 10, 638, 16, 657, ⟨[[], [(343597383680, 0)]], 3, 4⟩, ⟨[[(0, 290540012011), (3444086625960, 0),
    (3916814138, 0), (123754985, 0), (997244, 0)], [(132278939010, 0), (1856606171, 0), (20241233, 0), (262166, 0),
    (3019, 0)], [(9468437, 0), (437862, 0), (10796, 0), (178, 0)], [(0, 7592), (0, 217), (0, 5)]], 3, 4⟩,
    1099511627776, 0, 30211806, ⟨[[(57385738485981, 0), (0, 55315453332), (74144222, 0), (83879, 0), (0, 690)],
    [(21323953153, 0), (39457704, 0), (0, 73232), (0, 1143), (0, 8)], [(0, 20922059), (0, 95281), (0, 418), (0, 7)],
    [(20924, 0), (101, 0), (0, 2)]], 3, 4⟩, 68719476736, 23439070,
    1360133865514312460505762565742678769490415492567956816465403674847775898468928014971571964254, lc0⟩) (.leaf
    ⟨365, 16, 10, 626, 16, 633, ⟨[[], [(343597383680, 0)]], 3, 4⟩, ⟨[[(0, 398715713567), (3493678700125, 0),
    (5736040551, 0), (144789796, 0), (1232367, 0)], [(128984436406, 0), (1863031464, 0), (21305046, 0), (276428, 0),
    (2635, 0)], [(6831170, 0), (346001, 0), (8063, 0), (65, 0), (0, 3)], [(0, 8627), (0, 324), (0, 12), (0, 1)]], 3,
    4⟩, 1099511627776, 0, 34841313, ⟨[[(57380882227052, 0), (0, 54512352901), (78559143, 0), (63699, 0), (2399, 0)],
    [(20503852711, 0), (32259871, 0), (0, 135994), (1061, 0), (132, 0)], [(0, 20324544), (0, 102121), (152, 0), (58,
    0), (2, 0)], [(17973, 0), (143, 0), (14, 0), (1, 0)]], 3, 4⟩, 68719476736, 297663086,
    3242001672915815921372161875038960427071064186895990246523915414437673809458834984248912789105, lc0⟩)) (.sx
    (.leaf ⟨335, 16, 10, 627, 16, 627, ⟨[[], [(343597383680, 0)]], 3, 4⟩, ⟨[[(0, 331763992364), (3345315071201, 0),
    (6089444032, 0), (144335387, 0), (1243322, 0)], [(137623079641, 0), (2033234824, 0), (24473021, 0), (324351, 0),
    (3300, 0)], [(11950616, 0), (559593, 0), (13265, 0), (152, 0), (0, 2)], [(0, 8729), (0, 302), (0, 12), (0, 1)]],
    3, 4⟩, 1099511627776, 0, 49283068, ⟨[[(56362008069625, 0), (0, 54930059064), (85726786, 0), (98823, 0), (2496,
    0)], [(22039537882, 0), (37273256, 0), (0, 123197), (1339, 0), (130, 0)], [(0, 22894797), (0, 114611), (191, 0),
    (56, 0), (2, 0)], [(22656, 0), (168, 0), (12, 0), (1, 0)]], 3, 4⟩, 68719476736, 280478281,
    2129041259618158420827264956348449548225533763726372546332352672802161973745205488279512979788, lc0⟩) (.sy (.sx
    (.leaf ⟨715, 16, 20, 1254, 16, 1246, ⟨[[], [(343597383680, 0)]], 3, 4⟩, ⟨[[(0, 30039238641), (3449704136986, 0),
    (3565797536, 0), (39671688, 0), (171786, 0)], [(135226903362, 0), (1009566012, 0), (6130654, 0), (39710, 0),
    (173, 0)], [(4568299, 0), (111358, 0), (1204, 0), (2, 0)], [(0, 2421), (0, 51), (0, 1)]], 3, 4⟩, 1099511627776,
    0, 4939869, ⟨[[(56629939367792, 0), (0, 26905057403), (21794069, 0), (40466, 0), (786, 0)], [(10585901960, 0),
    (8066076, 0), (580, 0), (679, 0), (13, 0)], [(0, 5454488), (0, 9884), (218, 0), (6, 0)], [(2784, 0), (42, 0), (2,
    0)]], 3, 4⟩, 68719476736, 19735477,
    1003790396874217457023720428314609849118047052553556720024270362214838927540621263635515436443, lc0⟩) (.sy (.leaf
    ⟨745, 16, 20, 1813, 16, 1791, ⟨[[], [(343597383680, 0)]], 3, 4⟩, ⟨[[(0, 507290041754), (2540890595700, 0),
    (1427063359, 0), (7614194, 0), (16352, 0)], [(193336914745, 0), (726393019, 0), (2211142, 0), (6945, 0), (13,
    0)], [(5307720, 0), (66343, 0), (310, 0), (0, 1)], [(0, 3732), (0, 43)]], 3, 4⟩, 1099511627776, 0, 6399736,
    ⟨[[(56749050067079, 0), (0, 18321550988), (11621385, 0), (38541, 0), (462, 0)], [(10323316138, 0), (5634199, 0),
    (24703, 0), (626, 0), (7, 0)], [(0, 5209944), (1782, 0), (314, 0), (5, 0)], [(3594, 0), (78, 0), (2, 0)]], 3, 4⟩,
    68719476736, 7834602,
    1897524109969314719532089567464338801206195940312573026714506547785455234037062526530082651866, lc0⟩) (.sx (.leaf
    ⟨1512, 16, 41, 2497, 16, 2454, ⟨[[(0, 137438953472)], [(352187318272, 0)]], 3, 4⟩, ⟨[[(0, 367913633726),
    (3481370296881, 0), (2071388042, 0), (10746110, 0), (23212, 0)], [(135302351678, 0), (513986934, 0), (1592005,
    0), (4994, 0), (9, 0)], [(2055804, 0), (25154, 0), (114, 0)], [(0, 668), (0, 8)]], 3, 4⟩, 1099511627776, 0,
    723366, ⟨[[(56500707765866, 0), (0, 13237586782), (6745170, 0), (20563, 0), (169, 0)], [(5100707693, 0),
    (2196879, 0), (10299, 0), (157, 0), (1, 0)], [(0, 1251396), (1150, 0), (53, 0), (1, 0)], [(495, 0), (9, 0)]], 3,
    4⟩, 68719476736, 2096717,
    2319191769336421391200627905970493963435371505672179235960807885517818812482668881175495764545, lc0⟩) (.out
    ⟨1585, 16, 40, 3765, 16, 2386, ⟨[[], [(343597383680, 0)]], 1, 1⟩, ⟨[[(0, 423815279596), (0, 3433095805554)], [(0,
    131918626452), (0, 504217299)]], 1, 1⟩, 1099511627776, 0, 25521499644, ⟨[], 0, 0⟩, 0, 0, 0, lc0⟩ 0 1
    265879566138)))) (.sx (.sy (.leaf ⟨715, 16, 20, 1794, 16, 1763, ⟨[[], [(343597383680, 0)]], 3, 4⟩,
    ⟨[[(390727043907, 0), (2464995460872, 0), (1458388143, 0), (7588266, 0), (16596, 0)], [(197945262230, 0),
    (755017979, 0), (2365729, 0), (7580, 0), (16, 0)], [(7207569, 0), (86511, 0), (431, 0)], [(0, 3781), (0, 44)]],
    3, 4⟩, 1099511627776, 0, 7759452, ⟨[[(56260071324000, 0), (0, 18562452156), (12356564, 0), (38955, 0), (459, 0)],
    [(10700621788, 0), (6114696, 0), (24519, 0), (626, 0), (7, 0)], [(0, 5528675), (742, 0), (308, 0), (5, 0)],
    [(3762, 0), (75, 0), (2, 0)]], 3, 4⟩, 68719476736, 7762122,
    2654164054237190784333002668790504344820818539552775443597621922651821084351495848219276098369, lc0⟩) (.sx (.leaf
    ⟨1450, 16, 41, 2494, 16, 2438, ⟨[[(412316860416, 0)], [(352187318272, 0)]], 3, 4⟩, ⟨[[(0, 86449410798),
    (3408169044278, 0), (2127896834, 0), (10796929, 0), (23848, 0)], [(139796849602, 0), (539149918, 0), (1717644,
    0), (5514, 0), (12, 0)], [(2776047, 0), (32892, 0), (161, 0)], [(0, 680), (0, 8)]], 3, 4⟩, 1099511627776, 0,
    892209, ⟨[[(56001957436115, 0), (0, 13281905328), (7016476, 0), (20131, 0), (162, 0)], [(5291048006, 0),
    (2353051, 0), (10110, 0), (153, 0), (1, 0)], [(0, 1331107), (959, 0), (52, 0), (1, 0)], [(515, 0), (8, 0)]], 3,
    4⟩, 68719476736, 2039582,
    2915827473584488962387950754118087032698910023988666521106594970985159762887509015943402308141, lc0⟩) (.out
    ⟨1525, 16, 40, 3724, 16, 2369, ⟨[[], [(343597383680, 0)]], 1, 1⟩, ⟨[[(196607577028, 0), (0, 3362292325654)], [(0,
    136339591493), (0, 529800224)]], 1, 1⟩, 1099511627776, 0, 27883065946, ⟨[], 0, 0⟩, 0, 0, 0, lc0⟩ 0 1
    268326081268))) (.out ⟨785, 16, 20, 1834, 16, 1169, ⟨[[], [(343597383680, 0)]], 1, 1⟩, ⟨[[(0, 538984442587), (0,
    3379813895676)], [(0, 133644827993), (0, 1041180402)]], 1, 1⟩, 1099511627776, 0, 60018146626, ⟨[], 0, 0⟩, 0, 0,
    0, lc0⟩ 0 1 458589554945)))))
theorem c8 : checkC job ⟨6, 8, 8, 10, 9, 13⟩ 3 100 lims t8 272 48 8 39 3 256 = true := by decide +kernel

def t9 : CTree :=
  .sx (.leaf ⟨275, 16, 10, 405, 16, 405, ⟨[[], [(343597383680, 0)]], 3, 4⟩, ⟨[[(491484865665, 0), (3921899713019, 0),
    (12207467533, 0), (614615517, 0), (10236857, 0)], [(96942967222, 0), (2841128972, 0), (68531109, 0), (1827793,
    0), (43069, 0)], [(15007313, 0), (1290514, 0), (63303, 0), (2134, 0), (43, 0)], [(0, 3591), (1, 0), (3, 0), (0,
    1)]], 3, 4⟩, 1099511627776, 0, 132756357, ⟨[[(54951774641432, 0), (0, 89191663940), (221592318, 0), (438533, 0),
    (0, 2639)], [(25068907409, 0), (81639904, 0), (0, 221636), (0, 3409), (31, 0)], [(0, 27938363), (0, 227358), (0,
    797), (1, 0), (2, 0)], [(33982, 0), (428, 0), (0, 2)]], 3, 4⟩, 68719476736, 397897488,
    1429338478938913032030524540788056043793441290365245659725659831413351321000978201419876410405, lc0⟩) (.sy (.leaf
    ⟨305, 16, 10, 627, 16, 622, ⟨[[], [(343597383680, 0)]], 3, 4⟩, ⟨[[(129548750699, 0), (3189590897276, 0),
    (6110804717, 0), (139488409, 0), (1217437, 0)], [(146290246369, 0), (2195363632, 0), (27340922, 0), (368782, 0),
    (4092, 0)], [(18380572, 0), (827488, 0), (20041, 0), (288, 0), (1, 0)], [(0, 7834), (0, 204), (0, 9)]], 3, 4⟩,
    1099511627776, 0, 64573959, ⟨[[(55398820749463, 0), (0, 55691422090), (92319837, 0), (110670, 0), (1494, 0)],
    [(23700357217, 0), (43730636, 0), (0, 116129), (722, 0), (95, 0)], [(0, 25808443), (0, 130662), (47, 0), (41, 0),
    (2, 0)], [(28761, 0), (203, 0), (8, 0), (1, 0)]], 3, 4⟩, 68719476736, 211536996,
    1104334815577205197775710066223256483709266475625936267244473369482280029754525182184404053101, lc0⟩) (.sx (.sy
    (.leaf ⟨595, 16, 20, 1254, 16, 1225, ⟨[[], [(343597383680, 0)]], 3, 4⟩, ⟨[[(350457116561, 0), (3146158844807, 0),
    (3633115758, 0), (37763240, 0), (172785, 0)], [(153284232293, 0), (1189393550, 0), (7797059, 0), (53528, 0),
    (310, 0)], [(11396548, 0), (257246, 0), (3089, 0), (22, 0)], [(0, 1965), (0, 27), (0, 1)]], 3, 4⟩, 1099511627776,
    0, 8771387, ⟨[[(54683674804717, 0), (0, 27508821771), (25147332, 0), (29314, 0), (403, 0)], [(12263596564, 0),
    (11148470, 0), (0, 5581), (388, 0), (8, 0)], [(0, 6938407), (0, 15444), (126, 0), (4, 0)], [(4169, 0), (31, 0),
    (1, 0)]], 3, 4⟩, 68719476736, 11558628,
    752396750873543979793334656215839629666934521081119368392201695382330067590631172943636417400, lc0⟩) (.sx (.leaf
    ⟨1204, 16, 41, 1604, 16, 1549, ⟨[[(412316860416, 0)], [(352187318272, 0)]], 3, 4⟩, ⟨[[(0, 532708172020),
    (3999865837575, 0), (5237930731, 0), (51588220, 0), (246120, 0)], [(101211619329, 0), (805930883, 0), (5476228,
    0), (38240, 0), (234, 0)], [(4174654, 0), (94591, 0), (1133, 0), (9, 0)], [(0, 317), (0, 5)]], 3, 4⟩,
    1099511627776, 0, 1507615, ⟨[[(54194419995821, 0), (0, 21228038434), (16870984, 0), (29921, 0), (349, 0)],
    [(6115081936, 0), (4434852, 0), (5886, 0), (237, 0), (3, 0)], [(0, 1721119), (0, 1863), (53, 0), (1, 0)], [(571,
    0), (6, 0)]], 3, 4⟩, 68719476736, 4756681,
    1403921232483153420536386577504601373177275357163922437233216852703741729733085593654670312974, lc0⟩) (.sy (.leaf
    ⟨1235, 16, 41, 2486, 16, 2397, ⟨[[(137438953472, 0)], [(352187318272, 0)]], 3, 4⟩, ⟨[[(546709724816, 0),
    (3142213475935, 0), (2138782466, 0), (10397895, 0), (24936, 0)], [(155953114526, 0), (624502911, 0), (2133090,
    0), (7423, 0), (23, 0)], [(6096331, 0), (69402, 0), (408, 0), (1, 0)], [(0, 550), (0, 5)]], 3, 4⟩, 1099511627776,
    0, 1270952, ⟨[[(54329434081644, 0), (0, 13574186651), (7273007, 0), (11638, 0), (89, 0)], [(6020983938, 0),
    (2838789, 0), (5050, 0), (93, 0), (1, 0)], [(0, 1670967), (0, 557), (33, 0)], [(586, 0), (5, 0)]], 3, 4⟩,
    68719476736, 1545397,
    1751599581188958925005480896633481970873894605884855069323514729407835433874094408404784023664, lc0⟩) (.sx (.leaf
    ⟨2455, 16, 82, 3189, 16, 3057, ⟨[[(0, 137438953472)], [(352187318272, 0)]], 3, 4⟩, ⟨[[(0, 377742834160),
    (4021727348967, 0), (2904238028, 0), (13814732, 0), (33948, 0)], [(101685889039, 0), (412789303, 0), (1435236,
    0), (5050, 0), (16, 0)], [(2094408, 0), (23868, 0), (140, 0), (1, 0)], [(0, 89), (0, 1)]], 3, 4⟩, 1099511627776,
    0, 282289, ⟨[[(54088586842666, 0), (0, 10489384327), (4816904, 0), (8155, 0), (47, 0)], [(3044355411, 0),
    (1193929, 0), (2882, 0), (33, 0)], [(0, 421580), (91, 0), (8, 0)], [(85, 0), (1, 0)]], 3, 4⟩, 68719476736,
    569066, 2690520296690904004141459353954015007778015695644727761383879993995113633823236412792556304539, lc0⟩)
    (.sy (.leaf ⟨2486, 16, 82, 4949, 16, 4740, ⟨[[(0, 412316860416)], [(352187318272, 0)]], 3, 4⟩, ⟨[[(384806546563,
    0), (3141812530627, 0), (1154923872, 0), (2731589, 0), (3364, 0)], [(157321996985, 0), (320183295, 0), (557780,
    0), (979, 0), (2, 0)], [(3151588, 0), (17981, 0), (52, 0)], [(0, 147), (0, 1)]], 3, 4⟩, 1099511627776, 0, 262439,
    ⟨[[(54153417435172, 0), (0, 6723209859), (2077058, 0), (2639, 0), (10, 0)], [(3021846400, 0), (787889, 0), (1536,
    0), (10, 0)], [(0, 413076), (140, 0), (4, 0)], [(89, 0), (1, 0)]], 3, 4⟩, 68719476736, 191539,
    3014987544307414570801309096791852520842391433096640304751185527085682946997649267856575583418, lc0⟩) (.out
    ⟨2617, 16, 81, 7163, 16, 4615, ⟨[[(343597383680, 0)], [(347892350976, 0)]], 1, 1⟩, ⟨[[(484740330588, 0), (0,
    3072742522568)], [(0, 155063406395), (0, 318360749)]], 1, 1⟩, 1099511627776, 0, 18570558201, ⟨[], 0, 0⟩, 0, 0, 0,
    lc0⟩ 0 1 166355932830)))))) (.sy (.sx (.leaf ⟨1266, 16, 41, 1590, 16, 1540, ⟨[[(0, 137438953472)],
    [(352187318272, 0)]], 3, 4⟩, ⟨[[(0, 502233773912), (4064490098449, 0), (5292849950, 0), (52456549, 0), (245963,
    0)], [(97361255965, 0), (770584752, 0), (5172530, 0), (35503, 0), (204, 0)], [(3435987, 0), (78437, 0), (910, 0),
    (6, 0)], [(0, 368), (0, 7)]], 3, 4⟩, 1099511627776, 0, 1340324, ⟨[[(54666125802084, 0), (0, 21243594493),
    (17057697, 0), (39749, 0), (486, 0)], [(5888315186, 0), (4197847, 0), (9631, 0), (315, 0), (4, 0)], [(0,
    1611659), (0, 1187), (68, 0), (1, 0)], [(532, 0), (7, 0)]], 3, 4⟩, 68719476736, 6590164,
    2161148351497096452949128818107751885929465079212332395991922156257747544810741006710919864084, lc0⟩) (.sy (.leaf
    ⟨1297, 16, 41, 2488, 16, 2406, ⟨[[(0, 412316860416)], [(352187318272, 0)]], 3, 4⟩, ⟨[[(0, 82683029613),
    (3220105597834, 0), (2167569221, 0), (10614736, 0), (24923, 0)], [(151303277019, 0), (601226673, 0), (2023372,
    0), (6896, 0), (19, 0)], [(5017694, 0), (57493, 0), (325, 0), (1, 0)], [(0, 622), (0, 7)]], 3, 4⟩, 1099511627776,
    0, 1286138, ⟨[[(54794760321919, 0), (0, 13458523334), (7304778, 0), (15027, 0), (116, 0)], [(5800331974, 0),
    (2705294, 0), (7210, 0), (118, 0), (1, 0)], [(0, 1562470), (25, 0), (41, 0)], [(563, 0), (7, 0)]], 3, 4⟩,
    68719476736, 1638951,
    2519541995971779294047977546225974464921662039192575219391017153682384622761008521972624633123, lc0⟩) (.sx (.leaf
    ⟨2578, 16, 82, 3163, 16, 3041, ⟨[[(0, 137438953472)], [(352187318272, 0)]], 3, 4⟩, ⟨[[(0, 465683652256),
    (4085367193468, 0), (2923102251, 0), (13980659, 0), (33562, 0)], [(97780838781, 0), (393904699, 0), (1349417, 0),
    (4639, 0), (14, 0)], [(1713155, 0), (19599, 0), (110, 0)], [(0, 102), (0, 1)]], 3, 4⟩, 1099511627776, 0, 203982,
    ⟨[[(54554038253120, 0), (0, 10490471565), (5022207, 0), (10840, 0), (63, 0)], [(2933257421, 0), (1178478, 0),
    (3954, 0), (42, 0)], [(0, 392082), (253, 0), (9, 0)], [(84, 0), (1, 0)]], 3, 4⟩, 68719476736, 691793,
    3965861735575473838413222484415701160481425091391981701136465074966668212412102732607679127116, lc0⟩) (.out
    ⟨2739, 16, 81, 4617, 16, 2965, ⟨[[(0, 206158430208)], [(347892350976, 0)]], 1, 1⟩, ⟨[[(136342963251, 0), (0,
    4020311489217)], [(0, 95655023819), (0, 387697383)]], 1, 1⟩, 1099511627776, 0, 32515894767, ⟨[], 0, 0⟩, 0, 0, 0,
    lc0⟩ 0 1 198725943541)))) (.sx (.sy (.sx (.leaf ⟨2516, 16, 82, 3176, 16, 3049, ⟨[[(412316860416, 0)],
    [(352187318272, 0)]], 3, 4⟩, ⟨[[(0, 145575780319), (4054566403430, 0), (2918561126, 0), (13915275, 0), (33818,
    0)], [(99739406181, 0), (403488270, 0), (1393329, 0), (4848, 0), (15, 0)], [(1898930, 0), (21681, 0), (125, 0)],
    [(0, 97), (0, 1)]], 3, 4⟩, 1099511627776, 0, 223875, ⟨[[(54321460907361, 0), (0, 10489705738), (4910667, 0),
    (9407, 0), (55, 0)], [(2988295719, 0), (1183602, 0), (3384, 0), (37, 0)], [(0, 406721), (168, 0), (8, 0)], [(84,
    0), (1, 0)]], 3, 4⟩, 68719476736, 645632,
    3346591805680450912445508072383889050111258008735912099400475869418880957944175924938695957895, lc0⟩) (.out
    ⟨2678, 16, 81, 4621, 16, 2971, ⟨[[(68719476736, 0)], [(347892350976, 0)]], 1, 1⟩, ⟨[[(524355031606, 0), (0,
    3988779593961)], [(0, 97540466801), (0, 397193877)]], 1, 1⟩, 1099511627776, 0, 32956039198, ⟨[], 0, 0⟩, 0, 0, 0,
    lc0⟩ 0 1 165791442317)) (.out ⟨1315, 16, 40, 3541, 16, 2285, ⟨[[], [(343597383680, 0)]], 1, 1⟩, ⟨[[(0,
    88316448418), (0, 3081168499111)], [(0, 153491547926), (0, 633964238)]], 1, 1⟩, 1099511627776, 0, 38673486902,
    ⟨[], 0, 0⟩, 0, 0, 0, lc0⟩ 0 1 279160562461)) (.out ⟨1345, 16, 40, 2249, 16, 1453, ⟨[[], [(343597383680, 0)]], 1,
    1⟩, ⟨[[(0, 541920071904), (0, 3976910841479)], [(0, 97108985951), (0, 805448847)]], 1, 1⟩, 1099511627776, 0,
    75128389647, ⟨[], 0, 0⟩, 0, 0, 0, lc0⟩ 0 1 396091333330)))))
theorem c9 : checkC job ⟨6, 8, 8, 10, 9, 13⟩ 3 100 lims t9 496 48 16 45 3 256 = true := by decide +kernel

def t10 : CTree :=
  .sy (.sx (.sy (.leaf ⟨655, 16, 20, 1253, 16, 1233, ⟨[[], [(343597383680, 0)]], 3, 4⟩, ⟨[[(295417113862, 0),
    (3298992860585, 0), (3690090594, 0), (39289679, 0), (174961, 0)], [(144119066901, 0), (1101593376, 0), (7008696,
    0), (46811, 0), (238, 0)], [(7605358, 0), (176194, 0), (2018, 0), (10, 0)], [(0, 2363), (0, 45), (0, 1)]], 3, 4⟩,
    1099511627776, 0, 6818174, ⟨[[(55642937368830, 0), (0, 27160970553), (23714551, 0), (38634, 0), (654, 0)],
    [(11386462537, 0), (9482889, 0), (0, 415), (593, 0), (12, 0)], [(0, 6138490), (0, 12167), (187, 0), (6, 0)],
    [(3373, 0), (37, 0), (1, 0)]], 3, 4⟩, 68719476736, 16639219,
    848215227605251071454146313253416105673956028042672604449628404094577722101679975767166190725, lc0⟩) (.sx (.leaf
    ⟨1327, 16, 41, 1577, 16, 1533, ⟨[[(412316860416, 0)], [(352187318272, 0)]], 3, 4⟩, ⟨[[(0, 383742557372),
    (4126800595189, 0), (5282188972, 0), (52885187, 0), (242909, 0)], [(93600914417, 0), (734294806, 0), (4847307,
    0), (32610, 0), (173, 0)], [(2774369, 0), (63910, 0), (713, 0), (4, 0)], [(0, 397), (0, 8)]], 3, 4⟩,
    1099511627776, 0, 1431396, ⟨[[(55141752439701, 0), (0, 21289071490), (17128496, 0), (48875, 0), (617, 0)],
    [(5674213349, 0), (3976964, 0), (12813, 0), (384, 0), (5, 0)], [(0, 1512305), (0, 608), (82, 0), (1, 0)], [(500,
    0), (9, 0)]], 3, 4⟩, 68719476736, 8540983,
    2810545843242902642127050808270198668373464675805268117943610831356334279522589857201625613769, lc0⟩) (.sy (.leaf
    ⟨1358, 16, 41, 2490, 16, 2417, ⟨[[(137438953472, 0)], [(352187318272, 0)]], 3, 4⟩, ⟨[[(0, 294264905672),
    (3295970584850, 0), (2169927935, 0), (10744276, 0), (24629, 0)], [(146650060883, 0), (576739015, 0), (1904273,
    0), (6341, 0), (16, 0)], [(4042735, 0), (46733, 0), (251, 0)], [(0, 663), (0, 8)]], 3, 4⟩, 1099511627776, 0,
    1190700, ⟨[[(55267610052977, 0), (0, 13372705240), (7267678, 0), (17813, 0), (139, 0)], [(5591133762, 0),
    (2574400, 0), (8870, 0), (138, 0), (1, 0)], [(0, 1463879), (496, 0), (47, 0)], [(544, 0), (8, 0)]], 3, 4⟩,
    68719476736, 1806694,
    3002497934432725072087307259990061954248791068443115201275665609605372807268352386635988797876, lc0⟩) (.sy (.out
    ⟨1405, 16, 40, 5184, 16, 3314, ⟨[[], [(343597383680, 0)]], 1, 1⟩, ⟨[[(135603890318, 0), (0, 2273429883594)], [(0,
    204687191074), (0, 407407214)]], 1, 1⟩, 1099511627776, 0, 21574457273, ⟨[], 0, 0⟩, 0, 0, 0, lc0⟩ 0 1
    159072642188) (.out ⟨1405, 16, 40, 5126, 16, 3285, ⟨[[], [(343597383680, 0)]], 1, 1⟩, ⟨[[(477962216940, 0), (0,
    2263194536690)], [(0, 205343687120), (0, 412086986)]], 1, 1⟩, 1099511627776, 0, 22198020022, ⟨[], 0, 0⟩, 0, 0, 0,
    lc0⟩ 0 1 252104791317))))) (.sy (.sy (.leaf ⟨685, 16, 20, 1776, 16, 1736, ⟨[[], [(343597383680, 0)]], 3, 4⟩,
    ⟨[[(0, 208458498651), (2388919920358, 0), (1473338862, 0), (7513896, 0), (16785, 0)], [(202499417734, 0),
    (782980021, 0), (2516560, 0), (8239, 0), (19, 0)], [(9339100, 0), (109459, 0), (576, 0), (1, 0)], [(0, 3743), (0,
    42)]], 3, 4⟩, 1099511627776, 0, 9121420, ⟨[[(55754713745079, 0), (0, 18798953369), (13133003, 0), (39401, 0),
    (455, 0)], [(11103539466, 0), (6665040, 0), (24827, 0), (630, 0), (7, 0)], [(0, 5875030), (0, 87), (307, 0), (5,
    0)], [(4015, 0), (74, 0), (2, 0)]], 3, 4⟩, 68719476736, 7643810,
    3053137914695496241535734963704063256392012203007630788543597396245968613122862427597028995121, lc0⟩) (.sx (.leaf
    ⟨1389, 16, 41, 2491, 16, 2423, ⟨[[(0, 137438953472)], [(352187318272, 0)]], 3, 4⟩, ⟨[[(0, 526010368526),
    (3332959207124, 0), (2161417882, 0), (10777809, 0), (24399, 0)], [(144320668043, 0), (564167134, 0), (1842367,
    0), (6061, 0), (15, 0)], [(3594116, 0), (41806, 0), (219, 0)], [(0, 674), (0, 8)]], 3, 4⟩, 1099511627776, 0,
    1055748, ⟨[[(55508443782672, 0), (0, 13335831025), (7231750, 0), (19076, 0), (150, 0)], [(5488689128, 0),
    (2510092, 0), (9608, 0), (146, 0), (1, 0)], [(0, 1416797), (718, 0), (50, 0), (1, 0)], [(537, 0), (8, 0)]], 3,
    4⟩, 68719476736, 1877452,
    3090612321432240492678983488531755374741571345337837097785145033685730665741452575945169684040, lc0⟩) (.out
    ⟨1465, 16, 40, 3687, 16, 2353, ⟨[[], [(343597383680, 0)]], 1, 1⟩, ⟨[[(0, 40072143964), (0, 3289633159997)], [(0,
    140802836127), (0, 555440743)]], 1, 1⟩, 1099511627776, 0, 30276442468, ⟨[], 0, 0⟩, 0, 0, 0, lc0⟩ 0 1
    243777279987))) (.out ⟨725, 16, 20, 1793, 16, 1151, ⟨[[], [(343597383680, 0)]], 1, 1⟩, ⟨[[(418960251433, 0), (0,
    3233446326249)], [(0, 142442324092), (0, 1146107544)]], 1, 1⟩, 1099511627776, 0, 70603396513, ⟨[], 0, 0⟩, 0, 0,
    0, lc0⟩ 0 1 427822272458))) (.sx (.sy (.sx (.sy (.sx (.sy (.leaf ⟨2639, 16, 82, 4974, 16, 4800, ⟨[[(412316860416,
    0)], [(352187318272, 0)]], 3, 4⟩, ⟨[[(418679329865, 0), (3248697608932, 0), (1129793397, 0), (2733029, 0), (3217,
    0)], [(150729605369, 0), (300866584, 0), (508100, 0), (861, 0), (1, 0)], [(2391371, 0), (13722, 0), (38, 0)],
    [(0, 165), (0, 1)]], 3, 4⟩, 1099511627776, 0, 169909, ⟨[[(54854787961464, 0), (0, 6675584665), (1957934, 0),
    (2645, 0), (10, 0)], [(2872664590, 0), (707982, 0), (1451, 0), (10, 0)], [(0, 379993), (131, 0), (4, 0)], [(78,
    0), (1, 0)]], 3, 4⟩, 68719476736, 171898,
    2670373875538045756960613028061361726008990437887780844336457375393411848575748953819981336363, lc0⟩) (.out
    ⟨2769, 16, 81, 7293, 16, 4675, ⟨[[(206158430208, 0)], [(347892350976, 0)]], 1, 1⟩, ⟨[[(0, 156732086310), (0,
    3177590784633)], [(0, 148580542197), (0, 299061498)]], 1, 1⟩, 1099511627776, 0, 16518396858, ⟨[], 0, 0⟩, 0, 0, 0,
    lc0⟩ 0 1 168337393192)) (.out ⟨2800, 16, 81, 4613, 16, 2959, ⟨[[(0, 481036337152)], [(347892350976, 0)]], 1, 1⟩,
    ⟨[[(282903816855, 0), (0, 4049954059971)], [(0, 93762815177), (0, 377998590)]], 1, 1⟩, 1099511627776, 0,
    32011516176, ⟨[], 0, 0⟩, 0, 0, 0, lc0⟩ 0 1 231155167064)) (.out ⟨1375, 16, 40, 3566, 16, 2296, ⟨[[],
    [(343597383680, 0)]], 1, 1⟩, ⟨[[(0, 410586343326), (0, 3156729167845)], [(0, 148865749086), (0, 608685893)]], 1,
    1⟩, 1099511627776, 0, 36108974236, ⟨[], 0, 0⟩, 0, 0, 0, lc0⟩ 0 1 349264485880)) (.out ⟨1405, 16, 40, 2246, 16,
    1448, ⟨[[], [(343597383680, 0)]], 1, 1⟩, ⟨[[(2432440956, 0), (0, 4036271351190)], [(0, 93309355312), (0,
    764895329)]], 1, 1⟩, 1099511627776, 0, 72783305554, ⟨[], 0, 0⟩, 0, 0, 0, lc0⟩ 0 1 471254494680)) (.out ⟨695, 16,
    20, 1702, 16, 1106, ⟨[[], [(343597383680, 0)]], 1, 1⟩, ⟨[[(0, 224709325602), (0, 3116711965427)], [(0,
    149367549487), (0, 1260943530)]], 1, 1⟩, 1099511627776, 0, 85570377742, ⟨[], 0, 0⟩, 0, 0, 0, lc0⟩ 0 1
    707703814166)) (.out ⟨725, 16, 20, 1064, 16, 693, ⟨[[], [(343597383680, 0)]], 1, 1⟩, ⟨[[(0, 442445982354), (0,
    4013302539753)], [(0, 92373209315), (0, 1563472948)]], 1, 1⟩, 1099511627776, 0, 184710583177, ⟨[], 0, 0⟩, 0, 0,
    0, lc0⟩ 0 1 933849856189))
theorem c10 : checkC job ⟨6, 8, 8, 10, 9, 13⟩ 3 100 lims t10 1136 48 32 45 3 256 = true := by decide +kernel

def t11 : CTree :=
  .sy (.sx (.out ⟨755, 16, 20, 1109, 16, 713, ⟨[[], [(343597383680, 0)]], 1, 1⟩, ⟨[[(0, 203168768126), (0,
    4103995294216)], [(0, 86917764969), (0, 1399330619)]], 1, 1⟩, 1099511627776, 0, 156113678053, ⟨[], 0, 0⟩, 0, 0,
    0, lc0⟩ 0 1 633887298943) (.out ⟨785, 16, 20, 1073, 16, 695, ⟨[[], [(343597383680, 0)]], 1, 1⟩, ⟨[[(436017432560,
    0), (0, 4132738091965)], [(0, 85363723165), (0, 1392116483)]], 1, 1⟩, 1099511627776, 0, 168813007155, ⟨[], 0, 0⟩,
    0, 0, 0, lc0⟩ 0 1 1047385785752)) (.out ⟨385, 16, 10, 790, 16, 521, ⟨[[], [(343597383680, 0)]], 1, 1⟩,
    ⟨[[(494374460444, 0), (0, 3189828206086)], [(0, 141001974735), (0, 2438433668)]], 1, 1⟩, 1099511627776, 0,
    200634089269, ⟨[], 0, 0⟩, 0, 0, 0, lc0⟩ 0 1 1548073203019)
theorem c11 : checkC job ⟨6, 8, 8, 10, 9, 13⟩ 3 100 lims t11 1232 48 32 45 3 256 = true := by decide +kernel

def t12 : CTree :=
  .sy (.sx (.sy (.sx (.leaf ⟨775, 16, 20, 1254, 16, 1262, ⟨[[], [(343597383680, 0)]], 3, 4⟩, ⟨[[(413354834316, 0),
    (3597251442194, 0), (3281494083, 0), (39033582, 0), (165992, 0)], [(126615280467, 0), (918266560, 0), (5242019,
    0), (33020, 0), (128, 0)], [(2225242, 0), (62177, 0), (636, 0), (0, 2)], [(0, 2273), (0, 48), (0, 1)]], 3, 4⟩,
    1099511627776, 0, 3219464, ⟨[[(57671983539294, 0), (0, 26774158555), (19458340, 0), (29150, 0), (686, 0)],
    [(9849238496, 0), (6907382, 0), (0, 4872), (565, 0), (12, 0)], [(0, 4850938), (0, 9039), (188, 0), (6, 0)],
    [(2267, 0), (38, 0), (1, 0)]], 3, 4⟩, 68719476736, 18087732,
    1536354582160258040723299445330259070048768828648692258449685988715593305659057834165913793012, lc0⟩) (.sy (.leaf
    ⟨805, 16, 20, 1849, 16, 1851, ⟨[[], [(343597383680, 0)]], 3, 4⟩, ⟨[[(0, 338000451273), (2694984815418, 0),
    (1320896101, 0), (7539347, 0), (15837, 0)], [(184215330506, 0), (669563756, 0), (1904108, 0), (5790, 0), (9, 0)],
    [(2165588, 0), (33804, 0), (134, 0), (0, 1)], [(0, 3462), (0, 39)]], 3, 4⟩, 1099511627776, 0, 4153708,
    ⟨[[(57787679228810, 0), (0, 17935517333), (9719171, 0), (28355, 0), (370, 0)], [(9608307529, 0), (4628482, 0),
    (16764, 0), (496, 0), (5, 0)], [(0, 4651336), (977, 0), (258, 0), (4, 0)], [(3002, 0), (68, 0), (1, 0)]], 3, 4⟩,
    68719476736, 6801669,
    1662450100200138744300433625169187876693782415301218832119081074070503632945839167465968267364, lc0⟩) (.sx (.leaf
    ⟨1635, 16, 41, 2501, 16, 2490, ⟨[[(0, 137438953472)], [(352187318272, 0)]], 3, 4⟩, ⟨[[(233285399144, 0),
    (3625433906764, 0), (1899313843, 0), (10469789, 0), (21943, 0)], [(126573148830, 0), (464959696, 0), (1347982,
    0), (4073, 0), (6, 0)], [(887061, 0), (12909, 0), (47, 0)], [(0, 612), (0, 7)]], 3, 4⟩, 1099511627776, 0, 586604,
    ⟨[[(57534087571711, 0), (0, 13206084377), (5860174, 0), (17051, 0), (151, 0)], [(4744854255, 0), (1832028, 0),
    (8108, 0), (137, 0), (1, 0)], [(0, 1116872), (963, 0), (47, 0)], [(422, 0), (8, 0)]], 3, 4⟩, 68719476736,
    1866290, 1085225552967070602489311252595838854336823151857537522725909530135581167401642832966791460526, lc0⟩)
    (.leaf ⟨1666, 16, 41, 2491, 16, 2469, ⟨[[(0, 412316860416)], [(352187318272, 0)]], 3, 4⟩, ⟨[[(90794763691, 0),
    (3639229213489, 0), (2011976234, 0), (10764206, 0), (22218, 0)], [(125657541825, 0), (463294830, 0), (1343511,
    0), (3928, 0), (4, 0)], [(701373, 0), (10676, 0), (24, 0), (0, 1)], [(0, 630), (0, 8)]], 3, 4⟩, 1099511627776, 0,
    625688, ⟨[[(57533832721625, 0), (0, 13111554423), (7167026, 0), (32313, 0), (259, 0)], [(4699995879, 0),
    (2261348, 0), (18416, 0), (239, 0), (2, 0)], [(0, 1046929), (3375, 0), (83, 0), (1, 0)], [(606, 0), (13, 0)]], 3,
    4⟩, 68719476736, 2659995,
    3661336308586823644189927220770142217914064096552059908089217082606487361043990409219370384215, lc0⟩)))) (.sx
    (.sy (.leaf ⟨775, 16, 20, 1831, 16, 1821, ⟨[[], [(343597383680, 0)]], 3, 4⟩, ⟨[[(368052988240, 0),
    (2618385758383, 0), (1381305571, 0), (7599631, 0), (16098, 0)], [(188819361975, 0), (698023191, 0), (2057213, 0),
    (6349, 0), (10, 0)], [(3632876, 0), (48861, 0), (212, 0), (0, 1)], [(0, 3621), (0, 41)]], 3, 4⟩, 1099511627776,
    0, 5354806, ⟨[[(57276715517817, 0), (0, 18130653973), (10608152, 0), (32995, 0), (412, 0)], [(9953874572, 0),
    (5086173, 0), (20137, 0), (554, 0), (6, 0)], [(0, 4919934), (1225, 0), (282, 0), (4, 0)], [(3265, 0), (72, 0),
    (2, 0)]], 3, 4⟩, 68719476736, 7137740,
    1485286906465748523735752994990378607277751135205355840801176626038588201305781614552241897769, lc0⟩) (.sx (.leaf
    ⟨1573, 16, 41, 2500, 16, 2472, ⟨[[(412316860416, 0)], [(352187318272, 0)]], 3, 4⟩, ⟨[[(0, 251896785780),
    (3554555102840, 0), (1994948065, 0), (10637700, 0), (22569, 0)], [(130921976429, 0), (489283774, 0), (1468581,
    0), (4514, 0), (7, 0)], [(1428803, 0), (18531, 0), (77, 0)], [(0, 645), (0, 8)]], 3, 4⟩, 1099511627776, 0,
    735398, ⟨[[(57008095814098, 0), (0, 13212121165), (6339226, 0), (19353, 0), (164, 0)], [(4920243466, 0),
    (2018154, 0), (9508, 0), (150, 0), (1, 0)], [(0, 1181211), (1127, 0), (51, 0), (1, 0)], [(463, 0), (9, 0)]], 3,
    4⟩, 68719476736, 2059457,
    1444735437705416951345828491259466534289245997327816298910128354500167564005260545864982368053, lc0⟩) (.out
    ⟨1645, 16, 40, 3810, 16, 2405, ⟨[[], [(343597383680, 0)]], 1, 1⟩, ⟨[[(0, 165503289574), (0, 3504071577583)], [(0,
    127622813756), (0, 479271759)]], 1, 1⟩, 1099511627776, 0, 23209811565, ⟨[], 0, 0⟩, 0, 0, 0, lc0⟩ 0 1
    252860297769))) (.out ⟨845, 16, 20, 1880, 16, 1189, ⟨[[], [(343597383680, 0)]], 1, 1⟩, ⟨[[(83877619174, 0), (0,
    3520005463900)], [(0, 125071207852), (0, 938738031)]], 1, 1⟩, 1099511627776, 0, 49828044753, ⟨[], 0, 0⟩, 0, 0, 0,
    lc0⟩ 0 1 445189913158))) (.sy (.sx (.sy (.sx (.leaf ⟨1696, 16, 41, 2492, 16, 2479, ⟨[[(412316860416, 0)],
    [(352187318272, 0)]], 3, 4⟩, ⟨[[(85349556792, 0), (3674107867027, 0), (1953376814, 0), (10645575, 0), (21877,
    0)], [(123529746812, 0), (451202095, 0), (1283622, 0), (3724, 0), (3, 0)], [(468280, 0), (8324, 0), (14, 0), (0,
    1)], [(0, 610), (0, 7)]], 3, 4⟩, 1099511627776, 0, 594766, ⟨[[(57792565125580, 0), (0, 13119351464), (6794274,
    0), (29758, 0), (244, 0)], [(4618001184, 0), (2126831, 0), (16799, 0), (224, 0), (2, 0)], [(0, 1023224), (3082,
    0), (78, 0), (1, 0)], [(571, 0), (13, 0)]], 3, 4⟩, 68719476736, 2725493,
    2884764642941164451206239791151239807842638080326776647905665575415134405166898169749020568102, lc0⟩) (.out
    ⟨1765, 16, 40, 3841, 16, 2415, ⟨[[], [(343597383680, 0)]], 1, 1⟩, ⟨[[(0, 275384370597), (0, 3621519365453)], [(0,
    120411584597), (0, 440908105)]], 1, 1⟩, 1099511627776, 0, 20355462584, ⟨[], 0, 0⟩, 0, 0, 0, lc0⟩ 0 1
    384985245670)) (.out ⟨875, 16, 20, 2801, 16, 1768, ⟨[[], [(343597383680, 0)]], 1, 1⟩, ⟨[[(213700029848, 0), (0,
    2653891460995)], [(0, 180193640316), (0, 667203074)]], 1, 1⟩, 1099511627776, 0, 19154426614, ⟨[], 0, 0⟩, 0, 0, 0,
    lc0⟩ 0 1 513340266143)) (.out ⟨905, 16, 20, 1866, 16, 1181, ⟨[[], [(343597383680, 0)]], 1, 1⟩, ⟨[[(0,
    450606305430), (0, 3617460660679)], [(0, 119118894456), (0, 879617470)]], 1, 1⟩, 1099511627776, 0, 46936151398,
    ⟨[], 0, 0⟩, 0, 0, 0, lc0⟩ 0 1 774988623166)) (.out ⟨445, 16, 10, 1337, 16, 853, ⟨[[], [(343597383680, 0)]], 1,
    1⟩, ⟨[[(16861016970, 0), (0, 2622807646629)], [(0, 179922453420), (0, 1359695300)]], 1, 1⟩, 1099511627776, 0,
    45685561012, ⟨[], 0, 0⟩, 0, 0, 0, lc0⟩ 0 1 1019595915230))) (.sx (.sx (.out ⟨815, 16, 20, 1120, 16, 715, ⟨[[],
    [(343597383680, 0)]], 1, 1⟩, ⟨[[(68723871544, 0), (0, 4220229855377)], [(0, 80273874848), (0, 1245743499)]], 1,
    1⟩, 1099511627776, 0, 140376113295, ⟨[], 0, 0⟩, 0, 0, 0, lc0⟩ 0 1 668647835307) (.out ⟨845, 16, 20, 1088, 16,
    699, ⟨[[], [(343597383680, 0)]], 1, 1⟩, ⟨[[(145609265168, 0), (0, 4243398915640)], [(0, 78774761094), (0,
    1231260308)]], 1, 1⟩, 1099511627776, 0, 150681144340, ⟨[], 0, 0⟩, 0, 0, 0, lc0⟩ 0 1 1057778636185)) (.out ⟨445,
    16, 10, 848, 16, 550, ⟨[[], [(343597383680, 0)]], 1, 1⟩, ⟨[[(57457594822, 0), (0, 3478935917160)], [(0,
    124332097711), (0, 1948624731)]], 1, 1⟩, 1099511627776, 0, 143327532754, ⟨[], 0, 0⟩, 0, 0, 0, lc0⟩ 0 1
    1618241009922))
theorem c12 : checkC job ⟨6, 8, 8, 10, 9, 13⟩ 3 100 lims t12 688 48 16 39 3 256 = true := by decide +kernel

def t13 : CTree :=
  .out ⟨392, 26, 8, 409, 16, 267, ⟨[[], [(549755813888, 0)]], 1, 1⟩, ⟨[[(0, 313036896552), (0, 3564862486844)], [(0,
    114715327528), (0, 3442474644)]], 1, 1⟩, 1099511627776, 0, 404662454093, ⟨[], 0, 0⟩, 0, 0, 0, lc0⟩ 0 1
    2283575453114
theorem c13 : checkC job ⟨6, 8, 8, 10, 9, 13⟩ 3 100 lims t13 784 48 16 39 3 256 = true := by decide +kernel

def t14 : CTree :=
  .sx (.out ⟨344, 26, 8, 372, 16, 248, ⟨[[], [(549755813888, 0)]], 1, 1⟩, ⟨[[(0, 88557080460), (0, 3277468131486)],
    [(0, 129614993894), (0, 4382253696)]], 1, 1⟩, 1099511627776, 0, 479580437699, ⟨[], 0, 0⟩, 0, 0, 0, lc0⟩ 0 1
    2302056111776) (.out ⟨392, 26, 8, 339, 16, 233, ⟨[[], [(549755813888, 0)]], 1, 1⟩, ⟨[[(0, 197600816152), (0,
    3460113396572)], [(0, 120201977848), (0, 3696857895)]], 1, 1⟩, 1099511627776, 0, 633830577747, ⟨[], 0, 0⟩, 0, 0,
    0, lc0⟩ 0 1 3599992509497)
theorem c14 : checkC job ⟨6, 8, 8, 10, 9, 13⟩ 3 100 lims t14 368 48 8 45 3 256 = true := by decide +kernel

def t15 : CTree :=
  .sx (.sy (.leaf ⟨40, 25, 8, 266, 16, 292, ⟨[[], [(549755813888, 0)]], 3, 4⟩, ⟨[[(0, 13919106435), (3272991278515,
    0), (0, 28582986192), (544188030, 0), (0, 2911774)], [(125261932829, 0), (4517433056, 0), (91813055, 0),
    (2086385, 0), (44839, 0)], [(66275089, 0), (6963038, 0), (360790, 0), (12018, 0), (295, 0)], [(51079, 0), (7829,
    0), (530, 0), (26, 0), (1, 0)]], 3, 4⟩, 1099511627776, 0, 660054869, ⟨[[(52194256790461, 0), (0, 192673340851),
    (146224697, 0), (1849709, 0), (12591, 0)], [(43911863151, 0), (465576443, 0), (3116351, 0), (13245, 0), (0, 26)],
    [(0, 67081585), (0, 1654243), (0, 23600), (0, 249), (0, 2)], [(119238, 0), (5171, 0), (114, 0), (2, 0)]], 3, 4⟩,
    68719476736, 411380636,
    2678101917502096316670533418552575188698394606914237941479852467292833410088981909232303091340, lc0⟩) (.sx (.leaf
    ⟨35, 16, 10, 370, 16, 386, ⟨[[], [(343597383680, 0)]], 3, 4⟩, ⟨[[(0, 328418862179), (3771042227405, 0), (0,
    29395354122), (575865495, 0), (0, 2193024)], [(99440421128, 0), (3503306259, 0), (73624538, 0), (1664076, 0),
    (32960, 0)], [(37983308, 0), (3838936, 0), (188646, 0), (5933, 0), (147, 0)], [(21482, 0), (2888, 0), (187, 0),
    (9, 0)]], 3, 4⟩, 1099511627776, 0, 127656228, ⟨[[(48924163608872, 0), (0, 147118370739), (109028514, 0),
    (1075831, 0), (5685, 0)], [(42723635912, 0), (377097514, 0), (2091019, 0), (6454, 0), (0, 27)], [(0, 66394268),
    (0, 1382069), (0, 16601), (0, 143), (0, 1)], [(126300, 0), (4412, 0), (81, 0), (1, 0)]], 3, 4⟩, 68719476736,
    72915765, 1949418948193771725445254989449262541248030962607773499010811884478183398989060833649657754559, lc0⟩)
    (.leaf ⟨65, 16, 10, 346, 16, 353, ⟨[[], [(343597383680, 0)]], 3, 4⟩, ⟨[[(375344947649, 0), (3790971205651, 0),
    (0, 18656106249), (732867263, 0), (2712756, 0)], [(98137636607, 0), (3954101049, 0), (106133197, 0), (2912883,
    0), (76676, 0)], [(40208000, 0), (4332921, 0), (238416, 0), (9813, 0), (405, 0)], [(18819, 0), (3234, 0), (312,
    0), (24, 0), (2, 0)]], 3, 4⟩, 1099511627776, 0, 308282552, ⟨[[(49018249324765, 0), (0, 146565433862), (226936020,
    0), (1712056, 0), (5960, 0)], [(41689136399, 0), (356760451, 0), (1515657, 0), (0, 2406), (0, 107)], [(0,
    65784425), (0, 1352450), (0, 14871), (0, 91)], [(129746, 0), (4567, 0), (84, 0), (1, 0)]], 3, 4⟩, 68719476736,
    86504512, 1505958776151857360383561150380834977532022708125849059549807846693419368315840245807912828580, lc0⟩)))
    (.sy (.sx (.leaf ⟨95, 16, 10, 314, 16, 334, ⟨[[], [(343597383680, 0)]], 3, 4⟩, ⟨[[(4428313951, 0),
    (4160372023336, 0), (0, 22746193186), (880041031, 0), (2917637, 0)], [(77508490027, 0), (3225360352, 0),
    (87591553, 0), (2516090, 0), (69209, 0)], [(21668776, 0), (2467809, 0), (143990, 0), (6236, 0), (256, 0)],
    [(5430, 0), (1155, 0), (125, 0), (10, 0), (1, 0)]], 3, 4⟩, 1099511627776, 0, 194333312, ⟨[[(52197240169842, 0),
    (0, 151598208743), (221464384, 0), (1610035, 0), (5562, 0)], [(34187667515, 0), (275864414, 0), (1074282, 0), (0,
    1843), (0, 71)], [(0, 42975852), (0, 818578), (0, 8393), (0, 49)], [(63630, 0), (2118, 0), (35, 0)]], 3, 4⟩,
    68719476736, 59921039,
    1000461871448703820642296791483324924374444849511208433377767198674184740228977053465167813912, lc0⟩) (.leaf
    ⟨125, 16, 10, 300, 16, 312, ⟨[[], [(343597383680, 0)]], 3, 4⟩, ⟨[[(0, 201922615458), (4197819401094, 0), (0,
    12036462964), (1111570633, 0), (11815701, 0)], [(76423357516, 0), (3487293527, 0), (111454071, 0), (3803602, 0),
    (132947, 0)], [(21609088, 0), (2648587, 0), (177447, 0), (9670, 0), (496, 0)], [(4516, 0), (1336, 0), (185, 0),
    (17, 0), (1, 0)]], 3, 4⟩, 1099511627776, 0, 395221191, ⟨[[(52168830634933, 0), (0, 150121798405), (321623865, 0),
    (1974703, 0), (3329, 0)], [(33460197121, 0), (257572548, 0), (635190, 0), (0, 6757), (0, 79)], [(0, 42811841),
    (0, 792277), (0, 6987), (0, 9), (1, 0)], [(63751, 0), (2063, 0), (33, 0)]], 3, 4⟩, 68719476736, 92149235,
    1460883383210461557850089822240555392135875829809556610845003276677719422430686848741959461051, lc0⟩)) (.sx
    (.leaf ⟨95, 16, 10, 322, 16, 320, ⟨[[], [(343597383680, 0)]], 3, 4⟩, ⟨[[(55952234940, 0), (3819753675243, 0), (0,
    5381151132), (1024611839, 0), (14171827, 0)], [(96447627655, 0), (4431803859, 0), (147787776, 0), (5184569, 0),
    (196046, 0)], [(41632822, 0), (4975890, 0), (334769, 0), (18955, 0), (1045, 0)], [(19571, 0), (4539, 0), (567,
    0), (50, 0), (3, 0)]], 3, 4⟩, 1099511627776, 0, 814598875, ⟨[[(48975420976387, 0), (0, 145337330300), (372378198,
    0), (2236855, 0), (2218, 0)], [(40765283154, 0), (330795489, 0), (751291, 0), (0, 11782), (0, 129)], [(0,
    65603033), (0, 1299882), (0, 11259), (7, 0), (1, 0)], [(133016, 0), (4631, 0), (78, 0), (1, 0)]], 3, 4⟩,
    68719476736, 142456750,
    1461268260531489322674246834410581764701720561019319467981338971459922181294206933923388730260, lc0⟩) (.leaf
    ⟨125, 16, 10, 294, 16, 284, ⟨[[], [(343597383680, 0)]], 3, 4⟩, ⟨[[(0, 419586866909), (3812349861664, 0),
    (11074413974, 0), (1552707903, 0), (41056073, 0)], [(93215200064, 0), (4912261617, 0), (205301913, 0), (9368488,
    0), (459416, 0)], [(42665184, 0), (5893894, 0), (492880, 0), (34584, 0), (2193, 0)], [(22775, 0), (6345, 0),
    (871, 0), (81, 0), (6, 0)]], 3, 4⟩, 1099511627776, 0, 1839047540, ⟨[[(48912638265864, 0), (0, 145146498264),
    (557234900, 0), (2645667, 0), (0, 3468)], [(39612649871, 0), (299207545, 0), (0, 79092), (0, 17361), (0, 78)],
    [(0, 64587522), (0, 1193272), (0, 5946), (79, 0)], [(131747, 0), (4304, 0), (47, 0), (0, 1)]], 3, 4⟩,
    68719476736, 181097404,
    2379419499935747540607107862892571910238864801771920701588247952619235809591016906582495057005, lc0⟩)))
theorem c15 : checkC job ⟨6, 8, 8, 10, 9, 13⟩ 3 100 lims t15 80 48 8 15 3 64 = true := by decide +kernel

def t16 : CTree :=
  .sx (.leaf ⟨155, 16, 10, 285, 16, 290, ⟨[[], [(343597383680, 0)]], 3, 4⟩, ⟨[[(54185409099, 0), (4236855076353, 0),
    (446168781, 0), (1471123559, 0), (28124654, 0)], [(75005472066, 0), (3751562432, 0), (140706929, 0), (5767641,
    0), (245205, 0)], [(21274945, 0), (2869732, 0), (225187, 0), (14585, 0), (824, 0)], [(4115, 0), (1599, 0), (245,
    0), (23, 0), (1, 0)]], 3, 4⟩, 1099511627776, 0, 806119925, ⟨[[(52203812777315, 0), (0, 148881470344), (429016712,
    0), (2231260, 0), (0, 79)], [(32486098728, 0), (234579966, 0), (176671, 0), (0, 9400), (0, 45)], [(0, 42057728),
    (0, 743447), (0, 4841), (33, 0), (1, 0)], [(62172, 0), (1967, 0), (28, 0)]], 3, 4⟩, 68719476736, 127262990,
    1801632435204926364971794865139354422559330009419078376594848503689166313383254873637987501522, lc0⟩) (.leaf
    ⟨185, 16, 10, 266, 16, 264, ⟨[[], [(343597383680, 0)]], 3, 4⟩, ⟨[[(0, 417594586649), (4210293315724, 0),
    (14801785743, 0), (1984703936, 0), (55162486, 0)], [(72103281167, 0), (3959877488, 0), (174107064, 0), (8402490,
    0), (405834, 0)], [(20449304, 0), (3073986, 0), (276349, 0), (19683, 0), (1165, 0)], [(3731, 0), (1719, 0), (265,
    0), (23, 0), (2, 0)]], 3, 4⟩, 1099511627776, 0, 1534477339, ⟨[[(52139865714491, 0), (0, 149350464531),
    (570375080, 0), (2514207, 0), (0, 7175)], [(31515581214, 0), (211898768, 0), (0, 267539), (0, 11836), (0, 123)],
    [(0, 41400937), (0, 687087), (0, 2715), (24, 0), (0, 1)], [(62003, 0), (1894, 0), (16, 0)]], 3, 4⟩, 68719476736,
    442471380, 1434449444461816746744055455895283569535984103287588527985336726071179679029041098350952662482, lc0⟩)
theorem c16 : checkC job ⟨6, 8, 8, 10, 9, 13⟩ 3 100 lims t16 304 48 16 27 3 128 = true := by decide +kernel

def t17 : CTree :=
  .sx (.leaf ⟨215, 16, 10, 428, 16, 425, ⟨[[], [(343597383680, 0)]], 3, 4⟩, ⟨[[(0, 27093883482), (3651380292393, 0),
    (8898665978, 0), (493823648, 0), (7597098, 0)], [(112238176446, 0), (3197925287, 0), (74397848, 0), (1900768, 0),
    (46745, 0)], [(27068536, 0), (2153115, 0), (101777, 0), (3671, 0), (105, 0)], [(1828, 0), (851, 0), (68, 0), (3,
    0)]], 3, 4⟩, 1099511627776, 0, 113078256, ⟨[[(53069267502272, 0), (0, 89273647370), (215841089, 0), (521746, 0),
    (0, 1696)], [(29164293737, 0), (108975860, 0), (0, 151285), (0, 2704), (0, 24)], [(0, 36268226), (0, 334580), (0,
    672), (0, 1)], [(50822, 0), (879, 0), (2, 0)]], 3, 4⟩, 68719476736, 66374352,
    663732598589113575171749920744305696562955270752046838476323399198723792009688592863671853801, lc0⟩) (.sy (.leaf
    ⟨245, 16, 10, 633, 16, 622, ⟨[[], [(343597383680, 0)]], 3, 4⟩, ⟨[[(147258360508, 0), (2877644042471, 0),
    (5121230764, 0), (117052635, 0), (1012718, 0)], [(164249205269, 0), (2461158333, 0), (30913047, 0), (418842, 0),
    (5240, 0)], [(35200885, 0), (1492547, 0), (36711, 0), (652, 0), (9, 0)], [(0, 1310), (338, 0), (13, 0)]], 3, 4⟩,
    1099511627776, 0, 74681637, ⟨[[(53527541642855, 0), (0, 57637382319), (101045023, 0), (128711, 0), (0, 321)],
    [(27524566530, 0), (60932644, 0), (0, 104647), (0, 726), (16, 0)], [(0, 33300585), (0, 185767), (0, 206), (9, 0),
    (1, 0)], [(45299, 0), (436, 0), (2, 0)]], 3, 4⟩, 68719476736, 62224436,
    615544816942935651126995568331260231476463917642953060647881986534067429819546584000137956259, lc0⟩) (.sx (.leaf
    ⟨475, 16, 20, 831, 16, 801, ⟨[[], [(343597383680, 0)]], 3, 4⟩, ⟨[[(0, 250431467189), (3714825301528, 0),
    (8434101788, 0), (171116051, 0), (1623519, 0)], [(114637859693, 0), (1794321594, 0), (24041260, 0), (340241, 0),
    (4601, 0)], [(14648682, 0), (634929, 0), (15935, 0), (298, 0), (5, 0)], [(386, 0), (98, 0), (3, 0)]], 3, 4⟩,
    1099511627776, 0, 14831705, ⟨[[(52620399785387, 0), (0, 43129948352), (64299966, 0), (64042, 0), (321, 0)],
    [(14399892525, 0), (23712965, 0), (0, 32933), (231, 0), (15, 0)], [(0, 9191680), (0, 37748), (98, 0), (6, 0)],
    [(6745, 0), (60, 0), (1, 0)]], 3, 4⟩, 68719476736, 28270874,
    873306971179581617400142928746717974736949133975619600811323916537805611852626094673232311348, lc0⟩) (.sy (.leaf
    ⟨505, 16, 20, 1239, 16, 1188, ⟨[[], [(343597383680, 0)]], 3, 4⟩, ⟨[[(373023584303, 0), (2863735104274, 0),
    (3704057597, 0), (36056858, 0), (178320, 0)], [(170027027431, 0), (1364291567, 0), (9440702, 0), (68121, 0),
    (470, 0)], [(20396427, 0), (452678, 0), (5708, 0), (53, 0), (1, 0)], [(0, 180), (43, 0), (1, 0)]], 3, 4⟩,
    1099511627776, 0, 11967220, ⟨[[(52859324039916, 0), (0, 28243748851), (29359650, 0), (30412, 0), (322, 0)],
    [(13960430109, 0), (14464198, 0), (0, 4914), (397, 0), (8, 0)], [(0, 8749811), (0, 20066), (174, 0), (5, 0)],
    [(6432, 0), (53, 0), (1, 0)]], 3, 4⟩, 68719476736, 10288920,
    1127247972455834307799885852547025477849253109093431531501492045574759954850849273266594042062, lc0⟩) (.sx (.leaf
    ⟨1020, 16, 41, 1634, 16, 1551, ⟨[[(0, 137438953472)], [(352187318272, 0)]], 3, 4⟩, ⟨[[(0, 523737963618),
    (3755944708932, 0), (5404254917, 0), (50753643, 0), (264845, 0)], [(115834402554, 0), (953153788, 0), (6823619,
    0), (50728, 0), (373, 0)], [(7609879, 0), (170798, 0), (2191, 0), (22, 0)], [(49, 0), (10, 0)]], 3, 4⟩,
    1099511627776, 0, 1895679, ⟨[[(52403180495549, 0), (0, 21138225285), (18069159, 0), (22074, 0), (214, 0)],
    [(6964454942, 0), (5534154, 0), (3922, 0), (184, 0), (2, 0)], [(0, 2172026), (0, 2708), (54, 0), (1, 0)], [(862,
    0), (8, 0)]], 3, 4⟩, 68719476736, 3549211,
    1304037100265619084290384393188384278921075738507642553938635070142736831460326517232940856170, lc0⟩) (.leaf
    ⟨1051, 16, 41, 1610, 16, 1519, ⟨[[(0, 412316860416)], [(352187318272, 0)]], 3, 4⟩, ⟨[[(0, 232487933078),
    (3769617161206, 0), (5954237535, 0), (54675506, 0), (296743, 0)], [(114876232283, 0), (965850715, 0), (7099552,
    0), (53879, 0), (414, 0)], [(7457590, 0), (169706, 0), (2193, 0), (22, 0)], [(0, 17), (7, 0)]], 3, 4⟩,
    1099511627776, 0, 2112145, ⟨[[(52410891677922, 0), (0, 21031250994), (20126769, 0), (46194, 0), (490, 0)],
    [(6886743362, 0), (5747804, 0), (17801, 0), (415, 0), (5, 0)], [(0, 2103722), (0, 164), (115, 0), (2, 0)], [(955,
    0), (14, 0)]], 3, 4⟩, 68719476736, 6729903,
    3859933180411311644898491966558778360938093912764596804490107736381952981053235229932583805405, lc0⟩)))))
theorem c17 : checkC job ⟨6, 8, 8, 10, 9, 13⟩ 3 100 lims t17 400 48 16 51 3 256 = true := by decide +kernel

def t18 : CTree :=
  .sy (.leaf ⟨215, 16, 10, 616, 16, 591, ⟨[[], [(343597383680, 0)]], 3, 4⟩, ⟨[[(228452422016, 0), (2617523136780, 0),
    (5794457439, 0), (116945122, 0), (1118019, 0)], [(178454312031, 0), (2783030077, 0), (37187480, 0), (527967, 0),
    (7384, 0)], [(54515410, 0), (2321259, 0), (58391, 0), (1135, 0), (21, 0)], [(10193, 0), (1166, 0), (43, 0), (1,
    0)]], 3, 4⟩, 1099511627776, 0, 81633300, ⟨[[(51782204252592, 0), (0, 59315143334), (122403313, 0), (156006, 0),
    (10, 0)], [(30752794645, 0), (73711144, 0), (0, 139690), (0, 266), (49, 0)], [(0, 41412217), (0, 249827), (271,
    0), (39, 0), (1, 0)], [(64854, 0), (777, 0), (11, 0), (1, 0)]], 3, 4⟩, 68719476736, 118296451,
    1352480101086626537161173902647657864197969877012509809699341347637528904887739158064228547348, lc0⟩) (.sx (.leaf
    ⟨415, 16, 20, 830, 16, 783, ⟨[[], [(343597383680, 0)]], 3, 4⟩, ⟨[[(0, 35404931627), (3475814500991, 0),
    (9350380702, 0), (175845093, 0), (1859702, 0)], [(128015811609, 0), (2083216875, 0), (29575958, 0), (445034, 0),
    (6851, 0)], [(22991187, 0), (1003843, 0), (26202, 0), (554, 0), (12, 0)], [(3307, 0), (314, 0), (12, 0)]], 3, 4⟩,
    1099511627776, 0, 16308244, ⟨[[(50935657796312, 0), (0, 43206548403), (73244370, 0), (76029, 0), (476, 0)],
    [(16090983856, 0), (28149867, 0), (0, 36677), (500, 0), (22, 0)], [(0, 11414927), (0, 47319), (285, 0), (12, 0)],
    [(9806, 0), (115, 0), (3, 0)]], 3, 4⟩, 68719476736, 36202030,
    1287916125026526368596585021757603594164775303928911574310527705787677501909942706413534522086, lc0⟩) (.sy (.leaf
    ⟨445, 16, 20, 1195, 16, 1119, ⟨[[], [(343597383680, 0)]], 3, 4⟩, ⟨[[(248023123470, 0), (2607770947759, 0),
    (4097433301, 0), (37350079, 0), (211137, 0)], [(184597557120, 0), (1560125856, 0), (11627635, 0), (91215, 0),
    (747, 0)], [(31903689, 0), (719683, 0), (9657, 0), (108, 0), (1, 0)], [(3611, 0), (187, 0), (4, 0)]], 3, 4⟩,
    1099511627776, 0, 12276247, ⟨[[(51149142722309, 0), (0, 29033371901), (36631947, 0), (52398, 0), (625, 0)],
    [(15590200590, 0), (17986631, 0), (13270, 0), (965, 0), (16, 0)], [(0, 10765729), (0, 18475), (521, 0), (11, 0)],
    [(10027, 0), (137, 0), (3, 0)]], 3, 4⟩, 68719476736, 19075435,
    2510804266254525788603884698973080240565785440543969731559497887511170423833940613461462057846, lc0⟩) (.sx (.leaf
    ⟨897, 16, 41, 1620, 16, 1504, ⟨[[(0, 137438953472)], [(352187318272, 0)]], 3, 4⟩, ⟨[[(100231788519, 0),
    (3522246276504, 0), (6052273580, 0), (54338319, 0), (325858, 0)], [(129466087030, 0), (1122224566, 0), (8659741,
    0), (70763, 0), (620, 0)], [(12175609, 0), (279099, 0), (3864, 0), (46, 0), (1, 0)], [(852, 0), (42, 0), (1,
    0)]], 3, 4⟩, 1099511627776, 0, 1864065, ⟨[[(50735903198312, 0), (0, 21128125048), (21249894, 0), (31067, 0),
    (295, 0)], [(7776670336, 0), (6799933, 0), (11300, 0), (318, 0), (4, 0)], [(0, 2653330), (0, 1441), (115, 0), (2,
    0)], [(1375, 0), (18, 0)]], 3, 4⟩, 68719476736, 4890393,
    2272190700261779540740596039200833416049800912667237538974049905127388091123824962471265120443, lc0⟩) (.sy (.sx
    (.leaf ⟨1840, 16, 82, 3237, 16, 2998, ⟨[[(0, 137438953472)], [(352187318272, 0)]], 3, 4⟩, ⟨[[(0, 385173028344),
    (3572900599476, 0), (3205585756, 0), (14328404, 0), (43845, 0)], [(129077779544, 0), (566053550, 0), (2215379,
    0), (9175, 0), (41, 0)], [(5946124, 0), (68813, 0), (481, 0), (3, 0)], [(186, 0), (5, 0)]], 3, 4⟩, 1099511627776,
    0, 352791, ⟨[[(50831947626291, 0), (0, 10435769164), (5554886, 0), (5791, 0), (29, 0)], [(3841726023, 0),
    (1734872, 0), (2803, 0), (30, 0)], [(0, 639176), (132, 0), (10, 0)], [(183, 0), (1, 0)]], 3, 4⟩, 68719476736,
    494402, 1709386454873814439402237004941123502581384803598439460116699280706125667195946858275643662402, lc0⟩)
    (.out ⟨2010, 16, 81, 4412, 16, 2909, ⟨[[(0, 206158430208)], [(347892350976, 0)]], 1, 1⟩, ⟨[[(0, 163756147281),
    (0, 3520181217249)], [(0, 126358606948), (0, 562196706)]], 1, 1⟩, 1099511627776, 0, 46287136216, ⟨[], 0, 0⟩, 0,
    0, 0, lc0⟩ 0 1 172585953235)) (.out ⟨985, 16, 40, 3171, 16, 2097, ⟨[[], [(343597383680, 0)]], 1, 1⟩, ⟨[[(0,
    547035586208), (0, 2547192847351)], [(0, 186295259846), (0, 840613987)]], 1, 1⟩, 1099511627776, 0, 68977938106,
    ⟨[], 0, 0⟩, 0, 0, 0, lc0⟩ 0 1 240570756322)))))
theorem c18 : checkC job ⟨6, 8, 8, 10, 9, 13⟩ 3 100 lims t18 752 48 32 57 3 256 = true := by decide +kernel

def t19 : CTree :=
  .sx (.sy (.leaf ⟨475, 16, 20, 1218, 16, 1153, ⟨[[], [(343597383680, 0)]], 3, 4⟩, ⟨[[(0, 15766974995),
    (2736225331351, 0), (3944580983, 0), (36872055, 0), (195175, 0)], [(177386633951, 0), (1463342624, 0), (10531385,
    0), (79121, 0), (597, 0)], [(25705820, 0), (574794, 0), (7459, 0), (76, 0), (1, 0)], [(1309, 0), (99, 0), (2,
    0)]], 3, 4⟩, 1099511627776, 0, 13132581, ⟨[[(51981740033469, 0), (0, 28571952035), (32949146, 0), (43319, 0),
    (511, 0)], [(14753590281, 0), (16101215, 0), (5595, 0), (712, 0), (13, 0)], [(0, 9708697), (0, 19049), (346, 0),
    (8, 0)], [(8072, 0), (91, 0), (2, 0)]], 3, 4⟩, 68719476736, 14918152,
    1833552047456296851565102806526246521703522691414634179644698626064834292278951703560219481910, lc0⟩) (.sx (.leaf
    ⟨958, 16, 41, 1628, 16, 1527, ⟨[[(412316860416, 0)], [(352187318272, 0)]], 3, 4⟩, ⟨[[(0, 386912784261),
    (3641669504675, 0), (5785348374, 0), (52774823, 0), (295915, 0)], [(122606390245, 0), (1037459400, 0), (7726484,
    0), (60189, 0), (486, 0)], [(9697877, 0), (219834, 0), (2926, 0), (32, 0)], [(363, 0), (22, 0)]], 3, 4⟩,
    1099511627776, 0, 2445279, ⟨[[(51548850652906, 0), (0, 21095041861), (19746531, 0), (28441, 0), (277, 0)],
    [(7361051896, 0), (6159796, 0), (8627, 0), (267, 0), (3, 0)], [(0, 2399442), (0, 1962), (86, 0), (1, 0)], [(1101,
    0), (13, 0)]], 3, 4⟩, 68719476736, 4379845,
    1929299812137925873096361380583684406169583590521359643048194442806250355383588399308723249666, lc0⟩) (.sy (.leaf
    ⟨989, 16, 41, 2399, 16, 2243, ⟨[[(137438953472, 0)], [(352187318272, 0)]], 3, 4⟩, ⟨[[(223945991621, 0),
    (2735108591699, 0), (2311379876, 0), (10436147, 0), (30050, 0)], [(180491485938, 0), (775427017, 0), (2941117,
    0), (11637, 0), (48, 0)], [(13895875, 0), (159324, 0), (1069, 0), (6, 0)], [(384, 0), (14, 0)]], 3, 4⟩,
    1099511627776, 0, 2120591, ⟨[[(51666560544707, 0), (0, 14087527055), (9624581, 0), (14852, 0), (103, 0)],
    [(7247514542, 0), (4262678, 0), (9738, 0), (142, 0), (1, 0)], [(0, 2297898), (415, 0), (64, 0), (1, 0)], [(1177,
    0), (12, 0)]], 3, 4⟩, 68719476736, 1522082,
    3007520978642785835859588416826191401427423847253482328410222900084572042614817681912542056772, lc0⟩) (.sx (.leaf
    ⟨1963, 16, 82, 3220, 16, 2997, ⟨[[(0, 137438953472)], [(352187318272, 0)]], 3, 4⟩, ⟨[[(403137403364, 0),
    (3667229424070, 0), (3247899193, 0), (14557068, 0), (43274, 0)], [(123286223817, 0), (536969326, 0), (2074382,
    0), (8391, 0), (36, 0)], [(4962706, 0), (57352, 0), (392, 0), (2, 0)], [(84, 0), (3, 0)]], 3, 4⟩, 1099511627776,
    0, 397860, ⟨[[(51459374468038, 0), (0, 10407302754), (5647097, 0), (7815, 0), (40, 0)], [(3664907928, 0),
    (1685078, 0), (3896, 0), (38, 0)], [(0, 578676), (320, 0), (12, 0)], [(165, 0), (1, 0)]], 3, 4⟩, 68719476736,
    565300, 3412568114585637765794332487514412777780874346404026857213646841658253937365228089163614096736, lc0⟩)
    (.out ⟨2131, 16, 81, 4430, 16, 2911, ⟨[[(343597383680, 0)], [(347892350976, 0)]], 1, 1⟩, ⟨[[(161683621549, 0),
    (0, 3612582457961)], [(0, 120676135803), (0, 532327444)]], 1, 1⟩, 1099511627776, 0, 44111810819, ⟨[], 0, 0⟩, 0,
    0, 0, lc0⟩ 0 1 220331457637))))) (.sy (.sx (.sy (.leaf ⟨1020, 16, 41, 2424, 16, 2280, ⟨[[(0, 137438953472)],
    [(352187318272, 0)]], 3, 4⟩, ⟨[[(67337356287, 0), (2798745294583, 0), (2250348509, 0), (10273223, 0), (28439,
    0)], [(176794162095, 0), (748086516, 0), (2777259, 0), (10693, 0), (42, 0)], [(12384800, 0), (141072, 0), (925,
    0), (5, 0)], [(145, 0), (9, 0)]], 3, 4⟩, 1099511627776, 0, 1937808, ⟨[[(52091126160405, 0), (0, 13999426345),
    (8988739, 0), (12679, 0), (88, 0)], [(7048860394, 0), (3953332, 0), (7409, 0), (117, 0), (1, 0)], [(0, 2196918),
    (0, 232), (51, 0), (1, 0)], [(1024, 0), (10, 0)]], 3, 4⟩, 68719476736, 1535184,
    2149551085591428472267612045012926488240730849009162093996896163329300724499235102055627915625, lc0⟩) (.sx (.leaf
    ⟨2024, 16, 82, 3230, 16, 3024, ⟨[[(412316860416, 0)], [(352187318272, 0)]], 3, 4⟩, ⟨[[(203982828580, 0),
    (3724546096633, 0), (3144324619, 0), (14211345, 0), (40584, 0)], [(119864889446, 0), (514141699, 0), (1943424,
    0), (7636, 0), (31, 0)], [(4393451, 0), (50396, 0), (335, 0), (2, 0)], [(38, 0), (2, 0)]], 3, 4⟩, 1099511627776,
    0, 340186, ⟨[[(51876960672970, 0), (0, 10422741700), (5344747, 0), (6898, 0), (36, 0)], [(3565015903, 0),
    (1566594, 0), (3128, 0), (32, 0)], [(0, 554947), (157, 0), (10, 0)], [(143, 0), (1, 0)]], 3, 4⟩, 68719476736,
    531852, 2581058976966630455308137971968421836955418417103221551958475485207854489120239340713399225052, lc0⟩)
    (.out ⟨2192, 16, 81, 4490, 16, 2938, ⟨[[(68719476736, 0)], [(347892350976, 0)]], 1, 1⟩, ⟨[[(301776638325, 0), (0,
    3667029780500)], [(0, 117276524993), (0, 508966258)]], 1, 1⟩, 1099511627776, 0, 41620523690, ⟨[], 0, 0⟩, 0, 0, 0,
    lc0⟩ 0 1 164578854375))) (.sy (.sx (.sy (.leaf ⟨2086, 16, 82, 4837, 16, 4535, ⟨[[(0, 137438953472)],
    [(352187318272, 0)]], 3, 4⟩, ⟨[[(0, 50901273945), (2830447481427, 0), (1196281666, 0), (2705544, 0), (3827, 0)],
    [(176460337597, 0), (377851822, 0), (711355, 0), (1386, 0), (3, 0)], [(6063967, 0), (34806, 0), (115, 0)], [(12,
    0), (1, 0)]], 3, 4⟩, 1099511627776, 0, 321585, ⟨[[(52143734674259, 0), (0, 6918668762), (2426259, 0), (2476, 0),
    (9, 0)], [(3490558177, 0), (1041430, 0), (1733, 0), (11, 0)], [(0, 529624), (193, 0), (5, 0)], [(140, 0), (1,
    0)]], 3, 4⟩, 68719476736, 172449,
    2929346353029795391411825810359667564606056793133900466766445649164708346696615914735644664439, lc0⟩) (.out
    ⟨2222, 16, 81, 6750, 16, 4412, ⟨[[(481036337152, 0)], [(347892350976, 0)]], 1, 1⟩, ⟨[[(407513779820, 0), (0,
    2767932568230)], [(0, 173905143467), (0, 376056310)]], 1, 1⟩, 1099511627776, 0, 25929639272, ⟨[], 0, 0⟩, 0, 0, 0,
    lc0⟩ 0 1 166962390293)) (.out ⟨2253, 16, 81, 4463, 16, 2920, ⟨[[(0, 206158430208)], [(347892350976, 0)]], 1, 1⟩,
    ⟨[[(0, 460515403846), (0, 3701946653933)], [(0, 115116327805), (0, 500935789)]], 1, 1⟩, 1099511627776, 0,
    41677579149, ⟨[], 0, 0⟩, 0, 0, 0, lc0⟩ 0 1 236282606874)) (.out ⟨1105, 16, 40, 3285, 16, 2157, ⟨[[],
    [(343597383680, 0)]], 1, 1⟩, ⟨[[(332201760368, 0), (0, 2746797980359)], [(0, 174013533640), (0, 768372524)]], 1,
    1⟩, 1099511627776, 0, 56352189926, ⟨[], 0, 0⟩, 0, 0, 0, lc0⟩ 0 1 329170644118))) (.out ⟨545, 16, 20, 1594, 16,
    1051, ⟨[[], [(343597383680, 0)]], 1, 1⟩, ⟨[[(0, 490602209916), (0, 2686766517388)], [(0, 175253782484), (0,
    1578174379)]], 1, 1⟩, 1099511627776, 0, 129005119986, ⟨[], 0, 0⟩, 0, 0, 0, lc0⟩ 0 1 416525505506))
theorem c19 : checkC job ⟨6, 8, 8, 10, 9, 13⟩ 3 100 lims t19 848 48 32 111 3 512 = true := by decide +kernel

def t20 : CTree :=
  .sx (.sy (.sx (.sy (.leaf ⟨958, 16, 41, 2375, 16, 2208, ⟨[[(412316860416, 0)], [(352187318272, 0)]], 3, 4⟩,
    ⟨[[(270742117550, 0), (2672920785457, 0), (2362661978, 0), (10586864, 0), (31676, 0)], [(184270558955, 0),
    (803123313, 0), (3109839, 0), (12653, 0), (55, 0)], [(15543456, 0), (179499, 0), (1234, 0), (7, 0)], [(684, 0),
    (20, 0)]], 3, 4⟩, 1099511627776, 0, 2114018, ⟨[[(51247364145012, 0), (0, 14177848687), (10242518, 0), (16705, 0),
    (115, 0)], [(7453104386, 0), (4579228, 0), (11929, 0), (167, 0), (1, 0)], [(0, 2404992), (1086, 0), (79, 0), (1,
    0)], [(1347, 0), (15, 0)]], 3, 4⟩, 68719476736, 1668234,
    3776060265940348969198676579064174473852261464138389076140175306459187802984603307380250581579, lc0⟩) (.out
    ⟨1015, 16, 40, 3234, 16, 2131, ⟨[[], [(343597383680, 0)]], 1, 1⟩, ⟨[[(35277695998, 0), (0, 2608201455755)], [(0,
    182605911029), (0, 812499251)]], 1, 1⟩, 1099511627776, 0, 63968363481, ⟨[], 0, 0⟩, 0, 0, 0, lc0⟩ 0 1
    210519055578)) (.out ⟨1045, 16, 40, 2149, 16, 1420, ⟨[[], [(343597383680, 0)]], 1, 1⟩, ⟨[[(184012440921, 0), (0,
    3560358540980)], [(0, 122074781879), (0, 1104395233)]], 1, 1⟩, 1099511627776, 0, 100882771683, ⟨[], 0, 0⟩, 0, 0,
    0, lc0⟩ 0 1 367261582046)) (.out ⟨515, 16, 20, 1523, 16, 1013, ⟨[[], [(343597383680, 0)]], 1, 1⟩,
    ⟨[[(151539748548, 0), (0, 2564983430058)], [(0, 182459182430), (0, 1701774159)]], 1, 1⟩, 1099511627776, 0,
    151117505319, ⟨[], 0, 0⟩, 0, 0, 0, lc0⟩ 0 1 514956214066)) (.out ⟨545, 16, 20, 991, 16, 663, ⟨[[],
    [(343597383680, 0)]], 1, 1⟩, ⟨[[(124752393494, 0), (0, 3527766877042)], [(0, 120216994300), (0, 2316256948)]], 1,
    1⟩, 1099511627776, 0, 264471692534, ⟨[], 0, 0⟩, 0, 0, 0, lc0⟩ 0 1 819576385523)
theorem c20 : checkC job ⟨6, 8, 8, 10, 9, 13⟩ 3 100 lims t20 848 48 32 117 3 512 = true := by decide +kernel

def t21 : CTree :=
  .sx (.leaf ⟨155, 16, 10, 440, 16, 422, ⟨[[], [(343597383680, 0)]], 3, 4⟩, ⟨[[(260783870237, 0), (3160362399113, 0),
    (9169808813, 0), (426311756, 0), (7124556, 0)], [(138805284240, 0), (3991787788, 0), (95341835, 0), (2480211, 0),
    (66968, 0)], [(58954652, 0), (4509785, 0), (210387, 0), (7996, 0), (275, 0)], [(27844, 0), (4334, 0), (311, 0),
    (16, 0), (1, 0)]], 3, 4⟩, 1099511627776, 0, 289340446, ⟨[[(49758790191573, 0), (0, 90707683843), (255516031, 0),
    (646740, 0), (0, 1462)], [(36560251399, 0), (158827617, 0), (0, 197344), (0, 4703), (0, 30)], [(0, 56226555), (0,
    602313), (0, 1401), (6, 0)], [(104179, 0), (1916, 0), (7, 0)]], 3, 4⟩, 68719476736, 56697829,
    1282282277248780456961436952953081455456917083950322185765135869581170495619583740462013171407, lc0⟩) (.sx (.leaf
    ⟨355, 16, 20, 526, 16, 494, ⟨[[], [(343597383680, 0)]], 3, 4⟩, ⟨[[(358285693425, 0), (4065367936403, 0),
    (20191432966, 0), (764199053, 0), (16044328, 0)], [(86477911330, 0), (2758467093, 0), (76612142, 0), (2290420,
    0), (71203, 0)], [(19131213, 0), (1619274, 0), (83855, 0), (3589, 0), (152, 0)], [(4583, 0), (749, 0), (59, 0),
    (4, 0)]], 3, 4⟩, 1099511627776, 0, 205316423, ⟨[[(49760172334505, 0), (0, 70566940580), (193107718, 0), (294697,
    0), (0, 704)], [(17703616920, 0), (54909838, 0), (0, 134554), (0, 1053), (28, 0)], [(0, 13621468), (0, 106509),
    (75, 0), (17, 0), (1, 0)], [(12558, 0), (191, 0), (3, 0)]], 3, 4⟩, 68719476736, 87691769,
    1688111722138829773616756284241688465967061242903060068156256030079902953276613930794336041266, lc0⟩) (.sy (.leaf
    ⟨385, 16, 20, 830, 16, 776, ⟨[[], [(343597383680, 0)]], 3, 4⟩, ⟨[[(0, 361816836314), (3351596438552, 0),
    (9459404453, 0), (174565899, 0), (1928145, 0)], [(134851780231, 0), (2220336531, 0), (32139038, 0), (497158, 0),
    (8038, 0)], [(28164208, 0), (1231094, 0), (32745, 0), (726, 0), (17, 0)], [(5789, 0), (498, 0), (20, 0), (1,
    0)]], 3, 4⟩, 1099511627776, 0, 15573168, ⟨[[(50116434963619, 0), (0, 43356195534), (77528555, 0), (76753, 0),
    (336, 0)], [(17034836588, 0), (30864187, 0), (0, 45481), (389, 0), (20, 0)], [(0, 12761618), (0, 54934), (317,
    0), (13, 0)], [(11752, 0), (145, 0), (3, 0)]], 3, 4⟩, 68719476736, 32895676,
    1287045305347840512136340962200130473669918317885253890759825050534496292855933154857876059420, lc0⟩) (.sx (.leaf
    ⟨774, 16, 41, 1017, 16, 934, ⟨[[(0, 137438953472)], [(352187318272, 0)]], 3, 4⟩, ⟨[[(138574000819, 0),
    (4119690682183, 0), (14538709996, 0), (259546322, 0), (3297214, 0)], [(88883380489, 0), (1556656014, 0),
    (24587107, 0), (420440, 0), (7872, 0)], [(10897580, 0), (499459, 0), (14356, 0), (367, 0), (10, 0)], [(1445, 0),
    (124, 0), (6, 0)]], 3, 4⟩, 1099511627776, 0, 20238064, ⟨[[(49354637951022, 0), (0, 34233000354), (56541289, 0),
    (67214, 0), (692, 0)], [(8630069947, 0), (12432727, 0), (0, 1486), (618, 0), (13, 0)], [(0, 3280729), (0, 7641),
    (205, 0), (5, 0)], [(1758, 0), (30, 0), (1, 0)]], 3, 4⟩, 68719476736, 19179911,
    1997650803588577504604307661901653163438501622753016530157552509115765921668548174465881373520, lc0⟩) (.sy (.leaf
    ⟨805, 16, 41, 1613, 16, 1478, ⟨[[(0, 412316860416)], [(352187318272, 0)]], 3, 4⟩, ⟨[[(0, 224021381838),
    (3342692075998, 0), (6220821380, 0), (55415478, 0), (361245, 0)], [(140191872528, 0), (1247559792, 0), (10048579,
    0), (87588, 0), (844, 0)], [(16692870, 0), (388304, 0), (5672, 0), (75, 0), (1, 0)], [(2045, 0), (91, 0), (2,
    0)]], 3, 4⟩, 1099511627776, 0, 2281276, ⟨[[(49541129212789, 0), (0, 21226893423), (22919427, 0), (26179, 0),
    (222, 0)], [(8459643993, 0), (7664505, 0), (8406, 0), (296, 0), (3, 0)], [(0, 3127409), (0, 2044), (133, 0), (2,
    0)], [(1825, 0), (25, 0)]], 3, 4⟩, 68719476736, 4190302,
    1832989012353311308678958288932623062664600287069392657971219923888594542378752243527309790911, lc0⟩) (.sx (.leaf
    ⟨1594, 16, 82, 1998, 16, 1814, ⟨[[(0, 137438953472)], [(352187318272, 0)]], 3, 4⟩, ⟨[[(151214853042, 0),
    (4161700080020, 0), (8620480744, 0), (76953623, 0), (543983, 0)], [(90294953454, 0), (832297464, 0), (7048902,
    0), (65564, 0), (692, 0)], [(5845845, 0), (140118, 0), (2163, 0), (31, 0)], [(408, 0), (19, 0), (1, 0)]], 3, 4⟩,
    1099511627776, 0, 2399729, ⟨[[(49160840905470, 0), (0, 16773927338), (16103934, 0), (21727, 0), (159, 0)],
    [(4313702407, 0), (3306891, 0), (7751, 0), (140, 0), (1, 0)], [(0, 793977), (516, 0), (39, 0)], [(286, 0), (4,
    0)]], 3, 4⟩, 68719476736, 2125097,
    2245451363044425981921671781013531479332238827591802260681813229991262998211555720285343207371, lc0⟩) (.out
    ⟨1767, 16, 81, 2625, 16, 1757, ⟨[[(0, 206158430208)], [(347892350976, 0)]], 1, 1⟩, ⟨[[(181035253021, 0), (0,
    4109586776632)], [(0, 88555805190), (0, 832707663)]], 1, 1⟩, 1099511627776, 0, 105883205394, ⟨[], 0, 0⟩, 0, 0, 0,
    lc0⟩ 0 1 288061111163))))))
theorem c21 : checkC job ⟨6, 8, 8, 10, 9, 13⟩ 3 100 lims t21 304 48 16 63 3 256 = true := by decide +kernel

def t22 : CTree :=
  .sx (.sx (.leaf ⟨295, 16, 20, 548, 16, 509, ⟨[[], [(343597383680, 0)]], 3, 4⟩, ⟨[[(0, 65221602271), (3856236041694,
    0), (18419796532, 0), (691973445, 0), (14715329, 0)], [(97909725706, 0), (3075848495, 0), (84423455, 0),
    (2538334, 0), (80711, 0)], [(27415311, 0), (2257333, 0), (116518, 0), (5097, 0), (220, 0)], [(9800, 0), (1466,
    0), (114, 0), (7, 0)]], 3, 4⟩, 1099511627776, 0, 242288490, ⟨[[(48218344924443, 0), (0, 69778361870), (195563145,
    0), (339294, 0), (0, 892)], [(19890567057, 0), (66257757, 0), (0, 145410), (0, 1943), (0, 8)], [(0, 17061535),
    (0, 142813), (0, 210), (3, 0)], [(18015, 0), (250, 0), (2, 0)]], 3, 4⟩, 68719476736, 26187690,
    1230618446101030736733814857436363238136603627374578953335953354927725426914463719627918715113, lc0⟩) (.leaf
    ⟨325, 16, 20, 514, 16, 470, ⟨[[], [(343597383680, 0)]], 3, 4⟩, ⟨[[(77392555125, 0), (3853895263748, 0),
    (25585414919, 0), (914242126, 0), (23094262, 0)], [(95530678395, 0), (3280480227, 0), (101891584, 0), (3475274,
    0), (129727, 0)], [(28113342, 0), (2517317, 0), (143979, 0), (7351, 0), (399, 0)], [(10400, 0), (1671, 0), (152,
    0), (12, 0), (1, 0)]], 3, 4⟩, 1099511627776, 0, 435719964, ⟨[[(48227140118498, 0), (0, 69899943381), (232456946,
    0), (336818, 0), (0, 435)], [(19405714505, 0), (60070751, 0), (0, 204635), (2, 0), (106, 0)], [(0, 16588925), (0,
    124637), (999, 0), (68, 0), (2, 0)], [(18031, 0), (391, 0), (15, 0), (1, 0)]], 3, 4⟩, 68719476736, 169682976,
    2813484403490578688146228480584926626860144395145695854469460383838501576314288190359781485452, lc0⟩)) (.sx (.sy
    (.sx (.leaf ⟨712, 16, 41, 1032, 16, 942, ⟨[[(412316860416, 0)], [(352187318272, 0)]], 3, 4⟩, ⟨[[(54426848609, 0),
    (4018846906593, 0), (14393641388, 0), (256567735, 0), (3358624, 0)], [(94708321744, 0), (1665715674, 0),
    (26634701, 0), (466760, 0), (9047, 0)], [(13271484, 0), (608461, 0), (17824, 0), (472, 0), (13, 0)], [(2234, 0),
    (186, 0), (9, 0)]], 3, 4⟩, 1099511627776, 0, 23995556, ⟨[[(48590279921151, 0), (0, 34028833088), (57159836, 0),
    (48689, 0), (248, 0)], [(9142140933, 0), (13360674, 0), (0, 14866), (308, 0), (8, 0)], [(0, 3689361), (0, 10877),
    (151, 0), (4, 0)], [(2024, 0), (30, 0), (1, 0)]], 3, 4⟩, 68719476736, 10303137,
    1403167281662040186489714229648634256556892346500671817100280564424222355567810583312444343117, lc0⟩) (.leaf
    ⟨743, 16, 41, 1002, 16, 907, ⟨[[(137438953472, 0)], [(352187318272, 0)]], 3, 4⟩, ⟨[[(0, 247984024034),
    (4029056234516, 0), (16486946667, 0), (294727040, 0), (4204942, 0)], [(93703440575, 0), (1721451446, 0),
    (29195062, 0), (548202, 0), (11693, 0)], [(13414923, 0), (640419, 0), (19916, 0), (581, 0), (18, 0)], [(2271, 0),
    (200, 0), (11, 0), (1, 0)]], 3, 4⟩, 1099511627776, 0, 32434161, ⟨[[(48583130864872, 0), (0, 33881601668),
    (63441161, 0), (100972, 0), (1230, 0)], [(9030138596, 0), (13390491, 0), (20720, 0), (1322, 0), (25, 0)], [(0,
    3550425), (0, 2600), (444, 0), (10, 0)], [(2368, 0), (57, 0), (2, 0)]], 3, 4⟩, 68719476736, 30713097,
    3613758550004331564231867556842066950081875642281230686495362305396456093437636893009732892694, lc0⟩)) (.sx (.sy
    (.leaf ⟨712, 16, 41, 1566, 16, 1407, ⟨[[(412316860416, 0)], [(352187318272, 0)]], 3, 4⟩, ⟨[[(547246421735, 0),
    (3110731774279, 0), (6842502480, 0), (61765491, 0), (471455, 0)], [(153530377744, 0), (1447001538, 0), (12791983,
    0), (127371, 0), (1462, 0)], [(24525322, 0), (600059, 0), (9823, 0), (154, 0), (3, 0)], [(4923, 0), (222, 0), (6,
    0)]], 3, 4⟩, 1099511627776, 0, 10067865, ⟨[[(48046149814100, 0), (0, 21492581696), (26999879, 0), (24820, 0),
    (176, 0)], [(9360057581, 0), (8915740, 0), (8899, 0), (375, 0), (4, 0)], [(0, 3804090), (0, 838), (218, 0), (3,
    0)], [(2786, 0), (46, 0), (1, 0)]], 3, 4⟩, 68719476736, 4179496,
    2159034583884668963656907904174023334456182160454109978711031602162761590321973826069542795649, lc0⟩) (.out ⟨775,
    16, 40, 1964, 16, 1332, ⟨[[], [(343597383680, 0)]], 1, 1⟩, ⟨[[(0, 99123297608), (0, 3029379221593)], [(0,
    154029628566), (0, 1529539668)]], 1, 1⟩, 1099511627776, 0, 152056088721, ⟨[], 0, 0⟩, 0, 0, 0, lc0⟩ 0 1
    360437156214)) (.out ⟨805, 16, 40, 1228, 16, 835, ⟨[[], [(343597383680, 0)]], 1, 1⟩, ⟨[[(0, 52243658726), (0,
    3924550799809)], [(0, 96866828109), (0, 1973265230)]], 1, 1⟩, 1099511627776, 0, 290410185611, ⟨[], 0, 0⟩, 0, 0,
    0, lc0⟩ 0 1 492617948545))) (.sy (.sx (.sy (.sx (.leaf ⟨1532, 16, 82, 2009, 16, 1818, ⟨[[(412316860416, 0)],
    [(352187318272, 0)]], 3, 4⟩, ⟨[[(113640646358, 0), (4111564829639, 0), (8641168487, 0), (77331592, 0), (558807,
    0)], [(93221219295, 0), (864052599, 0), (7401974, 0), (70188, 0), (759, 0)], [(6481871, 0), (156074, 0), (2449,
    0), (36, 0), (1, 0)], [(517, 0), (23, 0), (1, 0)]], 3, 4⟩, 1099511627776, 0, 2361290, ⟨[[(48779247711498, 0), (0,
    16731625239), (16002519, 0), (17309, 0), (119, 0)], [(4437237048, 0), (3340468, 0), (5649, 0), (117, 0), (1, 0)],
    [(0, 846302), (241, 0), (36, 0)], [(304, 0), (4, 0)]], 3, 4⟩, 68719476736, 1577213,
    1847104160582571705325812586473904697557412184226629223610467369819275555139555751755287990568, lc0⟩) (.out
    ⟨1706, 16, 81, 2623, 16, 1760, ⟨[[(68719476736, 0)], [(347892350976, 0)]], 1, 1⟩, ⟨[[(66888116646, 0), (0,
    4062108231466)], [(0, 91465926578), (0, 866132218)]], 1, 1⟩, 1099511627776, 0, 108234818481, ⟨[], 0, 0⟩, 0, 0, 0,
    lc0⟩ 0 1 275346356674)) (.out ⟨835, 16, 40, 1985, 16, 1341, ⟨[[], [(343597383680, 0)]], 1, 1⟩, ⟨[[(0,
    354257990646), (0, 3150175822097)], [(0, 146660902116), (0, 1445222124)]], 1, 1⟩, 1099511627776, 0, 141209377498,
    ⟨[], 0, 0⟩, 0, 0, 0, lc0⟩ 0 1 421230311087)) (.out ⟨865, 16, 40, 1229, 16, 832, ⟨[[], [(343597383680, 0)]], 1,
    1⟩, ⟨[[(0, 190922153030), (0, 4022123485327)], [(0, 90919615835), (0, 1826845787)]], 1, 1⟩, 1099511627776, 0,
    278102873872, ⟨[], 0, 0⟩, 0, 0, 0, lc0⟩ 0 1 544245690807)) (.out ⟨425, 16, 20, 877, 16, 603, ⟨[[],
    [(343597383680, 0)]], 1, 1⟩, ⟨[[(413969442649, 0), (0, 3053487854124)], [(0, 147197459833), (0, 3256197733)]], 1,
    1⟩, 1099511627776, 0, 411542531261, ⟨[], 0, 0⟩, 0, 0, 0, lc0⟩ 0 1 832106218017)))
theorem c22 : checkC job ⟨6, 8, 8, 10, 9, 13⟩ 3 100 lims t22 304 48 16 69 3 256 = true := by decide +kernel

def t23 : CTree :=
  .sy (.sx (.sx (.leaf ⟨835, 16, 41, 1006, 16, 931, ⟨[[(412316860416, 0)], [(352187318272, 0)]], 3, 4⟩,
    ⟨[[(162043090994, 0), (4220729950057, 0), (14338195410, 0), (257247307, 0), (3124756, 0)], [(83380569735, 0),
    (1442970835, 0), (22307740, 0), (368511, 0), (6557, 0)], [(8822174, 0), (402177, 0), (11246, 0), (273, 0), (7,
    0)], [(863, 0), (78, 0), (4, 0)]], 3, 4⟩, 1099511627776, 0, 17466700, ⟨[[(50132533966668, 0), (0, 34477170388),
    (55345570, 0), (84280, 0), (1089, 0)], [(8158653796, 0), (11606358, 0), (7708, 0), (813, 0), (16, 0)], [(0,
    2932451), (0, 5823), (217, 0), (5, 0)], [(1491, 0), (26, 0), (1, 0)]], 3, 4⟩, 68719476736, 27316487,
    2304634819938164166146561525911110936288546589289780598317093166481358714383170538705760523025, lc0⟩) (.sy (.leaf
    ⟨866, 16, 41, 1617, 16, 1494, ⟨[[(137438953472, 0)], [(352187318272, 0)]], 3, 4⟩, ⟨[[(0, 115875669726),
    (3462368249520, 0), (6141056456, 0), (54900019, 0), (339433, 0)], [(132981272537, 0), (1164560286, 0), (9130338,
    0), (76342, 0), (692, 0)], [(13572990, 0), (312830, 0), (4414, 0), (55, 0), (1, 0)], [(1181, 0), (55, 0), (1,
    0)]], 3, 4⟩, 1099511627776, 0, 2026978, ⟨[[(50326577037633, 0), (0, 21148253789), (21906970, 0), (30731, 0),
    (285, 0)], [(7999859929, 0), (7111387, 0), (11511, 0), (327, 0), (4, 0)], [(0, 2799100), (0, 1364), (127, 0), (2,
    0)], [(1528, 0), (21, 0)]], 3, 4⟩, 68719476736, 4630892,
    2262145796860822029620493961535354109983340129398743237164127023563155640905170558703629840646, lc0⟩) (.sx (.sy
    (.leaf ⟨1717, 16, 82, 3221, 16, 2956, ⟨[[(0, 137438953472)], [(352187318272, 0)]], 3, 4⟩, ⟨[[(511554112948, 0),
    (3453877628989, 0), (3305730207, 0), (14710319, 0), (48023, 0)], [(136218221428, 0), (610719786, 0), (2474032,
    0), (10778, 0), (52, 0)], [(7404886, 0), (86865, 0), (634, 0), (4, 0)], [(363, 0), (8, 0)]], 3, 4⟩,
    1099511627776, 0, 443817, ⟨[[(50037243900884, 0), (0, 10468428013), (5868923, 0), (5510, 0), (26, 0)],
    [(4060863409, 0), (1888859, 0), (2856, 0), (31, 0)], [(0, 709168), (189, 0), (12, 0)], [(224, 0), (2, 0)]], 3,
    4⟩, 68719476736, 484950,
    1518927691408618396239394136982190596865993564865087564396346138389194289920398980714153409609, lc0⟩) (.out
    ⟨1858, 16, 81, 4293, 16, 2855, ⟨[[(0, 68719476736)], [(347892350976, 0)]], 1, 1⟩, ⟨[[(323262790978, 0), (0,
    3375755441066)], [(0, 135191400293), (0, 619696476)]], 1, 1⟩, 1099511627776, 0, 52291586798, ⟨[], 0, 0⟩, 0, 0, 0,
    lc0⟩ 0 1 229739180116)) (.out ⟨1888, 16, 81, 2641, 16, 1757, ⟨[[(343597383680, 0)], [(347892350976, 0)]], 1, 1⟩,
    ⟨[[(0, 450786726169), (0, 4202346856011)], [(0, 82950230712), (0, 765028134)]], 1, 1⟩, 1099511627776, 0,
    100183954371, ⟨[], 0, 0⟩, 0, 0, 0, lc0⟩ 0 1 276709351792)))) (.sy (.sx (.sx (.sy (.leaf ⟨1778, 16, 82, 3229, 16,
    2976, ⟨[[(412316860416, 0)], [(352187318272, 0)]], 3, 4⟩, ⟨[[(0, 370896576190), (3513630060453, 0), (3263797492,
    0), (14542282, 0), (46018, 0)], [(132625252385, 0), (588461833, 0), (2344684, 0), (9965, 0), (46, 0)], [(6647180,
    0), (77460, 0), (553, 0), (4, 0)], [(266, 0), (6, 0)]], 3, 4⟩, 1099511627776, 0, 423104, ⟨[[(50425319855797, 0),
    (0, 10444325557), (5734691, 0), (5810, 0), (28, 0)], [(3951123666, 0), (1819361, 0), (2958, 0), (32, 0)], [(0,
    672579), (187, 0), (11, 0)], [(204, 0), (2, 0)]], 3, 4⟩, 68719476736, 527418,
    1724459136656921305830227571468125591930482399735805922535831024406881178838423818636823324542, lc0⟩) (.out
    ⟨1919, 16, 81, 4337, 16, 2875, ⟨[[(0, 343597383680)], [(347892350976, 0)]], 1, 1⟩, ⟨[[(311319277977, 0), (0,
    3433777140551)], [(0, 131618820307), (0, 596751954)]], 1, 1⟩, 1099511627776, 0, 49890952620, ⟨[], 0, 0⟩, 0, 0, 0,
    lc0⟩ 0 1 215814363944)) (.out ⟨1949, 16, 81, 2654, 16, 1760, ⟨[[(68719476736, 0)], [(347892350976, 0)]], 1, 1⟩,
    ⟨[[(0, 92990368718), (0, 4248875692855)], [(0, 80277357734), (0, 731589218)]], 1, 1⟩, 1099511627776, 0,
    96948506192, ⟨[], 0, 0⟩, 0, 0, 0, lc0⟩ 0 1 263424253570)) (.out ⟨985, 16, 40, 2092, 16, 1393, ⟨[[],
    [(343597383680, 0)]], 1, 1⟩, ⟨[[(143530172708, 0), (0, 3447898428962)], [(0, 128969614855), (0, 1203586925)]], 1,
    1⟩, 1099511627776, 0, 112343696473, ⟨[], 0, 0⟩, 0, 0, 0, lc0⟩ 0 1 432451997270)) (.out ⟨485, 16, 20, 1460, 16,
    978, ⟨[[], [(343597383680, 0)]], 1, 1⟩, ⟨[[(0, 419727296465), (0, 2445005037496)], [(0, 189722037294), (0,
    1826459304)]], 1, 1⟩, 1099511627776, 0, 176098441332, ⟨[], 0, 0⟩, 0, 0, 0, lc0⟩ 0 1 551808852410))) (.sx (.sx
    (.sy (.sx (.leaf ⟨1655, 16, 82, 1989, 16, 1812, ⟨[[(412316860416, 0)], [(352187318272, 0)]], 3, 4⟩, ⟨[[(0,
    428991620984), (4210709878750, 0), (8550703878, 0), (76169025, 0), (524728, 0)], [(87429334392, 0), (799895916,
    0), (6682525, 0), (60803, 0), (623, 0)], [(5252270, 0), (125159, 0), (1896, 0), (27, 0)], [(316, 0), (15, 0)]],
    3, 4⟩, 1099511627776, 0, 2074028, ⟨[[(49534601374622, 0), (0, 16811448121), (16180886, 0), (26044, 0), (199, 0)],
    [(4197362486, 0), (3268296, 0), (9548, 0), (159, 0), (1, 0)], [(0, 747474), (715, 0), (40, 0)], [(268, 0), (4,
    0)]], 3, 4⟩, 68719476736, 2538677,
    3270368628055233403534637872974629003822972481403822014494837529200150501844852455994411042741, lc0⟩) (.out
    ⟨1828, 16, 81, 2633, 16, 1757, ⟨[[(0, 481036337152)], [(347892350976, 0)]], 1, 1⟩, ⟨[[(0, 543133491925), (0,
    4158491609852)], [(0, 85761885585), (0, 799313053)]], 1, 1⟩, 1099511627776, 0, 103238493691, ⟨[], 0, 0⟩, 0, 0, 0,
    lc0⟩ 0 1 284064728791)) (.out ⟨895, 16, 40, 2020, 16, 1358, ⟨[[], [(343597383680, 0)]], 1, 1⟩, ⟨[[(0,
    41180174905), (0, 3271317944382)], [(0, 139501771184), (0, 1351857856)]], 1, 1⟩, 1099511627776, 0, 129782168169,
    ⟨[], 0, 0⟩, 0, 0, 0, lc0⟩ 0 1 454310259213)) (.out ⟨925, 16, 40, 1239, 16, 834, ⟨[[], [(343597383680, 0)]], 1,
    1⟩, ⟨[[(0, 415106523715), (0, 4118718233545)], [(0, 85299987542), (0, 1676640290)]], 1, 1⟩, 1099511627776, 0,
    262434424177, ⟨[], 0, 0⟩, 0, 0, 0, lc0⟩ 0 1 560012963185)) (.out ⟨485, 16, 20, 926, 16, 629, ⟨[[],
    [(343597383680, 0)]], 1, 1⟩, ⟨[[(0, 459810685248), (0, 3297409365368)], [(0, 133522321714), (0, 2783739216)]], 1,
    1⟩, 1099511627776, 0, 334165132924, ⟨[], 0, 0⟩, 0, 0, 0, lc0⟩ 0 1 882528382597))
theorem c23 : checkC job ⟨6, 8, 8, 10, 9, 13⟩ 3 100 lims t23 752 48 32 63 3 256 = true := by decide +kernel

end PyX.Kron.T2b
