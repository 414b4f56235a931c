import Verif.Lemmas.S2cJob

/-!
# Temperature from pressure and entropy in subregion 2c, part D of the certificate
-/

namespace PyX.Kron.S2c

set_option Elab.async false

def t40 : CTree :=
  .sy (.sx (.sy (.sx (.sy (.leaf ⟨935, 16, 20, 1943, 16, 1110, ⟨[[], [(343597383680, 0)]], 3, 4⟩, ⟨[[(361432994471,
    0), (0, 2286473553159), (0, 4641468532), (0, 13718820), (0, 1126461)], [(0, 207514219416), (0, 442849614),
    (1999449, 0), (0, 358620), (0, 20074)], [(43790065, 0), (732991, 0), (0, 45286), (0, 3619), (0, 127)], [(20269,
    0), (0, 2944), (0, 323), (0, 15)]], 3, 4⟩, 1099511627776, 0, 1079277519, ⟨[[(52082787705658, 0), (17106757630,
    0), (23651326, 0), (46350, 0), (0, 17)], [(10359904059, 0), (16299535, 0), (0, 9651), (0, 1)], [(0, 5219847), (0,
    4571), (6, 0)], [(3414, 0), (1, 0)]], 3, 4⟩, 68719476736, 398035,
    3793132485774690109816992847363010713804800217462085637046004268547290008350512027578211517317, ⟨0, 6,
    740378200822976, [64360094082, 10755363, 2396]⟩⟩) (.leaf ⟨935, 16, 20, 1894, 16, 1089, ⟨[[], [(343597383680,
    0)]], 3, 4⟩, ⟨[[(185261422900, 0), (0, 2300596787962), (0, 5148743085), (0, 60337271), (0, 3039155)], [(0,
    206230750343), (0, 469994701), (0, 10023392), (0, 1071513), (0, 42760)], [(44723922, 0), (0, 326032), (0,
    142437), (0, 7803), (0, 241)], [(0, 12613), (0, 8689), (0, 691), (0, 28), (0, 1)]], 3, 4⟩, 1099511627776, 0,
    2302181349, ⟨[[(51872945060865, 0), (16857280925, 0), (22753486, 0), (49964, 0), (0, 17)], [(10155042440, 0),
    (16858468, 0), (0, 9948), (0, 3)], [(0, 5161857), (0, 4820), (7, 0)], [(3406, 0), (1, 0)]], 3, 4⟩, 68719476736,
    384129, 3114223925016018483461451762335347399219770542411695438330515503370977166489762121575152196389, ⟨0, 6,
    726371045672271, [63142470680, 10551883, 2351]⟩⟩)) (.sy (.leaf ⟨965, 16, 20, 1955, 16, 1127, ⟨[[],
    [(343597383680, 0)]], 3, 4⟩, ⟨[[(84065656120, 0), (0, 2361939399629), (0, 5327791073), (0, 99716555), (0,
    4762954)], [(0, 201995259806), (0, 455107130), (0, 20059484), (0, 1643541), (0, 61064)], [(43253161, 0), (0,
    1235030), (0, 210998), (0, 10635), (0, 319)], [(0, 40373), (0, 12127), (0, 893), (0, 36), (0, 1)]], 3, 4⟩,
    1099511627776, 0, 2790945148, ⟨[[(52088201685499, 0), (16563418608, 0), (20283440, 0), (45256, 0), (0, 14)],
    [(9772554143, 0), (16102109, 0), (0, 8813), (0, 5)], [(0, 4843683), (0, 4683), (7, 0)], [(3141, 0)]], 3, 4⟩,
    68719476736, 361594,
    4386493424341693763465137818022139634248534025293138488369645994632448013627184361201701789066, ⟨0, 6,
    757891984890146, [63314313904, 10251670, 2213]⟩⟩) (.sx (.leaf ⟨1963, 16, 41, 2672, 16, 1547, ⟨[[(0,
    137438953472)], [(352187318272, 0)]], 3, 4⟩, ⟨[[(0, 111779506080), (0, 3324534197572), (0, 9831917595), (0,
    270562611), (0, 10939652)], [(0, 142314755453), (0, 500489016), (0, 31533745), (0, 1951012), (0, 65398)],
    [(11928269, 0), (0, 1194493), (0, 127854), (0, 5803), (0, 165)], [(0, 18070), (0, 3679), (0, 247), (0, 9)]], 3,
    4⟩, 1099511627776, 0, 434798911, ⟨[[(51878037531030, 0), (11736228599, 0), (10188901, 0), (17687, 0), (0, 4)],
    [(4735700539, 0), (5800046, 0), (0, 2276), (0, 1)], [(0, 1159879), (0, 836), (1, 0)], [(371, 0)]], 3, 4⟩,
    68719476736, 56836,
    3826461445496716313194449948585488672970307242820216801554821539287753875632793882648776209881, ⟨0, 6,
    1038242221999316, [43795232651, 3573371, 389]⟩⟩) (.sy (.leaf ⟨1994, 16, 41, 3837, 16, 2228, ⟨[[(0,
    412316860416)], [(352187318272, 0)]], 3, 4⟩, ⟨[[(0, 83104810310), (0, 2410711876795), (0, 4385678223), (0,
    74980726), (0, 1421190)], [(0, 200960546248), (0, 490049973), (0, 18081397), (0, 500972), (0, 8003)], [(10942271,
    0), (0, 1426009), (0, 64424), (0, 1391), (0, 19)], [(0, 41440), (0, 3599), (0, 115), (0, 2)]], 3, 4⟩,
    1099511627776, 0, 520478436, ⟨[[(51931416439164, 0), (8165915402, 0), (4678946, 0), (5945, 0), (0, 1)],
    [(4619877129, 0), (4015149, 0), (0, 1052)], [(0, 1119467), (0, 589), (1, 0)], [(357, 0)]], 3, 4⟩, 68719476736,
    97070, 4102881510163224935485439781518116226216564202865990544653154322350129681900788378809258198315, ⟨0, 6,
    1501291745204442, [62101327400, 4988860, 534]⟩⟩) (.skip))))) (.sx (.sy (.sx (.leaf ⟨1901, 16, 41, 2615, 16, 1510,
    ⟨[[(412316860416, 0)], [(352187318272, 0)]], 3, 4⟩, ⟨[[(166869736426, 0), (0, 3266427024786), (0, 8763968520),
    (0, 169126519), (0, 7127670)], [(0, 146673549648), (0, 439230930), (0, 18544059), (0, 1309851), (0, 46247)],
    [(14249363, 0), (0, 629715), (0, 89330), (0, 4301), (0, 125)], [(0, 10016), (0, 2719), (0, 193), (0, 7)]], 3, 4⟩,
    1099511627776, 0, 343787297, ⟨[[(51660878922293, 0), (11804646019, 0), (11240535, 0), (18957, 0), (0, 5)],
    [(4925584181, 0), (6013923, 0), (0, 2533), (0, 1)], [(0, 1237742), (0, 851), (1, 0)], [(403, 0)]], 3, 4⟩,
    68719476736, 86744,
    2243924666685047941567349393818446311624990002223376292191242901173987427847197923372848329809, ⟨0, 6,
    1005071413081939, [44130447939, 3717187, 417]⟩⟩) (.sy (.leaf ⟨1932, 16, 41, 3729, 16, 2160, ⟨[[(137438953472,
    0)], [(352187318272, 0)]], 3, 4⟩, ⟨[[(172630531021, 0), (0, 2349285223177), (0, 3642478179), (0, 48506261), (0,
    955429)], [(0, 205198414651), (0, 386859438), (0, 11534056), (0, 349039), (0, 5791)], [(16455093, 0), (0,
    889576), (0, 46870), (0, 1054), (0, 15)], [(0, 27257), (0, 2766), (0, 92), (0, 2)]], 3, 4⟩, 1099511627776, 0,
    433492582, ⟨[[(51715372203847, 0), (8257482879, 0), (5228230, 0), (6516, 0), (0, 1)], [(4801225130, 0), (4195470,
    0), (0, 1197)], [(0, 1194051), (0, 603), (1, 0)], [(387, 0)]], 3, 4⟩, 68719476736, 73872,
    2216855774755140942083844741528024223654261975602775707474878116284118227217629039212823589434, ⟨0, 6,
    1443729757470733, [62122324663, 5149397, 569]⟩⟩) (.skip))) (.sx (.sy (.leaf ⟨1901, 16, 41, 3599, 16, 2089,
    ⟨[[(412316860416, 0)], [(352187318272, 0)]], 3, 4⟩, ⟨[[(190998032583, 0), (0, 2323225072620), (0, 4189178114),
    (0, 59427309), (0, 1100080)], [(0, 206362842246), (0, 487635043), (0, 14850854), (0, 414173), (0, 6626)],
    [(12669869, 0), (0, 1208084), (0, 57161), (0, 1240), (0, 17)], [(0, 37254), (0, 3451), (0, 111), (0, 2)]], 3, 4⟩,
    1099511627776, 0, 546166782, ⟨[[(51503278294098, 0), (8320630669, 0), (5468757, 0), (7249, 0), (0, 1)],
    [(4843809675, 0), (4396289, 0), (0, 1307)], [(0, 1226054), (0, 635), (1, 0)], [(402, 0)]], 3, 4⟩, 68719476736,
    80763, 3975964582893447151368176547806257512334594610545768796627671788443830006834522815880087593505, ⟨0, 6,
    1390459723131239, [61051990560, 5142519, 578]⟩⟩) (.skip)) (.skip))) (.skip))) (.sy (.sx (.sy (.sx (.sy (.leaf
    ⟨2024, 16, 41, 3973, 16, 2302, ⟨[[(412316860416, 0)], [(352187318272, 0)]], 3, 4⟩, ⟨[[(495292690632, 0), (0,
    2434512139360), (0, 3628765803), (0, 58071694), (0, 1183610)], [(0, 199847303917), (0, 360026960), (0, 13335375),
    (0, 404531), (0, 6749)], [(15780250, 0), (0, 1001830), (0, 50622), (0, 1140), (0, 16)], [(0, 29093), (0, 2766),
    (0, 92), (0, 2)]], 3, 4⟩, 1099511627776, 0, 397250369, ⟨[[(52137977838138, 0), (8095194898, 0), (4491576, 0),
    (5353, 0), (0, 1)], [(4586558994, 0), (3835452, 0), (0, 969)], [(0, 1092810), (0, 560)], [(343, 0)]], 3, 4⟩,
    68719476736, 97505,
    2786482569163825817697123550682028418695343156133387931077647427252123363269459018164123361190, ⟨0, 6,
    1557267832170967, [63189296704, 4999153, 527]⟩⟩) (.skip)) (.skip)) (.skip)) (.skip)) (.skip))) (.skip)
theorem c40 : checkC job ⟨6, 8, 7, 8, 9, 13⟩ 1 25 lims t40 784 48 16 57 3 256 = true := by decide +kernel

def t41 : CTree :=
  .sx (.sy (.sx (.sy (.sy (.sx (.sy (.sx (.leaf ⟨1655, 16, 41, 2222, 16, 1280, ⟨[[(412316860416, 0)], [(352187318272,
    0)]], 3, 4⟩, ⟨[[(0, 417956005197), (0, 3001004478650), (0, 10643678571), (0, 110930250), (0, 3378743)], [(0,
    162346516207), (0, 751302150), (0, 11176069), (0, 691299), (0, 25798)], [(10973452, 0), (0, 185116), (0, 53446),
    (0, 2859), (0, 88)], [(0, 489), (0, 1947), (0, 157), (0, 6)]], 3, 4⟩, 1099511627776, 0, 312204568,
    ⟨[[(50432595988194, 0), (12297300290, 0), (17084293, 0), (30837, 0), (0, 11)], [(5656691131, 0), (7562933, 0),
    (0, 4147), (2, 0)], [(0, 1595803), (0, 1087), (1, 0)], [(563, 0)]], 3, 4⟩, 68719476736, 101130,
    2085765936507188170314406015133418415686248346609061055975670284978055780397290745801189683113, ⟨0, 5,
    821215070506545, [42967763142, 4157098, 536]⟩⟩) (.sy (.leaf ⟨1686, 16, 41, 3060, 16, 1771, ⟨[[(137438953472, 0)],
    [(352187318272, 0)]], 3, 4⟩, ⟨[[(114638830512, 0), (0, 2103877123397), (0, 3982232824), (0, 29878202), (0,
    487724)], [(0, 220189604357), (0, 544322117), (0, 7217345), (0, 204951), (0, 3512)], [(13997805, 0), (0, 496900),
    (0, 32261), (0, 765), (0, 11)], [(0, 14784), (0, 2310), (0, 82), (0, 2)]], 3, 4⟩, 1099511627776, 0, 477276111,
    ⟨[[(50478304387764, 0), (8809737309, 0), (8352500, 0), (11823, 0), (0, 3)], [(5481191663, 0), (5479258, 0), (0,
    2149)], [(0, 1533326), (0, 790), (1, 0)], [(537, 0)]], 3, 4⟩, 68719476736, 97163,
    3359959848083930398794001811255649352416748518996320980146745488742178895774415687659092599307, ⟨0, 5,
    1141882871546204, [58365735310, 5543858, 702]⟩⟩) (.skip))) (.skip)) (.skip)) (.skip)) (.skip)) (.skip)) (.skip))
    (.skip)
theorem c41 : checkC job ⟨6, 8, 7, 8, 9, 13⟩ 1 25 lims t41 368 48 8 33 3 128 = true := by decide +kernel

def t42 : CTree :=
  .sx (.sy (.sx (.sy (.sx (.sy (.sx (.sy (.sx (.sy (.leaf ⟨1163, 16, 41, 1470, 16, 837, ⟨[[(412316860416, 0)],
    [(352187318272, 0)]], 3, 4⟩, ⟨[[(0, 249440687357), (0, 2290538145267), (0, 16158153834), (0, 218878817), (0,
    4641970)], [(0, 197998737658), (0, 2354630119), (0, 43473326), (0, 1239858), (0, 39453)], [(0, 49130684), (0,
    2289869), (0, 112574), (0, 5164), (0, 177)], [(0, 27309), (0, 4064), (0, 323), (0, 15)]], 3, 4⟩, 1099511627776,
    0, 681673466, ⟨[[(47410591849383, 0), (14268257979, 0), (50424650, 0), (98167, 0), (0, 64)], [(7989498303, 0),
    (13369299, 0), (0, 10589), (24, 0)], [(0, 2894127), (0, 3185), (1, 0)], [(1283, 0), (2, 0)]], 3, 4⟩, 68719476736,
    177002, 3599219343467980401401471119422599711805795702465263250493882691832922645979526941615347749356, ⟨0, 5,
    485783627062087, [39979273587, 5503755, 1010]⟩⟩) (.skip)) (.skip)) (.skip)) (.skip)) (.skip)) (.skip)) (.skip))
    (.skip)) (.skip)) (.skip)
theorem c42 : checkC job ⟨6, 8, 7, 8, 9, 13⟩ 1 25 lims t42 160 48 4 21 3 64 = true := by decide +kernel

def t43 : CTree :=
  .sx (.sy (.out ⟨464, 50, 8, 433, 16, 201, ⟨[[], [(1099511627776, 0)]], 1, 1⟩, ⟨[[(38910152179, 0), (0,
    3618930482738)], [(0, 113614135016), (0, 2304407541)]], 1, 1⟩, 1099511627776, 0, 583654109203, ⟨[], 0, 0⟩, 0, 0,
    0, ⟨0, 6, 141587449145882, [75150756641]⟩⟩ 0 1 4513) (.sx (.out ⟨440, 26, 8, 476, 16, 230, ⟨[[], [(549755813888,
    0)]], 1, 1⟩, ⟨[[(0, 118148551466), (0, 4219482205463)], [(0, 77302986968), (0, 1986223419)]], 1, 1⟩,
    1099511627776, 0, 581639581238, ⟨[], 0, 0⟩, 0, 0, 0, ⟨0, 6, 159896357169691, [45341976191]⟩⟩ 0 2 4074) (.sy (.out
    ⟨488, 26, 8, 798, 16, 386, ⟨[[], [(549755813888, 0)]], 1, 1⟩, ⟨[[(0, 302544148169), (0, 3630371770041)], [(0,
    116486672076), (0, 1446275835)]], 1, 1⟩, 1099511627776, 0, 324916963721, ⟨[], 0, 0⟩, 0, 0, 0, ⟨0, 6,
    275281316568691, [68610844942]⟩⟩ 0 1 1972) (.sx (.sy (.out ⟨595, 16, 10, 1520, 16, 747, ⟨[[], [(343597383680,
    0)]], 1, 1⟩, ⟨[[(0, 119961795781), (0, 3577949085952)], [(0, 121545171924), (0, 823915236)]], 1, 1⟩,
    1099511627776, 0, 166854032558, ⟨[], 0, 0⟩, 0, 0, 0, ⟨0, 6, 529507025974602, [68062663201]⟩⟩ 0 1 1020) (.leaf
    ⟨595, 16, 10, 1472, 16, 733, ⟨[[], [(343597383680, 0)]], 3, 4⟩, ⟨[[(18666952952, 0), (0, 3598486473354), (0,
    8163474946), (0, 102198281), (0, 871957)], [(0, 124371877658), (0, 894590679), (0, 7574404), (0, 49098), (0,
    666)], [(21860646, 0), (147233, 0), (3691, 0), (73, 0), (1, 0)], [(0, 3302), (129, 0), (4, 0)]], 3, 4⟩,
    1099511627776, 0, 58672850, ⟨[[(63120780047861, 0), (64126099813, 0), (110013138, 0), (29552, 0), (0, 282)],
    [(23197153332, 0), (28440030, 0), (0, 35549), (20, 0)], [(0, 17212826), (0, 18000), (54, 0), (1, 0)], [(17005,
    0), (30, 0)]], 3, 4⟩, 68719476736, 12783211,
    2542275501445207830388984974140724666621165959984351717830944298923184046191801863694465339915, ⟨0, 6,
    519583199517247, [66787057733, 17538618, 6141]⟩⟩)) (.leaf ⟨625, 16, 10, 893, 16, 445, ⟨[[], [(343597383680, 0)]],
    3, 4⟩, ⟨[[(250880489818, 0), (0, 4410596943860), (0, 19291355932), (0, 467623245), (0, 7024085)], [(0,
    71473378682), (0, 999281960), (0, 15759594), (0, 136497), (0, 3631)], [(12451368, 0), (192328, 0), (9649, 0),
    (388, 0), (10, 0)], [(0, 1764), (132, 0), (8, 0)]], 3, 4⟩, 1099511627776, 0, 116804882, ⟨[[(63733012322276, 0),
    (106628058701, 0), (295475434, 0), (142850, 0), (0, 2046)], [(22179572263, 0), (45310703, 0), (0, 86663), (282,
    0), (2, 0)], [(0, 15747297), (0, 25467), (191, 0), (4, 0)], [(15214, 0), (49, 0), (1, 0)]], 3, 4⟩, 68719476736,
    17376192, 4505575896819964332591259642496041364763883099749215237822386543714205946568508539390114010379, ⟨0, 6,
    319233381682218, [38599821471, 9649955, 3217]⟩⟩))))) (.sy (.out ⟨560, 50, 8, 426, 16, 202, ⟨[[], [(1099511627776,
    0)]], 1, 1⟩, ⟨[[(0, 120232599773), (0, 3851247668057)], [(0, 99525850878), (0, 2129940953)]], 1, 1⟩,
    1099511627776, 0, 554018309761, ⟨[], 0, 0⟩, 0, 0, 0, ⟨0, 6, 148881860170843, [62577559687]⟩⟩ 0 1 3188) (.sx (.sy
    (.out ⟨536, 26, 8, 786, 16, 385, ⟨[[], [(549755813888, 0)]], 1, 1⟩, ⟨[[(0, 168541880810), (0, 3755779798512)],
    [(0, 108698836518), (0, 1361891280)]], 1, 1⟩, 1099511627776, 0, 323132481734, ⟨[], 0, 0⟩, 0, 0, 0, ⟨0, 6,
    280834373087883, [62304759627]⟩⟩ 0 2 2435) (.sx (.leaf ⟨655, 16, 10, 877, 16, 440, ⟨[[], [(343597383680, 0)]], 3,
    4⟩, ⟨[[(135722664247, 0), (0, 4454025099049), (0, 20475872545), (0, 471531072), (0, 7195332)], [(0, 68351293519),
    (0, 947947445), (0, 13540244), (0, 53262), (0, 1550)], [(11861595, 0), (227496, 0), (11740, 0), (466, 0), (12,
    0)], [(0, 1396), (128, 0), (8, 0)]], 3, 4⟩, 1099511627776, 0, 113725167, ⟨[[(63743785482596, 0), (105634571058,
    0), (296461290, 0), (208229, 0), (0, 1966)], [(21006605935, 0), (45367313, 0), (0, 84232), (456, 0), (4, 0)],
    [(0, 14313763), (0, 23826), (175, 0), (4, 0)], [(13394, 0), (43, 0)]], 3, 4⟩, 68719476736, 16954023,
    3746214555381839073612801126712435931786892639976712872193273358457764625951564430913174934346, ⟨0, 6,
    319225218472580, [36418049247, 8687512, 2763]⟩⟩) (.leaf ⟨685, 16, 10, 863, 16, 436, ⟨[[], [(343597383680, 0)]],
    3, 4⟩, ⟨[[(366634440526, 0), (0, 4501520425222), (0, 21463839567), (0, 467827582), (0, 7167454)], [(0,
    65508872862), (0, 892568017), (0, 10973790), (42829, 0), (776, 0)], [(11394581, 0), (261467, 0), (13810, 0),
    (531, 0), (12, 0)], [(0, 1124), (123, 0), (7, 0)]], 3, 4⟩, 1099511627776, 0, 111490937, ⟨[[(63721596620716, 0),
    (104372958640, 0), (294929391, 0), (276224, 0), (0, 1798)], [(19911878421, 0), (45418265, 0), (0, 85567), (576,
    0), (6, 0)], [(0, 13043205), (0, 22473), (146, 0), (4, 0)], [(11756, 0), (35, 0)]], 3, 4⟩, 68719476736, 16487869,
    3948236142480919610158975201881671208200474152204577360581606011605115624351785464030798239660, ⟨0, 6,
    319710526685253, [34506524566, 7871014, 2394]⟩⟩))) (.sy (.sy (.out ⟨584, 26, 8, 1225, 16, 603, ⟨[[],
    [(549755813888, 0)]], 1, 1⟩, ⟨[[(0, 354533214509), (0, 3009419157470)], [(0, 156724670856), (0, 946286888)]], 1,
    1⟩, 1099511627776, 0, 275639624739, ⟨[], 0, 0⟩, 0, 0, 0, ⟨0, 6, 448824332486556, [89563230517]⟩⟩ 0 1 924) (.leaf
    ⟨584, 25, 8, 1184, 16, 591, ⟨[[], [(549755813888, 0)]], 3, 4⟩, ⟨[[(48963385847, 0), (0, 3012643765891), (0,
    5842460273), (0, 64885427), (0, 64786)], [(0, 159398441209), (0, 1002639558), (0, 6006459), (41367, 0), (1384,
    0)], [(53437397, 0), (525785, 0), (13149, 0), (322, 0), (3, 0)], [(0, 13473), (326, 0), (13, 0)]], 3, 4⟩,
    1099511627776, 0, 340383577, ⟨[[(65738882439654, 0), (83050320319, 0), (163386842, 0), (100042, 0), (0, 446)],
    [(24069530013, 0), (39183002, 0), (0, 22119), (736, 0), (5, 0)], [(0, 18361626), (0, 14135), (333, 0), (5, 0)],
    [(19845, 0), (55, 0), (1, 0)]], 3, 4⟩, 68719476736, 1205819647,
    2158793150493521692851927187847317134755974914263037904705283567003801624275474506888011529897, ⟨0, 6,
    439892504974386, [87780877671, 37577431, 21448]⟩⟩)) (.sx (.leaf ⟨715, 16, 10, 850, 16, 432, ⟨[[], [(343597383680,
    0)]], 3, 4⟩, ⟨[[(0, 176431698710), (0, 4542628521888), (0, 22178216717), (0, 454467979), (0, 6920618)], [(0,
    62769086362), (0, 831327780), (0, 8046563), (147740, 0), (2936, 0)], [(10998028, 0), (293242, 0), (15731, 0),
    (565, 0), (10, 0)], [(0, 925), (115, 0), (7, 0)]], 3, 4⟩, 1099511627776, 0, 114163300, ⟨[[(63772893008886, 0),
    (103690936112, 0), (293038076, 0), (337906, 0), (0, 1571)], [(18931200412, 0), (45417516, 0), (0, 88795), (657,
    0), (9, 0)], [(0, 11940430), (0, 21149), (116, 0), (3, 0)], [(10302, 0), (28, 0)]], 3, 4⟩, 68719476736, 16156973,
    3315687174005505818385844256624627340291911052756240487023591702996852037154735404273122313539, ⟨0, 6,
    319989796017736, [32755407549, 7158087, 2086]⟩⟩) (.leaf ⟨745, 16, 10, 839, 16, 429, ⟨[[], [(343597383680, 0)]],
    3, 4⟩, ⟨[[(0, 454863975273), (0, 4587552539314), (0, 22641615479), (0, 432041299), (0, 6517945)], [(0,
    60260305129), (0, 766555389), (0, 4815066), (254460, 0), (4266, 0)], [(10677161, 0), (322942, 0), (17401, 0),
    (551, 0), (3, 0)], [(0, 788), (106, 0), (6, 0)]], 3, 4⟩, 1099511627776, 0, 122299086, ⟨[[(63798824562674, 0),
    (102796184161, 0), (288725044, 0), (394570, 0), (0, 1259)], [(18012265785, 0), (45433040, 0), (0, 94393), (658,
    0), (12, 0)], [(0, 10967956), (0, 20099), (79, 0), (3, 0)], [(8993, 0), (21, 0)]], 3, 4⟩, 68719476736, 14799793,
    2560351998777769796411727212106920159833012027712415754145056374601182388158025254804122659125, ⟨0, 6,
    320826592703265, [31218089531, 6547418, 1831]⟩⟩)))))
theorem c43 : checkC job ⟨6, 8, 7, 8, 9, 13⟩ 1 25 lims t43 256 48 4 3 3 64 = true := by decide +kernel

def t44 : CTree :=
  .sx (.sy (.sx (.leaf ⟨535, 16, 10, 860, 16, 430, ⟨[[], [(343597383680, 0)]], 3, 4⟩, ⟨[[(0, 45713860133), (0,
    4183190267020), (0, 22234833172), (0, 590474759), (0, 11675560)], [(0, 83531054980), (0, 1304590967), (0,
    25849004), (0, 515557), (0, 9511)], [(14775910, 0), (135617, 0), (7163, 0), (385, 0), (32, 0)], [(0, 2411), (235,
    0), (14, 0), (1, 0)]], 3, 4⟩, 1099511627776, 0, 121340526, ⟨[[(61293033116063, 0), (103991417565, 0), (324575196,
    0), (182116, 0), (0, 2236)], [(25274611930, 0), (53507342, 0), (0, 114641), (0, 165), (0, 2)], [(0, 20527799),
    (0, 39849), (48, 0), (2, 0)], [(21563, 0), (44, 0)]], 3, 4⟩, 68719476736, 18121243,
    2403163384302463841924613198879722976018134320678568346483290161795249396686007160568201788578, ⟨0, 6,
    296873935193469, [43573252211, 12725833, 4956]⟩⟩) (.leaf ⟨565, 16, 10, 841, 16, 424, ⟨[[], [(343597383680, 0)]],
    3, 4⟩, ⟨[[(0, 123230633450), (0, 4246872488693), (0, 24293609731), (0, 626732620), (0, 12064386)], [(0,
    79626385417), (0, 1254162835), (0, 23729103), (0, 409944), (0, 1525)], [(13999343, 0), (202659, 0), (11354, 0),
    (652, 0), (50, 0)], [(0, 1615), (246, 0), (16, 0), (1, 0)]], 3, 4⟩, 1099511627776, 0, 108700455,
    ⟨[[(61300086390055, 0), (102461658140, 0), (325726267, 0), (252744, 0), (0, 2302)], [(23729368529, 0), (53549640,
    0), (0, 113143), (0, 13), (0, 1)], [(0, 18451881), (0, 37246), (46, 0), (2, 0)], [(18639, 0), (41, 0)]], 3, 4⟩,
    68719476736, 17744483,
    2324359926691493936560631005671427424365488141909708394864481840410069336092471876458171265671, ⟨0, 6,
    296744676864532, [40683912458, 11251082, 4149]⟩⟩)) (.sx (.leaf ⟨535, 16, 10, 762, 16, 392, ⟨[[], [(343597383680,
    0)]], 3, 4⟩, ⟨[[(405639228910, 0), (0, 4124913503208), (0, 32496011474), (0, 821644863), (0, 10819050)], [(0,
    84240091658), (0, 1524792361), (0, 31798616), (0, 257803), (37667, 0)], [(14585224, 0), (286250, 0), (26498, 0),
    (2342, 0), (141, 0)], [(0, 182), (521, 0), (45, 0), (3, 0)]], 3, 4⟩, 1099511627776, 0, 182376640,
    ⟨[[(58969179351104, 0), (97369055882, 0), (365808882, 0), (501529, 0), (0, 2698)], [(23918131590, 0), (64581733,
    0), (0, 132267), (19, 0), (0, 2)], [(0, 19556710), (0, 43923), (0, 31), (1, 0)], [(20662, 0), (35, 0)]], 3, 4⟩,
    68719476736, 19256963,
    2491826453034969377123872050981227540540574620881176169117946241579697287086372113462750738821, ⟨0, 6,
    270638564176372, [39722592714, 11601225, 4518]⟩⟩) (.leaf ⟨565, 16, 10, 742, 16, 385, ⟨[[], [(343597383680, 0)]],
    3, 4⟩, ⟨[[(0, 383155544396), (0, 4191964725292), (0, 34634290519), (0, 807689684), (0, 5770811)], [(0,
    79981902746), (0, 1428951872), (0, 24987060), (261907, 0), (64162, 0)], [(14403088, 0), (435709, 0), (39087, 0),
    (3035, 0), (138, 0)], [(683, 0), (556, 0), (46, 0), (2, 0)]], 3, 4⟩, 1099511627776, 0, 258988251,
    ⟨[[(59038703354314, 0), (96345008368, 0), (364214119, 0), (603381, 0), (0, 2754)], [(22388504516, 0), (64947608,
    0), (0, 139765), (75, 0)], [(0, 17555464), (0, 41261), (0, 22)], [(17806, 0), (34, 0)]], 3, 4⟩, 68719476736,
    19600467, 2503375316042397043923708278456740086191979194506313116391065269678016724836084230462127990292, ⟨0, 6,
    269449765549163, [36941760133, 10216195, 3767]⟩⟩))) (.sy (.sx (.leaf ⟨595, 16, 10, 822, 16, 418, ⟨[[],
    [(343597383680, 0)]], 3, 4⟩, ⟨[[(273969806719, 0), (0, 4303412275574), (0, 26078315316), (0, 649836162), (0,
    11523761)], [(0, 75888058686), (0, 1191232408), (0, 20800047), (0, 252425), (9803, 0)], [(13430183, 0), (271346,
    0), (15877, 0), (940, 0), (68, 0)], [(0, 1010), (253, 0), (17, 0), (1, 0)]], 3, 4⟩, 1099511627776, 0, 96488478,
    ⟨[[(61263307766812, 0), (100863047605, 0), (325329179, 0), (332796, 0), (0, 2311)], [(22294553045, 0), (53779382,
    0), (0, 114920), (102, 0)], [(0, 16627931), (0, 34829), (37, 0), (2, 0)], [(16242, 0), (38, 0)]], 3, 4⟩,
    68719476736, 17911521,
    2318566082886223984546231296271027945862485993890850466588794603789698668365020658502599373447, ⟨0, 6,
    296297104226752, [38085934696, 10001558, 3502]⟩⟩) (.leaf ⟨625, 16, 10, 806, 16, 413, ⟨[[], [(343597383680, 0)]],
    3, 4⟩, ⟨[[(0, 24705082061), (0, 4362233358104), (0, 27579967139), (0, 656546203), (0, 9786721)], [(0,
    72455868592), (0, 1118553963), (0, 17078077), (0, 43140), (24114, 0)], [(13047431, 0), (340662, 0), (20489, 0),
    (1215, 0), (82, 0)], [(0, 566), (252, 0), (17, 0), (1, 0)]], 3, 4⟩, 1099511627776, 0, 178574184,
    ⟨[[(61290581141520, 0), (99660898511, 0), (322755826, 0), (407114, 0), (0, 2255)], [(21011366002, 0), (53857821,
    0), (0, 118311), (167, 0), (2, 0)], [(0, 15049954), (0, 32325), (30, 0), (1, 0)], [(14246, 0), (36, 0)]], 3, 4⟩,
    68719476736, 17353806,
    2813462059479227525896474356651760310870120370473690881977589215225415525379070862804560517875, ⟨0, 6,
    296277273336531, [35824103972, 8956026, 2985]⟩⟩)) (.leaf ⟨488, 25, 8, 583, 16, 307, ⟨[[], [(549755813888, 0)]],
    3, 4⟩, ⟨[[(286612181678, 0), (0, 3498221199626), (0, 29735591194), (0, 559911191), (4714168, 0)], [(0,
    120840231437), (0, 2022981788), (0, 17617977), (1952484, 0), (149085, 0)], [(47517737, 0), (2162382, 0), (181232,
    0), (10995, 0), (131, 0)], [(9613, 0), (3479, 0), (210, 0), (0, 4), (0, 3)]], 3, 4⟩, 1099511627776, 0, 916735160,
    ⟨[[(58974918819320, 0), (114912072243, 0), (528783804, 0), (1416972, 0), (0, 5900)], [(25281295081, 0),
    (101154797, 0), (0, 280522), (54, 0), (6, 0)], [(0, 23390323), (0, 71775), (17, 0), (0, 2)], [(28091, 0), (78,
    0), (1, 0)]], 3, 4⟩, 68719476736, 1143647107,
    2606141502599402764487478374349337767966349088802775183940321590694642703769820933625793395700, ⟨0, 6,
    218941357996342, [54568729008, 27955292, 19095]⟩⟩))
theorem c44 : checkC job ⟨6, 8, 7, 8, 9, 13⟩ 1 25 lims t44 464 48 8 15 3 128 = true := by decide +kernel

def t45 : CTree :=
  .sx (.sx (.leaf ⟨535, 16, 10, 656, 16, 348, ⟨[[], [(343597383680, 0)]], 3, 4⟩, ⟨[[(0, 311769120081), (0,
    4093685031997), (0, 43588498359), (0, 898097883), (0, 8952039)], [(0, 83914394326), (0, 1677264003), (0,
    22099100), (862434, 0), (12021, 0)], [(15924184, 0), (857912, 0), (81316, 0), (3119, 0), (0, 173)], [(4538, 0),
    (1143, 0), (53, 0), (0, 4), (0, 1)]], 3, 4⟩, 1099511627776, 0, 979825185, ⟨[[(56911697862710, 0), (91720171717,
    0), (409985460, 0), (1035153, 0), (0, 3432)], [(22358081939, 0), (79726196, 0), (0, 174298), (143, 0)], [(0,
    18562901), (0, 47686), (0, 31), (0, 1)], [(19952, 0), (30, 0)]], 3, 4⟩, 68719476736, 23068468,
    2656487069322168060267673598803556306385932655301500114078260559477986819060525720290435760928, ⟨0, 6,
    240260766156575, [35263934348, 10299046, 4011]⟩⟩) (.leaf ⟨565, 16, 10, 637, 16, 342, ⟨[[], [(343597383680, 0)]],
    3, 4⟩, ⟨[[(379958736510, 0), (0, 4172607180791), (0, 44149819747), (0, 777949179), (0, 9709624)], [(0,
    79331437043), (0, 1456579829), (0, 5382698), (1270019, 0), (0, 35044)], [(17051495, 0), (1145766, 0), (87615, 0),
    (1107, 0), (0, 298)], [(5140, 0), (942, 0), (0, 3), (0, 9)]], 3, 4⟩, 1099511627776, 0, 2248408944,
    ⟨[[(56854467560884, 0), (89475880449, 0), (392570296, 0), (1200472, 0), (0, 3253)], [(20682828652, 0), (81101982,
    0), (0, 183084), (33, 0), (2, 0)], [(0, 16538359), (0, 45883), (24, 0), (0, 2)], [(17084, 0), (27, 0)]], 3, 4⟩,
    68719476736, 24674937,
    3168122132724160912377867948473665846328025165111148423099902139017795062796963232573497604546, ⟨0, 6,
    239355376150165, [32815797313, 9075165, 3346]⟩⟩)) (.sy (.leaf ⟨488, 25, 8, 785, 16, 424, ⟨[[], [(549755813888,
    0)]], 3, 4⟩, ⟨[[(0, 49654403350), (0, 2622381111852), (0, 12613380235), (0, 81269062), (0, 381737)], [(0,
    179638821123), (0, 1394025757), (7255450, 0), (491874, 0), (0, 12529)], [(85399035, 0), (3000576, 0), (92649, 0),
    (0, 809), (0, 148)], [(38033, 0), (2472, 0), (0, 139), (0, 16)]], 3, 4⟩, 1099511627776, 0, 1424022095,
    ⟨[[(57403689627893, 0), (72718774980, 0), (240999816, 0), (653095, 0), (0, 1232)], [(23743041174, 0), (79149612,
    0), (0, 144208), (0, 118), (2, 0)], [(0, 22328852), (0, 53747), (89, 0), (0, 2)], [(27073, 0), (43, 0)]], 3, 4⟩,
    68719476736, 1034025772,
    2250960527349416844647070572993987740341834072460431236961182964352980697399710925539865200191, ⟨0, 6,
    302381549806023, [75365280455, 38609263, 26372]⟩⟩) (.sx (.leaf ⟨595, 16, 10, 1001, 16, 548, ⟨[[], [(343597383680,
    0)]], 3, 4⟩, ⟨[[(0, 185394571296), (0, 3555123437806), (0, 18858491451), (0, 154747197), (0, 1924657)], [(0,
    124514717381), (0, 940806997), (6208593, 0), (220011, 0), (11700, 0)], [(33225221, 0), (1269339, 0), (29184, 0),
    (323, 0), (157, 0)], [(8856, 0), (230, 0), (0, 29), (3, 0), (1, 0)]], 3, 4⟩, 1099511627776, 0, 330562750,
    ⟨[[(56387764059149, 0), (51749614939, 0), (132504272, 0), (325507, 0), (0, 378)], [(18743819318, 0), (51681033,
    0), (0, 68236), (0, 58), (1, 0)], [(0, 14557155), (0, 28418), (49, 0), (0, 1)], [(14607, 0), (13, 0)]], 3, 4⟩,
    68719476736, 12141987,
    2286249500636285704974615888247560752286077635628001404628829856326251303684833723351047559794, ⟨0, 6,
    388446921330766, [49930842616, 13112091, 4591]⟩⟩) (.leaf ⟨625, 16, 10, 996, 16, 551, ⟨[[], [(343597383680, 0)]],
    3, 4⟩, ⟨[[(0, 367369229979), (0, 3653546915973), (0, 18116491673), (0, 127462433), (1333805, 0)], [(0,
    118564688819), (0, 699326157), (11148138, 0), (421006, 0), (64252, 0)], [(35502286, 0), (1268656, 0), (22755, 0),
    (2091, 0), (402, 0)], [(5365, 0), (0, 267), (0, 8), (10, 0), (1, 0)]], 3, 4⟩, 1099511627776, 0, 725255304,
    ⟨[[(56395889436042, 0), (50385466985, 0), (118867461, 0), (331703, 0), (0, 298)], [(17379890571, 0), (51055365,
    0), (0, 61165), (0, 109), (1, 0)], [(0, 13036698), (0, 28453), (74, 0)], [(12643, 0), (12, 0)]], 3, 4⟩,
    68719476736, 11692963,
    2891453629352843063034464797037555954160013413421157573720043682093493756564850024844208045688, ⟨0, 6,
    395275490577309, [47794385686, 11948596, 3983]⟩⟩)))
theorem c45 : checkC job ⟨6, 8, 7, 8, 9, 13⟩ 1 25 lims t45 464 48 8 39 3 256 = true := by decide +kernel

def t46 : CTree :=
  .sy (.sx (.leaf ⟨535, 16, 10, 941, 16, 513, ⟨[[], [(343597383680, 0)]], 3, 4⟩, ⟨[[(0, 420505941384), (0,
    3350781418211), (0, 21311801683), (0, 234691705), (0, 1983078)], [(0, 135378961784), (0, 1347893565), (0,
    4261387), (250215, 0), (30893, 0)], [(31924748, 0), (1287195, 0), (47667, 0), (2244, 0), (272, 0)], [(15274, 0),
    (1090, 0), (44, 0), (9, 0), (1, 0)]], 3, 4⟩, 1099511627776, 0, 341108306, ⟨[[(55413700111424, 0), (53101352406,
    0), (160696856, 0), (390163, 0), (0, 560)], [(20894960600, 0), (58339223, 0), (0, 82872), (14, 0), (1, 0)], [(0,
    17723392), (0, 32462), (22, 0), (0, 1)], [(19512, 0), (13, 0)]], 3, 4⟩, 68719476736, 13168554,
    3186383988485192255654003199419601028891150656006506793567938107813944976275708462395456509013, ⟨0, 6,
    354177508730814, [51983903220, 15182215, 5912]⟩⟩) (.leaf ⟨565, 16, 10, 929, 16, 513, ⟨[[], [(343597383680, 0)]],
    3, 4⟩, ⟨[[(84798133960, 0), (0, 3467406696759), (0, 21232719133), (0, 180458899), (4389471, 0)], [(0,
    128836043986), (0, 1072858756), (6545386, 0), (998419, 0), (111144, 0)], [(36155001, 0), (1567148, 0), (67767,
    0), (5938, 0), (553, 0)], [(13708, 0), (873, 0), (103, 0), (16, 0), (1, 0)]], 3, 4⟩, 1099511627776, 0, 782856189,
    ⟨[[(55389334465301, 0), (51197142526, 0), (143749114, 0), (414043, 0), (0, 458)], [(19192960941, 0), (58360662,
    0), (0, 79703), (0, 59), (1, 0)], [(0, 15709825), (0, 32364), (58, 0), (0, 1)], [(16708, 0), (10, 0)]], 3, 4⟩,
    68719476736, 12255013,
    3745900302115642675414432965474963343938676057558890930929011430728690732508092377797785029645, ⟨0, 6,
    359033064225248, [49223695969, 13612748, 5019]⟩⟩)) (.sx (.sy (.leaf ⟨535, 16, 10, 1275, 16, 706, ⟨[[],
    [(343597383680, 0)]], 3, 4⟩, ⟨[[(59962782422, 0), (0, 2447587400530), (0, 8402380279), (0, 32622521), (894492,
    0)], [(0, 194716158054), (0, 928541407), (2678710, 0), (345254, 0), (15974, 0)], [(53729643, 0), (1376021, 0),
    (45497, 0), (2007, 0), (58, 0)], [(30665, 0), (1641, 0), (96, 0), (4, 0)]], 3, 4⟩, 1099511627776, 0, 373202215,
    ⟨[[(54673958906339, 0), (35372304959, 0), (75500457, 0), (161160, 0), (0, 130)], [(20028676624, 0), (44143917,
    0), (0, 43638), (0, 11)], [(0, 17244438), (0, 24358), (27, 0)], [(19346, 0), (7, 0)]], 3, 4⟩, 68719476736,
    11020513, 3527764127309621865960107036109341345800630690642830208348703939637826688219631225178260687926, ⟨0, 6,
    487425577317650, [71541200142, 20894042, 8136]⟩⟩) (.leaf ⟨535, 16, 10, 1219, 16, 682, ⟨[[], [(343597383680, 0)]],
    3, 4⟩, ⟨[[(0, 509128633000), (0, 2464126784500), (0, 8390647633), (7412268, 0), (2409239, 0)], [(0,
    193291092614), (0, 814600424), (12523861, 0), (784140, 0), (17786, 0)], [(61939440, 0), (2102038, 0), (85838, 0),
    (2122, 0), (0, 103)], [(42935, 0), (2834, 0), (74, 0), (0, 11), (0, 2)]], 3, 4⟩, 1099511627776, 0, 912602946,
    ⟨[[(54223083946856, 0), (34656041051, 0), (73981631, 0), (185862, 0), (0, 130)], [(19442814148, 0), (46873173,
    0), (0, 46033), (0, 27)], [(0, 16920007), (0, 26098), (41, 0)], [(19268, 0), (5, 0)]], 3, 4⟩, 68719476736,
    11040392, 2980408965668428313216565473222917165104690046488684992989791019350684432864594218148786099479, ⟨0, 6,
    470855869306852, [69109204670, 20183763, 7860]⟩⟩)) (.sy (.leaf ⟨565, 16, 10, 1283, 16, 720, ⟨[[], [(343597383680,
    0)]], 3, 4⟩, ⟨[[(533431496788, 0), (0, 2572546839744), (0, 7791437195), (21153868, 0), (2750034, 0)], [(0,
    187198876715), (0, 628584372), (14307475, 0), (772597, 0), (16419, 0)], [(63651874, 0), (1918097, 0), (71416, 0),
    (1614, 0), (0, 126)], [(29543, 0), (1734, 0), (32, 0), (0, 12), (0, 2)]], 3, 4⟩, 1099511627776, 0, 855110617,
    ⟨[[(54658789569271, 0), (33633033221, 0), (63318088, 0), (158504, 0), (0, 91)], [(18308208847, 0), (43233359, 0),
    (0, 38483), (0, 43)], [(0, 15213829), (0, 24598), (44, 0)], [(16581, 0), (5, 0)]], 3, 4⟩, 68719476736, 10342858,
    2741649938914059862980402781862800966052510986709634146031123329673940775881681515182164144436, ⟨0, 6,
    503906055052979, [69085889079, 19105611, 7045]⟩⟩) (.leaf ⟨565, 16, 10, 1239, 16, 703, ⟨[[], [(343597383680, 0)]],
    3, 4⟩, ⟨[[(255236557981, 0), (0, 2598400716064), (0, 6629493819), (82264981, 0), (939022, 0)], [(0,
    185785305844), (0, 360639385), (27155901, 0), (318122, 0), (0, 87685)], [(75915572, 0), (2629175, 0), (18196, 0),
    (0, 11871), (0, 1307)], [(34641, 0), (0, 1391), (0, 829), (0, 110), (0, 8)]], 3, 4⟩, 1099511627776, 0,
    3501619056, ⟨[[(54198671960264, 0), (32722553592, 0), (59309252, 0), (175259, 0), (0, 81)], [(17693826615, 0),
    (45356265, 0), (0, 38111), (0, 64)], [(0, 14859228), (0, 26591), (56, 0)], [(16519, 0), (4, 0)]], 3, 4⟩,
    68719476736, 10243715,
    4822088942750911631889925122516865114206771713520249601385011919900420714209018765879077219801, ⟨0, 6,
    492008273197562, [67454694476, 18654506, 6879]⟩⟩)))
theorem c46 : checkC job ⟨6, 8, 7, 8, 9, 13⟩ 1 25 lims t46 880 48 16 45 3 256 = true := by decide +kernel

def t47 : CTree :=
  .sy (.sx (.leaf ⟨595, 16, 10, 924, 16, 516, ⟨[[], [(343597383680, 0)]], 3, 4⟩, ⟨[[(0, 537698730657), (0,
    3576000478496), (0, 19989078511), (0, 15778068), (20299040, 0)], [(0, 122255174625), (0, 753126190), (23172550,
    0), (2577844, 0), (210117, 0)], [(39860367, 0), (1816483, 0), (107026, 0), (9783, 0), (234, 0)], [(10217, 0),
    (806, 0), (148, 0), (2, 0), (0, 4)]], 3, 4⟩, 1099511627776, 0, 1628901895, ⟨[[(55417286965699, 0), (49828921354,
    0), (126852853, 0), (420640, 0), (0, 348)], [(17699884779, 0), (57648960, 0), (0, 71439), (0, 131), (1, 0)], [(0,
    13974596), (0, 32834), (87, 0)], [(14398, 0), (9, 0)]], 3, 4⟩, 68719476736, 11859910,
    4473149886802895749965779458517014594288280644809808558229705341841552546217672625515579572224, ⟨0, 6,
    365763889428239, [47015172974, 12346421, 4323]⟩⟩) (.leaf ⟨625, 16, 10, 929, 16, 525, ⟨[[], [(343597383680, 0)]],
    3, 4⟩, ⟨[[(116142316490, 0), (0, 3694216560875), (0, 16967885168), (313340715, 0), (36297142, 0)], [(0,
    116356234479), (0, 390885526), (47102408, 0), (3855328, 0), (0, 4932)], [(42865011, 0), (2037326, 0), (119889,
    0), (0, 2967), (0, 3550)], [(5398, 0), (254, 0), (0, 208), (0, 124), (0, 26)]], 3, 4⟩, 1099511627776, 0,
    4778605359, ⟨[[(55387438781819, 0), (48113738689, 0), (107159699, 0), (407120, 0), (0, 229)], [(16282264642, 0),
    (56108929, 0), (0, 58395), (0, 173), (1, 0)], [(0, 12403798), (0, 33530), (97, 0)], [(12437, 0), (9, 0)]], 3, 4⟩,
    68719476736, 11178260,
    4629019318083839732431523631218724090072418394714312068938200186198166953632783303973930255300, ⟨0, 6,
    376623652546437, [45539115218, 11384779, 3795]⟩⟩)) (.sx (.sy (.leaf ⟨595, 16, 10, 1310, 16, 744, ⟨[[],
    [(343597383680, 0)]], 3, 4⟩, ⟨[[(0, 51587597069), (0, 2701144252217), (0, 6011195157), (91438337, 0), (992210,
    0)], [(0, 180035008451), (0, 236244248), (25721182, 0), (254985, 0), (0, 90864)], [(73288788, 0), (2161207, 0),
    (5682, 0), (0, 11259), (0, 1269)], [(18319, 0), (0, 1765), (0, 710), (0, 96), (0, 7)]], 3, 4⟩, 1099511627776, 0,
    2829746860, ⟨[[(54676065795033, 0), (32052184616, 0), (51423701, 0), (146371, 0), (0, 55)], [(16792593607, 0),
    (41439082, 0), (0, 30802), (0, 63)], [(0, 13444955), (0, 24837), (50, 0)], [(14275, 0), (5, 0)]], 3, 4⟩,
    68719476736, 9584517,
    3574567167043746353942680367467747262392192872638025298393492340998836682109619800863282468592, ⟨0, 6,
    527380491733740, [67789319172, 17801817, 6233]⟩⟩) (.sx (.leaf ⟨1175, 16, 20, 1723, 16, 987, ⟨[[], [(343597383680,
    0)]], 3, 4⟩, ⟨[[(324834409746, 0), (0, 3667587915706), (0, 7101844446), (0, 18591245), (0, 22714430)], [(0,
    122488802532), (0, 45227832), (4852245, 0), (0, 2828736), (0, 322896)], [(27828256, 0), (317974, 0), (0, 136925),
    (0, 19911), (0, 1529)], [(0, 2467), (0, 3120), (0, 594), (0, 60), (0, 4)]], 3, 4⟩, 1099511627776, 0, 1426733915,
    ⟨[[(54200032085911, 0), (23094969709, 0), (26525533, 0), (63866, 0), (0, 14)], [(8262192049, 0), (16016236, 0),
    (0, 8316), (0, 16)], [(0, 3371499), (0, 4921), (8, 0)], [(1843, 0), (1, 0)]], 3, 4⟩, 68719476736, 356535,
    4739082573366268428252557375793841067680624436541510788006109812976150743393740072721445423685, ⟨0, 6,
    697457722504362, [45539115218, 6055733, 1074]⟩⟩) (.sy (.leaf ⟨1205, 16, 20, 2616, 16, 1503, ⟨[[], [(343597383680,
    0)]], 3, 4⟩, ⟨[[(0, 114565674836), (0, 2778894562129), (0, 2645622745), (0, 38359243), (0, 3995248)], [(0,
    178532356520), (0, 20643948), (0, 4768101), (0, 965218), (0, 46742)], [(39926255, 0), (0, 196894), (0, 87703),
    (0, 5516), (0, 201)], [(0, 12794), (0, 3590), (0, 312), (0, 15)]], 3, 4⟩, 1099511627776, 0, 651442857,
    ⟨[[(54325193790062, 0), (15305735575, 0), (10914369, 0), (18022, 0), (0, 2)], [(7984247547, 0), (10376762, 0),
    (0, 3288), (0, 5)], [(0, 3186518), (0, 3245), (3, 0)], [(1710, 0)]], 3, 4⟩, 68719476736, 214376,
    3159308003635139925665890037333714690484977375041526481873513958249486667116817503618649058448, ⟨0, 6,
    1068659801293132, [67620322241, 8768195, 1516]⟩⟩) (.sx (.leaf ⟨2455, 16, 41, 3448, 16, 1990, ⟨[[(0,
    137438953472)], [(352187318272, 0)]], 3, 4⟩, ⟨[[(533384171814, 0), (0, 3726967829161), (0, 5139822127), (0,
    198064426), (0, 11577662)], [(0, 119707109824), (0, 98857246), (0, 16723844), (0, 1430690), (0, 58044)],
    [(12322883, 0), (0, 475945), (0, 64908), (0, 3486), (0, 116)], [(0, 6280), (0, 1286), (0, 100), (0, 4)]], 3, 4⟩,
    1099511627776, 0, 205832520, ⟨[[(54087315115905, 0), (11312238383, 0), (5874214, 0), (7821, 0), (0, 1)],
    [(3857754022, 0), (3869158, 0), (0, 879), (0, 1)], [(0, 758159), (0, 598)], [(201, 0)]], 3, 4⟩, 68719476736,
    74680, 4247171368628475671902151133640495246865731870637494277694608337566756333150374361688534249502, ⟨0, 6,
    1412770037011382, [45045650305, 2938782, 256]⟩⟩) (.leaf ⟨2486, 16, 41, 3440, 16, 1991, ⟨[[(0, 412316860416)],
    [(352187318272, 0)]], 3, 4⟩, ⟨[[(0, 155597168396), (0, 3743983802364), (0, 7443413593), (0, 371977069), (0,
    18357789)], [(0, 117609181813), (0, 231040061), (0, 32296294), (0, 2237523), (0, 84464)], [(9950225, 0), (0,
    929113), (0, 99084), (0, 4984), (0, 160)], [(0, 10471), (0, 1890), (0, 139), (0, 6)]], 3, 4⟩, 1099511627776, 0,
    290190517, ⟨[[(54095524885959, 0), (11314372733, 0), (5614129, 0), (7796, 0)], [(3773963161, 0), (3846590, 0),
    (0, 822), (0, 1)], [(0, 733953), (0, 601)], [(194, 0)]], 3, 4⟩, 68719476736, 75975,
    4984244269586481137837452909595593303534812046443822961686719227124746532435556721919328135586, ⟨0, 6,
    1417779653942928, [44510740500, 2867960, 246]⟩⟩))))) (.sy (.sx (.leaf ⟨1235, 16, 20, 1801, 16, 1032, ⟨[[],
    [(343597383680, 0)]], 3, 4⟩, ⟨[[(180070844095, 0), (0, 3756762729842), (0, 6278743036), (3370064, 0), (0,
    21839947)], [(0, 117440168054), (1852535, 0), (5378633, 0), (0, 2514112), (0, 303768)], [(25693631, 0), (255863,
    0), (0, 112567), (0, 17071), (0, 1375)], [(0, 3038), (0, 2359), (0, 462), (0, 49), (0, 3)]], 3, 4⟩,
    1099511627776, 0, 1311949193, ⟨[[(54671229629694, 0), (22963710572, 0), (23738364, 0), (55060, 0), (0, 10)],
    [(7868368542, 0), (14766801, 0), (0, 6802), (0, 14)], [(0, 3060243), (0, 4606), (6, 0)], [(1594, 0), (1, 0)]], 3,
    4⟩, 68719476736, 272250,
    3436210788710175556829221233613041699848397565539545217993723949467055152152264123940268142143, ⟨0, 6,
    738173094311564, [45302069505, 5731537, 967]⟩⟩) (.sy (.leaf ⟨1265, 16, 20, 2760, 16, 1586, ⟨[[], [(343597383680,
    0)]], 3, 4⟩, ⟨[[(538068611820, 0), (0, 2871719545946), (0, 2323028745), (0, 26584318), (0, 3622680)], [(0,
    173138703411), (13140389, 0), (0, 2724047), (0, 803031), (0, 41859)], [(37227162, 0), (0, 96191), (0, 67012), (0,
    4498), (0, 174)], [(0, 9908), (0, 2513), (0, 230), (0, 12)]], 3, 4⟩, 1099511627776, 0, 449072651,
    ⟨[[(54786150679983, 0), (15074879603, 0), (9613006, 0), (15109, 0), (0, 1)], [(7615087591, 0), (9472195, 0), (0,
    2649), (0, 4)], [(0, 2898533), (0, 2989), (2, 0)], [(1481, 0), (1, 0)]], 3, 4⟩, 68719476736, 241589,
    2240976734735105971750176993701080527318439897275789866806018161977486304373257444618309383305, ⟨0, 6,
    1141044182621999, [67970107976, 8395517, 1383]⟩⟩) (.leaf ⟨1265, 16, 20, 2715, 16, 1569, ⟨[[], [(343597383680,
    0)]], 3, 4⟩, ⟨[[(342496184378, 0), (0, 2875608509816), (0, 3949433403), (0, 185005624), (0, 10609138)], [(0,
    171538399846), (0, 150548252), (0, 29282312), (0, 2383870), (0, 97888)], [(32647409, 0), (0, 1553296), (0,
    195108), (0, 10628), (0, 364)], [(0, 36032), (0, 6887), (0, 545), (0, 25), (0, 1)]], 3, 4⟩, 1099511627776, 0,
    1024810355, ⟨[[(54553513326676, 0), (14946514041, 0), (9098694, 0), (15688, 0), (0, 1)], [(7466851162, 0),
    (9655601, 0), (0, 2532), (0, 4)], [(0, 2851449), (0, 3085), (2, 0)], [(1471, 0), (1, 0)]], 3, 4⟩, 68719476736,
    189687, 4989959188132704221374226824280002787971174084206822929354398750085941460657463468212924586064, ⟨0, 6,
    1128813570324033, [67241550703, 8305528, 1368]⟩⟩))) (.sy (.sx (.sy (.leaf ⟨1235, 16, 20, 3552, 16, 2050, ⟨[[],
    [(343597383680, 0)]], 3, 4⟩, ⟨[[(297811297331, 0), (0, 1892559652766), (0, 1190305179), (0, 23835025), (0,
    725432)], [(0, 233539911357), (0, 75313754), (0, 7679501), (0, 339577), (0, 7077)], [(47345958, 0), (0, 837158),
    (0, 58267), (0, 1605), (0, 28)], [(0, 43187), (0, 4352), (0, 173), (0, 4)]], 3, 4⟩, 1099511627776, 0, 974355520,
    ⟨[[(54379473698152, 0), (11266455456, 0), (5474850, 0), (7081, 0)], [(7677204631, 0), (7518459, 0), (0, 1584),
    (0, 2)], [(0, 2999982), (0, 2394), (1, 0)], [(1584, 0)]], 3, 4⟩, 68719476736, 227725,
    3718643492181131234971295450195050955160784124245258393302603947800501564154930083330029193610, ⟨0, 6,
    1466332212537506, [89989576053, 11385321, 1921]⟩⟩) (.leaf ⟨1235, 16, 20, 3518, 16, 2036, ⟨[[], [(343597383680,
    0)]], 3, 4⟩, ⟨[[(0, 318810355557), (0, 1897083173993), (0, 1792170661), (0, 45836956), (0, 1154425)], [(0,
    232751117883), (0, 209483396), (0, 15440770), (0, 544562), (0, 10443)], [(39568200, 0), (0, 1723934), (0, 93237),
    (0, 2382), (0, 39)], [(0, 75934), (0, 6862), (0, 257), (0, 6)]], 3, 4⟩, 1099511627776, 0, 1458805952,
    ⟨[[(54269476318701, 0), (11237836951, 0), (5338907, 0), (7244, 0)], [(7603302176, 0), (7600899, 0), (0, 1549),
    (0, 2)], [(0, 2976365), (0, 2438), (1, 0)], [(1579, 0), (1, 0)]], 3, 4⟩, 68719476736, 218597,
    4747181471444937053862691633985657875711825197309595247110868555690791407671525632654760050384, ⟨0, 6,
    1456318236451884, [89375013094, 11307567, 1907]⟩⟩)) (.sy (.sx (.leaf ⟨2578, 16, 41, 5359, 16, 3106, ⟨[[(0,
    137438953472)], [(352187318272, 0)]], 3, 4⟩, ⟨[[(290266914982, 0), (0, 2885099841349), (0, 3209829660), (0,
    88275743), (0, 2125149)], [(0, 172413238059), (0, 210710895), (0, 14585864), (0, 486693), (0, 9180)], [(12785431,
    0), (0, 792945), (0, 40267), (0, 1015), (0, 17)], [(0, 16300), (0, 1423), (0, 53), (0, 1)]], 3, 4⟩,
    1099511627776, 0, 138506538, ⟨[[(54380948726552, 0), (7442649328, 0), (2231533, 0), (2030, 0)], [(3625745307, 0),
    (2400405, 0), (0, 307)], [(0, 680540), (0, 376)], [(173, 0)]], 3, 4⟩, 68719476736, 39557,
    3843232029451548709832759851537872239626374555921702468574513262212725208950848249479484240307, ⟨0, 6,
    2231400622831852, [66952803118, 4159593, 345]⟩⟩) (.skip)) (.skip))) (.sx (.sy (.sx (.leaf ⟨2516, 16, 41, 5208,
    16, 3019, ⟨[[(412316860416, 0)], [(352187318272, 0)]], 3, 4⟩, ⟨[[(284503976972, 0), (0, 2839876344332), (0,
    3438986761), (0, 92210073), (0, 2151801)], [(0, 175057952889), (0, 244907326), (0, 15902373), (0, 515168), (0,
    9487)], [(12453106, 0), (0, 902386), (0, 44612), (0, 1098), (0, 17)], [(0, 19153), (0, 1654), (0, 60), (0, 1)]],
    3, 4⟩, 1099511627776, 0, 166117119, ⟨[[(54146798215572, 0), (7498265675, 0), (2376659, 0), (2229, 0)],
    [(3709931105, 0), (2518715, 0), (0, 340)], [(0, 713620), (0, 396)], [(186, 0)]], 3, 4⟩, 68719476736, 50522,
    4335396721320101816564839318298230706330651387258948663210225096187192354275055173250047507218, ⟨0, 6,
    2156252090717268, [66667922046, 4243121, 360]⟩⟩) (.skip)) (.skip)) (.skip)))))
theorem c47 : checkC job ⟨6, 8, 7, 8, 9, 13⟩ 1 25 lims t47 976 48 16 45 3 256 = true := by decide +kernel

def t48 : CTree :=
  .sx (.sy (.sx (.leaf ⟨655, 16, 10, 790, 16, 408, ⟨[[], [(343597383680, 0)]], 3, 4⟩, ⟨[[(85705484255, 0), (0,
    4412181800765), (0, 28665035167), (0, 640874451), (0, 6603241)], [(0, 69116304406), (0, 1033548851), (0,
    12547033), (210702, 0), (40265, 0)], [(12774751, 0), (407477, 0), (24713, 0), (1424, 0), (88, 0)], [(0, 257),
    (241, 0), (14, 0), (1, 0)]], 3, 4⟩, 1099511627776, 0, 284749695, ⟨[[(61280637383953, 0), (98457871341, 0),
    (318559585, 0), (483853, 0), (0, 2136)], [(19812060360, 0), (54164224, 0), (0, 122950), (165, 0), (4, 0)], [(0,
    13652480), (0, 29882), (22, 0), (1, 0)], [(12506, 0), (34, 0)]], 3, 4⟩, 68719476736, 17033826,
    2797905693118415934462394557784474739886566900806934504704231673274603239733130390394371102613, ⟨0, 6,
    296008838947302, [33769463848, 8055693, 2562]⟩⟩) (.leaf ⟨685, 16, 10, 776, 16, 404, ⟨[[], [(343597383680, 0)]],
    3, 4⟩, ⟨[[(508488661748, 0), (0, 4463247293541), (0, 29339370212), (0, 601152590), (0, 1908600)], [(0,
    66015079315), (0, 939518867), (0, 7365580), (491162, 0), (56432, 0)], [(12605289, 0), (469355, 0), (28015, 0),
    (1507, 0), (83, 0)], [(0, 71), (216, 0), (10, 0)]], 3, 4⟩, 1099511627776, 0, 408372333, ⟨[[(61243436695449, 0),
    (97091002551, 0), (311221309, 0), (554497, 0), (0, 1942)], [(18689156231, 0), (54549666, 0), (0, 126625), (82,
    0), (5, 0)], [(0, 12417542), (0, 27487), (21, 0)], [(10962, 0), (31, 0)]], 3, 4⟩, 68719476736, 16457578,
    2669708376953538821550086457274341125813718656824129670996496064024540306851270874900839668467, ⟨0, 6,
    296245533901015, [31973935607, 7293325, 2218]⟩⟩)) (.sx (.leaf ⟨655, 16, 10, 696, 16, 371, ⟨[[], [(343597383680,
    0)]], 3, 4⟩, ⟨[[(0, 478589962975), (0, 4388471946112), (0, 36257871370), (0, 442891644), (18031619, 0)], [(0,
    68784125954), (0, 1003806977), (6502492, 0), (2007893, 0), (69073, 0)], [(15042483, 0), (853557, 0), (61833, 0),
    (2086, 0), (0, 213)], [(1610, 0), (374, 0), (0, 3), (0, 5), (0, 1)]], 3, 4⟩, 1099511627776, 0, 832723746,
    ⟨[[(59044447359985, 0), (92145260268, 0), (333543565, 0), (886711, 0), (0, 2314)], [(18404773702, 0), (66322240,
    0), (0, 148996), (0, 182), (4, 0)], [(0, 12906128), (0, 34185), (62, 0), (0, 2)], [(11731, 0), (31, 0)]], 3, 4⟩,
    68719476736, 19610894,
    3542666104700699810564682973282817317675520104995621664164937490315369854975809125297894699579, ⟨0, 6,
    269164900121198, [30707036979, 7325152, 2330]⟩⟩) (.leaf ⟨685, 16, 10, 686, 16, 369, ⟨[[], [(343597383680, 0)]],
    3, 4⟩, ⟨[[(0, 34707170080), (0, 4452544617924), (0, 34884235538), (0, 235138213), (21860445, 0)], [(0,
    65498456488), (0, 826703315), (17903252, 0), (2216524, 0), (5339, 0)], [(15387365, 0), (930293, 0), (56017, 0),
    (51, 0), (0, 453)], [(1301, 0), (181, 0), (0, 36), (0, 9), (0, 1)]], 3, 4⟩, 1099511627776, 0, 1847668363,
    ⟨[[(59006896367505, 0), (90564363880, 0), (315442763, 0), (947645, 0), (0, 2038)], [(17250943217, 0), (66495867,
    0), (0, 139997), (0, 385), (3, 0)], [(0, 11710356), (0, 32747), (116, 0), (0, 2)], [(10227, 0), (29, 0)]], 3, 4⟩,
    68719476736, 18063316,
    4963800552775492003180542209004153848180943738783807495077782472728186586615149665147792053728, ⟨0, 6,
    270580698043253, [29203916433, 6661477, 2026]⟩⟩))) (.sy (.sx (.leaf ⟨715, 16, 10, 765, 16, 401, ⟨[[],
    [(343597383680, 0)]], 3, 4⟩, ⟨[[(88422017307, 0), (0, 4515153092954), (0, 29559750059), (0, 536217837), (4190522,
    0)], [(0, 63123662658), (0, 837501268), (0, 1758539), (769373, 0), (70133, 0)], [(12504309, 0), (522177, 0),
    (29690, 0), (1404, 0), (63, 0)], [(1, 0), (173, 0), (3, 0), (0, 1)]], 3, 4⟩, 1099511627776, 0, 544695159,
    ⟨[[(61280860841661, 0), (96221016716, 0), (302816951, 0), (606499, 0), (0, 1717)], [(17689522228, 0), (54714305,
    0), (0, 127372), (0, 61), (7, 0)], [(0, 11354199), (0, 25239), (28, 0), (0, 1)], [(9617, 0), (28, 0)]], 3, 4⟩,
    68719476736, 16010980,
    2705785164280813026191180179026826857292186901783903079456686021693749479989113905929180469141, ⟨0, 6,
    297027565284981, [30404903767, 6644428, 1936]⟩⟩) (.leaf ⟨745, 16, 10, 756, 16, 399, ⟨[[], [(343597383680, 0)]],
    3, 4⟩, ⟨[[(0, 126541558738), (0, 4567703975383), (0, 29307611765), (0, 447990863), (11351512, 0)], [(0,
    60420047352), (0, 729316288), (3913682, 0), (1006410, 0), (78806, 0)], [(12439419, 0), (560878, 0), (28983, 0),
    (1072, 0), (30, 0)], [(0, 37), (111, 0), (0, 7), (0, 2)]], 3, 4⟩, 1099511627776, 0, 698843461,
    ⟨[[(61299811412923, 0), (95249452881, 0), (292246383, 0), (644209, 0), (0, 1477)], [(16752284609, 0), (54843480,
    0), (0, 124007), (0, 273), (7, 0)], [(0, 10417173), (0, 23344), (44, 0), (0, 2)], [(8432, 0), (25, 0)]], 3, 4⟩,
    68719476736, 14210881,
    2187483350598036530615977780187875892130255079795810921279568181988170478619201177131574886400, ⟨0, 6,
    298391166640100, [29035006347, 6089557, 1703]⟩⟩)) (.sy (.sx (.leaf ⟨715, 16, 10, 1198, 16, 644, ⟨[[],
    [(343597383680, 0)]], 3, 4⟩, ⟨[[(99735993624, 0), (0, 3861952328667), (0, 14070969559), (0, 38234221), (3016763,
    0)], [(0, 107317168910), (0, 622348981), (7772485, 0), (464033, 0), (3860, 0)], [(25053828, 0), (711170, 0),
    (19808, 0), (61, 0), (0, 36)], [(1133, 0), (70, 0), (0, 14), (0, 1)]], 3, 4⟩, 1099511627776, 0, 77233225,
    ⟨[[(59554154843150, 0), (53172595410, 0), (102616177, 0), (175096, 0), (0, 211)], [(16602736127, 0), (36953418,
    0), (0, 43698), (0, 96)], [(0, 10855532), (0, 17242), (43, 0)], [(9096, 0), (16, 0)]], 3, 4⟩, 68719476736,
    10778486, 2801211487687779126040974079572902400839558470347590786863366769436117025999595655474361547349, ⟨0, 6,
    477021825544958, [48829820514, 10670852, 3109]⟩⟩) (.leaf ⟨745, 16, 10, 1196, 16, 648, ⟨[[], [(343597383680, 0)]],
    3, 4⟩, ⟨[[(347547310034, 0), (0, 3939435893960), (0, 13238732449), (5644341, 0), (3010403, 0)], [(0,
    103120136219), (0, 488417262), (11160827, 0), (438408, 0), (0, 5015)], [(25406069, 0), (711581, 0), (14401, 0),
    (0, 366), (0, 55)], [(163, 0), (0, 101), (0, 24), (0, 2)]], 3, 4⟩, 1099511627776, 0, 118998781,
    ⟨[[(59542320733221, 0), (52086803269, 0), (95219243, 0), (175882, 0), (0, 189)], [(15634131479, 0), (36468102,
    0), (0, 36840), (0, 129)], [(0, 9929057), (0, 16822), (61, 0)], [(7971, 0), (13, 0)]], 3, 4⟩, 68719476736,
    10033241, 3355878963155678934904888029698635363295049771484504188516313352997941870521091847900555056815, ⟨0, 6,
    484605202964373, [47154596774, 9889806, 2766]⟩⟩)) (.sx (.leaf ⟨715, 16, 10, 1133, 16, 620, ⟨[[], [(343597383680,
    0)]], 3, 4⟩, ⟨[[(0, 324897957629), (0, 3882432820124), (0, 13739418713), (0, 2287205), (0, 1533069)], [(0,
    106548781567), (0, 463806828), (14235833, 0), (157591, 0), (0, 31256)], [(28863475, 0), (874236, 0), (7550, 0),
    (0, 1553), (0, 79)], [(628, 0), (0, 298), (0, 51), (0, 2)]], 3, 4⟩, 1099511627776, 0, 230716628,
    ⟨[[(58474155340396, 0), (50975751376, 0), (98154409, 0), (214640, 0), (0, 207)], [(15802899200, 0), (40159616,
    0), (0, 39971), (0, 120)], [(0, 10467563), (0, 20394), (73, 0)], [(8795, 0), (13, 0)]], 3, 4⟩, 68719476736,
    10120915, 3913833462078064553258248496812728485569926731376179273366452770142162265115158099116728938318, ⟨0, 6,
    459244614655084, [47010075650, 10273181, 2993]⟩⟩) (.leaf ⟨745, 16, 10, 1136, 16, 627, ⟨[[], [(343597383680, 0)]],
    3, 4⟩, ⟨[[(362700943484, 0), (0, 3963475912002), (0, 12488834236), (0, 3187117), (0, 5185448)], [(0,
    102150076835), (0, 310181093), (14401440, 0), (0, 190137), (0, 42109)], [(29053069, 0), (758606, 0), (0, 7486),
    (0, 1952), (0, 16)], [(0, 1613), (0, 551), (0, 49)]], 3, 4⟩, 1099511627776, 0, 313838006, ⟨[[(58442885500940, 0),
    (49781638224, 0), (88767106, 0), (211634, 0), (0, 196)], [(14817163577, 0), (39174753, 0), (0, 30897), (0, 112),
    (0, 1)], [(0, 9526266), (0, 20676), (84, 0)], [(7719, 0), (10, 0)]], 3, 4⟩, 68719476736, 9561044,
    4729655495919721277329810428707195959921927833721699887454917881128750990703485512083762870489, ⟨0, 6,
    468900404720157, [45626438545, 9569303, 2676]⟩⟩))))
theorem c48 : checkC job ⟨6, 8, 7, 8, 9, 13⟩ 1 25 lims t48 560 48 8 15 3 128 = true := by decide +kernel

def t49 : CTree :=
  .sy (.sy (.sx (.leaf ⟨655, 16, 10, 1066, 16, 584, ⟨[[], [(343597383680, 0)]], 3, 4⟩, ⟨[[(0, 513605835032), (0,
    3727936667310), (0, 16095920269), (0, 76994091), (0, 2683572)], [(0, 114879393387), (0, 648157079), (11811617,
    0), (94794, 0), (0, 18658)], [(31741527, 0), (1086072, 0), (12672, 0), (0, 1320), (8, 0)], [(3774, 0), (0, 215),
    (0, 61), (0, 1)]], 3, 4⟩, 1099511627776, 0, 259965946, ⟨[[(57424005801767, 0), (51204567061, 0), (112643022, 0),
    (265372, 0), (0, 266)], [(17107007586, 0), (45516565, 0), (0, 53456), (0, 98)], [(0, 12230141), (0, 24371), (65,
    0)], [(11223, 0), (14, 0)]], 3, 4⟩, 68719476736, 11042972,
    2678509630038147587185437432435979369142245900901390592304041974602666770826174911728278978161, ⟨0, 6,
    423698926336334, [48336683547, 11530697, 3668]⟩⟩) (.leaf ⟨685, 16, 10, 1067, 16, 590, ⟨[[], [(343597383680, 0)]],
    3, 4⟩, ⟨[[(0, 419969390096), (0, 3819283493109), (0, 15053971932), (0, 81167785), (0, 4029565)], [(0,
    109825506413), (0, 454435732), (12633924, 0), (0, 158608), (0, 3198)], [(32714080, 0), (968904, 0), (0, 5300),
    (0, 1074), (178, 0)], [(547, 0), (0, 654), (0, 57), (4, 0), (1, 0)]], 3, 4⟩, 1099511627776, 0, 465350737,
    ⟨[[(57419383480282, 0), (49923979216, 0), (101122371, 0), (263441, 0), (0, 218)], [(15963259658, 0), (44569774,
    0), (0, 44744), (0, 118)], [(0, 11045656), (0, 24411), (81, 0)], [(9779, 0), (12, 0)]], 3, 4⟩, 68719476736,
    10150826, 3386744218909021182472080916975429073119367853310367597842628763142580593989147672132141359704, ⟨0, 6,
    432635804459403, [46694608931, 10651143, 3239]⟩⟩)) (.sx (.leaf ⟨655, 16, 10, 998, 16, 558, ⟨[[], [(343597383680,
    0)]], 3, 4⟩, ⟨[[(149790201273, 0), (0, 3756427976632), (0, 17044706855), (0, 58316341), (12055623, 0)], [(0,
    113059872063), (0, 472116273), (16054800, 0), (1169083, 0), (162996, 0)], [(36852800, 0), (1163288, 0), (30174,
    0), (5860, 0), (551, 0)], [(756, 0), (0, 499), (66, 0), (15, 0)]], 3, 4⟩, 1099511627776, 0, 1448356902,
    ⟨[[(56372569882465, 0), (48916833159, 0), (103911706, 0), (326457, 0), (0, 222)], [(16104811800, 0), (49889445,
    0), (0, 50873), (0, 133)], [(0, 11673155), (0, 28843), (88, 0)], [(10970, 0), (11, 0)]], 3, 4⟩, 68719476736,
    10361235, 3843351717928707569571538990415271660052219270790223140074566985445249784054020590606258545867, ⟨0, 6,
    404835617972045, [46184707909, 11017344, 3504]⟩⟩) (.leaf ⟨685, 16, 10, 1005, 16, 567, ⟨[[], [(343597383680, 0)]],
    3, 4⟩, ⟨[[(0, 529804752551), (0, 3852590337053), (0, 15391307626), (120943040, 0), (31928739, 0)], [(0,
    107713479205), (0, 265067092), (24886129, 0), (2647410, 0), (216120, 0)], [(37045666, 0), (1071011, 0), (62399,
    0), (8261, 0), (0, 366)], [(0, 3231), (0, 154), (141, 0), (0, 7), (0, 7)]], 3, 4⟩, 1099511627776, 0, 3087001507,
    ⟨[[(56402383342992, 0), (47859453886, 0), (90751277, 0), (314423, 0), (0, 176)], [(14997848224, 0), (48195237,
    0), (0, 40894), (0, 107), (0, 1)], [(0, 10490432), (0, 28962), (79, 0), (1, 0)], [(9549, 0), (11, 0)]], 3, 4⟩,
    68719476736, 10720058,
    4816456185295197168625260192658662464759444690914942522351912295092815046060977373663226055454, ⟨0, 6,
    415770340895731, [44874310616, 10235929, 3113]⟩⟩))) (.sx (.sy (.sy (.leaf ⟨655, 16, 10, 1453, 16, 825, ⟨[[],
    [(343597383680, 0)]], 3, 4⟩, ⟨[[(0, 496771954906), (0, 2887152048653), (0, 5494485362), (85563222, 0), (2925634,
    0)], [(0, 169546214218), (0, 139254929), (19486002, 0), (546418, 0), (0, 37577)], [(64059999, 0), (1337767, 0),
    (24666, 0), (0, 3976), (0, 684)], [(0, 237), (0, 473), (0, 212), (0, 42), (0, 4)]], 3, 4⟩, 1099511627776, 0,
    1243483598, ⟨[[(55649877687068, 0), (31098738717, 0), (40580161, 0), (104526, 0), (0, 31)], [(15332971054, 0),
    (34728781, 0), (0, 20439), (0, 42)], [(0, 11213363), (0, 21264), (36, 0)], [(10811, 0), (7, 0)]], 3, 4⟩,
    68719476736, 8939797,
    1997325461105042952287338185022939322300065538789388198371531573806488705941497424468692185137, ⟨0, 6,
    598547284636088, [68283842339, 16289085, 5181]⟩⟩) (.leaf ⟨655, 16, 10, 1421, 16, 816, ⟨[[], [(343597383680, 0)]],
    3, 4⟩, ⟨[[(0, 45167571456), (0, 2911480228029), (0, 4183167792), (0, 41980281), (0, 22800923)], [(0,
    167824991452), (61748406, 0), (0, 769832), (0, 4718111), (0, 546403)], [(69908833, 0), (124084, 0), (0, 369409),
    (0, 54573), (0, 4493)], [(0, 27134), (0, 13029), (0, 2585), (0, 284), (0, 20)]], 3, 4⟩, 1099511627776, 0,
    6285896345, ⟨[[(55152482912234, 0), (30187024125, 0), (36201290, 0), (109781, 0), (0, 22)], [(14760680402, 0),
    (35752894, 0), (0, 18817), (0, 42)], [(0, 10857353), (0, 22534), (26, 0)], [(10671, 0), (10, 0)]], 3, 4⟩,
    68719476736, 9099280,
    4777267718648591852700517864354078216846641407265264829789737021035198039564671700190748588504, ⟨0, 6,
    592017677894603, [67538927695, 16111385, 5124]⟩⟩)) (.sy (.sy (.sx (.leaf ⟨1295, 16, 20, 2791, 16, 1612, ⟨[[],
    [(343597383680, 0)]], 3, 4⟩, ⟨[[(0, 346891233808), (0, 2921217052589), (0, 3502737260), (0, 159944991), (0,
    9798788)], [(0, 169133893583), (0, 99351548), (0, 24076385), (0, 2103453), (0, 89732)], [(32566481, 0), (0,
    1218102), (0, 164344), (0, 9294), (0, 329)], [(0, 28490), (0, 5524), (0, 454), (0, 22), (0, 1)]], 3, 4⟩,
    1099511627776, 0, 823579820, ⟨[[(54798628900401, 0), (14854417092, 0), (8617922, 0), (14361, 0), (0, 1)],
    [(7314320728, 0), (9212433, 0), (0, 2319), (0, 3)], [(0, 2728398), (0, 2933), (1, 0)], [(1370, 0), (1, 0)]], 3,
    4⟩, 68719476736, 183020,
    3878439576161574837497105240736057246146135841477031319058874685848911399368798125446186212382, ⟨0, 6,
    1166304504817937, [67483961879, 8142370, 1310]⟩⟩) (.sy (.leaf ⟨1325, 16, 20, 3836, 16, 2224, ⟨[[],
    [(343597383680, 0)]], 3, 4⟩, ⟨[[(0, 366450042318), (0, 2019353531460), (0, 2057228996), (0, 60488936), (0,
    1519798)], [(0, 225284434777), (0, 236912438), (0, 18156041), (0, 630536), (0, 12400)], [(33759944, 0), (0,
    1779480), (0, 93919), (0, 2476), (0, 42)], [(0, 66333), (0, 5912), (0, 232), (0, 5)]], 3, 4⟩, 1099511627776, 0,
    1075227835, ⟨[[(54856374870625, 0), (10837442468, 0), (4252844, 0), (5454, 0)], [(7058261608, 0), (6585405, 0),
    (0, 1147), (0, 1)], [(0, 2579009), (0, 2082)], [(1266, 0), (1, 0)]], 3, 4⟩, 68719476736, 183927,
    4824982088536818612406358006275713077154951627575892788930562881842027678189797105190944986959, ⟨0, 6,
    1617931115907218, [90996399142, 10730707, 1687]⟩⟩) (.skip))) (.sx (.sy (.sx (.leaf ⟨2639, 16, 41, 5513, 16, 3194,
    ⟨[[(412316860416, 0)], [(352187318272, 0)]], 3, 4⟩, ⟨[[(0, 30441021429), (0, 2929515149046), (0, 2874670382), (0,
    80258589), (0, 2017634)], [(0, 169903760223), (0, 167123341), (0, 12668540), (0, 441656), (0, 8589)], [(13374601,
    0), (0, 658051), (0, 34886), (0, 906), (0, 15)], [(0, 13198), (0, 1174), (0, 45), (0, 1)]], 3, 4⟩, 1099511627776,
    0, 110831791, ⟨[[(54615627928490, 0), (7387729409, 0), (2104960, 0), (1853, 0)], [(3549568838, 0), (2288916, 0),
    (0, 281)], [(0, 650747), (0, 357)], [(161, 0)]], 3, 4⟩, 68719476736, 32632,
    3139109887736724946017128950533954007693385971656311345335736157237175658220364883838926324844, ⟨0, 6,
    2307685173598496, [67245461861, 4080429, 330]⟩⟩) (.skip)) (.skip)) (.skip))) (.skip))) (.sy (.sy (.leaf ⟨685, 16,
    10, 1491, 16, 855, ⟨[[], [(343597383680, 0)]], 3, 4⟩, ⟨[[(0, 460986690437), (0, 2994275836995), (0, 3874084610),
    (46962626, 0), (0, 12359917)], [(0, 163068003448), (79545312, 0), (11854163, 0), (0, 2296113), (0, 353315)],
    [(64699641, 0), (718208, 0), (0, 164410), (0, 31648), (0, 2986)], [(0, 13387), (0, 5373), (0, 1325), (0, 169),
    (0, 13)]], 3, 4⟩, 1099511627776, 0, 3644245492, ⟨[[(55648102561744, 0), (29951292824, 0), (33069004, 0), (94446,
    0), (0, 22)], [(14205202912, 0), (32792735, 0), (0, 16167), (0, 17)], [(0, 10002674), (0, 20482), (14, 0)],
    [(9334, 0), (11, 0)]], 3, 4⟩, 68719476736, 9193579,
    2199780449208063266460009021043454061896643821648625173036556514027816266413437132654905257454, ⟨0, 6,
    626955275953880, [67667611247, 15435130, 4694]⟩⟩) (.sy (.sx (.leaf ⟨1355, 16, 20, 2939, 16, 1696, ⟨[[],
    [(343597383680, 0)]], 3, 4⟩, ⟨[[(454004808358, 0), (0, 3008638277469), (0, 2549268203), (0, 92631155), (0,
    7205171)], [(0, 164543801033), (0, 1052889), (0, 12110623), (0, 1403123), (0, 67089)], [(32380573, 0), (0,
    535161), (0, 99272), (0, 6296), (0, 242)], [(0, 14695), (0, 3000), (0, 276), (0, 14)]], 3, 4⟩, 1099511627776, 0,
    474945229, ⟨[[(55265513680584, 0), (14673729939, 0), (7756985, 0), (12208, 0), (0, 1)], [(7022629835, 0),
    (8419841, 0), (0, 2012), (0, 1)], [(0, 2505209), (0, 2640)], [(1192, 0), (1, 0)]], 3, 4⟩, 68719476736, 181390,
    1580316653053923559260110226400220659166272278661501957596060802977617101018850415964618297261, ⟨0, 6,
    1240405398922322, [67856562476, 7824788, 1203]⟩⟩) (.sy (.leaf ⟨1385, 16, 20, 4087, 16, 2366, ⟨[[],
    [(343597383680, 0)]], 3, 4⟩, ⟨[[(0, 368513676369), (0, 2095312939950), (0, 1313764628), (0, 37155699), (0,
    1109982)], [(0, 221290990399), (0, 74502147), (0, 9877767), (0, 416926), (0, 9114)], [(39486168, 0), (0, 851424),
    (0, 55963), (0, 1648), (0, 30)], [(0, 31939), (0, 3139), (0, 139), (0, 3)]], 3, 4⟩, 1099511627776, 0, 542028535,
    ⟨[[(55335093903347, 0), (10596950149, 0), (3778845, 0), (4506, 0)], [(6798021399, 0), (5950645, 0), (0, 1033)],
    [(0, 2377630), (0, 1827)], [(1104, 0), (1, 0)]], 3, 4⟩, 68719476736, 185895,
    2770069284426721689003906541015888504603149801033302573479552476479449488442540590732879559845, ⟨0, 6,
    1739412558588776, [92612641057, 10448177, 1572]⟩⟩) (.sx (.leaf ⟨2824, 16, 41, 5910, 16, 3427, ⟨[[(0,
    137438953472)], [(352187318272, 0)]], 3, 4⟩, ⟨[[(0, 344152352429), (0, 3057918338730), (0, 2674924782), (0,
    81863600), (0, 2180384)], [(0, 162096940215), (0, 124865777), (0, 11260919), (0, 417236), (0, 8602)], [(12932320,
    0), (0, 499993), (0, 28471), (0, 792), (0, 14)], [(0, 8648), (0, 811), (0, 34), (0, 1)]], 3, 4⟩, 1099511627776,
    0, 71492066, ⟨[[(55213464974705, 0), (7250698013, 0), (1761405, 0), (1485, 0)], [(3313784295, 0), (2017920, 0),
    (0, 239)], [(0, 568725), (0, 302)], [(130, 0)]], 3, 4⟩, 68719476736, 18261,
    3013308761508332137777131719829329120375725383047789943689796829335552451717404502127343898199, ⟨0, 6,
    2516199887921746, [67436931921, 3824690, 289]⟩⟩) (.skip)))) (.sx (.sy (.leaf ⟨1355, 16, 20, 3963, 16, 2296, ⟨[[],
    [(343597383680, 0)]], 3, 4⟩, ⟨[[(0, 493082267022), (0, 2058054787102), (0, 1681261832), (0, 49256336), (0,
    1330926)], [(0, 223309368326), (0, 151895772), (0, 13990860), (0, 526158), (0, 10842)], [(36926220, 0), (0,
    1295318), (0, 74541), (0, 2062), (0, 36)], [(0, 47823), (0, 4443), (0, 183), (0, 4)]], 3, 4⟩, 1099511627776, 0,
    783846158, ⟨[[(55095929083448, 0), (10709548443, 0), (3999752, 0), (4938, 0)], [(6924460493, 0), (6253786, 0),
    (0, 1079)], [(0, 2474495), (0, 1951)], [(1181, 0), (1, 0)]], 3, 4⟩, 68719476736, 183964,
    3307933721693767959378568972643565062371161483306356201050803595247557742037686670747484019417, ⟨0, 6,
    1679228063635408, [91862421842, 10592991, 1629]⟩⟩) (.sx (.leaf ⟨2762, 16, 41, 5746, 16, 3335, ⟨[[(412316860416,
    0)], [(352187318272, 0)]], 3, 4⟩, ⟨[[(495331005813, 0), (0, 3016716877907), (0, 3405791532), (0, 103778676), (0,
    2558080)], [(0, 164305574470), (0, 204339155), (0, 15128759), (0, 514373), (0, 10083)], [(11404405, 0), (0,
    714657), (0, 36974), (0, 975), (0, 17)], [(0, 12537), (0, 1116), (0, 44), (0, 1)]], 3, 4⟩, 1099511627776, 0,
    98077917, ⟨[[(54966735414572, 0), (7301046218, 0), (1849544, 0), (1614, 0)], [(3374543962, 0), (2115476, 0), (0,
    247)], [(0, 592013), (0, 322)], [(139, 0)]], 3, 4⟩, 68719476736, 20336,
    3689350536859981105136790213227624400873185077271134589832917122926263379245270389739359621592, ⟨0, 6,
    2435911367537630, [67087617834, 3889588, 301]⟩⟩) (.skip))) (.skip)))) (.skip)))
theorem c49 : checkC job ⟨6, 8, 7, 8, 9, 13⟩ 1 25 lims t49 1072 48 16 21 3 128 = true := by decide +kernel

def t50 : CTree :=
  .sy (.sy (.sx (.leaf ⟨715, 16, 10, 1072, 16, 598, ⟨[[], [(343597383680, 0)]], 3, 4⟩, ⟨[[(0, 396657990330), (0,
    3906889894737), (0, 14120606411), (0, 102482028), (0, 1856728)], [(0, 104966783031), (0, 292963399), (10574948,
    0), (0, 184219), (59931, 0)], [(32792616, 0), (755250, 0), (0, 14953), (1312, 0), (501, 0)], [(0, 3037), (0,
    843), (3, 0), (14, 0), (1, 0)]], 3, 4⟩, 1099511627776, 0, 1054853569, ⟨[[(57418461418369, 0), (48781174490, 0),
    (90004445, 0), (257169, 0), (0, 192)], [(14919559091, 0), (43260234, 0), (0, 35457), (0, 98), (0, 1)], [(0,
    9991672), (0, 24659), (84, 0)], [(8553, 0), (10, 0)]], 3, 4⟩, 68719476736, 10035670,
    4571740682183455853171401574744105557460093683504705424336931602802111753675037641840616359087, ⟨0, 6,
    442948838006032, [45341976191, 9908649, 2887]⟩⟩) (.sy (.leaf ⟨745, 16, 10, 1704, 16, 954, ⟨[[], [(343597383680,
    0)]], 3, 4⟩, ⟨[[(0, 81543541946), (0, 3102754811765), (0, 5075473214), (0, 22381944), (0, 208089)], [(0,
    157153104974), (0, 155017519), (3374040, 0), (0, 50381), (8063, 0)], [(48936080, 0), (459912, 0), (0, 6568),
    (480, 0), (62, 0)], [(0, 7358), (0, 567), (18, 0), (3, 0)]], 3, 4⟩, 1099511627776, 0, 209550952,
    ⟨[[(57664669345543, 0), (30952353599, 0), (33806325, 0), (63537, 0), (0, 34)], [(14179834480, 0), (26352433, 0),
    (0, 11641), (0, 13)], [(0, 9172576), (0, 15287), (31, 0)], [(7566, 0), (6, 0)]], 3, 4⟩, 68719476736, 8860180,
    3300693384057305685145288018128390679468428501377724592168024174439011222492976004370244017177, ⟨0, 6,
    713446548808660, [69422045251, 14559993, 4072]⟩⟩) (.leaf ⟨745, 16, 10, 1664, 16, 941, ⟨[[], [(343597383680, 0)]],
    3, 4⟩, ⟨[[(0, 178337644556), (0, 3122643698037), (0, 5280852427), (3941669, 0), (2862903, 0)], [(0,
    155804167255), (0, 106825367), (5723439, 0), (406811, 0), (29611, 0)], [(50954091, 0), (491473, 0), (18743, 0),
    (2391, 0), (68, 0)], [(0, 9054), (139, 0), (105, 0), (5, 0)]], 3, 4⟩, 1099511627776, 0, 352340976,
    ⟨[[(57147585359136, 0), (30270461969, 0), (31354419, 0), (68553, 0), (0, 34)], [(13728207894, 0), (27111970, 0),
    (0, 11774), (7, 0)], [(0, 8904627), (0, 16365), (19, 0)], [(7454, 0), (7, 0)]], 3, 4⟩, 68719476736, 9130308,
    3686728775285576426221293743711467431433751352866941792853971842673535108206939400253620854809, ⟨0, 6,
    703724530847955, [68476042538, 14361586, 4016]⟩⟩))) (.sx (.sy (.leaf ⟨715, 16, 10, 1594, 16, 903, ⟨[[],
    [(343597383680, 0)]], 3, 4⟩, ⟨[[(0, 371151253312), (0, 3048907610996), (0, 5446821538), (35927136, 0), (3821123,
    0)], [(0, 160125335619), (0, 122484597), (9948593, 0), (599711, 0), (21147, 0)], [(54759215, 0), (702206, 0),
    (29127, 0), (1814, 0), (0, 76)], [(0, 7712), (228, 0), (83, 0), (0, 2), (0, 1)]], 3, 4⟩, 1099511627776, 0,
    470083064, ⟨[[(56641775131426, 0), (30489824009, 0), (33797722, 0), (78004, 0), (0, 30)], [(14201181909, 0),
    (29376176, 0), (0, 14077), (0, 10)], [(0, 9566804), (0, 17885), (23, 0)], [(8377, 0), (8, 0)]], 3, 4⟩,
    68719476736, 9047288,
    3588119736100692992790209216150684461475189606087457310318216465164961510474792043689746135715, ⟨0, 6,
    668867559731517, [68467900503, 14962391, 4360]⟩⟩) (.leaf ⟨715, 16, 10, 1559, 16, 893, ⟨[[], [(343597383680, 0)]],
    3, 4⟩, ⟨[[(435072488842, 0), (0, 3072546003464), (0, 3946602995), (103418713, 0), (0, 2451797)], [(0,
    158586135643), (63131692, 0), (18604845, 0), (0, 332681), (0, 170349)], [(59458007, 0), (998097, 0), (0, 19599),
    (0, 13110), (0, 1632)], [(0, 5858), (0, 605), (0, 446), (0, 81), (0, 7)]], 3, 4⟩, 1099511627776, 0, 1840867613,
    ⟨[[(56116899320443, 0), (29705661427, 0), (30308061, 0), (82643, 0), (0, 26)], [(13681561783, 0), (30201093, 0),
    (0, 14366), (10, 0)], [(0, 9247777), (0, 18572), (2, 0), (1, 0)], [(8210, 0), (12, 0)]], 3, 4⟩, 68719476736,
    9279275, 2702881428092861867002604281486497333470662294045232355689077723641690059128891070741795925931, ⟨0, 6,
    661460388527403, [67709673476, 14796694, 4311]⟩⟩)) (.sy (.leaf ⟨745, 16, 10, 1627, 16, 930, ⟨[[], [(343597383680,
    0)]], 3, 4⟩, ⟨[[(419187690578, 0), (0, 3145061099094), (0, 4275884677), (108098888, 0), (4048450, 0)], [(0,
    154288388978), (29658653, 0), (18220380, 0), (759276, 0), (0, 37402)], [(54469631, 0), (957630, 0), (50298, 0),
    (0, 1525), (0, 651)], [(0, 3917), (1422, 0), (24, 0), (0, 26), (0, 3)]], 3, 4⟩, 1099511627776, 0, 1117903170,
    ⟨[[(56619603735974, 0), (29568240259, 0), (28297525, 0), (73438, 0), (0, 33)], [(13243024587, 0), (27870402, 0),
    (0, 13139), (35, 0)], [(0, 8610474), (0, 16820), (0, 6), (1, 0)], [(7292, 0), (11, 0)]], 3, 4⟩, 68719476736,
    9241565, 4220665172864787163523874668575103677801504541018000351305216586161456347349440714491069177317, ⟨0, 6,
    695498207958128, [67675578704, 14193704, 3969]⟩⟩) (.sy (.leaf ⟨745, 16, 10, 2234, 16, 1287, ⟨[[], [(343597383680,
    0)]], 3, 4⟩, ⟨[[(194727394024, 0), (0, 2197957256555), (0, 988577836), (5593364, 0), (0, 1755852)], [(0,
    212772149148), (140621257, 0), (4402771, 0), (0, 487147), (0, 40177)], [(81997471, 0), (634740, 0), (0, 44164),
    (0, 5702), (0, 296)], [(0, 1821), (0, 1233), (0, 355), (0, 27), (0, 1)]], 3, 4⟩, 1099511627776, 0, 1790909861,
    ⟨[[(56248856763870, 0), (20873273755, 0), (13299819, 0), (28335, 0), (0, 9)], [(12887215781, 0), (20395412, 0),
    (0, 7797), (22, 0)], [(0, 8399335), (0, 11816), (0, 17)], [(7116, 0), (12, 0)]], 3, 4⟩, 68719476736, 8475676,
    3507335042060001594419277523953930495374113915207709163837572576079693227396413908178114148942, ⟨0, 6,
    962479778109796, [93654268593, 19642254, 5493]⟩⟩) (.sx (.leaf ⟨1475, 16, 20, 3189, 16, 1843, ⟨[[],
    [(343597383680, 0)]], 3, 4⟩, ⟨[[(0, 184970330704), (0, 3170752913741), (0, 1819837446), (0, 67186471), (0,
    6902055)], [(0, 154620428162), (85396538, 0), (0, 5623319), (0, 1076293), (0, 60303)], [(30197145, 0), (0,
    90428), (0, 57991), (0, 4594), (0, 200)], [(0, 3902), (0, 1209), (0, 158), (0, 10)]], 3, 4⟩, 1099511627776, 0,
    253946040, ⟨[[(56006019678556, 0), (14340066932, 0), (6221349, 0), (9670, 0), (0, 2)], [(6434347561, 0),
    (7222167, 0), (0, 1948), (4, 0)], [(0, 2119362), (0, 2067), (0, 2)], [(907, 0), (1, 0)]], 3, 4⟩, 68719476736,
    226958, 3435845528393712367704745435322792134700171451816466960888372961936325788006202296356251671500, ⟨0, 6,
    1375047958702843, [67738974453, 7175739, 1014]⟩⟩) (.sy (.leaf ⟨1505, 16, 20, 4526, 16, 2623, ⟨[[],
    [(343597383680, 0)]], 3, 4⟩, ⟨[[(0, 333582563348), (0, 2246434281282), (0, 796422429), (0, 25748005), (0,
    996810)], [(0, 212112182122), (55020293, 0), (0, 4706237), (0, 299993), (0, 7751)], [(41683765, 0), (0, 206193),
    (0, 30757), (0, 1138), (0, 24)], [(0, 6196), (0, 1199), (0, 75), (0, 2)]], 3, 4⟩, 1099511627776, 0, 188903767,
    ⟨[[(56068195652655, 0), (10151364000, 0), (2911645, 0), (3430, 0), (0, 1)], [(6246251336, 0), (5017069, 0), (0,
    1122), (2, 0)], [(0, 2023188), (0, 1329), (0, 2)], [(838, 0), (1, 0)]], 3, 4⟩, 68719476736, 154398,
    4109579230077302047076459961887035662465913803607399331539655620424585234265325139467106044978, ⟨0, 6,
    1966162162173193, [94485919330, 9809585, 1358]⟩⟩) (.skip))))))) (.sx (.sy (.sy (.sy (.leaf ⟨715, 16, 10, 2122,
    16, 1225, ⟨[[], [(343597383680, 0)]], 3, 4⟩, ⟨[[(0, 212808594094), (0, 2129870120585), (0, 1413333413), (0,
    46894259), (0, 4467238)], [(0, 216829091182), (70747264, 0), (0, 9700433), (0, 1523130), (0, 81022)], [(84268352,
    0), (0, 597010), (0, 184480), (0, 13377), (0, 558)], [(0, 39765), (0, 9150), (0, 1014), (0, 59), (0, 2)]], 3, 4⟩,
    1099511627776, 0, 3960499747, ⟨[[(55761597347034, 0), (21146527465, 0), (14499537, 0), (32469, 0), (0, 6)],
    [(13313838793, 0), (22274359, 0), (0, 7979), (10, 0)], [(0, 9023588), (0, 13398), (0, 10)], [(8042, 0), (12,
    0)]], 3, 4⟩, 68719476736, 8497761,
    4070049048712882019366399290249305482417198070547557807302207261233581900681219694667983271093, ⟨0, 6,
    907378472503996, [92882810759, 20297817, 5914]⟩⟩) (.sx (.sy (.leaf ⟨1415, 16, 20, 4208, 16, 2434, ⟨[[],
    [(343597383680, 0)]], 3, 4⟩, ⟨[[(4807307540, 0), (0, 2131632675200), (0, 989374045), (0, 25256252), (0, 874914)],
    [(0, 219276172536), (0, 10585295), (0, 6129386), (0, 310721), (0, 7338)], [(41218708, 0), (0, 473628), (0,
    39244), (0, 1257), (0, 24)], [(0, 19219), (0, 2048), (0, 99), (0, 3)]], 3, 4⟩, 1099511627776, 0, 350130631,
    ⟨[[(55574017398076, 0), (10498060345, 0), (3584903, 0), (4143, 0)], [(6678356964, 0), (5672825, 0), (0, 1005),
    (1, 0)], [(0, 2287689), (0, 1710), (0, 1)], [(1033, 0), (1, 0)]], 3, 4⟩, 68719476736, 205777,
    2508904029786298906237260388921588355857760833242897768547798894785408083001649369093378537793, ⟨0, 6,
    1798452817964375, [93254422380, 10297529, 1516]⟩⟩) (.sx (.leaf ⟨2885, 16, 41, 6069, 16, 3516, ⟨[[(412316860416,
    0)], [(352187318272, 0)]], 3, 4⟩, ⟨[[(0, 321396920579), (0, 3098089098320), (0, 1997910400), (0, 59630444), (0,
    1767985)], [(0, 159950522346), (0, 56121446), (0, 7637040), (0, 320804), (0, 7052)], [(14094647, 0), (0, 312573),
    (0, 20676), (0, 616), (0, 11)], [(0, 5463), (0, 552), (0, 25), (0, 1)]], 3, 4⟩, 1099511627776, 0, 49977660,
    ⟨[[(55453206847734, 0), (7204489174, 0), (1682055, 0), (1376, 0)], [(3256462558, 0), (1929062, 0), (0, 235)],
    [(0, 547352), (0, 283)], [(121, 0)]], 3, 4⟩, 68719476736, 28201,
    2612525832067151128562465171334800287944322805981372045996290589632439502856126793576518237167, ⟨0, 6,
    2594687755989492, [67713579086, 3758525, 278]⟩⟩) (.skip))) (.skip))) (.skip)) (.skip)) (.skip))
theorem c50 : checkC job ⟨6, 8, 7, 8, 9, 13⟩ 1 25 lims t50 1168 48 16 21 3 128 = true := by decide +kernel

def t51 : CTree :=
  .sx (.out ⟨632, 26, 8, 488, 16, 235, ⟨[[], [(549755813888, 0)]], 1, 1⟩, ⟨[[(253233502124, 0), (0, 4650596456430)],
    [(0, 52750467990), (0, 1120576709)]], 1, 1⟩, 1099511627776, 0, 367337596522, ⟨[], 0, 0⟩, 0, 0, 0, ⟨0, 6,
    178135182705803, [32253442062]⟩⟩ 0 1 2243) (.sy (.out ⟨680, 26, 8, 864, 16, 414, ⟨[[], [(549755813888, 0)]], 1,
    1⟩, ⟨[[(0, 419497510695), (0, 4156757108024)], [(0, 84924057648), (0, 857163073)]], 1, 1⟩, 1099511627776, 0,
    170009921798, ⟨[], 0, 0⟩, 0, 0, 0, ⟨0, 6, 319078722595535, [52810066387]⟩⟩ 0 1 2546) (.sy (.out ⟨680, 26, 8,
    1327, 16, 649, ⟨[[], [(549755813888, 0)]], 1, 1⟩, ⟨[[(21284982404, 0), (0, 3300789107992)], [(0, 139446798478),
    (0, 736000626)]], 1, 1⟩, 1099511627776, 0, 220225176021, ⟨[], 0, 0⟩, 0, 0, 0, ⟨0, 6, 500198287353871,
    [82786794892]⟩⟩ 0 1 1309) (.sy (.out ⟨680, 26, 8, 1840, 16, 909, ⟨[[], [(549755813888, 0)]], 1, 1⟩, ⟨[[(0,
    412166831808), (0, 2336794986061)], [(0, 200071762794), (0, 542580740)]], 1, 1⟩, 1099511627776, 0, 270766341083,
    ⟨[], 0, 0⟩, 0, 0, 0, ⟨0, 6, 700585890916284, [115952537068]⟩⟩ 0 1 710) (.sx (.out ⟨835, 16, 10, 2542, 16, 1262,
    ⟨[[], [(343597383680, 0)]], 1, 1⟩, ⟨[[(498827682010, 0), (0, 3253800348013)], [(0, 143339335655), (0,
    398769486)]], 1, 1⟩, 1099511627776, 0, 115274363821, ⟨[], 0, 0⟩, 0, 0, 0, ⟨0, 6, 968752548361374, [81936645858]⟩⟩
    0 1 419) (.leaf ⟨865, 16, 10, 2584, 16, 1289, ⟨[[], [(343597383680, 0)]], 3, 4⟩, ⟨[[(283114143306, 0), (0,
    3361546543193), (0, 2630416129), (0, 17334530), (82834, 0)], [(0, 142035721520), (0, 387120664), (0, 891703),
    (9570, 0), (277, 0)], [(22358952, 0), (105032, 0), (1080, 0), (23, 0)], [(0, 2733), (0, 2)]], 3, 4⟩,
    1099511627776, 0, 24930621, ⟨[[(68211320306201, 0), (40082027759, 0), (35028023, 0), (25243, 0), (30, 0)],
    [(16560262456, 0), (13785240, 0), (14909, 0), (194, 0), (1, 0)], [(0, 8713945), (0, 1224), (93, 0), (1, 0)],
    [(5381, 0), (0, 1)]], 3, 4⟩, 68719476736, 11584849,
    2631971675653445865555121438253585531029234377298660732124649317919689171054493756882628609538, ⟨0, 6,
    997371878583037, [80787117418, 14593049, 3515]⟩⟩)))))
theorem c51 : checkC job ⟨6, 8, 7, 8, 9, 13⟩ 1 25 lims t51 656 48 8 3 3 128 = true := by decide +kernel

def t52 : CTree :=
  .sy (.out ⟨752, 50, 8, 694, 16, 337, ⟨[[], [(1099511627776, 0)]], 1, 1⟩, ⟨[[(348975957647, 0), (0, 3477030913492)],
    [(0, 126949185746), (0, 1195022654)]], 1, 1⟩, 1099511627776, 0, 394518807656, ⟨[], 0, 0⟩, 0, 0, 0, ⟨0, 7,
    265617140862733, [77744082211]⟩⟩ 0 1 1738) (.sx (.sy (.out ⟨728, 26, 8, 1329, 16, 656, ⟨[[], [(549755813888,
    0)]], 1, 1⟩, ⟨[[(419269159482, 0), (0, 3404624123739)], [(0, 132901463260), (0, 677959076)]], 1, 1⟩,
    1099511627776, 0, 209280526463, ⟨[], 0, 0⟩, 0, 0, 0, ⟨0, 7, 513355738379190, [78162374629]⟩⟩ 0 1 760) (.sx (.sx
    (.leaf ⟨1775, 16, 20, 1857, 16, 926, ⟨[[], [(343597383680, 0)]], 3, 4⟩, ⟨[[(0, 532506612512), (0, 4846520778414),
    (0, 7283963121), (0, 101693112), (1049865, 0)], [(0, 49478368731), (0, 263891074), (0, 1197454), (27320, 0),
    (1688, 0)], [(3857638, 0), (35189, 0), (661, 0), (34, 0), (1, 0)], [(0, 233), (0, 1)]], 3, 4⟩, 1099511627776, 0,
    7846088, ⟨[[(68618385312748, 0), (56320168646, 0), (68785167, 0), (81394, 0), (171, 0)], [(8094660726, 0),
    (9581060, 0), (19331, 0), (314, 0), (1, 0)], [(0, 2090861), (0, 397), (51, 0), (1, 0)], [(635, 0)]], 3, 4⟩,
    68719476736, 1562506,
    5225889855719050795654788168531042181682011596957133784756647831662496893119022828236417639058, ⟨0, 6,
    720623535753085, [28282508848, 2489657, 292]⟩⟩) (.leaf ⟨1805, 16, 20, 1848, 16, 924, ⟨[[], [(343597383680, 0)]],
    3, 4⟩, ⟨[[(249934882738, 0), (0, 4861009637982), (0, 7376797190), (0, 98537890), (1216190, 0)], [(0,
    48638790757), (0, 256620438), (0, 1066261), (33996, 0), (1829, 0)], [(3783444, 0), (34665, 0), (680, 0), (37, 0),
    (1, 0)], [(0, 225), (0, 2)]], 3, 4⟩, 1099511627776, 0, 8305665, ⟨[[(68578048292376, 0), (56040894789, 0),
    (68368494, 0), (87687, 0), (208, 0)], [(7923654438, 0), (9376803, 0), (17534, 0), (321, 0), (2, 0)], [(0,
    2030587), (0, 944), (45, 0), (1, 0)], [(634, 0), (0, 1)]], 3, 4⟩, 68719476736, 1639214,
    4305920048495722448378623998744182999784803596669616031418647620393061506613636642393679303583, ⟨0, 7,
    721753729707216, [27752369385, 2402387, 277]⟩⟩)) (.leaf ⟨925, 16, 10, 1615, 16, 810, ⟨[[], [(343597383680, 0)]],
    3, 4⟩, ⟨[[(0, 355010932699), (0, 4293043760024), (0, 6588686437), (0, 81392781), (1311265, 0)], [(0,
    83389674972), (0, 432631014), (0, 1516677), (79376, 0), (3605, 0)], [(12931692, 0), (118405, 0), (2518, 0), (146,
    0), (3, 0)], [(0, 1522), (0, 17), (1, 0)]], 3, 4⟩, 1099511627776, 0, 19698293, ⟨[[(68610757021679, 0),
    (63517278547, 0), (87886780, 0), (144039, 0), (455, 0)], [(15384934466, 0), (20697114, 0), (40899, 0), (995, 0),
    (6, 0)], [(0, 7743486), (0, 7315), (203, 0), (3, 0)], [(5364, 0), (0, 14)]], 3, 4⟩, 68719476736, 13328535,
    4184697345239390981354759062084900793273394867265692005983417709346101068489541156696541831109, ⟨0, 7,
    636166520471623, [47473208915, 8019123, 1806]⟩⟩))) (.sy (.sy (.out ⟨776, 26, 8, 1972, 16, 978, ⟨[[],
    [(549755813888, 0)]], 1, 1⟩, ⟨[[(161015583576, 0), (0, 2575141487101)], [(0, 185560452995), (0, 451490569)]], 1,
    1⟩, 1099511627776, 0, 234503295406, ⟨[], 0, 0⟩, 0, 0, 0, ⟨0, 7, 776171687435321, [109320703690]⟩⟩ 0 2 961) (.sx
    (.sy (.out ⟨955, 16, 10, 3885, 16, 1933, ⟨[[], [(343597383680, 0)]], 1, 1⟩, ⟨[[(199081897232, 0), (0,
    2547434755477)], [(0, 188132126041), (0, 234430312)]], 1, 1⟩, 1099511627776, 0, 117247295039, ⟨[], 0, 0⟩, 0, 0,
    0, ⟨0, 7, 1528863643423363, [109732123805]⟩⟩ 0 1 290) (.leaf ⟨955, 16, 10, 3907, 16, 1951, ⟨[[], [(343597383680,
    0)]], 3, 4⟩, ⟨[[(331978243030, 0), (0, 2581192056246), (0, 868609421), (0, 3512559), (10178, 0)], [(0,
    191314836508), (0, 240271274), (0, 288825), (2013, 0), (31, 0)], [(29166464, 0), (59574, 0), (159, 0), (5, 0)],
    [(0, 3309), (0, 15)]], 3, 4⟩, 1099511627776, 0, 25367573, ⟨[[(69523804558889, 0), (27161582013, 0), (16075401,
    0), (14041, 0), (21, 0)], [(15081690834, 0), (8789203, 0), (14087, 0), (102, 0)], [(0, 7272083), (0, 2036), (54,
    0)], [(6237, 0), (0, 5)]], 3, 4⟩, 68719476736, 11775252,
    3237075060581763832968593365818580497139850189616470951899704407277947318531927935011659085648, ⟨0, 7,
    1543100345741842, [110753943892, 18120737, 3953]⟩⟩)) (.leaf ⟨985, 16, 10, 2695, 16, 1349, ⟨[[], [(343597383680,
    0)]], 3, 4⟩, ⟨[[(209471448096, 0), (0, 3593336773113), (0, 2391650735), (0, 18935540), (131142, 0)], [(0,
    127999078269), (0, 314801592), (0, 785067), (14483, 0), (371, 0)], [(19410474, 0), (74763, 0), (297, 0), (30,
    0)], [(0, 2148), (0, 25)]], 3, 4⟩, 1099511627776, 0, 16704522, ⟨[[(69715219016458, 0), (39220558255, 0),
    (33624131, 0), (49570, 0), (120, 0)], [(14584298274, 0), (12088408, 0), (29728, 0), (344, 0), (1, 0)], [(0,
    6604827), (0, 5029), (105, 0), (1, 0)], [(8195, 0), (0, 7)]], 3, 4⟩, 68719476736, 12386446,
    5173432990555449828336661313527309520531449173263926967100047297731331885651162708898001396952, ⟨0, 7,
    1074200292542431, [74247360925, 11777817, 2491]⟩⟩))) (.sx (.leaf ⟨955, 16, 10, 1608, 16, 810, ⟨[[],
    [(343597383680, 0)]], 3, 4⟩, ⟨[[(0, 545992295677), (0, 4333500952588), (0, 6710415205), (0, 72343539), (1683589,
    0)], [(0, 80948286079), (0, 410403171), (0, 1011814), (110013, 0), (4155, 0)], [(12502328, 0), (112911, 0),
    (2754, 0), (173, 0), (3, 0)], [(0, 1462), (0, 21), (1, 0)]], 3, 4⟩, 1099511627776, 0, 18958781,
    ⟨[[(68620883858597, 0), (62906129503, 0), (85769353, 0), (159587, 0), (602, 0)], [(14796209690, 0), (19634693,
    0), (30214, 0), (1021, 0), (7, 0)], [(0, 7152589), (0, 11281), (147, 0), (3, 0)], [(6456, 0), (0, 18)]], 3, 4⟩,
    68719476736, 14016218,
    4294296162781252042127181551048275789118872627355652140291100632134506847654156362569369453023, ⟨0, 7,
    640651604331570, [45981903922, 7523217, 1641]⟩⟩) (.sy (.leaf ⟨985, 16, 10, 2646, 16, 1334, ⟨[[], [(343597383680,
    0)]], 3, 4⟩, ⟨[[(0, 274747957054), (0, 3583657906274), (0, 2669376639), (0, 14835575), (192533, 0)], [(0,
    128467969606), (0, 318729731), (0, 431501), (24384, 0), (463, 0)], [(19655750, 0), (81001, 0), (909, 0), (38,
    0)], [(0, 2268), (0, 23)]], 3, 4⟩, 1099511627776, 0, 16963456, ⟨[[(68972445192872, 0), (38405024434, 0),
    (31718809, 0), (42294, 0), (111, 0)], [(14360345074, 0), (11420855, 0), (12661, 0), (267, 0), (1, 0)], [(0,
    6476313), (0, 8064), (52, 0), (1, 0)], [(8370, 0), (0, 10)]], 3, 4⟩, 68719476736, 12020150,
    3584918672799903363938998019098853826748092858950111447098376079182847818017505042234083499614, ⟨0, 7,
    1062255886027875, [73421778705, 11646856, 2463]⟩⟩) (.leaf ⟨985, 16, 10, 2597, 16, 1319, ⟨[[], [(343597383680,
    0)]], 3, 4⟩, ⟨[[(0, 467041516392), (0, 3576443210734), (0, 2858790204), (0, 9548199), (231030, 0)], [(0,
    128923846763), (0, 317255543), (109402, 0), (35526, 0), (476, 0)], [(19956197, 0), (95227, 0), (1645, 0), (45,
    0)], [(0, 2361), (0, 16), (1, 0)]], 3, 4⟩, 1099511627776, 0, 16412907, ⟨[[(68236565758574, 0), (37638278081, 0),
    (30163492, 0), (35447, 0), (100, 0)], [(14141005867, 0), (11327394, 0), (0, 548), (193, 0), (1, 0)], [(0,
    6305430), (0, 9332), (11, 0), (1, 0)], [(8568, 0), (0, 10)]], 3, 4⟩, 68719476736, 11954059,
    3007182117933438340660953968492970114989097849054457310641329394794735306239716407627093273870, ⟨0, 7,
    1050311479513318, [72596196486, 11515894, 2436]⟩⟩)))))
theorem c52 : checkC job ⟨6, 8, 7, 8, 9, 13⟩ 1 25 lims t52 752 48 8 3 3 128 = true := by decide +kernel

def t53 : CTree :=
  .sx (.sx (.sy (.leaf ⟨632, 25, 8, 770, 16, 386, ⟨[[], [(549755813888, 0)]], 3, 4⟩, ⟨[[(32793986663, 0), (0,
    4007125122744), (0, 15046549053), (0, 312140114), (2457031, 0)], [(0, 95901697465), (0, 1138741187), (0,
    10485291), (443704, 0), (25896, 0)], [(31537650, 0), (678397, 0), (34982, 0), (1939, 0), (35, 0)], [(0, 7515),
    (244, 0), (28, 0), (2, 0)]], 3, 4⟩, 1099511627776, 0, 252014022, ⟨[[(66428333198604, 0), (127483632293, 0),
    (377215135, 0), (542540, 0), (0, 700)], [(22239507008, 0), (58330356, 0), (0, 6685), (4123, 0), (47, 0)], [(0,
    15811587), (0, 18160), (841, 0), (23, 0)], [(14831, 0), (36, 0), (2, 0)]], 3, 4⟩, 68719476736, 1231046018,
    2715103861572724906237934898208693737061266525976565641725399989370388062830767049587344899160, ⟨0, 6,
    292596512869958, [52977994196, 20956485, 11053]⟩⟩) (.leaf ⟨632, 25, 8, 703, 16, 363, ⟨[[], [(549755813888, 0)]],
    3, 4⟩, ⟨[[(70069379845, 0), (0, 3969254843005), (0, 19427364250), (0, 325536950), (0, 5037837)], [(0,
    96853317377), (0, 1129347156), (818774, 0), (668439, 0), (4314, 0)], [(35078814, 0), (1234301, 0), (64869, 0),
    (1316, 0), (0, 61)], [(0, 4575), (586, 0), (16, 0), (0, 4)]], 3, 4⟩, 1099511627776, 0, 321977466,
    ⟨[[(63749296611733, 0), (118455675293, 0), (382432515, 0), (745593, 0), (0, 1313)], [(20890545864, 0), (66932945,
    0), (0, 181899), (897, 0), (36, 0)], [(0, 15173141), (0, 34765), (29, 0), (4, 0)], [(14358, 0), (23, 0)]], 3, 4⟩,
    68719476736, 1142468900,
    2839290282491112852780001493701217142318933336529837249398469073506940651616831812989745720503, ⟨0, 6,
    275162005626411, [49821274334, 19707783, 10394]⟩⟩)) (.sy (.leaf ⟨680, 25, 8, 762, 16, 386, ⟨[[], [(549755813888,
    0)]], 3, 4⟩, ⟨[[(0, 93409180314), (0, 4109995625376), (0, 15705448696), (0, 250312375), (5188323, 0)], [(0,
    90043555116), (0, 1002543398), (0, 2971736), (857806, 0), (29957, 0)], [(29531898, 0), (736341, 0), (43427, 0),
    (2356, 0), (2, 0)], [(0, 6525), (162, 0), (31, 0), (1, 0)]], 3, 4⟩, 1099511627776, 0, 283326695,
    ⟨[[(66442826593924, 0), (124329239566, 0), (360631702, 0), (735286, 0), (1745, 0)], [(20363208628, 0), (56497512,
    0), (0, 47303), (4401, 0), (68, 0)], [(0, 13775525), (0, 28297), (455, 0), (21, 0)], [(11321, 0), (0, 27)]], 3,
    4⟩, 68719476736, 1207479564,
    2781944353715913531526142118707294300368144164585500927029362712029486597539641162622180044683, ⟨0, 6,
    297498519134968, [49238371076, 18102342, 8874]⟩⟩) (.sx (.leaf ⟨835, 16, 10, 812, 16, 423, ⟨[[], [(343597383680,
    0)]], 3, 4⟩, ⟨[[(80201371338, 0), (0, 4712390034059), (0, 22174570166), (0, 317699944), (0, 6107510)], [(0,
    53528307224), (0, 549645892), (5963493, 0), (446508, 0), (0, 7624)], [(9941394, 0), (391039, 0), (18820, 0), (0,
    39), (0, 56)], [(0, 630), (59, 0), (0, 3), (0, 1)]], 3, 4⟩, 1099511627776, 0, 178742463, ⟨[[(63750144948592, 0),
    (99774742936, 0), (266145748, 0), (494832, 0), (0, 114)], [(15556246263, 0), (45875853, 0), (0, 114097), (41, 0),
    (18, 0)], [(0, 8666735), (0, 18134), (0, 38)], [(6231, 0), (2, 0)]], 3, 4⟩, 68719476736, 22789079,
    2522544843535802638043550758136108240816606118061286130120066458768840198835854816179404819751, ⟨0, 6,
    324708659236815, [27463709349, 5139167, 1282]⟩⟩) (.leaf ⟨865, 16, 10, 806, 16, 422, ⟨[[], [(343597383680, 0)]],
    3, 4⟩, ⟨[[(0, 469286460442), (0, 4750248212263), (0, 21381647286), (0, 275868041), (0, 7433214)], [(0,
    51514895274), (0, 472013758), (9428420, 0), (395304, 0), (0, 21386)], [(9736807, 0), (403956, 0), (17231, 0), (0,
    511), (0, 89)], [(0, 632), (37, 0), (0, 8), (0, 2)]], 3, 4⟩, 1099511627776, 0, 247910632, ⟨[[(63799911903313, 0),
    (99245373161, 0), (257852153, 0), (493500, 0), (239, 0)], [(14867500464, 0), (45852721, 0), (0, 116199), (0,
    304), (18, 0)], [(0, 8052592), (0, 17672), (0, 64), (0, 1)], [(5844, 0)]], 3, 4⟩, 68719476736, 28978584,
    2440365760599158769048991264210605995425050688952949752871114701405854039023596463937214656344, ⟨0, 6,
    326525161180793, [26448536502, 4777554, 1151]⟩⟩)))) (.sx (.sy (.sx (.leaf ⟨895, 16, 10, 868, 16, 443, ⟨[[],
    [(343597383680, 0)]], 3, 4⟩, ⟨[[(0, 202275751527), (0, 4795309349589), (0, 17998269096), (0, 201918912),
    (8347421, 0)], [(0, 49286661810), (0, 513143668), (2168203, 0), (695967, 0), (15298, 0)], [(8082398, 0), (219914,
    0), (14473, 0), (732, 0), (0, 15)], [(0, 878), (17, 0), (5, 0)]], 3, 4⟩, 1099511627776, 0, 246503061,
    ⟨[[(66451984261615, 0), (106584680589, 0), (261662642, 0), (546191, 0), (2241, 0)], [(15282762016, 0), (38331194,
    0), (0, 60616), (2148, 0), (39, 0)], [(0, 7948966), (0, 20153), (51, 0), (7, 0)], [(5492, 0), (0, 24)]], 3, 4⟩,
    68719476736, 33542045,
    2860539191795238337328919431395291476277943506781936150092478219671942697942785475147735835795, ⟨0, 6,
    345394275063875, [26834035703, 4684713, 1090]⟩⟩) (.leaf ⟨925, 16, 10, 862, 16, 442, ⟨[[], [(343597383680, 0)]],
    3, 4⟩, ⟨[[(0, 406385576008), (0, 4831598158590), (0, 17612468489), (0, 128027219), (9608671, 0)], [(0,
    47651045699), (0, 469391633), (5074681, 0), (835768, 0), (10884, 0)], [(7815895, 0), (224209, 0), (15906, 0),
    (738, 0), (0, 31)], [(0, 849), (16, 0), (5, 0)]], 3, 4⟩, 1099511627776, 0, 342172054, ⟨[[(66471460101442, 0),
    (105879340573, 0), (253857156, 0), (567525, 0), (3149, 0)], [(14669664788, 0), (37726371, 0), (0, 86159), (1900,
    0), (43, 0)], [(0, 7352237), (0, 22425), (0, 69), (6, 0)], [(5947, 0), (0, 26), (0, 1)]], 3, 4⟩, 68719476736,
    41875033, 3443817433471080015721374854929395348716422119725604876513971607832584560931526092794875429333, ⟨0, 7,
    347142718578342, [25905133753, 4375867, 986]⟩⟩)) (.sx (.leaf ⟨895, 16, 10, 801, 16, 422, ⟨[[], [(343597383680,
    0)]], 3, 4⟩, ⟨[[(172014148024, 0), (0, 4791811677601), (0, 20325932935), (0, 244471586), (0, 10415293)], [(0,
    49663026016), (0, 393668948), (12466784, 0), (238219, 0), (0, 41875)], [(9552724, 0), (410903, 0), (14137, 0),
    (0, 1154), (0, 124)], [(0, 648), (11, 0), (0, 14), (0, 3)]], 3, 4⟩, 1099511627776, 0, 370747662,
    ⟨[[(63742118682814, 0), (98097925718, 0), (247156298, 0), (470476, 0), (400, 0)], [(14173082343, 0), (45962678,
    0), (0, 112254), (0, 792), (17, 0)], [(0, 7444857), (0, 16867), (0, 73), (0, 3)], [(5800, 0), (3, 0), (0, 1)]],
    3, 4⟩, 68719476736, 36111545,
    2483017722002869954917565512497593726833220949229899051406784733181237754267529912278182157102, ⟨0, 6,
    329021183017957, [25561993379, 4462639, 1039]⟩⟩) (.leaf ⟨925, 16, 10, 797, 16, 422, ⟨[[], [(343597383680, 0)]],
    3, 4⟩, ⟨[[(0, 110129471287), (0, 4825813421476), (0, 19012419538), (0, 234591402), (0, 15675843)], [(0,
    47846996490), (0, 314728495), (14741437, 0), (0, 58115), (0, 68615)], [(9363310, 0), (410024, 0), (9240, 0), (0,
    1957), (0, 152)], [(0, 667), (0, 17), (0, 20), (0, 3)]], 3, 4⟩, 1099511627776, 0, 585977882, ⟨[[(63766793292512,
    0), (97533145614, 0), (238456380, 0), (432839, 0), (428, 0)], [(13560626243, 0), (45853049, 0), (0, 104541), (0,
    1261), (14, 0)], [(0, 6844956), (0, 15696), (0, 77), (0, 4)], [(6148, 0), (11, 0), (0, 1)]], 3, 4⟩, 68719476736,
    46067729, 2407569587470928111549255308765273525121899798098990242930700958187441154025958076881911016182, ⟨0, 7,
    331434903258055, [24732955755, 4177864, 941]⟩⟩))) (.sy (.sy (.sx (.leaf ⟨955, 16, 10, 1548, 16, 792, ⟨[[],
    [(343597383680, 0)]], 3, 4⟩, ⟨[[(475212126518, 0), (0, 4322040260306), (0, 7445836975), (0, 27074502), (1747171,
    0)], [(0, 81564217198), (0, 398028030), (1810010, 0), (198540, 0), (2791, 0)], [(13023620, 0), (162995, 0),
    (6175, 0), (201, 0), (0, 1)], [(0, 1500), (1, 0), (2, 0)]], 3, 4⟩, 1099511627776, 0, 21753926,
    ⟨[[(67110273009664, 0), (60248383639, 0), (79391756, 0), (115831, 0), (472, 0)], [(14314332680, 0), (20083518,
    0), (0, 24170), (471, 0), (5, 0)], [(0, 6824892), (0, 14031), (0, 25), (1, 0)], [(6901, 0), (0, 15)]], 3, 4⟩,
    68719476736, 14194747,
    1792169460318195187031065352344851793515812893771930058862054482505314392920888306586567992935, ⟨0, 7,
    626414902013090, [44960083835, 7356035, 1605]⟩⟩) (.leaf ⟨985, 16, 10, 1541, 16, 792, ⟨[[], [(343597383680, 0)]],
    3, 4⟩, ⟨[[(460336372695, 0), (0, 4358747962853), (0, 7212865994), (0, 6116432), (1998478, 0)], [(0, 79104772264),
    (0, 366702033), (3068571, 0), (238527, 0), (2390, 0)], [(12597632, 0), (163441, 0), (6958, 0), (215, 0), (0, 3)],
    [(0, 1458), (3, 0), (3, 0)]], 3, 4⟩, 1099511627776, 0, 25064469, ⟨[[(67111702166649, 0), (59755361187, 0),
    (76064765, 0), (114082, 0), (580, 0)], [(13789033793, 0), (19644106, 0), (0, 36264), (390, 0), (6, 0)], [(0,
    6023946), (0, 14445), (0, 75), (1, 0)], [(8805, 0), (0, 8)]], 3, 4⟩, 68719476736, 14606310,
    3589605426638005200515749224949982748466349270554419409521139174816554808122238201963074529339, ⟨0, 7,
    630664663968573, [43590741180, 6914775, 1463]⟩⟩)) (.leaf ⟨776, 25, 8, 1204, 16, 627, ⟨[[], [(549755813888, 0)]],
    3, 4⟩, ⟨[[(110666109650, 0), (0, 3506619573422), (0, 5818935444), (6779257, 0), (0, 60138)], [(0, 130596893092),
    (0, 520450279), (10275839, 0), (323809, 0), (0, 7416)], [(44533733, 0), (823795, 0), (28691, 0), (59, 0), (0,
    47)], [(0, 8698), (200, 0), (9, 0), (0, 1)]], 3, 4⟩, 1099511627776, 0, 155025413, ⟨[[(65735254899281, 0),
    (71352085654, 0), (113435031, 0), (152773, 0), (803, 0)], [(16943584173, 0), (34300061, 0), (0, 87932), (0, 16),
    (12, 0)], [(0, 9601985), (0, 21190), (0, 221)], [(15411, 0), (3, 0), (0, 1)]], 3, 4⟩, 68719476736, 1070355468,
    3004874758917507264747305832021640033660425714518515212286419989461812878792543507916444859958, ⟨0, 7,
    497607002067429, [70085972611, 22579244, 9699]⟩⟩)) (.sx (.leaf ⟨955, 16, 10, 795, 16, 423, ⟨[[], [(343597383680,
    0)]], 3, 4⟩, ⟨[[(0, 353096205976), (0, 4863768878584), (0, 17573144797), (0, 261577921), (0, 23756528)], [(0,
    46176996706), (0, 237322082), (15927657, 0), (0, 521757), (0, 98925)], [(9190792, 0), (401655, 0), (2404, 0), (0,
    2878), (0, 156)], [(0, 681), (0, 47), (0, 27), (0, 3)]], 3, 4⟩, 1099511627776, 0, 996130563, ⟨[[(63787483718304,
    0), (96857753670, 0), (229654849, 0), (379850, 0), (184, 0)], [(12991244796, 0), (45625363, 0), (0, 91128), (0,
    1732), (9, 0)], [(0, 6202595), (0, 13533), (0, 71), (0, 6)], [(6932, 0), (25, 0), (0, 1)]], 3, 4⟩, 68719476736,
    57724699, 4979053205760106656848863284661729624382394720550052011390943081209119377175021972702060710085, ⟨0, 7,
    334562504484264, [24012772048, 3928791, 857]⟩⟩) (.sy (.leaf ⟨985, 16, 10, 1438, 16, 763, ⟨[[], [(343597383680,
    0)]], 3, 4⟩, ⟨[[(276545579579, 0), (0, 4362074543703), (0, 6756564677), (0, 30513341), (0, 3542668)], [(0,
    79637371433), (0, 193506744), (8557123, 0), (0, 75259), (0, 15650)], [(15182681, 0), (342142, 0), (3805, 0), (0,
    595), (0, 27)], [(0, 1125), (1, 0), (0, 8), (0, 1)]], 3, 4⟩, 1099511627776, 0, 38040829, ⟨[[(64390361282446, 0),
    (55008942820, 0), (70383259, 0), (56073, 0), (94, 0)], [(12737831946, 0), (24634668, 0), (0, 34026), (0, 338),
    (1, 0)], [(0, 5543159), (0, 6199), (0, 54), (0, 1)], [(8458, 0), (22, 0)]], 3, 4⟩, 68719476736, 14199947,
    3948639383795328416264803773417908908052604231395553857327731573323987067032676354454774561694, ⟨0, 7,
    607572144707098, [41994615556, 6661582, 1409]⟩⟩) (.leaf ⟨985, 16, 10, 1388, 16, 749, ⟨[[], [(343597383680, 0)]],
    3, 4⟩, ⟨[[(293795721513, 0), (0, 4368082684575), (0, 7967091816), (0, 112384214), (0, 1814225)], [(0,
    79049236465), (0, 110075815), (3995176, 0), (0, 361782), (0, 1082)], [(16898709, 0), (299985, 0), (0, 10365), (0,
    752), (33, 0)], [(0, 1540), (0, 168), (0, 18)]], 3, 4⟩, 1099511627776, 0, 126144760, ⟨[[(63107023291733, 0),
    (52685642790, 0), (68818727, 0), (64943, 0), (0, 221)], [(12130517019, 0), (26124969, 0), (0, 8301), (0, 357),
    (0, 2)], [(0, 5409707), (0, 5629), (25, 0), (0, 1)], [(7801, 0), (32, 0)]], 3, 4⟩, 68719476736, 13914970,
    3599747908212871740595629144124695549196629130337779854830954632169280193774217586871116859324, ⟨0, 7,
    596424031960178, [41224072152, 6539352, 1383]⟩⟩)))))
theorem c53 : checkC job ⟨6, 8, 7, 8, 9, 13⟩ 1 25 lims t53 352 48 4 9 3 128 = true := by decide +kernel

def t54 : CTree :=
  .sy (.sx (.sx (.leaf ⟨775, 16, 10, 749, 16, 398, ⟨[[], [(343597383680, 0)]], 3, 4⟩, ⟨[[(0, 184418368609), (0,
    4620858191204), (0, 28601630587), (0, 342171346), (19036198, 0)], [(0, 57888329063), (0, 617734668), (9156941,
    0), (1159754, 0), (80962, 0)], [(12379534, 0), (579808, 0), (25254, 0), (523, 0), (0, 5)], [(0, 180), (27, 0),
    (0, 19), (0, 2)]], 3, 4⟩, 1099511627776, 0, 882125297, ⟨[[(61304886889566, 0), (94207218727, 0), (280027507, 0),
    (665198, 0), (0, 1277)], [(15872201081, 0), (54852023, 0), (0, 115054), (0, 531), (6, 0)], [(0, 9589765), (0,
    21963), (72, 0), (0, 2)], [(7418, 0), (20, 0)]], 3, 4⟩, 68719476736, 13702074,
    3174956027123223732824773275739138966367219975382669304701179393926285971955345189615744498850, ⟨0, 6,
    300369172012849, [27841118060, 5613129, 1509]⟩⟩) (.leaf ⟨805, 16, 10, 742, 16, 397, ⟨[[], [(343597383680, 0)]],
    3, 4⟩, ⟨[[(13725032647, 0), (0, 4663068517309), (0, 27439706098), (0, 227441035), (26627833, 0)], [(0,
    55378972783), (0, 505276264), (13352026, 0), (1194457, 0), (77905, 0)], [(12263962, 0), (572099, 0), (18210, 0),
    (0, 130), (0, 19)], [(0, 422), (0, 73), (0, 30), (0, 2)]], 3, 4⟩, 1099511627776, 0, 1121473454,
    ⟨[[(61288091846896, 0), (93280738041, 0), (267848578, 0), (675354, 0), (0, 1202)], [(15038373892, 0), (54802923,
    0), (0, 99840), (0, 803), (4, 0)], [(0, 8850266), (0, 21297), (113, 0), (0, 3)], [(6593, 0), (17, 0)]], 3, 4⟩,
    68719476736, 17824883,
    4129386616128182727289836722593478030360617365102524273420786335299611687012514116685015727266, ⟨0, 6,
    302230201000199, [26736215234, 5189483, 1343]⟩⟩)) (.sy (.leaf ⟨680, 25, 8, 1040, 16, 557, ⟨[[], [(549755813888,
    0)]], 3, 4⟩, ⟨[[(195218775439, 0), (0, 3261658798274), (0, 8599898249), (0, 41749934), (1762030, 0)], [(0,
    144024386203), (0, 549788496), (8972079, 0), (219395, 0), (9901, 0)], [(63009426, 0), (1377705, 0), (9812, 0),
    (0, 689), (9, 0)], [(0, 7479), (0, 693), (0, 94), (0, 2)]], 3, 4⟩, 1099511627776, 0, 396831185,
    ⟨[[(61876488672724, 0), (67935012044, 0), (133182405, 0), (230177, 0), (0, 281)], [(17800948619, 0), (47316075,
    0), (0, 55585), (0, 507), (1, 0)], [(0, 12500746), (0, 21772), (89, 0), (0, 2)], [(11429, 0), (17, 0)]], 3, 4⟩,
    68719476736, 992661326,
    2686268741175840340517193625622474574043925935505254588761268227275889786935828820369664542397, ⟨0, 6,
    429291904554863, [71051224584, 26121774, 12805]⟩⟩) (.leaf ⟨680, 25, 8, 996, 16, 543, ⟨[[], [(549755813888, 0)]],
    3, 4⟩, ⟨[[(441890627246, 0), (0, 3282543934893), (0, 8533635858), (33640552, 0), (3917889, 0)], [(0,
    143244015748), (0, 397575055), (15247090, 0), (506236, 0), (7566, 0)], [(69704574, 0), (1400693, 0), (1729, 0),
    (0, 157), (14, 0)], [(0, 14849), (0, 1815), (0, 75), (5, 0)]], 3, 4⟩, 1099511627776, 0, 648478608,
    ⟨[[(60675138675110, 0), (64926968299, 0), (126084116, 0), (278941, 0), (0, 543)], [(16918554016, 0), (50108372,
    0), (0, 30558), (0, 435), (0, 4)], [(0, 12059707), (0, 27668), (194, 0), (0, 1)], [(11100, 0), (18, 0)]], 3, 4⟩,
    68719476736, 952333965,
    2383408942947279631055021256958085170079801553006699498271440355058423172838507461214158426033, ⟨0, 6,
    418501802824579, [69265376928, 25465212, 12483]⟩⟩))) (.sx (.sy (.sx (.leaf ⟨775, 16, 10, 1197, 16, 653, ⟨[[],
    [(343597383680, 0)]], 3, 4⟩, ⟨[[(0, 342649244409), (0, 4010602172405), (0, 12149947419), (43394300, 0), (1995316,
    0)], [(0, 99007050227), (0, 358901594), (13318846, 0), (331038, 0), (0, 16870)], [(25468671, 0), (663310, 0),
    (6885, 0), (0, 763), (0, 65)], [(0, 1128), (0, 267), (0, 28), (0, 1)]], 3, 4⟩, 1099511627776, 0, 174017391,
    ⟨[[(59574680693207, 0), (51267317972, 0), (88519690, 0), (173815, 0), (0, 188)], [(14767196344, 0), (35724532,
    0), (0, 28798), (0, 143), (0, 1)], [(0, 9117443), (0, 16780), (76, 0)], [(7043, 0), (10, 0)]], 3, 4⟩,
    68719476736, 10180651,
    3572853464421642727615195807669561487957915806879269145314574250254297681350586264885077671107, ⟨0, 6,
    492816757096458, [45679020334, 9209480, 2476]⟩⟩) (.leaf ⟨805, 16, 10, 1201, 16, 660, ⟨[[], [(343597383680, 0)]],
    3, 4⟩, ⟨[[(0, 6584297646), (0, 4082508043456), (0, 10947676262), (68140120, 0), (0, 206962)], [(0, 95170512696),
    (0, 242664969), (14064163, 0), (166379, 0), (0, 28915)], [(25210240, 0), (575401, 0), (0, 316), (0, 920), (0,
    54)], [(0, 2542), (0, 374), (0, 20)]], 3, 4⟩, 1099511627776, 0, 248136434, ⟨[[(59559057300661, 0), (50291356215,
    0), (81436668, 0), (171227, 0), (0, 215)], [(13933201143, 0), (34757092, 0), (0, 19839), (0, 119), (0, 1)], [(0,
    8369521), (0, 17230), (85, 0)], [(6296, 0), (8, 0)]], 3, 4⟩, 68719476736, 9832041,
    3440965837967077037846424053663978536971504575431861975703278565038526154761325773412615582474, ⟨0, 6,
    502448193098567, [44448116007, 8627352, 2233]⟩⟩)) (.sx (.leaf ⟨775, 16, 10, 1142, 16, 635, ⟨[[], [(343597383680,
    0)]], 3, 4⟩, ⟨[[(44731715804, 0), (0, 4037648837133), (0, 11357256109), (0, 38878047), (0, 9063674)], [(0,
    97870036762), (0, 183268343), (11965429, 0), (0, 527962), (0, 31290)], [(28633093, 0), (591608, 0), (0, 18150),
    (0, 1270), (156, 0)], [(0, 3776), (0, 626), (0, 17), (5, 0), (1, 0)]], 3, 4⟩, 1099511627776, 0, 517950235,
    ⟨[[(58457848324449, 0), (48884503912, 0), (80513240, 0), (207879, 0), (0, 219)], [(13945532142, 0), (37887807,
    0), (0, 22903), (0, 58), (0, 2)], [(0, 8696522), (0, 21009), (81, 0)], [(6841, 0), (8, 0)]], 3, 4⟩, 68719476736,
    9849254, 4825782962091614152931369189884091045157546481882264053016639899649909934777412243225618278846, ⟨0, 6,
    479232221678791, [44419874291, 8955620, 2407]⟩⟩) (.leaf ⟨805, 16, 10, 1152, 16, 645, ⟨[[], [(343597383680, 0)]],
    3, 4⟩, ⟨[[(0, 454990637375), (0, 4114097149262), (0, 10541913331), (0, 96611635), (0, 9936029)], [(0,
    93947875171), (0, 86864590), (8682658, 0), (0, 571828), (26770, 0)], [(27765048, 0), (445357, 0), (0, 14404),
    (1275, 0), (477, 0)], [(0, 5106), (0, 385), (51, 0), (13, 0), (1, 0)]], 3, 4⟩, 1099511627776, 0, 1122672349,
    ⟨[[(58480360273837, 0), (48028844238, 0), (72616343, 0), (205787, 0), (0, 279)], [(13152407818, 0), (36359988,
    0), (0, 17851), (58, 0), (0, 3)], [(0, 7946831), (0, 21095), (58, 0), (1, 0)], [(6133, 0), (8, 0)]], 3, 4⟩,
    68719476736, 9695335,
    4726988680013670833392773272451280472957637157450755128104125671743460760252704221760318100143, ⟨0, 6,
    491028915982691, [43437931552, 8431276, 2182]⟩⟩))) (.sy (.sx (.leaf ⟨835, 16, 10, 1207, 16, 668, ⟨[[],
    [(343597383680, 0)]], 3, 4⟩, ⟨[[(387967289457, 0), (0, 4150543368320), (0, 9730834239), (77109409, 0), (0,
    3431346)], [(0, 91507981926), (0, 144370028), (13784084, 0), (11208, 0), (0, 36732)], [(24595449, 0), (473482,
    0), (0, 3271), (0, 620), (0, 20)], [(0, 3744), (0, 350), (2, 0), (2, 0)]], 3, 4⟩, 1099511627776, 0, 353449735,
    ⟨[[(59541464374396, 0), (49388363103, 0), (74727340, 0), (170789, 0), (0, 281)], [(13161254001, 0), (33562937,
    0), (0, 12191), (0, 42), (0, 2)], [(0, 7680318), (0, 17823), (81, 0)], [(5737, 0), (7, 0)]], 3, 4⟩, 68719476736,
    10681827, 3575861052454483799955007457909130841469300655956146463213900725363356844232047322664472747307, ⟨0, 6,
    512778686454356, [43370585922, 8115753, 2025]⟩⟩) (.leaf ⟨865, 16, 10, 1216, 16, 677, ⟨[[], [(343597383680, 0)]],
    3, 4⟩, ⟨[[(0, 299103852337), (0, 4216367314342), (0, 8542204953), (75510020, 0), (0, 7115730)], [(0,
    88066539492), (0, 62474336), (13695095, 0), (0, 42752), (0, 37493)], [(23739355, 0), (403633, 0), (2010, 0), (95,
    0), (12, 0)], [(0, 4305), (0, 144), (34, 0), (3, 0)]], 3, 4⟩, 1099511627776, 0, 499436294, ⟨[[(59572309968008,
    0), (48683505971, 0), (68796641, 0), (174004, 0), (0, 390)], [(12482249993, 0), (32187231, 0), (0, 8003), (91,
    0), (0, 4)], [(0, 7052755), (0, 17977), (60, 0), (1, 0)], [(5360, 0), (8, 0)]], 3, 4⟩, 68719476736, 10426765,
    3711176919839338703611300652106440162831793896046909364397692106236395575760744231943387609477, ⟨0, 6,
    523833019240276, [42430472065, 7664464, 1846]⟩⟩)) (.sy (.sx (.leaf ⟨835, 16, 10, 1867, 16, 1048, ⟨[[],
    [(343597383680, 0)]], 3, 4⟩, ⟨[[(269753857812, 0), (0, 3322746695003), (0, 3770622508), (0, 17055040), (0,
    1088154)], [(0, 144168635918), (0, 26524651), (3734851, 0), (0, 90584), (3292, 0)], [(41747130, 0), (327592, 0),
    (0, 1639), (374, 0), (47, 0)], [(0, 7833), (0, 86), (28, 0), (2, 0)]], 3, 4⟩, 1099511627776, 0, 131368596,
    ⟨[[(58724209450080, 0), (29961859468, 0), (26617530, 0), (49696, 0), (0, 56)], [(12588311174, 0), (21667892, 0),
    (0, 6084), (43, 0), (0, 1)], [(0, 7357982), (0, 12684), (13, 0)], [(5613, 0), (6, 0)]], 3, 4⟩, 68719476736,
    9066720, 2473679277611281036959034912997642028596703802985530490771778718966569392305019232095400646924, ⟨0, 6,
    804479136832583, [68042476117, 12732499, 3177]⟩⟩) (.leaf ⟨865, 16, 10, 1897, 16, 1072, ⟨[[], [(343597383680,
    0)]], 3, 4⟩, ⟨[[(530560364136, 0), (0, 3398345030078), (0, 3476771716), (0, 20845154), (0, 249643)], [(0,
    139481807430), (38482143, 0), (4429960, 0), (41820, 0), (15611, 0)], [(40592150, 0), (366896, 0), (8441, 0),
    (995, 0), (79, 0)], [(0, 6313), (288, 0), (36, 0), (2, 0)]], 3, 4⟩, 1099511627776, 0, 232553281,
    ⟨[[(58717801704478, 0), (29294807219, 0), (23365793, 0), (51790, 0), (0, 78)], [(11899715941, 0), (20626998, 0),
    (0, 8523), (106, 0), (0, 1)], [(0, 6718448), (0, 11747), (0, 16), (1, 0)], [(5165, 0), (9, 0)]], 3, 4⟩,
    68719476736, 8682651,
    3107967880510907318046722340081946850637952504458266636478596884752224063478621436454025011353, ⟨0, 6,
    829466760155947, [67186803625, 12136345, 2923]⟩⟩)) (.sx (.leaf ⟨835, 16, 10, 1833, 16, 1039, ⟨[[],
    [(343597383680, 0)]], 3, 4⟩, ⟨[[(117404214208, 0), (0, 3341481550285), (0, 4141685544), (0, 15109050), (2198663,
    0)], [(0, 142964261676), (16441343, 0), (4640263, 0), (330692, 0), (37446, 0)], [(43441563, 0), (404657, 0),
    (21700, 0), (2642, 0), (149, 0)], [(0, 6665), (589, 0), (97, 0), (6, 0)]], 3, 4⟩, 1099511627776, 0, 360016636,
    ⟨[[(58189673275692, 0), (29299077203, 0), (24214616, 0), (55431, 0), (0, 65)], [(12193319907, 0), (22135813, 0),
    (0, 9855), (94, 0), (0, 1)], [(0, 7126642), (0, 12784), (0, 16), (1, 0)], [(5482, 0), (9, 0)]], 3, 4⟩,
    68719476736, 8737795,
    3938293804521146787884409288689794161970779198926284202700976441951096790945065791259744021130, ⟨0, 6,
    797570441955204, [67458141876, 12623155, 3149]⟩⟩) (.leaf ⟨865, 16, 10, 1865, 16, 1064, ⟨[[], [(343597383680,
    0)]], 3, 4⟩, ⟨[[(0, 220220479585), (0, 3415774576027), (0, 3488394734), (47319474, 0), (7495704, 0)], [(0,
    138013082296), (118576473, 0), (11897336, 0), (1022339, 0), (72247, 0)], [(43121238, 0), (664914, 0), (51819, 0),
    (4331, 0), (194, 0)], [(0, 2779), (983, 0), (89, 0), (4, 0)]], 3, 4⟩, 1099511627776, 0, 531463905,
    ⟨[[(58198398271910, 0), (28721109803, 0), (20723440, 0), (59057, 0), (0, 90)], [(11525429814, 0), (21215736, 0),
    (0, 16264), (177, 0), (0, 1)], [(0, 6516701), (0, 10509), (0, 61), (1, 0)], [(4943, 0), (16, 0)]], 3, 4⟩,
    68719476736, 8277746,
    4067371595152009989392803868322028147575835185339989207795154259194430199690168978404142395909, ⟨0, 6,
    823276709707022, [66685409568, 12045775, 2901]⟩⟩)))))
theorem c54 : checkC job ⟨6, 8, 7, 8, 9, 13⟩ 1 25 lims t54 656 48 8 15 3 128 = true := by decide +kernel

end PyX.Kron.S2c
