import Verif.Lemmas.P1hsJob

/-!
# Pressure from enthalpy and entropy in region 1, part H of the certificate
-/

namespace PyX.Kron.P1hs

set_option Elab.async false

def t38 : CTree :=
  .sy (.sx (.sy (.leaf ⟨1872, 16, 3852, 2406, 16, 4744, ⟨[[(0, 58842870535159808), (86128584474264207, 0),
    (2633596551011, 0), (590415051, 0), (115164, 0)], [(20169297085153470, 0), (8956727161726, 0), (2425718642, 0),
    (682982, 0), (220, 0)], [(4250947911930, 0), (2856375497, 0), (1341344, 0), (621, 0)], [(981962376, 0), (1054215,
    0), (820, 0), (1, 0)]], 3, 4⟩, ⟨[[(0, 237583316481998848), (79406782907127644, 0), (1748637907139, 0),
    (533020035, 0), (99497, 0)], [(30272137949177251, 0), (8257710185666, 0), (2165751478, 0), (605869, 0), (196,
    0)], [(4105623998329, 0), (2633453114, 0), (1214128, 0), (559, 0)], [(927256513, 0), (971940, 0), (748, 0), (1,
    0)]], 3, 4⟩, 1152921504606846976, 3216830962195426, 3030574239768205, ⟨[[(4149299422724964, 0), (0,
    179769914177452), (204739153122, 0), (407337195, 0), (389723, 0)], [(165748159410482, 0), (0, 314924653447), (0,
    729858697), (0, 507828), (0, 272)], [(97323990150, 0), (459894892, 0), (0, 2659), (0, 60)], [(0, 105125900),
    (227162, 0), (50, 0)]], 3, 4⟩, 281474976710656, 5511685702,
    3016676558159133551161436244856877797844635441455667788383724104070260112711098018281844006122404152801078763755940833752499819017060046865,
    lc0⟩) (.leaf ⟨1810, 16, 3672, 2336, 16, 4560, ⟨[[(0, 358813985107083264), (84089290064995989, 0), (3196191484410,
    0), (758899353, 0), (177621, 0)], [(22529960799463267, 0), (10438840870913, 0), (3190281549, 0), (1067126, 0),
    (409, 0)], [(5192370703268, 0), (3895470104, 0), (2175583, 0), (1192, 0), (1, 0)], [(1412347677, 0), (1817275,
    0), (1654, 0), (1, 0)]], 3, 4⟩, ⟨[[(0, 169151238919159808), (77710283042742436, 0), (2301484371138, 0),
    (683805295, 0), (155786, 0)], [(32159323910572277, 0), (9646951212099, 0), (2867297462, 0), (955108, 0), (366,
    0)], [(5002898154340, 0), (3599960044, 0), (1980328, 0), (1080, 0), (1, 0)], [(1332608487, 0), (1679416, 0),
    (1514, 0), (1, 0)]], 3, 4⟩, 1152921504606846976, 5106718933091293, 4820268416508083, ⟨[[(4203975968833228, 0),
    (0, 185337212779341), (233003005589, 0), (487064820, 0), (490376, 0)], [(171252691464633, 0), (0, 355981972775),
    (0, 872059886), (0, 636003), (0, 356)], [(110218376344, 0), (547488487, 0), (0, 3724), (0, 80)], [(0, 124668230),
    (280396, 0), (65, 0)]], 3, 4⟩, 281474976710656, 6795384680,
    3500657743911546305608153379227537342813115189412130461331686651994724911018713000432298687285413721819575741272432654344893506002188064785,
    lc0⟩)) (.sy (.leaf ⟨1800, 16, 3695, 2320, 16, 4562, ⟨[[(0, 77686550764978176), (84874120280128342, 0),
    (3178158944472, 0), (769356945, 0), (183879, 0)], [(21504344158082124, 0), (10129763657256, 0), (3127581492, 0),
    (1071012, 0), (423, 0)], [(4879245340546, 0), (3701842817, 0), (2122875, 0), (1202, 0), (1, 0)], [(1302388231,
    0), (1729479, 0), (1628, 0), (1, 0)]], 3, 4⟩, ⟨[[(0, 207277580126519296), (78445496095068371, 0), (2266237730009,
    0), (693757285, 0), (161295, 0)], [(31195203302000873, 0), (9362504527848, 0), (2810581200, 0), (958844, 0),
    (379, 0)], [(4705755160738, 0), (3421453975, 0), (1932807, 0), (1089, 0), (1, 0)], [(1229178411, 0), (1598483,
    0), (1491, 0), (1, 0)]], 3, 4⟩, 1152921504606846976, 4535897110415554, 4282553027274834, ⟨[[(3715112211653958,
    0), (0, 185598120430257), (226587926262, 0), (467095963, 0), (465477, 0)], [(171536642837025, 0), (0,
    347365809063), (0, 834165462), (0, 604407), (0, 337)], [(107522214996, 0), (523164896, 0), (0, 3742), (0, 75)],
    [(0, 119008403), (269162, 0), (62, 0)]], 3, 4⟩, 281474976710656, 6539085200,
    7031766183755354547439965280209570662575241596381048805367124491770444204955656426579174691303463418836450321036889166447709832046347454252,
    lc0⟩) (.sx (.leaf ⟨1924, 16, 3895, 2576, 16, 5018, ⟨[[(0, 554741332493205504), (91354811719055489, 0),
    (4092675109162, 0), (1061004835, 0), (293547, 0)], [(13030534569316817, 0), (6397939707927, 0), (2216525052, 0),
    (873091, 0), (378, 0)], [(1614385121492, 0), (1366467346, 0), (898360, 0), (553, 0)], [(254574201, 0), (385430,
    0), (387, 0)]], 3, 4⟩, ⟨[[(230362147093741568, 0), (87585105329069155, 0), (3188666669370, 0), (990816603, 0),
    (269334, 0)], [(18773892581694018, 0), (6133932221675, 0), (2073577537, 0), (814508, 0), (353, 0)],
    [(1608469769434, 0), (1310080818, 0), (850294, 0), (521, 0)], [(248537458, 0), (369526, 0), (368, 0)]], 3, 4⟩,
    1152921504606846976, 316152744459594, 308246907103114, ⟨[[(3957692501408627, 0), (0, 167587268615641),
    (195564478061, 0), (370903927, 0), (339848, 0)], [(160602302159807, 0), (0, 308690484375), (0, 686229302), (0,
    455338), (0, 232)], [(99064065410, 0), (444768200, 0), (0, 3051), (0, 54)], [(0, 104551297), (214516, 0), (45,
    0)]], 3, 4⟩, 281474976710656, 5305013365,
    5768413722616679764760755188020032170675697515343779320553764067656606266416435287822966852520639015764310359277242459569372200979338358686,
    lc0⟩) (.leaf ⟨1881, 16, 3804, 2522, 16, 4905, ⟨[[(384701956701814784, 0), (90816558170601203, 0), (4578220304689,
    0), (1278585438, 0), (395362, 0)], [(13536494160070652, 0), (6968544475064, 0), (2665168602, 0), (1170341, 0),
    (540, 0)], [(1780232170622, 0), (1659280354, 0), (1211688, 0), (788, 0)], [(316198634, 0), (527844, 0), (554,
    0)]], 3, 4⟩, ⟨[[(140079250605080576, 0), (87144338357870124, 0), (3661670374584, 0), (1195138557, 0), (364780,
    0)], [(19158270558460975, 0), (6686767367417, 0), (2501277055, 0), (1095734, 0), (504, 0)], [(1770967666298, 0),
    (1592186397, 0), (1149329, 0), (744, 0)], [(308400451, 0), (506500, 0), (527, 0)]], 3, 4⟩, 1152921504606846976,
    394028313612247, 384264679767087, ⟨[[(3592386023977948, 0), (0, 170428422430271), (208044602893, 0), (402163698,
    0), (377176, 0)], [(163547592264256, 0), (0, 327412884298), (0, 741437087), (0, 503632), (0, 263)],
    [(105119437881, 0), (478397229, 0), (0, 3788), (0, 62)], [(0, 111944025), (236284, 0), (51, 0)]], 3, 4⟩,
    281474976710656, 5842310471,
    8454333270771914148577886842730875460376308769805155807205588511933664749724421893301604588401467384848279157565696171237042575599237236524,
    lc0⟩)))) (.sx (.sy (.sx (.leaf ⟨1942, 16, 3887, 2603, 16, 5035, ⟨[[(0, 454111205373247488), (90893796829753274,
    0), (4107806468335, 0), (1041338657, 0), (280349, 0)], [(13665195590720157, 0), (6595405545358, 0), (2247174493,
    0), (858995, 0), (361, 0)], [(1716873141909, 0), (1426565867, 0), (907686, 0), (542, 0)], [(273010559, 0),
    (398644, 0), (389, 0)]], 3, 4⟩, ⟨[[(531283536799858688, 0), (87109870810314436, 0), (3219440629127, 0),
    (971631906, 0), (257047, 0)], [(19413032025827210, 0), (6320837560285, 0), (2101571566, 0), (800812, 0), (337,
    0)], [(1708871129747, 0), (1367177659, 0), (858640, 0), (510, 0)], [(266449374, 0), (382048, 0), (370, 0)]], 3,
    4⟩, 1152921504606846976, 319246899357356, 311226313498642, ⟨[[(4427636031302738, 0), (0, 166655011013724),
    (199510428836, 0), (382152891, 0), (352271, 0)], [(159643348067395, 0), (0, 313852058983), (0, 708432236), (0,
    471245), (0, 240)], [(100714037054, 0), (459298831, 0), (0, 3054), (0, 57)], [(0, 108018939), (219704, 0), (47,
    0)]], 3, 4⟩, 281474976710656, 5416971127,
    1978319174624535292134207286398769313879511115910432206217194950522767882648006435971411669224472768871018101269650604482339267787740594308,
    lc0⟩) (.leaf ⟨1897, 16, 3792, 2547, 16, 4917, ⟨[[(45193862860505088, 0), (90316895538847873, 0), (4595729718081,
    0), (1253971997, 0), (377302, 0)], [(14192463948188674, 0), (7184370625249, 0), (2696926818, 0), (1149402, 0),
    (516, 0)], [(1892575554003, 0), (1726942154, 0), (1221432, 0), (774, 0)], [(337545408, 0), (544724, 0), (557,
    0)]], 3, 4⟩, ⟨[[(0, 560633648150216704), (86646110250249667, 0), (3695405689424, 0), (1171376658, 0), (347943,
    0)], [(19815177888581382, 0), (6892373409867, 0), (2530555283, 0), (1075612, 0), (482, 0)], [(1881276195066, 0),
    (1656753361, 0), (1158145, 0), (730, 0)], [(329183619, 0), (522585, 0), (530, 0)]], 3, 4⟩, 1152921504606846976,
    397717799611646, 387884455883281, ⟨[[(3978664881514686, 0), (0, 169357230163708), (213524318603, 0), (416863070,
    0), (393728, 0)], [(162506740582021, 0), (0, 334656009478), (0, 769299995), (0, 524431), (0, 274)],
    [(107442330914, 0), (495939586, 0), (0, 3943), (0, 65)], [(0, 115974431), (243213, 0), (53, 0)]], 3, 4⟩,
    281474976710656, 5992960526,
    4294876961348301666450354019721272607056931126089756952826832310943530452199717356691289511332901038173663375421694913280923485747120003089,
    lc0⟩)) (.sx (.leaf ⟨1865, 16, 3680, 2509, 16, 4802, ⟨[[(0, 248421449612656640), (89190980633215397, 0),
    (5163894876954, 0), (1493021389, 0), (484136, 0)], [(15424362431898123, 0), (8102970592901, 0), (3304251801, 0),
    (1509951, 0), (695, 0)], [(2230113454897, 0), (2196561113, 0), (1654032, 0), (1068, 0), (1, 0)], [(449731026, 0),
    (764172, 0), (789, 0), (1, 0)]], 3, 4⟩, ⟨[[(0, 498102513261084672), (85617672272903607, 0), (4265095936564, 0),
    (1395866558, 0), (448342, 0)], [(20908449532669444, 0), (7778336730174, 0), (3109011467, 0), (1416739, 0), (651,
    0)], [(2211758170607, 0), (2108559051, 0), (1570725, 0), (1009, 0), (1, 0)], [(438178256, 0), (733557, 0), (752,
    0), (1, 0)]], 3, 4⟩, 1152921504606846976, 492450390173220, 482008953633786, ⟨[[(4249149803221534, 0), (0,
    172163967513630), (233175246560, 0), (471768260, 0), (460995, 0)], [(165270256762417, 0), (0, 363398752287), (0,
    869898611), (0, 611310), (0, 327)], [(116653059899, 0), (558887882, 0), (0, 4872), (0, 79)], [(0, 130308484),
    (279362, 0), (63, 0)]], 3, 4⟩, 281474976710656, 6864136523,
    2753013495250967123335200839139639522656401587484640396359449377674217313107511490722398731155976941784652318159505454244822157170039242884,
    lc0⟩) (.leaf ⟨1810, 16, 3565, 2437, 16, 4657, ⟨[[(0, 274477422178729984), (88439528309168924, 0), (5882967286301,
    0), (1869569465, 0), (668246, 0)], [(16072258931898161, 0), (9026835446503, 0), (4129878842, 0), (2073984, 0),
    (994, 0)], [(2526141189747, 0), (2774993272, 0), (2279258, 0), (1522, 0), (1, 0)], [(580837001, 0), (1062802, 0),
    (1122, 0), (1, 0)]], 3, 4⟩, ⟨[[(219781117064511488, 0), (84988714761532410, 0), (4966588314467, 0), (1751659756,
    0), (621568, 0)], [(21397410976340874, 0), (8674618212333, 0), (3898632001, 0), (1951924, 0), (932, 0)],
    [(2501380963273, 0), (2666716074, 0), (2168773, 0), (1439, 0), (1, 0)], [(565628304, 0), (1021333, 0), (1070, 0),
    (1, 0)]], 3, 4⟩, 1152921504606846976, 603572699919113, 590570233459154, ⟨[[(4141316476910547, 0), (0,
    176923685350153), (250643470617, 0), (522828750, 0), (527470, 0)], [(169959470293416, 0), (0, 389972577660), (0,
    962627400), (0, 698211), (0, 386)], [(125203611975, 0), (617151326, 0), (0, 5837), (0, 93)], [(0, 143599225),
    (318081, 0), (74, 0)]], 3, 4⟩, 281474976710656, 7822325846,
    5570848533209396945313192621675620083699803634025205001733598680979755788266307853230582577914562032096454854221576023722588400244175230993,
    lc0⟩))) (.sy (.sx (.leaf ⟨1849, 16, 3690, 2484, 16, 4788, ⟨[[(9218033984471040, 0), (89685966955486015, 0),
    (5185305419796, 0), (1541243932, 0), (515399, 0)], [(14765093461479132, 0), (7909442801223, 0), (3308419228, 0),
    (1562687, 0), (738, 0)], [(2114130615615, 0), (2141176861, 0), (1668584, 0), (1104, 0), (1, 0)], [(428226245, 0),
    (753275, 0), (796, 0), (1, 0)]], 3, 4⟩, ⟨[[(0, 170610001720639488), (86099466538607833, 0), (4268911137478, 0),
    (1441627044, 0), (477516, 0)], [(20243430421614008, 0), (7593147834838, 0), (3113586863, 0), (1466792, 0), (691,
    0)], [(2097570471137, 0), (2055552187, 0), (1584930, 0), (1043, 0), (1, 0)], [(417175435, 0), (723152, 0), (758,
    0), (1, 0)]], 3, 4⟩, 1152921504606846976, 489139386899837, 478606380922586, ⟨[[(3819704852844920, 0), (0,
    173262437573484), (227855916839, 0), (456433118, 0), (443218, 0)], [(166332709260461, 0), (0, 356307537533), (0,
    840488114), (0, 588925), (0, 316)], [(114381080531, 0), (540278157, 0), (0, 4696), (0, 75)], [(0, 125983160),
    (272045, 0), (61, 0)]], 3, 4⟩, 281474976710656, 6705224008,
    7074519582301676375950860498687552040812098950417169156323941985000668019669013081699301466227332823859956509254799182986873911958758223774,
    lc0⟩) (.leaf ⟨1796, 16, 3578, 2415, 16, 4648, ⟨[[(1278582826467328, 0), (88952718482115625, 0), (5911065097297,
    0), (1932664994, 0), (710869, 0)], [(15389523363339476, 0), (8819387898630, 0), (4145539945, 0), (2146152, 0),
    (1050, 0)], [(2399107573598, 0), (2714141588, 0), (2299042, 0), (1567, 0), (1, 0)], [(555235929, 0), (1046825,
    0), (1126, 0), (1, 0)]], 3, 4⟩, ⟨[[(528538670439333888, 0), (85493519976970334, 0), (4977148961416, 0),
    (1811685056, 0), (661492, 0)], [(20715429574029050, 0), (8476419027586, 0), (3914523926, 0), (2020585, 0), (985,
    0)], [(2376475102432, 0), (2608593892, 0), (2188155, 0), (1482, 0), (1, 0)], [(540669424, 0), (1006116, 0),
    (1074, 0), (1, 0)]], 3, 4⟩, 1152921504606846976, 599686268699700, 586717095607078, ⟨[[(3707066772985720, 0), (0,
    177901901098143), (244370503795, 0), (504142414, 0), (504920, 0)], [(170921366132795, 0), (0, 381531795022), (0,
    927099728), (0, 669808), (0, 370)], [(122513660847, 0), (594784002, 0), (0, 5592), (0, 88)], [(0, 138425522),
    (308536, 0), (71, 0)]], 3, 4⟩, 281474976710656, 7612168639,
    10413136940222045964240479921971842082945391475214121659100308139063747539720220116258074584598871400612539490871182227089422043204455663404,
    lc0⟩)) (.sx (.leaf ⟨1749, 16, 3438, 2357, 16, 4495, ⟨[[(0, 374299738244120576), (87568304491439519, 0),
    (6782864797979, 0), (2385040008, 0), (927549, 0)], [(16788028467359460, 0), (10204726168891, 0), (5263371148, 0),
    (2865360, 0), (1410, 0)], [(2912093760335, 0), (3574823283, 0), (3153885, 0), (2150, 0), (1, 0)], [(763644779,
    0), (1479062, 0), (1581, 0), (1, 0)]], 3, 4⟩, ⟨[[(0, 144479653991022592), (84224589890674770, 0), (5843210594212,
    0), (2239485551, 0), (865747, 0)], [(21928038444695861, 0), (9815068151785, 0), (4983074215, 0), (2703243, 0),
    (1324, 0)], [(2877903809250, 0), (3438321967, 0), (3005670, 0), (2036, 0), (1, 0)], [(743261971, 0), (1422586,
    0), (1509, 0), (1, 0)]], 3, 4⟩, 1152921504606846976, 746450439891967, 727424963119853, ⟨[[(3880245773699430, 0),
    (0, 182176341434411), (273678040583, 0), (590301955, 0), (617769, 0)], [(175167030806801, 0), (0, 424440530625),
    (0, 1083082918), (0, 814775), (0, 467)], [(136244332459, 0), (691281484, 0), (0, 7413), (0, 113)], [(0,
    160145834), (369145, 0), (89, 0)]], 3, 4⟩, 281474976710656, 9082894397,
    9021762504820973330197821531825214940302082961341619079375371480845453068735940799853914129261960958620733994281944925848452946224728240030,
    lc0⟩) (.skip))))
theorem c38 : checkC job ⟨6, 8, 6, 7, 9, 13⟩ 3 200 B1.zlims t38 7999 121 1280 7043 175 7584 = true := by decide +kernel

def t39 : CTree :=
  .sx (.sy (.sx (.leaf ⟨1983, 16, 3884, 2665, 16, 5085, ⟨[[(40768278594846720, 0), (90005667948001643, 0),
    (4045027907241, 0), (972976517, 0), (244896, 0)], [(14872672945666761, 0), (6892659034609, 0), (2245028913, 0),
    (798209, 0), (312, 0)], [(1905764686234, 0), (1511574521, 0), (889706, 0), (493, 0)], [(304985625, 0), (408701,
    0), (371, 0)]], 3, 4⟩, ⟨[[(338546436959371264, 0), (86201678105673868, 0), (3190300232161, 0), (906574941, 0),
    (224111, 0)], [(20650257445746239, 0), (6601348436592, 0), (2097782029, 0), (742935, 0), (290, 0)],
    [(1894098977086, 0), (1447689499, 0), (840620, 0), (463, 0)], [(297545351, 0), (391428, 0), (352, 0)]], 3, 4⟩,
    1152921504606846976, 321479842018824, 313333458436262, ⟨[[(5212391339119413, 0), (0, 163945491137020),
    (206868507925, 0), (402146249, 0), (373597, 0)], [(156998318740814, 0), (0, 323215217375), (0, 747149946), (0,
    497654), (0, 252)], [(103694498944, 0), (483637714, 0), (0, 3255), (0, 61)], [(0, 113642407), (227143, 0), (49,
    0)]], 3, 4⟩, 281474976710656, 5563771062,
    5492027744365192874570725784107451431503877210153696839439285385474487322034770383238552305114859460597943996486691928656772281663359956288,
    lc0⟩) (.leaf ⟨1935, 16, 3784, 2604, 16, 4959, ⟨[[(136542733049528320, 0), (89405775383667273, 0), (4526611693194,
    0), (1168219492, 0), (328373, 0)], [(15444623219320851, 0), (7506135005749, 0), (2679316610, 0), (1061160, 0),
    (448, 0)], [(2098146413143, 0), (1814461702, 0), (1187494, 0), (706, 0)], [(372460054, 0), (553758, 0), (534,
    0)]], 3, 4⟩, ⟨[[(0, 489205765743575040), (85712207365289212, 0), (3659719985027, 0), (1089664973, 0), (302264,
    0)], [(21087479498041974, 0), (7196038481445, 0), (2511547159, 0), (991465, 0), (418, 0)], [(2082756317628, 0),
    (1739501917, 0), (1124638, 0), (666, 0)], [(363130170, 0), (530881, 0), (508, 0)]], 3, 4⟩, 1152921504606846976,
    399926302358387, 389916162204322, ⟨[[(4859603933344353, 0), (0, 166946873293700), (221637953409, 0), (440279703,
    0), (419757, 0)], [(160094131225415, 0), (0, 345149136570), (0, 814751244), (0, 556962), (0, 290)],
    [(110758564645, 0), (524758812, 0), (0, 4145), (0, 70)], [(0, 122704462), (252901, 0), (56, 0)]], 3, 4⟩,
    281474976710656, 6192212387,
    4544621181441645956767281447388632391524554735752710066426900046007271389910644738227524912275291735767578935803007108029202093346323930547,
    lc0⟩)) (.sx (.leaf ⟨1905, 16, 3679, 2568, 16, 4851, ⟨[[(0, 350825218420768768), (88321769303116326, 0),
    (5005905489805, 0), (1356072233, 0), (408102, 0)], [(16670815483157648, 0), (8355908205965, 0), (3196527445, 0),
    (1348908, 0), (585, 0)], [(2433634340723, 0), (2241731829, 0), (1554487, 0), (946, 0)], [(480219821, 0), (750451,
    0), (734, 0), (1, 0)]], 3, 4⟩, ⟨[[(0, 38964662009593856), (84725489131307792, 0), (4142303719370, 0),
    (1265958681, 0), (377180, 0)], [(22184458950227130, 0), (8015672868341, 0), (3003952052, 0), (1263561, 0), (547,
    0)], [(2411336746267, 0), (2150453135, 0), (1474446, 0), (892, 0)], [(467842594, 0), (719894, 0), (698, 0)]], 3,
    4⟩, 1152921504606846976, 494948199214490, 484038544400264, ⟨[[(5213459609834007, 0), (0, 169602119058848),
    (240377307637, 0), (494617008, 0), (486835, 0)], [(162654768310561, 0), (0, 372619612232), (0, 914957039), (0,
    643499), (0, 343)], [(119514573802, 0), (587538088, 0), (0, 5063), (0, 84)], [(0, 137075830), (288171, 0), (65,
    0)]], 3, 4⟩, 281474976710656, 7036757804,
    5588688214009078435467279000339229573004876525850300561636236262112182612558088614702020186995951809960719216173893654920903503725861942592,
    lc0⟩) (.leaf ⟨1847, 16, 3560, 2492, 16, 4698, ⟨[[(0, 462682996410417152), (87559978833061783, 0), (5691758226345,
    0), (1689498021, 0), (563031, 0)], [(17360877566518646, 0), (9279832531583, 0), (3964122927, 0), (1848492, 0),
    (842, 0)], [(2742684792698, 0), (2803672633, 0), (2136463, 0), (1359, 0), (1, 0)], [(612840772, 0), (1042449, 0),
    (1054, 0), (1, 0)]], 3, 4⟩, ⟨[[(0, 452976187677343744), (84064667561878546, 0), (4809922937572, 0), (1580162687,
    0), (522678, 0)], [(22702269119707906, 0), (8909390422370, 0), (3736499980, 0), (1736760, 0), (789, 0)],
    [(2713051301502, 0), (2691752682, 0), (2030217, 0), (1284, 0), (1, 0)], [(596583612, 0), (1000836, 0), (1004, 0),
    (1, 0)]], 3, 4⟩, 1152921504606846976, 604952176760771, 591722865232450, ⟨[[(4947961710868317, 0), (0,
    173991467936772), (260843195488, 0), (553015518, 0), (562668, 0)], [(167021991157115, 0), (0, 403039417819), (0,
    1019210634), (0, 740934), (0, 408)], [(129240395558, 0), (651421421, 0), (0, 6412), (0, 100)], [(0, 151301502),
    (329937, 0), (78, 0)]], 3, 4⟩, 281474976710656, 8057522988,
    4523154461134997730399213290576415105065429074950698968945042365234599816458831679013012879295963571167344154841341813211700138663063035315,
    lc0⟩))) (.sy (.sx (.leaf ⟨1884, 16, 3677, 2537, 16, 4823, ⟨[[(0, 394695696986406912), (88754360631182787, 0),
    (5104386005726, 0), (1430707494, 0), (447886, 0)], [(16063873028244971, 0), (8253683983796, 0), (3266398334, 0),
    (1437558, 0), (643, 0)], [(2337421378584, 0), (2230115967, 0), (1615208, 0), (1014, 0), (1, 0)], [(467129568, 0),
    (763095, 0), (768, 0), (1, 0)]], 3, 4⟩, ⟨[[(0, 478070824300969984), (85162314697980314, 0), (4222277864903, 0),
    (1336507933, 0), (414363, 0)], [(21557041508485797, 0), (7919642796667, 0), (3071381217, 0), (1347672, 0), (602,
    0)], [(2316759207234, 0), (2139859230, 0), (1532864, 0), (957, 0)], [(455057675, 0), (732212, 0), (731, 0), (1,
    0)]], 3, 4⟩, 1152921504606846976, 494358310595473, 484548459963762, ⟨[[(4714259294908660, 0), (0,
    170936023032426), (237382215708, 0), (484599336, 0), (475672, 0)], [(164008314479154, 0), (0, 368813132722), (0,
    894743077), (0, 629551), (0, 337)], [(118335748691, 0), (574538498, 0), (0, 4998), (0, 82)], [(0, 133956125),
    (284629, 0), (64, 0)]], 3, 4⟩, 281474976710656, 6971188829,
    3364463131695829167543023900677475670645991873551145935276550309806490772238119102263448394569373301946459181232553989222617308000447170085,
    lc0⟩) (.leaf ⟨1827, 16, 3559, 2462, 16, 4673, ⟨[[(0, 469246247297613824), (87977296568705902, 0), (5808890737193,
    0), (1787305767, 0), (618181, 0)], [(16730663693320727, 0), (9180390651655, 0), (4067687437, 0), (1972873, 0),
    (923, 0)], [(2640988458955, 0), (2804256259, 0), (2223686, 0), (1451, 0), (1, 0)], [(600027486, 0), (1061079, 0),
    (1098, 0), (1, 0)]], 3, 4⟩, ⟨[[(229462177990311936, 0), (84503078469347071, 0), (4909202576822, 0), (1673099061,
    0), (574470, 0)], [(22058112382280577, 0), (8817857582271, 0), (3837109687, 0), (1855247, 0), (865, 0)],
    [(2613563448820, 0), (2693516349, 0), (2114507, 0), (1372, 0), (1, 0)], [(584180910, 0), (1019177, 0), (1046, 0),
    (1, 0)]], 3, 4⟩, 1152921504606846976, 605169873117992, 592075550329907, ⟨[[(4612016797114849, 0), (0,
    175804412305010), (255718164051, 0), (538772868, 0), (546540, 0)], [(168781959156441, 0), (0, 396600598309), (0,
    993160769), (0, 721949), (0, 399)], [(127254721981, 0), (636277703, 0), (0, 6021), (0, 97)], [(0, 148030861),
    (325283, 0), (76, 0)]], 3, 4⟩, 281474976710656, 7973723886,
    1899183812579770584334571201335130106255297115233539792515690620413494855446727965143489691918183199110080947190625908165239344710481505944,
    lc0⟩)) (.sx (.leaf ⟨1782, 16, 3428, 2407, 16, 4530, ⟨[[(0, 253377343596003328), (86649572103769878, 0),
    (6540858529439, 0), (2145355212, 0), (783089, 0)], [(18110145178737852, 0), (10442648820096, 0), (5016968002, 0),
    (2555927, 0), (1206, 0)], [(3140323435579, 0), (3581575410, 0), (2959386, 0), (1939, 0), (1, 0)], [(798680240,
    0), (1454724, 0), (1501, 0), (1, 0)]], 3, 4⟩, ⟨[[(279969447748829184, 0), (83304535793758114, 0), (5639647574461,
    0), (2011955622, 0), (730057, 0)], [(23268394758450853, 0), (10039518849234, 0), (4745112609, 0), (2408951, 0),
    (1132, 0)], [(3102405286241, 0), (3443311602, 0), (2818328, 0), (1835, 0), (1, 0)], [(777421440, 0), (1398565,
    0), (1432, 0), (1, 0)]], 3, 4⟩, 1152921504606846976, 742245475801474, 725511841338117, ⟨[[(4810256377902341, 0),
    (0, 179640845968233), (284224547143, 0), (624631491, 0), (659935, 0)], [(172634478039533, 0), (0, 438400736923),
    (0, 1149121460), (0, 867234), (0, 495)], [(140617759526, 0), (732561459, 0), (0, 7951), (0, 122)], [(0,
    169741815), (384899, 0), (94, 0)]], 3, 4⟩, 281474976710656, 9412910659,
    3184597796931978322896384823494493044276276647036852165182374696993413231167941912297180872009273541809617292618313909814700994192044262949,
    lc0⟩) (.leaf ⟨1709, 16, 3281, 2313, 16, 4343, ⟨[[(201619104659144704, 0), (85575090504073649, 0), (7610787906693,
    0), (2769677741, 0), (1092060, 0)], [(18938098324386010, 0), (11932266289766, 0), (6461066909, 0), (3544754, 0),
    (1712, 0)], [(3660013528023, 0), (4654428671, 0), (4105374, 0), (2739, 0), (1, 0)], [(1056696462, 0), (2026405,
    0), (2111, 0), (1, 0)]], 3, 4⟩, ⟨[[(0, 329184876608094208), (82409220002553130, 0), (6687490574110, 0),
    (2605667608, 0), (1022074, 0)], [(23893451491084385, 0), (11490829305700, 0), (6132557207, 0), (3351042, 0),
    (1611, 0)], [(3611908175324, 0), (4482236993, 0), (3918591, 0), (2597, 0), (1, 0)], [(1029007898, 0), (1951437,
    0), (2018, 0), (1, 0)]], 3, 4⟩, 1152921504606846976, 928913476499444, 906600060815238, ⟨[[(4423677420255042, 0),
    (0, 185668566248054), (316246389765, 0), (722223673, 0), (796651, 0)], [(178842242082091, 0), (0, 486147490993),
    (0, 1322945763), (0, 1042508), (0, 621)], [(156002486592, 0), (838703148, 0), (0, 10692), (0, 154)], [(0,
    193308742), (460226, 0), (117, 0)]], 3, 4⟩, 281474976710656, 11269478891,
    2996709849408052790430065595095429012935031085065457389492700101122431366191790553084534932601369644105137395495909033277704906768908036342,
    lc0⟩)))
theorem c39 : checkC job ⟨6, 8, 6, 7, 9, 13⟩ 3 200 B1.zlims t39 7757 121 1280 14611 175 15168 = true := by decide +kernel

def t40 : CTree :=
  .sx (.sy (.sx (.leaf ⟨1803, 16, 3434, 2439, 16, 4561, ⟨[[(495848018921390080, 0), (86252458111330842, 0),
    (6347509896099, 0), (1999139528, 0), (702562, 0)], [(18719386474167165, 0), (10462928572591, 0), (4817145304, 0),
    (2358327, 0), (1086, 0)], [(3227303412904, 0), (3524967232, 0), (2799710, 0), (1791, 0), (1, 0)], [(802197539,
    0), (1407482, 0), (1422, 0), (1, 0)]], 3, 4⟩, ⟨[[(110368573148889088, 0), (82895371621962383, 0), (5466620742432,
    0), (1873341103, 0), (654391, 0)], [(23901831939534975, 0), (10055694310271, 0), (4552766402, 0), (2221061, 0),
    (1019, 0)], [(3187981498285, 0), (3387769752, 0), (2664838, 0), (1695, 0), (1, 0)], [(780866428, 0), (1352701,
    0), (1357, 0), (1, 0)]], 3, 4⟩, 1152921504606846976, 738153380362086, 722469779973390, ⟨[[(5112954584329910, 0),
    (0, 177437697422698), (288874966778, 0), (637370946, 0), (673949, 0)], [(170561728697552, 0), (0, 444137709444),
    (0, 1172182883), (0, 883044), (0, 502)], [(142389213871, 0), (745387500, 0), (0, 8466), (0, 124)], [(0,
    172425679), (387700, 0), (95, 0)]], 3, 4⟩, 281474976710656, 9448237006,
    5112216507587982007263213124266957702021623354362507289083683347936154885148092757523149244293294840569855252208856793073232680319419561280,
    lc0⟩) (.leaf ⟨1730, 16, 3287, 2343, 16, 4372, ⟨[[(182647858853052416, 0), (85202504889146760, 0), (7369933835737,
    0), (2574961323, 0), (981828, 0)], [(19563456734102701, 0), (11917554895349, 0), (6181885982, 0), (3275688, 0),
    (1551, 0)], [(3744928824588, 0), (4562243671, 0), (3890569, 0), (2546, 0), (1, 0)], [(1057216897, 0), (1965917,
    0), (2015, 0), (1, 0)]], 3, 4⟩, ⟨[[(0, 2164298909483008), (82003394952526550, 0), (6466200453670, 0),
    (2420016301, 0), (918008, 0)], [(24536815653828147, 0), (11470084855160, 0), (5862071435, 0), (3094003, 0),
    (1458, 0)], [(3694679093689, 0), (4390944493, 0), (3710916, 0), (2413, 0), (1, 0)], [(1029232800, 0), (1892102,
    0), (1925, 0), (1, 0)]], 3, 4⟩, 1152921504606846976, 919961064583384, 897735886364968, ⟨[[(4920463605790628, 0),
    (0, 183931451993887), (319876936475, 0), (735573920, 0), (812587, 0)], [(177027364002170, 0), (0, 490527742804),
    (0, 1348890449), (0, 1061392), (0, 629)], [(157257063843, 0), (854412246, 0), (0, 10937), (0, 157)], [(0,
    196936927), (463705, 0), (119, 0)]], 3, 4⟩, 281474976710656, 11316976442,
    3961255170929903260527459607388744666637289265369870523684082388850217780727372805519482274061045823972926569710420423103585312575216131507,
    lc0⟩)) (.sx (.leaf ⟨1672, 16, 3137, 2269, 16, 4199, ⟨[[(78476507147141120, 0), (83652743241554306, 0),
    (8305757587013, 0), (3082545552, 0), (1216378, 0)], [(21094297604242682, 0), (13633786677177, 0), (7590539027,
    0), (4146296, 0), (1960, 0)], [(4472930866200, 0), (5780755866, 0), (5045478, 0), (3288, 0), (2, 0)],
    [(1388142130, 0), (2616175, 0), (2657, 0), (2, 0)]], 3, 4⟩, ⟨[[(327217400015486976, 0), (80594797543864671, 0),
    (7396943372903, 0), (2903149216, 0), (1140124, 0)], [(25862280829974744, 0), (13135400399581, 0), (7214429907,
    0), (3923692, 0), (1846, 0)], [(4407480506602, 0), (5569438976, 0), (4819218, 0), (3120, 0), (2, 0)],
    [(1351734905, 0), (2520540, 0), (2541, 0), (2, 0)]], 3, 4⟩, 1152921504606846976, 1118460322422973,
    1096727271841696, ⟨[[(5209973941397653, 0), (0, 189639583397629), (361833058813, 0), (877107025, 0), (1018220,
    0)], [(182640439354144, 0), (0, 552210371611), (0, 1605196848), (0, 1323331), (0, 818)], [(176839456742, 0),
    (1011547926, 0), (0, 14793), (0, 206)], [(0, 232280782), (569427, 0), (153, 0)]], 3, 4⟩, 281474976710656,
    13879196162,
    3888383293592642523008908668290248516842940653293463301272772387607029410068589528675555178630313537737313119711474779552519862266651096384,
    lc0⟩) (.leaf ⟨1577, 16, 2951, 2144, 16, 3958, ⟨[[(373258659536306176, 0), (82153498312124451, 0), (9858389478467,
    0), (4051056058, 0), (1692556, 0)], [(22138494116469984, 0), (15950837979138, 0), (9939459318, 0), (5733531, 0),
    (2745, 0)], [(5341387573466, 0), (7615822048, 0), (6961700, 0), (4574, 0), (2, 0)], [(1852100425, 0), (3610927,
    0), (3675, 0), (2, 0)]], 3, 4⟩, ⟨[[(443007810906619904, 0), (79310028734304888, 0), (8921626357667, 0),
    (3828746637, 0), (1591969, 0)], [(26640744034610409, 0), (15398752876648, 0), (9479807109, 0), (5441575, 0),
    (2590, 0)], [(5260118155041, 0), (7352225746, 0), (6665536, 0), (4350, 0), (2, 0)], [(1805506342, 0), (3485946,
    0), (3522, 0), (2, 0)]], 3, 4⟩, 1152921504606846976, 1370268429804336, 1339429697112395, ⟨[[(4962356293424226,
    0), (0, 199480635819020), (415823374542, 0), (1067532040, 0), (1316555, 0)], [(192534989292389, 0), (0,
    632910776799), (0, 1947206490), (0, 1705213), (0, 1119)], [(202732801774, 0), (1221509773, 0), (0, 20635), (0,
    283)], [(0, 279348368), (730107, 0), (209, 0)]], 3, 4⟩, 281474976710656, 17855123163,
    3110609344832140323019643929196139879391117251893094903068461297011145853163768198471163432063098816957327094219108718850899776889566460380,
    lc0⟩))) (.sy (.sx (.leaf ⟨1647, 16, 3122, 2234, 16, 4159, ⟨[[(464345389861437440, 0), (83947757128337923, 0),
    (8667276590872, 0), (3360739643, 0), (1370021, 0)], [(20500799704311017, 0), (13790455352871, 0), (8044240640,
    0), (4544007, 0), (2188, 0)], [(4423108299124, 0), (5982222655, 0), (5391364, 0), (3574, 0), (2, 0)],
    [(1407659798, 0), (2729922, 0), (2814, 0), (2, 0)]], 3, 4⟩, ⟨[[(0, 68776338697748480), (80921540076239328, 0),
    (7736090136697, 0), (3168278886, 0), (1285276, 0)], [(25235318645217001, 0), (13293325797819, 0), (7652612023,
    0), (4303425, 0), (2061, 0)], [(4358733901605, 0), (5766570626, 0), (5152919, 0), (3393, 0), (2, 0)],
    [(1371059078, 0), (2631512, 0), (2692, 0), (2, 0)]], 3, 4⟩, 1152921504606846976, 1126427398796467,
    1104682223037884, ⟨[[(4642244953195656, 0), (0, 191776434875332), (360730851758, 0), (870089148, 0), (1011661,
    0)], [(184915053233205, 0), (0, 551492356057), (0, 1589673447), (0, 1316466), (0, 820)], [(176811784282, 0),
    (1002047434, 0), (0, 14772), (0, 205)], [(0, 229924536), (572049, 0), (154, 0)]], 3, 4⟩, 281474976710656,
    13989998024,
    2513328473488593531272158643880795307914319653331312581862997542840099355937875940694580824970955191412811137185213441833158787940731425129,
    lc0⟩) (.leaf ⟨1553, 16, 2935, 2110, 16, 3918, ⟨[[(2133871246966784, 0), (82426347980357035, 0), (10316397925973,
    0), (4417931261, 0), (1897350, 0)], [(21547380652357200, 0), (16200105138004, 0), (10545105923, 0), (6255594, 0),
    (3040, 0)], [(5307684063030, 0), (7889107499, 0), (7403425, 0), (4933, 0), (2, 0)], [(1878199314, 0), (3746608,
    0), (3860, 0), (3, 0)]], 3, 4⟩, ⟨[[(0, 337837207091412992), (79619859123839409, 0), (9356352116911, 0),
    (4179557471, 0), (1786020, 0)], [(26016006646683665, 0), (15648516772640, 0), (10066409958, 0), (5941436, 0),
    (2870, 0)], [(5227584144539, 0), (7620495668, 0), (7093082, 0), (4694, 0), (2, 0)], [(1831621142, 0), (3619042,
    0), (3701, 0), (2, 0)]], 3, 4⟩, 1152921504606846976, 1385278898792629, 1356952385167007, ⟨[[(4447725394213992,
    0), (0, 202013921377307), (414737985158, 0), (1061190873, 0), (1312104, 0)], [(195148537304576, 0), (0,
    632402160034), (0, 1933182962), (0, 1701952), (0, 1126)], [(202783924010, 0), (1213562758, 0), (0, 20494), (0,
    283)], [(0, 277423872), (735741, 0), (211, 0)]], 3, 4⟩, 281474976710656, 18053068064,
    5935023884951036967223092012911668381238428669265256481705783035356968161592480863229779273489578955528366139847876963741144514067376646390,
    lc0⟩)) (.sx (.leaf ⟨1470, 16, 2742, 2002, 16, 3685, ⟨[[(236725318793035776, 0), (80388703978563011, 0),
    (11827377224736, 0), (5337717317, 0), (2328483, 0)], [(23314522682683015, 0), (18918308224975, 0), (13050023818,
    0), (7837740, 0), (3772, 0)], [(6465270607087, 0), (10041575791, 0), (9483073, 0), (6244, 0), (3, 0)],
    [(2464049204, 0), (4908830, 0), (4982, 0), (3, 0)]], 3, 4⟩, ⟨[[(0, 52299320427806720), (77760766720621761, 0),
    (10856821532037, 0), (5061613021, 0), (2196739, 0)], [(27507307326373630, 0), (18299861545502, 0), (12485997890,
    0), (7458177, 0), (3567, 0)], [(6364040156323, 0), (9713312865, 0), (9100130, 0), (5950, 0), (3, 0)],
    [(2405162253, 0), (4748358, 0), (4784, 0), (3, 0)]], 3, 4⟩, 1152921504606846976, 1656622946744220,
    1625124634859331, ⟨[[(4675493157455528, 0), (0, 212009281594814), (491896138153, 0), (1353778065, 0), (1796230,
    0)], [(205086797946295, 0), (0, 745975941450), (0, 2458392850), (0, 2315926), (0, 1632)], [(238890444216, 0),
    (1533091895, 0), (0, 30579), (0, 416)], [(0, 348732445), (984778, 0), (303, 0)]], 3, 4⟩, 281474976710656,
    24185736419,
    6331322174495882536592085738767217231831241833040231249550778412798448646698656224301825937123568085315459106414516794667911933714292904297,
    lc0⟩) (.sy (.leaf ⟨2437, 16, 4549, 3243, 16, 5969, ⟨[[(212581483026055168, 0), (68903003536366961, 0),
    (5706953658054, 0), (1356348806, 0), (302526, 0)], [(41314083656778422, 0), (18041237270518, 0), (6575441270, 0),
    (2016374, 0), (487, 0)], [(12384987537858, 0), (10071302191, 0), (4836916, 0), (1596, 0)], [(4930196695, 0),
    (4967108, 0), (2520, 0), (1, 0)]], 3, 4⟩, ⟨[[(0, 367497613728022528), (65161526853055564, 0), (5151305012068, 0),
    (1258287870, 0), (279148, 0)], [(47136465861668652, 0), (17061586673034, 0), (6154042677, 0), (1876328, 0), (450,
    0)], [(11904027124473, 0), (9524424111, 0), (4538347, 0), (1486, 0)], [(4703410944, 0), (4697391, 0), (2365, 0),
    (1, 0)]], 3, 4⟩, 1152921504606846976, 1463673872482548, 1404235229354739, ⟨[[(4442144722038942, 0), (0,
    130347817693358), (188593858340, 0), (319252174, 0), (261280, 0)], [(123277953848165, 0), (0, 278950603699), (0,
    564897139), (0, 328418), (0, 143)], [(87242845691, 0), (343183493, 0), (0, 4382), (0, 36)], [(0, 76047261),
    (133041, 0), (25, 0)]], 3, 4⟩, 281474976710656, 3092471070,
    8071422136583003361851559439709707535759651515238625984720101233751531770779621162399232575371333909658291219038563949086552601211629742326,
    lc0⟩) (.sx (.leaf ⟨2749, 16, 5091, 3747, 16, 6861, ⟨[[(0, 86941318160318464), (80671078822861537, 0),
    (7670891150837, 0), (1897340195, 0), (427329, 0)], [(26074559499738434, 0), (12222942832447, 0), (4647303608, 0),
    (1436148, 0), (345, 0)], [(4297581888810, 0), (3606439688, 0), (1738507, 0), (569, 0)], [(895648141, 0), (901156,
    0), (453, 0)]], 3, 4⟩, ⟨[[(565985150335188992, 0), (78149864562033178, 0), (7139050622159, 0), (1804234278, 0),
    (404089, 0)], [(29943591752201487, 0), (11840939043338, 0), (4457803291, 0), (1369316, 0), (326, 0)],
    [(4225769785803, 0), (3493727582, 0), (1671115, 0), (543, 0)], [(875030074, 0), (872992, 0), (435, 0)]], 3, 4⟩,
    1152921504606846976, 91215138116485, 88823133108749, ⟨[[(4624441607524931, 0), (0, 112535224936144),
    (146787110051, 0), (217806562, 0), (155932, 0)], [(108947561747921, 0), (0, 221439363031), (0, 393579763), (0,
    199823), (0, 76)], [(70775011900, 0), (243674199, 0), (0, 2859), (0, 19)], [(0, 55089950), (83884, 0), (14, 0)]],
    3, 4⟩, 281474976710656, 1963772718,
    8363174104873903223841139268637983666943251119811703123791011465553961750167325620753866166153473935133980212935126304993857745714413886768,
    lc0⟩) (.skip)))))
theorem c40 : checkC job ⟨6, 8, 6, 7, 9, 13⟩ 3 200 B1.zlims t40 7757 121 1280 14961 175 15168 = true := by decide +kernel

def t41 : CTree :=
  .sy (.sx (.sy (.sx (.leaf ⟨1763, 16, 3429, 2380, 16, 4508, ⟨[[(453404137680011264, 0), (87078399527132739, 0),
    (6687164110250, 0), (2275611180, 0), (859110, 0)], [(17463695982945257, 0), (10356590678059, 0), (5168339949, 0),
    (2727614, 0), (1316, 0)], [(3034925512558, 0), (3599326759, 0), (3079614, 0), (2060, 0), (1, 0)], [(785925023,
    0), (1479121, 0), (1554, 0), (1, 0)]], 3, 4⟩, ⟨[[(0, 158191937621327872), (83745404704453837, 0), (5766922201756,
    0), (2135738399, 0), (801550, 0)], [(22609272293225227, 0), (9960183953793, 0), (4891511455, 0), (2572456, 0),
    (1236, 0)], [(2998970893723, 0), (3461559672, 0), (2934282, 0), (1951, 0), (1, 0)], [(765045085, 0), (1422506,
    0), (1484, 0), (1, 0)]], 3, 4⟩, 1152921504606846976, 745819601755264, 727134586863194, ⟨[[(4194439425354262, 0),
    (0, 180676771150301), (280687508510, 0), (610385963, 0), (642278, 0)], [(173814924356691, 0), (0, 433793830570),
    (0, 1120116389), (0, 844767), (0, 484)], [(139241512976, 0), (713551778, 0), (0, 7950), (0, 118)], [(0,
    165092951), (378609, 0), (92, 0)]], 3, 4⟩, 281474976710656, 9286044776,
    4125124921300664490204243341888312490199732961335497469569675167787363167071243875511970020141105858134572404362078987714770314991676080260,
    lc0⟩) (.leaf ⟨1692, 16, 3284, 2287, 16, 4323, ⟨[[(569641411706880000, 0), (86020448557849103, 0), (7798232033385,
    0), (2943440119, 0), (1195510, 0)], [(18279670542437875, 0), (11869862054641, 0), (6675369071, 0), (3776348, 0),
    (1858, 0)], [(3551791540701, 0), (4692770377, 0), (4263777, 0), (2894, 0), (1, 0)], [(1042854955, 0), (2054539,
    0), (2173, 0), (2, 0)]], 3, 4⟩, ⟨[[(0, 110158778160119808), (82835770291809918, 0), (6852453244177, 0),
    (2770124963, 0), (1119186, 0)], [(23217227249522616, 0), (11430411989685, 0), (6337562963, 0), (3570633, 0),
    (1747, 0)], [(3504370434445, 0), (4519033038, 0), (4070076, 0), (2744, 0), (1, 0)], [(1015262459, 0), (1978475,
    0), (2077, 0), (1, 0)]], 3, 4⟩, 1152921504606846976, 932777343586918, 911287048548418, ⟨[[(3959618225572053, 0),
    (0, 187221176685892), (310457728324, 0), (702885583, 0), (772248, 0)], [(180353405440540, 0), (0, 478499806253),
    (0, 1285988850), (0, 1012493), (0, 605)], [(153606387991, 0), (815954025, 0), (0, 10268), (0, 148)], [(0,
    188064384), (451637, 0), (115, 0)]], 3, 4⟩, 281474976710656, 11093283490,
    7636826574770909781788363668595979345302417880289874961154031265023700963391311981320041939735217474930998016944316293762417847294037153809,
    lc0⟩)) (.sx (.leaf ⟨1627, 16, 3116, 2205, 16, 4131, ⟨[[(215004096537296896, 0), (84302867368071835, 0),
    (8972667932550, 0), (3618993768, 0), (1518487, 0)], [(19865927394555506, 0), (13856429778695, 0), (8424717911,
    0), (4901671, 0), (2400, 0)], [(4342488485147, 0), (6116254711, 0), (5669281, 0), (3817, 0), (2, 0)],
    [(1409009820, 0), (2801629, 0), (2927, 0), (2, 0)]], 3, 4⟩, ⟨[[(0, 254463455188221952), (81310181384384489, 0),
    (8020969170943, 0), (3415026468, 0), (1425737, 0)], [(24582839219850625, 0), (13364537338054, 0), (8021575102,
    0), (4645658, 0), (2262, 0)], [(4280270686181, 0), (5899132443, 0), (5422088, 0), (3626, 0), (2, 0)],
    [(1372840484, 0), (2702173, 0), (2802, 0), (2, 0)]], 3, 4⟩, 1152921504606846976, 1131052299341921,
    1109458359243114, ⟨[[(4209371418199942, 0), (0, 193873022777646), (355886249203, 0), (853432028, 0), (991138,
    0)], [(187026296736293, 0), (0, 545625020008), (0, 1558656444), (0, 1292894), (0, 810)], [(175102163238, 0),
    (984167369, 0), (0, 14238), (0, 201)], [(0, 225985005), (567965, 0), (153, 0)]], 3, 4⟩, 281474976710656,
    13938490839,
    6499788270543893308553186218809746621772922051563982339764789131538120457462526913596533354618245476973551753206772736555400888473138937988,
    lc0⟩) (.sx (.leaf ⟨1702, 16, 3253, 2347, 16, 4389, ⟨[[(151015206828638208, 0), (90864023677393072, 0),
    (11178072253669, 0), (4851529068, 0), (2112562, 0)], [(11271921291844515, 0), (8550776224169, 0), (5637868255,
    0), (3395026, 0), (1672, 0)], [(1362111877785, 0), (2055851986, 0), (1959431, 0), (1323, 0), (1, 0)],
    [(238808652, 0), (483777, 0), (505, 0)]], 3, 4⟩, ⟨[[(0, 314031579340996608), (89190442700476884, 0),
    (10277647715183, 0), (4663998874, 0), (2020530, 0)], [(13963202223773922, 0), (8393283568134, 0), (5468667147,
    0), (3276518, 0), (1603, 0)], [(1363658534014, 0), (2017986232, 0), (1907627, 0), (1279, 0), (1, 0)],
    [(236657035, 0), (474867, 0), (492, 0)]], 3, 4⟩, 1152921504606846976, 668796314481100, 662910263022748,
    ⟨[[(4048398129342821, 0), (0, 181467927647433), (319884008787, 0), (721444173, 0), (789574, 0)],
    [(178148099990939, 0), (0, 497413701107), (0, 1336083742), (0, 1044206), (0, 616)], [(162251491808, 0),
    (854728872, 0), (0, 12326), (0, 156)], [(0, 198890553), (471999, 0), (120, 0)]], 3, 4⟩, 281474976710656,
    11657079811,
    8638298642963644684169868848707475158220226307386536577557616734828854592886711577960736077967723039693348478436238420925909407509539589194,
    lc0⟩) (.skip)))) (.sy (.sx (.sx (.leaf ⟨1768, 16, 3424, 2433, 16, 4592, ⟨[[(0, 277973904526147584),
    (92108737163164760, 0), (9554907201125, 0), (3893057278, 0), (1653915, 0)], [(10260148968881850, 0),
    (7192396141216, 0), (4410030162, 0), (2601879, 0), (1291, 0)], [(1094187398131, 0), (1559462106, 0), (1467280,
    0), (1001, 0), (1, 0)], [(175155460, 0), (353704, 0), (374, 0)]], 3, 4⟩, ⟨[[(233510057943236608, 0),
    (90365587528559107, 0), (8657283415551, 0), (3736690170, 0), (1579306, 0)], [(13064632851182505, 0),
    (7056280685798, 0), (4270598896, 0), (2508164, 0), (1238, 0)], [(1097553255388, 0), (1529949425, 0), (1427376,
    0), (967, 0)], [(173598865, 0), (347011, 0), (365, 0)]], 3, 4⟩, 1152921504606846976, 579464218371797,
    575574874295669, ⟨[[(3977971296831152, 0), (0, 175890757062146), (277429213021, 0), (592312845, 0), (613647, 0)],
    [(172475630823497, 0), (0, 434669166276), (0, 1102212693), (0, 817878), (0, 460)], [(141988281007, 0),
    (710923489, 0), (0, 8594), (0, 115)], [(0, 166595802), (376766, 0), (90, 0)]], 3, 4⟩, 281474976710656,
    9331832182,
    9733232312648370975193228045278463096175605888593979282937746090494358509198957978578430677436493057860767431395361511765489388836912931800,
    lc0⟩) (.skip)) (.skip)) (.skip))) (.sx (.sy (.sx (.sx (.leaf ⟨1626, 16, 3066, 2246, 16, 4162,
    ⟨[[(35691719626063872, 0), (89473533361748530, 0), (13056881301340, 0), (5988273587, 0), (2650524, 0)],
    [(12367084695894189, 0), (10170301219825, 0), (7130733212, 0), (4349230, 0), (2120, 0)], [(1692301517153, 0),
    (2675710948, 0), (2566499, 0), (1711, 0), (1, 0)], [(320512040, 0), (648196, 0), (666, 0)]], 3, 4⟩, ⟨[[(0,
    446607220809400320), (87886776165055939, 0), (12153326742147, 0), (5766382458, 0), (2538972, 0)],
    [(14931272215039837, 0), (9989937283717, 0), (6927889163, 0), (4202403, 0), (2035, 0)], [(1691809878007, 0),
    (2628258886, 0), (2500887, 0), (1655, 0), (1, 0)], [(317687093, 0), (636701, 0), (649, 0)]], 3, 4⟩,
    1152921504606846976, 763552302629523, 756537102842069, ⟨[[(4262482264974994, 0), (0, 188876661318742),
    (373762154946, 0), (899347773, 0), (1048134, 0)], [(185551072486885, 0), (0, 577315925769), (0, 1658948222), (0,
    1376435), (0, 858)], [(187961036018, 0), (1053452475, 0), (0, 17834), (0, 220)], [(0, 243686828), (610712, 0),
    (165, 0)]], 3, 4⟩, 281474976710656, 15056587717,
    8073049398889935065215262860375134706583536968992062253303678462942780207252706810678923894755182384087446240735735173993978475021339948221,
    lc0⟩) (.sy (.leaf ⟨3025, 16, 5718, 4107, 16, 7624, ⟨[[(0, 402570891468210176), (83589854591118517, 0),
    (6157338359915, 0), (1424641183, 0), (317061, 0)], [(22927661918616123, 0), (9524240913659, 0), (3370072927, 0),
    (1033557, 0), (253, 0)], [(3152182079020, 0), (2513793823, 0), (1211919, 0), (405, 0)], [(598840840, 0), (608290,
    0), (313, 0)]], 3, 4⟩, ⟨[[(36003405508902912, 0), (80755809088927639, 0), (5638433642604, 0), (1349364574, 0),
    (298724, 0)], [(27245513543989773, 0), (9201329332399, 0), (3220475374, 0), (982240, 0), (239, 0)],
    [(3099102872151, 0), (2428565704, 0), (1161503, 0), (385, 0)], [(583772206, 0), (587666, 0), (300, 0)]], 3, 4⟩,
    1152921504606846976, 64274011324252, 62457566762449, ⟨[[(4269187156628419, 0), (0, 103462816022947),
    (110187608869, 0), (144522087, 0), (91794, 0)], [(99911057239138, 0), (0, 167618344383), (0, 262474547), (0,
    118742), (0, 40)], [(53683654708, 0), (164221759, 0), (0, 1475), (0, 10)], [(0, 37417728), (51139, 0), (8, 0)]],
    3, 4⟩, 281474976710656, 1202187431,
    8249831851395454348424602954272163562969919685166325125111646741194162569170457933932623528089916600132680701529017329137165936033977254020,
    lc0⟩) (.skip))) (.skip)) (.skip)) (.skip))
theorem c41 : checkC job ⟨6, 8, 6, 7, 9, 13⟩ 3 200 B1.zlims t41 7999 121 1280 7393 175 7584 = true := by decide +kernel

def t42 : CTree :=
  .sx (.sy (.sx (.leaf ⟨1017, 16, 2321, 1332, 16, 2824, ⟨[[(248894542613577728, 0), (98066454066777620, 0),
    (1397434186332, 0), (938349890, 0), (205153, 0)], [(4535387467616194, 0), (4284976574636, 0), (1541237778, 0),
    (555318, 0), (193, 0)], [(743893732588, 0), (726950421, 0), (453534, 0), (226, 0)], [(95592242, 0), (139839, 0),
    (113, 0)]], 3, 4⟩, ⟨[[(0, 324087340029968384), (93756041164754277, 0), (0, 530052034672), (961086656, 0),
    (165517, 0)], [(11017723435094173, 0), (4096634715150, 0), (1391957279, 0), (496151, 0), (171, 0)],
    [(769069852813, 0), (694998042, 0), (419767, 0), (205, 0)], [(94977785, 0), (133692, 0), (106, 0)]], 3, 4⟩,
    1152921504606846976, 1581754405980283, 1562357394291912, ⟨[[(3145366098906334, 0), (0, 313260621235263),
    (419261982590, 0), (1308339636, 0), (1936282, 0)], [(299547978133328, 0), (0, 711020560894), (0, 2424025356), (0,
    2688475), (0, 2326)], [(226595116406, 0), (1602740566, 0), (0, 19265), (0, 477), (0, 1)], [(0, 387776302),
    (1440054, 0), (473, 0)]], 3, 4⟩, 281474976710656, 38351151687,
    2684186785369585430649998813286298691315433236833306104550541961424646020850023044387327123439290066415054686212346923559255654877084497478,
    lc0⟩) (.leaf ⟨1004, 16, 2288, 1317, 16, 2788, ⟨[[(0, 311292676005036032), (97738370925292468, 0), (1773082307534,
    0), (1071471109, 0), (254108, 0)], [(4843200997513550, 0), (4596517718795, 0), (1756571627, 0), (667183, 0),
    (241, 0)], [(806851133207, 0), (825501583, 0), (535938, 0), (275, 0)], [(108681196, 0), (162703, 0), (134, 0)]],
    3, 4⟩, ⟨[[(75205857908359168, 0), (93581732757939030, 0), (0, 164917783104), (1080101675, 0), (209424, 0)],
    [(11262032295907235, 0), (4401036038406, 0), (1594272223, 0), (598843, 0), (214, 0)], [(832376046225, 0),
    (790394476, 0), (497414, 0), (250, 0)], [(107973453, 0), (155783, 0), (125, 0)]], 3, 4⟩, 1152921504606846976,
    2409217631616582, 2383480341059408, ⟨[[(2960682211793250, 0), (0, 316663480327808), (434577207645, 0),
    (1371749936, 0), (2058422, 0)], [(303099607612779, 0), (0, 735727374042), (0, 2539861115), (0, 2855519), (0,
    2504)], [(234719902661, 0), (1677199478, 0), (0, 21163), (0, 516), (0, 1)], [(0, 405109875), (1527294, 0), (509,
    0)]], 3, 4⟩, 281474976710656, 40704575414,
    3614895381123366364646760011037800013132465413616382178568625215787950690799476380009100171188236528789109714439082297023174727446803047777,
    lc0⟩)) (.sx (.leaf ⟨1017, 16, 2255, 1342, 16, 2787, ⟨[[(455940246834642944, 0), (96602091578309860, 0),
    (2488848188860, 0), (1273231647, 0), (330387, 0)], [(6073247502764404, 0), (5446960950732, 0), (2232833462, 0),
    (897743, 0), (347, 0)], [(1034904893858, 0), (1114233081, 0), (758230, 0), (414, 0)], [(157204116, 0), (243500,
    0), (214, 0)]], 3, 4⟩, ⟨[[(394340162803859456, 0), (92542206232089536, 0), (617284857192, 0), (1250616024, 0),
    (279767, 0)], [(12480523746415536, 0), (5218042129370, 0), (2039363158, 0), (810723, 0), (310, 0)],
    [(1059918573765, 0), (1067405331, 0), (705983, 0), (379, 0)], [(155738526, 0), (233267, 0), (200, 0)]], 3, 4⟩,
    1152921504606846976, 3782323801141117, 3741783552330058, ⟨[[(3286041308265378, 0), (0, 314762395603990),
    (470989613715, 0), (1512209919, 0), (2318390, 0)], [(301573281533918, 0), (0, 785429824067), (0, 2813099772), (0,
    3206006), (0, 2847)], [(251378852336, 0), (1861105867, 0), (0, 19419), (0, 605), (0, 1)], [(0, 448906238),
    (1676815, 0), (578, 0)]], 3, 4⟩, 281474976710656, 44487186103,
    4713031071981341881894223726424185480850215145264923617526032339265739654769682959030411384043674156324068692907909255789762743713207137862,
    lc0⟩) (.sy (.leaf ⟨1929, 16, 4301, 2440, 16, 5082, ⟨[[(0, 133451362639020032), (92966853655935128, 0),
    (1286181798939, 0), (328399774, 0), (44333, 0)], [(11625019950438863, 0), (5335213179286, 0), (1127680523, 0),
    (233411, 0), (47, 0)], [(2004078448322, 0), (1103659868, 0), (384051, 0), (109, 0)], [(305376669, 0), (240332,
    0), (111, 0)]], 3, 4⟩, ⟨[[(0, 443281627381497856), (85430880012032433, 0), (357891030638, 0), (308082618, 0),
    (36188, 0)], [(22856441203797914, 0), (4902736179983, 0), (988979951, 0), (202398, 0), (41, 0)], [(1967276996012,
    0), (1014196243, 0), (343137, 0), (96, 0)], [(290139740, 0), (220851, 0), (100, 0)]], 3, 4⟩, 1152921504606846976,
    470122228712699, 441953235814463, ⟨[[(2809679419890293, 0), (0, 172198463763174), (141108019612, 0), (246467487,
    0), (206289, 0)], [(158228922853222, 0), (0, 225565126254), (0, 437686594), (0, 272856), (0, 133)],
    [(69193672647, 0), (276334375, 0), (0, 1828), (0, 27)], [(0, 63621024), (131318, 0), (25, 0)]], 3, 4⟩,
    281474976710656, 3234113716,
    5027733513183629657193279098424669520649313752082052363569554108814477709374470754171893526995014044322541184075610510342027911061440619873,
    lc0⟩) (.leaf ⟨1908, 16, 4192, 2422, 16, 4992, ⟨[[(0, 399303852820791296), (91613911593392292, 0), (1624711152169,
    0), (390306367, 0), (58188, 0)], [(13295550900064749, 0), (6061720884059, 0), (1376863926, 0), (307401, 0), (71,
    0)], [(2380748043499, 0), (1383323732, 0), (515600, 0), (170, 0)], [(395285393, 0), (332237, 0), (182, 0)]], 3,
    4⟩, ⟨[[(0, 74235760486121472), (84281817303790820, 0), (698253919559, 0), (360739453, 0), (48393, 0)],
    [(24265410216564914, 0), (5576585948697, 0), (1213973630, 0), (268196, 0), (62, 0)], [(2326942849730, 0),
    (1272612816, 0), (462310, 0), (151, 0)], [(375116661, 0), (305647, 0), (164, 0)]], 3, 4⟩, 1152921504606846976,
    783477373887093, 737106280357348, ⟨[[(2901438524144978, 0), (0, 174425918453612), (153158898802, 0), (274669387,
    0), (236758, 0)], [(160425215662277, 0), (0, 242792717158), (0, 488489420), (0, 312299), (0, 155)],
    [(74619737040, 0), (308280446, 0), (0, 1978), (0, 32)], [(0, 70835222), (148345, 0), (29, 0)]], 3, 4⟩,
    281474976710656, 3644432578,
    6698293271049374155523797891293445560771654003889446023576285573325986395560324324741465910580676060117891914098832455749027485012469015905,
    lc0⟩)))) (.sy (.sx (.leaf ⟨989, 16, 2252, 1301, 16, 2748, ⟨[[(0, 23813202323832832), (97345334781301859, 0),
    (2196444257264, 0), (1230610912, 0), (315445, 0)], [(5171086830586354, 0), (4947198468623, 0), (2009051634, 0),
    (803605, 0), (307, 0)], [(877616365845, 0), (938932180, 0), (633846, 0), (342, 0)], [(123332477, 0), (189109, 0),
    (164, 0)]], 3, 4⟩, ⟨[[(0, 527966256578166784), (93336760229407270, 0), (248278796476, 0), (1223038243, 0),
    (264645, 0)], [(11517151794387031, 0), (4743478239718, 0), (1831909767, 0), (724424, 0), (275, 0)],
    [(903407418951, 0), (900267979, 0), (589826, 0), (313, 0)], [(122531522, 0), (181321, 0), (153, 0)]], 3, 4⟩,
    1152921504606846976, 3647778309531011, 3614280593248516, ⟨[[(2278179980223927, 0), (0, 319262164114637),
    (457735120787, 0), (1455563788, 0), (2216733, 0)], [(306120480815927, 0), (0, 771022528940), (0, 2682626257), (0,
    3061998), (0, 2726)], [(246362313559, 0), (1760202589, 0), (0, 26042), (0, 566), (0, 1)], [(0, 422076936),
    (1629765, 0), (553, 0)]], 3, 4⟩, 281474976710656, 43420499355,
    4991474492025622397702251875098757785570829738654613214371812351258139266385432414547369475839716745620007597683500099389343663303523439739,
    lc0⟩) (.sy (.leaf ⟨1888, 16, 4326, 2379, 16, 5046, ⟨[[(0, 437108949592834048), (94276978777201389, 0),
    (1133364839207, 0), (315989367, 0), (41894, 0)], [(9912518212480487, 0), (4848395649956, 0), (1010541073, 0),
    (207098, 0), (41, 0)], [(1698490245336, 0), (925963534, 0), (318367, 0), (89, 0)], [(238382499, 0), (185083, 0),
    (84, 0)]], 3, 4⟩, ⟨[[(543865921521844224, 0), (86711420659478809, 0), (170349296356, 0), (300051840, 0), (33863,
    0)], [(21184200768603123, 0), (4459320612304, 0), (884599154, 0), (179219, 0), (35, 0)], [(1676191783474, 0),
    (851656624, 0), (284254, 0), (78, 0)], [(227163430, 0), (170230, 0), (75, 0)]], 3, 4⟩, 1152921504606846976,
    324186760915225, 305173793905252, ⟨[[(2120939752936033, 0), (0, 173975370055640), (133657182938, 0), (230437469,
    0), (190221, 0)], [(159949699411514, 0), (0, 216508704266), (0, 406515931), (0, 251963), (0, 122)],
    [(66296939868, 0), (255397765, 0), (0, 2176), (0, 24)], [(0, 58678795), (123840, 0), (23, 0)]], 3, 4⟩,
    281474976710656, 3066804304,
    4259810173498141122362819584668949334766993900988030795322911568686151218887523062050107823197101228847457357206553473516494578373203018646,
    lc0⟩) (.skip))) (.sx (.sy (.leaf ⟨1891, 16, 4210, 2395, 16, 4980, ⟨[[(0, 501387084131729408), (92330455483899588,
    0), (1549790005612, 0), (383797586, 0), (56815, 0)], [(12383861221581657, 0), (5789523165053, 0), (1307296287,
    0), (290616, 0), (67, 0)], [(2196570648160, 0), (1270358208, 0), (471076, 0), (155, 0)], [(350043715, 0),
    (292646, 0), (160, 0)]], 3, 4⟩, ⟨[[(522566950573309952, 0), (84940292798093476, 0), (606444507091, 0),
    (356122280, 0), (47069, 0)], [(23383367598172790, 0), (5326127659865, 0), (1151286149, 0), (253229, 0), (58, 0)],
    [(2151058592321, 0), (1168678283, 0), (422098, 0), (137, 0)], [(332488469, 0), (269222, 0), (145, 0)]], 3, 4⟩,
    1152921504606846976, 658770777651485, 619909091650972, ⟨[[(2566620258514629, 0), (0, 175215110453917),
    (148770460581, 0), (264662789, 0), (226295, 0)], [(161118796479823, 0), (0, 237215179093), (0, 469208920), (0,
    298749), (0, 148)], [(72816316056, 0), (295508447, 0), (0, 2114), (0, 30)], [(0, 67840201), (143355, 0), (28,
    0)]], 3, 4⟩, 281474976710656, 3531166148,
    7059807657450607918381693450731406296342733440833777886404766777193868992399477101056312326850112370577122475032493546346005596889664066683,
    lc0⟩) (.leaf ⟨1864, 16, 4089, 2370, 16, 4875, ⟨[[(0, 430562457647316992), (90877741255067718, 0), (1942117466298,
    0), (464706692, 0), (78220, 0)], [(14164759940012510, 0), (6628447361372, 0), (1623584093, 0), (402888, 0), (113,
    0)], [(2628806698054, 0), (1621598806, 0), (671580, 0), (273, 0)], [(463332046, 0), (437736, 0), (304, 0)]], 3,
    4⟩, ⟨[[(306218350792933376, 0), (83701684060761644, 0), (997814920905, 0), (425835603, 0), (66039, 0)],
    [(24864824927653647, 0), (6105039575066, 0), (1437689589, 0), (353719, 0), (100, 0)], [(2563409832160, 0),
    (1493551105, 0), (604436, 0), (244, 0)], [(439438818, 0), (403171, 0), (276, 0)]], 3, 4⟩, 1152921504606846976,
    1100106891327073, 1036008225199308, ⟨[[(2524830093149874, 0), (0, 177807201180595), (163323927570, 0),
    (298927121, 0), (264132, 0)], [(163698687514787, 0), (0, 257995411137), (0, 530074446), (0, 347345), (0, 177)],
    [(79351715961, 0), (333178335, 0), (0, 2420), (0, 37)], [(0, 76210694), (164286, 0), (33, 0)]], 3, 4⟩,
    281474976710656, 4035269470,
    9511720981282363967634090404308859036149293545582832888333812507285719911358238213182090761180171756092062644056250900565356402189586535547,
    lc0⟩)) (.skip)))
theorem c42 : checkC job ⟨6, 8, 6, 7, 9, 13⟩ 3 200 B1.zlims t42 4181 121 640 6343 175 7584 = true := by decide +kernel

def t43 : CTree :=
  .sx (.sy (.sx (.sy (.leaf ⟨1925, 16, 4176, 2448, 16, 5003, ⟨[[(168055211817697280, 0), (90926179572444505, 0),
    (1689497638066, 0), (394681487, 0), (59050, 0)], [(14213244637962799, 0), (6327716215190, 0), (1442055494, 0),
    (322459, 0), (74, 0)], [(2571089221245, 0), (1497991919, 0), (559746, 0), (184, 0)], [(443817956, 0), (373999,
    0), (203, 0)]], 3, 4⟩, ⟨[[(0, 469677046491512832), (83605415075507967, 0), (779311896862, 0), (363388304, 0),
    (49241, 0)], [(25144432516334055, 0), (5818251059694, 0), (1272075784, 0), (281495, 0), (65, 0)],
    [(2507325159412, 0), (1377383684, 0), (501924, 0), (163, 0)], [(420602842, 0), (343887, 0), (183, 0)]], 3, 4⟩,
    1152921504606846976, 922448261674999, 867222626460243, ⟨[[(3203151829423354, 0), (0, 173602867932079),
    (157680648868, 0), (285050342, 0), (247681, 0)], [(159642082467437, 0), (0, 248451540172), (0, 508058734), (0,
    326159), (0, 163)], [(76414718147, 0), (320918256, 0), (0, 1881), (0, 34)], [(0, 73731560), (153212, 0), (30,
    0)]], 3, 4⟩, 281474976710656, 3752381488,
    5778997973337630179834845645038629173010783801812361834915504522852303125621259293649004352338764920169396657129203550222156671162955052614,
    lc0⟩) (.leaf ⟨1892, 16, 4045, 2415, 16, 4885, ⟨[[(0, 368343520796475392), (89370567645121975, 0), (2085026238340,
    0), (477538809, 0), (80919, 0)], [(16098306746508671, 0), (7235869507434, 0), (1788050776, 0), (444675, 0), (123,
    0)], [(3073489634780, 0), (1909700480, 0), (792248, 0), (316, 0)], [(586525710, 0), (553045, 0), (373, 0)]], 3,
    4⟩, ⟨[[(0, 298824117166014464), (82305552185625688, 0), (1173224255285, 0), (435275182, 0), (68663, 0)],
    [(26704728740285482, 0), (6663851993394, 0), (1586221298, 0), (391111, 0), (108, 0)], [(2986792044880, 0),
    (1758732843, 0), (713657, 0), (282, 0)], [(555360246, 0), (509325, 0), (338, 0)]], 3, 4⟩, 1152921504606846976,
    1516130611799329, 1427278614953681, ⟨[[(3303045090214137, 0), (0, 176726473516695), (173321244176, 0),
    (323916933, 0), (291655, 0)], [(162729050164090, 0), (0, 271016638821), (0, 577894659), (0, 382816), (0, 197)],
    [(83520187629, 0), (364578218, 0), (0, 2182), (0, 42)], [(0, 83564157), (177421, 0), (36, 0)]], 3, 4⟩,
    281474976710656, 4336264047,
    7079061326887102264272452043218754750786891625571019861192983595182184628704768737039681579730199593269483349163564218392739855221463955014,
    lc0⟩)) (.sy (.leaf ⟨1877, 16, 4066, 2393, 16, 4880, ⟨[[(545365841851449344, 0), (90113023931767135, 0),
    (2019886268959, 0), (472617066, 0), (79988, 0)], [(15131285593991030, 0), (6937445917578, 0), (1709277981, 0),
    (425418, 0), (119, 0)], [(2848223056567, 0), (1765431087, 0), (733181, 0), (296, 0)], [(523086138, 0), (494767,
    0), (340, 0)]], 3, 4⟩, ⟨[[(0, 351000275083329536), (83007142179607780, 0), (1091988763417, 0), (431899968, 0),
    (67733, 0)], [(25786633179951015, 0), (6390392137766, 0), (1515319563, 0), (373936, 0), (105, 0)],
    [(2772813088497, 0), (1626217642, 0), (660308, 0), (265, 0)], [(495758452, 0), (455752, 0), (309, 0)]], 3, 4⟩,
    1152921504606846976, 1298060808286805, 1222360060784826, ⟨[[(2725524576760902, 0), (0, 176956016068274),
    (169051739661, 0), (311890493, 0), (278093, 0)], [(163034147488994, 0), (0, 265438716112), (0, 554097157), (0,
    365022), (0, 187)], [(81760494236, 0), (348410397, 0), (0, 2413), (0, 39)], [(0, 79645261), (170817, 0), (35,
    0)]], 3, 4⟩, 281474976710656, 4184668812,
    8583901223753162029667393311490125823895357773744989279583134346743722616946999750466736669370156509416153945414134594897358780734500824417,
    lc0⟩) (.sx (.leaf ⟨1979, 16, 4225, 2627, 16, 5305, ⟨[[(0, 459744451851976704), (94788677733959739, 0),
    (2546668161722, 0), (595755750, 0), (113840, 0)], [(9022031745613128, 0), (4172457169564, 0), (1106648856, 0),
    (307769, 0), (101, 0)], [(893460616161, 0), (590069833, 0), (274758, 0), (130, 0)], [(91217039, 0), (97939, 0),
    (79, 0)]], 3, 4⟩, ⟨[[(17938825179824128, 0), (90761928350454333, 0), (1614761095124, 0), (561586555, 0), (101488,
    0)], [(15120597512334207, 0), (3995205627114, 0), (1023377951, 0), (282781, 0), (93, 0)], [(900305107733, 0),
    (565002880, 0), (257958, 0), (122, 0)], [(89644217, 0), (93778, 0), (75, 0)]], 3, 4⟩, 1152921504606846976,
    122454048966270, 119428026219816, ⟨[[(3030634526770546, 0), (0, 162117424642496), (148971709895, 0), (255789502,
    0), (212292, 0)], [(155180106147178, 0), (0, 241308379929), (0, 472909547), (0, 288712), (0, 137)],
    [(77283471780, 0), (308912317, 0), (0, 1863), (0, 30)], [(0, 73292426), (143847, 0), (27, 0)]], 3, 4⟩,
    281474976710656, 3606289529,
    8782649341466375181297910854142270774224981846712215026863342648647433142221085767651398566083078613000081005833203084312241178546356243923,
    lc0⟩) (.leaf ⟨1952, 16, 4165, 2595, 16, 5233, ⟨[[(479020176077488128, 0), (94473479694904501, 0), (2791577453748,
    0), (669134177, 0), (140583, 0)], [(9336721862293611, 0), (4413115028235, 0), (1237444523, 0), (377040, 0), (138,
    0)], [(950633890974, 0), (660816558, 0), (338495, 0), (179, 0)], [(103151668, 0), (123077, 0), (111, 0)]], 3, 4⟩,
    ⟨[[(0, 532150941245243392), (90517846931073469, 0), (1853187256395, 0), (629342759, 0), (126301, 0)],
    [(15361450450994874, 0), (4228336586149, 0), (1147257555, 0), (347868, 0), (127, 0)], [(956736879522, 0),
    (633147972, 0), (318576, 0), (168, 0)], [(101289426, 0), (117923, 0), (105, 0)]], 3, 4⟩, 1152921504606846976,
    151253707898986, 147544118897991, ⟨[[(2605077693041672, 0), (0, 163496026144073), (155490464988, 0), (269451062,
    0), (226762, 0)], [(156680207639348, 0), (0, 251055527488), (0, 496375350), (0, 307349), (0, 148)],
    [(80451630284, 0), (322739661, 0), (0, 2232), (0, 33)], [(0, 76193437), (152535, 0), (29, 0)]], 3, 4⟩,
    281474976710656, 3820607729,
    10752318660687821055196415781068764447769184036240363987119630253313221339920346191186969115803955484320403375704166678259393151921887962465,
    lc0⟩)))) (.sx (.sy (.leaf ⟨1848, 16, 3895, 2368, 16, 4741, ⟨[[(0, 129222796224495616), (87645633627553055, 0),
    (2556252760760, 0), (594409770, 0), (118480, 0)], [(18171267876937616, 0), (8353981441723, 0), (2279465421, 0),
    (658370, 0), (224, 0)], [(3712042117248, 0), (2513612337, 0), (1215582, 0), (597, 0)], [(807863075, 0), (901650,
    0), (750, 0), (1, 0)]], 3, 4⟩, ⟨[[(0, 61989008354312192), (80844330569854016, 0), (1638600264604, 0), (538107243,
    0), (102251, 0)], [(28387773097239692, 0), (7705712301864, 0), (2034019682, 0), (584034, 0), (199, 0)],
    [(3594944018263, 0), (2318555966, 0), (1100624, 0), (538, 0)], [(763855486, 0), (831682, 0), (684, 0)]], 3, 4⟩,
    1152921504606846976, 2472560271746718, 2332520321975056, ⟨[[(3305450242187680, 0), (0, 180683603799359),
    (193392801153, 0), (375567906, 0), (352463, 0)], [(166640363198282, 0), (0, 299990334345), (0, 669779193), (0,
    460581), (0, 245)], [(92623885988, 0), (421304832, 0), (0, 2755), (0, 53)], [(0, 96195440), (210375, 0), (45,
    0)]], 3, 4⟩, 281474976710656, 5130844944,
    8585507651514012788745485016216989512937891088157440430402052809462771517012089030695869446285628030508668850640409635407320387637810017862,
    lc0⟩) (.sx (.leaf ⟨1961, 16, 4076, 2614, 16, 5184, ⟨[[(0, 286166595028123648), (93209162888795212, 0),
    (3242475104060, 0), (780509488, 0), (179462, 0)], [(10905460143273078, 0), (5134928141217, 0), (1537534429, 0),
    (508536, 0), (197, 0)], [(1191872407336, 0), (879469665, 0), (488110, 0), (272, 0)], [(148778212, 0), (191805,
    0), (179, 0)]], 3, 4⟩, ⟨[[(545628422825574400, 0), (89282810926948340, 0), (2326973883934, 0), (730526202, 0),
    (162589, 0)], [(16850991493140512, 0), (4918623922232, 0), (1429856461, 0), (471031, 0), (183, 0)],
    [(1193740409304, 0), (842422798, 0), (460200, 0), (255, 0)], [(145682359, 0), (183726, 0), (170, 0)]], 3, 4⟩,
    1152921504606846976, 197775818776243, 192882397603108, ⟨[[(3523078322005259, 0), (0, 164283594638909),
    (168781915242, 0), (303096957, 0), (263118, 0)], [(157302736070775, 0), (0, 269826939150), (0, 561109361), (0,
    355451), (0, 174)], [(86520737908, 0), (365577335, 0), (0, 2219), (0, 40)], [(0, 86412857), (172340, 0), (34,
    0)]], 3, 4⟩, 281474976710656, 4290995953,
    7987269743976809658697761807885223037343658560924189586793920110578952087698534926572411690561478568149692334312048364560248520666620698297,
    lc0⟩) (.leaf ⟨1927, 16, 4002, 2573, 16, 5094, ⟨[[(533886300507078656, 0), (92790483559879323, 0), (3579739631638,
    0), (904881238, 0), (232495, 0)], [(11301144444431231, 0), (5496210628484, 0), (1776616162, 0), (655080, 0),
    (277, 0)], [(1286589417787, 0), (1022558201, 0), (633578, 0), (384, 0)], [(176116962, 0), (254030, 0), (255,
    0)]], 3, 4⟩, ⟨[[(0, 437921341941743616), (88953639970714513, 0), (2655675904108, 0), (846499540, 0), (212106,
    0)], [(17152897295520802, 0), (5268944860431, 0), (1657186944, 0), (609304, 0), (258, 0)], [(1286938093423, 0),
    (980275892, 0), (598828, 0), (361, 0)], [(172281213, 0), (243526, 0), (242, 0)]], 3, 4⟩, 1152921504606846976,
    245551068366979, 239469495996547, ⟨[[(3048782458263851, 0), (0, 166091123954549), (178074439662, 0), (323814797,
    0), (286174, 0)], [(159266770421281, 0), (0, 283642769083), (0, 596903868), (0, 385039), (0, 192)],
    [(91005123753, 0), (386791140, 0), (0, 2778), (0, 44)], [(0, 90909800), (185806, 0), (38, 0)]], 3, 4⟩,
    281474976710656, 4622092235,
    10369196907922874746319336863344378135033856736494273641345312773143806370467186646356275414241179836240900943343278800690753944549284099654,
    lc0⟩))) (.sy (.sx (.leaf ⟨1943, 16, 4088, 2587, 16, 5169, ⟨[[(0, 495278586453819392), (93673059066991201, 0),
    (3164573097799, 0), (773930343, 0), (179802, 0)], [(10288110772204026, 0), (4916120935012, 0), (1474606534, 0),
    (494167, 0), (196, 0)], [(1103422154816, 0), (816904125, 0), (460692, 0), (263, 0)], [(133808889, 0), (176166,
    0), (169, 0)]], 3, 4⟩, ⟨[[(0, 340500785573920768), (89756754172046962, 0), (2233685157331, 0), (725359014, 0),
    (162839, 0)], [(16230964025552742, 0), (4710586615178, 0), (1371044868, 0), (457782, 0), (182, 0)],
    [(1106844369783, 0), (782750808, 0), (434467, 0), (247, 0)], [(131114293, 0), (168800, 0), (160, 0)]], 3, 4⟩,
    1152921504606846976, 192974080896707, 188206479387342, ⟨[[(2984814867408646, 0), (0, 164913016485402),
    (165416580703, 0), (293872918, 0), (253272, 0)], [(157974897713004, 0), (0, 265386793233), (0, 542205441), (0,
    342339), (0, 167)], [(85066101340, 0), (352492482, 0), (0, 2353), (0, 38)], [(0, 83159491), (167589, 0), (33,
    0)]], 3, 4⟩, 281474976710656, 4183532082,
    10768667814480896262669826819123705334035866401498888289727300966278754872267453731934572894128032519373000930583310832454911790254666173907,
    lc0⟩) (.skip)) (.skip)))) (.sy (.sx (.sy (.sx (.leaf ⟨1958, 16, 4235, 2596, 16, 5285, ⟨[[(89296964254695424, 0),
    (95233866916869652, 0), (2454514824467, 0), (584527918, 0), (111534, 0)], [(8446984197120552, 0), (3974718127499,
    0), (1049356158, 0), (292164, 0), (97, 0)], [(822290800334, 0), (541164664, 0), (252628, 0), (122, 0)],
    [(80739183, 0), (87219, 0), (72, 0)]], 3, 4⟩, ⟨[[(0, 282729743826026496), (91213358447635754, 0), (1506286232190,
    0), (552278883, 0), (99266, 0)], [(14536401496710772, 0), (3806916604660, 0), (969804465, 0), (268316, 0), (89,
    0)], [(830130417320, 0), (518318200, 0), (237163, 0), (114, 0)], [(79423544, 0), (83537, 0), (68, 0)]], 3, 4⟩,
    1152921504606846976, 118250978239959, 115358238310278, ⟨[[(2473942784924422, 0), (0, 162824132504205),
    (146035755668, 0), (248295834, 0), (204650, 0)], [(155939532493926, 0), (0, 237551532874), (0, 457245985), (0,
    278384), (0, 132)], [(76042037392, 0), (297781640, 0), (0, 2042), (0, 29)], [(0, 70479922), (140069, 0), (26,
    0)]], 3, 4⟩, 281474976710656, 3520709354,
    10327682565063757812627301798452787275345406308732584787224739773172422166937154640572414754356120205871126049071349615024724804256703413486,
    lc0⟩) (.skip)) (.skip)) (.skip)) (.skip))
theorem c43 : checkC job ⟨6, 8, 6, 7, 9, 13⟩ 3 200 B1.zlims t43 4181 121 640 6693 175 7584 = true := by decide +kernel

def t44 : CTree :=
  .sy (.sx (.sy (.sx (.sy (.sx (.leaf ⟨1907, 16, 3908, 2551, 16, 5006, ⟨[[(491394594417934336, 0),
    (91852555638529896, 0), (4047629744413, 0), (1070094817, 0), (302807, 0)], [(12383902283231837, 0),
    (6173502999166, 0), (2165026583, 0), (874661, 0), (389, 0)], [(1508837296467, 0), (1295884933, 0), (876158, 0),
    (554, 0)], [(234851137, 0), (366911, 0), (379, 0)]], 3, 4⟩, ⟨[[(164172928236126208, 0), (88080429629987109, 0),
    (3127768479927, 0), (1000041604, 0), (277910, 0)], [(18126517566716075, 0), (5919974601768, 0), (2025462363, 0),
    (816277, 0), (363, 0)], [(1504791575512, 0), (1242666585, 0), (829544, 0), (522, 0)], [(229334966, 0), (351843,
    0), (360, 0)]], 3, 4⟩, 1152921504606846976, 311589175609126, 303792138304958, ⟨[[(3361135627935961, 0), (0,
    168136108038269), (191605371101, 0), (358836732, 0), (326237, 0)], [(161245551229722, 0), (0, 303389518537), (0,
    661809703), (0, 437435), (0, 223)], [(97367612294, 0), (428196599, 0), (0, 3157), (0, 52)], [(0, 100471394),
    (208195, 0), (43, 0)]], 3, 4⟩, 281474976710656, 5163922206,
    9581556392610076159775070638377133327867344181513104958232592545976576512903144072147305485449947616435202566339953820058775941366644285113,
    lc0⟩) (.sx (.leaf ⟨1973, 16, 4039, 2695, 16, 5282, ⟨[[(490904091803779072, 0), (96136130900895580, 0),
    (4621779614445, 0), (1290798215, 0), (397233, 0)], [(6695271741519373, 0), (3453713357056, 0), (1304447487, 0),
    (571982, 0), (266, 0)], [(425992499344, 0), (393503994, 0), (287939, 0), (190, 0)], [(36295947, 0), (60999, 0),
    (65, 0)]], 3, 4⟩, ⟨[[(0, 168018013150248960), (94115915905933722, 0), (3719379525935, 0), (1231472642, 0),
    (373541, 0)], [(9863810115467330, 0), (3381136653095, 0), (1248105901, 0), (546091, 0), (254, 0)],
    [(432940709649, 0), (385234858, 0), (278592, 0), (182, 0)], [(36133378, 0), (59717, 0), (63, 0)]], 3, 4⟩,
    1152921504606846976, 229032469877296, 227529897142410, ⟨[[(3150944763838148, 0), (0, 158769641064641),
    (173994431508, 0), (308271723, 0), (265803, 0)], [(155458763158092, 0), (0, 280501300100), (0, 578822297), (0,
    362817), (0, 175)], [(91863502714, 0), (381020139, 0), (0, 2851), (0, 42)], [(0, 90949623), (179193, 0), (36,
    0)]], 3, 4⟩, 281474976710656, 4500077775,
    11017531868157761259372378678919461433067630131667139110061786098660066593195899699936473999103472862883681934072378243802043142080005171839,
    lc0⟩) (.skip))) (.sx (.sx (.leaf ⟨1951, 16, 3941, 2670, 16, 5186, ⟨[[(405381292660621312, 0), (95457756168642408,
    0), (5289294389623, 0), (1574343026, 0), (527015, 0)], [(7364044441085332, 0), (3951293986163, 0), (1639651332,
    0), (777662, 0), (372, 0)], [(510353005186, 0), (514825217, 0), (404138, 0), (271, 0)], [(49941951, 0), (88838,
    0), (95, 0)]], 3, 4⟩, ⟨[[(0, 168232928829505536), (93478758085944806, 0), (4395044994154, 0), (1502421525, 0),
    (497732, 0)], [(10484958047988698, 0), (3869377088713, 0), (1573181862, 0), (744344, 0), (355, 0)],
    [(517109869121, 0), (504152034, 0), (391528, 0), (261, 0)], [(49644221, 0), (86996, 0), (93, 0)]], 3, 4⟩,
    1152921504606846976, 275939040886088, 274010527300018, ⟨[[(3381852298854528, 0), (0, 160554021765827),
    (188269702073, 0), (343607826, 0), (305022, 0)], [(157249714452022, 0), (0, 301522244597), (0, 644580955), (0,
    414393), (0, 204)], [(98742333654, 0), (422903037, 0), (0, 3395), (0, 49)], [(0, 100619651), (201540, 0), (41,
    0)]], 3, 4⟩, 281474976710656, 5041569610,
    9977800872879637967163395193604026160492153605756411353797242412183197606507609703407737108442425963531735852929494159594210093286522999538,
    lc0⟩) (.skip)) (.skip))) (.skip)) (.skip)) (.skip)) (.skip)
theorem c44 : checkC job ⟨6, 8, 6, 7, 9, 13⟩ 3 200 B1.zlims t44 4181 121 640 3609 175 3792 = true := by decide +kernel

def t45 : CTree :=
  .skip
theorem c45 : checkC job ⟨6, 8, 6, 7, 9, 13⟩ 3 200 B1.zlims t45 4423 121 640 1717 175 1896 = true := by decide +kernel

end PyX.Kron.P1hs
