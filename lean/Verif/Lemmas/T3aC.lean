import Verif.Lemmas.T3aJob

/-!
# The temperature from pressure and enthalpy in subregion 3a, part C of the certificate
-/

namespace PyX.Kron.T3a

set_option Elab.async false

def t46 : CTree :=
  .sx (.sy (.sy (.sx (.leaf ⟨343, 16, 365, 471, 16, 2209, ⟨[[(0, 11831612488515584), (0, 2314756507690397),
    (45707322398, 0), (0, 459582), (0, 38)], [(24302882355189662, 0), (0, 1991004507208), (19910871, 0), (1260, 0)],
    [(26920324475809, 0), (0, 605201566), (0, 27704), (7, 0)], [(15976120348, 0), (244563, 0), (0, 78)]], 3, 4⟩,
    ⟨[[(0, 13770174148546560), (0, 3212219947802336), (44502725253, 0), (0, 817065), (32, 0)], [(0,
    14382417761066968), (0, 290642135384), (10095480, 0), (0, 1325)], [(9039011008684, 0), (0, 282708635), (9507, 0),
    (0, 2)], [(3776564540, 0), (0, 28648), (32, 0)]], 3, 4⟩, 72057594037927936, 861538679755, 309919402106,
    ⟨[[(15915847214176, 0), (4152916878, 0), (0, 1146831), (109, 0), (1, 0)], [(2462194056, 0), (7423704, 0), (5645,
    0)], [(0, 7766572), (0, 22571), (0, 24)], [(20220, 0), (79, 0)]], 3, 4⟩, 17592186044416, 40167820,
    3997838321260696589674590379463614469051491619514575595242497861064508110890630122140095510203861948586433546657309812331314763,
    lc0⟩) (.leaf ⟨335, 16, 342, 468, 16, 2234, ⟨[[(9961178726850560, 0), (0, 2248229965588974), (43559273671, 0), (0,
    368737), (0, 47)], [(24970622099736034, 0), (0, 1911835326422), (16068913, 0), (1773, 0)], [(27150036083851, 0),
    (0, 533488543), (0, 35858), (7, 0)], [(15597508336, 0), (306397, 0), (0, 84)]], 3, 4⟩, ⟨[[(0, 8137796847116288),
    (0, 3261425778670301), (45454430702, 0), (0, 885792), (39, 0)], [(0, 13756674496294187), (0, 318142913114),
    (11178064, 0), (0, 1486)], [(9637949985483, 0), (0, 291035423), (13325, 0), (0, 2)], [(4062933488, 0), (0,
    51784), (27, 0)]], 3, 4⟩, 72057594037927936, 776498708815, 308247507311, ⟨[[(15914908168403, 0), (4226055073, 0),
    (0, 1048126), (84, 0)], [(2340163196, 0), (7103945, 0), (5231, 0)], [(0, 7755806), (0, 21585), (0, 22)], [(19520,
    0), (74, 0)]], 3, 4⟩, 17592186044416, 44776084,
    3117639688960946994683904757490989240333992638186014589792287610658992054000154822148530909879873814559426645194538858169428990,
    lc0⟩)) (.sx (.leaf ⟨336, 16, 375, 452, 16, 2225, ⟨[[(0, 12680231699787776), (0, 2331401667199836), (46197862217,
    0), (0, 533971), (0, 23)], [(23947147681770612, 0), (0, 2024183357729), (21964527, 0), (708, 0)],
    [(27339499892680, 0), (0, 644751488), (0, 17326), (7, 0)], [(16520212005, 0), (173664, 0), (0, 74)]], 3, 4⟩,
    ⟨[[(0, 11971478780059648), (0, 3191088820522493), (43630620642, 0), (0, 765780), (25, 0)], [(0,
    14631144686968771), (0, 283452346778), (8446379, 0), (0, 939)], [(8963681059995, 0), (0, 276763005), (6218, 0),
    (0, 2)], [(3798049747, 0), (6558, 0), (39, 0)]], 3, 4⟩, 72057594037927936, 923757906218, 305642300823,
    ⟨[[(15784236269785, 0), (4054465537, 0), (0, 1231674), (63, 0), (1, 0)], [(2479453529, 0), (7652439, 0), (6266,
    0)], [(0, 7839019), (0, 23968), (0, 28)], [(21581, 0), (87, 0)]], 3, 4⟩, 17592186044416, 45839231,
    3896245982135028678784136570328281593800685030080676922856756120734013263070745202780184813701919973496346708770337722199298370,
    lc0⟩) (.leaf ⟨329, 16, 352, 449, 16, 2251, ⟨[[(0, 1939256068698112), (0, 2269264762891185), (44196271219, 0), (0,
    460898), (0, 33)], [(24717334193556523, 0), (0, 1949894228538), (18863299, 0), (1262, 0)], [(27659898202172, 0),
    (0, 580510850), (0, 25730), (7, 0)], [(16190681691, 0), (231807, 0), (0, 80)]], 3, 4⟩, ⟨[[(0, 20748088325582848),
    (0, 3240916043806412), (44513221853, 0), (0, 818758), (34, 0)], [(0, 14019621751539593), (0, 310302160954),
    (9268519, 0), (0, 1139)], [(9567257345560, 0), (0, 281030977), (10799, 0), (0, 2)], [(4074901604, 0), (0, 22371),
    (33, 0)]], 3, 4⟩, 72057594037927936, 843712426350, 297520989477, ⟨[[(15784459981130, 0), (4131122864, 0), (0,
    1121333), (42, 0), (1, 0)], [(2352131559, 0), (7284643, 0), (5749, 0)], [(0, 7746181), (0, 22682), (0, 26)],
    [(20532, 0), (81, 0)]], 3, 4⟩, 17592186044416, 50572424,
    3117662081892901370352419528178398682380111476722287885275642990833764977889675550112857972499609524164110025576925716723891590,
    lc0⟩))) (.sy (.sx (.leaf ⟨330, 16, 387, 433, 16, 2242, ⟨[[(0, 1848832380608512), (0, 2358565774928622),
    (46820030691, 0), (0, 579913), (0, 5)], [(23670585271101355, 0), (0, 2065800728359), (23307362, 0), (118, 0)],
    [(27876789994191, 0), (0, 677636036), (0, 6546), (7, 0)], [(17120075238, 0), (105546, 0), (0, 70)]], 3, 4⟩,
    ⟨[[(2697973012844544, 0), (0, 3171902006721316), (42835944756, 0), (0, 728787), (18, 0)], [(0,
    14884274040128884), (0, 277673075592), (7435715, 0), (0, 469)], [(8893413976766, 0), (0, 274631998), (2042, 0),
    (0, 3)], [(3840785679, 0), (49282, 0), (46, 0)]], 3, 4⟩, 72057594037927936, 984961669334, 289933936608,
    ⟨[[(15653728982895, 0), (3953184132, 0), (0, 1323609), (9, 0), (1, 0)], [(2486987864, 0), (7866356, 0), (6960,
    0)], [(0, 7891924), (0, 25353), (0, 33)], [(22887, 0), (95, 0)]], 3, 4⟩, 17592186044416, 51205311,
    3307460040943845523319781899101694911522083390077433863006660020361692238595517369323718661972332360697764758506287743857146362,
    lc0⟩) (.leaf ⟨323, 16, 363, 429, 16, 2267, ⟨[[(7841461184634880, 0), (0, 2294793958793541), (44818720688, 0), (0,
    526640), (0, 17)], [(24485363513554225, 0), (0, 1990460047696), (20975673, 0), (720, 0)], [(28218014729223, 0),
    (0, 619594419), (0, 15211), (7, 0)], [(16796173308, 0), (158363, 0), (0, 78)]], 3, 4⟩, ⟨[[(22916950549909504, 0),
    (0, 3219550287719629), (43636348787, 0), (0, 761981), (28, 0)], [(0, 14273931139820495), (0, 303897832129),
    (7926270, 0), (0, 711)], [(9495652829447, 0), (0, 273746821), (7481, 0), (0, 3)], [(4101343571, 0), (13553, 0),
    (39, 0)]], 3, 4⟩, 72057594037927936, 910206790713, 290563870650, ⟨[[(15652317188769, 0), (4037606834, 0), (0,
    1203066), (0, 8), (1, 0)], [(2357469596, 0), (7471585, 0), (6365, 0)], [(0, 7747083), (0, 23857), (0, 30)],
    [(21701, 0), (88, 0)]], 3, 4⟩, 17592186044416, 56799936,
    2873756772569484436012519793296249760839221114354667493363256629841069041563745543631316124145318885624458270051980536412573017,
    lc0⟩)) (.sx (.leaf ⟨323, 16, 399, 414, 16, 2258, ⟨[[(31206275166326784, 0), (0, 2383686998084071), (47373002814,
    0), (0, 589137), (14, 0)], [(23341419677552140, 0), (0, 2105800316367), (23728447, 0), (0, 525)],
    [(28389741481281, 0), (0, 699586249), (4880, 0), (8, 0)], [(17687798738, 0), (39069, 0), (0, 67)]], 3, 4⟩,
    ⟨[[(1598429115764736, 0), (0, 3151770625458371), (42060317454, 0), (0, 704008), (12, 0)], [(0,
    15129037694863110), (0, 272357200695), (7187382, 0), (83, 0)], [(8818133388966, 0), (0, 277065452), (0, 3177),
    (0, 4)], [(3905554180, 0), (100636, 0), (55, 0)]], 3, 4⟩, 72057594037927936, 1038488134611, 272491958313,
    ⟨[[(15525486904471, 0), (3850244450, 0), (0, 1427729), (0, 53), (1, 0)], [(2504917956, 0), (8130981, 0), (7797,
    0), (1, 0)], [(0, 8034750), (0, 27134), (0, 38)], [(24501, 0), (106, 0)]], 3, 4⟩, 17592186044416, 58340655,
    2128403393984177284346911812899327154037915215010734066211406976713778546708037741218611385720800906201421313732212492602502504,
    lc0⟩) (.leaf ⟨317, 16, 374, 410, 16, 2283, ⟨[[(0, 29612389084061696), (0, 2318388459920001), (45342119645, 0),
    (0, 559874), (1, 0)], [(24203375023677190, 0), (0, 2028670904986), (22272247, 0), (134, 0)], [(28749666632522,
    0), (0, 648300732), (0, 4121), (8, 0)], [(17367265926, 0), (85120, 0), (0, 75)]], 3, 4⟩, ⟨[[(0,
    6294067693977600), (0, 3198719350281978), (42829509859, 0), (0, 714681), (24, 0)], [(0, 14526370573291806), (0,
    298446551241), (7276381, 0), (0, 211)], [(9425838328371, 0), (0, 270188498), (3247, 0), (0, 3)], [(4147685541,
    0), (56880, 0), (47, 0)]], 3, 4⟩, 72057594037927936, 972598114974, 271276870915, ⟨[[(15527982851212, 0),
    (3946505972, 0), (0, 1287399), (0, 63), (1, 0)], [(2362489326, 0), (7660223, 0), (7040, 0), (1, 0)], [(0,
    7787992), (0, 25135), (0, 34)], [(22970, 0), (97, 0)]], 3, 4⟩, 17592186044416, 63880978,
    2028630721415250964864153468478355808019207799900124164139893200441632694142396659068252650413563831145327133493945696313803737,
    lc0⟩)))) (.sy (.sx (.sy (.leaf ⟨330, 16, 322, 466, 16, 2262, ⟨[[(0, 8362801474191360), (0, 2193219001928904),
    (41581825701, 0), (0, 264693), (0, 55)], [(25736295901624826, 0), (0, 1840549570572), (11861267, 0), (2264, 0)],
    [(27447950829297, 0), (0, 460562703), (0, 44228), (7, 0)], [(15237250651, 0), (376539, 0), (0, 87)]], 3, 4⟩,
    ⟨[[(0, 8953807321124864), (0, 3316356646142283), (46525203999, 0), (0, 962522), (46, 0)], [(0,
    13087163056898936), (0, 347196077686), (12585188, 0), (0, 1615)], [(10292277452219, 0), (0, 302505275), (16566,
    0), (0, 1)], [(4353425891, 0), (0, 70790), (22, 0)]], 3, 4⟩, 72057594037927936, 681288996988, 295260975591,
    ⟨[[(15915674661575, 0), (4292536852, 0), (0, 949725), (64, 0)], [(2190932421, 0), (6726975, 0), (4792, 0)], [(0,
    7664678), (0, 20289), (0, 19)], [(18501, 0), (69, 0)]], 3, 4⟩, 17592186044416, 47409625,
    1866019497672911000197157856290449917583403070768506110121807374800981687723349504677313985391469649292774689999730623627309311,
    lc0⟩) (.leaf ⟨324, 16, 331, 446, 16, 2279, ⟨[[(0, 32655648134905856), (0, 2211837600180935), (42256092727, 0),
    (0, 371121), (0, 42)], [(25509202482758860, 0), (0, 1878129473979), (15288459, 0), (1784, 0)], [(27966950320501,
    0), (0, 513461285), (0, 34316), (7, 0)], [(15835264047, 0), (299533, 0), (0, 85)]], 3, 4⟩, ⟨[[(18861636953636864,
    0), (0, 3294928394598453), (45482650657, 0), (0, 880619), (42, 0)], [(0, 13358122456327133), (0, 338227447633),
    (10465667, 0), (0, 1301)], [(10220681848535, 0), (0, 288968657), (14698, 0), (0, 2)], [(4356287873, 0), (0,
    46811), (27, 0)]], 3, 4⟩, 72057594037927936, 752314461986, 293398919426, ⟨[[(15783226460801, 0), (4204545402, 0),
    (0, 1013166), (23, 0)], [(2200370618, 0), (6877593, 0), (5219, 0)], [(0, 7605330), (0, 21211), (0, 23)], [(19177,
    0), (73, 0)]], 3, 4⟩, 17592186044416, 53687113,
    2082851948300386373815774432456244470373110716070077577113996866873950927733574271106287927191276759853160839508569944801742117,
    lc0⟩)) (.sy (.leaf ⟨325, 16, 303, 465, 16, 2292, ⟨[[(13085188910989312, 0), (0, 2137283686508218), (39517385023,
    0), (0, 147239), (0, 62)], [(26463999926813004, 0), (0, 1766308488009), (7218189, 0), (2724, 0)],
    [(27664843760769, 0), (0, 382706869), (0, 52412), (7, 0)], [(14801308735, 0), (452798, 0), (0, 89)]], 3, 4⟩,
    ⟨[[(0, 29895506885492736), (0, 3375662064279828), (47708999197, 0), (0, 1045765), (53, 0)], [(0,
    12360956840148549), (0, 377952354091), (14270892, 0), (0, 1715)], [(10999326357007, 0), (0, 316393160), (19280,
    0), (0, 1)], [(4642853911, 0), (0, 83820), (18, 0)]], 3, 4⟩, 72057594037927936, 571190918260, 281357104679,
    ⟨[[(15916457746643, 0), (4346274756, 0), (0, 858447), (48, 0)], [(2044783726, 0), (6385171, 0), (4425, 0)], [(0,
    7640939), (0, 19173), (0, 16)], [(17926, 0), (65, 0)]], 3, 4⟩, 17592186044416, 50604744,
    1559533741774467993511605663004368379761600313662128777121312250323109020324905414637991139561721980539627677113105317430913759,
    lc0⟩) (.leaf ⟨319, 16, 311, 444, 16, 2308, ⟨[[(0, 26953549334458368), (0, 2153135537402962), (40243255386, 0),
    (0, 265951), (0, 50)], [(26254825674374894, 0), (0, 1803524772198), (11221697, 0), (2269, 0)], [(28185456428233,
    0), (0, 441243998), (0, 42739), (7, 0)], [(15402786052, 0), (375400, 0), (0, 87)]], 3, 4⟩, ⟨[[(22574499007098880,
    0), (0, 3351762379702965), (46534733223, 0), (0, 949676), (50, 0)], [(0, 12634891167528501), (0, 367398315812),
    (11983429, 0), (0, 1431)], [(10920955959558, 0), (0, 299785334), (17970, 0), (0, 1)], [(4637702560, 0), (0,
    64545), (22, 0)]], 3, 4⟩, 72057594037927936, 645469114912, 278889058395, ⟨[[(15782909890264, 0), (4266322710, 0),
    (0, 914231), (10, 0)], [(2054158906, 0), (6514743, 0), (4762, 0)], [(0, 7550205), (0, 20010), (0, 20)], [(18213,
    0), (68, 0)]], 3, 4⟩, 17592186044416, 57603297,
    1466165913120685429463569294470749379206145516619047283853909159188478682523508849701364908196309491670000061676805048254400833,
    lc0⟩))) (.sx (.sy (.leaf ⟨317, 16, 340, 426, 16, 2295, ⟨[[(0, 23982534938337280), (0, 2228707643487276),
    (42773405609, 0), (0, 452386), (0, 28)], [(25238521379440713, 0), (0, 1912183724919), (18046398, 0), (1278, 0)],
    [(28454676783550, 0), (0, 557175727), (0, 24056), (7, 0)], [(16398738794, 0), (222594, 0), (0, 83)]], 3, 4⟩,
    ⟨[[(31538715849879552, 0), (0, 3272725159800017), (44528484766, 0), (0, 805819), (38, 0)], [(0,
    13620384910808186), (0, 330915182113), (8857387, 0), (0, 912)], [(10149876034727, 0), (0, 277425422), (12115, 0),
    (0, 2)], [(4370476318, 0), (0, 17270), (33, 0)]], 3, 4⟩, 72057594037927936, 823254606005, 283116885340,
    ⟨[[(15652879639606, 0), (4115007897, 0), (0, 1084106), (0, 22)], [(2217784877, 0), (7068199, 0), (5762, 0)], [(0,
    7619347), (0, 22346), (0, 27)], [(20366, 0), (81, 0)]], 3, 4⟩, 17592186044416, 62249823,
    2017446307606480526954810579544913634097419594616271596588556994438158012601379754516594114000632944493204967481947458085242185,
    lc0⟩) (.leaf ⟨310, 16, 350, 407, 16, 2311, ⟨[[(10864500177088512, 0), (0, 2250414609490614), (43295637910, 0),
    (0, 505848), (0, 12)], [(24997511586036553, 0), (0, 1948922860797), (20126457, 0), (741, 0)], [(28998365217516,
    0), (0, 592722011), (0, 13424), (7, 0)], [(16975020429, 0), (145892, 0), (0, 81)]], 3, 4⟩, ⟨[[(0,
    28303294734426112), (0, 3251117696270111), (43673297514, 0), (0, 737701), (35, 0)], [(0, 13880473823555304), (0,
    324848716602), (7877082, 0), (0, 457)], [(10083198064494, 0), (0, 268791820), (8712, 0), (0, 3)], [(4400968823,
    0), (18510, 0), (39, 0)]], 3, 4⟩, 72057594037927936, 892550193280, 272600740818, ⟨[[(15527941940183, 0),
    (4020485425, 0), (0, 1163274), (0, 71), (1, 0)], [(2242240905, 0), (7284408, 0), (6410, 0), (1, 0)], [(0,
    7691233), (0, 23691), (0, 31)], [(21901, 0), (90, 0)]], 3, 4⟩, 17592186044416, 72123686,
    1647386167980204812569647630237639395451241130341150274046757222885608254464810457646064786864521488056366287313493561524283408,
    lc0⟩)) (.sy (.leaf ⟨312, 16, 319, 424, 16, 2325, ⟨[[(0, 30267546116640768), (0, 2167308599493146), (40796954602,
    0), (0, 361714), (0, 37)], [(26004710403726488, 0), (0, 1836736830864), (14612229, 0), (1793, 0)],
    [(28673166663936, 0), (0, 491048979), (0, 32811), (7, 0)], [(15970242218, 0), (297882, 0), (0, 85)]], 3, 4⟩,
    ⟨[[(16264562994204672, 0), (0, 3330083548690432), (45511397055, 0), (0, 858508), (47, 0)], [(0,
    12910877596228776), (0, 358986684705), (10166844, 0), (0, 1077)], [(10854196059246, 0), (0, 284810441), (16016,
    0), (0, 2)], [(4645159362, 0), (0, 40597), (27, 0)]], 3, 4⟩, 72057594037927936, 718305983388, 278996980912,
    ⟨[[(15653993277246, 0), (4180035660, 0), (0, 974362), (0, 31)], [(2075097736, 0), (6683324, 0), (5205, 0)], [(0,
    7531492), (0, 20978), (0, 24)], [(19118, 0), (73, 0)]], 3, 4⟩, 17592186044416, 67064711,
    1170402438819976211462861260685239571639134788602646934885666008306804860928284258727311056638483947280425265779646043911317681,
    lc0⟩) (.leaf ⟨305, 16, 328, 404, 16, 2341, ⟨[[(0, 593528140222464), (0, 2186637863939768), (41338405945, 0), (0,
    432338), (0, 22)], [(25794332131325675, 0), (0, 1872216709169), (17388426, 0), (1296, 0)], [(29221100070193, 0),
    (0, 533192152), (0, 22652), (7, 0)], [(16552911948, 0), (220603, 0), (0, 84)]], 3, 4⟩, ⟨[[(0, 3982915248115712),
    (0, 3307622025702689), (44593711011, 0), (0, 771047), (45, 0)], [(0, 13178722729773821), (0, 351895987606),
    (8915411, 0), (0, 662)], [(10788775899089, 0), (0, 271931043), (13306, 0), (0, 2)], [(4663789822, 0), (0, 11401),
    (32, 0)]], 3, 4⟩, 72057594037927936, 794131599189, 269045717801, ⟨[[(15527014399256, 0), (4092115835, 0), (0,
    1042132), (0, 77)], [(2097122508, 0), (6868695, 0), (5753, 0)], [(0, 7543251), (0, 22051), (0, 28)], [(20380, 0),
    (81, 0)]], 3, 4⟩, 17592186044416, 78226118,
    844509635700864252274354621359216753403525701631316161075671878674622410447295642898701657271866775721330397974645594134966479,
    lc0⟩))))
theorem c46 : checkR job con0 false ⟨7, 9, 7, 9, 13, 17⟩ 1 30400 t46 621 21 320 15247 251 16000 = true := by decide +kernel

def t47 : CTree :=
  .sx (.sy (.sx (.leaf ⟨317, 16, 412, 395, 16, 2273, ⟨[[(0, 457816421191680), (0, 2412688590052686), (48033349323,
    0), (0, 557347), (36, 0)], [(23016447269167116, 0), (0, 2150393879539), (23165719, 0), (0, 1237)],
    [(28954366952818, 0), (0, 711272255), (17110, 0), (8, 0)], [(18267528799, 0), (0, 25693), (0, 63)]], 3, 4⟩,
    ⟨[[(0, 13240892030877696), (0, 3130729083753697), (41288630065, 0), (0, 688501), (8, 0)], [(0,
    15365319217523273), (0, 266686291726), (7821430, 0), (704, 0)], [(8735382140271, 0), (0, 285239399), (0, 9629),
    (0, 5)], [(3997154142, 0), (161930, 0), (65, 0)]], 3, 4⟩, 72057594037927936, 1088085258534, 250784469030,
    ⟨[[(15402289573684, 0), (3755189363, 0), (0, 1536233), (0, 125), (1, 0)], [(2508644611, 0), (8364628, 0), (8680,
    0), (1, 0)], [(0, 8135350), (0, 28824), (0, 43)], [(25706, 0), (116, 0)]], 3, 4⟩, 17592186044416, 64792401,
    1314491947307431168903215523128813825212977427363318150071366673008514281431039542710899393204864243800275475957678376571272705,
    lc0⟩) (.leaf ⟨309, 16, 385, 390, 16, 2299, ⟨[[(31437012601556992, 0), (0, 2340146944129600), (45818298027, 0),
    (0, 555841), (20, 0)], [(23872668534623729, 0), (0, 2065375290091), (22652921, 0), (0, 506)], [(29260154492517,
    0), (0, 665665389), (7643, 0), (8, 0)], [(17902871700, 0), (11914, 0), (0, 73)]], 3, 4⟩, ⟨[[(35633390031532032,
    0), (0, 3178367103617208), (42080698712, 0), (0, 674357), (21, 0)], [(0, 14777209255818853), (0, 293203558348),
    (7424220, 0), (348, 0)], [(9355711052291, 0), (0, 271387355), (0, 2072), (0, 4)], [(4218067297, 0), (108726, 0),
    (56, 0)]], 3, 4⟩, 72057594037927936, 1025807792521, 250644577176, ⟨[[(15398632550253, 0), (3847215423, 0), (0,
    1389767), (0, 130), (1, 0)], [(2384810940, 0), (7929264, 0), (7923, 0), (1, 0)], [(0, 7960591), (0, 27034), (0,
    40)], [(24788, 0), (109, 0)]], 3, 4⟩, 17592186044416, 74811333,
    1305326354488997699431140738131382252941936031251908490875535294100979474265278088923663646886346761777600685491985237864060489,
    lc0⟩)) (.sx (.leaf ⟨310, 16, 425, 376, 16, 2289, ⟨[[(0, 12288000585838592), (0, 2439482907690933), (48750804992,
    0), (0, 477474), (60, 0)], [(22634971917096896, 0), (0, 2195406834514), (21409333, 0), (0, 2036)],
    [(29505156157462, 0), (0, 709661997), (30313, 0), (9, 0)], [(18814733488, 0), (0, 88912), (0, 59)]], 3, 4⟩,
    ⟨[[(0, 16184080737914880), (0, 3111541384834264), (40546813724, 0), (0, 678112), (7, 0)], [(0,
    15606201600815013), (0, 259953470002), (9442592, 0), (1376, 0)], [(8649600334059, 0), (0, 300809023), (0, 17574),
    (0, 6)], [(4124703582, 0), (234938, 0), (78, 0)]], 3, 4⟩, 72057594037927936, 1135202978753, 220567169525,
    ⟨[[(15279764091646, 0), (3656146328, 0), (0, 1656806), (0, 211), (1, 0)], [(2521101894, 0), (8641084, 0), (9715,
    0), (2, 0)], [(0, 8300440), (0, 30884), (0, 50)], [(26949, 0), (128, 0)]], 3, 4⟩, 17592186044416, 73388476,
    3014746173181768365425028204188973493769611106241096258042745697751511564544115621537656331276290642746417537684314767068616211,
    lc0⟩) (.leaf ⟨302, 16, 397, 371, 16, 2315, ⟨[[(31284746038222848, 0), (0, 2366071572327549), (46424455248, 0),
    (0, 511638), (41, 0)], [(23553415761108891, 0), (0, 2106865870835), (22053437, 0), (0, 1218)], [(29830601751287,
    0), (0, 672302865), (20259, 0), (8, 0)], [(18448323417, 0), (0, 61707), (0, 72)]], 3, 4⟩, ⟨[[(4505310106578944,
    0), (0, 3158446746543190), (41382685556, 0), (0, 637041), (21, 0)], [(0, 15026317562644626), (0, 287324592076),
    (8449293, 0), (945, 0)], [(9282584992356, 0), (0, 278576713), (0, 8697), (0, 5)], [(4317273132, 0), (170441, 0),
    (66, 0)]], 3, 4⟩, 72057594037927936, 1082976528791, 222934813676, ⟨[[(15277236550784, 0), (3751392264, 0), (0,
    1496239), (0, 205), (1, 0)], [(2400352253, 0), (8179546, 0), (8857, 0), (2, 0)], [(0, 8116967), (0, 28932), (0,
    46)], [(26267, 0), (121, 0)]], 3, 4⟩, 17592186044416, 85799241,
    2991115429211314857367837824973417016077105052621417444126232850788880278398236761000331392167537064095615832505343671956758301,
    lc0⟩))) (.sy (.sx (.leaf ⟨303, 16, 360, 387, 16, 2327, ⟨[[(2973024203743232, 0), (0, 2270398512379724),
    (43740028943, 0), (0, 526401), (6, 0)], [(24710708208992817, 0), (0, 1983396460202), (21398296, 0), (160, 0)],
    [(29518335635110, 0), (0, 617706978), (0, 2235), (8, 0)], [(17514657593, 0), (68175, 0), (0, 80)]], 3, 4⟩, ⟨[[(0,
    16671707696750592), (0, 3230018983952830), (42909097523, 0), (0, 674354), (33, 0)], [(0, 14138820732756474), (0,
    319356065772), (7617827, 0), (49, 0)], [(10018999875554, 0), (0, 263985653), (4342, 0), (0, 3)], [(4451232323,
    0), (61394, 0), (46, 0)]], 3, 4⟩, 72057594037927936, 955963644403, 255231831156, ⟨[[(15402382027419, 0),
    (3932387824, 0), (0, 1245578), (0, 129), (1, 0)], [(2252613041, 0), (7480046, 0), (7126, 0), (1, 0)], [(0,
    7763935), (0, 25073), (0, 36)], [(23395, 0), (100, 0)]], 3, 4⟩, 17592186044416, 83317209,
    1062791878198867414250991922358724220427117472433678215056539194573698045207840307904336150451291738276442781101654189318612597,
    lc0⟩) (.leaf ⟨298, 16, 337, 384, 16, 2357, ⟨[[(0, 10329640440266752), (0, 2204339798952034), (41777434414, 0),
    (0, 473658), (0, 7)], [(25541114725792472, 0), (0, 1904787658069), (19443750, 0), (763, 0)], [(29742971118382,
    0), (0, 565551069), (0, 12066), (7, 0)], [(17099501879, 0), (141933, 0), (0, 83)]], 3, 4⟩, ⟨[[(0,
    24447364085133312), (0, 3285714552044704), (43797411466, 0), (0, 686496), (44, 0)], [(0, 13444462231193839), (0,
    345678203107), (8316656, 0), (0, 205)], [(10728157348955, 0), (0, 262110448), (9717, 0), (0, 3)], [(4698481492,
    0), (23661, 0), (38, 0)]], 3, 4⟩, 72057594037927936, 869663446062, 257060283651, ⟨[[(15403237075735, 0),
    (4007913213, 0), (0, 1112310), (0, 129), (1, 0)], [(2111556149, 0), (7043868, 0), (6370, 0), (1, 0)], [(0,
    7579559), (0, 23188), (0, 32)], [(21786, 0), (90, 0)]], 3, 4⟩, 17592186044416, 91085485,
    1020123766125428279473651316130222419461815539913519681487286163381742467163062476171634687488566601424631023006602046591886126,
    lc0⟩)) (.sx (.leaf ⟨296, 16, 371, 367, 16, 2343, ⟨[[(11326257160671232, 0), (0, 2294919743890367), (44277813504,
    0), (0, 512150), (24, 0)], [(24445227565302391, 0), (0, 2021895255908), (21820219, 0), (0, 478)],
    [(30101142037525, 0), (0, 632905814), (9638, 0), (8, 0)], [(18064568221, 0), (0, 11100), (0, 80)]], 3, 4⟩, ⟨[[(0,
    5708369972441088), (0, 3209347593911508), (42231545348, 0), (0, 612757), (33, 0)], [(0, 14395499748537475), (0,
    313680766533), (8142441, 0), (579, 0)], [(9955116406432, 0), (0, 264101911), (0, 1189), (0, 4)], [(4525236705,
    0), (112435, 0), (55, 0)]], 3, 4⟩, 72057594037927936, 1018540143988, 230751139057, ⟨[[(15278425707065, 0),
    (3842609443, 0), (0, 1337493), (0, 197), (1, 0)], [(2263683969, 0), (7687843, 0), (7950, 0), (1, 0)], [(0,
    7870401), (0, 26669), (0, 41)], [(24915, 0), (111, 0)]], 3, 4⟩, 17592186044416, 96296261,
    2714600186023326513029823853638577836066065007279399240963668767753768970593601883243621248151223431363186518501069905941138722,
    lc0⟩) (.leaf ⟨290, 16, 346, 363, 16, 2373, ⟨[[(13938895654846464, 0), (0, 2220513629358804), (42158987650, 0),
    (0, 483189), (10, 0)], [(25246592755633475, 0), (0, 1935171973971), (20694096, 0), (184, 0)], [(30243643012982,
    0), (0, 587359212), (0, 975), (8, 0)], [(17608034274, 0), (61272, 0), (0, 83)]], 3, 4⟩, ⟨[[(26830839172087808,
    0), (0, 3264248054264604), (43120406982, 0), (0, 602919), (44, 0)], [(0, 13708336665017108), (0, 339654934778),
    (8418504, 0), (265, 0)], [(10670603131776, 0), (0, 256340104), (5074, 0), (0, 4)], [(4752491352, 0), (65382, 0),
    (45, 0)]], 3, 4⟩, 72057594037927936, 942171827025, 243102183910, ⟨[[(15276560757206, 0), (3922769073, 0), (0,
    1191631), (0, 190), (1, 0)], [(2127917019, 0), (7243022, 0), (7120, 0), (1, 0)], [(0, 7684584), (0, 24643), (0,
    37)], [(23498, 0), (101, 0)]], 3, 4⟩, 17592186044416, 108713032,
    2120173987194407087826136735478074961012172222492920269808956008759040321755264143704939016131838273881816692456489881915423395,
    lc0⟩)))
theorem c47 : checkR job con0 false ⟨7, 9, 7, 9, 13, 17⟩ 1 30400 t47 621 21 320 31247 251 32000 = true := by decide +kernel

def t48 : CTree :=
  .sx (.sy (.sx (.leaf ⟨303, 16, 439, 357, 16, 2305, ⟨[[(0, 24783359798202368), (0, 2469622813264747), (49719265763,
    0), (0, 345514), (85, 0)], [(22247476808309589, 0), (0, 2247322089446), (18317780, 0), (0, 2952)],
    [(30118117088861, 0), (0, 694881927), (44778, 0), (9, 0)], [(19373366012, 0), (0, 150920), (0, 56)]], 3, 4⟩,
    ⟨[[(0, 20528120419475456), (0, 3092809641987589), (39813988393, 0), (0, 665785), (10, 0)], [(0,
    15844103835210133), (0, 251003570203), (12111661, 0), (2071, 0)], [(8552769296834, 0), (0, 325357818), (0,
    27329), (0, 7)], [(4293072003, 0), (321623, 0), (92, 0)]], 3, 4⟩, 72057594037927936, 1168879759341, 182548193369,
    ⟨[[(15159238345536, 0), (3556479193, 0), (0, 1790109), (0, 316), (1, 0)], [(2533683969, 0), (8934756, 0), (10882,
    0), (4, 0)], [(0, 8460871), (0, 33099), (0, 58)], [(27818, 0), (141, 0)]], 3, 4⟩, 17592186044416, 83279280,
    4147836890426281946257233592126763170336076672959213947458755069954967851600249511109669714102197501551898591904629750390176275,
    lc0⟩) (.leaf ⟨295, 16, 409, 352, 16, 2331, ⟨[[(0, 17272560277327872), (0, 2389945742387802), (47107705112, 0),
    (0, 422259), (62, 0)], [(23181284957979855, 0), (0, 2148877498006), (20258310, 0), (0, 2024)], [(30390931617014,
    0), (0, 665159632), (33898, 0), (9, 0)], [(18955638742, 0), (0, 136396), (0, 71)]], 3, 4⟩, ⟨[[(0,
    27680769167523840), (0, 3138914912399420), (40735346705, 0), (0, 597203), (24, 0)], [(0, 15273121698363947), (0,
    279898454924), (10390606, 0), (1545, 0)], [(9203071609166, 0), (0, 293249760), (0, 16911), (0, 6)], [(4450866238,
    0), (243658, 0), (78, 0)]], 3, 4⟩, 72057594037927936, 1131340332435, 188862783068, ⟨[[(15159373766791, 0),
    (3660641319, 0), (0, 1607511), (0, 292), (1, 0)], [(2410658962, 0), (8423571, 0), (9861, 0), (3, 0)], [(0,
    8266864), (0, 30896), (0, 52)], [(27397, 0), (133, 0)]], 3, 4⟩, 17592186044416, 98205727,
    4336657640616704990360054254386160292015341581383004834039648110665603467369296212402035370997294129895629855125027042511520970,
    lc0⟩)) (.sx (.leaf ⟨295, 16, 454, 337, 16, 2320, ⟨[[(27655378347225088, 0), (0, 2502605045578729), (51025172916,
    0), (0, 156661), (112, 0)], [(21845295906611922, 0), (0, 2307636977322), (13626724, 0), (0, 4026), (0, 1)],
    [(30799334958403, 0), (0, 664902270), (60826, 0), (10, 0)], [(19942698876, 0), (0, 212173), (0, 54)]], 3, 4⟩,
    ⟨[[(35215596902051840, 0), (0, 3073203596521645), (39082821268, 0), (0, 642367), (18, 0)], [(0,
    16070677480539895), (0, 238652231095), (15833902, 0), (2746, 0)], [(8436161437016, 0), (0, 360812478), (0,
    39285), (0, 9)], [(4508067287, 0), (424219, 0), (108, 0)]], 3, 4⟩, 72057594037927936, 1204915781899,
    138363739919, ⟨[[(15035350891659, 0), (3452424179, 0), (0, 1949318), (0, 456), (1, 0)], [(2554221446, 0),
    (9296376, 0), (12307, 0), (6, 0)], [(0, 8644276), (0, 35765), (0, 68)], [(28393, 0), (155, 0)]], 3, 4⟩,
    17592186044416, 96593868,
    4545253465745257745812634576836397047191935481898253570733053780604442650678593524994035196779959019112763904249673108037169785,
    lc0⟩) (.sy (.leaf ⟨401, 16, 581, 521, 16, 3623, ⟨[[(7963652206415872, 0), (0, 1672427047249007), (16580503328,
    0), (0, 56350), (7, 0)], [(31784518492519534, 0), (0, 1516119275308), (6258770, 0), (0, 470)], [(42823216750532,
    0), (0, 451637808), (15607, 0), (2, 0)], [(26840050640, 0), (0, 134459), (0, 25)]], 3, 4⟩, ⟨[[(9951464066080768,
    0), (0, 2415714064626727), (15574546387, 0), (0, 108521), (3, 0)], [(0, 23899898024901681), (0, 210880671766),
    (4808432, 0), (381, 0)], [(14128199060762, 0), (0, 239870280), (0, 9405), (0, 1)], [(7078223986, 0), (237584, 0),
    (34, 0)]], 3, 4⟩, 72057594037927936, 1545330146329, 179723492022, ⟨[[(15067253445563, 0), (2320375472, 0), (0,
    713622), (0, 101)], [(1747457344, 0), (4031485, 0), (3245, 0), (1, 0)], [(0, 4369371), (0, 10984), (0, 13)],
    [(10537, 0), (34, 0)]], 3, 4⟩, 17592186044416, 11794019,
    4659080128886738386673314456715663263915921051786187243168971271528264932943788181305445137170449948948451580441217423893252968,
    lc0⟩) (.leaf ⟨397, 16, 592, 505, 16, 3629, ⟨[[(0, 7790970816413696), (0, 1687168685238210), (16818880716, 0), (0,
    42627), (8, 0)], [(31612333215959162, 0), (0, 1538803348778), (5595363, 0), (0, 560)], [(43407183955491, 0), (0,
    442978355), (18390, 0), (2, 0)], [(27273120866, 0), (0, 162109), (0, 25)]], 3, 4⟩, ⟨[[(14283242761256960, 0), (0,
    2404132703201307), (15440961415, 0), (0, 102817), (3, 0)], [(0, 24044252103885388), (0, 206093102865), (5428485,
    0), (430, 0)], [(14028432624388, 0), (0, 250784540), (0, 11566), (0, 1)], [(7218214970, 0), (273523, 0), (37,
    0)]], 3, 4⟩, 72057594037927936, 1574519617907, 140460926000, ⟨[[(15008312588423, 0), (2294468249, 0), (0,
    744001), (0, 118)], [(1746742466, 0), (4092273, 0), (3430, 0), (1, 0)], [(0, 4380450), (0, 11321), (0, 13)],
    [(10532, 0), (36, 0)]], 3, 4⟩, 17592186044416, 12150390,
    4923472335015739159948276663390405199975224035223013483994208181450474435221218210881336753524197918696605106597178640801123339,
    lc0⟩)))) (.sy (.sx (.leaf ⟨289, 16, 382, 347, 16, 2359, ⟨[[(0, 26320518524919808), (0, 2317573972529439),
    (44843231477, 0), (0, 459234), (43, 0)], [(24130510917273344, 0), (0, 2059832989869), (21202366, 0), (0, 1195)],
    [(30670031075989, 0), (0, 635481523), (22362, 0), (8, 0)], [(18573885291, 0), (0, 93038), (0, 81)]], 3, 4⟩,
    ⟨[[(4539318620348416, 0), (0, 3189023206049470), (41641664907, 0), (0, 548782), (35, 0)], [(0,
    14650191294005074), (0, 307019551520), (9467638, 0), (1097, 0)], [(9888760328615, 0), (0, 270465984), (0, 8133),
    (0, 5)], [(4627561746, 0), (172914, 0), (64, 0)]], 3, 4⟩, 72057594037927936, 1083280356200, 201577803040,
    ⟨[[(15157953549660, 0), (3757811051, 0), (0, 1433252), (0, 275), (1, 0)], [(2269245396, 0), (7886053, 0), (8840,
    0), (2, 0)], [(0, 7983277), (0, 28352), (0, 47)], [(26195, 0), (122, 0)]], 3, 4⟩, 17592186044416, 111336319,
    4275165863279351747485599991211488798047525015110896357489765541038471404649488909741947858337331528544383514945951870600281068,
    lc0⟩) (.leaf ⟨283, 16, 356, 343, 16, 2389, ⟨[[(0, 13349458255736832), (0, 2241508112789173), (42651966520, 0),
    (0, 461024), (26, 0)], [(24982099482109522, 0), (0, 1969742267684), (21094138, 0), (0, 459)], [(30815093360787,
    0), (0, 599450109), (10744, 0), (8, 0)], [(18127133388, 0), (0, 22242), (0, 85)]], 3, 4⟩, ⟨[[(5691724747493376,
    0), (0, 3243109033731475), (42563977286, 0), (0, 517778), (45, 0)], [(0, 13970237740488034), (0, 333119112268),
    (9217429, 0), (709, 0)], [(10613814187595, 0), (0, 255819066), (0, 851), (0, 4)], [(4829538111, 0), (114730, 0),
    (53, 0)]], 3, 4⟩, 72057594037927936, 1014617440903, 219476483664, ⟨[[(15157379802533, 0), (3840669322, 0), (0,
    1273926), (0, 258), (1, 0)], [(2137566667, 0), (7418027, 0), (7912, 0), (2, 0)], [(0, 7779306), (0, 26108), (0,
    42)], [(24962, 0), (113, 0)]], 3, 4⟩, 17592186044416, 127213129,
    3614574721159314964205337230165166669067379242954445031920859466337452495043576684313621925672444276780898660422753652843103577,
    lc0⟩)) (.sx (.sy (.leaf ⟨387, 16, 535, 518, 16, 3699, ⟨[[(29073580254769152, 0), (0, 1599392655950708),
    (15533378283, 0), (0, 67464), (5, 0)], [(32713314585493327, 0), (0, 1431653608481), (6840159, 0), (0, 308)],
    [(42624078934506, 0), (0, 430714182), (11158, 0), (1, 0)], [(25948156447, 0), (0, 107469), (0, 28)]], 3, 4⟩,
    ⟨[[(14985533134192640, 0), (0, 2475846826772614), (16092955599, 0), (0, 96763), (4, 0)], [(0, 23151096723847671),
    (0, 234714563818), (4274741, 0), (282, 0)], [(15344018125222, 0), (0, 218649721), (0, 5640), (0, 1)],
    [(7373128935, 0), (175813, 0), (28, 0)]], 3, 4⟩, 72057594037927936, 1477225729992, 217437328781,
    ⟨[[(15066597968535, 0), (2362507494, 0), (0, 625102), (0, 91)], [(1673346116, 0), (3794458, 0), (2905, 0), (1,
    0)], [(0, 4353220), (0, 10310), (0, 11)], [(10670, 0), (33, 0)]], 3, 4⟩, 17592186044416, 14438488,
    4714162666012313827235722090370216253203032471053020851638816852934039612377159963320478834297439262299265349316266670083047065,
    lc0⟩) (.leaf ⟨383, 16, 544, 502, 16, 3705, ⟨[[(0, 25521608538656768), (0, 1610489752453950), (15699140847, 0),
    (0, 58066), (6, 0)], [(32534562646226402, 0), (0, 1449009338489), (6429522, 0), (0, 385)], [(43124315123709, 0),
    (0, 425418011), (13645, 0), (2, 0)], [(26322627157, 0), (0, 137899), (0, 29)]], 3, 4⟩, ⟨[[(0, 12364988662472704),
    (0, 2463750597763411), (15978926336, 0), (0, 89080), (4, 0)], [(0, 23305551015090295), (0, 230572867033),
    (4736660, 0), (321, 0)], [(15257390444363, 0), (0, 225597174), (0, 7516), (0, 1)], [(7480825896, 0), (205709, 0),
    (31, 0)]], 3, 4⟩, 72057594037927936, 1519416470771, 183110942872, ⟨[[(15009597146285, 0), (2340338519, 0), (0,
    649219), (0, 104)], [(1672082702, 0), (3842243, 0), (3061, 0), (1, 0)], [(0, 4366695), (0, 10611), (0, 12)],
    [(10746, 0), (35, 0)]], 3, 4⟩, 17592186044416, 15117644,
    5040748652473792130609547306905576549243573119443226883571735232651099411769129427774001056396855752965202597374015844022125552,
    lc0⟩)) (.sy (.leaf ⟨376, 16, 493, 517, 16, 3783, ⟨[[(0, 32603102900097024), (0, 1529948747138746), (14594820271,
    0), (0, 71685), (3, 0)], [(33573092827790750, 0), (0, 1353067369538), (7023426, 0), (0, 169)], [(42363852921368,
    0), (0, 407155075), (6795, 0), (1, 0)], [(25074850368, 0), (0, 59430), (0, 29)]], 3, 4⟩, ⟨[[(0,
    31173672940609536), (0, 2542534560754209), (16633884010, 0), (0, 88855), (5, 0)], [(0, 22318447012623893), (0,
    257981542870), (4030116, 0), (195, 0)], [(16653959735493, 0), (0, 204626129), (0, 2486), (0, 1)], [(7728272817,
    0), (124036, 0), (23, 0)]], 3, 4⟩, 72057594037927936, 1381661313247, 265967227245, ⟨[[(15069446083726, 0),
    (2397749551, 0), (0, 540713), (0, 81)], [(1585808692, 0), (3543831, 0), (2552, 0)], [(0, 4294285), (0, 9479), (0,
    10)], [(10473, 0), (31, 0)]], 3, 4⟩, 17592186044416, 17024135,
    4208742137293616071499733158257342402339223705718812074202501660217723879227370214941874412584001779454361642913398760229076649,
    lc0⟩) (.leaf ⟨371, 16, 501, 500, 16, 3788, ⟨[[(0, 9959224150167552), (0, 1539937908697835), (14727054595, 0), (0,
    65880), (4, 0)], [(33429402419548044, 0), (0, 1368003749441), (6830699, 0), (0, 236)], [(42845506818608, 0), (0,
    405774078), (9011, 0), (1, 0)], [(25443925246, 0), (0, 90304), (0, 30)]], 3, 4⟩, ⟨[[(0, 30850295335346176), (0,
    2529237451528510), (16528931352, 0), (0, 79554), (5, 0)], [(0, 22476580640334123), (0, 254115685799), (4351778,
    0), (223, 0)], [(16572351560066, 0), (0, 208206467), (0, 4135), (0, 1)], [(7806873922, 0), (148565, 0), (25,
    0)]], 3, 4⟩, 72057594037927936, 1435586273782, 239456214558, ⟨[[(15009778852527, 0), (2374769243, 0), (0,
    563641), (0, 93)], [(1592127617, 0), (3601308, 0), (2712, 0)], [(0, 4335121), (0, 9839), (0, 11)], [(10733, 0),
    (33, 0)]], 3, 4⟩, 17592186044416, 18282144,
    4801271212447350846302820921813932188210067147167728376544087805813277125704649222472121143046502664455336176599476923259849588,
    lc0⟩))))
theorem c48 : checkR job con0 false ⟨7, 9, 7, 9, 13, 17⟩ 1 30400 t48 621 21 320 31749 251 32000 = true := by decide +kernel

def t49 : CTree :=
  .sy (.sx (.sy (.leaf ⟨321, 16, 285, 464, 16, 2324, ⟨[[(1726595203121152, 0), (0, 2080695790635383), (37361701948,
    0), (0, 18596), (0, 69)], [(27152026787570124, 0), (0, 1689179413917), (2195446, 0), (3152, 0)],
    [(27799173770178, 0), (0, 299668998), (0, 60190), (7, 0)], [(14281991386, 0), (533870, 0), (0, 89)]], 3, 4⟩,
    ⟨[[(3171297564237824, 0), (0, 3439459684709420), (49018572510, 0), (0, 1134563), (58, 0)], [(0,
    11571386522607456), (0, 410638307865), (16199793, 0), (0, 1790)], [(11759988231527, 0), (0, 331877770), (21556,
    0)], [(4925164905, 0), (0, 89255), (14, 0)]], 3, 4⟩, 72057594037927936, 441059319190, 260660504028,
    ⟨[[(15914894179737, 0), (4395690326, 0), (0, 769590), (35, 0)], [(1878379605, 0), (6029992, 0), (4109, 0)], [(0,
    7595757), (0, 17958), (0, 13)], [(17665, 0), (62, 0)]], 3, 4⟩, 17592186044416, 53166397,
    2908393193871361777048845173741116641775561223657666343345814846577485466922644728180492495099452472862294879119084400057547883,
    lc0⟩) (.leaf ⟨314, 16, 292, 443, 16, 2341, ⟨[[(13765316262023168, 0), (0, 2093416675226244), (38150258504, 0),
    (0, 148049), (0, 58)], [(26951082384755365, 0), (0, 1726098241927), (6724663, 0), (2715, 0)], [(28313218061413,
    0), (0, 363420955), (0, 50729), (7, 0)], [(14884792403, 0), (457822, 0), (0, 87)]], 3, 4⟩, ⟨[[(34041630622347264,
    0), (0, 3415878991208349), (47744303102, 0), (0, 1026101), (57, 0)], [(0, 11859787299478555), (0, 398558775205),
    (13795286, 0), (0, 1536)], [(11683593272609, 0), (0, 312944328), (20744, 0), (0, 1)], [(4919964415, 0), (0,
    73736), (18, 0)]], 3, 4⟩, 72057594037927936, 518291714890, 260501538605, ⟨[[(15781226006168, 0), (4312905228, 0),
    (0, 821527)], [(1906997848, 0), (6175368, 0), (4372, 0)], [(0, 7556435), (0, 18982), (0, 17)], [(17690, 0), (64,
    0)]], 3, 4⟩, 17592186044416, 62306154,
    3005343434458954556765327893694219736650649445567504664650803345384154758114812839846350340411776841714720236415973849684066600,
    lc0⟩)) (.sy (.leaf ⟨317, 16, 268, 464, 16, 2358, ⟨[[(29615598001803264, 0), (0, 2023755630030774), (35113705512,
    0), (119204, 0), (0, 75)], [(27799819838647296, 0), (0, 1609237019814), (0, 3139420), (3550, 0)],
    [(27849500135919, 0), (0, 211381430), (0, 67379), (7, 0)], [(13670371249, 0), (618008, 0), (0, 87)]], 3, 4⟩,
    ⟨[[(20679722921517056, 0), (0, 3507878602330319), (50465652731, 0), (0, 1228090), (64, 0)], [(0,
    10711582983360067), (0, 445406555210), (18345262, 0), (0, 1843)], [(12574235888489, 0), (0, 347945061), (23514,
    0)], [(5191004774, 0), (0, 85855), (12, 0)]], 3, 4⟩, 72057594037927936, 290929589024, 225189049333,
    ⟨[[(15913190820507, 0), (4433013773, 0), (0, 686694), (26, 0)], [(1712307205, 0), (5708960, 0), (3895, 0)], [(0,
    7575115), (0, 16791), (0, 9)], [(18184, 0), (62, 0)]], 3, 4⟩, 17592186044416, 56304503,
    3543520050007762420525371184751556277627234834149704634411338117687848649784939026741440090398974059136121433783227031661390790,
    lc0⟩) (.leaf ⟨310, 16, 274, 443, 16, 2375, ⟨[[(16463289166491648, 0), (0, 2032965315048666), (35973495886, 0),
    (0, 19894), (0, 64)], [(27595915212792411, 0), (0, 1645871152360), (1875032, 0), (3125, 0)], [(28348065202946,
    0), (0, 279809340), (0, 58066), (7, 0)], [(14271524982, 0), (544627, 0), (0, 85)]], 3, 4⟩, ⟨[[(14092091254366208,
    0), (0, 3483038423826530), (49063954063, 0), (0, 1107766), (64, 0)], [(0, 11009585721112244), (0, 431413555598),
    (15853921, 0), (0, 1617)], [(12494896159297, 0), (0, 326903451), (23137, 0), (0, 1)], [(5188302827, 0), (0,
    72843), (15, 0)]], 3, 4⟩, 72057594037927936, 368573890387, 236024993933, ⟨[[(15782491608665, 0), (4355451955, 0),
    (0, 732541), (0, 5)], [(1745264923, 0), (5832259, 0), (4043, 0)], [(0, 7564111), (0, 17925), (0, 13)], [(17601,
    0), (61, 0)]], 3, 4⟩, 17592186044416, 66104822,
    4342558751518456830006925361072942911294017431357185383047686502522480145445167546840896188012192573166452266539654815792920147,
    lc0⟩))) (.sx (.sy (.leaf ⟨307, 16, 299, 423, 16, 2357, ⟨[[(0, 5361526794084352), (0, 2104523004337765),
    (38754144207, 0), (0, 256321), (0, 45)], [(26711966918448521, 0), (0, 1758592860411), (10682309, 0), (2263, 0)],
    [(28792975691690, 0), (0, 418818467), (0, 41110), (7, 0)], [(15454968257, 0), (381880, 0), (0, 85)]], 3, 4⟩,
    ⟨[[(0, 20904535198552064), (0, 3391714587068344), (46601217139, 0), (0, 918847), (56, 0)], [(0,
    12138974623837378), (0, 388426574346), (11804148, 0), (0, 1213)], [(11610419272673, 0), (0, 294852312), (19310,
    0), (0, 1)], [(4921200759, 0), (0, 54146), (22, 0)]], 3, 4⟩, 72057594037927936, 594270168980, 261813397402,
    ⟨[[(15655586278651, 0), (4232913966, 0), (0, 873898), (0, 37)], [(1934453459, 0), (6334417, 0), (4720, 0)], [(0,
    7525526), (0, 19883), (0, 21)], [(18254, 0), (67, 0)]], 3, 4⟩, 17592186044416, 72916365,
    2810633049184328323440735084693896755707877902141682846747004073384185820894223729396521450905812839352016166220819079702305763,
    lc0⟩) (.leaf ⟨300, 16, 307, 402, 16, 2374, ⟨[[(16036762664239104, 0), (0, 2121101674250424), (39331991962, 0),
    (0, 341532), (0, 32)], [(26523275560283282, 0), (0, 1793009982333), (14070161, 0), (1797, 0)], [(29337760862498,
    0), (0, 466954338), (0, 31404), (7, 0)], [(16043737193, 0), (306733, 0), (0, 83)]], 3, 4⟩, ⟨[[(8789319912124416,
    0), (0, 3369723745489610), (45628137753, 0), (0, 813687), (55, 0)], [(0, 12420070825908710), (0, 380120372690),
    (10334806, 0), (0, 835)], [(11549802827684, 0), (0, 278528300), (17184, 0), (0, 2)], [(4935257436, 0), (0,
    30153), (26, 0)]], 3, 4⟩, 72057594037927936, 674741176891, 260909293924, ⟨[[(15525941752961, 0), (4149741379, 0),
    (0, 930884), (0, 79)], [(1954699463, 0), (6492154, 0), (5164, 0), (1, 0)], [(0, 7484067), (0, 20726), (0, 25)],
    [(19162, 0), (73, 0)]], 3, 4⟩, 17592186044416, 85475627,
    2254564464800223499400438871836071564803595942721271421149389003238419399302315733875834106968348678831697595257143531141844670,
    lc0⟩)) (.sy (.leaf ⟨304, 16, 281, 422, 16, 2392, ⟨[[(0, 17425983557648384), (0, 2047909442137861), (36768658516,
    0), (0, 139656), (0, 53)], [(27454458951114661, 0), (0, 1683693587961), (6367069, 0), (2699, 0)],
    [(28914132381631, 0), (0, 341347363), (0, 48861), (7, 0)], [(14895013985, 0), (473593, 0), (0, 83)]], 3, 4⟩,
    ⟨[[(7208287325499392, 0), (0, 3459167635733536), (47832501795, 0), (0, 986262), (64, 0)], [(0,
    11302684031779035), (0, 419628308328), (13736830, 0), (0, 1325)], [(12424843301383, 0), (0, 306363916), (22172,
    0), (0, 1)], [(5192765455, 0), (0, 56230), (19, 0)]], 3, 4⟩, 72057594037927936, 448865026380, 239325034795,
    ⟨[[(15654364929305, 0), (4280084345, 0), (0, 777189), (0, 39)], [(1765756029, 0), (5945385, 0), (4262, 0)], [(0,
    7464313), (0, 18660), (0, 17)], [(17428, 0), (61, 0)]], 3, 4⟩, 17592186044416, 75873644,
    4371341644567348700164192500051586754293625896201398508046056076239089911986312495144532544958651540113713701646747774252888955,
    lc0⟩) (.leaf ⟨297, 16, 288, 401, 16, 2409, ⟨[[(0, 11953130762358784), (0, 2061223441763359), (37394318152, 0),
    (0, 237728), (0, 40)], [(27274086691071787, 0), (0, 1717122507834), (10305456, 0), (2255, 0)], [(29447064397198,
    0), (0, 394788884), (0, 39498), (7, 0)], [(15488739589, 0), (402392, 0), (0, 81)]], 3, 4⟩, ⟨[[(0,
    243898655838208), (0, 3436105187587298), (46773959573, 0), (0, 864207), (64, 0)], [(0, 11591834661186112), (0,
    409643040437), (12085919, 0), (0, 982)], [(12363750677105, 0), (0, 286962216), (20541, 0), (0, 1)], [(5206329984,
    0), (0, 35732), (23, 0)]], 3, 4⟩, 72057594037927936, 531525150001, 245662506046, ⟨[[(15527334662079, 0),
    (4201739790, 0), (0, 825320), (0, 77)], [(1792068700, 0), (6091134, 0), (4594, 0), (1, 0)], [(0, 7404977), (0,
    19388), (0, 21)], [(17922, 0), (64, 0)]], 3, 4⟩, 17592186044416, 89274460,
    3833534204316014682445419501010626318637027839706665559909435435904423972409053281056903101005246297438486510123871462744634325,
    lc0⟩)))
theorem c49 : checkR job con0 false ⟨7, 9, 7, 9, 13, 17⟩ 1 30400 t49 1305 21 640 15247 251 16000 = true := by decide +kernel

def t50 : CTree :=
  .sy (.sx (.sy (.leaf ⟨314, 16, 252, 466, 16, 2395, ⟨[[(25337454282653696, 0), (0, 1966792623538500), (32775493560,
    0), (264402, 0), (0, 81)], [(28408090449725105, 0), (0, 1526574224772), (0, 8712622), (3920, 0)],
    [(27814391227766, 0), (0, 117987921), (0, 73849), (7, 0)], [(12956199686, 0), (703052, 0), (0, 84)]], 3, 4⟩,
    ⟨[[(0, 32500891383570432), (0, 3582551918980066), (52083104609, 0), (0, 1326155), (69, 0)], [(0,
    9778652711238242), (0, 482522054440), (20700137, 0), (0, 1876)], [(13446243587885, 0), (0, 363594168), (25302,
    0)], [(5429125193, 0), (0, 72980), (11, 0)]], 3, 4⟩, 72057594037927936, 117924373015, 176074443422,
    ⟨[[(15916560460258, 0), (4461648049, 0), (0, 604165), (22, 0)], [(1535618124, 0), (5395536, 0), (3778, 0)], [(0,
    7491900), (0, 15365), (0, 5)], [(19645, 0), (64, 0)]], 3, 4⟩, 17592186044416, 59055572,
    3939440966767337757025890957937343886958133885364192872463685175229471961271544512881037894540568817148134899372033734693462259,
    lc0⟩) (.leaf ⟨308, 16, 258, 444, 16, 2413, ⟨[[(0, 5349800931225600), (0, 1979766581850193), (33844615968, 0),
    (116771, 0), (0, 71)], [(28298131064275633, 0), (0, 1568969078397), (0, 3252583), (3515, 0)], [(28397858709051,
    0), (0, 191265919), (0, 64843), (7, 0)], [(13604670968, 0), (635555, 0), (0, 82)]], 3, 4⟩, ⟨[[(5990633856032768,
    0), (0, 3557767507254628), (50568071533, 0), (0, 1195293), (71, 0)], [(0, 10091169614797925), (0, 466589175187),
    (18160622, 0), (0, 1678)], [(13369827664736, 0), (0, 340763378), (25341, 0)], [(5435984020, 0), (0, 61190), (14,
    0)]], 3, 4⟩, 72057594037927936, 194678265240, 192214657265, ⟨[[(15783519381214, 0), (4388018199, 0), (0, 645786),
    (0, 6)], [(1560960323, 0), (5462004, 0), (3791, 0)], [(0, 7482382), (0, 16614), (0, 8)], [(18040, 0), (60, 0)]],
    3, 4⟩, 17592186044416, 67433141,
    5013890455873072754513107380033835622467389834249541856638068478683594799680020026034429230168809135694374564650881905743618275,
    lc0⟩)) (.sy (.out ⟨251, 16, 233, 1928, 16, 2077, ⟨[[(0, 22906550964027392), (0, 1877926718806570), (29839733361,
    0)], [(28489831788217886, 0), (0, 1416985996130), (0, 14206476)], [(27224920109771, 0), (0, 19526466), (0,
    78191)]], 2, 2⟩, ⟨[[(0, 6988833162133504), (0, 3593759723309122), (52855193539, 0)], [(0, 8597017268663490), (0,
    512030453628), (22819391, 0)], [(14099213718668, 0), (0, 370422307), (26545, 0)]], 2, 2⟩, 72057594037927936,
    121678488541641, 74539670312057, ⟨[], 0, 0⟩, 0, 0, 0, lc0⟩ 0 466 36) (.sy (.leaf ⟨396, 16, 311, 770, 16, 4175,
    ⟨[[(16088325787181056, 0), (0, 1238194600244636), (10088064499, 0), (47995, 0), (0, 6)], [(37312714648531816, 0),
    (0, 951653638061), (0, 3227023), (640, 0)], [(36314728465405, 0), (0, 50364250), (0, 23501), (1, 0)],
    [(16288264587, 0), (477118, 0), (0, 25)]], 3, 4⟩, ⟨[[(0, 31818011894947840), (0, 3106529994809563), (22432335229,
    0), (0, 281995), (8, 0)], [(0, 15358398642214226), (0, 433151723109), (9086914, 0), (0, 377)], [(24407160487844,
    0), (0, 306176355), (11697, 0)], [(9607575481, 0), (0, 35969), (5, 0)]], 3, 4⟩, 72057594037927936, 210422260454,
    175473212432, ⟨[[(15817182385217, 0), (2596442572, 0), (0, 190634), (1, 0)], [(1062645056, 0), (2329971, 0),
    (989, 0)], [(0, 4432671), (0, 5248), (0, 1)], [(9464, 0), (17, 0)]], 3, 4⟩, 17592186044416, 10110039,
    3728652313697448248991832227303897024303811008493635130634788361606510910513775147160922821988727581092716568188717519209170282,
    lc0⟩) (.leaf ⟨391, 16, 314, 749, 16, 4179, ⟨[[(26789771903193088, 0), (0, 1239879031119089), (10248897793, 0),
    (36058, 0), (0, 6)], [(37189565389774878, 0), (0, 963625925282), (0, 2314175), (607, 0)], [(36633668555544, 0),
    (0, 73817039), (0, 22030), (1, 0)], [(16680859568, 0), (456552, 0), (0, 25)]], 3, 4⟩, ⟨[[(0, 20829270502866944),
    (0, 3087171943677423), (22041063105, 0), (0, 265856), (8, 0)], [(0, 15588518642645605), (0, 424714194653),
    (8544701, 0), (0, 354)], [(24279647906087, 0), (0, 294713567), (11701, 0)], [(9600147757, 0), (0, 30150), (6,
    0)]], 3, 4⟩, 72057594037927936, 161157124688, 189536592331, ⟨[[(15751525104502, 0), (2581859856, 0), (0, 198889),
    (0, 2)], [(1079649548, 0), (2357166, 0), (988, 0)], [(0, 4472860), (0, 5554), (0, 1)], [(9019, 0), (17, 0)]], 3,
    4⟩, 17592186044416, 11132398,
    4679761963579820082738821157275579914775753096791377519172642048840913631020658951169913825764914707660487297493245572458066743,
    lc0⟩)))) (.sx (.sy (.sx (.leaf ⟨417, 16, 371, 472, 16, 2705, ⟨[[(30782416180346880, 0), (0, 2774273240324502),
    (48742464833, 0), (0, 62910), (0, 80)], [(19355773263423845, 0), (0, 1124680792285), (2007945, 0), (2077, 0)],
    [(10011640023285, 0), (0, 96401522), (0, 18724), (2, 0)], [(2491180506, 0), (94239, 0), (0, 14)]], 3, 4⟩, ⟨[[(0,
    4211233031741440), (0, 3927103207836430), (54606380900, 0), (0, 1163499), (78, 0)], [(0, 5939424041633170), (0,
    248273808044), (8587679, 0), (0, 779)], [(3653186416870, 0), (0, 88035811), (6749, 0)], [(752480029, 0), (0,
    6945), (2, 0)]], 3, 4⟩, 72057594037927936, 49743387704, 23801008723, ⟨[[(15654169325153, 0), (3850802677, 0), (0,
    569563), (0, 27)], [(1189565370, 0), (3678213, 0), (2313, 0)], [(0, 3905604), (0, 8388), (0, 6)], [(6554, 0),
    (20, 0)]], 3, 4⟩, 17592186044416, 8007427,
    4571114323908122810277339784594444779143916559226126545016705377225201403409921186651816023793482064711146918064679862037972548,
    lc0⟩) (.leaf ⟨417, 16, 361, 470, 16, 2714, ⟨[[(28427786682425344, 0), (0, 2745616825918799), (47477576150, 0),
    (27790, 0), (0, 85)], [(19665219484841515, 0), (0, 1101740599522), (352118, 0), (2218, 0)], [(10048152876439, 0),
    (0, 81548130), (0, 19918), (2, 0)], [(2437839441, 0), (102924, 0), (0, 14)]], 3, 4⟩, ⟨[[(9287010266615808, 0),
    (0, 3950787857557342), (55162072113, 0), (0, 1200553), (82, 0)], [(0, 5647282144820696), (0, 256554415939),
    (9197818, 0), (0, 798)], [(3761151647606, 0), (0, 89135628), (7074, 0)], [(765542010, 0), (0, 5772), (2, 0)]], 3,
    4⟩, 72057594037927936, 41066315506, 20976389449, ⟨[[(15653541445785, 0), (3883148826, 0), (0, 539694), (0, 26)],
    [(1119670970, 0), (3560930, 0), (2236, 0)], [(0, 3865415), (0, 8109), (0, 5)], [(6515, 0), (19, 0)]], 3, 4⟩,
    17592186044416, 7695799,
    5022161637110944212314206664305219696334477446750807543251042486187691671497983103343399058341576895582333054168704243486552851,
    lc0⟩)) (.sx (.leaf ⟨407, 16, 379, 449, 16, 2732, ⟨[[(0, 10223247441903616), (0, 2784190857004867), (49582165544,
    0), (0, 210257), (0, 64)], [(19197158518231144, 0), (0, 1145357032686), (4984525, 0), (1775, 0)],
    [(10173572821947, 0), (0, 115863247), (0, 15522), (2, 0)], [(2589728349, 0), (82450, 0), (0, 13)]], 3, 4⟩,
    ⟨[[(15225876903424000, 0), (0, 3911778050557910), (53501088840, 0), (0, 1016666), (79, 0)], [(0,
    6122494183198672), (0, 242593765521), (7624140, 0), (0, 603)], [(3646702770757, 0), (0, 82261629), (6405, 0)],
    [(757131619, 0), (0, 4294), (3, 0)]], 3, 4⟩, 72057594037927936, 58318863643, 26484810739, ⟨[[(15526501825920, 0),
    (3775353434, 0), (0, 599232), (0, 53)], [(1207732738, 0), (3752463, 0), (2440, 0)], [(0, 3873693), (0, 8693), (0,
    7)], [(6598, 0), (20, 0)]], 3, 4⟩, 17592186044416, 9474772,
    4470067526978360282682445754954462599112813769609963565205784241790320154784221240892338524641064989166749135993827174402664887,
    lc0⟩) (.leaf ⟨407, 16, 369, 447, 16, 2741, ⟨[[(18902032402259968, 0), (0, 2757757925608339), (48450127763, 0),
    (0, 128067), (0, 69)], [(19536050153857149, 0), (0, 1124167548635), (3514343, 0), (1922, 0)], [(10224156848860,
    0), (0, 101977813), (0, 16760), (2, 0)], [(2541259243, 0), (91714, 0), (0, 13)]], 3, 4⟩, ⟨[[(14492822168084480,
    0), (0, 3935032973544799), (54010159530, 0), (0, 1046011), (83, 0)], [(0, 5831290889090910), (0, 250346710272),
    (8204581, 0), (0, 632)], [(3755152782333, 0), (0, 83009803), (6794, 0)], [(770874318, 0), (0, 3188), (3, 0)]], 3,
    4⟩, 72057594037927936, 48106151037, 23495240967, ⟨[[(15526121592180, 0), (3807142580, 0), (0, 568900), (0, 51)],
    [(1142411563, 0), (3636159, 0), (2332, 0)], [(0, 3837371), (0, 8436), (0, 7)], [(6447, 0), (19, 0)]], 3, 4⟩,
    17592186044416, 9260853,
    4996242011579166285987792673345887667973817640578057296995933547081780834533481782964654559954240268876592667306775649448621545,
    lc0⟩))) (.sy (.sy (.leaf ⟨388, 16, 318, 728, 16, 4184, ⟨[[(0, 25513374501826560), (0, 1245228067801193),
    (10425604215, 0), (24931, 0), (0, 6)], [(37172901235236163, 0), (0, 977799510974), (0, 1447287), (576, 0)],
    [(37057331186625, 0), (0, 96308762), (0, 20627), (1, 0)], [(17119230996, 0), (437667, 0), (0, 24)]], 3, 4⟩,
    ⟨[[(10842902735642624, 0), (0, 3068906961812402), (21679082783, 0), (0, 249535), (8, 0)], [(0,
    15818519437272844), (0, 416894740017), (8040482, 0), (0, 328)], [(24163521989226, 0), (0, 283333677), (11647,
    0)], [(9598092729, 0), (0, 23648), (7, 0)]], 3, 4⟩, 72057594037927936, 114194459611, 204149473847,
    ⟨[[(15686584602484, 0), (2568895576, 0), (0, 206004), (0, 5)], [(1084965663, 0), (2370867, 0), (986, 0)], [(0,
    4445287), (0, 5741), (0, 1)], [(8566, 0), (16, 0)]], 3, 4⟩, 17592186044416, 11838043,
    5191683766011712012613683930731928297333584447611002759963478487211910087363810220248953846033605088315408888976531481806149586,
    lc0⟩) (.leaf ⟨384, 16, 322, 708, 16, 4188, ⟨[[(0, 16230860423938048), (0, 1250276026929813), (10586551011, 0),
    (14507, 0), (0, 5)], [(37143158432511567, 0), (0, 991139568159), (0, 617480), (543, 0)], [(37469383540950, 0),
    (0, 117649079), (0, 19217), (1, 0)], [(17550923891, 0), (418933, 0), (0, 24)]], 3, 4⟩, ⟨[[(0, 34470631504207872),
    (0, 3050238902837149), (21336292696, 0), (0, 232962), (8, 0)], [(0, 16041136065608341), (0, 409454349869),
    (7574432, 0), (0, 300)], [(24047181480421, 0), (0, 271960862), (11526, 0)], [(9597173443, 0), (0, 16432), (8,
    0)]], 3, 4⟩, 72057594037927936, 62853171204, 218599900232, ⟨[[(15623953973964, 0), (2554081468, 0), (0, 213936),
    (0, 8)], [(1100351429, 0), (2400932, 0), (994, 0)], [(0, 4435969), (0, 5936), (0, 2)], [(8264, 0), (15, 0)]], 3,
    4⟩, 17592186044416, 12888408,
    5301859588276443463891786382056718150548148184670814268280141616039253787291772572476581557850695243508526021144677333694254268,
    lc0⟩)) (.sx (.leaf ⟨408, 16, 359, 446, 16, 2751, ⟨[[(0, 32441359071449088), (0, 2729125624072691), (47251012861,
    0), (0, 41982), (0, 74)], [(19855281644663119, 0), (0, 1101543648153), (1982143, 0), (2064, 0)],
    [(10259461407855, 0), (0, 87238104), (0, 17906), (2, 0)], [(2484809482, 0), (100960, 0), (0, 13)]], 3, 4⟩, ⟨[[(0,
    34987757603074048), (0, 3960089264273510), (54565295097, 0), (0, 1076966), (87, 0)], [(0, 5531869421529125), (0,
    258272664553), (8822439, 0), (0, 657)], [(3866963663005, 0), (0, 83621356), (7179, 0)], [(783317859, 0), (0,
    1630), (3, 0)]], 3, 4⟩, 72057594037927936, 39084939558, 20943978237, ⟨[[(15529574929395, 0), (3839675396, 0), (0,
    536707), (0, 48)], [(1070395633, 0), (3507077, 0), (2227, 0)], [(0, 3791550), (0, 8150), (0, 6)], [(6341, 0),
    (18, 0)]], 3, 4⟩, 17592186044416, 8850410,
    5246121197483711014610867835247819310221083992881103784653793167987888233374127237957466264499805708915647103159532615237278190,
    lc0⟩) (.leaf ⟨409, 16, 350, 444, 16, 2761, ⟨[[(0, 9881135223910400), (0, 2705954942778664), (46115900438, 0),
    (47666, 0), (0, 79)], [(20210537950070504, 0), (0, 1080530906924), (400725, 0), (2207, 0)], [(10307853418017, 0),
    (0, 71902246), (0, 19011), (2, 0)], [(2426752550, 0), (110354, 0), (0, 12)]], 3, 4⟩, ⟨[[(0, 456474019549184), (0,
    3985519368191207), (55148452530, 0), (0, 1109025), (91, 0)], [(0, 5221797561090293), (0, 266266569492), (9474824,
    0), (0, 680)], [(3980577425004, 0), (0, 84011259), (7565, 0)], [(793712957, 0), (332, 0), (3, 0)]], 3, 4⟩,
    72057594037927936, 29741407624, 18402166382, ⟨[[(15527406827933, 0), (3868641337, 0), (0, 507562), (0, 45)],
    [(998580554, 0), (3383948, 0), (2147, 0)], [(0, 3738296), (0, 7884), (0, 5)], [(6306, 0), (18, 0)]], 3, 4⟩,
    17592186044416, 8518691,
    5149454484008945669170105905702066177441250219611027280577648930641215989063613349177052256933071505909900532243496974467661588,
    lc0⟩))))
theorem c50 : checkR job con0 false ⟨7, 9, 7, 9, 13, 17⟩ 1 30400 t50 1347 21 640 15247 251 16000 = true := by decide +kernel

def t51 : CTree :=
  .sy (.sx (.sy (.leaf ⟨293, 16, 315, 381, 16, 2390, ⟨[[(1758328457166848, 0), (0, 2136135774668445), (39787699544,
    0), (0, 400466), (0, 17)], [(26294743975831988, 0), (0, 1823981084946), (16806445, 0), (1302, 0)],
    [(29854537172569, 0), (0, 506021050), (0, 21398), (7, 0)], [(16598523111, 0), (230409, 0), (0, 83)]], 3, 4⟩,
    ⟨[[(25761029140635648, 0), (0, 3346906708337886), (44784890107, 0), (0, 709492), (54, 0)], [(0,
    12693355992346074), (0, 372767662669), (9450917, 0), (0, 423)], [(11491001095643, 0), (0, 264504589), (14233, 0),
    (0, 2)], [(4960386286, 0), (0, 1249), (31, 0)]], 3, 4⟩, 72057594037927936, 756132702753, 255723258135,
    ⟨[[(15400118369777, 0), (4071440177, 0), (0, 989946), (0, 127)], [(1967652135, 0), (6641864, 0), (5682, 0), (1,
    0)], [(0, 7465193), (0, 21586), (0, 29)], [(20315, 0), (80, 0)]], 3, 4⟩, 17592186044416, 99999648,
    1517832594960523472507077358172665036337944390528413027449557378355158284486151688463994657188066694843002976009529797347798599,
    lc0⟩) (.leaf ⟨286, 16, 324, 361, 16, 2406, ⟨[[(16718360970285056, 0), (0, 2156398572563181), (40284754924, 0),
    (0, 432663), (0, 3)], [(26108730758162587, 0), (0, 1857868162816), (18879195, 0), (773, 0)], [(30441618988461,
    0), (0, 537073930), (0, 11075), (7, 0)], [(17170519059, 0), (152811, 0), (0, 83)]], 3, 4⟩, ⟨[[(0,
    29242944994574336), (0, 3324560309287762), (44090819048, 0), (0, 605942), (54, 0)], [(0, 12964357315811640), (0,
    365925653678), (9191860, 0), (0, 6)], [(11437552252515, 0), (0, 253823822), (10305, 0), (0, 3)], [(5001369469,
    0), (33131, 0), (37, 0)]], 3, 4⟩, 72057594037927936, 839962937047, 246177386386, ⟨[[(15279567348488, 0),
    (3988603635, 0), (0, 1056730), (0, 179)], [(1987536503, 0), (6808661, 0), (6303, 0), (1, 0)], [(0, 7503268), (0,
    22659), (0, 33)], [(21786, 0), (90, 0)]], 3, 4⟩, 17592186044416, 117575693,
    1420734534846171670048915100660918480282305633701170295304202309289539178478873689825422857093736925639737032731677519200038619,
    lc0⟩)) (.sy (.leaf ⟨289, 16, 295, 380, 16, 2426, ⟨[[(34118218338770944, 0), (0, 2073069322130498), (37881413143,
    0), (0, 311937), (0, 27)], [(27056987563560914, 0), (0, 1746645281565), (13641614, 0), (1788, 0)],
    [(29950483860762, 0), (0, 439705686), (0, 29954), (7, 0)], [(16051529965, 0), (330706, 0), (0, 80)]], 3, 4⟩,
    ⟨[[(0, 8460206831931392), (0, 3413686413128323), (45890135860, 0), (0, 742122), (63, 0)], [(0,
    11877774740339899), (0, 400966716534), (10965934, 0), (0, 611)], [(12310943676392, 0), (0, 269433264), (18132,
    0), (0, 2)], [(5231107720, 0), (0, 10990), (27, 0)]], 3, 4⟩, 72057594037927936, 617075309951, 244028005748,
    ⟨[[(15401333285613, 0), (4120021370, 0), (0, 878720), (0, 120)], [(1824614962, 0), (6266564, 0), (5049, 0), (1,
    0)], [(0, 7411025), (0, 20248), (0, 25)], [(19045, 0), (71, 0)]], 3, 4⟩, 17592186044416, 107854424,
    2883656628161498449799332400051838234260067734641547618889321033218728367827122652520484939179352820103269991513074715101688091,
    lc0⟩) (.leaf ⟨283, 16, 303, 359, 16, 2442, ⟨[[(0, 27014473070804992), (0, 2090478334120068), (38391179443, 0),
    (0, 362294), (0, 14)], [(26893888674224969, 0), (0, 1778691608578), (16371132, 0), (1295, 0)], [(30529116926921,
    0), (0, 477223626), (0, 20260), (7, 0)], [(16636969729, 0), (258935, 0), (0, 79)]], 3, 4⟩, ⟨[[(0,
    28139325134712832), (0, 3390355529945152), (45163474190, 0), (0, 620414), (62, 0)], [(0, 12156008162199144), (0,
    392898311691), (10395083, 0), (0, 245)], [(12260318481359, 0), (0, 254541756), (14791, 0), (0, 3)], [(5267268853,
    0), (18438, 0), (32, 0)]], 3, 4⟩, 72057594037927936, 707868886953, 244564966873, ⟨[[(15280690994966, 0),
    (4049242441, 0), (0, 928779), (0, 167)], [(1828930301, 0), (6368939, 0), (5506, 0), (1, 0)], [(0, 7333557), (0,
    20779), (0, 29)], [(19924, 0), (77, 0)]], 3, 4⟩, 17592186044416, 124084264,
    1782407866750557897167192449859160664864542288045532348909670007080975933313437942004578836655088805792885056996022836259585843,
    lc0⟩))) (.sx (.sy (.leaf ⟨279, 16, 333, 340, 16, 2422, ⟨[[(0, 8160735913062400), (0, 2175065006694469),
    (40736834956, 0), (0, 436325), (11, 0)], [(25880387872221821, 0), (0, 1889544963933), (20146680, 0), (187, 0)],
    [(31008186373855, 0), (0, 557833138), (0, 265), (7, 0)], [(17704973278, 0), (72202, 0), (0, 84)]], 3, 4⟩, ⟨[[(0,
    12158314430734336), (0, 3302541153880197), (43546631453, 0), (0, 502268), (53, 0)], [(0, 13233143555041129), (0,
    358974737010), (9535365, 0), (369, 0)], [(11387550412917, 0), (0, 247594030), (5191, 0), (0, 4)], [(5061245416,
    0), (73707, 0), (43, 0)]], 3, 4⟩, 72057594037927936, 927147821630, 233040241418, ⟨[[(15158088145341, 0),
    (3911895917, 0), (0, 1125464), (0, 240), (1, 0)], [(1994265800, 0), (6949020, 0), (6983, 0), (2, 0)], [(0,
    7544228), (0, 23770), (0, 38)], [(23182, 0), (100, 0)]], 3, 4⟩, 17592186044416, 138467809,
    2587398457253469745574422645218159379761714520882584687259341555237372877446984065492726772271016085527942956947091719858790051,
    lc0⟩) (.leaf ⟨271, 16, 342, 319, 16, 2438, ⟨[[(527185906053120, 0), (0, 2192176782239769), (41186529023, 0), (0,
    412796), (23, 0)], [(25610887774656286, 0), (0, 1919858657991), (20486675, 0), (0, 473)], [(31559532207388, 0),
    (0, 567469553), (11112, 0), (8, 0)], [(18198988951, 0), (0, 12388), (0, 86)]], 3, 4⟩, ⟨[[(4975891386630144, 0),
    (0, 3280703536197247), (43153985219, 0), (0, 398040), (53, 0)], [(0, 13499483258054523), (0, 351351621110),
    (10379222, 0), (642, 0)], [(11338458117000, 0), (0, 247173313), (0, 1386), (0, 5)], [(5143473872, 0), (121366,
    0), (51, 0)]], 3, 4⟩, 72057594037927936, 1017390278397, 211665287109, ⟨[[(15037663776439, 0), (3832453125, 0),
    (0, 1204273), (0, 312), (1, 0)], [(2011115880, 0), (7124778, 0), (7807, 0), (2, 0)], [(0, 7675466), (0, 25315),
    (0, 43)], [(24851, 0), (113, 0)]], 3, 4⟩, 17592186044416, 167623791,
    3836278705169441766721483309410027997248898874525235165040479144162432371732130417618182499085050149808958060409464081737496986,
    lc0⟩)) (.sy (.leaf ⟨275, 16, 311, 337, 16, 2458, ⟨[[(19898353087148032, 0), (0, 2106396845547698), (38829480269,
    0), (0, 387985), (0, 2)], [(26691864905449152, 0), (0, 1807921347462), (18376139, 0), (755, 0)],
    [(31084925169215, 0), (0, 505386653), (0, 10240), (7, 0)], [(17189324735, 0), (185099, 0), (0, 80)]], 3, 4⟩,
    ⟨[[(24706296418496512, 0), (0, 3367368566504492), (44612736632, 0), (0, 500625), (60, 0)], [(0,
    12431565377039002), (0, 385069717187), (10338412, 0), (66, 0)], [(12215424773555, 0), (0, 243450306), (10332, 0),
    (0, 3)], [(5319549977, 0), (53089, 0), (37, 0)]], 3, 4⟩, 72057594037927936, 802696063010, 241236852440,
    ⟨[[(15155267015641, 0), (3971163105, 0), (0, 990898), (0, 223)], [(1849100163, 0), (6526011, 0), (6137, 0), (1,
    0)], [(0, 7381930), (0, 21779), (0, 34)], [(21484, 0), (87, 0)]], 3, 4⟩, 17592186044416, 151000114,
    1461960174481209494158287059582183438251256989411465378002781926473543469301479310630408834712390863416501854077969037138645875,
    lc0⟩) (.leaf ⟨267, 16, 319, 316, 16, 2474, ⟨[[(31978197495431168, 0), (0, 2120893518139548), (39231539245, 0),
    (0, 391131), (8, 0)], [(26452378481795054, 0), (0, 1835071982311), (19551159, 0), (151, 0)], [(31622558706509,
    0), (0, 523568911), (159, 0), (7, 0)], [(17706329726, 0), (108423, 0), (0, 81)]], 3, 4⟩, ⟨[[(5979269066317824,
    0), (0, 3344555754373427), (44234714058, 0), (0, 385029), (57, 0)], [(0, 12704411952272628), (0, 377020644172),
    (10669436, 0), (256, 0)], [(12174086656174, 0), (0, 237437178), (4493, 0), (0, 4)], [(5390851549, 0), (93646, 0),
    (43, 0)]], 3, 4⟩, 72057594037927936, 903095817278, 231709299003, ⟨[[(15036666003366, 0), (3894671899, 0), (0,
    1056562), (0, 285)], [(1870347902, 0), (6681426, 0), (6847, 0), (2, 0)], [(0, 7484421), (0, 22994), (0, 39)],
    [(23185, 0), (100, 0)]], 3, 4⟩, 17592186044416, 184648667,
    2394060227830325431756720156845679831781494666015977208550960839484081960548051455247935089600656648062747441091087867627256804,
    lc0⟩)))
theorem c51 : checkR job con0 false ⟨7, 9, 7, 9, 13, 17⟩ 1 30400 t51 1305 21 640 15749 251 16000 = true := by decide +kernel

def t52 : CTree :=
  .sy (.sx (.sy (.leaf ⟨287, 16, 277, 379, 16, 2464, ⟨[[(23282774959308800, 0), (0, 2016162945492489), (36052830682,
    0), (0, 210852), (0, 36)], [(27848859669760268, 0), (0, 1672890503441), (10050258, 0), (2232, 0)],
    [(30046944298876, 0), (0, 365857512), (0, 37565), (7, 0)], [(15446131690, 0), (439011, 0), (0, 75)]], 3, 4⟩,
    ⟨[[(8138190955945984, 0), (0, 3484745087128928), (47111178927, 0), (0, 783117), (72, 0)], [(0,
    10985056128937931), (0, 430288657607), (12823884, 0), (0, 774)], [(13185029500647, 0), (0, 274808878), (21675,
    0), (0, 2)], [(5496472721, 0), (0, 4476), (25, 0)]], 3, 4⟩, 72057594037927936, 448403488348, 226276461163,
    ⟨[[(15400824316890, 0), (4164763373, 0), (0, 774249), (0, 111)], [(1654988565, 0), (5857887, 0), (4445, 0), (1,
    0)], [(0, 7314972), (0, 18910), (0, 21)], [(17736, 0), (61, 0)]], 3, 4⟩, 17592186044416, 110960829,
    4252092582479170772789850089933715365500451470513972980525416062042396075988143926389283622229942828090048768134111019915877812,
    lc0⟩) (.leaf ⟨280, 16, 284, 357, 16, 2481, ⟨[[(22481820248641536, 0), (0, 2030181535585781), (36589288429, 0),
    (0, 277085), (0, 24)], [(27694477965222930, 0), (0, 1703221826526), (13357054, 0), (1765, 0)], [(30609109522757,
    0), (0, 408623938), (0, 28314), (7, 0)], [(16043383678, 0), (374809, 0), (0, 73)]], 3, 4⟩, ⟨[[(32329066045554688,
    0), (0, 3461721356781551), (46357144504, 0), (0, 645257), (70, 0)], [(0, 11275175104929897), (0, 420798577902),
    (11987001, 0), (0, 457)], [(13142361752059, 0), (0, 256205425), (18855, 0), (0, 2)], [(5538740757, 0), (22510,
    0), (29, 0)]], 3, 4⟩, 72057594037927936, 542338549919, 232992207917, ⟨[[(15276125338841, 0), (4092117203, 0), (0,
    818794), (0, 154)], [(1673122791, 0), (5981029, 0), (4838, 0), (1, 0)], [(0, 7246468), (0, 19382), (0, 25)],
    [(18526, 0), (66, 0)]], 3, 4⟩, 17592186044416, 131509759,
    2870028727390975699648405451408226969603748867665906717055393087253831243017826440563390541695758039882445232593694722799807621,
    lc0⟩)) (.sy (.sy (.leaf ⟨370, 16, 333, 646, 16, 4201, ⟨[[(14891116755111936, 0), (0, 1259976044586347),
    (10951194636, 0), (0, 12148), (0, 4)], [(36868744699721271, 0), (0, 1023371475425), (1628493, 0), (442, 0)],
    [(38524904175993, 0), (0, 173962169), (0, 14900), (1, 0)], [(18748903198, 0), (362553, 0), (0, 22)]], 3, 4⟩,
    ⟨[[(31222676532355072, 0), (0, 2996717380109170), (20461698998, 0), (0, 182817), (8, 0)], [(0,
    16693199571796133), (0, 389680052169), (6447205, 0), (0, 207)], [(23736711457552, 0), (0, 239045438), (10744,
    0)], [(9620999264, 0), (9687, 0), (10, 0)]], 3, 4⟩, 72057594037927936, 216652854823, 260965699788,
    ⟨[[(15431759070652, 0), (2509724760, 0), (0, 237300), (0, 19)], [(1140876396, 0), (2508669, 0), (1067, 0)], [(0,
    4387585), (0, 6367), (0, 3)], [(7956, 0), (15, 0)]], 3, 4⟩, 17592186044416, 17000243,
    5085618745792754897236111967988303212080014774494890933889845379333680040512790875769725800958159447831885228971610717389139851,
    lc0⟩) (.leaf ⟨367, 16, 338, 626, 16, 4206, ⟨[[(0, 7598248026275840), (0, 1267745700878462), (11091548146, 0), (0,
    19482), (0, 3)], [(36901355297333931, 0), (0, 1036748870222), (2298182, 0), (408, 0)], [(39011041246014, 0), (0,
    190943680), (0, 13506), (1, 0)], [(19209479094, 0), (345505, 0), (0, 22)]], 3, 4⟩, ⟨[[(26811599534833664, 0), (0,
    2979850187295150), (20223071488, 0), (0, 166244), (8, 0)], [(0, 16907318525360134), (0, 383812213235), (6165715,
    0), (0, 177)], [(23647495374678, 0), (0, 228739531), (10326, 0)], [(9639866007, 0), (19981, 0), (11, 0)]], 3, 4⟩,
    72057594037927936, 274059061411, 274929359981, ⟨[[(15370106193897, 0), (2495349097, 0), (0, 244612), (0, 23)],
    [(1145529108, 0), (2531617, 0), (1099, 0)], [(0, 4326850), (0, 6401), (0, 4)], [(7887, 0), (15, 0)]], 3, 4⟩,
    17592186044416, 18054998,
    4554573775692590805881932405063158947977524954521126911099459486358177623568855945730506798572618569404728440856612780300385362,
    lc0⟩)) (.leaf ⟨278, 16, 266, 357, 16, 2523, ⟨[[(27541445094002688, 0), (0, 1969156027295495), (34743850232, 0),
    (0, 178934), (0, 33)], [(28427494252292175, 0), (0, 1625319222113), (9922501, 0), (2188, 0)], [(30582172672496,
    0), (0, 329729321), (0, 35050), (7, 0)], [(15312561317, 0), (492642, 0), (0, 66)]], 3, 4⟩, ⟨[[(10780721407561728,
    0), (0, 3538753975539681), (47689867075, 0), (0, 679593), (77, 0)], [(0, 10313289659329832), (0, 449655749712),
    (13954224, 0), (0, 645)], [(14085229285418, 0), (0, 256472133), (22814, 0), (0, 2)], [(5795333551, 0), (44349,
    0), (29, 0)]], 3, 4⟩, 72057594037927936, 330900074936, 193213359437, ⟨[[(15277376467280, 0), (4126453656, 0), (0,
    716847), (0, 138)], [(1507697866, 0), (5597058, 0), (4228, 0), (1, 0)], [(0, 7203100), (0, 18277), (0, 20)],
    [(17485, 0), (56, 0)]], 3, 4⟩, 17592186044416, 136384340,
    3904230693297404343106000033596840782549157947803040834408113721161970351730942845871854755839980264442615053438525362769405836,
    lc0⟩))) (.sx (.sy (.leaf ⟨273, 16, 291, 336, 16, 2497, ⟨[[(0, 10122473229369344), (0, 2042805751164978),
    (37032176836, 0), (0, 321817), (0, 13)], [(27504657153175272, 0), (0, 1730231912945), (15997869, 0), (1258, 0)],
    [(31146921100291, 0), (0, 442707758), (0, 18868), (7, 0)], [(16612893225, 0), (309922, 0), (0, 73)]], 3, 4⟩,
    ⟨[[(0, 25666260400615424), (0, 3437659033336420), (45782899758, 0), (0, 511635), (66, 0)], [(0,
    11557501030970894), (0, 411677456296), (11574807, 0), (0, 207)], [(13102140695744, 0), (0, 240727941), (14957,
    0), (0, 3)], [(5593563404, 0), (54219, 0), (34, 0)]], 3, 4⟩, 72057594037927936, 643034802645, 236510436033,
    ⟨[[(15158789625534, 0), (4022180194, 0), (0, 865184), (0, 200)], [(1690473589, 0), (6099469, 0), (5301, 0), (1,
    0)], [(0, 7222862), (0, 19924), (0, 29)], [(19616, 0), (73, 0)]], 3, 4⟩, 17592186044416, 156615394,
    1385887406863908243316218039107166362653270976793936070354454861321638442172817832024992921175525421756106686610041167388592749,
    lc0⟩) (.leaf ⟨265, 16, 298, 314, 16, 2514, ⟨[[(0, 1344544305999872), (0, 2054125607927723), (37410701870, 0), (0,
    347846), (0, 5)], [(27281084294185737, 0), (0, 1754577382537), (17881362, 0), (695, 0)], [(31664561091983, 0),
    (0, 467652281), (0, 9194), (7, 0)], [(17153299615, 0), (243844, 0), (0, 72)]], 3, 4⟩, ⟨[[(0, 1637648883146752),
    (0, 3415140691479977), (45416455007, 0), (0, 387947), (59, 0)], [(0, 11841339928169813), (0, 402898064619),
    (11447028, 0), (0, 96)], [(13073051966816, 0), (0, 229797518), (9746, 0), (0, 4)], [(5668036723, 0), (91261, 0),
    (39, 0)]], 3, 4⟩, 72057594037927936, 747343086570, 236305822029, ⟨[[(15037841197212, 0), (3949542957, 0), (0,
    916941), (0, 255)], [(1709332403, 0), (6225211, 0), (5876, 0), (2, 0)], [(0, 7265460), (0, 20692), (0, 33)],
    [(21080, 0), (83, 0)]], 3, 4⟩, 17592186044416, 192325663,
    1004609942385903617098067465051369672349785331150043449174370954148514975457801652930178862741277364464729155894472955672925250,
    lc0⟩)) (.sy (.leaf ⟨271, 16, 272, 335, 16, 2540, ⟨[[(0, 17470045716631552), (0, 1978057505013147), (35206233409,
    0), (0, 240335), (0, 24)], [(28237225057324331, 0), (0, 1650234613386), (13118749, 0), (1707, 0)],
    [(31094542428662, 0), (0, 368168506), (0, 25971), (6, 0)], [(15894027500, 0), (437377, 0), (0, 64)]], 3, 4⟩,
    ⟨[[(0, 6954158745354240), (0, 3514873604275557), (47095175787, 0), (0, 534551), (71, 0)], [(0,
    10606563592198229), (0, 439015988864), (13231012, 0), (0, 455)], [(14056034555668, 0), (0, 236814576), (19451,
    0), (0, 3)], [(5864420857, 0), (75776, 0), (33, 0)]], 3, 4⟩, 72057594037927936, 428788140696, 210509899982,
    ⟨[[(15157907696311, 0), (4060558230, 0), (0, 753144), (0, 179)], [(1524552840, 0), (5702532, 0), (4574, 0), (1,
    0)], [(0, 7136712), (0, 18547), (0, 24)], [(18190, 0), (61, 0)]], 3, 4⟩, 17592186044416, 162890648,
    2140494369302842689104526231595955945454160028428500194008984828382589615881552999694806162625282959386052729876349021555389692,
    lc0⟩) (.leaf ⟨264, 16, 279, 313, 16, 2557, ⟨[[(0, 20439556345679872), (0, 1992904263726385), (35708473423, 0),
    (0, 287250), (0, 17)], [(28117775822747593, 0), (0, 1678011634378), (15668121, 0), (1181, 0)], [(31699309084621,
    0), (0, 399443823), (0, 16838), (6, 0)], [(16511936522, 0), (384068, 0), (0, 63)]], 3, 4⟩, ⟨[[(0,
    24563466042691584), (0, 3491170322450156), (46702663900, 0), (0, 405618), (60, 0)], [(0, 10896111798208667), (0,
    428905981990), (12682764, 0), (0, 421)], [(14034996570734, 0), (0, 221016910), (14821, 0), (0, 4)], [(5950818827,
    0), (112399, 0), (39, 0)]], 3, 4⟩, 72057594037927936, 534017430436, 230409651265, ⟨[[(15039467391310, 0),
    (3991691326, 0), (0, 794241), (0, 225)], [(1542846616, 0), (5802681, 0), (5008, 0), (2, 0)], [(0, 7096149), (0,
    18860), (0, 28)], [(19184, 0), (68, 0)]], 3, 4⟩, 17592186044416, 195449897,
    1332780328777163506574942335293582658375940213062712958540920867405157605672307708669714482150435188666449759507268932303402261,
    lc0⟩)))
theorem c52 : checkR job con0 false ⟨7, 9, 7, 9, 13, 17⟩ 1 30400 t52 1347 21 640 15749 251 16000 = true := by decide +kernel

def t53 : CTree :=
  .sx (.sy (.out ⟨123, 16, 106, 972, 16, 1058, ⟨[[(0, 2072882687620096), (0, 1776594611287026), (52964589283, 0)],
    [(28847956050144518, 0), (0, 2585977869199), (0, 77346238)], [(53633951361122, 0), (363088466, 0), (0, 637493)]],
    2, 2⟩, ⟨[[(15554412698517504, 0), (0, 3668076368538527), (108577954375, 0)], [(0, 7022825003152553), (0,
    1113031880332), (101728256, 0)], [(30668581188396, 0), (0, 1471544147), (236495, 0)]], 2, 2⟩, 72057594037927936,
    472626537235416, 312774352196964, ⟨[], 0, 0⟩, 0, 0, 0, lc0⟩ 0 424 68) (.sx (.sy (.sx (.leaf ⟨420, 16, 334, 466,
    16, 2743, ⟨[[(7379400835887104, 0), (0, 2669693607451710), (43650062676, 0), (320335, 0), (0, 99)],
    [(20644785089292328, 0), (0, 1033292169980), (0, 4914324), (2632, 0)], [(10150410169209, 0), (0, 33150113), (0,
    23159), (2, 0)], [(2249372805, 0), (129162, 0), (0, 12)]], 3, 4⟩, ⟨[[(2247500401250304, 0), (0,
    4027114075104566), (57041060887, 0), (0, 1317098), (92, 0)], [(0, 4712445018997729), (0, 282195498020),
    (11210763, 0), (0, 835)], [(4098130036673, 0), (0, 91289320), (8047, 0)], [(792788915, 0), (0, 46), (2, 0)]], 3,
    4⟩, 72057594037927936, 47528615738, 11968985937, ⟨[[(15654166168327, 0), (3970392779, 0), (0, 451874), (0, 19)],
    [(899419831, 0), (3206790, 0), (2117, 0)], [(0, 3677655), (0, 7138), (0, 2)], [(6905, 0), (19, 0)]], 3, 4⟩,
    17592186044416, 6594981,
    5266211017667575101912368932557065055210348361875411337831166081394344500226555156635035374859490677455317092714197251726717445,
    lc0⟩) (.out ⟨336, 16, 319, 2116, 16, 2347, ⟨[[(29386564616622080, 0), (0, 2591292936160700), (41452696575, 0)],
    [(20543305275544606, 0), (0, 988873563375), (0, 6614762)], [(9964107205970, 0), (0, 15402930), (0, 23623)]], 2,
    2⟩, ⟨[[(0, 8884185222840320), (0, 3974409946601760), (56604565305, 0)], [(0, 4294081637062405), (0,
    285215494715), (11708814, 0)], [(4130820969386, 0), (0, 89682400), (8218, 0)]], 2, 2⟩, 72057594037927936,
    28141221820885, 28992691224103, ⟨[], 0, 0⟩, 0, 0, 0, lc0⟩ 0 1277 68)) (.sx (.leaf ⟨409, 16, 340, 443, 16, 2771,
    ⟨[[(0, 9215166522376192), (0, 2672842655304947), (44781192587, 0), (140409, 0), (0, 84)], [(20486686077492794,
    0), (0, 1054937579889), (0, 1225074), (2338, 0)], [(10310177763398, 0), (0, 55591474), (0, 19968), (2, 0)],
    [(2352650902, 0), (119139, 0), (0, 12)]], 3, 4⟩, ⟨[[(0, 25527315163942912), (0, 4011326792753570), (55761182543,
    0), (0, 1142052), (94, 0)], [(0, 4900905208439972), (0, 274307774414), (10162098, 0), (0, 699)], [(4095705561970,
    0), (0, 84131992), (7955, 0)], [(801509015, 0), (2626, 0), (3, 0)]], 3, 4⟩, 72057594037927936, 39525381138,
    14108510432, ⟨[[(15528729414283, 0), (3896630204, 0), (0, 478540), (0, 41)], [(929574933, 0), (3273011, 0),
    (2094, 0)], [(0, 3707597), (0, 7665), (0, 3)], [(6438, 0), (17, 0)]], 3, 4⟩, 17592186044416, 8150273,
    5449811110698214904914423808876508204013575651598437232931052217115443048400258683980686859975031193354620099596717899948644688,
    lc0⟩) (.leaf ⟨410, 16, 331, 442, 16, 2782, ⟨[[(0, 5618605101719552), (0, 2645312130160444), (43510570748, 0),
    (236364, 0), (0, 89)], [(20799620960742281, 0), (0, 1030924244481), (0, 2886619), (2471, 0)], [(10325039671167,
    0), (0, 38762285), (0, 20892), (2, 0)], [(2275753610, 0), (127807, 0), (0, 12)]], 3, 4⟩, ⟨[[(0,
    26194625141682176), (0, 4038965918504200), (56425345168, 0), (0, 1176332), (98, 0)], [(0, 4570692322612643), (0,
    282473499402), (10888850, 0), (0, 714)], [(4213498223730, 0), (0, 83976423), (8357, 0)], [(806359675, 0), (5162,
    0), (3, 0)]], 3, 4⟩, 72057594037927936, 52666197811, 10126957991, ⟨[[(15528669902362, 0), (3922212082, 0), (0,
    449667), (0, 37)], [(856485322, 0), (3154532, 0), (2061, 0)], [(0, 3649586), (0, 7395), (0, 2)], [(6636, 0), (18,
    0)]], 3, 4⟩, 17592186044416, 7803166,
    5415807529868049672764327302495662923854678801106546008855304007729893206593609702822945561164689019568392893157162150076378525,
    lc0⟩))) (.sy (.out ⟨240, 16, 216, 1968, 16, 2187, ⟨[[(23448263119058944, 0), (0, 1796807404350879), (27720601814,
    0)], [(29554694042265387, 0), (0, 1339527664060), (0, 13181386)], [(28065163680028, 0), (31642815, 0), (0,
    70103)]], 2, 2⟩, ⟨[[(25150683014987776, 0), (0, 3720540471264727), (53464037113, 0)], [(0, 7015401476735529), (0,
    552522547785), (23804777, 0)], [(15944823802197, 0), (0, 331283195), (32344, 0)]], 2, 2⟩, 72057594037927936,
    115758551230140, 75386114140539, ⟨[], 0, 0⟩, 0, 0, 0, lc0⟩ 0 108 12) (.sx (.leaf ⟨412, 16, 323, 441, 16, 2793,
    ⟨[[(6764522181058560, 0), (0, 2623686684377250), (42303852131, 0), (336016, 0), (0, 94)], [(21154964969401371,
    0), (0, 1008504548770), (0, 4588850), (2607, 0)], [(10353828493888, 0), (0, 21381705), (0, 21803), (2, 0)],
    [(2195298861, 0), (136282, 0), (0, 11)]], 3, 4⟩, ⟨[[(0, 13514336626819072), (0, 4066995033364306), (57122611484,
    0), (0, 1211325), (101, 0)], [(0, 4229149519442834), (0, 290640250686), (11652468, 0), (0, 727)],
    [(4332061981680, 0), (0, 83489788), (8767, 0)], [(807244077, 0), (7818, 0), (3, 0)]], 3, 4⟩, 72057594037927936,
    66546317502, 13549784078, ⟨[[(15527751019959, 0), (3946361757, 0), (0, 421194), (0, 31)], [(781071449, 0),
    (3032305, 0), (2051, 0), (1, 0)], [(0, 3561684), (0, 7070), (0, 1)], [(6909, 0), (18, 0)]], 3, 4⟩,
    17592186044416, 7203434,
    4974704107318843218981509018729593473977596911614934473482123588615771235413074152866314590634761608170881955748281283423745706,
    lc0⟩) (.out ⟨331, 16, 308, 2123, 16, 2391, ⟨[[(2748037006929920, 0), (0, 2542259923438436), (40118025655, 0)],
    [(21012887709216670, 0), (0, 962675633625), (0, 6179007)], [(10134602438515, 0), (0, 3327345), (0, 22146)]], 2,
    2⟩, ⟨[[(0, 22782957295894528), (0, 4016033226297328), (56733265838, 0)], [(0, 3801068286637853), (0,
    292988248902), (12212236, 0)], [(4364573562601, 0), (0, 81062220), (9003, 0)]], 2, 2⟩, 72057594037927936,
    27681234499339, 27381662566110, ⟨[], 0, 0⟩, 0, 0, 0, lc0⟩ 0 177 13))))) (.out ⟨86, 16, 68, 525, 16, 581,
    ⟨[[(26031500300655616, 0), (0, 2385125213435511), (131175455509, 0)], [(21125638560617841, 0), (0,
    3305876496871), (0, 268308877)], [(37836508029246, 0), (1243929137, 0), (0, 1778113)]], 2, 2⟩,
    ⟨[[(819413780258816, 0), (0, 4021652297130971), (238775100688, 0)], [(0, 2543969323529854), (0, 1291955246041),
    (248624655, 0)], [(18158317246458, 0), (0, 1426140911), (598447, 0)]], 2, 2⟩, 72057594037927936, 632361132423919,
    559050201463278, ⟨[], 0, 0⟩, 0, 0, 0, lc0⟩ 0 137 36)
theorem c53 : checkR job con0 false ⟨7, 9, 7, 9, 13, 17⟩ 1 30400 t53 705 21 320 15247 251 16000 = true := by decide +kernel

def t54 : CTree :=
  .sy (.sx (.sy (.sy (.leaf ⟨367, 16, 311, 660, 16, 4350, ⟨[[(0, 20376030178709504), (0, 1217136269358830),
    (10265480756, 0), (7783, 0), (0, 4)], [(37548041429089762, 0), (0, 967464019639), (242008, 0), (499, 0)],
    [(38188504320997, 0), (0, 114322442), (0, 16526), (1, 0)], [(17503820849, 0), (426301, 0), (0, 21)]], 3, 4⟩,
    ⟨[[(0, 7364014950932480), (0, 3120386632151750), (21488196277, 0), (0, 198750), (9, 0)], [(0, 15167632297129713),
    (0, 424192247730), (7664450, 0), (0, 234)], [(25844373799756, 0), (0, 244511939), (12417, 0)], [(10105632531, 0),
    (38984, 0), (10, 0)]], 3, 4⟩, 72057594037927936, 244107958512, 112654864309, ⟨[[(15433648958372, 0), (2479869294,
    0), (0, 199467), (0, 15)], [(998006908, 0), (2297376, 0), (942, 0)], [(0, 4398747), (0, 6002), (0, 2)], [(8217,
    0), (14, 0)]], 3, 4⟩, 17592186044416, 17264195,
    5113102154928786543595714842625723622135253536186176847329097628933758081623431882707304074509448856577959854709339067652122381,
    lc0⟩) (.leaf ⟨362, 16, 314, 639, 16, 4354, ⟨[[(0, 19470528674525184), (0, 1218467367065884), (10370011454, 0),
    (0, 392), (0, 4)], [(37420013425502641, 0), (0, 976180154008), (973560, 0), (465, 0)], [(38494868213177, 0), (0,
    131376320), (0, 15095), (1, 0)], [(17883576620, 0), (409985, 0), (0, 20)]], 3, 4⟩, ⟨[[(0, 12908778479419392), (0,
    3101807649959956), (21222423676, 0), (0, 180308), (9, 0)], [(0, 15392815400691986), (0, 417050416194), (7339107,
    0), (0, 207)], [(25748386110969, 0), (0, 232422341), (12088, 0)], [(10137201644, 0), (49872, 0), (11, 0)]], 3,
    4⟩, 72057594037927936, 193115163325, 131229743303, ⟨[[(15371686783798, 0), (2466669426, 0), (0, 206083), (0,
    19)], [(1013048403, 0), (2335060, 0), (961, 0)], [(0, 4391444), (0, 6126), (0, 3)], [(8120, 0), (14, 0)]], 3, 4⟩,
    17592186044416, 19220367,
    4786691662481093435117366807393113609211412970099386004108810757718423367406565653166318549056591045913184084931433099708448965,
    lc0⟩)) (.sy (.leaf ⟨358, 16, 318, 618, 16, 4358, ⟨[[(0, 16013434525233152), (0, 1223447356308628), (10495793168,
    0), (0, 7850), (0, 3)], [(37400723222392418, 0), (0, 987279887804), (1664813, 0), (431, 0)], [(38914738384959,
    0), (0, 147603520), (0, 13709), (1, 0)], [(18314791660, 0), (395269, 0), (0, 19)]], 3, 4⟩, ⟨[[(0,
    10617160015536128), (0, 3083462186729109), (20983938184, 0), (0, 162213), (9, 0)], [(0, 15614682606199750), (0,
    410208738425), (7052426, 0), (0, 183)], [(25658272678400, 0), (0, 220696383), (11669, 0)], [(10174478874, 0),
    (61640, 0), (12, 0)]], 3, 4⟩, 72057594037927936, 143963454613, 149925610827, ⟨[[(15309889281164, 0), (2453330435,
    0), (0, 212700), (0, 22)], [(1024275264, 0), (2366551, 0), (986, 0)], [(0, 4354943), (0, 6187), (0, 3)], [(8027,
    0), (13, 0)]], 3, 4⟩, 17592186044416, 20669662,
    4353438721611953543416411403149356513566623743304293424713051697444591944528702735577031192377613237408386906656090783994615370,
    lc0⟩) (.leaf ⟨354, 16, 322, 597, 16, 4362, ⟨[[(0, 22717677621174272), (0, 1228174051434448), (10610703999, 0),
    (0, 14639), (0, 3)], [(37369802669019185, 0), (0, 997686256365), (2312583, 0), (396, 0)], [(39325837156452, 0),
    (0, 162607290), (0, 12313), (1, 0)], [(18741173671, 0), (380786, 0), (0, 19)]], 3, 4⟩, ⟨[[(0, 589851563220992),
    (0, 3065323384879047), (20772087000, 0), (0, 144678), (9, 0)], [(0, 15833371945358427), (0, 403630907342),
    (6799557, 0), (0, 162)], [(25573833241545, 0), (0, 209427923), (11154, 0)], [(10217922320, 0), (74333, 0), (13,
    0)]], 3, 4⟩, 72057594037927936, 89839352821, 170899659557, ⟨[[(15248448279159, 0), (2440271743, 0), (0, 219191),
    (0, 26)], [(1033342524, 0), (2396370, 0), (1016, 0)], [(0, 4315723), (0, 6225), (0, 3)], [(7997, 0), (13, 0)]],
    3, 4⟩, 17592186044416, 22388381,
    3618660624152839971905849129677207159025296785277232206851992119111420061320998671443041499593440115337702645861860070888844523,
    lc0⟩))) (.sy (.sx (.leaf ⟨401, 16, 329, 417, 16, 2822, ⟨[[(20337977689145344, 0), (0, 2628949278462832),
    (43469188790, 0), (167091, 0), (0, 79)], [(21031410006790178, 0), (0, 1030009801523), (0, 932263), (2314, 0)],
    [(10529932013453, 0), (0, 42277944), (0, 18651), (2, 0)], [(2302949425, 0), (127748, 0), (0, 11)]], 3, 4⟩, ⟨[[(0,
    2758209805078528), (0, 4052150218667738), (56026361318, 0), (0, 1020126), (100, 0)], [(0, 4417599297503675), (0,
    282359485197), (10766226, 0), (0, 605)], [(4336911458298, 0), (0, 75566628), (8620, 0)], [(820398381, 0), (11202,
    0), (4, 0)]], 3, 4⟩, 72057594037927936, 59810079887, 15623063758, ⟨[[(15401860518817, 0), (3873997843, 0), (0,
    445890), (0, 55)], [(811558864, 0), (3100252, 0), (2000, 0), (1, 0)], [(0, 3588299), (0, 7540), (0, 3)], [(6373,
    0), (16, 0)]], 3, 4⟩, 17592186044416, 8988225,
    4691299743448955385718973419673999116911563641260912530824313722362493292946049555432711673032164237439520115525492836952016680,
    lc0⟩) (.leaf ⟨404, 16, 321, 416, 16, 2833, ⟨[[(0, 18816226304724992), (0, 2607295267199313), (42341117048, 0),
    (261894, 0), (0, 84)], [(21394854129265374, 0), (0, 1007749381078), (0, 2492997), (2451, 0)], [(10555107809584,
    0), (0, 24833491), (0, 19505), (2, 0)], [(2214617806, 0), (135870, 0), (0, 10)]], 3, 4⟩, ⟨[[(7892820893552640,
    0), (0, 4079983537388275), (56714221102, 0), (0, 1049969), (103, 0)], [(0, 4064747786004690), (0, 289768255298),
    (11553900, 0), (0, 624)], [(4457276804243, 0), (0, 74278038), (9101, 0)], [(817739980, 0), (13851, 0), (4, 0)]],
    3, 4⟩, 72057594037927936, 75135882695, 20695815778, ⟨[[(15401630620733, 0), (3900254419, 0), (0, 416567), (0,
    48)], [(731170573, 0), (2961723, 0), (1967, 0), (1, 0)], [(0, 3493066), (0, 7252), (0, 2)], [(6573, 0), (16,
    0)]], 3, 4⟩, 17592186044416, 8286673,
    4423645050240581713511306556211211209237508837561347946010466405757644754650478797131680079039563842915956331667230118363490313,
    lc0⟩)) (.sy (.leaf ⟨354, 16, 296, 633, 16, 4525, ⟨[[(15966922382041088, 0), (0, 1177616914597853), (9810907008,
    0), (11279, 0), (0, 4)], [(37945913972978700, 0), (0, 928420543111), (382333, 0), (485, 0)], [(38359931693348,
    0), (0, 85659557), (0, 15029), (1, 0)], [(16820304215, 0), (452680, 0), (0, 18)]], 3, 4⟩, ⟨[[(0,
    18590846180810752), (0, 3219909301493778), (22117912899, 0), (0, 176933), (10, 0)], [(0, 13919154813063305), (0,
    444777311760), (8407491, 0), (0, 214)], [(27974853485383, 0), (0, 218910922), (13715, 0)], [(10562192967, 0),
    (98438, 0), (13, 0)]], 3, 4⟩, 72057594037927936, 554627902482, 190699346669, ⟨[[(15309715649522, 0), (2413896465,
    0), (0, 177663), (0, 17)], [(884987208, 0), (2166978, 0), (870, 0)], [(0, 4398972), (0, 5952), (0, 2)], [(8550,
    0), (13, 0)]], 3, 4⟩, 17592186044416, 21777987,
    4354969332551764858507490063237199141121437146344244061034814449098274980451905603966560340966999822263551543955660604845781748,
    lc0⟩) (.leaf ⟨350, 16, 299, 611, 16, 4529, ⟨[[(0, 31766494478573568), (0, 1179595642088164), (9921518729, 0),
    (3575, 0), (0, 4)], [(37859868213037873, 0), (0, 937082084343), (1094282, 0), (451, 0)], [(38701582526074, 0),
    (0, 100991545), (0, 13636), (1, 0)], [(17215808646, 0), (439382, 0), (0, 17)]], 3, 4⟩, ⟨[[(0, 5286192472236032),
    (0, 3200658613601687), (21885302243, 0), (0, 157949), (9, 0)], [(0, 14152840584603429), (0, 436879580579),
    (8104782, 0), (0, 199)], [(27893017700274, 0), (0, 205528475), (13300, 0)], [(10624268011, 0), (111744, 0), (14,
    0)]], 3, 4⟩, 72057594037927936, 513681761815, 172788827499, ⟨[[(15248688834384, 0), (2403432414, 0), (0, 182668),
    (0, 21)], [(893039519, 0), (2193947, 0), (881, 0)], [(0, 4367082), (0, 6009), (0, 2)], [(8367, 0), (12, 0)]], 3,
    4⟩, 17592186044416, 23573582,
    3704161437437564066218130374423504314393890540959293206977679270244532955393025083977424540028550100221839120996362165259494372,
    lc0⟩)))) (.sx (.sy (.leaf ⟨270, 16, 255, 335, 16, 2587, ⟨[[(0, 424622462955520), (0, 1919982651841476),
    (33475043950, 0), (0, 147278), (0, 33)], [(29000325411194490, 0), (0, 1573657977886), (9940785, 0), (2120, 0)],
    [(31040983318964, 0), (0, 284162730), (0, 31725), (6, 0)], [(15060300667, 0), (558995, 0), (0, 57)]], 3, 4⟩,
    ⟨[[(11569293085896704, 0), (0, 3599111616943793), (48570070031, 0), (0, 568547), (74, 0)], [(0,
    9568411125068649), (0, 466933457405), (15319927, 0), (0, 679)], [(15077360365055, 0), (0, 229336576), (24108, 0),
    (0, 2)], [(6097755951, 0), (112776, 0), (34, 0)]], 3, 4⟩, 72057594037927936, 154865454096, 135400523982,
    ⟨[[(15156549110545, 0), (4085105992, 0), (0, 654352), (0, 156)], [(1349830653, 0), (5312066, 0), (3949, 0), (1,
    0)], [(0, 7070983), (0, 17542), (0, 20)], [(17237, 0), (50, 0)]], 3, 4⟩, 17592186044416, 165556051,
    2760133530068845670264006375854689187578160547292870897026069368013409019571614989904723657754299745908491076143718591541442726,
    lc0⟩) (.leaf ⟨263, 16, 261, 312, 16, 2605, ⟨[[(0, 16150256758718464), (0, 1930889083451584), (33988264623, 0),
    (0, 211588), (0, 27)], [(28876943493163355, 0), (0, 1598966030876), (13032254, 0), (1620, 0)], [(31617986304271,
    0), (0, 318587941), (0, 22841), (6, 0)], [(15687550767, 0), (515771, 0), (0, 54)]], 3, 4⟩, ⟨[[(29864410027352064,
    0), (0, 3575446877017644), (48151591134, 0), (0, 437503), (58, 0)], [(0, 9867216382687954), (0, 455206185313),
    (14397591, 0), (0, 720)], [(15072130427998, 0), (0, 208559616), (20075, 0), (0, 3)], [(6206353496, 0), (150930,
    0), (40, 0)]], 3, 4⟩, 72057594037927936, 252068522959, 167487445488, ⟨[[(15036306776815, 0), (4020079868, 0), (0,
    685840), (0, 197)], [(1368458580, 0), (5406838, 0), (4262, 0), (1, 0)], [(0, 6993853), (0, 17580), (0, 23)],
    [(17833, 0), (54, 0)]], 3, 4⟩, 17592186044416, 198762525,
    1557239099896119071393215310866808990766674902534599595719281377033680753650097222026933666187859819766877575116334540876407066,
    lc0⟩)) (.sy (.leaf ⟨270, 16, 239, 337, 16, 2639, ⟨[[(0, 27182952721510400), (0, 1861888132907225), (31709596579,
    0), (0, 43855), (0, 41)], [(29699188704421083, 0), (0, 1494271193408), (6540190, 0), (2503, 0)],
    [(30868756573540, 0), (0, 191542408), (0, 36359), (6, 0)], [(14017849534, 0), (661715, 0), (0, 52)]], 3, 4⟩,
    ⟨[[(0, 29459447188660224), (0, 3691864367577857), (50248719765, 0), (0, 613048), (76, 0)], [(0,
    8435767438224384), (0, 495289401664), (17880589, 0), (0, 877)], [(16167094082190, 0), (0, 216874370), (29047, 0),
    (0, 2)], [(6244343732, 0), (155450, 0), (35, 0)]], 3, 4⟩, 72057594037927936, 399859292492, 98748403076,
    ⟨[[(15159344616977, 0), (4098731745, 0), (0, 563843), (0, 131)], [(1160966698, 0), (4906186, 0), (3427, 0), (1,
    0)], [(0, 7008899), (0, 16863), (0, 15)], [(16989, 0), (42, 0)]], 3, 4⟩, 17592186044416, 164272918,
    3015439944679976496510094280868525894299933190024925100858712740902182046617118368275532830290890960616492675495131524782159769,
    lc0⟩) (.leaf ⟨262, 16, 244, 313, 16, 2657, ⟨[[(9657293309063168, 0), (0, 1868391715468201), (32244813053, 0), (0,
    123642), (0, 37)], [(29556682775846778, 0), (0, 1517029428935), (10126906, 0), (2022, 0)], [(31407835140361, 0),
    (0, 227998328), (0, 27576), (6, 0)], [(14637151307, 0), (624161, 0), (0, 49)]], 3, 4⟩, ⟨[[(12072188084989952, 0),
    (0, 3666681921599234), (49768686034, 0), (0, 482635), (55, 0)], [(0, 8739213184541528), (0, 481273088471),
    (16621002, 0), (0, 992)], [(16174844008498, 0), (0, 190706328), (25621, 0), (0, 3)], [(6374870565, 0), (194692,
    0), (41, 0)]], 3, 4⟩, 72057594037927936, 328908893448, 94351231936, ⟨[[(15036848015735, 0), (4034188108, 0), (0,
    591984), (0, 168)], [(1194973768, 0), (5040670, 0), (3653, 0), (1, 0)], [(0, 6969484), (0, 16907), (0, 19)],
    [(17289, 0), (44, 0)]], 3, 4⟩, 17592186044416, 203422155,
    1419268101310715506890969427614291779647917237760103848502128809533683005286685788895498133324370730105630361098938441708073308,
    lc0⟩)))
theorem c54 : checkR job con0 false ⟨7, 9, 7, 9, 13, 17⟩ 1 30400 t54 1389 21 640 15749 251 16000 = true := by decide +kernel

def t55 : CTree :=
  .sy (.sx (.sy (.leaf ⟨285, 16, 216, 387, 16, 2657, ⟨[[(0, 24643537045766144), (0, 1797205494289441), (28331674112,
    0), (286425, 0), (0, 64)], [(30618032073933074, 0), (0, 1358170991736), (0, 6831480), (3701, 0)],
    [(29518654532765, 0), (6349613, 0), (0, 57903), (7, 0)], [(11508984584, 0), (816028, 0), (0, 59)]], 3, 4⟩,
    ⟨[[(11430096892104704, 0), (0, 3843909061846174), (53908226595, 0), (0, 1022210), (100, 0)], [(0,
    6552856311707908), (0, 560752539880), (23900966, 0), (0, 1206)], [(17295034293673, 0), (0, 267619159), (36582,
    0)], [(5984506001, 0), (128203, 0), (25, 0)]], 3, 4⟩, 72057594037927936, 899879752012, 374429514655,
    ⟨[[(15401318900359, 0), (4220205023, 0), (0, 429871), (0, 44)], [(881348380, 0), (4251563, 0), (3276, 0), (1,
    0)], [(0, 6827086), (0, 14934), (1, 0)], [(21013, 0), (53, 0)]], 3, 4⟩, 17592186044416, 112968194,
    4282487713592789185865518906811702391450304832094976132086245119863848581762527375798576076075994475536550893820394280028287975,
    lc0⟩) (.leaf ⟨277, 16, 220, 363, 16, 2676, ⟨[[(20065110547415040, 0), (0, 1801326514708159), (29202048203, 0),
    (170608, 0), (0, 56)], [(30489313149656594, 0), (0, 1387579065769), (0, 1642006), (3290, 0)], [(30054513869064,
    0), (0, 47781964), (0, 49156), (6, 0)], [(12124631521, 0), (773183, 0), (0, 56)]], 3, 4⟩, ⟨[[(10424008225292288,
    0), (0, 3817613829374057), (52892253281, 0), (0, 834258), (93, 0)], [(0, 6877308161691805), (0, 541471134103),
    (22361757, 0), (0, 1070)], [(17292615424540, 0), (0, 233014787), (35766, 0), (0, 1)], [(6098679179, 0), (155849,
    0), (28, 0)]], 3, 4⟩, 72057594037927936, 855447537471, 360894298976, ⟨[[(15277671564789, 0), (4157379907, 0), (0,
    460612), (0, 75)], [(931095200, 0), (4381691, 0), (3109, 0), (1, 0)], [(0, 6944181), (0, 16081), (0, 4)],
    [(18973, 0), (44, 0)]], 3, 4⟩, 17592186044416, 136157110,
    3692620368514225659807303916722648731968745861942877897487183202242541637457155889171272609653531829200064898148342410460449696,
    lc0⟩)) (.out ⟨162, 16, 143, 1063, 16, 1225, ⟨[[(12643595779987456, 0), (0, 2436387768944578), (74816247157, 0)],
    [(21725928672174507, 0), (0, 1798604499416), (0, 23570686)], [(20484685772960, 0), (110625151, 0), (0, 160673)]],
    2, 2⟩, ⟨[[(0, 18847559175995392), (0, 4072512438808345), (114966229502, 0)], [(0, 2764229940253216), (0,
    603527130438), (55543619, 0)], [(9525570932153, 0), (0, 244644465), (82797, 0)]], 2, 2⟩, 72057594037927936,
    113726357109941, 99097319111627, ⟨[], 0, 0⟩, 0, 0, 0, lc0⟩ 0 191 25)) (.sx (.sy (.leaf ⟨270, 16, 224, 339, 16,
    2695, ⟨[[(0, 25454454583754752), (0, 1804122256913933), (29913118263, 0), (68065, 0), (0, 49)],
    [(30334421768014604, 0), (0, 1412077291058), (3003512, 0), (2858, 0)], [(30564739439289, 0), (0, 94044242), (0,
    40438), (6, 0)], [(12726291745, 0), (732165, 0), (0, 53)]], 3, 4⟩, ⟨[[(8872235635085312, 0), (0,
    3791828166591180), (52136885475, 0), (0, 667021), (77, 0)], [(0, 7194345252504155), (0, 523502878641), (20938533,
    0), (0, 1050)], [(17306522782306, 0), (0, 199418000), (34038, 0), (0, 2)], [(6228302287, 0), (187604, 0), (32,
    0)]], 3, 4⟩, 72057594037927936, 809988188726, 359324701283, ⟨[[(15157032377330, 0), (4100244079, 0), (0, 483500),
    (0, 106)], [(961947139, 0), (4496485, 0), (3069, 0), (1, 0)], [(0, 6918518), (0, 16474), (0, 9)], [(17842, 0),
    (38, 0)]], 3, 4⟩, 17592186044416, 163426694,
    2954979973634800057241908316415071759074760747678448842246062898076892452664724266366447942286834734481205500443178526600182524,
    lc0⟩) (.leaf ⟨263, 16, 229, 315, 16, 2714, ⟨[[(0, 5516820589162496), (0, 1813661724420284), (30612631428, 0), (0,
    25825), (0, 46)], [(30287970938632722, 0), (0, 1438434724894), (7082468, 0), (2403, 0)], [(31189108336919, 0),
    (0, 132870102), (0, 31879), (6, 0)], [(13372763210, 0), (695920, 0), (0, 51)]], 3, 4⟩, ⟨[[(6766796067315712, 0),
    (0, 3766317768437402), (51598615959, 0), (0, 540394), (51, 0)], [(0, 7504540497204984), (0, 506851700591),
    (19390747, 0), (0, 1238)], [(17336125968090, 0), (0, 167856621), (31193, 0), (0, 2)], [(6375653407, 0), (223910,
    0), (37, 0)]], 3, 4⟩, 72057594037927936, 774108035970, 372940575748, ⟨[[(15037381932167, 0), (4038933601, 0), (0,
    506826), (0, 138)], [(997867490, 0), (4625632, 0), (3143, 0), (1, 0)], [(0, 6857971), (0, 16444), (0, 13)],
    [(17308, 0), (35, 0)]], 3, 4⟩, 17592186044416, 196705059,
    1485191592339792883129816926761927795060268926109765484362325147152433398098084418648257680371970954346883720766164948230185876,
    lc0⟩)) (.sy (.leaf ⟨271, 16, 211, 343, 16, 2757, ⟨[[(26617144257323008, 0), (0, 1755387665024000), (28224859975,
    0), (187722, 0), (0, 56)], [(31054619400386176, 0), (0, 1333774492484), (0, 651167), (3197, 0)],
    [(30256241055334, 0), (3197236, 0), (0, 45025), (6, 0)], [(11194405846, 0), (759284, 0), (0, 62)]], 3, 4⟩,
    ⟨[[(5398147836674048, 0), (0, 3901899769020530), (54299701493, 0), (0, 730272), (77, 0)], [(0, 5839544188918270),
    (0, 551657452343), (24504996, 0), (0, 1204)], [(18484461208283, 0), (0, 179724887), (38378, 0), (0, 1)],
    [(5952958353, 0), (185057, 0), (21, 0)]], 3, 4⟩, 72057594037927936, 1303893361832, 767429408625,
    ⟨[[(15156476680450, 0), (4084102527, 0), (0, 411259), (0, 78)], [(763063446, 0), (4074221, 0), (2893, 0), (1,
    0)], [(0, 6707624), (0, 16057), (0, 3)], [(19907, 0), (39, 0)]], 3, 4⟩, 17592186044416, 159131395,
    1635547972294302950376875190940076167547767754540641010457779504213851532358390419543008557697112946357586246841668583295262479,
    lc0⟩) (.leaf ⟨264, 16, 215, 318, 16, 2777, ⟨[[(11074850393374720, 0), (0, 1759673908768231), (28963874680, 0),
    (80843, 0), (0, 53)], [(30961313859891675, 0), (0, 1357389069142), (3863525, 0), (2751, 0)], [(30820671525473,
    0), (0, 38167890), (0, 36708), (6, 0)], [(11779203543, 0), (710852, 0), (0, 62)]], 3, 4⟩, ⟨[[(26903257640153088,
    0), (0, 3875813146655473), (53688599316, 0), (0, 610378), (44, 0)], [(0, 6154785333647929), (0, 531840455690),
    (22702361, 0), (0, 1465)], [(18537211586554, 0), (0, 143497314), (35908, 0), (0, 2)], [(6095282853, 0), (208862,
    0), (23, 0)]], 3, 4⟩, 72057594037927936, 1307509145168, 827197848253, ⟨[[(15036003613280, 0), (4028143140, 0),
    (0, 431610), (0, 109)], [(796451446, 0), (4201256, 0), (2806, 0), (1, 0)], [(0, 6702496), (0, 16299), (0, 8)],
    [(18560, 0), (31, 0)]], 3, 4⟩, 17592186044416, 191370001,
    2204449575468177992006643981674500537916755945447192363058386013297707820650916057957667580960455206731387954347246507264080561,
    lc0⟩)))
theorem c55 : checkR job con0 false ⟨7, 9, 7, 9, 13, 17⟩ 1 30400 t55 1431 21 640 15749 251 16000 = true := by decide +kernel

def t56 : CTree :=
  .sy (.out ⟨61, 16, 39, 518, 16, 575, ⟨[[(26235313155244032, 0), (0, 1482961910203279), (61041611283, 0)],
    [(29995344293833905, 0), (0, 3457718440665), (0, 609182741)], [(95189267404460, 0), (7900726814, 0), (0,
    5614816)]], 2, 2⟩, ⟨[[(29854306129477632, 0), (0, 4066075342883502), (254241397866, 0)], [(0, 268088232306162),
    (0, 2894218146225), (646796283, 0)], [(78795971829848, 0), (0, 5111029663), (2371549, 0)]], 2, 2⟩,
    72057594037927936, 1261481018187871, 1114357214284611, ⟨[], 0, 0⟩, 0, 0, 0, lc0⟩ 0 26 15) (.sx (.sy (.out ⟨115,
    16, 90, 1029, 16, 1188, ⟨[[(0, 18123976062771200), (0, 1604243520606555), (45721120968, 0)], [(30697281293791707,
    0), (0, 2228597010249), (0, 58118702)], [(54657998549152, 0), (848811250, 0), (0, 505708)]], 2, 2⟩, ⟨[[(0,
    13400080429350912), (0, 3987285679952625), (115212280500, 0)], [(0, 2968972119824841), (0, 1227123377671),
    (128439796, 0)], [(38920742352868, 0), (0, 856354377), (327631, 0)]], 2, 2⟩, 72057594037927936, 348988244944459,
    258455005504019, ⟨[], 0, 0⟩, 0, 0, 0, lc0⟩ 0 41 11) (.sx (.sy (.out ⟨221, 16, 195, 2046, 16, 2409,
    ⟨[[(29878495139284992, 0), (0, 1673990656731380), (25981323692, 0)], [(31101400478671915, 0), (0, 1228629746893),
    (0, 4434189)], [(29194151947497, 0), (92578421, 0), (0, 50121)]], 2, 2⟩, ⟨[[(0, 33007750288277504), (0,
    3944381145118752), (55666054778, 0)], [(0, 4277172066770912), (0, 568609448969), (27938133, 0)],
    [(19281815886675, 0), (0, 160985964), (39803, 0)]], 2, 2⟩, 72057594037927936, 95000453897792, 63145549696412,
    ⟨[], 0, 0⟩, 0, 0, 0, lc0⟩ 0 79 11) (.leaf ⟨266, 16, 202, 323, 16, 2847, ⟨[[(0, 10322342322995200), (0,
    1706851861207058), (27299421713, 0), (194351, 0), (0, 61)], [(31578224384019090, 0), (0, 1274786326066), (380416,
    0), (3051, 0)], [(30277924714607, 0), (48049541, 0), (0, 43487), (5, 0)], [(9795429168, 0), (648990, 0), (0,
    87)]], 3, 4⟩, ⟨[[(13852395379331072, 0), (0, 3996656387688169), (56085677720, 0), (0, 692851), (36, 0)], [(0,
    4681797434143100), (0, 556612533080), (26444506, 0), (0, 1694)], [(19742342524208, 0), (0, 125736197), (37974,
    0), (0, 2)], [(5378362926, 0), (106955, 0), (0, 9)]], 3, 4⟩, 72057594037927936, 1999060221322, 1505792550645,
    ⟨[[(15036836241900, 0), (4004023796, 0), (0, 360732), (0, 76)], [(584871224, 0), (3732775, 0), (2673, 0), (2,
    0)], [(0, 6370663), (0, 16124)], [(21374, 0), (33, 0)]], 3, 4⟩, 17592186044416, 182983713,
    3026816875781323450167474109872240237203111436946671056980508325613289911085931941200966753205957004971688515002502746600815877,
    lc0⟩)) (.out ⟨161, 16, 134, 1076, 16, 1277, ⟨[[(0, 607109221242880), (0, 2353444191732466), (71522726774, 0)],
    [(22878251314513691, 0), (0, 1678180377991), (0, 17344479)], [(20804054347666, 0), (202701482, 0), (0, 162002)]],
    2, 2⟩, ⟨[[(0, 2719897401720832), (0, 4177288937652086), (119368384091, 0)], [(0, 1471681868537418), (0,
    600542219938), (63643231, 0)], [(10506536883801, 0), (0, 147762624), (73446, 0)]], 2, 2⟩, 72057594037927936,
    95961612866596, 77651484279246, ⟨[], 0, 0⟩, 0, 0, 0, lc0⟩ 0 49 10))) (.out ⟨85, 16, 60, 539, 16, 631,
    ⟨[[(30484679950955520, 0), (0, 2232051645698059), (119445464186, 0)], [(23247245153983345, 0), (0,
    2899928208952), (0, 218923473)], [(38344851939115, 0), (1554385180, 0), (0, 1906783)]], 2, 2⟩, ⟨[[(0,
    27030722679422976), (0, 4228320294789906), (250361239220, 0)], [(30506304577964, 0), (0, 1303740023579),
    (302242610, 0)], [(21327018919752, 0), (0, 957601266), (312289, 0)]], 2, 2⟩, 72057594037927936, 456610259609451,
    371814443984654, ⟨[], 0, 0⟩, 0, 0, 0, lc0⟩ 0 27 11))
theorem c56 : checkR job con0 false ⟨7, 9, 7, 9, 13, 17⟩ 1 30400 t56 747 21 320 7749 251 8000 = true := by decide +kernel

def t57 : CTree :=
  .sy (.sy (.sx (.leaf ⟨1538, 16, 3370, 316, 16, 1132, ⟨[[(0, 17967024927801344), (0, 26847277925310201),
    (3921379726668, 0), (870980103, 0), (357942, 0)], [(0, 2141658645988953), (0, 55777299299641), (47610120722, 0),
    (19978111, 0), (7603, 0)], [(1479363293053, 0), (0, 169260282515), (0, 29273537), (0, 14621), (0, 2)],
    [(157237640911, 0), (0, 2124635855), (0, 1431291), (0, 738)]], 3, 4⟩, ⟨[[(0, 11552299878080512), (0,
    7683992209555088), (0, 1406222364510), (0, 919839607), (0, 316995)], [(0, 56116200193224229), (10449039640585,
    0), (8541766126, 0), (4195816, 0), (1522, 0)], [(109741340502181, 0), (53453136933, 0), (44978676, 0), (23733,
    0), (8, 0)], [(0, 381184685569), (0, 399678667), (0, 302862), (0, 149)]], 3, 4⟩, 72057594037927936,
    102115834326148, 10418333710754, ⟨[[(14942880661723, 0), (0, 89078126), (0, 50243), (0, 1175), (0, 763)],
    [(2532654232, 0), (6570447, 0), (0, 42201), (1754, 0), (24, 0)], [(0, 2707288), (24190, 0), (0, 23), (0, 14)],
    [(1645, 0), (0, 128), (1, 0)]], 3, 4⟩, 17592186044416, 26642550,
    4477578204085723697506609360999858462283124682050068536168402602328364053341961746394432202102022039464227799954918413659758625,
    lc0⟩) (.leaf ⟨1439, 16, 3156, 322, 16, 1234, ⟨[[(29190743108730880, 0), (0, 26772280638915216), (4870500916395,
    0), (1313840670, 0), (527711, 0)], [(0, 1327921200457257), (0, 65677363914518), (39999767612, 0), (16353518, 0),
    (6449, 0)], [(28574896592421, 0), (0, 318198841047), (0, 133547013), (0, 69254), (0, 21)], [(557594359546, 0),
    (0, 1750805161), (0, 1136895), (0, 607)]], 3, 4⟩, ⟨[[(0, 21176654689955840), (0, 8021355431138291), (0,
    1241089756127), (0, 857975802), (0, 293525)], [(0, 55421192345259995), (13625573494616, 0), (11272816127, 0),
    (5636128, 0), (2013, 0)], [(86441992597642, 0), (21753525703, 0), (21085539, 0), (12084, 0), (4, 0)], [(0,
    368256308092), (0, 421612416), (0, 325554), (0, 161)]], 3, 4⟩, 72057594037927936, 218025119896777,
    24617257999751, ⟨[[(14941188256386, 0), (0, 69292472), (0, 1552974), (51549, 0), (0, 658)], [(2537871236, 0),
    (9567810, 0), (0, 89419), (129, 0), (12, 0)], [(0, 3577169), (13321, 0), (476, 0), (0, 3)], [(5148, 0), (0, 119),
    (0, 2)]], 3, 4⟩, 17592186044416, 7763473,
    3735744147161357986882460808951266843026379841048874637890457088836403326103106805907199144451581616763772578702048493266845794,
    lc0⟩)) (.out ⟨188, 16, 173, 6280, 16, 6234, ⟨[[(9907919180214272, 0)], [(77912273553509577, 0)]], 2, 2⟩, ⟨[[(0,
    29822836732395520), (28075440077027673, 0)]], 2, 2⟩, 72057594037927936, 873, 51942, ⟨[], 0, 0⟩, 0, 0, 0, lc0⟩ 2 1
    24723)) (.out ⟨188, 16, 173, 3163, 16, 3117, ⟨[[(9907919180214272, 0)], [(77912273553509577, 0)]], 2, 2⟩, ⟨[[(0,
    29822836732428288), (28075440077027673, 0)]], 2, 2⟩, 72057594037927936, 873, 19174, ⟨[], 0, 0⟩, 0, 0, 0, lc0⟩ 2 1
    53343)
theorem c57 : checkR job con1 false ⟨7, 9, 7, 9, 13, 17⟩ 1 30400 t57 174 14 160 4039 39 4000 = true := by decide +kernel

def t58 : CTree :=
  .sx (.sy (.leaf ⟨1295, 16, 2840, 323, 16, 1326, ⟨[[(21205036936773632, 0), (0, 26003208545417505), (5275972994095,
    0), (1534400240, 0), (618312, 0)], [(1886549413840803, 0), (0, 78494357279263), (27147288954, 0), (10075203, 0),
    (4315, 0)], [(93476451058137, 0), (0, 399199570915), (0, 189941398), (0, 100691), (0, 33)], [(1153004925648, 0),
    (0, 1072622735), (0, 605987), (0, 351)]], 3, 4⟩, ⟨[[(32110177893994496, 0), (0, 8200682963962343), (0,
    984115841865), (0, 745873354), (0, 252755)], [(0, 55220411931183826), (14938377216481, 0), (12596481421, 0),
    (6393191, 0), (2269, 0)], [(63058677975027, 0), (0, 11612716909), (0, 4572645), (0, 569)], [(0, 309738518012),
    (0, 370851158), (0, 291115), (0, 146)]], 3, 4⟩, 72057594037927936, 282165004486583, 36457027516360,
    ⟨[[(14941535494107, 0), (86189476, 0), (0, 5556422), (75280, 0), (0, 177)], [(2547523538, 0), (13596789, 0), (0,
    66830), (0, 578), (4, 0)], [(0, 4481016), (0, 9582), (511, 0), (2, 0)], [(9443, 0), (0, 52), (0, 2)]], 3, 4⟩,
    17592186044416, 9272897,
    2599961447039737008229776272685286962555870202190695212926863085561918453880058543643422707182949333400250416007312594705574823,
    lc0⟩) (.sx (.sy (.leaf ⟨2719, 16, 6058, 645, 16, 2656, ⟨[[(9661929441918976, 0), (0, 26518124442009931),
    (2850500132878, 0), (427071933, 0), (84401, 0)], [(0, 3660913951157948), (0, 37048246518683), (8483717207, 0),
    (1677821, 0), (341, 0)], [(25953944831629, 0), (0, 105768097261), (0, 25707281), (0, 6667), (0, 1)],
    [(238282961582, 0), (0, 174474819), (0, 53481), (0, 15)]], 3, 4⟩, ⟨[[(6336462000553984, 0), (0,
    8452228042426314), (0, 609311999531), (0, 214151764), (0, 35624)], [(0, 55308632847590912), (8306841361015, 0),
    (3451208394, 0), (867550, 0), (153, 0)], [(34860882917934, 0), (0, 831630321), (276633, 0), (172, 0)], [(0,
    89649235060), (0, 54358774), (0, 21160), (0, 5)]], 3, 4⟩, 72057594037927936, 35481601213816, 4420505886200,
    ⟨[[(14888001086828, 0), (0, 92657907), (0, 1053925), (11082, 0), (0, 16)], [(1278986059, 0), (3296796, 0), (0,
    10352), (0, 41)], [(0, 1119640), (0, 742), (36, 0)], [(1131, 0), (0, 4)]], 3, 4⟩, 17592186044416, 671641,
    4242626650300349269307452063728248382263020495148794018556596996712335890702789705714439194263589678078644079003055535485175711,
    lc0⟩) (.out ⟨831, 16, 694, 12574, 16, 12468, ⟨[[(0, 26571237801492480)], [(78137453534878098, 0)]], 2, 2⟩,
    ⟨[[(26490173008248832, 0), (28075440077027673, 0)]], 2, 2⟩, 72057594037927936, 6660, 55612, ⟨[], 0, 0⟩, 0, 0, 0,
    lc0⟩ 2 1 12635)) (.sy (.leaf ⟨2662, 16, 5934, 644, 16, 2743, ⟨[[(31606268169977856, 0), (0, 27076194750087706),
    (3004037519943, 0), (458931512, 0), (91143, 0)], [(0, 1533726712246365), (0, 42460609035022), (6790218834, 0),
    (1246839, 0), (269, 0)], [(49343911236690, 0), (0, 116167197037), (0, 28849026), (0, 7576), (0, 1)],
    [(338482323118, 0), (0, 127261293), (0, 34538), (0, 10)]], 3, 4⟩, ⟨[[(27905060991205376, 0), (0,
    8490745867445749), (0, 529712987596), (0, 196055425), (0, 32372)], [(0, 55311554734927296), (8404429312394, 0),
    (3530911160, 0), (893681, 0), (157, 0)], [(28786805349837, 0), (0, 5267924761), (0, 1437759), (0, 251)], [(0,
    78974220956), (0, 48594601), (0, 19083), (0, 5)]], 3, 4⟩, 72057594037927936, 39533080735493, 5078194097486,
    ⟨[[(14887735188219, 0), (0, 35664363), (0, 1672818), (10701, 0), (1, 0)], [(1232246464, 0), (3642451, 0), (0,
    7139), (0, 47)], [(0, 1139104), (0, 2177), (29, 0)], [(1268, 0), (0, 1)]], 3, 4⟩, 17592186044416, 584468,
    4623201959679925786998547764251651291623884240606674756238003927996546286744281743850081927322597130721785781847474712382934842,
    lc0⟩) (.sy (.sy (.out ⟨4096, 16, 19924, 50238, 16, 78228, ⟨[[(34202819274866688, 0), (0, 22479122456334136),
    (644757813360, 0)], [(0, 12045048620678864), (0, 35078148948813), (1464007201, 0)], [(146429359695393, 0), (0,
    99917631152), (0, 6290261)]], 2, 2⟩, ⟨[[(25288549913853952, 0), (0, 28067879029481196), (217622632522, 0)]], 2,
    2⟩, 72057594037927936, 3207513741856685, 100120981532, ⟨[], 0, 0⟩, 0, 0, 0, lc0⟩ 3 1 2336) (.out ⟨3954, 16,
    19348, 50269, 16, 78323, ⟨[[(33847554195980288, 0), (0, 21731134014481923), (631848198127, 0)], [(0,
    14345142383545797), (0, 33841046471094), (1437311437, 0)], [(134590490373347, 0), (0, 97989244806), (0,
    6202279)]], 2, 2⟩, ⟨[[(0, 2934708878442496), (0, 28068005083056735), (217492077542, 0)]], 2, 2⟩,
    72057594037927936, 3093087228009643, 100000163896, ⟨[], 0, 0⟩, 0, 0, 0, lc0⟩ 3 1 2604)) (.out ⟨2140, 16, 10563,
    25149, 16, 39220, ⟨[[(0, 18981082316800000), (0, 23565579477346248), (1398958713370, 0)], [(0, 9982526863186102),
    (0, 36580613494040), (3191052907, 0)], [(67173536809604, 0), (0, 108596970400), (0, 13856950)]], 2, 2⟩,
    ⟨[[(16247606774857728, 0), (0, 28059033522747149), (434451242901, 0)]], 2, 2⟩, 72057594037927936,
    1683463157419071, 399269098576, ⟨[], 0, 0⟩, 0, 0, 0, lc0⟩ 3 1 2921))))) (.sy (.leaf ⟨1051, 16, 2301, 320, 16,
    1404, ⟨[[(15442706764562432, 0), (0, 23118632407980446), (4761429083874, 0), (1402671233, 0), (576041, 0)],
    [(8484331990016960, 0), (0, 83346013338656), (12560240426, 0), (3087458, 0), (1813, 0)], [(182394663519999, 0),
    (0, 374333039624), (0, 176789669), (0, 96654), (0, 32)], [(1626215240789, 0), (0, 331902249), (0, 44621), (0,
    69)]], 3, 4⟩, ⟨[[(27885539801468928, 0), (0, 8257790716703153), (0, 678623814895), (0, 603838855), (0, 201739)],
    [(0, 55415326510654994), (14301455578584, 0), (12413128564, 0), (6406094, 0), (2268, 0)], [(43862015111824, 0),
    (0, 40002731076), (0, 26796063), (0, 11717), (0, 4)], [(0, 215253733209), (0, 262338823), (0, 210506), (0,
    108)]], 3, 4⟩, 72057594037927936, 269874641998199, 42834024642986, ⟨[[(14941548697828, 0), (426151156, 0), (0,
    9289143), (60792, 0), (153, 0)], [(2745176519, 0), (17951067, 0), (0, 25098), (0, 735), (0, 1)], [(0, 6129190),
    (0, 38597), (411, 0), (5, 0)], [(17795, 0), (51, 0), (0, 3)]], 3, 4⟩, 17592186044416, 10184227,
    2239390406016901264531464387218180494925540316897960106017838199821089814363968345775300270631164961364235493854706513341834035,
    lc0⟩) (.sy (.leaf ⟨2088, 16, 4652, 373, 16, 1668, ⟨[[(0, 15071642047119360), (0, 22791640210056839),
    (2537134293234, 0), (389863061, 0), (78497, 0)], [(7383789717775250, 0), (0, 82732504502547), (6641471843, 0),
    (891209, 0), (245, 0)], [(323216807619352, 0), (0, 400339110181), (0, 98274252), (0, 26420), (0, 4)],
    [(3248175908140, 0), (0, 341523533), (0, 28974), (0, 19)]], 3, 4⟩, ⟨[[(0, 26972356385599488), (0,
    4956213003145448), (0, 234283899003), (0, 96866104), (0, 15763)], [(0, 64789326906807515), (9398188662326, 0),
    (4034895506, 0), (1033070, 0), (181, 0)], [(49217591486793, 0), (0, 25698126375), (0, 8595727), (0, 1892)], [(0,
    274843460336), (0, 171141617), (0, 68393), (0, 17)]], 3, 4⟩, 72057594037927936, 561075977806784, 53259917736823,
    ⟨[[(14888529355185, 0), (167387057, 0), (0, 7092990), (42349, 0), (118, 0)], [(1419077112, 0), (8252443, 0), (0,
    9213), (0, 266)], [(0, 1696969), (0, 9744), (81, 0), (1, 0)], [(2576, 0), (8, 0)]], 3, 4⟩, 17592186044416,
    2556646,
    5227102638897207784826121946720446412994099012886859212864973278475509044543299825726356516127347497935354051294808118308630451,
    lc0⟩) (.sy (.sy (.out ⟨3091, 16, 15042, 50238, 16, 78228, ⟨[[(7026863592767488, 0), (0, 18221654196858486),
    (524482007030, 0)], [(10885301229261042, 0), (0, 66349133930790), (1369232062, 0)], [(981233877300932, 0), (0,
    331518376210), (0, 20654051)]], 2, 2⟩, ⟨[[(25288549913853952, 0), (0, 28067879029481196), (217622632522, 0)]], 2,
    2⟩, 72057594037927936, 30527509280244673, 100120981532, ⟨[], 0, 0⟩, 0, 0, 0, lc0⟩ 3 1 2426) (.out ⟨3316, 16,
    16239, 50269, 16, 78323, ⟨[[(0, 12080402204852224), (0, 19582946290648162), (571433598039, 0)],
    [(6173477745350750, 0), (0, 71397471215727), (1490311232, 0)], [(1031265163626453, 0), (0, 361405400675), (0,
    22648322)]], 2, 2⟩, ⟨[[(0, 2934708878442496), (0, 28068005083056735), (217492077542, 0)]], 2, 2⟩,
    72057594037927936, 32907978749985957, 100000163896, ⟨[], 0, 0⟩, 0, 0, 0, lc0⟩ 3 1 2766)) (.out ⟨1967, 16, 9728,
    25149, 16, 39220, ⟨[[(26824692274774016, 0), (0, 23301074580197291), (1388384151177, 0)], [(0, 1293676660351988),
    (0, 85121128433919), (3615797628, 0)], [(592263374645340, 0), (0, 439425317388), (0, 55551262)]], 2, 2⟩,
    ⟨[[(16247606774857728, 0), (0, 28059033522747149), (434451242901, 0)]], 2, 2⟩, 72057594037927936,
    19700825564236428, 399269098576, ⟨[], 0, 0⟩, 0, 0, 0, lc0⟩ 3 1 3315))))
theorem c58 : checkR job con1 false ⟨7, 9, 7, 9, 13, 17⟩ 1 30400 t58 202 14 160 8039 39 8000 = true := by decide +kernel

def t59 : CTree :=
  .sx (.out ⟨423, 16, 347, 3163, 16, 3117, ⟨[[(0, 6755399441055744)], [(78137453534878098, 0)]], 2, 2⟩, ⟨[[(0,
    29822836732428288), (28075440077027673, 0)]], 2, 2⟩, 72057594037927936, 107, 19174, ⟨[], 0, 0⟩, 0, 0, 0, lc0⟩ 2 1
    32063) (.sy (.sy (.sy (.out ⟨1814, 16, 9087, 25180, 16, 39315, ⟨[[(20691334677872640, 0), (0, 21561499700881310),
    (1321355933648, 0)], [(0, 7389728268149559), (0, 78980936668362), (3435247450, 0)], [(520902097593317, 0), (0,
    418692348434), (0, 53523449)]], 2, 2⟩, ⟨[[(0, 19243410462081024), (0, 28059183373251525), (433929501775, 0)]], 2,
    2⟩, 72057594037927936, 18348563498916722, 398308160687, ⟨[], 0, 0⟩, 0, 0, 0, lc0⟩ 3 1 4024) (.out ⟨1682, 16,
    8533, 25210, 16, 39410, ⟨[[(0, 9680183154622464), (0, 20051574467433190), (1264479502249, 0)], [(0,
    12704395298728105), (0, 73658170741763), (3282215529, 0)], [(458168745511984, 0), (0, 401129076481), (0,
    51833897)]], 2, 2⟩, ⟨[[(12026153224110080, 0), (0, 28059251044151115), (433407748477, 0)]], 2, 2⟩,
    72057594037927936, 17179099031755788, 397349629041, ⟨[], 0, 0⟩, 0, 0, 0, lc0⟩ 3 1 4632)) (.out ⟨897, 16, 4641,
    12620, 16, 19764, ⟨[[(12350305146281984, 0), (0, 21485117154028262), (2831235086471, 0)], [(0,
    11572353044307216), (0, 79276999630107), (7333968277, 0)], [(223274942352926, 0), (0, 449841061261), (0,
    118072809)]], 2, 2⟩, ⟨[[(1313226264543232, 0), (0, 28041819050384377), (864714269647, 0)]], 2, 2⟩,
    72057594037927936, 9353017850669351, 1583636618229, ⟨[], 0, 0⟩, 0, 0, 0, lc0⟩ 3 1 5707)) (.sy (.out ⟨828, 16,
    4396, 12651, 16, 19860, ⟨[[(691796188053504, 0), (0, 19924296999400776), (2788703197978, 0)], [(0,
    16775831882514997), (0, 73988128254671), (7207898645, 0)], [(177558393704702, 0), (0, 444083081590), (0,
    118853059)]], 2, 2⟩, ⟨[[(0, 7995739573059584), (0, 28042963867297917), (862674619845, 0)]], 2, 2⟩,
    72057594037927936, 8809028908557596, 1576105601397, ⟨[], 0, 0⟩, 0, 0, 0, lc0⟩ 3 1 7021) (.out ⟨453, 16, 347,
    12696, 16, 12468, ⟨[[(19365478397689856, 0)], [(78137453534878098, 0)]], 2, 2⟩, ⟨[[(0, 4998995586318336),
    (28075440077027673, 0)]], 2, 2⟩, 72057594037927936, 3384, 62952, ⟨[], 0, 0⟩, 0, 0, 0, lc0⟩ 2 1 21739)))
theorem c59 : checkR job con1 false ⟨7, 9, 7, 9, 13, 17⟩ 1 30400 t59 202 14 160 8117 39 8000 = true := by decide +kernel

def t60 : CTree :=
  .sx (.sy (.leaf ⟨802, 16, 1746, 313, 16, 1467, ⟨[[(6439704492580864, 0), (0, 19539153654067535), (3775843564228,
    0), (1072256874, 0), (456082, 0)], [(17545422361062315, 0), (0, 79414852247747), (2212518072, 0), (0, 1750848),
    (0, 16)], [(266548959822547, 0), (0, 287849124988), (0, 122448928), (0, 70471), (0, 24)], [(1822490416023, 0),
    (151603833, 0), (305214, 0), (118, 0)]], 3, 4⟩, ⟨[[(0, 21370113497079808), (0, 8247888045424376), (0,
    372063535435), (0, 455296064), (0, 148602)], [(0, 55767800442101787), (12075351920331, 0), (10974630629, 0),
    (5784836, 0), (2049, 0)], [(32104196439474, 0), (0, 58522586037), (0, 41656025), (0, 19441), (0, 7)], [(0,
    102612669469), (0, 124433358), (0, 105098), (0, 58)]], 3, 4⟩, 72057594037927936, 213272356943845, 43544382388764,
    ⟨[[(14942369431233, 0), (938892960, 0), (0, 11349660), (33811, 0), (224, 0)], [(3049106426, 0), (22104442, 0),
    (21292, 0), (0, 617), (0, 3)], [(0, 8571484), (0, 78771), (181, 0), (6, 0)], [(33904, 0), (269, 0), (0, 2)]], 3,
    4⟩, 17592186044416, 17872743,
    3564943177456204241829114408899675015274468294637659395799001942657177929639300728120487824663280525042612176071284967962538181,
    lc0⟩) (.leaf ⟨871, 16, 1946, 307, 16, 1481, ⟨[[(0, 17513287170408448), (0, 21098009707669767), (4507196428363,
    0), (1361871122, 0), (561610, 0)], [(12665376338765538, 0), (0, 88162598418207), (2008450117, 0), (0, 1959959),
    (0, 38)], [(271188796479263, 0), (0, 343597955971), (0, 155876923), (0, 87434), (0, 30)], [(2046565164721, 0),
    (224504248, 0), (372255, 0), (143, 0)]], 3, 4⟩, ⟨[[(0, 25972747769307136), (0, 8393874108917650), (0,
    488752862819), (0, 507805834), (0, 158675)], [(0, 55278886164610423), (14029583102655, 0), (12523831969, 0),
    (6516222, 0), (2268, 0)], [(27536822156895, 0), (0, 66013154565), (0, 46908150), (0, 21910), (0, 8)], [(0,
    114064539345), (0, 143284959), (0, 120620), (0, 65)]], 3, 4⟩, 72057594037927936, 250523200701779, 48503962672330,
    ⟨[[(14870922542651, 0), (662381578, 0), (0, 12616180), (37325, 0), (298, 0)], [(2890114335, 0), (22497859, 0),
    (28561, 0), (0, 658), (0, 4)], [(0, 8161189), (0, 81174), (128, 0), (6, 0)], [(31316, 0), (275, 0), (0, 2)]], 3,
    4⟩, 17592186044416, 15116196,
    3857665616768553389968606676043456543506659880890791554320387050076247061328521902636254041452390453008100161563439135052325629,
    lc0⟩)) (.sy (.sx (.leaf ⟨819, 16, 1768, 474, 16, 2344, ⟨[[(19980973239132160, 0), (0, 21600584792300862),
    (3819170736690, 0), (1018442944, 0), (451013, 0)], [(15872311763043312, 0), (0, 46169798752935), (0, 1230269877),
    (0, 2280568), (0, 496)], [(100118031520009, 0), (0, 68452175801), (0, 24423801), (0, 15068), (0, 5)],
    [(287244041336, 0), (49227362, 0), (64367, 0), (29, 0)]], 3, 4⟩, ⟨[[(0, 2016038695956480), (0,
    12816131722352824), (0, 256843539727), (0, 547787845), (0, 173742)], [(0, 43553974791670126), (7589565141061, 0),
    (7288219654, 0), (3921705, 0), (1391, 0)], [(11327413558460, 0), (0, 25177837420), (0, 18247492), (0, 8734), (0,
    3)], [(0, 3591258477), (0, 4207601), (0, 4856), (0, 4)]], 3, 4⟩, 72057594037927936, 13115518805483,
    3858583401406, ⟨[[(14941887677817, 0), (921358340, 0), (0, 4828134), (3973, 0), (31, 0)], [(2568641468, 0),
    (12308538, 0), (17634, 0), (0, 86)], [(0, 6531423), (0, 45331), (0, 29), (1, 0)], [(25087, 0), (176, 0)]], 3, 4⟩,
    17592186044416, 12136912,
    4642258874729308944876298491978822047247879717568246958940429235262309670115237612933010238126648638000324347529121184194032076,
    lc0⟩) (.sx (.leaf ⟨877, 16, 1880, 645, 16, 3279, ⟨[[(0, 15296349805608960), (0, 24031520080314427),
    (4022842525142, 0), (1025262788, 0), (466088, 0)], [(10883121269112955, 0), (0, 26038523721297), (0, 1151863986),
    (0, 1527619), (0, 377)], [(31657685130442, 0), (0, 17278526978), (0, 5332522), (0, 3482), (0, 1)], [(41846243560,
    0), (7965266, 0), (9802, 0), (4, 0)]], 3, 4⟩, ⟨[[(27059830195159040, 0), (0, 17720968911614211), (0,
    156488274732), (0, 656515869), (0, 204071)], [(0, 30131795847723182), (4567813016039, 0), (4559430287, 0),
    (2483919, 0), (882, 0)], [(3967159381074, 0), (0, 8796689589), (0, 6408386), (0, 3102), (0, 1)], [(698944946, 0),
    (841276, 0), (402, 0)]], 3, 4⟩, 72057594037927936, 855938021679, 309056594196, ⟨[[(14942857768101, 0),
    (796617232, 0), (0, 2470824), (752, 0), (7, 0)], [(2206645675, 0), (7611753, 0), (9537, 0), (0, 19)], [(0,
    4931727), (0, 26055), (0, 27)], [(17309, 0), (98, 0)]], 3, 4⟩, 17592186044416, 7218146,
    4968814731440738189320272922824103275869980176463037819464033284347180552365429590391185910702274241459908654525276259428428973,
    lc0⟩) (.leaf ⟨839, 16, 1790, 639, 16, 3304, ⟨[[(13013426766209024, 0), (0, 23587978352532388), (3795779267608,
    0), (932952163, 0), (432805, 0)], [(12145584658942919, 0), (0, 25694878782389), (0, 1358599967), (0, 1629788),
    (0, 424)], [(33584828614118, 0), (0, 15785074297), (0, 4267250), (0, 2940), (0, 1)], [(42117725619, 0), (8246721,
    0), (9926, 0), (5, 0)]], 3, 4⟩, ⟨[[(0, 33002480404307968), (0, 17734129775157973), (0, 34093299837), (0,
    593891296), (0, 181589)], [(0, 30135361893030587), (4109025694664, 0), (4234148682, 0), (2327945, 0), (828, 0)],
    [(4091498015700, 0), (0, 8751995627), (0, 6390806), (0, 3116), (0, 1)], [(1526250729, 0), (1797777, 0), (1166,
    0)]], 3, 4⟩, 72057594037927936, 796197663733, 289633751317, ⟨[[(14942748234168, 0), (874245813, 0), (0, 2411842),
    (388, 0), (6, 0)], [(2192156606, 0), (7495589, 0), (10162, 0), (0, 14)], [(0, 4914280), (0, 26516), (0, 35)],
    [(17692, 0), (106, 0)]], 3, 4⟩, 17592186044416, 7910165,
    5171664189847064666337656343955880095131859388418221280339061368563356118414284288835666017273267403759244458599665770095308735,
    lc0⟩))) (.sy (.leaf ⟨903, 16, 1984, 348, 16, 1793, ⟨[[(5352926638579712, 0), (0, 12234753922903153),
    (1116364087559, 0), (153073621, 0), (33466, 0)], [(35976636728705879, 0), (0, 54204757675240), (0, 1323985619),
    (0, 797101), (0, 98)], [(487562882259594, 0), (0, 154618588977), (0, 27049038), (0, 8418), (0, 2)],
    [(2776486745664, 0), (293384939, 0), (172282, 0), (39, 0)]], 3, 4⟩, ⟨[[(14698941325361152, 0), (0,
    4872062551797742), (0, 47504230033), (0, 50809627), (0, 7622)], [(0, 65495421225955904), (5901335954439, 0),
    (2848532588, 0), (763182, 0), (133, 0)], [(29817652334277, 0), (0, 42016770840), (0, 15273280), (0, 3674), (0,
    1)], [(10128558923, 0), (5830607, 0), (0, 441), (0, 1)]], 3, 4⟩, 72057594037927936, 237011752216394,
    47406324333005, ⟨[[(14887819633936, 0), (1221117018, 0), (0, 9079806), (5803, 0), (101, 0)], [(2243942971, 0),
    (15044289, 0), (36041, 0), (0, 146), (0, 1)], [(0, 5344610), (0, 53852), (0, 99), (1, 0)], [(19317, 0), (202,
    0)]], 3, 4⟩, 17592186044416, 9385335,
    5607658743352611595965261731822013187929090291570514312152306974505756781274585678931721618451773318220519896924856771316463747,
    lc0⟩) (.leaf ⟨948, 16, 2113, 345, 16, 1804, ⟨[[(0, 15206398106566656), (0, 12841739302352583), (1228421060124,
    0), (174423660, 0), (37429, 0)], [(33803983359065970, 0), (0, 57964825913218), (0, 1612592534), (0, 882341), (0,
    110)], [(506240309205151, 0), (0, 169332645699), (0, 30965221), (0, 9479), (0, 2)], [(2982522418491, 0),
    (341848591, 0), (193359, 0), (43, 0)]], 3, 4⟩, ⟨[[(2135024988839936, 0), (0, 4910356318315394), (0, 60039641510),
    (0, 53534763), (0, 7799)], [(0, 65416299282292416), (6398909852886, 0), (3050649250, 0), (810568, 0), (140, 0)],
    [(26607897110302, 0), (0, 44740514333), (0, 16256187), (0, 3905), (0, 1)], [(10644951136, 0), (5773028, 0), (0,
    756), (0, 1)]], 3, 4⟩, 72057594037927936, 256993275324410, 50052146118940, ⟨[[(14852551633013, 0), (1109364350,
    0), (0, 9546026), (5467, 0), (110, 0)], [(2167504891, 0), (15052830, 0), (38225, 0), (0, 144), (0, 1)], [(0,
    5156901), (0, 53646), (0, 108), (1, 0)], [(18260, 0), (197, 0)]], 3, 4⟩, 17592186044416, 8700437,
    5028515206988530543089735915657037473341296883747051955003679754864775704943219491859327698412847328629876493175655225838153046,
    lc0⟩)))
theorem c60 : checkR job con1 false ⟨7, 9, 7, 9, 13, 17⟩ 1 30400 t60 230 14 160 8039 39 8000 = true := by decide +kernel

def t61 : CTree :=
  .sx (.sy (.sx (.sy (.sy (.out ⟨1717, 16, 8593, 25180, 16, 39315, ⟨[[(33847853654032384, 0), (0, 22134271660758347),
    (1295486836988, 0)], [(11279694960882718, 0), (0, 45767051987680), (571455871, 0)], [(234848377610273, 0), (0,
    100341077810), (0, 12160164)]], 2, 2⟩, ⟨[[(0, 19243410462081024), (0, 28059183373251525), (433929501775, 0)]], 2,
    2⟩, 72057594037927936, 2923518396549878, 398308160687, ⟨[], 0, 0⟩, 0, 0, 0, lc0⟩ 3 1 3836) (.out ⟨1791, 16, 9086,
    25210, 16, 39410, ⟨[[(0, 15347153880121344), (0, 23188477843762609), (1395545700614, 0)], [(8155862674049304, 0),
    (0, 48298970387355), (598901278, 0)], [(239967466207454, 0), (0, 108135960055), (0, 13273319)]], 2, 2⟩,
    ⟨[[(12026153224110080, 0), (0, 28059251044151115), (433407748477, 0)]], 2, 2⟩, 72057594037927936,
    3096984168641662, 397349629041, ⟨[], 0, 0⟩, 0, 0, 0, lc0⟩ 3 1 4632)) (.out ⟨997, 16, 5166, 12620, 16, 19764,
    ⟨[[(0, 5231019582619648), (0, 25991769825433968), (3265117322338, 0)], [(1428835393842535, 0), (0,
    54764055525019), (1344975136, 0)], [(129139168760133, 0), (0, 126582115543), (0, 31652223)]], 2, 2⟩,
    ⟨[[(1313226264543232, 0), (0, 28041819050384377), (864714269647, 0)]], 2, 2⟩, 72057594037927936,
    1798204844048476, 1583636618229, ⟨[], 0, 0⟩, 0, 0, 0, lc0⟩ 3 1 5992)) (.leaf ⟨1015, 16, 2326, 460, 16, 2331,
    ⟨[[(0, 11281076822155264), (0, 25103269078942326), (5796301563967, 0), (1825754532, 0), (738188, 0)],
    [(5689713554539382, 0), (0, 55586623729494), (0, 520755360), (0, 1979919), (0, 315)], [(86278230424735, 0), (0,
    108239095958), (0, 50139873), (0, 27922), (0, 10)], [(336299247518, 0), (61626423, 0), (76619, 0), (31, 0)]], 3,
    4⟩, ⟨[[(723212897443840, 0), (0, 13174812471533266), (0, 813951225621), (0, 801191415), (0, 236076)], [(0,
    42348863014927406), (11845816573557, 0), (10532030610, 0), (5433846, 0), (1857, 0)], [(7800859560856, 0), (0,
    30175593822), (0, 21574396), (0, 10162), (0, 4)], [(0, 17715973875), (0, 23045348), (0, 19964), (0, 11)]], 3, 4⟩,
    72057594037927936, 19495274333373, 5087584851604, ⟨[[(14798690885158, 0), (348318521, 0), (0, 6081049), (8131,
    0), (62, 0)], [(2437202622, 0), (13460397, 0), (18726, 0), (0, 140), (0, 1)], [(0, 6324730), (0, 46657), (0, 9),
    (1, 0)], [(21800, 0), (151, 0)]], 3, 4⟩, 17592186044416, 8194136,
    4832040284259037816283204438208458037756479758190355371303889718766326839787634187473382492052816036064841020987644015394739739,
    lc0⟩)) (.sy (.out ⟨858, 16, 4573, 12651, 16, 19860, ⟨[[(0, 24965839716974592), (0, 23247398133674161),
    (3014652052341, 0)], [(1559430370060195, 0), (0, 103073883794340), (704692215, 0)], [(519691571688897, 0), (0,
    459836121430), (0, 114699880)]], 2, 2⟩, ⟨[[(0, 7995739573059584), (0, 28042963867297917), (862674619845, 0)]], 2,
    2⟩, 72057594037927936, 14188949031709532, 1576105601397, ⟨[], 0, 0⟩, 0, 0, 0, lc0⟩ 3 1 7751) (.out ⟨801, 16,
    4400, 12681, 16, 19955, ⟨[[(17539585067302912, 0), (0, 21906504899354768), (3016297467764, 0)], [(0,
    6231319996032265), (0, 99079079367993), (545388057, 0)], [(464835166137911, 0), (0, 460209570663), (0,
    117515193)]], 2, 2⟩, ⟨[[(0, 1687808441712640), (0, 28042371096716971), (860591410057, 0)]], 2, 2⟩,
    72057594037927936, 13763111144583017, 1568531376260, ⟨[], 0, 0⟩, 0, 0, 0, lc0⟩ 3 1 9771))) (.sy (.sx (.leaf ⟨896,
    16, 2046, 451, 16, 2372, ⟨[[(0, 32964338677071872), (0, 23523730849088223), (5052769289982, 0), (1538626831, 0),
    (635148, 0)], [(9988041711063570, 0), (0, 54075645683221), (0, 2749461115), (0, 3042377), (0, 727)],
    [(102745079905240, 0), (0, 89406175649), (0, 37394296), (0, 21724), (0, 8)], [(343241187748, 0), (82771622, 0),
    (91445, 0), (40, 0)]], 3, 4⟩, ⟨[[(31548144218685440, 0), (0, 13093518120477545), (0, 545766595888), (0,
    668777318), (0, 190270)], [(0, 42680713583206930), (10293408678243, 0), (9450781950, 0), (4929052, 0), (1677,
    0)], [(7003208844334, 0), (0, 31935009859), (0, 23091189), (0, 11012), (0, 4)], [(0, 4433768978), (0, 6100385),
    (0, 6970), (0, 5)]], 3, 4⟩, 72057594037927936, 16475645189951, 4747367998806, ⟨[[(14799044809567, 0), (593370826,
    0), (0, 6085872), (3692, 0), (49, 0)], [(2475599680, 0), (13856816, 0), (26529, 0), (0, 94), (0, 1)], [(0,
    6907889), (0, 55647), (0, 73), (1, 0)], [(26943, 0), (218, 0)]], 3, 4⟩, 17592186044416, 11580836,
    5365554254703237858974991611800806991957568341115407060128086381362527914249854935275622102726567023677835604687818470179664739,
    lc0⟩) (.leaf ⟨786, 16, 1786, 442, 16, 2409, ⟨[[(14235857137418240, 0), (0, 21915598562175130), (4319731434055,
    0), (1254684877, 0), (531709, 0)], [(14477430493336590, 0), (0, 51388866955756), (0, 4026919677), (0, 3629110),
    (0, 979)], [(116529504725537, 0), (0, 71168402398), (0, 25241501), (0, 15682), (0, 6)], [(339059914626, 0),
    (90186642, 0), (95381, 0), (43, 0)]], 3, 4⟩, ⟨[[(0, 20670274714271744), (0, 13030522802337790), (0,
    304002530897), (0, 547887295), (0, 148683)], [(0, 42948750793000055), (8635753299272, 0), (8278054890, 0),
    (4372636, 0), (1479, 0)], [(7265388812890, 0), (0, 32286471095), (0, 23528075), (0, 11354), (0, 4)],
    [(7877371322, 0), (9277656, 0), (4959, 0), (1, 0)]], 3, 4⟩, 72057594037927936, 13497388745585, 4246340032689,
    ⟨[[(14798044431368, 0), (830919828, 0), (0, 5876462), (610, 0), (36, 0)], [(2533538635, 0), (14105216, 0),
    (32290, 0), (0, 54), (0, 1)], [(0, 7544315), (0, 64525), (0, 138), (1, 0)], [(33154, 0), (299, 0)]], 3, 4⟩,
    17592186044416, 18055813,
    5292428371205547289531248285204089889299078333271729087533498758924456313998080152085078800607649062982949216525664198998200889,
    lc0⟩)) (.sy (.sx (.out ⟨730, 16, 3871, 12651, 16, 19860, ⟨[[(0, 25788448105324544), (0, 21678585901881866),
    (2523982781700, 0)], [(12893096420221138, 0), (0, 51489563895519), (0, 1560326200)], [(184245990076555, 0), (0,
    88933234843), (0, 19566297)]], 2, 2⟩, ⟨[[(0, 7995739573059584), (0, 28042963867297917), (862674619845, 0)]], 2,
    2⟩, 72057594037927936, 1879330822029860, 1576105601397, ⟨[], 0, 0⟩, 0, 0, 0, lc0⟩ 3 1 6792) (.sy (.out ⟨923, 16,
    4808, 25302, 16, 39696, ⟨[[(2674143920488448, 0), (0, 14459823845911752), (758983555163, 0)],
    [(32202904306248078, 0), (0, 34867306517678), (0, 769250296)], [(304196743831513, 0), (0, 49630555187), (0,
    4646627)]], 2, 2⟩, ⟨[[(0, 23943167593152512), (0, 28059673738823542), (431853385746, 0)]], 2, 2⟩,
    72057594037927936, 2589157862621632, 394498024903, ⟨[], 0, 0⟩, 0, 0, 0, lc0⟩ 3 1 4308) (.out ⟨945, 16, 5006,
    25332, 16, 39791, ⟨[[(0, 13021863185719296), (0, 14930921620861791), (804419866786, 0)], [(30692462217543182, 0),
    (0, 36431216039057), (0, 840575773)], [(312663590691934, 0), (0, 52442700343), (0, 5012714)]], 2, 2⟩, ⟨[[(0,
    13726417272963072), (0, 28059416871651079), (431331635307, 0)]], 2, 2⟩, 72057594037927936, 2711804121833464,
    393548656501, ⟨[], 0, 0⟩, 0, 0, 0, lc0⟩ 3 1 5705))) (.out ⟨522, 16, 2854, 12681, 16, 19955,
    ⟨[[(32490397612130304, 0), (0, 16234561780741488), (1911247786663, 0)], [(20981679011546322, 0), (0,
    80018665578530), (0, 3387819488)], [(607929964783671, 0), (0, 258843926147), (0, 55233279)]], 2, 2⟩, ⟨[[(0,
    1687808441712640), (0, 28042371096716971), (860591410057, 0)]], 2, 2⟩, 72057594037927936, 12018212846544997,
    1568531376260, ⟨[], 0, 0⟩, 0, 0, 0, lc0⟩ 3 1 8915)))
theorem c61 : checkR job con1 false ⟨7, 9, 7, 9, 13, 17⟩ 1 30400 t61 230 14 160 8117 39 8000 = true := by decide +kernel

def t62 : CTree :=
  .sy (.sx (.sy (.leaf ⟨980, 16, 2055, 590, 16, 3116, ⟨[[(16811022357684224, 0), (0, 14258118324216203),
    (1056942507638, 0), (118798926, 0), (28920, 0)], [(36096629777878720, 0), (0, 30897474943428), (0, 893287217),
    (0, 520149), (0, 71)], [(180875174180620, 0), (0, 33498232410), (0, 3263431), (0, 1296)], [(415774590740, 0),
    (38809243, 0), (23422, 0), (6, 0)]], 3, 4⟩, ⟨[[(16278262015582208, 0), (0, 8291054454249661), (38095907654, 0),
    (0, 57766697), (0, 8715)], [(0, 56295840762596087), (3058934963975, 0), (1690977074, 0), (474310, 0), (85, 0)],
    [(17044118595588, 0), (0, 15480682140), (0, 5661156), (0, 1399)], [(19514190682, 0), (11148127, 0), (4016, 0),
    (1, 0)]], 3, 4⟩, 72057594037927936, 13819758788320, 3691228158989, ⟨[[(14960287040672, 0), (1102159704, 0), (0,
    2556649), (0, 41), (6, 0)], [(1715704921, 0), (6033485, 0), (9316, 0), (0, 7)], [(0, 2978996), (0, 17216), (0,
    31)], [(8583, 0), (59, 0)]], 3, 4⟩, 17592186044416, 3373091,
    5376376682556522376167860490791528283050214567778547114611096106706532025997788598087695989672874836627507099709213673678340916,
    lc0⟩) (.leaf ⟨1001, 16, 2132, 583, 16, 3126, ⟨[[(3126921568182272, 0), (0, 14618995758709996), (1126499872033,
    0), (132847382, 0), (31526, 0)], [(34942953460272617, 0), (0, 32209756134583), (0, 1055772804), (0, 563257), (0,
    78)], [(184920480419756, 0), (0, 35306622794), (0, 3710245), (0, 1430)], [(434644691444, 0), (44162829, 0),
    (25704, 0), (6, 0)]], 3, 4⟩, ⟨[[(8598361014616064, 0), (0, 8312774813697355), (24336945417, 0), (0, 60695908),
    (0, 8841)], [(0, 56226595216808859), (3342239461716, 0), (1810908175, 0), (503019, 0), (89, 0)],
    [(15852220911395, 0), (0, 16442420636), (0, 6016799), (0, 1482)], [(20474017050, 0), (11825719, 0), (4201, 0),
    (1, 0)]], 3, 4⟩, 72057594037927936, 14414977121870, 3864812831929, ⟨[[(14924438664545, 0), (1051160118, 0), (0,
    2686949), (0, 147), (6, 0)], [(1691265919, 0), (6162272, 0), (10076, 0), (0, 6)], [(0, 3006184), (0, 18085), (0,
    34)], [(8866, 0), (62, 0)]], 3, 4⟩, 17592186044416, 3406638,
    5434600462147344606464910673947701655084394015701360884684763478244580416900696958845973296058452473524049950270975896118173518,
    lc0⟩)) (.sx (.leaf ⟨736, 16, 1537, 616, 16, 3369, ⟨[[(0, 10045032359927808), (0, 22198612520457872),
    (3140640278250, 0), (668189222, 0), (335154, 0)], [(16079463167509888, 0), (0, 24182962568535), (0, 1594880664),
    (0, 1734396), (0, 496)], [(38665830340654, 0), (0, 11655322618), (0, 1408561), (0, 1441), (0, 1)], [(41768364755,
    0), (7713579, 0), (9145, 0), (5, 0)]], 3, 4⟩, ⟨[[(0, 20950112560373760), (0, 17792567528404490), (282935229100,
    0), (0, 428277075), (0, 122016)], [(0, 29978288223571479), (2747259157998, 0), (3262335838, 0), (1853175, 0),
    (661, 0)], [(4845377208791, 0), (0, 8153452458), (0, 5965406), (0, 2981), (0, 1)], [(3689238130, 0), (4122158,
    0), (3066, 0), (1, 0)]], 3, 4⟩, 72057594037927936, 630195687133, 221872288669, ⟨[[(14943331168374, 0),
    (1135905666, 0), (0, 2141378), (0, 359), (3, 0)], [(2107544200, 0), (6831442, 0), (10610, 0), (0, 1)], [(0,
    4568780), (0, 25164), (0, 52)], [(16816, 0), (116, 0)]], 3, 4⟩, 17592186044416, 9267038,
    5590352761448172691262828185461148134850044198819710199688688896304584699620551307290765248043576056866144753964060773200052651,
    lc0⟩) (.leaf ⟨705, 16, 1459, 608, 16, 3390, ⟨[[(0, 10118016697409536), (0, 21723346663012772), (2938009959597,
    0), (587203571, 0), (304536, 0)], [(17413448009838368, 0), (0, 23558155353755), (0, 1568454294), (0, 1712830),
    (0, 501)], [(40105371509504, 0), (0, 10453756189), (0, 611191), (0, 1005)], [(41339096202, 0), (7174994, 0),
    (8577, 0), (4, 0)]], 3, 4⟩, ⟨[[(0, 8656333335977984), (0, 17832409182061214), (371978022539, 0), (0, 381058191),
    (0, 104965)], [(0, 29882919981787045), (2315149536039, 0), (2954163205, 0), (1699781, 0), (607, 0)],
    [(5212257938131, 0), (0, 7832174096), (0, 5723326), (0, 2888), (0, 1)], [(4292449209, 0), (4692567, 0), (3550,
    0), (1, 0)]], 3, 4⟩, 72057594037927936, 585482364166, 197802162203, ⟨[[(14943054747224, 0), (1221509146, 0), (0,
    2032179), (0, 477), (2, 0)], [(2078862968, 0), (6570366, 0), (10322, 0), (2, 0)], [(0, 4424600), (0, 24074), (0,
    54)], [(16082, 0), (115, 0)]], 3, 4⟩, 17592186044416, 9475016,
    4987523438013842574617630927597695945768766901530462902870752004136691346213468753758818439052389512561311605057007786013045589,
    lc0⟩))) (.sx (.sy (.sx (.leaf ⟨1401, 16, 3040, 899, 16, 4848, ⟨[[(0, 26367466151247872), (0, 20270267206557197),
    (1663845703736, 0), (209561547, 0), (48002, 0)], [(21344023905027639, 0), (0, 22725180390564), (0, 805424052),
    (0, 403496), (0, 55)], [(61687694294188, 0), (0, 13160319224), (0, 1647606), (0, 589)], [(76237720046, 0),
    (8463757, 0), (4774, 0), (1, 0)]], 3, 4⟩, ⟨[[(0, 12163203984080896), (0, 12928618346880980), (0, 6244759337), (0,
    104314497), (0, 14846)], [(0, 43544442109714971), (3008343691119, 0), (1567723230, 0), (429079, 0), (75, 0)],
    [(5471665384492, 0), (0, 6844821044), (0, 2504082), (0, 613)], [(3593968984, 0), (2109074, 0), (723, 0)]], 3, 4⟩,
    72057594037927936, 1307640502408, 405858559693, ⟨[[(14889015232170, 0), (612577321, 0), (0, 1199342), (0, 27),
    (1, 0)], [(1254851462, 0), (3085126, 0), (3360, 0), (0, 2)], [(0, 1716460), (0, 6881), (0, 8)], [(3820, 0), (17,
    0)]], 3, 4⟩, 17592186044416, 948554,
    5263624794653059883482394453197186392443803153556992768770123610503325255641261670258755979299070987238121921471527225501825934,
    lc0⟩) (.leaf ⟨1318, 16, 2842, 888, 16, 4882, ⟨[[(0, 13572934927433728), (0, 19554364668538765), (1533284887371,
    0), (184941869, 0), (43346, 0)], [(23353746622408539, 0), (0, 21915211538276), (0, 828622892), (0, 405559), (0,
    57)], [(63803559506833, 0), (0, 11627968633), (0, 1160193), (0, 461)], [(74750626349, 0), (8132442, 0), (4574,
    0), (1, 0)]], 3, 4⟩, ⟨[[(11308985168797696, 0), (0, 12939818846358896), (35955969504, 0), (0, 93428428), (0,
    12928)], [(0, 43531871037938523), (2648933456971, 0), (1439418194, 0), (397865, 0), (69, 0)], [(5860959994446,
    0), (0, 6688225419), (0, 2449886), (0, 604)], [(4718525159, 0), (2733338, 0), (975, 0)]], 3, 4⟩,
    72057594037927936, 1184502340957, 371448219914, ⟨[[(14888626199070, 0), (674708255, 0), (0, 1150035), (0, 115),
    (1, 0)], [(1257275207, 0), (3033705, 0), (3451, 0), (0, 1)], [(0, 1729028), (0, 6999), (0, 10)], [(3972, 0), (19,
    0)]], 3, 4⟩, 17592186044416, 1054733,
    5319181789261057890346637067315623901714401114665059352159138108637979757740191300137236751264646705773303830477947558124736038,
    lc0⟩)) (.sx (.leaf ⟨1424, 16, 3139, 888, 16, 4863, ⟨[[(0, 18959734964813824), (0, 20658327038972987),
    (1770503476482, 0), (232231750, 0), (52025, 0)], [(20203560239123070, 0), (0, 23602696330764), (0, 931274027),
    (0, 434991), (0, 60)], [(62626025403925, 0), (0, 13865618781), (0, 1847913), (0, 645)], [(79432678781, 0),
    (9529807, 0), (5207, 0), (1, 0)]], 3, 4⟩, ⟨[[(0, 30775523653664768), (0, 12971535619831808), (0, 31294225473),
    (0, 109301098), (0, 14997)], [(0, 43434019782506523), (3270972700732, 0), (1676061928, 0), (454265, 0), (78, 0)],
    [(4937469308686, 0), (0, 7269274831), (0, 2659725), (0, 650)], [(3774577142, 0), (2231027, 0), (755, 0)]], 3, 4⟩,
    72057594037927936, 1360860834843, 425875969192, ⟨[[(14852973079472, 0), (574790499, 0), (0, 1268180), (0, 65),
    (1, 0)], [(1249112607, 0), (3195029, 0), (3680, 0), (0, 2)], [(0, 1768522), (0, 7363), (0, 9)], [(4014, 0), (19,
    0)]], 3, 4⟩, 17592186044416, 1005687,
    5042208818599343403647434513090151899051796293466434561903880943165928093878324275910109420858116095354249915170178983916428537,
    lc0⟩) (.leaf ⟨1337, 16, 2930, 877, 16, 4896, ⟨[[(0, 5125531034779648), (0, 19909683395126682), (1627036023520,
    0), (204953475, 0), (46896, 0)], [(22309160394816539, 0), (0, 22734809424719), (0, 954315407), (0, 437055), (0,
    62)], [(64836608371257, 0), (0, 12183463735), (0, 1310762), (0, 505)], [(77748417194, 0), (9140818, 0), (4986,
    0), (1, 0)]], 3, 4⟩, ⟨[[(0, 24556372529946624), (0, 12973035627513909), (13660415089, 0), (0, 97746555), (0,
    12990)], [(0, 43440522598917714), (2889138620930, 0), (1539480167, 0), (421085, 0), (72, 0)], [(5339350344573,
    0), (0, 7101948377), (0, 2602673), (0, 640)], [(4951907780, 0), (2897194, 0), (1023, 0)]], 3, 4⟩,
    72057594037927936, 1225592456216, 388991605894, ⟨[[(14852788474708, 0), (638475551, 0), (0, 1215373), (0, 158),
    (1, 0)], [(1252743798, 0), (3144762, 0), (3782, 0), (0, 1)], [(0, 1787334), (0, 7527), (0, 11)], [(4213, 0), (20,
    0)]], 3, 4⟩, 17592186044416, 1118091,
    5538211949533674543625476290619669230881300745922996056245946207533864605073127676417589193268273405048716659888087568600687919,
    lc0⟩))) (.sy (.sx (.leaf ⟨1241, 16, 2656, 877, 16, 4915, ⟨[[(0, 20455827481706496), (0, 18856411164396347),
    (1410497283465, 0), (161910516, 0), (38947, 0)], [(25331273659699611, 0), (0, 21071545425415), (0, 825017900),
    (0, 400707), (0, 58)], [(65629082152985, 0), (0, 10226049760), (0, 723376), (0, 344)], [(73012912697, 0),
    (7630148, 0), (4305, 0), (1, 0)]], 3, 4⟩, ⟨[[(14146119668047872, 0), (0, 12957829952588170), (74864262411, 0),
    (0, 83316938), (0, 11147)], [(0, 43483715761138533), (2296668760888, 0), (1313512787, 0), (366971, 0), (64, 0)],
    [(6342342513614, 0), (0, 6479565590), (0, 2374632), (0, 590)], [(5749665669, 0), (3277847, 0), (1199, 0)]], 3,
    4⟩, 72057594037927936, 1071624858200, 335414353327, ⟨[[(14888707726576, 0), (736714175, 0), (0, 1094218), (0,
    177), (1, 0)], [(1258460009, 0), (2965045, 0), (3463, 0)], [(0, 1728989), (0, 7000), (0, 11)], [(4058, 0), (20,
    0)]], 3, 4⟩, 17592186044416, 1131707,
    5486047994889271941862801027054742895435808790815591560522840776922219886160624771437988333788055012817383881375266427603929293,
    lc0⟩) (.leaf ⟨1169, 16, 2481, 866, 16, 4948, ⟨[[(0, 10826135366500352), (0, 18172451298357691), (1295541624081,
    0), (140531724, 0), (34816, 0)], [(27257975683277797, 0), (0, 20201409447735), (0, 799058633), (0, 389978), (0,
    58)], [(67154545079246, 0), (0, 8958110844), (0, 339149), (0, 239)], [(71061463657, 0), (6992324, 0), (3980, 0),
    (1, 0)]], 3, 4⟩, ⟨[[(10590585851273216, 0), (0, 12985131241687824), (110545552543, 0), (0, 73992646), (0, 9506)],
    [(0, 43403777709908855), (1954920280700, 0), (1191449304, 0), (336750, 0), (58, 0)], [(6909537249692, 0), (0,
    6226806941), (0, 2281216), (0, 572)], [(6684043073, 0), (3738801, 0), (1391, 0)]], 3, 4⟩, 72057594037927936,
    972926832420, 298442418756, ⟨[[(14888518787981, 0), (796997839, 0), (0, 1035165), (0, 216), (1, 0)],
    [(1260135076, 0), (2888404, 0), (3411, 0), (1, 0)], [(0, 1723473), (0, 6914), (0, 11)], [(4094, 0), (21, 0)]], 3,
    4⟩, 17592186044416, 1258125,
    5396016203085062023084097742031943720984464395292963899332372260928078777059922357416564078597008101776582304738712307937098495,
    lc0⟩)) (.sx (.leaf ⟨1256, 16, 2733, 865, 16, 4928, ⟨[[(0, 13969235599851520), (0, 19173542159373187),
    (1491861090421, 0), (179413600, 0), (42045, 0)], [(24369059344917344, 0), (0, 21822504302200), (0, 947635832),
    (0, 431436), (0, 63)], [(66706277289039, 0), (0, 10645228554), (0, 829855), (0, 377)], [(75769502157, 0),
    (8562394, 0), (4688, 0), (1, 0)]], 3, 4⟩, ⟨[[(33054485296865280, 0), (0, 12981939160320955), (55106958747, 0),
    (0, 87018580), (0, 11131)], [(0, 43410925118531365), (2515031471668, 0), (1405447654, 0), (388256, 0), (66, 0)],
    [(5837604570383, 0), (0, 6879132423), (0, 2523327), (0, 626)], [(6028648474, 0), (3478440, 0), (1259, 0)]], 3,
    4⟩, 72057594037927936, 1101621706908, 350388930039, ⟨[[(14852444630996, 0), (704599994, 0), (0, 1154667), (0,
    226), (1, 0)], [(1252105144, 0), (3067723, 0), (3798, 0)], [(0, 1784708), (0, 7543), (0, 12)], [(4325, 0), (22,
    0)]], 3, 4⟩, 17592186044416, 1190483,
    5509566866069809232692586259689549209050012524839223887660922704973213672199951265239469950862698473654802486798520672481286395,
    lc0⟩) (.leaf ⟨1181, 16, 2550, 854, 16, 4961, ⟨[[(18179912473690112, 0), (0, 18467421636382208), (1366698749219,
    0), (155875980, 0), (37533, 0)], [(26391335547167881, 0), (0, 20898787789281), (0, 917272357), (0, 419780), (0,
    62)], [(68301800141683, 0), (0, 9266210719), (0, 408053), (0, 263)], [(73623724958, 0), (7843740, 0), (4333, 0),
    (1, 0)]], 3, 4⟩, ⟨[[(24396969475317760, 0), (0, 13003329086060807), (93129461179, 0), (0, 77145191), (0, 9423)],
    [(0, 43357498867486391), (2152685555585, 0), (1275748841, 0), (356226, 0), (61, 0)], [(6426532351169, 0), (0,
    6610639992), (0, 2425256), (0, 606)], [(7002621861, 0), (3971561, 0), (1464, 0)]], 3, 4⟩, 72057594037927936,
    994566053448, 310793236232, ⟨[[(14851941014136, 0), (765818598, 0), (0, 1091635), (0, 266), (1, 0)],
    [(1254667780, 0), (2989303, 0), (3747, 0), (1, 0)], [(0, 1782626), (0, 7488), (0, 13)], [(4406, 0), (23, 0)]], 3,
    4⟩, 17592186044416, 1311623,
    5606971570885048960549509460297235351994790014092517217530030932883470615135067552878978529134284411790940842093373715849822423,
    lc0⟩))))
theorem c62 : checkR job con1 false ⟨7, 9, 7, 9, 13, 17⟩ 1 30400 t62 502 14 320 8039 39 8000 = true := by decide +kernel

def t63 : CTree :=
  .sy (.sx (.leaf ⟨518, 16, 1056, 433, 16, 2485, ⟨[[(18282000489168896, 0), (0, 16452107888278449), (2078478674364,
    0), (371887993, 0), (204652, 0)], [(30406794671167049, 0), (0, 35319299935135), (0, 2279956861), (0, 2568645),
    (0, 774)], [(131642663370834, 0), (0, 27733919660), (1289859, 0), (0, 1342), (0, 1)], [(253650018004, 0),
    (38455312, 0), (47137, 0), (25, 0)]], 3, 4⟩, ⟨[[(0, 5168006787289088), (0, 13010425402844951), (356425906235, 0),
    (0, 230649998), (0, 59538)], [(0, 43133440025642414), (2467780660894, 0), (3655249976, 0), (2148307, 0), (769,
    0)], [(17010760132118, 0), (0, 21112417603), (0, 15365356), (0, 7883), (0, 3)], [(29523331550, 0), (31045055, 0),
    (23956, 0), (10, 0)]], 3, 4⟩, 72057594037927936, 6556576575360, 1906152064763, ⟨[[(14941892042800, 0),
    (1848980858, 0), (0, 3537537), (0, 1462), (5, 0)], [(2606841978, 0), (10885325, 0), (23323, 0), (16, 0)], [(0,
    6893839), (0, 49769), (0, 167)], [(30798, 0), (313, 0), (1, 0)]], 3, 4⟩, 17592186044416, 29444265,
    4155351372266783003736501392788481284333524848713448198071680839017942601040646531016783988314452452034600319368630356426997400,
    lc0⟩) (.leaf ⟨466, 16, 926, 423, 16, 2522, ⟨[[(10043597741756416, 0), (0, 15312305759564747), (1768394125711, 0),
    (262583126, 0), (159947, 0)], [(33663928964657015, 0), (0, 32258246004258), (0, 1842475932), (0, 2268543), (0,
    710)], [(134804444785966, 0), (0, 21731583895), (4392312, 0), (579, 0)], [(238643841509, 0), (27431051, 0),
    (35856, 0), (20, 0)]], 3, 4⟩, ⟨[[(0, 31606449145888768), (0, 13150104632342592), (453928515527, 0), (0,
    179076147), (0, 40719)], [(0, 42734574128256969), (1381143874877, 0), (2895917941, 0), (1757401, 0), (630, 0)],
    [(19980981791509, 0), (0, 18660132113), (0, 13433972), (0, 7086), (0, 3)], [(34471437578, 0), (33926887, 0),
    (26788, 0), (11, 0)]], 3, 4⟩, 72057594037927936, 5632928436427, 1367426186364, ⟨[[(14942659600304, 0),
    (2060486999, 0), (0, 3092973), (0, 1401), (2, 0)], [(2605307484, 0), (10210011, 0), (20506, 0), (22, 0)], [(0,
    6807546), (0, 44762), (0, 158)], [(28146, 0), (289, 0), (1, 0)]], 3, 4⟩, 17592186044416, 32055773,
    4892033820130295922494510147292181400175887780701108002967186729572123578527074779509136585384652481729725934872933836188810183,
    lc0⟩)) (.sx (.sx (.sy (.leaf ⟨1102, 16, 2317, 855, 16, 4982, ⟨[[(13005391706652672, 0), (0, 17505875231197532),
    (1188841372152, 0), (120890172, 0), (30972, 0)], [(29126361634019287, 0), (0, 19319369671767), (0, 755301496),
    (0, 374515), (0, 56)], [(68399528114326, 0), (0, 7827934916), (0, 8376), (0, 146)], [(68958625413, 0), (6255789,
    0), (3614, 0), (1, 0)]], 3, 4⟩, ⟨[[(14038945895522304, 0), (0, 13024074849632315), (143125858830, 0), (0,
    65452547), (0, 8003)], [(0, 43295961711971483), (1626402497829, 0), (1074431107, 0), (307500, 0), (53, 0)],
    [(7556320984917, 0), (0, 5938044312), (0, 2172599), (0, 551)], [(7520742676, 0), (4114159, 0), (1553, 0)]], 3,
    4⟩, 72057594037927936, 885661258236, 261139474536, ⟨[[(14887957223714, 0), (855532289, 0), (0, 974139), (0,
    237)], [(1261754830, 0), (2804853, 0), (3302, 0), (1, 0)], [(0, 1712822), (0, 6738), (0, 12)], [(4069, 0), (21,
    0)]], 3, 4⟩, 17592186044416, 1328859,
    4749831470257640682613625272801962676645590169360938678186095049494601538558526046585515064136564337337311655221492891738030568,
    lc0⟩) (.leaf ⟨1112, 16, 2378, 843, 16, 4994, ⟨[[(0, 10579529586573312), (0, 17774087474646108), (1250352235800,
    0), (134230178, 0), (33331, 0)], [(28341691343643739, 0), (0, 19956049415406), (0, 867277373), (0, 402891), (0,
    61)], [(69573514012122, 0), (0, 8038172173), (0, 45120), (0, 163)], [(71297922916, 0), (7016463, 0), (3933, 0),
    (1, 0)]], 3, 4⟩, ⟨[[(9676989423665152, 0), (0, 13034276826646042), (127826766306, 0), (0, 68089367), (0, 7861)],
    [(0, 43266381643390674), (1804063047936, 0), (1151116058, 0), (325157, 0), (55, 0)], [(7096723128666, 0), (0,
    6302349634), (0, 2310605), (0, 583)], [(7870160089, 0), (4372894, 0), (1634, 0)]], 3, 4⟩, 72057594037927936,
    899904403716, 270777364936, ⟨[[(14852528340620, 0), (828126177, 0), (0, 1023178), (0, 284)], [(1254278733, 0),
    (2889729, 0), (3608, 0), (1, 0)], [(0, 1761921), (0, 7267), (0, 13)], [(4375, 0), (23, 0)]], 3, 4⟩,
    17592186044416, 1450500,
    5409997395716744291225955291375156192735501240288299401422813301385778342977544314906681594139458430320245425715681858541231254,
    lc0⟩)) (.leaf ⟨650, 16, 1363, 575, 16, 3445, ⟨[[(0, 18422622104567808), (0, 21131763046317972), (2778805161332,
    0), (540942997, 0), (283030, 0)], [(19030098289093200, 0), (0, 23299082894804), (0, 1864665211), (0, 1834193),
    (0, 563)], [(43539320168416, 0), (0, 8584771886), (659341, 0), (0, 350)], [(42189870339, 0), (7192944, 0), (8361,
    0), (4, 0)]], 3, 4⟩, ⟨[[(0, 5294156073484288), (0, 17937208824079623), (455778144716, 0), (0, 322440494), (0,
    71829)], [(0, 29597297282218706), (1908032387822, 0), (2736687336, 0), (1576507, 0), (538, 0)], [(5529591627275,
    0), (0, 7941453334), (0, 5805594), (0, 2969), (0, 1)], [(5791159873, 0), (6228649, 0), (4735, 0), (2, 0)]], 3,
    4⟩, 72057594037927936, 516594390584, 159820411270, ⟨[[(14870874706728, 0), (1313984570, 0), (0, 1980111), (0,
    810), (1, 0)], [(2020574380, 0), (6431142, 0), (11152, 0), (8, 0)], [(0, 4421139), (0, 25153), (0, 68)], [(17028,
    0), (134, 0)]], 3, 4⟩, 17592186044416, 11703076,
    4856889222203816102137043683512227482838892827222010665499607509310655598965641220440823717671066215007049770376383591615503196,
    lc0⟩)) (.leaf ⟨469, 16, 966, 410, 16, 2532, ⟨[[(10202342344470528, 0), (0, 15680634129859305), (1915172950411,
    0), (328569351, 0), (183559, 0)], [(32480417596827675, 0), (0, 33996170274555), (0, 2503833182), (0, 2610022),
    (0, 822)], [(138887397447914, 0), (0, 21945149672), (4710675, 0), (495, 0)], [(251422170763, 0), (34843315, 0),
    (42507, 0), (23, 0)]], 3, 4⟩, ⟨[[(0, 1214512591106048), (0, 13134510264906493), (412202145558, 0), (0,
    192058859), (0, 37528)], [(0, 42777315336475913), (1873594633636, 0), (3343759296, 0), (1966888, 0), (665, 0)],
    [(18513418838442, 0), (0, 20972923522), (0, 15248045), (0, 7952), (0, 3)], [(37434129229, 0), (38474018, 0),
    (29728, 0), (13, 0)]], 3, 4⟩, 72057594037927936, 5672937127670, 1417932571017, ⟨[[(14869693025983, 0),
    (1971995050, 0), (0, 3367827), (0, 1968), (3, 0)], [(2574957253, 0), (10685091, 0), (24218, 0), (31, 0)], [(0,
    7053539), (0, 51607), (0, 201)], [(33078, 0), (363, 0), (2, 0)]], 3, 4⟩, 17592186044416, 40185364,
    3549213571340675603475235767743633933448056865017012410551708518880398535690350436456245784822722795049083063550031410524924597,
    lc0⟩))
theorem c63 : checkR job con1 false ⟨7, 9, 7, 9, 13, 17⟩ 1 30400 t63 530 14 320 8039 39 8000 = true := by decide +kernel

def t64 : CTree :=
  .sy (.sx (.sy (.leaf ⟨1079, 16, 2411, 563, 16, 3163, ⟨[[(25431663676096512, 0), (0, 15909314335477429),
    (1391685207666, 0), (186157135, 0), (41213, 0)], [(30918477361401143, 0), (0, 37092909095314), (0, 1671579553),
    (0, 726284), (0, 104)], [(199525391179032, 0), (0, 42173002517), (0, 5439987), (0, 1936)], [(504893952680, 0),
    (64742615, 0), (34305, 0), (8, 0)]], 3, 4⟩, ⟨[[(0, 20592164132749312), (0, 8410191592804096), (0, 21447802229),
    (0, 69866555), (0, 9068)], [(0, 55993634812598784), (4327693065461, 0), (2220393212, 0), (598329, 0), (101, 0)],
    [(11793396055212, 0), (0, 19746683630), (0, 7232555), (0, 1769)], [(23759271131, 0), (14087463, 0), (4832, 0),
    (1, 0)]], 3, 4⟩, 72057594037927936, 16608357267196, 4468266367431, ⟨[[(14816198258333, 0), (877350503, 0), (0,
    3157130), (0, 612), (8, 0)], [(1621406026, 0), (6635987, 0), (12805, 0), (0, 5)], [(0, 3111911), (0, 20980), (0,
    45)], [(9531, 0), (72, 0)]], 3, 4⟩, 17592186044416, 3444288,
    5669730451002296532513018921650945799504479093468916021077190938799795768768831937113113907726459949806051258128868775577865345,
    lc0⟩) (.leaf ⟨1112, 16, 2523, 556, 16, 3176, ⟨[[(0, 29119329779908608), (0, 16417535144526832), (1503518036058,
    0), (208584201, 0), (45214, 0)], [(29316100557834066, 0), (0, 39102974419615), (0, 1931105420), (0, 794789), (0,
    115)], [(205316181081396, 0), (0, 45057864133), (0, 6180898), (0, 2148)], [(533855111954, 0), (73505596, 0),
    (37905, 0), (9, 0)]], 3, 4⟩, ⟨[[(0, 8392264975564800), (0, 8449414997811919), (0, 38284109519), (0, 72991602),
    (0, 9080)], [(0, 55870969165858651), (4704445136524, 0), (2373857709, 0), (633080, 0), (105, 0)],
    [(10250257092317, 0), (0, 20993781101), (0, 7689577), (0, 1877)], [(24990209835, 0), (14918902, 0), (5067, 0),
    (1, 0)]], 3, 4⟩, 72057594037927936, 17504776349961, 4697861660796, ⟨[[(14781423240090, 0), (821964998, 0), (0,
    3332772), (0, 844), (9, 0)], [(1590318478, 0), (6772139, 0), (13785, 0), (0, 4)], [(0, 3108586), (0, 21738), (0,
    49)], [(9484, 0), (74, 0)]], 3, 4⟩, 17592186044416, 3380482,
    4487448577129556960664265199716533910570848513533439227093705072180078446436213280963694572780114129185004197735528249566569718,
    lc0⟩)) (.sy (.sx (.leaf ⟨1273, 16, 2817, 854, 16, 4942, ⟨[[(10256928071155712, 0), (0, 19519507753745159),
    (1582594599606, 0), (198775108, 0), (45438, 0)], [(23357425551930638, 0), (0, 22653845177435), (0, 1083232142),
    (0, 465496), (0, 69)], [(67895285187536, 0), (0, 11113103979), (0, 949349), (0, 415)], [(78816661975, 0),
    (9600899, 0), (5110, 0), (1, 0)]], 3, 4⟩, ⟨[[(0, 12318262231359488), (0, 13011812486085173), (34436879392, 0),
    (0, 90734486), (0, 11064)], [(0, 43328759561616219), (2749283102298, 0), (1503007184, 0), (410483, 0), (69, 0)],
    [(5300394606294, 0), (0, 7305096283), (0, 2681418), (0, 663)], [(6325668687, 0), (3690007, 0), (1323, 0)]], 3,
    4⟩, 72057594037927936, 1134424569818, 366427664180, ⟨[[(14816607188917, 0), (668017532, 0), (0, 1222491), (0,
    281), (1, 0)], [(1249615885, 0), (3191221, 0), (4175, 0)], [(0, 1854485), (0, 8169), (0, 13)], [(4617, 0), (24,
    0)]], 3, 4⟩, 17592186044416, 1265193,
    5697157206175673959423913345903782492207033368093918121249108229857780731689121849024273686381673181696723852085885452980127433,
    lc0⟩) (.leaf ⟨1195, 16, 2623, 842, 16, 4974, ⟨[[(0, 26974339779952640), (0, 18773787670987070), (1444774754413,
    0), (172672013, 0), (40465, 0)], [(25464133242507333, 0), (0, 21652262404826), (0, 1046958128), (0, 452377), (0,
    68)], [(69510966793907, 0), (0, 9602016731), (0, 485358), (0, 290)], [(76388353347, 0), (8783860, 0), (4719, 0),
    (1, 0)]], 3, 4⟩, ⟨[[(34020051027722240, 0), (0, 13024266863759862), (74931163166, 0), (0, 80271016), (0, 9285)],
    [(0, 43294811346423342), (2364500093595, 0), (1364911006, 0), (376446, 0), (63, 0)], [(5911305115290, 0), (0,
    7018598579), (0, 2577889), (0, 643)], [(7340638827, 0), (4216507, 0), (1540, 0)]], 3, 4⟩, 72057594037927936,
    1017145912560, 323991798831, ⟨[[(14816834026870, 0), (736385750, 0), (0, 1149752), (0, 323), (1, 0)],
    [(1246836221, 0), (3087597, 0), (4096, 0), (1, 0)], [(0, 1836200), (0, 8056), (0, 14)], [(4678, 0), (25, 0)]], 3,
    4⟩, 17592186044416, 1386053,
    5568507192396304410307044817380744098697965814790136855230138047563510107734041545772344934761914940943437450789194049447132666,
    lc0⟩)) (.sx (.leaf ⟨1292, 16, 2907, 842, 16, 4957, ⟨[[(11010203726938112, 0), (0, 19884527734872192),
    (1682894874221, 0), (220103214, 0), (49132, 0)], [(22273184038891168, 0), (0, 23560897019132), (0, 1232875308),
    (0, 503048), (0, 75)], [(69163780879647, 0), (0, 11628960700), (0, 1083011), (0, 456)], [(82140250780, 0),
    (10753646, 0), (5575, 0), (1, 0)]], 3, 4⟩, ⟨[[(21278339976323072, 0), (0, 13047599701566331), (12841718486, 0),
    (0, 94449377), (0, 10941)], [(0, 43235806398525266), (3000455800487, 0), (1606467217, 0), (433683, 0), (72, 0)],
    [(4728272202886, 0), (0, 7759203673), (0, 2849545), (0, 703)], [(6641767087, 0), (3913246, 0), (1392, 0)]], 3,
    4⟩, 72057594037927936, 1169612879103, 383638474913, ⟨[[(14780537037951, 0), (633346599, 0), (0, 1294518), (0,
    348), (1, 0)], [(1243458815, 0), (3313352, 0), (4584, 0), (1, 0)], [(0, 1915636), (0, 8797), (0, 15)], [(4857,
    0), (26, 0)]], 3, 4⟩, 17592186044416, 1270618,
    5249098815230664221362739687987797128531864457888495176924988777188669368703574953083317080911667582004940973078012217794932623,
    lc0⟩) (.leaf ⟨1210, 16, 2702, 831, 16, 4988, ⟨[[(0, 14527577143721984), (0, 19103720458027766), (1531456413834,
    0), (191184585, 0), (43660, 0)], [(24484539071758661, 0), (0, 22481273624685), (0, 1190130983), (0, 488395), (0,
    74)], [(70829810221589, 0), (0, 9974792253), (0, 572385), (0, 320)], [(79424946236, 0), (9828516, 0), (5143, 0),
    (1, 0)]], 3, 4⟩, ⟨[[(0, 20813230401601536), (0, 13050690080641331), (55968412995, 0), (0, 83368912), (0, 9089)],
    [(0, 43223211385967525), (2591691603235, 0), (1459415572, 0), (397501, 0), (65, 0)], [(5362913617052, 0), (0,
    7453617900), (0, 2740192), (0, 681)], [(7700662517, 0), (4475219, 0), (1621, 0)]], 3, 4⟩, 72057594037927936,
    1041419427754, 338164229966, ⟨[[(14781471382561, 0), (700782662, 0), (0, 1217831), (0, 388), (1, 0)],
    [(1245307894, 0), (3218070, 0), (4512, 0), (2, 0)], [(0, 1913255), (0, 8767), (0, 16)], [(5008, 0), (28, 0)]], 3,
    4⟩, 17592186044416, 1483679,
    5715391743823711727470686918962857307225809350804840726644899843804393953790288943900662541480165594608724636275709082556298585,
    lc0⟩)))) (.sx (.sy (.sx (.leaf ⟨1509, 16, 3489, 853, 16, 4909, ⟨[[(33290085195907072, 0), (0, 21995281021337508),
    (2169058404697, 0), (316309132, 0), (66660, 0)], [(16254333369193561, 0), (0, 26801856779185), (0, 1397894804),
    (0, 552018), (0, 80)], [(65880459665466, 0), (0, 16497892077), (0, 2604050), (0, 853)], [(91102880728, 0),
    (13533305, 0), (6805, 0), (2, 0)]], 3, 4⟩, ⟨[[(28975044070744064, 0), (0, 13127922374512341), (0, 114033618968),
    (0, 124548138), (0, 15148)], [(0, 42973462511142318), (4173214124877, 0), (2040737468, 0), (536747, 0), (88, 0)],
    [(3111298802913, 0), (0, 8708470153), (0, 3185484), (0, 774)], [(4380768767, 0), (2631653, 0), (862, 0)]], 3, 4⟩,
    72057594037927936, 1553827394384, 494384238689, ⟨[[(14744080265138, 0), (453568264, 0), (0, 1520128), (0, 246),
    (2, 0)], [(1230146993, 0), (3577991, 0), (4866, 0), (0, 1)], [(0, 1918950), (0, 8954), (0, 13)], [(4449, 0), (23,
    0)]], 3, 4⟩, 17592186044416, 991621,
    5800759177598713170727888138037049163198386861223614509197269405631283146718789743673531765000083047125972236906221945221328085,
    lc0⟩) (.leaf ⟨1408, 16, 3239, 842, 16, 4941, ⟨[[(0, 10205667098984448), (0, 21127644920447022), (1975545295310,
    0), (278706400, 0), (59704, 0)], [(18716740791372290, 0), (0, 25709210709958), (0, 1418088174), (0, 553377), (0,
    82)], [(68435902812180, 0), (0, 14243976704), (0, 1878533), (0, 668)], [(88631472216, 0), (12909103, 0), (6496,
    0), (2, 0)]], 3, 4⟩, ⟨[[(13925385117671424, 0), (0, 13102696140834862), (0, 59756693363), (0, 110839931), (0,
    12862)], [(0, 43066781174840082), (3716436659184, 0), (1876785446, 0), (497055, 0), (81, 0)], [(3558840292096,
    0), (0, 8508713938), (0, 3119895), (0, 763)], [(5740721289, 0), (3440821, 0), (1181, 0)]], 3, 4⟩,
    72057594037927936, 1372339675334, 449288495355, ⟨[[(14745104893401, 0), (525669201, 0), (0, 1449403), (0, 351),
    (1, 0)], [(1234511077, 0), (3521275, 0), (4989, 0)], [(0, 1954248), (0, 9259), (0, 15)], [(4775, 0), (25, 0)]],
    3, 4⟩, 17592186044416, 1170445,
    3766050974192563144970456291941895039697599492192288738824529461644754955722390660438139203030427217363873811618483583250206871,
    lc0⟩)) (.sy (.sy (.out ⟨965, 16, 5101, 50725, 16, 79750, ⟨[[(35106305859502080, 0), (0, 8100321719083983),
    (200575521126, 0)], [(49184569206830336, 0), (0, 20031873323298), (0, 283648399)], [(403351652430456, 0), (0,
    23620483081), (0, 889294)]], 2, 2⟩, ⟨[[(0, 3157911345823744), (0, 28068146945336448), (215539090217, 0)]], 2, 2⟩,
    72057594037927936, 3059379791694769, 98211578025, ⟨[], 0, 0⟩, 0, 0, 0, lc0⟩ 3 1 3958) (.out ⟨978, 16, 5212,
    50755, 16, 79845, ⟨[[(0, 32077225629605888), (0, 8244479951314056), (206709881841, 0)], [(48656584113951625, 0),
    (0, 20513493760007), (0, 296320915)], [(410240707957420, 0), (0, 24277621421), (0, 926607)]], 2, 2⟩, ⟨[[(0,
    1437623684431872), (0, 28067948425348598), (215408541956, 0)]], 2, 2⟩, 72057594037927936, 3135454748431814,
    98093680466, ⟨[], 0, 0⟩, 0, 0, 0, lc0⟩ 3 1 4610)) (.out ⟨759, 16, 4103, 25393, 16, 39982, ⟨[[(3265850113908736,
    0), (0, 12903815572272023), (659437135161, 0)], [(36410900591882921, 0), (0, 32408326171340), (0, 964228749)],
    [(320704254360094, 0), (0, 38570160897), (0, 3004162)]], 2, 2⟩, ⟨[[(0, 35174714133446656), (0,
    28059367735910236), (430299003756, 0)]], 2, 2⟩, 72057594037927936, 2487880581919399, 391666680939, ⟨[], 0, 0⟩, 0,
    0, 0, lc0⟩ 3 1 5980))) (.sy (.sx (.leaf ⟨1314, 16, 3005, 831, 16, 4972, ⟨[[(0, 27963211418451968), (0,
    20279237288381230), (1794751520861, 0), (243741084, 0), (53185, 0)], [(21116344572539849, 0), (0,
    24563627788606), (0, 1398992820), (0, 544800), (0, 82)], [(70550735966491, 0), (0, 12204415281), (0, 1233221),
    (0, 501)], [(85812117775, 0), (12040447, 0), (6089, 0), (1, 0)]], 3, 4⟩, ⟨[[(0, 23186721055989760), (0,
    13086822521662702), (0, 9685586859), (0, 98126664), (0, 10756)], [(0, 43121882801132654), (3268979548697, 0),
    (1715769796, 0), (457797, 0), (74, 0)], [(4117802466005, 0), (0, 8241664956), (0, 3027780), (0, 745)],
    [(6976649544, 0), (4148067, 0), (1464, 0)]], 3, 4⟩, 72057594037927936, 1208043147288, 401993497823,
    ⟨[[(14745907917020, 0), (595904440, 0), (0, 1372643), (0, 421), (1, 0)], [(1239148727, 0), (3448047, 0), (5023,
    0), (1, 0)], [(0, 1978882), (0, 9456), (0, 16)], [(5068, 0), (28, 0)]], 3, 4⟩, 17592186044416, 1307693,
    3958861536501800349594318342015668841946694783179373603764103707246630226198080997280283192507456954314782397984436391115055421,
    lc0⟩) (.leaf ⟨1227, 16, 2787, 819, 16, 5003, ⟨[[(0, 24394806982492160), (0, 19454580186052004), (1627447083195,
    0), (211575769, 0), (47137, 0)], [(23438365144247145, 0), (0, 23389335613859), (0, 1348279970), (0, 528175), (0,
    80)], [(72251726493281, 0), (0, 10386844385), (0, 670284), (0, 353)], [(82747135194, 0), (10988808, 0), (5609,
    0), (1, 0)]], 3, 4⟩, ⟨[[(3173546095747072, 0), (0, 13082722417359012), (36240217160, 0), (0, 86421148), (0,
    8831)], [(0, 43141335694096201), (2835240900210, 0), (1559510303, 0), (419415, 0), (67, 0)], [(4778860306865, 0),
    (0, 7917491471), (0, 2912819), (0, 722)], [(8083990672, 0), (4748573, 0), (1707, 0)]], 3, 4⟩, 72057594037927936,
    1067315212613, 353371612655, ⟨[[(14745799026139, 0), (666955704, 0), (0, 1290011), (0, 464), (1, 0)],
    [(1240059157, 0), (3347819, 0), (4962, 0), (2, 0)], [(0, 1980648), (0, 9483), (0, 18)], [(5275, 0), (30, 0)]], 3,
    4⟩, 17592186044416, 1484394,
    5157537615730894574065752327008278837906412689547188595878336237428361644417548482668675193749276953453062010247189802406366247,
    lc0⟩)) (.sx (.leaf ⟨1337, 16, 3110, 819, 16, 4988, ⟨[[(0, 3478369817395200), (0, 20693355432189867),
    (1918531884901, 0), (269829165, 0), (57607, 0)], [(19862197188386533, 0), (0, 25658246922522), (0, 1582960431),
    (0, 590989), (0, 90)], [(72022681084287, 0), (0, 12839626443), (0, 1401472), (0, 551)], [(89821567610, 0),
    (13471721, 0), (6657, 0), (2, 0)]], 3, 4⟩, ⟨[[(9961183032451072, 0), (0, 13132269131709123), (0, 33142904141),
    (0, 101766211), (0, 10505)], [(0, 42994155921724562), (3556546024667, 0), (1831514474, 0), (482943, 0), (77, 0)],
    [(3467295066579, 0), (0, 8755940002), (0, 3217387), (0, 790)], [(7332767181, 0), (4396002, 0), (1540, 0)]], 3,
    4⟩, 72057594037927936, 1249318893417, 421643608288, ⟨[[(14709600038581, 0), (556177358, 0), (0, 1461893), (0,
    512), (1, 0)], [(1235666545, 0), (3603705, 0), (5536, 0), (1, 0)], [(0, 2045801), (0, 10203), (0, 18)], [(5258,
    0), (30, 0)]], 3, 4⟩, 17592186044416, 1359277,
    5602966590075851889845583231884224358044949339113039157714258225931751078084885197342425514698769061197865571336314675361375673,
    lc0⟩) (.leaf ⟨1246, 16, 2879, 807, 16, 5018, ⟨[[(0, 32905701220646912), (0, 19830438641899451), (1734117353853,
    0), (234100020, 0), (50934, 0)], [(22318748020162455, 0), (0, 24388820374222), (0, 1523552015), (0, 572289), (0,
    88)], [(73795478731370, 0), (0, 10844536957), (0, 780588), (0, 389)], [(86399989064, 0), (12281068, 0), (6125,
    0), (1, 0)]], 3, 4⟩, ⟨[[(21481351367475200, 0), (0, 13117875369557673), (15746443061, 0), (0, 89390499), (0,
    8504)], [(0, 43039151594977189), (3095562137276, 0), (1665119985, 0), (442123, 0), (70, 0)], [(4155649066117, 0),
    (0, 8410461569), (0, 3095856), (0, 766)], [(8490314267, 0), (5036498, 0), (1798, 0)]], 3, 4⟩, 72057594037927936,
    1095103272260, 369587589455, ⟨[[(14710242390906, 0), (631048508, 0), (0, 1370294), (0, 553), (1, 0)],
    [(1235770070, 0), (3493651, 0), (5466, 0), (2, 0)], [(0, 2049681), (0, 10261), (0, 20)], [(5506, 0), (33, 0)]],
    3, 4⟩, 17592186044416, 1546159,
    3673600684592337659781282235829558614307130494371560438614940379104814778011705106585651479459257502883394616415177883432902255,
    lc0⟩))))
theorem c64 : checkR job con1 false ⟨7, 9, 7, 9, 13, 17⟩ 1 30400 t64 502 14 320 8117 39 8000 = true := by decide +kernel

def t65 : CTree :=
  .sy (.sx (.sx (.sy (.leaf ⟨1123, 16, 2443, 831, 16, 5007, ⟨[[(0, 29682923943444480), (0, 18056953233239063),
    (1318067382596, 0), (148836676, 0), (35878, 0)], [(27511641602309413, 0), (0, 20648194398489), (0, 990163880),
    (0, 433973), (0, 66)], [(70830750939277, 0), (0, 8268252816), (0, 87095), (0, 181)], [(73834084533, 0), (7857298,
    0), (4282, 0), (1, 0)]], 3, 4⟩, ⟨[[(13945810140946432, 0), (0, 13049474644658677), (111899914269, 0), (0,
    70693024), (0, 7663)], [(0, 43230747784127762), (1994856681990, 0), (1232434633, 0), (343507, 0), (57, 0)],
    [(6607958140274, 0), (0, 6691021615), (0, 2457325), (0, 618)], [(8242755334, 0), (4646283, 0), (1721, 0)]], 3,
    4⟩, 72057594037927936, 914615707595, 281157570733, ⟨[[(14817057652382, 0), (799578553, 0), (0, 1076752), (0,
    340)], [(1247410322, 0), (2985091, 0), (3952, 0), (2, 0)], [(0, 1818521), (0, 7861), (0, 15)], [(4695, 0), (26,
    0)]], 3, 4⟩, 17592186044416, 1518505,
    5578966084642102506248941293927568920757304884718056346760708038586688067820817457229233006838700383875244000709751925555159242,
    lc0⟩) (.leaf ⟨1134, 16, 2512, 819, 16, 5020, ⟨[[(22463035919007744, 0), (0, 18352663012276798), (1392473870135,
    0), (164819239, 0), (38623, 0)], [(26626223030764233, 0), (0, 21398484866645), (0, 1125074156), (0, 468021), (0,
    72)], [(72167518032197, 0), (0, 8519243662), (0, 134917), (0, 202)], [(76576939949, 0), (8786212, 0), (4663, 0),
    (1, 0)]], 3, 4⟩, ⟨[[(14290020373430272, 0), (0, 13067162236027202), (95328047066, 0), (0, 73232093), (0, 7406)],
    [(0, 43179304613225042), (2199190265900, 0), (1318330312, 0), (362494, 0), (59, 0)], [(6086572665687, 0), (0,
    7104256143), (0, 2612833), (0, 655)], [(8638180393, 0), (4934274, 0), (1813, 0)]], 3, 4⟩, 72057594037927936,
    929709028272, 292269378655, ⟨[[(14780520627692, 0), (766632190, 0), (0, 1140192), (0, 406), (1, 0)],
    [(1245524226, 0), (3111018, 0), (4374, 0), (2, 0)], [(0, 1898243), (0, 8614), (0, 17)], [(5082, 0), (29, 0)]], 3,
    4⟩, 17592186044416, 1630675,
    5470515202587826080792205150531203612976397113516357072708259322010451082544933882701358992421497542259606634748155113730506536,
    lc0⟩)) (.sy (.leaf ⟨1056, 16, 2275, 820, 16, 5040, ⟨[[(6058866993053696, 0), (0, 17359483828409751),
    (1201631727914, 0), (127175022, 0), (31657, 0)], [(29477101032202368, 0), (0, 19642563359542), (0, 917358171),
    (0, 411284), (0, 64)], [(71837412962051, 0), (0, 7103284364), (247040, 0), (0, 87)], [(71171188793, 0), (6856935,
    0), (3814, 0), (1, 0)]], 3, 4⟩, ⟨[[(0, 11711840794468352), (0, 13084432497255491), (145472611680, 0), (0,
    61956995), (0, 6194)], [(0, 43123073594071296), (1642093204993, 0), (1106226906, 0), (311810, 0), (51, 0)],
    [(7380112841003, 0), (0, 6328934258), (0, 2322130), (0, 590)], [(9029790764, 0), (4976908, 0), (1866, 0)]], 3,
    4⟩, 72057594037927936, 825174689895, 238560226907, ⟨[[(14816656988889, 0), (859401900, 0), (0, 1005386), (0,
    339)], [(1249829661, 0), (2884241, 0), (3763, 0), (2, 0)], [(0, 1800614), (0, 7592), (0, 15)], [(4658, 0), (26,
    0)]], 3, 4⟩, 17592186044416, 1596782,
    5260440623590532588027570856838490783012041021498519750706994801814820888411073758054157039578419327814810041986855852000917991,
    lc0⟩) (.leaf ⟨1065, 16, 2336, 808, 16, 5053, ⟨[[(15218033226694656, 0), (0, 17630020257807721), (1265613017516,
    0), (140961138, 0), (34015, 0)], [(28688341378482802, 0), (0, 20324021852802), (0, 1043204469), (0, 443254), (0,
    69)], [(73196190407553, 0), (0, 7255867829), (231559, 0), (0, 100)], [(73652996965, 0), (7670000, 0), (4152, 0),
    (1, 0)]], 3, 4⟩, ⟨[[(0, 17003956203331584), (0, 13096575160863403), (131089582122, 0), (0, 64005324), (0, 5886)],
    [(0, 43098992190413522), (1825149417114, 0), (1184126570, 0), (328880, 0), (53, 0)], [(6889769615875, 0), (0,
    6719449069), (0, 2470514), (0, 626)], [(9453853208, 0), (5288928, 0), (1966, 0)]], 3, 4⟩, 72057594037927936,
    833046919834, 246654800908, ⟨[[(14780968784848, 0), (830364315, 0), (0, 1059755), (0, 401)], [(1245348989, 0),
    (2990055, 0), (4146, 0), (3, 0)], [(0, 1869045), (0, 8289), (0, 17)], [(5044, 0), (29, 0)]], 3, 4⟩,
    17592186044416, 1757721,
    5396227433006708730935384052122102863508397449420964509439324694558396603778900788475029089169301188025928403429151593960876826,
    lc0⟩))) (.sx (.leaf ⟨624, 16, 1340, 550, 16, 3480, ⟨[[(0, 31089422018568192), (0, 20995434750102991),
    (2803746445248, 0), (566967463, 0), (287768, 0)], [(19370740143035072, 0), (0, 23673955195541), (0, 2223532733),
    (0, 1998935), (0, 629)], [(45742516537223, 0), (0, 7666975412), (1311644, 0), (0, 52)], [(43445792433, 0),
    (7696028, 0), (8680, 0), (4, 0)]], 3, 4⟩, ⟨[[(0, 22074670911799296), (0, 17993709057571991), (464949342082, 0),
    (0, 300615743), (0, 51564)], [(0, 29439043813559593), (1902029519778, 0), (2800022550, 0), (1584568, 0), (509,
    0)], [(5476567329841, 0), (0, 8386524764), (0, 6151067), (0, 3157), (0, 1)], [(6797379672, 0), (7359549, 0),
    (5553, 0), (2, 0)]], 3, 4⟩, 72057594037927936, 480443597790, 140502745862, ⟨[[(14799968402097, 0), (1325352246,
    0), (0, 2031368), (0, 1084), (1, 0)], [(1991948749, 0), (6553765, 0), (12464, 0), (13, 0)], [(0, 4583166), (0,
    27811), (0, 85)], [(19093, 0), (162, 0), (1, 0)]], 3, 4⟩, 17592186044416, 14589251,
    5391562694426348704998062239301309532444132597010410299814121704732864270347238914401864840553355564600355317463794943006202881,
    lc0⟩) (.leaf ⟨597, 16, 1267, 541, 16, 3500, ⟨[[(14281562482974720, 0), (0, 20483940867196816), (2593286786226,
    0), (483211389, 0), (255314, 0)], [(20835108289688032, 0), (0, 22773738105241), (0, 2014154375), (0, 1883121),
    (0, 602)], [(46754135597724, 0), (0, 6672720355), (1901895, 0), (293, 0)], [(42334383044, 0), (6427562, 0),
    (7526, 0), (4, 0)]], 3, 4⟩, ⟨[[(29524927892062208, 0), (0, 18050007600650571), (541746195422, 0), (0, 260156801),
    (0, 38396)], [(0, 29283417719770427), (1458164954710, 0), (2482960336, 0), (1421573, 0), (450, 0)],
    [(6097354151501, 0), (0, 7805976069), (0, 5709633), (0, 2970), (0, 1)], [(7181141205, 0), (7545310, 0), (5750,
    0), (2, 0)]], 3, 4⟩, 72057594037927936, 445417572581, 111068255790, ⟨[[(14797583193064, 0), (1410824260, 0), (0,
    1885210), (0, 1008), (1, 0)], [(1961010213, 0), (6203930, 0), (11344, 0), (13, 0)], [(0, 4368213), (0, 25294),
    (0, 79)], [(17453, 0), (149, 0), (1, 0)]], 3, 4⟩, 17592186044416, 14280333,
    4009584099827191213676094331153375578548471158300789494660015875286017042751235757916803714964243957215114255653741553429774694,
    lc0⟩))) (.sx (.sy (.sx (.leaf ⟨1147, 16, 2586, 807, 16, 5034, ⟨[[(28661158155976704, 0), (0, 18666508414328166),
    (1474671651281, 0), (182364915, 0), (41596, 0)], [(25685065616799095, 0), (0, 22218472330979), (0, 1273708285),
    (0, 505514), (0, 78)], [(73608450342129, 0), (0, 8795760345), (0, 189334), (0, 224)], [(79568069518, 0),
    (9815586, 0), (5081, 0), (1, 0)]], 3, 4⟩, ⟨[[(22070458333437952, 0), (0, 13090046176750019), (78142656875, 0),
    (0, 75701858), (0, 7085)], [(0, 43119491963749394), (2418304142796, 0), (1409243619, 0), (382199, 0), (61, 0)],
    [(5531612826794, 0), (0, 7545024733), (0, 2778218), (0, 695)], [(9059461291, 0), (5238727, 0), (1910, 0)]], 3,
    4⟩, 72057594037927936, 945385795665, 304203903073, ⟨[[(14744804664793, 0), (734164950, 0), (0, 1207157), (0,
    481), (1, 0)], [(1242000471, 0), (3240749, 0), (4828, 0), (3, 0)], [(0, 1974440), (0, 9393), (0, 19)], [(5422,
    0), (32, 0)]], 3, 4⟩, 17592186044416, 1722687,
    5587694540724790599596099854826724394499125837248391263921838266552986528651408238487288365016945119641999973730776138375079680,
    lc0⟩) (.leaf ⟨1075, 16, 2400, 796, 16, 5066, ⟨[[(0, 7274285694746624), (0, 17907479288128801), (1335470900619,
    0), (155973856, 0), (36539, 0)], [(27838877968402779, 0), (0, 21056491212071), (0, 1180983636), (0, 478129), (0,
    75)], [(74621499685234, 0), (0, 7419478628), (212699, 0), (0, 113)], [(76312000406, 0), (8565257, 0), (4520, 0),
    (1, 0)]], 3, 4⟩, ⟨[[(0, 25957820013502464), (0, 13110948771250434), (116200162054, 0), (0, 65952392), (0, 5513)],
    [(0, 43059765104474130), (2021163385055, 0), (1266279365, 0), (346469, 0), (54, 0)], [(6366658545541, 0), (0,
    7134792831), (0, 2627823), (0, 663)], [(9903967462, 0), (5617836, 0), (2072, 0)]], 3, 4⟩, 72057594037927936,
    840348517319, 255347241619, ⟨[[(14745978659112, 0), (801239804, 0), (0, 1118178), (0, 470)], [(1240982626, 0),
    (3105210, 0), (4568, 0), (3, 0)], [(0, 1941117), (0, 9046), (0, 19)], [(5413, 0), (33, 0)]], 3, 4⟩,
    17592186044416, 1851173,
    5197763647656364673693241183561019885916775594706342611027489353292969447476109501262327191057406440296717963406508946276489048,
    lc0⟩)) (.sx (.leaf ⟨1162, 16, 2666, 795, 16, 5048, ⟨[[(13840783230025728, 0), (0, 19003292603103022),
    (1565874278418, 0), (201688494, 0), (44831, 0)], [(24684760720753847, 0), (0, 23120331219223), (0, 1438056474),
    (0, 546996), (0, 85)], [(75176994708559, 0), (0, 9102632393), (0, 251246), (0, 248)], [(82851346722, 0),
    (10959781, 0), (5541, 0), (1, 0)]], 3, 4⟩, ⟨[[(25121897798696960, 0), (0, 13115625452654923), (60341909834, 0),
    (0, 78066849), (0, 6694)], [(0, 43041476947814299), (2652594905513, 0), (1505092716, 0), (402555, 0), (63, 0)],
    [(4939563199949, 0), (0, 8013568637), (0, 2953568), (0, 737)], [(9506260236, 0), (5559587, 0), (2012, 0)]], 3,
    4⟩, 72057594037927936, 961901435776, 316962136767, ⟨[[(14709582607579, 0), (700766806, 0), (0, 1280288), (0,
    567), (1, 0)], [(1238308215, 0), (3381824, 0), (5329, 0), (3, 0)], [(0, 2049654), (0, 10223), (0, 21)], [(5716,
    0), (35, 0)]], 3, 4⟩, 17592186044416, 1732076,
    4945924938116191969394178443060339407235405274312487498995750382799033397952010487012276336789594559138390787862263298377343954,
    lc0⟩) (.leaf ⟨1086, 16, 2469, 784, 16, 5080, ⟨[[(0, 1591698579144704), (0, 18204995443847985), (1412805390326,
    0), (172447273, 0), (39271, 0)], [(26941992233312101, 0), (0, 21860521515402), (0, 1332901311), (0, 516598), (0,
    81)], [(76172784910371, 0), (0, 7600849966), (190198, 0), (0, 128)], [(79222104056, 0), (9558001, 0), (4923, 0),
    (1, 0)]], 3, 4⟩, ⟨[[(0, 27631588990304256), (0, 13130221217455511), (100849301702, 0), (0, 67790160), (0, 5072)],
    [(0, 43012783043226770), (2231279729680, 0), (1353082687, 0), (364644, 0), (56, 0)], [(5809849209579, 0), (0,
    7577952549), (0, 2795158), (0, 703)], [(10383594614, 0), (5965755, 0), (2185, 0)]], 3, 4⟩, 72057594037927936,
    847587322307, 264688921581, ⟨[[(14710511608655, 0), (769452722, 0), (0, 1184529), (0, 552)], [(1238664932, 0),
    (3242169, 0), (5063, 0), (4, 0)], [(0, 2024206), (0, 9927), (0, 22)], [(5788, 0), (36, 0)]], 3, 4⟩,
    17592186044416, 1974381,
    5303798565959261616513136060679670384117917911999317600046628541416205097144434749142558724483713114283666263132655574235329557,
    lc0⟩))) (.sx (.leaf ⟨625, 16, 1394, 533, 16, 3495, ⟨[[(21977813653749760, 0), (0, 21375162620108022),
    (3066008594923, 0), (687471316, 0), (326845, 0)], [(18215284864454249, 0), (0, 25028062364373), (0, 2824539574),
    (0, 2295430), (0, 731)], [(46972016578872, 0), (0, 7764451667), (1344468, 0), (0, 118)], [(45878252745, 0),
    (9501689, 0), (10161, 0), (5, 0)]], 3, 4⟩, ⟨[[(0, 33227627421319168), (0, 18004028185402821), (394520439397, 0),
    (0, 316689839), (0, 42471)], [(0, 29399055398519054), (2378942110775, 0), (3203426775, 0), (1754519, 0), (534,
    0)], [(4804072469911, 0), (0, 9446472979), (0, 6962722), (0, 3547), (0, 1)], [(7438292955, 0), (8306507, 0),
    (6168, 0), (3, 0)]], 3, 4⟩, 72057594037927936, 477807045006, 148944958369, ⟨[[(14727824996533, 0), (1240512875,
    0), (0, 2268288), (0, 1505), (1, 0)], [(2009404075, 0), (7186241, 0), (15557, 0), (18, 0)], [(0, 5113431), (0,
    34697), (0, 113)], [(23622, 0), (215, 0), (1, 0)]], 3, 4⟩, 17592186044416, 17465501,
    5485851376957652050967642128436244948079476812285700256799517826421234992035119958331124818157930424255544968157122643832420380,
    lc0⟩) (.leaf ⟨597, 16, 1315, 524, 16, 3515, ⟨[[(2909654112665600, 0), (0, 20830423160572442), (2818849089691, 0),
    (587898033, 0), (288885, 0)], [(19767123775106894, 0), (0, 23999520019377), (0, 2571474111), (0, 2160538), (0,
    698)], [(47997365932604, 0), (0, 6612177301), (2042199, 0), (279, 0)], [(44508068410, 0), (7966793, 0), (8816,
    0), (4, 0)]], 3, 4⟩, ⟨[[(10951549690691584, 0), (0, 18047327802294840), (481634672093, 0), (0, 271831873), (0,
    28666)], [(0, 29278828341790432), (1880339709015, 0), (2844373445, 0), (1571166, 0), (467, 0)], [(5475667679959,
    0), (0, 8790490395), (0, 6472840), (0, 3338), (0, 1)], [(7839323551, 0), (8525688, 0), (6390, 0), (3, 0)]], 3,
    4⟩, 72057594037927936, 437624823520, 115164823236, ⟨[[(14727501884971, 0), (1338319065, 0), (0, 2078946), (0,
    1376)], [(1966517198, 0), (6695592, 0), (13924, 0), (18, 0)], [(0, 4779752), (0, 31000), (0, 105)], [(21407, 0),
    (196, 0), (1, 0)]], 3, 4⟩, 17592186044416, 17117483,
    5252030074254540012054358944290973972131965768255565990344454858748673968604378630156354503685811213047689541518626688211784813,
    lc0⟩)))
theorem c65 : checkR job con1 false ⟨7, 9, 7, 9, 13, 17⟩ 1 30400 t65 530 14 320 8117 39 8000 = true := by decide +kernel

def t66 : CTree :=
  .sy (.sx (.sy (.sx (.leaf ⟨578, 16, 1123, 568, 16, 3490, ⟨[[(17541642443972608, 0), (0, 19402762738194478),
    (2100420787124, 0), (261200650, 0), (175766, 0)], [(24040651104352480, 0), (0, 20093545498239), (0, 978057756),
    (0, 1345277), (0, 435)], [(45543694691050, 0), (0, 6123568124), (1963380, 0), (540, 0)], [(37995639266, 0),
    (3194806, 0), (4558, 0), (3, 0)]], 3, 4⟩, ⟨[[(0, 22278419059769344), (0, 18168223495784963), (704460489788, 0),
    (0, 200914866), (0, 39527)], [(0, 28955522917880160), (444567977597, 0), (1638104260, 0), (1020676, 0), (366,
    0)], [(7691669811123, 0), (0, 5711981258), (0, 4055387), (0, 2197), (0, 1)], [(6382254895, 0), (5895607, 0),
    (4736, 0), (2, 0)]], 3, 4⟩, 72057594037927936, 430250126556, 85087851367, ⟨[[(14941960345923, 0), (1615832594,
    0), (0, 1485969), (0, 479)], [(1941941254, 0), (5314250, 0), (7232, 0), (6, 0)], [(0, 3792981), (0, 16579), (0,
    42)], [(10723, 0), (78, 0)]], 3, 4⟩, 17592186044416, 7867020,
    5238487332372139026656238204199531950493336238240092291313209620052587219551556340796146845739876389313655523613780259294267015,
    lc0⟩) (.leaf ⟨558, 16, 1066, 560, 16, 3510, ⟨[[(17478107655118848, 0), (0, 18956495423874724), (1969367014126,
    0), (212644673, 0), (155302, 0)], [(25327149808852416, 0), (0, 19392572505244), (0, 814366087), (0, 1242357), (0,
    411)], [(46310116123193, 0), (0, 5586683948), (2200313, 0), (721, 0)], [(37221988545, 0), (2341212, 0), (3676,
    0), (2, 0)]], 3, 4⟩, ⟨[[(0, 20590660136083456), (0, 18264194274841075), (751534167703, 0), (0, 175010902), (0,
    30047)], [(0, 28672982688864178), (139292537896, 0), (1430284412, 0), (907608, 0), (326, 0)], [(8284142911352,
    0), (0, 5250461225), (0, 3679161), (0, 2037), (0, 1)], [(6629365260, 0), (5822868, 0), (4736, 0), (2, 0)]], 3,
    4⟩, 72057594037927936, 412338616035, 68602705583, ⟨[[(14941878010273, 0), (1688490584, 0), (0, 1388374), (0,
    425)], [(1912046257, 0), (5097466, 0), (6547, 0), (6, 0)], [(0, 3712967), (0, 15147), (0, 37)], [(9692, 0), (68,
    0)]], 3, 4⟩, 17592186044416, 7122310,
    5475906767679825295439983204447333762333710589503802211785110524381456538025054606544562166312657805401180497017485601629681975,
    lc0⟩)) (.sx (.leaf ⟨575, 16, 1159, 550, 16, 3505, ⟨[[(20819966558486528, 0), (0, 19681314246679047),
    (2237673189128, 0), (328963079, 0), (199414, 0)], [(23186965582716480, 0), (0, 20921367163767), (0, 1351245318),
    (0, 1535758), (0, 497)], [(46523331113473, 0), (0, 5993591698), (2156797, 0), (558, 0)], [(39500839591, 0),
    (4084159, 0), (5394, 0), (3, 0)]], 3, 4⟩, ⟨[[(31568854052610048, 0), (0, 18139698192602066), (658882412231, 0),
    (0, 213375451), (0, 34293)], [(0, 29034639020124082), (722535803926, 0), (1898610880, 0), (1142036, 0), (382,
    0)], [(7251422951152, 0), (0, 6413713454), (0, 4619222), (0, 2469), (0, 1)], [(6901455927, 0), (6701683, 0),
    (5262, 0), (2, 0)]], 3, 4⟩, 72057594037927936, 424853101077, 84669864753, ⟨[[(14868542261649, 0), (1556945897,
    0), (0, 1604103), (0, 661)], [(1933453272, 0), (5553150, 0), (8483, 0), (9, 0)], [(0, 3929539), (0, 19084), (0,
    54)], [(12745, 0), (101, 0)]], 3, 4⟩, 17592186044416, 10270064,
    4104775309561239088917720739725247606409191567547839694709889348023971110491829717448428514280511730522308651955694054261972551,
    lc0⟩) (.leaf ⟨554, 16, 1098, 542, 16, 3525, ⟨[[(2690349221855232, 0), (0, 19204793515574187), (2085767599689, 0),
    (271388479, 0), (175759, 0)], [(24523685239645838, 0), (0, 20129748856071), (0, 1154240061), (0, 1418656), (0,
    469)], [(47265589487517, 0), (0, 5387159877), (2442474, 0), (763, 0)], [(38551659277, 0), (3047897, 0), (4381,
    0), (3, 0)]], 3, 4⟩, ⟨[[(22615731968589824, 0), (0, 18227768823402424), (712580542785, 0), (0, 184329722), (0,
    24427)], [(0, 28775421796554414), (381227215992, 0), (1661732164, 0), (1014905, 0), (336, 0)], [(7884780489799,
    0), (0, 5888089011), (0, 4201697), (0, 2291), (0, 1)], [(7143757634, 0), (6628552, 0), (5263, 0), (2, 0)]], 3,
    4⟩, 72057594037927936, 405083360364, 65543092474, ⟨[[(14869070812506, 0), (1633773370, 0), (0, 1489587), (0,
    578)], [(1903458366, 0), (5293174, 0), (7570, 0), (8, 0)], [(0, 3803942), (0, 17133), (0, 47)], [(11294, 0), (87,
    0)]], 3, 4⟩, 17592186044416, 9330646,
    5003019448863171241154115288805519925286179961217053812594774490730640715736295165483100291358618952155237809807633606799788528,
    lc0⟩))) (.sy (.sx (.leaf ⟨540, 16, 1012, 552, 16, 3531, ⟨[[(0, 14694341091033088), (0, 18515821606079416),
    (1849668923451, 0), (169434024, 0), (136558, 0)], [(26590133974543675, 0), (0, 18702528120628), (0, 648450886),
    (0, 1135960), (0, 386)], [(46978937784724, 0), (0, 5146022410), (2353881, 0), (864, 0)], [(36445973898, 0),
    (1526222, 0), (2812, 0), (2, 0)]], 3, 4⟩, ⟨[[(0, 3795229443137536), (0, 18373557047715125), (793520527908, 0),
    (0, 152054673), (0, 21623)], [(0, 28362021387657815), (0, 142019418166), (1242717579, 0), (803085, 0), (288, 0)],
    [(8901021343270, 0), (0, 4797503459), (0, 3304627), (0, 1878), (0, 1)], [(6830641207, 0), (5660831, 0), (4666,
    0), (2, 0)]], 3, 4⟩, 72057594037927936, 397969887012, 53876227694, ⟨[[(14942311058888, 0), (1761072092, 0), (0,
    1293560), (0, 368)], [(1876668685, 0), (4882151, 0), (5880, 0), (5, 0)], [(0, 3640790), (0, 13797), (0, 32)],
    [(8748, 0), (58, 0)]], 3, 4⟩, 17592186044416, 6326749,
    5183386594206134007900500965942372068479625628628587447597106185012284867036217400347375901283068390521183582159407332208747184,
    lc0⟩) (.leaf ⟨523, 16, 961, 544, 16, 3552, ⟨[[(0, 7165397347344384), (0, 18083795343022218), (1741020122489, 0),
    (131375156, 0), (119491, 0)], [(27830595731578697, 0), (0, 18030785923692), (0, 484847650), (0, 1028472), (0,
    361)], [(47563567347230, 0), (0, 4793412795), (2431008, 0), (970, 0)], [(35684204723, 0), (770368, 0), (1984, 0),
    (2, 0)]], 3, 4⟩, ⟨[[(17514335385714688, 0), (0, 18490490739637662), (830738911363, 0), (0, 131775587), (0,
    14171)], [(0, 28013015581923694), (0, 399931653610), (1074874707, 0), (706809, 0), (253, 0)], [(9536413513829,
    0), (0, 4358837935), (0, 2936324), (0, 1721), (0, 1)], [(6989986306, 0), (5416986, 0), (4533, 0), (2, 0)]], 3,
    4⟩, 72057594037927936, 387025967465, 41150012347, ⟨[[(14941605618260, 0), (1828733414, 0), (0, 1208574), (0,
    317)], [(1843123963, 0), (4697782, 0), (5322, 0), (4, 0)], [(0, 3602094), (0, 12748), (0, 27)], [(8083, 0), (49,
    0)]], 3, 4⟩, 17592186044416, 5665846,
    5175517315374951123635876854178148697645572474820424790253312751546371199603480754721532040619057608912014197060219673448144667,
    lc0⟩)) (.sx (.leaf ⟨535, 16, 1041, 534, 16, 3546, ⟨[[(0, 13742393696141312), (0, 18746142024895521),
    (1948751684257, 0), (220260328, 0), (154260, 0)], [(25846875800271927, 0), (0, 19364627962280), (0, 955455813),
    (0, 1298820), (0, 439)], [(47927437115830, 0), (0, 4899340453), (2633152, 0), (923, 0)], [(37631429870, 0),
    (2059916, 0), (3395, 0), (2, 0)]], 3, 4⟩, ⟨[[(27745934046502912, 0), (0, 18330120232530058), (760433397273, 0),
    (0, 158597459), (0, 15760)], [(0, 28485644067266103), (67335563873, 0), (1447317987, 0), (897292, 0), (293, 0)],
    [(8541927063862, 0), (0, 5371356382), (0, 3785988), (0, 2113), (0, 1)], [(7332579112, 0), (6454310, 0), (5187,
    0), (2, 0)]], 3, 4⟩, 72057594037927936, 390004530360, 48408879041, ⟨[[(14869271923639, 0), (1707792857, 0), (0,
    1382983), (0, 497)], [(1871022179, 0), (5053006, 0), (6726, 0), (7, 0)], [(0, 3702803), (0, 15386), (0, 40)],
    [(9994, 0), (73, 0)]], 3, 4⟩, 17592186044416, 8261304,
    5280121630054905882650865563633148021945152542279207144620713804754037240924605929903372518268682849717246576303544146681704197,
    lc0⟩) (.leaf ⟨517, 16, 987, 527, 16, 3567, ⟨[[(6839318882533376, 0), (0, 18291406502141118), (1824322516445, 0),
    (175084931, 0), (134698, 0)], [(27135560130655113, 0), (0, 18616294051471), (0, 759108099), (0, 1177705), (0,
    409)], [(48482073455419, 0), (0, 4515152957), (2735014, 0), (1041, 0)], [(36724584189, 0), (1141023, 0), (2452,
    0), (2, 0)]], 3, 4⟩, ⟨[[(0, 35231508588888064), (0, 18440872777037112), (802829583126, 0), (0, 135880614), (0,
    8206)], [(0, 28155726815083995), (0, 219795343130), (1254763173, 0), (788864, 0), (253, 0)], [(9216476263002, 0),
    (0, 4870026904), (0, 3377170), (0, 1938), (0, 1)], [(7472471257, 0), (6187314, 0), (5039, 0), (2, 0)]], 3, 4⟩,
    72057594037927936, 378875279282, 33576427917, ⟨[[(14870238754333, 0), (1774201551, 0), (0, 1289458), (0, 423)],
    [(1846129819, 0), (4864026, 0), (6037, 0), (6, 0)], [(0, 3659880), (0, 14086), (0, 34)], [(9076, 0), (62, 0)]],
    3, 4⟩, 17592186044416, 7436980,
    4961575796016896473296003453934643342516675929471637433149884195538529431999690336190175707555635889465563094676497176860378941,
    lc0⟩)))) (.sx (.sy (.leaf ⟨424, 16, 880, 387, 16, 2581, ⟨[[(3364406515605504, 0), (0, 14899406337826209),
    (1745124754295, 0), (281240880, 0), (159723, 0)], [(34713475157254226, 0), (0, 32370087623371), (0, 2523546752),
    (0, 2553603), (0, 838)], [(145036276861748, 0), (0, 16545345313), (7706349, 0), (2123, 0)], [(245482268637, 0),
    (27319760, 0), (34851, 0), (19, 0)]], 3, 4⟩, ⟨[[(0, 15857913991467008), (0, 13275170273831462), (469290026930,
    0), (0, 151544761), (0, 15716)], [(0, 42376346762936640), (1242509367295, 0), (2999836554, 0), (1748239, 0),
    (538, 0)], [(20728478185195, 0), (0, 20218390624), (0, 14686617), (0, 7826), (0, 3)], [(44550583748, 0),
    (44316986, 0), (34282, 0), (15, 0)]], 3, 4⟩, 72057594037927936, 4852020539969, 862325022671, ⟨[[(14798633912100,
    0), (2096476874, 0), (0, 3133516), (0, 2155), (1, 0)], [(2539450088, 0), (10343853, 0), (23626, 0), (41, 0)],
    [(0, 7142801), (0, 51170), (0, 219)], [(34116, 0), (393, 0), (2, 0)]], 3, 4⟩, 17592186044416, 50242595,
    4118911867011270633642158810067008440967783043617936814406708175610807353811833281207009106834119589423270817928363477121692677,
    lc0⟩) (.leaf ⟨426, 16, 918, 374, 16, 2591, ⟨[[(0, 22412748335419392), (0, 15253116528462851), (1895392976033, 0),
    (347632891, 0), (181177, 0)], [(33561257512156667, 0), (0, 34228885248833), (0, 3288947124), (0, 2951881), (0,
    975)], [(150002909514155, 0), (0, 15964958652), (8563581, 0), (2269, 0)], [(258536623162, 0), (34552024, 0),
    (41312, 0), (22, 0)]], 3, 4⟩, ⟨[[(0, 7807773363970048), (0, 13255914927263084), (435019972085, 0), (0,
    155920538), (0, 8185)], [(0, 42424066684148983), (1750172811210, 0), (3441946931, 0), (1924706, 0), (547, 0)],
    [(19132109142550, 0), (0, 22745698285), (0, 16690401), (0, 8802), (0, 3)], [(48409977066, 0), (50140091, 0),
    (38103, 0), (17, 0)]], 3, 4⟩, 72057594037927936, 4733881004798, 838516976034, ⟨[[(14728565050144, 0),
    (2013882232, 0), (0, 3411478), (0, 2909)], [(2512782869, 0), (10881613, 0), (28242, 0), (56, 0)], [(0, 7507958),
    (0, 60419), (0, 285), (0, 1)], [(40688, 0), (506, 0), (3, 0)]], 3, 4⟩, 17592186044416, 61371420,
    4599436767579734291343170029183066342147726380041070732441690902448006207328779980357584340163438409585185862267811183379410544,
    lc0⟩)) (.sy (.sx (.leaf ⟨531, 16, 1073, 517, 16, 3561, ⟨[[(0, 35707268429012992), (0, 19004589605733156),
    (2067760334802, 0), (278888121, 0), (173445, 0)], [(25077884783128261, 0), (0, 20138839889388), (0, 1315202710),
    (0, 1487589), (0, 503)], [(49023783624018, 0), (0, 4608951614), (2941241, 0), (991, 0)], [(38976225569, 0),
    (2712293, 0), (4060, 0), (2, 0)]], 3, 4⟩, ⟨[[(0, 15615359272869888), (0, 18291462886446408), (725895042644, 0),
    (0, 163005354), (0, 7759)], [(0, 28591586099277806), (311361785562, 0), (1675026558, 0), (992791, 0), (293, 0)],
    [(8133154697716, 0), (0, 6027432703), (0, 4327943), (0, 2379), (0, 1)], [(7901955824, 0), (7336973, 0), (5767,
    0), (3, 0)]], 3, 4⟩, 72057594037927936, 378756036605, 42427560796, ⟨[[(14799354440049, 0), (1651996735, 0), (0,
    1483501), (0, 665)], [(1866637064, 0), (5258473, 0), (7806, 0), (10, 0)], [(0, 3817037), (0, 17589), (0, 52)],
    [(11883, 0), (95, 0)]], 3, 4⟩, 17592186044416, 10900304,
    4710749673701142738836574037359422803897231031320440877626350676703735904328754501757541411313038040714345769788359017717793571,
    lc0⟩) (.leaf ⟨512, 16, 1016, 509, 16, 3583, ⟨[[(4783623936360448, 0), (0, 18532329113506274), (1925310333430, 0),
    (225419166, 0), (151019, 0)], [(26432775265287227, 0), (0, 19308124846823), (0, 1081002815), (0, 1350702), (0,
    467)], [(49561685321752, 0), (0, 4188762004), (3071973, 0), (1123, 0)], [(37911503491, 0), (1603469, 0), (2981,
    0), (2, 0)]], 3, 4⟩, ⟨[[(0, 8015288357732352), (0, 18400290614382169), (774282491392, 0), (0, 137863760), (0,
    213)], [(0, 28291188395757463), (0, 9217722009), (1455019439, 0), (870786, 0), (248, 0)], [(8854661513137, 0),
    (0, 5458006154), (0, 3875083), (0, 2184), (0, 1)], [(8022630898, 0), (7046251, 0), (5604, 0), (2, 0)]], 3, 4⟩,
    72057594037927936, 367611634518, 25182623516, ⟨[[(14798051522749, 0), (1722120933, 0), (0, 1375980), (0, 563)],
    [(1839117816, 0), (5028804, 0), (6894, 0), (9, 0)], [(0, 3725554), (0, 15761), (0, 44)], [(10514, 0), (79, 0)]],
    3, 4⟩, 17592186044416, 9852527,
    5041635083721335043186718106105958987227899882346826653079963914446573294986235885520636049153144188958726341859737983786468314,
    lc0⟩)) (.leaf ⟨382, 16, 797, 363, 16, 2633, ⟨[[(27962287684055040, 0), (0, 14084990679569730), (1572170843055,
    0), (231997556, 0), (133840, 0)], [(36967423370647863, 0), (0, 30432997185520), (0, 2363042982), (0, 2410513),
    (0, 826)], [(149565055241874, 0), (0, 11888661733), (9995590, 0), (3408, 0), (1, 0)], [(235900835691, 0),
    (16710509, 0), (24807, 0), (15, 0)]], 3, 4⟩, ⟨[[(30753567669620736, 0), (0, 13438008104943864), (527556268412,
    0), (0, 110326474), (4802, 0)], [(0, 41905916508521262), (602232481191, 0), (2638235882, 0), (1494406, 0), (386,
    0)], [(23641974678740, 0), (0, 18938230709), (0, 13757168), (0, 7547), (0, 3)], [(50517386740, 0), (47997239, 0),
    (37192, 0), (16, 0)]], 3, 4⟩, 72057594037927936, 4209871569806, 296908746069, ⟨[[(14725315251665, 0),
    (2220633748, 0), (0, 2860022), (0, 2099), (0, 1)], [(2500436406, 0), (9922931, 0), (21817, 0), (45, 0)], [(0,
    7204573), (0, 48731), (0, 219), (0, 1)], [(33959, 0), (395, 0), (2, 0)]], 3, 4⟩, 17592186044416, 63618995,
    5097180565513154309149690067566478571109483892058490113509984866879799107478456756662345881989637438944306114728536059697936278,
    lc0⟩)))
theorem c66 : checkR job con1 false ⟨7, 9, 7, 9, 13, 17⟩ 1 30400 t66 558 14 320 4039 39 4000 = true := by decide +kernel

end PyX.Kron.T3a
