import Verif.Lemmas.T2cJob

/-!
# Temperature from pressure and enthalpy in subregion 2c, part D of the certificate
-/

namespace PyX.Kron.T2c

set_option Elab.async false

def t47 : CTree :=
  .sy (.leaf ⟨575, 16, 10, 145, 16, 546, ⟨[[], [(343597383680, 0)]], 3, 4⟩, ⟨[[(184579755706, 0), (2990171562152, 0),
    (10921735959, 0), (194564564, 0), (2136622, 0)], [(155641535075, 0), (2672574973, 0), (39650615, 0), (586534, 0),
    (9039, 0)], [(27863176, 0), (1274934, 0), (29685, 0), (549, 0), (19, 0)], [(0, 10904), (0, 556), (0, 22)]], 3,
    4⟩, 1099511627776, 0, 167382232, ⟨[[(53528723917332, 0), (0, 55529063012), (134289721, 0), (14333, 0), (0, 120)],
    [(25106346778, 0), (41157958, 0), (0, 262948), (0, 100), (0, 1)], [(0, 30057076), (0, 157181), (480, 0)],
    [(37424, 0), (394, 0), (0, 1)]], 3, 4⟩, 68719476736, 9425137,
    5201888448050282364198143723608687743401552003662982541830423025975629483693034400438465879320, lc0⟩) (.leaf
    ⟨575, 16, 10, 149, 16, 503, ⟨[[], [(343597383680, 0)]], 3, 4⟩, ⟨[[(148050432238, 0), (2896699116806, 0),
    (13789263365, 0), (240069989, 0), (3263082, 0)], [(159600909971, 0), (2967501858, 0), (48584079, 0), (836152, 0),
    (17639, 0)], [(33838520, 0), (1577726, 0), (42083, 0), (1256, 0), (48, 0)], [(0, 13802), (0, 719), (0, 10), (1,
    0)]], 3, 4⟩, 1099511627776, 0, 256600954, ⟨[[(52636979138316, 0), (0, 55386279832), (158776429, 0), (3773, 0),
    (0, 308)], [(25721051853, 0), (35018240, 0), (0, 316975), (0, 185), (0, 1)], [(0, 32553509), (0, 153192), (564,
    0)], [(43709, 0), (387, 0), (0, 1)]], 3, 4⟩, 68719476736, 11794001,
    3346767363075630536636734772686322191021703145499762547659723857521590476033478694119236258765, lc0⟩)
theorem c47 : checkC job ⟨6, 8, 8, 10, 9, 13⟩ 1 25 lims t47 1040 48 32 51 3 256 = true := by decide +kernel

def t48 : CTree :=
  .sx (.sy (.leaf ⟨545, 16, 10, 149, 16, 498, ⟨[[], [(343597383680, 0)]], 3, 4⟩, ⟨[[(0, 349810018941),
    (2733925022777, 0), (12953598973, 0), (228582162, 0), (3221706, 0)], [(168629620943, 0), (3181621517, 0),
    (53933902, 0), (977361, 0), (20956, 0)], [(47878432, 0), (2316158, 0), (68200, 0), (2043, 0), (71, 0)], [(0,
    4734), (113, 0), (34, 0), (3, 0)]], 3, 4⟩, 1099511627776, 0, 275678756, ⟨[[(51750536122155, 0), (0, 56643816171),
    (172277934, 0), (7820, 0), (0, 302)], [(27867374779, 0), (44746066, 0), (0, 362796), (0, 196), (0, 1)], [(0,
    37186745), (0, 193479), (717, 0)], [(54076, 0), (520, 0), (0, 2)]], 3, 4⟩, 68719476736, 14857476,
    5036163259356524204929109507128051461336280166677798408244383522731952492610022877492615563197, lc0⟩) (.leaf
    ⟨545, 16, 10, 148, 16, 450, ⟨[[], [(343597383680, 0)]], 3, 4⟩, ⟨[[(285588574784, 0), (2636119604027, 0),
    (16198734057, 0), (302768991, 0), (5447262, 0)], [(171600049890, 0), (3575266360, 0), (70028309, 0), (1572678,
    0), (41685, 0)], [(58537796, 0), (3101079, 0), (113488, 0), (4226, 0), (141, 0)], [(0, 1762), (896, 0), (110, 0),
    (6, 0)]], 3, 4⟩, 1099511627776, 0, 487029548, ⟨[[(50950640204401, 0), (0, 57046683761), (210856356, 0), (0,
    19103), (0, 655)], [(28449010081, 0), (37487444, 0), (0, 456735), (0, 353), (0, 2)], [(0, 39890809), (0, 190633),
    (879, 0)], [(61368, 0), (515, 0), (0, 2)]], 3, 4⟩, 68719476736, 18874327,
    4307939904563653256978091241355491620156771206310861329148024615806315726999422473700184057447, lc0⟩)) (.leaf
    ⟨575, 16, 10, 96, 16, 277, ⟨[[], [(343597383680, 0)]], 3, 4⟩, ⟨[[(0, 170093235452), (3541358691006, 0),
    (49498132457, 0), (1908931119, 0), (74113337, 0)], [(105183640632, 0), (4532474805, 0), (185203878, 0), (8783046,
    0), (449894, 0)], [(29048137, 0), (3103433, 0), (235311, 0), (15965, 0), (465, 0)], [(0, 11072), (0, 702), (0,
    17), (0, 26), (0, 7)]], 3, 4⟩, 1099511627776, 0, 3652957417, ⟨[[(51336073706113, 0), (0, 86001593711),
    (519651155, 0), (0, 229654), (0, 5583)], [(26401142629, 0), (33662610, 0), (0, 1104755), (0, 1678), (0, 5)], [(0,
    36072639), (0, 226597), (1839, 0)], [(52645, 0), (577, 0), (0, 5)]], 3, 4⟩, 68719476736, 98900638,
    3503266296029351572136653614014402391573038305089178443351105433944258265107641099534332485542, lc0⟩)
theorem c48 : checkC job ⟨6, 8, 8, 10, 9, 13⟩ 1 25 lims t48 496 48 16 57 3 256 = true := by decide +kernel

def t49 : CTree :=
  .sy (.sx (.leaf ⟨605, 16, 10, 95, 16, 309, ⟨[[], [(343597383680, 0)]], 3, 4⟩, ⟨[[(83668501688, 0), (3797427925222,
    0), (39555693542, 0), (1361485184, 0), (39018642, 0)], [(96054339740, 0), (3603749134, 0), (117008565, 0),
    (4070496, 0), (186680, 0)], [(15189759, 0), (1318765, 0), (63469, 0), (4620, 0), (363, 0)], [(0, 13163), (0,
    1639), (0, 81), (0, 0), (0, 1)]], 3, 4⟩, 1099511627776, 0, 1133942510, ⟨[[(53077814128395, 0), (0, 85907175935),
    (396524740, 0), (0, 43900), (0, 2773)], [(24020847228, 0), (38301853, 0), (0, 768094), (0, 938), (0, 8)], [(0,
    29640670), (0, 191409), (1211, 0), (0, 1)], [(38043, 0), (460, 0), (0, 3)]], 3, 4⟩, 68719476736, 46544751,
    2458849230813248591394029082078008666449032267997667315839125612847641381378533491533980440390, lc0⟩) (.leaf
    ⟨635, 16, 10, 96, 16, 287, ⟨[[], [(343597383680, 0)]], 3, 4⟩, ⟨[[(223881092987, 0), (3858136070059, 0),
    (47633091826, 0), (1663514512, 0), (54606109, 0)], [(91528080735, 0), (3532029519, 0), (117180876, 0), (4434532,
    0), (182633, 0)], [(9667850, 0), (654606, 0), (23893, 0), (1024, 0), (0, 530)], [(0, 18745), (0, 2493), (0, 200),
    (0, 32), (0, 7)]], 3, 4⟩, 1099511627776, 0, 2344038330, ⟨[[(53089029329909, 0), (0, 84711881811), (430421411, 0),
    (0, 230424), (0, 4799)], [(22523386640, 0), (17220547, 0), (0, 846436), (0, 1523), (0, 5)], [(0, 27725069), (0,
    149070), (1127, 0), (0, 1)], [(34847, 0), (346, 0), (0, 2)]], 3, 4⟩, 68719476736, 54158605,
    3232064913926009523209422167057803473701502925133242365816461021770001565213459838321323194927, lc0⟩)) (.sx (.sy
    (.leaf ⟨605, 16, 10, 152, 16, 421, ⟨[[], [(343597383680, 0)]], 3, 4⟩, ⟨[[(0, 128769164717), (2898193803993, 0),
    (21983281295, 0), (427612380, 0), (8171874, 0)], [(156826489630, 0), (3400112876, 0), (69078236, 0), (1546865,
    0), (26529, 0)], [(31259272, 0), (1532634, 0), (46466, 0), (0, 100), (0, 180)], [(0, 31454), (0, 2325), (0, 199),
    (0, 22), (0, 2)]], 3, 4⟩, 1099511627776, 0, 1053687870, ⟨[[(51763287440135, 0), (0, 53480390443), (209573966, 0),
    (0, 107280), (0, 1201)], [(24439711790, 0), (8778566, 0), (0, 444299), (0, 484)], [(0, 32482105), (0, 111457),
    (639, 0)], [(44912, 0), (270, 0), (0, 2)]], 3, 4⟩, 68719476736, 25018359,
    1587045602423506408698934251222075374787613688178621812856542759256272338153414416617122031999, lc0⟩) (.leaf
    ⟨605, 16, 10, 148, 16, 369, ⟨[[], [(343597383680, 0)]], 3, 4⟩, ⟨[[(0, 331162889550), (2818983635432, 0),
    (27857151237, 0), (596646518, 0), (11415896, 0)], [(157835012889, 0), (3869055347, 0), (88377879, 0), (1588029,
    0), (0, 14217)], [(36589443, 0), (1590192, 0), (0, 28402), (0, 9800), (0, 690)], [(0, 52714), (0, 7925), (0,
    973), (0, 73), (0, 2)]], 3, 4⟩, 1099511627776, 0, 4231927388, ⟨[[(50920725735645, 0), (0, 53091534434),
    (262307346, 0), (0, 342997), (0, 5037)], [(24459126852, 0), (0, 7549996), (0, 612054), (0, 964), (0, 17)], [(0,
    34177497), (0, 102156), (867, 0), (1, 0)], [(49039, 0), (250, 0), (0, 2)]], 3, 4⟩, 68719476736, 188751771,
    1756137695085756663171537907238981642809889867969617086250928220254199225440529869469340675144, lc0⟩)) (.sy
    (.leaf ⟨635, 16, 10, 154, 16, 391, ⟨[[], [(343597383680, 0)]], 3, 4⟩, ⟨[[(0, 8460233811), (3005201426630, 0),
    (26698570114, 0), (506536406, 0), (6658781, 0)], [(150206946513, 0), (3334584815, 0), (62429889, 0), (449615, 0),
    (0, 64704)], [(17111988, 0), (163873, 0), (0, 93335), (0, 12356), (0, 785)], [(0, 56828), (0, 7497), (0, 850),
    (0, 64), (0, 2)]], 3, 4⟩, 1099511627776, 0, 2641348886, ⟨[[(51769064876651, 0), (0, 51636630517), (220365407, 0),
    (0, 267589), (0, 3476)], [(22563521311, 0), (0, 9497690), (0, 497103), (0, 637), (0, 8)], [(0, 29939022), (0,
    81149), (631, 0), (1, 0)], [(40017, 0), (192, 0), (0, 1)]], 3, 4⟩, 68719476736, 138439608,
    2481677981215988769960592336873909728173876090936791851649695243365040311533782881321518522278, lc0⟩) (.sx (.leaf
    ⟨1255, 16, 20, 195, 16, 454, ⟨[[], [(343597383680, 0)]], 3, 4⟩, ⟨[[(0, 414430031489), (3816410941939, 0),
    (41371209059, 0), (778640181, 0), (8373520, 0)], [(99670314379, 0), (2411847352, 0), (39764785, 0), (0, 555178),
    (0, 58555)], [(5964316, 0), (0, 394182), (0, 99773), (0, 6759), (72, 0)], [(0, 17200), (0, 2922), (0, 238), (2,
    0), (3, 0)]], 3, 4⟩, 1099511627776, 0, 714739798, ⟨[[(50921904696784, 0), (0, 39206904723), (153738644, 0), (0,
    376962), (0, 4388)], [(11401834600, 0), (0, 9878709), (0, 206776), (0, 677), (0, 11)], [(0, 7980996), (0, 14440),
    (118, 0), (0, 1)], [(5560, 0), (18, 0)]], 3, 4⟩, 68719476736, 74888200,
    2258337500832152473403299298026461154605327238265895946916739919865987573730080953055013766537, lc0⟩) (.leaf
    ⟨1285, 16, 20, 196, 16, 437, ⟨[[], [(343597383680, 0)]], 3, 4⟩, ⟨[[(0, 280118670254), (3890195055919, 0),
    (42436270956, 0), (649970150, 0), (6888527, 0)], [(96513931920, 0), (2163474099, 0), (14849831, 0), (0, 1281739),
    (86748, 0)], [(0, 100193), (0, 1288463), (0, 135186), (1947, 0), (1825, 0)], [(0, 23903), (0, 3211), (49, 0),
    (71, 0), (11, 0)]], 3, 4⟩, 1099511627776, 0, 2198995116, ⟨[[(50926813037644, 0), (0, 38511257010), (146237868,
    0), (0, 579461), (0, 248)], [(10829866235, 0), (0, 14891097), (0, 240022), (0, 1002), (13, 0)], [(0, 7606963),
    (0, 11666), (93, 0), (0, 1)], [(5200, 0), (15, 0)]], 3, 4⟩, 68719476736, 843651997,
    3440640218856788218693140389204832921224464930739831709809271055634598201355064838427887923754, lc0⟩))))
theorem c49 : checkC job ⟨6, 8, 8, 10, 9, 13⟩ 1 25 lims t49 592 48 16 27 3 128 = true := by decide +kernel

def t50 : CTree :=
  .sx (.sy (.leaf ⟨545, 16, 10, 145, 16, 399, ⟨[[], [(343597383680, 0)]], 3, 4⟩, ⟨[[(0, 284257532692),
    (2543735710355, 0), (20537358408, 0), (438297287, 0), (10068893, 0)], [(173765781664, 0), (4105352946, 0),
    (97836962, 0), (2757448, 0), (82269, 0)], [(73018968, 0), (4489610, 0), (201622, 0), (7813, 0), (206, 0)],
    [(7818, 0), (2487, 0), (170, 0), (0, 0), (0, 1)]], 3, 4⟩, 1099511627776, 0, 1543388599, ⟨[[(50115253689810, 0),
    (0, 56977876123), (265721458, 0), (0, 96695), (0, 1500)], [(28919722952, 0), (25965580, 0), (0, 604145), (0,
    605), (0, 1)], [(0, 42639532), (0, 184097), (1128, 0)], [(68804, 0), (498, 0), (0, 3)]], 3, 4⟩, 68719476736,
    37446837, 3496709972065427498371816827475575755803624988475551281524020944243417991036807883649274983359, lc0⟩)
    (.leaf ⟨545, 16, 10, 137, 16, 343, ⟨[[], [(343597383680, 0)]], 3, 4⟩, ⟨[[(26217218570, 0), (2448474840929, 0),
    (26906388661, 0), (691583075, 0), (18803155, 0)], [(174199374888, 0), (4868474722, 0), (146431611, 0), (4813330,
    0), (134145, 0)], [(93839157, 0), (6807675, 0), (327408, 0), (9596, 0), (0, 35)], [(23299, 0), (2785, 0), (0,
    179), (0, 48), (0, 4)]], 3, 4⟩, 1099511627776, 0, 7038455839, ⟨[[(49351125038473, 0), (0, 57491895542),
    (350860476, 0), (0, 339018), (0, 5352)], [(29166200101, 0), (9546922, 0), (0, 856951), (0, 1284), (0, 16)], [(0,
    45049760), (0, 175949), (1571, 0), (1, 0)], [(75312, 0), (474, 0), (0, 4)]], 3, 4⟩, 68719476736, 184031825,
    2981326660713430857629633829538955153201812570017909794964936120344071377557623169298914074582, lc0⟩)) (.sy
    (.leaf ⟨575, 16, 10, 142, 16, 353, ⟨[[], [(343597383680, 0)]], 3, 4⟩, ⟨[[(21839081072, 0), (2636933758768, 0),
    (28137635392, 0), (673748465, 0), (16274184, 0)], [(166112830528, 0), (4418593735, 0), (119427919, 0), (3236466,
    0), (59636, 0)], [(62725348, 0), (3890448, 0), (118898, 0), (0, 2218), (0, 464)], [(0, 28262), (0, 4923), (0,
    800), (0, 73), (0, 3)]], 3, 4⟩, 1099511627776, 0, 5934550792, ⟨[[(50131746084173, 0), (0, 55108274657),
    (307149146, 0), (0, 367180), (0, 5620)], [(26651149385, 0), (0, 1324723), (0, 733466), (0, 1185), (0, 19)], [(0,
    39128105), (0, 132722), (1173, 0), (1, 0)], [(60430, 0), (339, 0), (0, 3)]], 3, 4⟩, 68719476736, 201055490,
    2026038265672945865391975109379651887066385993410420446186433004281615247306741448015313845227, lc0⟩) (.sx (.leaf
    ⟨1135, 16, 20, 182, 16, 419, ⟨[[], [(343597383680, 0)]], 3, 4⟩, ⟨[[(0, 149042864722), (3462161348106, 0),
    (47563024206, 0), (1296888555, 0), (33103914, 0)], [(114700250541, 0), (3556890308, 0), (111507736, 0), (3070102,
    0), (55984, 0)], [(28151678, 0), (1779338, 0), (34171, 0), (0, 2341), (0, 10)], [(0, 8244), (0, 2230), (0, 280),
    (0, 9), (2, 0)]], 3, 4⟩, 1099511627776, 0, 1258585087, ⟨[[(49344717819062, 0), (0, 40603700382), (209485745, 0),
    (0, 421456), (0, 4468)], [(13579001019, 0), (0, 7129784), (0, 289188), (0, 812), (0, 10)], [(0, 10489785), (0,
    23707), (214, 0), (0, 1)], [(8440, 0), (30, 0)]], 3, 4⟩, 68719476736, 126401419,
    3859578382574088697239638372685953968553649623586718172992700758284177119465270153487199623115, lc0⟩) (.sy (.leaf
    ⟨1165, 16, 20, 279, 16, 626, ⟨[[], [(343597383680, 0)]], 3, 4⟩, ⟨[[(442648327557, 0), (2728550750240, 0),
    (19336713728, 0), (252604631, 0), (3023422, 0)], [(170709261001, 0), (2614916571, 0), (37127044, 0), (405434, 0),
    (5371, 0)], [(33340103, 0), (685428, 0), (0, 13508), (0, 565), (52, 0)], [(0, 27028), (0, 2764), (0, 103), (3,
    0), (1, 0)]], 3, 4⟩, 1099511627776, 0, 786824425, ⟨[[(49553652463774, 0), (0, 26079479718), (86936682, 0), (0,
    156853), (0, 555)], [(12925066922, 0), (0, 7471689), (0, 130024), (0, 288)], [(0, 9866655), (0, 12980), (80, 0)],
    [(7686, 0), (16, 0)]], 3, 4⟩, 68719476736, 51312879,
    2412727244561968312912733274594692699124830640572583230480786642837513180239207985023999800648, lc0⟩) (.sx (.leaf
    ⟨2373, 16, 41, 362, 16, 779, ⟨[[(0, 137438953472)], [(352187318272, 0)]], 3, 4⟩, ⟨[[(0, 3278600286),
    (3629297347257, 0), (29285508848, 0), (412492907, 0), (6236457, 0)], [(115721155548, 0), (1917500117, 0),
    (29473982, 0), (475404, 0), (21315, 0)], [(12448918, 0), (242462, 0), (0, 132), (795, 0), (110, 0)], [(0, 6046),
    (0, 481), (11, 0), (4, 0)]], 3, 4⟩, 1099511627776, 0, 145706088, ⟨[[(49159416718382, 0), (0, 19284996520),
    (53289002, 0), (0, 62765), (1182, 0)], [(6325627793, 0), (0, 4116327), (0, 43427), (14, 0), (4, 0)], [(0,
    2424233), (0, 2182), (13, 0)], [(937, 0), (1, 0)]], 3, 4⟩, 68719476736, 57084665,
    2789346009061653608138297730301729592397304467138921068832755744433117401344489681263839921533, lc0⟩) (.leaf
    ⟨2404, 16, 41, 357, 16, 748, ⟨[[(0, 412316860416)], [(352187318272, 0)]], 3, 4⟩, ⟨[[(426970005416, 0),
    (3663383844266, 0), (30854977713, 0), (451689387, 0), (9324575, 0)], [(113232897249, 0), (1874171604, 0),
    (29003373, 0), (764919, 0), (54049, 0)], [(10012908, 0), (120459, 0), (10380, 0), (2749, 0), (264, 0)], [(0,
    7530), (0, 254), (72, 0), (10, 0), (1, 0)]], 3, 4⟩, 1099511627776, 0, 271512211, ⟨[[(49167976344200, 0), (0,
    19170542227), (55686301, 0), (45433, 0), (5101, 0)], [(6132340439, 0), (0, 5267254), (0, 41882), (346, 0), (14,
    0)], [(0, 2358353), (0, 1860), (20, 0)], [(899, 0), (1, 0)]], 3, 4⟩, 68719476736, 166278702,
    3285539631171244673985780666167524780251116452931761218760563972532332007136544482709164976996, lc0⟩)))))
theorem c50 : checkC job ⟨6, 8, 8, 10, 9, 13⟩ 1 25 lims t50 496 48 16 63 3 256 = true := by decide +kernel

def t51 : CTree :=
  .sy (.sx (.leaf ⟨1075, 16, 20, 179, 16, 417, ⟨[[], [(343597383680, 0)]], 3, 4⟩, ⟨[[(0, 416872713244),
    (3279912564776, 0), (46771299559, 0), (1385092321, 0), (39545950, 0)], [(123305201160, 0), (4077627456, 0),
    (146864416, 0), (5101621, 0), (138077, 0)], [(44194101, 0), (3592534, 0), (170356, 0), (4318, 0), (164, 0)],
    [(9235, 0), (370, 0), (0, 115), (0, 7), (2, 0)]], 3, 4⟩, 1099511627776, 0, 1381371836, ⟨[[(48577564320355, 0),
    (0, 41446286142), (232187625, 0), (0, 345564), (0, 4007)], [(14943265189, 0), (0, 2581761), (0, 316936), (0,
    694), (0, 9)], [(0, 12133501), (0, 31376), (284, 0)], [(10588, 0), (42, 0)]], 3, 4⟩, 68719476736, 63778343,
    4091248539157638494479753823866953996744959621107983478191548307436269622283626878337396730933, lc0⟩) (.sy (.leaf
    ⟨1105, 16, 20, 266, 16, 599, ⟨[[], [(343597383680, 0)]], 3, 4⟩, ⟨[[(0, 549536860431), (2534971411765, 0),
    (19534703009, 0), (289579636, 0), (4036071, 0)], [(179808673350, 0), (3062895639, 0), (54235514, 0), (873064, 0),
    (13525, 0)], [(57755857, 0), (2129684, 0), (37502, 0), (447, 0), (62, 0)], [(0, 4228), (0, 1329), (0, 79), (3,
    0), (1, 0)]], 3, 4⟩, 1099511627776, 0, 960039493, ⟨[[(48766909487371, 0), (0, 27040361355), (104277707, 0), (0,
    157355), (0, 761)], [(14204135977, 0), (0, 5684042), (0, 153230), (0, 302)], [(0, 11398605), (0, 17267), (116,
    0)], [(9601, 0), (22, 0)]], 3, 4⟩, 68719476736, 41385451,
    3134103763691637330458114715204601807491438095791929435548276056732568260781914171956016004276, lc0⟩) (.sx (.leaf
    ⟨2250, 16, 41, 350, 16, 760, ⟨[[(0, 137438953472)], [(352187318272, 0)]], 3, 4⟩, ⟨[[(0, 216746236244),
    (3443996005845, 0), (30494867894, 0), (486241768, 0), (8044948, 0)], [(124892711755, 0), (2342117096, 0),
    (45352343, 0), (893278, 0), (29251, 0)], [(23095188, 0), (896892, 0), (22416, 0), (1297, 0), (126, 0)], [(0,
    892), (0, 182), (17, 0), (5, 0)]], 3, 4⟩, 1099511627776, 0, 166404536, ⟨[[(48404612967683, 0), (0, 19678792603),
    (62517185, 0), (0, 76445), (450, 0)], [(6978806785, 0), (0, 3291291), (0, 49287), (0, 35), (2, 0)], [(0,
    2803019), (0, 2896), (18, 0)], [(1172, 0), (2, 0)]], 3, 4⟩, 68719476736, 35394877,
    3204941173771724797345716107418510421980415375375202262937642950284745227830050126749155898884, lc0⟩) (.leaf
    ⟨2281, 16, 41, 341, 16, 719, ⟨[[(0, 412316860416)], [(352187318272, 0)]], 3, 4⟩, ⟨[[(473039106085, 0),
    (3478589113301, 0), (33188396584, 0), (557694070, 0), (11832835, 0)], [(122306032797, 0), (2374344991, 0),
    (47870315, 0), (1260736, 0), (66301, 0)], [(21284569, 0), (809846, 0), (33640, 0), (3468, 0), (309, 0)], [(0,
    3015), (0, 30), (82, 0), (12, 0), (1, 0)]], 3, 4⟩, 1099511627776, 0, 310024160, ⟨[[(48418233263803, 0), (0,
    19587062954), (66223135, 0), (0, 22097), (3275, 0)], [(6766865460, 0), (0, 4724806), (0, 52417), (185, 0), (10,
    0)], [(0, 2723949), (0, 2505), (22, 0)], [(1120, 0), (1, 0)]], 3, 4⟩, 68719476736, 125678890,
    3728985812851858790875712629434828541188132912798412682581843183442869609202470651324642861496, lc0⟩)))) (.sx
    (.sy (.leaf ⟨1075, 16, 20, 244, 16, 528, ⟨[[], [(343597383680, 0)]], 3, 4⟩, ⟨[[(463566771763, 0), (2406968448596,
    0), (22630179274, 0), (382226773, 0), (7077750, 0)], [(183807400058, 0), (3659416573, 0), (77174870, 0),
    (1755597, 0), (65600, 0)], [(81591282, 0), (3585797, 0), (116374, 0), (6980, 0), (577, 0)], [(12735, 0), (811,
    0), (288, 0), (46, 0), (4, 0)]], 3, 4⟩, 1099511627776, 0, 1981394915, ⟨[[(48052147521635, 0), (0, 27889831389),
    (133774323, 0), (0, 216797), (2091, 0)], [(14846335471, 0), (0, 9252052), (0, 217148), (0, 174), (19, 0)], [(0,
    12511174), (0, 18793), (172, 0)], [(11088, 0), (24, 0)]], 3, 4⟩, 68719476736, 286646214,
    3999879112866583707668858049939076327062343324118143379661802748010989304662476711542614199884, lc0⟩) (.sx (.leaf
    ⟨2188, 16, 41, 322, 16, 669, ⟨[[(412316860416, 0)], [(352187318272, 0)]], 3, 4⟩, ⟨[[(0, 359094289312),
    (3312915996248, 0), (36419448473, 0), (726977044, 0), (20341803, 0)], [(129138666038, 0), (2897234323, 0),
    (73805346, 0), (2648699, 0), (147258, 0)], [(33890729, 0), (1823150, 0), (107341, 0), (9156, 0), (683, 0)],
    [(6029, 0), (1393, 0), (263, 0), (29, 0), (2, 0)]], 3, 4⟩, 1099511627776, 0, 599510163, ⟨[[(47669125514808, 0),
    (0, 19828401553), (82251687, 0), (39219, 0), (5936, 0)], [(7281606992, 0), (0, 5136823), (0, 61678), (431, 0),
    (18, 0)], [(0, 3080883), (0, 2866), (37, 0), (1, 0)], [(1355, 0), (2, 0)]], 3, 4⟩, 68719476736, 215395469,
    4346839061482684055621632648498062369395995288843612325341217572077668946258760502072506600142, lc0⟩) (.sy (.leaf
    ⟨2219, 16, 41, 469, 16, 956, ⟨[[(137438953472, 0)], [(352187318272, 0)]], 3, 4⟩, ⟨[[(314914068320, 0),
    (2487859990806, 0), (14422454108, 0), (157531373, 0), (2665537, 0)], [(187338889063, 0), (2158846720, 0),
    (30064730, 0), (670682, 0), (20871, 0)], [(46750020, 0), (1390567, 0), (54418, 0), (2579, 0), (95, 0)], [(7938,
    0), (1576, 0), (151, 0), (8, 0)]], 3, 4⟩, 1099511627776, 0, 279978111, ⟨[[(47771071855929, 0), (0, 13281893705),
    (40782212, 0), (97427, 0), (3034, 0)], [(7059346107, 0), (0, 4178337), (0, 22101), (390, 0), (9, 0)], [(0,
    2974026), (0, 1517), (26, 0)], [(1282, 0), (1, 0)]], 3, 4⟩, 68719476736, 61431617,
    4191989570999826895174882380522818579744467847262447965302769399915222327234001610968610791610, lc0⟩) (.sx (.sy
    (.leaf ⟨4423, 16, 82, 932, 16, 1873, ⟨[[(0, 137438953472)], [(352187318272, 0)]], 3, 4⟩, ⟨[[(0, 522708207626),
    (2517581607789, 0), (7828033743, 0), (47877286, 0), (464877, 0)], [(191172673191, 0), (1168203746, 0), (9254885,
    0), (119917, 0), (1915, 0)], [(26035522, 0), (453462, 0), (10303, 0), (243, 0), (4, 0)], [(3798, 0), (339, 0),
    (15, 0)]], 3, 4⟩, 1099511627776, 0, 35147262, ⟨[[(47631012905596, 0), (0, 6474507091), (11407938, 0), (25988, 0),
    (316, 0)], [(3537721369, 0), (0, 1121375), (0, 1582), (44, 0)], [(0, 753017), (0, 142), (3, 0)], [(164, 0)]], 3,
    4⟩, 68719476736, 3152236,
    3562585785377960932186034176229215042337015333391636212116520491081589211534300313435633595114, lc0⟩) (.skip))
    (.skip))))) (.sy (.sx (.sy (.leaf ⟨2250, 16, 41, 495, 16, 1032, ⟨[[(0, 137438953472)], [(352187318272, 0)]], 3,
    4⟩, ⟨[[(0, 46755309046), (2547055584529, 0), (13002581810, 0), (118413370, 0), (1474457, 0)], [(185282212018, 0),
    (1914665099, 0), (21486212, 0), (341090, 0), (9602, 0)], [(37715976, 0), (846701, 0), (22600, 0), (1087, 0), (44,
    0)], [(0, 954), (330, 0), (57, 0), (4, 0)]], 3, 4⟩, 1099511627776, 0, 117723078, ⟨[[(48131595279403, 0), (0,
    13180483361), (32941456, 0), (10517, 0), (1106, 0)], [(6920587050, 0), (0, 3463919), (0, 24727), (116, 0), (3,
    0)], [(0, 2841149), (0, 1707), (13, 0)], [(1195, 0), (1, 0)]], 3, 4⟩, 68719476736, 24716661,
    2584613273483665558739903314455276924326593568359636557688495601861591316507204782736566250959, lc0⟩) (.sx (.leaf
    ⟨4484, 16, 82, 661, 16, 1351, ⟨[[(412316860416, 0)], [(352187318272, 0)]], 3, 4⟩, ⟨[[(133811489927, 0),
    (3488557278528, 0), (19421123936, 0), (200874299, 0), (3206877, 0)], [(127985592275, 0), (1414272038, 0),
    (18379135, 0), (387021, 0), (12123, 0)], [(14288957, 0), (388528, 0), (14712, 0), (726, 0), (28, 0)], [(505, 0),
    (189, 0), (21, 0), (1, 0)]], 3, 4⟩, 1099511627776, 0, 38127578, ⟨[[(47948807385852, 0), (0, 9538680477),
    (19986467, 0), (32252, 0), (743, 0)], [(3464931789, 0), (0, 1483143), (0, 5599), (65, 0), (1, 0)], [(0, 721425),
    (0, 267), (3, 0)], [(153, 0)]], 3, 4⟩, 68719476736, 9544762,
    2094526734925084673500934552001740807942927001964243145208264509593099419298547061913558518115, lc0⟩) (.sy (.leaf
    ⟨4515, 16, 82, 972, 16, 1967, ⟨[[(137438953472, 0)], [(352187318272, 0)]], 3, 4⟩, ⟨[[(0, 146550138184),
    (2595738488031, 0), (7387058281, 0), (40097031, 0), (351772, 0)], [(187164172978, 0), (1043330306, 0), (7126840,
    0), (83966, 0), (1372, 0)], [(20148121, 0), (292789, 0), (6455, 0), (164, 0), (3, 0)], [(719, 0), (179, 0), (9,
    0)]], 3, 4⟩, 1099511627776, 0, 18661285, ⟨[[(47993132441260, 0), (0, 6399790122), (9775493, 0), (18959, 0), (238,
    0)], [(3410527628, 0), (0, 1071890), (0, 1770), (33, 0)], [(0, 708973), (0, 146), (2, 0)], [(149, 0)]], 3, 4⟩,
    68719476736, 2292207,
    2339752706257962013116693821840261138954741194405296051832578832137662471298781041063744289387, lc0⟩) (.sx (.leaf
    ⟨9070, 16, 165, 1310, 16, 2623, ⟨[[(0, 171798691840)], [(354334801920, 0)]], 3, 4⟩, ⟨[[(0, 454319861321),
    (3549687496316, 0), (10648483963, 0), (63325894, 0), (620970, 0)], [(128442919367, 0), (747437714, 0), (5679506,
    0), (75591, 0), (1256, 0)], [(7344642, 0), (123059, 0), (3050, 0), (76, 0), (1, 0)], [(312, 0), (47, 0), (2,
    0)]], 3, 4⟩, 1099511627776, 0, 4870935, ⟨[[(47902327323694, 0), (0, 4635509062), (5928284, 0), (12779, 0), (103,
    0)], [(1694624111, 0), (0, 408055), (0, 154), (10, 0)], [(0, 176250), (0, 19)], [(19, 0)]], 3, 4⟩, 68719476736,
    694235, 3460561241937253440326181589827739781317927379570145254893692081114034821602296043849269970013, lc0⟩)
    (.skip))))) (.sy (.sx (.leaf ⟨4546, 16, 82, 667, 16, 1357, ⟨[[(0, 137438953472)], [(352187318272, 0)]], 3, 4⟩,
    ⟨[[(19713939784, 0), (3536447287843, 0), (19320059723, 0), (197480568, 0), (3226229, 0)], [(125375149774, 0),
    (1344198454, 0), (17034598, 0), (372880, 0), (12180, 0)], [(12320918, 0), (322568, 0), (13529, 0), (712, 0), (27,
    0)], [(0, 120), (166, 0), (20, 0), (1, 0)]], 3, 4⟩, 1099511627776, 0, 37911033, ⟨[[(48131695258849, 0), (0,
    9468569592), (19855630, 0), (46506, 0), (925, 0)], [(3372534874, 0), (0, 1538112), (0, 4470), (84, 0), (1, 0)],
    [(0, 694550), (0, 229), (3, 0)], [(144, 0)]], 3, 4⟩, 68719476736, 11663095,
    2625697379218098059395154057139599554233316305812296317704957265363767759269069800466933532704, lc0⟩) (.sy (.leaf
    ⟨4577, 16, 82, 987, 16, 1990, ⟨[[(0, 412316860416)], [(352187318272, 0)]], 3, 4⟩, ⟨[[(97842256518, 0),
    (2644707470691, 0), (7359949747, 0), (39474496, 0), (354407, 0)], [(184285884549, 0), (993134585, 0), (6623420,
    0), (81342, 0), (1378, 0)], [(17295919, 0), (244432, 0), (6017, 0), (161, 0), (3, 0)], [(0, 163), (163, 0), (9,
    0)]], 3, 4⟩, 1099511627776, 0, 17924036, ⟨[[(48178789003394, 0), (0, 6322497123), (9693116, 0), (24162, 0), (278,
    0)], [(3320368528, 0), (0, 1086089), (0, 1096), (39, 0)], [(0, 682523), (0, 118), (2, 0)], [(141, 0)]], 3, 4⟩,
    68719476736, 2611288,
    2943361954871280547978021120053947834417823329606870765739963049739249975883529223140667000947, lc0⟩) (.skip)))
    (.skip))) (.sx (.sy (.sx (.sy (.leaf ⟨4484, 16, 82, 944, 16, 1888, ⟨[[(412316860416, 0)], [(352187318272, 0)]],
    3, 4⟩, ⟨[[(422675491069, 0), (2569201413055, 0), (7897285108, 0), (48525381, 0), (487429, 0)], [(188328969878,
    0), (1123871735, 0), (8890633, 0), (120901, 0), (1994, 0)], [(22938568, 0), (403029, 0), (10010, 0), (246, 0),
    (4, 0)], [(2644, 0), (321, 0), (15, 0)]], 3, 4⟩, 1099511627776, 0, 34281642, ⟨[[(47814835125367, 0), (0,
    6388491167), (11567654, 0), (34635, 0), (386, 0)], [(3442501368, 0), (0, 1137104), (0, 555), (56, 0), (1, 0)],
    [(0, 724496), (0, 103), (3, 0)], [(154, 0)]], 3, 4⟩, 68719476736, 3574932,
    5070769029226993946380452329543785071897099622330299128307273279696599126664653515464788418292, lc0⟩) (.skip))
    (.skip)) (.skip)) (.skip))))
theorem c51 : checkC job ⟨6, 8, 8, 10, 9, 13⟩ 1 25 lims t51 944 48 32 69 3 256 = true := by decide +kernel

def t52 : CTree :=
  .sy (.sx (.sy (.sx (.leaf ⟨2311, 16, 41, 355, 16, 766, ⟨[[(412316860416, 0)], [(352187318272, 0)]], 3, 4⟩, ⟨[[(0,
    85034064791), (3537038856213, 0), (30191866788, 0), (456807534, 0), (7277083, 0)], [(120180353586, 0),
    (2136636387, 0), (37568748, 0), (682617, 0), (25372, 0)], [(17479673, 0), (543914, 0), (9733, 0), (1006, 0),
    (119, 0)], [(0, 4019), (0, 383), (11, 0), (4, 0)]], 3, 4⟩, 1099511627776, 0, 160051880, ⟨[[(48776298934327, 0),
    (0, 19472922209), (58148719, 0), (0, 70272), (876, 0)], [(6641145360, 0), (0, 3805897), (0, 46691), (0, 7), (3,
    0)], [(0, 2606266), (0, 2505), (15, 0)], [(1047, 0), (1, 0)]], 3, 4⟩, 68719476736, 48844568,
    3122597856155199159951974550868589467066011617959465832005913376629213809374758500100695000392, lc0⟩) (.leaf
    ⟨2342, 16, 41, 348, 16, 730, ⟨[[(137438953472, 0)], [(352187318272, 0)]], 3, 4⟩, ⟨[[(415938430047, 0),
    (3570750837180, 0), (32315371970, 0), (511608861, 0), (10736360, 0)], [(117604176507, 0), (2126315317, 0),
    (38336335, 0), (1005165, 0), (60584, 0)], [(15240934, 0), (427878, 0), (20146, 0), (3069, 0), (289, 0)], [(0,
    5907), (0, 198), (75, 0), (11, 0), (1, 0)]], 3, 4⟩, 1099511627776, 0, 296768931, ⟨[[(48786397922006, 0), (0,
    19366338052), (61244417, 0), (19977, 0), (4530, 0)], [(6437625027, 0), (0, 5109146), (0, 46987), (296, 0), (13,
    0)], [(0, 2534110), (0, 2144), (21, 0)], [(1003, 0), (1, 0)]], 3, 4⟩, 68719476736, 156768335,
    3672729190854230683061465013553229064926305788833393746215135270583554218503144751665206782691, lc0⟩)) (.sx (.sy
    (.leaf ⟨2311, 16, 41, 510, 16, 1056, ⟨[[(412316860416, 0)], [(352187318272, 0)]], 3, 4⟩, ⟨[[(79813568201, 0),
    (2646691360371, 0), (12924722583, 0), (112527816, 0), (1423499, 0)], [(180088825030, 0), (1744049493, 0),
    (17971491, 0), (296104, 0), (9320, 0)], [(27963653, 0), (522946, 0), (16760, 0), (1012, 0), (43, 0)], [(0, 6721),
    (144, 0), (53, 0), (3, 0)]], 3, 4⟩, 1099511627776, 0, 110953467, ⟨[[(48498134696697, 0), (0, 12882799377),
    (30340735, 0), (36059, 0), (1544, 0)], [(6574053987, 0), (0, 3726845), (0, 20499), (181, 0), (4, 0)], [(0,
    2639850), (0, 1404), (14, 0)], [(1067, 0), (1, 0)]], 3, 4⟩, 68719476736, 30981768,
    2656315889656304502549315285091817476844989463119319505013347992686664383895274135913217118428, lc0⟩) (.sx (.leaf
    ⟨4607, 16, 82, 674, 16, 1367, ⟨[[(412316860416, 0)], [(352187318272, 0)]], 3, 4⟩, ⟨[[(203561683313, 0),
    (3583021538933, 0), (19086738312, 0), (191657959, 0), (3188425, 0)], [(122808223457, 0), (1269726572, 0),
    (15567483, 0), (353859, 0), (12025, 0)], [(10435389, 0), (259605, 0), (12306, 0), (689, 0), (27, 0)], [(0, 639),
    (147, 0), (19, 0), (1, 0)]], 3, 4⟩, 1099511627776, 0, 37996399, ⟨[[(48315161101612, 0), (0, 9412059119),
    (19653556, 0), (59251, 0), (1078, 0)], [(3286124573, 0), (0, 1569097), (0, 3401), (100, 0), (1, 0)], [(0,
    669316), (0, 197), (4, 0)], [(136, 0)]], 3, 4⟩, 68719476736, 13323192,
    3242190986085160974896767501649859852529952175256685736484299890339888781490882104905981190030, lc0⟩) (.sy (.leaf
    ⟨4638, 16, 82, 1005, 16, 2020, ⟨[[(137438953472, 0)], [(352187318272, 0)]], 3, 4⟩, ⟨[[(0, 223893948807),
    (2694443210445, 0), (7286402175, 0), (38386872, 0), (351120, 0)], [(181533835325, 0), (940066123, 0), (6075573,
    0), (77734, 0), (1362, 0)], [(14568879, 0), (198433, 0), (5562, 0), (157, 0), (3, 0)], [(0, 888), (149, 0), (9,
    0)]], 3, 4⟩, 1099511627776, 0, 17639471, ⟨[[(48359273178851, 0), (0, 6235149392), (9605771, 0), (29192, 0), (312,
    0)], [(3235253620, 0), (0, 1087311), (0, 410), (45, 0)], [(0, 657811), (0, 92), (2, 0)], [(133, 0)]], 3, 4⟩,
    68719476736, 2837034,
    3552731763815040205128735646488284034893139952580224086384242487137050297511705543355061089201, lc0⟩) (.skip))))
    (.sy (.sx (.leaf ⟨4669, 16, 82, 683, 16, 1381, ⟨[[(0, 137438953472)], [(352187318272, 0)]], 3, 4⟩, ⟨[[(0,
    388312041224), (3629146316121, 0), (18740164937, 0), (183845476, 0), (3102003, 0)], [(120320124369, 0),
    (1192908165, 0), (14040671, 0), (331657, 0), (11699, 0)], [(8660471, 0), (201350, 0), (11121, 0), (661, 0), (26,
    0)], [(0, 1049), (131, 0), (18, 0), (1, 0)]], 3, 4⟩, 1099511627776, 0, 37805873, ⟨[[(48496701262836, 0), (0,
    9332819491), (19496170, 0), (73602, 0), (1239, 0)], [(3201355013, 0), (0, 1587034), (0, 2176), (117, 0), (2, 0)],
    [(0, 645015), (0, 163), (4, 0)], [(129, 0)]], 3, 4⟩, 68719476736, 14627060,
    3819486633797588106001628222223828070771205854752421053508251748212344350260341809430257217987, lc0⟩) (.sy (.leaf
    ⟨4700, 16, 82, 1025, 16, 2056, ⟨[[(0, 412316860416)], [(352187318272, 0)]], 3, 4⟩, ⟨[[(0, 540602789768),
    (2744173118468, 0), (7169707118, 0), (36904662, 0), (342684, 0)], [(178859378080, 0), (885105641, 0), (5504529,
    0), (73457, 0), (1328, 0)], [(11998221, 0), (155955, 0), (5118, 0), (151, 0), (3, 0)], [(0, 1454), (138, 0), (9,
    0)]], 3, 4⟩, 1099511627776, 0, 17951422, ⟨[[(48544465346687, 0), (0, 6153452761), (9455698, 0), (33161, 0), (336,
    0)], [(3152937544, 0), (0, 1078618), (185, 0), (50, 0)], [(0, 633898), (0, 69), (2, 0)], [(126, 0)]], 3, 4⟩,
    68719476736, 2974394,
    4063145364528394752730237769049432639975064851508283936585366752329062070640659691105507902195, lc0⟩) (.skip)))
    (.skip)))) (.sy (.sx (.sy (.leaf ⟨2373, 16, 41, 529, 16, 1091, ⟨[[(0, 137438953472)], [(352187318272, 0)]], 3,
    4⟩, ⟨[[(0, 449051859065), (2745490755951, 0), (12551774974, 0), (102398421, 0), (1299016, 0)], [(175067752584,
    0), (1557229642, 0), (14214253, 0), (244622, 0), (8614, 0)], [(19148927, 0), (245455, 0), (11876, 0), (922, 0),
    (40, 0)], [(0, 10367), (49, 0), (50, 0), (3, 0)]], 3, 4⟩, 1099511627776, 0, 96163848, ⟨[[(48869323154028, 0), (0,
    12583144715), (27603574, 0), (58091, 0), (1842, 0)], [(6250592894, 0), (0, 3837541), (0, 16282), (229, 0), (5,
    0)], [(0, 2454671), (0, 1153), (14, 0)], [(955, 0), (1, 0)]], 3, 4⟩, 68719476736, 33855552,
    2464208353983403253804180863782371972078911631170736813337975423671864210106029685691960719382, lc0⟩) (.sx (.leaf
    ⟨4730, 16, 82, 692, 16, 1399, ⟨[[(412316860416, 0)], [(352187318272, 0)]], 3, 4⟩, ⟨[[(463402463654, 0),
    (3675735747895, 0), (18301283596, 0), (174554586, 0), (2978900, 0)], [(117942308424, 0), (1115609842, 0),
    (12512625, 0), (308045, 0), (11251, 0)], [(7016149, 0), (149013, 0), (10038, 0), (630, 0), (25, 0)], [(0, 1355),
    (120, 0), (18, 0), (1, 0)]], 3, 4⟩, 1099511627776, 0, 37085402, ⟨[[(48688702892281, 0), (0, 9305190774),
    (18906352, 0), (78414, 0), (1280, 0)], [(3123922405, 0), (0, 1585681), (0, 1589), (121, 0), (2, 0)], [(0,
    622055), (0, 146), (4, 0)], [(122, 0)]], 3, 4⟩, 68719476736, 14840272,
    4235030324629626819921743035831817061808328187241346318159404911702360724106189382632001313102, lc0⟩) (.sy (.leaf
    ⟨4761, 16, 82, 1045, 16, 2096, ⟨[[(137438953472, 0)], [(352187318272, 0)]], 3, 4⟩, ⟨[[(257143143624, 0),
    (2791821455898, 0), (7010968333, 0), (35099581, 0), (330094, 0)], [(176136487024, 0), (828837450, 0), (4928551,
    0), (68819, 0), (1279, 0)], [(9604277, 0), (117796, 0), (4707, 0), (144, 0), (3, 0)], [(0, 1867), (130, 0), (8,
    0)]], 3, 4⟩, 1099511627776, 0, 17698991, ⟨[[(48734107955546, 0), (0, 6099735131), (9124040, 0), (34328, 0), (337,
    0)], [(3076920476, 0), (0, 1065609), (481, 0), (50, 0)], [(0, 611469), (0, 57), (2, 0)], [(119, 0)]], 3, 4⟩,
    68719476736, 2906033,
    4370697266135125953131062209317208235001934443232267196566902890767518752345914922818295499986, lc0⟩) (.skip))))
    (.sy (.sy (.leaf ⟨2404, 16, 41, 712, 16, 1439, ⟨[[(0, 412316860416)], [(352187318272, 0)]], 3, 4⟩,
    ⟨[[(422045283578, 0), (1883555710610, 0), (4450467108, 0), (20375031, 0), (176098, 0)], [(232246925377, 0),
    (1029197878, 0), (5381506, 0), (70332, 0), (1336, 0)], [(20818908, 0), (187279, 0), (8964, 0), (298, 0), (6, 0)],
    [(0, 12953), (451, 0), (34, 0), (1, 0)]], 3, 4⟩, 1099511627776, 0, 161141078, ⟨[[(48926676176502, 0), (0,
    9159967956), (17829256, 0), (82229, 0), (1277, 0)], [(6057452751, 0), (0, 3125285), (0, 1611), (246, 0), (3, 0)],
    [(0, 2377807), (0, 488), (16, 0)], [(913, 0), (1, 0)]], 3, 4⟩, 68719476736, 15534974,
    4382754099955706694121547697782708250805330127387051047670117046298093445416529960231540675363, lc0⟩) (.sx (.leaf
    ⟨4792, 16, 82, 1056, 16, 2118, ⟨[[(0, 137438953472)], [(352187318272, 0)]], 3, 4⟩, ⟨[[(248430086348, 0),
    (2815726966827, 0), (6920222369, 0), (34119966, 0), (322799, 0)], [(174815301862, 0), (800841195, 0), (4646522,
    0), (66493, 0), (1252, 0)], [(8483636, 0), (100556, 0), (4522, 0), (141, 0), (3, 0)], [(0, 2020), (127, 0), (8,
    0)]], 3, 4⟩, 1099511627776, 0, 17638695, ⟨[[(48828717300743, 0), (0, 6068555540), (8955690, 0), (34842, 0), (337,
    0)], [(3039317030, 0), (0, 1057832), (626, 0), (50, 0)], [(0, 600522), (0, 51), (2, 0)], [(116, 0)]], 3, 4⟩,
    68719476736, 2879590,
    4424385915473687250694204700913812986307108369544506857357293745817864517399658829645480735076, lc0⟩) (.skip)))
    (.skip))) (.skip))) (.skip)
theorem c52 : checkC job ⟨6, 8, 8, 10, 9, 13⟩ 1 25 lims t52 1040 48 32 69 3 256 = true := by decide +kernel

def t53 : CTree :=
  .sx (.leaf ⟨1195, 16, 20, 188, 16, 433, ⟨[[], [(343597383680, 0)]], 3, 4⟩, ⟨[[(0, 117389796482), (3645762439571,
    0), (45301727327, 0), (1060208777, 0), (21467497, 0)], [(106948284969, 0), (2963479428, 0), (71989898, 0),
    (1004147, 0), (0, 10872)], [(15104555, 0), (393852, 0), (0, 57965), (0, 5651), (12, 0)], [(0, 16308), (0, 3125),
    (0, 286), (0, 2), (3, 0)]], 3, 4⟩, 1099511627776, 0, 990595252, ⟨[[(50126650968164, 0), (0, 39810767968),
    (180680653, 0), (0, 426521), (0, 4482)], [(12405831826, 0), (0, 9319484), (0, 249269), (0, 800), (0, 10)], [(0,
    9122860), (0, 18295), (157, 0), (0, 1)], [(6812, 0), (23, 0)]], 3, 4⟩, 68719476736, 139423484,
    2354880312111683119778646452497191449768183347206146723349263591536158068282180015767849193211, lc0⟩) (.sy (.leaf
    ⟨1225, 16, 20, 296, 16, 667, ⟨[[], [(343597383680, 0)]], 3, 4⟩, ⟨[[(0, 125798165345), (2914198017517, 0),
    (17993968611, 0), (191008484, 0), (1667012, 0)], [(161748221393, 0), (2139458418, 0), (20618870, 0), (4124, 0),
    (480, 0)], [(14646730, 0), (0, 276794), (0, 41498), (0, 839), (63, 0)], [(0, 34151), (0, 2900), (0, 78), (5, 0),
    (1, 0)]], 3, 4⟩, 1099511627776, 0, 542929234, ⟨[[(50327076486360, 0), (0, 25116683038), (70486376, 0), (0,
    142235), (0, 539)], [(11828986886, 0), (0, 8050976), (0, 106097), (0, 263)], [(0, 8605280), (0, 9885), (55, 0)],
    [(6244, 0), (12, 0)]], 3, 4⟩, 68719476736, 40805260,
    983784114167506051027694797472737498980584171782869691115506603816338008666349313383402090061, lc0⟩) (.leaf
    ⟨1225, 16, 20, 288, 16, 615, ⟨[[], [(343597383680, 0)]], 3, 4⟩, ⟨[[(66883291131, 0), (2906698588216, 0),
    (20187768493, 0), (232108874, 0), (3811171, 0)], [(161665028569, 0), (2206194878, 0), (20912873, 0), (367990, 0),
    (42653, 0)], [(10560944, 0), (0, 697379), (0, 21156), (4228, 0), (462, 0)], [(0, 48047), (0, 2256), (237, 0),
    (38, 0), (3, 0)]], 3, 4⟩, 1099511627776, 0, 1124015063, ⟨[[(49934607388677, 0), (0, 24861875227), (75581248, 0),
    (0, 71021), (6712, 0)], [(11667986230, 0), (0, 12664168), (0, 130764), (431, 0), (37, 0)], [(0, 8752850), (0,
    8834), (72, 0), (1, 0)], [(6423, 0), (10, 0)]], 3, 4⟩, 68719476736, 401530563,
    3436757991606999150298590996071862409100645174168513649982195041510378499588374433191310511621, lc0⟩))
theorem c53 : checkC job ⟨6, 8, 8, 10, 9, 13⟩ 1 25 lims t53 1136 48 32 123 3 512 = true := by decide +kernel

def t54 : CTree :=
  .sx (.sy (.sx (.leaf ⟨2434, 16, 41, 370, 16, 797, ⟨[[(412316860416, 0)], [(352187318272, 0)]], 3, 4⟩,
    ⟨[[(158128335278, 0), (3716696446701, 0), (27895563300, 0), (358506221, 0), (5112400, 0)], [(111400569476, 0),
    (1697339827, 0), (21737638, 0), (294866, 0), (18209, 0)], [(8144144, 0), (4312, 0), (0, 6836), (693, 0), (104,
    0)], [(0, 7106), (0, 500), (13, 0), (4, 0)]], 3, 4⟩, 1099511627776, 0, 130647391, ⟨[[(49543437283459, 0), (0,
    19137867673), (48486491, 0), (0, 59411), (1233, 0)], [(6041523947, 0), (0, 4240970), (0, 40094), (16, 0), (4,
    0)], [(0, 2260801), (0, 1926), (11, 0)], [(843, 0), (1, 0)]], 3, 4⟩, 68719476736, 57070715,
    2230372684140627573316453671652090054164249402028765850880852377399733745349212186214291035935, lc0⟩) (.leaf
    ⟨2465, 16, 41, 368, 16, 771, ⟨[[(137438953472, 0)], [(352187318272, 0)]], 3, 4⟩, ⟨[[(0, 507641960545),
    (3752720549393, 0), (28964416442, 0), (384959790, 0), (7917656, 0)], [(109075116352, 0), (1630871310, 0),
    (20542381, 0), (569266, 0), (48769, 0)], [(5691636, 0), (0, 108070), (4379, 0), (2555, 0), (241, 0)], [(0, 8150),
    (0, 235), (72, 0), (10, 0), (1, 0)]], 3, 4⟩, 1099511627776, 0, 243002613, ⟨[[(49533042580860, 0), (0,
    18914577152), (50080735, 0), (62737, 0), (5323, 0)], [(5854194567, 0), (0, 5320429), (0, 37195), (367, 0), (14,
    0)], [(0, 2202157), (0, 1618), (18, 0)], [(811, 0), (1, 0)]], 3, 4⟩, 68719476736, 164742580,
    2761451088352741708690624467517961186401442755307538949928026164573355710598563287409231926642, lc0⟩)) (.sy (.sx
    (.leaf ⟨2434, 16, 41, 550, 16, 1135, ⟨[[(412316860416, 0)], [(352187318272, 0)]], 3, 4⟩, ⟨[[(0, 486174121362),
    (2842370848488, 0), (11951457721, 0), (89830752, 0), (1145872, 0)], [(170202335079, 0), (1368212749, 0),
    (10629664, 0), (197834, 0), (7825, 0)], [(11601536, 0), (29292, 0), (8517, 0), (847, 0), (36, 0)], [(0, 12145),
    (32, 0), (48, 0), (3, 0)]], 3, 4⟩, 1099511627776, 0, 78498850, ⟨[[(49245812586196, 0), (0, 12340781495),
    (24572533, 0), (62458, 0), (1807, 0)], [(5962693565, 0), (0, 3807059), (0, 13661), (227, 0), (5, 0)], [(0,
    2288480), (0, 990), (13, 0)], [(860, 0), (1, 0)]], 3, 4⟩, 68719476736, 31820959,
    2151554596364107918568803055831611719992520308856430989711785677243257450399710557375300352048, lc0⟩) (.sy (.leaf
    ⟨2465, 16, 41, 751, 16, 1521, ⟨[[(137438953472, 0)], [(352187318272, 0)]], 3, 4⟩, ⟨[[(94506763168, 0),
    (1967005600609, 0), (4220031520, 0), (17931722, 0), (159235, 0)], [(227898228277, 0), (899253231, 0), (4115848,
    0), (61158, 0), (1225, 0)], [(10934188, 0), (49476, 0), (7767, 0), (276, 0), (5, 0)], [(0, 14497), (441, 0), (32,
    0), (1, 0)]], 3, 4⟩, 1099511627776, 0, 164560649, ⟨[[(49301488687259, 0), (0, 8897580639), (15550574, 0), (75935,
    0), (1119, 0)], [(5781937313, 0), (0, 3006256), (0, 696), (219, 0), (3, 0)], [(0, 2218472), (0, 405), (14, 0)],
    [(823, 0), (1, 0)]], 3, 4⟩, 68719476736, 12869326,
    3704314051506259153323854382104398601311712842616590057522014244387300367539141632198446151005, lc0⟩) (.sx (.leaf
    ⟨4915, 16, 82, 1102, 16, 2215, ⟨[[(0, 137438953472)], [(352187318272, 0)]], 3, 4⟩, ⟨[[(238300830091, 0),
    (2908001621910, 0), (6491039990, 0), (29913195, 0), (290688, 0)], [(169570207865, 0), (691264557, 0), (3591423,
    0), (57823, 0), (1135, 0)], [(4522991, 0), (43902, 0), (3924, 0), (128, 0), (2, 0)], [(0, 2341), (121, 0), (7,
    0)]], 3, 4⟩, 1099511627776, 0, 18418900, ⟨[[(49207729577496, 0), (0, 5966448591), (8047221, 0), (33232, 0), (308,
    0)], [(2899098689, 0), (0, 1025595), (797, 0), (46, 0)], [(0, 559746), (0, 40), (2, 0)], [(105, 0)]], 3, 4⟩,
    68719476736, 2543343,
    3874896505600263835990480017811805149152511704349229843267568765740898475247804460785330835194, lc0⟩) (.skip))))
    (.sx (.sy (.leaf ⟨2434, 16, 41, 731, 16, 1478, ⟨[[(412316860416, 0)], [(352187318272, 0)]], 3, 4⟩,
    ⟨[[(89270444666, 0), (1924574771146, 0), (4341005057, 0), (19168875, 0), (167614, 0)], [(229964163702, 0),
    (963198793, 0), (4727446, 0), (65477, 0), (1279, 0)], [(15626468, 0), (112677, 0), (8292, 0), (286, 0), (6, 0)],
    [(0, 13969), (441, 0), (33, 0), (1, 0)]], 3, 4⟩, 1099511627776, 0, 163171556, ⟨[[(49108959114363, 0), (0,
    9019949210), (16795757, 0), (81461, 0), (1223, 0)], [(5918118714, 0), (0, 3069311), (0, 805), (238, 0), (3, 0)],
    [(0, 2297577), (0, 432), (16, 0)], [(867, 0), (1, 0)]], 3, 4⟩, 68719476736, 14288337,
    4109969896107222189049542187308232234851915279519381320315892935347120145277017264627968782427, lc0⟩) (.sx (.leaf
    ⟨4853, 16, 82, 1079, 16, 2165, ⟨[[(412316860416, 0)], [(352187318272, 0)]], 3, 4⟩, ⟨[[(0, 35351519519),
    (2862767554370, 0), (6717804405, 0), (32055692, 0), (307016, 0)], [(172197134050, 0), (745431753, 0), (4102110,
    0), (61985, 0), (1194, 0)], [(6398397, 0), (69817, 0), (4194, 0), (134, 0), (3, 0)], [(0, 2233), (123, 0), (8,
    0)]], 3, 4⟩, 1099511627776, 0, 18134434, ⟨[[(49014509351668, 0), (0, 6007562113), (8570477, 0), (35016, 0), (329,
    0)], [(2967778707, 0), (0, 1041068), (823, 0), (50, 0)], [(0, 579794), (0, 42), (2, 0)], [(110, 0)]], 3, 4⟩,
    68719476736, 2780457,
    4303095881222348029703024518258250558314044190117189298582260853150077365328825767296194870852, lc0⟩) (.skip)))
    (.skip)))) (.sy (.sy (.sx (.leaf ⟨2496, 16, 41, 571, 16, 1185, ⟨[[(0, 137438953472)], [(352187318272, 0)]], 3,
    4⟩, ⟨[[(544059452219, 0), (2934085842532, 0), (11187321870, 0), (76252019, 0), (1000750, 0)], [(165342852853, 0),
    (1186747033, 0), (7442502, 0), (160986, 0), (7189, 0)], [(5435891, 0), (0, 126797), (6528, 0), (797, 0), (33,
    0)], [(0, 12562), (57, 0), (47, 0), (3, 0)]], 3, 4⟩, 1099511627776, 0, 80538624, ⟨[[(49646036830287, 0), (0,
    12188604403), (21255779, 0), (47272, 0), (1463, 0)], [(5700508498, 0), (0, 3678817), (0, 13005), (177, 0), (4,
    0)], [(0, 2133783), (0, 904), (10, 0)], [(774, 0), (1, 0)]], 3, 4⟩, 68719476736, 25440674,
    2418616221380227174444068343754639619366191206699989177874900504001871092313378070797420239052, lc0⟩) (.sy (.leaf
    ⟨2527, 16, 41, 791, 16, 1612, ⟨[[(0, 412316860416)], [(352187318272, 0)]], 3, 4⟩, ⟨[[(539882879650, 0),
    (2048440102632, 0), (3939139796, 0), (15397740, 0), (143932, 0)], [(223532932171, 0), (776563163, 0), (3014118,
    0), (54037, 0), (1131, 0)], [(2972701, 0), (0, 48264), (7007, 0), (258, 0), (5, 0)], [(0, 14530), (446, 0), (30,
    0), (1, 0)]], 3, 4⟩, 1099511627776, 0, 162909804, ⟨[[(49694237152896, 0), (0, 8704102924), (12872908, 0), (57468,
    0), (849, 0)], [(5530221081, 0), (0, 2873827), (0, 1761), (165, 0), (2, 0)], [(0, 2071107), (0, 407), (11, 0)],
    [(742, 0)]], 3, 4⟩, 68719476736, 9395153,
    3357379319264043125425394391488070975624478396987002013400301228450325050857821559721769114662, lc0⟩) (.sx (.leaf
    ⟨5038, 16, 82, 1151, 16, 2326, ⟨[[(0, 137438953472)], [(352187318272, 0)]], 3, 4⟩, ⟨[[(215768361210, 0),
    (2998212669775, 0), (5997513539, 0), (25667423, 0), (260801, 0)], [(164602303378, 0), (590010896, 0), (2691192,
    0), (50966, 0), (1030, 0)], [(1389638, 0), (4471, 0), (3528, 0), (118, 0), (2, 0)], [(0, 2351), (118, 0), (7,
    0)]], 3, 4⟩, 1099511627776, 0, 17839270, ⟨[[(49592435610983, 0), (0, 5890991208), (6848153, 0), (27181, 0), (250,
    0)], [(2772152506, 0), (0, 994069), (459, 0), (37, 0)], [(0, 522827), (0, 44), (2, 0)], [(94, 0)]], 3, 4⟩,
    68719476736, 2003591,
    2647726216017195251101736163257937187865680670880794380328774394788887545704165823940963960818, lc0⟩) (.sy (.leaf
    ⟨5069, 16, 82, 1585, 16, 3175, ⟨[[(0, 412316860416)], [(352187318272, 0)]], 3, 4⟩, ⟨[[(381721413590, 0),
    (2072310738052, 0), (2101084800, 0), (5055208, 0), (29316, 0)], [(223761957538, 0), (399066341, 0), (1110007, 0),
    (11938, 0), (116, 0)], [(1067438, 0), (23896, 0), (1779, 0), (27, 0)], [(0, 2220), (127, 0), (3, 0)]], 3, 4⟩,
    1099511627776, 0, 27957218, ⟨[[(49618398840914, 0), (0, 4228768982), (4242978, 0), (15913, 0), (98, 0)],
    [(2729975322, 0), (0, 711914), (1049, 0), (21, 0)], [(0, 514354), (2, 0), (1, 0)], [(93, 0)]], 3, 4⟩,
    68719476736, 630888,
    4252343835091627311915087223731991382448787495690617007900113136933418020636434420790705563618, lc0⟩) (.skip)))))
    (.sx (.sy (.leaf ⟨2496, 16, 41, 771, 16, 1566, ⟨[[(0, 137438953472)], [(352187318272, 0)]], 3, 4⟩,
    ⟨[[(430779262276, 0), (2008596604589, 0), (4085656398, 0), (16671453, 0), (151274, 0)], [(225784171511, 0),
    (836955769, 0), (3545499, 0), (57369, 0), (1176, 0)], [(6720575, 0), (0, 3639), (7353, 0), (267, 0), (5, 0)],
    [(0, 14645), (444, 0), (31, 0), (1, 0)]], 3, 4⟩, 1099511627776, 0, 164866888, ⟨[[(49498069865325, 0), (0,
    8796774427), (14187218, 0), (66883, 0), (982, 0)], [(5653253714, 0), (0, 2940538), (0, 1164), (192, 0), (2, 0)],
    [(0, 2143003), (0, 403), (12, 0)], [(781, 0)]], 3, 4⟩, 68719476736, 11397186,
    3581069396013395811639987485838931447851041427211928647052549528793085723721919881775211749216, lc0⟩) (.sx (.leaf
    ⟨4976, 16, 82, 1126, 16, 2269, ⟨[[(412316860416, 0)], [(352187318272, 0)]], 3, 4⟩, ⟨[[(508310951172, 0),
    (2953384231706, 0), (6249976805, 0), (27775365, 0), (275092, 0)], [(167052816914, 0), (639399143, 0), (3121780,
    0), (54157, 0), (1080, 0)], [(2857301, 0), (22368, 0), (3707, 0), (123, 0), (2, 0)], [(0, 2372), (120, 0), (7,
    0)]], 3, 4⟩, 1099511627776, 0, 18192598, ⟨[[(49399445673587, 0), (0, 5929123585), (7448280, 0), (30302, 0), (279,
    0)], [(2834846272, 0), (0, 1010088), (642, 0), (42, 0)], [(0, 540978), (0, 41), (2, 0)], [(99, 0)]], 3, 4⟩,
    68719476736, 2261977,
    3180335038587900393839833341751952114440027909629436013647205959076321564325072046067826167038, lc0⟩) (.sy (.sx
    (.leaf ⟨10060, 16, 165, 2271, 16, 4546, ⟨[[(0, 171798691840)], [(354334801920, 0)]], 3, 4⟩, ⟨[[(0, 366735103520),
    (2985564928657, 0), (3183558838, 0), (7587546, 0), (41219, 0)], [(166765152743, 0), (317548084, 0), (866929, 0),
    (8326, 0), (82, 0)], [(1174389, 0), (10075, 0), (602, 0), (9, 0)], [(0, 482), (21, 0), (1, 0)]], 3, 4⟩,
    1099511627776, 0, 2857684, ⟨[[(49421586681497, 0), (0, 2912420486), (2060942, 0), (5081, 0), (22, 0)],
    [(1392527413, 0), (0, 246326), (226, 0), (3, 0)], [(0, 131936)], [(12, 0)]], 3, 4⟩, 68719476736, 132071,
    2974267229738969640520734294341155449325424437858909288531595468454984853626002187042321789144, lc0⟩) (.skip))
    (.skip)))) (.sy (.sx (.sy (.leaf ⟨5038, 16, 82, 1564, 16, 3127, ⟨[[(0, 137438953472)], [(352187318272, 0)]], 3,
    4⟩, ⟨[[(307263271749, 0), (2052750874172, 0), (2144032159, 0), (5239984, 0), (29996, 0)], [(224935548133, 0),
    (415231842, 0), (1182664, 0), (12235, 0), (119, 0)], [(2006930, 0), (29711, 0), (1815, 0), (27, 0)], [(0, 2235),
    (129, 0), (3, 0)]], 3, 4⟩, 1099511627776, 0, 28262140, ⟨[[(49520658676934, 0), (0, 4245116816), (4489491, 0),
    (17210, 0), (106, 0)], [(2760002413, 0), (0, 716391), (1192, 0), (23, 0)], [(0, 523063), (7, 0), (1, 0)], [(95,
    0)]], 3, 4⟩, 68719476736, 694581,
    4945790735038262327322608815731440591701663470399422376902593367517578994934085245726948228309, lc0⟩) (.skip))
    (.skip)) (.skip)))) (.sy (.sx (.sy (.sx (.sy (.sx (.leaf ⟨9998, 16, 165, 2246, 16, 4490, ⟨[[(0, 34359738368)],
    [(354334801920, 0)]], 3, 4⟩, ⟨[[(0, 102741712538), (2963672281631, 0), (3249901004, 0), (7874386, 0), (42339,
    0)], [(168052957185, 0), (330694627, 0), (926137, 0), (8578, 0), (84, 0)], [(1571086, 0), (12609, 0), (617, 0),
    (10, 0)], [(0, 482), (21, 0), (1, 0)]], 3, 4⟩, 1099511627776, 0, 2796493, ⟨[[(49326031069808, 0), (0,
    2920657992), (2145254, 0), (5327, 0), (23, 0)], [(1408287335, 0), (0, 247943), (243, 0), (4, 0)], [(0, 134200)],
    [(12, 0)]], 3, 4⟩, 68719476736, 131481,
    3375831066210010805472855280113034909312395213240691154465934225582831054677975097414768879037, lc0⟩) (.skip))
    (.skip)) (.skip)) (.skip)) (.skip)) (.skip)))
theorem c54 : checkC job ⟨6, 8, 8, 10, 9, 13⟩ 1 25 lims t54 1136 48 32 129 3 512 = true := by decide +kernel

def t55 : CTree :=
  .sy (.leaf ⟨1255, 16, 20, 298, 16, 642, ⟨[[], [(343597383680, 0)]], 3, 4⟩, ⟨[[(524593408433, 0), (2997679670450,
    0), (18827909870, 0), (185572383, 0), (3005506, 0)], [(157340367150, 0), (1929957103, 0), (11863384, 0), (183707,
    0), (40651, 0)], [(2463655, 0), (0, 1047185), (0, 28633), (4116, 0), (443, 0)], [(0, 46564), (0, 2006), (238, 0),
    (36, 0), (2, 0)]], 3, 4⟩, 1099511627776, 0, 933618786, ⟨[[(50341349555735, 0), (0, 24537093391), (66455470, 0),
    (0, 107396), (4325, 0)], [(11192134358, 0), (0, 11991536), (0, 118519), (143, 0), (24, 0)], [(0, 8181534), (0,
    7901), (52, 0), (1, 0)], [(5807, 0), (9, 0)]], 3, 4⟩, 68719476736, 281920948,
    2997374406132028611630107231635939987195275652563313065082178085196101278453318117107062320717, lc0⟩) (.sy (.sx
    (.leaf ⟨2557, 16, 41, 594, 16, 1241, ⟨[[(412316860416, 0)], [(352187318272, 0)]], 3, 4⟩, ⟨[[(399249264938, 0),
    (3024923536636, 0), (10345693810, 0), (62540619, 0), (876430, 0)], [(160758829314, 0), (1021940641, 0), (4706093,
    0), (132313, 0), (6758, 0)], [(624383, 0), (0, 235036), (5232, 0), (759, 0), (30, 0)], [(0, 12200), (82, 0), (45,
    0), (2, 0)]], 3, 4⟩, 1099511627776, 0, 78454240, ⟨[[(50033526991744, 0), (0, 12002791480), (18203833, 0), (31134,
    0), (1112, 0)], [(5462759657, 0), (0, 3518769), (0, 12548), (126, 0), (3, 0)], [(0, 1995673), (0, 828), (7, 0)],
    [(700, 0), (1, 0)]], 3, 4⟩, 68719476736, 19295007,
    2476822808896986783695595400528743280475006249403803496685889934962752053086114425231386001019, lc0⟩) (.sy (.leaf
    ⟨2588, 16, 41, 832, 16, 1709, ⟨[[(137438953472, 0)], [(352187318272, 0)]], 3, 4⟩, ⟨[[(0, 3583359941),
    (2126912940134, 0), (3627991971, 0), (12839201, 0), (131065, 0)], [(219096065179, 0), (664687123, 0), (2050883,
    0), (48145, 0), (1059, 0)], [(0, 3205412), (0, 119351), (6337, 0), (242, 0), (4, 0)], [(0, 13948), (432, 0), (28,
    0), (1, 0)]], 3, 4⟩, 1099511627776, 0, 150461260, ⟨[[(50079784267167, 0), (0, 8520458759), (10448030, 0), (39073,
    0), (602, 0)], [(5303679499, 0), (0, 2729266), (0, 3040), (113, 0), (1, 0)], [(0, 1939085), (0, 419), (7, 0)],
    [(673, 0)]], 3, 4⟩, 68719476736, 6962613,
    2765649469367855670732000941777557707541589324527498189945682570404218514951133005166397654808, lc0⟩) (.leaf
    ⟨2588, 16, 41, 827, 16, 1676, ⟨[[(137438953472, 0)], [(352187318272, 0)]], 3, 4⟩, ⟨[[(475847652600, 0),
    (2130022256475, 0), (3816724133, 0), (16432542, 0), (196140, 0)], [(218860606172, 0), (682085731, 0), (3119971,
    0), (78078, 0), (1566, 0)], [(0, 3564898), (0, 12834), (11518, 0), (359, 0), (6, 0)], [(0, 9985), (836, 0), (42,
    0), (1, 0)]], 3, 4⟩, 1099511627776, 0, 237838643, ⟨[[(49985041428396, 0), (0, 8428631757), (12795413, 0), (77554,
    0), (1003, 0)], [(5272685167, 0), (0, 2799438), (2149, 0), (206, 0), (2, 0)], [(0, 1942703), (0, 207), (13, 0)],
    [(678, 0)]], 3, 4⟩, 68719476736, 10570909,
    5213502835447134745504993538425091299487336714912835150628946461780271402175974693387229107366, lc0⟩))) (.sx (.sy
    (.leaf ⟨2557, 16, 41, 812, 16, 1661, ⟨[[(412316860416, 0)], [(352187318272, 0)]], 3, 4⟩, ⟨[[(384814170999, 0),
    (2089440661303, 0), (3788673619, 0), (14134177, 0), (137392, 0)], [(221468598510, 0), (719593617, 0), (2520495,
    0), (51078, 0), (1094, 0)], [(0, 326747), (0, 86306), (6690, 0), (251, 0), (5, 0)], [(0, 14280), (444, 0), (30,
    0), (1, 0)]], 3, 4⟩, 1099511627776, 0, 158280166, ⟨[[(49884379820653, 0), (0, 8603411113), (11604922, 0), (47895,
    0), (718, 0)], [(5416472539, 0), (0, 2800917), (0, 2411), (138, 0), (2, 0)], [(0, 2004663), (0, 414), (9, 0)],
    [(707, 0)]], 3, 4⟩, 68719476736, 8055756,
    3073130158592073429329929953652686002455626584875666632221746910887695071870204713324266176620, lc0⟩) (.sx (.leaf
    ⟨5099, 16, 82, 1176, 16, 2385, ⟨[[(412316860416, 0)], [(352187318272, 0)]], 3, 4⟩, ⟨[[(0, 95734264860),
    (3041790970211, 0), (5736025216, 0), (23589645, 0), (247922, 0)], [(162180074161, 0), (543179645, 0), (2293899,
    0), (48136, 0), (986, 0)], [(106409, 0), (0, 10618), (3365, 0), (113, 0), (2, 0)], [(0, 2302), (116, 0), (7,
    0)]], 3, 4⟩, 1099511627776, 0, 17671354, ⟨[[(49784079575478, 0), (0, 5858102991), (6226420, 0), (23519, 0), (218,
    0)], [(2713500625, 0), (0, 977727), (208, 0), (32, 0)], [(0, 505787), (0, 48), (1, 0)], [(90, 0)]], 3, 4⟩,
    68719476736, 1740372,
    2630030004972045465714524370750278304402468890581952188902404530432306891133691245761198271161, lc0⟩) (.sy (.leaf
    ⟨5130, 16, 82, 1628, 16, 3274, ⟨[[(137438953472, 0)], [(352187318272, 0)]], 3, 4⟩, ⟨[[(0, 121061392418),
    (2111402026817, 0), (2013188807, 0), (4689782, 0), (28069, 0)], [(221470748930, 0), (368015440, 0), (971945, 0),
    (11386, 0), (111, 0)], [(0, 638704), (13340, 0), (1708, 0), (26, 0)], [(0, 2182), (124, 0), (3, 0)]], 3, 4⟩,
    1099511627776, 0, 26911964, ⟨[[(49809803947447, 0), (0, 4193231847), (3774564, 0), (13459, 0), (83, 0)],
    [(2672712958, 0), (0, 701981), (778, 0), (18, 0)], [(0, 497809), (0, 7), (1, 0)], [(88, 0)]], 3, 4⟩, 68719476736,
    548546, 2812142354706186304893295521072062155940446331915855640061478111789748331485906967481132599902, lc0⟩)
    (.sx (.leaf ⟨10307, 16, 165, 2361, 16, 4729, ⟨[[(377957122048, 0)], [(354334801920, 0)]], 3, 4⟩, ⟨[[(29000914236,
    0), (3072213654420, 0), (2999283655, 0), (7383594, 0), (45415, 0)], [(161584372992, 0), (274088064, 0), (796114,
    0), (9329, 0), (90, 0)], [(0, 136854), (9285, 0), (710, 0), (10, 0)], [(0, 323), (26, 0), (1, 0)]], 3, 4⟩,
    1099511627776, 0, 3207807, ⟨[[(49761729490811, 0), (0, 2863733886), (1942948, 0), (5181, 0), (21, 0)],
    [(1329816441, 0), (0, 237230), (269, 0), (3, 0)], [(0, 123454), (1, 0)], [(11, 0)]], 3, 4⟩, 68719476736, 125985,
    3173635020471005162366217286347141281951934098058841190376720662889894516725966156746475068005, lc0⟩) (.skip)))))
    (.sy (.sx (.leaf ⟨5161, 16, 82, 1192, 16, 2394, ⟨[[(0, 137438953472)], [(352187318272, 0)]], 3, 4⟩, ⟨[[(0,
    292031563924), (3085857991783, 0), (5790601416, 0), (27968427, 0), (351495, 0)], [(159429047286, 0), (516807879,
    0), (2914184, 0), (72012, 0), (1392, 0)], [(0, 986263), (27598, 0), (5495, 0), (159, 0), (3, 0)], [(0, 1275),
    (202, 0), (9, 0)]], 3, 4⟩, 1099511627776, 0, 26363726, ⟨[[(49883087040031, 0), (0, 5741627557), (7281166, 0),
    (37772, 0), (312, 0)], [(2640586573, 0), (0, 955074), (1810, 0), (49, 0)], [(0, 489713), (2, 0), (2, 0)], [(86,
    0)]], 3, 4⟩, 68719476736, 2352724,
    4893121263439562846768159558265110667952383226806516744235466468648419179557251627706891558234, lc0⟩) (.skip))
    (.skip))))
theorem c55 : checkC job ⟨6, 8, 8, 10, 9, 13⟩ 1 25 lims t55 2416 48 64 123 3 512 = true := by decide +kernel

def t56 : CTree :=
  .sy (.sy (.sx (.leaf ⟨2619, 16, 41, 616, 16, 1298, ⟨[[(0, 137438953472)], [(352187318272, 0)]], 3, 4⟩, ⟨[[(0,
    296980700298), (3106739701856, 0), (9459675044, 0), (48667774, 0), (753343, 0)], [(156023834926, 0), (875213540,
    0), (2342974, 0), (104688, 0), (6360, 0)], [(0, 2963685), (0, 309019), (3831, 0), (706, 0), (28, 0)], [(0,
    11459), (78, 0), (41, 0), (2, 0)]], 3, 4⟩, 1099511627776, 0, 69463320, ⟨[[(50426892337708, 0), (0, 11853480051),
    (15569954, 0), (14984, 0), (782, 0)], [(5241070307, 0), (0, 3335084), (0, 12270), (79, 0), (2, 0)], [(0,
    1867520), (0, 762), (5, 0)], [(635, 0)]], 3, 4⟩, 68719476736, 13772926,
    2364358750178711240992898614799102585470840045428128824442309803394279799698298461565781646838, lc0⟩) (.leaf
    ⟨2650, 16, 41, 622, 16, 1283, ⟨[[(0, 412316860416)], [(352187318272, 0)]], 3, 4⟩, ⟨[[(50912865712, 0),
    (3151262956725, 0), (9652141005, 0), (66690504, 0), (1667735, 0)], [(153362867814, 0), (813901245, 0), (4537391,
    0), (310664, 0), (13728, 0)], [(0, 5871936), (0, 194709), (21604, 0), (1545, 0), (52, 0)], [(0, 8469), (772, 0),
    (88, 0), (4, 0)]], 3, 4⟩, 1099511627776, 0, 166397252, ⟨[[(50431636630076, 0), (0, 11670105674), (17478169, 0),
    (88674, 0), (1907, 0)], [(5080375511, 0), (0, 3673484), (0, 5940), (254, 0), (4, 0)], [(0, 1818261), (0, 531),
    (11, 0)], [(612, 0)]], 3, 4⟩, 68719476736, 28580532,
    4129125695443295098804356611711327188688055428935900374695611782735802075372456571342284184032, lc0⟩)) (.sx
    (.leaf ⟨2619, 16, 41, 610, 16, 1251, ⟨[[(0, 137438953472)], [(352187318272, 0)]], 3, 4⟩, ⟨[[(91108903817, 0),
    (3109516858781, 0), (10178221108, 0), (75091592, 0), (1761508, 0)], [(155548075681, 0), (888206992, 0), (5882005,
    0), (334191, 0), (14310, 0)], [(0, 4322764), (0, 151831), (23463, 0), (1629, 0), (55, 0)], [(0, 8628), (838, 0),
    (94, 0), (4, 0)]], 3, 4⟩, 1099511627776, 0, 182073582, ⟨[[(50230967830931, 0), (0, 11718143629), (19665596, 0),
    (117849, 0), (2378, 0)], [(5181711859, 0), (0, 3770972), (0, 3902), (329, 0), (6, 0)], [(0, 1878441), (0, 497),
    (15, 0)], [(643, 0), (1, 0)]], 3, 4⟩, 68719476736, 35207603,
    5134056302375214937248332958888166078677780797769687072317228136469986686936756225809051758023, lc0⟩) (.sy (.sx
    (.leaf ⟨5284, 16, 82, 1241, 16, 2521, ⟨[[(0, 137438953472)], [(352187318272, 0)]], 3, 4⟩, ⟨[[(255226013104, 0),
    (3165338119054, 0), (5194601633, 0), (23274217, 0), (320201, 0)], [(154679616640, 0), (430745478, 0), (2120967,
    0), (64390, 0), (1270, 0)], [(0, 2875096), (0, 752), (4872, 0), (144, 0), (2, 0)], [(0, 1289), (179, 0), (8,
    0)]], 3, 4⟩, 1099511627776, 0, 22660163, ⟨[[(50281106292974, 0), (0, 5737489853), (5502381, 0), (23705, 0), (206,
    0)], [(2537094742, 0), (0, 940484), (506, 0), (31, 0)], [(0, 459236), (0, 31), (1, 0)], [(78, 0)]], 3, 4⟩,
    68719476736, 1581858,
    3329306819453588098744556765107992292228331736744701371026176673876778563132162227857552836991, lc0⟩) (.sy (.leaf
    ⟨5315, 16, 82, 1746, 16, 3520, ⟨[[(0, 412316860416)], [(352187318272, 0)]], 3, 4⟩, ⟨[[(0, 191341325296),
    (2227549489129, 0), (1856265775, 0), (4937078, 0), (36702, 0)], [(214265489676, 0), (298193670, 0), (1010185, 0),
    (15182, 0), (142, 0)], [(0, 4396156), (30148, 0), (2366, 0), (32, 0)], [(0, 501), (174, 0), (4, 0)]], 3, 4⟩,
    1099511627776, 0, 33881978, ⟨[[(50305205928335, 0), (0, 4049846519), (3254750, 0), (12421, 0), (71, 0)],
    [(2500001013, 0), (0, 660084), (839, 0), (15, 0)], [(0, 452179), (3, 0), (1, 0)], [(77, 0)]], 3, 4⟩, 68719476736,
    438410, 2492901779995803495688384664381886270395969182755881077585484632613261629540971165991394585230, lc0⟩)
    (.sx (.leaf ⟨10679, 16, 165, 2497, 16, 5014, ⟨[[(0, 446676598784)], [(354334801920, 0)]], 3, 4⟩,
    ⟨[[(539907224056, 0), (3194906715778, 0), (2740192699, 0), (7807659, 0), (58435, 0)], [(154047464991, 0),
    (220407562, 0), (840035, 0), (12219, 0), (112, 0)], [(0, 1477849), (16768, 0), (962, 0), (13, 0)], [(15, 0), (35,
    0), (1, 0)]], 3, 4⟩, 1099511627776, 0, 3888538, ⟨[[(50257458697159, 0), (0, 2806324869), (1738399, 0), (4980, 0),
    (19, 0)], [(1243697578, 0), (0, 225475), (287, 0), (3, 0)], [(0, 112111), (3, 0)], [(9, 0)]], 3, 4⟩, 68719476736,
    105014, 3033774373835454586768051689188344626042267208128571252194052742090662650456369394326389314270, lc0⟩)
    (.skip)))) (.sx (.sy (.leaf ⟨5284, 16, 82, 1724, 16, 3466, ⟨[[(0, 137438953472)], [(352187318272, 0)]], 3, 4⟩,
    ⟨[[(500176849311, 0), (2209131516279, 0), (1908323335, 0), (5161738, 0), (37514, 0)], [(215394289110, 0),
    (312259048, 0), (1086290, 0), (15617, 0), (145, 0)], [(0, 3802452), (36249, 0), (2447, 0), (33, 0)], [(0, 416),
    (181, 0), (4, 0)]], 3, 4⟩, 1099511627776, 0, 35384346, ⟨[[(50207764827971, 0), (0, 4059387276), (3521082, 0),
    (13974, 0), (79, 0)], [(2525070791, 0), (0, 661633), (1041, 0), (17, 0)], [(0, 459368), (10, 0), (1, 0)], [(79,
    0)]], 3, 4⟩, 68719476736, 507965,
    3618034158108023154706459444735066756498011427441153810515008229590520519126854580939005063301, lc0⟩) (.sx (.leaf
    ⟨10617, 16, 165, 2472, 16, 4948, ⟨[[(0, 309237645312)], [(354334801920, 0)]], 3, 4⟩, ⟨[[(359947853832, 0),
    (3176098021421, 0), (2823786632, 0), (8159297, 0), (59842, 0)], [(155234609805, 0), (231386533, 0), (899130, 0),
    (12584, 0), (115, 0)], [(0, 1258059), (19158, 0), (996, 0), (13, 0)], [(33, 0), (37, 0), (1, 0)]], 3, 4⟩,
    1099511627776, 0, 3863356, ⟨[[(50157763956285, 0), (0, 2800802906), (1892651, 0), (5637, 0), (22, 0)],
    [(1255927954, 0), (0, 223857), (354, 0), (3, 0)], [(0, 113869), (5, 0)], [(10, 0)]], 3, 4⟩, 68719476736, 142166,
    4232009876368982344799932403247432001668168152418571370936297358984152461179116946061544429948, lc0⟩) (.skip)))
    (.skip))))) (.sy (.sx (.sy (.sx (.leaf ⟨5222, 16, 82, 1217, 16, 2457, ⟨[[(412316860416, 0)], [(352187318272,
    0)]], 3, 4⟩, ⟨[[(0, 278951164130), (3126045243854, 0), (5493000149, 0), (25645490, 0), (335761, 0)],
    [(157028418407, 0), (472357581, 0), (2514346, 0), (68306, 0), (1330, 0)], [(0, 2001754), (13269, 0), (5206, 0),
    (152, 0), (2, 0)], [(0, 1269), (192, 0), (9, 0)]], 3, 4⟩, 1099511627776, 0, 24708713, ⟨[[(50078624501642, 0), (0,
    5736338728), (6373530, 0), (30653, 0), (258, 0)], [(2587778419, 0), (0, 949571), (1150, 0), (39, 0)], [(0,
    474292), (0, 15), (2, 0)], [(82, 0)]], 3, 4⟩, 68719476736, 1957430,
    3538638648786398465262096886019550891357893254283804875175079207560433885018337118969524897603, lc0⟩) (.sy (.leaf
    ⟨5253, 16, 82, 1703, 16, 3413, ⟨[[(137438953472, 0)], [(352187318272, 0)]], 3, 4⟩, ⟨[[(219234176608, 0),
    (2190984580775, 0), (1960401779, 0), (5381137, 0), (38314, 0)], [(216569800171, 0), (326776432, 0), (1161499, 0),
    (16031, 0), (149, 0)], [(0, 3168443), (42216, 0), (2523, 0), (34, 0)], [(0, 346), (187, 0), (4, 0)]], 3, 4⟩,
    1099511627776, 0, 36979680, ⟨[[(50107155299509, 0), (0, 4061722119), (3840068, 0), (15912, 0), (90, 0)],
    [(2550205699, 0), (0, 660070), (1306, 0), (20, 0)], [(0, 466687), (20, 0), (1, 0)], [(81, 0)]], 3, 4⟩,
    68719476736, 552826,
    4872168612326241067783361403189040062024413427844678701241059954010373594421965114564565220036, lc0⟩) (.skip)))
    (.sx (.sy (.sx (.leaf ⟨10493, 16, 165, 2429, 16, 4867, ⟨[[(0, 34359738368)], [(354334801920, 0)]], 3, 4⟩, ⟨[[(0,
    132223050812), (3134943867378, 0), (2873270777, 0), (7561704, 0), (51585, 0)], [(157774977606, 0), (246001646,
    0), (809801, 0), (10744, 0), (101, 0)], [(0, 887450), (12645, 0), (840, 0), (12, 0)], [(0, 150), (31, 0), (1,
    0)]], 3, 4⟩, 1099511627776, 0, 3582368, ⟨[[(50007411592277, 0), (0, 2828715519), (1872422, 0), (5271, 0), (21,
    0)], [(1285204013, 0), (0, 230212), (301, 0), (3, 0)], [(0, 117579), (3, 0)], [(10, 0)]], 3, 4⟩, 68719476736,
    114316, 3378201214840344698820222961069037326300543658716922695430667859643887312285524831686890191581, lc0⟩)
    (.skip)) (.skip)) (.skip))) (.skip)) (.skip))
theorem c56 : checkC job ⟨6, 8, 8, 10, 9, 13⟩ 1 25 lims t56 2512 48 64 123 3 512 = true := by decide +kernel

def t57 : CTree :=
  .sx (.sy (.sy (.sx (.sy (.sx (.sy (.leaf ⟨5099, 16, 82, 1607, 16, 3225, ⟨[[(412316860416, 0)], [(352187318272,
    0)]], 3, 4⟩, ⟨[[(55434011202, 0), (2092495076695, 0), (2058059625, 0), (4873479, 0), (28684, 0)], [(222674623349,
    0), (383442768, 0), (1040231, 0), (11660, 0), (114, 0)], [(186536, 0), (18472, 0), (1744, 0), (26, 0)], [(0,
    2202), (126, 0), (3, 0)]], 3, 4⟩, 1099511627776, 0, 27356621, ⟨[[(49712261545985, 0), (0, 4208362735), (4008752,
    0), (14695, 0), (90, 0)], [(2701445587, 0), (0, 706596), (918, 0), (19, 0)], [(0, 506122), (0, 2), (1, 0)], [(90,
    0)]], 3, 4⟩, 68719476736, 559654,
    3535065532152370736142448853290909007507321584658835148805279276610160713005855617268864071412, lc0⟩) (.sx (.leaf
    ⟨10245, 16, 165, 2336, 16, 4668, ⟨[[(515396075520, 0)], [(354334801920, 0)]], 3, 4⟩, ⟨[[(0, 406897090430),
    (3051542584782, 0), (3072994235, 0), (7677688, 0), (46523, 0)], [(162833772061, 0), (286252064, 0), (849646, 0),
    (9572, 0), (92, 0)], [(173416, 0), (11278, 0), (727, 0), (11, 0)], [(0, 327), (26, 0), (1, 0)]], 3, 4⟩,
    1099511627776, 0, 3386343, ⟨[[(49663119325467, 0), (0, 2864200566), (2066149, 0), (5662, 0), (23, 0)],
    [(1343947985, 0), (0, 237362), (314, 0), (4, 0)], [(0, 125498), (3, 0)], [(11, 0)]], 3, 4⟩, 68719476736, 125769,
    3896191482279101804967827077433435621996457174871374634100803688096038169150521850540471304926, lc0⟩) (.skip)))
    (.skip)) (.skip)) (.skip)) (.skip)) (.skip)) (.skip)
theorem c57 : checkC job ⟨6, 8, 8, 10, 9, 13⟩ 1 25 lims t57 1232 48 32 129 3 512 = true := by decide +kernel

def t58 : CTree :=
  .skip
theorem c58 : checkC job ⟨6, 8, 8, 10, 9, 13⟩ 1 25 lims t58 592 48 16 69 3 256 = true := by decide +kernel

def t59 : CTree :=
  .sx (.sy (.leaf ⟨665, 16, 10, 158, 16, 459, ⟨[[], [(343597383680, 0)]], 3, 4⟩, ⟨[[(0, 263495941925),
    (3228386002581, 0), (20151193927, 0), (341657887, 0), (5365491, 0)], [(140227420032, 0), (2605501822, 0),
    (39295557, 0), (653597, 0), (6289, 0)], [(5603959, 0), (0, 89355), (0, 15086), (0, 1053), (0, 148)], [(0, 33534),
    (0, 2334), (0, 115), (0, 11), (0, 1)]], 3, 4⟩, 1099511627776, 0, 359642882, ⟨[[(53508331279192, 0), (0,
    51309679754), (157726236, 0), (0, 81191), (0, 751)], [(20968230022, 0), (2948454, 0), (0, 312126), (0, 391)],
    [(0, 25171082), (0, 72714), (361, 0)], [(30242, 0), (163, 0), (0, 1)]], 3, 4⟩, 68719476736, 8231870,
    2774398867984697003328081913361145695477580796325285471089664833762375879320557912653645932731, lc0⟩) (.leaf
    ⟨665, 16, 10, 159, 16, 414, ⟨[[], [(343597383680, 0)]], 3, 4⟩, ⟨[[(0, 170075177186), (3167685049600, 0),
    (24826961587, 0), (427807536, 0), (3872516, 0)], [(141979956095, 0), (2834232229, 0), (43614342, 0), (0, 10806),
    (0, 78027)], [(3588573, 0), (0, 561656), (0, 95014), (0, 10630), (0, 750)], [(0, 50236), (0, 5499), (0, 584), (0,
    49), (0, 2)]], 3, 4⟩, 1099511627776, 0, 1483927178, ⟨[[(52622395151419, 0), (0, 50604056224), (186407283, 0), (0,
    200389), (0, 2059)], [(20915531763, 0), (0, 9788696), (0, 407015), (0, 417), (0, 1)], [(0, 26379625), (0, 65856),
    (463, 0), (1, 0)], [(32978, 0), (151, 0), (0, 1)]], 3, 4⟩, 68719476736, 88137065,
    2409305001363956768154452779855307020121349035802020726477129203914197898490127178891307571555, lc0⟩)) (.sy
    (.leaf ⟨695, 16, 10, 163, 16, 439, ⟨[[], [(343597383680, 0)]], 3, 4⟩, ⟨[[(0, 424839552289), (3323965438464, 0),
    (22618571713, 0), (364739447, 0), (3329805, 0)], [(134179213236, 0), (2404429065, 0), (30343679, 0), (0, 13119),
    (0, 57181)], [(0, 5140847), (0, 886077), (0, 70607), (0, 6651), (0, 563)], [(0, 40975), (0, 3489), (0, 311), (0,
    31), (0, 2)]], 3, 4⟩, 1099511627776, 0, 736482387, ⟨[[(53501033574704, 0), (0, 49806677299), (157996470, 0), (0,
    148638), (0, 1043)], [(19477067338, 0), (0, 8828093), (0, 333989), (0, 333), (3, 0)], [(0, 23348643), (0, 54439),
    (338, 0), (1, 0)], [(27368, 0), (121, 0), (0, 1)]], 3, 4⟩, 68719476736, 39773032,
    2909500740906201705555735714086330457791882248329668264991005039441944318367355199558184814034, lc0⟩) (.leaf
    ⟨695, 16, 10, 164, 16, 397, ⟨[[], [(343597383680, 0)]], 3, 4⟩, ⟨[[(215153593135, 0), (3287823160487, 0),
    (26371829805, 0), (272341837, 0), (0, 10541755)], [(135266026728, 0), (2423044131, 0), (4203478, 0), (0,
    3254923), (0, 204349)], [(0, 13885285), (0, 2788360), (0, 318507), (0, 21387), (0, 17)], [(0, 73858), (0, 10470),
    (0, 882), (7, 0), (12, 0)]], 3, 4⟩, 1099511627776, 0, 3413843754, ⟨[[(52639192525556, 0), (0, 48874219773),
    (178438601, 0), (0, 463800), (0, 8015)], [(19200642829, 0), (0, 23694315), (0, 436443), (0, 1181), (0, 40)], [(0,
    24227939), (0, 45412), (470, 0)], [(29409, 0), (113, 0), (0, 1)]], 3, 4⟩, 68719476736, 281926519,
    4345839962870425923109450830946662962621018746576999366350451625269089959509346937493803979874, lc0⟩))
theorem c59 : checkC job ⟨6, 8, 8, 10, 9, 13⟩ 1 25 lims t59 688 48 16 51 3 256 = true := by decide +kernel

def t60 : CTree :=
  .sy (.leaf ⟨665, 16, 10, 227, 16, 545, ⟨[[], [(343597383680, 0)]], 3, 4⟩, ⟨[[(0, 192772426306), (2249769590009, 0),
    (10144038759, 0), (71918201, 0), (0, 309498)], [(204801585638, 0), (2097290721, 0), (9535316, 0), (0, 411593),
    (0, 15096)], [(0, 2855325), (0, 1556068), (0, 111305), (0, 3986), (0, 19)], [(0, 120740), (0, 9209), (0, 407),
    (0, 2), (1, 0)]], 3, 4⟩, 1099511627776, 0, 3452381862, ⟨[[(51975525249993, 0), (0, 34738799120), (100897991, 0),
    (0, 180896), (0, 2132)], [(20709339503, 0), (0, 15964315), (0, 250191), (0, 523), (0, 11)], [(0, 27178483), (0,
    40201), (281, 0)], [(34864, 0), (99, 0)]], 3, 4⟩, 68719476736, 48668143,
    2752187458603810430975515415617130750445697792737338042764852244177299659329913699962215954680, lc0⟩) (.leaf
    ⟨665, 16, 10, 225, 16, 513, ⟨[[], [(343597383680, 0)]], 3, 4⟩, ⟨[[(426715789733, 0), (2239230618640, 0),
    (10678904725, 0), (57361286, 0), (0, 390001)], [(204843413628, 0), (2028766897, 0), (0, 603324), (0, 613788),
    (2684, 0)], [(0, 16024961), (0, 3092383), (0, 157630), (0, 541), (391, 0)], [(0, 178064), (0, 12146), (0, 28),
    (56, 0), (5, 0)]], 3, 4⟩, 1099511627776, 0, 7349334236, ⟨[[(51571691011381, 0), (0, 34426597041), (104155851, 0),
    (0, 356331), (0, 2693)], [(20479799550, 0), (0, 23691778), (0, 316091), (0, 1347), (0, 11)], [(0, 27623045), (0,
    35985), (263, 0), (0, 3)], [(35983, 0), (92, 0), (0, 1)]], 3, 4⟩, 68719476736, 217156092,
    2713021491359426568670157886536917480169910133065291172898787568611781401200059472557860610115, lc0⟩)
theorem c60 : checkC job ⟨6, 8, 8, 10, 9, 13⟩ 1 25 lims t60 1328 48 32 111 3 512 = true := by decide +kernel

def t61 : CTree :=
  .sx (.leaf ⟨1315, 16, 20, 318, 16, 699, ⟨[[], [(343597383680, 0)]], 3, 4⟩, ⟨[[(0, 248084077997), (3166180252237,
    0), (16148260836, 0), (97375430, 0), (1104521, 0)], [(148778378730, 0), (1484555523, 0), (0, 1522354), (0,
    180348), (31551, 0)], [(0, 7763196), (0, 1372646), (0, 42647), (3005, 0), (368, 0)], [(0, 39288), (0, 1781),
    (169, 0), (27, 0), (2, 0)]], 3, 4⟩, 1099511627776, 0, 592158720, ⟨[[(51136704377255, 0), (0, 23882714737),
    (52407179, 0), (0, 139540), (1151, 0)], [(10341548545, 0), (0, 10561881), (0, 94792), (0, 176), (7, 0)], [(0,
    7187991), (0, 6241), (30, 0)], [(4792, 0), (8, 0)]], 3, 4⟩, 68719476736, 122990482,
    2467707081690054552595280206371755301341722188608911482106979617006881180129143775957078650637, lc0⟩) (.sy (.leaf
    ⟨1345, 16, 20, 464, 16, 994, ⟨[[], [(343597383680, 0)]], 3, 4⟩, ⟨[[(0, 140018054324), (2309645937769, 0),
    (5457912242, 0), (17247374, 0), (491125, 0)], [(205329865951, 0), (861316444, 0), (0, 1668524), (129126, 0),
    (10214, 0)], [(0, 23702651), (0, 1062173), (11700, 0), (2103, 0), (81, 0)], [(0, 51337), (829, 0), (222, 0), (11,
    0)]], 3, 4⟩, 1099511627776, 0, 909540204, ⟨[[(51243196348681, 0), (0, 16460240186), (23295700, 0), (0, 9324),
    (1579, 0)], [(9825854721, 0), (0, 8768352), (0, 45316), (148, 0), (8, 0)], [(0, 6819180), (0, 3591), (17, 0)],
    [(4454, 0), (5, 0)]], 3, 4⟩, 68719476736, 51517295,
    2987790859292094536611307938934886325788764750711028940509713783366781115228889619051940672751, lc0⟩) (.sx (.leaf
    ⟨2742, 16, 41, 654, 16, 1378, ⟨[[(0, 137438953472)], [(352187318272, 0)]], 3, 4⟩, ⟨[[(452368082255, 0),
    (3266686266333, 0), (8144728959, 0), (39908430, 0), (1287196, 0)], [(146816880584, 0), (625912310, 0), (688853,
    0), (216951, 0), (11448, 0)], [(0, 9034398), (0, 308552), (13960, 0), (1211, 0), (42, 0)], [(0, 8196), (492, 0),
    (64, 0), (3, 0)]], 3, 4⟩, 1099511627776, 0, 113488608, ⟨[[(51044028201936, 0), (0, 11560960515), (12540641, 0),
    (21950, 0), (825, 0)], [(4808707216, 0), (0, 3300065), (0, 9862), (86, 0), (2, 0)], [(0, 1653054), (0, 570), (4,
    0)], [(532, 0)]], 3, 4⟩, 68719476736, 13295007,
    3060660075948710541334548278575054935658719329738235834572035044659573734032972463733014173065, lc0⟩) (.leaf
    ⟨2773, 16, 41, 664, 16, 1371, ⟨[[(0, 412316860416)], [(352187318272, 0)]], 3, 4⟩, ⟨[[(0, 264216124611),
    (3307641215868, 0), (8364312412, 0), (74516616, 0), (2841818, 0)], [(144157588066, 0), (584330905, 0), (5571892,
    0), (544814, 0), (22104, 0)], [(0, 10699053), (0, 50731), (39662, 0), (2317, 0), (72, 0)], [(0, 3023), (1374, 0),
    (119, 0), (5, 0)]], 3, 4⟩, 1099511627776, 0, 219596798, ⟨[[(51037631474631, 0), (0, 11370106723), (14624086, 0),
    (96545, 0), (1870, 0)], [(4661655396, 0), (0, 3536892), (0, 3164), (253, 0), (4, 0)], [(0, 1610770), (0, 358),
    (10, 0)], [(515, 0)]], 3, 4⟩, 68719476736, 25608931,
    4870000672325644121591238058659718360536131501451359409905953308944605047485797063698573548764, lc0⟩)))
theorem c61 : checkC job ⟨6, 8, 8, 10, 9, 13⟩ 1 25 lims t61 1328 48 32 231 3 1024 = true := by decide +kernel

def t62 : CTree :=
  .sx (.sy (.leaf ⟨1315, 16, 20, 447, 16, 943, ⟨[[], [(343597383680, 0)]], 3, 4⟩, ⟨[[(0, 445696168119),
    (2238258241076, 0), (5998320675, 0), (27779974, 0), (657463, 0)], [(209686741533, 0), (997216729, 0), (1072472,
    0), (202697, 0), (11959, 0)], [(0, 19339430), (0, 937307), (22326, 0), (2590, 0), (95, 0)], [(0, 54636), (1514,
    0), (286, 0), (14, 0)]], 3, 4⟩, 1099511627776, 0, 1274332915, ⟨[[(50827191395679, 0), (0, 16703183163),
    (27684487, 0), (49384, 0), (3222, 0)], [(10183781142, 0), (0, 9671110), (0, 45623), (466, 0), (16, 0)], [(0,
    7265304), (0, 3863), (35, 0), (1, 0)], [(4888, 0), (5, 0)]], 3, 4⟩, 68719476736, 92220237,
    3752237855720903899247132638390816355973290764696422021036307772967586341215564070895898730387, lc0⟩) (.sx (.leaf
    ⟨2680, 16, 41, 633, 16, 1314, ⟨[[(412316860416, 0)], [(352187318272, 0)]], 3, 4⟩, ⟨[[(20905860388, 0),
    (3189059141442, 0), (9125989354, 0), (57962535, 0), (1559813, 0)], [(151069386217, 0), (744696317, 0), (3216700,
    0), (283383, 0), (13071, 0)], [(0, 7157903), (0, 235186), (19368, 0), (1447, 0), (49, 0)], [(0, 8349), (690, 0),
    (80, 0), (4, 0)]], 3, 4⟩, 1099511627776, 0, 150312628, ⟨[[(50629033374829, 0), (0, 11631904782), (15585790, 0),
    (62915, 0), (1495, 0)], [(4987383830, 0), (0, 3565187), (0, 7651), (189, 0), (3, 0)], [(0, 1762246), (0, 556),
    (8, 0)], [(585, 0)]], 3, 4⟩, 68719476736, 22911050,
    3616173716066611241212067701494711358420374285838265584655334954844429014594938447970789639085, lc0⟩) (.sy (.leaf
    ⟨2711, 16, 41, 906, 16, 1856, ⟨[[(137438953472, 0)], [(352187318272, 0)]], 3, 4⟩, ⟨[[(453659045313, 0),
    (2281694217161, 0), (3277221630, 0), (14818752, 0), (241164, 0)], [(209675083767, 0), (496449081, 0), (2472642,
    0), (95376, 0), (1892, 0)], [(0, 12349659), (0, 15280), (14282, 0), (414, 0), (6, 0)], [(0, 5214), (1024, 0),
    (45, 0), (1, 0)]], 3, 4⟩, 1099511627776, 0, 241749809, ⟨[[(50684176737795, 0), (0, 8117065869), (8971362, 0),
    (48705, 0), (629, 0)], [(4849104522, 0), (0, 2595412), (0, 121), (126, 0), (1, 0)], [(0, 1712674), (0, 228), (8,
    0)], [(563, 0)]], 3, 4⟩, 68719476736, 6498795,
    4332002961845606419432096215389024130237573990171860605596737345694732885821551765932769220852, lc0⟩) (.sx (.leaf
    ⟨5407, 16, 82, 1284, 16, 2607, ⟨[[(0, 137438953472)], [(352187318272, 0)]], 3, 4⟩, ⟨[[(318816704588, 0),
    (3244750490336, 0), (4923257440, 0), (26291200, 0), (426827, 0)], [(149829515024, 0), (372928660, 0), (2557206,
    0), (86857, 0), (1633, 0)], [(0, 4169228), (34288, 0), (6666, 0), (180, 0), (3, 0)], [(0, 248), (240, 0), (10,
    0)]], 3, 4⟩, 1099511627776, 0, 27424925, ⟨[[(50582600126847, 0), (0, 5653486900), (5273973, 0), (25622, 0), (211,
    0)], [(2426953839, 0), (0, 914102), (862, 0), (32, 0)], [(0, 431687), (0, 15), (1, 0)], [(71, 0)]], 3, 4⟩,
    68719476736, 1528474,
    3713013769579095825041609310282607987202604187420085079822411322300357167186929198921376468302, lc0⟩) (.sy (.leaf
    ⟨5438, 16, 82, 1825, 16, 3679, ⟨[[(0, 412316860416)], [(352187318272, 0)]], 3, 4⟩, ⟨[[(0, 548848610313),
    (2304224728653, 0), (1793411649, 0), (5817517, 0), (48825, 0)], [(209512276857, 0), (264998347, 0), (1267305, 0),
    (20187, 0), (181, 0)], [(0, 5899308), (64256, 0), (3134, 0), (39, 0)], [(1203, 0), (224, 0), (4, 0)]], 3, 4⟩,
    1099511627776, 0, 39789207, ⟨[[(50605481436254, 0), (0, 3951592718), (3092796, 0), (12686, 0), (69, 0)],
    [(2392061893, 0), (0, 629404), (1001, 0), (15, 0)], [(0, 425087), (13, 0), (1, 0)], [(70, 0)]], 3, 4⟩,
    68719476736, 407693,
    2935689426606041167960793108340777639431656602589835246573088239359680039593826619318258679732, lc0⟩) (.sx (.leaf
    ⟨10926, 16, 165, 2586, 16, 5192, ⟨[[(103079215104, 0)], [(354334801920, 0)]], 3, 4⟩, ⟨[[(168922514996, 0),
    (3273676154272, 0), (2641105107, 0), (9232024, 0), (76942, 0)], [(149180437915, 0), (196101939, 0), (1053452, 0),
    (16059, 0), (141, 0)], [(0, 1962041), (30748, 0), (1256, 0), (15, 0)], [(352, 0), (45, 0), (1, 0)]], 3, 4⟩,
    1099511627776, 0, 4223562, ⟨[[(50556971242785, 0), (0, 2762481751), (1700887, 0), (5233, 0), (19, 0)],
    [(1189925624, 0), (0, 215642), (337, 0), (3, 0)], [(0, 105375), (5, 0)], [(9, 0)]], 3, 4⟩, 68719476736, 109593,
    3677262469023187689178090226259769398308690131698823340928172449095861257836531769866598527370, lc0⟩)
    (.skip))))))) (.sy (.sx (.sy (.leaf ⟨2742, 16, 41, 926, 16, 1910, ⟨[[(0, 137438953472)], [(352187318272, 0)]], 3,
    4⟩, ⟨[[(0, 217226607350), (2316797801376, 0), (3078894659, 0), (12765340, 0), (223976, 0)], [(207456107082, 0),
    (450588079, 0), (1846812, 0), (86208, 0), (1774, 0)], [(0, 13875473), (0, 63665), (12611, 0), (380, 0), (6, 0)],
    [(0, 6064), (890, 0), (40, 0), (1, 0)]], 3, 4⟩, 1099511627776, 0, 208570395, ⟨[[(50883863818882, 0), (0,
    8068474833), (7687086, 0), (34688, 0), (480, 0)], [(4760624230, 0), (0, 2525539), (0, 1701), (92, 0), (1, 0)],
    [(0, 1659938), (0, 273), (5, 0)], [(537, 0)]], 3, 4⟩, 68719476736, 4754361,
    3543948324253633645845007811481476480601250724797691405236228376857482523490404320672046944641, lc0⟩) (.sx (.leaf
    ⟨5468, 16, 82, 1308, 16, 2675, ⟨[[(412316860416, 0)], [(352187318272, 0)]], 3, 4⟩, ⟨[[(24405230904, 0),
    (3282529608188, 0), (4599351375, 0), (23059160, 0), (398817, 0)], [(147688614575, 0), (335904731, 0), (2049075,
    0), (79277, 0), (1531, 0)], [(0, 4777601), (13349, 0), (5956, 0), (165, 0), (3, 0)], [(0, 472), (211, 0), (9,
    0)]], 3, 4⟩, 1099511627776, 0, 23938379, ⟨[[(50782301510641, 0), (0, 5654043315), (4438343, 0), (18652, 0), (162,
    0)], [(2383607623, 0), (0, 903263), (207, 0), (24, 0)], [(0, 418684), (0, 31), (1, 0)], [(68, 0)]], 3, 4⟩,
    68719476736, 1189247,
    3376474248591554776174967845539323841824823158848089364085192275881684203666891211540331147185, lc0⟩) (.leaf
    ⟨5499, 16, 82, 1316, 16, 2666, ⟨[[(137438953472, 0)], [(352187318272, 0)]], 3, 4⟩, ⟨[[(475937420375, 0),
    (3303953023620, 0), (4842974163, 0), (32251641, 0), (569516, 0)], [(146276129209, 0), (344005551, 0), (3449097,
    0), (115977, 0), (2083, 0)], [(0, 4709689), (87655, 0), (8859, 0), (223, 0), (3, 0)], [(910, 0), (310, 0), (12,
    0)]], 3, 4⟩, 1099511627776, 0, 32934030, ⟨[[(50785823103360, 0), (0, 5579809158), (5378605, 0), (29433, 0), (229,
    0)], [(2346675822, 0), (0, 888556), (1377, 0), (35, 0)], [(0, 412579), (3, 0), (2, 0)], [(67, 0)]], 3, 4⟩,
    68719476736, 1642031,
    3964753615728146464820560679321446882178307361501655626572939883071951420153531917168450101659, lc0⟩))) (.sy (.sx
    (.leaf ⟨5530, 16, 82, 1328, 16, 2701, ⟨[[(0, 137438953472)], [(352187318272, 0)]], 3, 4⟩, ⟨[[(359823395945, 0),
    (3322234676388, 0), (4658271086, 0), (30103838, 0), (547877, 0)], [(145237857880, 0), (324349847, 0), (3105169,
    0), (110164, 0), (2005, 0)], [(0, 5022065), (71888, 0), (8316, 0), (212, 0), (3, 0)], [(686, 0), (288, 0), (11,
    0)]], 3, 4⟩, 1099511627776, 0, 30213591, ⟨[[(50887524075252, 0), (0, 5588120728), (4854273, 0), (24904, 0), (199,
    0)], [(2325949766, 0), (0, 889129), (921, 0), (30, 0)], [(0, 406389), (0, 9), (1, 0)], [(66, 0)]], 3, 4⟩,
    68719476736, 1398918,
    3774494042538677043396764803433343213852349184563216498075706475268592323522240853555386440257, lc0⟩) (.sy (.leaf
    ⟨5561, 16, 82, 1904, 16, 3849, ⟨[[(0, 412316860416)], [(352187318272, 0)]], 3, 4⟩, ⟨[[(449291316442, 0),
    (2379414053114, 0), (1731673614, 0), (6844621, 0), (62361, 0)], [(204915621944, 0), (237332863, 0), (1554079, 0),
    (25278, 0), (220, 0)], [(0, 6861878), (98051, 0), (3824, 0), (46, 0)], [(2661, 0), (262, 0), (5, 0)]], 3, 4⟩,
    1099511627776, 0, 43183224, ⟨[[(50914008750531, 0), (0, 3881230397), (2757731, 0), (11476, 0), (60, 0)],
    [(2293806732, 0), (0, 608185), (912, 0), (14, 0)], [(0, 400303), (13, 0), (1, 0)], [(65, 0)]], 3, 4⟩,
    68719476736, 374066,
    2543993039319520294092070374988046006175830696305202341190261278713472747236221589980563536427, lc0⟩) (.sx (.leaf
    ⟨11174, 16, 165, 2675, 16, 5383, ⟨[[(0, 446676598784)], [(354334801920, 0)]], 3, 4⟩, ⟨[[(369890867676, 0),
    (3349316443575, 0), (2548835562, 0), (10885017, 0), (97461, 0)], [(144541391013, 0), (176420745, 0), (1287946,
    0), (19931, 0), (170, 0)], [(0, 2242867), (44354, 0), (1518, 0), (18, 0)], [(636, 0), (52, 0), (1, 0)]], 3, 4⟩,
    1099511627776, 0, 4489775, ⟨[[(50862436455073, 0), (0, 2735579150), (1572616, 0), (4973, 0), (18, 0)],
    [(1140493301, 0), (0, 209483), (325, 0), (3, 0)], [(0, 99199), (5, 0)], [(8, 0)]], 3, 4⟩, 68719476736, 77778,
    3347310990564528392788956873818670194349600166726080354918432577299340070065859060601621711916, lc0⟩) (.skip))))
    (.sx (.sy (.leaf ⟨5530, 16, 82, 1883, 16, 3790, ⟨[[(0, 137438953472)], [(352187318272, 0)]], 3, 4⟩,
    ⟨[[(99878894229, 0), (2361701542940, 0), (1802546451, 0), (7297120, 0), (64728, 0)], [(205947026163, 0),
    (252412286, 0), (1704508, 0), (26566, 0), (229, 0)], [(0, 6327632), (112846, 0), (4068, 0), (48, 0)], [(3125, 0),
    (282, 0), (5, 0)]], 3, 4⟩, 1099511627776, 0, 46627919, ⟨[[(50810600864120, 0), (0, 3873920143), (3126577, 0),
    (13760, 0), (71, 0)], [(2313818025, 0), (0, 600960), (1254, 0), (16, 0)], [(0, 406216), (26, 0), (1, 0)], [(66,
    0)]], 3, 4⟩, 68719476736, 387142,
    4259693384316005570864263094166647078445699955620834274512058473347759129945223143579354475523, lc0⟩) (.skip))
    (.skip)))) (.sx (.sy (.sx (.leaf ⟨5468, 16, 82, 1304, 16, 2631, ⟨[[(412316860416, 0)], [(352187318272, 0)]], 3,
    4⟩, ⟨[[(305839767754, 0), (3285647522227, 0), (5029637795, 0), (34324213, 0), (589802, 0)], [(147333119443, 0),
    (364413451, 0), (3787308, 0), (121513, 0), (2158, 0)], [(0, 4370778), (103324, 0), (9386, 0), (233, 0), (3, 0)],
    [(1132, 0), (332, 0), (12, 0)]], 3, 4⟩, 1099511627776, 0, 35337294, ⟨[[(50683146735376, 0), (0, 5565680241),
    (5987972, 0), (34746, 0), (264, 0)], [(2367741301, 0), (0, 883423), (1929, 0), (42, 0)], [(0, 418848), (18, 0),
    (2, 0)], [(69, 0)]], 3, 4⟩, 68719476736, 1864423,
    4513175757657589126371465979000354561484659471498951819395834660003548069742961732781070191038, lc0⟩) (.sy (.sx
    (.leaf ⟨11050, 16, 165, 2631, 16, 5286, ⟨[[(0, 171798691840)], [(354334801920, 0)]], 3, 4⟩, ⟨[[(0, 286248620506),
    (3311812370011, 0), (2594851243, 0), (10047222, 0), (87077, 0)], [(146829323056, 0), (185824137, 0), (1171490,
    0), (18024, 0), (156, 0)], [(0, 2121243), (37797, 0), (1394, 0), (17, 0)], [(504, 0), (49, 0), (1, 0)]], 3, 4⟩,
    1099511627776, 0, 4357307, ⟨[[(50707906835725, 0), (0, 2745613481), (1654590, 0), (5196, 0), (19, 0)],
    [(1164572667, 0), (0, 211768), (342, 0), (3, 0)], [(0, 102214), (5, 0)], [(8, 0)]], 3, 4⟩, 68719476736, 80781,
    3636960009219728554232707845659343954476120609077721674117638659958407749635950102743785291667, lc0⟩) (.skip))
    (.skip))) (.skip)) (.skip)))
theorem c62 : checkC job ⟨6, 8, 8, 10, 9, 13⟩ 1 25 lims t62 1328 48 32 237 3 1024 = true := by decide +kernel

def t63 : CTree :=
  .sy (.sy (.leaf ⟨695, 16, 10, 240, 16, 534, ⟨[[], [(343597383680, 0)]], 3, 4⟩, ⟨[[(0, 401677537927),
    (2378787300073, 0), (9574402887, 0), (10200847, 0), (32142, 0)], [(196234647317, 0), (1486479843, 0), (0,
    17340221), (0, 429074), (59008, 0)], [(0, 46223098), (0, 4287395), (0, 102822), (10795, 0), (1222, 0)], [(0,
    173477), (0, 5662), (1102, 0), (156, 0), (10, 0)]], 3, 4⟩, 1099511627776, 0, 9072261296, ⟨[[(51969426679694, 0),
    (0, 32807448858), (81084447, 0), (0, 379327), (1165, 0)], [(18762256866, 0), (0, 27973753), (0, 302623), (0,
    1293), (23, 0)], [(0, 24793151), (0, 25244), (149, 0), (0, 2)], [(30908, 0), (69, 0), (0, 1)]], 3, 4⟩,
    68719476736, 599222444,
    2846908457887748039147280041832540904124312719636138832690289840440381129556586532947846095839, lc0⟩) (.sx (.leaf
    ⟨1375, 16, 20, 335, 16, 720, ⟨[[], [(343597383680, 0)]], 3, 4⟩, ⟨[[(0, 39235565853), (3320011783471, 0),
    (14045584176, 0), (70242858, 0), (6542740, 0)], [(140041407293, 0), (1015895356, 0), (0, 7964561), (923246, 0),
    (137766, 0)], [(0, 20192706), (0, 1477572), (50537, 0), (13604, 0), (1022, 0)], [(0, 31135), (1839, 0), (680, 0),
    (67, 0), (4, 0)]], 3, 4⟩, 1099511627776, 0, 1317717723, ⟨[[(51557324759195, 0), (0, 23183562649), (41922627, 0),
    (0, 38871), (5687, 0)], [(9441881804, 0), (0, 12199531), (0, 85738), (325, 0), (27, 0)], [(0, 6429691), (0,
    4481), (27, 0), (1, 0)], [(4094, 0), (6, 0)]], 3, 4⟩, 68719476736, 279854069,
    3651209489209745808645377635068963317529069109525291747333891956759117811897616541699551264054, lc0⟩) (.sy (.leaf
    ⟨1405, 16, 20, 501, 16, 1053, ⟨[[], [(343597383680, 0)]], 3, 4⟩, ⟨[[(0, 293008352397), (2461134972621, 0),
    (4884683783, 0), (36517358, 0), (1947559, 0)], [(196375152362, 0), (590184805, 0), (3404706, 0), (690051, 0),
    (30549, 0)], [(0, 36727632), (0, 393727), (93627, 0), (5859, 0), (188, 0)], [(0, 16969), (6075, 0), (551, 0),
    (23, 0), (1, 0)]], 3, 4⟩, 1099511627776, 0, 1957625441, ⟨[[(51659009411535, 0), (0, 15690815791), (19604988, 0),
    (97173, 0), (3616, 0)], [(8968134584, 0), (0, 9295293), (0, 28583), (597, 0), (16, 0)], [(0, 6103702), (0, 2270),
    (34, 0), (1, 0)], [(3820, 0), (4, 0)]], 3, 4⟩, 68719476736, 84643642,
    3769567779807708138722699106742248854375801192333331280108695118069655183232107419604694756919, lc0⟩) (.sx (.leaf
    ⟨2865, 16, 41, 695, 16, 1435, ⟨[[(0, 137438953472)], [(352187318272, 0)]], 3, 4⟩, ⟨[[(0, 67202039878),
    (3418973045137, 0), (7725219134, 0), (103607660, 0), (4556240, 0)], [(137594552516, 0), (468615765, 0), (9681776,
    0), (856085, 0), (32427, 0)], [(0, 12345431), (196955, 0), (60395, 0), (3173, 0), (95, 0)], [(2295, 0), (1950,
    0), (151, 0), (6, 0)]], 3, 4⟩, 1099511627776, 0, 269825632, ⟨[[(51453218296421, 0), (0, 11176397291), (13167053,
    0), (106349, 0), (1903, 0)], [(4377814491, 0), (0, 3432672), (0, 1058), (261, 0), (4, 0)], [(0, 1477021), (0,
    241), (10, 0)], [(456, 0)]], 3, 4⟩, 68719476736, 24560401,
    5004822447787172090102555918287577333187262450034477382276116861938592724103928750993143272619, lc0⟩) (.sy (.leaf
    ⟨2896, 16, 41, 1022, 16, 2088, ⟨[[(0, 412316860416)], [(352187318272, 0)]], 3, 4⟩, ⟨[[(0, 383554511139),
    (2503500290321, 0), (3084443643, 0), (31568190, 0), (650773, 0)], [(195821298358, 0), (368071202, 0), (7091731,
    0), (245849, 0), (4280, 0)], [(0, 16399359), (485716, 0), (34445, 0), (821, 0), (12, 0)], [(14448, 0), (2155, 0),
    (76, 0), (1, 0)]], 3, 4⟩, 1099511627776, 0, 371303209, ⟨[[(51505021322271, 0), (0, 7605703481), (7761683, 0),
    (60538, 0), (641, 0)], [(4262203024, 0), (0, 2336582), (3446, 0), (139, 0), (1, 0)], [(0, 1436269), (0, 2), (8,
    0)], [(441, 0)]], 3, 4⟩, 68719476736, 5674223,
    4606650994571548784683188547808157869631026046901332887397504596213587102449003243584469933980, lc0⟩) (.sx (.leaf
    ⟨5776, 16, 82, 1411, 16, 2857, ⟨[[(0, 137438953472)], [(352187318272, 0)]], 3, 4⟩, ⟨[[(0, 189200328114),
    (3466530041475, 0), (4844759979, 0), (58106626, 0), (1125201, 0)], [(136125623953, 0), (301821875, 0), (7001591,
    0), (216199, 0), (3599, 0)], [(0, 4787711), (267198, 0), (15328, 0), (348, 0), (5, 0)], [(4056, 0), (481, 0),
    (16, 0)]], 3, 4⟩, 1099511627776, 0, 43352585, ⟨[[(51401659819955, 0), (0, 5428135411), (5197081, 0), (33671, 0),
    (238, 0)], [(2132073328, 0), (0, 817129), (2094, 0), (38, 0)], [(0, 361550), (32, 0), (2, 0)], [(56, 0)]], 3, 4⟩,
    68719476736, 1549900,
    3926208916453229667320278707355004638353757323923011217400704728561681859050061763753131251869, lc0⟩)
    (.skip))))))) (.sy (.sx (.sy (.sx (.leaf ⟨2803, 16, 41, 675, 16, 1405, ⟨[[(412316860416, 0)], [(352187318272,
    0)]], 3, 4⟩, ⟨[[(0, 549748668232), (3345504074540, 0), (7785417210, 0), (60292806, 0), (2537889, 0)],
    [(142211006570, 0), (525878766, 0), (3543499, 0), (470060, 0), (20134, 0)], [(0, 11423312), (0, 129656), (33247,
    0), (2056, 0), (65, 0)], [(0, 3885), (1133, 0), (103, 0), (4, 0)]], 3, 4⟩, 1099511627776, 0, 186185154,
    ⟨[[(51237666371086, 0), (0, 11342575155), (12550474, 0), (62329, 0), (1372, 0)], [(4585247920, 0), (0, 3425023),
    (0, 5833), (173, 0), (3, 0)], [(0, 1563368), (0, 408), (7, 0)], [(493, 0)]], 3, 4⟩, 68719476736, 19211012,
    3557481162791271747454297193769339532905492567753910260837513071054450514333699415737340236109, lc0⟩) (.sy (.leaf
    ⟨2834, 16, 41, 983, 16, 2025, ⟨[[(137438953472, 0)], [(352187318272, 0)]], 3, 4⟩, ⟨[[(271280108585, 0),
    (2429441308604, 0), (2891258365, 0), (18122632, 0), (380031, 0)], [(200612727070, 0), (366599940, 0), (3363975,
    0), (145285, 0), (2753, 0)], [(0, 17039820), (121718, 0), (20886, 0), (552, 0), (8, 0)], [(2238, 0), (1381, 0),
    (54, 0), (1, 0)]], 3, 4⟩, 1099511627776, 0, 268344525, ⟨[[(51298449230648, 0), (0, 7814411103), (6884197, 0),
    (39243, 0), (485, 0)], [(4465269281, 0), (0, 2423665), (0, 225), (97, 0), (1, 0)], [(0, 1520709), (0, 170), (6,
    0)], [(475, 0)]], 3, 4⟩, 68719476736, 4391915,
    3906914661544671361595737858731461625869612281815777210521383864451181775430441251270891551263, lc0⟩) (.sx (.leaf
    ⟨5653, 16, 82, 1371, 16, 2799, ⟨[[(0, 137438953472)], [(352187318272, 0)]], 3, 4⟩, ⟨[[(430393377760, 0),
    (3395397723427, 0), (4382223242, 0), (33797542, 0), (668487, 0)], [(140798850098, 0), (281758261, 0), (3595015,
    0), (130728, 0), (2343, 0)], [(0, 5585955), (102421, 0), (9551, 0), (237, 0), (3, 0)], [(1366, 0), (316, 0), (12,
    0)]], 3, 4⟩, 1099511627776, 0, 31569060, ⟨[[(51196208576812, 0), (0, 5544241273), (4272250, 0), (22050, 0), (175,
    0)], [(2233354131, 0), (0, 868458), (727, 0), (26, 0)], [(0, 383128), (0, 10), (1, 0)], [(60, 0)]], 3, 4⟩,
    68719476736, 1205688,
    3578136382175470603500557268339927550942654159877899237029910975011297490364593321534800924023, lc0⟩) (.leaf
    ⟨5684, 16, 82, 1380, 16, 2791, ⟨[[(0, 412316860416)], [(352187318272, 0)]], 3, 4⟩, ⟨[[(0, 346634011669),
    (3413909508311, 0), (4812573897, 0), (48604823, 0), (925473, 0)], [(139379931031, 0), (310320338, 0), (5763746,
    0), (182480, 0), (3088, 0)], [(0, 4932910), (209511, 0), (13337, 0), (309, 0), (4, 0)], [(3147, 0), (435, 0),
    (15, 0)]], 3, 4⟩, 1099511627776, 0, 40717237, ⟨[[(51193674646670, 0), (0, 5462256379), (5417587, 0), (34082, 0),
    (246, 0)], [(2198712815, 0), (0, 835356), (2070, 0), (39, 0)], [(0, 377450), (29, 0), (2, 0)], [(60, 0)]], 3, 4⟩,
    68719476736, 1638086,
    4148999924606606843156760388002949596752011972766720726997530367541622791277171193151732859113, lc0⟩)))) (.sx
    (.sy (.leaf ⟨2803, 16, 41, 964, 16, 1967, ⟨[[(412316860416, 0)], [(352187318272, 0)]], 3, 4⟩, ⟨[[(0,
    353609201458), (2394236329993, 0), (3146013671, 0), (21841813, 0), (422767, 0)], [(202581839880, 0), (416362126,
    0), (4498981, 0), (166718, 0), (3031, 0)], [(0, 15563161), (225021, 0), (24634, 0), (624, 0), (9, 0)], [(5255,
    0), (1662, 0), (63, 0), (1, 0)]], 3, 4⟩, 1099511627776, 0, 326356780, ⟨[[(51086252619740, 0), (0, 7822166908),
    (8682762, 0), (61519, 0), (694, 0)], [(4538240463, 0), (0, 2465684), (2764, 0), (148, 0), (2, 0)], [(0, 1567100),
    (0, 68), (9, 0)], [(498, 0)]], 3, 4⟩, 68719476736, 6584089,
    5079683158685530115963328152689745315694139312441219891585804497971797518624490127287031890891, lc0⟩) (.sx (.leaf
    ⟨5591, 16, 82, 1348, 16, 2727, ⟨[[(412316860416, 0)], [(352187318272, 0)]], 3, 4⟩, ⟨[[(66699901638, 0),
    (3359565422798, 0), (4806623688, 0), (39797283, 0), (737408, 0)], [(142756451093, 0), (323563246, 0), (4544713,
    0), (148384, 0), (2574, 0)], [(0, 4936753), (147815, 0), (11130, 0), (267, 0), (4, 0)], [(2072, 0), (377, 0),
    (13, 0)]], 3, 4⟩, 1099511627776, 0, 37526120, ⟨[[(50987840545793, 0), (0, 5514600194), (5453454, 0), (32470, 0),
    (242, 0)], [(2270799921, 0), (0, 860844), (1806, 0), (38, 0)], [(0, 394573), (18, 0), (2, 0)], [(63, 0)]], 3, 4⟩,
    68719476736, 1639549,
    4005029306481211652672768138166440745604920740918975056736231588810127465956781368560137533024, lc0⟩) (.sy (.leaf
    ⟨5622, 16, 82, 1942, 16, 3905, ⟨[[(137438953472, 0)], [(352187318272, 0)]], 3, 4⟩, ⟨[[(0, 470835771327),
    (2417639817567, 0), (1831584509, 0), (9108542, 0), (83270, 0)], [(202416076649, 0), (246074115, 0), (2219443, 0),
    (33596, 0), (281, 0)], [(0, 6333125), (165845, 0), (5026, 0), (58, 0)], [(5015, 0), (336, 0), (6, 0)]], 3, 4⟩,
    1099511627776, 0, 52589449, ⟨[[(51012986981590, 0), (0, 3801693837), (3141822, 0), (14520, 0), (71, 0)],
    [(2239646707, 0), (0, 572601), (1455, 0), (17, 0)], [(0, 388452), (37, 0), (1, 0)], [(62, 0)]], 3, 4⟩,
    68719476736, 415930,
    5130772023062919060612720545618121732461024089124594833337006088511997794325283598578519745937, lc0⟩) (.skip))))
    (.sy (.sx (.sy (.leaf ⟨5653, 16, 82, 1963, 16, 3966, ⟨[[(0, 137438953472)], [(352187318272, 0)]], 3, 4⟩, ⟨[[(0,
    20836478352), (2435111253771, 0), (1745823615, 0), (8468912, 0), (79593, 0)], [(201420779787, 0), (228811916, 0),
    (2008776, 0), (31678, 0), (268, 0)], [(0, 6955115), (144612, 0), (4678, 0), (54, 0)], [(4319, 0), (309, 0), (5,
    0)]], 3, 4⟩, 1099511627776, 0, 48072535, ⟨[[(51117412251343, 0), (0, 3814834347), (2723117, 0), (11943, 0), (60,
    0)], [(2221098431, 0), (0, 584950), (1055, 0), (14, 0)], [(0, 383000), (22, 0), (1, 0)], [(61, 0)]], 3, 4⟩,
    68719476736, 339359,
    3036938832616098773255663776974746569622816680105386189081160363394581714893536672568430174308, lc0⟩) (.skip))
    (.skip)) (.skip)))) (.sy (.sx (.sy (.sx (.leaf ⟨5714, 16, 82, 1391, 16, 2828, ⟨[[(412316860416, 0)],
    [(352187318272, 0)]], 3, 4⟩, ⟨[[(421014963974, 0), (3431385933482, 0), (4558339140, 0), (44528015, 0), (875580,
    0)], [(138434734071, 0), (286140732, 0), (5119484, 0), (170123, 0), (2927, 0)], [(0, 5329619), (178014, 0),
    (12267, 0), (290, 0), (4, 0)], [(2642, 0), (396, 0), (14, 0)]], 3, 4⟩, 1099511627776, 0, 37248651,
    ⟨[[(51299072946389, 0), (0, 5488332237), (4669765, 0), (27416, 0), (205, 0)], [(2182324542, 0), (0, 847746),
    (1353, 0), (32, 0)], [(0, 372292), (10, 0), (1, 0)], [(58, 0)]], 3, 4⟩, 68719476736, 1410794,
    3680936082230491762902694528883829662758548037715945559667689885102249277140320739387293061895, lc0⟩) (.sy (.leaf
    ⟨5745, 16, 82, 2021, 16, 4087, ⟨[[(137438953472, 0)], [(352187318272, 0)]], 3, 4⟩, ⟨[[(453674113986, 0),
    (2489891505471, 0), (1772017919, 0), (10282135, 0), (98419, 0)], [(198021587056, 0), (224223677, 0), (2489402,
    0), (38223, 0), (318, 0)], [(0, 6802166), (190088, 0), (5481, 0), (62, 0)], [(5786, 0), (348, 0), (6, 0)]], 3,
    4⟩, 1099511627776, 0, 51221911, ⟨[[(51325661855432, 0), (0, 3763854268), (2595268, 0), (11676, 0), (57, 0)],
    [(2153207792, 0), (0, 567361), (1072, 0), (13, 0)], [(0, 366762), (24, 0), (1, 0)], [(57, 0)]], 3, 4⟩,
    68719476736, 312142,
    3036186563766451463086022022394320362201806047206657751152997871356866462206663709237468980308, lc0⟩) (.skip)))
    (.skip)) (.skip)) (.skip))) (.skip))
theorem c63 : checkC job ⟨6, 8, 8, 10, 9, 13⟩ 1 25 lims t63 1424 48 32 57 3 256 = true := by decide +kernel

end PyX.Kron.T2c
