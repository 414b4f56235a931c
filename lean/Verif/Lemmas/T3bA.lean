import Verif.Lemmas.T3bJob

/-!
# The temperature from pressure and enthalpy in subregion 3b, part A of the certificate
-/

namespace PyX.Kron.T3b

set_option Elab.async false

def t0 : CTree :=
  .sy (.out ⟨43, 16, 106, 363, 16, 438, ⟨[[(0, 33709016890445824), (0, 1019197345424996), (113109248231, 0)],
    [(32214837102391308, 0), (0, 17703322677576), (2315605513, 0)], [(0, 105576197197871), (0, 29259584117),
    (13727554, 0)]], 2, 2⟩, ⟨[[(14028135010762752, 0), (0, 4192044653336313), (671479201239, 0)]], 2, 2⟩,
    72057594037927936, 9622185662381224, 1772074290812951, ⟨[], 0, 0⟩, 0, 0, 0, lc0⟩ 1 1 4026963214989) (.sy (.out
    ⟨54, 16, 153, 786, 16, 1005, ⟨[[(491022322021888, 0), (0, 679267266153703), (34385160015, 0)],
    [(37328444524906526, 0), (0, 11609265241603), (720118159, 0)], [(0, 165569911252603), (0, 14032228299), (4404809,
    0)]], 2, 2⟩, ⟨[[(0, 2995296861609984), (0, 4277836212474487), (323123816940, 0)]], 2, 2⟩, 72057594037927936,
    13122066338876711, 393412228350701, ⟨[], 0, 0⟩, 0, 0, 0, lc0⟩ 1 1 2338112355160) (.out ⟨56, 16, 173, 817, 16,
    1084, ⟨[[(0, 10986708470679040), (0, 730774804489884), (35560702670, 0)], [(35817419107798455, 0), (0,
    12345398029731), (743392204, 0)], [(0, 193970032088629), (0, 11153850244), (4382450, 0)]], 2, 2⟩, ⟨[[(0,
    16591841798545408), (0, 4283128046516889), (311704246162, 0)]], 2, 2⟩, 72057594037927936, 15256153247939377,
    365386025403846, ⟨[], 0, 0⟩, 0, 0, 0, lc0⟩ 1 1 1499577290475))
theorem c0 : checkR job con0 false ⟨7, 9, 7, 9, 13, 17⟩ 1 34400 t0 69 21 160 3247 251 4000 = true := by decide +kernel

def t1 : CTree :=
  .sy (.out ⟨73, 16, 124, 725, 16, 857, ⟨[[(25870179002563584, 0), (0, 1095720083845887), (72447560813, 0)],
    [(34856755901222339, 0), (0, 12287712600889), (1044501317, 0)], [(0, 17099612769515), (0, 20444398139), (3522001,
    0)]], 2, 2⟩, ⟨[[(15344127236767744, 0), (0, 4271115635858972), (349089957978, 0)]], 2, 2⟩, 72057594037927936,
    6924718015081171, 460634773635946, ⟨[], 0, 0⟩, 0, 0, 0, lc0⟩ 1 1 3125440719851) (.sy (.out ⟨91, 16, 167, 1511,
    16, 1841, ⟨[[(19763510074554368, 0), (0, 702601396949893), (22452004389, 0)], [(40909166721045163, 0), (0,
    7759938279847), (331463324, 0)], [(0, 32713601238691), (0, 11945088827), (1224995, 0)]], 2, 2⟩,
    ⟨[[(27901290059317248, 0), (0, 4317762592925839), (171183546482, 0)]], 2, 2⟩, 72057594037927936,
    8849955674805837, 108400143696887, ⟨[], 0, 0⟩, 0, 0, 0, lc0⟩ 1 1 2222234665661) (.out ⟨94, 16, 181, 1542, 16,
    1916, ⟨[[(0, 21292969127027712), (0, 737708601905717), (23083234205, 0)], [(40205917856980078, 0), (0,
    8057166734877), (344552312, 0)], [(0, 41620206474412), (0, 11611936585), (1327469, 0)]], 2, 2⟩,
    ⟨[[(19047159599349760, 0), (0, 4319994447661194), (167929813320, 0)]], 2, 2⟩, 72057594037927936,
    9428896749519553, 104244181863978, ⟨[], 0, 0⟩, 0, 0, 0, lc0⟩ 1 1 1696943037628))
theorem c1 : checkR job con0 false ⟨7, 9, 7, 9, 13, 17⟩ 1 34400 t1 111 21 160 6243 251 8000 = true := by decide +kernel

def t2 : CTree :=
  .sy (.out ⟨119, 16, 266, 786, 16, 1005, ⟨[[(11146134595969024, 0), (0, 1839706753276388), (106866176192, 0)],
    [(26224259196908495, 0), (0, 10824513827424), (868667654, 0)], [(0, 29479059370322), (0, 6219048847), (1916518,
    0)]], 2, 2⟩, ⟨[[(0, 2995296861609984), (0, 4277836212474487), (323123816940, 0)]], 2, 2⟩, 72057594037927936,
    1958935787808110, 393412228350701, ⟨[], 0, 0⟩, 0, 0, 0, lc0⟩ 1 1 1393839909339) (.sy (.out ⟨164, 16, 398, 1633,
    16, 2148, ⟨[[(15047119483418624, 0), (0, 1318182637282282), (37304939451, 0)], [(33320086404431860, 0), (0,
    7625062627800), (303425042, 0)], [(0, 47210738953294), (0, 3596516787), (687520, 0)]], 2, 2⟩,
    ⟨[[(27963712900022272, 0), (0, 4322206851633665), (158723765254, 0)]], 2, 2⟩, 72057594037927936,
    2670671924772244, 93029604884644, ⟨[], 0, 0⟩, 0, 0, 0, lc0⟩ 1 1 862299640451) (.sy (.out ⟨204, 16, 516, 3327, 16,
    4436, ⟨[[(4211607963299840, 0), (0, 836587624418254), (11700362231, 0)], [(39532048854759211, 0), (0,
    4797280967026), (95029849, 0)], [(0, 62837629183322), (0, 1997779260), (220714, 0)]], 2, 2⟩,
    ⟨[[(16753777557143552, 0), (0, 4342160085877812), (78640950573, 0)]], 2, 2⟩, 72057594037927936, 3386370362332681,
    22625156318131, ⟨[], 0, 0⟩, 0, 0, 0, lc0⟩ 1 1 648204628272) (.out ⟨208, 16, 542, 3357, 16, 4517,
    ⟨[[(18825097646120960, 0), (0, 866535736921967), (12024505540, 0)], [(39019357092190726, 0), (0, 4939926956431),
    (97554464, 0)], [(0, 66998853301871), (0, 1865550097), (232437, 0)]], 2, 2⟩, ⟨[[(33262407216168960, 0), (0,
    4342132663146620), (77931917784, 0)]], 2, 2⟩, 72057594037927936, 3536000656592806, 22218241421616, ⟨[], 0, 0⟩, 0,
    0, 0, lc0⟩ 1 1 522506439989)))
theorem c2 : checkR job con0 false ⟨7, 9, 7, 9, 13, 17⟩ 1 34400 t2 201 21 320 6745 251 8000 = true := by decide +kernel

def t3 : CTree :=
  .sy (.out ⟨172, 16, 331, 1573, 16, 1992, ⟨[[(0, 24418192105277440), (0, 1458130628339614), (46741425918, 0)],
    [(32516800606568795, 0), (0, 7270091378145), (326808069, 0)], [(0, 8394280444404), (0, 5452107443), (593888,
    0)]], 2, 2⟩, ⟨[[(0, 18088101831163904), (0, 4321062543174190), (164756264276, 0)]], 2, 2⟩, 72057594037927936,
    1967261154029359, 100297665590712, ⟨[], 0, 0⟩, 0, 0, 0, lc0⟩ 1 1 1000323005319) (.sy (.out ⟨217, 16, 437, 3206,
    16, 4119, ⟨[[(0, 21934382820712448), (0, 939717783660951), (14890424470, 0)], [(39376821198537265, 0), (0,
    4639175680407), (104578967, 0)], [(0, 13681502456310), (0, 3304231641), (195376, 0)]], 2, 2⟩,
    ⟨[[(4356928220954624, 0), (0, 4341928757754016), (81604464784, 0)]], 2, 2⟩, 72057594037927936, 2484200982902195,
    24368001460549, ⟨[], 0, 0⟩, 0, 0, 0, lc0⟩ 1 1 743288478903) (.out ⟨220, 16, 458, 3236, 16, 4197,
    ⟨[[(21744461371529216, 0), (0, 969386435294067), (15252171610, 0)], [(38855722721147916, 0), (0, 4753198437715),
    (107362680, 0)], [(0, 16025856768378), (0, 3257781758), (204069, 0)]], 2, 2⟩, ⟨[[(17224336879386624, 0), (0,
    4341834676564713), (80839983551, 0)]], 2, 2⟩, 72057594037927936, 2562366977055919, 23913033665662, ⟨[], 0, 0⟩, 0,
    0, 0, lc0⟩ 1 1 603934873916))
theorem c3 : checkR job con0 false ⟨7, 9, 7, 9, 13, 17⟩ 1 34400 t3 243 21 320 13239 251 16000 = true := by decide +kernel

def t4 : CTree :=
  .sy (.sy (.out ⟨361, 16, 794, 3267, 16, 4276, ⟨[[(2210160508289024, 0), (0, 1570285850959472), (23979653600, 0)],
    [(32032891976560098, 0), (0, 3974639390980), (87489975, 0)], [(0, 11306561261790), (0, 1203386261), (87710, 0)]],
    2, 2⟩, ⟨[[(0, 27191910276104192), (0, 4342014864356578), (80094719971, 0)]], 2, 2⟩, 72057594037927936,
    565357029742899, 23472162922691, ⟨[], 0, 0⟩, 0, 0, 0, lc0⟩ 1 1 582776518828) (.out ⟨366, 16, 830, 3297, 16, 4356,
    ⟨[[(3689887230955520, 0), (0, 1616592074808586), (24519698208, 0)], [(31422419026376692, 0), (0, 4063972257466),
    (89589670, 0)], [(0, 12427604196931), (0, 1165988305), (91569, 0)]], 2, 2⟩, ⟨[[(14816715517919232, 0), (0,
    4342454339161924), (79367871240, 0)]], 2, 2⟩, 72057594037927936, 582393478846459, 23044766445431, ⟨[], 0, 0⟩, 0,
    0, 0, lc0⟩ 1 1 446034797195)) (.sy (.out ⟨372, 16, 869, 3327, 16, 4436, ⟨[[(0, 32503993903706112), (0,
    1667056616727130), (25119654463, 0)], [(30786399580593499, 0), (0, 4161691686205), (91954926, 0)], [(0,
    13600198909068), (0, 1124359790), (96306, 0)]], 2, 2⟩, ⟨[[(16753777557143552, 0), (0, 4342160085877812),
    (78640950573, 0)]], 2, 2⟩, 72057594037927936, 600872547800872, 22625156318131, ⟨[], 0, 0⟩, 0, 0, 0, lc0⟩ 1 1
    320910491735) (.sx (.out ⟨540, 16, 1320, 3357, 16, 4517, ⟨[[(34442837795938304, 0), (0, 2429590908582247),
    (35917431255, 0)], [(22054088171312744, 0), (0, 3075405907089), (66991028, 0)], [(0, 6120654031096), (0,
    368068455), (36842, 0)]], 2, 2⟩, ⟨[[(33262407216168960, 0), (0, 4342132663146620), (77931917784, 0)]], 2, 2⟩,
    72057594037927936, 121808319479214, 22218241421616, ⟨[], 0, 0⟩, 0, 0, 0, lc0⟩ 1 1 269235725463) (.sy (.out ⟨768,
    16, 1817, 6716, 16, 9015, ⟨[[(0, 26729142465765376), (0, 1768269392564914), (13422806081, 0)],
    [(30275042232066920, 0), (0, 2151374296789), (24229846, 0)], [(0, 6309025481488), (0, 291149713), (12756, 0)]],
    2, 2⟩, ⟨[[(0, 5192362006806528), (0, 4352586359395926), (39147948512, 0)]], 2, 2⟩, 72057594037927936,
    150508290726605, 5580502810856, ⟨[], 0, 0⟩, 0, 0, 0, lc0⟩ 1 1 195931672353) (.out ⟨774, 16, 1861, 6746, 16, 9096,
    ⟨[[(0, 25331992890097664), (0, 1797360370249013), (13600927529, 0)], [(29908267872713978, 0), (0, 2178663469806),
    (24603776, 0)], [(0, 6608197811180), (0, 285025089), (13186, 0)]], 2, 2⟩, ⟨[[(0, 13485904059236352), (0,
    4352303742452457), (38969456440, 0)]], 2, 2⟩, 72057594037927936, 152882719333778, 5530033930881, ⟨[], 0, 0⟩, 0,
    0, 0, lc0⟩ 1 1 147492892050))))
theorem c4 : checkR job con0 false ⟨7, 9, 7, 9, 13, 17⟩ 1 34400 t4 465 21 640 13741 251 16000 = true := by decide +kernel

def t5 : CTree :=
  .sy (.out ⟨370, 16, 775, 3267, 16, 4276, ⟨[[(29105309986201600, 0), (0, 1697859506183688), (27144083296, 0)],
    [(30639187999538048, 0), (0, 3988234184317), (92628934, 0)], [(0, 3963723446086), (0, 1423689726), (86564, 0)]],
    2, 2⟩, ⟨[[(0, 27191910276104192), (0, 4342014864356578), (80094719971, 0)]], 2, 2⟩, 72057594037927936,
    521503746771318, 23472162922691, ⟨[], 0, 0⟩, 0, 0, 0, lc0⟩ 1 1 355182466662) (.sx (.out ⟨536, 16, 1172, 3297, 16,
    4356, ⟨[[(5299579657740288, 0), (0, 2465189045811748), (38736680073, 0)], [(21758276304545926, 0), (0,
    2925284921134), (67347964, 0)], [(0, 2402682368576), (0, 479795980), (32671, 0)]], 2, 2⟩, ⟨[[(14816715517919232,
    0), (0, 4342454339161924), (79367871240, 0)]], 2, 2⟩, 72057594037927936, 105379500913716, 23044766445431, ⟨[], 0,
    0⟩, 0, 0, 0, lc0⟩ 1 1 282294511821) (.sy (.out ⟨760, 16, 1610, 6594, 16, 8692, ⟨[[(0, 1652265633275904), (0,
    1785426060304251), (14371559011, 0)], [(30199670479657448, 0), (0, 2050546106960), (24184447, 0)], [(0,
    1453016912198), (0, 371316785), (11275, 0)]], 2, 2⟩, ⟨[[(28730170276380672, 0), (0, 4352429633674131),
    (39866541183, 0)]], 2, 2⟩, 72057594037927936, 131111855903734, 5787701741134, ⟨[], 0, 0⟩, 0, 0, 0, lc0⟩ 1 1
    200933780123) (.sy (.out ⟨970, 16, 2081, 13249, 16, 17524, ⟨[[(20483498520313856, 0), (0, 1146907435826242),
    (4606774422, 0)], [(38041016398033896, 0), (0, 1313484089960), (7761877, 0)], [(0, 2056724557429), (0,
    234482515), (3647, 0)]], 2, 2⟩, ⟨[[(23084037648809984, 0), (0, 4357375971329266), (19887340526, 0)]], 2, 2⟩,
    72057594037927936, 165758669852884, 1436968927758, ⟨[], 0, 0⟩, 0, 0, 0, lc0⟩ 1 1 163024701771) (.out ⟨976, 16,
    2110, 13280, 16, 17605, ⟨[[(0, 20131142705979392), (0, 1158213112231824), (4646153844, 0)], [(37904563701723831,
    0), (0, 1323904333995), (7835183, 0)], [(0, 2203804683317), (0, 234035774), (3701, 0)]], 2, 2⟩,
    ⟨[[(9719179996168192, 0), (0, 4357526322277176), (19842564251, 0)]], 2, 2⟩, 72057594037927936, 167158458999212,
    1430452432908, ⟨[], 0, 0⟩, 0, 0, 0, lc0⟩ 1 1 134696361360))))
theorem c5 : checkR job con0 false ⟨7, 9, 7, 9, 13, 17⟩ 1 34400 t5 507 21 640 27231 251 32000 = true := by decide +kernel

def t6 : CTree :=
  .sx (.sy (.sy (.out ⟨765, 16, 1713, 6655, 16, 8852, ⟨[[(0, 13563997076283392), (0, 1780419937814234), (13928011974,
    0)], [(30206107649917854, 0), (0, 2101000935313), (24270172, 0)], [(0, 3769024062453), (0, 332630175), (11980,
    0)]], 2, 2⟩, ⟨[[(0, 29586930908921856), (0, 4352133359274467), (39500570520, 0)]], 2, 2⟩, 72057594037927936,
    139620428865909, 5682196035050, ⟨[], 0, 0⟩, 0, 0, 0, lc0⟩ 1 1 201564697534) (.sy (.out ⟨976, 16, 2213, 13371, 16,
    17847, ⟨[[(4799231246204928, 0), (0, 1143301939438088), (4462528523, 0)], [(38005353381262147, 0), (0,
    1345360838814), (7786695, 0)], [(0, 5028741425705), (0, 209024258), (3881, 0)]], 2, 2⟩, ⟨[[(0, 739483355578368),
    (0, 4357455533183690), (19707095229, 0)]], 2, 2⟩, 72057594037927936, 176824998818800, 1410999060126, ⟨[], 0, 0⟩,
    0, 0, 0, lc0⟩ 1 1 162570410863) (.out ⟨982, 16, 2244, 13401, 16, 17928, ⟨[[(0, 23151164120031232), (0,
    1154786372095274), (4501074943, 0)], [(37854892524845641, 0), (0, 1356296562949), (7861905, 0)], [(0,
    5204592093069), (0, 207995684), (3946, 0)]], 2, 2⟩, ⟨[[(17974820531470336, 0), (0, 4357423944095354),
    (19662311977, 0)]], 2, 2⟩, 72057594037927936, 178437952370444, 1404600152417, ⟨[], 0, 0⟩, 0, 0, 0, lc0⟩ 1 1
    135418014381))) (.sx (.sy (.sy (.out ⟨1556, 16, 3606, 13431, 16, 18009, ⟨[[(0, 7990443142037504), (0,
    1825727307414599), (7063396534, 0)], [(29964660105473883, 0), (0, 1080029701313), (6223720, 0)], [(0,
    2374113053781), (0, 79624336), (1588, 0)]], 2, 2⟩, ⟨[[(26833131380932608, 0), (0, 4357348124416591),
    (19617532019, 0)]], 2, 2⟩, 72057594037927936, 36234327290528, 1398230322701, ⟨[], 0, 0⟩, 0, 0, 0, lc0⟩ 1 1
    136301492302) (.out ⟨1562, 16, 3650, 13462, 16, 18091, ⟨[[(1761863244431360, 0), (0, 1840845468731748),
    (7111721756, 0)], [(29783080329776920, 0), (0, 1086896400238), (6273593, 0)], [(0, 2443135265205), (0, 78978978),
    (1614, 0)]], 2, 2⟩, ⟨[[(7464938480205824, 0), (0, 4357469536814647), (19573839989, 0)]], 2, 2⟩,
    72057594037927936, 36502769565329, 1391966666242, ⟨[], 0, 0⟩, 0, 0, 0, lc0⟩ 1 1 113292342646)) (.sy (.out ⟨1568,
    16, 3695, 13493, 16, 18173, ⟨[[(23403185066442752, 0), (0, 1856331767562665), (7161306013, 0)],
    [(29599518454232290, 0), (0, 1093933017690), (6325464, 0)], [(0, 2512980105738), (0, 78309008), (1641, 0)]], 2,
    2⟩, ⟨[[(0, 21867779589144576), (0, 4357545742738953), (19530141954, 0)]], 2, 2⟩, 72057594037927936,
    36777435698797, 1385730873274, ⟨[], 0, 0⟩, 0, 0, 0, lc0⟩ 1 1 91671879877) (.leaf ⟨2743, 16, 3815, 1070, 16, 4895,
    ⟨[[(0, 14295959059005440), (0, 1909214790827096), (7354759710, 0), (0, 25912)], [(29995456644223177, 0), (0,
    1122915708512), (6505589, 0), (0, 16)], [(0, 2634752600268), (0, 79146933), (1703, 0)], [(4016882218, 0), (0,
    38614)]], 3, 4⟩, ⟨[[(0, 22555447638228992), (0, 1529779120719125), (2956442183, 0), (0, 31754)], [(0,
    34722123259292562), (0, 77972675040), (953901, 0), (0, 5)], [(6750419775841, 0), (56319741, 0), (230, 0)], [(0,
    1560567596), (0, 22157)]], 3, 4⟩, 72057594037927936, 85504848142, 63979511445, ⟨[[(15154586617852, 0),
    (1316182583, 0), (645395, 0), (688, 0), (1, 0)], [(1510356190, 0), (425204, 0), (0, 664), (0, 1)], [(0, 563812),
    (54, 0)], [(204, 0)]], 3, 4⟩, 17592186044416, 80960,
    4108908298045002631973242638373859481908809658925612908824595392409885253885580167607517896808410085518792769571453182338327489,
    lc0⟩))) (.leaf ⟨1171, 16, 1606, 525, 16, 2411, ⟨[[(0, 28559192377819136), (0, 3313971404748789), (51805192265,
    0), (0, 723144), (10, 0)], [(12902628910302558, 0), (0, 1919308399402), (45034271, 0), (0, 459)], [(0,
    870799647083), (0, 146029938), (11413, 0)], [(1676249513, 0), (0, 69070)]], 3, 4⟩, ⟨[[(0, 8536076757639168), (0,
    3029188277260127), (24179468560, 0), (0, 983201), (0, 27)], [(0, 16799404949965714), (0, 147429738585), (7737826,
    0), (0, 100)], [(3209866919770, 0), (104864553, 0), (1654, 0)], [(0, 734670566), (0, 42727), (1, 0)]], 3, 4⟩,
    72057594037927936, 38016262072, 48102103772, ⟨[[(15206704192585, 0), (2695484457, 0), (2523824, 0), (5403, 0),
    (11, 0)], [(3482139385, 0), (2093921, 0), (0, 6116), (0, 15)], [(0, 3052684), (477, 0), (9, 0)], [(2587, 0), (0,
    2)]], 3, 4⟩, 17592186044416, 454036,
    4949288644070446721186238348581960550933559486558333211285175065016710710771077742063420671278083620420744202466761013507148216,
    lc0⟩))) (.sy (.sx (.sy (.sy (.out ⟨1545, 16, 3388, 13310, 16, 17685, ⟨[[(3763481335332864, 0), (0,
    1830109792282786), (7289956824, 0)], [(29943312156246662, 0), (0, 1052755188099), (6200674, 0)], [(0,
    1157431870707), (0, 89990136), (1486, 0)]], 2, 2⟩, ⟨[[(4051779979968512, 0), (0, 4357383583551640), (19796660640,
    0)]], 2, 2⟩, 72057594037927936, 33846729127291, 1423884646208, ⟨[], 0, 0⟩, 0, 0, 0, lc0⟩ 1 1 136785349812) (.out
    ⟨1551, 16, 3429, 13341, 16, 17766, ⟨[[(0, 9261905247322112), (0, 1844868827570410), (7339221102, 0)],
    [(29772372851345085, 0), (0, 1059207940615), (6248718, 0)], [(0, 1216781123666), (0, 89568053), (1506, 0)]], 2,
    2⟩, ⟨[[(0, 29377062782238720), (0, 4357442284753633), (19751879047, 0)]], 2, 2⟩, 72057594037927936,
    34071698887561, 1417427231199, ⟨[], 0, 0⟩, 0, 0, 0, lc0⟩ 1 1 112194382745)) (.leaf ⟨1848, 16, 2482, 811, 16,
    3681, ⟨[[(20503977636265984, 0), (0, 2654791129103114), (21082084783, 0), (0, 147013), (1, 0)],
    [(20975270450821858, 0), (0, 1519784531086), (17978960, 0), (0, 98)], [(0, 928937492196), (0, 126374450), (4375,
    0)], [(2598738173, 0), (0, 56480)]], 3, 4⟩, ⟨[[(0, 12929546486095872), (0, 2331402209535781), (9772554162, 0),
    (0, 182971), (0, 1)], [(0, 25161222082844069), (0, 110537672243), (3027928, 0), (0, 6)], [(4704869606398, 0),
    (75131102, 0), (500, 0)], [(0, 1059564723), (0, 32017)]], 3, 4⟩, 72057594037927936, 36571466387, 44692264384,
    ⟨[[(15308212609245, 0), (1819312719, 0), (1061204, 0), (1487, 0), (2, 0)], [(2166636500, 0), (865283, 0), (0,
    1655), (0, 3)], [(0, 1199985), (119, 0), (2, 0)], [(640, 0)]], 3, 4⟩, 17592186044416, 158453,
    4410072387163426122528497453300961468893095005689733449627008211879218689928978266780376608527095481032731148988159689644149923,
    lc0⟩)) (.leaf ⟨1135, 16, 1506, 528, 16, 2417, ⟨[[(0, 25550115480125440), (0, 3312768034366068), (53296749672, 0),
    (0, 740649), (15, 0)], [(12921934817565253, 0), (0, 1868765962291), (44708554, 0), (0, 485)], [(0, 345433211895),
    (0, 164889174), (10615, 0)], [(1570917048, 0), (0, 72151)]], 3, 4⟩, ⟨[[(13737184576274432, 0), (0,
    3074165666193601), (26364937752, 0), (0, 958045), (0, 5)], [(0, 16248043950598260), (0, 139118565463), (8066377,
    0), (1, 0)], [(2991431182991, 0), (93112812, 0), (1259, 0)], [(0, 666725692), (0, 40952)]], 3, 4⟩,
    72057594037927936, 21275280099, 39759654313, ⟨[[(15343901743284, 0), (2779412061, 0), (2309276, 0), (4890, 0),
    (9, 0)], [(3473131904, 0), (2237839, 0), (0, 5875), (0, 13)], [(0, 3146046), (311, 0), (9, 0)], [(2739, 0), (0,
    2)]], 3, 4⟩, 17592186044416, 486921,
    3938657804951863035592549012122573276908416678470815799652650042000138992127815460739044025377765061004499044183395402476837683,
    lc0⟩)) (.leaf ⟨926, 16, 1258, 390, 16, 1844, ⟨[[(0, 17876945890410496), (0, 2691058662634481), (42837553179, 0),
    (0, 588733), (10, 0)], [(20072747429817006, 0), (0, 3036987344812), (72807304, 0), (0, 696)], [(0,
    1745648728847), (0, 500189162), (35831, 0)], [(10306721274, 0), (0, 469524)]], 3, 4⟩, ⟨[[(24769297222107136, 0),
    (0, 2323601162092842), (18871107813, 0), (0, 755501), (0, 22)], [(0, 25091800303143241), (0, 206073068163),
    (12165566, 0), (0, 70)], [(9406009472593, 0), (296610423, 0), (5371, 0), (1, 0)], [(0, 4267846198), (0, 251005),
    (3, 0)]], 3, 4⟩, 72057594037927936, 295178256160, 367838610261, ⟨[[(15204721292794, 0), (3462535242, 0),
    (3818108, 0), (10352, 0), (29, 0)], [(4317475589, 0), (3795340, 0), (0, 11724), (0, 30)], [(0, 4843898), (383,
    0), (20, 0)], [(5238, 0), (0, 5)]], 3, 4⟩, 17592186044416, 1197307,
    2520143135659660369050179495859226735979166950522874037919768582760360693534215250688649404793408304386841393870368328488797497,
    lc0⟩))
theorem c6 : checkR job con0 false ⟨7, 9, 7, 9, 13, 17⟩ 1 34400 t6 507 21 640 27733 251 32000 = true := by decide +kernel

def t7 : CTree :=
  .sx (.sy (.out ⟨163, 16, 221, 1451, 16, 1697, ⟨[[(0, 19757686938163200), (0, 1365816442775716), (49479506913, 0)],
    [(33472190508944567, 0), (0, 6279329619537), (275582391, 0)], [(22746055910276, 0), (0, 6280096355), (198969,
    0)]], 2, 2⟩, ⟨[[(0, 5557220655906816), (0, 4316859148948244), (178242666871, 0)]], 2, 2⟩, 72057594037927936,
    1541679448009495, 117598298995047, ⟨[], 0, 0⟩, 0, 0, 0, lc0⟩ 1 1 2150582949645) (.out ⟨165, 16, 238, 1481, 16,
    1768, ⟨[[(12938456413419520, 0), (0, 1418613364469658), (50847030807, 0)], [(32726731188164980, 0), (0,
    6466439340517), (292398630, 0)], [(21161145476554, 0), (0, 6509849482), (287530, 0)]], 2, 2⟩, ⟨[[(0,
    4948524154716160), (0, 4316667944096783), (174615425917, 0)]], 2, 2⟩, 72057594037927936, 1610040490121788,
    112841747398388, ⟨[], 0, 0⟩, 0, 0, 0, lc0⟩ 1 1 1623883088192)) (.sy (.sy (.out ⟨198, 16, 235, 2901, 16, 3376,
    ⟨[[(0, 28487081588305920), (0, 880874776689583), (16439141004, 0)], [(39472135986222872, 0), (0, 3683534634856),
    (74563759, 0)], [(47731328515218, 0), (0, 3948533484), (0, 29964)]], 2, 2⟩, ⟨[[(35385253782421504, 0), (0,
    4338814733388909), (90041188150, 0)]], 2, 2⟩, 72057594037927936, 1821441641146959, 29703018803751, ⟨[], 0, 0⟩, 0,
    0, 0, lc0⟩ 1 1 1347950172899) (.out ⟨200, 16, 245, 2932, 16, 3447, ⟨[[(0, 23414536136081408), (0,
    901309981351599), (16823020977, 0)], [(39243643236357577, 0), (0, 3761807223457), (78546725, 0)],
    [(47689793770244, 0), (0, 4137657732), (0, 11063)]], 2, 2⟩, ⟨[[(0, 2358505775464448), (0, 4339183536598189),
    (89120407825, 0)]], 2, 2⟩, 72057594037927936, 1881179999744621, 29094582329016, ⟨[], 0, 0⟩, 0, 0, 0, lc0⟩ 1 1
    1108994419860)) (.sx (.out ⟨246, 16, 326, 1481, 16, 1768, ⟨[[(25229344403908608, 0), (0, 2231517555423536),
    (82595065179, 0)], [(23673541117369944, 0), (0, 4734369222323), (209685807, 0)], [(12835813414876, 0), (0,
    2623385336), (46379, 0)]], 2, 2⟩, ⟨[[(0, 4948524154716160), (0, 4316667944096783), (174615425917, 0)]], 2, 2⟩,
    72057594037927936, 331765370226343, 112841747398388, ⟨[], 0, 0⟩, 0, 0, 0, lc0⟩ 1 1 1010643927497) (.sy (.out
    ⟨334, 16, 411, 2963, 16, 3519, ⟨[[(0, 15257364013350912), (0, 1549568338915838), (29084904694, 0)],
    [(32207517028958933, 0), (0, 3163298072331), (66299566, 0)], [(21755830198548, 0), (0, 1805256354), (0, 6827)]],
    2, 2⟩, ⟨[[(0, 24258355806404608), (0, 4339866902046595), (88224815557, 0)]], 2, 2⟩, 72057594037927936,
    405807618071582, 28506766530851, ⟨[], 0, 0⟩, 0, 0, 0, lc0⟩ 1 1 666124087629) (.sx (.out ⟨496, 16, 640, 2993, 16,
    3591, ⟨[[(15268873356861440, 0), (0, 2317569112197534), (43385672197, 0)], [(23522930785351912, 0), (0,
    2381577538072), (52043422, 0)], [(7607105671519, 0), (0, 688785346), (2362, 0)]], 2, 2⟩, ⟨[[(0,
    18789664732545024), (0, 4339637157965625), (87328942869, 0)]], 2, 2⟩, 72057594037927936, 83852220424278,
    27930797607643, ⟨[], 0, 0⟩, 0, 0, 0, lc0⟩ 1 1 581605194891) (.sy (.out ⟨677, 16, 843, 5986, 16, 7165,
    ⟨[[(34741129310740480, 0), (0, 1600575253647382), (15073328150, 0)], [(32286856267355355, 0), (0, 1616019834253),
    (17106850, 0)], [(11493654895734, 0), (0, 472608212), (0, 731)]], 2, 2⟩, ⟨[[(30945129580134400, 0), (0,
    4351315913054085), (43892832128, 0)]], 2, 2⟩, 72057594037927936, 104241710691830, 7019218229365, ⟨[], 0, 0⟩, 0,
    0, 0, lc0⟩ 1 1 406351809050) (.out ⟨679, 16, 859, 6017, 16, 7238, ⟨[[(2298851470942208, 0), (0,
    1615600701936754), (15224533344, 0)], [(32077416945237882, 0), (0, 1629143857599), (17521695, 0)],
    [(11469910163003, 0), (0, 482042821), (0, 185)]], 2, 2⟩, ⟨[[(0, 3384911211266048), (0, 4351467410851401),
    (43673207853, 0)]], 2, 2⟩, 72057594037927936, 105575916146299, 6948819767100, ⟨[], 0, 0⟩, 0, 0, 0, lc0⟩ 1 1
    312350211344))))))
theorem c7 : checkR job con0 false ⟨7, 9, 7, 9, 13, 17⟩ 1 34400 t7 153 21 160 12235 251 16000 = true := by decide +kernel

def t8 : CTree :=
  .sy (.out ⟨169, 16, 258, 1511, 16, 1841, ⟨[[(0, 33399016661473280), (0, 1483762555846650), (52593781697, 0)],
    [(32037300467367589, 0), (0, 6694752216434), (310406645, 0)], [(19480897444211, 0), (0, 6711727813), (372921,
    0)]], 2, 2⟩, ⟨[[(27901290059317248, 0), (0, 4317762592925839), (171183546482, 0)]], 2, 2⟩, 72057594037927936,
    1682932103285133, 108400143696887, ⟨[], 0, 0⟩, 0, 0, 0, lc0⟩ 1 1 1120948865169) (.sy (.out ⟨213, 16, 341, 3084,
    16, 3813, ⟨[[(0, 25648481011423232), (0, 954830354864483), (16780020366, 0)], [(39070213979576838, 0), (0,
    4271228929554), (100598090, 0)], [(22480275183867, 0), (0, 4240913002), (134622, 0)]], 2, 2⟩,
    ⟨[[(20287806523637760, 0), (0, 4340825168841059), (84783397505, 0)]], 2, 2⟩, 72057594037927936, 2101531041666426,
    26315088849587, ⟨[], 0, 0⟩, 0, 0, 0, lc0⟩ 1 1 835496476823) (.out ⟨216, 16, 357, 3114, 16, 3888, ⟨[[(0,
    20293595453845504), (0, 982197369181771), (17164595460, 0)], [(38685073432547005, 0), (0, 4366651248883),
    (103802921, 0)], [(21342303398305, 0), (0, 4295180363), (147119, 0)]], 2, 2⟩, ⟨[[(29655756417990656, 0), (0,
    4340670462670463), (83957185793, 0)]], 2, 2⟩, 72057594037927936, 2151877645633592, 25804393654216, ⟨[], 0, 0⟩, 0,
    0, 0, lc0⟩ 1 1 657916247956))
theorem c8 : checkR job con0 false ⟨7, 9, 7, 9, 13, 17⟩ 1 34400 t8 285 21 320 12737 251 16000 = true := by decide +kernel

def t9 : CTree :=
  .sy (.out ⟨342, 16, 475, 3023, 16, 3664, ⟨[[(13785201332412416, 0), (0, 1581106052341435), (29166732708, 0)],
    [(31939767691423451, 0), (0, 3334158556428), (76222296, 0)], [(17274831526052, 0), (0, 1878282227), (26566, 0)]],
    2, 2⟩, ⟨[[(2782986447323136, 0), (0, 4339732837197001), (86457472601, 0)]], 2, 2⟩, 72057594037927936,
    422192476034052, 27374133344476, ⟨[], 0, 0⟩, 0, 0, 0, lc0⟩ 1 1 691053500140) (.sy (.out ⟨427, 16, 607, 6108, 16,
    7458, ⟨[[(0, 14383241087299584), (0, 996320201391946), (9172702584, 0)], [(39225301191318376, 0), (0,
    2093729501034), (24279236, 0)], [(21176797571654, 0), (0, 1186306165), (9841, 0)]], 2, 2⟩, ⟨[[(0,
    34248139546165248), (0, 4351201133485438), (43020289427, 0)]], 2, 2⟩, 72057594037927936, 522066849927329,
    6742760963990, ⟨[], 0, 0⟩, 0, 0, 0, lc0⟩ 1 1 547837478301) (.out ⟨430, 16, 621, 6138, 16, 7533, ⟨[[(0,
    30565029609259008), (0, 1009927213992071), (9285891345, 0)], [(39060963762669044, 0), (0, 2117113085193),
    (24773584, 0)], [(21058573451410, 0), (0, 1203126678), (10920, 0)]], 2, 2⟩, ⟨[[(34370649306562560, 0), (0,
    4351654118295127), (42812279190, 0)]], 2, 2⟩, 72057594037927936, 528787200687100, 6676936713882, ⟨[], 0, 0⟩, 0,
    0, 0, lc0⟩ 1 1 450317612961))
theorem c9 : checkR job con0 false ⟨7, 9, 7, 9, 13, 17⟩ 1 34400 t9 633 21 640 25223 251 32000 = true := by decide +kernel

def t10 : CTree :=
  .sx (.sy (.sy (.out ⟨686, 16, 907, 6047, 16, 7311, ⟨[[(13300231684939776, 0), (0, 1619229983625076), (15153130708,
    0)], [(32076130028802536, 0), (0, 1659754142548), (18497491, 0)], [(10413794522952, 0), (0, 486250840), (1568,
    0)]], 2, 2⟩, ⟨[[(12290762189373440, 0), (0, 4351397177019339), (43453571306, 0)]], 2, 2⟩, 72057594037927936,
    106282317612204, 6879126930640, ⟨[], 0, 0⟩, 0, 0, 0, lc0⟩ 1 1 433885359725) (.out ⟨688, 16, 925, 6077, 16, 7384,
    ⟨[[(25346093038714880, 0), (0, 1635923506551509), (15305392380, 0)], [(31867725781055336, 0), (0, 1673740308094),
    (18887634, 0)], [(10371963562333, 0), (0, 494058775), (2066, 0)]], 2, 2⟩, ⟨[[(6244541843767296, 0), (0,
    4351111808411401), (43233988220, 0)]], 2, 2⟩, 72057594037927936, 107510455685434, 6810139572529, ⟨[], 0, 0⟩, 0,
    0, 0, lc0⟩ 1 1 347661750097)) (.sx (.sy (.out ⟨1005, 16, 1382, 6108, 16, 7458, ⟨[[(0, 17746411445428224), (0,
    2395432220837947), (22349341357, 0)], [(23025878624632884, 0), (0, 1228495347191), (14075802, 0)],
    [(3650263058007, 0), (0, 181238657), (1024, 0)]], 2, 2⟩, ⟨[[(0, 34248139546165248), (0, 4351201133485438),
    (43020289427, 0)]], 2, 2⟩, 72057594037927936, 21692609053818, 6742760963990, ⟨[], 0, 0⟩, 0, 0, 0, lc0⟩ 1 1
    310364389374) (.out ⟨1005, 16, 1406, 6138, 16, 7533, ⟨[[(21885322005594112, 0), (0, 2414316299383449),
    (22512274717, 0)], [(22801942945515791, 0), (0, 1235455635017), (14311547, 0)], [(3621367605036, 0), (0,
    183263581), (1193, 0)]], 2, 2⟩, ⟨[[(34370649306562560, 0), (0, 4351654118295127), (42812279190, 0)]], 2, 2⟩,
    72057594037927936, 21881519047655, 6676936713882, ⟨[], 0, 0⟩, 0, 0, 0, lc0⟩ 1 1 226695821833)) (.sy (.sy (.out
    ⟨1387, 16, 1875, 12216, 16, 14899, ⟨[[(21728942979760128, 0), (0, 1664107983784993), (7800380074, 0)],
    [(31882993280529475, 0), (0, 846244020051), (4800011, 0)], [(5342532852819, 0), (0, 126381336), (272, 0)]], 2,
    2⟩, ⟨[[(20602699012898816, 0), (0, 4357047895000077), (21565807385, 0)]], 2, 2⟩, 72057594037927936,
    27217213521864, 1690052430350, ⟨[], 0, 0⟩, 0, 0, 0, lc0⟩ 1 1 232137134445) (.out ⟨1390, 16, 1894, 12247, 16,
    14973, ⟨[[(0, 23323927323803648), (0, 1673079050466382), (7841481583, 0)], [(31778177027508224, 0), (0,
    849950363070), (4850270, 0)], [(5332655879132, 0), (0, 127371618), (303, 0)]], 2, 2⟩, ⟨[[(0, 33701335699816448),
    (0, 4357009597489859), (21512166160, 0)]], 2, 2⟩, 72057594037927936, 27372793583621, 1681665027555, ⟨[], 0, 0⟩,
    0, 0, 0, lc0⟩ 1 1 190961379348)) (.leaf ⟨1441, 16, 1409, 961, 16, 3816, ⟨[[(0, 18690562950938624), (0,
    2471794604281170), (23164688744, 0), (0, 149852)], [(23166604515214878, 0), (0, 1253734726294), (14435513, 0)],
    [(3895896177246, 0), (0, 188784002), (1026, 0)], [(2140813097, 0), (0, 40370), (0, 1)]], 3, 4⟩,
    ⟨[[(16438224358170624, 0), (0, 2740395454304040), (18800054746, 0), (0, 320779), (4, 0)], [(0,
    20270214584933227), (0, 120154129028), (4211619, 0), (0, 45)], [(3098592107210, 0), (13543294, 0), (1038, 0)],
    [(0, 393270139), (0, 25525)]], 3, 4⟩, 72057594037927936, 57376331232, 30046367912, ⟨[[(16669439347448, 0),
    (2423981753, 0), (559838, 0), (402, 0)], [(2102498443, 0), (1009310, 0), (0, 1204), (0, 1)], [(0, 1504276), (0,
    193), (2, 0)], [(992, 0)]], 3, 4⟩, 17592186044416, 164171,
    5053508488314969849274250748481086903701761151780546206108138958835872331216049197396215148506815626462041203836971674974114506,
    lc0⟩)))) (.sy (.sx (.sy (.out ⟨995, 16, 1289, 6047, 16, 7311, ⟨[[(23242052972355584, 0), (0, 2376194718674969),
    (22365041677, 0)], [(23282933639896646, 0), (0, 1201550728967), (13195031, 0)], [(4082029858885, 0), (0,
    178855712), (245, 0)]], 2, 2⟩, ⟨[[(12290762189373440, 0), (0, 4351397177019339), (43453571306, 0)]], 2, 2⟩,
    72057594037927936, 21318878299534, 6879126930640, ⟨[], 0, 0⟩, 0, 0, 0, lc0⟩ 1 1 278119028894) (.sy (.out ⟨1378,
    16, 1807, 12155, 16, 14751, ⟨[[(0, 2783958287106048), (0, 1653784724761447), (7784257456, 0)],
    [(32007902219207979, 0), (0, 835231746654), (4634687, 0)], [(5628099902776, 0), (0, 125199382), (134, 0)]], 2,
    2⟩, ⟨[[(24498519556096000, 0), (0, 4356962627905995), (21673088369, 0)]], 2, 2⟩, 72057594037927936,
    27013001324186, 1706952830905, ⟨[], 0, 0⟩, 0, 0, 0, lc0⟩ 1 1 211592827868) (.out ⟨1380, 16, 1825, 12186, 16,
    14825, ⟨[[(5688620221841408, 0), (0, 1662383513617981), (7825432242, 0)], [(31904458452236830, 0), (0,
    838849154612), (4686632, 0)], [(5620723608582, 0), (0, 126294278), (167, 0)]], 2, 2⟩, ⟨[[(0, 8008632022204416),
    (0, 4357032507401605), (21619449457, 0)]], 2, 2⟩, 72057594037927936, 27175569568716, 1698481670387, ⟨[], 0, 0⟩,
    0, 0, 0, lc0⟩ 1 1 172606729645))) (.sy (.sy (.out ⟨1369, 16, 1741, 12095, 16, 14604, ⟨[[(0, 34212934106251264),
    (0, 1642899446668167), (7756222913, 0)], [(32131753462675206, 0), (0, 823936298994), (4454049, 0)],
    [(5897658363849, 0), (0, 123383211), (0, 13)]], 2, 2⟩, ⟨[[(0, 28073125944492032), (0, 4356954444963899),
    (21781831678, 0)]], 2, 2⟩, 72057594037927936, 26768003614806, 1724138981390, ⟨[], 0, 0⟩, 0, 0, 0, lc0⟩ 1 1
    190563001731) (.out ⟨1370, 16, 1758, 12125, 16, 14677, ⟨[[(25814969976061952, 0), (0, 1651095599889030),
    (7797395194, 0)], [(32028983564199717, 0), (0, 827460925255), (4507682, 0)], [(5892702436923, 0), (0, 124584022),
    (21, 0)]], 2, 2⟩, ⟨[[(0, 26073188539170816), (0, 4356837437584275), (21726720013, 0)]], 2, 2⟩, 72057594037927936,
    26938086393621, 1715465962179, ⟨[], 0, 0⟩, 0, 0, 0, lc0⟩ 1 1 153196008181)) (.leaf ⟨1401, 16, 1312, 977, 16,
    3819, ⟨[[(0, 11024500100382720), (0, 2446964879392498), (23121584588, 0), (0, 137734)], [(23440218882093690, 0),
    (0, 1224924375155), (13496425, 0), (33, 0)], [(4327743441165, 0), (0, 185850009), (214, 0)], [(2119717757, 0),
    (0, 32187), (0, 2)]], 3, 4⟩, ⟨[[(18830808985329664, 0), (0, 2792073957653622), (20177282231, 0), (0, 339219), (3,
    0)], [(0, 19649701162771520), (0, 127476683313), (4541503, 0), (0, 49)], [(3001939087162, 0), (4982581, 0),
    (1145, 0)], [(0, 319225372), (0, 25033)]], 3, 4⟩, 72057594037927936, 57504509121, 29528960152,
    ⟨[[(16835282951669, 0), (2500472646, 0), (504700, 0), (355, 0), (1, 0)], [(2080568913, 0), (1018611, 0), (0,
    1124), (0, 1)], [(0, 1537126), (0, 243), (2, 0)], [(1044, 0)]], 3, 4⟩, 17592186044416, 169579,
    3469594600260628698812477408789404266548493928856876520441038275331647369937291256011721195107852204762094476705048809460276641,
    lc0⟩))) (.leaf ⟨702, 16, 673, 477, 16, 1910, ⟨[[(14162536491704320, 0), (0, 2449026933662267), (46217361812, 0),
    (0, 570364), (0, 1)], [(22931635562383281, 0), (0, 2455655730875), (55540771, 0), (136, 0)], [(8323795342048, 0),
    (0, 751365611), (4930, 0), (2, 0)], [(8498207832, 0), (0, 290980), (0, 26)]], 3, 4⟩, ⟨[[(9478020741107712, 0),
    (0, 2760442608153770), (38669984296, 0), (0, 1311401), (30, 0)], [(0, 19875058470396486), (0, 242131753538),
    (17541754, 0), (0, 386)], [(6057608808197, 0), (32983917, 0), (8729, 0)], [(0, 1401328535), (0, 199994), (3,
    0)]], 3, 4⟩, 72057594037927936, 466083966897, 238060071195, ⟨[[(16709008449030, 0), (4883758574, 0), (2067360,
    0), (2932, 0), (0, 3)], [(4209116913, 0), (4244354, 0), (0, 9010), (0, 19)], [(0, 6223638), (0, 2197), (27, 0)],
    [(8502, 0), (0, 5)]], 3, 4⟩, 17592186044416, 2624862,
    4297466885212698089414610394395108007836830522996690665653470153714096743747612981180844642944059659819460337435123426207491003,
    lc0⟩))
theorem c10 : checkR job con0 false ⟨7, 9, 7, 9, 13, 17⟩ 1 34400 t10 675 21 640 25223 251 32000 = true := by decide +kernel

def t11 : CTree :=
  .sx (.sy (.out ⟨506, 16, 760, 3084, 16, 3813, ⟨[[(18335030011199488, 0), (0, 2384866526114434), (43480792273, 0)],
    [(22687169610166619, 0), (0, 2515454363112), (59698143, 0)], [(5640668785015, 0), (0, 702325122), (15666, 0)]],
    2, 2⟩, ⟨[[(20287806523637760, 0), (0, 4340825168841059), (84783397505, 0)]], 2, 2⟩, 72057594037927936,
    88065128443358, 26315088849587, ⟨[], 0, 0⟩, 0, 0, 0, lc0⟩ 1 1 423936050832) (.sy (.out ⟨710, 16, 1092, 6230, 16,
    7758, ⟨[[(0, 26977813866668032), (0, 1690006209625228), (15367384007, 0)], [(31249224337022958, 0), (0,
    1774970340612), (21294791, 0)], [(7728084151220, 0), (0, 495772883), (6040, 0)]], 2, 2⟩, ⟨[[(0,
    34140016386768896), (0, 4351723888667142), (42187898214, 0)]], 2, 2⟩, 72057594037927936, 111357751638306,
    6483263609306, ⟨[], 0, 0⟩, 0, 0, 0, lc0⟩ 1 1 305481825945) (.sy (.out ⟨891, 16, 1388, 12520, 16, 15649, ⟨[[(0,
    14926965074477056), (0, 1066727204386612), (4843733442, 0)], [(38874121167873384, 0), (0, 1117877654191),
    (6740649, 0)], [(9586721312286, 0), (0, 312143403), (1979, 0)]], 2, 2⟩, ⟨[[(10843292037808128, 0), (0,
    4357160757513200), (21043494518, 0)]], 2, 2⟩, 72057594037927936, 137949371947297, 1609089162589, ⟨[], 0, 0⟩, 0,
    0, 0, lc0⟩ 1 1 248377197680) (.out ⟨894, 16, 1405, 12551, 16, 15725, ⟨[[(14246911819948032, 0), (0,
    1074882937335478), (4876586515, 0)], [(38783915311879723, 0), (0, 1124727944672), (6804762, 0)], [(9546030696091,
    0), (0, 313936492), (2041, 0)]], 2, 2⟩, ⟨[[(0, 34109258563584000), (0, 4357168168317475), (20992634160, 0)]], 2,
    2⟩, 72057594037927936, 138816051125306, 1601313067895, ⟨[], 0, 0⟩, 0, 0, 0, lc0⟩ 1 1 217158753409)))) (.sy (.sy
    (.out ⟨700, 16, 1016, 6168, 16, 7607, ⟨[[(33967231207866368, 0), (0, 1673299643858009), (15458794647, 0)],
    [(31455510109169176, 0), (0, 1732355704435), (20395693, 0)], [(9090047613907, 0), (0, 502913445), (4449, 0)]], 2,
    2⟩, ⟨[[(22637835586699264, 0), (0, 4351316023588810), (42598568960, 0)]], 2, 2⟩, 72057594037927936,
    110150088926668, 6610876442034, ⟨[], 0, 0⟩, 0, 0, 0, lc0⟩ 1 1 289785093610) (.sy (.out ⟨876, 16, 1287, 12399, 16,
    15347, ⟨[[(19682130422849536, 0), (0, 1052467341340066), (4857476433, 0)], [(39023166629777646, 0), (0,
    1087498639637), (6444836, 0)], [(11275619032676, 0), (0, 316346023), (1489, 0)]], 2, 2⟩, ⟨[[(0,
    16264108877676544), (0, 4357175888295810), (21249644659, 0)]], 2, 2⟩, 72057594037927936, 136179403359504,
    1640783859613, ⟨[], 0, 0⟩, 0, 0, 0, lc0⟩ 1 1 231960104971) (.out ⟨879, 16, 1302, 12429, 16, 15422,
    ⟨[[(6171484903653376, 0), (0, 1059812955722930), (4888523016, 0)], [(38927337200752902, 0), (0, 1093632672000),
    (6509345, 0)], [(11246763776851, 0), (0, 318495133), (1557, 0)]], 2, 2⟩, ⟨[[(0, 4489267090161664), (0,
    4357108752805006), (21197421310, 0)]], 2, 2⟩, 72057594037927936, 137021841097971, 1632749268005, ⟨[], 0, 0⟩, 0,
    0, 0, lc0⟩ 1 1 192552980181))) (.sx (.sy (.sy (.out ⟨1422, 16, 2137, 12459, 16, 15497, ⟨[[(0, 27414897479073792),
    (0, 1712780626835111), (7870125942, 0)], [(31309792099680634, 0), (0, 886725244734), (5304471, 0)],
    [(4362145912809, 0), (0, 127928176), (679, 0)]], 2, 2⟩, ⟨[[(0, 3304991102205952), (0, 4356990546648364),
    (21145204569, 0)]], 2, 2⟩, 72057594037927936, 27979328198676, 1624754330254, ⟨[], 0, 0⟩, 0, 0, 0, lc0⟩ 1 1
    196443127927) (.out ⟨1425, 16, 2160, 12490, 16, 15573, ⟨[[(0, 8136464940122112), (0, 1723249254174417),
    (7912937618, 0)], [(31198194877502220, 0), (0, 890891292729), (5350595, 0)], [(4344357963532, 0), (0, 128606748),
    (705, 0)]], 2, 2⟩, ⟨[[(0, 26901094308380672), (0, 4357101801665488), (21094352547, 0)]], 2, 2⟩,
    72057594037927936, 28121563360656, 1616902901165, ⟨[], 0, 0⟩, 0, 0, 0, lc0⟩ 1 1 162601948122)) (.leaf ⟨1512, 16,
    1593, 922, 16, 3815, ⟨[[(24008888941903872, 0), (0, 2524284744103290), (23158778818, 0), (0, 162701), (1, 0)],
    [(22516158425310101, 0), (0, 1302198420527), (15732302, 0), (0, 48)], [(3132842324256, 0), (0, 188099600), (2157,
    0)], [(2173172318, 0), (0, 50891), (0, 1)]], 3, 4⟩, ⟨[[(12790758402686976, 0), (0, 2654544661976047),
    (16480050145, 0), (0, 281231), (5, 0)], [(0, 21300337226242880), (0, 109320001022), (3744214, 0), (0, 32)],
    [(3311266106305, 0), (26991863, 0), (795, 0)], [(0, 521317620), (0, 26132)]], 3, 4⟩, 72057594037927936,
    54422244650, 32665939168, ⟨[[(16345382290689, 0), (2266237254, 0), (640322, 0), (603, 0)], [(2128816707, 0),
    (1019257, 0), (0, 1285), (0, 2)], [(0, 1448925), (0, 148), (2, 0)], [(908, 0)]], 3, 4⟩, 17592186044416, 197063,
    4705612447734640614341417333218964218274071026786200316602580616265051320215456101053611630200603171502139661554566388900623179,
    lc0⟩)) (.leaf ⟨948, 16, 984, 574, 16, 2384, ⟨[[(0, 7923075594559488), (0, 3201308533181800), (59169594250, 0),
    (0, 816393), (6, 0)], [(14283001918873301, 0), (0, 1638471617014), (39383939, 0), (0, 194)], [(2136333923376, 0),
    (0, 241580808), (4928, 0)], [(1379050458, 0), (0, 62660), (0, 2)]], 3, 4⟩, ⟨[[(25909451469389824, 0), (0,
    3333846546833948), (42126615261, 0), (0, 1436206), (46, 0)], [(0, 13121534859116936), (0, 136366381878),
    (9594008, 0), (0, 176)], [(2025506972816, 0), (29137141, 0), (2109, 0)], [(0, 305445393), (0, 32160), (1, 0)]],
    3, 4⟩, 72057594037927936, 41217287673, 23406450216, ⟨[[(16385107059363, 0), (3656740953, 0), (1552098, 0), (2363,
    0), (0, 3)], [(3336315306, 0), (2642924, 0), (0, 4942), (0, 9)], [(0, 3637719), (0, 785), (11, 0)], [(3661, 0),
    (0, 2)]], 3, 4⟩, 17592186044416, 605004,
    4212031408548188322398133365346758640030530151948415123282964951968797603219009929298627135291738119141907080659742920280267519,
    lc0⟩)))
theorem c11 : checkR job con0 false ⟨7, 9, 7, 9, 13, 17⟩ 1 34400 t11 633 21 640 25725 251 32000 = true := by decide +kernel

def t12 : CTree :=
  .sx (.sy (.sx (.sy (.sy (.out ⟨1402, 16, 1986, 12337, 16, 15196, ⟨[[(18244225693433856, 0), (0, 1693204851857058),
    (7890247777, 0)], [(31553983368609524, 0), (0, 864943556624), (5049420, 0)], [(5018030293838, 0), (0, 128768350),
    (459, 0)]], 2, 2⟩, ⟨[[(13715566538653696, 0), (0, 4356867195701179), (21352691323, 0)]], 2, 2⟩,
    72057594037927936, 27698475653460, 1656863279061, ⟨[], 0, 0⟩, 0, 0, 0, lc0⟩ 1 1 170092883748) (.out ⟨1404, 16,
    2006, 12368, 16, 15271, ⟨[[(35138212881514496, 0), (0, 1702274752495799), (7929723218, 0)], [(31434458233589998,
    0), (0, 868535214960), (5096313, 0)], [(5003390601832, 0), (0, 129587097), (488, 0)]], 2, 2⟩, ⟨[[(0,
    25007785905487872), (0, 4356905890025116), (21300476130, 0)]], 2, 2⟩, 72057594037927936, 27838168884896,
    1648750227663, ⟨[], 0, 0⟩, 0, 0, 0, lc0⟩ 1 1 135408488436)) (.leaf ⟨1469, 16, 1485, 937, 16, 3825,
    ⟨[[(8674701975896064, 0), (0, 2502702724441915), (23303669149, 0), (0, 156607)], [(22788264827580870, 0), (0,
    1274561597061), (15068923, 0), (0, 22)], [(3631879988306, 0), (0, 190732922), (1550, 0)], [(2162818763, 0), (0,
    45704), (0, 1)]], 3, 4⟩, ⟨[[(33801362992250880, 0), (0, 2705237911364540), (17730319394, 0), (0, 303197), (4,
    0)], [(0, 20699122864961143), (0, 113538587664), (4008996, 0), (0, 41)], [(3175029664692, 0), (18790673, 0),
    (937, 0)], [(0, 445035328), (0, 25638)]], 3, 4⟩, 72057594037927936, 58736460626, 31817025116, ⟨[[(16504941282769,
    0), (2338889815, 0), (580953, 0), (486, 0)], [(2109763595, 0), (1035684, 0), (0, 1202), (0, 1)], [(0, 1484095),
    (0, 206), (2, 0)], [(963, 0)]], 3, 4⟩, 17592186044416, 186936,
    3660179499451292208835521280626980647318651876840987318437606423081240949986451603561750423012418951190641204966826198716824539,
    lc0⟩)) (.leaf ⟨923, 16, 919, 580, 16, 2372, ⟨[[(0, 1923886128324608), (0, 3179209494523653), (59553114059, 0),
    (0, 779996), (2, 0)], [(14499671651780282, 0), (0, 1607109647577), (37631296, 0), (0, 52)], [(2448732640424, 0),
    (0, 244018196), (3276, 0), (1, 0)], [(1375985053, 0), (0, 55278), (0, 3)]], 3, 4⟩, ⟨[[(0, 15626862510710784), (0,
    3372294627613518), (44975936880, 0), (0, 1534424), (42, 0)], [(0, 12654596181757253), (0, 141582998157),
    (10223064, 0), (0, 216)], [(1932762542675, 0), (18728270, 0), (2440, 0)], [(0, 256332998), (0, 31365), (1, 0)]],
    3, 4⟩, 72057594037927936, 45070210495, 23723568049, ⟨[[(16547550621060, 0), (3805890791, 0), (1436549, 0), (1930,
    0), (0, 4)], [(3300867663, 0), (2683192, 0), (0, 4712), (0, 8)], [(0, 3709023), (0, 991), (11, 0)], [(3854, 0),
    (0, 2)]], 3, 4⟩, 17592186044416, 668430,
    3093255173506133086253315077554698670461325339221730289310089826700178974361238181495182829844515943187811597989484957225057682,
    lc0⟩)) (.leaf ⟨730, 16, 748, 453, 16, 1919, ⟨[[(9822538075619328, 0), (0, 2512722614328607), (46879025179, 0),
    (0, 628650), (3, 0)], [(22149287493520094, 0), (0, 2538421980226), (60775734, 0), (0, 215)], [(7301669453964, 0),
    (0, 770582256), (13523, 0), (1, 0)], [(8672591132, 0), (0, 380611), (0, 17)]], 3, 4⟩, ⟨[[(13330139804741632, 0),
    (0, 2690407386580157), (34403179828, 0), (0, 1165464), (38, 0)], [(0, 20719182076917065), (0, 214236479000),
    (15883387, 0), (0, 313)], [(6343201371873, 0), (74516966, 0), (7113, 0)], [(0, 1811572636), (0, 201425), (3,
    0)]], 3, 4⟩, 72057594037927936, 481977970536, 251004869210, ⟨[[(16384416468471, 0), (4542545421, 0), (2182355,
    0), (4638, 0), (0, 8)], [(4233676973, 0), (4452745, 0), (0, 8953), (0, 20)], [(0, 6047353), (0, 2339), (25, 0)],
    [(8010, 0), (0, 5)]], 3, 4⟩, 17592186044416, 1853904,
    3802849006254641751030056660717721981330715651860073851832861010071511343754738612265927773218437772071363079848982633230491067,
    lc0⟩)) (.sy (.leaf ⟨710, 16, 697, 461, 16, 1922, ⟨[[(0, 19157051211464704), (0, 2488752382934906), (46974340718,
    0), (0, 592447)], [(22487215194350440, 0), (0, 2485398991147), (57645556, 0), (25, 0)], [(8231524862430, 0), (0,
    771598505), (7909, 0), (2, 0)], [(8643505456, 0), (0, 326534), (0, 23)]], 3, 4⟩, ⟨[[(0, 6401692571975680), (0,
    2739699031567002), (36973218568, 0), (0, 1254759), (35, 0)], [(0, 20117842211815982), (0, 226221517588),
    (17075108, 0), (0, 376)], [(6114496897952, 0), (41732610, 0), (8214, 0)], [(0, 1510406641), (0, 198190), (3,
    0)]], 3, 4⟩, 72057594037927936, 492594358924, 244263537368, ⟨[[(16547957683025, 0), (4703525505, 0), (1999574,
    0), (3775, 0), (0, 10)], [(4186827355, 0), (4477532, 0), (0, 8432), (0, 18)], [(0, 6167848), (0, 2747), (24, 0)],
    [(8437, 0), (0, 4)]], 3, 4⟩, 17592186044416, 2009791,
    4290095952950224889855846377369126153706708933629541845303859128658401885011390541064697791348539307131541456832922654419181358,
    lc0⟩) (.leaf ⟨716, 16, 721, 445, 16, 1934, ⟨[[(29270088855724032, 0), (0, 2526125438202620), (47669026742, 0),
    (0, 612208), (1, 0)], [(21985918983921009, 0), (0, 2511119668894), (59583881, 0), (0, 86)], [(8116566818632, 0),
    (0, 788642813), (10733, 0), (2, 0)], [(8765823244, 0), (0, 360049), (0, 20)]], 3, 4⟩, ⟨[[(0, 20817919325732864),
    (0, 2720387844409360), (35357312372, 0), (0, 1188653), (39, 0)], [(0, 20353437508556995), (0, 210664451403),
    (16627939, 0), (0, 355)], [(6175782258948, 0), (49965580, 0), (7602, 0)], [(0, 1619115263), (0, 196071), (3,
    0)]], 3, 4⟩, 72057594037927936, 516117599238, 250122861758, ⟨[[(16385282977889, 0), (4518218845, 0), (1884899,
    0), (4616, 0), (0, 5)], [(4182188407, 0), (4709289, 0), (0, 7915), (0, 17)], [(0, 6153680), (0, 3207), (22, 0)],
    [(8437, 0), (0, 3)]], 3, 4⟩, 17592186044416, 1953524,
    3868729362647138583703049670325435915044008889525774401096784992915059273051545595533214798534530439829104203047233933289656410,
    lc0⟩))
theorem c12 : checkR job con0 false ⟨7, 9, 7, 9, 13, 17⟩ 1 34400 t12 675 21 640 25725 251 32000 = true := by decide +kernel

def t13 : CTree :=
  .sy (.sy (.out ⟨399, 16, 431, 5803, 16, 6735, ⟨[[(0, 26741582556672000), (0, 922184776099529), (8615863864, 0)],
    [(39950204988672494, 0), (0, 1814908231415), (15841478, 0)], [(30860026951318, 0), (0, 947389724), (0, 15945)]],
    2, 2⟩, ⟨[[(35046154618929152, 0), (0, 4350522396894757), (45259952320, 0)]], 2, 2⟩, 72057594037927936,
    455632901286134, 7465234797646, ⟨[], 0, 0⟩, 0, 0, 0, lc0⟩ 1 1 651963136287) (.out ⟨400, 16, 439, 5834, 16, 6806,
    ⟨[[(0, 34957582842904576), (0, 930520375765943), (8717095196, 0)], [(39767835901741745, 0), (0, 1832249524230),
    (16423190, 0)], [(30944475144102, 0), (0, 980384382), (0, 14465)]], 2, 2⟩, ⟨[[(14227415290281984, 0), (0,
    4350822572135181), (45027917952, 0)]], 2, 2⟩, 72057594037927936, 463901713603621, 7388276653175, ⟨[], 0, 0⟩, 0,
    0, 0, lc0⟩ 1 1 538617642464)) (.sx (.sy (.out ⟨666, 16, 755, 5865, 16, 6877, ⟨[[(24379010543542272, 0), (0,
    1552726576231617), (14585305913, 0)], [(32873458638277492, 0), (0, 1543373569158), (14563147, 0)],
    [(12429316070047, 0), (0, 424708642), (0, 4533)]], 2, 2⟩, ⟨[[(0, 29466719577636864), (0, 4350884124011549),
    (44795825301, 0)]], 2, 2⟩, 72057594037927936, 98540235093519, 7312106512256, ⟨[], 0, 0⟩, 0, 0, 0, lc0⟩ 1 1
    579011557721) (.out ⟨668, 16, 769, 5895, 16, 6948, ⟨[[(0, 19584726115115008), (0, 1566659200177738),
    (14744896904, 0)], [(32697646702690194, 0), (0, 1557003942440), (15021687, 0)], [(12441530450628, 0), (0,
    436875954), (0, 3937)]], 2, 2⟩, ⟨[[(0, 23625785942409216), (0, 4350714347864290), (44563749991, 0)]], 2, 2⟩,
    72057594037927936, 100083489619311, 7236724567164, ⟨[], 0, 0⟩, 0, 0, 0, lc0⟩ 1 1 464305442056)) (.sy (.sy (.out
    ⟨809, 16, 887, 11730, 16, 13737, ⟨[[(2408953405702144, 0), (0, 952858777674142), (4468032279, 0)],
    [(40146121565304649, 0), (0, 929757959197), (4122999, 0)], [(16234645088255, 0), (0, 250978632), (0, 1967)]], 2,
    2⟩, ⟨[[(0, 11441933106413568), (0, 4356758071430794), (22457168556, 0)]], 2, 2⟩, 72057594037927936,
    118169501781532, 1832862874700, ⟨[], 0, 0⟩, 0, 0, 0, lc0⟩ 1 1 339994109772) (.out ⟨811, 16, 896, 11760, 16,
    13808, ⟨[[(0, 32244519931576320), (0, 958002936937114), (4498718633, 0)], [(40083045114175939, 0), (0,
    934991295501), (4202498, 0)], [(16271610197921, 0), (0, 255462365), (0, 1872)]], 2, 2⟩, ⟨[[(2667880692842496, 0),
    (0, 4356700207021544), (22398911118, 0)]], 2, 2⟩, 72057594037927936, 119331655611553, 1823383862089, ⟨[], 0, 0⟩,
    0, 0, 0, lc0⟩ 1 1 282568112385)) (.sx (.out ⟨977, 16, 1101, 5895, 16, 6948, ⟨[[(0, 19965123611852800), (0,
    2313875635884948), (21781935818, 0)], [(23990962094435057, 0), (0, 1134431451315), (10544893, 0)],
    [(4816127769740, 0), (0, 158201192), (0, 1912)]], 2, 2⟩, ⟨[[(0, 23625785942409216), (0, 4350714347864290),
    (44563749991, 0)]], 2, 2⟩, 72057594037927936, 19764064329821, 7236724567164, ⟨[], 0, 0⟩, 0, 0, 0, lc0⟩ 1 1
    277160288519) (.leaf ⟨1320, 16, 1102, 1044, 16, 3785, ⟨[[(8813587577995264, 0), (0, 2363946445070418),
    (22241419086, 0), (0, 95332), (0, 1)], [(24428037097670510, 0), (0, 1148795521561), (10378433, 0), (122, 0)],
    [(5067928940587, 0), (0, 159050366), (0, 2283)], [(1980238804, 0), (0, 3806), (0, 3)]], 3, 4⟩, ⟨[[(0,
    28197461282603008), (0, 2923299458612415), (24029967274, 0), (0, 368178), (1, 0)], [(0, 18071642926638808), (0,
    157596563949), (5333313, 0), (0, 42)], [(2872455835831, 0), (0, 14541205), (1220, 0)], [(0, 150646736), (0,
    23458)]], 3, 4⟩, 72057594037927936, 41760345719, 27762285033, ⟨[[(17355861427054, 0), (2752379510, 0), (526636,
    0), (1904, 0), (14, 0)], [(2024080589, 0), (955260, 0), (0, 1124), (0, 2)], [(0, 1606016), (0, 252), (2, 0)],
    [(1047, 0)]], 3, 4⟩, 17592186044416, 306276,
    3662089301481442982120510586103076499062286947706661830841249915239199951912634310900053463670269771123021499453688678139252217,
    lc0⟩))))
theorem c13 : checkR job con0 false ⟨7, 9, 7, 9, 13, 17⟩ 1 34400 t13 717 21 640 24219 251 32000 = true := by decide +kernel

def t14 : CTree :=
  .sy (.sx (.sy (.sx (.out ⟨970, 16, 1011, 5803, 16, 6735, ⟨[[(0, 5316995052716032), (0, 2276457339331130),
    (21156472092, 0)], [(24437462658505548, 0), (0, 1093380213340), (8697726, 0)], [(5094079737095, 0), (0,
    137433811), (0, 3332)]], 2, 2⟩, ⟨[[(35046154618929152, 0), (0, 4350522396894757), (45259952320, 0)]], 2, 2⟩,
    72057594037927936, 18424292656748, 7465234797646, ⟨[], 0, 0⟩, 0, 0, 0, lc0⟩ 1 1 315042809763) (.sy (.out ⟨1314,
    16, 1344, 11608, 16, 13454, ⟨[[(0, 8286257905418240), (0, 1547410986969530), (7159082730, 0)],
    [(33252940739088622, 0), (0, 735786655027), (2769947, 0)], [(7104504482966, 0), (0, 89697716), (0, 1284)]], 2,
    2⟩, ⟨[[(24625387299799040, 0), (0, 4356723753116317), (22691860481, 0)]], 2, 2⟩, 72057594037927936,
    23200508076768, 1871412418075, ⟨[], 0, 0⟩, 0, 0, 0, lc0⟩ 1 1 202002791462) (.sy (.out ⟨1604, 16, 1651, 23277, 16,
    27031, ⟨[[(6579118270627840, 0), (0, 947129187937529), (2194675890, 0)], [(40508846613332480, 0), (0,
    450639930787), (860528, 0)], [(8685627525463, 0), (0, 55677710), (0, 382)]], 2, 2⟩, ⟨[[(11799252304396288, 0),
    (0, 4359524190623749), (11331003269, 0)]], 2, 2⟩, 72057594037927936, 28287838613090, 466017631691, ⟨[], 0, 0⟩, 0,
    0, 0, lc0⟩ 1 1 164975503265) (.out ⟨1605, 16, 1659, 23308, 16, 27102, ⟨[[(17396517529370624, 0), (0,
    949505749674924), (2202649859, 0)], [(40478035223696335, 0), (0, 451952104017), (871193, 0)], [(8699532514575,
    0), (0, 56328561), (0, 375)]], 2, 2⟩, ⟨[[(0, 7746314527047680), (0, 4359591053800821), (11316411774, 0)]], 2, 2⟩,
    72057594037927936, 28451341692653, 464810738243, ⟨[], 0, 0⟩, 0, 0, 0, lc0⟩ 1 1 140499792036)))) (.sx (.sy (.out
    ⟨1321, 16, 1394, 11669, 16, 13595, ⟨[[(1653618218958848, 0), (0, 1558466259206525), (7263253775, 0)],
    [(33129280055091700, 0), (0, 749234799646), (3056477, 0)], [(6951901961671, 0), (0, 96419816), (0, 1071)]], 2,
    2⟩, ⟨[[(0, 1560738238038016), (0, 4356698760565305), (22573685670, 0)]], 2, 2⟩, 72057594037927936,
    23859625401619, 1851969219122, ⟨[], 0, 0⟩, 0, 0, 0, lc0⟩ 1 1 240507057879) (.out ⟨1322, 16, 1407, 11699, 16,
    13666, ⟨[[(29504907736662016, 0), (0, 1565649870172786), (7310687595, 0)], [(33059390390339974, 0), (0,
    753105527199), (3122794, 0)], [(6967611075919, 0), (0, 98378020), (0, 1029)]], 2, 2⟩, ⟨[[(35216287980191744, 0),
    (0, 4356757892402102), (22515428305, 0)]], 2, 2⟩, 72057594037927936, 24105012514374, 1842391324878, ⟨[], 0, 0⟩,
    0, 0, 0, lc0⟩ 1 1 189571151668)) (.leaf ⟨1291, 16, 1028, 1062, 16, 3776, ⟨[[(0, 13330070389653504), (0,
    2339764095840012), (21770808092, 0), (0, 72269), (0, 1)], [(24731620206368792, 0), (0, 1114739658244), (8794509,
    0), (164, 0)], [(5346504439610, 0), (0, 141888210), (0, 3520)], [(1899278987, 0), (11055, 0), (0, 4)]], 3, 4⟩,
    ⟨[[(0, 31926577819451392), (0, 2979845829625508), (25546776393, 0), (0, 371350)], [(0, 17383719027094083), (0,
    171353989089), (5634344, 0), (0, 33)], [(2854916136896, 0), (0, 22649329), (1155, 0)], [(0, 83467748), (0,
    22174)]], 3, 4⟩, 72057594037927936, 33842662454, 26965275334, ⟨[[(17536910247296, 0), (2840780991, 0), (613569,
    0), (3206, 0), (22, 0)], [(1982073885, 0), (942671, 0), (0, 1152), (0, 3)], [(0, 1649308), (0, 309), (2, 0)],
    [(980, 0), (0, 1)]], 3, 4⟩, 17592186044416, 391397,
    3510229473498515735759071048362020993395023651974378064018181680155789856983318366179888975136121979322332629240728303072102335,
    lc0⟩))) (.sx (.leaf ⟨833, 16, 652, 632, 16, 2249, ⟨[[(14451393102446592, 0), (0, 3041764993751747), (56274979805,
    0), (0, 321296), (0, 17)], [(16156740982438290, 0), (0, 1434416536994), (21158433, 0), (951, 0)],
    [(3565856540769, 0), (0, 175230769), (0, 10557), (1, 0)], [(1216756033, 0), (22786, 0), (0, 10)]], 3, 4⟩,
    ⟨[[(34930960676413440, 0), (0, 3573740800831112), (62099858816, 0), (0, 1773635), (0, 5)], [(0,
    10185082286539092), (0, 209956755131), (13706701, 0), (0, 139)], [(1698784886908, 0), (0, 30939091), (2662, 0)],
    [(0, 33656704), (0, 25626)]], 3, 4⟩, 72057594037927936, 23792798452, 22800808238, ⟨[[(17577902325892, 0),
    (4802983622, 0), (1636045, 0), (14483, 0), (167, 0)], [(3009645467, 0), (2461936, 0), (0, 4742), (0, 22)], [(0,
    3944387), (0, 1439), (11, 0)], [(3443, 0), (0, 3)]], 3, 4⟩, 17592186044416, 3793382,
    4449045633995444519942104557239883182364749790611470519640666790048764159741069991361789551627341310067688629072549114682955686,
    lc0⟩) (.leaf ⟨827, 16, 640, 627, 16, 2250, ⟨[[(14152219270144000, 0), (0, 3045219907130003), (56092522065, 0),
    (0, 274133), (0, 19)], [(16159740035886930, 0), (0, 1422334437621), (19845353, 0), (1032, 0)], [(3651521732282,
    0), (0, 168759225), (0, 11643), (1, 0)], [(1206914355, 0), (29260, 0), (0, 11)]], 3, 4⟩, ⟨[[(0,
    9484292599169024), (0, 3584208428051888), (62708071148, 0), (0, 1780056), (0, 6)], [(0, 10047005400313012), (0,
    212784567969), (13933954, 0), (0, 129)], [(1696097715409, 0), (0, 34138224), (2601, 0)], [(0, 20982589), (0,
    24920), (0, 1)]], 3, 4⟩, 72057594037927936, 23585146526, 22484728273, ⟨[[(17580725413845, 0), (4808410572, 0),
    (1390495, 0), (11108, 0), (134, 0)], [(2977391367, 0), (2525275, 0), (0, 4296), (0, 18)], [(0, 3986915), (0,
    1696), (10, 0)], [(3388, 0), (0, 3)]], 3, 4⟩, 17592186044416, 3419984,
    4045126407286679520135561708665269238925151284772176938173195198374692261434996175609700432072104979214766274167128818674402937,
    lc0⟩))) (.sx (.leaf ⟨645, 16, 526, 518, 16, 1890, ⟨[[(0, 35674954897145856), (0, 2337365706877556), (43817968682,
    0), (0, 326212), (0, 11)], [(24232641507158187, 0), (0, 2241231176753), (37958392, 0), (1160, 0)],
    [(10475264279871, 0), (0, 602271391), (0, 23279), (3, 0)], [(7743053766, 0), (30150, 0), (0, 53)]], 3, 4⟩,
    ⟨[[(30043675784740864, 0), (0, 2941704686377968), (49235274396, 0), (0, 1483187), (3, 0)], [(0,
    17647598703720143), (0, 324504646133), (22037008, 0), (0, 312)], [(5696399050207, 0), (0, 77936310), (9597, 0)],
    [(0, 445480311), (0, 181137), (0, 1)]], 3, 4⟩, 72057594037927936, 303129829111, 216734372020, ⟨[[(17399272935368,
    0), (5558778078, 0), (1845143, 0), (12057, 0), (186, 0)], [(4022925207, 0), (3991776, 0), (0, 8223), (0, 31)],
    [(0, 6634471), (0, 2752), (27, 0)], [(8517, 0), (0, 7)]], 3, 4⟩, 17592186044416, 8996788,
    3410986960466943438475518180832008379717076205634104713388575822877543586683205977636529933957939935365895422258997438264443029,
    lc0⟩) (.leaf ⟨634, 16, 506, 511, 16, 1901, ⟨[[(0, 11472796316327936), (0, 2340063645633765), (43642088285, 0),
    (0, 261238), (0, 14)], [(24197516112458770, 0), (0, 2204405852699), (34349890, 0), (1393, 0)], [(11029113629236,
    0), (0, 571322698), (0, 29324), (4, 0)], [(7661078816, 0), (100952, 0), (0, 59)]], 3, 4⟩, ⟨[[(16426008864968704,
    0), (0, 2972685860187113), (50469679450, 0), (0, 1504588), (2, 0)], [(0, 17271085704878366), (0, 333927384437),
    (22967296, 0), (0, 293)], [(5684254679820, 0), (0, 100814419), (9426, 0)], [(0, 271183081), (0, 173680), (0,
    2)]], 3, 4⟩, 72057594037927936, 274006290069, 216694901605, ⟨[[(17398804847634, 0), (5550323926, 0), (1460726,
    0), (5966, 0), (101, 0)], [(3951823827, 0), (4188683, 0), (0, 7011), (0, 19)], [(0, 6769415), (0, 3726), (23,
    0)], [(8493, 0), (0, 5)]], 3, 4⟩, 17592186044416, 7848775,
    2834858263540591624632903529431320553057823399018356550091984488143486225008923979546397856194685528836132489516073210536691046,
    lc0⟩))
theorem c14 : checkR job con0 false ⟨7, 9, 7, 9, 13, 17⟩ 1 34400 t14 759 21 640 24219 251 32000 = true := by decide +kernel

def t15 : CTree :=
  .sx (.sx (.sy (.sy (.out ⟨669, 16, 783, 5925, 16, 7020, ⟨[[(0, 12695567425880064), (0, 1580164867837456),
    (14898940637, 0)], [(32500946347575826, 0), (0, 1569903954291), (15471018, 0)], [(12443776212938, 0), (0,
    448517220), (0, 3342)]], 2, 2⟩, ⟨[[(20859084081659904, 0), (0, 4350940108210500), (44338079793, 0)]], 2, 2⟩,
    72057594037927936, 101549983781321, 7163150714317, ⟨[], 0, 0⟩, 0, 0, 0, lc0⟩ 1 1 359767989706) (.sy (.out ⟨824,
    16, 977, 11912, 16, 14167, ⟨[[(19417857850474496, 0), (0, 978858282438136), (4620532298, 0)],
    [(39818772216596151, 0), (0, 972138710749), (4863922, 0)], [(15315640215415, 0), (0, 281277618), (0, 891)]], 2,
    2⟩, ⟨[[(5132228483219456, 0), (0, 4356801220253690), (22114058423, 0)]], 2, 2⟩, 72057594037927936,
    124745201912853, 1777231519114, ⟨[], 0, 0⟩, 0, 0, 0, lc0⟩ 1 1 294353159683) (.out ⟨827, 16, 988, 11942, 16,
    14239, ⟨[[(0, 23774037121744896), (0, 985197179266532), (4654171075, 0)], [(39774823431375500, 0), (0,
    978133482084), (4942653, 0)], [(15345068410190, 0), (0, 285299526), (0, 802)]], 2, 2⟩, ⟨[[(13123080855748608, 0),
    (0, 4356713149155724), (22057408472, 0)]], 2, 2⟩, 72057594037927936, 125871423938879, 1768167556786, ⟨[], 0, 0⟩,
    0, 0, 0, lc0⟩ 1 1 241055928104))) (.sx (.sy (.sy (.out ⟨1356, 16, 1646, 11973, 16, 14312, ⟨[[(23028411742846976,
    0), (0, 1616590162484357), (7636023214, 0)], [(32462058602694552, 0), (0, 805652511793), (4147414, 0)],
    [(6155846622872, 0), (0, 118252197), (0, 244)]], 2, 2⟩, ⟨[[(0, 1663456612450304), (0, 4356874390636751),
    (22002304782, 0)]], 2, 2⟩, 72057594037927936, 26118720195265, 1759273366177, ⟨[], 0, 0⟩, 0, 0, 0, lc0⟩ 1 1
    259228626730) (.out ⟨1357, 16, 1661, 12004, 16, 14385, ⟨[[(24628384584073216, 0), (0, 1623601581634459),
    (7673983655, 0)], [(32350818270143421, 0), (0, 808784153370), (4201617, 0)], [(6151982562148, 0), (0, 119557323),
    (0, 207)]], 2, 2⟩, ⟨[[(0, 27672357826461696), (0, 4356978286798175), (21947190911, 0)]], 2, 2⟩,
    72057594037927936, 26290873192393, 1750423465691, ⟨[], 0, 0⟩, 0, 0, 0, lc0⟩ 1 1 215538529318)) (.leaf ⟨1376, 16,
    1245, 1002, 16, 3806, ⟨[[(0, 19359278102609920), (0, 2416664859172459), (22865016188, 0), (0, 127104), (0, 1)],
    [(23793809299985658, 0), (0, 1202934017598), (12665426, 0), (57, 0)], [(4543649682350, 0), (0, 179632036), (0,
    452)], [(2083207713, 0), (0, 24802), (0, 2)]], 3, 4⟩, ⟨[[(0, 19680906461020160), (0, 2829703186124844),
    (21343088301, 0), (0, 351495), (2, 0)], [(0, 19201175023973019), (0, 136190834997), (4772934, 0), (0, 49)],
    [(2952479709613, 0), (0, 524344), (1200, 0)], [(0, 269318965), (0, 24789)]], 3, 4⟩, 72057594037927936,
    54546512879, 29759676832, ⟨[[(17006601620790, 0), (2585246389, 0), (490124, 0), (536, 0), (4, 0)], [(2070107782,
    0), (988520, 0), (0, 1127), (0, 1)], [(0, 1554964), (0, 224), (2, 0)], [(1059, 0)]], 3, 4⟩, 17592186044416,
    235428,
    4248951832551249998690438970454868203529315773803347315401793914091177494142668288172994140417507652437440365466156597854041653,
    lc0⟩)) (.leaf ⟨877, 16, 781, 609, 16, 2317, ⟨[[(13306992926605312, 0), (0, 3110544239925005), (58940506253, 0),
    (0, 620673), (0, 8)], [(15364764436736140, 0), (0, 1536242573847), (31518780, 0), (374, 0)], [(3045377192956, 0),
    (0, 228609147), (0, 2156), (1, 0)], [(1337666655, 0), (0, 26703), (0, 6)]], 3, 4⟩, ⟨[[(5886562145796096, 0), (0,
    3465526869411692), (53116430966, 0), (0, 1733368), (22, 0)], [(0, 11518043697745603), (0, 169022426646),
    (11960442, 0), (0, 240)], [(1778243232585, 0), (0, 5152063), (2969, 0)], [(0, 145886579), (0, 29719)]], 3, 4⟩,
    72057594037927936, 39967583039, 22031740151, ⟨[[(17047220007031, 0), (4279734913, 0), (1251228, 0), (2154, 0),
    (24, 0)], [(3190601706, 0), (2570161, 0), (0, 4495), (0, 8)], [(0, 3778055), (0, 1059), (11, 0)], [(4026, 0), (0,
    2)]], 3, 4⟩, 17592186044416, 1378888,
    3357951442927847738732237697156856340059317856202510374019034831742531931190565731969105279524397663672962459786089310335324787,
    lc0⟩))) (.sy (.leaf ⟨661, 16, 565, 510, 16, 1894, ⟨[[(0, 18016010509025280), (0, 2365508481057987), (44703781219,
    0), (0, 413778), (0, 8)], [(23957398311130097, 0), (0, 2309558862510), (43947152, 0), (835, 0)], [(9891172951916,
    0), (0, 662838937), (0, 13902), (3, 0)], [(8030512210, 0), (0, 80925), (0, 45)]], 3, 4⟩, ⟨[[(0,
    22610408318623744), (0, 2886884455588371), (46220579458, 0), (0, 1457752), (11, 0)], [(0, 18322258310387422), (0,
    298508643969), (20746659, 0), (0, 367)], [(5750880962104, 0), (0, 44861699), (9859, 0)], [(0, 719312432), (0,
    189853)]], 3, 4⟩, 72057594037927936, 368207687555, 220587170318, ⟨[[(17224830087041, 0), (5391195672, 0),
    (1834394, 0), (7386, 0), (117, 0)], [(4098241989, 0), (4003301, 0), (0, 8534), (0, 24)], [(0, 6475264), (0,
    2287), (28, 0)], [(8801, 0), (0, 6)]], 3, 4⟩, 17592186044416, 6700042,
    4186370830513484142634649357775865314084703859290066639641880312153457188347844305655779219196284939326949080352294045447597547,
    lc0⟩) (.leaf ⟨665, 16, 583, 494, 16, 1909, ⟨[[(0, 3148952314486784), (0, 2394884299816139), (45472546359, 0), (0,
    443247), (0, 8)], [(23535839851924011, 0), (0, 2336993872022), (46537167, 0), (719, 0)], [(9859691235353, 0), (0,
    696207768), (0, 10115), (3, 0)], [(8233238012, 0), (0, 127332), (0, 41)]], 3, 4⟩, ⟨[[(0, 27960750089932800), (0,
    2864079301979390), (44393743961, 0), (0, 1440706), (18, 0)], [(0, 18613182298595282), (0, 280166293576),
    (20328920, 0), (0, 402)], [(5776231628419, 0), (0, 35246874), (9899, 0)], [(0, 820947947), (0, 190734), (1, 0)]],
    3, 4⟩, 72057594037927936, 407927858746, 227438107137, ⟨[[(17050147949529, 0), (5210709837, 0), (1684499, 0),
    (2502, 0), (25, 0)], [(4104513838, 0), (4254752, 0), (0, 7895), (0, 16)], [(0, 6468706), (0, 2896), (25, 0)],
    [(9092, 0), (0, 4)]], 3, 4⟩, 17592186044416, 4389492,
    3558469389542712303822455070476881944546965819850796045153448551660313407111303170936651767785555226622676393970565244887079291,
    lc0⟩))) (.sy (.leaf ⟨437, 16, 362, 371, 16, 1424, ⟨[[(9741198284902400, 0), (0, 1610519723770368), (30373052405,
    0), (0, 223726), (0, 8)], [(32421145622566851, 0), (0, 3067326240767), (53334452, 0), (1575, 0)],
    [(29344099378743, 0), (0, 1716654350), (0, 59901), (9, 0)], [(43359972288, 0), (60544, 0), (0, 287)]], 3, 4⟩,
    ⟨[[(28752320756514816, 0), (0, 2184806461341185), (35762957252, 0), (0, 1113199), (7, 0)], [(0,
    26472762600413733), (0, 460698913160), (33062694, 0), (0, 536)], [(16963668645979, 0), (0, 239661394), (29496,
    0)], [(0, 2691691430), (0, 1074391), (0, 5)]], 3, 4⟩, 72057594037927936, 3599067161985, 2578028735218,
    ⟨[[(17218173545712, 0), (7213356301, 0), (2577423, 0), (5657, 0), (103, 0)], [(5884391276, 0), (8576754, 0), (0,
    18350), (0, 48)], [(0, 14397147), (0, 10881), (88, 0)], [(28871, 0), (0, 14)]], 3, 4⟩, 17592186044416, 52931174,
    4200028917152249366495900479038648686337551228679770894184661711791826760937457231279894687479657043158767757579124993701634409,
    lc0⟩) (.sx (.leaf ⟨653, 16, 561, 486, 16, 1921, ⟨[[(21955432251924480, 0), (0, 2400151099178709), (45617163379,
    0), (0, 392645), (0, 11)], [(23487137463056168, 0), (0, 2305643574312), (43741016, 0), (926, 0)],
    [(10505701813348, 0), (0, 682282560), (0, 15174), (3, 0)], [(8236837183, 0), (0, 71510), (0, 47)]], 3, 4⟩, ⟨[[(0,
    4388150672498688), (0, 2894000553529684), (45549623405, 0), (0, 1466836), (17, 0)], [(0, 18245971712902641), (0,
    285910290406), (21297946, 0), (0, 408)], [(5720289023088, 0), (0, 59216326), (10056, 0)], [(0, 638396593), (0,
    185006)]], 3, 4⟩, 72057594037927936, 393118884322, 226059425783, ⟨[[(17046878000318, 0), (5201206520, 0),
    (1497733, 0), (1748, 0), (2, 0)], [(4038848209, 0), (4470567, 0), (0, 7000), (0, 12)], [(0, 6563647), (0, 3785),
    (22, 0)], [(9343, 0), (0, 2)]], 3, 4⟩, 17592186044416, 4088647,
    4156076049805854955386514929277041586807563617478117374320767273692788733451855326733419249037720686435372279017374152528151926,
    lc0⟩) (.leaf ⟨641, 16, 539, 478, 16, 1933, ⟨[[(6718228145709056, 0), (0, 2400227407334434), (45564160900, 0), (0,
    334584), (0, 13)], [(23456350337564224, 0), (0, 2270552186732), (40550975, 0), (1147, 0)], [(11109560264416, 0),
    (0, 660483548), (0, 20689), (3, 0)], [(8208941870, 0), (0, 7927), (0, 52)]], 3, 4⟩, ⟨[[(29797821675593728, 0),
    (0, 2924280657728490), (46752134316, 0), (0, 1493202), (16, 0)], [(0, 17879511607081295), (0, 293674253959),
    (22282295, 0), (0, 408)], [(5686922156320, 0), (0, 82596733), (10136, 0)], [(0, 454631639), (0, 179051)]], 3, 4⟩,
    72057594037927936, 371982321180, 227592180454, ⟨[[(17045227347246, 0), (5201075850, 0), (1332477, 0), (1720, 0),
    (0, 8)], [(3965259738, 0), (4653268, 0), (0, 6220), (0, 11)], [(0, 6653409), (0, 4617), (20, 0)], [(9503, 0), (0,
    1)]], 3, 4⟩, 17592186044416, 4238262,
    3873682797939358185721844872164493448778731554723003091570663763566043220790143328837145864455539049119204471014187458983416922,
    lc0⟩)))
theorem c15 : checkR job con0 false ⟨7, 9, 7, 9, 13, 17⟩ 1 34400 t15 369 21 320 24721 251 32000 = true := by decide +kernel

def t16 : CTree :=
  .sy (.sx (.sy (.sx (.sy (.sx (.out ⟨954, 16, 937, 3713, 16, 2655, ⟨[[(0, 21601752422563840), (0, 2283605930903838),
    (20858783860, 0)], [(24381662540420495, 0), (0, 1054864130097), (6726348, 0)], [(5599688175819, 0), (0,
    118062013), (0, 4941)]], 2, 2⟩, ⟨[[(0, 30097946079821824), (0, 2981182253929463), (26419296340, 0)], [(0,
    16317329528643026), (0, 181174557173), (5861134, 0)], [(2806685062916, 0), (0, 31272089), (1022, 0)]], 2, 2⟩,
    72057594037927936, 17338833159639, 6011058668113, ⟨[], 0, 0⟩, 0, 0, 0, lc0⟩ 0 3749 68) (.out ⟨949, 16, 919, 3713,
    16, 2662, ⟨[[(32707719141597184, 0), (0, 2283392544447324), (20726302056, 0)], [(24383864676155742, 0), (0,
    1044165900484), (6167773, 0)], [(5712421325568, 0), (0, 111842194), (0, 5382)]], 2, 2⟩, ⟨[[(0, 6943765431582720),
    (0, 2996728409771081), (26737554646, 0)], [(0, 16123977938901717), (0, 184390145347), (5961137, 0)],
    [(2814271894116, 0), (0, 33820209), (988, 0)]], 2, 2⟩, 72057594037927936, 16991736113123, 6065402328502, ⟨[], 0,
    0⟩, 0, 0, 0, lc0⟩ 0 263 9)) (.leaf ⟨849, 16, 650, 787, 16, 2892, ⟨[[(10487036530688000, 0), (0,
    1584942650743976), (14527223931, 0), (0, 27329), (0, 1)], [(33421044529596751, 0), (0, 1461046913269), (9492133,
    0), (295, 0)], [(15683845035472, 0), (0, 336279280), (0, 13445), (1, 0)], [(9976944062, 0), (153673, 0), (0,
    23)]], 3, 4⟩, ⟨[[(0, 34001255397089280), (0, 2301953220570537), (20219058548, 0), (0, 287752)], [(0,
    25348131735635590), (0, 274811726710), (9132718, 0), (0, 40)], [(8684217232901, 0), (0, 97971763), (3270, 0)],
    [(0, 52177531), (0, 123170), (0, 2)]], 3, 4⟩, 72057594037927936, 229286276980, 308532804968, ⟨[[(17536236400955,
    0), (3731864044, 0), (612730, 0), (2400, 0), (26, 0)], [(2825239291, 0), (1996160, 0), (0, 2100), (0, 5)], [(0,
    3753111), (0, 1541), (5, 0)], [(3033, 0), (0, 2)]], 3, 4⟩, 17592186044416, 1459847,
    4607245956068173777878839131531430984528494878311334286050709000303232935668951906643968740284287022205602858909046673018115672,
    lc0⟩)) (.out ⟨466, 16, 445, 1848, 16, 1334, ⟨[[(19502129512988672, 0), (0, 2265213884536912), (40830671168, 0)],
    [(24074948412828102, 0), (0, 2043480782960), (21811800, 0)], [(11657600138135, 0), (0, 416524752), (0, 46886)]],
    2, 2⟩, ⟨[[(29518371891920896, 0), (0, 3001691831124415), (53795722672, 0)], [(0, 15851791043402389), (0,
    372490606144), (24333686, 0)], [(5632839398884, 0), (0, 147888668), (7648, 0)]], 2, 2⟩, 72057594037927936,
    67188335332395, 25861307822719, ⟨[], 0, 0⟩, 0, 0, 0, lc0⟩ 0 357 17)) (.sy (.leaf ⟨511, 16, 392, 517, 16, 1959,
    ⟨[[(19830111353933824, 0), (0, 965531384960620), (8857210179, 0), (0, 14436), (0, 1)], [(40231089970235490, 0),
    (0, 1767956105115), (11305101, 0), (373, 0)], [(38953537980410, 0), (0, 820289998), (0, 33547), (2, 0)],
    [(48937514467, 0), (785183, 0), (0, 114)]], 3, 4⟩, ⟨[[(0, 1987813380202496), (0, 1549515519916469), (13532203685,
    0), (0, 195945)], [(0, 34033462670442136), (0, 365533252675), (12475379, 0), (0, 59)], [(23390981117399, 0), (0,
    277344702), (8962, 0)], [(93137654, 0), (0, 655267), (0, 8)]], 3, 4⟩, 72057594037927936, 2314265866831,
    3345228887849, ⟨[[(17443172935451, 0), (5465358497, 0), (1114056, 0), (2573, 0), (45, 0)], [(4624861805, 0),
    (5129466, 0), (0, 6750), (0, 14)], [(0, 10253568), (0, 7163), (28, 0)], [(14170, 0), (0, 8)]], 3, 4⟩,
    17592186044416, 21726236,
    4448388035837244082081452265618228885162566919883709143443607343782733930244854296283050382893774502381738401646367334971215678,
    lc0⟩) (.leaf ⟨515, 16, 400, 506, 16, 1958, ⟨[[(0, 8850647187611648), (0, 976173601103762), (9014355609, 0), (0,
    16626), (0, 1)], [(40149460716723432, 0), (0, 1792172087702), (12094491, 0), (362, 0)], [(39319903494201, 0), (0,
    870139703), (0, 31734), (2, 0)], [(50309397388, 0), (686257, 0), (0, 112)]], 3, 4⟩, ⟨[[(0, 2446070050557952), (0,
    1535293246569230), (13230276931, 0), (0, 195869)], [(0, 34196359310238281), (0, 352874609953), (12373217, 0), (0,
    69)], [(23242171613222, 0), (0, 268035890), (9296, 0)], [(0, 237672078), (0, 662636), (0, 7)]], 3, 4⟩,
    72057594037927936, 2712108377837, 3387294824705, ⟨[[(17355400126835, 0), (5411386872, 0), (1097323, 0), (1362,
    0), (17, 0)], [(4604953022, 0), (5262242, 0), (0, 6566), (0, 11)], [(0, 10040436), (0, 7333), (27, 0)], [(14587,
    0), (0, 5)]], 3, 4⟩, 17592186044416, 19124955,
    2911686640937158526491103751784840004421168534789272284751126155036754621397359904561362355952558247713438539999188981527754972,
    lc0⟩))) (.sy (.out ⟨309, 16, 282, 1421, 16, 1033, ⟨[[(17310336742367232, 0), (0, 1518056832700235), (26615382156,
    0)], [(32478917603030845, 0), (0, 2650741078573), (18975441, 0)], [(32864153164438, 0), (0, 860493170), (0,
    157555)]], 2, 2⟩, ⟨[[(0, 10919468326748160), (0, 2343052714423530), (42866879298, 0)], [(0, 23446574657220867),
    (0, 608359961211), (39066175, 0)], [(17608177222184, 0), (0, 539403405), (19928, 0)]], 2, 2⟩, 72057594037927936,
    337484073124444, 45662893767502, ⟨[], 0, 0⟩, 0, 0, 0, lc0⟩ 0 103 10) (.out ⟨308, 16, 291, 1411, 16, 1038,
    ⟨[[(21071745042251776, 0), (0, 1538901007850692), (27515998926, 0)], [(32147686717106871, 0), (0, 2713224359050),
    (24405577, 0)], [(33427876656692, 0), (0, 1041709554), (0, 143858)]], 2, 2⟩, ⟨[[(34019008288686080, 0), (0,
    2312031249049961), (41310102202, 0)], [(0, 23857060262766793), (0, 571994291911), (39012921, 0)],
    [(17426652304342, 0), (0, 520191746), (23347, 0)]], 2, 2⟩, 72057594037927936, 358041088521158, 42402415920039,
    ⟨[], 0, 0⟩, 0, 0, 0, lc0⟩ 0 1164 68))) (.sx (.sy (.leaf ⟨421, 16, 334, 364, 16, 1456, ⟨[[(33417154494873600, 0),
    (0, 1607588520521599), (29971916116, 0), (0, 129746), (0, 12)], [(32403815170051938, 0), (0, 2961508383158),
    (43019689, 0), (2231, 0)], [(32270566429440, 0), (0, 1528369855), (0, 93929), (10, 0)], [(42387808504, 0),
    (872544, 0), (0, 352)]], 3, 4⟩, ⟨[[(28143283828973568, 0), (0, 2254199276924700), (38039115225, 0), (0, 1160195),
    (5, 0)], [(0, 25621353175097198), (0, 497278579946), (36295670, 0), (0, 491)], [(17137146896752, 0), (0,
    377319282), (28902, 0), (1, 0)], [(0, 550489739), (0, 999238), (0, 16)]], 3, 4⟩, 72057594037927936,
    2854568669049, 2601917139637, ⟨[[(17216413735740, 0), (7148893348, 0), (2010006, 0), (2857, 0), (0, 14)],
    [(5671903335, 0), (9093124, 0), (0, 14311), (0, 32)], [(0, 14947200), (0, 15615), (70, 0)], [(28830, 0), (0,
    5)]], 3, 4⟩, 17592186044416, 65180808,
    3233001975132332357471442114739885710376575361984462094009802889093564201229635651028808910285469584812796022651188977507715377,
    lc0⟩) (.leaf ⟨425, 16, 346, 350, 16, 1462, ⟨[[(8115255717650432, 0), (0, 1634281238040295), (30827330350, 0), (0,
    159489), (0, 12)], [(32039448214505582, 0), (0, 3021483721788), (47853143, 0), (2056, 0)], [(32612007328286, 0),
    (0, 1672963430), (0, 81513), (10, 0)], [(44275203355, 0), (553321, 0), (0, 334)]], 3, 4⟩, ⟨[[(18359261343580160,
    0), (0, 2226017184413655), (36452448322, 0), (0, 1148467), (11, 0)], [(0, 25968479484296286), (0, 463135151055),
    (35626745, 0), (0, 592)], [(17024996353832, 0), (0, 349098802), (30198, 0), (1, 0)], [(0, 1059802008), (0,
    1015597), (0, 9)]], 3, 4⟩, 72057594037927936, 3463449203593, 2666642825669, ⟨[[(17045423559459, 0), (6956348665,
    0), (1971548, 0), (4858, 0), (0, 32)], [(5651260588, 0), (9510528, 0), (0, 13654), (0, 35)], [(0, 14624900), (0,
    16508), (66, 0)], [(30214, 0), (4, 0)]], 3, 4⟩, 17592186044416, 53411762,
    3982141274717654299948681342914598347339414732497115816210668126115011671640060630603290621220298922910685978735683093608971459,
    lc0⟩)) (.sy (.leaf ⟨406, 16, 307, 358, 16, 1489, ⟨[[(0, 34565909373956096), (0, 1594363389904996), (29031842823,
    0), (0, 14801), (0, 17)], [(32485219149510504, 0), (0, 2834176380277), (30414670, 0), (2959, 0)],
    [(34677494435680, 0), (0, 1241865918), (0, 133023), (12, 0)], [(40519374558, 0), (1835133, 0), (0, 421)]], 3, 4⟩,
    ⟨[[(0, 13969893158871040), (0, 2327403744117536), (40510950778, 0), (0, 1205453), (3, 0)], [(0,
    24728962792496027), (0, 546174152714), (39493525, 0), (0, 392)], [(17594668766728, 0), (0, 507540033), (26704,
    0), (2, 0)], [(1653976121, 0), (0, 906651), (0, 30)]], 3, 4⟩, 72057594037927936, 1825317756285, 2626528388220,
    ⟨[[(17225876770764, 0), (7122039692, 0), (1548527, 0), (3482, 0), (0, 28)], [(5403393155, 0), (9308952, 0), (0,
    11032), (0, 28)], [(0, 15597719), (0, 20230), (58, 0)], [(27014, 0), (0, 3)]], 3, 4⟩, 17592186044416, 92116932,
    4174276820769619370985752910687271659764423354095458636296248474966461232862665316765991979136933795786046108670562899574529318,
    lc0⟩) (.leaf ⟨409, 16, 318, 343, 16, 1495, ⟨[[(0, 25211655007719424), (0, 1621318277142518), (30023253827, 0),
    (0, 49346), (0, 17)], [(32183767706067511, 0), (0, 2901851923689), (35902563, 0), (2776, 0)], [(35241098043077,
    0), (0, 1415394462), (0, 119422), (12, 0)], [(42818483906, 0), (1480271, 0), (0, 402)]], 3, 4⟩,
    ⟨[[(7819069674745856, 0), (0, 2296858009128500), (38858927456, 0), (0, 1198400), (9, 0)], [(0,
    25093955227356538), (0, 508896420975), (38955839, 0), (0, 529)], [(17416707072938, 0), (0, 481528805), (28971,
    0), (1, 0)], [(1196818935, 0), (0, 936220), (0, 22)]], 3, 4⟩, 72057594037927936, 2529514978951, 2698446517246,
    ⟨[[(17049200584019, 0), (6936356348, 0), (1437892, 0), (5323, 0), (0, 16)], [(5405220253, 0), (9749661, 0), (0,
    10343), (0, 32)], [(0, 15141427), (0, 20638), (54, 0)], [(29333, 0), (8, 0)]], 3, 4⟩, 17592186044416, 77670769,
    2529602496781050136754633091289919901003283046713946595277560229591736779594640117956400404611125118963650032240802140858779975,
    lc0⟩)))
theorem c16 : checkR job con0 false ⟨7, 9, 7, 9, 13, 17⟩ 1 34400 t16 411 21 320 12235 251 16000 = true := by decide +kernel

def t17 : CTree :=
  .sy (.sx (.sx (.sy (.leaf ⟨684, 16, 627, 485, 16, 1910, ⟨[[(0, 29965014518743040), (0, 2424788890617097),
    (46019062673, 0), (0, 514391), (0, 5)], [(23249954112196309, 0), (0, 2399961329557), (51463808, 0), (415, 0)],
    [(9143404946278, 0), (0, 732447660), (0, 2082), (2, 0)], [(8403844243, 0), (0, 217227), (0, 33)]], 3, 4⟩,
    ⟨[[(9780140469411840, 0), (0, 2811167178174335), (41464819100, 0), (0, 1382378), (24, 0)], [(0,
    19247943437096533), (0, 259082450786), (18909350, 0), (0, 408)], [(5891588335766, 0), (0, 1126585), (9476, 0)],
    [(0, 1107950791), (0, 195912), (2, 0)]], 3, 4⟩, 72057594037927936, 449462563709, 231322167374,
    ⟨[[(16878551634871, 0), (5047229498, 0), (1860706, 0), (2430, 0), (6, 0)], [(4149368472, 0), (4257906, 0), (0,
    8392), (0, 16)], [(0, 6322718), (0, 2575), (26, 0)], [(8832, 0), (0, 5)]], 3, 4⟩, 17592186044416, 3300197,
    3697487452654960614315298219067743504114486403352224687356434709885234604102084058687016361749305045931356282808010314388729265,
    lc0⟩) (.leaf ⟨689, 16, 648, 469, 16, 1924, ⟨[[(13422272347168768, 0), (0, 2458655513056543), (46753002179, 0),
    (0, 540259), (0, 4)], [(22796982191990114, 0), (0, 2426651371474), (53734675, 0), (298, 0)], [(9069391534255, 0),
    (0, 757396848), (1263, 0), (2, 0)], [(8564267507, 0), (0, 257049), (0, 30)]], 3, 4⟩, ⟨[[(7737699962462208, 0),
    (0, 2790876486066382), (39711304004, 0), (0, 1337920), (30, 0)], [(0, 19515292641029190), (0, 242170014087),
    (18423837, 0), (0, 416)], [(5936577368465, 0), (8257156, 0), (9143, 0)], [(0, 1214557790), (0, 194936), (3, 0)]],
    3, 4⟩, 72057594037927936, 479210176196, 236393582037, ⟨[[(16708908638646, 0), (4861930294, 0), (1825795, 0),
    (2966, 0), (0, 10)], [(4150032696, 0), (4500739, 0), (0, 7950), (0, 16)], [(0, 6319667), (0, 3130), (24, 0)],
    [(8914, 0), (0, 3)]], 3, 4⟩, 17592186044416, 2490069,
    4693170476386946044642354778044142456813661984328235846721482655596054964672926758717866786012788740852106685313337970977656249,
    lc0⟩)) (.sy (.leaf ⟨671, 16, 603, 477, 16, 1923, ⟨[[(0, 23431041135665152), (0, 2430171509855580), (46330291196,
    0), (0, 473816), (0, 7)], [(23142046792190781, 0), (0, 2368313003856), (49145325, 0), (600, 0)], [(9834154873110,
    0), (0, 728540628), (0, 6425), (3, 0)], [(8439175734, 0), (0, 172342), (0, 38)]], 3, 4⟩, ⟨[[(20641479846277120,
    0), (0, 2841272794718908), (42563618836, 0), (0, 1409408), (24, 0)], [(0, 18886251857974452), (0, 261973371506),
    (19850069, 0), (0, 428)], [(5803269335692, 0), (0, 25575008), (9785, 0)], [(0, 923097755), (0, 190732), (2, 0)]],
    3, 4⟩, 72057594037927936, 447651650578, 231262727686, ⟨[[(16877173820018, 0), (5032377077, 0), (1653598, 0),
    (2237, 0), (0, 7)], [(4089501798, 0), (4495521, 0), (0, 7435), (0, 14)], [(0, 6422279), (0, 3479), (23, 0)],
    [(9201, 0), (0, 2)]], 3, 4⟩, 17592186044416, 3131317,
    4743789995835953494580424633907977302815568429221818325781226688062474785477632377884728874312058927005524387535281204027457363,
    lc0⟩) (.leaf ⟨677, 16, 624, 461, 16, 1937, ⟨[[(0, 23151530639613952), (0, 2467043135368052), (47194555913, 0),
    (0, 504330), (0, 6)], [(22730581404891093, 0), (0, 2399298707210), (51682109, 0), (476, 0)], [(9796826832620, 0),
    (0, 758638744), (0, 2825), (2, 0)], [(8633964984, 0), (0, 215775), (0, 35)]], 3, 4⟩, ⟨[[(0, 2129063506833408),
    (0, 2819973383267066), (40775083649, 0), (0, 1365075), (30, 0)], [(0, 19151233605665704), (0, 244135482307),
    (19335207, 0), (0, 443)], [(5835045683564, 0), (0, 16020080), (9524, 0)], [(0, 1025764356), (0, 190032), (2,
    0)]], 3, 4⟩, 72057594037927936, 485915555208, 236887525572, ⟨[[(16711522953324, 0), (4854628275, 0), (1597524,
    0), (3159, 0), (0, 10)], [(4078984434, 0), (4712375, 0), (0, 7029), (0, 14)], [(0, 6384308), (0, 3957), (21, 0)],
    [(9245, 0), (0, 1)]], 3, 4⟩, 17592186044416, 2570153,
    4875191642735794276949729110144944750773013630284253933991344434181164434579030794070418539238629027909305007878648370277505433,
    lc0⟩))) (.sy (.sx (.leaf ⟨658, 16, 580, 470, 16, 1936, ⟨[[(22177351089790976, 0), (0, 2434401154502570),
    (46534761856, 0), (0, 426929), (0, 10)], [(23097481265736655, 0), (0, 2337643850263), (46545756, 0), (800, 0)],
    [(10503833224988, 0), (0, 718869285), (0, 11222), (3, 0)], [(8466938673, 0), (0, 119935), (0, 43)]], 3, 4⟩,
    ⟨[[(0, 30799457981550592), (0, 2871617357165969), (43708199515, 0), (0, 1437286), (24, 0)], [(0,
    18527735855640802), (0, 266911980177), (20820298, 0), (0, 443)], [(5737546534909, 0), (0, 49535629), (10044, 0)],
    [(0, 736792121), (0, 185568), (1, 0)]], 3, 4⟩, 72057594037927936, 434743971832, 232737120583, ⟨[[(16878095560123,
    0), (5025647816, 0), (1471812, 0), (2389, 0), (0, 10)], [(4034398963, 0), (4687321, 0), (0, 6662), (0, 12)], [(0,
    6525414), (0, 4255), (21, 0)], [(9532, 0), (0, 1)]], 3, 4⟩, 17592186044416, 3293017,
    4740437713423947137297202024056880675138579538850698740652185648993990745948629321986234152527530887732850704560199072548771683,
    lc0⟩) (.leaf ⟨645, 16, 557, 462, 16, 1948, ⟨[[(27867977311289344, 0), (0, 2433377585820435), (46544588599, 0),
    (0, 372669), (0, 13)], [(23072502531684251, 0), (0, 2303451746464), (43561750, 0), (1015, 0)], [(11132962479664,
    0), (0, 701513096), (0, 16475), (3, 0)], [(8465789889, 0), (0, 59837), (0, 49)]], 3, 4⟩, ⟨[[(0,
    17465589109948416), (0, 2900798062571487), (44876902759, 0), (0, 1465058), (23, 0)], [(0, 18161218945764178), (0,
    273729826749), (21804058, 0), (0, 452)], [(5691846275502, 0), (0, 72959326), (10231, 0)], [(0, 548717589), (0,
    180197), (1, 0)]], 3, 4⟩, 72057594037927936, 417055713394, 232417515494, ⟨[[(16876877440914, 0), (5028397226, 0),
    (1288753, 0), (2629, 0), (0, 10)], [(3968718982, 0), (4863938, 0), (0, 5927), (0, 12)], [(0, 6619133), (0, 5024),
    (19, 0)], [(9801, 0), (1, 0)]], 3, 4⟩, 17592186044416, 3729057,
    4398027018054333353097268409875061156129349478825514301927184926007438564621597645419109569585349374560804727665909883688470861,
    lc0⟩)) (.sx (.leaf ⟨663, 16, 599, 453, 16, 1950, ⟨[[(0, 34218260704542720), (0, 2466235805576187), (47380041991,
    0), (0, 460633), (0, 9)], [(22654396973095183, 0), (0, 2365374599609), (49194760, 0), (667, 0)],
    [(10472673859486, 0), (0, 751893038), (0, 7345), (3, 0)], [(8671233880, 0), (0, 166451), (0, 40)]], 3, 4⟩, ⟨[[(0,
    2200200309538816), (0, 2849264395806170), (41883355247, 0), (0, 1393420), (30, 0)], [(0, 18791448581173501), (0,
    248130349463), (20282408, 0), (0, 467)], [(5756522012586, 0), (0, 39849480), (9866, 0)], [(0, 835563222), (0,
    185254), (2, 0)]], 3, 4⟩, 72057594037927936, 478103933259, 236874867817, ⟨[[(16712096046519, 0), (4853696292, 0),
    (1381286, 0), (3308, 0), (0, 7)], [(4018981858, 0), (4907006, 0), (0, 6238), (0, 13)], [(0, 6483134), (0, 4734),
    (19, 0)], [(9626, 0), (1, 0)]], 3, 4⟩, 17592186044416, 2998756,
    4523091740795806327868767731109519608132229714479666820846486361998048397307005326749644494658170458838161819287686756312162084,
    lc0⟩) (.leaf ⟨650, 16, 576, 445, 16, 1963, ⟨[[(2782585806913536, 0), (0, 2468356467592316), (47532182302, 0), (0,
    411200), (0, 12)], [(22675238454728990, 0), (0, 2336048266150), (46496821, 0), (876, 0)], [(11144659152041, 0),
    (0, 740159717), (0, 12344), (3, 0)], [(8711199518, 0), (0, 110057), (0, 45)]], 3, 4⟩, ⟨[[(7520915545214976, 0),
    (0, 2878834911159563), (43037777333, 0), (0, 1422794), (30, 0)], [(0, 18434056211400591), (0, 254130506811),
    (21261666, 0), (0, 486)], [(5701355766573, 0), (0, 63233708), (10154, 0)], [(0, 643853720), (0, 180474), (2,
    0)]], 3, 4⟩, 72057594037927936, 463397241534, 237682907351, ⟨[[(16709425106972, 0), (4856721253, 0), (1179817,
    0), (3334, 0), (0, 4)], [(3954509183, 0), (5068914, 0), (0, 5522), (0, 12)], [(0, 6565149), (0, 5445), (17, 0)],
    [(9940, 0), (2, 0)]], 3, 4⟩, 17592186044416, 3317123,
    4439794078356328375488136490299950564483475868496488551415698115366729669563014100270154855358173281936727473933558838642610929,
    lc0⟩)))) (.sx (.sy (.sx (.leaf ⟨696, 16, 671, 453, 16, 1937, ⟨[[(5757749635211264, 0), (0, 2497741300947564),
    (47564556077, 0), (0, 566185), (0, 3)], [(22358774386558028, 0), (0, 2456717802047), (56008054, 0), (178, 0)],
    [(8998195006335, 0), (0, 781338717), (4491, 0), (2, 0)], [(8727057053, 0), (0, 295651), (0, 27)]], 3, 4⟩, ⟨[[(0,
    11523577822527488), (0, 2770596599067934), (37999363359, 0), (0, 1281187), (35, 0)], [(0, 19764922141200844), (0,
    225499635395), (17920662, 0), (0, 413)], [(5983140278588, 0), (17299705, 0), (8678, 0)], [(0, 1320569910), (0,
    193342), (3, 0)]], 3, 4⟩, 72057594037927936, 509239321421, 242922105143, ⟨[[(16546690385997, 0), (4682457773, 0),
    (1736321, 0), (3903, 0), (0, 8)], [(4133503411, 0), (4719101, 0), (0, 7462), (0, 15)], [(0, 6273732), (0, 3604),
    (21, 0)], [(8872, 0), (0, 2)]], 3, 4⟩, 17592186044416, 2229619,
    4484350183313027772685182003529932826815520177718375987236299794468153702471285197845396694548011245838593377966264187205875190,
    lc0⟩) (.leaf ⟨682, 16, 645, 445, 16, 1951, ⟨[[(0, 10390696270331904), (0, 2501487993978428), (47988277888, 0),
    (0, 533465), (0, 5)], [(22264090611502245, 0), (0, 2426074407694), (54051970, 0), (347, 0)], [(9732447558550, 0),
    (0, 785271005), (664, 0), (2, 0)], [(8803810064, 0), (0, 257188), (0, 32)]], 3, 4⟩, ⟨[[(0, 24810681038008320),
    (0, 2800144576790667), (39047764038, 0), (0, 1308578), (36, 0)], [(0, 19408243085286619), (0, 226685604219),
    (18800546, 0), (0, 447)], [(5871499899889, 0), (0, 6730476), (9120, 0)], [(0, 1128615176), (0, 188739), (3, 0)]],
    3, 4⟩, 72057594037927936, 519933532394, 243090090521, ⟨[[(16548419869778, 0), (4676398261, 0), (1488105, 0),
    (3912, 0), (0, 5)], [(4074247747, 0), (4927037, 0), (0, 6606), (0, 14)], [(0, 6368076), (0, 4393), (19, 0)],
    [(9286, 0)]], 3, 4⟩, 17592186044416, 2482106,
    4380469175786500438517430233515542429487768452686355143510085633360177105751279975998310941403065908090016373982815374579972175,
    lc0⟩)) (.leaf ⟨485, 16, 475, 313, 16, 1417, ⟨[[(0, 3436231731134464), (0, 1770573956405214), (33902132311, 0),
    (0, 402389), (0, 2)], [(30457452654038443, 0), (0, 3445157401931), (79932973, 0), (187, 0)], [(25921081273131,
    0), (0, 2251984719), (16302, 0), (5, 0)], [(49784264212, 0), (0, 1761479), (0, 148)]], 3, 4⟩,
    ⟨[[(2701435450425344, 0), (0, 2002783564412825), (26695794007, 0), (0, 888623), (29, 0)], [(0,
    28711246467498929), (0, 302838846205), (25828701, 0), (0, 605)], [(17287565541125, 0), (40438444, 0), (24147, 0),
    (0, 1)], [(0, 7696523993), (0, 1095250), (19, 0)]], 3, 4⟩, 72057594037927936, 6064782031416, 2808067323931,
    ⟨[[(16385668152134, 0), (6216062844, 0), (2789494, 0), (11390, 0), (2, 0)], [(5859323486, 0), (9975855, 0), (0,
    17877), (0, 53)], [(0, 12909942), (0, 12545), (73, 0)], [(26649, 0), (0, 1)]], 3, 4⟩, 17592186044416, 15791422,
    4417497050861898212582937419688935176268512070677608431178487478574088571111202635408792672092855611628671318559223592226155626,
    lc0⟩)) (.sy (.leaf ⟨458, 16, 421, 317, 16, 1446, ⟨[[(9502052719644672, 0), (0, 1734590785460595), (33541392909,
    0), (0, 327621), (0, 7)], [(30805153675043950, 0), (0, 3299945043636), (70126488, 0), (870, 0)],
    [(29914394997365, 0), (0, 2163379141), (0, 16336), (7, 0)], [(49385361182, 0), (0, 1030245), (0, 218)]], 3, 4⟩,
    ⟨[[(15911998487867392, 0), (0, 2085989622394625), (29845775155, 0), (0, 991742), (26, 0)], [(0,
    27690685175173778), (0, 340557607686), (29620159, 0), (0, 724)], [(16858569406840, 0), (0, 123311176), (28528,
    0), (0, 1)], [(0, 4914580815), (0, 1068844), (14, 0)]], 3, 4⟩, 72057594037927936, 5624277869189, 2786423273820,
    ⟨[[(16544109210036, 0), (6378966699, 0), (2131086, 0), (9296, 0), (3, 0)], [(5745266153, 0), (10226142, 0), (0,
    14677), (0, 44)], [(0, 13541729), (0, 15624), (66, 0)], [(29698, 0), (9, 0)]], 3, 4⟩, 17592186044416, 23585646,
    4832696345435348366407470888276643727860125461895903878342643477556243706983470913207232410907607296852598328787880702176228530,
    lc0⟩) (.leaf ⟨464, 16, 438, 304, 16, 1452, ⟨[[(13002013024968704, 0), (0, 1769859385298403), (34372355518, 0),
    (0, 353911), (0, 6)], [(30344095141651133, 0), (0, 3359322193961), (74143850, 0), (671, 0)], [(29989138319262,
    0), (0, 2262163460), (0, 5961), (7, 0)], [(50786630898, 0), (0, 1285896), (0, 200)]], 3, 4⟩,
    ⟨[[(3424229706596352, 0), (0, 2065294665384158), (28511854457, 0), (0, 938876), (30, 0)], [(0,
    27969850386662089), (0, 312659609641), (28645840, 0), (0, 726)], [(16873460493020, 0), (0, 95806506), (27087, 0),
    (0, 1)], [(0, 5469908489), (0, 1057449), (17, 0)]], 3, 4⟩, 72057594037927936, 6124477236669, 2832966025145,
    ⟨[[(16384393680995, 0), (6168143832, 0), (1891354, 0), (9068, 0), (18, 0)], [(5699329564, 0), (10570294, 0), (0,
    13704), (0, 42)], [(0, 13332169), (0, 16498), (62, 0)], [(29275, 0), (12, 0)]], 3, 4⟩, 17592186044416, 20222499,
    3664384112831812287761116591753143814938783397705184108959848134467769837784566746117952841251855290402138417976264880411817919,
    lc0⟩)))
theorem c17 : checkR job con0 false ⟨7, 9, 7, 9, 13, 17⟩ 1 34400 t17 369 21 320 12737 251 16000 = true := by decide +kernel

def t18 : CTree :=
  .sy (.sx (.sx (.leaf ⟨404, 16, 346, 268, 16, 1182, ⟨[[(0, 1299513306017792), (0, 3114817794659896), (119493444853,
    0), (0, 1693506), (0, 161)], [(14574678409141184, 0), (0, 2908768122053), (106460498, 0), (5970, 0), (0, 1)],
    [(7480295500927, 0), (0, 889367013), (0, 50907), (17, 0)], [(5460295597, 0), (0, 24785), (0, 135)]], 3, 4⟩,
    ⟨[[(0, 20675724123418624), (0, 3506824916151652), (108496738165, 0), (0, 7086804), (250, 0)], [(0,
    10773146897433225), (0, 327063290965), (54165048, 0), (0, 2302)], [(3404942610427, 0), (0, 109324468), (24936,
    0)], [(0, 243117111), (0, 210448), (1, 0)]], 3, 4⟩, 72057594037927936, 297508435498, 212775989138,
    ⟨[[(16795783738935, 0), (8251367306, 0), (2935632, 0), (14098, 0), (0, 30)], [(6114842025, 0), (13342344, 0), (0,
    22047), (0, 81)], [(0, 16470195), (0, 24339), (113, 0)], [(39157, 0), (18, 0)]], 3, 4⟩, 17592186044416, 64575637,
    4310759566099522134146811181507073093633651722483707211629459746217815778061623269422381036233623036230895820879385392711429884,
    lc0⟩) (.leaf ⟨397, 16, 333, 262, 16, 1184, ⟨[[(11606160026120192, 0), (0, 3116875245068027), (119210748993, 0),
    (0, 1358174), (0, 195)], [(14659973136202810, 0), (0, 2871350259900), (97623485, 0), (7224, 0), (0, 1)],
    [(7873896048384, 0), (0, 853334629), (0, 66610), (19, 0)], [(5451919547, 0), (68115, 0), (0, 150)]], 3, 4⟩,
    ⟨[[(0, 2926447994654720), (0, 3526727178430091), (111003208991, 0), (0, 7195695), (241, 0)], [(0,
    10505958790434255), (0, 337917168397), (56357381, 0), (0, 2303)], [(3387388027984, 0), (0, 135572728), (24999,
    0)], [(0, 126656379), (0, 202843), (0, 1)]], 3, 4⟩, 72057594037927936, 276967677476, 220383458313,
    ⟨[[(16792816098511, 0), (8315125537, 0), (2482660, 0), (13827, 0), (0, 6)], [(5983785689, 0), (13675172, 0), (0,
    19420), (0, 78)], [(0, 16586542), (0, 27121), (104, 0)], [(39450, 0), (25, 0)]], 3, 4⟩, 17592186044416, 75575310,
    2916025264506821160213854770882828542901116606054713922761245600481087543982261850779708499757260598965107654187821346900287332,
    lc0⟩)) (.sx (.leaf ⟨389, 16, 319, 256, 16, 1186, ⟨[[(0, 11583361257418752), (0, 3102797346773101), (118003063658,
    0), (0, 977333), (0, 230)], [(14705194379707925, 0), (0, 2818777346313), (87359006, 0), (8529, 0), (0, 1)],
    [(8212189824144, 0), (0, 802837905), (0, 83324), (20, 0)], [(5399164207, 0), (169646, 0), (0, 166)]], 3, 4⟩,
    ⟨[[(25287110517530624, 0), (0, 3547155438162297), (113605799521, 0), (0, 7304067), (230, 0)], [(0,
    10239149694285787), (0, 350956015563), (58548247, 0), (0, 2269)], [(3384471976196, 0), (0, 160880634), (24810,
    0), (1, 0)], [(0, 10323595), (0, 194815), (0, 3)]], 3, 4⟩, 72057594037927936, 261819982275, 227196827749,
    ⟨[[(16791593222658, 0), (8394650483, 0), (2054420, 0), (12968, 0), (14, 0)], [(5852724249, 0), (13971645, 0), (0,
    16889), (0, 74)], [(0, 16781804), (0, 30069), (96, 0)], [(39610, 0), (31, 0)]], 3, 4⟩, 17592186044416, 90834187,
    1606311544361968839553526501410464572725974787196376666922271315103423620289952562363056754683051877099076517327591756524574935,
    lc0⟩) (.leaf ⟨383, 16, 307, 251, 16, 1188, ⟨[[(0, 24523165542846464), (0, 3101361613432467), (116941421045, 0),
    (0, 559816), (0, 267)], [(14843672237337542, 0), (0, 2776580028756), (76451090, 0), (9958, 0), (0, 1)],
    [(8567852830720, 0), (0, 744855693), (0, 101768), (22, 0)], [(5349878060, 0), (280627, 0), (0, 183)]], 3, 4⟩,
    ⟨[[(0, 8062604417310720), (0, 3568200728112427), (116304129940, 0), (0, 7410382), (217, 0)], [(0,
    9971490748642642), (0, 366101849998), (60714930, 0), (0, 2197)], [(3396206126173, 0), (0, 185184932), (24334, 0),
    (1, 0)], [(105929786, 0), (0, 186236), (0, 5)]], 3, 4⟩, 72057594037927936, 242197445433, 233940985759,
    ⟨[[(16796640482140, 0), (8483639100, 0), (1707348, 0), (11822, 0), (27, 0)], [(5701984034, 0), (14106375, 0), (0,
    14640), (0, 70)], [(0, 16865256), (0, 32565), (89, 0)], [(38855, 0), (34, 0)]], 3, 4⟩, 17592186044416, 106563844,
    3299529479101525604622755716343507967907133304184650295346062402675579566040964869425977113324980454275598138750900197270416754,
    lc0⟩))) (.sx (.sy (.leaf ⟨438, 16, 387, 309, 16, 1480, ⟨[[(25889105836478464, 0), (0, 1725478287291784),
    (33497356249, 0), (0, 254292), (0, 11)], [(30874997497518568, 0), (0, 3204576481607), (62011458, 0), (1464, 0)],
    [(33488475679577, 0), (0, 2073688634), (0, 45002), (9, 0)], [(49680249839, 0), (0, 360687), (0, 279)]], 3, 4⟩,
    ⟨[[(0, 30404964059238400), (0, 2149979977890692), (31873322406, 0), (0, 1047596), (27, 0)], [(0,
    26914733708357044), (0, 364838776481), (32836380, 0), (0, 803)], [(16772786128262, 0), (0, 259860523), (30668,
    0), (0, 1)], [(0, 2627251042), (0, 1027441), (8, 0)]], 3, 4⟩, 72057594037927936, 5238836030253, 2829319825521,
    ⟨[[(16547152259188, 0), (6362030450, 0), (1437044, 0), (7373, 0), (16, 0)], [(5575232039, 0), (10638500, 0), (0,
    11159), (0, 37)], [(0, 13951103), (0, 19193), (56, 0)], [(31941, 0), (21, 0)]], 3, 4⟩, 17592186044416, 32364257,
    3051553389765208888887309338483534463992073275983823156903538217238854070993706906644779103468808435020227414634170938026589197,
    lc0⟩) (.leaf ⟨443, 16, 402, 295, 16, 1486, ⟨[[(0, 1120918892216320), (0, 1757627883968429), (34380771257, 0), (0,
    286494), (0, 11)], [(30417069087291166, 0), (0, 3263033679735), (66493297, 0), (1241, 0)], [(33694523704152, 0),
    (0, 2194083600), (0, 33180), (9, 0)], [(51347360342, 0), (0, 650079), (0, 259)]], 3, 4⟩, ⟨[[(0,
    7187166711885824), (0, 2127346742920516), (30460911191, 0), (0, 994076), (31, 0)], [(0, 27199533745366784), (0,
    333834750105), (31730777, 0), (0, 835)], [(16717482053592, 0), (0, 230517949), (29660, 0), (0, 1)], [(0,
    3153248204), (0, 1020830), (13, 0)]], 3, 4⟩, 72057594037927936, 5811379510326, 2870582384098, ⟨[[(16386558498456,
    0), (6169126284, 0), (1233203, 0), (6548, 0), (21, 0)], [(5524841430, 0), (10972107, 0), (0, 10331), (0, 34)],
    [(0, 13723088), (0, 20073), (53, 0)], [(31749, 0), (24, 0)]], 3, 4⟩, 17592186044416, 27450530,
    2015993162035844702884312550140878366248526305781841548560768946528695787449222471108064476837579671737694917360729123151446117,
    lc0⟩)) (.sy (.leaf ⟨418, 16, 354, 300, 16, 1515, ⟨[[(17214924333993984, 0), (0, 1704817262184017), (32930329763,
    0), (0, 160345), (0, 16)], [(31062667948312198, 0), (0, 3091130977532), (51767136, 0), (2137, 0)],
    [(36599270098955, 0), (0, 1891687127), (0, 78722), (11, 0)], [(49211960682, 0), (457486, 0), (0, 344)]], 3, 4⟩,
    ⟨[[(16931588602093568, 0), (0, 2217055572565618), (34094696319, 0), (0, 1107650), (26, 0)], [(0,
    26118917650735293), (0, 401254306060), (36281383, 0), (0, 851)], [(16984510153754, 0), (0, 394117029), (31957,
    0)], [(0, 248476261), (0, 980881)]], 3, 4⟩, 72057594037927936, 4569517507144, 2877398933923, ⟨[[(16543913238978,
    0), (6371566027, 0), (905653, 0), (5207, 0), (18, 0)], [(5376315146, 0), (10896644, 0), (0, 8096), (0, 30)], [(0,
    14348479), (0, 22670), (47, 0)], [(33630, 0), (31, 0)]], 3, 4⟩, 17592186044416, 46759727,
    2669367477476932858470816928720737667113509912204966543678474959675292875822943592709501126483372342392704942894086022435961815,
    lc0⟩) (.leaf ⟨423, 16, 368, 286, 16, 1521, ⟨[[(0, 32262408994123776), (0, 1738004203954346), (33956788154, 0),
    (0, 199277), (0, 16)], [(30691851002796483, 0), (0, 3157751390231), (56916572, 0), (1899, 0)], [(37040286631198,
    0), (0, 2040388948), (0, 65569), (10, 0)], [(51309598600, 0), (133221, 0), (0, 324)]], 3, 4⟩,
    ⟨[[(2535341867753472, 0), (0, 2192296255735926), (32596853260, 0), (0, 1054859), (31, 0)], [(0,
    26415517418788190), (0, 366936486975), (35086404, 0), (0, 919)], [(16861203782408, 0), (0, 363654433), (31592,
    0), (0, 1)], [(0, 743314865), (0, 981759), (6, 0)]], 3, 4⟩, 72057594037927936, 5240320551721, 2927717134080,
    ⟨[[(16388156117638, 0), (6196578354, 0), (768420, 0), (4422, 0), (16, 0)], [(5322487485, 0), (11180588, 0), (0,
    7476), (0, 27)], [(0, 14041271), (0, 23317), (45, 0)], [(33649, 0), (35, 0)]], 3, 4⟩, 17592186044416, 39245385,
    1911867232482985692761205145464293872068422087516414972572418110342213916613894989371173351436972571351832979957281374315930331,
    lc0⟩)))
theorem c18 : checkR job con0 false ⟨7, 9, 7, 9, 13, 17⟩ 1 34400 t18 411 21 320 12737 251 16000 = true := by decide +kernel

def t19 : CTree :=
  .sx (.sy (.out ⟨357, 16, 625, 3145, 16, 3964, ⟨[[(0, 35151928387182592), (0, 1612118771089295), (27517904006, 0)],
    [(31677296605161563, 0), (0, 3658576012258), (86635586, 0)], [(5386362031269, 0), (0, 1675311096), (67850, 0)]],
    2, 2⟩, ⟨[[(0, 17624362953736192), (0, 4340813916562835), (83152575840, 0)]], 2, 2⟩, 72057594037927936,
    455675868787046, 25310143097292, ⟨[], 0, 0⟩, 0, 0, 0, lc0⟩ 1 1 651292959697) (.out ⟨361, 16, 653, 3175, 16, 4041,
    ⟨[[(0, 10846718687014912), (0, 1655807834210065), (28093883770, 0)], [(31200232362364617, 0), (0, 3732395401395),
    (88930383, 0)], [(4766956712500, 0), (0, 1678585834), (72026, 0)]], 2, 2⟩, ⟨[[(22122322580373504, 0), (0,
    4341238656541155), (82368630235, 0)]], 2, 2⟩, 72057594037927936, 465297841952767, 24831582431793, ⟨[], 0, 0⟩, 0,
    0, 0, lc0⟩ 1 1 494604764275)) (.sx (.sy (.out ⟨517, 16, 872, 3145, 16, 3964, ⟨[[(0, 10184566138798080), (0,
    2412432676037845), (42293553533, 0)], [(22434611416681000, 0), (0, 2630425518704), (63374815, 0)],
    [(3469529090298, 0), (0, 658173435), (22904, 0)]], 2, 2⟩, ⟨[[(0, 17624362953736192), (0, 4340813916562835),
    (83152575840, 0)]], 2, 2⟩, 72057594037927936, 90586924447682, 25310143097292, ⟨[], 0, 0⟩, 0, 0, 0, lc0⟩ 1 1
    434393877128) (.sy (.out ⟨728, 16, 1259, 6351, 16, 8063, ⟨[[(11866949345468416, 0), (0, 1718747161708713),
    (15009832699, 0)], [(30974294724146109, 0), (0, 1864664471125), (22607208, 0)], [(4656276963816, 0), (0,
    462544178), (8451, 0)]], 2, 2⟩, ⟨[[(0, 13925732532027392), (0, 4351732652481940), (41382408091, 0)]], 2, 2⟩,
    72057594037927936, 114898825709749, 6237755104332, ⟨[], 0, 0⟩, 0, 0, 0, lc0⟩ 1 1 326806659688) (.out ⟨732, 16,
    1286, 6381, 16, 8140, ⟨[[(0, 28582927904956416), (0, 1740299583057680), (15161067741, 0)], [(30688224502020084,
    0), (0, 1881562412559), (22905297, 0)], [(4521141048517, 0), (0, 463744341), (8734, 0)]], 2, 2⟩, ⟨[[(0,
    393278251466752), (0, 4351644545080651), (41184964605, 0)]], 2, 2⟩, 72057594037927936, 115906569745074,
    6178428871414, ⟨[], 0, 0⟩, 0, 0, 0, lc0⟩ 1 1 253413806000))) (.sy (.sy (.out ⟨719, 16, 1173, 6290, 16, 7910,
    ⟨[[(0, 6277595626610688), (0, 1705307584372115), (15215881426, 0)], [(31087138303504158, 0), (0, 1818907762387),
    (22024556, 0)], [(6253033144153, 0), (0, 481992066), (7362, 0)]], 2, 2⟩, ⟨[[(25464948259356672, 0), (0,
    4351857629944084), (41782512889, 0)]], 2, 2⟩, 72057594037927936, 112829440825893, 6358921375673, ⟨[], 0, 0⟩, 0,
    0, 0, lc0⟩ 1 1 315326582955) (.out ⟨723, 16, 1199, 6320, 16, 7986, ⟨[[(0, 17405848050155520), (0,
    1727577285832315), (15381733225, 0)], [(30848526479481661, 0), (0, 1836698955642), (22358016, 0)],
    [(6146222069456, 0), (0, 485032707), (7696, 0)]], 2, 2⟩, ⟨[[(23731607493607424, 0), (0, 4351622212820911),
    (41579848580, 0)]], 2, 2⟩, 72057594037927936, 113928689462501, 6297651335713, ⟨[], 0, 0⟩, 0, 0, 0, lc0⟩ 1 1
    243383192203)) (.sx (.sy (.out ⟨1039, 16, 1763, 6351, 16, 8063, ⟨[[(0, 20178264957108224), (0, 2489698321035464),
    (22027415375, 0)], [(21917685046493818, 0), (0, 1326593654543), (16198215, 0)], [(2034049987377, 0), (0,
    171987145), (2906, 0)]], 2, 2⟩, ⟨[[(0, 13925732532027392), (0, 4351732652481940), (41382408091, 0)]], 2, 2⟩,
    72057594037927936, 22751273046187, 6237755104332, ⟨[], 0, 0⟩, 0, 0, 0, lc0⟩ 1 1 215810032792) (.sy (.out ⟨1468,
    16, 2523, 12763, 16, 16262, ⟨[[(0, 4303489803075584), (0, 1769663583766796), (7815730255, 0)],
    [(30654542077231348, 0), (0, 940530133313), (5762337, 0)], [(2818819743307, 0), (0, 121489115), (1052, 0)]], 2,
    2⟩, ⟨[[(2753624194809856, 0), (0, 4357177567407503), (20643184366, 0)]], 2, 2⟩, 72057594037927936,
    28939812922748, 1548410399996, ⟨[], 0, 0⟩, 0, 0, 0, lc0⟩ 1 1 167136784170) (.out ⟨1472, 16, 2551, 12794, 16,
    16340, ⟨[[(0, 14882123228479488), (0, 1781390862023148), (7859087485, 0)], [(30518823505739106, 0), (0,
    945129716919), (5803808, 0)], [(2788706963570, 0), (0, 121765978), (1071, 0)]], 2, 2⟩, ⟨[[(0, 12434640939646976),
    (0, 4357325478583327), (20594903313, 0)]], 2, 2⟩, 72057594037927936, 29073169974616, 1541119215988, ⟨[], 0, 0⟩,
    0, 0, 0, lc0⟩ 1 1 135637063784))) (.sy (.sy (.out ⟨1458, 16, 2435, 12703, 16, 16108, ⟨[[(35621729578483712, 0),
    (0, 1761978312020385), (7864090964, 0)], [(30756718453377682, 0), (0, 929153749516), (5686851, 0)],
    [(3218944455748, 0), (0, 124047046), (983, 0)]], 2, 2⟩, ⟨[[(0, 29148219689009152), (0, 4357269199084624),
    (20742283172, 0)]], 2, 2⟩, 72057594037927936, 28731450948868, 1563288540273, ⟨[], 0, 0⟩, 0, 0, 0, lc0⟩ 1 1
    162908447337) (.out ⟨1462, 16, 2461, 12733, 16, 16185, ⟨[[(0, 22396352535789568), (0, 1772834019499972),
    (7904632125, 0)], [(30615158046956629, 0), (0, 933314577098), (5727117, 0)], [(3190629833148, 0), (0, 124368970),
    (1003, 0)]], 2, 2⟩, ⟨[[(0, 8005675385618432), (0, 4357247929227716), (20692732212, 0)]], 2, 2⟩,
    72057594037927936, 28854287752550, 1555831564520, ⟨[], 0, 0⟩, 0, 0, 0, lc0⟩ 1 1 126666704561)) (.leaf ⟨1593, 16,
    1801, 884, 16, 3802, ⟨[[(0, 9098080161906688), (0, 2577425393726448), (22950118806, 0), (0, 166183), (1, 0)],
    [(21892734714763203, 0), (0, 1353440138316), (16673326, 0), (0, 82)], [(2266838783997, 0), (0, 179803939), (2976,
    0)], [(2210583961, 0), (0, 57130)]], 3, 4⟩, ⟨[[(31285883472379904, 0), (0, 2570372311160091), (14409770229, 0),
    (0, 239700), (5, 0)], [(0, 22306160354017652), (0, 103019566047), (3428288, 0), (0, 13)], [(3588345708381, 0),
    (39587374, 0), (549, 0)], [(0, 653730071), (0, 26994)]], 3, 4⟩, 72057594037927936, 44140361606, 34901416487,
    ⟨[[(16035116335881, 0), (2114909948, 0), (713550, 0), (839, 0)], [(2140992637, 0), (1016149, 0), (0, 1346), (0,
    2)], [(0, 1381727), (0, 94), (2, 0)], [(827, 0)]], 3, 4⟩, 17592186044416, 151830,
    3570893711986165824332611259822899817429509755867491836732202950195015295487108950594081429693972856511433270943931995766387447,
    lc0⟩)))))
theorem c19 : checkR job con0 false ⟨7, 9, 7, 9, 13, 17⟩ 1 34400 t19 285 21 320 26227 251 32000 = true := by decide +kernel

def t20 : CTree :=
  .sx (.sx (.sy (.out ⟨526, 16, 995, 3206, 16, 4119, ⟨[[(0, 7007773629652992), (0, 2422488225780008), (40460942030,
    0)], [(22308872825593850, 0), (0, 2751047320363), (65367840, 0)], [(930859221013, 0), (0, 585330434), (27769,
    0)]], 2, 2⟩, ⟨[[(4356928220954624, 0), (0, 4341928757754016), (81604464784, 0)]], 2, 2⟩, 72057594037927936,
    94816292199323, 24368001460549, ⟨[], 0, 0⟩, 0, 0, 0, lc0⟩ 1 1 422531375307) (.sy (.out ⟨744, 16, 1442, 6472, 16,
    8374, ⟨[[(0, 4792583350239232), (0, 1733499308146097), (14414449471, 0)], [(30843331017356148, 0), (0,
    1958055184969), (23352164, 0)], [(1035375806289, 0), (0, 408964090), (10095, 0)]], 2, 2⟩, ⟨[[(12949961355493376,
    0), (0, 4351803247033369), (40607680042, 0)]], 2, 2⟩, 72057594037927936, 121930048102805, 6006018178130, ⟨[], 0,
    0⟩, 0, 0, 0, lc0⟩ 1 1 322784067683) (.out ⟨749, 16, 1475, 6503, 16, 8453, ⟨[[(0, 24741811265257472), (0,
    1758448844148837), (14581757605, 0)], [(30549739503798839, 0), (0, 1978994935718), (23664028, 0)],
    [(851675682276, 0), (0, 407947512), (10341, 0)]], 2, 2⟩, ⟨[[(0, 16054353515446272), (0, 4351990634956486),
    (40420089673, 0)]], 2, 2⟩, 72057594037927936, 123281440718015, 5950334475569, ⟨[], 0, 0⟩, 0, 0, 0, lc0⟩ 1 1
    260398780260))) (.sy (.sy (.out ⟨736, 16, 1348, 6412, 16, 8218, ⟨[[(10307641030377472, 0), (0, 1727325389133788),
    (14732639735, 0)], [(30872354951491444, 0), (0, 1909876930188), (23030551, 0)], [(2920007207758, 0), (0,
    437670921), (9339, 0)]], 2, 2⟩, ⟨[[(0, 23270915253272576), (0, 4351893051778309), (40992559100, 0)]], 2, 2⟩,
    72057594037927936, 117746987339312, 6120417247621, ⟨[], 0, 0⟩, 0, 0, 0, lc0⟩ 1 1 328860044175) (.out ⟨741, 16,
    1379, 6442, 16, 8296, ⟨[[(0, 13384263007690752), (0, 1752001447603227), (14903827010, 0)], [(30607440366450085,
    0), (0, 1930249099983), (23350896, 0)], [(2764807178313, 0), (0, 438118363), (9603, 0)]], 2, 2⟩,
    ⟨[[(5098547156877312, 0), (0, 4351944117934549), (40800113607, 0)]], 2, 2⟩, 72057594037927936, 118976417167248,
    6062946988398, ⟨[], 0, 0⟩, 0, 0, 0, lc0⟩ 1 1 259258709730)) (.sy (.out ⟨745, 16, 1410, 6472, 16, 8374,
    ⟨[[(2949958930243584, 0), (0, 1776171281812954), (15071007593, 0)], [(30310728388946846, 0), (0, 1949776963279),
    (23662769, 0)], [(2604558521879, 0), (0, 438088697), (9858, 0)]], 2, 2⟩, ⟨[[(12949961355493376, 0), (0,
    4351803247033369), (40607680042, 0)]], 2, 2⟩, 72057594037927936, 120136392922172, 6006018178130, ⟨[], 0, 0⟩, 0,
    0, 0, lc0⟩ 1 1 198596817902) (.sy (.out ⟨949, 16, 1818, 13006, 16, 16887, ⟨[[(0, 21654045898137600), (0,
    1137777545329959), (4818166178, 0)], [(38139298658618466, 0), (0, 1245535430170), (7576385, 0)], [(3147353328755,
    0), (0, 277636343), (3185, 0)]], 2, 2⟩, ⟨[[(7061103499935744, 0), (0, 4357251387395754), (20258088064, 0)]], 2,
    2⟩, 72057594037927936, 150958269407884, 1491119991728, ⟨[], 0, 0⟩, 0, 0, 0, lc0⟩ 1 1 153140017841) (.out ⟨953,
    16, 1842, 13037, 16, 16966, ⟨[[(15094598923747328, 0), (0, 1147909758421467), (4855233527, 0)],
    [(38011206327899008, 0), (0, 1254288226472), (7642200, 0)], [(3048502711409, 0), (0, 278059722), (3231, 0)]], 2,
    2⟩, ⟨[[(0, 34869026351349760), (0, 4357272330434833), (20211014154, 0)]], 2, 2⟩, 72057594037927936,
    151981751496802, 1484186971069, ⟨[], 0, 0⟩, 0, 0, 0, lc0⟩ 1 1 128881908708))))) (.sx (.sy (.sx (.sy (.out ⟨1049,
    16, 1887, 6412, 16, 8218, ⟨[[(32216769394835456, 0), (0, 2502837161886275), (21651994109, 0)],
    [(21763092732418088, 0), (0, 1356708647354), (16530140, 0)], [(1435010413646, 0), (0, 163370363), (3245, 0)]], 2,
    2⟩, ⟨[[(0, 23270915253272576), (0, 4351893051778309), (40992559100, 0)]], 2, 2⟩, 72057594037927936,
    23088899017058, 6120417247621, ⟨[], 0, 0⟩, 0, 0, 0, lc0⟩ 1 1 229712196729) (.out ⟨1051, 16, 1922, 6442, 16, 8296,
    ⟨[[(16518776749948928, 0), (0, 2527240129092748), (21810860283, 0)], [(21477284440075197, 0), (0, 1365040634002),
    (16693463, 0)], [(1378928998243, 0), (0, 163069299), (3329, 0)]], 2, 2⟩, ⟨[[(5098547156877312, 0), (0,
    4351944117934549), (40800113607, 0)]], 2, 2⟩, 72057594037927936, 23203894257491, 6062946988398, ⟨[], 0, 0⟩, 0, 0,
    0, lc0⟩ 1 1 164455511164)) (.sy (.sy (.out ⟨1478, 16, 2614, 12824, 16, 16417, ⟨[[(0, 30806874759364608), (0,
    1777110885051197), (7762258363, 0)], [(30569537218304707, 0), (0, 952336380451), (5830724, 0)], [(2403474124944,
    0), (0, 118621309), (1114, 0)]], 2, 2⟩, ⟨[[(0, 22354352902897664), (0, 4357157758290628), (20545362529, 0)]], 2,
    2⟩, 72057594037927936, 29204159616133, 1533768509724, ⟨[], 0, 0⟩, 0, 0, 0, lc0⟩ 1 1 172947246364) (.out ⟨1481,
    16, 2643, 12854, 16, 16495, ⟨[[(34180970660544512, 0), (0, 1788968278152142), (7805215789, 0)],
    [(30426785969556078, 0), (0, 956994833796), (5871245, 0)], [(2370214299363, 0), (0, 118803726), (1132, 0)]], 2,
    2⟩, ⟨[[(13715853899857920, 0), (0, 4357207174893923), (20497077176, 0)]], 2, 2⟩, 72057594037927936,
    29337612745659, 1526546120310, ⟨[], 0, 0⟩, 0, 0, 0, lc0⟩ 1 1 144258901121)) (.leaf ⟨1643, 16, 1930, 871, 16,
    3782, ⟨[[(25328433611276288, 0), (0, 2595622767635005), (22611576627, 0), (0, 164236), (2, 0)],
    [(21694785356405800, 0), (0, 1384780671748), (17043124, 0), (0, 94)], [(1665947246050, 0), (0, 171010906), (3327,
    0)], [(2244452470, 0), (0, 58534)]], 3, 4⟩, ⟨[[(0, 21983026631221248), (0, 2520434643908456), (13362256500, 0),
    (0, 220190), (4, 0)], [(0, 22909421913266362), (0, 103021019047), (3304223, 0), (0, 3)], [(3787412854038, 0),
    (47258232, 0), (442, 0)], [(0, 734938146), (0, 27894)]], 3, 4⟩, 72057594037927936, 33144340365, 35361758097,
    ⟨[[(15884736518294, 0), (2051448215, 0), (784800, 0), (968, 0)], [(2152724717, 0), (983082, 0), (0, 1433), (0,
    2)], [(0, 1341966), (0, 29), (2, 0)], [(780, 0)]], 3, 4⟩, 17592186044416, 127980,
    4148913226752353517116130945259185860797238440100588864115950226645180278163884207809248441678075797339286353137787135719434981,
    lc0⟩))) (.leaf ⟨827, 16, 991, 424, 16, 1886, ⟨[[(0, 7900995866918912), (0, 2601630949470271), (44968070382, 0),
    (0, 646291), (14, 0)], [(21154957779292416, 0), (0, 2777635387281), (68554486, 0), (0, 776)], [(2877132115677,
    0), (0, 666708233), (27645, 0)], [(8990564463, 0), (0, 474901), (0, 1)]], 3, 4⟩, ⟨[[(33572488680235008, 0), (0,
    2491991815321313), (25550819748, 0), (0, 831413), (29, 0)], [(0, 23085504498969667), (0, 199662386261),
    (13107815, 0), (17, 0)], [(7722195254719, 0), (198094592, 0), (3222, 0)], [(0, 3075326023), (0, 223868), (2,
    0)]], 3, 4⟩, 72057594037927936, 231897447136, 291915603744, ⟨[[(15772004045364, 0), (3983206863, 0), (3094135,
    0), (8121, 0), (7, 0)], [(4325716258, 0), (4081664, 0), (0, 11156), (0, 29)], [(0, 5387287), (0, 425), (26, 0)],
    [(6301, 0), (0, 7)]], 3, 4⟩, 17592186044416, 1463493,
    4467834775907258253355587178060542650306580773603659614766826772496154832243781361825975431387360988455094293583940562307058885,
    lc0⟩)) (.leaf ⟨502, 16, 586, 269, 16, 1207, ⟨[[(0, 5532578270875648), (0, 3244791808462826), (114508519040, 0),
    (0, 3274187), (126, 0)], [(13104246660410141, 0), (0, 3396462166121), (168971912, 0), (0, 3581)],
    [(2488112944425, 0), (0, 877642061), (64283, 0), (2, 0)], [(5523906519, 0), (0, 594090), (0, 8)]], 3, 4⟩, ⟨[[(0,
    18394439319113728), (0, 3216929407407048), (68464166306, 0), (0, 4417041), (336, 0)], [(0, 14339121275266575),
    (0, 244355805931), (34297812, 0), (0, 139)], [(4676383891173, 0), (216091010, 0), (9318, 0), (0, 1)], [(0,
    1782420271), (0, 273509), (6, 0)]], 3, 4⟩, 72057594037927936, 224061581306, 248194554337, ⟨[[(15849481574677, 0),
    (6331128768, 0), (6784623, 0), (28404, 0), (34, 0)], [(6904929517, 0), (10905027, 0), (0, 40527), (0, 155), (0,
    1)], [(0, 14270051), (0, 4466), (154, 0), (1, 0)], [(27615, 0), (0, 40)]], 3, 4⟩, 17592186044416, 14308666,
    4697548660886536659585874529365828967596341450794580812043724606220283727760295909836796541357337644745010092568275201660626387,
    lc0⟩))
theorem c20 : checkR job con0 false ⟨7, 9, 7, 9, 13, 17⟩ 1 34400 t20 285 21 320 26729 251 32000 = true := by decide +kernel

def t21 : CTree :=
  .sy (.sx (.sy (.sx (.sx (.sy (.out ⟨1028, 16, 1646, 6290, 16, 7910, ⟨[[(343280495443968, 0), (0, 2474038344529123),
    (22335190278, 0)], [(22112733842812318, 0), (0, 1298094486631), (15772584, 0)], [(2591891129463, 0), (0,
    178780917), (2489, 0)]], 2, 2⟩, ⟨[[(25464948259356672, 0), (0, 4351857629944084), (41782512889, 0)]], 2, 2⟩,
    72057594037927936, 22518334512247, 6358921375673, ⟨[], 0, 0⟩, 0, 0, 0, lc0⟩ 1 1 199465351252) (.sy (.out ⟨1448,
    16, 2348, 12642, 16, 15954, ⟨[[(4285898822057984, 0), (0, 1752646792895231), (7900454935, 0)],
    [(30849572665502476, 0), (0, 917406867883), (5598795, 0)], [(3601791391960, 0), (0, 126162999), (907, 0)]], 2,
    2⟩, ⟨[[(0, 30824634156056576), (0, 4357161617279619), (20841380910, 0)]], 2, 2⟩, 72057594037927936,
    28544004325014, 1578309648833, ⟨[], 0, 0⟩, 0, 0, 0, lc0⟩ 1 1 151989487989) (.out ⟨1451, 16, 2373, 12672, 16,
    16031, ⟨[[(11909766801326080, 0), (0, 1763313093431869), (7941290823, 0)], [(30714021820352384, 0), (0,
    921502839394), (5640306, 0)], [(3576364801519, 0), (0, 126579955), (929, 0)]], 2, 2⟩, ⟨[[(11308968060518400, 0),
    (0, 4357240668130095), (20791833885, 0)]], 2, 2⟩, 72057594037927936, 28669024551409, 1570781221596, ⟨[], 0, 0⟩,
    0, 0, 0, lc0⟩ 1 1 117985432930))) (.sy (.sy (.out ⟨1438, 16, 2264, 12581, 16, 15801, ⟨[[(0, 10212940067586048),
    (0, 1743155391055298), (7930832268, 0)], [(30957241835804367, 0), (0, 906014035312), (5502032, 0)],
    [(3970425159167, 0), (0, 127907089), (823, 0)]], 2, 2⟩, ⟨[[(0, 17566546946555904), (0, 4357124777319053),
    (20941775061, 0)]], 2, 2⟩, 72057594037927936, 28389862158443, 1593574687372, ⟨[], 0, 0⟩, 0, 0, 0, lc0⟩ 1 1
    139698213197) (.leaf ⟨2165, 16, 2334, 1294, 16, 5416, ⟨[[(25661867084611584, 0), (0, 1788864804965242),
    (8132231582, 0), (0, 29009)], [(31446946993738258, 0), (0, 928339858574), (5656407, 0), (0, 11)],
    [(4027206065282, 0), (0, 131002566), (863, 0)], [(3074265940, 0), (0, 37517)]], 3, 4⟩, ⟨[[(20470245710970880, 0),
    (0, 1866669428114288), (5610547045, 0), (0, 47598)], [(0, 30735559549337844), (0, 76053395101), (1287155, 0), (0,
    5)], [(4823896628901, 0), (22180939, 0), (253, 0)], [(0, 801046315), (0, 18749)]], 3, 4⟩, 72057594037927936,
    70712631512, 46101172733, ⟨[[(16247138067756, 0), (1561541733, 0), (330244, 0), (237, 0)], [(1515663362, 0),
    (508114, 0), (0, 461)], [(0, 719802), (0, 45)], [(315, 0)]], 3, 4⟩, 17592186044416, 96929,
    4004889528805558033538996882953899516270609556086463042881060018363893394314511058974383089358109411265764014592719589752285143,
    lc0⟩)) (.leaf ⟨1545, 16, 1680, 899, 16, 3819, ⟨[[(14519027173867520, 0), (0, 2557669521821123), (23226295473, 0),
    (0, 165555), (1, 0)], [(22134474865348495, 0), (0, 1324190781259), (16215072, 0), (0, 64)], [(2828111326994, 0),
    (0, 186695139), (2546, 0)], [(2192418342, 0), (0, 54461), (0, 1)]], 3, 4⟩, ⟨[[(0, 5873243204902912), (0,
    2620697350023341), (15525501866, 0), (0, 261319), (5, 0)], [(0, 21712523880725659), (0, 104532514273), (3602325,
    0), (0, 24)], [(3413365372163, 0), (31806251, 0), (681, 0)], [(0, 574770358), (0, 26289)]], 3, 4⟩,
    72057594037927936, 51087691504, 32918921036, ⟨[[(16189300923742, 0), (2183198912, 0), (653198, 0), (717, 0)],
    [(2129518304, 0), (1039202, 0), (0, 1271), (0, 2)], [(0, 1421946), (0, 152), (2, 0)], [(878, 0)]], 3, 4⟩,
    17592186044416, 190025,
    2970472876667814558659064289274692514153790595305085816349784343424307454298423165235891962733007720662767564361657410604888678,
    lc0⟩))) (.leaf ⟨753, 16, 804, 446, 16, 1914, ⟨[[(17516268674187264, 0), (0, 2540312373129558), (46681132604, 0),
    (0, 651784), (6, 0)], [(21877096481554947, 0), (0, 2597063745113), (63441648, 0), (0, 419)], [(6314167987704, 0),
    (0, 759180387), (18210, 0), (1, 0)], [(8709776840, 0), (0, 421740), (0, 11)]], 3, 4⟩, ⟨[[(0, 22262471325569024),
    (0, 2641332325761058), (31985272728, 0), (0, 1073831), (39, 0)], [(0, 21313691702053428), (0, 205869270005),
    (14882282, 0), (0, 233)], [(6619222789967, 0), (106442867, 0), (5947, 0)], [(0, 2117663832), (0, 205187), (3,
    0)]], 3, 4⟩, 72057594037927936, 448801037147, 257750471275, ⟨[[(16228641587688, 0), (4392711942, 0), (2387711,
    0), (5477, 0), (0, 6)], [(4265355358, 0), (4380704, 0), (0, 9506), (0, 22)], [(0, 5884465), (0, 1848), (25, 0)],
    [(7520, 0), (0, 6)]], 3, 4⟩, 17592186044416, 1721033,
    3396885443947111644935690506999488379901751245651433120211467150187390035278312429707753348349557947511526777548591943898589137,
    lc0⟩)) (.leaf ⟨540, 16, 595, 306, 16, 1351, ⟨[[(3301253131681792, 0), (0, 1806497358201710), (32858736536, 0),
    (0, 464007), (6, 0)], [(30121617861610978, 0), (0, 3704959330568), (91660692, 0), (0, 761)], [(16009401948219,
    0), (0, 2111087389), (59423, 0), (2, 0)], [(49247618733, 0), (0, 2523913), (0, 46)]], 3, 4⟩,
    ⟨[[(8272096162496512, 0), (0, 1839411856890571), (21262844937, 0), (0, 699765), (27, 0)], [(0,
    30629177912940574), (0, 276787722674), (20262283, 0), (0, 230)], [(19248198463360, 0), (352669676, 0), (14228,
    0), (0, 1)], [(0, 13149370221), (0, 1164556), (17, 0)]], 3, 4⟩, 72057594037927936, 4877979281865, 2934568877640,
    ⟨[[(16072735812901, 0), (5988479355, 0), (4807460, 0), (17485, 0), (0, 1)], [(6074315688, 0), (9024389, 0), (0,
    26779), (0, 88)], [(0, 11722894), (0, 5361), (97, 0)], [(21043, 0), (0, 22)]], 3, 4⟩, 17592186044416, 9969682,
    5032772831553008811672131579160047314532573793194801653745110227336364226059504065129401174740071754310269066259362963476770512,
    lc0⟩)) (.sy (.leaf ⟨512, 16, 533, 309, 16, 1385, ⟨[[(20353056424886272, 0), (0, 1794596761138550), (33642015510,
    0), (0, 446669), (3, 0)], [(30201666644386981, 0), (0, 3576894503208), (86950069, 0), (0, 360)],
    [(21259926879647, 0), (0, 2225983074), (41248, 0), (4, 0)], [(49501483111, 0), (0, 2254057), (0, 90)]], 3, 4⟩,
    ⟨[[(20419273422487552, 0), (0, 1920424924422344), (23841172400, 0), (0, 789044), (29, 0)], [(0,
    29673483427671838), (0, 281998810925), (22680228, 0), (0, 426)], [(18087114256277, 0), (199010300, 0), (19053,
    0), (0, 1)], [(0, 10434829082), (0, 1122764), (20, 0)]], 3, 4⟩, 72057594037927936, 5816763551612, 2852444226856,
    ⟨[[(16224721600161, 0), (6078164829, 0), (3656231, 0), (14058, 0), (1, 0)], [(5975667094, 0), (9609163, 0), (0,
    21813), (0, 66)], [(0, 12332678), (0, 9178), (83, 0)], [(23753, 0), (0, 12)]], 3, 4⟩, 17592186044416, 11926712,
    4086926138056958093834296818125157039262126161660028532047956918380528556192052682714549434811242030928295936103420965646600148,
    lc0⟩) (.leaf ⟨521, 16, 556, 297, 16, 1389, ⟨[[(33762029939859456, 0), (0, 1837153807369734), (34396620024, 0),
    (0, 459441), (4, 0)], [(29654648837278805, 0), (0, 3640497090298), (90037573, 0), (0, 504)], [(21022968162087,
    0), (0, 2276169944), (48173, 0), (3, 0)], [(50435154257, 0), (0, 2436301), (0, 76)]], 3, 4⟩, ⟨[[(0,
    11435471260733440), (0, 1902548933895237), (22762986387, 0), (0, 731770), (30, 0)], [(0, 29895475146352634), (0,
    260282120734), (22155547, 0), (0, 353)], [(18244174077775, 0), (217665455, 0), (16900, 0), (0, 1)], [(0,
    11025325909), (0, 1106712), (18, 0)]], 3, 4⟩, 72057594037927936, 6066016578860, 2909436519761,
    ⟨[[(16071775344691, 0), (5845180308, 0), (3358963, 0), (14092, 0), (23, 0)], [(5911530109, 0), (9956817, 0), (0,
    20425), (0, 59)], [(0, 12079319), (0, 9968), (76, 0)], [(23130, 0), (0, 10)]], 3, 4⟩, 17592186044416, 10474923,
    3062724823137659437309597602346230133594003378231905486826975994206170815871696132757363540802576184463564014278454738626637376,
    lc0⟩))) (.sx (.leaf ⟨385, 16, 439, 204, 16, 959, ⟨[[(0, 20581910399430656), (0, 2593848456147722), (93947936444,
    0), (0, 2616385), (90, 0)], [(20203901732666386, 0), (0, 5265444249849), (265130850, 0), (0, 4988)],
    [(10664557085881, 0), (0, 2978629992), (186438, 0), (7, 0)], [(34916673375, 0), (0, 3807343), (0, 88)]], 3, 4⟩,
    ⟨[[(0, 16909116000860160), (0, 2567556306508042), (56144252105, 0), (0, 3521207), (284, 0)], [(0,
    21881806785297829), (0, 350083904587), (56472681, 0), (0, 537), (1, 0)], [(13857091311853, 0), (528196270, 0),
    (32966, 0), (0, 6)], [(0, 9950108521), (0, 1621074), (36, 0)]], 3, 4⟩, 72057594037927936, 3594217568134,
    2258761218185, ⟨[[(15851585238507, 0), (7950967982, 0), (8516548, 0), (49014, 0), (145, 0)], [(8594916123, 0),
    (19544234, 0), (0, 68916), (0, 285), (0, 2)], [(0, 23584594), (0, 19924), (334, 0), (1, 0)], [(60811, 0), (0,
    72), (0, 1)]], 3, 4⟩, 17592186044416, 58011810,
    3970349861777969962161559800909620561703059385548999517771927510998179953486884390722400886820134791888254987234979785167571740,
    lc0⟩) (.leaf ⟨370, 16, 409, 195, 16, 977, ⟨[[(0, 23566375101427712), (0, 2627790591740693), (98201406199, 0), (0,
    2617796), (70, 0)], [(19835156518583287, 0), (0, 5157888925653), (261046606, 0), (0, 3862)], [(14224910392935,
    0), (0, 3235172787), (158797, 0), (12, 0)], [(35722577292, 0), (0, 3728241), (0, 160)]], 3, 4⟩, ⟨[[(0,
    4900745265367040), (0, 2629898251785461), (59676387580, 0), (0, 3621795), (316, 0)], [(0, 21157108278367860), (0,
    319951541128), (60548968, 0), (0, 1124), (1, 0)], [(12954238754583, 0), (338492913, 0), (38287, 0), (0, 8)], [(0,
    8334331325), (0, 1522032), (39, 0)]], 3, 4⟩, 72057594037927936, 4540122119457, 2189243492985, ⟨[[(15850616767042,
    0), (7863577381, 0), (5915846, 0), (35851, 0), (158, 0)], [(8371285793, 0), (21562452, 0), (0, 54716), (0, 198),
    (0, 1)], [(0, 24397487), (0, 32828), (288, 0), (1, 0)], [(67184, 0), (0, 30), (0, 1)]], 3, 4⟩, 17592186044416,
    67370810,
    2425000914269342554931166222716686380986567715410640917918299740045144021301270869769812563804423713724512739511762150028966068,
    lc0⟩))
theorem c21 : checkR job con0 false ⟨7, 9, 7, 9, 13, 17⟩ 1 34400 t21 327 21 320 13239 251 16000 = true := by decide +kernel

def t22 : CTree :=
  .sy (.sx (.sx (.sy (.sy (.out ⟨753, 16, 1509, 6533, 16, 8532, ⟨[[(31194331055702016, 0), (0, 1784086985312385),
    (14755226539, 0)], [(30243663458736542, 0), (0, 2000418701729), (23986008, 0)], [(664464458849, 0), (0,
    406723080), (10591, 0)]], 2, 2⟩, ⟨[[(6535028445282304, 0), (0, 4351987102626660), (40232475457, 0)]], 2, 2⟩,
    72057594037927936, 124652008897049, 5895165280383, ⟨[], 0, 0⟩, 0, 0, 0, lc0⟩ 1 1 204940137958) (.sy (.out ⟨961,
    16, 1949, 13128, 16, 17204, ⟨[[(8590946482929664, 0), (0, 1145002925844626), (4725778978, 0)],
    [(38093841873275490, 0), (0, 1280230312661), (7691998, 0)], [(662369176965, 0), (0, 257506639), (3422, 0)]], 2,
    2⟩, ⟨[[(0, 22380022921560064), (0, 4357307697123362), (20070972142, 0)]], 2, 2⟩, 72057594037927936,
    157162406670767, 1463666668172, ⟨[], 0, 0⟩, 0, 0, 0, lc0⟩ 1 1 161515586308) (.out ⟨966, 16, 1976, 13158, 16,
    17284, ⟨[[(26174411927076864, 0), (0, 1156067481723358), (4765505448, 0)], [(37971949230379721, 0), (0,
    1290153618878), (7763398, 0)], [(541360442037, 0), (0, 257589980), (3471, 0)]], 2, 2⟩, ⟨[[(22165163230101504, 0),
    (0, 4357394575818076), (20025067330, 0)]], 2, 2⟩, 72057594037927936, 158400028007750, 1456946166894, ⟨[], 0, 0⟩,
    0, 0, 0, lc0⟩ 1 1 134144348619))) (.sx (.sy (.sy (.out ⟨1532, 16, 3176, 13189, 16, 17364, ⟨[[(0,
    31436013953925120), (0, 1828865753899438), (7488807197, 0)], [(29994530964513993, 0), (0, 1026339178917),
    (6152650, 0)], [(0, 48251358580), (0, 99557309), (1394, 0)]], 2, 2⟩, ⟨[[(0, 15503632807100416), (0,
    4357434486785471), (19979158487, 0)]], 2, 2⟩, 72057594037927936, 32041875446695, 1450256448584, ⟨[], 0, 0⟩, 0, 0,
    0, lc0⟩ 1 1 133173591181) (.out ⟨1537, 16, 3213, 13219, 16, 17444, ⟨[[(0, 32915037766189056), (0,
    1842585744208945), (7535708038, 0)], [(29824305155780224, 0), (0, 1032060577073), (6196729, 0)], [(0,
    99018004234), (0, 99300761), (1411, 0)]], 2, 2⟩, ⟨[[(8798747082227712, 0), (0, 4357428073679679), (19933248584,
    0)]], 2, 2⟩, 72057594037927936, 32223325006131, 1443597329179, ⟨[], 0, 0⟩, 0, 0, 0, lc0⟩ 1 1 106238747101))
    (.leaf ⟨1792, 16, 2326, 823, 16, 3717, ⟨[[(0, 28290923998232576), (0, 2651454719520823), (21648599714, 0), (0,
    151745), (2, 0)], [(21030767869996538, 0), (0, 1480819803929), (17827409, 0), (0, 101)], [(0, 125234155234), (0,
    140696021), (4090, 0)], [(2454806140, 0), (0, 58499)]], 3, 4⟩, ⟨[[(0, 24622152380612608), (0, 2383957899416270),
    (10683180602, 0), (0, 184647), (1, 0)], [(0, 24528170109706974), (0, 105847418210), (3130945, 0), (6, 0)],
    [(4422744819858, 0), (67009952, 0), (404, 0)], [(0, 966700898), (0, 30782)]], 3, 4⟩, 72057594037927936,
    15033281635, 41760290847, ⟨[[(15450070781637, 0), (1864822151, 0), (958508, 0), (1313, 0), (1, 0)], [(2159379791,
    0), (913414, 0), (0, 1563), (0, 2)], [(0, 1235030), (74, 0), (2, 0)], [(676, 0)]], 3, 4⟩, 17592186044416, 159778,
    3526094263803025123999325762368391737628804504125831593064342709892428340158007985184800740255811657847236951415916369452730400,
    lc0⟩)) (.leaf ⟨1101, 16, 1412, 532, 16, 2421, ⟨[[(0, 15264505526075392), (0, 3308643094849782), (54689708187, 0),
    (0, 766276), (17, 0)], [(12996411006830747, 0), (0, 1823694243341), (44310711, 0), (0, 503)], [(134190273002, 0),
    (0, 182466554), (9939, 0)], [(1495554062, 0), (0, 74255)]], 3, 4⟩, ⟨[[(445632545816576, 0), (0,
    3118252929964064), (28540291854, 0), (0, 966100), (13, 0)], [(0, 15720751026425829), (0, 132829224666), (8230875,
    0), (42, 0)], [(2792426117835, 0), (82045784, 0), (1030, 0)], [(0, 602608223), (0, 39026)]], 3, 4⟩,
    72057594037927936, 7296923164, 33967896762, ⟨[[(15484655207502, 0), (2876124429, 0), (2126285, 0), (4472, 0), (6,
    0)], [(3460998829, 0), (2363246, 0), (0, 5658), (0, 12)], [(0, 3235665), (127, 0), (9, 0)], [(2887, 0), (0, 2)]],
    3, 4⟩, 17592186044416, 488625,
    3168445976541155005612744746855620388885803781959581448563191624467301317000820485628389609464573534373981175761591113440116061,
    lc0⟩))) (.sy (.sx (.sy (.sy (.out ⟨1514, 16, 2968, 13067, 16, 17045, ⟨[[(19452127931219968, 0), (0,
    1820741874423775), (7652761161, 0)], [(30072935988209438, 0), (0, 999749610459), (6074879, 0)], [(966711704270,
    0), (0, 108112729), (1303, 0)]], 2, 2⟩, ⟨[[(0, 14925339862106112), (0, 4357246048904129), (20163940418, 0)]], 2,
    2⟩, 72057594037927936, 30716396917082, 1477286240595, ⟨[], 0, 0⟩, 0, 0, 0, lc0⟩ 1 1 129926651046) (.out ⟨1519,
    16, 3002, 13098, 16, 17125, ⟨[[(0, 13405990594936832), (0, 1833849025394348), (7698702954, 0)],
    [(29911359862725790, 0), (0, 1005046989389), (6117095, 0)], [(923223747832, 0), (0, 108027689), (1319, 0)]], 2,
    2⟩, ⟨[[(0, 22040488866349056), (0, 4357427646414768), (20118044657, 0)]], 2, 2⟩, 72057594037927936,
    30870964641152, 1470503681955, ⟨[], 0, 0⟩, 0, 0, 0, lc0⟩ 1 1 101294881410)) (.leaf ⟨1736, 16, 2177, 835, 16,
    3749, ⟨[[(22411273831497728, 0), (0, 2643004727714869), (22152885527, 0), (0, 157119), (2, 0)],
    [(21144906759014586, 0), (0, 1444369400556), (17626893, 0), (0, 103)], [(611058863550, 0), (0, 153797907), (3829,
    0)], [(2351755376, 0), (0, 59686)]], 3, 4⟩, ⟨[[(7790320615546880, 0), (0, 2435731836654354), (11610592371, 0),
    (0, 192079), (2, 0)], [(0, 23910396017921536), (0, 102501046340), (3199462, 0), (8, 0)], [(4163908239539, 0),
    (59189679, 0), (368, 0)], [(0, 877692809), (0, 29515)]], 3, 4⟩, 72057594037927936, 9559688209, 39616585963,
    ⟨[[(15590392401710, 0), (1914441763, 0), (868595, 0), (1167, 0), (1, 0)], [(2154296689, 0), (958364, 0), (0,
    1478), (0, 2)], [(0, 1274189), (22, 0), (2, 0)], [(715, 0)]], 3, 4⟩, 17592186044416, 137145,
    2855994043669126683787925774672460939631452486192422289402908800229877159823001201760643245220921175406412154334613680877041488,
    lc0⟩)) (.leaf ⟨1068, 16, 1322, 536, 16, 2423, ⟨[[(0, 27756804855414784), (0, 3297980610607566), (55921692317, 0),
    (0, 793276), (18, 0)], [(13102001794130487, 0), (0, 1781254461851), (43786169, 0), (0, 504)], [(576083216212, 0),
    (0, 198436558), (9295, 0)], [(1443180799, 0), (0, 75311)]], 3, 4⟩, ⟨[[(21098387941982208, 0), (0,
    3161555909192193), (30740666906, 0), (0, 1004226), (27, 0)], [(0, 15214354834900203), (0, 128361646218),
    (8336213, 0), (41, 0)], [(2611998016948, 0), (71524744, 0), (967, 0)], [(0, 541927809), (0, 37158)]], 3, 4⟩,
    72057594037927936, 12210123481, 31476933984, ⟨[[(15627747704747, 0), (2981338440, 0), (1955614, 0), (4089, 0),
    (4, 0)], [(3444976718, 0), (2483014, 0), (0, 5425), (0, 11)], [(0, 3326306), (0, 92), (9, 0)], [(3040, 0), (0,
    3)]], 3, 4⟩, 17592186044416, 530700,
    2584830243453682529083711638697270526031455227647358654158890844014226536840676723631157560507967434028202597615661346933237953,
    lc0⟩)) (.leaf ⟨868, 16, 1102, 402, 16, 1879, ⟨[[(0, 602590804942848), (0, 2672489626573231), (44892256747, 0),
    (0, 622749), (15, 0)], [(20340371471604724, 0), (0, 2883911990874), (71120910, 0), (0, 783)], [(1301614537255,
    0), (0, 614825764), (31061, 0)], [(9353580754, 0), (0, 492808)]], 3, 4⟩, ⟨[[(25493420458270720, 0), (0,
    2426405389051891), (22556522380, 0), (0, 747326), (10, 0)], [(0, 23867339312677254), (0, 190848754747),
    (12981838, 0), (92, 0)], [(8324974422679, 0), (232287663, 0), (3316, 0)], [(0, 3542429218), (0, 232419), (1,
    0)]], 3, 4⟩, 72057594037927936, 98470526363, 321474207084, ⟨[[(15482565229961, 0), (3668314474, 0), (3135035, 0),
    (8554, 0), (17, 0)], [(4299417264, 0), (4147226, 0), (0, 10680), (0, 25)], [(0, 5154848), (0, 390), (21, 0)],
    [(5894, 0), (0, 6)]], 3, 4⟩, 17592186044416, 1246077,
    2074531095947072507698682791152742909646347787917476310715204919007541101978147574973574391335047826094250623655701011562926327,
    lc0⟩))) (.leaf ⟨411, 16, 506, 197, 16, 948, ⟨[[(25513837838155776, 0), (0, 2646369157437430), (91848582968, 0),
    (0, 2530153), (121, 0)], [(19620968294219968, 0), (0, 5519689990996), (277815347, 0), (0, 5951)],
    [(5999245895725, 0), (0, 2676999515), (227333, 0), (1, 0)], [(35627581040, 0), (0, 4018458), (0, 17)]], 3, 4⟩,
    ⟨[[(0, 825559364372480), (0, 2471606291336797), (48333998663, 0), (0, 3047631), (142, 0)], [(0,
    23023397297081801), (0, 345061249353), (53759315, 0), (809, 0), (1, 0)], [(15426868242880, 0), (760300537, 0),
    (26313, 0), (2, 0)], [(0, 12543850136), (0, 1738144), (10, 0)]], 3, 4⟩, 72057594037927936, 2296691215488,
    2519272166170, ⟨[[(15552189785919, 0), (7368159172, 0), (10208470, 0), (56238, 0), (241, 0)], [(8676100479, 0),
    (18680783, 0), (0, 76242), (0, 302), (0, 3)], [(0, 22257607), (0, 11500), (322, 0), (1, 0)], [(54292, 0), (0,
    84), (0, 1)]], 3, 4⟩, 17592186044416, 39916105,
    3995285580769694753606095256294528091613799619107439739640046995245950580314607250864659589060880247186712083364919394311219274,
    lc0⟩)) (.sx (.leaf ⟨441, 16, 582, 191, 16, 933, ⟨[[(3449000473485312, 0), (0, 2691166797707222), (88914464394,
    0), (0, 2390195), (109, 0)], [(19207802841897356, 0), (0, 5819688996626), (288113605, 0), (0, 5426), (1, 0)],
    [(613897605197, 0), (0, 2271102820), (263705, 0), (2, 0)], [(37941072227, 0), (0, 3999727), (0, 8)]], 3, 4⟩,
    ⟨[[(0, 15825755815686144), (0, 2373461385399405), (40923174265, 0), (0, 2983344), (0, 104)], [(0,
    24197129098053979), (0, 360355847599), (51778434, 0), (727, 0)], [(17359971770672, 0), (1005144674, 0), (38296,
    0), (16, 0)], [(0, 15308556381), (0, 1888346), (3, 0)]], 3, 4⟩, 72057594037927936, 657203995125, 2823330775630,
    ⟨[[(15274726210233, 0), (6882922809, 0), (12403608, 0), (65000, 0), (349, 0)], [(8679983749, 0), (17353970, 0),
    (0, 83241), (0, 322), (0, 4)], [(0, 20733368), (0, 3908), (295, 0), (1, 0)], [(47562, 0), (0, 81), (0, 1)]], 3,
    4⟩, 17592186044416, 29771975,
    4480331908901397312226726754174387885702860785681591565503388426313723530697718771898010299459231239732978594139162085825752326,
    lc0⟩) (.leaf ⟨425, 16, 547, 181, 16, 956, ⟨[[(7027062347448320, 0), (0, 2763110009771192), (95376643617, 0), (0,
    2458886), (144, 0)], [(18290308910720594, 0), (0, 5670001144147), (291524136, 0), (0, 5059), (1, 0)],
    [(5094570164544, 0), (0, 2647124864), (245354, 0), (0, 1)], [(36328732816, 0), (0, 4366120), (0, 33)]], 3, 4⟩,
    ⟨[[(32565181154869248, 0), (0, 2445802407194249), (44228873825, 0), (0, 2998559), (0, 92)], [(0,
    23378570475450188), (0, 292648700257), (56286079, 0), (1977, 0), (1, 0)], [(15949174723683, 0), (797225054, 0),
    (36841, 0), (12, 0)], [(0, 13530637927), (0, 1764823), (0, 38)]], 3, 4⟩, 72057594037927936, 2139600546008,
    2690533124613, ⟨[[(15269975725695, 0), (6617576797, 0), (8781269, 0), (42265, 0), (212, 0)], [(8480581933, 0),
    (20033159, 0), (0, 68114), (0, 168), (0, 1)], [(0, 21586418), (0, 15380), (270, 0)], [(52829, 0), (0, 67), (0,
    1)]], 3, 4⟩, 17592186044416, 34838493,
    4085020588047698040505146376860270883474589521125983539966989079145482271734195747326868133728143009080888745028544884805860208,
    lc0⟩))
theorem c22 : checkR job con0 false ⟨7, 9, 7, 9, 13, 17⟩ 1 34400 t22 285 21 320 13741 251 16000 = true := by decide +kernel

def t23 : CTree :=
  .sy (.sx (.leaf ⟨395, 16, 473, 188, 16, 969, ⟨[[(28044585513852928, 0), (0, 2695188568239037), (97138794197, 0),
    (0, 2596924), (125, 0)], [(18991997352208948, 0), (0, 5390574931011), (277403026, 0), (0, 5460)],
    [(9930872697983, 0), (0, 3003155770), (208259, 0), (2, 0)], [(35541874239, 0), (0, 4174154), (0, 55)]], 3, 4⟩,
    ⟨[[(627874865133568, 0), (0, 2539928277079157), (51760559286, 0), (0, 3078620), (174, 0)], [(0,
    22273203584237452), (0, 296530691592), (57242257, 0), (862, 0), (1, 0)], [(14277277709383, 0), (563681502, 0),
    (27496, 0), (0, 1)], [(0, 10869504326), (0, 1617375), (1, 0)]], 3, 4⟩, 72057594037927936, 3694953540568,
    2394699804029, ⟨[[(15551932279895, 0), (7203055007, 0), (7194876, 0), (38939, 0), (188, 0)], [(8484252451, 0),
    (21003111, 0), (0, 61705), (0, 188), (0, 1)], [(0, 23168256), (0, 23850), (287, 0)], [(60335, 0), (0, 57), (0,
    1)]], 3, 4⟩, 17592186044416, 47618667,
    2963739684370376230099586220921271623657256816604119003617621420226977676254725553224466069950346392930233132279592593366183840,
    lc0⟩) (.leaf ⟨378, 16, 440, 179, 16, 988, ⟨[[(26106956791529472, 0), (0, 2722982045203183), (101536781708, 0),
    (0, 2624711), (118, 0)], [(18623258790885894, 0), (0, 5270235713169), (273962593, 0), (0, 4835)],
    [(13600354199488, 0), (0, 3301202321), (183938, 0), (4, 0)], [(36379292677, 0), (0, 4149294), (0, 109)]], 3, 4⟩,
    ⟨[[(0, 14141256766486528), (0, 2601535030984333), (55276297658, 0), (0, 3107045), (218, 0)], [(0,
    21542405021051563), (0, 262549119090), (60723525, 0), (583, 0), (1, 0)], [(13280723681762, 0), (375572816, 0),
    (28144, 0), (0, 6)], [(0, 9193531129), (0, 1516305), (2, 0)]], 3, 4⟩, 72057594037927936, 4774683898590,
    2312359466902, ⟨[[(15553724046437, 0), (7151428155, 0), (5099583, 0), (27803, 0), (107, 0)], [(8297003474, 0),
    (22929575, 0), (0, 51365), (0, 142), (0, 1)], [(0, 24121581), (0, 35980), (274, 0)], [(67174, 0), (0, 24), (0,
    1)]], 3, 4⟩, 17592186044416, 61796833,
    2374297017527668210101496366721874082427812235850812518575275026206658550122956896160320015924947847729801209774738168280172515,
    lc0⟩)) (.sx (.leaf ⟨407, 16, 511, 172, 16, 978, ⟨[[(16673457708933120, 0), (0, 2808401146462682), (100939322495,
    0), (0, 2498940), (171, 0)], [(17669107827223308, 0), (0, 5527048429212), (291381916, 0), (0, 4925), (1, 0)],
    [(9156765548800, 0), (0, 3018503469), (223626, 0), (0, 4)], [(36119614459, 0), (0, 4564718), (0, 59)]], 3, 4⟩,
    ⟨[[(5271363652401152, 0), (0, 2513352941924539), (47728189781, 0), (0, 2963455), (0, 55)], [(0,
    22615590572005260), (0, 240163799297), (60493094, 0), (2850, 0), (1, 0)], [(14702507963200, 0), (597466568, 0),
    (31155, 0), (7, 0)], [(0, 11794210383), (0, 1659989), (0, 62)]], 3, 4⟩, 72057594037927936, 3776528186257,
    2561924293383, ⟨[[(15271461165288, 0), (6490739290, 0), (6390417, 0), (30530, 0), (92, 0)], [(8321562339, 0),
    (22204702, 0), (0, 58475), (0, 121)], [(0, 22590540), (0, 26586), (272, 0)], [(59212, 0), (0, 46), (0, 1)]], 3,
    4⟩, 17592186044416, 42719550,
    3474416071041741952533541477322133095501488312982626793553859553789367022018912649852184304227665989019843769554413883695834173,
    lc0⟩) (.leaf ⟨388, 16, 475, 162, 16, 998, ⟨[[(25851283772489728, 0), (0, 2831601913809667), (105566015633, 0),
    (0, 2522073), (186, 0)], [(17322415175195730, 0), (0, 5396467855418), (287965649, 0), (0, 4922)],
    [(12943523222515, 0), (0, 3363169044), (198777, 0), (0, 4)], [(36997974530, 0), (0, 4580525), (0, 92)]], 3, 4⟩,
    ⟨[[(35741027933716480, 0), (0, 2574091401913093), (51348125247, 0), (0, 2894035), (2, 0)], [(0,
    21877974586361637), (0, 202586775936), (64051697, 0), (3182, 0), (2, 0)], [(13612168369638, 0), (404727347, 0),
    (23397, 0)], [(0, 10059999908), (0, 1561217), (0, 67)]], 3, 4⟩, 72057594037927936, 5072485219516, 2508632664170,
    ⟨[[(15267628640497, 0), (6447890558, 0), (4520582, 0), (25455, 0), (0, 2)], [(8148348072, 0), (24228611, 0), (0,
    50123), (0, 111)], [(0, 23639142), (0, 39026), (277, 0)], [(66608, 0), (0, 15), (0, 1)]], 3, 4⟩, 17592186044416,
    52101069,
    2584502639809547346608577099922063168967995643056998442781575029482441313116833870511310517425121150116214035538166284817405470,
    lc0⟩))
theorem c23 : checkR job con0 false ⟨7, 9, 7, 9, 13, 17⟩ 1 34400 t23 327 21 320 13741 251 16000 = true := by decide +kernel

def t24 : CTree :=
  .sx (.sy (.sx (.leaf ⟨346, 16, 352, 203, 16, 982, ⟨[[(0, 10101371512209408), (0, 2549523911091975), (97785200699,
    0), (0, 2403823), (0, 1)], [(20681758283144012, 0), (0, 4927427032859), (237294664, 0), (0, 447), (0, 1)],
    [(17960731790917, 0), (0, 3288510572), (81065, 0), (26, 0)], [(35852317076, 0), (0, 2904538), (0, 345)]], 3, 4⟩,
    ⟨[[(0, 30473494650243072), (0, 2722212610712757), (68721155092, 0), (0, 4416320), (353, 0)], [(0,
    20045337190001045), (0, 367206074065), (68018476, 0), (0, 2940)], [(12010696896697, 0), (103141948, 0), (57864,
    0), (0, 9)], [(0, 5897596138), (0, 1476700), (55, 0)]], 3, 4⟩, 72057594037927936, 4746690326962, 2066421727579,
    ⟨[[(16155319384181, 0), (8542512107, 0), (5044112, 0), (33220, 0), (115, 0)], [(8281234684, 0), (21793112, 0),
    (0, 49058), (0, 202), (0, 1)], [(0, 25833011), (0, 40847), (287, 0), (1, 0)], [(75880, 0), (6, 0), (0, 1)]], 3,
    4⟩, 17592186044416, 114957818,
    3673383215781084438599846412482107068408056333769517832155939720893639724119695063736632211418319119467345138948139797363764440,
    lc0⟩) (.leaf ⟨331, 16, 325, 194, 16, 997, ⟨[[(0, 7076469027786752), (0, 2550590992077723), (99592206294, 0), (0,
    2189118), (0, 46)], [(20670011679987499, 0), (0, 4818181796091), (223426472, 0), (2001, 0), (0, 1)],
    [(20987866618717, 0), (0, 3353889773), (24867, 0), (34, 0)], [(36886869210, 0), (0, 2313046), (0, 483)]], 3, 4⟩,
    ⟨[[(7350791411734528, 0), (0, 2779377198022000), (72779037278, 0), (0, 4624859), (372, 0)], [(0,
    19355908753123794), (0, 371795918526), (74286161, 0), (0, 3733)], [(11546608513632, 0), (0, 78657299), (65700,
    0), (0, 9)], [(0, 4295520304), (0, 1413743), (54, 0)]], 3, 4⟩, 72057594037927936, 4981381550267, 2056832569082,
    ⟨[[(16150528579119, 0), (8583144887, 0), (3367548, 0), (24002, 0), (115, 0)], [(8032163057, 0), (23166286, 0),
    (0, 38265), (0, 161), (0, 1)], [(0, 26587378), (0, 52906), (253, 0), (1, 0)], [(83280, 0), (61, 0), (0, 1)]], 3,
    4⟩, 17592186044416, 157671102,
    2636971944472003210757199682491559853982501018724289293951671174560073354065793069051568328476317697908530124339231309453248654,
    lc0⟩)) (.sx (.leaf ⟨353, 16, 378, 186, 16, 994, ⟨[[(0, 21947756705099776), (0, 2634360514861317), (101137325470,
    0), (0, 2545833), (38, 0)], [(19617204912192253, 0), (0, 5036407368724), (252629851, 0), (0, 2354), (0, 1)],
    [(17539751069028, 0), (0, 3425448527), (121654, 0), (18, 0)], [(36851478485, 0), (0, 3431788), (0, 257)]], 3, 4⟩,
    ⟨[[(6620077165053952, 0), (0, 2688835962900983), (63373795761, 0), (0, 3748274), (351, 0)], [(0,
    20459878792515124), (0, 304589307496), (65091449, 0), (0, 1906), (1, 0)], [(12223470203105, 0), (156151598, 0),
    (44218, 0), (0, 10)], [(0, 6706551358), (0, 1442966), (44, 0)]], 3, 4⟩, 72057594037927936, 5195790620227,
    2148407102459, ⟨[[(15849139795532, 0), (7864416046, 0), (4059522, 0), (25435, 0), (115, 0)], [(8175633971, 0),
    (23256919, 0), (0, 44164), (0, 153), (0, 1)], [(0, 25395018), (0, 45388), (265, 0)], [(74959, 0), (16, 0), (0,
    1)]], 3, 4⟩, 17592186044416, 93772240,
    1456074557502678203313079797829862132354042768555631650200918512984529929875069784599595184350424967218836381316798827272368994,
    lc0⟩) (.leaf ⟨337, 16, 349, 177, 16, 1011, ⟨[[(0, 26933348240355328), (0, 2633364858321919), (103352718296, 0),
    (0, 2407153), (0, 5)], [(19659721567122712, 0), (0, 4932141369825), (241197472, 0), (0, 395), (0, 1)],
    [(20740790814506, 0), (0, 3549685619), (73971, 0), (26, 0)], [(38245364721, 0), (0, 2932822), (0, 379)]], 3, 4⟩,
    ⟨[[(31920034412761088, 0), (0, 2747660479121435), (67321025451, 0), (0, 3912744), (386, 0)], [(0,
    19798442583709687), (0, 304061515594), (70230753, 0), (0, 2862), (1, 0)], [(11684270007952, 0), (0, 20374445),
    (51001, 0), (0, 12)], [(0, 5061738374), (0, 1379410), (51, 0)]], 3, 4⟩, 72057594037927936, 5572616902863,
    2136231572421, ⟨[[(15846758765331, 0), (7925612238, 0), (2702949, 0), (18627, 0), (54, 0)], [(7934887362, 0),
    (24528664, 0), (0, 35010), (0, 130)], [(0, 26169064), (0, 57445), (244, 0)], [(82433, 0), (69, 0), (0, 1)]], 3,
    4⟩, 17592186044416, 125849021,
    2635470478569060698703779401982220640186554124715335545939766538333054078265569037555628158593038537388672111139298697525412525,
    lc0⟩))) (.sy (.sx (.leaf ⟨315, 16, 298, 186, 16, 1012, ⟨[[(0, 2500612621320192), (0, 2529819669797124),
    (99926707929, 0), (0, 1868274), (0, 99)], [(20754879321394871, 0), (0, 4686482515747), (204106812, 0), (4954, 0),
    (0, 2)], [(23741483422964, 0), (0, 3306380850), (0, 45028), (43, 0)], [(37597701198, 0), (0, 1494466), (0,
    642)]], 3, 4⟩, ⟨[[(0, 10555272415393792), (0, 2837289369919756), (77162559152, 0), (0, 4869123), (387, 0)], [(0,
    18682689627874395), (0, 391552451294), (81285439, 0), (0, 4519)], [(11277912541481, 0), (0, 255768113), (73218,
    0), (0, 8)], [(0, 2665262258), (0, 1358669), (48, 0)]], 3, 4⟩, 72057594037927936, 4922793992408, 2059594452702,
    ⟨[[(16152178465269, 0), (8679093828, 0), (2216982, 0), (17050, 0), (79, 0)], [(7812935171, 0), (24195610, 0), (0,
    29646), (0, 135)], [(0, 27495201), (0, 64210), (227, 0), (1, 0)], [(91564, 0), (117, 0), (0, 1)]], 3, 4⟩,
    17592186044416, 231887786,
    1959537346920491314532716014919794680461669938311822484393982231556191932211365368799453142396094446255341027597701262046688225,
    lc0⟩) (.sy (.leaf ⟨426, 16, 382, 272, 16, 1527, ⟨[[(13101835109498880, 0), (0, 1768898726369081), (34913289682,
    0), (0, 237983), (0, 15)], [(30229106062241073, 0), (0, 3217158749998), (61800270, 0), (1640, 0)],
    [(37370367033447, 0), (0, 2178435475), (0, 52528), (10, 0)], [(53249008837, 0), (0, 182825), (0, 303)]], 3, 4⟩,
    ⟨[[(0, 4111677505290240), (0, 2168872467814122), (31179449271, 0), (0, 992737), (35, 0)], [(0,
    26695890885061373), (0, 333727817088), (33801315, 0), (0, 963)], [(16752349895472, 0), (0, 333786431), (30521,
    0), (0, 1)], [(0, 1239050500), (0, 976829), (11, 0)]], 3, 4⟩, 72057594037927936, 5887815535536, 2967379068913,
    ⟨[[(16227711496502, 0), (6004910719, 0), (669238, 0), (3894, 0), (11, 0)], [(5311958573, 0), (11542504, 0), (0,
    7106), (0, 26)], [(0, 13943679), (0, 24237), (45, 0)], [(34069, 0), (39, 0)]], 3, 4⟩, 17592186044416, 34285688,
    1198809209400643336931576209093691914074798328847245915967627529274903446731433167004086289658042426813104358933343712690391394,
    lc0⟩) (.leaf ⟨430, 16, 397, 258, 16, 1534, ⟨[[(17003017324867584, 0), (0, 1802123259947650), (35889432943, 0),
    (0, 276378), (0, 14)], [(29754072767068495, 0), (0, 3277799696782), (66539594, 0), (1368, 0)], [(37688782698204,
    0), (0, 2311280180), (0, 39883), (9, 0)], [(55167991825, 0), (0, 489437), (0, 282)]], 3, 4⟩,
    ⟨[[(8528027570540544, 0), (0, 2148102996033785), (29875266426, 0), (0, 923466), (38, 0)], [(0,
    26978134154246065), (0, 301901594008), (32487377, 0), (0, 978)], [(16668397024153, 0), (0, 305435397), (28743,
    0), (0, 2)], [(0, 1734066039), (0, 967482), (16, 0)]], 3, 4⟩, 72057594037927936, 6534791602521, 3013401969659,
    ⟨[[(16071725601354, 0), (5812814086, 0), (577700, 0), (3727, 0), (3, 0)], [(5276055773, 0), (11864547, 0), (0,
    6746), (0, 25)], [(0, 13775825), (0, 25091), (44, 0)], [(33982, 0), (42, 0)]], 3, 4⟩, 17592186044416, 29834651,
    2322841952370364475346089016442177342181419974010170577912633669747281181770858206728629754866586026493816680133862459404284396,
    lc0⟩))) (.sx (.sy (.leaf ⟨460, 16, 454, 254, 16, 1504, ⟨[[(424049986506752, 0), (0, 1870380129424252),
    (37226813461, 0), (0, 379744), (0, 6)], [(28976145780626889, 0), (0, 3451475087022), (79374858, 0), (510, 0)],
    [(34267041967197, 0), (0, 2531211152), (0, 137), (7, 0)], [(56292461149, 0), (0, 1472576), (0, 200)]], 3, 4⟩,
    ⟨[[(28639977410052096, 0), (0, 2066641827098476), (26751306721, 0), (0, 792237), (38, 0)], [(0,
    27967896773229477), (0, 246869665456), (28374877, 0), (0, 764)], [(16632445418530, 0), (0, 152024019), (23092,
    0), (0, 2)], [(0, 4710519342), (0, 980517), (20, 0)]], 3, 4⟩, 72057594037927936, 7583238160281, 3000440227409,
    ⟨[[(15919732605276, 0), (5574039104, 0), (850569, 0), (4754, 0), (5, 0)], [(5370479042, 0), (11893280, 0), (0,
    8891), (0, 27)], [(0, 13064143), (0, 22240), (50, 0)], [(30365, 0), (29, 0)]], 3, 4⟩, 17592186044416, 18642833,
    2710992455422189402769275859462113898472485812106271714972995617148633501699165443704993806534412863574281194717302799285185610,
    lc0⟩) (.leaf ⟨467, 16, 474, 241, 16, 1510, ⟨[[(0, 14311870975664128), (0, 1914056291258416), (38260873140, 0),
    (0, 407302), (0, 4)], [(28464601909917525, 0), (0, 3519989299317), (83458030, 0), (249, 0)], [(34450783403033,
    0), (0, 2637786466), (9694, 0), (6, 0)], [(57950391303, 0), (0, 1732272), (0, 180)]], 3, 4⟩,
    ⟨[[(3595928414593024, 0), (0, 2048502869744778), (25718137682, 0), (0, 718502), (38, 0)], [(0,
    28196809047098508), (0, 219810485048), (27401097, 0), (0, 669)], [(16627741333253, 0), (0, 131043536), (19725,
    0), (0, 2)], [(0, 5218372576), (0, 964072), (20, 0)]], 3, 4⟩, 72057594037927936, 8176837152798, 3047734552185,
    ⟨[[(15773865013966, 0), (5373671133, 0), (754885, 0), (4994, 0), (0, 3)], [(5307898665, 0), (12155925, 0), (0,
    8638), (0, 26)], [(0, 12803412), (0, 22735), (50, 0)], [(29674, 0), (29, 0)]], 3, 4⟩, 17592186044416, 16549408,
    3633578423490562030140567520628233902461835118553302418631772772346396964307655305973213677530110212374059045117797123201450464,
    lc0⟩)) (.sy (.leaf ⟨436, 16, 414, 244, 16, 1540, ⟨[[(0, 21821383083839488), (0, 1841941087108890), (36971879882,
    0), (0, 314493), (0, 12)], [(29329916665605132, 0), (0, 3347501119924), (71277518, 0), (1083, 0)],
    [(38083424391198, 0), (0, 2444951901), (0, 27794), (9, 0)], [(57202975064, 0), (0, 788269), (0, 260)]], 3, 4⟩,
    ⟨[[(14960754789363712, 0), (0, 2127074037270307), (28655131466, 0), (0, 847808), (40, 0)], [(0,
    27227707136340389), (0, 271076371957), (31148445, 0), (0, 959)], [(16586728410836, 0), (0, 278931959), (26197,
    0), (0, 2)], [(0, 2224074793), (0, 953354), (19, 0)]], 3, 4⟩, 72057594037927936, 7212979190765, 3051882492743,
    ⟨[[(15922307181974, 0), (5628750974, 0), (481535, 0), (3990, 0), (0, 4)], [(5207808856, 0), (12129187, 0), (0,
    6391), (0, 25)], [(0, 13479042), (0, 25732), (44, 0)], [(33283, 0), (43, 0)]], 3, 4⟩, 17592186044416, 25771441,
    3446032074676092884631529104194234371634382109206768396582848020201129059562688900614808144807052452457876020304265046996568498,
    lc0⟩) (.leaf ⟨440, 16, 431, 231, 16, 1547, ⟨[[(26160939328233472, 0), (0, 1879185860491211), (37979378660, 0),
    (0, 349901), (0, 10)], [(28803667269009012, 0), (0, 3409693087385), (75640537, 0), (781, 0)], [(38363282368271,
    0), (0, 2567880636), (0, 16231), (8, 0)], [(59074534762, 0), (0, 1075570), (0, 237)]], 3, 4⟩, ⟨[[(0,
    33799980280188928), (0, 2108465252798754), (27564563687, 0), (0, 769413), (41, 0)], [(0, 27480403368011246), (0,
    241608294903), (29881644, 0), (0, 900)], [(16527822627232, 0), (0, 255432343), (22895, 0), (0, 3)], [(0,
    2709789574), (0, 936772), (22, 0)]], 3, 4⟩, 72057594037927936, 7882636208812, 3097205633814, ⟨[[(15773655978377,
    0), (5423879513, 0), (382715, 0), (4629, 0), (0, 9)], [(5191515757, 0), (12468708, 0), (0, 6239), (0, 25)], [(0,
    13388734), (0, 26555), (45, 0)], [(33200, 0), (44, 0)]], 3, 4⟩, 17592186044416, 23194887,
    4189117410228483965497316562054887594567707574628409083534803333311700609763663243339297086105602107146558714897659162147627366,
    lc0⟩))))
theorem c24 : checkR job con0 false ⟨7, 9, 7, 9, 13, 17⟩ 1 34400 t24 195 21 160 13239 251 16000 = true := by decide +kernel

def t25 : CTree :=
  .sx (.sy (.sx (.leaf ⟨360, 16, 407, 170, 16, 1006, ⟨[[(26621917354893312, 0), (0, 2729180585270172), (104856272839,
    0), (0, 2606076), (96, 0)], [(18468159824145076, 0), (0, 5152015286241), (267041670, 0), (0, 3946), (0, 1)],
    [(17069050603052, 0), (0, 3544567493), (152549, 0), (9, 0)], [(37762506671, 0), (0, 3923683), (0, 184)]], 3, 4⟩,
    ⟨[[(0, 28960903874969600), (0, 2659596974798183), (58931034158, 0), (0, 3151377), (269, 0)], [(0,
    20845221318451998), (0, 243171158341), (64260355, 0), (0, 68), (1, 0)], [(12460356145809, 0), (195240454, 0),
    (29404, 0), (0, 10)], [(0, 7511622893), (0, 1430129), (11, 0)]], 3, 4⟩, 72057594037927936, 5635489465676,
    2270548124636, ⟨[[(15555098400615, 0), (7173819241, 0), (3548069, 0), (21774, 0), (31, 0)], [(8117524177, 0),
    (24588604, 0), (0, 42712), (0, 124)], [(0, 25157862), (0, 48485), (266, 0)], [(75044, 0), (19, 0), (0, 1)]], 3,
    4⟩, 17592186044416, 79376651,
    2191845585407679575718917205360691800409294979437584337031130334883919350022666303898083069980948968814028749270501922508081009,
    lc0⟩) (.leaf ⟨342, 16, 375, 161, 16, 1024, ⟨[[(27077752459304960, 0), (0, 2720000746718902), (107179473339, 0),
    (0, 2535455), (59, 0)], [(18529135278938606, 0), (0, 5040295705852), (256773497, 0), (0, 2654), (0, 1)],
    [(20394444536832, 0), (0, 3716217869), (112496, 0), (16, 0)], [(39421018104, 0), (0, 3495429), (0, 283)]], 3, 4⟩,
    ⟨[[(0, 31102885990467584), (0, 2717335486842645), (62786577003, 0), (0, 3230853), (323, 0)], [(0,
    20190016310508251), (0, 238350178972), (68008462, 0), (0, 1081), (1, 0)], [(11835604577544, 0), (21735087, 0),
    (32252, 0), (0, 14)], [(0, 5816873373), (0, 1356191), (26, 0)]], 3, 4⟩, 72057594037927936, 6133904712654,
    2245331776962, ⟨[[(15555191571989, 0), (7248169593, 0), (2303146, 0), (19314, 0), (0, 24)], [(7921400654, 0),
    (25955416, 0), (0, 34535), (0, 121)], [(0, 26154717), (0, 61300), (255, 0)], [(83490, 0), (72, 0), (0, 1)]], 3,
    4⟩, 17592186044416, 106650010,
    4029269808384130312013034922496778683087658515389632516133357472928650678201808580444010592664279817900898759853969774818569967,
    lc0⟩)) (.sx (.leaf ⟨369, 16, 439, 153, 16, 1018, ⟨[[(0, 29850833196736512), (0, 2832270746550486), (109060074485,
    0), (0, 2528816), (181, 0)], [(17202562951598315, 0), (0, 5271334283854), (281041122, 0), (0, 4853)],
    [(16534120282588, 0), (0, 3653797917), (169956, 0), (0, 3)], [(38562994282, 0), (0, 4397233), (0, 137)]], 3, 4⟩,
    ⟨[[(5389821781121024, 0), (0, 2633742914746186), (55158415305, 0), (0, 2820919), (73, 0)], [(0,
    21200939938902714), (0, 180169488709), (66994394, 0), (2893, 0), (2, 0)], [(12714438719691, 0), (220225688, 0),
    (15920, 0), (0, 8)], [(0, 8329666565), (0, 1466012), (0, 55)]], 3, 4⟩, 72057594037927936, 6005677249410,
    2433875122154, ⟨[[(15276376182250, 0), (6500247726, 0), (2978559, 0), (24219, 0), (0, 53)], [(7956888278, 0),
    (25840251, 0), (0, 41824), (0, 116)], [(0, 24606058), (0, 51804), (274, 0)], [(74316, 0), (28, 0), (0, 1)]], 3,
    4⟩, 17592186044416, 67492200,
    2857671937085895272073761685209443939963388754807080400780501909060469673596775778217723007829844140918966845108460491423331550,
    lc0⟩) (.leaf ⟨349, 16, 404, 144, 16, 1036, ⟨[[(0, 11728650209325056), (0, 2816439979761002), (111493031862, 0),
    (0, 2516697), (155, 0)], [(17305445961300907, 0), (0, 5154970285590), (270983261, 0), (0, 4490), (0, 1)],
    [(19994046053312, 0), (0, 3872670083), (136008, 0), (2, 0)], [(40511705719, 0), (0, 4017518), (0, 203)]], 3, 4⟩,
    ⟨[[(0, 35010395831906304), (0, 2687725852914378), (59022103007, 0), (0, 2765516), (154, 0)], [(0,
    20530387565433966), (0, 172206436622), (69286929, 0), (1973, 0), (2, 0)], [(11991757937796, 0), (43886176, 0),
    (10757, 0), (0, 15)], [(0, 6571018350), (0, 1370094), (0, 29)]], 3, 4⟩, 72057594037927936, 6736776735811,
    2386930198831, ⟨[[(15277875318967, 0), (6592960840, 0), (1674050, 0), (24763, 0), (0, 73)], [(7808364162, 0),
    (27318239, 0), (0, 34101), (0, 125)], [(0, 25791823), (0, 65253), (269, 0)], [(83623, 0), (81, 0), (0, 1)]], 3,
    4⟩, 17592186044416, 91422530,
    4202582065721682240698565830869602233538108273217926048643952029678180861728799309776606121971445013033106556139874350651290881,
    lc0⟩))) (.sy (.sx (.sy (.leaf ⟨474, 16, 495, 228, 16, 1516, ⟨[[(0, 21897415868788736), (0, 1959063803208334),
    (39310464949, 0), (0, 430867), (0, 1)], [(27902358405536061, 0), (0, 3588308388649), (87336305, 0), (0, 17)],
    [(34597553768929, 0), (0, 2740059657), (18644, 0), (5, 0)], [(59564798255, 0), (0, 1983129), (0, 159)]], 3, 4⟩,
    ⟨[[(0, 16654181660284928), (0, 2031245242902948), (24790853616, 0), (0, 646499), (36, 0)], [(0,
    28412780954452462), (0, 193538656926), (26600366, 0), (0, 528)], [(16632430698425, 0), (0, 113655376), (15781,
    0), (0, 3)], [(0, 5720071616), (0, 948635), (18, 0)]], 3, 4⟩, 72057594037927936, 8770989462833, 3094357550448,
    ⟨[[(15629732928688, 0), (5168571356, 0), (642807, 0), (5640, 0), (0, 9)], [(5247670753, 0), (12428047, 0), (0,
    8450), (0, 27)], [(0, 12564030), (0, 23229), (51, 0)], [(29082, 0), (29, 0)]], 3, 4⟩, 17592186044416, 15258207,
    4313796175525299435735250062886329656265088767654554226856178083423205056784172533228332622268732020863764572920491256770189598,
    lc0⟩) (.leaf ⟨482, 16, 518, 215, 16, 1522, ⟨[[(0, 31197771482488832), (0, 2009130486180402), (40457964973, 0),
    (0, 449644), (3, 0)], [(27336823486158589, 0), (0, 3663359837933), (91164377, 0), (0, 284)], [(34771240098775,
    0), (0, 2844109470), (26509, 0), (4, 0)], [(61250963649, 0), (0, 2228873), (0, 139)]], 3, 4⟩, ⟨[[(0,
    32476962144239616), (0, 2014768747520984), (23964464402, 0), (0, 580087), (32, 0)], [(0, 28616104896016524), (0,
    167846380211), (26049872, 0), (0, 331)], [(16644596627714, 0), (0, 100452022), (11266, 0), (0, 3)], [(0,
    6216565325), (0, 936183), (14, 0)]], 3, 4⟩, 72057594037927936, 9381799263239, 3148294680108, ⟨[[(15488000727492,
    0), (4960508571, 0), (499117, 0), (6598, 0), (0, 14)], [(5177438634, 0), (12682856, 0), (0, 8282), (0, 27)], [(0,
    12292099), (0, 23640), (52, 0)], [(28415, 0), (30, 0)]], 3, 4⟩, 17592186044416, 13855236,
    4354472333290649202769777614888066227894183728951812415435114862118810474002127904068091759606260040247136132494695584268705803,
    lc0⟩)) (.sy (.leaf ⟨446, 16, 450, 217, 16, 1553, ⟨[[(17660394825867264, 0), (0, 1922495762614598), (39089424981,
    0), (0, 382909), (0, 7)], [(28306306371789525, 0), (0, 3480185438853), (79939346, 0), (467, 0)],
    [(38705298987563, 0), (0, 2692187457), (0, 5482), (7, 0)], [(61055418273, 0), (0, 1354805), (0, 214)]], 3, 4⟩,
    ⟨[[(0, 16242870331504640), (0, 2089423839073362), (26570360230, 0), (0, 690255), (40, 0)], [(0,
    27701294981434734), (0, 213086346935), (28713364, 0), (0, 793)], [(16468656167231, 0), (0, 235392933), (18779,
    0), (0, 3)], [(0, 3186747580), (0, 917810), (23, 0)]], 3, 4⟩, 72057594037927936, 8569871081352, 3139306079870,
    ⟨[[(15626811886404, 0), (5228593629, 0), (233873, 0), (5561, 0), (0, 13)], [(5129102766, 0), (12762300, 0), (0,
    5955), (0, 27)], [(0, 13138105), (0, 27245), (46, 0)], [(32588, 0), (45, 0)]], 3, 4⟩, 17592186044416, 20904976,
    4201707033182436393632035389850872601117857177489717496124101877566350579051374490850092630567858727527056536163181563095600134,
    lc0⟩) (.leaf ⟨452, 16, 470, 203, 16, 1560, ⟨[[(16692969474150400, 0), (0, 1967255634411867), (40215041827, 0),
    (0, 411126), (0, 4)], [(27760755482009362, 0), (0, 3550753954488), (83963148, 0), (140, 0)], [(39013430655997,
    0), (0, 2812396395), (4283, 0), (6, 0)], [(63005082662, 0), (0, 1622868), (0, 190)]], 3, 4⟩,
    ⟨[[(15992559484719104, 0), (0, 2072548878301709), (25705772688, 0), (0, 614868), (37, 0)], [(0,
    27926435090763093), (0, 185653209853), (27759713, 0), (0, 631)], [(16428536075143, 0), (0, 219967639), (13843,
    0), (0, 4)], [(0, 3658187910), (0, 899214), (22, 0)]], 3, 4⟩, 72057594037927936, 9260473128918, 3193230688845,
    ⟨[[(15481233203804, 0), (5026715672, 0), (37566, 0), (6663, 0), (0, 14)], [(5066639450, 0), (13063020, 0), (0,
    5664), (0, 28)], [(0, 12904672), (0, 27964), (47, 0)], [(32073, 0), (47, 0)]], 3, 4⟩, 17592186044416, 19040228,
    4501853141100955352432727557195060017599299053843312228907722580797800531988916125367051698310180906278051714462132487974124576,
    lc0⟩))) (.sx (.sy (.leaf ⟨489, 16, 542, 201, 16, 1528, ⟨[[(27442557347553280, 0), (0, 2060069603901844),
    (41630171017, 0), (0, 460657), (7, 0)], [(26703175362257780, 0), (0, 3737610209214), (94749590, 0), (0, 546)],
    [(34895842782386, 0), (0, 2945236879), (32949, 0), (3, 0)], [(62883592562, 0), (0, 2465273), (0, 120)]], 3, 4⟩,
    ⟨[[(27865266911258624, 0), (0, 1998980862738211), (23227640223, 0), (0, 523784), (26, 0)], [(0,
    28806949663144131), (0, 142440310190), (25841239, 0), (0, 69)], [(16662018371275, 0), (0, 92017091), (6195, 0),
    (0, 4)], [(0, 6709898279), (0, 929092), (7, 0)]], 3, 4⟩, 72057594037927936, 9993405384840, 3210746102454,
    ⟨[[(15338980682275, 0), (4736918623, 0), (298764, 0), (7841, 0), (0, 16)], [(5119480664, 0), (13012263, 0), (0,
    8163), (0, 29)], [(0, 12102533), (0, 24281), (53, 0)], [(28097, 0), (31, 0)]], 3, 4⟩, 17592186044416, 12912582,
    4058045275160335941848418764769635156689474305758274327146393602440339396870307281168220743065558123959159050540116694845210244,
    lc0⟩) (.leaf ⟨497, 16, 567, 188, 16, 1535, ⟨[[(6590538301882368, 0), (0, 2111726508770709), (42838763690, 0), (0,
    461280), (13, 0)], [(25996945921530624, 0), (0, 3810983617046), (98085797, 0), (0, 796)], [(34967721859581, 0),
    (0, 3044717573), (37579, 0), (1, 0)], [(64460062774, 0), (0, 2692032), (0, 100)]], 3, 4⟩, ⟨[[(28822824425748480,
    0), (0, 1985096905393520), (22576367881, 0), (0, 483127), (17, 0)], [(0, 29004208188085474), (0, 117001519190),
    (26100438, 0), (270, 0)], [(16693050244956, 0), (0, 88981097), (582, 0), (0, 4)], [(0, 7208132565), (0, 930828),
    (0, 3)]], 3, 4⟩, 72057594037927936, 10607379000330, 3280598033240, ⟨[[(15202321991298, 0), (4523567733, 0),
    (60409, 0), (9049, 0), (0, 16)], [(5048728731, 0), (13282320, 0), (0, 8035), (0, 30)], [(0, 11870482), (0,
    24781), (55, 0)], [(27642, 0), (31, 0)]], 3, 4⟩, 17592186044416, 12144067,
    3860427166527665045111659588843449740449285443903337595519151852491392259032269572248585490178475000083314872588160830800243022,
    lc0⟩)) (.sy (.leaf ⟨458, 16, 491, 190, 16, 1567, ⟨[[(19195225258598400, 0), (0, 2013300404622214), (41361632619,
    0), (0, 432490), (1, 0)], [(27161120481367445, 0), (0, 3621315996545), (87674679, 0), (0, 196)],
    [(39283550458213, 0), (0, 2929213900), (12771, 0), (5, 0)], [(64921791869, 0), (0, 1878408), (0, 166)]], 3, 4⟩,
    ⟨[[(0, 20206741569423360), (0, 2056372849500960), (24945499940, 0), (0, 546951), (32, 0)], [(0,
    28138408750282435), (0, 158916021172), (27094581, 0), (0, 403)], [(16394363541879, 0), (0, 209869141), (8037, 0),
    (0, 4)], [(0, 4122641591), (0, 882243), (19, 0)]], 3, 4⟩, 72057594037927936, 9952155059881, 3249083780957,
    ⟨[[(15342840601928, 0), (4823074556, 0), (0, 184623), (7754, 0), (0, 14)], [(5018664903, 0), (13366924, 0), (0,
    5481), (0, 30)], [(0, 12720611), (0, 28638), (48, 0)], [(31724, 0), (47, 0)]], 3, 4⟩, 17592186044416, 17741165,
    4319320486859027868371936127337742782696942791622707802869400282116994681678949158281069747039586057222435982199756735153583705,
    lc0⟩) (.leaf ⟨465, 16, 514, 176, 16, 1574, ⟨[[(14461770573557760, 0), (0, 2064478571107293), (42621491402, 0),
    (0, 445281), (7, 0)], [(26553469342622580, 0), (0, 3699042224868), (91217659, 0), (0, 539)], [(39588319569522,
    0), (0, 3049639361), (19662, 0), (3, 0)], [(66934838789, 0), (0, 2124106), (0, 141)]], 3, 4⟩,
    ⟨[[(19004930287673344, 0), (0, 2040801537325533), (24275200090, 0), (0, 491348), (25, 0)], [(0,
    28337422756801170), (0, 132534543198), (26828892, 0), (0, 95)], [(16363259651826, 0), (0, 206020238), (1314, 0),
    (0, 5)], [(0, 4581420985), (0, 869130), (14, 0)]], 3, 4⟩, 72057594037927936, 10671247153420, 3315154867586,
    ⟨[[(15202498280329, 0), (4620752023, 0), (0, 475122), (8832, 0), (0, 12)], [(4946170204, 0), (13665675, 0), (0,
    5234), (0, 31)], [(0, 12471731), (0, 29352), (50, 0)], [(31236, 0), (49, 0)]], 3, 4⟩, 17592186044416, 16614170,
    3409006933333630777267932328013441035369336473535597614132926543697126693402491971776316018352560445243482461931837841772105884,
    lc0⟩))))
theorem c25 : checkR job con0 false ⟨7, 9, 7, 9, 13, 17⟩ 1 34400 t25 195 21 160 13741 251 16000 = true := by decide +kernel

def t26 : CTree :=
  .sx (.sy (.out ⟨146, 16, 123, 712, 16, 528, ⟨[[(0, 32023389146857472), (0, 1460354346960576), (47602890204, 0)],
    [(31710330170267307, 0), (0, 4751023619829), (0, 10969618)], [(68609334861826, 0), (0, 1053760425), (0,
    1718047)]], 2, 2⟩, ⟨[[(2999660914245632, 0), (0, 2413709103688204), (91023547528, 0)], [(0, 21831775917929707),
    (0, 1358309531404), (168072960, 0)], [(37178554251866, 0), (0, 2712221606), (91967, 0)]], 2, 2⟩,
    72057594037927936, 1273253591739837, 309142201768186, ⟨[], 0, 0⟩, 0, 0, 0, lc0⟩ 0 71 13) (.sx (.sy (.out ⟨301,
    16, 277, 1419, 16, 1066, ⟨[[(16930739768528896, 0), (0, 1547798631389370), (27105772168, 0)],
    [(32133896338399244, 0), (0, 2640557887874), (15176280, 0)], [(35939928509203, 0), (0, 837999094), (0, 174214)]],
    2, 2⟩, ⟨[[(9980981248540672, 0), (0, 2356672159967586), (42310673607, 0)], [(0, 23291458288567491), (0,
    594733506535), (41645443, 0)], [(17981779792562, 0), (0, 614967861), (21972, 0)]], 2, 2⟩, 72057594037927936,
    357939440336475, 59635282788687, ⟨[], 0, 0⟩, 0, 0, 0, lc0⟩ 0 139 12) (.sx (.leaf ⟨586, 16, 440, 443, 16, 1991,
    ⟨[[(0, 29405759324643328), (0, 2371680118924171), (42924188726, 0), (69943, 0), (0, 30)], [(23890482581558059,
    0), (0, 2065602342704), (18748969, 0), (2483, 0)], [(13608882368950, 0), (0, 426448262), (0, 55801), (5, 0)],
    [(7590067490, 0), (417659, 0), (0, 84)]], 3, 4⟩, ⟨[[(0, 24966176175116288), (0, 3080915550441318), (53422748259,
    0), (0, 1616364), (9, 0)], [(0, 15975582541417027), (0, 360867666713), (27105124, 0), (0, 290)], [(5863084754937,
    0), (0, 188437553), (8786, 0), (1, 0)], [(480872753, 0), (0, 141395), (0, 6)]], 3, 4⟩, 72057594037927936,
    159747190841, 233482006951, ⟨[[(17051415007170, 0), (5292416423, 0), (642210, 0), (2248, 0), (0, 2)],
    [(3531954360, 0), (5062648, 0), (0, 3250), (0, 9)], [(0, 7201460), (0, 8368), (13, 0)], [(8710, 0), (2, 0)]], 3,
    4⟩, 17592186044416, 8018211,
    3129369209148796691604485385514236408948889975170939818169036277079102381787556014014346903487013423173549944289617218058724277,
    lc0⟩) (.out ⟨440, 16, 413, 1841, 16, 1402, ⟨[[(0, 1844306138787840), (0, 2308251813030496), (40930921643, 0)],
    [(23535306158172343, 0), (0, 1970195542669), (12764035, 0)], [(13675857115057, 0), (0, 343565110), (0, 62939)]],
    2, 2⟩, ⟨[[(0, 31548573248782336), (0, 3052557877427654), (53803224862, 0)], [(0, 15260951860467014), (0,
    372080565052), (27417627, 0)], [(5851357043637, 0), (0, 202681636), (7890, 0)]], 2, 2⟩, 72057594037927936,
    72358965164865, 32309807613198, ⟨[], 0, 0⟩, 0, 0, 0, lc0⟩ 0 151 10))) (.out ⟨214, 16, 188, 915, 16, 698, ⟨[[(0,
    8995942439092224), (0, 2234459769146908), (74965794953, 0)], [(23532302629413681, 0), (0, 3655901013030),
    (3930756, 0)], [(27472105897115, 0), (0, 678134404), (0, 624801)]], 2, 2⟩, ⟨[[(15983949117341696, 0), (0,
    3091742947790865), (113068617301, 0)], [(0, 14351123343413979), (0, 823112356883), (113093842, 0)],
    [(12065195643294, 0), (0, 909997281), (45203, 0)]], 2, 2⟩, 72057594037927936, 290330033551225, 143604709135670,
    ⟨[], 0, 0⟩, 0, 0, 0, lc0⟩ 0 76 11))) (.out ⟨103, 16, 79, 451, 16, 344, ⟨[[(0, 12483599259595776), (0,
    2102283034536661), (116812204762, 0)], [(23702774556856613, 0), (0, 6058458494446), (0, 423966449)],
    [(53587299992822, 0), (4200361452, 0), (0, 7177166)]], 2, 2⟩, ⟨[[(0, 24367264163409920), (0, 3163035635273925),
    (246616840222, 0)], [(0, 12352590929911554), (0, 1980525864268), (451637006, 0)], [(26115480925030, 0), (0,
    4093419194), (0, 88784)]], 2, 2⟩, 72057594037927936, 1231771891129554, 671574405764419, ⟨[], 0, 0⟩, 0, 0, 0, lc0⟩
    0 40 12)
theorem c26 : checkR job con0 false ⟨7, 9, 7, 9, 13, 17⟩ 1 34400 t26 237 21 160 12235 251 16000 = true := by decide +kernel

def t27 : CTree :=
  .sy (.sx (.sy (.sx (.leaf ⟨586, 16, 453, 425, 16, 2008, ⟨[[(2688496307838976, 0), (0, 2397344328372025),
    (44254775354, 0), (11112, 0), (0, 30)], [(23533949043939700, 0), (0, 2105378544528), (22973904, 0), (2319, 0)],
    [(13776706636952, 0), (0, 493020320), (0, 50135), (5, 0)], [(8008919326, 0), (346381, 0), (0, 80)]], 3, 4⟩,
    ⟨[[(0, 2036420661575680), (0, 3054354142982021), (51441579377, 0), (0, 1603899), (17, 0)], [(0,
    16287842560634584), (0, 336750268901), (26818872, 0), (0, 393)], [(5820045495269, 0), (0, 180744041), (9631, 0)],
    [(412114936, 0), (0, 147446), (0, 4)]], 3, 4⟩, 72057594037927936, 230076380437, 240092970728, ⟨[[(16877825178567,
    0), (5134174275, 0), (536150, 0), (2263, 0), (3, 0)], [(3559804367, 0), (5289788, 0), (0, 2946), (0, 9)], [(0,
    7073839), (0, 8499), (12, 0)], [(9660, 0), (4, 0)]], 3, 4⟩, 17592186044416, 7291745,
    3984968729002089331678654306741115216529097065466585850345688678223236315504607271212217202110480792410547906835152542713720464,
    lc0⟩) (.leaf ⟨575, 16, 434, 418, 16, 2020, ⟨[[(0, 5026135149658112), (0, 2382317135809161), (43232455475, 0),
    (112225, 0), (0, 34)], [(23696424191761033, 0), (0, 2054798711560), (17552370, 0), (2623, 0)], [(14173998760454,
    0), (0, 423477501), (0, 58320), (5, 0)], [(7798124167, 0), (446172, 0), (0, 87)]], 3, 4⟩, ⟨[[(7554030760996864,
    0), (0, 3087166846902690), (52898884431, 0), (0, 1629245), (15, 0)], [(0, 15890838175004788), (0, 354804657097),
    (27768888, 0), (0, 353)], [(5919298966368, 0), (0, 199929529), (9087, 0), (1, 0)], [(608666654, 0), (0, 138938),
    (0, 5)]], 3, 4⟩, 72057594037927936, 176822295733, 241774220918, ⟨[[(16877542889024, 0), (5167712578, 0), (432410,
    0), (1973, 0), (4, 0)], [(3461885371, 0), (5290371, 0), (0, 2466), (0, 8)], [(0, 7206036), (0, 9249), (11, 0)],
    [(9317, 0), (4, 0)]], 3, 4⟩, 17592186044416, 8354303,
    4724745903340421914666375433660510675842317319657309348215179637062517667995798181341039082975497207653630852926066044576632232,
    lc0⟩)) (.sx (.leaf ⟨587, 16, 467, 407, 16, 2026, ⟨[[(6540522972045312, 0), (0, 2425636271028335), (45593683670,
    0), (0, 49318), (0, 30)], [(23177967041323514, 0), (0, 2144921325837), (27099610, 0), (2146, 0)],
    [(13934913514550, 0), (0, 556542279), (0, 44574), (5, 0)], [(8415437120, 0), (277467, 0), (0, 76)]], 3, 4⟩,
    ⟨[[(35350022940848128, 0), (0, 3030837145749778), (49495825124, 0), (0, 1575446), (25, 0)], [(0,
    16597647194556450), (0, 312924583987), (26392937, 0), (0, 487)], [(5783169452901, 0), (0, 172317472), (10256,
    0)], [(340205468, 0), (0, 152207), (0, 3)]], 3, 4⟩, 72057594037927936, 299561900200, 245787275127,
    ⟨[[(16707966650119, 0), (4977188389, 0), (435239, 0), (1986, 0), (5, 0)], [(3570747469, 0), (5488363, 0), (0,
    2648), (0, 8)], [(0, 6968584), (0, 8689), (11, 0)], [(10430, 0), (7, 0)]], 3, 4⟩, 17592186044416, 6625454,
    3794812522688967955876267434009202580604734918307245698131190857258596677903498654579092417880091307672857091056266079770262950,
    lc0⟩) (.leaf ⟨575, 16, 447, 400, 16, 2038, ⟨[[(15395191095721984, 0), (0, 2408901328436444), (44649668907, 0),
    (47102, 0), (0, 34)], [(23348707617440350, 0), (0, 2096219988367), (21952822, 0), (2444, 0)], [(14365123923493,
    0), (0, 492609576), (0, 52451), (5, 0)], [(8240452213, 0), (373229, 0), (0, 83)]], 3, 4⟩, ⟨[[(22729907226300416,
    0), (0, 3062326438146240), (50922032198, 0), (0, 1604770), (24, 0)], [(0, 16205127069849630), (0, 330134493264),
    (27399290, 0), (0, 461)], [(5873163123574, 0), (0, 192119583), (9896, 0)], [(542470519, 0), (0, 144906), (0,
    4)]], 3, 4⟩, 72057594037927936, 249099088426, 248932290314, ⟨[[(16708476591332, 0), (5014181671, 0), (346800, 0),
    (1660, 0), (5, 0)], [(3484961164, 0), (5499680, 0), (0, 2208), (0, 8)], [(0, 7081970), (0, 9360), (11, 0)],
    [(10246, 0), (7, 0)]], 3, 4⟩, 17592186044416, 7767756,
    4352603697262488303127588205649163853885935316936633748765245655069681015417360145660531208979774521550333136439270004065734179,
    lc0⟩))) (.sy (.out ⟨291, 16, 270, 1418, 16, 1101, ⟨[[(0, 28314315771265024), (0, 1563590436530102), (27425591866,
    0)], [(31822312980946907, 0), (0, 2615499779678), (11332155, 0)], [(38967405585583, 0), (0, 798419295), (0,
    189728)]], 2, 2⟩, ⟨[[(36025669614764032, 0), (0, 2373410226013398), (41726844242, 0)], [(0, 23100561030984177),
    (0, 582359597861), (44015065, 0)], [(18502130734936, 0), (0, 685996027), (23987, 0)]], 2, 2⟩, 72057594037927936,
    380918525104065, 75614310766152, ⟨[], 0, 0⟩, 0, 0, 0, lc0⟩ 0 217 17) (.sx (.leaf ⟨564, 16, 428, 393, 16, 2050,
    ⟨[[(10048320016474112, 0), (0, 2391612008556225), (43539998762, 0), (152001, 0), (0, 38)], [(23553656629898624,
    0), (0, 2044648161643), (16364771, 0), (2758, 0)], [(14757930010087, 0), (0, 419428295), (0, 60824), (5, 0)],
    [(8030076037, 0), (474248, 0), (0, 89)]], 3, 4⟩, ⟨[[(22823097803919360, 0), (0, 3094656624470551), (52396655036,
    0), (0, 1632907), (21, 0)], [(0, 15801051844813160), (0, 349067374404), (28373481, 0), (0, 424)],
    [(5989168737175, 0), (0, 211062167), (9371, 0), (1, 0)], [(746720616, 0), (0, 136843), (0, 5)]], 3, 4⟩,
    72057594037927936, 198178003237, 251547178201, ⟨[[(16708719020692, 0), (5054273447, 0), (273553, 0), (1359, 0),
    (4, 0)], [(3386951751, 0), (5476586, 0), (0, 1793), (0, 7)], [(0, 7195954), (0, 10060), (10, 0)], [(9906, 0), (6,
    0)]], 3, 4⟩, 17592186044416, 8924768,
    4930262131236061007549811746358767097902414540053916008290443565126429603765685883906743016380618449148179778004605792328844121,
    lc0⟩) (.out ⟨423, 16, 402, 1834, 16, 1444, ⟨[[(22703728063422464, 0), (0, 2327645386098650), (41433438221, 0)],
    [(23327278527293397, 0), (0, 1950963426075), (10110228, 0)], [(14817893626222, 0), (0, 330193733), (0, 68335)]],
    2, 2⟩, ⟨[[(34798809550307328, 0), (0, 3066619013513032), (52861835999, 0)], [(0, 15081782672664719), (0,
    362412803463), (28726590, 0)], [(6011455995215, 0), (0, 224549728), (8495, 0)]], 2, 2⟩, 72057594037927936,
    78229245582507, 35231059572209, ⟨[], 0, 0⟩, 0, 0, 0, lc0⟩ 0 322 17)))) (.sx (.sy (.sx (.leaf ⟨589, 16, 482, 390,
    16, 2043, ⟨[[(0, 23692996458119168), (0, 2456354945742951), (46935811533, 0), (0, 111103), (0, 29)],
    [(22818426549093093, 0), (0, 2184122787365), (31116920, 0), (1964, 0)], [(14083138454011, 0), (0, 617111140), (0,
    39115), (4, 0)], [(8810257836, 0), (210787, 0), (0, 72)]], 3, 4⟩, ⟨[[(0, 15158420974137344), (0,
    3007345036729397), (47561046138, 0), (0, 1529777), (33, 0)], [(0, 16888680677190833), (0, 289220913944),
    (25814940, 0), (0, 569)], [(5747102991947, 0), (0, 163208720), (10642, 0)], [(265430641, 0), (0, 155573), (0,
    1)]], 3, 4⟩, 72057594037927936, 365990070273, 248918058827, ⟨[[(16549029515649, 0), (4827642828, 0), (359513, 0),
    (1658, 0), (5, 0)], [(3574205116, 0), (5659966, 0), (0, 2417), (0, 8)], [(0, 6885854), (0, 8899), (11, 0)],
    [(10997, 0), (9, 0)]], 3, 4⟩, 17592186044416, 6016059,
    3553984945388662571565021739887478096068599698059189847026746674678396511870022136779169999491247774157508068071321507126794959,
    lc0⟩) (.leaf ⟨576, 16, 461, 383, 16, 2056, ⟨[[(5966897134821376, 0), (0, 2438096238542335), (46069586453, 0), (0,
    19581), (0, 33)], [(23000742571638757, 0), (0, 2137303519840), (26237250, 0), (2256, 0)], [(14547002550646, 0),
    (0, 558595295), (0, 46694), (5, 0)], [(8670859661, 0), (302723, 0), (0, 79)]], 3, 4⟩, ⟨[[(0, 35642529718865920),
    (0, 3039007125163650), (48973578398, 0), (0, 1563285), (32, 0)], [(0, 16508541232457295), (0, 305674249792),
    (26869344, 0), (0, 558)], [(5830301702204, 0), (0, 183531082), (10462, 0)], [(472996835, 0), (0, 149444), (0,
    3)]], 3, 4⟩, 72057594037927936, 319623925174, 253281893359, ⟨[[(16549016891993, 0), (4864273866, 0), (284080, 0),
    (1365, 0), (4, 0)], [(3498528505, 0), (5680059, 0), (0, 2008), (0, 7)], [(0, 6989547), (0, 9517), (10, 0)],
    [(10991, 0), (9, 0)]], 3, 4⟩, 17592186044416, 6941473,
    4108826783982715655204913610023809067173959070990987606546996616157620489900559085652052678368258304116808059118279469542908406,
    lc0⟩)) (.leaf ⟨402, 16, 335, 277, 16, 1556, ⟨[[(0, 12980337065213952), (0, 1706135016349982), (32959024053, 0),
    (0, 90620), (0, 21)], [(31025741443236114, 0), (0, 3028459093435), (45073726, 0), (2633, 0)], [(39837456650606,
    0), (0, 1786912036), (0, 102789), (12, 0)], [(50345088347, 0), (1044491, 0), (0, 392)]], 3, 4⟩,
    ⟨[[(20773893687795712, 0), (0, 2259238944266635), (34911778808, 0), (0, 1119330), (30, 0)], [(0,
    25573990472428157), (0, 411825234488), (38624563, 0), (0, 966)], [(17313025985120, 0), (0, 494254995), (32489,
    0)], [(1773079213, 0), (0, 934607), (0, 4)]], 3, 4⟩, 72057594037927936, 4403146921777, 2992296322682,
    ⟨[[(16385212217673, 0), (6236119583, 0), (461250, 0), (2961, 0), (9, 0)], [(5134225967, 0), (11289279, 0), (0,
    5149), (0, 23)], [(0, 14498684), (0, 26600), (38, 0)], [(35312, 0), (44, 0)]], 3, 4⟩, 17592186044416, 59146376,
    3045602100842350045814598286091511973744458428948565904953266873797511556242682076737892979637246130789446976219178155705604160,
    lc0⟩)) (.sy (.sx (.leaf ⟨564, 16, 441, 375, 16, 2068, ⟨[[(19027894476611584, 0), (0, 2419113504176065),
    (45040521238, 0), (80271, 0), (0, 37)], [(23216081892420483, 0), (0, 2087744425708), (20931998, 0), (2564, 0)],
    [(14974117910961, 0), (0, 491077029), (0, 54755), (5, 0)], [(8496683127, 0), (399765, 0), (0, 85)]], 3, 4⟩,
    ⟨[[(14666543758385152, 0), (0, 3069994406563472), (50412868418, 0), (0, 1595498), (30, 0)], [(0,
    16109407930101458), (0, 323747056122), (27894607, 0), (0, 537)], [(5937317800064, 0), (0, 203062271), (10129,
    0)], [(682767747, 0), (0, 142600), (0, 4)]], 3, 4⟩, 72057594037927936, 270328508769, 255736879066,
    ⟨[[(16545018011883, 0), (4906147227, 0), (219512, 0), (1106, 0), (3, 0)], [(3406936404, 0), (5674443, 0), (0,
    1606), (0, 6)], [(0, 7078307), (0, 10165), (9, 0)], [(10813, 0), (9, 0)]], 3, 4⟩, 17592186044416, 8108194,
    4222335797520580264077528113621506111675846431010735201966180991672210012525121871991480492740449522893029114480972077737456526,
    lc0⟩) (.leaf ⟨553, 16, 422, 368, 16, 2081, ⟨[[(18838320242737152, 0), (0, 2399594571109709), (43842621510, 0),
    (188789, 0), (0, 42)], [(23462797875184241, 0), (0, 2035041280431), (15180182, 0), (2887, 0)], [(15363739548608,
    0), (0, 414367893), (0, 63296), (5, 0)], [(8287718341, 0), (501551, 0), (0, 92)]], 3, 4⟩, ⟨[[(18772514505990144,
    0), (0, 3103346997045630), (51926392488, 0), (0, 1627488), (28, 0)], [(0, 15704802658805269), (0, 343691533972),
    (28903931, 0), (0, 504)], [(6074336936878, 0), (0, 221897140), (9636, 0)], [(895427633, 0), (0, 135095), (0,
    5)]], 3, 4⟩, 72057594037927936, 221927899487, 259656212085, ⟨[[(16544708031463, 0), (4948519581, 0), (169778, 0),
    (902, 0), (2, 0)], [(3308381484, 0), (5629392, 0), (0, 1241), (0, 6)], [(0, 7173447), (0, 10818), (8, 0)],
    [(10479, 0), (9, 0)]], 3, 4⟩, 17592186044416, 9391907,
    4104365068243145661156157173428258970564792922559715485586340415589901494648914264047180089907142592288602492160981567193267444,
    lc0⟩)) (.leaf ⟨382, 16, 304, 269, 16, 1593, ⟨[[(0, 1461813036363776), (0, 1666450093427153), (31434272736, 0),
    (39290, 0), (0, 27)], [(31438373100071400, 0), (0, 2877579116802), (31008945, 0), (3438, 0)], [(42090573446072,
    0), (0, 1435304639), (0, 144480), (14, 0)], [(48489309821, 0), (2056483, 0), (0, 460)]], 3, 4⟩,
    ⟨[[(4154975563919360, 0), (0, 2331631211895841), (37460900431, 0), (0, 1187065), (28, 0)], [(0,
    24679054196795471), (0, 469048224913), (42293969, 0), (0, 959)], [(18116896370652, 0), (0, 621581011), (31961,
    0), (1, 0)], [(4411016589, 0), (0, 875702), (0, 17)]], 3, 4⟩, 72057594037927936, 3390140252151, 3080152321641,
    ⟨[[(16385844146699, 0), (6282189194, 0), (262437, 0), (2084, 0), (3, 0)], [(4927829447, 0), (11218741, 0), (0,
    3185), (0, 20)], [(0, 15024386), (0, 29907), (32, 0)], [(35849, 0), (48, 0)]], 3, 4⟩, 17592186044416, 91884852,
    3387065720492125720105548935302902107227023549394827054794248323388729668725497772875336137467676501815724183258857974661792399,
    lc0⟩)))
theorem c27 : checkR job con0 false ⟨7, 9, 7, 9, 13, 17⟩ 1 34400 t27 453 21 320 12737 251 16000 = true := by decide +kernel

def t28 : CTree :=
  .sy (.out ⟨135, 16, 116, 713, 16, 564, ⟨[[(14971392577218560, 0), (0, 1475190396643295), (47459333263, 0)],
    [(31387343166729527, 0), (0, 4600674037512), (0, 50745728)], [(79639139239545, 0), (0, 388286956), (0,
    1990467)]], 2, 2⟩, ⟨[[(0, 32824290120179712), (0, 2449488676706287), (89387282941, 0)], [(0, 21368481921004547),
    (0, 1339366615545), (189726711, 0)], [(40302997971476, 0), (0, 3281995956), (124065, 0)]], 2, 2⟩,
    72057594037927936, 1445004892852131, 456581091927686, ⟨[], 0, 0⟩, 0, 0, 0, lc0⟩ 0 155 25) (.sx (.sy (.out ⟨279,
    16, 262, 1419, 16, 1138, ⟨[[(0, 21810998781300736), (0, 1570329386126843), (27642735756, 0)],
    [(31661060392987386, 0), (0, 2583366087902), (7509374, 0)], [(42084956808784, 0), (0, 746720793), (0, 204125)]],
    2, 2⟩, ⟨[[(0, 15244614035226624), (0, 2393178727274158), (41176815423, 0)], [(0, 22856843577329588), (0,
    571447339707), (46010496, 0)], [(19210666910384, 0), (0, 753769013), (25935, 0)]], 2, 2⟩, 72057594037927936,
    407632404537276, 93762950997098, ⟨[], 0, 0⟩, 0, 0, 0, lc0⟩ 0 1048 68) (.leaf ⟨364, 16, 276, 261, 16, 1632,
    ⟨[[(29924456087334912, 0), (0, 1624826109029017), (29457145717, 0), (190955, 0), (0, 33)], [(31989306300896494,
    0), (0, 2709985003989), (14736678, 0), (4316, 0)], [(43886780243845, 0), (0, 990126423), (0, 190575), (16, 0)],
    [(45892317691, 0), (3149054, 0), (0, 528)]], 3, 4⟩, ⟨[[(26494545997037568, 0), (0, 2410084854409618),
    (40254027580, 0), (0, 1255567), (25, 0)], [(0, 23695555011918671), (0, 538605952349), (45959201, 0), (0, 883)],
    [(19297869901613, 0), (0, 743889028), (29525, 0), (2, 0)], [(7188415685, 0), (0, 800082), (0, 34)]], 3, 4⟩,
    72057594037927936, 2273571885459, 3178622312974, ⟨[[(16381682253553, 0), (6324278623, 0), (132543, 0), (1618, 0),
    (0, 2)], [(4680510277, 0), (10948118, 0), (0, 1494), (0, 17)], [(0, 15610229), (0, 33501), (25, 0)], [(34754, 0),
    (46, 0)]], 3, 4⟩, 17592186044416, 142842355,
    3511649839568221839524763463688038326222381075147537787731164963033093544457625405875989103364342633755329746145781105679845250,
    lc0⟩)) (.out ⟨196, 16, 176, 911, 16, 742, ⟨[[(30251372165531648, 0), (0, 2238211319700662), (74939466798, 0)],
    [(23349763299199330, 0), (0, 3533489412681), (0, 22279940)], [(31787327967511, 0), (0, 459452824), (0, 713119)]],
    2, 2⟩, ⟨[[(17065505611800576, 0), (0, 3125975679470073), (110019889686, 0)], [(0, 13925030810066206), (0,
    801336698920), (124009506, 0)], [(13102246613842, 0), (0, 1081117593), (55798, 0)]], 2, 2⟩, 72057594037927936,
    340446649349335, 171280490396553, ⟨[], 0, 0⟩, 0, 0, 0, lc0⟩ 0 177 20))
theorem c28 : checkR job con0 false ⟨7, 9, 7, 9, 13, 17⟩ 1 34400 t28 495 21 320 12737 251 16000 = true := by decide +kernel

def t29 : CTree :=
  .sy (.out ⟨66, 16, 41, 372, 16, 290, ⟨[[(0, 17190721374745600), (0, 1268876587443360), (27402974042, 0)],
    [(32306561392792070, 0), (0, 4552338687783), (0, 1834065582)], [(129802124420196, 0), (51713727761, 0), (0,
    30626175)]], 2, 2⟩, ⟨[[(7733495259959296, 0), (0, 2785629288346200), (230512835558, 0)], [(0, 14699385481829641),
    (0, 4218094333907), (634496412, 0)], [(108039472419642, 0), (0, 13245404320), (0, 4064510)]], 2, 2⟩,
    72057594037927936, 3579210785040136, 3185734985926865, ⟨[], 0, 0⟩, 0, 0, 0, lc0⟩ 0 19 12) (.out ⟨60, 16, 43, 361,
    16, 296, ⟨[[(0, 12031248546552320), (0, 1287566347414181), (55760457042, 0)], [(31073115792927116, 0), (0,
    6282237690499), (0, 1110183162)], [(155989465429339, 0), (26257830957, 0), (0, 23821068)]], 2, 2⟩, ⟨[[(0,
    15334861779079168), (0, 2621801526172050), (205050170910, 0)], [(0, 16984281580186981), (0, 3559006650910),
    (810131106, 0)], [(102728449352226, 0), (0, 16018419087), (0, 999006)]], 2, 2⟩, 72057594037927936,
    5505305697362657, 3228835902937148, ⟨[], 0, 0⟩, 0, 0, 0, lc0⟩ 0 172 68)
theorem c29 : checkR job con0 false ⟨7, 9, 7, 9, 13, 17⟩ 1 34400 t29 279 21 160 6243 251 8000 = true := by decide +kernel

def t30 : CTree :=
  .sx (.out ⟨51, 16, 25, 225, 16, 183, ⟨[[(0, 26448512288815104), (0, 1660632842182677), (0, 198073050255)],
    [(26385833554473356, 0), (1877636398613, 0), (0, 11813035672)], [(84357953603798, 0), (169562730814, 0), (0,
    139386350)]], 2, 2⟩, ⟨[[(0, 11412828112099328), (0, 3609705303561403), (604290343540, 0)], [(0,
    3348975272740261), (0, 6232168737122), (680680728, 0)], [(91855650269754, 0), (0, 11368728073), (0, 23021100)]],
    2, 2⟩, 72057594037927936, 12755431982829244, 4695073124751095, ⟨[], 0, 0⟩, 0, 0, 0, lc0⟩ 0 11 11) (.out ⟨60, 16,
    22, 202, 16, 164, ⟨[[(0, 30487325932774400), (0, 1029440556621445), (0, 877196041923)], [(27457417934727546, 0),
    (21542273670472, 0), (0, 24313801544)], [(11367135589396, 0), (336190007333, 0), (0, 210494599)]], 2, 2⟩, ⟨[[(0,
    1843302793199616), (0, 3479479027532924), (520380773510, 0)], [(4975942912949429, 0), (0, 5850214081926), (0,
    1857001105)], [(105902154596112, 0), (4574286665, 0), (0, 37445093)]], 2, 2⟩, 72057594037927936,
    26359843497251729, 4377287921483775, ⟨[], 0, 0⟩, 0, 0, 0, lc0⟩ 0 4 7)
theorem c30 : checkR job con0 false ⟨7, 9, 7, 9, 13, 17⟩ 1 34400 t30 171 21 80 6243 251 8000 = true := by decide +kernel

def t31 : CTree :=
  .sy (.sx (.sy (.leaf ⟨404, 16, 347, 263, 16, 1563, ⟨[[(1499296017293312, 0), (0, 1733055921517302), (33966004666,
    0), (0, 136259), (0, 20)], [(30574465648431390, 0), (0, 3088098404179), (50514391, 0), (2354, 0)],
    [(40310044267430, 0), (0, 1948507064), (0, 88154), (12, 0)], [(52592402581, 0), (692742, 0), (0, 370)]], 3, 4⟩,
    ⟨[[(0, 11075090320723968), (0, 2235027693954685), (33423485031, 0), (0, 1059122), (35, 0)], [(0,
    25887055160839247), (0, 375480582132), (37270899, 0), (0, 1054)], [(17149886932334, 0), (0, 463850892), (32224,
    0), (0, 1)], [(1309421712, 0), (0, 938969), (3, 0)]], 3, 4⟩, 72057594037927936, 5129349283178, 3045488370934,
    ⟨[[(16229178827369, 0), (6055926715, 0), (387264, 0), (2839, 0), (3, 0)], [(5130920048, 0), (11644368, 0), (0,
    4834), (0, 22)], [(0, 14382119), (0, 27464), (38, 0)], [(36339, 0), (50, 0)]], 3, 4⟩, 17592186044416, 51085197,
    1161152672738332849579953607696465823895714765281913628904586149772723306289840557954114606227402332484016094600898767422551262,
    lc0⟩) (.leaf ⟨408, 16, 361, 248, 16, 1570, ⟨[[(0, 8361617919512576), (0, 1767617441375251), (35091678817, 0), (0,
    182648), (0, 19)], [(30208788116712357, 0), (0, 3158173192411), (55950846, 0), (2065, 0)], [(40897169262629, 0),
    (0, 2110239483), (0, 74109), (11, 0)], [(54982305079, 0), (353255, 0), (0, 348)]], 3, 4⟩, ⟨[[(35932677661689856,
    0), (0, 2212116042021647), (32025876374, 0), (0, 989688), (39, 0)], [(0, 26183028990019779), (0, 340390947662),
    (35797731, 0), (0, 1114)], [(17000867748613, 0), (0, 433985931), (31121, 0), (0, 1)], [(843278696, 0), (0,
    936202), (10, 0)]], 3, 4⟩, 72057594037927936, 5864339714714, 3087085076448, ⟨[[(16071294012201, 0), (5875923753,
    0), (298048, 0), (3097, 0), (0, 4)], [(5082182979, 0), (11946606, 0), (0, 4443), (0, 22)], [(0, 14121765), (0,
    28260), (37, 0)], [(36394, 0), (55, 0)]], 3, 4⟩, 17592186044416, 43322602,
    2519014294254224444702957021346985487092577125741500233997282590166393537892225488314431435300668557685773929086919656672374122,
    lc0⟩)) (.sy (.leaf ⟨384, 16, 315, 254, 16, 1600, ⟨[[(0, 8239811541286912), (0, 1694030348994292), (32591829098,
    0), (0, 13528), (0, 26)], [(31087666179520079, 0), (0, 2946853049423), (37185772, 0), (3150, 0)],
    [(42831071543959, 0), (0, 1626815105), (0, 128560), (14, 0)], [(51196733445, 0), (1671909, 0), (0, 438)]], 3, 4⟩,
    ⟨[[(3923163737616384, 0), (0, 2304987304546919), (35875394629, 0), (0, 1130114), (34, 0)], [(0,
    25013417676643124), (0, 429223445561), (40924375, 0), (0, 1098)], [(17891265008147, 0), (0, 591677821), (32757,
    0)], [(3985332558, 0), (0, 892038), (0, 8)]], 3, 4⟩, 72057594037927936, 4192513109641, 3136218451055,
    ⟨[[(16228589833653, 0), (6115363207, 0), (190714, 0), (2295, 0), (0, 3)], [(4914679567, 0), (11561850, 0), (0,
    2828), (0, 20)], [(0, 14756745), (0, 30483), (31, 0)], [(37405, 0), (58, 0)]], 3, 4⟩, 17592186044416, 77716836,
    1255675260663868907373420054520776463997014287027652176538095053892293947817614472431578858491162627801566039825633879044584559,
    lc0⟩) (.leaf ⟨386, 16, 327, 239, 16, 1607, ⟨[[(27153880751525888, 0), (0, 1724620330112912), (33771746109, 0),
    (0, 67317), (0, 26)], [(30746411108036011, 0), (0, 3017992448354), (43206369, 0), (2844, 0)], [(43583080541472,
    0), (0, 1812364749), (0, 112952), (13, 0)], [(53907121796, 0), (1298992, 0), (0, 415)]], 3, 4⟩,
    ⟨[[(11651192983189504, 0), (0, 2279735579550847), (34376379755, 0), (0, 1062568), (38, 0)], [(0,
    25329049201093909), (0, 390696187487), (39357843, 0), (0, 1210)], [(17679505624208, 0), (0, 561291232), (32630,
    0)], [(3551819917, 0), (0, 899152), (1, 0)]], 3, 4⟩, 72057594037927936, 4987390494551, 3187174236576,
    ⟨[[(16070829628067, 0), (5938764368, 0), (99715, 0), (2841, 0), (0, 7)], [(4905780639, 0), (11922753, 0), (0,
    2488), (0, 21)], [(0, 14578722), (0, 31329), (31, 0)], [(38619, 0), (66, 0)]], 3, 4⟩, 17592186044416, 66046460,
    2491505239704047197281090031353371319337092109523802170368132778320741247212727214002100677588240395676655501439144320922607310,
    lc0⟩))) (.sx (.sy (.leaf ⟨411, 16, 375, 234, 16, 1577, ⟨[[(2692824188235776, 0), (0, 1799722741101940),
    (36137264707, 0), (0, 228305), (0, 18)], [(29748338819762676, 0), (0, 3220775770982), (61053424, 0), (1751, 0)],
    [(41364825303823, 0), (0, 2260834357), (0, 60245), (11, 0)], [(57210900638, 0), (22968, 0), (0, 324)]], 3, 4⟩,
    ⟨[[(17125565702381568, 0), (0, 2190413078639986), (30732013293, 0), (0, 912870), (42, 0)], [(0,
    26462487964440418), (0, 306661408569), (34250630, 0), (0, 1141)], [(16865553520737, 0), (0, 405526356), (29140,
    0), (0, 2)], [(378088420, 0), (0, 926946), (16, 0)]], 3, 4⟩, 72057594037927936, 6582055286581, 3128716033368,
    ⟨[[(15920324157780, 0), (5690238665, 0), (197338, 0), (3701, 0), (0, 8)], [(5060339156, 0), (12284385, 0), (0,
    4153), (0, 23)], [(0, 13996866), (0, 29224), (38, 0)], [(36593, 0), (59, 0)]], 3, 4⟩, 17592186044416, 37883203,
    3483830333703392193210662423977515081021375469798011176874785791781687571631023695860837396879647965891880297298631920223519587,
    lc0⟩) (.leaf ⟨415, 16, 390, 220, 16, 1584, ⟨[[(0, 30962441105514496), (0, 1834167304752288), (37197895914, 0),
    (0, 272813), (0, 16)], [(29272988425861467, 0), (0, 3284582711934), (65933293, 0), (1418, 0)], [(41824650913623,
    0), (0, 2406125959), (0, 46904), (10, 0)], [(59429510738, 0), (0, 295837), (0, 300)]], 3, 4⟩,
    ⟨[[(4050192731217920, 0), (0, 2169815739962410), (29551888649, 0), (0, 830963), (43, 0)], [(0,
    26726052499953240), (0, 274347422244), (32683641, 0), (0, 1129)], [(16743079297905, 0), (0, 379384804), (26237,
    0), (0, 2)], [(0, 83046188), (0, 911957), (22, 0)]], 3, 4⟩, 72057594037927936, 7296690607912, 3170756525508,
    ⟨[[(15774838728675, 0), (5509798766, 0), (60068, 0), (4533, 0), (0, 11)], [(5015166963, 0), (12584562, 0), (0,
    3796), (0, 25)], [(0, 13796116), (0, 30101), (38, 0)], [(36316, 0), (61, 0)]], 3, 4⟩, 17592186044416, 33157727,
    4007718878486906297922676101237898831347263962762591142501922408388085639813487455095925294413248763036259551340637192955357243,
    lc0⟩)) (.sy (.leaf ⟨388, 16, 339, 225, 16, 1615, ⟨[[(16022943222444032, 0), (0, 1752824027238108), (34866666458,
    0), (0, 121328), (0, 25)], [(30315736913820270, 0), (0, 3081654910880), (48901829, 0), (2510, 0)],
    [(44211445980804, 0), (0, 1986405030), (0, 97366), (13, 0)], [(56456225806, 0), (934316, 0), (0, 391)]], 3, 4⟩,
    ⟨[[(0, 35301703385937920), (0, 2257186230780640), (32999504877, 0), (0, 986719), (42, 0)], [(0,
    25642437542112427), (0, 353870034060), (37660511, 0), (0, 1292)], [(17492527579722, 0), (0, 531701882), (31551,
    0), (0, 1)], [(3116937212, 0), (0, 897983), (10, 0)]], 3, 4⟩, 72057594037927936, 5768982317190, 3228536759832,
    ⟨[[(15923629441702, 0), (5763939213, 0), (0, 18217), (3572, 0), (0, 10)], [(4892764777, 0), (12256858, 0), (0,
    2128), (0, 23)], [(0, 14449485), (0, 32292), (31, 0)], [(39360, 0), (72, 0)]], 3, 4⟩, 17592186044416, 57268343,
    3300356689005079737807250012351630671190543876999880667393776486962428859341010723126718097481236346565244418538827207327967300,
    lc0⟩) (.leaf ⟨391, 16, 352, 210, 16, 1622, ⟨[[(0, 31941273605255168), (0, 1783800820410069), (35976476234, 0),
    (0, 175021), (0, 23)], [(29885083798474069, 0), (0, 3146994127794), (54361089, 0), (2154, 0)], [(44847596814753,
    0), (0, 2154475370), (0, 82232), (12, 0)], [(59009318860, 0), (582815, 0), (0, 366)]], 3, 4⟩, ⟨[[(0,
    14107299384670208), (0, 2234422035476632), (31715448112, 0), (0, 903395), (45, 0)], [(0, 25922627988350065), (0,
    318422090890), (35835427, 0), (0, 1336)], [(17308092375888, 0), (0, 503241963), (29422, 0), (0, 2)],
    [(2680889878, 0), (0, 887846), (18, 0)]], 3, 4⟩, 72057594037927936, 6543833586855, 3267083166736,
    ⟨[[(15776305328348, 0), (5597865997, 0), (0, 187135), (4461, 0), (0, 11)], [(4845947919, 0), (12560600, 0), (0,
    1633), (0, 24)], [(0, 14225446), (0, 33285), (31, 0)], [(39375, 0), (77, 0)]], 3, 4⟩, 17592186044416, 49468099,
    3512608981541711427771026277614818611526022765404975828743930593375252505747967309942072122067758729183486024761343877722564219,
    lc0⟩)))
theorem c31 : checkR job con0 false ⟨7, 9, 7, 9, 13, 17⟩ 1 34400 t31 453 21 320 13239 251 16000 = true := by decide +kernel

def t32 : CTree :=
  .sy (.sx (.sy (.leaf ⟨365, 16, 285, 246, 16, 1639, ⟨[[(0, 20437223551762432), (0, 1647137977111788), (30664449666,
    0), (130916, 0), (0, 32)], [(31632046581562715, 0), (0, 2779819212574), (21592769, 0), (4010, 0)],
    [(44757063075067, 0), (0, 1207883838), (0, 172902), (15, 0)], [(48887234182, 0), (2724854, 0), (0, 505)]], 3, 4⟩,
    ⟨[[(0, 16882595705026560), (0, 2380773587945782), (38568926534, 0), (0, 1204172), (31, 0)], [(0,
    24057217125300069), (0, 495295204778), (44674041, 0), (0, 1078)], [(19013270445631, 0), (0, 716217809), (31663,
    0), (1, 0)], [(6808254188, 0), (0, 831985), (0, 23)]], 3, 4⟩, 72057594037927936, 3125600059018, 3241716415702,
    ⟨[[(16231074339487, 0), (6175372340, 0), (58422, 0), (2041, 0), (0, 6)], [(4681047167, 0), (11303261, 0), (0,
    1117), (0, 18)], [(0, 15235750), (0, 33659), (24, 0)], [(37126, 0), (58, 0)]], 3, 4⟩, 17592186044416, 121928504,
    2598380685255540428131461858352455527856503562665317165986069065361662191989363624905050923154518909665331850371039393902406458,
    lc0⟩) (.leaf ⟨366, 16, 295, 230, 16, 1647, ⟨[[(0, 18231312626888704), (0, 1672979257539865), (31894552911, 0),
    (69721, 0), (0, 32)], [(31303652805083038, 0), (0, 2851894945643), (28254572, 0), (3690, 0)], [(45656739270887,
    0), (0, 1418134444), (0, 155669), (15, 0)], [(51890260497, 0), (2316593, 0), (0, 482)]], 3, 4⟩,
    ⟨[[(31112435344986112, 0), (0, 2354380216842484), (36985092901, 0), (0, 1141542), (37, 0)], [(0,
    24413322344239421), (0, 453503465304), (43132586, 0), (0, 1249)], [(18752903793394, 0), (0, 687170704), (32839,
    0)], [(6417014865, 0), (0, 853184), (0, 11)]], 3, 4⟩, 72057594037927936, 3966403391782, 3301904443958,
    ⟨[[(16072226944088, 0), (6012189781, 0), (0, 53107), (2724, 0), (0, 8)], [(4672676252, 0), (11668698, 0), (0,
    655), (0, 20)], [(0, 14944055), (0, 34212), (23, 0)], [(39202, 0), (71, 0)]], 3, 4⟩, 17592186044416, 103562030,
    2544243674606838262504596791168820016499005334960562532616359002120702380279994444748601969055782869447694511947853713554679464,
    lc0⟩)) (.sy (.sx (.leaf ⟨520, 16, 391, 310, 16, 2159, ⟨[[(15213595708334080, 0), (0, 2381405982094388),
    (42744654930, 0), (375053, 0), (0, 55)], [(23733562185639906, 0), (0, 1952773346974), (6248364, 0), (3473, 0)],
    [(16959793116390, 0), (0, 308574721), (0, 77121), (6, 0)], [(8627710878, 0), (656215, 0), (0, 102)]], 3, 4⟩,
    ⟨[[(16921828971458560, 0), (0, 3157635012825325), (52699585332, 0), (0, 1629300), (37, 0)], [(0,
    15041258635732605), (0, 357523009278), (30685059, 0), (0, 653)], [(6505256273395, 0), (0, 260677107), (9525, 0),
    (1, 0)], [(1459919765, 0), (0, 125352), (0, 6)]], 3, 4⟩, 72057594037927936, 221187001626, 280401525730,
    ⟨[[(16226364980181, 0), (4803203883, 0), (0, 8523), (911, 0), (0, 2)], [(3034435939, 0), (5752198, 0), (4, 0),
    (0, 5)], [(0, 7175954), (0, 12885), (5, 0)], [(11144, 0), (13, 0)]], 3, 4⟩, 17592186044416, 12200720,
    4079161380852097566980046294707605067854634084591836379983226768679518237796216483101483476154503843849385756191970371006059023,
    lc0⟩) (.out ⟨391, 16, 366, 1832, 16, 1522, ⟨[[(16395751238160384, 0), (0, 2306376243990853), (40122644369, 0)],
    [(23592546990098523, 0), (0, 1848698169991), (0, 740081)], [(16900036627590, 0), (0, 203172244), (0, 84911)]], 2,
    2⟩, ⟨[[(0, 9739244498173952), (0, 3131673913362658), (53299309250, 0)], [(0, 14297471839602432), (0,
    375104060936), (31040606, 0)], [(6615936077983, 0), (0, 272331862), (8575, 0)]], 2, 2⟩, 72057594037927936,
    87861939633384, 42142175466180, ⟨[], 0, 0⟩, 0, 0, 0, lc0⟩ 0 163 11)) (.sx (.leaf ⟨518, 16, 402, 291, 16, 2178,
    ⟨[[(0, 4079153616871424), (0, 2404015729352848), (44443990937, 0), (274854, 0), (0, 54)], [(23395446847034837,
    0), (0, 1998651422278), (11532836, 0), (3214, 0)], [(17258472529618, 0), (0, 392141998), (0, 69971), (6, 0)],
    [(9183274030, 0), (572981, 0), (0, 97)]], 3, 4⟩, ⟨[[(0, 3144182494019584), (0, 3133270068838734), (50748468797,
    0), (0, 1560844), (45, 0)], [(0, 15346970312010557), (0, 330124091051), (29857334, 0), (0, 797)],
    [(6432981851889, 0), (0, 252938072), (10320, 0)], [(1407971567, 0), (0, 131348), (0, 4)]], 3, 4⟩,
    72057594037927936, 299738189579, 285467033241, ⟨[[(16073968488322, 0), (4667469886, 0), (0, 78057), (1212, 0),
    (0, 3)], [(3056792645, 0), (5958279, 0), (196, 0), (0, 6)], [(0, 7075112), (0, 13001), (5, 0)], [(12175, 0), (17,
    0)]], 3, 4⟩, 17592186044416, 11254723,
    2708417798983621084423009860433491092496824993308333482267053576387021932050444331593139369600399435191812132471744675867577300,
    lc0⟩) (.leaf ⟨508, 16, 384, 284, 16, 2193, ⟨[[(13718991121694720, 0), (0, 2377175829245377), (42791658477, 0),
    (401999, 0), (0, 59)], [(23779440114528302, 0), (0, 1937505914467), (4890861, 0), (3579, 0)], [(17602565863037,
    0), (0, 297617453), (0, 79233), (6, 0)], [(8949765076, 0), (676483, 0), (0, 104)]], 3, 4⟩, ⟨[[(8173611337785344,
    0), (0, 3169268689782157), (52378637713, 0), (0, 1604541), (42, 0)], [(0, 14900658181876873), (0, 354478219418),
    (30912838, 0), (0, 764)], [(6670674336114, 0), (0, 270895632), (9813, 0), (1, 0)], [(1652156424, 0), (0, 125033),
    (0, 5)]], 3, 4⟩, 72057594037927936, 251417408155, 291706485551, ⟨[[(16072411432130, 0), (4716459584, 0), (0,
    104843), (1213, 0), (0, 3)], [(2949911445, 0), (5823402, 0), (482, 0), (0, 6)], [(0, 7122264), (0, 13553), (4,
    0)], [(11714, 0), (16, 0)]], 3, 4⟩, 17592186044416, 13063260,
    4580660994932501681872738907108362999395296632422526563928293426154929413804735852457803570985569639798039502255219648875254042,
    lc0⟩)))) (.sx (.sy (.leaf ⟨366, 16, 305, 215, 16, 1654, ⟨[[(15165833866752000, 0), (0, 1696544810065606),
    (33035162855, 0), (7464, 0), (0, 31)], [(30892440988585338, 0), (0, 2916475707219), (34599926, 0), (3340, 0)],
    [(46429760491599, 0), (0, 1616325230), (0, 138344), (15, 0)], [(54729638030, 0), (1916120, 0), (0, 456)]], 3, 4⟩,
    ⟨[[(4842654051579904, 0), (0, 2327943272266049), (35473908680, 0), (0, 1067767), (41, 0)], [(0,
    24734956479191479), (0, 412926224696), (41320692, 0), (0, 1390)], [(18494512094007, 0), (0, 656901546), (32958,
    0)], [(6012203042, 0), (0, 862799)]], 3, 4⟩, 72057594037927936, 4798114978655, 3349736336904, ⟨[[(15920563593510,
    0), (5845990788, 0), (0, 195643), (3517, 0), (0, 9)], [(4690876956, 0), (12083773, 0), (0, 211), (0, 22)], [(0,
    14871568), (0, 35296), (23, 0)], [(41288, 0), (82, 0)]], 3, 4⟩, 17592186044416, 90117524,
    2593348510593662854052969401145910829035594632866866771059508446384322333326865071025388657251970669775558018031509447203565211,
    lc0⟩) (.leaf ⟨368, 16, 317, 200, 16, 1662, ⟨[[(32754523124412416, 0), (0, 1728832166035744), (34298568273, 0),
    (0, 55273), (0, 30)], [(30595693632307645, 0), (0, 2992617012073), (40818155, 0), (2979, 0)], [(47378826140734,
    0), (0, 1813141856), (0, 121861), (14, 0)], [(57766661162, 0), (1536358, 0), (0, 432)]], 3, 4⟩, ⟨[[(0,
    4767223402455040), (0, 2304204596988140), (34094199447, 0), (0, 986099), (45, 0)], [(0, 25052601983419444), (0,
    374320573420), (39336359, 0), (0, 1497)], [(18260881376294, 0), (0, 627296603), (31998, 0), (0, 1)],
    [(5606854952, 0), (0, 862011), (10, 0)]], 3, 4⟩, 72057594037927936, 5637025948045, 3390427233934,
    ⟨[[(15771410299854, 0), (5678294804, 0), (0, 382105), (4342, 0), (0, 9)], [(4673491941, 0), (12420369, 0), (317,
    0), (0, 24)], [(0, 14683001), (0, 36281), (23, 0)], [(42167, 0), (91, 0)]], 3, 4⟩, 17592186044416, 76649336,
    2725557424405524272411178635539621713976826871159759345670212131123915691799393699050430402995738003623625443714119334281509676,
    lc0⟩)) (.sy (.leaf ⟨348, 16, 275, 206, 16, 1696, ⟨[[(0, 35939240843415552), (0, 1642536687524938), (30843587376,
    0), (158164, 0), (0, 38)], [(31637122829455354, 0), (0, 2740840576750), (18354043, 0), (4246, 0)],
    [(48279642124275, 0), (0, 1165314860), (0, 183339), (16, 0)], [(52408786912, 0), (2952212, 0), (0, 521)]], 3, 4⟩,
    ⟨[[(15597174444722176, 0), (0, 2406092562603941), (38213564014, 0), (0, 1154839), (39, 0)], [(0,
    23732294083190089), (0, 484561501131), (45182058, 0), (0, 1416)], [(19924825063132, 0), (0, 780970688), (32853,
    0), (1, 0)], [(9089833672, 0), (0, 818175), (0, 15)]], 3, 4⟩, 72057594037927936, 3746813279889, 3480541876855,
    ⟨[[(15922893569177, 0), (5930537948, 0), (0, 317866), (3363, 0), (0, 8)], [(4425692971, 0), (11612573, 0), (1454,
    0), (0, 20)], [(0, 15113774), (0, 37765), (15, 0)], [(40753, 0), (82, 0)]], 3, 4⟩, 17592186044416, 140787350,
    2757554064263942410818417436259231983669061807820965700230008882660366568773387641317216651058878403195329451728554930072764900,
    lc0⟩) (.leaf ⟨347, 16, 284, 190, 16, 1704, ⟨[[(12119134636773376, 0), (0, 1664208097664660), (32040756242, 0),
    (86659, 0), (0, 37)], [(31256902943118238, 0), (0, 2808326914419), (25164967, 0), (3863, 0)], [(49209964311824,
    0), (0, 1381010903), (0, 164613), (16, 0)], [(55522508283, 0), (2530165, 0), (0, 495)]], 3, 4⟩,
    ⟨[[(34585732948862976, 0), (0, 2379751392797871), (36708108703, 0), (0, 1076964), (44, 0)], [(0,
    24077381965701205), (0, 442390346308), (43121908, 0), (0, 1591)], [(19633288917369, 0), (0, 751221413), (33396,
    0)], [(8717343674, 0), (0, 830598), (0, 2)]], 3, 4⟩, 72057594037927936, 4604808459350, 3528228030221,
    ⟨[[(15769707441176, 0), (5772911856, 0), (0, 524980), (4086, 0), (0, 7)], [(4449800565, 0), (12049698, 0), (2105,
    0), (0, 22)], [(0, 15036454), (0, 38921), (15, 0)], [(43459, 0), (98, 0)]], 3, 4⟩, 17592186044416, 123026925,
    1909521664484450238432022485152906679867025014210349553347601565687816151760107635772805219708150006434693500958756602297589758,
    lc0⟩)))
theorem c32 : checkR job con0 false ⟨7, 9, 7, 9, 13, 17⟩ 1 34400 t32 495 21 320 13239 251 16000 = true := by decide +kernel

def t33 : CTree :=
  .sx (.sy (.sx (.sy (.leaf ⟨419, 16, 407, 206, 16, 1591, ⟨[[(31819176729645056, 0), (0, 1875367047854115),
    (38366338297, 0), (0, 315860), (0, 14)], [(28845770306077318, 0), (0, 3357660305369), (70723654, 0), (1067, 0)],
    [(42376184022177, 0), (0, 2552646276), (0, 34298), (9, 0)], [(61789370581, 0), (0, 603901), (0, 275)]], 3, 4⟩,
    ⟨[[(0, 3753397017663488), (0, 2150212211867979), (28491699381, 0), (0, 746757), (44, 0)], [(0,
    26974360258558302), (0, 243445271810), (31160929, 0), (0, 1071)], [(16632103298203, 0), (0, 356526660), (22359,
    0), (0, 3)], [(0, 537424261), (0, 892133), (26, 0)]], 3, 4⟩, 72057594037927936, 8056688838105, 3210241716650,
    ⟨[[(15625015645021, 0), (5310655890, 0), (0, 114701), (5539, 0), (0, 12)], [(4989845116, 0), (12936955, 0), (0,
    3510), (0, 27)], [(0, 13667331), (0, 31093), (39, 0)], [(36185, 0), (64, 0)]], 3, 4⟩, 17592186044416, 29660830,
    4281406571203571453030444380365276999390287263897697393502767888592198885284902446441055163941085444027131379819584471003110680,
    lc0⟩) (.leaf ⟨423, 16, 424, 192, 16, 1598, ⟨[[(35287020766142464, 0), (0, 1913826251204942), (39453188105, 0),
    (0, 354520), (0, 11)], [(28313375718542494, 0), (0, 3423200230023), (75034357, 0), (692, 0)], [(42803400758166,
    0), (0, 2688286114), (0, 22404), (8, 0)], [(63985415808, 0), (0, 897699), (0, 248)]], 3, 4⟩, ⟨[[(0,
    6690475994003456), (0, 2131486109344137), (27553065119, 0), (0, 663560), (42, 0)], [(0, 27208033605440887), (0,
    213880668647), (29758735, 0), (0, 958)], [(16530776402879, 0), (0, 337978246), (17445, 0), (0, 4)], [(0,
    982826875), (0, 868544), (29, 0)]], 3, 4⟩, 72057594037927936, 8806744479881, 3255899442736, ⟨[[(15481689092271,
    0), (5121010088, 0), (0, 338616), (6560, 0), (0, 12)], [(4951054765, 0), (13278298, 0), (0, 3159), (0, 29)], [(0,
    13516704), (0, 32116), (40, 0)], [(35981, 0), (66, 0)]], 3, 4⟩, 17592186044416, 27134178,
    4065073708156839798486118662489225933174598019138886247806052827216975731741647688255252357634294777575042639047700289089015986,
    lc0⟩)) (.sy (.leaf ⟨393, 16, 366, 195, 16, 1629, ⟨[[(21569687057735680, 0), (0, 1817339884676301), (37098251833,
    0), (0, 227543), (0, 21)], [(29445584076845489, 0), (0, 3213833731129), (59545087, 0), (1774, 0)],
    [(45486737899301, 0), (0, 2316881925), (0, 67612), (11, 0)], [(61568102750, 0), (244762, 0), (0, 339)]], 3, 4⟩,
    ⟨[[(13395055960862720, 0), (0, 2212748318024197), (30554561849, 0), (0, 815817), (46, 0)], [(0,
    26186139336157870), (0, 284678212665), (33967659, 0), (0, 1336)], [(17136258374016, 0), (0, 477337856), (26195,
    0), (0, 3)], [(2250015039, 0), (0, 869808), (25, 0)]], 3, 4⟩, 72057594037927936, 7324479433771, 3306031641307,
    ⟨[[(15624608577736, 0), (5413831428, 0), (0, 401220), (5420, 0), (0, 10)], [(4831876724, 0), (12955596, 0), (0,
    1177), (0, 27)], [(0, 14157482), (0, 34671), (31, 0)], [(39768, 0), (83, 0)]], 3, 4⟩, 17592186044416, 44113417,
    3419328389313306905769312109522826429907597058691197108743364275780257544592947412485973828626435997003598687100253583322317544,
    lc0⟩) (.leaf ⟨396, 16, 381, 181, 16, 1637, ⟨[[(26887261472002048, 0), (0, 1853237694415443), (38230300629, 0),
    (0, 277714), (0, 19)], [(28988744113927278, 0), (0, 3282039692427), (64405269, 0), (1368, 0)], [(46123918058735,
    0), (0, 2473924932), (0, 53614), (11, 0)], [(64133776140, 0), (0, 78918), (0, 312)]], 3, 4⟩, ⟨[[(0,
    17345289429028864), (0, 2193384116161124), (29539663648, 0), (0, 727465), (46, 0)], [(0, 26449915976414635), (0,
    252809281650), (32148851, 0), (0, 1285)], [(16985892793454, 0), (0, 455422656), (21805, 0), (0, 3)],
    [(1829300699, 0), (0, 844969), (32, 0)]], 3, 4⟩, 72057594037927936, 8112959014292, 3349805390014,
    ⟨[[(15483271781871, 0), (5234652346, 0), (0, 645729), (6264, 0), (0, 9)], [(4804563453, 0), (13298597, 0), (0,
    728), (0, 28)], [(0, 14031351), (0, 35882), (33, 0)], [(39750, 0), (87, 0)]], 3, 4⟩, 17592186044416, 39655186,
    2527753326270869960532016805264606403751374804986658727267778963553380928854966741709218458236544177573386901661194688536254226,
    lc0⟩))) (.sx (.sy (.leaf ⟨429, 16, 443, 178, 16, 1605, ⟨[[(0, 23064461920288768), (0, 1958486480225574),
    (40648520647, 0), (0, 388514), (0, 7)], [(27806517265182994, 0), (0, 3497449603893), (79163193, 0), (297, 0)],
    [(43306622929362, 0), (0, 2826143257), (0, 11598), (7, 0)], [(66319702035, 0), (0, 1179027), (0, 221)]], 3, 4⟩,
    ⟨[[(0, 5110268623392768), (0, 2113521485608198), (26732198451, 0), (0, 585232), (38, 0)], [(0,
    27427640656136914), (0, 185495166305), (28567687, 0), (0, 781)], [(16436706876972, 0), (0, 324837352), (11422,
    0), (0, 4)], [(0, 1417612542), (0, 842458), (30, 0)]], 3, 4⟩, 72057594037927936, 9579321873107, 3307913715321,
    ⟨[[(15344900223180, 0), (4942989196, 0), (0, 609698), (7495, 0), (0, 10)], [(4875876329, 0), (13542697, 0), (0,
    2742), (0, 30)], [(0, 13217537), (0, 32866), (41, 0)], [(35244, 0), (67, 0)]], 3, 4⟩, 17592186044416, 24544415,
    3079357146679422208382071419703254318872289936928768472912942367358663605441304245357693064897575861301165093497436360320593897,
    lc0⟩) (.leaf ⟨433, 16, 462, 164, 16, 1612, ⟨[[(0, 1152917247549440), (0, 2000232467178199), (41773870311, 0), (0,
    413739), (0, 1)], [(27188930939337326, 0), (0, 3564439223461), (82700154, 0), (0, 119)], [(43682287036265, 0),
    (0, 2954281275), (0, 2100), (6, 0)], [(68492151381, 0), (0, 1440955), (0, 191)]], 3, 4⟩, ⟨[[(692674043963392, 0),
    (0, 2096208719573500), (26019033395, 0), (0, 516205), (32, 0)], [(0, 27633648690981236), (0, 158029987043),
    (27695542, 0), (0, 526)], [(16346918964024, 0), (0, 318286752), (4202, 0), (0, 5)], [(0, 1840831243), (0,
    815387), (30, 0)]], 3, 4⟩, 72057594037927936, 10336405690971, 3365689012150, ⟨[[(15204937186664, 0), (4750674525,
    0), (0, 916903), (8325, 0), (0, 7)], [(4840549632, 0), (13926494, 0), (0, 2472), (0, 31)], [(0, 13109886), (0,
    34070), (44, 0)], [(35281, 0), (70, 0)]], 3, 4⟩, 17592186044416, 23237279,
    2523214216586827591648435736191348389775360208279523029452594099369541092594237242471942863583377470355925069935288103761778702,
    lc0⟩)) (.sy (.leaf ⟨400, 16, 397, 166, 16, 1644, ⟨[[(0, 21294986583867392), (0, 1891296857697893), (39372858145,
    0), (0, 323949), (0, 15)], [(28506421995328817, 0), (0, 3351537015324), (68884094, 0), (932, 0)],
    [(46754080790392, 0), (0, 2625967118), (0, 40392), (10, 0)], [(66707575228, 0), (0, 386630), (0, 282)]], 3, 4⟩,
    ⟨[[(20814593856403456, 0), (0, 2173508060129095), (28633867477, 0), (0, 640926), (43, 0)], [(0,
    26682495625352198), (0, 222424627635), (30424149, 0), (0, 1172)], [(16833986982980, 0), (0, 438174721), (16127,
    0), (0, 4)], [(1419827422, 0), (0, 812954), (38, 0)]], 3, 4⟩, 72057594037927936, 8924068410100, 3390900194983,
    ⟨[[(15343116640650, 0), (5071217676, 0), (0, 947328), (7003, 0), (0, 6)], [(4740582610, 0), (13604035, 0), (0,
    169), (0, 29)], [(0, 13779692), (0, 37042), (33, 0)], [(39257, 0), (90, 0)]], 3, 4⟩, 17592186044416, 35588692,
    2779666141860931672201716220037253674786124948855035044163550122788841544540343768397367689476407267453559882860595541704100355,
    lc0⟩) (.leaf ⟨403, 16, 414, 152, 16, 1652, ⟨[[(16072789969690624, 0), (0, 1931323989277619), (40528933353, 0),
    (0, 364177), (0, 10)], [(27990792344567345, 0), (0, 3422325741759), (72915585, 0), (466, 0)], [(47372065502426,
    0), (0, 2773509059), (0, 28159), (9, 0)], [(69291323586, 0), (0, 676077), (0, 250)]], 3, 4⟩, ⟨[[(0,
    1309038217095168), (0, 2155661868415021), (27866906490, 0), (0, 561083), (39, 0)], [(0, 26916977253073122), (0,
    193659170448), (28933568, 0), (0, 986)], [(16698383738317, 0), (0, 427502003), (9070, 0), (0, 5)], [(1026815186,
    0), (0, 775556), (44, 0)]], 3, 4⟩, 72057594037927936, 9744713690205, 3439940611965, ⟨[[(15204120717513, 0),
    (4888639537, 0), (0, 1260308), (7567, 0), (0, 3)], [(4718567753, 0), (14003389, 0), (175, 0), (0, 30)], [(0,
    13702064), (0, 38540), (36, 0)], [(39434, 0), (94, 0)]], 3, 4⟩, 17592186044416, 33350923,
    4162005152120653009919584792636245703803713034696511672497069018732091684868470945021540417832848990873302371214745840906282542,
    lc0⟩)))) (.sy (.sx (.sy (.leaf ⟨370, 16, 329, 185, 16, 1669, ⟨[[(1919067636809728, 0), (0, 1758596524137202),
    (35464375064, 0), (0, 117780), (0, 29)], [(30205778079584610, 0), (0, 3061160344687), (46636133, 0), (2583, 0)],
    [(48197629535729, 0), (0, 1998024157), (0, 105369), (13, 0)], [(60644404686, 0), (1165630, 0), (0, 406)]], 3, 4⟩,
    ⟨[[(0, 16301913004955648), (0, 2280260248070868), (32815702585, 0), (0, 897642), (47, 0)], [(0,
    25337056590292462), (0, 337391775410), (37186926, 0), (0, 1563)], [(18029493555113, 0), (0, 598726436), (29844,
    0), (0, 2)], [(5199418959, 0), (0, 849929), (21, 0)]], 3, 4⟩, 72057594037927936, 6466245198625, 3424269665244,
    ⟨[[(15628315682395, 0), (5522980456, 0), (0, 609632), (5112, 0), (0, 8)], [(4643248553, 0), (12743840, 0), (917,
    0), (0, 25)], [(0, 14505038), (0, 37463), (23, 0)], [(42552, 0), (99, 0)]], 3, 4⟩, 17592186044416, 66459923,
    2078865352354532888135601742515172130874060969263170939155423417170402650303808951305297419739021137761533055003128376914845044,
    lc0⟩) (.leaf ⟨371, 16, 341, 170, 16, 1677, ⟨[[(0, 3389105539571712), (0, 1785941879584083), (36530640533, 0), (0,
    178656), (0, 27)], [(29727259346305122, 0), (0, 3122391695187), (51973085, 0), (2152, 0)], [(48890211931114, 0),
    (0, 2170295924), (0, 89080), (13, 0)], [(63360563213, 0), (807981, 0), (0, 377)]], 3, 4⟩, ⟨[[(0,
    13597694279432192), (0, 2258743156059721), (31686558506, 0), (0, 806302), (48, 0)], [(0, 25619470316416268), (0,
    302687852648), (34984952, 0), (0, 1581)], [(17821199165957, 0), (0, 573158913), (26448, 0), (0, 3)],
    [(4801794565, 0), (0, 827725), (31, 0)]], 3, 4⟩, 72057594037927936, 7272127245536, 3461370336969,
    ⟨[[(15485170401055, 0), (5361722254, 0), (0, 877089), (5781, 0), (0, 6)], [(4627466514, 0), (13118816, 0), (1535,
    0), (0, 27)], [(0, 14439929), (0, 39065), (23, 0)], [(43130, 0), (107, 0)]], 3, 4⟩, 17592186044416, 59631261,
    2286168507412035155619018696639710615712279013440020101969659218240550507615436566815635641479363662259105893831083079264120573,
    lc0⟩)) (.sy (.leaf ⟨348, 16, 294, 175, 16, 1712, ⟨[[(0, 35571174831575040), (0, 1689456695781585), (33247072462,
    0), (14848, 0), (0, 36)], [(30905131590356413, 0), (0, 2878169559575), (31666213, 0), (3459, 0)],
    [(50184139250881, 0), (0, 1588532377), (0, 146374), (15, 0)], [(58666892839, 0), (2126573, 0), (0, 469)]], 3, 4⟩,
    ⟨[[(0, 11195112913606656), (0, 2354691441167691), (35318683769, 0), (0, 991030), (47, 0)], [(0,
    24402832678556157), (0, 402213303649), (40814276, 0), (0, 1728)], [(19354992616464, 0), (0, 721370784), (32729,
    0), (0, 1)], [(8339982711, 0), (0, 829764), (11, 0)]], 3, 4⟩, 72057594037927936, 5463749396843, 3566363312357,
    ⟨[[(15630333765099, 0), (5631821525, 0), (0, 754433), (4665, 0), (0, 5)], [(4431854921, 0), (12361445, 0), (2780,
    0), (0, 24)], [(0, 14836163), (0, 39917), (14, 0)], [(44603, 0), (110, 0)]], 3, 4⟩, 17592186044416, 105661332,
    1234299353128838067453626348536285666926293075696682381357918912231291271283217603473033258203070558367732324773130717754644489,
    lc0⟩) (.leaf ⟨348, 16, 305, 159, 16, 1720, ⟨[[(30169533184905216, 0), (0, 1718045605677861), (34459098790, 0),
    (0, 56803), (0, 34)], [(30571261027939682, 0), (0, 2950302204423), (37833234, 0), (3029, 0)], [(51198222443573,
    0), (0, 1788590141), (0, 128548), (15, 0)], [(61850575596, 0), (1740247, 0), (0, 442)]], 3, 4⟩,
    ⟨[[(21840045076305920, 0), (0, 2330797741577287), (34056203158, 0), (0, 899578), (49, 0)], [(0,
    24709608570364760), (0, 364260915630), (38320075, 0), (0, 1821)], [(19089752970715, 0), (0, 692677439), (30770,
    0), (0, 2)], [(7964464548, 0), (0, 815472), (25, 0)]], 3, 4⟩, 72057594037927936, 6320790989879, 3600110643827,
    ⟨[[(15480468799684, 0), (5475185161, 0), (0, 1034428), (5170, 0), (0, 3)], [(4436856142, 0), (12778197, 0),
    (3501, 0), (0, 25)], [(0, 14802535), (0, 41692), (14, 0)], [(46016, 0), (124, 0)]], 3, 4⟩, 17592186044416,
    92638021,
    2254247732583722183960408089198238094182785671612802462460149360285623804618445007907125582762410157115465220377812115051078526,
    lc0⟩))) (.sx (.sy (.leaf ⟨373, 16, 355, 155, 16, 1685, ⟨[[(26121722732498944, 0), (0, 1821236557879895),
    (37710496444, 0), (0, 237578), (0, 24)], [(29329841623173504, 0), (0, 3194704073816), (57070594, 0), (1696, 0)],
    [(49741490125121, 0), (0, 2342761503), (0, 73636), (12, 0)], [(66289121497, 0), (470176, 0), (0, 347)]], 3, 4⟩,
    ⟨[[(0, 5736373766455296), (0, 2238141536558683), (30689799618, 0), (0, 714714), (47, 0)], [(0,
    25885701929912344), (0, 270032843486), (32785992, 0), (0, 1543)], [(17623430539573, 0), (0, 551551216), (21686,
    0), (0, 4)], [(4415979140, 0), (0, 795014), (42, 0)]], 3, 4⟩, 72057594037927936, 8100244821797, 3499688308711,
    ⟨[[(15342040913496, 0), (5196377643, 0), (0, 1177718), (6308, 0), (0, 3)], [(4604968589, 0), (13496665, 0),
    (2109, 0), (0, 28)], [(0, 14335750), (0, 40712), (25, 0)], [(43356, 0), (114, 0)]], 3, 4⟩, 17592186044416,
    53624078,
    3453097183340902130427055990572992008318486060050948776086707848583228803604285989266945286534512359894972723554895359377715039,
    lc0⟩) (.leaf ⟨376, 16, 370, 140, 16, 1693, ⟨[[(3701369874399232, 0), (0, 1858928215913556), (38895980722, 0), (0,
    292515), (0, 20)], [(28912821004446385, 0), (0, 3268777553432), (61719005, 0), (1203, 0)], [(50599690863240, 0),
    (0, 2509641732), (0, 58828), (11, 0)], [(69248889805, 0), (150543, 0), (0, 315)]], 3, 4⟩, ⟨[[(6929228720570368,
    0), (0, 2218328317410501), (29823762612, 0), (0, 626562), (44, 0)], [(0, 26136693205572120), (0, 239389054268),
    (30684186, 0), (0, 1436)], [(17433897796382, 0), (0, 535358684), (15433, 0), (0, 5)], [(4047302189, 0), (0,
    751924), (52, 0)]], 3, 4⟩, 72057594037927936, 8954174979848, 3538552337924, ⟨[[(15204413150691, 0), (5043370872,
    0), (0, 1500329), (6629, 0), (1, 0)], [(4556665531, 0), (13828187, 0), (2654, 0), (0, 28)], [(0, 14127461), (0,
    42249), (26, 0)], [(43088, 0), (119, 0)]], 3, 4⟩, 17592186044416, 48397085,
    4130738501629149467264976293263919899924900280617360315383220338039672972294532616676356673309783851137664598098082442310683664,
    lc0⟩)) (.sy (.leaf ⟨350, 16, 317, 144, 16, 1728, ⟨[[(0, 13536168384880640), (0, 1749745046103222), (35673517225,
    0), (0, 127494), (0, 32)], [(30245031227618164, 0), (0, 3024667249113), (43624955, 0), (2567, 0)],
    [(52247638251624, 0), (0, 1981656900), (0, 111096), (14, 0)], [(65080205372, 0), (1370965, 0), (0, 413)]], 3, 4⟩,
    ⟨[[(0, 10896976979673088), (0, 2307945716421614), (32927479518, 0), (0, 805557), (49, 0)], [(0,
    24998777740117449), (0, 328697645321), (35711835, 0), (0, 1861)], [(18836727467796, 0), (0, 666498433), (27417,
    0), (0, 3)], [(7597655374, 0), (0, 787437), (39, 0)]], 3, 4⟩, 72057594037927936, 7182915415456, 3627311467272,
    ⟨[[(15344891708974, 0), (5338784201, 0), (0, 1318753), (5468, 0)], [(4400404354, 0), (13070755, 0), (4169, 0),
    (0, 25)], [(0, 14587740), (0, 43086), (14, 0)], [(46062, 0), (133, 0)]], 3, 4⟩, 17592186044416, 80386392,
    3196440323551884701364728512634836562425510305902834094234333288296248818130312352435377968381453258715231653703245906656196088,
    lc0⟩) (.leaf ⟨351, 16, 329, 128, 16, 1736, ⟨[[(0, 33711204068663296), (0, 1778925895935830), (36776069162, 0),
    (0, 195425), (0, 29)], [(29825820186831043, 0), (0, 3091845803271), (48835199, 0), (2062, 0)], [(53165810389604,
    0), (0, 2161457814), (0, 93736), (14, 0)], [(68154072369, 0), (1016428, 0), (0, 381)]], 3, 4⟩,
    ⟨[[(34296878935689216, 0), (0, 2286005592255693), (31934587112, 0), (0, 712324), (47, 0)], [(0,
    25271477991368805), (0, 295608918686), (33075629, 0), (0, 1839)], [(18594357472031, 0), (0, 644306984), (22552,
    0), (0, 4)], [(7246618729, 0), (0, 745280), (53, 0)]], 3, 4⟩, 72057594037927936, 8023566534344, 3656937550349,
    ⟨[[(15204535979374, 0), (5204261281, 0), (0, 1636175), (5595, 0), (3, 0)], [(4366283054, 0), (13426690, 0),
    (4850, 0), (0, 25)], [(0, 14442358), (0, 45083), (15, 0)], [(46286, 0), (144, 0)]], 3, 4⟩, 17592186044416,
    72418507,
    4352257967109363623173812431167018830552896263557890593489003911533336325277844241898208090339939402287640625491150660542433462,
    lc0⟩))))
theorem c33 : checkR job con0 false ⟨7, 9, 7, 9, 13, 17⟩ 1 34400 t33 237 21 160 13741 251 16000 = true := by decide +kernel

def t34 : CTree :=
  .sy (.sx (.out ⟨188, 16, 170, 910, 16, 766, ⟨[[(0, 11575564099076096), (0, 2232643862926482), (74797735100, 0)],
    [(23550139119070196, 0), (0, 3474466570403), (0, 34773702)], [(34256393148248, 0), (0, 346357549), (0, 751230)]],
    2, 2⟩, ⟨[[(24228498898468864, 0), (0, 3149531952658733), (108794532761, 0)], [(0, 13632776829273161), (0,
    794697540068), (127350273, 0)], [(13869250079265, 0), (0, 1164057251), (61924, 0)]], 2, 2⟩, 72057594037927936,
    370570956761663, 185126009510028, ⟨[], 0, 0⟩, 0, 0, 0, lc0⟩ 0 340 36) (.out ⟨185, 16, 155, 916, 16, 777, ⟨[[(0,
    30626296938737664), (0, 2168757074010193), (65532598191, 0)], [(24248371676152332, 0), (0, 3157905354063), (0,
    98344106)], [(34865768514648, 0), (601182146, 0), (0, 908477)]], 2, 2⟩, ⟨[[(0, 21478999599742976), (0,
    3230760783155735), (115881640946, 0)], [(0, 12600834726918248), (0, 909586294458), (133606122, 0)],
    [(15201691756171, 0), (0, 1279526004), (41390, 0)]], 2, 2⟩, 72057594037927936, 369903220823173, 206989742366534,
    ⟨[], 0, 0⟩, 0, 0, 0, lc0⟩ 0 45 9)) (.sx (.sy (.sx (.leaf ⟨495, 16, 376, 258, 16, 2228, ⟨[[(0, 1515619933052928),
    (0, 2365284685526141), (42690134516, 0), (422564, 0), (0, 63)], [(23815630457515313, 0), (0, 1917200856490),
    (3530079, 0), (3667, 0)], [(18226843635490, 0), (0, 285637503), (0, 80957), (7, 0)], [(9273525779, 0), (692479,
    0), (0, 105)]], 3, 4⟩, ⟨[[(0, 25988740417507328), (0, 3181936470645677), (52112114537, 0), (0, 1574458), (47,
    0)], [(0, 14744590174439345), (0, 352159851292), (30999042, 0), (0, 886)], [(6860144906320, 0), (0, 281003786),
    (10121, 0)], [(1856326789, 0), (0, 124882), (0, 5)]], 3, 4⟩, 72057594037927936, 284160585092, 300255521469,
    ⟨[[(15923646669908, 0), (4637992137, 0), (0, 224929), (1493, 0), (0, 2)], [(2868595252, 0), (5877278, 0), (995,
    0), (0, 6)], [(0, 7088507), (0, 14244), (3, 0)], [(12329, 0), (18, 0)]], 3, 4⟩, 17592186044416, 14110877,
    3888106050831813992841335088049266676947500772171012018460498565737967725871762774730822617874149186054717978115305839485464436,
    lc0⟩) (.out ⟨372, 16, 352, 1831, 16, 1572, ⟨[[(0, 6445057058119680), (0, 2290113071158437), (39962886839, 0)],
    [(23775044121378767, 0), (0, 1813630416083), (0, 3598437)], [(18167446723313, 0), (0, 177543395), (0, 88791)]],
    2, 2⟩, ⟨[[(0, 18113450554785792), (0, 3158199365058930), (52779247544, 0)], [(0, 13985239387105204), (0,
    371817504785), (31433309, 0)], [(7022586779185, 0), (0, 292682664), (9320, 0)]], 2, 2⟩, 72057594037927936,
    95052740567512, 45393440439415, ⟨[], 0, 0⟩, 0, 0, 0, lc0⟩ 0 352 20)) (.leaf ⟨329, 16, 255, 182, 16, 1751,
    ⟨[[(15124184837033984, 0), (0, 1602173652295460), (29422353670, 0), (250620, 0), (0, 44)], [(32045861056014202,
    0), (0, 2611551813156), (7638039, 0), (4808, 0)], [(50653383405387, 0), (0, 875768383), (0, 210635), (18, 0)],
    [(52715627131, 0), (3551842, 0), (0, 555)]], 3, 4⟩, ⟨[[(0, 13207241950562304), (0, 2465906783293557),
    (39641768869, 0), (0, 1174877), (41, 0)], [(0, 22993966063222738), (0, 523845281834), (47155301, 0), (0, 1596)],
    [(21497706234551, 0), (0, 875606115), (33041, 0), (1, 0)], [(12045815780, 0), (0, 790109), (0, 19)]], 3, 4⟩,
    72057594037927936, 3510949527519, 3666482777362, ⟨[[(15773423434586, 0), (5845857682, 0), (0, 594891), (3684, 0),
    (0, 5)], [(4202978045, 0), (11447550, 0), (3476, 0), (0, 20)], [(0, 15401331), (0, 41416), (7, 0)], [(42817, 0),
    (93, 0)]], 3, 4⟩, 17592186044416, 198647578,
    2338102396977906983369316608470640220965749560660259204244497452641189840173795321682141850086238612247648767863013329730636593,
    lc0⟩)) (.sy (.out ⟨245, 16, 219, 1454, 16, 1257, ⟨[[(0, 2750809983428608), (0, 1496210582883362), (24485476062,
    0)], [(32563889072641518, 0), (0, 2271958075167), (0, 20085269)], [(49408475291041, 0), (0, 24229282), (0,
    275807)]], 2, 2⟩, ⟨[[(31580841916727296, 0), (0, 2545036317631497), (43814953041, 0)], [(0, 20908839159974626),
    (0, 655744372297), (52013602, 0)], [(23824589329205, 0), (0, 1002995648), (25308, 0)]], 2, 2⟩, 72057594037927936,
    442173972836725, 170771518565853, ⟨[], 0, 0⟩, 0, 0, 0, lc0⟩ 0 88 10) (.sx (.out ⟨361, 16, 344, 1831, 16, 1598,
    ⟨[[(33786842915332096, 0), (0, 2273350324064065), (39709627775, 0)], [(23874760686793740, 0), (0, 1790868889267),
    (0, 4972282)], [(18791080447975, 0), (0, 164533623), (0, 90144)]], 2, 2⟩, ⟨[[(0, 26801134020886528), (0,
    3172838955749002), (52587924444, 0)], [(0, 13799756220747319), (0, 371359103938), (31409050, 0)],
    [(7265505259308, 0), (0, 302707012), (9761, 0)]], 2, 2⟩, 72057594037927936, 98533240275805, 47083229107797, ⟨[],
    0, 0⟩, 0, 0, 0, lc0⟩ 0 1376 68) (.out ⟨358, 16, 328, 1838, 16, 1611, ⟨[[(26848039324135424, 0), (0,
    2239549669698097), (37504054631, 0)], [(24315870704633234, 0), (0, 1716533135863), (0, 12527754)],
    [(19027716623479, 0), (0, 53632441), (0, 99661)]], 2, 2⟩, ⟨[[(0, 29296923663302656), (0, 3214921454307330),
    (54362569918, 0)], [(0, 13284061876609393), (0, 400627925142), (32459220, 0)], [(7632008707266, 0), (0,
    319632268), (9043, 0)]], 2, 2⟩, 72057594037927936, 98455380613622, 50348938199399, ⟨[], 0, 0⟩, 0, 0, 0, lc0⟩ 0 94
    9))))
theorem c34 : checkR job con0 false ⟨7, 9, 7, 9, 13, 17⟩ 1 34400 t34 537 21 320 13239 251 16000 = true := by decide +kernel

def t35 : CTree :=
  .sy (.sx (.sy (.leaf ⟨329, 16, 264, 166, 16, 1759, ⟨[[(27402086368530432, 0), (0, 1627964936541559), (30783776378,
    0), (170201, 0), (0, 43)], [(31822226493014223, 0), (0, 2692164084626), (14978620, 0), (4413, 0)],
    [(51933327139339, 0), (0, 1112032836), (0, 191252), (17, 0)], [(56281079229, 0), (3122558, 0), (0, 531)]], 3, 4⟩,
    ⟨[[(0, 34080402865289216), (0, 2438061901505130), (38109485945, 0), (0, 1093862), (45, 0)], [(0,
    23351465205613029), (0, 479944876347), (44796526, 0), (0, 1808)], [(21162837760470, 0), (0, 845674708), (34191,
    0)], [(11698913474, 0), (0, 805031), (0, 3)]], 3, 4⟩, 72057594037927936, 4405459950517, 3712320384286,
    ⟨[[(15628379425368, 0), (5710617774, 0), (0, 829711), (4132, 0), (0, 3)], [(4210174458, 0), (11813163, 0), (4223,
    0), (0, 21)], [(0, 15151642), (0, 42037), (5, 0)], [(45255, 0), (112, 0)]], 3, 4⟩, 17592186044416, 168326640,
    1121999356307453189767701802720876595581903436957550028148183948124682902159686038836078773109213525325876866252305413087409725,
    lc0⟩) (.leaf ⟨328, 16, 272, 149, 16, 1767, ⟨[[(0, 15308679599140864), (0, 1645343424541905), (31914475022, 0),
    (88277, 0), (0, 42)], [(31398562258143482, 0), (0, 2754960276831), (21840778, 0), (3964, 0)], [(52884475283452,
    0), (0, 1330336069), (0, 170946), (17, 0)], [(59467572596, 0), (2690678, 0), (0, 502)]], 3, 4⟩,
    ⟨[[(25183200874827776, 0), (0, 2411521884638383), (36697667058, 0), (0, 1005373), (48, 0)], [(0,
    23688591791617115), (0, 438364530169), (42136561, 0), (0, 1979)], [(20841286090643, 0), (0, 815074591), (34050,
    0), (0, 1)], [(11346595880, 0), (0, 804293), (12, 0)]], 3, 4⟩, 72057594037927936, 5260690346338, 3748415616712,
    ⟨[[(15482858288933, 0), (5589552649, 0), (0, 1099636), (4434, 0), (0, 1)], [(4198011985, 0), (12158236, 0),
    (5092, 0), (0, 22)], [(0, 14995407), (0, 43380), (4, 0)], [(47142, 0), (130, 0)]], 3, 4⟩, 17592186044416,
    147352082,
    1860924967196909030458881700029758400636874743507535780763470175349722772931193745586639656423689946195710220599342903608561052,
    lc0⟩)) (.sy (.leaf ⟨312, 16, 236, 157, 16, 1810, ⟨[[(15555964610723840, 0), (0, 1557904235327760), (27742518735,
    0), (347078, 0), (0, 50)], [(32618082966092940, 0), (0, 2473147506030), (0, 3669211), (5385, 0)],
    [(52938571521807, 0), (0, 562000392), (0, 237493), (19, 0)], [(52959865504, 0), (4106995, 0), (0, 583)]], 3, 4⟩,
    ⟨[[(0, 9571649353066496), (0, 2531087954197864), (41211875113, 0), (0, 1202481), (41, 0)], [(0,
    22129864380479613), (0, 571241888203), (48998244, 0), (0, 1782)], [(23497647755963, 0), (0, 970986851), (33518,
    0), (2, 0)], [(15284416787, 0), (0, 769286), (0, 23)]], 3, 4⟩, 72057594037927936, 3238441790798, 3839275773938,
    ⟨[[(15627157513706, 0), (5785317379, 0), (0, 846992), (3534, 0), (0, 1)], [(3932714158, 0), (11002133, 0), (5355,
    0), (0, 19)], [(0, 15461845), (0, 44533), (0, 3)], [(43699, 0), (97, 0)]], 3, 4⟩, 17592186044416, 275687816,
    1276213139871154703011719873364260071453216631173259296830872872674699453015210473284548654892395808089067744042603060041053225,
    lc0⟩) (.sx (.leaf ⟨467, 16, 371, 183, 16, 2322, ⟨[[(0, 11298431212613632), (0, 2364242480841095), (44215088815,
    0), (314770, 0), (0, 70)], [(23808288969208670, 0), (0, 1929873045623), (6471048, 0), (3487, 0)],
    [(19997150081228, 0), (0, 350901519), (0, 75907), (7, 0)], [(10633451677, 0), (632551, 0), (0, 101)]], 3, 4⟩,
    ⟨[[(2508549732372480, 0), (0, 3188201999124921), (50013072294, 0), (0, 1403456), (59, 0)], [(0,
    14678037624519942), (0, 323320098728), (29111059, 0), (0, 1305)], [(7236231695784, 0), (0, 292313781), (11371,
    0)], [(2257041147, 0), (0, 127477)]], 3, 4⟩, 72057594037927936, 426736758385, 317887704782, ⟨[[(15484103289369,
    0), (4396170548, 0), (0, 664109), (1823, 0)], [(2703370479, 0), (6069095, 0), (2429, 0), (0, 6)], [(0, 6882101),
    (0, 15737), (0, 1)], [(14371, 0), (30, 0)]], 3, 4⟩, 17592186044416, 14678777,
    1751805721925121962425715195908175714616525836140507754195302426819055536457207462903561951471371595327209435300843711285413703,
    lc0⟩) (.out ⟨346, 16, 346, 1825, 16, 1639, ⟨[[(0, 22659144409055232), (0, 2281051099007881), (41357066379, 0)],
    [(23823500865189199, 0), (0, 1823986085142), (0, 427523)], [(19916661324817, 0), (0, 245396769), (0, 83290)]], 2,
    2⟩, ⟨[[(0, 20896999093354496), (0, 3164518697116869), (50650928187, 0)], [(0, 13891902336212230), (0,
    344430035621), (29707876, 0)], [(7448222879603, 0), (0, 304516826), (11118, 0)]], 2, 2⟩, 72057594037927936,
    105899464172137, 47093023585160, ⟨[], 0, 0⟩, 0, 0, 0, lc0⟩ 2 1 29960196543267)))) (.sx (.sy (.leaf ⟨328, 16, 282,
    133, 16, 1775, ⟨[[(5076755488751616, 0), (0, 1672566313438550), (33161284919, 0), (7119, 0), (0, 40)],
    [(31125293047406671, 0), (0, 2830556131795), (28379076, 0), (3507, 0)], [(54093886875441, 0), (0, 1544261785),
    (0, 151749), (16, 0)], [(62926877959, 0), (2289724, 0), (0, 475)]], 3, 4⟩, ⟨[[(19928325948921856, 0), (0,
    2386167680100265), (35416215515, 0), (0, 912112), (49, 0)], [(0, 24006484838099148), (0, 399387178552),
    (39241961, 0), (0, 2101)], [(20533132791612, 0), (0, 785144723), (32532, 0), (0, 2)], [(10996866206, 0), (0,
    787346), (29, 0)]], 3, 4⟩, 72057594037927936, 6139617475064, 3774224549117, ⟨[[(15341248329006, 0), (5459666177,
    0), (0, 1379151), (4592, 0), (2, 0)], [(4194944902, 0), (12521130, 0), (5848, 0), (0, 22)], [(0, 14882089), (0,
    45046), (4, 0)], [(48473, 0), (147, 0)]], 3, 4⟩, 17592186044416, 127628726,
    3626110273611770020661900865150098559494974684488205216166242016891602475863872257395384618693140109745894609276035453940867961,
    lc0⟩) (.sx (.sy (.leaf ⟨680, 16, 609, 249, 16, 3559, ⟨[[(34192288279199744, 0), (0, 1747424131777894),
    (17700178237, 0), (0, 22177), (0, 5)], [(31272143718425850, 0), (0, 1496834187247), (9380316, 0), (369, 0)],
    [(27807489759693, 0), (0, 461245071), (0, 16225), (1, 0)], [(16841931388, 0), (226195, 0), (0, 28)]], 3, 4⟩,
    ⟨[[(35076603108962304, 0), (0, 2362040076053521), (17065315946, 0), (0, 204455), (6, 0)], [(0,
    24635332989224887), (0, 177950620415), (9077104, 0), (0, 263)], [(9983991644540, 0), (0, 184820485), (3631, 0)],
    [(2481752997, 0), (0, 95706), (3, 0)]], 3, 4⟩, 72057594037927936, 869417583432, 470376660439, ⟨[[(15236796655993,
    0), (2650293320, 0), (0, 393794), (596, 0)], [(2079713445, 0), (3159171, 0), (725, 0), (0, 1)], [(0, 3546749),
    (0, 5523)], [(5728, 0), (9, 0)]], 3, 4⟩, 17592186044416, 1614200,
    2979236753332983422987376518327560640257927674859200974290882877290398733763574400746865111493805103703411993838600979634047512,
    lc0⟩) (.out ⟨486, 16, 608, 2747, 16, 2498, ⟨[[(5851459826630656, 0), (0, 1726832067651659), (17630843403, 0)],
    [(30473022214622690, 0), (0, 1484705059944), (9890735, 0)], [(27526706076501, 0), (0, 476011556), (0, 14735)]],
    2, 2⟩, ⟨[[(1954456492081152, 0), (0, 2304337370515782), (16475538170, 0)], [(0, 24293119457537600), (0,
    166100638995), (8530640, 0)], [(9720333882196, 0), (0, 178161358), (3296, 0)]], 2, 2⟩, 72057594037927936,
    159420944674171, 25924979600440, ⟨[], 0, 0⟩, 0, 0, 0, lc0⟩ 2 1 18968958831494)) (.out ⟨342, 16, 407, 1800, 16,
    1640, ⟨[[(0, 5495246940471296), (0, 2408611494499815), (48272404529, 0)], [(22263885752888018, 0), (0,
    2045320293583), (21920493, 0)], [(19959782070187, 0), (0, 585369452), (0, 51173)]], 2, 2⟩, ⟨[[(0,
    25186230363701248), (0, 3046442999240822), (44624602099, 0)], [(0, 15373933184238924), (0, 244264973774),
    (23711156, 0)], [(6627310347230, 0), (0, 251438017), (9956, 0)]], 2, 2⟩, 72057594037927936, 113582585449988,
    35528723502825, ⟨[], 0, 0⟩, 0, 0, 0, lc0⟩ 2 1 31011864609734))) (.sy (.out ⟨230, 16, 246, 1410, 16, 1279, ⟨[[(0,
    5783363339546624), (0, 1564962250924340), (29701562041, 0)], [(31413470960376966, 0), (0, 2569866600207),
    (11260442, 0)], [(54363461987528, 0), (0, 1025340394), (0, 191185)]], 2, 2⟩, ⟨[[(6027166377852928, 0), (0,
    2425516388717376), (37449879527, 0)], [(0, 22413096108610042), (0, 473595929748), (42469258, 0)],
    [(22316012586241, 0), (0, 890805360), (35453, 0)]], 2, 2⟩, 72057594037927936, 567480994649268, 155392229333523,
    ⟨[], 0, 0⟩, 0, 0, 0, lc0⟩ 2 1 39398008282452) (.out ⟨226, 16, 254, 1400, 16, 1285, ⟨[[(17813356137314304, 0), (0,
    1584963000267574), (30847353099, 0)], [(31106506091810408, 0), (0, 2638485835322), (18005159, 0)],
    [(55552462191526, 0), (0, 1243260098), (0, 170520)]], 2, 2⟩, ⟨[[(0, 10705529724862464), (0, 2399862768071030),
    (36167674794, 0)], [(0, 22746631071322002), (0, 434682402164), (39239503, 0)], [(21980348187098, 0), (0,
    859560360), (34708, 0)]], 2, 2⟩, 72057594037927936, 597642605906197, 151053303031918, ⟨[], 0, 0⟩, 0, 0, 0, lc0⟩ 2
    1 56580415011822)))
theorem c35 : checkR job con0 false ⟨7, 9, 7, 9, 13, 17⟩ 1 34400 t35 537 21 320 13741 251 16000 = true := by decide +kernel

end PyX.Kron.T3b
