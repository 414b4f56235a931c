import Verif.Lemmas.V3bJob

/-!
# The volume from pressure and enthalpy in subregion 3b, part A of the certificate
-/

namespace PyX.Kron.V3b

set_option Elab.async false

def t0 : CTree :=
  .sy (.out ⟨43, 16, 106, 363, 16, 438, ⟨[[(0, 33709016890445824), (0, 1019197345424996), (113109248231, 0)],
    [(32214837102391308, 0), (0, 17703322677576), (2315605513, 0)], [(0, 105576197197871), (0, 29259584117),
    (13727554, 0)]], 2, 2⟩, ⟨[[(14028135010762752, 0), (0, 4192044653336313), (671479201239, 0)]], 2, 2⟩,
    72057594037927936, 9622185662381224, 1772074290812951, ⟨[], 0, 0⟩, 0, 0, 0, lc0⟩ 1 1 4026963214989) (.sy (.out
    ⟨54, 16, 153, 786, 16, 1005, ⟨[[(491022322021888, 0), (0, 679267266153703), (34385160015, 0)],
    [(37328444524906526, 0), (0, 11609265241603), (720118159, 0)], [(0, 165569911252603), (0, 14032228299), (4404809,
    0)]], 2, 2⟩, ⟨[[(0, 2995296861609984), (0, 4277836212474487), (323123816940, 0)]], 2, 2⟩, 72057594037927936,
    13122066338876711, 393412228350701, ⟨[], 0, 0⟩, 0, 0, 0, lc0⟩ 1 1 2338112355160) (.out ⟨56, 16, 173, 817, 16,
    1084, ⟨[[(0, 10986708470679040), (0, 730774804489884), (35560702670, 0)], [(35817419107798455, 0), (0,
    12345398029731), (743392204, 0)], [(0, 193970032088629), (0, 11153850244), (4382450, 0)]], 2, 2⟩, ⟨[[(0,
    16591841798545408), (0, 4283128046516889), (311704246162, 0)]], 2, 2⟩, 72057594037927936, 15256153247939377,
    365386025403846, ⟨[], 0, 0⟩, 0, 0, 0, lc0⟩ 1 1 1499577290475))
theorem c0 : checkR job con0 true ⟨7, 9, 7, 9, 13, 17⟩ 1 28336 t0 69 21 160 3247 251 4000 = true := by decide +kernel

def t1 : CTree :=
  .sy (.out ⟨73, 16, 124, 725, 16, 857, ⟨[[(25870179002563584, 0), (0, 1095720083845887), (72447560813, 0)],
    [(34856755901222339, 0), (0, 12287712600889), (1044501317, 0)], [(0, 17099612769515), (0, 20444398139), (3522001,
    0)]], 2, 2⟩, ⟨[[(15344127236767744, 0), (0, 4271115635858972), (349089957978, 0)]], 2, 2⟩, 72057594037927936,
    6924718015081171, 460634773635946, ⟨[], 0, 0⟩, 0, 0, 0, lc0⟩ 1 1 3125440719851) (.sy (.out ⟨91, 16, 167, 1511,
    16, 1841, ⟨[[(19763510074554368, 0), (0, 702601396949893), (22452004389, 0)], [(40909166721045163, 0), (0,
    7759938279847), (331463324, 0)], [(0, 32713601238691), (0, 11945088827), (1224995, 0)]], 2, 2⟩,
    ⟨[[(27901290059317248, 0), (0, 4317762592925839), (171183546482, 0)]], 2, 2⟩, 72057594037927936,
    8849955674805837, 108400143696887, ⟨[], 0, 0⟩, 0, 0, 0, lc0⟩ 1 1 2222234665661) (.out ⟨94, 16, 181, 1542, 16,
    1916, ⟨[[(0, 21292969127027712), (0, 737708601905717), (23083234205, 0)], [(40205917856980078, 0), (0,
    8057166734877), (344552312, 0)], [(0, 41620206474412), (0, 11611936585), (1327469, 0)]], 2, 2⟩,
    ⟨[[(19047159599349760, 0), (0, 4319994447661194), (167929813320, 0)]], 2, 2⟩, 72057594037927936,
    9428896749519553, 104244181863978, ⟨[], 0, 0⟩, 0, 0, 0, lc0⟩ 1 1 1696943037628))
theorem c1 : checkR job con0 true ⟨7, 9, 7, 9, 13, 17⟩ 1 28336 t1 111 21 160 6243 251 8000 = true := by decide +kernel

def t2 : CTree :=
  .sx (.out ⟨119, 16, 266, 786, 16, 1005, ⟨[[(11146134595969024, 0), (0, 1839706753276388), (106866176192, 0)],
    [(26224259196908495, 0), (0, 10824513827424), (868667654, 0)], [(0, 29479059370322), (0, 6219048847), (1916518,
    0)]], 2, 2⟩, ⟨[[(0, 2995296861609984), (0, 4277836212474487), (323123816940, 0)]], 2, 2⟩, 72057594037927936,
    1958935787808110, 393412228350701, ⟨[], 0, 0⟩, 0, 0, 0, lc0⟩ 1 1 1393839909339) (.sy (.out ⟨172, 16, 331, 1573,
    16, 1992, ⟨[[(0, 24418192105277440), (0, 1458130628339614), (46741425918, 0)], [(32516800606568795, 0), (0,
    7270091378145), (326808069, 0)], [(0, 8394280444404), (0, 5452107443), (593888, 0)]], 2, 2⟩, ⟨[[(0,
    18088101831163904), (0, 4321062543174190), (164756264276, 0)]], 2, 2⟩, 72057594037927936, 1967261154029359,
    100297665590712, ⟨[], 0, 0⟩, 0, 0, 0, lc0⟩ 1 1 1000323005319) (.sy (.out ⟨217, 16, 437, 3206, 16, 4119, ⟨[[(0,
    21934382820712448), (0, 939717783660951), (14890424470, 0)], [(39376821198537265, 0), (0, 4639175680407),
    (104578967, 0)], [(0, 13681502456310), (0, 3304231641), (195376, 0)]], 2, 2⟩, ⟨[[(4356928220954624, 0), (0,
    4341928757754016), (81604464784, 0)]], 2, 2⟩, 72057594037927936, 2484200982902195, 24368001460549, ⟨[], 0, 0⟩, 0,
    0, 0, lc0⟩ 1 1 743288478903) (.out ⟨220, 16, 458, 3236, 16, 4197, ⟨[[(21744461371529216, 0), (0,
    969386435294067), (15252171610, 0)], [(38855722721147916, 0), (0, 4753198437715), (107362680, 0)], [(0,
    16025856768378), (0, 3257781758), (204069, 0)]], 2, 2⟩, ⟨[[(17224336879386624, 0), (0, 4341834676564713),
    (80839983551, 0)]], 2, 2⟩, 72057594037927936, 2562366977055919, 23913033665662, ⟨[], 0, 0⟩, 0, 0, 0, lc0⟩ 1 1
    603934873916)))
theorem c2 : checkR job con0 true ⟨7, 9, 7, 9, 13, 17⟩ 1 28336 t2 111 21 160 13239 251 16000 = true := by decide +kernel

def t3 : CTree :=
  .sx (.sy (.out ⟨164, 16, 398, 1633, 16, 2148, ⟨[[(15047119483418624, 0), (0, 1318182637282282), (37304939451, 0)],
    [(33320086404431860, 0), (0, 7625062627800), (303425042, 0)], [(0, 47210738953294), (0, 3596516787), (687520,
    0)]], 2, 2⟩, ⟨[[(27963712900022272, 0), (0, 4322206851633665), (158723765254, 0)]], 2, 2⟩, 72057594037927936,
    2670671924772244, 93029604884644, ⟨[], 0, 0⟩, 0, 0, 0, lc0⟩ 1 1 862299640451) (.sy (.out ⟨204, 16, 516, 3327, 16,
    4436, ⟨[[(4211607963299840, 0), (0, 836587624418254), (11700362231, 0)], [(39532048854759211, 0), (0,
    4797280967026), (95029849, 0)], [(0, 62837629183322), (0, 1997779260), (220714, 0)]], 2, 2⟩,
    ⟨[[(16753777557143552, 0), (0, 4342160085877812), (78640950573, 0)]], 2, 2⟩, 72057594037927936, 3386370362332681,
    22625156318131, ⟨[], 0, 0⟩, 0, 0, 0, lc0⟩ 1 1 648204628272) (.out ⟨208, 16, 542, 3357, 16, 4517,
    ⟨[[(18825097646120960, 0), (0, 866535736921967), (12024505540, 0)], [(39019357092190726, 0), (0, 4939926956431),
    (97554464, 0)], [(0, 66998853301871), (0, 1865550097), (232437, 0)]], 2, 2⟩, ⟨[[(33262407216168960, 0), (0,
    4342132663146620), (77931917784, 0)]], 2, 2⟩, 72057594037927936, 3536000656592806, 22218241421616, ⟨[], 0, 0⟩, 0,
    0, 0, lc0⟩ 1 1 522506439989))) (.sy (.sx (.sy (.out ⟨361, 16, 794, 3267, 16, 4276, ⟨[[(2210160508289024, 0), (0,
    1570285850959472), (23979653600, 0)], [(32032891976560098, 0), (0, 3974639390980), (87489975, 0)], [(0,
    11306561261790), (0, 1203386261), (87710, 0)]], 2, 2⟩, ⟨[[(0, 27191910276104192), (0, 4342014864356578),
    (80094719971, 0)]], 2, 2⟩, 72057594037927936, 565357029742899, 23472162922691, ⟨[], 0, 0⟩, 0, 0, 0, lc0⟩ 1 1
    582776518828) (.out ⟨366, 16, 830, 3297, 16, 4356, ⟨[[(3689887230955520, 0), (0, 1616592074808586), (24519698208,
    0)], [(31422419026376692, 0), (0, 4063972257466), (89589670, 0)], [(0, 12427604196931), (0, 1165988305), (91569,
    0)]], 2, 2⟩, ⟨[[(14816715517919232, 0), (0, 4342454339161924), (79367871240, 0)]], 2, 2⟩, 72057594037927936,
    582393478846459, 23044766445431, ⟨[], 0, 0⟩, 0, 0, 0, lc0⟩ 1 1 446034797195)) (.sy (.out ⟨370, 16, 775, 3267, 16,
    4276, ⟨[[(29105309986201600, 0), (0, 1697859506183688), (27144083296, 0)], [(30639187999538048, 0), (0,
    3988234184317), (92628934, 0)], [(0, 3963723446086), (0, 1423689726), (86564, 0)]], 2, 2⟩, ⟨[[(0,
    27191910276104192), (0, 4342014864356578), (80094719971, 0)]], 2, 2⟩, 72057594037927936, 521503746771318,
    23472162922691, ⟨[], 0, 0⟩, 0, 0, 0, lc0⟩ 1 1 355182466662) (.sx (.out ⟨536, 16, 1172, 3297, 16, 4356,
    ⟨[[(5299579657740288, 0), (0, 2465189045811748), (38736680073, 0)], [(21758276304545926, 0), (0, 2925284921134),
    (67347964, 0)], [(0, 2402682368576), (0, 479795980), (32671, 0)]], 2, 2⟩, ⟨[[(14816715517919232, 0), (0,
    4342454339161924), (79367871240, 0)]], 2, 2⟩, 72057594037927936, 105379500913716, 23044766445431, ⟨[], 0, 0⟩, 0,
    0, 0, lc0⟩ 1 1 282294511821) (.sy (.out ⟨760, 16, 1610, 6594, 16, 8692, ⟨[[(0, 1652265633275904), (0,
    1785426060304251), (14371559011, 0)], [(30199670479657448, 0), (0, 2050546106960), (24184447, 0)], [(0,
    1453016912198), (0, 371316785), (11275, 0)]], 2, 2⟩, ⟨[[(28730170276380672, 0), (0, 4352429633674131),
    (39866541183, 0)]], 2, 2⟩, 72057594037927936, 131111855903734, 5787701741134, ⟨[], 0, 0⟩, 0, 0, 0, lc0⟩ 1 1
    200933780123) (.leaf ⟨891, 16, 1680, 568, 16, 2499, ⟨[[(10129239747928064, 0), (0, 1848077368288498),
    (14836648417, 0), (0, 104970), (1, 0)], [(30444910377669583, 0), (0, 2114478154747), (25008945, 0), (0, 147)],
    [(0, 1707730789423), (0, 375640692), (11782, 0)], [(14315799547, 0), (0, 314623)]], 3, 4⟩, ⟨[[(0,
    23739938974900224), (0, 1598106645365559), (7050919551, 0), (0, 124291), (1, 0)], [(0, 33746454583183860), (0,
    154179200000), (4143674, 0), (2, 0)], [(12398560593639, 0), (196207738, 0), (1014, 0)], [(0, 5482268738), (0,
    173199), (1, 0)]], 3, 4⟩, 72057594037927936, 302775098740, 455395937475, ⟨[[(7682084602879, 0), (8914946333, 0),
    (3676446, 0), (3386, 0), (28, 0)], [(0, 7702496761), (0, 14181334), (0, 3526), (0, 4)], [(10916173, 0), (18421,
    0), (0, 6)], [(0, 14870), (0, 21)]], 3, 4⟩, 17592186044416, 2445931,
    3377843933468837368555398466913955284325659083345555151085106229510020045497947999373553371216303860112205309051728480434228759,
    lc0⟩))))) (.sx (.sy (.out ⟨372, 16, 869, 3327, 16, 4436, ⟨[[(0, 32503993903706112), (0, 1667056616727130),
    (25119654463, 0)], [(30786399580593499, 0), (0, 4161691686205), (91954926, 0)], [(0, 13600198909068), (0,
    1124359790), (96306, 0)]], 2, 2⟩, ⟨[[(16753777557143552, 0), (0, 4342160085877812), (78640950573, 0)]], 2, 2⟩,
    72057594037927936, 600872547800872, 22625156318131, ⟨[], 0, 0⟩, 0, 0, 0, lc0⟩ 1 1 320910491735) (.sx (.out ⟨540,
    16, 1320, 3357, 16, 4517, ⟨[[(34442837795938304, 0), (0, 2429590908582247), (35917431255, 0)],
    [(22054088171312744, 0), (0, 3075405907089), (66991028, 0)], [(0, 6120654031096), (0, 368068455), (36842, 0)]],
    2, 2⟩, ⟨[[(33262407216168960, 0), (0, 4342132663146620), (77931917784, 0)]], 2, 2⟩, 72057594037927936,
    121808319479214, 22218241421616, ⟨[], 0, 0⟩, 0, 0, 0, lc0⟩ 1 1 269235725463) (.leaf ⟨640, 16, 1319, 409, 16,
    1794, ⟨[[(0, 2750749042696192), (0, 2557494108763120), (38766896938, 0), (0, 553080), (5, 0)],
    [(21586427013877885, 0), (0, 3105838501557), (70049677, 0), (0, 801)], [(0, 4632324591687), (0, 413387473),
    (37198, 0)], [(11515272539, 0), (0, 388453), (3, 0)]], 3, 4⟩, ⟨[[(10684501437558784, 0), (0, 2241571117696974),
    (17400028615, 0), (0, 720309), (0, 17)], [(0, 26040885935540876), (0, 254329038754), (11039001, 0), (0, 279)],
    [(10272988574994, 0), (353687613, 0), (4078, 0), (1, 0)], [(0, 4765679689), (0, 274271), (7, 0)]], 3, 4⟩,
    72057594037927936, 599265609657, 407758455225, ⟨[[(8353674948155, 0), (14096369018, 0), (7577571, 0), (9218, 0),
    (112, 0)], [(0, 12334152879), (0, 30834691), (0, 4180), (38, 0)], [(24574638, 0), (54030, 0), (0, 61), (0, 1)],
    [(0, 46892), (0, 82)]], 3, 4⟩, 17592186044416, 12860763,
    5661018912258001754524438315423820280325235665306991491180280971854891321763365290611824844249982719390376727327337346555477890,
    lc0⟩))) (.sy (.sx (.leaf ⟨632, 16, 1241, 415, 16, 1815, ⟨[[(0, 27273652813160448), (0, 2569582435888325),
    (40146426730, 0), (0, 567865), (10, 0)], [(21502178300586950, 0), (0, 3026568594035), (70018716, 0), (0, 819)],
    [(0, 2790445363533), (0, 473232227), (34786, 0)], [(10650605012, 0), (0, 416357), (2, 0)]], 3, 4⟩, ⟨[[(0,
    16880780844630016), (0, 2296709680318987), (19172265008, 0), (0, 717217), (0, 2)], [(0, 25379891383944247), (0,
    240388966875), (11741011, 0), (0, 85)], [(9644586580203, 0), (319910271, 0), (3285, 0), (1, 0)], [(0,
    4369195375), (0, 265371), (4, 0)]], 3, 4⟩, 72057594037927936, 397689358696, 372453967363, ⟨[[(8001510748293, 0),
    (13035251133, 0), (7258112, 0), (10010, 0), (109, 0)], [(0, 11626897001), (0, 29055363), (0, 7469), (3, 0)],
    [(23324141, 0), (52261, 0), (0, 41)], [(0, 44862), (0, 81)]], 3, 4⟩, 17592186044416, 12617669,
    6954999453370681020796908043542068232621891149601660671960410870264856546665924266253150842000809998499001784318010562567143748,
    lc0⟩) (.leaf ⟨628, 16, 1210, 405, 16, 1839, ⟨[[(542659690037248, 0), (0, 2630180054085389), (42070840361, 0), (0,
    586876), (11, 0)], [(20790988367910942, 0), (0, 2991954450342), (71126309, 0), (0, 783)], [(0, 1428880190509),
    (0, 515494035), (34086, 0)], [(10140321475, 0), (0, 452335), (1, 0)]], 3, 4⟩, ⟨[[(35760345326026752, 0), (0,
    2336757064908711), (19931576153, 0), (0, 728858), (0, 4)], [(0, 24917531359038059), (0, 217733558685), (12195101,
    0), (0, 16)], [(9233210543554, 0), (291292450, 0), (3755, 0), (1, 0)], [(0, 4129967165), (0, 252911), (3, 0)]],
    3, 4⟩, 72057594037927936, 252728781753, 355403979694, ⟨[[(7671929219713, 0), (12315272974, 0), (6662486, 0),
    (4190, 0), (74, 0)], [(0, 10931720662), (0, 27910268), (0, 8290), (3, 0)], [(22095989, 0), (52119, 0), (0, 19)],
    [(0, 42974), (0, 86)]], 3, 4⟩, 17592186044416, 11545525,
    2643480121258070459772486014991470100099172203615055999992201617090836150941840884828077620281550259836396719589004725899937470,
    lc0⟩)) (.leaf ⟨453, 16, 908, 265, 16, 1230, ⟨[[(28360215987126272, 0), (0, 1896477252483832), (29827147926, 0),
    (0, 414274), (6, 0)], [(29101835817664890, 0), (0, 4354632089597), (102930423, 0), (0, 1027)], [(0,
    6925413192557), (0, 1360921009), (103334, 0), (1, 0)], [(60230442298, 0), (0, 2570263), (5, 0)]], 3, 4⟩,
    ⟨[[(20662980669329408, 0), (0, 1546932100580624), (12418713716, 0), (0, 502568), (0, 14)], [(0,
    34008519356320561), (0, 291979230593), (15933637, 0), (0, 168)], [(25826262218306, 0), (834146963, 0), (13821,
    0), (4, 0)], [(0, 23576884716), (0, 1375772), (19, 0)]], 3, 4⟩, 72057594037927936, 4263551438423, 3915855966878,
    ⟨[[(7837646840922, 0), (19297224387, 0), (15156655, 0), (4935, 0), (317, 0)], [(0, 15750980864), (0, 60725001),
    (0, 22651), (91, 0)], [(44438108, 0), (157610, 0), (0, 85), (0, 2)], [(0, 120554), (0, 366), (1, 0)]], 3, 4⟩,
    17592186044416, 58251976,
    4055715577429845601054607408395148680019339540906370044256158049854224744669870361335757693729842290435288330784616056378078732,
    lc0⟩))))
theorem c3 : checkR job con0 true ⟨7, 9, 7, 9, 13, 17⟩ 1 28336 t3 111 21 160 13741 251 16000 = true := by decide +kernel

def t4 : CTree :=
  .sx (.sy (.out ⟨163, 16, 221, 1451, 16, 1697, ⟨[[(0, 19757686938163200), (0, 1365816442775716), (49479506913, 0)],
    [(33472190508944567, 0), (0, 6279329619537), (275582391, 0)], [(22746055910276, 0), (0, 6280096355), (198969,
    0)]], 2, 2⟩, ⟨[[(0, 5557220655906816), (0, 4316859148948244), (178242666871, 0)]], 2, 2⟩, 72057594037927936,
    1541679448009495, 117598298995047, ⟨[], 0, 0⟩, 0, 0, 0, lc0⟩ 1 1 2150582949645) (.out ⟨165, 16, 238, 1481, 16,
    1768, ⟨[[(12938456413419520, 0), (0, 1418613364469658), (50847030807, 0)], [(32726731188164980, 0), (0,
    6466439340517), (292398630, 0)], [(21161145476554, 0), (0, 6509849482), (287530, 0)]], 2, 2⟩, ⟨[[(0,
    4948524154716160), (0, 4316667944096783), (174615425917, 0)]], 2, 2⟩, 72057594037927936, 1610040490121788,
    112841747398388, ⟨[], 0, 0⟩, 0, 0, 0, lc0⟩ 1 1 1623883088192)) (.sx (.sy (.out ⟨245, 16, 305, 1451, 16, 1697,
    ⟨[[(21592888318953472, 0), (0, 2166951025513585), (80463993862, 0)], [(24421500209453083, 0), (0, 4625966612051),
    (195077731, 0)], [(13248841121463, 0), (0, 2478731935), (3870, 0)]], 2, 2⟩, ⟨[[(0, 5557220655906816), (0,
    4316859148948244), (178242666871, 0)]], 2, 2⟩, 72057594037927936, 318435887726537, 117598298995047, ⟨[], 0, 0⟩,
    0, 0, 0, lc0⟩ 1 1 1493361675258) (.out ⟨246, 16, 326, 1481, 16, 1768, ⟨[[(25229344403908608, 0), (0,
    2231517555423536), (82595065179, 0)], [(23673541117369944, 0), (0, 4734369222323), (209685807, 0)],
    [(12835813414876, 0), (0, 2623385336), (46379, 0)]], 2, 2⟩, ⟨[[(0, 4948524154716160), (0, 4316667944096783),
    (174615425917, 0)]], 2, 2⟩, 72057594037927936, 331765370226343, 112841747398388, ⟨[], 0, 0⟩, 0, 0, 0, lc0⟩ 1 1
    1010643927497)) (.sy (.sy (.out ⟨330, 16, 381, 2901, 16, 3376, ⟨[[(0, 12939111162007552), (0, 1491560498950572),
    (27914724160, 0)], [(32862162366046238, 0), (0, 3054178688717), (59696174, 0)], [(21835977481267, 0), (0,
    1643707875), (0, 23786)]], 2, 2⟩, ⟨[[(35385253782421504, 0), (0, 4338814733388909), (90041188150, 0)]], 2, 2⟩,
    72057594037927936, 383372926557177, 29703018803751, ⟨[], 0, 0⟩, 0, 0, 0, lc0⟩ 1 1 1112064764958) (.out ⟨332, 16,
    396, 2932, 16, 3447, ⟨[[(7645684473364480, 0), (0, 1521400454080457), (28521048021, 0)], [(32578114891434027, 0),
    (0, 3111595646614), (63069762, 0)], [(21832611081054, 0), (0, 1728450223), (0, 15295)]], 2, 2⟩, ⟨[[(0,
    2358505775464448), (0, 4339183536598189), (89120407825, 0)]], 2, 2⟩, 72057594037927936, 394787634208801,
    29094582329016, ⟨[], 0, 0⟩, 0, 0, 0, lc0⟩ 1 1 888421342144)) (.sy (.out ⟨334, 16, 411, 2963, 16, 3519, ⟨[[(0,
    15257364013350912), (0, 1549568338915838), (29084904694, 0)], [(32207517028958933, 0), (0, 3163298072331),
    (66299566, 0)], [(21755830198548, 0), (0, 1805256354), (0, 6827)]], 2, 2⟩, ⟨[[(0, 24258355806404608), (0,
    4339866902046595), (88224815557, 0)]], 2, 2⟩, 72057594037927936, 405807618071582, 28506766530851, ⟨[], 0, 0⟩, 0,
    0, 0, lc0⟩ 1 1 666124087629) (.sx (.out ⟨496, 16, 640, 2993, 16, 3591, ⟨[[(15268873356861440, 0), (0,
    2317569112197534), (43385672197, 0)], [(23522930785351912, 0), (0, 2381577538072), (52043422, 0)],
    [(7607105671519, 0), (0, 688785346), (2362, 0)]], 2, 2⟩, ⟨[[(0, 18789664732545024), (0, 4339637157965625),
    (87328942869, 0)]], 2, 2⟩, 72057594037927936, 83852220424278, 27930797607643, ⟨[], 0, 0⟩, 0, 0, 0, lc0⟩ 1 1
    581605194891) (.sy (.out ⟨677, 16, 843, 5986, 16, 7165, ⟨[[(34741129310740480, 0), (0, 1600575253647382),
    (15073328150, 0)], [(32286856267355355, 0), (0, 1616019834253), (17106850, 0)], [(11493654895734, 0), (0,
    472608212), (0, 731)]], 2, 2⟩, ⟨[[(30945129580134400, 0), (0, 4351315913054085), (43892832128, 0)]], 2, 2⟩,
    72057594037927936, 104241710691830, 7019218229365, ⟨[], 0, 0⟩, 0, 0, 0, lc0⟩ 1 1 406351809050) (.out ⟨679, 16,
    859, 6017, 16, 7238, ⟨[[(2298851470942208, 0), (0, 1615600701936754), (15224533344, 0)], [(32077416945237882, 0),
    (0, 1629143857599), (17521695, 0)], [(11469910163003, 0), (0, 482042821), (0, 185)]], 2, 2⟩, ⟨[[(0,
    3384911211266048), (0, 4351467410851401), (43673207853, 0)]], 2, 2⟩, 72057594037927936, 105575916146299,
    6948819767100, ⟨[], 0, 0⟩, 0, 0, 0, lc0⟩ 1 1 312350211344))))))
theorem c4 : checkR job con0 true ⟨7, 9, 7, 9, 13, 17⟩ 1 28336 t4 153 21 160 12235 251 16000 = true := by decide +kernel

def t5 : CTree :=
  .sy (.out ⟨169, 16, 258, 1511, 16, 1841, ⟨[[(0, 33399016661473280), (0, 1483762555846650), (52593781697, 0)],
    [(32037300467367589, 0), (0, 6694752216434), (310406645, 0)], [(19480897444211, 0), (0, 6711727813), (372921,
    0)]], 2, 2⟩, ⟨[[(27901290059317248, 0), (0, 4317762592925839), (171183546482, 0)]], 2, 2⟩, 72057594037927936,
    1682932103285133, 108400143696887, ⟨[], 0, 0⟩, 0, 0, 0, lc0⟩ 1 1 1120948865169) (.sy (.out ⟨213, 16, 341, 3084,
    16, 3813, ⟨[[(0, 25648481011423232), (0, 954830354864483), (16780020366, 0)], [(39070213979576838, 0), (0,
    4271228929554), (100598090, 0)], [(22480275183867, 0), (0, 4240913002), (134622, 0)]], 2, 2⟩,
    ⟨[[(20287806523637760, 0), (0, 4340825168841059), (84783397505, 0)]], 2, 2⟩, 72057594037927936, 2101531041666426,
    26315088849587, ⟨[], 0, 0⟩, 0, 0, 0, lc0⟩ 1 1 835496476823) (.out ⟨216, 16, 357, 3114, 16, 3888, ⟨[[(0,
    20293595453845504), (0, 982197369181771), (17164595460, 0)], [(38685073432547005, 0), (0, 4366651248883),
    (103802921, 0)], [(21342303398305, 0), (0, 4295180363), (147119, 0)]], 2, 2⟩, ⟨[[(29655756417990656, 0), (0,
    4340670462670463), (83957185793, 0)]], 2, 2⟩, 72057594037927936, 2151877645633592, 25804393654216, ⟨[], 0, 0⟩, 0,
    0, 0, lc0⟩ 1 1 657916247956))
theorem c5 : checkR job con0 true ⟨7, 9, 7, 9, 13, 17⟩ 1 28336 t5 285 21 320 12737 251 16000 = true := by decide +kernel

def t6 : CTree :=
  .sy (.out ⟨342, 16, 475, 3023, 16, 3664, ⟨[[(13785201332412416, 0), (0, 1581106052341435), (29166732708, 0)],
    [(31939767691423451, 0), (0, 3334158556428), (76222296, 0)], [(17274831526052, 0), (0, 1878282227), (26566, 0)]],
    2, 2⟩, ⟨[[(2782986447323136, 0), (0, 4339732837197001), (86457472601, 0)]], 2, 2⟩, 72057594037927936,
    422192476034052, 27374133344476, ⟨[], 0, 0⟩, 0, 0, 0, lc0⟩ 1 1 691053500140) (.sy (.out ⟨427, 16, 607, 6108, 16,
    7458, ⟨[[(0, 14383241087299584), (0, 996320201391946), (9172702584, 0)], [(39225301191318376, 0), (0,
    2093729501034), (24279236, 0)], [(21176797571654, 0), (0, 1186306165), (9841, 0)]], 2, 2⟩, ⟨[[(0,
    34248139546165248), (0, 4351201133485438), (43020289427, 0)]], 2, 2⟩, 72057594037927936, 522066849927329,
    6742760963990, ⟨[], 0, 0⟩, 0, 0, 0, lc0⟩ 1 1 547837478301) (.out ⟨430, 16, 621, 6138, 16, 7533, ⟨[[(0,
    30565029609259008), (0, 1009927213992071), (9285891345, 0)], [(39060963762669044, 0), (0, 2117113085193),
    (24773584, 0)], [(21058573451410, 0), (0, 1203126678), (10920, 0)]], 2, 2⟩, ⟨[[(34370649306562560, 0), (0,
    4351654118295127), (42812279190, 0)]], 2, 2⟩, 72057594037927936, 528787200687100, 6676936713882, ⟨[], 0, 0⟩, 0,
    0, 0, lc0⟩ 1 1 450317612961))
theorem c6 : checkR job con0 true ⟨7, 9, 7, 9, 13, 17⟩ 1 28336 t6 633 21 640 25223 251 32000 = true := by decide +kernel

def t7 : CTree :=
  .sx (.sy (.sy (.out ⟨686, 16, 907, 6047, 16, 7311, ⟨[[(13300231684939776, 0), (0, 1619229983625076), (15153130708,
    0)], [(32076130028802536, 0), (0, 1659754142548), (18497491, 0)], [(10413794522952, 0), (0, 486250840), (1568,
    0)]], 2, 2⟩, ⟨[[(12290762189373440, 0), (0, 4351397177019339), (43453571306, 0)]], 2, 2⟩, 72057594037927936,
    106282317612204, 6879126930640, ⟨[], 0, 0⟩, 0, 0, 0, lc0⟩ 1 1 433885359725) (.out ⟨688, 16, 925, 6077, 16, 7384,
    ⟨[[(25346093038714880, 0), (0, 1635923506551509), (15305392380, 0)], [(31867725781055336, 0), (0, 1673740308094),
    (18887634, 0)], [(10371963562333, 0), (0, 494058775), (2066, 0)]], 2, 2⟩, ⟨[[(6244541843767296, 0), (0,
    4351111808411401), (43233988220, 0)]], 2, 2⟩, 72057594037927936, 107510455685434, 6810139572529, ⟨[], 0, 0⟩, 0,
    0, 0, lc0⟩ 1 1 347661750097)) (.sx (.sy (.out ⟨1005, 16, 1382, 6108, 16, 7458, ⟨[[(0, 17746411445428224), (0,
    2395432220837947), (22349341357, 0)], [(23025878624632884, 0), (0, 1228495347191), (14075802, 0)],
    [(3650263058007, 0), (0, 181238657), (1024, 0)]], 2, 2⟩, ⟨[[(0, 34248139546165248), (0, 4351201133485438),
    (43020289427, 0)]], 2, 2⟩, 72057594037927936, 21692609053818, 6742760963990, ⟨[], 0, 0⟩, 0, 0, 0, lc0⟩ 1 1
    310364389374) (.out ⟨1005, 16, 1406, 6138, 16, 7533, ⟨[[(21885322005594112, 0), (0, 2414316299383449),
    (22512274717, 0)], [(22801942945515791, 0), (0, 1235455635017), (14311547, 0)], [(3621367605036, 0), (0,
    183263581), (1193, 0)]], 2, 2⟩, ⟨[[(34370649306562560, 0), (0, 4351654118295127), (42812279190, 0)]], 2, 2⟩,
    72057594037927936, 21881519047655, 6676936713882, ⟨[], 0, 0⟩, 0, 0, 0, lc0⟩ 1 1 226695821833)) (.sy (.sy (.out
    ⟨1387, 16, 1875, 12216, 16, 14899, ⟨[[(21728942979760128, 0), (0, 1664107983784993), (7800380074, 0)],
    [(31882993280529475, 0), (0, 846244020051), (4800011, 0)], [(5342532852819, 0), (0, 126381336), (272, 0)]], 2,
    2⟩, ⟨[[(20602699012898816, 0), (0, 4357047895000077), (21565807385, 0)]], 2, 2⟩, 72057594037927936,
    27217213521864, 1690052430350, ⟨[], 0, 0⟩, 0, 0, 0, lc0⟩ 1 1 232137134445) (.out ⟨1390, 16, 1894, 12247, 16,
    14973, ⟨[[(0, 23323927323803648), (0, 1673079050466382), (7841481583, 0)], [(31778177027508224, 0), (0,
    849950363070), (4850270, 0)], [(5332655879132, 0), (0, 127371618), (303, 0)]], 2, 2⟩, ⟨[[(0, 33701335699816448),
    (0, 4357009597489859), (21512166160, 0)]], 2, 2⟩, 72057594037927936, 27372793583621, 1681665027555, ⟨[], 0, 0⟩,
    0, 0, 0, lc0⟩ 1 1 190961379348)) (.leaf ⟨1114, 16, 1409, 961, 16, 3816, ⟨[[(0, 467197418913792), (0,
    2471794604281161), (23164688744, 0), (0, 149852)], [(23166604515214878, 0), (0, 1253734726294), (14435513, 0)],
    [(3895896177246, 0), (0, 188784002), (1026, 0)], [(2140813097, 0), (0, 40370), (0, 1)]], 3, 4⟩,
    ⟨[[(16438224358170624, 0), (0, 2740395454304040), (18800054746, 0), (0, 320779), (4, 0)], [(0,
    20270214584933227), (0, 120154129028), (4211619, 0), (0, 45)], [(3098592107210, 0), (13543294, 0), (1038, 0)],
    [(0, 393270139), (0, 25525)]], 3, 4⟩, 72057594037927936, 57376496944, 30046367912, ⟨[[(5932108845604, 0),
    (3486542685, 0), (1058134, 0), (1031, 0), (4, 0)], [(0, 3853339027), (0, 4499900), (0, 2136), (0, 5)], [(4113078,
    0), (5107, 0), (3, 0)], [(0, 4417), (0, 5)]], 3, 4⟩, 17592186044416, 565640,
    5589856802175837672864295195043313529061921779434485945117664666378810775276783390300761428126467988605105874318388782247467204,
    lc0⟩)))) (.sy (.sx (.sy (.out ⟨995, 16, 1289, 6047, 16, 7311, ⟨[[(23242052972355584, 0), (0, 2376194718674969),
    (22365041677, 0)], [(23282933639896646, 0), (0, 1201550728967), (13195031, 0)], [(4082029858885, 0), (0,
    178855712), (245, 0)]], 2, 2⟩, ⟨[[(12290762189373440, 0), (0, 4351397177019339), (43453571306, 0)]], 2, 2⟩,
    72057594037927936, 21318878299534, 6879126930640, ⟨[], 0, 0⟩, 0, 0, 0, lc0⟩ 1 1 278119028894) (.sy (.out ⟨1378,
    16, 1807, 12155, 16, 14751, ⟨[[(0, 2783958287106048), (0, 1653784724761447), (7784257456, 0)],
    [(32007902219207979, 0), (0, 835231746654), (4634687, 0)], [(5628099902776, 0), (0, 125199382), (134, 0)]], 2,
    2⟩, ⟨[[(24498519556096000, 0), (0, 4356962627905995), (21673088369, 0)]], 2, 2⟩, 72057594037927936,
    27013001324186, 1706952830905, ⟨[], 0, 0⟩, 0, 0, 0, lc0⟩ 1 1 211592827868) (.out ⟨1380, 16, 1825, 12186, 16,
    14825, ⟨[[(5688620221841408, 0), (0, 1662383513617981), (7825432242, 0)], [(31904458452236830, 0), (0,
    838849154612), (4686632, 0)], [(5620723608582, 0), (0, 126294278), (167, 0)]], 2, 2⟩, ⟨[[(0, 8008632022204416),
    (0, 4357032507401605), (21619449457, 0)]], 2, 2⟩, 72057594037927936, 27175569568716, 1698481670387, ⟨[], 0, 0⟩,
    0, 0, 0, lc0⟩ 1 1 172606729645))) (.sy (.sy (.out ⟨1369, 16, 1741, 12095, 16, 14604, ⟨[[(0, 34212934106251264),
    (0, 1642899446668167), (7756222913, 0)], [(32131753462675206, 0), (0, 823936298994), (4454049, 0)],
    [(5897658363849, 0), (0, 123383211), (0, 13)]], 2, 2⟩, ⟨[[(0, 28073125944492032), (0, 4356954444963899),
    (21781831678, 0)]], 2, 2⟩, 72057594037927936, 26768003614806, 1724138981390, ⟨[], 0, 0⟩, 0, 0, 0, lc0⟩ 1 1
    190563001731) (.out ⟨1370, 16, 1758, 12125, 16, 14677, ⟨[[(25814969976061952, 0), (0, 1651095599889030),
    (7797395194, 0)], [(32028983564199717, 0), (0, 827460925255), (4507682, 0)], [(5892702436923, 0), (0, 124584022),
    (21, 0)]], 2, 2⟩, ⟨[[(0, 26073188539170816), (0, 4356837437584275), (21726720013, 0)]], 2, 2⟩, 72057594037927936,
    26938086393621, 1715465962179, ⟨[], 0, 0⟩, 0, 0, 0, lc0⟩ 1 1 153196008181)) (.leaf ⟨1097, 16, 1312, 977, 16,
    3819, ⟨[[(0, 29240659873153024), (0, 2446964879392505), (23121584588, 0), (0, 137734)], [(23440218882093690, 0),
    (0, 1224924375155), (13496425, 0), (33, 0)], [(4327743441165, 0), (0, 185850009), (214, 0)], [(2119717757, 0),
    (0, 32187), (0, 2)]], 3, 4⟩, ⟨[[(18830808985329664, 0), (0, 2792073957653622), (20177282231, 0), (0, 339219), (3,
    0)], [(0, 19649701162771520), (0, 127476683313), (4541503, 0), (0, 49)], [(3001939087162, 0), (4982581, 0),
    (1145, 0)], [(0, 319225372), (0, 25033)]], 3, 4⟩, 72057594037927936, 57504511148, 29528960152, ⟨[[(5750137321756,
    0), (3244220113, 0), (970151, 0), (952, 0), (3, 0)], [(0, 3689978225), (0, 4250773), (0, 2118), (0, 5)],
    [(3954946, 0), (4958, 0), (3, 0)], [(0, 4316), (0, 5)]], 3, 4⟩, 17592186044416, 546070,
    4457995900642615756377206525206932103354988585444960853651223564998330840782987018777577601832258772925771109115170135078008959,
    lc0⟩))) (.leaf ⟨546, 16, 673, 477, 16, 1910, ⟨[[(9212179781279744, 0), (0, 2449026933662266), (46217361812, 0),
    (0, 570364), (0, 1)], [(22931635562383281, 0), (0, 2455655730875), (55540771, 0), (136, 0)], [(8323795342048, 0),
    (0, 751365611), (4930, 0), (2, 0)], [(8498207832, 0), (0, 290980), (0, 26)]], 3, 4⟩, ⟨[[(9478020741107712, 0),
    (0, 2760442608153770), (38669984296, 0), (0, 1311401), (30, 0)], [(0, 19875058470396486), (0, 242131753538),
    (17541754, 0), (0, 386)], [(6057608808197, 0), (32983917, 0), (8729, 0)], [(0, 1401328535), (0, 199994), (3,
    0)]], 3, 4⟩, 72057594037927936, 466083985759, 238060071195, ⟨[[(5796501454918, 0), (6680886524, 0), (3903196, 0),
    (6418, 0), (48, 0)], [(0, 7518305769), (0, 17502371), (0, 15709), (0, 63)], [(16270181, 0), (40635, 0), (44, 0)],
    [(0, 35697), (0, 84)]], 3, 4⟩, 17592186044416, 11986104,
    5065676994914055377993371556752976927525725568806913720191672525224020240866123887465271625847550242717694955163988436403020920,
    lc0⟩))
theorem c7 : checkR job con0 true ⟨7, 9, 7, 9, 13, 17⟩ 1 28336 t7 675 21 640 25223 251 32000 = true := by decide +kernel

def t8 : CTree :=
  .sx (.sy (.out ⟨506, 16, 760, 3084, 16, 3813, ⟨[[(18335030011199488, 0), (0, 2384866526114434), (43480792273, 0)],
    [(22687169610166619, 0), (0, 2515454363112), (59698143, 0)], [(5640668785015, 0), (0, 702325122), (15666, 0)]],
    2, 2⟩, ⟨[[(20287806523637760, 0), (0, 4340825168841059), (84783397505, 0)]], 2, 2⟩, 72057594037927936,
    88065128443358, 26315088849587, ⟨[], 0, 0⟩, 0, 0, 0, lc0⟩ 1 1 423936050832) (.sy (.out ⟨710, 16, 1092, 6230, 16,
    7758, ⟨[[(0, 26977813866668032), (0, 1690006209625228), (15367384007, 0)], [(31249224337022958, 0), (0,
    1774970340612), (21294791, 0)], [(7728084151220, 0), (0, 495772883), (6040, 0)]], 2, 2⟩, ⟨[[(0,
    34140016386768896), (0, 4351723888667142), (42187898214, 0)]], 2, 2⟩, 72057594037927936, 111357751638306,
    6483263609306, ⟨[], 0, 0⟩, 0, 0, 0, lc0⟩ 1 1 305481825945) (.sy (.out ⟨891, 16, 1388, 12520, 16, 15649, ⟨[[(0,
    14926965074477056), (0, 1066727204386612), (4843733442, 0)], [(38874121167873384, 0), (0, 1117877654191),
    (6740649, 0)], [(9586721312286, 0), (0, 312143403), (1979, 0)]], 2, 2⟩, ⟨[[(10843292037808128, 0), (0,
    4357160757513200), (21043494518, 0)]], 2, 2⟩, 72057594037927936, 137949371947297, 1609089162589, ⟨[], 0, 0⟩, 0,
    0, 0, lc0⟩ 1 1 248377197680) (.out ⟨894, 16, 1405, 12551, 16, 15725, ⟨[[(14246911819948032, 0), (0,
    1074882937335478), (4876586515, 0)], [(38783915311879723, 0), (0, 1124727944672), (6804762, 0)], [(9546030696091,
    0), (0, 313936492), (2041, 0)]], 2, 2⟩, ⟨[[(0, 34109258563584000), (0, 4357168168317475), (20992634160, 0)]], 2,
    2⟩, 72057594037927936, 138816051125306, 1601313067895, ⟨[], 0, 0⟩, 0, 0, 0, lc0⟩ 1 1 217158753409)))) (.sy (.sy
    (.out ⟨700, 16, 1016, 6168, 16, 7607, ⟨[[(33967231207866368, 0), (0, 1673299643858009), (15458794647, 0)],
    [(31455510109169176, 0), (0, 1732355704435), (20395693, 0)], [(9090047613907, 0), (0, 502913445), (4449, 0)]], 2,
    2⟩, ⟨[[(22637835586699264, 0), (0, 4351316023588810), (42598568960, 0)]], 2, 2⟩, 72057594037927936,
    110150088926668, 6610876442034, ⟨[], 0, 0⟩, 0, 0, 0, lc0⟩ 1 1 289785093610) (.sy (.out ⟨876, 16, 1287, 12399, 16,
    15347, ⟨[[(19682130422849536, 0), (0, 1052467341340066), (4857476433, 0)], [(39023166629777646, 0), (0,
    1087498639637), (6444836, 0)], [(11275619032676, 0), (0, 316346023), (1489, 0)]], 2, 2⟩, ⟨[[(0,
    16264108877676544), (0, 4357175888295810), (21249644659, 0)]], 2, 2⟩, 72057594037927936, 136179403359504,
    1640783859613, ⟨[], 0, 0⟩, 0, 0, 0, lc0⟩ 1 1 231960104971) (.out ⟨879, 16, 1302, 12429, 16, 15422,
    ⟨[[(6171484903653376, 0), (0, 1059812955722930), (4888523016, 0)], [(38927337200752902, 0), (0, 1093632672000),
    (6509345, 0)], [(11246763776851, 0), (0, 318495133), (1557, 0)]], 2, 2⟩, ⟨[[(0, 4489267090161664), (0,
    4357108752805006), (21197421310, 0)]], 2, 2⟩, 72057594037927936, 137021841097971, 1632749268005, ⟨[], 0, 0⟩, 0,
    0, 0, lc0⟩ 1 1 192552980181))) (.sx (.sy (.sy (.out ⟨1422, 16, 2137, 12459, 16, 15497, ⟨[[(0, 27414897479073792),
    (0, 1712780626835111), (7870125942, 0)], [(31309792099680634, 0), (0, 886725244734), (5304471, 0)],
    [(4362145912809, 0), (0, 127928176), (679, 0)]], 2, 2⟩, ⟨[[(0, 3304991102205952), (0, 4356990546648364),
    (21145204569, 0)]], 2, 2⟩, 72057594037927936, 27979328198676, 1624754330254, ⟨[], 0, 0⟩, 0, 0, 0, lc0⟩ 1 1
    196443127927) (.out ⟨1425, 16, 2160, 12490, 16, 15573, ⟨[[(0, 8136464940122112), (0, 1723249254174417),
    (7912937618, 0)], [(31198194877502220, 0), (0, 890891292729), (5350595, 0)], [(4344357963532, 0), (0, 128606748),
    (705, 0)]], 2, 2⟩, ⟨[[(0, 26901094308380672), (0, 4357101801665488), (21094352547, 0)]], 2, 2⟩,
    72057594037927936, 28121563360656, 1616902901165, ⟨[], 0, 0⟩, 0, 0, 0, lc0⟩ 1 1 162601948122)) (.leaf ⟨1143, 16,
    1593, 922, 16, 3815, ⟨[[(0, 6017510493683712), (0, 2524284744103290), (23158778818, 0), (0, 162701), (1, 0)],
    [(22516158425310101, 0), (0, 1302198420527), (15732302, 0), (0, 48)], [(3132842324256, 0), (0, 188099600), (2157,
    0)], [(2173172318, 0), (0, 50891), (0, 1)]], 3, 4⟩, ⟨[[(12790758402686976, 0), (0, 2654544661976047),
    (16480050145, 0), (0, 281231), (5, 0)], [(0, 21300337226242880), (0, 109320001022), (3744214, 0), (0, 32)],
    [(3311266106305, 0), (26991863, 0), (795, 0)], [(0, 521317620), (0, 26132)]], 3, 4⟩, 72057594037927936,
    54422227663, 32665939168, ⟨[[(6224588393623, 0), (3916043945, 0), (1165942, 0), (934, 0), (4, 0)], [(0,
    4109005678), (0, 4907289), (0, 1913), (0, 4)], [(4346943, 0), (5314, 0), (2, 0)], [(0, 4558), (0, 5)]], 3, 4⟩,
    17592186044416, 525933,
    3869802627212226416250965823726465266285423337524385730891475013215798007725219199870870749068150799275461772898130936966817740,
    lc0⟩)) (.leaf ⟨720, 16, 984, 574, 16, 2384, ⟨[[(0, 21585195424235520), (0, 3201308533181798), (59169594250, 0),
    (0, 816393), (6, 0)], [(14283001918873301, 0), (0, 1638471617014), (39383939, 0), (0, 194)], [(2136333923376, 0),
    (0, 241580808), (4928, 0)], [(1379050458, 0), (0, 62660), (0, 2)]], 3, 4⟩, ⟨[[(25909451469389824, 0), (0,
    3333846546833948), (42126615261, 0), (0, 1436206), (46, 0)], [(0, 13121534859116936), (0, 136366381878),
    (9594008, 0), (0, 176)], [(2025506972816, 0), (29137141, 0), (2109, 0)], [(0, 305445393), (0, 32160), (1, 0)]],
    3, 4⟩, 72057594037927936, 41217373071, 23406450216, ⟨[[(6120710989360, 0), (6080980292, 0), (2855455, 0), (3298,
    0), (22, 0)], [(0, 6318724824), (0, 12077680), (0, 7433), (0, 23)], [(10572775, 0), (20853, 0), (12, 0)], [(0,
    17609), (0, 32)]], 3, 4⟩, 17592186044416, 3692848,
    3648426597259490175819197245468533514057469095783454733683529067977360406795215834242471111140501459603881059211371948347628037,
    lc0⟩)))
theorem c8 : checkR job con0 true ⟨7, 9, 7, 9, 13, 17⟩ 1 28336 t8 633 21 640 25725 251 32000 = true := by decide +kernel

def t9 : CTree :=
  .sy (.sx (.sx (.sy (.sy (.out ⟨1402, 16, 1986, 12337, 16, 15196, ⟨[[(18244225693433856, 0), (0, 1693204851857058),
    (7890247777, 0)], [(31553983368609524, 0), (0, 864943556624), (5049420, 0)], [(5018030293838, 0), (0, 128768350),
    (459, 0)]], 2, 2⟩, ⟨[[(13715566538653696, 0), (0, 4356867195701179), (21352691323, 0)]], 2, 2⟩,
    72057594037927936, 27698475653460, 1656863279061, ⟨[], 0, 0⟩, 0, 0, 0, lc0⟩ 1 1 170092883748) (.out ⟨1404, 16,
    2006, 12368, 16, 15271, ⟨[[(35138212881514496, 0), (0, 1702274752495799), (7929723218, 0)], [(31434458233589998,
    0), (0, 868535214960), (5096313, 0)], [(5003390601832, 0), (0, 129587097), (488, 0)]], 2, 2⟩, ⟨[[(0,
    25007785905487872), (0, 4356905890025116), (21300476130, 0)]], 2, 2⟩, 72057594037927936, 27838168884896,
    1648750227663, ⟨[], 0, 0⟩, 0, 0, 0, lc0⟩ 1 1 135408488436)) (.leaf ⟨1125, 16, 1485, 937, 16, 3825, ⟨[[(0,
    18094694209257472), (0, 2502702724441907), (23303669149, 0), (0, 156607)], [(22788264827580870, 0), (0,
    1274561597061), (15068923, 0), (0, 22)], [(3631879988306, 0), (0, 190732922), (1550, 0)], [(2162818763, 0), (0,
    45704), (0, 1)]], 3, 4⟩, ⟨[[(33801362992250880, 0), (0, 2705237911364540), (17730319394, 0), (0, 303197), (4,
    0)], [(0, 20699122864961143), (0, 113538587664), (4008996, 0), (0, 41)], [(3175029664692, 0), (18790673, 0),
    (937, 0)], [(0, 445035328), (0, 25638)]], 3, 4⟩, 72057594037927936, 58736447602, 31817025116, ⟨[[(6024590165545,
    0), (3640476417, 0), (1075514, 0), (866, 0), (3, 0)], [(0, 3925676528), (0, 4633068), (0, 1929), (0, 4)],
    [(4178823, 0), (5153, 0), (2, 0)], [(0, 4450), (0, 5)]], 3, 4⟩, 17592186044416, 514133,
    3359527777150247595167491303151498400993620292938239544347118203640658085195804095851477769791270512488099842687265062286011793,
    lc0⟩)) (.leaf ⟨710, 16, 919, 580, 16, 2372, ⟨[[(0, 10289772796256256), (0, 3179209494523641), (59553114059, 0),
    (0, 779996), (2, 0)], [(14499671651780282, 0), (0, 1607109647577), (37631296, 0), (0, 52)], [(2448732640424, 0),
    (0, 244018196), (3276, 0), (1, 0)], [(1375985053, 0), (0, 55278), (0, 3)]], 3, 4⟩, ⟨[[(0, 15626862510710784), (0,
    3372294627613518), (44975936880, 0), (0, 1534424), (42, 0)], [(0, 12654596181757253), (0, 141582998157),
    (10223064, 0), (0, 216)], [(1932762542675, 0), (18728270, 0), (2440, 0)], [(0, 256332998), (0, 31365), (1, 0)]],
    3, 4⟩, 72057594037927936, 45070339901, 23723568049, ⟨[[(5933091923186, 0), (5702380363, 0), (2677452, 0), (3198,
    0), (20, 0)], [(0, 6040752011), (0, 11477035), (0, 7621), (0, 24)], [(10147052, 0), (20295, 0), (14, 0)], [(0,
    17129), (0, 32)]], 3, 4⟩, 17592186044416, 3687340,
    3037876274267133059903898739487487826963728440523605453675788292327255754254431001062911504564344981745151794417442569672978031,
    lc0⟩)) (.leaf ⟨548, 16, 697, 461, 16, 1922, ⟨[[(7194410928209920, 0), (0, 2488752382934914), (46974340718, 0),
    (0, 592447)], [(22487215194350440, 0), (0, 2485398991147), (57645556, 0), (25, 0)], [(8231524862430, 0), (0,
    771598505), (7909, 0), (2, 0)], [(8643505456, 0), (0, 326534), (0, 23)]], 3, 4⟩, ⟨[[(0, 6401692571975680), (0,
    2739699031567002), (36973218568, 0), (0, 1254759), (35, 0)], [(0, 20117842211815982), (0, 226221517588),
    (17075108, 0), (0, 376)], [(6114496897952, 0), (41732610, 0), (8214, 0)], [(0, 1510406641), (0, 198190), (3,
    0)]], 3, 4⟩, 72057594037927936, 492594365310, 244263537368, ⟨[[(5797660921381, 0), (6794315127, 0), (3808928, 0),
    (3999, 0), (38, 0)], [(0, 7480449342), (0, 17621700), (0, 13269), (0, 44)], [(16198346, 0), (40445, 0), (32, 0)],
    [(0, 35487), (0, 83)]], 3, 4⟩, 17592186044416, 11480988,
    1710285154685023357833549851442633737705442126514944969503626688441437071039576745797344549596986074475277407755121334293186828,
    lc0⟩)) (.leaf ⟨385, 16, 511, 322, 16, 1381, ⟨[[(0, 18985449392345088), (0, 1753230631703826), (32901512775, 0),
    (0, 432130), (1, 0)], [(30697601905251310, 0), (0, 3513178375210), (83782835, 0), (0, 212)], [(21463235706568,
    0), (0, 2171040099), (33876, 0), (4, 0)], [(48520030817, 0), (0, 2066162), (0, 103)]], 3, 4⟩, ⟨[[(0,
    13332849930297344), (0, 1939355318004472), (25000417548, 0), (0, 843600), (27, 0)], [(0, 29440874669036026), (0,
    304225412834), (23297325, 0), (0, 479)], [(17940228973896, 0), (178297354, 0), (21096, 0), (0, 1)], [(0,
    9837721753), (0, 1139331), (20, 0)]], 3, 4⟩, 72057594037927936, 5548427115698, 2796710462326, ⟨[[(5885444782128,
    0), (9902772205, 0), (7696611, 0), (8237, 0), (132, 0)], [(0, 10953889567), (0, 36548383), (0, 34489), (0, 137),
    (0, 1)], [(34028238, 0), (118802, 0), (100, 0), (1, 0)], [(0, 106304), (0, 346)]], 3, 4⟩, 17592186044416,
    64468745,
    2512064379099500127701226201355290685761382524609280919052867783671597061960127315206706939908390327556451122718237261638303805,
    lc0⟩)
theorem c9 : checkR job con0 true ⟨7, 9, 7, 9, 13, 17⟩ 1 28336 t9 675 21 640 25725 251 32000 = true := by decide +kernel

def t10 : CTree :=
  .sx (.sy (.out ⟨487, 16, 539, 2901, 16, 3376, ⟨[[(26650363424600064, 0), (0, 2248541361861947), (42108384690, 0)],
    [(24304131126385682, 0), (0, 2234642634198), (40710679, 0)], [(9099716769695, 0), (0, 595543970), (0, 15930)]],
    2, 2⟩, ⟨[[(35385253782421504, 0), (0, 4338814733388909), (90041188150, 0)]], 2, 2⟩, 72057594037927936,
    76796504408827, 29703018803751, ⟨[], 0, 0⟩, 0, 0, 0, lc0⟩ 1 1 738231623970) (.sy (.out ⟨666, 16, 755, 5865, 16,
    6877, ⟨[[(24379010543542272, 0), (0, 1552726576231617), (14585305913, 0)], [(32873458638277492, 0), (0,
    1543373569158), (14563147, 0)], [(12429316070047, 0), (0, 424708642), (0, 4533)]], 2, 2⟩, ⟨[[(0,
    29466719577636864), (0, 4350884124011549), (44795825301, 0)]], 2, 2⟩, 72057594037927936, 98540235093519,
    7312106512256, ⟨[], 0, 0⟩, 0, 0, 0, lc0⟩ 1 1 579011557721) (.out ⟨668, 16, 769, 5895, 16, 6948, ⟨[[(0,
    19584726115115008), (0, 1566659200177738), (14744896904, 0)], [(32697646702690194, 0), (0, 1557003942440),
    (15021687, 0)], [(12441530450628, 0), (0, 436875954), (0, 3937)]], 2, 2⟩, ⟨[[(0, 23625785942409216), (0,
    4350714347864290), (44563749991, 0)]], 2, 2⟩, 72057594037927936, 100083489619311, 7236724567164, ⟨[], 0, 0⟩, 0,
    0, 0, lc0⟩ 1 1 464305442056))) (.sy (.sy (.out ⟨659, 16, 702, 5803, 16, 6735, ⟨[[(0, 11902677364162560), (0,
    1533235981990712), (14301171407, 0)], [(33075749733774915, 0), (0, 1494228836509), (12606691, 0)],
    [(13192472987121, 0), (0, 385182911), (0, 7538)]], 2, 2⟩, ⟨[[(35046154618929152, 0), (0, 4350522396894757),
    (45259952320, 0)]], 2, 2⟩, 72057594037927936, 94623100858542, 7465234797646, ⟨[], 0, 0⟩, 0, 0, 0, lc0⟩ 1 1
    522039352071) (.out ⟨660, 16, 715, 5834, 16, 6806, ⟨[[(14914104951816192, 0), (0, 1547050143744350),
    (14475661886, 0)], [(32927528385260891, 0), (0, 1508873466423), (13105798, 0)], [(13237966082308, 0), (0,
    399634476), (0, 6906)]], 2, 2⟩, ⟨[[(14227415290281984, 0), (0, 4350822572135181), (45027917952, 0)]], 2, 2⟩,
    72057594037927936, 96428099961208, 7388276653175, ⟨[], 0, 0⟩, 0, 0, 0, lc0⟩ 1 1 419465723768)) (.sx (.sy (.out
    ⟨978, 16, 1084, 5865, 16, 6877, ⟨[[(0, 29683224836653056), (0, 2299753608945047), (21592536004, 0)],
    [(24183823648223622, 0), (0, 1127257245418), (10217458, 0)], [(4819458672655, 0), (0, 153736480), (0, 2147)]], 2,
    2⟩, ⟨[[(0, 29466719577636864), (0, 4350884124011549), (44795825301, 0)]], 2, 2⟩, 72057594037927936,
    19463920496199, 7312106512256, ⟨[], 0, 0⟩, 0, 0, 0, lc0⟩ 1 1 378063389298) (.out ⟨977, 16, 1101, 5895, 16, 6948,
    ⟨[[(0, 19965123611852800), (0, 2313875635884948), (21781935818, 0)], [(23990962094435057, 0), (0, 1134431451315),
    (10544893, 0)], [(4816127769740, 0), (0, 158201192), (0, 1912)]], 2, 2⟩, ⟨[[(0, 23625785942409216), (0,
    4350714347864290), (44563749991, 0)]], 2, 2⟩, 72057594037927936, 19764064329821, 7236724567164, ⟨[], 0, 0⟩, 0, 0,
    0, lc0⟩ 1 1 277160288519)) (.sy (.sy (.out ⟨1328, 16, 1446, 11730, 16, 13737, ⟨[[(34249736608333824, 0), (0,
    1569323930382333), (7354060981, 0)], [(33004703280869309, 0), (0, 762149406768), (3325645, 0)], [(6779650203573,
    0), (0, 102322670), (0, 867)]], 2, 2⟩, ⟨[[(0, 11441933106413568), (0, 4356758071430794), (22457168556, 0)]], 2,
    2⟩, 72057594037927936, 24436655716445, 1832862874700, ⟨[], 0, 0⟩, 0, 0, 0, lc0⟩ 1 1 276669711401) (.out ⟨1329,
    16, 1459, 11760, 16, 13808, ⟨[[(29790720420233216, 0), (0, 1575994411185003), (7396987841, 0)],
    [(32916235751518738, 0), (0, 765615915478), (3388211, 0)], [(6788557208273, 0), (0, 104096755), (0, 827)]], 2,
    2⟩, ⟨[[(2667880692842496, 0), (0, 4356700207021544), (22398911118, 0)]], 2, 2⟩, 72057594037927936,
    24655894392941, 1823383862089, ⟨[], 0, 0⟩, 0, 0, 0, lc0⟩ 1 1 224928645529)) (.sy (.out ⟨1331, 16, 1473, 11791,
    16, 13880, ⟨[[(8020139174690816, 0), (0, 1583631079734687), (7444265511, 0)], [(32844924801734235, 0), (0,
    769511973275), (3452592, 0)], [(6800733316319, 0), (0, 105909327), (0, 786)]], 2, 2⟩, ⟨[[(0, 5270036732444672),
    (0, 4356899092158106), (22342270237, 0)]], 2, 2⟩, 72057594037927936, 24887075443739, 1814084978395, ⟨[], 0, 0⟩,
    0, 0, 0, lc0⟩ 1 1 174104667296) (.leaf ⟨1459, 16, 1516, 1550, 16, 5650, ⟨[[(0, 10883055766781952), (0,
    1622180779146274), (7636891325, 0), (0, 16490)], [(33407064315968805, 0), (0, 788392080905), (3585039, 0), (21,
    0)], [(6944342766939, 0), (0, 109789244), (0, 761)], [(2723453243, 0), (0, 3140), (0, 1)]], 3, 4⟩,
    ⟨[[(17176866596306944, 0), (0, 2177366195712793), (8915885988, 0), (0, 68628)], [(0, 27005563060156386), (0,
    116627263216), (1984377, 0), (0, 8)], [(4285118456708, 0), (0, 10624182), (456, 0)], [(0, 229270908), (0,
    17514)]], 3, 4⟩, 72057594037927936, 54833893863, 39313915002, ⟨[[(5422031534924, 0), (1867506033, 0), (386533,
    0), (337, 0), (1, 0)], [(0, 2496098120), (0, 1863786), (0, 788), (0, 1)], [(1954333, 0), (1714, 0), (1, 0)], [(0,
    1610), (0, 1)]], 3, 4⟩, 17592186044416, 209356,
    5400786743886647415600931315204899754297459765585714943043127542576291753373091953881847894786348588511919307935608680327461541,
    lc0⟩)))))
theorem c10 : checkR job con0 true ⟨7, 9, 7, 9, 13, 17⟩ 1 28336 t10 717 21 640 24219 251 32000 = true := by decide +kernel

def t11 : CTree :=
  .sx (.sy (.sx (.sy (.out ⟨970, 16, 1011, 5803, 16, 6735, ⟨[[(0, 5316995052716032), (0, 2276457339331130),
    (21156472092, 0)], [(24437462658505548, 0), (0, 1093380213340), (8697726, 0)], [(5094079737095, 0), (0,
    137433811), (0, 3332)]], 2, 2⟩, ⟨[[(35046154618929152, 0), (0, 4350522396894757), (45259952320, 0)]], 2, 2⟩,
    72057594037927936, 18424292656748, 7465234797646, ⟨[], 0, 0⟩, 0, 0, 0, lc0⟩ 1 1 315042809763) (.sy (.out ⟨1321,
    16, 1394, 11669, 16, 13595, ⟨[[(1653618218958848, 0), (0, 1558466259206525), (7263253775, 0)],
    [(33129280055091700, 0), (0, 749234799646), (3056477, 0)], [(6951901961671, 0), (0, 96419816), (0, 1071)]], 2,
    2⟩, ⟨[[(0, 1560738238038016), (0, 4356698760565305), (22573685670, 0)]], 2, 2⟩, 72057594037927936,
    23859625401619, 1851969219122, ⟨[], 0, 0⟩, 0, 0, 0, lc0⟩ 1 1 240507057879) (.out ⟨1322, 16, 1407, 11699, 16,
    13666, ⟨[[(29504907736662016, 0), (0, 1565649870172786), (7310687595, 0)], [(33059390390339974, 0), (0,
    753105527199), (3122794, 0)], [(6967611075919, 0), (0, 98378020), (0, 1029)]], 2, 2⟩, ⟨[[(35216287980191744, 0),
    (0, 4356757892402102), (22515428305, 0)]], 2, 2⟩, 72057594037927936, 24105012514374, 1842391324878, ⟨[], 0, 0⟩,
    0, 0, 0, lc0⟩ 1 1 189571151668))) (.sy (.sy (.out ⟨1314, 16, 1344, 11608, 16, 13454, ⟨[[(0, 8286257905418240),
    (0, 1547410986969530), (7159082730, 0)], [(33252940739088622, 0), (0, 735786655027), (2769947, 0)],
    [(7104504482966, 0), (0, 89697716), (0, 1284)]], 2, 2⟩, ⟨[[(24625387299799040, 0), (0, 4356723753116317),
    (22691860481, 0)]], 2, 2⟩, 72057594037927936, 23200508076768, 1871412418075, ⟨[], 0, 0⟩, 0, 0, 0, lc0⟩ 1 1
    202002791462) (.sy (.out ⟨1604, 16, 1651, 23277, 16, 27031, ⟨[[(6579118270627840, 0), (0, 947129187937529),
    (2194675890, 0)], [(40508846613332480, 0), (0, 450639930787), (860528, 0)], [(8685627525463, 0), (0, 55677710),
    (0, 382)]], 2, 2⟩, ⟨[[(11799252304396288, 0), (0, 4359524190623749), (11331003269, 0)]], 2, 2⟩,
    72057594037927936, 28287838613090, 466017631691, ⟨[], 0, 0⟩, 0, 0, 0, lc0⟩ 1 1 164975503265) (.out ⟨1605, 16,
    1659, 23308, 16, 27102, ⟨[[(17396517529370624, 0), (0, 949505749674924), (2202649859, 0)], [(40478035223696335,
    0), (0, 451952104017), (871193, 0)], [(8699532514575, 0), (0, 56328561), (0, 375)]], 2, 2⟩, ⟨[[(0,
    7746314527047680), (0, 4359591053800821), (11316411774, 0)]], 2, 2⟩, 72057594037927936, 28451341692653,
    464810738243, ⟨[], 0, 0⟩, 0, 0, 0, lc0⟩ 1 1 140499792036))) (.leaf ⟨1052, 16, 1028, 1062, 16, 3776,
    ⟨[[(30394477672480768, 0), (0, 2339764095840016), (21770808092, 0), (0, 72269), (0, 1)], [(24731620206368792, 0),
    (0, 1114739658244), (8794509, 0), (164, 0)], [(5346504439610, 0), (0, 141888210), (0, 3520)], [(1899278987, 0),
    (11055, 0), (0, 4)]], 3, 4⟩, ⟨[[(0, 31926577819451392), (0, 2979845829625508), (25546776393, 0), (0, 371350)],
    [(0, 17383719027094083), (0, 171353989089), (5634344, 0), (0, 33)], [(2854916136896, 0), (0, 22649329), (1155,
    0)], [(0, 83467748), (0, 22174)]], 3, 4⟩, 72057594037927936, 33842744276, 26965275334, ⟨[[(5274169367190, 0),
    (2596548503, 0), (796877, 0), (1099, 0), (3, 0)], [(0, 3296375585), (0, 3601285), (0, 2371), (0, 6)], [(3524087,
    0), (4693, 0), (5, 0)], [(0, 4043), (0, 6)]], 3, 4⟩, 17592186044416, 581098,
    4478471701214782311495251190914470621558920697934792241310148316874986045467867367554195413595039425869960839180090149077362049,
    lc0⟩))) (.sx (.sy (.sx (.sy (.out ⟨1949, 16, 2098, 11730, 16, 13737, ⟨[[(0, 32121107411255296), (0,
    2311910611824836), (10820695757, 0)], [(24258734434623427, 0), (0, 557575775461), (2370622, 0)], [(2548774526652,
    0), (0, 37077411), (0, 352)]], 2, 2⟩, ⟨[[(0, 11441933106413568), (0, 4356758071430794), (22457168556, 0)]], 2,
    2⟩, 72057594037927936, 4771840198056, 1832862874700, ⟨[], 0, 0⟩, 0, 0, 0, lc0⟩ 1 1 170825642031) (.leaf ⟨2129,
    16, 2157, 2104, 16, 7576, ⟨[[(29462208439549952, 0), (0, 2365773084564096), (11092306957, 0), (0, 21864)],
    [(24653781041578176, 0), (0, 570795542408), (2463746, 0), (17, 0)], [(2601225336767, 0), (0, 38473888), (0,
    343)], [(490446289, 0), (191, 0)]], 3, 4⟩, ⟨[[(0, 10182078755373056), (0, 2948993668486714), (12318248117, 0),
    (0, 92634)], [(0, 17844767395910382), (0, 81401046997), (1364947, 0), (0, 5)], [(1433878417084, 0), (0, 4416486),
    (151, 0)], [(0, 31330817), (0, 2882)]], 3, 4⟩, 72057594037927936, 5399708817, 3474391245, ⟨[[(5366057423060, 0),
    (1353071327, 0), (209623, 0), (142, 0)], [(0, 1679936952), (0, 927677), (0, 301)], [(896215, 0), (591, 0)], [(0,
    507)]], 3, 4⟩, 17592186044416, 120827,
    4239820142846848233949504784358280242731290381717866480054323826239671100787928851161584663886376887512390122220148363701251610,
    lc0⟩)) (.leaf ⟨1383, 16, 1386, 1262, 16, 4545, ⟨[[(0, 7127826105696256), (0, 3078421402317034), (28814921713, 0),
    (0, 107670), (0, 2)], [(16076263182669733, 0), (0, 739256782469), (6219767, 0), (96, 0)], [(1717483338409, 0),
    (0, 49150206), (0, 974)], [(317448391, 0), (721, 0), (0, 1)]], 3, 4⟩, ⟨[[(7639280531308544, 0), (0,
    3549912249493081), (29865884588, 0), (0, 445719)], [(0, 10620918145927867), (0, 98962543554), (3314354, 0), (0,
    23)], [(858674686429, 0), (0, 5822515), (358, 0)], [(0, 16710166), (0, 3416)]], 3, 4⟩, 72057594037927936,
    4882461962, 3385858351, ⟨[[(5326826005148, 0), (2219604768, 0), (562933, 0), (618, 0), (1, 0)], [(0, 2550086392),
    (0, 2335874), (0, 1240), (0, 2)], [(2086282, 0), (2289, 0), (2, 0)], [(0, 1817), (0, 2)]], 3, 4⟩, 17592186044416,
    209004,
    3651114850480324356085882011895077821782045553847278941638430798192989240874000447212690314730142423688247404944418999599468463,
    lc0⟩)) (.leaf ⟨1058, 16, 1081, 1036, 16, 3796, ⟨[[(26840998470516736, 0), (0, 2366503848339471), (22240993448,
    0), (0, 88146), (0, 1)], [(24390459930789026, 0), (0, 1140022567803), (9976383, 0), (136, 0)], [(5218122133098,
    0), (0, 156252125), (0, 2630)], [(1974324095, 0), (107, 0), (0, 3)]], 3, 4⟩, ⟨[[(10666102982393856, 0), (0,
    2938460928089393), (24326609484, 0), (0, 370996), (1, 0)], [(0, 17882935411750437), (0, 159403209927), (5451392,
    0), (0, 41)], [(2863177514218, 0), (0, 17516530), (1218, 0)], [(0, 128710757), (0, 23029)]], 3, 4⟩,
    72057594037927936, 40954568005, 28045490353, ⟨[[(5346867829824, 0), (2703818590, 0), (798785, 0), (952, 0), (3,
    0)], [(0, 3349002337), (0, 3694670), (0, 2194), (0, 5)], [(3592135, 0), (4667, 0), (4, 0)], [(0, 4084), (0, 5)]],
    3, 4⟩, 17592186044416, 544800,
    2925516526176688301455580463199070126631769591949752493829534038357456518165239374372702349859066695702165094164437954712000576,
    lc0⟩)) (.leaf ⟨683, 16, 683, 621, 16, 2274, ⟨[[(6808267862999040, 0), (0, 3065663671932421), (57410828694, 0),
    (0, 407295), (0, 15)], [(15877276025455162, 0), (0, 1463299586677), (24315150, 0), (798, 0)], [(3479948859404,
    0), (0, 195112541), (0, 8110), (1, 0)], [(1266079460, 0), (7721, 0), (0, 9)]], 3, 4⟩, ⟨[[(0, 24315920424787968),
    (0, 3543494533876158), (59518303640, 0), (0, 1788447), (3, 0)], [(0, 10544692488766046), (0, 196238374304),
    (13378137, 0), (0, 185)], [(1709428731399, 0), (0, 25149208), (2873, 0)], [(0, 60366362), (0, 26930)]], 3, 4⟩,
    72057594037927936, 29335080254, 23060221162, ⟨[[(5273366557703, 0), (4377261169, 0), (2096160, 0), (3962, 0),
    (21, 0)], [(0, 5052473271), (0, 9222992), (0, 8850), (0, 33)], [(8332992, 0), (18051, 0), (29, 0)], [(0, 14690),
    (0, 33)]], 3, 4⟩, 17592186044416, 3751655,
    3586167187933218036701387358165407534375068729696826467529845414901742441605884011062261067439448998736715741296726683372312559,
    lc0⟩))) (.sy (.sx (.leaf ⟨682, 16, 652, 632, 16, 2249, ⟨[[(126343407607808, 0), (0, 3041764993751750),
    (56274979805, 0), (0, 321296), (0, 17)], [(16156740982438290, 0), (0, 1434416536994), (21158433, 0), (951, 0)],
    [(3565856540769, 0), (0, 175230769), (0, 10557), (1, 0)], [(1216756033, 0), (22786, 0), (0, 10)]], 3, 4⟩,
    ⟨[[(34930960676413440, 0), (0, 3573740800831112), (62099858816, 0), (0, 1773635), (0, 5)], [(0,
    10185082286539092), (0, 209956755131), (13706701, 0), (0, 139)], [(1698784886908, 0), (0, 30939091), (2662, 0)],
    [(0, 33656704), (0, 25626)]], 3, 4⟩, 72057594037927936, 23792898949, 22800808238, ⟨[[(5196982437421, 0),
    (4220573269, 0), (2091058, 0), (4578, 0), (22, 0)], [(0, 4943693792), (0, 8967717), (0, 9444), (0, 36)],
    [(8082763, 0), (17996, 0), (33, 0)], [(0, 14317), (0, 33)]], 3, 4⟩, 17592186044416, 3642860,
    4201377147756633528099002931643866745590265788362386861269847578188340168838756610136015656607564800459046398060948110840024736,
    lc0⟩) (.leaf ⟨679, 16, 640, 627, 16, 2250, ⟨[[(0, 15823739849506816), (0, 3045219907129999), (56092522065, 0),
    (0, 274133), (0, 19)], [(16159740035886930, 0), (0, 1422334437621), (19845353, 0), (1032, 0)], [(3651521732282,
    0), (0, 168759225), (0, 11643), (1, 0)], [(1206914355, 0), (29260, 0), (0, 11)]], 3, 4⟩, ⟨[[(0,
    9484292599169024), (0, 3584208428051888), (62708071148, 0), (0, 1780056), (0, 6)], [(0, 10047005400313012), (0,
    212784567969), (13933954, 0), (0, 129)], [(1696097715409, 0), (0, 34138224), (2601, 0)], [(0, 20982589), (0,
    24920), (0, 1)]], 3, 4⟩, 72057594037927936, 23585273525, 22484728273, ⟨[[(5127854552679, 0), (4112355512, 0),
    (1936835, 0), (3804, 0), (20, 0)], [(0, 4834036812), (0, 8692546), (0, 8455), (0, 32)], [(7876166, 0), (17364,
    0), (30, 0)], [(0, 14014), (0, 32)]], 3, 4⟩, 17592186044416, 3576967,
    4510816606650476478089916056852319399061021271573235118826547850701704149480291904392178998109849003531076742198320722237564002,
    lc0⟩)) (.leaf ⟨516, 16, 506, 511, 16, 1901, ⟨[[(35984335117008896, 0), (0, 2340063645633771), (43642088285, 0),
    (0, 261238), (0, 14)], [(24197516112458770, 0), (0, 2204405852699), (34349890, 0), (1393, 0)], [(11029113629236,
    0), (0, 571322698), (0, 29324), (4, 0)], [(7661078816, 0), (100952, 0), (0, 59)]], 3, 4⟩, ⟨[[(16426008864968704,
    0), (0, 2972685860187113), (50469679450, 0), (0, 1504588), (2, 0)], [(0, 17271085704878366), (0, 333927384437),
    (22967296, 0), (0, 293)], [(5684254679820, 0), (0, 100814419), (9426, 0)], [(0, 271183081), (0, 173680), (0,
    2)]], 3, 4⟩, 72057594037927936, 274006331054, 216694901605, ⟨[[(5165402118512, 0), (5046022830, 0), (2702407, 0),
    (4881, 0), (34, 0)], [(0, 6412692933), (0, 13890783), (0, 14133), (0, 58)], [(13852406, 0), (35548, 0), (60, 0)],
    [(0, 32332), (0, 85)]], 3, 4⟩, 17592186044416, 12240849,
    4398047790520864445730199621906581345866151798835856992052229437351936172122875098371075006515733780742407991970806454749200307,
    lc0⟩))
theorem c11 : checkR job con0 true ⟨7, 9, 7, 9, 13, 17⟩ 1 28336 t11 759 21 640 24219 251 32000 = true := by decide +kernel

def t12 : CTree :=
  .sy (.sy (.out ⟨669, 16, 783, 5925, 16, 7020, ⟨[[(0, 12695567425880064), (0, 1580164867837456), (14898940637, 0)],
    [(32500946347575826, 0), (0, 1569903954291), (15471018, 0)], [(12443776212938, 0), (0, 448517220), (0, 3342)]],
    2, 2⟩, ⟨[[(20859084081659904, 0), (0, 4350940108210500), (44338079793, 0)]], 2, 2⟩, 72057594037927936,
    101549983781321, 7163150714317, ⟨[], 0, 0⟩, 0, 0, 0, lc0⟩ 1 1 359767989706) (.sy (.out ⟨824, 16, 977, 11912, 16,
    14167, ⟨[[(19417857850474496, 0), (0, 978858282438136), (4620532298, 0)], [(39818772216596151, 0), (0,
    972138710749), (4863922, 0)], [(15315640215415, 0), (0, 281277618), (0, 891)]], 2, 2⟩, ⟨[[(5132228483219456, 0),
    (0, 4356801220253690), (22114058423, 0)]], 2, 2⟩, 72057594037927936, 124745201912853, 1777231519114, ⟨[], 0, 0⟩,
    0, 0, 0, lc0⟩ 1 1 294353159683) (.out ⟨827, 16, 988, 11942, 16, 14239, ⟨[[(0, 23774037121744896), (0,
    985197179266532), (4654171075, 0)], [(39774823431375500, 0), (0, 978133482084), (4942653, 0)], [(15345068410190,
    0), (0, 285299526), (0, 802)]], 2, 2⟩, ⟨[[(13123080855748608, 0), (0, 4356713149155724), (22057408472, 0)]], 2,
    2⟩, 72057594037927936, 125871423938879, 1768167556786, ⟨[], 0, 0⟩, 0, 0, 0, lc0⟩ 1 1 241055928104))) (.sx (.sy
    (.sy (.out ⟨1356, 16, 1646, 11973, 16, 14312, ⟨[[(23028411742846976, 0), (0, 1616590162484357), (7636023214, 0)],
    [(32462058602694552, 0), (0, 805652511793), (4147414, 0)], [(6155846622872, 0), (0, 118252197), (0, 244)]], 2,
    2⟩, ⟨[[(0, 1663456612450304), (0, 4356874390636751), (22002304782, 0)]], 2, 2⟩, 72057594037927936,
    26118720195265, 1759273366177, ⟨[], 0, 0⟩, 0, 0, 0, lc0⟩ 1 1 259228626730) (.out ⟨1357, 16, 1661, 12004, 16,
    14385, ⟨[[(24628384584073216, 0), (0, 1623601581634459), (7673983655, 0)], [(32350818270143421, 0), (0,
    808784153370), (4201617, 0)], [(6151982562148, 0), (0, 119557323), (0, 207)]], 2, 2⟩, ⟨[[(0, 27672357826461696),
    (0, 4356978286798175), (21947190911, 0)]], 2, 2⟩, 72057594037927936, 26290873192393, 1750423465691, ⟨[], 0, 0⟩,
    0, 0, 0, lc0⟩ 1 1 215538529318)) (.sy (.out ⟨1360, 16, 1678, 12033, 16, 14457, ⟨[[(0, 11950566615908352), (0,
    1632451383771633), (7720423092, 0)], [(32272828288176713, 0), (0, 812792401101), (4260183, 0)], [(6154265262039,
    0), (0, 120972003), (0, 171)]], 2, 2⟩, ⟨[[(19319425067515904, 0), (0, 4356724340822188), (21890557075, 0)]], 2,
    2⟩, 72057594037927936, 26489685608290, 1741497254763, ⟨[], 0, 0⟩, 0, 0, 0, lc0⟩ 1 1 166094194570) (.leaf ⟨1503,
    16, 1728, 1465, 16, 5593, ⟨[[(0, 7881870997372928), (0, 1673128539956663), (7917261834, 0), (0, 22100)],
    [(32815401035819057, 0), (0, 832599197254), (4402118, 0), (10, 0)], [(6275067564997, 0), (0, 124734293), (0,
    138)], [(2887024327, 0), (0, 17588), (0, 1)]], 3, 4⟩, ⟨[[(0, 12685528074240000), (0, 2075231260690351),
    (7792501179, 0), (0, 64336)], [(0, 28241552095272247), (0, 99189160371), (1746674, 0), (0, 9)], [(4338664370026,
    0), (0, 164262), (439, 0)], [(0, 400339197), (0, 18193)]], 3, 4⟩, 72057594037927936, 71500068867, 41448098077,
    ⟨[[(5666530968116, 0), (2122402233, 0), (441007, 0), (334, 0), (1, 0)], [(0, 2623311963), (0, 2039874), (0, 762),
    (0, 1)], [(2037507, 0), (1759, 0), (1, 0)], [(0, 1623), (0, 1)]], 3, 4⟩, 17592186044416, 185475,
    5182477599317783949041581435979032043111080084834982081263404441167100323531703635345226939401724285304128567521147613067971563,
    lc0⟩))) (.sy (.sx (.sy (.out ⟨1973, 16, 2369, 11973, 16, 14312, ⟨[[(0, 26933112739184640), (0, 2363366783997334),
    (11177765719, 0)], [(23645508996379813, 0), (0, 585157697804), (2971832, 0)], [(2309962774997, 0), (0, 43021473),
    (0, 115)]], 2, 2⟩, ⟨[[(0, 1663456612450304), (0, 4356874390636751), (22002304782, 0)]], 2, 2⟩, 72057594037927936,
    5171601080769, 1759273366177, ⟨[], 0, 0⟩, 0, 0, 0, lc0⟩ 1 1 168973113922) (.out ⟨1973, 16, 2389, 12004, 16,
    14385, ⟨[[(0, 20499696317792256), (0, 2372024416504456), (11227443877, 0)], [(23549660674256101, 0), (0,
    587082022702), (3010520, 0)], [(2307657301866, 0), (0, 43493579), (0, 101)]], 2, 2⟩, ⟨[[(0, 27672357826461696),
    (0, 4356978286798175), (21947190911, 0)]], 2, 2⟩, 72057594037927936, 5206029100280, 1750423465691, ⟨[], 0, 0⟩, 0,
    0, 0, lc0⟩ 1 1 126630129415)) (.leaf ⟨1399, 16, 1553, 1227, 16, 4634, ⟨[[(31410568245723136, 0), (0,
    3123504724613035), (29579883791, 0), (0, 152257), (0, 1)], [(15533039863797291, 0), (0, 770003961380), (7784930,
    0), (51, 0)], [(1549210252396, 0), (0, 56872386), (0, 331)], [(334964328, 0), (0, 3018)]], 3, 4⟩, ⟨[[(0,
    6255485233102848), (0, 3480748225048286), (26948946117, 0), (0, 436569), (2, 0)], [(0, 11459331486938830), (0,
    86084749325), (3028218, 0), (0, 30)], [(887257334010, 0), (0, 1708646), (373, 0)], [(0, 34651930), (0, 3704)]],
    3, 4⟩, 72057594037927936, 5021489578, 4307880612, ⟨[[(5563661699840, 0), (2451164538, 0), (607256, 0), (560, 0),
    (1, 0)], [(0, 2723661380), (0, 2530683), (0, 1166), (0, 2)], [(2254687, 0), (2364, 0), (2, 0)], [(0, 1932), (0,
    2)]], 3, 4⟩, 17592186044416, 227266,
    3993161462149325663370912407953574586677270580900712244820117726269282254661912780796274164591900793361935346235238418074741732,
    lc0⟩)) (.leaf ⟨1081, 16, 1222, 994, 16, 3818, ⟨[[(0, 24634428190441472), (0, 2421922293284942), (22963786088, 0),
    (0, 122129), (0, 1)], [(23739756683695394, 0), (0, 1195646449446), (12382518, 0), (69, 0)], [(4720040534512, 0),
    (0, 179241416), (0, 725)], [(2087601628, 0), (0, 22075), (0, 2)]], 3, 4⟩, ⟨[[(0, 19423251216695296), (0,
    2844365815895673), (21613608492, 0), (0, 354690), (2, 0)], [(0, 19014312489495089), (0, 136795256906), (4889684,
    0), (0, 50)], [(2929237065108, 0), (0, 3632272), (1217, 0)], [(0, 246535176), (0, 24440)]], 3, 4⟩,
    72057594037927936, 53836536735, 29682188012, ⟨[[(5582270990692, 0), (3023342003, 0), (888931, 0), (888, 0), (3,
    0)], [(0, 3541905645), (0, 4018406), (0, 2090), (0, 4)], [(3804805, 0), (4814, 0), (4, 0)], [(0, 4219), (0, 5)]],
    3, 4⟩, 17592186044416, 562499,
    3155740390814033208416547054393289952537537581623120444100567916680400567536844979886125888433359628273189215933022252736368211,
    lc0⟩)))
theorem c12 : checkR job con0 true ⟨7, 9, 7, 9, 13, 17⟩ 1 28336 t12 1413 21 1280 24721 251 32000 = true := by decide +kernel

def t13 : CTree :=
  .sy (.sx (.sy (.sy (.out ⟨1339, 16, 1528, 11851, 16, 14023, ⟨[[(0, 14037147701002240), (0, 1594280356752160),
    (7517914624, 0)], [(32704680589314072, 0), (0, 781657747284), (3699303, 0)], [(6600936876191, 0), (0, 110725671),
    (0, 595)]], 2, 2⟩, ⟨[[(27867169336066048, 0), (0, 4356808618459270), (22227367946, 0)]], 2, 2⟩,
    72057594037927936, 25353233084075, 1795499343301, ⟨[], 0, 0⟩, 0, 0, 0, lc0⟩ 1 1 201434915872) (.sy (.out ⟨1646,
    16, 1890, 23764, 16, 28172, ⟨[[(0, 21793261550387200), (0, 982495020854031), (2318578690, 0)],
    [(40089413102781044, 0), (0, 481693228997), (1149935, 0)], [(8113104347098, 0), (0, 68748400), (0, 174)]], 2, 2⟩,
    ⟨[[(0, 27698782475124736), (0, 4359618015237335), (11099530304, 0)]], 2, 2⟩, 72057594037927936, 30990084329810,
    447156703167, ⟨[], 0, 0⟩, 0, 0, 0, lc0⟩ 1 1 168044736714) (.out ⟨1648, 16, 1900, 23794, 16, 28244, ⟨[[(0,
    33709609377562624), (0, 985355323246747), (2326688362, 0)], [(40058728633543016, 0), (0, 483079250385), (1159943,
    0)], [(8121293066471, 0), (0, 69284156), (0, 168)]], 2, 2⟩, ⟨[[(0, 4447368239120384), (0, 4359608991042491),
    (11085339318, 0)]], 2, 2⟩, 72057594037927936, 31132681667598, 446014502473, ⟨[], 0, 0⟩, 0, 0, 0, lc0⟩ 1 1
    143361526477))) (.leaf ⟨1072, 16, 1160, 1018, 16, 3802, ⟨[[(6569644825411584, 0), (0, 2392111603794770),
    (22625740678, 0), (0, 109311), (0, 1)], [(24087886063645964, 0), (0, 1172591090923), (11423055, 0), (95, 0)],
    [(4905020821382, 0), (0, 170176903), (0, 1477)], [(2038913433, 0), (0, 13379), (0, 3)]], 3, 4⟩,
    ⟨[[(32784955187585024, 0), (0, 2882892081665576), (22812766633, 0), (0, 363325), (2, 0)], [(0,
    18548600476933394), (0, 146786285489), (5118827, 0), (0, 47)], [(2895429639081, 0), (0, 9128657), (1236, 0)],
    [(0, 197958088), (0, 24035)]], 3, 4⟩, 72057594037927936, 47873085567, 28853745525, ⟨[[(5500610717300, 0),
    (2898995390, 0), (874598, 0), (1018, 0), (3, 0)], [(0, 3481651594), (0, 3911902), (0, 2265), (0, 5)], [(3740231,
    0), (4807, 0), (4, 0)], [(0, 4186), (0, 5)]], 3, 4⟩, 17592186044416, 520701,
    4931441511184448050615108581864161249513787861857295324849156518497242150793021109993221877811901666451783284911375096395578995,
    lc0⟩)) (.leaf ⟨689, 16, 730, 615, 16, 2297, ⟨[[(0, 3201542170222592), (0, 3087747561728582), (58353023568, 0),
    (0, 522884), (0, 11)], [(15612811753710717, 0), (0, 1501024566863), (28192392, 0), (578, 0)], [(3277016992488,
    0), (0, 214858337), (0, 4953), (1, 0)], [(1308759668, 0), (0, 10894), (0, 7)]], 3, 4⟩, ⟨[[(0, 6591036740345856),
    (0, 3504955142446880), (56320774231, 0), (0, 1772595), (13, 0)], [(0, 11037317068705835), (0, 181621468156),
    (12706110, 0), (0, 222)], [(1736981689533, 0), (0, 15406249), (2990, 0)], [(0, 102150543), (0, 28502)]], 3, 4⟩,
    72057594037927936, 35907911055, 20967344814, ⟨[[(5422819340248, 0), (4654387973, 0), (2259802, 0), (4114, 0),
    (22, 0)], [(0, 5270677714), (0, 9732095), (0, 9058), (0, 33)], [(8752972, 0), (18622, 0), (27, 0)], [(0, 15256),
    (0, 33)]], 3, 4⟩, 17592186044416, 3745246,
    3950974298388430847916094597780129679578223284356840204785363536987892689445386793491998642735892875946226194174536433779057651,
    lc0⟩)) (.leaf ⟨530, 16, 583, 494, 16, 1909, ⟨[[(0, 17394738655780864), (0, 2394884299816139), (45472546359, 0),
    (0, 443247), (0, 8)], [(23535839851924011, 0), (0, 2336993872022), (46537167, 0), (719, 0)], [(9859691235353, 0),
    (0, 696207768), (0, 10115), (3, 0)], [(8233238012, 0), (0, 127332), (0, 41)]], 3, 4⟩, ⟨[[(0, 27960750089932800),
    (0, 2864079301979390), (44393743961, 0), (0, 1440706), (18, 0)], [(0, 18613182298595282), (0, 280166293576),
    (20328920, 0), (0, 402)], [(5776231628419, 0), (0, 35246874), (9899, 0)], [(0, 820947947), (0, 190734), (1, 0)]],
    3, 4⟩, 72057594037927936, 407927863019, 227438107137, ⟨[[(5462215745890, 0), (5794905416, 0), (3265157, 0),
    (5602, 0), (40, 0)], [(0, 6922798209), (0, 15601501), (0, 15277), (0, 62)], [(15038295, 0), (38091, 0), (53, 0)],
    [(0, 34042), (0, 85)]], 3, 4⟩, 17592186044416, 12118147,
    3837608016594832113079232904857235495933362199355907024604738487272177216164799036772144005277958441598286605944224964794879387,
    lc0⟩)
theorem c13 : checkR job con0 true ⟨7, 9, 7, 9, 13, 17⟩ 1 28336 t13 1455 21 1280 24721 251 32000 = true := by decide +kernel

def t14 : CTree :=
  .sx (.sy (.leaf ⟨523, 16, 543, 502, 16, 1906, ⟨[[(0, 17226978032615424), (0, 2367753115935080), (44710144061, 0),
    (0, 358961), (0, 11)], [(23864386750892355, 0), (0, 2273457192812), (40874824, 0), (1046, 0)], [(10496063787489,
    0), (0, 643409331), (0, 19196), (3, 0)], [(7995517502, 0), (0, 21480), (0, 50)]], 3, 4⟩, ⟨[[(22291786807316480,
    0), (0, 2917885622414609), (47407809155, 0), (0, 1482405), (10, 0)], [(0, 17955717774865853), (0, 305190159704),
    (21711505, 0), (0, 364)], [(5707628964031, 0), (0, 68750138), (9908, 0)], [(0, 541221543), (0, 183582)]], 3, 4⟩,
    72057594037927936, 348319874801, 221381459708, ⟨[[(5305058069072, 0), (5397672646, 0), (2960202, 0), (5125, 0),
    (37, 0)], [(0, 6642390853), (0, 14689781), (0, 14666), (0, 60)], [(14395952, 0), (36691, 0), (56, 0)], [(0,
    33077), (0, 85)]], 3, 4⟩, 17592186044416, 12287724,
    4082520513381873857736029874536225240961260323081344765846259956704606726827991536308576678866850851269576249680711521822930915,
    lc0⟩) (.leaf ⟨523, 16, 561, 486, 16, 1921, ⟨[[(15045108983693312, 0), (0, 2400151099178715), (45617163379, 0),
    (0, 392645), (0, 11)], [(23487137463056168, 0), (0, 2305643574312), (43741016, 0), (926, 0)], [(10505701813348,
    0), (0, 682282560), (0, 15174), (3, 0)], [(8236837183, 0), (0, 71510), (0, 47)]], 3, 4⟩, ⟨[[(0,
    4388150672498688), (0, 2894000553529684), (45549623405, 0), (0, 1466836), (17, 0)], [(0, 18245971712902641), (0,
    285910290406), (21297946, 0), (0, 408)], [(5720289023088, 0), (0, 59216326), (10056, 0)], [(0, 638396593), (0,
    185006)]], 3, 4⟩, 72057594037927936, 393118891950, 226059425783, ⟨[[(5310020464760, 0), (5490223166, 0),
    (2897039, 0), (3297, 0), (29, 0)], [(0, 6624709867), (0, 14797483), (0, 12622), (0, 44)], [(14424621, 0), (36334,
    0), (43, 0)], [(0, 33122), (0, 83)]], 3, 4⟩, 17592186044416, 11804447,
    2700316190382154136750404625381115636311101410279794811447876622122672528279459938646447932835530211370991582940096191565521949,
    lc0⟩)) (.leaf ⟨332, 16, 341, 291, 16, 1153, ⟨[[(0, 12508186432303104), (0, 3066042981422370), (115929876208, 0),
    (0, 1624502), (0, 139)], [(15201890851076983, 0), (0, 2898419878942), (100353057, 0), (6229, 0), (0, 1)],
    [(7132521762776, 0), (0, 821781037), (0, 58699), (17, 0)], [(5192553094, 0), (23992, 0), (0, 139)]], 3, 4⟩,
    ⟨[[(33550478615674880, 0), (0, 3516898635545215), (114243508006, 0), (0, 7194583), (121, 0)], [(0,
    10620000390510981), (0, 363777238305), (53875317, 0), (0, 1831)], [(3404893817460, 0), (0, 104585261), (24009,
    0), (1, 0)], [(0, 244386911), (0, 213327), (0, 2)]], 3, 4⟩, 72057594037927936, 257831951238, 213842012725,
    ⟨[[(5157705141890, 0), (8596104947, 0), (7267298, 0), (10537, 0), (181, 0)], [(0, 9854822152), (0, 36214482), (0,
    48689), (0, 256), (0, 2)], [(33290537, 0), (139856, 0), (269, 0), (2, 0)], [(0, 120518), (0, 506), (0, 1)]], 3,
    4⟩, 17592186044416, 104348107,
    4056687844476722483277857899093683441284201161646614966607458627297093222725543596880120673470512813408132793135834311046038981,
    lc0⟩)
theorem c14 : checkR job con0 true ⟨7, 9, 7, 9, 13, 17⟩ 1 28336 t14 759 21 640 24721 251 32000 = true := by decide +kernel

def t15 : CTree :=
  .sy (.sx (.sy (.sx (.sx (.leaf ⟨674, 16, 627, 622, 16, 2252, ⟨[[(22274862944509952, 0), (0, 3042177883174146),
    (55748819497, 0), (0, 223964), (0, 21)], [(16138269864071762, 0), (0, 1407166725917), (18428342, 0), (1114, 0)],
    [(3727034585605, 0), (0, 161263716), (0, 12749), (1, 0)], [(1193295224, 0), (35997, 0), (0, 11)]], 3, 4⟩, ⟨[[(0,
    28400714556047360), (0, 3596401394611459), (63354108967, 0), (0, 1786827), (0, 7)], [(0, 9913426046172364), (0,
    215974568274), (14162047, 0), (0, 118)], [(1695755769590, 0), (0, 37264867), (2531, 0)], [(0, 8368934), (0,
    24201), (0, 1)]], 3, 4⟩, 72057594037927936, 22733441434, 22428364889, ⟨[[(5062744890559, 0), (4011776215, 0),
    (1804657, 0), (3124, 0), (17, 0)], [(0, 4746054424), (0, 8467680), (0, 7606), (0, 27)], [(7729954, 0), (16884,
    0), (27, 0)], [(0, 13857), (0, 32)]], 3, 4⟩, 17592186044416, 3513919,
    4352311591886094579826382622177826148018320307637655126660501238148456087919146921435752417349923498656540687527606334147605602,
    lc0⟩) (.leaf ⟨671, 16, 615, 616, 16, 2253, ⟨[[(0, 20116652191703040), (0, 3042200533968918), (55418161993, 0),
    (0, 171572), (0, 22)], [(16142693468348148, 0), (0, 1393321890961), (16966835, 0), (1199, 0)], [(3803774165912,
    0), (0, 153244677), (0, 13911), (1, 0)], [(1179593022, 0), (43088, 0), (0, 12)]], 3, 4⟩, ⟨[[(10277943123959808,
    0), (0, 3607140879626178), (63981731542, 0), (0, 1792309), (0, 8)], [(0, 9775343472405248), (0, 219328894777),
    (14377666, 0), (0, 105)], [(1696246268704, 0), (0, 40283952), (2450, 0)], [(4193784, 0), (0, 23443), (0, 1)]], 3,
    4⟩, 72057594037927936, 21648649261, 22546553518, ⟨[[(4991043298032, 0), (3904876983, 0), (1679004, 0), (2468, 0),
    (15, 0)], [(0, 4632043590), (0, 8203844), (0, 6749), (0, 23)], [(7509965, 0), (16263, 0), (24, 0)], [(0, 13523),
    (0, 30)]], 3, 4⟩, 17592186044416, 3372538,
    4715220251111192221849197534384017401836487611683282209735396990122844804000346391471288631143976313141916486072263416126851717,
    lc0⟩)) (.out ⟨466, 16, 445, 1848, 16, 1334, ⟨[[(19502129512988672, 0), (0, 2265213884536912), (40830671168, 0)],
    [(24074948412828102, 0), (0, 2043480782960), (21811800, 0)], [(11657600138135, 0), (0, 416524752), (0, 46886)]],
    2, 2⟩, ⟨[[(29518371891920896, 0), (0, 3001691831124415), (53795722672, 0)], [(0, 15851791043402389), (0,
    372490606144), (24333686, 0)], [(5632839398884, 0), (0, 147888668), (7648, 0)]], 2, 2⟩, 72057594037927936,
    67188335332395, 25861307822719, ⟨[], 0, 0⟩, 0, 0, 0, lc0⟩ 0 357 17)) (.sx (.leaf ⟨511, 16, 487, 504, 16, 1912,
    ⟨[[(0, 3821420556845056), (0, 2342265495800442), (43337732783, 0), (0, 188923), (0, 17)], [(24219920171392570,
    0), (0, 2167167170052), (30374355, 0), (1642, 0)], [(11555598632426, 0), (0, 532575678), (0, 35899), (4, 0)],
    [(7552103703, 0), (179647, 0), (0, 65)]], 3, 4⟩, ⟨[[(14473901951954944, 0), (0, 3004184840926595), (51748465937,
    0), (0, 1525095), (1, 0)], [(0, 16891914864519653), (0, 345285735396), (23882976, 0), (0, 266)], [(5693909074115,
    0), (0, 122842985), (9137, 0)], [(0, 96354910), (0, 165622), (0, 3)]], 3, 4⟩, 72057594037927936, 233261101420,
    219019181809, ⟨[[(5024872400636, 0), (4770107398, 0), (2372239, 0), (2927, 0), (25, 0)], [(0, 6123160933), (0,
    13068295), (0, 11426), (0, 41)], [(13152251, 0), (33283, 0), (49, 0)], [(0, 31009), (0, 80)]], 3, 4⟩,
    17592186044416, 11683293,
    4135191271508579104054577271699592748331000906775743459479428755750785930096262101837430845057479119349784531216585636943336168,
    lc0⟩) (.leaf ⟨505, 16, 468, 497, 16, 1923, ⟨[[(0, 10212752009830400), (0, 2339241743724630), (42807234437, 0),
    (0, 108569), (0, 20)], [(24246462981858871, 0), (0, 2124536061718), (25944696, 0), (1904, 0)], [(12028341249979,
    0), (0, 484333818), (0, 42941), (4, 0)], [(7396328264, 0), (265675, 0), (0, 72)]], 3, 4⟩, ⟨[[(24453081100533760,
    0), (0, 3036283870267992), (53070989452, 0), (0, 1544352), (0, 1)], [(0, 16508258412577457), (0, 358515021067),
    (24773326, 0), (0, 230)], [(5725547179232, 0), (0, 143931784), (8715, 0)], [(78850369, 0), (0, 156838), (0, 4)]],
    3, 4⟩, 72057594037927936, 186723110736, 218400613834, ⟨[[(4893807529186, 0), (4518338293, 0), (2133471, 0),
    (1559, 0), (18, 0)], [(0, 5870825288), (0, 12376402), (0, 9456), (0, 28)], [(12555755, 0), (31454, 0), (40, 0)],
    [(0, 29961), (0, 77)]], 3, 4⟩, 17592186044416, 11228497,
    3506938068715874349843202456571252643624357549085578245305735490938395022964120722017848425445790512355841203533039383206964055,
    lc0⟩))) (.sy (.out ⟨309, 16, 282, 1421, 16, 1033, ⟨[[(17310336742367232, 0), (0, 1518056832700235), (26615382156,
    0)], [(32478917603030845, 0), (0, 2650741078573), (18975441, 0)], [(32864153164438, 0), (0, 860493170), (0,
    157555)]], 2, 2⟩, ⟨[[(0, 10919468326748160), (0, 2343052714423530), (42866879298, 0)], [(0, 23446574657220867),
    (0, 608359961211), (39066175, 0)], [(17608177222184, 0), (0, 539403405), (19928, 0)]], 2, 2⟩, 72057594037927936,
    337484073124444, 45662893767502, ⟨[], 0, 0⟩, 0, 0, 0, lc0⟩ 0 103 10) (.out ⟨308, 16, 291, 1411, 16, 1038,
    ⟨[[(21071745042251776, 0), (0, 1538901007850692), (27515998926, 0)], [(32147686717106871, 0), (0, 2713224359050),
    (24405577, 0)], [(33427876656692, 0), (0, 1041709554), (0, 143858)]], 2, 2⟩, ⟨[[(34019008288686080, 0), (0,
    2312031249049961), (41310102202, 0)], [(0, 23857060262766793), (0, 571994291911), (39012921, 0)],
    [(17426652304342, 0), (0, 520191746), (23347, 0)]], 2, 2⟩, 72057594037927936, 358041088521158, 42402415920039,
    ⟨[], 0, 0⟩, 0, 0, 0, lc0⟩ 0 1164 68))) (.sx (.sy (.leaf ⟨344, 16, 334, 364, 16, 1456, ⟨[[(659772245221376, 0),
    (0, 1607588520521595), (29971916116, 0), (0, 129746), (0, 12)], [(32403815170051938, 0), (0, 2961508383158),
    (43019689, 0), (2231, 0)], [(32270566429440, 0), (0, 1528369855), (0, 93929), (10, 0)], [(42387808504, 0),
    (872544, 0), (0, 352)]], 3, 4⟩, ⟨[[(28143283828973568, 0), (0, 2254199276924700), (38039115225, 0), (0, 1160195),
    (5, 0)], [(0, 25621353175097198), (0, 497278579946), (36295670, 0), (0, 491)], [(17137146896752, 0), (0,
    377319282), (28902, 0), (1, 0)], [(0, 550489739), (0, 999238), (0, 16)]], 3, 4⟩, 72057594037927936,
    2854568678519, 2601917139637, ⟨[[(4958071183388, 0), (6266644356, 0), (3999668, 0), (2428, 0), (50, 0)], [(0,
    8792882959), (0, 25180438), (0, 24329), (0, 82), (0, 1)], [(28002450, 0), (93181, 0), (132, 0), (1, 0)], [(0,
    97925), (0, 329), (0, 1)]], 3, 4⟩, 17592186044416, 78410287,
    3400029091486643075140342509215626360940809293059032237583473059174882792278386780194687493990305667093927932832613734597019667,
    lc0⟩) (.leaf ⟨345, 16, 346, 350, 16, 1462, ⟨[[(0, 8991217106948096), (0, 1634281238040298), (30827330350, 0), (0,
    159489), (0, 12)], [(32039448214505582, 0), (0, 3021483721788), (47853143, 0), (2056, 0)], [(32612007328286, 0),
    (0, 1672963430), (0, 81513), (10, 0)], [(44275203355, 0), (553321, 0), (0, 334)]], 3, 4⟩, ⟨[[(18359261343580160,
    0), (0, 2226017184413655), (36452448322, 0), (0, 1148467), (11, 0)], [(0, 25968479484296286), (0, 463135151055),
    (35626745, 0), (0, 592)], [(17024996353832, 0), (0, 349098802), (30198, 0), (1, 0)], [(0, 1059802008), (0,
    1015597), (0, 9)]], 3, 4⟩, 72057594037927936, 3463449209918, 2666642825669, ⟨[[(4957823521426, 0), (6397488907,
    0), (4163145, 0), (469, 0), (37, 0)], [(0, 8715048152), (0, 25536500), (0, 22799), (0, 54), (0, 1)], [(27851590,
    0), (93521, 0), (106, 0), (1, 0)], [(0, 97048), (0, 327)]], 3, 4⟩, 17592186044416, 77781279,
    2010419166043051683035717717309792788521234918421322137064652282896113895604468569470816841879499232339932662543973380702494040,
    lc0⟩)) (.sy (.leaf ⟨334, 16, 307, 358, 16, 1489, ⟨[[(23562951736528896, 0), (0, 1594363389905001), (29031842823,
    0), (0, 14801), (0, 17)], [(32485219149510504, 0), (0, 2834176380277), (30414670, 0), (2959, 0)],
    [(34677494435680, 0), (0, 1241865918), (0, 133023), (12, 0)], [(40519374558, 0), (1835133, 0), (0, 421)]], 3, 4⟩,
    ⟨[[(0, 13969893158871040), (0, 2327403744117536), (40510950778, 0), (0, 1205453), (3, 0)], [(0,
    24728962792496027), (0, 546174152714), (39493525, 0), (0, 392)], [(17594668766728, 0), (0, 507540033), (26704,
    0), (2, 0)], [(1653976121, 0), (0, 906651), (0, 30)]], 3, 4⟩, 72057594037927936, 1825317843725, 2626528388220,
    ⟨[[(4717268954158, 0), (5585568038, 0), (3410725, 0), (0, 589), (23, 0)], [(0, 8167933530), (0, 22754242), (0,
    18707), (0, 30)], [(25960893, 0), (85143, 0), (96, 0)], [(0, 93509), (0, 313)]], 3, 4⟩, 17592186044416, 80957451,
    3323735405799654258004219863852144913121010054544898988782451679673843190579552993809718069025787950473671947488733183586250376,
    lc0⟩) (.leaf ⟨335, 16, 318, 343, 16, 1495, ⟨[[(0, 6779322452815872), (0, 1621318277142514), (30023253827, 0), (0,
    49346), (0, 17)], [(32183767706067511, 0), (0, 2901851923689), (35902563, 0), (2776, 0)], [(35241098043077, 0),
    (0, 1415394462), (0, 119422), (12, 0)], [(42818483906, 0), (1480271, 0), (0, 402)]], 3, 4⟩, ⟨[[(7819069674745856,
    0), (0, 2296858009128500), (38858927456, 0), (0, 1198400), (9, 0)], [(0, 25093955227356538), (0, 508896420975),
    (38955839, 0), (0, 529)], [(17416707072938, 0), (0, 481528805), (28971, 0), (1, 0)], [(1196818935, 0), (0,
    936220), (0, 22)]], 3, 4⟩, 72057594037927936, 2529514976335, 2698446517246, ⟨[[(4712169924159, 0), (5694318300,
    0), (3637628, 0), (0, 1541), (14, 0)], [(0, 8063298687), (0, 23085531), (0, 18718), (0, 15)], [(25741191, 0),
    (85985, 0), (82, 0)], [(0, 92337), (0, 313)]], 3, 4⟩, 17592186044416, 78442381,
    2826930106993032378938122870337646032889004496414077194429486993563184299779462250228082064520057975243179351607728932075571018,
    lc0⟩)))
theorem c15 : checkR job con0 true ⟨7, 9, 7, 9, 13, 17⟩ 1 28336 t15 411 21 320 12235 251 16000 = true := by decide +kernel

def t16 : CTree :=
  .sy (.sx (.sy (.sx (.leaf ⟨538, 16, 627, 485, 16, 1910, ⟨[[(13175867031601152, 0), (0, 2424788890617094),
    (46019062673, 0), (0, 514391), (0, 5)], [(23249954112196309, 0), (0, 2399961329557), (51463808, 0), (415, 0)],
    [(9143404946278, 0), (0, 732447660), (0, 2082), (2, 0)], [(8403844243, 0), (0, 217227), (0, 33)]], 3, 4⟩,
    ⟨[[(9780140469411840, 0), (0, 2811167178174335), (41464819100, 0), (0, 1382378), (24, 0)], [(0,
    19247943437096533), (0, 259082450786), (18909350, 0), (0, 408)], [(5891588335766, 0), (0, 1126585), (9476, 0)],
    [(0, 1107950791), (0, 195912), (2, 0)]], 3, 4⟩, 72057594037927936, 449462631094, 231322167374, ⟨[[(5624532793729,
    0), (6224008384, 0), (3576805, 0), (5967, 0), (44, 0)], [(0, 7206546147), (0, 16527915), (0, 15535), (0, 63)],
    [(15635644, 0), (39339, 0), (48, 0)], [(0, 34833), (0, 85)]], 3, 4⟩, 17592186044416, 12121825,
    3846312016123540285383001503780959811732330121848359746172246448848070440372457764967350554577491674579497094839274880172079119,
    lc0⟩) (.leaf ⟨531, 16, 603, 477, 16, 1923, ⟨[[(0, 11591978435198976), (0, 2430171509855587), (46330291196, 0),
    (0, 473816), (0, 7)], [(23142046792190781, 0), (0, 2368313003856), (49145325, 0), (600, 0)], [(9834154873110, 0),
    (0, 728540628), (0, 6425), (3, 0)], [(8439175734, 0), (0, 172342), (0, 38)]], 3, 4⟩, ⟨[[(20641479846277120, 0),
    (0, 2841272794718908), (42563618836, 0), (0, 1409408), (24, 0)], [(0, 18886251857974452), (0, 261973371506),
    (19850069, 0), (0, 428)], [(5803269335692, 0), (0, 25575008), (9785, 0)], [(0, 923097755), (0, 190732), (2, 0)]],
    3, 4⟩, 72057594037927936, 447651684950, 231262727686, ⟨[[(5458793084812, 0), (5884125309, 0), (3178230, 0),
    (3458, 0), (31, 0)], [(0, 6875944385), (0, 15661672), (0, 12897), (0, 44)], [(14969026, 0), (37620, 0), (39, 0)],
    [(0, 33835), (0, 83)]], 3, 4⟩, 17592186044416, 11655515,
    2303429371726814570680809560433548012180464066614478267501676951771125450966511422944275851060590592844226314158621069408836762,
    lc0⟩)) (.leaf ⟨369, 16, 438, 339, 16, 1407, ⟨[[(0, 14724617047257088), (0, 1696541326140102), (32364482280, 0),
    (0, 360283), (0, 4)], [(31348517529506115, 0), (0, 3323927517995), (72657061, 0), (530, 0)], [(25996596112468,
    0), (0, 2090303573), (0, 2000), (6, 0)], [(47385615735, 0), (0, 1307867), (0, 180)]], 3, 4⟩, ⟨[[(0,
    5737486240796672), (0, 2044654895866015), (29326341539, 0), (0, 984893), (22, 0)], [(0, 28180250141223893), (0,
    354060474084), (27512993, 0), (0, 627)], [(17150624914804, 0), (0, 11481177), (27223, 0), (0, 1)], [(0,
    6532212516), (0, 1122158), (15, 0)]], 3, 4⟩, 72057594037927936, 5263286524242, 2706238354695, ⟨[[(5540200866425,
    0), (8435161960, 0), (6253376, 0), (7021, 0), (103, 0)], [(0, 10166536479), (0, 32274890), (0, 33256), (0, 138),
    (0, 1)], [(32149507, 0), (110788, 0), (129, 0), (1, 0)], [(0, 104636), (0, 347)]], 3, 4⟩, 17592186044416,
    69072824,
    2931644635201009716747812744803785081900739868295101032648526243921291271124384723460433929397609836169911435683409758020759468,
    lc0⟩)) (.sy (.leaf ⟨356, 16, 389, 344, 16, 1435, ⟨[[(0, 9394216034598912), (0, 1665865502319707), (31862361858,
    0), (0, 274204), (0, 8)], [(31589377075189035, 0), (0, 3176363861326), (61724121, 0), (1239, 0)],
    [(29625065649924, 0), (0, 1946561642), (0, 37748), (8, 0)], [(46367667568, 0), (0, 497208), (0, 252)]], 3, 4⟩,
    ⟨[[(5749223297421312, 0), (0, 2132669474863866), (32724720135, 0), (0, 1072265), (17, 0)], [(0,
    27110368925718455), (0, 399126513313), (31492482, 0), (0, 662)], [(16882447841310, 0), (0, 181227424), (29991,
    0)], [(0, 3800565008), (0, 1081226), (6, 0)]], 3, 4⟩, 72057594037927936, 4604865283916, 2688980431415,
    ⟨[[(5233149897820, 0), (7345151110, 0), (5094027, 0), (2791, 0), (63, 0)], [(0, 9407556250), (0, 28782792), (0,
    27638), (0, 90), (0, 1)], [(30066423, 0), (102603, 0), (118, 0), (1, 0)], [(0, 101494), (0, 341)]], 3, 4⟩,
    17592186044416, 73784895,
    2623399353999388849894459618633037943566305492472676565305011519151171213224170963498940737852396444848305859787865895791887722,
    lc0⟩) (.leaf ⟨359, 16, 405, 331, 16, 1441, ⟨[[(0, 33175455483215872), (0, 1701298674823346), (32730973437, 0),
    (0, 301149), (0, 7)], [(31244913898465603, 0), (0, 3241573793742), (66032920, 0), (1061, 0)], [(29817363708510,
    0), (0, 2059813723), (0, 26984), (8, 0)], [(47951040792, 0), (0, 767741), (0, 236)]], 3, 4⟩, ⟨[[(0,
    20765854209998848), (0, 2109398180872163), (31268705810, 0), (0, 1037011), (22, 0)], [(0, 27417037680380593), (0,
    369557824598), (30592525, 0), (0, 702)], [(16869228876741, 0), (0, 152010800), (29512, 0), (0, 1)], [(0,
    4359621887), (0, 1077513), (10, 0)]], 3, 4⟩, 72057594037927936, 5112009509820, 2740951747185, ⟨[[(5232940947292,
    0), (7494821322, 0), (5285503, 0), (457, 0), (47, 0)], [(0, 9294935458), (0, 29069985), (0, 25616), (0, 56), (0,
    1)], [(29619505, 0), (102461, 0), (94, 0)], [(0, 99247), (0, 336)]], 3, 4⟩, 17592186044416, 71388620,
    2005531114303242404684473026238886838835338381623210098299765555820994353704183750216171143618396222035282733645527652932110500,
    lc0⟩))) (.sx (.sy (.leaf ⟨372, 16, 456, 326, 16, 1412, ⟨[[(0, 17013668485722112), (0, 1732718215767977),
    (33124523950, 0), (0, 381608), (0, 3)], [(30918754147781364, 0), (0, 3384212894949), (76329800, 0), (361, 0)],
    [(25972777612027, 0), (0, 2173507060), (7291, 0), (6, 0)], [(48604241577, 0), (0, 1537753), (0, 164)]], 3, 4⟩,
    ⟨[[(0, 4973297093804032), (0, 2023108238997528), (27977247510, 0), (0, 940379), (26, 0)], [(0,
    28451884748518814), (0, 328073125022), (26664262, 0), (0, 625)], [(17212558292456, 0), (15206077, 0), (25863, 0),
    (0, 1)], [(0, 7116777014), (0, 1109872), (17, 0)]], 3, 4⟩, 72057594037927936, 5666986323805, 2757070184424,
    ⟨[[(5539910521125, 0), (8612861522, 0), (6368399, 0), (3166, 0), (79, 0)], [(0, 10060710058), (0, 32602954), (0,
    29653), (0, 89), (0, 1)], [(31714117, 0), (110609, 0), (98, 0), (1, 0)], [(0, 102585), (0, 343)]], 3, 4⟩,
    17592186044416, 67179007,
    2154727342011813953598571078214372501986097865123715577149269749886195963538174108303644368479267048017604111960935743024992341,
    lc0⟩) (.leaf ⟨375, 16, 475, 313, 16, 1417, ⟨[[(0, 14425014821961728), (0, 1770573956405208), (33902132311, 0),
    (0, 402389), (0, 2)], [(30457452654038443, 0), (0, 3445157401931), (79932973, 0), (187, 0)], [(25921081273131,
    0), (0, 2251984719), (16302, 0), (5, 0)], [(49784264212, 0), (0, 1761479), (0, 148)]], 3, 4⟩,
    ⟨[[(2701435450425344, 0), (0, 2002783564412825), (26695794007, 0), (0, 888623), (29, 0)], [(0,
    28711246467498929), (0, 302838846205), (25828701, 0), (0, 605)], [(17287565541125, 0), (40438444, 0), (24147, 0),
    (0, 1)], [(0, 7696523993), (0, 1095250), (19, 0)]], 3, 4⟩, 72057594037927936, 6064782073586, 2808067323931,
    ⟨[[(5539490637045, 0), (8801039224, 0), (6603821, 0), (136, 0), (58, 0)], [(0, 9960119158), (0, 33059083), (0,
    27487), (0, 50), (0, 1)], [(31308855, 0), (111302, 0), (77, 0)], [(0, 100713), (0, 342)]], 3, 4⟩, 17592186044416,
    64911877,
    3294184778911419757395216461497066780247409147185109095300657466086420173894325799670788207397677610797398574519800772925806324,
    lc0⟩)) (.sy (.leaf ⟨361, 16, 421, 317, 16, 1446, ⟨[[(0, 35887025764765696), (0, 1734590785460592), (33541392909,
    0), (0, 327621), (0, 7)], [(30805153675043950, 0), (0, 3299945043636), (70126488, 0), (870, 0)],
    [(29914394997365, 0), (0, 2163379141), (0, 16336), (7, 0)], [(49385361182, 0), (0, 1030245), (0, 218)]], 3, 4⟩,
    ⟨[[(15911998487867392, 0), (0, 2085989622394625), (29845775155, 0), (0, 991742), (26, 0)], [(0,
    27690685175173778), (0, 340557607686), (29620159, 0), (0, 724)], [(16858569406840, 0), (0, 123311176), (28528,
    0), (0, 1)], [(0, 4914580815), (0, 1068844), (14, 0)]], 3, 4⟩, 72057594037927936, 5624277948874, 2786423273820,
    ⟨[[(5228876910258, 0), (7654678321, 0), (5570825, 0), (0, 1410), (32, 0)], [(0, 9197750855), (0, 29537640), (0,
    24607), (0, 28)], [(29310499, 0), (103635, 0), (77, 0)], [(0, 97824), (0, 338)]], 3, 4⟩, 17592186044416,
    68905858,
    2779754821615075956781168812154539911529532932734881729625938501678166506456086317266180318740933074145360938277708931291738159,
    lc0⟩) (.leaf ⟨363, 16, 438, 304, 16, 1452, ⟨[[(0, 28229342283567104), (0, 1769859385298398), (34372355518, 0),
    (0, 353911), (0, 6)], [(30344095141651133, 0), (0, 3359322193961), (74143850, 0), (671, 0)], [(29989138319262,
    0), (0, 2262163460), (0, 5961), (7, 0)], [(50786630898, 0), (0, 1285896), (0, 200)]], 3, 4⟩,
    ⟨[[(3424229706596352, 0), (0, 2065294665384158), (28511854457, 0), (0, 938876), (30, 0)], [(0,
    27969850386662089), (0, 312659609641), (28645840, 0), (0, 726)], [(16873460493020, 0), (0, 95806506), (27087, 0),
    (0, 1)], [(0, 5469908489), (0, 1057449), (17, 0)]], 3, 4⟩, 72057594037927936, 6124477269184, 2832966025145,
    ⟨[[(5231289718951, 0), (7826383009, 0), (5913955, 0), (0, 2660), (20, 0)], [(0, 9129280089), (0, 30111402), (0,
    24479), (0, 7)], [(29104528, 0), (105449, 0), (68, 0)], [(0, 96798), (0, 342)]], 3, 4⟩, 17592186044416, 66635575,
    3257395555215655757450395440857305961706188144857606376589731835649901098532357885122122193726731261167527344524361126696046839,
    lc0⟩)))
theorem c16 : checkR job con0 true ⟨7, 9, 7, 9, 13, 17⟩ 1 28336 t16 369 21 320 12737 251 16000 = true := by decide +kernel

def t17 : CTree :=
  .sy (.sx (.sy (.leaf ⟨346, 16, 359, 336, 16, 1468, ⟨[[(9459681385639936, 0), (0, 1663702807936051), (31717442976,
    0), (0, 190410), (0, 12)], [(31682242484786176, 0), (0, 3083611435344), (52666107, 0), (1871, 0)],
    [(32945929246566, 0), (0, 1812946297), (0, 69237), (10, 0)], [(46142175548, 0), (241562, 0), (0, 316)]], 3, 4⟩,
    ⟨[[(17775724099522560, 0), (0, 2199269770978364), (34884800344, 0), (0, 1125545), (16, 0)], [(0,
    26299564365163560), (0, 429591548372), (34811902, 0), (0, 679)], [(16926603962628, 0), (0, 319734858), (30930,
    0)], [(0, 1577761346), (0, 1025428), (0, 3)]], 3, 4⟩, 72057594037927936, 4066051426386, 2725614248835,
    ⟨[[(4960130028020, 0), (6541729041, 0), (4404474, 0), (0, 982), (26, 0)], [(0, 8650960134), (0, 26000907), (0,
    22079), (0, 32)], [(27759359, 0), (94757, 0), (88, 0)], [(0, 96451), (0, 329)]], 3, 4⟩, 17592186044416, 75695596,
    2187455821969483535528006652179172118536675993536849344040465031981737115556392955116982444411774114238593243868810283295995129,
    lc0⟩) (.leaf ⟨347, 16, 372, 322, 16, 1474, ⟨[[(0, 16593342671962112), (0, 1691106280024323), (32550261418, 0),
    (0, 221724), (0, 12)], [(31239472102591604, 0), (0, 3139084607805), (57290996, 0), (1671, 0)], [(33179088655463,
    0), (0, 1943105376), (0, 56945), (9, 0)], [(47858760651, 0), (0, 63157), (0, 297)]], 3, 4⟩,
    ⟨[[(25750534435942400, 0), (0, 2173936497773769), (33353010547, 0), (0, 1091726), (22, 0)], [(0,
    26614872172988946), (0, 396787361659), (33873272, 0), (0, 750)], [(16842464704376, 0), (0, 289795671), (31090,
    0)], [(0, 2101214999), (0, 1029193), (3, 0)]], 3, 4⟩, 72057594037927936, 4652248703342, 2777911214386,
    ⟨[[(4956279724318, 0), (6672407521, 0), (4686864, 0), (0, 2024), (17, 0)], [(0, 8569251768), (0, 26450255), (0,
    21944), (0, 13)], [(27588783, 0), (96294, 0), (76, 0)], [(0, 95640), (0, 332)]], 3, 4⟩, 17592186044416, 73686155,
    1925369252837091556592905100167984142327929658167107019190927521955930728658308297143471050396338214311838013624799864569339476,
    lc0⟩)) (.sy (.leaf ⟨335, 16, 329, 329, 16, 1502, ⟨[[(0, 6242264382349312), (0, 1646262840145608), (30959073351,
    0), (0, 85160), (0, 17)], [(31799637454171264, 0), (0, 2962841249741), (41245384, 0), (2574, 0)],
    [(35695415187100, 0), (0, 1579320307), (0, 105645), (12, 0)], [(44966324661, 0), (1130257, 0), (0, 383)]], 3, 4⟩,
    ⟨[[(0, 16346763767250944), (0, 2269320454854734), (37244158887, 0), (0, 1180098), (15, 0)], [(0,
    25458322452379023), (0, 472418106716), (38243824, 0), (0, 653)], [(17262873957772, 0), (0, 453742560), (30627,
    0), (1, 0)], [(725396094, 0), (0, 958599), (0, 14)]], 3, 4⟩, 72057594037927936, 3219412074720, 2765684909553,
    ⟨[[(4714142200674, 0), (5815851975, 0), (3904609, 0), (0, 2105), (8, 0)], [(0, 8013829478), (0, 23575216), (0,
    19248), (0, 3)], [(25792258, 0), (88077, 0), (73, 0)], [(0, 92477), (0, 320)]], 3, 4⟩, 17592186044416, 77690848,
    2214080604367087662675765985407450057639267158477909972699908160036683234973118054397546442194578501047387221778950550657414179,
    lc0⟩) (.leaf ⟨335, 16, 341, 314, 16, 1508, ⟨[[(25497677745086464, 0), (0, 1674167651118060), (31929592435, 0),
    (0, 122215), (0, 17)], [(31429007598025027, 0), (0, 3026047650078), (46537434, 0), (2362, 0)], [(36149532334775,
    0), (0, 1738022908), (0, 92084), (11, 0)], [(47097278740, 0), (789650, 0), (0, 364)]], 3, 4⟩,
    ⟨[[(24678078680293376, 0), (0, 2241730608245809), (35634022609, 0), (0, 1149170), (21, 0)], [(0,
    25788531765728460), (0, 436278598520), (37327329, 0), (0, 761)], [(17110980571075, 0), (0, 424192141), (31615,
    0)], [(242217693, 0), (0, 972909), (0, 7)]], 3, 4⟩, 72057594037927936, 3897357017734, 2826327915319,
    ⟨[[(4714234001765, 0), (5946433804, 0), (4220116, 0), (0, 2423), (2, 0)], [(0, 7958848854), (0, 24129626), (0,
    20174), (6, 0)], [(25819693, 0), (90698, 0), (69, 0)], [(0, 92580), (0, 329)]], 3, 4⟩, 17592186044416, 77385446,
    1935613656143644013141356655096644963525939118733274652574339615700921627236506635509119319567661269868022531207731644609818846,
    lc0⟩))) (.sx (.sy (.leaf ⟨349, 16, 387, 309, 16, 1480, ⟨[[(0, 27815418999922688), (0, 1725478287291774),
    (33497356249, 0), (0, 254292), (0, 11)], [(30874997497518568, 0), (0, 3204576481607), (62011458, 0), (1464, 0)],
    [(33488475679577, 0), (0, 2073688634), (0, 45002), (9, 0)], [(49680249839, 0), (0, 360687), (0, 279)]], 3, 4⟩,
    ⟨[[(0, 30404964059238400), (0, 2149979977890692), (31873322406, 0), (0, 1047596), (27, 0)], [(0,
    26914733708357044), (0, 364838776481), (32836380, 0), (0, 803)], [(16772786128262, 0), (0, 259860523), (30668,
    0), (0, 1)], [(0, 2627251042), (0, 1027441), (8, 0)]], 3, 4⟩, 72057594037927936, 5238836098533, 2829319825521,
    ⟨[[(4960253164145, 0), (6820427683, 0), (5008505, 0), (0, 2652), (9, 0)], [(0, 8497021887), (0, 26938436), (0,
    22329)], [(27381772, 0), (97942, 0), (69, 0)], [(0, 94481), (0, 336)]], 3, 4⟩, 17592186044416, 71274024,
    2267283879394430685878663224758573352335475499383088757265792798229681648275736819853284762919329654491404375479320321322306463,
    lc0⟩) (.leaf ⟨350, 16, 402, 295, 16, 1486, ⟨[[(0, 17247408437944320), (0, 1757627883968424), (34380771257, 0),
    (0, 286494), (0, 11)], [(30417069087291166, 0), (0, 3263033679735), (66493297, 0), (1241, 0)], [(33694523704152,
    0), (0, 2194083600), (0, 33180), (9, 0)], [(51347360342, 0), (0, 650079), (0, 259)]], 3, 4⟩, ⟨[[(0,
    7187166711885824), (0, 2127346742920516), (30460911191, 0), (0, 994076), (31, 0)], [(0, 27199533745366784), (0,
    333834750105), (31730777, 0), (0, 835)], [(16717482053592, 0), (0, 230517949), (29660, 0), (0, 1)], [(0,
    3153248204), (0, 1020830), (13, 0)]], 3, 4⟩, 72057594037927936, 5811379471466, 2870582384098, ⟨[[(4959339055000,
    0), (6969270630, 0), (5376962, 0), (0, 3031), (2, 0)], [(0, 8432267585), (0, 27538135), (0, 23242), (12, 0)],
    [(27267945, 0), (100475, 0), (67, 0)], [(0, 93967), (0, 344)]], 3, 4⟩, 17592186044416, 69966733,
    2650379717960659984767110652317448970313578584246881949482147904103773110081645330361171891467444982255436524510498692761437118,
    lc0⟩)) (.sy (.leaf ⟨336, 16, 354, 300, 16, 1515, ⟨[[(10542391126028288, 0), (0, 1704817262184019), (32930329763,
    0), (0, 160345), (0, 16)], [(31062667948312198, 0), (0, 3091130977532), (51767136, 0), (2137, 0)],
    [(36599270098955, 0), (0, 1891687127), (0, 78722), (11, 0)], [(49211960682, 0), (457486, 0), (0, 344)]], 3, 4⟩,
    ⟨[[(16931588602093568, 0), (0, 2217055572565618), (34094696319, 0), (0, 1107650), (26, 0)], [(0,
    26118917650735293), (0, 401254306060), (36281383, 0), (0, 851)], [(16984510153754, 0), (0, 394117029), (31957,
    0)], [(0, 248476261), (0, 980881)]], 3, 4⟩, 72057594037927936, 4569517561742, 2877398933923, ⟨[[(4713114510799,
    0), (6065062771, 0), (4533147, 0), (0, 2496), (0, 2)], [(0, 7881801137), (0, 24587398), (0, 21245), (13, 0)],
    [(25673652, 0), (92839, 0), (68, 0)], [(0, 91828), (0, 336)]], 3, 4⟩, 17592186044416, 76020738,
    1655938214883849151887576066966577775603096199140059548915988476705035483658373718601563257322168930931560468229086551394000406,
    lc0⟩) (.leaf ⟨337, 16, 368, 286, 16, 1521, ⟨[[(15353249146224640, 0), (0, 1738004203954343), (33956788154, 0),
    (0, 199277), (0, 16)], [(30691851002796483, 0), (0, 3157751390231), (56916572, 0), (1899, 0)], [(37040286631198,
    0), (0, 2040388948), (0, 65569), (10, 0)], [(51309598600, 0), (133221, 0), (0, 324)]], 3, 4⟩,
    ⟨[[(2535341867753472, 0), (0, 2192296255735926), (32596853260, 0), (0, 1054859), (31, 0)], [(0,
    26415517418788190), (0, 366936486975), (35086404, 0), (0, 919)], [(16861203782408, 0), (0, 363654433), (31592,
    0), (0, 1)], [(0, 743314865), (0, 981759), (6, 0)]], 3, 4⟩, 72057594037927936, 5240320464497, 2927717134080,
    ⟨[[(4714778883227, 0), (6197867047, 0), (4871989, 0), (0, 2407), (0, 6)], [(0, 7818147252), (0, 25129563), (0,
    22594), (18, 0)], [(25569481, 0), (95412, 0), (69, 0)], [(0, 91272), (0, 345)]], 3, 4⟩, 17592186044416, 75003462,
    2290460941473752017768851728865284898069948254483894356297132428105171928043256408196287757266384440575090296331732665531141923,
    lc0⟩)))
theorem c17 : checkR job con0 true ⟨7, 9, 7, 9, 13, 17⟩ 1 28336 t17 411 21 320 12737 251 16000 = true := by decide +kernel

def t18 : CTree :=
  .sx (.sy (.out ⟨357, 16, 625, 3145, 16, 3964, ⟨[[(0, 35151928387182592), (0, 1612118771089295), (27517904006, 0)],
    [(31677296605161563, 0), (0, 3658576012258), (86635586, 0)], [(5386362031269, 0), (0, 1675311096), (67850, 0)]],
    2, 2⟩, ⟨[[(0, 17624362953736192), (0, 4340813916562835), (83152575840, 0)]], 2, 2⟩, 72057594037927936,
    455675868787046, 25310143097292, ⟨[], 0, 0⟩, 0, 0, 0, lc0⟩ 1 1 651292959697) (.out ⟨361, 16, 653, 3175, 16, 4041,
    ⟨[[(0, 10846718687014912), (0, 1655807834210065), (28093883770, 0)], [(31200232362364617, 0), (0, 3732395401395),
    (88930383, 0)], [(4766956712500, 0), (0, 1678585834), (72026, 0)]], 2, 2⟩, ⟨[[(22122322580373504, 0), (0,
    4341238656541155), (82368630235, 0)]], 2, 2⟩, 72057594037927936, 465297841952767, 24831582431793, ⟨[], 0, 0⟩, 0,
    0, 0, lc0⟩ 1 1 494604764275)) (.sx (.sy (.out ⟨517, 16, 872, 3145, 16, 3964, ⟨[[(0, 10184566138798080), (0,
    2412432676037845), (42293553533, 0)], [(22434611416681000, 0), (0, 2630425518704), (63374815, 0)],
    [(3469529090298, 0), (0, 658173435), (22904, 0)]], 2, 2⟩, ⟨[[(0, 17624362953736192), (0, 4340813916562835),
    (83152575840, 0)]], 2, 2⟩, 72057594037927936, 90586924447682, 25310143097292, ⟨[], 0, 0⟩, 0, 0, 0, lc0⟩ 1 1
    434393877128) (.sy (.out ⟨728, 16, 1259, 6351, 16, 8063, ⟨[[(11866949345468416, 0), (0, 1718747161708713),
    (15009832699, 0)], [(30974294724146109, 0), (0, 1864664471125), (22607208, 0)], [(4656276963816, 0), (0,
    462544178), (8451, 0)]], 2, 2⟩, ⟨[[(0, 13925732532027392), (0, 4351732652481940), (41382408091, 0)]], 2, 2⟩,
    72057594037927936, 114898825709749, 6237755104332, ⟨[], 0, 0⟩, 0, 0, 0, lc0⟩ 1 1 326806659688) (.out ⟨732, 16,
    1286, 6381, 16, 8140, ⟨[[(0, 28582927904956416), (0, 1740299583057680), (15161067741, 0)], [(30688224502020084,
    0), (0, 1881562412559), (22905297, 0)], [(4521141048517, 0), (0, 463744341), (8734, 0)]], 2, 2⟩, ⟨[[(0,
    393278251466752), (0, 4351644545080651), (41184964605, 0)]], 2, 2⟩, 72057594037927936, 115906569745074,
    6178428871414, ⟨[], 0, 0⟩, 0, 0, 0, lc0⟩ 1 1 253413806000))) (.sy (.sy (.out ⟨719, 16, 1173, 6290, 16, 7910,
    ⟨[[(0, 6277595626610688), (0, 1705307584372115), (15215881426, 0)], [(31087138303504158, 0), (0, 1818907762387),
    (22024556, 0)], [(6253033144153, 0), (0, 481992066), (7362, 0)]], 2, 2⟩, ⟨[[(25464948259356672, 0), (0,
    4351857629944084), (41782512889, 0)]], 2, 2⟩, 72057594037927936, 112829440825893, 6358921375673, ⟨[], 0, 0⟩, 0,
    0, 0, lc0⟩ 1 1 315326582955) (.out ⟨723, 16, 1199, 6320, 16, 7986, ⟨[[(0, 17405848050155520), (0,
    1727577285832315), (15381733225, 0)], [(30848526479481661, 0), (0, 1836698955642), (22358016, 0)],
    [(6146222069456, 0), (0, 485032707), (7696, 0)]], 2, 2⟩, ⟨[[(23731607493607424, 0), (0, 4351622212820911),
    (41579848580, 0)]], 2, 2⟩, 72057594037927936, 113928689462501, 6297651335713, ⟨[], 0, 0⟩, 0, 0, 0, lc0⟩ 1 1
    243383192203)) (.sx (.sy (.out ⟨1039, 16, 1763, 6351, 16, 8063, ⟨[[(0, 20178264957108224), (0, 2489698321035464),
    (22027415375, 0)], [(21917685046493818, 0), (0, 1326593654543), (16198215, 0)], [(2034049987377, 0), (0,
    171987145), (2906, 0)]], 2, 2⟩, ⟨[[(0, 13925732532027392), (0, 4351732652481940), (41382408091, 0)]], 2, 2⟩,
    72057594037927936, 22751273046187, 6237755104332, ⟨[], 0, 0⟩, 0, 0, 0, lc0⟩ 1 1 215810032792) (.leaf ⟨1182, 16,
    1831, 893, 16, 3784, ⟨[[(0, 8719165317808128), (0, 2562885443370699), (22625824454, 0), (0, 165404), (1, 0)],
    [(22075656381962100, 0), (0, 1360934796377), (16695257, 0), (0, 86)], [(2023601397422, 0), (0, 175567300), (3064,
    0)], [(2213681491, 0), (0, 56685)]], 3, 4⟩, ⟨[[(19818361523527680, 0), (0, 2553825427113731), (14199193049, 0),
    (0, 238067), (5, 0)], [(0, 22504041715968552), (0, 105984749916), (3367119, 0), (0, 11)], [(3655102353382, 0),
    (42826145, 0), (524, 0)], [(0, 678710781), (0, 27525)]], 3, 4⟩, 72057594037927936, 39400786711, 35515707083,
    ⟨[[(6662369213881, 0), (4534380407, 0), (1350972, 0), (1060, 0), (4, 0)], [(0, 4507217932), (0, 5488921), (0,
    1797), (0, 3)], [(4688543, 0), (5616, 0), (1, 0)], [(0, 4763), (0, 5)]], 3, 4⟩, 17592186044416, 526961,
    4283930744061901184799720275234019733431037317735527861057441103126960133596599087728330264847520725053534492044555736744495818,
    lc0⟩)) (.leaf ⟨740, 16, 1125, 564, 16, 2401, ⟨[[(0, 19707035785920512), (0, 3234425405951429), (57657368206, 0),
    (0, 837139), (13, 0)], [(13888221767995834, 0), (0, 1701336736789), (41813048, 0), (0, 403)], [(1444295448743,
    0), (0, 226488632), (7372, 0)], [(1389791906, 0), (0, 71158), (0, 1)]], 3, 4⟩, ⟨[[(13760549769576448, 0), (0,
    3255624155623394), (36859985014, 0), (0, 1234433), (47, 0)], [(0, 14070091288008357), (0, 132292594317),
    (8686148, 0), (0, 73)], [(2259822357192, 0), (49645821, 0), (1434, 0)], [(0, 408551121), (0, 34206)]], 3, 4⟩,
    72057594037927936, 30414733274, 24563516934, ⟨[[(6545535820847, 0), (6939890542, 0), (3227606, 0), (3588, 0),
    (25, 0)], [(0, 6970141686), (0, 13416200), (0, 6920), (0, 20)], [(11549920, 0), (22067, 0), (7, 0)], [(0, 18754),
    (0, 32)]], 3, 4⟩, 17592186044416, 3706277,
    4258790972115794559514203324479845715815976773924227681832547234083381865635656110280793094212542504523594122949466531122923654,
    lc0⟩))))
theorem c18 : checkR job con0 true ⟨7, 9, 7, 9, 13, 17⟩ 1 28336 t18 285 21 320 26227 251 32000 = true := by decide +kernel

def t19 : CTree :=
  .sx (.sx (.sy (.out ⟨526, 16, 995, 3206, 16, 4119, ⟨[[(0, 7007773629652992), (0, 2422488225780008), (40460942030,
    0)], [(22308872825593850, 0), (0, 2751047320363), (65367840, 0)], [(930859221013, 0), (0, 585330434), (27769,
    0)]], 2, 2⟩, ⟨[[(4356928220954624, 0), (0, 4341928757754016), (81604464784, 0)]], 2, 2⟩, 72057594037927936,
    94816292199323, 24368001460549, ⟨[], 0, 0⟩, 0, 0, 0, lc0⟩ 1 1 422531375307) (.sy (.out ⟨744, 16, 1442, 6472, 16,
    8374, ⟨[[(0, 4792583350239232), (0, 1733499308146097), (14414449471, 0)], [(30843331017356148, 0), (0,
    1958055184969), (23352164, 0)], [(1035375806289, 0), (0, 408964090), (10095, 0)]], 2, 2⟩, ⟨[[(12949961355493376,
    0), (0, 4351803247033369), (40607680042, 0)]], 2, 2⟩, 72057594037927936, 121930048102805, 6006018178130, ⟨[], 0,
    0⟩, 0, 0, 0, lc0⟩ 1 1 322784067683) (.out ⟨749, 16, 1475, 6503, 16, 8453, ⟨[[(0, 24741811265257472), (0,
    1758448844148837), (14581757605, 0)], [(30549739503798839, 0), (0, 1978994935718), (23664028, 0)],
    [(851675682276, 0), (0, 407947512), (10341, 0)]], 2, 2⟩, ⟨[[(0, 16054353515446272), (0, 4351990634956486),
    (40420089673, 0)]], 2, 2⟩, 72057594037927936, 123281440718015, 5950334475569, ⟨[], 0, 0⟩, 0, 0, 0, lc0⟩ 1 1
    260398780260))) (.sy (.sy (.out ⟨736, 16, 1348, 6412, 16, 8218, ⟨[[(10307641030377472, 0), (0, 1727325389133788),
    (14732639735, 0)], [(30872354951491444, 0), (0, 1909876930188), (23030551, 0)], [(2920007207758, 0), (0,
    437670921), (9339, 0)]], 2, 2⟩, ⟨[[(0, 23270915253272576), (0, 4351893051778309), (40992559100, 0)]], 2, 2⟩,
    72057594037927936, 117746987339312, 6120417247621, ⟨[], 0, 0⟩, 0, 0, 0, lc0⟩ 1 1 328860044175) (.out ⟨741, 16,
    1379, 6442, 16, 8296, ⟨[[(0, 13384263007690752), (0, 1752001447603227), (14903827010, 0)], [(30607440366450085,
    0), (0, 1930249099983), (23350896, 0)], [(2764807178313, 0), (0, 438118363), (9603, 0)]], 2, 2⟩,
    ⟨[[(5098547156877312, 0), (0, 4351944117934549), (40800113607, 0)]], 2, 2⟩, 72057594037927936, 118976417167248,
    6062946988398, ⟨[], 0, 0⟩, 0, 0, 0, lc0⟩ 1 1 259258709730)) (.sy (.out ⟨745, 16, 1410, 6472, 16, 8374,
    ⟨[[(2949958930243584, 0), (0, 1776171281812954), (15071007593, 0)], [(30310728388946846, 0), (0, 1949776963279),
    (23662769, 0)], [(2604558521879, 0), (0, 438088697), (9858, 0)]], 2, 2⟩, ⟨[[(12949961355493376, 0), (0,
    4351803247033369), (40607680042, 0)]], 2, 2⟩, 72057594037927936, 120136392922172, 6006018178130, ⟨[], 0, 0⟩, 0,
    0, 0, lc0⟩ 1 1 198596817902) (.leaf ⟨862, 16, 1471, 595, 16, 2585, ⟨[[(0, 25090251878039552), (0,
    1837313186074694), (15551605095, 0), (0, 112582), (1, 0)], [(30607113368681862, 0), (0, 2009454505559),
    (24466410, 0), (0, 145)], [(2490397574742, 0), (0, 446700239), (10314, 0)], [(13063569139, 0), (0, 328922)]], 3,
    4⟩, ⟨[[(0, 31000040847958016), (0, 1697521521586058), (8461923537, 0), (0, 140238), (2, 0)], [(0,
    32590690701132660), (0, 146850543106), (4406521, 0), (6, 0)], [(11175469497796, 0), (156131537, 0), (1005, 0)],
    [(0, 4591058873), (0, 161771), (1, 0)]], 3, 4⟩, 72057594037927936, 169120035581, 405675277968, ⟨[[(7102578161372,
    0), (7524206658, 0), (3159702, 0), (3119, 0), (22, 0)], [(0, 6940461437), (0, 12450577), (0, 4525), (0, 10)],
    [(10037610, 0), (17128, 0)], [(0, 14049), (0, 20)]], 3, 4⟩, 17592186044416, 2275165,
    4055829469543379062223931805501721584803079668815555029209942292860093118989460410139173233922480679085739187510080040493184136,
    lc0⟩)))) (.sy (.sx (.sx (.sy (.out ⟨1049, 16, 1887, 6412, 16, 8218, ⟨[[(32216769394835456, 0), (0,
    2502837161886275), (21651994109, 0)], [(21763092732418088, 0), (0, 1356708647354), (16530140, 0)],
    [(1435010413646, 0), (0, 163370363), (3245, 0)]], 2, 2⟩, ⟨[[(0, 23270915253272576), (0, 4351893051778309),
    (40992559100, 0)]], 2, 2⟩, 72057594037927936, 23088899017058, 6120417247621, ⟨[], 0, 0⟩, 0, 0, 0, lc0⟩ 1 1
    229712196729) (.out ⟨1051, 16, 1922, 6442, 16, 8296, ⟨[[(16518776749948928, 0), (0, 2527240129092748),
    (21810860283, 0)], [(21477284440075197, 0), (0, 1365040634002), (16693463, 0)], [(1378928998243, 0), (0,
    163069299), (3329, 0)]], 2, 2⟩, ⟨[[(5098547156877312, 0), (0, 4351944117934549), (40800113607, 0)]], 2, 2⟩,
    72057594037927936, 23203894257491, 6062946988398, ⟨[], 0, 0⟩, 0, 0, 0, lc0⟩ 1 1 164455511164)) (.leaf ⟨750, 16,
    1202, 560, 16, 2406, ⟨[[(27051013575475200, 0), (0, 3247274523724470), (56639360464, 0), (0, 826254), (16, 0)],
    [(13728609075756934, 0), (0, 1735556129847), (42634400, 0), (0, 469)], [(1064411666691, 0), (0, 215086501),
    (8254, 0)], [(1406984440, 0), (0, 72810)]], 3, 4⟩, ⟨[[(0, 35749255962181632), (0, 3215444531818881),
    (34428666045, 0), (0, 1142027), (43, 0)], [(0, 14557734830133489), (0, 133189343551), (8415421, 0), (0, 23)],
    [(2401915234068, 0), (59842335, 0), (1158, 0)], [(0, 463086565), (0, 35586)]], 3, 4⟩, 72057594037927936,
    22683477801, 26542365002, ⟨[[(6789976247887, 0), (7432785383, 0), (3422002, 0), (3783, 0), (27, 0)], [(0,
    7355384982), (0, 14166000), (0, 6557), (0, 18)], [(12120148, 0), (22719, 0), (4, 0)], [(0, 19445), (0, 31)]], 3,
    4⟩, 17592186044416, 3741265,
    4282335046215510210851363073810322304740479762458619509493746188925166186624488908842094295646997224391508078729173561501729674,
    lc0⟩)) (.leaf ⟨587, 16, 925, 431, 16, 1898, ⟨[[(0, 18899641550422016), (0, 2583756359749772), (45678970458, 0),
    (0, 658254), (12, 0)], [(21362087453404727, 0), (0, 2714261691689), (67210489, 0), (0, 700)], [(4102937345776,
    0), (0, 705350470), (25110, 0)], [(8836962632, 0), (0, 467199), (0, 4)]], 3, 4⟩, ⟨[[(31237820402843648, 0), (0,
    2542978233246097), (27581372432, 0), (0, 902348), (35, 0)], [(0, 22499105975513438), (0, 198899597856),
    (13514737, 0), (0, 56)], [(7311174757497, 0), (168007461, 0), (3887, 0)], [(0, 2748723431), (0, 216223), (2,
    0)]], 3, 4⟩, 72057594037927936, 326894545456, 278817067775, ⟨[[(6599525193622, 0), (9083964881, 0), (5174684, 0),
    (4658, 0), (54, 0)], [(0, 8927844812), (0, 22127885), (0, 12180), (0, 34)], [(18759773, 0), (45887, 0), (10, 0)],
    [(0, 38572), (0, 83)]], 3, 4⟩, 17592186044416, 11025772,
    1954339481887380653422635665705320305094314323232906856136928966492472846146561910179879434565437904993707852494117206556788701,
    lc0⟩)) (.leaf ⟨421, 16, 691, 292, 16, 1316, ⟨[[(0, 25981114844323840), (0, 1854933888047471), (32367452451, 0),
    (0, 461951), (10, 0)], [(29686829825237790, 0), (0, 3913489398900), (97219044, 0), (0, 1071)], [(9612936564464,
    0), (0, 1944280653), (76814, 0), (1, 0)], [(50715601868, 0), (0, 2731999), (0, 11)]], 3, 4⟩, ⟨[[(0,
    34656562237825024), (0, 1741710945778543), (18021749963, 0), (0, 579932), (21, 0)], [(0, 31769870207398107), (0,
    267436882888), (18485048, 0), (15, 0)], [(21023110984362, 0), (514048711, 0), (9336, 0)], [(0, 16501296087), (0,
    1217434), (11, 0)]], 3, 4⟩, 72057594037927936, 3248204495837, 3154900244439, ⟨[[(6725105974663, 0), (13733616970,
    0), (11100803, 0), (9847, 0), (216, 0)], [(0, 12897822338), (0, 46691710), (0, 32591), (0, 96), (0, 1)],
    [(38039432, 0), (134699, 0), (22, 0)], [(0, 109451), (0, 342)]], 3, 4⟩, 17592186044416, 56930146,
    3324435477897387360464479808474801133772084682291561920985259091229637903353481841779804349570797347307032838736248966154954584,
    lc0⟩))
theorem c19 : checkR job con0 true ⟨7, 9, 7, 9, 13, 17⟩ 1 28336 t19 285 21 320 26729 251 32000 = true := by decide +kernel

def t20 : CTree :=
  .sy (.sx (.sy (.sx (.sx (.sy (.out ⟨1028, 16, 1646, 6290, 16, 7910, ⟨[[(343280495443968, 0), (0, 2474038344529123),
    (22335190278, 0)], [(22112733842812318, 0), (0, 1298094486631), (15772584, 0)], [(2591891129463, 0), (0,
    178780917), (2489, 0)]], 2, 2⟩, ⟨[[(25464948259356672, 0), (0, 4351857629944084), (41782512889, 0)]], 2, 2⟩,
    72057594037927936, 22518334512247, 6358921375673, ⟨[], 0, 0⟩, 0, 0, 0, lc0⟩ 1 1 199465351252) (.leaf ⟨1163, 16,
    1709, 908, 16, 3802, ⟨[[(0, 35920808029143040), (0, 2545574644420995), (22939046846, 0), (0, 165589), (1, 0)],
    [(22286623615483234, 0), (0, 1331387429134), (16274488, 0), (0, 69)], [(2598569249915, 0), (0, 182991402), (2658,
    0)], [(2188862184, 0), (0, 54515), (0, 1)]], 3, 4⟩, ⟨[[(0, 28824001756200960), (0, 2604602878697724),
    (15306948325, 0), (0, 259210), (5, 0)], [(0, 21904394155596739), (0, 106866530644), (3530387, 0), (0, 21)],
    [(3471966799709, 0), (34998285, 0), (653, 0)], [(0, 599193011), (0, 26749)]], 3, 4⟩, 72057594037927936,
    47557623052, 33458373447, ⟨[[(6436984822994, 0), (4211565704, 0), (1258226, 0), (1006, 0), (4, 0)], [(0,
    4299226973), (0, 5186126), (0, 1872), (0, 4)], [(4508929, 0), (5457, 0), (1, 0)], [(0, 4649), (0, 5)]], 3, 4⟩,
    17592186044416, 529817,
    4173757002101595850282973672005963124944748438422114516263576520106413280591178153448494685373619232133653336865878911481634270,
    lc0⟩)) (.leaf ⟨729, 16, 1052, 569, 16, 2394, ⟨[[(16086792696397824, 0), (0, 3217818120054066), (58489539684, 0),
    (0, 834363), (10, 0)], [(14069165789883529, 0), (0, 1668600658019), (40733891, 0), (0, 311)], [(1800379890910,
    0), (0, 235401713), (6277, 0)], [(1381408281, 0), (0, 67835), (0, 2)]], 3, 4⟩, ⟨[[(16730580752637952, 0), (0,
    3295484044231108), (39427552591, 0), (0, 1334557), (48, 0)], [(0, 13594245869389698), (0, 133328659028),
    (9079066, 0), (0, 127)], [(2134744259998, 0), (39440978, 0), (1763, 0)], [(0, 356159516), (0, 33086), (1, 0)]],
    3, 4⟩, 72057594037927936, 37070395927, 24039020577, ⟨[[(6329673311293, 0), (6500374693, 0), (3045137, 0), (3463,
    0), (23, 0)], [(0, 6647455893), (0, 12757871), (0, 7234), (0, 22)], [(11088904, 0), (21528, 0), (9, 0)], [(0,
    18255), (0, 32)]], 3, 4⟩, 17592186044416, 3751399,
    4055041108630499671626899301128679041130557623695977712715293103667847003215868018498556597858659012463136194227122427832750461,
    lc0⟩)) (.leaf ⟨567, 16, 804, 446, 16, 1914, ⟨[[(0, 14736710417211392), (0, 2540312373129558), (46681132604, 0),
    (0, 651784), (6, 0)], [(21877096481554947, 0), (0, 2597063745113), (63441648, 0), (0, 419)], [(6314167987704, 0),
    (0, 759180387), (18210, 0), (1, 0)], [(8709776840, 0), (0, 421740), (0, 11)]], 3, 4⟩, ⟨[[(0, 22262471325569024),
    (0, 2641332325761058), (31985272728, 0), (0, 1073831), (39, 0)], [(0, 21313691702053428), (0, 205869270005),
    (14882282, 0), (0, 233)], [(6619222789967, 0), (106442867, 0), (5947, 0)], [(0, 2117663832), (0, 205187), (3,
    0)]], 3, 4⟩, 72057594037927936, 448801014822, 257750471275, ⟨[[(6175432725580, 0), (7848139741, 0), (4477716, 0),
    (4481, 0), (46, 0)], [(0, 8158145005), (0, 19752667), (0, 13060), (0, 41)], [(17436971, 0), (43132, 0), (22, 0)],
    [(0, 36988), (0, 83)]], 3, 4⟩, 17592186044416, 11175215,
    1909860493285910429897650043663084724397955815574916143397900649829546218231876500156106250570975406851638335998395270417577641,
    lc0⟩)) (.leaf ⟨402, 16, 595, 306, 16, 1351, ⟨[[(4706376215339008, 0), (0, 1806497358201714), (32858736536, 0),
    (0, 464007), (6, 0)], [(30121617861610978, 0), (0, 3704959330568), (91660692, 0), (0, 761)], [(16009401948219,
    0), (0, 2111087389), (59423, 0), (2, 0)], [(49247618733, 0), (0, 2523913), (0, 46)]], 3, 4⟩,
    ⟨[[(8272096162496512, 0), (0, 1839411856890571), (21262844937, 0), (0, 699765), (27, 0)], [(0,
    30629177912940574), (0, 276787722674), (20262283, 0), (0, 230)], [(19248198463360, 0), (352669676, 0), (14228,
    0), (0, 1)], [(0, 13149370221), (0, 1164556), (17, 0)]], 3, 4⟩, 72057594037927936, 4877979271810, 2934568877640,
    ⟨[[(6276536099817, 0), (11654101436, 0), (9312060, 0), (9039, 0), (167, 0)], [(0, 11868283013), (0, 41393691),
    (0, 34229), (0, 123), (0, 1)], [(36039545, 0), (127073, 0), (64, 0)], [(0, 108153), (0, 346)]], 3, 4⟩,
    17592186044416, 60886152,
    3136796427346270317410317099942190044425454636798003392929964898024805589119533368161278260167811166996064685790796635060210444,
    lc0⟩)) (.sy (.leaf ⟨389, 16, 533, 309, 16, 1385, ⟨[[(0, 23076055501783040), (0, 1794596761138544), (33642015510,
    0), (0, 446669), (3, 0)], [(30201666644386981, 0), (0, 3576894503208), (86950069, 0), (0, 360)],
    [(21259926879647, 0), (0, 2225983074), (41248, 0), (4, 0)], [(49501483111, 0), (0, 2254057), (0, 90)]], 3, 4⟩,
    ⟨[[(20419273422487552, 0), (0, 1920424924422344), (23841172400, 0), (0, 789044), (29, 0)], [(0,
    29673483427671838), (0, 281998810925), (22680228, 0), (0, 426)], [(18087114256277, 0), (199010300, 0), (19053,
    0), (0, 1)], [(0, 10434829082), (0, 1122764), (20, 0)]], 3, 4⟩, 72057594037927936, 5816763542875, 2852444226856,
    ⟨[[(5880250696234, 0), (10110540188, 0), (7817521, 0), (3113, 0), (99, 0)], [(0, 10814526612), (0, 36917663), (0,
    30569), (0, 79), (0, 1)], [(33411107, 0), (118816, 0), (73, 0)], [(0, 103662), (0, 344)]], 3, 4⟩, 17592186044416,
    61075686,
    3476788581036532053320694483888556909374051038069564433444137704156951243024963504128350706527681153985493652051520296084249888,
    lc0⟩) (.leaf ⟨393, 16, 556, 297, 16, 1389, ⟨[[(0, 33712701117288448), (0, 1837153807369728), (34396620024, 0),
    (0, 459441), (4, 0)], [(29654648837278805, 0), (0, 3640497090298), (90037573, 0), (0, 504)], [(21022968162087,
    0), (0, 2276169944), (48173, 0), (3, 0)], [(50435154257, 0), (0, 2436301), (0, 76)]], 3, 4⟩, ⟨[[(0,
    11435471260733440), (0, 1902548933895237), (22762986387, 0), (0, 731770), (30, 0)], [(0, 29895475146352634), (0,
    260282120734), (22155547, 0), (0, 353)], [(18244174077775, 0), (217665455, 0), (16900, 0), (0, 1)], [(0,
    11025325909), (0, 1106712), (18, 0)]], 3, 4⟩, 72057594037927936, 6066016612551, 2909436519761, ⟨[[(5883344944501,
    0), (10341964658, 0), (8094248, 0), (0, 585), (73, 0)], [(0, 10711531117), (0, 37465854), (0, 28556), (0, 37),
    (0, 1)], [(32925813, 0), (119684, 0), (57, 0)], [(0, 101485), (0, 345)]], 3, 4⟩, 17592186044416, 58567218,
    4660825744779234602665337473555363642990994331683770516774416481477963196999839769361547225274199233959962418166112562246252428,
    lc0⟩))) (.sx (.sy (.leaf ⟨407, 16, 622, 294, 16, 1354, ⟨[[(19689781614252032, 0), (0, 1854348986331953),
    (33629556086, 0), (0, 471115), (7, 0)], [(29568237388898395, 0), (0, 3777499446715), (94570128, 0), (0, 860)],
    [(15643932010555, 0), (0, 2143029955), (64940, 0), (2, 0)], [(50146859895, 0), (0, 2680397), (0, 36)]], 3, 4⟩,
    ⟨[[(1792520616931328, 0), (0, 1822617540433448), (20294913150, 0), (0, 647211), (26, 0)], [(0,
    30831357374518534), (0, 257167123634), (20023510, 0), (0, 144)], [(19471809827641, 0), (366837127, 0), (12441,
    0), (0, 1)], [(0, 13760358149), (0, 1151185), (14, 0)]], 3, 4⟩, 72057594037927936, 5016374671863, 3001341781801,
    ⟨[[(6280087813401, 0), (11929958650, 0), (9468018, 0), (2758, 0), (126, 0)], [(0, 11742083797), (0, 41932924),
    (0, 30583), (0, 61), (0, 1)], [(35405850, 0), (127581, 0), (45, 0)], [(0, 105437), (0, 346)]], 3, 4⟩,
    17592186044416, 56588278,
    4061548604185243241810158046811171857028804847986011460672492604345675953776572487137105355765698404141962211279854936023210523,
    lc0⟩) (.leaf ⟨412, 16, 650, 282, 16, 1357, ⟨[[(16501114708525056, 0), (0, 1902908630472747), (34414301802, 0),
    (0, 475599), (9, 0)], [(28942404076784232, 0), (0, 3849016966206), (97438758, 0), (0, 940)], [(15241225898929,
    0), (0, 2170248338), (69949, 0), (1, 0)], [(50989518772, 0), (0, 2833786), (0, 28)]], 3, 4⟩,
    ⟨[[(1490255968583680, 0), (0, 1806711972296231), (19401552136, 0), (0, 598432), (23, 0)], [(0,
    31024011020789888), (0, 237673076237), (19925841, 0), (0, 41)], [(19702519617349, 0), (379374312, 0), (10951, 0),
    (0, 1)], [(0, 14366689593), (0, 1141162), (10, 0)]], 3, 4⟩, 72057594037927936, 5130148975876, 3070937069365,
    ⟨[[(6279704730038, 0), (12210543933, 0), (9804330, 0), (0, 2221), (90, 0)], [(0, 11608539404), (0, 42569580), (0,
    28811), (0, 13), (0, 1)], [(34767544, 0), (128582, 0), (35, 0)], [(0, 102793), (0, 347)]], 3, 4⟩, 17592186044416,
    54201595,
    4933987151092180085026166182000983663226512115352824280310963512431483658437836965770346754650981978296424188295072917921965093,
    lc0⟩)) (.sy (.sx (.leaf ⟨563, 16, 833, 405, 16, 1952, ⟨[[(4360346309959680, 0), (0, 2645714334119956),
    (49111728100, 0), (0, 664793), (8, 0)], [(20561411335756931, 0), (0, 2625296178101), (65979120, 0), (0, 493)],
    [(6877731471557, 0), (0, 804147298), (20258, 0), (1, 0)], [(8984541257, 0), (0, 466179), (0, 10)]], 3, 4⟩, ⟨[[(0,
    12252771786301440), (0, 2638789322042662), (30186013678, 0), (0, 941309), (40, 0)], [(0, 21368006425347953), (0,
    171132834753), (15029872, 0), (0, 160)], [(6581156518295, 0), (94212799, 0), (4986, 0)], [(0, 2143594813), (0,
    195040), (3, 0)]], 3, 4⟩, 72057594037927936, 528713754931, 269102021019, ⟨[[(5981593855673, 0), (7736631571, 0),
    (4373237, 0), (0, 915), (16, 0)], [(0, 7725977353), (0, 19655116), (0, 10064), (0, 3)], [(16718927, 0), (43840,
    0), (12, 0)], [(0, 36097), (0, 88)]], 3, 4⟩, 17592186044416, 10455407,
    4472077077899184738635203745174976406847811276820858767572698510994669512959038208589389385299820132574385152084402357305632239,
    lc0⟩) (.leaf ⟨555, 16, 803, 396, 16, 1969, ⟨[[(0, 35560537657294848), (0, 2658122742364985), (50048007055, 0),
    (0, 659361), (7, 0)], [(20424437456584933, 0), (0, 2598251587314), (65187503, 0), (0, 403)], [(7749349825839, 0),
    (0, 832136274), (18133, 0), (1, 0)], [(9115528475, 0), (0, 453525), (0, 13)]], 3, 4⟩, ⟨[[(0, 3401124460105728),
    (0, 2668867556485822), (31094734003, 0), (0, 957168), (42, 0)], [(0, 21007520296209250), (0, 165668503306),
    (15597968, 0), (0, 204)], [(6379990064622, 0), (70706779, 0), (5382, 0), (0, 1)], [(0, 1941214933), (0, 189533),
    (3, 0)]], 3, 4⟩, 72057594037927936, 577445037468, 266512835251, ⟨[[(5793442668231, 0), (7323448247, 0), (4220812,
    0), (0, 1520), (9, 0)], [(0, 7352674362), (0, 18859247), (0, 9924), (2, 0)], [(16041789, 0), (43024, 0), (13,
    0)], [(0, 35180), (0, 89)]], 3, 4⟩, 17592186044416, 10445874,
    5208631314074395005418796324534912156987037950264511335887566347307070042521027817889208278366622874885517980708698731075781788,
    lc0⟩)) (.sx (.leaf ⟨565, 16, 864, 389, 16, 1962, ⟨[[(5331549835264000, 0), (0, 2693547711827577), (49915291061,
    0), (0, 669818), (11, 0)], [(19976836915123255, 0), (0, 2654689812001), (67620541, 0), (0, 566)],
    [(6720371819734, 0), (0, 812417954), (22066, 0), (1, 0)], [(9073782807, 0), (0, 492661), (0, 8)]], 3, 4⟩, ⟨[[(0,
    33818969420840960), (0, 2622540967792260), (28975147800, 0), (0, 868514), (37, 0)], [(0, 21560033306493352), (0,
    156943678019), (14925828, 0), (0, 77)], [(6663611446556, 0), (99371101, 0), (4315, 0)], [(0, 2252358136), (0,
    193662), (2, 0)]], 3, 4⟩, 72057594037927936, 542683734672, 277721294080, ⟨[[(5984198497056, 0), (7905216987, 0),
    (4590218, 0), (0, 1851), (10, 0)], [(0, 7707652890), (0, 20117067), (0, 10055), (4, 0)], [(16713031, 0), (44936,
    0), (11, 0)], [(0, 36124), (0, 90)]], 3, 4⟩, 17592186044416, 10409269,
    5327969684466263324622670341621981894330091151738483060779305554384344285556016842609775087582380423529606214831095898853696405,
    lc0⟩) (.sx (.leaf ⟨694, 16, 1045, 479, 16, 2477, ⟨[[(9427339803770880, 0), (0, 3359955624184146), (62974513356,
    0), (0, 830951), (12, 0)], [(12353482755030842, 0), (0, 1637254827869), (41718209, 0), (0, 318)],
    [(2296366515784, 0), (0, 259828802), (6413, 0)], [(1426026045, 0), (0, 75440), (0, 2)]], 3, 4⟩, ⟨[[(0,
    19402182824017920), (0, 3317049049466395), (37179813919, 0), (0, 1100111), (48, 0)], [(0, 13348759383118543), (0,
    95478229160), (9597158, 0), (0, 67)], [(2038517010293, 0), (25671308, 0), (1421, 0)], [(0, 328889293), (0,
    29687)]], 3, 4⟩, 72057594037927936, 50183200188, 27551609141, ⟨[[(5843943772343, 0), (6055351549, 0), (2860665,
    0), (0, 1053), (3, 0)], [(0, 5983686692), (0, 12545591), (0, 5194), (3, 0)], [(10517713, 0), (22962, 0), (5, 0)],
    [(0, 18526), (0, 38)]], 3, 4⟩, 17592186044416, 3837817,
    5295942049872715515643396678116754797855876852991952294133852873662718813929886656040757539040587384938642096126235301469073150,
    lc0⟩) (.leaf ⟨688, 16, 1025, 472, 16, 2483, ⟨[[(0, 2504068572995584), (0, 3363553941004939), (63498869759, 0),
    (0, 827742), (11, 0)], [(12313724325302824, 0), (0, 1627719992630), (41439748, 0), (0, 293)], [(2431053280943,
    0), (0, 264203032), (6085, 0)], [(1437151785, 0), (0, 74329), (0, 2)]], 3, 4⟩, ⟨[[(10135180128186368, 0), (0,
    3329060487460015), (37676468521, 0), (0, 1105877), (50, 0)], [(0, 13211157334900049), (0, 93704394884), (9741817,
    0), (0, 81)], [(2003022132423, 0), (22018714, 0), (1466, 0)], [(0, 312127516), (0, 29211)]], 3, 4⟩,
    72057594037927936, 52370470097, 29136453738, ⟨[[(5751732548540, 0), (5902998134, 0), (2834717, 0), (0, 1091), (2,
    0)], [(0, 5843295673), (0, 12333646), (0, 5266), (3, 0)], [(10326924, 0), (22867, 0), (5, 0)], [(0, 18358), (0,
    38)]], 3, 4⟩, 17592186044416, 3869286,
    5409630669948737569412820977889418973101007556181262126394001511594006827626925652471159761891724629001694198408555237610868634,
    lc0⟩)))))
theorem c20 : checkR job con0 true ⟨7, 9, 7, 9, 13, 17⟩ 1 28336 t20 327 21 320 13239 251 16000 = true := by decide +kernel

def t21 : CTree :=
  .sy (.sx (.sy (.sx (.sy (.out ⟨753, 16, 1509, 6533, 16, 8532, ⟨[[(31194331055702016, 0), (0, 1784086985312385),
    (14755226539, 0)], [(30243663458736542, 0), (0, 2000418701729), (23986008, 0)], [(664464458849, 0), (0,
    406723080), (10591, 0)]], 2, 2⟩, ⟨[[(6535028445282304, 0), (0, 4351987102626660), (40232475457, 0)]], 2, 2⟩,
    72057594037927936, 124652008897049, 5895165280383, ⟨[], 0, 0⟩, 0, 0, 0, lc0⟩ 1 1 204940137958) (.leaf ⟨878, 16,
    1575, 581, 16, 2543, ⟨[[(0, 30647983831908352), (0, 1846740080479544), (15234584944, 0), (0, 108989), (1, 0)],
    [(30524605734105198, 0), (0, 2062891693278), (24807549, 0), (0, 149)], [(483207908767, 0), (0, 413409036),
    (11064, 0)], [(13601035532, 0), (0, 324593)]], 3, 4⟩, ⟨[[(0, 14163186623578112), (0, 1647646862476533),
    (7739877209, 0), (0, 130603), (2, 0)], [(0, 33163722254371736), (0, 149657147775), (4279363, 0), (9, 0)],
    [(11760397182673, 0), (176065994, 0), (939, 0)], [(0, 5030053854), (0, 167347), (1, 0)]], 3, 4⟩,
    72057594037927936, 75947253315, 428719866450, ⟨[[(7377181899784, 0), (8182234432, 0), (3413424, 0), (3266, 0),
    (25, 0)], [(0, 7286655192), (0, 13257826), (0, 4104), (0, 8)], [(10414433, 0), (17697, 0), (0, 3)], [(0, 14350),
    (0, 20)]], 3, 4⟩, 17592186044416, 2315695,
    3778083551060852757645293018530730363500266944115429527546408656951515644540083323805533213796537972135002239275680532630091888,
    lc0⟩)) (.leaf ⟨608, 16, 1061, 418, 16, 1873, ⟨[[(0, 19465312073515008), (0, 2616914833027774), (44146494271, 0),
    (0, 628154), (14, 0)], [(20994820794471979, 0), (0, 2845950557352), (69656402, 0), (0, 811)], [(1557879004409,
    0), (0, 621947591), (29843, 0)], [(9243794963, 0), (0, 474580)]], 3, 4⟩, ⟨[[(0, 79795635900416), (0,
    2441801751367400), (23627806496, 0), (0, 776922), (21, 0)], [(0, 23692375853781346), (0, 203169982945),
    (12825666, 0), (60, 0)], [(8182948571209, 0), (228445968, 0), (2939, 0)], [(0, 3414507659), (0, 233021), (2,
    0)]], 3, 4⟩, 72057594037927936, 114651432440, 308689156911, ⟨[[(7098983993102, 0), (10562216176, 0), (5919224,
    0), (4824, 0), (65, 0)], [(0, 9847217896), (0, 24821103), (0, 10730), (0, 21)], [(20281294, 0), (48766, 0), (0,
    3)], [(0, 40454), (0, 84)]], 3, 4⟩, 17592186044416, 11088058,
    2454062148127363883465867350787250574054749007160443551824208118543101376788402462596235768931827559246371995839111948297896724,
    lc0⟩)) (.leaf ⟨439, 16, 797, 278, 16, 1276, ⟨[[(0, 25119578121842688), (0, 1889218414263650), (31397181187, 0),
    (0, 438485), (10, 0)], [(29360363323786715, 0), (0, 4135045467076), (100987054, 0), (0, 1135)], [(2062702250770,
    0), (0, 1690582583), (89808, 0)], [(54019103014, 0), (0, 2739377), (2, 0)]], 3, 4⟩, ⟨[[(0, 668593004490752), (0,
    1644941892441618), (15133642790, 0), (0, 508687), (7, 0)], [(0, 32897212393110132), (0, 272876768216), (17444335,
    0), (101, 0)], [(23230919933748, 0), (671295103, 0), (8808, 0), (1, 0)], [(0, 19962247716), (0, 1297917), (7,
    0)]], 3, 4⟩, 72057594037927936, 538169061696, 3471727893025, ⟨[[(7232663248798, 0), (16226738248, 0), (13038049,
    0), (8650, 0), (267, 0)], [(0, 14118977563), (0, 52889020), (0, 28831), (0, 33), (0, 1)], [(40539058, 0),
    (143983, 0), (0, 27), (0, 1)], [(0, 112554), (0, 346), (1, 0)]], 3, 4⟩, 17592186044416, 56374375,
    3888094267265578991294223948890607160172263569944568800177042313959021598980716414594741750695725565747610472279781305640464459,
    lc0⟩)) (.sy (.leaf ⟨427, 16, 723, 280, 16, 1318, ⟨[[(0, 20492839578746880), (0, 1907193739853614), (33153897813,
    0), (0, 462660), (11, 0)], [(29031560470631960, 0), (0, 3993435889509), (100051078, 0), (0, 1091)],
    [(9057200823605, 0), (0, 1953249138), (81042, 0)], [(51626793399, 0), (0, 2867591), (0, 7)]], 3, 4⟩, ⟨[[(0,
    9232611594891264), (0, 1726665735533200), (17203570979, 0), (0, 543800), (16, 0)], [(0, 31947940255594142), (0,
    249224782858), (18596112, 0), (97, 0)], [(21315816360649, 0), (523976727, 0), (9000, 0)], [(0, 17136108232), (0,
    1210684), (6, 0)]], 3, 4⟩, 72057594037927936, 3206020134128, 3231771495184, ⟨[[(6721401492589, 0), (14054811306,
    0), (11270123, 0), (1347, 0), (158, 0)], [(0, 12726575179), (0, 47292104), (0, 29326), (0, 27), (0, 1)],
    [(37221613, 0), (135433, 0), (14, 0)], [(0, 106236), (0, 345)]], 3, 4⟩, 17592186044416, 53174083,
    3591075907833681429696901237713148220314249765525053528114123764167876685436500399721660045215346201283690730917552551135374559,
    lc0⟩) (.leaf ⟨433, 16, 757, 268, 16, 1320, ⟨[[(0, 617173447450624), (0, 1962390659510670), (34000503645, 0), (0,
    461609), (12, 0)], [(28324084341069416, 0), (0, 4076906025053), (103082900, 0), (0, 1072)], [(8477897840003, 0),
    (0, 1959754565), (85097, 0)], [(52545672926, 0), (0, 3009047), (0, 6)]], 3, 4⟩, ⟨[[(22233245890965504, 0), (0,
    1712391875581361), (16429902994, 0), (0, 519957), (8, 0)], [(0, 32117011942953100), (0, 230808737310), (18837057,
    0), (187, 0)], [(21613893690329, 0), (534011375, 0), (9565, 0), (1, 0)], [(0, 17769711086), (0, 1209225)]], 3,
    4⟩, 72057594037927936, 3145816465247, 3311531763372, ⟨[[(6718772534612, 0), (14404404733, 0), (11706733, 0), (0,
    5195), (108, 0)], [(0, 12567502068), (0, 48061312), (0, 28275), (22, 0), (0, 1)], [(36471023, 0), (136626, 0),
    (16, 0)], [(0, 103313), (0, 346)]], 3, 4⟩, 17592186044416, 51027965,
    4185763362453947223773847005157974752376735271084783078568081519856543139399638006045206405367326077358151621748083534680088766,
    lc0⟩))) (.sx (.sy (.leaf ⟨446, 16, 836, 267, 16, 1277, ⟨[[(30621684161892352, 0), (0, 1948941615788591),
    (32256664207, 0), (0, 439146), (10, 0)], [(28646247640060002, 0), (0, 4231904931224), (104229540, 0), (0, 1058)],
    [(1297194357129, 0), (0, 1678612336), (94467, 0)], [(55220468982, 0), (0, 2871959)]], 3, 4⟩, ⟨[[(0,
    14991841284931584), (0, 1631407459353469), (14384682582, 0), (0, 504572), (0, 3)], [(0, 33055672416361228), (0,
    255480958098), (17625445, 0), (119, 0)], [(23588775929373, 0), (681774669, 0), (11265, 0), (2, 0)], [(0,
    20628393060), (0, 1293381), (3, 0)]], 3, 4⟩, 72057594037927936, 624638628231, 3556818948147, ⟨[[(7246916787675,
    0), (16673099447, 0), (13297424, 0), (0, 1653), (193, 0)], [(0, 13985472158), (0, 53770417), (0, 26878), (31, 0),
    (0, 1)], [(39788924, 0), (145315, 0), (0, 16), (0, 1)], [(0, 109512), (0, 350)]], 3, 4⟩, 17592186044416,
    52498140,
    2744250589650595905040504266419407439386880245521841089829840147207044493142114713655086270469285863293192077005307967596601642,
    lc0⟩) (.leaf ⟨455, 16, 878, 256, 16, 1278, ⟨[[(0, 20827135604858880), (0, 2013185625423842), (33198323897, 0),
    (0, 440621), (10, 0)], [(27881718617768771, 0), (0, 4335404549204), (107928582, 0), (0, 921)], [(502409315321,
    0), (0, 1663071752), (99813, 0), (1, 0)], [(56480047014, 0), (0, 3019312), (0, 7)]], 3, 4⟩, ⟨[[(0,
    23348214802505728), (0, 1618616181324019), (13625044281, 0), (0, 523106), (0, 16)], [(0, 33205449104339188), (0,
    237878419436), (17826000, 0), (127, 0)], [(23952917346771, 0), (695555095, 0), (15432, 0), (3, 0)], [(0,
    21293899047), (0, 1293570), (0, 2)]], 3, 4⟩, 72057594037927936, 966347158464, 3634719959237, ⟨[[(7239177504964,
    0), (17063239346, 0), (13821353, 0), (0, 9509), (129, 0)], [(0, 13725417386), (0, 54274821), (0, 27062), (70,
    0)], [(38526971, 0), (144799, 0), (1, 0), (0, 1)], [(0, 104695), (0, 345)]], 3, 4⟩, 17592186044416, 48650137,
    3353752763912110479468833793055591311831995899613664447771445339718203231520503462591052371128221383910726928563134500423993829,
    lc0⟩)) (.sy (.leaf ⟨440, 16, 794, 257, 16, 1322, ⟨[[(0, 4381049322631168), (0, 2022861506278917), (34951928721,
    0), (0, 459099), (13, 0)], [(27588953785835258, 0), (0, 4168442130099), (106514121, 0), (0, 1001)],
    [(7882882365807, 0), (0, 1965951965), (89164, 0)], [(53527806878, 0), (0, 3163615), (0, 9)]], 3, 4⟩, ⟨[[(0,
    12681745314127872), (0, 1698856400769746), (15678525487, 0), (0, 513543), (0, 2)], [(0, 32276934632391741), (0,
    212051082036), (19221999, 0), (288, 0)], [(21917653957617, 0), (545198493, 0), (11318, 0), (2, 0)], [(0,
    18405215468), (0, 1214934), (0, 8)]], 3, 4⟩, 72057594037927936, 3074331406064, 3385726703764, ⟨[[(6725240113824,
    0), (14778633795, 0), (12321470, 0), (0, 9718), (69, 0)], [(0, 12417144144), (0, 48817553), (0, 28665), (53, 0)],
    [(35686656, 0), (137244, 0), (21, 0)], [(0, 100136), (0, 343)]], 3, 4⟩, 17592186044416, 48287397,
    4304950900061867540135075475713438849646573938254065399400003222636949719132649591427327968236245328564924758473784466048984437,
    lc0⟩) (.leaf ⟨447, 16, 834, 245, 16, 1324, ⟨[[(30799129299947520, 0), (0, 2088267019816411), (36007048869, 0),
    (0, 454749), (14, 0)], [(26808915671201850, 0), (0, 4266862450494), (110432334, 0), (0, 860)], [(7266957958081,
    0), (0, 1971100966), (93362, 0)], [(54553380296, 0), (0, 3335745), (0, 17)]], 3, 4⟩, ⟨[[(29782120165177344, 0),
    (0, 1686052733914633), (14918803618, 0), (0, 530554), (0, 15)], [(0, 32427484585901080), (0, 192798738480),
    (19767239, 0), (400, 0)], [(22228011463779, 0), (558901809, 0), (14605, 0), (3, 0)], [(0, 19046768670), (0,
    1230054), (0, 19)]], 3, 4⟩, 72057594037927936, 2986374628442, 3451280233289, ⟨[[(6722354497109, 0), (15169719560,
    0), (13147626, 0), (0, 13177), (35, 0)], [(0, 12245759666), (0, 49669080), (0, 30299), (74, 0)], [(34891587, 0),
    (138049, 0), (30, 0)], [(0, 97139), (0, 340)]], 3, 4⟩, 17592186044416, 44879130,
    3716168873179615435396573562639222646612582827787028192547913091607482513587036327146398250904659729234296204871876855713642923,
    lc0⟩)))
theorem c21 : checkR job con0 true ⟨7, 9, 7, 9, 13, 17⟩ 1 28336 t21 285 21 320 13741 251 16000 = true := by decide +kernel

def t22 : CTree :=
  .sy (.sx (.sy (.sx (.leaf ⟨585, 16, 963, 391, 16, 1934, ⟨[[(33447249491984384, 0), (0, 2710540923977007),
    (48463833423, 0), (0, 661561), (15, 0)], [(19818063229178789, 0), (0, 2747332390696), (70010853, 0), (0, 710)],
    [(4675655995831, 0), (0, 744569060), (26595, 0)], [(9000300572, 0), (0, 517718), (0, 3)]], 3, 4⟩, ⟨[[(0,
    28561887976312832), (0, 2544477146607639), (26117004238, 0), (0, 793607), (25, 0)], [(0, 22490499181277580), (0,
    161213649540), (14071689, 0), (64, 0)], [(7260182073958, 0), (151753089, 0), (3481, 0)], [(0, 2779067261), (0,
    206576), (1, 0)]], 3, 4⟩, 72057594037927936, 408427171463, 291634766236, ⟨[[(6390705547925, 0), (8996259976, 0),
    (5114023, 0), (0, 1650), (19, 0)], [(0, 8462145448), (0, 22185409), (0, 9960), (3, 0)], [(17987426, 0), (47188,
    0), (7, 0)], [(0, 37616), (0, 90)]], 3, 4⟩, 17592186044416, 10444620,
    4149888621697485056486239124143757890730567332341526286608994490529523381206422898705783504910880981796305806026107596531057861,
    lc0⟩) (.leaf ⟨577, 16, 930, 381, 16, 1953, ⟨[[(0, 23306287834079232), (0, 2730396071886101), (49687827482, 0),
    (0, 667358), (14, 0)], [(19564839391997708, 0), (0, 2716272932544), (69750593, 0), (0, 669)], [(5632683281836,
    0), (0, 783438753), (25207, 0)], [(9055745531, 0), (0, 521298), (0, 5)]], 3, 4⟩, ⟨[[(27373892593885184, 0), (0,
    2576057047520392), (26976659425, 0), (0, 798958), (28, 0)], [(0, 22110034718142434), (0, 151012476104),
    (14509353, 0), (50, 0)], [(6992882590689, 0), (127540818, 0), (3612, 0)], [(0, 2569626277), (0, 199542), (1,
    0)]], 3, 4⟩, 72057594037927936, 488244632654, 287414783708, ⟨[[(6169203948294, 0), (8505240942, 0), (4976085, 0),
    (0, 2312), (10, 0)], [(0, 8018491028), (0, 21306610), (0, 10130), (7, 0)], [(17205549, 0), (46446, 0), (10, 0)],
    [(0, 36556), (0, 91)]], 3, 4⟩, 17592186044416, 10284145,
    5028805313550238107750803559975493250539185782920902925025166494872423414117517633253759084200662905984316472893429560798674882,
    lc0⟩)) (.leaf ⟨424, 16, 713, 258, 16, 1363, ⟨[[(0, 27323520358875136), (0, 2013078195607826), (36242827994, 0),
    (0, 477129), (13, 0)], [(27615316994649429, 0), (0, 4010589656928), (103772403, 0), (0, 1006)], [(14406609367179,
    0), (0, 2224029730), (78648, 0)], [(52784886196, 0), (0, 3155963), (0, 19)]], 3, 4⟩, ⟨[[(17823519379951616, 0),
    (0, 1777301749449016), (17799376176, 0), (0, 527849), (11, 0)], [(0, 31380669275466868), (0, 198412495133),
    (20271618, 0), (227, 0)], [(20182598945165, 0), (401262276, 0), (9585, 0)], [(0, 15574672108), (0, 1138371), (0,
    4)]], 3, 4⟩, 72057594037927936, 5348385141684, 3207845120602, ⟨[[(6270002540373, 0), (12787394378, 0), (10917556,
    0), (0, 8709), (33, 0)], [(0, 11273868333), (0, 43835315), (0, 29288), (47, 0)], [(33189178, 0), (130067, 0),
    (36, 0)], [(0, 96449), (0, 345)]], 3, 4⟩, 17592186044416, 48855748,
    5477919694669340416412293515749805506682495141975713377592822309394785762753314824790048101805513461735646695847320780343347337,
    lc0⟩)) (.sy (.sx (.leaf ⟨567, 16, 897, 372, 16, 1972, ⟨[[(25578952067948544, 0), (0, 2744916914450512),
    (50792804522, 0), (0, 670278), (14, 0)], [(19373902740564318, 0), (0, 2686054107596), (69290668, 0), (0, 620)],
    [(6559482884574, 0), (0, 820057383), (23623, 0)], [(9161652100, 0), (0, 518894), (0, 7)]], 3, 4⟩,
    ⟨[[(17859512070332416, 0), (0, 2607310361752999), (27860916466, 0), (0, 805085), (30, 0)], [(0,
    21745334783601067), (0, 142715297162), (14960897, 0), (26, 0)], [(6748753738754, 0), (103923033, 0), (3744, 0)],
    [(0, 2361148497), (0, 193235), (1, 0)]], 3, 4⟩, 72057594037927936, 556435525436, 284968400125, ⟨[[(5980698347874,
    0), (8077016878, 0), (4864226, 0), (0, 2534), (5, 0)], [(0, 7675478724), (0, 20613702), (0, 10412), (10, 0)],
    [(16681498, 0), (46143, 0), (11, 0)], [(0, 36125), (0, 93)]], 3, 4⟩, 17592186044416, 10395471,
    5451341209683259566533003414084165581824889220883491190078939589643441608929370896240722834760153611531432230105128238291144006,
    lc0⟩) (.leaf ⟨558, 16, 864, 363, 16, 1990, ⟨[[(0, 34355508525686784), (0, 2754027878457935), (51766945078, 0),
    (0, 670042), (13, 0)], [(19239395330595718, 0), (0, 2656252358151), (68615403, 0), (0, 564)], [(7459683462633,
    0), (0, 853575104), (21811, 0)], [(9306090226, 0), (0, 510173), (0, 9)]], 3, 4⟩, ⟨[[(1415869924270080, 0), (0,
    2636987405268678), (28756044258, 0), (0, 812007), (33, 0)], [(0, 21383951899505359), (0, 136227057014),
    (15419280, 0), (0, 8)], [(6524723786091, 0), (80784885, 0), (3888, 0)], [(0, 2151856425), (0, 187449), (1, 0)]],
    3, 4⟩, 72057594037927936, 616514629594, 282071795640, ⟨[[(5793196962725, 0), (7642761950, 0), (4742954, 0), (0,
    2493), (1, 0)], [(0, 7311353252), (0, 19819913), (0, 10714), (11, 0)], [(16047314, 0), (45471, 0), (13, 0)], [(0,
    35346), (0, 94)]], 3, 4⟩, 17592186044416, 10440023,
    5538948296006277423831020408149767437626041025458571431034532850130678811634115993763374444854569823143778706415679414381219327,
    lc0⟩)) (.sx (.leaf ⟨569, 16, 931, 356, 16, 1982, ⟨[[(14088976063291392, 0), (0, 2796550025495787), (51693347899,
    0), (0, 664205), (17, 0)], [(18726785996362295, 0), (0, 2716151943107), (70939510, 0), (0, 649)],
    [(6387058004704, 0), (0, 826315450), (24870, 0)], [(9236966900, 0), (0, 544692), (0, 6)]], 3, 4⟩, ⟨[[(0,
    1749219810033664), (0, 2593015267383181), (26825067546, 0), (0, 757397), (21, 0)], [(0, 21923815195111442), (0,
    128291823950), (15168632, 0), (153, 0)], [(6836318544102, 0), (107995607, 0), (3334, 0)], [(0, 2470540702), (0,
    194175), (0, 1)]], 3, 4⟩, 72057594037927936, 566953472202, 293498078928, ⟨[[(5981664144572, 0), (8256242086, 0),
    (5165639, 0), (0, 2946), (1, 0)], [(0, 7656138220), (0, 21139419), (0, 11004), (14, 0)], [(16681734, 0), (47391,
    0), (12, 0)], [(0, 36213), (0, 95)]], 3, 4⟩, 17592186044416, 10394347,
    5282013916825600639754108065954093472237023749968601543099799323966157384472406236848832511333992323392885814213374247292635133,
    lc0⟩) (.leaf ⟨559, 16, 897, 347, 16, 2001, ⟨[[(6132140125437952, 0), (0, 2805776173952045), (52718002090, 0), (0,
    665990), (16, 0)], [(18607741310277486, 0), (0, 2686636694299), (70329983, 0), (0, 613)], [(7305500737293, 0),
    (0, 863142942), (23165, 0)], [(9393506879, 0), (0, 537883), (0, 7)]], 3, 4⟩, ⟨[[(0, 24968460400443392), (0,
    2623134585170339), (27731289544, 0), (0, 758650), (24, 0)], [(0, 21567008347563258), (0, 121386558073),
    (15592721, 0), (130, 0)], [(6602497023933, 0), (84824943, 0), (3273, 0)], [(0, 2258252226), (0, 188282), (0,
    1)]], 3, 4⟩, 72057594037927936, 631839644350, 290944689092, ⟨[[(5800137848352, 0), (7825208960, 0), (5050145, 0),
    (0, 2709), (0, 1)], [(0, 7317629209), (0, 20400566), (0, 11427), (14, 0)], [(16135165, 0), (46954, 0), (15, 0)],
    [(0, 35690), (0, 97)]], 3, 4⟩, 17592186044416, 10551636,
    5382255548044998835492125193470377623468260620276236184188782923398770180887650146874359813092912928570733378043688145196960769,
    lc0⟩)))) (.sx (.sy (.leaf ⟨430, 16, 748, 246, 16, 1366, ⟨[[(0, 11895229119700992), (0, 2074094456224496),
    (37288775108, 0), (0, 472539), (15, 0)], [(26886064677885126, 0), (0, 4098940530102), (107335643, 0), (0, 968)],
    [(13963325083906, 0), (0, 2250430070), (82249, 0)], [(53709012014, 0), (0, 3330531), (0, 20)]], 3, 4⟩,
    ⟨[[(33732689171443712, 0), (0, 1763699063554779), (17054400937, 0), (0, 515717), (1, 0)], [(0,
    31544407495527771), (0, 178237770573), (20785609, 0), (400, 0)], [(20431343899493, 0), (411980991, 0), (10164,
    0), (1, 0)], [(0, 16183540765), (0, 1150148), (0, 15)]], 3, 4⟩, 72057594037927936, 5448450518315, 3277047150517,
    ⟨[[(6269438542615, 0), (13115381116, 0), (11667774, 0), (0, 10545), (11, 0)], [(0, 11131994831), (0, 44642479),
    (0, 30935), (64, 0)], [(32527603, 0), (131218, 0), (41, 0)], [(0, 93861), (0, 343)]], 3, 4⟩, 17592186044416,
    46063769,
    5009185527771212481624928614211853431495261414912992571029570420861524348061731272983583616524037803148929838129011202304705412,
    lc0⟩) (.leaf ⟨436, 16, 785, 235, 16, 1369, ⟨[[(4941300866625536, 0), (0, 2137767055698547), (38410846832, 0), (0,
    462840), (17, 0)], [(26084801965858679, 0), (0, 4189332605615), (111225143, 0), (0, 858)], [(13490106301681, 0),
    (0, 2275551052), (85269, 0), (0, 1)], [(54605541284, 0), (0, 3518300), (0, 26)]], 3, 4⟩, ⟨[[(0,
    17709226888204288), (0, 1750803869395464), (16309282959, 0), (0, 526857), (0, 12)], [(0, 31698050557576454), (0,
    157362219652), (21584399, 0), (605, 0)], [(20686171288794, 0), (423889675, 0), (11964, 0), (2, 0)], [(0,
    16802614250), (0, 1174515), (0, 29)]], 3, 4⟩, 72057594037927936, 5535793840974, 3342061557230, ⟨[[(6281390683330,
    0), (13480299004, 0), (12475872, 0), (0, 11662), (0, 4)], [(0, 11039237208), (0, 45561577), (0, 32917), (73, 0)],
    [(32042577, 0), (132487, 0), (45, 0)], [(0, 91897), (0, 341)]], 3, 4⟩, 17592186044416, 43887317,
    3806093641117746303560880358980574642103024060704598871097501307751497586401455461526208056173848571344107342830358385695769155,
    lc0⟩)) (.sy (.leaf ⟨416, 16, 698, 236, 16, 1409, ⟨[[(7045867059564544, 0), (0, 2100039235467165), (39136718324,
    0), (0, 479642), (16, 0)], [(26456723466641737, 0), (0, 4018263419376), (106484525, 0), (0, 939)],
    [(19645010750514, 0), (0, 2507830769), (73483, 0)], [(55210152177, 0), (0, 3348424), (0, 34)]], 3, 4⟩, ⟨[[(0,
    17211138512005120), (0, 1826276251724667), (18509032044, 0), (0, 513920), (6, 0)], [(0, 30850530821493534), (0,
    154259682691), (22234892, 0), (430, 0)], [(19146792668753, 0), (281523387, 0), (8426, 0)], [(0, 13927655979), (0,
    1092079), (0, 16)]], 3, 4⟩, 72057594037927936, 7317215609505, 3217719593527, ⟨[[(5890662560871, 0), (11680293921,
    0), (10983565, 0), (0, 8582), (0, 11)], [(0, 10157767150), (0, 41211648), (0, 33032), (63, 0)], [(30386819, 0),
    (127519, 0), (56, 0)], [(0, 90910), (0, 352)]], 3, 4⟩, 17592186044416, 47428359,
    5042425477774582903677464804489949812737147505167802435671591257785106468262107243512533567217738498564563893535220407153355425,
    lc0⟩) (.leaf ⟨422, 16, 733, 224, 16, 1413, ⟨[[(0, 18641092793823232), (0, 2164450632469855), (40366906616, 0),
    (0, 467678), (20, 0)], [(25693091905509282, 0), (0, 4108208053569), (110398484, 0), (0, 895)], [(19327383426513,
    0), (0, 2556644548), (75872, 0), (0, 1)], [(56204385547, 0), (0, 3552116), (0, 36)]], 3, 4⟩, ⟨[[(0,
    19072533427802112), (0, 1813213066652487), (17788623711, 0), (0, 515386), (0, 7)], [(0, 31010088365029364), (0,
    131917901347), (23149307, 0), (708, 0)], [(19344975588217, 0), (290676896, 0), (8350, 0)], [(0, 14522341349), (0,
    1119196), (0, 32)]], 3, 4⟩, 72057594037927936, 7578740253154, 3284678394633, ⟨[[(5887323616909, 0), (11961959145,
    0), (11743738, 0), (0, 8717), (0, 18)], [(0, 10010136508), (0, 41907087), (0, 35316), (67, 0)], [(29725700, 0),
    (128395, 0), (60, 0)], [(0, 88388), (0, 349)]], 3, 4⟩, 17592186044416, 44974742,
    3718563299818085675493078095690801633104634948831748248270483619534839095863075230308077074335995497443957681836662555440938948,
    lc0⟩)))
theorem c22 : checkR job con0 true ⟨7, 9, 7, 9, 13, 17⟩ 1 28336 t22 327 21 320 13741 251 16000 = true := by decide +kernel

def t23 : CTree :=
  .sy (.sx (.sy (.leaf ⟨378, 16, 495, 300, 16, 1422, ⟨[[(0, 10856110615187456), (0, 1809971406467158), (34695669177,
    0), (0, 422119), (0, 1)], [(29958593155834124, 0), (0, 3506485321696), (83450318, 0), (9, 0)], [(25839372153832,
    0), (0, 2325660451), (24945, 0), (5, 0)], [(50922076216, 0), (0, 1978825), (0, 132)]], 3, 4⟩,
    ⟨[[(16738683791593472, 0), (0, 1983612579966338), (25492108433, 0), (0, 831117), (31, 0)], [(0,
    28958661641144613), (0, 278332912349), (25036424, 0), (0, 563)], [(17374872110721, 0), (63868262, 0), (22109, 0),
    (0, 2)], [(0, 8270478264), (0, 1079238), (20, 0)]], 3, 4⟩, 72057594037927936, 6448540636483, 2859514616431,
    ⟨[[(5538366799191, 0), (8996800720, 0), (6938586, 0), (0, 2168), (40, 0)], [(0, 9861663239), (0, 33613568), (0,
    26520), (0, 18), (0, 1)], [(30918532, 0), (112626, 0), (64, 0)], [(0, 98958), (0, 345)]], 3, 4⟩, 17592186044416,
    62662002,
    4586924062969281925646747650942394816101097388237035558993382526027151642281244104400557425867808408138868852015700900747359141,
    lc0⟩) (.sx (.leaf ⟨544, 16, 745, 404, 16, 1974, ⟨[[(0, 17811107821690880), (0, 2618439241467142), (49949797744,
    0), (0, 632311), (2, 0)], [(20858091073964187, 0), (0, 2539921832555), (62181545, 0), (0, 184)], [(8702280289600,
    0), (0, 839212306), (13197, 0), (1, 0)], [(9135731274, 0), (0, 401263), (0, 19)]], 3, 4⟩, ⟨[[(0,
    26054982834094080), (0, 2715231995590810), (33366479507, 0), (0, 1057918), (44, 0)], [(0, 20448518810127439), (0,
    177508168416), (16539396, 0), (0, 320)], [(6142515597666, 0), (41132730, 0), (6634, 0), (0, 1)], [(0,
    1634877472), (0, 186756), (3, 0)]], 3, 4⟩, 72057594037927936, 594483760550, 259309483078, ⟨[[(5625111085229, 0),
    (6809121188, 0), (3874073, 0), (0, 1235), (9, 0)], [(0, 7067425175), (0, 17772884), (0, 9772), (0, 1)],
    [(15541087, 0), (41438, 0), (15, 0)], [(0, 34664), (0, 88)]], 3, 4⟩, 17592186044416, 10650516,
    4685866632495377045473147712017002567764073122947679872562734231656316765685549442114692100412195941065159583603133944097354661,
    lc0⟩) (.leaf ⟨534, 16, 716, 395, 16, 1990, ⟨[[(34929784196530176, 0), (0, 2620488726622181), (50536374044, 0),
    (0, 612580)], [(20796019287037544, 0), (0, 2510822347033), (60723977, 0), (0, 51)], [(9500483911237, 0), (0,
    854356163), (10147, 0), (2, 0)], [(9273031390, 0), (0, 371899), (0, 22)]], 3, 4⟩, ⟨[[(3215882677370880, 0), (0,
    2744696417926287), (34349261688, 0), (0, 1081044), (46, 0)], [(0, 20102450852442584), (0, 176449609173),
    (17253261, 0), (0, 371)], [(5998170159538, 0), (18116002, 0), (7118, 0), (0, 1)], [(0, 1433715620), (0, 182462),
    (3, 0)]], 3, 4⟩, 72057594037927936, 618950302227, 257923398855, ⟨[[(5465078889101, 0), (6463304469, 0), (3752850,
    0), (0, 1516), (5, 0)], [(0, 6779817942), (0, 17147606), (0, 9709), (3, 0)], [(15073853, 0), (40978, 0), (15,
    0)], [(0, 34273), (0, 90)]], 3, 4⟩, 17592186044416, 10846553,
    4619400548591836483060325022904331483455654609304259003069620805461860938495698786389871816386598657073526216574306777248635263,
    lc0⟩))) (.sy (.leaf ⟨365, 16, 456, 291, 16, 1457, ⟨[[(0, 14574169178071040), (0, 1806946786966721), (35221363490,
    0), (0, 379499), (0, 5)], [(29854962956617557, 0), (0, 3419408762102), (78064569, 0), (464, 0)],
    [(30038618093009, 0), (0, 2356103775), (4058, 0), (6, 0)], [(52151471818, 0), (0, 1534486), (0, 182)]], 3, 4⟩,
    ⟨[[(0, 17638538913083392), (0, 2044378653422392), (27238427697, 0), (0, 878487), (33, 0)], [(0,
    28216508820594828), (0, 285423083116), (27662432, 0), (0, 704)], [(16889993974865, 0), (0, 69820701), (25169, 0),
    (0, 1)], [(0, 6016890796), (0, 1042758), (19, 0)]], 3, 4⟩, 72057594037927936, 6622540217330, 2879398858561,
    ⟨[[(5235441067332, 0), (8013209465, 0), (6315645, 0), (0, 3504), (10, 0)], [(0, 9070612180), (0, 30786506), (0,
    25037), (9, 0)], [(28932224, 0), (107784, 0), (64, 0)], [(0, 95934), (0, 349)]], 3, 4⟩, 17592186044416, 64863342,
    4123902876629174823558267118605648142315375537366922243419904254295185242075974639298952459667713778438245708650300585723054510,
    lc0⟩) (.sx (.leaf ⟨525, 16, 688, 386, 16, 2005, ⟨[[(33375446195601408, 0), (0, 2620816404967579), (51026267502,
    0), (0, 587698), (0, 3)], [(20797634466758955, 0), (0, 2483450146424), (59045102, 0), (98, 0)], [(10283300788852,
    0), (0, 864705790), (6708, 0), (2, 0)], [(9417647822, 0), (0, 335768), (0, 27)]], 3, 4⟩, ⟨[[(26192258854178816,
    0), (0, 2772833150044722), (35351180923, 0), (0, 1105935), (47, 0)], [(0, 19753598856428614), (0, 177209659845),
    (18003973, 0), (0, 424)], [(5874873147272, 0), (0, 4569706), (7606, 0), (0, 1)], [(0, 1230537071), (0, 178497),
    (3, 0)]], 3, 4⟩, 72057594037927936, 631439288438, 257749087023, ⟨[[(5309610050735, 0), (6124115893, 0), (3635511,
    0), (0, 1575), (2, 0)], [(0, 6484826518), (0, 16475261), (0, 9724), (5, 0)], [(14535632, 0), (40266, 0), (16,
    0)], [(0, 33617), (0, 90)]], 3, 4⟩, 17592186044416, 10954407,
    4355300057758481371355203698246092361938466988851702088080177025715405397863273406841809402307331076162458993128365067683955967,
    lc0⟩) (.leaf ⟨516, 16, 660, 378, 16, 2020, ⟨[[(0, 3035763161309184), (0, 2615701840087211), (51337930156, 0), (0,
    556393), (0, 6)], [(20828566500971316, 0), (0, 2453714983559), (57036817, 0), (263, 0)], [(11035208650353, 0),
    (0, 868325136), (2842, 0), (2, 0)], [(9547577852, 0), (0, 292349), (0, 31)]], 3, 4⟩, ⟨[[(0, 14569609440862208),
    (0, 2801097375821810), (36391250644, 0), (0, 1133208), (49, 0)], [(0, 19410382826499709), (0, 179864886624),
    (18800594, 0), (0, 478)], [(5776109176276, 0), (0, 26945704), (8096, 0), (0, 1)], [(0, 1025833944), (0, 174858),
    (3, 0)]], 3, 4⟩, 72057594037927936, 638297881013, 258209021669, ⟨[[(5164814408022, 0), (5798400104, 0), (3509421,
    0), (0, 1489)], [(0, 6212853647), (0, 15807281), (0, 9758), (7, 0)], [(14028234, 0), (39483, 0), (17, 0)], [(0,
    32991), (0, 91)]], 3, 4⟩, 17592186044416, 11117755,
    3818223064316326548683967021696230665819725450878091373228503370336626312801658655072683682260692597577903456247252210949961070,
    lc0⟩)))) (.sx (.sy (.sx (.leaf ⟨545, 16, 773, 387, 16, 1985, ⟨[[(31844262012420096, 0), (0, 2665310535473214),
    (50843626229, 0), (0, 649223), (5, 0)], [(20335288750328512, 0), (0, 2570778128045), (64147315, 0), (0, 299)],
    [(8595854829124, 0), (0, 855969189), (15686, 0), (1, 0)], [(9265507165, 0), (0, 434014), (0, 16)]], 3, 4⟩, ⟨[[(0,
    1318594585436160), (0, 2697457556538540), (32017632726, 0), (0, 974588), (44, 0)], [(0, 20647920141007924), (0,
    162026461062), (16195906, 0), (0, 254)], [(6199116475416, 0), (47623235, 0), (5795, 0), (0, 1)], [(0,
    1737434694), (0, 184568), (3, 0)]], 3, 4⟩, 72057594037927936, 618967392868, 264178105425, ⟨[[(5627733955416, 0),
    (6961423616, 0), (4105816, 0), (0, 1786), (5, 0)], [(0, 7055303977), (0, 18235694), (0, 9977), (5, 0)],
    [(15575321, 0), (42669, 0), (14, 0)], [(0, 34816), (0, 91)]], 3, 4⟩, 17592186044416, 10606001,
    5370157280462125589634783513611598241201692676355584970177898058124863636563539952424922504190737074688209476366506527433797435,
    lc0⟩) (.leaf ⟨536, 16, 743, 378, 16, 2002, ⟨[[(0, 8810136442216448), (0, 2667134661121901), (51485404391, 0), (0,
    633947), (2, 0)], [(20288132466544369, 0), (0, 2542311508917), (62835868, 0), (0, 181)], [(9416543395656, 0), (0,
    874781475), (12884, 0), (1, 0)], [(9423419063, 0), (0, 407447), (0, 20)]], 3, 4⟩, ⟨[[(22276575463743488, 0), (0,
    2727351551754044), (32988429517, 0), (0, 994764), (46, 0)], [(0, 20308454732844709), (0, 160353885062),
    (16841791, 0), (0, 308)], [(6045217300028, 0), (24955209, 0), (6233, 0), (0, 1)], [(0, 1533660826), (0, 180233),
    (3, 0)]], 3, 4⟩, 72057594037927936, 649606968470, 262645432532, ⟨[[(5459294658287, 0), (6583116261, 0), (3979542,
    0), (0, 1817), (2, 0)], [(0, 6730252554), (0, 17496384), (0, 10069), (7, 0)], [(14985530, 0), (41909, 0), (15,
    0)], [(0, 34071), (0, 92)]], 3, 4⟩, 17592186044416, 10767137,
    5090064499079303931924271698178486054185453430599078717268918299948079398658864106803373343758155225498441684123188748982762437,
    lc0⟩)) (.sx (.sx (.leaf ⟨682, 16, 1005, 465, 16, 2488, ⟨[[(0, 26043905113464832), (0, 3365416286191868),
    (63976769309, 0), (0, 823199), (10, 0)], [(12281206885845347, 0), (0, 1618105543777), (41122812, 0), (0, 265)],
    [(2563656873277, 0), (0, 268238073), (5734, 0)], [(1449013465, 0), (0, 72955), (0, 2)]], 3, 4⟩,
    ⟨[[(30578490823274496, 0), (0, 3339670942795927), (38164934363, 0), (0, 1111806), (51, 0)], [(0,
    13070792134299694), (0, 92193755033), (9886647, 0), (0, 96)], [(1968749481427, 0), (18408171, 0), (1512, 0)],
    [(0, 295299552), (0, 28749)]], 3, 4⟩, 72057594037927936, 53996284679, 27439268861, ⟨[[(5662140551815, 0),
    (5754752052, 0), (2809713, 0), (0, 1099), (1, 0)], [(0, 5706515533), (0, 12123561), (0, 5348), (4, 0)],
    [(10137934, 0), (22765, 0), (6, 0)], [(0, 18187), (0, 39)]], 3, 4⟩, 17592186044416, 3870449,
    5421411074601132424397145578659036160956311593527183632822386762380452931000764994896104926772818386451167130330442945712928783,
    lc0⟩) (.leaf ⟨675, 16, 985, 459, 16, 2494, ⟨[[(10985900357066752, 0), (0, 3365519865297001), (64406151381, 0),
    (0, 817255), (9, 0)], [(12255453784431093, 0), (0, 1608366218825), (40765778, 0), (0, 236)], [(2694155767825, 0),
    (0, 271900331), (5358, 0)], [(1461385828, 0), (0, 71314), (0, 2)]], 3, 4⟩, ⟨[[(0, 3035587260747776), (0,
    3351575862688968), (38675913104, 0), (0, 1118839), (52, 0)], [(0, 12938075361996692), (0, 91017688633),
    (10039721, 0), (0, 112)], [(1937295530158, 0), (14853079, 0), (1561, 0)], [(0, 278639186), (0, 28321)]], 3, 4⟩,
    72057594037927936, 57329582447, 28399992537, ⟨[[(5584153017238, 0), (5621332577, 0), (2783781, 0), (0, 1084)],
    [(0, 5600697381), (0, 11957664), (0, 5432), (4, 0)], [(10019207, 0), (22763, 0), (6, 0)], [(0, 18164), (0, 39)]],
    3, 4⟩, 17592186044416, 3885787,
    5337363315058626945648076610657797354439809304041940457765890568786014533656402866156191445126755954916441985882244713614156712,
    lc0⟩)) (.leaf ⟨536, 16, 770, 362, 16, 2014, ⟨[[(20199503388172288, 0), (0, 2710981527887825), (52371787959, 0),
    (0, 649514), (5, 0)], [(19719151117672683, 0), (0, 2569489536001), (64746755, 0), (0, 304)], [(9307173726191, 0),
    (0, 892142259), (15307, 0), (1, 0)], [(9549071258, 0), (0, 440857), (0, 17)]], 3, 4⟩, ⟨[[(0, 30502723795382272),
    (0, 2711113767706666), (31748122305, 0), (0, 909816), (44, 0)], [(0, 20506930867546740), (0, 144517953138),
    (16539855, 0), (0, 221)], [(6095552600143, 0), (30904786, 0), (5275, 0), (0, 1)], [(0, 1633121745), (0, 178424),
    (3, 0)]], 3, 4⟩, 72057594037927936, 676927713968, 270090064588, ⟨[[(5466925989602, 0), (6733475072, 0), (4232626,
    0), (0, 1979), (0, 1)], [(0, 6742173471), (0, 18011682), (0, 10649), (10, 0)], [(15102212, 0), (43394, 0), (16,
    0)], [(0, 34482), (0, 95)]], 3, 4⟩, 17592186044416, 10818094,
    5306855273539404829454200143796884487354793163958438531541119785516450074484679091471715937005506707331505308468559020217963967,
    lc0⟩))) (.sy (.sx (.leaf ⟨526, 16, 713, 370, 16, 2018, ⟨[[(0, 13032171420549120), (0, 2663419427704144),
    (51959464963, 0), (0, 613084), (0, 1)], [(20276797463962005, 0), (0, 2512218064387), (61229644, 0), (0, 47)],
    [(10209104529596, 0), (0, 887726950), (9700, 0), (2, 0)], [(9578537159, 0), (0, 373731), (0, 24)]], 3, 4⟩, ⟨[[(0,
    32533575246307328), (0, 2755906239223809), (33976401453, 0), (0, 1016909), (48, 0)], [(0, 19966698860348992), (0,
    160474076251), (17521107, 0), (0, 366)], [(5912506020533, 0), (2610571, 0), (6689, 0), (0, 1)], [(0, 1327840032),
    (0, 176251), (3, 0)]], 3, 4⟩, 72057594037927936, 669642823515, 261778250836, ⟨[[(5310532295489, 0), (6241951790,
    0), (3854991, 0), (0, 1704)], [(0, 6462677756), (0, 16855209), (0, 10200), (8, 0)], [(14537414, 0), (41370, 0),
    (17, 0)], [(0, 33672), (0, 93)]], 3, 4⟩, 17592186044416, 10990990,
    4798565536736498812597631661975847584201311511819726069248080338027080949648530863213038832115106247312845934641513970578516731,
    lc0⟩) (.leaf ⟨516, 16, 684, 361, 16, 2034, ⟨[[(1420048414916608, 0), (0, 2657839610197873), (52327795981, 0), (0,
    587051), (0, 4)], [(20324337720504341, 0), (0, 2483431159880), (59391900, 0), (103, 0)], [(10985758684873, 0),
    (0, 895306076), (6122, 0), (2, 0)], [(9734843542, 0), (0, 333381), (0, 28)]], 3, 4⟩, ⟨[[(0, 7718269527568384),
    (0, 2784558608203253), (34999647864, 0), (0, 1041684), (50, 0)], [(0, 19631116911379782), (0, 162456477801),
    (18243952, 0), (0, 427)], [(5804495461213, 0), (0, 19432129), (7163, 0), (0, 1)], [(0, 1120465874), (0, 172631),
    (3, 0)]], 3, 4⟩, 72057594037927936, 677616008675, 261814646599, ⟨[[(5164695954266, 0), (5911433459, 0), (3732892,
    0), (0, 1506), (0, 2)], [(0, 6196138640), (0, 16210977), (0, 10363), (9, 0)], [(14069986, 0), (40774, 0), (18,
    0)], [(0, 33200), (0, 94)]], 3, 4⟩, 17592186044416, 11181037,
    4148507667937540766869847538963573214841807956051262341910131392403851458621383610499664789508414922825624492096522326138128746,
    lc0⟩)) (.sx (.leaf ⟨527, 16, 740, 353, 16, 2031, ⟨[[(0, 24451345671405568), (0, 2710616425772982), (52969418351,
    0), (0, 634402), (3, 0)], [(19751755881685349, 0), (0, 2543622093474), (63366896, 0), (0, 189)],
    [(10135934358942, 0), (0, 910019010), (12405, 0), (1, 0)], [(9740705864, 0), (0, 410472), (0, 21)]], 3, 4⟩,
    ⟨[[(0, 19897641191845888), (0, 2740077280423188), (32726221105, 0), (0, 928099), (46, 0)], [(0,
    20172002023796401), (0, 144061935105), (17140296, 0), (0, 283)], [(5953521611694, 0), (8854542, 0), (5658, 0),
    (0, 1)], [(0, 1424646211), (0, 174298), (3, 0)]], 3, 4⟩, 72057594037927936, 705044303451, 269379753158,
    ⟨[[(5308483583493, 0), (6364601491, 0), (4099353, 0), (0, 1736), (0, 2)], [(0, 6433080367), (0, 17263934), (0,
    10853), (10, 0)], [(14523297, 0), (42573, 0), (18, 0)], [(0, 33714), (0, 96)]], 3, 4⟩, 17592186044416, 10995271,
    4940004744236873631234819283817464478391026602027330288338005159598302236085436351061750907545601169538890501933579257662327480,
    lc0⟩) (.leaf ⟨517, 16, 710, 344, 16, 2047, ⟨[[(0, 28584652948881408), (0, 2704796701480182), (53394970044, 0),
    (0, 613785)], [(19818373389192448, 0), (0, 2515896113771), (61684929, 0), (0, 57)], [(10938662727044, 0), (0,
    921528082), (9112, 0), (2, 0)], [(9924211531, 0), (0, 373011), (0, 25)]], 3, 4⟩, ⟨[[(0, 14567303448989696), (0,
    2767758756113763), (33719870946, 0), (0, 948734), (49, 0)], [(0, 19834085775043508), (0, 145367466730),
    (17769695, 0), (0, 350)], [(5833500814408, 0), (0, 12877444), (6074, 0), (0, 1)], [(0, 1214006047), (0, 170460),
    (3, 0)]], 3, 4⟩, 72057594037927936, 720866704323, 267618168872, ⟨[[(5162739452892, 0), (6024930877, 0), (3965104,
    0), (0, 1452), (0, 3)], [(0, 6163577746), (0, 16593683), (0, 11062), (10, 0)], [(14044851, 0), (41944, 0), (20,
    0)], [(0, 33204), (0, 97)]], 3, 4⟩, 17592186044416, 11215730,
    4357350626738903278332995291776694926101960039776818072329024609596921433557616479632997580442146333987651937727526597544604973,
    lc0⟩))))
theorem c23 : checkR job con0 true ⟨7, 9, 7, 9, 13, 17⟩ 1 28336 t23 369 21 320 13239 251 16000 = true := by decide +kernel

def t24 : CTree :=
  .sy (.sx (.sy (.leaf ⟨352, 16, 419, 281, 16, 1492, ⟨[[(0, 6217471019741184), (0, 1796208533321340), (35369103573,
    0), (0, 319208), (0, 10)], [(30013669408194072, 0), (0, 3330534611618), (71037970, 0), (1009, 0)],
    [(33963799565445, 0), (0, 2315035253), (0, 21747), (8, 0)], [(53113070471, 0), (0, 933714), (0, 240)]], 3, 4⟩,
    ⟨[[(22762151781060608, 0), (0, 2105968521460458), (29129346717, 0), (0, 932457), (34, 0)], [(0,
    27469696409566592), (0, 303832477877), (30590801, 0), (0, 842)], [(16676167252559, 0), (0, 202363644), (28062,
    0), (0, 1)], [(0, 3676936479), (0, 1010145), (16, 0)]], 3, 4⟩, 72057594037927936, 6410880584177, 2916555525316,
    ⟨[[(4957703500443, 0), (7120679932, 0), (5772447, 0), (0, 3153), (0, 4)], [(0, 8343467424), (0, 28098245), (0,
    24491), (21, 0)], [(26990711, 0), (102694, 0), (68, 0)], [(0, 92669), (0, 351)]], 3, 4⟩, 17592186044416,
    68467592,
    2974576100110263998639698224161103479561703121724932813973446019055594715169484214505897059848902776288167904172259286337923621,
    lc0⟩) (.leaf ⟨353, 16, 436, 268, 16, 1498, ⟨[[(21523184214638592, 0), (0, 1832390299985450), (36289776266, 0),
    (0, 350323), (0, 8)], [(29510396505773666, 0), (0, 3390726578355), (75285164, 0), (764, 0)], [(34127838617161,
    0), (0, 2425557432), (0, 10664), (7, 0)], [(54719821590, 0), (0, 1207460), (0, 220)]], 3, 4⟩, ⟨[[(0,
    13164213993930752), (0, 2085764098389648), (27889987973, 0), (0, 864452), (37, 0)], [(0, 27725668001823281), (0,
    274851987403), (29456519, 0), (0, 820)], [(16648153256847, 0), (0, 175998101), (25872, 0), (0, 2)], [(0,
    4196470654), (0, 996329), (19, 0)]], 3, 4⟩, 72057594037927936, 7000821371522, 2958602853376, ⟨[[(4964506945367,
    0), (7293888533, 0), (6186324, 0), (0, 3105), (0, 8)], [(0, 8313553112), (0, 28855036), (0, 26086), (27, 0)],
    [(26991778, 0), (105945, 0), (71, 0)], [(0, 92642), (0, 362)]], 3, 4⟩, 17592186044416, 68195143,
    3259308111527399602339091239587367522132747930171460879827388462755920724723069825287116197840066506154299943244872878923740409,
    lc0⟩)) (.sy (.leaf ⟨338, 16, 382, 272, 16, 1527, ⟨[[(0, 29109503477932032), (0, 1768898726369069), (34913289682,
    0), (0, 237983), (0, 15)], [(30229106062241073, 0), (0, 3217158749998), (61800270, 0), (1640, 0)],
    [(37370367033447, 0), (0, 2178435475), (0, 52528), (10, 0)], [(53249008837, 0), (0, 182825), (0, 303)]], 3, 4⟩,
    ⟨[[(0, 4111677505290240), (0, 2168872467814122), (31179449271, 0), (0, 992737), (35, 0)], [(0,
    26695890885061373), (0, 333727817088), (33801315, 0), (0, 963)], [(16752349895472, 0), (0, 333786431), (30521,
    0), (0, 1)], [(0, 1239050500), (0, 976829), (11, 0)]], 3, 4⟩, 72057594037927936, 5887815545374, 2967379068913,
    ⟨[[(4710538272595, 0), (6315451321, 0), (5207224, 0), (0, 2174), (0, 9)], [(0, 7735690326), (0, 25619511), (0,
    24103), (22, 0)], [(25370376, 0), (97832, 0), (73, 0)], [(0, 90407), (0, 353)]], 3, 4⟩, 17592186044416, 74089827,
    2454985993863700164389990783552527386011128851681131090056443863727980333320044799556549523992486319158128896095789799645114925,
    lc0⟩) (.leaf ⟨338, 16, 397, 258, 16, 1534, ⟨[[(12369714028109824, 0), (0, 1802123259947652), (35889432943, 0),
    (0, 276378), (0, 14)], [(29754072767068495, 0), (0, 3277799696782), (66539594, 0), (1368, 0)], [(37688782698204,
    0), (0, 2311280180), (0, 39883), (9, 0)], [(55167991825, 0), (0, 489437), (0, 282)]], 3, 4⟩,
    ⟨[[(8528027570540544, 0), (0, 2148102996033785), (29875266426, 0), (0, 923466), (38, 0)], [(0,
    26978134154246065), (0, 301901594008), (32487377, 0), (0, 978)], [(16668397024153, 0), (0, 305435397), (28743,
    0), (0, 2)], [(0, 1734066039), (0, 967482), (16, 0)]], 3, 4⟩, 72057594037927936, 6534791723161, 3013401969659,
    ⟨[[(4713874036885, 0), (6460380695, 0), (5575841, 0), (0, 1859), (0, 11)], [(0, 7704685560), (0, 26333795), (0,
    25949), (25, 0)], [(25436618, 0), (101475, 0), (79, 0)], [(0, 90818), (0, 367)]], 3, 4⟩, 17592186044416,
    74891950,
    2457770878812286165079143622707673859499799069676676319837747723313581534091926013008316484283191601033456489998424603407469295,
    lc0⟩))) (.sx (.sy (.leaf ⟨355, 16, 454, 254, 16, 1504, ⟨[[(0, 19939426088579072), (0, 1870380129424239),
    (37226813461, 0), (0, 379744), (0, 6)], [(28976145780626889, 0), (0, 3451475087022), (79374858, 0), (510, 0)],
    [(34267041967197, 0), (0, 2531211152), (0, 137), (7, 0)], [(56292461149, 0), (0, 1472576), (0, 200)]], 3, 4⟩,
    ⟨[[(28639977410052096, 0), (0, 2066641827098476), (26751306721, 0), (0, 792237), (38, 0)], [(0,
    27967896773229477), (0, 246869665456), (28374877, 0), (0, 764)], [(16632445418530, 0), (0, 152024019), (23092,
    0), (0, 2)], [(0, 4710519342), (0, 980517), (20, 0)]], 3, 4⟩, 72057594037927936, 7583238124099, 3000440227409,
    ⟨[[(4955498502781, 0), (7430905336, 0), (6602618, 0), (0, 2858), (0, 11)], [(0, 8201857018), (0, 29386938), (0,
    27891), (31, 0)], [(26608361, 0), (108140, 0), (76, 0)], [(0, 91071), (0, 368)]], 3, 4⟩, 17592186044416,
    66445036,
    3605338719634202926575558655635317906045284455690173289082169779217844627132062097100352895541530802926982327049445552825139402,
    lc0⟩) (.leaf ⟨357, 16, 474, 241, 16, 1510, ⟨[[(0, 8590498009063424), (0, 1914056291258421), (38260873140, 0), (0,
    407302), (0, 4)], [(28464601909917525, 0), (0, 3519989299317), (83458030, 0), (249, 0)], [(34450783403033, 0),
    (0, 2637786466), (9694, 0), (6, 0)], [(57950391303, 0), (0, 1732272), (0, 180)]], 3, 4⟩, ⟨[[(3595928414593024,
    0), (0, 2048502869744778), (25718137682, 0), (0, 718502), (38, 0)], [(0, 28196809047098508), (0, 219810485048),
    (27401097, 0), (0, 669)], [(16627741333253, 0), (0, 131043536), (19725, 0), (0, 2)], [(0, 5218372576), (0,
    964072), (20, 0)]], 3, 4⟩, 72057594037927936, 8176837143279, 3047734552185, ⟨[[(4959417634090, 0), (7607104578,
    0), (7047920, 0), (0, 2575), (0, 13)], [(0, 8141411153), (0, 30103049), (0, 29889), (34, 0)], [(26420184, 0),
    (110964, 0), (82, 0)], [(0, 90245), (0, 377)]], 3, 4⟩, 17592186044416, 65461184,
    3909952354382814527850900877312030848512407764053526445930504348564907617004373241882915013747002328659452405162009964456836818,
    lc0⟩)) (.sy (.leaf ⟨340, 16, 414, 244, 16, 1540, ⟨[[(0, 22296963204456448), (0, 1841941087108895), (36971879882,
    0), (0, 314493), (0, 12)], [(29329916665605132, 0), (0, 3347501119924), (71277518, 0), (1083, 0)],
    [(38083424391198, 0), (0, 2444951901), (0, 27794), (9, 0)], [(57202975064, 0), (0, 788269), (0, 260)]], 3, 4⟩,
    ⟨[[(14960754789363712, 0), (0, 2127074037270307), (28655131466, 0), (0, 847808), (40, 0)], [(0,
    27227707136340389), (0, 271076371957), (31148445, 0), (0, 959)], [(16586728410836, 0), (0, 278931959), (26197,
    0), (0, 2)], [(0, 2224074793), (0, 953354), (19, 0)]], 3, 4⟩, 72057594037927936, 7212979158351, 3051882492743,
    ⟨[[(4709635969036, 0), (6587115612, 0), (5933751, 0), (0, 1470), (0, 12)], [(0, 7602740410), (0, 26816680), (0,
    27754), (26, 0)], [(25080757, 0), (103610, 0), (85, 0)], [(0, 89218), (0, 374)]], 3, 4⟩, 17592186044416,
    72886027,
    2107718840453770815001949115484623323635938369803389032315465089012114387920639381830099642549822367988078743195785949512020883,
    lc0⟩) (.leaf ⟨340, 16, 431, 231, 16, 1547, ⟨[[(29843082383630336, 0), (0, 1879185860491217), (37979378660, 0),
    (0, 349901), (0, 10)], [(28803667269009012, 0), (0, 3409693087385), (75640537, 0), (781, 0)], [(38363282368271,
    0), (0, 2567880636), (0, 16231), (8, 0)], [(59074534762, 0), (0, 1075570), (0, 237)]], 3, 4⟩, ⟨[[(0,
    33799980280188928), (0, 2108465252798754), (27564563687, 0), (0, 769413), (41, 0)], [(0, 27480403368011246), (0,
    241608294903), (29881644, 0), (0, 900)], [(16527822627232, 0), (0, 255432343), (22895, 0), (0, 3)], [(0,
    2709789574), (0, 936772), (22, 0)]], 3, 4⟩, 72057594037927936, 7882636165031, 3097205633814, ⟨[[(4719738171806,
    0), (6757071510, 0), (6327249, 0), (0, 1127), (0, 13)], [(0, 7601929232), (0, 27677868), (0, 29899), (27, 0)],
    [(25247720, 0), (107798, 0), (93, 0)], [(0, 90100), (0, 390)]], 3, 4⟩, 17592186044416, 74165877,
    2083462837991903927995684373720568820432512584602765135067606785173437967945714319336037800018805392954044034918677631661737802,
    lc0⟩)))
theorem c24 : checkR job con0 true ⟨7, 9, 7, 9, 13, 17⟩ 1 28336 t24 411 21 320 13239 251 16000 = true := by decide +kernel

def t25 : CTree :=
  .sy (.sx (.sy (.sx (.leaf ⟨547, 16, 831, 354, 16, 2008, ⟨[[(14382980289929216, 0), (0, 2757625503828364),
    (52597841673, 0), (0, 666308), (11, 0)], [(19155506007813172, 0), (0, 2626366850797), (67707343, 0), (0, 496)],
    [(8335070402857, 0), (0, 883128428), (19739, 0), (1, 0)], [(9477097869, 0), (0, 494862), (0, 11)]], 3, 4⟩, ⟨[[(0,
    8250462795460608), (0, 2666482929179897), (29676612609, 0), (0, 820571), (36, 0)], [(0, 21035425553106874), (0,
    131600362616), (15893801, 0), (0, 52)], [(6324612920538, 0), (58127982, 0), (4060, 0), (0, 1)], [(0, 1942450210),
    (0, 182191), (1, 0)]], 3, 4⟩, 72057594037927936, 665407526716, 279521212329, ⟨[[(5626784069768, 0), (7255959447,
    0), (4632474, 0), (0, 2311), (0, 1)], [(0, 7018924403), (0, 19183359), (0, 11071), (12, 0)], [(15614222, 0),
    (45242, 0), (15, 0)], [(0, 35108), (0, 96)]], 3, 4⟩, 17592186044416, 10686701,
    5474247187907771556357621664597753264067288124817796661146159466868989499326441456138671595968381986225270069623437632592306120,
    lc0⟩) (.leaf ⟨537, 16, 799, 345, 16, 2026, ⟨[[(4972467022102528, 0), (0, 2759028155780959), (53339227854, 0), (0,
    659492), (9, 0)], [(19140244275039732, 0), (0, 2599074048691), (66630869, 0), (0, 417)], [(9197121877114, 0), (0,
    908991457), (17397, 0), (1, 0)], [(9674941887, 0), (0, 473366), (0, 14)]], 3, 4⟩, ⟨[[(0, 11437153443590144), (0,
    2695872466545018), (30623483994, 0), (0, 831221), (39, 0)], [(0, 20697929210173071), (0, 128814728282),
    (16387411, 0), (0, 106)], [(6148729024579, 0), (35898465, 0), (4271, 0), (0, 1)], [(0, 1732385896), (0, 177386),
    (2, 0)]], 3, 4⟩, 72057594037927936, 704813932667, 277385585278, ⟨[[(5463741742484, 0), (6869786416, 0), (4503317,
    0), (0, 2028), (0, 3)], [(0, 6713856389), (0, 18467574), (0, 11383), (12, 0)], [(15095614, 0), (44687, 0), (17,
    0)], [(0, 34576), (0, 98)]], 3, 4⟩, 17592186044416, 10909593,
    5294139133971124253433325125074255589432191254558481781606973617177989620932482315143105266199599161333937865406696400209108355,
    lc0⟩)) (.sx (.leaf ⟨549, 16, 863, 337, 16, 2019, ⟨[[(0, 35330082957148160), (0, 2809490746997969), (53600413225,
    0), (0, 665121), (15, 0)], [(18541588956403151, 0), (0, 2657311576925), (69494561, 0), (0, 569)],
    [(8200872513985, 0), (0, 896139532), (21241, 0)], [(9581283098, 0), (0, 524587), (0, 10)]], 3, 4⟩,
    ⟨[[(17930785415196672, 0), (0, 2651738054931148), (28647314187, 0), (0, 760735), (27, 0)], [(0,
    21213059811072414), (0, 116281388581), (16007451, 0), (93, 0)], [(6389556023313, 0), (62114909, 0), (3239, 0),
    (0, 1)], [(0, 2044863196), (0, 182697)]], 3, 4⟩, 72057594037927936, 688574889296, 289649438916,
    ⟨[[(5619246445399, 0), (7398394424, 0), (4927596, 0), (0, 2366), (0, 3)], [(0, 6970901651), (0, 19625484), (0,
    11860), (14, 0)], [(15539348, 0), (46387, 0), (17, 0)], [(0, 35019), (0, 99)]], 3, 4⟩, 17592186044416, 10675700,
    5226580705894505894225962484268990405049803753298572279427855257886458373502745443762728615923799265952776546917145475194373452,
    lc0⟩) (.leaf ⟨538, 16, 830, 328, 16, 2038, ⟨[[(9520786136555520, 0), (0, 2810956614437409), (54393268359, 0), (0,
    662020), (14, 0)], [(18544885190763069, 0), (0, 2630770781864), (68499603, 0), (0, 514)], [(9084590045639, 0),
    (0, 925555901), (19091, 0)], [(9799962171, 0), (0, 505232), (0, 12)]], 3, 4⟩, ⟨[[(7035072585469952, 0), (0,
    2681525208649952), (29601293564, 0), (0, 764994), (31, 0)], [(0, 20881426020455741), (0, 113072525337),
    (16431751, 0), (42, 0)], [(6204270626918, 0), (39900535, 0), (3255, 0), (0, 1)], [(0, 1831937829), (0, 177546)]],
    3, 4⟩, 72057594037927936, 736300512705, 285682157116, ⟨[[(5462348705404, 0), (7016496830, 0), (4793051, 0), (0,
    1996), (0, 4)], [(0, 6691154714), (0, 18962674), (0, 12238), (14, 0)], [(15107657, 0), (46074, 0), (19, 0)], [(0,
    34745), (0, 101)]], 3, 4⟩, 17592186044416, 11016106,
    5053477065346613132137725378553386921795825461605826429771001980871530552821343619302810985943711243065155488082367185655837766,
    lc0⟩))) (.sy (.sx (.leaf ⟨526, 16, 767, 336, 16, 2043, ⟨[[(35639685239128064, 0), (0, 2754890881569815),
    (53917778069, 0), (0, 648340), (7, 0)], [(19165462600507029, 0), (0, 2570669621099), (65285831, 0), (0, 323)],
    [(10035670509253, 0), (0, 929326688), (14730, 0), (1, 0)], [(9877480153, 0), (0, 444975), (0, 18)]], 3, 4⟩,
    ⟨[[(0, 20212851978944512), (0, 2723898209560657), (31582210951, 0), (0, 843974), (42, 0)], [(0,
    20359620764193685), (0, 127790668874), (16895713, 0), (0, 170)], [(5994506823703, 0), (14043393, 0), (4530, 0),
    (0, 1)], [(0, 1520430868), (0, 172892), (2, 0)]], 3, 4⟩, 72057594037927936, 736015454133, 275619462853,
    ⟨[[(5313921180303, 0), (6514098285, 0), (4371846, 0), (0, 1708), (0, 3)], [(0, 6448550674), (0, 17829553), (0,
    11692), (12, 0)], [(14677091, 0), (44331, 0), (20, 0)], [(0, 34307), (0, 100)]], 3, 4⟩, 17592186044416, 11342177,
    4916009117904531171178361124337207914461059275291957250229903190624042693690922473959758560519465722203073666845936849773278430,
    lc0⟩) (.leaf ⟨516, 16, 736, 327, 16, 2060, ⟨[[(12986498588876800, 0), (0, 2748754676935370), (54393351703, 0),
    (0, 633189), (4, 0)], [(19250988434166266, 0), (0, 2543912326740), (63737217, 0), (0, 212)], [(10862270101570,
    0), (0, 944596822), (11725, 0), (1, 0)], [(10087435240, 0), (0, 410234), (0, 21)]], 3, 4⟩, ⟨[[(0,
    22064268416925696), (0, 2751963729750218), (32568745826, 0), (0, 859638), (45, 0)], [(0, 20029020052577329), (0,
    128577091759), (17431198, 0), (0, 242)], [(5865478683354, 0), (0, 7449391), (4844, 0), (0, 1)], [(0, 1307101106),
    (0, 168751), (2, 0)]], 3, 4⟩, 72057594037927936, 758838321823, 274585827133, ⟨[[(5166977349451, 0), (6159817468,
    0), (4219002, 0), (0, 1362), (0, 4)], [(0, 6171930448), (0, 17116841), (0, 11919), (11, 0)], [(14177322, 0),
    (43640, 0), (21, 0)], [(0, 33743), (0, 101)]], 3, 4⟩, 17592186044416, 11489793,
    4345821202810042921690181900092602232251911709331326497912049520943265966772746486147397950511093724292319489522231937131501007,
    lc0⟩)) (.sx (.leaf ⟨527, 16, 797, 319, 16, 2055, ⟨[[(24451650913632256, 0), (0, 2806898629138059), (55024657740,
    0), (0, 655471), (11, 0)], [(18591188131747392, 0), (0, 2603389300771), (67248704, 0), (0, 445)],
    [(9947414153307, 0), (0, 949579345), (16658, 0), (1, 0)], [(10027371558, 0), (0, 479102), (0, 15)]], 3, 4⟩,
    ⟨[[(0, 20669690655440896), (0, 2708624011220488), (30549912859, 0), (0, 770875), (35, 0)], [(0,
    20539469492260514), (0, 111571889463), (16846155, 0), (0, 21)], [(6037854329312, 0), (18089502, 0), (3333, 0),
    (0, 1)], [(0, 1616263320), (0, 172531), (1, 0)]], 3, 4⟩, 72057594037927936, 771546796246, 283934086330,
    ⟨[[(5312969266089, 0), (6651823540, 0), (4646457, 0), (0, 1620), (0, 4)], [(0, 6423545045), (0, 18300526), (0,
    12568), (13, 0)], [(14679181, 0), (45698, 0), (21, 0)], [(0, 34444), (0, 103)]], 3, 4⟩, 17592186044416, 11357835,
    4717444745731432368632050710212035330292378644329660088217010846473280577997756513280459982011423568509093243321834921245876771,
    lc0⟩) (.leaf ⟨516, 16, 764, 310, 16, 2073, ⟨[[(9778329755705344, 0), (0, 2797132763403472), (55480875495, 0), (0,
    644917), (9, 0)], [(18674376413188422, 0), (0, 2574467997463), (65722604, 0), (0, 359)], [(10786508021549, 0),
    (0, 967386006), (13910, 0), (1, 0)], [(10252156022, 0), (0, 446181), (0, 18)]], 3, 4⟩, ⟨[[(0, 30578196535836672),
    (0, 2737056838822801), (31537231993, 0), (0, 780052), (39, 0)], [(0, 20215975832068005), (0, 111926346161),
    (17280853, 0), (0, 96)], [(5899844711616, 0), (0, 3289877), (3488, 0), (0, 1)], [(0, 1400068797), (0, 167893),
    (1, 0)]], 3, 4⟩, 72057594037927936, 795298409648, 282762542361, ⟨[[(5167478455817, 0), (6289856782, 0), (4476863,
    0), (0, 1242), (0, 4)], [(0, 6159222595), (0, 17600384), (0, 12823), (12, 0)], [(14232318, 0), (45164, 0), (23,
    0)], [(0, 34064), (0, 105)]], 3, 4⟩, 17592186044416, 11723092,
    4241928022137820422824216701250190552089803812810737363574945355858228899454364161307807958447325717655778180308512380309806632,
    lc0⟩)))) (.sx (.sy (.leaf ⟨400, 16, 646, 225, 16, 1450, ⟨[[(0, 9354519465218048), (0, 2104110073005399),
    (40477494529, 0), (0, 480879), (15, 0)], [(26294041548497362, 0), (0, 3930523378107), (104059878, 0), (0, 885)],
    [(25009106145939, 0), (0, 2719769909), (62664, 0)], [(57555255614, 0), (0, 3208952), (0, 55)]], 3, 4⟩, ⟨[[(0,
    29917732827138048), (0, 1885656399629154), (20022765238, 0), (0, 511643), (12, 0)], [(0, 30164100407215927), (0,
    140201554602), (23527012, 0), (362, 0)], [(18070969933728, 0), (153719612, 0), (6782, 0), (0, 2)], [(0,
    11603473988), (0, 1036078), (0, 12)]], 3, 4⟩, 72057594037927936, 8692872413606, 3192477247578, ⟨[[(5545162205599,
    0), (10372999626, 0), (10229644, 0), (0, 5970), (0, 18)], [(0, 9294449870), (0, 38015362), (0, 34876), (56, 0)],
    [(28523721, 0), (124418, 0), (72, 0)], [(0, 88845), (0, 365)]], 3, 4⟩, 17592186044416, 50465311,
    4773324176183878369611818137668848620977184026965159958795844029074981577861180226105511547560646494770060012275208008223670498,
    lc0⟩) (.leaf ⟨404, 16, 678, 212, 16, 1454, ⟨[[(31775358513778688, 0), (0, 2166059171112285), (41747894565, 0),
    (0, 469525), (20, 0)], [(25553074632157656, 0), (0, 4016278966800), (107807488, 0), (0, 930)], [(24831539650624,
    0), (0, 2788689263), (65013, 0), (0, 1)], [(58701861880, 0), (0, 3421400), (0, 50)]], 3, 4⟩,
    ⟨[[(7258501414291456, 0), (0, 1871083040163812), (19318031961, 0), (0, 500163)], [(0, 30311886295145947), (0,
    116550324652), (24373991, 0), (687, 0)], [(18199727424687, 0), (159870135, 0), (4683, 0), (0, 1)], [(0,
    12161374370), (0, 1058831), (0, 28)]], 3, 4⟩, 72057594037927936, 9089140202323, 3258754935418, ⟨[[(5544927386586,
    0), (10649736396, 0), (10969970, 0), (0, 5767), (0, 20)], [(0, 9198916112), (0, 38943065), (0, 37563), (58, 0)],
    [(28159005, 0), (126880, 0), (77, 0)], [(0, 87605), (0, 369)]], 3, 4⟩, 17592186044416, 49231220,
    3902759829194925647387322327997133103617115262066299079598507951767040365486391871867541035986548983274473072347758843840974368,
    lc0⟩)) (.sy (.leaf ⟨382, 16, 594, 213, 16, 1489, ⟨[[(28384174493175808, 0), (0, 2091162900707980), (41335344308,
    0), (0, 475653), (12, 0)], [(26401640787284343, 0), (0, 3839823627877), (100206377, 0), (0, 766)],
    [(30114920056012, 0), (0, 2871953953), (49388, 0), (1, 0)], [(60300697072, 0), (0, 2914031), (0, 83)]], 3, 4⟩,
    ⟨[[(976663358715904, 0), (0, 1942219695880282), (21587504367, 0), (0, 513266), (19, 0)], [(0, 29474852459201451),
    (0, 136193828491), (24691258, 0), (192, 0)], [(17227627971180, 0), (29093430, 0), (5871, 0), (0, 3)], [(0,
    9197633012), (0, 981029), (0, 4)]], 3, 4⟩, 72057594037927936, 9593785582633, 3189812483774, ⟨[[(5238634423827,
    0), (9220677895, 0), (9431486, 0), (0, 3541), (0, 18)], [(0, 8568391865), (0, 35186918), (0, 36382), (48, 0)],
    [(27055537, 0), (122371, 0), (88, 0)], [(0, 88148), (0, 384)]], 3, 4⟩, 17592186044416, 55906632,
    4376667785823753835809901000727445419261732445539000616937659733946701081478132679810434755589673452057999923428918325497117468,
    lc0⟩) (.leaf ⟨385, 16, 622, 200, 16, 1495, ⟨[[(22669243104215040, 0), (0, 2146648913692222), (42555038243, 0),
    (0, 468047), (18, 0)], [(25654045490436715, 0), (0, 3916113447857), (103631944, 0), (0, 913)], [(30037936759514,
    0), (0, 2954865616), (52431, 0)], [(61590957262, 0), (0, 3129989), (0, 71)]], 3, 4⟩, ⟨[[(26050797023068160, 0),
    (0, 1928666079170675), (20921887084, 0), (0, 487705), (8, 0)], [(0, 29655985699521731), (0, 111624747366),
    (25331630, 0), (538, 0)], [(17312858528241, 0), (33105350, 0), (1858, 0), (0, 3)], [(0, 9731231546), (0, 995487),
    (0, 17)]], 3, 4⟩, 72057594037927936, 10104799441612, 3261170727369, ⟨[[(5234575076840, 0), (9435723646, 0),
    (10046408, 0), (0, 3233), (0, 17)], [(0, 8472347278), (0, 35989180), (0, 39029), (49, 0)], [(26722506, 0),
    (124985, 0), (94, 0)], [(0, 87108), (0, 390)]], 3, 4⟩, 17592186044416, 54859356,
    3959881548678069919240677963392917471328960041664075369586572823074353105188330061519123534293637832390934009053356903855541453,
    lc0⟩)))
theorem c25 : checkR job con0 true ⟨7, 9, 7, 9, 13, 17⟩ 1 28336 t25 369 21 320 13741 251 16000 = true := by decide +kernel

def t26 : CTree :=
  .sy (.sx (.sy (.leaf ⟨359, 16, 495, 228, 16, 1516, ⟨[[(0, 6801349917753344), (0, 1959063803208342), (39310464949,
    0), (0, 430867), (0, 1)], [(27902358405536061, 0), (0, 3588308388649), (87336305, 0), (0, 17)], [(34597553768929,
    0), (0, 2740059657), (18644, 0), (5, 0)], [(59564798255, 0), (0, 1983129), (0, 159)]], 3, 4⟩, ⟨[[(0,
    16654181660284928), (0, 2031245242902948), (24790853616, 0), (0, 646499), (36, 0)], [(0, 28412780954452462), (0,
    193538656926), (26600366, 0), (0, 528)], [(16632430698425, 0), (0, 113655376), (15781, 0), (0, 3)], [(0,
    5720071616), (0, 948635), (18, 0)]], 3, 4⟩, 72057594037927936, 8770989371317, 3094357550448, ⟨[[(4961846942926,
    0), (7785778212, 0), (7509651, 0), (0, 2242), (0, 14)], [(0, 8077075867), (0, 30837903), (0, 32074), (36, 0)],
    [(26216240, 0), (113843, 0), (89, 0)], [(0, 89435), (0, 385)]], 3, 4⟩, 17592186044416, 64568382,
    4099479896351415341915679205312938439778794348322436744272123994493371824792228119456958648919381794773140689577097690143105100,
    lc0⟩) (.leaf ⟨361, 16, 518, 215, 16, 1522, ⟨[[(31910269375893504, 0), (0, 2009130486180397), (40457964973, 0),
    (0, 449644), (3, 0)], [(27336823486158589, 0), (0, 3663359837933), (91164377, 0), (0, 284)], [(34771240098775,
    0), (0, 2844109470), (26509, 0), (4, 0)], [(61250963649, 0), (0, 2228873), (0, 139)]], 3, 4⟩, ⟨[[(0,
    32476962144239616), (0, 2014768747520984), (23964464402, 0), (0, 580087), (32, 0)], [(0, 28616104896016524), (0,
    167846380211), (26049872, 0), (0, 331)], [(16644596627714, 0), (0, 100452022), (11266, 0), (0, 3)], [(0,
    6216565325), (0, 936183), (14, 0)]], 3, 4⟩, 72057594037927936, 9381799227022, 3148294680108, ⟨[[(4967984640155,
    0), (7987921455, 0), (8012408, 0), (0, 1922), (0, 15)], [(0, 8028079156), (0, 31685909), (0, 34490), (37, 0)],
    [(26078549, 0), (117126, 0), (97, 0)], [(0, 88955), (0, 395)]], 3, 4⟩, 17592186044416, 64012252,
    4099110923303050776104141503956342790171928240247457952320603576938068298775481909241929304674091329212725477936638052797039550,
    lc0⟩)) (.sy (.leaf ⟨342, 16, 450, 217, 16, 1553, ⟨[[(0, 7920051057790976), (0, 1922495762614581), (39089424981,
    0), (0, 382909), (0, 7)], [(28306306371789525, 0), (0, 3480185438853), (79939346, 0), (467, 0)],
    [(38705298987563, 0), (0, 2692187457), (0, 5482), (7, 0)], [(61055418273, 0), (0, 1354805), (0, 214)]], 3, 4⟩,
    ⟨[[(0, 16242870331504640), (0, 2089423839073362), (26570360230, 0), (0, 690255), (40, 0)], [(0,
    27701294981434734), (0, 213086346935), (28713364, 0), (0, 793)], [(16468656167231, 0), (0, 235392933), (18779,
    0), (0, 3)], [(0, 3186747580), (0, 917810), (23, 0)]], 3, 4⟩, 72057594037927936, 8569871272711, 3139306079870,
    ⟨[[(4714245031277, 0), (6892049421, 0), (6711369, 0), (0, 721), (0, 13)], [(0, 7497834394), (0, 28213632), (0,
    32027), (28, 0)], [(24871663, 0), (110107, 0), (101, 0)], [(0, 88547), (0, 397)]], 3, 4⟩, 17592186044416,
    72530170,
    2751683695632678368202452286038982013034940374316322978878262833784373441910075885043943042739157798023963130393102962526105702,
    lc0⟩) (.leaf ⟨343, 16, 470, 203, 16, 1560, ⟨[[(17197372632240128, 0), (0, 1967255634411850), (40215041827, 0),
    (0, 411126), (0, 4)], [(27760755482009362, 0), (0, 3550753954488), (83963148, 0), (140, 0)], [(39013430655997,
    0), (0, 2812396395), (4283, 0), (6, 0)], [(63005082662, 0), (0, 1622868), (0, 190)]], 3, 4⟩,
    ⟨[[(15992559484719104, 0), (0, 2072548878301709), (25705772688, 0), (0, 614868), (37, 0)], [(0,
    27926435090763093), (0, 185653209853), (27759713, 0), (0, 631)], [(16428536075143, 0), (0, 219967639), (13843,
    0), (0, 4)], [(0, 3658187910), (0, 899214), (22, 0)]], 3, 4⟩, 72057594037927936, 9260472948884, 3193230688845,
    ⟨[[(4713805760111, 0), (7050958420, 0), (7135393, 0), (0, 376), (0, 12)], [(0, 7435128053), (0, 28955926), (0,
    34491), (29, 0)], [(24726729, 0), (113554, 0), (110, 0)], [(0, 88185), (0, 410)]], 3, 4⟩, 17592186044416,
    72347673,
    3283317739501046886688330392512121501449081163062237477573760794063880214026941007794521779372325368884427271325996452139441830,
    lc0⟩))) (.sx (.sy (.leaf ⟨364, 16, 542, 201, 16, 1528, ⟨[[(0, 22262771019984896), (0, 2060069603901845),
    (41630171017, 0), (0, 460657), (7, 0)], [(26703175362257780, 0), (0, 3737610209214), (94749590, 0), (0, 546)],
    [(34895842782386, 0), (0, 2945236879), (32949, 0), (3, 0)], [(62883592562, 0), (0, 2465273), (0, 120)]], 3, 4⟩,
    ⟨[[(27865266911258624, 0), (0, 1998980862738211), (23227640223, 0), (0, 523784), (26, 0)], [(0,
    28806949663144131), (0, 142440310190), (25841239, 0), (0, 69)], [(16662018371275, 0), (0, 92017091), (6195, 0),
    (0, 4)], [(0, 6709898279), (0, 929092), (7, 0)]], 3, 4⟩, 72057594037927936, 9993405361682, 3210746102454,
    ⟨[[(4955263090651, 0), (8140284075, 0), (8503319, 0), (0, 1533), (0, 14)], [(0, 7886646058), (0, 32222820), (0,
    36968), (38, 0)], [(25530612, 0), (119003, 0), (104, 0)], [(0, 86900), (0, 400)]], 3, 4⟩, 17592186044416,
    62027535,
    3824724788647237261221039774191314790463458601319306267767656100949951398775658892847886756556563869080860984633651055852573567,
    lc0⟩) (.leaf ⟨366, 16, 567, 188, 16, 1535, ⟨[[(0, 28523127272779776), (0, 2111726508770715), (42838763690, 0),
    (0, 461280), (13, 0)], [(25996945921530624, 0), (0, 3810983617046), (98085797, 0), (0, 796)], [(34967721859581,
    0), (0, 3044717573), (37579, 0), (1, 0)], [(64460062774, 0), (0, 2692032), (0, 100)]], 3, 4⟩,
    ⟨[[(28822824425748480, 0), (0, 1985096905393520), (22576367881, 0), (0, 483127), (17, 0)], [(0,
    29004208188085474), (0, 117001519190), (26100438, 0), (270, 0)], [(16693050244956, 0), (0, 88981097), (582, 0),
    (0, 4)], [(0, 7208132565), (0, 930828), (0, 3)]], 3, 4⟩, 72057594037927936, 10607379019131, 3280598033240,
    ⟨[[(4954402736652, 0), (8330831870, 0), (9035576, 0), (0, 1305), (0, 13)], [(0, 7814791581), (0, 33025905), (0,
    39632), (40, 0)], [(25320742, 0), (122158, 0), (111, 0)], [(0, 86381), (0, 410)]], 3, 4⟩, 17592186044416,
    61639187,
    3752009455553473591271705701856079515407137011625423227220323088335490971464355387457605296284874600027507929964202104151429511,
    lc0⟩)) (.sy (.leaf ⟨344, 16, 491, 190, 16, 1567, ⟨[[(29074321401335808, 0), (0, 2013300404622220), (41361632619,
    0), (0, 432490), (1, 0)], [(27161120481367445, 0), (0, 3621315996545), (87674679, 0), (0, 196)],
    [(39283550458213, 0), (0, 2929213900), (12771, 0), (5, 0)], [(64921791869, 0), (0, 1878408), (0, 166)]], 3, 4⟩,
    ⟨[[(0, 20206741569423360), (0, 2056372849500960), (24945499940, 0), (0, 546951), (32, 0)], [(0,
    28138408750282435), (0, 158916021172), (27094581, 0), (0, 403)], [(16394363541879, 0), (0, 209869141), (8037, 0),
    (0, 4)], [(0, 4122641591), (0, 882243), (19, 0)]], 3, 4⟩, 72057594037927936, 9952155197119, 3249083780957,
    ⟨[[(4718659007867, 0), (7226398396, 0), (7581407, 0), (0, 155), (0, 11)], [(0, 7395739892), (0, 29783502), (0,
    37050), (30, 0)], [(24674138, 0), (117306, 0), (119, 0)], [(0, 88249), (0, 424)]], 3, 4⟩, 17592186044416,
    72589552,
    3550193775141106937590553679239299077033634823039541627719069406472207059032557820129552916183958392951546220277611403304219683,
    lc0⟩) (.leaf ⟨346, 16, 514, 176, 16, 1574, ⟨[[(295247585718272, 0), (0, 2064478571107298), (42621491402, 0), (0,
    445281), (7, 0)], [(26553469342622580, 0), (0, 3699042224868), (91217659, 0), (0, 539)], [(39588319569522, 0),
    (0, 3049639361), (19662, 0), (3, 0)], [(66934838789, 0), (0, 2124106), (0, 141)]], 3, 4⟩, ⟨[[(19004930287673344,
    0), (0, 2040801537325533), (24275200090, 0), (0, 491348), (25, 0)], [(0, 28337422756801170), (0, 132534543198),
    (26828892, 0), (0, 95)], [(16363259651826, 0), (0, 206020238), (1314, 0), (0, 5)], [(0, 4581420985), (0, 869130),
    (14, 0)]], 3, 4⟩, 72057594037927936, 10671247171831, 3315154867586, ⟨[[(4711763305588, 0), (7377578023, 0),
    (8043979, 0), (7, 0), (0, 9)], [(0, 7289268263), (0, 30407902), (0, 39738), (32, 0)], [(24299698, 0), (120012,
    0), (128, 0)], [(0, 86990), (0, 434)]], 3, 4⟩, 17592186044416, 71397575,
    3411671668951979986611967613018310646045354869627604133853582769413777555653517432621580647431095169027178614568177897227834582,
    lc0⟩)))
theorem c26 : checkR job con0 true ⟨7, 9, 7, 9, 13, 17⟩ 1 28336 t26 411 21 320 13741 251 16000 = true := by decide +kernel

def t27 : CTree :=
  .sx (.sy (.out ⟨146, 16, 123, 712, 16, 528, ⟨[[(0, 32023389146857472), (0, 1460354346960576), (47602890204, 0)],
    [(31710330170267307, 0), (0, 4751023619829), (0, 10969618)], [(68609334861826, 0), (0, 1053760425), (0,
    1718047)]], 2, 2⟩, ⟨[[(2999660914245632, 0), (0, 2413709103688204), (91023547528, 0)], [(0, 21831775917929707),
    (0, 1358309531404), (168072960, 0)], [(37178554251866, 0), (0, 2712221606), (91967, 0)]], 2, 2⟩,
    72057594037927936, 1273253591739837, 309142201768186, ⟨[], 0, 0⟩, 0, 0, 0, lc0⟩ 0 71 13) (.sx (.sy (.out ⟨301,
    16, 277, 1419, 16, 1066, ⟨[[(16930739768528896, 0), (0, 1547798631389370), (27105772168, 0)],
    [(32133896338399244, 0), (0, 2640557887874), (15176280, 0)], [(35939928509203, 0), (0, 837999094), (0, 174214)]],
    2, 2⟩, ⟨[[(9980981248540672, 0), (0, 2356672159967586), (42310673607, 0)], [(0, 23291458288567491), (0,
    594733506535), (41645443, 0)], [(17981779792562, 0), (0, 614967861), (21972, 0)]], 2, 2⟩, 72057594037927936,
    357939440336475, 59635282788687, ⟨[], 0, 0⟩, 0, 0, 0, lc0⟩ 0 139 12) (.leaf ⟨324, 16, 291, 336, 16, 1529,
    ⟨[[(33633821895266304, 0), (0, 1597353115890909), (28632097514, 0), (82189, 0), (0, 21)], [(32369935212319433,
    0), (0, 2755153633603), (21549683, 0), (3562, 0)], [(37270111978346, 0), (0, 1053490400), (0, 162059), (14, 0)],
    [(40366346965, 0), (2533821, 0), (0, 472)]], 3, 4⟩, ⟨[[(28137322872152064, 0), (0, 2371891522787149),
    (41466370875, 0), (0, 1245775), (6, 0)], [(0, 24157824637713307), (0, 566700447393), (42186185, 0), (0, 406)],
    [(18112453359017, 0), (0, 605710274), (25856, 0), (2, 0)], [(3527527111, 0), (0, 836726), (0, 38)]], 3, 4⟩,
    72057594037927936, 1381255964219, 2732243345737, ⟨[[(4491459987771, 0), (5071201016, 0), (3243099, 0), (0, 1934),
    (3, 0)], [(0, 7525551773), (0, 21009214), (0, 16633), (6, 0)], [(23983541, 0), (79764, 0), (68, 0)], [(0, 88846),
    (0, 304)]], 3, 4⟩, 17592186044416, 81740782,
    3573982194295062621814249606697738583120224625668211927904274291661528221238754658539064826555385365220076779634042411905007343,
    lc0⟩)) (.out ⟨214, 16, 188, 915, 16, 698, ⟨[[(0, 8995942439092224), (0, 2234459769146908), (74965794953, 0)],
    [(23532302629413681, 0), (0, 3655901013030), (3930756, 0)], [(27472105897115, 0), (0, 678134404), (0, 624801)]],
    2, 2⟩, ⟨[[(15983949117341696, 0), (0, 3091742947790865), (113068617301, 0)], [(0, 14351123343413979), (0,
    823112356883), (113093842, 0)], [(12065195643294, 0), (0, 909997281), (45203, 0)]], 2, 2⟩, 72057594037927936,
    290330033551225, 143604709135670, ⟨[], 0, 0⟩, 0, 0, 0, lc0⟩ 0 76 11))) (.out ⟨103, 16, 79, 451, 16, 344, ⟨[[(0,
    12483599259595776), (0, 2102283034536661), (116812204762, 0)], [(23702774556856613, 0), (0, 6058458494446), (0,
    423966449)], [(53587299992822, 0), (4200361452, 0), (0, 7177166)]], 2, 2⟩, ⟨[[(0, 24367264163409920), (0,
    3163035635273925), (246616840222, 0)], [(0, 12352590929911554), (0, 1980525864268), (451637006, 0)],
    [(26115480925030, 0), (0, 4093419194), (0, 88784)]], 2, 2⟩, 72057594037927936, 1231771891129554, 671574405764419,
    ⟨[], 0, 0⟩, 0, 0, 0, lc0⟩ 0 40 12)
theorem c27 : checkR job con0 true ⟨7, 9, 7, 9, 13, 17⟩ 1 28336 t27 237 21 160 12235 251 16000 = true := by decide +kernel

def t28 : CTree :=
  .sx (.sy (.sx (.sy (.leaf ⟨324, 16, 301, 321, 16, 1536, ⟨[[(15126094783537152, 0), (0, 1622457350064592),
    (29710869266, 0), (41146, 0), (0, 22)], [(32057761013144582, 0), (0, 2824751527251), (27588450, 0), (3352, 0)],
    [(37963352874735, 0), (0, 1247582322), (0, 147083), (13, 0)], [(42949099226, 0), (2148398, 0), (0, 453)]], 3, 4⟩,
    ⟨[[(34172354271694848, 0), (0, 2341869867175165), (39783764247, 0), (0, 1233046), (12, 0)], [(0,
    24543586142205230), (0, 527096744841), (41639777, 0), (0, 571)], [(17896699213406, 0), (0, 581017751), (28617,
    0), (2, 0)], [(3112857841, 0), (0, 874295), (0, 29)]], 3, 4⟩, 72057594037927936, 2151497450264, 2814007687065,
    ⟨[[(4488930509359, 0), (5168715379, 0), (3499598, 0), (0, 2037), (0, 1)], [(0, 7447460611), (0, 21397493), (0,
    17766), (11, 0)], [(23944793, 0), (81844, 0), (65, 0)], [(0, 88591), (0, 311)]], 3, 4⟩, 17592186044416, 81108125,
    2337774810942705893062016561972685017619251664943705438042482725400406255915914517683269282941525764519927255205290700422710796,
    lc0⟩) (.leaf ⟨324, 16, 312, 307, 16, 1543, ⟨[[(32405551596847104, 0), (0, 1650808943506586), (30827472259, 0),
    (0, 1465), (0, 22)], [(31767095498061263, 0), (0, 2896730155590), (33571283, 0), (3132, 0)], [(38664838320634,
    0), (0, 1436047868), (0, 132348), (13, 0)], [(45521323389, 0), (1773739, 0), (0, 434)]], 3, 4⟩, ⟨[[(0,
    22514001956892672), (0, 2313346904107594), (38121523457, 0), (0, 1207540), (19, 0)], [(0, 24910783085072055), (0,
    487974192652), (40851935, 0), (0, 721)], [(17692680773490, 0), (0, 553778042), (30665, 0), (1, 0)], [(2679569243,
    0), (0, 902997), (0, 20)]], 3, 4⟩, 72057594037927936, 2913729300242, 2880080650775, ⟨[[(4494657794823, 0),
    (5284452441, 0), (3774016, 0), (0, 1983), (0, 4)], [(0, 7405042645), (0, 21889137), (0, 19039), (14, 0)],
    [(24035172, 0), (84522, 0), (65, 0)], [(0, 88869), (0, 321)]], 3, 4⟩, 17592186044416, 81142158,
    1745447551360262613664832280360679336250370057595679736681185763631797054048937821482149826269378501205858285467161701094149962,
    lc0⟩)) (.sy (.out ⟨291, 16, 270, 1418, 16, 1101, ⟨[[(0, 28314315771265024), (0, 1563590436530102), (27425591866,
    0)], [(31822312980946907, 0), (0, 2615499779678), (11332155, 0)], [(38967405585583, 0), (0, 798419295), (0,
    189728)]], 2, 2⟩, ⟨[[(36025669614764032, 0), (0, 2373410226013398), (41726844242, 0)], [(0, 23100561030984177),
    (0, 582359597861), (44015065, 0)], [(18502130734936, 0), (0, 685996027), (23987, 0)]], 2, 2⟩, 72057594037927936,
    380918525104065, 75614310766152, ⟨[], 0, 0⟩, 0, 0, 0, lc0⟩ 0 217 17) (.leaf ⟨313, 16, 284, 299, 16, 1579,
    ⟨[[(6584104697819136, 0), (0, 1615568538209821), (29100707981, 0), (140856, 0), (0, 27)], [(32094838007306130,
    0), (0, 2735967040602), (18167644, 0), (3961, 0)], [(40517993891997, 0), (0, 1028660431), (0, 176815), (15, 0)],
    [(42913073357, 0), (2856454, 0), (0, 502)]], 3, 4⟩, ⟨[[(31070201727815680, 0), (0, 2389359263372114),
    (40820292788, 0), (0, 1264414), (16, 0)], [(0, 23952235437441847), (0, 551665572217), (44304062, 0), (0, 617)],
    [(18607168885132, 0), (0, 676382795), (27776, 0), (2, 0)], [(5220013765, 0), (0, 814070), (0, 37)]], 3, 4⟩,
    72057594037927936, 1766183695978, 2945449140071, ⟨[[(4284867545795, 0), (4669395669, 0), (3330534, 0), (0, 1235),
    (0, 7)], [(0, 6888587356), (0, 19727348), (0, 18199), (16, 0)], [(22231257, 0), (78021, 0), (63, 0)], [(0,
    84758), (0, 311)]], 3, 4⟩, 17592186044416, 85871951,
    1972757120951227546796565825430107441865720088421140649911556316357222741191165041417751568477319040399366459650876207390674690,
    lc0⟩))) (.sx (.sy (.leaf ⟨324, 16, 323, 292, 16, 1550, ⟨[[(6785144234725376, 0), (0, 1676980887062921),
    (31878718324, 0), (0, 45474), (0, 21)], [(31390819672453035, 0), (0, 2961602339114), (39371912, 0), (2889, 0)],
    [(39248852448087, 0), (0, 1614305764), (0, 117433), (13, 0)], [(47938003492, 0), (1403864, 0), (0, 413)]], 3, 4⟩,
    ⟨[[(1535011285676032, 0), (0, 2286300895668466), (36498849511, 0), (0, 1169643), (24, 0)], [(0,
    25259622517265707), (0, 449568259607), (39845962, 0), (0, 854)], [(17501565022175, 0), (0, 524711989), (31973,
    0), (1, 0)], [(2231973258, 0), (0, 923170), (0, 12)]], 3, 4⟩, 72057594037927936, 3664190680501, 2944498571878,
    ⟨[[(4490136078502, 0), (5380377066, 0), (4052743, 0), (0, 1773), (0, 7)], [(0, 7327251069), (0, 22303713), (0,
    20436), (17, 0)], [(23957384, 0), (87011, 0), (67, 0)], [(0, 88551), (0, 331)]], 3, 4⟩, 17592186044416, 80926666,
    3162070316308096053916890441463528119674904757262997518245079515536088382030912157485497420106560000493191664493330536293996135,
    lc0⟩) (.sx (.leaf ⟨474, 16, 497, 372, 16, 2060, ⟨[[(18767508786266112, 0), (0, 2484309149203345), (48179125793,
    0), (0, 173510), (0, 28)], [(22406326403400375, 0), (0, 2218413169780), (34942492, 0), (1769, 0)],
    [(14192383101969, 0), (0, 673439638), (0, 33698), (4, 0)], [(9175360122, 0), (145979, 0), (0, 68)]], 3, 4⟩,
    ⟨[[(5238348205838336, 0), (0, 2985369189198790), (45687790102, 0), (0, 1468473), (40, 0)], [(0,
    17169125196418895), (0, 265944556584), (25115395, 0), (0, 638)], [(5715026168009, 0), (0, 153747775), (10779,
    0)], [(188637103, 0), (0, 157673)]], 3, 4⟩, 72057594037927936, 429942540607, 253679742682, ⟨[[(4544434953705, 0),
    (4253015098, 0), (2527945, 0), (0, 727), (0, 3)], [(0, 5108956503), (0, 12123928), (0, 8627), (6, 0)],
    [(11602660, 0), (32703, 0), (19, 0)], [(0, 29355), (0, 85)]], 3, 4⟩, 17592186044416, 11627669,
    2964725055937843370225248502380862747748801247642376094251239230766119543821408633369841012111509158018466498875021611849342339,
    lc0⟩) (.leaf ⟨467, 16, 476, 364, 16, 2073, ⟨[[(5132696625868800, 0), (0, 2469700504197615), (47487044928, 0), (0,
    87528), (0, 33)], [(22648415776453431, 0), (0, 2177954962268), (30394800, 0), (2058, 0)], [(14719255361588, 0),
    (0, 621540044), (0, 41048), (5, 0)], [(9090033743, 0), (234532, 0), (0, 74)]], 3, 4⟩, ⟨[[(35401593282461696, 0),
    (0, 3015733623541885), (47056718036, 0), (0, 1504742), (39, 0)], [(0, 16793005736236312), (0, 281448158692),
    (26182433, 0), (0, 642)], [(5788297088196, 0), (0, 174326928), (10765, 0)], [(400746404, 0), (0, 152518), (0,
    1)]], 3, 4⟩, 72057594037927936, 390001091496, 255934230321, ⟨[[(4435172834247, 0), (4018736324, 0), (2402055, 0),
    (0, 529), (0, 3)], [(0, 4900855436), (0, 11528004), (0, 8546), (5, 0)], [(11097612, 0), (31510, 0), (19, 0)],
    [(0, 28424), (0, 84)]], 3, 4⟩, 17592186044416, 11633936,
    3542313187416088416069593220919930914001139172147627369696657940915743166790398663489868297282023428824675792402714278677277196,
    lc0⟩))) (.sy (.leaf ⟨313, 16, 294, 284, 16, 1586, ⟨[[(0, 30992058705485824), (0, 1642112575062270), (30303430801,
    0), (90934, 0), (0, 27)], [(31808367318930389, 0), (0, 2810419395502), (24689881, 0), (3712, 0)],
    [(41365885626657, 0), (0, 1237357873), (0, 160749), (14, 0)], [(45780668936, 0), (2454026, 0), (0, 482)]], 3, 4⟩,
    ⟨[[(12982932945014784, 0), (0, 2359737889243570), (39115519480, 0), (0, 1232139), (22, 0)], [(0,
    24325453894232765), (0, 509947386121), (43430622, 0), (0, 798)], [(18355857597462, 0), (0, 650100734), (30288,
    0), (1, 0)], [(4824184699, 0), (0, 849810), (0, 27)]], 3, 4⟩, 72057594037927936, 2586910430330, 3016348898884,
    ⟨[[(4282312456824, 0), (4751781546, 0), (3557740, 0), (0, 926), (0, 8)], [(0, 6808421266), (0, 20050801), (0,
    19584), (16, 0)], [(22153289, 0), (80327, 0), (67, 0)], [(0, 84350), (0, 320)]], 3, 4⟩, 17592186044416, 85745267,
    3299536556515084997705160908548747241435183642164513365463447450813239204274893635479421658761739369413648481857163206881654163,
    lc0⟩) (.sx (.leaf ⟨459, 16, 455, 357, 16, 2086, ⟨[[(31503957663965184, 0), (0, 2449211187198143), (46537630829,
    0), (7035, 0), (0, 37)], [(22877549286447458, 0), (0, 2130411486979), (25364737, 0), (2359, 0)],
    [(15181559552536, 0), (0, 559485568), (0, 48804), (5, 0)], [(8951931937, 0), (327797, 0), (0, 81)]], 3, 4⟩,
    ⟨[[(5090446048002048, 0), (0, 3046861248681153), (48477377995, 0), (0, 1541154), (38, 0)], [(0,
    16406541712350961), (0, 298749145606), (27248631, 0), (0, 637)], [(5888786658710, 0), (0, 194345318), (10621,
    0)], [(615683335, 0), (0, 146845), (0, 2)]], 3, 4⟩, 72057594037927936, 341483459059, 260050813141,
    ⟨[[(4336899565826, 0), (3805762121, 0), (2275332, 0), (0, 347), (0, 3)], [(0, 4732847070), (0, 11008686), (0,
    8463), (5, 0)], [(10706651, 0), (30536, 0), (20, 0)], [(0, 27824), (0, 83)]], 3, 4⟩, 17592186044416, 11777361,
    3684243928893331125370021081791864651985699759569774817148482310475441276683720242619468093685679048318649796951211581293374962,
    lc0⟩) (.leaf ⟨452, 16, 435, 350, 16, 2099, ⟨[[(25564041729781760, 0), (0, 2428016095762276), (45422295019, 0),
    (110133, 0), (0, 41)], [(23136834253578304, 0), (0, 2079847477728), (19903810, 0), (2676, 0)], [(15606867557714,
    0), (0, 488474521), (0, 57029), (5, 0)], [(8779339155, 0), (425673, 0), (0, 87)]], 3, 4⟩, ⟨[[(0,
    13025277976719360), (0, 3078830796984950), (49949730250, 0), (0, 1577278), (36, 0)], [(0, 16007390872696463), (0,
    317807200818), (28302289, 0), (0, 620)], [(6017028981120, 0), (0, 213726816), (10331, 0)], [(833617637, 0), (0,
    140565), (0, 3)]], 3, 4⟩, 72057594037927936, 295988616402, 263373563015, ⟨[[(4240267986166, 0), (3597505746, 0),
    (2141844, 0), (0, 172), (0, 3)], [(0, 4560391334), (0, 10462904), (0, 8335), (5, 0)], [(10265626, 0), (29360, 0),
    (20, 0)], [(0, 27006), (0, 81)]], 3, 4⟩, 17592186044416, 11870808,
    3648889595194388915418933305461107096538878441703776591721531261553971666000310004033272977164680676170633923538025292872400144,
    lc0⟩))))) (.sy (.out ⟨135, 16, 116, 713, 16, 564, ⟨[[(14971392577218560, 0), (0, 1475190396643295), (47459333263,
    0)], [(31387343166729527, 0), (0, 4600674037512), (0, 50745728)], [(79639139239545, 0), (0, 388286956), (0,
    1990467)]], 2, 2⟩, ⟨[[(0, 32824290120179712), (0, 2449488676706287), (89387282941, 0)], [(0, 21368481921004547),
    (0, 1339366615545), (189726711, 0)], [(40302997971476, 0), (0, 3281995956), (124065, 0)]], 2, 2⟩,
    72057594037927936, 1445004892852131, 456581091927686, ⟨[], 0, 0⟩, 0, 0, 0, lc0⟩ 0 155 25) (.sx (.sy (.out ⟨279,
    16, 262, 1419, 16, 1138, ⟨[[(0, 21810998781300736), (0, 1570329386126843), (27642735756, 0)],
    [(31661060392987386, 0), (0, 2583366087902), (7509374, 0)], [(42084956808784, 0), (0, 746720793), (0, 204125)]],
    2, 2⟩, ⟨[[(0, 15244614035226624), (0, 2393178727274158), (41176815423, 0)], [(0, 22856843577329588), (0,
    571447339707), (46010496, 0)], [(19210666910384, 0), (0, 753769013), (25935, 0)]], 2, 2⟩, 72057594037927936,
    407632404537276, 93762950997098, ⟨[], 0, 0⟩, 0, 0, 0, lc0⟩ 0 1048 68) (.sx (.leaf ⟨446, 16, 416, 343, 16, 2113,
    ⟨[[(0, 9549645640851456), (0, 2406294681028060), (44135191823, 0), (222091, 0), (0, 46)], [(23424734786126034,
    0), (0, 2025882063245), (13992817, 0), (3009, 0)], [(15994594618298, 0), (0, 408386357), (0, 65719), (6, 0)],
    [(8572630882, 0), (527770, 0), (0, 94)]], 3, 4⟩, ⟨[[(0, 6538125466218496), (0, 3113192915741088), (51497576644,
    0), (0, 1613395), (34, 0)], [(0, 15600534349910543), (0, 338734991195), (29344036, 0), (0, 592)],
    [(6176500672206, 0), (0, 232494031), (9881, 0)], [(1055179901, 0), (0, 133657), (0, 5)]], 3, 4⟩,
    72057594037927936, 245802459323, 268203495522, ⟨[[(4144933020243, 0), (3392760377, 0), (2000864, 0), (0, 7), (0,
    3)], [(0, 4383809638), (0, 9890401), (0, 8159), (4, 0)], [(9777138, 0), (27985, 0), (20, 0)], [(0, 25976), (0,
    79)]], 3, 4⟩, 17592186044416, 11770082,
    3293795355062550867138247078001793817640872953898921155450532362904514154373811064661154308826666763802284671341244528277196272,
    lc0⟩) (.leaf ⟨439, 16, 397, 336, 16, 2126, ⟨[[(0, 6098872928182272), (0, 2378240529561455), (42562787512, 0),
    (342406, 0), (0, 50)], [(23680579705304021, 0), (0, 1963205425380), (7592431, 0), (3349, 0)], [(16303543860521,
    0), (0, 318321426), (0, 74679), (6, 0)], [(8311666612, 0), (632129, 0), (0, 100)]], 3, 4⟩, ⟨[[(1677211755536384,
    0), (0, 3147083342638866), (53071595536, 0), (0, 1647449), (31, 0)], [(0, 15168494389785414), (0, 361165530705),
    (30331644, 0), (0, 551)], [(6361991863316, 0), (0, 250336364), (9244, 0), (1, 0)], [(1279546143, 0), (0, 125910),
    (0, 6)]], 3, 4⟩, 72057594037927936, 190079471872, 271458585461, ⟨[[(4056007432250, 0), (3205544729, 0), (1864710,
    0), (139, 0), (0, 2)], [(0, 4235671363), (0, 9384949), (0, 8004), (4, 0)], [(9372683, 0), (26817, 0), (20, 0)],
    [(0, 25207), (0, 77)]], 3, 4⟩, 17592186044416, 11912046,
    2440490071428753828247327786167956075455285837460175467173237685115480520467407685225375029559943092253557129457737661234905231,
    lc0⟩))) (.out ⟨196, 16, 176, 911, 16, 742, ⟨[[(30251372165531648, 0), (0, 2238211319700662), (74939466798, 0)],
    [(23349763299199330, 0), (0, 3533489412681), (0, 22279940)], [(31787327967511, 0), (0, 459452824), (0, 713119)]],
    2, 2⟩, ⟨[[(17065505611800576, 0), (0, 3125975679470073), (110019889686, 0)], [(0, 13925030810066206), (0,
    801336698920), (124009506, 0)], [(13102246613842, 0), (0, 1081117593), (55798, 0)]], 2, 2⟩, 72057594037927936,
    340446649349335, 171280490396553, ⟨[], 0, 0⟩, 0, 0, 0, lc0⟩ 0 177 20)))
theorem c28 : checkR job con0 true ⟨7, 9, 7, 9, 13, 17⟩ 1 28336 t28 237 21 160 12737 251 16000 = true := by decide +kernel

def t29 : CTree :=
  .sy (.out ⟨66, 16, 41, 372, 16, 290, ⟨[[(0, 17190721374745600), (0, 1268876587443360), (27402974042, 0)],
    [(32306561392792070, 0), (0, 4552338687783), (0, 1834065582)], [(129802124420196, 0), (51713727761, 0), (0,
    30626175)]], 2, 2⟩, ⟨[[(7733495259959296, 0), (0, 2785629288346200), (230512835558, 0)], [(0, 14699385481829641),
    (0, 4218094333907), (634496412, 0)], [(108039472419642, 0), (0, 13245404320), (0, 4064510)]], 2, 2⟩,
    72057594037927936, 3579210785040136, 3185734985926865, ⟨[], 0, 0⟩, 0, 0, 0, lc0⟩ 0 19 12) (.out ⟨60, 16, 43, 361,
    16, 296, ⟨[[(0, 12031248546552320), (0, 1287566347414181), (55760457042, 0)], [(31073115792927116, 0), (0,
    6282237690499), (0, 1110183162)], [(155989465429339, 0), (26257830957, 0), (0, 23821068)]], 2, 2⟩, ⟨[[(0,
    15334861779079168), (0, 2621801526172050), (205050170910, 0)], [(0, 16984281580186981), (0, 3559006650910),
    (810131106, 0)], [(102728449352226, 0), (0, 16018419087), (0, 999006)]], 2, 2⟩, 72057594037927936,
    5505305697362657, 3228835902937148, ⟨[], 0, 0⟩, 0, 0, 0, lc0⟩ 0 172 68)
theorem c29 : checkR job con0 true ⟨7, 9, 7, 9, 13, 17⟩ 1 28336 t29 279 21 160 6243 251 8000 = true := by decide +kernel

def t30 : CTree :=
  .sx (.out ⟨51, 16, 25, 225, 16, 183, ⟨[[(0, 26448512288815104), (0, 1660632842182677), (0, 198073050255)],
    [(26385833554473356, 0), (1877636398613, 0), (0, 11813035672)], [(84357953603798, 0), (169562730814, 0), (0,
    139386350)]], 2, 2⟩, ⟨[[(0, 11412828112099328), (0, 3609705303561403), (604290343540, 0)], [(0,
    3348975272740261), (0, 6232168737122), (680680728, 0)], [(91855650269754, 0), (0, 11368728073), (0, 23021100)]],
    2, 2⟩, 72057594037927936, 12755431982829244, 4695073124751095, ⟨[], 0, 0⟩, 0, 0, 0, lc0⟩ 0 11 11) (.out ⟨60, 16,
    22, 202, 16, 164, ⟨[[(0, 30487325932774400), (0, 1029440556621445), (0, 877196041923)], [(27457417934727546, 0),
    (21542273670472, 0), (0, 24313801544)], [(11367135589396, 0), (336190007333, 0), (0, 210494599)]], 2, 2⟩, ⟨[[(0,
    1843302793199616), (0, 3479479027532924), (520380773510, 0)], [(4975942912949429, 0), (0, 5850214081926), (0,
    1857001105)], [(105902154596112, 0), (4574286665, 0), (0, 37445093)]], 2, 2⟩, 72057594037927936,
    26359843497251729, 4377287921483775, ⟨[], 0, 0⟩, 0, 0, 0, lc0⟩ 0 4 7)
theorem c30 : checkR job con0 true ⟨7, 9, 7, 9, 13, 17⟩ 1 28336 t30 171 21 80 6243 251 8000 = true := by decide +kernel

def t31 : CTree :=
  .sy (.sx (.sy (.sx (.leaf ⟨473, 16, 514, 354, 16, 2076, ⟨[[(0, 17492272783753216), (0, 2519409427025545),
    (49513316220, 0), (0, 236580), (0, 27)], [(22030334135644861, 0), (0, 2256695247951), (38695332, 0), (1567, 0)],
    [(14319969370722, 0), (0, 728226510), (0, 28483), (4, 0)], [(9547849901, 0), (83751, 0), (0, 64)]], 3, 4⟩,
    ⟨[[(11636204434989056, 0), (0, 2963427169923936), (43878496105, 0), (0, 1392130), (47, 0)], [(0,
    17430723425417704), (0, 243097885534), (24303420, 0), (0, 691)], [(5684359135189, 0), (0, 144119685), (10651,
    0)], [(110387220, 0), (0, 158500), (1, 0)]], 3, 4⟩, 72057594037927936, 492359220448, 259065673656,
    ⟨[[(4541443733501, 0), (4318783770, 0), (2679310, 0), (0, 572), (0, 3)], [(0, 5075985608), (0, 12371189), (0,
    9218), (6, 0)], [(11623882, 0), (33777, 0), (21, 0)], [(0, 29492), (0, 88)]], 3, 4⟩, 17592186044416, 11747459,
    3140447054492267868060571026557978310799879856775336347115588271682948431359106365759121782627418707999002000693043889307595481,
    lc0⟩) (.leaf ⟨464, 16, 491, 346, 16, 2090, ⟨[[(15366473767952384, 0), (0, 2498432844743347), (48797548937, 0),
    (0, 155963), (0, 32)], [(22242499934936689, 0), (0, 2213575108129), (34340327, 0), (1845, 0)], [(14851171375615,
    0), (0, 680134636), (0, 35448), (4, 0)], [(9479158828, 0), (168261, 0), (0, 70)]], 3, 4⟩, ⟨[[(33276959644520448,
    0), (0, 2993958378461058), (45221001702, 0), (0, 1431100), (46, 0)], [(0, 17066597251244989), (0, 257760148645),
    (25371828, 0), (0, 711)], [(5750271358865, 0), (0, 164865248), (10796, 0)], [(326664131, 0), (0, 154253)]], 3,
    4⟩, 72057594037927936, 456655617398, 260091058257, ⟨[[(4435910554328, 0), (4085902135, 0), (2544222, 0), (0,
    364), (0, 3)], [(0, 4894445883), (0, 11823338), (0, 9174), (5, 0)], [(11233551, 0), (32887, 0), (21, 0)], [(0,
    28970), (0, 88)]], 3, 4⟩, 17592186044416, 11988128,
    3730251509371759049620487266896762327634200703907267029443118935659717065664976683134043895954108752393123903338105251583181345,
    lc0⟩)) (.sx (.leaf ⟨470, 16, 531, 336, 16, 2092, ⟨[[(31652707837042688, 0), (0, 2551579467573604), (50741271130,
    0), (0, 298774), (0, 26)], [(21598904905936360, 0), (0, 2290041611358), (42211466, 0), (1351, 0)],
    [(14409031127388, 0), (0, 778769877), (0, 23368), (4, 0)], [(9891020040, 0), (23664, 0), (0, 59)]], 3, 4⟩,
    ⟨[[(17221505360105472, 0), (0, 2942909269162522), (42177676593, 0), (0, 1303325), (52, 0)], [(0,
    17681957430928716), (0, 220918137284), (23416934, 0), (0, 726)], [(5657933543993, 0), (0, 134673888), (10250,
    0)], [(31392018, 0), (0, 158217), (2, 0)]], 3, 4⟩, 72057594037927936, 554314703170, 262389187723,
    ⟨[[(4544563752072, 0), (4401551465, 0), (2842814, 0), (0, 408), (0, 3)], [(0, 5080979503), (0, 12739052), (0,
    9924), (6, 0)], [(11789115, 0), (35354, 0), (23, 0)], [(0, 30143), (0, 93)]], 3, 4⟩, 17592186044416, 12251188,
    3130071633878229036311604715130005362259106564774441564269208935521739663213063879153510690039008015719285122656343554860375427,
    lc0⟩) (.leaf ⟨462, 16, 507, 328, 16, 2107, ⟨[[(0, 32903337220087808), (0, 2529396928571069), (50096912000, 0),
    (0, 224295), (0, 30)], [(21829048977314706, 0), (0, 2248738230769), (38113998, 0), (1621, 0)], [(14973907418396,
    0), (0, 735692188), (0, 30008), (4, 0)], [(9857618049, 0), (104537, 0), (0, 66)]], 3, 4⟩, ⟨[[(29496780313305088,
    0), (0, 2973606514805751), (43489010034, 0), (0, 1344058), (52, 0)], [(0, 17329511086984262), (0, 234731053971),
    (24461633, 0), (0, 762)], [(5716328332132, 0), (0, 155427296), (10540, 0)], [(251404392, 0), (0, 154714), (1,
    0)]], 3, 4⟩, 72057594037927936, 520749806867, 266085811873, ⟨[[(4432839268783, 0), (4145605945, 0), (2678879, 0),
    (0, 188), (0, 3)], [(0, 4869624512), (0, 12078365), (0, 9802), (5, 0)], [(11288613, 0), (34091, 0), (23, 0)],
    [(0, 29258), (0, 92)]], 3, 4⟩, 17592186044416, 12304739,
    3724776439245405562010897672681789129530501913056484308674781991925387773526520501882942923469881311108288385046985205998574856,
    lc0⟩))) (.sy (.sx (.leaf ⟨456, 16, 469, 339, 16, 2103, ⟨[[(11073172739956736, 0), (0, 2476423625234045),
    (47923914267, 0), (0, 67206), (0, 36)], [(22485987726893400, 0), (0, 2167948131040), (29587013, 0), (2139, 0)],
    [(15347137917464, 0), (0, 623437525), (0, 42880), (5, 0)], [(9376572444, 0), (257686, 0), (0, 76)]], 3, 4⟩,
    ⟨[[(0, 18054606343262208), (0, 3023778378148962), (46593684380, 0), (0, 1470230), (45, 0)], [(0,
    16684603401134949), (0, 274109798601), (26441465, 0), (0, 722)], [(5841135908503, 0), (0, 185093944), (10827,
    0)], [(545945575, 0), (0, 149541), (0, 1)]], 3, 4⟩, 72057594037927936, 413097313537, 262617229860,
    ⟨[[(4336745234623, 0), (3865058261, 0), (2401595, 0), (0, 179), (0, 3)], [(0, 4720818541), (0, 11267547), (0,
    9063), (5, 0)], [(10824926, 0), (31829, 0), (22, 0)], [(0, 28313), (0, 87)]], 3, 4⟩, 17592186044416, 12191227,
    3895241305370471808210394323387295292598822745991151967153309744168447438374562734976963108523736226773536891779370387275526269,
    lc0⟩) (.leaf ⟨449, 16, 448, 331, 16, 2117, ⟨[[(0, 27631447364464640), (0, 2453546154724340), (46887240436, 0),
    (29976, 0), (0, 41)], [(22758498653602188, 0), (0, 2119416872408), (24418194, 0), (2449, 0)], [(15806615482819,
    0), (0, 558002361), (0, 50772), (5, 0)], [(9239700496, 0), (351608, 0), (0, 83)]], 3, 4⟩, ⟨[[(25902570085359616,
    0), (0, 3055837118096426), (48040951444, 0), (0, 1510508), (44, 0)], [(0, 16298458734233268), (0, 292372033360),
    (27527183, 0), (0, 723)], [(5963076046498, 0), (0, 204913188), (10738, 0)], [(768862939, 0), (0, 144423), (0,
    2)]], 3, 4⟩, 72057594037927936, 368875598690, 268327970083, ⟨[[(4234899419230, 0), (3642133842, 0), (2249975, 0),
    (6, 0), (0, 3)], [(0, 4530236227), (0, 10657647), (0, 8903), (4, 0)], [(10329440, 0), (30491, 0), (22, 0)], [(0,
    27333), (0, 85)]], 3, 4⟩, 17592186044416, 12207440,
    3853017943856494915970014947428316320059228159995624307295461503412505304654610424211933830559143634887553314518022691697654578,
    lc0⟩)) (.sx (.leaf ⟨453, 16, 484, 321, 16, 2121, ⟨[[(8031482160660480, 0), (0, 2506043427827163), (49297101016,
    0), (0, 141743), (0, 35)], [(22090002713787054, 0), (0, 2205037007958), (33631315, 0), (1907, 0)],
    [(15504468697699, 0), (0, 684176764), (0, 37111), (5, 0)], [(9790673537, 0), (190262, 0), (0, 72)]], 3, 4⟩,
    ⟨[[(0, 31363756124987392), (0, 3003576353487747), (44830994444, 0), (0, 1385739), (51, 0)], [(0,
    16959565076055323), (0, 250249075737), (25521508, 0), (0, 791)], [(5800162078550, 0), (0, 175779385), (10740,
    0)], [(474833738, 0), (0, 150875), (1, 0)]], 3, 4⟩, 72057594037927936, 483935108608, 268451701252,
    ⟨[[(4337296291437, 0), (3926683217, 0), (2527729, 0), (0, 10), (0, 3)], [(0, 4711809166), (0, 11546427), (0,
    9694), (5, 0)], [(10946497, 0), (33200, 0), (24, 0)], [(0, 28831), (0, 92)]], 3, 4⟩, 17592186044416, 12724305,
    3882050538983938531651982236822558255361066802059945657750576952986880890632332116223070550815683761994921502214749350222450000,
    lc0⟩) (.leaf ⟨445, 16, 462, 313, 16, 2135, ⟨[[(12809684090347520, 0), (0, 2481671116146349), (48336885938, 0),
    (0, 50826), (0, 40)], [(22379161408108873, 0), (0, 2158536857665), (28747103, 0), (2210, 0)], [(15999163552696,
    0), (0, 624105019), (0, 44671), (5, 0)], [(9689532952, 0), (280407, 0), (0, 78)]], 3, 4⟩, ⟨[[(0,
    9098357698392064), (0, 3034305056352349), (46224988998, 0), (0, 1428636), (50, 0)], [(0, 16578155717992945), (0,
    267558523950), (26599946, 0), (0, 810)], [(5912772912648, 0), (0, 195752627), (10837, 0)], [(701954769, 0), (0,
    146695)]], 3, 4⟩, 72057594037927936, 441284350806, 271615821414, ⟨[[(4239230864600, 0), (3707181560, 0),
    (2369200, 0), (163, 0), (0, 3)], [(0, 4536843229), (0, 10961272), (0, 9535), (4, 0)], [(10515833, 0), (32025, 0),
    (24, 0)], [(0, 28076), (0, 90)]], 3, 4⟩, 17592186044416, 12793625,
    3807119841673430053498354872582685160986342071939331838994272994914440205679326022434831724817770895842347297641211933541815256,
    lc0⟩)))) (.sx (.sy (.sx (.leaf ⟨468, 16, 549, 318, 16, 2108, ⟨[[(13743848460746752, 0), (0, 2585649188552110),
    (51957257496, 0), (0, 359483), (0, 24)], [(21153666899579154, 0), (0, 2322865913538), (45540659, 0), (1125, 0)],
    [(14487680944571, 0), (0, 826512864), (0, 18451), (4, 0)], [(10223662287, 0), (0, 33929), (0, 55)]], 3, 4⟩,
    ⟨[[(21470817413824512, 0), (0, 2923712811557738), (40603495525, 0), (0, 1204484), (56, 0)], [(0,
    17923088061027054), (0, 199473540982), (22486366, 0), (0, 738)], [(5635627319816, 0), (0, 125696087), (9560, 0),
    (0, 1)], [(0, 47812244), (0, 156933), (3, 0)]], 3, 4⟩, 72057594037927936, 617225371889, 265965600776,
    ⟨[[(4543073951278, 0), (4475498289, 0), (2999323, 0), (0, 235), (0, 3)], [(0, 5064738861), (0, 13060863), (0,
    10639), (6, 0)], [(11866659, 0), (36741, 0), (25, 0)], [(0, 30523), (0, 97)]], 3, 4⟩, 17592186044416, 12570980,
    2722691939531206032521335374856494430658111224892189723397072184883078955684217762322584530014135538715242180416559279466791186,
    lc0⟩) (.leaf ⟨459, 16, 524, 310, 16, 2123, ⟨[[(0, 896966847193088), (0, 2562415967881745), (51381764727, 0), (0,
    291658), (0, 28)], [(21404400953587465, 0), (0, 2283397292871), (41695233, 0), (1384, 0)], [(15087012414035, 0),
    (0, 788307448), (0, 24751), (4, 0)], [(10225876710, 0), (43395, 0), (0, 61)]], 3, 4⟩, ⟨[[(13023215744987136, 0),
    (0, 2953189662070274), (41860762219, 0), (0, 1245310), (56, 0)], [(0, 17573723498068325), (0, 212355661750),
    (23470004, 0), (0, 791)], [(5683747901854, 0), (0, 146244439), (9973, 0), (0, 1)], [(175506923, 0), (0, 153912),
    (3, 0)]], 3, 4⟩, 72057594037927936, 583992832870, 269427345793, ⟨[[(4436003180557, 0), (4224430625, 0), (2828505,
    0), (0, 25), (0, 3)], [(0, 4872212496), (0, 12435329), (0, 10530), (5, 0)], [(11440539, 0), (35678, 0), (25, 0)],
    [(0, 29888), (0, 97)]], 3, 4⟩, 17592186044416, 12812936,
    3277672764329392553515825348317184214317960604856643732883204235572756377898332858348359615753977030945781443742673330340747552,
    lc0⟩)) (.leaf ⟨324, 16, 390, 220, 16, 1584, ⟨[[(9317753961865216, 0), (0, 1834167304752295), (37197895914, 0),
    (0, 272813), (0, 16)], [(29272988425861467, 0), (0, 3284582711934), (65933293, 0), (1418, 0)], [(41824650913623,
    0), (0, 2406125959), (0, 46904), (10, 0)], [(59429510738, 0), (0, 295837), (0, 300)]], 3, 4⟩,
    ⟨[[(4050192731217920, 0), (0, 2169815739962410), (29551888649, 0), (0, 830963), (43, 0)], [(0,
    26726052499953240), (0, 274347422244), (32683641, 0), (0, 1129)], [(16743079297905, 0), (0, 379384804), (26237,
    0), (0, 2)], [(0, 83046188), (0, 911957), (22, 0)]], 3, 4⟩, 72057594037927936, 7296690429212, 3170756525508,
    ⟨[[(4490173246569, 0), (5959562902, 0), (5561488, 0), (72, 0), (0, 10)], [(0, 7060359252), (0, 25100676), (0,
    29285), (20, 0)], [(23825597, 0), (102932, 0), (101, 0)], [(0, 88547), (0, 396)]], 3, 4⟩, 17592186044416,
    83199341,
    2712627818724788521121646483598804110045699617366120143836894439967498604492009754288347660721898205326184283705702123754697433,
    lc0⟩)) (.sy (.sx (.leaf ⟨451, 16, 501, 302, 16, 2138, ⟨[[(9566122050568192, 0), (0, 2542961698912439),
    (50754562492, 0), (0, 216248), (0, 33)], [(21729095799964376, 0), (0, 2246120299234), (37552923, 0), (1666, 0)],
    [(15684432230251, 0), (0, 743297045), (0, 31577), (4, 0)], [(10215267456, 0), (125773, 0), (0, 67)]], 3, 4⟩,
    ⟨[[(14206354148737024, 0), (0, 2983308502915258), (43167128182, 0), (0, 1288474), (56, 0)], [(0,
    17215748670549513), (0, 227040211328), (24491965, 0), (0, 838)], [(5760395497017, 0), (0, 166541834), (10329,
    0)], [(402569320, 0), (0, 150763), (2, 0)]], 3, 4⟩, 72057594037927936, 552512778637, 272539100283,
    ⟨[[(4334963308492, 0), (3989234571, 0), (2657939, 0), (159, 0), (0, 3)], [(0, 4684930165), (0, 11810359), (0,
    10366), (5, 0)], [(10991946, 0), (34469, 0), (26, 0)], [(0, 29101), (0, 96)]], 3, 4⟩, 17592186044416, 13009308,
    3441215933990920532667934725450388533426590848442106277976717542226204092257137916485458934036228708678235039055343465622026921,
    lc0⟩) (.leaf ⟨443, 16, 478, 294, 16, 2152, ⟨[[(0, 8483237514358784), (0, 2517465604149561), (49871249643, 0), (0,
    131916), (0, 38)], [(22040859293843450, 0), (0, 2201782912938), (32941705, 0), (1962, 0)], [(16218082533190, 0),
    (0, 688359122), (0, 38814), (5, 0)], [(10150943693, 0), (212462, 0), (0, 74)]], 3, 4⟩, ⟨[[(15723503060955136, 0),
    (0, 3012748727713605), (44503665883, 0), (0, 1333051), (56, 0)], [(0, 16838892301508242), (0, 243403404190),
    (25534918, 0), (0, 876)], [(5863536021052, 0), (0, 186477416), (10602, 0)], [(633382098, 0), (0, 147348), (1,
    0)]], 3, 4⟩, 72057594037927936, 513243794679, 276805451716, ⟨[[(4236666315452, 0), (3763248451, 0), (2483667, 0),
    (319, 0), (0, 3)], [(0, 4506372398), (0, 11191293), (0, 10160), (4, 0)], [(10547831, 0), (33204, 0), (26, 0)],
    [(0, 28293), (0, 94)]], 3, 4⟩, 17592186044416, 13132793,
    3374600591172491169784027590094361075374054032097452498898715812206766569056819433858954772852305552111879054991261791163306438,
    lc0⟩)) (.leaf ⟨309, 16, 352, 210, 16, 1622, ⟨[[(0, 5193494698217472), (0, 1783800820410062), (35976476234, 0),
    (0, 175021), (0, 23)], [(29885083798474069, 0), (0, 3146994127794), (54361089, 0), (2154, 0)], [(44847596814753,
    0), (0, 2154475370), (0, 82232), (12, 0)], [(59009318860, 0), (582815, 0), (0, 366)]], 3, 4⟩, ⟨[[(0,
    14107299384670208), (0, 2234422035476632), (31715448112, 0), (0, 903395), (45, 0)], [(0, 25922627988350065), (0,
    318422090890), (35835427, 0), (0, 1336)], [(17308092375888, 0), (0, 503241963), (29422, 0), (0, 2)],
    [(2680889878, 0), (0, 887846), (18, 0)]], 3, 4⟩, 72057594037927936, 6543833447527, 3267083166736,
    ⟨[[(4286675307550, 0), (5254620399, 0), (4792904, 0), (888, 0), (0, 8)], [(0, 6592252485), (0, 22621541), (0,
    28024), (14, 0)], [(22473158, 0), (97232, 0), (106, 0)], [(0, 86734), (0, 396)]], 3, 4⟩, 17592186044416,
    93566703,
    2771944702812993822609607332177935335815786133445919291659618970805728904990356148114438475348643460306199160899746424048751314,
    lc0⟩)))
theorem c31 : checkR job con0 true ⟨7, 9, 7, 9, 13, 17⟩ 1 28336 t31 453 21 320 13239 251 16000 = true := by decide +kernel

end PyX.Kron.V3b
