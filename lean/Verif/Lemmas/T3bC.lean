import Verif.Lemmas.T3bJob

/-!
# The temperature from pressure and enthalpy in subregion 3b, part C of the certificate
-/

namespace PyX.Kron.T3b

set_option Elab.async false

def t72 : CTree :=
  .sy (.sx (.sy (.sx (.sy (.sy (.out ⟨3094, 16, 11159, 29052, 16, 42101, ⟨[[(0, 33684396377374720), (0,
    1666725098190572), (2234366388, 0)], [(31859859457250402, 0), (0, 678233845439), (1126063, 0)], [(0,
    8567984170100), (3604180, 0), (353, 0)]], 2, 2⟩, ⟨[[(12249106914738176, 0), (0, 4360194098380617), (9081410593,
    0)]], 2, 2⟩, 72057594037927936, 21499090246511, 299260402661, ⟨[], 0, 0⟩, 0, 0, 0, lc0⟩ 1 1 26747024204) (.sy
    (.out ⟨3846, 16, 13912, 58165, 16, 84356, ⟨[[(0, 8928157575544832), (0, 1037913252563204), (691922168, 0)],
    [(39401745609566013, 0), (0, 422253217589), (347723, 0)], [(0, 10680008948517), (2412996, 0), (111, 0)]], 2, 2⟩,
    ⟨[[(0, 175066093977600), (0, 4361325851691816), (4538325068, 0)]], 2, 2⟩, 72057594037927936, 26579934009301,
    74697801503, ⟨[], 0, 0⟩, 0, 0, 0, lc0⟩ 1 1 22050999567) (.out ⟨3855, 16, 13971, 58195, 16, 84444, ⟨[[(0,
    5244212753530880), (0, 1041618871053348), (691816019, 0)], [(39356063911710549, 0), (0, 423694477923), (346997,
    0)], [(0, 10724057662183), (2535437, 0), (112, 0)]], 2, 2⟩, ⟨[[(19853849432424448, 0), (0, 4361317917388176),
    (4535947355, 0)]], 2, 2⟩, 72057594037927936, 26705340383137, 74619629450, ⟨[], 0, 0⟩, 0, 0, 0, lc0⟩ 1 1
    18634135493))) (.leaf ⟨4768, 16, 8327, 1385, 16, 6399, ⟨[[(18538452599046144, 0), (0, 2479187317472860),
    (6523434837, 0), (0, 79687), (0, 2)], [(23140412310900486, 0), (0, 1008062326668), (3255666, 0), (0, 57)], [(0,
    6389754051916), (6720826, 0), (1086, 0)], [(1712488241, 0), (6566, 0)]], 3, 4⟩, ⟨[[(10787011339649024, 0), (0,
    1832171735775243), (456166275, 0), (0, 117255), (0, 4)], [(0, 31168122523647500), (0, 122341450322), (0,
    2079639), (0, 125)], [(3972222028027, 0), (32723592, 0), (7, 0)], [(0, 490895006), (1118, 0), (1, 0)]], 3, 4⟩,
    72057594037927936, 46616279377, 14511394951, ⟨[[(14078794435461, 0), (829437182, 0), (654847, 0), (738, 0), (1,
    0)], [(1098650964, 0), (113122, 0), (0, 317), (0, 1)], [(0, 234666), (27, 0)], [(50, 0)]], 3, 4⟩, 17592186044416,
    68808,
    4095157551985650959853577900580297746518559529867075266489174617126183971210326371798767317512136893815257031157040198492684692,
    lc0⟩)) (.leaf ⟨3035, 16, 5275, 976, 16, 4545, ⟨[[(0, 27632788102021120), (0, 3198920882596769), (17036154688, 0),
    (0, 406568), (0, 18)], [(14485030185283837, 0), (0, 1278562935347), (8592917, 0), (0, 277)], [(0, 3913785971237),
    (8800688, 0), (2872, 0)], [(1059617770, 0), (7421, 0), (1, 0)]], 3, 4⟩, ⟨[[(0, 33319855923412992), (0,
    2610175741598558), (1305915878, 0), (0, 674237), (0, 43)], [(0, 21881307157690654), (0, 168429242929), (0,
    5636820), (0, 687)], [(2772030752796, 0), (46646131, 0), (180, 0)], [(0, 341285194), (1370, 0), (1, 0)]], 3, 4⟩,
    72057594037927936, 32161827928, 15782513830, ⟨[[(14094955162999, 0), (1151990814, 0), (1239078, 0), (1845, 0),
    (5, 0)], [(1715383955, 0), (268667, 0), (0, 910), (0, 3)], [(0, 576892), (85, 0)], [(194, 0)]], 3, 4⟩,
    17592186044416, 99635,
    3284805015864065953169663319578409217512915565467969798903815154337367854903243127678700421914329559239329025574921864411311413,
    lc0⟩)) (.sx (.leaf ⟨3071, 16, 5392, 966, 16, 4525, ⟨[[(0, 10319546092552192), (0, 3198163400061299),
    (16413901823, 0), (0, 442173), (0, 20)], [(14493816728591454, 0), (0, 1299285021840), (8085607, 0), (0, 317)],
    [(0, 4133890020529), (10864079, 0), (2926, 0)], [(1112281521, 0), (9522, 0), (1, 0)]], 3, 4⟩, ⟨[[(0,
    2870403932094464), (0, 2590529936341892), (504043214, 0), (0, 729874), (0, 46)], [(0, 22106296847106487), (0,
    177763597581), (0, 6712963), (0, 764)], [(2826354194684, 0), (46317605, 0), (79, 0)], [(0, 346326116), (2717, 0),
    (2, 0)]], 3, 4⟩, 72057594037927936, 33684621960, 15944752817, ⟨[[(14035340319995, 0), (1134495824, 0), (1246068,
    0), (1832, 0), (5, 0)], [(1711781392, 0), (268922, 0), (0, 871), (0, 3)], [(0, 570096), (83, 0)], [(191, 0)]], 3,
    4⟩, 17592186044416, 118285,
    3806048049007316561480966490635744523103229156161140882611575719160180999094853045358346047083808946906635006249086294976277051,
    lc0⟩) (.leaf ⟨3062, 16, 5361, 956, 16, 4538, ⟨[[(0, 35917009823301632), (0, 3234012822762081), (16662413430, 0),
    (0, 452670), (0, 21)], [(14071045911950501, 0), (0, 1290858720672), (8290936, 0), (0, 306)], [(0, 3972354615982),
    (11956535, 0), (3086, 0)], [(1081003791, 0), (8862, 0), (1, 0)]], 3, 4⟩, ⟨[[(0, 8482428121653248), (0,
    2605377720091587), (222993012, 0), (0, 764054), (0, 48)], [(0, 21933535271110406), (0, 174357795951), (0,
    6717297), (0, 761)], [(2791194770954, 0), (46801931, 0), (276, 0)], [(0, 339708845), (2844, 0), (2, 0)]], 3, 4⟩,
    72057594037927936, 33220954033, 15296229908, ⟨[[(14035915565318, 0), (1102960018, 0), (1167496, 0), (1547, 0),
    (4, 0)], [(1708138982, 0), (292132, 0), (0, 781), (0, 2)], [(0, 572714), (77, 0)], [(192, 0)]], 3, 4⟩,
    17592186044416, 91313,
    3925041820138940527078789414444276366834783210682048540864137269082991035174026958202629911504324007025070845373781910622964831,
    lc0⟩))) (.sy (.leaf ⟨2375, 16, 4112, 681, 16, 3235, ⟨[[(19426901818638336, 0), (0, 2556403988287069),
    (13711247572, 0), (0, 330212), (0, 15)], [(21833540930864655, 0), (0, 1991485275644), (13983434, 0), (0, 410)],
    [(0, 11589598526282), (31548397, 0), (9667, 0)], [(6387781100, 0), (40602, 0), (7, 0)]], 3, 4⟩, ⟨[[(0,
    10765256562368512), (0, 1865268466633563), (677504190, 0), (0, 510533), (0, 32)], [(0, 30657481595635602), (0,
    231375268530), (0, 7968529), (0, 966)], [(7711485427715, 0), (133585037, 0), (1254, 0)], [(0, 1882092750), (8624,
    0), (8, 0)]], 3, 4⟩, 72057594037927936, 345353639020, 100688821228, ⟨[[(14093212068626, 0), (1559177777, 0),
    (2238840, 0), (4061, 0), (16, 0)], [(2176214631, 0), (545642, 0), (0, 1961), (0, 6)], [(0, 940726), (172, 0), (1,
    0)], [(404, 0)]], 3, 4⟩, 17592186044416, 222930,
    4618865113189705330634977463124097487820711903148834306878174778642438960025223381974470038884203037877584884326464550685089506,
    lc0⟩) (.leaf ⟨2410, 16, 4204, 666, 16, 3228, ⟨[[(18243434993352704, 0), (0, 2599788816996294), (13485843112, 0),
    (0, 369689), (0, 17)], [(21303490126486860, 0), (0, 2022014052943), (13638886, 0), (0, 454)], [(0,
    11830166615863), (42479249, 0), (10498, 0)], [(6553538120, 0), (49643, 0), (9, 0)]], 3, 4⟩,
    ⟨[[(29705226124017664, 0), (0, 1860955362253915), (0, 141352136), (0, 577393), (0, 36)], [(0, 30709171908191220),
    (0, 239612324493), (0, 9480891), (0, 1069)], [(7762058001321, 0), (134727496, 0), (1607, 0)], [(0, 1871683110),
    (16784, 0), (9, 0)]], 3, 4⟩, 72057594037927936, 358282463017, 102201976204, ⟨[[(14033709745014, 0), (1493281704,
    0), (2130410, 0), (3379, 0), (14, 0)], [(2154121594, 0), (578253, 0), (0, 1730), (0, 4)], [(0, 923181), (160,
    0)], [(393, 0)]], 3, 4⟩, 17592186044416, 198118,
    3861628711745478142511289395032082312216482186423284832205444369508268315644353363106881421367153445088693153833228574257685553,
    lc0⟩))) (.sx (.leaf ⟨1539, 16, 2729, 464, 16, 2254, ⟨[[(25448310703734784, 0), (0, 3240450954748122),
    (31374799904, 0), (0, 2087294), (0, 193)], [(13511554770193268, 0), (0, 2605517833619), (30200552, 0), (0,
    2867)], [(0, 8206896755769), (65589001, 0), (26677, 0), (2, 0)], [(4484189047, 0), (93405, 0), (27, 0)]], 3, 4⟩,
    ⟨[[(33158316033794048, 0), (0, 2585298905211705), (0, 2971241809), (0, 3587160), (0, 443)], [(0,
    22041456215028328), (0, 373153648620), (0, 34135433), (0, 7062), (0, 1)], [(5658247835761, 0), (186773490, 0),
    (2628, 0), (1, 0)], [(0, 1352756551), (42370, 0), (29, 0)]], 3, 4⟩, 72057594037927936, 283352383363,
    140878077843, ⟨[[(13945664813540, 0), (2097085655, 0), (4477233, 0), (10160, 0), (63, 0)], [(3431417011, 0),
    (1258227, 0), (0, 5489), (0, 19)], [(0, 2305758), (596, 0), (2, 0)], [(1562, 0), (0, 1)]], 3, 4⟩, 17592186044416,
    980736,
    4917158184773937511549055558525322687149608026806515172798459696575750344202210123223286981857167071993795100953165979191873233,
    lc0⟩) (.leaf ⟨1529, 16, 2697, 454, 16, 2266, ⟨[[(0, 7789409482883072), (0, 3310481299037489), (32308933090, 0),
    (0, 2177706), (0, 200)], [(12694919554882693, 0), (0, 2569050523267), (32201819, 0), (0, 2630)], [(0,
    7564964826913), (75798652, 0), (29704, 0), (3, 0)], [(4231594643, 0), (81798, 0), (26, 0)]], 3, 4⟩,
    ⟨[[(11177826282692608, 0), (0, 2614484191679103), (0, 4421582006), (0, 3902070), (0, 475)], [(0,
    21688069947592591), (0, 359140728197), (0, 33942927), (0, 6980), (0, 1)], [(5520764287499, 0), (193185450, 0),
    (6246, 0), (2, 0)], [(0, 1301422329), (43162, 0), (28, 0)]], 3, 4⟩, 72057594037927936, 271707952697,
    138266678110, ⟨[[(13947974151034, 0), (1990991656, 0), (4067433, 0), (7306, 0), (43, 0)], [(3417719206, 0),
    (1405535, 0), (0, 4984), (0, 8)], [(0, 2329359), (552, 0), (1, 0)], [(1585, 0), (0, 1)]], 3, 4⟩, 17592186044416,
    703759,
    4651451860021062510224638946221535657321553939027888507524495245933815496416733087946939351950628455558499575235485192134945065,
    lc0⟩))
theorem c72 : checkR job con0 false ⟨7, 9, 7, 9, 13, 17⟩ 1 34400 t72 699 21 1280 30243 251 32000 = true := by decide +kernel

def t73 : CTree :=
  .sx (.sy (.sx (.sy (.sx (.leaf ⟨3188, 16, 5781, 949, 16, 4447, ⟨[[(5563743463374848, 0), (0, 3148825093389711),
    (14061929137, 0), (0, 548843), (0, 26)], [(15046594958533477, 0), (0, 1375415300395), (5840771, 0), (0, 480)],
    [(0, 5046831269207), (13458371, 0), (2678, 0)], [(1328578316, 0), (18032, 0), (2, 0)]], 3, 4⟩, ⟨[[(0,
    34397498801274880), (0, 2515035608166769), (0, 1665030680), (0, 870630), (0, 55)], [(0, 22991591569794228), (0,
    215076369463), (0, 10500279), (0, 1025)], [(3022535657847, 0), (42220159, 0), (0, 709)], [(0, 367031973), (7405,
    0), (2, 0)]], 3, 4⟩, 72057594037927936, 40266622615, 18543872526, ⟨[[(13862410782910, 0), (1127612405, 0),
    (1378658, 0), (2218, 0), (7, 0)], [(1705584213, 0), (238665, 0), (0, 895), (0, 3)], [(0, 548730), (92, 0)],
    [(183, 0)]], 3, 4⟩, 17592186044416, 115327,
    4750060119701639879046541519899377065115141520131053695120029866710705154141552657470007418076493536495906540925617531939044778,
    lc0⟩) (.leaf ⟨3181, 16, 5752, 938, 16, 4459, ⟨[[(0, 22407824575037440), (0, 3190481937886380), (14240328311, 0),
    (0, 565981), (0, 26)], [(14556250084008302, 0), (0, 1367296767263), (6046559, 0), (0, 470)], [(0, 4856843262773),
    (15618304, 0), (2933, 0)], [(1292008883, 0), (17409, 0), (2, 0)]], 3, 4⟩, ⟨[[(0, 20263258137952256), (0,
    2530804652389946), (0, 2112817409), (0, 916133), (0, 57)], [(0, 22800985956730621), (0, 212060886727), (0,
    10576772), (0, 1027)], [(2984914865248, 0), (43287109, 0), (0, 436)], [(0, 358674937), (7692, 0), (2, 0)]], 3,
    4⟩, 72057594037927936, 40160626516, 18045968941, ⟨[[(13862746728662, 0), (1090893761, 0), (1282289, 0), (1817,
    0), (6, 0)], [(1700836549, 0), (263477, 0), (0, 783), (0, 2)], [(0, 550492), (84, 0)], [(184, 0)]], 3, 4⟩,
    17592186044416, 81626,
    4502597368145354729045864859428249671819981101901663671201567754941911998833249274032845095899610172353694549814042748724214448,
    lc0⟩)) (.leaf ⟨2507, 16, 4571, 643, 16, 3092, ⟨[[(0, 16610309870256128), (0, 2501672674666860), (10518864584, 0),
    (0, 485387), (0, 23)], [(22372923004047412, 0), (0, 2165262699048), (8233219, 0), (0, 823)], [(0,
    15673332214888), (55297439, 0), (9371, 0)], [(8368418912, 0), (126751, 0), (15, 0)]], 3, 4⟩, ⟨[[(0,
    25088445839310848), (0, 1753637801788632), (0, 2306326714), (0, 702661), (0, 43)], [(0, 31949026885918141), (0,
    312415969606), (0, 16891307), (0, 1568)], [(8401592342246, 0), (117166861, 0), (0, 1527)], [(0, 1991104005),
    (54731, 0), (13, 0)]], 3, 4⟩, 72057594037927936, 457447774423, 133993385733, ⟨[[(13806202230698, 0), (1523877512,
    0), (2593075, 0), (4856, 0), (24, 0)], [(2173556539, 0), (499426, 0), (0, 1909), (0, 7)], [(0, 896653), (196, 0),
    (1, 0)], [(385, 0)]], 3, 4⟩, 17592186044416, 314674,
    4601807133720722648442558180830902477883545910820031471825751844076977037154911189068621701464749870350815947555869048125584846,
    lc0⟩)) (.sy (.leaf ⟨2490, 16, 4485, 645, 16, 3135, ⟨[[(0, 14920982424387584), (0, 2554824534452939),
    (11410110155, 0), (0, 464028), (0, 22)], [(21769243050351003, 0), (0, 2128854443133), (10045202, 0), (0, 709)],
    [(0, 14399440329448), (58721722, 0), (10404, 0)], [(7786254998, 0), (103156, 0), (13, 0)]], 3, 4⟩,
    ⟨[[(27617695983091712, 0), (0, 1788609769975540), (0, 1954783961), (0, 689498), (0, 42)], [(0,
    31538569940655055), (0, 290388419254), (0, 14913607), (0, 1437)], [(8207342625707, 0), (125905339, 0), (0, 81)],
    [(0, 1943404571), (44853, 0), (12, 0)]], 3, 4⟩, 72057594037927936, 429271765940, 122081268184,
    ⟨[[(13861770601375, 0), (1484679955, 0), (2378542, 0), (3924, 0), (19, 0)], [(2156475614, 0), (538570, 0), (0,
    1750), (0, 5)], [(0, 896953), (176, 0)], [(382, 0)]], 3, 4⟩, 17592186044416, 282977,
    4403852078579904066793494223909363596834335065504190415649107812439817464637617480014942186653825331813749320885432963185740112,
    lc0⟩) (.leaf ⟨2529, 16, 4589, 631, 16, 3124, ⟨[[(25648697005768704, 0), (0, 2602715852457835), (10925164279, 0),
    (0, 521315), (0, 24)], [(21183067370135412, 0), (0, 2168464768735), (9136331, 0), (0, 792)], [(0,
    14700440468312), (71105550, 0), (11324, 0)], [(8023355036, 0), (120015, 0), (15, 0)]], 3, 4⟩, ⟨[[(0,
    22062784786554880), (0, 1784831009019599), (0, 3048698681), (0, 776312), (0, 47)], [(0, 31577102503153701), (0,
    305408435411), (0, 17124692), (0, 1575)], [(8241525555242, 0), (125492873, 0), (144, 0)], [(0, 1911021962),
    (57364, 0), (13, 0)]], 3, 4⟩, 72057594037927936, 443846239958, 123072773177, ⟨[[(13804929609884, 0), (1424634691,
    0), (2300287, 0), (3220, 0), (16, 0)], [(2133738193, 0), (560948, 0), (0, 1617), (0, 2)], [(0, 879265), (169,
    0)], [(374, 0)]], 3, 4⟩, 17592186044416, 235906,
    4325788325835498214062491210580339481266569511568678198237786712139229882726921377707187184641450438384260770182607565548947527,
    lc0⟩))) (.sx (.sy (.leaf ⟨2547, 16, 4677, 628, 16, 3080, ⟨[[(7563722237935616, 0), (0, 2549267277304366),
    (9978703366, 0), (0, 545375), (0, 25)], [(21781589630778892, 0), (0, 2207672380808), (7098134, 0), (0, 920)],
    [(0, 16005927539619), (66477127, 0), (10139, 0)], [(8631626425, 0), (146095, 0), (17, 0)]], 3, 4⟩, ⟨[[(0,
    1524818439913472), (0, 1749690034385214), (0, 3418830590), (0, 790929), (0, 48)], [(0, 31985699854602770), (0,
    329315064871), (0, 19291525), (0, 1715)], [(8427197906951, 0), (115220520, 0), (0, 1448)], [(0, 1952540333),
    (68569, 0), (15, 0)]], 3, 4⟩, 72057594037927936, 472729385879, 136278207136, ⟨[[(13748776526412, 0), (1456946495,
    0), (2481230, 0), (3885, 0), (20, 0)], [(2149395273, 0), (527965, 0), (0, 1713), (0, 4)], [(0, 878817), (185, 0),
    (1, 0)], [(377, 0)]], 3, 4⟩, 17592186044416, 281512,
    4776552734953454464921322184811309599385689950758186309038995107046545060532395794142743447077600228508300603772384311253060020,
    lc0⟩) (.leaf ⟨2589, 16, 4788, 613, 16, 3067, ⟨[[(29485761235845120, 0), (0, 2599948594441801), (9334246321, 0),
    (0, 612842), (0, 28)], [(21165691118088613, 0), (0, 2253505582662), (5782822, 0), (0, 1030)], [(0,
    16348967640964), (78789449, 0), (11017, 0)], [(8916179511, 0), (168296, 0), (20, 0)]], 3, 4⟩,
    ⟨[[(12748381671260160, 0), (0, 1746343046866466), (0, 4664699191), (0, 887760), (0, 52)], [(0,
    32020375796880469), (0, 348543608083), (0, 21903831), (0, 1872)], [(8448868674845, 0), (113328215, 0), (0,
    1357)], [(0, 1906207199), (83736, 0), (16, 0)]], 3, 4⟩, 72057594037927936, 488411522636, 137977980007,
    ⟨[[(13692183318870, 0), (1392728783, 0), (2403583, 0), (3062, 0), (17, 0)], [(2124300775, 0), (552151, 0), (0,
    1621), (0, 1)], [(0, 860593), (171, 0), (1, 0)], [(368, 0)]], 3, 4⟩, 17592186044416, 248098,
    3937617763172707524345689805415863043834755450005265065867016801934807107246576401569152724065092345452741973715469568861559286,
    lc0⟩)) (.leaf ⟨1605, 16, 2943, 434, 16, 2214, ⟨[[(0, 19651319364272128), (0, 3318416470309688), (24783453617, 0),
    (0, 3075783), (0, 285)], [(12540966522032088, 0), (0, 2765500840758), (18533213, 0), (0, 4634)], [(0,
    9389038179521), (114182728, 0), (32074, 0), (3, 0)], [(5209316775, 0), (185899, 0), (46, 0)]], 3, 4⟩, ⟨[[(0,
    18866581259100160), (0, 2538340881000064), (0, 14088534171), (0, 5263179), (0, 616)], [(0, 22549265318384744),
    (0, 473427457674), (0, 59375096), (0, 10269), (0, 1)], [(5907902832981, 0), (178585488, 0), (1508, 0), (1, 0)],
    [(0, 1318136337), (111843, 0), (44, 0)]], 3, 4⟩, 72057594037927936, 345357419217, 139197975570,
    ⟨[[(13722665498716, 0), (1870669635, 0), (4361397, 0), (6320, 0), (45, 0)], [(3383683130, 0), (1345010, 0), (0,
    4906)], [(0, 2219486), (547, 0), (3, 0)], [(1512, 0)]], 3, 4⟩, 17592186044416, 827410,
    3552758173829807002986263086021157304298071678872652865395820180908330867890242265152297042625331058709427871213494593201286535,
    lc0⟩))) (.sy (.leaf ⟨1247, 16, 2238, 309, 16, 1581, ⟨[[(0, 11169329125851136), (0, 2677330202261692),
    (23346946849, 0), (0, 2119346), (0, 196)], [(19474885317342165, 0), (0, 4220750202907), (43983015, 0), (0,
    5373)], [(0, 25863191972240), (333961550, 0), (106723, 0), (10, 0)], [(29087114543, 0), (776948, 0), (220, 0)]],
    3, 4⟩, ⟨[[(0, 27740941703704576), (0, 1823566339265041), (0, 7053043176), (0, 3337696), (0, 396)], [(0,
    30860277929472835), (0, 568201910202), (0, 64026422), (0, 11934), (0, 1)], [(15909285627783, 0), (547300041, 0),
    (19143, 0), (5, 0)], [(0, 7259719647), (418048, 0), (195, 0)]], 3, 4⟩, 72057594037927936, 3313719519436,
    831174821430, ⟨[[(13835408262284, 0), (2671110951, 0), (8177650, 0), (16718, 0), (148, 0)], [(4250930625, 0),
    (2566033, 0), (0, 12194), (0, 4), (0, 1)], [(0, 3581956), (1185, 0), (7, 0)], [(3051, 0), (0, 2)]], 3, 4⟩,
    17592186044416, 2947884,
    4653850084681046299399131059853501489405111970441513218647501029945100059561266057164306067208855706358469455817834477720316913,
    lc0⟩) (.sx (.leaf ⟨1594, 16, 2910, 423, 16, 2224, ⟨[[(0, 18798645842706432), (0, 3395842950860702), (25334532153,
    0), (0, 3228155), (0, 298)], [(11647348567793632, 0), (0, 2724053203743), (21229635, 0), (0, 4305)], [(0,
    8649646423182), (135388150, 0), (37424, 0), (4, 0)], [(4915624438, 0), (172770, 0), (45, 0)]], 3, 4⟩, ⟨[[(0,
    26042183606505472), (0, 2569454813582357), (0, 16651284984), (0, 5717891), (0, 658)], [(0, 22159498503395154),
    (0, 459901201485), (0, 59285955), (0, 10196), (0, 1)], [(5771892444735, 0), (193575948, 0), (6967, 0), (2, 0)],
    [(0, 1259686460), (112428, 0), (43, 0)]], 3, 4⟩, 72057594037927936, 333274792144, 133586900927,
    ⟨[[(13722948116693, 0), (1763417628, 0), (4083238, 0), (4434, 0), (27, 0)], [(3372043649, 0), (1488997, 0), (0,
    4967), (5, 0)], [(0, 2244225), (458, 0), (4, 0)], [(1529, 0)]], 3, 4⟩, 17592186044416, 600425,
    3508736175973632162768695636493126989994955957585281683560255806385977024933205842737622010221147247462260953919884705757695728,
    lc0⟩) (.leaf ⟨1581, 16, 2874, 412, 16, 2235, ⟨[[(0, 34340324926537728), (0, 3466579088464993), (25970208578, 0),
    (0, 3359877), (0, 308)], [(10810967256148750, 0), (0, 2678240530053), (24305563, 0), (0, 3911)], [(0,
    7945192588753), (154422122, 0), (42506, 0), (4, 0)], [(4629649550, 0), (157752, 0), (43, 0)]], 3, 4⟩, ⟨[[(0,
    7943195632857088), (0, 2601223333961585), (0, 19220470557), (0, 6172962), (0, 700)], [(0, 21788458622403605), (0,
    445239839922), (0, 58766918), (0, 10067), (0, 1)], [(5644608889411, 0), (208663871, 0), (12305, 0), (2, 0)], [(0,
    1208812497), (110983, 0), (41, 0)]], 3, 4⟩, 72057594037927936, 320896312833, 130875518919, ⟨[[(13723359819330,
    0), (1661895991, 0), (3860262, 0), (3316, 0), (15, 0)], [(3362996099, 0), (1638052, 0), (0, 5132), (6, 0)], [(0,
    2274566), (354, 0), (5, 0)], [(1549, 0)]], 3, 4⟩, 17592186044416, 461148,
    4526686297524661236511049235777891081284440672515576042072452316344389022101488537983218632156187862601992190802889480356835900,
    lc0⟩)))
theorem c73 : checkR job con0 false ⟨7, 9, 7, 9, 13, 17⟩ 1 34400 t73 339 21 640 30745 251 32000 = true := by decide +kernel

def t74 : CTree :=
  .sx (.sy (.sy (.out ⟨2802, 16, 12278, 30025, 16, 44966, ⟨[[(0, 9145996959711232), (0, 1404573075225187),
    (1303637357, 0)], [(34877090224516315, 0), (0, 725356754768), (211510, 0)], [(0, 13859101252739), (0, 2491236),
    (35, 0)]], 2, 2⟩, ⟨[[(0, 27226658399322112), (0, 4360255376159366), (8787524413, 0)]], 2, 2⟩, 72057594037927936,
    32678856966464, 280196304868, ⟨[], 0, 0⟩, 0, 0, 0, lc0⟩ 1 1 33199477327) (.out ⟨2813, 16, 12368, 30055, 16,
    45057, ⟨[[(0, 31778520719228928), (0, 1413564188863951), (1285634852, 0)], [(34765998303110619, 0), (0,
    730477087736), (178571, 0)], [(0, 13961942127301), (0, 2475714), (32, 0)]], 2, 2⟩, ⟨[[(0, 1625623986962432), (0,
    4360252317216481), (8778636767, 0)]], 2, 2⟩, 72057594037927936, 32999330399275, 279629835375, ⟨[], 0, 0⟩, 0, 0,
    0, lc0⟩ 1 1 27711655192)) (.sy (.out ⟨2823, 16, 12459, 30085, 16, 45148, ⟨[[(24296017742823424, 0), (0,
    1422678701276037), (1266677926, 0)], [(34652440795181245, 0), (0, 735688889653), (144336, 0)], [(0,
    14065914177556), (0, 2464187), (27, 0)]], 2, 2⟩, ⟨[[(19558439540490240, 0), (0, 4360240380599412), (8769749212,
    0)]], 2, 2⟩, 72057594037927936, 33325534804360, 279064388620, ⟨[], 0, 0⟩, 0, 0, 0, lc0⟩ 1 1 23244640901) (.sy
    (.out ⟨3394, 16, 15016, 60232, 16, 90456, ⟨[[(0, 12717395444793344), (0, 856759916516832), (375106956, 0)],
    [(41430460245284638, 0), (0, 443278982908), (35294, 0)], [(0, 16953819927929), (0, 1473238), (7, 0)]], 2, 2⟩,
    ⟨[[(0, 32321257976365056), (0, 4361358692875337), (4382680433, 0)]], 2, 2⟩, 72057594037927936, 39864402253992,
    69660907572, ⟨[], 0, 0⟩, 0, 0, 0, lc0⟩ 1 1 19411591767) (.out ⟨3403, 16, 15082, 60262, 16, 90547, ⟨[[(0,
    18248249212829696), (0, 860149611486151), (372303221, 0)], [(41389064376753097, 0), (0, 445194530992), (29882,
    0)], [(0, 17029078277053), (0, 1472696), (7, 0)]], 2, 2⟩, ⟨[[(0, 18306530823110656), (0, 4361344973502180),
    (4380456907, 0)]], 2, 2⟩, 72057594037927936, 40087661328447, 69590555011, ⟨[], 0, 0⟩, 0, 0, 0, lc0⟩ 1 1
    16918556303)))) (.sy (.sx (.sy (.out ⟨4290, 16, 18700, 30025, 16, 44966, ⟨[[(23334229806219264, 0), (0,
    2174036903839917), (1995721958, 0)], [(25902704783503869, 0), (0, 552461592853), (163578, 0)], [(0,
    5152847253790), (0, 393021), (26, 0)]], 2, 2⟩, ⟨[[(0, 27226658399322112), (0, 4360255376159366), (8787524413,
    0)]], 2, 2⟩, 72057594037927936, 6512511262126, 280196304868, ⟨[], 0, 0⟩, 0, 0, 0, lc0⟩ 1 1 21212470437) (.out
    ⟨4300, 16, 18809, 30055, 16, 45057, ⟨[[(7532276925005824, 0), (0, 2184715499617381), (1963786451, 0)],
    [(25774775445633560, 0), (0, 555529838436), (138127, 0)], [(0, 5183074437362), (0, 369321), (25, 0)]], 2, 2⟩,
    ⟨[[(0, 1625623986962432), (0, 4360252317216481), (8778636767, 0)]], 2, 2⟩, 72057594037927936, 6575398953851,
    279629835375, ⟨[], 0, 0⟩, 0, 0, 0, lc0⟩ 1 1 15989893700)) (.sy (.sy (.out ⟨5783, 16, 25095, 60049, 16, 89909,
    ⟨[[(0, 17904086687547392), (0, 1474663258620567), (675547995, 0)], [(34277676067681536, 0), (0, 370736063919),
    (57924, 0)], [(0, 6805445619331), (0, 21094), (12, 0)]], 2, 2⟩, ⟨[[(5399243536203776, 0), (0, 4361346187546374),
    (4395973269, 0)]], 2, 2⟩, 72057594037927936, 8101213670513, 70084609334, ⟨[], 0, 0⟩, 0, 0, 0, lc0⟩ 1 1
    13988220599) (.out ⟨5794, 16, 25189, 60079, 16, 90000, ⟨[[(7406388107804672, 0), (0, 1479509915291440),
    (670685977, 0)], [(34219279881869385, 0), (0, 372068578653), (53755, 0)], [(0, 6830944868776), (0, 9301), (12,
    0)]], 2, 2⟩, ⟨[[(32665746332450816, 0), (0, 4361345783101378), (4393749687, 0)]], 2, 2⟩, 72057594037927936,
    8141743265860, 70013484267, ⟨[], 0, 0⟩, 0, 0, 0, lc0⟩ 1 1 11586128627)) (.leaf ⟨10148, 16, 19242, 2594, 16,
    11817, ⟨[[(32626569033416704, 0), (0, 2258879423630877), (2014980470, 0), (0, 30706)], [(25926275758833094, 0),
    (0, 568333975684), (143866, 0), (0, 18)], [(0, 5218192414667), (12517, 0), (35, 0)], [(664561658, 0), (3098,
    0)]], 3, 4⟩, ⟨[[(24044999603945472, 0), (0, 1630322065391387), (0, 545025964), (0, 40812), (0, 1)], [(0,
    33622368973133239), (0, 95492841695), (0, 1375740), (0, 30)], [(2276842046108, 0), (4284265, 0), (0, 140)], [(0,
    141913109), (1140, 0)]], 3, 4⟩, 72057594037927936, 10116635246, 4533050201, ⟨[[(13644870399161, 0), (446133573,
    0), (252652, 0), (217, 0)], [(563212799, 0), (15845, 0), (0, 63)], [(0, 56966), (6, 0)], [(6, 0)]], 3, 4⟩,
    17592186044416, 34780,
    4254689716016504011479006587886227726826942027173767893668170578287165490996008489494687416358582973455286988791827185391156503,
    lc0⟩))) (.sx (.sy (.sy (.out ⟨5764, 16, 25281, 60171, 16, 90274, ⟨[[(28266648477368320, 0), (0,
    1467242417099515), (648670620, 0)], [(34362532366980980, 0), (0, 373276413788), (39625, 0)], [(0, 6966703745353),
    (0, 235654), (8, 0)]], 2, 2⟩, ⟨[[(5114856603123712, 0), (0, 4361379542246208), (4387127594, 0)]], 2, 2⟩,
    72057594037927936, 8291218513534, 69802153292, ⟨[], 0, 0⟩, 0, 0, 0, lc0⟩ 1 1 12424351992) (.out ⟨5776, 16, 25376,
    60201, 16, 90365, ⟨[[(0, 14729236824784896), (0, 1472106065524937), (643499533, 0)], [(34303579340954990, 0), (0,
    374641474077), (35165, 0)], [(0, 6992999658779), (0, 228411), (8, 0)]], 2, 2⟩, ⟨[[(23525376208666624, 0), (0,
    4361370218013587), (4384903998, 0)]], 2, 2⟩, 72057594037927936, 8333094884178, 69731463606, ⟨[], 0, 0⟩, 0, 0, 0,
    lc0⟩ 1 1 9742550387)) (.leaf ⟨10190, 16, 19410, 2579, 16, 11761, ⟨[[(21605446030983168, 0), (0,
    2250546741821300), (1933410699, 0), (0, 31642)], [(26022902655321027, 0), (0, 573050541046), (86138, 0), (0,
    19)], [(0, 5349045359052), (0, 331388), (23, 0)], [(681055363, 0), (3276, 0)]], 3, 4⟩, ⟨[[(2859844497145856, 0),
    (0, 1619692905272441), (0, 607721568), (0, 42001), (0, 1)], [(0, 33751307101787270), (0, 98207607172), (0,
    1447367), (0, 31)], [(2287995677279, 0), (3821236, 0), (0, 153)], [(0, 142595263), (1224, 0)]], 3, 4⟩,
    72057594037927936, 10312322423, 4577299901, ⟨[[(13617519300201, 0), (446144056, 0), (256223, 0), (222, 0)],
    [(563554506, 0), (15527, 0), (0, 64)], [(0, 56869), (7, 0)], [(6, 0)]], 3, 4⟩, 17592186044416, 36401,
    3768126189342778126120536354953909502082719457225195525404979299302654343033746642158936849863387116555869265345343557265741367,
    lc0⟩)) (.leaf ⟨6744, 16, 12817, 1883, 16, 8633, ⟨[[(8702757848088576, 0), (0, 3005284369304127), (5180597658, 0),
    (0, 169433), (0, 4)], [(16984352769771956, 0), (0, 756881938903), (271830, 0), (0, 100)], [(0, 3475792536142),
    (85556, 0), (89, 0)], [(444243570, 0), (4279, 0)]], 3, 4⟩, ⟨[[(0, 10038654513479680), (0, 2383390955692694), (0,
    1868667580), (0, 250218), (0, 8)], [(0, 24616190316274018), (0, 142627632911), (0, 4218801), (0, 179)],
    [(1665662566651, 0), (5946667, 0), (0, 422)], [(0, 103021304), (1811, 0)]], 3, 4⟩, 72057594037927936, 6576427386,
    3288632032, ⟨[[(13624411929734, 0), (598921788, 0), (456678, 0), (514, 0), (1, 0)], [(849137368, 0), (36074, 0),
    (0, 163)], [(0, 129625), (19, 0)], [(22, 0)]], 3, 4⟩, 17592186044416, 42528,
    2648659712312433753783598947494587614281444473364106142903838337709076164897882215941488219514444229005168950139537008241800461,
    lc0⟩)))
theorem c74 : checkR job con0 false ⟨7, 9, 7, 9, 13, 17⟩ 1 34400 t74 1125 21 2560 124235 251 128000 = true := by decide +kernel

def t75 : CTree :=
  .sx (.sy (.sx (.sy (.out ⟨4272, 16, 19018, 30146, 16, 45331, ⟨[[(0, 9660145796972544), (0, 2156062784269288),
    (1842547383, 0)], [(26110288946038260, 0), (0, 561286625085), (53798, 0)], [(0, 5411614097908), (0, 1129008), (2,
    0)]], 2, 2⟩, ⟨[[(24591717687099392, 0), (0, 4360286276628755), (8752167879, 0)]], 2, 2⟩, 72057594037927936,
    6840186910065, 277943466480, ⟨[], 0, 0⟩, 0, 0, 0, lc0⟩ 1 1 17254205608) (.sy (.out ⟨5702, 16, 25452, 60353, 16,
    90822, ⟨[[(987336135737344, 0), (0, 1441821559986139), (604991936, 0)], [(34660879871790257, 0), (0,
    375566390762), (10747, 0)], [(0, 7242991590890), (0, 754640)]], 2, 2⟩, ⟨[[(34303954389565440, 0), (0,
    4361386758895619), (4373882942, 0)]], 2, 2⟩, 72057594037927936, 8594181450169, 69381236266, ⟨[], 0, 0⟩, 0, 0, 0,
    lc0⟩ 1 1 13852900210) (.out ⟨5713, 16, 25547, 60384, 16, 90913, ⟨[[(15601722106118144, 0), (0, 1446597409205328),
    (599453983, 0)], [(34601016434866548, 0), (0, 376959834059), (5865, 0)], [(0, 7270406360522), (0, 757284)]], 2,
    2⟩, ⟨[[(0, 32538895725887488), (0, 4361364232257480), (4371659490, 0)]], 2, 2⟩, 72057594037927936, 8637728404296,
    69310984132, ⟨[], 0, 0⟩, 0, 0, 0, lc0⟩ 1 1 11810484620))) (.leaf ⟨6780, 16, 12964, 1887, 16, 8596,
    ⟨[[(27729328186851328, 0), (0, 2970333849330320), (4966360549, 0), (0, 170609), (0, 4)], [(17395141017548590, 0),
    (0, 765297881395), (108837, 0), (0, 105)], [(0, 3630645603473), (0, 968389), (30, 0)], [(461601166, 0), (4526,
    0)]], 3, 4⟩, ⟨[[(5172224089882624, 0), (0, 2362903825062922), (0, 1875294872), (0, 249816), (0, 8)], [(0,
    24864353147853666), (0, 147251532124), (0, 4397273), (0, 184)], [(1687478258200, 0), (5002967, 0), (0, 487)],
    [(0, 105469206), (1871, 0)]], 3, 4⟩, 72057594037927936, 6762422022, 3313466747, ⟨[[(13596793764781, 0),
    (611578171, 0), (487873, 0), (591, 0), (1, 0)], [(850483545, 0), (29998, 0), (0, 184), (0, 1)], [(0, 129102),
    (21, 0)], [(22, 0)]], 3, 4⟩, 17592186044416, 57382,
    5065238463415790076262692571718868178517093882614831095820992933005080202488153271493568343446247010706531667379140380819700308,
    lc0⟩)) (.leaf ⟨5111, 16, 9809, 1273, 16, 5825, ⟨[[(0, 10391665936236544), (0, 2231621964195835), (3559605357, 0),
    (0, 133437), (0, 3)], [(25973871159655104, 0), (0, 1157988197948), (0, 82155), (0, 167)], [(0, 11078426164826),
    (0, 3755819), (23, 0)], [(2823557345, 0), (28670, 0), (1, 0)]], 3, 4⟩, ⟨[[(0, 33921305861652480), (0,
    1600444923509719), (0, 1467533705), (0, 177626), (0, 6)], [(0, 33896293158595547), (0, 205994768001), (0,
    6314465), (0, 260)], [(4598414259247, 0), (11857069, 0), (0, 1409)], [(0, 571885612), (11068, 0), (1, 0)]], 3,
    4⟩, 72057594037927936, 72698202001, 28649251687, ⟨[[(13570270715899, 0), (889361059, 0), (1040452, 0), (1818, 0),
    (5, 0)], [(1132310112, 0), (62337, 0), (0, 504), (0, 2)], [(0, 228699), (54, 0)], [(51, 0)]], 3, 4⟩,
    17592186044416, 60784,
    4655890396468409800692316246001636319203723631723918648807697399170509440919598783638536724387376195488043005780500452834364662,
    lc0⟩)) (.sy (.leaf ⟨5114, 16, 9757, 1274, 16, 5870, ⟨[[(26530877565566976, 0), (0, 2271829338042840),
    (3743086756, 0), (0, 133421), (0, 3)], [(25503590616456539, 0), (0, 1152063495332), (173414, 0), (0, 160)], [(0,
    10669534117697), (0, 336081), (214, 0)], [(2733851481, 0), (27332, 0), (1, 0)]], 3, 4⟩, ⟨[[(0,
    10534062714994688), (0, 1619890786204852), (0, 1471055137), (0, 178546), (0, 6)], [(0, 33669837973648640), (0,
    200217077579), (0, 6086128), (0, 253)], [(4555657918239, 0), (14658155, 0), (0, 1226)], [(0, 560315278), (10775,
    0), (1, 0)]], 3, 4⟩, 72057594037927936, 70884378493, 27004142251, ⟨[[(13596584939888, 0), (867011606, 0),
    (966385, 0), (1556, 0), (4, 0)], [(1123958099, 0), (73527, 0), (0, 439), (0, 2)], [(0, 226959), (47, 0)], [(51,
    0)]], 3, 4⟩, 17592186044416, 92590,
    4063789882244455734260317992473596028343994362184266049694710145231651349861479531390833823711381817769143111214140979367802469,
    lc0⟩) (.leaf ⟨5159, 16, 9872, 1260, 16, 5856, ⟨[[(0, 25389388468912128), (0, 2294907343341617), (3579136168, 0),
    (0, 141369), (0, 3)], [(25219057545408302, 0), (0, 1165590073965), (0, 73530), (0, 169)], [(0, 10795407537078),
    (0, 133107), (196, 0)], [(2780296670, 0), (29022, 0), (1, 0)]], 3, 4⟩, ⟨[[(0, 32288123254816768), (0,
    1617638270583540), (0, 1744376208), (0, 189609), (0, 6)], [(0, 33691366798703781), (0, 206029476520), (0,
    6460956), (0, 264)], [(4551821293485, 0), (13371469, 0), (0, 1271)], [(0, 553298033), (11893, 0), (1, 0)]], 3,
    4⟩, 72057594037927936, 72293671818, 26292398586, ⟨[[(13570164845879, 0), (847098630, 0), (928531, 0), (1403, 0),
    (4, 0)], [(1116839006, 0), (80528, 0), (0, 392), (0, 1)], [(0, 224465), (44, 0)], [(50, 0)]], 3, 4⟩,
    17592186044416, 65320,
    4585562330414484998219982146143585482829357687104982571439937441208164222268258507465808142216329604436590311468115845276461978,
    lc0⟩))
theorem c75 : checkR job con0 false ⟨7, 9, 7, 9, 13, 17⟩ 1 34400 t75 1125 21 2560 124737 251 128000 = true := by decide +kernel

def t76 : CTree :=
  .sy (.sx (.sy (.leaf ⟨5071, 16, 9587, 1289, 16, 5927, ⟨[[(30933862976389120, 0), (0, 2287592908827400),
    (4081624263, 0), (0, 125500), (0, 3)], [(25329474380157035, 0), (0, 1132730486069), (649156, 0), (0, 144)], [(0,
    10151551953073), (2284578, 0), (396, 0)], [(2602030639, 0), (24385, 0), (1, 0)]], 3, 4⟩, ⟨[[(29223486986174464,
    0), (0, 1641133948906872), (0, 1204462877), (0, 168571), (0, 5)], [(0, 33417726521653022), (0, 189081596401), (0,
    5498548), (0, 236)], [(4512545762584, 0), (18334814, 0), (0, 1018)], [(0, 555913065), (9358, 0), (1, 0)]], 3, 4⟩,
    72057594037927936, 68145450772, 24686324191, ⟨[[(13651100461793, 0), (867099937, 0), (939578, 0), (1482, 0), (4,
    0)], [(1122749326, 0), (76117, 0), (0, 434), (0, 2)], [(0, 227795), (45, 0)], [(50, 0)]], 3, 4⟩, 17592186044416,
    70194,
    3662106587484167026434299300300091056204001965071379100788094611245400121333479662590642951416529941494316978209749938508958329,
    lc0⟩) (.leaf ⟨5115, 16, 9700, 1275, 16, 5914, ⟨[[(6824132681990144, 0), (0, 2310507549360446), (3933982702, 0),
    (0, 133025), (0, 3)], [(25052841523102324, 0), (0, 1145534193692), (432233, 0), (0, 153)], [(0, 10269945851457),
    (2708100, 0), (390, 0)], [(2645395904, 0), (25919, 0), (1, 0)]], 3, 4⟩, ⟨[[(11875485822779392, 0), (0,
    1638870879822119), (0, 1463310301), (0, 179153), (0, 6)], [(0, 33440553229291416), (0, 194356299440), (0,
    5849738), (0, 247)], [(4511572852103, 0), (17255690, 0), (0, 1054)], [(0, 549741653), (10400, 0), (1, 0)]], 3,
    4⟩, 72057594037927936, 69090398185, 25355495072, ⟨[[(13623965071221, 0), (847132462, 0), (902748, 0), (1339, 0),
    (4, 0)], [(1115845897, 0), (83182, 0), (0, 388), (0, 1)], [(0, 225324), (42, 0)], [(50, 0)]], 3, 4⟩,
    17592186044416, 72876,
    4392597456136741424705161589834134996073937104477065640401769940574572871490930551226489267831013982100515394704329403327196530,
    lc0⟩)) (.sy (.leaf ⟨5112, 16, 9637, 1277, 16, 5959, ⟨[[(34038894155202560, 0), (0, 2347340546506320),
    (4131109350, 0), (0, 132245), (0, 3)], [(24618139611177176, 0), (0, 1138315597736), (692361, 0), (0, 145)], [(0,
    9878569940180), (5381301, 0), (551, 0)], [(2558028334, 0), (24445, 0), (1, 0)]], 3, 4⟩, ⟨[[(0, 7614639018770432),
    (0, 1657945544233229), (0, 1444880638), (0, 179503), (0, 6)], [(0, 33219973496242383), (0, 188503209186), (0,
    5608721), (0, 240)], [(4467675282545, 0), (19655019, 0), (0, 892)], [(0, 540209879), (9962, 0), (1, 0)]], 3, 4⟩,
    72057594037927936, 67075967224, 23932618957, ⟨[[(13651257442859, 0), (829984771, 0), (849530, 0), (1167, 0), (3,
    0)], [(1108799835, 0), (91122, 0), (0, 349), (0, 1)], [(0, 224048), (37, 0)], [(49, 0)]], 3, 4⟩, 17592186044416,
    50615,
    4530859066672201387411622232318424324014716231091524540236883659421629718490038509973832467742415501139806276448332357573509882,
    lc0⟩) (.leaf ⟨5156, 16, 9751, 1263, 16, 5946, ⟨[[(30101209421381632, 0), (0, 2371014244847096), (3973702716, 0),
    (0, 140173), (0, 3)], [(24331321205088451, 0), (0, 1151190574941), (474275, 0), (0, 154)], [(0, 9992553823513),
    (6003910, 0), (556, 0)], [(2601025669, 0), (26024, 0), (1, 0)]], 3, 4⟩, ⟨[[(0, 30394109317447680), (0,
    1655914373044042), (0, 1720034094), (0, 190579), (0, 6)], [(0, 33243364746091691), (0, 193894251720), (0,
    5964578), (0, 250)], [(4467547109375, 0), (18702973, 0), (0, 921)], [(0, 533772478), (11020, 0), (1, 0)]], 3, 4⟩,
    72057594037927936, 68694210337, 23037201114, ⟨[[(13623942350018, 0), (811489088, 0), (821274, 0), (1051, 0), (3,
    0)], [(1102044190, 0), (96488, 0), (0, 316), (0, 1)], [(0, 221622), (35, 0)], [(49, 0)]], 3, 4⟩, 17592186044416,
    33779,
    4610887983138053924799167017354253487735437848329733313284222281859193695691317171581710836419611752411399767930548625312813287,
    lc0⟩))) (.sx (.sy (.leaf ⟨5159, 16, 9814, 1261, 16, 5901, ⟨[[(0, 4448898367225856), (0, 2333769171041844),
    (3772757141, 0), (0, 140968), (0, 3)], [(24765550856335470, 0), (0, 1158676574589), (199529, 0), (0, 162)], [(0,
    10389170249215), (3130547, 0), (384, 0)], [(2689981799, 0), (27556, 0), (1, 0)]], 3, 4⟩, ⟨[[(0,
    2593712842899456), (0, 1636872293526051), (0, 1737882053), (0, 190244), (0, 6)], [(0, 33465899871739416), (0,
    199978130524), (0, 6215841), (0, 257)], [(4510030779731, 0), (16142847, 0), (0, 1090)], [(0, 543046484), (11491,
    0), (1, 0)]], 3, 4⟩, 72057594037927936, 70620633457, 24609522534, ⟨[[(13596756191446, 0), (827730022, 0),
    (869775, 0), (1205, 0), (3, 0)], [(1109061425, 0), (89308, 0), (0, 349), (0, 1)], [(0, 222925), (39, 0)], [(49,
    0)]], 3, 4⟩, 17592186044416, 68377,
    4666568335495128012503338203039099736194338889415815371136121833635602148940422713580574480298019315452289003895251900330662993,
    lc0⟩) (.leaf ⟨5204, 16, 9931, 1247, 16, 5887, ⟨[[(181501836853248, 0), (0, 2357868287315313), (3597873185, 0),
    (0, 149379), (0, 3)], [(24472239405167592, 0), (0, 1172412744888), (0, 49872), (0, 171)], [(0, 10511340059170),
    (3552326, 0), (378, 0)], [(2736402448, 0), (29305, 0), (1, 0)]], 3, 4⟩, ⟨[[(0, 29577382662864896), (0,
    1634876022738904), (0, 2028573111), (0, 201824), (0, 6)], [(0, 33488249096709406), (0, 205926483120), (0,
    6596214), (0, 268)], [(4507137834391, 0), (14992273, 0), (0, 1128)], [(0, 535712581), (12631, 0), (1, 0)]], 3,
    4⟩, 72057594037927936, 72016954070, 24955814775, ⟨[[(13569595455915, 0), (809310869, 0), (841512, 0), (1082, 0),
    (3, 0)], [(1102219825, 0), (94512, 0), (0, 317), (0, 1)], [(0, 220510), (37, 0)], [(49, 0)]], 3, 4⟩,
    17592186044416, 50561,
    4573684580450535928863382357624750894328453428097131876660259998442831341625158849985500005489588260774383942641884402474024227,
    lc0⟩)) (.leaf ⟨3376, 16, 6415, 904, 16, 4315, ⟨[[(2174500050305024, 0), (0, 3112138670742672), (9594025830, 0),
    (0, 790698), (0, 36)], [(15436970787480643, 0), (0, 1514105465520), (302753, 0), (0, 866)], [(0, 6570732452646),
    (8998778, 0), (1457, 0)], [(1724563271, 0), (36963, 0), (4, 0)]], 3, 4⟩, ⟨[[(0, 22908663885234176), (0,
    2407632274486837), (0, 6301853352), (0, 1212620), (0, 73)], [(0, 24233128239624722), (0, 295085646509), (0,
    19008460), (0, 1550)], [(3251924400432, 0), (25079135, 0), (0, 2816)], [(0, 380870497), (18496, 0), (3, 0)]], 3,
    4⟩, 72057594037927936, 50180569376, 26497215237, ⟨[[(13583190229871, 0), (1076717225, 0), (1478447, 0), (2292,
    0), (9, 0)], [(1689066463, 0), (220149, 0), (0, 812), (0, 3)], [(0, 521832), (108, 0)], [(178, 0)]], 3, 4⟩,
    17592186044416, 164320,
    4475961303686559672770554309858456613657549253701440455092284292049279975943194201106316626109836309026784132832153400125195069,
    lc0⟩))
theorem c76 : checkR job con0 false ⟨7, 9, 7, 9, 13, 17⟩ 1 34400 t76 1167 21 2560 62243 251 64000 = true := by decide +kernel

def t77 : CTree :=
  .sx (.sy (.sx (.sy (.leaf ⟨5156, 16, 9925, 1258, 16, 5811, ⟨[[(0, 30430172893806592), (0, 2254500393628001),
    (3393620258, 0), (0, 141364), (0, 3)], [(25692807792924852, 0), (0, 1171895311532), (0, 342924), (0, 176)], [(0,
    11211342658203), (0, 3792141), (0, 7)], [(2871858614, 0), (30407, 0), (1, 0)]], 3, 4⟩, ⟨[[(24674733517914112, 0),
    (0, 1598205045611303), (0, 1739442911), (0, 188680), (0, 6)], [(0, 33919607121115435), (0, 212023088000), (0,
    6698456), (0, 271)], [(4592941264132, 0), (10388992, 0), (0, 1462)], [(0, 564676791), (12213, 0), (1, 0)]], 3,
    4⟩, 72057594037927936, 74163102890, 28117038605, ⟨[[(13542449845364, 0), (866171017, 0), (990982, 0), (1620, 0),
    (5, 0)], [(1125224177, 0), (71402, 0), (0, 442), (0, 2)], [(0, 226327), (50, 0)], [(51, 0)]], 3, 4⟩,
    17592186044416, 80130,
    4306768164866329814768969047907467745478782733669183872096958781302600599725509215729382678649026987761849349536423463660372554,
    lc0⟩) (.leaf ⟨5202, 16, 10044, 1244, 16, 5797, ⟨[[(0, 35322012610396160), (0, 2278193459969264), (3213857348, 0),
    (0, 149751), (0, 3)], [(25405407298498298, 0), (0, 1186431729287), (0, 622133), (0, 187)], [(0, 11347696728305),
    (0, 3860574), (0, 39)], [(2922110047, 0), (32262, 0), (2, 0)]], 3, 4⟩, ⟨[[(14201692171223040, 0), (0,
    1596242098913350), (0, 2027699506), (0, 200247), (0, 6)], [(0, 33945784881593795), (0, 218428571454), (0,
    7098150), (0, 282)], [(4586706001070, 0), (8869814, 0), (0, 1518)], [(0, 556894744), (13411, 0), (1, 0)]], 3, 4⟩,
    72057594037927936, 75541418046, 28556688392, ⟨[[(13515410671907, 0), (845730404, 0), (951640, 0), (1453, 0), (4,
    0)], [(1118112127, 0), (78351, 0), (0, 395), (0, 1)], [(0, 223883), (47, 0)], [(50, 0)]], 3, 4⟩, 17592186044416,
    90718,
    4648239104643338066055482192163472967132140571377908614573139715917298752439456749955166281043207393215851070729261431762385035,
    lc0⟩)) (.sy (.leaf ⟨5204, 16, 9990, 1245, 16, 5842, ⟨[[(10264878330085376, 0), (0, 2318811792846194),
    (3401443348, 0), (0, 149782), (0, 3)], [(24928340021319997, 0), (0, 1179728431342), (0, 338060), (0, 179)], [(0,
    10924464386027), (54084, 0), (178, 0)], [(2828636142, 0), (30829, 0), (1, 0)]], 3, 4⟩, ⟨[[(21018374558515200, 0),
    (0, 1615664132503312), (0, 2034062225), (0, 201188), (0, 6)], [(0, 33715658041223997), (0, 212210431841), (0,
    6851283), (0, 275)], [(4547312061001, 0), (12042053, 0), (0, 1317)], [(0, 545720397), (13065, 0), (1, 0)]], 3,
    4⟩, 72057594037927936, 73798562165, 26764660607, ⟨[[(13541680203837, 0), (825876559, 0), (891406, 0), (1244, 0),
    (4, 0)], [(1110000499, 0), (87214, 0), (0, 351), (0, 1)], [(0, 222151), (41, 0)], [(50, 0)]], 3, 4⟩,
    17592186044416, 56778,
    4682450389845924625615445030038089245477361601430467413680149393693283194926049607850396990676291082205934224768925521718612443,
    lc0⟩) (.leaf ⟨5251, 16, 10111, 1231, 16, 5827, ⟨[[(0, 11718799650783232), (0, 2343557464848914), (3209038042, 0),
    (0, 158683), (0, 4)], [(24630768707023226, 0), (0, 1194500050156), (0, 621330), (0, 190)], [(0, 11056711755297),
    (224386, 0), (158, 0)], [(2878948156, 0), (32760, 0), (2, 0)]], 3, 4⟩, ⟨[[(0, 10092240728375296), (0,
    1613707531028413), (0, 2340455943), (0, 213261), (0, 6)], [(0, 33737102599773739), (0, 218737230615), (0,
    7256346), (0, 287)], [(4541330503853, 0), (10666197, 0), (0, 1366)], [(0, 537464839), (14287, 0), (1, 0)]], 3,
    4⟩, 72057594037927936, 74519966700, 28302792715, ⟨[[(13515215676733, 0), (807573230, 0), (863035, 0), (1112, 0),
    (3, 0)], [(1102748590, 0), (92331, 0), (0, 320), (0, 1)], [(0, 219630), (39, 0)], [(49, 0)]], 3, 4⟩,
    17592186044416, 70214,
    4443668421671653428087022427766600673523306894617429641328343065310927493306121037917679299706084708685557669075166775471250655,
    lc0⟩))) (.sx (.leaf ⟨3453, 16, 6699, 899, 16, 4246, ⟨[[(26272320364314624, 0), (0, 3032843550385722),
    (7640124212, 0), (0, 855363), (0, 39)], [(16348381475247851, 0), (0, 1584301150893), (0, 2824626), (0, 1066)],
    [(0, 7570480210461), (0, 5276667), (0, 235)], [(1965741144, 0), (46223, 0), (4, 0)]], 3, 4⟩,
    ⟨[[(5702059832918016, 0), (0, 2343316053961214), (0, 7328630169), (0, 1285490), (0, 77)], [(0,
    24987024220603447), (0, 336352756697), (0, 22724313), (0, 1762)], [(3363771604875, 0), (9542148, 0), (0, 4722)],
    [(0, 399966532), (22513, 0), (4, 0)]], 3, 4⟩, 72057594037927936, 56994013693, 31985670075, ⟨[[(13473764977230,
    0), (1110010350, 0), (1667586, 0), (3072, 0), (13, 0)], [(1691170860, 0), (180853, 0), (0, 963), (0, 4)], [(0,
    513595), (134, 0), (1, 0)], [(177, 0)]], 3, 4⟩, 17592186044416, 170255,
    4985895073706713083252453998138266367292983746677524504182555170118215780340687188652003922556244804352072743906194015907526613,
    lc0⟩) (.leaf ⟨3452, 16, 6679, 886, 16, 4255, ⟨[[(26821689837682688, 0), (0, 3090136780727989), (7498949452, 0),
    (0, 897655), (0, 40)], [(15675849840515346, 0), (0, 1579768308752), (0, 2812348), (0, 1072)], [(0,
    7303539946909), (577915, 0), (329, 0)], [(1918647925, 0), (46578, 0), (5, 0)]], 3, 4⟩, ⟨[[(34010210495143936, 0),
    (0, 2362421241446044), (0, 8308661614), (0, 1362810), (0, 80)], [(0, 24758923142285687), (0, 336140827037), (0,
    23148919), (0, 1786)], [(3321464933581, 0), (12484357, 0), (0, 4229)], [(0, 384068146), (23792, 0), (4, 0)]], 3,
    4⟩, 72057594037927936, 55498461272, 31956551267, ⟨[[(13473332562354, 0), (1061969379, 0), (1532896, 0), (2319,
    0), (10, 0)], [(1683726755, 0), (209678, 0), (0, 818), (0, 2)], [(0, 513548), (114, 0), (1, 0)], [(177, 0)]], 3,
    4⟩, 17592186044416, 162318,
    4618579895934385604623989541990558096403188441828475355170554198845018364572087127669863760125415896417812827353452026121977288,
    lc0⟩))) (.sy (.sx (.leaf ⟨3414, 16, 6546, 895, 16, 4286, ⟨[[(0, 1054382786150400), (0, 3101568655791446),
    (8565079151, 0), (0, 843761), (0, 38)], [(15548849432629650, 0), (0, 1546078584544), (0, 1185210), (0, 965)],
    [(0, 6926627839851), (5416331, 0), (952, 0)], [(1818797884, 0), (41637, 0), (4, 0)]], 3, 4⟩,
    ⟨[[(8816321419075584, 0), (0, 2385489947433437), (0, 7297579471), (0, 1287114), (0, 77)], [(0,
    24496647373188306), (0, 314990984758), (0, 21032367), (0, 1667)], [(3289142994105, 0), (19285945, 0), (0, 3474)],
    [(0, 382593881), (21104, 0), (4, 0)]], 3, 4⟩, 72057594037927936, 52746871822, 28899673861, ⟨[[(13528352235888,
    0), (1068532798, 0), (1503162, 0), (2300, 0), (10, 0)], [(1686144168, 0), (215275, 0), (0, 810), (0, 2)], [(0,
    517468), (111, 0)], [(178, 0)]], 3, 4⟩, 17592186044416, 141364,
    4613111901018872677394827313426410176534261221474596849709440470960002518562873212840869767152710794645325519114542531797771832,
    lc0⟩) (.leaf ⟨3410, 16, 6522, 883, 16, 4295, ⟨[[(23855169767571456, 0), (0, 3154881813233905), (8486062324, 0),
    (0, 881086), (0, 40)], [(14921659013513338, 0), (0, 1539736967230), (0, 1079080), (0, 963)], [(0, 6675364447385),
    (10633577, 0), (1477, 0)], [(1773191591, 0), (41628, 0), (4, 0)]], 3, 4⟩, ⟨[[(0, 16284368419127296), (0,
    2403720868351137), (0, 8203979971), (0, 1360265), (0, 80)], [(0, 24273221816968664), (0, 313915471206), (0,
    21349049), (0, 1684)], [(3248660045376, 0), (22047994, 0), (0, 3007)], [(0, 368970020), (22028, 0), (4, 0)]], 3,
    4⟩, 72057594037927936, 50250784266, 27077176629, ⟨[[(13528184422432, 0), (1027988845, 0), (1406080, 0), (1782,
    0), (8, 0)], [(1680340613, 0), (238614, 0), (0, 726), (0, 1)], [(0, 518167), (98, 0)], [(178, 0)]], 3, 4⟩,
    17592186044416, 128320,
    4527154835773041325007612109695124519191307977600958689139165260467417731641828315538080112413141371019765238788471688145711028,
    lc0⟩)) (.leaf ⟨2668, 16, 5141, 592, 16, 2914, ⟨[[(0, 26983494865125376), (0, 2455155176639999), (5637650803, 0),
    (0, 743100), (0, 33)], [(22750341600121612, 0), (0, 2431007961185), (0, 4180800), (0, 1659)], [(0,
    21388073453954), (29051854, 0), (3727, 0)], [(11442531870, 0), (290120, 0), (29, 0)]], 3, 4⟩,
    ⟨[[(28282026785611776, 0), (0, 1632348502142086), (0, 6699676550), (0, 1010909), (0, 58)], [(0,
    33344785299496180), (0, 457854839851), (0, 32370326), (0, 2480)], [(8905964951568, 0), (46932196, 0), (0, 9477)],
    [(0, 1977016272), (138808, 0), (23, 0)]], 3, 4⟩, 72057594037927936, 580486243978, 209498483982,
    ⟨[[(13474805259106, 0), (1463341112, 0), (2982616, 0), (4803, 0), (33, 0)], [(2162241953, 0), (465176, 0), (0,
    1973), (0, 3)], [(0, 857855), (222, 0), (2, 0)], [(382, 0)]], 3, 4⟩, 17592186044416, 366287,
    4748671921844382598337987048256974061270004689314093111209677625074712884678539031087078993054079044134939902528979751777883237,
    lc0⟩))
theorem c77 : checkR job con0 false ⟨7, 9, 7, 9, 13, 17⟩ 1 34400 t77 573 21 1280 62745 251 64000 = true := by decide +kernel

def t78 : CTree :=
  .sy (.sx (.sy (.sx (.leaf ⟨3338, 16, 6285, 913, 16, 4344, ⟨[[(0, 1119975135117312), (0, 3121403349554240),
    (10580511752, 0), (0, 738738), (0, 34)], [(15336684842628696, 0), (0, 1483549421710), (1656009, 0), (0, 774)],
    [(0, 6233255707291), (11492841, 0), (1858, 0)], [(1635506030, 0), (32572, 0), (3, 0)]], 3, 4⟩, ⟨[[(0,
    31326204678766592), (0, 2429997878656870), (0, 5327166562), (0, 1140122), (0, 69)], [(0, 23979670175182860), (0,
    276568079141), (0, 17092030), (0, 1437)], [(3211848957092, 0), (29971217, 0), (0, 2248)], [(0, 378959740),
    (16003, 0), (3, 0)]], 3, 4⟩, 72057594037927936, 47693687087, 25744455573, ⟨[[(13638287791995, 0), (1084863234,
    0), (1453749, 0), (2273, 0), (9, 0)], [(1692113531, 0), (224967, 0), (0, 818), (0, 3)], [(0, 526578), (104, 0)],
    [(178, 0)]], 3, 4⟩, 17592186044416, 127638,
    4715051131344020675063099797264173627477841972628683074745593835796192938461065055871850397787109816607707722642164908928487855,
    lc0⟩) (.leaf ⟨3332, 16, 6258, 901, 16, 4355, ⟨[[(28480145439752192, 0), (0, 3170012793336029), (10607826238, 0),
    (0, 767873), (0, 35)], [(14758009316555529, 0), (0, 1476043625859), (1822253, 0), (0, 767)], [(0, 6003563556220),
    (15517774, 0), (2279, 0)], [(1592494250, 0), (32227, 0), (3, 0)]], 3, 4⟩, ⟨[[(0, 4167023949365248), (0,
    2447742258303518), (0, 6064080016), (0, 1203683), (0, 72)], [(0, 23771902256309050), (0, 274658467237), (0,
    17307829), (0, 1448)], [(3172892624781, 0), (32106826, 0), (0, 1853)], [(0, 367653198), (16633, 0), (3, 0)]], 3,
    4⟩, 72057594037927936, 48349075296, 24271918921, ⟨[[(13637198239661, 0), (1044078084, 0), (1353695, 0), (1784,
    0), (7, 0)], [(1687183125, 0), (248916, 0), (0, 721), (0, 2)], [(0, 528044), (93, 0)], [(179, 0)]], 3, 4⟩,
    17592186044416, 110068,
    4588808289828827256349930713562771539470313677883088010915069379360280784194132729755850518427108047394342755007327439377142329,
    lc0⟩)) (.sx (.leaf ⟨3371, 16, 6389, 892, 16, 4325, ⟨[[(10802354002821120, 0), (0, 3162841323227401), (9570644128,
    0), (0, 823690), (0, 38)], [(14833723206495592, 0), (0, 1507021198430), (443395, 0), (0, 861)], [(0,
    6330055518184), (13598466, 0), (1929, 0)], [(1680091281, 0), (36763, 0), (4, 0)]], 3, 4⟩, ⟨[[(0,
    21737173204893696), (0, 2425588544923111), (0, 7121385749), (0, 1280913), (0, 76)], [(0, 24017490215437382), (0,
    293558543533), (0, 19271270), (0, 1564)], [(3212204340870, 0), (27519858, 0), (0, 2386)], [(0, 368482666),
    (19260, 0), (3, 0)]], 3, 4⟩, 72057594037927936, 49151337051, 25585075104, ⟨[[(13582993058346, 0), (1036109426,
    0), (1379497, 0), (1787, 0), (7, 0)], [(1683556408, 0), (243796, 0), (0, 721), (0, 2)], [(0, 522856), (96, 0)],
    [(178, 0)]], 3, 4⟩, 17592186044416, 148431,
    4614164378304759245192355357526479925677393372117145847323170510243810456845650578805421345758159324627678333943657682457246190,
    lc0⟩) (.leaf ⟨3365, 16, 6362, 880, 16, 4335, ⟨[[(25965345455865856, 0), (0, 3212475922032961), (9552414509, 0),
    (0, 856147), (0, 39)], [(14250346608624972, 0), (0, 1499321537146), (623191, 0), (0, 853)], [(0, 6094824585778),
    (18145894, 0), (2407, 0)], [(1636320791, 0), (36471, 0), (4, 0)]], 3, 4⟩, ⟨[[(0, 13897343704842240), (0,
    2443504709108260), (0, 7953075297), (0, 1349870), (0, 79)], [(0, 23804505058299736), (0, 291817008001), (0,
    19498192), (0, 1575)], [(3173891407494, 0), (30054938, 0), (0, 1951)], [(0, 356826635), (19905, 0), (4, 0)]], 3,
    4⟩, 72057594037927936, 48461157102, 24865106321, ⟨[[(13582599367878, 0), (998255889, 0), (1300925, 0), (1394, 0),
    (6, 0)], [(1678446871, 0), (265227, 0), (0, 668), (0, 1)], [(0, 524136), (86, 0)], [(179, 0)]], 3, 4⟩,
    17592186044416, 97484,
    4056336540391209097512766193385357041628863727549714923214217253337358477116549720428654580297403793501246036095151630345234570,
    lc0⟩))) (.leaf ⟨1652, 16, 3102, 435, 16, 2173, ⟨[[(30649529632325632, 0), (0, 3229592231240344), (20033070005,
    0), (0, 3388533), (0, 311)], [(13532744512335890, 0), (0, 2920126883537), (6215238, 0), (0, 6284), (0, 1)], [(0,
    11305579380514), (91457461, 0), (23922, 0), (2, 0)], [(6138198207, 0), (266436, 0), (59, 0)]], 3, 4⟩, ⟨[[(0,
    2244102212857856), (0, 2463656698895107), (0, 16297431464), (0, 5483298), (0, 640)], [(0, 23396973418361618), (0,
    557800053031), (0, 74337500), (0, 12135), (0, 1)], [(6214790364799, 0), (138457867, 0), (0, 10150)], [(0,
    1381239689), (151382, 0), (54, 0)]], 3, 4⟩, 72057594037927936, 388230892811, 168207261540, ⟨[[(13609100321831,
    0), (1942353387, 0), (4934816, 0), (8937, 0), (74, 0)], [(3386275080, 0), (1165356, 0), (0, 5188), (0, 5)], [(0,
    2157595), (632, 0), (5, 0)], [(1483, 0), (0, 1)]], 3, 4⟩, 17592186044416, 1252592,
    5083126953159084752358921196536606063590382242979609251614264643079238631912837421478393664518212009700963082273470149345830857,
    lc0⟩)) (.leaf ⟨1325, 16, 2527, 288, 16, 1473, ⟨[[(0, 5324641693188096), (0, 2566802265597172), (11837044985, 0),
    (0, 3184850), (0, 287)], [(20445074230423013, 0), (0, 4763013318435), (0, 8428663), (0, 12356), (0, 1)], [(0,
    37974908990102), (312458643, 0), (72565, 0), (5, 0)], [(41892464474, 0), (2174707, 0), (467, 0)]], 3, 4⟩, ⟨[[(0,
    8817544414347264), (0, 1674979249736650), (0, 16004257190), (0, 4467573), (0, 503)], [(0, 32487189355922365), (0,
    877516643099), (0, 127123781), (0, 19538), (0, 2)], [(17256968710625, 0), (311050498, 0), (0, 40733), (0, 3)],
    [(0, 7254489307), (1124135, 0), (353, 0)]], 3, 4⟩, 72057594037927936, 4373075718255, 1365996442952,
    ⟨[[(13502421452801, 0), (2674191144, 0), (10532121, 0), (20250, 0), (265, 0)], [(4280803059, 0), (2250460, 0),
    (0, 14720), (20, 0), (0, 1)], [(0, 3440034), (1175, 0), (27, 0)], [(3027, 0), (1, 0)]], 3, 4⟩, 17592186044416,
    5219604,
    4857650752888838744724962640337570910809448980354390776911004550957614898011384613257918816899033973102855810952246657132218572,
    lc0⟩)
theorem c78 : checkR job con0 false ⟨7, 9, 7, 9, 13, 17⟩ 1 34400 t78 615 21 1280 31247 251 32000 = true := by decide +kernel

def t79 : CTree :=
  .sx (.sy (.sx (.sy (.sx (.leaf ⟨3490, 16, 6812, 878, 16, 4223, ⟨[[(11317055769673728, 0), (0, 3076879853639740),
    (6398254057, 0), (0, 951659), (0, 42)], [(15814550149885534, 0), (0, 1614754121167), (0, 4580833), (0, 1186)],
    [(0, 7700949893416), (0, 5699415), (0, 428)], [(2023662813, 0), (51738, 0), (5, 0)]], 3, 4⟩, ⟨[[(0,
    3998628925972480), (0, 2338947013201849), (0, 9333972349), (0, 1439784), (0, 84)], [(0, 25025529466463848), (0,
    358585494197), (0, 25355094), (0, 1906)], [(3349098708248, 0), (4579682, 0), (0, 5092)], [(0, 385536816), (26533,
    0), (4, 0)]], 3, 4⟩, 72057594037927936, 57426292330, 33258598110, ⟨[[(13420694326280, 0), (1059540050, 0),
    (1572105, 0), (2381, 0), (11, 0)], [(1681419507, 0), (202344, 0), (0, 841), (0, 2)], [(0, 509716), (117, 0), (1,
    0)], [(177, 0)]], 3, 4⟩, 17592186044416, 142113,
    4511019681347268455518099644409401281935679967717216409618356320121743347479834944250985733398154757399187699066576344101510803,
    lc0⟩) (.leaf ⟨3488, 16, 6791, 865, 16, 4231, ⟨[[(28902533423857664, 0), (0, 3135011250748408), (6186345053, 0),
    (0, 998583), (0, 44)], [(15131513998398370, 0), (0, 1609979238264), (0, 4576034), (0, 1191)], [(0,
    7425643949308), (861003, 0), (209, 0)], [(1975803757, 0), (52256, 0), (5, 0)]], 3, 4⟩, ⟨[[(5421271500693504, 0),
    (0, 2358456919027199), (0, 10427261886), (0, 1523191), (0, 88)], [(0, 24793093437690914), (0, 358736325056), (0,
    25808553), (0, 1932)], [(3307874246236, 0), (8021503, 0), (0, 4550)], [(0, 368982603), (27881, 0), (4, 0)]], 3,
    4⟩, 72057594037927936, 56591246202, 33879070125, ⟨[[(13420223270295, 0), (1014988647, 0), (1468645, 0), (1775,
    0), (9, 0)], [(1674502428, 0), (227822, 0), (0, 761), (0, 1)], [(0, 509782), (98, 0), (1, 0)], [(177, 0)]], 3,
    4⟩, 17592186044416, 126918,
    4093892039837746273271202778363191789164816598839515535020146332231653616183292437104115913718903371242572289202479195332884351,
    lc0⟩)) (.leaf ⟨2718, 16, 5331, 576, 16, 2848, ⟨[[(0, 981743670231040), (0, 2430116925652423), (3727967498, 0),
    (0, 835354), (0, 37)], [(22979606816910318, 0), (0, 2536314911093), (0, 10123139), (0, 2037)], [(0,
    23713659220952), (0, 8217344), (0, 879)], [(12710286918, 0), (359638, 0), (35, 0)]], 3, 4⟩, ⟨[[(9599209061244928,
    0), (0, 1589934159691459), (0, 8248528727), (0, 1119382), (0, 63)], [(0, 33817162515736613), (0, 519982575000),
    (0, 38540664), (0, 2809)], [(8974913179724, 0), (3331938, 0), (0, 14090), (0, 1)], [(0, 1952949391), (171603, 0),
    (26, 0)]], 3, 4⟩, 72057594037927936, 617654992503, 246683457785, ⟨[[(13367731140686, 0), (1458851253, 0),
    (3184271, 0), (4883, 0), (38, 0)], [(2164104252, 0), (448923, 0), (0, 2175), (0, 2)], [(0, 851286), (214, 0), (3,
    0)], [(384, 0)]], 3, 4⟩, 17592186044416, 453678,
    4065687907214772379066592814624161677496101170063555383722121868495232554652665560128317334290416564948186167201527504842693244,
    lc0⟩)) (.leaf ⟨1731, 16, 3368, 416, 16, 2106, ⟨[[(0, 10997146648330240), (0, 3207478208203837), (10064304236, 0),
    (0, 4454917), (0, 394)], [(13703055701912922, 0), (0, 3197348854373), (0, 21464335), (0, 9936), (0, 1)], [(0,
    13996171570650), (45292493, 0), (9435, 0)], [(7650904191, 0), (442785, 0), (90, 0)]], 3, 4⟩, ⟨[[(0,
    17155415694151680), (0, 2376673594002311), (0, 26570003592), (0, 6931937), (0, 770)], [(0, 24362096245176963),
    (0, 738626682916), (0, 110838874), (0, 16259), (0, 1)], [(6458008579397, 0), (46005344, 0), (0, 30667), (0, 3)],
    [(0, 1343599502), (253355, 0), (75, 0)]], 3, 4⟩, 72057594037927936, 414496573280, 238414813871,
    ⟨[[(13395533360495, 0), (1875391190, 0), (5444862, 0), (7975, 0), (83, 0)], [(3356956347, 0), (1099120, 0), (0,
    5975), (5, 0)], [(0, 2077251), (505, 0), (11, 0)], [(1447, 0), (1, 0)]], 3, 4⟩, 17592186044416, 1498154,
    3487738496183450871741747246791750345591035526495848357862392665907157657384353750041403287373547934616841944551411916893753969,
    lc0⟩)) (.sx (.leaf ⟨1770, 16, 3505, 406, 16, 2068, ⟨[[(23638663404781568, 0), (0, 3190053882541244), (4499555671,
    0), (0, 5010714), (0, 433)], [(13848479643328518, 0), (0, 3359938053861), (0, 39557292), (0, 12220), (0, 1)],
    [(0, 15595641856357), (0, 13384672), (0, 4576), (0, 2)], [(8548523142, 0), (547985, 0), (107, 0)]], 3, 4⟩,
    ⟨[[(16385104949952512, 0), (0, 2329944546076227), (0, 31953489806), (0, 7680430), (0, 833)], [(0,
    24856517232742019), (0, 846666436427), (0, 131545750), (0, 18430), (0, 1)], [(6512672541872, 0), (0, 27947383),
    (0, 46282), (0, 5)], [(0, 1313046663), (310200, 0), (87, 0)]], 3, 4⟩, 72057594037927936, 431152991726,
    285415937611, ⟨[[(13287630035325, 0), (1847503789, 0), (5788181, 0), (7277, 0), (87, 0)], [(3347524123, 0),
    (1081951, 0), (0, 6864), (12, 0)], [(0, 2046528), (308, 0), (17, 0)], [(1422, 0), (2, 0)]], 3, 4⟩,
    17592186044416, 1676959,
    3110071349709260563845387729356875947238164273605729708471355325525442146717569139933378165081861218943269765117492981295945238,
    lc0⟩) (.leaf ⟨1765, 16, 3480, 393, 16, 2072, ⟨[[(24839506288852992, 0), (0, 3307393933297514), (2817930299, 0),
    (0, 5487179), (0, 474)], [(12493348032197417, 0), (0, 3334177672795), (0, 39079462), (0, 12232), (0, 1)], [(0,
    14435687926596), (56379259, 0), (9347, 0)], [(8160042172, 0), (560761, 0), (114, 0)]], 3, 4⟩, ⟨[[(0,
    24824889525858304), (0, 2370105935227157), (0, 37626201150), (0, 8479007), (0, 897)], [(0, 24363181215973528),
    (0, 848972719543), (0, 135229922), (0, 18835), (0, 2)], [(6368461020679, 0), (12506689, 0), (0, 35240), (0, 4)],
    [(0, 1176898382), (331049, 0), (89, 0)]], 3, 4⟩, 72057594037927936, 421683721270, 264111889536,
    ⟨[[(13288753257865, 0), (1698112552, 0), (5490401, 0), (3900, 0), (42, 0)], [(3323805427, 0), (1283632, 0), (0,
    7254), (17, 0)], [(0, 2044949), (0, 112), (18, 0)], [(1384, 0), (3, 0)]], 3, 4⟩, 17592186044416, 1039486,
    3908269743007690864390106446901459971615453699139822785376083544275634377698474504590100514259295209517824115603099314296381176,
    lc0⟩))) (.sy (.sx (.leaf ⟨1724, 16, 3340, 403, 16, 2112, ⟨[[(3351578492043264, 0), (0, 3313873060145146),
    (9109812315, 0), (0, 4831286), (0, 427)], [(12462828953255378, 0), (0, 3164659296500), (0, 20020860), (0, 9811),
    (0, 1)], [(0, 12943537866914), (100632303, 0), (20851, 0), (1, 0)], [(7275573095, 0), (444488, 0), (93, 0)]], 3,
    4⟩, ⟨[[(0, 9850376847699968), (0, 2414454970513923), (0, 31362839314), (0, 7641290), (0, 830)], [(0,
    23894407331048811), (0, 735485948716), (0, 113336902), (0, 16516), (0, 1)], [(6314006394430, 0), (79016646, 0),
    (0, 21182), (0, 2)], [(0, 1233134928), (266947, 0), (76, 0)]], 3, 4⟩, 72057594037927936, 405001555680,
    222571384948, ⟨[[(13394854325423, 0), (1729901558, 0), (5112566, 0), (4520, 0), (43, 0)], [(3337137731, 0),
    (1283133, 0), (0, 6231), (13, 0)], [(0, 2084949), (199, 0), (13, 0)], [(1430, 0), (2, 0)]], 3, 4⟩,
    17592186044416, 993331,
    4257733396350213233980867904139230902130421007604767969147719038599935167342211864144760573798083718024324081498877430239162010,
    lc0⟩) (.leaf ⟨1714, 16, 3308, 390, 16, 2118, ⟨[[(30032239464906752, 0), (0, 3413557157976988), (8233040230, 0),
    (0, 5189953), (0, 459)], [(11304182888019119, 0), (0, 3123634345978), (0, 17600274), (0, 9544), (0, 1)], [(0,
    11930655283977), (155219721, 0), (32474, 0), (3, 0)], [(6904278825, 0), (440714, 0), (95, 0)]], 3, 4⟩,
    ⟨[[(14031814667309056, 0), (0, 2452132597250103), (0, 36257398555), (0, 8361285), (0, 890)], [(0,
    23436769412221391), (0, 729486506570), (0, 115037143), (0, 16672), (0, 1)], [(6182501961680, 0), (113515548, 0),
    (0, 11571), (0, 1)], [(0, 1138012462), (275524, 0), (77, 0)]], 3, 4⟩, 72057594037927936, 399399735401,
    208722711071, ⟨[[(13393202642330, 0), (1593093056, 0), (4889537, 0), (2917, 0), (18, 0)], [(3322331796, 0),
    (1474754, 0), (0, 6635), (13, 0)], [(0, 2097848), (0, 127), (14, 0)], [(1407, 0), (3, 0)]], 3, 4⟩,
    17592186044416, 721814,
    4491944022387542673331809963295891266509854881502290927922937790765117363132566717427948356834375993603472599120404400065704169,
    lc0⟩)) (.leaf ⟨1422, 16, 2788, 256, 16, 1426, ⟨[[(31787878931824640, 0), (0, 2817708257921530), (338033337, 0),
    (0, 5011131), (0, 433)], [(17256276010410642, 0), (0, 5320161151878), (0, 58511739), (0, 19355), (0, 2)], [(0,
    41464034687095), (525034117, 0), (101103, 0), (9, 0)], [(49226899744, 0), (3678309, 0), (774, 0)]], 3, 4⟩, ⟨[[(0,
    13407252527945728), (0, 1667881393394085), (0, 31839348749), (0, 6660271), (0, 684)], [(0, 32448447271313938),
    (0, 1160853138386), (0, 190772523), (0, 26382), (0, 2)], [(16965717126984, 0), (212029200, 0), (0, 50035), (0,
    4)], [(0, 5537666707), (1923427, 0), (500, 0)]], 3, 4⟩, 72057594037927936, 4812308920472, 1434855763534,
    ⟨[[(13288012053971, 0), (2160921122, 0), (11052820, 0), (7112, 0), (18, 0)], [(4060853285, 0), (2890315, 0), (0,
    20673), (45, 0), (1, 0)], [(0, 3110090), (0, 1735), (63, 0)], [(2441, 0), (16, 0)]], 3, 4⟩, 17592186044416,
    3824158,
    4586601187193598396498368500888980179075894310096857845118522959599642906828872057934028465288445231539835641050092907468177848,
    lc0⟩))
theorem c79 : checkR job con0 false ⟨7, 9, 7, 9, 13, 17⟩ 1 34400 t79 297 21 640 31749 251 32000 = true := by decide +kernel

def t80 : CTree :=
  .sy (.sx (.sy (.sx (.leaf ⟨1644, 16, 3072, 423, 16, 2183, ⟨[[(0, 861548320030720), (0, 3319638255931129),
    (20143975750, 0), (0, 3613530), (0, 331)], [(12493073102489698, 0), (0, 2882891820680), (8455880, 0), (0, 6037),
    (0, 1)], [(0, 10447361702271), (123430632, 0), (31110, 0), (3, 0)], [(5809527841, 0), (257236, 0), (59, 0)]], 3,
    4⟩, ⟨[[(30401575762841600, 0), (0, 2498272964576725), (0, 19522982333), (0, 6020882), (0, 688)], [(0,
    22987392736261218), (0, 547868935682), (0, 75252071), (0, 12194), (0, 1)], [(6073866251828, 0), (158572046, 0),
    (0, 3443)], [(0, 1305043570), (156553, 0), (53, 0)]], 3, 4⟩, 72057594037927936, 379438235611, 157180168152,
    ⟨[[(13609962126798, 0), (1811531052, 0), (4551296, 0), (5633, 0), (43, 0)], [(3366996402, 0), (1323893, 0), (0,
    5122), (4, 0)], [(0, 2171808), (494, 0), (5, 0)], [(1488, 0)]], 3, 4⟩, 17592186044416, 847752,
    3024854387296818928446101689740674832089895980425268815252734505864833705861355632264247008598003512094186787663624135139597904,
    lc0⟩) (.leaf ⟨1633, 16, 3039, 412, 16, 2192, ⟨[[(20495202908962816, 0), (0, 3403524766719342), (20337561582, 0),
    (0, 3820176), (0, 349)], [(11520673181174851, 0), (0, 2840334958829), (11261437, 0), (0, 5702)], [(0,
    9627367918288), (153611985, 0), (38189, 0), (4, 0)], [(5488490189, 0), (245180, 0), (59, 0)]], 3, 4⟩, ⟨[[(0,
    9964243343941632), (0, 2531385559609859), (0, 22779233979), (0, 6558741), (0, 736)], [(0, 22576658498662827), (0,
    535916947154), (0, 75570800), (0, 12174), (0, 1)], [(5938471882331, 0), (179155551, 0), (3234, 0), (1, 0)], [(0,
    1237811739), (158669, 0), (53, 0)]], 3, 4⟩, 72057594037927936, 372257105099, 146698373492, ⟨[[(13610144750209,
    0), (1701220888, 0), (4301207, 0), (3907, 0), (25, 0)], [(3356296649, 0), (1471247, 0), (0, 5298), (8, 0)], [(0,
    2194409), (358, 0), (6, 0)], [(1497, 0), (1, 0)]], 3, 4⟩, 17592186044416, 641036,
    4448054103603065513355013523345435903682228133789458409953997182961788367954408267152346423925972765351436302126726962156894523,
    lc0⟩)) (.sx (.leaf ⟨1674, 16, 3172, 401, 16, 2156, ⟨[[(0, 22368182434840576), (0, 3409817666373876),
    (14633993340, 0), (0, 4477554), (0, 403)], [(11406802756353278, 0), (0, 2972973020904), (0, 1536873), (0, 7436),
    (0, 1)], [(0, 10714993386617), (161997810, 0), (36872, 0), (4, 0)], [(6148554289, 0), (334045, 0), (76, 0)]], 3,
    4⟩, ⟨[[(0, 5975227722563584), (0, 2491587802961411), (0, 29329291339), (0, 7442156), (0, 813)], [(0,
    22995028592965842), (0, 625373766213), (0, 94144721), (0, 14337), (0, 1)], [(6076557576391, 0), (153518403, 0),
    (0, 2741)], [(0, 1197107095), (212984, 0), (64, 0)]], 3, 4⟩, 72057594037927936, 389881928205, 176987266362,
    ⟨[[(13503210714939, 0), (1647401838, 0), (4566256, 0), (3421, 0), (22, 0)], [(3336009851, 0), (1463495, 0), (0,
    5823), (10, 0)], [(0, 2141956), (180, 0), (9, 0)], [(1455, 0), (2, 0)]], 3, 4⟩, 17592186044416, 635173,
    4815344496566266016850177231992747734154021531671511925118176742543182645487118017425309251995060651110432712917455852303658742,
    lc0⟩) (.leaf ⟨1661, 16, 3136, 389, 16, 2164, ⟨[[(1037976002936832, 0), (0, 3494259502417586), (14473936185, 0),
    (0, 4728630), (0, 425)], [(10419186103309443, 0), (0, 2924045675556), (1938560, 0), (0, 7006), (0, 1)], [(0,
    9844636708224), (201218682, 0), (45884, 0), (5, 0)], [(5807119671, 0), (320854, 0), (75, 0)]], 3, 4⟩,
    ⟨[[(7207509711327232, 0), (0, 2526908510869059), (0, 33406988158), (0, 8072710), (0, 868)], [(0,
    22574254888254693), (0, 613617452215), (0, 94387454), (0, 14307), (0, 1)], [(5952373605468, 0), (181081407, 0),
    (5264, 0), (1, 0)], [(0, 1129401156), (214128, 0), (63, 0)]], 3, 4⟩, 72057594037927936, 384476496829,
    165208714945, ⟨[[(13501926860285, 0), (1530535384, 0), (4376858, 0), (2658, 0), (8, 0)], [(3327184672, 0),
    (1637097, 0), (0, 6112), (8, 0)], [(0, 2165737), (0, 47), (10, 0)], [(1449, 0), (2, 0)]], 3, 4⟩, 17592186044416,
    552653,
    4818151383502402691295015318395578121708968150894709799652513944080036730886946997440221210598113679913362591354866073891264900,
    lc0⟩))) (.sy (.sx (.leaf ⟨1620, 16, 3003, 400, 16, 2201, ⟨[[(24833522867191808, 0), (0, 3480802010560043),
    (20634889930, 0), (0, 4004427), (0, 365)], [(10613339694990421, 0), (0, 2792675510604), (14604974, 0), (0,
    5280)], [(0, 8845698623522), (181595931, 0), (45035, 0), (5, 0)], [(5174822699, 0), (230338, 0), (58, 0)]], 3,
    4⟩, ⟨[[(34893742990405632, 0), (0, 2564050827458311), (0, 26050153257), (0, 7096317), (0, 784)], [(0,
    22174936337727945), (0, 522164428696), (0, 75331385), (0, 12081), (0, 1)], [(5810342127322, 0), (199913534, 0),
    (9810, 0), (2, 0)], [(0, 1179439765), (158065, 0), (51, 0)]], 3, 4⟩, 72057594037927936, 360653544872,
    137464789075, ⟨[[(13609062022703, 0), (1589765752, 0), (4094533, 0), (2932, 0), (12, 0)], [(3346834046, 0),
    (1635148, 0), (0, 5547), (7, 0)], [(0, 2222085), (196, 0), (7, 0)], [(1505, 0), (1, 0)]], 3, 4⟩, 17592186044416,
    478048,
    4997247924110874601359386926700448608642869198617544974259742941242233451029929452279581092714143255146289035136960358798223111,
    lc0⟩) (.leaf ⟨1606, 16, 2966, 389, 16, 2211, ⟨[[(20292102606061568, 0), (0, 3553429227093575), (21069151258, 0),
    (0, 4165308), (0, 378)], [(9775311809847195, 0), (0, 2742021277777), (18460094, 0), (0, 4781)], [(0,
    8107858036633), (207137897, 0), (51565, 0), (6, 0)], [(4871726496, 0), (212993, 0), (55, 0)]], 3, 4⟩,
    ⟨[[(33270593879961600, 0), (0, 2597364897605139), (0, 29325634288), (0, 7634011), (0, 832)], [(0,
    21791568624938904), (0, 506833037935), (0, 74576343), (0, 11922), (0, 1)], [(5691012785980, 0), (220618857, 0),
    (16232, 0), (3, 0)], [(0, 1129720807), (155071, 0), (50, 0)]], 3, 4⟩, 72057594037927936, 347080301911,
    129580703145, ⟨[[(13609422388339, 0), (1490601024, 0), (3920501, 0), (2549, 0), (4, 0)], [(3339526774, 0),
    (1794444, 0), (0, 5733), (6, 0)], [(0, 2251883), (37, 0), (8, 0)], [(1513, 0), (2, 0)]], 3, 4⟩, 17592186044416,
    451394,
    4920609982944731402322697221459187192695300383558938503835626130643553763215522452587953971874314896721685585997664321355662084,
    lc0⟩)) (.sy (.leaf ⟨2086, 16, 3903, 335, 16, 1935, ⟨[[(0, 5264461045006336), (0, 2290990278848576), (5193725039,
    0), (0, 765708), (0, 34)], [(23920269561802115, 0), (0, 3606044142305), (6797600, 0), (0, 1874)], [(0,
    43891374916982), (610497310, 0), (71518, 0), (4, 0)], [(53500888454, 0), (1402587, 0), (173, 0)]], 3, 4⟩, ⟨[[(0,
    32214551274147840), (0, 1142464634899049), (0, 8054114772), (0, 950299), (0, 51)], [(0, 38923437398863525), (0,
    505729176993), (0, 39261901), (0, 3003)], [(20459230762241, 0), (388149639, 0), (14137, 0), (1, 0)], [(0,
    7627966910), (693981, 0), (102, 0)]], 3, 4⟩, 72057594037927936, 6082344008258, 925508837884, ⟨[[(13530128192371,
    0), (1603458994, 0), (5220358, 0), (3571, 0)], [(2601814356, 0), (1625462, 0), (0, 6140), (5, 0)], [(0, 1356150),
    (0, 147), (7, 0)], [(700, 0), (2, 0)]], 3, 4⟩, 17592186044416, 510477,
    4527255707843940765758779040523594704850962960425675590446009596212985936744122934135369023189652913962420077065946225494018843,
    lc0⟩) (.leaf ⟨2146, 16, 4046, 324, 16, 1921, ⟨[[(0, 12664250310295552), (0, 2370141656623126), (4133172382, 0),
    (0, 868394), (0, 39)], [(22921638304015400, 0), (0, 3732600378884), (3993029, 0), (0, 2115)], [(0,
    45162574597058), (710507937, 0), (80636, 0), (5, 0)], [(56237837677, 0), (1643945, 0), (199, 0)]], 3, 4⟩,
    ⟨[[(14495493505040384, 0), (0, 1142965757595794), (0, 9494743502), (0, 1048647), (0, 55)], [(0,
    38904067988207226), (0, 543523811466), (0, 43666209), (0, 3248)], [(20508347184315, 0), (400417661, 0), (16026,
    0), (1, 0)], [(0, 7200459762), (796083, 0), (112, 0)]], 3, 4⟩, 72057594037927936, 6408994221632, 901196719877,
    ⟨[[(13475318965317, 0), (1497369781, 0), (5303940, 0), (3744, 0), (0, 9)], [(2537776635, 0), (1693506, 0), (0,
    6355), (2, 0)], [(0, 1291034), (0, 355), (8, 0)], [(633, 0), (2, 0)]], 3, 4⟩, 17592186044416, 449367,
    4701727096569840091979242523025649189660367451509225181674835607015133373640028206186705183121854017370129988818363274748142235,
    lc0⟩)))) (.sy (.sx (.sy (.leaf ⟨2099, 16, 4013, 328, 16, 1854, ⟨[[(0, 25765055743885312), (0, 2190721746974379),
    (2852182583, 0), (0, 837942), (0, 37)], [(24917703952193359, 0), (0, 3756023869883), (0, 5482539), (0, 2622)],
    [(0, 51905822149256), (546866066, 0), (59103, 0), (3, 0)], [(62202910788, 0), (1980911, 0), (224, 0)]], 3, 4⟩,
    ⟨[[(0, 20448407625646080), (0, 1088538323166236), (0, 8770831132), (0, 977281), (0, 51)], [(0,
    39536700955208113), (0, 598430816307), (0, 47902912), (0, 3493)], [(20863265026540, 0), (289543128, 0), (2111,
    0)], [(0, 7360389385), (911226, 0), (126, 0)]], 3, 4⟩, 72057594037927936, 6613611285111, 1209224326420,
    ⟨[[(13423018785772, 0), (1682347199, 0), (6081310, 0), (3751, 0), (4, 0)], [(2663569410, 0), (1573248, 0), (0,
    7185), (10, 0)], [(0, 1378158), (0, 283), (11, 0)], [(725, 0), (2, 0)]], 3, 4⟩, 17592186044416, 720033,
    4375560895088338952498833279000702590917912470220715337503132642036970342992062320008043716530891936369842111198114552056582002,
    lc0⟩) (.leaf ⟨2162, 16, 4164, 318, 16, 1839, ⟨[[(0, 15703376935911424), (0, 2270859466128742), (1590261888, 0),
    (0, 949961), (0, 42)], [(23897042748794402, 0), (0, 3905183794903), (0, 9969232), (0, 2967)], [(0,
    53558195249407), (631503772, 0), (66366, 0), (4, 0)], [(65635785268, 0), (2300567, 0), (257, 0)]], 3, 4⟩, ⟨[[(0,
    35271296737333248), (0, 1089225185277719), (0, 10238819348), (0, 1075853), (0, 55)], [(0, 39527228179601871), (0,
    643988518754), (0, 52957391), (0, 3766)], [(20839231566843, 0), (289668812, 0), (2832, 0), (1, 0)], [(0,
    6814634442), (1035292, 0), (137, 0)]], 3, 4⟩, 72057594037927936, 6918063684220, 1199586661274,
    ⟨[[(13369725990392, 0), (1579656015, 0), (6214450, 0), (3783, 0), (0, 8)], [(2596685837, 0), (1648891, 0), (0,
    7575), (6, 0)], [(0, 1308181), (0, 558), (12, 0)], [(648, 0), (3, 0)]], 3, 4⟩, 17592186044416, 636299,
    4409505481958556905781324016984480699709260754478010605245957404244384096413192727698251361269605573544966163154422957075667740,
    lc0⟩)) (.leaf ⟨1418, 16, 2705, 244, 16, 1503, ⟨[[(5395387304869888, 0), (0, 3162914353831658), (5440477253, 0),
    (0, 5306857), (0, 466)], [(13446324639123369, 0), (0, 4987928837826), (0, 2954492), (0, 12857), (0, 1)], [(0,
    29804361427450), (1123246445, 0), (245128, 0), (28, 0)], [(38505561714, 0), (2631503, 0), (620, 0)]], 3, 4⟩,
    ⟨[[(17876280067928064, 0), (0, 1813841650027226), (0, 37735786610), (0, 7661477), (0, 775)], [(0,
    30779446965133178), (0, 962439844685), (0, 161143573), (0, 23072), (0, 2)], [(16289325808709, 0), (668180826, 0),
    (60562, 0), (10, 0)], [(0, 5112587965), (1529057, 0), (404, 0)]], 3, 4⟩, 72057594037927936, 4499609605936,
    749490916331, ⟨[[(13394120836972, 0), (1691793385, 0), (8693713, 0), (9170, 0), (0, 45)], [(3861684155, 0),
    (3595664, 0), (0, 16511), (0, 12)], [(0, 2978906), (0, 2225), (33, 0)], [(2070, 0), (16, 0)]], 3, 4⟩,
    17592186044416, 1578522,
    4778937162607356204736755007664958171722825524841773931687407367873098911925762101929362509148864592516690330234211517891754675,
    lc0⟩)) (.leaf ⟨1116, 16, 2167, 145, 16, 906, ⟨[[(0, 22601741492207616), (0, 2448270965658566), (0, 2137660100),
    (0, 4795849), (0, 414)], [(19577593394592186, 0), (0, 8099528270546), (0, 56548685), (0, 26467), (0, 2)], [(0,
    101758517232264), (3776538186, 0), (780067, 0), (88, 0)], [(268707075168, 0), (22094763, 0), (4944, 0), (1, 0)]],
    3, 4⟩, ⟨[[(6310697375242240, 0), (0, 1105299691272976), (0, 27912037908), (0, 5288587), (0, 520)], [(0,
    38591980822417359), (0, 1411724513325), (0, 242917080), (0, 33280), (0, 3)], [(40788722748217, 0), (1472355511,
    0), (109378, 0), (18, 0)], [(0, 21760565245), (9774877, 0), (2430, 0)]], 3, 4⟩, 72057594037927936,
    58966507455758, 8140686009800, ⟨[[(13290541346027, 0), (2551111638, 0), (24836603, 0), (47391, 0), (0, 456)],
    [(4994287558, 0), (8008110, 0), (0, 62431), (0, 160), (5, 0)], [(0, 4864302), (0, 10345), (182, 0), (2, 0)],
    [(3900, 0), (83, 0), (0, 1)]], 3, 4⟩, 17592186044416, 6645596,
    4888061048040875284701393338362757919017290137664804832780258999158222847037769520699018335337483984538606381646470639942976916,
    lc0⟩))
theorem c80 : checkR job con0 false ⟨7, 9, 7, 9, 13, 17⟩ 1 34400 t80 339 21 640 15749 251 16000 = true := by decide +kernel

def t81 : CTree :=
  .sy (.sy (.out ⟨345, 16, 950, 3388, 16, 4599, ⟨[[(0, 405559577591808), (0, 1409080603122564), (18903517329, 0)],
    [(33401187779938139, 0), (0, 4215702243642), (79272795, 0)], [(0, 34944320101080), (0, 656263149), (100236, 0)]],
    2, 2⟩, ⟨[[(0, 8105334103244800), (0, 4342357979800363), (77240043042, 0)]], 2, 2⟩, 72057594037927936,
    816718581175487, 21823473962529, ⟨[], 0, 0⟩, 0, 0, 0, lc0⟩ 1 1 506398139912) (.out ⟨351, 16, 995, 3419, 16, 4682,
    ⟨[[(8889393753645056, 0), (0, 1456173386701587), (19348274583, 0)], [(32787568618510037, 0), (0, 4333090170722),
    (80915741, 0)], [(0, 36918053483508), (0, 581191211), (106715, 0)]], 2, 2⟩, ⟨[[(0, 35668378198966272), (0,
    4342822687143679), (76564635446, 0)]], 2, 2⟩, 72057594037927936, 852550320038504, 21440336443457, ⟨[], 0, 0⟩, 0,
    0, 0, lc0⟩ 1 1 399129286338)) (.sy (.out ⟨357, 16, 1043, 3449, 16, 4765, ⟨[[(35906428459204608, 0), (0,
    1506304124595026), (19786698604, 0)], [(32110319705840134, 0), (0, 4458100534018), (82544630, 0)], [(0,
    38976416905862), (0, 495344363), (115303, 0)]], 2, 2⟩, ⟨[[(0, 29882865891311616), (0, 4342602781589957),
    (75889114195, 0)]], 2, 2⟩, 72057594037927936, 891265588496002, 21063919329403, ⟨[], 0, 0⟩, 0, 0, 0, lc0⟩ 1 1
    301634747041) (.sy (.out ⟨447, 16, 1334, 6959, 16, 9679, ⟨[[(16178739694604288, 0), (0, 953849674315441),
    (6200370376, 0)], [(38937276706098603, 0), (0, 2811635776002), (25828605, 0)], [(0, 50068358262391), (0,
    260361179), (38115, 0)]], 2, 2⟩, ⟨[[(15736809578168320, 0), (0, 4353028530799040), (37787034009, 0)]], 2, 2⟩,
    72057594037927936, 1126796747463835, 5198314509782, ⟨[], 0, 0⟩, 0, 0, 0, lc0⟩ 1 1 226748378903) (.out ⟨453, 16,
    1373, 6989, 16, 9763, ⟨[[(34739547595415552, 0), (0, 975374428450379), (6289702746, 0)], [(38629583487441012, 0),
    (0, 2867345110344), (26183111, 0)], [(0, 51656674274860), (0, 228051936), (40329, 0)]], 2, 2⟩,
    ⟨[[(11388827887599616, 0), (0, 4352787906405009), (37621005060, 0)]], 2, 2⟩, 72057594037927936, 1158458208019713,
    5152970141942, ⟨[], 0, 0⟩, 0, 0, 0, lc0⟩ 1 1 186280632428)))
theorem c81 : checkR job con0 false ⟨7, 9, 7, 9, 13, 17⟩ 1 34400 t81 381 21 640 14243 251 16000 = true := by decide +kernel

def t82 : CTree :=
  .sy (.out ⟨368, 16, 961, 3388, 16, 4599, ⟨[[(0, 6956545223122944), (0, 1605746410429264), (22672749254, 0)],
    [(31255803419563416, 0), (0, 4325541161907), (88951272, 0)], [(0, 25168401032856), (0, 803406015), (106933, 0)]],
    2, 2⟩, ⟨[[(0, 8105334103244800), (0, 4342357979800363), (77240043042, 0)]], 2, 2⟩, 72057594037927936,
    720902259140298, 21823473962529, ⟨[], 0, 0⟩, 0, 0, 0, lc0⟩ 1 1 308632654398) (.sy (.out ⟨466, 16, 1245, 6838, 16,
    9344, ⟨[[(0, 13236850182877184), (0, 1029177650767698), (7218188255, 0)], [(38399091802200174, 0), (0,
    2758873174331), (28366034, 0)], [(0, 32978403792405), (0, 467691510), (35438, 0)]], 2, 2⟩, ⟨[[(0,
    33443829585739776), (0, 4352787626240298), (38455244907, 0)]], 2, 2⟩, 72057594037927936, 918815233554793,
    5384296488931, ⟨[], 0, 0⟩, 0, 0, 0, lc0⟩ 1 1 234293237996) (.out ⟨472, 16, 1281, 6868, 16, 9427, ⟨[[(0,
    4732866287439872), (0, 1051524137167936), (7339484028, 0)], [(38091755906881719, 0), (0, 2809493465368),
    (28891437, 0)], [(0, 34164318404824), (0, 444247040), (37206, 0)]], 2, 2⟩, ⟨[[(0, 13469974189047808), (0,
    4352757741270791), (38285186786, 0)]], 2, 2⟩, 72057594037927936, 941290986351196, 5336764813245, ⟨[], 0, 0⟩, 0,
    0, 0, lc0⟩ 1 1 187857744215))
theorem c82 : checkR job con0 false ⟨7, 9, 7, 9, 13, 17⟩ 1 34400 t82 423 21 640 28235 251 32000 = true := by decide +kernel

def t83 : CTree :=
  .sy (.sy (.out ⟨762, 16, 2125, 6898, 16, 9510, ⟨[[(0, 14057492205060096), (0, 1683821373695282), (11535602886, 0)],
    [(31056968503119202, 0), (0, 2299497960216), (23066905, 0)], [(0, 15574313409185), (0, 157473511), (15540, 0)]],
    2, 2⟩, ⟨[[(0, 12677593316065280), (0, 4352560147820052), (38115155198, 0)]], 2, 2⟩, 72057594037927936,
    200862173816217, 5289655601088, ⟨[], 0, 0⟩, 0, 0, 0, lc0⟩ 1 1 185751088662) (.out ⟨769, 16, 2179, 6928, 16, 9594,
    ⟨[[(12698366037426176, 0), (0, 1714809700747180), (11677471825, 0)], [(30668437946802450, 0), (0, 2334313559273),
    (23396682, 0)], [(0, 16047094092217), (0, 145264019), (16372, 0)]], 2, 2⟩, ⟨[[(21221467493957632, 0), (0,
    4352652928692630), (37949143645, 0)]], 2, 2⟩, 72057594037927936, 205286509810875, 5243515167787, ⟨[], 0, 0⟩, 0,
    0, 0, lc0⟩ 1 1 143133764904)) (.sx (.sy (.out ⟨1109, 16, 3209, 6959, 16, 9679, ⟨[[(0, 10120203105468416), (0,
    2472524635214568), (16611041028, 0)], [(21978575588472311, 0), (0, 1699710577175), (16781825, 0)], [(0,
    6186829070825), (0, 45588717), (6149, 0)]], 2, 2⟩, ⟨[[(15736809578168320, 0), (0, 4353028530799040),
    (37787034009, 0)]], 2, 2⟩, 72057594037927936, 40377314138015, 5198314509782, ⟨[], 0, 0⟩, 0, 0, 0, lc0⟩ 1 1
    121667700171) (.sy (.out ⟨1570, 16, 4597, 13979, 16, 19506, ⟨[[(1321068637306880, 0), (0, 1762075495878927),
    (5885573141, 0)], [(30571706790196309, 0), (0, 1208434127107), (5958070, 0)], [(0, 8886168853209), (0, 29294456),
    (2260, 0)]], 2, 2⟩, ⟨[[(11640908042076160, 0), (0, 4357778023734428), (18852516423, 0)]], 2, 2⟩,
    72057594037927936, 54514681037048, 1291119894219, ⟨[], 0, 0⟩, 0, 0, 0, lc0⟩ 1 1 93360487877) (.out ⟨1578, 16,
    4657, 14009, 16, 19590, ⟨[[(6846422736076800, 0), (0, 1779109908291997), (5918259135, 0)], [(30357694806638525,
    0), (0, 1218164250509), (6000717, 0)], [(0, 9016468213991), (0, 27356431), (2333, 0)]], 2, 2⟩, ⟨[[(0,
    4526881565310976), (0, 4357596525819943), (18810878883, 0)]], 2, 2⟩, 72057594037927936, 55155746104543,
    1285473562777, ⟨[], 0, 0⟩, 0, 0, 0, lc0⟩ 1 1 75139532129))) (.sy (.sy (.out ⟨1575, 16, 4489, 13918, 16, 19336,
    ⟨[[(5562972262793216, 0), (0, 1782416607367343), (6080376821, 0)], [(30347527564866383, 0), (0, 1194668434247),
    (6067135, 0)], [(0, 7943282498041), (0, 35536666), (2181, 0)]], 2, 2⟩, ⟨[[(0, 15777567004950528), (0,
    4357570666803721), (18933858216, 0)]], 2, 2⟩, 72057594037927936, 51492346561125, 1302353498907, ⟨[], 0, 0⟩, 0, 0,
    0, lc0⟩ 1 1 93484727922) (.out ⟨1583, 16, 4548, 13949, 16, 19421, ⟨[[(15826387368329216, 0), (0,
    1799679650170255), (6117813334, 0)], [(30140332917042206, 0), (0, 1204214486294), (6115650, 0)], [(0,
    8065196799285), (0, 33765991), (2249, 0)]], 2, 2⟩, ⟨[[(0, 33283943440580608), (0, 4357695438920682),
    (18893190254, 0)]], 2, 2⟩, 72057594037927936, 52077810999299, 1296724689607, ⟨[], 0, 0⟩, 0, 0, 0, lc0⟩ 1 1
    75003409909)) (.sx (.sy (.out ⟨2247, 16, 6523, 13979, 16, 19506, ⟨[[(0, 28765201946673152), (0,
    2554386412111077), (8620958763, 0)], [(21305098909831756, 0), (0, 858715182853), (4329144, 0)], [(0,
    2960519941441), (0, 11050854), (817, 0)]], 2, 2⟩, ⟨[[(11640908042076160, 0), (0, 4357778023734428), (18852516423,
    0)]], 2, 2⟩, 72057594037927936, 9965569057697, 1291119894219, ⟨[], 0, 0⟩, 0, 0, 0, lc0⟩ 1 1 63897298589) (.sy
    (.out ⟨3200, 16, 9347, 28019, 16, 39160, ⟨[[(8670814228021248, 0), (0, 1825489731078919), (3071351533, 0)],
    [(30066310633940431, 0), (0, 612908235321), (1544759, 0)], [(0, 4248011953718), (0, 7473663), (297, 0)]], 2, 2⟩,
    ⟨[[(0, 17897521902780416), (0, 4360095085522886), (9415933497, 0)]], 2, 2⟩, 72057594037927936, 13421320300470,
    321727042251, ⟨[], 0, 0⟩, 0, 0, 0, lc0⟩ 1 1 51401012518) (.out ⟨3209, 16, 9410, 28049, 16, 39245, ⟨[[(0,
    7415035615248384), (0, 1834695138860551), (3080494979, 0)], [(29959599322597717, 0), (0, 615479965817), (1551109,
    0)], [(0, 4280345591342), (0, 7222396), (302, 0)]], 2, 2⟩, ⟨[[(11558457350029312, 0), (0, 4360100297540951),
    (9405747939, 0)]], 2, 2⟩, 72057594037927936, 13501286380929, 321030962789, ⟨[], 0, 0⟩, 0, 0, 0, lc0⟩ 1 1
    41935544190))) (.leaf ⟨2678, 16, 4166, 1018, 16, 4728, ⟨[[(30012938040934400, 0), (0, 3303243303155106),
    (22410207758, 0), (0, 217870), (0, 5)], [(13313687859710037, 0), (0, 1095254371629), (11208542, 0), (0, 72)],
    [(0, 1812796088447), (0, 14207372), (2131, 0)], [(626908338, 0), (0, 5108)]], 3, 4⟩, ⟨[[(13822731945328640, 0),
    (0, 2832971802080954), (7206231011, 0), (0, 373764), (0, 20)], [(0, 19227570988849310), (0, 102619542341),
    (392715, 0), (0, 189)], [(2138694454692, 0), (39278906, 0), (538, 0)], [(0, 261187305), (0, 4969)]], 3, 4⟩,
    72057594037927936, 15343932431, 10137242359, ⟨[[(14643383311356, 0), (1213081014, 0), (887722, 0), (1052, 0), (2,
    0)], [(1732636536, 0), (382543, 0), (0, 845), (0, 2)], [(0, 662126), (89, 0)], [(247, 0)]], 3, 4⟩,
    17592186044416, 99463,
    4943756115114091870119787334093472254987067276814808093782466012657072875350739138374769493752194800256502182999254795286319691,
    lc0⟩))))
theorem c83 : checkR job con0 false ⟨7, 9, 7, 9, 13, 17⟩ 1 34400 t83 825 21 1280 28737 251 32000 = true := by decide +kernel

def t84 : CTree :=
  .sy (.sx (.sy (.out ⟨1108, 16, 3038, 6898, 16, 9510, ⟨[[(16448242095538176, 0), (0, 2511056709121962),
    (17552873185, 0)], [(21543374174264829, 0), (0, 1651201307281), (17197762, 0)], [(0, 4866159600534), (0,
    62430603), (5695, 0)]], 2, 2⟩, ⟨[[(0, 12677593316065280), (0, 4352560147820052), (38115155198, 0)]], 2, 2⟩,
    72057594037927936, 36022727058692, 5289655601088, ⟨[], 0, 0⟩, 0, 0, 0, lc0⟩ 1 1 124497167739) (.sy (.out ⟨1579,
    16, 4379, 13857, 16, 19168, ⟨[[(0, 32571028301791232), (0, 1800248608202158), (6265579331, 0)],
    [(30160224162816628, 0), (0, 1180727528738), (6154266, 0)], [(0, 7046833971182), (0, 41870052), (2098, 0)]], 2,
    2⟩, ⟨[[(22232016975953920, 0), (0, 4357647026531656), (19017150978, 0)]], 2, 2⟩, 72057594037927936,
    48733506196290, 1313820463905, ⟨[], 0, 0⟩, 0, 0, 0, lc0⟩ 1 1 91060939486) (.out ⟨1586, 16, 4435, 13888, 16,
    19252, ⟨[[(3963202331574272, 0), (0, 1816920215322375), (6304628762, 0)], [(29947185564129158, 0), (0,
    1189583397786), (6204654, 0)], [(0, 7157700462807), (0, 40255741), (2159, 0)]], 2, 2⟩, ⟨[[(0, 28038858206740480),
    (0, 4357629502669497), (18975503506, 0)]], 2, 2⟩, 72057594037927936, 49246375025636, 1308074352433, ⟨[], 0, 0⟩,
    0, 0, 0, lc0⟩ 1 1 73716885509))) (.sy (.sy (.out ⟨1580, 16, 4266, 13796, 16, 19000, ⟨[[(0, 1724469972140032), (0,
    1815027597020180), (6438769328, 0)], [(29996399351522718, 0), (0, 1166258532837), (6219523, 0)], [(0,
    6192412747857), (0, 48201469), (2013, 0)]], 2, 2⟩, ⟨[[(21888371855982592, 0), (0, 4357555944924409),
    (19100442909, 0)]], 2, 2⟩, 72057594037927936, 46204309616843, 1325388473094, ⟨[], 0, 0⟩, 0, 0, 0, lc0⟩ 1 1
    91772072242) (.out ⟨1588, 16, 4321, 13827, 16, 19084, ⟨[[(0, 31618310588841984), (0, 1831900242123854),
    (6481821106, 0)], [(29791707510710979, 0), (0, 1174983034156), (6273425, 0)], [(0, 6296242287695), (0, 46761799),
    (2068, 0)]], 2, 2⟩, ⟨[[(0, 9142871097212928), (0, 4357622691867742), (19058798255, 0)]], 2, 2⟩,
    72057594037927936, 46674135682440, 1319591852250, ⟨[], 0, 0⟩, 0, 0, 0, lc0⟩ 1 1 71453026142)) (.sx (.sy (.out
    ⟨2241, 16, 6166, 13857, 16, 19168, ⟨[[(11506945808891904, 0), (0, 2587331725151362), (9098374406, 0)],
    [(20932285821892654, 0), (0, 833193810205), (4426429, 0)], [(0, 2310221919157), (0, 15623488), (747, 0)]], 2, 2⟩,
    ⟨[[(22232016975953920, 0), (0, 4357647026531656), (19017150978, 0)]], 2, 2⟩, 72057594037927936, 8889452162344,
    1313820463905, ⟨[], 0, 0⟩, 0, 0, 0, lc0⟩ 1 1 62460055827) (.leaf ⟨4184, 16, 6353, 1516, 16, 7030, ⟨[[(0,
    15584786517458944), (0, 2656417564606020), (9314236911, 0), (0, 40215)], [(21137311385010645, 0), (0,
    853893101193), (4541971, 0), (0, 12)], [(0, 2388171348347), (0, 15318622), (782, 0)], [(915002887, 0), (0,
    4992)]], 3, 4⟩, ⟨[[(24056520578088960, 0), (0, 2125442696935085), (3055772409, 0), (0, 61723), (0, 1)], [(0,
    27683830635858054), (0, 70087265578), (349469, 0), (0, 25)], [(2988757223907, 0), (27093158, 0), (175, 0)], [(0,
    362025538), (0, 3944)]], 3, 4⟩, 72057594037927936, 19286012106, 9518842725, ⟨[[(14756339667006, 0), (834775280,
    0), (379280, 0), (295, 0)], [(1081588230, 0), (172481, 0), (0, 237)], [(0, 264742), (23, 0)], [(63, 0)]], 3, 4⟩,
    17592186044416, 51707,
    3931186471329806140401476270962306391700387673358944537555368535490518133995580174574205815935495303391898727508347685199895565,
    lc0⟩)) (.leaf ⟨2594, 16, 3918, 1022, 16, 4765, ⟨[[(0, 31710141680418816), (0, 3326677839426283), (23526295989,
    0), (0, 199274), (0, 3)], [(13047543208636075, 0), (0, 1057696129334), (11388582, 0), (0, 58)], [(0,
    1399802640562), (0, 20178391), (1926, 0)], [(555947717, 0), (0, 6540)]], 3, 4⟩, ⟨[[(0, 5445030020661248), (0,
    2887321789042754), (8452143480, 0), (0, 332249), (0, 15)], [(0, 18583927466210249), (0, 92208731333), (1035707,
    0), (0, 123)], [(1990637067541, 0), (35934784, 0), (480, 0)], [(0, 240522591), (0, 5343)]], 3, 4⟩,
    72057594037927936, 11813306526, 9041227695, ⟨[[(14773311097960, 0), (1228263183, 0), (798984, 0), (897, 0), (1,
    0)], [(1732588280, 0), (424096, 0), (0, 804), (0, 1)], [(0, 685623), (83, 0)], [(264, 0)]], 3, 4⟩,
    17592186044416, 101014,
    3649954840494303682526832148569936901414049257497936021584247573756025119992813432083366654829323692384259806014141822964079371,
    lc0⟩)))) (.sx (.sy (.sx (.sy (.out ⟨2245, 16, 6344, 13918, 16, 19336, ⟨[[(0, 32616489855844352), (0,
    2572202478234124), (8866148317, 0)], [(21101871038458834, 0), (0, 845802287362), (4384947, 0)], [(0,
    2625842925411), (0, 13335561), (782, 0)]], 2, 2⟩, ⟨[[(0, 15777567004950528), (0, 4357570666803721), (18933858216,
    0)]], 2, 2⟩, 72057594037927936, 9398892369251, 1302353498907, ⟨[], 0, 0⟩, 0, 0, 0, lc0⟩ 1 1 63284451332) (.leaf
    ⟨4242, 16, 6537, 1507, 16, 6972, ⟨[[(30629009830313984, 0), (0, 2641313973539609), (9073464118, 0), (0, 41875)],
    [(21307468581669681, 0), (0, 867007627883), (4497722, 0), (0, 14)], [(0, 2712421373762), (0, 12925121), (820,
    0)], [(969378455, 0), (0, 4422)]], 3, 4⟩, ⟨[[(0, 8819801761087488), (0, 2096031561759646), (2815882787, 0), (0,
    65086), (0, 2)], [(0, 28035195164839942), (0, 73548495156), (234381, 0), (0, 30)], [(3084307259932, 0),
    (28202069, 0), (184, 0)], [(0, 375678376), (0, 3801)]], 3, 4⟩, 72057594037927936, 22041910441, 9535854277,
    ⟨[[(14691835676436, 0), (833954731, 0), (404109, 0), (325, 0)], [(1084028029, 0), (164392, 0), (0, 247)], [(0,
    261282), (24, 0)], [(61, 0)]], 3, 4⟩, 17592186044416, 62062,
    4574275566904270782896125353238585821013645216283411179794858989799838086104142662367812111900270512644713406853804651616338236,
    lc0⟩)) (.leaf ⟨2636, 16, 4041, 1020, 16, 4747, ⟨[[(0, 2696761713754112), (0, 3316389239350658), (22985184382, 0),
    (0, 207696), (0, 4)], [(13168894267678882, 0), (0, 1076131592471), (11316464, 0), (0, 64)], [(0, 1599772771887),
    (0, 17204155), (2028, 0)], [(589602178, 0), (0, 5883)]], 3, 4⟩, ⟨[[(0, 8108202253516800), (0, 2860322479374750),
    (7831019760, 0), (0, 352367), (0, 17)], [(0, 18900987064766190), (0, 97133409679), (741052, 0), (0, 154)],
    [(2063321033213, 0), (37623166, 0), (514, 0)], [(0, 250727071), (0, 5189)]], 3, 4⟩, 72057594037927936,
    13460223998, 9935066408, ⟨[[(14708315891254, 0), (1219892434, 0), (841989, 0), (969, 0), (2, 0)], [(1732583202,
    0), (403260, 0), (0, 823), (0, 1)], [(0, 673687), (86, 0)], [(255, 0)]], 3, 4⟩, 17592186044416, 106054,
    4238550945285908419864206071133831066150385964851863406818338701413148669078381938392088245991161758986434052303102451663929362,
    lc0⟩)) (.leaf ⟨2127, 16, 3294, 739, 16, 3487, ⟨[[(0, 6176437187084288), (0, 2666433724295434), (18284507456, 0),
    (0, 175671), (0, 4)], [(20704399886899032, 0), (0, 1734936547768), (18152950, 0), (0, 102)], [(0, 5363706689045),
    (0, 48168422), (6846, 0)], [(3859877664, 0), (0, 36140), (1, 0)]], 3, 4⟩, ⟨[[(0, 26949836541853696), (0,
    2094030654694833), (5334632006, 0), (0, 284226), (0, 15)], [(0, 27968540221272119), (0, 144154757549), (685185,
    0), (0, 265)], [(6165593983024, 0), (113128133, 0), (1774, 0)], [(0, 1501227247), (0, 28862), (2, 0)]], 3, 4⟩,
    72057594037927936, 164453422193, 65447724892, ⟨[[(14644939059049, 0), (1614056549, 0), (1527180, 0), (2300, 0),
    (6, 0)], [(2163186907, 0), (703661, 0), (0, 1795), (0, 4)], [(0, 1047009), (165, 0), (1, 0)], [(492, 0)]], 3, 4⟩,
    17592186044416, 139326,
    2919827673246865871006986089449085971365192140150541195912506184980561307499114403960015562163108691629829255848797151147315018,
    lc0⟩)) (.leaf ⟨1303, 16, 1998, 498, 16, 2379, ⟨[[(9813131479662592, 0), (0, 3334840528816454), (46566364544, 0),
    (0, 853268), (0, 35)], [(12562866942201076, 0), (0, 2121256738766), (45611520, 0), (0, 435)], [(0,
    2955183031945), (0, 68546659), (16553, 0), (1, 0)], [(2267196291, 0), (0, 50552), (2, 0)]], 3, 4⟩, ⟨[[(0,
    7210131565989888), (0, 2869040658066794), (15235877286, 0), (0, 1526807), (0, 159)], [(0, 18710382202168113), (0,
    184579289923), (2789853, 0), (0, 1249)], [(4060946706699, 0), (148132668, 0), (4976, 0), (1, 0)], [(0,
    984599768), (0, 39903), (4, 0)]], 3, 4⟩, 72057594037927936, 102097963714, 80523654984, ⟨[[(14675670487553, 0),
    (2348967738, 0), (3075606, 0), (6441, 0), (22, 0)], [(3483415953, 0), (1791716, 0), (0, 5910), (0, 15)], [(0,
    2766111), (558, 0), (5, 0)], [(2125, 0), (0, 1)]], 3, 4⟩, 17592186044416, 457513,
    3204141434611277452971775950052813557282226691939973648919218895109815672198248588273292385084237476521758497797887924927260862,
    lc0⟩))
theorem c84 : checkR job con0 false ⟨7, 9, 7, 9, 13, 17⟩ 1 34400 t84 867 21 1280 28737 251 32000 = true := by decide +kernel

def t85 : CTree :=
  .sx (.sy (.sy (.out ⟨769, 16, 1922, 6776, 16, 9178, ⟨[[(0, 29763176190697472), (0, 1749285934513841), (12861761299,
    0)], [(30439893293342165, 0), (0, 2202517840976), (24052314, 0)], [(0, 9106179101119), (0, 247612046), (13635,
    0)]], 2, 2⟩, ⟨[[(12149254498549760, 0), (0, 4352326084622088), (38795280065, 0)]], 2, 2⟩, 72057594037927936,
    164189347191877, 5480627381923, ⟨[], 0, 0⟩, 0, 0, 0, lc0⟩ 1 1 190914721507) (.out ⟨775, 16, 1969, 6807, 16, 9261,
    ⟨[[(0, 4108434815098880), (0, 1778906308100128), (13031088673, 0)], [(30057750929742702, 0), (0, 2231746619967),
    (24427120, 0)], [(0, 9452662756083), (0, 239539854), (14183, 0)]], 2, 2⟩, ⟨[[(0, 797910813704192), (0,
    4352645286632784), (38625289839, 0)]], 2, 2⟩, 72057594037927936, 167077654066514, 5432250727673, ⟨[], 0, 0⟩, 0,
    0, 0, lc0⟩ 1 1 146569865418)) (.sx (.sy (.out ⟨1105, 16, 2869, 6838, 16, 9344, ⟨[[(0, 68898159476736), (0,
    2539325676939392), (18406445473, 0)], [(21237261823358744, 0), (0, 1604742060809), (17429297, 0)], [(0,
    3688755553945), (0, 79274254), (5244, 0)]], 2, 2⟩, ⟨[[(0, 33443829585739776), (0, 4352787626240298),
    (38455244907, 0)]], 2, 2⟩, 72057594037927936, 32507283281336, 5384296488931, ⟨[], 0, 0⟩, 0, 0, 0, lc0⟩ 1 1
    125748917808) (.sy (.out ⟨1580, 16, 4153, 13735, 16, 18833, ⟨[[(27356373842198528, 0), (0, 1827902817844885),
    (6603619039, 0)], [(29870828094282228, 0), (0, 1151996709336), (6268756, 0)], [(0, 5381753777070), (0, 54494992),
    (1930, 0)]], 2, 2⟩, ⟨[[(35236732306063360, 0), (0, 4357524339459997), (19184733042, 0)]], 2, 2⟩,
    72057594037927936, 43914464064211, 1337128269279, ⟨[], 0, 0⟩, 0, 0, 0, lc0⟩ 1 1 92205941224) (.out ⟨1588, 16,
    4206, 13766, 16, 18917, ⟨[[(0, 23440373538537472), (0, 1844535225912113), (6648763589, 0)], [(29667950619350845,
    0), (0, 1160336804554), (6323752, 0)], [(0, 5477646057132), (0, 53216198), (1979, 0)]], 2, 2⟩,
    ⟨[[(23584641057685504, 0), (0, 4357676582309439), (19143094410, 0)]], 2, 2⟩, 72057594037927936, 44335538861425,
    1331280569642, ⟨[], 0, 0⟩, 0, 0, 0, lc0⟩ 1 1 70264871995))) (.sy (.sy (.out ⟨1579, 16, 4038, 13675, 16, 18667,
    ⟨[[(0, 4549981328261120), (0, 1837916873128948), (6756438306, 0)], [(29763473259094894, 0), (0, 1137313981361),
    (6300509, 0)], [(0, 4609349747955), (0, 60671901), (1850, 0)]], 2, 2⟩, ⟨[[(0, 9598122128048128), (0,
    4357553808838843), (19270041741, 0)]], 2, 2⟩, 72057594037927936, 41827299784611, 1349043888653, ⟨[], 0, 0⟩, 0, 0,
    0, lc0⟩ 1 1 91963638787) (.out ⟨1586, 16, 4089, 13705, 16, 18750, ⟨[[(0, 4547127223091200), (0,
    1854279995114794), (6803209391, 0)], [(29562849616691950, 0), (0, 1145284970039), (6355745, 0)], [(0,
    4697934211155), (0, 59547753), (1893, 0)]], 2, 2⟩, ⟨[[(17657262997504000, 0), (0, 4357560388614191),
    (19227386959, 0)]], 2, 2⟩, 72057594037927936, 42204582139042, 1343072846603, ⟨[], 0, 0⟩, 0, 0, 0, lc0⟩ 1 1
    70294534606)) (.leaf ⟨2014, 16, 2957, 768, 16, 3570, ⟨[[(7022255128035328, 0), (0, 2667125987677769),
    (19510763285, 0), (0, 149886), (0, 1)], [(20757610030838427, 0), (0, 1642642166383), (18284772, 0), (0, 86)],
    [(0, 3429002076618), (0, 81965618), (5574, 0)], [(3228310823, 0), (0, 47627)]], 3, 4⟩, ⟨[[(3069654340493312, 0),
    (0, 2186510775523686), (7175317836, 0), (0, 219815), (0, 8)], [(0, 26867310664357477), (0, 126852817030),
    (2181779, 0), (0, 112)], [(5557456235260, 0), (97915710, 0), (1153, 0)], [(0, 1326003052), (0, 32849), (1, 0)]],
    3, 4⟩, 72057594037927936, 107292293073, 57492431891, ⟨[[(14902626864427, 0), (1688290872, 0), (1334163, 0),
    (1967, 0), (4, 0)], [(2167627520, 0), (761814, 0), (0, 1779), (0, 3)], [(0, 1105312), (166, 0), (1, 0)], [(548,
    0)]], 3, 4⟩, 17592186044416, 137707,
    4331257137722618729081014127749288566561208931697761654560024990699740460707309657876088067461341187434109606067155639308213021,
    lc0⟩)))) (.sy (.sx (.sy (.out ⟨1100, 16, 2704, 6776, 16, 9178, ⟨[[(0, 10427631721398272), (0, 2558978290029911),
    (19179802553, 0)], [(21044845666511890, 0), (0, 1560826801198), (17526244, 0)], [(0, 2635736892882), (0,
    95631168), (4838, 0)]], 2, 2⟩, ⟨[[(12149254498549760, 0), (0, 4352326084622088), (38795280065, 0)]], 2, 2⟩,
    72057594037927936, 29709135386966, 5480627381923, ⟨[], 0, 0⟩, 0, 0, 0, lc0⟩ 1 1 123907966955) (.sy (.out ⟨1576,
    16, 3923, 13614, 16, 18502, ⟨[[(24594782472749056, 0), (0, 1845866333282723), (6899910032, 0)],
    [(29683173173791025, 0), (0, 1122689618416), (6319180, 0)], [(0, 3875201209541), (0, 66714462), (1775, 0)]], 2,
    2⟩, ⟨[[(31684623541993472, 0), (0, 4357645994731387), (19356389925, 0)]], 2, 2⟩, 72057594037927936,
    39948784380968, 1361138948647, ⟨[], 0, 0⟩, 0, 0, 0, lc0⟩ 1 1 91624774899) (.out ⟨1583, 16, 3973, 13644, 16,
    18584, ⟨[[(31224784586801152, 0), (0, 1862395946664698), (6949583331, 0)], [(29492332905627288, 0), (0,
    1130585589659), (6375548, 0)], [(0, 3958055319401), (0, 65752625), (1813, 0)]], 2, 2⟩, ⟨[[(25463587384459264, 0),
    (0, 4357504029361799), (19312694864, 0)]], 2, 2⟩, 72057594037927936, 40296875098885, 1355041388974, ⟨[], 0, 0⟩,
    0, 0, 0, lc0⟩ 1 1 70502983964))) (.sy (.sy (.out ⟨1573, 16, 3809, 13553, 16, 18337, ⟨[[(0, 3360665314279424), (0,
    1852177720863716), (7035542650, 0)], [(29632621198799622, 0), (0, 1108346097308), (6327686, 0)], [(0,
    3177554367503), (0, 72608092), (1705, 0)]], 2, 2⟩, ⟨[[(33956224326565888, 0), (0, 4357564945232591),
    (19442738787, 0)]], 2, 2⟩, 72057594037927936, 38273822308368, 1373342519867, ⟨[], 0, 0⟩, 0, 0, 0, lc0⟩ 1 1
    90020875044) (.leaf ⟨2783, 16, 3933, 1058, 16, 4845, ⟨[[(0, 7504356197269504), (0, 1905200324807510),
    (7225616612, 0), (0, 25845)], [(30024437348138088, 0), (0, 1137880471985), (6508830, 0), (0, 16)], [(0,
    3318189155545), (0, 73198154), (1773, 0)], [(4183244841, 0), (0, 37244)]], 3, 4⟩, ⟨[[(0, 3831017401286656), (0,
    1505110224163703), (2791250865, 0), (0, 32461)], [(0, 35018343468323285), (0, 80138615880), (903461, 0), (0, 8)],
    [(6938478721003, 0), (59021752, 0), (262, 0)], [(0, 1621046720), (0, 22287)]], 3, 4⟩, 72057594037927936,
    104291269611, 66637170964, ⟨[[(15086403933917, 0), (1309715537, 0), (686662, 0), (747, 0), (1, 0)], [(1513324739,
    0), (413190, 0), (0, 690), (0, 1)], [(0, 556429), (60, 0)], [(199, 0)]], 3, 4⟩, 17592186044416, 62482,
    4659506424959610223334778494012601353184122798597903941997941919745445160642527812235409168597803235708360939999539597718781181,
    lc0⟩)) (.leaf ⟨1954, 16, 2782, 779, 16, 3620, ⟨[[(31226165058142208, 0), (0, 2679947322867520), (20279080058, 0),
    (0, 146013)], [(20634261033628053, 0), (0, 1595925837146), (18316363, 0), (0, 85)], [(0, 2385388767554), (0,
    99754268), (5076, 0)], [(2939192464, 0), (0, 52586)]], 3, 4⟩, ⟨[[(0, 20008493222092800), (0, 2242924357009130),
    (8118758586, 0), (0, 201668), (0, 6)], [(0, 26209083363508157), (0, 117742064927), (2639524, 0), (0, 58)],
    [(5217490930748, 0), (88834026, 0), (912, 0)], [(0, 1223657808), (0, 32951)]], 3, 4⟩, 72057594037927936,
    77020815300, 52747730996, ⟨[[(15035178204643, 0), (1713415071, 0), (1194676, 0), (1705, 0), (3, 0)],
    [(2162990840, 0), (816890, 0), (0, 1683), (0, 3)], [(0, 1138769), (140, 0), (1, 0)], [(582, 0)]], 3, 4⟩,
    17592186044416, 121945,
    3308982914689735970353083095583078675370138812439841358364185973142708986892877212283552657495829826423004470909935536924547467,
    lc0⟩))) (.leaf ⟨985, 16, 1426, 379, 16, 1799, ⟨[[(0, 27443375645040640), (0, 2682599784215201), (40125268777, 0),
    (0, 594945), (0, 5)], [(20041860832682914, 0), (0, 3208105933030), (73485248, 0), (0, 608)], [(0, 5415606587663),
    (0, 363959780), (42831, 0), (1, 0)], [(12030523420, 0), (0, 414543), (3, 0)]], 3, 4⟩, ⟨[[(14603683740000256, 0),
    (0, 2215075572047069), (15086667891, 0), (0, 877774), (0, 64)], [(0, 26358731514571630), (0, 234004220270),
    (9683511, 0), (0, 673)], [(10663323976573, 0), (367641189, 0), (9461, 0), (2, 0)], [(0, 5047360723), (0, 258605),
    (10, 0)]], 3, 4⟩, 72057594037927936, 721683579978, 435621234862, ⟨[[(14936705939473, 0), (3315359272, 0),
    (4725343, 0), (13059, 0), (47, 0)], [(4340532319, 0), (3386302, 0), (0, 12896), (0, 38)], [(0, 4565448), (952,
    0), (17, 0)], [(4650, 0), (0, 4)]], 3, 4⟩, 17592186044416, 1364943,
    3784837268626174429952501410050069415639651624003051685340123135728910147869055091681883793819471751197015083632497272069018343,
    lc0⟩))
theorem c85 : checkR job con0 false ⟨7, 9, 7, 9, 13, 17⟩ 1 34400 t85 465 21 640 28235 251 32000 = true := by decide +kernel

def t86 : CTree :=
  .sx (.leaf ⟨590, 16, 836, 249, 16, 1206, ⟨[[(0, 14911321948602368), (0, 3329767094467846), (102601361964, 0), (0,
    2901465), (16, 0)], [(11999477486389518, 0), (0, 3845576478968), (181749240, 0), (0, 2789), (1, 0)], [(0,
    2242518809708), (0, 517502711), (98784, 0), (5, 0)], [(6824270287, 0), (0, 556973), (1, 0)]], 3, 4⟩,
    ⟨[[(20349678338068480, 0), (0, 2992846680962906), (43347606256, 0), (0, 4504551), (0, 583)], [(0,
    17052354938651575), (0, 281336335539), (29059682, 0), (0, 2014), (0, 1)], [(6680129420350, 0), (443713171, 0),
    (23201, 0), (12, 0)], [(0, 3119737708), (0, 336833), (15, 0)]], 3, 4⟩, 72057594037927936, 385670260355,
    530084665868, ⟨[[(15002114874437, 0), (4956625313, 0), (9328741, 0), (36835, 0), (186, 0)], [(7035976643, 0),
    (9161450, 0), (0, 43530), (0, 152), (0, 2)], [(0, 12464696), (2059, 0), (99, 0), (1, 0)], [(21315, 0), (0, 26)]],
    3, 4⟩, 17592186044416, 8057452,
    3889623614265758864610434865801217106373720958094990393315045263883209093316068233189695260847921428489984873363070576652940639,
    lc0⟩) (.leaf ⟨577, 16, 809, 241, 16, 1215, ⟨[[(33618087382089728, 0), (0, 3379449166577685), (106843213725, 0),
    (0, 2913248), (53, 0)], [(11464201700052186, 0), (0, 3766412724399), (183904999, 0), (0, 2333), (1, 0)], [(0,
    1351623746948), (0, 572868781), (95388, 0), (4, 0)], [(6400655039, 0), (0, 604902), (0, 4)]], 3, 4⟩,
    ⟨[[(20959425347958784, 0), (0, 3026321994162507), (44942860137, 0), (0, 4602391), (0, 617)], [(0,
    16630554227150979), (0, 247657105480), (31301508, 0), (0, 1029), (0, 1)], [(6347159871740, 0), (405128532, 0),
    (24651, 0), (12, 0)], [(0, 2935691202), (0, 326099), (6, 0)]], 3, 4⟩, 72057594037927936, 262406293250,
    548064094853, ⟨[[(14997429174054, 0), (4810495620, 0), (7981894, 0), (28955, 0), (142, 0)], [(7015231375, 0),
    (10232372, 0), (0, 39564), (0, 94), (0, 1)], [(0, 12899066), (0, 239), (92, 0)], [(22824, 0), (0, 27)]], 3, 4⟩,
    17592186044416, 7659178,
    2603486277343721162946165652373143932451771551311800776954093229554653412455179010921625170928961271551250906373574996640418428,
    lc0⟩)
theorem c86 : checkR job con0 false ⟨7, 9, 7, 9, 13, 17⟩ 1 34400 t86 507 21 640 28235 251 32000 = true := by decide +kernel

def t87 : CTree :=
  .sx (.sx (.sy (.leaf ⟨1015, 16, 1515, 374, 16, 1773, ⟨[[(0, 15781600230375424), (0, 2668399874997128),
    (38507862246, 0), (0, 625470), (0, 15)], [(20167640076676346, 0), (0, 3304047475074), (73212206, 0), (0, 636)],
    [(0, 7562444947570), (0, 288924103), (47516, 0), (2, 0)], [(13278506209, 0), (0, 369223), (7, 0)]], 3, 4⟩,
    ⟨[[(2802156768350208, 0), (0, 2158839110258614), (13126969797, 0), (0, 978677), (0, 88)], [(0,
    27017124319217789), (0, 254304910756), (7277364, 0), (0, 1200)], [(11358528608563, 0), (404983167, 0), (11787,
    0), (3, 0)], [(0, 5456619601), (0, 252541), (17, 0)]], 3, 4⟩, 72057594037927936, 969977315265, 474662495560,
    ⟨[[(14805535988480, 0), (3268170557, 0), (5295708, 0), (15056, 0), (62, 0)], [(4353687076, 0), (3158180, 0), (0,
    13577), (0, 46)], [(0, 4433424), (1159, 0), (16, 0)], [(4376, 0), (0, 3)]], 3, 4⟩, 17592186044416, 1572237,
    4961123395062802607539515270061407715954929614301659873775834145733005179179226338531629667209172044980243497725953077496843754,
    lc0⟩) (.leaf ⟨1037, 16, 1577, 359, 16, 1774, ⟨[[(7092210253971456, 0), (0, 2737859042845937), (39074587621, 0),
    (0, 692261), (0, 25)], [(19285598414878363, 0), (0, 3363211835113), (75326620, 0), (0, 505)], [(0,
    8010151835341), (0, 249301232), (53234, 0), (3, 0)], [(13630808832, 0), (0, 376839), (8, 0)]], 3, 4⟩,
    ⟨[[(17699105479233536, 0), (0, 2147659386741266), (11507826493, 0), (0, 1193420), (0, 126)], [(0,
    27158424873514344), (0, 248145858510), (5168094, 0), (0, 1620)], [(11571735040523, 0), (419572888, 0), (17057,
    0), (4, 0)], [(0, 5581958797), (0, 233759), (21, 0)]], 3, 4⟩, 72057594037927936, 1056475828911, 482717169936,
    ⟨[[(14674669050614, 0), (3048802235, 0), (4912114, 0), (12203, 0), (53, 0)], [(4298514248, 0), (3374003, 0), (0,
    11958), (0, 26)], [(0, 4343075), (830, 0), (11, 0)], [(4216, 0), (0, 3)]], 3, 4⟩, 17592186044416, 1218173,
    2501904468087330876147313439623844296133228839702593794126478067862510236638057548795085012677476945201818355888426093501271100,
    lc0⟩)) (.leaf ⟨616, 16, 918, 238, 16, 1203, ⟨[[(837707987968000, 0), (0, 3377409516524893), (99795196799, 0), (0,
    3210994), (0, 153)], [(11373666272258962, 0), (0, 3989153655892), (186436867, 0), (0, 1742), (1, 0)], [(0,
    3646716970682), (0, 382015432), (120633, 0), (12, 0)], [(7544692874, 0), (0, 529159), (5, 0)]], 3, 4⟩,
    ⟨[[(12358663402147840, 0), (0, 2934247492278341), (34320156536, 0), (0, 6126880), (0, 1240)], [(0,
    17740589192309205), (0, 295291359120), (20585294, 0), (0, 5940), (0, 2)], [(7320113640022, 0), (517284182, 0),
    (44032, 0), (20, 0)], [(0, 3501325248), (0, 323101), (35, 0)]], 3, 4⟩, 72057594037927936, 594676161116,
    670860426118, ⟨[[(14739127977064, 0), (4494611038, 0), (9567633, 0), (32906, 0), (192, 0)], [(7029118756, 0),
    (9083437, 0), (0, 41011), (0, 95), (0, 2)], [(0, 12069181), (2072, 0), (70, 0)], [(19864, 0), (0, 21)]], 3, 4⟩,
    17592186044416, 7731202,
    3492970338185932440233792518201151934639856553556938747794199439476993721945717088885455058161737947569461931075896858152984882,
    lc0⟩)) (.sx (.leaf ⟨603, 16, 889, 230, 16, 1214, ⟨[[(0, 7750582015008768), (0, 3433659489187199), (104431859848,
    0), (0, 3160437), (0, 98)], [(10755735721954942, 0), (0, 3897067621431), (190367710, 0), (0, 742), (1, 0)], [(0,
    2633671161841), (0, 439707216), (116753, 0), (11, 0)], [(6959297592, 0), (0, 594647), (0, 6)]], 3, 4⟩,
    ⟨[[(6601466490896384, 0), (0, 2972696564781086), (35587130294, 0), (0, 6397918), (0, 1318)], [(0,
    17300584654143424), (0, 255859911726), (24662175, 0), (0, 4234), (0, 1)], [(6956309193554, 0), (481194043, 0),
    (47813, 0), (21, 0)], [(0, 3306632027), (0, 322393), (19, 0)]], 3, 4⟩, 72057594037927936, 494600732414,
    677744157759, ⟨[[(14740462430822, 0), (4337272964, 0), (8269696, 0), (25246, 0), (127, 0)], [(6995883661, 0),
    (10123144, 0), (0, 38501), (0, 50), (0, 1)], [(0, 12464444), (242, 0), (74, 0)], [(21212, 0), (0, 24)]], 3, 4⟩,
    17592186044416, 7125371,
    3065640700986004628911318964115380457903425807545566746066164878961261400035923227567547519986981541069017605795504706748305943,
    lc0⟩) (.leaf ⟨589, 16, 860, 222, 16, 1225, ⟨[[(16909783111598080, 0), (0, 3480782314860515), (108958395704, 0),
    (0, 3069315), (0, 35)], [(10226006238078261, 0), (0, 3808854792523), (193593129, 0), (133, 0), (2, 0)], [(0,
    1716303136173), (0, 502776415), (111479, 0), (10, 0)], [(6479330145, 0), (0, 653203), (0, 17)]], 3, 4⟩,
    ⟨[[(12221956081338368, 0), (0, 3009643072885898), (37040999153, 0), (0, 6597313), (0, 1377)], [(0,
    16884995125282636), (0, 219110194014), (29010936, 0), (0, 2461), (0, 1)], [(6612497223491, 0), (444664425, 0),
    (49652, 0), (22, 0)], [(0, 3123614146), (0, 324017), (4, 0)]], 3, 4⟩, 72057594037927936, 380321887591,
    653960752785, ⟨[[(14737888079269, 0), (4204717101, 0), (7231984, 0), (20333, 0), (78, 0)], [(6974552191, 0),
    (11128433, 0), (0, 37023), (0, 29)], [(0, 12918161), (0, 1792), (82, 0)], [(22824, 0), (0, 25)]], 3, 4⟩,
    17592186044416, 7923875,
    4135482877609820632738911055624859762422198736695928855498166552715023754186956159393338686847599177307500427163436576619610654,
    lc0⟩))
theorem c87 : checkR job con0 false ⟨7, 9, 7, 9, 13, 17⟩ 1 34400 t87 243 21 320 28737 251 32000 = true := by decide +kernel

def t88 : CTree :=
  .sy (.sy (.out ⟨741, 16, 2305, 7020, 16, 9848, ⟨[[(0, 21497711977201664), (0, 1576893397284969), (9949613949, 0)],
    [(32169753342868291, 0), (0, 2381740233567), (20911959, 0)], [(0, 23368222522787), (0, 75395112), (16770, 0)]],
    2, 2⟩, ⟨[[(0, 32294720072581120), (0, 4352830954675709), (37458851791, 0)]], 2, 2⟩, 72057594037927936,
    251947252355682, 5108546864542, ⟨[], 0, 0⟩, 0, 0, 0, lc0⟩ 1 1 183254978069) (.out ⟨748, 16, 2364, 7050, 16, 9934,
    ⟨[[(30962086816317440, 0), (0, 1607095433779380), (10034863409, 0)], [(31772321731976960, 0), (0, 2421368050005),
    (21052674, 0)], [(0, 24000804874716), (0, 59778540), (17770, 0)]], 2, 2⟩, ⟨[[(28379097881837568, 0), (0,
    4353150396857665), (37300461821, 0)]], 2, 2⟩, 72057594037927936, 258446759271406, 5065017708748, ⟨[], 0, 0⟩, 0,
    0, 0, lc0⟩ 1 1 144766805109)) (.sx (.sy (.out ⟨1098, 16, 3543, 7080, 16, 10019, ⟨[[(17071935305990144, 0), (0,
    2355870624351737), (14446366046, 0)], [(23287061989676955, 0), (0, 1798150559058), (15179533, 0)], [(0,
    9327696813946), (0, 15596049), (6727, 0)]], 2, 2⟩, ⟨[[(19093797377474560, 0), (0, 4352870217528879),
    (37138312708, 0)]], 2, 2⟩, 72057594037927936, 51809951801189, 5021353879268, ⟨[], 0, 0⟩, 0, 0, 0, lc0⟩ 1 1
    126146463519) (.out ⟨1104, 16, 3617, 7111, 16, 10105, ⟨[[(33931996548022272, 0), (0, 2390412896048706),
    (14457549184, 0)], [(22855793057800472, 0), (0, 1820320527767), (15150830, 0)], [(0, 9528757202962), (0,
    8891387), (7145, 0)]], 2, 2⟩, ⟨[[(0, 29903610746306560), (0, 4352867219948851), (36979901451, 0)]], 2, 2⟩,
    72057594037927936, 53153816168314, 4978566532591, ⟨[], 0, 0⟩, 0, 0, 0, lc0⟩ 1 1 93293898507)) (.sy (.sy (.out
    ⟨1542, 16, 4896, 14161, 16, 20017, ⟨[[(0, 4596040433909760), (0, 1682589592466296), (5239832118, 0)],
    [(31447246251874688, 0), (0, 1246060338901), (5470899, 0)], [(0, 11996662000807), (0, 12119000), (2425, 0)]], 2,
    2⟩, ⟨[[(0, 10635315978698752), (0, 4357635296161729), (18609410095, 0)]], 2, 2⟩, 72057594037927936,
    65075355038437, 1258059794348, ⟨[], 0, 0⟩, 0, 0, 0, lc0⟩ 1 1 97403810402) (.out ⟨1551, 16, 4961, 14191, 16,
    20103, ⟨[[(0, 32565766739345408), (0, 1699622382417128), (5259052354, 0)], [(31232310118995413, 0), (0,
    1257064300195), (5489950, 0)], [(0, 12161472486451), (0, 9787396), (2509, 0)]], 2, 2⟩, ⟨[[(19385778287017984, 0),
    (0, 4357653262184485), (18569677038, 0)]], 2, 2⟩, 72057594037927936, 65948970426932, 1252685410092, ⟨[], 0, 0⟩,
    0, 0, 0, lc0⟩ 1 1 78576923334)) (.sy (.out ⟨1560, 16, 5028, 14222, 16, 20190, ⟨[[(0, 35543537328537600), (0,
    1717251360360077), (5277174367, 0)], [(31015941892126842, 0), (0, 1268482853013), (5508444, 0)], [(0,
    12330051463209), (0, 7338368), (2600, 0)]], 2, 2⟩, ⟨[[(18750913914339328, 0), (0, 4357847203567360),
    (18530861913, 0)]], 2, 2⟩, 72057594037927936, 66855824996641, 1247395564172, ⟨[], 0, 0⟩, 0, 0, 0, lc0⟩ 1 1
    61611190394) (.sy (.out ⟨1962, 16, 6363, 28505, 16, 40531, ⟨[[(16889106410635264, 0), (0, 1084097395188883),
    (1656615680, 0)], [(38647678651271241, 0), (0, 800026399141), (1729251, 0)], [(0, 15606869402645), (0, 3393952),
    (837, 0)]], 2, 2⟩, ⟨[[(18114887593492480, 0), (0, 4360170908852779), (9255553452, 0)]], 2, 2⟩, 72057594037927936,
    83874359323647, 310852243205, ⟨[], 0, 0⟩, 0, 0, 0, lc0⟩ 1 1 50824865749) (.out ⟨1971, 16, 6415, 28535, 16, 40617,
    ⟨[[(0, 24367855392784384), (0, 1091284536930250), (1661229220, 0)], [(38559060213458462, 0), (0, 804818674394),
    (1734160, 0)], [(0, 15735916787656), (0, 2569492), (854, 0)]], 2, 2⟩, ⟨[[(23558276983291904, 0), (0,
    4360125032919041), (9245603763, 0)]], 2, 2⟩, 72057594037927936, 84562992673648, 310187405485, ⟨[], 0, 0⟩, 0, 0,
    0, lc0⟩ 1 1 41843853369)))))
theorem c88 : checkR job con0 false ⟨7, 9, 7, 9, 13, 17⟩ 1 34400 t88 741 21 1280 29239 251 32000 = true := by decide +kernel

def t89 : CTree :=
  .sy (.sx (.sy (.out ⟨1106, 16, 3378, 7020, 16, 9848, ⟨[[(0, 24492742876102656), (0, 2421013956749422),
    (15571533029, 0)], [(22550709369022464, 0), (0, 1748818040367), (16122099, 0)], [(0, 7667003980788), (0,
    29556476), (6529, 0)]], 2, 2⟩, ⟨[[(0, 32294720072581120), (0, 4352830954675709), (37458851791, 0)]], 2, 2⟩,
    72057594037927936, 45621150020484, 5108546864542, ⟨[], 0, 0⟩, 0, 0, 0, lc0⟩ 1 1 123878818178) (.sy (.out ⟨1553,
    16, 4801, 14100, 16, 19846, ⟨[[(35304644725243904, 0), (0, 1712158105835064), (5464312249, 0)],
    [(31117750933111564, 0), (0, 1234181680765), (5661332, 0)], [(0, 10911257158228), (0, 17460257), (2387, 0)]], 2,
    2⟩, ⟨[[(24262614199697408, 0), (0, 4357697273315565), (18689809415, 0)]], 2, 2⟩, 72057594037927936,
    61299136534047, 1268941625435, ⟨[], 0, 0⟩, 0, 0, 0, lc0⟩ 1 1 96209884101) (.out ⟨1562, 16, 4865, 14131, 16,
    19932, ⟨[[(9449074694406144, 0), (0, 1729446846383402), (5489037105, 0)], [(30906191414817883, 0), (0,
    1244897409550), (5690558, 0)], [(0, 11064978415778), (0, 15239331), (2469, 0)]], 2, 2⟩, ⟨[[(1012068415045632, 0),
    (0, 4357795581711859), (18650076742, 0)]], 2, 2⟩, 72057594037927936, 62096169771945, 1263520756019, ⟨[], 0, 0⟩,
    0, 0, 0, lc0⟩ 1 1 78034613461))) (.sy (.sy (.out ⟨1563, 16, 4701, 14039, 16, 19675, ⟨[[(0, 15684313112838144),
    (0, 1738595617046548), (5679723988, 0)], [(30826100886942050, 0), (0, 1221577925189), (5823124, 0)], [(0,
    9874607336854), (0, 23229289), (2330, 0)]], 2, 2⟩, ⟨[[(21443865716326400, 0), (0, 4357597323185745),
    (18770206643, 0)]], 2, 2⟩, 72057594037927936, 57779058708667, 1279917510794, ⟨[], 0, 0⟩, 0, 0, 0, lc0⟩ 1 1
    93538487649) (.out ⟨1571, 16, 4763, 14070, 16, 19761, ⟨[[(10197576144273408, 0), (0, 1755770746159831),
    (5708606524, 0)], [(30612820168321682, 0), (0, 1231785506558), (5859825, 0)], [(0, 10016056366857), (0,
    21141529), (2409, 0)]], 2, 2⟩, ⟨[[(17222791064190976, 0), (0, 4357778063435488), (18730483344, 0)]], 2, 2⟩,
    72057594037927936, 58494295854185, 1274450090433, ⟨[], 0, 0⟩, 0, 0, 0, lc0⟩ 1 1 76093639914)) (.sy (.out ⟨1580,
    16, 4827, 14100, 16, 19846, ⟨[[(0, 8878512222388224), (0, 1773578425959411), (5737257595, 0)],
    [(30398989845499173, 0), (0, 1242395133786), (5897553, 0)], [(0, 10160777456769), (0, 18949156), (2493, 0)]], 2,
    2⟩, ⟨[[(24262614199697408, 0), (0, 4357697273315565), (18689809415, 0)]], 2, 2⟩, 72057594037927936,
    59237241173238, 1268941625435, ⟨[], 0, 0⟩, 0, 0, 0, lc0⟩ 1 1 57698036538) (.sy (.out ⟨2003, 16, 6157, 28262, 16,
    39842, ⟨[[(27366938442874880, 0), (0, 1128382917213961), (1817706567, 0)], [(38179347309782156, 0), (0,
    789533489625), (1870738, 0)], [(0, 12969058496513), (0, 10878043), (808, 0)]], 2, 2⟩, ⟨[[(0, 28078136445894656),
    (0, 4360072975122569), (9334925472, 0)]], 2, 2⟩, 72057594037927936, 74858718435804, 316215278389, ⟨[], 0, 0⟩, 0,
    0, 0, lc0⟩ 1 1 46417869144) (.out ⟨2011, 16, 6206, 28292, 16, 39928, ⟨[[(29278541032833024, 0), (0,
    1135527615786052), (1824076514, 0)], [(38084169166068157, 0), (0, 793927118060), (1878933, 0)], [(0,
    13077569886230), (0, 10142018), (824, 0)]], 2, 2⟩, ⟨[[(14827993833406464, 0), (0, 4360106931997551), (9324975848,
    0)]], 2, 2⟩, 72057594037927936, 75421044297918, 315538965117, ⟨[], 0, 0⟩, 0, 0, 0, lc0⟩ 1 1 37618265692))))) (.sx
    (.sy (.sy (.out ⟨1571, 16, 4930, 14161, 16, 20017, ⟨[[(0, 13523139393470464), (0, 1746994072679912), (5511969406,
    0)], [(30687282077208326, 0), (0, 1255764372294), (5718902, 0)], [(0, 11219931918935), (0, 12903234), (2557,
    0)]], 2, 2⟩, ⟨[[(0, 10635315978698752), (0, 4357635296161729), (18609410095, 0)]], 2, 2⟩, 72057594037927936,
    62910762133709, 1258059794348, ⟨[], 0, 0⟩, 0, 0, 0, lc0⟩ 1 1 60301038259) (.sy (.out ⟨1985, 16, 6265, 28384, 16,
    40186, ⟨[[(0, 29671382300917760), (0, 1107404299039785), (1738764274, 0)], [(38397328165421605, 0), (0,
    795179527243), (1805336, 0)], [(0, 14263899621382), (0, 6964559), (827, 0)]], 2, 2⟩, ⟨[[(0, 28881123766697984),
    (0, 4360148009287945), (9295125148, 0)]], 2, 2⟩, 72057594037927936, 79229858810562, 313518377907, ⟨[], 0, 0⟩, 0,
    0, 0, lc0⟩ 1 1 47488462446) (.out ⟨1993, 16, 6316, 28414, 16, 40272, ⟨[[(0, 2009413717098496), (0,
    1114663408107530), (1744415787, 0)], [(38307928554060824, 0), (0, 799829280323), (1812179, 0)], [(0,
    14383328229595), (0, 6179735), (843, 0)]], 2, 2⟩, ⟨[[(0, 4799428811816960), (0, 4360141653015928), (9285174769,
    0)]], 2, 2⟩, 72057594037927936, 79858669095721, 312847763901, ⟨[], 0, 0⟩, 0, 0, 0, lc0⟩ 1 1 39647614608))) (.sx
    (.sy (.sy (.out ⟨3177, 16, 10136, 28444, 16, 40358, ⟨[[(0, 320659817332736), (0, 1772576787718201), (2755316885,
    0)], [(30661417125727006, 0), (0, 640242723573), (1433445, 0)], [(0, 5880521909023), (0, 2093679), (338, 0)]], 2,
    2⟩, ⟨[[(14613829390172160, 0), (0, 4360125379229226), (9275224544, 0)]], 2, 2⟩, 72057594037927936,
    16271355675590, 312178652480, ⟨[], 0, 0⟩, 0, 0, 0, lc0⟩ 1 1 40201197501) (.out ⟨3186, 16, 10205, 28474, 16,
    40444, ⟨[[(14367562520985600, 0), (0, 1781865350597962), (2759967283, 0)], [(30546915613883746, 0), (0,
    643155480390), (1436553, 0)], [(0, 5921525084888), (0, 1763878), (345, 0)]], 2, 2⟩, ⟨[[(29373591106355200, 0),
    (0, 4360099251414869), (9265274608, 0)]], 2, 2⟩, 72057594037927936, 16382379503317, 311510834887, ⟨[], 0, 0⟩, 0,
    0, 0, lc0⟩ 1 1 32227120644)) (.leaf ⟨4520, 16, 7430, 1443, 16, 6709, ⟨[[(28040607716343808, 0), (0,
    2588632489944998), (7974774730, 0), (0, 56632), (0, 1)], [(21888417544191479, 0), (0, 933390930449), (4154214,
    0), (0, 26)], [(0, 4312135069348), (0, 1805307), (1023, 0)], [(1271144632, 0), (0, 674)]], 3, 4⟩, ⟨[[(0,
    9694725928763392), (0, 1968044737640581), (1625531030, 0), (0, 89399), (0, 3)], [(0, 29555547093664573), (0,
    92245648979), (0, 617389), (0, 68)], [(3517893898920, 0), (32239697, 0), (205, 0)], [(0, 434217452), (0, 2202)]],
    3, 4⟩, 72057594037927936, 31903947125, 11384114822, ⟨[[(14378826012059, 0), (816010154, 0), (503228, 0), (457,
    0), (1, 0)], [(1087146925, 0), (140743, 0), (0, 266)], [(0, 245586), (24, 0)], [(54, 0)]], 3, 4⟩, 17592186044416,
    65356,
    3810765167464300129498224707506931795630042033657878193522056239378719573167048362912387421246282797081225574909194381987458484,
    lc0⟩)) (.leaf ⟨2830, 16, 4630, 995, 16, 4662, ⟨[[(33972698388103168, 0), (0, 3280184665688891), (20424644312, 0),
    (0, 282358), (0, 10)], [(13564383293501656, 0), (0, 1166137645991), (10618011, 0), (0, 122)], [(0,
    2587998738403), (0, 3039799), (2580, 0)], [(775832845, 0), (0, 1474)]], 3, 4⟩, ⟨[[(35436128120430592, 0), (0,
    2741585096022443), (4637414849, 0), (0, 497556), (0, 30)], [(0, 20318431249369039), (0, 124052815026), (0,
    1525839), (0, 362)], [(2401310831802, 0), (44261773, 0), (628, 0)], [(0, 295760282), (0, 3187), (1, 0)]], 3, 4⟩,
    72057594037927936, 22493019041, 11386435673, ⟨[[(14392988188625, 0), (1162983731, 0), (1000528, 0), (1245, 0),
    (3, 0)], [(1725236132, 0), (340565, 0), (0, 833), (0, 2)], [(0, 624169), (82, 0)], [(221, 0)]], 3, 4⟩,
    17592186044416, 89209,
    3383861906696436943460946061297235200209875950964909278638558594488215737715050157514245183609184954987775438614946850966826320,
    lc0⟩))) (.leaf ⟨1390, 16, 2255, 495, 16, 2336, ⟨[[(0, 2723601598005248), (0, 3277116101528972), (41531332826, 0),
    (0, 1088885), (0, 77)], [(13189978428682633, 0), (0, 2283362047434), (42982677, 0), (0, 852)], [(0,
    4758609369245), (0, 18361145), (20248, 0), (1, 0)], [(2932492984, 0), (0, 19174), (7, 0)]], 3, 4⟩, ⟨[[(0,
    15953743144787968), (0, 2757505147346151), (9869146202, 0), (0, 1963286), (0, 233)], [(0, 20032571628101848), (0,
    236218408252), (0, 4738239), (0, 2650)], [(4680545867944, 0), (173584915, 0), (5501, 0), (1, 0)], [(0,
    1150050939), (0, 27687), (10, 0)]], 3, 4⟩, 72057594037927936, 157434753073, 108544910780, ⟨[[(14425696262178, 0),
    (2309863916, 0), (3806736, 0), (9007, 0), (39, 0)], [(3476498904, 0), (1458199, 0), (0, 6426), (0, 24)], [(0,
    2567906), (638, 0), (4, 0)], [(1847, 0), (0, 1)]], 3, 4⟩, 17592186044416, 762129,
    5032606609958375613697107417492405109128164817360436625062429230223651567484486755835473426098954614863464163018979623572537463,
    lc0⟩))
theorem c89 : checkR job con0 false ⟨7, 9, 7, 9, 13, 17⟩ 1 34400 t89 783 21 1280 29239 251 32000 = true := by decide +kernel

def t90 : CTree :=
  .sx (.sy (.sy (.out ⟨1546, 16, 5120, 14282, 16, 20362, ⟨[[(0, 15824127756304384), (0, 1684216138119147),
    (5033883756, 0)], [(31386119910578633, 0), (0, 1280363773644), (5265018, 0)], [(0, 13491605050768), (0, 2423248),
    (2612, 0)]], 2, 2⟩, ⟨[[(32029753866452992, 0), (0, 4357683999320633), (18451393267, 0)]], 2, 2⟩,
    72057594037927936, 71071292408057, 1236760446299, ⟨[], 0, 0⟩, 0, 0, 0, lc0⟩ 1 1 64884605071) (.sy (.out ⟨1936,
    16, 6449, 28627, 16, 40877, ⟨[[(0, 3796997044256768), (0, 1058317276331348), (1571568961, 0)],
    [(38926777321069507, 0), (0, 803869090791), (1642167, 0)], [(0, 16994305242956), (0, 276514), (837, 0)]], 2, 2⟩,
    ⟨[[(0, 30896401574002688), (0, 4360142990566776), (9216210255, 0)]], 2, 2⟩, 72057594037927936, 88771964067357,
    308216396547, ⟨[], 0, 0⟩, 0, 0, 0, lc0⟩ 1 1 54041174072) (.out ⟨1944, 16, 6502, 28657, 16, 40964,
    ⟨[[(30953689484541952, 0), (0, 1065428729978352), (1575135795, 0)], [(38840247965419355, 0), (0, 808818670296),
    (1644867, 0)], [(0, 17133896469714), (573527, 0), (854, 0)]], 2, 2⟩, ⟨[[(6501280586661888, 0), (0,
    4360164810219422), (9206487394, 0)]], 2, 2⟩, 72057594037927936, 89526102328432, 307564779954, ⟨[], 0, 0⟩, 0, 0,
    0, lc0⟩ 1 1 46599300571))) (.sx (.sy (.out ⟨2243, 16, 7564, 14344, 16, 20536, ⟨[[(0, 30826480893231104), (0,
    2453705844763635), (7183579211, 0)], [(22449511679811450, 0), (0, 938102807516), (3746491, 0)], [(0,
    5071236777235), (986426, 0), (994, 0)]], 2, 2⟩, ⟨[[(0, 34864501853257728), (0, 4357791775601076), (18373739962,
    0)]], 2, 2⟩, 72057594037927936, 14091019526107, 1226336665700, ⟨[], 0, 0⟩, 0, 0, 0, lc0⟩ 1 1 43117188046) (.sy
    (.out ⟨3146, 16, 10671, 28748, 16, 41225, ⟨[[(0, 23951140716773376), (0, 1726999322230658), (2509521271, 0)],
    [(31173378462907234, 0), (0, 659740336851), (1307176, 0)], [(0, 7153581619427), (1228797, 0), (357, 0)]], 2, 2⟩,
    ⟨[[(18753238227222528, 0), (0, 4360171303150221), (9177317978, 0)]], 2, 2⟩, 72057594037927936, 18687005929279,
    305617962306, ⟨[], 0, 0⟩, 0, 0, 0, lc0⟩ 1 1 31246656012) (.leaf ⟨6485, 16, 10960, 1812, 16, 8352, ⟨[[(0,
    29350105876201472), (0, 1771191871956776), (2560576312, 0), (0, 11347)], [(31677817535757050, 0), (0,
    676264931984), (1332665, 0), (0, 7)], [(0, 7346593852295), (1632784, 0), (372, 0)], [(2045777264, 0), (1518,
    0)]], 3, 4⟩, ⟨[[(0, 4498179059204096), (0, 1210900667181582), (363031885, 0), (0, 15697)], [(0,
    38590966091394651), (0, 66713126490), (0, 370381), (0, 14)], [(4751790142436, 0), (21057701, 0), (42, 0)], [(0,
    588827988), (0, 667)]], 3, 4⟩, 72057594037927936, 52932383970, 15013363602, ⟨[[(14250601190678, 0), (652830863,
    0), (359698, 0), (291, 0)], [(781056784, 0), (69272, 0), (0, 133)], [(0, 122543), (10, 0)], [(19, 0)]], 3, 4⟩,
    17592186044416, 46939,
    4920975937202375621320148098013835521978529350558127688788697666772466524711730220883376189068478092969642601789738102229141668,
    lc0⟩))) (.sy (.sy (.out ⟨3160, 16, 10578, 28688, 16, 41051, ⟨[[(26225631219286016, 0), (0, 1744552029720327),
    (2575107510, 0)], [(30974241373505999, 0), (0, 656562395348), (1343975, 0)], [(0, 6846250510780), (643238, 0),
    (358, 0)]], 2, 2⟩, ⟨[[(0, 32815721909059584), (0, 4360176760630516), (9196764306, 0)]], 2, 2⟩, 72057594037927936,
    18113858478397, 306914459048, ⟨[], 0, 0⟩, 0, 0, 0, lc0⟩ 1 1 30333659603) (.leaf ⟨6471, 16, 10864, 1821, 16, 8419,
    ⟨[[(0, 13659198266408960), (0, 1789072841789794), (2628264448, 0), (0, 11047)], [(31473541027451343, 0), (0,
    672932767130), (1371193, 0), (0, 6)], [(0, 7030929685513), (1031764, 0), (372, 0)], [(1982784242, 0), (988, 0)]],
    3, 4⟩, ⟨[[(0, 2381707701157888), (0, 1224153748489213), (398322874, 0), (0, 15437)], [(0, 38435939004403694), (0,
    64770127160), (0, 327080), (0, 14)], [(4694690673278, 0), (21036374, 0), (50, 0)], [(0, 581085697), (0, 857)]],
    3, 4⟩, 72057594037927936, 50800215098, 14552441170, ⟨[[(14280509985302, 0), (646789780, 0), (343882, 0), (267,
    0)], [(776995712, 0), (71635, 0), (0, 127)], [(0, 122301), (10, 0)], [(19, 0)]], 3, 4⟩, 17592186044416, 42571,
    4265815777491639255804044834825389528410536146239784551208904478776969303319816904719961415836771260161510478236280906663914203,
    lc0⟩)) (.leaf ⟨4627, 16, 7791, 1417, 16, 6597, ⟨[[(5691191267033088, 0), (0, 2560378567137653), (7466610041, 0),
    (0, 65392), (0, 1)], [(22208077338461955, 0), (0, 962226103442), (3893309, 0), (0, 36)], [(0, 5041445687764),
    (2291372, 0), (1088, 0)], [(1422507291, 0), (1640, 0)]], 3, 4⟩, ⟨[[(0, 10059146691493888), (0, 1917558110958832),
    (1136583253, 0), (0, 101400), (0, 3)], [(0, 30156182443725373), (0, 102314445684), (0, 1123398), (0, 89)],
    [(3691123448980, 0), (33092469, 0), (174, 0)], [(0, 455787246), (0, 1085)]], 3, 4⟩, 72057594037927936,
    38217433859, 11769127737, ⟨[[(14257616257219, 0), (812680240, 0), (547821, 0), (526, 0), (1, 0)], [(1088682133,
    0), (132388, 0), (0, 274)], [(0, 240163), (24, 0)], [(52, 0)]], 3, 4⟩, 17592186044416, 55223,
    3132649332145119147192204038208437362793519169298585515899901689687760307295762664547562042495278442167334564079620487828487811,
    lc0⟩)))) (.sy (.sx (.sy (.sy (.out ⟨3154, 16, 10337, 28566, 16, 40704, ⟨[[(17637564647964672, 0), (0,
    1742205940928499), (2633179996, 0)], [(31010164007847095, 0), (0, 647006139761), (1375144, 0)], [(0,
    6455181592153), (0, 696544), (343, 0)]], 2, 2⟩, ⟨[[(2905102541127680, 0), (0, 4360176610844075), (9235881664,
    0)]], 2, 2⟩, 72057594037927936, 17306769247789, 309531555324, ⟨[], 0, 0⟩, 0, 0, 0, lc0⟩ 1 1 43600389881) (.out
    ⟨3164, 16, 10408, 28596, 16, 40790, ⟨[[(0, 21736320340787200), (0, 1751517914051368), (2636377473, 0)],
    [(30896478568542202, 0), (0, 650063933462), (1376722, 0)], [(0, 6499783830448), (0, 352248), (350, 0)]], 2, 2⟩,
    ⟨[[(0, 908420947116032), (0, 4360111238819957), (9225932756, 0)]], 2, 2⟩, 72057594037927936, 17430279392031,
    308869440079, ⟨[], 0, 0⟩, 0, 0, 0, lc0⟩ 1 1 35254419725)) (.leaf ⟨4571, 16, 7616, 1435, 16, 6638,
    ⟨[[(15105516359450624, 0), (0, 2557542778789454), (7649613730, 0), (0, 60220), (0, 1)], [(22250719723512835, 0),
    (0, 948340697414), (3994470, 0), (0, 31)], [(0, 4756231126740), (262815, 0), (1043, 0)], [(1359606946, 0), (621,
    0)]], 3, 4⟩, ⟨[[(2193989146984448, 0), (0, 1936249653210575), (1396080316, 0), (0, 93434), (0, 3)], [(0,
    29934507788399707), (0, 98179059030), (0, 862924), (0, 79)], [(3623750247028, 0), (32770094, 0), (174, 0)], [(0,
    448335338), (0, 1701)]], 3, 4⟩, 72057594037927936, 35496373861, 11328945270, ⟨[[(14317955398358, 0), (824002406,
    0), (541964, 0), (524, 0), (1, 0)], [(1091220171, 0), (131804, 0), (0, 284), (0, 1)], [(0, 243243), (25, 0)],
    [(53, 0)]], 3, 4⟩, 17592186044416, 57638,
    4870119687062615168064986417432762182970233402493581473663558101169664534572345722086771591692169359497461371405773704057139875,
    lc0⟩)) (.leaf ⟨2876, 16, 4768, 995, 16, 4636, ⟨[[(0, 34332396842221568), (0, 3257101678197378), (19695796116, 0),
    (0, 302005), (0, 12)], [(13833601433955697, 0), (0, 1189961097691), (10281863, 0), (0, 148)], [(0,
    2871543570685), (0, 277969), (2657, 0)], [(833062633, 0), (89, 0), (1, 0)]], 3, 4⟩, ⟨[[(0, 12469716473323520),
    (0, 2711223857001501), (4000128448, 0), (0, 524003), (0, 32)], [(0, 20678716685413367), (0, 132731172128), (0,
    2204729), (0, 420)], [(2486065336252, 0), (45333123, 0), (562, 0)], [(0, 306848147), (0, 2521), (1, 0)]], 3, 4⟩,
    72057594037927936, 23220343790, 11530083448, ⟨[[(14334315322825, 0), (1168575826, 0), (1066391, 0), (1406, 0),
    (3, 0)], [(1723138371, 0), (316960, 0), (0, 873), (0, 2)], [(0, 611991), (85, 0)], [(213, 0)]], 3, 4⟩,
    17592186044416, 81146,
    4301908539916646428431011902201763017388810902889839050060814555002549552449447452311635410564220368617380801574886549328198140,
    lc0⟩)) (.leaf ⟨2295, 16, 3841, 703, 16, 3317, ⟨[[(8230121335554048, 0), (0, 2588152279776370), (15315965095, 0),
    (0, 261047), (0, 11)], [(21525875171243587, 0), (0, 1900931379168), (16008477, 0), (0, 259)], [(0,
    9421351380579), (7759479, 0), (8903, 0)], [(5428709952, 0), (6494, 0), (4, 0)]], 3, 4⟩, ⟨[[(0,
    27509135258386432), (0, 1935221641266733), (2304597978, 0), (0, 417012), (0, 26)], [(0, 29838323458006034), (0,
    196340699747), (0, 4154715), (0, 680)], [(7236342880234, 0), (131842322, 0), (1821, 0)], [(0, 1779377707), (0,
    9608), (5, 0)]], 3, 4⟩, 72057594037927936, 282678087805, 88116364112, ⟨[[(14272855023487, 0), (1584294886, 0),
    (2029154, 0), (3543, 0), (12, 0)], [(2175805223, 0), (578645, 0), (0, 1981), (0, 6)], [(0, 971922), (173, 0), (1,
    0)], [(426, 0)]], 3, 4⟩, 17592186044416, 147944,
    3820109896981498604914465819269322264022171144012382293640185982636129126927460367666082037078076545089088005272560740821397565,
    lc0⟩))
theorem c90 : checkR job con0 false ⟨7, 9, 7, 9, 13, 17⟩ 1 34400 t90 741 21 1280 59231 251 64000 = true := by decide +kernel

def t91 : CTree :=
  .sx (.sy (.leaf ⟨2319, 16, 3933, 699, 16, 3280, ⟨[[(11303293727539200, 0), (0, 2553507765311933), (14608470740, 0),
    (0, 278192), (0, 12)], [(21908133510056588, 0), (0, 1931594054785), (15196982, 0), (0, 312)], [(0,
    10357352006595), (15443337, 0), (8992, 0)], [(5814383488, 0), (18928, 0), (5, 0)]], 3, 4⟩, ⟨[[(0,
    7910152960516096), (0, 1903088410931864), (1838675812, 0), (0, 434853), (0, 27)], [(0, 30220135965554865), (0,
    209944403470), (0, 5333193), (0, 773)], [(7448077348953, 0), (132902399, 0), (1454, 0)], [(0, 1833511667), (0,
    4440), (6, 0)]], 3, 4⟩, 72057594037927936, 306900953112, 93402831367, ⟨[[(14212264880965, 0), (1601224957, 0),
    (2182862, 0), (4077, 0), (15, 0)], [(2185613675, 0), (545049, 0), (0, 2102), (0, 7)], [(0, 964198), (181, 0), (1,
    0)], [(419, 0)]], 3, 4⟩, 17592186044416, 204817,
    4177768364948449518347308742682373221057298632853732656860752777090276700320322901357470936129177531165106977624901703989616947,
    lc0⟩) (.leaf ⟨2352, 16, 4019, 684, 16, 3274, ⟨[[(0, 18629266400542720), (0, 2594577061078029), (14480689737, 0),
    (0, 310110), (0, 14)], [(21400191836136494, 0), (0, 1958485842052), (15032536, 0), (0, 342)], [(0,
    10573546633650), (25273895, 0), (9733, 0)], [(5952686112, 0), (25254, 0), (6, 0)]], 3, 4⟩, ⟨[[(27634210596421632,
    0), (0, 1898106796143814), (1138910074, 0), (0, 491970), (0, 31)], [(0, 30271496374173208), (0, 215510122285),
    (0, 6550876), (0, 860)], [(7501443569411, 0), (134297889, 0), (1820, 0)], [(0, 1830794263), (2009, 0), (7, 0)]],
    3, 4⟩, 72057594037927936, 319728645199, 95128322938, ⟨[[(14152625662361, 0), (1535853622, 0), (2070109, 0),
    (3453, 0), (13, 0)], [(2164298264, 0), (581809, 0), (0, 1837), (0, 5)], [(0, 946942), (162, 0)], [(408, 0)]], 3,
    4⟩, 17592186044416, 184376,
    4133198027297370418721112141845857478329908804235042508944917554785213300140052814421425124189052725841319830125687992183074140,
    lc0⟩)) (.leaf ⟨1457, 16, 2468, 475, 16, 2307, ⟨[[(29050969688424448, 0), (0, 3296941656622397), (37749518065, 0),
    (0, 1522991), (0, 131)], [(12917283100391592, 0), (0, 2412454167582), (39571263, 0), (0, 1459)], [(0,
    6046511786643), (27971106, 0), (24995, 0), (2, 0)], [(3493036877, 0), (17801, 0), (14, 0)]], 3, 4⟩, ⟨[[(0,
    27227909886296064), (0, 2688147302835034), (3530807170, 0), (0, 2795316), (0, 346)], [(0, 20857468469233627), (0,
    283518630673), (0, 16207374), (0, 4464)], [(5102779349587, 0), (187847556, 0), (6814, 0), (2, 0)], [(0,
    1240415953), (0, 1431), (17, 0)]], 3, 4⟩, 72057594037927936, 207092213015, 136137859456, ⟨[[(14181775741988, 0),
    (2140991229, 0), (3906307, 0), (8317, 0), (42, 0)], [(3451843977, 0), (1439951, 0), (0, 5558), (0, 16)], [(0,
    2449423), (556, 0), (2, 0)], [(1698, 0), (0, 1)]], 3, 4⟩, 17592186044416, 698668,
    4375292305084081674344239439348259086457942845477941361218550570528300125329431121838219194689955028901169576201866720239247740,
    lc0⟩)
theorem c91 : checkR job con0 false ⟨7, 9, 7, 9, 13, 17⟩ 1 34400 t91 741 21 1280 59733 251 64000 = true := by decide +kernel

def t92 : CTree :=
  .sy (.sx (.leaf ⟨1423, 16, 2360, 485, 16, 2322, ⟨[[(33227969562181632, 0), (0, 3288470005078411), (39825863346, 0),
    (0, 1280889), (0, 102)], [(13050858172263049, 0), (0, 2345529145954), (41657743, 0), (0, 1100)], [(0,
    5378298512098), (4244739, 0), (22547, 0), (2, 0)], [(3194320937, 0), (0, 3341), (10, 0)]], 3, 4⟩, ⟨[[(0,
    33020969549139968), (0, 2722262709049075), (6884755466, 0), (0, 2343801), (0, 287)], [(0, 20436326040947422), (0,
    256830854250), (0, 9783275), (0, 3474)], [(4888810613907, 0), (181267855, 0), (6285, 0), (2, 0)], [(0,
    1197460207), (0, 16478), (13, 0)]], 3, 4⟩, 72057594037927936, 180958476693, 120535576227, ⟨[[(14302068175869, 0),
    (2224318195, 0), (3857060, 0), (8733, 0), (41, 0)], [(3465686355, 0), (1450450, 0), (0, 5976), (0, 20)], [(0,
    2509224), (585, 0), (3, 0)], [(1769, 0), (0, 1)]], 3, 4⟩, 17592186044416, 731149,
    4968290187489886259712225334456903197615857650608112921894718959866730701917964377941109798770394987932057664241210746205702897,
    lc0⟩) (.leaf ⟨1411, 16, 2327, 475, 16, 2335, ⟨[[(0, 4991338622779392), (0, 3339614906427138), (41034041614, 0),
    (0, 1305429), (0, 102)], [(12439340355522990, 0), (0, 2312412695651), (42991552, 0), (0, 934)], [(0,
    4914598712155), (3221285, 0), (23378, 0), (2, 0)], [(3018055327, 0), (0, 12044), (9, 0)]], 3, 4⟩,
    ⟨[[(28482976962465792, 0), (0, 2748030594529412), (6522211319, 0), (0, 2500719), (0, 305)], [(0,
    20144076654783275), (0, 243044491030), (0, 9238993), (0, 3351)], [(4767221610904, 0), (180199200, 0), (7924, 0),
    (2, 0)], [(0, 1160769420), (0, 16594), (12, 0)]], 3, 4⟩, 72057594037927936, 168548025535, 116005421688,
    ⟨[[(14301987667434, 0), (2131517801, 0), (3479779, 0), (6704, 0), (30, 0)], [(3454765058, 0), (1615280, 0), (0,
    5361), (0, 11)], [(0, 2544707), (522, 0), (2, 0)], [(1809, 0), (0, 1)]], 3, 4⟩, 17592186044416, 552279,
    3331056099741943679390748575586361226945792432233514472938129644499617913472622779715263615194832355926543934583774130117318266,
    lc0⟩)) (.leaf ⟨1158, 16, 1947, 331, 16, 1672, ⟨[[(28710481233739776, 0), (0, 2720760297852992), (31828135595, 0),
    (0, 1267121), (0, 107)], [(19242965802067240, 0), (0, 3800557035756), (67654014, 0), (0, 1853)], [(0,
    17064834024976), (94472343, 0), (86655, 0), (8, 0)], [(20627437834, 0), (18126, 0), (78, 0)]], 3, 4⟩, ⟨[[(0,
    2374656543944704), (0, 1960641983362539), (1841573591, 0), (0, 2224429), (0, 272)], [(0, 29321982707478199), (0,
    376679910633), (0, 21961378), (0, 6121), (0, 1)], [(14132239977964, 0), (543631792, 0), (28709, 0), (6, 0)], [(0,
    6799354155), (0, 13099), (90, 0)]], 3, 4⟩, 72057594037927936, 2212111398145, 646314236550, ⟨[[(14180804139546,
    0), (2791705873, 0), (6606309, 0), (15037, 0), (97, 0)], [(4272876672, 0), (2871191, 0), (0, 11950), (0, 19)],
    [(0, 3863066), (1063, 0), (4, 0)], [(3370, 0), (0, 2)]], 3, 4⟩, 17592186044416, 1881353,
    4503199579006614820896726914407966070348261758790062100656982861591498794274994009608881860453103767389877514718557301948922061,
    lc0⟩)
theorem c92 : checkR job con0 false ⟨7, 9, 7, 9, 13, 17⟩ 1 34400 t92 783 21 1280 29741 251 32000 = true := by decide +kernel

def t93 : CTree :=
  .sy (.sx (.sy (.sx (.sy (.sx (.sy (.out ⟨2247, 16, 6702, 14039, 16, 19675, ⟨[[(619059208519680, 0), (0,
    2533528261809800), (8362150472, 0)], [(21543146067268325, 0), (0, 871848641240), (4256788, 0)], [(0,
    3315396775480), (0, 8797452), (850, 0)]], 2, 2⟩, ⟨[[(21443865716326400, 0), (0, 4357597323185745), (18770206643,
    0)]], 2, 2⟩, 72057594037927936, 10590399878325, 1279917510794, ⟨[], 0, 0⟩, 0, 0, 0, lc0⟩ 1 1 65632464873) (.out
    ⟨2253, 16, 6772, 14070, 16, 19761, ⟨[[(0, 23583479200120832), (0, 2551540330150961), (8382324095, 0)],
    [(21326998965287269, 0), (0, 876649532367), (4274949, 0)], [(0, 3354269369812), (0, 8017812), (877, 0)]], 2, 2⟩,
    ⟨[[(17222791064190976, 0), (0, 4357778063435488), (18730483344, 0)]], 2, 2⟩, 72057594037927936, 10707933134817,
    1274450090433, ⟨[], 0, 0⟩, 0, 0, 0, lc0⟩ 1 1 47500585484)) (.sy (.out ⟨2252, 16, 6681, 14039, 16, 19675,
    ⟨[[(29215968738672640, 0), (0, 2562108324630833), (8515675806, 0)], [(21203599885099925, 0), (0, 869869830560),
    (4315161, 0)], [(0, 3172628348014), (0, 9166450), (860, 0)]], 2, 2⟩, ⟨[[(21443865716326400, 0), (0,
    4357597323185745), (18770206643, 0)]], 2, 2⟩, 72057594037927936, 10380264939469, 1279917510794, ⟨[], 0, 0⟩, 0, 0,
    0, lc0⟩ 1 1 47610111768) (.leaf ⟨4355, 16, 6886, 1479, 16, 6879, ⟨[[(12966304823115776, 0), (0,
    2631946722038277), (8707584189, 0), (0, 46728), (0, 1)], [(21405256863680902, 0), (0, 892108217118), (4422411,
    0), (0, 17)], [(0, 3274495225612), (0, 8548486), (905, 0)], [(1070892449, 0), (0, 3314)]], 3, 4⟩, ⟨[[(0,
    28055027411714048), (0, 2048209278791248), (2348713466, 0), (0, 74374), (0, 2)], [(0, 28605752315369094), (0,
    79430253358), (0, 36873), (0, 43)], [(3246464710047, 0), (29962780, 0), (211, 0)], [(0, 398141200), (0, 3336)]],
    3, 4⟩, 72057594037927936, 25623324633, 8951561006, ⟨[[(14565441940880, 0), (820645257, 0), (434645, 0), (360,
    0)], [(1083404920, 0), (156823, 0), (0, 249)], [(0, 254508), (24, 0)], [(58, 0)]], 3, 4⟩, 17592186044416, 68059,
    3796747705032517814314460492392381030405315501681396053025616892757846524154184350177259773417311336184571338026418086141144157,
    lc0⟩))) (.leaf ⟨2185, 16, 3481, 729, 16, 3424, ⟨[[(0, 22376423817445376), (0, 2629021345159902), (17203783628,
    0), (0, 196174), (0, 6)], [(21105592483435060, 0), (0, 1789898742606), (17574009, 0), (0, 140)], [(0,
    6770014678948), (0, 28181662), (7522, 0)], [(4363397203, 0), (0, 24042), (2, 0)]], 3, 4⟩, ⟨[[(35829056414310400,
    0), (0, 2033910821686928), (4333251186, 0), (0, 318390), (0, 18)], [(0, 28673637193078930), (0, 160948448135),
    (0, 594423), (0, 384)], [(6559307119170, 0), (121447984, 0), (1855, 0)], [(0, 1609287227), (0, 24679), (3, 0)]],
    3, 4⟩, 72057594037927936, 204027855177, 73196275829, ⟨[[(14518082334015, 0), (1613294789, 0), (1725344, 0),
    (2782, 0), (8, 0)], [(2171936461, 0), (645264, 0), (0, 1917), (0, 5)], [(0, 1019983), (177, 0), (1, 0)], [(466,
    0)]], 3, 4⟩, 17592186044416, 146865,
    4160798396391284833634483341334754434788278576276334245367121727067627949327158815631258594760950644327651305717606673477646821,
    lc0⟩)) (.leaf ⟨1346, 16, 2124, 496, 16, 2359, ⟨[[(14113718152249344, 0), (0, 3311145741765126), (44188192381, 0),
    (0, 955621), (0, 55)], [(12820117520402219, 0), (0, 2198526347974), (44678145, 0), (0, 588)], [(0,
    3796699637028), (0, 43221264), (18454, 0), (1, 0)], [(2565874732, 0), (0, 37402), (4, 0)]], 3, 4⟩,
    ⟨[[(6417678000562176, 0), (0, 2814657242512409), (12556285951, 0), (0, 1739021), (0, 196)], [(0,
    19355114657189251), (0, 207695131283), (0, 439938), (0, 1874)], [(4361473787922, 0), (161645923, 0), (5520, 0),
    (1, 0)], [(0, 1065918408), (0, 35221), (7, 0)]], 3, 4⟩, 72057594037927936, 127155518021, 93073163059,
    ⟨[[(14548502637490, 0), (2317893415, 0), (3404237, 0), (7464, 0), (28, 0)], [(3480579360, 0), (1630852, 0), (0,
    6105), (0, 18)], [(0, 2666391), (603, 0), (4, 0)], [(1980, 0), (0, 1)]], 3, 4⟩, 17592186044416, 614114,
    4031332956765819808504781104915919544955714181903585421014048645636419588379071019972455766469683388980183878053912821172331278,
    lc0⟩)) (.leaf ⟨1099, 16, 1769, 350, 16, 1712, ⟨[[(17648988283404288, 0), (0, 2683738776241784), (34769041033, 0),
    (0, 891793), (0, 61)], [(19807481597805897, 0), (0, 3586560630928), (71557679, 0), (0, 1043)], [(0,
    13244933198541), (0, 72506581), (67144, 0), (5, 0)], [(17319119113, 0), (0, 195067), (35, 0)]], 3, 4⟩, ⟨[[(0,
    2752136480890880), (0, 2031317924159927), (7031859898, 0), (0, 1556836), (0, 185)], [(0, 28518098609341099), (0,
    314659147328), (0, 5763133), (0, 3599)], [(13100736961573, 0), (493669477, 0), (21284, 0), (5, 0)], [(0,
    6390965806), (0, 160187), (51, 0)]], 3, 4⟩, 72057594037927936, 1676522340725, 591900208589, ⟨[[(14423941990534,
    0), (3005780663, 0), (6217533, 0), (16674, 0), (93, 0)], [(4325858200, 0), (2914462, 0), (0, 12929), (0, 39), (0,
    1)], [(0, 4091584), (1111, 0), (8, 0)], [(3727, 0), (0, 2)]], 3, 4⟩, 17592186044416, 1891762,
    4388288689623027141912975176587737417146620844260797017060528973628333111726462758238793779171840985533291241815138699430505327,
    lc0⟩)) (.leaf ⟨659, 16, 1040, 236, 16, 1185, ⟨[[(0, 23024069742567424), (0, 3355412112566343), (90705206180, 0),
    (0, 4095849), (0, 485)], [(11576471288036884, 0), (0, 4271486198947), (183052763, 0), (0, 3125), (1, 0)], [(0,
    6535234730560), (0, 162343534), (157568, 0), (23, 0)], [(9460509011, 0), (0, 362837), (52, 0)]], 3, 4⟩, ⟨[[(0,
    8796136654385152), (0, 2834326922574645), (22251993997, 0), (0, 8354881), (0, 1955)], [(0, 18953141531973486),
    (0, 377575735625), (0, 4122895), (0, 15430), (0, 4)], [(8448284409390, 0), (637794069, 0), (63753, 0), (28, 0)],
    [(0, 4100634594), (0, 255071), (102, 0)]], 3, 4⟩, 72057594037927936, 1045641157996, 829004481203,
    ⟨[[(14489599275937, 0), (4285732395, 0), (11574088, 0), (39768, 0), (288, 0)], [(7014474802, 0), (7815081, 0),
    (0, 41858), (0, 111), (0, 2)], [(0, 11179871), (3519, 0), (47, 0)], [(17040, 0), (0, 15)]], 3, 4⟩,
    17592186044416, 7877873,
    5019699400447451141293609953010587809241442337922869515068007204543555425024672562609341332387337233114938843783117345883878384,
    lc0⟩)) (.sx (.leaf ⟨690, 16, 1139, 225, 16, 1172, ⟨[[(0, 8473174690963456), (0, 3390612308762599), (83749223627,
    0), (0, 5742636), (0, 910)], [(11040336208928725, 0), (0, 4482035580447), (178256128, 0), (0, 5335)], [(0,
    8537099415468), (49308432, 0), (208338, 0), (38, 0)], [(11071062617, 0), (0, 169573), (129, 0)]], 3, 4⟩,
    ⟨[[(5468387159795712, 0), (0, 2770803393042143), (7647562521, 0), (0, 12265099), (0, 2975)], [(0,
    19688496663386225), (0, 452167085870), (0, 42457299), (0, 27873), (0, 6)], [(9232807961897, 0), (732698016, 0),
    (94656, 0), (38, 0)], [(0, 4435623071), (0, 95561), (191, 0)]], 3, 4⟩, 72057594037927936, 1373978963447,
    1008434441488, ⟨[[(14242898955984, 0), (3895763749, 0), (12130694, 0), (33689, 0), (265, 0)], [(6976229191, 0),
    (7670269, 0), (0, 39587), (0, 32), (0, 2)], [(0, 10704216), (3527, 0), (33, 0)], [(15651, 0), (0, 13)]], 3, 4⟩,
    17592186044416, 8454849,
    4793878234451164807039950775341034315922402887805716412182628725691531370800925835955992122372564086521796885695065561810754249,
    lc0⟩) (.leaf ⟨676, 16, 1106, 216, 16, 1185, ⟨[[(0, 3524270183260160), (0, 3475098826514959), (88958114920, 0),
    (0, 5726403), (0, 867)], [(10079444759162941, 0), (0, 4349290983934), (190685337, 0), (0, 1909), (1, 0)], [(0,
    6990879967758), (17706748, 0), (215812, 0), (41, 0)], [(9883505886, 0), (0, 315323), (88, 0)]], 3, 4⟩,
    ⟨[[(13935379337422848, 0), (0, 2819440088827558), (6111858388, 0), (0, 13513187), (0, 3253)], [(0,
    19145938606632981), (0, 395514932095), (0, 33932740), (0, 24688), (0, 5)], [(8788537098900, 0), (726788247, 0),
    (117644, 0), (44, 0)], [(0, 4199020167), (0, 128170), (154, 0)]], 3, 4⟩, 72057594037927936, 1233208975552,
    1038392837526, ⟨[[(14242196711731, 0), (3644157108, 0), (10672398, 0), (23905, 0), (131, 0)], [(6954682342, 0),
    (8756158, 0), (0, 39173), (11, 0), (0, 1)], [(0, 11085205), (2483, 0), (48, 0)], [(16648, 0), (0, 15)]], 3, 4⟩,
    17592186044416, 7648293,
    4384618526668852909652745620797754982624808501338788993004337007900316885913061966422692355563287296803568972132726332101132797,
    lc0⟩))
theorem c93 : checkR job con0 false ⟨7, 9, 7, 9, 13, 17⟩ 1 34400 t93 423 21 640 14745 251 16000 = true := by decide +kernel

def t94 : CTree :=
  .sy (.sx (.sx (.leaf ⟨645, 16, 1008, 227, 16, 1197, ⟨[[(0, 13870558751522816), (0, 3426356695030041), (95638638523,
    0), (0, 4057083), (0, 435)], [(10735566774066295, 0), (0, 4155331316338), (190475276, 0), (0, 1106), (1, 0)],
    [(0, 5219787383973), (0, 208705906), (157637, 0), (24, 0)], [(8534515344, 0), (0, 463693), (28, 0)]], 3, 4⟩,
    ⟨[[(22500517842374656, 0), (0, 2877930475696307), (22423155366, 0), (0, 9042162), (0, 2126)], [(0,
    18449668965446507), (0, 328656791688), (1743295, 0), (0, 13069), (0, 3)], [(8028961530462, 0), (611349258, 0),
    (75713, 0), (31, 0)], [(0, 3876301963), (0, 265784), (77, 0)]], 3, 4⟩, 72057594037927936, 876885365199,
    838056054078, ⟨[[(14487050573431, 0), (4053968267, 0), (9963762, 0), (28109, 0), (170, 0)], [(6993230300, 0),
    (8945454, 0), (0, 39348), (0, 37), (0, 1)], [(0, 11587467), (2244, 0), (53, 0)], [(18207, 0), (0, 18)]], 3, 4⟩,
    17592186044416, 6652031,
    2976178134631827980974026698335815059224496086878523911766149333602971233219730328830930254679065488380420488620958425689111028,
    lc0⟩) (.leaf ⟨631, 16, 977, 219, 16, 1209, ⟨[[(0, 5289262950318080), (0, 3490531394191668), (100722379389, 0),
    (0, 3936770), (0, 365)], [(10023238705924015, 0), (0, 4047101249026), (197552746, 0), (865, 0), (2, 0)], [(0,
    4050953088121), (0, 265784307), (154708, 0), (23, 0)], [(7748165391, 0), (0, 558425), (4, 0)]], 3, 4⟩, ⟨[[(0,
    5467206356260864), (0, 2919654766035371), (22862029744, 0), (0, 9629794), (0, 2273)], [(0, 17973713740983954),
    (0, 281526630510), (8546293, 0), (0, 10437), (0, 3)], [(7631711149322, 0), (582823326, 0), (84525, 0), (34, 0)],
    [(0, 3671823949), (0, 282362), (51, 0)]], 3, 4⟩, 72057594037927936, 758574611860, 838499384211,
    ⟨[[(14487930650621, 0), (3879103887, 0), (8788845, 0), (21877, 0), (96, 0)], [(6974908884, 0), (9958784, 0), (0,
    38419), (0, 11)], [(0, 12005102), (783, 0), (64, 0)], [(19501, 0), (0, 21)]], 3, 4⟩, 17592186044416, 7218681,
    4036815328052738070725010020625010374366077193023242604744734259922215215630558519489684466981613318434023667946102214419336387,
    lc0⟩)) (.sx (.leaf ⟨616, 16, 946, 211, 16, 1220, ⟨[[(34288764907651072, 0), (0, 3544858436476567), (105824508886,
    0), (0, 3737408), (0, 277)], [(9414646805836236, 0), (0, 3943351817060), (203845890, 0), (2698, 0), (2, 0)], [(0,
    3004359147878), (0, 332091012), (148807, 0), (22, 0)], [(7085210850, 0), (0, 645381), (0, 19)]], 3, 4⟩, ⟨[[(0,
    33927181970071552), (0, 2957134699258081), (23585994851, 0), (0, 10098677), (0, 2392)], [(0, 17509553126877909),
    (0, 236222929560), (16011931, 0), (0, 7609), (0, 2)], [(7248647405187, 0), (551155596, 0), (90056, 0), (35, 0)],
    [(0, 3480409847), (0, 302266), (25, 0)]], 3, 4⟩, 72057594037927936, 594959616714, 810052103752,
    ⟨[[(14485680476760, 0), (3732756685, 0), (7845388, 0), (18558, 0), (44, 0)], [(6970756650, 0), (10961267, 0), (0,
    38042), (0, 4)], [(0, 12484076), (0, 943), (76, 0)], [(21044, 0), (0, 22)]], 3, 4⟩, 17592186044416, 6770912,
    4483205309866448594328510384636273913888421032420900210519171677580543164622762046615787700533474610499274946567617364550137185,
    lc0⟩) (.leaf ⟨602, 16, 915, 202, 16, 1232, ⟨[[(0, 34753520873938944), (0, 3589503165848305), (110889777845, 0),
    (0, 3469197), (0, 173)], [(8897708761995902, 0), (0, 3844590783658), (209120150, 0), (4307, 0), (3, 0)], [(0,
    2063177217826), (0, 406128866), (140249, 0), (19, 0)], [(6538647579, 0), (0, 723203), (0, 40)]], 3, 4⟩,
    ⟨[[(33827776686118912, 0), (0, 2995281377958384), (24658903120, 0), (0, 10457708), (0, 2486)], [(0,
    17085124831525117), (0, 193442176041), (23895846, 0), (0, 4682), (0, 1)], [(6890501425530, 0), (516940471, 0),
    (92496, 0), (36, 0)], [(0, 3304418633), (0, 323954)]], 3, 4⟩, 72057594037927936, 491604679826, 834084990793,
    ⟨[[(14488941011944, 0), (3607026510, 0), (6881146, 0), (17006, 0), (4, 0)], [(6915737507, 0), (12037243, 0), (0,
    37368), (0, 7)], [(0, 12895063), (0, 3286), (87, 0)], [(22620, 0), (0, 23)]], 3, 4⟩, 17592186044416, 6724482,
    4287993299878479980699593559002290966861900278644183895705160323421104804938866655980329801093253426377269124935663459666477457,
    lc0⟩))) (.sx (.sx (.leaf ⟨661, 16, 1073, 207, 16, 1198, ⟨[[(23482032576872448, 0), (0, 3548626412765077),
    (94448602266, 0), (0, 5561550), (0, 791)], [(9258378137986033, 0), (0, 4219960906705), (202965006, 0), (1602, 0),
    (2, 0)], [(0, 5621971901027), (0, 30848615), (217611, 0), (42, 0)], [(8845601760, 0), (0, 457047), (45, 0)]], 3,
    4⟩, ⟨[[(35768070822201344, 0), (0, 2865878728998967), (4958687635, 0), (0, 14627475), (0, 3501)], [(0,
    18631645276376482), (0, 338889792975), (0, 23562147), (0, 20979), (0, 5)], [(8366412041250, 0), (715887982, 0),
    (135976, 0), (50, 0)], [(0, 3990885442), (0, 171283), (114, 0)]], 3, 4⟩, 72057594037927936, 1094372038519,
    1034411001454, ⟨[[(14238728503076, 0), (3426390088, 0), (9523281, 0), (19359, 0), (49, 0)], [(6941390480, 0),
    (9844215, 0), (0, 39437), (16, 0)], [(0, 11518908), (1064, 0), (63, 0)], [(17851, 0), (0, 16)]], 3, 4⟩,
    17592186044416, 6087725,
    4832772065534331624338896020897891509016074236287854259295378881434309480014117774201925138028102216506579246023922492721764549,
    lc0⟩) (.leaf ⟨646, 16, 1040, 199, 16, 1210, ⟨[[(6669801925599232, 0), (0, 3611364512681498), (100180713114, 0),
    (0, 5252418), (0, 683)], [(8560144324543960, 0), (0, 4095294373529), (214596486, 0), (5034, 0), (2, 0)], [(0,
    4409104453135), (0, 95080754), (213767, 0), (42, 0)], [(7950146282, 0), (0, 591778), (2, 0)]], 3, 4⟩, ⟨[[(0,
    13760204767748096), (0, 2907699509603012), (4258885411, 0), (0, 15573667), (0, 3714)], [(0, 18129371567064466),
    (0, 282545689745), (0, 11724118), (0, 16847), (0, 4)], [(7956993283846, 0), (698282255, 0), (149258, 0), (53,
    0)], [(0, 3802215708), (0, 220937), (74, 0)]], 3, 4⟩, 72057594037927936, 941464857290, 1022776479107,
    ⟨[[(14242741164296, 0), (3267794594, 0), (8573210, 0), (17930, 0), (2, 0)], [(6927223672, 0), (10859521, 0), (0,
    39531), (9, 0)], [(0, 11954698), (0, 557), (73, 0)], [(19154, 0), (0, 17)]], 3, 4⟩, 17592186044416, 5899916,
    4447151116692505331569962532580732496458480810150601765767236402643749897656996296993659872199833425673284071629278444008587041,
    lc0⟩)) (.leaf ⟨533, 16, 848, 139, 16, 918, ⟨[[(0, 18714616755691520), (0, 3155462907261934), (93398359727, 0),
    (0, 3890652), (0, 400)], [(13202814391800826, 0), (0, 6710948935454), (393501518, 0), (16610, 0), (6, 0)], [(0,
    9721929917737), (0, 743381752), (678663, 0), (129, 0)], [(46983219001, 0), (0, 5302439), (0, 401)]], 3, 4⟩,
    ⟨[[(9313801792716800, 0), (0, 2217454297377483), (3131254765, 0), (0, 12458044), (0, 2962)], [(0,
    26054233613620986), (0, 299664235034), (11708730, 0), (0, 15182), (0, 3)], [(22055323109788, 0), (1970788212, 0),
    (477745, 0), (167, 0)], [(0, 21235435011), (0, 1797509), (82, 0)]], 3, 4⟩, 72057594037927936, 7606804829773,
    3594245205211, ⟨[[(14244328509250, 0), (4090692564, 0), (12858720, 0), (44271, 0), (0, 125)], [(8052789658, 0),
    (19498320, 0), (0, 81775), (0, 22), (1, 0)], [(0, 17281418), (0, 6638), (205, 0)], [(34262, 0), (0, 40)]], 3, 4⟩,
    17592186044416, 14360890,
    4415433700767481177388641089158750301556719472792997336590241464783737065313390414910317583613739629374353524242338131425939673,
    lc0⟩))
theorem c94 : checkR job con0 false ⟨7, 9, 7, 9, 13, 17⟩ 1 34400 t94 243 21 320 14745 251 16000 = true := by decide +kernel

def t95 : CTree :=
  .sx (.sx (.sy (.sx (.leaf ⟨1493, 16, 2581, 464, 16, 2288, ⟨[[(0, 3808452414439424), (0, 3305170945647318),
    (35273097882, 0), (0, 1821153), (0, 164)], [(12801493928358357, 0), (0, 2487174072474), (36521154, 0), (0,
    1959)], [(0, 6774449977574), (52186688, 0), (27464, 0), (2, 0)], [(3837440801, 0), (45662, 0), (19, 0)]], 3, 4⟩,
    ⟨[[(30022540935716864, 0), (0, 2651792287908858), (0, 232488466), (0, 3314987), (0, 408)], [(0,
    21271182480361728), (0, 317160038586), (0, 24196091), (0, 5628), (0, 1)], [(5313777422331, 0), (192193587, 0),
    (6885, 0), (2, 0)], [(0, 1275551036), (18204, 0), (22, 0)]], 3, 4⟩, 72057594037927936, 240099583648,
    138173926425, ⟨[[(14063455667950, 0), (2059253775, 0), (3960973, 0), (7739, 0), (42, 0)], [(3432731218, 0),
    (1430991, 0), (0, 5198), (0, 12)], [(0, 2386833), (546, 0), (1, 0)], [(1634, 0), (0, 1)]], 3, 4⟩, 17592186044416,
    703285,
    4289424825976996778911403534230273824568092078584209472338745693472653171948654985838997278320928364114715004143149071353584758,
    lc0⟩) (.leaf ⟨1480, 16, 2547, 455, 16, 2301, ⟨[[(34857310669291520, 0), (0, 3364622538142368), (36371314280, 0),
    (0, 1873970), (0, 167)], [(12091038864759497, 0), (0, 2449864155432), (38415139, 0), (0, 1720)], [(0,
    6218781082659), (56513235, 0), (29427, 0), (3, 0)], [(3617941152, 0), (34425, 0), (18, 0)]], 3, 4⟩, ⟨[[(0,
    20451588224872448), (0, 2679913391836853), (0, 1241981868), (0, 3568255), (0, 435)], [(0, 20949847372510604), (0,
    302629954792), (0, 23636487), (0, 5498), (0, 1)], [(5185501255026, 0), (195560698, 0), (9649, 0), (2, 0)], [(0,
    1233284410), (17646, 0), (21, 0)]], 3, 4⟩, 72057594037927936, 224723936366, 135048357013, ⟨[[(14063116144669, 0),
    (1969743265, 0), (3648634, 0), (5896, 0), (30, 0)], [(3428544531, 0), (1566289, 0), (0, 4906), (0, 5)], [(0,
    2423491), (515, 0), (1, 0)], [(1672, 0), (0, 1)]], 3, 4⟩, 17592186044416, 554510,
    3795998973063133477848196697366596784985134740663983671684301064924878808477975571396476561116280478487198667603470501547419770,
    lc0⟩)) (.leaf ⟨1220, 16, 2138, 312, 16, 1624, ⟨[[(34757126187040768, 0), (0, 2752376727462472), (27319153073, 0),
    (0, 1848515), (0, 168)], [(18694172948768762, 0), (0, 4056561282776), (57473992, 0), (0, 3563)], [(0,
    21538384833107), (284219372, 0), (109437, 0), (11, 0)], [(25024927034, 0), (407389, 0), (156, 0)]], 3, 4⟩,
    ⟨[[(7899833162522624, 0), (0, 1889410449280770), (0, 4678702638), (0, 3106284), (0, 371)], [(0,
    30111553945546252), (0, 479157497676), (0, 47055738), (0, 9641), (0, 1)], [(15142969799482, 0), (576884056, 0),
    (32609, 0), (7, 0)], [(0, 7015881727), (238258, 0), (150, 0)]], 3, 4⟩, 72057594037927936, 2851184373454,
    704604837646, ⟨[[(13945795523148, 0), (2597685913, 0), (7179650, 0), (12976, 0), (94, 0)], [(4217779268, 0),
    (2810081, 0), (0, 11725), (1, 0)], [(0, 3647429), (1059, 0), (6, 0)], [(3101, 0), (0, 1)]], 3, 4⟩,
    17592186044416, 2097975,
    3507423244905476403625044077651344258389730856602704120167441064249173630090452651939840495308566795519015209367234580224212782,
    lc0⟩)) (.sy (.leaf ⟨1190, 16, 2034, 316, 16, 1666, ⟨[[(34066636443664384, 0), (0, 2810012218111715),
    (31075113437, 0), (0, 1573891), (0, 138)], [(18127249168596830, 0), (0, 3900935792371), (67607744, 0), (0,
    2149)], [(0, 17753916378738), (196216865, 0), (104291, 0), (10, 0)], [(21580818293, 0), (110806, 0), (103, 0)]],
    3, 4⟩, ⟨[[(12361521944731648, 0), (0, 1953584917691538), (0, 1945945317), (0, 2827747), (0, 340)], [(0,
    29411504165088323), (0, 402255170930), (0, 32115325), (0, 7528), (0, 1)], [(14361477913917, 0), (575388637, 0),
    (38915, 0), (8, 0)], [(0, 6757277165), (86908, 0), (110, 0)]], 3, 4⟩, 72057594037927936, 2403259618374,
    635843228833, ⟨[[(14061968992818, 0), (2565445558, 0), (6344187, 0), (10841, 0), (65, 0)], [(4193695931, 0),
    (3034509, 0), (0, 11386), (1, 0)], [(0, 3735282), (948, 0), (6, 0)], [(3205, 0), (0, 2)]], 3, 4⟩, 17592186044416,
    1501400,
    2670418248973259685189244929637895933372246382097757819283497613871211299287967893457328265502350832758802403897529156561453686,
    lc0⟩) (.leaf ⟨1225, 16, 2127, 301, 16, 1656, ⟨[[(0, 32888169671311360), (0, 2907188932687754), (29783305781, 0),
    (0, 1967289), (0, 176)], [(16925792934654357, 0), (0, 4010080598190), (67112818, 0), (0, 2525)], [(0,
    18433744813252), (323464093, 0), (127238, 0), (13, 0)], [(22654978025, 0), (237070, 0), (135, 0)]], 3, 4⟩, ⟨[[(0,
    19203141787676672), (0, 1946106211478629), (0, 6716533453), (0, 3566757), (0, 417)], [(0, 29444726004935339), (0,
    437951413024), (0, 44413036), (0, 9148), (0, 1)], [(14573143453011, 0), (616912866, 0), (51353, 0), (9, 0)], [(0,
    6643798623), (208231, 0), (134, 0)]], 3, 4⟩, 72057594037927936, 2625004466311, 612217669773, ⟨[[(13950856646716,
    0), (2355784816, 0), (6265574, 0), (8200, 0), (37, 0)], [(4106447241, 0), (3181835, 0), (0, 11544), (10, 0)],
    [(0, 3596362), (761, 0), (9, 0)], [(3031, 0), (0, 1)]], 3, 4⟩, 17592186044416, 1144577,
    4516675295987639272314513101401258657716401747612739680418700046009806644479138925051959364585070461513171026513596635325473866,
    lc0⟩))) (.sy (.sx (.leaf ⟨1189, 16, 2014, 305, 16, 1698, ⟨[[(0, 12966644739522560), (0, 2944262080792323),
    (33770502405, 0), (0, 1628733), (0, 140)], [(16582050204212486, 0), (0, 3845947742414), (76121387, 0), (0,
    1196)], [(0, 15006486276149), (198398237, 0), (114840, 0), (12, 0)], [(19499752805, 0), (0, 46665), (81, 0)]], 3,
    4⟩, ⟨[[(8903973939908608, 0), (0, 2007287513553716), (0, 3280114589), (0, 3189555), (0, 378)], [(0,
    28782510080863732), (0, 360307830713), (0, 28837316), (0, 6945), (0, 1)], [(13798853092517, 0), (595520963, 0),
    (52695, 0), (10, 0)], [(0, 6434771119), (53117, 0), (94, 0)]], 3, 4⟩, 72057594037927936, 2168551086858,
    569635027884, ⟨[[(14065041018637, 0), (2352876407, 0), (5546510, 0), (7415, 0), (27, 0)], [(4100054328, 0),
    (3403335, 0), (0, 11177), (7, 0)], [(0, 3719400), (658, 0), (8, 0)], [(3196, 0), (0, 1)]], 3, 4⟩, 17592186044416,
    941607,
    4083253784424815689369092189838868774548923262661852470338912227312462370144592982276969841706419240516004795389150964360858568,
    lc0⟩) (.leaf ⟨1182, 16, 1987, 294, 16, 1730, ⟨[[(5404332817874944, 0), (0, 3063816296646618), (36677385259, 0),
    (0, 1634803), (0, 136)], [(15214889357702360, 0), (0, 3778478120696), (85001614, 0), (0, 130)], [(0,
    12488317887273), (179591775, 0), (121923, 0), (13, 0)], [(17568356617, 0), (0, 211938), (56, 0)]], 3, 4⟩,
    ⟨[[(8562377727508480, 0), (0, 2059460910067431), (0, 4474463009), (0, 3528850), (0, 413)], [(0,
    28177966256019352), (0, 315926437449), (0, 24397227), (0, 6198), (0, 1)], [(13258118388054, 0), (610605619, 0),
    (64550, 0), (11, 0)], [(0, 6165254106), (5481, 0), (76, 0)]], 3, 4⟩, 72057594037927936, 1947340497351,
    514250136229, ⟨[[(14064145426292, 0), (2169528596, 0), (4921126, 0), (6084, 0), (6, 0)], [(4028289111, 0),
    (3762925, 0), (0, 11060), (5, 0)], [(0, 3741326), (317, 0), (10, 0)], [(3244, 0), (0, 1)]], 3, 4⟩,
    17592186044416, 678794,
    4316417153246792649459785570790582940121016139954853454857248425974371716663775219759689467423438824068315872157777524479503603,
    lc0⟩)) (.sx (.leaf ⟨1222, 16, 2106, 290, 16, 1689, ⟨[[(0, 14599484824092672), (0, 3044667628414453),
    (32511838258, 0), (0, 2027910), (0, 178)], [(15340563384860587, 0), (0, 3942666190049), (77695709, 0), (0,
    1279)], [(0, 15555903277469), (338233208, 0), (141205, 0), (16, 0)], [(20389178873, 0), (47171, 0), (107, 0)]],
    3, 4⟩, ⟨[[(0, 30334047130472448), (0, 2002523092709140), (0, 8650773699), (0, 4011670), (0, 462)], [(0,
    28818017221647110), (0, 392791444666), (0, 40213016), (0, 8442), (0, 1)], [(14037551759175, 0), (652661167, 0),
    (68233, 0), (12, 0)], [(0, 6348838790), (157125, 0), (115, 0)]], 3, 4⟩, 72057594037927936, 2387072047416,
    538397552193, ⟨[[(13950199263868, 0), (2143395604, 0), (5566178, 0), (6429, 0), (8, 0)], [(4024408003, 0),
    (3547980, 0), (0, 11502), (8, 0)], [(0, 3594598), (413, 0), (11, 0)], [(3027, 0)]], 3, 4⟩, 17592186044416,
    886953,
    4712454823462974857588415504489074610744628783431395903134733252651206210159721028518680230503229826205688908889143633421667134,
    lc0⟩) (.leaf ⟨1214, 16, 2078, 278, 16, 1721, ⟨[[(1458953597927424, 0), (0, 3166989593554946), (35552444022, 0),
    (0, 2025635), (0, 174)], [(13950423171408222, 0), (0, 3862316719816), (88870549, 0), (110, 0)], [(0,
    12931999959919), (327028277, 0), (150667, 0), (17, 0)], [(18277658155, 0), (0, 155466), (74, 0)]], 3, 4⟩,
    ⟨[[(21164687252668416, 0), (0, 2056089210809045), (0, 10404766047), (0, 4427019), (0, 504)], [(0,
    28196083177956285), (0, 343643046717), (0, 34559095), (0, 7533), (0, 1)], [(13511734067027, 0), (680879105, 0),
    (82720, 0), (14, 0)], [(0, 6110013256), (89631, 0), (92, 0)]], 3, 4⟩, 72057594037927936, 2162941687297,
    480891481276, ⟨[[(13947856553532, 0), (1953855042, 0), (4952384, 0), (6107, 0), (0, 6)], [(3953102904, 0),
    (3927779, 0), (0, 11314), (3, 0)], [(0, 3619189), (34, 0), (11, 0)], [(3064, 0)]], 3, 4⟩, 17592186044416, 621823,
    4132144806816348751990609917283546016038021571953790274320467708219560337738755846159561550034307601494752429132041485242378507,
    lc0⟩)))
theorem c95 : checkR job con0 false ⟨7, 9, 7, 9, 13, 17⟩ 1 34400 t95 201 21 320 30243 251 32000 = true := by decide +kernel

def t96 : CTree :=
  .sx (.sy (.sx (.leaf ⟨1258, 16, 2238, 297, 16, 1613, ⟨[[(0, 29375155947683840), (0, 2853957928959297),
    (25398584373, 0), (0, 2324761), (0, 213)], [(17451578921259413, 0), (0, 4188864104883), (54090558, 0), (0,
    4353)], [(0, 22366061728977), (421731332, 0), (133596, 0), (14, 0)], [(26453913163, 0), (610310, 0), (204, 0)]],
    3, 4⟩, ⟨[[(0, 7214452227620864), (0, 1883807158497903), (0, 9890408205), (0, 3905814), (0, 451)], [(0,
    30159555051849222), (0, 530569788306), (0, 62655212), (0, 11616), (0, 1)], [(15337090971828, 0), (610932978, 0),
    (43602, 0), (8, 0)], [(0, 6809430138), (402063, 0), (182, 0)]], 3, 4⟩, 72057594037927936, 3097726544783,
    697338165150, ⟨[[(13835931882114, 0), (2376834959, 0), (7071655, 0), (9210, 0), (54, 0)], [(4122975103, 0),
    (2967343, 0), (0, 11996), (15, 0)], [(0, 3501536), (823, 0), (10, 0)], [(2929, 0)]], 3, 4⟩, 17592186044416,
    1558810,
    4959441143720949527536157647645634997219182930900952981046884619214747751249542776446184657610172508065171348227212333313491314,
    lc0⟩) (.sy (.leaf ⟨1915, 16, 3368, 371, 16, 2113, ⟨[[(3050466987507712, 0), (0, 2284632817501109), (10848114319,
    0), (0, 445940), (0, 20)], [(24425320318683770, 0), (0, 3135749490347), (25383769, 0), (0, 549)], [(0,
    28966341920851), (336751480, 0), (56924, 0), (3, 0)], [(36046472128, 0), (275398, 0), (63, 0)]], 3, 4⟩, ⟨[[(0,
    19391552413405184), (0, 1245836213527057), (0, 3546741085), (0, 677043), (0, 39)], [(0, 37789546587979294), (0,
    303349214414), (0, 17716095), (0, 1687)], [(18901150726389, 0), (420907045, 0), (20000, 0), (2, 0)], [(0,
    8351730250), (202302, 0), (50, 0)]], 3, 4⟩, 72057594037927936, 4174320103650, 691910060575, ⟨[[(13862892898440,
    0), (1705855052, 0), (3820989, 0), (3326, 0), (7, 0)], [(2644505219, 0), (1684807, 0), (0, 4742), (4, 0)], [(0,
    1495512), (175, 0), (3, 0)], [(812, 0)]], 3, 4⟩, 17592186044416, 283868,
    4515761198277453819572906312658857005031117414563137288246922303049169991199822110045348076151320834205610729435207454558770648,
    lc0⟩) (.leaf ⟨1962, 16, 3479, 360, 16, 2104, ⟨[[(0, 17695704823545856), (0, 2349036581138861), (10479472842, 0),
    (0, 504398), (0, 23)], [(23610820466492270, 0), (0, 3213208438314), (25337129, 0), (0, 606)], [(0,
    29731131938693), (409431623, 0), (63964, 0), (4, 0)], [(37394364976, 0), (353859, 0), (73, 0)]], 3, 4⟩,
    ⟨[[(35734186642837504, 0), (0, 1244605152547630), (0, 4607029683), (0, 755291), (0, 42)], [(0,
    37784883666421211), (0, 321079561122), (0, 20294401), (0, 1846)], [(19036280664515, 0), (440449588, 0), (22630,
    0), (2, 0)], [(0, 8202155299), (253610, 0), (55, 0)]], 3, 4⟩, 72057594037927936, 4414524137644, 666793172503,
    ⟨[[(13805730810558, 0), (1613641156, 0), (3838160, 0), (3156, 0), (2, 0)], [(2590076846, 0), (1722824, 0), (0,
    4825), (3, 0)], [(0, 1439121), (97, 0), (3, 0)], [(764, 0)]], 3, 4⟩, 17592186044416, 253377,
    4598629936322149870489630555091701440579934795061984132078389866155631572715193385211766761013007301856803259938818527879533248,
    lc0⟩))) (.sx (.sx (.leaf ⟨1567, 16, 2838, 401, 16, 2245, ⟨[[(0, 17247070431510528), (0, 3533953207471911),
    (26730142706, 0), (0, 3471798), (0, 317)], [(10040321674038264, 0), (0, 2631084283322), (27751311, 0), (0,
    3461)], [(0, 7283295287025), (171212916, 0), (47283, 0), (5, 0)], [(4356020299, 0), (141131, 0), (41, 0)]], 3,
    4⟩, ⟨[[(8188714273701888, 0), (0, 2631267732214873), (0, 21760880396), (0, 6620519), (0, 741)], [(0,
    21416011356517909), (0, 429041874034), (0, 57775392), (0, 9875), (0, 1)], [(5520116776563, 0), (223418643, 0),
    (17468, 0), (3, 0)], [(0, 1163832285), (107614, 0), (40, 0)]], 3, 4⟩, 72057594037927936, 304795545931,
    126017636544, ⟨[[(13722294143482, 0), (1568103241, 0), (3681056, 0), (2738, 0), (7, 0)], [(3356624052, 0),
    (1789363, 0), (0, 5312), (5, 0)], [(0, 2308806), (238, 0), (5, 0)], [(1571, 0), (1, 0)]], 3, 4⟩, 17592186044416,
    429593,
    4905603845781730796193398818941203512447292486829402724418873054463453961815039910554349579159692170073063040457066572776237943,
    lc0⟩) (.leaf ⟨1551, 16, 2800, 391, 16, 2256, ⟨[[(27702187141234688, 0), (0, 3595352497781524), (27607456148, 0),
    (0, 3559315), (0, 324)], [(9324656179486685, 0), (0, 2580956591215), (31510497, 0), (0, 2957)], [(0,
    6657334090856), (185457210, 0), (51657, 0), (6, 0)], [(4091280984, 0), (122946, 0), (39, 0)]], 3, 4⟩, ⟨[[(0,
    23795980204802048), (0, 2661864449869967), (0, 24272087928), (0, 7063790), (0, 782)], [(0, 21061091647997973),
    (0, 411721749255), (0, 56377260), (0, 9631), (0, 1)], [(5402655956533, 0), (237807081, 0), (22429, 0), (4, 0)],
    [(0, 1125251494), (102616, 0), (38, 0)]], 3, 4⟩, 72057594037927936, 290339396719, 124472227651,
    ⟨[[(13720919330511, 0), (1483986331, 0), (3525809, 0), (2499, 0), (2, 0)], [(3356279389, 0), (1935679, 0), (0,
    5446), (4, 0)], [(0, 2349917), (123, 0), (6, 0)], [(1599, 0), (1, 0)]], 3, 4⟩, 17592186044416, 348927,
    4823768406378776053580157594892845642117348472023958185167495110747977052524610332688159854326117782503252768434394765858731475,
    lc0⟩)) (.leaf ⟨1298, 16, 2331, 269, 16, 1629, ⟨[[(1504586184359936, 0), (0, 3127858678577683), (24814390590, 0),
    (0, 3097886), (0, 280)], [(14208028221619517, 0), (0, 4256125078036), (64043334, 0), (0, 3598)], [(0,
    19688511553915), (686429488, 0), (195122, 0), (23, 0)], [(25262822140, 0), (634269, 0), (230, 0)]], 3, 4⟩,
    ⟨[[(625188183818240, 0), (0, 1940094254487514), (0, 20019989596), (0, 5526942), (0, 604)], [(0,
    29451282770970551), (0, 549609306861), (0, 76710109), (0, 13136), (0, 1)], [(15006007382486, 0), (740029580, 0),
    (84311, 0), (14, 0)], [(0, 6177401230), (529804, 0), (196, 0)]], 3, 4⟩, 72057594037927936, 3172780369492,
    564570617181, ⟨[[(13721629701441, 0), (1902557913, 0), (6411315, 0), (6770, 0), (0, 9)], [(3940690408, 0),
    (3558127, 0), (0, 12689), (5, 0)], [(0, 3336165), (0, 105), (15, 0)], [(2665, 0), (3, 0)]], 3, 4⟩,
    17592186044416, 934868,
    4829090153325251364810762788548978121023761904919669849160051576938487799681677393829452145942031221019822083246092709582730908,
    lc0⟩))) (.sy (.sx (.leaf ⟨1257, 16, 2204, 273, 16, 1676, ⟨[[(0, 31050173171957760), (0, 3153890116413538),
    (30527435990, 0), (0, 2535246), (0, 226)], [(14003418055181842, 0), (0, 4045519209246), (79262696, 0), (0,
    1385)], [(0, 16062653968436), (515664199, 0), (175306, 0), (20, 0)], [(21393187111, 0), (175357, 0), (140, 0)]],
    3, 4⟩, ⟨[[(33813144042749952, 0), (0, 1998981962836475), (0, 15320480193), (0, 4998139), (0, 557)], [(0,
    28803041722415634), (0, 436594818760), (0, 53822203), (0, 10153), (0, 1)], [(14273214318759, 0), (724919307, 0),
    (86864, 0), (14, 0)], [(0, 6191048419), (282205, 0), (139, 0)]], 3, 4⟩, 72057594037927936, 2642365909069,
    492950176056, ⟨[[(13834992356368, 0), (1915336349, 0), (5620466, 0), (6454, 0), (0, 8)], [(3940098866, 0),
    (3748031, 0), (0, 11904), (3, 0)], [(0, 3464986), (18, 0), (12, 0)], [(2838, 0), (2, 0)]], 3, 4⟩, 17592186044416,
    749494,
    4430044215479446902366489079289318205899574708780208342455265289405964267573903746894312481290406106959867128139842956909041075,
    lc0⟩) (.leaf ⟨1248, 16, 2175, 262, 16, 1708, ⟨[[(0, 19949485971619840), (0, 3279161694876393), (33725664334, 0),
    (0, 2522526), (0, 220)], [(12595697679833032, 0), (0, 3949056731469), (93412538, 0), (414, 0)], [(0,
    13321687839537), (515225744, 0), (187862, 0), (22, 0)], [(19070169248, 0), (0, 75765), (97, 0)]], 3, 4⟩, ⟨[[(0,
    4941666962731008), (0, 2054513015992403), (0, 17750609920), (0, 5501663), (0, 606)], [(0, 28163939590969368), (0,
    381518128924), (0, 46718038), (0, 9058), (0, 1)], [(13771366255750, 0), (769027644, 0), (104469, 0), (16, 0)],
    [(0, 5994496453), (190719, 0), (112, 0)]], 3, 4⟩, 72057594037927936, 2419279299964, 431485037190,
    ⟨[[(13835340630145, 0), (1739876131, 0), (5011501, 0), (6857, 0), (0, 15)], [(3876038379, 0), (4099259, 0), (0,
    11453), (0, 3)], [(0, 3489877), (0, 311), (10, 0)], [(2856, 0), (2, 0)]], 3, 4⟩, 17592186044416, 608108,
    4265735291412730520875378417161129156859857645163418640983015168669722772352716251076234482727664765670253394883794761228574842,
    lc0⟩)) (.leaf ⟨1022, 16, 1819, 162, 16, 1078, ⟨[[(0, 12532605740171264), (0, 2647840717569930), (23158550752, 0),
    (0, 2518187), (0, 223)], [(18748813919118452, 0), (0, 6498356445372), (142190557, 0), (0, 605)], [(0,
    47659819324192), (2391917665, 0), (724691, 0), (87, 0)], [(134660132357, 0), (1231501, 0), (986, 0)]], 3, 4⟩,
    ⟨[[(0, 35208768500838400), (0, 1304756886153442), (0, 16194543982), (0, 4165701), (0, 445)], [(0,
    36571288003914606), (0, 596470087708), (0, 84630841), (0, 14766), (0, 1)], [(36756254275335, 0), (2184174260, 0),
    (309110, 0), (47, 0)], [(0, 30233374991), (1924358, 0), (777, 0)]], 3, 4⟩, 72057594037927936, 35849438186344,
    3715158391389, ⟨[[(13723678612580, 0), (2498789002, 0), (13059752, 0), (29189, 0), (0, 119)], [(4831926801, 0),
    (8047741, 0), (0, 35819), (0, 34), (1, 0)], [(0, 5315913), (0, 1484), (39, 0)], [(5231, 0), (12, 0)]], 3, 4⟩,
    17592186044416, 2785582,
    4866845741154330189546900683807646383392369265945575366001437798842234299657205226081727151352150738822614958443399020599817978,
    lc0⟩))
theorem c96 : checkR job con0 false ⟨7, 9, 7, 9, 13, 17⟩ 1 34400 t96 201 21 320 30745 251 32000 = true := by decide +kernel

def t97 : CTree :=
  .sy (.sx (.leaf ⟨575, 16, 966, 134, 16, 880, ⟨[[(19197800274272256, 0), (0, 3189381121587337), (80281016898, 0),
    (0, 6685866), (0, 1059)], [(12547104918920510, 0), (0, 7211591207571), (397468059, 0), (14935, 0), (5, 0)], [(0,
    18167608347042), (708783366, 0), (1088765, 0), (246, 0)], [(59420229181, 0), (0, 3633987), (258, 0)]], 3, 4⟩,
    ⟨[[(0, 17602705690353664), (0, 2116665785907703), (0, 17965926447), (0, 17688628), (0, 4039)], [(0,
    27101890776095939), (0, 504490928679), (0, 78120961), (0, 42249), (0, 8)], [(25020283122254, 0), (2621708421, 0),
    (700335, 0), (228, 0)], [(0, 23184378055), (0, 468123), (811, 0)]], 3, 4⟩, 72057594037927936, 14083498245113,
    3915642241663, ⟨[[(14005131193616, 0), (3713566276, 0), (16799876, 0), (50333, 0), (0, 180)], [(8016503698, 0),
    (17985301, 0), (0, 89362), (0, 19), (2, 0)], [(0, 15797607), (0, 2875), (178, 0)], [(28397, 0), (0, 11)]], 3, 4⟩,
    17592186044416, 14110723,
    4984011928198014121042607829941021692401931095949457868541478991496795478242837572015745013478556768144117409369895952826330945,
    lc0⟩) (.leaf ⟨558, 16, 926, 123, 16, 913, ⟨[[(6204585729671168, 0), (0, 3346773813474464), (94800598092, 0), (0,
    5390988), (0, 714)], [(10849483142072558, 0), (0, 6879445783767), (468277620, 0), (34033, 0), (9, 0)], [(0,
    10816704017037), (58281748, 0), (1013742, 0), (227, 0)], [(48266070920, 0), (0, 6363531), (0, 720)]], 3, 4⟩,
    ⟨[[(0, 455193682657280), (0, 2213284432649295), (0, 20713892365), (0, 19764212), (0, 4472)], [(0,
    26061148001760780), (0, 299652078329), (0, 16908635), (0, 23220), (0, 5)], [(23062265102479, 0), (2581975268, 0),
    (784912, 0), (250, 0)], [(0, 21995566884), (0, 1699132), (96, 0)]], 3, 4⟩, 72057594037927936, 10099485275550,
    3457299337570, ⟨[[(14005623314529, 0), (3258211927, 0), (12591752, 0), (56930, 0), (0, 205)], [(7822483705, 0),
    (20708649, 0), (0, 81789), (0, 78), (1, 0)], [(0, 16450357), (0, 8752), (155, 0), (1, 0)], [(31129, 0), (0,
    25)]], 3, 4⟩, 17592186044416, 10959928,
    3664719585013804767100309021515885348851290910175565357754405132189728191568692044891257077344757858840903879996566278329160549,
    lc0⟩)) (.sx (.leaf ⟨605, 16, 1056, 117, 16, 866, ⟨[[(0, 9638907817074688), (0, 3404592228565156), (74744370407,
    0), (0, 10160431), (0, 1706)], [(9870529157061309, 0), (0, 7431780133002), (468676931, 0), (29811, 0), (8, 0)],
    [(0, 19133175726054), (2206680795, 0), (1698375, 0), (414, 0)], [(63045796650, 0), (0, 3610183), (455, 0)]], 3,
    4⟩, ⟨[[(1449889195887616, 0), (0, 2116125993607615), (0, 50763156176), (0, 27138674), (0, 5801)], [(0,
    26945143092185432), (0, 609614824229), (0, 153383454), (0, 60975), (0, 11)], [(26122436228405, 0), (3465816140,
    0), (1101877, 0), (330, 0)], [(0, 22817268694), (516067, 0), (1171, 0)]], 3, 4⟩, 72057594037927936,
    18290737860573, 3470455697899, ⟨[[(13778513152169, 0), (2839541315, 0), (16681468, 0), (69798, 0), (0, 278)],
    [(7724133144, 0), (19507133, 0), (0, 86939), (0, 155), (1, 0)], [(0, 14794242), (0, 6969), (90, 0), (2, 0)],
    [(24567, 0), (30, 0), (1, 0)]], 3, 4⟩, 17592186044416, 9004192,
    4159469122589947062492200029493497259625256095518680368812364716683982922679503679038364841193367489495835632584824843047525536,
    lc0⟩) (.leaf ⟨585, 16, 1013, 106, 16, 899, ⟨[[(26293106963931136, 0), (0, 3561989092770100), (93459325595, 0),
    (0, 7843234), (0, 1173)], [(8225379368575703, 0), (0, 6977635076942), (585836628, 0), (61876, 0), (15, 0)], [(0,
    11486194690727), (1396372657, 0), (1579900, 0), (385, 0)], [(49074481719, 0), (0, 7955946), (0, 1216)]], 3, 4⟩,
    ⟨[[(0, 13312362206552064), (0, 2216996260933287), (0, 57298173672), (0, 30210168), (0, 6392)], [(0,
    25817039596011298), (0, 331547377581), (0, 58691445), (0, 33434), (0, 6)], [(24214170202635, 0), (3531588313, 0),
    (1226766, 0), (363, 0)], [(0, 22472684849), (0, 1567727), (117, 0)]], 3, 4⟩, 72057594037927936, 13803516103210,
    3004270818418, ⟨[[(13775175233092, 0), (2406958077, 0), (11914177, 0), (74526, 0), (0, 165)], [(7583560793, 0),
    (21998758, 0), (0, 76918), (0, 131), (0, 1)], [(0, 15569204), (0, 8808), (24, 0), (1, 0)], [(27173, 0), (0, 16),
    (2, 0)]], 3, 4⟩, 17592186044416, 10599295,
    2512499617021806296481732470257674608094131322160069414938318185215546704024985896512644603351788812050482759187910723989835891,
    lc0⟩))
theorem c97 : checkR job con0 false ⟨7, 9, 7, 9, 13, 17⟩ 1 34400 t97 243 21 320 15247 251 16000 = true := by decide +kernel

def t98 : CTree :=
  .sx (.sy (.sx (.sy (.sx (.sy (.leaf ⟨2056, 16, 3762, 342, 16, 2016, ⟨[[(0, 7347677691052032), (0,
    2366245090425398), (7637390238, 0), (0, 673034), (0, 30)], [(23214529708061251, 0), (0, 3450104897648),
    (17169796, 0), (0, 1211)], [(0, 36782793268416), (582912521, 0), (75035, 0), (4, 0)], [(45671774853, 0), (880332,
    0), (125, 0)]], 3, 4⟩, ⟨[[(13741792356696064, 0), (0, 1194577683734670), (0, 7038871090), (0, 903983), (0, 49)],
    [(0, 38348469441196428), (0, 419153045002), (0, 30877022), (0, 2502)], [(19889445144697, 0), (443024185, 0),
    (21676, 0), (2, 0)], [(0, 7871889046), (489538, 0), (80, 0)]], 3, 4⟩, 72057594037927936, 5416044858617,
    745884990480, ⟨[[(13638534965677, 0), (1548776784, 0), (4485320, 0), (3372, 0), (0, 2)], [(2559973919, 0),
    (1688836, 0), (0, 5407), (3, 0)], [(0, 1358614), (0, 52), (5, 0)], [(697, 0), (1, 0)]], 3, 4⟩, 17592186044416,
    282035,
    4525454047143355760883596445864285713937265483890185507476929671594183704702330907304105951316796043782878699749110031197990945,
    lc0⟩) (.leaf ⟨2112, 16, 3895, 332, 16, 2003, ⟨[[(0, 33139239898185728), (0, 2442504312488387), (6808890643, 0),
    (0, 762944), (0, 34)], [(22246380043451788, 0), (0, 3555204446774), (15809733, 0), (0, 1360)], [(0,
    37760075799241), (684980288, 0), (84700, 0), (5, 0)], [(47777901959, 0), (1049005, 0), (144, 0)]], 3, 4⟩, ⟨[[(0,
    22373783732166656), (0, 1194600162801828), (0, 8421776581), (0, 1000151), (0, 53)], [(0, 38318293261309611), (0,
    449187276431), (0, 34593090), (0, 2716)], [(19987811589110, 0), (463178150, 0), (24344, 0), (2, 0)], [(0,
    7556259443), (570220, 0), (88, 0)]], 3, 4⟩, 72057594037927936, 5728691745008, 712361798105, ⟨[[(13585262880902,
    0), (1459808383, 0), (4552648, 0), (3537, 0), (0, 7)], [(2502240156, 0), (1729769, 0), (0, 5508), (1, 0)], [(0,
    1298288), (0, 185), (5, 0)], [(640, 0), (1, 0)]], 3, 4⟩, 17592186044416, 335792,
    4738738909533493621894324921940411628493199405158103374731392707585210586728635839797086390978427544827897485503630177369372566,
    lc0⟩)) (.leaf ⟨1338, 16, 2443, 252, 16, 1609, ⟨[[(0, 26262184526790656), (0, 3254645055479222), (20647076744, 0),
    (0, 3889384), (0, 348)], [(12667883567327429, 0), (0, 4396223928170), (61021627, 0), (0, 4345)], [(0,
    20218664733352), (943957020, 0), (244139, 0), (29, 0)], [(26875813077, 0), (935173, 0), (299, 0)]], 3, 4⟩,
    ⟨[[(19933337718433792, 0), (0, 1940571021391876), (0, 28953625503), (0, 6770265), (0, 712)], [(0,
    29383024265712262), (0, 629360118573), (0, 97178858), (0, 15521), (0, 1)], [(15211460641814, 0), (825294423, 0),
    (105351, 0), (16, 0)], [(0, 5786827540), (737515, 0), (235, 0)]], 3, 4⟩, 72057594037927936, 3518098502437,
    524453099511, ⟨[[(13611924084299, 0), (1665481236, 0), (6551239, 0), (8040, 0), (0, 25)], [(3849772625, 0),
    (3806336, 0), (0, 13037), (0, 7)], [(0, 3189918), (0, 828), (15, 0)], [(2399, 0), (7, 0)]], 3, 4⟩,
    17592186044416, 795399,
    4839572761530571583618463445267652687990735870045347555176295214303631084607166978459645981701140256544993930660765945836535720,
    lc0⟩)) (.sx (.leaf ⟨1380, 16, 2576, 248, 16, 1557, ⟨[[(0, 25841451601002496), (0, 3218986028511544),
    (13130907741, 0), (0, 4619230), (0, 411)], [(12947906121328616, 0), (0, 4674241261863), (33175577, 0), (0, 8137),
    (0, 1)], [(0, 24598710446588), (1086339299, 0), (255596, 0), (30, 0)], [(32177909630, 0), (1698813, 0), (446,
    0)]], 3, 4⟩, ⟨[[(5284467457054720, 0), (0, 1879715297845955), (0, 33797467206), (0, 7280420), (0, 750)], [(0,
    30065214823564623), (0, 786836921975), (0, 127939247), (0, 19235), (0, 2)], [(15819718325331, 0), (782482979, 0),
    (90353, 0), (14, 0)], [(0, 5499440628), (1107071, 0), (314, 0)]], 3, 4⟩, 72057594037927936, 4052759628898,
    615940622929, ⟨[[(13503307917997, 0), (1667058300, 0), (7529506, 0), (8628, 0), (0, 33)], [(3849454494, 0),
    (3680967, 0), (0, 14405), (0, 10)], [(0, 3070723), (0, 1389), (22, 0)], [(2221, 0), (11, 0)]], 3, 4⟩,
    17592186044416, 1133905,
    4921100112860377769586899033982390773083814166637801891308876753304037656464808899916646206710208995963539501703398471514108646,
    lc0⟩) (.leaf ⟨1378, 16, 2560, 235, 16, 1585, ⟨[[(418036949270528, 0), (0, 3392067774538559), (14914063020, 0),
    (0, 4873151), (0, 431)], [(10977492304949086, 0), (0, 4546183201727), (56562077, 0), (0, 5271)], [(0,
    20621894164379), (1270632489, 0), (306515, 0), (37, 0)], [(28739706853, 0), (1330089, 0), (386, 0)]], 3, 4⟩,
    ⟨[[(6047627357437952, 0), (0, 1945674058845011), (0, 39690080914), (0, 8205957), (0, 832)], [(0,
    29282116691483136), (0, 728349002151), (0, 120887906), (0, 18191), (0, 2)], [(15420928310036, 0), (929874680, 0),
    (129845, 0), (19, 0)], [(0, 5273645826), (982287, 0), (280, 0)]], 3, 4⟩, 72057594037927936, 3927996875569,
    463638415032, ⟨[[(13501761011218, 0), (1419015655, 0), (6691153, 0), (10398, 0), (0, 34)], [(3765587492, 0),
    (4088762, 0), (0, 12902), (0, 22)], [(0, 3038943), (0, 1751), (12, 0)], [(2048, 0), (11, 0)]], 3, 4⟩,
    17592186044416, 732509,
    3319020557296546590039288943389335294410313907702421317684845747588646895399613472637480605609276766020004950705815311736076930,
    lc0⟩))) (.leaf ⟨653, 16, 1194, 111, 16, 811, ⟨[[(0, 23212569372450816), (0, 3436480313046250), (43695615208, 0),
    (0, 17244675), (0, 3024)], [(9147626600626814, 0), (0, 8251043522323), (370911796, 0), (0, 1042), (2, 0)], [(0,
    29805690706607), (4789212803, 0), (2507295, 0), (618, 0)], [(89410431576, 0), (3919349, 0), (3575, 0), (1, 0)]],
    3, 4⟩, ⟨[[(9688396786621440, 0), (0, 2011770008614489), (0, 82040916184), (0, 34303247), (0, 6949)], [(0,
    27892358536404468), (0, 1130662505284), (0, 369771894), (0, 115900), (0, 20)], [(29037762998915, 0), (4118551323,
    0), (1296720, 0), (371, 0)], [(0, 21289306680), (4935801, 0), (3117, 0), (1, 0)]], 3, 4⟩, 72057594037927936,
    28383486435557, 3550768990941, ⟨[[(13558178885454, 0), (2515925201, 0), (22199640, 0), (90592, 0), (0, 408)],
    [(7628059474, 0), (18670608, 0), (0, 92707), (0, 365), (2, 0)], [(0, 13246251), (0, 12398), (51, 0), (5, 0)],
    [(18385, 0), (147, 0)]], 3, 4⟩, 17592186044416, 10857061,
    4474434793739785526355756934967347133690828457451441105182084702521661510270957705209486665028459511770744477438712616997736275,
    lc0⟩)) (.sx (.sy (.leaf ⟨1146, 16, 2170, 142, 16, 976, ⟨[[(0, 12776417433042944), (0, 2785354091396753),
    (5117125664, 0), (0, 4801396), (0, 419)], [(16248797858721283, 0), (0, 7728421375429), (56271025, 0), (0, 13418),
    (0, 1)], [(0, 73965974672000), (5052472367, 0), (1142274, 0), (138, 0)], [(211713709826, 0), (13461521, 0),
    (3475, 0)]], 3, 4⟩, ⟨[[(0, 21360080853780480), (0, 1215260606002555), (0, 30877302166), (0, 5885785), (0, 579)],
    [(0, 37384361812967363), (0, 1117871474775), (0, 193404728), (0, 27613), (0, 2)], [(39956884817189, 0),
    (2440397981, 0), (341923, 0), (49, 0)], [(0, 23662568763), (6859081, 0), (1791, 0)]], 3, 4⟩, 72057594037927936,
    56554929369687, 3888350173772, ⟨[[(13395992441203, 0), (2029872318, 0), (18158719, 0), (50448, 0), (0, 260)],
    [(4611834915, 0), (8287365, 0), (0, 41035), (0, 182), (1, 0)], [(0, 4433783), (0, 6880), (48, 0), (1, 0)],
    [(3194, 0), (52, 0)]], 3, 4⟩, 17592186044416, 3849596,
    3979073286495082956322844196069019035830272713044771039504901977081893234944254105896062543165681888833398846966447298723703598,
    lc0⟩) (.sx (.leaf ⟨1469, 16, 2835, 212, 16, 1494, ⟨[[(8552021756919808, 0), (0, 3530978513257361), (0,
    3915031367), (0, 7224031), (0, 621)], [(9111896876869864, 0), (0, 5101194108600), (4586219, 0), (0, 12432), (0,
    1)], [(0, 25551129451949), (1874450991, 0), (402533, 0), (48, 0)], [(37860471075, 0), (3087331, 0), (736, 0)]],
    3, 4⟩, ⟨[[(24654258123976704, 0), (0, 1893073894794733), (0, 58344174381), (0, 10404306), (0, 993)], [(0,
    29750845297336131), (0, 1064179782324), (0, 188852289), (0, 25769), (0, 2)], [(16035535832332, 0), (970162081,
    0), (134463, 0), (19, 0)], [(0, 3863959722), (1798468, 0), (440, 0)]], 3, 4⟩, 72057594037927936, 4954632785793,
    440066819735, ⟨[[(13288129386887, 0), (1120804421, 0), (7881833, 0), (16477, 0), (0, 49)], [(3656190076, 0),
    (4482425, 0), (0, 13283), (0, 60)], [(0, 2690097), (0, 4412), (11, 0)], [(1147, 0), (25, 0)]], 3, 4⟩,
    17592186044416, 1443047,
    4089730342570136319704252310772283259403695220626611315700659246433796504238334664681278842676506817188793200042722174467847129,
    lc0⟩) (.leaf ⟨1462, 16, 2812, 198, 16, 1517, ⟨[[(0, 8287110536609792), (0, 3711346840551405), (0, 2935327780),
    (0, 7591894), (0, 649)], [(7100721177426018, 0), (0, 4888328693802), (41803085, 0), (0, 7817), (0, 1)], [(0,
    20865742845916), (2212086288, 0), (485770, 0), (59, 0)], [(33528418041, 0), (2513668, 0), (637, 0)]], 3, 4⟩,
    ⟨[[(28679008596387840, 0), (0, 1965732223910926), (0, 67023355450), (0, 11626036), (0, 1094)], [(0,
    28861585152876008), (0, 988536180046), (0, 178023667), (0, 24293), (0, 2)], [(15798156140644, 0), (1201116062,
    0), (189328, 0), (25, 0)], [(0, 3796049807), (1593380, 0), (390, 0)]], 3, 4⟩, 72057594037927936, 4989153831172,
    229409682614, ⟨[[(13288935088295, 0), (878517434, 0), (6708760, 0), (18025, 0), (0, 28)], [(3579623483, 0),
    (4803061, 0), (0, 9909), (0, 59)], [(0, 2645043), (0, 4122), (0, 7)], [(823, 0), (23, 0)]], 3, 4⟩,
    17592186044416, 1280912,
    3930850435344599518809556348597826277174570452423936669628458943603593550458578597252921351405045407674037731432207554170732814,
    lc0⟩))) (.sy (.leaf ⟨1199, 16, 2256, 128, 16, 1031, ⟨[[(29607952693805056, 0), (0, 3223017495839350),
    (10118652115, 0), (0, 5291599), (0, 455)], [(11513656585101879, 0), (0, 7531177865239), (175336617, 0), (389,
    0)], [(0, 52170650216661), (6582368593, 0), (1566805, 0), (195, 0)], [(172791102397, 0), (6691577, 0), (2310,
    0)]], 3, 4⟩, ⟨[[(0, 23136315942917120), (0, 1328295655389558), (0, 40430790751), (0, 7335861), (0, 704)], [(0,
    36074922565300962), (0, 929858841410), (0, 164918352), (0, 23733), (0, 2)], [(39146693984941, 0), (3348194367,
    0), (564407, 0), (77, 0)], [(0, 24083078898), (4862620, 0), (1315, 0)]], 3, 4⟩, 72057594037927936,
    56851726694768, 1644419306128, ⟨[[(13393124200574, 0), (1342430592, 0), (12750139, 0), (55387, 0), (0, 97)],
    [(4194861105, 0), (8774826, 0), (0, 24632), (0, 155)], [(0, 3918591), (0, 5100), (0, 37), (1, 0)], [(2061, 0),
    (36, 0)]], 3, 4⟩, 17592186044416, 3388654,
    3625379804392094169662281439767838239710108092601795051026932122236740607902073672615006211496793860623266650418443809643013182,
    lc0⟩) (.leaf ⟨1271, 16, 2436, 116, 16, 1008, ⟨[[(0, 7843000589533184), (0, 3473782023295185), (1537190283, 0),
    (0, 6782440), (0, 574)], [(8397781358505580, 0), (0, 7941533061681), (190370178, 0), (983, 0)], [(0,
    52310999368139), (8975313572, 0), (2039556, 0), (253, 0)], [(190878560564, 0), (10004012, 0), (3058, 0)]], 3, 4⟩,
    ⟨[[(0, 26531001605672960), (0, 1344135014390503), (0, 51427138342), (0, 8667411), (0, 803)], [(0,
    35770216330233454), (0, 1089543181807), (0, 199212058), (0, 27320), (0, 2)], [(40065648810044, 0), (3887547518,
    0), (674887, 0), (89, 0)], [(0, 20814091796), (6173318, 0), (1549, 0)]], 3, 4⟩, 72057594037927936,
    67767423999039, 3601680287979, ⟨[[(13289667526917, 0), (935702625, 0), (12103611, 0), (65699, 0), (0, 25)],
    [(3966297225, 0), (8932674, 0), (0, 16586), (0, 180), (0, 1)], [(0, 3398977), (0, 5948), (0, 82), (1, 0)], [(662,
    0), (42, 0)]], 3, 4⟩, 17592186044416, 4247256,
    4249015009029517836718564293246142645524554322109725481461663200869913669337834048606794085977478786467506331626622946768190927,
    lc0⟩)))) (.sy (.sx (.leaf ⟨637, 16, 1157, 99, 16, 842, ⟨[[(0, 290711499202560), (0, 3657453416681540),
    (61933056535, 0), (0, 15635885), (0, 2649)], [(6861132955968702, 0), (0, 7597565382559), (577359127, 0), (53282,
    0), (12, 0)], [(0, 19216729874311), (4680803284, 0), (2703565, 0), (678, 0)], [(67238726257, 0), (0, 3311388),
    (809, 0)]], 3, 4⟩, ⟨[[(15783693661822976, 0), (0, 2130107527803340), (0, 98715165723), (0, 39936507), (0, 7954)],
    [(0, 26541751595925083), (0, 793160131641), (0, 256445205), (0, 84392), (0, 14)], [(27404721609247, 0),
    (4720736621, 0), (1655397, 0), (463, 0)], [(0, 21606013926), (1892282, 0), (1663, 0)]], 3, 4⟩, 72057594037927936,
    24645873128713, 2609400865253, ⟨[[(13555604800640, 0), (1913155207, 0), (15869490, 0), (97128, 0), (0, 179)],
    [(7431799001, 0), (21082331, 0), (0, 73396), (0, 281), (0, 2)], [(0, 13676343), (0, 9434), (0, 142), (4, 0)],
    [(18385, 0), (82, 0), (2, 0)]], 3, 4⟩, 17592186044416, 12794814,
    2227475827731059725207613502070748454215045844676255012421092245873513834957460186533178701666120068385135479883314713519817855,
    lc0⟩) (.leaf ⟨614, 16, 1109, 88, 16, 875, ⟨[[(971372979093504, 0), (0, 3804031704553442), (87184541095, 0), (0,
    11690764), (0, 1828)], [(5341432925806682, 0), (0, 6934994703959), (770336648, 0), (105682, 0), (22, 0)], [(0,
    11312045478977), (3633094452, 0), (2515690, 0), (634, 0)], [(48967505552, 0), (0, 10352401), (0, 1974)]], 3, 4⟩,
    ⟨[[(0, 21248550237551616), (0, 2239473901943587), (0, 110644238283), (0, 44312820), (0, 8734)], [(0,
    25308713680283776), (0, 407784938841), (0, 115691131), (0, 45761), (0, 7)], [(25643300695933, 0), (4939257859,
    0), (1837119, 0), (509, 0)], [(0, 22607265134), (0, 1394422), (151, 0)]], 3, 4⟩, 72057594037927936,
    19468815993612, 2789925660657, ⟨[[(13556440838123, 0), (1541880054, 0), (10482319, 0), (90576, 0), (0, 6)],
    [(7323008625, 0), (23100989, 0), (0, 63508), (0, 123), (0, 2)], [(0, 14570104), (0, 3795), (0, 225), (2, 0)],
    [(20727, 0), (0, 19), (4, 0)]], 3, 4⟩, 17592186044416, 12850303,
    2179022279911056344386552083263459427576302212137481728354162418092428177220207825078014031043120778399490745116270524639909259,
    lc0⟩)) (.sx (.leaf ⟨668, 16, 1264, 80, 16, 804, ⟨[[(19671428060725248, 0), (0, 3942272244386639), (37042021392,
    0), (0, 23945868), (0, 3987)], [(3496170202763669, 0), (0, 7615643922222), (740754930, 0), (89604, 0), (18, 0)],
    [(0, 17578969565148), (8718786601, 0), (4313961, 0), (1085, 0)], [(71903899632, 0), (0, 2480850), (1419, 0)]], 3,
    4⟩, ⟨[[(12068430589108224, 0), (0, 2161616974782761), (0, 164514624009), (0, 56111697), (0, 10425)], [(0,
    25796921746749004), (0, 1071542606683), (0, 388869697), (0, 112041), (0, 18)], [(28890328360072, 0), (6471747560,
    0), (2378276, 0), (627, 0)], [(0, 19268425814), (3741742, 0), (2309, 0), (1, 0)]], 3, 4⟩, 72057594037927936,
    34314715023167, 5677848294318, ⟨[[(13339425899963, 0), (948495355, 0), (13882563, 0), (123047, 0), (138, 0)],
    [(7157269166, 0), (22405465, 0), (0, 41446), (0, 294), (0, 6)], [(0, 12277278), (0, 7123), (0, 593), (4, 0)],
    [(6052, 0), (148, 0), (5, 0)]], 3, 4⟩, 17592186044416, 27924875,
    3396159490026065822864550393253750244888118834694749483670630707529866830079891291919158248749917077308214527098378212423663993,
    lc0⟩) (.leaf ⟨642, 16, 1212, 69, 16, 837, ⟨[[(27892514251677696, 0), (0, 4072432036378224), (72664584514, 0), (0,
    17508339), (0, 2741)], [(2261244389710133, 0), (0, 6633120096943), (1057040742, 0), (173432, 0), (34, 0)], [(0,
    9579612275405), (7330411547, 0), (4025331, 0), (1019, 0)], [(47217421797, 0), (0, 13938811), (0, 3122), (0, 1)]],
    3, 4⟩, ⟨[[(0, 34608649852682240), (0, 2285114480421786), (0, 183766310356), (0, 62128422), (0, 11429)], [(0,
    24439305983109233), (0, 538062528235), (0, 188110024), (0, 59645), (0, 9)], [(27411871099226, 0), (6905260881,
    0), (2637768, 0), (693, 0)], [(0, 22254595259), (0, 1163304), (200, 0)]], 3, 4⟩, 72057594037927936,
    28216105932804, 5915816053106, ⟨[[(13339253599374, 0), (644818041, 0), (8300034, 0), (97462, 0), (271, 0)],
    [(7096599855, 0), (23512229, 0), (0, 36581), (23, 0), (0, 5)], [(0, 13349494), (11212, 0), (0, 666), (1, 0)],
    [(6877, 0), (0, 32), (7, 0)]], 3, 4⟩, 17592186044416, 28923842,
    1998643884657038489310788954764763029605843388996644427719135168750409798150960405553356504791519770367666004816385943281971769,
    lc0⟩)))
theorem c98 : checkR job con0 false ⟨7, 9, 7, 9, 13, 17⟩ 1 34400 t98 111 21 160 15749 251 16000 = true := by decide +kernel

def t99 : CTree :=
  .sy (.sx (.sy (.sx (.leaf ⟨457, 16, 629, 175, 16, 938, ⟨[[(0, 19145526709600256), (0, 2813911349361739),
    (92372298678, 0), (0, 2368145), (94, 0)], [(17679342051900888, 0), (0, 5980834834903), (304542497, 0), (0, 2965),
    (2, 0)], [(0, 496446408397), (0, 2165509784), (292166, 0), (8, 0)], [(38828916158, 0), (0, 4357101), (0, 68)]],
    3, 4⟩, ⟨[[(22882662051979264, 0), (0, 2347236457529578), (36295066415, 0), (0, 3567103), (0, 491)], [(0,
    24495459102878589), (0, 309465026538), (53154606, 0), (680, 0)], [(17972552113558, 0), (1065595670, 0), (75857,
    0), (35, 0)], [(0, 16346017626), (0, 1914879), (0, 39)]], 3, 4⟩, 72057594037927936, 1203256237777, 3005874924934,
    ⟨[[(15002581303589, 0), (6113612658, 0), (10921267, 0), (47012, 0), (251, 0)], [(8477270030, 0), (18740805, 0),
    (0, 74849), (0, 142), (0, 2)], [(0, 20105121), (0, 7768), (243, 0)], [(45858, 0), (0, 66)]], 3, 4⟩,
    17592186044416, 26709769,
    4780310715681079901964927718634259529736551789552033001897606814217324660339184017451481513643324812920109258083434877787973777,
    lc0⟩) (.leaf ⟨439, 16, 591, 166, 16, 963, ⟨[[(0, 10832833133731840), (0, 2883838730534432), (99288460070, 0), (0,
    2332888), (167, 0)], [(16765023712601179, 0), (0, 5813340519346), (308783187, 0), (0, 2459), (2, 0)],
    [(4135278553819, 0), (0, 2594755194), (263629, 0)], [(36869315789, 0), (0, 4783126), (0, 106)]], 3, 4⟩, ⟨[[(0,
    16781250915223552), (0, 2421353669788381), (39687255819, 0), (0, 3573093), (0, 488)], [(0, 23683154775373278),
    (0, 236014611496), (60753671, 0), (3454, 0), (1, 0)], [(16480496761923, 0), (853576003, 0), (67696, 0), (29, 0)],
    [(0, 14537617166), (0, 1852549), (0, 117)]], 3, 4⟩, 72057594037927936, 1973470114166, 2847128152028,
    ⟨[[(15005015957299, 0), (5898499891, 0), (8122643, 0), (34052, 0), (83, 0)], [(8323741540, 0), (21105344, 0), (0,
    65996), (0, 95)], [(0, 21055970), (0, 17659), (260, 0)], [(51415, 0), (0, 57), (0, 1)]], 3, 4⟩, 17592186044416,
    31949628,
    4411681374052859595070121534951435132621922416134654598515682972614842589192416715828654118226084610768994583175898574398520281,
    lc0⟩)) (.sx (.sy (.leaf ⟨719, 16, 1022, 223, 16, 1281, ⟨[[(0, 35594103547289600), (0, 2230318556111007),
    (36464968839, 0), (0, 455914), (7, 0)], [(25136665033707246, 0), (0, 4673208266300), (123063088, 0), (72, 0)],
    [(0, 2063197276757), (0, 1576869324), (124181, 0), (3, 0)], [(60402591712, 0), (0, 3604452), (0, 61)]], 3, 4⟩,
    ⟨[[(0, 16506495653861376), (0, 1585236389941823), (10836090125, 0), (0, 786378), (0, 78)], [(0,
    33601536985944064), (0, 183804729735), (18369029, 0), (74, 0)], [(25110060826928, 0), (778526328, 0), (42981, 0),
    (9, 0)], [(0, 23318103096), (0, 1338672), (0, 29)]], 3, 4⟩, 72057594037927936, 2277914628877, 3765229436074,
    ⟨[[(14808613648825, 0), (4083707960, 0), (5640239, 0), (15592, 0), (35, 0)], [(5451239512, 0), (9372455, 0), (0,
    25887), (0, 19)], [(0, 8386976), (0, 2971), (55, 0)], [(12359, 0), (0, 12)]], 3, 4⟩, 17592186044416, 3465192,
    4411937023159281269396377963194506606600445814563097603312979948949319781279018843779237760577823310999509390160182793229769094,
    lc0⟩) (.leaf ⟨742, 16, 1078, 212, 16, 1282, ⟨[[(0, 27333853124460544), (0, 2314271057396345), (37748669565, 0),
    (0, 468623), (5, 0)], [(24072260493562203, 0), (0, 4798743062466), (130372615, 0), (698, 0)], [(0,
    2977706112580), (0, 1528687021), (137543, 0), (5, 0)], [(61785117402, 0), (0, 3881504), (0, 96)]], 3, 4⟩, ⟨[[(0,
    5123746957535232), (0, 1576223930670289), (9527120376, 0), (0, 972733), (0, 108)], [(0, 33715468913976637), (0,
    165445699640), (18462700, 0), (28, 0)], [(25532898676283, 0), (830094462, 0), (59229, 0), (12, 0)], [(0,
    24017254184), (0, 1375522), (0, 43)]], 3, 4⟩, 72057594037927936, 2853670979599, 3755821252227,
    ⟨[[(14678568948958, 0), (3804902442, 0), (5536188, 0), (14837, 0), (8, 0)], [(5320679928, 0), (9536238, 0), (0,
    25685), (0, 13)], [(0, 8049013), (0, 3285), (54, 0)], [(11603, 0), (0, 11)]], 3, 4⟩, 17592186044416, 2934637,
    4257726628975556981908950769976628385021012188734316575114600201307861717027861260027140814693641394843096388548755109944919220,
    lc0⟩)) (.leaf ⟨455, 16, 641, 150, 16, 969, ⟨[[(0, 31755358407843840), (0, 3021518614197467), (104158495600, 0),
    (0, 2153345), (194, 0)], [(15102403917924901, 0), (0, 5969699371208), (334738401, 0), (2891, 0), (3, 0)],
    [(3144524555345, 0), (0, 2526262387), (289234, 0), (6, 0)], [(37344052794, 0), (0, 5374073), (0, 271)]], 3, 4⟩,
    ⟨[[(0, 2959408058689536), (0, 2399380315184150), (33500977543, 0), (0, 5151197), (0, 1098)], [(0,
    23934030040017256), (0, 173030951202), (67744811, 0), (5401, 0), (1, 0)], [(17035949093674, 0), (955355977, 0),
    (130438, 0), (55, 0)], [(0, 15602889284), (0, 2039734), (0, 241)]], 3, 4⟩, 72057594037927936, 1802826767710,
    2991990301016, ⟨[[(14744148473019, 0), (5156492698, 0), (7663311, 0), (34273, 0), (0, 54)], [(8129801139, 0),
    (22223667, 0), (0, 66469), (0, 68)], [(0, 20435771), (0, 20181), (264, 0)], [(49389, 0), (0, 48)]], 3, 4⟩,
    17592186044416, 26720095,
    4226720404656483727141297873351929553341229914857512128704819941268817792634844352031320373061041014027507144409980675506600657,
    lc0⟩))) (.sy (.sx (.leaf ⟨419, 16, 552, 156, 16, 986, ⟨[[(10617508630007808, 0), (0, 2926199775213174),
    (105275970619, 0), (0, 2280573), (234, 0)], [(16168304100653952, 0), (0, 5657959840587), (308514667, 0), (0,
    2660), (2, 0)], [(8314807556469, 0), (0, 3022389604), (231995, 0), (0, 8)], [(36522557172, 0), (0, 5019829), (0,
    125)]], 3, 4⟩, ⟨[[(0, 665868363474944), (0, 2487930710298804), (43360083663, 0), (0, 3462404), (0, 447)], [(0,
    22906321467340026), (0, 178080064877), (67296746, 0), (5662, 0), (2, 0)], [(15134293238671, 0), (642003081, 0),
    (50952, 0), (20, 0)], [(0, 12754236267), (0, 1784200), (0, 166)]], 3, 4⟩, 72057594037927936, 3824384343957,
    2754734737120, ⟨[[(15001178280225, 0), (5774637356, 0), (5916573, 0), (29711, 0), (0, 26)], [(8178692165, 0),
    (23387600, 0), (0, 58510), (0, 93)], [(0, 22159978), (0, 29080), (278, 0)], [(58346, 0), (0, 37), (0, 1)]], 3,
    4⟩, 17592186044416, 36718657,
    3555280458352590406407199695721566359733641316702666269777143574328638845797625483634623032881852984592492497753962788851103427,
    lc0⟩) (.leaf ⟨399, 16, 513, 146, 16, 1008, ⟨[[(0, 34827300323028992), (0, 2945610803075403), (110251558200, 0),
    (0, 2241405), (284, 0)], [(15860203376717748, 0), (0, 5519596609686), (304186135, 0), (0, 3431), (1, 0)],
    [(12208807620346, 0), (0, 3422812779), (200006, 0), (0, 15)], [(37448196235, 0), (0, 5056753), (0, 131)]], 3, 4⟩,
    ⟨[[(13542056252598272, 0), (0, 2550063719076702), (47295949966, 0), (0, 3266757), (0, 373)], [(0,
    22183093014770880), (0, 136359092880), (72236967, 0), (7043, 0), (2, 0)], [(13959927903990, 0), (434272144, 0),
    (29507, 0), (9, 0)], [(0, 10978032382), (0, 1698280), (0, 183)]], 3, 4⟩, 72057594037927936, 5327738044754,
    2678873366676, ⟨[[(15004956897634, 0), (5759195246, 0), (3974395, 0), (29766, 0), (0, 78)], [(7994257898, 0),
    (25389873, 0), (0, 50506), (0, 105)], [(0, 23158595), (0, 41721), (288, 0)], [(65731, 0), (0, 6), (0, 1)]], 3,
    4⟩, 17592186044416, 45053890,
    2013604845692149989080497600823427894499752279698401260057209607901037060573414036622895499775809500885962391556584450922846964,
    lc0⟩)) (.sx (.leaf ⟨433, 16, 599, 140, 16, 994, ⟨[[(7888677134946304, 0), (0, 3062388734404927), (110928689508,
    0), (0, 1899379), (323, 0)], [(14546963864500209, 0), (0, 5804602740711), (334086091, 0), (2436, 0), (3, 0)],
    [(7438518942541, 0), (0, 3034736693), (235652, 0), (0, 12)], [(36852847210, 0), (0, 5651762), (0, 289)]], 3, 4⟩,
    ⟨[[(0, 5080922114787328), (0, 2467164271946160), (37499856697, 0), (0, 4960110), (0, 1052)], [(0,
    23164364140138926), (0, 106181790679), (79253124, 0), (9677, 0), (2, 0)], [(15598097071032, 0), (718968820, 0),
    (96844, 0), (41, 0)], [(0, 13815098628), (0, 2042759), (0, 330)]], 3, 4⟩, 72057594037927936, 3885953257812,
    2938383857242, ⟨[[(14739721179904, 0), (5037371738, 0), (5393954, 0), (35530, 0), (0, 102)], [(8016484561, 0),
    (24530466, 0), (0, 59864), (0, 89)], [(0, 21652080), (0, 31518), (286, 0)], [(56718, 0), (0, 30), (0, 1)]], 3,
    4⟩, 17592186044416, 31227866,
    3114264327416998856296568513004320116590070864960049638546413870250011291462070165383275957269964116036811173658659313119199463,
    lc0⟩) (.leaf ⟨411, 16, 557, 130, 16, 1018, ⟨[[(0, 12179040583626752), (0, 3079739140706016), (116565033469, 0),
    (0, 1699608), (429, 0)], [(14294913934936186, 0), (0, 5663291947631), (327641214, 0), (688, 0), (3, 0)],
    [(11442711259265, 0), (0, 3513030890), (185299, 0), (0, 26)], [(37860062397, 0), (0, 5685198), (0, 262)]], 3, 4⟩,
    ⟨[[(0, 10275364343488512), (0, 2530155411229301), (41963345343, 0), (0, 4599136), (0, 955)], [(0,
    22452852034841993), (0, 57803273500), (87632973, 0), (12728, 0), (3, 0)], [(14327669250551, 0), (478816604, 0),
    (54172, 0), (24, 0)], [(0, 12008218481), (0, 1985708), (0, 367)]], 3, 4⟩, 72057594037927936, 5589168059288,
    2902904967006, ⟨[[(14742179452099, 0), (5025266221, 0), (3250256, 0), (37574, 0), (0, 101)], [(7870175048, 0),
    (26610386, 0), (0, 52266), (0, 108)], [(0, 22807117), (0, 44286), (300, 0)], [(64803, 0), (0, 0), (0, 1)]], 3,
    4⟩, 17592186044416, 38451846,
    2269114140184794738533742134570513837328077898499025628143619420904507105870306064191003211788146784254115522947610018533937980,
    lc0⟩)))) (.sy (.sx (.sx (.leaf ⟨493, 16, 740, 144, 16, 947, ⟨[[(0, 22269274566320128), (0, 3100328385309599),
    (100776852159, 0), (0, 2528515), (4, 0)], [(14095109004549751, 0), (0, 6316193547473), (365878599, 0), (10484,
    0), (5, 0)], [(0, 2778940622144), (0, 1799601374), (420545, 0), (48, 0)], [(40361469678, 0), (0, 5589900), (0,
    439)]], 3, 4⟩, ⟨[[(31205510848258048, 0), (0, 2310233579091411), (20392219309, 0), (0, 8157349), (0, 1950)], [(0,
    24989555715708410), (0, 203349841770), (54440616, 0), (0, 398)], [(19351686341861, 0), (1393268094, 0), (274426,
    0), (105, 0)], [(0, 18527765967), (0, 2155500), (0, 205)]], 3, 4⟩, 72057594037927936, 2767497026096,
    3284527641896, ⟨[[(14487823125686, 0), (4573537700, 0), (9894020, 0), (39199, 0), (0, 88)], [(8087187373, 0),
    (20966021, 0), (0, 74329), (0, 43)], [(0, 18832457), (0, 12758), (239, 0)], [(41347, 0), (0, 49)]], 3, 4⟩,
    17592186044416, 19470909,
    4390342848880692511743101002055490470576613810968862086600124305757581851586260104804182502624962095754023436324356739591049321,
    lc0⟩) (.leaf ⟨472, 16, 697, 134, 16, 975, ⟨[[(0, 16247837266575360), (0, 3173439146158151), (110059383208, 0),
    (0, 1900751), (229, 0)], [(13255589378271043, 0), (0, 6121274005700), (375370188, 0), (12656, 0), (6, 0)],
    [(2120625618227, 0), (0, 2423812058), (332580, 0), (19, 0)], [(37577593891, 0), (0, 6271690), (0, 580)]], 3, 4⟩,
    ⟨[[(12682191951837184, 0), (0, 2384971148897486), (23827548139, 0), (0, 8232436), (0, 1983)], [(0,
    24151686532396401), (0, 100940174228), (78246631, 0), (8109, 0), (2, 0)], [(17665136276401, 0), (1143554268, 0),
    (241358, 0), (93, 0)], [(0, 16805041129), (0, 2383390), (0, 429)]], 3, 4⟩, 72057594037927936, 1509904490647,
    3146402980273, ⟨[[(14488261269132, 0), (4379118120, 0), (7138262, 0), (41659, 0), (0, 128)], [(7950672754, 0),
    (23376435, 0), (0, 68062), (0, 71)], [(0, 19859469), (0, 22484), (261, 0)], [(47119, 0), (0, 42)]], 3, 4⟩,
    17592186044416, 21084821,
    3624692791157516732613667445708797468449690122862987504311757310630892916088803713739203696316900455646940076877610963370467599,
    lc0⟩)) (.leaf ⟨341, 16, 491, 82, 16, 699, ⟨[[(0, 23058777802006528), (0, 2515121939900690), (95011608285, 0), (0,
    767199), (434, 0)], [(19696021983828547, 0), (0, 9166587592044), (577448036, 0), (17017, 0), (9, 0)],
    [(26744790909255, 0), (0, 10484130334), (599184, 0), (0, 83)], [(232736315022, 0), (0, 41447617), (0, 3666), (0,
    1)]], 3, 4⟩, ⟨[[(0, 20663982486702080), (0, 1711578752326370), (21216167123, 0), (0, 5300642), (0, 1292)], [(0,
    31706816035113307), (20551952630, 0), (147220169, 0), (25509, 0), (6, 0)], [(42423708070759, 0), (1963912786, 0),
    (404346, 0), (168, 0)], [(0, 78037874569), (0, 13911394), (0, 3445), (0, 1)]], 3, 4⟩, 72057594037927936,
    64287580633045, 29209890593264, ⟨[[(14492114287035, 0), (6220232038, 0), (7121972, 0), (137400, 0), (0, 433)],
    [(9965755118, 0), (49793863, 0), (0, 156372), (0, 390), (1, 0)], [(0, 35613900), (0, 94841), (1012, 0), (0, 1)],
    [(123083, 0), (0, 57), (0, 3)]], 3, 4⟩, 17592186044416, 122603311,
    3340960667001427893698004834556309844347350921891533059671306812216244799809792609513081359936694490983712239241692591206542991,
    lc0⟩)) (.sx (.leaf ⟨402, 16, 626, 83, 16, 647, ⟨[[(0, 34964885776355328), (0, 2644776864380355), (89127127937,
    0), (0, 1761308), (74, 0)], [(18471083735668593, 0), (0, 10155621382275), (695757334, 0), (44417, 0), (14, 0)],
    [(0, 4202577245909), (0, 5902537395), (1575509, 0), (230, 0)], [(247472674623, 0), (0, 46582424), (0, 6437), (0,
    2)]], 3, 4⟩, ⟨[[(0, 13764199160656896), (0, 1570994104327632), (4048479669, 0), (0, 8995051), (0, 2145)], [(0,
    33146460167193064), (0, 107336909610), (99084316, 0), (7294, 0), (1, 0)], [(51729660693836, 0), (4375597637, 0),
    (1221354, 0), (426, 0)], [(0, 101822329873), (0, 14583741), (0, 2917), (0, 1)]], 3, 4⟩, 72057594037927936,
    32211769896139, 28817666545448, ⟨[[(14248480348330, 0), (5495517958, 0), (17559718, 0), (165511, 0), (0, 733)],
    [(9782820175, 0), (43319888, 0), (0, 200629), (0, 298), (2, 0)], [(0, 29133232), (0, 43871), (778, 0)], [(80602,
    0), (0, 136)]], 3, 4⟩, 17592186044416, 51191631,
    3861159672351683988177569659982401222709836295054253412846299104981917767674556756452510438486437738230643026419752984257256511,
    lc0⟩) (.leaf ⟨364, 16, 552, 70, 16, 701, ⟨[[(0, 23168815899783168), (0, 2720733951853627), (106334506610, 0),
    (282252, 0), (663, 0)], [(17136371009397080, 0), (0, 9633566032774), (695350698, 0), (43903, 0), (15, 0)],
    [(24308089238475, 0), (0, 11184164457), (523923, 0), (0, 104)], [(236979676167, 0), (0, 52231656), (0, 7345), (0,
    3)]], 3, 4⟩, ⟨[[(3801096929639424, 0), (0, 1699882068904086), (10933009134, 0), (0, 8693379), (0, 2110)], [(0,
    31746350896300532), (191403996585, 0), (196105206, 0), (39642, 0), (8, 0)], [(43660450178076, 0), (2529556086,
    0), (737754, 0), (279, 0)], [(0, 86301336971), (0, 18445944), (0, 5638), (0, 2)]], 3, 4⟩, 72057594037927936,
    69216931102740, 29635991860509, ⟨[[(14245380595812, 0), (5140192439, 0), (4496274, 0), (159086, 0), (0, 206)],
    [(9460726679, 0), (51017884, 0), (0, 158742), (0, 330)], [(0, 32801693), (0, 91514), (903, 0), (0, 1)], [(108850,
    0), (0, 127)]], 3, 4⟩, 17592186044416, 100665386,
    3469724126264185420597576188556527579752639417806713492242465330347290350493731965473456528818155724167776477953181666481416100,
    lc0⟩)))
theorem c99 : checkR job con0 false ⟨7, 9, 7, 9, 13, 17⟩ 1 34400 t99 153 21 160 7247 251 8000 = true := by decide +kernel

def t100 : CTree :=
  .sy (.sy (.sx (.leaf ⟨433, 16, 707, 72, 16, 645, ⟨[[(521129575399424, 0), (0, 2887395872548662), (97774037513, 0),
    (0, 1853166), (53, 0)], [(15308795014254726, 0), (0, 10633906705024), (888877486, 0), (89122, 0), (23, 0)], [(0,
    7606352829022), (0, 4640834041), (2302825, 0), (449, 0)], [(250897042801, 0), (0, 62099596), (0, 11927), (0,
    4)]], 3, 4⟩, ⟨[[(0, 26042726078697472), (0, 1570073396153302), (0, 13212651052), (0, 14304244), (0, 3230)], [(0,
    33071816724231473), (0, 1633987513), (111916580, 0), (10442, 0), (2, 0)], [(54126251662840, 0), (5955824406, 0),
    (2012171, 0), (643, 0)], [(0, 109667639054), (0, 18253298), (0, 4595), (0, 1)]], 3, 4⟩, 72057594037927936,
    53268661552749, 26472247265254, ⟨[[(14007705256699, 0), (4287094456, 0), (15623534, 0), (201862, 0), (0, 533)],
    [(9250093649, 0), (44054029, 0), (0, 193468), (0, 308), (0, 1)], [(0, 26333675), (0, 38941), (500, 0), (1, 0)],
    [(68018, 0), (0, 172), (4, 0)]], 3, 4⟩, 17592186044416, 52126224,
    3027372857614376285868258380805673570438337605951191116474324742277608557388379451555350427577814094955800580276463756708906092,
    lc0⟩) (.sx (.leaf ⟨484, 16, 778, 90, 16, 1008, ⟨[[(0, 10147126582726656), (0, 3553324416670785), (140464907536,
    0), (1397799, 0), (959, 0)], [(8565658346771369, 0), (0, 6122957652485), (546707630, 0), (57628, 0), (15, 0)],
    [(4371869791778, 0), (0, 3105748509), (265293, 0), (7, 0)], [(35033322651, 0), (0, 10572303), (0, 2147), (0,
    1)]], 3, 4⟩, ⟨[[(32800015047587840, 0), (0, 2445506901458502), (0, 12288808612), (0, 20920595), (0, 4762)], [(0,
    23421507223229861), (244909452069, 0), (173023577, 0), (35950, 0), (7, 0)], [(17367239631440, 0), (1551520526,
    0), (553484, 0), (185, 0)], [(0, 18524807129), (0, 4493041), (0, 1490)]], 3, 4⟩, 72057594037927936,
    3997421019188, 3467122767812, ⟨[[(14005948269329, 0), (2753167766, 0), (2141831, 0), (56510, 0), (2, 0)],
    [(7483524583, 0), (28312077, 0), (0, 64965), (0, 52)], [(0, 20026884), (0, 31069), (204, 0)], [(50318, 0), (0,
    110), (1, 0)]], 3, 4⟩, 17592186044416, 23443332,
    2712514909908734426416822299987875720484648545454996338704114634567072986503978625959314795367306634182478734538383569794995932,
    lc0⟩) (.leaf ⟨455, 16, 724, 80, 16, 1039, ⟨[[(3972379144093696, 0), (0, 3551846822011118), (152369992866, 0),
    (3517282, 0), (1500, 0)], [(8491002924715803, 0), (0, 5993914318678), (518869990, 0), (50772, 0), (14, 0)],
    [(8391289727706, 0), (0, 4165671562), (0, 5289), (0, 75)], [(36491891155, 0), (0, 10294615), (0, 1955), (0, 1)]],
    3, 4⟩, ⟨[[(0, 29923091226377216), (0, 2507640047488228), (0, 4287525584), (0, 19705908), (0, 4534)], [(0,
    22735330300686424), (361869131465, 0), (217789820, 0), (50599, 0), (10, 0)], [(15632842978363, 0), (1003577453,
    0), (365530, 0), (131, 0)], [(0, 16877703814), (0, 4755961), (0, 1685)]], 3, 4⟩, 72057594037927936,
    6967759976305, 3718891692051, ⟨[[(14006757029772, 0), (2786990835, 0), (0, 232435), (50116, 0), (48, 0)],
    [(7450181367, 0), (30787970, 0), (0, 61772), (0, 41)], [(0, 21777794), (0, 42721), (256, 0), (0, 1)], [(61436,
    0), (0, 129), (1, 0)]], 3, 4⟩, 17592186044416, 33801835,
    2761348715713202456093989106500810469248624309808851854039562819890044869925323186137591100852278540569051616509095700194424979,
    lc0⟩))) (.sx (.leaf ⟨471, 16, 805, 60, 16, 639, ⟨[[(0, 35311141270896640), (0, 3177425687394063), (108224129339,
    0), (0, 2019673), (33, 0)], [(11622321513713193, 0), (0, 11000448010528), (1209929075, 0), (164982, 0), (37, 0)],
    [(0, 10578996300374), (0, 2192716982), (3615741, 0), (829, 0)], [(246170405420, 0), (0, 87962185), (0, 21253),
    (0, 6)]], 3, 4⟩, ⟨[[(4472770412232704, 0), (0, 1581108607969514), (0, 39939125417), (0, 21960968), (0, 4622)],
    [(0, 32735593668198711), (118676785311, 0), (130069387, 0), (15596, 0), (3, 0)], [(57176439391242, 0),
    (8454093199, 0), (3169642, 0), (941, 0)], [(0, 119056619604), (0, 23788508), (0, 6955), (0, 2)]], 3, 4⟩,
    72057594037927936, 87532855524510, 22285683759160, ⟨[[(13781556281339, 0), (3088193028, 0), (12329222, 0),
    (226665, 0), (0, 22)], [(8610104100, 0), (44295158, 0), (0, 176480), (0, 158), (0, 5)], [(0, 23326991), (0,
    24034), (74, 0)], [(55151, 0), (0, 276), (8, 0)]], 3, 4⟩, 17592186044416, 45216327,
    3243191092616295560271394532076496801030279340712230026021886059617910225731355782117446657832988616127757722104947784790989720,
    lc0⟩) (.sx (.leaf ⟨505, 16, 855, 73, 16, 1000, ⟨[[(6219774417235968, 0), (0, 3748279846325093), (158453524152,
    0), (4022595, 0), (1448, 0)], [(6196057886540936, 0), (0, 6068453669940), (725189141, 0), (104288, 0), (24, 0)],
    [(3166407586470, 0), (0, 3108228622), (322645, 0), (35, 0)], [(31967998869, 0), (0, 14638665), (0, 3743), (0,
    1)]], 3, 4⟩, ⟨[[(0, 17874322828770304), (0, 2456663676729175), (0, 51576731132), (0, 32248230), (0, 6812)], [(0,
    23065394829895650), (446248710407, 0), (237654908, 0), (53071, 0), (10, 0)], [(18166185922150, 0), (2249712073,
    0), (888802, 0), (273, 0)], [(0, 21046593204), (0, 6303725), (0, 2247), (0, 1)]], 3, 4⟩, 72057594037927936,
    3982605583573, 3572313598155, ⟨[[(13777214095816, 0), (1979109686, 0), (1084057, 0), (55491, 0), (88, 0)],
    [(7330228939, 0), (29301701, 0), (0, 66756), (18, 0), (0, 1)], [(0, 19673957), (0, 18763), (97, 0), (0, 1)],
    [(48795, 0), (0, 232), (2, 0)]], 3, 4⟩, 17592186044416, 20625611,
    2137722656088337717120454387378696090426818619341376117343803840658076570694388402819600938960545507608575148628251468148790677,
    lc0⟩) (.leaf ⟨474, 16, 797, 62, 16, 1034, ⟨[[(21134186872856576, 0), (0, 3737732775047643), (176366234838, 0),
    (7813628, 0), (2313, 0)], [(6186906862827804, 0), (0, 5973708770629), (682626235, 0), (94455, 0), (23, 0)],
    [(6922947311445, 0), (0, 4657951009), (0, 142266), (0, 99)], [(33840619680, 0), (0, 14107661), (0, 3460), (0,
    1)]], 3, 4⟩, ⟨[[(0, 17126904063655936), (0, 2517199460746950), (0, 41566362712), (0, 30590208), (0, 6506)], [(0,
    22383446404727735), (621489626513, 0), (310099707, 0), (75108, 0), (15, 0)], [(16169117690710, 0), (1478404850,
    0), (608607, 0), (198, 0)], [(0, 19662164846), (0, 6830640), (0, 2555), (0, 1)]], 3, 4⟩, 72057594037927936,
    7846489367948, 3957663467988, ⟨[[(13775477985483, 0), (2017876916, 0), (0, 1135768), (44925, 0), (120, 0)],
    [(7298081989, 0), (32052329, 0), (0, 67198), (36, 0)], [(0, 21717716), (0, 27506), (174, 0), (0, 1)], [(62594,
    0), (0, 309), (2, 0)]], 3, 4⟩, 17592186044416, 32465664,
    4787772107852117782363665924866933214884966785439209412299593534228365637290136243639841150971493858091630143627421294496251672,
    lc0⟩)))) (.sy (.sx (.leaf ⟨515, 16, 924, 48, 16, 628, ⟨[[(6176257752293376, 0), (0, 3524148456924222),
    (120780462743, 0), (0, 2254783), (32, 0)], [(7378718940895320, 0), (0, 11065307723771), (1747180291, 0), (292430,
    0), (61, 0)], [(0, 12225280072586), (2489428452, 0), (5953555, 0), (1474, 0)], [(224763616744, 0), (0,
    131403273), (0, 36974), (0, 10)]], 3, 4⟩, ⟨[[(1676603569559552, 0), (0, 1612126346533144), (0, 79477098730), (0,
    32440790), (0, 6347)], [(0, 32079134976733775), (258463700725, 0), (156849977, 0), (23929, 0), (5, 0)],
    [(61276932809660, 0), (12231213135, 0), (4802458, 0), (1338, 0)], [(0, 130724308619), (0, 31833292), (0, 10202),
    (0, 3)]], 3, 4⟩, 72057594037927936, 145062685053794, 14845834779289, ⟨[[(13555447941361, 0), (1845303938, 0),
    (9024204, 0), (224538, 0), (657, 0)], [(8027721292, 0), (43070784, 0), (0, 149096), (230, 0), (0, 9)], [(0,
    20619041), (8837, 0), (0, 551), (0, 3)], [(40445, 0), (0, 442), (13, 0)]], 3, 4⟩, 17592186044416, 38159841,
    3628032354413027911285040744802124323500555812166189330276901314612413990212721976037362559904315913072093551277455058697767002,
    lc0⟩) (.sx (.leaf ⟨529, 16, 944, 54, 16, 982, ⟨[[(32609796864344064, 0), (0, 3958566457258959), (184342868824,
    0), (8247233, 0), (2231, 0)], [(3695723631835618, 0), (0, 5794393182544), (1019704408, 0), (179413, 0), (38, 0)],
    [(1869248968000, 0), (0, 3034181045), (447303, 0), (85, 0)], [(25971921290, 0), (0, 21352551), (0, 6340), (0,
    2)]], 3, 4⟩, ⟨[[(28586010389887488, 0), (0, 2490929118067855), (0, 109697777524), (0, 47627711), (0, 9310)], [(0,
    22364129614086238), (717601927960, 0), (329371852, 0), (76885, 0), (15, 0)], [(19205579440222, 0), (3316485331,
    0), (1363438, 0), (390, 0)], [(0, 24414036048), (0, 8915577), (0, 3286), (0, 1)]], 3, 4⟩, 72057594037927936,
    3998396169676, 3500073566713, ⟨[[(13552269108749, 0), (1182432037, 0), (154885, 0), (46556, 0), (181, 0)],
    [(7149920490, 0), (29662002, 0), (0, 67220), (139, 0), (0, 1)], [(0, 19561982), (8926, 0), (0, 86), (0, 2)],
    [(45802, 0), (0, 444), (4, 0)]], 3, 4⟩, 17592186044416, 12382926,
    1999268782792150951117851254513729439754633720193879925589103869748110766379442835785339077825073521881732016913337979139155101,
    lc0⟩) (.leaf ⟨498, 16, 884, 43, 16, 1020, ⟨[[(0, 8165439887278080), (0, 3941372848563864), (213025779824, 0),
    (14796620, 0), (3600, 0)], [(3741907086949856, 0), (0, 5772346579414), (958264890, 0), (165867, 0), (36, 0)],
    [(5030810516630, 0), (0, 5413050167), (0, 338936), (0, 131)], [(28550877439, 0), (0, 20497574), (0, 5953), (0,
    2)]], 3, 4⟩, ⟨[[(30597609951110144, 0), (0, 2550639894408988), (0, 97337332738), (0, 45470085), (0, 8910)], [(0,
    21685168661880204), (984239008557, 0), (442210697, 0), (108985, 0), (21, 0)], [(16860934857482, 0), (2230072245,
    0), (959686, 0), (286, 0)], [(0, 23508723692), (0, 9854669), (0, 3761), (0, 1)]], 3, 4⟩, 72057594037927936,
    9324991841921, 4166619264709, ⟨[[(13556099576125, 0), (1239327260, 0), (0, 1507888), (33095, 0), (180, 0)],
    [(7107881642, 0), (32354624, 0), (0, 72121), (138, 0)], [(0, 21950206), (6273, 0), (21, 0), (0, 2)], [(62848, 0),
    (0, 600), (4, 0)]], 3, 4⟩, 17592186044416, 23923362,
    4884806319583297892895705058072851851248492366466915180486177199795802072604222369712266269360691071310591664671395211221042091,
    lc0⟩))) (.sx (.leaf ⟨566, 16, 1065, 35, 16, 611, ⟨[[(0, 9311002540466176), (0, 3924098581645356), (135370011990,
    0), (0, 2485059), (89, 0)], [(2657130585888886, 0), (0, 10438712679374), (2639685315, 0), (503325, 0), (97, 0)],
    [(0, 10681994740829), (11239741177, 0), (10024816, 0), (2548, 0)], [(170713711033, 0), (0, 203960177), (0,
    63154), (0, 16)]], 3, 4⟩, ⟨[[(33473467114853888, 0), (0, 1673369947089538), (0, 135254693796), (0, 46114401), (0,
    8405)], [(0, 31042740588518680), (425319908728, 0), (197131994, 0), (36934, 0), (9, 0)], [(66949994980998, 0),
    (17703521643, 0), (7026247, 0), (1853, 0)], [(0, 145590934247), (0, 43130699), (0, 14561), (0, 4)]], 3, 4⟩,
    72057594037927936, 242695633874954, 34951461913975, ⟨[[(13342428947371, 0), (639903655, 0), (5427928, 0),
    (178489, 0), (1354, 0)], [(7426189255, 0), (39598211, 0), (0, 109367), (929, 0), (0, 9)], [(0, 17879470), (64603,
    0), (0, 1341), (0, 8)], [(17931, 0), (0, 660), (18, 0)]], 3, 4⟩, 17592186044416, 53427680,
    3961847058193093334063982288395499397414607039250023134407380532465361877034001096054605861070756366634098127976711236374971021,
    lc0⟩) (.sx (.leaf ⟨557, 16, 1046, 35, 16, 950, ⟨[[(0, 11866602699153408), (0, 4172940363488160), (222226602659,
    0), (15058135, 0), (3485, 0)], [(1184701468932494, 0), (0, 5112683656219), (1500319698, 0), (298676, 0), (58,
    0)], [(522375982280, 0), (0, 2776358931), (689405, 0), (167, 0)], [(14862768726, 0), (0, 32363974), (0, 10519),
    (0, 3)]], 3, 4⟩, ⟨[[(27070389297369600, 0), (0, 2556074162340036), (0, 190650081138), (0, 67244084), (0, 12195)],
    [(0, 21196178812956078), (1078286032486, 0), (455083468, 0), (108896, 0), (20, 0)], [(20575097695910, 0),
    (4855316080, 0), (2001993, 0), (538, 0)], [(0, 28863450913), (0, 12519243), (0, 4664), (0, 1)]], 3, 4⟩,
    72057594037927936, 3909444792257, 3288401506218, ⟨[[(13342671356688, 0), (401982320, 0), (0, 51938), (29217, 0),
    (240, 0)], [(6995312566, 0), (28169604, 0), (0, 63670), (292, 0)], [(0, 19466449), (59929, 0), (0, 388), (0, 3)],
    [(31749, 0), (0, 737), (7, 0)]], 3, 4⟩, 17592186044416, 35727583,
    1461690658025740533377074277861049189732137758590432422843834865652026335817041405074069301045905540585866077901415540687097465,
    lc0⟩) (.leaf ⟨526, 16, 987, 25, 16, 993, ⟨[[(7602308104994816, 0), (0, 4147098705970656), (269553348177, 0),
    (26128431, 0), (5641, 0)], [(1238336261630380, 0), (0, 5208542268432), (1417002076, 0), (281061, 0), (56, 0)],
    [(2468178460960, 0), (0, 6541954075), (0, 621802), (0, 178)], [(18453634658, 0), (0, 31162659), (0, 10042), (0,
    3)]], 3, 4⟩, ⟨[[(0, 31788458715663104), (0, 2616476038918151), (0, 175983402284), (0, 64608639), (0, 11693)],
    [(0, 20506859550994898), (1481736634889, 0), (624504928, 0), (154316, 0), (28, 0)], [(17778666283832, 0),
    (3347931444, 0), (1440211, 0), (399, 0)], [(0, 28757200714), (0, 14082633), (0, 5380), (0, 1)]], 3, 4⟩,
    72057594037927936, 11509260331537, 4461444590099, ⟨[[(13341125208930, 0), (407323268, 0), (0, 806359), (16564,
    0), (191, 0)], [(7055010769, 0), (30157524, 0), (0, 70939), (233, 0), (1, 0)], [(0, 22597264), (71235, 0), (0,
    293), (0, 3)], [(48968, 0), (0, 1003), (7, 0)]], 3, 4⟩, 17592186044416, 42210679,
    4164089952720118308860765334716917232005875520679700112276329864468802406986276457551813240241514560272730901873564522323804013,
    lc0⟩))))
theorem c100 : checkR job con0 false ⟨7, 9, 7, 9, 13, 17⟩ 1 34400 t100 153 21 160 7749 251 8000 = true := by decide +kernel

def t101 : CTree :=
  .sx (.sy (.sx (.leaf ⟨378, 16, 475, 136, 16, 1029, ⟨[[(0, 9366304196554752), (0, 2948010752546810), (114231697069,
    0), (0, 2235331), (308, 0)], [(15826016146884047, 0), (0, 5402184572745), (296545376, 0), (0, 4490), (1, 0)],
    [(15950920485759, 0), (0, 3774440765), (169061, 0), (0, 17)], [(39301744364, 0), (0, 4895752), (0, 136)]], 3, 4⟩,
    ⟨[[(26821066412740608, 0), (0, 2608380293069823), (51417901020, 0), (0, 3023823), (0, 274)], [(0,
    21503887607849170), (0, 110888759593), (75301999, 0), (7448, 0), (3, 0)], [(12966744263675, 0), (233774575, 0),
    (7404, 0), (0, 3)], [(0, 9185951640), (0, 1589949), (0, 169)]], 3, 4⟩, 72057594037927936, 6454398809565,
    2634463334679, ⟨[[(15000883077070, 0), (5794076757, 0), (2250317, 0), (31306, 0), (0, 89)], [(7841734017, 0),
    (27216302, 0), (0, 42618), (0, 121)], [(0, 24320082), (0, 55300), (293, 0)], [(74521, 0), (37, 0), (0, 1)]], 3,
    4⟩, 17592186044416, 58789332,
    2646469131235375027754750355914194054074226050664917255965785443482154273441979122283720825708780427085457012693343178517634904,
    lc0⟩) (.leaf ⟨357, 16, 437, 127, 16, 1049, ⟨[[(0, 34252259929481216), (0, 2927370967091908), (116816364328, 0),
    (0, 2257986), (301, 0)], [(15993056216529378, 0), (0, 5285660832699), (285184391, 0), (0, 5451)],
    [(19561224544867, 0), (0, 4043545241), (138231, 0), (0, 15)], [(41590558369, 0), (0, 4528729), (0, 153)]], 3, 4⟩,
    ⟨[[(0, 31722369935693824), (0, 2663522323595223), (55642685096, 0), (0, 2776075), (0, 158)], [(0,
    20857474044676382), (0, 101326410877), (76556628, 0), (6843, 0), (3, 0)], [(12165381507124, 0), (44015840, 0),
    (0, 11594), (0, 15)], [(0, 7364441668), (0, 1461797), (0, 128)]], 3, 4⟩, 72057594037927936, 7314712620807,
    2585787987212, ⟨[[(15008221579379, 0), (5916905794, 0), (723055, 0), (32126, 0), (0, 77)], [(7686880437, 0),
    (28699768, 0), (0, 34324), (0, 133)], [(0, 25465911), (0, 69394), (290, 0)], [(83976, 0), (92, 0), (0, 1)]], 3,
    4⟩, 17592186044416, 80438199,
    3318911708243777444479503996082179931531690294502904533239225638200571653834305413504342029193955779478733738955419744637051817,
    lc0⟩)) (.sy (.leaf ⟨392, 16, 507, 106, 16, 935, ⟨[[(0, 34064590937931776), (0, 1586816407278432), (31540761750,
    0), (0, 234936), (30, 0)], [(30944818355015601, 0), (0, 5700584392131), (159132318, 0), (0, 1052)],
    [(72569685089276, 0), (0, 8481503182), (141714, 0), (0, 17)], [(343463776977, 0), (0, 21554278), (0, 342)]], 3,
    4⟩, ⟨[[(0, 760173558259712), (0, 1168520335992808), (11240424567, 0), (0, 392121), (0, 33)], [(0,
    38160903196817804), (0, 38754235077), (39163865, 0), (2767, 0)], [(45321973050012, 0), (237591400, 0), (0, 9655),
    (0, 2)], [(0, 63931800501), (0, 6065344), (0, 492)]], 3, 4⟩, 72057594037927936, 123807726434892, 35141383873789,
    ⟨[[(14808228848332, 0), (5974154999, 0), (785842, 0), (52492, 0), (0, 111)], [(7330139547, 0), (31119057, 0), (0,
    47386), (0, 174)], [(0, 22533632), (0, 66812), (354, 0)], [(69077, 0), (68, 0), (0, 1)]], 3, 4⟩, 17592186044416,
    50952184,
    1773848220916571747264583939791141668100391130202048220143291337855830768048375803365855452664092197842954560933027736395188923,
    lc0⟩) (.leaf ⟨406, 16, 541, 98, 16, 937, ⟨[[(7542742671020032, 0), (0, 1659612076256927), (33330187379, 0), (0,
    179447), (39, 0)], [(30009073198920143, 0), (0, 5913136107722), (168427914, 0), (0, 674)], [(72928714259013, 0),
    (0, 8913424287), (119933, 0), (0, 24)], [(354853928167, 0), (0, 23398737), (0, 438)]], 3, 4⟩,
    ⟨[[(6971869201191936, 0), (0, 1160026100357017), (10614642822, 0), (0, 475846), (0, 50)], [(0,
    38251757065510601), (2894277233, 0), (44123898, 0), (3734, 0), (1, 0)], [(45535767506919, 0), (227059795, 0), (0,
    11904), (0, 1)], [(0, 67259298146), (0, 6665963), (0, 685)]], 3, 4⟩, 72057594037927936, 132301599376083,
    36178718903417, ⟨[[(14674754496797, 0), (5583481958, 0), (0, 3813), (57397, 0), (0, 82)], [(7127917866, 0),
    (31391852, 0), (0, 48280), (0, 169)], [(0, 21516786), (0, 66228), (356, 0)], [(64838, 0), (64, 0), (0, 1)]], 3,
    4⟩, 17592186044416, 43539559,
    2718874063321505293531145109861506140555059052324545564031719374462525727340766409988461013802814995252181644907146347309788867,
    lc0⟩))) (.sy (.sx (.leaf ⟨335, 16, 400, 117, 16, 1068, ⟨[[(25208677799559168, 0), (0, 2889551403501431),
    (118101343117, 0), (0, 2297776), (262, 0)], [(16354511813151256, 0), (0, 5170764503491), (270844767, 0), (0,
    5927), (0, 1)], [(23066399688345, 0), (0, 4215080208), (105823, 0), (0, 8)], [(44008665132, 0), (0, 3977050), (0,
    195)]], 3, 4⟩, ⟨[[(0, 16518602793267200), (0, 2716126262625387), (59894728583, 0), (0, 2565803), (0, 35)], [(0,
    20231002260345545), (0, 106979828882), (76366005, 0), (5306, 0), (3, 0)], [(11566862770750, 0), (0, 132226980),
    (0, 24436), (0, 24)], [(0, 5506458191), (0, 1322072), (0, 68)]], 3, 4⟩, 72057594037927936, 7850736917827,
    2562207659927, ⟨[[(15000783029886, 0), (6062990724, 0), (0, 720143), (32431, 0), (0, 55)], [(7552123043, 0),
    (30183668, 0), (0, 25903), (0, 143)], [(0, 26837963), (0, 85435), (284, 0)], [(95605, 0), (165, 0), (0, 2)]], 3,
    4⟩, 17592186044416, 114517635,
    3576593591049492013533648000620314834010575069351056710629487654528298740801146584678514357148883771708660474668756252756840788,
    lc0⟩) (.sy (.leaf ⟨472, 16, 538, 163, 16, 1581, ⟨[[(1677725780529152, 0), (0, 2116432413366760), (43923567700,
    0), (0, 445324), (14, 0)], [(25873675223797836, 0), (0, 3776410411796), (94382852, 0), (0, 883)],
    [(39839972842967, 0), (0, 3169176311), (24494, 0), (2, 0)], [(68909734183, 0), (0, 2354822), (0, 115)]], 3, 4⟩,
    ⟨[[(0, 10715804955205632), (0, 2025758561700277), (23672647446, 0), (0, 453575), (14, 0)], [(0,
    28523484341442590), (0, 106045038467), (27094728, 0), (307, 0)], [(16331854867827, 0), (0, 209398107), (0, 6380),
    (0, 5)], [(0, 5037078255), (0, 862557), (6, 0)]], 3, 4⟩, 72057594037927936, 11395999081216, 3397283160812,
    ⟨[[(15069636724802, 0), (4419166480, 0), (0, 778194), (9713, 0), (0, 8)], [(4887569603, 0), (13970534, 0), (0,
    5149), (0, 31)], [(0, 12274321), (0, 30058), (53, 0)], [(30910, 0), (50, 0)]], 3, 4⟩, 17592186044416, 15652329,
    2024598907040164592216531793655767016690448068645405240644135611047986661178225989618026763804695317749410889202211867889868988,
    lc0⟩) (.leaf ⟨480, 16, 564, 149, 16, 1588, ⟨[[(0, 33287142307500032), (0, 2172827624182474), (45369344438, 0),
    (0, 429279), (23, 0)], [(25161508744238126, 0), (0, 3860350743011), (97321612, 0), (0, 1222)], [(40104141511180,
    0), (0, 3295742643), (26770, 0)], [(70973045132, 0), (0, 2573451), (0, 89)]], 3, 4⟩, ⟨[[(34548480178327552, 0),
    (0, 2011193932188773), (23106661693, 0), (0, 439848), (1, 0)], [(0, 28696332326180285), (0, 78836494332),
    (28049360, 0), (820, 0)], [(16296256742194, 0), (0, 221046874), (0, 15117), (0, 6)], [(0, 5493656751), (0,
    865740), (0, 5)]], 3, 4⟩, 72057594037927936, 12156937152844, 3491903638798, ⟨[[(14936077013960, 0), (4223946922,
    0), (0, 1140242), (10401, 0), (0, 4)], [(4802722208, 0), (14272175, 0), (0, 5055), (0, 31)], [(0, 12011350), (0,
    30856), (56, 0)], [(30416, 0), (52, 0)]], 3, 4⟩, 17592186044416, 14743989,
    3452271307950393102159421816768836192018253057787485407827159283854461097252605176934082465348258998047275752905133702356210998,
    lc0⟩))) (.sx (.sy (.leaf ⟨526, 16, 656, 150, 16, 1555, ⟨[[(0, 29428624897744896), (0, 2297258807387617),
    (47464625594, 0), (0, 368765), (42, 0)], [(23691083313134427, 0), (0, 4074966885161), (108098953, 0), (0, 1368)],
    [(35249822707671, 0), (0, 3395609365), (36007, 0), (0, 5)], [(69678942471, 0), (0, 3359437), (0, 52)]], 3, 4⟩,
    ⟨[[(0, 34367582008858624), (0, 1945307166917094), (20706600373, 0), (0, 516541), (0, 31)], [(0,
    29498565994897634), (0, 33875970493), (31001696, 0), (1921, 0)], [(16761797578557, 0), (0, 117449764), (0,
    19412), (0, 5)], [(0, 8761754343), (0, 1022888), (0, 58)]], 3, 4⟩, 72057594037927936, 12670714460292,
    3582130138081, ⟨[[(14808642275928, 0), (3875888260, 0), (0, 844513), (11947, 0), (0, 6)], [(4827333940, 0),
    (14077231, 0), (0, 8261), (0, 30)], [(0, 11163782), (0, 26149), (62, 0)], [(26135, 0), (33, 0)]], 3, 4⟩,
    17592186044416, 10127055,
    2857770047165038628906473487634127486534139633671785208132530295008437470867690795529055679154378056043620213600163297729680080,
    lc0⟩) (.leaf ⟨537, 16, 691, 137, 16, 1562, ⟨[[(0, 3605594531045376), (0, 2369898902225900), (49484447395, 0), (0,
    288073), (56, 0)], [(22828825333518802, 0), (0, 4179156019806), (111680323, 0), (0, 1447)], [(35343793371477, 0),
    (0, 3543360585), (27961, 0), (0, 8)], [(71607511911, 0), (0, 3586801), (0, 42)]], 3, 4⟩, ⟨[[(0,
    24883814072109056), (0, 1933592173667343), (19959439583, 0), (0, 605187), (0, 55)], [(0, 29640322879851264), (0,
    1106273286), (34647536, 0), (2754, 0)], [(16772484458087, 0), (0, 141333074), (0, 27096), (0, 5)], [(0,
    9333896748), (0, 1099754), (0, 87)]], 3, 4⟩, 72057594037927936, 13478779382976, 3728861415915,
    ⟨[[(14677669388563, 0), (3650251682, 0), (0, 1195541), (12455, 0), (0, 1)], [(4751775149, 0), (14382538, 0), (0,
    8650), (0, 29)], [(0, 10945411), (0, 26697), (65, 0)], [(25645, 0), (34, 0)]], 3, 4⟩, 17592186044416, 9540950,
    3471104679686145444796356009915429571531631784647616895478745531681925982362588561688562771822096752002208882172523750632459052,
    lc0⟩)) (.sy (.leaf ⟨488, 16, 592, 136, 16, 1595, ⟨[[(0, 27248434084683776), (0, 2233213429666818), (46984799158,
    0), (0, 391769), (35, 0)], [(24402129825182223, 0), (0, 3950477525781), (100014845, 0), (0, 1549)],
    [(40365492647452, 0), (0, 3431993762), (25822, 0), (0, 3)], [(73119737491, 0), (0, 2778804), (0, 62)]], 3, 4⟩,
    ⟨[[(10499768637124608, 0), (0, 1997093734110767), (22536001456, 0), (0, 457098), (0, 17)], [(0,
    28855354937390275), (0, 50122346998), (29879991, 0), (1466, 0)], [(16252010224907, 0), (0, 242094247), (0,
    24985), (0, 7)], [(0, 5956991414), (0, 882533), (0, 21)]], 3, 4⟩, 72057594037927936, 12960528853188,
    3611355627669, ⟨[[(14806176715516, 0), (4018424267, 0), (0, 1483863), (10828, 0), (1, 0)], [(4743033032, 0),
    (14615687, 0), (0, 5288), (0, 30)], [(0, 11833530), (0, 31702), (60, 0)], [(30152, 0), (53, 0)]], 3, 4⟩,
    17592186044416, 14092781,
    4314008798541810202672973216981047205949487547810623192666752058759331895999502203339593340925717780085951860179862349545424630,
    lc0⟩) (.leaf ⟨496, 16, 622, 123, 16, 1603, ⟨[[(11381294420209664, 0), (0, 2297111006889186), (48807127523, 0),
    (0, 326000), (49, 0)], [(23581355486975750, 0), (0, 4046457336693), (102456888, 0), (0, 1851)], [(40607265104892,
    0), (0, 3581503978), (20806, 0), (0, 6)], [(75345680728, 0), (0, 2969541), (0, 35)]], 3, 4⟩, ⟨[[(0,
    5467328496741376), (0, 1984729114104067), (21921910825, 0), (0, 513302), (0, 38)], [(0, 29017593827597208), (0,
    18918738346), (32829771, 0), (2272, 0)], [(16204156880593, 0), (0, 273944169), (0, 36119), (0, 8)], [(0,
    6439084268), (0, 918124), (0, 42)]], 3, 4⟩, 72057594037927936, 13815339647499, 3761194698270, ⟨[[(14675816565399,
    0), (3802312348, 0), (0, 1824475), (10972, 0), (6, 0)], [(4691805198, 0), (15011044, 0), (0, 5794), (0, 28)],
    [(0, 11704112), (0, 32707), (65, 0)], [(30041, 0), (55, 0)]], 3, 4⟩, 17592186044416, 13559975,
    4205476857417233311922971288720274281549974679580832727218179427052758945754861614951577910147352953359482412677697864759472198,
    lc0⟩))))
theorem c101 : checkR job con0 false ⟨7, 9, 7, 9, 13, 17⟩ 1 34400 t101 195 21 160 14243 251 16000 = true := by decide +kernel

def t102 : CTree :=
  .sy (.sx (.sy (.leaf ⟨422, 16, 578, 90, 16, 939, ⟨[[(0, 25184575726030848), (0, 1737486534006899), (35388779004,
    0), (0, 98604), (51, 0)], [(28935317267972187, 0), (0, 6137264907048), (179352804, 0), (0, 30)],
    [(73164753754647, 0), (0, 9415253621), (84840, 0), (0, 32)], [(366445423690, 0), (0, 25532051), (0, 604)]], 3,
    4⟩, ⟨[[(17561176192518144, 0), (0, 1152210781560605), (9832987981, 0), (0, 598225), (0, 71)], [(0,
    38320297005255320), (50404431456, 0), (50703799, 0), (4908, 0), (1, 0)], [(45744166233087, 0), (215593841, 0),
    (0, 11351), (1, 0)], [(0, 70948216083), (0, 7484488), (0, 924)]], 3, 4⟩, 72057594037927936, 141804882307851,
    37365551182808, ⟨[[(14550715265310, 0), (5221184333, 0), (0, 907998), (60970, 0), (0, 43)], [(6882800443, 0),
    (31536796, 0), (0, 48877), (0, 159)], [(0, 20339675), (0, 65278), (352, 0)], [(60008, 0), (57, 0), (0, 1)]], 3,
    4⟩, 17592186044416, 36798262,
    3009875097633545699103744661424677816811081077539152918445376347278609574367805744780172144409678252108757450077278292243335325,
    lc0⟩) (.leaf ⟨440, 16, 621, 83, 16, 942, ⟨[[(10580002882904064, 0), (0, 1828623245844136), (37950542596, 0),
    (15571, 0), (66, 0)], [(27826420379880960, 0), (0, 6400165780664), (193369130, 0), (975, 0), (1, 0)],
    [(73548069416792, 0), (0, 10052342023), (33021, 0), (0, 43)], [(379756389973, 0), (0, 28184390), (0, 864)]], 3,
    4⟩, ⟨[[(0, 35112767296366592), (0, 1146480864217339), (8840884449, 0), (0, 767305), (0, 96)], [(0,
    38403858822750787), (105695992942, 0), (59309876, 0), (6334, 0), (1, 0)], [(45996282278795, 0), (206590314, 0),
    (0, 7265), (4, 0)], [(0, 75201055405), (0, 8581015), (0, 1219)]], 3, 4⟩, 72057594037927936, 153254365030901,
    38809812780658, ⟨[[(14426590883576, 0), (4815905504, 0), (0, 1612237), (63006, 0), (0, 3)], [(6678343037, 0),
    (31553602, 0), (0, 50732), (0, 141)], [(0, 19266847), (0, 62884), (346, 0)], [(55388, 0), (41, 0), (0, 1)]], 3,
    4⟩, 17592186044416, 31419580,
    2687165797110619400442932629338324182439836123694298546079405636898998102102677798196833726583049154072412970606814809317516224,
    lc0⟩)) (.sy (.sx (.leaf ⟨548, 16, 728, 124, 16, 1569, ⟨[[(35222126620483584, 0), (0, 2444651345545726),
    (51774519603, 0), (0, 168852), (75, 0)], [(21870396600845452, 0), (0, 4285935840751), (115422466, 0), (0, 1429)],
    [(35368547383660, 0), (0, 3710654133), (14447, 0), (0, 12)], [(73534558809, 0), (0, 3818222), (0, 36)]], 3, 4⟩,
    ⟨[[(0, 14047992702503936), (0, 1922619508534876), (19035501087, 0), (0, 747488), (0, 84)], [(0,
    29764561433241734), (36163875971, 0), (39703228, 0), (3774, 0), (1, 0)], [(16768854747538, 0), (0, 173305754),
    (0, 35285), (0, 6)], [(0, 9955317209), (0, 1210644), (0, 125)]], 3, 4⟩, 72057594037927936, 14359920558671,
    3899396008083, ⟨[[(14548053926386, 0), (3419860813, 0), (0, 1540892), (12640, 0), (5, 0)], [(4683462424, 0),
    (14735643, 0), (0, 9300), (0, 27)], [(0, 10766734), (0, 27316), (69, 0)], [(25263, 0), (33, 0)]], 3, 4⟩,
    17592186044416, 9082667,
    3293069514304239387073760410635248692104172379063418655831995511231072018659690902087996241469794991532805903930100421508848619,
    lc0⟩) (.leaf ⟨506, 16, 655, 110, 16, 1611, ⟨[[(0, 13804618779951104), (0, 2367612700174774), (50965587470, 0),
    (0, 223777), (68, 0)], [(22720300513525385, 0), (0, 4154336862744), (104821765, 0), (0, 2117)], [(40873046279344,
    0), (0, 3754753292), (10690, 0), (0, 9)], [(77766577941, 0), (0, 3149097), (0, 8)]], 3, 4⟩, ⟨[[(0,
    20335759923487744), (0, 1972926964262031), (21184906494, 0), (0, 616638), (0, 63)], [(0, 29163322237268382),
    (16074141858, 0), (37147961, 0), (3266, 0), (1, 0)], [(16136662669347, 0), (0, 317845127), (0, 48657), (0, 9)],
    [(0, 6947072037), (0, 977529), (0, 68)]], 3, 4⟩, 72057594037927936, 14757800500986, 3939205604820,
    ⟨[[(14551609115805, 0), (3596498795, 0), (0, 2152074), (10799, 0), (11, 0)], [(4613537653, 0), (15369544, 0), (0,
    6461), (0, 26)], [(0, 11477236), (0, 33563), (70, 0)], [(29567, 0), (55, 0)]], 3, 4⟩, 17592186044416, 12820936,
    3892648459654959553015510023314342692630631177611138715442741681013721786397849600012837959561659332568437627969457430442436847,
    lc0⟩)) (.leaf ⟨366, 16, 495, 66, 16, 1013, ⟨[[(0, 32852983920762880), (0, 1687636934286684), (36731700099, 0),
    (0, 22070), (65, 0)], [(28901158376786170, 0), (0, 5890712239490), (153871622, 0), (0, 2511)], [(103937885199786,
    0), (0, 10725385423), (0, 18379), (0, 40)], [(423840521006, 0), (0, 20065169), (0, 24)]], 3, 4⟩, ⟨[[(0,
    14625519926178816), (0, 1228359776361881), (12084412836, 0), (0, 547176), (0, 67)], [(0, 37509969725079150),
    (88453918382, 0), (57109409, 0), (6080, 0), (1, 0)], [(41468712690523, 0), (0, 757912873), (0, 138052), (0, 20)],
    [(0, 46094648139), (0, 6183005), (0, 700)]], 3, 4⟩, 72057594037927936, 173414758125308, 41594154561561,
    ⟨[[(14429376579883, 0), (5196290211, 0), (0, 5426827), (44693, 0), (83, 0)], [(6710440547, 0), (35776667, 0), (0,
    31946), (0, 132)], [(0, 23546339), (0, 105819), (400, 0)], [(85380, 0), (206, 0), (0, 2)]], 3, 4⟩,
    17592186044416, 75074472,
    4031318177528422174531799172126934676527254763385702534047908976431581283102422680732870903713336853704587906787567428141228924,
    lc0⟩))) (.sx (.sy (.leaf ⟨460, 16, 668, 75, 16, 945, ⟨[[(0, 7322459510378496), (0, 1925984759685945),
    (40963224535, 0), (174640, 0), (86, 0)], [(26528989467275880, 0), (0, 6674594548149), (210606204, 0), (2467, 0),
    (1, 0)], [(73689152685388, 0), (0, 10814589422), (0, 40818), (0, 56)], [(393019559310, 0), (0, 31403109), (0,
    1249)]], 3, 4⟩, ⟨[[(0, 14951863525662720), (0, 1141861586887600), (7550618030, 0), (0, 990693), (0, 125)], [(0,
    38457087025891383), (170982909909, 0), (70311551, 0), (8057, 0), (1, 0)], [(46245583351572, 0), (203798436, 0),
    (1218, 0), (7, 0)], [(0, 80098814797), (0, 10010323), (0, 1581)]], 3, 4⟩, 72057594037927936, 166430700116602,
    40678634478899, ⟨[[(14304478010652, 0), (4430424697, 0), (0, 2507749), (63380, 0), (45, 0)], [(6418742602, 0),
    (31582379, 0), (0, 52182), (0, 118)], [(0, 18073099), (0, 60528), (336, 0)], [(50735, 0), (21, 0), (0, 1)]], 3,
    4⟩, 17592186044416, 28134375,
    2540328490749457494825735631225736309122752462022565221006185606804856512963415221130867521612404915464196577969340116712608139,
    lc0⟩) (.leaf ⟨483, 16, 722, 67, 16, 947, ⟨[[(0, 19547142752931840), (0, 2037034333906704), (44708758858, 0),
    (394041, 0), (112, 0)], [(25109800232871659, 0), (0, 6983135908657), (233061561, 0), (4621, 0), (1, 0)],
    [(73759192946122, 0), (0, 11781417496), (0, 143269), (0, 72)], [(407375835998, 0), (0, 35516169), (0, 1806)]], 3,
    4⟩, ⟨[[(260175878516736, 0), (0, 1137499127840652), (5866547916, 0), (0, 1275937), (0, 158)], [(0,
    38433623540873362), (248684423868, 0), (84116734, 0), (10124, 0), (1, 0)], [(46447328924398, 0), (211910949, 0),
    (15047, 0), (11, 0)], [(0, 85738277250), (0, 11833899), (0, 2020)]], 3, 4⟩, 72057594037927936, 182508250094401,
    42872501255450, ⟨[[(14184240159195, 0), (4038394712, 0), (0, 3307934), (62121, 0), (94, 0)], [(6149396127, 0),
    (31533583, 0), (0, 54253), (0, 89)], [(0, 16861246), (0, 56935), (321, 0), (0, 1)], [(46248, 0), (0, 7), (0,
    1)]], 3, 4⟩, 17592186044416, 25781982,
    2474909149412367172526926841049119766965789211386710245479894787231259732069254318293320043818320026285537666437527770421546938,
    lc0⟩)) (.sy (.leaf ⟨379, 16, 530, 58, 16, 1017, ⟨[[(0, 4345122638684160), (0, 1767459304064526), (39406381990,
    0), (132113, 0), (86, 0)], [(27819631002202533, 0), (0, 6143795050722), (160875786, 0), (0, 2428)],
    [(105511377075680, 0), (0, 11539243877), (0, 93975), (0, 56)], [(443023214041, 0), (0, 21477982), (32, 0)]], 3,
    4⟩, ⟨[[(0, 35531653798067712), (0, 1221481735935207), (11191578263, 0), (0, 707562), (0, 91)], [(0,
    37598227944883115), (151433797501, 0), (67898600, 0), (7983, 0), (1, 0)], [(41212943153947, 0), (0, 915803591),
    (0, 170469), (0, 22)], [(0, 49590039010), (0, 7035390), (0, 955)]], 3, 4⟩, 72057594037927936, 188874024462403,
    44242618839016, ⟨[[(14305650860549, 0), (4822410555, 0), (0, 6035865), (42416, 0), (114, 0)], [(6535250932, 0),
    (36358023, 0), (0, 36580), (0, 107)], [(0, 22635666), (0, 104882), (418, 0)], [(81486, 0), (174, 0), (0, 2)]], 3,
    4⟩, 17592186044416, 67626637,
    2903816831187281198484567185701808429250966415135207978262078991479190744867317315780321288307073964557906215470750668400947119,
    lc0⟩) (.leaf ⟨394, 16, 570, 49, 16, 1021, ⟨[[(32058354624819200, 0), (0, 1858145676780090), (42744625147, 0),
    (348579, 0), (114, 0)], [(26645556062019002, 0), (0, 6435633208412), (169425360, 0), (0, 2121)],
    [(107211117549694, 0), (0, 12560511530), (0, 202275), (0, 75)], [(464874588720, 0), (0, 23049907), (57, 0)]], 3,
    4⟩, ⟨[[(16424731136623104, 0), (0, 1215591853285455), (10014953605, 0), (0, 919672), (0, 118)], [(0,
    37651528417398833), (227072389517, 0), (81891393, 0), (10283, 0), (1, 0)], [(40867480644282, 0), (0, 1108641497),
    (0, 206414), (0, 25)], [(0, 53597042011), (0, 8175822), (0, 1268)]], 3, 4⟩, 72057594037927936, 207342172068493,
    47538066900901, ⟨[[(14178750520215, 0), (4439783792, 0), (0, 6590811), (38369, 0), (145, 0)], [(6309978434, 0),
    (36999303, 0), (0, 42068), (0, 76)], [(0, 21587617), (0, 103112), (433, 0)], [(77666, 0), (125, 0), (0, 2)]], 3,
    4⟩, 17592186044416, 62294586,
    3177727807403603860016652283490683500394641296772205621892937161214611318584432380106400501708780772809453154839389783888441958,
    lc0⟩)))
theorem c102 : checkR job con0 false ⟨7, 9, 7, 9, 13, 17⟩ 1 34400 t102 195 21 160 14745 251 16000 = true := by decide +kernel

def t103 : CTree :=
  .sx (.sy (.leaf ⟨509, 16, 784, 59, 16, 951, ⟨[[(0, 4137001537040384), (0, 2162829694946669), (49387608077, 0),
    (695132, 0), (145, 0)], [(23523969283472494, 0), (0, 7324281712542), (262559233, 0), (7673, 0), (1, 0)],
    [(73621434565982, 0), (0, 13011759597), (0, 283569), (0, 92)], [(422453516912, 0), (0, 40842101), (0, 2598)]], 3,
    4⟩, ⟨[[(24989773295946752, 0), (0, 1137442389535376), (3703522189, 0), (0, 1636772), (0, 196)], [(0,
    38447947886217612), (342824159007, 0), (101583386, 0), (12632, 0), (1, 0)], [(46755708954669, 0), (237561852, 0),
    (35357, 0), (16, 0)], [(0, 92619644716), (0, 14177563), (0, 2557)]], 3, 4⟩, 72057594037927936, 202338999187162,
    45605011107214, ⟨[[(14063321174617, 0), (3615559065, 0), (0, 3953672), (58518, 0), (141, 0)], [(5877299194, 0),
    (31343557, 0), (0, 56671), (0, 53)], [(0, 15699174), (0, 51733), (299, 0), (0, 1)], [(42293, 0), (0, 45)]], 3,
    4⟩, 17592186044416, 22505910,
    4692746409694891049263529822097279512554390121674758888353838111179211224521214445576954311313490099418352975076905113196872380,
    lc0⟩) (.sx (.leaf ⟨746, 16, 1190, 90, 16, 1505, ⟨[[(0, 26139749591457792), (0, 3096423819328280), (72433616193,
    0), (1348564, 0), (234, 0)], [(14143108356016241, 0), (0, 5151624163271), (215861233, 0), (9884, 0), (1, 0)],
    [(20864507304275, 0), (0, 4538465821), (0, 120501), (0, 34)], [(68877632817, 0), (0, 8647247), (0, 761)]], 3, 4⟩,
    ⟨[[(23827914089677824, 0), (0, 1803772860286340), (0, 565782280), (0, 3535143), (0, 405)], [(0,
    31071260583913984), (350771519229, 0), (95236382, 0), (11852, 0), (1, 0)], [(19862163182623, 0), (332420517, 0),
    (65885, 0), (14, 0)], [(0, 21781733459), (0, 3572935), (0, 664)]], 3, 4⟩, 72057594037927936, 16455249592340,
    4600582301760, ⟨[[(13948798330579, 0), (1936108252, 0), (0, 1294735), (14612, 0), (25, 0)], [(4215115750, 0),
    (13895109, 0), (0, 17647), (0, 3)], [(0, 7827518), (0, 13318), (53, 0)], [(14579, 0), (0, 24)]], 3, 4⟩,
    17592186044416, 3677961,
    4273931283773886354349563452117428196033559157345082251572487791567766153548955914046087502966679220593240047242911345414572236,
    lc0⟩) (.leaf ⟨687, 16, 1084, 75, 16, 1558, ⟨[[(18843873626931200, 0), (0, 3025568625767493), (73998978554, 0),
    (1544429, 0), (265, 0)], [(14835128423844584, 0), (0, 5080639500197), (184116610, 0), (5863, 0), (1, 0)],
    [(27764168402711, 0), (0, 5086544886), (0, 183351), (0, 43)], [(76930939850, 0), (0, 7166772), (0, 461)]], 3, 4⟩,
    ⟨[[(17636543054998528, 0), (0, 1851702808644308), (3625625512, 0), (0, 3125395), (0, 364)], [(0,
    30550625731367558), (373183038143, 0), (100797748, 0), (13003, 0), (1, 0)], [(17971717113967, 0), (0, 94729844),
    (0, 13937), (3, 0)], [(0, 18512467187), (0, 3228528), (0, 607)]], 3, 4⟩, 72057594037927936, 19632447306211,
    5159537209537, ⟨[[(13946279225934, 0), (2040281639, 0), (0, 2008082), (11307, 0), (29, 0)], [(4220793476, 0),
    (15119609, 0), (0, 16977), (0, 3)], [(0, 8701075), (0, 18394), (66, 0)], [(18644, 0), (0, 23)]], 3, 4⟩,
    17592186044416, 5488115,
    4764708909444604192260097191409869857865583690886103815950501587395456709400831678847138840843834142568213038907224053345606695,
    lc0⟩))) (.sy (.sx (.leaf ⟨609, 16, 917, 73, 16, 1599, ⟨[[(0, 19765587058704384), (0, 2816138543366371),
    (67031735835, 0), (973772, 0), (214, 0)], [(17282092553346658, 0), (0, 4830731226839), (139631565, 0), (422, 0)],
    [(35083458562936, 0), (0, 4853409609), (0, 129018), (0, 36)], [(82774518276, 0), (0, 5035325), (0, 96)]], 3, 4⟩,
    ⟨[[(0, 32773121695588352), (0, 1894630428878373), (11539713495, 0), (0, 2075953), (0, 257)], [(0,
    30054658420429275), (268114097285, 0), (81388437, 0), (10555, 0), (1, 0)], [(16541876563760, 0), (0, 394067768),
    (0, 73775), (0, 7)], [(0, 13417460806), (0, 2197285), (0, 387)]], 3, 4⟩, 72057594037927936, 19481575105412,
    5035916674375, ⟨[[(14066592100003, 0), (2472138614, 0), (0, 2490529), (9877, 0), (26, 0)], [(4314273962, 0),
    (16083924, 0), (0, 14246), (0, 9)], [(0, 9803339), (0, 26932), (81, 0)], [(23459, 0), (4, 0)]], 3, 4⟩,
    17592186044416, 8214183,
    3366191203426417651083521619419317220162320322369318550565112247361709672089793667042350795083439907752132637870659203400177958,
    lc0⟩) (.sx (.leaf ⟨705, 16, 1048, 85, 16, 2284, ⟨[[(0, 6100208892239872), (0, 3398028601451560), (81486084553,
    0), (1086547, 0), (258, 0)], [(11286349478658639, 0), (0, 2943360328168), (75069513, 0), (0, 1083)],
    [(12428553816137, 0), (0, 1514338420), (0, 37361), (0, 11)], [(13655309024, 0), (0, 629855), (8, 0)]], 3, 4⟩,
    ⟨[[(12519417317242880, 0), (0, 2694864187959746), (20024495296, 0), (0, 2503014), (0, 314)], [(0,
    20746979902474706), (169413110385, 0), (54053466, 0), (7097, 0), (1, 0)], [(5506247641418, 0), (0, 206988938),
    (0, 37764), (0, 4)], [(0, 1845986831), (0, 308122), (0, 51)]], 3, 4⟩, 72057594037927936, 1570494791113,
    496224932799, ⟨[[(14064432211129, 0), (1870861816, 0), (0, 1453253), (2851, 0), (7, 0)], [(3456668281, 0),
    (9805376, 0), (0, 5423), (0, 2)], [(0, 6809683), (0, 15479), (30, 0)], [(14460, 0), (7, 0)]], 3, 4⟩,
    17592186044416, 3939189,
    3621186603655876754200438815732241456308517912963959893628826941595011796490740677437522299684729202354885696566757689395444489,
    lc0⟩) (.out ⟨373, 16, 978, 1700, 16, 1615, ⟨[[(0, 12704256993337344), (0, 3288960365256127), (78924955920, 0)],
    [(11576344735267675, 0), (0, 2868476483696), (67191198, 0)], [(13281291447032, 0), (0, 1483531855), (0, 33055)]],
    2, 2⟩, ⟨[[(28587577703923712, 0), (0, 2661066060100863), (22000738515, 0)], [(0, 20089222667174958),
    (148981482533, 0), (50120876, 0)], [(5243298133924, 0), (0, 239746023), (0, 43031)]], 2, 2⟩, 72057594037927936,
    149143565485660, 53135632239038, ⟨[], 0, 0⟩, 0, 0, 0, lc0⟩ 2 1 25147985344486))) (.sx (.sx (.leaf ⟨774, 16, 1209,
    90, 16, 2246, ⟨[[(15153215621513216, 0), (0, 3558825573076069), (88783384333, 0), (1877729, 0), (330, 0)],
    [(9383010485385463, 0), (0, 3023444758313), (95584480, 0), (1619, 0)], [(9936741423071, 0), (0, 1597202762), (0,
    60446), (0, 14)], [(12551711963, 0), (0, 890229), (0, 34)]], 3, 4⟩, ⟨[[(0, 31335866074380288), (0,
    2652729112318666), (9757615785, 0), (0, 3914857), (0, 463)], [(0, 21242129877312213), (258088630678, 0),
    (70782757, 0), (9319, 0), (1, 0)], [(5900396906717, 0), (0, 136137832), (0, 24159), (0, 2)], [(0, 2762437956),
    (0, 494898), (0, 92)]], 3, 4⟩, 72057594037927936, 1636655119112, 516942154487, ⟨[[(13947987296711, 0),
    (1528400871, 0), (0, 1212818), (3254, 0), (8, 0)], [(3508227869, 0), (9492263, 0), (0, 6873), (0, 1)], [(0,
    6491763), (0, 11431), (27, 0)], [(12815, 0), (0, 8)]], 3, 4⟩, 17592186044416, 3174231,
    3834880150144547058876675051713375176780977816531736787471966487639367146946644407588905317946686641994134350742218091857233675,
    lc0⟩) (.sy (.leaf ⟨1244, 16, 1913, 119, 16, 3249, ⟨[[(20855211733139456, 0), (0, 2936644171115534), (36392249330,
    0), (346183, 0), (33, 0)], [(16906481900744405, 0), (0, 2519686013701), (35697879, 0), (47, 0)],
    [(18696463356663, 0), (0, 1336202279), (0, 22926), (0, 3)], [(22181102106, 0), (0, 635605), (0, 4)]], 3, 4⟩,
    ⟨[[(0, 34746834764497920), (0, 1913460946346322), (5052245038, 0), (0, 600563), (0, 36)], [(0,
    30074243108862360), (164496445237, 0), (23489915, 0), (1558, 0)], [(8101809488452, 0), (0, 134392313), (0,
    12188), (0, 1)], [(0, 3356180151), (0, 296744), (0, 27)]], 3, 4⟩, 72057594037927936, 2641340680075, 670872404219,
    ⟨[[(13977050203005, 0), (1149643481, 0), (0, 652404), (992, 0), (2, 0)], [(2075313152, 0), (4066115, 0), (0,
    1873)], [(0, 2377902), (0, 3319), (5, 0)], [(2941, 0)]], 3, 4⟩, 17592186044416, 430864,
    3051940665302482126985528415550233974631297236521798658074747172409435096844978825285287106538295633599649507289479166880189556,
    lc0⟩) (.sx (.leaf ⟨1528, 16, 2393, 153, 16, 4547, ⟨[[(17970847646302208, 0), (0, 3595000491933818), (45765499328,
    0), (517382, 0), (44, 0)], [(9556589602778973, 0), (0, 1535758607485), (22762599, 0), (114, 0)], [(5422654449290,
    0), (0, 419342451), (0, 8469), (0, 1)], [(3330510686, 0), (0, 102987), (0, 1)]], 3, 4⟩, ⟨[[(26374328815925248,
    0), (0, 2674269751067197), (5342004970, 0), (0, 973143), (0, 57)], [(0, 21101338399517007), (134549935001, 0),
    (18356887, 0), (1223, 0)], [(2849434486560, 0), (0, 47808866), (0, 4254)], [(0, 639699820), (0, 59179), (0, 6)]],
    3, 4⟩, 72057594037927936, 211086324335, 70739450757, ⟨[[(13918850227338, 0), (763512795, 0), (0, 324515), (338,
    0)], [(1715510386, 0), (2430512, 0), (0, 858)], [(0, 1633636), (0, 1535), (2, 0)], [(1695, 0)]], 3, 4⟩,
    17592186044416, 260418,
    3874635326052072841370755633480869747320737034083681769018713743047795089480002824769576668462760788793767107218748613956820991,
    lc0⟩) (.out ⟨786, 16, 2292, 3367, 16, 3202, ⟨[[(14197324718604288, 0), (0, 3505763509791680), (44735198095, 0)],
    [(9606695523604026, 0), (0, 1505190130952), (21115635, 0)], [(5606339951112, 0), (0, 413727047), (0, 8213)]], 2,
    2⟩, ⟨[[(0, 17356726249881600), (0, 2631027280137937), (6018889237, 0)], [(0, 20570680946922950), (128389948068,
    0), (17717292, 0)], [(2732879040574, 0), (0, 54207788), (0, 4854)]], 2, 2⟩, 72057594037927936, 39645729486250,
    20644490040894, ⟨[], 0, 0⟩, 0, 0, 0, lc0⟩ 2 1 17740914504485)))) (.out ⟨304, 16, 855, 1210, 16, 1158, ⟨[[(0,
    27010834961768448), (0, 2754433989808855), (69397099773, 0)], [(16863625698571621, 0), (0, 4789088113349),
    (116507639, 0)], [(40854209259317, 0), (0, 5215857614), (0, 176823)]], 2, 2⟩, ⟨[[(13934695155367936, 0), (0,
    1896685948601969), (12145223837, 0)], [(0, 28993451225754173), (310296560428, 0), (90973660, 0)],
    [(14967208924858, 0), (0, 767670552), (0, 138491)]], 2, 2⟩, 72057594037927936, 900600641196223, 146046856799801,
    ⟨[], 0, 0⟩, 0, 0, 0, lc0⟩ 2 1 34186643320322)))
theorem c103 : checkR job con0 false ⟨7, 9, 7, 9, 13, 17⟩ 1 34400 t103 195 21 160 30243 251 32000 = true := by decide +kernel

def t104 : CTree :=
  .sx (.sx (.sy (.leaf ⟨775, 16, 1274, 78, 16, 1508, ⟨[[(32426684587622400, 0), (0, 3235914442175214), (80121785458,
    0), (1992010, 0), (297, 0)], [(12432462445802878, 0), (0, 5274398401564), (249606566, 0), (14108, 0), (2, 0)],
    [(19860925353958, 0), (0, 5016967192), (0, 187452), (0, 42)], [(68868599981, 0), (0, 10187038), (0, 1044)]], 3,
    4⟩, ⟨[[(0, 6422839654440960), (0, 1810830599095311), (0, 6554216620), (0, 4436366), (0, 487)], [(0,
    30931128516249874), (456897572030, 0), (115254583, 0), (14535, 0), (1, 0)], [(20087523202021, 0), (411087372, 0),
    (90295, 0), (18, 0)], [(0, 23802752713), (0, 4325270), (0, 824)]], 3, 4⟩, 72057594037927936, 18107438096684,
    4882722147443, ⟨[[(13831781090525, 0), (1647231620, 0), (0, 1382665), (13142, 0), (31, 0)], [(4114661428, 0),
    (13912453, 0), (0, 18611), (4, 0)], [(0, 7616349), (0, 10717), (46, 0)], [(14280, 0), (0, 39)]], 3, 4⟩,
    17592186044416, 3682295,
    4898670954723434132122858569202157849506400036540273179473350109925015619303475970218555128209469682723785146885984239405376963,
    lc0⟩) (.sx (.leaf ⟨934, 16, 1583, 99, 16, 2131, ⟨[[(8646151746756608, 0), (0, 3854053515765531), (100267381739,
    0), (3039101, 0), (408, 0)], [(5906447000025810, 0), (0, 3047890659943), (173251388, 0), (11991, 0), (1, 0)],
    [(4767712673379, 0), (0, 1514680530), (0, 65931), (0, 13)], [(9296701159, 0), (0, 1804825), (0, 217)]], 3, 4⟩,
    ⟨[[(0, 29753791912393728), (0, 2581923206208497), (0, 21855870786), (0, 8037168), (0, 843)], [(0,
    21978597994182888), (403996447104, 0), (96512297, 0), (12147, 0), (1, 0)], [(7475588667785, 0), (241381343, 0),
    (53956, 0), (9, 0)], [(0, 4806949032), (0, 944093), (0, 181)]], 3, 4⟩, 72057594037927936, 1374029012727,
    507960129246, ⟨[[(13720985462474, 0), (944482215, 0), (0, 611792), (4213, 0), (9, 0)], [(3524381707, 0),
    (8351725, 0), (0, 8388), (4, 0)], [(0, 5594194), (0, 3548), (13, 0)], [(8929, 0), (0, 25)]], 3, 4⟩,
    17592186044416, 1588252,
    4018186635061486749733572588199106824442630722035133280580342306912204964245198607967114001190414552616704551721236799355068679,
    lc0⟩) (.leaf ⟨902, 16, 1523, 87, 16, 2165, ⟨[[(10682849177075712, 0), (0, 3833831772976600), (103340756050, 0),
    (3384119, 0), (451, 0)], [(6117123012334070, 0), (0, 3063836058929), (160289413, 0), (10324, 0), (1, 0)],
    [(5783109382538, 0), (0, 1671202948), (0, 88330), (0, 16)], [(10076066670, 0), (0, 1653860), (0, 185)]], 3, 4⟩,
    ⟨[[(23493571362605056, 0), (0, 2605516915838167), (0, 18003263210), (0, 7632036), (0, 804)], [(0,
    21716497976071113), (426029236421, 0), (101689988, 0), (13014, 0), (1, 0)], [(7002659075512, 0), (126741534, 0),
    (31927, 0), (6, 0)], [(0, 4511385029), (0, 918530), (0, 178)]], 3, 4⟩, 72057594037927936, 1568174926569,
    558152702746, ⟨[[(13720232468449, 0), (977684615, 0), (0, 776076), (3562, 0), (9, 0)], [(3505246139, 0),
    (8746604, 0), (0, 8495), (4, 0)], [(0, 5884646), (0, 4448), (16, 0)], [(10209, 0), (0, 28)]], 3, 4⟩,
    17592186044416, 2004367,
    4863911279555935659516310765192810217530476563554009801030976494419376748075951166670370445011899009062421681066348849793197020,
    lc0⟩))) (.sy (.sx (.leaf ⟨851, 16, 1388, 94, 16, 2197, ⟨[[(6617699429105664, 0), (0, 3712245350977749),
    (95621052137, 0), (2603817, 0), (386, 0)], [(7572082034312599, 0), (0, 3061494260059), (127963941, 0), (5995, 0),
    (1, 0)], [(7335998975343, 0), (0, 1619200816), (0, 75008), (0, 15)], [(11070481935, 0), (0, 1278737), (0, 110)]],
    3, 4⟩, ⟨[[(14194801687754752, 0), (0, 2616823745458247), (0, 4165908693), (0, 5775403), (0, 641)], [(0,
    21659297544836998), (342557048620, 0), (86353862, 0), (11170, 0), (1, 0)], [(6549404710008, 0), (6912288, 0),
    (5526, 0), (3, 0)], [(0, 3773846273), (0, 718499), (0, 138)]], 3, 4⟩, 72057594037927936, 1554355333613,
    537396665233, ⟨[[(13832975559352, 0), (1221026266, 0), (0, 937968), (3666, 0), (8, 0)], [(3519325620, 0),
    (8987525, 0), (0, 7860), (1, 0)], [(0, 6064142), (0, 7355), (21, 0)], [(10945, 0), (0, 18)]], 3, 4⟩,
    17592186044416, 2285855,
    4725114436592984328823330817593239691987943064930641109812783492327110380336199241066976928535904752935068807395601481064045724,
    lc0⟩) (.leaf ⟨819, 16, 1329, 83, 16, 2227, ⟨[[(23302313615876096, 0), (0, 3680389178794932), (96568494280, 0),
    (2707090, 0), (405, 0)], [(7898522389078892, 0), (0, 3067912207087), (115980331, 0), (4419, 0), (1, 0)],
    [(8438538509170, 0), (0, 1698937685), (0, 83457), (0, 17)], [(11875473020, 0), (0, 1130956), (0, 79)]], 3, 4⟩,
    ⟨[[(0, 11164444768010240), (0, 2638013082577616), (0, 546715299), (0, 5375296), (0, 601)], [(0,
    21416935709056509), (344074096273, 0), (87280745, 0), (11452, 0), (1, 0)], [(6181949146759, 0), (0, 80948502),
    (0, 11365)], [(0, 3424304316), (0, 665984), (0, 129)]], 3, 4⟩, 72057594037927936, 1683355773664, 563715783048,
    ⟨[[(13832783078790, 0), (1267860545, 0), (0, 1068619), (3135, 0), (8, 0)], [(3506893841, 0), (9385117, 0), (0,
    7840), (1, 0)], [(0, 6357064), (0, 8725), (24, 0)], [(12327, 0), (0, 19)]], 3, 4⟩, 17592186044416, 2821516,
    4767298187022822679644548352274987513718860324123863043273117373386841198704459133571765497969016588420888894033128999640699083,
    lc0⟩)) (.sx (.leaf ⟨870, 16, 1462, 76, 16, 2198, ⟨[[(0, 29993113350438912), (0, 3806749917540336), (105501993473,
    0), (3635184, 0), (484, 0)], [(6391803326860398, 0), (0, 3084101911803), (145856266, 0), (8453, 0), (1, 0)],
    [(6848899676793, 0), (0, 1797735541), (0, 105381), (0, 19)], [(10952844325, 0), (0, 1478709), (0, 148)]], 3, 4⟩,
    ⟨[[(0, 1745899608208384), (0, 2626906635686642), (0, 13897657488), (0, 7183691), (0, 761)], [(0,
    21473855280213839), (438493405619, 0), (105021570, 0), (13635, 0), (1, 0)], [(6557619324617, 0), (14719893, 0),
    (10220, 0), (4, 0)], [(0, 4173883834), (0, 873509), (0, 171)]], 3, 4⟩, 72057594037927936, 1721671357533,
    602956275725, ⟨[[(13722744000325, 0), (1020887075, 0), (0, 906632), (2989, 0), (9, 0)], [(3487957940, 0),
    (9143645, 0), (0, 8564), (3, 0)], [(0, 6179079), (0, 5561), (19, 0)], [(11604, 0), (0, 30)]], 3, 4⟩,
    17592186044416, 2463201,
    4908180560902920590474625002872564384553429562651471247043606642838398576245002855437074957902004460025592868201484307144413065,
    lc0⟩) (.sy (.sx (.leaf ⟨1702, 16, 2830, 144, 16, 4456, ⟨[[(5172262724861952, 0), (0, 3806713817656430),
    (52541941184, 0), (877539, 0), (60, 0)], [(7027494462214738, 0), (0, 1566069164021), (32953524, 0), (807, 0)],
    [(3956082309400, 0), (0, 460754238), (0, 13361), (0, 1)], [(2953070008, 0), (0, 163365), (0, 7)]], 3, 4⟩,
    ⟨[[(28557544743626752, 0), (0, 2646396742556594), (0, 4110188684), (0, 1621325), (0, 87)], [(0,
    21414377373485809), (208363883155, 0), (25366987, 0), (1663, 0)], [(3135388584928, 0), (0, 16190634), (0, 753)],
    [(0, 951090409), (0, 98816), (0, 10)]], 3, 4⟩, 72057594037927936, 222895686206, 76494112862, ⟨[[(13749026908039,
    0), (550051797, 0), (0, 250119), (340, 0), (1, 0)], [(1720962329, 0), (2322798, 0), (0, 1037)], [(0, 1557176),
    (0, 856), (1, 0)], [(1518, 0), (0, 2)]], 3, 4⟩, 17592186044416, 227013,
    3197357424266536122002885878311748638248862590093801184398027873484618512221708117293345355557207022622396768198829027985960257,
    lc0⟩) (.out ⟨828, 16, 2715, 3297, 16, 3142, ⟨[[(0, 9955937368891392), (0, 3715917317723972), (51711562819, 0)],
    [(7076033864858255, 0), (0, 1540376630390), (30504102, 0)], [(4163384959112, 0), (0, 461286967), (0, 13597)]], 2,
    2⟩, ⟨[[(31133243360313344, 0), (0, 2603822328095596), (0, 3007701109)], [(0, 20884371401369658), (203838742928,
    0), (24929189, 0)], [(2980218012185, 0), (0, 27974531), (0, 1917)]], 2, 2⟩, 72057594037927936, 42778511055176,
    33721780980645, ⟨[], 0, 0⟩, 0, 0, 0, lc0⟩ 2 1 12276641893724)) (.out ⟨733, 16, 2486, 2333, 16, 2231, ⟨[[(0,
    11848599476813824), (0, 3325492720507325), (48024537852, 0)], [(11261435943285123, 0), (0, 2727609542123),
    (59053114, 0)], [(13721147881437, 0), (0, 1706777450), (0, 55387)]], 2, 2⟩, ⟨[[(0, 15275646785388544), (0,
    1855300257440055), (0, 4275850470)], [(0, 29682320440004992), (328433144250, 0), (39194887, 0)], [(8592911767501,
    0), (0, 66368148), (0, 3620)]], 2, 2⟩, 72057594037927936, 213815927432479, 73808205600836, ⟨[], 0, 0⟩, 0, 0, 0,
    lc0⟩ 2 1 16804815837845))))) (.sx (.sy (.sx (.sy (.leaf ⟨1350, 16, 2160, 108, 16, 3217, ⟨[[(21449833650651136,
    0), (0, 3118600755484968), (40733591836, 0), (538176, 0), (42, 0)], [(14754334872668495, 0), (0, 2635839341684),
    (43699759, 0), (535, 0)], [(16661938206505, 0), (0, 1472977565), (0, 34517), (0, 4)], [(21816790182, 0), (0,
    820928), (0, 19)]], 3, 4⟩, ⟨[[(32912350092622848, 0), (0, 1895787577278223), (1762817533, 0), (0, 834936), (0,
    48)], [(0, 30271322832988849), (225998424860, 0), (29429183, 0), (1953, 0)], [(8372820990415, 0), (0, 111082904),
    (0, 9395)], [(0, 4243478425), (0, 408776), (0, 39)]], 3, 4⟩, 72057594037927936, 2850566138098, 719497414927,
    ⟨[[(13861299758096, 0), (965998994, 0), (0, 589854), (951, 0), (2, 0)], [(2022960560, 0), (3959305, 0), (0,
    2153)], [(0, 2221308), (0, 2535), (4, 0)], [(2652, 0), (0, 2)]], 3, 4⟩, 17592186044416, 356099,
    4681168983021819318117336672533233684170502638732573906747762872921992692277917050716162494091965737817997106473132597386296499,
    lc0⟩) (.sy (.out ⟨1093, 16, 3421, 3018, 16, 2872, ⟨[[(33046783291293696, 0), (0, 2445136261521095), (16383643147,
    0)], [(21805969838734882, 0), (0, 2061067421936), (17563441, 0)], [(25502725789648, 0), (0, 1188254145), (0,
    15310)]], 2, 2⟩, ⟨[[(11159214081703936, 0), (0, 1184133466767779), (243187284, 0)], [(0, 37723223727063643),
    (155614359200, 0), (9912091, 0)], [(10410895536216, 0), (0, 73929519), (0, 3055)]], 2, 2⟩, 72057594037927936,
    323463104757517, 54995168257702, ⟨[], 0, 0⟩, 0, 0, 0, lc0⟩ 2 1 13088083787227) (.out ⟨1103, 16, 3504, 3014, 16,
    2876, ⟨[[(0, 28878871370956800), (0, 2487516757340105), (16972578805, 0)], [(21279815870141562, 0), (0,
    2092910960589), (18193040, 0)], [(25506444722178, 0), (0, 1233417237), (0, 16865)]], 2, 2⟩, ⟨[[(7068103299891200,
    0), (0, 1185647756778067), (23186024, 0)], [(0, 37694992177509833), (166050469093, 0), (10435753, 0)],
    [(10387453484294, 0), (0, 77143972), (0, 3139)]], 2, 2⟩, 72057594037927936, 328361816974421, 56575091355918, ⟨[],
    0, 0⟩, 0, 0, 0, lc0⟩ 2 1 17559509579789))) (.out ⟨388, 16, 1189, 1671, 16, 1599, ⟨[[(0, 17193823290363904), (0,
    3534541906941113), (94550385539, 0)], [(8577633683152090, 0), (0, 3020136302931), (90075091, 0)],
    [(10552221187454, 0), (0, 1750085215), (0, 86084)]], 2, 2⟩, ⟨[[(0, 32139135120179200), (0, 2623650944461330),
    (6667048841, 0)], [(0, 20551508466838229), (319045516490, 0), (83276556, 0)], [(5451943759584, 0), (0,
    231526838), (0, 40399)]], 2, 2⟩, 72057594037927936, 171044399186949, 102886707413542, ⟨[], 0, 0⟩, 0, 0, 0, lc0⟩ 2
    1 26478527574111)) (.out ⟨335, 16, 1101, 1179, 16, 1137, ⟨[[(0, 20665421718425600), (0, 3126791469968747),
    (89999080528, 0)], [(12400509932010069, 0), (0, 5281745204174), (180413893, 0)], [(32824741652332, 0), (0,
    6651593676), (0, 415762)]], 2, 2⟩, ⟨[[(9947937645264896, 0), (0, 1869648191944993), (0, 2133094711)], [(0,
    29291004219504518), (600764609009, 0), (147605638, 0)], [(15684549948077, 0), (0, 665359209), (0, 109460)]], 2,
    2⟩, 72057594037927936, 930342310713170, 256965985912667, ⟨[], 0, 0⟩, 0, 0, 0, lc0⟩ 2 1 36874799071376)) (.out
    ⟨178, 16, 552, 835, 16, 812, ⟨[[(0, 14418432477313024), (0, 3418109342258050), (189499656346, 0)],
    [(8601334824101521, 0), (0, 5961099895882), (291618877, 0)], [(23763167526196, 0), (0, 7180619593), (0,
    740781)]], 2, 2⟩, ⟨[[(0, 17472455212236800), (0, 2640083138214882), (17735442375, 0)], [(0, 20126452496854010),
    (660127718851, 0), (347272160, 0)], [(10029675391889, 0), (0, 1410185515), (0, 501596)]], 2, 2⟩,
    72057594037927936, 760582137233339, 418709228723192, ⟨[], 0, 0⟩, 0, 0, 0, lc0⟩ 2 1 58882123030541))
theorem c104 : checkR job con0 false ⟨7, 9, 7, 9, 13, 17⟩ 1 34400 t104 195 21 160 30745 251 32000 = true := by decide +kernel

end PyX.Kron.T3b
