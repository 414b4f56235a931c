import Verif.Lemmas.T1phJob

/-!
# Temperature from pressure and enthalpy in region 1, part A of the certificate
-/

namespace PyX.Kron.T1ph

set_option Elab.async false

def t0 : CTree :=
  .sy (.sy (.sy (.leaf ⟨756, 52, 8, 2732, 16, 2628, ⟨[[(1114640907773952, 0)], [(0, 3722225092021715)]], 2, 3⟩,
    ⟨[[(939828764260352, 0), (243414297921649, 0), (0, 1977235405), (0, 362137)], [(0, 441203905539910),
    (11397953170, 0), (0, 1250472), (319, 0)], [(0, 21452138952), (6822360, 0), (0, 1980), (1, 0)]], 2, 3⟩,
    4503599627370496, 250, 1279260006360, ⟨[[(302732485307583, 0), (265077965391, 0), (0, 14605491), (16596, 0)],
    [(0, 31420445062), (18980243, 0), (0, 23173), (31, 0)], [(0, 177753), (0, 651), (0, 1)]], 2, 3⟩, 1099511627776,
    32292481, 50522196911222879984502419299817854075721551166979640518756517409232758612859342673305541, lc0⟩) (.leaf
    ⟨756, 52, 8, 2772, 16, 2648, ⟨[[(1114640907773952, 0)], [(0, 3722225092021715)]], 2, 3⟩, ⟨[[(24272873363456, 0),
    (243750740020487, 0), (0, 2322250943), (0, 267825)], [(0, 440683712927335), (10707804076, 0), (0, 976266), (226,
    0)], [(0, 19428622583), (5686825, 0), (0, 1434)]], 2, 3⟩, 4503599627370496, 250, 1097266242186,
    ⟨[[(307780589791585, 0), (262540830670, 0), (0, 13477074), (15315, 0)], [(0, 31066824605), (17993223, 0), (0,
    21107), (29, 0)], [(0, 190554), (0, 687), (0, 1)]], 2, 3⟩, 1099511627776, 34577330,
    33306946051715831193045807772266829377925586587120608637666392302434880811210733082837099, lc0⟩)) (.sy (.leaf
    ⟨756, 52, 8, 2812, 16, 2668, ⟨[[(1114640907773952, 0)], [(0, 3722225092021715)]], 2, 3⟩, ⟨[[(0, 169871193581568),
    (243864565975720, 0), (0, 2581888327), (0, 194596)], [(0, 440347600316362), (10175234252, 0), (0, 780160), (164,
    0)], [(0, 17729714986), (4861648, 0), (0, 1059)]], 2, 3⟩, 4503599627370496, 250, 938633840622,
    ⟨[[(312743281626220, 0), (260082604103, 0), (0, 12444194), (14110, 0)], [(0, 30733742733), (17096440, 0), (0,
    19184), (28, 0)], [(0, 203968), (0, 725), (0, 1)]], 2, 3⟩, 1099511627776, 36927156,
    44169344732980470564159398172429201929161185378797645306697150176559019622937595769489260, lc0⟩) (.leaf ⟨756, 52,
    8, 2853, 16, 2689, ⟨[[(1114640907773952, 0)], [(0, 3722225092021715)]], 2, 3⟩, ⟨[[(559237065236480, 0),
    (243898019511688, 0), (0, 2776251753), (0, 137966)], [(0, 440313990795369), (9759874009, 0), (0, 636828), (122,
    0)], [(0, 16273117309), (4252252, 0), (0, 799)]], 2, 3⟩, 4503599627370496, 250, 803621058663,
    ⟨[[(317607557407614, 0), (257603636514, 0), (0, 11493711), (12965, 0)], [(0, 30420253327), (16278779, 0), (0,
    17386), (26, 0)], [(0, 217962), (0, 764), (0, 1)]], 2, 3⟩, 1099511627776, 39271884,
    45535208130916836158029457955287807027715493958136963362410662522364377607279504812774926, lc0⟩))) (.sy (.sy
    (.leaf ⟨756, 52, 8, 2895, 16, 2711, ⟨[[(1114640907773952, 0)], [(0, 3722225092021715)]], 2, 3⟩,
    ⟨[[(2248978208552960, 0), (243888937470387, 0), (0, 2920425408), (0, 94275)], [(0, 440546236917776), (9431522162,
    0), (0, 529482), (93, 0)], [(0, 14995970283), (3793945, 0), (0, 614)]], 2, 3⟩, 4503599627370496, 250,
    687621232295, ⟨[[(322371126877188, 0), (255104132290, 0), (0, 10621415), (11879, 0)], [(0, 30124775852),
    (15534618, 0), (0, 15707), (25, 0)], [(0, 232522), (0, 803), (0, 1)]], 2, 3⟩, 1099511627776, 41899848,
    46661489883609627877324984431879577650106004696023612988756826042138001723530853529743081, lc0⟩) (.leaf ⟨756, 52,
    8, 2938, 16, 2733, ⟨[[(1114640907773952, 0)], [(0, 3722225092021715)]], 2, 3⟩, ⟨[[(105813860562944, 0),
    (243776809340440, 0), (0, 3025025421), (0, 60626)], [(0, 440855099480558), (9166108032, 0), (0, 446906), (73,
    0)], [(0, 13848805463), (3441911, 0), (0, 482)]], 2, 3⟩, 4503599627370496, 250, 586799606894,
    ⟨[[(327303448312621, 0), (252655810704, 0), (0, 9795178), (10824, 0)], [(0, 29829889230), (14833571, 0), (0,
    14081), (23, 0)], [(0, 248541), (0, 846), (0, 1)]], 2, 3⟩, 1099511627776, 44570485,
    42429956285105984445053837179818397471114926573969586496184583744877041089830320011554012, lc0⟩)) (.leaf ⟨756,
    52, 8, 1858, 16, 1712, ⟨[[(1114640907773952, 0)], [(0, 3722225092021715)]], 2, 3⟩, ⟨[[(517337290373120, 0),
    (301384136563560, 0), (0, 7741585112), (0, 120071)], [(0, 273216158941423), (10963068427, 0), (0, 876922), (260,
    0)], [(0, 7617393461), (3777452, 0), (0, 856)]], 2, 3⟩, 4503599627370496, 250, 601816118843, ⟨[[(334388330496610,
    0), (402495885411, 0), (0, 22756609), (39604, 0)], [(0, 29424085176), (22503376, 0), (0, 31073), (89, 0)], [(0,
    273339), (0, 1471), (0, 4)]], 2, 3⟩, 1099511627776, 54328088,
    36995604163489444519422154190868783068984905828204658429079495363251507290335925461067439, lc0⟩))
theorem c0 : checkC job ⟨6, 8, 5, 6, 9, 13⟩ 1 40 B1.zlims t0 221 61 160 2143 175 7584 = true := by decide +kernel

def t1 : CTree :=
  .sy (.sy (.leaf ⟨756, 52, 8, 1913, 16, 1741, ⟨[[(1114640907773952, 0)], [(0, 3722225092021715)]], 2, 3⟩,
    ⟨[[(874057204258816, 0), (300954982312169, 0), (0, 7913249040), (30286, 0)], [(0, 274041101165322), (10610207555,
    0), (0, 661386), (182, 0)], [(0, 6495122234), (3342493, 0), (0, 581)]], 2, 3⟩, 4503599627370496, 250,
    381275226535, ⟨[[(343688357410300, 0), (394815586127, 0), (0, 19538396), (32260, 0)], [(0, 28919022972),
    (20851362, 0), (0, 24312), (78, 0)], [(0, 309352), (0, 1617), (0, 4)]], 2, 3⟩, 1099511627776, 60115370,
    33364298089782034392330839193129401090453324258849409446344477572062903349677427537975413, lc0⟩) (.leaf ⟨756, 52,
    8, 1971, 16, 1772, ⟨[[(1114640907773952, 0)], [(0, 3722225092021715)]], 2, 3⟩, ⟨[[(0, 689221326926848),
    (300699281537929, 0), (0, 7972272569), (116427, 0)], [(0, 275216067352383), (10389247898, 0), (0, 506428), (136,
    0)], [(0, 5484325920), (3055598, 0), (0, 412)]], 2, 3⟩, 4503599627370496, 250, 229962479263, ⟨[[(352963471667536,
    0), (387055320637, 0), (0, 16842359), (25645, 0)], [(0, 28441077180), (19487291, 0), (0, 18344), (69, 0)], [(0,
    349568), (0, 1774), (0, 4)]], 2, 3⟩, 1099511627776, 66761608,
    46354684608922268097017606260040729582808492692081168654081812116723821378292033825808637, lc0⟩)) (.sx (.sx (.sy
    (.sy (.leaf ⟨893, 16, 9, 4612, 16, 4105, ⟨[[(1429259562992640, 0)], [(0, 1046875807131107)]], 2, 3⟩,
    ⟨[[(1695097183936512, 0), (342950893689398, 0), (0, 4544544401), (42872, 0)], [(0, 157581779586165), (2864249868,
    0), (0, 55060), (7, 0)], [(0, 675749323), (201753, 0), (0, 11)]], 2, 3⟩, 4503599627370496, 127, 8108285732,
    ⟨[[(359581802929724, 0), (167109418309, 0), (0, 2978317), (1937, 0)], [(0, 24967185241), (7175765, 0), (0, 2435),
    (5, 0)], [(0, 264442), (0, 574), (0, 1)]], 2, 3⟩, 1099511627776, 1539481,
    48552035535970854895654829872465458765411620884977943761653514238317837730481961890553327, lc0⟩) (.leaf ⟨893, 16,
    9, 4680, 16, 4141, ⟨[[(1429259562992640, 0)], [(0, 1046875807131107)]], 2, 3⟩, ⟨[[(0, 1855140140232704),
    (342765950890205, 0), (0, 4536344940), (48002, 0)], [(0, 157958949574964), (2853159643, 0), (0, 48052), (7, 0)],
    [(0, 611746697), (196267, 0), (0, 10)]], 2, 3⟩, 4503599627370496, 127, 5909337631, ⟨[[(364144075354880, 0),
    (165499512889, 0), (0, 2778545), (1699, 0)], [(0, 24772910097), (6991475, 0), (0, 2034), (4, 0)], [(0, 280543),
    (0, 600), (0, 1)]], 2, 3⟩, 1099511627776, 1601298,
    50686211979644597693984224023087012571067170437275079320863826541555445431050642282539563, lc0⟩)) (.sx (.sx (.sx
    (.sy (.sy (.leaf ⟨7850, 16, 78, 10583, 16, 9322, ⟨[[(0, 1744142101000192)], [(0, 1134115457725366)]], 2, 3⟩,
    ⟨[[(2043572124999680, 0), (382969656990934, 0), (0, 2529845688), (14140, 0)], [(0, 44221916239922), (395205990,
    0), (0, 2958)], [(0, 19696401), (3343, 0)]], 2, 3⟩, 4503599627370496, 1361, 413325745, ⟨[[(367330129828219, 0),
    (73505770056, 0), (0, 532366), (141, 0)], [(0, 2842288910), (353434, 0), (0, 41)], [(0, 3726), (0, 4)]], 2, 3⟩,
    1099511627776, 13761, 50823202432985389738551013756150890841102299479713684582644486929769159472740048961130047,
    lc0⟩) (.sy (.leaf ⟨7850, 16, 78, 20504, 16, 18022, ⟨[[(0, 1744142101000192)], [(0, 1134115457725366)]], 2, 3⟩,
    ⟨[[(0, 817911815700480), (368912033539512, 0), (0, 1217283462), (3488, 0)], [(0, 85293000189638), (380562399, 0),
    (0, 1349)], [(0, 36391690), (3195, 0)]], 2, 3⟩, 4503599627370496, 1361, 63502260, ⟨[[(369008071233011, 0),
    (38008889611, 0), (0, 139905), (19, 0)], [(0, 2834240291), (181891, 0), (0, 10)], [(0, 3808), (0, 2)]], 2, 3⟩,
    1099511627776, 5389, 50846392328914295893985712662059278709913231742954128911607505778792680749758176735030895,
    lc0⟩) (.leaf ⟨7850, 16, 78, 20579, 16, 18063, ⟨[[(0, 1744142101000192)], [(0, 1134115457725366)]], 2, 3⟩,
    ⟨[[(751261037494272, 0), (368898560405814, 0), (0, 1216359904), (3537, 0)], [(0, 85353705222183), (380499627, 0),
    (0, 1301)], [(0, 35357676), (3179, 0)]], 2, 3⟩, 4503599627370496, 1361, 60543702, ⟨[[(370083196942620, 0),
    (37914762565, 0), (0, 137712), (18, 0)], [(0, 2829102720), (180921, 0), (0, 10)], [(0, 3861), (0, 2)]], 2, 3⟩,
    1099511627776, 5677, 50917907044044449690728442279568550174204482043408998916838322502234188134658524757631392,
    lc0⟩))) (.sx (.sy (.sy (.leaf ⟨15815, 16, 157, 21456, 16, 18806, ⟨[[(1446794574430208, 0)], [(0,
    1141385428608221)]], 2, 3⟩, ⟨[[(365945199738880, 0), (383175595282861, 0), (0, 1262465845), (3720, 0)], [(0,
    44361982045603), (197510588, 0), (0, 650)], [(0, 8913780), (821, 0)]], 2, 3⟩, 4503599627370496, 2109, 39418200,
    ⟨[[(371173914138854, 0), (36410329250, 0), (0, 125662), (16, 0)], [(0, 1402939415), (86059, 0), (0, 4)], [(0,
    964)]], 2, 3⟩, 1099511627776, 5235,
    50914911043193286012166135946950545988414682695804037740481955615844060105629731758718521, lc0⟩) (.leaf ⟨15815,
    16, 157, 21535, 16, 18849, ⟨[[(1446794574430208, 0)], [(0, 1141385428608221)]], 2, 3⟩, ⟨[[(0, 211170434367488),
    (383167355958164, 0), (0, 1261418475), (3764, 0)], [(0, 44394207856156), (197515393, 0), (0, 625)], [(0,
    8647004), (818, 0)]], 2, 3⟩, 4503599627370496, 2109, 35508376, ⟨[[(372261468521244, 0), (36319817411, 0), (0,
    123722), (15, 0)], [(0, 1400372274), (85621, 0), (0, 4)], [(0, 977)]], 2, 3⟩, 1099511627776, 3041,
    50853545659391231951267393059314031487635157855826462980854833382245659380911241814220826, lc0⟩)) (.leaf ⟨15815,
    16, 157, 11034, 16, 9638, ⟨[[(1446794574430208, 0)], [(0, 1141385428608221)]], 2, 3⟩, ⟨[[(901001214689280, 0),
    (390496224647448, 0), (0, 2567788774), (15582, 0)], [(0, 22647014978065), (201338496, 0), (0, 1203)], [(0,
    4203004), (828, 0)]], 2, 3⟩, 4503599627370496, 2109, 208066086, ⟨[[(373864817516276, 0), (71009331801, 0), (0,
    465776), (107, 0)], [(0, 1396599428), (166795, 0), (0, 14)], [(0, 997), (0, 1)]], 2, 3⟩, 1099511627776, 7022,
    50830751741920341101234636785618617506125939810969323626554917130009953012449654942310797, lc0⟩)) (.leaf ⟨15784,
    16, 157, 5545, 16, 4850, ⟨[[(1809360732717056, 0)], [(0, 1141385428608221)]], 2, 3⟩, ⟨[[(0, 1634382827024384),
    (393938967282476, 0), (0, 5185326372), (62293, 0)], [(0, 11414633318911), (203270988, 0), (0, 2531)], [(0,
    2188376), (840, 0)]], 2, 3⟩, 4503599627370496, 2371, 1910201037, ⟨[[(372851143700720, 0), (141128309579, 0), (0,
    1856761), (863, 0)], [(0, 1399024019), (332412, 0), (0, 58)], [(0, 991), (0, 2)]], 2, 3⟩, 1099511627776, 70569,
    50427005589538311098686968479580591379019318671228905945226906972289014341823436251358217, lc0⟩))) (.leaf ⟨7819,
    16, 78, 2745, 16, 2408, ⟨[[(0, 494639495008256)], [(0, 1134115457725366)]], 2, 3⟩, ⟨[[(157772666873856, 0),
    (393022258647509, 0), (0, 10363323414), (243163, 0)], [(0, 11370864535605), (406143482, 0), (0, 10946), (3, 0)],
    [(0, 4640908), (3386, 0)]], 2, 3⟩, 4503599627370496, 2606, 26333206865, ⟨[[(370622747332694, 0), (284341353805,
    0), (0, 7696405), (7459, 0)], [(0, 2826705136), (1356323, 0), (0, 526), (2, 0)], [(0, 3936), (0, 14)]], 2, 3⟩,
    1099511627776, 983452, 50670342097647759631601272498534648931327775986937762449771787002390220545284935424085209,
    lc0⟩)) (.leaf ⟨3886, 16, 39, 2717, 16, 2384, ⟨[[(1815707113830400, 0)], [(0, 1134115457725366)]], 2, 3⟩,
    ⟨[[(983607755978752, 0), (389178789158124, 0), (0, 10262026524), (241343, 0)], [(0, 22518431333558), (806649149,
    0), (0, 21869), (7, 0)], [(0, 18386508), (13454, 0), (0, 1)]], 2, 3⟩, 4503599627370496, 197, 26084775030,
    ⟨[[(370571477843343, 0), (287149476056, 0), (0, 7841559), (7611, 0)], [(0, 5654421845), (2744086, 0), (0, 1079),
    (5, 0)], [(0, 16026), (0, 59)]], 2, 3⟩, 1099511627776, 1026869,
    49245521287802779381808717387560710929295725468224203554048105166671567997555943282115369, lc0⟩)) (.leaf ⟨1871,
    16, 19, 2662, 16, 2336, ⟨[[(0, 338649581355008)], [(0, 1105035574193947)]], 2, 3⟩, ⟨[[(0, 1744780240769024),
    (381488061712938, 0), (0, 10059365366), (237682, 0)], [(0, 44143273507295), (1590497587, 0), (0, 43631), (13,
    0)], [(0, 72123025), (53080, 0), (0, 4)]], 2, 3⟩, 4503599627370496, 23, 25411290973, ⟨[[(370742367973044, 0),
    (292926981571, 0), (0, 8123146), (7874, 0)], [(0, 11605092671), (5761172, 0), (0, 2297), (11, 0)], [(0, 70060),
    (0, 263)]], 2, 3⟩, 1099511627776, 1298836,
    46442234310857071019889881300103494684967031348007654105614533447462670618666274497498997, lc0⟩))) (.leaf ⟨865,
    16, 9, 1303, 16, 1151, ⟨[[(0, 188799340628480)], [(0, 1046875807131107)]], 2, 3⟩, ⟨[[(941753255990272, 0),
    (379717925874835, 0), (0, 20084736787), (900168, 0)], [(0, 43805905429747), (3206987165, 0), (0, 208031), (120,
    0)], [(0, 161169596), (218501, 0), (0, 40)]], 2, 3⟩, 4503599627370496, 213, 1312586361724, ⟨[[(366136051465498,
    0), (594565506661, 0), (0, 34759617), (71176, 0)], [(0, 24701314331), (25170325, 0), (0, 24586), (197, 0)], [(0,
    314342), (0, 2414), (0, 8)]], 2, 3⟩, 1099511627776, 20077980,
    45629113012413835211347024238239388634958376273383614750969530881030314041702436528432484, lc0⟩)) (.leaf ⟨731,
    26, 8, 1251, 16, 1106, ⟨[[(176766285374464, 0)], [(0, 1861112546010857)]], 2, 3⟩, ⟨[[(0, 2041483400246272),
    (365443336625758, 0), (0, 19337384131), (886865, 0)], [(0, 84300147047060), (6319006238, 0), (0, 428557), (248,
    0)], [(0, 622462634), (863038, 0), (0, 160)]], 2, 3⟩, 4503599627370496, 201, 1265262523018, ⟨[[(366535254670447,
    0), (617712857585, 0), (0, 36754306), (72031, 0)], [(0, 27788173346), (29788781, 0), (0, 29829), (253, 0)], [(0,
    450028), (0, 3598), (0, 13)]], 2, 3⟩, 1099511627776, 30916943,
    35209216589948248942627120998205175689472396753238984960946777919861309801742059367102880, lc0⟩))
theorem c1 : checkC job ⟨6, 8, 5, 6, 9, 13⟩ 1 40 B1.zlims t1 221 61 160 2493 175 7584 = true := by decide +kernel

def t2 : CTree :=
  .sy (.sy (.sx (.sx (.sy (.sy (.leaf ⟨893, 16, 9, 4886, 16, 4252, ⟨[[(1429259562992640, 0)], [(0,
    1046875807131107)]], 2, 3⟩, ⟨[[(0, 202969556611072), (342345415791137, 0), (0, 4489331785), (56275, 0)], [(0,
    159163901470660), (2846755070, 0), (0, 30519), (5, 0)], [(0, 425787919), (185248, 0), (0, 6)]], 2, 3⟩,
    4503599627370496, 127, 1941231941, ⟨[[(377111037159226, 0), (160781948419, 0), (0, 2313979), (1095, 0)], [(0,
    24234955060), (6571786, 0), (0, 1034), (3, 0)], [(0, 331348), (0, 679), (0, 1)]], 2, 3⟩, 1099511627776, 1851491,
    50757929805323723749785694720497837979528886231488036480215940105236142285731730292358989, lc0⟩) (.leaf ⟨893, 16,
    9, 4956, 16, 4290, ⟨[[(1429259562992640, 0)], [(0, 1046875807131107)]], 2, 3⟩, ⟨[[(1536919587962880, 0),
    (342255306049831, 0), (0, 4469387694), (57541, 0)], [(0, 159584629468721), (2852500599, 0), (0, 25558), (5, 0)],
    [(0, 364873465), (183039, 0), (0, 5)]], 2, 3⟩, 4503599627370496, 127, 2429735377, ⟨[[(381306000868853, 0),
    (159240167705, 0), (0, 2194628), (923, 0)], [(0, 24064069625), (6467062, 0), (0, 753), (3, 0)], [(0, 349509), (0,
    706), (0, 1)]], 2, 3⟩, 1099511627776, 1923258,
    49287582666678277137134534134462940813946891199206007417013972225334793977410661738629739, lc0⟩)) (.leaf ⟨893,
    16, 9, 2716, 16, 2332, ⟨[[(1429259562992640, 0)], [(0, 1046875807131107)]], 2, 3⟩, ⟨[[(0, 1095864231421952),
    (367042853805794, 0), (0, 9520226749), (251589, 0)], [(0, 85937973619116), (3076118837, 0), (0, 40216), (18, 0)],
    [(0, 146792519), (194005, 0), (0, 8)]], 2, 3⟩, 4503599627370496, 127, 6619192500, ⟨[[(387738179942271, 0),
    (292623151028, 0), (0, 7092708), (4411, 0)], [(0, 23803720533), (11813778, 0), (0, 1252), (19, 0)], [(0, 379135),
    (0, 1399), (0, 2)]], 2, 3⟩, 1099511627776, 3018507,
    47463074708822161533678684008412617886242315907829975567791663853705470783868358406999661, lc0⟩)) (.leaf ⟨865,
    16, 9, 1382, 16, 1194, ⟨[[(0, 188799340628480)], [(0, 1046875807131107)]], 2, 3⟩, ⟨[[(0, 222875881037824),
    (379681975344740, 0), (0, 19780919621), (1038652, 0)], [(0, 44299669811092), (3215871944, 0), (0, 107903), (85,
    0)], [(0, 91989487), (205485, 0), (0, 21)]], 2, 3⟩, 4503599627370496, 213, 570877745736, ⟨[[(383486776055058, 0),
    (571344384513, 0), (0, 27770023), (36252, 0)], [(0, 23981879070), (23339690, 0), (0, 8034), (150, 0)], [(0,
    392479), (0, 2842), (0, 9)]], 2, 3⟩, 1099511627776, 16694664,
    42523400601612165856427286435643615832843019465906768764007435656675477187866256187414698, lc0⟩)) (.leaf ⟨731,
    26, 8, 1326, 16, 1147, ⟨[[(176766285374464, 0)], [(0, 1861112546010857)]], 2, 3⟩, ⟨[[(0, 800524856381440),
    (365308378999870, 0), (0, 19021911204), (1013257, 0)], [(0, 85176023053917), (6325020269, 0), (0, 221967), (175,
    0)], [(0, 348679548), (811169, 0), (0, 81)]], 2, 3⟩, 4503599627370496, 201, 571171738662, ⟨[[(383558436100091,
    0), (593810220659, 0), (0, 29905772), (35219, 0)], [(0, 26983558868), (27666211, 0), (0, 9689), (194, 0)], [(0,
    559805), (0, 4223), (0, 14)]], 2, 3⟩, 1099511627776, 29018277,
    32439115624718352588753345127843902540804285464696842134907189977038534443737981058802468, lc0⟩)) (.leaf ⟨756,
    52, 8, 1305, 16, 1105, ⟨[[(1114640907773952, 0)], [(0, 3722225092021715)]], 2, 3⟩, ⟨[[(983771834637312, 0),
    (339098516508998, 0), (0, 17303746238), (946653, 0)], [(0, 159869915750467), (11818416173, 0), (0, 118862), (237,
    0)], [(0, 310407078), (2931153, 0), (0, 101)]], 2, 3⟩, 4503599627370496, 250, 656095206736, ⟨[[(399863363982154,
    0), (615383065995, 0), (0, 30085153), (13960, 0)], [(0, 26229063311), (28356037, 0), (5231, 0), (182, 0)], [(0,
    636682), (0, 4883), (0, 17)]], 2, 3⟩, 1099511627776, 138707858,
    41684927243498897069513230063281234721642411980681796604150328157444760857347537421708949, lc0⟩)) (.sy (.leaf
    ⟨756, 52, 8, 1378, 16, 1144, ⟨[[(1114640907773952, 0)], [(0, 3722225092021715)]], 2, 3⟩, ⟨[[(406574221648896, 0),
    (338881069725192, 0), (0, 16910239775), (931175, 0)], [(0, 161235198868343), (12231779131, 0), (102454, 0), (188,
    0)], [(734973189, 0), (3020381, 0), (57, 0)]], 2, 3⟩, 4503599627370496, 250, 685945898445, ⟨[[(415857063102847,
    0), (592901434312, 0), (0, 28025583), (0, 11077)], [(0, 25484528121), (27992086, 0), (17165, 0), (140, 0)], [(0,
    775844), (0, 5638), (0, 19)]], 2, 3⟩, 1099511627776, 159788384,
    28086220918352282555321277954628803828231691710532021966604452083181701785055282213747695, lc0⟩) (.leaf ⟨756, 52,
    8, 1452, 16, 1183, ⟨[[(1114640907773952, 0)], [(0, 3722225092021715)]], 2, 3⟩, ⟨[[(0, 728681453470720),
    (338540441102045, 0), (0, 16503671836), (909991, 0)], [(0, 162283919784589), (12789277152, 0), (288656, 0), (156,
    0)], [(1866288433, 0), (3214137, 0), (197, 0)]], 2, 3⟩, 4503599627370496, 250, 761177290752, ⟨[[(431331255117989,
    0), (571902956950, 0), (0, 27783893), (0, 28469)], [(0, 24738912887), (28200847, 0), (25583, 0), (109, 0)], [(0,
    936504), (0, 6464), (0, 20)]], 2, 3⟩, 1099511627776, 184691341,
    32408508185319765444445439773682913800992361473654961709307063089734349606367020553544579, lc0⟩))
theorem c2 : checkC job ⟨6, 8, 5, 6, 9, 13⟩ 1 40 B1.zlims t2 221 61 160 1509 175 3792 = true := by decide +kernel

def t3 : CTree :=
  .sy (.sy (.sy (.sy (.sy (.leaf ⟨655, 52, 8, 2696, 16, 2605, ⟨[[(1866742045544960, 0)], [(0, 3722225092021715)]], 2,
    3⟩, ⟨[[(1699874212327424, 0), (242765979949196, 0), (0, 2141036750), (0, 310862)], [(0, 442706680526982),
    (13022872330, 0), (0, 1735292), (474, 0)], [(0, 22733481025), (7393582, 0), (0, 2107), (1, 0)]], 2, 3⟩,
    4503599627370496, 115, 1393111784276, ⟨[[(302692505407618, 0), (265785218470, 0), (0, 13005767), (14354, 0)],
    [(0, 31614951144), (19882331, 0), (0, 24501), (33, 0)], [(0, 230928), (0, 857), (0, 1)]], 2, 3⟩, 1099511627776,
    31182189, 49752121142342952486294205257662334692224830937452975105416459109635194533543718854852151, lc0⟩) (.leaf
    ⟨655, 52, 8, 2737, 16, 2626, ⟨[[(1866742045544960, 0)], [(0, 3722225092021715)]], 2, 3⟩, ⟨[[(321543921231872, 0),
    (243107637804537, 0), (0, 2442794040), (0, 231694)], [(0, 441876330923427), (12059298733, 0), (0, 1329071), (333,
    0)], [(0, 20542194809), (6183528, 0), (0, 1541)]], 2, 3⟩, 4503599627370496, 115, 1189522770053,
    ⟨[[(307767630324113, 0), (263181873196, 0), (0, 12012923), (13175, 0)], [(0, 31243676030), (18829534, 0), (0,
    22291), (31, 0)], [(0, 247831), (0, 905), (0, 1)]], 2, 3⟩, 1099511627776, 33331042,
    33494332101597931051190562679904458172391986675275149620246790351585594676009715835674205, lc0⟩)) (.sy (.leaf
    ⟨655, 52, 8, 2779, 16, 2648, ⟨[[(1866742045544960, 0)], [(0, 3722225092021715)]], 2, 3⟩, ⟨[[(0, 70217565147136),
    (243342633071834, 0), (0, 2673108754), (0, 168706)], [(0, 441473112800658), (11332352456, 0), (0, 1042370), (238,
    0)], [(0, 18704207628), (5297917, 0), (0, 1149)]], 2, 3⟩, 4503599627370496, 115, 1011244187979,
    ⟨[[(312740620219487, 0), (260558453337, 0), (0, 11101750), (12057, 0)], [(0, 30895343768), (17869523, 0), (0,
    20225), (29, 0)], [(0, 265498), (0, 955), (0, 2)]], 2, 3⟩, 1099511627776, 35555593,
    46444839787912626102162822788020044836851314411627094195757706263756347290750181763952976, lc0⟩) (.leaf ⟨655, 52,
    8, 2821, 16, 2670, ⟨[[(1866742045544960, 0)], [(0, 3722225092021715)]], 2, 3⟩, ⟨[[(299429604806656, 0),
    (243421784638184, 0), (0, 2845964330), (0, 118980)], [(0, 441260898210030), (10770275576, 0), (0, 835379), (175,
    0)], [(0, 17119234882), (4636182, 0), (0, 874)]], 2, 3⟩, 4503599627370496, 115, 859212621878,
    ⟨[[(317623776722444, 0), (258010866137, 0), (0, 10273644), (11010, 0)], [(0, 30567110689), (17000010, 0), (0,
    18308), (27, 0)], [(0, 283971), (0, 1007), (0, 2)]], 2, 3⟩, 1099511627776, 37914658,
    50539007385414070010738568428823507126042635243468815204951727390227130374458878465630125, lc0⟩))) (.sy (.sy (.sx
    (.leaf ⟨681, 26, 8, 3565, 16, 3348, ⟨[[(0, 1698982959425536)], [(0, 1861112546010857)]], 2, 3⟩, ⟨[[(0,
    1070430099965952), (302301082044012, 0), (0, 3672982269), (0, 104296)], [(0, 273759757131084), (6267521513, 0),
    (0, 399106), (75, 0)], [(0, 4822079824), (1254910, 0), (0, 205)]], 2, 3⟩, 4503599627370496, 46, 148065628720,
    ⟨[[(322524044826805, 0), (205748419583, 0), (0, 6362881), (5493, 0)], [(0, 30216200183), (12901601, 0), (0,
    10566), (13, 0)], [(0, 286111), (0, 803), (0, 1)]], 2, 3⟩, 1099511627776, 5237225,
    47337798627362395836674743063917566275829089168272472658638265574463050952748420759624214, lc0⟩) (.leaf ⟨630, 26,
    8, 3546, 16, 3337, ⟨[[(928867423144960, 0)], [(0, 1861112546010857)]], 2, 3⟩, ⟨[[(0, 1610168056541184),
    (302088897921428, 0), (0, 3712542587), (0, 94054)], [(0, 274049276625561), (6559473565, 0), (0, 449035), (87,
    0)], [(0, 4940251319), (1311782, 0), (0, 216)]], 2, 3⟩, 4503599627370496, 234, 149095619479, ⟨[[(322564565981686,
    0), (205850559384, 0), (0, 5972716), (4972, 0)], [(0, 30280459890), (13187677, 0), (0, 10822), (14, 0)], [(0,
    320382), (0, 904), (0, 1)]], 2, 3⟩, 1099511627776, 5150080,
    49061057723055334804034871066159023046861309885139529562161677779460712053959076114184562, lc0⟩)) (.leaf ⟨655,
    52, 8, 2908, 16, 2716, ⟨[[(1866742045544960, 0)], [(0, 3722225092021715)]], 2, 3⟩, ⟨[[(0, 748957675790336),
    (243424225925969, 0), (0, 3067783718), (0, 49732)], [(0, 441557648532831), (9982406303, 0), (0, 567580), (100,
    0)], [(0, 14481200743), (3745849, 0), (0, 535)]], 2, 3⟩, 4503599627370496, 115, 615057132613,
    ⟨[[(327349145043703, 0), (252922728438, 0), (0, 8804503), (9062, 0)], [(0, 29950027001), (15466088, 0), (0,
    14791), (24, 0)], [(0, 324340), (0, 1115), (0, 2)]], 2, 3⟩, 1099511627776, 42896774,
    50003791748534160073259813039382486319890633013854023406033357642162510094358895991492930, lc0⟩)) (.leaf ⟨655,
    52, 8, 1841, 16, 1703, ⟨[[(1866742045544960, 0)], [(0, 3722225092021715)]], 2, 3⟩, ⟨[[(0, 184855843191808),
    (301187793609515, 0), (0, 7820488673), (0, 82421)], [(0, 273671394925945), (11863231190, 0), (0, 1092677), (349,
    0)], [(0, 7929638374), (4101214, 0), (0, 958)]], 2, 3⟩, 4503599627370496, 115, 594290106656, ⟨[[(334446211393570,
    0), (402613591121, 0), (0, 20559278), (32712, 0)], [(0, 29526769125), (23430866, 0), (0, 32549), (93, 0)], [(0,
    357064), (0, 1939), (0, 5)]], 2, 3⟩, 1099511627776, 52064007,
    47467312329380282478772710092488486702112632477744411752000175158617026566116313483640011, lc0⟩))) (.sy (.leaf
    ⟨655, 52, 8, 1089, 16, 989, ⟨[[(1866742045544960, 0)], [(0, 3722225092021715)]], 2, 3⟩, ⟨[[(1035397107286016, 0),
    (340277487484868, 0), (0, 18090352351), (455484, 0)], [(0, 155464662296485), (12720601880, 0), (0, 1586760),
    (900, 0)], [(0, 3480869942), (3887214, 0), (0, 1236), (1, 0)]], 2, 3⟩, 4503599627370496, 115, 3020242600549,
    ⟨[[(348190427175891, 0), (691038014345, 0), (0, 52175819), (128171, 0)], [(0, 28759990553), (37058299, 0), (0,
    69568), (428, 0)], [(0, 429209), (0, 3941), (0, 16)]], 2, 3⟩, 1099511627776, 95193515,
    37595482494897249099313046061257711784910717327422978824380255746096352445910434661460063, lc0⟩) (.leaf ⟨655, 52,
    8, 1157, 16, 1026, ⟨[[(1866742045544960, 0)], [(0, 3722225092021715)]], 2, 3⟩, ⟨[[(0, 408725993015296),
    (340109872438700, 0), (0, 18016511592), (868157, 0)], [(0, 156829232460953), (12326585969, 0), (0, 908003), (534,
    0)], [(0, 2325508035), (3387472, 0), (0, 640)]], 2, 3⟩, 4503599627370496, 115, 1250358223101,
    ⟨[[(366314100673542, 0), (663697513923, 0), (0, 40891931), (71299, 0)], [(0, 27826800023), (33011379, 0), (0,
    35530), (329, 0)], [(0, 544768), (0, 4708), (0, 18)]], 2, 3⟩, 1099511627776, 104542807,
    18349704333030088596305993096034815415276467194760721209623627997033624121589203030010196, lc0⟩))) (.sy (.sy
    (.leaf ⟨655, 52, 8, 1226, 16, 1063, ⟨[[(1866742045544960, 0)], [(0, 3722225092021715)]], 2, 3⟩, ⟨[[(0,
    2178294095102976), (339653550329228, 0), (0, 17669031370), (970772, 0)], [(0, 158108895579184), (12289442268, 0),
    (0, 467151), (370, 0)], [(0, 1245927297), (3179598, 0), (0, 309)]], 2, 3⟩, 4503599627370496, 115, 727179944361,
    ⟨[[(383759667290509, 0), (638634444565, 0), (0, 34302410), (29049, 0)], [(0, 26976562528), (30685665, 0), (0,
    10617), (254, 0)], [(0, 682214), (0, 5564), (0, 20)]], 2, 3⟩, 1099511627776, 117794517,
    27805230963251830653260418194095034816348587350889957632239972151947242503822932443085783, lc0⟩) (.leaf ⟨655, 52,
    8, 1296, 16, 1101, ⟨[[(1866742045544960, 0)], [(0, 3722225092021715)]], 2, 3⟩, ⟨[[(800215181316096, 0),
    (339352241703055, 0), (0, 17256959604), (974610, 0)], [(0, 159350023671542), (12516483450, 0), (0, 140631), (280,
    0)], [(0, 166436724), (3157635, 0), (0, 81)]], 2, 3⟩, 4503599627370496, 115, 743926949991, ⟨[[(399876243999508,
    0), (614953679611, 0), (0, 30993726), (0, 748)], [(0, 26203968530), (29556355, 0), (6805, 0), (197, 0)], [(0,
    836606), (0, 6455), (0, 22)]], 2, 3⟩, 1099511627776, 134255048,
    39658429070709040519268331708214868533612803996147497034704147006069935513070883071290191, lc0⟩)) (.sy (.leaf
    ⟨655, 52, 8, 1368, 16, 1139, ⟨[[(1866742045544960, 0)], [(0, 3722225092021715)]], 2, 3⟩, ⟨[[(0,
    1255877164979200), (338931742720653, 0), (0, 16822822280), (952140, 0)], [(0, 160324090374266), (12944034352, 0),
    (121340, 0), (224, 0)], [(968990413, 0), (3276104, 0), (103, 0)]], 2, 3⟩, 4503599627370496, 115, 788265112364,
    ⟨[[(416064735474841, 0), (592839271518, 0), (0, 29941400), (0, 22932)], [(0, 25416648987), (29296004, 0), (19920,
    0), (154, 0)], [(0, 1023203), (0, 7479), (0, 25)]], 2, 3⟩, 1099511627776, 155590357,
    47167959923679587180218507899920605864266567478616780848743967590507984298832183889894398, lc0⟩) (.leaf ⟨655, 52,
    8, 1441, 16, 1178, ⟨[[(1866742045544960, 0)], [(0, 3722225092021715)]], 2, 3⟩, ⟨[[(1490021078919168, 0),
    (338712442074689, 0), (0, 16395604059), (926954, 0)], [(0, 161103383218582), (13554125915, 0), (343568, 0), (187,
    0)], [(2207954777, 0), (3520581, 0), (267, 0)]], 2, 3⟩, 4503599627370496, 115, 885243524884, ⟨[[(431039738692217,
    0), (571693354807, 0), (0, 30288577), (0, 37498)], [(0, 24660516481), (29573710, 0), (28847, 0), (122, 0)], [(0,
    1228898), (0, 8527), (0, 27)]], 2, 3⟩, 1099511627776, 180101971,
    47516818526769017376418982068286224021420922725090704854871193099705720645924013952968882, lc0⟩)))
theorem c3 : checkC job ⟨6, 8, 5, 6, 9, 13⟩ 1 40 B1.zlims t3 343 61 160 667 175 1896 = true := by decide +kernel

def t4 : CTree :=
  .sy (.sy (.sx (.leaf ⟨756, 52, 8, 836, 16, 664, ⟨[[(1114640907773952, 0)], [(0, 3722225092021715)]], 2, 3⟩,
    ⟨[[(2229143203362304, 0), (361403969803832, 0), (0, 33965988201), (3760459, 0)], [(0, 87262415300210),
    (14828517733, 0), (1127049, 0), (533, 0)], [(2034496411, 0), (3946367, 0), (838, 0)]], 2, 3⟩, 4503599627370496,
    250, 16421244754883, ⟨[[(452702422142725, 0), (1014940664089, 0), (0, 102336721), (0, 283385)], [(0,
    23641772877), (54421882, 0), (116538, 0), (512, 0)], [(0, 1208931), (0, 14517), (0, 79)]], 2, 3⟩, 1099511627776,
    360836373, 35557675235373519833393247121685634612206704041155579363669234772573983426372895105917537, lc0⟩) (.sy
    (.leaf ⟨655, 52, 8, 1517, 16, 1218, ⟨[[(1866742045544960, 0)], [(0, 3722225092021715)]], 2, 3⟩,
    ⟨[[(168564517634048, 0), (338692481839572, 0), (0, 15974973977), (904124, 0)], [(0, 161617320605289),
    (14329952056, 0), (541072, 0), (163, 0)], [(3596950799, 0), (3885738, 0), (423, 0)]], 2, 3⟩, 4503599627370496,
    115, 1041114916287, ⟨[[(445985524601518, 0), (551299903202, 0), (0, 31645577), (0, 47397)], [(0, 23864360817),
    (30296563, 0), (35434, 0), (98, 0)], [(0, 1471291), (0, 9697), (0, 29)]], 2, 3⟩, 1099511627776, 209980415,
    45041759348949673439745852712457744677215941671263719459821048606754355382989177622348500, lc0⟩) (.leaf ⟨655, 52,
    8, 1594, 16, 1258, ⟨[[(1866742045544960, 0)], [(0, 3722225092021715)]], 2, 3⟩, ⟨[[(0, 1782887815583744),
    (338602449816683, 0), (0, 15546307543), (882667, 0)], [(0, 161669351434692), (15250601353, 0), (723276, 0), (147,
    0)], [(5179203696, 0), (4369703, 0), (580, 0)]], 2, 3⟩, 4503599627370496, 115, 1256449316993,
    ⟨[[(460470905340931, 0), (532054577082, 0), (0, 33605991), (0, 53390)], [(0, 23040776906), (31330424, 0), (40158,
    0), (82, 0)], [(0, 1747326), (0, 10959), (0, 31)]], 2, 3⟩, 1099511627776, 244782069,
    39286182753849133902747079890919864639119805862856393778999452703706278393272957978147067, lc0⟩))) (.sx (.leaf
    ⟨756, 52, 8, 921, 16, 708, ⟨[[(1114640907773952, 0)], [(0, 3722225092021715)]], 2, 3⟩, ⟨[[(0, 336419420913664),
    (361422070816215, 0), (0, 32228597003), (3592437, 0)], [(0, 87341031775491), (16843105566, 0), (1725456, 0),
    (445, 0)], [(3772570432, 0), (5012576, 0), (1400, 0)]], 2, 3⟩, 4503599627370496, 250, 9312481795557,
    ⟨[[(480794263058124, 0), (945825617337, 0), (0, 115492295), (0, 333719)], [(0, 22030598991), (58153613, 0),
    (136970, 0), (365, 0)], [(0, 1679146), (0, 18377), (0, 92)]], 2, 3⟩, 1099511627776, 414574172,
    32821785924188778367142064547154662078609905504244795493684313339603894865845775156645895, lc0⟩) (.leaf ⟨655, 52,
    8, 913, 16, 704, ⟨[[(1866742045544960, 0)], [(0, 3722225092021715)]], 2, 3⟩, ⟨[[(1723231539983872, 0),
    (361500923870659, 0), (0, 31814746440), (3633709, 0)], [(0, 85869554271538), (18047907440, 0), (2098910, 0),
    (572, 0)], [(4282364245, 0), (5694729, 0), (1765, 0), (1, 0)]], 2, 3⟩, 4503599627370496, 115, 9638695192726,
    ⟨[[(480356170137322, 0), (945811816385, 0), (0, 128682800), (0, 372290)], [(0, 21806287206), (61960090, 0),
    (156410, 0), (437, 0)], [(0, 2204139), (0, 24130), (0, 119)]], 2, 3⟩, 1099511627776, 402045170,
    30541657106082445768211836409468064948511112764522382136561203726256836792684916471145937, lc0⟩))) (.sy (.sx
    (.leaf ⟨756, 52, 8, 1008, 16, 753, ⟨[[(1114640907773952, 0)], [(0, 3722225092021715)]], 2, 3⟩,
    ⟨[[(1959510713880064, 0), (361752012059347, 0), (0, 30487484079), (3399827, 0)], [(0, 86378246471274),
    (19363944260, 0), (2299220, 0), (420, 0)], [(6082084828, 0), (6557268, 0), (2016, 0), (1, 0)]], 2, 3⟩,
    4503599627370496, 250, 6717605122571, ⟨[[(506016033616105, 0), (882771826660, 0), (0, 128031171), (0, 325925)],
    [(0, 20369297660), (62305783, 0), (147017, 0), (312, 0)], [(0, 2243137), (0, 22585), (0, 106)]], 2, 3⟩,
    1099511627776, 499575727,
    44269502672470652998960135243610600178108167442829728846396953091386264071850595030065160, lc0⟩) (.leaf ⟨655, 52,
    8, 1001, 16, 749, ⟨[[(1866742045544960, 0)], [(0, 3722225092021715)]], 2, 3⟩, ⟨[[(0, 1028544030874624),
    (362282386878430, 0), (0, 30014100880), (3440995, 0)], [(0, 84338932816758), (20980364807, 0), (2841087, 0),
    (561, 0)], [(6934156927, 0), (7610089, 0), (2563, 0), (1, 0)]], 2, 3⟩, 4503599627370496, 115, 7211908029143,
    ⟨[[(506597980711480, 0), (881380175771, 0), (0, 143775136), (0, 364067)], [(0, 19949246042), (67387515, 0),
    (170783, 0), (381, 0)], [(0, 2976380), (0, 29705), (0, 133)]], 2, 3⟩, 1099511627776, 502301946,
    19416291174359607608039736786681639103493580654469042140792953777174842954083582455183212, lc0⟩)) (.sx (.leaf
    ⟨756, 52, 8, 1099, 16, 799, ⟨[[(1114640907773952, 0)], [(0, 3722225092021715)]], 2, 3⟩, ⟨[[(107914768564224, 0),
    (362478573931284, 0), (0, 28789735398), (3176871, 0)], [(0, 84145896153310), (22415697615, 0), (2897717, 0),
    (433, 0)], [(9174357867, 0), (8657258, 0), (2723, 0), (1, 0)]], 2, 3⟩, 4503599627370496, 250, 6122501900530,
    ⟨[[(530388338478948, 0), (824526957715, 0), (0, 138854703), (0, 294075)], [(0, 18521748590), (67112448, 0),
    (155396, 0), (308, 0)], [(0, 2958707), (0, 27646), (0, 124)]], 2, 3⟩, 1099511627776, 612057340,
    43066305387895100157388373346360155889892622656870916482155623729442471771496623964389191, lc0⟩) (.leaf ⟨655, 52,
    8, 1091, 16, 795, ⟨[[(1866742045544960, 0)], [(0, 3722225092021715)]], 2, 3⟩, ⟨[[(1286074338016256, 0),
    (363520805047629, 0), (0, 28249803068), (3223113, 0)], [(0, 81329696188119), (24597605578, 0), (3638511, 0),
    (598, 0)], [(10552288031, 0), (10257936, 0), (3526, 0), (1, 0)]], 2, 3⟩, 4503599627370496, 115, 6900405209351,
    ⟨[[(530172197674768, 0), (822333981777, 0), (0, 154929647), (0, 331849)], [(0, 18007369082), (72950799, 0),
    (180965, 0), (375, 0)], [(0, 3877853), (0, 35483), (0, 145)]], 2, 3⟩, 1099511627776, 635242402,
    27018871863740442309233854420377014859575832791183675797985085460178234414422601342791319, lc0⟩)))
theorem c4 : checkC job ⟨6, 8, 5, 6, 9, 13⟩ 1 40 B1.zlims t4 141 61 80 1017 175 1896 = true := by decide +kernel

def t5 : CTree :=
  .sy (.sy (.sy (.leaf ⟨555, 52, 8, 1661, 16, 1606, ⟨[[(0, 1884756444054528)], [(0, 3722225092021715)]], 2, 3⟩,
    ⟨[[(0, 1170146506851328), (300377250376873, 0), (0, 6175321009), (0, 1043481)], [(0, 274904550219574),
    (17479766981, 0), (0, 4842912), (2623, 0)], [(0, 14192420464), (9127103, 0), (0, 4812), (3, 0)]], 2, 3⟩,
    4503599627370496, 28, 2018098833992, ⟨[[(305379890572125, 0), (427936253963, 0), (0, 27969559), (47492, 0)], [(0,
    31598696701), (32704904, 0), (0, 64081), (142, 0)], [(0, 289359), (0, 1742), (0, 5)]], 2, 3⟩, 1099511627776,
    36080209, 48985386889168937664821339148950724199194030701992199493800910498549905780702209845648170, lc0⟩) (.sy
    (.leaf ⟨555, 52, 8, 2745, 16, 2627, ⟨[[(0, 1884756444054528)], [(0, 3722225092021715)]], 2, 3⟩,
    ⟨[[(83727239051264, 0), (242865234687319, 0), (0, 2795603577), (0, 133691)], [(0, 442644843257691), (12590208009,
    0), (0, 1326364), (317, 0)], [(0, 19764369701), (5804290, 0), (0, 1259)]], 2, 3⟩, 4503599627370496, 28,
    1079060330787, ⟨[[(312706119918225, 0), (261054792996, 0), (0, 9585406), (9792, 0)], [(0, 31056298790),
    (18726295, 0), (0, 21290), (31, 0)], [(0, 320641), (0, 1168), (0, 2)]], 2, 3⟩, 1099511627776, 33787219,
    46299876405009874122033262825879755202386038085983714748933733812471057033871696524749794, lc0⟩) (.sy (.leaf
    ⟨555, 52, 8, 4005, 16, 3813, ⟨[[(0, 1884756444054528)], [(0, 3722225092021715)]], 2, 3⟩, ⟨[[(0, 973758366996480),
    (175171696139755, 0), (0, 1047998155), (0, 18526)], [(0, 637811590504722), (8675539377, 0), (0, 401209), (45,
    0)], [(0, 26593353858), (3779540, 0), (0, 371)]], 2, 3⟩, 4503599627370496, 28, 1154826199650,
    ⟨[[(316432080469960, 0), (179671445749, 0), (0, 4356144), (3028, 0)], [(0, 30793137707), (12495623, 0), (0,
    9486), (10, 0)], [(0, 337718), (0, 843), (0, 1)]], 2, 3⟩, 1099511627776, 34374935,
    47555011158315591883064156732434967616046993498296461706684629877322338583445025804335150, lc0⟩) (.leaf ⟨555, 52,
    8, 4037, 16, 3831, ⟨[[(0, 1884756444054528)], [(0, 3722225092021715)]], 2, 3⟩, ⟨[[(1522963741779968, 0),
    (175255146261313, 0), (0, 1070703727), (0, 15276)], [(0, 637819251253370), (8450049166, 0), (0, 359318), (39,
    0)], [(0, 25433531626), (3552943, 0), (0, 327)]], 2, 3⟩, 4503599627370496, 28, 1065378369861,
    ⟨[[(318772844698845, 0), (178715768532, 0), (0, 4200130), (2879, 0)], [(0, 30631882815), (12195786, 0), (0,
    9019), (10, 0)], [(0, 348870), (0, 864), (0, 1)]], 2, 3⟩, 1099511627776, 35541487,
    49214169290324102717409674775066376876083615938505720586730592691813720226828884018613203, lc0⟩)))) (.sy (.sy
    (.leaf ⟨555, 52, 8, 2832, 16, 2674, ⟨[[(0, 1884756444054528)], [(0, 3722225092021715)]], 2, 3⟩,
    ⟨[[(1062575593336832, 0), (243067399281742, 0), (0, 3046735779), (0, 61129)], [(0, 442160484870801),
    (11310664693, 0), (0, 851787), (172, 0)], [(0, 16509382669), (4524256, 0), (0, 754)]], 2, 3⟩, 4503599627370496,
    28, 766897635991, ⟨[[(322410539142143, 0), (255803371583, 0), (0, 8270554), (7978, 0)], [(0, 30387185088),
    (16963293, 0), (0, 17332), (27, 0)], [(0, 366873), (0, 1295), (0, 2)]], 2, 3⟩, 1099511627776, 38462487,
    50494801015058813438267785273592163234877683998479826282563145506270018340162157803514685, lc0⟩) (.sx (.leaf
    ⟨580, 26, 8, 3582, 16, 3356, ⟨[[(0, 946881821654528)], [(0, 1861112546010857)]], 2, 3⟩, ⟨[[(0, 366205800341504),
    (301953168747358, 0), (0, 3860548682), (0, 48813)], [(0, 274472517939210), (6606173252, 0), (0, 413880), (76,
    0)], [(0, 4649437739), (1242303, 0), (0, 181)]], 2, 3⟩, 4503599627370496, 148, 123355999296, ⟨[[(327302099653665,
    0), (203860348241, 0), (0, 5178745), (3990, 0)], [(0, 30040223333), (12883930, 0), (0, 9944), (13, 0)], [(0,
    375952), (0, 1050), (0, 1)]], 2, 3⟩, 1099511627776, 5361095,
    49207132544698307459602146330463045869917876263590775303896167801987445718802706060557669, lc0⟩) (.leaf ⟨529, 26,
    8, 3564, 16, 3346, ⟨[[(1680968560915968, 0)], [(0, 1861112546010857)]], 2, 3⟩, ⟨[[(0, 824598183485440),
    (301875713825390, 0), (0, 3902121417), (0, 38793)], [(0, 274800496446805), (6896107524, 0), (0, 457910), (86,
    0)], [(0, 4757100010), (1299883, 0), (0, 191)]], 2, 3⟩, 4503599627370496, 99, 123223950358, ⟨[[(327339669592677,
    0), (203877189264, 0), (0, 4777657), (3438, 0)], [(0, 30095781648), (13182463, 0), (0, 10158), (14, 0)], [(0,
    409360), (0, 1149), (0, 1)]], 2, 3⟩, 1099511627776, 5287244,
    49096429904396020328637631543918654416246250904057460446756638460887612551601097852332882, lc0⟩))) (.sy (.leaf
    ⟨555, 52, 8, 2921, 16, 2722, ⟨[[(0, 1884756444054528)], [(0, 3722225092021715)]], 2, 3⟩, ⟨[[(872229366814720, 0),
    (243023182053392, 0), (0, 3178485702), (0, 15151)], [(0, 442410585236394), (10514183372, 0), (0, 586139), (102,
    0)], [(0, 13904190731), (3750736, 0), (0, 482)]], 2, 3⟩, 4503599627370496, 28, 531458851130, ⟨[[(331989595076735,
    0), (250714602962, 0), (0, 7184229), (6367, 0)], [(0, 29774161256), (15498271, 0), (0, 13857), (24, 0)], [(0,
    418440), (0, 1433), (0, 2)]], 2, 3⟩, 1099511627776, 43706205,
    49115068932889104406232881824043488516190860009562709694528942867371640016431861785639163, lc0⟩) (.leaf ⟨555, 52,
    8, 2967, 16, 2747, ⟨[[(0, 1884756444054528)], [(0, 3722225092021715)]], 2, 3⟩, ⟨[[(0, 18210303821824),
    (243006294241072, 0), (0, 3215019686), (584, 0)], [(0, 442828433377316), (10231458667, 0), (0, 495955), (81, 0)],
    [(0, 12762620410), (3478605, 0), (0, 394)]], 2, 3⟩, 4503599627370496, 28, 434610037719, ⟨[[(336750074665874, 0),
    (248169027178, 0), (0, 6714107), (5627, 0)], [(0, 29484564514), (14861194, 0), (0, 12274), (23, 0)], [(0,
    446466), (0, 1505), (0, 2)]], 2, 3⟩, 1099511627776, 46569799,
    45652697761060102342155316857462320765585016186488223539254673725443794971725899168162709, lc0⟩)))) (.sy (.leaf
    ⟨555, 52, 8, 1080, 16, 984, ⟨[[(0, 1884756444054528)], [(0, 3722225092021715)]], 2, 3⟩, ⟨[[(0, 2155182785212416),
    (340160436114234, 0), (0, 18210576772), (575682, 0)], [(0, 155537241193258), (13640385685, 0), (0, 1897978),
    (1118, 0)], [(0, 3573427331), (4205314, 0), (0, 1390), (1, 0)]], 2, 3⟩, 4503599627370496, 28, 2849522091917,
    ⟨[[(348647302193070, 0), (691105393719, 0), (0, 46794109), (92238, 0)], [(0, 28797047882), (38623936, 0), (0,
    71251), (452, 0)], [(0, 524191), (0, 4854), (0, 20)]], 2, 3⟩, 1099511627776, 90283258,
    45161803296251653900562476731636671927572753881815904297827683071898611174750312287745578, lc0⟩) (.leaf ⟨555, 52,
    8, 1147, 16, 1021, ⟨[[(0, 1884756444054528)], [(0, 3722225092021715)]], 2, 3⟩, ⟨[[(161734165630976, 0),
    (340000418366907, 0), (0, 18048756398), (935301, 0)], [(0, 156630827948817), (13121639353, 0), (0, 1067089),
    (642, 0)], [(0, 2321462422), (3643478, 0), (0, 704)]], 2, 3⟩, 4503599627370496, 28, 1200263245498,
    ⟨[[(366195868737648, 0), (663911980648, 0), (0, 38449310), (44508, 0)], [(0, 27853591991), (34539336, 0), (0,
    36251), (352, 0)], [(0, 661585), (0, 5768), (0, 23)]], 2, 3⟩, 1099511627776, 99490209,
    33701140828385701690613545383184394185299774751145017914285103510814876787923889247189858, lc0⟩))
theorem c5 : checkC job ⟨6, 8, 5, 6, 9, 13⟩ 1 40 B1.zlims t5 465 61 160 1159 175 3792 = true := by decide +kernel

def t6 : CTree :=
  .sy (.sy (.leaf ⟨555, 52, 8, 1217, 16, 1059, ⟨[[(0, 1884756444054528)], [(0, 3722225092021715)]], 2, 3⟩, ⟨[[(0,
    1649205120568320), (339917504463010, 0), (0, 17663970703), (1016182, 0)], [(0, 157806928110026), (13046692873,
    0), (0, 542074), (438, 0)], [(0, 1155707543), (3423626, 0), (0, 320)]], 2, 3⟩, 4503599627370496, 28,
    818055117595, ⟨[[(383650993719529, 0), (638201859627, 0), (0, 33790232), (8084, 0)], [(0, 26963079505),
    (32133320, 0), (0, 9599), (273, 0)], [(0, 830166), (0, 6822), (0, 25)]], 2, 3⟩, 1099511627776, 112697525,
    42372850725307782319778021023600856418509286193390243379242882325486708278602640567840568, lc0⟩) (.sx (.leaf
    ⟨580, 26, 8, 1387, 16, 1181, ⟨[[(0, 946881821654528)], [(0, 1861112546010857)]], 2, 3⟩, ⟨[[(0, 511094913311744),
    (365267405770511, 0), (0, 18525343027), (1074692, 0)], [(0, 85474292102968), (7032573842, 0), (0, 82417), (170,
    0)], [(0, 8984227), (900592, 0), (0, 16)]], 2, 3⟩, 4503599627370496, 148, 484233816527, ⟨[[(400026172573978, 0),
    (571368485223, 0), (0, 27385604), (0, 10663)], [(0, 26156545373), (28492683, 0), (7532, 0), (169, 0)], [(0,
    978104), (0, 7053), (0, 23)]], 2, 3⟩, 1099511627776, 26008959,
    43583668180681596853417853479190875014323136517041615019174899741292343679105819483495997, lc0⟩) (.leaf ⟨529, 26,
    8, 1381, 16, 1178, ⟨[[(1680968560915968, 0)], [(0, 1861112546010857)]], 2, 3⟩, ⟨[[(242957742917632, 0),
    (365208900901193, 0), (0, 18488536803), (1093559, 0)], [(0, 85256101871478), (7238589783, 0), (0, 85690), (184,
    0)], [(18173662, 0), (937210, 0), (0, 12)]], 2, 3⟩, 4503599627370496, 99, 499269380273, ⟨[[(399942281299929, 0),
    (571485894668, 0), (0, 27834293), (0, 17915)], [(0, 26123790833), (29280197, 0), (8743, 0), (177, 0)], [(0,
    1067869), (0, 7735), (0, 25)]], 2, 3⟩, 1099511627776, 25275313,
    48127455980475499543737035922017285218155485302804813774834630923904416232890543260033861, lc0⟩))) (.sy (.sx
    (.leaf ⟨580, 26, 8, 1465, 16, 1223, ⟨[[(0, 946881821654528)], [(0, 1861112546010857)]], 2, 3⟩,
    ⟨[[(421546924154880, 0), (365229434056551, 0), (0, 18050512856), (1045831, 0)], [(0, 85968469032999),
    (7282283629, 0), (77353, 0), (137, 0)], [(317464649, 0), (941175, 0), (39, 0)]], 2, 3⟩, 4503599627370496, 148,
    389890204663, ⟨[[(415825637465197, 0), (550244720464, 0), (0, 27078092), (0, 25976)], [(0, 25358363882),
    (28275507, 0), (19256, 0), (133, 0)], [(0, 1191915), (0, 8138), (0, 25)]], 2, 3⟩, 1099511627776, 26523085,
    48456637494641727405256898336446927206076439309547311534476280538248808731939268417765445, lc0⟩) (.leaf ⟨529, 26,
    8, 1459, 16, 1220, ⟨[[(1680968560915968, 0)], [(0, 1861112546010857)]], 2, 3⟩, ⟨[[(800370590147584, 0),
    (365233984428019, 0), (0, 17996195014), (1060642, 0)], [(0, 85675160596881), (7498925463, 0), (87793, 0), (149,
    0)], [(359620541, 0), (983855, 0), (48, 0)]], 2, 3⟩, 4503599627370496, 99, 402702636208, ⟨[[(415791714325828, 0),
    (550265645425, 0), (0, 28031524), (0, 31871)], [(0, 25300204421), (29119888, 0), (21051, 0), (140, 0)], [(0,
    1303219), (0, 8936), (0, 28)]], 2, 3⟩, 1099511627776, 25990738,
    50707453555631660650767747060941743800336717271966677549806879264267004231246289969862098, lc0⟩)) (.sx (.leaf
    ⟨580, 26, 8, 1544, 16, 1265, ⟨[[(0, 946881821654528)], [(0, 1861112546010857)]], 2, 3⟩, ⟨[[(1209696851215360, 0),
    (365091959485336, 0), (0, 17570137847), (1015124, 0)], [(0, 86268901414742), (7636808855, 0), (213833, 0), (115,
    0)], [(676124059, 0), (1019347, 0), (89, 0)]], 2, 3⟩, 4503599627370496, 148, 332401704790, ⟨[[(431066177402339,
    0), (530454562045, 0), (0, 27898332), (0, 36453)], [(0, 24556526819), (28654357, 0), (27734, 0), (107, 0)], [(0,
    1437879), (0, 9316), (0, 27)]], 2, 3⟩, 1099511627776, 28060769,
    46670566316005432532566075664775624978757900245866825344876925609007678651559307585678950, lc0⟩) (.leaf ⟨529, 26,
    8, 1538, 16, 1262, ⟨[[(1680968560915968, 0)], [(0, 1861112546010857)]], 2, 3⟩, ⟨[[(1248269312303104, 0),
    (365171010793440, 0), (0, 17501053958), (1027417, 0)], [(0, 85892273961305), (7873386812, 0), (236657, 0), (126,
    0)], [(736524642, 0), (1071406, 0), (102, 0)]], 2, 3⟩, 4503599627370496, 99, 345103733380, ⟨[[(431074672826077,
    0), (530362902152, 0), (0, 29232563), (0, 41347)], [(0, 24471025920), (29586019, 0), (30017, 0), (113, 0)], [(0,
    1574253), (0, 10242), (0, 30)]], 2, 3⟩, 1099511627776, 27480944,
    48760598210887700880901139551138573925182166896589480726419441451011831141768607924098232, lc0⟩)))
theorem c6 : checkC job ⟨6, 8, 5, 6, 9, 13⟩ 1 40 B1.zlims t6 465 61 160 1509 175 3792 = true := by decide +kernel

def t7 : CTree :=
  .sy (.sy (.sy (.leaf ⟨454, 52, 8, 1638, 16, 1591, ⟨[[(0, 1132655306283776)], [(0, 3722225092021715)]], 2, 3⟩,
    ⟨[[(0, 883249955211264), (299823584210156, 0), (0, 6776143814), (0, 673601)], [(0, 275890540995158),
    (19638557370, 0), (0, 6016477), (3313, 0)], [(0, 15083862087), (10012980, 0), (0, 5236), (3, 0)]], 2, 3⟩,
    4503599627370496, 100, 1800307278173, ⟨[[(305358197773308, 0), (428951901537, 0), (0, 22741743), (35841, 0)],
    [(0, 31787876160), (34392196, 0), (0, 67571), (151, 0)], [(0, 334318), (0, 2041), (0, 6)]], 2, 3⟩, 1099511627776,
    34379579, 43433919558757284781013081152949218442415853197402650704799696147860340304500224174898311, lc0⟩) (.sy
    (.leaf ⟨454, 52, 8, 2709, 16, 2604, ⟨[[(0, 1132655306283776)], [(0, 3722225092021715)]], 2, 3⟩,
    ⟨[[(149231792830464, 0), (242350075125770, 0), (0, 2950765677), (0, 89094)], [(0, 443706847368330), (13958164419,
    0), (0, 1635798), (399, 0)], [(0, 20897702147), (6375993, 0), (0, 1387)]], 2, 3⟩, 4503599627370496, 100,
    1141036396446, ⟨[[(312709590876545, 0), (261624265371, 0), (0, 7840804), (7232, 0)], [(0, 31217069109),
    (19676716, 0), (0, 22397), (33, 0)], [(0, 371026), (0, 1370), (0, 2)]], 2, 3⟩, 1099511627776, 32484387,
    43768272666783516371693350901369209011450046183159800646051062814844191737166534332342869, lc0⟩) (.leaf ⟨454, 52,
    8, 2754, 16, 2629, ⟨[[(0, 1132655306283776)], [(0, 3722225092021715)]], 2, 3⟩, ⟨[[(0, 113008007319552),
    (242562017780333, 0), (0, 3058056171), (0, 61161)], [(0, 443220824567782), (13069086056, 0), (0, 1291280), (290,
    0)], [(0, 19002317162), (5578302, 0), (0, 1072)]], 2, 3⟩, 4503599627370496, 100, 959221008412,
    ⟨[[(317628365107017, 0), (258851594987, 0), (0, 7309296), (6421, 0)], [(0, 30854633019), (18689065, 0), (0,
    20188), (31, 0)], [(0, 397611), (0, 1444), (0, 2)]], 2, 3⟩, 1099511627776, 34727252,
    49683808536150678753417023246825092780132296470148295028722809484482349911257213620406382, lc0⟩))) (.sy (.sx
    (.leaf ⟨479, 26, 8, 1995, 16, 1883, ⟨[[(0, 194780683883776)], [(0, 1861112546010857)]], 2, 3⟩, ⟨[[(0,
    1146377452196864), (342294162100704, 0), (0, 8875999704), (0, 182463)], [(0, 156029087075525), (8337351551, 0),
    (0, 1261467), (500, 0)], [(0, 2885562367), (1621135, 0), (0, 514)]], 2, 3⟩, 4503599627370496, 31, 421503960722,
    ⟨[[(324984533107855, 0), (361397135476, 0), (0, 14010179), (16771, 0)], [(0, 30309042241), (24340322, 0), (0,
    34095), (79, 0)], [(0, 426224), (0, 2137), (0, 5)]], 2, 3⟩, 1099511627776, 7021123,
    50540495999095486628761783825325820369952698508119148486489513797508125708274306613872128, lc0⟩) (.leaf ⟨429, 26,
    8, 1983, 16, 1876, ⟨[[(0, 2070529928683520)], [(0, 1861112546010857)]], 2, 3⟩, ⟨[[(492814687642624, 0),
    (342059511572808, 0), (0, 9004108974), (0, 117518)], [(0, 156160112139572), (8710414653, 0), (0, 1385600), (556,
    0)], [(0, 2953904539), (1697601, 0), (0, 544)]], 2, 3⟩, 4503599627370496, 95, 381208050033, ⟨[[(324841553845611,
    0), (361633145953, 0), (0, 12591539), (13473, 0)], [(0, 30378241710), (24970546, 0), (0, 34958), (82, 0)], [(0,
    453776), (0, 2288), (0, 5)]], 2, 3⟩, 1099511627776, 6826934,
    49553817715463163403894201479252754960074036405089925331799336266350257928487160355767033, lc0⟩)) (.leaf ⟨454,
    52, 8, 1804, 16, 1682, ⟨[[(0, 1132655306283776)], [(0, 3722225092021715)]], 2, 3⟩, ⟨[[(0, 2221856185204736),
    (300589250367148, 0), (0, 8048626200), (27528, 0)], [(0, 274297050873562), (13886473988, 0), (0, 1602987), (556,
    0)], [(0, 8572742559), (4873008, 0), (0, 1213)]], 2, 3⟩, 4503599627370496, 100, 558859475618,
    ⟨[[(334602063299774, 0), (403205338693, 0), (0, 15261099), (16709, 0)], [(0, 29705594868), (25666379, 0), (0,
    35303), (105, 0)], [(0, 503309), (0, 2790), (0, 7)]], 2, 3⟩, 1099511627776, 47606120,
    48453334892269215164713578548599224084107004212973424701539573207984854432970783311223677, lc0⟩))) (.sy (.leaf
    ⟨454, 52, 8, 1070, 16, 979, ⟨[[(0, 1132655306283776)], [(0, 3722225092021715)]], 2, 3⟩, ⟨[[(0, 755681127362560),
    (340151737024032, 0), (0, 18369877655), (723569, 0)], [(0, 155627390127526), (14636956297, 0), (0, 2247440),
    (1366, 0)], [(0, 3661090082), (4559468, 0), (0, 1564), (1, 0)]], 2, 3⟩, 4503599627370496, 100, 2660694423265,
    ⟨[[(348432863669414, 0), (691026874298, 0), (0, 40905372), (53602, 0)], [(0, 28861577446), (40547220, 0), (0,
    73861), (481, 0)], [(0, 607779), (0, 5681), (0, 24)]], 2, 3⟩, 1099511627776, 84748486,
    45763301508362189516319604580409756977743308230806118962925833251645261189345030915019365, lc0⟩) (.leaf ⟨454, 52,
    8, 1137, 16, 1016, ⟨[[(0, 1132655306283776)], [(0, 3722225092021715)]], 2, 3⟩, ⟨[[(850288958731264, 0),
    (339983809940095, 0), (0, 18100696712), (1016225, 0)], [(0, 156426679271891), (13978357055, 0), (0, 1241531),
    (766, 0)], [(0, 2300979850), (3928858, 0), (0, 773), (1, 0)]], 2, 3⟩, 4503599627370496, 100, 1169044987520,
    ⟨[[(366092605039291, 0), (663921099802, 0), (0, 35527918), (13914, 0)], [(0, 27864400719), (36300503, 0), (0,
    36417), (378, 0)], [(0, 769864), (0, 6772), (0, 27)]], 2, 3⟩, 1099511627776, 94266120,
    41830692375438729014028821447346935373477459910131637218371518923529040059073137119030526, lc0⟩))
theorem c7 : checkC job ⟨6, 8, 5, 6, 9, 13⟩ 1 40 B1.zlims t7 587 61 160 1159 175 3792 = true := by decide +kernel

def t8 : CTree :=
  .sy (.sy (.leaf ⟨454, 52, 8, 1207, 16, 1054, ⟨[[(0, 1132655306283776)], [(0, 3722225092021715)]], 2, 3⟩, ⟨[[(0,
    1661186118128640), (339948887730649, 0), (0, 17651176565), (1069276, 0)], [(0, 157329272436232), (13850883698,
    0), (0, 618283), (516, 0)], [(0, 1036798740), (3694888, 0), (0, 327)]], 2, 3⟩, 4503599627370496, 100,
    919617969717, ⟨[[(383650993834842, 0), (638176943379, 0), (0, 33177506), (0, 16161)], [(0, 26921778931),
    (33865350, 0), (0, 7741), (296, 0)], [(0, 969242), (0, 8032), (0, 30)]], 2, 3⟩, 1099511627776, 107563841,
    48630751773682665001832988300664411241555657134655243621534534050888511327184231672325072, lc0⟩) (.sy (.leaf
    ⟨454, 52, 8, 2221, 16, 1909, ⟨[[(0, 1132655306283776)], [(0, 3722225092021715)]], 2, 3⟩, ⟨[[(0, 669528364939264),
    (299662782789748, 0), (0, 7617988489), (232642, 0)], [(0, 278430152339430), (12337954651, 0), (0, 117964), (91,
    0)], [(0, 151136846), (3251014, 0), (0, 38)]], 2, 3⟩, 4503599627370496, 100, 454739404979, ⟨[[(395931045907406,
    0), (351631692137, 0), (0, 10566546), (0, 5905)], [(0, 26270272961), (18709474, 0), (2617, 0), (45, 0)], [(0,
    1135565), (0, 5115), (0, 10)]], 2, 3⟩, 1099511627776, 100122092,
    49971735639594096349463684070134866849034055971671780607313213883449947785273329131845792, lc0⟩) (.sx (.leaf
    ⟨479, 26, 8, 2607, 16, 2216, ⟨[[(0, 194780683883776)], [(0, 1861112546010857)]], 2, 3⟩, ⟨[[(0, 210325218824192),
    (341330145952967, 0), (0, 8563188986), (258275, 0)], [(0, 159135856885063), (7017997812, 0), (0, 17508), (44,
    0)], [(251737658, 0), (920874, 0), (5, 0)]], 2, 3⟩, 4503599627370496, 31, 86046194670, ⟨[[(404010170256328, 0),
    (302859238633, 0), (0, 8124208), (0, 4485)], [(0, 25865486197), (16061948, 0), (3959, 0), (27, 0)], [(0,
    1214772), (0, 4661), (0, 8)]], 2, 3⟩, 1099511627776, 14445783,
    48811820045751455141790837847378303472852692080128572993050644693677719415820573544233119, lc0⟩) (.leaf ⟨429, 26,
    8, 2598, 16, 2212, ⟨[[(0, 2070529928683520)], [(0, 1861112546010857)]], 2, 3⟩, ⟨[[(0, 245934126364672),
    (341582567044789, 0), (0, 8549777940), (263396, 0)], [(0, 158778950876128), (7234779306, 0), (0, 15928), (48,
    0)], [(320742759, 0), (962018, 0), (8, 0)]], 2, 3⟩, 4503599627370496, 95, 93797094802, ⟨[[(404000772433260, 0),
    (302661921868, 0), (0, 8298687), (0, 5678)], [(0, 25809676851), (16539074, 0), (4459, 0), (28, 0)], [(0,
    1301865), (0, 5013), (0, 9)]], 2, 3⟩, 1099511627776, 14208919,
    49363987469422611714214603088902357217030015139903616164362858171987617904020630934438454, lc0⟩)))) (.sy (.sx
    (.sy (.leaf ⟨479, 26, 8, 2680, 16, 2255, ⟨[[(0, 194780683883776)], [(0, 1861112546010857)]], 2, 3⟩, ⟨[[(0,
    1833936171802624), (341333065734645, 0), (0, 8442663516), (253830, 0)], [(0, 159437327045415), (7144818614, 0),
    (26357, 0), (40, 0)], [(585366527, 0), (945812, 0), (20, 0)]], 2, 3⟩, 4503599627370496, 31, 101489100976,
    ⟨[[(412075407428018, 0), (297185507962, 0), (0, 8241187), (0, 5460)], [(0, 25434129830), (16046454, 0), (5829,
    0), (24, 0)], [(0, 1344882), (0, 5021), (0, 8)]], 2, 3⟩, 1099511627776, 15836448,
    49545481635479483503043678168895604877612197794399922467525558484679994890308588756846672, lc0⟩) (.leaf ⟨479, 26,
    8, 2751, 16, 2293, ⟨[[(0, 194780683883776)], [(0, 1861112546010857)]], 2, 3⟩, ⟨[[(2209605757593600, 0),
    (341169324058904, 0), (0, 8318600478), (249270, 0)], [(0, 159576288862873), (7298224541, 0), (66772, 0), (36,
    0)], [(934900962, 0), (980850, 0), (34, 0)]], 2, 3⟩, 4503599627370496, 31, 117660941941, ⟨[[(419621459213742, 0),
    (291837526444, 0), (0, 8413029), (0, 6223)], [(0, 25022239936), (16116570, 0), (7353, 0), (22, 0)], [(0,
    1478051), (0, 5376), (0, 9)]], 2, 3⟩, 1099511627776, 17211963,
    48692198545132853638143031919455579671739770869544411259869705454793372209718640550101445, lc0⟩)) (.leaf ⟨429,
    26, 8, 1447, 16, 1214, ⟨[[(0, 2070529928683520)], [(0, 1861112546010857)]], 2, 3⟩, ⟨[[(1745689179568128, 0),
    (365318690164437, 0), (0, 17883125211), (1094770, 0)], [(0, 85056007595156), (7963619538, 0), (115718, 0), (175,
    0)], [(455668143, 0), (1079109, 0), (69, 0)]], 2, 3⟩, 4503599627370496, 95, 430656647465, ⟨[[(415653790836932,
    0), (550256467063, 0), (0, 30066776), (0, 44831)], [(0, 25164002946), (30983369, 0), (25142, 0), (157, 0)], [(0,
    1508549), (0, 10432), (0, 33)]], 2, 3⟩, 1099511627776, 24781387,
    50093452713657098856528706280938933796722091723638246466452380972783474147320808620092639, lc0⟩)) (.sy (.leaf
    ⟨454, 52, 8, 2473, 16, 2043, ⟨[[(0, 1132655306283776)], [(0, 3722225092021715)]], 2, 3⟩, ⟨[[(146814948855808, 0),
    (299268306057265, 0), (0, 7176632308), (216503, 0)], [(0, 279501709219538), (13333553425, 0), (193889, 0), (61,
    0)], [(4788127374, 0), (3694315, 0), (180, 0)]], 2, 3⟩, 4503599627370496, 100, 940866058841, ⟨[[(427415416177110,
    0), (326603532548, 0), (0, 11509152), (0, 10864)], [(0, 24538093610), (18872636, 0), (11829, 0), (30, 0)], [(0,
    1688252), (0, 6832), (0, 12)]], 2, 3⟩, 1099511627776, 146422001,
    49856786628022858673263369101492627342092425711533616449506101048194567456746936323144670, lc0⟩) (.leaf ⟨454, 52,
    8, 2538, 16, 2077, ⟨[[(0, 1132655306283776)], [(0, 3722225092021715)]], 2, 3⟩, ⟨[[(0, 1631261914818560),
    (299221534037649, 0), (0, 7068766669), (212938, 0)], [(0, 279382069024841), (13715621836, 0), (259661, 0), (57,
    0)], [(6206751283, 0), (3900760, 0), (230, 0)]], 2, 3⟩, 4503599627370496, 100, 1094465923358,
    ⟨[[(435068949454812, 0), (320707723734, 0), (0, 11920652), (0, 11606)], [(0, 24088578017), (19156941, 0), (13420,
    0), (27, 0)], [(0, 1855532), (0, 7318), (0, 13)]], 2, 3⟩, 1099511627776, 160092976,
    48383103652464686218470851413203320622751448319248026494248356447537345848524410798628422, lc0⟩)))
theorem c8 : checkC job ⟨6, 8, 5, 6, 9, 13⟩ 1 40 B1.zlims t8 587 61 160 1509 175 3792 = true := by decide +kernel

def t9 : CTree :=
  .sx (.sy (.sy (.sy (.leaf ⟨555, 52, 8, 1506, 16, 1213, ⟨[[(0, 1884756444054528)], [(0, 3722225092021715)]], 2, 3⟩,
    ⟨[[(2081369626044416, 0), (339102989401596, 0), (0, 15836810598), (922302, 0)], [(0, 160010628361735),
    (15270126343, 0), (656001, 0), (198, 0)], [(4166565857, 0), (4331832, 0), (543, 0)]], 2, 3⟩, 4503599627370496,
    28, 1210541029868, ⟨[[(445728211944990, 0), (550762053343, 0), (0, 34972725), (0, 56386)], [(0, 23686334313),
    (32228610, 0), (40692, 0), (113, 0)], [(0, 1798766), (0, 11952), (0, 36)]], 2, 3⟩, 1099511627776, 203760816,
    46349635567809996630125454495369372247340123889125766803349356571619472711160023486203616, lc0⟩) (.leaf ⟨555, 52,
    8, 1583, 16, 1253, ⟨[[(0, 1884756444054528)], [(0, 3722225092021715)]], 2, 3⟩, ⟨[[(0, 333302797947904),
    (339177342480565, 0), (0, 15387295590), (899106, 0)], [(0, 159674858710456), (16320149596, 0), (879825, 0), (182,
    0)], [(5945998685, 0), (4928716, 0), (736, 0)]], 2, 3⟩, 4503599627370496, 28, 1473119405518, ⟨[[(460278691776712,
    0), (531265358691, 0), (0, 37393531), (0, 61257)], [(0, 22802843683), (33508461, 0), (46219, 0), (95, 0)], [(0,
    2141394), (0, 13541), (0, 39)]], 2, 3⟩, 1099511627776, 238550664,
    39337134022236606198164398339519286339312278799141060953230605907445251917884730835135058, lc0⟩)) (.leaf ⟨555,
    52, 8, 907, 16, 701, ⟨[[(0, 1884756444054528)], [(0, 3722225092021715)]], 2, 3⟩, ⟨[[(850710145116160, 0),
    (362241366863859, 0), (0, 31395813138), (3697298, 0)], [(0, 84387830239224), (19456353883, 0), (2574781, 0),
    (734, 0)], [(4901052859, 0), (6533247, 0), (2238, 0), (1, 0)]], 2, 3⟩, 4503599627370496, 28, 10019049554249,
    ⟨[[(480522252477358, 0), (943987242405, 0), (0, 144196690), (0, 419023)], [(0, 21449621022), (66940522, 0),
    (181670, 0), (523, 0)], [(0, 2719144), (0, 30032), (0, 150)]], 2, 3⟩, 1099511627776, 387759549,
    31167882638823554944402068827989045134049891662086797092184813664832561178194695686977502, lc0⟩)) (.sy (.leaf
    ⟨555, 52, 8, 993, 16, 745, ⟨[[(0, 1884756444054528)], [(0, 3722225092021715)]], 2, 3⟩, ⟨[[(803735447290880, 0),
    (363012565230807, 0), (0, 29467681688), (3501905, 0)], [(0, 82079378313669), (22873997941, 0), (3534339, 0),
    (753, 0)], [(7966356244, 0), (8921606, 0), (3295, 0), (1, 0)]], 2, 3⟩, 4503599627370496, 28, 7804813813329,
    ⟨[[(506226302416872, 0), (879874405908, 0), (0, 160790234), (0, 407956)], [(0, 19471909329), (73454047, 0),
    (199643, 0), (465, 0)], [(0, 3662590), (0, 37008), (0, 170)]], 2, 3⟩, 1099511627776, 485327647,
    30570988026236251490490574383879129416639977104685205779796591594203008665114696276506572, lc0⟩) (.leaf ⟨555, 52,
    8, 1082, 16, 790, ⟨[[(0, 1884756444054528)], [(0, 3722225092021715)]], 2, 3⟩, ⟨[[(1212785459553280, 0),
    (364378024075500, 0), (0, 27573717440), (3289159, 0)], [(0, 78054156098541), (27175443774, 0), (4601225, 0),
    (837, 0)], [(12231368020, 0), (12295026, 0), (4641, 0), (1, 0)]], 2, 3⟩, 4503599627370496, 28, 7901088386902,
    ⟨[[(530176880290496, 0), (820558994594, 0), (0, 174410139), (0, 378118)], [(0, 17302290275), (80609321, 0),
    (214231, 0), (461, 0)], [(0, 4812870), (0, 44753), (0, 190), (0, 1)]], 2, 3⟩, 1099511627776, 619289588,
    42298965824256599613197872855679684427293591250619035719449506643285346309625895635697666, lc0⟩))) (.sy (.sy (.sy
    (.leaf ⟨454, 52, 8, 1496, 16, 1208, ⟨[[(0, 1132655306283776)], [(0, 3722225092021715)]], 2, 3⟩, ⟨[[(0,
    224213153825792), (339627282496374, 0), (0, 15683060190), (945146, 0)], [(0, 158256569219576), (16324534626, 0),
    (803287, 0), (241, 0)], [(4841577158, 0), (4860680, 0), (695, 0)]], 2, 3⟩, 4503599627370496, 100, 1407161238643,
    ⟨[[(446015950664428, 0), (549941013113, 0), (0, 39021685), (0, 67731)], [(0, 23417076396), (34674833, 0), (47630,
    0), (130, 0)], [(0, 2121446), (0, 14200), (0, 43)]], 2, 3⟩, 1099511627776, 198454410,
    47107143083820565395131366190127357361508753640077556497232432327343786711893546978199116, lc0⟩) (.leaf ⟨454, 52,
    8, 1572, 16, 1248, ⟨[[(0, 1132655306283776)], [(0, 3722225092021715)]], 2, 3⟩, ⟨[[(1449089457521664, 0),
    (339883326749370, 0), (0, 15207139660), (920316, 0)], [(0, 157482011336844), (17534443612, 0), (1078687, 0),
    (227, 0)], [(6856227936, 0), (5599883, 0), (935, 0)]], 2, 3⟩, 4503599627370496, 100, 1730005872925,
    ⟨[[(460076113838523, 0), (530243836856, 0), (0, 41818107), (0, 70888)], [(0, 22495461673), (36168410, 0), (53735,
    0), (112, 0)], [(0, 2514699), (0, 16028), (0, 46)]], 2, 3⟩, 1099511627776, 231481215,
    36857528247817095478937983591339796016524159238853106049986252726707317132356865565275529, lc0⟩)) (.leaf ⟨454,
    52, 8, 900, 16, 697, ⟨[[(0, 1132655306283776)], [(0, 3722225092021715)]], 2, 3⟩, ⟨[[(0, 1097604920465408),
    (362636137542559, 0), (0, 30868313975), (3777851, 0)], [(0, 82627472945156), (21054326633, 0), (3176141, 0),
    (947, 0)], [(5632219058, 0), (7549564, 0), (2855, 0), (1, 0)]], 2, 3⟩, 4503599627370496, 100, 10474298020832,
    ⟨[[(480939216810019, 0), (942876130103, 0), (0, 163437449), (0, 479474)], [(0, 20977029689), (73286054, 0),
    (214295, 0), (635, 0)], [(0, 3224672), (0, 35951), (0, 182), (0, 1)]], 2, 3⟩, 1099511627776, 377352793,
    24442496714539240957678723116555194931755201215381923756212872983678606803562813717743815, lc0⟩)) (.sy (.leaf
    ⟨454, 52, 8, 986, 16, 741, ⟨[[(0, 1132655306283776)], [(0, 3722225092021715)]], 2, 3⟩, ⟨[[(0, 1522404176086528),
    (363979161245791, 0), (0, 28827170492), (3590115, 0)], [(0, 79552734985515), (25115646197, 0), (4432510, 0),
    (1022, 0)], [(9217656247, 0), (10577347, 0), (4298, 0), (1, 0)]], 2, 3⟩, 4503599627370496, 100, 8631972706671,
    ⟨[[(506689626627881, 0), (877371070376, 0), (0, 182465505), (0, 464236)], [(0, 18790365429), (81379097, 0),
    (237543, 0), (579, 0)], [(0, 4361163), (0, 44521), (0, 208), (0, 1)]], 2, 3⟩, 1099511627776, 472648125,
    43055253744849692583511471675407771313775236631093332583000189473672716654570625254016114, lc0⟩) (.sy (.leaf
    ⟨454, 52, 8, 1983, 16, 1460, ⟨[[(0, 1132655306283776)], [(0, 3722225092021715)]], 2, 3⟩, ⟨[[(86499116783616, 0),
    (344377099644288, 0), (0, 12864942167), (811409, 0)], [(0, 143114875450018), (27247579230, 0), (2592293, 0),
    (269, 0)], [(24265747091, 0), (12933232, 0), (2688, 0)]], 2, 3⟩, 4503599627370496, 100, 5424485580741,
    ⟨[[(524543161718786, 0), (441205810780, 0), (0, 54662372), (0, 66061)], [(0, 17022605073), (46614537, 0), (70915,
    0), (86, 0)], [(0, 5363549), (0, 27326), (0, 64)]], 2, 3⟩, 1099511627776, 480860216,
    46955425017029288925234766338930866153936397340937562763908190840460826510856380175509820, lc0⟩) (.sx (.leaf
    ⟨479, 26, 8, 2218, 16, 1611, ⟨[[(0, 194780683883776)], [(0, 1861112546010857)]], 2, 3⟩, ⟨[[(1208475519125504, 0),
    (369413712286152, 0), (0, 13376114671), (835493, 0)], [(0, 74475014354067), (15599422326, 0), (1489804, 0), (144,
    0)], [(7701709032, 0), (3911367, 0), (798, 0)]], 2, 3⟩, 4503599627370496, 31, 911212586367, ⟨[[(536064361798781,
    0), (398161873656, 0), (0, 47852293), (0, 50009)], [(0, 16006219647), (44532900, 0), (61403, 0), (68, 0)], [(0,
    5886185), (0, 26869), (0, 57)]], 2, 3⟩, 1099511627776, 69668396,
    45116368652294525742197900640709105821694727506367212581322399566097065557297583477618991, lc0⟩) (.leaf ⟨429, 26,
    8, 2208, 16, 1605, ⟨[[(0, 2070529928683520)], [(0, 1861112546010857)]], 2, 3⟩, ⟨[[(102472170588160, 0),
    (369994064874191, 0), (0, 13132715340), (851681, 0)], [(0, 72242742599798), (16545813023, 0), (1694964, 0), (174,
    0)], [(8364879554, 0), (4348664, 0), (937, 0)]], 2, 3⟩, 4503599627370496, 95, 1021515972296, ⟨[[(536158255879706,
    0), (397524320040, 0), (0, 51169797), (0, 54032)], [(0, 15473316908), (47287265, 0), (67493, 0), (76, 0)], [(0,
    6370049), (0, 29282), (0, 63)]], 2, 3⟩, 1099511627776, 69679890,
    48727020765161368833138673419024523733008835952705532082049035564758184218384852389487789, lc0⟩)))))
theorem c9 : checkC job ⟨6, 8, 5, 6, 9, 13⟩ 1 40 B1.zlims t9 263 61 80 1017 175 1896 = true := by decide +kernel

def t10 : CTree :=
  .sy (.sy (.sx (.leaf ⟨756, 52, 8, 1193, 16, 846, ⟨[[(1114640907773952, 0)], [(0, 3722225092021715)]], 2, 3⟩, ⟨[[(0,
    1344035356779520), (363644959365303, 0), (0, 27180621014), (2931701, 0)], [(0, 80393087822067), (26051374565, 0),
    (3554377, 0), (471, 0)], [(13302261844, 0), (11415949, 0), (3554, 0), (1, 0)]], 2, 3⟩, 4503599627370496, 250,
    6668933726700, ⟨[[(553133027289434, 0), (770801829574, 0), (0, 145975800), (0, 252997)], [(0, 16534895512),
    (72242054, 0), (164121, 0), (324, 0)], [(0, 3829574), (0, 33580), (0, 147)]], 2, 3⟩, 1099511627776, 736870076,
    39762272577145395937102962784551860023127901529366352724734881552735398442701473147024639, lc0⟩) (.leaf ⟨655, 52,
    8, 1185, 16, 842, ⟨[[(1866742045544960, 0)], [(0, 3722225092021715)]], 2, 3⟩, ⟨[[(0, 266230978225152),
    (365269280305801, 0), (0, 26562558212), (2986425, 0)], [(0, 76520200549745), (28985809182, 0), (4535641, 0),
    (670, 0)], [(15474694581, 0), (13813295, 0), (4716, 0), (1, 0)]], 2, 3⟩, 4503599627370496, 115, 7897097251743,
    ⟨[[(552949946922555, 0), (767539808251, 0), (0, 163500340), (0, 293041)], [(0, 15826443292), (79284296, 0),
    (192570, 0), (395, 0)], [(0, 4986832), (0, 41956), (0, 158)]], 2, 3⟩, 1099511627776, 812834323,
    29180755454477447612767021677837182734925943354425854373035730863682482977255997607697323, lc0⟩)) (.sx (.leaf
    ⟨756, 52, 8, 1291, 16, 895, ⟨[[(1114640907773952, 0)], [(0, 3722225092021715)]], 2, 3⟩, ⟨[[(0, 331086329325568),
    (365665499490710, 0), (0, 25723921213), (2677834, 0)], [(0, 74921106714134), (30378279507, 0), (4295453, 0),
    (522, 0)], [(18791606575, 0), (14979686, 0), (4547, 0), (1, 0)]], 2, 3⟩, 4503599627370496, 250, 8102592053594,
    ⟨[[(574076885979714, 0), (720527838135, 0), (0, 148875189), (0, 210712)], [(0, 14431800447), (77501363, 0),
    (173109, 0), (338, 0)], [(0, 4867632), (0, 40527), (0, 176), (0, 1)]], 2, 3⟩, 1099511627776, 847365694,
    25898057879010940159417818589703725773036221843769419022970384897933635956088760080211386, lc0⟩) (.leaf ⟨655, 52,
    8, 1280, 16, 889, ⟨[[(1866742045544960, 0)], [(0, 3722225092021715)]], 2, 3⟩, ⟨[[(1447921567606784, 0),
    (367133399004225, 0), (0, 24956212082), (2736895, 0)], [(0, 69462679512426), (34222387596, 0), (5559999, 0),
    (764, 0)], [(22100794690, 0), (18485717, 0), (6203, 0), (1, 0)]], 2, 3⟩, 4503599627370496, 115, 10047554454286,
    ⟨[[(573797495543103, 0), (717869896232, 0), (0, 168487731), (0, 254242)], [(0, 13507372766), (85965514, 0),
    (205265, 0), (418, 0)], [(0, 6258309), (0, 48650), (0, 168)]], 2, 3⟩, 1099511627776, 1030556893,
    27353749958665707083443538539054585079959168844590728602145884900830005090320381070108768, lc0⟩))) (.sy (.sx
    (.leaf ⟨756, 52, 8, 1392, 16, 945, ⟨[[(1114640907773952, 0)], [(0, 3722225092021715)]], 2, 3⟩,
    ⟨[[(1521851151355904, 0), (368068890508951, 0), (0, 24410014965), (2419076, 0)], [(0, 67300787941421),
    (35455528099, 0), (5125637, 0), (571, 0)], [(26002359249, 0), (19497763, 0), (5735, 0), (1, 0)]], 2, 3⟩,
    4503599627370496, 250, 10430570598313, ⟨[[(593667121792345, 0), (674249904991, 0), (0, 148741067), (0, 170864)],
    [(0, 12175484688), (83130762, 0), (182402, 0), (338, 0)], [(0, 6122558), (0, 49103), (0, 218), (0, 1)]], 2, 3⟩,
    1099511627776, 998034717,
    30796302255873111453392677556386823280275428561101093645944898903578147209767128197006255, lc0⟩) (.leaf ⟨655, 52,
    8, 1382, 16, 939, ⟨[[(1866742045544960, 0)], [(0, 3722225092021715)]], 2, 3⟩, ⟨[[(0, 1004989221264384),
    (370342283468337, 0), (0, 23538322477), (2489735, 0)], [(0, 59963278305537), (40562399508, 0), (6753477, 0),
    (870, 0)], [(31040565712, 0), (24636648, 0), (8101, 0), (2, 0)]], 2, 3⟩, 4503599627370496, 115, 13503754326107,
    ⟨[[(594051113364800, 0), (669997222768, 0), (0, 170445511), (0, 214508)], [(0, 10889219874), (93456449, 0),
    (219303, 0), (430, 0)], [(0, 7783755), (0, 55868), (0, 177)]], 2, 3⟩, 1099511627776, 1319679776,
    24536876453026710534849998294926085978817270197544714928061237571069058550878766595374994, lc0⟩)) (.sx (.leaf
    ⟨756, 52, 8, 1498, 16, 997, ⟨[[(1114640907773952, 0)], [(0, 3722225092021715)]], 2, 3⟩, ⟨[[(2048654338384896, 0),
    (371184014417936, 0), (0, 23282121864), (2160828, 0)], [(0, 57223500385085), (41413786685, 0), (6040958, 0),
    (598, 0)], [(35418304672, 0), (25188954, 0), (7168, 0), (1, 0)]], 2, 3⟩, 4503599627370496, 250, 13852681583644,
    ⟨[[(612339047019948, 0), (630857967312, 0), (0, 145906629), (0, 131070)], [(0, 9709478130), (89203760, 0),
    (190488, 0), (311, 0)], [(0, 7680821), (0, 60245), (0, 277), (0, 1)]], 2, 3⟩, 1099511627776, 1160415638,
    42892117464845388239535422874642197837049454526625702399334767711290571733232693025612482, lc0⟩) (.leaf ⟨655, 52,
    8, 1487, 16, 990, ⟨[[(1866742045544960, 0)], [(0, 3722225092021715)]], 2, 3⟩, ⟨[[(0, 2166083820849152),
    (374001332242738, 0), (0, 22266188416), (2238780, 0)], [(0, 47339928864890), (48094188331, 0), (8114117, 0),
    (971, 0)], [(42940835547, 0), (32624202, 0), (10524, 0), (2, 0)]], 2, 3⟩, 4503599627370496, 115, 18633184241248,
    ⟨[[(612934690044604, 0), (625814691411, 0), (0, 169417171), (0, 172811)], [(0, 8048277183), (101491486, 0),
    (232666, 0), (418, 0)], [(0, 9519665), (0, 63209), (0, 183)]], 2, 3⟩, 1099511627776, 1689667855,
    38864875714248235727239719744139347056060272482268311567080046324659262836436176980563812, lc0⟩)))
theorem c10 : checkC job ⟨6, 8, 5, 6, 9, 13⟩ 1 40 B1.zlims t10 141 61 80 1367 175 1896 = true := by decide +kernel

def t11 : CTree :=
  .sx (.sy (.sx (.leaf ⟨781, 26, 8, 1657, 16, 1082, ⟨[[(2052515530173952, 0)], [(0, 1861112546010857)]], 2, 3⟩,
    ⟨[[(745070659082240, 0), (384468227897852, 0), (0, 23223289251), (1939606, 0)], [(0, 24228117972766),
    (23902685928, 0), (3340156, 0), (255, 0)], [(11649953525, 0), (7775245, 0), (2077, 0)]], 2, 3⟩, 4503599627370496,
    181, 2852405599483, ⟨[[(630221425083535, 0), (575542067818, 0), (0, 128179446), (0, 74363)], [(0, 7459672596),
    (89037401, 0), (163259, 0), (130, 0)], [(0, 9885991), (0, 87420), (0, 505), (0, 2)]], 2, 3⟩, 1099511627776,
    451290124, 45273169661970831847724538263846039572535602677782351308789338477924522584840569039131869, lc0⟩)
    (.leaf ⟨731, 26, 8, 1647, 16, 1076, ⟨[[(176766285374464, 0)], [(0, 1861112546010857)]], 2, 3⟩,
    ⟨[[(1634383407160320, 0), (385356601291559, 0), (0, 22656413492), (1964798, 0)], [(0, 21118476677206),
    (25789903447, 0), (3878886, 0), (340, 0)], [(12836019501, 0), (8862907, 0), (2524, 0)]], 2, 3⟩, 4503599627370496,
    201, 3234484574622, ⟨[[(630104109580107, 0), (574303830914, 0), (0, 138658468), (0, 87709)], [(0, 6564924593),
    (96689119, 0), (200096, 0), (287, 0)], [(0, 9745756), (0, 65550), (0, 241), (0, 1)]], 2, 3⟩, 1099511627776,
    310896086, 46460960469027647022848409367642443433723679333062146716384228510563488472499929234059506, lc0⟩)) (.sx
    (.leaf ⟨781, 26, 8, 1769, 16, 1135, ⟨[[(2052515530173952, 0)], [(0, 1861112546010857)]], 2, 3⟩,
    ⟨[[(169219903932416, 0), (386949083382123, 0), (0, 22424085030), (1658337, 0)], [(0, 16199170292883),
    (27616202568, 0), (3746634, 0), (185, 0)], [(15356108802, 0), (9802184, 0), (2532, 0)]], 2, 3⟩, 4503599627370496,
    181, 3504016877233, ⟨[[(647026899741552, 0), (541329037688, 0), (0, 120893891), (0, 26396)], [(0, 4698735834),
    (94260945, 0), (154060, 0), (0, 6)], [(0, 12963941), (0, 118926), (0, 715), (0, 3)]], 2, 3⟩, 1099511627776,
    762586823, 47513230763805382202815063863115291648644292235114760093152348203315556073974610855641203, lc0⟩) (.sy
    (.leaf ⟨731, 26, 8, 3432, 16, 2212, ⟨[[(176766285374464, 0)], [(0, 1861112546010857)]], 2, 3⟩,
    ⟨[[(288384387338240, 0), (384272285999787, 0), (0, 10904925676), (434096, 0)], [(0, 28935589426907),
    (28671768096, 0), (2123182, 0), (76, 0)], [(31543951789, 0), (10563557, 0), (1475, 0)]], 2, 3⟩, 4503599627370496,
    201, 3770147643766, ⟨[[(642928641237624, 0), (276276554400, 0), (0, 33965883), (0, 6242)], [(0, 4289803569),
    (51610050, 0), (51725, 0), (30, 0)], [(0, 11348660), (0, 37787), (0, 72)]], 2, 3⟩, 1099511627776, 86041866,
    46284299225479642475105425324416064646356163252280078382525958417525243258936533781805223, lc0⟩) (.leaf ⟨731, 26,
    8, 3560, 16, 2275, ⟨[[(176766285374464, 0)], [(0, 1861112546010857)]], 2, 3⟩, ⟨[[(1019051244722176, 0),
    (387524136302614, 0), (0, 10771692564), (398989, 0)], [(0, 19168041144370), (31044303483, 0), (2259719, 0), (66,
    0)], [(36436121501, 0), (11972818, 0), (1652, 0)]], 2, 3⟩, 4503599627370496, 201, 4481646438527,
    ⟨[[(651025895975208, 0), (266670122358, 0), (0, 32480151), (0, 2196)], [(0, 2726192584), (53210578, 0), (51178,
    0), (23, 0)], [(0, 12525360), (0, 41163), (0, 79)]], 2, 3⟩, 1099511627776, 91673550,
    47455816134761114877117647617159222907047670789745819134624521258162523873077143036634602, lc0⟩)))) (.sy (.sx
    (.leaf ⟨681, 26, 8, 1638, 16, 1070, ⟨[[(0, 1698982959425536)], [(0, 1861112546010857)]], 2, 3⟩, ⟨[[(0,
    1568589501834240), (386474313539011, 0), (0, 22019325963), (2001969, 0)], [(0, 17712327232411), (27960350192, 0),
    (4540478, 0), (458, 0)], [(14230337580, 0), (10206445, 0), (3120, 0), (1, 0)]], 2, 3⟩, 4503599627370496, 46,
    3690544716583, ⟨[[(630512700763260, 0), (572446860820, 0), (0, 150908097), (0, 104866)], [(0, 5529729726),
    (103701282, 0), (221883, 0), (334, 0)], [(0, 10720112), (0, 64483), (0, 168)]], 2, 3⟩, 1099511627776, 349829799,
    45357616574319467549606965813363796545038481096925130039538962100586759288163855380927540, lc0⟩) (.leaf ⟨630, 26,
    8, 1628, 16, 1064, ⟨[[(928867423144960, 0)], [(0, 1861112546010857)]], 2, 3⟩, ⟨[[(180466034594816, 0),
    (387858370204508, 0), (0, 21295083658), (2055983, 0)], [(0, 13955475204622), (30483235384, 0), (5366917, 0),
    (624, 0)], [(15879527199, 0), (11881413, 0), (3922, 0), (1, 0)]], 2, 3⟩, 4503599627370496, 234, 4246852919053,
    ⟨[[(630300770033254, 0), (570448423189, 0), (0, 164207111), (0, 125490)], [(0, 4449388000), (110964514, 0),
    (241914, 0), (363, 0)], [(0, 12248451), (0, 74897), (0, 204)]], 2, 3⟩, 1099511627776, 377474101,
    33633043712483227793994173583578024311007723791176088766179000079513477981207405014865850, lc0⟩)) (.sx (.sx
    (.leaf ⟨780, 16, 9, 1764, 16, 1132, ⟨[[(0, 539376424121856)], [(0, 1046875807131107)]], 2, 3⟩, ⟨[[(0,
    1075018869005312), (392293739461138, 0), (0, 21435590843), (1713627, 0)], [(0, 4467054597126), (16159788910, 0),
    (2528054, 0), (199, 0)], [(4672417493, 0), (3200921, 0), (943, 0)]], 2, 3⟩, 4503599627370496, 82, 1205053829512,
    ⟨[[(647171354491633, 0), (533848142599, 0), (0, 138586158), (0, 41878)], [(0, 2305019755), (97254975, 0),
    (195003, 0), (220, 0)], [(0, 9825484), (0, 55595), (0, 141)]], 2, 3⟩, 1099511627776, 225723315,
    49314242534044682461042350512090167789986508056275589187728025670284450300342527186000694, lc0⟩) (.leaf ⟨752, 16,
    9, 1756, 16, 1127, ⟨[[(0, 2157435327742976)], [(0, 1046875807131107)]], 2, 3⟩, ⟨[[(0, 603270040186880),
    (392572560079790, 0), (0, 21019282464), (1732859, 0)], [(0, 3276995607656), (16899495225, 0), (2760827, 0), (243,
    0)], [(4945708411, 0), (3467241, 0), (1064, 0)]], 2, 3⟩, 4503599627370496, 45, 1258300311305,
    ⟨[[(647116836814712, 0), (533498047306, 0), (0, 145402919), (0, 49227)], [(0, 1760600575), (100756199, 0),
    (204087, 0), (231, 0)], [(0, 10390194), (0, 57390), (0, 131)]], 2, 3⟩, 1099511627776, 222799753,
    47356051478589904010931505184485693217709462116195823811000959239114641988818493985644709, lc0⟩)) (.leaf ⟨630,
    26, 8, 1736, 16, 1114, ⟨[[(928867423144960, 0)], [(0, 1861112546010857)]], 2, 3⟩, ⟨[[(0, 2170953074351104),
    (391221106804144, 0), (0, 20239772629), (1764380, 0)], [(0, 2724282275081), (36090526104, 0), (6308945, 0), (654,
    0)], [(21522056468, 0), (15658551, 0), (5130, 0), (1, 0)]], 2, 3⟩, 4503599627370496, 234, 5678413024203,
    ⟨[[(647309602957435, 0), (535121516441, 0), (0, 158161065), (0, 60970)], [(0, 882599916), (120809146, 0),
    (249488, 0), (283, 0)], [(0, 14694555), (0, 84074), (0, 213)]], 2, 3⟩, 1099511627776, 495491559,
    43928797676421166203644423852538171130293334618563343313731995676545771238604756619797397, lc0⟩)))
theorem c11 : checkC job ⟨6, 8, 5, 6, 9, 13⟩ 1 40 B1.zlims t11 141 61 80 3259 175 3792 = true := by decide +kernel

def t12 : CTree :=
  .sy (.sx (.sy (.leaf ⟨781, 26, 8, 3701, 16, 2345, ⟨[[(2052515530173952, 0)], [(0, 1861112546010857)]], 2, 3⟩,
    ⟨[[(0, 564892706850816), (387906887269336, 0), (0, 10963211329), (358355, 0)], [(0, 17951796802718),
    (30593359072, 0), (1990399, 0), (20, 0)], [(37417181888, 0), (11577735, 0), (1460, 0)]], 2, 3⟩, 4503599627370496,
    181, 4388541261340, ⟨[[(659046584830080, 0), (259387798596, 0), (0, 28376464), (2665, 0)], [(0, 2518976066),
    (48912877, 0), (34843, 0), (0, 19)], [(0, 16016486), (0, 75859), (0, 233), (0, 1)]], 2, 3⟩, 1099511627776,
    660172648, 47648205446078921953688302519327355927522064017632719717693658851594532667960045116719780, lc0⟩) (.sx
    (.leaf ⟨893, 16, 9, 3874, 16, 2435, ⟨[[(1429259562992640, 0)], [(0, 1046875807131107)]], 2, 3⟩, ⟨[[(0,
    145578309625856), (393955538443958, 0), (0, 11080233913), (324465, 0)], [(0, 4934221003775), (16217050200, 0),
    (989539, 0), (0, 6)], [(10502171580, 0), (3154191, 0), (384, 0)]], 2, 3⟩, 4503599627370496, 127, 653899202649,
    ⟨[[(666738362544213, 0), (248793726431, 0), (0, 25544770), (6745, 0)], [(0, 1353786833), (41413002, 0), (19851,
    0), (0, 45)], [(0, 15894139), (0, 82619), (0, 268), (0, 1)]], 2, 3⟩, 1099511627776, 177027185,
    48487809162583632515164200195944488548204020148597620766897048126685637155118255531063292, lc0⟩) (.leaf ⟨865, 16,
    9, 3863, 16, 2428, ⟨[[(0, 188799340628480)], [(0, 1046875807131107)]], 2, 3⟩, ⟨[[(0, 1202358115348480),
    (394843873893014, 0), (0, 10922070089), (323216, 0)], [(0, 2288659502202), (16968964797, 0), (1085940, 0), (1,
    0)], [(11107082857, 0), (3405861, 0), (432, 0)]], 2, 3⟩, 4503599627370496, 213, 717935175750,
    ⟨[[(666798414053944, 0), (248282612859, 0), (0, 26430717), (7669, 0)], [(0, 524804906), (45484055, 0), (32061,
    0), (0, 17)], [(0, 13676425), (0, 59482), (0, 169)]], 2, 3⟩, 1099511627776, 115947070,
    38609253720786624917645550901400915996139075858937095287798484832684567816936950901936785, lc0⟩))) (.sy (.leaf
    ⟨731, 26, 8, 3693, 16, 2340, ⟨[[(176766285374464, 0)], [(0, 1861112546010857)]], 2, 3⟩, ⟨[[(0, 1681633806020608),
    (390985501559428, 0), (0, 10674057002), (361785, 0)], [(0, 8252288200141), (33581227947, 0), (2386801, 0), (50,
    0)], [(42001499331, 0), (13556055, 0), (1849, 0)]], 2, 3⟩, 4503599627370496, 201, 5323547647097,
    ⟨[[(659107032498458, 0), (257339851965, 0), (0, 30685225), (2614, 0)], [(0, 1059762483), (54814691, 0), (50040,
    0), (14, 0)], [(0, 13854465), (0, 45083), (0, 88)]], 2, 3⟩, 1099511627776, 169294796,
    48404429096347055055971237800362329534638865226831768327726731855024837488124787159327771, lc0⟩) (.leaf ⟨731, 26,
    8, 3807, 16, 2393, ⟨[[(176766285374464, 0)], [(0, 1861112546010857)]], 2, 3⟩, ⟨[[(195478469066752, 0),
    (392329932267983, 0), (0, 10553588505), (319860, 0)], [(3881423823425, 0), (36066678311, 0), (2483160, 0), (28,
    0)], [(48043260132, 0), (15244672, 0), (2058, 0)]], 2, 3⟩, 4503599627370496, 201, 6281713313887,
    ⟨[[(666718675002756, 0), (249870611193, 0), (0, 28872089), (8157, 0)], [(611698539, 0), (56534973, 0), (48687,
    0), (5, 0)], [(0, 15274211), (0, 49606), (0, 98)]], 2, 3⟩, 1099511627776, 268328156,
    47231458271286591373137772554111132101974884852248062240606784381180214415491484416665388, lc0⟩))) (.sx (.sy (.sx
    (.leaf ⟨893, 16, 9, 3994, 16, 2491, ⟨[[(1429259562992640, 0)], [(0, 1046875807131107)]], 2, 3⟩,
    ⟨[[(343695436470272, 0), (395197252149372, 0), (0, 11011824396), (283695, 0)], [(882377698302, 0), (17294377374,
    0), (997139, 0), (0, 23)], [(11922365700, 0), (3511795, 0), (421, 0)]], 2, 3⟩, 4503599627370496, 127,
    755619545581, ⟨[[(674231619620226, 0), (241715023133, 0), (0, 23569227), (12111, 0)], [(0, 85914183), (41515744,
    0), (14165, 0), (0, 62)], [(0, 18653255), (0, 98429), (0, 318), (0, 1)]], 2, 3⟩, 1099511627776, 233597421,
    47734294399585507055236047709946137357401449228789626927354516457100737996469467007266526, lc0⟩) (.leaf ⟨865, 16,
    9, 3962, 16, 2471, ⟨[[(0, 188799340628480)], [(0, 1046875807131107)]], 2, 3⟩, ⟨[[(323618060163072, 0),
    (394170522273303, 0), (0, 10796251887), (279015, 0)], [(3850385403339, 0), (18041520041, 0), (1097702, 0), (0,
    16)], [(12572133858, 0), (3785497, 0), (473, 0)]], 2, 3⟩, 4503599627370496, 213, 829656945155,
    ⟨[[(674236633098967, 0), (242426976366, 0), (0, 24571093), (13703, 0)], [(870567673, 0), (46528380, 0), (28850,
    0), (0, 30)], [(0, 15627748), (0, 69528), (0, 200)]], 2, 3⟩, 1099511627776, 156113662,
    32153677466671497326560593028794502134990642865447905577797815058432131955436639354778925, lc0⟩)) (.leaf ⟨781,
    26, 8, 4012, 16, 2483, ⟨[[(2052515530173952, 0)], [(0, 1861112546010857)]], 2, 3⟩, ⟨[[(0, 1469421044127744),
    (387450205964348, 0), (0, 10644862604), (231415, 0)], [(17329591227755, 0), (36795420567, 0), (2030205, 0), (0,
    83)], [(54326116410, 0), (15884941, 0), (1920, 0)]], 2, 3⟩, 4503599627370496, 181, 6911464448744,
    ⟨[[(681663068374790, 0), (240441282919, 0), (0, 22422200), (21269, 0)], [(2034484706, 0), (51168635, 0), (19613,
    0), (0, 74)], [(0, 24955574), (0, 125970), (0, 396), (0, 1)]], 2, 3⟩, 1099511627776, 1589923144,
    45600839892224346739021327332345428610492355574545500155705559841475473865406352533793952, lc0⟩)) (.sy (.leaf
    ⟨731, 26, 8, 3861, 16, 2408, ⟨[[(176766285374464, 0)], [(0, 1861112546010857)]], 2, 3⟩, ⟨[[(1361846724311040, 0),
    (387467362647991, 0), (0, 10308720210), (270307, 0)], [(16915214327327, 0), (38048686605, 0), (2512874, 0), (0,
    2)], [(53974555860, 0), (16853409, 0), (2255, 0)]], 2, 3⟩, 4503599627370496, 201, 7287883510478,
    ⟨[[(674176399654930, 0), (246623654111, 0), (0, 27465932), (15550, 0)], [(2348581118, 0), (59083480, 0), (47992,
    0), (0, 7)], [(0, 16853201), (0, 55667), (0, 115)]], 2, 3⟩, 1099511627776, 398571004,
    42261857384551319892301101162757871027487075759984418310418233126908418727222452204982836, lc0⟩) (.leaf ⟨731, 26,
    8, 3914, 16, 2422, ⟨[[(176766285374464, 0)], [(0, 1861112546010857)]], 2, 3⟩, ⟨[[(0, 1082722051160064),
    (382555421468362, 0), (0, 10111203451), (218119, 0)], [(30717146351802, 0), (40033741366, 0), (2505264, 0), (0,
    41)], [(60507166372, 0), (18608061, 0), (2469, 0)]], 2, 3⟩, 4503599627370496, 201, 8444316670067,
    ⟨[[(681642930458242, 0), (243590661139, 0), (0, 25308724), (25382, 0)], [(4187262381, 0), (61607303, 0), (46105,
    0), (0, 23)], [(0, 18656198), (0, 62898), (0, 135)]], 2, 3⟩, 1099511627776, 570159912,
    31599477247735007172292935735671252634595677621799231849052107849807700370159541021808703, lc0⟩)))
theorem c12 : checkC job ⟨6, 8, 5, 6, 9, 13⟩ 1 40 B1.zlims t12 221 61 160 3609 175 3792 = true := by decide +kernel

end PyX.Kron.T1ph
