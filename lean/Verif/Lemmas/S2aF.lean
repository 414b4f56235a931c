import Verif.Lemmas.S2aJob

/-!
# Temperature from pressure and entropy in subregion 2a, part F of the certificate
-/

namespace PyX.Kron.S2a

set_option Elab.async false

def t58 : CTree :=
  .sx (.sx (.sy (.sx (.leaf ⟨1001, 16, 1548, 730, 16, 456, ⟨[[(149250113536, 0)], [(415538085888, 0)]], 3, 4⟩,
    ⟨[[(335029896716, 0), (0, 3038057822979), (1416736658, 0), (0, 273945308), (0, 13050911)], [(0, 189205219729),
    (0, 611603131), (0, 24020253), (0, 1545995), (0, 103577)], [(22250861, 0), (0, 766812), (0, 66918), (0, 5932),
    (0, 417)], [(0, 15332), (0, 1221), (0, 163), (0, 16), (0, 1)]], 3, 4⟩, 1099511627776, 0, 420890548,
    ⟨[[(27121674412421, 0), (55986232501, 0), (108989335, 0), (0, 395221), (5021, 0)], [(25516866143, 0), (68551143,
    0), (0, 258334), (5105, 0), (0, 67)], [(756544, 0), (0, 96284), (2118, 0), (0, 36)], [(0, 9295), (432, 0), (0,
    11)]], 3, 4⟩, 68719476736, 241802792,
    2489412773782078399492821292268093031017893570417686953844994785190682833593586364442241662976, ⟨1, 0,
    -201700344603908, [174706425674, 32975920, 8299]⟩⟩) (.sy (.leaf ⟨1032, 16, 1548, 997, 16, 631, ⟨[[(138512695296,
    0)], [(415538085888, 0)]], 3, 4⟩, ⟨[[(72877149906, 0), (0, 2140388659223), (215574501, 0), (0, 56655159), (0,
    1434903)], [(0, 255731864872), (0, 461764851), (0, 9808689), (0, 334157), (0, 11434)], [(27275462, 0), (0,
    602882), (0, 28138), (0, 1280), (0, 46)], [(0, 21193), (0, 993), (0, 68), (0, 3)]], 3, 4⟩, 1099511627776, 0,
    111503755, ⟨[[(27371110486146, 0), (40463082410, 0), (58755769, 0), (0, 163168), (1517, 0)], [(24918664763, 0),
    (48871308, 0), (0, 143921), (2065, 0), (0, 20)], [(823084, 0), (0, 70253), (1143, 0), (0, 14)], [(0, 9054), (310,
    0), (0, 6)]], 3, 4⟩, 68719476736, 47549780,
    1292109268242641941699639333198293443402503592462974925857829668521760235675075199181173451562, ⟨1, 0,
    -259584095065562, [234495035827, 42932083, 10480]⟩⟩) (.leaf ⟨1032, 16, 1548, 976, 16, 625, ⟨[[(138512695296, 0)],
    [(415538085888, 0)]], 3, 4⟩, ⟨[[(11502476117, 0), (0, 2125064974890), (0, 1208882944), (0, 109103713), (0,
    3233419)], [(0, 256483177979), (0, 621914835), (0, 18963863), (0, 754178), (0, 25862)], [(22085929, 0), (0,
    1117421), (0, 63874), (0, 2964), (0, 104)], [(0, 30230), (0, 2282), (0, 162), (0, 8)]], 3, 4⟩, 1099511627776, 0,
    214205773, ⟨[[(26908743521410, 0), (39394004377, 0), (67162154, 0), (0, 259923), (2484, 0)], [(24327157013, 0),
    (53707791, 0), (0, 239239), (3313, 0), (0, 32)], [(1819810, 0), (0, 104525), (1794, 0), (0, 22)], [(0, 13518),
    (473, 0), (0, 8)]], 3, 4⟩, 68719476736, 75933468,
    2947857911075007989893219063130239631373587567373796986922563961675284008494316529328661278791, ⟨1, 0,
    -257115783543544, [232265289052, 42523854, 10381]⟩⟩))) (.sx (.sy (.leaf ⟨1001, 16, 1548, 971, 16, 617,
    ⟨[[(149250113536, 0)], [(415538085888, 0)]], 3, 4⟩, ⟨[[(357914813447, 0), (0, 2062484447680), (0, 1612509313),
    (0, 123854454), (0, 3700403)], [(0, 260655705260), (0, 659327828), (0, 21871556), (0, 878505), (0, 29498)],
    [(22570182, 0), (0, 1314373), (0, 76724), (0, 3497), (0, 119)], [(0, 35406), (0, 2854), (0, 199), (0, 9)]], 3,
    4⟩, 1099511627776, 0, 266331654, ⟨[[(26446537967658, 0), (39216337405, 0), (70723330, 0), (0, 301622), (2893,
    0)], [(24617686915, 0), (57563811, 0), (0, 286531), (3918, 0), (0, 37)], [(2352294, 0), (0, 125040), (2159, 0),
    (0, 26)], [(0, 16615), (580, 0), (0, 10)]], 3, 4⟩, 68719476736, 87858650,
    3484920418056868276369731275668621221474054358477235847523165305346846281623956465146189501659, ⟨1, 0,
    -272914720659235, [236390054037, 44618734, 11229]⟩⟩) (.skip)) (.skip))) (.sy (.sx (.sy (.leaf ⟨1063, 16, 1548,
    980, 16, 632, ⟨[[(127775277056, 0)], [(415538085888, 0)]], 3, 4⟩, ⟨[[(0, 329792351163), (0, 2186401978258), (0,
    823531311), (0, 94982940), (0, 2762675)], [(0, 252109745631), (0, 586015189), (0, 16160483), (0, 628965), (0,
    21996)], [(21616378, 0), (0, 933811), (0, 51458), (0, 2424), (0, 87)], [(0, 25633), (0, 1763), (0, 127), (0,
    6)]], 3, 4⟩, 1099511627776, 0, 169029727, ⟨[[(27386378543410, 0), (39660234986, 0), (63937330, 0), (0, 221069),
    (2102, 0)], [(24066850586, 0), (50223985, 0), (0, 196256), (2763, 0), (0, 27)], [(1347399, 0), (0, 86398), (1470,
    0), (0, 18)], [(0, 10855), (380, 0), (0, 7)]], 3, 4⟩, 68719476736, 63967981,
    2182074153746661594933969721754985055370264453780120458004626222507434926086231778089998038421, ⟨1, 0,
    -241019886669371, [228020209474, 40529721, 9605]⟩⟩) (.sy (.leaf ⟨1063, 16, 1548, 1193, 16, 777, ⟨[[(127775277056,
    0)], [(415538085888, 0)]], 3, 4⟩, ⟨[[(485848959590, 0), (0, 1352846477074), (0, 775599258), (0, 25192872), (0,
    394585)], [(0, 313678903859), (0, 478934231), (0, 8599853), (0, 181141), (0, 3149)], [(19806912, 0), (0, 972220),
    (0, 29924), (0, 707), (0, 12)], [(0, 45246), (0, 2076), (0, 75), (0, 2)]], 3, 4⟩, 1099511627776, 0, 236212258,
    ⟨[[(27010523239699, 0), (31200420682, 0), (47408822, 0), (0, 171949), (1343, 0)], [(23562174626, 0), (44636767,
    0), (0, 193728), (2148, 0), (0, 17)], [(2333801, 0), (0, 97966), (1389, 0), (0, 14)], [(0, 15224), (436, 0), (0,
    6)]], 3, 4⟩, 68719476736, 35102228,
    2272135874183066026291142157025166509071043642347483148344205586709390546632260672034205413447, ⟨1, 0,
    -296317170794464, [280334972724, 49828470, 11809]⟩⟩) (.skip))) (.sy (.leaf ⟨1094, 16, 1548, 956, 16, 629,
    ⟨[[(117037858816, 0)], [(415538085888, 0)]], 3, 4⟩, ⟨[[(500012323831, 0), (0, 2231222673254), (0, 2564250706),
    (0, 166094080), (0, 5271859)], [(0, 247947181373), (0, 778967537), (0, 27625185), (0, 1176498), (0, 41689)],
    [(14313774, 0), (0, 1513568), (0, 93793), (0, 4513), (0, 162)], [(0, 33881), (0, 3127), (0, 230), (0, 11)]], 3,
    4⟩, 1099511627776, 0, 274386965, ⟨[[(27357271252219, 0), (38809034182, 0), (72815088, 0), (0, 322400), (3145,
    0)], [(23170001898, 0), (53543301, 0), (0, 284892), (3964, 0), (0, 38)], [(2130805, 0), (0, 113392), (2012, 0),
    (0, 25)], [(0, 13770), (494, 0), (0, 9)]], 3, 4⟩, 68719476736, 92419017,
    2912220149064728985485884253035535977207101456273408597650451289505707487488380767839834963206, ⟨0, 0,
    -221532972357994, [220509889475, 38084610, 8770]⟩⟩) (.skip))) (.skip))) (.skip)
theorem c58 : checkC job ⟨6, 8, 8, 10, 9, 13⟩ 3 100 lims t58 367 41 512 57 3 64 = true := by decide +kernel

def t59 : CTree :=
  .sx (.sy (.sx (.sx (.sx (.sy (.leaf ⟨753, 16, 1548, 779, 16, 430, ⟨[[(235149459456, 0)], [(415538085888, 0)]], 3,
    4⟩, ⟨[[(0, 311325881313), (0, 2515701773685), (4457707716, 0), (0, 85930990), (0, 2461691)], [(0, 226844593428),
    (0, 284993684), (0, 7168300), (0, 294562), (0, 16511)], [(48355770, 0), (0, 291471), (0, 13124), (0, 864), (0,
    53)], [(0, 21595), (0, 259), (0, 23), (0, 2)]], 3, 4⟩, 1099511627776, 0, 145213025, ⟨[[(25410263692076, 0),
    (59388196469, 0), (93144547, 0), (0, 163455), (2049, 0)], [(32424139343, 0), (83794163, 0), (0, 120769), (2756,
    0), (0, 34)], [(0, 301345), (0, 87278), (1536, 0), (0, 25)], [(0, 10878), (439, 0), (0, 10)]], 3, 4⟩,
    68719476736, 108616823,
    621345902156313518742645994176810447815642689039474287870885962789280560813538647378090695636, ⟨1, 0,
    -314376428243491, [218971276983, 54935092, 18376]⟩⟩) (.leaf ⟨753, 16, 1548, 767, 16, 431, ⟨[[(235149459456, 0)],
    [(415538085888, 0)]], 3, 4⟩, ⟨[[(0, 117529873410), (0, 2480479049209), (1983072899, 0), (0, 222040135), (0,
    10735199)], [(0, 229438182210), (0, 425302914), (0, 18696244), (0, 1193339), (0, 70595)], [(45958589, 0), (0,
    613362), (0, 48852), (0, 3785), (0, 230)], [(0, 24665), (0, 902), (0, 103), (0, 9), (0, 1)]], 3, 4⟩,
    1099511627776, 0, 343859525, ⟨[[(24610118076610, 0), (56570862444, 0), (102396519, 0), (0, 323273), (4019, 0)],
    [(31237931401, 0), (88911533, 0), (0, 282505), (5379, 0), (0, 65)], [(1271065, 0), (0, 147238), (2976, 0), (0,
    47), (1, 0)], [(0, 19315), (822, 0), (0, 18)]], 3, 4⟩, 68719476736, 201751792,
    2780320796299826372953586417109111653588981300479298512304209130172002224860062396856918106371, ⟨1, 0,
    -315107536216150, [219480512511, 55062848, 18419]⟩⟩)) (.sy (.leaf ⟨784, 16, 1548, 773, 16, 436, ⟨[[(224412041216,
    0)], [(415538085888, 0)]], 3, 4⟩, ⟨[[(0, 310147878741), (0, 2576648787512), (3819370634, 0), (0, 118757077), (0,
    4312210)], [(0, 222400171934), (0, 343578849), (0, 10031247), (0, 490518), (0, 28693)], [(43826959, 0), (0,
    376517), (0, 21163), (0, 1532), (0, 96)], [(0, 20526), (0, 412), (0, 43), (0, 4)]], 3, 4⟩, 1099511627776, 0,
    183379117, ⟨[[(25410400077962, 0), (57979067095, 0), (95584165, 0), (0, 216911), (2687, 0)], [(31035154484, 0),
    (81689562, 0), (0, 167559), (3485, 0), (0, 43)], [(184394, 0), (0, 98947), (1870, 0), (0, 30)], [(0, 12168),
    (507, 0), (0, 12)]], 3, 4⟩, 68719476736, 138280780,
    830857699810374347633189252581928617761588319330131405824965276926209835093602484471872789460, ⟨1, 0,
    -300921458838804, [213252623359, 51386174, 16510]⟩⟩) (.sy (.leaf ⟨784, 16, 1548, 988, 16, 565, ⟨[[(224412041216,
    0)], [(415538085888, 0)]], 3, 4⟩, ⟨[[(0, 271261137284), (0, 1653285241940), (462878288, 0), (0, 42282158), (0,
    1053508)], [(0, 290546124647), (0, 309573813), (0, 7085266), (0, 231941), (0, 6954)], [(53797420, 0), (0,
    458333), (0, 19223), (0, 760), (0, 23)], [(0, 30697), (0, 730), (0, 43), (0, 2)]], 3, 4⟩, 1099511627776, 0,
    149595621, ⟨[[(24808044558765, 0), (43113317967, 0), (62310036, 0), (0, 168470), (1613, 0)], [(30147503252, 0),
    (66856480, 0), (0, 186165), (2689, 0), (0, 25)], [(1481250, 0), (0, 116202), (1851, 0), (0, 23)], [(0, 19070),
    (634, 0), (0, 11)]], 3, 4⟩, 68719476736, 64462453,
    885914822755881550154848596082247112927637485139315273097354129717136615062425467319191609431, ⟨1, 0,
    -389955560192487, [276348009628, 66589882, 21394]⟩⟩) (.skip)))) (.sy (.sx (.leaf ⟨815, 16, 1548, 765, 16, 441,
    ⟨[[(213674622976, 0)], [(415538085888, 0)]], 3, 4⟩, ⟨[[(69994891969, 0), (0, 2637517030963), (2859301231, 0), (0,
    173594718), (0, 7546467)], [(0, 218094034822), (0, 420022898), (0, 14738429), (0, 842322), (0, 50847)],
    [(39310328, 0), (0, 515200), (0, 36149), (0, 2809), (0, 178)], [(0, 20211), (0, 708), (0, 81), (0, 7)]], 3, 4⟩,
    1099511627776, 0, 261237558, ⟨[[(25391096323419, 0), (56567291953, 0), (99954475, 0), (0, 295090), (3650, 0)],
    [(29703403265, 0), (80783713, 0), (0, 233734), (4553, 0), (0, 56)], [(767605, 0), (0, 116575), (2345, 0), (0,
    38)], [(0, 14064), (603, 0), (0, 14)]], 3, 4⟩, 68719476736, 182029778,
    1138134090096237440854704831617061762533071196589133537069779482761972762570873479228959831975, ⟨1, 0,
    -287025682462977, [207498250118, 48098806, 14866]⟩⟩) (.leaf ⟨846, 16, 1548, 756, 16, 445, ⟨[[(202937204736, 0)],
    [(415538085888, 0)]], 3, 4⟩, ⟨[[(0, 194983018400), (0, 2700147663669), (1366775239, 0), (0, 268564631), (0,
    13326488)], [(0, 213980483114), (0, 526731060), (0, 22937443), (0, 1495070), (0, 92307)], [(34592909, 0), (0,
    758398), (0, 65007), (0, 5308), (0, 338)], [(0, 21131), (0, 1290), (0, 159), (0, 14), (0, 1)]], 3, 4⟩,
    1099511627776, 0, 411855150, ⟨[[(25405227223282, 0), (55302491168, 0), (105953004, 0), (0, 394359), (4901, 0)],
    [(28488540106, 0), (80832784, 0), (0, 313519), (5869, 0), (0, 72)], [(1373922, 0), (0, 137389), (2895, 0), (0,
    46), (1, 0)], [(0, 16135), (708, 0), (0, 16)]], 3, 4⟩, 68719476736, 231286435,
    2284333402014451671929252601902947945994891984472327896397936202066979234494226365941933886954, ⟨1, 0,
    -272778211503853, [201712081793, 45045128, 13412]⟩⟩)) (.sy (.sx (.leaf ⟨815, 16, 1548, 982, 16, 574,
    ⟨[[(213674622976, 0)], [(415538085888, 0)]], 3, 4⟩, ⟨[[(0, 228541901085), (0, 1709018184232), (0, 279860192), (0,
    68670294), (0, 1846576)], [(0, 286851404843), (0, 409279479), (0, 11507581), (0, 408850), (0, 12405)],
    [(46741557, 0), (0, 715172), (0, 34652), (0, 1410), (0, 44)], [(0, 33726), (0, 1357), (0, 84), (0, 4)]], 3, 4⟩,
    1099511627776, 0, 193672581, ⟨[[(24806562508178, 0), (41751375259, 0), (66230914, 0), (0, 225665), (2152, 0)],
    [(28820176808, 0), (67244428, 0), (0, 249144), (3453, 0), (0, 32)], [(2306203, 0), (0, 138918), (2285, 0), (0,
    27)], [(0, 22224), (748, 0), (0, 13)]], 3, 4⟩, 68719476736, 79160569,
    2102187064090562661428346260346145169932956621431448759719494440691133879815516753269170753407, ⟨1, 0,
    -373588983523240, [270077087456, 62604795, 19349]⟩⟩) (.skip)) (.skip)))) (.sx (.sy (.sy (.sx (.leaf ⟨877, 16,
    1548, 995, 16, 595, ⟨[[(192199786496, 0)], [(415538085888, 0)]], 3, 4⟩, ⟨[[(0, 507069751901), (0, 1837653423071),
    (207915834, 0), (0, 52996159), (0, 1364118)], [(0, 277844595379), (0, 392280574), (0, 9178476), (0, 312001), (0,
    9795)], [(40979547, 0), (0, 600273), (0, 27650), (0, 1157), (0, 37)], [(0, 28188), (0, 1104), (0, 70), (0, 3)]],
    3, 4⟩, 1099511627776, 0, 152548169, ⟨[[(25620451262179, 0), (41306904206, 0), (61931741, 0), (0, 189438), (1783,
    0)], [(27626683322, 0), (59837700, 0), (0, 194876), (2731, 0), (0, 26)], [(1534566, 0), (0, 106092), (1720, 0),
    (0, 21)], [(0, 15957), (535, 0), (0, 9)]], 3, 4⟩, 68719476736, 62765563,
    1726707651953493440991481787634805342116786319062786067628991401407180350977768499127682950189, ⟨1, 0,
    -343005474964967, [260176351654, 56048331, 16099]⟩⟩) (.leaf ⟨908, 16, 1548, 981, 16, 599, ⟨[[(181462368256, 0)],
    [(415538085888, 0)]], 3, 4⟩, ⟨[[(0, 437874356872), (0, 1887177343019), (0, 782040893), (0, 89002793), (0,
    2501995)], [(0, 273550092369), (0, 522035758), (0, 15612109), (0, 585282), (0, 18641)], [(33659538, 0), (0,
    986370), (0, 52641), (0, 2266), (0, 73)], [(0, 34189), (0, 2105), (0, 139), (0, 6)]], 3, 4⟩, 1099511627776, 0,
    228963872, ⟨[[(25618224668059, 0), (40244617769, 0), (67764187, 0), (0, 260894), (2479, 0)], [(26496475289, 0),
    (61565890, 0), (0, 266691), (3644, 0), (0, 34)], [(2340900, 0), (0, 130666), (2196, 0), (0, 26)], [(0, 19046),
    (650, 0), (0, 11)]], 3, 4⟩, 68719476736, 81177717,
    2753190098167550217474519400184444616563251750857044505177066518815535565941489947861271627866, ⟨1, 0,
    -324204205078317, [252987489729, 52639927, 14604]⟩⟩)) (.skip)) (.skip)) (.skip))) (.skip)) (.skip)
theorem c59 : checkC job ⟨6, 8, 8, 10, 9, 13⟩ 3 100 lims t59 163 41 256 33 3 32 = true := by decide +kernel

def t60 : CTree :=
  .sx (.sx (.sx (.leaf ⟨499, 16, 3096, 508, 16, 189, ⟨[[(269509197824, 0)], [(415538085888, 0)]], 3, 4⟩, ⟨[[(0,
    474214789778), (0, 3537113149190), (33213412566, 0), (0, 470578552), (5626789, 0)], [(0, 145373637118), (0,
    20746434), (0, 1308600), (0, 89037), (0, 11874)], [(54769030, 0), (0, 24640), (0, 1938), (0, 228), (0, 39)], [(0,
    27837), (0, 15), (0, 2)]], 3, 4⟩, 1099511627776, 0, 448731040, ⟨[[(21632428382508, 0), (122285444136, 0),
    (334962906, 0), (270725, 0), (3971, 0)], [(42802992558, 0), (232382278, 0), (346584, 0), (3903, 0), (0, 103)],
    [(0, 2514789), (0, 96931), (1082, 0), (0, 58), (1, 0)], [(0, 5287), (242, 0), (0, 17), (1, 0)]], 3, 4⟩,
    68719476736, 632104963,
    1937917611437452368364878029110741050765193271968919857400865122843163130693804752877834146738, ⟨3, 0,
    -350022290851625, [145206139993, 54960689, 27737]⟩⟩) (.leaf ⟨530, 16, 3096, 508, 16, 193, ⟨[[(258771779584, 0)],
    [(415538085888, 0)]], 3, 4⟩, ⟨[[(0, 474894350734), (0, 3613887935392), (33792163932, 0), (0, 489828700),
    (4427183, 0)], [(0, 139818186042), (0, 25640580), (0, 1709792), (0, 139417), (0, 20775)], [(49533218, 0), (0,
    29289), (0, 2616), (0, 370), (0, 67)], [(0, 23753), (0, 18), (0, 3), (0, 1)]], 3, 4⟩, 1099511627776, 0,
    591052570, ⟨[[(21632362290457, 0), (119680456127, 0), (323252392, 0), (202522, 0), (4637, 0)], [(40283684396, 0),
    (215114853, 0), (275943, 0), (4458, 0), (0, 108)], [(0, 2037006), (0, 95604), (1355, 0), (0, 60), (1, 0)], [(0,
    6315), (298, 0), (0, 17)]], 3, 4⟩, 68719476736, 641252279,
    2091140746588445680599564058622927924528109127313734225444208933580218807175595093142911259570, ⟨3, 0,
    -345633721354430, [139612926984, 49755141, 23642]⟩⟩)) (.sx (.leaf ⟨561, 16, 3096, 508, 16, 197, ⟨[[(248034361344,
    0)], [(415538085888, 0)]], 3, 4⟩, ⟨[[(0, 284089284694), (0, 3691145119464), (34329526949, 0), (0, 514628792),
    (2229408, 0)], [(0, 134886431118), (0, 31477917), (0, 2256198), (0, 221025), (0, 35846)], [(45076826, 0), (0,
    34983), (0, 3623), (0, 600), (0, 113)], [(0, 20475), (0, 23), (0, 5), (0, 1)]], 3, 4⟩, 1099511627776, 0,
    874824616, ⟨[[(21611750995306, 0), (117056262333, 0), (312501778, 0), (130941, 0), (5398, 0)], [(38008513898, 0),
    (199907854, 0), (209421, 0), (5063, 0), (0, 115)], [(0, 1656311), (0, 94801), (1613, 0), (0, 61), (1, 0)], [(0,
    6760), (341, 0), (0, 17)]], 3, 4⟩, 68719476736, 680008009,
    2366143864562919577574926284640129799413378104543542878078091691499113435619539347296017872424, ⟨2, 0,
    -341440323709063, [134637415614, 45332463, 20351]⟩⟩) (.sy (.leaf ⟨592, 16, 3096, 771, 16, 302, ⟨[[(237296943104,
    0)], [(415538085888, 0)]], 3, 4⟩, ⟨[[(205036345013, 0), (0, 2912663510934), (14009618453, 0), (0, 105961410),
    (535733, 0)], [(0, 195969811226), (0, 23421354), (0, 753924), (0, 25928), (0, 1759)], [(62052125, 0), (0, 23541),
    (0, 957), (0, 59), (0, 5)], [(0, 26712), (0, 12), (0, 1)]], 3, 4⟩, 1099511627776, 0, 161558861,
    ⟨[[(22172817140574, 0), (78242841378, 0), (134876746, 0), (46989, 0), (795, 0)], [(36909372310, 0), (125402320,
    0), (95792, 0), (1067, 0), (0, 16)], [(0, 1776455), (0, 53446), (466, 0), (0, 13)], [(0, 5464), (153, 0), (0,
    5)]], 3, 4⟩, 68719476736, 57363066,
    1351892316370123888748406090488856851927294497324637547336012962510052082620001306459244431833, ⟨2, 0,
    -506952369219171, [195597788722, 62411547, 26552]⟩⟩) (.leaf ⟨592, 16, 3096, 778, 16, 311, ⟨[[(237296943104, 0)],
    [(415538085888, 0)]], 3, 4⟩, ⟨[[(277266963848, 0), (0, 2837931558284), (12474576965, 0), (0, 118050746), (0,
    2200542)], [(0, 201992500860), (0, 39493668), (0, 2270379), (0, 202080), (0, 18797)], [(63694910, 0), (0, 52278),
    (0, 5175), (0, 599), (0, 58)], [(0, 27665), (0, 54), (0, 9), (0, 1)]], 3, 4⟩, 1099511627776, 0, 267137793,
    ⟨[[(20991265705703, 0), (71932971203, 0), (126602832, 0), (0, 28970), (1670, 0)], [(34981769987, 0), (119928792,
    0), (13935, 0), (2391, 0), (0, 32)], [(0, 776626), (0, 77725), (1285, 0), (0, 25)], [(0, 9479), (385, 0), (0,
    11)]], 3, 4⟩, 68719476736, 106777114,
    1615592661927340548527940903825554998081131235524922961664843582309222891327383444856177469329, ⟨2, 0,
    -522060221281994, [201426861895, 64271494, 27344]⟩⟩)))) (.sx (.sy (.leaf ⟨319, 16, 1548, 527, 16, 212,
    ⟨[[(385473314816, 0)], [(415538085888, 0)]], 3, 4⟩, ⟨[[(0, 502902964336), (0, 2046940713438), (9757939756, 0),
    (0, 77398654), (152435, 0)], [(0, 255284385647), (0, 41869379), (0, 1458744), (0, 64563), (0, 5103)],
    [(149483388, 0), (0, 80609), (0, 3927), (0, 308), (0, 30)], [(0, 119869), (0, 89), (0, 9), (0, 1)]], 3, 4⟩,
    1099511627776, 0, 1281747874, ⟨[[(22222210152221, 0), (111564932045, 0), (276862293, 0), (79991, 0), (4233, 0)],
    [(68608671037, 0), (333759425, 0), (291213, 0), (7469, 0), (0, 158)], [(0, 5774559), (0, 297457), (4592, 0), (0,
    159), (3, 0)], [(0, 41690), (1902, 0), (0, 83), (2, 0)]], 3, 4⟩, 68719476736, 748795322,
    1980781493762312505312651563341311479260738128482141437355325173415199594660832410518694617719, ⟨2, 0,
    -339615149543324, [254627406264, 150667104, 118870]⟩⟩) (.sx (.leaf ⟨623, 16, 3096, 781, 16, 318,
    ⟨[[(226559524864, 0)], [(415538085888, 0)]], 3, 4⟩, ⟨[[(0, 274493842958), (0, 2905511774509), (12523914035, 0),
    (0, 142490156), (0, 4295011)], [(0, 196400841642), (0, 50398753), (0, 3398009), (0, 334419), (0, 31614)],
    [(58666835, 0), (0, 69634), (0, 8027), (0, 971), (0, 94)], [(0, 24385), (0, 78), (0, 14), (0, 2)]], 3, 4⟩,
    1099511627776, 0, 322846845, ⟨[[(21027762100957, 0), (70370891953, 0), (122802400, 0), (0, 50061), (1801, 0)],
    [(33274312655, 0), (112480098, 0), (0, 10371), (2503, 0), (0, 32)], [(0, 543240), (0, 77641), (1330, 0), (0,
    25)], [(0, 9457), (386, 0), (0, 10)]], 3, 4⟩, 68719476736, 104183673,
    1851849641487493209692136975004225006543489457884403120712056713465386336285801584853654623772, ⟨2, 0,
    -517349058450660, [195718761334, 59344682, 23992]⟩⟩) (.leaf ⟨654, 16, 3096, 783, 16, 325, ⟨[[(215822106624, 0)],
    [(415538085888, 0)]], 3, 4⟩, ⟨[[(353563773982, 0), (0, 2974219920656), (12451148062, 0), (0, 181450358), (0,
    7797782)], [(0, 191370838605), (0, 64996027), (0, 5141050), (0, 547179), (0, 52309)], [(54238663, 0), (0, 94715),
    (0, 12425), (0, 1551), (0, 151)], [(0, 21691), (0, 114), (0, 21), (0, 3)]], 3, 4⟩, 1099511627776, 0, 436066045,
    ⟨[[(20988917183883, 0), (68599744160, 0), (119633244, 0), (0, 79657), (2042, 0)], [(31609402044, 0), (105974741,
    0), (0, 41628), (2760, 0), (0, 34)], [(0, 249707), (0, 80794), (1450, 0), (0, 26)], [(0, 9813), (407, 0), (0,
    10)]], 3, 4⟩, 68719476736, 110248703,
    1857511519934005746516111747336877238914660144192862818029574608415725917715689581496230263343, ⟨2, 0,
    -512729810966105, [190551462905, 55040862, 21198]⟩⟩))) (.sy (.leaf ⟨350, 16, 1548, 540, 16, 225,
    ⟨[[(374735896576, 0)], [(415538085888, 0)]], 3, 4⟩, ⟨[[(0, 511208235898), (0, 2176737133884), (10195283708, 0),
    (0, 90712176), (0, 571253)], [(0, 247262395449), (0, 60641064), (0, 2467193), (0, 151654), (0, 13633)],
    [(131327907, 0), (0, 113978), (0, 7416), (0, 741), (0, 75)], [(0, 96808), (0, 142), (0, 18), (0, 2)]], 3, 4⟩,
    1099511627776, 0, 986656555, ⟨[[(22222709961229, 0), (104888495210, 0), (250331529, 0), (0, 20317), (4808, 0)],
    [(62474414547, 0), (289505277, 0), (130122, 0), (8251, 0), (0, 159)], [(0, 4154094), (0, 282665), (5249, 0), (0,
    154), (3, 0)], [(0, 40222), (2015, 0), (0, 79), (2, 0)]], 3, 4⟩, 68719476736, 748956414,
    2327056611551279306458677684702807468846981995808540672845533620006657782692014784048863661765, ⟨2, 0,
    -339291163929207, [246336506564, 132867587, 95554]⟩⟩) (.sy (.leaf ⟨350, 16, 1548, 668, 16, 283, ⟨[[(374735896576,
    0)], [(415538085888, 0)]], 3, 4⟩, ⟨[[(0, 400119122302), (0, 1315003267342), (2753118560, 0), (0, 21907387), (0,
    504500)], [(0, 311435197173), (0, 63147656), (0, 2465987), (0, 131872), (0, 6400)], [(164204279, 0), (0, 170780),
    (0, 11223), (0, 710), (0, 35)], [(0, 123507), (0, 384), (0, 36), (0, 2)]], 3, 4⟩, 1099511627776, 0, 1188111640,
    ⟨[[(21308618819163, 0), (79830725641, 0), (160402886, 0), (0, 131836), (3689, 0)], [(59899844270, 0), (230308896,
    0), (0, 116270), (8062, 0), (0, 116)], [(0, 1093512), (0, 335035), (6883, 0), (0, 141), (2, 0)], [(0, 65930),
    (3144, 0), (0, 92), (2, 0)]], 3, 4⟩, 68719476736, 454943111,
    1449060301937660526583593856073682152130342717743142477487781183272365346367035453971212376474, ⟨2, 0,
    -426752886186514, [309836583811, 167117898, 120185]⟩⟩) (.sx (.leaf ⟨685, 16, 3096, 1081, 16, 459,
    ⟨[[(205084688384, 0)], [(415538085888, 0)]], 3, 4⟩, ⟨[[(0, 132841053084), (0, 2080522928665), (3756566989, 0),
    (0, 61298626), (0, 2115553)], [(0, 258508813822), (0, 79976616), (0, 4565039), (0, 271740), (0, 12975)],
    [(69192345, 0), (0, 144259), (0, 11757), (0, 754), (0, 36)], [(0, 27397), (0, 204), (0, 20), (0, 1)]], 3, 4⟩,
    1099511627776, 0, 165126740, ⟨[[(20742493561304, 0), (47842563020, 0), (61839282, 0), (0, 53958), (735, 0)],
    [(29774674774, 0), (72971753, 0), (0, 54314), (1335, 0), (0, 12)], [(314138, 0), (0, 68897), (962, 0), (0, 12)],
    [(0, 11636), (359, 0), (0, 6)]], 3, 4⟩, 68719476736, 31819810,
    1826228039162004726845159861321012818434906472023376219228374286585067919408848418553667859484, ⟨2, 0,
    -702571383530969, [256945416896, 70861946, 26057]⟩⟩) (.leaf ⟨716, 16, 3096, 1090, 16, 471, ⟨[[(194347270144, 0)],
    [(415538085888, 0)]], 3, 4⟩, ⟨[[(0, 247713150233), (0, 2142767732786), (3377173192, 0), (0, 91782314), (0,
    3552074)], [(0, 254169599387), (0, 111146774), (0, 7130577), (0, 436508), (0, 20900)], [(64452805, 0), (0,
    210390), (0, 18153), (0, 1175), (0, 57)], [(0, 25250), (0, 302), (0, 30), (0, 2)]], 3, 4⟩, 1099511627776, 0,
    170870902, ⟨[[(20747751161664, 0), (46507417414, 0), (60173787, 0), (0, 64886), (790, 0)], [(28451096497, 0),
    (69146879, 0), (0, 68524), (1401, 0), (0, 12)], [(550380, 0), (0, 70752), (994, 0), (0, 11)], [(0, 11829), (362,
    0), (0, 6)]], 3, 4⟩, 68719476736, 29589536,
    2365895588222926644333878739590968231307216944177826541956680207306070277104276020278687400226, ⟨2, 0,
    -699793574092720, [252253782436, 66557726, 23415]⟩⟩)))))
theorem c60 : checkC job ⟨6, 8, 8, 10, 9, 13⟩ 3 100 lims t60 201 41 1024 39 3 32 = true := by decide +kernel

def t61 : CTree :=
  .sx (.sy (.sx (.leaf ⟨747, 16, 3096, 781, 16, 334, ⟨[[(183609851904, 0)], [(415538085888, 0)]], 3, 4⟩,
    ⟨[[(23132859238, 0), (0, 3237474774697), (14860194136, 0), (0, 153630049), (0, 2612612)], [(0, 172300036827), (0,
    56756556), (0, 2693688), (0, 205010), (0, 19526)], [(42700162, 0), (0, 53895), (0, 4402), (0, 497), (0, 51)],
    [(0, 14893), (0, 37), (0, 6), (0, 1)]], 3, 4⟩, 1099511627776, 0, 210312827, ⟨[[(22189036483514, 0), (70394611698,
    0), (115606754, 0), (0, 34228), (1319, 0)], [(29199774674, 0), (92253214, 0), (4007, 0), (1575, 0), (0, 20)],
    [(0, 750091), (0, 49487), (719, 0), (0, 13)], [(0, 5053), (187, 0), (0, 5)]], 3, 4⟩, 68719476736, 64988840,
    1935704420447049439774523228949423383067012273610221703655377669609628078720930216754041646159, ⟨2, 0,
    -481884557866430, [171461173471, 43363979, 14623]⟩⟩) (.leaf ⟨778, 16, 3096, 782, 16, 340, ⟨[[(172872433664, 0)],
    [(415538085888, 0)]], 3, 4⟩, ⟨[[(251866303864, 0), (0, 3300761964229), (14868652992, 0), (0, 177387371), (0,
    4689091)], [(0, 168560692275), (0, 67611844), (0, 3609183), (0, 309869), (0, 30301)], [(39949649, 0), (0, 65538),
    (0, 6189), (0, 742), (0, 77)], [(0, 13485), (0, 49), (0, 8), (0, 1)]], 3, 4⟩, 1099511627776, 0, 285996109,
    ⟨[[(22175336103089, 0), (68988757931, 0), (113078164, 0), (0, 52956), (1470, 0)], [(27997212965, 0), (87681925,
    0), (0, 13156), (1712, 0), (0, 21)], [(0, 578498), (0, 50173), (774, 0), (0, 14)], [(0, 5092), (194, 0), (0,
    5)]], 3, 4⟩, 68719476736, 69094674,
    1913418231020846595131568705684045391103778687234100382241494390588293647700973115455784797421, ⟨2, 0,
    -476517635997630, [167590178919, 40696984, 13177]⟩⟩)) (.sy (.leaf ⟨381, 16, 1548, 686, 16, 301, ⟨[[(363998478336,
    0)], [(415538085888, 0)]], 3, 4⟩, ⟨[[(442928906460, 0), (0, 1405640306451), (2607469440, 0), (0, 41601656), (0,
    1432473)], [(0, 305052951675), (0, 107381763), (0, 5574090), (0, 331425), (0, 16308)], [(145846555, 0), (0,
    324669), (0, 25712), (0, 1689), (0, 84)], [(0, 104613), (0, 797), (0, 79), (0, 5)]], 3, 4⟩, 1099511627776, 0,
    948957941, ⟨[[(21252176264355, 0), (74484751985, 0), (147932092, 0), (0, 212282), (4259, 0)], [(54743791164, 0),
    (204294393, 0), (0, 251597), (9019, 0), (0, 122)], [(773937, 0), (0, 356571), (7620, 0), (0, 142), (2, 0)], [(0,
    70287), (3339, 0), (0, 90), (1, 0)]], 3, 4⟩, 68719476736, 418037009,
    2694249446743538322124949277834563171648570660754289478962229280322677041632771385882767671594, ⟨2, 0,
    -428002671297032, [302761970783, 150030709, 99128]⟩⟩) (.sx (.sy (.leaf ⟨747, 16, 3096, 1368, 16, 600,
    ⟨[[(183609851904, 0)], [(415538085888, 0)]], 3, 4⟩, ⟨[[(370588765987, 0), (0, 1377252952749), (1018209955, 0),
    (0, 17021228), (0, 341122)], [(0, 310683253146), (0, 79190847), (0, 2596847), (0, 80410), (0, 1942)], [(75051264,
    0), (0, 146297), (0, 6412), (0, 209), (0, 5)], [(0, 28702), (0, 204), (0, 10)]], 3, 4⟩, 1099511627776, 0,
    127912975, ⟨[[(20862105454252, 0), (36629226419, 0), (37762526, 0), (0, 35691), (329, 0)], [(27389044281, 0),
    (52687699, 0), (0, 46920), (710, 0), (0, 5)], [(613201, 0), (0, 54882), (615, 0), (0, 6)], [(0, 11210), (272, 0),
    (0, 4)]], 3, 4⟩, 68719476736, 15241270,
    1692370725623852997358156065861944342374762347588356343198194762616742555141776643726747886801, ⟨2, 0,
    -865660882394785, [308014084079, 77899364, 26269]⟩⟩) (.leaf ⟨747, 16, 3096, 1361, 16, 600, ⟨[[(183609851904, 0)],
    [(415538085888, 0)]], 3, 4⟩, ⟨[[(0, 163866622990), (0, 1367214983604), (621837455, 0), (0, 28060187), (0,
    602368)], [(0, 311272083112), (0, 120981154), (0, 4554980), (0, 142984), (0, 3405)], [(73889985, 0), (0, 250957),
    (0, 11520), (0, 373), (0, 9)], [(0, 30379), (0, 371), (0, 18), (0, 1)]], 3, 4⟩, 1099511627776, 0, 137270322,
    ⟨[[(20607564296366, 0), (36094830698, 0), (38615185, 0), (0, 45830), (397, 0)], [(27017676038, 0), (53455717, 0),
    (0, 63302), (854, 0), (0, 6)], [(1029482, 0), (0, 64354), (742, 0), (0, 7)], [(0, 13301), (327, 0), (0, 4)]], 3,
    4⟩, 68719476736, 17140443,
    3413670774544144671800469237497998126272367117561243744998458116110926681807239746927443822047, ⟨2, 0,
    -865660882394785, [308014084079, 77899364, 26269]⟩⟩)) (.sy (.leaf ⟨778, 16, 3096, 1384, 16, 617,
    ⟨[[(172872433664, 0)], [(415538085888, 0)]], 3, 4⟩, ⟨[[(0, 288861896919), (0, 1424091025846), (777435283, 0), (0,
    25942253), (0, 554787)], [(0, 307407706508), (0, 110882987), (0, 3989963), (0, 125936), (0, 3047)], [(70210519,
    0), (0, 212228), (0, 9680), (0, 318), (0, 8)], [(0, 27256), (0, 297), (0, 15)]], 3, 4⟩, 1099511627776, 0,
    118609413, ⟨[[(20883895976164, 0), (35543041791, 0), (36678250, 0), (0, 40451), (346, 0)], [(26280344399, 0),
    (50089335, 0), (0, 54195), (731, 0), (0, 5)], [(808590, 0), (0, 55890), (624, 0), (0, 5)], [(0, 11318), (271, 0),
    (0, 3)]], 3, 4⟩, 68719476736, 13676402,
    2395022210341536255031627920878179831154761608603059487436872784933930106244500433784697956262, ⟨2, 0,
    -864739357089817, [304126883509, 73853056, 23912]⟩⟩) (.sy (.sx (.leaf ⟨1541, 16, 6193, 2763, 16, 1232,
    ⟨[[(74960601088, 0)], [(415605194752, 0)]], 3, 4⟩, ⟨[[(0, 115743445964), (0, 1413541051975), (233812620, 0), (0,
    8640054), (0, 94680)], [(0, 310363220568), (0, 71413332), (0, 1380153), (0, 21839), (0, 261)], [(35351428, 0),
    (0, 73473), (0, 1708), (0, 28)], [(0, 7313), (0, 53), (0, 1)]], 3, 4⟩, 1099511627776, 0, 16769894,
    ⟨[[(20674532103066, 0), (17597846792, 0), (9321509, 0), (0, 5873), (24, 0)], [(13124294583, 0), (12774724, 0),
    (0, 8148), (52, 0)], [(275180, 0), (0, 7871), (45, 0)], [(0, 1620), (20, 0)]], 3, 4⟩, 68719476736, 1275960,
    2757298968236539673525929410042208198665571401812433007796897087441762806886072819872710399008, ⟨2, 0,
    -1739187049412903, [306687440146, 37611901, 6150]⟩⟩) (.skip)) (.skip)))))) (.sy (.sx (.leaf ⟨809, 16, 3096, 781,
    16, 345, ⟨[[(162135015424, 0)], [(415538085888, 0)]], 3, 4⟩, ⟨[[(239459497456, 0), (0, 3355404880194),
    (14739788448, 0), (0, 211534010), (0, 7875650)], [(0, 164657397327), (0, 80614119), (0, 4879975), (0, 464033),
    (0, 46266)], [(37352529, 0), (0, 80558), (0, 8703), (0, 1091), (0, 113)], [(0, 12248), (0, 65), (0, 12), (0,
    2)]], 3, 4⟩, 1099511627776, 0, 407602492, ⟨[[(22176981966894, 0), (67861207093, 0), (111463659, 0), (0, 71998),
    (1637, 0)], [(26902371196, 0), (83821413, 0), (0, 29283), (1855, 0), (0, 23)], [(0, 425702), (0, 50995), (826,
    0), (0, 14)], [(0, 5118), (199, 0), (0, 5)]], 3, 4⟩, 68719476736, 74021611,
    1772230129735075898151273058071501638878258235998152524268914199247168953390243116389812968842, ⟨2, 0,
    -469851271534364, [163541667646, 38192823, 11893]⟩⟩) (.leaf ⟨840, 16, 3096, 778, 16, 349, ⟨[[(151397597184, 0)],
    [(415538085888, 0)]], 3, 4⟩, ⟨[[(85894715485, 0), (0, 3401581965862), (14439680190, 0), (0, 260887700), (0,
    12680849)], [(0, 160610949733), (0, 96369709), (0, 6644087), (0, 687603), (0, 69550)], [(34893015, 0), (0,
    100092), (0, 12202), (0, 1583), (0, 165)], [(0, 11161), (0, 86), (0, 16), (0, 2)]], 3, 4⟩, 1099511627776, 0,
    593266545, ⟨[[(22187134521422, 0), (66968938198, 0), (110697918, 0), (0, 92289), (1832, 0)], [(25895437064, 0),
    (80571692, 0), (0, 45122), (2014, 0), (0, 25)], [(0, 285543), (0, 52043), (878, 0), (0, 15)], [(0, 5145), (204,
    0), (0, 5)]], 3, 4⟩, 68719476736, 81546893,
    2220654138106841709869818581268361735358993160698311070479598403742414222440584393706200709908, ⟨2, 0,
    -461986260401172, [159335283877, 35837896, 10748]⟩⟩)) (.sy (.sy (.leaf ⟨412, 16, 1548, 813, 16, 367,
    ⟨[[(353261060096, 0)], [(415538085888, 0)]], 3, 4⟩, ⟨[[(0, 484000941395), (0, 867783249484), (688570622, 0), (0,
    9973990), (0, 198945)], [(0, 344891419415), (0, 91455217), (0, 2716224), (0, 84432), (0, 2105)], [(150205362, 0),
    (0, 282221), (0, 12071), (0, 405), (0, 10)], [(0, 104192), (0, 687), (0, 35), (0, 1)]], 3, 4⟩, 1099511627776, 0,
    830095161, ⟨[[(21455329240647, 0), (61399857526, 0), (102999602, 0), (0, 153517), (2343, 0)], [(50992830665, 0),
    (158543903, 0), (0, 215889), (5535, 0), (0, 62)], [(1328819, 0), (0, 288957), (5262, 0), (0, 80), (1, 0)], [(0,
    64322), (2571, 0), (0, 57), (1, 0)]], 3, 4⟩, 68719476736, 221749415,
    2278885071680515206262857755474445966926920401367190658205926482188276683724645961738585088745, ⟨2, 0,
    -492747451621639, [341402980187, 156463327, 95609]⟩⟩) (.sx (.leaf ⟨809, 16, 3096, 1405, 16, 633,
    ⟨[[(162135015424, 0)], [(415538085888, 0)]], 3, 4⟩, ⟨[[(0, 463383040214), (0, 1480248350155), (941191608, 0), (0,
    23528192), (0, 497918)], [(0, 303362467592), (0, 100966444), (0, 3420501), (0, 108152), (0, 2658)], [(66769095,
    0), (0, 176453), (0, 7937), (0, 264), (0, 7)], [(0, 24505), (0, 232), (0, 12)]], 3, 4⟩, 1099511627776, 0,
    102523230, ⟨[[(21168913622128, 0), (35091375566, 0), (34968816, 0), (0, 35539), (301, 0)], [(25609993700, 0),
    (47087381, 0), (0, 45969), (625, 0), (0, 4)], [(604257, 0), (0, 48450), (524, 0), (0, 5)], [(0, 9594), (224, 0),
    (0, 3)]], 3, 4⟩, 68719476736, 11463504,
    2149501960523133055573047598438130518912154661818426610748537868331880030281849119271051139100, ⟨2, 0,
    -862074941684790, [300063407593, 70075527, 21820]⟩⟩) (.sy (.leaf ⟨840, 16, 3096, 1642, 16, 751, ⟨[[(151397597184,
    0)], [(415538085888, 0)]], 3, 4⟩, ⟨[[(497850776213, 0), (0, 884991322716), (221055059, 0), (0, 4469336), (0,
    49083)], [(0, 347267702716), (0, 71896584), (0, 1280299), (0, 20526), (0, 254)], [(72700051, 0), (0, 125848), (0,
    2899), (0, 49), (0, 1)], [(0, 26782), (0, 163), (0, 4)]], 3, 4⟩, 1099511627776, 0, 101716053, ⟨[[(21211735642792,
    0), (29541807351, 0), (25483133, 0), (0, 25340), (175, 0)], [(24673491089, 0), (38878016, 0), (0, 38254), (412,
    0), (0, 2)], [(747332, 0), (0, 42250), (394, 0), (0, 3)], [(0, 9581), (191, 0), (0, 2)]], 3, 4⟩, 68719476736,
    7268421, 1652446607448507089369033199441775087527066455061241456214534845616384447944794307877055068298, ⟨2, 0,
    -994130892725732, [342867616594, 77118222, 23127]⟩⟩) (.leaf ⟨840, 16, 3096, 1635, 16, 750, ⟨[[(151397597184, 0)],
    [(415538085888, 0)]], 3, 4⟩, ⟨[[(493815562004, 0), (0, 881691448178), (128724692, 0), (0, 5828831), (0, 65537)],
    [(0, 347286906123), (0, 89593476), (0, 1707954), (0, 27545), (0, 338)], [(71733610, 0), (0, 166231), (0, 3913),
    (0, 65), (0, 1)], [(0, 27888), (0, 221), (0, 6)]], 3, 4⟩, 1099511627776, 0, 105597053, ⟨[[(21069939099632, 0),
    (29333362485, 0), (25943847, 0), (0, 29012), (195, 0)], [(24485162893, 0), (39328932, 0), (0, 44660), (460, 0),
    (0, 2)], [(960473, 0), (0, 46322), (440, 0), (0, 3)], [(0, 10552), (212, 0), (0, 2)]], 3, 4⟩, 68719476736,
    8557992, 3958470512288361382386248288226641336223345495208530002940815922936974956846606848993721729280, ⟨2, 0,
    -992807149859253, [342411068503, 77015535, 23097]⟩⟩)))) (.sy (.sx (.sy (.leaf ⟨809, 16, 3096, 1611, 16, 729,
    ⟨[[(162135015424, 0)], [(415538085888, 0)]], 3, 4⟩, ⟨[[(0, 400602751981), (0, 848432822442), (159285256, 0), (0,
    5003242), (0, 55293)], [(0, 349985792350), (0, 80273038), (0, 1513093), (0, 24176), (0, 294)], [(75764561, 0),
    (0, 153513), (0, 3577), (0, 59), (0, 1)], [(0, 29745), (0, 211), (0, 5)]], 3, 4⟩, 1099511627776, 0, 117251869,
    ⟨[[(20954497161181, 0), (30093173755, 0), (26913840, 0), (0, 28517), (200, 0)], [(25318604730, 0), (41442294, 0),
    (0, 44073), (479, 0), (0, 3)], [(923053, 0), (0, 48140), (464, 0), (0, 3)], [(0, 11085), (227, 0), (0, 2)]], 3,
    4⟩, 68719476736, 9894429,
    3048045134465531514688733987047372294732249043677873236828594225492468612644054513186400885697, ⟨2, 0,
    -992816165068265, [345570654243, 80703095, 25129]⟩⟩) (.sx (.leaf ⟨1603, 16, 6193, 2796, 16, 1264,
    ⟨[[(64491618304, 0)], [(415605194752, 0)]], 3, 4⟩, ⟨[[(14770290870, 0), (0, 1465337192791), (165534562, 0), (0,
    10244835), (0, 114305)], [(0, 306576131349), (0, 80903511), (0, 1586204), (0, 25342), (0, 306)], [(33216782, 0),
    (0, 80914), (0, 1903), (0, 31)], [(0, 6831), (0, 57), (0, 1)]], 3, 4⟩, 1099511627776, 0, 15279806,
    ⟨[[(20808096293011, 0), (17221074691, 0), (9024000, 0), (0, 5950), (24, 0)], [(12682206617, 0), (12127048, 0),
    (0, 8169), (50, 0)], [(277533, 0), (0, 7506), (42, 0)], [(0, 1520), (18, 0)]], 3, 4⟩, 68719476736, 1141043,
    3832794200137855066882520997818041805342276501763148743776621460129370416233335322745355214939, ⟨2, 0,
    -1733768455730996, [302485663405, 35662068, 5606]⟩⟩) (.skip))) (.skip)) (.skip))))
theorem c61 : checkC job ⟨6, 8, 8, 10, 9, 13⟩ 3 100 lims t61 525 41 2048 39 3 32 = true := by decide +kernel

def t62 : CTree :=
  .sx (.sy (.sy (.leaf ⟨443, 16, 1548, 726, 16, 331, ⟨[[(342523641856, 0)], [(415538085888, 0)]], 3, 4⟩, ⟨[[(0,
    229408775314), (0, 1639628601180), (3514147803, 0), (0, 31673464), (0, 746950)], [(0, 288969059655), (0,
    95453923), (0, 3071895), (0, 153755), (0, 7859)], [(118492539, 0), (0, 179847), (0, 10355), (0, 671), (0, 36)],
    [(0, 72239), (0, 278), (0, 26), (0, 2)]], 3, 4⟩, 1099511627776, 0, 550703511, ⟨[[(22510968077459, 0),
    (71491548051, 0), (124721423, 0), (0, 110415), (2284, 0)], [(49761111681, 0), (162631996, 0), (0, 94207), (4481,
    0), (0, 59)], [(0, 1276242), (0, 197751), (3496, 0), (0, 64), (1, 0)], [(0, 34704), (1461, 0), (0, 37), (1, 0)]],
    3, 4⟩, 68719476736, 221652636,
    1564510744387999408164401946449653018378435469256744564577922680299952348568601512344276697088, ⟨2, 0,
    -420067459335975, [286388764476, 122075347, 69381]⟩⟩) (.leaf ⟨443, 16, 1548, 721, 16, 333, ⟨[[(342523641856, 0)],
    [(415538085888, 0)]], 3, 4⟩, ⟨[[(311875313226, 0), (0, 1611485909439), (2698152309, 0), (0, 68796212), (0,
    2703479)], [(0, 291449377930), (0, 159428442), (0, 8572916), (0, 529184), (0, 27005)], [(117541038, 0), (0,
    422492), (0, 34825), (0, 2376), (0, 123)], [(0, 75854), (0, 911), (0, 93), (0, 7)]], 3, 4⟩, 1099511627776, 0,
    626686412, ⟨[[(21854894766545, 0), (68711737591, 0), (127675424, 0), (0, 216045), (3609, 0)], [(48231372982, 0),
    (164778716, 0), (0, 252400), (7120, 0), (0, 90)], [(931297, 0), (0, 280711), (5673, 0), (0, 97), (1, 0)], [(0,
    52127), (2324, 0), (0, 57), (1, 0)]], 3, 4⟩, 68719476736, 270178278,
    3141213972117894485118587762301588786779143592564663918476611310945732511566804748445334938290, ⟨2, 0,
    -422605631295709, [288119210183, 122812963, 69800]⟩⟩)) (.sy (.sy (.sx (.leaf ⟨871, 16, 3096, 1436, 16, 664,
    ⟨[[(140660178944, 0)], [(415538085888, 0)]], 3, 4⟩, ⟨[[(141630168190, 0), (0, 1582483227342), (844327725, 0), (0,
    30783967), (0, 678186)], [(0, 296315523213), (0, 122431495), (0, 4223883), (0, 136018), (0, 3404)], [(59722694,
    0), (0, 200737), (0, 9204), (0, 312), (0, 8)], [(0, 21156), (0, 247), (0, 13)]], 3, 4⟩, 1099511627776, 0,
    84359083, ⟨[[(21436839575861, 0), (33721721840, 0), (32852844, 0), (0, 36605), (287, 0)], [(24032902215, 0),
    (42632000, 0), (0, 46573), (575, 0), (0, 4)], [(633895, 0), (0, 44122), (467, 0), (0, 4)], [(0, 8476), (192, 0),
    (0, 2)]], 3, 4⟩, 68719476736, 9937140,
    2456219516732721039726363407039603672687723454713289138763744547648138202433044968230913739683, ⟨2, 0,
    -854554633422405, [292363494263, 63419413, 18343]⟩⟩) (.sy (.leaf ⟨902, 16, 3096, 1692, 16, 793, ⟨[[(129922760704,
    0)], [(415538085888, 0)]], 3, 4⟩, ⟨[[(0, 257624134392), (0, 952788852003), (183539911, 0), (0, 5766623), (0,
    65449)], [(0, 342413275850), (0, 86043553), (0, 1551501), (0, 25307), (0, 318)], [(65723931, 0), (0, 140892), (0,
    3300), (0, 56), (0, 1)], [(0, 23505), (0, 171), (0, 4)]], 3, 4⟩, 1099511627776, 0, 83018309, ⟨[[(21520570282858,
    0), (28260992486, 0), (23546975, 0), (0, 24376), (157, 0)], [(23262556322, 0), (34974924, 0), (0, 36125), (361,
    0), (0, 2)], [(708871, 0), (0, 37313), (337, 0), (0, 2)], [(0, 8263), (159, 0), (0, 2)]], 3, 4⟩, 68719476736,
    6746945, 2745462119114246050887050001728419841804248618463095207080161023468835036499001138999325812923, ⟨2, 0,
    -992441181428501, [337168320396, 70625957, 19725]⟩⟩) (.sx (.leaf ⟨1789, 16, 6193, 2893, 16, 1355,
    ⟨[[(33084669952, 0)], [(415605194752, 0)]], 3, 4⟩, ⟨[[(0, 202628940622), (0, 1621795245297), (179359619, 0), (0,
    11832137), (0, 135949)], [(0, 295329458901), (0, 85692365), (0, 1628929), (0, 26647), (0, 333)], [(28309824, 0),
    (0, 74080), (0, 1762), (0, 30)], [(0, 5320), (0, 46), (0, 1)]], 3, 4⟩, 1099511627776, 0, 11275845,
    ⟨[[(21373574635850, 0), (16412279360, 0), (8136176, 0), (0, 5317), (20, 0)], [(11642747889, 0), (10381785, 0),
    (0, 6895), (39, 0)], [(216113, 0), (0, 5904), (31, 0)], [(0, 1132), (13, 0)]], 3, 4⟩, 68719476736, 826493,
    3733387609973504655236165717198264595530907561334746038285986173627130720388887775557486192016, ⟨2, 0,
    -1707646838294206, [290555288726, 30694622, 4323]⟩⟩) (.skip)))) (.sx (.sy (.sx (.leaf ⟨1727, 16, 6193, 2866, 16,
    1326, ⟨[[(43553652736, 0)], [(415605194752, 0)]], 3, 4⟩, ⟨[[(138053498863, 0), (0, 1571299709230), (230099214,
    0), (0, 10475846), (0, 118619)], [(0, 298946212455), (0, 78904752), (0, 1490409), (0, 24172), (0, 299)],
    [(29952774, 0), (0, 70505), (0, 1663), (0, 28)], [(0, 5690), (0, 45), (0, 1)]], 3, 4⟩, 1099511627776, 0,
    12207555, ⟨[[(21225302051747, 0), (16693911699, 0), (8360669, 0), (0, 5312), (20, 0)], [(11990707850, 0),
    (10872967, 0), (0, 6989), (41, 0)], [(220241, 0), (0, 6220), (33, 0)], [(0, 1213), (14, 0)]], 3, 4⟩, 68719476736,
    887820, 3026912087909123274085708524120327221686999257339353196597208063763388281589323321134042555434, ⟨2, 0,
    -1718557699235773, [294542765537, 32232739, 4703]⟩⟩) (.skip)) (.skip)) (.skip))) (.skip))) (.sy (.sy (.leaf ⟨474,
    16, 1548, 737, 16, 346, ⟨[[(331786223616, 0)], [(415538085888, 0)]], 3, 4⟩, ⟨[[(0, 136360540256), (0,
    1723560959815), (3320011173, 0), (0, 52253302), (0, 1772113)], [(0, 283184442704), (0, 137610328), (0, 5653078),
    (0, 323945), (0, 16918)], [(106884937, 0), (0, 281250), (0, 19834), (0, 1354), (0, 72)], [(0, 63187), (0, 484),
    (0, 48), (0, 4)]], 3, 4⟩, 1099511627776, 0, 474686178, ⟨[[(22506283413086, 0), (68012388410, 0), (118553284, 0),
    (0, 156560), (2659, 0)], [(46385044609, 0), (148672605, 0), (0, 160564), (5043, 0), (0, 64)], [(0, 243130), (0,
    206789), (3859, 0), (0, 66), (1, 0)], [(0, 36179), (1539, 0), (0, 38), (1, 0)]], 3, 4⟩, 68719476736, 226990339,
    2429466632316283567221352838741266351767979124177069491014672829956099998214800834516388272286, ⟨2, 0,
    -415375676684006, [279806866005, 111476839, 59217]⟩⟩) (.sy (.leaf ⟨474, 16, 1548, 863, 16, 409, ⟨[[(331786223616,
    0)], [(415538085888, 0)]], 3, 4⟩, ⟨[[(0, 247644955339), (0, 1003404192020), (682809333, 0), (0, 15598078), (0,
    337078)], [(0, 335659148232), (0, 127718050), (0, 3812815), (0, 122107), (0, 3156)], [(124187169, 0), (0,
    340376), (0, 14899), (0, 518), (0, 14)], [(0, 78916), (0, 722), (0, 38), (0, 1)]], 3, 4⟩, 1099511627776, 0,
    542995152, ⟨[[(22040607572533, 0), (56123428536, 0), (87791851, 0), (0, 148190), (1929, 0)], [(45344963497, 0),
    (128347838, 0), (0, 204634), (4316, 0), (0, 45)], [(1399626, 0), (0, 229219), (3925, 0), (0, 55), (1, 0)], [(0,
    48864), (1821, 0), (0, 37)]], 3, 4⟩, 68719476736, 169409721,
    3064704914917087962873438800279054606645651206183552683021680309526310217239560938267348659114, ⟨2, 0,
    -491007664057106, [330754358948, 131774645, 70000]⟩⟩) (.sx (.leaf ⟨933, 16, 3096, 1463, 16, 693,
    ⟨[[(119185342464, 0)], [(415538085888, 0)]], 3, 4⟩, ⟨[[(365869113246, 0), (0, 1683500523229), (747556618, 0), (0,
    38117735), (0, 865990)], [(0, 289469094243), (0, 141776703), (0, 4912715), (0, 160709), (0, 4095)], [(53693536,
    0), (0, 216420), (0, 10052), (0, 347), (0, 9)], [(0, 18391), (0, 249), (0, 13)]], 3, 4⟩, 1099511627776, 0,
    70714136, ⟨[[(21725148331726, 0), (32594064301, 0), (31112531, 0), (0, 36968), (274, 0)], [(22686887435, 0),
    (38917074, 0), (0, 45853), (528, 0), (0, 3)], [(625780, 0), (0, 39959), (414, 0), (0, 3)], [(0, 7432), (165, 0),
    (0, 2)]], 3, 4⟩, 68719476736, 7726497,
    3256592854094579443510415339032410107163569235891644635027836971284402432665907406870988492178, ⟨2, 0,
    -843535386935063, [284864374273, 57688209, 15577]⟩⟩) (.sy (.leaf ⟨964, 16, 3096, 1738, 16, 834, ⟨[[(108447924224,
    0)], [(415538085888, 0)]], 3, 4⟩, ⟨[[(282902751301, 0), (0, 1021670873042), (149110431, 0), (0, 7045678), (0,
    82079)], [(0, 337895694706), (0, 98513605), (0, 1775864), (0, 29404), (0, 377)], [(59769927, 0), (0, 149870), (0,
    3550), (0, 62), (0, 1)], [(0, 20737), (0, 170), (0, 4)]], 3, 4⟩, 1099511627776, 0, 68476915, ⟨[[(21803706815923,
    0), (27092048805, 0), (21984767, 0), (0, 23998), (146, 0)], [(22001478138, 0), (31772557, 0), (0, 34948), (325,
    0), (0, 2)], [(699154, 0), (0, 33703), (296, 0), (0, 2)], [(0, 7297), (136, 0), (0, 1)]], 3, 4⟩, 68719476736,
    5567208, 3650935759708232846992047632788313789667865111163414725880170263462209774905016157737962340806, ⟨2, 0,
    -987508980877518, [331803976273, 65034100, 16996]⟩⟩) (.skip))))) (.sy (.sy (.sx (.sy (.sx (.sy (.leaf ⟨1851, 16,
    6193, 3426, 16, 1623, ⟨[[(22615687168, 0)], [(415605194752, 0)]], 3, 4⟩, ⟨[[(436780906817, 0), (0, 981299885571),
    (54944721, 0), (0, 1802709), (0, 10447)], [(0, 342241542899), (0, 50984746), (0, 477919), (0, 3935), (0, 25)],
    [(31573881, 0), (0, 41947), (0, 500), (0, 4)], [(0, 5765), (0, 25)]], 3, 4⟩, 1099511627776, 0, 11453049,
    ⟨[[(21547050589079, 0), (13785273171, 0), (5744119, 0), (0, 3221), (10, 0)], [(11333333925, 0), (8447307, 0), (0,
    4812), (23, 0)], [(203020, 0), (0, 4705), (21, 0)], [(0, 1040), (10, 0)]], 3, 4⟩, 68719476736, 494273,
    2980326560093126578612121659471145865913409628868451929345395673166643251612256381212847252797, ⟨2, 0,
    -1989286240027901, [336367796330, 34344272, 4676]⟩⟩) (.skip)) (.skip)) (.skip)) (.skip)) (.skip)) (.skip)))
theorem c62 : checkC job ⟨6, 8, 8, 10, 9, 13⟩ 3 100 lims t62 607 41 2048 39 3 32 = true := by decide +kernel

def t63 : CTree :=
  .sy (.sx (.sx (.sx (.sy (.sy (.leaf ⟨505, 16, 1548, 891, 16, 429, ⟨[[(321048805376, 0)], [(415538085888, 0)]], 3,
    4⟩, ⟨[[(190582329002, 0), (0, 1082220266603), (946066000, 0), (0, 10977050), (0, 211876)], [(0, 330545151942),
    (0, 104756020), (0, 2372919), (0, 71361), (0, 1892)], [(115383998, 0), (0, 213689), (0, 8095), (0, 283), (0, 8)],
    [(0, 66275), (0, 366), (0, 19), (0, 1)]], 3, 4⟩, 1099511627776, 0, 423540912, ⟨[[(22650782490240, 0),
    (54915624559, 0), (79859311, 0), (0, 108472), (1399, 0)], [(43711242515, 0), (114952921, 0), (0, 137174), (3053,
    0), (0, 31)], [(296774, 0), (0, 170397), (2707, 0), (0, 38)], [(0, 34852), (1237, 0), (0, 25)]], 3, 4⟩,
    68719476736, 120527032,
    1707456940905544043409055711606225481984060508251589931336098194643371339985483996297347041753, ⟨2, 0,
    -487460492125144, [325650597323, 121784068, 60725]⟩⟩) (.leaf ⟨505, 16, 1548, 885, 16, 429, ⟨[[(321048805376, 0)],
    [(415538085888, 0)]], 3, 4⟩, ⟨[[(325703791953, 0), (0, 1072269646856), (691147428, 0), (0, 18096801), (0,
    400378)], [(0, 331277324705), (0, 142866863), (0, 4167339), (0, 134575), (0, 3541)], [(113738026, 0), (0,
    349177), (0, 15248), (0, 538), (0, 14)], [(0, 69331), (0, 687), (0, 36), (0, 1)]], 3, 4⟩, 1099511627776, 0,
    446488733, ⟨[[(22324189015842, 0), (53944309600, 0), (82140804, 0), (0, 146606), (1794, 0)], [(43015884432, 0),
    (116957641, 0), (0, 199500), (3905, 0), (0, 40)], [(1425239, 0), (0, 207280), (3469, 0), (0, 47)], [(0, 43226),
    (1567, 0), (0, 31)]], 3, 4⟩, 68719476736, 149971068,
    3094353392217192439823566847214882178604634372848339440879851367580030227318780363005045978156, ⟨2, 0,
    -487460492125144, [325650597323, 121784068, 60725]⟩⟩)) (.sy (.sx (.sy (.leaf ⟨995, 16, 3096, 1766, 16, 854,
    ⟨[[(97710505984, 0)], [(415538085888, 0)]], 3, 4⟩, ⟨[[(36395905497, 0), (0, 1058671121747), (255219340, 0), (0,
    5775395), (0, 66187)], [(0, 335125752848), (0, 84513493), (0, 1382033), (0, 22732), (0, 296)], [(57907838, 0),
    (0, 114730), (0, 2631), (0, 46), (0, 1)], [(0, 18640), (0, 121), (0, 3)]], 3, 4⟩, 1099511627776, 0, 59620138,
    ⟨[[(22115366071911, 0), (26830366613, 0), (20883509, 0), (0, 20458), (124, 0)], [(21621309418, 0), (29968422, 0),
    (0, 28808), (272, 0), (0, 1)], [(498688, 0), (0, 28780), (245, 0), (0, 2)], [(0, 6115), (112, 0), (0, 1)]], 3,
    4⟩, 68719476736, 5020440,
    1602740238957173685556877343835422266751920735524572866459197817692762599380891527060128508383, ⟨2, 0,
    -983768262861226, [329179670191, 62510382, 15827]⟩⟩) (.leaf ⟨995, 16, 3096, 1758, 16, 853, ⟨[[(97710505984, 0)],
    [(415538085888, 0)]], 3, 4⟩, ⟨[[(222000080695, 0), (0, 1055057222627), (135222340, 0), (0, 7625891), (0, 89825)],
    [(0, 335294828224), (0, 103707866), (0, 1859988), (0, 31000), (0, 401)], [(57047036, 0), (0, 151686), (0, 3605),
    (0, 63), (0, 1)], [(0, 19472), (0, 166), (0, 4)]], 3, 4⟩, 1099511627776, 0, 62283572, ⟨[[(21956760536793, 0),
    (26611199673, 0), (21325196, 0), (0, 23666), (140, 0)], [(21442250880, 0), (30376180, 0), (0, 34043), (308, 0),
    (0, 2)], [(678609, 0), (0, 31909), (277, 0), (0, 2)], [(0, 6818), (125, 0), (0, 1)]], 3, 4⟩, 68719476736,
    5569736, 3977335824224945771335759891070769745433826080856083952611421930741922757273359143869058743940, ⟨2, 0,
    -982616309391834, [328794213903, 62437185, 15809]⟩⟩)) (.sy (.sx (.leaf ⟨2037, 16, 6193, 2992, 16, 1462, ⟨[[(0,
    8791261184)], [(415605194752, 0)]], 3, 4⟩, ⟨[[(0, 446929740992), (0, 1822076948674), (273027917, 0), (0,
    12604275), (0, 148716)], [(0, 280940470847), (0, 85677031), (0, 1493519), (0, 24931), (0, 325)], [(23335610, 0),
    (0, 59670), (0, 1408), (0, 25)], [(0, 3867), (0, 32), (0, 1)]], 3, 4⟩, 1099511627776, 0, 8073689,
    ⟨[[(22124051915678, 0), (15628147016, 0), (7291048, 0), (0, 4666), (16, 0)], [(10549094860, 0), (8677968, 0), (0,
    5566), (30, 0)], [(150828, 0), (0, 4391), (22, 0)], [(0, 781), (8, 0)]], 3, 4⟩, 68719476736, 590530,
    2745267334992379345910717619470796837098000913534192996840076833354300789768317398513487980104, ⟨2, 0,
    -1649897001401057, [275337384876, 25546241, 3160]⟩⟩) (.sy (.leaf ⟨2068, 16, 6193, 3581, 16, 1761, ⟨[[(0,
    14025752576)], [(415605194752, 0)]], 3, 4⟩, ⟨[[(392023182534, 0), (0, 1102155466274), (61724751, 0), (0,
    2077546), (0, 12386)], [(0, 333711464340), (0, 54862397), (0, 486452), (0, 4083), (0, 27)], [(27090067, 0), (0,
    38104), (0, 454), (0, 4)], [(0, 4524), (0, 20)]], 3, 4⟩, 1099511627776, 0, 8618770, ⟨[[(22151556401240, 0),
    (12965488167, 0), (5092817, 0), (0, 2860), (8, 0)], [(10394311156, 0), (7157657, 0), (0, 4067), (18, 0)],
    [(162306, 0), (0, 3706), (16, 0)], [(0, 782), (7, 0)]], 3, 4⟩, 68719476736, 374157,
    2812964303064108593019115488264691276857521480076606700229140847806209283483979632938659787020, ⟨2, 0,
    -1960334342418999, [326677057723, 29855333, 3638]⟩⟩) (.skip))) (.skip))) (.skip))) (.sy (.sy (.leaf ⟨536, 16,
    1548, 906, 16, 448, ⟨[[(310311387136, 0)], [(415538085888, 0)]], 3, 4⟩, ⟨[[(0, 437073025287), (0, 1140861603794),
    (715430789, 0), (0, 20021224), (0, 449557)], [(0, 326759512665), (0, 155159120), (0, 4343649), (0, 140660), (0,
    3767)], [(104534222, 0), (0, 344908), (0, 14864), (0, 532), (0, 14)], [(0, 61126), (0, 627), (0, 34), (0, 1)]],
    3, 4⟩, 1099511627776, 0, 369700683, ⟨[[(22681953520876, 0), (52277520977, 0), (76929969, 0), (0, 136164), (1597,
    0)], [(41105134863, 0), (106868974, 0), (0, 179568), (3382, 0), (0, 34)], [(1168753, 0), (0, 180182), (2930, 0),
    (0, 39)], [(0, 36571), (1290, 0), (0, 25)]], 3, 4⟩, 68719476736, 119808015,
    2954829456305176376425785765393700022551727798650916725761049504634875186883927459775480554103, ⟨2, 0,
    -481985348496013, [320421473118, 112903972, 53044]⟩⟩) (.sx (.sy (.leaf ⟨1057, 16, 3096, 1806, 16, 892,
    ⟨[[(76235669504, 0)], [(415538085888, 0)]], 3, 4⟩, ⟨[[(92455455577, 0), (0, 1126791192126), (253883790, 0), (0,
    6489198), (0, 75720)], [(0, 330368551000), (0, 91780933), (0, 1458381), (0, 24184), (0, 321)], [(53085066, 0),
    (0, 114023), (0, 2605), (0, 47), (0, 1)], [(0, 16433), (0, 112), (0, 3)]], 3, 4⟩, 1099511627776, 0, 49393432,
    ⟨[[(22427837081807, 0), (25930464928, 0), (19662370, 0), (0, 19784), (114, 0)], [(20597997791, 0), (27457403, 0),
    (0, 27186), (244, 0), (0, 1)], [(464098, 0), (0, 25742), (214, 0), (0, 1)], [(0, 5333), (95, 0), (0, 1)]], 3, 4⟩,
    68719476736, 3889449,
    1821375434583568750335911392062073301096204149605227262085634235435324627845029560914781090860, ⟨2, 0,
    -972841280205516, [323666969997, 57859666, 13791]⟩⟩) (.sx (.leaf ⟨2099, 16, 6193, 3009, 16, 1486, ⟨[[(0,
    19260243968)], [(415605194752, 0)]], 3, 4⟩, ⟨[[(0, 140517409182), (0, 1869625308898), (262878171, 0), (0,
    13274796), (0, 158036)], [(0, 277494939830), (0, 88457967), (0, 1523125), (0, 25552), (0, 336)], [(22223165, 0),
    (0, 59014), (0, 1393), (0, 25)], [(0, 3615), (0, 30), (0, 1)]], 3, 4⟩, 1099511627776, 0, 7502749,
    ⟨[[(22275291898435, 0), (15442927070, 0), (7159699, 0), (0, 4680), (16, 0)], [(10296215377, 0), (8359427, 0), (0,
    5488), (29, 0)], [(146748, 0), (0, 4192), (21, 0)], [(0, 733), (8, 0)]], 3, 4⟩, 68719476736, 522764,
    2878547878274082779635692425831317055892129965153559059708725102308764789230488928250742987663, ⟨2, 0,
    -1631769416692876, [271592098121, 24454538, 2936]⟩⟩) (.sy (.leaf ⟨2130, 16, 6193, 3619, 16, 1798, ⟨[[(0,
    24494735360)], [(415605194752, 0)]], 3, 4⟩, ⟨[[(0, 181439465828), (0, 1136018839165), (59177203, 0), (0,
    2187046), (0, 13149)], [(0, 331261056076), (0, 56663775), (0, 495846), (0, 4183), (0, 28)], [(25938546, 0), (0,
    37690), (0, 449), (0, 4)], [(0, 4251), (0, 19)]], 3, 4⟩, 1099511627776, 0, 8103060, ⟨[[(22314458321154, 0),
    (12762401038, 0), (4949199, 0), (0, 2799), (8, 0)], [(10155696365, 0), (6860066, 0), (0, 3924), (17, 0)],
    [(154569, 0), (0, 3496), (15, 0)], [(0, 728), (6, 0)]], 3, 4⟩, 68719476736, 372401,
    2901516197895887424484409991765904437605304589471594099863075207978961281407997687512439666693, ⟨2, 0,
    -1947625658993427, [323833490659, 28734116, 3399]⟩⟩) (.skip)))) (.sy (.sy (.leaf ⟨1088, 16, 3096, 2027, 16, 1014,
    ⟨[[(65498251264, 0)], [(415538085888, 0)]], 3, 4⟩, ⟨[[(238378947558, 0), (0, 645431866775), (43560884, 0), (0,
    1165530), (0, 7004)], [(0, 365841088847), (0, 60985981), (0, 514170), (0, 4334), (0, 29)], [(56074762, 0), (0,
    76917), (0, 905), (0, 8)], [(0, 17801), (0, 75), (0, 1)]], 3, 4⟩, 1099511627776, 0, 50229400, ⟨[[(22464560711115,
    0), (22752573110, 0), (15651683, 0), (0, 15670), (79, 0)], [(20005262392, 0), (23889873, 0), (0, 24068), (184,
    0), (0, 1)], [(566324, 0), (0, 23682), (178, 0), (0, 1)], [(0, 5421), (86, 0), (0, 1)]], 3, 4⟩, 68719476736,
    3458535, 2905667372419718243472860511237982044138644299701956075763055007104201160812105103207999849303, ⟨1, 0,
    -1076161151704951, [357455747392, 62079845, 14375]⟩⟩) (.sx (.leaf ⟨2161, 16, 6193, 3637, 16, 1816, ⟨[[(0,
    29729226752)], [(415605194752, 0)]], 3, 4⟩, ⟨[[(0, 485217153715), (0, 1152803625590), (58784673, 0), (0,
    2233734), (0, 13482)], [(0, 330003672625), (0, 57419415), (0, 498434), (0, 4213), (0, 28)], [(25389645, 0), (0,
    37351), (0, 444), (0, 4)], [(0, 4121), (0, 19)]], 3, 4⟩, 1099511627776, 0, 7857660, ⟨[[(22396867405775, 0),
    (12667883673, 0), (4882213, 0), (0, 2768), (8, 0)], [(10041992671, 0), (6719842, 0), (0, 3852), (16, 0)],
    [(150553, 0), (0, 3396), (14, 0)], [(0, 702), (6, 0)]], 3, 4⟩, 68719476736, 354035,
    2912646335851921022318897068518309266625263048949867201623563395887331952699918978091354742078, ⟨2, 0,
    -1940496664590325, [322384123699, 28195218, 3288]⟩⟩) (.skip))) (.skip)))) (.skip))) (.sy (.sx (.sy (.sx (.sy
    (.leaf ⟨1119, 16, 3096, 1842, 16, 928, ⟨[[(54760833024, 0)], [(415538085888, 0)]], 3, 4⟩, ⟨[[(7651155667, 0), (0,
    1194404988964), (265884815, 0), (0, 6959033), (0, 82166)], [(0, 325509253013), (0, 96969867), (0, 1471666), (0,
    24482), (0, 330)], [(48842901, 0), (0, 109405), (0, 2467), (0, 45), (0, 1)], [(0, 14515), (0, 99), (0, 3)]], 3,
    4⟩, 1099511627776, 0, 40993781, ⟨[[(22752633734590, 0), (25169521894, 0), (18623147, 0), (0, 19013), (106, 0)],
    [(19699431167, 0), (25299070, 0), (0, 25400), (220, 0), (0, 1)], [(419128, 0), (0, 22983), (187, 0), (0, 1)],
    [(0, 4635), (81, 0), (0, 1)]], 3, 4⟩, 68719476736, 3385457,
    1776878938469250895616269477216931705686568255057106284298954720139594980298497896681196365667, ⟨1, 0,
    -958438623989519, [318079414297, 53711485, 12093]⟩⟩) (.sy (.leaf ⟨1119, 16, 3096, 2053, 16, 1037,
    ⟨[[(54760833024, 0)], [(415538085888, 0)]], 3, 4⟩, ⟨[[(0, 103765896150), (0, 666265025217), (45007467, 0), (0,
    1205484), (0, 7289)], [(0, 364266131563), (0, 62482666), (0, 515624), (0, 4358), (0, 29)], [(53969023, 0), (0,
    75181), (0, 880), (0, 8)], [(0, 16786), (0, 71), (0, 1)]], 3, 4⟩, 1099511627776, 0, 45979549, ⟨[[(22632434410698,
    0), (22362969775, 0), (15144878, 0), (0, 15149), (75, 0)], [(19577572864, 0), (22871713, 0), (0, 22992), (173,
    0), (0, 1)], [(533719, 0), (0, 22252), (165, 0), (0, 1)], [(0, 5039), (79, 0), (0, 1)]], 3, 4⟩, 68719476736,
    3471221, 2822459903734257578262929058593185824762288038393952791102001501371364834435213017204237337359, ⟨1, 0,
    -1071013850298633, [355440035158, 60020269, 13514]⟩⟩) (.sx (.leaf ⟨2223, 16, 6193, 3672, 16, 1852, ⟨[[(0,
    40198209536)], [(415605194752, 0)]], 3, 4⟩, ⟨[[(16762401059, 0), (0, 1186707779905), (59894358, 0), (0, 2310932),
    (0, 14043)], [(0, 327605068391), (0, 58683288), (0, 499763), (0, 4239), (0, 28)], [(24354797, 0), (0, 36461), (0,
    432), (0, 4)], [(0, 3874), (0, 18)]], 3, 4⟩, 1099511627776, 0, 6460432, ⟨[[(22550646679306, 0), (12475368430, 0),
    (4760315, 0), (0, 2733), (8, 0)], [(9818317955, 0), (6459244, 0), (0, 3754), (16, 0)], [(145626, 0), (0, 3230),
    (13, 0)], [(0, 659), (6, 0)]], 3, 4⟩, 68719476736, 383113,
    2870610950719676076824181566594394676042213423209650178070981680985792655882487318014810810395, ⟨1, 0,
    -1925804453057220, [319606642721, 27172814, 3080]⟩⟩) (.skip)))) (.sy (.leaf ⟨1150, 16, 3096, 1851, 16, 945,
    ⟨[[(44023414784, 0)], [(415538085888, 0)]], 3, 4⟩, ⟨[[(359231570957, 0), (0, 1225190898899), (129357814, 0), (0,
    9467186), (0, 115852)], [(0, 323609881479), (0, 119233450), (0, 1971155), (0, 33528), (0, 454)], [(46164250, 0),
    (0, 139564), (0, 3283), (0, 60), (0, 1)], [(0, 14307), (0, 129), (0, 4)]], 3, 4⟩, 1099511627776, 0, 39451152,
    ⟨[[(22744284973742, 0), (24580588038, 0), (18597727, 0), (0, 21715), (117, 0)], [(19116685623, 0), (24716437, 0),
    (0, 29236), (239, 0), (0, 1)], [(557104, 0), (0, 24370), (201, 0), (0, 1)], [(0, 4879), (85, 0), (0, 1)]], 3, 4⟩,
    68719476736, 3497223,
    3962645945197342440512516333227699078037093657369980667559430735129142082775566232075168685450, ⟨1, 0,
    -949797031592931, [315177967353, 51787376, 11346]⟩⟩) (.skip))) (.skip)) (.skip)) (.skip))) (.skip)) (.skip)
theorem c63 : checkC job ⟨6, 8, 8, 10, 9, 13⟩ 3 100 lims t63 203 41 512 39 3 32 = true := by decide +kernel

def t64 : CTree :=
  .sx (.sx (.leaf ⟨499, 16, 3096, 763, 16, 292, ⟨[[(269509197824, 0)], [(415538085888, 0)]], 3, 4⟩, ⟨[[(0,
    328769436142), (0, 2523054645776), (10341632854, 0), (0, 117205773), (0, 4045755)], [(0, 224814112202), (0,
    39440689), (0, 3432688), (0, 364324), (0, 32988)], [(84292033, 0), (0, 77483), (0, 10284), (0, 1222), (0, 112)],
    [(0, 43367), (0, 119), (0, 21), (0, 3)]], 3, 4⟩, 1099511627776, 0, 458244751, ⟨[[(19969684737008, 0),
    (73082340310, 0), (138753237, 0), (0, 50270), (2446, 0)], [(39570040281, 0), (146603505, 0), (0, 1835), (3943,
    0), (0, 54)], [(0, 701050), (0, 117139), (2387, 0), (0, 48), (1, 0)], [(0, 13995), (756, 0), (0, 23)]], 3, 4⟩,
    68719476736, 173473359,
    1822799719193016351269627688453180432049700805526202573926409651203766103597602402127968315322, ⟨3, 0,
    -540775179516797, [224339644857, 84912810, 42853]⟩⟩) (.leaf ⟨530, 16, 3096, 769, 16, 301, ⟨[[(258771779584, 0)],
    [(415538085888, 0)]], 3, 4⟩, ⟨[[(479084710018, 0), (0, 2604766916110), (10285539046, 0), (0, 161756387), (0,
    7888414)], [(0, 218344147765), (0, 56645574), (0, 5788547), (0, 645955), (0, 58790)], [(76805838, 0), (0,
    117909), (0, 17375), (0, 2105), (0, 193)], [(0, 37587), (0, 191), (0, 35), (0, 4)]], 3, 4⟩, 1099511627776, 0,
    544449388, ⟨[[(19918292690214, 0), (70583616829, 0), (133300017, 0), (0, 95147), (2774, 0)], [(37113848371, 0),
    (135822434, 0), (0, 59055), (4347, 0), (0, 56)], [(0, 35794), (0, 126416), (2622, 0), (0, 49), (1, 0)], [(0,
    16681), (821, 0), (0, 23)]], 3, 4⟩, 68719476736, 177625650,
    2430558649084558529960496358282423240213317327699589463757693355575022525307309775795796601327, ⟨3, 0,
    -539045337449136, [217738295452, 77597397, 36872]⟩⟩)) (.sx (.sy (.leaf ⟨561, 16, 3096, 1026, 16, 408,
    ⟨[[(248034361344, 0)], [(415538085888, 0)]], 3, 4⟩, ⟨[[(385432009156, 0), (0, 1789734277335), (3576375759, 0),
    (0, 28175877), (0, 681455)], [(0, 279722823338), (0, 39510496), (0, 1921850), (0, 106846), (0, 4925)],
    [(92819713, 0), (0, 75870), (0, 5503), (0, 337), (0, 16)], [(0, 43031), (0, 116), (0, 11), (0, 1)]], 3, 4⟩,
    1099511627776, 0, 264405215, ⟨[[(20186043076656, 0), (52718776574, 0), (73465877, 0), (0, 39501), (828, 0)],
    [(35508651330, 0), (95715651, 0), (0, 31848), (1657, 0), (0, 16)], [(0, 45942), (0, 85381), (1280, 0), (0, 18)],
    [(0, 14938), (518, 0), (0, 11)]], 3, 4⟩, 68719476736, 48983691,
    1261353973390653305290818778992161330361005146415842067390068649134819970421271031591954655162, ⟨2, 0,
    -707145441996435, [278842972440, 93886523, 42149]⟩⟩) (.leaf ⟨561, 16, 3096, 1022, 16, 410, ⟨[[(248034361344, 0)],
    [(415538085888, 0)]], 3, 4⟩, ⟨[[(0, 353654147145), (0, 1759247772828), (2859448980, 0), (0, 58864405), (0,
    2101902)], [(0, 281433057627), (0, 80213009), (0, 5449413), (0, 320966), (0, 14469)], [(92519352, 0), (0,
    197376), (0, 16658), (0, 1017), (0, 46)], [(0, 44516), (0, 352), (0, 33), (0, 2)]], 3, 4⟩, 1099511627776, 0,
    294566349, ⟨[[(19718311426627, 0), (51135685480, 0), (74251781, 0), (0, 73852), (1139, 0)], [(34644727150, 0),
    (96267485, 0), (0, 84269), (2294, 0), (0, 21)], [(838477, 0), (0, 112594), (1820, 0), (0, 24)], [(0, 20542),
    (737, 0), (0, 14)]], 3, 4⟩, 68719476736, 63495545,
    2263751287572330459323555068027466078290905394199201157016196442737762324720968286353011328766, ⟨2, 0,
    -710611841221908, [280209849756, 94346751, 42355]⟩⟩)) (.sy (.leaf ⟨592, 16, 3096, 1041, 16, 422,
    ⟨[[(237296943104, 0)], [(415538085888, 0)]], 3, 4⟩, ⟨[[(0, 487165090881), (0, 1855098877357), (3491078549, 0),
    (0, 40974374), (0, 1251494)], [(0, 274430142244), (0, 56523328), (0, 3177808), (0, 183911), (0, 8511)],
    [(85845683, 0), (0, 115004), (0, 9069), (0, 563), (0, 26)], [(0, 38339), (0, 182), (0, 17), (0, 1)]], 3, 4⟩,
    1099511627776, 0, 232999817, ⟨[[(20228005523894, 0), (50978916733, 0), (70044108, 0), (0, 50217), (853, 0)],
    [(33682559261, 0), (88914535, 0), (0, 48954), (1670, 0), (0, 15)], [(251086, 0), (0, 85572), (1277, 0), (0, 17)],
    [(0, 15152), (508, 0), (0, 10)]], 3, 4⟩, 68719476736, 44964500,
    1695498225481271109831029705872498050993789715729644336734718072021699763033425835594102549540, ⟨2, 0,
    -708390396723477, [273318764372, 87210837, 37103]⟩⟩) (.sy (.leaf ⟨592, 16, 3096, 1241, 16, 507, ⟨[[(237296943104,
    0)], [(415538085888, 0)]], 3, 4⟩, ⟨[[(108393521289, 0), (0, 1097342282319), (820745008, 0), (0, 11445540), (0,
    215737)], [(0, 330114369594), (0, 60159261), (0, 2115038), (0, 63060), (0, 1432)], [(102217539, 0), (0, 145771),
    (0, 6282), (0, 194), (0, 4)], [(0, 47604), (0, 254), (0, 12)]], 3, 4⟩, 1099511627776, 0, 264794432,
    ⟨[[(19821835478463, 0), (41482926738, 0), (49622317, 0), (0, 47398), (549, 0)], [(32962037127, 0), (74963797, 0),
    (0, 66439), (1292, 0), (0, 10)], [(1032812, 0), (0, 91319), (1205, 0), (0, 13)], [(0, 19937), (573, 0), (0, 9)]],
    3, 4⟩, 68719476736, 33284978,
    1852153559447958260874070077542059744446550908584915228166573568951309868718732980431639883054, ⟨2, 0,
    -851075666205694, [328371122125, 104777001, 44576]⟩⟩) (.leaf ⟨592, 16, 3096, 1235, 16, 507, ⟨[[(237296943104,
    0)], [(415538085888, 0)]], 3, 4⟩, ⟨[[(148171497964, 0), (0, 1088943929233), (558511867, 0), (0, 18299439), (0,
    368368)], [(0, 330567158811), (0, 93770232), (0, 3622023), (0, 108339), (0, 2425)], [(101068600, 0), (0, 246416),
    (0, 10907), (0, 333), (0, 7)], [(0, 49649), (0, 445), (0, 21), (0, 1)]], 3, 4⟩, 1099511627776, 0, 276967929,
    ⟨[[(19574735297696, 0), (40881843248, 0), (50601562, 0), (0, 61838), (657, 0)], [(32509570527, 0), (75909313, 0),
    (0, 91906), (1545, 0), (0, 11)], [(1626945, 0), (0, 107216), (1451, 0), (0, 15)], [(0, 23709), (688, 0), (0,
    10)]], 3, 4⟩, 68719476736, 37694791,
    2834400560721419264920835003280550744679439283171839226320012902131969109189288662612946482937, ⟨2, 0,
    -851075666205694, [328371122125, 104777001, 44576]⟩⟩))))
theorem c64 : checkC job ⟨6, 8, 8, 10, 9, 13⟩ 3 100 lims t64 361 41 2048 87 3 64 = true := by decide +kernel

def t65 : CTree :=
  .sx (.sy (.sx (.leaf ⟨623, 16, 3096, 1054, 16, 436, ⟨[[(226559524864, 0)], [(415538085888, 0)]], 3, 4⟩,
    ⟨[[(500701484172, 0), (0, 1922345143280), (3263854741, 0), (0, 62512259), (0, 2228155)], [(0, 269752269542), (0,
    82248782), (0, 5230563), (0, 311500), (0, 14451)], [(79584676, 0), (0, 175934), (0, 14760), (0, 925), (0, 43)],
    [(0, 34661), (0, 283), (0, 27), (0, 2)]], 3, 4⟩, 1099511627776, 0, 218207136, ⟨[[(20183821595981, 0),
    (49102120296, 0), (67375989, 0), (0, 66630), (935, 0)], [(31888675735, 0), (83246205, 0), (0, 73209), (1790, 0),
    (0, 16)], [(661035, 0), (0, 90315), (1357, 0), (0, 17)], [(0, 16069), (528, 0), (0, 10)]], 3, 4⟩, 68719476736,
    45044186, 1986573978473168520910870603734411249530970500663097864886344563243326280556361913574708324282, ⟨2, 0,
    -709321350580150, [268343962080, 81365665, 32895]⟩⟩) (.leaf ⟨654, 16, 3096, 1066, 16, 449, ⟨[[(215822106624, 0)],
    [(415538085888, 0)]], 3, 4⟩, ⟨[[(0, 371825775057), (0, 1988004755290), (2800266382, 0), (0, 98166497), (0,
    3863439)], [(0, 265046391068), (0, 121167126), (0, 8524225), (0, 518036), (0, 24066)], [(73675691, 0), (0,
    269398), (0, 23642), (0, 1490), (0, 69)], [(0, 31831), (0, 435), (0, 42), (0, 3)]], 3, 4⟩, 1099511627776, 0,
    220113081, ⟨[[(20222818955903, 0), (47648286263, 0), (65118917, 0), (0, 77397), (974, 0)], [(30391533100, 0),
    (78340728, 0), (0, 87968), (1820, 0), (0, 16)], [(902667, 0), (0, 91029), (1358, 0), (0, 16)], [(0, 16051), (517,
    0), (0, 9)]], 3, 4⟩, 68719476736, 41623107,
    3261097691115133802506509992536885757757255893607930757709782110607271322941271432010127909712, ⟨2, 0,
    -708355954227019, [263254174906, 76041067, 29286]⟩⟩)) (.sx (.sy (.leaf ⟨623, 16, 3096, 1265, 16, 527,
    ⟨[[(226559524864, 0)], [(415538085888, 0)]], 3, 4⟩, ⟨[[(101306529326, 0), (0, 1146938798863), (621296998, 0), (0,
    18862295), (0, 382465)], [(0, 326671984361), (0, 93544592), (0, 3559669), (0, 107570), (0, 2444)], [(94749845,
    0), (0, 232321), (0, 10341), (0, 320), (0, 7)], [(0, 44327), (0, 402), (0, 19), (0, 1)]], 3, 4⟩, 1099511627776,
    0, 235305037, ⟨[[(19822524578996, 0), (39784057014, 0), (47365849, 0), (0, 55736), (569, 0)], [(31264946074, 0),
    (70040694, 0), (0, 81344), (1316, 0), (0, 9)], [(1414789, 0), (0, 93902), (1217, 0), (0, 12)], [(0, 20569), (570,
    0), (0, 8)]], 3, 4⟩, 68719476736, 29634759,
    2610590333582881271732511923529426001985761480364635803250719669516264000158227690466993854516, ⟨2, 0,
    -857367779256282, [324351532147, 98347948, 39761]⟩⟩) (.sy (.sx (.leaf ⟨1231, 16, 6193, 2526, 16, 1051,
    ⟨[[(127305515008, 0)], [(415605194752, 0)]], 3, 4⟩, ⟨[[(0, 134230656418), (0, 1136815030591), (207744364, 0), (0,
    6035884), (0, 62363)], [(0, 330124646322), (0, 59626737), (0, 1182867), (0, 17817), (0, 200)], [(48039888, 0),
    (0, 77744), (0, 1743), (0, 27)], [(0, 11834), (0, 69), (0, 2)]], 3, 4⟩, 1099511627776, 0, 31848140,
    ⟨[[(19648140241230, 0), (19756173791, 0), (12005219, 0), (0, 7868), (39, 0)], [(15674624141, 0), (17862576, 0),
    (0, 11846), (91, 0)], [(438193, 0), (0, 12980), (85, 0)], [(0, 2883), (40, 0)]], 3, 4⟩, 68719476736, 2634168,
    2320237651715101934711127356520559901291533255925995724967261676161121222321369801028004397396, ⟨2, 0,
    -1723198584306138, [327499734050, 50276287, 10291]⟩⟩) (.skip)) (.skip))) (.sy (.sy (.leaf ⟨654, 16, 3096, 1443,
    16, 612, ⟨[[(215822106624, 0)], [(415538085888, 0)]], 3, 4⟩, ⟨[[(360073567684, 0), (0, 672014340377), (109106368,
    0), (0, 3861704), (0, 40628)], [(0, 362093332652), (0, 72587700), (0, 1442164), (0, 22009), (0, 251)],
    [(98463297, 0), (0, 179600), (0, 4075), (0, 63), (0, 1)], [(0, 46641), (0, 304), (0, 7)]], 3, 4⟩, 1099511627776,
    0, 227887042, ⟨[[(19877162448929, 0), (34247065903, 0), (36150664, 0), (0, 43385), (363, 0)], [(29811930342, 0),
    (58655745, 0), (0, 71830), (923, 0), (0, 6)], [(1649398, 0), (0, 83441), (945, 0), (0, 8)], [(0, 20360), (488,
    0), (0, 6)]], 3, 4⟩, 68719476736, 20994556,
    3880752615049689424171842349337238165639102458264210968039994634126299738457714418959855210393, ⟨2, 0,
    -965509674803866, [358823062455, 103646176, 39918]⟩⟩) (.skip)) (.skip)))) (.sy (.sx (.sy (.leaf ⟨685, 16, 3096,
    1320, 16, 565, ⟨[[(205084688384, 0)], [(415538085888, 0)]], 3, 4⟩, ⟨[[(99270086140, 0), (0, 1262576731917),
    (793814606, 0), (0, 18692690), (0, 380711)], [(0, 318803118755), (0, 88309525), (0, 3188100), (0, 97980), (0,
    2294)], [(83972838, 0), (0, 192269), (0, 8578), (0, 273), (0, 6)], [(0, 35533), (0, 302), (0, 15)]], 3, 4⟩,
    1099511627776, 0, 172575609, ⟨[[(20333507861805, 0), (37986584728, 0), (41976893, 0), (0, 44793), (430, 0)],
    [(29138768613, 0), (60313653, 0), (0, 62446), (962, 0), (0, 7)], [(989717, 0), (0, 71789), (862, 0), (0, 8)],
    [(0, 15254), (393, 0), (0, 5)]], 3, 4⟩, 68719476736, 20403937,
    2144548944068243763122397659971939333135363919553241648902715742536040257578318913146470793216, ⟨2, 0,
    -864820984084962, [316283574175, 87226579, 32074]⟩⟩) (.sy (.leaf ⟨685, 16, 3096, 1480, 16, 636, ⟨[[(205084688384,
    0)], [(415538085888, 0)]], 3, 4⟩, ⟨[[(193012083926, 0), (0, 707323418323), (137357554, 0), (0, 3824646), (0,
    40474)], [(0, 359396308749), (0, 69726007), (0, 1359772), (0, 20966), (0, 243)], [(93324493, 0), (0, 162459), (0,
    3703), (0, 58), (0, 1)], [(0, 41915), (0, 263), (0, 6)]], 3, 4⟩, 1099511627776, 0, 195707121, ⟨[[(20136363670352,
    0), (33353140065, 0), (33739736, 0), (0, 38182), (310, 0)], [(28822080256, 0), (54233005, 0), (0, 62062), (778,
    0), (0, 5)], [(1389137, 0), (0, 72382), (787, 0), (0, 6)], [(0, 17458), (402, 0), (0, 5)]], 3, 4⟩, 68719476736,
    17544598, 3088118108903489200960978135421952368123685715035692091608865454993678974685526263865077485446, ⟨2, 0,
    -973497603323957, [356028943673, 98187795, 36105]⟩⟩) (.sx (.leaf ⟨1355, 16, 6193, 2628, 16, 1127,
    ⟨[[(106367549440, 0)], [(415605194752, 0)]], 3, 4⟩, ⟨[[(10037212105, 0), (0, 1248201537878), (166068143, 0), (0,
    7806265), (0, 83187)], [(0, 322244195893), (0, 71052190), (0, 1420668), (0, 21846), (0, 251)], [(42045856, 0),
    (0, 85615), (0, 1958), (0, 31)], [(0, 9822), (0, 71), (0, 2)]], 3, 4⟩, 1099511627776, 0, 24490032,
    ⟨[[(20018219148401, 0), (18704441774, 0), (10786673, 0), (0, 7260), (33, 0)], [(14480959198, 0), (15509197, 0),
    (0, 10685), (74, 0)], [(393550, 0), (0, 10853), (67, 0)], [(0, 2352), (31, 0)]], 3, 4⟩, 68719476736, 1990202,
    3479264004592240359884366806405827822600526532923838335513928641525971255243501593337203616139, ⟨2, 0,
    -1738056872758804, [319051470219, 44498113, 8275]⟩⟩) (.skip)))) (.sy (.sy (.leaf ⟨716, 16, 3096, 1517, 16, 660,
    ⟨[[(194347270144, 0)], [(415538085888, 0)]], 3, 4⟩, ⟨[[(0, 125942195996), (0, 743451051410), (171606752, 0), (0,
    3706287), (0, 39329)], [(0, 356924747131), (0, 65979647), (0, 1252218), (0, 19481), (0, 229)], [(88747836, 0),
    (0, 143779), (0, 3281), (0, 53), (0, 1)], [(0, 37733), (0, 221), (0, 5)]], 3, 4⟩, 1099511627776, 0, 168785765,
    ⟨[[(20406298301267, 0), (32544054695, 0), (31524437, 0), (0, 33248), (263, 0)], [(27934092097, 0), (50250250, 0),
    (0, 52914), (652, 0), (0, 4)], [(1134529, 0), (0, 62475), (653, 0), (0, 5)], [(0, 14875), (331, 0), (0, 4)]], 3,
    4⟩, 68719476736, 13659054,
    2227806024427498279650787811523244547667021896986591271480027620987732985652925822125408491026, ⟨2, 0,
    -980602460512092, [353476637809, 93265604, 32811]⟩⟩) (.sx (.leaf ⟨1417, 16, 6193, 2678, 16, 1163,
    ⟨[[(95898566656, 0)], [(415605194752, 0)]], 3, 4⟩, ⟨[[(0, 443767559038), (0, 1304317724417), (225116260, 0), (0,
    7564547), (0, 81040)], [(0, 318078667814), (0, 66890127), (0, 1309907), (0, 20347), (0, 237)], [(39730207, 0),
    (0, 75755), (0, 1739), (0, 28)], [(0, 8776), (0, 60), (0, 1)]], 3, 4⟩, 1099511627776, 0, 21317860,
    ⟨[[(20282642819829, 0), (18349026476, 0), (10196591, 0), (0, 6469), (29, 0)], [(14025274101, 0), (14448377, 0),
    (0, 9282), (63, 0)], [(327390, 0), (0, 9447), (56, 0)], [(0, 2010), (25, 0)]], 3, 4⟩, 68719476736, 1650759,
    2645775585091096918557871022245871831445294593306678222670502776823880957505155631387799364444, ⟨2, 0,
    -1740778772587250, [314840264441, 41989899, 7467]⟩⟩) (.skip))) (.skip))) (.skip))
theorem c65 : checkC job ⟨6, 8, 8, 10, 9, 13⟩ 3 100 lims t65 443 41 2048 87 3 64 = true := by decide +kernel

def t66 : CTree :=
  .sx (.sx (.sy (.sy (.sx (.sy (.sx (.sy (.leaf ⟨1479, 16, 6193, 3090, 16, 1361, ⟨[[(85429583872, 0)],
    [(415605194752, 0)]], 3, 4⟩, ⟨[[(0, 493324144531), (0, 771629462721), (53177732, 0), (0, 1237331), (0, 6737)],
    [(0, 357060657410), (0, 41980359), (0, 413997), (0, 3247), (0, 19)], [(42388664, 0), (0, 45868), (0, 532), (0,
    4)], [(0, 9199), (0, 35)]], 3, 4⟩, 1099511627776, 0, 20965328, ⟨[[(20445852087245, 0), (15773688286, 0),
    (7570226, 0), (0, 4335), (16, 0)], [(13531154916, 0), (11970379, 0), (0, 6984), (40, 0)], [(316620, 0), (0,
    7747), (40, 0)], [(0, 1844), (20, 0)]], 3, 4⟩, 68719476736, 1046407,
    2768078512680618517123188804896219219116994740400426761099609895582253586475888033884089270837, ⟨2, 0,
    -1978005122750990, [352999647325, 45106012, 7685]⟩⟩) (.skip)) (.skip)) (.skip)) (.skip)) (.skip)) (.skip))
    (.skip)) (.skip)
theorem c66 : checkC job ⟨6, 8, 8, 10, 9, 13⟩ 3 100 lims t66 283 41 1024 87 3 64 = true := by decide +kernel

def t67 : CTree :=
  .sx (.sx (.sx (.sx (.sy (.leaf ⟨499, 16, 3096, 982, 16, 381, ⟨[[(269509197824, 0)], [(415538085888, 0)]], 3, 4⟩,
    ⟨[[(0, 79771762931), (0, 1591542805804), (2545384028, 0), (0, 50528003), (0, 1765617)], [(0, 293727039023), (0,
    72637474), (0, 5118298), (0, 296405), (0, 12995)], [(109026266, 0), (0, 201112), (0, 16850), (0, 1002), (0, 44)],
    [(0, 58326), (0, 391), (0, 35), (0, 2)]], 3, 4⟩, 1099511627776, 0, 414751785, ⟨[[(19225350758520, 0),
    (53778425757, 0), (83547980, 0), (0, 83537), (1452, 0)], [(38041354198, 0), (113576333, 0), (0, 97612), (3078,
    0), (0, 30)], [(835729, 0), (0, 142081), (2549, 0), (0, 36)], [(0, 24833), (1059, 0), (0, 22)]], 3, 4⟩,
    68719476736, 99209077,
    2304753154519731337371677305230408013619463930308881886244931167168213701368636249139728101981, ⟨3, 0,
    -705600491081848, [292717139351, 110793770, 55914]⟩⟩) (.sy (.leaf ⟨499, 16, 3096, 1137, 16, 444,
    ⟨[[(269509197824, 0)], [(415538085888, 0)]], 3, 4⟩, ⟨[[(0, 273312126728), (0, 916257335293), (460365418, 0), (0,
    14361918), (0, 278636)], [(0, 342836551232), (0, 83037014), (0, 3260325), (0, 94277), (0, 2023)], [(125470952,
    0), (0, 252413), (0, 10885), (0, 318), (0, 7)], [(0, 71136), (0, 513), (0, 23), (0, 1)]], 3, 4⟩, 1099511627776,
    0, 468684610, ⟨[[(18888247656117, 0), (45229945382, 0), (62968540, 0), (0, 79136), (1007, 0)], [(37317548671, 0),
    (98866920, 0), (0, 120717), (2489, 0), (0, 21)], [(1846991, 0), (0, 153582), (2435, 0), (0, 28)], [(0, 32515),
    (1184, 0), (0, 21)]], 3, 4⟩, 68719476736, 75674902,
    2776944092579403600803858362876430070821983002580672359888911752293617990747982688483739718124, ⟨3, 0,
    -822274588032390, [341119186016, 129113999, 65160]⟩⟩) (.sx (.sy (.leaf ⟨983, 16, 6193, 2266, 16, 883,
    ⟨[[(169181446144, 0)], [(415605194752, 0)]], 3, 4⟩, ⟨[[(90593563150, 0), (0, 905682327993), (159140660, 0), (0,
    4426747), (0, 43510)], [(0, 346505168986), (0, 51993894), (0, 1042278), (0, 14975), (0, 159)], [(63986326, 0),
    (0, 81559), (0, 1759), (0, 25)], [(0, 18929), (0, 84), (0, 2)]], 3, 4⟩, 1099511627776, 0, 62697528,
    ⟨[[(18713323628130, 0), (22516235380, 0), (16017466, 0), (0, 11288), (69, 0)], [(18760786961, 0), (25309540, 0),
    (0, 17806), (174, 0), (0, 1)], [(559475, 0), (0, 21340), (172, 0), (0, 1)], [(0, 4540), (84, 0), (0, 1)]], 3, 4⟩,
    68719476736, 3314453,
    2865478743908282149330466435961181191956245025930896636415635033883290350868884256602499465929, ⟨3, 0,
    -1649305503197851, [344545312348, 66233240, 16976]⟩⟩) (.skip)) (.skip)))) (.sy (.sy (.leaf ⟨530, 16, 3096, 1175,
    16, 465, ⟨[[(258771779584, 0)], [(415538085888, 0)]], 3, 4⟩, ⟨[[(139880845708, 0), (0, 979786370242), (709030030,
    0), (0, 10080314), (0, 187073)], [(0, 337839651530), (0, 56090354), (0, 2045435), (0, 59908), (0, 1322)],
    [(117342618, 0), (0, 152863), (0, 6537), (0, 196), (0, 4)], [(0, 60440), (0, 291), (0, 13)]], 3, 4⟩,
    1099511627776, 0, 375679743, ⟨[[(19334279774993, 0), (44220676189, 0), (57431560, 0), (0, 57355), (744, 0)],
    [(35964706691, 0), (89255020, 0), (0, 82134), (1806, 0), (0, 15)], [(1244730, 0), (0, 118054), (1730, 0), (0,
    20)], [(0, 25431), (836, 0), (0, 14)]], 3, 4⟩, 68719476736, 52905534,
    2024178398403935165997404953211067189839910054054898130476351448833405293049637456975566883723, ⟨3, 0,
    -832744458185543, [336373114237, 119876377, 56962]⟩⟩) (.leaf ⟨530, 16, 3096, 1172, 16, 466, ⟨[[(258771779584,
    0)], [(415538085888, 0)]], 3, 4⟩, ⟨[[(348818903593, 0), (0, 974643372018), (480148790, 0), (0, 16007427), (0,
    315167)], [(0, 338992126587), (0, 88601507), (0, 3472718), (0, 101588), (0, 2210)], [(116391312, 0), (0, 257293),
    (0, 11205), (0, 332), (0, 7)], [(0, 62899), (0, 504), (0, 23), (0, 1)]], 3, 4⟩, 1099511627776, 0, 390607778,
    ⟨[[(19092158938339, 0), (43487925779, 0), (58273709, 0), (0, 74819), (880, 0)], [(35469648296, 0), (90142097, 0),
    (0, 114332), (2141, 0), (0, 17)], [(1951837, 0), (0, 138721), (2072, 0), (0, 23)], [(0, 30494), (1003, 0), (0,
    17)]], 3, 4⟩, 68719476736, 60560217,
    2958626836864552731985908978122804967769518027221304200268247910805162601163648589885594169328, ⟨3, 0,
    -834535306482716, [337096497278, 120134176, 57084]⟩⟩)) (.sy (.sx (.sy (.leaf ⟨1045, 16, 6193, 2337, 16, 927,
    ⟨[[(158712463360, 0)], [(415605194752, 0)]], 3, 4⟩, ⟨[[(0, 203662528240), (0, 963775039417), (158743406, 0), (0,
    4984158), (0, 49739)], [(0, 342421861139), (0, 55801098), (0, 1120780), (0, 16298), (0, 175)], [(59212473, 0),
    (0, 83869), (0, 1829), (0, 27)], [(0, 16752), (0, 84), (0, 2)]], 3, 4⟩, 1099511627776, 0, 52441994,
    ⟨[[(18943672870325, 0), (21679270193, 0), (14792538, 0), (0, 10355), (60, 0)], [(17843302201, 0), (23033579, 0),
    (0, 16240), (146, 0), (0, 1)], [(568411, 0), (0, 18922), (143, 0), (0, 1)], [(0, 4189), (70, 0), (0, 1)]], 3, 4⟩,
    68719476736, 3831673,
    2645954526930702147040951992500109393947069322225644547785456937336192015971952893556322346206, ⟨3, 0,
    -1673964601331534, [340259761059, 61529794, 14835]⟩⟩) (.skip)) (.skip)) (.skip)))) (.sy (.sx (.sy (.leaf ⟨561,
    16, 3096, 1205, 16, 487, ⟨[[(248034361344, 0)], [(415538085888, 0)]], 3, 4⟩, ⟨[[(63607020603, 0), (0,
    1032224620884), (512206219, 0), (0, 17343955), (0, 345702)], [(0, 334890444806), (0, 92206703), (0, 3595471), (0,
    106377), (0, 2347)], [(108302835, 0), (0, 255179), (0, 11211), (0, 337), (0, 7)], [(0, 55814), (0, 481), (0, 22),
    (0, 1)]], 3, 4⟩, 1099511627776, 0, 327738067, ⟨[[(19337824587000, 0), (42097636917, 0), (54110767, 0), (0,
    67629), (754, 0)], [(33914628752, 0), (82474677, 0), (0, 102022), (1804, 0), (0, 14)], [(1799395, 0), (0,
    121544), (1721, 0), (0, 18)], [(0, 26966), (826, 0), (0, 13)]], 3, 4⟩, 68719476736, 46495216,
    2997591353720645939924218019116768163265604954793558107699699011670158736840578844832552576722, ⟨2, 0,
    -844068211402608, [332834626417, 112065531, 50310]⟩⟩) (.sx (.sy (.leaf ⟨1107, 16, 6193, 2402, 16, 969,
    ⟨[[(148243480576, 0)], [(415605194752, 0)]], 3, 4⟩, ⟨[[(0, 134531117627), (0, 1020987428145), (165684647, 0), (0,
    5450425), (0, 55122)], [(0, 338101239564), (0, 58345996), (0, 1171214), (0, 17237), (0, 188)], [(54981401, 0),
    (0, 83893), (0, 1848), (0, 28)], [(0, 14875), (0, 81), (0, 2)]], 3, 4⟩, 1099511627776, 0, 43836789,
    ⟨[[(19171916019765, 0), (20960001468, 0), (13758742, 0), (0, 9529), (52, 0)], [(17030927110, 0), (21086778, 0),
    (0, 14789), (125, 0)], [(541862, 0), (0, 16770), (120, 0), (0, 1)], [(0, 3759), (58, 0)]], 3, 4⟩, 68719476736,
    3510189, 2618857130905465759095007705132257642398468575094634489972883242425449778301278923452673125057, ⟨2, 0,
    -1693141170946360, [335761115884, 57316681, 13046]⟩⟩) (.skip)) (.skip))) (.sy (.sy (.sx (.leaf ⟨1169, 16, 6193,
    2466, 16, 1011, ⟨[[(137774497792, 0)], [(415605194752, 0)]], 3, 4⟩, ⟨[[(524326019980, 0), (0, 1079378140823),
    (181805991, 0), (0, 5811112), (0, 59456)], [(0, 334235702738), (0, 59659000), (0, 1193010), (0, 17765), (0,
    197)], [(51319555, 0), (0, 81839), (0, 1820), (0, 27)], [(0, 13262), (0, 76), (0, 2)]], 3, 4⟩, 1099511627776, 0,
    37283383, ⟨[[(19394936849684, 0), (20294412291, 0), (12833220, 0), (0, 8779), (45, 0)], [(16301883955, 0),
    (19377768, 0), (0, 13473), (107, 0)], [(503174, 0), (0, 14890), (102, 0), (0, 1)], [(0, 3338), (49, 0)]], 3, 4⟩,
    68719476736, 3118469,
    2540071568228910907344203741311489617284619507602789928846971033622189142767623611440348971277, ⟨2, 0,
    -1710627343637616, [331739533631, 53627471, 11559]⟩⟩) (.skip)) (.skip)) (.skip))) (.skip))) (.skip)) (.skip)
theorem c67 : checkC job ⟨6, 8, 8, 10, 9, 13⟩ 3 100 lims t67 121 41 512 93 3 64 = true := by decide +kernel

def t68 : CTree :=
  .skip
theorem c68 : checkC job ⟨6, 8, 8, 10, 9, 13⟩ 3 100 lims t68 203 41 512 45 3 32 = true := by decide +kernel

def t69 : CTree :=
  .skip
theorem c69 : checkC job ⟨6, 8, 8, 10, 9, 13⟩ 3 100 lims t69 163 41 256 21 3 16 = true := by decide +kernel

def t70 : CTree :=
  .sy (.sx (.sy (.sx (.sy (.sy (.sx (.sx (.sx (.sy (.leaf ⟨1249, 16, 1548, 952, 16, 651, ⟨[[(63350767616, 0)],
    [(415538085888, 0)]], 3, 4⟩, ⟨[[(358146582085, 0), (0, 2512896920446), (0, 1426242323), (0, 117605530), (0,
    3605201)], [(0, 228142906276), (0, 674115456), (0, 16982801), (0, 674586), (0, 26065)], [(11619765, 0), (0,
    828043), (0, 44613), (0, 2291), (0, 92)], [(0, 17921), (0, 1227), (0, 95), (0, 5)]], 3, 4⟩, 1099511627776, 0,
    122611724, ⟨[[(29396884155379, 0), (39773188769, 0), (63680399, 0), (0, 194656), (1893, 0)], [(21853092149, 0),
    (41783694, 0), (0, 149332), (2229, 0), (0, 23)], [(787168, 0), (0, 59002), (1039, 0), (0, 14)], [(0, 6285), (232,
    0), (0, 4)]], 3, 4⟩, 68719476736, 56954995,
    869265212213256724221895838205988616165618948177459655677745904173951221569850759052934512640, ⟨0, 0,
    -141770189145317, [199910460207, 30243640, 6101]⟩⟩) (.leaf ⟨1249, 16, 1548, 918, 16, 637, ⟨[[(63350767616, 0)],
    [(415538085888, 0)]], 3, 4⟩, ⟨[[(389605321698, 0), (0, 2491938104405), (0, 4529833787), (0, 254199531), (0,
    8851682)], [(0, 227975464251), (0, 958627483), (0, 36206021), (0, 1670060), (0, 64413)], [(4310373, 0), (0,
    1676124), (0, 111225), (0, 5811), (0, 228)], [(0, 29491), (0, 3087), (0, 246), (0, 13), (0, 1)]], 3, 4⟩,
    1099511627776, 0, 281994895, ⟨[[(28859814631130, 0), (38710153101, 0), (77714502, 0), (0, 358740), (3660, 0)],
    [(21240108750, 0), (48510650, 0), (0, 285401), (4154, 0), (0, 42)], [(1843083, 0), (0, 99321), (1865, 0), (0,
    24)], [(0, 10490), (398, 0), (0, 8)]], 3, 4⟩, 68719476736, 109034116,
    3051008747736472179797648139087922043247032961852361150537330052545429380880353914085839454510, ⟨0, 0,
    -138721367873375, [195611310525, 29593239, 5969]⟩⟩)) (.sy (.leaf ⟨1280, 16, 1548, 927, 16, 645, ⟨[[(52613349376,
    0)], [(415538085888, 0)]], 3, 4⟩, ⟨[[(0, 272882438142), (0, 2550782557243), (0, 3149381403), (0, 189845478), (0,
    6434283)], [(0, 224536152206), (0, 831543141), (0, 26349639), (0, 1165554), (0, 45835)], [(6649175, 0), (0,
    1206882), (0, 74617), (0, 3943), (0, 159)], [(0, 22171), (0, 1992), (0, 159), (0, 9)]], 3, 4⟩, 1099511627776, 0,
    193411174, ⟨[[(29419959350742, 0), (39279224335, 0), (70646752, 0), (0, 267648), (2701, 0)], [(21218284357, 0),
    (43814985, 0), (0, 206634), (3072, 0), (0, 32)], [(1219804, 0), (0, 74448), (1376, 0), (0, 18)], [(0, 7722),
    (293, 0), (0, 6)]], 3, 4⟩, 68719476736, 82060057,
    1354602968717244106820384408698793312835811798768315370976145022540669166598289384174509463962, ⟨0, 0,
    -124420190233294, [193272699304, 28531547, 5616]⟩⟩) (.sy (.leaf ⟨1280, 16, 1548, 1166, 16, 821, ⟨[[(52613349376,
    0)], [(415538085888, 0)]], 3, 4⟩, ⟨[[(271834564140, 0), (0, 1650578655616), (0, 2136030635), (0, 56839930), (0,
    1025211)], [(0, 291410028955), (0, 738011813), (0, 15662999), (0, 375616), (0, 7331)], [(0, 926252), (0,
    1392368), (0, 48567), (0, 1288), (0, 25)], [(0, 44972), (0, 2620), (0, 106), (0, 3)]], 3, 4⟩, 1099511627776, 0,
    222264159, ⟨[[(28998393637732, 0), (29554041387, 0), (50443870, 0), (0, 202677), (1628, 0)], [(20708779632, 0),
    (38995400, 0), (0, 206128), (2325, 0), (0, 18)], [(2227714, 0), (0, 88155), (1308, 0), (0, 13)], [(0, 11705),
    (349, 0), (0, 5)]], 3, 4⟩, 68719476736, 36031728,
    3189785835946194924270404469009412524829485921472372665823510228338531936609303342353574311472, ⟨0, 0,
    -158370505707805, [246010676168, 36316899, 7148]⟩⟩) (.skip)))) (.sy (.sx (.leaf ⟨1311, 16, 1548, 896, 16, 635,
    ⟨[[(41875931136, 0)], [(415538085888, 0)]], 3, 4⟩, ⟨[[(0, 81458126804), (0, 2587584872198), (0, 5820850061), (0,
    312579330), (0, 11309688)], [(0, 220464656213), (0, 1060557271), (0, 41789205), (0, 1994257), (0, 79326)],
    [(354883, 0), (0, 1813832), (0, 124234), (0, 6691), (0, 271)], [(0, 29126), (0, 3233), (0, 265), (0, 15), (0,
    1)]], 3, 4⟩, 1099511627776, 0, 310973325, ⟨[[(29413149647727, 0), (38760545551, 0), (81599200, 0), (0, 391909),
    (4106, 0)], [(20548707515, 0), (47590457, 0), (0, 300748), (4478, 0), (0, 46)], [(1845835, 0), (0, 99013), (1915,
    0), (0, 26)], [(0, 9914), (387, 0), (0, 8)]], 3, 4⟩, 68719476736, 125714910,
    3454320131189863693970634119033167512070719859176264575206518646809402803456029230935155566183, ⟨0, 0,
    -107074422368863, [185778486155, 26776951, 5146]⟩⟩) (.sy (.leaf ⟨1342, 16, 1548, 1149, 16, 826, ⟨[[(31138512896,
    0)], [(415538085888, 0)]], 3, 4⟩, ⟨[[(0, 274869655219), (0, 1730926248137), (0, 2638563766), (0, 68846511), (0,
    1285226)], [(0, 284944220968), (0, 813936100), (0, 17817216), (0, 440531), (0, 8865)], [(0, 5645568), (0,
    1488567), (0, 53368), (0, 1458), (0, 30)], [(0, 44407), (0, 2705), (0, 113), (0, 3)]], 3, 4⟩, 1099511627776, 0,
    216986699, ⟨[[(29554737808724, 0), (29301780462, 0), (51868158, 0), (0, 213713), (1745, 0)], [(20059676054, 0),
    (37954163, 0), (0, 212079), (2425, 0), (0, 19)], [(2214387, 0), (0, 87014), (1316, 0), (0, 14)], [(0, 11084),
    (336, 0), (0, 5)]], 3, 4⟩, 68719476736, 38904212,
    3335266838938763358644540117689208283117846484745589718565666062829740344109113246433502927258, ⟨0, 0,
    -119695655810058, [236077919520, 33241048, 6241]⟩⟩) (.sy (.sx (.leaf ⟨2669, 16, 3096, 2281, 16, 1643, ⟨[[(0,
    482110078976)], [(415538085888, 0)]], 3, 4⟩, ⟨[[(540981885950, 0), (0, 1730134084555), (0, 1622735067), (0,
    21006271), (0, 197346)], [(0, 286955788310), (0, 459738206), (0, 5474324), (0, 68558), (0, 684)], [(0, 5022235),
    (0, 457946), (0, 8411), (0, 114), (0, 1)], [(0, 13382), (0, 432), (0, 9)]], 3, 4⟩, 1099511627776, 0, 29024708,
    ⟨[[(29339341700184, 0), (14462425499, 0), (13943143, 0), (0, 31818), (130, 0)], [(9967376281, 0), (10157154, 0),
    (0, 31741), (180, 0), (0, 1)], [(674238, 0), (0, 12771), (97, 0)], [(0, 1627), (25, 0)]], 3, 4⟩, 68719476736,
    2468277, 3351031186216771459026041297564033747260672071235483891010963180783267306975003384549919978018, ⟨0, 0,
    -247741478973760, [236155109300, 16722497, 1579]⟩⟩) (.skip)) (.skip)))) (.skip))) (.sx (.sy (.sx (.sy (.sy (.sx
    (.leaf ⟨2731, 16, 3096, 2264, 16, 1647, ⟨[[(0, 503584915456)], [(415538085888, 0)]], 3, 4⟩, ⟨[[(0, 490119389200),
    (0, 1770699759803), (0, 1759854650), (0, 22725483), (0, 216880)], [(0, 283836956623), (0, 477893945), (0,
    5743274), (0, 72929), (0, 739)], [(0, 6020981), (0, 466465), (0, 8670), (0, 120), (0, 1)], [(0, 13173), (0, 432),
    (0, 9)]], 3, 4⟩, 1099511627776, 0, 28319256, ⟨[[(29627500681834, 0), (14420879700, 0), (14070366, 0), (0, 32254),
    (133, 0)], [(9823290606, 0), (9992885, 0), (0, 31800), (182, 0), (0, 1)], [(662419, 0), (0, 12572), (96, 0)],
    [(0, 1570), (24, 0)]], 3, 4⟩, 68719476736, 2457942,
    3196011713544248143013145246352805468929387208838478043678746250144550349253467594954270310400, ⟨0, 0,
    -209964897142342, [231356519363, 16010832, 1477]⟩⟩) (.skip)) (.skip)) (.skip)) (.skip)) (.skip)) (.skip)))
    (.skip)) (.skip)) (.skip)) (.skip)) (.skip)) (.skip)
theorem c70 : checkC job ⟨6, 8, 8, 10, 9, 13⟩ 3 100 lims t70 143 41 128 9 3 8 = true := by decide +kernel

end PyX.Kron.S2a
