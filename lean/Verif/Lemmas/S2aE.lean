import Verif.Lemmas.S2aJob

/-!
# Temperature from pressure and entropy in subregion 2a, part E of the certificate
-/

namespace PyX.Kron.S2a

set_option Elab.async false

def t47 : CTree :=
  .sy (.sx (.sy (.sx (.leaf ⟨1869, 16, 1548, 692, 16, 576, ⟨[[(0, 151397597184)], [(415538085888, 0)]], 3, 4⟩,
    ⟨[[(20643999790, 0), (0, 3292181317323), (0, 12240409134), (0, 463073057), (0, 18550502)], [(0, 166125290054),
    (0, 1437034807), (0, 44642783), (0, 2119130), (0, 102748)], [(0, 13967118), (0, 1445012), (0, 89566), (0, 5551),
    (0, 283)], [(0, 15883), (0, 1649), (0, 146), (0, 10), (0, 1)]], 3, 4⟩, 1099511627776, 0, 346651167,
    ⟨[[(34546070719049, 0), (41965945633, 0), (102918619, 0), (0, 345493), (4648, 0)], [(16773825168, 0), (34007806,
    0), (0, 209021), (4279, 0), (0, 57)], [(856043, 0), (0, 56418), (1472, 0), (0, 26)], [(0, 4230), (226, 0), (0,
    6)]], 3, 4⟩, 68719476736, 215625831,
    705918483915108619978456204351029474806179441840326182762715833397630491641492675361968750592, ⟨0, 0,
    110116188725268, [118217611821, 11953247, 1611]⟩⟩) (.leaf ⟨1900, 16, 1548, 656, 16, 556, ⟨[[(0, 162135015424)],
    [(415538085888, 0)]], 3, 4⟩, ⟨[[(0, 65365379720), (0, 3301959725036), (0, 16016882155), (0, 656625963), (0,
    28183478)], [(0, 162902473848), (0, 1652406585), (0, 60555816), (0, 3147251), (0, 155657)], [(0, 17727076), (0,
    1869898), (0, 129502), (0, 8288), (0, 427)], [(0, 19425), (0, 2319), (0, 214), (0, 15), (0, 1)]], 3, 4⟩,
    1099511627776, 0, 518627429, ⟨[[(34549351614127, 0), (41865240338, 0), (118183065, 0), (0, 507028), (6901, 0)],
    [(16403424290, 0), (37388696, 0), (0, 307912), (6255, 0), (0, 82)], [(1206340, 0), (0, 76972), (2096, 0), (0,
    37)], [(0, 5625), (311, 0), (0, 8)]], 3, 4⟩, 68719476736, 328233143,
    1152384495771990430423892151908772685349510125086869155397238923452817452597545425733565561917, ⟨0, 0,
    115573226573732, [112251434716, 11164853, 1481]⟩⟩)) (.sx (.sy (.leaf ⟨1869, 16, 1548, 923, 16, 784, ⟨[[(0,
    151397597184)], [(415538085888, 0)]], 3, 4⟩, ⟨[[(224706657986, 0), (0, 2340476610303), (0, 7349917745), (0,
    170627979), (0, 3857793)], [(0, 236479753165), (0, 1371572309), (0, 30820401), (0, 873836), (0, 21681)], [(0,
    31210969), (0, 1851431), (0, 72285), (0, 2367), (0, 60)], [(0, 37313), (0, 2588), (0, 125), (0, 4)]], 3, 4⟩,
    1099511627776, 0, 170526411, ⟨[[(33984630533468, 0), (28542768779, 0), (67037660, 0), (0, 285050), (2686, 0)],
    [(16247777931, 0), (31591842, 0), (0, 253276), (3436, 0), (0, 31)], [(2004704, 0), (0, 85290), (1612, 0), (0,
    19)], [(0, 8777), (332, 0), (0, 6)]], 3, 4⟩, 68719476736, 68028273,
    933577903714002148937439205100244283834197006502942138138227882632899639297478634087584396767, ⟨0, 0,
    149880367987170, [160907304979, 16269697, 2193]⟩⟩) (.leaf ⟨1869, 16, 1548, 866, 16, 746, ⟨[[(0, 151397597184)],
    [(415538085888, 0)]], 3, 4⟩, ⟨[[(42421982617, 0), (0, 2332197514254), (0, 10891979718), (0, 282573209), (0,
    6633486)], [(0, 234113938186), (0, 1767667953), (0, 49792179), (0, 1509737), (0, 37541)], [(0, 43315472), (0,
    2888503), (0, 124675), (0, 4149), (0, 105)], [(0, 55584), (0, 4433), (0, 220), (0, 8)]], 3, 4⟩, 1099511627776, 0,
    289759165, ⟨[[(33628613493479, 0), (28004536582, 0), (89637806, 0), (0, 530816), (4962, 0)], [(15790305145, 0),
    (42165859, 0), (0, 465008), (6225, 0), (0, 55)], [(3417802, 0), (0, 145015), (2805, 0), (0, 34)], [(0, 14198),
    (548, 0), (0, 10)]], 3, 4⟩, 68719476736, 124653627,
    2852168513398665471972755606669847143426980136147301261355971761465954925709600326271165419098, ⟨0, 0,
    142615758314323, [153108226421, 15481115, 2087]⟩⟩)) (.sy (.leaf ⟨1900, 16, 1548, 868, 16, 752, ⟨[[(0,
    162135015424)], [(415538085888, 0)]], 3, 4⟩, ⟨[[(443806367198, 0), (0, 2366284610726), (0, 10013952400), (0,
    250198612), (0, 5861126)], [(0, 232536984733), (0, 1664371396), (0, 43733290), (0, 1307087), (0, 32815)], [(0,
    40213828), (0, 2528188), (0, 106118), (0, 3542), (0, 91)], [(0, 48585), (0, 3720), (0, 184), (0, 6)]], 3, 4⟩,
    1099511627776, 0, 243120217, ⟨[[(33979174842895, 0), (28167531615, 0), (82281905, 0), (0, 431764), (3978, 0)],
    [(15786962209, 0), (37761217, 0), (0, 382191), (5134, 0), (0, 45)], [(2854027, 0), (0, 122061), (2368, 0), (0,
    29)], [(0, 12141), (473, 0), (0, 9)]], 3, 4⟩, 68719476736, 101254169,
    2026219630177639762693314482983017871762471955901021929247553189954836817288107917174915419954, ⟨0, 0,
    156314867596126, [151822084364, 15100665, 2003]⟩⟩) (.sy (.sx (.leaf ⟨3784, 16, 3096, 1697, 16, 1479,
    ⟨[[(230854492160, 0)], [(415538085888, 0)]], 3, 4⟩, ⟨[[(309525200132, 0), (0, 2391021221471), (0, 6360887043),
    (0, 84424753), (0, 1003503)], [(0, 234942014032), (0, 985719712), (0, 14641885), (0, 225699), (0, 2828)], [(0,
    24582341), (0, 834660), (0, 18411), (0, 309), (0, 4)], [(0, 15726), (0, 646), (0, 16)]], 3, 4⟩, 1099511627776, 0,
    32500357, ⟨[[(33711735129804, 0), (13695208606, 0), (24190584, 0), (0, 75156), (339, 0)], [(7760780647, 0),
    (11346971, 0), (0, 66787), (439, 0), (0, 2)], [(980679, 0), (0, 20737), (201, 0), (0, 1)], [(0, 2025), (39, 0)]],
    3, 4⟩, 68719476736, 3388275,
    1800815683290135979270809753114461756668018674633296028584264091901579312550598701157424577103, ⟨0, 0,
    301299345848781, [149909774894, 7485757, 498]⟩⟩) (.skip)) (.skip))))) (.sy (.sx (.leaf ⟨1931, 16, 1548, 618, 16,
    534, ⟨[[(0, 172872433664)], [(415538085888, 0)]], 3, 4⟩, ⟨[[(223909933484, 0), (0, 3314872964518), (0,
    21114851005), (0, 940718101), (0, 42542014)], [(0, 159659821334), (0, 1932789601), (0, 83350624), (0, 4658320),
    (0, 234195)], [(0, 22268010), (0, 2463298), (0, 187199), (0, 12301), (0, 641)], [(0, 24306), (0, 3268), (0, 313),
    (0, 22), (0, 1)]], 3, 4⟩, 1099511627776, 0, 776436679, ⟨[[(34538366905858, 0), (41629710529, 0), (139837743, 0),
    (0, 761594), (10215, 0)], [(16003434935, 0), (42661260, 0), (0, 463944), (9288, 0), (0, 119)], [(1719861, 0), (0,
    108655), (3055, 0), (0, 54), (1, 0)], [(0, 7711), (440, 0), (0, 12)]], 3, 4⟩, 68719476736, 479848919,
    1982827032323294181896197718380764472248007666394390602336476167688064305342501952656811460488, ⟨0, 0,
    119769264023792, [106079471787, 10381628, 1355]⟩⟩) (.sy (.leaf ⟨1962, 16, 1548, 871, 16, 761, ⟨[[(0,
    183609851904)], [(415538085888, 0)]], 3, 4⟩, ⟨[[(0, 521819947725), (0, 2431534028936), (0, 8490628163), (0,
    191260172), (0, 4380484)], [(0, 228705125063), (0, 1490648626), (0, 33303106), (0, 943459), (0, 23927)], [(0,
    35053366), (0, 1933180), (0, 74609), (0, 2472), (0, 65)], [(0, 37327), (0, 2564), (0, 124), (0, 4)]], 3, 4⟩,
    1099511627776, 0, 167932413, ⟨[[(34750075301663, 0), (28793081724, 0), (69380084, 0), (0, 258137), (2334, 0)],
    [(15821568189, 0), (29629014, 0), (0, 227632), (3144, 0), (0, 27)], [(1739755, 0), (0, 76496), (1507, 0), (0,
    18)], [(0, 7808), (315, 0), (0, 6)]], 3, 4⟩, 68719476736, 57497729,
    1104367861166066317780244882931229160012705418926151024499007298580285574851781453935513158596, ⟨0, 0,
    182980187946470, [148785161965, 14331069, 1841]⟩⟩) (.leaf ⟨1962, 16, 1548, 812, 16, 721, ⟨[[(0, 183609851904)],
    [(415538085888, 0)]], 3, 4⟩, ⟨[[(0, 118107586369), (0, 2424038176592), (0, 12417135276), (0, 318575249), (0,
    7650562)], [(0, 226520050243), (0, 1910537976), (0, 53740358), (0, 1649664), (0, 42355)], [(0, 47342461), (0,
    2995959), (0, 129589), (0, 4427), (0, 118)], [(0, 55222), (0, 4399), (0, 223), (0, 8)]], 3, 4⟩, 1099511627776, 0,
    287417667, ⟨[[(34362671099520, 0), (28158487714, 0), (92794475, 0), (0, 489377), (4139, 0)], [(15354255380, 0),
    (40253275, 0), (0, 439731), (5801, 0), (0, 46)], [(3156307, 0), (0, 138302), (2750, 0), (0, 33)], [(0, 13534),
    (550, 0), (0, 10)]], 3, 4⟩, 68719476736, 90625592,
    2958777693910109760711070916695079553357278616769748489846225103582335894779270569670416216884, ⟨0, 0,
    173362306845473, [140964654108, 13577794, 1744]⟩⟩))) (.sy (.sx (.sy (.leaf ⟨1931, 16, 1548, 1062, 16, 935, ⟨[[(0,
    172872433664)], [(415538085888, 0)]], 3, 4⟩, ⟨[[(79230412150, 0), (0, 1542525637862), (0, 3982776762), (0,
    51837570), (0, 619801)], [(0, 294822715668), (0, 1232236372), (0, 17699641), (0, 272189), (0, 3457)], [(0,
    61170943), (0, 1992918), (0, 43461), (0, 737), (0, 10)], [(0, 74207), (0, 2994), (0, 76), (0, 1)]], 3, 4⟩,
    1099511627776, 0, 270896119, ⟨[[(34080716786747, 0), (21732274129, 0), (57287519, 0), (0, 254597), (1744, 0)],
    [(15436949377, 0), (32994854, 0), (0, 291283), (3007, 0), (0, 19)], [(3461075, 0), (0, 116683), (1791, 0), (0,
    17)], [(0, 14609), (454, 0), (0, 7)]], 3, 4⟩, 68719476736, 32468396,
    1921064411588084979691265804648153392915335387298943618374451442656560163353262787777578999632, ⟨0, 0,
    209708355547276, [185738400976, 18177569, 2372]⟩⟩) (.sx (.leaf ⟨3846, 16, 3096, 1638, 16, 1446, ⟨[[(209379655680,
    0)], [(415538085888, 0)]], 3, 4⟩, ⟨[[(0, 27722104302), (0, 2423823603794), (0, 7126242042), (0, 95936461), (0,
    1154537)], [(0, 231950796601), (0, 1063608401), (0, 16342235), (0, 255318), (0, 3237)], [(0, 26776836), (0,
    914686), (0, 20484), (0, 348), (0, 5)], [(0, 16881), (0, 708), (0, 18)]], 3, 4⟩, 1099511627776, 0, 35168196,
    ⟨[[(33896766280241, 0), (13651932894, 0), (26015805, 0), (0, 81677), (352, 0)], [(7638179759, 0), (11918615, 0),
    (0, 73247), (478, 0), (0, 2)], [(1052339, 0), (0, 22571), (221, 0), (0, 1)], [(0, 2182), (43, 0)]], 3, 4⟩,
    68719476736, 3274811,
    2699493109692626262855309578937055600209238746105375254359414487106746051770811896074085539034, ⟨0, 0,
    318418569936760, [144203072082, 7084753, 464]⟩⟩) (.skip))) (.sy (.sx (.leaf ⟨3908, 16, 3096, 1579, 16, 1412,
    ⟨[[(187904819200, 0)], [(415538085888, 0)]], 3, 4⟩, ⟨[[(0, 381838886216), (0, 2456426107826), (0, 7935639180),
    (0, 108289597), (0, 1319445)], [(0, 228988311660), (0, 1144035218), (0, 18127007), (0, 287011), (0, 3690)], [(0,
    28970193), (0, 996779), (0, 22660), (0, 391), (0, 5)], [(0, 18039), (0, 771), (0, 20)]], 3, 4⟩, 1099511627776, 0,
    38081305, ⟨[[(34083978742954, 0), (13616217478, 0), (27810200, 0), (0, 86243), (343, 0)], [(7520060271, 0),
    (12459379, 0), (0, 78874), (503, 0), (0, 2)], [(1118267, 0), (0, 24283), (239, 0), (0, 1)], [(0, 2333), (47,
    0)]], 3, 4⟩, 68719476736, 3188550,
    3698832954654185716727805859693596849036039149936206077484120213317499239037485380714826950200, ⟨0, 0,
    333840688134741, [138579232835, 6700475, 432]⟩⟩) (.skip)) (.skip))) (.skip)))) (.skip)
theorem c47 : checkC job ⟨6, 8, 8, 10, 9, 13⟩ 3 100 lims t47 1267 41 1024 39 3 64 = true := by decide +kernel

def t48 : CTree :=
  .sx (.sy (.sy (.sx (.sy (.sx (.leaf ⟨1993, 16, 1548, 816, 16, 728, ⟨[[(0, 194347270144)], [(415538085888, 0)]], 3,
    4⟩, ⟨[[(258120477924, 0), (0, 2456954047077), (0, 11287462806), (0, 275463293), (0, 6559297)], [(0,
    225081089387), (0, 1785800718), (0, 46323344), (0, 1388965), (0, 35893)], [(0, 43710305), (0, 2585796), (0,
    107590), (0, 3668), (0, 99)], [(0, 47768), (0, 3614), (0, 181), (0, 7)]], 3, 4⟩, 1099511627776, 0, 236993897,
    ⟨[[(34729894936512, 0), (28370341148, 0), (84049535, 0), (0, 374016), (3063, 0)], [(15383357773, 0), (35226019,
    0), (0, 339219), (4455, 0), (0, 34)], [(2498191, 0), (0, 109643), (2176, 0), (0, 26)], [(0, 10948), (451, 0), (0,
    8)]], 3, 4⟩, 68719476736, 64243329,
    1661157812441360732027026713964979651280720635596940707061705771218666842885468926187708165422, ⟨0, 0,
    186625537929070, [140119830140, 13286538, 1680]⟩⟩) (.leaf ⟨2024, 16, 1548, 755, 16, 688, ⟨[[(0, 205084688384)],
    [(415538085888, 0)]], 3, 4⟩, ⟨[[(270134288604, 0), (0, 2478863449188), (0, 15046646484), (0, 395226894), (0,
    9731032)], [(0, 220500278417), (0, 2167453882), (0, 64483325), (0, 2032483), (0, 53918)], [(0, 54324698), (0,
    3476254), (0, 154855), (0, 5488), (0, 156)], [(0, 61746), (0, 5108), (0, 270), (0, 11)]], 3, 4⟩, 1099511627776,
    0, 342469108, ⟨[[(34730078279341, 0), (28058322711, 0), (103945256, 0), (0, 505429), (3208, 0)], [(14920417104,
    0), (42910840, 0), (0, 481143), (5717, 0), (0, 29)], [(3467832, 0), (0, 152956), (3007, 0), (0, 33)], [(0,
    14991), (631, 0), (0, 12)]], 3, 4⟩, 68719476736, 52384089,
    3068049421250567831319370479439836838162828308517076760679494982662651755431521444561712655662, ⟨0, 0,
    187146339702612, [130393204117, 12174902, 1516]⟩⟩)) (.sx (.sy (.leaf ⟨1993, 16, 1548, 997, 16, 901, ⟨[[(0,
    194347270144)], [(415538085888, 0)]], 3, 4⟩, ⟨[[(515150409668, 0), (0, 1595297123976), (0, 4932679303), (0,
    65860983), (0, 807210)], [(0, 289852265155), (0, 1424459309), (0, 21727683), (0, 343095), (0, 4485)], [(0,
    71664985), (0, 2362853), (0, 53075), (0, 929), (0, 13)], [(0, 84648), (0, 3546), (0, 93), (0, 2)]], 3, 4⟩,
    1099511627776, 0, 314092677, ⟨[[(34443522070135, 0), (21395519263, 0), (63899148, 0), (0, 270487), (1497, 0)],
    [(14973457576, 0), (35484830, 0), (0, 327496), (3135, 0), (0, 16)], [(3910410, 0), (0, 132768), (2028, 0), (0,
    18)], [(0, 16677), (533, 0), (0, 8)]], 3, 4⟩, 68719476736, 19722316,
    2839231040215271260285858524891414136640623799247283581232102512817927110391701290986101737093, ⟨0, 0,
    230974738563313, [173417537027, 16443916, 2079]⟩⟩) (.skip)) (.skip))) (.sy (.sx (.sy (.leaf ⟨2055, 16, 1548, 932,
    16, 864, ⟨[[(0, 215822106624)], [(415538085888, 0)]], 3, 4⟩, ⟨[[(0, 130988640345), (0, 1646599669504), (0,
    5970488368), (0, 81650309), (0, 1030301)], [(0, 284726121168), (0, 1625147590), (0, 26090779), (0, 425340), (0,
    5832)], [(0, 82018215), (0, 2749011), (0, 64052), (0, 1186), (0, 18)], [(0, 95215), (0, 4179), (0, 117), (0,
    3)]], 3, 4⟩, 1099511627776, 0, 371792216, ⟨[[(34835456856764, 0), (21267423287, 0), (68235831, 0), (0, 235444),
    (577, 0)], [(14584032228, 0), (36266764, 0), (0, 313547), (2291, 0), (3, 0)], [(4034378, 0), (0, 134274), (1919,
    0), (0, 13)], [(0, 17413), (567, 0), (0, 8)]], 3, 4⟩, 68719476736, 44373797,
    2742035405004330049846334170315489025509285487906399451217416960718141932119333432742189049254, ⟨0, 0,
    248346683949516, [161279958743, 14831705, 1819]⟩⟩) (.skip)) (.skip)) (.skip))) (.skip)) (.skip)) (.skip)
theorem c48 : checkC job ⟨6, 8, 8, 10, 9, 13⟩ 3 100 lims t48 695 41 512 39 3 64 = true := by decide +kernel

def t49 : CTree :=
  .skip
theorem c49 : checkC job ⟨6, 8, 8, 10, 9, 13⟩ 3 100 lims t49 327 41 256 45 3 64 = true := by decide +kernel

def t50 : CTree :=
  .sx (.sx (.sx (.sx (.leaf ⟨499, 16, 3096, 458, 16, 157, ⟨[[(269509197824, 0)], [(415538085888, 0)]], 3, 4⟩,
    ⟨[[(62958931388, 0), (0, 3820569034853), (48815905958, 0), (0, 878424669), (16977378, 0)], [(0, 120650735582),
    (0, 3937855), (0, 258742), (0, 10508), (0, 259)], [(45621356, 0), (0, 4477), (0, 294), (0, 12)], [(0, 23058), (0,
    2)]], 3, 4⟩, 1099511627776, 0, 310026377, ⟨[[(27591957169034, 0), (184658383159, 0), (557098400, 0), (682016, 0),
    (0, 499)], [(53647780000, 0), (323150945, 0), (595354, 0), (0, 671), (1, 0)], [(0, 6893394), (0, 149304), (0,
    889), (2, 0)], [(0, 4557), (12, 0), (2, 0)]], 3, 4⟩, 68719476736, 49894106,
    1006294672417750410122877886145395309029708810153908478540580542163668105059539507307162160333, ⟨3, 0,
    -290759257479922, [120620973433, 45655175, 23041]⟩⟩) (.leaf ⟨530, 16, 3096, 458, 16, 160, ⟨[[(258771779584, 0)],
    [(415538085888, 0)]], 3, 4⟩, ⟨[[(0, 95528428166), (0, 3893934588596), (49724968990, 0), (0, 896173483),
    (17277995, 0)], [(0, 115777628996), (0, 4809045), (0, 316031), (0, 12837), (0, 317)], [(41208895, 0), (0, 5150),
    (0, 339), (0, 14)], [(0, 19618), (0, 2)]], 3, 4⟩, 1099511627776, 0, 282764388, ⟨[[(27619690034489, 0),
    (181344490039, 0), (536764713, 0), (640799, 0), (0, 382)], [(50552088813, 0), (298765382, 0), (539391, 0), (0,
    553)], [(0, 6090413), (0, 130989), (0, 743), (1, 0)], [(0, 4224), (20, 0), (1, 0)]], 3, 4⟩, 68719476736,
    55981249, 1197329853894439315483376456338979238089586979435107451506399506418569729470026274991408519578, ⟨3, 0,
    -286535727547714, [115741286619, 41247786, 19600]⟩⟩)) (.sx (.leaf ⟨561, 16, 3096, 458, 16, 163, ⟨[[(248034361344,
    0)], [(415538085888, 0)]], 3, 4⟩, ⟨[[(0, 55311970648), (0, 3967384278631), (50628498718, 0), (0, 914147273),
    (17573044, 0)], [(0, 111444411276), (0, 5811241), (0, 381957), (0, 15519), (0, 383)], [(37464181, 0), (0, 5882),
    (0, 387), (0, 16)], [(0, 16859), (0, 3)]], 3, 4⟩, 1099511627776, 0, 262583392, ⟨[[(27614084700813, 0),
    (177958658777, 0), (517280978, 0), (601740, 0), (0, 269)], [(47747924279, 0), (277048124, 0), (490693, 0), (0,
    450), (0, 2)], [(0, 5415960), (0, 115088), (0, 627)], [(0, 3744), (22, 0), (1, 0)]], 3, 4⟩, 68719476736,
    65189131, 1244946281939421393752409206035650224424691553405324549704963928549537278547434686098592025805, ⟨2, 0,
    -282511536876027, [111400501244, 37508586, 16839]⟩⟩) (.leaf ⟨592, 16, 3096, 455, 16, 165, ⟨[[(237296943104, 0)],
    [(415538085888, 0)]], 3, 4⟩, ⟨[[(416788202398, 0), (0, 4016587750735), (51215268501, 0), (0, 926763199),
    (17754078, 0)], [(0, 106918578483), (0, 6914384), (0, 454558), (0, 18473), (0, 457)], [(34048949, 0), (0, 6636),
    (0, 437), (0, 18)], [(0, 14529), (0, 3)]], 3, 4⟩, 1099511627776, 0, 246658164, ⟨[[(27539620814836, 0),
    (175355625729, 0), (504324453, 0), (575000, 0), (0, 157)], [(45136217687, 0), (258983512, 0), (453522, 0), (0,
    360), (0, 3)], [(0, 4813892), (0, 101803), (0, 539)], [(0, 3268), (21, 0), (1, 0)]], 3, 4⟩, 68719476736,
    72666785, 1169827268865839890695387651692593366813057788994537967905710059350170848062757457289966465844, ⟨2, 0,
    -276977287818421, [106866341520, 34099024, 14507]⟩⟩))) (.sx (.leaf ⟨319, 16, 1548, 360, 16, 134,
    ⟨[[(385473314816, 0)], [(415538085888, 0)]], 3, 4⟩, ⟨[[(517911140210, 0), (0, 3262732719442), (41541941492, 0),
    (0, 754719788), (14367110, 0)], [(0, 161050212619), (0, 14097768), (0, 927149), (0, 37697), (0, 933)],
    [(95043607, 0), (0, 25112), (0, 1655), (0, 67), (0, 2)], [(0, 75285), (0, 20), (0, 1)]], 3, 4⟩, 1099511627776, 0,
    928401430, ⟨[[(27484826676999, 0), (215491928605, 0), (764687299, 0), (1054025, 0), (19, 0)], [(83609308553, 0),
    (591233853, 0), (1271072, 0), (0, 941), (0, 22)], [(0, 16453411), (0, 431162), (0, 2704), (0, 8), (1, 0)], [(0,
    21166), (188, 0), (4, 0)]], 3, 4⟩, 68719476736, 1111488505,
    1252058940338341408201149321001765825918853935140396987268289143291371150163249110272048942285, ⟨2, 0,
    -214662405843422, [160943737921, 95232981, 75135]⟩⟩) (.leaf ⟨350, 16, 1548, 362, 16, 139, ⟨[[(374735896576, 0)],
    [(415538085888, 0)]], 3, 4⟩, ⟨[[(31650489638, 0), (0, 3385862550160), (43000828295, 0), (0, 786590109),
    (14811244, 0)], [(0, 152327137388), (0, 19330039), (0, 1272080), (0, 51767), (0, 1285)], [(81845868, 0), (0,
    31434), (0, 2074), (0, 85), (0, 2)], [(0, 59203), (0, 23), (0, 2)]], 3, 4⟩, 1099511627776, 0, 706619561,
    ⟨[[(27583771118562, 0), (208340662177, 0), (713537256, 0), (914185, 0), (459, 0)], [(76444386956, 0), (520702554,
    0), (1065062, 0), (0, 431), (0, 26)], [(0, 13809715), (0, 348629), (0, 1965), (0, 12), (1, 0)], [(0, 15981),
    (163, 0), (1, 0)]], 3, 4⟩, 68719476736, 997724884,
    1037050255563014215997852870895822929210237390822471297781436795232995593753018525479794324276, ⟨2, 0,
    -209606541271821, [152181219610, 82082643, 59031]⟩⟩))) (.sx (.sx (.leaf ⟨381, 16, 1548, 364, 16, 144,
    ⟨[[(363998478336, 0)], [(415538085888, 0)]], 3, 4⟩, ⟨[[(0, 250590031035), (0, 3509530675970), (44424209527, 0),
    (0, 819909879), (15218991, 0)], [(0, 145038036768), (0, 25862496), (0, 1703424), (0, 69404), (0, 1731)],
    [(71484308, 0), (0, 38717), (0, 2560), (0, 105), (0, 3)], [(0, 47619), (0, 26), (0, 2)]], 3, 4⟩, 1099511627776,
    0, 563392206, ⟨[[(27638327632616, 0), (201365740635, 0), (667468762, 0), (788564, 0), (863, 0)], [(70340882311,
    0), (462534556, 0), (898643, 0), (0, 18), (0, 30)], [(0, 11692224), (0, 286792), (0, 1426), (0, 14), (1, 0)],
    [(0, 12389), (143, 0), (0, 1)]], 3, 4⟩, 68719476736, 942314842,
    861344771541891815752072114498899152538494870286832189216258351351696326791346563760943582413, ⟨2, 0,
    -204758753045756, [144842936188, 71775489, 47424]⟩⟩) (.leaf ⟨412, 16, 1548, 363, 16, 148, ⟨[[(353261060096, 0)],
    [(415538085888, 0)]], 3, 4⟩, ⟨[[(204324899466, 0), (0, 3609480034064), (45495941784, 0), (0, 849302172),
    (15476137, 0)], [(0, 137931259046), (0, 33667151), (0, 2219907), (0, 90597), (0, 2276)], [(62746159, 0), (0,
    46731), (0, 3098), (0, 127), (0, 3)], [(0, 38774), (0, 30), (0, 2)]], 3, 4⟩, 1099511627776, 0, 465442625,
    ⟨[[(27558444939717, 0), (195274547449, 0), (633439787, 0), (685381, 0), (1369, 0)], [(64867004486, 0),
    (415962788, 0), (771640, 0), (411, 0), (0, 37)], [(0, 9846184), (0, 240329), (0, 1004), (0, 18), (1, 0)], [(0,
    9961), (133, 0), (0, 3)]], 3, 4⟩, 68719476736, 973483782,
    711515891096402660849317739983222344204807849648164585321072082534688043688687353384877319783, ⟨2, 0,
    -198710143978209, [137677496097, 63096928, 38556]⟩⟩)) (.sx (.leaf ⟨443, 16, 1548, 360, 16, 151, ⟨[[(342523641856,
    0)], [(415538085888, 0)]], 3, 4⟩, ⟨[[(467495437047, 0), (0, 3685799398189), (46210032874, 0), (0, 875020950),
    (15575078, 0)], [(0, 130970869840), (0, 42794461), (0, 2825646), (0, 115578), (0, 2936)], [(55274963, 0), (0,
    55422), (0, 3686), (0, 153), (0, 4)], [(0, 31893), (0, 33), (0, 2)]], 3, 4⟩, 1099511627776, 0, 397286620,
    ⟨[[(27515433599786, 0), (190952826684, 0), (611054725, 0), (598471, 0), (1915, 0)], [(60228423477, 0),
    (379393619, 0), (672154, 0), (804, 0), (0, 44)], [(0, 8402140), (0, 206489), (0, 680), (0, 21), (1, 0)], [(0,
    8220), (130, 0), (0, 4)]], 3, 4⟩, 68719476736, 1057955622,
    810917271079339339697360523438266415014230406100492069934218223219594058362958977777012834304, ⟨2, 0,
    -191631982959916, [130648650864, 55689962, 31651]⟩⟩) (.leaf ⟨474, 16, 1548, 358, 16, 154, ⟨[[(331786223616, 0)],
    [(415538085888, 0)]], 3, 4⟩, ⟨[[(0, 51117656715), (0, 3763005036505), (46865236505, 0), (0, 903174068),
    (15608699, 0)], [(0, 124941456391), (0, 53611378), (0, 3545991), (0, 145485), (0, 3759)], [(49130497, 0), (0,
    65147), (0, 4350), (0, 182), (0, 5)], [(0, 26624), (0, 37), (0, 3)]], 3, 4⟩, 1099511627776, 0, 352362347,
    ⟨[[(27607200652165, 0), (187606954536, 0), (591710853, 0), (517429, 0), (2337, 0)], [(56443550790, 0),
    (348863175, 0), (587157, 0), (1054, 0), (0, 48)], [(0, 7349818), (0, 180699), (0, 456), (0, 22), (1, 0)], [(0,
    6872), (123, 0), (0, 4)]], 3, 4⟩, 68719476736, 1117027635,
    773815431570372505221573149937773694359949270201376031890528789281186368856467373170788977869, ⟨2, 0,
    -184878191356465, [124538316083, 49616859, 26357]⟩⟩)))
theorem c50 : checkC job ⟨6, 8, 8, 10, 9, 13⟩ 3 100 lims t50 121 41 512 27 3 32 = true := by decide +kernel

def t51 : CTree :=
  .sx (.sx (.sx (.leaf ⟨505, 16, 1548, 356, 16, 157, ⟨[[(321048805376, 0)], [(415538085888, 0)]], 3, 4⟩, ⟨[[(0,
    307338183870), (0, 3841259710917), (47450482910, 0), (0, 934240898), (15560419, 0)], [(0, 119675432422), (0,
    66322953), (0, 4396120), (0, 181105), (0, 4797)], [(44003606, 0), (0, 76006), (0, 5101), (0, 215), (0, 7)], [(0,
    22517), (0, 41), (0, 3)]], 3, 4⟩, 1099511627776, 0, 324803912, ⟨[[(27651444736182, 0), (184057195116, 0),
    (573542537, 0), (435164, 0), (2829, 0)], [(53037484431, 0), (322103347, 0), (512208, 0), (1331, 0), (0, 53)],
    [(0, 6430752), (0, 159767), (0, 259), (0, 24), (1, 0)], [(0, 5888), (121, 0), (0, 5)]], 3, 4⟩, 68719476736,
    1194230816, 684230065726813109291719006484854614316588937160506613142267565626106653590659661349177943655, ⟨2, 0,
    -178394632316195, [119177491328, 44568995, 22223]⟩⟩) (.leaf ⟨536, 16, 1548, 354, 16, 160, ⟨[[(310311387136, 0)],
    [(415538085888, 0)]], 3, 4⟩, ⟨[[(0, 346183655554), (0, 3920746182813), (47953214455, 0), (0, 968779660),
    (15407974, 0)], [(0, 115044385179), (0, 81154857), (0, 5393237), (0, 223407), (0, 6132)], [(39670162, 0), (0,
    88119), (0, 5950), (0, 255), (0, 9)], [(0, 19267), (0, 45), (0, 3)]], 3, 4⟩, 1099511627776, 0, 313299126,
    ⟨[[(27658185613268, 0), (180366785155, 0), (556686707, 0), (350396, 0), (3413, 0)], [(49960244724, 0),
    (298535221, 0), (444952, 0), (1650, 0), (0, 60)], [(0, 5626305), (0, 142766), (0, 75), (0, 26), (1, 0)], [(0,
    5163), (122, 0), (0, 5)]], 3, 4⟩, 68719476736, 1305999777,
    610748852249701782567905366536609166039124398981372033549930601834162428687965500505076426343, ⟨2, 0,
    -172137624462862, [114436240399, 40322847, 18944]⟩⟩)) (.sx (.leaf ⟨567, 16, 1548, 350, 16, 162, ⟨[[(299573968896,
    0)], [(415538085888, 0)]], 3, 4⟩, ⟨[[(0, 378930454465), (0, 3977119139095), (48062501746, 0), (0, 1001265439),
    (15027639, 0)], [(0, 110267753972), (0, 97753458), (0, 6516812), (0, 271933), (0, 7839)], [(35743617, 0), (0,
    101004), (0, 6871), (0, 301), (0, 11)], [(0, 16558), (0, 50), (0, 4)]], 3, 4⟩, 1099511627776, 0, 316782806,
    ⟨[[(27663959802690, 0), (177847068627, 0), (548082039, 0), (269263, 0), (4161, 0)], [(47214348384, 0),
    (279531214, 0), (389138, 0), (2026, 0), (0, 70)], [(0, 4940124), (0, 129779), (93, 0), (0, 30), (1, 0)], [(0,
    4609), (125, 0), (0, 6)]], 3, 4⟩, 68719476736, 1509048778,
    617876226635734543305589725608125985204095383460581423098487294183593822741902643175590409012, ⟨1, 0,
    -165052658190250, [109536867382, 36487964, 16206]⟩⟩) (.sy (.leaf ⟨598, 16, 1548, 553, 16, 258, ⟨[[(288836550656,
    0)], [(415538085888, 0)]], 3, 4⟩, ⟨[[(0, 91356975590), (0, 3293011483445), (20824639374, 0), (0, 223295172),
    (1764512, 0)], [(0, 166531585721), (0, 75067792), (0, 2538998), (0, 54518), (0, 753)], [(51163153, 0), (0,
    73765), (0, 2549), (0, 56), (0, 1)], [(0, 22490), (0, 35), (0, 1)]], 3, 4⟩, 1099511627776, 0, 130400073,
    ⟨[[(28611186916696, 0), (115093973740, 0), (219862065, 0), (68695, 0), (517, 0)], [(46146826822, 0), (169334039,
    0), (147421, 0), (304, 0), (0, 7)], [(0, 4975896), (0, 75499), (0, 51), (0, 4)], [(0, 3646), (51, 0), (0, 1)]],
    3, 4⟩, 68719476736, 49370265,
    323267425064970614211600642252412003257807414703528975063160262009099100117687322019580451226, ⟨1, 0,
    -248934000133870, [165411151621, 52246100, 22003]⟩⟩) (.leaf ⟨598, 16, 1548, 558, 16, 269, ⟨[[(288836550656, 0)],
    [(415538085888, 0)]], 3, 4⟩, ⟨[[(464039104407, 0), (0, 3196570883720), (17867504058, 0), (0, 197333263),
    (1087763, 0)], [(0, 174210087506), (0, 116954992), (0, 3879861), (0, 84380), (0, 1994)], [(52773213, 0), (0,
    116216), (0, 4024), (0, 106), (0, 5)], [(0, 23725), (0, 57), (0, 2)]], 3, 4⟩, 1099511627776, 0, 143214585,
    ⟨[[(26629936872332, 0), (102921094700, 0), (200174603, 0), (3658, 0), (1284, 0)], [(43173794389, 0), (157871193,
    0), (99953, 0), (1239, 0), (0, 25)], [(0, 3610307), (0, 77484), (432, 0), (0, 16)], [(0, 5294), (155, 0), (0,
    5)]], 3, 4⟩, 68719476736, 147441424,
    169598567369748835949733508841473827595590556200750413328463774661310012985443622868392601648, ⟨1, 0,
    -259547465255857, [172463565063, 54473647, 22941]⟩⟩)))) (.sx (.sy (.leaf ⟨322, 16, 774, 394, 16, 190,
    ⟨[[(411243118592, 0)], [(415538085888, 0)]], 3, 4⟩, ⟨[[(0, 44693581214), (0, 2432757084752), (15075751402, 0),
    (0, 170054458), (1220385, 0)], [(0, 228139982842), (0, 139734082), (0, 4754024), (0, 102993), (0, 1480)],
    [(128761278, 0), (0, 257896), (0, 9026), (0, 204), (0, 4)], [(0, 106764), (0, 235), (0, 9)]], 3, 4⟩,
    1099511627776, 0, 1096891641, ⟨[[(28588161361935, 0), (155676226122, 0), (411458866, 0), (103388, 0), (2459, 0)],
    [(85573156097, 0), (428663106, 0), (465259, 0), (2162, 0), (0, 64)], [(0, 16634856), (0, 367590), (128, 0), (0,
    55), (2, 0)], [(0, 25341), (581, 0), (0, 23), (1, 0)]], 3, 4⟩, 68719476736, 937263247,
    571052520955362760806901152683221884605932277901894030852359989945506506512656126774836461568, ⟨1, 0,
    -168893917634677, [226063560771, 132510880, 103565]⟩⟩) (.sx (.leaf ⟨629, 16, 1548, 556, 16, 274,
    ⟨[[(278099132416, 0)], [(415538085888, 0)]], 3, 4⟩, ⟨[[(0, 126617291997), (0, 3266584195330), (17846644712, 0),
    (0, 208838414), (903603, 0)], [(0, 169097210181), (0, 139759128), (0, 4674163), (0, 106033), (0, 3029)],
    [(48218993, 0), (0, 133472), (0, 4726), (0, 139), (0, 8)], [(0, 20947), (0, 65), (0, 3)]], 3, 4⟩, 1099511627776,
    0, 130452421, ⟨[[(26686044462936, 0), (100930416455, 0), (195969264, 0), (0, 22713), (1491, 0)], [(41088819055,
    0), (148222237, 0), (77321, 0), (1410, 0), (0, 28)], [(0, 3166029), (0, 73015), (512, 0), (0, 17)], [(0, 4982),
    (160, 0), (0, 6)]], 3, 4⟩, 68719476736, 166521447,
    259764902508788436466474908747557870018633305685892985453444257575721403265820839096509713004, ⟨1, 0,
    -250327578123511, [167017630949, 50155445, 20082]⟩⟩) (.leaf ⟨660, 16, 1548, 553, 16, 279, ⟨[[(267361714176, 0)],
    [(415538085888, 0)]], 3, 4⟩, ⟨[[(525007597602, 0), (0, 3338813884426), (17748041469, 0), (0, 222542756), (606154,
    0)], [(0, 164542085233), (0, 165974445), (0, 5609603), (0, 134563), (0, 4697)], [(44191531, 0), (0, 153003), (0,
    5580), (0, 186), (0, 12)], [(0, 18658), (0, 73), (0, 3)]], 3, 4⟩, 1099511627776, 0, 128577895,
    ⟨[[(26628236479403, 0), (98524732292, 0), (192494121, 0), (0, 58866), (1876, 0)], [(39034293062, 0), (139504158,
    0), (49683, 0), (1760, 0), (0, 34)], [(0, 2690569), (0, 71071), (664, 0), (0, 21)], [(0, 4960), (182, 0), (0,
    6)]], 3, 4⟩, 68719476736, 203166531,
    363861088737507126878215620427295330794377677442018466167180661985008549899378940482549881547, ⟨1, 0,
    -241282762232483, [162082935069, 46388934, 17702]⟩⟩))) (.sy (.leaf ⟨353, 16, 774, 396, 16, 199, ⟨[[(400505700352,
    0)], [(415538085888, 0)]], 3, 4⟩, ⟨[[(0, 470014289575), (0, 2561952215085), (15312552337, 0), (0, 188537421),
    (1121932, 0)], [(0, 218896670324), (0, 195931009), (0, 6733000), (0, 148382), (0, 2325)], [(110696788, 0), (0,
    336531), (0, 12034), (0, 284), (0, 6)], [(0, 86242), (0, 296), (0, 12)]], 3, 4⟩, 1099511627776, 0, 801677625,
    ⟨[[(28648799935540, 0), (148142824037, 0), (384595789, 0), (0, 5606), (3030, 0)], [(78110272404, 0), (376167869,
    0), (334830, 0), (2749, 0), (0, 79)], [(0, 13303572), (0, 311045), (696, 0), (0, 64), (2, 0)], [(0, 21586), (593,
    0), (0, 26), (1, 0)]], 3, 4⟩, 68719476736, 934573601,
    790548167328888255657739888519496386821219466180074997510490890226059379234273747840004836557, ⟨1, 0,
    -158356271852569, [216006818183, 115511667, 82361]⟩⟩) (.sx (.leaf ⟨691, 16, 1548, 549, 16, 283, ⟨[[(256624295936,
    0)], [(415538085888, 0)]], 3, 4⟩, ⟨[[(253258919507, 0), (0, 3401573046748), (17495810279, 0), (0, 238334122),
    (125028, 0)], [(0, 159915865036), (0, 195369091), (0, 6694476), (0, 172731), (0, 7392)], [(40451931, 0), (0,
    174644), (0, 6627), (0, 258), (0, 20)], [(0, 16701), (0, 84), (0, 4)]], 3, 4⟩, 1099511627776, 0, 139605266,
    ⟨[[(26653808082343, 0), (96805813983, 0), (190905297, 0), (0, 94090), (2279, 0)], [(37270210756, 0), (132321196,
    0), (25368, 0), (2093, 0), (0, 41)], [(0, 2315712), (0, 69644), (790, 0), (0, 23)], [(0, 4890), (197, 0), (0,
    7)]], 3, 4⟩, 68719476736, 242663350,
    470388209723874900410612721065681145487066019988020063905812343361430403745432084311359423989, ⟨1, 0,
    -231567490168656, [157035819132, 42929420, 15648]⟩⟩) (.leaf ⟨722, 16, 1548, 543, 16, 286, ⟨[[(245886877696, 0)],
    [(415538085888, 0)]], 3, 4⟩, ⟨[[(265674922982, 0), (0, 3455057314217), (17078840701, 0), (0, 257148740), (0,
    649197)], [(0, 155234062746), (0, 228174063), (0, 7962715), (0, 225738), (0, 11806)], [(36963715, 0), (0,
    198811), (0, 7964), (0, 372), (0, 34)], [(0, 15026), (0, 97), (0, 6), (0, 1)]], 3, 4⟩, 1099511627776, 0,
    169497106, ⟨[[(26653763106108, 0), (95307842550, 0), (191316612, 0), (0, 138855), (2881, 0)], [(35617852902, 0),
    (126357630, 0), (0, 2705), (2585, 0), (0, 50)], [(0, 1952865), (0, 70115), (966, 0), (0, 27)], [(0, 4963), (220,
    0), (0, 8)]], 3, 4⟩, 68719476736, 303996195,
    565131386287203237253081891030557452062572330118606841810798307712136456459122177885303703791, ⟨1, 0,
    -221292108758195, [151890754795, 39741171, 13864]⟩⟩))))
theorem c51 : checkC job ⟨6, 8, 8, 10, 9, 13⟩ 3 100 lims t51 203 41 512 27 3 32 = true := by decide +kernel

def t52 : CTree :=
  .sx (.sx (.sx (.sx (.leaf ⟨499, 16, 3096, 486, 16, 174, ⟨[[(269509197824, 0)], [(415538085888, 0)]], 3, 4⟩,
    ⟨[[(164411938741, 0), (0, 3676049106061), (39958020429, 0), (0, 629844893), (10763700, 0)], [(0, 133754256880),
    (0, 9338702), (0, 567896), (0, 20257), (0, 471)], [(50516402, 0), (0, 10627), (0, 648), (0, 24), (0, 1)], [(0,
    25577), (0, 5)]], 3, 4⟩, 1099511627776, 0, 251177174, ⟨[[(24200657539893, 0), (147742054571, 0), (420448532, 0),
    (511799, 0), (398, 0)], [(47582667507, 0), (270017999, 0), (508721, 0), (55, 0), (0, 22)], [(0, 4327386), (0,
    103582), (0, 607), (0, 10)], [(0, 4163), (0, 30), (0, 1)]], 3, 4⟩, 68719476736, 220055574,
    1323784269238555522963736019352763139703219389881256030825758197670684558559127587531965732419, ⟨3, 0,
    -322242743958639, [133681843168, 50598729, 25536]⟩⟩) (.leaf ⟨530, 16, 3096, 487, 16, 178, ⟨[[(258771779584, 0)],
    [(415538085888, 0)]], 3, 4⟩, ⟨[[(466587899592, 0), (0, 3761415555944), (40824307173, 0), (0, 646193728),
    (10966556, 0)], [(0, 128850951349), (0, 11450236), (0, 696761), (0, 24978), (0, 611)], [(45793104, 0), (0,
    12276), (0, 750), (0, 28), (0, 1)], [(0, 21850), (0, 6)]], 3, 4⟩, 1099511627776, 0, 220874920,
    ⟨[[(24162651554512, 0), (144184313707, 0), (401899235, 0), (462984, 0), (678, 0)], [(44728125322, 0), (248433506,
    0), (450090, 0), (330, 0), (0, 25)], [(0, 3739044), (0, 92284), (0, 401), (0, 12)], [(0, 4258), (5, 0), (0, 2)]],
    3, 4⟩, 68719476736, 238246926,
    1441089958181156768784278510978378886738204508919209636588286624813696798542859641622460902534, ⟨3, 0,
    -318770996896831, [128762181364, 45888162, 21805]⟩⟩)) (.sx (.leaf ⟨561, 16, 3096, 486, 16, 181, ⟨[[(248034361344,
    0)], [(415538085888, 0)]], 3, 4⟩, ⟨[[(156117064864, 0), (0, 3825852236849), (41448919998, 0), (0, 659366535),
    (11093739, 0)], [(0, 123809465905), (0, 13813886), (0, 841355), (0, 30374), (0, 793)], [(41542272, 0), (0,
    14004), (0, 858), (0, 33), (0, 1)], [(0, 18747), (0, 6)]], 3, 4⟩, 1099511627776, 0, 198861332,
    ⟨[[(24204664476567, 0), (141993947873, 0), (389724604, 0), (425211, 0), (902, 0)], [(42320963427, 0), (231199418,
    0), (403773, 0), (527, 0), (0, 27)], [(0, 3323981), (0, 83326), (0, 258), (0, 12)], [(0, 4011), (25, 0), (0,
    2)]], 3, 4⟩, 68719476736, 244383828,
    1526515945970095933368934581592494088801313113942315805576920993410117551730340843243118401091, ⟨2, 0,
    -313709129905281, [123702397087, 41650639, 18698]⟩⟩) (.leaf ⟨592, 16, 3096, 485, 16, 184, ⟨[[(237296943104, 0)],
    [(415538085888, 0)]], 3, 4⟩, ⟨[[(68275463162, 0), (0, 3890515016602), (42059686933, 0), (0, 673060409),
    (11202311, 0)], [(0, 119300096898), (0, 16510935), (0, 1006868), (0, 36705), (0, 1043)], [(37902808, 0), (0,
    15879), (0, 977), (0, 38), (0, 2)], [(0, 16230), (0, 7)]], 3, 4⟩, 1099511627776, 0, 184358938,
    ⟨[[(24216932883845, 0), (139706975784, 0), (378013291, 0), (387821, 0), (1146, 0)], [(40120228487, 0),
    (215736002, 0), (362238, 0), (724, 0), (0, 30)], [(0, 2968710), (0, 75499), (0, 135), (0, 13)], [(0, 3664), (39,
    0), (0, 3)]], 3, 4⟩, 68719476736, 268756606,
    1457858165251774947106727463921687404814174012231392449043422716047176801269025715878195819743, ⟨2, 0,
    -308871642173270, [119172162665, 38025578, 16178]⟩⟩))) (.sx (.sx (.leaf ⟨623, 16, 3096, 482, 16, 186,
    ⟨[[(226559524864, 0)], [(415538085888, 0)]], 3, 4⟩, ⟨[[(0, 476127904494), (0, 3934283655679), (42426504021, 0),
    (0, 683691602), (11224860, 0)], [(0, 114627783810), (0, 19465844), (0, 1189055), (0, 43929), (0, 1384)],
    [(34573467, 0), (0, 17813), (0, 1102), (0, 45), (0, 2)], [(0, 14089), (0, 7)]], 3, 4⟩, 1099511627776, 0,
    176208063, ⟨[[(24286203729801, 0), (138529318176, 0), (371403493, 0), (359262, 0), (1355, 0)], [(38221668024, 0),
    (203301184, 0), (329461, 0), (867, 0), (0, 31)], [(0, 2697203), (0, 69262), (0, 50), (0, 14)], [(0, 3296), (46,
    0), (0, 3)]], 3, 4⟩, 68719476736, 283870835,
    1277143433292663411229754241696929263813092519644568425708668416724095651567214244700688596280, ⟨2, 0,
    -302600392678688, [114477011346, 34711040, 14033]⟩⟩) (.leaf ⟨654, 16, 3096, 481, 16, 189, ⟨[[(215822106624, 0)],
    [(415538085888, 0)]], 3, 4⟩, ⟨[[(0, 158952918195), (0, 3999487681432), (43003919876, 0), (0, 698702388),
    (11272305, 0)], [(0, 110990308060), (0, 22902216), (0, 1402116), (0, 52738), (0, 1879)], [(31854152, 0), (0,
    19996), (0, 1246), (0, 54), (0, 3)], [(0, 12388), (0, 8), (0, 1)]], 3, 4⟩, 1099511627776, 0, 176001675,
    ⟨[[(24246553603499, 0), (136064947662, 0), (360472488, 0), (320774, 0), (1662, 0)], [(36349887918, 0),
    (190613261, 0), (294186, 0), (1086, 0), (0, 34)], [(0, 2412112), (0, 63579), (54, 0), (0, 15)], [(0, 2999), (54,
    0), (0, 3)]], 3, 4⟩, 68719476736, 306635712,
    1524698470720759025683516130309388539199645944306836200017524061806485999138870900788603638651, ⟨2, 0,
    -298172105454135, [110813004582, 32008378, 12328]⟩⟩)) (.sy (.leaf ⟨350, 16, 1548, 537, 16, 214, ⟨[[(374735896576,
    0)], [(415538085888, 0)]], 3, 4⟩, ⟨[[(176277421352, 0), (0, 2341532327481), (13062417381, 0), (0, 110068481),
    (911889, 0)], [(0, 234699751543), (0, 26509775), (0, 827289), (0, 15562), (0, 222)], [(125711480, 0), (0, 43218),
    (0, 1362), (0, 27), (0, 1)], [(0, 91364), (0, 32), (0, 1)]], 3, 4⟩, 1099511627776, 0, 873855070,
    ⟨[[(24955747820985, 0), (123391994087, 0), (286336215, 0), (222166, 0), (817, 0)], [(69755963775, 0), (320081213,
    0), (431564, 0), (1048, 0), (0, 31)], [(0, 9494238), (0, 203013), (0, 82), (0, 28), (1, 0)], [(0, 18957), (266,
    0), (0, 12)]], 3, 4⟩, 68719476736, 231732528,
    902517311138835336289002465847996062067427326281664087855775229975010493714708337857275010004, ⟨2, 0,
    -322703595914891, [234293388465, 126371838, 90882]⟩⟩) (.leaf ⟨350, 16, 1548, 540, 16, 220, ⟨[[(374735896576, 0)],
    [(415538085888, 0)]], 3, 4⟩, ⟨[[(0, 545949321693), (0, 2257509801189), (11574167271, 0), (0, 94089974), (631433,
    0)], [(0, 241478093034), (0, 39465482), (0, 1219980), (0, 28551), (0, 1196)], [(128911804, 0), (0, 65223), (0,
    2209), (0, 81), (0, 6)], [(0, 94171), (0, 51), (0, 2)]], 3, 4⟩, 1099511627776, 0, 903840306, ⟨[[(23547736847355,
    0), (113576373382, 0), (264469395, 0), (142410, 0), (2044, 0)], [(66059217476, 0), (302181405, 0), (338780, 0),
    (3236, 0), (0, 73)], [(0, 7065262), (0, 211806), (1521, 0), (0, 69), (1, 0)], [(0, 24522), (752, 0), (0, 33), (1,
    0)]], 3, 4⟩, 68719476736, 358575626,
    1707943484869461991536525933102783010886622442211586650699022852079250997199519049066423335289, ⟨2, 0,
    -331751360286336, [240862361973, 129914974, 93430]⟩⟩)))) (.sx (.sx (.sy (.leaf ⟨381, 16, 1548, 547, 16, 225,
    ⟨[[(363998478336, 0)], [(415538085888, 0)]], 3, 4⟩, ⟨[[(144224176164, 0), (0, 2464501547037), (13652266278, 0),
    (0, 117278539), (934499, 0)], [(0, 226868761166), (0, 36026017), (0, 1128025), (0, 21732), (0, 372)],
    [(111324107, 0), (0, 54145), (0, 1724), (0, 37), (0, 1)], [(0, 74656), (0, 37), (0, 1)]], 3, 4⟩, 1099511627776,
    0, 654310748, ⟨[[(24962574398224, 0), (117264019366, 0), (260804976, 0), (167541, 0), (987, 0)], [(64074827091,
    0), (280365508, 0), (338222, 0), (1305, 0), (0, 33)], [(0, 7902359), (0, 170699), (253, 0), (0, 29), (1, 0)],
    [(0, 15704), (296, 0), (0, 12)]], 3, 4⟩, 68719476736, 216699582,
    1103586008600790322145340849233024155294216434786211384519104269638726884102642084230656790707, ⟨2, 0,
    -319935551633994, [226317087794, 112149201, 74099]⟩⟩) (.leaf ⟨381, 16, 1548, 548, 16, 231, ⟨[[(363998478336, 0)],
    [(415538085888, 0)]], 3, 4⟩, ⟨[[(385174631688, 0), (0, 2374274826998), (12030654804, 0), (0, 101954434), (505023,
    0)], [(0, 233187734377), (0, 53823288), (0, 1721478), (0, 49000), (0, 2798)], [(113884664, 0), (0, 82962), (0,
    3108), (0, 155), (0, 14)], [(0, 76940), (0, 64), (0, 4)]], 3, 4⟩, 1099511627776, 0, 685125307,
    ⟨[[(23456055075497, 0), (107568447045, 0), (242574938, 0), (68669, 0), (2555, 0)], [(60419495447, 0), (265421145,
    0), (224489, 0), (3982, 0), (0, 81)], [(0, 5510782), (0, 194223), (2132, 0), (0, 73), (1, 0)], [(0, 22878), (871,
    0), (0, 35), (1, 0)]], 3, 4⟩, 68719476736, 373566768,
    1671744757862347054979018604934617260127021206245316040279467359772920222740583446852353681534, ⟨2, 0,
    -328467166344234, [232352210135, 115139846, 76075]⟩⟩)) (.sy (.leaf ⟨412, 16, 1548, 554, 16, 235,
    ⟨[[(353261060096, 0)], [(415538085888, 0)]], 3, 4⟩, ⟨[[(495607592236, 0), (0, 2577522651975), (14149546941, 0),
    (0, 124640422), (934478, 0)], [(0, 219339155586), (0, 47714401), (0, 1502022), (0, 30090), (0, 652)], [(99176159,
    0), (0, 66639), (0, 2159), (0, 52), (0, 2)], [(0, 61857), (0, 43), (0, 2)]], 3, 4⟩, 1099511627776, 0, 501357608,
    ⟨[[(24929544816476, 0), (111974790137, 0), (241000186, 0), (119800, 0), (1200, 0)], [(59152799277, 0),
    (248865274, 0), (263358, 0), (1595, 0), (0, 35)], [(0, 6566401), (0, 148343), (540, 0), (0, 30), (1, 0)], [(0,
    13612), (328, 0), (0, 13)]], 3, 4⟩, 68719476736, 216890265,
    1139869529609828962717779838246816472043150441858671336017137087623447192724122910820026126515, ⟨2, 0,
    -315519485370804, [218609537722, 100187689, 61221]⟩⟩) (.leaf ⟨412, 16, 1548, 555, 16, 241, ⟨[[(353261060096, 0)],
    [(415538085888, 0)]], 3, 4⟩, ⟨[[(0, 403097459517), (0, 2482282689224), (12379812813, 0), (0, 111917095), (163339,
    0)], [(0, 225296383215), (0, 71794364), (0, 2426014), (0, 88103), (0, 6372)], [(101201774, 0), (0, 104830), (0,
    4545), (0, 305), (0, 30)], [(0, 63790), (0, 83), (0, 7), (0, 1)]], 3, 4⟩, 1099511627776, 0, 545890339,
    ⟨[[(23533696721464, 0), (103207619890, 0), (226365516, 0), (14926, 0), (2843, 0)], [(56001720213, 0), (237229454,
    0), (145234, 0), (4287, 0), (0, 82)], [(0, 4493844), (0, 178661), (2356, 0), (0, 71), (1, 0)], [(0, 20880), (875,
    0), (0, 33), (1, 0)]], 3, 4⟩, 68719476736, 367938401,
    1628923378458309143417655378290382593448110857640117028534861433119034554521961077976099583374, ⟨2, 0,
    -323575302018570, [224191057834, 102745673, 62784]⟩⟩))) (.sx (.sy (.leaf ⟨443, 16, 1548, 559, 16, 244,
    ⟨[[(342523641856, 0)], [(415538085888, 0)]], 3, 4⟩, ⟨[[(329605943300, 0), (0, 2680789346870), (14547535982, 0),
    (0, 132383045), (895988, 0)], [(0, 212057913559), (0, 61826728), (0, 1962651), (0, 41766), (0, 1187)],
    [(88768851, 0), (0, 80836), (0, 2690), (0, 76), (0, 4)], [(0, 51866), (0, 50), (0, 2)]], 3, 4⟩, 1099511627776, 0,
    393225861, ⟨[[(24949618191669, 0), (107736008599, 0), (225938493, 0), (79086, 0), (1400, 0)], [(55021644069, 0),
    (223898099, 0), (204059, 0), (1833, 0), (0, 38)], [(0, 5529857), (0, 132305), (745, 0), (0, 31), (1, 0)], [(0,
    12094), (345, 0), (0, 13)]], 3, 4⟩, 68719476736, 217733340,
    1090984958773658927571489774909131294852083012846641414522992621390276276471725581561015577734, ⟨2, 0,
    -309656979087546, [211114376230, 89989078, 51145]⟩⟩) (.leaf ⟨443, 16, 1548, 561, 16, 251, ⟨[[(342523641856, 0)],
    [(415538085888, 0)]], 3, 4⟩, ⟨[[(0, 263076046060), (0, 2592197978988), (12650080794, 0), (0, 126755587), (0,
    641965)], [(0, 218607800075), (0, 94565336), (0, 3471431), (0, 164562), (0, 14026)], [(90689523, 0), (0, 133210),
    (0, 6980), (0, 600), (0, 62)], [(0, 53790), (0, 111), (0, 12), (0, 2)]], 3, 4⟩, 1099511627776, 0, 478708796,
    ⟨[[(23521443490849, 0), (98762219373, 0), (212566204, 0), (0, 47095), (3351, 0)], [(51998177258, 0), (213723530,
    0), (64902, 0), (4902, 0), (0, 89)], [(0, 3482913), (0, 172407), (2734, 0), (0, 74), (1, 0)], [(0, 20321), (933,
    0), (0, 33), (1, 0)]], 3, 4⟩, 68719476736, 388814529,
    1735053040580072502879809687519788033468547007739134408129434176004107995875121334001057441584, ⟨2, 0,
    -318540580946615, [217170936204, 92570732, 52612]⟩⟩)) (.sy (.leaf ⟨474, 16, 1548, 562, 16, 252, ⟨[[(331786223616,
    0)], [(415538085888, 0)]], 3, 4⟩, ⟨[[(0, 176935318902), (0, 2774510735870), (14838392143, 0), (0, 140859063),
    (788710, 0)], [(0, 204986602379), (0, 78627240), (0, 2528126), (0, 58724), (0, 2207)], [(79739442, 0), (0,
    96937), (0, 3357), (0, 115), (0, 8)], [(0, 43942), (0, 58), (0, 3)]], 3, 4⟩, 1099511627776, 0, 318363401,
    ⟨[[(25000391131585, 0), (104295923954, 0), (214537507, 0), (42773, 0), (1608, 0)], [(51483530364, 0), (203771770,
    0), (155752, 0), (2052, 0), (0, 40)], [(0, 4696078), (0, 120518), (901, 0), (0, 32), (1, 0)], [(0, 10962), (355,
    0), (0, 13)]], 3, 4⟩, 68719476736, 222144100,
    977453290391859350299815926066577209328747344817076352087968749906061091640517630524293769662, ⟨2, 0,
    -302527949492398, [203789971773, 81191224, 43129]⟩⟩) (.leaf ⟨474, 16, 1548, 562, 16, 259, ⟨[[(331786223616, 0)],
    [(415538085888, 0)]], 3, 4⟩, ⟨[[(391733309051, 0), (0, 2683811708249), (12703470915, 0), (0, 149906319), (0,
    2398239)], [(0, 211277410767), (0, 122679139), (0, 5056053), (0, 310853), (0, 29505)], [(81186284, 0), (0,
    170304), (0, 11114), (0, 1154), (0, 125)], [(0, 45713), (0, 155), (0, 20), (0, 3)]], 3, 4⟩, 1099511627776, 0,
    488464976, ⟨[[(23465674771732, 0), (95135432399, 0), (204366176, 0), (0, 121812), (4204, 0)], [(48414431293, 0),
    (195780556, 0), (0, 19276), (5922, 0), (0, 104)], [(0, 2508868), (0, 175377), (3280, 0), (0, 83), (1, 0)], [(0,
    20807), (1033, 0), (0, 35), (1, 0)]], 3, 4⟩, 68719476736, 451073408,
    1606337125609077625513701404765632249449888752248738227657986062044177617778461822726081754175, ⟨2, 0,
    -310931503644964, [209450804322, 83446536, 44328]⟩⟩))))
theorem c52 : checkC job ⟨6, 8, 8, 10, 9, 13⟩ 3 100 lims t52 121 41 512 33 3 32 = true := by decide +kernel

def t53 : CTree :=
  .sx (.sx (.sy (.leaf ⟨505, 16, 1548, 564, 16, 260, ⟨[[(321048805376, 0)], [(415538085888, 0)]], 3, 4⟩,
    ⟨[[(421914795930, 0), (0, 2869949061502), (15070652789, 0), (0, 151216822), (558544, 0)], [(0, 198861691738), (0,
    98783266), (0, 3237236), (0, 84659), (0, 4131)], [(72095024, 0), (0, 115683), (0, 4242), (0, 180), (0, 15)], [(0,
    37719), (0, 68), (0, 4)]], 3, 4⟩, 1099511627776, 0, 271564445, ⟨[[(24946494389884, 0), (100602426955, 0),
    (204491654, 0), (0, 602), (1974, 0)], [(48179559033, 0), (186356150, 0), (105552, 0), (2471, 0), (0, 47)], [(0,
    3869743), (0, 114023), (1148, 0), (0, 35), (1, 0)], [(0, 10563), (393, 0), (0, 14)]], 3, 4⟩, 68719476736,
    243063728, 847344683533326757464714959670655458093795349400472494775207609925979540471339938312162537294, ⟨2, 0,
    -295430601287966, [197363998378, 73808526, 36803]⟩⟩) (.leaf ⟨505, 16, 1548, 564, 16, 267, ⟨[[(321048805376, 0)],
    [(415538085888, 0)]], 3, 4⟩, ⟨[[(0, 30642813202), (0, 2778356580584), (12578089372, 0), (0, 190709025), (0,
    6047179)], [(0, 204973059578), (0, 158890788), (0, 7601680), (0, 588499), (0, 59809)], [(73087150, 0), (0,
    222550), (0, 18272), (0, 2171), (0, 240)], [(0, 39454), (0, 227), (0, 36), (0, 5), (0, 1)]], 3, 4⟩,
    1099511627776, 0, 615748692, ⟨[[(23503764647171, 0), (92042854800, 0), (197495958, 0), (0, 188447), (4945, 0)],
    [(45436311272, 0), (180783542, 0), (0, 87842), (6695, 0), (0, 115)], [(0, 1783234), (0, 176440), (3626, 0), (0,
    87), (1, 0)], [(0, 20781), (1075, 0), (0, 36), (1, 0)]], 3, 4⟩, 68719476736, 494326133,
    2093763043161875880792118567813679131765312290850344167060966108479182308015770490995115177023, ⟨2, 0,
    -303384502091873, [202677644488, 75795679, 37794]⟩⟩)) (.sy (.leaf ⟨536, 16, 1548, 563, 16, 266, ⟨[[(310311387136,
    0)], [(415538085888, 0)]], 3, 4⟩, ⟨[[(0, 365660803643), (0, 2945301286231), (15115444447, 0), (0, 163254273),
    (98517, 0)], [(0, 192089472656), (0, 121941551), (0, 4107595), (0, 124712), (0, 7633)], [(65042673, 0), (0,
    136703), (0, 5421), (0, 289), (0, 27)], [(0, 32519), (0, 80), (0, 5), (0, 1)]], 3, 4⟩, 1099511627776, 0,
    249908893, ⟨[[(25019169238019, 0), (98312291906, 0), (198739665, 0), (0, 36174), (2289, 0)], [(45470425002, 0),
    (172970250, 0), (68427, 0), (2764, 0), (0, 51)], [(0, 3284182), (0, 108282), (1287, 0), (0, 37), (1, 0)], [(0,
    9958), (402, 0), (0, 14)]], 3, 4⟩, 68719476736, 257691466,
    778417149871424321720870400126508642168876672626731006764545212185782510825833404485213629574, ⟨2, 0,
    -286178800669508, [190250249664, 67036733, 31495]⟩⟩) (.sy (.leaf ⟨536, 16, 1548, 764, 16, 369, ⟨[[(310311387136,
    0)], [(415538085888, 0)]], 3, 4⟩, ⟨[[(206285256985, 0), (0, 1955585687251), (4431427946, 0), (0, 34819802), (0,
    536683)], [(0, 267369258416), (0, 118957319), (0, 2721851), (0, 99090), (0, 5032)], [(89160896, 0), (0, 153660),
    (0, 5882), (0, 341), (0, 19)], [(0, 45883), (0, 140), (0, 10), (0, 1)]], 3, 4⟩, 1099511627776, 0, 287783627,
    ⟨[[(23844099032894, 0), (67331011279, 0), (105415953, 0), (0, 79590), (1439, 0)], [(43354058662, 0), (124717859,
    0), (0, 49661), (2507, 0), (0, 32)], [(0, 1678973), (0, 116869), (1759, 0), (0, 31)], [(0, 17714), (674, 0), (0,
    16)]], 3, 4⟩, 68719476736, 118976162,
    1048029280058939421947283102270044392299611657435265209138296109400929298404385662455576387752, ⟨2, 0,
    -396992396417475, [263918579421, 92994566, 43690]⟩⟩) (.leaf ⟨536, 16, 1548, 758, 16, 371, ⟨[[(310311387136, 0)],
    [(415538085888, 0)]], 3, 4⟩, ⟨[[(0, 287783296746), (0, 1917205053336), (3623242505, 0), (0, 64060413), (0,
    2233598)], [(0, 269664858495), (0, 169532102), (0, 6326671), (0, 353782), (0, 19049)], [(88396825, 0), (0,
    286576), (0, 18932), (0, 1313), (0, 73)], [(0, 47602), (0, 407), (0, 41), (0, 3)]], 3, 4⟩, 1099511627776, 0,
    333721537, ⟨[[(23175803812670, 0), (64822148735, 0), (107699295, 0), (0, 152482), (2324, 0)], [(42088134207, 0),
    (125950103, 0), (0, 146869), (4087, 0), (0, 50)], [(0, 285246), (0, 162625), (2925, 0), (0, 49), (1, 0)], [(0,
    26465), (1087, 0), (0, 26)]], 3, 4⟩, 68719476736, 173285102,
    2175288935837483256665980907738908014165361645038852368920348167923776270517414171416572274182, ⟨2, 0,
    -399144116723261, [265349032426, 93498602, 43927]⟩⟩)))) (.sy (.sx (.leaf ⟨567, 16, 1548, 563, 16, 273,
    ⟨[[(299573968896, 0)], [(415538085888, 0)]], 3, 4⟩, ⟨[[(180182585781, 0), (0, 3034062142406), (15126934427, 0),
    (0, 180384645), (0, 769834)], [(0, 186835039218), (0, 149910548), (0, 5248391), (0, 189811), (0, 13972)],
    [(59171429, 0), (0, 162249), (0, 7123), (0, 472), (0, 49)], [(0, 28465), (0, 97), (0, 8), (0, 1)]], 3, 4⟩,
    1099511627776, 0, 262098932, ⟨[[(24972109041350, 0), (95243833329, 0), (192628289, 0), (0, 86497), (2849, 0)],
    [(42849617053, 0), (160647375, 0), (20773, 0), (3353, 0), (0, 61)], [(0, 2638336), (0, 107706), (1569, 0), (0,
    42), (1, 0)], [(0, 10084), (448, 0), (0, 15)]], 3, 4⟩, 68719476736, 292269050,
    699321680981985324994366997389573374992602261352276800754637916695897023253952297620745258385, ⟨1, 0,
    -278144294357643, [184589906144, 61488976, 27310]⟩⟩) (.leaf ⟨598, 16, 1548, 560, 16, 278, ⟨[[(288836550656, 0)],
    [(415538085888, 0)]], 3, 4⟩, ⟨[[(0, 391835602146), (0, 3103316739204), (14912297285, 0), (0, 203342239), (0,
    2352421)], [(0, 180931511503), (0, 181868880), (0, 6710525), (0, 293989), (0, 24980)], [(53632426, 0), (0,
    191870), (0, 9552), (0, 771), (0, 84)], [(0, 25006), (0, 119), (0, 11), (0, 1)]], 3, 4⟩, 1099511627776, 0,
    321255451, ⟨[[(25022043416738, 0), (93315475450, 0), (190055144, 0), (0, 133532), (3423, 0)], [(40646052216, 0),
    (151131256, 0), (0, 18364), (3880, 0), (0, 70)], [(0, 2154976), (0, 107123), (1779, 0), (0, 46), (1, 0)], [(0,
    9977), (472, 0), (0, 16)]], 3, 4⟩, 68719476736, 331441869,
    840504766611403307073685863516827417258059625169909773140523214315400665912633355207853200251, ⟨1, 0,
    -268231209446574, [178233721515, 56296185, 23709]⟩⟩)) (.sx (.sy (.leaf ⟨567, 16, 1548, 769, 16, 381,
    ⟨[[(299573968896, 0)], [(415538085888, 0)]], 3, 4⟩, ⟨[[(0, 10005609790), (0, 2030407510557), (4297500875, 0), (0,
    47209287), (0, 1142070)], [(0, 261874617954), (0, 152124973), (0, 4064173), (0, 179226), (0, 9550)], [(81254013,
    0), (0, 201099), (0, 9492), (0, 608), (0, 35)], [(0, 40763), (0, 205), (0, 18), (0, 1)]], 3, 4⟩, 1099511627776,
    0, 255053361, ⟨[[(23858567437202, 0), (64893140089, 0), (102186152, 0), (0, 109739), (1709, 0)], [(40920102782,
    0), (116159856, 0), (0, 87112), (2882, 0), (0, 36)], [(0, 1033412), (0, 121215), (1978, 0), (0, 34)], [(0,
    18361), (719, 0), (0, 17)]], 3, 4⟩, 68719476736, 129814436,
    1331363305691449862020967221403890097183817879169696705739124339246861627634563340864485877886, ⟨1, 0,
    -388179399817810, [257614484399, 85814285, 38114]⟩⟩) (.leaf ⟨567, 16, 1548, 762, 16, 383, ⟨[[(299573968896, 0)],
    [(415538085888, 0)]], 3, 4⟩, ⟨[[(21817270319, 0), (0, 1995817923522), (3047112068, 0), (0, 107183000), (0,
    4535737)], [(0, 264369532026), (0, 233439042), (0, 10744394), (0, 663640), (0, 36272)], [(79931370, 0), (0,
    426399), (0, 32965), (0, 2371), (0, 132)], [(0, 43271), (0, 660), (0, 69), (0, 5)]], 3, 4⟩, 1099511627776, 0,
    340449135, ⟨[[(23158588984824, 0), (62272328002, 0), (106174975, 0), (0, 205964), (2869, 0)], [(39629877548, 0),
    (118708284, 0), (0, 210772), (4859, 0), (0, 59)], [(586343, 0), (0, 178126), (3373, 0), (0, 54), (1, 0)], [(0,
    28692), (1195, 0), (0, 27)]], 3, 4⟩, 68719476736, 188420456,
    3483725533069470578026391356031263463398201340962752669886874396981734505246472914747865862915, ⟨1, 0,
    -390217086955961, [258966791404, 86264754, 38314]⟩⟩)) (.sy (.leaf ⟨598, 16, 1548, 772, 16, 392, ⟨[[(288836550656,
    0)], [(415538085888, 0)]], 3, 4⟩, ⟨[[(0, 451274672695), (0, 2103381468278), (4001752679, 0), (0, 68759397), (0,
    2270555)], [(0, 256533314943), (0, 195273400), (0, 6213287), (0, 319873), (0, 17589)], [(73955943, 0), (0,
    269670), (0, 15467), (0, 1063), (0, 61)], [(0, 36703), (0, 307), (0, 29), (0, 2)]], 3, 4⟩, 1099511627776, 0,
    243338194, ⟨[[(23884754471216, 0), (62737074807, 0), (100307774, 0), (0, 144554), (2050, 0)], [(38742852779, 0),
    (109283325, 0), (0, 127048), (3337, 0), (0, 41)], [(0, 425202), (0, 127896), (2226, 0), (0, 37)], [(0, 19225),
    (771, 0), (0, 18)]], 3, 4⟩, 68719476736, 142753461,
    1556817711933467744347726185202960998369034798610762891892016265902345131403521233759178647009, ⟨1, 0,
    -378225302528981, [251322369906, 79381671, 33431]⟩⟩) (.sy (.leaf ⟨598, 16, 1548, 940, 16, 483, ⟨[[(288836550656,
    0)], [(415538085888, 0)]], 3, 4⟩, ⟨[[(202396782011, 0), (0, 1276893353070), (823028694, 0), (0, 21594113), (0,
    486089)], [(0, 317370395184), (0, 171914592), (0, 4193438), (0, 133417), (0, 3694)], [(89085398, 0), (0, 309736),
    (0, 12489), (0, 457), (0, 13)], [(0, 47990), (0, 474), (0, 26), (0, 1)]], 3, 4⟩, 1099511627776, 0, 258108136,
    ⟨[[(23322189699220, 0), (49400379701, 0), (69453603, 0), (0, 127499), (1386, 0)], [(37734870768, 0), (91354988,
    0), (0, 159145), (2771, 0), (0, 27)], [(953875, 0), (0, 145177), (2278, 0), (0, 29)], [(0, 27935), (949, 0), (0,
    17)]], 3, 4⟩, 68719476736, 84653603,
    2234939143359403040860029144886127586042719517796793136361014742462210252948542814876259197821, ⟨1, 0,
    -466027604901781, [309665062919, 97809559, 41192]⟩⟩) (.sy (.leaf ⟨598, 16, 1548, 1053, 16, 544, ⟨[[(288836550656,
    0)], [(415538085888, 0)]], 3, 4⟩, ⟨[[(57756430602, 0), (0, 715759571343), (129895773, 0), (0, 4634956), (0,
    56110)], [(0, 358434913365), (0, 123493049), (0, 1837879), (0, 30877), (0, 425)], [(98428192, 0), (0, 256358),
    (0, 5776), (0, 106), (0, 1)], [(0, 57152), (0, 437), (0, 12)]], 3, 4⟩, 1099511627776, 0, 296722285,
    ⟨[[(23073271317217, 0), (43225622513, 0), (56461970, 0), (0, 111041), (1052, 0)], [(37266730305, 0), (82748681,
    0), (0, 162215), (2361, 0), (0, 20)], [(1753397, 0), (0, 151569), (2182, 0), (0, 25)], [(0, 33231), (1015, 0),
    (0, 16)]], 3, 4⟩, 68719476736, 67780632,
    3339884755597671027580559618043180835957838901874839682468560773055165511251135078300649316552, ⟨1, 0,
    -524884093305525, [348773901093, 110162319, 46394]⟩⟩) (.sx (.leaf ⟨1181, 16, 3096, 1867, 16, 962,
    ⟨[[(33285996544, 0)], [(415538085888, 0)]], 3, 4⟩, ⟨[[(229945986151, 0), (0, 1258789414713), (142969005, 0), (0,
    9560538), (0, 117467)], [(0, 321216439961), (0, 120372197), (0, 1933400), (0, 32905), (0, 449)], [(44378189, 0),
    (0, 134069), (0, 3126), (0, 57), (0, 1)], [(0, 13461), (0, 120), (0, 3)]], 3, 4⟩, 1099511627776, 0, 36160829,
    ⟨[[(22912193769110, 0), (24266852254, 0), (18157510, 0), (0, 21226), (113, 0)], [(18734397782, 0), (23798723, 0),
    (0, 28141), (227, 0), (0, 1)], [(525240, 0), (0, 23030), (188, 0), (0, 1)], [(0, 4547), (78, 0), (0, 1)]], 3, 4⟩,
    68719476736, 3329027,
    3662900397680932032516887919780281145450328666785055453414846019798163122669315883424449742744, ⟨1, 0,
    -940922045248800, [312428788344, 49988606, 10664]⟩⟩) (.skip)))))))
theorem c53 : checkC job ⟨6, 8, 8, 10, 9, 13⟩ 3 100 lims t53 365 41 1024 33 3 32 = true := by decide +kernel

def t54 : CTree :=
  .sx (.sy (.sx (.leaf ⟨629, 16, 1548, 556, 16, 283, ⟨[[(278099132416, 0)], [(415538085888, 0)]], 3, 4⟩,
    ⟨[[(323707852540, 0), (0, 3175697137517), (14547936721, 0), (0, 237767268), (0, 5173628)], [(0, 175722238946),
    (0, 219801399), (0, 8692169), (0, 464243), (0, 43944)], [(48748479, 0), (0, 228602), (0, 13208), (0, 1266), (0,
    145)], [(0, 22212), (0, 151), (0, 17), (0, 2)]], 3, 4⟩, 1099511627776, 0, 453015689, ⟨[[(24962979989278, 0),
    (90945710780, 0), (188930735, 0), (0, 207882), (4488, 0)], [(38480726969, 0), (142992893, 0), (0, 76641), (4916,
    0), (0, 88)], [(0, 1578768), (0, 113392), (2204, 0), (0, 54), (1, 0)], [(0, 10656), (543, 0), (0, 18)]], 3, 4⟩,
    68719476736, 411067834,
    941141035079133418994768957804305496416859900078824136627166682911641171223676553449000380149, ⟨1, 0,
    -258550016820999, [172503611527, 51802886, 20742]⟩⟩) (.leaf ⟨660, 16, 1548, 553, 16, 288, ⟨[[(267361714176, 0)],
    [(415538085888, 0)]], 3, 4⟩, ⟨[[(86516386835, 0), (0, 3251801628072), (13978385173, 0), (0, 290942952), (0,
    10114942)], [(0, 171128074240), (0, 265216178), (0, 11462582), (0, 743819), (0, 76247)], [(44386369, 0), (0,
    275708), (0, 18868), (0, 2087), (0, 246)], [(0, 19960), (0, 200), (0, 27), (0, 4), (0, 1)]], 3, 4⟩,
    1099511627776, 0, 702889328, ⟨[[(24983613371792, 0), (88897472764, 0), (188429625, 0), (0, 282779), (5586, 0)],
    [(36625207723, 0), (135980141, 0), (0, 130913), (5899, 0), (0, 104)], [(0, 1115943), (0, 118996), (2566, 0), (0,
    62), (1, 0)], [(0, 11125), (595, 0), (0, 20)]], 3, 4⟩, 68719476736, 487576636,
    1120399332290709480639700595481059312616993087527815579876231848793994551933463844584476217523, ⟨1, 0,
    -249066077143209, [167311416845, 47885351, 18273]⟩⟩)) (.sx (.sy (.leaf ⟨629, 16, 1548, 772, 16, 402,
    ⟨[[(278099132416, 0)], [(415538085888, 0)]], 3, 4⟩, ⟨[[(108321874018, 0), (0, 2175511827635), (3455995132, 0),
    (0, 106193956), (0, 4314087)], [(0, 251369460971), (0, 252893480), (0, 9686993), (0, 562309), (0, 31566)],
    [(67103209, 0), (0, 371811), (0, 25328), (0, 1828), (0, 106)], [(0, 33627), (0, 472), (0, 49), (0, 4)]], 3, 4⟩,
    1099511627776, 0, 259896230, ⟨[[(23853861382889, 0), (60591389118, 0), (100360787, 0), (0, 197390), (2623, 0)],
    [(36665132172, 0), (104252043, 0), (0, 184725), (4111, 0), (0, 50)], [(320521, 0), (0, 142796), (2652, 0), (0,
    42)], [(0, 21258), (873, 0), (0, 20)]], 3, 4⟩, 68719476736, 167325823,
    2211016555606840321627197758862242823848382949994697444290546528941068077931083432884536200130, ⟨1, 0,
    -367268928487779, [245040465844, 73585725, 29464]⟩⟩) (.sy (.sy (.leaf ⟨629, 16, 1548, 1077, 16, 566,
    ⟨[[(278099132416, 0)], [(415538085888, 0)]], 3, 4⟩, ⟨[[(0, 339819345257), (0, 758614397476), (155498913, 0), (0,
    4582439), (0, 55390)], [(0, 355497497219), (0, 125874975), (0, 1726049), (0, 28715), (0, 402)], [(91843068, 0),
    (0, 234732), (0, 5102), (0, 95), (0, 1)], [(0, 51157), (0, 372), (0, 10)]], 3, 4⟩, 1099511627776, 0, 251901341,
    ⟨[[(23430951813461, 0), (42004019365, 0), (53182734, 0), (0, 102395), (940, 0)], [(35917939684, 0), (76389152,
    0), (0, 145486), (2065, 0), (0, 17)], [(1477701, 0), (0, 133050), (1870, 0), (0, 21)], [(0, 28519), (852, 0), (0,
    14)]], 3, 4⟩, 68719476736, 56345424,
    2493124418198921260693041249055567400574835388245455775359400340490600056085638860331027207888, ⟨1, 0,
    -517100033641998, [345007223054, 103605773, 41484]⟩⟩) (.sx (.leaf ⟨1243, 16, 3096, 1895, 16, 994,
    ⟨[[(11811160064, 0)], [(415538085888, 0)]], 3, 4⟩, ⟨[[(365828312460, 0), (0, 1324766568003), (183874001, 0), (0,
    9465776), (0, 116717)], [(0, 316191280494), (0, 121255149), (0, 1813279), (0, 30742), (0, 427)], [(41074346, 0),
    (0, 121773), (0, 2765), (0, 51), (0, 1)], [(0, 11933), (0, 101), (0, 3)]], 3, 4⟩, 1099511627776, 0, 30531987,
    ⟨[[(23246569321711, 0), (23712859923, 0), (17405271, 0), (0, 20415), (106, 0)], [(18025258887, 0), (22163764, 0),
    (0, 26217), (207, 0), (0, 1)], [(467610, 0), (0, 20678), (167, 0), (0, 1)], [(0, 3965), (67, 0), (0, 1)]], 3, 4⟩,
    68719476736, 2983619,
    2888938391476504829100673731228198094352249350896277788359565154361745360064958121184777096381, ⟨1, 0,
    -920620641811178, [306724526786, 46628843, 9451]⟩⟩) (.skip))) (.skip))) (.sy (.sy (.leaf ⟨660, 16, 1548, 968, 16,
    514, ⟨[[(267361714176, 0)], [(415538085888, 0)]], 3, 4⟩, ⟨[[(0, 453741059954), (0, 1411232755308), (996908298,
    0), (0, 20398156), (0, 438709)], [(0, 307589019382), (0, 182630053), (0, 3633831), (0, 108301), (0, 3081)],
    [(76571887, 0), (0, 264112), (0, 9336), (0, 343), (0, 10)], [(0, 38305), (0, 339), (0, 18), (0, 1)]], 3, 4⟩,
    1099511627776, 0, 185981785, ⟨[[(24061307982977, 0), (47496212059, 0), (63527059, 0), (0, 111510), (1152, 0)],
    [(35157910758, 0), (79205537, 0), (0, 128640), (2174, 0), (0, 21)], [(525695, 0), (0, 112136), (1693, 0), (0,
    21)], [(0, 20269), (668, 0), (0, 12)]], 3, 4⟩, 68719476736, 60084635,
    1244194283817887187545518456085688764521956072449966370649851233295575493035129571033075267292, ⟨1, 0,
    -444513762679199, [298604403675, 85462050, 32613]⟩⟩) (.leaf ⟨660, 16, 1548, 960, 16, 514, ⟨[[(267361714176, 0)],
    [(415538085888, 0)]], 3, 4⟩, ⟨[[(0, 94219189207), (0, 1401927627942), (508825222, 0), (0, 35551417), (0,
    871242)], [(0, 308843619698), (0, 241120204), (0, 6430319), (0, 214350), (0, 6085)], [(74562035, 0), (0, 423565),
    (0, 18269), (0, 689), (0, 20)], [(0, 41164), (0, 651), (0, 36), (0, 1)]], 3, 4⟩, 1099511627776, 0, 208328004,
    ⟨[[(23685466139299, 0), (46455814565, 0), (66695273, 0), (0, 154740), (1571, 0)], [(34514829473, 0), (81727327,
    0), (0, 189685), (2951, 0), (0, 28)], [(1542925, 0), (0, 143756), (2288, 0), (0, 28)], [(0, 26462), (890, 0), (0,
    16)]], 3, 4⟩, 68719476736, 80089477,
    3638051471087410389377230038412543012529847172454001684189792329077752204494239471341919005547, ⟨1, 0,
    -444513762679199, [298604403675, 85462050, 32613]⟩⟩)) (.skip)))) (.sy (.sx (.leaf ⟨691, 16, 1548, 548, 16, 292,
    ⟨[[(256624295936, 0)], [(415538085888, 0)]], 3, 4⟩, ⟨[[(94493670197, 0), (0, 3321015253376), (13073669269, 0),
    (0, 373691007), (0, 18594632)], [(0, 166517451400), (0, 319263748), (0, 15416624), (0, 1202174), (0, 130628)],
    [(40296504, 0), (0, 337679), (0, 27838), (0, 3463), (0, 416)], [(0, 18111), (0, 276), (0, 45), (0, 7), (0, 1)]],
    3, 4⟩, 1099511627776, 0, 1146624442, ⟨[[(24983860738976, 0), (87042683929, 0), (190632711, 0), (0, 385364),
    (7222, 0)], [(34893510943, 0), (130607052, 0), (0, 200719), (7329, 0), (0, 129)], [(0, 628437), (0, 129324),
    (3073, 0), (0, 73), (1, 0)], [(0, 11973), (670, 0), (0, 22)]], 3, 4⟩, 68719476736, 635863833,
    1352418243957583038057600403190550079243407744713955441811341175238723952870808516876693816009, ⟨1, 0,
    -238931827311829, [162029891119, 44294667, 16145]⟩⟩) (.leaf ⟨722, 16, 1548, 541, 16, 295, ⟨[[(245886877696, 0)],
    [(415538085888, 0)]], 3, 4⟩, ⟨[[(451626492019, 0), (0, 3384046465379), (11713368877, 0), (0, 505159786), (0,
    32993053)], [(0, 161908939672), (0, 384865638), (0, 21273237), (0, 1961596), (0, 222420)], [(36421578, 0), (0,
    424067), (0, 42619), (0, 5824), (0, 710)], [(0, 16655), (0, 407), (0, 76), (0, 12), (0, 2)]], 3, 4⟩,
    1099511627776, 0, 1922061130, ⟨[[(24956929676612, 0), (85294797438, 0), (196219162, 0), (0, 535435), (9767, 0)],
    [(33254337861, 0), (126973525, 0), (0, 297952), (9489, 0), (0, 168)], [(0, 76432), (0, 146669), (3813, 0), (0,
    89), (1, 0)], [(0, 13375), (782, 0), (0, 26), (1, 0)]], 3, 4⟩, 68719476736, 893009030,
    1915641443750035136291132486892349646982543167880984323644221901025051584631438366414082738978, ⟨1, 0,
    -228255846446390, [156670533792, 40991767, 14300]⟩⟩)) (.sy (.sx (.sy (.leaf ⟨691, 16, 1548, 971, 16, 528,
    ⟨[[(256624295936, 0)], [(415538085888, 0)]], 3, 4⟩, ⟨[[(0, 176860727949), (0, 1467094076580), (641964274, 0), (0,
    32902839), (0, 793109)], [(0, 303841561665), (0, 240292731), (0, 5746576), (0, 186572), (0, 5376)], [(69313498,
    0), (0, 379475), (0, 15471), (0, 587), (0, 17)], [(0, 36900), (0, 550), (0, 31), (0, 1)]], 3, 4⟩, 1099511627776,
    0, 178973882, ⟨[[(24049468891772, 0), (45712664095, 0), (64308359, 0), (0, 146251), (1460, 0)], [(33419528153,
    0), (76611010, 0), (0, 172783), (2663, 0), (0, 25)], [(1284474, 0), (0, 127720), (2007, 0), (0, 25)], [(0,
    22783), (759, 0), (0, 13)]], 3, 4⟩, 68719476736, 69868022,
    2230342011947838967685739236718456214710686449405453426258793863186554607053493917895708296840, ⟨1, 0,
    -432041112399471, [292985556544, 80094466, 29194]⟩⟩) (.sy (.sx (.leaf ⟨1367, 16, 3096, 1936, 16, 1053, ⟨[[(0,
    31138512896)], [(415538085888, 0)]], 3, 4⟩, ⟨[[(0, 439902783751), (0, 1453468818086), (128354092, 0), (0,
    11359405), (0, 143870)], [(0, 306991167011), (0, 141432422), (0, 2006260), (0, 34258), (0, 490)], [(34751271, 0),
    (0, 126787), (0, 2851), (0, 54), (0, 1)], [(0, 10023), (0, 101), (0, 3)]], 3, 4⟩, 1099511627776, 0, 23878212,
    ⟨[[(23787979480004, 0), (22613594531, 0), (16555292, 0), (0, 21345), (106, 0)], [(16688574452, 0), (19746567, 0),
    (0, 26087), (195, 0), (0, 1)], [(468618, 0), (0, 18472), (148, 0), (0, 1)], [(0, 3353), (56, 0)]], 3, 4⟩,
    68719476736, 2857097,
    2842848461939142879631343123105678576961947618282203719566641793333360164542279635308893751471, ⟨1, 0,
    -873673361411420, [295464873269, 40843914, 7528]⟩⟩) (.skip)) (.skip))) (.sy (.sy (.leaf ⟨722, 16, 1548, 1127, 16,
    626, ⟨[[(245886877696, 0)], [(415538085888, 0)]], 3, 4⟩, ⟨[[(63183054638, 0), (0, 883380626446), (79416713, 0),
    (0, 6722719), (0, 85573)], [(0, 347094709473), (0, 172272524), (0, 2293782), (0, 38927), (0, 567)], [(72464455,
    0), (0, 287381), (0, 6345), (0, 123), (0, 2)], [(0, 41704), (0, 455), (0, 13)]], 3, 4⟩, 1099511627776, 0,
    185136285, ⟨[[(24131903839305, 0), (38267107176, 0), (48744389, 0), (0, 114701), (969, 0)], [(31956256015, 0),
    (64299439, 0), (0, 156469), (1979, 0), (0, 16)], [(1853027, 0), (0, 120186), (1669, 0), (0, 18)], [(0, 24272),
    (702, 0), (0, 11)]], 3, 4⟩, 68719476736, 45287753,
    2567044539554849386630064356368426058533934779384053753915349999891707807240767400424656595739, ⟨1, 0,
    -484366643645559, [332460183573, 86985919, 30346]⟩⟩) (.skip)) (.skip))) (.skip)))
theorem c54 : checkC job ⟨6, 8, 8, 10, 9, 13⟩ 3 100 lims t54 447 41 1024 33 3 32 = true := by decide +kernel

def t55 : CTree :=
  .sx (.sy (.leaf ⟨384, 16, 774, 395, 16, 207, ⟨[[(389768282112, 0)], [(415538085888, 0)]], 3, 4⟩, ⟨[[(170872334825,
    0), (0, 2684189423586), (15262462401, 0), (0, 210982206), (916230, 0)], [(0, 210486950542), (0, 267843018), (0,
    9325991), (0, 211259), (0, 3858)], [(95480111, 0), (0, 433586), (0, 15956), (0, 408), (0, 12)], [(0, 71274), (0,
    374), (0, 16), (0, 1)]], 3, 4⟩, 1099511627776, 0, 608237449, ⟨[[(28566692830612, 0), (140991672382, 0),
    (366828607, 0), (0, 130293), (4180, 0)], [(71490990038, 0), (334949886, 0), (215215, 0), (4036, 0), (0, 116)],
    [(0, 10376717), (0, 275889), (1540, 0), (0, 88), (2, 0)], [(0, 19918), (710, 0), (0, 35), (1, 0)]], 3, 4⟩,
    68719476736, 1162502562,
    996757854990046725920003136414261685249751731492425928452658175185025863022592941352691748045, ⟨1, 0,
    -147061322867933, [206573870460, 101560408, 66575]⟩⟩) (.sx (.leaf ⟨753, 16, 1548, 539, 16, 290, ⟨[[(235149459456,
    0)], [(415538085888, 0)]], 3, 4⟩, ⟨[[(354195880230, 0), (0, 3523763666330), (16597702719, 0), (0, 282421257), (0,
    1915173)], [(0, 151554762305), (0, 266517830), (0, 9535243), (0, 304937), (0, 19330)], [(33929241, 0), (0,
    227794), (0, 9848), (0, 567), (0, 58)], [(0, 13687), (0, 116), (0, 9), (0, 1)]], 3, 4⟩, 1099511627776, 0,
    232171431, ⟨[[(26647281859728, 0), (93422469876, 0), (191110811, 0), (0, 192045), (3643, 0)], [(34086015101, 0),
    (120674807, 0), (0, 35380), (3203, 0), (0, 62)], [(0, 1606331), (0, 71952), (1179, 0), (0, 32), (1, 0)], [(0,
    5158), (249, 0), (0, 9)]], 3, 4⟩, 68719476736, 365822231,
    969028733184949399499191188623441704660376754879472750624749035783203188189721440058575232453, ⟨1, 0,
    -212021312071192, [147678303082, 37049248, 12393]⟩⟩) (.leaf ⟨784, 16, 1548, 532, 16, 292, ⟨[[(224412041216, 0)],
    [(415538085888, 0)]], 3, 4⟩, ⟨[[(0, 150524499116), (0, 3571680116570), (15852897739, 0), (0, 314032179), (0,
    3999943)], [(0, 147266127936), (0, 308471011), (0, 11429040), (0, 425620), (0, 32256)], [(30936161, 0), (0,
    260883), (0, 12569), (0, 908), (0, 102)], [(0, 12498), (0, 142), (0, 13), (0, 2)]], 3, 4⟩, 1099511627776, 0,
    348381476, ⟨[[(26690550317615, 0), (92346418761, 0), (193954447, 0), (0, 252563), (4595, 0)], [(32729829753, 0),
    (116425173, 0), (0, 68502), (3915, 0), (0, 76)], [(0, 1312009), (0, 74516), (1399, 0), (0, 38), (1, 0)], [(0,
    5321), (276, 0), (0, 10)]], 3, 4⟩, 68719476736, 447734820,
    1366106426567310522738486489972038016275879728046346804613298339272924692800766077818822691055, ⟨1, 0,
    -201534555002135, [142820564268, 34414594, 11057]⟩⟩))) (.sy (.sx (.leaf ⟨815, 16, 1548, 526, 16, 284,
    ⟨[[(213674622976, 0)], [(415538085888, 0)]], 3, 4⟩, ⟨[[(465629837871, 0), (0, 3707629959845), (20064691525, 0),
    (0, 309618058), (852631, 0)], [(0, 136862413051), (0, 223393507), (0, 7878713), (0, 184783), (0, 4087)],
    [(28574082, 0), (0, 174367), (0, 6617), (0, 189), (0, 8)], [(0, 10481), (0, 75), (0, 4)]], 3, 4⟩, 1099511627776,
    0, 71139978, ⟨[[(28564136441382, 0), (102057931261, 0), (200548723, 0), (0, 96312), (1680, 0)], [(33627658677,
    0), (115929482, 0), (36621, 0), (1115, 0), (0, 24)], [(0, 2152959), (0, 48535), (315, 0), (0, 12)], [(0, 2407),
    (77, 0), (0, 3)]], 3, 4⟩, 68719476736, 170615404,
    935796831806154265826237456601036497751120699994109494922807688671796096394744225651179598644, ⟨1, 0,
    -184841936098607, [133626991006, 30975195, 9574]⟩⟩) (.leaf ⟨846, 16, 1548, 520, 16, 286, ⟨[[(202937204736, 0)],
    [(415538085888, 0)]], 3, 4⟩, ⟨[[(24868713228, 0), (0, 3753410994920), (19508531114, 0), (0, 328444119), (455726,
    0)], [(0, 133313382274), (0, 255352586), (0, 9103425), (0, 221396), (0, 5863)], [(26298085, 0), (0, 195346), (0,
    7630), (0, 245), (0, 14)], [(0, 9612), (0, 85), (0, 4)]], 3, 4⟩, 1099511627776, 0, 82174347, ⟨[[(28605614352183,
    0), (100980105177, 0), (201876263, 0), (0, 127427), (2029, 0)], [(32401962350, 0), (111584039, 0), (22360, 0),
    (1344, 0), (0, 29)], [(0, 1910701), (0, 47512), (386, 0), (0, 14)], [(0, 2367), (84, 0), (0, 3)]], 3, 4⟩,
    68719476736, 211765154,
    1025521028837621087446028897865262062277588396712693096593743035485895153285644098598398119117, ⟨1, 0,
    -175313637056409, [129639675040, 28950352, 8620]⟩⟩)) (.sx (.leaf ⟨815, 16, 1548, 525, 16, 294, ⟨[[(213674622976,
    0)], [(415538085888, 0)]], 3, 4⟩, ⟨[[(0, 404413040684), (0, 3623461301866), (14924345655, 0), (0, 358667602), (0,
    7541147)], [(0, 143412935698), (0, 356784245), (0, 13905612), (0, 624764), (0, 55507)], [(28185822, 0), (0,
    302437), (0, 16959), (0, 1545), (0, 187)], [(0, 11539), (0, 184), (0, 22), (0, 3)]], 3, 4⟩, 1099511627776, 0,
    562361243, ⟨[[(26711859202857, 0), (91117890164, 0), (197771632, 0), (0, 332532), (5944, 0)], [(31442776314, 0),
    (112772562, 0), (0, 111291), (4911, 0), (0, 96)], [(0, 1007137), (0, 79363), (1698, 0), (0, 45), (1, 0)], [(0,
    5655), (314, 0), (0, 11)]], 3, 4⟩, 68719476736, 568482261,
    1839673634265113375436110502523211476348189138956039802478525321293867986835001108189003602254, ⟨1, 0,
    -191350454975318, [138332166746, 32065871, 9911]⟩⟩) (.leaf ⟨846, 16, 1548, 518, 16, 296, ⟨[[(202937204736, 0)],
    [(415538085888, 0)]], 3, 4⟩, ⟨[[(0, 439087579091), (0, 3679723955220), (13748587207, 0), (0, 425428214), (0,
    13750004)], [(0, 139963067965), (0, 413305032), (0, 17356896), (0, 972729), (0, 98768)], [(25624996, 0), (0,
    358127), (0, 24580), (0, 2769), (0, 353)], [(0, 10801), (0, 258), (0, 40), (0, 7), (0, 1)]], 3, 4⟩,
    1099511627776, 0, 948331894, ⟨[[(26714613153372, 0), (89733973084, 0), (202898361, 0), (0, 440749), (7874, 0)],
    [(30218484972, 0), (109786858, 0), (0, 168156), (6305, 0), (0, 123)], [(0, 682072), (0, 87193), (2105, 0), (0,
    55), (1, 0)], [(0, 6195), (365, 0), (0, 13)]], 3, 4⟩, 68719476736, 744860618,
    2248822865365195887659951762792182954652111608126817544836716031248183780265362384756786685238, ⟨1, 0,
    -181443484505934, [134172530810, 29962602, 8921]⟩⟩)))
theorem c55 : checkC job ⟨6, 8, 8, 10, 9, 13⟩ 3 100 lims t55 529 41 1024 27 3 32 = true := by decide +kernel

def t56 : CTree :=
  .sx (.sy (.sx (.leaf ⟨877, 16, 1548, 514, 16, 288, ⟨[[(192199786496, 0)], [(415538085888, 0)]], 3, 4⟩, ⟨[[(0,
    214962385911), (0, 3802115390747), (18839009472, 0), (0, 350857932), (0, 138567)], [(0, 130092243468), (0,
    291201279), (0, 10523725), (0, 270195), (0, 8963)], [(24201971, 0), (0, 219170), (0, 8916), (0, 338), (0, 25)],
    [(0, 8881), (0, 97), (0, 6)]], 3, 4⟩, 1099511627776, 0, 107456392, ⟨[[(28627838982250, 0), (99783422677, 0),
    (203684578, 0), (0, 164642), (2506, 0)], [(31238612466, 0), (107612164, 0), (5862, 0), (1662, 0), (0, 37)], [(0,
    1676639), (0, 47226), (481, 0), (0, 16)], [(0, 2377), (94, 0), (0, 4)]], 3, 4⟩, 68719476736, 271307586,
    1082239900350715301794020219064212925182070148978345958047827934450990297795140842409098529997, ⟨1, 0,
    -166026179478841, [125934099624, 27129276, 7792]⟩⟩) (.leaf ⟨908, 16, 1548, 508, 16, 290, ⟨[[(181462368256, 0)],
    [(415538085888, 0)]], 3, 4⟩, ⟨[[(0, 277352400493), (0, 3854103248130), (18037092183, 0), (0, 378202347), (0,
    1086398)], [(0, 127174623484), (0, 331491690), (0, 12198572), (0, 339829), (0, 14646)], [(22255581, 0), (0,
    246629), (0, 10648), (0, 502), (0, 46)], [(0, 8269), (0, 114), (0, 8), (0, 1)]], 3, 4⟩, 1099511627776, 0,
    157247072, ⟨[[(28633546889369, 0), (98469976335, 0), (206072104, 0), (0, 210277), (3168, 0)], [(30132991919, 0),
    (104009650, 0), (0, 14051), (2103, 0), (0, 47)], [(0, 1447980), (0, 47836), (607, 0), (0, 20)], [(0, 2446), (108,
    0), (0, 4)]], 3, 4⟩, 68719476736, 354493482,
    1482244857377848758397108247320767706553214215239229425766889018531834559219027666559488648807, ⟨1, 0,
    -156960299620554, [122481422406, 25485107, 7070]⟩⟩)) (.sy (.sx (.leaf ⟨877, 16, 1548, 774, 16, 447,
    ⟨[[(192199786496, 0)], [(415538085888, 0)]], 3, 4⟩, ⟨[[(0, 210889207568), (0, 2835936076341), (5380174749, 0),
    (0, 80482064), (0, 1030574)], [(0, 204325846744), (0, 316806327), (0, 6455810), (0, 160831), (0, 7716)],
    [(35676583, 0), (0, 262968), (0, 8410), (0, 444), (0, 28)], [(0, 14783), (0, 176), (0, 13), (0, 1)]], 3, 4⟩,
    1099511627776, 0, 78673192, ⟨[[(27148157856254, 0), (60163653177, 0), (89946398, 0), (0, 122628), (1428, 0)],
    [(29583217887, 0), (70454974, 0), (0, 63586), (1650, 0), (0, 22)], [(0, 759562), (0, 51362), (797, 0), (0, 14)],
    [(0, 5174), (201, 0), (0, 5)]], 3, 4⟩, 68719476736, 70934149,
    1414154959083572544950626895778918237466807800882657631193569213265910593165539926621274255265, ⟨1, 0,
    -257686466066118, [195460217125, 42106897, 12094]⟩⟩) (.leaf ⟨908, 16, 1548, 764, 16, 450, ⟨[[(181462368256, 0)],
    [(415538085888, 0)]], 3, 4⟩, ⟨[[(0, 139388692485), (0, 2883008914234), (4817978631, 0), (0, 98024469), (0,
    1917321)], [(0, 200101587532), (0, 366399865), (0, 8213750), (0, 263214), (0, 14423)], [(32353116, 0), (0,
    317506), (0, 12889), (0, 831), (0, 56)], [(0, 14141), (0, 260), (0, 24), (0, 2)]], 3, 4⟩, 1099511627776, 0,
    99884147, ⟨[[(27144527769372, 0), (59159827541, 0), (92735074, 0), (0, 161676), (1914, 0)], [(28490611746, 0),
    (68965733, 0), (0, 92762), (2149, 0), (0, 29)], [(0, 445590), (0, 57693), (1002, 0), (0, 18)], [(0, 5802), (239,
    0), (0, 6)]], 3, 4⟩, 68719476736, 97151814,
    1515740441054292798427709617627141538468969828862119914716830016340453646783371607549918790014, ⟨1, 0,
    -243559085618101, [190057379596, 39545855, 10971]⟩⟩)) (.sx (.leaf ⟨877, 16, 1548, 762, 16, 449, ⟨[[(192199786496,
    0)], [(415538085888, 0)]], 3, 4⟩, ⟨[[(0, 126589434545), (0, 2793931623764), (3531061162, 0), (0, 143349322), (0,
    5202761)], [(0, 207432037625), (0, 423951049), (0, 12444426), (0, 615017), (0, 37441)], [(33797700, 0), (0,
    452724), (0, 27905), (0, 2154), (0, 142)], [(0, 16760), (0, 557), (0, 63), (0, 6)]], 3, 4⟩, 1099511627776, 0,
    197548376, ⟨[[(26243843915097, 0), (57026254423, 0), (97433762, 0), (0, 253723), (3112, 0)], [(28476080792, 0),
    (73649094, 0), (0, 179195), (3632, 0), (0, 46)], [(282895, 0), (0, 88605), (1749, 0), (0, 29)], [(0, 9784), (422,
    0), (0, 10)]], 3, 4⟩, 68719476736, 150359768,
    1835782550920643288275537196208102103754617139997036504699297273704210531592892034724628331808, ⟨1, 0,
    -258839425645832, [196334759484, 42295295, 12149]⟩⟩) (.leaf ⟨908, 16, 1548, 750, 16, 451, ⟨[[(181462368256, 0)],
    [(415538085888, 0)]], 3, 4⟩, ⟨[[(0, 67273672751), (0, 2844709846032), (2291502522, 0), (0, 212955420), (0,
    9523327)], [(0, 203129683241), (0, 514134921), (0, 18720468), (0, 1118957), (0, 70885)], [(29766673, 0), (0,
    639576), (0, 50274), (0, 4175), (0, 278)], [(0, 17352), (0, 990), (0, 124), (0, 11), (0, 1)]], 3, 4⟩,
    1099511627776, 0, 317038702, ⟨[[(26241417958203, 0), (55974835644, 0), (103646361, 0), (0, 345103), (4298, 0)],
    [(27377361576, 0), (73829100, 0), (0, 248092), (4821, 0), (0, 61)], [(786536, 0), (0, 105772), (2223, 0), (0,
    37)], [(0, 11410), (508, 0), (0, 12)]], 3, 4⟩, 68719476736, 205996674,
    2149860231574107266640794881013018991954334868648544321970832321663397274717824173725653451673, ⟨1, 0,
    -244100328030586, [190479729328, 39633735, 10996]⟩⟩)))) (.sy (.sy (.leaf ⟨477, 16, 774, 527, 16, 306,
    ⟨[[(357556027392, 0)], [(415538085888, 0)]], 3, 4⟩, ⟨[[(0, 321497572773), (0, 2084369996433), (4815040957, 0),
    (0, 54742664), (0, 87147)], [(0, 256403035581), (0, 374705270), (0, 7012604), (0, 99323), (0, 2121)], [(83443427,
    0), (0, 540433), (0, 11956), (0, 287), (0, 13)], [(0, 61440), (0, 491), (0, 18), (0, 1)]], 3, 4⟩, 1099511627776,
    0, 388590001, ⟨[[(29148991632010, 0), (94386196266, 0), (189527813, 0), (0, 191828), (2549, 0)], [(58261590104,
    0), (189605370, 0), (0, 24961), (3323, 0), (0, 73)], [(0, 5465631), (0, 166447), (1903, 0), (0, 61), (1, 0)],
    [(0, 16555), (683, 0), (0, 27), (1, 0)]], 3, 4⟩, 68719476736, 376018013,
    1019877301442097974208515428556387697164780229946872917929033264750178617573506606252887428301, ⟨1, 0,
    -150117244801134, [245891813583, 97344344, 51383]⟩⟩) (.leaf ⟨477, 16, 774, 517, 16, 307, ⟨[[(357556027392, 0)],
    [(415538085888, 0)]], 3, 4⟩, ⟨[[(180935737057, 0), (0, 2039287794885), (3798334246, 0), (0, 61866036), (0,
    628042)], [(0, 259775140937), (0, 473892115), (0, 9634859), (0, 219141), (0, 9975)], [(79943059, 0), (0, 736354),
    (0, 22853), (0, 1159), (0, 76)], [(0, 65584), (0, 913), (0, 65), (0, 6)]], 3, 4⟩, 1099511627776, 0, 454659686,
    ⟨[[(28072416632783, 0), (89565424358, 0), (197830060, 0), (0, 380735), (6206, 0)], [(56035866185, 0), (191522235,
    0), (0, 223741), (8880, 0), (0, 183)], [(0, 3137277), (0, 244631), (5332, 0), (0, 147), (3, 0)], [(0, 29573),
    (1684, 0), (0, 64), (2, 0)]], 3, 4⟩, 68719476736, 928411924,
    2073176305045118742122577938195653877848741959053733789289132240231637778473348719284826808024, ⟨1, 0,
    -150607824032510, [246695381601, 97662463, 51551]⟩⟩)) (.sy (.sx (.leaf ⟨939, 16, 1548, 754, 16, 453,
    ⟨[[(170724950016, 0)], [(415538085888, 0)]], 3, 4⟩, ⟨[[(148468670610, 0), (0, 2934784757725), (4069103494, 0),
    (0, 127454093), (0, 3597160)], [(0, 196378371833), (0, 427409635), (0, 11005170), (0, 457425), (0, 27590)],
    [(29119068, 0), (0, 400804), (0, 21264), (0, 1594), (0, 109)], [(0, 13888), (0, 414), (0, 45), (0, 4)]], 3, 4⟩,
    1099511627776, 0, 146848770, ⟨[[(27129655729337, 0), (58048735569, 0), (96468230, 0), (0, 216006), (2613, 0)],
    [(27444089537, 0), (68024698, 0), (0, 132802), (2848, 0), (0, 38)], [(0, 91157), (0, 66947), (1281, 0), (0, 22)],
    [(0, 6694), (289, 0), (0, 7)]], 3, 4⟩, 68719476736, 127527186,
    1998617517303480576591367745393485702507375516074048096155988286928267699992286531788314936059, ⟨1, 0,
    -229755950923472, [185011107602, 37225575, 9987]⟩⟩) (.leaf ⟨970, 16, 1548, 743, 16, 455, ⟨[[(159987531776, 0)],
    [(415538085888, 0)]], 3, 4⟩, ⟨[[(0, 81217428912), (0, 2985912202011), (3007292925, 0), (0, 179235163), (0,
    6821212)], [(0, 192730486544), (0, 505313594), (0, 15708786), (0, 829874), (0, 53378)], [(25803229, 0), (0,
    535952), (0, 37069), (0, 3078), (0, 215)], [(0, 14171), (0, 698), (0, 86), (0, 8), (0, 1)]], 3, 4⟩,
    1099511627776, 0, 239697583, ⟨[[(27142277044788, 0), (57071066389, 0), (101431608, 0), (0, 285802), (3538, 0)],
    [(26479975486, 0), (67708384, 0), (0, 182241), (3730, 0), (0, 49)], [(275221, 0), (0, 78327), (1613, 0), (0,
    28)], [(0, 7714), (346, 0), (0, 8)]], 3, 4⟩, 68719476736, 170726176,
    2343237747759620176956398739353166806836835101430424830999034659156090316445317141917485571525, ⟨1, 0,
    -215778447964596, [179891864123, 35039319, 9100]⟩⟩)) (.sx (.sy (.leaf ⟨939, 16, 1548, 1004, 16, 613,
    ⟨[[(170724950016, 0)], [(415538085888, 0)]], 3, 4⟩, ⟨[[(359848822201, 0), (0, 1967375488772), (563171062, 0), (0,
    42868598), (0, 1015386)], [(0, 268719970124), (0, 384497485), (0, 7585767), (0, 240797), (0, 7792)], [(36104744,
    0), (0, 503981), (0, 21541), (0, 922), (0, 31)], [(0, 23295), (0, 833), (0, 54), (0, 2)]], 3, 4⟩, 1099511627776,
    0, 114864114, ⟨[[(26444312883225, 0), (41092916917, 0), (58504444, 0), (0, 158244), (1470, 0)], [(26598827226,
    0), (53781745, 0), (0, 150917), (2153, 0), (0, 20)], [(947364, 0), (0, 81058), (1293, 0), (0, 16)], [(0, 11436),
    (383, 0), (0, 7)]], 3, 4⟩, 68719476736, 48500291,
    1456396997254217749093261482078691131247098782222135619285934707855991161463885069613213028675, ⟨1, 0,
    -310905955664654, [250357194172, 50373681, 13514]⟩⟩) (.leaf ⟨939, 16, 1548, 985, 16, 608, ⟨[[(170724950016, 0)],
    [(415538085888, 0)]], 3, 4⟩, ⟨[[(544890727020, 0), (0, 1950289680649), (0, 494492015), (0, 79220386), (0,
    2200962)], [(0, 269150573231), (0, 505673575), (0, 14032231), (0, 520727), (0, 16916)], [(31796902, 0), (0,
    888031), (0, 46687), (0, 2045), (0, 68)], [(0, 30654), (0, 1826), (0, 122), (0, 6)]], 3, 4⟩, 1099511627776, 0,
    197317755, ⟨[[(26003591630995, 0), (40079587350, 0), (65961677, 0), (0, 243779), (2309, 0)], [(25991594467, 0),
    (58432475, 0), (0, 241885), (3322, 0), (0, 31)], [(2007146, 0), (0, 116641), (1956, 0), (0, 24)], [(0, 16518),
    (565, 0), (0, 10)]], 3, 4⟩, 68719476736, 74624058,
    2905626476233661832205168525426462248620064040134330835588055971451544496526187104028513504986, ⟨1, 0,
    -308370018016492, [248315128966, 49962803, 13404]⟩⟩)) (.sy (.leaf ⟨970, 16, 1548, 991, 16, 617, ⟨[[(159987531776,
    0)], [(415538085888, 0)]], 3, 4⟩, ⟨[[(0, 88625953790), (0, 2015899963793), (0, 240613037), (0, 70913466), (0,
    1932798)], [(0, 265007170736), (0, 491101275), (0, 12571232), (0, 458646), (0, 15186)], [(30165554, 0), (0,
    790720), (0, 40559), (0, 1806), (0, 61)], [(0, 27281), (0, 1539), (0, 105), (0, 5)]], 3, 4⟩, 1099511627776, 0,
    166024547, ⟨[[(26461839378326, 0), (40145138911, 0), (63005205, 0), (0, 211979), (1996, 0)], [(25618964197, 0),
    (54746464, 0), (0, 202928), (2821, 0), (0, 27)], [(1529484, 0), (0, 98013), (1628, 0), (0, 20)], [(0, 13478),
    (461, 0), (0, 8)]], 3, 4⟩, 68719476736, 63502116,
    2501819824224964441561838693800616509842517381148111560070224047984029175533985576310211319924, ⟨1, 0,
    -292605060206936, [243941275086, 47514857, 12340]⟩⟩) (.skip)))))
theorem c56 : checkC job ⟨6, 8, 8, 10, 9, 13⟩ 3 100 lims t56 611 41 1024 27 3 32 = true := by decide +kernel

def t57 : CTree :=
  .sx (.sx (.sy (.leaf ⟨508, 16, 774, 521, 16, 314, ⟨[[(346818609152, 0)], [(415538085888, 0)]], 3, 4⟩,
    ⟨[[(383317460185, 0), (0, 2174424090120), (4256039752, 0), (0, 67284940), (0, 416046)], [(0, 250284688259), (0,
    486882620), (0, 9693751), (0, 181884), (0, 6734)], [(71016028, 0), (0, 703396), (0, 19151), (0, 775), (0, 49)],
    [(0, 56243), (0, 736), (0, 42), (0, 3)]], 3, 4⟩, 1099511627776, 0, 349369973, ⟨[[(29091449514419, 0),
    (90244452418, 0), (191578195, 0), (0, 295631), (4237, 0)], [(54403316918, 0), (176881430, 0), (0, 122204), (5648,
    0), (0, 121)], [(0, 3743315), (0, 182665), (3208, 0), (0, 94), (2, 0)], [(0, 19381), (996, 0), (0, 39), (1, 0)]],
    3, 4⟩, 68719476736, 577070856,
    1605130535952307892908122108307181680416370144691224302496802088651401056421100494826172003124, ⟨1, 0,
    -133995539371313, [236937257852, 88080765, 43658]⟩⟩) (.sx (.leaf ⟨1001, 16, 1548, 747, 16, 456, ⟨[[(149250113536,
    0)], [(415538085888, 0)]], 3, 4⟩, ⟨[[(0, 30718437885), (0, 3076824630356), (4604913571, 0), (0, 120939785), (0,
    2459168)], [(0, 186166030144), (0, 428373527), (0, 9992438), (0, 335775), (0, 19349)], [(25323083, 0), (0,
    355285), (0, 15595), (0, 1079), (0, 76)], [(0, 11567), (0, 291), (0, 29), (0, 3)]], 3, 4⟩, 1099511627776, 0,
    106282255, ⟨[[(28103349421810, 0), (59428854768, 0), (95389987, 0), (0, 171930), (1996, 0)], [(26627876616, 0),
    (63111931, 0), (0, 87413), (2035, 0), (0, 28)], [(0, 415081), (0, 48615), (859, 0), (0, 16)], [(0, 4341), (184,
    0), (0, 5)]], 3, 4⟩, 68719476736, 99477318,
    1664720715030502447027629606294405856910773755501171306622879155666763907337011792905580415692, ⟨1, 0,
    -201700344603908, [174706425674, 32975920, 8299]⟩⟩) (.leaf ⟨1032, 16, 1548, 736, 16, 458, ⟨[[(138512695296, 0)],
    [(415538085888, 0)]], 3, 4⟩, ⟨[[(498184982921, 0), (0, 3128178967760), (3678115524, 0), (0, 158201755), (0,
    4712886)], [(0, 183044933131), (0, 495590421), (0, 13326388), (0, 584258), (0, 37183)], [(22586353, 0), (0,
    446500), (0, 25424), (0, 2027), (0, 147)], [(0, 11600), (0, 452), (0, 53), (0, 5)]], 3, 4⟩, 1099511627776, 0,
    172723634, ⟨[[(28075642944112, 0), (58340837329, 0), (99767442, 0), (0, 230242), (2782, 0)], [(25716950789, 0),
    (62590267, 0), (0, 127017), (2767, 0), (0, 38)], [(0, 102172), (0, 57366), (1128, 0), (0, 20)], [(0, 5123), (229,
    0), (0, 6)]], 3, 4⟩, 68719476736, 136229892,
    2021280681481143989384173398814915005917399094280529687288041864561526585301654530506609608433, ⟨1, 0,
    -188414446180709, [170204003817, 31161480, 7607]⟩⟩))) (.sy (.leaf ⟨539, 16, 774, 513, 16, 320, ⟨[[(336081190912,
    0)], [(415538085888, 0)]], 3, 4⟩, ⟨[[(0, 327002678590), (0, 2261952031228), (3365165502, 0), (0, 91717701), (0,
    1526889)], [(0, 244323877647), (0, 631835087), (0, 14321513), (0, 423074), (0, 23439)], [(58792157, 0), (0,
    960317), (0, 37731), (0, 2433), (0, 178)], [(0, 53703), (0, 1318), (0, 119), (0, 11), (0, 1)]], 3, 4⟩,
    1099511627776, 0, 389579497, ⟨[[(29150180035314, 0), (86987128164, 0), (197856554, 0), (0, 437499), (6828, 0)],
    [(51155132903, 0), (167941221, 0), (0, 250244), (8986, 0), (0, 189)], [(0, 2228128), (0, 211938), (4907, 0), (0,
    138), (3, 0)], [(0, 23189), (1374, 0), (0, 53), (1, 0)]], 3, 4⟩, 68719476736, 924432671,
    2104374464069347392149156479817316342853641196431668249894524689930026754480785581553003108762, ⟨1, 0,
    -117335966423057, [227589383499, 79744003, 37255]⟩⟩) (.sx (.leaf ⟨1063, 16, 1548, 723, 16, 458, ⟨[[(127775277056,
    0)], [(415538085888, 0)]], 3, 4⟩, ⟨[[(0, 72413556593), (0, 3172101541484), (2380433256, 0), (0, 223092451), (0,
    9002198)], [(0, 179576899028), (0, 579575999), (0, 18806344), (0, 1046280), (0, 71018)], [(19687972, 0), (0,
    589258), (0, 43160), (0, 3788), (0, 279)], [(0, 12062), (0, 735), (0, 96), (0, 10), (0, 1)]], 3, 4⟩,
    1099511627776, 0, 299077984, ⟨[[(28106383803877, 0), (57615134159, 0), (105440416, 0), (0, 300471), (3761, 0)],
    [(24906293272, 0), (62608846, 0), (0, 172117), (3626, 0), (0, 50)], [(192123, 0), (0, 66984), (1423, 0), (0,
    26)], [(0, 5895), (275, 0), (0, 7)]], 3, 4⟩, 68719476736, 185978533,
    2296932317454035286606177343468494602941309659888942234036845265570011530141285098213458398492, ⟨1, 0,
    -174663145719260, [165242493575, 29371222, 6961]⟩⟩) (.leaf ⟨1094, 16, 1548, 708, 16, 457, ⟨[[(117037858816, 0)],
    [(415538085888, 0)]], 3, 4⟩, ⟨[[(116899833435, 0), (0, 3217012508207), (485361290, 0), (0, 339817101), (0,
    17130484)], [(0, 176212428306), (0, 692425843), (0, 28201579), (0, 1902875), (0, 134481)], [(16554052, 0), (0,
    824018), (0, 75165), (0, 7020), (0, 522)], [(0, 13251), (0, 1232), (0, 173), (0, 18), (0, 1)]], 3, 4⟩,
    1099511627776, 0, 540151031, ⟨[[(28097129661963, 0), (56754826128, 0), (113772720, 0), (0, 412691), (5362, 0)],
    [(24082740467, 0), (63664699, 0), (0, 243398), (4995, 0), (0, 69)], [(587706, 0), (0, 82510), (1881, 0), (0,
    34)], [(0, 7128), (345, 0), (0, 9)]], 3, 4⟩, 68719476736, 267089419,
    2426171216757922826827090531635265709699321327354647579289155395305932645670981374115033531355, ⟨0, 0,
    -160954798676635, [160211477726, 27670376, 6372]⟩⟩)))) (.sx (.sy (.sx (.leaf ⟨1125, 16, 1548, 715, 16, 458,
    ⟨[[(106300440576, 0)], [(415538085888, 0)]], 3, 4⟩, ⟨[[(0, 528442681903), (0, 3298736626307), (3302146653, 0),
    (0, 186535127), (0, 5592070)], [(0, 170103818666), (0, 549596389), (0, 14867627), (0, 645331), (0, 42523)],
    [(17501548, 0), (0, 459484), (0, 25702), (0, 2093), (0, 160)], [(0, 9648), (0, 415), (0, 49), (0, 5)]], 3, 4⟩,
    1099511627776, 0, 192877454, ⟨[[(29166249164380, 0), (59677075667, 0), (103245241, 0), (0, 218092), (2591, 0)],
    [(24420551198, 0), (57922561, 0), (0, 102954), (2365, 0), (0, 35)], [(0, 224275), (0, 45321), (880, 0), (0, 17)],
    [(0, 3564), (163, 0), (0, 4)]], 3, 4⟩, 68719476736, 133853833,
    1670357308860139238279152531001989563366501106677851409313428787464707264367519872871807372493, ⟨0, 0,
    -148323924145151, [156139447237, 26224294, 5873]⟩⟩) (.leaf ⟨1156, 16, 1548, 700, 16, 457, ⟨[[(95563022336, 0)],
    [(415538085888, 0)]], 3, 4⟩, ⟨[[(442914257372, 0), (0, 3339840136107), (1875157696, 0), (0, 256161270), (0,
    10385354)], [(0, 167064817419), (0, 633261461), (0, 20226346), (0, 1109270), (0, 78352)], [(15050893, 0), (0,
    585655), (0, 41559), (0, 3745), (0, 291)], [(0, 10055), (0, 639), (0, 84), (0, 9), (0, 1)]], 3, 4⟩,
    1099511627776, 0, 336746790, ⟨[[(29114308440616, 0), (58739863372, 0), (110153245, 0), (0, 301502), (3811, 0)],
    [(23634595956, 0), (58340249, 0), (0, 153908), (3390, 0), (0, 49)], [(84405, 0), (0, 56005), (1216, 0), (0, 23)],
    [(0, 4403), (213, 0), (0, 6)]], 3, 4⟩, 68719476736, 197689499,
    1922741575067405305281683652192691619841558619268425080703998013506130704493991722556917704295, ⟨0, 0,
    -135397374744814, [151622173265, 24782964, 5401]⟩⟩)) (.sy (.leaf ⟨570, 16, 774, 613, 16, 404, ⟨[[(325343772672,
    0)], [(415538085888, 0)]], 3, 4⟩, ⟨[[(0, 293443867841), (0, 1462281071565), (0, 398961959), (0, 55717455), (0,
    1595477)], [(0, 303138650477), (0, 729310491), (0, 17781533), (0, 673869), (0, 24594)], [(45681987, 0), (0,
    1932556), (0, 100847), (0, 4912), (0, 186)], [(0, 101034), (0, 6268), (0, 461), (0, 24), (0, 1)]], 3, 4⟩,
    1099511627776, 0, 986672459, ⟨[[(28360838163370, 0), (63630893441, 0), (155455342, 0), (0, 741127), (11193, 0)],
    [(46442863936, 0), (143734968, 0), (0, 763518), (17674, 0), (0, 279)], [(3360319, 0), (0, 415045), (11207, 0),
    (0, 229), (3, 0)], [(0, 60839), (3438, 0), (0, 101), (2, 0)]], 3, 4⟩, 68719476736, 908304701,
    2055806927236767956542160487510118155089030536754374783354286044267726462871139158695167791746, ⟨0, 0,
    -125227552948332, [271717818718, 90032412, 39776]⟩⟩) (.sx (.leaf ⟨1125, 16, 1548, 961, 16, 636, ⟨[[(106300440576,
    0)], [(415538085888, 0)]], 3, 4⟩, ⟨[[(72502188930, 0), (0, 2290488480810), (0, 1895509497), (0, 138887630), (0,
    4353047)], [(0, 243794024779), (0, 709290917), (0, 22436333), (0, 937759), (0, 33935)], [(15084568, 0), (0,
    1200891), (0, 71783), (0, 3511), (0, 130)], [(0, 27397), (0, 2290), (0, 171), (0, 9)]], 3, 4⟩, 1099511627776, 0,
    206484131, ⟨[[(27854140770268, 0), (39182360100, 0), (68277809, 0), (0, 265773), (2581, 0)], [(22995179582, 0),
    (49508098, 0), (0, 227548), (3219, 0), (0, 31)], [(1564432, 0), (0, 91602), (1613, 0), (0, 20)], [(0, 10848),
    (390, 0), (0, 7)]], 3, 4⟩, 68719476736, 75620923,
    2105015630857689483276139742788986171670196158689571483480943052319943887291024671976426447188, ⟨0, 0,
    -205969466716847, [216822463849, 36416269, 8155]⟩⟩) (.sy (.leaf ⟨1156, 16, 1548, 1196, 16, 804, ⟨[[(95563022336,
    0)], [(415538085888, 0)]], 3, 4⟩, ⟨[[(112586796227, 0), (0, 1483323488447), (0, 1051982047), (0, 31700313), (0,
    523175)], [(0, 304117033460), (0, 542263515), (0, 9939566), (0, 219163), (0, 4020)], [(12456454, 0), (0,
    1016888), (0, 32521), (0, 810), (0, 15)], [(0, 40970), (0, 2010), (0, 77), (0, 2)]], 3, 4⟩, 1099511627776, 0,
    200912252, ⟨[[(27976869801063, 0), (30553007455, 0), (46115479, 0), (0, 162479), (1269, 0)], [(22356100361, 0),
    (40289088, 0), (0, 174008), (1941, 0), (0, 15)], [(1962757, 0), (0, 83218), (1188, 0), (0, 12)], [(0, 12099),
    (350, 0), (0, 5)]], 3, 4⟩, 68719476736, 29626250,
    1758469650853514321788594153320953128096793832970698060282822434503725146316121989064526209752, ⟨0, 0,
    -238204571761117, [266748856248, 43600663, 9502]⟩⟩) (.skip))))) (.sy (.sx (.leaf ⟨1187, 16, 1548, 685, 16, 455,
    ⟨[[(84825604096, 0)], [(415538085888, 0)]], 3, 4⟩, ⟨[[(21117038020, 0), (0, 3381240022405), (0, 115967330), (0,
    376322147), (0, 19134500)], [(0, 164083355456), (0, 741183203), (0, 28974792), (0, 1933179), (0, 142820)],
    [(12419519, 0), (0, 782314), (0, 68908), (0, 6653), (0, 522)], [(0, 10953), (0, 1016), (0, 146), (0, 16), (0,
    1)]], 3, 4⟩, 1099511627776, 0, 601765846, ⟨[[(29137331004115, 0), (58089062690, 0), (118017788, 0), (0, 399253),
    (5283, 0)], [(22946568600, 0), (59117591, 0), (0, 210976), (4561, 0), (0, 67)], [(373118, 0), (0, 67395), (1576,
    0), (0, 30)], [(0, 5220), (263, 0), (0, 7)]], 3, 4⟩, 68719476736, 279845595,
    2126883535869302732209549881798213532581127347935699666246922461665554312412122965460696589927, ⟨0, 0,
    -122589224074121, [147017642536, 23402999, 4967]⟩⟩) (.leaf ⟨1218, 16, 1548, 665, 16, 450, ⟨[[(74088185856, 0)],
    [(415538085888, 0)]], 3, 4⟩, ⟨[[(504012911197, 0), (0, 3410023472729), (0, 3014326891), (0, 583024043), (0,
    34763995)], [(0, 160494388441), (0, 883921704), (0, 43348968), (0, 3368333), (0, 256082)], [(9424533, 0), (0,
    1092229), (0, 115303), (0, 11650), (0, 921)], [(0, 12576), (0, 1640), (0, 249), (0, 27), (0, 2)]], 3, 4⟩,
    1099511627776, 0, 1070713522, ⟨[[(29112554421494, 0), (57480511075, 0), (130829451, 0), (0, 571059), (7944, 0)],
    [(22227066897, 0), (61474152, 0), (0, 308661), (6598, 0), (0, 97)], [(787623, 0), (0, 86774), (2179, 0), (0, 41),
    (1, 0)], [(0, 6565), (345, 0), (0, 9)]], 3, 4⟩, 68719476736, 424179303,
    2203666904751481925275664816837692235765023551972068337899818863644200151130111063729073291264, ⟨0, 0,
    -109472096297667, [141702725153, 21983048, 4547]⟩⟩)) (.sy (.sx (.leaf ⟨1187, 16, 1548, 941, 16, 638,
    ⟨[[(84825604096, 0)], [(415538085888, 0)]], 3, 4⟩, ⟨[[(74674357878, 0), (0, 2394466815153), (0, 3172154316), (0,
    193820520), (0, 6440722)], [(0, 235934881453), (0, 838209912), (0, 29443572), (0, 1300542), (0, 48611)],
    [(9264682, 0), (0, 1462437), (0, 92835), (0, 4698), (0, 179)], [(0, 28858), (0, 2758), (0, 213), (0, 11)]], 3,
    4⟩, 1099511627776, 0, 245722233, ⟨[[(28353421071055, 0), (38869803054, 0), (72674603, 0), (0, 309548), (3075,
    0)], [(22068181114, 0), (48858787, 0), (0, 255440), (3655, 0), (0, 36)], [(1713000, 0), (0, 95322), (1732, 0),
    (0, 22)], [(0, 10657), (393, 0), (0, 7)]], 3, 4⟩, 68719476736, 89773764,
    2356860669844154786804801942279748993245386447952941807184103446327197061032213046327740133525, ⟨0, 0,
    -171894340569866, [206147815248, 32815634, 6965]⟩⟩) (.sy (.leaf ⟨1218, 16, 1548, 1183, 16, 814, ⟨[[(74088185856,
    0)], [(415538085888, 0)]], 3, 4⟩, ⟨[[(0, 475325352470), (0, 1567957973027), (0, 1585197653), (0, 43875256), (0,
    760078)], [(0, 297853895493), (0, 644423260), (0, 12902192), (0, 297986), (0, 5640)], [(5171805, 0), (0,
    1227570), (0, 41245), (0, 1060), (0, 20)], [(0, 43745), (0, 2378), (0, 93), (0, 2)]], 3, 4⟩, 1099511627776, 0,
    217618506, ⟨[[(28496592077298, 0), (30041876308, 0), (47969194, 0), (0, 179866), (1422, 0)], [(21502591651, 0),
    (39400551, 0), (0, 187437), (2100, 0), (0, 16)], [(2070998, 0), (0, 84673), (1231, 0), (0, 12)], [(0, 11753),
    (345, 0), (0, 5)]], 3, 4⟩, 68719476736, 32344487,
    2199120851731165284895711420405719869290527143819918993511300085827206497967123611861297135616, ⟨0, 0,
    -198022858636225, [256324485055, 39764891, 8225]⟩⟩) (.skip))) (.skip))))
theorem c57 : checkC job ⟨6, 8, 8, 10, 9, 13⟩ 3 100 lims t57 367 41 512 51 3 64 = true := by decide +kernel

end PyX.Kron.S2a
